import Verif.Spec.OpenApi
import Verif.Props.Http
import Verif.Props.WebText
/-! C81: the web server and its description in `static/openapi.yaml`. -/

namespace Pica.Props
open Pica.Spec Pica.Spec.Json Web

/-! ### Documents -/

theorem string_ne_category (c : Category) : ¬Conforms OpenApi.category (.str (categoryName c)) := by
  intro h
  unfold OpenApi.category at h
  generalize hv : Value.str (categoryName c) = v at h
  cases h with
  | enum hn =>
    injection hv with hv
    simp only [List.mem_cons, List.not_mem_nil, or_false] at hn
    rcases hn with rfl | rfl <;> cases c <;> revert hv <;> decide

/-- An object conforms only if each of its members does that the schema describes. -/
theorem of_object {ps : List (String × Schema)} {ms : List (List Char × Value)} (h : Conforms (.object ps) (.obj ms)) :
    ∀ p ∈ ps, ∀ m ∈ ms, m.1 = p.1.toList → Conforms p.2 m.2 := by
  cases h with
  | object h => exact h

theorem of_category {ps : List (String × Schema)} {ms : List (List Char × Value)} (k : String) (c : Category)
    (hp : (k, OpenApi.category) ∈ ps) (hm : (k.toList, Value.str (categoryName c)) ∈ ms) :
    ¬Conforms (.object ps) (.obj ms) := fun h =>
  string_ne_category c (of_object h _ hp _ hm rfl)

/-- C81 is false of the state: the body of /get-state is never an array. -/
theorem C81_false_state (euler : Euler) (devices : List Info) :
    ∃ v, Json.read (WebText.state euler devices) = some v ∧ ¬Conforms OpenApi.state v := by
  refine ⟨_, C79_state euler devices, ?_⟩
  unfold OpenApi.state stateContent
  rintro ⟨⟩

/-- C81 is false of the events: not one of them is as described, for the categories begin with a capital letter. -/
theorem C81_false_events (euler : Euler) (e : WebEvent) :
    ∃ t v, understood (WebText.item euler e) = [(t, some v)] ∧ ¬OpenApi.Event OpenApi.category (t, v) := by
  refine ⟨_, _, by simpa using C79_events euler [e], ?_⟩
  rintro ⟨x, hx, ht, hc⟩
  simp only [OpenApi.data, List.mem_cons, List.not_mem_nil, or_false] at hx
  cases e with
  | added c m p =>
    rcases hx with rfl | rfl | rfl | rfl <;> dsimp only [eventContent] at ht <;> first
      | exact absurd ht (by decide)
      | exact of_category "category" c (by simp) (by simp [deviceFields, member]) hc
  | removed c m =>
    rcases hx with rfl | rfl | rfl | rfl <;> dsimp only [eventContent] at ht <;> first
      | exact absurd ht (by decide)
      | exact of_category "category" c (by simp) (by simp [member]) hc
  | updated c m p =>
    rcases hx with rfl | rfl | rfl | rfl <;> dsimp only [eventContent] at ht <;> first
      | exact absurd ht (by decide)
      | exact of_category "category" c (by simp) (by simp [deviceFields, member]) hc
  | neighbor s d x =>
    rcases hx with rfl | rfl | rfl | rfl <;> dsimp only [eventContent] at ht <;> first
      | exact absurd ht (by decide)
      | exact of_category "source_category" s.1 (by simp) (by simp [member]) hc

theorem neighbors_measured {measure : Measure} {heard : Nat → Bool} {d : Info} {n : Nat} {l : List Info} :
    ∀ e ∈ (neighbors measure heard d n l).1, ∃ s t x p q, e = .neighbor s t x ∧ measure p q = .ok x := by
  induction l generalizing n with
  | nil => intro e he; cases he
  | cons o l ih =>
    intro e he
    unfold neighbors at he
    split at he
    · split at he
      · cases he
      · rename_i a ha
        split at he
        · cases he
        · rename_i b hb
          split at he
          · cases he
          · split at he
            · split at he
              · rcases List.mem_cons.mp he with rfl | he
                · exact ⟨_, _, _, _, _, rfl, ha⟩
                · rcases List.mem_cons.mp he with rfl | he
                  · exact ⟨_, _, _, _, _, rfl, hb⟩
                  · exact ih e he
              · rcases List.mem_cons.mp he with rfl | he
                · exact ⟨_, _, _, _, _, rfl, ha⟩
                · cases he
            · cases he
    · exact ih e he

theorem announce_events {w : Web} {heard : Nat → Bool} {e x : WebEvent} {r : Reply} (h : x ∈ (w.announce heard e r).2.1) :
    x = e := by
  unfold announce at h
  split at h
  · exact List.mem_singleton.mp h
  · cases h

theorem serve_measured {measure : Measure} {heard : Nat → Bool} {w : Web} {op : WebOp} {s t : Category × MacAddress}
    {x : RangingMeasurement} (h : .neighbor s t x ∈ (serve measure heard w op).2.1) : ∃ p q, measure p q = .ok x := by
  cases op with
  | connection e =>
    unfold serve connection at h
    dsimp only at h
    split at h
    · cases h
    · cases e <;> cases announce_events h
  | setPosition mac p =>
    unfold serve setPosition at h
    dsimp only at h
    split at h
    · cases h
    · split at h
      · cases h
      · split at h
        · split at h <;>
          · rename_i hn
            rcases List.mem_cons.mp h with h | h
            · cases h
            · obtain ⟨_, _, _, p, q, he, hq⟩ := neighbors_measured _ (by rw [hn]; exact h)
              cases he
              exact ⟨p, q, hq⟩
        · cases h
  | created m p n =>
    unfold serve created at h
    dsimp only at h
    split at h
    · cases h
    · cases announce_events h
  | destroyed m n =>
    unfold serve destroyed at h
    dsimp only at h
    split at h
    · cases h
    · cases announce_events h
  | getState =>
    unfold serve getState at h
    dsimp only at h
    split at h <;> cases h

/-- C81, without the names of the categories: every event the server sends is as described; distances and angles keep to their
bounds. -/
theorem C81_events_partial (A : Arith) (rotate : Rotate) (euler : Euler) (heard : Nat → Bool) (w : Web) (op : WebOp)
    (e : WebEvent) (he : e ∈ (serve (A.compute rotate) heard w op).2.1) :
    ∃ t v, understood (WebText.item euler e) = [(t, some v)] ∧ OpenApi.Event .string (t, v) := by
  refine ⟨_, _, by simpa using C79_events euler [e], ?_⟩
  have obj : ∀ (ps : List (String × Schema)) (ms : List (List Char × Value)),
      (∀ p ∈ ps, ∀ m ∈ ms, m.1 = p.1.toList → Conforms p.2 m.2) → Conforms (.object ps) (.obj ms) := fun _ _ h => .object h
  cases e with
  | added c m p =>
    refine ⟨_, .head _, rfl, obj _ _ ?_⟩
    simp only [deviceFields, member, List.forall_mem_cons]
    simp [Conforms.string]
  | removed c m =>
    refine ⟨_, .tail _ (.head _), rfl, obj _ _ ?_⟩
    simp only [member, List.forall_mem_cons]
    simp [Conforms.string]
  | updated c m p =>
    refine ⟨_, .tail _ (.tail _ (.head _)), rfl, obj _ _ ?_⟩
    simp only [deviceFields, member, List.forall_mem_cons]
    simp [Conforms.string]
  | neighbor s d x =>
    obtain ⟨p, q, hx⟩ := serve_measured he
    obtain ⟨y, hy, h1, h2, h3, h4⟩ := C55_angles A rotate p q
    rw [hx] at hy
    cases hy
    have hr : (x.range.toNat : Int) ≤ 65535 := by have := x.range.toNat_lt; omega
    refine ⟨_, .tail _ (.tail _ (.tail _ (.head _))), rfl, obj _ _ ?_⟩
    simp only [member, List.forall_mem_cons]
    simp [Conforms.string, Conforms.range (Int.natCast_nonneg _) hr, Conforms.range h1 h2, Conforms.range h3 h4]

/-! ### Status codes -/

theorem answer_create {m : MacAddress} {r : Except PicaCommandError Nat} (h : Answer (.createAnchor m) (some r)) :
    (∃ n, r = .ok n) ∨ ∃ m, r = .error (.deviceAlreadyExists m) := by
  rcases h with h | ⟨x, p, env, q, out, h, hs, hx⟩
  · cases h
  · cases h
    rw [Pica.step, Pica.createAnchor] at hs
    split at hs
    · cases hs; simp only [List.mem_singleton, Out.anchorReply.injEq] at hx; exact .inr ⟨_, hx⟩
    · split at hs
      · cases hs
      · cases hs; simp only [List.mem_singleton, Out.anchorReply.injEq] at hx; exact .inl ⟨_, hx⟩

theorem answer_destroy {m : MacAddress} {r : Except PicaCommandError Nat} (h : Answer (.destroyAnchor m) (some r)) :
    (∃ n, r = .ok n) ∨ ∃ m, r = .error (.deviceNotFound m) := by
  rcases h with h | ⟨x, p, env, q, out, h, hs, hx⟩
  · cases h
  · cases h
    rw [Pica.step, Pica.destroyAnchor] at hs
    split at hs <;> cases hs <;> simp only [List.mem_singleton, Out.anchorReply.injEq] at hx
    · exact .inr ⟨_, hx⟩
    · exact .inl ⟨_, hx⟩

/-- The codes of the handlers. -/
theorem setPosition_code {measure : Measure} {heard : Nat → Bool} {w : Web} {m : MacAddress} {p : Position} {c : Nat}
    (h : (w.setPosition measure heard m p).2.2 = .status c) : c = 200 ∨ c = 404 := by
  unfold setPosition at h
  split at h
  · cases h
  · split at h
    · cases h; exact .inr rfl
    · dsimp only at h
      split at h
      · split at h <;> cases h
        exact .inl rfl
      · cases h

theorem announce_code {w : Web} {heard : Nat → Bool} {e : WebEvent} {r : Reply} {c : Nat}
    (h : (w.announce heard e r).2.2 = .status c) : r = .status c := by
  unfold announce at h
  split at h
  · exact h
  · cases h

theorem created_code {heard : Nat → Bool} {w : Web} {m : MacAddress} {p : Position} {r : Option (Except PicaCommandError Nat)}
    {c : Nat} (ha : Answer (.createAnchor m) r) (h : (w.created heard m p r).2.2 = .status c) : c = 200 ∨ c = 409 ∨ c = 500 := by
  cases r with
  | none => cases h; exact .inr (.inr rfl)
  | some r =>
    rcases answer_create ha with ⟨n, rfl⟩ | ⟨n, rfl⟩
    · unfold created at h
      dsimp only at h
      split at h
      · cases h
      · cases announce_code h; exact .inl rfl
    · cases h; exact .inr (.inl rfl)

theorem destroyed_code {heard : Nat → Bool} {w : Web} {m : MacAddress} {r : Option (Except PicaCommandError Nat)}
    {c : Nat} (ha : Answer (.destroyAnchor m) r) (h : (w.destroyed heard m r).2.2 = .status c) : c = 200 ∨ c = 404 ∨ c = 500 := by
  cases r with
  | none => cases h; exact .inr (.inr rfl)
  | some r =>
    rcases answer_destroy ha with ⟨n, rfl⟩ | ⟨n, rfl⟩
    · unfold destroyed at h
      dsimp only at h
      split at h
      · cases h
      · cases announce_code h; exact .inl rfl
    · cases h; exact .inr (.inl rfl)

theorem sent_codes {measure : Measure} {heard : Nat → Bool} {w : Web} {json : Bytes → Json} {path : List Char} {body : Bytes}
    (hs : path ∉ staticPaths) {name : String} {cs : List Nat} (hname : (name, cs) ∈ OpenApi.sent) {t : List Char}
    (hn : Names path name (some t)) {c : Nat} (h : Tells measure heard w (route json path (some body)) (.status c)) :
    c ∈ cs := by
  have hname' : name ∈ macNames ∧ 406 ∈ cs := by
    simp only [OpenApi.sent, List.mem_cons, Prod.mk.injEq, List.not_mem_nil, or_false] at hname
    rcases hname with ⟨rfl, rfl⟩ | ⟨rfl, rfl⟩ | ⟨rfl, rfl⟩ | ⟨rfl, rfl⟩ <;> decide
  have hr := C54_address_partial json path body hs name hname'.1 t hn
  have now : Tells measure heard w (.now (.status 406)) (.status c) → c ∈ cs := by
    intro h
    cases h with
    | act h =>
      injection h with h; injection h with _ h; injection h with _ h; injection h with h
      rw [← h]; exact hname'.2
  cases hm : MacAddress.parse t with
  | none => rw [hr.1 hm] at h; exact now h
  | some m =>
    obtain ⟨h1, h2, h3⟩ := hr.2 m hm
    by_cases hd : name = "destroy-anchor"
    · rw [h1 hd] at h
      subst hd
      have : cs = [200, 404, 406, 500] := by simpa [OpenApi.sent] using hname
      subst this
      generalize hq : Reply.status c = q at h
      cases h with
      | act h => cases h
      | destroy ha =>
        rcases destroyed_code ha hq.symm with rfl | rfl | rfl <;> decide
    · have key : json body ≠ .bad → c ∈ cs := by
        intro hb
        have := h3 (match json body with | .ok p => p | _ => .default) (by
          cases hj : json body with
          | bad => exact absurd hj hb
          | ok p => simp
          | eof => simp)
        simp only [OpenApi.sent, List.mem_cons, Prod.mk.injEq, List.not_mem_nil, or_false] at hname
        rcases hname with ⟨rfl, rfl⟩ | ⟨rfl, rfl⟩ | ⟨rfl, rfl⟩ | ⟨rfl, rfl⟩
        · rw [this.2 (.inr rfl)] at h
          cases h with
          | act h =>
            injection h with h
            rcases setPosition_code (congrArg (·.2.2) h) with rfl | rfl <;> decide
        · rw [this.2 (.inl rfl)] at h
          cases h with
          | act h =>
            injection h with h
            rcases setPosition_code (congrArg (·.2.2) h) with rfl | rfl <;> decide
        · rw [this.1 rfl] at h
          generalize hq : Reply.status c = q at h
          cases h with
          | act h => cases h
          | create ha => rcases created_code ha hq.symm with rfl | rfl | rfl <;> decide
        · exact absurd rfl hd
      cases hj : json body with
      | bad => rw [h2 hd hj] at h; exact now h
      | ok p => exact key (by rw [hj]; simp)
      | eof => exact key (by rw [hj]; simp)

/-- The requests of the examples, and a registry with one device. -/
def request (name : String) (t : String) : List Char := '/' :: name.toList ++ '/' :: t.toList
def registry : Web := ⟨[(0, ⟨.uci, .short ⟨[0, 1], rfl⟩, .default⟩)], false⟩

theorem request_names (name t : String) (h : '/' ∉ t.toList) : Names (request name t) name (some t.toList) :=
  ⟨1, rfl, by intro t' ht; cases ht; exact h⟩

/-- C81, of the status codes: which codes there are for each command. -/
theorem C81_codes_partial (measure : Measure) (json : Bytes → Json) (hj : json [] = .eof) (name : String) (cs : List Nat)
    (hname : (name, cs) ∈ OpenApi.sent) (c : Nat) :
    (∃ heard w path body t, path ∉ staticPaths ∧ Names path name (some t) ∧
      Tells measure heard w (route json path (some body)) (.status c)) ↔ c ∈ cs := by
  constructor
  · rintro ⟨heard, w, path, body, t, hs, hn, h⟩
    exact sent_codes hs hname hn h
  · intro hc
    simp only [OpenApi.sent, List.mem_cons, Prod.mk.injEq, List.not_mem_nil, or_false] at hname
    have hslash : '/' ∉ "zz".toList ∧ '/' ∉ "00:01".toList := by decide
    have wrong : ∀ name ∈ macNames, request name "zz" ∉ staticPaths → ∃ heard w path body t, path ∉ staticPaths ∧ Names path name (some t) ∧
        Tells measure heard w (route json path (some body)) (.status 406) := by
      intro name hn hs
      refine ⟨always, .new, _, [], _, hs, request_names name "zz" hslash.1, ?_⟩
      rw [(C54_address_partial json _ [] hs name hn _ (request_names name "zz" hslash.1)).1 (by decide)]
      exact .act rfl
    have right : ∀ (name : String) (a : Action) (w : Web) (code : Nat), request name "00:01" ∉ staticPaths →
        (Names (request name "00:01") name (some "00:01".toList) → route json (request name "00:01") (some []) = a) →
        Tells measure always w a (.status code) → ∃ heard w path body t, path ∉ staticPaths ∧ Names path name (some t) ∧
        Tells measure heard w (route json path (some body)) (.status code) := by
      intro name a w code hs ha h
      refine ⟨always, w, _, [], _, hs, request_names name "00:01" hslash.2, ?_⟩
      rw [ha (request_names name "00:01" hslash.2)]
      exact h
    have at₁ : ∀ name ∈ macNames, request name "00:01" ∉ staticPaths → ∀ hn,
        _ := fun name hn hs hp => (C54_address_partial json (request name "00:01") [] hs name hn "00:01".toList hp).2 (.short ⟨[0, 1], rfl⟩) (by decide)
    let env : Env := { estimate := fun _ _ => none, alive := fun _ => true, tid := 0 }
    have create : ∀ (w : Web) (code : Nat) (r : Option (Except PicaCommandError Nat)), Answer (.createAnchor (.short ⟨[0, 1], rfl⟩)) r →
        (w.created always (.short ⟨[0, 1], rfl⟩) .default r).2.2 = .status code →
        ∃ heard w path body t, path ∉ staticPaths ∧ Names path "create-anchor" (some t) ∧
          Tells measure heard w (route json path (some body)) (.status code) := by
      intro w code r ha hc
      refine right _ _ w _ (by decide) (fun hp => ((at₁ _ (by decide) (by decide) hp).2.2 _ (.inr ⟨hj, rfl⟩)).1 rfl) ?_
      rw [← hc]
      exact .create ha
    have destroy : ∀ (w : Web) (code : Nat) (r : Option (Except PicaCommandError Nat)), Answer (.destroyAnchor (.short ⟨[0, 1], rfl⟩)) r →
        (w.destroyed always (.short ⟨[0, 1], rfl⟩) r).2.2 = .status code →
        ∃ heard w path body t, path ∉ staticPaths ∧ Names path "destroy-anchor" (some t) ∧
          Tells measure heard w (route json path (some body)) (.status code) := by
      intro w code r ha hc
      refine right _ _ w _ (by decide) (fun hp => (at₁ _ (by decide) (by decide) hp).1 rfl) ?_
      rw [← hc]
      exact .destroy ha
    let full : Pica := { Pica.new with anchors := [(.short ⟨[0, 1], rfl⟩, ⟨0, .short ⟨[0, 1], rfl⟩⟩)], counter := 1 }
    rcases hname with ⟨rfl, rfl⟩ | ⟨rfl, rfl⟩ | ⟨rfl, rfl⟩ | ⟨rfl, rfl⟩ <;>
      simp only [List.mem_cons, List.not_mem_nil, or_false] at hc
    · rcases hc with rfl | rfl | rfl
      · exact right _ _ registry _ (by decide) (fun hp => ((at₁ _ (by decide) (by decide) hp).2.2 _ (.inr ⟨hj, rfl⟩)).2 (.inr rfl)) (.act rfl)
      · exact right _ _ .new _ (by decide) (fun hp => ((at₁ _ (by decide) (by decide) hp).2.2 _ (.inr ⟨hj, rfl⟩)).2 (.inr rfl)) (.act rfl)
      · exact wrong _ (by decide) (by decide)
    · rcases hc with rfl | rfl | rfl
      · exact right _ _ registry _ (by decide) (fun hp => ((at₁ _ (by decide) (by decide) hp).2.2 _ (.inr ⟨hj, rfl⟩)).2 (.inl rfl)) (.act rfl)
      · exact right _ _ .new _ (by decide) (fun hp => ((at₁ _ (by decide) (by decide) hp).2.2 _ (.inr ⟨hj, rfl⟩)).2 (.inl rfl)) (.act rfl)
      · exact wrong _ (by decide) (by decide)
    · rcases hc with rfl | rfl | rfl | rfl
      · exact create .new _ (some (.ok 0)) (.inr ⟨_, .new, env, _, _, rfl, rfl, List.mem_singleton.mpr rfl⟩) rfl
      · exact wrong _ (by decide) (by decide)
      · exact create .new _ (some (.error (.deviceAlreadyExists _)))
          (.inr ⟨_, full, env, _, _, rfl, rfl, List.mem_singleton.mpr rfl⟩) rfl
      · exact create .new _ none (.inl rfl) rfl
    · rcases hc with rfl | rfl | rfl | rfl
      · exact destroy .new _ (some (.ok 0)) (.inr ⟨_, full, env, _, _, rfl, rfl, List.mem_singleton.mpr rfl⟩) rfl
      · exact destroy .new _ (some (.error (.deviceNotFound _)))
          (.inr ⟨_, .new, env, _, _, rfl, rfl, List.mem_singleton.mpr rfl⟩) rfl
      · exact wrong _ (by decide) (by decide)
      · exact destroy .new _ none (.inl rfl) rfl

/-- C81 is false of the status codes: for every command with an address there are requests answered by a code that is not
listed. -/
theorem C81_false_codes (measure : Measure) (json : Bytes → Json) (hj : json [] = .eof) (name : String) (cs : List Nat)
    (hname : (name, cs) ∈ OpenApi.codes) :
    ∃ c heard w path body t, path ∉ staticPaths ∧ Names path name (some t) ∧
      Tells measure heard w (route json path (some body)) (.status c) ∧ c ∉ cs := by
  have h : ∀ x ∈ OpenApi.codes, ∃ y ∈ OpenApi.sent, x.1 = y.1 ∧ ∃ c ∈ y.2, c ∉ x.2 := by decide
  obtain ⟨⟨_, ds⟩, hy, rfl, c, hc, hn⟩ := h _ hname
  obtain ⟨heard, w, path, body, t, h1, h2, h3⟩ := (C81_codes_partial measure json hj _ ds hy c).mpr hc
  exact ⟨c, heard, w, path, body, t, h1, h2, h3, hn⟩

/-- /init-uci-device never says that the device is already initialised (403). -/
theorem C81_false_initialized (measure : Measure) (json : Bytes → Json) (hj : json [] = .eof) :
    ¬∃ heard w path body t, path ∉ staticPaths ∧ Names path "init-uci-device" (some t) ∧
      Tells measure heard w (route json path (some body)) (.status 403) := fun h =>
  absurd ((C81_codes_partial measure json hj _ _ (.head _) 403).mp h) (by decide)

example : ("set-position", [200, 404, 406]) ∈ OpenApi.sent := by decide

end Pica.Props
