import Verif.Proofs.Http
import Verif.Props.Position
/-!
C51, C52, C54: the web server. Its registry and the emulator are compared in `Verif/Props/Site.lean`.
-/

namespace Pica.Props
open Pica.Spec Web

theorem sane (A : Arith) (rotate : Rotate) : Sane (A.compute rotate) := fun p q => by
  obtain ⟨m, n, hm, hn, hr, -⟩ := C53_symmetric A rotate p q
  exact ⟨m, n, hm, hn, hr⟩

/-! ### C51: set-position -/

/-- C51: without a device of this address the answer is 404 and nothing happens. -/
theorem C51_unknown (measure : Measure) (heard : Nat → Bool) (w : Web) (hp : w.poisoned = false) (mac : MacAddress)
    (p : Position) (h : ∀ k i, w.devices.get? k = some i → i.mac ≠ mac) (hn : (AMap.keys w.devices).Nodup) :
    w.setPosition measure heard mac p = (w, [], .status 404) := by
  unfold setPosition
  rw [hp, place_none.mpr (by
    rintro ⟨k, i⟩ he
    exact h k i (AMap.get?_of_mem hn he))]
  rfl

/-- C51: otherwise one device of this address gets the position, all others stay as they are, and the new position and
the measurements from and to every device of another address are announced. -/
theorem C51_known (A : Arith) (rotate : Rotate) (w : Web) (hp : w.poisoned = false) (mac : MacAddress)
    (p : Position) (h : ∃ k i, w.devices.get? k = some i ∧ i.mac = mac) (hn : (AMap.keys w.devices).Nodup) :
    ∃ w' k i ess, w.devices.get? k = some i ∧ i.mac = mac ∧
      w.setPosition (A.compute rotate) always mac p = (w', .updated i.category mac p :: ess.flatten, .status 200) ∧
      w'.poisoned = false ∧ w'.devices.get? k = some { i with position := p } ∧
      (∀ j, j ≠ k → w'.devices.get? j = w.devices.get? j) ∧
      List.Forall₂ (About (A.compute rotate) { i with position := p })
        (w.devices.values.filter fun o => decide (o.mac ≠ mac)) ess := by
  unfold setPosition
  rw [hp]
  cases hpl : place mac p w.devices with
  | none =>
    obtain ⟨k, i, hk, hi⟩ := h
    exact absurd hi (place_none.mp hpl _ (AMap.mem_of_get? hk))
  | some z =>
    obtain ⟨m', x⟩ := z
    obtain ⟨a, k, i, b, e1, e2, e3, e4⟩ := place_some hpl
    obtain ⟨ess, hf, he⟩ := neighbors_all (sane A rotate) x 1 m'.values
    have hn' : (AMap.keys m').Nodup := by
      rw [e4]; rw [e1] at hn
      unfold AMap.keys at hn ⊢
      simpa using hn
    refine ⟨{ devices := m', poisoned := false }, k, i, ess, ?_, e2, ?_, rfl, ?_, ?_, ?_⟩
    · exact AMap.get?_of_mem hn (by rw [e1]; simp)
    · subst e3
      simp only [Bool.false_eq_true, if_false, he]
      rfl
    · exact AMap.get?_of_mem hn' (by rw [e4, e3]; simp)
    · intro j hj
      apply Option.ext
      intro v
      rw [AMap.get?_iff_mem hn', AMap.get?_iff_mem hn, e4, e1]
      simp only [List.mem_append, List.mem_cons, Prod.mk.injEq]
      constructor <;>
      · rintro (hv | ⟨hv, -⟩ | hv)
        · exact .inl hv
        · exact absurd hv hj
        · exact .inr (.inr hv)
    · have : (w.devices.values.filter fun o => decide (o.mac ≠ mac)) = m'.values.filter fun o => decide (o.mac ≠ x.mac) := by
        have hx : x.mac = mac := by rw [e3]; exact e2
        rw [hx, e1, e4]
        unfold AMap.values
        simp [e2, hx]
      rw [this, ← e3]
      exact hf

/-! ### C52 -/

/-- C52 does not hold: a connection event without listeners is a panic of the task that handles it, and after that every
request that needs the registry panics too. -/
theorem C52_false (w : Web) (hp : w.poisoned = false) (e : PicaEvent) (heard : Nat → Bool) (hh : heard 0 = false) :
    (w.connection heard e).2.2 = .panic .noListener ∧
    ∀ measure heard' op, (serve measure heard' (w.connection heard e).1 op).2.2 = .panic .poisoned := by
  have key : (w.connection heard e).2.2 = .panic .noListener ∧ (w.connection heard e).1.poisoned = true := by
    unfold connection announce
    rw [hp, hh]
    cases e <;> exact ⟨rfl, rfl⟩
  refine ⟨key.1, fun measure heard' op => ?_⟩
  have hq := key.2
  generalize (w.connection heard e).1 = w' at hq
  cases op with
  | connection e => unfold serve connection; simp only [hq]; rfl
  | setPosition m p => unfold serve setPosition; simp only [hq]; rfl
  | created m p h => unfold serve created; simp only [hq]; rfl
  | destroyed m h => unfold serve destroyed; simp only [hq]; rfl
  | getState => unfold serve getState; simp only [hq]; rfl

/-- An event that nobody listens to. -/
example : Web.new.poisoned = false ∧ (fun _ : Nat => false) 0 = false := ⟨rfl, rfl⟩

/-- C52: what is needed for a handler to succeed is a listener for each event it sends. -/
theorem C52_listeners (A : Arith) (rotate : Rotate) (heard : Nat → Bool) (w : Web) (hp : w.poisoned = false) (op : WebOp) :
    (Answered (serve (A.compute rotate) heard w op).2.2 ↔
      ∀ i < (serve (A.compute rotate) always w op).2.1.length, heard i = true) ∧
    (Answered (serve (A.compute rotate) heard w op).2.2 → (serve (A.compute rotate) heard w op).1.poisoned = false) := by
  have one : ∀ (w' : Web) (e : WebEvent), w'.poisoned = false →
      (Answered (w'.announce heard e (.status 200)).2.2 ↔
        ∀ i < (w'.announce always e (.status 200)).2.1.length, heard i = true) ∧
      (Answered (w'.announce heard e (.status 200)).2.2 → (w'.announce heard e (.status 200)).1.poisoned = false) := by
    intro w' e hw
    obtain ⟨h1, h2⟩ := announce_served w' heard e 200
    refine ⟨h1.trans ⟨?_, fun h => h 0 (by simp [announce, always])⟩, ?_⟩
    · intro h i hi
      have : i = 0 := by simpa [announce, always] using hi
      rw [this]; exact h
    · intro hs
      have h0 := h1.mp hs
      cases hq : (w'.announce heard e (.status 200)).1.poisoned with
      | false => rfl
      | true =>
        rcases h2.mp hq with h | h
        · rw [hw] at h; cases h
        · rw [h0] at h; cases h
  cases op with
  | connection e =>
    unfold serve connection
    dsimp only
    rw [hp]
    simp only [Bool.false_eq_true, if_false]
    cases e <;> exact one _ _ rfl
  | created mac p h =>
    unfold serve created
    dsimp only
    rw [hp]
    simp only [Bool.false_eq_true, if_false]
    exact one _ _ rfl
  | destroyed mac h =>
    unfold serve destroyed
    dsimp only
    rw [hp]
    simp only [Bool.false_eq_true, if_false]
    exact one _ _ rfl
  | getState =>
    unfold serve getState
    dsimp only
    rw [hp]
    exact ⟨⟨fun _ i hi => absurd hi (by simp), fun _ x hx => by cases hx⟩, fun _ => hp⟩
  | setPosition mac p =>
    unfold serve setPosition
    dsimp only
    rw [hp]
    simp only [Bool.false_eq_true, if_false]
    cases hpl : place mac p w.devices with
    | none => exact ⟨⟨fun _ i hi => absurd hi (by simp), fun _ x hx => by cases hx⟩, fun _ => hp⟩
    | some z =>
      obtain ⟨m', x⟩ := z
      dsimp only
      obtain ⟨n1, n2, n3⟩ := neighbors_heard (sane A rotate) heard x 1 m'.values
      obtain ⟨ess, -, he⟩ := neighbors_all (sane A rotate) x 1 m'.values
      rw [if_pos (show always 0 = true from rfl)]
      rw [he] at n1 n2 ⊢
      dsimp only at n1 n2 ⊢
      by_cases h0 : heard 0 = true
      · rw [if_pos h0]
        cases hx : (neighbors (A.compute rotate) heard x 1 m'.values).2 with
        | none =>
          rw [n2 hx]
          refine ⟨⟨fun _ i hi => ?_, fun _ x hx => by cases hx⟩, fun _ => rfl⟩
          match i with
          | 0 => exact h0
          | i + 1 =>
            have := n1.mp hx i (by simpa using hi)
            rwa [Nat.add_comm] at this
        | some y =>
          have e : neighbors (A.compute rotate) heard x 1 m'.values =
            ((neighbors (A.compute rotate) heard x 1 m'.values).1, some y) := by rw [← hx]
          rw [e]
          dsimp only
          refine ⟨⟨fun hs => absurd rfl (hs y), fun hi => ?_⟩, fun hs => absurd rfl (hs y)⟩
          have : (neighbors (A.compute rotate) heard x 1 m'.values).2 = none := n1.mpr (by
            intro i hlt
            rw [Nat.add_comm]
            exact hi (i + 1) (by simpa using hlt))
          rw [hx] at this; cases this
      · rw [if_neg h0]
        exact ⟨⟨fun hs => absurd rfl (hs _), fun hi => absurd (hi 0 (by simp)) h0⟩, fun hs => absurd rfl (hs _)⟩

/-- C52, for those who always have a listener: every request and event of any history is served. -/
theorem C52_partial (A : Arith) (rotate : Rotate) (ops : List ((Nat → Bool) × WebOp))
    (hl : ∀ o ∈ ops, ∀ i, o.1 i = true) :
    ∀ r ∈ (serveAll (A.compute rotate) .new ops).1, Answered r := by
  have key : ∀ w : Web, w.poisoned = false → ∀ r ∈ (serveAll (A.compute rotate) w ops).1, Answered r := by
    induction ops with
    | nil => intro w _ r hr; cases hr
    | cons o ops ih =>
      intro w hw r hr
      obtain ⟨heard, op⟩ := o
      obtain ⟨h1, h2⟩ := C52_listeners A rotate heard w hw op
      have hs := h1.mpr (fun i _ => hl _ (List.mem_cons_self ..) i)
      rcases List.mem_cons.mp hr with h | h
      · rw [h]; exact hs
      · exact ih (fun o ho => hl o (List.mem_cons_of_mem _ ho)) _ (h2 hs) r h
  exact key .new rfl

/-! ### C54 -/

theorem splitOn_none {c : Char} {l : List Char} (h : c ∉ l) : splitOn c l = [l] := by
  induction l with
  | nil => rfl
  | cons x l ih =>
    unfold splitOn
    rw [if_neg (fun e => h (by rw [e]; exact List.mem_cons_self ..)), ih (fun hm => h (List.mem_cons_of_mem _ hm))]

theorem splitOn_first {c : Char} {a : List Char} (h : c ∉ a) (b : List Char) :
    splitOn c (a ++ c :: b) = a :: splitOn c b := by
  induction a with
  | nil => show (if c = c then _ else _) = _; rw [if_pos rfl]
  | cons x a ih =>
    show splitOn c (x :: (a ++ c :: b)) = _
    rw [splitOn]
    rw [if_neg (fun e => h (by rw [e]; exact List.mem_cons_self ..)), ih (fun hm => h (List.mem_cons_of_mem _ hm))]

theorem splitOn_ne_nil (c : Char) (l : List Char) : splitOn c l ≠ [] := by
  cases l with
  | nil => simp [splitOn]
  | cons x l =>
    unfold splitOn
    split
    · simp
    · split <;> simp

theorem splitOn_join {c : Char} {l : List Char} : ∀ {p : List Char} {ps : List (List Char)}, splitOn c l = p :: ps →
    c ∉ p ∧ ((ps = [] ∧ l = p) ∨ ∃ r, l = p ++ c :: r ∧ splitOn c r = ps) := by
  induction l with
  | nil => intro p ps h; cases h; exact ⟨by simp, .inl ⟨rfl, rfl⟩⟩
  | cons x l ih =>
    intro p ps h
    unfold splitOn at h
    split at h
    · rename_i hx
      cases h
      exact ⟨by simp, .inr ⟨l, by rw [hx]; rfl, rfl⟩⟩
    · rename_i hx
      split at h
      · rename_i hn; exact absurd hn (splitOn_ne_nil c l)
      · rename_i q qs hq
        cases h
        obtain ⟨h1, h2⟩ := ih hq
        refine ⟨?_, ?_⟩
        · intro hm
          rcases List.mem_cons.mp hm with he | he
          · exact hx he.symm
          · exact h1 he
        · rcases h2 with ⟨rfl, rfl⟩ | ⟨r, rfl, hr⟩
          · exact .inl ⟨rfl, rfl⟩
          · exact .inr ⟨r, rfl, hr⟩

theorem slashes (path : List Char) : ∃ k, path = List.replicate k '/' ++ path.dropWhile (· == '/') := by
  induction path with
  | nil => exact ⟨0, rfl⟩
  | cons x l ih =>
    by_cases hx : x = '/'
    · obtain ⟨k, hk⟩ := ih
      refine ⟨k + 1, ?_⟩
      subst hx
      rw [List.dropWhile_cons_of_pos (by simp), List.replicate_succ, List.cons_append, ← hk]
    · refine ⟨0, ?_⟩
      rw [List.dropWhile_cons_of_neg (by simpa using hx)]
      rfl

theorem drop_slashes (k : Nat) {x : Char} (hx : x ≠ '/') (l : List Char) :
    (List.replicate k '/' ++ x :: l).dropWhile (· == '/') = x :: l := by
  induction k with
  | zero => exact List.dropWhile_cons_of_neg (by simpa using hx)
  | succ k ih => rw [List.replicate_succ, List.cons_append, List.dropWhile_cons_of_pos (by simp), ih]

/-- The words of a path that names a handler. -/
theorem words {path : List Char} {name : String} {arg : Option (List Char)} (h : Names path name arg)
    (hn : ∃ x l, name.toList = x :: l ∧ x ≠ '/') (hs : '/' ∉ name.toList) :
    splitOn '/' (path.dropWhile (· == '/')) = name.toList :: arg.toList := by
  obtain ⟨k, rfl, ha⟩ := h
  obtain ⟨x, l, he, hx⟩ := hn
  cases arg with
  | none =>
    simp only [List.append_nil]
    rw [he, drop_slashes k hx, ← he, splitOn_none hs]; rfl
  | some t =>
    simp only
    rw [List.append_assoc, he, List.cons_append, drop_slashes k hx, ← List.cons_append, ← he, splitOn_first hs,
      splitOn_none (ha t rfl)]
    rfl

/-- C54: static files are served whatever the body. -/
theorem C54_static (json : Bytes → Json) (path : List Char) (body : Option Bytes) (h : path ∈ staticPaths) :
    route json path body = .now (.file path) := by
  unfold route; rw [if_pos h]

/-- C54: the handlers without an address. -/
theorem C54_plain (json : Bytes → Json) (path : List Char) (body : Bytes) (hs : path ∉ staticPaths) :
    (Names path "events" none → route json path (some body) = .now .stream) ∧
    (Names path "get-state" none → route json path (some body) = .getState) := by
  constructor <;>
  · intro h
    have hw := words h ⟨_, _, rfl, by decide⟩ (by decide)
    unfold route
    rw [if_neg hs]
    dsimp only
    rw [hw]
    rfl

/-- C54: the handlers with an address. A malformed address or position is answered by 406. -/
theorem C54_address_partial (json : Bytes → Json) (path : List Char) (body : Bytes) (hs : path ∉ staticPaths) (name : String)
    (hname : name ∈ macNames) (t : List Char) (h : Names path name (some t)) :
    (MacAddress.parse t = none → route json path (some body) = .now (.status 406)) ∧
    ∀ m, MacAddress.parse t = some m →
      (name = "destroy-anchor" → route json path (some body) = .destroyAnchor m) ∧
      (name ≠ "destroy-anchor" → json body = .bad → route json path (some body) = .now (.status 406)) ∧
      ∀ p, (json body = .ok p ∨ json body = .eof ∧ p = .default) →
        (name = "create-anchor" → route json path (some body) = .createAnchor m p) ∧
        (name = "set-position" ∨ name = "init-uci-device" → route json path (some body) = .setPosition m p) := by
  have hw : splitOn '/' (path.dropWhile (· == '/')) = [name.toList, t] := by
    simp only [macNames, List.mem_cons, List.not_mem_nil, or_false] at hname
    rcases hname with rfl | rfl | rfl | rfl <;> exact words h ⟨_, _, rfl, by decide⟩ (by decide)
  have hr : route json path (some body) = (match splitOn '/' (path.dropWhile (· == '/')) with
    | [a, mac] =>
      if a = "init-uci-device".toList then macAndPosition .setPosition mac (json body)
      else if a = "set-position".toList then macAndPosition .setPosition mac (json body)
      else if a = "create-anchor".toList then macAndPosition .createAnchor mac (json body)
      else if a = "destroy-anchor".toList then
        match MacAddress.parse mac with
        | none => .now (.status 406)
        | some m => .destroyAnchor m
      else .now (.status 404)
    | _ => .now (.status 404)) := by
    unfold route; rw [if_neg hs]; dsimp only; rw [hw]; rfl
  rw [hr, hw]
  dsimp only
  simp only [macNames, List.mem_cons, List.not_mem_nil, or_false] at hname
  have hpos : ∀ f : MacAddress → Position → Action, ∀ m, MacAddress.parse t = some m →
      (json body = .bad → macAndPosition f t (json body) = .now (.status 406)) ∧
      ∀ p, (json body = .ok p ∨ json body = .eof ∧ p = .default) → macAndPosition f t (json body) = f m p := by
    intro f m hm
    unfold macAndPosition
    rw [hm]
    refine ⟨fun hj => by rw [hj]; rfl, ?_⟩
    rintro p (hj | ⟨hj, rfl⟩) <;> rw [hj] <;> rfl
  have hnone : ∀ f : MacAddress → Position → Action, MacAddress.parse t = none →
      macAndPosition f t (json body) = .now (.status 406) := by
    intro f hm; unfold macAndPosition; rw [hm]
  rcases hname with rfl | rfl | rfl | rfl
  · rw [if_pos rfl]
    exact ⟨hnone _, fun m hm => ⟨fun hc => absurd hc (by decide), fun _ => (hpos _ m hm).1,
      fun p hp => ⟨fun hc => absurd hc (by decide), fun _ => (hpos _ m hm).2 p hp⟩⟩⟩
  · rw [if_neg (by decide), if_pos rfl]
    exact ⟨hnone _, fun m hm => ⟨fun hc => absurd hc (by decide), fun _ => (hpos _ m hm).1,
      fun p hp => ⟨fun hc => absurd hc (by decide), fun _ => (hpos _ m hm).2 p hp⟩⟩⟩
  · rw [if_neg (by decide), if_neg (by decide), if_pos rfl]
    exact ⟨hnone _, fun m hm => ⟨fun hc => absurd hc (by decide), fun _ => (hpos _ m hm).1,
      fun p hp => ⟨fun _ => (hpos _ m hm).2 p hp, fun hc => absurd hc (by decide)⟩⟩⟩
  · rw [if_neg (by decide), if_neg (by decide), if_neg (by decide), if_pos rfl]
    refine ⟨fun hm => by rw [hm], fun m hm => ⟨fun _ => by rw [hm], fun hc => absurd rfl hc,
      fun p hp => ⟨fun hc => absurd hc (by decide), fun hc => absurd hc (by decide)⟩⟩⟩

/-- C54: any other path is answered by 404. -/
theorem C54_unknown (json : Bytes → Json) (path : List Char) (body : Bytes) (hs : path ∉ staticPaths)
    (h : ¬Known path) : route json path (some body) = .now (.status 404) := by
  obtain ⟨k, hk⟩ := slashes path
  unfold route
  rw [if_neg hs]
  dsimp only
  split
  · rename_i a ha
    obtain ⟨h1, h2⟩ := splitOn_join ha
    have hp : path.dropWhile (· == '/') = a := by
      rcases h2 with ⟨-, h2⟩ | ⟨r, -, hr⟩
      · exact h2
      · exact absurd hr (splitOn_ne_nil _ _)
    rw [hp] at hk
    rw [if_neg, if_neg]
    · intro he
      exact h (.inl ⟨"get-state", by simp [plainNames], k, by rw [hk, he]; simp, by simp⟩)
    · intro he
      exact h (.inl ⟨"events", by simp [plainNames], k, by rw [hk, he]; simp, by simp⟩)
  · rename_i a mac ha
    obtain ⟨h1, h2⟩ := splitOn_join ha
    have hp : path.dropWhile (· == '/') = a ++ '/' :: mac ∧ '/' ∉ mac := by
      rcases h2 with ⟨h2, -⟩ | ⟨r, hr, hr'⟩
      · cases h2
      · obtain ⟨g1, g2⟩ := splitOn_join hr'
        rcases g2 with ⟨-, rfl⟩ | ⟨r', -, hr''⟩
        · exact ⟨hr, g1⟩
        · exact absurd hr'' (splitOn_ne_nil _ _)
    rw [hp.1] at hk
    have hno : ∀ n ∈ macNames, a ≠ n.toList := by
      intro n hn he
      refine h (.inr ⟨n, hn, mac, k, by rw [hk, he]; simp, ?_⟩)
      intro t ht
      cases ht
      exact hp.2
    rw [if_neg (hno _ (by simp [macNames])), if_neg (hno _ (by simp [macNames])), if_neg (hno _ (by simp [macNames])),
      if_neg (hno _ (by simp [macNames]))]
  · rfl

/-- C54: an answer given at once, as are 404 and 406 above, leaves the registry alone and announces nothing. -/
theorem C54_unchanged (w : Web) (measure : Measure) (heard : Nat → Bool) (r : Reply) :
    w.act measure heard (.now r) = some (w, [], r) := rfl

/-- Paths of each kind. -/
example : Names "//set-position/00%3A01".toList "set-position" (some "00%3A01".toList) ∧
    "//set-position/00%3A01".toList ∉ staticPaths ∧ ¬Known "/set-position/00:01/".toList ∧
    "/set-position/00:01/".toList ∉ staticPaths := by
  refine ⟨⟨2, by decide, by intro t h; cases h; decide⟩, by decide, ?_, by decide⟩
  rintro (⟨n, hn, h⟩ | ⟨n, hn, t, h⟩)
  · simp only [plainNames, List.mem_cons, List.not_mem_nil, or_false] at hn
    rcases hn with rfl | rfl <;> have := words h ⟨_, _, rfl, by decide⟩ (by decide) <;> revert this <;> decide
  · have hw : splitOn '/' ("/set-position/00:01/".toList.dropWhile (· == '/')) = [n.toList, t] := by
      simp only [macNames, List.mem_cons, List.not_mem_nil, or_false] at hn
      rcases hn with rfl | rfl | rfl | rfl <;> exact words h ⟨_, _, rfl, by decide⟩ (by decide)
    have := congrArg List.length hw
    revert this
    simp only [List.length_cons, List.length_nil]
    decide

end Pica.Props
