import Verif.Props.Site
import Verif.Props.Http
import Verif.Props.Registry
import Verif.Spec.Replies
/-! C90: what the clients of the web server get. -/

namespace Pica.Props
open Pica.Spec Pica.Site Pica.Web

/-- C90: a connection is registered at the origin, and announced. -/
theorem C90_connected (w : Web) (hp : w.poisoned = false) (heard : Nat → Bool) (hh : heard 0 = true) (h : Nat) (mac : MacAddress) :
    ∃ w' r, w.connection heard (.connected h mac) = (w', [.added .uci mac ⟨0, 0, 0, 0, 0, 0⟩], r) ∧ Answered r ∧
      NowHas w w' h ⟨.uci, mac, ⟨0, 0, 0, 0, 0, 0⟩⟩ := by
  refine ⟨{ w with devices := w.devices.insert h ⟨.uci, mac, ⟨0, 0, 0, 0, 0, 0⟩⟩ }, .status 200, ?_, (by rintro x ⟨⟩), hp, fun k => ?_⟩
  · unfold connection announce
    rw [hp, hh]
    rfl
  · show AMap.get? (AMap.insert _ _ _) _ = _
    rw [AMap.get?_insert]
    simp only [eq_comm]

/-- C90: a disconnection is registered and announced. -/
theorem C90_disconnected (w : Web) (hp : w.poisoned = false) (heard : Nat → Bool) (hh : heard 0 = true) (h : Nat)
    (mac : MacAddress) :
    ∃ w' r, w.connection heard (.disconnected h mac) = (w', [.removed .uci mac], r) ∧ Answered r ∧ NoLonger w w' h := by
  refine ⟨{ w with devices := w.devices.erase h }, .status 200, ?_, (by rintro x ⟨⟩), hp, fun k => ?_⟩
  · unfold connection announce
    rw [hp, hh]
    rfl
  · show AMap.get? (AMap.erase _ _) _ = _
    rw [AMap.get?_erase]
    simp only [eq_comm]

/-- C90: an anchor that has been created is registered at the position of the request and announced. -/
theorem C90_created (w : Web) (hp : w.poisoned = false) (heard : Nat → Bool) (hh : heard 0 = true) (h : Nat) (mac : MacAddress)
    (p : Position) :
    ∃ w', answered w heard ⟨mac, some p⟩ (.ok h) = (w', [.added .anchor mac p], .status 200) ∧ NowHas w w' h ⟨.anchor, mac, p⟩ := by
  refine ⟨{ w with devices := w.devices.insert h ⟨.anchor, mac, p⟩ }, ?_, hp, fun k => ?_⟩
  · unfold answered created announce
    rw [hp, hh]
    rfl
  · show AMap.get? (AMap.insert _ _ _) _ = _
    rw [AMap.get?_insert]
    simp only [eq_comm]

/-- C90: an anchor that has been destroyed is removed from the registry, which is announced. -/
theorem C90_destroyed (w : Web) (hp : w.poisoned = false) (heard : Nat → Bool) (hh : heard 0 = true) (h : Nat)
    (mac : MacAddress) :
    ∃ w', answered w heard ⟨mac, none⟩ (.ok h) = (w', [.removed .anchor mac], .status 200) ∧ NoLonger w w' h := by
  refine ⟨{ w with devices := w.devices.erase h }, ?_, hp, fun k => ?_⟩
  · unfold answered destroyed announce
    rw [hp, hh]
    rfl
  · show AMap.get? (AMap.erase _ _) _ = _
    rw [AMap.get?_erase]
    simp only [eq_comm]

/-- C90: a request for an anchor that fails changes nothing and announces nothing; its status says why. -/
theorem C90_refused (w : Web) (heard : Nat → Bool) (a : Ask) (mac : MacAddress) :
    answered w heard a (.error (.deviceAlreadyExists mac)) = (w, [], .status 409) ∧
    answered w heard a (.error (.deviceNotFound mac)) = (w, [], .status 404) := by
  unfold answered
  cases a.create <;> exact ⟨rfl, rfl⟩

/-- C90: a request for an anchor whose command is lost is answered by 500. -/
theorem C90_lost (w : Web) (heard : Nat → Bool) (mac : MacAddress) (p : Position) :
    w.created heard mac p none = (w, [], .status 500) ∧ w.destroyed heard mac none = (w, [], .status 500) := ⟨rfl, rfl⟩

/-- C90: the state is the list of the registered devices. -/
theorem C90_state (w : Web) (hp : w.poisoned = false) (hn : (AMap.keys w.devices).Nodup) :
    ∃ l, w.getState = (w, [], .state l) ∧ l.length = w.devices.length ∧ ∀ i, i ∈ l ↔ ∃ h, w.devices.get? h = some i := by
  refine ⟨AMap.values w.devices, by unfold getState; rw [hp]; rfl, List.length_map .., fun i => ?_⟩
  constructor
  · intro hi
    obtain ⟨⟨h, j⟩, hm, rfl⟩ := List.mem_map.mp hi
    exact ⟨h, AMap.get?_of_mem hn hm⟩
  · rintro ⟨h, hi⟩
    exact List.mem_map.mpr ⟨(h, i), AMap.mem_of_get? hi, rfl⟩

/-- C90: a handler that panics leaves the lock poisoned, and with a poisoned lock every handler panics and does nothing. -/
theorem C90_poison (measure : Measure) (heard : Nat → Bool) (w : Web) (op : WebOp) :
    (∀ x, (serve measure heard w op).2.2 = .panic x → (serve measure heard w op).1.poisoned = true) ∧
    (w.poisoned = true → serve measure heard w op = (w, [], .panic .poisoned)) := by
  have ann : ∀ (w' : Web) e r, Answered r → ∀ x, (w'.announce heard e r).2.2 = .panic x → (w'.announce heard e r).1.poisoned = true := by
    intro w' e r hr x hx
    unfold announce at hx ⊢
    split at hx
    · exact absurd hx (hr x)
    · rename_i h; rw [if_neg h]; rfl
  have ok : Answered (.status 200) := by rintro x ⟨⟩
  cases hp : w.poisoned with
  | true =>
    have : serve measure heard w op = (w, [], .panic .poisoned) := by
      cases op with
      | connection e => unfold serve connection; simp only [hp]; rfl
      | setPosition m p => unfold serve setPosition; simp only [hp]; rfl
      | created m p h => unfold serve created; simp only [hp]; rfl
      | destroyed m h => unfold serve destroyed; simp only [hp]; rfl
      | getState => unfold serve getState; simp only [hp]; rfl
    exact ⟨fun _ _ => by rw [this]; exact hp, fun _ => this⟩
  | false =>
    refine ⟨fun x hx => ?_, fun h => (by cases h)⟩
    cases op with
    | connection e =>
      unfold serve connection at hx ⊢
      simp only [hp] at hx ⊢
      cases e <;> exact ann _ _ _ ok x hx
    | created m p h =>
      unfold serve created at hx ⊢
      simp only [hp] at hx ⊢
      exact ann _ _ _ ok x hx
    | destroyed m h =>
      unfold serve destroyed at hx ⊢
      simp only [hp] at hx ⊢
      exact ann _ _ _ ok x hx
    | getState =>
      unfold serve getState at hx
      simp only [hp] at hx
      cases hx
    | setPosition m p =>
      unfold serve setPosition at hx ⊢
      simp only [hp, Bool.false_eq_true, if_false] at hx ⊢
      cases hpl : place m p w.devices with
      | none => rw [hpl] at hx; cases hx
      | some z =>
        obtain ⟨ds, d⟩ := z
        rw [hpl] at hx
        dsimp only at hx ⊢
        by_cases h0 : heard 0 = true
        · rw [if_pos h0] at hx ⊢
          cases hnb : neighbors measure heard d 1 (AMap.values ds) with
          | mk es y =>
            rw [hnb] at hx
            cases y with
            | none => cases hx
            | some y => rfl
        · rw [if_neg h0]; rfl

/-- C90: the files are served under exactly their paths; for any other path a request whose body cannot be read is a panic of
its handler. -/
theorem C90_files (json : Bytes → Json) (path : List Char) :
    (path ∈ filePaths.map String.toList → ∀ body, route json path body = .now (.file path)) ∧
    (path ∉ filePaths.map String.toList → route json path none = .now (.panic .body) ∧
      ∀ body, route json path (some body) ≠ .now (.file path)) := by
  have e : filePaths.map String.toList = staticPaths := rfl
  rw [e]
  refine ⟨fun h body => C54_static json path body h, fun h => ⟨by unfold route; rw [if_neg h], fun body hr => ?_⟩⟩
  unfold route at hr
  rw [if_neg h] at hr
  dsimp only at hr
  have mp : ∀ (f : MacAddress → Position → Action) m j, (∀ a b r, f a b ≠ .now r) → macAndPosition f m j ≠ .now (.file path) := by
    intro f m j hf h
    unfold macAndPosition at h
    split at h
    · cases h
    · split at h
      · cases h
      · exact hf _ _ _ h
  split at hr
  · split at hr
    · cases hr
    · split at hr <;> cases hr
  · split at hr
    · exact mp _ _ _ (by rintro a b r ⟨⟩) hr
    · split at hr
      · exact mp _ _ _ (by rintro a b r ⟨⟩) hr
      · split at hr
        · exact mp _ _ _ (by rintro a b r ⟨⟩) hr
        · split at hr
          · split at hr <;> cases hr
          · cases hr
  · cases hr

/-- C90: while no more than 16 connection events wait the next one can be handled and none is lost; with more the program
ends. -/
theorem C90_events (measure : Measure) (s : Site) :
    ((∃ e u, Site.Step measure s (.event e) u) ↔ 0 < s.events.length ∧ s.events.length ≤ 16) ∧
    ((∃ u, Site.Step measure s .lags u) ↔ 16 < s.events.length) ∧ ∀ u, Site.Step measure s .lags u → u.ended = true := by
  refine ⟨⟨?_, ?_⟩, ⟨?_, fun h => ⟨_, .lags h⟩⟩, ?_⟩
  · rintro ⟨e, u, h⟩
    cases h with
    | event he hl => exact ⟨by rw [he]; simp, hl⟩
  · rintro ⟨h1, h2⟩
    cases he : s.events with
    | nil => rw [he] at h1; cases h1
    | cons e es => exact ⟨e, _, .event (heard := always) he h2⟩
  · rintro ⟨u, h⟩
    cases h with
    | lags h => exact h
  · intro u h
    cases h
    rfl

/-- C90: handling a connection event ends the program exactly if it leaves the lock poisoned. -/
theorem C90_ends (measure : Measure) (s u : Site) (e : PicaEvent) (h : Site.Step measure s (.event e) u) :
    u.ended = true ↔ u.web.poisoned = true := by
  cases h with
  | @event _ es heard _ _ =>
    show isPanic (s.web.connection heard e).2.2 = true ↔ (s.web.connection heard e).1.poisoned = true
    cases hp : s.web.poisoned with
    | true =>
      unfold connection
      rw [if_pos hp]
      exact ⟨fun _ => hp, fun _ => rfl⟩
    | false =>
      have key : ∀ (w : Web) (x : WebEvent), w.poisoned = false →
          (isPanic (w.announce heard x (.status 200)).2.2 = true ↔ (w.announce heard x (.status 200)).1.poisoned = true) := by
        intro w x hw
        unfold announce
        split
        · exact ⟨fun h => (by cases h), fun h => (by rw [hw] at h; cases h)⟩
        · exact ⟨fun _ => rfl, fun _ => rfl⟩
      unfold connection
      rw [if_neg (by rw [hp]; decide)]
      cases e <;> exact key _ _ hp

theorem outcomes_append (ls : List Site.Label) (l : Site.Label) : outcomes (ls ++ [l]) = outcomes ls ++ outcomes [l] :=
  List.filterMap_append ..

/-- The requests for anchors that have not been answered are those of the queue. -/
theorem paired {measure : Measure} {ls : List Site.Label} {s : Site} (hr : Site.Run measure .new ls s) :
    (∃ pairs : List (Ask × Except PicaCommandError Nat), pairs.map Prod.fst ++ s.asks = requests ls ∧
      pairs.map (fun x => (x.1.command, x.2)) = outcomes ls ∧ (takenAnswers ls ++ s.answers).Perm pairs) ∧
      s.asks.map Ask.command = s.sys.queue.filter isAnchor := by
  generalize hn : Site.new = n at hr
  induction hr with
  | nil => subst hn; exact ⟨⟨[], rfl, rfl, .nil⟩, rfl⟩
  | @step t u ls l hrun he hstop hst ih =>
    subst hn
    obtain ⟨⟨pairs, h1, h2, h3⟩, hasks⟩ := ih
    have hreach := site_system hrun
    have hreq : requests (ls ++ [l]) = requests ls ++ requests [l] := List.filterMap_append ..
    have htak : takenAnswers (ls ++ [l]) = takenAnswers ls ++ takenAnswers [l] := List.filterMap_append ..
    rw [hreq, outcomes_append, htak]
    -- nothing happens to the requests
    have same : requests [l] = [] → outcomes [l] = [] → takenAnswers [l] = [] → u.asks = t.asks → u.answers = t.answers →
        u.sys.queue.filter isAnchor = t.sys.queue.filter isAnchor →
        (∃ pairs : List (Ask × Except PicaCommandError Nat), pairs.map Prod.fst ++ u.asks = requests ls ++ requests [l] ∧
          pairs.map (fun x => (x.1.command, x.2)) = outcomes ls ++ outcomes [l] ∧
          (takenAnswers ls ++ takenAnswers [l] ++ u.answers).Perm pairs) ∧
          u.asks.map Ask.command = u.sys.queue.filter isAnchor := by
      intro e1 e2 e3 e4 e5 e6
      rw [e1, e2, e3, e4, e5, e6, List.append_nil, List.append_nil, List.append_nil]
      exact ⟨⟨pairs, h1, h2, h3⟩, hasks⟩
    cases hst with
    | @system l t' hl hst => exact same rfl rfl rfl rfl rfl (silent_frame hl hst).2
    | @ask a t' hst =>
      refine ⟨⟨pairs, ?_, h2.trans (List.append_nil _).symm, ?_⟩, ?_⟩
      · rw [← h1, List.append_assoc]
        rfl
      · show (takenAnswers ls ++ [] ++ t.answers).Perm _
        rw [List.append_nil]
        exact h3
      · cases hst
        show List.map _ (t.asks ++ [a]) = List.filter _ (t.sys.queue ++ [a.command])
        rw [List.map_append, List.filter_append, hasks, List.filter_cons_of_pos (isAnchor_command a)]
        rfl
    | @process c out t' hst =>
      have hq : ∃ q, t.sys.queue = c :: q ∧ t'.queue = q ∧
          t.sys.pica.step (t.sys.env (t.web.estimate measure)) c = .ok (t'.pica, out) := by
        generalize hev : System.env t.sys (t.web.estimate measure) = env at hst
        cases hst with
        | @process est c q p out hq hstep =>
          obtain ⟨f1, f2, -⟩ := System.applyAll_frame out { t.sys with pica := p, queue := q, spawned := t.sys.spawned + 1 }
          exact ⟨q, hq, f2, by rw [f1]; exact hstep⟩
      obtain ⟨q, hq, htq, hstep⟩ := hq
      have hinv := System.reachable_inv hreach
      obtain ⟨f1, -⟩ := hear_frame out { t with sys := t' }
      rw [hq] at hasks
      by_cases hanc : isAnchor c = true
      · rw [List.filter_cons_of_pos hanc] at hasks
        obtain ⟨a, as, ha, hac, has⟩ := List.map_eq_cons_iff.mp hasks
        have hst' := Pica.step_anc hstep
        obtain ⟨r, hr⟩ : ∃ r, out = [.anchorReply r] := by
          cases hst' with
          | same _ _ h1 h2 =>
            cases c <;> first | exact absurd rfl (h1 _) | exact absurd rfl (h2 _) | cases hanc
          | known => exact ⟨_, rfl⟩
          | create => exact ⟨_, rfl⟩
          | unknown => exact ⟨_, rfl⟩
          | destroy => exact ⟨_, rfl⟩
        subst hr
        have hu : [Out.anchorReply r].foldl hear { t with sys := t' } =
            { t with sys := t', asks := as, answers := t.answers ++ [(a, r)] } := by
          rw [List.foldl_cons, List.foldl_nil]
          unfold hear
          dsimp only
          rw [ha]
        rw [hu]
        refine ⟨⟨pairs ++ [(a, r)], ?_, ?_, ?_⟩, ?_⟩
        · show _ = requests ls ++ []
          rw [List.append_nil, ← h1, ha, List.map_append, List.append_assoc]
          rfl
        · rw [List.map_append, h2, List.map_singleton, hac]
          rfl
        · show (takenAnswers ls ++ [] ++ (t.answers ++ [(a, r)])).Perm _
          rw [List.append_nil, ← List.append_assoc]
          exact h3.append_right _
        · show as.map _ = t'.queue.filter _
          rw [htq]
          exact has
      · have g1 : ∀ m, c ≠ .createAnchor m := fun m hc => hanc (by rw [hc]; rfl)
        have g2 : ∀ m, c ≠ .destroyAnchor m := fun m hc => hanc (by rw [hc]; rfl)
        have hno := step_unanswered hinv.pica hstep g1 g2
        obtain ⟨k1, k2⟩ := hear_quiet hno { t with sys := t' }
        refine same rfl ?_ rfl k1 k2 ?_
        · unfold outcomes
          rw [List.filterMap_cons]
          dsimp only
          split
          · rfl
          · rename_i heq
            exfalso
            split at heq
            · exact hno _ List.mem_cons_self
            · cases heq
        · rw [f1]
          show t'.queue.filter _ = _
          rw [htq, hq, List.filter_cons_of_neg hanc]
    | panics => exact same rfl rfl rfl rfl rfl rfl
    | event => exact same rfl rfl rfl rfl rfl rfl
    | lags => exact same rfl rfl rfl rfl rfl rfl
    | @answer a r before after heard hb =>
      refine ⟨⟨pairs, h1.trans (List.append_nil _).symm, h2.trans (List.append_nil _).symm, ?_⟩, hasks⟩
      rw [hb] at h3
      refine List.Perm.trans ?_ h3
      show (takenAnswers ls ++ [(a, r)] ++ (before ++ after)).Perm _
      rw [List.append_assoc]
      exact (List.perm_middle (l₁ := before)).symm.append_left _
    | @drops a r before after hb =>
      refine ⟨⟨pairs, h1.trans (List.append_nil _).symm, h2.trans (List.append_nil _).symm, ?_⟩, hasks⟩
      rw [hb] at h3
      refine List.Perm.trans ?_ h3
      show (takenAnswers ls ++ [(a, r)] ++ (before ++ after)).Perm _
      rw [List.append_assoc]
      exact (List.perm_middle (l₁ := before)).symm.append_left _
    | position => exact same rfl rfl rfl rfl rfl rfl
    | shuffle => exact same rfl rfl rfl rfl rfl rfl

/-- C90: the requests for anchors are answered in their order, each by the outcome of its own command, and no answer is seen
twice. -/
theorem C90_paired (measure : Measure) (ls : List Site.Label) (s : Site) (hr : Site.Run measure .new ls s) :
    ∃ pairs : List (Ask × Except PicaCommandError Nat), pairs.map Prod.fst ++ s.asks = requests ls ∧
      pairs.map (fun x => (x.1.command, x.2)) = outcomes ls ∧ (takenAnswers ls ++ s.answers).Perm pairs :=
  (paired hr).1

/-- An anchor is asked for twice and destroyed; two answers have been seen, the first of them last, and the third is under way. -/
example (measure : Measure) : ∃ ls s, Site.Run measure .new ls s ∧ (requests ls).length = 3 ∧ (outcomes ls).length = 3 ∧
    takenAnswers ls = [(⟨someMac, some .default⟩, .error (.deviceAlreadyExists someMac)), (⟨someMac, some .default⟩, .ok 0)] ∧
    s.answers = [(⟨someMac, none⟩, .ok 0)] := by
  cases h : Ex.moves measure .new [] [.ask ⟨someMac, some .default⟩, .ask ⟨someMac, some .default⟩, .process, .process,
    .ask ⟨someMac, none⟩, .process, .answer 1, .answer 0] with
  | none => cases (show some _ = none from h)
  | some z =>
    obtain ⟨ls, s, b⟩ := z
    refine ⟨ls, s, Ex.moves_run h .nil, ?_⟩
    cases (show some _ = some _ from h)
    exact ⟨rfl, rfl, rfl, rfl⟩

/-- A registry with a device and an anchor; its lock is not poisoned. -/
example : ∃ w : Web, w.poisoned = false ∧ (AMap.keys w.devices).Nodup ∧ w.devices.length = 2 ∧ always 0 = true :=
  ⟨⟨[(0, ⟨.uci, someMac, .default⟩), (1, ⟨.anchor, someMac, .default⟩)], false⟩, rfl, by decide, rfl, rfl⟩

/-- A handler that panics because nobody listens. -/
example (measure : Measure) : ∃ x, (serve measure (fun _ => false) .new (.created someMac .default 0)).2.2 = .panic x := ⟨_, rfl⟩

end Pica.Props
