import Verif.Proofs.Alike
import Mathlib.Data.List.Induction
import Mathlib.Data.List.Forall2
/-! What a command does to one host, by itself. -/

namespace Pica.Influence
open Spec

/-! ### One device -/

/-- What a command that concerns a host does to its device and brings it. -/
inductive DStep : Option Device → Heard → List Packet → List Effect → Option Device → Prop
  | packet {d d' : Device} {b : Bytes} {r : Option Packet} {e : List Effect} (tid : Nat) :
      d.receivePacket tid b = .ok (d', r, e) → DStep (some d) (.packet b) (r.toList.filterMap plain) e (some d')
  | info {d : Device} {sid : UInt32} {s : Session} : d.session sid = some s → s.isSessionInfoNtfEnabled = true →
      DStep (some d) (.round sid) [.ntf (.sessionInfo s.sequenceNumber sid 0 0 [] [])] []
        (some (d.putSession sid { s with sequenceNumber := s.sequenceNumber + 1, data := [] }))
  | quiet {d : Device} {sid : UInt32} {s : Session} : d.session sid = some s → s.isSessionInfoNtfEnabled = false →
      DStep (some d) (.round sid) [] [] (some (d.putSession sid { s with data := [] }))
  | stop {d : Device} {mac : MacAddress} {sid : UInt32} :
      DStep (some d) (.stop mac sid) [] (d.stopInBand mac sid).2 (some (d.stopInBand mac sid).1)
  | left {d : Device} : DStep (some d) .left [] d.dropSessions none
  | gone {x : Heard} : DStep none x [] [] none

/-- The sessions of the device have keys of their own. -/
def Good (o : Option Device) : Prop := ∀ d, o = some d → (AMap.keys d.sessions).Nodup

theorem BothAlike.refl (o : Option Device) : BothAlike o o := by
  cases o
  · trivial
  · exact Alike.refl _

theorem BothAlike.symm {o q : Option Device} (h : BothAlike o q) : BothAlike q o := by
  cases o <;> cases q
  · trivial
  · exact h.elim
  · exact h.elim
  · exact Alike.symm h

theorem BothAlike.trans {o q r : Option Device} (h : BothAlike o q) (g : BothAlike q r) : BothAlike o r := by
  cases o <;> cases q <;> cases r
  case none.none.none => trivial
  case some.some.some => exact Alike.trans h g
  all_goals first | exact h.elim | exact g.elim

theorem unnamed_round {s s' : Session} (h : unnamed s = unnamed s') :
    unnamed { s with sequenceNumber := s.sequenceNumber + 1, data := [] } =
      unnamed { s' with sequenceNumber := s'.sequenceNumber + 1, data := [] } := by
  cases s with | mk x1 x2 x3 x4 x5 x6 x7 x8 => cases s' with | mk y1 y2 y3 y4 y5 y6 y7 y8 =>
  obtain ⟨rfl, rfl, rfl, rfl, rfl, rfl, g⟩ := unnamed_iff.1 h
  exact unnamed_iff.2 ⟨rfl, rfl, rfl, rfl, rfl, rfl, g⟩

theorem unnamed_empty {s s' : Session} (h : unnamed s = unnamed s') :
    unnamed { s with data := [] } = unnamed { s' with data := [] } := by
  cases s with | mk x1 x2 x3 x4 x5 x6 x7 x8 => cases s' with | mk y1 y2 y3 y4 y5 y6 y7 y8 =>
  obtain ⟨rfl, rfl, rfl, rfl, rfl, rfl, g⟩ := unnamed_iff.1 h
  exact unnamed_iff.2 ⟨rfl, rfl, rfl, rfl, rfl, rfl, g⟩

theorem unnamed_info {s s' : Session} (h : unnamed s = unnamed s') :
    s.sequenceNumber = s'.sequenceNumber ∧ s.isSessionInfoNtfEnabled = s'.isSessionInfoNtfEnabled := by
  cases s with | mk x1 x2 x3 x4 x5 x6 x7 x8 => cases s' with | mk y1 y2 y3 y4 y5 y6 y7 y8 =>
  obtain ⟨rfl, rfl, rfl, rfl, rfl, rfl, g⟩ := unnamed_iff.1 h
  exact ⟨rfl, rfl⟩

theorem dstep_alike {o q o' q' : Option Device} {x : Heard} {pk pk' : List Packet} {es es' : List Effect}
    (h : BothAlike o q) (go : Good o) (gq : Good q) (s : DStep o x pk es o') (t : DStep q x pk' es' q') :
    pk = pk' ∧ (es.map nameless).Perm (es'.map nameless) ∧ BothAlike o' q' := by
  cases s with
  | @packet d d' b r e tid e =>
    cases t with
    | packet tid' e' =>
      have b := receive_alike h (go _ rfl) (gq _ rfl) tid tid' b
      rw [e, e'] at b
      cases b with
      | ok b1 b2 => exact ⟨rfl, b2, b1⟩
    | gone => exact h.elim
  | info e i =>
    cases t with
    | info e' i' =>
      rcases Alike.session h _ with ⟨a, _⟩ | ⟨s, s', a, b, c⟩
      · rw [e] at a; cases a
      · rw [e] at a; cases a
        rw [e'] at b; cases b
        exact ⟨by rw [(unnamed_info c).1], .nil, Alike.put h (unnamed_round c) _⟩
    | quiet e' i' =>
      rcases Alike.session h _ with ⟨a, _⟩ | ⟨s, s', a, b, c⟩
      · rw [e] at a; cases a
      · rw [e] at a; cases a
        rw [e'] at b; cases b
        rw [(unnamed_info c).2, i'] at i
        cases i
    | gone => exact h.elim
  | quiet e i =>
    cases t with
    | quiet e' i' =>
      rcases Alike.session h _ with ⟨a, _⟩ | ⟨s, s', a, b, c⟩
      · rw [e] at a; cases a
      · rw [e] at a; cases a
        rw [e'] at b; cases b
        exact ⟨rfl, .nil, Alike.put h (unnamed_empty c) _⟩
    | info e' i' =>
      rcases Alike.session h _ with ⟨a, _⟩ | ⟨s, s', a, b, c⟩
      · rw [e] at a; cases a
      · rw [e] at a; cases a
        rw [e'] at b; cases b
        rw [(unnamed_info c).2, i'] at i
        cases i
    | gone => exact h.elim
  | stop =>
    cases t with
    | stop => exact ⟨rfl, by rw [(stop_alike h _ _).2], (stop_alike h _ _).1⟩
    | gone => exact h.elim
  | left =>
    cases t with
    | left => exact ⟨rfl, Alike.dropped h (go _ rfl) (gq _ rfl), trivial⟩
    | gone => exact h.elim
  | gone =>
    cases t with
    | gone => exact ⟨rfl, .nil, trivial⟩
    | _ => exact h.elim

/-! ### One command of the emulator -/

theorem data_plain {alive : Nat → Bool} {sid : UInt32} {s : Session} {l : List Device} {o : List Out} (h : Nat)
    (hs : Pica.dataSends alive sid s l = .ok o) : (sentTo h o).filterMap plain = [] := by
  induction l generalizing o with
  | nil => cases hs; rfl
  | cons q l ih =>
    unfold Pica.dataSends at hs
    split at hs
    · cases hs
    · simp only [bind, Except.bind] at hs
      split at hs
      · cases hs
      · rename_i hq
        split at hs
        · cases hs
        · rename_i hr
          cases hs
          rw [(Pica.plain_sendUnwrap hq).1, Pica.sentTo_append, List.filterMap_append, ih hr, List.append_nil]
          unfold sentTo
          simp only [List.filterMap_cons, List.filterMap_nil]
          split <;> rename_i he
          · rfl
          · split at he
            · cases he; rfl
            · cases he

theorem sent_one (h k : Nat) (x : Packet) : sentTo h [.send k x] = if k = h then [x] else [] := by
  unfold sentTo
  by_cases e : k = h <;> simp [e]

/-- What a command does to the host with handle `h`. -/
theorem step_heard {p p' : Pica} {env : Env} {c : Command} {out : List Out} (hi : Pica.PInv p)
    (hs : p.step env c = .ok (p', out)) {h : Nat} (hc : h < p.counter) :
    (heard h c = none ∧ p'.devices.get? h = p.devices.get? h ∧ (sentTo h out).filterMap plain = [] ∧ effectsOf h out = []) ∨
    ∃ x, heard h c = some x ∧ DStep (p.devices.get? h) x ((sentTo h out).filterMap plain) (effectsOf h out) (p'.devices.get? h) := by
  cases c with
  | connect =>
    unfold Pica.step at hs
    cases hs
    refine .inl ⟨rfl, ?_, rfl, ?_⟩
    · show AMap.get? (AMap.insert _ _ _) h = _
      rw [AMap.get?_insert, if_neg (by omega)]
    · show effectsOf h (List.map _ _ ++ _) = _
      rw [Pica.effectsOf_append, Pica.effectsOf_map, Pica.effectsOf_event, if_neg (by omega)]
      rfl
  | disconnect y =>
    change Except.ok (p.disconnect y) = _ at hs
    unfold Pica.disconnect at hs
    unfold heard
    by_cases hx : y = h
    · subst hx
      refine .inr ⟨_, if_pos rfl, ?_⟩
      cases hg : p.devices.get? y with
      | none =>
        rw [hg] at hs
        cases hs
        rw [hg]
        exact .gone
      | some d =>
        rw [hg] at hs
        cases hs
        show DStep _ _ (List.filterMap _ (sentTo y ([Out.event _] ++ List.map _ _))) (effectsOf y ([Out.event _] ++ List.map _ _))
          (AMap.get? (AMap.erase _ _) y)
        rw [Pica.effectsOf_append, Pica.effectsOf_map, Pica.effectsOf_event, AMap.get?_erase_self, List.nil_append, if_pos rfl,
          Pica.sentTo_append, Pica.sentTo_map]
        exact .left
    · refine .inl ⟨if_neg hx, ?_⟩
      cases hg : p.devices.get? y with
      | none =>
        rw [hg] at hs
        cases hs
        exact ⟨rfl, rfl, rfl⟩
      | some d =>
        rw [hg] at hs
        cases hs
        show AMap.get? (AMap.erase _ _) h = _ ∧ List.filterMap _ (sentTo h ([Out.event _] ++ List.map _ _)) = [] ∧
          effectsOf h ([Out.event _] ++ List.map _ _) = []
        rw [Pica.effectsOf_append, Pica.effectsOf_map, Pica.effectsOf_event, AMap.get?_erase, if_neg hx, if_neg hx,
          Pica.sentTo_append, Pica.sentTo_map]
        exact ⟨rfl, rfl, rfl⟩
  | ranging y sid =>
    obtain ⟨d, s, ms, ms', ts, o₁, hd, hs', -, -, ho, hc'⟩ := Pica.ranging_ok hs
    have hp := data_plain h ho
    unfold heard
    by_cases hx : y = h
    · subst hx
      refine .inr ⟨_, if_pos rfl, ?_⟩
      rcases hc' with ⟨hb, -, rfl, -, rfl⟩ | ⟨hb, rfl, rfl⟩
      · rw [Pica.effectsOf_append, Pica.plain_dataSends ho, Pica.sentTo_append, List.filterMap_append, hp, sent_one, if_pos rfl, hd]
        dsimp only
        rw [AMap.get?_insert_self]
        exact .info hs' hb
      · rw [Pica.plain_dataSends ho, hp, hd]
        dsimp only
        rw [AMap.get?_insert_self]
        exact .quiet hs' hb
    · refine .inl ⟨if_neg hx, ?_⟩
      rcases hc' with ⟨hb, -, rfl, -, rfl⟩ | ⟨hb, rfl, rfl⟩
      · rw [Pica.effectsOf_append, Pica.plain_dataSends ho, Pica.sentTo_append, List.filterMap_append, hp, sent_one, if_neg hx]
        dsimp only
        rw [AMap.get?_insert, if_neg hx]
        exact ⟨rfl, rfl, rfl⟩
      · rw [Pica.plain_dataSends ho, hp]
        dsimp only
        rw [AMap.get?_insert, if_neg hx]
        exact ⟨rfl, rfl, rfl⟩
  | stopRanging mac sid =>
    refine .inr ⟨_, rfl, ?_⟩
    unfold Pica.step at hs
    cases hs
    have h1 : AMap.get? (p.stopControleeRanging mac sid).1.devices h = (p.devices.get? h).map fun d => (d.stopInBand mac sid).1 :=
      Pica.get?_map_values p.devices (fun d => (d.stopInBand mac sid).1) h
    have h2 : effectsOf h (p.stopControleeRanging mac sid).2 = ((p.devices.get? h).map fun d => (d.stopInBand mac sid).2).getD [] :=
      Pica.effectsOf_flatMap hi.devNodup (fun d => (d.stopInBand mac sid).2) h
    have h3 : sentTo h (p.stopControleeRanging mac sid).2 = [] := by
      unfold sentTo
      rw [List.filterMap_eq_nil_iff]
      intro x hx
      obtain ⟨e, -, he⟩ := List.mem_flatMap.mp hx
      obtain ⟨z, -, rfl⟩ := List.mem_map.mp he
      rfl
    change DStep _ _ (List.filterMap plain (sentTo h (p.stopControleeRanging mac sid).2))
      (effectsOf h (p.stopControleeRanging mac sid).2) (AMap.get? (p.stopControleeRanging mac sid).1.devices h)
    rw [h1, h2, h3]
    cases p.devices.get? h with
    | none => exact .gone
    | some d => exact .stop
  | uciPacket y b =>
    change p.uciPacket env y b = _ at hs
    unfold Pica.uciPacket at hs
    unfold heard
    by_cases hx : y = h
    · subst hx
      refine .inr ⟨_, if_pos rfl, ?_⟩
      cases hg : p.devices.get? y with
      | none =>
        rw [hg] at hs
        cases hs
        rw [hg]
        exact .gone
      | some d =>
        rw [hg] at hs
        simp only [bind, Except.bind] at hs
        split at hs
        · cases hs
        · rename_i v hv
          obtain ⟨d', r, e⟩ := v
          cases hs
          dsimp only
          rw [AMap.get?_insert_self, Pica.sentTo_append, Pica.effectsOf_append, Pica.effectsOf_map, Pica.sentTo_map, if_pos rfl,
            List.append_nil]
          have h1 : sentTo y (r.map (Out.send y)).toList = r.toList := by
            cases r
            · rfl
            · show sentTo y [.send y _] = _
              rw [sent_one, if_pos rfl]
              rfl
          have h2 : effectsOf y (r.map (Out.send y)).toList = [] := by cases r <;> rfl
          rw [h1, h2]
          exact .packet _ hv
    · refine .inl ⟨if_neg hx, ?_⟩
      cases hg : p.devices.get? y with
      | none =>
        rw [hg] at hs
        cases hs
        exact ⟨rfl, rfl, rfl⟩
      | some d =>
        rw [hg] at hs
        simp only [bind, Except.bind] at hs
        split at hs
        · cases hs
        · rename_i v hv
          obtain ⟨d', r, e⟩ := v
          cases hs
          dsimp only
          rw [AMap.get?_insert, if_neg hx, Pica.sentTo_append, Pica.effectsOf_append, Pica.effectsOf_map, Pica.sentTo_map, if_neg hx,
            List.append_nil]
          have h1 : sentTo h (r.map (Out.send y)).toList = [] := by
            cases r
            · rfl
            · show sentTo h [.send y _] = _
              rw [sent_one, if_neg hx]
          have h2 : effectsOf h (r.map (Out.send y)).toList = [] := by cases r <;> rfl
          rw [h1, h2]
          exact ⟨rfl, rfl, rfl⟩
  | createAnchor mac =>
    refine .inl ⟨rfl, ?_⟩
    change p.createAnchor mac = _ at hs
    unfold Pica.createAnchor at hs
    split at hs
    · cases hs; exact ⟨rfl, rfl, rfl⟩
    · split at hs
      · cases hs
      · cases hs; exact ⟨rfl, rfl, rfl⟩
  | destroyAnchor mac =>
    refine .inl ⟨rfl, ?_⟩
    change Except.ok (p.destroyAnchor mac) = _ at hs
    unfold Pica.destroyAnchor at hs
    split at hs
    · cases hs; exact ⟨rfl, rfl, rfl⟩
    · cases hs; exact ⟨rfl, rfl, rfl⟩

theorem reorder_alike {p q : Pica} (hi : Pica.PInv p) (hr : Pica.Reorder p q) (h : Nat) :
    BothAlike (p.devices.get? h) (q.devices.get? h) := by
  cases hr with
  | devices hl =>
    dsimp only
    rw [AMap.get?_perm hi.devNodup hl]
    exact .refl _
  | anchors => exact .refl _
  | @sessions k d l hk hl =>
    dsimp only
    rw [AMap.get?_insert]
    split
    · rename_i e
      subst e
      rw [hk]
      refine ⟨rfl, rfl, rfl, rfl, rfl, fun sid => ?_⟩
      dsimp only
      rw [AMap.get?_perm (hi.dev _ _ hk).2.2.2.nodup hl]
    · exact .refl _

/-! ### Histories -/

/-- The histories of one device. -/
inductive DRun (o : Option Device) : List Told → Option Device → Prop
  | nil : DRun o [] o
  | step {l : List Told} {q q' : Option Device} {x : Heard} {pk : List Packet} {es : List Effect} :
      DRun o l q → Good q → DStep q x pk es q' → DRun o (l ++ [⟨x, pk, es.map nameless⟩]) q'
  | alike {l : List Told} {q q' : Option Device} : DRun o l q → BothAlike q q' → DRun o l q'

theorem DRun.inv {o q : Option Device} {l : List Told} (h : DRun o l q) :
    (l = [] ∧ BothAlike o q) ∨ ∃ l₀ x pk es r r', l = l₀ ++ [⟨x, pk, List.map nameless es⟩] ∧ DRun o l₀ r ∧ Good r ∧
      DStep r x pk es r' ∧ BothAlike r' q := by
  induction h with
  | nil => exact .inl ⟨rfl, .refl _⟩
  | step hr hg hs _ => exact .inr ⟨_, _, _, _, _, _, rfl, hr, hg, hs, .refl _⟩
  | alike _ ha ih =>
    rcases ih with ⟨e, hb⟩ | ⟨l₀, x, pk, es, r, r', e, h1, h2, h3, h4⟩
    · exact .inl ⟨e, hb.trans ha⟩
    · exact .inr ⟨l₀, x, pk, es, r, r', e, h1, h2, h3, h4.trans ha⟩

theorem drun_alike {o o' q q' : Option Device} {l m : List Told} (h : BothAlike o q) (hl : DRun o l o') (hm : DRun q m q')
    (he : l.map Told.heard = m.map Told.heard) : List.Forall₂ SameTold l m ∧ BothAlike o' q' := by
  induction l using List.reverseRecOn generalizing m o' q' with
  | nil =>
    cases m with
    | cons => cases he
    | nil =>
      rcases hl.inv with ⟨-, a⟩ | ⟨l₀, x, pk, es, r, r', e, -⟩
      · rcases hm.inv with ⟨-, b⟩ | ⟨l₀, x, pk, es, r, r', e, -⟩
        · exact ⟨.nil, (a.symm.trans h).trans b⟩
        · exact absurd e.symm (List.append_ne_nil_of_right_ne_nil _ (List.cons_ne_nil _ _))
      · exact absurd e.symm (List.append_ne_nil_of_right_ne_nil _ (List.cons_ne_nil _ _))
  | append_singleton l t ih =>
    rcases hl.inv with ⟨e, -⟩ | ⟨l₀, x, pk, es, r, r', e, h1, h2, h3, h4⟩
    · exact absurd e (List.append_ne_nil_of_right_ne_nil _ (List.cons_ne_nil _ _))
    · obtain ⟨el, et⟩ := List.append_inj' e rfl
      clear e
      subst el
      cases et
      rcases hm.inv with ⟨e, -⟩ | ⟨m₀, x', pk', es', u, u', e, g1, g2, g3, g4⟩
      · subst e
        rw [List.map_append] at he
        exact absurd he (List.append_ne_nil_of_right_ne_nil _ (List.cons_ne_nil _ _))
      · subst e
        rw [List.map_append, List.map_append] at he
        obtain ⟨hy, hx⟩ := List.append_inj' he rfl
        cases hx
        obtain ⟨i1, i2⟩ := ih h1 g1 hy
        obtain ⟨j1, j2, j3⟩ := dstep_alike i2 h2 g2 h3 g3
        exact ⟨List.rel_append i1 (.cons ⟨rfl, j1, j2⟩ .nil), (h4.symm.trans j3).trans g4⟩

theorem view_append (h : Nat) (a b : List Pica.Event) : view h (a ++ b) = view h a ++ view h b := List.filterMap_append ..

theorem view_heard (h : Nat) (tr : List Pica.Event) : (view h tr).map Told.heard = tr.filterMap fun ev => heard h ev.command := by
  unfold view
  rw [List.map_filterMap]
  congr 1
  funext ev
  cases heard h ev.command <;> rfl

theorem run_counter {p q : Pica} {tr : List Pica.Event} (hr : Pica.Run p tr q) : p.counter ≤ q.counter := by
  induction hr with
  | nil => exact Nat.le_refl _
  | cmd _ hs ih => exact Nat.le_trans ih (Pica.step_counter hs)
  | reorder _ hr ih => cases hr <;> exact ih

theorem run_drun {p q : Pica} {tr : List Pica.Event} (hi : Pica.PInv p) {h : Nat} (hc : h < p.counter) (hr : Pica.Run p tr q) :
    DRun (p.devices.get? h) (view h tr) (q.devices.get? h) := by
  induction hr with
  | nil => exact .nil
  | @cmd q r tr env c out hr hs ih =>
    rw [view_append]
    have hi' := Pica.run_inv hr hi
    rcases step_heard hi' hs (Nat.lt_of_lt_of_le hc (run_counter hr)) with ⟨e, e1, e2, e3⟩ | ⟨x, e, e1⟩
    · have hv : view h [⟨env, c, out⟩] = [] := by
        unfold view
        simp only [List.filterMap_cons, List.filterMap_nil]
        rw [e]
        rfl
      rw [hv, List.append_nil, e1]
      exact ih
    · have hv : view h [⟨env, c, out⟩] = [⟨x, (sentTo h out).filterMap plain, (effectsOf h out).map nameless⟩] := by
        unfold view
        simp only [List.filterMap_cons, List.filterMap_nil]
        rw [e]
        rfl
      rw [hv]
      exact .step ih (fun d hd => (hi'.dev _ _ hd).2.2.2.nodup) e1
  | reorder hr hx ih => exact .alike ih (reorder_alike (Pica.run_inv hr hi) hx h)

end Pica.Influence
