import Verif.Props.Answers
/-! C45: what a connection puts in the queue. -/

namespace Pica.Props
open Pica.System Pica.Spec

/-- The commands a connection sends. -/
def ofHost (h : Nat) : Command → Bool
  | .uciPacket k _ => decide (k = h)
  | .disconnect k => decide (k = h)
  | _ => false

/-- C45: a connection puts packets in the queue and at last, at most once, the end of the connection; nothing else
puts these there. -/
theorem C45_connection (s : System) (ls : List Label) (hr : Run .new ls s) (h : Nat) :
    ∃ packets : List Bytes, ((ls.filterMap enqueued).filter (ofHost h) = packets.map (.uciPacket h) ∨
        (ls.filterMap enqueued).filter (ofHost h) = packets.map (.uciPacket h) ++ [.disconnect h]) ∧
      packets = ls.filterMap (fun
        | .packet k b => if k = h then some b else none
        | _ => none) := by
  refine ⟨_, ?_, rfl⟩
  suffices key : (ls.filterMap enqueued).filter (ofHost h) = (ls.filterMap (fun
        | .packet k b => if k = h then some b else none
        | _ => none)).map (Command.uciPacket h) ∨
      ((ls.filterMap enqueued).filter (ofHost h) = (ls.filterMap (fun
        | .packet k b => if k = h then some b else none
        | _ => none)).map (Command.uciPacket h) ++ [.disconnect h] ∧ s.conns.get? h = none ∧ h < s.pica.counter) by
    rcases key with k | k
    · exact .inl k
    · exact .inr k.1
  generalize hn : System.new = n at hr
  induction hr with
  | nil => exact .inl rfl
  | @step t u ls l hr hst hs ih =>
    subst hn
    have hpres := present_run hr
    have hi := reachable_inv ⟨ls, hr⟩
    rw [List.filterMap_append, List.filter_append, List.filterMap_append, List.map_append]
    -- a step that is not one of the connection
    have other : ([l].filterMap enqueued).filter (ofHost h) = [] → ([l].filterMap (fun
          | Label.packet k b => if k = h then some b else none
          | _ => none)) = [] → (t.conns.get? h = none → h < t.pica.counter → u.conns.get? h = none ∧ h < u.pica.counter) →
        (List.filter (ofHost h) (List.filterMap enqueued ls) ++ ([l].filterMap enqueued).filter (ofHost h) = (ls.filterMap (fun
            | Label.packet k b => if k = h then some b else none
            | _ => none)).map (Command.uciPacket h) ++ ([l].filterMap (fun
            | Label.packet k b => if k = h then some b else none
            | _ => none)).map (Command.uciPacket h) ∨
          (List.filter (ofHost h) (List.filterMap enqueued ls) ++ ([l].filterMap enqueued).filter (ofHost h) = (ls.filterMap (fun
            | Label.packet k b => if k = h then some b else none
            | _ => none)).map (Command.uciPacket h) ++ ([l].filterMap (fun
            | Label.packet k b => if k = h then some b else none
            | _ => none)).map (Command.uciPacket h) ++ [.disconnect h] ∧ u.conns.get? h = none ∧ h < u.pica.counter)) := by
      intro e1 e2 e3
      rw [e1, e2, List.append_nil, List.map_nil, List.append_nil]
      rcases ih with k | ⟨k, k1, k2⟩
      · exact .inl k
      · exact .inr ⟨k, e3 k1 k2⟩
    cases hs with
    | @request c he _ =>
      refine other ?_ rfl fun a b => ⟨a, b⟩
      cases c <;> first | rfl | exact absurd he (by simp [External])
    | @packet k b hk _ =>
      by_cases e : k = h
      · subst e
        rcases ih with c | ⟨c, c1, c2⟩
        · left
          rw [c]
          simp [enqueued, ofHost]
        · rw [c1] at hk; cases hk
      · exact other (by simp [enqueued, ofHost, e]) (by simp [e]) fun a b => ⟨a, b⟩
    | @closes k hk =>
      refine other rfl rfl fun a b => ⟨?_, b⟩
      show (t.conns.insert k _).get? h = _
      rw [AMap.get?_insert, if_neg (by rintro rfl; rw [a] at hk; cases hk)]
      exact a
    | @fails k hk =>
      refine other rfl rfl fun a b => ⟨?_, b⟩
      show (t.conns.erase k).get? h = _
      rw [AMap.get?_erase]
      split
      · rfl
      · exact a
    | @leaves k hk _ =>
      by_cases e : k = h
      · subst e
        rcases ih with c | ⟨c, c1, c2⟩
        · right
          rw [c]
          refine ⟨by simp [enqueued, ofHost], AMap.get?_erase_self .., ?_⟩
          have := (hpres.conn _ _ hk).1
          cases hg : t.pica.devices.get? k with
          | none => exact absurd hg this
          | some d => exact (hi.pica.dev _ d hg).2.1
        · rw [c1] at hk; cases hk
      · refine other (by simp [enqueued, ofHost, e]) rfl fun a b => ⟨?_, b⟩
        show (t.conns.erase k).get? h = _
        rw [AMap.get?_erase, if_neg e]
        exact a
    | tick => exact other rfl rfl fun a b => ⟨a, b⟩
    | dies => exact other rfl rfl fun a b => ⟨a, b⟩
    | inBand => exact other rfl rfl fun a b => ⟨a, b⟩
    | notifies => exact other rfl rfl fun a b => ⟨a, b⟩
    | @process est c q p' out hq hstep =>
      refine other rfl rfl fun a b => ⟨?_, ?_⟩
      · rcases applyAll_conns out ({ t with pica := p', queue := q, spawned := t.spawned + 1 } : System) h with e | ⟨-, mac, hm⟩
        · exact e.trans a
        · obtain ⟨rfl, rfl⟩ := step_connected hstep hm
          omega
      · rw [(applyAll_frame _ _).1]
        exact lt_of_lt_of_le b (Pica.step_counter hstep)
    | panics => exact other rfl rfl fun a b => ⟨a, b⟩
    | shuffle hro => exact other rfl rfl fun a b => ⟨a, by cases hro <;> exact b⟩

/-- A host that sends a packet and goes away. -/
example : ∃ ls s, Run .new ls s ∧ (ls.filterMap enqueued).filter (ofHost 0) = [.uciPacket 0 Ex.reset, .disconnect 0] := by
  obtain ⟨ls, s, hr, hf⟩ := Ex.exists_sched (as := [.request .connect, .process, .packet 0 Ex.reset, .closes 0, .leaves 0, .process])
    (f := fun ls _ => decide ((ls.filterMap enqueued).filter (ofHost 0) = [.uciPacket 0 Ex.reset, .disconnect 0])) (by decide +kernel)
  exact ⟨ls, s, hr, of_decide_eq_true hf⟩

end Pica.Props
