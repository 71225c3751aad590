import Verif.Proofs.Examples
import Verif.Model.System
/-! Concrete schedules used as witnesses and examples. -/

namespace Pica
namespace Ex
open Pica.System

/-- What a scheduler may do next. -/
inductive Act where
  | request (c : Command)
  | packet (h : Nat) (bytes : Bytes)
  | closes (h : Nat)
  | fails (h : Nat)
  | leaves (h : Nat)
  | tick (i : Nat)
  | dies (i : Nat)
  | inBand (i : Nat)
  | notifies (i : Nat)
  | process

/-- The step, if it is possible. -/
def act (s : System) : Act → Option (Label × System)
  | .request c =>
    match c with
    | .connect | .createAnchor _ | .destroyAnchor _ =>
      if s.queue.length < queueSize then some (.request c, { s with queue := s.queue ++ [c] }) else none
    | _ => none
  | .packet h bytes =>
    if s.conns.get? h = some .running ∧ s.queue.length < queueSize then
      some (.packet h bytes, { s with queue := s.queue ++ [.uciPacket h bytes] }) else none
  | .closes h =>
    if s.conns.get? h = some .running then some (.closes h, { s with conns := s.conns.insert h .closing }) else none
  | .fails h =>
    if s.conns.get? h = some .running then some (.fails h, { s with conns := s.conns.erase h }) else none
  | .leaves h =>
    if s.conns.get? h = some .closing ∧ s.queue.length < queueSize then
      some (.leaves h, { s with conns := s.conns.erase h, queue := s.queue ++ [.disconnect h] }) else none
  | .tick i =>
    match s.timers[i]? with
    | some t =>
      if s.queue.length < queueSize then
        some (.tick t, { s with queue := s.queue ++ [.ranging t.device t.session] }) else none
    | none => none
  | .dies i =>
    match s.timers[i]? with
    | some t => if t.aborted = true then some (.dies t, { s with timers := s.timers.erase t }) else none
    | none => none
  | .inBand i =>
    match s.stops[i]? with
    | some (mac, sid, n + 1) =>
      if s.queue.length < queueSize then
        some (.inBand mac sid, { s with
          stops := (mac, sid, n) :: s.stops.erase (mac, sid, n + 1)
          queue := s.queue ++ [.stopRanging mac sid] }) else none
    | _ => none
  | .notifies i =>
    match s.ntfs[i]? with
    | some (h, n) => some (.notifies h n, { s with ntfs := s.ntfs.eraseIdx i })
    | none => none
  | .process =>
    match s.queue with
    | [] => none
    | c :: q =>
      match s.pica.step (s.env env.estimate) c with
      | .ok (p, out) =>
        some (.process ⟨s.env env.estimate, c, out⟩,
          out.foldl apply { s with pica := p, queue := q, spawned := s.spawned + 1 })
      | .error x => some (.panics c x, { s with queue := q, stopped := true })

theorem act_step {s u : System} {a : Act} {l : Label} (h : act s a = some (l, u)) : Step s l u := by
  cases a with
  | request c =>
    unfold act at h
    cases c <;> dsimp only at h <;> first
      | (cases h)
      | (split at h
         · cases h; exact .request trivial (by assumption)
         · cases h)
  | packet =>
    unfold act at h; dsimp only at h
    split at h
    · rename_i hc; cases h; exact .packet hc.1 hc.2
    · cases h
  | closes =>
    unfold act at h; dsimp only at h
    split at h
    · rename_i hc; cases h; exact .closes hc
    · cases h
  | fails =>
    unfold act at h; dsimp only at h
    split at h
    · rename_i hc; cases h; exact .fails hc
    · cases h
  | leaves =>
    unfold act at h; dsimp only at h
    split at h
    · rename_i hc; cases h; exact .leaves hc.1 hc.2
    · cases h
  | tick i =>
    unfold act at h; dsimp only at h
    cases ht : s.timers[i]? with
    | none => rw [ht] at h; cases h
    | some t =>
      rw [ht] at h; dsimp only at h
      split at h
      · rename_i hc; cases h; exact .tick (List.mem_of_getElem? ht) hc
      · cases h
  | dies i =>
    unfold act at h; dsimp only at h
    cases ht : s.timers[i]? with
    | none => rw [ht] at h; cases h
    | some t =>
      rw [ht] at h; dsimp only at h
      split at h
      · rename_i hc; cases h; exact .dies (List.mem_of_getElem? ht) hc
      · cases h
  | inBand i =>
    unfold act at h; dsimp only at h
    cases ht : s.stops[i]? with
    | none => rw [ht] at h; cases h
    | some t =>
      obtain ⟨mac, sid, n⟩ := t
      rw [ht] at h
      cases n with
      | zero => cases h
      | succ n =>
        dsimp only at h
        split at h
        · rename_i hc; cases h; exact .inBand (List.mem_of_getElem? ht) hc
        · cases h
  | notifies i =>
    unfold act at h; dsimp only at h
    cases ht : s.ntfs[i]? with
    | none => rw [ht] at h; cases h
    | some t =>
      obtain ⟨k, n⟩ := t
      rw [ht] at h
      cases h
      obtain ⟨hi, e⟩ := List.getElem?_eq_some_iff.mp ht
      exact .notifies (e ▸ (List.getElem_cons_eraseIdx_perm hi).symm)
  | process =>
    unfold act at h; dsimp only at h
    cases hq : s.queue with
    | nil => rw [hq] at h; cases h
    | cons c q =>
      rw [hq] at h; dsimp only at h
      cases hp : s.pica.step (s.env env.estimate) c with
      | error x => rw [hp] at h; cases h; exact .panics hq hp
      | ok z => obtain ⟨p, out⟩ := z; rw [hp] at h; cases h; exact .process hq hp

/-- Play a list of steps. -/
def sched (s : System) (ls : List Label) : List Act → Option (List Label × System)
  | [] => some (ls, s)
  | a :: as =>
    if s.stopped then none else
    match act s a with
    | some (l, u) => sched u (ls ++ [l]) as
    | none => none

theorem sched_run {as : List Act} {n s u : System} {ls ls' : List Label} (hr : Run n ls s)
    (h : sched s ls as = some (ls', u)) : Run n ls' u := by
  induction as generalizing s ls with
  | nil => cases h; exact hr
  | cons a as ih =>
    unfold sched at h
    split at h
    · cases h
    · rename_i hst
      cases ha : act s a with
      | none => rw [ha] at h; cases h
      | some z =>
        obtain ⟨l, t⟩ := z
        rw [ha] at h
        exact ih (.step hr (by simpa using hst) (act_step ha)) h

/-- What can be computed of a schedule holds of it. -/
theorem exists_sched {as : List Act} {f : List Label → System → Bool}
    (h : (sched .new [] as).any (fun z => f z.1 z.2) = true) : ∃ ls s, Run .new ls s ∧ f ls s = true := by
  cases hx : sched .new [] as with
  | none => rw [hx] at h; cases h
  | some z => obtain ⟨ls, s⟩ := z; rw [hx] at h; exact ⟨ls, s, sched_run .nil hx, h⟩

/-- The state of a schedule. -/
def final (as : List Act) : System := ((sched .new [] as).map Prod.snd).getD .new
/-- The steps of a schedule. -/
def labels (as : List Act) : List Label := ((sched .new [] as).map Prod.fst).getD []

theorem final_run {as : List Act} (h : (sched .new [] as).isSome = true) : Run .new (labels as) (final as) := by
  unfold labels final
  cases hx : sched .new [] as with
  | none => rw [hx] at h; cases h
  | some z => exact sched_run .nil hx

/-- Send a packet and process it. -/
def send (h : Nat) (bytes : Bytes) : List Act := [.packet h bytes, .process]

/-- A device with the ACTIVE session 7. -/
def active : List Act :=
  [.request .connect, .process] ++ send 0 reset ++ send 0 (sessionInit 7 1) ++ send 0 (setApp 7 8 controller) ++
    send 0 (start 7)

end Ex
end Pica
