import Verif.Proofs.Careful
import Verif.Proofs.CarefulExamples
/-! C44: which schedules stop the emulator. -/

namespace Pica.Props
open Spec Pica.System

/-- The packets sent in a schedule. -/
def sentPackets (ls : List Label) : List (Nat × Bytes) :=
  ls.filterMap fun
    | .packet h bytes => some (h, bytes)
    | _ => none

/-- The panics in a schedule. -/
def panicked (ls : List Label) : List (Command × Panic) :=
  ls.filterMap fun
    | .panics c x => some (c, x)
    | _ => none

theorem wellFormed_of {ls : List Label} (h : ((sentPackets ls).all fun x => (Ex.readCmd x.2).isSome) = true) :
    ∀ x ∈ sentPackets ls, ∃ c, IsCmd x.2 c := by
  intro x hx
  obtain ⟨c, hc⟩ := Option.isSome_iff_exists.mp (List.all_eq_true.mp h x hx)
  exact ⟨c, Ex.isCmd_read.mpr hc⟩

/-- C44 is false: a ranging round in the queue stops the emulator when the session has been deinitialised, when the device
has been disconnected, and when the connection has been closed and not yet disconnected. All packets sent are well formed
commands. -/
theorem C44_false : ∀ x ∈ [Panic.noSession, .noDevice, .channelClosed], ∃ ls s, Run .new ls s ∧
    (∀ y ∈ sentPackets ls, ∃ c, IsCmd y.2 c) ∧ panicked ls = [(.ranging 0 7, x)] ∧ s.stopped = true := by
  have key : ∀ (x : Panic) (as : List Ex.Act), (Ex.sched .new [] as).any (fun z =>
      ((sentPackets z.1).all fun x => (Ex.readCmd x.2).isSome) && (panicked z.1 == [(.ranging 0 7, x)]) && z.2.stopped) = true →
      ∃ ls s, Run .new ls s ∧ (∀ y ∈ sentPackets ls, ∃ c, IsCmd y.2 c) ∧ panicked ls = [(.ranging 0 7, x)] ∧ s.stopped = true := by
    intro x as h
    obtain ⟨ls, s, hr, hf⟩ := Ex.exists_sched (f := fun ls s =>
      ((sentPackets ls).all fun x => (Ex.readCmd x.2).isSome) && (panicked ls == [(.ranging 0 7, x)]) && s.stopped) h
    simp only [Bool.and_eq_true, beq_iff_eq] at hf
    exact ⟨ls, s, hr, wellFormed_of hf.1.1, hf.1.2, hf.2⟩
  intro x hx
  simp only [List.mem_cons, List.not_mem_nil, or_false] at hx
  rcases hx with rfl | rfl | rfl
  · exact key _ (Ex.active ++ [.packet 0 (Ex.sessionDeinit 7), .tick 0, .process, .process]) (by decide +kernel)
  · exact key _ (Ex.active ++ [.closes 0, .leaves 0, .tick 0, .process, .process]) (by decide +kernel)
  · exact key _ (Ex.active ++ [.closes 0, .tick 0, .process]) (by decide +kernel)

/-- C44, as far as it holds: the emulator survives every schedule with hosts that keep to the rules of `Spec.Prudent`, up to
the 2^32-th step, whatever the timers, the in-band stops, the delayed notifications and the web server do. -/
theorem C44_partial (ls : List Label) (s : System) (h : Careful ls s) (hn : ls.length < 2 ^ 32) : s.stopped = false :=
  (careful_safe h hn).up

/-- A session is started, ranges twice, is stopped while a round is in the queue, and deinitialised; then the host leaves. -/
example : ∃ ls s, Careful ls s ∧ (ls.length = 22 ∧ s.pica.devices = [] ∧ s.conns = [] ∧ s.queue = []) := by
  obtain ⟨ls, s, h, hf⟩ := Ex.exists_careful
    (as := Ex.active ++ [.tick 0, .process, .packet 0 (Ex.stop 7), .tick 0, .process, .dies 0, .process,
      .packet 0 (Ex.sessionDeinit 7), .process, .closes 0, .leaves 0, .process])
    (f := fun ls s => decide (ls.length = 22 ∧ s.pica.devices = [] ∧ s.conns = [] ∧ s.queue = [])) (by decide +kernel)
  exact ⟨ls, s, h, of_decide_eq_true hf⟩

end Pica.Props
