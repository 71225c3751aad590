import Verif.Proofs.TestsProgress
import Verif.Proofs.TestsExamples
/-! C92: the ranging test of the repository, `tests/ranging.py`, on a machine that is punctual. -/

set_option linter.dupNamespace false

namespace Pica.Props
open Tests

/-- The hosts run `controller` or `controlee` with some addresses. -/
def RangingTest (script : Nat → List Statement) : Prop :=
  ∀ h, ∃ (flag : UInt8) (mac peer : Bytes), (flag = 0 ∨ flag = 1) ∧ mac.length = 2 ∧ peer.length = 2 ∧
    script h = Tests.ranging flag flag mac peer

theorem rangingTest_plan {script : Nat → List Statement} (hs : RangingTest script) :
    ∃ plan : Nat → Plan, script = scripts plan ∧ ∀ h, (plan h).kind = .range := by
  have h : ∀ h, ∃ p : Plan, script h = p.script ∧ p.kind = .range := by
    intro h
    obtain ⟨f, m, q, hf, hm, hq, e⟩ := hs h
    rcases hf with rfl | rfl
    · exact ⟨⟨false, ⟨m, hm⟩, ⟨q, hq⟩, .range⟩, e.trans (Plan.script_range false ⟨m, hm⟩ ⟨q, hq⟩).symm, rfl⟩
    · exact ⟨⟨true, ⟨m, hm⟩, ⟨q, hq⟩, .range⟩, e.trans (Plan.script_range true ⟨m, hm⟩ ⟨q, hq⟩).symm, rfl⟩
  obtain ⟨plan, hp⟩ := Classical.axiomOfChoice h
  exact ⟨plan, funext fun h => (hp h).1, fun h => (hp h).2⟩

theorem rangingTest_going {script : Nat → List Statement} (hs : RangingTest script) {late lag : Nat} (hlate : late < 4000) (hlag : lag < 250000)
    {ls : List (Nat × Tests.Label)} {s : Test} (hr : Tests.Run script late lag ls s) (hn : connects ls ≤ 247) :
    ∃ plan : Nat → Plan, script = scripts plan ∧ (∀ h, (plan h).kind = .range) ∧ Going plan late lag 0 (connects ls) s := by
  obtain ⟨plan, rfl, hp⟩ := rangingTest_plan hs
  exact ⟨plan, rfl, hp, run_going hlate hlag (.inl hp) hr hn (.inl hp) fun _ _ _ => .inl hp⟩

/-- C92: when delayed notifications are less than 4 ms late and everything else takes less than 250 ms, no host raises an
exception and the emulator does not panic. -/
theorem C92_pass {script : Nat → List Statement} (hs : RangingTest script) {late lag : Nat} (hlate : late < 4000) (hlag : lag < 250000)
    {ls : List (Nat × Tests.Label)} {s : Test} (hr : Tests.Run script late lag ls s) (hn : connects ls ≤ 247) :
    s.clock.sys.stopped = false ∧ ∀ h H, s.hosts.get? h = some H → H.failed = false := by
  obtain ⟨plan, rfl, -, hg⟩ := rangingTest_going hs hlate hlag hr hn
  exact ⟨hg.up, fun h H => hg.passes⟩

/-- C92: a host has executed all its statements 2.017 s after its connection was accepted, plus five times the lateness of
notifications and 22 times that of everything else. -/
theorem C92_time {script : Nat → List Statement} (hs : RangingTest script) {late lag : Nat} (hlate : late < 4000) (hlag : lag < 250000)
    {ls : List (Nat × Tests.Label)} {s : Test} (hr : Tests.Run script late lag ls s) (hn : connects ls ≤ 247) {h : Nat} {H : Tests.Host}
    (hH : s.hosts.get? h = some H) (ht : H.born + 2017000 + 5 * late + 22 * lag < s.clock.now) : H.todo = [] := by
  obtain ⟨plan, rfl, hp, hg⟩ := rangingTest_going hs hlate hlag hr hn
  have hb : (plan h).bound late lag = 2017000 + 5 * late + 21 * lag := by
    unfold Plan.bound Plan.limit Plan.slack Plan.n
    rw [hp h]
    dsimp only
    omega
  exact hg.done hlate (run_inTime hr).1 hH (by rw [hb]; omega)

/-- C92: as long as a host has statements to execute, a host can send or take a packet off its queue, or the emulator can
take a command off its queue, send a notification or wake a ranging task, without anything being late. -/
theorem C92_progress {script : Nat → List Statement} (hs : RangingTest script) {late lag : Nat} (hlate : late < 4000) (hlag : lag < 250000)
    {ls : List (Nat × Tests.Label)} {s : Test} (hr : Tests.Run script late lag ls s) (hn : connects ls ≤ 247) {h : Nat} {H : Tests.Host}
    (hH : s.hosts.get? h = some H) (ht : H.todo ≠ []) :
    ∃ t l u, Tests.Run script late lag (ls ++ [(t, l)]) u ∧ Working l := by
  obtain ⟨plan, rfl, hp, hg⟩ := rangingTest_going hs hlate hlag hr hn
  obtain ⟨h1, h2⟩ := run_inTime hr
  obtain ⟨t, l, u, h3, h4, h5⟩ := hg.progress hn hlate hlag h1 h2 hH ht
  exact ⟨t, l, u, .step hr hg.up h3 h4, h5⟩

/-! ### Examples and counterexamples -/

namespace TestRuns
open Pica.Ex

/-- `tests/ranging.py` 266-277. -/
def hosts (h : Nat) : List Statement :=
  if h = 0 then Tests.ranging 1 1 [0, 1] [0, 2] else Tests.ranging 0 0 [0, 2] [0, 1]

theorem hosts_ranging : RangingTest hosts := by
  intro h
  unfold hosts
  split
  · exact ⟨1, _, _, .inr rfl, rfl, rfl, rfl⟩
  · exact ⟨0, _, _, .inl rfl, rfl, rfl, rfl⟩

/-- A host up to the start of its session. -/
def begins : List (Nat × Do) :=
  at'' 0 [.emu (.request .connect), .emu .process] ++
  at'' 5000 [.emu (.notifies 0), .gets 0, .sends 0, .emu .process, .gets 0] ++
  at'' 10000 [.emu (.notifies 0), .gets 0, .sends 0, .emu .process, .gets 0] ++
  at'' 11000 [.emu (.notifies 0), .gets 0, .sends 0, .emu .process, .gets 0] ++
  at'' 12000 [.emu (.notifies 0), .gets 0, .sends 0, .emu .process, .gets 0]

/-- The rest without delay. -/
def goes : List (Nat × Do) :=
  at'' 13000 [.emu (.notifies 0), .gets 0] ++ at'' 17000 [.emu (.notifies 0), .gets 0] ++
  at'' 1012000 [.emu (.tick 0), .emu .process, .gets 0]

def ends : List (Nat × Do) :=
  at'' 2012000 [.emu (.tick 0), .emu .process, .gets 0, .sends 0, .emu .process, .gets 0] ++
  at'' 2013000 [.emu (.notifies 0), .gets 0] ++
  at'' 2017000 [.emu (.notifies 0), .gets 0, .sends 0, .emu .process, .gets 0]

/-- A stop that takes its time. -/
def slowly : List (Nat × Do) :=
  [(2012000, .emu (.tick 0)), (2262000, .emu .process), (2512000, .gets 0), (2762000, .sends 0)] ++
  at'' 3012000 [.emu (.tick 0), .emu .process, .emu .process, .gets 0, .gets 0]

/-- Both hosts of the test on a perfect machine. -/
def both : List (Nat × Do) :=
  let next (h : Nat) : List Do := [.emu (.notifies 0), .gets h, .sends h, .emu .process, .gets h]
  at'' 0 [.emu (.request .connect), .emu .process, .emu (.request .connect), .emu .process] ++
  at'' 5000 (next 0 ++ next 1) ++ at'' 10000 (next 0 ++ next 1) ++ at'' 11000 (next 0 ++ next 1) ++ at'' 12000 (next 0 ++ next 1) ++
  at'' 13000 [.emu (.notifies 0), .gets 0, .emu (.notifies 1), .gets 1] ++
  at'' 17000 [.emu (.notifies 0), .gets 0, .emu (.notifies 0), .gets 1] ++
  at'' 1012000 [.emu (.tick 0), .emu .process, .gets 0, .emu (.tick 1), .emu .process, .gets 1] ++
  at'' 2012000 [.emu (.tick 0), .emu .process, .gets 0, .emu (.tick 1), .emu .process, .gets 1,
    .sends 0, .emu .process, .gets 0, .sends 1, .emu .process, .gets 1] ++
  at'' 2013000 [.emu (.notifies 0), .gets 0, .emu (.notifies 1), .gets 1] ++
  at'' 2017000 (next 0 ++ next 1)

end TestRuns
open TestRuns Pica.Ex

/-- One host on a perfect machine: done after 2.017 s, with nothing to spare. -/
example : ∃ ls s, Tests.Run hosts 0 0 ls s ∧
    (decide (connects ls ≤ 247) && decide (s.clock.now = 2017000) && (s.hosts.get? 0).any fun H => decide (H.born = 0) && decide (H.todo = []) && !H.failed) = true :=
  exists_tested (as := begins ++ goes ++ ends) (f := fun ls s => decide (connects ls ≤ 247) && decide (s.clock.now = 2017000) &&
    (s.hosts.get? 0).any fun H => decide (H.born = 0) && decide (H.todo = []) && !H.failed) (by decide +kernel)

/-- Both hosts on a perfect machine. -/
example : ∃ ls s, Tests.Run hosts 0 0 ls s ∧
    (decide (connects ls = 2) && [0, 1].all fun h => (s.hosts.get? h).any fun H => decide (H.todo = []) && !H.failed) = true :=
  exists_tested (as := both) (f := fun ls s => decide (connects ls = 2) && [0, 1].all fun h =>
    (s.hosts.get? h).any fun H => decide (H.todo = []) && !H.failed) (by decide +kernel)

/-- C92 is false of machines whose notifications are 4 ms late: the emulator reports an ACTIVE device before an ACTIVE
session. -/
theorem C92_late_false : ∃ ls s, Tests.Run hosts 4000 0 ls s ∧ connects ls = 1 ∧ ∃ H, s.hosts.get? 0 = some H ∧ H.failed = true := by
  obtain ⟨ls, s, hr, h⟩ := exists_tested (script := hosts) (late := 4000) (lag := 0)
    (as := begins ++ at'' 17000 [.emu (.notifies 1), .gets 0])
    (f := fun ls s => decide (connects ls = 1) && (s.hosts.get? 0).any (·.failed)) (by decide +kernel)
  obtain ⟨h1, h2⟩ := Bool.and_eq_true_iff.mp h
  refine ⟨ls, s, hr, of_decide_eq_true h1, ?_⟩
  cases hH : s.hosts.get? 0 with
  | none => rw [hH] at h2; cases h2
  | some H => rw [hH] at h2; exact ⟨H, rfl, h2⟩

/-- C92 is false of machines where everything else may take 250 ms: the emulator reports a third measurement when the host
has stopped the session. -/
theorem C92_lag_false : ∃ ls s, Tests.Run hosts 0 250000 ls s ∧ connects ls = 1 ∧ ∃ H, s.hosts.get? 0 = some H ∧ H.failed = true := by
  obtain ⟨ls, s, hr, h⟩ := exists_tested (script := hosts) (late := 0) (lag := 250000)
    (as := begins ++ goes ++ slowly)
    (f := fun ls s => decide (connects ls = 1) && (s.hosts.get? 0).any (·.failed)) (by decide +kernel)
  obtain ⟨h1, h2⟩ := Bool.and_eq_true_iff.mp h
  refine ⟨ls, s, hr, of_decide_eq_true h1, ?_⟩
  cases hH : s.hosts.get? 0 with
  | none => rw [hH] at h2; cases h2
  | some H => rw [hH] at h2; exact ⟨H, rfl, h2⟩

end Pica.Props
