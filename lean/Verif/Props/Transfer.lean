import Verif.Props.Tests
/-! C93: the data transfer test of the repository, `tests/data_transfer.py`, on a machine that is punctual. -/

set_option linter.dupNamespace false

namespace Pica.Props
open Tests

/-- The first host runs `controller`, the second `controlee`, with a file of no more than 65535 bytes. -/
def TransferTest (file : Bytes) (script : Nat → List Statement) : Prop :=
  file.length ≤ 65535 ∧ ∃ mac₀ mac₁ : Bytes, mac₀.length = 2 ∧ mac₁.length = 2 ∧
    script = fun h => if h = 0 then controller mac₀ mac₁ file else controlee mac₁ mac₀ file

/-- The connection of the controlee is accepted no more than `gap` after that of the controller, and there are no others. -/
def Arrivals (gap : Nat) (s : Test) : Prop :=
  (∀ h, 2 ≤ h → s.hosts.get? h = none) ∧
  ∀ H₁, s.hosts.get? 1 = some H₁ → ∃ H₀, s.hosts.get? 0 = some H₀ ∧ H₁.born ≤ H₀.born + gap

/-- The emulator has an estimate of where the two hosts are whenever it processes a command. -/
def Sighted (ls : List (Nat × Tests.Label)) : Prop :=
  ∀ t ev, (t, Tests.Label.emulator (.process ev)) ∈ ls → ev.env.estimate 0 1 ≠ none ∧ ev.env.estimate 1 0 ≠ none

/-- How punctual the machine has to be: a file of `n` bytes is sent in parts of 1024. -/
structure Punctual (n late lag gap : Nat) : Prop where
  notices : late < 4000
  arrivals : gap + 5 * late + 12 * lag < 995000
  parts : 4 * late + (17 + 3 * max 1 ((n + 1023) / 1024)) * lag < 1000000

theorem transferTest_going {file : Bytes} {script : Nat → List Statement} (hs : TransferTest file script) {late lag gap : Nat}
    (hp : Punctual file.length late lag gap) {ls : List (Nat × Tests.Label)} {s : Test} (hr : Tests.Run script late lag ls s)
    (hn : connects ls ≤ 247) (ha : Arrivals gap s) (he : Sighted ls) :
    lag < 250000 ∧ ∃ plan : Nat → Plan, script = scripts plan ∧ Pair late lag gap plan file ∧ Going plan late lag gap (connects ls) s := by
  obtain ⟨hf, m₀, m₁, h0, h1, rfl⟩ := hs
  let plan : Nat → Plan := fun h => if h = 0 then ⟨true, ⟨m₀, h0⟩, ⟨m₁, h1⟩, .give file⟩ else ⟨false, ⟨m₁, h1⟩, ⟨m₀, h0⟩, .take file⟩
  have e : (fun h => if h = 0 then controller m₀ m₁ file else controlee m₁ m₀ file) = scripts plan := by
    funext h
    show _ = (plan h).script
    dsimp only [plan]
    split
    · exact (Plan.script_give ⟨m₀, h0⟩ ⟨m₁, h1⟩ file).symm
    · exact (Plan.script_take ⟨m₁, h1⟩ ⟨m₀, h0⟩ file).symm
  have hq : 4 * late + 17 * lag + pieces file * (3 * lag) < 1000000 := by
    have := hp.parts
    unfold pieces
    rw [Nat.add_mul, ← Nat.add_assoc, Nat.mul_comm 3, Nat.mul_assoc] at this
    exact this
  have hlag : lag < 250000 := by omega
  have hpair : Pair late lag gap plan file := ⟨rfl, rfl, rfl, rfl, rfl, hf, hp.arrivals, hq⟩
  rw [e] at hr ⊢
  exact ⟨hlag, plan, rfl, hpair, run_going hp.notices hlag (.inr ⟨file, hpair⟩) hr hn (.inr ha) fun t ev hm => .inr (he t ev hm)⟩

/-- C93: on a punctual machine no host of the data transfer test raises an exception and the emulator does not panic. -/
theorem C93_pass {file : Bytes} {script : Nat → List Statement} (hs : TransferTest file script) {late lag gap : Nat}
    (hp : Punctual file.length late lag gap) {ls : List (Nat × Tests.Label)} {s : Test} (hr : Tests.Run script late lag ls s)
    (hn : connects ls ≤ 247) (ha : Arrivals gap s) (he : Sighted ls) :
    s.clock.sys.stopped = false ∧ ∀ h H, s.hosts.get? h = some H → H.failed = false := by
  obtain ⟨-, plan, rfl, -, hg⟩ := transferTest_going hs hp hr hn ha he
  exact ⟨hg.up, fun h H => hg.passes⟩

/-- C93: the controller has executed all its statements 2.017 s after its connection was accepted, the controlee 1.017 s
after its own, plus five times the lateness of notifications and, for the delay of everything else, 22 or 21 times that
delay and three times for every part of the file. -/
theorem C93_time {file : Bytes} {script : Nat → List Statement} (hs : TransferTest file script) {late lag gap : Nat}
    (hp : Punctual file.length late lag gap) {ls : List (Nat × Tests.Label)} {s : Test} (hr : Tests.Run script late lag ls s)
    (hn : connects ls ≤ 247) (ha : Arrivals gap s) (he : Sighted ls) {h : Nat} {H : Tests.Host} (hH : s.hosts.get? h = some H)
    (ht : H.born + (if h = 0 then 2017000 + 22 * lag else 1017000 + 21 * lag) + 5 * late + 3 * max 1 ((file.length + 1023) / 1024) * lag < s.clock.now) :
    H.todo = [] := by
  obtain ⟨-, plan, rfl, hpair, hg⟩ := transferTest_going hs hp hr hn ha he
  refine hg.done hp.notices (run_inTime hr).1 hH ?_
  rw [Nat.mul_comm 3, Nat.mul_assoc] at ht
  match h, hH, ht with
  | 0, _, ht =>
    rw [if_pos rfl] at ht
    unfold Plan.bound
    rw [hpair.leads.limit, hpair.slack]
    unfold pieces
    omega
  | 1, _, ht =>
    rw [if_neg (by decide)] at ht
    unfold Plan.bound
    rw [Plan.limit_take hpair.take]
    unfold pieces
    omega
  | h + 2, hH, _ =>
    rw [ha.1 (h + 2) (by omega)] at hH
    cases hH

/-- C93: as long as a host has statements to execute, a host can send or take a packet off its queue, or the emulator can
take a command off its queue, send a notification or wake a ranging task, without anything being late. -/
theorem C93_progress {file : Bytes} {script : Nat → List Statement} (hs : TransferTest file script) {late lag gap : Nat}
    (hp : Punctual file.length late lag gap) {ls : List (Nat × Tests.Label)} {s : Test} (hr : Tests.Run script late lag ls s)
    (hn : connects ls ≤ 247) (ha : Arrivals gap s) (he : Sighted ls) {h : Nat} {H : Tests.Host} (hH : s.hosts.get? h = some H)
    (ht : H.todo ≠ []) : ∃ t l u, Tests.Run script late lag (ls ++ [(t, l)]) u ∧ Working l := by
  obtain ⟨hlag, plan, rfl, -, hg⟩ := transferTest_going hs hp hr hn ha he
  obtain ⟨h1, h2⟩ := run_inTime hr
  obtain ⟨t, l, u, h3, h4, h5⟩ := hg.progress hn hp.notices hlag h1 h2 hH ht
  exact ⟨t, l, u, .step hr hg.up h3 h4, h5⟩

/-! ### Examples and counterexamples -/

namespace TransferRuns
open Pica.Ex

/-- `tests/data_transfer.py` 352-364. -/
def hosts (file : Bytes) (h : Nat) : List Statement :=
  if h = 0 then controller [0x34, 0x12] [0x78, 0x56] file else controlee [0x78, 0x56] [0x34, 0x12] file

theorem hosts_transfer {file : Bytes} (h : file.length ≤ 65535) : TransferTest file (hosts file) :=
  ⟨h, _, _, rfl, rfl, rfl⟩

def next (h : Nat) : List Do := [.emu (.notifies 0), .gets h, .sends h, .emu .process, .gets h]

/-- A part of the file is sent. -/
def sendsPart (h : Nat) : List Do := [.sends h, .emu .process, .gets h]

/-- Both hosts on a perfect machine, the controller with `n` parts to send. -/
def both (n : Nat) : List (Nat × Do) :=
  at'' 0 [.emu (.request .connect), .emu .process, .emu (.request .connect), .emu .process] ++
  at'' 5000 (next 0 ++ next 1) ++ at'' 10000 (next 0 ++ next 1) ++ at'' 11000 (next 0 ++ next 1) ++
  at'' 12000 ([.emu (.notifies 0), .gets 0] ++ (List.range n).flatMap (fun _ => sendsPart 0) ++ [.sends 0, .emu .process, .gets 0] ++ next 1) ++
  at'' 13000 [.emu (.notifies 0), .gets 0, .emu (.notifies 1), .gets 1] ++
  at'' 17000 [.emu (.notifies 0), .gets 0, .emu (.notifies 0), .gets 1] ++
  at'' 1012000 [.emu (.tick 0), .emu .process, .gets 0, .gets 1, .emu (.tick 1), .emu .process, .gets 1, .sends 1, .emu .process, .gets 1] ++
  at'' 1013000 [.emu (.notifies 0), .gets 1] ++
  at'' 1017000 [.emu (.notifies 0), .gets 1, .sends 1, .emu .process, .gets 1] ++ at'' 1018000 [.emu (.notifies 0)] ++
  at'' 2012000 [.emu (.tick 0), .emu .process, .gets 0, .sends 0, .emu .process, .gets 0] ++
  at'' 2013000 [.emu (.notifies 0), .gets 0] ++
  at'' 2017000 (next 0)

/-- The controlee connects a second after the controller. -/
def apart : List (Nat × Do) :=
  at'' 0 [.emu (.request .connect), .emu .process] ++
  at'' 5000 (next 0) ++ at'' 10000 (next 0) ++ at'' 11000 (next 0) ++
  at'' 12000 ([.emu (.notifies 0), .gets 0] ++ sendsPart 0 ++ [.sends 0, .emu .process, .gets 0]) ++
  at'' 13000 [.emu (.notifies 0), .gets 0] ++ at'' 17000 [.emu (.notifies 0), .gets 0] ++
  at'' 1000000 [.emu (.request .connect), .emu .process] ++
  at'' 1005000 (next 1) ++ at'' 1010000 (next 1) ++ at'' 1011000 (next 1) ++
  at'' 1012000 ([.emu (.tick 0), .emu .process, .gets 0] ++ next 1) ++
  at'' 1013000 [.emu (.notifies 0), .gets 1] ++ at'' 1017000 [.emu (.notifies 0), .gets 1] ++
  at'' 2012000 [.emu (.tick 0), .emu .process, .gets 1]

/-- `Sighted`, computed. -/
def sighted (ls : List (Nat × Tests.Label)) : Bool :=
  ls.all fun x => match x.2 with
    | .emulator (.process ev) => (ev.env.estimate 0 1).isSome && (ev.env.estimate 1 0).isSome
    | _ => true

theorem sighted_of {ls : List (Nat × Tests.Label)} (h : sighted ls = true) : Sighted ls := by
  intro t ev hm
  have := List.all_eq_true.mp h _ hm
  obtain ⟨h1, h2⟩ := Bool.and_eq_true_iff.mp this
  exact ⟨Option.isSome_iff_ne_none.mp h1, Option.isSome_iff_ne_none.mp h2⟩

/-- `Arrivals`, computed. -/
def arrivals (gap : Nat) (s : Test) : Bool :=
  s.hosts.all (fun x => decide (x.1 < 2)) &&
  match s.hosts.get? 1 with
  | none => true
  | some H₁ => (s.hosts.get? 0).any fun H₀ => decide (H₁.born ≤ H₀.born + gap)

theorem arrivals_of {gap : Nat} {s : Test} (h : arrivals gap s = true) : Arrivals gap s := by
  obtain ⟨h1, h2⟩ := Bool.and_eq_true_iff.mp h
  refine ⟨fun k hk => ?_, fun H₁ hH => ?_⟩
  · cases hs : s.hosts.get? k with
    | none => rfl
    | some H =>
      have := of_decide_eq_true (List.all_eq_true.mp h1 _ (AMap.mem_of_get? hs))
      dsimp only at this
      omega
  · rw [hH] at h2
    dsimp only at h2
    cases hs : s.hosts.get? 0 with
    | none => rw [hs] at h2; cases h2
    | some H₀ => rw [hs] at h2; exact ⟨H₀, rfl, of_decide_eq_true h2⟩

end TransferRuns
open TransferRuns Pica.Ex

/-- A short file. -/
example : ∃ ls s, Tests.Run (TransferRuns.hosts [1, 2, 3]) 0 0 ls s ∧
    (decide (connects ls = 2) && arrivals 0 s && sighted ls && [0, 1].all fun h => (s.hosts.get? h).any fun H => decide (H.todo = []) && !H.failed) = true :=
  exists_tested (as := TransferRuns.both 1) (f := fun ls s => decide (connects ls = 2) && arrivals 0 s && sighted ls && [0, 1].all fun h =>
    (s.hosts.get? h).any fun H => decide (H.todo = []) && !H.failed) (by decide +kernel)

/-- A file that does not fit in one part. -/
example : ∃ ls s, Tests.Run (TransferRuns.hosts (List.replicate 1025 7)) 0 0 ls s ∧
    (decide (connects ls = 2) && arrivals 0 s && sighted ls && [0, 1].all fun h => (s.hosts.get? h).any fun H => decide (H.todo = []) && !H.failed) = true :=
  exists_tested (as := TransferRuns.both 2) (f := fun ls s => decide (connects ls = 2) && arrivals 0 s && sighted ls && [0, 1].all fun h =>
    (s.hosts.get? h).any fun H => decide (H.todo = []) && !H.failed) (by decide +kernel)

/-- The largest file, on a machine where everything else takes 4 ms. -/
example : Punctual 65535 3999 4500 900000 := ⟨by decide, by decide, by decide⟩

/-- C93 is false when the controlee connects a second after the controller, however punctual the machine: the emulator hands
the file to nobody, and an empty message to the controlee a second later. -/
theorem C93_gap_false : ∃ ls s, Tests.Run (TransferRuns.hosts [1, 2, 3]) 0 0 ls s ∧ connects ls = 2 ∧ Arrivals 1000000 s ∧ Sighted ls ∧
    ∃ H, s.hosts.get? 1 = some H ∧ H.failed = true := by
  obtain ⟨ls, s, hr, h⟩ := exists_tested (script := TransferRuns.hosts [1, 2, 3]) (late := 0) (lag := 0) (as := apart)
    (f := fun ls s => decide (connects ls = 2) && arrivals 1000000 s && sighted ls && (s.hosts.get? 1).any (·.failed)) (by decide +kernel)
  simp only [Bool.and_eq_true] at h
  obtain ⟨⟨⟨h1, h2⟩, h3⟩, h4⟩ := h
  refine ⟨ls, s, hr, of_decide_eq_true h1, arrivals_of h2, sighted_of h3, ?_⟩
  cases hH : s.hosts.get? 1 with
  | none => rw [hH] at h4; cases h4
  | some H => rw [hH] at h4; exact ⟨H, rfl, h4⟩

end Pica.Props
