import Verif.Proofs.TestsStages
/-! The order of the stages of a host of the tests. -/

set_option linter.dupNamespace false

namespace Pica.Tests
open Spec SessionState

namespace Plan

/-- The data a host waits for. -/
def wants (p : Plan) (f : Bytes) : Py.Obj := .dataMessageRcv 0 0 0 (ofLe p.peer.1) 1 f

/-- What is added to the time a host takes for the parts of the file. -/
def slack (p : Plan) (lag : Nat) : Nat := p.n * (3 * lag)

/-- When the session is stopped at the latest. -/
def limit (p : Plan) (late lag : Nat) : Nat :=
  match p.kind with
  | .take f => 1012000 + 4 * late + 14 * lag + pieces f * (3 * lag)
  | _ => 2012000 + 4 * late + 15 * lag + p.slack lag

/-- When the host is done. -/
def bound (p : Plan) (late lag : Nat) : Nat := p.limit late lag + 5000 + late + 6 * lag

/-- The host does not wait for data. -/
def Leads (p : Plan) : Prop := ∀ f, p.kind ≠ .take f

theorem Leads.middle {p : Plan} (h : p.Leads) : p.middle = [info, info] := by
  unfold Plan.middle
  split
  · rename_i e; exact absurd e (h _)
  · rfl

theorem Leads.limit {p : Plan} (h : p.Leads) (late lag : Nat) : p.limit late lag = 2012000 + 4 * late + 15 * lag + p.slack lag := by
  unfold Plan.limit
  split
  · rename_i e; exact absurd e (h _)
  · rfl

theorem middle_take {p : Plan} {f : Bytes} (h : p.kind = .take f) : p.middle = [.expect (.data (p.wants f)) (2 * second), info] := by
  unfold Plan.middle
  rw [h]
  rfl

theorem limit_take {p : Plan} {f : Bytes} (h : p.kind = .take f) (late lag : Nat) :
    p.limit late lag = 1012000 + 4 * late + 14 * lag + pieces f * (3 * lag) := by
  unfold Plan.limit
  rw [h]

theorem slack_take {p : Plan} {f : Bytes} (h : p.kind = .take f) (lag : Nat) : p.slack lag = 0 := by
  unfold Plan.slack n
  rw [h]
  exact Nat.zero_mul _

theorem file_take {p : Plan} {f : Bytes} (h : p.kind = .take f) : p.file = [] := by
  unfold file
  rw [h]

theorem slack_le (p : Plan) (lag i : Nat) (h : i ≤ p.n) : i * (3 * lag) ≤ p.slack lag := Nat.mul_le_mul_right _ h

end Plan

/-- The stages of a host that connected at the time `b`. -/
inductive Good (p : Plan) (late lag h b : Nat) : Stage → Prop
  | connected : Good p late lag h b ⟨dev₀ h, [], [(b + 5000, .coreDeviceStatus .deviceStateReady)], none, b, p.first.drop 0 ++ (p.parts 0 ++ p.run)⟩
  | ready {lo : Nat} : b + 5000 ≤ lo → lo ≤ b + 5000 + late → Good p late lag h b ⟨dev₀ h, [], [], none, lo, p.first.drop 1 ++ (p.parts 0 ++ p.run)⟩
  | reset {lo : Nat} {x : Bytes} : b + 5000 ≤ lo → lo ≤ b + 5000 + late + 2 * lag → IsCmd x (.coreDeviceReset .uwbsReset) →
      Good p late lag h b ⟨dev₀ h, [(lo, .uciPacket h x)], [], none, lo, p.first.drop 2 ++ (p.parts 0 ++ p.run)⟩
  | resetRsp {lo : Nat} : b + 5000 ≤ lo → lo ≤ b + 5000 + late + 3 * lag →
      Good p late lag h b ⟨dev₁ h, [], [(lo + 5000, .coreDeviceStatus .deviceStateReady)], none, lo, p.first.drop 3 ++ (p.parts 0 ++ p.run)⟩
  | ready' {lo : Nat} : b + 10000 ≤ lo → lo ≤ b + 10000 + 2 * late + 3 * lag →
      Good p late lag h b ⟨dev₁ h, [], [], none, lo, p.first.drop 4 ++ (p.parts 0 ++ p.run)⟩
  | init {lo : Nat} {x : Bytes} : b + 10000 ≤ lo → lo ≤ b + 10000 + 2 * late + 5 * lag → IsCmd x (.sessionInit 0 p.type) →
      Good p late lag h b ⟨dev₁ h, [(lo, .uciPacket h x)], [], none, lo, p.first.drop 5 ++ (p.parts 0 ++ p.run)⟩
  | initRsp {lo : Nat} : b + 10000 ≤ lo → lo ≤ b + 10000 + 2 * late + 6 * lag →
      Good p late lag h b ⟨made p h, [], [(lo + 1000, .sessionStatus 0 sessionStateInit 0)], none, lo, p.first.drop 6 ++ (p.parts 0 ++ p.run)⟩
  | inited {lo : Nat} : b + 11000 ≤ lo → lo ≤ b + 11000 + 3 * late + 6 * lag →
      Good p late lag h b ⟨made p h, [], [], none, lo, p.first.drop 7 ++ (p.parts 0 ++ p.run)⟩
  | config {lo : Nat} {x : Bytes} : b + 11000 ≤ lo → lo ≤ b + 11000 + 3 * late + 8 * lag → IsCmd x (.sessionSetAppConfig 0 p.tlvs) →
      Good p late lag h b ⟨made p h, [(lo, .uciPacket h x)], [], none, lo, p.first.drop 8 ++ (p.parts 0 ++ p.run)⟩
  | configRsp {lo : Nat} : b + 11000 ≤ lo → lo ≤ b + 11000 + 3 * late + 9 * lag →
      Good p late lag h b ⟨idle p h 0 [], [], [(lo + 1000, .sessionStatus 0 sessionStateIdle 0)], none, lo, p.first.drop 9 ++ (p.parts 0 ++ p.run)⟩
  | part {lo i : Nat} : i ≤ p.n → b + 12000 ≤ lo → lo ≤ b + 12000 + 4 * late + 9 * lag + i * (3 * lag) →
      Good p late lag h b ⟨idle p h 0 (p.file.take (i * 1024)), [], [], none, lo, p.parts i ++ p.run⟩
  | sent {lo i : Nat} {x : Bytes} {dst : UInt64} : i < p.n → b + 12000 ≤ lo → lo ≤ b + 12000 + 4 * late + 11 * lag + i * (3 * lag) →
      IsDataSnd x (Props.part 0 dst p.file i) →
      Good p late lag h b ⟨idle p h 0 (p.file.take (i * 1024)), [(lo, .uciPacket h x)], [], none, lo, credit :: (p.parts (i + 1) ++ p.run)⟩
  | start {lo : Nat} {x : Bytes} : b + 12000 ≤ lo → lo ≤ b + 12000 + 4 * late + 11 * lag + p.slack lag → IsCmd x (.sessionStart 0) →
      Good p late lag h b ⟨idle p h 0 p.file, [(lo, .uciPacket h x)], [], none, lo, starting.drop 1 ++ (p.middle ++ closing)⟩
  | startRsp {lo k : Nat} : b + 12000 ≤ lo → lo ≤ b + 12000 + 4 * late + 12 * lag + p.slack lag →
      Good p late lag h b ⟨busy p h 0 p.file k, [],
        [(lo + 1000, .sessionStatus 0 sessionStateActive 0), (lo + 5000, .coreDeviceStatus .deviceStateActive)],
        some (k, lo + 1000000), lo, starting.drop 2 ++ (p.middle ++ closing)⟩
  | started {lo k a : Nat} : b + 12000 ≤ a → a ≤ b + 12000 + 4 * late + 12 * lag + p.slack lag → a ≤ lo →
      Good p late lag h b ⟨busy p h 0 p.file k, [], [(a + 5000, .coreDeviceStatus .deviceStateActive)], some (k, a + 1000000), lo,
        starting.drop 3 ++ (p.middle ++ closing)⟩
  | active {lo k a : Nat} : b + 12000 ≤ a → a ≤ b + 12000 + 4 * late + 12 * lag + p.slack lag → a + 5000 ≤ lo →
      Good p late lag h b ⟨busy p h 0 p.file k, [], [], some (k, a + 1000000), lo, p.middle ++ closing⟩
  | round₁ {lo k r : Nat} : b + 17000 ≤ lo → b + 1012000 ≤ r → r ≤ b + 1012000 + 4 * late + 13 * lag + p.slack lag → r ≤ lo + 1000000 + lag →
      Good p late lag h b ⟨busy p h 0 p.file k, [(r, .ranging h 0)], [], some (k, r + 1000000), lo, p.middle ++ closing⟩
  | info₁ {lo k r : Nat} : p.Leads → b + 1012000 ≤ r → r ≤ b + 1012000 + 4 * late + 13 * lag + p.slack lag → r ≤ lo →
      Good p late lag h b ⟨busy p h 1 [] k, [], [], some (k, r + 1000000), lo, info :: closing⟩
  | round₂ {lo k r : Nat} : p.Leads → b + 1012000 ≤ lo → r ≤ b + 2012000 + 4 * late + 14 * lag + p.slack lag → r ≤ lo + 1000000 + lag →
      Good p late lag h b ⟨busy p h 1 [] k, [(r, .ranging h 0)], [], some (k, r + 1000000), lo, info :: closing⟩
  /-- the data are still to come after the first round -/
  | ahead {lo k r : Nat} {f : Bytes} : p.kind = .take f → b + 17000 ≤ lo → b + 1012000 ≤ r →
      Good p late lag h b ⟨busy p h 1 [] k, [], [], some (k, r + 1000000), lo, .expect (.data (p.wants f)) (2 * second) :: closing⟩
  /-- the data have come before the first round -/
  | data {lo k a : Nat} {f : Bytes} : p.kind = .take f → b + 12000 ≤ a → a ≤ b + 12000 + 4 * late + 12 * lag → a ≤ lo →
      Good p late lag h b ⟨busy p h 0 [] k, [], [], some (k, a + 1000000), lo, info :: closing⟩
  | dataRound {lo k r : Nat} {f : Bytes} : p.kind = .take f → b + 1012000 ≤ r → r ≤ b + 1012000 + 4 * late + 13 * lag → r ≤ lo + 1000000 + lag →
      Good p late lag h b ⟨busy p h 0 [] k, [(r, .ranging h 0)], [], some (k, r + 1000000), lo, info :: closing⟩
  | halt {lo k due : Nat} {seq : UInt32} : 0 < seq.toNat ∧ seq.toNat ≤ 2 → (p.Leads → b + 1012000 ≤ lo) → lo ≤ b + p.limit late lag → lo + 3 * lag < due →
      Good p late lag h b ⟨busy p h seq [] k, [], [], some (k, due), lo, closing⟩
  | stop {lo k due : Nat} {seq : UInt32} {x : Bytes} : 0 < seq.toNat ∧ seq.toNat ≤ 2 → (p.Leads → b + 1012000 ≤ lo) → lo ≤ b + p.limit late lag + 2 * lag → lo + lag < due →
      IsCmd x (.sessionStop 0) →
      Good p late lag h b ⟨busy p h seq [] k, [(lo, .uciPacket h x)], [], some (k, due), lo, closing.drop 1⟩
  | stopRsp {lo : Nat} {seq : UInt32} : 0 < seq.toNat ∧ seq.toNat ≤ 2 → (p.Leads → b + 1012000 ≤ lo) → lo ≤ b + p.limit late lag + 3 * lag →
      Good p late lag h b ⟨idle p h seq [], [],
        [(lo + 1000, .sessionStatus 0 sessionStateIdle 0), (lo + 5000, .coreDeviceStatus .deviceStateReady)], none, lo, closing.drop 2⟩
  | stopped {lo a : Nat} {seq : UInt32} : 0 < seq.toNat ∧ seq.toNat ≤ 2 → (p.Leads → b + 1012000 ≤ lo) → a ≤ b + p.limit late lag + 3 * lag → a ≤ lo →
      Good p late lag h b ⟨idle p h seq [], [], [(a + 5000, .coreDeviceStatus .deviceStateReady)], none, lo, closing.drop 3⟩
  | ready'' {lo : Nat} {seq : UInt32} : 0 < seq.toNat ∧ seq.toNat ≤ 2 → (p.Leads → b + 1012000 ≤ lo) → lo ≤ b + p.limit late lag + 5000 + late + 3 * lag →
      Good p late lag h b ⟨idle p h seq [], [], [], none, lo, closing.drop 4⟩
  | deinit {lo : Nat} {seq : UInt32} {x : Bytes} : 0 < seq.toNat ∧ seq.toNat ≤ 2 → (p.Leads → b + 1012000 ≤ lo) → lo ≤ b + p.limit late lag + 5000 + late + 5 * lag →
      IsCmd x (.sessionDeinit 0) →
      Good p late lag h b ⟨idle p h seq [], [(lo, .uciPacket h x)], [], none, lo, closing.drop 5⟩

/-- The stages of a host. -/
def Okay (p : Plan) (late lag h : Nat) : Status → Prop
  | .blank => True
  | .at b g => Good p late lag h b g
  | .done b lo => (p.Leads → b + 1012000 ≤ lo) ∧ lo ≤ b + p.bound late lag

variable {late lag t h : Nat} {rest : List Statement} {g : Stage} {p : Plan} {b : Nat}

theorem middle_cons (p : Plan) : (∃ f, p.kind = .take f ∧ p.middle = [.expect (.data (p.wants f)) (2 * second), info]) ∨
    p.Leads ∧ p.middle = [info, info] := by
  cases hk : p.kind with
  | take f => exact .inl ⟨f, rfl, Plan.middle_take hk⟩
  | _ =>
    have : p.Leads := by intro f; rw [hk]; simp
    exact .inr ⟨this, this.middle⟩

/-- The statements after the parts `i`, ... of the file. -/
theorem Plan.parts_run (p : Plan) {i : Nat} (h : i ≤ p.n) :
    (i < p.n ∧ p.parts i ++ p.run = .send (.data (if p.file.length ≤ i * 1024 + 1024 then 0 else 1) 0
      (Console.fromBytes p.peer.1) (i % 65535) ((p.file.drop (i * 1024)).take 1024)) :: credit :: (p.parts (i + 1) ++ p.run)) ∨
    i = p.n ∧ p.parts i ++ p.run = .send (.control (.sessionStart 0)) :: (starting.drop 1 ++ (p.middle ++ closing)) := by
  rcases Nat.lt_or_eq_of_le h with h | rfl
  · refine .inl ⟨h, ?_⟩
    rw [p.parts_next h]
    rfl
  · refine .inr ⟨rfl, ?_⟩
    rw [p.parts_end]
    rfl

/-- Something is always due. -/
theorem Good.due (hg : Good p late lag h b g) : g.Due := by
  cases hg <;> first
    | exact .inl (List.cons_ne_nil _ _)
    | exact .inr (.inl (List.cons_ne_nil _ _))
    | exact .inr (.inr (.inr (Option.some_ne_none _)))
    | exact .inr (.inr (.inl ⟨_, _, rfl⟩))
    | skip
  rename_i h1 _ _
  rcases p.parts_run h1 with ⟨-, e⟩ | ⟨-, e⟩ <;> exact .inr (.inr (.inl ⟨_, _, e⟩))

theorem Okay.due {st : Status} (ho : Okay p late lag h st) (b : Nat) (g : Stage) (e : st = .at b g) : g.Due := by
  subst e
  exact Good.due ho

theorem Good.open (hg : Good p late lag h b g) : g.rest ≠ [] := by
  cases hg with
  | part h1 =>
    show p.parts _ ++ p.run ≠ []
    rcases p.parts_run h1 with ⟨-, e⟩ | ⟨-, e⟩ <;> rw [e] <;> exact List.cons_ne_nil _ _
  | active =>
    show p.middle ++ closing ≠ []
    rcases middle_cons p with ⟨f, -, e⟩ | ⟨-, e⟩ <;> rw [e] <;> exact List.cons_ne_nil _ _
  | round₁ =>
    show p.middle ++ closing ≠ []
    rcases middle_cons p with ⟨f, -, e⟩ | ⟨-, e⟩ <;> rw [e] <;> exact List.cons_ne_nil _ _
  | _ => exact List.cons_ne_nil _ _

/-- The notification that arrives is the one expected. -/
theorem Good.note (hg : Good p late lag h b g) (hlate : late < 4000) {n : Ntf} {due : Nat} {l : List (Nat × Ntf)}
    (hn : g.naps.Perm ((due, n) :: l)) (hdue : due ≤ t) (ht : t ≤ g.deadline late lag) (hlo : g.lo ≤ t) :
    ∃ x m ns rest, l.Perm ns ∧ g.rest = .expect x m :: rest ∧ Reads x (.ntf n) ∧
      Good p late lag h b { g with naps := ns, lo := t, rest := rest } ∧
      t ≤ Stage.deadline late lag { g with naps := ns, lo := t, rest := rest } := by
  have one : ∀ {z : Nat × Ntf}, [z].Perm ((due, n) :: l) → z = (due, n) ∧ l = [] := fun {z} h => by
    have := List.perm_singleton.mp h.symm
    exact ⟨(List.cons.inj this).1.symm, (List.cons.inj this).2⟩
  have two : ∀ {z w : Nat × Ntf}, [z, w].Perm ((due, n) :: l) → z = (due, n) ∧ l = [w] ∨ w = (due, n) ∧ l = [z] := fun {z w} h => by
    have hm : (due, n) ∈ [z, w] := h.mem_iff.mpr List.mem_cons_self
    rcases List.mem_pair.mp hm with rfl | rfl
    · exact .inl ⟨rfl, List.perm_singleton.mp (List.Perm.cons_inv h).symm⟩
    · exact .inr ⟨rfl, List.perm_singleton.mp (List.Perm.cons_inv ((List.Perm.swap _ _ _).symm.trans h)).symm⟩
  cases hg with
  | connected =>
    obtain ⟨e, rfl⟩ := one hn
    cases e
    have ht' : t ≤ b + 5000 + late := ht
    exact ⟨_, _, [], _, .refl _, rfl, reads_ready, .ready hdue ht', Nat.le_add_right _ _⟩
  | resetRsp h0 h1 =>
    rename_i lo
    obtain ⟨e, rfl⟩ := one hn
    cases e
    have ht' : t ≤ lo + 5000 + late := ht
    exact ⟨_, _, [], _, .refl _, rfl, reads_ready, .ready' (by omega) (by omega), Nat.le_add_right _ _⟩
  | initRsp h0 h1 =>
    rename_i lo
    obtain ⟨e, rfl⟩ := one hn
    cases e
    have ht' : t ≤ lo + 1000 + late := ht
    exact ⟨_, _, [], _, .refl _, rfl, reads_sessionInit, .inited (by omega) (by omega), Nat.le_add_right _ _⟩
  | configRsp h0 h1 =>
    rename_i lo
    obtain ⟨e, rfl⟩ := one hn
    cases e
    have ht' : t ≤ lo + 1000 + late := ht
    have := Good.part (p := p) (late := late) (lag := lag) (h := h) (b := b) (lo := t) (i := 0) (Nat.zero_le _) (by omega) (by omega)
    rw [Nat.zero_mul, List.take_zero] at this
    refine ⟨_, _, [], _, .refl _, rfl, reads_sessionIdle, this, ?_⟩
    show t ≤ Stage.deadline late lag ⟨idle p h 0 [], [], [], none, t, p.parts 0 ++ p.run⟩
    rcases p.parts_run (Nat.zero_le _) with ⟨-, e⟩ | ⟨-, e⟩ <;> rw [e] <;> exact Nat.le_add_right _ _
  | startRsp h0 h1 =>
    rename_i lo k
    have ht' : t ≤ lo + 1000 + late := ht
    rcases two hn with ⟨e, rfl⟩ | ⟨e, rfl⟩
    · cases e
      exact ⟨_, _, _, _, .refl _, rfl, reads_sessionActive, .started h0 h1 hlo, (by show t ≤ lo + 5000 + late; omega)⟩
    · cases e
      omega
  | started h0 h1 h2 =>
    rename_i lo k a
    obtain ⟨e, rfl⟩ := one hn
    cases e
    have ht' : t ≤ a + 5000 + late := ht
    refine ⟨_, _, [], _, .refl _, rfl, reads_active, .active h0 h1 hdue, ?_⟩
    show t ≤ Stage.deadline late lag ⟨busy p h 0 p.file k, [], [], some (k, a + 1000000), t, p.middle ++ closing⟩
    rcases middle_cons p with ⟨f, -, e⟩ | ⟨-, e⟩ <;> rw [e] <;> (show t ≤ a + 1000000 + lag; omega)
  | stopRsp h0 h1 h2 =>
    rename_i lo _
    have ht' : t ≤ lo + 1000 + late := ht
    rcases two hn with ⟨e, rfl⟩ | ⟨e, rfl⟩
    · cases e
      exact ⟨_, _, _, _, .refl _, rfl, reads_sessionIdle, .stopped h0 (fun hl => Nat.le_trans (h1 hl) hlo) h2 hlo, (by show t ≤ lo + 5000 + late; omega)⟩
    · cases e
      omega
  | stopped h0 h1 h2 h3 =>
    rename_i lo a _
    obtain ⟨e, rfl⟩ := one hn
    cases e
    have ht' : t ≤ a + 5000 + late := ht
    exact ⟨_, _, [], _, .refl _, rfl, reads_ready, .ready'' h0 (fun hl => Nat.le_trans (h1 hl) hlo) (by omega), Nat.le_add_right _ _⟩
  | _ => exact absurd hn.symm (List.cons_ne_nil _ _ ∘ List.Perm.eq_nil)

/-- The host sends the right message. -/
theorem Good.send (hg : Good p late lag h b g) {c : Message} (hc : g.rest = .send c :: rest)
    (ht : t ≤ g.deadline late lag) (hlo : g.lo ≤ t) :
    g.queue = [] ∧ ∃ x, c.wire = some x ∧
      Good p late lag h b { g with queue := [(t, .uciPacket h x)], lo := t, rest := rest } := by
  have fits : ∀ {c : Cmd}, cmdFits c → (cmdPayload c).length ≤ 255 → ∃ x, control (pyCmd c) = some x ∧ IsCmd x c := control_isCmd
  cases hg with
  | ready h0 h1 =>
    rename_i lo
    cases hc
    have ht' : t ≤ lo + 2 * lag := ht
    obtain ⟨x, hx, hi⟩ := fits (c := .coreDeviceReset .uwbsReset) trivial (by decide)
    exact ⟨rfl, x, hx, .reset (Nat.le_trans h0 hlo) (by omega) hi⟩
  | ready' h0 h1 =>
    rename_i lo
    cases hc
    have ht' : t ≤ lo + 2 * lag := ht
    obtain ⟨x, hx, hi⟩ := fits (c := .sessionInit 0 p.type) trivial (by unfold Plan.type; split <;> decide)
    refine ⟨rfl, x, ?_, .init (Nat.le_trans h0 hlo) (by omega) hi⟩
    rw [← hx]
    show control (.sessionInit 0 p.code) = control (.sessionInit 0 _)
    unfold Plan.code Plan.type
    cases p.kind <;> rfl
  | inited h0 h1 =>
    rename_i lo
    cases hc
    have ht' : t ≤ lo + 2 * lag := ht
    obtain ⟨x, hx, hi⟩ := fits p.tlvs_fit.1 p.tlvs_fit.2
    exact ⟨rfl, x, hx, .config (Nat.le_trans h0 hlo) (by omega) hi⟩
  | part h0 h1 h2 =>
    rename_i lo i
    have ht' : t ≤ lo + 2 * lag := by
      have : t ≤ Stage.deadline late lag ⟨idle p h 0 (p.file.take (i * 1024)), [], [], none, lo, p.parts i ++ p.run⟩ := ht
      rcases p.parts_run h0 with ⟨-, e⟩ | ⟨-, e⟩ <;> rw [e] at this <;> exact this
    have hc' : p.parts i ++ p.run = .send c :: rest := hc
    rcases p.parts_run h0 with ⟨h3, e⟩ | ⟨h3, e⟩
    · rw [e] at hc'
      cases hc'
      obtain ⟨x, hx, hi⟩ := piece_isSnd p i
      exact ⟨rfl, x, hx, .sent h3 (Nat.le_trans h1 hlo) (by omega) hi⟩
    · rw [e] at hc'
      cases hc'
      subst h3
      obtain ⟨x, hx, hi⟩ := fits (c := .sessionStart 0) trivial (by decide)
      refine ⟨rfl, x, hx, ?_⟩
      have h2' : lo ≤ b + 12000 + 4 * late + 9 * lag + p.slack lag := h2
      have := Good.start (p := p) (late := late) (lag := lag) (h := h) (b := b) (lo := t) (Nat.le_trans h1 hlo) (by omega) hi
      rw [← p.take_end] at this
      exact this
  | active h0 h1 h2 =>
    rename_i lo k a
    have hc' : p.middle ++ closing = .send c :: rest := hc
    rcases middle_cons p with ⟨f, -, e⟩ | ⟨-, e⟩ <;> rw [e] at hc' <;> cases hc'
  | round₁ h0 h1 h2 =>
    have hc' : p.middle ++ closing = .send c :: rest := hc
    rcases middle_cons p with ⟨f, -, e⟩ | ⟨-, e⟩ <;> rw [e] at hc' <;> cases hc'
  | halt h0 h1 h2 h3 =>
    rename_i lo k r _
    cases hc
    have ht' : t ≤ lo + 2 * lag := ht
    obtain ⟨x, hx, hi⟩ := fits (c := .sessionStop 0) trivial (by decide)
    exact ⟨rfl, x, hx, .stop h0 (fun hl => Nat.le_trans (h1 hl) hlo) (by omega) (by omega) hi⟩
  | ready'' h0 h1 h2 =>
    rename_i lo _
    cases hc
    have ht' : t ≤ lo + 2 * lag := ht
    obtain ⟨x, hx, hi⟩ := fits (c := .sessionDeinit 0) trivial (by decide)
    exact ⟨rfl, x, hx, .deinit h0 (fun hl => Nat.le_trans (h1 hl) hlo) (by omega) hi⟩
  | _ => cases hc

/-- When the round of a host is to be processed. -/
theorem deadline_middle {d : Device} {k a lo : Nat} : Stage.deadline late lag ⟨d, [], [], some (k, a), lo, p.middle ++ closing⟩ = a + lag := by
  rcases middle_cons p with ⟨f, -, e⟩ | ⟨-, e⟩ <;> rw [e] <;> rfl

/-- The ranging task acts when it is expected to. -/
theorem Good.tick (hg : Good p late lag h b g) (hlate : late < 4000) (hlag : lag < 250000) {k due : Nat}
    (hk : g.timer = some (k, due)) (hdue : due ≤ t) (ht : t ≤ g.deadline late lag) (hl : wantsData g.rest = true → t < b + 2012000) :
    g.queue = [] ∧ Good p late lag h b { g with queue := [(t, .ranging h 0)], timer := some (k, t + 1000000) } := by
  cases hg with
  | startRsp h1 =>
    rename_i lo k _
    cases hk
    have ht' : t ≤ lo + 1000 + late := ht
    omega
  | started h0 h1 h2 =>
    rename_i lo k a
    cases hk
    have ht' : t ≤ a + 5000 + late := ht
    omega
  | active h0 h1 h2 =>
    rename_i lo k a
    cases hk
    have ht' : t ≤ a + 1000000 + lag := by rw [← deadline_middle]; exact ht
    exact ⟨rfl, .round₁ (by first | omega | (dsimp only; omega)) (by first | omega | (dsimp only; omega)) (by first | omega | (dsimp only; omega)) (by first | omega | (dsimp only; omega))⟩
  | round₁ h0 h1 h2 =>
    rename_i lo k r _
    cases hk
    have ht' : t ≤ r + lag := ht
    omega
  | info₁ h0 h1 h2 h3 =>
    rename_i lo k r
    cases hk
    have ht' : t ≤ r + 1000000 + lag := ht
    exact ⟨rfl, .round₂ h0 (by first | omega | (dsimp only; omega)) (by first | omega | (dsimp only; omega)) (by first | omega | (dsimp only; omega))⟩
  | round₂ h0 h1 h2 h3 =>
    rename_i lo k r
    cases hk
    have ht' : t ≤ r + lag := ht
    omega
  | ahead h0 h1 h2 =>
    rename_i lo k r f
    cases hk
    have := hl rfl
    omega
  | data h0 h1 h2 h3 =>
    rename_i lo k a f
    cases hk
    have ht' : t ≤ a + 1000000 + lag := ht
    exact ⟨rfl, .dataRound h0 (by first | omega | (dsimp only; omega)) (by first | omega | (dsimp only; omega)) (by first | omega | (dsimp only; omega))⟩
  | dataRound h0 h1 h2 h3 =>
    rename_i lo k r f
    cases hk
    have ht' : t ≤ r + lag := ht
    omega
  | halt h0 h1 h2 h3 =>
    rename_i lo k r _
    cases hk
    have ht' : t ≤ lo + 2 * lag := ht
    omega
  | stop h0 h1 h2 h3 =>
    rename_i lo k r _ x _
    cases hk
    have ht' : t ≤ lo + lag := ht
    omega
  | _ => cases hk

/-- No host waits too long. -/
theorem Good.patient (hg : Good p late lag h b g) (hlate : late < 4000) (hlag : lag < 250000) {x : Expected} {n : Nat} {r : List Statement}
    (hx : g.rest = .expect x n :: r) (ht : t ≤ g.deadline late lag) (hl : wantsData g.rest = true → t < b + 2012000) : t < g.lo + n := by
  have hm : p.middle ++ closing = .expect x n :: r → n = 2000000 := by
    intro e'
    rcases middle_cons p with ⟨f, -, e⟩ | ⟨-, e⟩ <;> rw [e] at e' <;> cases e' <;> rfl
  cases hg with
  | connected => cases hx; have ht' : t ≤ b + 5000 + late := ht; show t < b + 1000000; omega
  | reset => rename_i lo _ _ _ _; cases hx; have ht' : t ≤ lo + lag := ht; show t < lo + 1000000; omega
  | resetRsp => rename_i lo _ _; cases hx; have ht' : t ≤ lo + 5000 + late := ht; show t < lo + 1000000; omega
  | init => rename_i lo _ _ _ _; cases hx; have ht' : t ≤ lo + lag := ht; show t < lo + 1000000; omega
  | initRsp => rename_i lo _ _; cases hx; have ht' : t ≤ lo + 1000 + late := ht; show t < lo + 1000000; omega
  | config => rename_i lo _ _ _ _; cases hx; have ht' : t ≤ lo + lag := ht; show t < lo + 1000000; omega
  | configRsp => rename_i lo _ _; cases hx; have ht' : t ≤ lo + 1000 + late := ht; show t < lo + 1000000; omega
  | part h0 =>
    have hc' : p.parts _ ++ p.run = .expect x n :: r := hx
    rcases p.parts_run h0 with ⟨-, e⟩ | ⟨-, e⟩ <;> rw [e] at hc' <;> cases hc'
  | sent => rename_i lo _ _ _ _ _ _ _; cases hx; have ht' : t ≤ lo + lag := ht; show t < lo + 1000000; omega
  | start => rename_i lo _ _ _ _; cases hx; have ht' : t ≤ lo + lag := ht; show t < lo + 1000000; omega
  | startRsp => rename_i lo _ _ _; cases hx; have ht' : t ≤ lo + 1000 + late := ht; show t < lo + 1000000; omega
  | started h0 h1 h2 => rename_i lo _ a; cases hx; have ht' : t ≤ a + 5000 + late := ht; show t < lo + 1000000; omega
  | active h0 h1 h2 =>
    rename_i lo _ a
    have ht' : t ≤ a + 1000000 + lag := by rw [← deadline_middle]; exact ht
    rw [hm hx]
    show t < lo + 2000000; omega
  | round₁ h0 h1 h2 h3 => rename_i lo _ r; have ht' : t ≤ r + lag := ht; rw [hm hx]; show t < lo + 2000000; omega
  | info₁ h0 h1 h2 h3 => rename_i lo _ r; cases hx; have ht' : t ≤ r + 1000000 + lag := ht; show t < lo + 2000000; omega
  | round₂ h0 h1 h2 h3 => rename_i lo _ r; cases hx; have ht' : t ≤ r + lag := ht; show t < lo + 2000000; omega
  | ahead h0 h1 h2 => rename_i lo _ r f; cases hx; have := hl rfl; show t < lo + 2000000; omega
  | data h0 h1 h2 h3 => rename_i lo _ a f; cases hx; have ht' : t ≤ a + 1000000 + lag := ht; show t < lo + 2000000; omega
  | dataRound h0 h1 h2 h3 => rename_i lo _ r f; cases hx; have ht' : t ≤ r + lag := ht; show t < lo + 2000000; omega
  | stop => rename_i lo _ _ _ _ _ _ _ _ _; cases hx; have ht' : t ≤ lo + lag := ht; show t < lo + 1000000; omega
  | stopRsp => rename_i lo _ _ _ _; cases hx; have ht' : t ≤ lo + 1000 + late := ht; show t < lo + 1000000; omega
  | stopped h0 h1 h2 h3 => rename_i lo a _; cases hx; have ht' : t ≤ a + 5000 + late := ht; show t < lo + 1000000; omega
  | deinit => rename_i lo _ _ _ _ _ _; cases hx; have ht' : t ≤ lo + lag := ht; show t < lo + 1000000; omega
  | _ => cases hx

/-- The sessions of the test. -/
theorem Good.sessions (hg : Good p late lag h b g) (hf : p.file.length ≤ 65535) :
    g.dev.sessions = [] ∨ ∃ st seq data cfg k, g.dev = dev₂ h (sess h p.type st seq data cfg k) ∧ cfg.Tame ∧ seq.toNat ≤ 2 ∧
      data.length ≤ 65535 ∧ (st ≠ sessionStateActive → k = none) := by
  have hn : ([] : Bytes).length ≤ 65535 := Nat.zero_le _
  cases hg <;> first
    | exact .inl rfl
    | exact .inr ⟨_, _, _, _, _, rfl, AppConfig.tame_default, by decide, hn, fun _ => rfl⟩
    | exact .inr ⟨_, _, _, _, _, rfl, p.tame, by decide, hn, fun _ => rfl⟩
    | exact .inr ⟨_, _, _, _, _, rfl, p.tame, by decide, hf, fun _ => rfl⟩
    | exact .inr ⟨_, _, _, _, _, rfl, p.tame, by decide, hf, fun h => absurd rfl h⟩
    | exact .inr ⟨_, _, _, _, _, rfl, p.tame, by decide, hn, fun h => absurd rfl h⟩
    | exact .inr ⟨_, _, _, _, _, rfl, p.tame, And.right (by assumption), hn, fun _ => rfl⟩
    | exact .inr ⟨_, _, _, _, _, rfl, p.tame, And.right (by assumption), hn, fun h => absurd rfl h⟩
    | exact .inr ⟨_, _, _, _, _, rfl, p.tame, by decide, (by rw [List.length_take]; omega), fun _ => rfl⟩

/-- No data are expected by this statement. -/
def Plain (l : List Statement) : Prop := ∀ o n, .expect (.data o) n ∉ l

theorem plain_of {l : List Statement} (h : l.all (fun s => match s with | .expect x _ => !x.isData | _ => true) = true) : Plain l := by
  intro o n hm
  have := List.all_eq_true.mp h _ hm
  cases this

theorem Plain.append {l m : List Statement} (h1 : Plain l) (h2 : Plain m) : Plain (l ++ m) := by
  intro o n hm
  rcases List.mem_append.mp hm with h | h
  · exact h1 o n h
  · exact h2 o n h

theorem Plain.drop {l : List Statement} (h : Plain l) (i : Nat) : Plain (l.drop i) := fun o n hm => h o n (List.mem_of_mem_drop hm)

theorem Plain.cons {x : Expected} {m : Nat} {l : List Statement} (hx : x.isData = false) (h : Plain l) : Plain (.expect x m :: l) := by
  intro o n hm
  rcases List.mem_cons.mp hm with e | e
  · cases e; cases hx
  · exact h o n e

theorem plain_closing : Plain closing := plain_of rfl
theorem plain_starting : Plain starting := plain_of rfl
theorem plain_first : Plain p.first := plain_of rfl

theorem plain_parts (i : Nat) : Plain (p.parts i) := by
  unfold Plan.parts piecesFrom
  intro o n hm
  obtain ⟨j, -, hj⟩ := List.mem_flatMap.mp hm
  rcases List.mem_cons.mp hj with e | e
  · cases e
  · cases List.mem_singleton.mp e

/-- A host that does not wait for data never does. -/
theorem Good.plain (hg : Good p late lag h b g) (hp : p.Leads) : Plain g.rest := by
  have hm : Plain (p.middle ++ closing) := by rw [hp.middle]; exact plain_of rfl
  have hr : Plain p.run := plain_starting.append hm
  have hc : Plain (info :: closing) := .cons rfl plain_closing
  cases hg <;> first
    | exact (plain_first.drop _).append ((plain_parts _).append hr)
    | exact (plain_parts _).append hr
    | exact .cons rfl ((plain_parts _).append hr)
    | exact (plain_starting.drop _).append hm
    | exact plain_closing.drop _
    | exact hm
    | exact hc
    | exact plain_closing
    | (rename_i e _ _; exact absurd e (hp _))

/-- A host that waits for data does so soon. -/
theorem Good.early (hg : Good p late lag h b g) (hlate : late < 4000) {f : Bytes} (hk : p.kind = .take f) (hp : ¬ Plain g.rest) (ht : t ≤ g.deadline late lag) :
    t ≤ b + 17000 + 5 * late + 12 * lag ∨
    (∃ lo k a, a ≤ b + 12000 + 4 * late + 12 * lag ∧ b + 12000 ≤ a ∧ a + 5000 ≤ lo ∧ g = ⟨busy p h 0 [] k, [], [], some (k, a + 1000000), lo, .expect (.data (p.wants f)) (2 * second) :: info :: closing⟩) ∨
    (∃ lo k r, b + 17000 ≤ lo ∧ b + 1012000 ≤ r ∧ r ≤ b + 1012000 + 4 * late + 13 * lag ∧
      g = ⟨busy p h 0 [] k, [(r, .ranging h 0)], [], some (k, r + 1000000), lo, .expect (.data (p.wants f)) (2 * second) :: info :: closing⟩) ∨
    (∃ lo k r, b + 17000 ≤ lo ∧ b + 1012000 ≤ r ∧
      g = ⟨busy p h 1 [] k, [], [], some (k, r + 1000000), lo, .expect (.data (p.wants f)) (2 * second) :: closing⟩) := by
  have hs := Plan.slack_take hk lag
  have hm := Plan.middle_take hk
  have hf := Plan.file_take hk
  have hn : p.n = 0 := by unfold Plan.n; rw [hk]
  cases hg with
  | connected => have ht' : t ≤ b + 5000 + late := ht; omega
  | ready h0 h1 => rename_i lo; have ht' : t ≤ lo + 2 * lag := ht; omega
  | reset h0 h1 => rename_i lo _ _; have ht' : t ≤ lo + lag := ht; omega
  | resetRsp h0 h1 => rename_i lo; have ht' : t ≤ lo + 5000 + late := ht; omega
  | ready' h0 h1 => rename_i lo; have ht' : t ≤ lo + 2 * lag := ht; omega
  | init h0 h1 => rename_i lo _ _; have ht' : t ≤ lo + lag := ht; omega
  | initRsp h0 h1 => rename_i lo; have ht' : t ≤ lo + 1000 + late := ht; omega
  | inited h0 h1 => rename_i lo; have ht' : t ≤ lo + 2 * lag := ht; omega
  | config h0 h1 => rename_i lo _ _; have ht' : t ≤ lo + lag := ht; omega
  | configRsp h0 h1 => rename_i lo; have ht' : t ≤ lo + 1000 + late := ht; omega
  | part h0 h1 h2 =>
    rename_i lo i
    have : t ≤ Stage.deadline late lag ⟨idle p h 0 (p.file.take (i * 1024)), [], [], none, lo, p.parts i ++ p.run⟩ := ht
    have hi : i = 0 := by omega
    subst hi
    rcases p.parts_run h0 with ⟨h3, e⟩ | ⟨-, e⟩
    · omega
    · rw [e] at this
      have ht' : t ≤ lo + 2 * lag := this
      omega
  | sent h0 => omega
  | start h0 h1 => rename_i lo _ _; have ht' : t ≤ lo + lag := ht; omega
  | startRsp h0 h1 => rename_i lo k; have ht' : t ≤ lo + 1000 + late := ht; omega
  | started h0 h1 h2 => rename_i lo k a; have ht' : t ≤ a + 5000 + late := ht; omega
  | active h0 h1 h2 => rename_i lo k a; refine .inr (.inl ⟨lo, k, a, by omega, h0, h2, ?_⟩); rw [hm, hf]; rfl
  | round₁ h0 h1 h2 h3 => rename_i lo k r; refine .inr (.inr (.inl ⟨lo, k, r, h0, h1, by omega, ?_⟩)); rw [hm, hf]; rfl
  | ahead h0 h1 h2 =>
    rename_i lo k r f'
    cases hk.symm.trans h0
    exact .inr (.inr (.inr ⟨lo, k, r, h1, h2, rfl⟩))
  | info₁ h0 => exact absurd hk (h0 _)
  | round₂ h0 => exact absurd hk (h0 _)
  | data => exact absurd (.cons rfl plain_closing) hp
  | dataRound => exact absurd (.cons rfl plain_closing) hp
  | halt => exact absurd plain_closing hp
  | stop => exact absurd (plain_closing.drop 1) hp
  | stopRsp => exact absurd (plain_closing.drop 2) hp
  | stopped => exact absurd (plain_closing.drop 3) hp
  | ready'' => exact absurd (plain_closing.drop 4) hp
  | deinit => exact absurd (plain_closing.drop 5) hp

/-- No round has been processed yet. -/
def Fresh (d : Device) : Prop := ∀ x, d.sessions.get? 0 = some x → x.sequenceNumber = 0

theorem not_fresh {p : Plan} {st : SessionState} {seq : UInt32} {data : Bytes} {k : Option Nat} (hs : 0 < seq.toNat ∧ seq.toNat ≤ 2) :
    ¬ Fresh (dev₂ h (sess h p.type st seq data p.config k)) := by
  intro hf
  have := hf _ rfl
  have e : seq = 0 := this
  rw [e] at hs
  exact absurd hs.1 (by decide)

/-- The first round is processed soon. -/
theorem Good.soon (hg : Good p late lag h b g) (hlate : late < 4000) (hf : Fresh g.dev) (ht : t ≤ g.deadline late lag) (hp : p.Leads) :
    t ≤ b + 1012000 + 4 * late + 14 * lag + p.slack lag := by
  cases hg with
  | connected => have ht' : t ≤ b + 5000 + late := ht; omega
  | ready h0 h1 => rename_i lo; have ht' : t ≤ lo + 2 * lag := ht; omega
  | reset h0 h1 => rename_i lo _ _; have ht' : t ≤ lo + lag := ht; omega
  | resetRsp h0 h1 => rename_i lo; have ht' : t ≤ lo + 5000 + late := ht; omega
  | ready' h0 h1 => rename_i lo; have ht' : t ≤ lo + 2 * lag := ht; omega
  | init h0 h1 => rename_i lo _ _; have ht' : t ≤ lo + lag := ht; omega
  | initRsp h0 h1 => rename_i lo; have ht' : t ≤ lo + 1000 + late := ht; omega
  | inited h0 h1 => rename_i lo; have ht' : t ≤ lo + 2 * lag := ht; omega
  | config h0 h1 => rename_i lo _ _; have ht' : t ≤ lo + lag := ht; omega
  | configRsp h0 h1 => rename_i lo; have ht' : t ≤ lo + 1000 + late := ht; omega
  | part h0 h1 h2 =>
    rename_i lo i
    have : t ≤ Stage.deadline late lag ⟨idle p h 0 (p.file.take (i * 1024)), [], [], none, lo, p.parts i ++ p.run⟩ := ht
    have hs := p.slack_le lag i h0
    rcases p.parts_run h0 with ⟨h3, e⟩ | ⟨-, e⟩
    · rw [e] at this
      have ht' : t ≤ lo + 2 * lag := this
      omega
    · rw [e] at this
      have ht' : t ≤ lo + 2 * lag := this
      omega
  | sent h0 h1 h2 => rename_i lo i _ _ _; have ht' : t ≤ lo + lag := ht; have := p.slack_le lag i (Nat.le_of_lt h0); omega
  | start h0 h1 => rename_i lo _ _; have ht' : t ≤ lo + lag := ht; omega
  | startRsp h0 h1 => rename_i lo k; have ht' : t ≤ lo + 1000 + late := ht; omega
  | started h0 h1 h2 => rename_i lo k a; have ht' : t ≤ a + 5000 + late := ht; omega
  | active h0 h1 h2 => rename_i lo k a; have ht' : t ≤ a + 1000000 + lag := by rw [← deadline_middle]; exact ht
                       omega
  | round₁ h0 h1 h2 h3 => rename_i lo k r; have ht' : t ≤ r + lag := ht; omega
  | ahead h0 => exact absurd h0 (hp _)
  | data h0 => exact absurd h0 (hp _)
  | dataRound h0 => exact absurd h0 (hp _)
  | info₁ => exact absurd hf (not_fresh (by decide))
  | round₂ => exact absurd hf (not_fresh (by decide))
  | halt hs => exact absurd hf (not_fresh hs)
  | stop hs => exact absurd hf (not_fresh hs)
  | stopRsp hs => exact absurd hf (not_fresh hs)
  | stopped hs => exact absurd hf (not_fresh hs)
  | ready'' hs => exact absurd hf (not_fresh hs)
  | deinit hs => exact absurd hf (not_fresh hs)

/-- A device with a session on which there has been no round is fresh. -/
theorem fresh_sess {ty : SessionType} {st : SessionState} {data : Bytes} {cfg : AppConfig} {k : Option Nat} : Fresh (dev₂ h (sess h ty st 0 data cfg k)) := by
  intro x hx
  cases hx
  rfl

theorem fresh_none {d : Device} (hd : d.sessions = []) : Fresh d := by
  intro x hx
  rw [hd] at hx
  cases hx

/-- It is not processed too soon. -/
theorem Good.after (hg : Good p late lag h b g) (hp : p.Leads) (hf : ¬ Fresh g.dev) : b + 1012000 ≤ g.lo := by
  cases hg <;> first
    | exact absurd fresh_sess hf
    | exact absurd (fresh_none rfl) hf
    | assumption
    | exact (show p.Leads → _ by assumption) hp
    | (dsimp only; omega)
    | exact absurd (by assumption) (hp _)

end Pica.Tests
