import Verif.Model.Trace
import Verif.Spec.Trace
import Verif.Proofs.Connection
import Mathlib.Data.List.Induction
/-! The invariant of a connection task and its trace file. -/

namespace Pica.Link
open Spec Spec.Trace

theorem run_append (s : Link) (as bs : List Act) : s.run (as ++ bs) = (s.run as).bind (·.run bs) := by
  induction as generalizing s with
  | nil => rfl
  | cons a as ih =>
    simp only [List.cons_append, run]
    cases s.step a with
    | none => rfl
    | some x => exact ih x

theorem run_snoc (s : Link) (as : List Act) (a : Act) : s.run (as ++ [a]) = (s.run as).bind (·.step a) := by
  rw [run_append]
  cases s.run as with
  | none => rfl
  | some x => simp only [Option.bind_some, run]; cases x.step a <;> rfl

theorem crossings_snoc (as : List Act) (a : Act) : crossings (as ++ [a]) = crossings as ++ (crossing a).toList := by
  unfold crossings
  rw [List.filterMap_append]
  cases h : crossing a <;> simp [h]

theorem sentBy_append (side : Side) (xs ys : List Crossing) : sentBy side (xs ++ ys) = sentBy side xs ++ sentBy side ys := by
  simp [sentBy]

theorem file_snoc (rs : List (Bytes × Nat)) (p : Bytes) (t : Nat) :
    Pcapng.file (rs ++ [(p, t)]) = Pcapng.file rs ++ Pcapng.packetBlock p t := by
  simp [Pcapng.file]

/-- What holds after the steps `as`. -/
structure Inv (input : List Bytes) (as : List Act) (s : Link) : Prop where
  file : s.file = Pcapng.file ((crossings as).map fun c => (c.packet, c.time))
  times : (crossings as).Pairwise (fun c d => c.time ≤ d.time)
  clock : ∀ c ∈ crossings as, c.time ≤ s.clock
  reads : ∃ junk, input = sentBy .host (crossings as) ++ junk ++ s.input ∧ (s.ended = false → junk = []) ∧
    ∀ p ∈ junk, ¬ KnownType p
  known : ∀ p ∈ sentBy .host (crossings as), KnownType p
  pending : s.ended = false → ∀ qs, reassemble none (sentBy .host (crossings as) ++ qs) =
    (s.received ++ (reassemble s.acc qs).1, (reassemble s.acc qs).2)
  received : (reassemble none (sentBy .host (crossings as))).1 = s.received
  output : s.output = (pushed as).drop (takes as)
  bound : takes as ≤ (pushed as).length
  sent : sentBy .emulator (crossings as) ++ s.todo =
    ((pushed as).take (takes as)).flatMap fun m => (segment m).toOption.getD []
  written : sentBy .emulator (crossings as) = s.written ∨
    s.ended = true ∧ ∃ f, sentBy .emulator (crossings as) = s.written ++ [f]
  alive : s.ended = false → sentBy .emulator (crossings as) = s.written

theorem inv_new (input : List Bytes) : Inv input [] (new input) where
  file := by simp [new, crossings, Pcapng.file]
  times := .nil
  clock := by simp [crossings]
  reads := ⟨[], by simp [new, crossings, sentBy], fun _ => rfl, by simp⟩
  known := by simp [crossings, sentBy]
  pending := fun _ qs => by simp [crossings, sentBy, new]
  received := by simp [crossings, sentBy, new, reassemble]
  output := by simp [new, pushed]
  bound := by simp [takes]
  sent := by simp [crossings, sentBy, new, pushed]
  written := .inl (by simp [crossings, sentBy, new])
  alive := fun _ => by simp [crossings, sentBy, new]

theorem pairwise_snoc {cs : List Crossing} {c : Crossing} (h : cs.Pairwise (fun c d => c.time ≤ d.time))
    (hc : ∀ d ∈ cs, d.time ≤ c.time) : (cs ++ [c]).Pairwise (fun c d => c.time ≤ d.time) := by
  rw [List.pairwise_append]
  exact ⟨h, List.pairwise_singleton _ _, fun a ha b hb => by cases List.mem_singleton.mp hb; exact hc a ha⟩

theorem knownType_decode {b : UInt8} {r : Bytes} : KnownType (b :: r) ↔ ∃ x, decodeCommonHeader b = some x := by
  rw [decodeCommonHeader_eq]
  show b.toNat / 32 < 4 ↔ _
  split <;> simp [*]

/-- The state after a packet has been read, in terms of the packet. -/
theorem get_eq (s : Link) (p : Bytes) (t : Nat) : s.get p t =
    if ¬ KnownType p then { s with ended := true }
    else match s.acc with
      | none => if Open p then { s.record p t with acc := some p } else { s.record p t with received := s.received ++ [p] }
      | some c =>
        if p.length < 4 then { s.record p t with ended := true }
        else if Open p then { s.record p t with acc := some (c ++ p.drop 4) }
        else { s.record p t with acc := none, received := s.received ++ [c ++ p.drop 4] } := by
  cases p with
  | nil => simp [get, KnownType]
  | cons b r =>
    unfold get
    simp only [decodeCommonHeader_eq]
    by_cases hk : b.toNat / 32 < 4
    · have hk' : KnownType (b :: r) := hk
      rw [if_pos hk, if_neg (not_not.mpr hk')]
      have ho : ((if b.toNat / 16 % 2 = 0 then PacketBoundaryFlag.complete else .notComplete) = .complete ∨
          mtOf (b.toNat / 32) = .data) ↔ ¬ Open (b :: r) := by
        by_cases h0 : b.toNat / 16 % 2 = 0 <;> by_cases h1 : b.toNat / 32 = 0 <;> simp [h0, h1, mtOf_data, Open]
      simp only [ho, headerSize, record, ite_not]
      cases s.acc <;> rfl
    · have hk' : ¬ KnownType (b :: r) := hk
      rw [if_neg hk, if_pos hk']

theorem reassemble_short (c p : Bytes) (hk : KnownType p) (h : p.length < 4) (qs : List Bytes) :
    reassemble (some c) (p :: qs) = ([], .panic) := by
  match p, h with
  | [], _ => exact absurd hk (by simp [KnownType])
  | [b], _ | [b, _], _ | [b, _, _], _ =>
    obtain ⟨x, hx⟩ := knownType_decode.mp hk
    rw [reassemble.eq_def]
    simp only [hx]

/-- The steps that only matter to one part of the state. -/
theorem Inv.mono {input : List Bytes} {as : List Act} {s s' : Link} {a : Act} (h : Inv input as s) (hx : crossing a = none)
    (hf : s'.file = s.file) (hc : s'.clock = s.clock) (hi : s'.input = s.input) (ha : s'.acc = s.acc)
    (hr : s'.received = s.received) (hw : s'.written = s.written) (he : s'.ended = false → s.ended = false)
    (ho : s'.output = (pushed (as ++ [a])).drop (takes (as ++ [a])))
    (hb : takes (as ++ [a]) ≤ (pushed (as ++ [a])).length)
    (hs : sentBy .emulator (crossings as) ++ s'.todo =
      ((pushed (as ++ [a])).take (takes (as ++ [a]))).flatMap fun m => (segment m).toOption.getD []) :
    Inv input (as ++ [a]) s' := by
  have e : crossings (as ++ [a]) = crossings as := by rw [crossings_snoc, hx]; simp
  obtain ⟨j, h1, h2, h3⟩ := h.reads
  have hee : s.ended = true → s'.ended = true := fun x => by
    cases y : s'.ended with
    | true => rfl
    | false => rw [he y] at x; cases x
  refine ⟨by rw [e, hf, h.file], by rw [e]; exact h.times, by rw [e, hc]; exact h.clock,
    ⟨j, by rw [e, hi]; exact h1, fun x => h2 (he x), h3⟩, by rw [e]; exact h.known, fun x => ?_, by rw [e, hr]; exact h.received, ho, hb,
    by rw [e]; exact hs, ?_, fun x => by rw [e, hw]; exact h.alive (he x)⟩
  · rw [e, hr, ha]; exact h.pending (he x)
  · rw [e, hw]
    rcases h.written with x | ⟨x, y⟩
    · exact .inl x
    · exact .inr ⟨hee x, y⟩

theorem takes_snoc (as : List Act) (a : Act) : takes (as ++ [a]) = takes as + if a = .take then 1 else 0 := by
  unfold takes
  rw [List.countP_append]
  cases a <;> simp

theorem pushed_snoc (as : List Act) (a : Act) : pushed (as ++ [a]) = pushed as ++ match a with | .push m => [m] | _ => [] := by
  unfold pushed
  rw [List.filterMap_append]
  cases a <;> simp

/-- The writer writes, or tries to. -/
theorem writes {input : List Bytes} {as : List Act} {s s' : Link} {a : Act} {q : Bytes} {t : Nat} {todo : List Bytes}
    (h : Inv input as s) (hc : ¬ (s.ended = true ∨ t < s.clock)) (hi : s.todo = q :: todo)
    (hx : crossing a = some ⟨.emulator, q, t⟩)
    (ht : takes (as ++ [a]) = takes as) (hp : pushed (as ++ [a]) = pushed as)
    (h1 : s'.file = s.file ++ Pcapng.packetBlock q t) (h2 : s'.clock = t) (h3 : s'.input = s.input) (h4 : s'.acc = s.acc)
    (h5 : s'.received = s.received) (h6 : s'.output = s.output) (h7 : s'.todo = todo)
    (h8 : s'.ended = false ∧ s'.written = s.written ++ [q] ∨ s'.ended = true ∧ s'.written = s.written) :
    Inv input (as ++ [a]) s' := by
  have ha : s.ended = false := by simpa using fun x => hc (.inl x)
  have htm : s.clock ≤ t := Nat.le_of_not_lt fun x => hc (.inr x)
  have e : crossings (as ++ [a]) = crossings as ++ [⟨.emulator, q, t⟩] := by rw [crossings_snoc, hx]; rfl
  have eh : sentBy .host (crossings (as ++ [a])) = sentBy .host (crossings as) := by
    rw [e, sentBy_append]; simp [sentBy]
  have ee : sentBy .emulator (crossings (as ++ [a])) = sentBy .emulator (crossings as) ++ [q] := by
    rw [e, sentBy_append]; rfl
  obtain ⟨j, r1, r2, r3⟩ := h.reads
  refine ⟨?_, ?_, ?_, ⟨j, by rw [eh, h3]; exact r1, fun _ => r2 ha, r3⟩, by rw [eh]; exact h.known, ?_, ?_, ?_, ?_, ?_, ?_, ?_⟩
  · rw [e, h1, h.file, List.map_append]; exact (file_snoc _ _ _).symm
  · rw [e]; exact pairwise_snoc h.times fun d hd => (h.clock d hd).trans htm
  · rw [e, h2]
    intro c hc
    rcases List.mem_append.mp hc with hc | hc
    · exact (h.clock c hc).trans htm
    · cases List.mem_singleton.mp hc; exact Nat.le_refl _
  · intro _ qs; rw [eh, h4, h5]; exact h.pending ha qs
  · rw [eh, h5]; exact h.received
  · rw [h6, ht, hp]; exact h.output
  · rw [ht, hp]; exact h.bound
  · rw [ee, h7, ht, hp, ← h.sent, hi]; simp
  · rw [ee, h.alive ha]
    rcases h8 with ⟨_, x⟩ | ⟨x, y⟩
    · exact .inl x.symm
    · exact .inr ⟨x, q, by rw [y]⟩
  · intro x
    rw [ee, h.alive ha]
    rcases h8 with ⟨_, y⟩ | ⟨y, _⟩
    · exact y.symm
    · rw [x] at y; cases y

theorem inv_step {input : List Bytes} {as : List Act} {s s' : Link} {a : Act} (h : Inv input as s)
    (hs : s.step a = some s') : Inv input (as ++ [a]) s' := by
  cases a with
  | push m =>
    rw [step] at hs
    split at hs
    · cases hs
    · cases hs
      have ht := takes_snoc as (.push m)
      have hp := pushed_snoc as (.push m)
      simp only [reduceCtorEq, if_false, Nat.add_zero] at ht
      refine h.mono rfl rfl rfl rfl rfl rfl rfl id ?_ ?_ ?_
      · rw [ht, hp, List.drop_append_of_le_length h.bound, h.output]
      · rw [ht, hp, List.length_append]; have := h.bound; omega
      · rw [ht, hp, List.take_append_of_le_length h.bound]; exact h.sent
  | close =>
    rw [step] at hs
    split at hs
    · cases hs
    · cases hs
      have ht := takes_snoc as .close
      have hp := pushed_snoc as .close
      simp only [reduceCtorEq, if_false, Nat.add_zero, List.append_nil] at ht hp
      refine h.mono rfl rfl rfl rfl rfl rfl rfl (by simp) ?_ ?_ ?_ <;> rw [ht, hp]
      exacts [h.output, h.bound, h.sent]
  | take =>
    rw [step] at hs
    split at hs
    · cases hs
    rename_i hc
    have ht := takes_snoc as .take
    have hp := pushed_snoc as .take
    simp only [if_true, List.append_nil] at ht hp
    have h0 : s.todo = [] := Classical.byContradiction fun x => hc (.inr x)
    have h1 := h.output
    have h2 := h.sent
    rw [h0, List.append_nil] at h2
    split at hs
    · cases hs
    rename_i m out hm
    rw [hm] at h1
    have hlt : takes as < (pushed as).length := by
      by_contra hge
      rw [List.drop_eq_nil_of_le (by omega)] at h1
      cases h1
    have h3 := List.drop_eq_getElem_cons hlt
    rw [← h1] at h3
    cases h3
    split at hs <;> (rename_i fs he; cases hs)
    · refine h.mono rfl rfl rfl rfl rfl rfl rfl (by simp) ?_ ?_ ?_
      · rw [ht, hp]
      · rw [ht, hp]; exact hlt
      · rw [ht, hp, List.take_succ_eq_append_getElem hlt, List.flatMap_append, ← h2]
        simp [he, h0, Except.toOption]
    · refine h.mono rfl rfl rfl rfl rfl rfl rfl id ?_ ?_ ?_
      · rw [ht, hp]
      · rw [ht, hp]; exact hlt
      · rw [ht, hp, List.take_succ_eq_append_getElem hlt, List.flatMap_append, ← h2]
        simp [he, Except.toOption]
  | read p t =>
    rw [step] at hs
    split at hs
    · cases hs
    rename_i hc
    split at hs
    · cases hs
    rename_i q inp hi
    split at hs <;> cases hs
    rename_i hq
    subst hq
    have ha : s.ended = false := by simpa using fun x => hc (.inl x)
    have htm : s.clock ≤ t := Nat.le_of_not_lt fun x => hc (.inr x)
    have ht := takes_snoc as (.read q t)
    have hp := pushed_snoc as (.read q t)
    simp only [reduceCtorEq, if_false, Nat.add_zero, List.append_nil] at ht hp
    obtain ⟨j, r1, r2, r3⟩ := h.reads
    rw [r2 ha, List.append_nil, hi] at r1
    by_cases hk : KnownType q
    · have e : crossings (as ++ [.read q t]) = crossings as ++ [⟨.host, q, t⟩] := by
        rw [crossings_snoc]; simp [crossing, hk]
      have eh : sentBy .host (crossings (as ++ [.read q t])) = sentBy .host (crossings as) ++ [q] := by
        rw [e, sentBy_append]; rfl
      have ee : sentBy .emulator (crossings (as ++ [.read q t])) = sentBy .emulator (crossings as) := by
        rw [e, sentBy_append]; simp [sentBy]
      have key : ∀ x : Link, x.file = s.file ++ Pcapng.packetBlock q t → x.clock = t → x.input = inp → x.output = s.output →
          x.todo = s.todo → x.written = s.written →
          (x.ended = false → ∀ qs, reassemble s.acc (q :: qs) =
            ((reassemble s.acc [q]).1 ++ (reassemble x.acc qs).1, (reassemble x.acc qs).2)) →
          x.received = s.received ++ (reassemble s.acc [q]).1 → Inv input (as ++ [.read q t]) x := by
        intro x x1 x2 x3 x4 x5 x6 x7 x8
        have hrec : ∀ qs, reassemble none (sentBy .host (crossings (as ++ [.read q t])) ++ qs) =
            (s.received ++ (reassemble s.acc (q :: qs)).1, (reassemble s.acc (q :: qs)).2) := fun qs => by
          rw [eh, List.append_assoc]; exact h.pending ha (q :: qs)
        refine ⟨?_, ?_, ?_, ⟨[], ?_, fun _ => rfl, by simp⟩, ?_, ?_, ?_, ?_, ?_, ?_, ?_, ?_⟩
        · rw [e, x1, h.file, List.map_append]; exact (file_snoc _ _ _).symm
        · rw [e]; exact pairwise_snoc h.times fun d hd => (h.clock d hd).trans htm
        · rw [e, x2]
          intro c hc
          rcases List.mem_append.mp hc with hc | hc
          · exact (h.clock c hc).trans htm
          · cases List.mem_singleton.mp hc; exact Nat.le_refl _
        · rw [eh, x3, r1]; simp
        · rw [eh]
          intro p hp
          rcases List.mem_append.mp hp with hp | hp
          · exact h.known p hp
          · cases List.mem_singleton.mp hp; exact hk
        · intro hx qs
          rw [hrec, x7 hx, x8, List.append_assoc]
        · have := hrec []
          rw [List.append_nil] at this
          rw [this, x8]
        · rw [x4, ht, hp]; exact h.output
        · rw [ht, hp]; exact h.bound
        · rw [ee, x5, ht, hp]; exact h.sent
        · rw [ee, x6]; exact .inl (h.alive ha)
        · intro _; rw [ee, x6]; exact h.alive ha
      rw [get_eq, if_neg (not_not.mpr hk)]
      dsimp only
      cases hacc : s.acc with
      | none =>
        dsimp only
        split
        · rename_i ho
          refine key _ rfl rfl rfl rfl rfl rfl (fun _ qs => ?_) ?_ <;> rw [hacc, reassemble_first q hk, if_pos ho]
          · rw [reassemble_first q hk, if_pos ho]; simp [reassemble]
          · simp [reassemble, record]
        · rename_i ho
          refine key _ rfl rfl rfl rfl rfl rfl (fun _ qs => ?_) ?_ <;> rw [hacc, reassemble_first q hk, if_neg ho]
          · rw [reassemble_first q hk, if_neg ho]; simp [reassemble, record]
          · simp [reassemble]
      | some c =>
        dsimp only
        split
        · rename_i h4
          refine key _ rfl rfl rfl rfl rfl rfl (fun hx => by simp at hx) ?_
          rw [hacc, reassemble_short c q hk h4]; simp [record]
        · rename_i h4
          have h4 : 4 ≤ q.length := by omega
          split
          · rename_i ho
            refine key _ rfl rfl rfl rfl rfl rfl (fun _ qs => ?_) ?_ <;> rw [hacc, reassemble_next c q hk h4, if_pos ho]
            · rw [reassemble_next c q hk h4, if_pos ho]; simp [reassemble]
            · simp [reassemble, record]
          · rename_i ho
            refine key _ rfl rfl rfl rfl rfl rfl (fun _ qs => ?_) ?_ <;> rw [hacc, reassemble_next c q hk h4, if_neg ho]
            · rw [reassemble_next c q hk h4, if_neg ho]; simp [reassemble]
            · simp [reassemble]
    · rw [get_eq, if_pos hk]
      have e : crossings (as ++ [.read q t]) = crossings as := by rw [crossings_snoc]; simp [crossing, hk]
      refine ⟨by rw [e]; exact h.file, by rw [e]; exact h.times, by rw [e]; exact h.clock,
        ⟨[q], by rw [e]; simpa using r1, by simp, by simpa using hk⟩, by rw [e]; exact h.known, by simp,
        by rw [e]; exact h.received, ?_, ?_, ?_, ?_, by simp⟩
      · rw [ht, hp]; exact h.output
      · rw [ht, hp]; exact h.bound
      · rw [e, ht, hp]; exact h.sent
      · rw [e]; exact .inl (h.alive ha)
  | write p t =>
    rw [step] at hs
    split at hs
    · cases hs
    rename_i hc
    split at hs
    · cases hs
    rename_i q todo hi
    split at hs <;> cases hs
    rename_i hq
    subst hq
    exact writes h hc hi rfl (takes_snoc as _) (by rw [pushed_snoc]; simp) rfl rfl rfl rfl rfl rfl rfl
      (.inl ⟨by simpa [record] using fun x => hc (.inl x), rfl⟩)
  | fail p t =>
    rw [step] at hs
    split at hs
    · cases hs
    rename_i hc
    split at hs
    · cases hs
    rename_i q todo hi
    split at hs <;> cases hs
    rename_i hq
    subst hq
    exact writes h hc hi rfl (takes_snoc as _) (by rw [pushed_snoc]; simp) rfl rfl rfl rfl rfl rfl rfl
      (.inr ⟨rfl, rfl⟩)

theorem inv_run {input : List Bytes} {as : List Act} {s : Link} (h : (new input).run as = some s) : Inv input as s := by
  induction as using List.reverseRecOn generalizing s with
  | nil => cases h; exact inv_new input
  | append_singleton as a ih =>
    rw [run_snoc] at h
    obtain ⟨x, h1, h2⟩ := Option.bind_eq_some_iff.mp h
    exact inv_step (ih h1) h2

end Pica.Link
