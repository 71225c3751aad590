import Verif.Spec.Duplex
import Verif.Proofs.Trace
import Verif.Props.Connection
/-! C112: the two directions of a connection do not hold each other up. -/

namespace Pica.Props
open Spec Link

theorem get_outward (s : Link) (p : Bytes) (t : Nat) : outward (s.get p t) = outward s ∧ (s.get p t).input = s.input := by
  rw [get_eq]
  repeat' split
  all_goals exact ⟨rfl, rfl⟩

theorem get_clock (s : Link) (p : Bytes) (t : Nat) (h : s.clock ≤ t) : s.clock ≤ (s.get p t).clock := by
  rw [get_eq]
  repeat' split
  all_goals first | exact h | exact le_rfl

/-- The second state has done the steps of the reader among those of the first. -/
structure ReaderOf (s s' : Link) : Prop where
  same : inward s' = inward s
  clock : s'.clock ≤ s.clock
  ended : s'.ended = true → s.ended = true

/-- The second state has done the other steps of the first. -/
structure WriterOf (s s' : Link) : Prop where
  same : outward s' = outward s
  clock : s'.clock ≤ s.clock
  ended : s'.ended = true → s.ended = true

theorem get_reader {s s' : Link} (h : ReaderOf s s') (p : Bytes) (t : Nat) : ReaderOf (s.get p t) (s'.get p t) := by
  obtain ⟨i1, a1, r1, o1, t1, w1, f1, c1, e1⟩ := s
  obtain ⟨i2, a2, r2, o2, t2, w2, f2, c2, e2⟩ := s'
  obtain ⟨h1, h2, h3⟩ := h
  simp only [inward, Prod.mk.injEq] at h1
  obtain ⟨rfl, rfl, rfl⟩ := h1
  rw [get_eq, get_eq]
  by_cases hk : KnownType p
  · rw [if_neg (not_not.mpr hk), if_neg (not_not.mpr hk)]
    cases a2 with
    | none =>
      dsimp only
      by_cases ho : Open p
      · rw [if_pos ho, if_pos ho]; exact ⟨rfl, le_rfl, h3⟩
      · rw [if_neg ho, if_neg ho]; exact ⟨rfl, le_rfl, h3⟩
    | some c =>
      dsimp only
      by_cases hl : p.length < 4
      · rw [if_pos hl, if_pos hl]; exact ⟨rfl, le_rfl, fun _ => rfl⟩
      · rw [if_neg hl, if_neg hl]
        by_cases ho : Open p
        · rw [if_pos ho, if_pos ho]; exact ⟨rfl, le_rfl, h3⟩
        · rw [if_neg ho, if_neg ho]; exact ⟨rfl, le_rfl, h3⟩
  · rw [if_pos hk, if_pos hk]; exact ⟨rfl, h2, fun _ => rfl⟩

theorem not_ended {s s' : Link} (h : s'.ended = true → s.ended = true) (he : ¬ s.ended = true) : ¬ s'.ended = true :=
  fun e => he (h e)

theorem step_reader {s s' u : Link} {a : Act} (h : ReaderOf s s') (hs : s.step a = some u) :
    if ofReader a = true then ∃ u', s'.step a = some u' ∧ ReaderOf u u' else ReaderOf u s' := by
  have hi : s'.input = s.input := congrArg (·.1) h.same
  cases a with
  | read p t =>
    simp only [step] at hs
    split at hs
    · cases hs
    rename_i hc
    obtain ⟨hc1, hc2⟩ := not_or.mp hc
    rw [show ofReader _ = true from rfl, if_pos rfl]
    simp only [step]
    rw [if_neg (not_or.mpr ⟨not_ended h.ended hc1, by have := h.clock; omega⟩), hi]
    cases hin : s.input with
    | nil => rw [hin] at hs; cases hs
    | cons q r =>
      rw [hin] at hs
      dsimp only at hs ⊢
      split at hs
      · rename_i hq
        cases hs
        rw [if_pos hq]
        refine ⟨_, rfl, get_reader (s := { s with input := r }) (s' := { s' with input := r }) ⟨?_, h.clock, h.ended⟩ p t⟩
        have := h.same
        simp only [inward, Prod.mk.injEq] at this ⊢
        exact ⟨trivial, this.2⟩
      · cases hs
  | close =>
    simp only [step] at hs
    split at hs
    · cases hs
    rename_i hc
    obtain ⟨hc1, hc2⟩ := not_or.mp hc
    cases hs
    rw [show ofReader _ = true from rfl, if_pos rfl]
    simp only [step]
    rw [if_neg (not_or.mpr ⟨not_ended h.ended hc1, by rw [hi]; exact hc2⟩)]
    exact ⟨_, rfl, h.same, h.clock, fun _ => rfl⟩
  | push m =>
    simp only [step] at hs
    split at hs
    · cases hs
    cases hs
    exact ⟨h.same, h.clock, h.ended⟩
  | take =>
    simp only [step] at hs
    split at hs
    · cases hs
    rename_i hc
    cases ho : s.output with
    | nil => rw [ho] at hs; cases hs
    | cons m o =>
      rw [ho] at hs
      dsimp only at hs
      cases hg : segment m with
      | error x => rw [hg] at hs; cases hs; exact ⟨h.same, h.clock, fun _ => rfl⟩
      | ok fs => rw [hg] at hs; cases hs; exact ⟨h.same, h.clock, h.ended⟩
  | write p t =>
    simp only [step] at hs
    split at hs
    · cases hs
    rename_i hc
    have hcl := h.clock
    cases ho : s.todo with
    | nil => rw [ho] at hs; cases hs
    | cons q r =>
      rw [ho] at hs
      dsimp only at hs
      split at hs
      · cases hs; exact ⟨h.same, show s'.clock ≤ t by omega, h.ended⟩
      · cases hs
  | fail p t =>
    simp only [step] at hs
    split at hs
    · cases hs
    rename_i hc
    have hcl := h.clock
    cases ho : s.todo with
    | nil => rw [ho] at hs; cases hs
    | cons q r =>
      rw [ho] at hs
      dsimp only at hs
      split at hs
      · cases hs; exact ⟨h.same, show s'.clock ≤ t by omega, fun _ => rfl⟩
      · cases hs

theorem get_keeps (s : Link) (p : Bytes) (t : Nat) (h : s.ended = true) : (s.get p t).ended = true := by
  rw [get_eq]
  repeat' split
  all_goals first | exact h | rfl

theorem step_writer {s s' u : Link} {a : Act} (h : WriterOf s s') (hs : s.step a = some u) :
    if ofReader a = true then WriterOf u s' else ∃ u', s'.step a = some u' ∧ WriterOf u u' := by
  have hh := h.same
  simp only [outward, Prod.mk.injEq] at hh
  obtain ⟨ho', ht', hw'⟩ := hh
  cases a with
  | read p t =>
    simp only [step] at hs
    split at hs
    · cases hs
    rename_i hc
    cases hin : s.input with
    | nil => rw [hin] at hs; cases hs
    | cons q r =>
      rw [hin] at hs
      dsimp only at hs
      split at hs
      · cases hs
        refine ⟨h.same.trans (get_outward { s with input := r } p t).1.symm, h.clock.trans (get_clock { s with input := r } p t ?_), fun e => ?_⟩
        · show s.clock ≤ t; omega
        · exact get_keeps _ _ _ (h.ended e)
      · cases hs
  | close =>
    simp only [step] at hs
    split at hs
    · cases hs
    cases hs
    exact ⟨h.same, h.clock, fun _ => rfl⟩
  | push m =>
    simp only [step] at hs
    split at hs
    · cases hs
    rename_i hc
    cases hs
    simp only [ofReader, Bool.false_eq_true, if_false]
    simp only [step]
    rw [if_neg (not_ended h.ended hc), ho']
    exact ⟨_, rfl, by simp only [outward, ht', hw'], h.clock, h.ended⟩
  | take =>
    simp only [step] at hs
    split at hs
    · cases hs
    rename_i hc
    obtain ⟨hc1, hc2⟩ := not_or.mp hc
    simp only [ofReader, Bool.false_eq_true, if_false]
    simp only [step]
    rw [if_neg (not_or.mpr ⟨not_ended h.ended hc1, by rw [ht']; exact hc2⟩), ho']
    cases ho : s.output with
    | nil => rw [ho] at hs; cases hs
    | cons m o =>
      rw [ho] at hs
      dsimp only at hs ⊢
      cases hg : segment m with
      | error x =>
        rw [hg] at hs
        cases hs
        exact ⟨_, rfl, by simp only [outward, ht', hw'], h.clock, fun _ => rfl⟩
      | ok fs =>
        rw [hg] at hs
        cases hs
        exact ⟨_, rfl, by simp only [outward, hw'], h.clock, h.ended⟩
  | write p t =>
    simp only [step] at hs
    split at hs
    · cases hs
    rename_i hc
    obtain ⟨hc1, hc2⟩ := not_or.mp hc
    have hcl := h.clock
    simp only [ofReader, Bool.false_eq_true, if_false]
    simp only [step]
    rw [if_neg (not_or.mpr ⟨not_ended h.ended hc1, by omega⟩), ht']
    cases ho : s.todo with
    | nil => rw [ho] at hs; cases hs
    | cons q r =>
      rw [ho] at hs
      dsimp only at hs ⊢
      split at hs
      · rename_i hq
        cases hs
        rw [if_pos hq]
        exact ⟨_, rfl, by simp only [outward, record, ho', hw'], le_rfl, h.ended⟩
      · cases hs
  | fail p t =>
    simp only [step] at hs
    split at hs
    · cases hs
    rename_i hc
    obtain ⟨hc1, hc2⟩ := not_or.mp hc
    have hcl := h.clock
    simp only [ofReader, Bool.false_eq_true, if_false]
    simp only [step]
    rw [if_neg (not_or.mpr ⟨not_ended h.ended hc1, by omega⟩), ht']
    cases ho : s.todo with
    | nil => rw [ho] at hs; cases hs
    | cons q r =>
      rw [ho] at hs
      dsimp only at hs ⊢
      split at hs
      · rename_i hq
        cases hs
        rw [if_pos hq]
        exact ⟨_, rfl, by simp only [outward, record, ho', hw'], le_rfl, fun _ => rfl⟩
      · cases hs

theorem run_reader {as : List Act} {s s' u : Link} (h : ReaderOf s s') (hr : s.run as = some u) :
    ∃ u', s'.run (as.filter ofReader) = some u' ∧ ReaderOf u u' := by
  induction as generalizing s s' with
  | nil => cases hr; exact ⟨s', rfl, h⟩
  | cons a as ih =>
    simp only [run, Option.bind_eq_some_iff] at hr
    obtain ⟨v, hv, hr⟩ := hr
    have hx := step_reader h hv
    rw [List.filter_cons]
    split at hx
    · rename_i ha
      rw [if_pos ha]
      obtain ⟨v', h1, h2⟩ := hx
      obtain ⟨u', h3, h4⟩ := ih h2 hr
      exact ⟨u', by simp only [run, h1, Option.bind_some, h3], h4⟩
    · rename_i ha
      rw [if_neg ha]
      exact ih hx hr

theorem run_writer {as : List Act} {s s' u : Link} (h : WriterOf s s') (hr : s.run as = some u) :
    ∃ u', s'.run (as.filter fun a => !ofReader a) = some u' ∧ WriterOf u u' := by
  induction as generalizing s s' with
  | nil => cases hr; exact ⟨s', rfl, h⟩
  | cons a as ih =>
    simp only [run, Option.bind_eq_some_iff] at hr
    obtain ⟨v, hv, hr⟩ := hr
    have hx := step_writer h hv
    rw [List.filter_cons]
    split at hx
    · rename_i ha
      rw [if_neg (by simp [ha])]
      exact ih hx hr
    · rename_i ha
      rw [if_pos (by simpa using ha)]
      obtain ⟨v', h1, h2⟩ := hx
      obtain ⟨u', h3, h4⟩ := ih h2 hr
      exact ⟨u', by simp only [run, h1, Option.bind_some, h3], h4⟩

/-- C112: what comes in is handled as if nothing went out, and the other way round: the steps of one direction alone are
possible too and lead to the same. -/
theorem C112_apart (input : List Bytes) (as : List Act) (s : Link) (hr : (new input).run as = some s) :
    (∃ s', (new input).run (as.filter ofReader) = some s' ∧ inward s' = inward s) ∧
    ∃ s', (new input).run (as.filter fun a => !ofReader a) = some s' ∧ outward s' = outward s := by
  obtain ⟨u, h1, h2⟩ := run_reader ⟨rfl, le_rfl, id⟩ hr
  obtain ⟨v, h3, h4⟩ := run_writer ⟨rfl, le_rfl, id⟩ hr
  exact ⟨⟨u, h1, h2.same⟩, v, h3, h4.same⟩

/-- C112: so the order of the steps of the two directions among each other is of no effect on what is handed over and
written. -/
theorem C112_order (input : List Bytes) (as bs : List Act) (s t : Link) (ha : (new input).run as = some s)
    (hb : (new input).run bs = some t) (hr : as.filter ofReader = bs.filter ofReader)
    (hw : (as.filter fun a => !ofReader a) = bs.filter fun a => !ofReader a) :
    inward s = inward t ∧ outward s = outward t := by
  obtain ⟨⟨u, h1, h2⟩, v, h3, h4⟩ := C112_apart input as s ha
  obtain ⟨⟨u', h5, h6⟩, v', h7, h8⟩ := C112_apart input bs t hb
  rw [hr, h5] at h1
  rw [hw, h7] at h3
  cases h1
  cases h3
  exact ⟨h2.symm.trans h6, h4.symm.trans h8⟩

/-- C112: at any time before its end a connection takes the next packet of the host, however many packets the host has not
read, and what the device says; and it writes the next packet, however many the host has sent. -/
theorem C112_ready (s : Link) (he : s.ended = false) (t : Nat) (ht : s.clock ≤ t) :
    (∀ p rest, s.input = p :: rest → ∃ s', s.step (.read p t) = some s' ∧ s'.input = rest ∧ outward s' = outward s) ∧
    (∀ m, ∃ s', s.step (.push m) = some s' ∧ inward s' = inward s ∧ outward s' = (s.output ++ [m], s.todo, s.written)) ∧
    (∀ p rest, s.todo = p :: rest →
      ∃ s', s.step (.write p t) = some s' ∧ inward s' = inward s ∧ outward s' = (s.output, rest, s.written ++ [p])) ∧
    (∀ m rest, s.todo = [] → s.output = m :: rest →
      ∃ s', s.step .take = some s' ∧ inward s' = inward s ∧ s'.output = rest ∧ s'.written = s.written) := by
  have h0 : ¬ s.ended = true := by rw [he]; decide
  have h1 : ¬ (s.ended = true ∨ t < s.clock) := not_or.mpr ⟨h0, by omega⟩
  refine ⟨fun p rest hp => ?_, fun m => ?_, fun p rest hp => ?_, fun m rest hp hm => ?_⟩
  · simp only [step]
    rw [if_neg h1, hp]
    dsimp only
    rw [if_pos rfl]
    exact ⟨_, rfl, (get_outward _ p t).2, (get_outward _ p t).1⟩
  · simp only [step]
    rw [if_neg h0]
    exact ⟨_, rfl, rfl, rfl⟩
  · simp only [step]
    rw [if_neg h1, hp]
    dsimp only
    rw [if_pos rfl]
    exact ⟨_, rfl, rfl, rfl⟩
  · simp only [step]
    rw [if_neg (not_or.mpr ⟨h0, not_not.mpr hp⟩), hm]
    dsimp only
    cases segment m with
    | error x => exact ⟨_, rfl, rfl, rfl, rfl⟩
    | ok fs => exact ⟨_, rfl, rfl, rfl, rfl⟩

/-- A reset and a status notification that cross each other, in two orders. -/
example : ((new [[0x20, 0, 0, 1, 0]]).run
      [.push [0x60, 1, 0, 1, 1], .take, .read [0x20, 0, 0, 1, 0] 3, .write [0x60, 1, 0, 1, 1] 4]).map
        (fun s => (s.received, s.written)) = some ([[0x20, 0, 0, 1, 0]], [[0x60, 1, 0, 1, 1]]) ∧
    ((new [[0x20, 0, 0, 1, 0]]).run
      [.push [0x60, 1, 0, 1, 1], .read [0x20, 0, 0, 1, 0] 3, .take, .write [0x60, 1, 0, 1, 1] 4]).isSome = true := by
  decide +kernel

/-- The host has not read anything, and still its packet is taken. -/
example : ∃ s, (new [[0x20, 0, 0, 1, 0]]).run [.push [0x60, 1, 0, 1, 1], .push [0x60, 1, 0, 1, 2], .take] = some s ∧
    s.ended = false ∧ s.clock ≤ 3 ∧ s.input = [0x20, 0, 0, 1, 0] :: [] ∧ s.todo ≠ [] ∧ s.output ≠ [] := by
  refine ⟨_, Option.some_get (by decide +kernel) |>.symm, ?_⟩
  decide +kernel

end Pica.Props
