import Verif.Proofs.Framing
import Verif.Spec.Connection
import Mathlib.Data.List.Induction
/-! Lemmas about the reader of a connection. -/

namespace Pica
open Spec

/-- One packet with a known type that may be a first packet. -/
theorem reassemble_first (p : Bytes) (hk : KnownType p) (ps : List Bytes) :
    reassemble none (p :: ps) =
      if Open p then reassemble (some p) ps else (p :: (reassemble none ps).1, (reassemble none ps).2) := by
  cases p with
  | nil => exact absurd hk (by simp [KnownType])
  | cons b t =>
    have hk' : b.toNat / 32 < 4 := hk
    rw [reassemble.eq_def]
    simp only [decodeCommonHeader_eq, if_pos hk']
    by_cases h0 : b.toNat / 16 % 2 = 0 <;> by_cases h1 : b.toNat / 32 = 0 <;> simp [h0, h1, mtOf_data, Open]

/-- A continuation. -/
theorem reassemble_next (c p : Bytes) (hk : KnownType p) (hl : 4 ≤ p.length) (ps : List Bytes) :
    reassemble (some c) (p :: ps) =
      if Open p then reassemble (some (c ++ p.drop 4)) ps
      else ((c ++ p.drop 4) :: (reassemble none ps).1, (reassemble none ps).2) := by
  match p, hl with
  | b :: x :: y :: z :: t, _ =>
    have hk' : b.toNat / 32 < 4 := hk
    rw [reassemble.eq_def]
    simp only [decodeCommonHeader_eq, if_pos hk']
    by_cases h0 : b.toNat / 16 % 2 = 0 <;> by_cases h1 : b.toNat / 32 = 0 <;>
      simp [h0, h1, mtOf_data, Open, headerSize]

/-- The packets of one message that has begun. -/
theorem reassemble_group (c : Bytes) (start : List Bytes) (last : Bytes) (ho : ∀ p ∈ start, Open p) (hl : ¬ Open last)
    (hk : ∀ p ∈ start ++ [last], KnownType p) (h4 : ∀ p ∈ start ++ [last], 4 ≤ p.length) (ps : List Bytes) :
    reassemble (some c) (start ++ last :: ps) =
      ((c ++ ((start ++ [last]).map (List.drop 4)).flatten) :: (reassemble none ps).1, (reassemble none ps).2) := by
  induction start generalizing c with
  | nil =>
    rw [List.nil_append, reassemble_next c last (hk _ (by simp)) (h4 _ (by simp)), if_neg hl]
    simp
  | cons p start ih =>
    rw [List.cons_append, reassemble_next c p (hk _ (by simp)) (h4 _ (by simp)), if_pos (ho _ (by simp)),
      ih _ (fun q hq => ho q (List.mem_cons_of_mem _ hq))
        (fun q hq => hk q (by rw [List.cons_append]; exact List.mem_cons_of_mem _ hq))
        (fun q hq => h4 q (by rw [List.cons_append]; exact List.mem_cons_of_mem _ hq))]
    simp

theorem reassemble_message (start : List Bytes) (last : Bytes) (ho : ∀ p ∈ start, Open p) (hl : ¬ Open last)
    (hk : ∀ p ∈ start ++ [last], KnownType p) (h4 : ∀ p ∈ (start ++ [last]).tail, 4 ≤ p.length) (ps : List Bytes) :
    reassemble none (start ++ last :: ps) =
      (joined (start ++ [last]) :: (reassemble none ps).1, (reassemble none ps).2) := by
  cases start with
  | nil =>
    rw [List.nil_append, reassemble_first last (hk _ (by simp)), if_neg hl]
    simp [joined]
  | cons p start =>
    rw [List.cons_append, reassemble_first p (hk _ (by simp)), if_pos (ho _ (by simp)),
      reassemble_group p start last (fun q hq => ho q (List.mem_cons_of_mem _ hq)) hl
        (fun q hq => hk q (by rw [List.cons_append]; exact List.mem_cons_of_mem _ hq)) h4]
    rfl

/-- The packets of a message that is not complete. -/
theorem reassemble_pending (c : Bytes) (rest : List Bytes) (ho : ∀ p ∈ rest, Open p) (hk : ∀ p ∈ rest, KnownType p)
    (h4 : ∀ p ∈ rest, 4 ≤ p.length) (ps : List Bytes) :
    reassemble (some c) (rest ++ ps) = reassemble (some (c ++ (rest.map (List.drop 4)).flatten)) ps := by
  induction rest generalizing c with
  | nil => simp
  | cons p rest ih =>
    rw [List.cons_append, reassemble_next c p (hk _ (by simp)) (h4 _ (by simp)), if_pos (ho _ (by simp)),
      ih _ (fun q hq => ho q (List.mem_cons_of_mem _ hq)) (fun q hq => hk q (List.mem_cons_of_mem _ hq))
        (fun q hq => h4 q (List.mem_cons_of_mem _ hq))]
    simp

/-- After complete messages and part of another the reader is as described, whatever follows. -/
theorem reassemble_grouped {ps rest : List Bytes} {gs : List (List Bytes)} (h : Grouped ps gs rest) (qs : List Bytes) :
    reassemble none (ps ++ qs) =
      (gs.map joined ++ (reassemble (if rest = [] then none else some (joined rest)) qs).1,
        (reassemble (if rest = [] then none else some (joined rest)) qs).2) := by
  obtain ⟨rfl, hc, hp, hk, h4, h4'⟩ := h
  induction gs with
  | nil =>
    rw [List.flatten_nil, List.nil_append] at hk ⊢
    cases rest with
    | nil => simp
    | cons p rest =>
      rw [List.cons_append, reassemble_first p (hk _ (by simp)), if_pos (hp _ (by simp)),
        reassemble_pending p rest (fun q hq => hp q (List.mem_cons_of_mem _ hq))
          (fun q hq => hk q (List.mem_cons_of_mem _ hq)) h4']
      simp [joined]
  | cons g gs ih =>
    obtain ⟨start, last, rfl, ho, hl⟩ := hc g List.mem_cons_self
    have hk1 : ∀ p ∈ start ++ [last], KnownType p := fun p hm => hk p (by
      rw [List.flatten_cons]; exact List.mem_append_left _ (List.mem_append_left _ hm))
    have e : ((start ++ [last]) :: gs).flatten ++ rest ++ qs = start ++ last :: (gs.flatten ++ rest ++ qs) := by simp
    rw [e, reassemble_message start last ho hl hk1 (h4 _ List.mem_cons_self),
      ih (fun g hg => hc g (List.mem_cons_of_mem _ hg))
        (fun p hm => hk p (by rw [List.flatten_cons, List.append_assoc]; exact List.mem_append_right _ hm))
        (fun g hg => h4 g (List.mem_cons_of_mem _ hg))]
    rfl

/-- One more packet. -/
theorem grouped_snoc {ps rest : List Bytes} {gs : List (List Bytes)} (h : Grouped ps gs rest) {p : Bytes} (hb : ¬ Bad rest p) :
    ∃ gs' rest', Grouped (ps ++ [p]) gs' rest' := by
  obtain ⟨rfl, hc, hp, hk, h4, h4'⟩ := h
  simp only [Bad, not_or, not_not, not_and, not_lt] at hb
  have hk' : ∀ q ∈ gs.flatten ++ rest ++ [p], KnownType q := by
    intro q hq
    rcases List.mem_append.mp hq with hq | hq
    · exact hk q hq
    · rw [List.mem_singleton.mp hq]; exact hb.1
  have ht : ∀ q ∈ (rest ++ [p]).tail, 4 ≤ q.length := by
    cases rest with
    | nil => simp
    | cons r rest =>
      intro q hq
      rw [List.cons_append, List.tail_cons] at hq
      rcases List.mem_append.mp hq with hq | hq
      · exact h4' q hq
      · rw [List.mem_singleton.mp hq]; exact hb.2 (by simp)
  by_cases ho : Open p
  · refine ⟨gs, rest ++ [p], ⟨by simp, hc, ?_, hk', h4, ht⟩⟩
    intro q hq
    rcases List.mem_append.mp hq with hq | hq
    · exact hp q hq
    · rw [List.mem_singleton.mp hq]; exact ho
  · refine ⟨gs ++ [rest ++ [p]], [], ⟨by simp, ?_, by simp, hk', ?_, by simp⟩⟩
    · intro g hg
      rcases List.mem_append.mp hg with hg | hg
      · exact hc g hg
      · exact ⟨rest, p, List.mem_singleton.mp hg, hp, ho⟩
    · intro g hg
      rcases List.mem_append.mp hg with hg | hg
      · exact h4 g hg
      · rw [List.mem_singleton.mp hg]; exact ht

/-- Any packets are grouped, up to the first bad one. -/
theorem grouped_or (ps : List Bytes) :
    (∃ gs rest, Grouped ps gs rest) ∨
      ∃ qs gs rest p tail, ps = qs ++ p :: tail ∧ Grouped qs gs rest ∧ Bad rest p := by
  induction ps using List.reverseRecOn with
  | nil => exact .inl ⟨[], [], ⟨rfl, by simp, by simp, by simp, by simp, by simp⟩⟩
  | append_singleton ps p ih =>
    rcases ih with ⟨gs, rest, h⟩ | ⟨qs, gs, rest, q, tail, rfl, h, hb⟩
    · by_cases hb : Bad rest p
      · exact .inr ⟨ps, gs, rest, p, [], rfl, h, hb⟩
      · exact .inl (grouped_snoc h hb)
    · exact .inr ⟨qs, gs, rest, q, tail ++ [p], by simp, h, hb⟩

/-- What a bad packet does. -/
theorem reassemble_bad (rest : List Bytes) (p : Bytes) (tail : List Bytes) (h : Bad rest p) :
    reassemble (if rest = [] then none else some (joined rest)) (p :: tail) =
      ([], if p = [] ∨ KnownType p then .panic else .badHeader) := by
  cases p with
  | nil => simp [reassemble]
  | cons b t =>
    by_cases hk : KnownType (b :: t)
    · have hk' : b.toNat / 32 < 4 := hk
      rcases h with h | ⟨hr, hl⟩
      · exact absurd hk h
      · rw [if_neg hr, if_pos (.inr hk), reassemble.eq_def]
        simp only [decodeCommonHeader_eq, if_pos hk']
        match t, hl with
        | [], _ => rfl
        | [_], _ => rfl
        | [_, _], _ => rfl
    · have hk' : ¬ b.toNat / 32 < 4 := hk
      have e : (if b :: t = [] ∨ KnownType (b :: t) then ReadEnd.panic else .badHeader) = .badHeader := if_neg (by simp [hk])
      rw [e, reassemble.eq_def]
      simp only [decodeCommonHeader_eq, if_neg hk']

/-- Packets read from a stream of bytes are never bad. -/
theorem readStream_grouped (bs : Bytes) : ∃ gs rest, Grouped (readStream bs) gs rest := by
  rcases grouped_or (readStream bs) with h | ⟨qs, gs, rest, p, tail, e, _, hb⟩
  · exact h
  · obtain ⟨ms, r, h1, h2, -, -⟩ := readStream_sound bs
    have hp : p ∈ ms.map Msg.bytes := by rw [← h1, e]; simp
    obtain ⟨m, hm, rfl⟩ := List.mem_map.mp hp
    rcases hb with hb | ⟨-, hb⟩
    · exact absurd (h2 m hm).1 hb
    · simp [Msg.bytes] at hb; omega

end Pica
