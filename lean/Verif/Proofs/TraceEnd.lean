import Verif.Proofs.Trace
/-! When a connection task ends. -/

namespace Pica.Link
open Spec Spec.Trace

theorem segment_error {m : Bytes} {e : Panic} (h : segment m = .error e) : m = [] := by
  match m with
  | [] => rfl
  | [_] | [_, _] | [_, _, _] => cases h
  | a :: b :: c :: d :: r =>
    obtain ⟨gs, h1, -⟩ := segment_spec ⟨a, b, c, d, r⟩
    have h1' : segment (a :: b :: c :: d :: r) = .ok (gs.map Msg.bytes) := h1
    rw [h] at h1'
    cases h1'

theorem segment_nil {fs : List Bytes} : segment [] ≠ .ok fs := fun h => by cases h

theorem crossings_none {as : List Act} {a : Act} (h : crossing a = none) : crossings (as ++ [a]) = crossings as := by
  rw [crossings_snoc, h]; simp

theorem sentBy_host {as : List Act} {p : Bytes} {t : Nat} (h : KnownType p) :
    sentBy .host (crossings (as ++ [.read p t])) = sentBy .host (crossings as) ++ [p] := by
  rw [crossings_snoc, sentBy_append]; simp [crossing, h, sentBy]

theorem sentBy_other {as : List Act} {a : Act} (h : ∀ p t, a ≠ .read p t) :
    sentBy .host (crossings (as ++ [a])) = sentBy .host (crossings as) := by
  rw [crossings_snoc, sentBy_append]
  cases a with
  | read p t => exact absurd rfl (h p t)
  | _ => simp [crossing, sentBy]

/-- The last packet, if any, is open. -/
def LastOpen (ps : List Bytes) : Prop := ∃ q, ps.getLast? = some q ∧ Open q

theorem short_snoc {ps : List Bytes} {p : Bytes} :
    ShortNext (ps ++ [p]) ↔ ShortNext ps ∨ LastOpen ps ∧ p.length < 4 := by
  constructor
  · rintro ⟨l, q, p', r, h, ho, hl⟩
    rcases List.eq_nil_or_concat r with rfl | ⟨r, x, rfl⟩
    · have : ps ++ [p] = (l ++ [q]) ++ [p'] := by rw [h]; simp
      obtain ⟨rfl, h2⟩ := List.append_inj' this rfl
      cases h2
      exact .inr ⟨⟨q, by simp, ho⟩, hl⟩
    · have : ps ++ [p] = (l ++ q :: p' :: r) ++ [x] := by rw [h]; simp
      obtain ⟨rfl, -⟩ := List.append_inj' this rfl
      exact .inl ⟨l, q, p', r, rfl, ho, hl⟩
  · rintro (⟨l, q, p', r, rfl, ho, hl⟩ | ⟨⟨q, hq, ho⟩, hl⟩)
    · exact ⟨l, q, p', r ++ [p], by simp, ho, hl⟩
    · obtain ⟨l, rfl⟩ := List.getLast?_eq_some_iff.1 hq
      exact ⟨l, q, p, [], by simp, ho, hl⟩

theorem lastOpen_snoc {ps : List Bytes} {p : Bytes} : LastOpen (ps ++ [p]) ↔ Open p := by
  simp [LastOpen]

/-- What holds of a task that goes on or has ended. -/
structure EndInv (as : List Act) (s : Link) : Prop where
  ended : s.ended = true ↔ Ends as
  acc : s.ended = false → (s.acc.isSome = true ↔ LastOpen (sentBy .host (crossings as)))

theorem ends_iff {as : List Act} {a : Act} (h : ¬ Ends as) : Ends (as ++ [a]) ↔
    a = .close ∨ (∃ p t, a = .fail p t) ∨ (∃ p t, a = .read p t ∧ ¬ KnownType p) ∨
      [] ∈ (pushed (as ++ [a])).take (takes (as ++ [a])) ∨ ShortNext (sentBy .host (crossings (as ++ [a]))) := by
  unfold Ends at h ⊢
  simp only [not_or] at h
  obtain ⟨h1, h2, h3, -, -⟩ := h
  have e1 : Act.close ∈ as ++ [a] ↔ a = .close := by
    rw [List.mem_append]; simp [h1, eq_comm]
  have e2 : (∃ p t, Act.fail p t ∈ as ++ [a]) ↔ ∃ p t, a = .fail p t := by
    constructor
    · rintro ⟨p, t, h⟩
      rcases List.mem_append.1 h with h | h
      · exact absurd ⟨p, t, h⟩ h2
      · exact ⟨p, t, (List.mem_singleton.1 h).symm⟩
    · rintro ⟨p, t, rfl⟩; exact ⟨p, t, by simp⟩
  have e3 : (∃ p t, Act.read p t ∈ as ++ [a] ∧ ¬ KnownType p) ↔ ∃ p t, a = .read p t ∧ ¬ KnownType p := by
    constructor
    · rintro ⟨p, t, h, hk⟩
      rcases List.mem_append.1 h with h | h
      · exact absurd ⟨p, t, h, hk⟩ h3
      · exact ⟨p, t, (List.mem_singleton.1 h).symm, hk⟩
    · rintro ⟨p, t, rfl, hk⟩; exact ⟨p, t, by simp, hk⟩
  rw [e1, e2, e3]

theorem endInv_step {input : List Bytes} {as : List Act} {s s' : Link} {a : Act} (hi : Inv input as s) (h : EndInv as s)
    (hs : s.step a = some s') : EndInv (as ++ [a]) s' := by
  have ha : s.ended = false := by
    cases a <;> rw [step] at hs <;> split at hs <;> first
      | cases hs; done
      | rename_i hc; cases he : s.ended <;> simp_all
  have hn : ¬ Ends as := fun x => by rw [h.ended.2 x] at ha; cases ha
  have h4 : [] ∉ (pushed as).take (takes as) := fun x => hn (.inr (.inr (.inr (.inl x))))
  have h5 : ¬ ShortNext (sentBy .host (crossings as)) := fun x => hn (.inr (.inr (.inr (.inr x))))
  cases a with
  | push m =>
    rw [step] at hs
    split at hs <;> cases hs
    have ht := takes_snoc as (.push m)
    have hp := pushed_snoc as (.push m)
    simp only [reduceCtorEq, if_false, Nat.add_zero] at ht
    refine ⟨?_, fun x => by rw [sentBy_other (by simp)]; exact h.acc x⟩
    rw [ends_iff hn, ht, hp, List.take_append_of_le_length hi.bound, sentBy_other (by simp)]
    simp [ha, h4, h5]
  | close =>
    rw [step] at hs
    split at hs <;> cases hs
    exact ⟨by rw [ends_iff hn]; simp, fun x => by simp at x⟩
  | take =>
    rw [step] at hs
    split at hs
    · cases hs
    have ht := takes_snoc as .take
    have hp := pushed_snoc as .take
    simp only [if_true, List.append_nil] at ht hp
    have h1 := hi.output
    split at hs
    · cases hs
    rename_i m out hm
    rw [hm] at h1
    have hlt : takes as < (pushed as).length := by
      by_contra hge
      rw [List.drop_eq_nil_of_le (by omega)] at h1
      cases h1
    have h3 := List.drop_eq_getElem_cons hlt
    rw [← h1] at h3
    cases h3
    have e := ends_iff (a := .take) hn
    rw [ht, hp, List.take_succ_eq_append_getElem hlt, sentBy_other (by simp)] at e
    have e' : Ends (as ++ [.take]) ↔ [] = (pushed as)[takes as] := by
      rw [e]
      constructor
      · rintro (x | ⟨_, _, x⟩ | ⟨_, _, x, _⟩ | x | x)
        · cases x
        · cases x
        · cases x
        · rcases List.mem_append.1 x with x | x
          · exact absurd x h4
          · exact List.mem_singleton.1 x
        · exact absurd x h5
      · intro x
        exact .inr (.inr (.inr (.inl (List.mem_append_right _ (List.mem_singleton.2 x)))))
    split at hs <;> (rename_i fs he; cases hs)
    · exact ⟨by rw [e']; simp [segment_error he], fun x => by simp at x⟩
    · refine ⟨?_, fun x => by rw [sentBy_other (by simp)]; exact h.acc x⟩
      rw [e']
      simp only [ha, Bool.false_eq_true, false_iff]
      intro x
      rw [← x] at he
      exact segment_nil he
  | read p t =>
    rw [step] at hs
    split at hs
    · cases hs
    split at hs
    · cases hs
    split at hs <;> cases hs
    rename_i hq
    subst hq
    rename_i q inp hi' 
    have ht := takes_snoc as (.read q t)
    have hp := pushed_snoc as (.read q t)
    simp only [reduceCtorEq, if_false, Nat.add_zero, List.append_nil] at ht hp
    have e := ends_iff (a := .read q t) hn
    rw [ht, hp] at e
    have hacc := h.acc ha
    rw [get_eq]
    by_cases hk : KnownType q
    · rw [if_neg (not_not.mpr hk)]
      rw [sentBy_host hk, short_snoc] at e
      have e' : Ends (as ++ [.read q t]) ↔ s.acc.isSome = true ∧ q.length < 4 := by
        rw [e, hacc]; simp [hk, h4, h5]
      cases hc : s.acc with
      | none =>
        rw [hc] at e'
        dsimp only
        split
        · rename_i ho
          exact ⟨by rw [e']; simp [record, ha], fun _ => by rw [sentBy_host hk, lastOpen_snoc]; simpa using ho⟩
        · rename_i ho
          refine ⟨by rw [e']; simp [record, ha], fun _ => by rw [sentBy_host hk, lastOpen_snoc]; simp [record, ho]⟩
      | some c =>
        rw [hc] at e'
        dsimp only
        split
        · rename_i hl
          exact ⟨by rw [e']; simp [hl], fun x => by simp at x⟩
        · rename_i hl
          split
          · rename_i ho
            exact ⟨by rw [e']; simp [record, ha, hl], fun _ => by rw [sentBy_host hk, lastOpen_snoc]; simpa using ho⟩
          · rename_i ho
            exact ⟨by rw [e']; simp [record, ha, hl], fun _ => by rw [sentBy_host hk, lastOpen_snoc]; simpa using ho⟩
    · rw [if_pos hk]
      exact ⟨by rw [e]; simp [hk], fun x => by simp at x⟩
  | write p t =>
    rw [step] at hs
    split at hs
    · cases hs
    split at hs
    · cases hs
    split at hs <;> cases hs
    have ht := takes_snoc as (.write p t)
    have hp := pushed_snoc as (.write p t)
    simp only [reduceCtorEq, if_false, Nat.add_zero, List.append_nil] at ht hp
    refine ⟨?_, fun x => by rw [sentBy_other (by simp)]; exact h.acc x⟩
    rw [ends_iff hn, ht, hp, sentBy_other (by simp)]
    simp [record, ha, h4, h5]
  | fail p t =>
    rw [step] at hs
    split at hs
    · cases hs
    split at hs
    · cases hs
    split at hs <;> cases hs
    exact ⟨by rw [ends_iff hn]; simp [record], fun x => by simp [record] at x⟩

theorem endInv_run {input : List Bytes} {as : List Act} {s : Link} (h : (new input).run as = some s) : EndInv as s := by
  induction as using List.reverseRecOn generalizing s with
  | nil =>
    cases h
    exact ⟨by simp [new, Ends, pushed, crossings, sentBy, ShortNext], fun _ => by simp [new, LastOpen, crossings, sentBy]⟩
  | append_singleton as a ih =>
    rw [run_snoc, Option.bind_eq_some_iff] at h
    obtain ⟨x, hx, h⟩ := h
    exact endInv_step (inv_run hx) (ih hx) h

end Pica.Link
