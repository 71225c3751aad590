import Verif.Model.Completion
import Verif.Spec.Completion
import Verif.Proofs.CommandLine
/-! The words of a line being typed. -/

namespace Pica.Console
open Spec.Typed
open Props (splitOn_none splitOn_first)

theorem map_plain {w : Text} (h : Graphic w) : w.map (fun c => if isSpace c then ' ' else c) = w := by
  rw [List.map_congr_left (g := id), List.map_id]
  intro c hc
  rw [isSpace_print (h c hc)]
  rfl

theorem plain_space {w : Text} (h : Graphic w) : ' ' ∉ w := fun hc => absurd (h ' ' hc).1 (by decide)

theorem splitWords_cons {w : Text} (h : Graphic w) (h0 : w ≠ []) (k : Nat) (line : Text) :
    splitWords (w ++ List.replicate (k + 1) ' ' ++ line) = w :: splitWords line := by
  unfold splitWords
  have hr : (List.replicate (k + 1) ' ').map (fun c => if isSpace c then ' ' else c) = List.replicate (k + 1) ' ' := by
    rw [List.map_replicate]
    rfl
  rw [List.map_append, List.map_append, map_plain h, hr, List.replicate_succ, List.append_assoc, List.cons_append,
    splitOn_first (plain_space h), splitOn_spaces, List.filter_cons_of_pos (by simpa using h0), List.filter_append]
  simp

theorem splitWords_one {w : Text} (h : Graphic w) : splitWords w = if w = [] then [] else [w] := by
  unfold splitWords
  rw [map_plain h, splitOn_none (plain_space h)]
  by_cases h0 : w = []
  · subst h0; rfl
  · rw [if_neg h0, List.filter_cons_of_pos (by simpa using h0)]; rfl

/-- The words of a line that is being typed. -/
theorem typed_begun {b u : Text} {ws : List Text} (h : Begun b ws u) (hw : ∀ w ∈ ws, w ≠ [] ∧ Graphic w) (hu : Graphic u) :
    typed b = ws ++ [u] := by
  have h1 : splitWords b = ws ++ if u = [] then [] else [u] := by
    induction h with
    | last => rw [splitWords_one hu]; rfl
    | cons k _ ih =>
      obtain ⟨a, a'⟩ := hw _ List.mem_cons_self
      rw [splitWords_cons a' a, ih (fun w h => hw w (List.mem_cons_of_mem _ h)) hu]
      rfl
  have h2 : u ≠ [] → b.getLast? = u.getLast? := by
    intro h0
    clear h1 hw hu
    induction h with
    | last => rfl
    | cons k h ih =>
      rw [List.getLast?_append, ih h0]
      rw [List.getLast?_eq_some_getLast h0]
      rfl
  have h3 : u = [] → ws ≠ [] → b.getLast? = some ' ' := by
    rintro rfl h0
    clear h1 h2 hw hu
    generalize hv : ([] : Text) = v at h
    induction h with
    | last => exact absurd rfl h0
    | @cons w line u ws k h ih =>
      rw [List.getLast?_append]
      cases ws with
      | nil =>
        cases h
        subst hv
        rw [List.getLast?_append, List.replicate_succ', List.getLast?_concat]
        rfl
      | cons x ws => rw [ih (List.cons_ne_nil _ _) hv]; rfl
  unfold typed
  dsimp only
  rw [h1]
  by_cases h0 : u = []
  · subst h0
    rw [if_pos rfl, List.append_nil, if_pos]
    by_cases h4 : ws = []
    · exact .inl h4
    · exact .inr (h3 rfl h4)
  · rw [if_neg h0, if_neg]
    rintro (h | h)
    · simp at h
    · rw [h2 h0] at h
      exact plain_space hu (List.mem_of_getLast? h)

end Pica.Console
