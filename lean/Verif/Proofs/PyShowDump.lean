import Verif.Proofs.PyShow
import Verif.Spec.PyShow
/-!
The raw data that the console prints can be read back.
-/

namespace Pica.PyShow
open Spec Py

theorem readHex_hexByte (x : UInt8) (t : Text) : readHex (hexByte x ++ t) = (readHex t).map (x :: ·) := by
  have key : ∀ y : UInt8, ¬ (hexDigit (y.toNat / 16) = ' ' ∨ hexDigit (y.toNat / 16) = '\n') ∧
      nibble (hexDigit (y.toNat / 16)) = some (y.toNat / 16) ∧ nibble (hexDigit (y.toNat % 16)) = some (y.toNat % 16) ∧
      UInt8.ofNat (16 * (y.toNat / 16) + y.toNat % 16) = y := by
    intro y
    exact forall_u8 (P := fun y => ¬ (hexDigit (y.toNat / 16) = ' ' ∨ hexDigit (y.toNat / 16) = '\n') ∧
      nibble (hexDigit (y.toNat / 16)) = some (y.toNat / 16) ∧ nibble (hexDigit (y.toNat % 16)) = some (y.toNat % 16) ∧
      UInt8.ofNat (16 * (y.toNat / 16) + y.toNat % 16) = y) (by decide +kernel) y
  obtain ⟨h1, h2, h3, h4⟩ := key x
  simp only [hexByte, List.cons_append, List.nil_append]
  rw [readHex, if_neg h1]
  simp only [h2, h3, Option.bind_eq_bind, Option.bind_some, h4, Option.pure_def]
  cases readHex t <;> rfl

theorem readHex_space (t : Text) : readHex (' ' :: t) = readHex t := by rw [readHex.eq_def]; simp
theorem readHex_newline (t : Text) : readHex ('\n' :: t) = readHex t := by rw [readHex.eq_def]; simp

theorem readHex_row (l : Bytes) (t : Text) :
    readHex (List.intercalate [' '] (l.map hexByte) ++ t) = (readHex t).map (l ++ ·) := by
  induction l with
  | nil => simp [List.intercalate]
  | cons x l ih =>
    cases l with
    | nil =>
      have : List.intercalate [' '] (List.map hexByte [x]) = hexByte x := by simp [List.intercalate]
      rw [this, readHex_hexByte]; rfl
    | cons y l =>
      rw [List.map_cons, List.map_cons, intercalate_cons_cons, List.append_assoc, readHex_hexByte, List.append_assoc,
        List.singleton_append, readHex_space, ← List.map_cons, ih]
      cases readHex t <;> rfl

theorem readHex_rows (ls : List Bytes) :
    readHex (List.intercalate ['\n', ' ', ' '] (ls.map fun l => List.intercalate [' '] (l.map hexByte))) = some ls.flatten := by
  induction ls with
  | nil => rfl
  | cons l ls ih =>
    cases ls with
    | nil =>
      have : List.intercalate ['\n', ' ', ' '] (List.map (fun l : Bytes => List.intercalate [' '] (l.map hexByte)) [l]) =
        List.intercalate [' '] (l.map hexByte) ++ [] := by simp [List.intercalate]
      rw [this, readHex_row, readHex]
      simp
    | cons m ls =>
      rw [List.map_cons, List.map_cons, intercalate_cons_cons, readHex_row, List.cons_append, readHex_newline,
        List.cons_append, readHex_space, List.cons_append, readHex_space, List.nil_append]
      rw [List.map_cons] at ih
      rw [ih]
      rfl

theorem chunks_flatten (n : Nat) (b : Bytes) : (chunks n b).flatten = b := by
  induction h : b.length using Nat.strongRecOn generalizing b with
  | _ k ih =>
    cases b with
    | nil => rw [chunks]; rfl
    | cons x r =>
      rw [chunks, List.flatten_cons, ih (r.drop n).length (by simp at h ⊢; omega) _ rfl]
      simp

theorem chunks_ne {n : Nat} {b : Bytes} (h : chunks n b = []) : b = [] := by
  have := chunks_flatten n b
  rw [h] at this
  exact this.symm

theorem chunks_length (n : Nat) (b : Bytes) :
    (∀ c ∈ chunks n b, 0 < c.length ∧ c.length ≤ n + 1) ∧ ∀ c ∈ (chunks n b).dropLast, c.length = n + 1 := by
  induction h : b.length using Nat.strongRecOn generalizing b with
  | _ k ih =>
    cases b with
    | nil => rw [chunks]; simp
    | cons x r =>
      obtain ⟨h1, h2⟩ := ih (r.drop n).length (by simp at h ⊢; omega) _ rfl
      rw [chunks]
      refine ⟨?_, ?_⟩
      · intro c hc
        rcases List.mem_cons.mp hc with rfl | hc
        · simp
        · exact h1 c hc
      · intro c hc
        cases hr : chunks n (r.drop n) with
        | nil => rw [hr] at hc; simp at hc
        | cons y l =>
          rw [hr, List.dropLast_cons_of_ne_nil (by simp)] at hc
          rcases List.mem_cons.mp hc with rfl | hc
          · have : r.drop n ≠ [] := by intro e; rw [e, chunks] at hr; cases hr
            have : n < r.length := by simpa using this
            simp; omega
          · exact h2 c (hr ▸ hc)

theorem readHex_dump (b : Bytes) : readHex (dump b) = some b := by
  rw [dump, readHex_rows, chunks_flatten]

/-- The length of the text depends on the number of bytes only. -/
theorem row_length (l : Bytes) : (List.intercalate [' '] (l.map hexByte)).length = 3 * l.length - 1 := by
  induction l with
  | nil => rfl
  | cons x l ih =>
    cases l with
    | nil => rfl
    | cons y l =>
      rw [List.map_cons, List.map_cons, intercalate_cons_cons, List.length_append, List.length_append, ← List.map_cons, ih]
      simp [hexByte]; omega

theorem dump_length (b b' : Bytes) (h : b.length = b'.length) : (dump b).length = (dump b').length := by
  have key : ∀ b b' : Bytes, b.length = b'.length → (chunks 15 b).map List.length = (chunks 15 b').map List.length := by
    intro b
    induction hk : b.length using Nat.strongRecOn generalizing b with
    | _ k ih =>
      intro b' h
      cases b with
      | nil => cases b' with
        | nil => rfl
        | cons => simp at h hk; omega
      | cons x r => cases b' with
        | nil => simp at h hk; omega
        | cons x' r' =>
          simp only [List.length_cons] at h hk
          rw [chunks, chunks, List.map_cons, List.map_cons, ih (r.drop 15).length (by simp; omega) _ rfl (r'.drop 15) (by simp; omega)]
          simp; omega
  have rows : ∀ l l' : List Bytes, l.map List.length = l'.map List.length →
      (List.intercalate ['\n', ' ', ' '] (l.map fun l => List.intercalate [' '] (l.map hexByte))).length =
      (List.intercalate ['\n', ' ', ' '] (l'.map fun l => List.intercalate [' '] (l.map hexByte))).length := by
    intro l
    induction l with
    | nil => intro l' h; cases l' with
      | nil => rfl
      | cons => simp at h
    | cons a l ih =>
      intro l' h
      cases l' with
      | nil => simp at h
      | cons a' l' =>
        rw [List.map_cons, List.map_cons, List.cons.injEq] at h
        have := ih l' h.2
        cases l with
        | nil =>
          cases l' with
          | nil =>
            have one : ∀ x : Text, List.intercalate ['\n', ' ', ' '] [x] = x := by simp [List.intercalate]
            simp only [List.map_cons, List.map_nil, one, row_length, h.1]
          | cons => simp at h
        | cons c l =>
          cases l' with
          | nil => simp at h
          | cons c' l' =>
            simp only [List.map_cons, intercalate_cons_cons, List.length_append, row_length, h.1] at this ⊢
            omega
  exact rows _ _ (key b b' h)

theorem report_inj {p q : Bytes} (h : report p = report q) : p = q := by
  unfold report at h
  simp only [List.append_assoc] at h
  have h := List.append_cancel_left (List.append_cancel_left h)
  have e : "]:\n".toList = ']' :: [':', '\n'] := by decide
  rw [e] at h
  simp only [List.cons_append] at h
  obtain ⟨h1, h2⟩ := split_at (not_mem_digits _ (by decide)) (not_mem_digits _ (by decide)) h
  have hl := digits_inj h1
  have h3 := List.append_cancel_left (List.append_cancel_left (as := [':', '\n']) h2)
  have := (List.append_inj h3 (dump_length p q hl)).1
  have h4 := readHex_dump p
  rw [this, readHex_dump] at h4
  exact (Option.some.inj h4).symm

end Pica.PyShow
