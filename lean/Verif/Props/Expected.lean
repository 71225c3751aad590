import Verif.Model.Tests
import Verif.Props.PyLayout
import Verif.Proofs.PyShowNamed
/-! C92, C93: what the statements of the tests accept. -/

namespace Pica.Props
open Spec Py Tests
open Spec.Pdl (Matches)

/-- C92: `expect_control` of a packet returns exactly for the bytes that the packet description gives to the packet, up to
reserved bits; and where the test only asks for a class, exactly for those of a two-way ranging notification with short
addresses. -/
theorem C92_expects (b : Bytes) :
    (∀ o, ¬ Bare o → ¬ IsData o → (∀ v, o ≠ .sessionUpdateControllerMulticastListRsp v) →
      (returns (.packet o) b = true ↔ ObjFits o ∧ Matches (layout o) b)) ∧
    (returns .sessionInfo b = true ↔ ∃ n t r i l v, ObjFits (.shortMacTwoWaySessionInfoNtf n t r i l v) ∧
      Matches (layout (.shortMacTwoWaySessionInfoNtf n t r i l v)) b) := by
  refine ⟨fun o h1 h2 h3 => ?_, ?_⟩
  · rw [← C98_iff_partial b o h1 h3]
    simp only [returns, decide_eq_true_eq, ReadAs, h2, false_and, not_false_eq_true, true_and, false_or]
  · have key : ∀ n t r i l v, parseControl b = some (.shortMacTwoWaySessionInfoNtf n t r i l v) ↔
        ObjFits (.shortMacTwoWaySessionInfoNtf n t r i l v) ∧ Matches (layout (.shortMacTwoWaySessionInfoNtf n t r i l v)) b := by
      intro n t r i l v
      have hd : ¬ IsData (.shortMacTwoWaySessionInfoNtf n t r i l v) := fun h => h
      rw [← C98_iff_partial b (.shortMacTwoWaySessionInfoNtf n t r i l v) (fun h => h) (fun v h => by cases h)]
      simp only [ReadAs, hd, false_and, not_false_eq_true, true_and, false_or]
    simp only [← key, returns, Option.any_eq_true]
    constructor
    · rintro ⟨o, h1, h2⟩
      cases o <;> first | (simp only [isSessionInfo, Bool.false_eq_true] at h2; done) | exact ⟨_, _, _, _, _, _, h1⟩
    · rintro ⟨n, t, r, i, l, v, h⟩
      exact ⟨_, h, rfl⟩

/-- An empty notification of a session with short addresses, and the same of one with extended addresses. -/
example : returns .sessionInfo ([0x62, 0, 0, 25, 1, 0, 0, 0, 2, 0, 0, 0, 0, 200, 0, 0, 0, 1, 0, 0] ++ List.replicate 9 0) = true ∧
    returns .sessionInfo ([0x62, 0, 0, 25, 1, 0, 0, 0, 2, 0, 0, 0, 0, 200, 0, 0, 0, 1, 0, 1] ++ List.replicate 9 0) = false ∧
    returns .sessionInfo [0x61, 2, 0, 6, 0, 0, 0, 0, 2, 0] = false ∧
    returns (.packet (.sessionStatusNtf 0 2 0)) [0x61, 2, 0, 6, 0, 0, 0, 0, 2, 0] = true := by decide +kernel

/-- C93: `expect_data` returns exactly for the bytes that the packet description gives to the data. -/
theorem C93_expects (b : Bytes) (o : Obj) (h1 : ¬ Bare o) (h2 : IsData o) :
    returns (.data o) b = true ↔ ObjFits o ∧ Matches (layout o) b := by
  have h3 : ∀ v, o ≠ .sessionUpdateControllerMulticastListRsp v := by rintro v rfl; exact h2
  rw [← C98_iff_partial b o h1 h3]
  simp only [returns, decide_eq_true_eq, ReadAs, h2, not_true_eq_false, false_and, true_and, or_false]

/-- Two bytes of data from 00:b1 in session 7, as they arrive and with another sequence number. -/
example : ¬ Bare (.dataMessageRcv 0 7 0 0xb100 3 [0x55, 0x66]) ∧ IsData (.dataMessageRcv 0 7 0 0xb100 3 [0x55, 0x66]) ∧
    returns (.data (.dataMessageRcv 0 7 0 0xb100 3 [0x55, 0x66]))
      [0x02, 0, 19, 0, 7, 0, 0, 0, 0, 0, 0xb1, 0, 0, 0, 0, 0, 0, 3, 0, 2, 0, 0x55, 0x66] = true ∧
    returns (.data (.dataMessageRcv 0 7 0 0xb100 3 [0x55, 0x66]))
      [0x02, 0, 19, 0, 7, 0, 0, 0, 0, 0, 0xb1, 0, 0, 0, 0, 0, 0, 4, 0, 2, 0, 0x55, 0x66] = false :=
  ⟨id, trivial, by decide +kernel, by decide +kernel⟩

/-- C92, C93: with `event.show()` after it, the statement is passed exactly if, moreover, every status in what was received has a
name. -/
theorem C92_shows (b : Bytes) :
    (accepts .sessionInfo b = true ↔ ∃ n t r i l v, ObjFits (.shortMacTwoWaySessionInfoNtf n t r i l v) ∧
      Matches (layout (.shortMacTwoWaySessionInfoNtf n t r i l v)) b ∧ ∀ m ∈ l, NamedStatus m.status) ∧
    (∀ n c, accepts (.packet (.sessionDataCreditNtf n c)) b = returns (.packet (.sessionDataCreditNtf n c)) b) ∧
    ∀ o, IsData o → (accepts (.data o) b = true ↔ returns (.data o) b = true ∧ AllNamed o) := by
  refine ⟨?_, fun n c => ?_, fun o hd => ?_⟩
  · have key : ∀ n t r i l v, parseControl b = some (.shortMacTwoWaySessionInfoNtf n t r i l v) ↔
        ObjFits (.shortMacTwoWaySessionInfoNtf n t r i l v) ∧ Matches (layout (.shortMacTwoWaySessionInfoNtf n t r i l v)) b := by
      intro n t r i l v
      have hd : ¬ IsData (.shortMacTwoWaySessionInfoNtf n t r i l v) := fun h => h
      rw [← C98_iff_partial b (.shortMacTwoWaySessionInfoNtf n t r i l v) (fun h => h) (fun v h => by cases h)]
      simp only [ReadAs, hd, false_and, not_false_eq_true, true_and, false_or]
    have hs : ∀ n t r i l v, parseControl b = some (.shortMacTwoWaySessionInfoNtf n t r i l v) →
        ((Obj.shortMacTwoWaySessionInfoNtf n t r i l v).show.returned = true ↔ ∀ m ∈ l, NamedStatus m.status) := fun n t r i l v h =>
      PyShow.show_returned (o := .shortMacTwoWaySessionInfoNtf n t r i l v) (Or.inr ⟨fun h => h, h⟩)
    simp only [← and_assoc, ← key]
    unfold accepts returns Expected.object Expected.shown Expected.isData
    simp only [Bool.false_eq_true, if_false, Bool.not_true, Bool.false_or, Bool.and_eq_true]
    constructor
    · rintro ⟨h1, h2⟩
      obtain ⟨o, h, h1⟩ := Option.any_eq_true _ _ |>.mp h1
      rw [h] at h2
      cases o <;> first
        | (simp only [isSessionInfo, Bool.false_eq_true] at h1; done)
        | exact ⟨_, _, _, _, _, _, h, (hs _ _ _ _ _ _ h).mp h2⟩
    · rintro ⟨n, t, r, i, l, v, h, hn⟩
      rw [h]
      exact ⟨rfl, (hs _ _ _ _ _ _ h).mpr hn⟩
  · unfold accepts
    cases h : returns (.packet (.sessionDataCreditNtf n c)) b
    · rfl
    · have h : parseControl b = some (.sessionDataCreditNtf n c) := of_decide_eq_true h
      have := (PyShow.show_returned (o := .sessionDataCreditNtf n c) (Or.inr ⟨fun h => h, h⟩)).mpr trivial
      unfold Expected.object Expected.shown Expected.isData
      simp only [Bool.false_eq_true, if_false, h, Option.any_some, this, Bool.or_true, Bool.and_true]
  · unfold accepts
    rw [Bool.and_eq_true]
    refine and_congr_right fun h => ?_
    have h : parseData b = some o := of_decide_eq_true h
    unfold Expected.object Expected.shown Expected.isData
    simp only [if_true, h, Option.any_some, Bool.not_true, Bool.false_or]
    exact PyShow.show_returned (Or.inl ⟨hd, h⟩)

/-- A notification with one measurement, of status 0 and of status 0xef, which is left to vendors and has no name. -/
example : let b (st : UInt8) : Bytes := [0x62, 0, 0, 56, 1, 0, 0, 0, 2, 0, 0, 0, 0, 200, 0, 0, 0, 1, 0, 0] ++ List.replicate 8 0 ++ [1] ++
      ([0xb1, 0, st] ++ List.replicate 28 0)
    accepts .sessionInfo (b 0) = true ∧ returns .sessionInfo (b 0xef) = true ∧ accepts .sessionInfo (b 0xef) = false := by decide +kernel

end Pica.Props
