import Verif.Props.Machine
import Verif.Props.PyUci
/-! C118: what the Python host reads are the answers of the machine. -/

namespace Pica.Props
open Spec Spec.Machine

/-- C118: whatever part of its connection the Python host has read, in every schedule and with all that goes on at the same
time: the responses among the messages are, in this order, the first answers of the machine to commands that the host has sent, in
this order, and each is read as an object of its class with the same fields, except the responses to multicast list updates, which
`PyReads` describes. -/
theorem C118_host (ls : List System.Label) (s : System) (hr : System.Run .new ls s) (h : Nat) (d : Device)
    (hd : s.pica.devices.get? h = some d) (ps : List Packet) (hps : ps <+: ls.flatMap (sentTo h)) :
    ∃ (l : List (Cmd × Rsp)) (bs : List Bytes) (fss : List (List Bytes)), Talks .fresh l (Ref.of d) ∧
      bs.Sublist (received h ls) ∧ List.Forall₂ IsCmd bs (l.map Prod.fst) ∧
      List.Forall₂ (fun p fs => ∃ b, p.encode = some b ∧ segment b = .ok fs) ps fss ∧
      ∀ fuel, ps.length ≤ fuel → ∃ os : List Bytes, os.Sublist (Host.readPackets fuel fss.flatten.flatten) ∧
        List.Forall₂ (fun b r => PyReads b (.rsp r)) os ((l.map Prod.snd).take os.length) ∧
        os.length = (ps.filterMap answer).length := by
  obtain ⟨l, bs, h1, h2, h3, h4⟩ := C118_schedule ls s hr h d hd
  obtain ⟨fss, h5, h6⟩ := C71_schedule_partial ls s hr h ps hps
  refine ⟨l, bs, fss, h1, h3, h4, h5, fun fuel hf => ?_⟩
  have key : ∀ {bs : List Bytes} {ps : List Packet}, List.Forall₂ PyReads bs ps → ∃ os : List Bytes, os.Sublist bs ∧
      List.Forall₂ (fun b r => PyReads b (.rsp r)) os (ps.filterMap answer) := by
    intro bs ps hf
    induction hf with
    | nil => exact ⟨[], .slnil, .nil⟩
    | @cons b p bs ps hb _ ih =>
      obtain ⟨os, i1, i2⟩ := ih
      cases p with
      | rsp r => exact ⟨b :: os, i1.cons_cons b, .cons hb i2⟩
      | ntf n => exact ⟨os, i1.cons b, i2⟩
      | data n => exact ⟨os, i1.cons b, i2⟩
      | control n => exact ⟨os, i1.cons b, i2⟩
      | raw n => exact ⟨os, i1.cons b, i2⟩
  obtain ⟨os, i1, i2⟩ := key (h6 fuel hf)
  have hl := i2.length_eq
  refine ⟨os, i1, ?_, hl⟩
  have hp : ps.filterMap answer <+: l.map Prod.snd := by
    rw [← h2]
    exact hps.filterMap answer
  rw [hl, ← List.prefix_iff_eq_take.mp hp]
  exact i2

/-- The host of a controller that is ACTIVE, after all that was sent to it: it has read the four answers of the machine. -/
example : ∃ ls s d l fss, System.Run .new ls s ∧ s.pica.devices.get? 0 = some d ∧ Talks .fresh l (Ref.of d) ∧
    ∃ os : List Bytes, os.Sublist (Host.readPackets (ls.flatMap (sentTo 0)).length (List.flatten (List.flatten fss))) ∧
      List.Forall₂ (fun b r => PyReads b (.rsp r)) os ((l.map Prod.snd).take os.length) ∧ os.length = 4 := by
  obtain ⟨d, hd⟩ : ∃ d, (Ex.final Ex.active).pica.devices.get? 0 = some d :=
    ⟨_, (Option.some_get (x := (Ex.final Ex.active).pica.devices.get? 0) (by decide +kernel)).symm⟩
  have hrun : System.Run .new (Ex.labels Ex.active) (Ex.final Ex.active) := Ex.final_run (by decide +kernel)
  obtain ⟨l, bs, fss, h1, -, -, -, h2⟩ := C118_host _ _ hrun 0 d hd _ (List.prefix_refl _)
  obtain ⟨os, i1, i2, i3⟩ := h2 _ (Nat.le_refl _)
  exact ⟨_, _, d, l, fss, hrun, hd, h1, os, i1, i2, i3.trans (by decide +kernel)⟩

end Pica.Props
