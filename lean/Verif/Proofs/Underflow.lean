import Verif.Proofs.Dispatch
import Verif.Proofs.Pica
/-! The count of active sessions never underflows. -/

namespace Pica
open Spec

/-- The outcome is not an underflow of the count of active sessions. -/
structure Sound {α : Type} (x : Except Panic α) : Prop where
  ne : x ≠ .error .underflow

theorem Sound.ok {α : Type} (a : α) : Sound (.ok a : Except Panic α) := ⟨by rintro ⟨⟩⟩

theorem Sound.err {α : Type} {x : Panic} (h : x ≠ .underflow) : Sound (.error x : Except Panic α) :=
  ⟨by rintro ⟨⟩; exact h rfl⟩

theorem Sound.bind {α β : Type} {x : Except Panic α} {f : α → Except Panic β} (h : Sound x) (hf : ∀ a, Sound (f a)) :
    Sound (x >>= f) := by
  cases x with
  | error e => exact ⟨fun he => h.ne (by cases he; rfl)⟩
  | ok a => exact hf a

theorem Sound.ite {α : Type} {c : Prop} [Decidable c] {x y : Except Panic α} (h : Sound x) (h' : Sound y) :
    Sound (if c then x else y) := by
  split <;> assumption

macro "sound" : tactic => `(tactic| repeat (first
  | exact Sound.ok _
  | exact Sound.err (by decide)
  | assumption
  | apply Sound.ite
  | (refine Sound.bind ?_ ?_)
  | intro _
  | split))

theorem parse_sound (gid : GroupId) (b : Bytes) : Sound (Cmd.parse gid b) := by
  have hc : ∀ {α : Type} (c : Codec α) (p : Bytes) (k : α → Cmd), Sound (Cmd.child c p k) := by
    intro α c p k; unfold Cmd.child; sound
  have hu : ∀ {α : Type} (c : Codec α) (p : Bytes), Sound (Cmd.unsupported c p) := by
    intro α c p; unfold Cmd.unsupported; sound
  have h1 : ∀ o p, Sound (Cmd.parseCore o p) := by
    intro o p; cases o <;> first | exact hc _ _ _ | exact hu _ _ | exact Sound.err (by decide)
  have h2 : ∀ o p, Sound (Cmd.parseSessionConfig o p) := by
    intro o p; cases o <;> first | exact hc _ _ _ | exact hu _ _ | exact Sound.err (by decide)
  have h3 : ∀ o p, Sound (Cmd.parseSessionControl o p) := by
    intro o p; cases o <;> first | exact hc _ _ _ | exact hu _ _ | exact Sound.err (by decide)
  have h4 : ∀ o p, Sound (Cmd.parseAndroid o p) := by
    intro o p; cases o <;> first | exact hc _ _ _ | exact hu _ _ | exact Sound.err (by decide)
  have hg : ∀ {E : Type} [WireEnum E] (f : E → Bytes → Except Panic Cmd) (p : Bytes), (∀ o p, Sound (f o p)) →
      Sound (Cmd.parseGroup f p) := by
    intro E _ f p hf
    unfold Cmd.parseGroup
    split
    · exact Sound.bind (hf _ _) fun _ => Sound.ok _
    · exact Sound.err (by decide)
  unfold Cmd.parse
  split
  · exact hg _ _ h1
  · exact hg _ _ h2
  · exact hg _ _ h3
  · exact hg _ _ h4
  · sound

theorem set_sound (c : AppConfig) (id : AppConfigTlvType) (v : Bytes) : Sound (c.set id v) := by
  have h0 : ∀ {α : Type} (o : Option α) (k : α → AppConfig), Sound (AppConfig.assign c o k) := by
    intro α o k; unfold AppConfig.assign; sound
  have h1 : ∀ m v, Sound (AppConfig.parseMac m v) := by
    intro m v; unfold AppConfig.parseMac; sound
  have h2 : ∀ m n v, Sound (AppConfig.parseDst m n v) := by
    intro m n v; unfold AppConfig.parseDst; sound
  unfold AppConfig.set
  split
  · rename_i p _
    cases p <;> first
      | exact h0 _ _
      | exact Sound.bind (h1 _ _) fun _ => h0 _ _
      | exact Sound.bind (h2 _ _ _) fun _ => h0 _ _
      | (unfold AppConfig.setParam; sound)
  · exact Sound.ok _

theorem setLoop_sound (c : AppConfig) (l : List AppConfigTlv) : Sound (Device.setAppConfigLoop c l) := by
  induction l generalizing c with
  | nil => exact Sound.ok _
  | cons t l ih => exact Sound.bind (set_sound _ _ _) fun _ => Sound.bind (ih _) fun _ => Sound.ok _

theorem release_sound {d : Device} (h : 0 < d.nActive) : Sound d.releaseActive := by
  obtain ⟨x, hx⟩ := releaseActive_ok h
  rw [hx]; exact Sound.ok _

theorem exec_sound {d : Device} (hi : DevInv d) (tid : Nat) (c : Cmd) : Sound (d.exec tid c) := by
  cases c with
  | coreGetDeviceInfo =>
    show Sound d.coreGetDeviceInfo
    unfold Device.coreGetDeviceInfo; sound
  | coreSetConfig ps =>
    show Sound (d.coreSetConfig ps)
    unfold Device.coreSetConfig; sound
  | sessionDeinit sid =>
    unfold Device.exec Device.sessionDeinit
    dsimp only
    split
    · rename_i s hs
      by_cases ha : s.state = .sessionStateActive
      · rw [if_pos ha]; exact Sound.bind (release_sound (nActive_pos hi hs ha)) fun _ => Sound.ok _
      · rw [if_neg ha]; exact Sound.bind (Sound.ok _) fun _ => Sound.ok _
    · exact Sound.ok _
  | sessionSetAppConfig sid tlvs =>
    unfold Device.exec Device.sessionSetAppConfig
    dsimp only
    split
    · exact Sound.ok _
    · refine Sound.ite (Sound.err (by decide)) (Sound.ite (Sound.ok _) (Sound.ite (Sound.ok _) ?_))
      refine Sound.bind (setLoop_sound _ _) fun _ => ?_
      sound
  | sessionStart sid =>
    show Sound (d.sessionStart tid sid)
    unfold Device.sessionStart; sound
  | sessionStop sid =>
    unfold Device.exec Device.sessionStop
    dsimp only
    split
    · exact Sound.ok _
    · rename_i s hs
      by_cases ha : s.state = .sessionStateActive
      · rw [if_neg (by simp [ha])]
        have hp : 0 < d.nActive := nActive_pos hi hs ha
        exact Sound.bind (release_sound hp) fun _ => Sound.ok _
      · rw [if_pos ha]; exact Sound.ok _
  | _ => exact Sound.ok _

theorem receive_sound {d : Device} (hi : DevInv d) (tid : Nat) (b : Bytes) : Sound (d.receivePacket tid b) := by
  have hsend : ∀ {α : Type} (p : Packet) (x : α), Sound (Device.sending p x) := by
    intro α p x; unfold Device.sending; sound
  have hdata : ∀ p, Sound (d.dataMessageSnd p) := by
    intro p
    have hs : ∀ (s : Session) m, Sound (s.dataMessageSnd m) := by
      intro s m; unfold Session.dataMessageSnd; sound
    unfold Device.dataMessageSnd
    split
    · split
      · exact Sound.err (by decide)
      · split
        · exact Sound.bind (hs _ _) fun _ => Sound.ok _
        · exact Sound.ok _
    · sound
  have hcmd : ∀ p, Sound (d.receiveCommand tid p) := by
    intro p
    unfold Device.receiveCommand
    refine Sound.ite (Sound.ok _) (Sound.bind (parse_sound _ _) fun o => ?_)
    split
    · exact Sound.bind (exec_sound hi _ _) fun _ => Sound.ok _
    · sound
  unfold Device.receivePacket
  split
  · exact Sound.err (by decide)
  · split
    · split
      · exact Sound.bind (hdata _) fun _ => hsend _ _
      · exact Sound.ok _
    · split
      · sound
      · exact Sound.bind (hcmd _) fun _ => hsend _ _
    · exact Sound.ok _

theorem ranging_sound (p : Pica) (env : Env) (h : Nat) (sid : UInt32) : Sound (p.ranging env h sid) := by
  have hm : ∀ m l r, Sound (Pica.makeMeasurement m l r) := by
    intro m l r; unfold Pica.makeMeasurement; sound
  have hs : ∀ a h p, Sound (Pica.sendUnwrap a h p) := by
    intro a h p; unfold Pica.sendUnwrap; sound
  have ha : ∀ l x, Sound (Pica.anchorMeasurements env.estimate p.anchors x l) := by
    intro l x
    induction l with
    | nil => exact Sound.ok _
    | cons a l ih =>
      unfold Pica.anchorMeasurements
      split
      · exact ih
      · split
        · exact Sound.bind (hm _ _ _) fun _ => Sound.bind ih fun _ => Sound.ok _
        · exact ih
  have hd : ∀ (s : Session) l, Sound (Pica.dataSends env.alive sid s l) := by
    intro s l
    induction l with
    | nil => exact Sound.ok _
    | cons q l ih =>
      unfold Pica.dataSends
      split
      · exact Sound.err (by decide)
      · exact Sound.bind (hs _ _ _) fun _ => Sound.bind ih fun _ => Sound.ok _
  have hc : ∀ (q : Device) (s : Session), Sound (q.canStartRanging s sid) := by
    intro q s; unfold Device.canStartRanging AppConfig.isCompatibleForRanging; sound
  have hp : ∀ (s : Session) x y b l, Sound (Pica.peerLoop env.estimate x y sid s b l) := by
    intro s x y b l
    induction l with
    | nil => exact Sound.ok _
    | cons q l ih =>
      unfold Pica.peerLoop
      refine Sound.ite ih (Sound.bind (hc _ _) fun _ => ?_)
      refine Sound.ite ?_ (Sound.bind ih fun _ => Sound.ok _)
      split
      · exact Sound.err (by decide)
      · split
        · exact Sound.bind (hm _ _ _) fun _ => Sound.bind ih fun _ => Sound.ok _
        · exact ih
  unfold Pica.ranging
  split
  · exact Sound.err (by decide)
  · split
    · exact Sound.err (by decide)
    · refine Sound.bind (ha _ _) fun _ => Sound.bind (hp _ _ _ _ _) fun _ => Sound.bind (hd _ _) fun _ => ?_
      refine Sound.ite (Sound.bind (hs _ _ _) fun _ => ?_) ?_
      · sound
      · sound

theorem no_underflow {p : Pica} (hp : p.PInv) (env : Env) (c : Command) : p.step env c ≠ .error .underflow := by
  suffices h : Sound (p.step env c) from h.ne
  cases c with
  | ranging h sid => exact ranging_sound p env h sid
  | createAnchor mac =>
    show Sound (p.createAnchor mac)
    unfold Pica.createAnchor; sound
  | uciPacket h b =>
    show Sound (p.uciPacket env h b)
    unfold Pica.uciPacket
    split
    · exact Sound.ok _
    · rename_i d hd
      exact Sound.bind (receive_sound (hp.dev h d hd).2.2.2 _ _) fun _ => Sound.ok _
  | _ => exact Sound.ok _

end Pica
