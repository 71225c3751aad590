import Verif.Proofs.Underflow
import Verif.Proofs.Ranging
import Verif.Proofs.Connection
import Verif.Proofs.System
import Verif.Proofs.Book
import Verif.Props.Params
import Verif.Spec.Panics
/-! The panics a command may end in. -/

namespace Pica
open Spec SessionState

/-- The outcome is a value or one of these panics. -/
structure Only (l : List Panic) {α : Type} (x : Except Panic α) : Prop where
  mem : ∀ e, x = .error e → e ∈ l

variable {l : List Panic} {α β : Type}

theorem Only.ok (a : α) : Only l (.ok a : Except Panic α) := ⟨by rintro e ⟨⟩⟩

theorem Only.err {x : Panic} (h : x ∈ l) : Only l (.error x : Except Panic α) := ⟨by rintro e ⟨⟩; exact h⟩

theorem Only.bind {x : Except Panic α} {f : α → Except Panic β} (h : Only l x) (hf : ∀ a, x = .ok a → Only l (f a)) :
    Only l (x >>= f) := by
  cases x with
  | error e => exact ⟨fun e' he => h.mem e' (by cases he; rfl)⟩
  | ok a => exact hf a rfl

theorem Only.ite {c : Prop} [Decidable c] {x y : Except Panic α} (h : Only l x) (h' : Only l y) :
    Only l (if c then x else y) := by
  split <;> assumption

theorem Only.mono {m : List Panic} {x : Except Panic α} (h : Only l x) (hm : ∀ e ∈ l, e ∈ m) : Only m x :=
  ⟨fun e he => hm e (h.mem e he)⟩

macro "only" : tactic => `(tactic| repeat (first
  | exact Only.ok _
  | exact Only.err (by decide)
  | assumption
  | apply Only.ite
  | (refine Only.bind ?_ ?_)
  | intro _
  | split))

/-- The panics of the parser of commands. -/
def parsePanics : List Panic := [.parseChild, .unsupportedOid]

theorem parse_only (gid : GroupId) (b : Bytes) : Only parsePanics (Cmd.parse gid b) := by
  have hc : ∀ {α : Type} (c : Codec α) (p : Bytes) (k : α → Cmd), Only parsePanics (Cmd.child c p k) := by
    intro α c p k; unfold Cmd.child; only
  have hu : ∀ {α : Type} (c : Codec α) (p : Bytes), Only parsePanics (Cmd.unsupported c p) := by
    intro α c p; unfold Cmd.unsupported; only
  have h1 : ∀ o p, Only parsePanics (Cmd.parseCore o p) := by
    intro o p; cases o <;> first | exact hc _ _ _ | exact hu _ _ | exact Only.err (by decide)
  have h2 : ∀ o p, Only parsePanics (Cmd.parseSessionConfig o p) := by
    intro o p; cases o <;> first | exact hc _ _ _ | exact hu _ _ | exact Only.err (by decide)
  have h3 : ∀ o p, Only parsePanics (Cmd.parseSessionControl o p) := by
    intro o p; cases o <;> first | exact hc _ _ _ | exact hu _ _ | exact Only.err (by decide)
  have h4 : ∀ o p, Only parsePanics (Cmd.parseAndroid o p) := by
    intro o p; cases o <;> first | exact hc _ _ _ | exact hu _ _ | exact Only.err (by decide)
  have hg : ∀ {E : Type} [WireEnum E] (f : E → Bytes → Except Panic Cmd) (p : Bytes), (∀ o p, Only parsePanics (f o p)) →
      Only parsePanics (Cmd.parseGroup f p) := by
    intro E _ f p hf
    unfold Cmd.parseGroup
    split
    · exact Only.bind (hf _ _) fun _ _ => Only.ok _
    · exact Only.err (by decide)
  unfold Cmd.parse
  split
  · exact hg _ _ h1
  · exact hg _ _ h2
  · exact hg _ _ h3
  · exact hg _ _ h4
  · only

/-- The panics of the handlers. -/
def execPanics : List Panic := [.deviceNotReady, .sessionType, .macMode1, .rangingTaskPresent]

theorem set_only (c : AppConfig) (id : AppConfigTlvType) (v : Bytes) : Only execPanics (c.set id v) := by
  have h0 : ∀ {α : Type} (o : Option α) (k : α → AppConfig), Only execPanics (AppConfig.assign c o k) := by
    intro α o k; unfold AppConfig.assign; only
  have h1 : ∀ m v, Only execPanics (AppConfig.parseMac m v) := by
    intro m v; unfold AppConfig.parseMac; only
  have h2 : ∀ m n v, Only execPanics (AppConfig.parseDst m n v) := by
    intro m n v; unfold AppConfig.parseDst; only
  unfold AppConfig.set
  split
  · rename_i p _
    cases p <;> first
      | exact h0 _ _
      | exact Only.bind (h1 _ _) fun _ _ => h0 _ _
      | exact Only.bind (h2 _ _ _) fun _ _ => h0 _ _
      | (unfold AppConfig.setParam; only)
  · exact Only.ok _

theorem setLoop_only (c : AppConfig) (l : List AppConfigTlv) : Only execPanics (Device.setAppConfigLoop c l) := by
  induction l generalizing c with
  | nil => exact Only.ok _
  | cons t l ih => exact Only.bind (set_only _ _ _) fun _ _ => Only.bind (ih _) fun _ _ => Only.ok _

theorem release_only {d : Device} (h : 0 < d.nActive) : Only l d.releaseActive := by
  obtain ⟨x, hx⟩ := releaseActive_ok h
  rw [hx]; exact Only.ok _

theorem exec_only {d : Device} (hi : DevInv d) (tid : Nat) (c : Cmd) : Only execPanics (d.exec tid c) := by
  cases c with
  | coreGetDeviceInfo =>
    show Only execPanics d.coreGetDeviceInfo
    unfold Device.coreGetDeviceInfo; only
  | coreSetConfig ps =>
    show Only execPanics (d.coreSetConfig ps)
    unfold Device.coreSetConfig; only
  | sessionDeinit sid =>
    unfold Device.exec Device.sessionDeinit
    dsimp only
    split
    · rename_i s hs
      by_cases ha : s.state = .sessionStateActive
      · rw [if_pos ha]; exact Only.bind (release_only (nActive_pos hi hs ha)) fun _ _ => Only.ok _
      · rw [if_neg ha]; exact Only.bind (Only.ok _) fun _ _ => Only.ok _
    · exact Only.ok _
  | sessionSetAppConfig sid tlvs =>
    unfold Device.exec Device.sessionSetAppConfig
    dsimp only
    split
    · exact Only.ok _
    · refine Only.ite (Only.err (by decide)) (Only.ite (Only.ok _) (Only.ite (Only.ok _) ?_))
      refine Only.bind (setLoop_only _ _) fun _ _ => ?_
      only
  | sessionStart sid =>
    show Only execPanics (d.sessionStart tid sid)
    unfold Device.sessionStart; only
  | sessionStop sid =>
    unfold Device.exec Device.sessionStop
    dsimp only
    split
    · exact Only.ok _
    · rename_i s hs
      by_cases ha : s.state = .sessionStateActive
      · rw [if_neg (by simp [ha])]
        have hp : 0 < d.nActive := nActive_pos hi hs ha
        exact Only.bind (release_only hp) fun _ _ => Only.ok _
      · rw [if_pos ha]; exact Only.ok _
  | _ => exact Only.ok _

/-- The panics a message with a complete header may cause. -/
def messagePanics : List Panic := [.deviceNotReady, .sessionType, .macMode1, .rangingTaskPresent, .encode, .parseChild, .unsupportedOid]

theorem receive_only {d : Device} (hi : DevInv d) (tid : Nat) (b : Bytes) (hb : 4 ≤ b.length) :
    Only messagePanics (d.receivePacket tid b) := by
  have hsend : ∀ {α : Type} (p : Packet) (x : α), Only messagePanics (Device.sending p x) := by
    intro α p x; unfold Device.sending; only
  have hdata : ∀ p, Only messagePanics (d.dataMessageSnd p) := by
    intro p
    unfold Device.dataMessageSnd
    split
    · split
      · exact Only.err (by decide)
      · split
        · rename_i m _ _ s hs
          refine Only.bind ?_ fun _ _ => Only.ok _
          unfold Session.dataMessageSnd
          split
          · exact Only.ok _
          · rw [if_neg (by rw [(hi.sess _ _ hs).id]; simp)]; exact Only.ok _
        · exact Only.ok _
    · only
  have hcmd : ∀ p, ControlPacket.decode b = some p → Only messagePanics (d.receiveCommand tid p) := by
    intro p hp
    unfold Device.receiveCommand
    refine Only.ite (Only.ok _) (Only.bind ((parse_only _ _).mono (by decide)) fun o _ => ?_)
    split
    · exact Only.bind ((exec_only hi _ _).mono (by decide)) fun _ _ => Only.ok _
    · split
      · exact Only.ok _
      · rename_i hn
        obtain ⟨b₀, b₁, b₂, r, rfl⟩ : ∃ b₀ b₁ b₂ r, b = b₀ :: b₁ :: b₂ :: r := by
          match b, hb with
          | b₀ :: b₁ :: b₂ :: r, _ => exact ⟨b₀, b₁, b₂, r, rfl⟩
        unfold ControlPacket.decode at hp
        simp only [Option.bind_eq_bind, Option.bind_eq_some_iff, Option.pure_def, Option.some.injEq] at hp
        obtain ⟨_, _, _, _, rfl⟩ := hp
        exact absurd rfl (hn b₁ b₂ r)
  unfold Device.receivePacket
  split
  · simp at hb
  · rename_i b₀ rest
    split
    · split
      · exact Only.bind (hdata _) fun _ _ => hsend _ _
      · exact Only.ok _
    · split
      · split
        · simp at hb
        · exact Only.ok _
      · rename_i p hp
        exact Only.bind (hcmd p hp) fun _ _ => hsend _ _
    · exact Only.ok _

/-- The panics a well formed command may cause. -/
def commandPanics : List Panic := [.deviceNotReady, .sessionType, .macMode1, .rangingTaskPresent, .encode]

theorem receive_cmd_only {d : Device} (hi : DevInv d) (tid : Nat) {b : Bytes} {c : Cmd} (hc : IsCmd b c) :
    Only commandPanics (d.receivePacket tid b) := by
  have hc' := hc
  obtain ⟨-, b₀, b₁, r₂, r₃, hb, h0, -⟩ := hc
  obtain ⟨p, hd, hm, hp⟩ := isCmd_iff.mp hc'
  have hmt : parseMessageType b₀ = .command := (parseMessageType_iff b₀).2.2.2.mpr (.inl h0)
  subst hb
  unfold Device.receivePacket
  simp only [hmt, hd]
  refine Only.bind ?_ fun _ _ => ?_
  · unfold Device.receiveCommand
    rw [hp]
    have hx : Only commandPanics (d.exec tid c) := (exec_only hi _ _).mono (by decide)
    exact Only.ite (Only.ok _) (show Only commandPanics (d.exec tid c >>= _) from Only.bind hx fun _ _ => Only.ok _)
  · unfold Device.sending; only

/-- The panics a round may cause. -/
def roundPanics : List Panic := [.noDevice, .noSession, .extendedAddress, .encode, .channelClosed, .overflow]

theorem ranging_only {p : Pica} (hp : p.Reachable) (env : Env) (h : Nat) (sid : UInt32) :
    Only roundPanics (p.ranging env h sid) := by
  have hi := Pica.reachable_inv hp
  have hmand : ∀ e ∈ p.devices, ∀ t, e.2.session sid = some t → t.state = sessionStateActive →
      t.appConfig.deviceMacAddress ≠ none := by
    intro e he t ht hta hn
    have hq := AMap.get?_of_mem hi.devNodup he
    have := (((hi.dev e.1 e.2 hq).2.2.2.sess sid t ht).configured (.inr hta)).2
    unfold Device.hasMandatory at this
    simp [hn] at this
  have hm : ∀ m l r, Only roundPanics (Pica.makeMeasurement m l r) := by
    intro m l r; unfold Pica.makeMeasurement; only
  have hs : ∀ a h p, Only roundPanics (Pica.sendUnwrap a h p) := by
    intro a h p; unfold Pica.sendUnwrap; only
  have ha : ∀ l x, Only roundPanics (Pica.anchorMeasurements env.estimate p.anchors x l) := by
    intro l x
    induction l with
    | nil => exact Only.ok _
    | cons a l ih =>
      unfold Pica.anchorMeasurements
      split
      · exact ih
      · split
        · exact Only.bind (hm _ _ _) fun _ _ => Only.bind ih fun _ _ => Only.ok _
        · exact ih
  unfold Pica.ranging
  split
  · exact Only.err (by decide)
  · rename_i d hd
    split
    · exact Only.err (by decide)
    · rename_i s hss
      have hfirst : s.appConfig.deviceMacAddress = none → s.appConfig.dstMacAddress = [] := by
        obtain ⟨tr, hr⟩ := hp
        exact Props.mac_first hr h d hd sid s hss
      have hpeer : ∀ x y b (l : List (Nat × Device)), (∀ e ∈ l, e ∈ p.devices) →
          Only roundPanics (Pica.peerLoop env.estimate x y sid s b (l.map Prod.snd)) := by
        intro x y b l
        induction l with
        | nil => intro _; exact Only.ok _
        | cons q l ih =>
          intro hl
          have ih := ih fun e he => hl e (.tail _ he)
          have hq := hmand q (hl q (.head _))
          rw [List.map_cons]
          unfold Pica.peerLoop
          refine Only.ite ih (Only.bind ?_ fun r hr => ?_)
          · unfold Device.canStartRanging
            split
            · rename_i t ht
              split
              · rename_i hta
                obtain ⟨r, hr⟩ := isCompatible_some (hq t ht hta) hfirst
                rw [hr]; exact Only.ok _
              · exact Only.ok _
            · exact Only.ok _
          · by_cases hrt : r = true
            · rw [if_pos hrt]
              obtain ⟨t, ht, hta, -⟩ := (canStart_ok hr).mp hrt
              split
              · rename_i hn
                have ht' : q.2.session sid = some t := ht
                rw [ht'] at hn
                exact absurd hn (hq t ht hta)
              · split
                · exact Only.bind (hm _ _ _) fun _ _ => Only.bind ih fun _ _ => Only.ok _
                · exact ih
            · rw [if_neg hrt]
              exact Only.bind ih fun _ _ => Only.ok _
      have hdata : ∀ ts, (s.appConfig.deviceMacAddress = none → ts = []) → Only roundPanics (Pica.dataSends env.alive sid s ts) := by
        intro ts
        induction ts with
        | nil => intro _; exact Only.ok _
        | cons q ts ih =>
          intro hn
          unfold Pica.dataSends
          split
          · rename_i hx; exact absurd (hn hx) (by simp)
          · rename_i mac hx
            exact Only.bind (hs _ _ _) fun _ _ => Only.bind (ih (by rw [hx]; simp)) fun _ _ => Only.ok _
      refine Only.bind (ha _ _) fun _ _ => Only.bind (hpeer _ _ _ p.devices fun _ he => he) fun z hz =>
        Only.bind (hdata _ ?_) fun _ _ => ?_
      · intro hn
        have hh := (hi.dev h d hd).1
        obtain ⟨ms, ts⟩ := z
        rw [hh] at hz
        obtain ⟨-, hts⟩ := peer_ok (mem_handle hi) hz
        rw [hts]
        show List.map _ _ = []
        rw [List.map_eq_nil_iff, List.filter_eq_nil_iff]
        intro e _ he
        have hsend : d.canStartDataTransfer sid = true := (by simpa only [decide_eq_true_eq] using he : Delivered ..).2.1
        obtain ⟨t, ht, hex⟩ := sends_iff.mp hsend
        have : some t = some s := ht.symm.trans hss
        cases this
        exact hmand (h, d) (AMap.mem_of_get? hd) s hss hex.1 hn
      · refine Only.ite (Only.bind (hs _ _ _) fun _ _ => ?_) ?_
        · only
        · only

theorem createAnchor_ne (p : Pica) (mac : MacAddress) (x : Panic) : p.createAnchor mac ≠ .error x := by
  intro h
  unfold Pica.createAnchor at h
  split at h
  · cases h
  · rename_i hk
    have hk : p.macKnown mac = false := by simpa using hk
    unfold Pica.macKnown at hk
    rw [Bool.or_eq_false_iff] at hk
    rw [if_neg (by simp [hk.1])] at h
    cases h

theorem step_only_cmd {p : Pica} (hp : p.Reachable) (env : Env) (c : Command)
    (hc : ∀ h b, c = .uciPacket h b → ∃ x, IsCmd b x) (x : Panic) (h : p.step env c = .error x) :
    (cause c, x) ∈ knownPanics := by
  have hi := Pica.reachable_inv hp
  cases c with
  | ranging h' sid =>
    have := (ranging_only hp env h' sid).mem x h
    have key : ∀ x ∈ roundPanics, (Cause.round, x) ∈ knownPanics := by decide
    exact key x this
  | createAnchor mac => exact absurd h (createAnchor_ne p mac x)
  | uciPacket h' b =>
    obtain ⟨c, hc⟩ := hc _ _ rfl
    have : Only commandPanics (p.uciPacket env h' b) := by
      unfold Pica.uciPacket
      split
      · exact Only.ok _
      · rename_i d hd
        exact Only.bind (receive_cmd_only (hi.dev h' d hd).2.2.2 _ hc) fun _ _ => Only.ok _
    have := this.mem x h
    have key : ∀ x ∈ commandPanics, (Cause.message, x) ∈ knownPanics := by decide
    exact key x this
  | _ => cases h

theorem step_only {p : Pica} (hp : p.Reachable) (env : Env) (c : Command) (hc : ∀ h b, c = .uciPacket h b → 4 ≤ b.length)
    (x : Panic) (h : p.step env c = .error x) : (cause c, x) ∈ knownPanics ++ malformedPanics := by
  have hi := Pica.reachable_inv hp
  cases c with
  | ranging h' sid =>
    have := (ranging_only hp env h' sid).mem x h
    have key : ∀ x ∈ roundPanics, (Cause.round, x) ∈ knownPanics ++ malformedPanics := by decide
    exact key x this
  | createAnchor mac => exact absurd h (createAnchor_ne p mac x)
  | uciPacket h' b =>
    have : Only messagePanics (p.uciPacket env h' b) := by
      unfold Pica.uciPacket
      split
      · exact Only.ok _
      · rename_i d hd
        exact Only.bind (receive_only (hi.dev h' d hd).2.2.2 _ _ (hc _ _ rfl)) fun _ _ => Only.ok _
    have := this.mem x h
    have key : ∀ x ∈ messagePanics, (Cause.message, x) ∈ knownPanics ++ malformedPanics := by decide
    exact key x this
  | _ => cases h

/-! ### Schedules -/

theorem message_length {stream b : Bytes} (h : b ∈ (reassemble none (readStream stream)).1) : 4 ≤ b.length := by
  obtain ⟨gs, rest, hg⟩ := readStream_grouped stream
  have := reassemble_grouped hg []
  rw [List.append_nil] at this
  rw [this] at h
  have hnil : ∀ a : Option Bytes, (reassemble a []).1 = [] := by intro a; unfold reassemble; rfl
  rw [hnil, List.append_nil] at h
  obtain ⟨g, hgm, rfl⟩ := List.mem_map.mp h
  obtain ⟨start, last, rfl, -, -⟩ := hg.complete g hgm
  have hlen : ∀ p ∈ readStream stream, 4 ≤ p.length := by
    obtain ⟨ms, r, h1, -, -, -⟩ := readStream_sound stream
    rw [h1]
    intro p hp
    obtain ⟨m, -, rfl⟩ := List.mem_map.mp hp
    simp [Msg.bytes]
  have hin : ∀ p ∈ start ++ [last], p ∈ readStream stream := by
    intro p hp
    rw [hg.all]
    exact List.mem_append_left _ (List.mem_flatten.mpr ⟨_, hgm, hp⟩)
  cases start with
  | nil =>
    have := hlen last (hin last (by simp))
    simp only [List.nil_append, joined, List.map_nil, List.flatten_nil, List.append_nil]
    exact this
  | cons p ps =>
    have := hlen p (hin p (by simp))
    simp only [List.cons_append, joined, List.length_append]
    omega

namespace System

/-- The messages in the queue were sent in the schedule. -/
theorem queue_sent {ls : List Label} {s : System} (h : Run .new ls s) :
    ∀ k b, Command.uciPacket k b ∈ s.queue → Label.packet k b ∈ ls := by
  generalize hn : System.new = n at h
  induction h with
  | nil => subst hn; intro k b hb; cases hb
  | step hr _ hs ih =>
    intro k b hb
    refine List.mem_append.mpr ?_
    have key : ∀ {q : List Command} {c : Command} {P : Prop}, (Command.uciPacket k b ∈ q → P) →
        (c = .uciPacket k b → P) → Command.uciPacket k b ∈ q ++ [c] → P := by
      intro q c P h1 h2 h
      rcases List.mem_append.mp h with h | h
      · exact h1 h
      · exact h2 (List.mem_singleton.mp h).symm
    cases hs with
    | request he _ => exact key (fun h => .inl (ih _ _ h)) (by rintro rfl; exact he.elim) hb
    | packet _ _ => exact key (fun h => .inl (ih _ _ h)) (by rintro ⟨⟩; exact .inr (.head _)) hb
    | closes _ => exact .inl (ih _ _ hb)
    | fails _ => exact .inl (ih _ _ hb)
    | leaves _ _ => exact key (fun h => .inl (ih _ _ h)) (by rintro ⟨⟩) hb
    | tick _ _ => exact key (fun h => .inl (ih _ _ h)) (by rintro ⟨⟩) hb
    | dies _ _ => exact .inl (ih _ _ hb)
    | inBand _ _ => exact key (fun h => .inl (ih _ _ h)) (by rintro ⟨⟩) hb
    | notifies _ => exact .inl (ih _ _ hb)
    | process hq _ =>
      rw [(applyAll_frame _ _).2.1] at hb
      exact .inl (ih _ _ (hq ▸ .tail _ hb))
    | panics hq _ => exact .inl (ih _ _ (hq ▸ .tail _ hb))
    | shuffle _ => exact .inl (ih _ _ hb)

end System

end Pica
