import Verif.Proofs.Receive
import Verif.Proofs.Examples
/-! C13-C17 and C24: how the packets of a host are dispatched. -/

set_option linter.dupNamespace false

namespace Pica.Props
open Spec

/-- A packet to a device that exists, in terms of the device. -/
theorem uci_step {p : Pica} {env : Env} {h : Nat} {bytes : Bytes} {d : Device} (hd : p.devices.get? h = some d) :
    p.step env (.uciPacket h bytes) = (match d.receivePacket env.tid bytes with
      | .error x => .error x
      | .ok (d', r, e) => .ok ({ p with devices := p.devices.insert h d' },
          (r.map (.send h)).toList ++ e.map (.effect h))) := by
  unfold Pica.step Pica.uciPacket
  simp only [hd, bind, Except.bind]
  cases d.receivePacket env.tid bytes <;> rfl

theorem uci_absent {p : Pica} {env : Env} {h : Nat} {bytes : Bytes} (hd : p.devices.get? h = none) :
    p.step env (.uciPacket h bytes) = .ok (p, []) := by
  show p.uciPacket env h bytes = _
  unfold Pica.uciPacket
  rw [hd]

/-- C13: a command packet that does not abort the emulator is answered by a reset device with exactly
one packet, and that packet is a response with the group and opcode of the command. -/
theorem C13_one_answer (p p' : Pica) (env : Env) (h : Nat) (d : Device) (b₀ : UInt8) (rest : Bytes) (out : List Out)
    (hd : p.devices.get? h = some d) (hr : d.isReset = true) (hb : b₀.toNat / 32 = 1)
    (hs : p.step env (.uciPacket h (b₀ :: rest)) = .ok (p', out)) :
    ∃ b₁ rest' r, ∃ es : List Effect, rest = b₁ :: rest' ∧ out = .send h r :: es.map (.effect h) ∧
      ∃ c₀ c₁ body, r.encode = some (c₀ :: c₁ :: body) ∧ c₀.toNat / 32 = 2 ∧ c₀.toNat % 16 = b₀.toNat % 16 ∧
        c₁.toNat % 64 = b₁.toNat % 64 := by
  rw [uci_step hd] at hs
  cases hx : d.receivePacket env.tid (b₀ :: rest) with
  | error x => rw [hx] at hs; cases hs
  | ok y =>
    obtain ⟨d', r, e⟩ := y
    rw [hx] at hs
    cases hs
    have hrcv := receive_ok hx
    generalize hbs : b₀ :: rest = bytes at hrcv
    cases hrcv with
    | ignored _ hi => exact absurd hb (hi _ _ hbs.symm)
    | refused b r q hq _ =>
      cases hbs
      obtain ⟨b₁, rest', rfl, hq⟩ := hq
      exact ⟨b₁, rest', q, [], rfl, rfl, hq⟩
    | early _ _ hn => rw [hr] at hn; cases hn
    | cmd _ c _ rsp _ hc _ hexec hfit =>
      obtain ⟨-, x₀, x₁, x₂, x₃, hl, h0, h1, h2⟩ := hc
      rw [hl] at hbs
      cases hbs
      refine ⟨x₁, _, _, _, rfl, rfl, _, _, _, (C48_rsp_bytes rsp _).mpr ⟨hfit, rfl⟩, ?_⟩
      rw [h1, h2, exec_code hexec]
      cases c <;> (simp only [cmdCode]; decide)
    | snd _ m _ _ hm =>
      obtain ⟨-, x₀, _, _, _, hl, h0, -⟩ := hm
      rw [hl] at hbs; cases hbs; omega
    | rcv _ m hm =>
      obtain ⟨-, x₀, _, _, _, hl, h0, -⟩ := hm
      rw [hl] at hbs; cases hbs; omega

/-- C14: before CORE_DEVICE_RESET every other command of an assigned group is answered with
CORE_DEVICE_STATUS_NTF(DEVICE_STATE_ERROR) and nothing changes. A packet is a CORE_DEVICE_RESET for this
purpose when its group and opcode are 0 and it has a full header. -/
theorem C14_reset_first (p : Pica) (env : Env) (h : Nat) (d : Device) (b₀ : UInt8) (rest : Bytes)
    (hd : p.devices.get? h = some d) (hr : d.isReset = false) (hb : b₀.toNat / 32 = 1)
    (hg : b₀.toNat % 16 ∉ reservedGroups)
    (hnr : ¬(b₀.toNat % 16 = 0 ∧ ∃ b₁ r₂ r₃ q, rest = b₁ :: r₂ :: r₃ :: q ∧ b₁.toNat % 64 = 0)) :
    p.step env (.uciPacket h (b₀ :: rest)) = .ok (p, [.send h (.ntf (.coreDeviceStatus .deviceStateError))]) ∧
    (Packet.ntf (.coreDeviceStatus .deviceStateError)).encode = some [0x60, 0x01, 0, 0, 0xff] := by
  refine ⟨?_, by decide⟩
  rw [uci_step hd, recv_notReset hr hb hg hnr]
  dsimp only
  rw [AMap.insert_self hd]
  rfl

/-- C14: so until its reset a device is exactly as it was when it connected. -/
theorem C14_untouched (p : Pica) (hp : p.Reachable) (h : Nat) (d : Device) (hd : p.devices.get? h = some d)
    (hr : d.isReset = false) :
    d = { isReset := false, handle := h, macAddress := Pica.deviceMac h, config := .default, state := .deviceStateReady,
          sessions := [], countryCode := ⟨[0, 0], rfl⟩, nActive := 0 } := by
  obtain ⟨h1, -, h2, hi⟩ := (Pica.reachable_inv hp).dev h d hd
  obtain ⟨f1, f2, f3, f4⟩ := hi.fresh hr
  have hst := hi.state
  rw [f4] at hst
  obtain ⟨r, hh, m, c, s, ss, cc, n⟩ := d
  dsimp only at *
  subst h1 h2 f1 f2 f3 f4 hr hst
  rfl

/-- C15: responses and notifications from the host change nothing and are not answered. -/
theorem C15_ignored (p : Pica) (env : Env) (h : Nat) (b₀ : UInt8) (rest : Bytes)
    (hb : b₀.toNat / 32 = 2 ∨ b₀.toNat / 32 = 3) :
    p.step env (.uciPacket h (b₀ :: rest)) = .ok (p, []) := by
  cases hd : p.devices.get? h with
  | none => exact uci_absent hd
  | some d =>
    rw [uci_step hd, recv_ignored hb]
    dsimp only
    rw [AMap.insert_self hd]
    rfl

/-- C16 does not hold: a reset device does not survive a core command with an unassigned opcode. -/
theorem C16_false : ∃ p : Pica, p.Reachable ∧ ∃ env bytes x, p.step env (.uciPacket 0 bytes) = .error x :=
  ⟨Ex.after [(Ex.env, .connect), Ex.pkt 0 Ex.reset], Ex.after_reachable _ (by decide +kernel), Ex.env,
    [0x20, 0x3f, 0, 0], .parseChild, Ex.panics_eq (by decide +kernel)⟩

/-- C16, as far as it holds: exactly the packets described by `Spec.Aborts` stop the emulator; every
other packet is survived. -/
theorem C16_partial (p : Pica) (hp : p.Reachable) (env : Env) (h : Nat) (bytes : Bytes) :
    (∃ x, p.step env (.uciPacket h bytes) = .error x) ↔ ∃ d, p.devices.get? h = some d ∧ Aborts d bytes := by
  cases hd : p.devices.get? h with
  | none =>
    have : p.step env (.uciPacket h bytes) = .ok (p, []) := uci_absent hd
    simp [this]
  | some d =>
    have hi := ((Pica.reachable_inv hp).dev h d hd).2.2.2
    rw [uci_step hd]
    have key := receive_error_iff (tid := env.tid) (bytes := bytes) hi
    constructor
    · rintro ⟨x, hx⟩
      refine ⟨d, rfl, key.mp ?_⟩
      cases hr : d.receivePacket env.tid bytes with
      | error y => exact ⟨y, rfl⟩
      | ok y => rw [hr] at hx; cases hx
    · rintro ⟨_, he, ha⟩
      cases he
      obtain ⟨x, hx⟩ := key.mpr ha
      exact ⟨x, by rw [hx]⟩

/-- C16, for the commands that are well formed: before the reset none of them stops the emulator, and after
it exactly those listed by `Spec.Fatal`. -/
theorem C16_commands_partial (p : Pica) (hp : p.Reachable) (env : Env) (h : Nat) (d : Device)
    (hd : p.devices.get? h = some d) (bytes : Bytes) (c : Cmd) (hc : IsCmd bytes c) :
    (∃ x, p.step env (.uciPacket h bytes) = .error x) ↔ d.isReset = true ∧ Fatal d c := by
  rw [C16_partial p hp]
  constructor
  · rintro ⟨_, he, ha⟩
    cases hd.symm.trans he
    obtain ⟨x₀, x₁, x₂, x₃, hl, h0, h1, h2⟩ := hc.2
    have uniq : ∀ c', IsCmd bytes c' → c' = c := by
      intro c' hc'
      obtain ⟨q, hq, -, hp1⟩ := isCmd_iff.mp hc
      obtain ⟨q', hq', -, hp2⟩ := isCmd_iff.mp hc'
      cases hq.symm.trans hq'
      cases hp1.symm.trans hp2
      rfl
    have hg : ∀ l : List Nat, x₀.toNat % 16 ∈ l → l = supportedGroups ∨ l = reservedGroups ∨ l = otherGroups →
        l = supportedGroups := by
      intro l hl hcase
      rw [h1] at hl
      rcases hcase with rfl | rfl | rfl
      · rfl
      · exfalso; revert hl; cases c <;> (simp only [cmdCode]; decide)
      · exfalso; revert hl; cases c <;> (simp only [cmdCode]; decide)
    generalize hbs : bytes = bs at ha
    cases ha with
    | empty => rw [hl] at hbs; cases hbs
    | headerOnly b hb => rw [hl] at hbs; cases hbs
    | short b r i1 i2 i3 i4 => rw [hl] at hbs; cases hbs; simp only [List.length_cons] at i4; omega
    | badSnd b _ _ _ r i1 => rw [hl] at hbs; cases hbs; omega
    | badRcv b _ _ _ r i1 => rw [hl] at hbs; cases hbs; omega
    | badCommand b r i1 i2 i3 i4 => rw [hbs] at hc; exact absurd hc (i4 c)
    | badReset b _ _ _ r i1 i2 i3 i4 i5 => rw [hbs] at hc; exact absurd hc (i5 c)
    | fatal _ c' i1 i2 i3 =>
      rw [hbs] at uniq
      cases uniq c' i2
      exact ⟨i1, i3⟩
  · rintro ⟨hr, hf⟩
    exact ⟨d, hd, .fatal _ c hr hc hf⟩

/-- C17: a command with a reserved group is answered with UNKNOWN_GID, whatever the state of the device. -/
theorem C17_reserved (p : Pica) (env : Env) (h : Nat) (d : Device) (b₀ b₁ : UInt8) (rest : Bytes)
    (hd : p.devices.get? h = some d) (hb : b₀.toNat / 32 = 1) (hg : b₀.toNat % 16 ∈ reservedGroups) :
    ∃ r : Packet, p.step env (.uciPacket h (b₀ :: b₁ :: rest)) = .ok (p, [.send h r]) ∧
      r.encode = some [0x40 + b₀ % 16, b₁ % 64, 0, 1, 0x07] := by
  rw [uci_step hd, (recv_undecodable (.inr ⟨hb, hg⟩)).1]
  refine ⟨.raw [0x40 ||| (b₀ &&& 0xf), b₁ &&& 0x3f, 0, 1, (undecodable b₀).code], ?_, ?_⟩
  · dsimp only
    rw [AMap.insert_self hd]
    rfl
  · have e1 : 0x40 ||| (b₀ &&& 0xf) = 0x40 + b₀ % 16 :=
      forall_u8 (P := fun b => 0x40 ||| (b &&& 0xf) = 0x40 + b % 16) (by decide +kernel) b₀
    have e2 : b₁ &&& 0x3f = b₁ % 64 :=
      forall_u8 (P := fun b => b &&& 0x3f = b % 64) (by decide +kernel) b₁
    rw [e1, e2, undecodable, if_pos hg]
    rfl

/-- C17: a packet of an unknown message type is answered as if it were a command the emulator does not know: with UNKNOWN_GID for
a reserved group and UNKNOWN_OID for any other. -/
theorem C17_type (p : Pica) (env : Env) (h : Nat) (d : Device) (b₀ b₁ : UInt8) (rest : Bytes)
    (hd : p.devices.get? h = some d) (hb : 4 ≤ b₀.toNat / 32) :
    ∃ r : Packet, p.step env (.uciPacket h (b₀ :: b₁ :: rest)) = .ok (p, [.send h r]) ∧
      r.encode = some [0x40 + b₀ % 16, b₁ % 64, 0, 1, if b₀.toNat % 16 ∈ reservedGroups then 0x07 else 0x08] := by
  rw [uci_step hd, (recv_undecodable (.inl hb)).1]
  refine ⟨.raw [0x40 ||| (b₀ &&& 0xf), b₁ &&& 0x3f, 0, 1, (undecodable b₀).code], ?_, ?_⟩
  · dsimp only
    rw [AMap.insert_self hd]
    rfl
  · have e1 : 0x40 ||| (b₀ &&& 0xf) = 0x40 + b₀ % 16 :=
      forall_u8 (P := fun b => 0x40 ||| (b &&& 0xf) = 0x40 + b % 16) (by decide +kernel) b₀
    have e2 : b₁ &&& 0x3f = b₁ % 64 :=
      forall_u8 (P := fun b => b &&& 0x3f = b % 64) (by decide +kernel) b₁
    rw [e1, e2, undecodable]
    split <;> rfl

/-- C17: a command with an assigned group that is not supported is answered with UNKNOWN_GID by a reset
device; the second and third byte are those of the command. -/
theorem C17_unsupported (p : Pica) (env : Env) (h : Nat) (d : Device) (b₀ b₁ b₂ : UInt8) (rest : Bytes)
    (hd : p.devices.get? h = some d) (hr : d.isReset = true) (hb : b₀.toNat / 32 = 1)
    (hg : b₀.toNat % 16 ∈ otherGroups) :
    ∃ r : Packet, p.step env (.uciPacket h (b₀ :: b₁ :: b₂ :: rest)) = .ok (p, [.send h r]) ∧
      r.encode = some [0x40 + b₀ % 16, b₁, b₂, 1, 0x07] := by
  obtain ⟨g, hc, he⟩ := (recv_other (tid := env.tid) hr hb hg).1 b₁ b₂ rest rfl
  rw [uci_step hd, he]
  refine ⟨.control ⟨g, .response, [b₁, b₂, 1, Status.unknownGid.code]⟩, ?_, ?_⟩
  · dsimp only
    rw [AMap.insert_self hd]
    rfl
  · have e1 : ControlPacket.header g .response = 0x40 + b₀ % 16 := by
      apply UInt8.toNat_inj.mp
      have h1 : (ControlPacket.header g .response).toNat = 64 + g.code.toNat := by cases g <;> decide
      rw [h1, hc, UInt8.toNat_add, UInt8.toNat_mod]
      show 64 + b₀.toNat % 16 = (64 + b₀.toNat % 16) % 256
      omega
    show some (ControlPacket.header g .response :: _) = _
    rw [e1]
    rfl

/-- C24: a packet of a host whose device is gone changes nothing and does no harm. -/
theorem C24_absent (p : Pica) (env : Env) (h : Nat) (bytes : Bytes) (hd : p.devices.get? h = none) :
    p.step env (.uciPacket h bytes) = .ok (p, []) := uci_absent hd

example : (Pica.new).devices.get? 3 = none := rfl

/-- C24: a packet from one host changes only its own device, and everything that happens concerns it. -/
theorem C24_devices_independent (p p' : Pica) (env : Env) (h : Nat) (bytes : Bytes) (out : List Out)
    (hs : p.step env (.uciPacket h bytes) = .ok (p', out)) :
    p'.anchors = p.anchors ∧ p'.counter = p.counter ∧
    (∀ x, x ≠ h → p'.devices.get? x = p.devices.get? x) ∧
    (p.devices.get? h = none → p' = p ∧ out = []) ∧ (p.devices.get? h ≠ none → p'.devices.get? h ≠ none) ∧
    ∀ o ∈ out, (∃ r, o = .send h r) ∨ ∃ e, o = .effect h e := by
  cases hd : p.devices.get? h with
  | none =>
    have : p.step env (.uciPacket h bytes) = .ok (p, []) := uci_absent hd
    rw [this] at hs
    cases hs
    simp [hd]
  | some d =>
    rw [uci_step hd] at hs
    cases hr : d.receivePacket env.tid bytes with
    | error x => rw [hr] at hs; cases hs
    | ok y =>
      obtain ⟨d', r, e⟩ := y
      rw [hr] at hs
      cases hs
      refine ⟨rfl, rfl, ?_, by simp, ?_, ?_⟩
      · intro x hx
        show (p.devices.insert h d').get? x = _
        rw [AMap.get?_insert, if_neg (Ne.symm hx)]
      · intro _
        show (p.devices.insert h d').get? h ≠ none
        rw [AMap.get?_insert, if_pos rfl]
        simp
      · intro o ho
        rcases List.mem_append.mp ho with ho | ho
        · cases r with
          | none => cases ho
          | some r => rw [List.mem_singleton.mp ho]; exact .inl ⟨r, rfl⟩
        · obtain ⟨x, -, rfl⟩ := List.mem_map.mp ho
          exact .inr ⟨x, rfl⟩

/-! ### The hypotheses can be met -/

/-- C13 for a START of an idle session on a machine with two devices. -/
example : ∃ (p : Pica) (d : Device) (p' : Pica) (out : List Out), p.Reachable ∧ p.devices.get? 0 = some d ∧ d.isReset = true ∧
    p.step Ex.env (.uciPacket 0 (Ex.start 9)) = .ok (p', out) ∧ out.length = 3 := by
  have key : (((Ex.after Ex.twoActive).devices.get? 0).map (·.isReset)) = some true ∧
      (((Ex.after Ex.twoActive).step Ex.env (.uciPacket 0 (Ex.start 9))).toOption.map (·.2.length)) = some 3 := by
    decide +kernel
  obtain ⟨k1, k2⟩ := key
  obtain ⟨d, hd, hr⟩ := Option.map_eq_some_iff.mp k1
  obtain ⟨⟨p', out⟩, ho, hl⟩ := Ex.exists_ok k2
  exact ⟨_, d, p', out, Ex.after_reachable _ Ex.twoActive_ok, hd, hr, ho, hl⟩

/-- C14: a device before its reset. -/
example : ((Ex.after [(Ex.env, .connect)]).devices.get? 0).map (·.isReset) = some false := by decide +kernel

/-- C17: types 4 to 7, with a reserved group and with another. -/
example : 4 ≤ (0x84 : UInt8).toNat / 32 ∧ (0x84 : UInt8).toNat % 16 ∈ reservedGroups ∧ 4 ≤ (0xe1 : UInt8).toNat / 32 ∧
    (0xe1 : UInt8).toNat % 16 ∉ reservedGroups := by decide

/-- C16: both sides occur. -/
example : Aborts (Device.new 0 (Pica.deviceMac 0)) [0x01, 0, 0, 0, 9] :=
  .badSnd _ _ _ _ _ rfl rfl (by
    rintro m ⟨-, _, _, _, _, h, -⟩
    simp only [List.cons.injEq] at h
    have := congrArg List.length h.2.2.2.2
    simp [u32le, leBytes] at this)

end Pica.Props
