import Verif.Proofs.Dispatch
/-! What a device does with each kind of packet. -/

set_option linter.dupNamespace false

namespace Pica
open Spec Codec

theorem group_isSome (b : UInt8) : (WireEnum.ofU8? (E := GroupId) (b &&& 0xf)).isSome = decide (b.toNat % 16 ∉ reservedGroups) :=
  forall_u8 (P := fun b => (WireEnum.ofU8? (E := GroupId) (b &&& 0xf)).isSome = decide (b.toNat % 16 ∉ reservedGroups))
    (by decide +kernel) b

theorem control_decode_isSome (b : UInt8) (r : Bytes) :
    (ControlPacket.decode (b :: r)).isSome = decide (¬(4 ≤ b.toNat / 32 ∨ b.toNat % 16 ∈ reservedGroups)) := by
  have h1 : (ControlPacket.decode (b :: r)).isSome = (ControlPacket.decode [b]).isSome := by
    simp only [ControlPacket.decode, Option.bind_eq_bind, Option.pure_def]
    cases WireEnum.ofU8? (E := GroupId) (b &&& 0x0f) <;> simp
    cases WireEnum.ofU8? (E := MessageType) (b >>> 5) <;> simp
  rw [h1]
  exact forall_u8 (P := fun b => (ControlPacket.decode [b]).isSome =
    decide (¬(4 ≤ b.toNat / 32 ∨ b.toNat % 16 ∈ reservedGroups))) (by decide +kernel) b

theorem control_decode_none {b : UInt8} {r : Bytes} :
    ControlPacket.decode (b :: r) = none ↔ 4 ≤ b.toNat / 32 ∨ b.toNat % 16 ∈ reservedGroups := by
  have h := control_decode_isSome b r
  cases hd : ControlPacket.decode (b :: r) with
  | none =>
    rw [hd] at h
    have h' : ¬¬(4 ≤ b.toNat / 32 ∨ b.toNat % 16 ∈ reservedGroups) := of_decide_eq_false h.symm
    exact ⟨fun _ => Classical.not_not.mp h', fun _ => rfl⟩
  | some p =>
    rw [hd] at h
    have : ¬(4 ≤ b.toNat / 32 ∨ b.toNat % 16 ∈ reservedGroups) := of_decide_eq_true h.symm
    simpa using this

theorem control_decode_some {b : UInt8} {r : Bytes} (h1 : b.toNat / 32 = 1) (h2 : b.toNat % 16 ∉ reservedGroups) :
    ∃ g, ControlPacket.decode (b :: r) = some ⟨g, .command, r⟩ ∧ g.code.toNat = b.toNat % 16 := by
  cases hd : ControlPacket.decode (b :: r) with
  | none => rcases control_decode_none.mp hd with h | h <;> [omega; exact absurd h h2]
  | some p =>
    obtain ⟨h3, h4, h5⟩ := ControlPacket.decode_cons.mp hd
    obtain ⟨g, m, q⟩ := p
    dsimp only at h3 h4 h5
    subst h5
    have : m = .command := by
      rw [h1] at h4
      cases m <;> first | rfl | (exfalso; revert h4; decide)
    subst this
    exact ⟨g, rfl, h3.symm⟩

theorem group_of_code {g : GroupId} {n : Nat} (h : g.code.toNat = n) :
    (n ∈ supportedGroups ∧ (g = .core ∨ g = .sessionConfig ∨ g = .sessionControl ∨ g = .vendorAndroid)) ∨
    (n ∈ otherGroups ∧ g ≠ .core ∧ g ≠ .sessionConfig ∧ g ≠ .sessionControl ∧ g ≠ .vendorAndroid) := by
  subst h
  cases g <;> decide

theorem parse_other {g : GroupId} (h : g ≠ .core ∧ g ≠ .sessionConfig ∧ g ≠ .sessionControl ∧ g ≠ .vendorAndroid) (p : Bytes) :
    Cmd.parse g p = .ok none := by
  cases g <;> first | rfl | simp at h

theorem parse_supported {g : GroupId} (h : g = .core ∨ g = .sessionConfig ∨ g = .sessionControl ∨ g = .vendorAndroid)
    (p : Bytes) : Cmd.parse g p ≠ .ok none := by
  have key : ∀ {E : Type} [WireEnum E] (f : E → Bytes → Except Panic Cmd), Cmd.parseGroup f p ≠ .ok none := by
    intro E _ f
    unfold Cmd.parseGroup
    split
    · rename_i o q _
      cases f o q <;> simp [Except.map]
    · simp
  rcases h with rfl | rfl | rfl | rfl <;> exact key _

/-- The packets with the group and opcode of CORE_DEVICE_RESET. -/
def ResetShape (b : UInt8) (r : Bytes) : Prop :=
  b.toNat % 16 = 0 ∧ ∃ b₁ r₂ r₃ q, r = b₁ :: r₂ :: r₃ :: q ∧ b₁.toNat % 64 = 0

theorem isReset_iff {g : GroupId} {r : Bytes} : Device.isCoreDeviceResetCmd ⟨g, .command, r⟩ = true ↔
    g.code.toNat = 0 ∧ ∃ b₁ r₂ r₃ q, r = b₁ :: r₂ :: r₃ :: q ∧ b₁.toNat % 64 = 0 := by
  unfold Device.isCoreDeviceResetCmd
  dsimp only
  constructor
  · intro h
    split at h
    · rename_i hd
      refine ⟨rfl, ?_⟩
      unfold decodeOid at hd
      split at hd
      · rename_i b x y q
        obtain ⟨o, ho, he⟩ := Option.map_eq_some_iff.mp hd
        cases he
        have := WireEnum.ofU8?_eq_some.mp ho
        exact ⟨b, x, y, _, rfl, and_3f_eq.mp this.symm⟩
      · cases hd
    · cases h
  · rintro ⟨hg, b₁, r₂, r₃, q, rfl, hb⟩
    have hgid : g = .core := by revert hg; cases g <;> decide
    subst hgid
    have : decodeOid CoreOpcodeId (b₁ :: r₂ :: r₃ :: q) = some (.deviceReset, q) := by
      have hb' : b₁ &&& 0x3f = 0 := and_3f_eq.mpr hb
      simp only [decodeOid, hb']; rfl
    rw [this]

theorem recv_ignored {d : Device} {tid : Nat} {b : UInt8} {r : Bytes} (h : b.toNat / 32 = 2 ∨ b.toNat / 32 = 3) :
    d.receivePacket tid (b :: r) = .ok (d, none, []) := by
  unfold Device.receivePacket
  dsimp only
  obtain ⟨-, h2, h3, -⟩ := parseMessageType_iff b
  rcases h with h | h
  · rw [h2.mpr h]
  · rw [h3.mpr h]

/-- The status of the answer to a header that cannot be decoded. -/
def undecodable (b : UInt8) : Status := if b.toNat % 16 ∈ reservedGroups then .unknownGid else .unknownOid

theorem recv_undecodable {d : Device} {tid : Nat} {b b₁ : UInt8} {r : Bytes}
    (h : 4 ≤ b.toNat / 32 ∨ (b.toNat / 32 = 1 ∧ b.toNat % 16 ∈ reservedGroups)) :
    d.receivePacket tid (b :: b₁ :: r) =
      .ok (d, some (.raw [0x40 ||| (b &&& 0xf), b₁ &&& 0x3f, 0, 1, (undecodable b).code]), []) ∧
    d.receivePacket tid [b] = .error .index := by
  have hm : parseMessageType b = .command := (parseMessageType_iff b).2.2.2.mpr (by omega)
  have hn : ∀ r, ControlPacket.decode (b :: r) = none := fun r => control_decode_none.mpr (by
    rcases h with h | h
    · exact .inl h
    · exact .inr h.2)
  unfold Device.receivePacket
  dsimp only
  rw [hm]
  dsimp only
  rw [hn, hn]
  refine ⟨?_, rfl⟩
  dsimp only
  rw [group_isSome]
  unfold undecodable
  by_cases hg : b.toNat % 16 ∈ reservedGroups <;> simp [hg] <;> rfl

theorem recv_notReset {d : Device} {tid : Nat} {b : UInt8} {r : Bytes} (hd : d.isReset = false)
    (h1 : b.toNat / 32 = 1) (h2 : b.toNat % 16 ∉ reservedGroups) (h3 : ¬ResetShape b r) :
    d.receivePacket tid (b :: r) = .ok (d, some (.ntf (.coreDeviceStatus .deviceStateError)), []) := by
  have hm : parseMessageType b = .command := (parseMessageType_iff b).2.2.2.mpr (by omega)
  obtain ⟨g, hg, hc⟩ := control_decode_some (r := r) h1 h2
  have hnr : Device.isCoreDeviceResetCmd ⟨g, .command, r⟩ = false := by
    apply Bool.eq_false_iff.mpr
    intro h
    apply h3
    have := isReset_iff.mp h
    rw [hc] at this
    exact this
  unfold Device.receivePacket
  dsimp only
  rw [hm, hg]
  dsimp only
  unfold Device.receiveCommand
  rw [hd, hnr]
  rfl

theorem recv_other {d : Device} {tid : Nat} {b : UInt8} {r : Bytes} (hd : d.isReset = true)
    (h1 : b.toNat / 32 = 1) (h2 : b.toNat % 16 ∈ otherGroups) :
    (∀ b₁ b₂ q, r = b₁ :: b₂ :: q → ∃ g : GroupId, g.code.toNat = b.toNat % 16 ∧
      d.receivePacket tid (b :: r) = .ok (d, some (.control ⟨g, .response, [b₁, b₂, 1, Status.unknownGid.code]⟩), [])) ∧
    (r.length < 2 → d.receivePacket tid (b :: r) = .error .index) := by
  have hm : parseMessageType b = .command := (parseMessageType_iff b).2.2.2.mpr (by omega)
  have hnres : b.toNat % 16 ∉ reservedGroups := by
    intro h
    simp only [reservedGroups, otherGroups, List.mem_cons, List.not_mem_nil, or_false] at h h2
    omega
  obtain ⟨g, hg, hc⟩ := control_decode_some (r := r) h1 hnres
  have hother := (group_of_code hc).resolve_left (by
    rintro ⟨h, -⟩
    simp only [supportedGroups, otherGroups, List.mem_cons, List.not_mem_nil, or_false] at h h2
    omega)
  have hrecv : d.receivePacket tid (b :: r) = (do
      let (d, r, e) ← d.receiveCommand tid ⟨g, .command, r⟩
      Device.sending r (d, some r, e)) := by
    unfold Device.receivePacket
    dsimp only
    rw [hm, hg]
  have hcmd : ∀ q, d.receiveCommand tid ⟨g, .command, q⟩ = (match q with
      | b₀ :: b₁ :: _ => .ok (d, .control ⟨g, .response, [b₀, b₁, 1, Status.unknownGid.code]⟩, [])
      | _ => .error .index) := by
    intro q
    unfold Device.receiveCommand
    simp only [hd, parse_other hother.2]
    rfl
  constructor
  · rintro b₁ b₂ q rfl
    refine ⟨g, hc, ?_⟩
    rw [hrecv, hcmd]; rfl
  · intro hl
    rw [hrecv, hcmd]
    match r, hl with
    | [], _ => rfl
    | [_], _ => rfl

theorem recv_bad {d : Device} {tid : Nat} {b : UInt8} {r : Bytes} (hd : d.isReset = true ∨ ResetShape b r)
    (h1 : b.toNat / 32 = 1) (h2 : b.toNat % 16 ∈ supportedGroups) (h3 : ∀ c, ¬IsCmd (b :: r) c) :
    ∃ x, d.receivePacket tid (b :: r) = .error x := by
  have hm : parseMessageType b = .command := (parseMessageType_iff b).2.2.2.mpr (by omega)
  have hnres : b.toNat % 16 ∉ reservedGroups := by
    intro h
    simp only [reservedGroups, supportedGroups, List.mem_cons, List.not_mem_nil, or_false] at h h2
    omega
  obtain ⟨g, hg, hc⟩ := control_decode_some (r := r) h1 hnres
  have hsup := (group_of_code hc).resolve_right (by
    rintro ⟨h, -⟩
    simp only [supportedGroups, otherGroups, List.mem_cons, List.not_mem_nil, or_false] at h h2
    omega)
  have hcond : ¬(!d.isReset && !Device.isCoreDeviceResetCmd ⟨g, .command, r⟩) = true := by
    rcases hd with hd | hd
    · simp [hd]
    · have : Device.isCoreDeviceResetCmd ⟨g, .command, r⟩ = true := isReset_iff.mpr (by rw [hc]; exact hd)
      simp [this]
  cases hp : Cmd.parse g r with
  | ok o =>
    cases o with
    | none => exact absurd hp (parse_supported hsup.2 r)
    | some c => exact absurd (isCmd_iff.mpr ⟨_, hg, rfl, hp⟩) (h3 c)
  | error x =>
    refine ⟨x, ?_⟩
    unfold Device.receivePacket
    dsimp only
    rw [hm, hg]
    dsimp only
    unfold Device.receiveCommand
    rw [if_neg hcond, hp]
    rfl

/-! ### Data packets -/

theorem full_dataSnd : Full Pdl.dataMessageSnd (fun m => True ∧ True ∧ True ∧ m.applicationData.length ≤ 65535)
    (fun m => u32le m.sessionHandle ++ (u64le m.destinationAddress ++ (u16le m.dataSequenceNumber ++
      (leBytes 2 m.applicationData.length ++ m.applicationData)))) :=
  (describes_iso (describes_seq describes_u32 (describes_seq describes_u64 (describes_seq describes_u16 describes_bytes16)))
    (fun _ => rfl)).full
theorem canonical_dataSnd : FullCanonical Pdl.dataMessageSnd (fun m => True ∧ True ∧ True ∧ m.applicationData.length ≤ 65535)
    (fun m => u32le m.sessionHandle ++ (u64le m.destinationAddress ++ (u16le m.dataSequenceNumber ++
      (leBytes 2 m.applicationData.length ++ m.applicationData)))) :=
  (canonical_iso (canonical_seq canonical_u32 (canonical_seq canonical_u64 (canonical_seq canonical_u16 canonical_bytes16)))
    (fun _ => rfl)).full
theorem full_dataRcv : Full Pdl.dataMessageRcv (fun m => True ∧ True ∧ True ∧ True ∧ m.applicationData.length ≤ 65535)
    (fun m => u32le m.sessionHandle ++ (m.status.code :: (u64le m.sourceAddress ++ (u16le m.dataSequenceNumber ++
      (leBytes 2 m.applicationData.length ++ m.applicationData))))) :=
  (describes_iso (describes_seq describes_u32 (describes_seq describes_status (describes_seq describes_u64
    (describes_seq describes_u16 describes_bytes16)))) (fun _ => rfl)).full
theorem canonical_dataRcv : FullCanonical Pdl.dataMessageRcv
    (fun m => True ∧ True ∧ True ∧ True ∧ m.applicationData.length ≤ 65535)
    (fun m => u32le m.sessionHandle ++ (m.status.code :: (u64le m.sourceAddress ++ (u16le m.dataSequenceNumber ++
      (leBytes 2 m.applicationData.length ++ m.applicationData))))) :=
  (canonical_iso (canonical_seq canonical_u32 (canonical_seq canonical_status (canonical_seq canonical_u64
    (canonical_seq canonical_u16 canonical_bytes16)))) (fun _ => rfl)).full

theorem isSnd_iff {b r₁ r₂ r₃ : UInt8} {r : Bytes} {m : DataMessageSnd} (h0 : b.toNat / 32 = 0) (h1 : b.toNat % 16 = 1) :
    IsDataSnd (b :: r₁ :: r₂ :: r₃ :: r) m ↔ Pdl.dataMessageSnd.decFull r = some m := by
  constructor
  · rintro ⟨hl, b₀, x₁, x₂, x₃, he, -⟩
    simp only [List.cons.injEq] at he
    obtain ⟨-, -, -, -, rfl⟩ := he
    exact full_dataSnd.dec m ⟨trivial, trivial, trivial, hl⟩
  · intro h
    obtain ⟨⟨-, -, -, hl⟩, he⟩ := canonical_dataSnd _ _ h
    exact ⟨hl, b, r₁, r₂, r₃, by rw [he], h0, h1⟩

theorem isRcv_iff {b r₁ r₂ r₃ : UInt8} {r : Bytes} {m : DataMessageRcv} (h0 : b.toNat / 32 = 0) (h1 : b.toNat % 16 = 2) :
    IsDataRcv (b :: r₁ :: r₂ :: r₃ :: r) m ↔ Pdl.dataMessageRcv.decFull r = some m := by
  constructor
  · rintro ⟨hl, b₀, x₁, x₂, x₃, he, -⟩
    simp only [List.cons.injEq] at he
    obtain ⟨-, -, -, -, rfl⟩ := he
    exact full_dataRcv.dec m ⟨trivial, trivial, trivial, trivial, hl⟩
  · intro h
    obtain ⟨⟨-, -, -, -, hl⟩, he⟩ := canonical_dataRcv _ _ h
    exact ⟨hl, b, r₁, r₂, r₃, by rw [he], h0, h1⟩

theorem data_decode {b r₁ r₂ r₃ : UInt8} {r : Bytes} (h0 : b.toNat / 32 = 0) :
    (b.toNat % 16 = 1 → ∃ pbf, DataPacket.decode (b :: r₁ :: r₂ :: r₃ :: r) = some ⟨.dataSnd, pbf, .data, r⟩) ∧
    (b.toNat % 16 = 2 → ∃ pbf, DataPacket.decode (b :: r₁ :: r₂ :: r₃ :: r) = some ⟨.dataRcv, pbf, .data, r⟩) ∧
    (b.toNat % 16 ≠ 1 → b.toNat % 16 ≠ 2 → DataPacket.decode (b :: r₁ :: r₂ :: r₃ :: r) = none) := by
  have hm : WireEnum.ofU8? (E := MessageType) (b >>> 5) = some .data :=
    forall_u8 (P := fun b => b.toNat / 32 = 0 → WireEnum.ofU8? (E := MessageType) (b >>> 5) = some .data)
      (by decide +kernel) b h0
  have hp : ∃ pbf, WireEnum.ofU8? (E := PacketBoundaryFlag) ((b >>> 4) &&& 0x01) = some pbf := by
    have : (WireEnum.ofU8? (E := PacketBoundaryFlag) ((b >>> 4) &&& 0x01)).isSome = true :=
      forall_u8 (P := fun b => (WireEnum.ofU8? (E := PacketBoundaryFlag) ((b >>> 4) &&& 0x01)).isSome = true)
        (by decide +kernel) b
    exact Option.isSome_iff_exists.mp this
  obtain ⟨pbf, hp⟩ := hp
  have h1 : b.toNat % 16 = 1 → WireEnum.ofU8? (E := DataPacketFormat) (b &&& 0x0f) = some .dataSnd :=
    forall_u8 (P := fun b => b.toNat % 16 = 1 → WireEnum.ofU8? (E := DataPacketFormat) (b &&& 0x0f) = some .dataSnd)
      (by decide +kernel) b
  have h2 : b.toNat % 16 = 2 → WireEnum.ofU8? (E := DataPacketFormat) (b &&& 0x0f) = some .dataRcv :=
    forall_u8 (P := fun b => b.toNat % 16 = 2 → WireEnum.ofU8? (E := DataPacketFormat) (b &&& 0x0f) = some .dataRcv)
      (by decide +kernel) b
  have h3 : b.toNat % 16 ≠ 1 → b.toNat % 16 ≠ 2 → WireEnum.ofU8? (E := DataPacketFormat) (b &&& 0x0f) = none :=
    forall_u8 (P := fun b => b.toNat % 16 ≠ 1 → b.toNat % 16 ≠ 2 →
      WireEnum.ofU8? (E := DataPacketFormat) (b &&& 0x0f) = none) (by decide +kernel) b
  refine ⟨fun h => ⟨pbf, ?_⟩, fun h => ⟨pbf, ?_⟩, fun h h' => ?_⟩
  · simp [DataPacket.decode, h1 h, hp, hm]
  · simp [DataPacket.decode, h2 h, hp, hm]
  · simp [DataPacket.decode, h3 h h']

theorem recv_notData {d : Device} {tid : Nat} {b : UInt8} {r : Bytes} (h0 : b.toNat / 32 = 0)
    (h : r.length < 3 ∨ (b.toNat % 16 ≠ 1 ∧ b.toNat % 16 ≠ 2)) : d.receivePacket tid (b :: r) = .ok (d, none, []) := by
  have hm : parseMessageType b = .data := (parseMessageType_iff b).1.mpr h0
  have hn : DataPacket.decode (b :: r) = none := by
    match r, h with
    | [], _ => rfl
    | [_], _ => rfl
    | [_, _], _ => rfl
    | r₁ :: r₂ :: r₃ :: r, h =>
      rcases h with h | h
      · simp only [List.length_cons] at h; omega
      · exact (data_decode h0).2.2 h.1 h.2
  unfold Device.receivePacket
  dsimp only
  rw [hm, hn]

theorem recv_snd {d : Device} {tid : Nat} {b r₁ r₂ r₃ : UInt8} {r : Bytes} (h0 : b.toNat / 32 = 0) (h1 : b.toNat % 16 = 1) :
    d.receivePacket tid (b :: r₁ :: r₂ :: r₃ :: r) = (match Pdl.dataMessageSnd.decFull r with
      | none => .error .parseChild
      | some m =>
        match d.session m.sessionHandle with
        | none => .ok (d, some (.ntf (.sessionDataTransferStatus m.sessionHandle 0 .uciDataTransferStatusErrorRejected 1)), [])
        | some s =>
          match s.dataMessageSnd m with
          | .error x => .error x
          | .ok (s', n) => .ok (d.putSession m.sessionHandle s', some (.ntf n), [])) := by
  have hm : parseMessageType b = .data := (parseMessageType_iff b).1.mpr h0
  obtain ⟨pbf, hp⟩ := (data_decode (r₁ := r₁) (r₂ := r₂) (r₃ := r₃) (r := r) h0).1 h1
  unfold Device.receivePacket
  dsimp only
  rw [hm, hp]
  dsimp only
  unfold Device.dataMessageSnd
  dsimp only
  cases hd : Pdl.dataMessageSnd.decFull r with
  | none => rfl
  | some m =>
    dsimp only
    cases hs : d.session m.sessionHandle with
    | none => rfl
    | some s =>
      dsimp only
      unfold Session.dataMessageSnd
      split
      · rfl
      · split <;> rfl

theorem recv_rcv {d : Device} {tid : Nat} {b r₁ r₂ r₃ : UInt8} {r : Bytes} (h0 : b.toNat / 32 = 0) (h1 : b.toNat % 16 = 2) :
    d.receivePacket tid (b :: r₁ :: r₂ :: r₃ :: r) = (match Pdl.dataMessageRcv.decFull r with
      | none => .error .parseChild
      | some m => .ok (d, some (.ntf (.sessionDataTransferStatus m.sessionHandle 0
          .uciDataTransferStatusInvalidFormat 1)), [])) := by
  have hm : parseMessageType b = .data := (parseMessageType_iff b).1.mpr h0
  obtain ⟨pbf, hp⟩ := (data_decode (r₁ := r₁) (r₂ := r₂) (r₃ := r₃) (r := r) h0).2.1 h1
  unfold Device.receivePacket
  dsimp only
  rw [hm, hp]
  dsimp only
  unfold Device.dataMessageSnd
  dsimp only
  cases hd : Pdl.dataMessageRcv.decFull r with
  | none => rfl
  | some m => rfl

/-! ### Which packets abort -/

theorem receive_error_iff {d : Device} {tid : Nat} {bytes : Bytes} (hi : DevInv d) :
    (∃ x, d.receivePacket tid bytes = .error x) ↔ Aborts d bytes := by
  constructor
  · rintro ⟨x, hx⟩
    match bytes with
    | [] => exact .empty
    | b :: r =>
      have hlt : b.toNat / 32 < 8 := by have := b.toNat_lt; omega
      have hcases : b.toNat / 32 = 0 ∨ b.toNat / 32 = 1 ∨ (b.toNat / 32 = 2 ∨ b.toNat / 32 = 3) ∨ 4 ≤ b.toNat / 32 := by omega
      rcases hcases with h | h | h | h
      · by_cases hshape : r.length < 3 ∨ (b.toNat % 16 ≠ 1 ∧ b.toNat % 16 ≠ 2)
        · rw [recv_notData h hshape] at hx; cases hx
        · match r, hshape with
          | r₁ :: r₂ :: r₃ :: r, hshape =>
            have hg : b.toNat % 16 = 1 ∨ b.toNat % 16 = 2 := by
              by_contra hg; exact hshape (.inr (by omega))
            rcases hg with hg | hg
            · refine .badSnd b r₁ r₂ r₃ r h hg fun m hm => ?_
              rw [recv_snd h hg, (isSnd_iff h hg).mp hm] at hx
              dsimp only at hx
              split at hx
              · cases hx
              · rename_i s hs
                have hid : s.id = m.sessionHandle := (hi.sess _ _ hs).id
                have hno : ∀ x, s.dataMessageSnd m ≠ .error x := by
                  intro x
                  unfold Session.dataMessageSnd
                  rw [if_neg (c := s.id ≠ m.sessionHandle) (fun h => h hid)]
                  split <;> simp
                split at hx
                · exact hno _ (by assumption)
                · cases hx
            · refine .badRcv b r₁ r₂ r₃ r h hg fun m hm => ?_
              rw [recv_rcv h hg, (isRcv_iff h hg).mp hm] at hx
              cases hx
          | [], hshape => exact absurd (.inl (by simp)) hshape
          | [_], hshape => exact absurd (.inl (by simp)) hshape
          | [_, _], hshape => exact absurd (.inl (by simp)) hshape
      · by_cases hres : b.toNat % 16 ∈ reservedGroups
        · match r with
          | [] => exact .headerOnly b (.inr ⟨h, hres⟩)
          | b₁ :: r => rw [(recv_undecodable (.inr ⟨h, hres⟩)).1] at hx; cases hx
        · by_cases hr : d.isReset = true
          · by_cases hother : b.toNat % 16 ∈ otherGroups
            · match r with
              | [] => exact .short b [] hr h hother (by simp)
              | [x] => exact .short b [x] hr h hother (by simp)
              | b₁ :: b₂ :: q =>
                obtain ⟨g, -, he⟩ := (recv_other (tid := tid) hr h hother).1 b₁ b₂ q rfl
                rw [he] at hx; cases hx
            · have hsup : b.toNat % 16 ∈ supportedGroups := by
                have : b.toNat % 16 < 16 := by omega
                simp only [reservedGroups, otherGroups, supportedGroups, List.mem_cons, List.not_mem_nil, or_false] at *
                omega
              by_cases hc : ∃ c, IsCmd (b :: r) c
              · obtain ⟨c, hc⟩ := hc
                rw [receive_cmd (.inl hr) hc] at hx
                exact .fatal _ c hr hc ((exec_error hi hc.1).mp ⟨x, hx⟩)
              · exact .badCommand b r hr h hsup fun c hc' => hc ⟨c, hc'⟩
          · have hr' : d.isReset = false := by simpa using hr
            by_cases hs : ResetShape b r
            · obtain ⟨h0, b₁, r₂, r₃, q, rfl, hb⟩ := hs
              by_cases hc : ∃ c, IsCmd (b :: b₁ :: r₂ :: r₃ :: q) c
              · exfalso
                obtain ⟨c, hc⟩ := hc
                have hcode : ∃ rc, c = .coreDeviceReset rc := by
                  obtain ⟨p, hp1, hp2, hp3⟩ := isCmd_iff.mp hc
                  refine Device.parse_reset (p := p) ?_ hp3
                  obtain ⟨g, m, q'⟩ := p
                  cases hp2
                  obtain ⟨i1, -, i3⟩ := ControlPacket.decode_cons.mp hp1
                  exact isReset_iff.mpr ⟨i1.symm.trans h0, b₁, r₂, r₃, q, i3.symm, hb⟩
                obtain ⟨rc, rfl⟩ := hcode
                rw [receive_cmd (.inr ⟨rc, rfl⟩) hc] at hx
                cases (exec_error hi hc.1).mp ⟨x, hx⟩
              · exact .badReset b b₁ r₂ r₃ q hr' h h0 hb fun c hc' => hc ⟨c, hc'⟩
            · rw [recv_notReset hr' h hres hs] at hx; cases hx
      · rw [recv_ignored h] at hx; cases hx
      · match r with
        | [] => exact .headerOnly b (.inl h)
        | b₁ :: r => rw [(recv_undecodable (.inl h)).1] at hx; cases hx
  · intro h
    cases h with
    | empty => exact ⟨_, rfl⟩
    | headerOnly b h => exact ⟨_, (recv_undecodable (b₁ := 0) (r := []) h).2⟩
    | short b r h1 h2 h3 h4 => exact ⟨_, (recv_other h1 h2 h3).2 h4⟩
    | badSnd b r₁ r₂ r₃ r h1 h2 h3 =>
      rw [recv_snd h1 h2]
      cases hm : Pdl.dataMessageSnd.decFull r with
      | none => exact ⟨_, rfl⟩
      | some m => exact absurd ((isSnd_iff h1 h2).mpr hm) (h3 m)
    | badRcv b r₁ r₂ r₃ r h1 h2 h3 =>
      rw [recv_rcv h1 h2]
      cases hm : Pdl.dataMessageRcv.decFull r with
      | none => exact ⟨_, rfl⟩
      | some m => exact absurd ((isRcv_iff h1 h2).mpr hm) (h3 m)
    | badCommand b r h1 h2 h3 h4 => exact recv_bad (.inl h1) h2 h3 h4
    | badReset b b₁ r₂ r₃ r h1 h2 h3 h4 h5 =>
      exact recv_bad (.inr ⟨h3, b₁, r₂, r₃, r, rfl, h4⟩) h2 (by rw [h3]; decide) h5
    | fatal _ c h1 h2 h3 =>
      rw [receive_cmd (.inl h1) h2]
      exact (exec_error hi h2.1).mpr h3

/-- What a device does with a packet it survives. -/
inductive Receives (d : Device) (tid : Nat) : Bytes → Device → Option Packet → List Effect → Prop
  | ignored (bytes : Bytes) : (∀ b r, bytes = b :: r → b.toNat / 32 ≠ 1) → Receives d tid bytes d none []
  | refused (b : UInt8) (r : Bytes) (p : Packet) :
      (∃ b₁ q, r = b₁ :: q ∧ ∃ c₀ c₁ body, p.encode = some (c₀ :: c₁ :: body) ∧ c₀.toNat / 32 = 2 ∧
        c₀.toNat % 16 = b.toNat % 16 ∧ c₁.toNat % 64 = b₁.toNat % 64) →
      (∀ r, p ≠ .rsp r) ∧ (∀ n, p ≠ .ntf n) → Receives d tid (b :: r) d (some p) []
  | early (b : UInt8) (r : Bytes) : d.isReset = false → b.toNat / 32 = 1 →
      Receives d tid (b :: r) d (some (.ntf (.coreDeviceStatus .deviceStateError))) []
  | cmd (bytes : Bytes) (c : Cmd) (d' : Device) (rsp : Rsp) (e : List Effect) : IsCmd bytes c → Ready d c →
      d.exec tid c = .ok (d', rsp, e) → rspFits rsp → Receives d tid bytes d' (some (.rsp rsp)) e
  | snd (bytes : Bytes) (m : DataMessageSnd) (d' : Device) (n : Ntf) : IsDataSnd bytes m →
      d.session m.sessionHandle = none ∧ d' = d ∧
        n = .sessionDataTransferStatus m.sessionHandle 0 .uciDataTransferStatusErrorRejected 1 ∨
      (∃ s s', d.session m.sessionHandle = some s ∧ s.dataMessageSnd m = .ok (s', n) ∧
        d' = d.putSession m.sessionHandle s') → Receives d tid bytes d' (some (.ntf n)) []
  | rcv (bytes : Bytes) (m : DataMessageRcv) : IsDataRcv bytes m → Receives d tid bytes d
      (some (.ntf (.sessionDataTransferStatus m.sessionHandle 0 .uciDataTransferStatusInvalidFormat 1))) []

theorem response_header (g : UInt8) (b : UInt8) (h : g.toNat = b.toNat % 16) :
    (2 * 32 + g).toNat / 32 = 2 ∧ (2 * 32 + g).toNat % 16 = b.toNat % 16 := by
  have hg : g.toNat < 16 := by omega
  have : (2 * 32 + g).toNat = 64 + g.toNat := by
    rw [UInt8.toNat_add]
    show (64 + g.toNat) % 256 = _
    omega
  omega

theorem raw_header (b b₁ : UInt8) : (0x40 ||| (b &&& 0xf)).toNat / 32 = 2 ∧ (0x40 ||| (b &&& 0xf)).toNat % 16 = b.toNat % 16 ∧
    (b₁ &&& 0x3f).toNat % 64 = b₁.toNat % 64 := by
  refine ⟨?_, ?_, ?_⟩
  · exact forall_u8 (P := fun b => (0x40 ||| (b &&& 0xf)).toNat / 32 = 2) (by decide +kernel) b
  · exact forall_u8 (P := fun b => (0x40 ||| (b &&& 0xf)).toNat % 16 = b.toNat % 16) (by decide +kernel) b
  · rw [and_3f_toNat]; omega

theorem control_response (g : GroupId) (b b₁ : UInt8) (q : Bytes) (h : g.code.toNat = b.toNat % 16) :
    ∃ c₀ body, (Packet.control ⟨g, .response, b₁ :: q⟩).encode = some (c₀ :: b₁ :: body) ∧ c₀.toNat / 32 = 2 ∧
      c₀.toNat % 16 = b.toNat % 16 := by
  refine ⟨ControlPacket.header g .response, q, rfl, ?_⟩
  rw [← h]
  cases g <;> decide

theorem receive_ok {d d' : Device} {tid : Nat} {bytes : Bytes} {o : Option Packet} {e : List Effect}
    (h : d.receivePacket tid bytes = .ok (d', o, e)) : Receives d tid bytes d' o e := by
  match bytes with
  | [] => cases h
  | b :: r =>
    have hlt : b.toNat / 32 < 8 := by have := b.toNat_lt; omega
    have hcases : b.toNat / 32 = 0 ∨ b.toNat / 32 = 1 ∨ (b.toNat / 32 = 2 ∨ b.toNat / 32 = 3) ∨ 4 ≤ b.toNat / 32 := by omega
    have hcmd : ∀ c, IsCmd (b :: r) c → Ready d c → Receives d tid (b :: r) d' o e := by
      intro c hc hr
      rw [receive_cmd hr hc] at h
      cases hx : d.exec tid c with
      | error x => rw [hx] at h; cases h
      | ok y =>
        obtain ⟨d₁, r₁, e₁⟩ := y
        rw [hx] at h
        simp only [finish, Device.sending] at h
        split at h
        · rename_i hs
          cases h
          exact .cmd _ c _ _ _ hc hr hx (rsp_isSome.mp hs)
        · cases h
    have hign : b.toNat / 32 ≠ 1 → Receives d tid (b :: r) d none [] := by
      intro hb
      refine .ignored _ ?_
      rintro _ _ he
      cases he
      exact hb
    rcases hcases with hb | hb | hb | hb
    · by_cases hshape : r.length < 3 ∨ (b.toNat % 16 ≠ 1 ∧ b.toNat % 16 ≠ 2)
      · rw [recv_notData hb hshape] at h
        cases h
        exact hign (by omega)
      · match r, hshape with
        | r₁ :: r₂ :: r₃ :: r, hshape =>
          have hg : b.toNat % 16 = 1 ∨ b.toNat % 16 = 2 := by
            by_contra hg; exact hshape (.inr (by omega))
          rcases hg with hg | hg
          · rw [recv_snd hb hg] at h
            cases hm : Pdl.dataMessageSnd.decFull r with
            | none => rw [hm] at h; cases h
            | some m =>
              rw [hm] at h
              dsimp only at h
              cases hs : d.session m.sessionHandle with
              | none =>
                rw [hs] at h
                cases h
                exact .snd _ m _ _ ((isSnd_iff hb hg).mpr hm) (.inl ⟨hs, rfl, rfl⟩)
              | some s =>
                rw [hs] at h
                dsimp only at h
                cases hy : s.dataMessageSnd m with
                | error x => rw [hy] at h; cases h
                | ok y =>
                  obtain ⟨s', n⟩ := y
                  rw [hy] at h
                  cases h
                  exact .snd _ m _ _ ((isSnd_iff hb hg).mpr hm) (.inr ⟨s, s', hs, hy, rfl⟩)
          · rw [recv_rcv hb hg] at h
            cases hm : Pdl.dataMessageRcv.decFull r with
            | none => rw [hm] at h; cases h
            | some m =>
              rw [hm] at h
              cases h
              exact .rcv _ m ((isRcv_iff hb hg).mpr hm)
        | [], hshape => exact absurd (.inl (by simp)) hshape
        | [_], hshape => exact absurd (.inl (by simp)) hshape
        | [_, _], hshape => exact absurd (.inl (by simp)) hshape
    · by_cases hres : b.toNat % 16 ∈ reservedGroups
      · match r with
        | [] => rw [(recv_undecodable (b₁ := 0) (r := []) (.inr ⟨hb, hres⟩)).2] at h; cases h
        | b₁ :: r =>
          rw [(recv_undecodable (.inr ⟨hb, hres⟩)).1] at h
          cases h
          exact .refused _ _ _ ⟨b₁, r, rfl, _, _, _, rfl, (raw_header b b₁).1, (raw_header b b₁).2.1, (raw_header b b₁).2.2⟩
                (by simp)
      · by_cases hr : d.isReset = true
        · by_cases hother : b.toNat % 16 ∈ otherGroups
          · match r with
            | [] => rw [(recv_other hr hb hother).2 (by simp)] at h; cases h
            | [x] => rw [(recv_other hr hb hother).2 (by simp)] at h; cases h
            | b₁ :: b₂ :: q =>
              obtain ⟨g, hg, he⟩ := (recv_other (tid := tid) hr hb hother).1 b₁ b₂ q rfl
              rw [he] at h
              cases h
              obtain ⟨c₀, body, i1, i2, i3⟩ := control_response g b b₁ [b₂, 1, Status.unknownGid.code] hg
              exact .refused _ _ _ ⟨b₁, _, rfl, c₀, b₁, body, i1, i2, i3, rfl⟩
                (by simp)
          · have hsup : b.toNat % 16 ∈ supportedGroups := by
              have : b.toNat % 16 < 16 := by omega
              simp only [reservedGroups, otherGroups, supportedGroups, List.mem_cons, List.not_mem_nil, or_false] at *
              omega
            by_cases hc : ∃ c, IsCmd (b :: r) c
            · obtain ⟨c, hc⟩ := hc
              exact hcmd c hc (.inl hr)
            · obtain ⟨x, hx⟩ := recv_bad (tid := tid) (.inl hr) hb hsup fun c hc' => hc ⟨c, hc'⟩
              rw [hx] at h; cases h
        · have hr' : d.isReset = false := by simpa using hr
          by_cases hs : ResetShape b r
          · by_cases hc : ∃ c, IsCmd (b :: r) c
            · obtain ⟨c, hc⟩ := hc
              refine hcmd c hc (.inr ?_)
              obtain ⟨p, hp1, hp2, hp3⟩ := isCmd_iff.mp hc
              refine Device.parse_reset (p := p) ?_ hp3
              obtain ⟨h0, b₁, r₂, r₃, q, rfl, hb⟩ := hs
              obtain ⟨g, m, q'⟩ := p
              cases hp2
              obtain ⟨i1, -, i3⟩ := ControlPacket.decode_cons.mp hp1
              exact isReset_iff.mpr ⟨i1.symm.trans h0, b₁, r₂, r₃, q, i3.symm, hb⟩
            · obtain ⟨x, hx⟩ := recv_bad (tid := tid) (d := d) (.inr hs) hb (by rw [hs.1]; decide) fun c hc' => hc ⟨c, hc'⟩
              rw [hx] at h; cases h
          · rw [recv_notReset hr' hb hres hs] at h
            cases h
            exact .early _ _ hr' hb
    · rw [recv_ignored hb] at h
      cases h
      exact hign (by omega)
    · match r with
      | [] => rw [(recv_undecodable (b₁ := 0) (r := []) (.inl hb)).2] at h; cases h
      | b₁ :: r =>
        rw [(recv_undecodable (.inl hb)).1] at h
        cases h
        exact .refused _ _ _ ⟨b₁, r, rfl, _, _, _, rfl, (raw_header b b₁).1, (raw_header b b₁).2.1, (raw_header b b₁).2.2⟩
                (by simp)

end Pica
