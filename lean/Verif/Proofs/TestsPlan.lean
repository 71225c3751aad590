import Verif.Model.Tests
import Verif.Props.PyUci
import Verif.Props.Console
import Verif.Proofs.Calm
import Verif.Proofs.PyShowNamed
/-! The commands of the tests and what the emulator answers. -/

set_option linter.dupNamespace false

namespace Pica.Tests
open Spec SessionState Py

/-! ### What is sent -/

/-- The configuration command of the test. -/
def settings (role type : UInt8) (mac peer : Bytes) : List AppConfigTlv :=
  [⟨⟨0x11⟩, [role]⟩, ⟨⟨0x00⟩, [type]⟩, ⟨⟨0x06⟩, mac⟩, ⟨⟨0x26⟩, [0]⟩, ⟨⟨0x03⟩, [0]⟩, ⟨⟨0x22⟩, [0]⟩, ⟨⟨0x01⟩, [0x06]⟩,
    ⟨⟨0x09⟩, [0xe8, 0x03, 0, 0]⟩, ⟨⟨0x05⟩, [1]⟩, ⟨⟨0x07⟩, peer⟩]

/-- The configuration of the sessions of the test. -/
def configured (boss : Bool) (mac peer : Arr 2) : AppConfig :=
  { AppConfig.default with
    deviceRole := some (if boss then .initiator else .responder)
    deviceType := some (if boss then .controller else .controlee)
    deviceMacAddress := some (.short mac)
    macAddressMode := .mode0
    multiNodeMode := some .oneToOne
    scheduleMode := some .contentionBased
    rangingRoundUsage := some .owrAoaMeasurement
    rangingDuration := 1000
    numberOfControlees := 1
    dstMacAddress := [.short peer] }

/-- What a host is there for. -/
inductive Kind where
  /-- `tests/ranging.py` -/
  | range
  /-- `controller` of `tests/data_transfer.py` -/
  | give (file : Bytes)
  /-- `controlee` of `tests/data_transfer.py` -/
  | take (file : Bytes)

/-- A host of a test: the controller or the controlee, its address and that of its peer. -/
structure Plan where
  boss : Bool
  mac : Arr 2
  peer : Arr 2
  kind : Kind

/-- The number of parts a file is sent in. -/
def pieces (file : Bytes) : Nat := max 1 ((file.length + 1023) / 1024)

/-- A part of a file is sent. -/
def piece (dst : Nat) (file : Bytes) (i : Nat) : List Statement :=
  [.send (.data (if file.length ≤ i * 1024 + 1024 then 0 else 1) 0 dst (i % 65535) ((file.drop (i * 1024)).take 1024)), credit]

/-- `n` parts of a file are sent, from the `i`th on. -/
def piecesFrom (dst : Nat) (file : Bytes) (i n : Nat) : List Statement := (List.range' i n).flatMap (piece dst file)

theorem sendingLoop_eq (dst : Nat) (file : Bytes) (n k : Nat) :
    sendingLoop dst file ((List.range' k n).map (· * 1024)) (k % 65535) = piecesFrom dst file k n := by
  induction n generalizing k with
  | zero => rfl
  | succ n ih =>
    unfold piecesFrom at ih ⊢
    rw [List.range'_succ, List.map_cons, sendingLoop, List.flatMap_cons, ← ih]
    have e : (if 65535 ≤ k % 65535 + 1 then 0 else k % 65535 + 1) = (k + 1) % 65535 := by split <;> omega
    dsimp only
    rw [e]
    rfl

theorem sending_eq (peer file : Bytes) : sending peer file = piecesFrom (Console.fromBytes peer) file 0 (pieces file) := by
  unfold sending pieces
  dsimp only
  rw [show Console.maxDataPayload = 1024 from rfl]
  split
  · rw [List.range_eq_range', show (max 1 ((file.length + 1023) / 1024)) = (file.length + (1024 - 1)) / 1024 by omega]
    exact sendingLoop_eq _ file _ 0
  · have h1 : max 1 ((file.length + 1023) / 1024) = 1 := by omega
    rw [h1]
    show _ = [_, _]
    rw [if_pos (by omega), Nat.zero_mul, List.drop_zero, List.take_of_length_le (by omega)]

namespace Plan

/-- Role and type of the device. -/
def flag (p : Plan) : UInt8 := if p.boss then 1 else 0

/-- The session type, for the host. -/
def code (p : Plan) : Nat :=
  match p.kind with
  | .range => 0
  | _ => 1

/-- The session type. -/
def type (p : Plan) : SessionType :=
  match p.kind with
  | .range => .firaRangingSession
  | _ => .firaRangingAndInBandDataSession

/-- The file it sends. -/
def file (p : Plan) : Bytes :=
  match p.kind with
  | .give f => f
  | _ => []

/-- The number of parts it sends. -/
def n (p : Plan) : Nat :=
  match p.kind with
  | .give f => pieces f
  | _ => 0

/-- What is expected while the session is ACTIVE. -/
def middle (p : Plan) : List Statement :=
  match p.kind with
  | .take f => [.expect (.data (.dataMessageRcv 0 0 0 (ofLe p.peer.1) 1 f)) (2 * second), info]
  | _ => [info, info]

def first (p : Plan) : List Statement := opening p.code p.flag p.flag p.mac.1 p.peer.1

/-- What remains when `i` parts have been sent. -/
def parts (p : Plan) (i : Nat) : List Statement := piecesFrom (Console.fromBytes p.peer.1) p.file i (p.n - i)

/-- What remains when all the parts have been sent. -/
def run (p : Plan) : List Statement := starting ++ (p.middle ++ closing)

def script (p : Plan) : List Statement := p.first ++ (p.parts 0 ++ p.run)

def tlvs (p : Plan) : List AppConfigTlv := settings p.flag p.flag p.mac.1 p.peer.1

def config (p : Plan) : AppConfig := configured p.boss p.mac p.peer

theorem parts_end (p : Plan) : p.parts p.n = [] := by
  unfold parts
  rw [Nat.sub_self]
  rfl

theorem parts_next (p : Plan) {i : Nat} (h : i < p.n) : p.parts i = piece (Console.fromBytes p.peer.1) p.file i ++ p.parts (i + 1) := by
  unfold parts piecesFrom
  rw [show p.n - i = (p.n - (i + 1)) + 1 by omega, List.range'_succ, List.flatMap_cons]

theorem take_end (p : Plan) : p.file.take (p.n * 1024) = p.file := by
  unfold file n pieces
  split <;> rename_i f
  · exact List.take_of_length_le (by omega)
  · rfl

theorem take_next (p : Plan) (i : Nat) : p.file.take (i * 1024) ++ (p.file.drop (i * 1024)).take 1024 = p.file.take ((i + 1) * 1024) := by
  rw [show (i + 1) * 1024 = i * 1024 + 1024 by omega, List.take_add]

theorem type_of (p : Plan) {i : Nat} (h : i < p.n) : p.type = .firaRangingAndInBandDataSession := by
  unfold n at h
  unfold type
  split at h
  · rename_i e; rw [e]
  · omega

theorem script_range (boss : Bool) (mac peer : Arr 2) :
    script ⟨boss, mac, peer, .range⟩ = ranging (if boss then 1 else 0) (if boss then 1 else 0) mac.1 peer.1 := rfl

theorem script_give (mac peer : Arr 2) (file : Bytes) : script ⟨true, mac, peer, .give file⟩ = controller mac.1 peer.1 file := by
  unfold controller
  rw [sending_eq]
  show opening 1 1 1 mac.1 peer.1 ++ (piecesFrom _ file 0 (pieces file) ++ (starting ++ ([info, info] ++ closing))) = _
  simp only [List.append_assoc]

theorem script_take (mac peer : Arr 2) (file : Bytes) : script ⟨false, mac, peer, .take file⟩ = controlee mac.1 peer.1 file := by
  unfold controlee
  show opening 1 0 0 mac.1 peer.1 ++ ([] ++ (starting ++ (_ ++ closing))) = _
  simp only [List.append_assoc, List.nil_append]
  rfl

theorem tlvs_ok (p : Plan) : Device.setAppConfigLoop AppConfig.default p.tlvs = .ok (p.config, []) := by
  obtain ⟨boss, ⟨m, hm⟩, ⟨q, hq⟩, kind⟩ := p
  match m, hm, q, hq with
  | [a, b], hm, [c, d], hq => cases boss <;> with_unfolding_all rfl

theorem tame (p : Plan) : p.config.Tame := by
  refine ⟨rfl, ?_, ?_, ⟨by show (1 : Nat) ≤ 8; decide, ?_⟩, ?_⟩
  · intro m hm; cases hm; exact ⟨_, rfl⟩
  · intro m hm
    rw [show p.config.dstMacAddress = [.short p.peer] from rfl, List.mem_singleton] at hm
    exact ⟨_, hm⟩
  · show (1 : UInt8).toNat ≤ 8; decide
  · show ([] : Bytes).length ≤ 255; decide

theorem tlvs_fit (p : Plan) : cmdFits (.sessionSetAppConfig 0 p.tlvs) ∧ (cmdPayload (.sessionSetAppConfig 0 p.tlvs)).length ≤ 255 := by
  obtain ⟨boss, ⟨m, hm⟩, ⟨q, hq⟩, kind⟩ := p
  match m, hm, q, hq with
  | [a, b], hm, [c, d], hq =>
    refine ⟨⟨by show (10 : Nat) ≤ 255; decide, ?_⟩, by simp [cmdPayload, many, lv, u32le, tlvs, settings, leBytes]⟩
    intro x hx
    simp only [tlvs, settings, List.mem_cons, List.not_mem_nil, or_false] at hx
    rcases hx with rfl | rfl | rfl | rfl | rfl | rfl | rfl | rfl | rfl | rfl <;> exact ⟨rfl, by simp⟩

end Plan

/-- What `send_control` sends is the command. -/
theorem control_isCmd {c : Cmd} (hf : cmdFits c) (hl : (cmdPayload c).length ≤ 255) : ∃ b, control (pyCmd c) = some b ∧ IsCmd b c := by
  unfold control
  rw [Props.C70_serialize c hf]
  refine ⟨_, if_pos hl, hf, _, _, _, _, rfl, ?_⟩
  cases c <;> (dsimp only [cmdCode]; decide)

/-! ### The device -/

/-- The device of a host that has just connected. -/
def dev₀ (h : Nat) : Device := { Device.new h (Pica.deviceMac h) with state := .deviceStateReady }

/-- The device after the reset. -/
def dev₁ (h : Nat) : Device := { dev₀ h with isReset := true }

/-- The session. -/
def sess (h : Nat) (ty : SessionType) (st : SessionState) (seq : UInt32) (data : Bytes) (cfg : AppConfig) (task : Option Nat) : Session :=
  ⟨st, 0, h, data, ty, seq, cfg, task⟩

/-- The device with a session. -/
def dev₂ (h : Nat) (s : Session) : Device :=
  { dev₁ h with
    sessions := [(0, s)]
    nActive := if s.state = .sessionStateActive then 1 else 0
    state := if s.state = .sessionStateActive then .deviceStateActive else .deviceStateReady }

theorem exec_reset (h tid : Nat) : (dev₀ h).exec tid (.coreDeviceReset .uwbsReset) =
    .ok (dev₁ h, .coreDeviceReset .ok, [.notify 5 (.coreDeviceStatus .deviceStateReady)]) := rfl

/-- The device with a session that has been created. -/
abbrev made (p : Plan) (h : Nat) : Device := dev₂ h (sess h p.type sessionStateInit 0 [] .default none)

/-- The device with an IDLE session. -/
abbrev idle (p : Plan) (h : Nat) (seq : UInt32) (data : Bytes) : Device :=
  dev₂ h (sess h p.type sessionStateIdle seq data p.config none)

/-- The device with an ACTIVE session. -/
abbrev busy (p : Plan) (h : Nat) (seq : UInt32) (data : Bytes) (k : Nat) : Device :=
  dev₂ h (sess h p.type sessionStateActive seq data p.config (some k))

theorem exec_init (h tid : Nat) (p : Plan) : (dev₁ h).exec tid (.sessionInit 0 p.type) =
    .ok (made p h, .sessionInit .ok, [.notify 1 (.sessionStatus 0 sessionStateInit 0)]) := rfl

theorem exec_config (h tid : Nat) (p : Plan) :
    (made p h).exec tid (.sessionSetAppConfig 0 p.tlvs) =
    .ok (idle p h 0 [], .sessionSetAppConfig .ok [],
      [.notify 1 (.sessionStatus 0 sessionStateIdle 0)]) := by
  unfold Device.exec Device.sessionSetAppConfig
  dsimp only
  rw [show (made p h).session 0 = some (sess h p.type sessionStateInit 0 [] .default none) from rfl]
  dsimp only
  rw [show (sess h p.type sessionStateInit 0 [] AppConfig.default none).appConfig = .default from rfl, p.tlvs_ok]
  obtain ⟨boss, mac, peer, kind⟩ := p
  cases kind <;> rfl

theorem exec_start (h tid : Nat) (p : Plan) (data : Bytes) :
    (idle p h 0 data).exec tid (.sessionStart 0) =
    .ok (busy p h 0 data tid, .sessionStart .ok,
      [.startTimer tid 0 1000, .notify 1 (.sessionStatus 0 sessionStateActive 0),
        .notify 5 (.coreDeviceStatus .deviceStateActive)]) := rfl

theorem exec_stop (h tid k : Nat) (seq : UInt32) (data : Bytes) (p : Plan) :
    (busy p h seq data k).exec tid (.sessionStop 0) =
    .ok (idle p h seq data, .sessionStop .ok,
      [.abortTimer k, .notify 1 (.sessionStatus 0 sessionStateIdle 0),
        .notify 5 (.coreDeviceStatus .deviceStateReady)]) := rfl

theorem exec_deinit (h tid : Nat) (seq : UInt32) (data : Bytes) (p : Plan) :
    (idle p h seq data).exec tid (.sessionDeinit 0) =
    .ok (dev₁ h, .sessionDeinit .ok, [.notify 1 (.sessionStatus 0 sessionStateDeinit 0)]) := rfl

/-- A command of the test is answered. -/
theorem answered {q : Pica} {env : Env} {h : Nat} {b : Bytes} {c : Cmd} {d d' : Device} {r : Rsp} {e : List Effect}
    (hd : q.devices.get? h = some d) (hr : Ready d c) (hc : IsCmd b c) (hx : d.exec env.tid c = .ok (d', r, e))
    (hf : (Packet.rsp r).encode.isSome = true) :
    q.step env (.uciPacket h b) = .ok ({ q with devices := q.devices.insert h d' }, .send h (.rsp r) :: e.map (.effect h)) := by
  rw [Props.uci_step hd, receive_cmd hr hc, hx]
  unfold finish Device.sending
  dsimp only
  rw [if_pos hf]
  rfl

/-- A part of the file is sent. -/
theorem piece_isSnd (p : Plan) (i : Nat) : ∃ b, Message.wire (.data (if p.file.length ≤ i * 1024 + 1024 then 0 else 1) 0
      (Console.fromBytes p.peer.1) (i % 65535) ((p.file.drop (i * 1024)).take 1024)) = some b ∧
    IsDataSnd b (Props.part 0 (UInt64.ofNat (bigEndian p.peer.1)) p.file i) := by
  have hlt : bigEndian p.peer.1 < 2 ^ 64 := Nat.lt_of_lt_of_le (Props.bigEndian_lt p.peer.1)
    (by rw [p.peer.2]; norm_num)
  have hd : bigEndian p.peer.1 = (UInt64.ofNat (bigEndian p.peer.1)).toNat := (UInt64.toNat_ofNat_of_lt' hlt).symm
  generalize UInt64.ofNat (bigEndian p.peer.1) = dst at hd
  have hmt : (Props.partMsg 0 dst p.file i).mt = 0 := by unfold Props.partMsg Msg.mt; dsimp only; split <;> decide
  obtain ⟨n, h1, ⟨h4, h5, -, -, h6⟩, -, -⟩ := Props.send_sendable (m := Props.partMsg 0 dst p.file i) (.inl ⟨hmt, by
    simp only [Props.partMsg, List.length_append, List.length_take, u32le, u64le, u16le, length_leBytes]; omega⟩)
  rw [if_pos hmt] at h1
  refine ⟨n.bytes, ?_, by simp only [Props.part, List.length_take]; omega, n.h₀, n.h₁, n.h₂, n.h₃, ?_, ?_, ?_⟩
  · rw [Props.fromBytes_eq, hd]
    exact (Props.sendSection_eq 0 dst p.file i).trans h1
  · unfold Msg.bytes; rw [h6]; rfl
  · rw [← hmt, ← h4]; rfl
  · have : (Props.partMsg 0 dst p.file i).low = 1 := by unfold Props.partMsg Msg.low; dsimp only; split <;> decide
    rw [← this, ← h5]; rfl

/-- The emulator takes it. -/
theorem piece_answered {q : Pica} (hq : q.Reachable) {env : Env} {h : Nat} {p : Plan} {data : Bytes}
    (hd : q.devices.get? h = some (idle p h 0 data)) (ht : p.type = .firaRangingAndInBandDataSession) {b : Bytes} {dst : UInt64} {i : Nat}
    (hb : IsDataSnd b (Props.part 0 dst p.file i)) :
    q.step env (.uciPacket h b) = .ok ({ q with devices := q.devices.insert h (idle p h 0 (data ++ (p.file.drop (i * 1024)).take 1024)) },
      [.send h (.ntf (.sessionDataCredit 0 .creditAvailable))]) :=
  Props.C65_accepted q env h _ b _ (sess h p.type sessionStateIdle 0 data p.config none) hq hd hb rfl ht

/-! ### What is received -/

/-- The message is one packet for the right queue of the host, and the packet is what it expects. -/
def Reads (x : Expected) (p : Packet) : Prop := ∃ b, arrives p = [b] ∧ forData b = x.isData ∧ accepts x b = true

theorem reads_of {x : Expected} {p : Packet} (h : (match arrives p with | [b] => forData b == x.isData && accepts x b | _ => false) = true) :
    Reads x p := by
  split at h
  · rename_i b hb
    obtain ⟨h1, h2⟩ := Bool.and_eq_true_iff.mp h
    exact ⟨b, hb, of_decide_eq_true h1, h2⟩
  · cases h

theorem reads_resetRsp : Reads (.packet (.coreDeviceResetRsp 0)) (.rsp (.coreDeviceReset .ok)) := reads_of (by decide +kernel)
theorem reads_initRsp : Reads (.packet (.sessionInitRsp 0)) (.rsp (.sessionInit .ok)) := reads_of (by decide +kernel)
theorem reads_configRsp : Reads (.packet (.sessionSetAppConfigRsp 0 [])) (.rsp (.sessionSetAppConfig .ok [])) := reads_of (by decide +kernel)
theorem reads_startRsp : Reads (.packet (.sessionStartRsp 0)) (.rsp (.sessionStart .ok)) := reads_of (by decide +kernel)
theorem reads_stopRsp : Reads (.packet (.sessionStopRsp 0)) (.rsp (.sessionStop .ok)) := reads_of (by decide +kernel)
theorem reads_deinitRsp : Reads (.packet (.sessionDeinitRsp 0)) (.rsp (.sessionDeinit .ok)) := reads_of (by decide +kernel)
theorem reads_ready : Reads (.packet (.coreDeviceStatusNtf 1)) (.ntf (.coreDeviceStatus .deviceStateReady)) := reads_of (by decide +kernel)
theorem reads_active : Reads (.packet (.coreDeviceStatusNtf 2)) (.ntf (.coreDeviceStatus .deviceStateActive)) := reads_of (by decide +kernel)
theorem reads_sessionInit : Reads (.packet (.sessionStatusNtf 0 0 0)) (.ntf (.sessionStatus 0 sessionStateInit 0)) := reads_of (by decide +kernel)
theorem reads_sessionIdle : Reads (.packet (.sessionStatusNtf 0 3 0)) (.ntf (.sessionStatus 0 sessionStateIdle 0)) := reads_of (by decide +kernel)
theorem reads_sessionActive : Reads (.packet (.sessionStatusNtf 0 2 0)) (.ntf (.sessionStatus 0 sessionStateActive 0)) := reads_of (by decide +kernel)

theorem reads_credit : Reads (.packet (.sessionDataCreditNtf 0 1)) (.ntf (.sessionDataCredit 0 .creditAvailable)) := reads_of (by decide +kernel)

/-- Data are read. -/
theorem arrives_data {d : DataMessageRcv} (hf : d.applicationData.length ≤ 65535) :
    ∃ b, arrives (.data d) = [b] ∧ forData b = true ∧ parseData b = some (pyData 0 d) := by
  have he := (Props.C48_data_bytes d _).mpr ⟨hf, rfl⟩
  let m : Msg := ⟨0x02, 0, 0, 0, u32le d.sessionHandle ++ (d.status.code :: (u64le d.sourceAddress ++ (u16le d.dataSequenceNumber ++
      (leBytes 2 d.applicationData.length ++ d.applicationData))))⟩
  have he' : (Packet.data d).encode = some m.bytes := by
    rw [he]
    simp [m, Msg.bytes]
  obtain ⟨fs, hs, -⟩ := segment_spec m
  obtain ⟨ms', h3, h4, h5⟩ := Props.C11_host [m] (fun x hx => by
    rw [List.mem_singleton.mp hx]
    refine ⟨show (2 : UInt8).toNat / 32 < 4 by decide, ?_⟩
    simp [m, u32le, leBytes]) [_] (.cons hs .nil) 1 (Nat.le_refl _)
  cases h3 with
  | @cons m' _ _ _ hsame h3 =>
  cases h3
  have h0 : m'.h₀.toNat / 32 = 0 := hsame.1.trans (show (2 : UInt8).toNat / 32 = 0 by decide)
  have h1 : m'.h₀.toNat % 16 = 2 := hsame.2.1.trans (show (2 : UInt8).toNat % 16 = 2 by decide)
  refine ⟨m'.bytes, ?_, ?_, ?_⟩
  · unfold arrives
    rw [he']
    dsimp only
    rw [hs]
    dsimp only
    simp only [List.flatten_cons, List.flatten_nil, List.append_nil, List.map_cons, List.map_nil] at h5
    exact h5
  · show decide (parseMessageType m'.h₀ = .data) = true
    rw [decide_eq_true_iff]
    exact (parseMessageType_iff _).1.mpr h0
  · have e : ((m'.bytes).headD 0).toNat / 16 % 2 = 0 := h4 m' List.mem_cons_self
    have := Props.C71_data d m'.bytes ⟨hf, m'.h₀, m'.h₁, m'.h₂, m'.h₃, by
      unfold Msg.bytes
      rw [hsame.2.2.2.2], h0, h1⟩
    rwa [e] at this

theorem reads_info {seq : UInt32} {sid : UInt32} {ms : List Measurement}
    (hf : (Packet.ntf (.sessionInfo seq sid 0 0 ms [])).encode.isSome = true) (hok : ∀ x ∈ ms, x.status = .ok) :
    Reads .sessionInfo (.ntf (.sessionInfo seq sid 0 0 ms [])) := by
  obtain ⟨m, he, h1, h2, -⟩ := fit_message (p := .ntf (.sessionInfo seq sid 0 0 ms [])) hf
  obtain ⟨fs, hs, -⟩ := segment_spec m
  obtain ⟨ms', h3, h4, h5⟩ := Props.C11_host [m] (fun x hx => by rw [List.mem_singleton.mp hx]; exact ⟨h1, h2⟩) [_] (.cons hs .nil) 1
    (Nat.le_refl _)
  cases h3 with
  | @cons m' _ _ _ hsame h3 =>
  cases h3
  have hm' := h4 m' List.mem_cons_self
  obtain ⟨hn, e⟩ := (Props.C48_ntf_bytes _ _).mp he
  have hb : ∃ x y, m'.bytes = (3 * 32 + (ntfCode (.sessionInfo seq sid 0 0 ms [])).1) :: (ntfCode (.sessionInfo seq sid 0 0 ms [])).2 :: x :: y ::
      ntfPayload (.sessionInfo seq sid 0 0 ms []) := by
    obtain ⟨a₀, a₁, a₂, a₃, pl⟩ := m
    simp only [Msg.bytes, controlBytes, List.cons.injEq] at e
    obtain ⟨rfl, rfl, -, -, rfl⟩ := e
    exact ⟨m'.h₂, m'.h₃, by unfold Msg.bytes; rw [same_head hsame hm' (by show (98 : UInt8).toNat / 16 % 2 = 0; decide), hsame.2.2.1, hsame.2.2.2.2]⟩
  obtain ⟨x, y, hb⟩ := hb
  have hr := Props.C71_ntf _ hn m'.bytes ⟨_, _, x, y, hb, by dsimp only [ntfCode]; decide⟩
  refine ⟨m'.bytes, ?_, ?_, ?_⟩
  · unfold arrives
    rw [he]
    dsimp only
    rw [hs]
    dsimp only
    simp only [List.flatten_cons, List.flatten_nil, List.append_nil, List.map_cons, List.map_nil] at h5
    exact h5
  · rw [hb]
    show decide (parseMessageType 98 = .data) = false
    decide
  · have hn : (pyNtf (.sessionInfo seq sid 0 0 ms [])).show.returned = true := by
      refine (PyShow.show_returned (s := m'.bytes) (o := pyNtf (.sessionInfo seq sid 0 0 ms [])) (Or.inr ⟨fun h => h, hr⟩)).mpr fun x hx => ?_
      obtain ⟨y, hy, rfl⟩ := List.mem_map.mp hx
      show NamedStatus y.status.code.toNat
      rw [hok y hy]
      decide
    unfold accepts returns Expected.object
    dsimp only [Expected.isData]
    rw [hr]
    simp only [Option.any_some, Bool.false_eq_true, if_false, hn]
    rfl

end Pica.Tests
