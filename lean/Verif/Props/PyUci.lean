import Verif.Proofs.PyUci
import Verif.Proofs.PyShowBrief
import Verif.Spec.Multicast
import Verif.Spec.Dispatch
import Verif.Props.Connection
/-! C70-C71: the packets of the Python host. -/

namespace Pica.Props
open Spec Py

/-! ### C70 -/

theorem py_byte (b : UInt8) : byte b.toNat = some [b] := by
  unfold byte
  rw [if_pos b.toNat_lt, UInt8.ofNat_toNat]

theorem py_count {n : Nat} (h : n ≤ 255) : byte n = some [UInt8.ofNat n] := if_pos (by omega)

theorem py_int4 (x : UInt32) : int 4 x.toNat = u32le x := by
  unfold int
  have := x.toNat_lt
  rw [if_neg (by omega)]
  rfl

theorem py_int8 (x : UInt64) : int 8 x.toNat = u64le x := by
  unfold int
  have := x.toNat_lt
  rw [if_neg (by omega)]
  rfl

theorem py_int2 (x : UInt16) : int 2 x.toNat = u16le x := by
  unfold int
  have := x.toNat_lt
  rw [if_neg (by omega)]
  rfl

theorem py_mapM {α β : Type} (f : β → Option Bytes) (g : α → β) (k : α → Bytes) (l : List α)
    (h : ∀ x ∈ l, f (g x) = some (k x)) : (l.map g).mapM f = some (l.map k) := by
  induction l with
  | nil => rfl
  | cons x l ih =>
    rw [List.map_cons, List.mapM_cons, h x List.mem_cons_self, ih fun y hy => h y (List.mem_cons_of_mem _ hy)]
    rfl

theorem py_list {α β : Type} (f : β → Option Bytes) (g : α → β) (k : α → Bytes) (l : List α) (hl : l.length ≤ 255)
    (h : ∀ x ∈ l, f (g x) = some (k x)) : Py.list f (l.map g) = some (many k l) := by
  unfold Py.list
  have e : (l.map g).take 255 = l.map g := List.take_of_length_le (by simpa using hl)
  rw [e]
  dsimp only
  rw [List.length_map, py_count hl, py_mapM f g k l h]
  simp [many, List.flatMap]

theorem py_body (c : Cmd) (h : cmdFits c) : (pyCmd c).body = some (cmdPayload c) := by
  cases c
  case coreDeviceReset x => exact py_byte _
  case coreGetDeviceInfo | coreGetCapsInfo | sessionGetCount | androidGetPowerStats => rfl
  case coreSetConfig ps =>
    refine py_list configParameter _ _ ps h.1 fun x hx => ?_
    unfold configParameter
    rw [py_byte, py_count (h.2 x hx)]
    rfl
  case coreGetConfig ids => exact py_list byte _ _ ids h fun x _ => py_byte _
  case sessionInit id ty => simp only [pyCmd, Command.body, py_byte, py_int4]; rfl
  case sessionDeinit | sessionGetState | sessionStart | sessionStop | sessionGetRangingCount =>
    simp only [pyCmd, Command.body, py_int4]; rfl
  case sessionSetAppConfig t l =>
    have := py_list appConfigTlv (fun p : AppConfigTlv => (p.cfgId.code.toNat, p.v)) (fun p => p.cfgId.code :: lv p.v) l h.1
      (fun x hx => by
        have hv := (h.2 x hx).2
        unfold appConfigTlv
        rw [py_byte]
        simp only
        rw [List.take_of_length_le hv, py_count hv]
        rfl)
    simp only [pyCmd, Command.body, py_int4, this]; rfl
  case sessionGetAppConfig t l =>
    have := py_list byte (fun p : AppConfigTlvType => p.code.toNat) (fun p => [p.code]) l h.1 (fun x _ => py_byte _)
    simp only [pyCmd, Command.body, py_int4, this]; rfl
  case sessionUpdateMulticast t a p =>
    simp only [pyCmd, Command.body, py_int4, py_byte]
    simp [cmdPayload]
  case androidSetCountryCode x => rfl

/-- C70: the Python host serialises every command object whose fields fit to the bytes of that command. -/
theorem C70_serialize (c : Cmd) (h : cmdFits c) :
    (pyCmd c).serialize = some (controlBytes 1 (cmdCode c) (cmdPayload c)) := by
  unfold Command.serialize
  have e1 : byte (pyCmd c).code.2 = some [(cmdCode c).2] := by
    cases c <;> (simp only [pyCmd, Command.code, cmdCode]; decide)
  have e2 : byte ((pyCmd c).code.1 ||| (1 <<< 5)) = some [1 * 32 + (cmdCode c).1] := by
    cases c <;> (simp only [pyCmd, Command.code, cmdCode]; decide)
  rw [py_body c h, e1, e2]
  rfl

/-- C70: so the emulator receives every sequence of commands a Python host sends, in order, with the same fields. -/
theorem C70_received (cs : List Cmd) (h : ∀ c ∈ cs, cmdFits c ∧ (cmdPayload c).length ≤ 255) :
    ∃ bss msgs : List Bytes,
      List.Forall₂ (fun c bs => (pyCmd c).serialize.bind Host.sendControl = some bs) cs bss ∧
      reassemble none (readStream bss.flatten) = (msgs, .closed) ∧ List.Forall₂ IsCmd msgs cs := by
  obtain ⟨bss, msgs, h1, h2, h3⟩ := C64_commands cs h
  refine ⟨bss, msgs, ?_, h2, h3⟩
  clear h2 h3
  induction h1 with
  | nil => exact .nil
  | cons hx _ ih =>
    refine .cons ?_ (ih fun c hc => h c (List.mem_cons_of_mem _ hc))
    rw [C70_serialize _ (h _ List.mem_cons_self).1]
    exact hx

/-- C70: the list of controlees a Python host puts in a multicast command is the list the emulator finds there. -/
theorem C70_controlees (k : Nat) (l : List (WireControlee k)) (hl : l.length ≤ 255) :
    ∃ bs, controlees (l.map fun c => (c.shortAddress.1, c.subsessionId.toNat, c.subsessionKey.1)) = some bs ∧
      IsControlees k bs (l.map (·.shortAddress)) := by
  refine ⟨_, py_list controlee _ (fun c => c.shortAddress.1 ++ u32le c.subsessionId ++ c.subsessionKey.1) l hl
    (fun x _ => by unfold controlee; simp only [py_int4]), ?_⟩
  refine ⟨l.map fun x => (x.shortAddress, x.subsessionId, x.subsessionKey), by simpa using hl, ?_, by simp⟩
  unfold many
  simp [List.flatMap_map]

/-- C70: a data message, with or without the announcement of more. -/
theorem C70_data (d : DataMessageSnd) (h : d.applicationData.length ≤ 65535) (pbf : Nat) (hp : pbf ≤ 1) :
    ∃ b, serializeData pbf d.sessionHandle.toNat d.destinationAddress.toNat d.dataSequenceNumber.toNat d.applicationData =
      some b ∧ IsDataSnd b d := by
  refine ⟨_, if_neg (by omega), h, UInt8.ofNat (1 ||| (pbf <<< 4) ||| (0 <<< 5)), 0, 0, 0, ?_, ?_, ?_⟩
  · rw [py_int4, py_int8, py_int2]
    simp
  all_goals
    have : pbf = 0 ∨ pbf = 1 := by omega
    rcases this with rfl | rfl <;> decide

theorem py_wide {k v : Nat} : int k v = leBytes k (v % 256 ^ k) := by
  unfold int
  have e : (256 : Nat) ^ k = 2 ^ (8 * k) := by rw [pow_mul]; norm_num
  split
  · rw [e, Nat.and_two_pow_sub_one_eq_mod]
  · rename_i h
    have : 0 < 256 ^ k := by positivity
    rw [Nat.mod_eq_of_lt (by omega)]

theorem py_mod (k v : Nat) : int k (v % 256 ^ k) = int k v := by
  rw [py_wide, py_wide, Nat.mod_mod]

theorem py_take {α : Type} (f : α → Option Bytes) (l : List α) : Py.list f (l.take 255) = Py.list f l := by
  unfold Py.list
  rw [List.take_take, Nat.min_self]

theorem py_all {α : Type} (f : α → Option Bytes) (l : List α) : (l.mapM f).isSome ↔ ∀ x ∈ l, (f x).isSome := by
  induction l with
  | nil => simp
  | cons x l ih =>
    rw [List.mapM_cons, List.forall_mem_cons, ← ih]
    cases f x with
    | none => simp
    | some y => cases l.mapM f <;> simp

theorem py_list_some {α : Type} (f : α → Option Bytes) (l : List α) :
    (Py.list f l).isSome ↔ ∀ x ∈ l.take 255, (f x).isSome := by
  unfold Py.list
  dsimp only
  rw [py_count (by rw [List.length_take]; omega), ← py_all]
  cases (l.take 255).mapM f <;> simp

theorem py_byte_some (v : Nat) : (byte v).isSome ↔ v < 256 := by
  unfold byte
  split <;> simp_all

/-- C70: of an object whose fields do not fit, the host sends what is left of it: the integers are cut to four bytes, the lists
to 255 elements. -/
theorem C70_wide (o : Py.Command) : o.serialize = (pyCut o).serialize := by
  have e : (pyCut o).code = o.code := by cases o <;> rfl
  have m : ∀ v, int 4 (v % 2 ^ 32) = int 4 v := py_mod 4
  unfold Py.Command.serialize
  rw [e]
  congr 1
  cases o
  case sessionSetAppConfig t l =>
    have : Py.list appConfigTlv ((l.take 255).map fun p => (p.1, p.2.take 255)) = Py.list appConfigTlv l := by
      have ef : appConfigTlv ∘ (fun p : Nat × Bytes => (p.1, p.2.take 255)) = appConfigTlv := by
        funext p
        simp only [Function.comp, appConfigTlv, List.take_take, Nat.min_self]
      unfold Py.list
      rw [← List.map_take, List.take_take, Nat.min_self]
      dsimp only
      rw [List.mapM_map, ef, List.length_map]
    simp only [pyCut, Py.Command.body, m, this]
  case sessionUpdateDtTagRangingRounds t v => simp only [pyCut, Py.Command.body, m, List.take_take, Nat.min_self]
  all_goals simp only [pyCut, Py.Command.body, m, py_take]

/-- C70: an object raises an exception when it is serialised just if a field of one byte is out of range. -/
theorem C70_raises (o : Py.Command) : o.serialize = none ↔ ¬ PyFits o := by
  have e1 : (byte o.code.2).isSome := by cases o <;> rfl
  have e2 : (byte (o.code.1 ||| (1 <<< 5))).isSome := by cases o <;> (simp only [Py.Command.code]; decide)
  have key : o.serialize.isSome ↔ o.body.isSome := by
    unfold Py.Command.serialize
    obtain ⟨x, hx⟩ := Option.isSome_iff_exists.mp e1
    obtain ⟨y, hy⟩ := Option.isSome_iff_exists.mp e2
    rw [hx, hy]
    cases o.body <;> simp
  have body : o.body.isSome ↔ PyFits o := by
    cases o
    case coreDeviceReset c => exact py_byte_some c
    case coreSetConfig ps =>
      refine (py_list_some _ _).trans (forall₂_congr fun p _ => ?_)
      unfold configParameter
      rw [← py_byte_some, ← py_byte_some]
      cases byte p.1 <;> cases byte p.2.length <;> simp
    case coreGetConfig ids => exact (py_list_some _ _).trans (forall₂_congr fun p _ => py_byte_some p)
    case sessionInit id ty =>
      refine Iff.trans ?_ (py_byte_some ty)
      simp only [Py.Command.body]
      cases byte ty <;> simp
    case sessionSetAppConfig t l =>
      have : (Py.list appConfigTlv l).isSome ↔ PyFits (.sessionSetAppConfig t l) := by
        refine (py_list_some _ _).trans (forall₂_congr fun p _ => ?_)
        unfold appConfigTlv
        dsimp only
        rw [← py_byte_some, py_count (n := (p.2.take 255).length) (by rw [List.length_take]; omega)]
        cases byte p.1 <;> simp
      refine Iff.trans ?_ this
      simp only [Py.Command.body]
      cases Py.list appConfigTlv l <;> simp
    case sessionGetAppConfig t l =>
      refine Iff.trans ?_ ((py_list_some byte l).trans (forall₂_congr fun p _ => py_byte_some p))
      simp only [Py.Command.body]
      cases Py.list byte l <;> simp
    case sessionUpdateControllerMulticastList t a p =>
      refine Iff.trans ?_ (py_byte_some a)
      simp only [Py.Command.body]
      cases byte a <;> simp
    case sessionUpdateDtTagRangingRounds t v =>
      refine ⟨fun _ => trivial, fun _ => ?_⟩
      simp only [Py.Command.body]
      rw [py_count (n := (v.take 255).length) (by rw [List.length_take]; omega)]
      rfl
    all_goals exact ⟨fun _ => trivial, fun _ => rfl⟩
  rw [← body, ← key]
  cases o.serialize <;> simp

/-- C70: the fields of a data message are cut likewise. -/
theorem C70_data_wide (pbf s d n : Nat) (b : Bytes) :
    serializeData pbf s d n b = serializeData pbf (s % 2 ^ 32) (d % 2 ^ 64) (n % 2 ^ 16) b := by
  have m4 : ∀ v, int 4 (v % 2 ^ 32) = int 4 v := py_mod 4
  have m8 : ∀ v, int 8 (v % 2 ^ 64) = int 8 v := py_mod 8
  have m2 : ∀ v, int 2 (v % 2 ^ 16) = int 2 v := py_mod 2
  unfold serializeData
  rw [m4, m8, m2]

/-- A session identifier of more than four bytes; a type of more than one. -/
example : (Py.Command.sessionInit (2 ^ 32 + 7) 0).serialize = some [33, 0, 0, 0, 7, 0, 0, 0, 0] ∧
    PyFits (.sessionInit (2 ^ 32 + 7) 0) ∧ (Py.Command.sessionInit 7 256).serialize = none ∧ ¬ PyFits (.sessionInit 7 256) :=
  ⟨by decide, (by decide : 0 < 256), by decide, (by decide : ¬ 256 < 256)⟩

/-! ### C71 -/

/-- C71, in part: the Python host reads every response but that to a multicast list update as an object of its class with
the same fields. -/
theorem C71_rsp_partial (r : Rsp) (hm : ¬ IsMulticastRsp r) (hf : rspFits r) (b : Bytes)
    (h : IsControl 2 (rspCode r) (rspPayload r) b) : parseControl b = some (pyRsp r) := by
  obtain ⟨b₀, b₁, r₂, r₃, rfl, h1, h2, h3⟩ := h
  cases r
  case coreDeviceReset s => rw [parse_core h2 h1 h3 (by decide) (of_decide_eq_true rfl)]; rfl
  case coreGetDeviceInfo s a b c d v =>
    rw [parse_core h2 h1 h3 (by decide) (of_decide_eq_true rfl)]
    have := getDeviceInfo_eq s.code a b c d v hf
    simp only [rspCode, rspPayload, UInt8.reduceToNat, coreChild, sessionConfigChild, sessionControlChild, androidChild, this]
    rfl
  case coreGetCapsInfo s t =>
    rw [parse_core h2 h1 h3 (by decide) (of_decide_eq_true rfl)]
    have := statusTlvs_eq .coreGetCapsInfoRsp s.code (fun x : CapTlv => x.t.code) (·.v) t hf.1 fun x hx => (hf.2 x hx).2
    simp only [rspCode, rspPayload, UInt8.reduceToNat, coreChild, sessionConfigChild, sessionControlChild, androidChild, coreGetCapsInfoRsp, this]
    rfl
  case coreSetConfig s p =>
    rw [parse_core h2 h1 h3 (by decide) (of_decide_eq_true rfl)]
    have := statusStatuses_eq .coreSetConfigRsp s.code (fun x : ConfigParameterStatus => x.id.code) (·.status.code) p hf
    simp only [rspCode, rspPayload, UInt8.reduceToNat, coreChild, sessionConfigChild, sessionControlChild, androidChild, coreSetConfigRsp, this]
    rfl
  case coreGetConfig s p =>
    rw [parse_core h2 h1 h3 (by decide) (of_decide_eq_true rfl)]
    have := statusTlvs_eq .coreGetConfigRsp s.code (fun x : ConfigParameter => x.id.code) (·.value) p hf.1 hf.2
    simp only [rspCode, rspPayload, UInt8.reduceToNat, coreChild, sessionConfigChild, sessionControlChild, androidChild, coreGetConfigRsp, this]
    rfl
  case sessionInit s | sessionDeinit s | sessionGetCount s n =>
    rw [parse_sessionConfig h2 h1 h3 (by decide) (of_decide_eq_true rfl)]; rfl
  case sessionSetAppConfig s c =>
    rw [parse_sessionConfig h2 h1 h3 (by decide) (of_decide_eq_true rfl)]
    have := statusStatuses_eq .sessionSetAppConfigRsp s.code (fun x : AppConfigStatus => x.cfgId.code) (·.status.code) c hf.1
    simp only [rspCode, rspPayload, UInt8.reduceToNat, coreChild, sessionConfigChild, sessionControlChild, androidChild, sessionSetAppConfigRsp, this]
    rfl
  case sessionGetAppConfig s t =>
    rw [parse_sessionConfig h2 h1 h3 (by decide) (of_decide_eq_true rfl)]
    have := statusTlvs_eq .sessionGetAppConfigRsp s.code (fun x : AppConfigTlv => x.cfgId.code) (·.v) t hf.1
      fun x hx => (hf.2 x hx).2
    simp only [rspCode, rspPayload, UInt8.reduceToNat, coreChild, sessionConfigChild, sessionControlChild, androidChild, sessionGetAppConfigRsp, this]
    rfl
  case sessionGetState s t =>
    rw [parse_sessionConfig h2 h1 h3 (by decide) (of_decide_eq_true rfl)]
    cases t <;> rfl
  case sessionUpdateMulticast s c => exact absurd trivial hm
  case sessionStart s | sessionStop s => rw [parse_sessionControl h2 h1 h3 (by decide) (of_decide_eq_true rfl)]; rfl
  case sessionGetRangingCount s n =>
    rw [parse_sessionControl h2 h1 h3 (by decide) (of_decide_eq_true rfl)]
    have : sessionGetRangingCountRsp 2 3 (s.code :: u32le n) = some (.sessionGetRangingCountRsp s.code.toNat n.toNat, []) := by
      unfold sessionGetRangingCountRsp
      simp only [u32le_cons, le, slice, List.take_succ_cons, List.take_zero, List.drop_succ_cons, List.drop_zero, ofLe4]
      rfl
    simp only [rspCode, rspPayload, UInt8.reduceToNat, coreChild, sessionConfigChild, sessionControlChild, androidChild, this]
    rfl
  case androidGetPowerStats s =>
    rw [parse_android h2 h1 h3 (by decide) (of_decide_eq_true rfl)]
    have : androidGetPowerStatsRsp 2 0 (rspPayload (.androidGetPowerStats s)) = some (pyRsp (.androidGetPowerStats s), []) := by
      unfold androidGetPowerStatsRsp rspPayload
      simp only [u32le_cons, le, slice, List.cons_append, List.nil_append, List.take_succ_cons, List.take_zero,
        List.drop_succ_cons, List.drop_zero, ofLe4]
      rfl
    simp only [rspCode, UInt8.reduceToNat, coreChild, sessionConfigChild, sessionControlChild, androidChild, this]
    rfl
  case androidSetCountryCode s => rw [parse_android h2 h1 h3 (by decide) (of_decide_eq_true rfl)]; rfl

/-- C71 is false: the response to a multicast list update is never read as an object of its class, nor with its fields. The
Python class lacks the list of controlees, so that it leaves a remainder, and the object is a bare `SessionConfigPacket`. -/
theorem C71_false (s : Status) (c : List ControleeStatus) (b : Bytes)
    (h : IsControl 2 (rspCode (.sessionUpdateMulticast s c)) (rspPayload (.sessionUpdateMulticast s c)) b) :
    parseControl b = some (.sessionConfigPacket 2 7 (rspPayload (.sessionUpdateMulticast s c))) ∧
      parseControl b ≠ some (pyRsp (.sessionUpdateMulticast s c)) := by
  have : parseControl b = some (.sessionConfigPacket 2 7 (rspPayload (.sessionUpdateMulticast s c))) := by
    obtain ⟨b₀, b₁, r₂, r₃, rfl, h1, h2, h3⟩ := h
    rw [parse_sessionConfig h2 h1 h3 (by decide) (of_decide_eq_true rfl)]
    rfl
  refine ⟨this, ?_⟩
  rw [this]
  simp [pyRsp]

/-- C71: the Python host reads every notification as an object of its class with the same fields. -/
theorem C71_ntf (n : Ntf) (hf : ntfFits n) (b : Bytes) (h : IsControl 3 (ntfCode n) (ntfPayload n) b) :
    parseControl b = some (pyNtf n) := by
  obtain ⟨b₀, b₁, r₂, r₃, rfl, h1, h2, h3⟩ := h
  cases n
  case coreDeviceStatus s => rw [parse_core h2 h1 h3 (by decide) (of_decide_eq_true rfl)]; cases s <;> rfl
  case sessionStatus t s r =>
    rw [parse_sessionConfig h2 h1 h3 (by decide) (of_decide_eq_true rfl)]
    have : sessionStatusNtf 3 2 (ntfPayload (.sessionStatus t s r)) = some (pyNtf (.sessionStatus t s r), []) := by
      unfold sessionStatusNtf ntfPayload
      simp only [u32le_cons, le, slice, List.cons_append, List.nil_append, List.take_succ_cons, List.take_zero,
        List.drop_succ_cons, List.drop_zero, ofLe4]
      cases s <;> rfl
    simp only [ntfCode, UInt8.reduceToNat, coreChild, sessionConfigChild, sessionControlChild, androidChild, this]
    rfl
  case sessionUpdateMulticast t c =>
    rw [parse_sessionConfig h2 h1 h3 (by decide) (of_decide_eq_true rfl)]
    have := multicastNtf_eq t c hf
    simp only [ntfCode, UInt8.reduceToNat, coreChild, sessionConfigChild, sessionControlChild, androidChild, this]
    rfl
  case sessionDataCredit t a =>
    rw [parse_sessionControl h2 h1 h3 (by decide) (of_decide_eq_true rfl)]
    have : sessionDataCreditNtf 3 4 (ntfPayload (.sessionDataCredit t a)) = some (pyNtf (.sessionDataCredit t a), []) := by
      unfold sessionDataCreditNtf ntfPayload
      simp only [u32le_cons, le, slice, List.cons_append, List.nil_append, List.take_succ_cons, List.take_zero,
        List.drop_succ_cons, List.drop_zero, ofLe4]
      cases a <;> rfl
    simp only [ntfCode, UInt8.reduceToNat, coreChild, sessionConfigChild, sessionControlChild, androidChild, this]
    rfl
  case sessionDataTransferStatus t n s c =>
    rw [parse_sessionControl h2 h1 h3 (by decide) (of_decide_eq_true rfl)]
    have : sessionDataTransferStatusNtf 3 5 (ntfPayload (.sessionDataTransferStatus t n s c)) =
        some (pyNtf (.sessionDataTransferStatus t n s c), []) := by
      unfold sessionDataTransferStatusNtf ntfPayload
      simp only [u32le_cons, le, slice, List.cons_append, List.nil_append, List.take_succ_cons, List.take_zero,
        List.drop_succ_cons, List.drop_zero, ofLe4]
      cases s <;> rfl
    simp only [ntfCode, UInt8.reduceToNat, coreChild, sessionConfigChild, sessionControlChild, androidChild, this]
    rfl
  case sessionInfo n t r i m v =>
    rw [parse_sessionControl h2 h1 h3 (by decide) (of_decide_eq_true rfl)]
    have := sessionInfo_eq n t r i m v hf
    simp only [ntfCode, UInt8.reduceToNat, coreChild, sessionConfigChild, sessionControlChild, androidChild, this]
    rfl

theorem u8_pbf (b : UInt8) : fromInt pbfs ((b.toNat >>> 4) &&& 0x1) = some (b.toNat / 16 % 2) := by
  rw [Nat.and_two_pow_sub_one_eq_mod _ 1, Nat.shiftRight_eq_div_pow]
  refine fromInt_of ?_
  have : b.toNat / 2 ^ 4 % 2 ^ 1 = 0 ∨ b.toNat / 2 ^ 4 % 2 ^ 1 = 1 := by omega
  rcases this with h | h <;> (rw [h]; decide)

/-- C71: a data message, whatever its boundary flag. -/
theorem C71_data (d : DataMessageRcv) (b : Bytes) (h : IsDataRcv b d) :
    parseData b = some (pyData ((b.headD 0).toNat / 16 % 2) d) := by
  obtain ⟨hl, b₀, r₁, r₂, r₃, rfl, h1, h2⟩ := h
  unfold parseData
  have e1 : ∀ l, idx (b₀ :: l) 0 = b₀.toNat := fun _ => rfl
  rw [need_of_le (by simp)]
  simp only [e1, u8_pbf, u8_and15, u8_type, h1, h2]
  rw [fromInt_of (v := 2) (by decide), fromInt_of (v := 0) (by decide)]
  have key : ∀ f, dataMessageRcv 2 f 0 (u32le d.sessionHandle ++ (d.status.code :: (u64le d.sourceAddress ++
      (u16le d.dataSequenceNumber ++ (leBytes 2 d.applicationData.length ++ d.applicationData))))) =
        some (pyData f d, []) := by
    intro f
    have e2 : ofLe [UInt8.ofNat d.applicationData.length, UInt8.ofNat (d.applicationData.length / 256)] =
        d.applicationData.length := by
      have := ofLe_leBytes 2 d.applicationData.length
      rwa [Nat.mod_eq_of_lt (by omega)] at this
    unfold dataMessageRcv
    simp only [u32le_cons, u64le_cons, u16le_cons, leBytes, List.cons_append, List.nil_append]
    rw [forbid_false (by decide), need_of_le (by simp)]
    simp only [le, slice, List.take_succ_cons, List.take_zero, List.drop_succ_cons, List.drop_zero, ofLe2, ofLe4, ofLe8, e2]
    rw [need_of_le (Nat.le_refl _)]
    simp only [Option.bind_eq_bind, Option.bind_some, List.take_length, List.drop_length]
    rfl
  simp only [List.drop_succ_cons, List.drop_zero, Option.bind_eq_bind, Option.bind_some, key]
  rfl

/-- What the Python host makes of the bytes read for a packet. -/
def PyReads (b : Bytes) : Packet → Prop
  | .rsp (.sessionUpdateMulticast s c) =>
    parseControl b = some (.sessionConfigPacket 2 7 (rspPayload (.sessionUpdateMulticast s c)))
  | .rsp r => parseControl b = some (pyRsp r)
  | .ntf n => parseControl b = some (pyNtf n)
  | .data d => parseData b = some (pyData 0 d)
  | .control _ => ∃ o, parseControl b = some o ∧ Refusal 7 o
  | .raw q =>
    if (q.headD 0).toNat % 16 ∈ reservedGroups then parseControl b = none
    else ∃ o, parseControl b = some o ∧ (Refusal 7 o ∨ Refusal 8 o)

theorem pyReads_rsp {b : Bytes} {r : Rsp} (hf : rspFits r) (h : IsControl 2 (rspCode r) (rspPayload r) b) :
    PyReads b (.rsp r) := by
  have := C71_rsp_partial r
  cases r
  case sessionUpdateMulticast s c => exact (C71_false s c b h).1
  all_goals exact this not_false hf b h

/-- C71, in part: in every schedule the Python host reads the messages sent to a device as objects of their classes with
the same fields, in order, except the responses to multicast list updates. The answer to a malformed packet is read as a status,
and not at all if its group has no name. -/
theorem C71_schedule_partial (ls : List System.Label) (s : System) (hr : System.Run .new ls s) (h : Nat) (ps : List Packet)
    (hps : ps <+: ls.flatMap (sentTo h)) :
    ∃ fss : List (List Bytes),
      List.Forall₂ (fun p fs => ∃ b, p.encode = some b ∧ segment b = .ok fs) ps fss ∧
      ∀ fuel, ps.length ≤ fuel → List.Forall₂ PyReads (Host.readPackets fuel fss.flatten.flatten) ps := by
  obtain ⟨fss, h1, h2⟩ := delivery ls s hr h ps hps
  refine ⟨fss, h1, fun fuel hf => (h2 fuel hf).imp ?_⟩
  rintro b p ⟨-, hfit, m, m', he, rfl, hs, hm⟩
  have head : ∀ {h₀ h₁ : UInt8} {q : Bytes}, h₀ :: h₁ :: 0 :: 0 :: q = m.bytes → h₀.toNat / 16 % 2 = 0 →
      ∃ x y, m'.bytes = h₀ :: h₁ :: x :: y :: q := by
    intro h₀ h₁ q e h0
    obtain ⟨a₀, a₁, a₂, a₃, pl⟩ := m
    simp only [Msg.bytes, List.cons.injEq] at e
    obtain ⟨rfl, rfl, -, -, rfl⟩ := e
    exact ⟨m'.h₂, m'.h₃, by unfold Msg.bytes; rw [same_head hs hm h0, hs.2.2.1, hs.2.2.2.2]⟩
  have short : ∀ {h₀ h₁ h₂ h₃ st : UInt8}, [h₀, h₁, h₂, h₃, st] = m.bytes → h₀.toNat / 16 % 2 = 0 →
      ∃ x y, m'.bytes = [h₀, h₁, x, y, st] := by
    intro h₀ h₁ h₂ h₃ st e h0
    obtain ⟨a₀, a₁, a₂, a₃, pl⟩ := m
    simp only [Msg.bytes, List.cons.injEq] at e
    obtain ⟨rfl, rfl, -, -, rfl⟩ := e
    exact ⟨m'.h₂, m'.h₃, by unfold Msg.bytes; rw [same_head hs hm h0, hs.2.2.1, hs.2.2.2.2]⟩
  cases p with
  | rsp r =>
    obtain ⟨hf, e⟩ := (C48_rsp_bytes r _).mp he
    obtain ⟨x, y, hb⟩ := head e.symm (rsp_more r)
    rw [hb]
    refine pyReads_rsp hf ⟨_, _, x, y, rfl, ?_⟩
    cases r <;> (dsimp only [rspCode]; decide)
  | ntf n =>
    obtain ⟨hf, e⟩ := (C48_ntf_bytes n _).mp he
    obtain ⟨x, y, hb⟩ := head e.symm (ntf_more n)
    rw [hb]
    refine C71_ntf n hf _ ⟨_, _, x, y, rfl, ?_⟩
    cases n <;> (dsimp only [ntfCode]; decide)
  | data d =>
    obtain ⟨hf, e⟩ := (C48_data_bytes d _).mp he
    have e' : (2 : UInt8) :: 0 :: 0 :: 0 :: (u32le d.sessionHandle ++ (d.status.code :: (u64le d.sourceAddress ++
      (u16le d.dataSequenceNumber ++ (leBytes 2 d.applicationData.length ++ d.applicationData))))) = m.bytes := by
      rw [e]; simp
    obtain ⟨x, y, hb⟩ := head e' (by decide)
    rw [hb]
    have := C71_data d _ ⟨hf, (2 : UInt8), 0, x, y, rfl, by decide, by decide⟩
    rw [List.headD_cons, show (2 : UInt8).toNat / 16 % 2 = 0 by decide] at this
    exact this
  | control q =>
    obtain ⟨⟨h₀, h₁, h₂, st, e, -, hr, hp⟩, h7⟩ := hfit
    have e' : q.encode = m.bytes := Option.some.inj he
    obtain ⟨x, y, hb⟩ := short (e.symm.trans e') hp
    rw [hb]
    obtain ⟨g, mt, pl⟩ := q
    simp only [ControlPacket.encode, List.cons.injEq] at e
    obtain ⟨rfl, rfl⟩ := e
    cases h7
    have hg : (ControlPacket.header g mt).toNat % 16 ∈ groupIds := by cases g <;> cases mt <;> decide
    obtain ⟨o, ho, hs⟩ := (Brief.parse_brief (h₁ := h₁) (x := x) (y := y) hr hp (.inl rfl)).1 hg
    exact ⟨o, ho, Brief.Brief.refusal hs⟩
  | raw q =>
    obtain ⟨h₀, h₁, h₂, st, e, h7, hr, hp⟩ := hfit
    have e' : q = m.bytes := Option.some.inj he
    obtain ⟨x, y, hb⟩ := short (e.symm.trans e') hp
    have k := Brief.parse_brief (h₁ := h₁) (x := x) (y := y) hr hp h7
    rw [hb]
    subst e
    show if h₀.toNat % 16 ∈ reservedGroups then _ else _
    have hg : h₀.toNat % 16 ∈ groupIds ↔ h₀.toNat % 16 ∉ reservedGroups := by
      have := Nat.mod_lt h₀.toNat (show 0 < 16 by decide)
      generalize h₀.toNat % 16 = n at this
      decide +revert
    split
    · rename_i hm; exact k.2 fun h => hg.mp h hm
    · rename_i hm
      obtain ⟨o, ho, hs⟩ := k.1 (hg.mpr hm)
      refine ⟨o, ho, ?_⟩
      rcases h7 with rfl | rfl
      · exact .inl (Brief.Brief.refusal hs)
      · exact .inr (Brief.Brief.refusal hs)

/-! Examples -/

/-- A command and its Python object. -/
example : pyCmd (.sessionSetAppConfig 7 [⟨⟨0x04⟩, [9]⟩, ⟨⟨0x06⟩, [1, 2]⟩]) = .sessionSetAppConfig 7 [(4, [9]), (6, [1, 2])] ∧
    (Command.sessionSetAppConfig 7 [(4, [9]), (6, [1, 2])]).serialize =
      some [0x21, 3, 0, 0, 7, 0, 0, 0, 2, 4, 1, 9, 6, 2, 1, 2] ∧
    cmdFits (.sessionSetAppConfig 7 [⟨⟨0x04⟩, [9]⟩, ⟨⟨0x06⟩, [1, 2]⟩]) := by
  refine ⟨by decide +kernel, by decide +kernel, by decide, ?_⟩
  decide +kernel

/-- A response and a notification read by the Python host. -/
example : parseControl [0x41, 0x03, 0, 6, 0x01, 2, 0x04, 0x00, 0x06, 0x03] = some (.sessionSetAppConfigRsp 1 [(4, 0), (6, 3)]) ∧
    parseControl [0x61, 0x02, 0, 6, 7, 0, 0, 0, 2, 0] = some (.sessionStatusNtf 7 2 0) := by decide +kernel

/-- The response to a multicast list update that adds one controlee. -/
example : parseControl [0x41, 0x07, 0, 5, 0x00, 1, 0xaa, 0xbb, 0x00] =
    some (.sessionConfigPacket 2 7 [0x00, 1, 0xaa, 0xbb, 0x00]) := by decide +kernel

end Pica.Props
