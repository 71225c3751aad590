import Verif.Spec.PySerial
import Verif.Model.PyPackets
import Verif.Props.PyUci
/-! When the serialisers of the Python package raise an exception. -/

namespace Pica.PySerial
open Py Spec Props

theorem bind_some {α β : Type} {a : Option α} {f : α → Option β} {P : Prop} (h : ∀ x, (f x).isSome ↔ P) :
    (a.bind f).isSome ↔ a.isSome ∧ P := by
  cases a with
  | none => simp
  | some x => simpa using h x

theorem pure_some {α β : Type} {a : Option α} {f : α → β} : (a.bind fun x => pure (f x)).isSome ↔ a.isSome := by
  cases a <;> simp

theorem exactly_some (k v : Nat) : (exactly k v).isSome ↔ v < 256 ^ k := by
  unfold exactly
  split <;> simp_all

theorem counted_some (v : Bytes) : (countedBytes v).isSome := by
  unfold countedBytes
  dsimp only
  rw [py_count (by rw [List.length_take]; omega)]
  rfl

theorem sized_some (v : Bytes) : (sizedBytes v).isSome ↔ v.length < 65536 := pure_some.trans (exactly_some 2 _)

theorem optional_some (k : Nat) (o : Option Nat) : (optional k o).isSome ↔ ∀ t ∈ o, t < 256 ^ k := by
  cases o with
  | none => simp [Py.optional]
  | some v => simpa [Py.optional] using exactly_some k v

theorem idStatus_some (p : Nat × Nat) : (idStatusBytes p).isSome ↔ p.1 < 256 ∧ p.2 < 256 :=
  (bind_some fun _ => pure_some.trans (py_byte_some _)).trans (and_congr_left' (py_byte_some _))

theorem tlv_some (p : Nat × Bytes) : (appConfigTlv p).isSome ↔ p.1 < 256 := by
  unfold appConfigTlv
  dsimp only
  rw [← py_byte_some, py_count (n := (p.2.take 255).length) (by rw [List.length_take]; omega)]
  cases byte p.1 <;> simp

theorem parameter_some (p : Nat × Bytes) : (configParameter p).isSome ↔ p.1 < 256 ∧ p.2.length < 256 := by
  unfold configParameter
  rw [← py_byte_some, ← py_byte_some]
  cases byte p.1 <;> cases byte p.2.length <;> simp

theorem bits_fit (m : DlTdoa) : m.bits < 256 ^ 2 := by
  have h1 : cut 1 m.txTimestampType < 2 ^ 16 := by
    unfold cut
    split
    · exact lt_of_le_of_lt Nat.and_le_right (by decide)
    · omega
  have h4 : (m.wgs84Location.take 1).length <<< 5 < 2 ^ 16 := by
    rw [Nat.shiftLeft_eq, List.length_take]; omega
  have h5 : (m.relativeLocation.take 1).length <<< 6 < 2 ^ 16 := by
    rw [Nat.shiftLeft_eq, List.length_take]; omega
  have h6 : (m.activeRangingRounds.take 15).length <<< 7 < 2 ^ 16 := by
    rw [Nat.shiftLeft_eq, List.length_take]; omega
  unfold DlTdoa.bits
  refine Nat.or_lt_two_pow (n := 16) (Nat.or_lt_two_pow (Nat.or_lt_two_pow (Nat.or_lt_two_pow (Nat.or_lt_two_pow h1 ?_) ?_) h4) h5) h6
  · split <;> decide
  · split <;> decide

theorem relative_some (l : List RelativeLocation) : (l.mapM relativeLocationBytes).isSome := by
  induction l with
  | nil => rfl
  | cons x l ih =>
    obtain ⟨y, hy⟩ := Option.isSome_iff_exists.mp ih
    rw [List.mapM_cons, hy]
    rfl

theorem dlTdoa_some (m : DlTdoa) : (dlTdoaBytes m).isSome ↔ m.status < 256 ∧ StampsFit m := by
  have h2 := (exactly_some 2 m.bits).mpr (bits_fit m)
  refine (bind_some fun _ => bind_some fun _ => bind_some fun _ => bind_some fun _ => bind_some fun _ => bind_some fun _ =>
    pure_some).trans ?_
  rw [py_byte_some, optional_some, optional_some, optional_some, optional_some]
  simp only [h2, relative_some, and_true, true_and]
  rfl

theorem addressed_some (w : Nat) (m : Nat × DlTdoa) : (addressedDlTdoaBytes w m).isSome ↔ m.2.status < 256 ∧ StampsFit m.2 :=
  pure_some.trans (dlTdoa_some m.2)

theorem frameTlv_some (p : Nat × Bytes) : (frameReportTlvBytes p).isSome ↔ p.1 < 256 ∧ p.2.length < 65536 :=
  (bind_some fun _ => pure_some.trans (sized_some _)).trans (and_congr_left' (py_byte_some _))

theorem frame_some (r : FrameReport) :
    (frameReportBytes r).isSome ↔ ∀ x ∈ r.frameReportTlvs.take 255, x.1 < 256 ∧ x.2.length < 65536 :=
  pure_some.trans ((py_list_some _ _).trans (forall₂_congr fun p _ => frameTlv_some p))

theorem statusList_some {α : Type} {f : α → Option Bytes} {P : α → Prop} (h : ∀ x, (f x).isSome ↔ P x) (s : Nat) (l : List α) :
    (statusList f s l).isSome ↔ s < 256 ∧ ∀ x ∈ l.take 255, P x :=
  (bind_some fun _ => pure_some.trans ((py_list_some _ _).trans (forall₂_congr fun p _ => h p))).trans
    (and_congr_left' (py_byte_some _))

theorem info_some (n t r i type indicator : Nat) (p : Bytes) :
    (infoBody n t r i type indicator p).isSome ↔ type < 256 ∧ indicator < 256 :=
  (bind_some fun _ => pure_some.trans (py_byte_some _)).trans (and_congr_left' (py_byte_some _))

theorem listed_some {α : Type} {f : α → Option Bytes} {P : α → Prop} (h : ∀ x, (f x).isSome ↔ P x) {l : List α}
    {g : Bytes → Option Bytes} (hg : ∀ b, (g b).isSome) : ((list f l).bind g).isSome ↔ ∀ x ∈ l.take 255, P x :=
  (bind_some (P := True) fun b => by simp [hg b]).trans
    (by rw [and_true]; exact (py_list_some _ _).trans (forall₂_congr fun p _ => h p))

theorem or_lt {a b : Nat} : (a ||| b) < 256 ↔ a < 256 ∧ b < 256 :=
  ⟨fun h => ⟨lt_of_le_of_lt Nat.left_le_or h, lt_of_le_of_lt Nat.right_le_or h⟩, fun h => Nat.or_lt_two_pow (n := 8) h.1 h.2⟩

theorem shift_lt {a : Nat} : a <<< 5 < 256 ↔ a < 8 := by rw [Nat.shiftLeft_eq]; omega

theorem shift_lt4 {a : Nat} : a <<< 4 < 256 ↔ a < 16 := by rw [Nat.shiftLeft_eq]; omega

theorem control_some (gid mt : Nat) (p : Bytes) : (controlHead gid mt p).isSome ↔ gid < 256 ∧ mt < 8 :=
  pure_some.trans ((py_byte_some _).trans (or_lt.trans (and_congr_right' shift_lt)))

theorem group_some (gid mt oid : Nat) (p : Bytes) : (groupHead gid mt oid p).isSome ↔ oid < 256 ∧ gid < 256 ∧ mt < 8 :=
  (bind_some fun _ => control_some gid mt _).trans (and_congr_left' (py_byte_some _))

theorem data_some (dpf pbf mt : Nat) (p : Bytes) : (dataHead dpf pbf mt p).isSome ↔ dpf < 256 ∧ pbf < 16 ∧ mt < 8 := by
  refine pure_some.trans ((py_byte_some _).trans ?_)
  rw [or_lt, or_lt, shift_lt, shift_lt4, and_assoc]

theorem measurement_some (w r : Nat) (m : Py.Measurement) : (measurementBytes w r m).isSome ↔ m.status < 256 :=
  pure_some.trans (py_byte_some _)

theorem owr_some (w : Nat) (m : OwrAoa) : (owrAoaBytes w m).isSome ↔ m.status < 256 := pure_some.trans (py_byte_some _)

theorem controlee_some (c : Bytes × Nat) : (controleeStatusBytes c).isSome ↔ c.2 < 256 := pure_some.trans (py_byte_some _)

/-- A command is serialised like any object of its class. -/
theorem command_some (c : Py.Command) : c.body.isSome ↔ PyFits c := by
  have h := C70_raises c
  have e1 : (byte c.code.2).isSome := by cases c <;> rfl
  have e2 : (byte (c.code.1 ||| (1 <<< 5))).isSome := by cases c <;> (simp only [Py.Command.code]; decide)
  have key : c.serialize.isSome ↔ c.body.isSome := by
    unfold Py.Command.serialize
    obtain ⟨x, hx⟩ := Option.isSome_iff_exists.mp e1
    obtain ⟨y, hy⟩ := Option.isSome_iff_exists.mp e2
    rw [hx, hy]
    cases c.body <;> simp
  rw [← key]
  cases hs : c.serialize with
  | none => simpa using h.mp hs
  | some b => rw [hs] at h; simpa using h

theorem body_some (o : Obj) : o.body.isSome ↔ match o with
    | .controlPacket .. | .corePacket .. | .sessionConfigPacket .. | .sessionControlPacket .. | .androidPacket .. | .dataPacket .. => True
    | .dataMessageSnd _ _ _ _ v => v.length < 65536
    | .dataMessageRcv _ _ s _ _ v => s < 256 ∧ v.length < 65536
    | o => Serial o := by
  cases o
  case command c => exact command_some c
  case coreGetDeviceInfoRsp s a b c d v =>
    refine (bind_some fun _ => pure_some).trans ?_
    rw [py_byte_some]
    simp only [counted_some, and_true]
    rfl
  case coreGetCapsInfoRsp => exact statusList_some tlv_some _ _
  case sessionGetAppConfigRsp => exact statusList_some tlv_some _ _
  case coreGetConfigRsp => exact statusList_some parameter_some _ _
  case coreSetConfigRsp => exact statusList_some idStatus_some _ _
  case sessionSetAppConfigRsp => exact statusList_some idStatus_some _ _
  case sessionGetStateRsp => exact (bind_some fun _ => pure_some.trans (py_byte_some _)).trans (and_congr_left' (py_byte_some _))
  case sessionUpdateDtTagRangingRoundsRsp s v =>
    refine (bind_some fun _ => pure_some).trans ?_
    rw [py_byte_some]
    simp only [counted_some, and_true]
    rfl
  case sessionUpdateControllerMulticastListNtf => exact listed_some controlee_some fun _ => rfl
  case sessionInfoNtf => exact info_some ..
  case shortMacTwoWaySessionInfoNtf => exact listed_some (measurement_some 2 11) fun _ => (info_some ..).mpr (by decide)
  case extendedMacTwoWaySessionInfoNtf => exact listed_some (measurement_some 8 5) fun _ => (info_some ..).mpr (by decide)
  case shortMacDlTDoASessionInfoNtf => exact listed_some (addressed_some 2) fun _ => (info_some ..).mpr (by decide)
  case extendedMacDlTDoASessionInfoNtf => exact listed_some (addressed_some 8) fun _ => (info_some ..).mpr (by decide)
  case shortMacOwrAoaSessionInfoNtf => exact listed_some (owr_some 2) fun _ => (info_some ..).mpr (by decide)
  case extendedMacOwrAoaSessionInfoNtf => exact listed_some (owr_some 8) fun _ => (info_some ..).mpr (by decide)
  case androidRangeDiagnosticsNtf => exact listed_some frame_some fun _ => rfl
  case dataMessageSnd => exact pure_some.trans (sized_some _)
  case dataMessageRcv => exact (bind_some fun _ => pure_some.trans (sized_some _)).trans (and_congr_left' (py_byte_some _))
  all_goals first
    | exact py_byte_some _
    | exact pure_some.trans (py_byte_some _)
    | exact ⟨fun _ => trivial, fun _ => rfl⟩

theorem serialize_some (o : Obj) : o.serialize.isSome ↔ Serial o := by
  have hb := body_some o
  cases o
  case controlPacket g m p => exact control_some g m p
  case dataPacket d b t p => exact data_some d b t p
  case dataMessageSnd pbf h d n v =>
    refine (bind_some fun _ => data_some _ _ _ _).trans ?_
    rw [hb]
    show v.length < 65536 ∧ 1 < 256 ∧ pbf < 16 ∧ 0 < 8 ↔ pbf < 16 ∧ v.length < 65536
    omega
  case dataMessageRcv pbf h s a n v =>
    refine (bind_some fun _ => data_some _ _ _ _).trans ?_
    rw [hb]
    show (s < 256 ∧ v.length < 65536) ∧ 2 < 256 ∧ pbf < 16 ∧ 0 < 8 ↔ pbf < 16 ∧ s < 256 ∧ v.length < 65536
    omega
  case corePacket m i p =>
    refine (group_some 0 m i p).trans ?_
    show i < 256 ∧ 0 < 256 ∧ m < 8 ↔ m < 8 ∧ i < 256
    omega
  case sessionConfigPacket m i p =>
    refine (group_some 1 m i p).trans ?_
    show i < 256 ∧ 1 < 256 ∧ m < 8 ↔ m < 8 ∧ i < 256
    omega
  case sessionControlPacket m i p =>
    refine (group_some 2 m i p).trans ?_
    show i < 256 ∧ 2 < 256 ∧ m < 8 ↔ m < 8 ∧ i < 256
    omega
  case androidPacket m i p =>
    refine (group_some 12 m i p).trans ?_
    show i < 256 ∧ 12 < 256 ∧ m < 8 ↔ m < 8 ∧ i < 256
    omega
  case command c =>
    refine (bind_some fun _ => group_some _ _ _ _).trans ?_
    rw [hb, and_iff_left]
    cases c <;> (simp only [Obj.code, Py.Command.code]; decide)
  case sessionUpdateDtAnchorRangingRoundsRsp => exact ⟨fun _ => trivial, fun _ => rfl⟩
  case sessionQueryMaxDataSizeInRangingRsp t n =>
    refine ⟨fun _ => trivial, fun _ => ?_⟩
    simp only [Obj.serialize, Obj.body, Obj.code, Option.bind_eq_bind, Option.bind_some]
    exact (group_some 1 2 11 _).mpr (by decide)
  all_goals
    refine (bind_some fun _ => group_some _ _ _ _).trans ?_
    rw [hb, and_iff_left (by simp only [Obj.code]; decide)]

end Pica.PySerial
