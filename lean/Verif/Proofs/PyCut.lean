import Verif.Spec.PyCut
import Verif.Props.PyUci
/-! Python objects whose fields do not fit. -/

namespace Pica
open Py Spec

theorem int_mod1 (v : Nat) : int 1 (v % 2 ^ 8) = int 1 v := Props.py_mod 1 v
theorem int_mod2 (v : Nat) : int 2 (v % 2 ^ 16) = int 2 v := Props.py_mod 2 v
theorem int_mod3 (v : Nat) : int 3 (v % 2 ^ 24) = int 3 v := Props.py_mod 3 v
theorem int_mod4 (v : Nat) : int 4 (v % 2 ^ 32) = int 4 v := Props.py_mod 4 v
theorem int_mod8 (v : Nat) : int 8 (v % 2 ^ 64) = int 8 v := Props.py_mod 8 v

theorem cut_mod (k v : Nat) : cut k v = v % 2 ^ k := by
  unfold cut
  have := Nat.two_pow_pos k
  split
  · exact Nat.and_two_pow_sub_one_eq_mod v k
  · rw [Nat.mod_eq_of_lt (by omega)]

theorem list_cut {α : Type} (f : α → Option Bytes) (g : α → α) (h : ∀ x, f (g x) = f x) (l : List α) :
    Py.list f ((l.take 255).map g) = Py.list f l := by
  have e : f ∘ g = f := funext h
  unfold Py.list
  rw [← List.map_take, List.take_take, Nat.min_self]
  dsimp only
  rw [List.mapM_map, e, List.length_map]

theorem counted_cut (v : Bytes) : countedBytes (v.take 255) = countedBytes v := by
  unfold countedBytes
  simp only [List.take_take, Nat.min_self]

theorem measurement_cut2 (r : Nat) (m : Py.Measurement) : measurementBytes 2 r (cutMeasurement 2 m) = measurementBytes 2 r m := by
  simp only [Py.measurementBytes, cutMeasurement, int_mod1, int_mod2, Nat.reduceMul]

theorem measurement_cut8 (r : Nat) (m : Py.Measurement) : measurementBytes 8 r (cutMeasurement 8 m) = measurementBytes 8 r m := by
  simp only [Py.measurementBytes, cutMeasurement, int_mod1, int_mod2, int_mod8, Nat.reduceMul]

theorem owrAoa_cut2 (m : Py.OwrAoa) : owrAoaBytes 2 (cutOwrAoa 2 m) = owrAoaBytes 2 m := by
  simp only [owrAoaBytes, cutOwrAoa, int_mod1, int_mod2, Nat.reduceMul]

theorem owrAoa_cut8 (m : Py.OwrAoa) : owrAoaBytes 8 (cutOwrAoa 8 m) = owrAoaBytes 8 m := by
  simp only [owrAoaBytes, cutOwrAoa, int_mod1, int_mod2, int_mod8, Nat.reduceMul]

theorem location_cut (l : Py.RelativeLocation) : relativeLocationBytes (cutLocation l) = relativeLocationBytes l := by
  simp only [relativeLocationBytes, cutLocation, int_mod3, cut_mod, Nat.mod_mod]

theorem dlTdoa_cut (m : Py.DlTdoa) : dlTdoaBytes (cutDlTdoa m) = dlTdoaBytes m := by
  have e1 : ((m.relativeLocation.take 1).map cutLocation).take 1 = (m.relativeLocation.take 1).map cutLocation := by
    rw [← List.map_take, List.take_take, Nat.min_self]
  have e2 : relativeLocationBytes ∘ cutLocation = relativeLocationBytes := funext location_cut
  have e3 : DlTdoa.bits (cutDlTdoa m) = m.bits := by
    simp only [DlTdoa.bits, cutDlTdoa, cut_mod, List.take_take, Nat.min_self, e1, List.length_map]
    simp only [pow_one, Nat.mod_mod]
    rfl
  simp only [dlTdoaBytes, e3]
  simp only [cutDlTdoa, e1, List.mapM_map, e2, List.take_take, Nat.min_self, int_mod1, int_mod2, int_mod4]

theorem report_cut (r : Py.FrameReport) : frameReportBytes (cutReport r) = frameReportBytes r := by
  simp only [frameReportBytes, cutReport, int_mod1, Props.py_take]

theorem tlv_cut (p : Nat × Bytes) : appConfigTlv (p.1, p.2.take 255) = appConfigTlv p := by
  simp only [appConfigTlv, List.take_take, Nat.min_self]

theorem addressed_cut2 (m : Nat × Py.DlTdoa) : addressedDlTdoaBytes 2 (m.1 % 2 ^ 16, cutDlTdoa m.2) = addressedDlTdoaBytes 2 m := by
  simp only [addressedDlTdoaBytes, dlTdoa_cut, int_mod2]

theorem addressed_cut8 (m : Nat × Py.DlTdoa) : addressedDlTdoaBytes 8 (m.1 % 2 ^ 64, cutDlTdoa m.2) = addressedDlTdoaBytes 8 m := by
  simp only [addressedDlTdoaBytes, dlTdoa_cut, int_mod8]

theorem objCut_body (o : Obj) : (objCut o).body = o.body := by
  have m4 : ∀ v, int 4 (v % 2 ^ 32) = int 4 v := int_mod4
  cases o
  case command c =>
    cases c
    case sessionSetAppConfig t l => simp only [objCut, Obj.body, pyCut, Command.body, m4, list_cut _ _ tlv_cut]
    case sessionUpdateDtTagRangingRounds t v => simp only [objCut, Obj.body, pyCut, Command.body, m4, List.take_take, Nat.min_self]
    all_goals simp only [objCut, Obj.body, pyCut, Command.body, m4, Props.py_take]
  all_goals
    simp only [objCut, Obj.body, int_mod1, int_mod2, int_mod4, int_mod8, counted_cut, statusList, infoBody, Props.py_take,
      list_cut _ _ tlv_cut, list_cut _ _ (measurement_cut2 _), list_cut _ _ (measurement_cut8 _), list_cut _ _ owrAoa_cut2,
      list_cut _ _ owrAoa_cut8, list_cut _ _ report_cut, list_cut _ _ addressed_cut2, list_cut _ _ addressed_cut8]

theorem objCut_serialize (o : Obj) : (objCut o).serialize = o.serialize := by
  unfold Obj.serialize
  rw [objCut_body]
  cases o
  case command c => cases c <;> rfl
  all_goals rfl

end Pica
