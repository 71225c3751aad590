import Verif.Proofs.PyShowAll
import Verif.Spec.PyPackets
/-!
The objects that are printed to the end.
-/

namespace Pica.PyShow
open Spec Py

mutual

/-- Everything that is printed of the value can be. -/
def complete : FieldType → Val → Bool
  | .int, .int _ => true
  | .enum e, .int n => (memberName e n).isSome
  | .struct _, .obj c vs => completeFields c.fields vs
  | .list t, .list vs => completeList t vs
  | .custom, .bytes _ => true
  | .other _, _ => true
  | _, _ => false

def completeFields : List Field → List Val → Bool
  | f :: fs, v :: vs => (decide (f.1 = "payload") || complete f.2 v) && completeFields fs vs
  | _, _ => true

def completeList (t : FieldType) : List Val → Bool
  | [] => true
  | v :: vs => complete t v && completeList t vs

end

theorem then_and (a b : Printed) : (a.then b).returned = (a.returned && b.returned) := by
  unfold Printed.then
  split <;> simp_all

mutual

theorem printVal_complete (p pp name : Text) (align : Nat) (t : FieldType) (v : Val) :
    (printVal p pp name align t v).returned = complete t v := by
  match t, v with
  | .struct _, .obj c vs =>
    unfold printVal complete
    rw [then_and, then_and, showFields_complete]; rfl
  | .list t, .list vs =>
    unfold printVal complete
    rw [then_and, showElements_complete]; rfl
  | .enum e, .int n =>
    unfold printVal complete
    cases memberName e n <;> rfl
  | .other _, .int _ | .other _, .bytes _ | .other _, .optional _ | .other _, .list _ | .other _, .obj _ _ => rfl
  | .int, .int _ | .int, .bytes _ | .int, .optional _ | .int, .list _ | .int, .obj _ _ => rfl
  | .custom, .int _ | .custom, .bytes _ | .custom, .optional _ | .custom, .list _ | .custom, .obj _ _ => rfl
  | .enum _, .bytes _ | .enum _, .optional _ | .enum _, .list _ | .enum _, .obj _ _ => rfl
  | .struct _, .int _ | .struct _, .bytes _ | .struct _, .optional _ | .struct _, .list _ => rfl
  | .list _, .int _ | .list _, .bytes _ | .list _, .optional _ | .list _, .obj _ _ => rfl
termination_by sizeOf v

theorem showFields_complete (pre : Text) (align : Nat) (fs : List Field) (vs : List Val) :
    (showFields pre align fs vs).returned = completeFields fs vs := by
  match fs, vs with
  | [], [] | [], _ :: _ | _ :: _, [] => rfl
  | f :: fs, v :: vs =>
    unfold showFields completeFields
    rw [then_and, showFields_complete]
    split
    · next h => simp [h]
    · next h => rw [printVal_complete]; simp [h]
termination_by sizeOf vs

theorem showElements_complete (pp : Text) (t : FieldType) (i : Nat) (vs : List Val) :
    (showElements pp t i vs).returned = completeList t vs := by
  match vs with
  | [] => rfl
  | v :: vs =>
    unfold showElements completeList
    rw [then_and, showElements_complete, printVal_complete]
termination_by sizeOf vs

end

theorem show_complete (o : Obj) : o.show.returned = complete (.struct (classOf o)) o.value := by
  obtain ⟨vs, h1, h2, h3⟩ := show_eq o
  rw [h3, h1, then_and, showFields_complete, complete]
  rfl

theorem completeList_map {α : Type} (t : FieldType) (f : α → Val) (l : List α) :
    completeList t (l.map f) = l.all fun x => complete t (f x) := by
  induction l with
  | nil => rfl
  | cons x l ih => simp only [List.map_cons, completeList, ih, List.all_cons]

/-! ### Names -/

/-- The values with a name. -/
def memberValues (e : String) : List Nat := ((classes.find? fun c => c.name = e).map fun c => c.members.map (·.2)).getD []

theorem memberName_isSome (e : String) (v : Nat) : (memberName e v).isSome = true ↔ v ∈ memberValues e := by
  unfold memberName memberValues
  cases classes.find? fun c => c.name = e with
  | none => simp
  | some c =>
    simp only [Option.bind_some, Option.isSome_map, Option.map_some, Option.getD_some, List.mem_map, List.find?_isSome,
      decide_eq_true_eq]

theorem named_of {α : Type} {l : List (String × α)} {f : α → Nat} {m : List Nat} (h : ∀ x ∈ l, f x.2 ∈ m)
    (h' : ∀ v ∈ m, ∃ x ∈ l, f x.2 = v) (v : Nat) : v ∈ m ↔ ∃ x ∈ l, f x.2 = v :=
  ⟨h' v, fun ⟨x, hx, e⟩ => e ▸ h x hx⟩

theorem named_status (v : Nat) : v ∈ memberValues "Status" ↔ NamedStatus v :=
  named_of (f := fun x : Pica.Status => x.code.toNat) (by decide +kernel) (by decide +kernel) v
theorem named_parameter (v : Nat) : v ∈ memberValues "ConfigParameterId" ↔ NamedParameter v :=
  named_of (f := fun x : Pica.ConfigParameterId => x.code.toNat) (by decide +kernel) (by decide +kernel) v
theorem named_appConfig (v : Nat) : v ∈ memberValues "AppConfigTlvType" ↔ NamedAppConfig v :=
  named_of (f := fun x : Pica.AppConfigTlvType => x.code.toNat) (by decide +kernel) (by decide +kernel) v
theorem named_cap (v : Nat) : v ∈ memberValues "CapTlvType" ↔ NamedCap v :=
  named_of (f := fun x : Pica.CapTlvType => x.code.toNat) (by decide +kernel) (by decide +kernel) v


/-! ### Objects -/

/-- The enumerations of the fields of a bare packet. -/
def BareNamed : Obj → Prop
  | .controlPacket g mt _ => g ∈ groupIds ∧ mt ∈ messageTypes
  | .corePacket mt oid _ => mt ∈ messageTypes ∧ oid ∈ coreOpcodes
  | .sessionConfigPacket mt oid _ => mt ∈ messageTypes ∧ oid ∈ sessionConfigOpcodes
  | .sessionControlPacket mt oid _ => mt ∈ messageTypes ∧ oid ∈ sessionControlOpcodes
  | .androidPacket mt oid _ => mt ∈ messageTypes ∧ oid ∈ androidOpcodes
  | .sessionInfoNtf _ _ _ _ y d _ => y ∈ rangingMeasurementTypes ∧ d ∈ macAddressIndicators
  | .dataPacket d p mt _ => d ∈ dataPacketFormats ∧ p ∈ pbfs ∧ mt ∈ messageTypes
  | _ => False

theorem infoChild_fits {mt oid : Nat} {p : Bytes} {o : Obj} (h : sessionControlChild mt oid p = some o) :
    ObjFits o ∨ BareNamed o := by
  have h1 := mem_of_firstChild h
  simp only [List.mem_cons, List.not_mem_nil, or_false] at h1
  have key : ∀ {c}, Back 2 c → some (o, []) = c mt oid p → ObjFits o ∨ BareNamed o := by
    intro c hc h2
    exact Or.inl (hc _ _ _ _ _ h2.symm).2.1
  rcases h1 with h1 | h1 | h1 | h1 | h1 | h1 | h1 | h1 | h1
  · exact key back_sessionDataCreditNtf h1
  · exact key back_sessionDataTransferStatusNtf h1
  · exact key back_sessionStartCmd h1
  · exact key back_sessionStartRsp h1
  · rcases (back_sessionInfoNtf h1.symm).2.1 with h2 | ⟨-, -, n, t, r, i, y, d, q, rfl⟩
    · exact .inl h2
    · have h1 := h1.symm
      simp only [sessionInfoNtf, Option.bind_eq_bind, Option.bind_eq_some_iff, forbid_iff, need_iff, fromInt_iff, Option.pure_def,
        Option.some.injEq, Prod.mk.injEq] at h1
      obtain ⟨_, hf, _, h1, _, ⟨h2, rfl⟩, _, ⟨h3, rfl⟩, h4, _⟩ := h1
      cases hc : infoChild (le p 0 4) (le p 4 8) (idx p 8) (le p 9 13) (idx p 13) (idx p 15) (p.drop 24) with
      | some o' =>
        rw [hc] at h4
        simp only [Option.getD_some] at h4
        subst h4
        exact absurd (back_infoChild ⟨le_lt p 0 4, le_lt p 4 8, idx_lt p 8, le_lt p 9 13⟩ hc).2.1 (fun h => h)
      | none =>
        rw [hc] at h4
        simp only [Option.getD_none, Obj.sessionInfoNtf.injEq] at h4
        obtain ⟨-, -, -, -, rfl, rfl, -⟩ := h4
        exact .inr ⟨h2, h3⟩
  · exact key back_sessionStopCmd h1
  · exact key back_sessionStopRsp h1
  · exact key back_sessionGetRangingCountCmd h1
  · exact key back_sessionGetRangingCountRsp h1

theorem control_named {s : Bytes} {o : Obj} (h : parseControl s = some o) : ObjFits o ∨ BareNamed o := by
  simp only [parseControl, Option.bind_eq_bind, Option.bind_eq_some_iff, need_iff, fromInt_iff, Option.pure_def,
    Option.some.injEq] at h
  obtain ⟨_, h1, g, ⟨hg, rfl⟩, m, ⟨hm, rfl⟩, h⟩ := h
  generalize idx s 0 &&& 0xf = g at *
  generalize (idx s 0 >>> 5) &&& 0x7 = m at *
  have e : firstChild [corePacket g m (s.drop 1), sessionConfigPacket g m (s.drop 1), sessionControlPacket g m (s.drop 1),
    androidPacket g m (s.drop 1)] = controlChild g m (s.drop 1) := rfl
  rw [e] at h
  cases hc : controlChild g m (s.drop 1) with
  | some x =>
    rw [hc] at h
    cases h
    obtain ⟨oid, p, k1, k2, k3⟩ := controlChild_back hm hc
    simp only [validCode, Bool.and_eq_true, Bool.or_eq_true, decide_eq_true_eq] at k1
    cases hx : groupChild g m oid p with
    | some y =>
      rw [hx] at k3
      simp only [Option.getD_some] at k3
      subst k3
      unfold groupChild at hx
      rcases k1 with ⟨_, ((⟨rfl, ho⟩ | ⟨rfl, ho⟩) | ⟨rfl, ho⟩) | ⟨rfl, ho⟩⟩
      · exact .inl (back_coreChild hx).2.1
      · exact .inl (back_sessionConfigChild hx).2.1
      · exact infoChild_fits hx
      · exact .inl (back_androidChild hx).2.1
    | none =>
      rw [hx] at k3
      simp only [Option.getD_none] at k3
      subst k3
      rcases k1 with ⟨_, ((⟨rfl, ho⟩ | ⟨rfl, ho⟩) | ⟨rfl, ho⟩) | ⟨rfl, ho⟩⟩ <;> exact .inr ⟨hm, ho⟩
  | none =>
    rw [hc] at h
    subst h
    exact .inr ⟨hg, hm⟩

theorem data_named {s : Bytes} {o : Obj} (h : parseData s = some o) : ObjFits o ∨ BareNamed o := by
  have hb := data_back h
  simp only [parseData, Option.bind_eq_bind, Option.bind_eq_some_iff, need_iff, fromInt_iff, Option.pure_def,
    Option.some.injEq] at h
  obtain ⟨_, h1, d, ⟨hd, rfl⟩, p, ⟨hp, rfl⟩, m, ⟨hm, rfl⟩, h⟩ := h
  obtain ⟨h2 | h2, h3, -⟩ := hb
  · exact .inl h2
  · generalize idx s 0 &&& 0xf = d at *
    generalize (idx s 0 >>> 4) &&& 0x1 = p at *
    generalize (idx s 0 >>> 5) &&& 0x7 = m at *
    cases hc : firstChild [dataMessageSnd d p m (s.drop 4), dataMessageRcv d p m (s.drop 4)] with
    | none => rw [hc] at h; subst h; exact .inr ⟨hd, hp, hm⟩
    | some x =>
      rw [hc] at h
      simp only [Option.getD_some] at h
      subst h
      have h5 := mem_of_firstChild hc
      simp only [List.mem_cons, List.not_mem_nil, or_false] at h5
      rcases h5 with h5 | h5 <;>
      · have h5 := h5.symm
        simp only [dataMessageSnd, dataMessageRcv, Option.bind_eq_bind, Option.bind_eq_some_iff, Option.pure_def,
          Option.some.injEq, Prod.mk.injEq] at h5
        obtain ⟨_, _, _, _, _, _, h5, _⟩ := h5
        subst h5
        exact h2.elim

theorem read_named {s : Bytes} {o : Obj} (h : ReadAs s o) : ObjFits o ∨ BareNamed o := by
  rcases h with ⟨-, h⟩ | ⟨-, h⟩
  · exact data_named h
  · exact control_named h

end Pica.PyShow
