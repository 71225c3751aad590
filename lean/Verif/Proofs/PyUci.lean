import Verif.Spec.PyUci
import Verif.Proofs.Bytes
/-! The parsers and serialisers of the Python host. -/

namespace Pica.Py
open Spec

@[simp] theorem need_of_le {s : Bytes} {n : Nat} (h : n ≤ s.length) : need s n = some () := by
  unfold need; rw [if_neg (by omega)]

theorem need_of_lt {s : Bytes} {n : Nat} (h : s.length < n) : need s n = none := by
  unfold need; rw [if_pos h]

theorem forbid_true {p : Prop} [Decidable p] (h : p) : forbid p = none := if_pos h
theorem forbid_false {p : Prop} [Decidable p] (h : ¬ p) : forbid p = some () := if_neg h

theorem u8_and15 (b : UInt8) : b.toNat &&& 0xf = b.toNat % 16 := Nat.and_two_pow_sub_one_eq_mod _ 4
theorem u8_and63 (b : UInt8) : b.toNat &&& 0x3f = b.toNat % 64 := Nat.and_two_pow_sub_one_eq_mod _ 6
theorem u8_type (b : UInt8) : (b.toNat >>> 5) &&& 0x7 = b.toNat / 32 := by
  rw [Nat.and_two_pow_sub_one_eq_mod _ 3, Nat.shiftRight_eq_div_pow]
  have := b.toNat_lt
  omega

theorem fromInt_of {l : List Nat} {v : Nat} (h : v ∈ l) : fromInt l v = some v := if_pos h

/-- The classes tried for a message. -/
theorem parseControl_eq {b₀ b₁ r₂ r₃ : UInt8} {p : Bytes} {g m : Nat} (hg : b₀.toNat % 16 = g) (hm : b₀.toNat / 32 = m)
    (h1 : g ∈ groupIds) (h2 : m ∈ messageTypes) :
    parseControl (b₀ :: b₁ :: r₂ :: r₃ :: p) = some ((firstChild [corePacket g m (b₁ :: r₂ :: r₃ :: p),
      sessionConfigPacket g m (b₁ :: r₂ :: r₃ :: p), sessionControlPacket g m (b₁ :: r₂ :: r₃ :: p),
      androidPacket g m (b₁ :: r₂ :: r₃ :: p)]).getD (.controlPacket g m (b₁ :: r₂ :: r₃ :: p))) := by
  unfold parseControl
  rw [need_of_le (by simp)]
  have e1 : idx (b₀ :: b₁ :: r₂ :: r₃ :: p) 0 = b₀.toNat := rfl
  rw [e1, u8_and15, u8_type, hg, hm, fromInt_of h1, fromInt_of h2]
  rfl

theorem opcode_eq {l : List Nat} {b₁ r₂ r₃ : UInt8} {p : Bytes} {o : Nat} (ho : b₁.toNat % 64 = o) (h : o ∈ l) :
    opcode l (b₁ :: r₂ :: r₃ :: p) = some (o, p) := by
  unfold opcode
  rw [need_of_le (by simp)]
  have e1 : idx (b₁ :: r₂ :: r₃ :: p) 0 = b₁.toNat := rfl
  rw [e1, u8_and63, ho, fromInt_of h]
  rfl

theorem parse_core {b₀ b₁ r₂ r₃ : UInt8} {p : Bytes} {m o : Nat} (hg : b₀.toNat % 16 = 0) (hm : b₀.toNat / 32 = m)
    (ho : b₁.toNat % 64 = o) (h2 : m ∈ messageTypes) (h3 : o ∈ coreOpcodes) :
    parseControl (b₀ :: b₁ :: r₂ :: r₃ :: p) = some ((coreChild m o p).getD (.corePacket m o p)) := by
  rw [parseControl_eq hg hm (by decide) h2]
  unfold corePacket
  rw [opcode_eq ho h3]
  rfl

theorem parse_sessionConfig {b₀ b₁ r₂ r₃ : UInt8} {p : Bytes} {m o : Nat} (hg : b₀.toNat % 16 = 1) (hm : b₀.toNat / 32 = m)
    (ho : b₁.toNat % 64 = o) (h2 : m ∈ messageTypes) (h3 : o ∈ sessionConfigOpcodes) :
    parseControl (b₀ :: b₁ :: r₂ :: r₃ :: p) = some ((sessionConfigChild m o p).getD (.sessionConfigPacket m o p)) := by
  rw [parseControl_eq hg hm (by decide) h2]
  unfold sessionConfigPacket
  rw [opcode_eq ho h3]
  rfl

theorem parse_sessionControl {b₀ b₁ r₂ r₃ : UInt8} {p : Bytes} {m o : Nat} (hg : b₀.toNat % 16 = 2) (hm : b₀.toNat / 32 = m)
    (ho : b₁.toNat % 64 = o) (h2 : m ∈ messageTypes) (h3 : o ∈ sessionControlOpcodes) :
    parseControl (b₀ :: b₁ :: r₂ :: r₃ :: p) = some ((sessionControlChild m o p).getD (.sessionControlPacket m o p)) := by
  rw [parseControl_eq hg hm (by decide) h2]
  unfold sessionControlPacket
  rw [opcode_eq ho h3]
  rfl

theorem parse_android {b₀ b₁ r₂ r₃ : UInt8} {p : Bytes} {m o : Nat} (hg : b₀.toNat % 16 = 0xc) (hm : b₀.toNat / 32 = m)
    (ho : b₁.toNat % 64 = o) (h2 : m ∈ messageTypes) (h3 : o ∈ androidOpcodes) :
    parseControl (b₀ :: b₁ :: r₂ :: r₃ :: p) = some ((androidChild m o p).getD (.androidPacket m o p)) := by
  rw [parseControl_eq hg hm (by decide) h2]
  unfold androidPacket
  rw [opcode_eq ho h3]
  rfl

/-! ### Elements -/

theorem count_toNat {n : Nat} (h : n ≤ 255) : (UInt8.ofNat n).toNat = n := by
  rw [UInt8.toNat_ofNat']; exact Nat.mod_eq_of_lt (by omega)

theorem tlv_append (t : UInt8) (v rest : Bytes) (h : v.length ≤ 255) :
    tlv (t :: lv v ++ rest) = some ((t.toNat, v), rest) := by
  have e : (t :: lv v ++ rest) = t :: UInt8.ofNat v.length :: (v ++ rest) := rfl
  rw [e]
  unfold tlv
  have e1 : idx (t :: UInt8.ofNat v.length :: (v ++ rest)) 1 = v.length := count_toNat h
  rw [e1, need_of_le (by simp)]
  simp [idx]

theorem elements_tlv {α : Type} (t : α → UInt8) (v : α → Bytes) (l : List α) (rest : Bytes)
    (h : ∀ x ∈ l, (v x).length ≤ 255) :
    elements tlv l.length (l.flatMap (fun x => t x :: lv (v x)) ++ rest) =
      some (l.map (fun x => ((t x).toNat, v x)), rest) := by
  induction l with
  | nil => rfl
  | cons x l ih =>
    rw [List.flatMap_cons, List.append_assoc, List.length_cons]
    unfold elements
    rw [tlv_append _ _ _ (h x List.mem_cons_self)]
    dsimp only [Option.bind_eq_bind, Option.bind_some]
    rw [ih fun y hy => h y (List.mem_cons_of_mem _ hy)]
    rfl

theorem mapM_range {α : Type} (g : Nat → Option α) (l : List α) (h : ∀ n (hn : n < l.length), g n = some l[n]) :
    (List.range l.length).mapM g = some l := by
  induction l generalizing g with
  | nil => rfl
  | cons x l ih =>
    rw [List.length_cons, List.range_succ_eq_map, List.mapM_cons, h 0 (by simp), List.mapM_map]
    rw [ih (g ∘ Nat.succ) (fun n hn => by
      have := h (n + 1) (by simp; omega)
      simpa using this)]
    rfl

theorem slice_append (a b : Bytes) (i j : Nat) : slice (a ++ b) (a.length + i) (a.length + j) = slice b i j := by
  unfold slice
  rw [List.take_length_add_append, List.drop_length_add_append]

theorem slice_record {α : Type} (f : α → Bytes) (k : Nat) (l : List α) (rest : Bytes) (hk : ∀ x ∈ l, (f x).length = k)
    (n : Nat) (hn : n < l.length) : slice (l.flatMap f ++ rest) (n * k) ((n + 1) * k) = f l[n] := by
  induction l generalizing n with
  | nil => simp at hn
  | cons x l ih =>
    have hx := hk x List.mem_cons_self
    rw [List.flatMap_cons, List.append_assoc]
    cases n with
    | zero =>
      show ((f x ++ (l.flatMap f ++ rest)).take ((0 + 1) * k)).drop (0 * k) = f x
      rw [Nat.zero_mul, List.drop_zero, Nat.zero_add, Nat.one_mul, ← hx, List.take_left]
    | succ n =>
      have := ih (fun y hy => hk y (List.mem_cons_of_mem _ hy)) n (by simpa using hn)
      rw [List.getElem_cons_succ, ← this]
      have e1 : (f x).length + (n + 1) * k = (n + 1 + 1) * k := by rw [hx, Nat.add_mul (n + 1) 1]; omega
      have e2 : (f x).length + n * k = (n + 1) * k := by rw [hx, Nat.add_mul n 1]; omega
      rw [← slice_append (f x) _ (n * k) ((n + 1) * k), e1, e2]

theorem records_eq {α β : Type} (p : Bytes → Option (β × Bytes)) (f : α → Bytes) (g : α → β) (k : Nat) (l : List α)
    (rest : Bytes) (hk : ∀ x ∈ l, (f x).length = k) (hp : ∀ x ∈ l, p (f x) = some (g x, [])) :
    records p k l.length (l.flatMap f ++ rest) = some (l.map g) := by
  unfold records
  have := mapM_range (fun n => parseAll p (slice (l.flatMap f ++ rest) (n * k) ((n + 1) * k))) (l.map g) (by
    intro n hn
    have hn' : n < l.length := by simpa using hn
    show parseAll p _ = _
    rw [slice_record f k l rest hk n hn']
    unfold parseAll
    rw [hp _ (List.getElem_mem _)]
    simp)
  rwa [List.length_map] at this

theorem length_records {α : Type} (f : α → Bytes) (k : Nat) (l : List α) (hk : ∀ x ∈ l, (f x).length = k) :
    (l.flatMap f).length = l.length * k := by
  induction l with
  | nil => simp
  | cons x l ih =>
    rw [List.flatMap_cons, List.length_append, hk x List.mem_cons_self, ih fun y hy => hk y (List.mem_cons_of_mem _ hy),
      List.length_cons, Nat.add_mul]
    omega

theorem idStatus_eq (a b : UInt8) : idStatus [a, b] = some ((a.toNat, b.toNat), []) := rfl

theorem ofLe2 (x : UInt16) : ofLe [UInt8.ofNat x.toNat, UInt8.ofNat (x.toNat / 256)] = x.toNat := ofLe_u16le x
theorem ofLe4 (x : UInt32) : ofLe [UInt8.ofNat x.toNat, UInt8.ofNat (x.toNat / 256), UInt8.ofNat (x.toNat / 256 / 256),
    UInt8.ofNat (x.toNat / 256 / 256 / 256)] = x.toNat := ofLe_u32le x
theorem ofLe8 (x : UInt64) : ofLe [UInt8.ofNat x.toNat, UInt8.ofNat (x.toNat / 256), UInt8.ofNat (x.toNat / 256 / 256),
    UInt8.ofNat (x.toNat / 256 / 256 / 256), UInt8.ofNat (x.toNat / 256 / 256 / 256 / 256),
    UInt8.ofNat (x.toNat / 256 / 256 / 256 / 256 / 256), UInt8.ofNat (x.toNat / 256 / 256 / 256 / 256 / 256 / 256),
    UInt8.ofNat (x.toNat / 256 / 256 / 256 / 256 / 256 / 256 / 256)] = x.toNat := ofLe_u64le x

theorem u16le_cons (x : UInt16) : u16le x = [UInt8.ofNat x.toNat, UInt8.ofNat (x.toNat / 256)] := rfl
theorem u32le_cons (x : UInt32) : u32le x = [UInt8.ofNat x.toNat, UInt8.ofNat (x.toNat / 256),
    UInt8.ofNat (x.toNat / 256 / 256), UInt8.ofNat (x.toNat / 256 / 256 / 256)] := rfl
theorem u64le_cons (x : UInt64) : u64le x = [UInt8.ofNat x.toNat, UInt8.ofNat (x.toNat / 256),
    UInt8.ofNat (x.toNat / 256 / 256), UInt8.ofNat (x.toNat / 256 / 256 / 256),
    UInt8.ofNat (x.toNat / 256 / 256 / 256 / 256), UInt8.ofNat (x.toNat / 256 / 256 / 256 / 256 / 256),
    UInt8.ofNat (x.toNat / 256 / 256 / 256 / 256 / 256 / 256),
    UInt8.ofNat (x.toNat / 256 / 256 / 256 / 256 / 256 / 256 / 256)] := rfl

theorem measurement_eq (m : Pica.Measurement) : measurement (measurementBytes m) = some (pyMeasurement m, []) := by
  unfold measurement measurementBytes
  simp only [u16le_cons, List.cons_append, List.nil_append, List.replicate]
  rw [need_of_le (by simp)]
  simp only [le, slice, List.take_succ_cons, List.take_zero, List.drop_succ_cons, List.drop_zero, ofLe2]
  rfl

theorem length_measurementBytes (m : Pica.Measurement) : (measurementBytes m).length = 31 := by
  simp [measurementBytes, u16le_cons]

theorem mem_multicast (s : MulticastUpdateStatus) : s.code.toNat ∈ multicastStatuses := by cases s <;> decide
theorem mem_deviceState (s : DeviceState) : s.code.toNat ∈ deviceStates := by cases s <;> decide
theorem mem_sessionState (s : SessionState) : s.code.toNat ∈ sessionStates := by cases s <;> decide
theorem mem_credit (s : CreditAvailability) : s.code.toNat ∈ creditAvailabilities := by cases s <;> decide
theorem mem_transfer (s : DataTransferNtfStatusCode) : s.code.toNat ∈ dataTransferStatuses := by cases s <;> decide

theorem controleeStatus_eq (x : ControleeStatus) :
    controleeStatus (x.macAddress.1 ++ [x.status.code]) = some ((x.macAddress.1, x.status.code.toNat), []) := by
  obtain ⟨⟨mac, hm⟩, s⟩ := x
  match mac, hm with
  | [a, b], _ =>
    unfold controleeStatus
    simp only [List.cons_append, List.nil_append]
    rw [need_of_le (by simp)]
    simp only [List.take_succ_cons, List.take_zero, List.drop_succ_cons, List.drop_zero]
    rw [need_of_le (by simp)]
    have e : idx [s.code] 0 = s.code.toNat := rfl
    rw [e, fromInt_of (mem_multicast s)]
    rfl

/-! ### Messages -/

theorem statusTlvs_eq {α : Type} (k : Nat → List (Nat × Bytes) → Obj) (s : UInt8) (t : α → UInt8) (v : α → Bytes)
    (l : List α) (hl : l.length ≤ 255) (h : ∀ x ∈ l, (v x).length ≤ 255) :
    statusTlvs k (s :: many (fun x => t x :: lv (v x)) l) =
      some (k s.toNat (l.map fun x => ((t x).toNat, v x)), []) := by
  unfold statusTlvs many
  rw [need_of_le (by simp)]
  have e1 : idx (s :: UInt8.ofNat l.length :: l.flatMap (fun x => t x :: lv (v x))) 1 = l.length := count_toNat hl
  have e2 := elements_tlv t v l [] h
  rw [List.append_nil] at e2
  rw [e1]
  simp only [List.drop_succ_cons, List.drop_zero, e2]
  rfl

theorem statusStatuses_eq {α : Type} (k : Nat → List (Nat × Nat) → Obj) (s : UInt8) (a b : α → UInt8)
    (l : List α) (hl : l.length ≤ 255) :
    statusStatuses k (s :: many (fun x => [a x, b x]) l) =
      some (k s.toNat (l.map fun x => ((a x).toNat, (b x).toNat)), []) := by
  unfold statusStatuses many
  rw [need_of_le (by simp)]
  have e1 : idx (s :: UInt8.ofNat l.length :: l.flatMap (fun x => [a x, b x])) 1 = l.length := count_toNat hl
  have e2 := records_eq idStatus (fun x => [a x, b x]) (fun x => ((a x).toNat, (b x).toNat)) 2 l [] (by simp)
    (fun x _ => idStatus_eq _ _)
  have e3 := length_records (fun x => [a x, b x]) 2 l (by simp)
  rw [List.append_nil] at e2
  rw [e1]
  simp only [List.drop_succ_cons, List.drop_zero, e2]
  rw [need_of_le (Nat.le_of_eq e3.symm)]
  simp [← e3, idx]

theorem getDeviceInfo_eq (s : UInt8) (a b c d : UInt16) (v : Bytes) (h : v.length ≤ 255) :
    coreGetDeviceInfoRsp 2 2 (s :: (u16le a ++ u16le b ++ u16le c ++ u16le d ++ lv v)) =
      some (.coreGetDeviceInfoRsp s.toNat a.toNat b.toNat c.toNat d.toNat v, []) := by
  unfold coreGetDeviceInfoRsp lv
  simp only [u16le_cons, List.cons_append, List.nil_append]
  rw [forbid_false (by decide), need_of_le (by simp)]
  simp only [le, slice, List.take_succ_cons, List.take_zero, List.drop_succ_cons, List.drop_zero, ofLe2]
  simp [idx, count_toNat h]

theorem sessionInfo_eq (n t : UInt32) (r : UInt8) (i : UInt32) (m : List Pica.Measurement) (v : Bytes) (h : m.length ≤ 255) :
    sessionInfoNtf 3 0 (ntfPayload (.sessionInfo n t r i m v)) = some (pyNtf (.sessionInfo n t r i m v), []) := by
  have e2 := records_eq measurement measurementBytes pyMeasurement 31 m v (fun x _ => length_measurementBytes x)
    (fun x _ => measurement_eq x)
  have e3 := length_records measurementBytes 31 m (fun x _ => length_measurementBytes x)
  unfold sessionInfoNtf ntfPayload many
  simp only [u32le_cons, List.cons_append, List.nil_append, List.replicate]
  rw [forbid_false (by decide), need_of_le (by simp)]
  simp only [le, slice, List.take_succ_cons, List.take_zero, List.drop_succ_cons, List.drop_zero, ofLe4]
  have key : ∀ k : List Measurement → Bytes → Obj,
      shortMacTwoWaySessionInfoNtf 1 0 k (UInt8.ofNat m.length :: (m.flatMap measurementBytes ++ v)) =
        some (k (m.map pyMeasurement) v, []) := by
    intro k
    unfold shortMacTwoWaySessionInfoNtf
    rw [forbid_false (by decide)]
    simp only [Option.bind_eq_bind, Option.bind_some]
    unfold counted
    rw [need_of_le (by simp)]
    have e1 : idx (UInt8.ofNat m.length :: (m.flatMap measurementBytes ++ v)) 0 = m.length := count_toNat h
    rw [e1]
    simp only [List.drop_succ_cons, List.drop_zero, e2]
    rw [need_of_le (by rw [List.length_append, e3]; omega)]
    simp [← e3]
  have k1 : ∀ l : Bytes, idx (UInt8.ofNat n.toNat :: UInt8.ofNat (n.toNat / 256) :: UInt8.ofNat (n.toNat / 256 / 256) ::
      UInt8.ofNat (n.toNat / 256 / 256 / 256) :: UInt8.ofNat t.toNat :: UInt8.ofNat (t.toNat / 256) ::
      UInt8.ofNat (t.toNat / 256 / 256) :: UInt8.ofNat (t.toNat / 256 / 256 / 256) :: r :: UInt8.ofNat i.toNat ::
      UInt8.ofNat (i.toNat / 256) :: UInt8.ofNat (i.toNat / 256 / 256) :: UInt8.ofNat (i.toNat / 256 / 256 / 256) ::
      1 :: 0 :: 0 :: l) 13 = 1 := fun _ => rfl
  have k2 : ∀ l : Bytes, idx (UInt8.ofNat n.toNat :: UInt8.ofNat (n.toNat / 256) :: UInt8.ofNat (n.toNat / 256 / 256) ::
      UInt8.ofNat (n.toNat / 256 / 256 / 256) :: UInt8.ofNat t.toNat :: UInt8.ofNat (t.toNat / 256) ::
      UInt8.ofNat (t.toNat / 256 / 256) :: UInt8.ofNat (t.toNat / 256 / 256 / 256) :: r :: UInt8.ofNat i.toNat ::
      UInt8.ofNat (i.toNat / 256) :: UInt8.ofNat (i.toNat / 256 / 256) :: UInt8.ofNat (i.toNat / 256 / 256 / 256) ::
      1 :: 0 :: 0 :: l) 15 = 0 := fun _ => rfl
  rw [k1, k2, fromInt_of (v := 1) (by decide), fromInt_of (v := 0) (by decide)]
  simp only [infoChild, key, Option.bind_eq_bind, Option.bind_some]
  rfl

theorem multicastNtf_eq (t : UInt32) (c : List ControleeStatus) (h : c.length ≤ 255) :
    sessionUpdateControllerMulticastListNtf 3 7 (ntfPayload (.sessionUpdateMulticast t c)) =
      some (pyNtf (.sessionUpdateMulticast t c), []) := by
  have hl : ∀ x ∈ c, (x.macAddress.1 ++ [x.status.code]).length = 3 := fun x _ => by
    rw [List.length_append, x.macAddress.2]; rfl
  have e2 := records_eq controleeStatus (fun x : ControleeStatus => x.macAddress.1 ++ [x.status.code])
    (fun x => (x.macAddress.1, x.status.code.toNat)) 3 c [] hl (fun x _ => controleeStatus_eq x)
  have e3 := length_records (fun x : ControleeStatus => x.macAddress.1 ++ [x.status.code]) 3 c hl
  rw [List.append_nil] at e2
  unfold sessionUpdateControllerMulticastListNtf ntfPayload many
  simp only [u32le_cons, List.cons_append, List.nil_append]
  rw [forbid_false (by decide), need_of_le (by simp)]
  simp only [le, slice, List.take_succ_cons, List.take_zero, List.drop_succ_cons, List.drop_zero, ofLe4]
  have e1 : ∀ l : Bytes, idx (UInt8.ofNat t.toNat :: UInt8.ofNat (t.toNat / 256) :: UInt8.ofNat (t.toNat / 256 / 256) ::
      UInt8.ofNat (t.toNat / 256 / 256 / 256) :: UInt8.ofNat c.length :: l) 4 = c.length := fun _ => count_toNat h
  rw [e1]
  simp only [e2]
  rw [need_of_le (Nat.le_of_eq e3.symm)]
  simp only [← e3, Option.bind_eq_bind, Option.bind_some, List.drop_length]
  rfl

end Pica.Py
