import Verif.Model.PyUci
import Verif.Spec.PyUci
/-!
The answers to malformed packets as the Python host reads them: a response with one byte of status.
-/

namespace Pica.Py.Brief

/-- `Refusal`, up to the payload of an object of the most general class. -/
def Brief (st : Nat) : Obj → Bool
  | .coreDeviceResetRsp s | .sessionInitRsp s | .sessionDeinitRsp s | .sessionUpdateControllerMulticastListRsp s
  | .sessionStartRsp s | .sessionStopRsp s | .androidSetCountryCodeRsp s => s == st
  | .corePacket m _ p | .sessionConfigPacket m _ p | .sessionControlPacket m _ p | .androidPacket m _ p =>
    m == 2 && p == [UInt8.ofNat st]
  | .controlPacket _ m p => m == 2 && p.drop 3 == [UInt8.ofNat st] && p.length == 4
  | _ => false

theorem Brief.refusal {st : Nat} {o : Obj} (h : Brief st o = true) : Spec.Refusal st o := by
  cases o <;> simp only [Brief, Bool.and_eq_true, beq_iff_eq, Bool.false_eq_true] at h
  all_goals first
    | exact h
    | obtain ⟨rfl, rfl⟩ := h; rfl
    | skip
  obtain ⟨⟨rfl, h⟩, hl⟩ := h
  rename_i p
  match p, hl with
  | [a, b, c, d], _ =>
    cases h
    exact ⟨a, b, c, rfl⟩

/-- What `parseControl` makes of a payload of one byte. -/
def ok (h₀ h₁ st : UInt8) : Bool :=
  match parseControl [h₀, h₁, 0, 0, st] with
  | some o => Brief st.toNat o && groupIds.contains (h₀.toNat % 16)
  | none => !groupIds.contains (h₀.toNat % 16)

set_option maxRecDepth 100000 in
theorem table : (List.range 16).all (fun g => (List.range 256).all fun h => [7, 8].all fun st =>
    ok (UInt8.ofNat (64 + g)) (UInt8.ofNat h) (UInt8.ofNat st)) = true := by decide +kernel

theorem ok_all {h₀ h₁ st : UInt8} (h : h₀.toNat / 32 = 2) (h' : h₀.toNat / 16 % 2 = 0) (hs : st = 7 ∨ st = 8) :
    ok h₀ h₁ st = true := by
  have t := table
  rw [List.all_eq_true] at t
  have t1 := t (h₀.toNat % 16) (List.mem_range.mpr (Nat.mod_lt _ (by decide)))
  rw [List.all_eq_true] at t1
  have t2 := t1 h₁.toNat (List.mem_range.mpr h₁.toNat_lt)
  rw [List.all_eq_true] at t2
  have t3 := t2 st.toNat (by rcases hs with rfl | rfl <;> decide)
  have e : 64 + h₀.toNat % 16 = h₀.toNat := by omega
  rw [e, UInt8.ofNat_toNat, UInt8.ofNat_toNat, UInt8.ofNat_toNat] at t3
  exact t3

theorem children (gid mt : Nat) (h₁ x y st : UInt8) :
    firstChild [corePacket gid mt [h₁, x, y, st], sessionConfigPacket gid mt [h₁, x, y, st],
      sessionControlPacket gid mt [h₁, x, y, st], androidPacket gid mt [h₁, x, y, st]] =
    firstChild [corePacket gid mt [h₁, 0, 0, st], sessionConfigPacket gid mt [h₁, 0, 0, st],
      sessionControlPacket gid mt [h₁, 0, 0, st], androidPacket gid mt [h₁, 0, 0, st]] := by
  have e : ∀ ms, opcode ms [h₁, x, y, st] = opcode ms [h₁, 0, 0, st] := fun ms => rfl
  simp only [corePacket, sessionConfigPacket, sessionControlPacket, androidPacket, e]

/-- The answer to a malformed packet is read if its group has a name, and then has no identifiers. -/
theorem parse_brief {h₀ h₁ x y st : UInt8} (h : h₀.toNat / 32 = 2) (h' : h₀.toNat / 16 % 2 = 0) (hs : st = 7 ∨ st = 8) :
    (h₀.toNat % 16 ∈ groupIds → ∃ o, parseControl [h₀, h₁, x, y, st] = some o ∧ Brief st.toNat o = true) ∧
    (h₀.toNat % 16 ∉ groupIds → parseControl [h₀, h₁, x, y, st] = none) := by
  have k := ok_all (h₁ := h₁) h h' hs
  have e : ∃ f : Option (Option Obj × Nat × Nat),
      parseControl [h₀, h₁, 0, 0, st] = f.map (fun t => t.1.getD (.controlPacket t.2.1 t.2.2 [h₁, 0, 0, st])) ∧
      parseControl [h₀, h₁, x, y, st] = f.map (fun t => t.1.getD (.controlPacket t.2.1 t.2.2 [h₁, x, y, st])) := by
    refine ⟨(fromInt groupIds (idx [h₀] 0 &&& 0xf)).bind fun gid =>
      (fromInt messageTypes ((idx [h₀] 0 >>> 5) &&& 0x7)).map fun mt => (firstChild [corePacket gid mt [h₁, 0, 0, st],
        sessionConfigPacket gid mt [h₁, 0, 0, st], sessionControlPacket gid mt [h₁, 0, 0, st],
        androidPacket gid mt [h₁, 0, 0, st]], gid, mt), ?_, ?_⟩
    · show ((fromInt groupIds (idx [h₀] 0 &&& 0xf)).bind fun gid =>
        (fromInt messageTypes ((idx [h₀] 0 >>> 5) &&& 0x7)).bind fun mt =>
        some ((firstChild [corePacket gid mt [h₁, 0, 0, st],
        sessionConfigPacket gid mt [h₁, 0, 0, st], sessionControlPacket gid mt [h₁, 0, 0, st],
        androidPacket gid mt [h₁, 0, 0, st]]).getD _)) = _
      cases fromInt groupIds (idx [h₀] 0 &&& 0xf) <;> cases fromInt messageTypes ((idx [h₀] 0 >>> 5) &&& 0x7) <;> rfl
    · show ((fromInt groupIds (idx [h₀] 0 &&& 0xf)).bind fun gid =>
        (fromInt messageTypes ((idx [h₀] 0 >>> 5) &&& 0x7)).bind fun mt =>
        some ((firstChild [corePacket gid mt [h₁, x, y, st],
        sessionConfigPacket gid mt [h₁, x, y, st], sessionControlPacket gid mt [h₁, x, y, st],
        androidPacket gid mt [h₁, x, y, st]]).getD _)) = _
      simp only [children]
      cases fromInt groupIds (idx [h₀] 0 &&& 0xf) <;> cases fromInt messageTypes ((idx [h₀] 0 >>> 5) &&& 0x7) <;> rfl
  obtain ⟨f, e1, e2⟩ := e
  unfold ok at k
  rw [e1] at k
  rw [e2]
  cases f with
  | none =>
    simp only [Option.map_none, Bool.not_eq_true', List.contains_eq_mem, decide_eq_false_iff_not] at k
    exact ⟨fun hg => absurd hg k, fun _ => rfl⟩
  | some t =>
    simp only [Option.map_some, Bool.and_eq_true, List.contains_eq_mem, decide_eq_true_eq] at k
    refine ⟨fun _ => ⟨_, rfl, ?_⟩, fun hg => absurd k.2 hg⟩
    obtain ⟨c, g, m⟩ := t
    cases c with
    | none => exact k.1
    | some o => exact k.1
end Pica.Py.Brief
