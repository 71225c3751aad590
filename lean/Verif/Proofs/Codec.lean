import Verif.Model.Codec
import Verif.Proofs.Bytes
import Verif.Proofs.Enums
/-! Codecs describe a byte layout: combinators. -/

namespace Pica
namespace Codec
variable {α β : Type}

/-- `c` encodes exactly the well formed values, with the layout `ser`, and decodes that layout. -/
structure Describes (c : Codec α) (wf : α → Prop) (ser : α → Bytes) : Prop where
  enc : ∀ x b, c.enc x = some b ↔ wf x ∧ b = ser x
  dec : ∀ x r, wf x → c.dec (ser x ++ r) = some (x, r)

/-- `c` decodes nothing else than the layout. -/
def Canonical (c : Codec α) (wf : α → Prop) (ser : α → Bytes) : Prop :=
  ∀ bs x r, c.dec bs = some (x, r) → wf x ∧ bs = ser x ++ r

theorem takeN_append {n : Nat} {p r : Bytes} (h : p.length = n) : takeN n (p ++ r) = some (p, r) := by
  subst h; simp [takeN]

theorem takeN_eq_some {n : Nat} {bs p r : Bytes} :
    takeN n bs = some (p, r) ↔ p.length = n ∧ bs = p ++ r := by
  constructor
  · intro h
    unfold takeN at h
    split at h
    · rename_i hn
      simp only [Option.some.injEq, Prod.mk.injEq] at h
      obtain ⟨rfl, rfl⟩ := h
      exact ⟨by simp [hn], (List.take_append_drop n bs).symm⟩
    · cases h
  · rintro ⟨h, rfl⟩; exact takeN_append h

theorem describes_u8 : Describes u8 (fun _ => True) (fun x => [x]) :=
  ⟨fun x b => by simp [u8, eq_comm], fun _ _ _ => rfl⟩
theorem canonical_u8 : Canonical u8 (fun _ => True) (fun x => [x]) := by
  intro bs x r h
  cases bs <;> simp_all [u8]

theorem describes_u16 : Describes u16 (fun _ => True) u16le :=
  ⟨fun x b => by simp [u16, eq_comm], fun x r _ => by simp [u16, takeN_append (length_u16le x)]⟩
theorem canonical_u16 : Canonical u16 (fun _ => True) u16le := by
  intro bs x r h
  simp only [u16, Option.map_eq_some_iff, Prod.exists, takeN_eq_some] at h
  obtain ⟨p, q, ⟨hp, rfl⟩, h⟩ := h
  simp only [Prod.mk.injEq] at h
  obtain ⟨rfl, rfl⟩ := h
  rw [u16le_ofLe hp]; simp

theorem describes_u32 : Describes u32 (fun _ => True) u32le :=
  ⟨fun x b => by simp [u32, eq_comm], fun x r _ => by simp [u32, takeN_append (length_u32le x)]⟩
theorem canonical_u32 : Canonical u32 (fun _ => True) u32le := by
  intro bs x r h
  simp only [u32, Option.map_eq_some_iff, Prod.exists, takeN_eq_some] at h
  obtain ⟨p, q, ⟨hp, rfl⟩, h⟩ := h
  simp only [Prod.mk.injEq] at h
  obtain ⟨rfl, rfl⟩ := h
  rw [u32le_ofLe hp]; simp

theorem describes_u64 : Describes u64 (fun _ => True) u64le :=
  ⟨fun x b => by simp [u64, eq_comm], fun x r _ => by simp [u64, takeN_append (length_u64le x)]⟩
theorem canonical_u64 : Canonical u64 (fun _ => True) u64le := by
  intro bs x r h
  simp only [u64, Option.map_eq_some_iff, Prod.exists, takeN_eq_some] at h
  obtain ⟨p, q, ⟨hp, rfl⟩, h⟩ := h
  simp only [Prod.mk.injEq] at h
  obtain ⟨rfl, rfl⟩ := h
  rw [u64le_ofLe hp]; simp

theorem describes_arr (n : Nat) : Describes (arr n) (fun _ => True) (fun x => x.1) :=
  ⟨fun x b => by simp [arr, eq_comm], fun x r _ => by simp [arr, takeN_append x.2]⟩
theorem canonical_arr (n : Nat) : Canonical (arr n) (fun _ => True) (fun x => x.1) := by
  intro bs x r h
  simp only [arr, Option.bind_eq_some_iff, Prod.exists, takeN_eq_some, Option.map_eq_some_iff] at h
  obtain ⟨p, q, ⟨hp, rfl⟩, a, ha, h⟩ := h
  simp only [Prod.mk.injEq] at h
  obtain ⟨rfl, rfl⟩ := h
  dsimp only; rw [Arr.ofBytes?_eq_some.mp ha]; simp

theorem describes_enum (E : Type) [WireEnum E] [LawfulWireEnum E] :
    Describes (enum E) (fun _ => True) (fun x => [WireEnum.toU8 x]) :=
  ⟨fun x b => by simp [enum, eq_comm], fun x r _ => by simp [enum, WireEnum.ofU8?_toU8]⟩
theorem canonical_enum (E : Type) [WireEnum E] [LawfulWireEnum E] :
    Canonical (enum E) (fun _ => True) (fun x => [WireEnum.toU8 x]) := by
  intro bs x r h
  cases bs with
  | nil => simp [enum] at h
  | cons b bs =>
    simp only [enum, Option.map_eq_some_iff, WireEnum.ofU8?_eq_some, Prod.mk.injEq] at h
    obtain ⟨e, rfl, rfl, rfl⟩ := h
    simp

theorem describes_status : Describes status (fun _ => True) (fun x => [x.code]) :=
  ⟨fun x b => ⟨fun h => ⟨trivial, (Option.some.inj h).symm⟩, fun h => h.2 ▸ rfl⟩, fun x r _ => by simp [status, Status.isTag]⟩
theorem canonical_status : Canonical status (fun _ => True) (fun x => [x.code]) := by
  intro bs x r h
  cases bs with
  | nil => simp [status] at h
  | cons b bs =>
    simp only [status, Status.isTag, if_true, Option.some.injEq, Prod.mk.injEq] at h
    obtain ⟨rfl, rfl⟩ := h; simp

theorem describes_configId : Describes configId (fun _ => True) (fun x => [x.code]) :=
  ⟨fun x b => ⟨fun h => ⟨trivial, (Option.some.inj h).symm⟩, fun h => h.2 ▸ rfl⟩, fun x r _ => by simp [configId, ConfigParameterId.isTag]⟩
theorem canonical_configId : Canonical configId (fun _ => True) (fun x => [x.code]) := by
  intro bs x r h
  cases bs with
  | nil => simp [configId] at h
  | cons b bs =>
    simp only [configId, ConfigParameterId.isTag, if_true, Option.some.injEq, Prod.mk.injEq] at h
    obtain ⟨rfl, rfl⟩ := h; simp

theorem describes_tlvType :
    Describes tlvType (fun x => AppConfigTlvType.isTag x.code) (fun x => [x.code]) := by
  refine ⟨fun x b => ?_, fun x r h => ?_⟩
  · simp only [tlvType]
    split
    · rename_i h
      exact ⟨fun e => ⟨h, (Option.some.inj e).symm⟩, fun e => e.2 ▸ rfl⟩
    · rename_i h
      exact ⟨fun e => (by cases e), fun e => absurd e.1 h⟩
  · simp [tlvType, h]
theorem canonical_tlvType :
    Canonical tlvType (fun x => AppConfigTlvType.isTag x.code) (fun x => [x.code]) := by
  intro bs x r h
  cases bs with
  | nil => simp [tlvType] at h
  | cons b bs =>
    simp only [tlvType] at h
    split at h
    · simp only [Option.some.injEq, Prod.mk.injEq] at h
      obtain ⟨rfl, rfl⟩ := h; simpa
    · cases h

theorem describes_capType :
    Describes capType (fun x => CapTlvType.isTag x.code) (fun x => [x.code]) := by
  refine ⟨fun x b => ?_, fun x r h => ?_⟩
  · simp only [capType]
    split
    · rename_i h
      exact ⟨fun e => ⟨h, (Option.some.inj e).symm⟩, fun e => e.2 ▸ rfl⟩
    · rename_i h
      exact ⟨fun e => (by cases e), fun e => absurd e.1 h⟩
  · simp [capType, h]

theorem describes_unit : Describes unit (fun _ => True) (fun _ => []) :=
  ⟨fun x b => by simp [unit, eq_comm], fun _ _ _ => rfl⟩
theorem canonical_unit : Canonical unit (fun _ => True) (fun _ => []) := by
  intro bs x r h
  simp_all [unit]

theorem describes_reserved (n : Nat) : Describes (reserved n) (fun _ => True) (fun _ => List.replicate n 0) :=
  ⟨fun x b => by simp [reserved, eq_comm], fun x r _ => by simp [reserved, takeN_append]⟩

theorem describes_bytes8 :
    Describes bytes8 (fun x => x.length ≤ 255) (fun x => UInt8.ofNat x.length :: x) := by
  refine ⟨fun x b => ?_, fun x r h => ?_⟩
  · simp only [bytes8]
    split
    · rename_i h
      exact ⟨fun e => ⟨h, (Option.some.inj e).symm⟩, fun e => e.2 ▸ rfl⟩
    · rename_i h
      exact ⟨fun e => (by cases e), fun e => absurd e.1 h⟩
  · simp only [bytes8, List.cons_append]
    rw [UInt8.toNat_ofNat_of_lt' (by show x.length < 256; omega)]
    exact takeN_append rfl
theorem canonical_bytes8 :
    Canonical bytes8 (fun x => x.length ≤ 255) (fun x => UInt8.ofNat x.length :: x) := by
  intro bs x r h
  cases bs with
  | nil => simp [bytes8] at h
  | cons b bs =>
    simp only [bytes8, takeN_eq_some] at h
    obtain ⟨h, rfl⟩ := h
    have := b.toNat_lt
    dsimp only
    rw [h]
    exact ⟨by omega, by simp⟩

theorem describes_bytes16 :
    Describes bytes16 (fun x => x.length ≤ 65535) (fun x => leBytes 2 x.length ++ x) := by
  refine ⟨fun x b => ?_, fun x r h => ?_⟩
  · simp only [bytes16]
    split
    · rename_i h
      exact ⟨fun e => ⟨h, (Option.some.inj e).symm⟩, fun e => e.2 ▸ rfl⟩
    · rename_i h
      exact ⟨fun e => (by cases e), fun e => absurd e.1 h⟩
  · simp only [bytes16, List.append_assoc, Option.bind_eq_bind]
    rw [takeN_append (length_leBytes 2 _), Option.bind_some]
    dsimp only
    rw [ofLe_leBytes, Nat.mod_eq_of_lt (by omega)]
    exact takeN_append rfl
theorem canonical_bytes16 :
    Canonical bytes16 (fun x => x.length ≤ 65535) (fun x => leBytes 2 x.length ++ x) := by
  intro bs x r h
  simp only [bytes16, Option.bind_eq_bind, Option.bind_eq_some_iff, Prod.exists, takeN_eq_some] at h
  obtain ⟨p, q, ⟨hp, rfl⟩, hx, rfl⟩ := h
  have := ofLe_lt p
  rw [hp] at this
  dsimp only
  rw [hx, leBytes_ofLe' hp]
  exact ⟨by omega, by simp⟩

theorem describes_seq {a : Codec α} {b : Codec β} {wa wb sa sb}
    (ha : Describes a wa sa) (hb : Describes b wb sb) :
    Describes (seq a b) (fun x => wa x.1 ∧ wb x.2) (fun x => sa x.1 ++ sb x.2) := by
  refine ⟨fun x y => ?_, fun x r h => ?_⟩
  · simp only [seq, Option.bind_eq_bind, Option.bind_eq_some_iff, ha.enc, hb.enc, Option.pure_def,
      Option.some.injEq]
    constructor
    · rintro ⟨p, ⟨h1, rfl⟩, q, ⟨h2, rfl⟩, rfl⟩; exact ⟨⟨h1, h2⟩, rfl⟩
    · rintro ⟨⟨h1, h2⟩, rfl⟩; exact ⟨_, ⟨h1, rfl⟩, _, ⟨h2, rfl⟩, rfl⟩
  · simp [seq, List.append_assoc, ha.dec _ _ h.1, hb.dec _ _ h.2]
theorem canonical_seq {a : Codec α} {b : Codec β} {wa wb sa sb}
    (ha : Canonical a wa sa) (hb : Canonical b wb sb) :
    Canonical (seq a b) (fun x => wa x.1 ∧ wb x.2) (fun x => sa x.1 ++ sb x.2) := by
  intro bs x r h
  simp only [seq, Option.bind_eq_bind, Option.bind_eq_some_iff, Prod.exists, Option.pure_def,
    Option.some.injEq, Prod.mk.injEq] at h
  obtain ⟨y, q, h1, z, q', h2, rfl, rfl⟩ := h
  obtain ⟨w1, rfl⟩ := ha _ _ _ h1
  obtain ⟨w2, rfl⟩ := hb _ _ _ h2
  exact ⟨⟨w1, w2⟩, by simp⟩

theorem describes_iso {a : Codec α} {to : α → β} {from_ : β → α} {wa sa}
    (ha : Describes a wa sa) (hi : ∀ y, to (from_ y) = y) :
    Describes (iso a to from_) (fun y => wa (from_ y)) (fun y => sa (from_ y)) := by
  refine ⟨fun x y => ha.enc _ _, fun x r h => ?_⟩
  simp [iso, ha.dec _ _ h, hi]
theorem canonical_iso {a : Codec α} {to : α → β} {from_ : β → α} {wa sa}
    (ha : Canonical a wa sa) (hi : ∀ x, from_ (to x) = x) :
    Canonical (iso a to from_) (fun y => wa (from_ y)) (fun y => sa (from_ y)) := by
  intro bs x r h
  simp only [iso, Option.map_eq_some_iff, Prod.exists, Prod.mk.injEq] at h
  obtain ⟨y, q, h, rfl, rfl⟩ := h
  dsimp only; rw [hi]; exact ha _ _ _ h

theorem encAll_eq_some {a : Codec α} {wa sa} (ha : Describes a wa sa) (xs : List α) (b : Bytes) :
    encAll a xs = some b ↔ (∀ x ∈ xs, wa x) ∧ b = xs.flatMap sa := by
  induction xs generalizing b with
  | nil => simp [encAll, eq_comm]
  | cons x xs ih =>
    simp only [encAll, Option.bind_eq_bind, Option.bind_eq_some_iff, ha.enc, ih, Option.pure_def,
      Option.some.injEq, List.mem_cons, forall_eq_or_imp, List.flatMap_cons]
    constructor
    · rintro ⟨p, ⟨h1, rfl⟩, q, ⟨h2, rfl⟩, rfl⟩; exact ⟨⟨h1, h2⟩, rfl⟩
    · rintro ⟨⟨h1, h2⟩, rfl⟩; exact ⟨_, ⟨h1, rfl⟩, _, ⟨h2, rfl⟩, rfl⟩

theorem decRepeat_flatMap {a : Codec α} {wa sa} (ha : Describes a wa sa) (xs : List α)
    (hx : ∀ x ∈ xs, wa x) (r : Bytes) : decRepeat a xs.length (xs.flatMap sa ++ r) = some (xs, r) := by
  induction xs with
  | nil => rfl
  | cons x xs ih =>
    simp [decRepeat, List.append_assoc, ha.dec x _ (hx x (by simp)), ih (fun y hy => hx y (by simp [hy]))]

theorem decRepeat_canonical {a : Codec α} {wa sa} (ha : Canonical a wa sa) (n : Nat) (bs r : Bytes)
    (xs : List α) (h : decRepeat a n bs = some (xs, r)) :
    xs.length = n ∧ (∀ x ∈ xs, wa x) ∧ bs = xs.flatMap sa ++ r := by
  induction n generalizing bs xs with
  | zero =>
    simp only [decRepeat, Option.some.injEq, Prod.mk.injEq] at h
    obtain ⟨rfl, rfl⟩ := h; simp
  | succ n ih =>
    simp only [decRepeat, Option.bind_eq_bind, Option.bind_eq_some_iff, Prod.exists, Option.pure_def,
      Option.some.injEq, Prod.mk.injEq] at h
    obtain ⟨y, q, h1, ys, q', h2, rfl, rfl⟩ := h
    obtain ⟨w1, rfl⟩ := ha _ _ _ h1
    obtain ⟨hl, w2, rfl⟩ := ih _ _ h2
    refine ⟨by simp [hl], ?_, by simp⟩
    simpa using ⟨w1, w2⟩

theorem describes_counted8 {a : Codec α} {wa sa} (ha : Describes a wa sa) :
    Describes (counted8 a) (fun xs => xs.length ≤ 255 ∧ ∀ x ∈ xs, wa x)
      (fun xs => UInt8.ofNat xs.length :: xs.flatMap sa) := by
  refine ⟨fun x b => ?_, fun x r h => ?_⟩
  · simp only [counted8]
    split
    · simp only [Option.map_eq_some_iff, encAll_eq_some ha]
      constructor
      · rintro ⟨y, ⟨h1, rfl⟩, rfl⟩; exact ⟨⟨‹_›, h1⟩, rfl⟩
      · rintro ⟨⟨_, h1⟩, rfl⟩; exact ⟨_, ⟨h1, rfl⟩, rfl⟩
    · rename_i h
      exact ⟨fun e => (by cases e), fun e => absurd e.1.1 h⟩
  · simp only [counted8, List.cons_append]
    rw [UInt8.toNat_ofNat_of_lt' (by show x.length < 256; omega)]
    exact decRepeat_flatMap ha x h.2 r
theorem canonical_counted8 {a : Codec α} {wa sa} (ha : Canonical a wa sa) :
    Canonical (counted8 a) (fun xs => xs.length ≤ 255 ∧ ∀ x ∈ xs, wa x)
      (fun xs => UInt8.ofNat xs.length :: xs.flatMap sa) := by
  intro bs x r h
  cases bs with
  | nil => simp [counted8] at h
  | cons b bs =>
    simp only [counted8] at h
    obtain ⟨hl, hw, rfl⟩ := decRepeat_canonical ha _ _ _ _ h
    have := b.toNat_lt
    refine ⟨⟨by omega, hw⟩, ?_⟩
    dsimp only; rw [hl]; simp

/-! Whole buffers. -/

theorem decFull_eq_some {a : Codec α} {bs : Bytes} {x : α} :
    decFull a bs = some x ↔ a.dec bs = some (x, []) := by
  unfold decFull
  split
  · rename_i h; simp [h]
  · rename_i h
    simp only [reduceCtorEq, false_iff]
    exact h x

theorem Describes.congr {c : Codec α} {wf wf' ser ser'} (h : Describes c wf ser)
    (hw : ∀ x, wf x ↔ wf' x) (hs : ∀ x, ser x = ser' x) : Describes c wf' ser' :=
  ⟨fun x b => by rw [h.enc, hw, hs], fun x r w => by rw [← hs]; exact h.dec x r ((hw x).mpr w)⟩

/-- The layouts fill the buffer. -/
structure Full (c : Codec α) (wf : α → Prop) (ser : α → Bytes) : Prop where
  enc : ∀ x b, c.enc x = some b ↔ wf x ∧ b = ser x
  dec : ∀ x, wf x → c.decFull (ser x) = some x

/-- Nothing but the layouts fills the buffer. -/
def FullCanonical (c : Codec α) (wf : α → Prop) (ser : α → Bytes) : Prop :=
  ∀ bs x, c.decFull bs = some x → wf x ∧ bs = ser x

theorem Describes.full {c : Codec α} {wf ser} (h : Describes c wf ser) : Full c wf ser :=
  ⟨h.enc, fun x w => decFull_eq_some.mpr (by simpa using h.dec x [] w)⟩

theorem Canonical.full {c : Codec α} {wf ser} (h : Canonical c wf ser) : FullCanonical c wf ser := by
  intro bs x hx
  simpa using h _ _ _ (decFull_eq_some.mp hx)

theorem Full.congr {c : Codec α} {wf wf' ser ser'} (h : Full c wf ser)
    (hw : ∀ x, wf x ↔ wf' x) (hs : ∀ x, ser x = ser' x) : Full c wf' ser' :=
  ⟨fun x b => by rw [h.enc, hw, hs], fun x w => by rw [← hs]; exact h.dec x ((hw x).mpr w)⟩

theorem full_rest : Full rest (fun _ => True) id :=
  ⟨fun x b => by simp [rest, eq_comm], fun _ _ => by simp [decFull, rest]⟩
theorem fullCanonical_rest : FullCanonical rest (fun _ => True) id := by
  intro bs x h
  simpa [decFull, rest] using h

theorem full_seq {a : Codec α} {b : Codec β} {wa wb sa sb}
    (ha : Describes a wa sa) (hb : Full b wb sb) :
    Full (seq a b) (fun x => wa x.1 ∧ wb x.2) (fun x => sa x.1 ++ sb x.2) := by
  refine ⟨fun x y => ?_, fun x h => ?_⟩
  · simp only [seq, Option.bind_eq_bind, Option.bind_eq_some_iff, ha.enc, hb.enc, Option.pure_def,
      Option.some.injEq]
    constructor
    · rintro ⟨p, ⟨h1, rfl⟩, q, ⟨h2, rfl⟩, rfl⟩; exact ⟨⟨h1, h2⟩, rfl⟩
    · rintro ⟨⟨h1, h2⟩, rfl⟩; exact ⟨_, ⟨h1, rfl⟩, _, ⟨h2, rfl⟩, rfl⟩
  · rw [decFull_eq_some]
    have := decFull_eq_some.mp (hb.dec _ h.2)
    simp [seq, ha.dec _ _ h.1, this]
theorem fullCanonical_seq {a : Codec α} {b : Codec β} {wa wb sa sb}
    (ha : Canonical a wa sa) (hb : FullCanonical b wb sb) :
    FullCanonical (seq a b) (fun x => wa x.1 ∧ wb x.2) (fun x => sa x.1 ++ sb x.2) := by
  intro bs x h
  simp only [decFull_eq_some, seq, Option.bind_eq_bind, Option.bind_eq_some_iff, Prod.exists, Option.pure_def,
    Option.some.injEq, Prod.mk.injEq] at h
  obtain ⟨y, q, h1, z, q', h2, rfl, rfl⟩ := h
  obtain ⟨w1, rfl⟩ := ha _ _ _ h1
  obtain ⟨w2, rfl⟩ := hb _ _ (decFull_eq_some.mpr h2)
  exact ⟨⟨w1, w2⟩, rfl⟩

end Codec
end Pica
