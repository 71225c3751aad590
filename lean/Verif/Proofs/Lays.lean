import Verif.Proofs.PyTaken
import Verif.Proofs.Packets
import Verif.Spec.Layout
/-! Codecs have a layout of the packet description: combinators. -/

namespace Pica
open Spec Codec
open Spec.Pdl (Pattern nat gap octets Agrees Matches Takes IsWritten takes_nil octets_cons octets_append octets_leBytes
  octets_length nat_length matches_octets written_octets written_unique)

/-- `c` writes the values that fit with the layout `pat`, and reads whatever has that layout and nothing else. -/
structure Lays {α : Type} (c : Codec α) (fits : α → Prop) (pat : α → Pattern) : Prop where
  enc : ∀ x b, c.enc x = some b ↔ fits x ∧ IsWritten (pat x) b
  dec : ∀ s x r, c.dec s = some (x, r) ↔ fits x ∧ Takes (pat x) s r
  aligned : ∀ x, fits x → ∃ k, (pat x).length = 8 * k

/-- The same for all of the bytes. -/
structure LaysFull {α : Type} (c : Codec α) (fits : α → Prop) (pat : α → Pattern) : Prop where
  enc : ∀ x b, c.enc x = some b ↔ fits x ∧ IsWritten (pat x) b
  dec : ∀ s x, c.decFull s = some x ↔ fits x ∧ Matches (pat x) s

variable {α β : Type}

theorem written_octets_iff {b c : Bytes} : IsWritten (octets b) c ↔ c = b :=
  ⟨fun h => written_unique h (written_octets b), fun h => h ▸ written_octets b⟩

theorem takes_octets_iff {b s r : Bytes} : Takes (octets b) s r ↔ s = b ++ r := by
  constructor
  · rintro ⟨c, rfl, h⟩; rw [matches_octets.1 h]
  · rintro rfl; exact ⟨b, rfl, matches_octets.2 rfl⟩

/-- A codec with a layout in bytes. -/
theorem lays_of {c : Codec α} {fits : α → Prop} {ser : α → Bytes} {pat : α → Pattern} (h : Describes c fits ser)
    (h' : Canonical c fits ser) (hp : ∀ x, pat x = octets (ser x)) : Lays c fits pat where
  enc x b := by rw [h.enc, hp, written_octets_iff]
  dec s x r := by
    rw [hp, takes_octets_iff]
    exact ⟨h' s x r, fun ⟨h1, h2⟩ => h2 ▸ h.dec x r h1⟩
  aligned x _ := ⟨(ser x).length, by rw [hp, octets_length]⟩

theorem lays_u8 : Lays u8 (fun _ => True) (fun x => nat 8 x.toNat) :=
  lays_of describes_u8 canonical_u8 fun x => by simp [octets_cons, Spec.Pdl.octets_nil]
theorem lays_u16 : Lays u16 (fun _ => True) (fun x => nat 16 x.toNat) :=
  lays_of describes_u16 canonical_u16 fun x => (octets_leBytes 2 _).symm
theorem lays_u32 : Lays u32 (fun _ => True) (fun x => nat 32 x.toNat) :=
  lays_of describes_u32 canonical_u32 fun x => (octets_leBytes 4 _).symm
theorem lays_u64 : Lays u64 (fun _ => True) (fun x => nat 64 x.toNat) :=
  lays_of describes_u64 canonical_u64 fun x => (octets_leBytes 8 _).symm
theorem lays_arr (n : Nat) : Lays (arr n) (fun _ => True) (fun x => octets x.1) :=
  lays_of (describes_arr n) (canonical_arr n) fun _ => rfl
theorem lays_enum (E : Type) [WireEnum E] [LawfulWireEnum E] :
    Lays (enum E) (fun _ => True) (fun x => nat 8 (WireEnum.toU8 x).toNat) :=
  lays_of (describes_enum E) (canonical_enum E) fun x => by simp [octets_cons, Spec.Pdl.octets_nil]
theorem lays_status : Lays status (fun _ => True) (fun x => nat 8 x.code.toNat) :=
  lays_of describes_status canonical_status fun x => by simp [octets_cons, Spec.Pdl.octets_nil]
theorem lays_configId : Lays configId (fun _ => True) (fun x => nat 8 x.code.toNat) :=
  lays_of describes_configId canonical_configId fun x => by simp [octets_cons, Spec.Pdl.octets_nil]
theorem lays_tlvType : Lays tlvType (fun x => AppConfigTlvType.isTag x.code) (fun x => nat 8 x.code.toNat) :=
  lays_of describes_tlvType canonical_tlvType fun x => by simp [octets_cons, Spec.Pdl.octets_nil]
theorem lays_bytes8 : Lays bytes8 (fun x => x.length ≤ 255) (fun x => nat 8 x.length ++ octets x) :=
  lays_of describes_bytes8 canonical_bytes8 fun x => by
    rw [octets_cons, UInt8.toNat_ofNat', Spec.Pdl.nat_mod]
theorem lays_unit : Lays Codec.unit (fun _ => True) (fun _ => []) where
  enc x b := by
    simp only [Codec.unit, Option.some.injEq, true_and]
    exact ⟨fun h => h ▸ rfl, fun h => written_unique (p := []) rfl h⟩
  dec s x r := by
    simp only [Codec.unit, Option.some.injEq, Prod.mk.injEq, true_and]
    exact ⟨fun h => h ▸ takes_nil s, fun h => (Py.tk_end h).symm⟩
  aligned _ _ := ⟨0, rfl⟩
theorem lays_reserved (n : Nat) : Lays (reserved n) (fun _ => True) (fun _ => gap (8 * n)) where
  enc x b := by
    simp only [reserved, Option.some.injEq, true_and]
    exact ⟨fun h => h ▸ Spec.Pdl.written_gap rfl, fun h => written_unique (Spec.Pdl.written_gap rfl) h⟩
  dec s x r := by
    simp only [reserved, Option.map_eq_some_iff, takeN_eq_some, Prod.exists, Prod.mk.injEq, true_and]
    constructor
    · rintro ⟨p, q, ⟨rfl, rfl⟩, rfl⟩
      exact ⟨p, rfl, Spec.Pdl.agrees_gap (by rw [Spec.Pdl.bitsOf_length])⟩
    · rintro ⟨b, rfl, h⟩
      refine ⟨b, r, ⟨?_, rfl⟩, rfl⟩
      have := h.length
      simp [gap] at this
      omega
  aligned _ _ := ⟨n, by simp [gap]⟩

theorem written_split {p q : Pattern} {b : Bytes} {k : Nat} (hk : p.length = 8 * k) (h : IsWritten (p ++ q) b) :
    ∃ b₁ b₂, b = b₁ ++ b₂ ∧ IsWritten p b₁ ∧ IsWritten q b₂ := by
  refine ⟨b.take k, b.drop k, (List.take_append_drop k b).symm, ?_, ?_⟩
  · unfold IsWritten at *
    rw [← Spec.Pdl.take_bitsOf, h, List.map_append, List.take_left' (by simp [hk])]
  · unfold IsWritten at *
    rw [← Spec.Pdl.drop_bitsOf, h, List.map_append, List.drop_left' (by simp [hk])]

theorem lays_seq {a : Codec α} {b : Codec β} {fa : α → Prop} {fb : β → Prop} {pa : α → Pattern} {pb : β → Pattern}
    (ha : Lays a fa pa) (hb : Lays b fb pb) : Lays (seq a b) (fun x => fa x.1 ∧ fb x.2) (fun x => pa x.1 ++ pb x.2) where
  enc x s := by
    simp only [seq, Option.bind_eq_bind, Option.bind_eq_some_iff, Option.pure_def, Option.some.injEq]
    constructor
    · rintro ⟨p, hp, q, hq, rfl⟩
      obtain ⟨h1, h2⟩ := (ha.enc _ _).1 hp
      obtain ⟨h3, h4⟩ := (hb.enc _ _).1 hq
      exact ⟨⟨h1, h3⟩, h2.append h4⟩
    · rintro ⟨⟨h1, h2⟩, h3⟩
      obtain ⟨k, hk⟩ := ha.aligned _ h1
      obtain ⟨p, q, rfl, hp, hq⟩ := written_split hk h3
      exact ⟨p, (ha.enc _ _).2 ⟨h1, hp⟩, q, (hb.enc _ _).2 ⟨h2, hq⟩, rfl⟩
  dec s x r := by
    simp only [seq, Option.bind_eq_bind, Option.bind_eq_some_iff, Option.pure_def, Option.some.injEq, Prod.exists]
    constructor
    · rintro ⟨y, t, hy, z, u, hz, h⟩
      cases h
      obtain ⟨h1, h2⟩ := (ha.dec _ _ _).1 hy
      obtain ⟨h3, h4⟩ := (hb.dec _ _ _).1 hz
      exact ⟨⟨h1, h3⟩, h2.append h4⟩
    · rintro ⟨⟨h1, h2⟩, h3⟩
      obtain ⟨k, hk⟩ := ha.aligned _ h1
      obtain ⟨_, h4, h5⟩ := Py.takes_split h3 hk
      exact ⟨x.1, s.drop k, (ha.dec _ _ _).2 ⟨h1, _, (List.take_append_drop k s).symm, h4⟩, x.2, r,
        (hb.dec _ _ _).2 ⟨h2, h5⟩, rfl⟩
  aligned x h := by
    obtain ⟨k, hk⟩ := ha.aligned _ h.1
    obtain ⟨l, hl⟩ := hb.aligned _ h.2
    exact ⟨k + l, by rw [List.length_append, hk, hl]; omega⟩

theorem lays_iso {a : Codec α} {fa : α → Prop} {pa : α → Pattern} (ha : Lays a fa pa) {f : α → β} {g : β → α}
    (hfg : ∀ y, f (g y) = y) (hgf : ∀ x, g (f x) = x) : Lays (iso a f g) (fun y => fa (g y)) (fun y => pa (g y)) where
  enc x b := ha.enc _ _
  dec s y r := by
    simp only [iso, Option.map_eq_some_iff, Prod.exists, Prod.mk.injEq]
    constructor
    · rintro ⟨x, t, hx, rfl, rfl⟩
      rw [hgf]
      exact (ha.dec _ _ _).1 hx
    · intro h
      exact ⟨g y, r, (ha.dec _ _ _).2 h, hfg y, rfl⟩
  aligned x h := ha.aligned _ h

theorem Lays.congr {c : Codec α} {f g : α → Prop} {p q : α → Pattern} (h : Lays c f p) (hf : ∀ x, f x ↔ g x)
    (hp : ∀ x, p x = q x) : Lays c g q := by
  obtain rfl : f = g := funext fun x => propext (hf x)
  obtain rfl : p = q := funext hp
  exact h

theorem LaysFull.congr {c : Codec α} {f g : α → Prop} {p q : α → Pattern} (h : LaysFull c f p) (hf : ∀ x, f x ↔ g x)
    (hp : ∀ x, p x = q x) : LaysFull c g q := by
  obtain rfl : f = g := funext fun x => propext (hf x)
  obtain rfl : p = q := funext hp
  exact h

theorem lays_all {a : Codec α} {fa : α → Prop} {pa : α → Pattern} (ha : Lays a fa pa) (l : List α) :
    (∀ b, encAll a l = some b ↔ (∀ x ∈ l, fa x) ∧ IsWritten (l.flatMap pa) b) ∧
    (∀ n s r, decRepeat a n s = some (l, r) ↔ n = l.length ∧ (∀ x ∈ l, fa x) ∧ Takes (l.flatMap pa) s r) ∧
    ((∀ x ∈ l, fa x) → ∃ k, (l.flatMap pa).length = 8 * k) := by
  induction l with
  | nil =>
    refine ⟨fun b => ?_, fun n s r => ?_, fun _ => ⟨0, rfl⟩⟩
    · simp only [encAll, Option.some.injEq, List.not_mem_nil, false_implies, implies_true, true_and, List.flatMap_nil]
      exact ⟨fun h => h ▸ rfl, fun h => written_unique (p := []) rfl h⟩
    · cases n with
      | zero =>
        simp only [decRepeat, Option.some.injEq, Prod.mk.injEq, true_and, List.length_nil, List.not_mem_nil, false_implies,
          implies_true, List.flatMap_nil]
        exact ⟨fun h => h ▸ takes_nil s, fun h => (Py.tk_end h).symm⟩
      | succ n =>
        simp only [decRepeat, Option.bind_eq_bind, Option.bind_eq_some_iff, Option.pure_def, Option.some.injEq, Prod.exists]
        constructor
        · rintro ⟨_, _, _, _, _, _, h⟩; cases h
        · rintro ⟨h, _⟩; cases h
  | cons x l ih =>
    obtain ⟨i1, i2, i3⟩ := ih
    simp only [List.flatMap_cons, List.mem_cons, forall_eq_or_imp, List.length_cons]
    refine ⟨fun b => ?_, fun n s r => ?_, fun h => ?_⟩
    · simp only [encAll, Option.bind_eq_bind, Option.bind_eq_some_iff, Option.pure_def, Option.some.injEq]
      constructor
      · rintro ⟨p, hp, q, hq, rfl⟩
        obtain ⟨h1, h2⟩ := (ha.enc _ _).1 hp
        obtain ⟨h3, h4⟩ := (i1 _).1 hq
        exact ⟨⟨h1, h3⟩, h2.append h4⟩
      · rintro ⟨⟨h1, h2⟩, h3⟩
        obtain ⟨k, hk⟩ := ha.aligned _ h1
        obtain ⟨p, q, rfl, hp, hq⟩ := written_split hk h3
        exact ⟨p, (ha.enc _ _).2 ⟨h1, hp⟩, q, (i1 _).2 ⟨h2, hq⟩, rfl⟩
    · cases n with
      | zero =>
        simp only [decRepeat, Option.some.injEq, Prod.mk.injEq]
        constructor
        · rintro ⟨h, _⟩; cases h
        · rintro ⟨h, _⟩; omega
      | succ n =>
        simp only [decRepeat, Option.bind_eq_bind, Option.bind_eq_some_iff, Option.pure_def, Option.some.injEq, Prod.exists]
        constructor
        · rintro ⟨y, t, hy, z, u, hz, h⟩
          cases h
          obtain ⟨h1, h2⟩ := (ha.dec _ _ _).1 hy
          obtain ⟨h3, h4, h5⟩ := (i2 _ _ _).1 hz
          exact ⟨by rw [h3], ⟨h1, h4⟩, h2.append h5⟩
        · rintro ⟨h0, ⟨h1, h2⟩, h3⟩
          obtain ⟨k, hk⟩ := ha.aligned _ h1
          obtain ⟨_, h4, h5⟩ := Py.takes_split h3 hk
          exact ⟨x, s.drop k, (ha.dec _ _ _).2 ⟨h1, _, (List.take_append_drop k s).symm, h4⟩, l, r,
            (i2 _ _ _).2 ⟨by omega, h2, h5⟩, rfl⟩
    · obtain ⟨k, hk⟩ := ha.aligned _ h.1
      obtain ⟨m, hm⟩ := i3 h.2
      exact ⟨k + m, by rw [List.length_append, hk, hm]; omega⟩

theorem lays_counted8 {a : Codec α} {fa : α → Prop} {pa : α → Pattern} (ha : Lays a fa pa) :
    Lays (counted8 a) (fun l => l.length ≤ 255 ∧ ∀ x ∈ l, fa x) (fun l => nat 8 l.length ++ l.flatMap pa) where
  enc l b := by
    simp only [counted8]
    split
    · rename_i hl
      simp only [Option.map_eq_some_iff, hl, true_and]
      constructor
      · rintro ⟨p, hp, rfl⟩
        obtain ⟨h1, h2⟩ := ((lays_all ha l).1 _).1 hp
        exact ⟨h1, (Spec.Pdl.written_byte l.length).append h2⟩
      · rintro ⟨h1, h2⟩
        obtain ⟨p, q, rfl, hp, hq⟩ := written_split (k := 1) (nat_length _ _) h2
        have := written_unique hp (Spec.Pdl.written_byte l.length)
        subst this
        exact ⟨q, ((lays_all ha l).1 _).2 ⟨h1, hq⟩, rfl⟩
    · rename_i hl
      simp [hl]
  dec s l r := by
    cases s with
    | nil =>
      simp only [counted8]
      constructor
      · intro h; cases h
      · rintro ⟨_, h⟩
        obtain ⟨h1, _⟩ := Py.takes_split (k := 1) h (nat_length _ _)
        simp at h1
    | cons n t =>
      simp only [counted8]
      rw [(lays_all ha l).2.1]
      constructor
      · rintro ⟨h1, h2, h3⟩
        have := n.toNat_lt
        refine ⟨⟨by omega, h2⟩, Takes.append ⟨[n], rfl, ?_⟩ h3⟩
        rw [← h1]
        have := matches_octets (b := [n]) (c := [n])
        simpa [octets_cons, Spec.Pdl.octets_nil] using this
      · rintro ⟨⟨h1, h2⟩, h3⟩
        obtain ⟨_, h4, h5⟩ := Py.takes_split (k := 1) h3 (nat_length _ _)
        have h6 := Py.matches_nat (k := 1) (by simp) rfl (by omega) h4
        simp only [List.take_succ_cons, List.take_zero, ofLe] at h6
        exact ⟨by simpa using h6, h2, h5⟩
  aligned l h := by
    obtain ⟨k, hk⟩ := (lays_all ha l).2.2 h.2
    exact ⟨1 + k, by rw [List.length_append, nat_length, hk]; omega⟩

theorem lays_bytes16 : Lays bytes16 (fun x => x.length ≤ 65535) (fun x => nat 16 x.length ++ octets x) where
  enc x b := by
    simp only [bytes16]
    split
    · rename_i h
      simp only [Option.some.injEq, h, true_and]
      rw [← octets_leBytes 2, ← octets_append, written_octets_iff, eq_comm]
    · rename_i h; simp [h]
  dec s x r := by
    simp only [bytes16, Option.bind_eq_bind, Option.bind_eq_some_iff, takeN_eq_some, Prod.exists]
    rw [← octets_leBytes 2, ← octets_append, takes_octets_iff]
    constructor
    · rintro ⟨p, t, ⟨h1, rfl⟩, h2, rfl⟩
      have := ofLe_lt p
      rw [h1] at this
      refine ⟨by omega, ?_⟩
      rw [h2, ← h1, leBytes_ofLe, List.append_assoc]
    · rintro ⟨h1, rfl⟩
      refine ⟨leBytes 2 x.length, x ++ r, ⟨by simp, by simp⟩, ?_, rfl⟩
      rw [ofLe_leBytes, Nat.mod_eq_of_lt (by omega)]
  aligned x _ := ⟨2 + x.length, by rw [List.length_append, nat_length, octets_length]; omega⟩

/-! ### All of the bytes -/

theorem decFull_iff {c : Codec α} {s : Bytes} {x : α} : c.decFull s = some x ↔ c.dec s = some (x, []) := by
  unfold decFull
  cases h : c.dec s with
  | none => simp
  | some y =>
    obtain ⟨y, r⟩ := y
    cases r <;> simp

theorem Lays.full {c : Codec α} {f : α → Prop} {p : α → Pattern} (h : Lays c f p) : LaysFull c f p where
  enc := h.enc
  dec s x := by
    rw [decFull_iff, h.dec]
    exact and_congr_right fun _ => ⟨Takes.matches, Matches.takes⟩

theorem layf_rest : LaysFull rest (fun _ => True) octets where
  enc x b := by simp only [rest, Option.some.injEq, true_and]; rw [written_octets_iff, eq_comm]
  dec s x := by
    rw [decFull_iff]
    simp only [rest, Option.some.injEq, Prod.mk.injEq, and_true, true_and]
    rw [matches_octets]

theorem layf_seq {a : Codec α} {b : Codec β} {fa : α → Prop} {fb : β → Prop} {pa : α → Pattern} {pb : β → Pattern}
    (ha : Lays a fa pa) (hb : LaysFull b fb pb) :
    LaysFull (seq a b) (fun x => fa x.1 ∧ fb x.2) (fun x => pa x.1 ++ pb x.2) where
  enc x s := by
    simp only [seq, Option.bind_eq_bind, Option.bind_eq_some_iff, Option.pure_def, Option.some.injEq]
    constructor
    · rintro ⟨p, hp, q, hq, rfl⟩
      obtain ⟨h1, h2⟩ := (ha.enc _ _).1 hp
      obtain ⟨h3, h4⟩ := (hb.enc _ _).1 hq
      exact ⟨⟨h1, h3⟩, h2.append h4⟩
    · rintro ⟨⟨h1, h2⟩, h3⟩
      obtain ⟨k, hk⟩ := ha.aligned _ h1
      obtain ⟨p, q, rfl, hp, hq⟩ := written_split hk h3
      exact ⟨p, (ha.enc _ _).2 ⟨h1, hp⟩, q, (hb.enc _ _).2 ⟨h2, hq⟩, rfl⟩
  dec s x := by
    rw [decFull_iff]
    simp only [seq, Option.bind_eq_bind, Option.bind_eq_some_iff, Option.pure_def, Option.some.injEq, Prod.exists]
    constructor
    · rintro ⟨y, t, hy, z, u, hz, h⟩
      cases h
      obtain ⟨h1, h2⟩ := (ha.dec _ _ _).1 hy
      obtain ⟨h3, h4⟩ := (hb.dec _ _).1 (decFull_iff.2 hz)
      exact ⟨⟨h1, h3⟩, (h2.append h4.takes).matches⟩
    · rintro ⟨⟨h1, h2⟩, h3⟩
      obtain ⟨k, hk⟩ := ha.aligned _ h1
      obtain ⟨_, h4, h5⟩ := Py.takes_split h3.takes hk
      exact ⟨x.1, s.drop k, (ha.dec _ _ _).2 ⟨h1, _, (List.take_append_drop k s).symm, h4⟩, x.2, [],
        decFull_iff.1 ((hb.dec _ _).2 ⟨h2, h5.matches⟩), rfl⟩

end Pica
