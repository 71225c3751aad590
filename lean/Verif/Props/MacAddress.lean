import Verif.Proofs.MacAddress

/-! C01, C02, C03: MAC addresses. -/

namespace Pica.Props
open MacAddress Spec

/-! ### C02 -/

/-- C02, short addresses: `MacAddress::new` accepts a text as a short address exactly when the text without its colons is made of
four hexadecimal digits and any number of `%3A`, and the bytes are the digits two by two. -/
theorem C02_parse_short_iff (text : List Char) (a : Arr 2) :
    MacAddress.parse text = some (.short a) ↔
      ∃ ds, HexText (withoutColons text) ds ∧ ds.length = 4 ∧ a.1.map UInt8.toNat = pairUp ds := by
  simp only [hexText_iff, ← removeColons_eq]
  unfold MacAddress.parse
  dsimp only
  generalize removeEscapes (removeColons text) = s
  constructor
  · intro h
    split at h
    · rename_i hl
      cases hf : fromHex s with
      | none => simp [hf] at h
      | some bs =>
        simp only [hf, Option.pure_def, Option.bind_eq_bind, Option.bind_some, Option.bind_eq_some_iff] at h
        obtain ⟨a', ha', h⟩ := h
        simp only [Option.some.injEq, MacAddress.short.injEq] at h
        subst h
        obtain ⟨ds, hd, _, hb⟩ := fromHex_eq_some.mp hf
        rw [Arr.ofBytes?_eq_some.mp ha']
        exact ⟨ds, hd, by rw [← hd.utf8Len_eq, hl], hb⟩
    · split at h
      · cases hf : fromHex s with
        | none => simp [hf] at h
        | some bs =>
          simp only [hf, Option.pure_def, Option.bind_eq_bind, Option.bind_some, Option.bind_eq_some_iff] at h
          obtain ⟨a', ha', h⟩ := h
          simp at h
      · cases h
  · rintro ⟨ds, hd, hl, hb⟩
    have hu := hd.utf8Len_eq
    rw [if_pos (by rw [hu, hl])]
    have : fromHex s = some a.1 := fromHex_eq_some.mpr ⟨ds, hd, by rw [hl], hb⟩
    simp [this]

/-- C02, extended addresses: as above with sixteen digits. -/
theorem C02_parse_extended_iff (text : List Char) (a : Arr 8) :
    MacAddress.parse text = some (.extended a) ↔
      ∃ ds, HexText (withoutColons text) ds ∧ ds.length = 16 ∧ a.1.map UInt8.toNat = pairUp ds := by
  simp only [hexText_iff, ← removeColons_eq]
  unfold MacAddress.parse
  dsimp only
  generalize removeEscapes (removeColons text) = s
  constructor
  · intro h
    split at h
    · cases hf : fromHex s with
      | none => simp [hf] at h
      | some bs =>
        simp only [hf, Option.pure_def, Option.bind_eq_bind, Option.bind_some, Option.bind_eq_some_iff] at h
        obtain ⟨a', ha', h⟩ := h
        simp at h
    · split at h
      · rename_i hl
        cases hf : fromHex s with
        | none => simp [hf] at h
        | some bs =>
          simp only [hf, Option.pure_def, Option.bind_eq_bind, Option.bind_some, Option.bind_eq_some_iff] at h
          obtain ⟨a', ha', h⟩ := h
          simp only [Option.some.injEq, MacAddress.extended.injEq] at h
          subst h
          obtain ⟨ds, hd, _, hb⟩ := fromHex_eq_some.mp hf
          rw [Arr.ofBytes?_eq_some.mp ha']
          exact ⟨ds, hd, by rw [← hd.utf8Len_eq, hl], hb⟩
      · cases h
  · rintro ⟨ds, hd, hl, hb⟩
    have hu := hd.utf8Len_eq
    rw [if_neg (by rw [hu, hl]; decide), if_pos (by rw [hu, hl])]
    have : fromHex s = some a.1 := fromHex_eq_some.mpr ⟨ds, hd, by rw [hl], hb⟩
    simp [this]

/-- C02, acceptance: a text is accepted exactly when, without colons, it consists of 4 or 16
hexadecimal digits and any number of `%3A`. Everything else is the error result. -/
theorem C02_parse_isSome_iff (text : List Char) :
    (MacAddress.parse text).isSome ↔
      ∃ ds, HexText (withoutColons text) ds ∧ (ds.length = 4 ∨ ds.length = 16) := by
  constructor
  · intro h
    obtain ⟨m, hm⟩ := Option.isSome_iff_exists.mp h
    cases m with
    | short a =>
      obtain ⟨ds, h1, h2, _⟩ := (C02_parse_short_iff text a).mp hm
      exact ⟨ds, h1, .inl h2⟩
    | extended a =>
      obtain ⟨ds, h1, h2, _⟩ := (C02_parse_extended_iff text a).mp hm
      exact ⟨ds, h1, .inr h2⟩
  · rintro ⟨ds, h, hl⟩
    have hd := hexText_iff.mp h
    have he : ds.length % 2 = 0 := by rcases hl with hl | hl <;> rw [hl]
    let bs : Bytes := (pairUp ds).map UInt8.ofNat
    have hlt : ∀ s ds, Digits s ds → ∀ x ∈ pairUp ds, x < 256 := by
      intro s ds hd
      induction ds using pairUp.induct generalizing s with
      | case1 a b r ih =>
        intro x hx
        cases hd with
        | cons ha hd =>
          cases hd with
          | cons hb hd =>
            simp only [pairUp, List.mem_cons] at hx
            rcases hx with rfl | hx
            · have := (hexVal_of_isHex ha).2; have := (hexVal_of_isHex hb).2; omega
            · exact ih _ hd x hx
      | case2 l hl' =>
        match l with
        | [] => simp [pairUp]
        | [_] => simp [pairUp]
        | a :: b :: r => exact absurd rfl (hl' a b r)
    have hbs : bs.map UInt8.toNat = pairUp ds := by
      simp only [bs, List.map_map]
      conv => rhs; rw [← List.map_id (pairUp ds)]
      apply List.map_congr_left
      intro x hx
      simp only [Function.comp, UInt8.toNat_ofNat', id]
      exact Nat.mod_eq_of_lt (hlt _ _ hd x hx)
    have hbl : bs.length = ds.length / 2 := by simp [bs, pairUp_length]
    rcases hl with hl | hl
    · have := (C02_parse_short_iff text ⟨bs, by rw [hbl, hl]⟩).mpr ⟨ds, h, hl, hbs⟩
      simp [this]
    · have := (C02_parse_extended_iff text ⟨bs, by rw [hbl, hl]⟩).mpr ⟨ds, h, hl, hbs⟩
      simp [this]

/-- A text with colons, an escape and both cases meets the conditions of C02. -/
example : MacAddress.parse "a%3A0:Ff".toList = some (.short ⟨[0xa0, 0xff], rfl⟩) := by decide
example : MacAddress.parse "00:01:02:03:04:05:06:7g".toList = none := by decide

/-! ### C01 -/

/-- C01: parsing what is printed gives the address back, in the same format. -/
theorem C01_parse_display (m : MacAddress) : MacAddress.parse m.display = some m := by
  have h : ∀ bs : Bytes, HexText (withoutColons (trimEndColons (bs.flatMap showByte))) (nibblesOf bs) := by
    intro bs
    rw [withoutColons_trimEndColons]
    exact hexText_showBytes bs
  cases m with
  | short a =>
    exact (C02_parse_short_iff _ a).mpr ⟨nibblesOf a.1, h a.1, by rw [nibblesOf_length, a.2], (pairUp_nibblesOf a.1).symm⟩
  | extended a =>
    exact (C02_parse_extended_iff _ a).mpr ⟨nibblesOf a.1, h a.1, by rw [nibblesOf_length, a.2], (pairUp_nibblesOf a.1).symm⟩

/-- C01: different addresses print differently. -/
theorem C01_display_injective (m n : MacAddress) (h : m.display = n.display) : m = n := by
  have := C01_parse_display m
  rw [h, C01_parse_display n] at this
  exact (Option.some.inj this).symm

theorem showByte_eq (b : UInt8) : showByte b =
    ["0123456789ABCDEF".toList.getD (b.toNat / 16) '?', "0123456789ABCDEF".toList.getD (b.toNat % 16) '?', ':'] ∧
    "0123456789ABCDEF".toList.getD (b.toNat % 16) '?' ≠ ':' :=
  forall_u8 (P := fun b => showByte b =
    ["0123456789ABCDEF".toList.getD (b.toNat / 16) '?', "0123456789ABCDEF".toList.getD (b.toNat % 16) '?', ':'] ∧
    "0123456789ABCDEF".toList.getD (b.toNat % 16) '?' ≠ ':') (by decide +kernel) b

theorem colonText_ends (bs : Bytes) (h : bs ≠ []) : bs.flatMap showByte = colonText bs ++ [':'] ∧
    ∃ t c, colonText bs = t ++ [c] ∧ c ≠ ':' := by
  induction bs with
  | nil => exact absurd rfl h
  | cons b bs ih =>
    obtain ⟨h1, h2⟩ := showByte_eq b
    cases bs with
    | nil =>
      constructor
      · rw [List.flatMap_cons, h1]; rfl
      · exact ⟨["0123456789ABCDEF".toList.getD (b.toNat / 16) '?'], _, rfl, h2⟩
    | cons b' bs =>
      obtain ⟨h3, t, c, h4, h5⟩ := ih (by simp)
      have hc : colonText (b :: b' :: bs) = ["0123456789ABCDEF".toList.getD (b.toNat / 16) '?',
          "0123456789ABCDEF".toList.getD (b.toNat % 16) '?', ':'] ++ colonText (b' :: bs) := by
        simp [colonText, List.intercalate]
      refine ⟨?_, _, c, by rw [hc, h4, ← List.append_assoc], h5⟩
      rw [List.flatMap_cons, h3, h1, hc, List.append_assoc]

/-- C01: what is printed is the canonical text: upper case digits, two for every byte in order, with colons between them. -/
theorem C01_display (m : MacAddress) : m.display = colonText m.toBytes := by
  have hne : m.toBytes ≠ [] := by
    intro h
    cases m with
    | short a => have := a.2; rw [show a.1 = [] from h] at this; cases this
    | extended a => have := a.2; rw [show a.1 = [] from h] at this; cases this
  obtain ⟨h1, t, c, h2, h3⟩ := colonText_ends m.toBytes hne
  unfold MacAddress.display trimEndColons
  rw [h1, h2]
  simp [h3]

example : (MacAddress.short ⟨[0x0a, 0xff], rfl⟩).display = "0A:FF".toList := by decide
example : colonText [0x0a, 0xff, 0x30] = "0A:FF:30".toList := by decide

/-! ### C03 -/

/-- C03: the numeric view is the bytes read little endian. -/
theorem C03_toU64 (m : MacAddress) : m.toU64.toNat = leValue m.toBytes := by
  rw [leValue_eq_ofLe]
  cases m with
  | short a =>
    have := ofLe_lt a.1
    rw [a.2] at this
    simp only [toU64, toBytes, UInt16.toNat_toUInt64, UInt16.toNat_ofNat']
    exact Nat.mod_eq_of_lt this
  | extended a =>
    have := ofLe_lt a.1
    rw [a.2] at this
    simp only [toU64, toBytes, UInt64.toNat_ofNat']
    exact Nat.mod_eq_of_lt this

/-- C03: the byte view is the address bytes: 2 for a short and 8 for an extended address. -/
theorem C03_toBytes (a : Arr 2) (b : Arr 8) :
    (MacAddress.short a).toBytes = a.1 ∧ (MacAddress.extended b).toBytes = b.1
      ∧ a.1.length = 2 ∧ b.1.length = 8 := ⟨rfl, rfl, a.2, b.2⟩

/-- C03: the byte view determines the address. -/
theorem C03_toBytes_injective (m n : MacAddress) (h : m.toBytes = n.toBytes) : m = n := by
  cases m with
  | short a =>
    cases n with
    | short b => exact congrArg _ (Subtype.ext h)
    | extended b => have := congrArg List.length h; simp [toBytes, a.2, b.2] at this
  | extended a =>
    cases n with
    | short b => have := congrArg List.length h; simp [toBytes, a.2, b.2] at this
    | extended b => exact congrArg _ (Subtype.ext h)

/-- C03: the numeric view determines the address among addresses of one format. -/
theorem C03_toU64_injective (m n : MacAddress) (hf : m.toBytes.length = n.toBytes.length)
    (h : m.toU64 = n.toU64) : m = n := by
  apply C03_toBytes_injective
  apply ofLe_inj hf
  rw [← leValue_eq_ofLe, ← leValue_eq_ofLe, ← C03_toU64, ← C03_toU64, h]

/-- The format matters: a short and an extended address may have the same number. -/
example : (MacAddress.short ⟨[1, 0], rfl⟩).toU64
    = (MacAddress.extended ⟨[1, 0, 0, 0, 0, 0, 0, 0], rfl⟩).toU64 := by decide
example : (MacAddress.short ⟨[0x34, 0x12], rfl⟩).toU64 = 0x1234 := by decide

end Pica.Props
