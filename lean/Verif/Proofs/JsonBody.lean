import Verif.Proofs.JsonIgnore
/-! The bodies that the web server takes as positions are the documents that describe one. -/

namespace Pica.JsonBody
open Spec.JsonText

/-- The numbers that the members of an object add. -/
inductive Reads : List (Bytes × Value) → Seen → Seen → Prop where
  | nil {s} : Reads [] s s
  | other {k v ms s s'} : (∀ f : Field, ¬ Spells k f.text.toList) → Reads ms s s' → Reads ((k, v) :: ms) s s'
  | known {k l ms s s' n} (f : Field) : Spells k f.text.toList → s f = none → Integer l n → f.lo ≤ n → n ≤ f.hi →
      Reads ms (s.set f n) s' → Reads ((k, .num l) :: ms) s s'

theorem colon_ok {b r : Bytes} (h : colon b = .ok r) : ∃ w, Blank w ∧ b = w ++ 58 :: r := by
  unfold colon at h
  obtain ⟨w, hw, hb⟩ := skip_spec b
  split at h
  · cases h
  · rename_i c t ht
    split at h
    · rename_i hc
      cases h
      exact ⟨w, hw, by rw [← hc, ← ht, ← hb]⟩
    · cases h

theorem colon_complete {w : Bytes} (hw : Blank w) (r : Bytes) : colon (w ++ 58 :: r) = .ok r := by
  unfold colon
  rw [skip_blank hw, skip_dark (by decide)]
  rfl

theorem integer_number {l : Bytes} {n : Int} (h : Integer l n) : Spec.JsonText.Number l := by
  rcases h with ⟨h, -⟩ | ⟨d, rfl, h, -⟩
  · exact ⟨[], l, [], [], by simp, .inl rfl, h, .inl rfl, .inl rfl⟩
  · exact ⟨[45], d, [], [], by simp, .inr rfl, h, .inl rfl, .inl rfl⟩

theorem member_sound {t t1 t2 k' : Bytes} {s s2 : Seen} (hk : key t = .ok (k', t1)) (hm : member s k' t1 = .ok (s2, t2)) :
    ∃ k v w u b, t = k ++ 34 :: (w ++ 58 :: (u ++ (b ++ t2))) ∧ Chars k ∧ Blank w ∧ Blank u ∧ IsValue v b ∧
      ∀ ms s', Reads ms s2 s' → Reads ((k, v) :: ms) s s' := by
  obtain ⟨k, h1, rfl, hf⟩ := key_field hk
  unfold member at hm
  split at hm
  · rename_i hn
    split at hm
    · cases hm
    · rename_i r hc
      obtain ⟨w, hw, rfl⟩ := colon_ok hc
      split at hm
      · cases hm
      · rename_i r' hv
        cases hm
        obtain ⟨u, v, b, rfl, hu, hb⟩ := ignoreValue_sound hv
        refine ⟨k, v, w, u, b, rfl, h1, hw, hu, hb, fun ms s' hr => .other (fun f hs => ?_) hr⟩
        rw [(hf f).mpr hs] at hn
        cases hn
  · rename_i f hn
    split at hm
    · cases hm
    · rename_i h0
      split at hm
      · cases hm
      · rename_i r hc
        obtain ⟨w, hw, rfl⟩ := colon_ok hc
        split at hm
        · cases hm
        · rename_i n r' hv
          cases hm
          obtain ⟨u, l, hu, rfl, hl, hlo, hhi⟩ := number_sound hv
          exact ⟨k, .num l, w, u, l, rfl, h1, hw, hu, .num (integer_number hl), fun ms s' hr =>
            .known f ((hf f).mp hn) (by simpa using h0) hl hlo hhi hr⟩

theorem nextKey_some {first : Bool} {b t : Bytes} (h : nextKey first b = .ok (some t)) :
    first = true ∧ (∃ w, Blank w ∧ b = w ++ 34 :: t) ∨
      first = false ∧ ∃ w w', Blank w ∧ Blank w' ∧ b = w ++ 44 :: (w' ++ 34 :: t) := by
  unfold nextKey at h
  obtain ⟨w, hw, hb⟩ := skip_spec b
  split at h
  · cases h
  · rename_i c r hr
    rw [hr] at hb
    split at h
    · cases h
    · split at h
      · rename_i hc
        obtain ⟨rfl, hf⟩ := hc
        obtain ⟨w', hw', hb'⟩ := skip_spec r
        split at h
        · cases h
        · rename_i c' r' hr'
          rw [hr'] at hb'
          split at h
          · rename_i hc'
            cases h
            exact .inr ⟨hf, w, w', hw, hw', by rw [hb, hb', hc']⟩
          · cases h
      · split at h
        · rename_i hf
          split at h
          · rename_i hc
            cases h
            exact .inl ⟨hf, w, hw, by rw [hb, hc]⟩
          · cases h
        · cases h

theorem nextKey_none {first : Bool} {b : Bytes} (h : nextKey first b = .ok none) :
    ∃ w t, Blank w ∧ b = w ++ 125 :: t ∧ skip b = 125 :: t := by
  unfold nextKey at h
  obtain ⟨w, hw, hb⟩ := skip_spec b
  split at h
  · cases h
  · rename_i c r hr
    rw [hr] at hb
    split at h
    · rename_i hc
      subst hc
      exact ⟨w, r, hw, hb, hr⟩
    · exfalso
      repeat' split at h
      all_goals cases h

/-- The text of further members and the closing brace. -/
def Tail (ms : List (Bytes × Value)) (c : Bytes) : Prop :=
  ms = [] ∧ (∃ w, Blank w ∧ c = w ++ [125]) ∨ ∃ w e, Blank w ∧ IsMembers ms e ∧ c = w ++ 44 :: (e ++ [125])

theorem tail_cons {w k w' u b c : Bytes} {v : Value} {ms : List (Bytes × Value)} (h1 : Blank w) (h2 : Chars k) (h3 : Blank w')
    (h4 : Blank u) (h5 : IsValue v b) (hc : Tail ms c) :
    ∃ e, w ++ 34 :: (k ++ 34 :: (w' ++ 58 :: (u ++ (b ++ c)))) = e ++ [125] ∧ IsMembers ((k, v) :: ms) e := by
  rcases hc with ⟨rfl, u', hu', rfl⟩ | ⟨u', e, hu', he, rfl⟩
  · exact ⟨_, by simp, .one (.mk h1 h2 h3 h4 h5 hu')⟩
  · exact ⟨_, by simp, .cons (.mk h1 h2 h3 h4 h5 hu') he⟩

theorem members_sound (n : Nat) : ∀ {s s' : Seen} {b r : Bytes}, b.length ≤ n → members s false b = .ok (s', r) →
    ∃ ms c t, skip r = 125 :: t ∧ b = c ++ t ∧ Tail ms c ∧ Reads ms s s' := by
  induction n using Nat.strongRecOn with
  | ind n ih =>
    intro s s' b r hb h
    rw [members_eq] at h
    split at h
    · cases h
    · rename_i hn
      cases h
      obtain ⟨w, t, hw, h1, h2⟩ := nextKey_none hn
      exact ⟨[], w ++ [125], t, h2, by rw [h1]; simp, .inl ⟨rfl, w, hw, rfl⟩, .nil⟩
    · rename_i t hn
      split at h
      · cases h
      · rename_i k' t1 hk
        split at h
        · cases h
        · rename_i s2 t2 hm
          have hl1 := nextKey_length hn
          have hl2 := key_length hk
          have hl3 := member_length hm
          obtain ⟨k, v, w', u, x, rfl, hc, hw', hu, hx, hr⟩ := member_sound hk hm
          obtain ⟨ms, c, tt, h1, h2, h3, h4⟩ := ih t2.length (by omega) (Nat.le_refl _) h
          rcases nextKey_some hn with ⟨hf, -⟩ | ⟨-, w, w2, hw, hw2, hbb⟩
          · cases hf
          · obtain ⟨e, he, hm⟩ := tail_cons hw2 hc hw' hu hx h3
            refine ⟨_, _, tt, h1, ?_, .inr ⟨w, e, hw, hm, rfl⟩, hr _ _ h4⟩
            rw [hbb, h2, ← he]
            simp

theorem object_sound {s s' : Seen} {b r : Bytes} (h : members s true b = .ok (s', r)) :
    ∃ ms c t, skip r = 125 :: t ∧ b = c ++ t ∧ IsValue (.obj ms) (123 :: c) ∧ Reads ms s s' := by
  rw [members_eq] at h
  split at h
  · cases h
  · rename_i hn
    cases h
    obtain ⟨w, t, hw, h1, h2⟩ := nextKey_none hn
    exact ⟨[], w ++ [125], t, h2, by rw [h1]; simp, .empty hw, .nil⟩
  · rename_i t hn
    split at h
    · cases h
    · rename_i k' t1 hk
      split at h
      · cases h
      · rename_i s2 t2 hm
        obtain ⟨k, v, w', u, x, rfl, hc, hw', hu, hx, hr⟩ := member_sound hk hm
        obtain ⟨ms, c, tt, h1, h2, h3, h4⟩ := members_sound t2.length (Nat.le_refl _) h
        rcases nextKey_some hn with ⟨-, w, hw, hbb⟩ | ⟨hf, -⟩
        · obtain ⟨e, he, hm⟩ := tail_cons hw hc hw' hu hx h3
          refine ⟨_, _, tt, h1, ?_, .obj hm, hr _ _ h4⟩
          rw [hbb, h2, ← he]
          simp
        · cases hf

/-- The numbers that the elements of an array add. -/
inductive Fills : List Field → List Value → Seen → Seen → Prop where
  | nil {s} : Fills [] [] s s
  | cons {f fs l vs s s' n} : Integer l n → f.lo ≤ n → n ≤ f.hi → Fills fs vs (s.set f n) s' → Fills (f :: fs) (.num l :: vs) s s'

theorem element_some {first : Bool} {lo hi n : Int} {b r : Bytes} (h : element first lo hi b = .ok (some (n, r))) :
    first = true ∧ (∃ w l, Blank w ∧ b = w ++ (l ++ r) ∧ Integer l n ∧ lo ≤ n ∧ n ≤ hi) ∨
      first = false ∧ ∃ w w' l, Blank w ∧ Blank w' ∧ b = w ++ 44 :: (w' ++ (l ++ r)) ∧ Integer l n ∧ lo ≤ n ∧ n ≤ hi := by
  have aux : ∀ w w' l c (t : Bytes), Blank w → Blank w' → c :: t = w' ++ (l ++ r) → ∃ w2, Blank w2 ∧ w ++ c :: t = w2 ++ (l ++ r) := by
    intro w w' l c t hw hw' h
    refine ⟨w ++ w', ?_, by rw [h]; simp⟩
    intro x hx
    rcases List.mem_append.mp hx with hx | hx
    · exact hw x hx
    · exact hw' x hx
  unfold element at h
  obtain ⟨w, hw, hb⟩ := skip_spec b
  split at h
  · cases h
  · rename_i c t ht
    rw [ht] at hb
    split at h
    · cases h
    · split at h
      · rename_i hc
        obtain ⟨rfl, hf⟩ := hc
        obtain ⟨w', hw', hb'⟩ := skip_spec t
        split at h
        · cases h
        · rename_i c' r' hr'
          rw [hr'] at hb'
          split at h
          · cases h
          · split at h
            · cases h
            · rename_i x hx
              cases h
              obtain ⟨w2, l, hw2, h1, h2, h3⟩ := number_sound hx
              obtain ⟨w3, hw3, h4⟩ := aux w' w2 l _ _ hw' hw2 h1
              exact .inr ⟨hf, w, w3, l, hw, hw3, by rw [hb, hb', h4], h2, h3⟩
      · split at h
        · rename_i hf
          split at h
          · cases h
          · rename_i x hx
            cases h
            obtain ⟨w2, l, hw2, h1, h2, h3⟩ := number_sound hx
            obtain ⟨w3, hw3, h4⟩ := aux w w2 l _ _ hw hw2 h1
            exact .inl ⟨hf, w3, l, hw3, by rw [hb, h4], h2, h3⟩
        · cases h

theorem close_ok {c : UInt8} {b t : Bytes} (h : close c b = .ok t) : ∃ w, Blank w ∧ b = w ++ c :: t := by
  unfold close at h
  obtain ⟨w, hw, hb⟩ := skip_spec b
  split at h
  · cases h
  · rename_i x r hr
    rw [hr] at hb
    split at h
    · rename_i hx
      cases h
      exact ⟨w, hw, by rw [hb, hx]⟩
    · cases h

/-- The text of further elements and the closing bracket. -/
def TailE (vs : List Value) (c : Bytes) : Prop :=
  vs = [] ∧ (∃ w, Blank w ∧ c = w ++ [93]) ∨ ∃ w e, Blank w ∧ IsElements vs e ∧ c = w ++ 44 :: (e ++ [93])

theorem elements_sound {fs : List Field} {s s' : Seen} {b r t : Bytes} (h : elements s false fs b = .ok (s', r))
    (hc : close 93 r = .ok t) : ∃ vs c, b = c ++ t ∧ TailE vs c ∧ Fills fs vs s s' := by
  induction fs generalizing s b with
  | nil =>
    cases h
    obtain ⟨w, hw, rfl⟩ := close_ok hc
    exact ⟨[], w ++ [93], by simp, .inl ⟨rfl, w, hw, rfl⟩, .nil⟩
  | cons f fs ih =>
    rw [elements] at h
    split at h
    · cases h
    · cases h
    · rename_i n r' he
      obtain ⟨vs, c, rfl, h2, h3⟩ := ih h
      rcases element_some he with ⟨hf, -⟩ | ⟨-, w, w', l, hw, hw', rfl, hl, hlo, hhi⟩
      · cases hf
      · have hv : IsValue (.num l) l := .num (integer_number hl)
        rcases h2 with ⟨rfl, u, hu, rfl⟩ | ⟨u, e, hu, hes, rfl⟩
        · exact ⟨_, _, by simp, .inr ⟨w, _, hw, .one hw' hv hu, rfl⟩, .cons hl hlo hhi h3⟩
        · exact ⟨_, w ++ 44 :: ((w' ++ (l ++ (u ++ 44 :: e))) ++ [93]), by simp, .inr ⟨w, _, hw, .cons hw' hv hu hes, rfl⟩,
            .cons hl hlo hhi h3⟩

theorem array_sound {f : Field} {fs : List Field} {s s' : Seen} {b r t : Bytes} (h : elements s true (f :: fs) b = .ok (s', r))
    (hc : close 93 r = .ok t) : ∃ vs c, b = c ++ t ∧ IsValue (.arr vs) (91 :: c) ∧ Fills (f :: fs) vs s s' := by
  rw [elements] at h
  split at h
  · cases h
  · cases h
  · rename_i n r' he
    obtain ⟨vs, c, rfl, h2, h3⟩ := elements_sound h hc
    rcases element_some he with ⟨-, w, l, hw, rfl, hl, hlo, hhi⟩ | ⟨hf, -⟩
    · have hv : IsValue (.num l) l := .num (integer_number hl)
      rcases h2 with ⟨rfl, u, hu, rfl⟩ | ⟨u, e, hu, hes, rfl⟩
      · exact ⟨_, _, by simp, .arr (.one hw hv hu), .cons hl hlo hhi h3⟩
      · exact ⟨_, (w ++ (l ++ (u ++ 44 :: e))) ++ [93], by simp, .arr (.cons hw hv hu hes), .cons hl hlo hhi h3⟩
    · cases hf

theorem utf8_spells {k : Bytes} {cs ds : List Char} (h1 : Spells k cs) (h2 : Spells k ds) : utf8 cs = utf8 ds := by
  have := parseStr_complete h1 []
  rw [parseStr_complete h2] at this
  simp only [Except.ok.injEq, Prod.mk.injEq, and_true] at this
  exact this.symm

theorem spells_field {k : Bytes} {f g : Field} (h1 : Spells k f.text.toList) (h2 : Spells k g.text.toList) : f = g := by
  have := utf8_spells h1 h2
  rw [name_utf8, name_utf8] at this
  revert this
  cases f <;> cases g <;> decide

theorem reads_spec {ms : List (Bytes × Value)} {s s' : Seen} (h : Reads ms s s') (f : Field) :
    (∀ n, s f = some n → s' f = some n ∧ ∀ m ∈ ms, ¬ Spells m.1 f.text.toList) ∧
    (∀ n, s f = none → s' f = some n → Has ms f.text n ∧ f.lo ≤ n ∧ n ≤ f.hi) := by
  induction h with
  | nil => exact ⟨fun n h => ⟨h, by simp⟩, fun n h h' => by rw [h] at h'; cases h'⟩
  | @other k v ms s s' hk _ ih =>
    refine ⟨fun n h => ?_, fun n h h' => ?_⟩
    · obtain ⟨h1, h2⟩ := ih.1 n h
      refine ⟨h1, fun m hm => ?_⟩
      rcases List.mem_cons.mp hm with rfl | hm
      · exact hk f
      · exact h2 m hm
    · obtain ⟨⟨ls, k', l, rs, rfl, h1, h2, h3⟩, h4⟩ := ih.2 n h h'
      refine ⟨⟨(k, v) :: ls, k', l, rs, rfl, h1, h2, fun m hm => ?_⟩, h4⟩
      rcases List.mem_cons.mp hm with rfl | hm
      · exact hk f
      · exact h3 m hm
  | @known k l ms s s' n0 g hk h0 hl hlo hhi _ ih =>
    by_cases hfg : f = g
    · subst hfg
      refine ⟨fun n h => (by rw [h0] at h; cases h), fun n h h' => ?_⟩
      obtain ⟨h1, h2⟩ := ih.1 n0 (by simp [Seen.set])
      rw [h'] at h1
      cases h1
      exact ⟨⟨[], k, l, ms, rfl, hk, hl, fun m hm => h2 m hm⟩, hlo, hhi⟩
    · have hs : s.set g n0 f = s f := by simp [Seen.set, hfg]
      rw [hs] at ih
      refine ⟨fun n h => ?_, fun n h h' => ?_⟩
      · obtain ⟨h1, h2⟩ := ih.1 n h
        refine ⟨h1, fun m hm => ?_⟩
        rcases List.mem_cons.mp hm with rfl | hm
        · exact fun hx => hfg (spells_field hx hk)
        · exact h2 m hm
      · obtain ⟨⟨ls, k', l', rs, rfl, h1, h2, h3⟩, h4⟩ := ih.2 n h h'
        refine ⟨⟨(k, .num l) :: ls, k', l', rs, rfl, h1, h2, fun m hm => ?_⟩, h4⟩
        rcases List.mem_cons.mp hm with rfl | hm
        · exact fun hx => hfg (spells_field hx hk)
        · exact h3 m hm

/-- The number of a position for a field. -/
def value (p : Position) : Field → Int
  | .x => p.x.toInt
  | .y => p.y.toInt
  | .z => p.z.toInt
  | .yaw => p.yaw.toInt
  | .pitch => p.pitch.toInt
  | .roll => p.roll.toInt

theorem int16_ofInt {n : Int} (h1 : -32768 ≤ n) (h2 : n ≤ 32767) : (Int16.ofInt n).toInt = n :=
  Int16.toInt_ofInt_of_le (by simpa using h1) (by change n < 32768; omega)

theorem int8_ofInt {n : Int} (h1 : -128 ≤ n) (h2 : n ≤ 127) : (Int8.ofInt n).toInt = n :=
  Int8.toInt_ofInt_of_le (by simpa using h1) (by change n < 128; omega)

theorem position_some {s : Seen} {p : Position} (h : position s = some p) (hr : ∀ f n, s f = some n → f.lo ≤ n ∧ n ≤ f.hi)
    (f : Field) : s f = some (value p f) := by
  simp only [position, Option.bind_eq_bind, Option.bind_eq_some_iff, Option.pure_def, Option.some.injEq] at h
  obtain ⟨x, hx, y, hy, z, hz, a, ha, b, hb, c, hc, rfl⟩ := h
  cases f
  · have := hr _ _ hx; simp only [Field.lo, Field.hi] at this; rw [hx, value, int16_ofInt this.1 this.2]
  · have := hr _ _ hy; simp only [Field.lo, Field.hi] at this; rw [hy, value, int16_ofInt this.1 this.2]
  · have := hr _ _ hz; simp only [Field.lo, Field.hi] at this; rw [hz, value, int16_ofInt this.1 this.2]
  · have := hr _ _ ha; simp only [Field.lo, Field.hi] at this; rw [ha, value, int16_ofInt this.1 this.2]
  · have := hr _ _ hb; simp only [Field.lo, Field.hi] at this; rw [hb, value, int8_ofInt this.1 this.2]
  · have := hr _ _ hc; simp only [Field.lo, Field.hi] at this; rw [hc, value, int16_ofInt this.1 this.2]

theorem position_complete {s : Seen} {p : Position} (h : ∀ f, s f = some (value p f)) : position s = some p := by
  simp only [position, h, value, Option.bind_eq_bind, Option.bind_some, Option.pure_def, Int16.ofInt_toInt, Int8.ofInt_toInt]

theorem value_range (p : Position) (f : Field) : f.lo ≤ value p f ∧ value p f ≤ f.hi := by
  have h16 : ∀ a : Int16, -32768 ≤ a.toInt ∧ a.toInt ≤ 32767 := fun a => ⟨a.le_toInt, Int.le_of_lt_add_one a.toInt_lt⟩
  have h8 : ∀ a : Int8, -128 ≤ a.toInt ∧ a.toInt ≤ 127 := fun a => ⟨a.le_toInt, Int.le_of_lt_add_one a.toInt_lt⟩
  cases f <;> first | exact h16 _ | exact h8 _

theorem fills_spec {fs : List Field} {vs : List Value} {s s' : Seen} (h : Fills fs vs s s') (f : Field) (hf : f ∉ fs) : s' f = s f := by
  induction h with
  | nil => rfl
  | @cons g fs l vs s s' n hl hlo hhi _ ih =>
    rw [List.mem_cons, not_or] at hf
    rw [ih hf.2, Seen.set, if_neg hf.1]

/-- All fields in the order of their declaration. -/
abbrev allFields : List Field := [.x, .y, .z, .yaw, .pitch, .roll]

theorem fills_all {vs : List Value} {s : Seen} (h : Fills allFields vs (fun _ => none) s) :
    ∃ a b c d e f, vs = [.num a, .num b, .num c, .num d, .num e, .num f] ∧
      (∃ n, Integer a n ∧ s .x = some n ∧ Field.x.lo ≤ n ∧ n ≤ Field.x.hi) ∧
      (∃ n, Integer b n ∧ s .y = some n ∧ Field.y.lo ≤ n ∧ n ≤ Field.y.hi) ∧
      (∃ n, Integer c n ∧ s .z = some n ∧ Field.z.lo ≤ n ∧ n ≤ Field.z.hi) ∧
      (∃ n, Integer d n ∧ s .yaw = some n ∧ Field.yaw.lo ≤ n ∧ n ≤ Field.yaw.hi) ∧
      (∃ n, Integer e n ∧ s .pitch = some n ∧ Field.pitch.lo ≤ n ∧ n ≤ Field.pitch.hi) ∧
      (∃ n, Integer f n ∧ s .roll = some n ∧ Field.roll.lo ≤ n ∧ n ≤ Field.roll.hi) := by
  cases h with
  | cons ha a1 a2 h =>
  have xa := fills_spec h .x (by decide)
  cases h with
  | cons hb b1 b2 h =>
  have xb := fills_spec h .y (by decide)
  cases h with
  | cons hc c1 c2 h =>
  have xc := fills_spec h .z (by decide)
  cases h with
  | cons hd d1 d2 h =>
  have xd := fills_spec h .yaw (by decide)
  cases h with
  | cons he e1 e2 h =>
  have xe := fills_spec h .pitch (by decide)
  cases h with
  | cons hf f1 f2 h =>
  cases h
  exact ⟨_, _, _, _, _, _, rfl, ⟨_, ha, xa, a1, a2⟩, ⟨_, hb, xb, b1, b2⟩, ⟨_, hc, xc, c1, c2⟩, ⟨_, hd, xd, d1, d2⟩, ⟨_, he, xe, e1, e2⟩,
    ⟨_, hf, rfl, f1, f2⟩⟩

theorem parse_sound {b : Bytes} {p : Position} (h : parse b = .ok p) : ∃ v, Document v b ∧ Describes v p := by
  unfold parse at h
  split at h
  · cases h
  · cases h
  · rename_i p' r hb
    split at h
    · rename_i hr
      cases h
      have hr := skip_nil_blank hr
      unfold body at hb
      obtain ⟨w, hw, hs⟩ := skip_spec b
      split at hb
      · cases hb
      · rename_i c t ht
        rw [ht] at hs
        split at hb
        · rename_i hc
          subst hc
          split at hb
          · cases hb
          · rename_i s r' he
            split at hb
            · cases hb
            · cases hb
            · rename_i p' u hp hcl
              cases hb
              obtain ⟨vs, c, rfl, hv, hf⟩ := array_sound he hcl
              obtain ⟨x1, x2, x3, x4, x5, x6, rfl, ⟨n1, i1, s1, r1⟩, ⟨n2, i2, s2, r2⟩, ⟨n3, i3, s3, r3⟩, ⟨n4, i4, s4, r4⟩,
                ⟨n5, i5, s5, r5⟩, ⟨n6, i6, s6, r6⟩⟩ := fills_all hf
              refine ⟨_, ⟨w, _, r, by rw [hs]; simp, hw, hv, hr⟩, ?_⟩
              have key := position_some hp (by
                intro f n hn
                cases f
                · rw [s1] at hn; cases hn; exact r1
                · rw [s2] at hn; cases hn; exact r2
                · rw [s3] at hn; cases hn; exact r3
                · rw [s4] at hn; cases hn; exact r4
                · rw [s5] at hn; cases hn; exact r5
                · rw [s6] at hn; cases hn; exact r6)
              have k1 := key .x; rw [s1] at k1; cases k1
              have k2 := key .y; rw [s2] at k2; cases k2
              have k3 := key .z; rw [s3] at k3; cases k3
              have k4 := key .yaw; rw [s4] at k4; cases k4
              have k5 := key .pitch; rw [s5] at k5; cases k5
              have k6 := key .roll; rw [s6] at k6; cases k6
              exact ⟨i1, i2, i3, i4, i5, i6⟩
        · split at hb
          · rename_i hc
            subst hc
            split at hb
            · cases hb
            · rename_i s r' he
              split at hb
              · cases hb
              · cases hb
              · rename_i p' u hp hcl
                cases hb
                obtain ⟨ms, c, t', h1, rfl, hv, hf⟩ := object_sound he
                unfold close at hcl
                rw [h1] at hcl
                dsimp only at hcl
                rw [if_pos rfl] at hcl
                cases hcl
                refine ⟨_, ⟨w, _, r, by rw [hs]; simp, hw, hv, hr⟩, ?_⟩
                have key := position_some hp (fun f n hn => ((reads_spec hf f).2 n rfl hn).2)
                have hh : ∀ f : Field, Has ms f.text (value p f) := fun f => ((reads_spec hf f).2 _ rfl (key f)).1
                exact ⟨hh .x, hh .y, hh .z, hh .yaw, hh .pitch, hh .roll⟩
          · cases hb
    · cases h

theorem nextKey_first {w : Bytes} (hw : Blank w) (t : Bytes) : nextKey true (w ++ 34 :: t) = .ok (some t) := by
  unfold nextKey
  rw [skip_blank hw, skip_dark (by decide)]
  rfl

theorem nextKey_more {w w' : Bytes} (hw : Blank w) (hw' : Blank w') (t : Bytes) :
    nextKey false (w ++ 44 :: (w' ++ 34 :: t)) = .ok (some t) := by
  unfold nextKey
  rw [skip_blank hw, skip_dark (by decide)]
  dsimp only
  rw [if_neg (by decide), if_pos ⟨rfl, rfl⟩, skip_blank hw', skip_dark (by decide)]
  rfl

theorem nextKey_end {w : Bytes} (hw : Blank w) (first : Bool) (t : Bytes) : nextKey first (w ++ 125 :: t) = .ok none := by
  unfold nextKey
  rw [skip_blank hw, skip_dark (by decide)]
  rfl

theorem field_spells {k : Bytes} {cs : List Char} (h : Spells k cs) (f : Field) : field (utf8 cs) = some f ↔ Spells k f.text.toList := by
  obtain ⟨k', -, h1, h2⟩ := key_field (key_complete h [])
  obtain rfl := List.append_cancel_right h1
  exact h2 f

theorem member_complete {k w u b r : Bytes} {v : Value} {ms : List (Bytes × Value)} {s s' : Seen} {cs : List Char} (hk : Spells k cs)
    (hw : Blank w) (hu : Blank u) (hv : IsValue v b) (hr : Stop r) (h : Reads ((k, v) :: ms) s s') :
    ∃ s2, member s (utf8 cs) (w ++ 58 :: (u ++ (b ++ r))) = .ok (s2, r) ∧ Reads ms s2 s' := by
  cases h with
  | other h1 h2 =>
    refine ⟨s, ?_, h2⟩
    unfold member
    have : field (utf8 cs) = none := by
      match hx : field (utf8 cs) with
      | none => rfl
      | some f => exact absurd ((field_spells hk f).mp hx) (h1 f)
    rw [this]
    dsimp only
    rw [colon_complete hw]
    dsimp only
    rw [ignoreValue_complete hu hv hr]
  | known f h1 h2 h3 h4 h5 h6 =>
    refine ⟨_, ?_, h6⟩
    unfold member
    rw [(field_spells hk f).mpr h1]
    dsimp only
    cases hv
    rw [h2, if_neg (by decide), colon_complete hw]
    dsimp only
    rw [number_complete hu h3 h4 h5 hr]

theorem members_step {first : Bool} {s s2 : Seen} {b t k t1 t2 : Bytes} (h1 : nextKey first b = .ok (some t)) (h2 : key t = .ok (k, t1))
    (h3 : member s k t1 = .ok (s2, t2)) : members s first b = members s2 false t2 := by
  rw [members_eq, h1]
  dsimp only
  rw [h2]
  dsimp only
  rw [h3]

theorem members_end {w : Bytes} (hw : Blank w) (s : Seen) (first : Bool) (t : Bytes) :
    ∃ r, members s first (w ++ 125 :: t) = .ok (s, r) ∧ skip r = 125 :: t := by
  refine ⟨w ++ 125 :: t, ?_, by rw [skip_blank hw, skip_dark (by decide)]⟩
  rw [members_eq, nextKey_end hw]

theorem members_complete {ms : List (Bytes × Value)} {e : Bytes} {s s' : Seen} (he : IsMembers ms e) (hr : Reads ms s s')
    (hn : ∀ m ∈ ms, ∃ cs, Spells m.1 cs) (t : Bytes) :
    (∃ r, members s true (e ++ 125 :: t) = .ok (s', r) ∧ skip r = 125 :: t) ∧
      ∀ w, Blank w → ∃ r, members s false (w ++ 44 :: (e ++ 125 :: t)) = .ok (s', r) ∧ skip r = 125 :: t := by
  induction ms generalizing e s with
  | nil => cases he
  | cons m ms ih =>
    obtain ⟨cs, hcs⟩ := hn m List.mem_cons_self
    cases he with
    | one hm =>
      cases hm with
      | @mk w k w' u v b u' hw hk hw' hu hv hu' =>
        obtain ⟨s2, h1, h2⟩ := member_complete (r := u' ++ 125 :: t) hcs hw' hu hv (.blank hu' (.cons (by simp))) hr
        cases h2
        have hkey := key_complete hcs (w' ++ 58 :: (u ++ (b ++ (u' ++ 125 :: t))))
        obtain ⟨r, h3, h4⟩ := members_end hu' s' false t
        refine ⟨⟨r, ?_, h4⟩, fun w0 hw0 => ⟨r, ?_, h4⟩⟩
        · rw [← h3, ← members_step (nextKey_first hw _) hkey h1]
          simp
        · rw [← h3, ← members_step (nextKey_more hw0 hw _) hkey h1]
          simp
    | @cons _ mb _ rest hm he =>
      cases hm with
      | @mk w k w' u v b u' hw hk hw' hu hv hu' =>
        obtain ⟨s2, h1, h2⟩ := member_complete (r := u' ++ 44 :: (rest ++ 125 :: t)) hcs hw' hu hv (.blank hu' (.cons (by simp))) hr
        have hkey := key_complete hcs (w' ++ 58 :: (u ++ (b ++ (u' ++ 44 :: (rest ++ 125 :: t)))))
        obtain ⟨r, h3, h4⟩ := (ih he h2 (fun m hm => hn m (List.mem_cons_of_mem _ hm))).2 u' hu'
        refine ⟨⟨r, ?_, h4⟩, fun w0 hw0 => ⟨r, ?_, h4⟩⟩
        · rw [← h3, ← members_step (nextKey_first hw _) hkey h1]
          simp
        · rw [← h3, ← members_step (nextKey_more hw0 hw _) hkey h1]
          simp

/-- Each field has a number already, or one member has it. -/
theorem reads_exists {ms : List (Bytes × Value)} {s : Seen} (p : Position)
    (h : ∀ f, s f = some (value p f) ∧ (∀ m ∈ ms, ¬ Spells m.1 f.text.toList) ∨ s f = none ∧ Has ms f.text (value p f)) :
    ∃ s', Reads ms s s' ∧ ∀ f, s' f = some (value p f) := by
  induction ms generalizing s with
  | nil =>
    refine ⟨s, .nil, fun f => ?_⟩
    rcases h f with h | ⟨-, ls, k, l, rs, h, -⟩
    · exact h.1
    · simp at h
  | cons m ms ih =>
    obtain ⟨k, v⟩ := m
    by_cases hk : ∃ f : Field, Spells k f.text.toList
    · obtain ⟨f, hf⟩ := hk
      rcases h f with h1 | ⟨h0, ls, k', l, rs, h1, h2, h3, h4⟩
      · exact absurd hf (h1.2 _ List.mem_cons_self)
      · cases ls with
        | cons m' ls =>
          obtain ⟨rfl, -⟩ := List.cons.inj h1
          exact absurd hf (h4 (k, v) (by simp))
        | nil =>
          cases h1
          obtain ⟨s', h5, h6⟩ := ih (s := s.set f (value p f)) (fun g => by
            by_cases hg : g = f
            · subst hg
              exact .inl ⟨by simp [Seen.set], fun m hm => h4 m (by simpa using hm)⟩
            · have hs : s.set f (value p f) g = s g := by simp [Seen.set, hg]
              rw [hs]
              rcases h g with h | ⟨h, ls, k', l', rs', h1, h2, h3, h9⟩
              · exact .inl ⟨h.1, fun m hm => h.2 m (List.mem_cons_of_mem _ hm)⟩
              · refine .inr ⟨h, ?_⟩
                cases ls with
                | nil =>
                  cases h1
                  exact absurd (spells_field h2 hf) hg
                | cons m' ls =>
                  obtain ⟨rfl, rfl⟩ := List.cons.inj h1
                  exact ⟨ls, k', l', rs', rfl, h2, h3, fun m hm => h9 m (by
                    rw [List.cons_append]; exact List.mem_cons_of_mem _ hm)⟩)
          exact ⟨s', .known f h2 h0 h3 (value_range p f).1 (value_range p f).2 h5, h6⟩
    · obtain ⟨s', h5, h6⟩ := ih (s := s) (fun g => by
        rcases h g with h | ⟨h, ls, k', l', rs', h1, h2, h3, h4⟩
        · exact .inl ⟨h.1, fun m hm => h.2 m (List.mem_cons_of_mem _ hm)⟩
        · refine .inr ⟨h, ?_⟩
          cases ls with
          | nil =>
            cases h1
            exact absurd ⟨g, h2⟩ hk
          | cons m' ls =>
            obtain ⟨rfl, rfl⟩ := List.cons.inj h1
            exact ⟨ls, k', l', rs', rfl, h2, h3, fun m hm => h4 m (by
              rw [List.cons_append]; exact List.mem_cons_of_mem _ hm)⟩)
      exact ⟨s', .other (fun f hf => hk ⟨f, hf⟩) h5, h6⟩

theorem integer_head {l : Bytes} {n : Int} (h : Integer l n) : ∃ c t, l = c :: t ∧ Dark c ∧ c ≠ 93 ∧ c ≠ 44 := by
  rcases h with ⟨h, -⟩ | ⟨d, rfl, h, -⟩
  · obtain ⟨c, t, rfl, hc, -⟩ := digits_cons h.1
    refine ⟨c, t, rfl, digit_dark hc, ?_, ?_⟩ <;> (rintro rfl; simp [isDigit] at hc)
  · exact ⟨_, _, rfl, by decide, by decide, by decide⟩

theorem element_first {lo hi n : Int} {w l r : Bytes} (hw : Blank w) (hl : Integer l n) (h1 : lo ≤ n) (h2 : n ≤ hi) (hr : Stop r) :
    element true lo hi (w ++ (l ++ r)) = .ok (some (n, r)) := by
  have hx := number_complete (w := []) (by simp [Blank]) hl h1 h2 hr
  obtain ⟨c, t, rfl, hc, h93, -⟩ := integer_head hl
  unfold element
  rw [skip_blank hw, List.cons_append, skip_dark hc]
  dsimp only
  rw [if_neg h93, if_neg (by simp), if_pos rfl]
  rw [List.nil_append, List.cons_append] at hx
  rw [hx]

theorem element_more {lo hi n : Int} {w w' l r : Bytes} (hw : Blank w) (hw' : Blank w') (hl : Integer l n) (h1 : lo ≤ n) (h2 : n ≤ hi)
    (hr : Stop r) : element false lo hi (w ++ 44 :: (w' ++ (l ++ r))) = .ok (some (n, r)) := by
  have hx := number_complete (w := []) (by simp [Blank]) hl h1 h2 hr
  obtain ⟨c, t, rfl, hc, h93, -⟩ := integer_head hl
  unfold element
  rw [skip_blank hw, skip_dark (by decide)]
  dsimp only
  rw [if_neg (by decide), if_pos ⟨rfl, rfl⟩, skip_blank hw', List.cons_append, skip_dark hc]
  dsimp only
  rw [if_neg h93]
  rw [List.nil_append, List.cons_append] at hx
  rw [hx]

theorem close_complete {w : Bytes} (hw : Blank w) {c : UInt8} (hc : Dark c) (t : Bytes) : close c (w ++ c :: t) = .ok t := by
  unfold close
  rw [skip_blank hw, skip_dark hc]
  dsimp only
  rw [if_pos rfl]

theorem elements_complete {vs : List Value} {fs : List Field} {e : Bytes} {s s' : Seen} (he : IsElements vs e) (hf : Fills fs vs s s')
    (t : Bytes) : (∃ r, elements s true fs (e ++ 93 :: t) = .ok (s', r) ∧ close 93 r = .ok t) ∧
      ∀ w, Blank w → ∃ r, elements s false fs (w ++ 44 :: (e ++ 93 :: t)) = .ok (s', r) ∧ close 93 r = .ok t := by
  induction vs generalizing e s fs with
  | nil => cases he
  | cons v vs ih =>
    cases hf with
    | @cons f fs l _ _ _ n hl hlo hhi hf =>
    cases he with
    | @one w _ b w' hw hv hw' =>
      cases hf
      cases hv
      have hst : Stop (w' ++ 93 :: t) := .blank hw' (.cons (by simp))
      refine ⟨⟨w' ++ 93 :: t, ?_, close_complete hw' (by decide) t⟩, fun w0 hw0 => ⟨w' ++ 93 :: t, ?_, close_complete hw' (by decide) t⟩⟩
      · rw [List.append_assoc, List.append_assoc, elements, element_first hw hl hlo hhi hst]
        rfl
      · rw [List.append_assoc, List.append_assoc, elements, element_more hw0 hw hl hlo hhi hst]
        rfl
    | @cons w _ b w' _ rest hw hv hw' he =>
      cases hv
      have hst : Stop (w' ++ 44 :: (rest ++ 93 :: t)) := .blank hw' (.cons (by simp))
      obtain ⟨r, h1, h2⟩ := (ih he hf).2 w' hw'
      refine ⟨⟨r, ?_, h2⟩, fun w0 hw0 => ⟨r, ?_, h2⟩⟩
      · rw [List.append_assoc, List.append_assoc, List.append_assoc, List.cons_append, elements, element_first hw hl hlo hhi hst]
        exact h1
      · rw [List.append_assoc, List.append_assoc, List.append_assoc, List.cons_append, elements, element_more hw0 hw hl hlo hhi hst]
        exact h1

theorem parse_complete {b : Bytes} {v : Value} {p : Position} (hd : Document v b) (h : Describes v p) (hn : Named v) : parse b = .ok p := by
  obtain ⟨w, t, w', rfl, hw, ht, hw'⟩ := hd
  have hend : skip w' = [] := by
    have := skip_blank hw' []
    rwa [List.append_nil] at this
  suffices hb : body (w ++ (t ++ w')) = .ok (p, w') by
    unfold parse
    rw [hb]
    dsimp only
    rw [if_pos hend]
  unfold body
  rw [skip_blank hw]
  unfold Describes at h
  split at h
  · rename_i ms
    have hh : ∀ f, (fun _ => none : Seen) f = some (value p f) ∧ (∀ m ∈ ms, ¬ Spells m.1 f.text.toList) ∨
        (fun _ => none : Seen) f = none ∧ Has ms f.text (value p f) := by
      obtain ⟨h1, h2, h3, h4, h5, h6⟩ := h
      intro f
      refine .inr ⟨rfl, ?_⟩
      cases f <;> assumption
    obtain ⟨s', h1, h2⟩ := reads_exists p hh
    cases ht with
    | empty =>
      obtain ⟨⟨ls, _, _, _, hx, -⟩, -⟩ := h
      simp at hx
    | @obj _ e he =>
      obtain ⟨r, h3, h4⟩ := (members_complete he h1 hn w').1
      rw [List.cons_append, skip_dark (by decide), List.append_assoc, List.singleton_append]
      dsimp only
      rw [if_neg (by decide), if_pos rfl, h3]
      dsimp only
      rw [position_complete h2]
      have : close 125 r = .ok w' := by
        unfold close
        rw [h4]
        dsimp only
        rw [if_pos rfl]
      rw [this]
  · rename_i x y z a b c
    obtain ⟨h1, h2, h3, h4, h5, h6⟩ := h
    have hf : ∃ s, Fills allFields [.num x, .num y, .num z, .num a, .num b, .num c] (fun _ => none) s ∧ ∀ f, s f = some (value p f) := by
      refine ⟨_, .cons (f := .x) h1 (value_range p .x).1 (value_range p .x).2 (.cons (f := .y) h2 (value_range p .y).1 (value_range p .y).2
        (.cons (f := .z) h3 (value_range p .z).1 (value_range p .z).2 (.cons (f := .yaw) h4 (value_range p .yaw).1 (value_range p .yaw).2
        (.cons (f := .pitch) h5 (value_range p .pitch).1 (value_range p .pitch).2
        (.cons (f := .roll) h6 (value_range p .roll).1 (value_range p .roll).2 .nil))))), ?_⟩
      intro f
      cases f <;> rfl
    obtain ⟨s, hf, hs⟩ := hf
    cases ht with
    | @arr _ e he =>
      obtain ⟨r, h7, h8⟩ := (elements_complete he hf w').1
      rw [List.cons_append, skip_dark (by decide), List.append_assoc, List.singleton_append]
      dsimp only
      rw [if_pos rfl, h7]
      dsimp only
      rw [position_complete hs, h8]
  · exact h.elim

end Pica.JsonBody
