import Verif.Spec.Reading
import Verif.Proofs.PdlBits
/-! The description of the packets is unambiguous. -/

namespace Pica.Spec.Pdl

/-! ### Fields -/

/-- Some field that always takes bits. -/
def solid : List Field → Bool
  | [] => false
  | .scalar _ n :: l => decide (0 < n) || solid l
  | _ :: l => solid l

mutual
/-- A field can be read, when the lengths of `ls` and the values of `is` are known and, if `last`, where it ends. -/
def Field.clear (ls is : List String) (last : Bool) : Field → Bool
  | .bytes id => ls.contains id || last
  | .scalars id n => ls.contains id || (last && decide (0 < n))
  | .structs id l => (ls.contains id || (last && solid l)) && clears [] [] false l
  | .struct _ l => clears [] [] false l
  | .optional _ _ flag _ => is.contains flag
  | .payload => false
  | .scalar _ _ | .reserved _ | .fixed _ _ | .count _ _ | .size _ _ | .sizeOfPayload _ | .array _ _ => true
/-- Fields can be read one after the other. -/
def clears (ls is : List String) (tail : Bool) : List Field → Bool
  | [] => true
  | f :: l => f.clear ls is (tail && l.isEmpty) && clears (f.lengths ++ ls) (f.values ++ is) tail l
/-- The lengths a field tells. -/
def Field.lengths : Field → List String
  | .count id _ | .size id _ => [id]
  | _ => []
/-- The values a field tells. -/
def Field.values : Field → List String
  | .scalar id _ => [id]
  | _ => []
end

/-- Two patterns agree on the rest of some bits. -/
def Both (r r' : Pattern) : Prop := ∃ b, Agrees r b ∧ Agrees r' b

theorem both_peel {x x' r r' : Pattern} (h : Both (x ++ r) (x' ++ r')) (hl : x.length = x'.length) : Both x x' ∧ Both r r' := by
  obtain ⟨b, h1, h2⟩ := h
  have a := agrees_split h1
  have a' := agrees_split h2
  rw [← hl] at a'
  exact ⟨⟨_, a.1, a'.1⟩, _, a.2, a'.2⟩

theorem agrees_nat {n v : Nat} {b : List Bool} (h : Agrees (nat n v) b) : b = (List.range n).map v.testBit := by
  have : nat n v = ((List.range n).map v.testBit).map some := by
    unfold nat
    rw [List.map_map]
    rfl
  rw [this, agrees_some] at h
  exact h

theorem both_nat {n v w : Nat} (h : Both (nat n v) (nat n w)) (hv : v < 2 ^ n) (hw : w < 2 ^ n) : v = w := by
  obtain ⟨b, h1, h2⟩ := h
  have e := (agrees_nat h1).symm.trans (agrees_nat h2)
  refine nat_inj hv hw ?_
  have := congrArg (List.map some) e
  rw [List.map_map, List.map_map] at this
  exact this

theorem both_octets {b c : Bytes} (h : Both (octets b) (octets c)) : b = c := by
  obtain ⟨x, h1, h2⟩ := h
  rw [← map_bitsOf, agrees_some] at h1 h2
  refine octets_inj ?_
  rw [← map_bitsOf, ← map_bitsOf, ← h1, ← h2]

theorem both_length {r r' : Pattern} (h : Both r r') : r.length = r'.length := by
  obtain ⟨b, h1, h2⟩ := h
  rw [← agrees_length h1, ← agrees_length h2]

theorem both_number {n v w : Nat} {r r' : Pattern} (h : Both (nat n v ++ r) (nat n w ++ r')) (hv : v < 2 ^ n) (hw : w < 2 ^ n) :
    v = w ∧ Both r r' := by
  obtain ⟨h1, h2⟩ := both_peel h (by rw [nat_length, nat_length])
  exact ⟨both_nat h1 hv hw, h2⟩

theorem both_bytes {b c : Bytes} {r r' : Pattern} (h : Both (octets b ++ r) (octets c ++ r')) (hl : b.length = c.length) :
    b = c ∧ Both r r' := by
  obtain ⟨h1, h2⟩ := both_peel h (by rw [octets_length, octets_length, hl])
  exact ⟨both_octets h1, h2⟩

theorem both_nil : Both [] [] := ⟨[], trivial, trivial⟩

/-- Elements one after the other, of known number. -/
theorem both_many {α : Type} {f : α → Pattern} {S : α → α → Prop} {P : α → Prop}
    (hf : ∀ a a' r r', P a → P a' → Both (f a ++ r) (f a' ++ r') → S a a' ∧ Both r r') {l l' : List α} {r r' : Pattern}
    (hl : l.length = l'.length) (hp : ∀ a ∈ l, P a) (hp' : ∀ a ∈ l', P a)
    (h : Both (l.flatMap f ++ r) (l'.flatMap f ++ r')) : List.Forall₂ S l l' ∧ Both r r' := by
  induction l generalizing l' with
  | nil =>
    cases l' with
    | nil => exact ⟨.nil, h⟩
    | cons => cases hl
  | cons a l ih =>
    cases l' with
    | nil => cases hl
    | cons a' l' =>
      rw [List.flatMap_cons, List.flatMap_cons, List.append_assoc, List.append_assoc] at h
      obtain ⟨h1, h2⟩ := hf _ _ _ _ (hp a (List.mem_cons_self ..)) (hp' a' (List.mem_cons_self ..)) h
      obtain ⟨h3, h4⟩ := ih (Nat.succ.inj hl) (fun x hx => hp x (List.mem_cons_of_mem _ hx))
        (fun x hx => hp' x (List.mem_cons_of_mem _ hx)) h2
      exact ⟨.cons h1 h3, h4⟩

/-- Elements one after the other up to the end. -/
theorem both_end {α : Type} {f : α → Pattern} {S : α → α → Prop} {P : α → Prop}
    (hf : ∀ a a' r r', P a → P a' → Both (f a ++ r) (f a' ++ r') → S a a' ∧ Both r r') (hz : ∀ a, P a → f a ≠ []) {l l' : List α}
    (hp : ∀ a ∈ l, P a) (hp' : ∀ a ∈ l', P a)
    (h : Both (l.flatMap f) (l'.flatMap f)) : List.Forall₂ S l l' := by
  induction l generalizing l' with
  | nil =>
    cases l' with
    | nil => exact .nil
    | cons a l' =>
      have := both_length h
      rw [List.flatMap_cons, List.length_append] at this
      have h0 := List.length_pos_iff.2 (hz a (hp' a (List.mem_cons_self ..)))
      rw [List.flatMap_nil, List.length_nil] at this
      omega
  | cons a l ih =>
    cases l' with
    | nil =>
      have := both_length h
      rw [List.flatMap_cons, List.length_append] at this
      have h0 := List.length_pos_iff.2 (hz a (hp a (List.mem_cons_self ..)))
      rw [List.flatMap_nil, List.length_nil] at this
      omega
    | cons a' l' =>
      rw [List.flatMap_cons, List.flatMap_cons] at h
      obtain ⟨h1, h2⟩ := hf _ _ _ _ (hp a (List.mem_cons_self ..)) (hp' a' (List.mem_cons_self ..)) h
      exact .cons h1 (ih (fun x hx => hp x (List.mem_cons_of_mem _ hx)) (fun x hx => hp' x (List.mem_cons_of_mem _ hx)) h2)

theorem solid_pattern {l : List Field} (h : solid l = true) (env : Values) (p : Pattern) : patterns env p l ≠ [] := by
  induction l with
  | nil => cases h
  | cons f l ih =>
    have key : solid l = true → patterns env p (f :: l) ≠ [] := by
      intro g e
      rw [patterns] at e
      exact ih g (List.append_eq_nil_iff.1 e).2
    cases f with
    | scalar id n =>
      rw [solid, Bool.or_eq_true, decide_eq_true_eq] at h
      rcases h with h | h
      · intro e
        rw [patterns] at e
        have := congrArg List.length (List.append_eq_nil_iff.1 e).1
        rw [Field.pattern, nat_length] at this
        simp at this
        omega
      · exact key h
    | _ => exact key h

theorem forall₂_eq {α : Type} {l l' : List α} (h : List.Forall₂ Eq l l') : l = l' := List.forall₂_eq_eq_eq ▸ h

mutual
theorem field_read (f : Field) (ls is : List String) (last : Bool) (env env' : Values) (p p' r r' : Pattern)
    (hc : f.clear ls is last = true) (hf : f.fits env) (hf' : f.fits env') (hl : ∀ id ∈ ls, env.length id = env'.length id)
    (hi : ∀ id ∈ is, env.int id = env'.int id) (ht : last = true → r = [] ∧ r' = [])
    (h : Both (f.pattern env p ++ r) (f.pattern env' p' ++ r')) :
    f.same env env' ∧ Both r r' ∧ (∀ id ∈ f.lengths, env.length id = env'.length id) ∧
      ∀ id ∈ f.values, env.int id = env'.int id := by
  cases f with
  | scalar id n =>
    obtain ⟨v, e, hv⟩ := hf
    obtain ⟨w, e', hw⟩ := hf'
    rw [Field.pattern, Field.pattern] at h
    have i : env.int id = v := by unfold Values.int; rw [e]
    have i' : env'.int id = w := by unfold Values.int; rw [e']
    rw [i, i'] at h
    obtain ⟨h1, h2⟩ := both_number h hv hw
    refine ⟨?_, h2, by simp [Field.lengths], ?_⟩
    · rw [Field.same, e, e', h1]
    · intro x hx
      rw [Field.values, List.mem_singleton] at hx
      rw [hx, i, i', h1]
  | reserved n =>
    rw [Field.pattern, Field.pattern] at h
    exact ⟨by rw [Field.same]; trivial, (both_peel h rfl).2, by simp [Field.lengths], by simp [Field.values]⟩
  | fixed v n =>
    rw [Field.pattern, Field.pattern] at h
    exact ⟨by rw [Field.same]; trivial, (both_peel h rfl).2, by simp [Field.lengths], by simp [Field.values]⟩
  | count id n =>
    rw [Field.pattern, Field.pattern] at h
    rw [Field.fits] at hf hf'
    obtain ⟨h1, h2⟩ := both_number h hf hf'
    refine ⟨by rw [Field.same]; trivial, h2, ?_, by simp [Field.values]⟩
    intro x hx
    rw [Field.lengths, List.mem_singleton] at hx
    rw [hx, h1]
  | size id n =>
    rw [Field.pattern, Field.pattern] at h
    rw [Field.fits] at hf hf'
    obtain ⟨h1, h2⟩ := both_number h hf hf'
    refine ⟨by rw [Field.same]; trivial, h2, ?_, by simp [Field.values]⟩
    intro x hx
    rw [Field.lengths, List.mem_singleton] at hx
    rw [hx, h1]
  | sizeOfPayload n =>
    rw [Field.pattern, Field.pattern] at h
    exact ⟨by rw [Field.same]; trivial, (both_peel h (by rw [nat_length, nat_length])).2, by simp [Field.lengths], by simp [Field.values]⟩
  | optional id n flag v =>
    rw [Field.clear, List.contains_iff_mem] at hc
    rw [Field.pattern, Field.pattern] at h
    rw [Field.fits] at hf hf'
    rw [Field.same]
    rw [← hi flag hc] at h hf'
    refine ⟨?_, ?_, by simp [Field.lengths], by simp [Field.values]⟩
    all_goals
      split at hf
      · rename_i hv
        rw [if_pos hv] at hf' h
        obtain ⟨x, e, hx⟩ := hf
        obtain ⟨y, e', hy⟩ := hf'
        have i : env.int id = x := by unfold Values.int; rw [e]
        have i' : env'.int id = y := by unfold Values.int; rw [e']
        rw [if_pos hv, i, i'] at h
        obtain ⟨h1, h2⟩ := both_number h hx hy
        first
          | exact h2
          | rw [e, e', h1]
      · rename_i hv
        rw [if_neg hv] at hf' h
        rw [if_neg hv] at h
        first
          | exact h
          | rw [hf, hf']
  | bytes id =>
    obtain ⟨b, e⟩ := hf
    obtain ⟨c, e'⟩ := hf'
    rw [Field.pattern, Field.pattern] at h
    have i : env.bytes id = b := by unfold Values.bytes; rw [e]
    have i' : env'.bytes id = c := by unfold Values.bytes; rw [e']
    rw [i, i'] at h
    rw [Field.clear, Bool.or_eq_true, List.contains_iff_mem] at hc
    rw [Field.same, e, e']
    rcases hc with hc | hc
    · have hn := hl id hc
      unfold Values.length at hn
      rw [e, e'] at hn
      obtain ⟨h1, h2⟩ := both_bytes h hn
      exact ⟨by rw [h1], h2, by simp [Field.lengths], by simp [Field.values]⟩
    · obtain ⟨t, t'⟩ := ht hc
      subst t t'
      rw [List.append_nil, List.append_nil] at h
      exact ⟨by rw [both_octets h], both_nil, by simp [Field.lengths], by simp [Field.values]⟩
  | array id n =>
    obtain ⟨b, e, hb⟩ := hf
    obtain ⟨c, e', hc'⟩ := hf'
    rw [Field.pattern, Field.pattern] at h
    have i : env.bytes id = b := by unfold Values.bytes; rw [e]
    have i' : env'.bytes id = c := by unfold Values.bytes; rw [e']
    rw [i, i'] at h
    obtain ⟨h1, h2⟩ := both_bytes h (hb.trans hc'.symm)
    rw [Field.same, e, e']
    exact ⟨by rw [h1], h2, by simp [Field.lengths], by simp [Field.values]⟩
  | scalars id n =>
    obtain ⟨b, e, hb⟩ := hf
    obtain ⟨c, e', hc'⟩ := hf'
    rw [Field.pattern, Field.pattern] at h
    have i : env.ints id = b := by unfold Values.ints; rw [e]
    have i' : env'.ints id = c := by unfold Values.ints; rw [e']
    rw [i, i'] at h
    rw [Field.clear, Bool.or_eq_true, List.contains_iff_mem] at hc
    rw [Field.same, e, e']
    have one : ∀ v w (r r' : Pattern), v < 2 ^ n → w < 2 ^ n → Both (nat n v ++ r) (nat n w ++ r') → v = w ∧ Both r r' :=
      fun v w r r' hv hw g => both_number g hv hw
    rcases hc with hc | hc
    · have hn := hl id hc
      unfold Values.length at hn
      rw [e, e'] at hn
      obtain ⟨h1, h2⟩ := both_many one hn hb hc' h
      exact ⟨by rw [forall₂_eq h1], h2, by simp [Field.lengths], by simp [Field.values]⟩
    · rw [Bool.and_eq_true, decide_eq_true_eq] at hc
      obtain ⟨t, t'⟩ := ht hc.1
      subst t t'
      rw [List.append_nil, List.append_nil] at h
      have hz : ∀ v, v < 2 ^ n → nat n v ≠ [] := by
        intro v _ g
        have := congrArg List.length g
        rw [nat_length] at this
        simp at this
        omega
      exact ⟨by rw [forall₂_eq (both_end one hz hb hc' h)], both_nil, by simp [Field.lengths], by simp [Field.values]⟩
  | structs id l =>
    rw [Field.fits] at hf hf'
    obtain ⟨b, e, hb⟩ := hf
    obtain ⟨c, e', hc'⟩ := hf'
    rw [Field.pattern, Field.pattern] at h
    have i : env.records id = b := by unfold Values.records; rw [e]
    have i' : env'.records id = c := by unfold Values.records; rw [e']
    rw [i, i'] at h
    rw [Field.clear, Bool.and_eq_true, Bool.or_eq_true, List.contains_iff_mem] at hc
    rw [Field.same, i, i']
    have one : ∀ v w (r r' : Pattern), fit v l → fit w l → Both (patterns v [] l ++ r) (patterns w [] l ++ r') →
        same v w l ∧ Both r r' :=
      fun v w r r' hv hw g => fields_read l [] [] false v w [] [] r r' hc.2 hv hw (by simp) (by simp) (by simp) g
    rcases hc.1 with hk | hk
    · have hn := hl id hk
      unfold Values.length at hn
      rw [e, e'] at hn
      obtain ⟨h1, h2⟩ := both_many one hn hb hc' h
      exact ⟨h1, h2, by simp [Field.lengths], by simp [Field.values]⟩
    · rw [Bool.and_eq_true] at hk
      obtain ⟨t, t'⟩ := ht hk.1
      subst t t'
      rw [List.append_nil, List.append_nil] at h
      exact ⟨both_end one (fun v _ => solid_pattern hk.2 v []) hb hc' h, both_nil, by simp [Field.lengths], by simp [Field.values]⟩
  | struct id l =>
    rw [Field.fits] at hf hf'
    obtain ⟨b, e, hb⟩ := hf
    obtain ⟨c, e', hc'⟩ := hf'
    rw [Field.pattern, Field.pattern] at h
    have i : env.record id = b := by unfold Values.record; rw [e]
    have i' : env'.record id = c := by unfold Values.record; rw [e']
    rw [i, i'] at h
    rw [Field.clear] at hc
    rw [Field.same, i, i']
    obtain ⟨h1, h2⟩ := fields_read l [] [] false b c [] [] r r' hc hb hc' (by simp) (by simp) (by simp) h
    exact ⟨h1, h2, by simp [Field.lengths], by simp [Field.values]⟩
  | payload => cases hc
theorem fields_read (l : List Field) (ls is : List String) (tail : Bool) (env env' : Values) (p p' r r' : Pattern)
    (hc : clears ls is tail l = true) (hf : fit env l) (hf' : fit env' l) (hl : ∀ id ∈ ls, env.length id = env'.length id)
    (hi : ∀ id ∈ is, env.int id = env'.int id) (ht : tail = true → r = [] ∧ r' = [])
    (h : Both (patterns env p l ++ r) (patterns env' p' l ++ r')) : same env env' l ∧ Both r r' := by
  cases l with
  | nil =>
    rw [patterns, patterns] at h
    exact ⟨by rw [same]; trivial, h⟩
  | cons f l =>
    rw [clears, Bool.and_eq_true] at hc
    rw [fit] at hf hf'
    rw [patterns, patterns, List.append_assoc, List.append_assoc] at h
    rw [same]
    obtain ⟨h1, h2, h3, h4⟩ := field_read f ls is (tail && l.isEmpty) env env' p p' _ _ hc.1 hf.1 hf'.1 hl hi (by
      intro g
      rw [Bool.and_eq_true, List.isEmpty_iff] at g
      obtain ⟨g1, g2⟩ := g
      obtain ⟨t, t'⟩ := ht g1
      subst g2 t t'
      rw [patterns, patterns]
      exact ⟨rfl, rfl⟩) h
    obtain ⟨h5, h6⟩ := fields_read l (f.lengths ++ ls) (f.values ++ is) tail env env' p p' r r' hc.2 hf.2 hf'.2
      (fun id hid => (List.mem_append.1 hid).elim (h3 id) (hl id)) (fun id hid => (List.mem_append.1 hid).elim (h4 id) (hi id)) ht h2
    exact ⟨⟨h1, h5⟩, h6⟩
end

/-! ### Packets -/

theorem ends_dropLast {l : List Field} (h : ends l = true) : l = l.dropLast ++ [.payload] := by
  induction l with
  | nil => cases h
  | cons f l ih =>
    cases l with
    | nil =>
      cases f with
      | payload => rfl
      | _ => cases h
    | cons g l =>
      have h' : ends (g :: l) = true := by
        cases f with
        | payload => exact h
        | _ => exact h
      rw [List.dropLast_cons_of_ne_nil (by simp), List.cons_append, ← ih h']

theorem patterns_append (env : Values) (p : Pattern) (l m : List Field) :
    patterns env p (l ++ m) = patterns env p l ++ patterns env p m := by
  induction l with
  | nil => rw [patterns]; rfl
  | cons f l ih => rw [List.cons_append, patterns, patterns, ih, List.append_assoc]

theorem patterns_ends {l : List Field} (h : ends l = true) (env : Values) (p : Pattern) :
    patterns env p l = patterns env p l.dropLast ++ p := by
  conv_lhs => rw [ends_dropLast h, patterns_append]
  rw [patterns, patterns, Field.pattern, List.append_nil]

theorem fit_append (env : Values) (l m : List Field) : fit env (l ++ m) ↔ fit env l ∧ fit env m := by
  induction l with
  | nil => rw [fit]; simp
  | cons f l ih => rw [List.cons_append, fit, fit, ih, and_assoc]

theorem same_append (env env' : Values) (l m : List Field) : same env env' (l ++ m) ↔ same env env' l ∧ same env env' m := by
  induction l with
  | nil => rw [same]; simp
  | cons f l ih => rw [List.cons_append, same, same, ih, and_assoc]

/-- The fields before a payload can be read. -/
def before (l : List Field) : Bool := ends l && clears [] [] false l.dropLast

theorem before_read {l : List Field} (hc : before l = true) {env env' : Values} (hf : fit env l) (hf' : fit env' l) {p p' : Pattern}
    (h : Both (patterns env p l) (patterns env' p' l)) : same env env' l ∧ Both p p' := by
  rw [before, Bool.and_eq_true] at hc
  rw [patterns_ends hc.1, patterns_ends hc.1] at h
  have e := ends_dropLast hc.1
  rw [e, fit_append] at hf hf'
  obtain ⟨h1, h2⟩ := fields_read l.dropLast [] [] false env env' p p' p p' hc.2 hf.1 hf'.1 (by simp) (by simp) (by simp) h
  refine ⟨?_, h2⟩
  rw [e, same_append]
  refine ⟨h1, ?_⟩
  rw [same, same, Field.same]
  exact ⟨trivial, trivial⟩

/-- Everything a packet says about those that are derived from it can be read. -/
def Packet.above : Packet → Bool
  | .root l => before l
  | .child q _ l => q.above && before l

theorem above_read {q : Packet} (hc : q.above = true) {env env' : Values} (hf : q.fits env) (hf' : q.fits env') {p p' : Pattern}
    (h : Both (q.within env p) (q.within env' p')) : q.same env env' ∧ Both p p' := by
  induction q generalizing env env' p p' with
  | root l => exact before_read hc hf hf' h
  | child q cs l ih =>
    rw [Packet.above, Bool.and_eq_true] at hc
    obtain ⟨h1, h2⟩ := ih hc.1 hf.1 hf'.1 h
    obtain ⟨h3, h4⟩ := before_read hc.2 hf.2 hf'.2 h2
    exact ⟨⟨h1, h3⟩, h4⟩

/-- A packet without payload can be read. -/
def Packet.clear : Packet → Bool
  | .root l => clears [] [] true l
  | .child q _ l => q.above && clears [] [] true l

theorem tail_read {l : List Field} (hc : clears [] [] true l = true) {env env' : Values} (hf : fit env l) (hf' : fit env' l)
    {p p' : Pattern} (h : Both (patterns env p l) (patterns env' p' l)) : same env env' l :=
  (fields_read l [] [] true env env' p p' [] [] hc hf hf' (by simp) (by simp) (fun _ => ⟨rfl, rfl⟩)
    (by rw [List.append_nil, List.append_nil]; exact h)).1

theorem clear_read {q : Packet} (hc : q.clear = true) {env env' : Values} (hf : q.fits env) (hf' : q.fits env') {p p' : Pattern}
    (h : Both (q.within env p) (q.within env' p')) : q.same env env' := by
  cases q with
  | root l => exact tail_read hc hf hf' h
  | child q cs l =>
    rw [Packet.clear, Bool.and_eq_true] at hc
    obtain ⟨h1, h2⟩ := above_read hc.1 hf.1 hf'.1 h
    exact ⟨h1, tail_read hc.2 hf.2 hf'.2 h2⟩

/-! ### Kinds -/

/-- What a description alone says of the bits of a field, if it says how many there are. -/
def Field.shape (cs : List (String × Nat)) : Field → Option Pattern
  | .scalar id n => some (match cs.find? (fun c => c.1 = id) with
    | some c => nat n c.2
    | none => gap n)
  | .reserved n | .count _ n | .size _ n | .sizeOfPayload n => some (gap n)
  | .fixed v n => some (nat n v)
  | _ => none

/-- The same for fields one after the other, up to the first of unknown length; `k` is that of the payload. -/
def shapes (cs : List (String × Nat)) (k : Pattern) : List Field → Pattern
  | [] => []
  | f :: l =>
    match f with
    | .payload => k
    | f =>
      match f.shape cs with
      | some x => x ++ shapes cs k l
      | none => []

/-- The same for a packet. -/
def Packet.shape (cs : List (String × Nat)) (k : Pattern) : Packet → Pattern
  | .root l => shapes cs k l
  | .child q ds l => q.shape (ds ++ cs) (shapes cs k l)

/-- Bits that begin as a pattern. -/
def Begins : Pattern → List Bool → Prop
  | [], _ => True
  | none :: s, _ :: b => Begins s b
  | some x :: s, y :: b => y = x ∧ Begins s b
  | _ :: _, [] => False

/-- A bit that is 0 in the one and 1 in the other. -/
def clash : Pattern → Pattern → Bool
  | some x :: s, some y :: t => (x != y) || clash s t
  | _ :: s, _ :: t => clash s t
  | _, _ => false

theorem clash_begins {s t : Pattern} (h : clash s t = true) {b : List Bool} (hs : Begins s b) (ht : Begins t b) : False := by
  induction s generalizing t b with
  | nil => cases h
  | cons x s ih =>
    cases t with
    | nil => cases x <;> cases h
    | cons y t =>
      cases b with
      | nil => cases x <;> exact hs
      | cons z b =>
        cases x with
        | none =>
          cases y with
          | none => exact ih h hs ht
          | some y => exact ih h hs ht.2
        | some x =>
          cases y with
          | none => exact ih h hs.2 ht
          | some y =>
            rw [clash, Bool.or_eq_true] at h
            rcases h with h | h
            · rw [bne_iff_ne] at h
              exact h (hs.1.symm.trans ht.1)
            · exact ih h hs.2 ht.2

theorem begins_append {x s : Pattern} {b c : List Bool} (h : Agrees x b) (hs : Begins s c) : Begins (x ++ s) (b ++ c) := by
  induction x generalizing b with
  | nil =>
    cases b with
    | nil => exact hs
    | cons => exact h.elim
  | cons y x ih =>
    cases b with
    | nil => cases y <;> exact h.elim
    | cons z b =>
      cases y with
      | none => exact ih (b := b) h
      | some y => exact ⟨h.1, ih h.2⟩

/-- Values that have the given ones. -/
def Has (env : Values) (cs : List (String × Nat)) : Prop :=
  ∀ c ∈ cs, ∀ d, cs.find? (fun c' => c'.1 = c.1) = some d → env.int c.1 = d.2

theorem has_find {env : Values} {cs : List (String × Nat)} (h : Has env cs) {id : String} {c : String × Nat}
    (e : cs.find? (fun c' => c'.1 = id) = some c) : env.int id = c.2 := by
  have h1 : c.1 = id := by simpa using List.find?_some e
  subst h1
  exact h c (List.mem_of_find?_eq_some e) c e

theorem has_nil (env : Values) : Has env [] := fun c hc => by cases hc

theorem has_append {env : Values} {cs : List (String × Nat)} (h : Has env cs) (ds : List (String × Nat)) :
    Has (ds.map (fun c => (c.1, Value.int c.2)) ++ env) (ds ++ cs) := by
  have key : ∀ id d, (ds ++ cs).find? (fun c' => c'.1 = id) = some d →
      Values.int (ds.map (fun c => (c.1, Value.int c.2)) ++ env) id = d.2 := by
    intro id d e
    induction ds with
    | nil => exact has_find h e
    | cons c ds ih =>
      rw [List.cons_append, List.find?_cons] at e
      by_cases hc : c.1 = id
      · simp only [hc, decide_true, Option.some.injEq] at e
        subst e
        simp [Values.int, Values.get, hc]
      · simp only [hc, decide_false] at e
        have := ih e
        simpa [Values.int, Values.get, hc] using this
  exact fun c _ d e => key c.1 d e

theorem field_shape {f : Field} {cs : List (String × Nat)} {x : Pattern} (h : f.shape cs = some x) {env : Values} (hh : Has env cs)
    {p : Pattern} {b : List Bool} (ha : Agrees (f.pattern env p) b) : Agrees x b := by
  have gp : ∀ {n v}, Agrees (nat n v) b → Agrees (gap n) b := fun g => agrees_gap ((agrees_length g).trans (nat_length _ _))
  cases f with
  | scalar id n =>
    rw [Field.pattern] at ha
    rw [Field.shape, Option.some.injEq] at h
    subst h
    cases e : cs.find? (fun c => c.1 = id) with
    | none => exact gp ha
    | some c => rw [has_find hh e] at ha; exact ha
  | reserved n => rw [Field.pattern] at ha; cases h; exact ha
  | fixed v n => rw [Field.pattern] at ha; cases h; exact ha
  | count id n => rw [Field.pattern] at ha; cases h; exact gp ha
  | size id n => rw [Field.pattern] at ha; cases h; exact gp ha
  | sizeOfPayload n => rw [Field.pattern] at ha; cases h; exact gp ha
  | _ => cases h

theorem shapes_begin {cs : List (String × Nat)} {env : Values} (hh : Has env cs) {k p : Pattern}
    (hk : ∀ b c, Agrees p b → Begins k (b ++ c)) {l : List Field} {b c : List Bool} (ha : Agrees (patterns env p l) b) :
    Begins (shapes cs k l) (b ++ c) := by
  induction l generalizing b with
  | nil => exact trivial
  | cons f l ih =>
    rw [patterns] at ha
    have hs := agrees_split ha
    have hb : b ++ c = b.take (f.pattern env p).length ++ (b.drop (f.pattern env p).length ++ c) := by
      rw [← List.append_assoc, List.take_append_drop]
    rw [hb]
    unfold shapes
    split
    · exact hk _ _ (by simpa only [Field.pattern] using hs.1)
    · cases e : f.shape cs with
      | none => exact trivial
      | some x => exact begins_append (field_shape e hh hs.1) (ih hs.2)

theorem within_begin {q : Packet} {cs : List (String × Nat)} {env : Values} (hh : Has env cs) {k p : Pattern}
    (hk : ∀ b c, Agrees p b → Begins k (b ++ c)) {b c : List Bool} (ha : Agrees (q.within env p) b) :
    Begins (q.shape cs k) (b ++ c) := by
  induction q generalizing cs env k p b c with
  | root l => exact shapes_begin hh hk ha
  | child q ds l ih => exact ih (has_append hh ds) (fun b c g => shapes_begin hh hk g) ha

theorem pattern_begin {q : Packet} {env : Values} {b : List Bool} (ha : Agrees (q.pattern env) b) : Begins (q.shape [] []) b := by
  have := within_begin (c := []) (has_nil env) (k := []) (fun _ _ _ => trivial) ha
  rwa [List.append_nil] at this

end Pica.Spec.Pdl
