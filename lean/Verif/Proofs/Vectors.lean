import Verif.Spec.Vectors
import Verif.Proofs.Reading
/-! A necessary condition for bytes to be a packet of the description, by going through its fields. -/

namespace Pica.Spec.Pdl

/-- The number with these bits. -/
def number (b : List Bool) : Nat := b.foldr (fun x n => x.toNat + 2 * n) 0

theorem number_nat (n v : Nat) : number ((List.range n).map v.testBit) = v % 2 ^ n := by
  induction n generalizing v with
  | zero => simp [number, Nat.mod_one]
  | succ n ih =>
    rw [List.range_succ_eq_map, List.map_cons, List.map_map]
    show (v.testBit 0).toNat + 2 * number ((List.range n).map (v.testBit ∘ Nat.succ)) = _
    have : (v.testBit ∘ Nat.succ) = (v / 2).testBit := by
      funext i
      exact Nat.testBit_succ v i
    rw [this, ih, Nat.pow_succ', Nat.mod_mul]
    congr 1
    rw [Nat.testBit_zero]
    rcases Nat.mod_two_eq_zero_or_one v with e | e <;> simp [e]

/-- The lengths and the values known so far. -/
structure Known where
  lengths : List (String × Nat)
  ints : List (String × Nat)

/-- What is known is so. -/
structure Known.Ok (k : Known) (env : Values) : Prop where
  lengths : ∀ c ∈ k.lengths, env.length c.1 = c.2
  ints : ∀ c ∈ k.ints, env.int c.1 = c.2

/-- The next bits as a number. -/
def eat (n : Nat) (b : List Bool) : Option (Nat × List Bool) :=
  if n ≤ b.length then some (number (b.take n), b.drop n) else none

/-- To do the same a number of times. -/
def repeatedly (g : List Bool → Option (List Bool)) : Nat → List Bool → Option (List Bool)
  | 0, b => some b
  | n + 1, b => (g b).bind (repeatedly g n)

mutual
/-- To go past a field. -/
def Field.skip (cs : List (String × Nat)) (last : Bool) (k : Known) (b : List Bool) : Field → Option (Known × List Bool)
  | .scalar id n => (eat n b).bind fun x =>
      match cs.find? (fun c => c.1 = id) with
      | some c => if x.1 = c.2 then some (⟨k.lengths, (id, x.1) :: k.ints⟩, x.2) else none
      | none => some (⟨k.lengths, (id, x.1) :: k.ints⟩, x.2)
  | .reserved n => (eat n b).map fun x => (k, x.2)
  | .fixed v n => (eat n b).bind fun x => if x.1 = v % 2 ^ n then some (k, x.2) else none
  | .count id n | .size id n => (eat n b).map fun x => (⟨(id, x.1) :: k.lengths, k.ints⟩, x.2)
  | .sizeOfPayload n => (eat n b).map fun x => (k, x.2)
  | .optional _ n flag v =>
    match k.ints.find? (fun c => c.1 = flag) with
    | some c => if c.2 = v then (eat n b).map fun x => (k, x.2) else some (k, b)
    | none => none
  | .bytes id =>
    match k.lengths.find? (fun c => c.1 = id) with
    | some c => (eat (8 * c.2) b).map fun x => (k, x.2)
    | none => if last then some (k, []) else none
  | .array _ n => (eat (8 * n) b).map fun x => (k, x.2)
  | .scalars id n =>
    match k.lengths.find? (fun c => c.1 = id) with
    | some c => (eat (c.2 * n) b).map fun x => (k, x.2)
    | none => if last then some (k, []) else none
  | .structs id l =>
    match k.lengths.find? (fun c => c.1 = id) with
    | some c => (repeatedly (fun b => (skips [] false ⟨[], []⟩ b l).map Prod.snd) c.2 b).map fun b => (k, b)
    | none => if last then some (k, []) else none
  | .struct _ l => (skips [] false ⟨[], []⟩ b l).map fun x => (k, x.2)
  | .payload => none
/-- To go past fields one after the other. -/
def skips (cs : List (String × Nat)) (tail : Bool) (k : Known) (b : List Bool) : List Field → Option (Known × List Bool)
  | [] => some (k, b)
  | f :: l => (f.skip cs (tail && l.isEmpty) k b).bind fun x => skips cs tail x.1 x.2 l
end

theorem eat_of {x r : Pattern} {b : List Bool} {n : Nat} (h : Agrees (x ++ r) b) (hn : x.length = n) :
    ∃ c, eat n b = some (number c, b.drop n) ∧ Agrees x c ∧ Agrees r (b.drop n) := by
  have hs := agrees_split h
  rw [hn] at hs
  have hl := agrees_length h
  rw [List.length_append, hn] at hl
  unfold eat
  rw [if_pos (by omega)]
  exact ⟨_, rfl, hs⟩

theorem eat_nat {n v : Nat} {r : Pattern} {b : List Bool} (h : Agrees (nat n v ++ r) b) :
    eat n b = some (v % 2 ^ n, b.drop n) ∧ Agrees r (b.drop n) := by
  obtain ⟨c, h1, h2, h3⟩ := eat_of h (nat_length n v)
  rw [agrees_nat h2, number_nat] at h1
  exact ⟨h1, h3⟩

theorem known_find {l : List (String × Nat)} {id : String} (h : id ∈ l.map Prod.fst) :
    ∃ v, l.find? (fun c => c.1 = id) = some (id, v) ∧ (id, v) ∈ l := by
  cases e : l.find? (fun c => c.1 = id) with
  | none =>
    obtain ⟨c, hc, rfl⟩ := List.mem_map.1 h
    have := List.find?_eq_none.1 e c hc
    simp at this
  | some c =>
    have h1 : c.1 = id := by simpa using List.find?_some e
    have h2 := List.mem_of_find?_eq_some e
    subst h1
    exact ⟨c.2, rfl, h2⟩

theorem unknown_find {l : List (String × Nat)} {id : String} (h : id ∉ l.map Prod.fst) : l.find? (fun c => c.1 = id) = none := by
  rw [List.find?_eq_none]
  intro c hc e
  exact h (List.mem_map.2 ⟨c, hc, by simpa using e⟩)

theorem many_skip {α : Type} {f : α → Pattern} {P : α → Prop} {g : List Bool → Option (List Bool)}
    (hg : ∀ a r b, P a → Agrees (f a ++ r) b → ∃ b', g b = some b' ∧ Agrees r b') {l : List α} (hp : ∀ a ∈ l, P a) {r : Pattern}
    {b : List Bool} (h : Agrees (l.flatMap f ++ r) b) : ∃ b', repeatedly g l.length b = some b' ∧ Agrees r b' := by
  induction l generalizing b with
  | nil => exact ⟨b, rfl, h⟩
  | cons a l ih =>
    rw [List.flatMap_cons, List.append_assoc] at h
    obtain ⟨b', h1, h2⟩ := hg _ _ _ (hp a (List.mem_cons_self ..)) h
    obtain ⟨b'', h3, h4⟩ := ih (fun x hx => hp x (List.mem_cons_of_mem _ hx)) h2
    refine ⟨b'', ?_, h4⟩
    rw [List.length_cons, repeatedly, h1]
    exact h3

theorem flat_length (l : List Nat) (n : Nat) : (l.flatMap fun v => nat n v).length = l.length * n := by
  induction l with
  | nil => simp
  | cons a l ih => rw [List.flatMap_cons, List.length_append, ih, nat_length, List.length_cons, Nat.succ_mul, Nat.add_comm]

theorem known_none (env : Values) : Known.Ok ⟨[], []⟩ env :=
  ⟨fun _ hx => (List.not_mem_nil hx).elim, fun _ hx => (List.not_mem_nil hx).elim⟩

mutual
theorem field_skip (f : Field) (cs : List (String × Nat)) (last : Bool) (k : Known) (env : Values) (p r : Pattern) (b : List Bool)
    (hc : f.clear (k.lengths.map Prod.fst) (k.ints.map Prod.fst) last = true) (hf : f.fits env) (hh : Has env cs) (hk : k.Ok env)
    (ht : last = true → r = []) (h : Agrees (f.pattern env p ++ r) b) :
    ∃ k' b', f.skip cs last k b = some (k', b') ∧ Agrees r b' ∧ k'.Ok env ∧
      k'.lengths.map Prod.fst = f.lengths ++ k.lengths.map Prod.fst ∧ k'.ints.map Prod.fst = f.values ++ k.ints.map Prod.fst := by
  cases f with
  | scalar id n =>
    obtain ⟨v, e, hv⟩ := hf
    have i : env.int id = v := by unfold Values.int; rw [e]
    rw [Field.pattern, i] at h
    obtain ⟨h1, h2⟩ := eat_nat h
    rw [Nat.mod_eq_of_lt hv] at h1
    refine ⟨⟨k.lengths, (id, v) :: k.ints⟩, b.drop n, ?_, h2, ⟨hk.lengths, ?_⟩, rfl, rfl⟩
    · rw [Field.skip, h1, Option.bind_some]
      cases e' : cs.find? (fun c => c.1 = id) with
      | none => rfl
      | some c =>
        have := has_find hh e'
        rw [i] at this
        dsimp only
        rw [if_pos this]
    · intro c hc
      rcases List.mem_cons.1 hc with rfl | hc
      · exact i
      · exact hk.ints c hc
  | reserved n =>
    rw [Field.pattern] at h
    obtain ⟨c, h1, -, h3⟩ := eat_of (n := n) h (by simp [gap])
    exact ⟨k, b.drop n, by rw [Field.skip, h1]; rfl, h3, hk, rfl, rfl⟩
  | fixed v n =>
    rw [Field.pattern] at h
    obtain ⟨h1, h2⟩ := eat_nat h
    exact ⟨k, b.drop n, by rw [Field.skip, h1, Option.bind_some, if_pos rfl], h2, hk, rfl, rfl⟩
  | count id n =>
    rw [Field.pattern] at h
    rw [Field.fits] at hf
    obtain ⟨h1, h2⟩ := eat_nat h
    rw [Nat.mod_eq_of_lt hf] at h1
    refine ⟨⟨(id, env.length id) :: k.lengths, k.ints⟩, b.drop n, by rw [Field.skip, h1]; rfl, h2, ⟨?_, hk.ints⟩, rfl, rfl⟩
    intro c hc
    rcases List.mem_cons.1 hc with rfl | hc
    · rfl
    · exact hk.lengths c hc
  | size id n =>
    rw [Field.pattern] at h
    rw [Field.fits] at hf
    obtain ⟨h1, h2⟩ := eat_nat h
    rw [Nat.mod_eq_of_lt hf] at h1
    refine ⟨⟨(id, env.length id) :: k.lengths, k.ints⟩, b.drop n, by rw [Field.skip, h1]; rfl, h2, ⟨?_, hk.ints⟩, rfl, rfl⟩
    intro c hc
    rcases List.mem_cons.1 hc with rfl | hc
    · rfl
    · exact hk.lengths c hc
  | sizeOfPayload n =>
    rw [Field.pattern] at h
    obtain ⟨h1, h2⟩ := eat_nat h
    exact ⟨k, b.drop n, by rw [Field.skip, h1]; rfl, h2, hk, rfl, rfl⟩
  | optional id n flag v =>
    rw [Field.clear, List.contains_iff_mem] at hc
    obtain ⟨w, e, hw⟩ := known_find hc
    have i := hk.ints _ hw
    dsimp only at i
    rw [Field.pattern, i] at h
    by_cases hv : w = v
    · rw [if_pos hv] at h
      obtain ⟨h1, h2⟩ := eat_nat h
      exact ⟨k, b.drop n, by rw [Field.skip, e]; dsimp only; rw [if_pos hv, h1]; rfl, h2, hk, rfl, rfl⟩
    · rw [if_neg hv] at h
      exact ⟨k, b, by rw [Field.skip, e]; dsimp only; rw [if_neg hv], h, hk, rfl, rfl⟩
  | bytes id =>
    obtain ⟨c, e⟩ := hf
    have i : env.bytes id = c := by unfold Values.bytes; rw [e]
    rw [Field.pattern, i] at h
    by_cases hm : id ∈ k.lengths.map Prod.fst
    · obtain ⟨v, e1, e2⟩ := known_find hm
      have hv := hk.lengths _ e2
      unfold Values.length at hv
      dsimp only at hv
      rw [e] at hv
      dsimp only at hv
      obtain ⟨x, h1, -, h3⟩ := eat_of (n := 8 * v) h (by rw [octets_length, hv])
      exact ⟨k, b.drop (8 * v), by rw [Field.skip, e1]; dsimp only; rw [h1]; rfl, h3, hk, rfl, rfl⟩
    · rw [Field.clear, Bool.or_eq_true, List.contains_iff_mem] at hc
      have hl := hc.resolve_left hm
      exact ⟨k, [], by rw [Field.skip, unknown_find hm]; dsimp only; rw [if_pos hl], by rw [ht hl]; trivial, hk, rfl, rfl⟩
  | array id n =>
    obtain ⟨c, e, hn⟩ := hf
    have i : env.bytes id = c := by unfold Values.bytes; rw [e]
    rw [Field.pattern, i] at h
    obtain ⟨x, h1, -, h3⟩ := eat_of (n := 8 * n) h (by rw [octets_length, hn])
    exact ⟨k, b.drop (8 * n), by rw [Field.skip, h1]; rfl, h3, hk, rfl, rfl⟩
  | scalars id n =>
    obtain ⟨c, e, -⟩ := hf
    have i : env.ints id = c := by unfold Values.ints; rw [e]
    rw [Field.pattern, i] at h
    by_cases hm : id ∈ k.lengths.map Prod.fst
    · obtain ⟨v, e1, e2⟩ := known_find hm
      have hv := hk.lengths _ e2
      unfold Values.length at hv
      dsimp only at hv
      rw [e] at hv
      dsimp only at hv
      obtain ⟨x, h1, -, h3⟩ := eat_of (n := v * n) h (by rw [flat_length, hv])
      exact ⟨k, b.drop (v * n), by rw [Field.skip, e1]; dsimp only; rw [h1]; rfl, h3, hk, rfl, rfl⟩
    · rw [Field.clear, Bool.or_eq_true, List.contains_iff_mem, Bool.and_eq_true] at hc
      have hl := (hc.resolve_left hm).1
      exact ⟨k, [], by rw [Field.skip, unknown_find hm]; dsimp only; rw [if_pos hl], by rw [ht hl]; trivial, hk, rfl, rfl⟩
  | structs id l =>
    rw [Field.fits] at hf
    obtain ⟨c, e, hfit⟩ := hf
    have i : env.records id = c := by unfold Values.records; rw [e]
    rw [Field.pattern, i] at h
    rw [Field.clear, Bool.and_eq_true, Bool.or_eq_true, List.contains_iff_mem, Bool.and_eq_true] at hc
    by_cases hm : id ∈ k.lengths.map Prod.fst
    · obtain ⟨v, e1, e2⟩ := known_find hm
      have hv := hk.lengths _ e2
      unfold Values.length at hv
      dsimp only at hv
      rw [e] at hv
      dsimp only at hv
      obtain ⟨b', h1, h2⟩ := many_skip (P := fun a => fit a l) (g := fun b => (skips [] false ⟨[], []⟩ b l).map Prod.snd) (by
        intro a r b ha g
        obtain ⟨k', b', g1, g2⟩ := fields_skip l [] false ⟨[], []⟩ a [] r b hc.2 ha (has_nil a)
          (known_none a) (by simp) g
        exact ⟨b', by rw [g1]; rfl, g2⟩) hfit h
      rw [hv] at h1
      exact ⟨k, b', by rw [Field.skip, e1]; dsimp only; rw [h1]; rfl, h2, hk, rfl, rfl⟩
    · have hl := (hc.1.resolve_left hm).1
      exact ⟨k, [], by rw [Field.skip, unknown_find hm]; dsimp only; rw [if_pos hl], by rw [ht hl]; trivial, hk, rfl, rfl⟩
  | struct id l =>
    rw [Field.fits] at hf
    obtain ⟨c, e, hfit⟩ := hf
    have i : env.record id = c := by unfold Values.record; rw [e]
    rw [Field.pattern, i] at h
    rw [Field.clear] at hc
    obtain ⟨k', b', g1, g2⟩ := fields_skip l [] false ⟨[], []⟩ c [] r b hc hfit (has_nil c)
      (known_none c) (by simp) h
    exact ⟨k, b', by rw [Field.skip, g1]; rfl, g2, hk, rfl, rfl⟩
  | payload => cases hc
theorem fields_skip (l : List Field) (cs : List (String × Nat)) (tail : Bool) (k : Known) (env : Values) (p r : Pattern) (b : List Bool)
    (hc : clears (k.lengths.map Prod.fst) (k.ints.map Prod.fst) tail l = true) (hf : fit env l) (hh : Has env cs) (hk : k.Ok env)
    (ht : tail = true → r = []) (h : Agrees (patterns env p l ++ r) b) :
    ∃ k' b', skips cs tail k b l = some (k', b') ∧ Agrees r b' := by
  cases l with
  | nil =>
    rw [patterns] at h
    exact ⟨k, b, by rw [skips], h⟩
  | cons f l =>
    rw [clears, Bool.and_eq_true] at hc
    rw [fit] at hf
    rw [patterns, List.append_assoc] at h
    obtain ⟨k', b', h1, h2, h3, h4, h5⟩ := field_skip f cs (tail && l.isEmpty) k env p _ b hc.1 hf.1 hh hk (by
      intro g
      rw [Bool.and_eq_true, List.isEmpty_iff] at g
      obtain ⟨g1, g2⟩ := g
      subst g2
      rw [patterns, ht g1]
      rfl) h
    obtain ⟨k'', b'', g1, g2⟩ := fields_skip l cs tail k' env p r b' (by rw [h4, h5]; exact hc.2) hf.2 hh h3 ht h2
    exact ⟨k'', b'', by rw [skips, h1, Option.bind_some]; exact g1, g2⟩
end

/-- The bits of the payload of a packet. -/
def Packet.unwrap (cs : List (String × Nat)) (b : List Bool) : Packet → Option (List Bool)
  | .root l => (skips cs false ⟨[], []⟩ b l.dropLast).map Prod.snd
  | .child q ds l => (q.unwrap (ds ++ cs) b).bind fun b => (skips cs false ⟨[], []⟩ b l.dropLast).map Prod.snd

theorem before_skip {l : List Field} (hc : before l = true) {cs : List (String × Nat)} {env : Values} (hf : fit env l) (hh : Has env cs)
    {p : Pattern} {b : List Bool} (h : Agrees (patterns env p l) b) :
    ∃ b', (skips cs false ⟨[], []⟩ b l.dropLast).map Prod.snd = some b' ∧ Agrees p b' := by
  rw [before, Bool.and_eq_true] at hc
  rw [patterns_ends hc.1] at h
  rw [ends_dropLast hc.1, fit_append] at hf
  obtain ⟨k', b', h1, h2⟩ := fields_skip l.dropLast cs false ⟨[], []⟩ env p p b hc.2 hf.1 hh (known_none env) (by simp) h
  exact ⟨b', by rw [h1]; rfl, h2⟩

theorem above_skip {q : Packet} (hc : q.above = true) {cs : List (String × Nat)} {env : Values} (hf : q.fits env) (hh : Has env cs)
    {p : Pattern} {b : List Bool} (h : Agrees (q.within env p) b) : ∃ b', q.unwrap cs b = some b' ∧ Agrees p b' := by
  induction q generalizing env cs p with
  | root l => exact before_skip hc hf hh h
  | child q ds l ih =>
    rw [Packet.above, Bool.and_eq_true] at hc
    obtain ⟨b', h1, h2⟩ := ih hc.1 hf.1 (has_append hh ds) h
    obtain ⟨b'', h3, h4⟩ := before_skip hc.2 hf.2 hh h2
    exact ⟨b'', by rw [Packet.unwrap, h1, Option.bind_some, h3], h4⟩

/-- All the bits are gone past. -/
def finished : Option (Known × List Bool) → Bool
  | some (_, []) => true
  | _ => false

/-- The bits can be gone through. -/
def Packet.accepts (b : List Bool) : Packet → Bool
  | .root l => finished (skips [] true ⟨[], []⟩ b l)
  | .child q ds l => finished ((q.unwrap ds b).bind fun b => skips [] true ⟨[], []⟩ b l)

theorem tail_skip {l : List Field} (hc : clears [] [] true l = true) {env : Values} (hf : fit env l) {p : Pattern} {b : List Bool}
    (h : Agrees (patterns env p l) b) : finished (skips [] true ⟨[], []⟩ b l) = true := by
  obtain ⟨k', b', h1, h2⟩ := fields_skip l [] true ⟨[], []⟩ env p [] b hc hf (has_nil env) (known_none env) (fun _ => rfl)
    (by rw [List.append_nil]; exact h)
  cases b' with
  | cons => exact h2.elim
  | nil => rw [h1]; rfl

theorem clear_accepts {q : Packet} (hc : q.clear = true) {env : Values} (hf : q.fits env) {b : Bytes} (h : Matches (q.pattern env) b) :
    q.accepts (bitsOf b) = true := by
  cases q with
  | root l => exact tail_skip hc hf h
  | child q ds l =>
    rw [Packet.clear, Bool.and_eq_true] at hc
    obtain ⟨b', h1, h2⟩ := above_skip hc.1 (cs := ds) hf.1 (by simpa using has_append (has_nil env) ds) h
    rw [Packet.accepts, h1, Option.bind_some]
    exact tail_skip hc.2 hf.2 h2

mutual
/-- The values of a field are of the right kind and fit in its bits, decided. -/
def Field.fitted (env : Values) : Field → Bool
  | .scalar id n => match env.get id with
    | .int v => decide (v < 2 ^ n)
    | _ => false
  | .count id n | .size id n => decide (env.length id < 2 ^ n)
  | .optional id n flag v =>
    if env.int flag = v then
      match env.get id with
      | .int x => decide (x < 2 ^ n)
      | _ => false
    else
      match env.get id with
      | .absent => true
      | _ => false
  | .bytes id => match env.get id with
    | .bytes _ => true
    | _ => false
  | .array id n => match env.get id with
    | .bytes b => b.length == n
    | _ => false
  | .scalars id n => match env.get id with
    | .ints l => l.all fun v => decide (v < 2 ^ n)
    | _ => false
  | .structs id l => match env.get id with
    | .records es => es.all fun e => fitteds e l
    | _ => false
  | .struct id l => match env.get id with
    | .record e => fitteds e l
    | _ => false
  | .reserved _ | .fixed _ _ | .sizeOfPayload _ | .payload => true
/-- The same for fields one after the other. -/
def fitteds (env : Values) : List Field → Bool
  | [] => true
  | f :: l => f.fitted env && fitteds env l
end

mutual
theorem field_fitted (f : Field) (env : Values) (h : f.fitted env = true) : f.fits env := by
  cases f with
  | scalar id n =>
    rw [Field.fitted] at h
    split at h
    · rename_i v e
      exact ⟨v, e, of_decide_eq_true h⟩
    · cases h
  | count id n =>
    rw [Field.fitted] at h
    rw [Field.fits]
    exact of_decide_eq_true h
  | size id n =>
    rw [Field.fitted] at h
    rw [Field.fits]
    exact of_decide_eq_true h
  | optional id n flag v =>
    rw [Field.fitted] at h
    rw [Field.fits]
    by_cases g : env.int flag = v
    · rw [if_pos g] at h ⊢
      split at h
      · rename_i x e
        exact ⟨x, e, of_decide_eq_true h⟩
      · cases h
    · rw [if_neg g] at h ⊢
      split at h
      · assumption
      · cases h
  | bytes id =>
    rw [Field.fitted] at h
    split at h
    · rename_i b e
      exact ⟨b, e⟩
    · cases h
  | array id n =>
    rw [Field.fitted] at h
    split at h
    · rename_i b e
      exact ⟨b, e, by simpa using h⟩
    · cases h
  | scalars id n =>
    rw [Field.fitted] at h
    split at h
    · rename_i l e
      refine ⟨l, e, fun v hv => ?_⟩
      exact of_decide_eq_true (List.all_eq_true.1 h v hv)
    · cases h
  | structs id l =>
    rw [Field.fitted] at h
    rw [Field.fits]
    split at h
    · rename_i es e
      exact ⟨es, e, fun x hx => fields_fitted l x (List.all_eq_true.1 h x hx)⟩
    · cases h
  | struct id l =>
    rw [Field.fitted] at h
    rw [Field.fits]
    split at h
    · rename_i es e
      exact ⟨es, e, fields_fitted l es h⟩
    · cases h
  | reserved => trivial
  | fixed => trivial
  | sizeOfPayload => trivial
  | payload => trivial
theorem fields_fitted (l : List Field) (env : Values) (h : fitteds env l = true) : fit env l := by
  cases l with
  | nil => trivial
  | cons f l =>
    rw [fitteds, Bool.and_eq_true] at h
    rw [fit]
    exact ⟨field_fitted f env h.1, fields_fitted l env h.2⟩
end

/-- The values are values for a packet, decided. -/
def Packet.fitted (env : Values) : Packet → Bool
  | .root l => fitteds env l
  | .child q cs l => q.fitted (cs.map (fun c => (c.1, Value.int c.2)) ++ env) && fitteds env l

theorem packet_fitted {q : Packet} {env : Values} (h : q.fitted env = true) : q.fits env := by
  induction q generalizing env with
  | root l => exact fields_fitted l env h
  | child q cs l ih =>
    rw [Packet.fitted, Bool.and_eq_true] at h
    exact ⟨ih h.1, fields_fitted l env h.2⟩

/-- Bits agree with a pattern, decided. -/
def agreed : Pattern → List Bool → Bool
  | [], [] => true
  | none :: p, _ :: b => agreed p b
  | some x :: p, y :: b => (y == x) && agreed p b
  | _, _ => false

theorem agreed_agrees {p : Pattern} {b : List Bool} (h : agreed p b = true) : Agrees p b := by
  induction p generalizing b with
  | nil =>
    cases b with
    | nil => trivial
    | cons => cases h
  | cons x p ih =>
    cases b with
    | nil => cases x <;> cases h
    | cons y b =>
      cases x with
      | none => exact ih h
      | some x =>
        rw [agreed, Bool.and_eq_true, beq_iff_eq] at h
        exact ⟨h.1, ih h.2⟩

/-- Bits in groups, as numbers. -/
def groups (n : Nat) : Nat → List Bool → List Nat
  | 0, _ => []
  | k + 1, b => number (b.take n) :: groups n k (b.drop n)

/-- The values of a number of structures. -/
def manyFound (g : List Bool → Values × Option (List Bool)) : Nat → List Bool → List Values
  | 0, _ => []
  | n + 1, b => match b with
    | [] => []
    | _ :: _ => match (g b).2 with
      | some b' => (g b).1 :: manyFound g n b'
      | none => []

mutual
/-- The value of a field, found by going past it. Whether it is right is decided afterwards. -/
def Field.found (k : Known) (b : List Bool) : Field → Values
  | .scalar id n => [(id, .int (number (b.take n)))]
  | .optional id n flag v =>
    match k.ints.find? (fun c => c.1 = flag) with
    | some c => if c.2 = v then [(id, .int (number (b.take n)))] else []
    | none => []
  | .bytes id =>
    match k.lengths.find? (fun c => c.1 = id) with
    | some c => [(id, .bytes ((groups 8 c.2 b).map UInt8.ofNat))]
    | none => [(id, .bytes ((groups 8 (b.length / 8) b).map UInt8.ofNat))]
  | .array id n => [(id, .bytes ((groups 8 n b).map UInt8.ofNat))]
  | .scalars id n =>
    match k.lengths.find? (fun c => c.1 = id) with
    | some c => [(id, .ints (groups n c.2 b))]
    | none => [(id, .ints (groups n (b.length / n) b))]
  | .structs id l =>
    [(id, .records (manyFound (fun b => (founds [] false ⟨[], []⟩ b l, (skips [] false ⟨[], []⟩ b l).map Prod.snd))
      (match k.lengths.find? (fun c => c.1 = id) with
        | some c => c.2
        | none => b.length) b))]
  | .struct id l => [(id, .record (founds [] false ⟨[], []⟩ b l))]
  | .reserved _ | .fixed _ _ | .count _ _ | .size _ _ | .sizeOfPayload _ | .payload => []
/-- The same for fields one after the other. -/
def founds (cs : List (String × Nat)) (tail : Bool) (k : Known) (b : List Bool) : List Field → Values
  | [] => []
  | f :: l => f.found k b ++
    match f.skip cs (tail && l.isEmpty) k b with
    | some x => founds cs tail x.1 x.2 l
    | none => []
end

/-- The values of the fields of a packet. -/
def Packet.outer (cs : List (String × Nat)) (b : List Bool) : Packet → Values
  | .root l => founds cs false ⟨[], []⟩ b l.dropLast
  | .child q ds l => q.outer (ds ++ cs) b ++
    match q.unwrap (ds ++ cs) b with
    | some b => founds cs false ⟨[], []⟩ b l.dropLast
    | none => []

/-- The same with those of the last. -/
def Packet.found (b : List Bool) : Packet → Values
  | .root l => founds [] true ⟨[], []⟩ b l
  | .child q ds l => q.outer ds b ++
    match q.unwrap ds b with
    | some b => founds [] true ⟨[], []⟩ b l
    | none => []

/-- Bytes are a packet, decided. -/
def Vector.valid (v : Vector) : Bool :=
  v.packet.fitted (v.packet.found (bitsOf v.wire)) &&
    agreed (v.packet.pattern (v.packet.found (bitsOf v.wire))) (bitsOf v.wire)

theorem valid_of {v : Vector} (h : v.valid = true) : v.Valid := by
  rw [Vector.valid, Bool.and_eq_true] at h
  exact ⟨_, packet_fitted h.1, agreed_agrees h.2⟩

theorem not_valid_of {v : Vector} (hc : v.packet.clear = true) (h : v.packet.accepts (bitsOf v.wire) = false) : ¬ v.Valid := by
  rintro ⟨env, h1, h2⟩
  rw [clear_accepts hc h1 h2] at h
  cases h

end Pica.Spec.Pdl
