import Verif.Model.CommandLine
import Verif.Spec.CommandLine
import Verif.Props.Http
/-! Lines of the console: words, arguments and numbers. -/

namespace Pica.Console
open Spec Spec.Typed
open Props (splitOn_none splitOn_first)

/-- A word: not empty, without white space. -/
def Solid (w : Text) : Prop := w ≠ [] ∧ ∀ c ∈ w, isSpace c = false

theorem isSpace_print {c : Char} (h : 32 < c.toNat ∧ c.toNat < 127) : isSpace c = false := by
  unfold isSpace
  simp only [Bool.or_eq_false_iff, Bool.and_eq_false_iff, decide_eq_false_iff_not, beq_eq_false_iff_ne]
  omega

theorem isSpace_blank {c : Char} (h : Blank c) : isSpace c = true := by
  rcases h with rfl | rfl <;> decide

theorem rstrip_append {a b : Text} (h : rstrip b ≠ []) : rstrip (a ++ b) = a ++ rstrip b := by
  unfold rstrip at *
  rw [List.reverse_append, List.dropWhile_append]
  have : (b.reverse.dropWhile isSpace).isEmpty = false := by
    rw [List.isEmpty_eq_false_iff]
    intro e
    rw [e] at h
    exact h rfl
  simp only [this, Bool.false_eq_true, if_false, List.reverse_append, List.reverse_reverse]

theorem rstrip_solid {w s : Text} (hw : Solid w) (hs : ∀ c ∈ s, Blank c) : rstrip (w ++ s) = w := by
  unfold rstrip
  have h1 : s.reverse.dropWhile isSpace = [] := by
    have : ∀ l : Text, (∀ c ∈ l, isSpace c = true) → l.dropWhile isSpace = [] := by
      intro l hl
      induction l with
      | nil => rfl
      | cons c l ih =>
        rw [List.dropWhile_cons_of_pos (hl c List.mem_cons_self)]
        exact ih fun x hx => hl x (List.mem_cons_of_mem _ hx)
    exact this _ fun c hc => isSpace_blank (hs c (List.mem_reverse.mp hc))
  rw [List.reverse_append, List.dropWhile_append, h1]
  simp only [List.isEmpty_nil, if_true]
  have h2 : w.reverse.dropWhile isSpace = w.reverse := by
    match h : w.reverse with
    | [] => rfl
    | c :: l => exact List.dropWhile_cons_of_neg (by rw [hw.2 c (List.mem_reverse.mp (by rw [h]; exact List.mem_cons_self))]; decide)
  rw [h2, List.reverse_reverse]

theorem solid_space {w : Text} (h : Solid w) : ' ' ∉ w := fun hm => by
  have := h.2 _ hm
  revert this
  decide

theorem splitOn_spaces (k : Nat) (r : Text) :
    splitOn ' ' (List.replicate k ' ' ++ r) = List.replicate k [] ++ splitOn ' ' r := by
  induction k with
  | zero => rfl
  | succ k ih =>
    rw [List.replicate_succ, List.replicate_succ, List.cons_append, List.cons_append, ← ih, splitOn, if_pos rfl]

/-- The words of a line. -/
theorem spaced_split {line : Text} {ws : List Text} (h : Spaced line ws) (hs : ∀ w ∈ ws, Solid w) :
    rstrip line ≠ [] ∧ ∃ w ps, splitOn ' ' (rstrip line) = w :: ps ∧ w :: ps.filter (fun p => decide (p ≠ [])) = ws := by
  induction h with
  | @last w s hb =>
    have hw := hs w List.mem_cons_self
    rw [rstrip_solid hw hb]
    exact ⟨hw.1, w, [], splitOn_none (solid_space hw), rfl⟩
  | @cons w line ws k h ih =>
    have hw := hs w List.mem_cons_self
    obtain ⟨h0, w', ps, h1, h2⟩ := ih fun x hx => hs x (List.mem_cons_of_mem _ hx)
    rw [rstrip_append h0]
    refine ⟨by simp [hw.1], w, List.replicate k [] ++ w' :: ps, ?_, ?_⟩
    · rw [List.replicate_succ, List.append_assoc, List.cons_append, splitOn_first (solid_space hw), splitOn_spaces, h1]
    · have hw' : w' ∈ ws := by rw [← h2]; exact List.mem_cons_self
      have hne := (hs w' (List.mem_cons_of_mem _ hw')).1
      rw [List.filter_append, List.filter_cons_of_pos (by simpa using hne), h2]
      simp

theorem words_filter (ps : List Text) (args : List Text) (ka : AMap Text Text) :
    words ps args ka = words (ps.filter fun p => decide (p ≠ [])) args ka := by
  induction ps generalizing args ka with
  | nil => rfl
  | cons p ps ih =>
    by_cases hp : p = []
    · subst hp
      rw [words, if_pos rfl, ih, List.filter_cons_of_neg (by simp)]
    · rw [List.filter_cons_of_pos (by simpa using hp), words, words]
      simp only [if_neg hp, ih]

/-- A word with one equals sign. -/
theorem split_equals {w : Text} (h : '=' ∈ w) (h1 : w.count '=' ≤ 1) :
    ∃ k v, w = k ++ '=' :: v ∧ '=' ∉ k ∧ '=' ∉ v ∧ splitOn '=' w = [k, v] := by
  obtain ⟨k, v, rfl⟩ := List.append_of_mem h
  rw [List.count_append, List.count_cons_self] at h1
  have hk : '=' ∉ k := List.count_eq_zero.mp (by omega)
  have hv : '=' ∉ v := List.count_eq_zero.mp (by omega)
  exact ⟨k, v, rfl, hk, hv, by rw [splitOn_first hk, splitOn_none hv]⟩

theorem equals_inj {k v k' v' : Text} (h : k ++ '=' :: v = k' ++ '=' :: v') (hk : '=' ∉ k) (hk' : '=' ∉ k') : k = k' ∧ v = v' := by
  have h1 := splitOn_first hk v
  rw [h, splitOn_first hk'] at h1
  have := (List.cons.inj h1).1
  subst this
  exact ⟨rfl, (List.cons.inj (List.append_cancel_left h)).2⟩

/-- The arguments are in order and the keyword arguments are those given. -/
theorem words_some {ws : List Text} (hw : ∀ w ∈ ws, w ≠ [] ∧ w.count '=' ≤ 1) (args : List Text) (ka : AMap Text Text) :
    ∃ ka', words ws args ka = some (args ++ plain ws, ka') ∧
      ∀ k, '=' ∉ k → (∀ v, ka'.get? k = some v → k ++ '=' :: v ∈ ws ∨ ka.get? k = some v) ∧
        (ka'.get? k = none → (∀ v, k ++ '=' :: v ∉ ws) ∧ ka.get? k = none) := by
  induction ws generalizing args ka with
  | nil => exact ⟨ka, by simp [words, plain], fun k _ => ⟨fun v h => .inr h, fun h => ⟨by simp, h⟩⟩⟩
  | cons w ws ih =>
    obtain ⟨h0, h1⟩ := hw w List.mem_cons_self
    have hw' := fun x hx => hw x (List.mem_cons_of_mem w hx)
    by_cases he : '=' ∈ w
    · obtain ⟨k0, v0, rfl, hk0, hv0, hsp⟩ := split_equals he h1
      obtain ⟨ka', h2, h3⟩ := ih hw' args (ka.insert k0 v0)
      refine ⟨ka', ?_, fun k hk => ⟨fun v h => ?_, fun h => ?_⟩⟩
      · rw [words, if_neg h0, if_pos he, hsp]
        dsimp only
        rw [h2]
        simp [plain]
      · rcases (h3 k hk).1 v h with h | h
        · exact .inl (List.mem_cons_of_mem _ h)
        · rw [AMap.get?_insert] at h
          split at h
          · rename_i e
            cases h
            subst e
            exact .inl List.mem_cons_self
          · exact .inr h
      · obtain ⟨h4, h5⟩ := (h3 k hk).2 h
        rw [AMap.get?_insert] at h5
        split at h5
        · cases h5
        · rename_i e
          refine ⟨fun v hv => ?_, h5⟩
          rcases List.mem_cons.mp hv with hv | hv
          · exact e (equals_inj hv hk hk0).1.symm
          · exact h4 v hv
    · obtain ⟨ka', h2, h3⟩ := ih hw' (args ++ [w]) ka
      refine ⟨ka', ?_, fun k hk => ⟨fun v h => ?_, fun h => ?_⟩⟩
      · rw [words, if_neg h0, if_neg he, h2]
        simp [plain, he]
      · rcases (h3 k hk).1 v h with h | h
        · exact .inl (List.mem_cons_of_mem _ h)
        · exact .inr h
      · obtain ⟨h4, h5⟩ := (h3 k hk).2 h
        refine ⟨fun v hv => ?_, h5⟩
        rcases List.mem_cons.mp hv with hv | hv
        · exact he (by rw [← hv]; simp)
        · exact h4 v hv

/-- Keyword arguments come from words with an equals sign. -/
theorem words_keys {ws : List Text} {args args' : List Text} {ka ka' : AMap Text Text} (h : words ws args ka = some (args', ka'))
    (hk : ∀ k ∈ ka.keys, '=' ∉ k) : ∀ k ∈ ka'.keys, '=' ∉ k := by
  induction ws generalizing args ka with
  | nil => rw [words] at h; cases h; exact hk
  | cons w ws ih =>
    rw [words] at h
    split at h
    · exact ih h hk
    · split at h
      · split at h
        · rename_i key value hs
          refine ih h fun k hm => ?_
          rw [AMap.keys_insert] at hm
          split at hm
          · exact hk k hm
          · rcases List.mem_append.mp hm with hm | hm
            · exact hk k hm
            · rw [List.mem_singleton.mp hm]
              exact (Props.splitOn_join hs).1
        · cases h
      · exact ih h hk

/-- The signature of a command. -/
def signature (ps : List Parameter) (rest : Bool) : Signature := ⟨ps.map fun p => (p.name, p.default), rest⟩

theorem mapM_means {ps : List Parameter} {g : String × Option String → Option Text}
    (h : ∀ p ∈ ps, ∃ v, g (p.name, p.default) = some v ∧ p.means v) :
    ∃ vs, (ps.map fun p => (p.name, p.default)).mapM g = some vs ∧ List.Forall₂ (fun p v => Parameter.means p v) ps vs := by
  induction ps with
  | nil => exact ⟨[], rfl, .nil⟩
  | cons p ps ih =>
    obtain ⟨v, h1, h2⟩ := h p List.mem_cons_self
    obtain ⟨vs, h3, h4⟩ := ih fun q hq => h q (List.mem_cons_of_mem _ hq)
    refine ⟨v :: vs, ?_, .cons h2 h4⟩
    rw [List.map_cons, List.mapM_cons, h1, h3]
    rfl

/-- The values of the parameters are the ones wanted. -/
theorem bind_some {ps : List Parameter} {ws : List Text} {rest : Bool} (h : Phrased ps ws) (hn : ∀ p ∈ ps, '=' ∉ p.name.toList)
    (hs : rest = false → Strict ps ws) {ka : AMap Text Text} (hw : words ws [] [] = some (plain ws, ka)) :
    ∃ vs, (signature ps rest).bind (plain ws) ka = some vs ∧ List.Forall₂ (fun p v => Parameter.means p v) ps vs := by
  obtain ⟨ka', h1, h2⟩ := words_some (ws := ws) (fun w hw => ⟨(h.words w hw).1, (h.words w hw).2.1⟩) [] []
  rw [List.nil_append, hw] at h1
  obtain rfl : ka = ka' := by simpa using h1
  have hkeys : ∀ k ∈ ka.keys, '=' ∉ k := words_keys hw (by simp [AMap.keys])
  have given : ∀ k ∈ ka.keys, ∃ v, k ++ '=' :: v ∈ ws := by
    intro k hk
    cases hg : ka.get? k with
    | none => exact absurd hk (AMap.get?_eq_none.mp hg)
    | some v =>
      rcases (h2 k (hkeys k hk)).1 v hg with h | h
      · exact ⟨v, h⟩
      · cases h
  have hlen : (plain ws).length ≤ ps.length := by
    have := h.first.length_eq
    rw [List.length_take] at this
    omega
  obtain ⟨vs, h3, h4⟩ := mapM_means (ps := ps.drop (plain ws).length)
    (g := fun p => match ka.get? p.1.toList with | some v => some v | none => p.2.map String.toList) (by
      intro p hp
      have hp' := List.mem_of_mem_drop hp
      dsimp only
      cases hg : ka.get? p.name.toList with
      | some v =>
        refine ⟨v, rfl, h.named p hp v ?_⟩
        rcases (h2 _ (hn p hp')).1 v hg with h | h
        · exact h
        · cases h
      | none =>
        obtain ⟨d, h5, h6⟩ := h.left p hp ((h2 _ (hn p hp')).2 hg).1
        exact ⟨d.toList, by rw [h5]; rfl, h6⟩)
  refine ⟨plain ws ++ vs, ?_, ?_⟩
  · unfold Signature.bind signature
    dsimp only
    rw [if_neg (by rw [List.length_map]; omega), if_neg, if_neg, ← List.map_drop]
    · exact congrArg (fun o : Option (List Text) => o.bind fun more => some (plain ws ++ more)) h3
    · intro hx
      rw [Bool.and_eq_true, Bool.not_eq_true', List.any_eq_true] at hx
      obtain ⟨hr, k, hk, hx⟩ := hx
      obtain ⟨v, hv⟩ := given k hk
      obtain ⟨p, hp, v', e⟩ := hs hr _ hv (by simp)
      have hx : ((ps.map fun p => (p.name, p.default)).any fun p => p.1.toList == k) = false := by simpa using hx
      rw [List.any_eq_false] at hx
      refine hx (p.name, p.default) (List.mem_map.mpr ⟨p, hp, rfl⟩) ?_
      rw [(equals_inj e (hkeys k hk) (hn p hp)).1]
      exact beq_self_eq_true _
    · intro hx
      rw [List.any_eq_true] at hx
      obtain ⟨k, hk, hx⟩ := hx
      obtain ⟨v, hv⟩ := given k hk
      rw [Bool.or_eq_true, beq_iff_eq, List.any_eq_true] at hx
      rcases hx with rfl | ⟨q, hq, e⟩
      · exact h.self v hv
      · rw [← List.map_take] at hq
        obtain ⟨p, hp, rfl⟩ := List.mem_map.mp hq
        obtain rfl := (beq_iff_eq.mp e)
        exact h.once p hp v hv
  · have : List.Forall₂ _ (_ ++ _) _ := List.rel_append h.first h4
    rwa [List.take_append_drop] at this

theorem find_command : ∀ c ∈ commands, commands.find? (fun d => d.1.toList == c.1.toList) = some c := by decide +kernel

/-- Whether names of no parameter are allowed. -/
def isOpen : Ask → Bool
  | .transfer .. => false
  | _ => true

theorem mem_commands (a : Ask) : ((wanted a).1, signature (wanted a).2 (isOpen a)) ∈ commands := by
  rcases a with l | _ | _ | _ | _ | _ | _
  · cases l <;> simp [commands, wanted, signature, isOpen, number, sessionParams]
  all_goals simp [commands, wanted, signature, isOpen, number, placeParams, place]

theorem commands_solid : ∀ c ∈ commands, c.1.toList ≠ [] ∧ (∀ x ∈ c.1.toList, isSpace x = false) ∧
    c.1.toList ≠ "quit".toList ∧ c.1.toList ≠ "q".toList ∧ ∀ p ∈ c.2.params, '=' ∉ p.1.toList := by decide +kernel

theorem phrased_solid {ps : List Parameter} {ws : List Text} (h : Phrased ps ws) : ∀ w ∈ ws, Solid w :=
  fun w hw => ⟨(h.words w hw).1, fun c hc => isSpace_print ((h.words w hw).2.2 c hc)⟩

/-- The method of a command is called with values that mean what the words do. -/
theorem enter_phrased (files : Text → Option Bytes) {line : Text} {name : String} {ps : List Parameter} {rest : Bool}
    (hc : (name, signature ps rest) ∈ commands) {ws : List Text} (h1 : Spaced line (name.toList :: ws)) (h2 : Phrased ps ws)
    (h3 : rest = false → Strict ps ws) :
    ∃ vs, enter files line = call files name.toList vs ∧ List.Forall₂ (fun p v => Parameter.means p v) ps vs := by
  obtain ⟨c1, c2, c3, c4, c5⟩ := commands_solid _ hc
  have hs : ∀ w ∈ name.toList :: ws, Solid w := by
    intro w hw
    rcases List.mem_cons.mp hw with rfl | hw
    · exact ⟨c1, c2⟩
    · exact phrased_solid h2 w hw
  obtain ⟨-, w, qs, h4, h0⟩ := spaced_split h1 hs
  obtain ⟨rfl, h5⟩ := List.cons.inj h0
  obtain ⟨ka, h6, -⟩ := words_some (ws := ws) (fun w hw => ⟨(h2.words w hw).1, (h2.words w hw).2.1⟩) [] []
  rw [List.nil_append] at h6
  obtain ⟨vs, h7, h8⟩ := bind_some (rest := rest) h2 (by
    intro p hp
    exact c5 (p.name, p.default) (List.mem_map.mpr ⟨p, hp, rfl⟩)) h3 h6
  refine ⟨vs, ?_, h8⟩
  unfold enter
  rw [h4]
  dsimp only
  rw [words_filter, h5, h6]
  dsimp only
  rw [if_neg (by rintro (h | h); exacts [c3 h, c4 h]), find_command _ hc]
  dsimp only
  rw [h7]

/-- The method for what is asked is called with values that mean it. -/
theorem enter_asks (files : Text → Option Bytes) {line : Text} {a : Ask} (h : Asks line a) :
    ∃ vs, enter files line = call files (wanted a).1.toList vs ∧ List.Forall₂ (fun p v => Parameter.means p v) (wanted a).2 vs := by
  obtain ⟨ws, h1, h2, h3⟩ := h
  refine enter_phrased files (mem_commands a) h1 h2 fun ho => h3 ?_
  cases a <;> first | rfl | cases ho

theorem gap_space {c : Char} (h : isSpace c = false) : isGap c = false := by unfold isGap; rw [h, Bool.false_and]

theorem strip_ends {a t b : Text} (ha : ∀ c ∈ a, isGap c = true) (hb : ∀ c ∈ b, isGap c = true) (hn : t ≠ [])
    (ht : ∀ c ∈ t, isGap c = false) : strip (a ++ t ++ b) = t := by
  have drop : ∀ l r : Text, (∀ c ∈ l, isGap c = true) → (l ++ r).dropWhile isGap = r.dropWhile isGap := by
    intro l r hl
    induction l with
    | nil => rfl
    | cons c l ih =>
      rw [List.cons_append, List.dropWhile_cons_of_pos (hl c List.mem_cons_self)]
      exact ih fun x hx => hl x (List.mem_cons_of_mem _ hx)
  have keep : ∀ l r : Text, l ≠ [] → (∀ c ∈ l, isGap c = false) → (l ++ r).dropWhile isGap = l ++ r := by
    intro l r hn hl
    cases l with
    | nil => exact absurd rfl hn
    | cons c l => exact List.dropWhile_cons_of_neg (by rw [hl c List.mem_cons_self]; decide)
  unfold strip
  rw [List.append_assoc, drop _ _ ha, keep _ _ hn ht, List.reverse_append, drop _ _ (fun c hc => hb c (List.mem_reverse.mp hc)),
    ← List.append_nil t.reverse, keep _ _ (by simpa using hn) (fun c hc => ht c (List.mem_reverse.mp hc)), List.append_nil,
    List.reverse_reverse]

theorem strip_solid {t : Text} (h : Solid t) : strip t = t := by
  have := strip_ends (a := []) (t := t) (b := []) (by simp) (by simp) h.1 (fun c hc => gap_space (h.2 c hc))
  simpa using this

theorem digit_decimal {c : Char} (h : '0' ≤ c ∧ c ≤ '9') : digit? 10 c = some (c.toNat - 48) ∧ c ≠ '_' ∧ isSpace c = false ∧
    c ≠ '-' ∧ c ≠ '+' := by
  have h1 : 48 ≤ c.toNat := h.1
  have h2 : c.toNat ≤ 57 := h.2
  refine ⟨?_, ?_, isSpace_print ⟨by omega, by omega⟩, ?_, ?_⟩
  · unfold digit?
    simp only [if_pos h, Option.filter_some, decide_eq_true_eq]
    rw [if_pos (by omega)]
  all_goals
    rintro rfl
    revert h1 h2
    decide

theorem digitsLoop_decimal {ds : Text} (h : ∀ c ∈ ds, '0' ≤ c ∧ c ≤ '9') (n k : Nat) :
    digitsLoop 10 ds true n k = some (ds.foldl (fun n c => 10 * n + (c.toNat - '0'.toNat)) n, k + ds.length) := by
  induction ds generalizing n k with
  | nil => rfl
  | cons c ds ih =>
    obtain ⟨h1, h2, -⟩ := digit_decimal (h c List.mem_cons_self)
    rw [digitsLoop, if_neg h2, h1]
    dsimp only
    rw [ih fun x hx => h x (List.mem_cons_of_mem _ hx), List.length_cons, List.foldl_cons]
    congr 2
    omega

theorem digitsLoop_first {ds : Text} (hn : ds ≠ []) (h : ∀ c ∈ ds, '0' ≤ c ∧ c ≤ '9') :
    digitsLoop 10 ds false 0 0 = some (decimal ds, ds.length) := by
  cases ds with
  | nil => exact absurd rfl hn
  | cons c ds =>
    obtain ⟨h1, h2, -⟩ := digit_decimal (h c List.mem_cons_self)
    rw [digitsLoop, if_neg h2, h1]
    dsimp only
    rw [digitsLoop_decimal fun x hx => h x (List.mem_cons_of_mem _ hx)]
    simp [decimal, Nat.add_comm]

theorem int?_numeral {t : Text} {n : Int} (h : Numeral t n) : int? t = some n := by
  obtain ⟨s, ds, rfl, hn, hl, hd, h⟩ := h
  have hs : Solid (s ++ ds) := by
    refine ⟨by simp [hn], fun c hc => ?_⟩
    rcases List.mem_append.mp hc with hc | hc
    · rcases h with ⟨rfl | rfl, -⟩ | ⟨rfl, -⟩
      · cases hc
      all_goals rw [List.mem_singleton] at hc; subst hc; decide
    · exact (digit_decimal (hd c hc)).2.2.1
  unfold int?
  dsimp only
  rw [strip_solid hs]
  rcases h with ⟨rfl | rfl, rfl⟩ | ⟨rfl, rfl⟩
  · rw [List.nil_append]
    have : signed ds = (false, ds) := by
      unfold signed
      split
      · exact absurd rfl (digit_decimal (hd _ List.mem_cons_self)).2.2.2.1
      · exact absurd rfl (digit_decimal (hd _ List.mem_cons_self)).2.2.2.2
      · rfl
    rw [this]
    dsimp only
    rw [digitsLoop_first hn hd]
    dsimp only
    rw [if_pos hl]
    rfl
  · rw [show signed (['+'] ++ ds) = (false, ds) from rfl]
    dsimp only
    rw [digitsLoop_first hn hd]
    dsimp only
    rw [if_pos hl]
    rfl
  · rw [show signed (['-'] ++ ds) = (true, ds) from rfl]
    dsimp only
    rw [digitsLoop_first hn hd]
    dsimp only
    rw [if_pos hl]
    rfl

theorem nat?_numeral {t : Text} {n : Nat} (h : Numeral t n) : nat? t = some n := by
  unfold nat?
  rw [int?_numeral h]

theorem digitsLoop_none {s : Text} (h : ∃ c ∈ s, c ≠ '_' ∧ digit? 10 c = none) (seen : Bool) (n k : Nat) :
    digitsLoop 10 s seen n k = none := by
  induction s generalizing seen n k with
  | nil => obtain ⟨c, hc, -⟩ := h; cases hc
  | cons x s ih =>
    rw [digitsLoop]
    obtain ⟨c, hc, h1, h2⟩ := h
    rcases List.mem_cons.mp hc with rfl | hc
    · rw [if_neg h1, h2]
    · split
      · split
        · exact ih ⟨c, hc, h1, h2⟩ _ _ _
        · rfl
      · split
        · exact ih ⟨c, hc, h1, h2⟩ _ _ _
        · rfl

theorem digit_letter {c : Char} (h : ¬ ('0' ≤ c ∧ c ≤ '9')) : digit? 10 c = none := by
  unfold digit?
  rw [if_neg h]
  have ha : ('a' ≤ c) = (97 ≤ c.toNat) := rfl
  have hA : ('A' ≤ c) = (65 ≤ c.toNat) := rfl
  dsimp only
  split
  · rename_i h1
    rw [Option.filter_some, if_neg (by rw [decide_eq_true_eq]; rw [ha] at h1; omega)]
  · split
    · rename_i h1
      rw [Option.filter_some, if_neg (by rw [decide_eq_true_eq]; rw [hA] at h1; omega)]
    · rfl

theorem signed_mem {s : Text} {c : Char} (h : c ∈ s) (h1 : c ≠ '+') (h2 : c ≠ '-') : c ∈ (signed s).2 := by
  unfold signed
  split
  · exact (List.mem_cons.mp h).resolve_left h2
  · exact (List.mem_cons.mp h).resolve_left h1
  · exact h

theorem int?_letter {s : Text} (hs : Solid s) {c : Char} (h : c ∈ s) (hd : ¬ ('0' ≤ c ∧ c ≤ '9')) (h1 : c ≠ '+') (h2 : c ≠ '-')
    (h3 : c ≠ '_') : int? s = none := by
  unfold int?
  rw [strip_solid hs]
  dsimp only
  rw [digitsLoop_none ⟨c, signed_mem h h1 h2, h3, digit_letter hd⟩]

theorem byte?_two : ∀ x ∈ hexTable, ∀ y ∈ hexTable, byte? [x.1, y.1] = some (UInt8.ofNat (16 * x.2 + y.2)) ∧
    x.1 ≠ ':' ∧ y.1 ≠ ':' := by decide +kernel

theorem macAddress?_text {t : Text} {bs : Bytes} (h : ByteText t bs) : macAddress? t = some bs := by
  unfold macAddress?
  induction h with
  | @one c d a b h1 h2 =>
    obtain ⟨h3, h5, h6⟩ := byte?_two _ h1 _ h2
    rw [splitOn_none (by simp [Ne.symm h5, Ne.symm h6]), List.mapM_cons, h3]
    rfl
  | @cons c d a b t bs h1 h2 _ ih =>
    obtain ⟨h3, h5, h6⟩ := byte?_two _ h1 _ h2
    have : splitOn ':' (c :: d :: ':' :: t) = [c, d] :: splitOn ':' t :=
      splitOn_first (a := [c, d]) (by simp [Ne.symm h5, Ne.symm h6]) t
    rw [this, List.mapM_cons, h3, ih]
    rfl

end Pica.Console
