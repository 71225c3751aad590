import Verif.Proofs.Completion
import Verif.Props.CommandLine
/-! C110: completion at the interactive console. -/

namespace Pica.Props
open Spec.Typed Console

theorem isPrefix {u w : Text} : u.isPrefixOf w = true ↔ u <+: w := List.isPrefixOf_iff_prefix

/-- C110: while the first word is typed, the proposals are the commands that begin with it. -/
theorem C110_commands (u : Text) (hu : Graphic u) (r : Text) :
    r ∈ completions u u ↔ ∃ a, u <+: (wanted a).1.toList ∧ r = (wanted a).1.toList ++ [' '] := by
  have ht : typed u = [u] := typed_begun .last (by simp) hu
  unfold completions
  rw [ht]
  dsimp only
  simp only [List.mem_map, List.mem_filter, isPrefix]
  constructor
  · rintro ⟨c, ⟨hc, h1⟩, rfl⟩
    obtain ⟨a, ha⟩ := commands_wanted c hc
    exact ⟨a, by rw [ha]; exact h1, by rw [ha]⟩
  · rintro ⟨a, h1, rfl⟩
    exact ⟨_, ⟨mem_commands a, h1⟩, rfl⟩

theorem line_usage (l : Line) : l.effect ≠ .usage := by
  unfold Line.effect
  split <;> exact fun h => by cases h

theorem place_usage (name : String) (vs : List Text) : placeRequest name vs ≠ .usage := by
  unfold placeRequest
  split
  · split <;> exact fun h => by cases h
  · exact fun h => by cases h

theorem session_usage (f : Nat → Line) (vs : List Text) : onSession f vs ≠ .usage := by
  unfold onSession
  split
  · split
    · exact line_usage _
    · exact fun h => by cases h
  · exact fun h => by cases h

theorem ite_usage {p : Prop} [Decidable p] {x y : Console.Effect} (hx : x ≠ .usage) (hy : y ≠ .usage) : (if p then x else y) ≠ .usage := by
  split
  · exact hx
  · exact hy

theorem multicast_usage (vs : List Text) : multicast vs ≠ .usage := by
  unfold multicast
  split
  · refine ite_usage ?_ (fun h => by cases h)
    split
    · exact line_usage _
    · exact fun h => by cases h
  · exact fun h => by cases h

theorem transfer_usage (files : Text → Option Bytes) (vs : List Text) : transfer files vs ≠ .usage := by
  unfold transfer
  split
  · split
    · split <;> exact fun h => by cases h
    · exact fun h => by cases h
  · exact fun h => by cases h

theorem call_usage (files : Text → Option Bytes) (name : Text) (vs : List Text) : call files name vs ≠ .usage := by
  unfold call
  refine ite_usage (fun h => by cases h) (ite_usage (place_usage _ _) (ite_usage (place_usage _ _) (ite_usage ?_
    (ite_usage (place_usage _ _) (ite_usage (session_usage _ _) (ite_usage (session_usage _ _) (ite_usage (session_usage _ _)
    (ite_usage (line_usage _) (ite_usage (session_usage _ _) (ite_usage (multicast_usage _) (ite_usage (session_usage _ _)
    (ite_usage (session_usage _ _) (ite_usage (session_usage _ _) (ite_usage (transfer_usage _ _) fun h => by cases h))))))))))))))
  split <;> exact fun h => by cases h

example : completions "session_".toList "session_".toList = ["session_init ", "session_deinit ", "session_set_app_config ",
    "session_get_app_config ", "session_get_count ", "session_get_state ",
    "session_update_controller_multicast_list "].map String.toList ∧
    completions "x".toList "x".toList = [] ∧ (completions [] []).length = 21 := by decide +kernel

/-- C110: a command that was proposed is known. -/
theorem C110_known (files : Text → Option Bytes) (u : Text) (hu : Graphic u) (r : Text) (h : r ∈ completions u u) :
    enter files r ≠ .usage := by
  obtain ⟨a, -, rfl⟩ := (C110_commands u hu r).mp h
  have hc := mem_commands a
  obtain ⟨c1, c2, c3, c4, -⟩ := commands_solid _ hc
  have hs : Spaced ((wanted a).1.toList ++ [' ']) [(wanted a).1.toList] := .last (by simp [Blank])
  obtain ⟨-, w, ps, h4, h0⟩ := spaced_split hs (by simpa using ⟨c1, c2⟩)
  obtain ⟨rfl, h5⟩ := List.cons.inj h0
  unfold enter
  rw [h4]
  dsimp only
  rw [words_filter, h5]
  simp only [Console.words]
  rw [if_neg (by rintro (h | h); exacts [c3 h, c4 h]), find_command _ hc]
  dsimp only
  split
  · exact fun h => by cases h
  · exact call_usage _ _ _

/-- The words of a line being typed. -/
theorem typed_words {b u cmd : Text} {ws : List Text} (h : Begun b (cmd :: ws) u) (hp : Printed (cmd :: ws)) (hu : Graphic u) :
    ∃ second rest, typed b = cmd :: second :: rest ∧ (second :: rest).getLast? = some u := by
  have ht := typed_begun h (fun w hw => ⟨(hp w hw).1, (hp w hw).2⟩) hu
  cases ws with
  | nil => exact ⟨u, [], ht, rfl⟩
  | cons w ws => exact ⟨w, ws ++ [u], ht, by rw [← List.cons_append, List.getLast?_concat]⟩

theorem printed_command (a : Ask) : Printed [(wanted a).1.toList] := by
  have key : ∀ c ∈ commands, c.1.toList ≠ [] ∧ ∀ x ∈ c.1.toList, 32 < x.toNat ∧ x.toNat < 127 := by decide +kernel
  intro w hw
  rw [List.mem_singleton.mp hw]
  exact key _ (mem_commands a)

/-- C110: after a command the proposals are those of its parameters that begin with the word being typed. -/
theorem C110_parameters (a : Ask) {b u : Text} {ws : List Text} (h : Begun b ((wanted a).1.toList :: ws) u) (hp : Printed ws)
    (hu : Graphic u) (he : '=' ∉ u) (text r : Text) :
    r ∈ completions b text ↔ ∃ p ∈ (wanted a).2, u <+: p.name.toList ∧ r = p.name.toList ++ ['='] := by
  have hp' : Printed ((wanted a).1.toList :: ws) := by
    intro w hw
    rcases List.mem_cons.mp hw with rfl | hw
    · exact printed_command a _ (List.mem_singleton.mpr rfl)
    · exact hp w hw
  obtain ⟨x, y, h1, h2⟩ := typed_words h hp' hu
  have h3 : (x :: y).getLast (List.cons_ne_nil _ _) = u := by
    rw [List.getLast?_eq_some_getLast (List.cons_ne_nil _ _)] at h2
    exact Option.some.inj h2
  unfold completions
  rw [h1]
  dsimp only
  rw [h3, if_neg he, find_command _ (mem_commands a)]
  dsimp only [signature]
  simp only [List.mem_map, List.mem_filter, isPrefix]
  constructor
  · rintro ⟨p, ⟨⟨q, hq, rfl⟩, h4⟩, rfl⟩
    exact ⟨q, hq, h4, rfl⟩
  · rintro ⟨q, hq, h4, rfl⟩
    exact ⟨_, ⟨⟨q, hq, rfl⟩, h4⟩, rfl⟩

example : Begun "pica_set_position 00:01  z=3 y".toList (["pica_set_position", "00:01", "z=3"].map String.toList) "y".toList ∧
    completions "pica_set_position 00:01  z=3 y".toList "y".toList = ["y=", "yaw="].map String.toList ∧
    completions "range_stop ".toList [] = ["session_id=".toList] :=
  ⟨.cons (w := "pica_set_position".toList) 0 (.cons (w := "00:01".toList) 1 (.cons (w := "z=3".toList) 0 .last)), by decide +kernel,
    by decide +kernel⟩

/-- C110: there are no proposals for a value, nor after a command that does not exist. -/
theorem C110_none {b u cmd : Text} {ws : List Text} (h : Begun b (cmd :: ws) u) (hp : Printed (cmd :: ws)) (hu : Graphic u)
    (ho : '=' ∈ u ∨ ∀ a, cmd ≠ (wanted a).1.toList) (text : Text) : completions b text = [] := by
  obtain ⟨x, y, h1, h2⟩ := typed_words h hp hu
  have h3 : (x :: y).getLast (List.cons_ne_nil _ _) = u := by
    rw [List.getLast?_eq_some_getLast (List.cons_ne_nil _ _)] at h2
    exact Option.some.inj h2
  unfold completions
  rw [h1]
  dsimp only
  rw [h3]
  split
  · rfl
  · next he =>
    have ho := ho.resolve_left he
    have : commands.find? (fun c => c.1.toList == cmd) = none := by
      rw [List.find?_eq_none]
      intro c hm e
      obtain ⟨a, ha⟩ := commands_wanted c hm
      exact ho a (by rw [ha]; exact (beq_iff_eq.mp e).symm)
    rw [this]

example : completions "range_start session_id=".toList [] = [] ∧ completions "range_begin ".toList [] = [] := by decide +kernel

/-- C110: the proposals are given one after the other, then `None`; no call before that raises an exception. -/
theorem C110_states (b text : Text) (n : Nat) :
    (∀ m < n, complete b text m ≠ some none) ↔ n ≤ (completions b text).length := by
  unfold complete
  constructor
  · intro h
    by_contra hn
    refine h (completions b text).length (by omega) ?_
    rw [List.getElem?_append_right (by simp), List.length_map, Nat.sub_self]
    rfl
  · intro h m hm
    rw [List.getElem?_append_left (by rw [List.length_map]; omega), List.getElem?_map,
      List.getElem?_eq_getElem (by omega : m < (completions b text).length)]
    simp

/-- What is answered until then. -/
theorem C110_answers (b text : Text) (n : Nat) (h : ∀ m < n, complete b text m ≠ some none) :
    ∃ x, complete b text n = some x ∧ (x = (completions b text)[n]?) := by
  have hl := (C110_states b text n).mp h
  unfold complete
  rcases Nat.lt_or_ge n (completions b text).length with hn | hn
  · refine ⟨_, ?_, rfl⟩
    rw [List.getElem?_append_left (by rw [List.length_map]; omega), List.getElem?_map,
      List.getElem?_eq_getElem hn]
    rfl
  · have : n = (completions b text).length := by omega
    subst this
    refine ⟨none, ?_, by simp⟩
    rw [List.getElem?_append_right (by simp), List.length_map, Nat.sub_self]
    rfl

/-- C110 is false: the parameters that were given by their position are still proposed, and a line that gives one of them again
ends the console, whatever the value. -/
theorem C110_given (files : Text → Option Bytes) (a : Ask) {b line u v text : Text} {ws : List Text} {p : Parameter}
    (h : Begun b ((wanted a).1.toList :: ws) u) (hl : Spaced line ((wanted a).1.toList :: ws ++ [gives p.name v]))
    (hp : Printed (ws ++ [gives p.name v])) (hm : p ∈ (wanted a).2.take (plain ws).length) (hu : u <+: p.name.toList) :
    p.name.toList ++ ['='] ∈ completions b text ∧ enter files line = .raises := by
  have hc := mem_commands a
  obtain ⟨c1, c2, c3, c4, c5⟩ := commands_solid _ hc
  have hmem := List.mem_of_mem_take hm
  have hpn : ∀ c ∈ p.name.toList, 32 < c.toNat ∧ c.toNat < 127 := fun c hc =>
    (hp (gives p.name v) (by simp)).2 c (List.mem_append_left _ hc)
  have hne : '=' ∉ p.name.toList := c5 (p.name, p.default) (List.mem_map_of_mem hmem)
  have hum : ∀ c ∈ u, c ∈ p.name.toList := fun c hc => hu.subset hc
  refine ⟨(C110_parameters a h (fun w hw => hp w (List.mem_append_left _ hw)) (fun c hc => hpn c (hum c hc))
    (fun hc => hne (hum _ hc)) text _).mpr ⟨p, hmem, hu, rfl⟩, ?_⟩
  have hs : ∀ w ∈ (wanted a).1.toList :: (ws ++ [gives p.name v]), Solid w := by
    intro w hw
    rcases List.mem_cons.mp hw with rfl | hw
    · exact ⟨c1, c2⟩
    · exact ⟨(hp w hw).1, fun c hc => isSpace_print ((hp w hw).2 c hc)⟩
  obtain ⟨-, w, ps, h4, h0⟩ := spaced_split hl hs
  obtain ⟨rfl, h5⟩ := List.cons.inj h0
  replace h5 : ps.filter (fun p => decide (p ≠ [])) = ws ++ [gives p.name v] := h5
  unfold enter
  rw [h4]
  dsimp only
  rw [words_filter, h5]
  by_cases he : ∃ w ∈ ws ++ [gives p.name v], 2 ≤ w.count '='
  · rw [words_none he]
  · push Not at he
    obtain ⟨ka, h6, h7⟩ := words_some (ws := ws ++ [gives p.name v]) (fun w hw => ⟨(hp w hw).1, by have := he w hw; omega⟩) [] []
    have hpl : plain (ws ++ [gives p.name v]) = plain ws := by
      unfold plain
      rw [List.filter_append]
      simp [gives]
    rw [h6, List.nil_append, hpl]
    dsimp only
    rw [if_neg (by rintro (h | h); exacts [c3 h, c4 h]), find_command _ hc]
    dsimp only
    have : (signature (wanted a).2 (isOpen a)).bind (plain ws) ka = none := by
      unfold Signature.bind
      by_cases hlen : (signature (wanted a).2 (isOpen a)).params.length < (plain ws).length
      · rw [if_pos hlen]
      · rw [if_neg hlen, if_pos]
        rw [List.any_eq_true]
        refine ⟨p.name.toList, ?_, ?_⟩
        · by_contra hk
          exact ((h7 _ hne).2 (AMap.get?_eq_none.mpr hk)).1 v (by simp [gives])
        · rw [Bool.or_eq_true]
          right
          rw [List.any_eq_true]
          refine ⟨(p.name, p.default), ?_, by simp⟩
          rw [signature, ← List.map_take]
          exact List.mem_map_of_mem hm
    rw [this]

/-- The console proposes `session_id=` once more. -/
example : Begun "range_start 7 s".toList ["range_start".toList, "7".toList] "s".toList ∧
    completions "range_start 7 s".toList "s".toList = ["session_id=".toList] ∧
    enter (fun _ => none) "range_start 7 session_id=7".toList = .raises :=
  ⟨.cons (w := "range_start".toList) 0 (.cons (w := "7".toList) 0 .last), by decide +kernel, by decide +kernel⟩

/-- C110 is false: after blanks at the beginning of a line commands are proposed, but no command is known there. -/
theorem C110_blanks (files : Text → Option Bytes) (a : Ask) (k : Nat) (u : Text) (hu : u <+: (wanted a).1.toList) :
    (wanted a).1.toList ++ [' '] ∈ completions (List.replicate (k + 1) ' ' ++ u) u ∧
    enter files (List.replicate (k + 1) ' ' ++ (wanted a).1.toList) = .usage := by
  have hc := mem_commands a
  obtain ⟨c1, c2, -, -, -⟩ := commands_solid _ hc
  have hg : Graphic u := fun c hc => (printed_command a _ (List.mem_singleton.mpr rfl)).2 c (hu.subset hc)
  constructor
  · have hsp : splitWords (List.replicate (k + 1) ' ' ++ u) = if u = [] then [] else [u] := by
      rw [← splitWords_one hg]
      unfold splitWords
      have hr : (List.replicate (k + 1) ' ').map (fun c => if isSpace c then ' ' else c) = List.replicate (k + 1) ' ' := by
        rw [List.map_replicate]
        rfl
      rw [List.map_append, hr, splitOn_spaces, List.filter_append]
      simp
    have ht : typed (List.replicate (k + 1) ' ' ++ u) = [u] := by
      unfold typed
      dsimp only
      rw [hsp]
      by_cases h0 : u = []
      · subst h0; rfl
      · rw [if_neg h0, if_neg]
        rintro (h | h)
        · cases h
        · rw [List.getLast?_append, List.getLast?_eq_some_getLast h0, Option.some_or] at h
          exact plain_space hg (List.mem_of_getLast? (by rw [List.getLast?_eq_some_getLast h0]; exact h))
    unfold completions
    rw [ht]
    dsimp only
    simp only [List.mem_map, List.mem_filter, isPrefix]
    exact ⟨_, ⟨hc, hu⟩, rfl⟩
  · have hr : rstrip (wanted a).1.toList = (wanted a).1.toList := by
      have := rstrip_solid (w := (wanted a).1.toList) (s := []) ⟨c1, c2⟩ (by simp)
      rwa [List.append_nil] at this
    have hsp : splitOn ' ' (rstrip (List.replicate (k + 1) ' ' ++ (wanted a).1.toList)) =
        [] :: (List.replicate k [] ++ [(wanted a).1.toList]) := by
      rw [rstrip_append (by rw [hr]; exact c1), hr, splitOn_spaces, splitOn_none (solid_space ⟨c1, c2⟩)]
      rfl
    unfold enter
    rw [hsp]
    dsimp only
    have hf : (List.replicate k ([] : Text) ++ [(wanted a).1.toList]).filter (fun p => decide (p ≠ [])) = [(wanted a).1.toList] := by
      rw [List.filter_append, List.filter_cons_of_pos (by simpa using c1)]
      simp
    have hw : ∀ w ∈ [(wanted a).1.toList], w ≠ [] ∧ w.count '=' ≤ 1 := by
      have key : ∀ c ∈ commands, c.1.toList.count '=' ≤ 1 := by decide +kernel
      intro w hw
      rw [List.mem_singleton.mp hw]
      exact ⟨c1, key _ hc⟩
    obtain ⟨ka, h6, -⟩ := words_some hw [] []
    rw [words_filter, hf, h6]
    dsimp only
    rw [if_neg (by decide)]
    rfl

example : completions "  ran".toList "ran".toList = ["range_start ".toList, "range_stop ".toList] ∧
    enter (fun _ => none) "  range_start".toList = .usage := by decide +kernel

end Pica.Props
