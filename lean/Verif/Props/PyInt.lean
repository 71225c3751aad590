import Verif.Proofs.PyInt
import Verif.Props.CommandLine
/-! C104: which texts the console takes for a number. -/

namespace Pica.Props
open Pica.Console Pica.Spec Pica.Spec.PyInt

/-- C104: the console takes a text for an integer just if it is one for Python. -/
theorem C104_decimal (t : Text) (n : Int) : int? t = some n ↔ Decimal t n := int?_iff t n

/-- C104: and for the bytes of an address. -/
theorem C104_octets (t : Text) (bs : Bytes) : macAddress? t = some bs ↔ Octets t bs := macAddress?_iff t bs

/-- The commands for a session. -/
def sessionLines : List (String × (Nat → Line)) := [("session_init", .sessionInit), ("session_deinit", .sessionDeinit),
  ("session_get_app_config", .sessionGetAppConfig), ("session_get_state", .sessionGetState), ("range_start", .rangeStart),
  ("range_stop", .rangeStop), ("get_ranging_count", .getRangingCount)]

/-- The line of a command and one word. -/
theorem enter_word (files : Text → Option Bytes) {name : String} (hn : name ∈ sessionNames) {t s : Text} (ht : t ≠ [])
    (h1 : ' ' ∉ t) (h2 : '=' ∉ t) (hl : ∀ c, t.getLast? = some c → c ∉ blanks) (hs : ∀ c ∈ s, c ∈ blanks) :
    enter files (name.toList ++ ' ' :: t ++ s) = call files name.toList [t] := by
  have hsp : ∀ n ∈ sessionNames, ' ' ∉ n.toList ∧ n.toList ≠ "quit".toList ∧ n.toList ≠ "q".toList ∧
      (n, (⟨sessionParams, true⟩ : Signature)) ∈ commands := by decide +kernel
  obtain ⟨a1, a2, a3, a4⟩ := hsp name hn
  unfold enter
  have e : name.toList ++ ' ' :: t ++ s = name.toList ++ [' '] ++ t ++ s := by simp
  rw [e, rstrip_word ht hl hs, List.append_assoc, List.singleton_append, splitOn_first a1, splitOn_none h1]
  have hw : Console.words [t] [] [] = some ([t], []) := by
    rw [Console.words, if_neg ht, if_neg h2]; rfl
  dsimp only
  rw [hw]
  dsimp only
  rw [if_neg (by rintro (h | h); exacts [a2 h, a3 h]), find_command _ a4]
  rfl

/-- C104: a command for a session with a word that is a number writes the packet for that number; with any other word it ends
the console. -/
theorem C104_session (files : Text → Option Bytes) {name : String} {f : Nat → Line} (hn : (name, f) ∈ sessionLines) {t s : Text}
    (ht : t ≠ []) (h1 : ' ' ∉ t) (h2 : '=' ∉ t) (hl : ∀ c, t.getLast? = some c → c ∉ blanks) (hs : ∀ c ∈ s, c ∈ blanks) :
    (∀ n : Nat, Decimal t n → ∀ w, (f n).write = some w → enter files (name.toList ++ ' ' :: t ++ s) = .sends [w]) ∧
    (∀ n : Nat, Decimal t n → (f n).write = none → enter files (name.toList ++ ' ' :: t ++ s) = .raises) ∧
    ((∀ n : Nat, ¬ Decimal t n) → enter files (name.toList ++ ' ' :: t ++ s) = .raises) := by
  have hm : name ∈ sessionNames := by
    simp only [sessionLines, List.mem_cons, Prod.mk.injEq, List.not_mem_nil, or_false] at hn
    rcases hn with ⟨rfl, -⟩ | ⟨rfl, -⟩ | ⟨rfl, -⟩ | ⟨rfl, -⟩ | ⟨rfl, -⟩ | ⟨rfl, -⟩ | ⟨rfl, -⟩ <;> simp [sessionNames]
  have hc : call files name.toList [t] = onSession f [t] := by
    simp only [sessionLines, List.mem_cons, Prod.mk.injEq, List.not_mem_nil, or_false] at hn
    rcases hn with ⟨rfl, rfl⟩ | ⟨rfl, rfl⟩ | ⟨rfl, rfl⟩ | ⟨rfl, rfl⟩ | ⟨rfl, rfl⟩ | ⟨rfl, rfl⟩ | ⟨rfl, rfl⟩ <;> simp [call]
  rw [enter_word files hm ht h1 h2 hl hs, hc]
  unfold onSession
  dsimp only
  refine ⟨fun n hd w hw => ?_, fun n hd hw => ?_, fun hno => ?_⟩
  · rw [(nat?_iff t n).mpr hd]
    dsimp only
    rw [Line.effect, hw]
  · rw [(nat?_iff t n).mpr hd]
    dsimp only
    rw [Line.effect, hw]
  · have : nat? t = none := by
      cases h : nat? t with
      | none => rfl
      | some n => exact absurd ((nat?_iff t n).mp h) (hno n)
    rw [this]

/-- The line of `data_transfer` with an address and a file. -/
theorem enter_transfer (files : Text → Option Bytes) {t u s : Text} (ht : t ≠ []) (h1 : ' ' ∉ t) (h2 : '=' ∉ t)
    (hu : u ≠ []) (h3 : ' ' ∉ u) (h4 : '=' ∉ u) (hl : ∀ c, u.getLast? = some c → c ∉ blanks) (hs : ∀ c ∈ s, c ∈ blanks) :
    enter files ("data_transfer".toList ++ ' ' :: t ++ ' ' :: u ++ s) = transfer files [t, u, "0".toList] := by
  unfold enter
  have e : "data_transfer".toList ++ ' ' :: t ++ ' ' :: u ++ s = "data_transfer".toList ++ ' ' :: t ++ [' '] ++ u ++ s := by simp
  have e2 : "data_transfer".toList ++ ' ' :: t ++ [' '] ++ u = "data_transfer".toList ++ ' ' :: (t ++ ' ' :: u) := by simp
  rw [e, rstrip_word hu hl hs, e2, splitOn_first (by decide +kernel), splitOn_first h1, splitOn_none h3]
  have hw : Console.words [t, u] [] [] = some ([t, u], []) := by
    rw [Console.words, if_neg ht, if_neg h2, Console.words, if_neg hu, if_neg h4]; rfl
  dsimp only
  rw [hw]
  dsimp only
  rw [if_neg (by decide +kernel), find_command ("data_transfer",
    ⟨[("dst_mac_address", none), ("file_name", none), ("session_id", some "0")], false⟩) (by decide +kernel)]
  show call files "data_transfer".toList [t, u, "0".toList] = _
  simp [call]

/-- C104: a file goes to the bytes its address stands for, however they are written; if the address is none, nothing is sent. -/
theorem C104_transfer (files : Text → Option Bytes) {t t' u s : Text} (h1 : t ≠ [] ∧ ' ' ∉ t ∧ '=' ∉ t)
    (h2 : t' ≠ [] ∧ ' ' ∉ t' ∧ '=' ∉ t') (h3 : u ≠ [] ∧ ' ' ∉ u ∧ '=' ∉ u) (hl : ∀ c, u.getLast? = some c → c ∉ blanks)
    (hs : ∀ c ∈ s, c ∈ blanks) :
    (∀ bs, Octets t bs → Octets t' bs → enter files ("data_transfer".toList ++ ' ' :: t ++ ' ' :: u ++ s) =
      enter files ("data_transfer".toList ++ ' ' :: t' ++ ' ' :: u ++ s)) ∧
    ((∀ bs, ¬ Octets t bs) → enter files ("data_transfer".toList ++ ' ' :: t ++ ' ' :: u ++ s) = .says) := by
  rw [enter_transfer files h1.1 h1.2.1 h1.2.2 h3.1 h3.2.1 h3.2.2 hl hs, enter_transfer files h2.1 h2.2.1 h2.2.2 h3.1 h3.2.1 h3.2.2 hl hs]
  unfold transfer
  dsimp only
  refine ⟨fun bs ha hb => ?_, fun hno => ?_⟩
  · rw [(macAddress?_iff t bs).mpr ha, (macAddress?_iff t' bs).mpr hb]
  · have : macAddress? t = none := by
      cases h : macAddress? t with
      | none => rfl
      | some n => exact absurd ((macAddress?_iff t n).mp h) (hno n)
    rw [this]
    split
    · rename_i h _; cases h
    · rfl

/-- A sign, an underscore, a tab before it and a separator that is none. -/
example : Decimal "\t+1_0".toList 10 ∧ (∀ n, ¬ Decimal "\x1c5".toList n) ∧ (∀ n, ¬ Decimal "1__0".toList n) := by
  refine ⟨(int?_iff _ _).mp (by decide +kernel), fun n h => ?_, fun n h => ?_⟩
  · have := (int?_iff _ _).mpr h
    rw [show int? "\x1c5".toList = none by decide +kernel] at this
    cases this
  · have := (int?_iff _ _).mpr h
    rw [show int? "1__0".toList = none by decide +kernel] at this
    cases this

/-- `range_start +1_0` starts session 10. -/
example (files : Text → Option Bytes) (w : Bytes) (hw : (Line.rangeStart 10).write = some w) :
    enter files ("range_start".toList ++ ' ' :: "+1_0".toList ++ "\x1c".toList) = .sends [w] :=
  (C104_session files (name := "range_start") (f := .rangeStart) (by simp [sessionLines]) (by decide +kernel) (by decide +kernel)
    (by decide +kernel) (by rintro c hc; obtain rfl : '0' = c := Option.some.inj hc; decide +kernel) (by decide +kernel)).1 10
      ((int?_iff _ _).mp (by decide +kernel)) w hw

/-- An address with prefixes and signs is the plain one. -/
example (files : Text → Option Bytes) :
    enter files ("data_transfer".toList ++ ' ' :: "+1:0x_2".toList ++ ' ' :: "a".toList ++ []) =
      enter files ("data_transfer".toList ++ ' ' :: "01:02".toList ++ ' ' :: "a".toList ++ []) :=
  (C104_transfer files (by decide +kernel) (by decide +kernel) (by decide +kernel)
    (by rintro c hc; obtain rfl : 'a' = c := Option.some.inj hc; decide +kernel) (by decide +kernel)).1 [1, 2]
    ((macAddress?_iff _ _).mp (by decide +kernel)) ((macAddress?_iff _ _).mp (by decide +kernel))

end Pica.Props
