import Verif.Spec.CommandLine
/-! Lines at the interactive console whose last word is being typed. -/

namespace Pica.Spec.Typed

/-- The line consists of the words, with spaces after each of them, and the beginning of another one. -/
inductive Begun : List Char → List (List Char) → List Char → Prop
  | last {w : List Char} : Begun w [] w
  | cons {w line u : List Char} {ws : List (List Char)} (k : Nat) : Begun line ws u →
      Begun (w ++ List.replicate (k + 1) ' ' ++ line) (w :: ws) u

/-- Characters of words. -/
def Graphic (w : List Char) : Prop := ∀ c ∈ w, 32 < c.toNat ∧ c.toNat < 127

end Pica.Spec.Typed
