/-! A reader of JSON (RFC 8259) without escapes in strings and with integers as numbers: it refuses all other documents. -/

namespace Pica.Spec.Json

/-- A JSON document. -/
inductive Value where
  | int (n : Int)
  | str (s : List Char)
  | arr (vs : List Value)
  | obj (ms : List (List Char × Value))
  deriving Repr

/-- The text after white space. -/
def skip : List Char → List Char
  | ' ' :: r | '\t' :: r | '\n' :: r | '\r' :: r => skip r
  | r => r

/-- The text after white space and the given character, if that comes next. -/
def expect (c : Char) (text : List Char) : Option (List Char) :=
  match skip text with
  | [] => none
  | x :: r => if x = c then some r else none

/-- The rest of a string after its opening quote. -/
def string : List Char → Option (List Char × List Char)
  | [] => none
  | c :: r =>
    if c = '"' then some ([], r)
    else if c = '\\' ∨ c.toNat < 32 then none
    else (string r).map fun (s, t) => (c :: s, t)

/-- The value of a digit. -/
def digit (c : Char) : Option Nat := if 48 ≤ c.toNat ∧ c.toNat ≤ 57 then some (c.toNat - 48) else none

/-- The digits at the start of a text, after those that make up `n`. -/
def digits (n : Nat) : List Char → Nat × List Char
  | [] => (n, [])
  | c :: r => match digit c with | some d => digits (10 * n + d) r | none => (n, c :: r)

/-- A natural number: no leading zeros, no fraction and no exponent. -/
def natural : List Char → Option (Nat × List Char)
  | [] => none
  | c :: r =>
    match digit c with
    | none => none
    | some d =>
      let (n, t) := if d = 0 then (0, r) else digits d r
      match t with
      | [] => some (n, [])
      | x :: t => if (digit x).isSome ∨ x ∈ ['.', 'e', 'E'] then none else some (n, x :: t)

mutual
/-- A value at the start of a text, and the text after it. `fuel` bounds the depth and the number of items. -/
def value : Nat → List Char → Option (Value × List Char)
  | 0, _ => none
  | fuel + 1, text =>
    match skip text with
    | [] => none
    | c :: r =>
      if c = '"' then (string r).map fun (s, t) => (.str s, t)
      else if c = '-' then (natural r).map fun (n, t) => (.int (-n), t)
      else if c = '[' then
        match expect ']' r with
        | some t => some (.arr [], t)
        | none => (elements fuel r).map fun (vs, t) => (.arr vs, t)
      else if c = '{' then
        match expect '}' r with
        | some t => some (.obj [], t)
        | none => (members fuel r).map fun (ms, t) => (.obj ms, t)
      else (natural (c :: r)).map fun (n, t) => (.int n, t)

/-- The elements of an array, up to the closing bracket. -/
def elements : Nat → List Char → Option (List Value × List Char)
  | 0, _ => none
  | fuel + 1, text =>
    match value fuel text with
    | none => none
    | some (v, r) =>
      match expect ',' r with
      | some t => (elements fuel t).map fun (vs, t) => (v :: vs, t)
      | none => (expect ']' r).map fun t => ([v], t)

/-- The members of an object, up to the closing brace. -/
def members : Nat → List Char → Option (List (List Char × Value) × List Char)
  | 0, _ => none
  | fuel + 1, text =>
    match expect '"' text with
    | none => none
    | some r =>
      match string r with
      | none => none
      | some (k, r) =>
        match expect ':' r with
        | none => none
        | some r =>
          match value fuel r with
          | none => none
          | some (v, r) =>
            match expect ',' r with
            | some t => (members fuel t).map fun (ms, t) => ((k, v) :: ms, t)
            | none => (expect '}' r).map fun t => ([(k, v)], t)
end

/-- A whole document. -/
def read (text : List Char) : Option Value :=
  match value (text.length + 1) text with
  | some (v, r) => if skip r = [] then some v else none
  | none => none

end Pica.Spec.Json
