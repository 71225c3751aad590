import Verif.Model.CommandLine
/-!
The completion of the line being typed at the interactive console, `py/pica/console.py` 434-469. `readline` calls `complete` with
the states 0, 1, 2 and so on until it returns `None`. The cursor is at the end of the line.
-/

namespace Pica.Console

/-- `str.split()`, 435: the words between white space. -/
def splitWords (s : Text) : List Text :=
  (splitOn ' ' (s.map fun c => if isSpace c then ' ' else c)).filter fun w => decide (w ≠ [])

/-- The words of the line, the last one being typed, 435-437. -/
def typed (buffer : Text) : List Text :=
  let tokens := splitWords buffer
  if tokens = [] ∨ buffer.getLast? = some ' ' then tokens ++ [[]] else tokens

/-- `results` before the last `None` is added, 439-463. The signatures have no other parameters than those that may be given by
position or by name, and `**kargs`. -/
def completions (buffer text : Text) : List Text :=
  match typed buffer with
  | [] => []
  | [_] => (commands.filter fun c => text.isPrefixOf c.1.toList).map fun c => c.1.toList ++ [' ']
  | cmd :: second :: rest =>
    let word := (second :: rest).getLast (List.cons_ne_nil _ _)
    if '=' ∈ word then []
    else
      match commands.find? fun c => c.1.toList == cmd with
      | none => []
      | some (_, f) => (f.params.filter fun p => word.isPrefixOf p.1.toList).map fun p => p.1.toList ++ ['=']

/-- `complete(text, state)`, 434-466: the answer, `None` for the end of them; `none` is an `IndexError`. -/
def complete (buffer text : Text) (state : Nat) : Option (Option Text) :=
  ((completions buffer text).map some ++ [none])[state]?

end Pica.Console
