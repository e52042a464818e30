import Verif.Model.Py
import Mathlib.Data.List.SplitOn
import Mathlib.Data.List.Infix

/-
Model of hyperstatic/app/general/io/s2k.py, the part that reads the text of the file into tables (lines 24-74), up to the first
statement that cannot run (line 78).  (Importing the module already fails: it imports app.general.model, which imports a package
`Hyperstatic.hyperstatic` that does not exist.)  A Python string is the list of its characters.
-/

namespace Hyperstatic

abbrev Txt := List Char

/-- `split_row` s2k.py 24-35: state `(segments, flag, temp)`; what is left in `temp` at the end is dropped. -/
def splitRowStep (st : List Txt × Bool × Txt) (i : Char) : List Txt × Bool × Txt :=
  let (segments, flag, temp) := st
  let flag := if i = '"' then !flag else flag
  if flag = true ∨ (i ≠ ' ' ∧ i ≠ '\n') then (segments, flag, temp ++ [i])
  else if temp ≠ [] then (segments ++ [temp], flag, [])
  else (segments, flag, temp)

/-- `split_row(s)` s2k.py 24-35 -/
def splitRow (s : Txt) : List Txt := (s.foldl splitRowStep ([], false, [])).1

/-- `j.strip('"')` -/
def stripQuotes (s : Txt) : Txt := ((s.dropWhile (· = '"')).reverse.dropWhile (· = '"')).reverse

/-- `[j.strip('"') for j in i.split('=', 1)[:2]]` as an entry of `dict(...)`: a segment without `=` has one part, which `dict`
refuses: s2k.py 46-47 -/
def parseField (i : Txt) : Except PyErr (String × String) :=
  if '=' ∈ i then
    .ok (String.ofList (stripQuotes (i.takeWhile (· ≠ '='))), String.ofList (stripQuotes ((i.dropWhile (· ≠ '=')).drop 1)))
  else .error .valueError

/-- `dict([...])`: later entries overwrite earlier ones -/
def pyDict (l : List (String × String)) : Dict String := l.foldl (fun d p => Dict.set d p.1 p.2) []

/-- `while params[-2] == '_': params = params[:-2] + next(it)` s2k.py 43-44, 50-51; `none` is `StopIteration`, a line of fewer than
two characters raises `IndexError`.  Returns the joined line and the lines not yet read. -/
def joinLines (params : Txt) (it : List Txt) : Except PyErr (Option (Txt × List Txt)) :=
  match params.reverse with
  | _ :: '_' :: r => match it with
    | [] => .ok none
    | l :: it => joinLines (r.reverse ++ l) it
  | _ :: _ :: _ => .ok (some (params, it))
  | _ => .error .indexError
termination_by it.length

theorem joinLines_length {params : Txt} {it : List Txt} {p : Txt} {rest : List Txt} (h : joinLines params it = .ok (some (p, rest))) :
    rest.length ≤ it.length := by
  induction it generalizing params with
  | nil =>
    unfold joinLines at h
    split at h
    · simp at h
    · simp only [Except.ok.injEq, Option.some.injEq, Prod.mk.injEq] at h; rw [h.2]
    · simp at h
  | cons l it ih =>
    unfold joinLines at h
    split at h
    · exact (ih h).trans (Nat.le_succ _)
    · simp only [Except.ok.injEq, Option.some.injEq, Prod.mk.injEq] at h; rw [h.2]
    · simp at h

/-- The loop of `parse_lines` s2k.py 38-54 from one call of `next(it)` to the following one.  The result `none` is the value `None`
of a function that ends without `return`, which happens at a line without segments. -/
def parseLoop (data : List (Dict String)) (it : List Txt) : Except PyErr (Option (List (Dict String))) :=
  match it with
  | [] => .ok (some data)
  | l :: it => match h : joinLines l it with
    | .error e => .error e
    | .ok none => .ok (some data)
    | .ok (some (params, rest)) =>
      match splitRow params with
      | [] => .ok none
      | segs => match segs.mapM parseField with
        | .error e => .error e
        | .ok fields => parseLoop (data ++ [pyDict fields]) rest
termination_by it.length
decreasing_by
  have := joinLines_length h
  simp only [List.length_cons]
  omega

/-- `parse_lines(lines)` s2k.py 38-54 -/
def parseLines (lines : List Txt) : Except PyErr (Option (List (Dict String))) := parseLoop [] lines

/-- `x in line` for strings -/
def occursIn (x : String) (line : Txt) : Prop := x.toList <:+: line

instance (x : String) (line : Txt) : Decidable (occursIn x line) := inferInstanceAs (Decidable (_ <:+: _))

/-- The loop over the lines after the first two, s2k.py 61-68: blocks, the last one open. -/
def blocksStep (blocks : List (List Txt)) (line : Txt) : Except PyErr (List (List Txt)) :=
  if occursIn "END TABLE DATA" line then .ok blocks
  else if occursIn "TABLE:" line then .ok (blocks ++ [[line]])
  else match blocks.getLast? with
    | none => .error .indexError
    | some b => .ok (blocks.dropLast ++ [b ++ [line]])

/-- `block[0].split('"')[1]` s2k.py 74 -/
def blockName (line : Txt) : Except PyErr String :=
  match line.splitOn '"' with
  | _ :: n :: _ => .ok (String.ofList n)
  | _ => .error .indexError

/-- One pass of the loop s2k.py 73-74: `block[1:-1]` are the lines after the title without the last one. -/
def attrsStep (attrs : Dict (Option (List (Dict String)))) (block : List Txt) : Except PyErr (Dict (Option (List (Dict String)))) := do
  let t ← parseLines (block.drop 1).dropLast
  let n ← blockName (block.headD [])
  return attrs.set n t

/-- The variable `attrs` after s2k.py 57-74, for a file with the given lines. -/
def s2kTables (file : List Txt) : Except PyErr (Dict (Option (List (Dict String)))) := do
  let blocks ← (file.drop 2).foldlM blocksStep []
  blocks.foldlM attrsStep []

/-- `import_s2k`: after reading, line 78 opens a file named by the undefined variable `file`. -/
def importS2k (file : List Txt) : Except PyErr Bool := do
  let _ ← s2kTables file
  .error .nameError

end Hyperstatic
