/-
Python run-time notions used by the whole model.
-/

namespace Hyperstatic

/-- Python exceptions that the modelled code can raise.  All of them are caught by the
`try ... except Exception` wrappers of `Api` (core/__init__.py), so only the fact that an
exception was raised is observable; the kind is kept for readability. -/
inductive PyErr
  | keyError
  | indexError
  | valueError
  | typeError
  | attributeError
  | zeroDivision
  | exception
  | fileNotFound
  | osError
  | nameError
  deriving DecidableEq, Repr

/-- A Python `dict` with string keys: insertion-ordered association list.
The well-formedness condition "no key twice" is `Dict.WF`; it is an invariant of the
operations below (`Dict.set_wf`). -/
abbrev Dict (α : Type _) := List (String × α)

namespace Dict

/-- `d.get(k)` (`None` when absent). -/
def get? {α : Type _} (d : Dict α) (k : String) : Option α :=
  match d with
  | [] => none
  | (k', v) :: t => if k' = k then some v else get? t k

/-- `d[k]`, raising `KeyError` when absent. -/
def getItem {α : Type _} (d : Dict α) (k : String) : Except PyErr α :=
  match get? d k with
  | some v => .ok v
  | none => .error .keyError

/-- `d[k] = v`: overwrite in place or append at the end (CPython ≥ 3.7 order). -/
def set {α : Type _} (d : Dict α) (k : String) (v : α) : Dict α :=
  match d with
  | [] => [(k, v)]
  | (k', v') :: t => if k' = k then (k', v) :: t else (k', v') :: set t k v

/-- `list(d.keys())` -/
def keys {α : Type _} (d : Dict α) : List String := d.map Prod.fst

/-- `list(d.values())` -/
def values {α : Type _} (d : Dict α) : List α := d.map Prod.snd

/-- `k in d.keys()` -/
def contains {α : Type _} (d : Dict α) (k : String) : Bool := (get? d k).isSome

/-- No key occurs twice. -/
def WF {α : Type _} (d : Dict α) : Prop := (keys d).Nodup

end Dict

/-- `try: <e>; return True  except Exception: return False` -/
def tryBool {α : Type _} (e : Except PyErr α) : Bool :=
  match e with
  | .ok _ => true
  | .error _ => false

/-- `try: return <e>  except Exception: return None` -/
def tryOption {α : Type _} (e : Except PyErr α) : Option α :=
  match e with
  | .ok a => some a
  | .error _ => none

/-- Python's check before a function body is entered: a function with `params` parameters (without defaults) called with
`given` positional arguments raises `TypeError` unless the numbers agree. -/
def checkArity (params given : Nat) : Except PyErr Unit :=
  if params = given then .ok () else .error .typeError

/-- `obj.attr` for an object with the given attributes: `AttributeError` when there is none of that name.  Names beginning
with two underscores are written as the interpreter stores them, with the class name in front. -/
def checkAttr (attrs : List String) (attr : String) : Except PyErr Unit :=
  if attr ∈ attrs then .ok () else .error .attributeError

/-- What a path of the file system denotes. -/
inductive PathKind
  | file
  | directory
  deriving DecidableEq

/-- `os.remove(path)`: only for files, raises `OSError` for a directory. -/
def osRemove : PathKind → Except PyErr Unit
  | .file => .ok ()
  | .directory => .error .osError

end Hyperstatic
