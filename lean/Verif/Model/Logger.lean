import Verif.Lemmas.Py

/-
Model of common/logger.py: `info` and `write_file`.
-/

namespace Hyperstatic

/-- What the functions of logger.py see: the files that can be opened, and the lines printed so far. -/
structure Desk where
  files : Dict String
  screen : List String

/-- A call of one of the two functions.  `time` is what `ctime()` answers. -/
inductive LogCall
  | info (time log target : String)
  | writeFile (text target : String)

namespace LogCall

/-- the line `print(ctime(),':',log)` prints: logger.py 12, 18 -/
def line (time log : String) : String := time ++ " : " ++ log

/-- One call: what it leaves and whether it raises.

`info`: logger.py 6-23.  Both branches start a thread that prints and wait for it; the target is compared with `'console'` only.

`write_file`: logger.py 25-32.  `open(target)` opens for reading, so `write` raises `UnsupportedOperation`, whose text is printed.  If the file
cannot be opened, that error is printed and `f.close()` raises `UnboundLocalError`, a kind of `NameError`.  Simplification: a file can be
opened if it exists. -/
def run (d : Desk) : LogCall → Desk × Except PyErr Unit
  | .info time log target =>
    if target = "console" then ({ d with screen := d.screen ++ [line time log] }, .ok ())
    else ({ d with screen := d.screen ++ [line time log] }, .ok ())
  | .writeFile _ target =>
    match d.files.get? target with
    | some _ => ({ d with screen := d.screen ++ ["not writable"] }, .ok ())
    | none => ({ d with screen := d.screen ++ ["[Errno 2] No such file or directory: '" ++ target ++ "'"] }, .error .nameError)

/-- calls one after the other; an exception does not end the program that makes them -/
def runAll (d : Desk) (cs : List LogCall) : Desk := cs.foldl (fun d c => (run d c).1) d

end LogCall

end Hyperstatic
