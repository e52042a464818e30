import Verif.Model.Api

/-
Model of several `Api` objects (hyperstatic/core/__init__.py 21-93), in one or several processes, working in folders of one disk, of
processes that die, and of folders that are copied.

Simplified: names of files and cases contain no path separator and every work path is written in one way (nothing in core changes the
current directory), so two paths are the same folder exactly when they are the same string; calls are not interrupted by calls of
other sessions, each is one step.
-/

namespace Hyperstatic

/-- An `Api` object: the attribute `__workpath` (core/__init__.py 34), which `World` leaves out, and the others. -/
structure Session where
  workpath : String
  api : Api

/-- A folder.  `save` pickles the whole object, its `__workpath` included (core/__init__.py 53-54); `savedPath` keeps that attribute
for every `.sep` file, the other attributes are the content of the file in `files`. -/
structure Folder where
  files : Dict (File Api)
  savedPath : Dict String

/-- The disk, by path, and the variables that hold `Api` objects. -/
structure Office where
  disk : Dict Folder
  sessions : Dict Session

/-- What can happen. -/
inductive Event
  /-- `s = Api(path)`, core/__init__.py 22-40 -/
  | start (s path : String)
  /-- a method of the object `s`; for `.load f` the statement `s = Api.load(<work path of s>, f)` -/
  | call (s : String) (c : Call)
  /-- `s = Api.load(path, filename)`, core/__init__.py 60-74; a variable keeps its value when `None` is returned -/
  | load (s path filename : String)
  /-- the process that holds `s` dies between two calls -/
  | kill (s : String)
  /-- the process that holds `s` dies in the call; `k` tells when -/
  | killDuring (s : String) (c : Call) (k : ℕ)
  /-- somebody replaces the folder `dst` by a copy of the folder `src` -/
  | copy (src dst : String)

namespace Office

def init : Office := ⟨[], []⟩

/-- The content of a folder; `Api(path)` makes a folder that is missing (core/__init__.py 35-37). -/
def folder (o : Office) (path : String) : Folder := (o.disk.get? path).getD ⟨[], []⟩

/-- What the methods of the object `s` work on: its attributes and the files of its work path. -/
def world (o : Office) (s : String) : Option World :=
  (o.sessions.get? s).map (fun x => ⟨x.api, (o.folder x.workpath).files⟩)

/-- `del s` -/
def drop (d : Dict Session) (s : String) : Dict Session := d.filter (fun p => p.1 ≠ s)

/-- The files left when the process dies in a call.  A file opened for writing is emptied at once (`'wb+'` in `Assembly.save`
assembly.py 313 and in `Api.save` core/__init__.py 53, `np.save` in static.py 43 and 135) and is of no use until it is complete.  A
death after the last write is a `kill` after the call. -/
noncomputable def leftBehind (env : Env) (w : World) : Call → List (Dict (File Api))
  | .assemble =>
      match w.api.assembly with
      | .ok _ => [w.fs, w.fs.set Api.filename .broken]
      | .error _ => [w.fs]
  | .solveStatic case =>
      match openAssembly w.fs Api.filename with
      | .error _ => [w.fs]
      | .ok a =>
          if w.fs.contains "0.k" then [w.fs]
          else match a.assembleK env with
            | .error _ => [w.fs]
            | .ok K =>
                [w.fs, w.fs.set "0.k.npy" .broken, w.fs.set "0.k.npy" (.stiff K),
                  Dict.set (w.fs.set "0.k.npy" (.stiff K)) (case ++ ".d" ++ ".npy") .broken]
  | .save filename => [w.fs, w.fs.set (filename ++ ".sep") .broken]
  | _ => [w.fs]

/-- `Api.load(path, filename)`, core/__init__.py 60-74: the object comes back with the work path it was saved with. -/
def loadFrom (o : Office) (s path filename : String) : Office × Bool :=
  match (o.folder path).files.get? (filename ++ ".sep") with
  | some (.sep a) =>
      ({ o with sessions := o.sessions.set s ⟨((o.folder path).savedPath.get? (filename ++ ".sep")).getD path, a⟩ }, true)
  | _ => (o, false)

/-- The work paths in the `.sep` files after a call by an object with work path `path`. -/
def notePath (d : Dict String) (path : String) : Call → Dict String
  | .save filename => d.set (filename ++ ".sep") path
  | _ => d

/-- One event: the new state, and the returned truth value of a call. -/
noncomputable def step (env : Env) (o : Office) : Event → Office × Bool
  | .start s path =>
      ({ disk := o.disk.set path (o.folder path), sessions := o.sessions.set s ⟨path, Api.init⟩ }, true)
  | .load s path filename => o.loadFrom s path filename
  | .call s c =>
      match o.sessions.get? s with
      | none => (o, false)
      | some x =>
          match c with
          | .load filename => o.loadFrom s x.workpath filename
          | c =>
              let r := World.step env ⟨x.api, (o.folder x.workpath).files⟩ c
              ({ disk := o.disk.set x.workpath ⟨r.1.fs, notePath (o.folder x.workpath).savedPath x.workpath c⟩
                 sessions := o.sessions.set s ⟨x.workpath, r.1.api⟩ }, r.2)
  | .kill s => ({ o with sessions := drop o.sessions s }, false)
  | .killDuring s c k =>
      match o.sessions.get? s with
      | none => (o, false)
      | some x =>
          match (leftBehind env ⟨x.api, (o.folder x.workpath).files⟩ c)[k]? with
          | none => (o, false)
          | some fs =>
              ({ disk := o.disk.set x.workpath ⟨fs, (o.folder x.workpath).savedPath⟩, sessions := drop o.sessions s }, false)
  | .copy src dst => ({ o with disk := o.disk.set dst (o.folder src) }, false)

/-- A history. -/
noncomputable def run (env : Env) (o : Office) (evs : List Event) : Office :=
  evs.foldl (fun o e => (o.step env e).1) o

end Office
end Hyperstatic
