import Verif.Model.Api

/-
Model of calls that overlap in time: processes (or threads), each with an `Api` object (hyperstatic/core/__init__.py 21-93) of its own,
on one disk.  A call is a sequence of file operations, and the operations of different processes come in any order.  A process that dies
is one that takes no further step.

The operations: reading a file (or looking whether it is there), opening a file for writing, which empties it (`'wb+'` in `Assembly.save`
assembly.py 313 and `Api.save` core/__init__.py 53, `np.save` static.py 43 and 135), and completing it.

Simplified: a file is read in one step; while one process writes a file nobody knows what others would read, and until it is complete they
cannot read it (`File.broken`); of two processes that write one file at the same time the one that completes it last wins; the folders
exist (`os.path.exists` core/__init__.py 35, assembly.py 311); `Api.load` gives an object with the work path of the caller (true unless
folders are copied, see `C125_place_partial`).
-/

namespace Hyperstatic

/-- A computation that uses the files of one folder. -/
inductive Act (α : Type)
  /-- the call returns -/
  | done (a : α)
  /-- read the file `name`; `none` when it is missing -/
  | read (name : String) (k : Option (File Api) → Act α)
  /-- open the file for writing -/
  | empty (name : String) (next : Act α)
  /-- complete and close it -/
  | fill (name : String) (content : File Api) (next : Act α)

/-- `pickle.load` of an assembly, fe_solver/__init__.py 11-15 and fe_post/__init__.py 9-12 -/
def asbOf : Option (File Api) → Except PyErr Assembly
  | some (.asb a) => .ok a
  | some _ => .error .exception
  | none => .error .fileNotFound

/-- `np.load(...)[0,:]` of displacements, fe_post/node.py 25, fe_post/beam.py 41 -/
def dispOf : Option (File Api) → Except PyErr (List ℝ)
  | some (.disp d) => .ok d
  | some (.rows (d :: _)) => .ok d
  | some _ => .error .exception
  | none => .error .fileNotFound

/-- What a process asks for: a call that changes something, or a result. -/
inductive Request
  | call (c : Call)
  /-- `result_get_nodal_displacement(node, case)` -/
  | displacement (node case : String)
  /-- `result_get_all_nodal_displacement(case)` -/
  | table (case : String)
  /-- `result_get_beam_deformation(beam, loc, case)` -/
  | deformation (beam : String) (loc : ℝ) (case : String)

/-- What it gets. -/
inductive Answer
  | flag (b : Bool)
  | displacement (d : Option (List ℝ))
  | table (t : Option (Dict (List ℝ)))
  | deformation (d : Option (Vec 6))

/-- `solve_static(case)` core/__init__.py 774-794, fe_solver/__init__.py 11-15, static.py 32-136, see `solveLinear` -/
noncomputable def solveAct (env : Env) (api : Api) (case : String) : Act (Api × Answer) :=
  .read Api.filename fun f =>
    match asbOf f with
    | .error _ => .done (api, .flag false)
    | .ok a =>
        .read "0.k" fun g =>
          if g.isSome then .done (api, .flag false)
          else match a.assembleK env with
            | .error _ => .done (api, .flag false)
            | .ok K =>
                .empty "0.k.npy" (.fill "0.k.npy" (.stiff K)
                  (match solveCase env a case K with
                    | .error _ => .done (api, .flag false)
                    | .ok d => .empty (case ++ ".d.npy") (.fill (case ++ ".d.npy") (.disp d) (.done (api, .flag true)))))

/-- the rest of `result_get_all_nodal_displacement` core/__init__.py 884-900 for the nodes still to do: the file is read again for each -/
def tableAct (api : Api) (case : String) (a : Assembly) : List String → Dict (List ℝ) → Act (Api × Answer)
  | [], t => .done (api, .table (some t))
  | n :: ns, t =>
      .read (case ++ ".d.npy") fun g =>
        match (do let d ← dispOf g; let hid ← a.model.getNodeHid n; return (d.drop (hid * 6)).take 6) with
        | .error _ => .done (api, .table none)
        | .ok v => tableAct api case a ns (t ++ [(n, v)])

/-- The file operations of a request, for an object in the state `api`. -/
noncomputable def actOf (env : Env) (api : Api) : Request → Act (Api × Answer)
  -- core/__init__.py 757-772, assembly.py 310-314: the assembly is made before the file is opened
  | .call .assemble =>
      match api.assembly with
      | .ok asb => .empty Api.filename (.fill Api.filename (.asb asb) (.done (api, .flag true)))
      | .error _ => .done (api, .flag false)
  | .call (.solveStatic case) => solveAct env api case
  -- core/__init__.py 796-814: the assembly is read, then the call of `solve_eigen` raises (see `World.step`)
  | .call (.solveModal _ _) => .read Api.filename fun _ => .done (api, .flag false)
  -- core/__init__.py 43-58
  | .call (.save filename) => .empty (filename ++ ".sep") (.fill (filename ++ ".sep") (.sep api) (.done (api, .flag true)))
  -- core/__init__.py 60-74
  | .call (.load filename) =>
      .read (filename ++ ".sep") fun f =>
        match f with
        | some (.sep a) => .done (a, .flag true)
        | _ => .done (api, .flag false)
  -- core/__init__.py 76-93: `os.remove` of a folder raises (see `World.step`)
  | .call .clearWorkspace => .done (api, .flag false)
  -- the editing calls use no files
  | .call c =>
      match api.edit c with
      | .ok a => .done (a, .flag true)
      | .error _ => .done (api, .flag false)
  -- core/__init__.py 865-882, fe_post/node.py 8-27
  | .displacement node case =>
      .read Api.filename fun f =>
        match asbOf f with
        | .error _ => .done (api, .displacement none)
        | .ok a =>
            .read (case ++ ".d.npy") fun g =>
              .done (api, .displacement (tryOption (do
                let d ← dispOf g
                let hid ← a.model.getNodeHid node
                return (d.drop (hid * 6)).take 6)))
  -- core/__init__.py 884-900
  | .table case =>
      .read Api.filename fun f =>
        match asbOf f with
        | .error _ => .done (api, .table none)
        | .ok a => tableAct api case a api.model.nodes.keys []
  -- core/__init__.py 921-939, fe_post/beam.py 8-65
  | .deformation beam loc case =>
      .read Api.filename fun f =>
        match asbOf f with
        | .error _ => .done (api, .deformation none)
        | .ok a =>
            .read (case ++ ".d.npy") fun g =>
              .done (api, .deformation (tryOption (do
                let d ← dispOf g
                let (i, j) ← a.model.getBeamNodeHids beam
                let b ← a.model.beams.getItem beam
                let dd := pickEndDisp d i j
                if h : dd.length = 12 then
                  return beamDeformation b.length loc (b.T.mulVec (fun k => dd[k.val]'(by rw [h]; exact k.isLt)))
                else .error .valueError)))

/-- A process with one `Api` object: its work path, the object, the requests still to make, what is left of the current one, and the
answers so far. -/
structure Proc where
  workpath : String
  api : Api
  todo : List Request
  current : Option (Act (Api × Answer))
  answers : List Answer

/-- Processes, by any kind of name, and the folders of the disk. -/
structure Site (ι : Type) where
  disk : String → Dict (File Api)
  procs : ι → Proc

/-- One step of a process, given the files of its work path: begin the next request, do the next operation of the current one, or return
from it.  A process with nothing to do stays as it is. -/
noncomputable def Proc.tick (env : Env) (p : Proc) (fs : Dict (File Api)) : Proc × Dict (File Api) :=
  match p.current with
  | none =>
      match p.todo with
      | [] => (p, fs)
      | r :: rs => ({ p with todo := rs, current := some (actOf env p.api r) }, fs)
  | some (.done (a, ans)) => ({ p with api := a, current := none, answers := p.answers ++ [ans] }, fs)
  | some (.read n k) => ({ p with current := some (k (fs.get? n)) }, fs)
  | some (.empty n next) => ({ p with current := some next }, fs.set n .broken)
  | some (.fill n content next) => ({ p with current := some next }, fs.set n content)

namespace Site

variable {ι : Type} [DecidableEq ι]

/-- The process `i` makes one step. -/
noncomputable def step (env : Env) (s : Site ι) (i : ι) : Site ι :=
  let r := (s.procs i).tick env (s.disk (s.procs i).workpath)
  { disk := Function.update s.disk (s.procs i).workpath r.2, procs := Function.update s.procs i r.1 }

/-- The processes make steps in the order of the list. -/
noncomputable def run (env : Env) (s : Site ι) (sched : List ι) : Site ι := sched.foldl (fun s i => s.step env i) s

end Site
end Hyperstatic
