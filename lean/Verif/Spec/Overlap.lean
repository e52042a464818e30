import Verif.Model.Overlap

/-
Vocabulary for statements about calls that overlap in time: what a process would get if it were alone, and which files a request is
about.
-/

namespace Hyperstatic.Spec

/-- A request that is made while nobody else does anything. -/
noncomputable def respond (env : Env) (w : World) : Request → World × Answer
  | .call c => ((w.step env c).1, .flag (w.step env c).2)
  | .displacement node case => (w, .displacement (w.resultGetNodalDisplacement node case))
  | .table case => (w, .table (w.resultGetAllNodalDisplacement case))
  | .deformation beam loc case => (w, .deformation (w.resultGetBeamDeformation beam loc case))

/-- The state after the requests, made one after the other while nobody else does anything. -/
noncomputable def after (env : Env) : World → List Request → World
  | w, [] => w
  | w, r :: rs => after env (respond env w r).1 rs

/-- The answers. -/
noncomputable def answered (env : Env) : World → List Request → List Answer
  | _, [] => []
  | w, r :: rs => (respond env w r).2 :: answered env (respond env w r).1 rs

/-- The files a request depends on, or leaves its result in. -/
def concerns : Request → List String
  | .call .assemble => [".asb"]
  | .call (.solveStatic case) => [".asb", "0.k", case ++ ".d.npy"]
  | .call (.solveModal _ _) => [".asb"]
  | .call (.save f) => [f ++ ".sep"]
  | .call (.load f) => [f ++ ".sep"]
  | .call _ => []
  | .displacement _ case => [".asb", case ++ ".d.npy"]
  | .table case => [".asb", case ++ ".d.npy"]
  | .deformation _ _ case => [".asb", case ++ ".d.npy"]

/-- The files a request writes. -/
def writes : Request → List String
  | .call .assemble => [".asb"]
  | .call (.solveStatic case) => ["0.k.npy", case ++ ".d.npy"]
  | .call (.save f) => [f ++ ".sep"]
  | _ => []

/-- Nothing has happened yet. -/
def AtRest (p : Proc) : Prop := p.current = none ∧ p.answers = []

/-- All requests have been answered. -/
def Finished (p : Proc) : Prop := p.current = none ∧ p.todo = []

/-- What a process knows and finds on the disk. -/
def seen {ι : Type} (s : Site ι) (i : ι) : World := ⟨(s.procs i).api, s.disk (s.procs i).workpath⟩

/-- The next request of process `i` is made and answered at once, in one piece. -/
noncomputable def whole {ι : Type} [DecidableEq ι] (env : Env) (s : Site ι) (i : ι) : Site ι :=
  match (s.procs i).todo with
  | [] => s
  | r :: rs =>
      let x := respond env (seen s i) r
      { disk := Function.update s.disk (s.procs i).workpath x.1.fs
        procs := Function.update s.procs i
          { s.procs i with api := x.1.api, todo := rs, answers := (s.procs i).answers ++ [x.2] } }

/-- Requests answered in one piece, in the order of the list of processes. -/
noncomputable def oneByOne {ι : Type} [DecidableEq ι] (env : Env) (s : Site ι) (order : List ι) : Site ι :=
  order.foldl (fun s i => whole env s i) s

/-- The case whose results a request computes or reads. -/
def caseOf : Request → Option String
  | .call (.solveStatic case) => some case
  | .displacement _ case => some case
  | .table case => some case
  | .deformation _ _ case => some case
  | _ => none

/-- A request that assembles, solves a static case or reads its results. -/
def Analysis : Request → Prop
  | .call .assemble => True
  | .call (.solveStatic _) => True
  | .displacement _ _ => True
  | .table _ => True
  | .deformation _ _ _ => True
  | _ => False

/-- `False` or `None` -/
def failure : Answer → Prop
  | .flag b => b = false
  | .displacement d => d = none
  | .table t => t = none
  | .deformation d => d = none

/-- The answer to a request by someone alone in an empty folder who assembles and, to read results, solves the case. -/
noncomputable def proper (env : Env) (api : Api) (r : Request) : Answer :=
  match r with
  | .call c => (respond env (after env ⟨api, []⟩ [.call .assemble]) (.call c)).2
  | .displacement n c => (respond env (after env ⟨api, []⟩ [.call .assemble, .call (.solveStatic c)]) (.displacement n c)).2
  | .table c => (respond env (after env ⟨api, []⟩ [.call .assemble, .call (.solveStatic c)]) (.table c)).2
  | .deformation b l c => (respond env (after env ⟨api, []⟩ [.call .assemble, .call (.solveStatic c)]) (.deformation b l c)).2

end Hyperstatic.Spec
