import Verif.Model.Api

/-
Array objects that queries of `Api` hand out, and what writing into them does.  `Model/Api.lean` treats arrays as values; here each
array that a query could hand out (locations of nodes, restraints, nodal loads) has an identity, and a write changes all places that
refer to the same object.  The entries of the arrays are real numbers or truth values here; an array that numpy made of integers rounds
what is written into it.
-/

namespace Hyperstatic

/-- A table with its values changed, the keys kept. -/
def Dict.mapKV {α : Type} (d : Dict α) (f : String → α → α) : Dict α := d.map fun p => (p.1, f p.1 p.2)

/-- Which array object stands at each place of an `Api` object.  A beam or a shell refers to `Node` objects (element/__init__.py,
line/__init__.py 21-27), each of which has one location array for life (`Cartesian.__O`, csys.py 23; node.py 31-33), so the array also
stands for the node object. -/
structure Ids where
  /-- locations in the table of nodes, model.py 72-79 -/
  node : Dict ℕ
  /-- locations of the two node objects of a beam, model.py 143-147 -/
  beam : Dict (Option ℕ × Option ℕ)
  /-- locations of the node objects of a shell, model.py 291-300 -/
  shell : Dict (List (Option ℕ))
  /-- global restraints, model.py 92 -/
  rest : Dict ℕ
  /-- restraints of the cases, load/__init__.py 37-38 -/
  caseRest : Dict (Dict ℕ)
  /-- nodal loads of each pattern object, pattern.py 16-17 -/
  load : PatRef → Dict ℕ

/-- A new `Api` object has no arrays, core/__init__.py 22-40. -/
def Ids.empty : Ids := ⟨[], [], [], [], [], fun _ => []⟩

/-- The arrays of an unpickled object are new, and as many as in the pickled one: `pickle` keeps the sharing within one object. -/
def Ids.shift (k : ℕ) (i : Ids) : Ids where
  node := i.node.map fun p => (p.1, k + p.2)
  beam := i.beam.map fun p => (p.1, p.2.1.map (k + ·), p.2.2.map (k + ·))
  shell := i.shell.map fun p => (p.1, p.2.map (Option.map (k + ·)))
  rest := i.rest.map fun p => (p.1, k + p.2)
  caseRest := i.caseRest.map fun p => (p.1, p.2.map fun q => (q.1, k + q.2))
  load := fun r => (i.load r).map fun p => (p.1, k + p.2)

/-- What a caller does to an array in place; one function for each kind of array. -/
structure Change where
  loc : V3 → V3
  flag : Flags → Flags
  load : Vec 6 → Vec 6

/-- An `Api` object with its files, the identities of its arrays, those of saved objects (`saved`, by file name), and the arrays that
queries have handed out so far. -/
structure Shared where
  world : World
  ids : Ids
  next : ℕ
  saved : Dict Ids
  rests : List ℕ
  locs : List ℕ
  loads : List ℕ

/-- A fresh `Api` on an empty work path; nothing handed out yet. -/
def Shared.init : Shared := ⟨World.init, Ids.empty, 0, [], [], [], []⟩

/-- The arrays that a successful call makes or lets be referred to, `w` being the world before the call, `k` the next free identity. -/
def Ids.after (i : Ids) (w : World) (k : ℕ) (saved : Dict Ids) : Call → Ids × ℕ
  -- model.py 73-78: a new `Node`; node.py 9-13, csys.py 23: `np.array(O)`
  | .addNode n _ _ _ => ({ i with node := i.node.set n k }, k + 1)
  -- model.py 144-145, 164-165: the node objects of the table
  | .addBeam b s e _ => ({ i with beam := i.beam.set b (i.node.get? s, i.node.get? e) }, k)
  | .addSimpleBeam b s e _ _ _ _ _ _ _ => ({ i with beam := i.beam.set b (i.node.get? s, i.node.get? e) }, k)
  -- model.py 291-300, with the arguments as `Api.add_shell` passes them
  | .addShell s _ n0 n1 n2 n3 =>
      ({ i with shell := i.shell.set s ([i.node.get? n0, i.node.get? n1, i.node.get? n2] ++ n3.toList.map i.node.get?) }, k)
  -- model.py 89-92
  | .setNodalRestraint n _ => if w.api.model.nodes.contains n then ({ i with rest := i.rest.set n k }, k + 1) else (i, k)
  -- load/__init__.py 37-38
  | .setLoadcaseNodalRestraint c n _ => ({ i with caseRest := i.caseRest.set c (((i.caseRest.get? c).getD []).set n k) }, k + 1)
  -- loadcase.py 8-9, 56-57, load/__init__.py 12: a new object with an empty table
  | .addStaticCase c => ({ i with caseRest := i.caseRest.set c [] }, k)
  | .addModalCase c => ({ i with caseRest := i.caseRest.set c [] }, k)
  -- pattern.py 5-10
  | .addLoadpattern _ => ({ i with load := Function.update i.load w.api.heap.length [] }, k)
  -- pattern.py 16-17
  | .setNodalLoad p n _ => match w.api.loadpatterns.get? p with
      | some r => ({ i with load := Function.update i.load r ((i.load r).set n k) }, k + 1)
      | none => (i, k)
  -- core/__init__.py 60-74
  | .load f => match saved.get? (f ++ ".sep") with
      | some j => (j.shift k, k + k)
      | none => (i, k)
  | _ => (i, k)

/-- Writing into the array `a`: every place that refers to it changes, node.py 31-33, line/__init__.py 21-27, model.py 207-208. -/
def FeModel.store (m : FeModel) (i : Ids) (a : ℕ) (ch : Change) : FeModel :=
  { m with
    nodes := m.nodes.mapKV fun n nd => if i.node.get? n = some a then { nd with csys := { nd.csys with O := ch.loc nd.csys.O } } else nd
    restraints := m.restraints.mapKV fun n f => if i.rest.get? n = some a then ch.flag f else f
    beams := m.beams.mapKV fun b be => { be with
      startLoc := if (i.beam.get? b).bind Prod.fst = some a then ch.loc be.startLoc else be.startLoc
      endLoc := if (i.beam.get? b).bind Prod.snd = some a then ch.loc be.endLoc else be.endLoc }
    shells := m.shells.mapKV fun s se => { se with
      nodes := se.nodes.mapIdx fun j p =>
        (p.1, if ((i.shell.get? s).getD [])[j]? = some (some a) then ch.loc p.2 else p.2) } }

/-- Writing into the array `a` of an `Api` object: the model, the cases and the pattern objects. -/
def Api.store (x : Api) (i : Ids) (a : ℕ) (ch : Change) : Api :=
  { x with
    model := x.model.store i a ch
    loadcases := x.loadcases.mapKV fun c lc => { lc with
      restraint := lc.restraint.mapKV fun n f => if ((i.caseRest.get? c).getD []).get? n = some a then ch.flag f else f }
    heap := x.heap.mapIdx fun r p => { p with
      nodalLoad := p.nodalLoad.mapKV fun n f => if (i.load r).get? n = some a then ch.load f else f } }

/-- What a script does with an `Api` object: calls, queries whose answers contain arrays, and writes into the arrays handed out so far
(the `k`-th of their kind).  Files are copies: writing into an array changes none. -/
inductive ScriptStep
  | call (c : Call)
  | askRestraints (case : Option String)
  | askLocation (name : String)
  | askLoads (pattern : String)
  | writeRestraints (k : ℕ) (g : Flags → Flags)
  | writeLocation (k : ℕ) (g : V3 → V3)
  | writeLoads (k : ℕ) (g : Vec 6 → Vec 6)

/-- A write into an array that was handed out. -/
def Shared.write (s : Shared) (a : Option ℕ) (ch : Change) : Shared :=
  match a with
  | some a => { s with world := { s.world with api := s.world.api.store s.ids a ch } }
  | none => s

/-- The identities in the saved files after a call, core/__init__.py 43-58. -/
def Shared.savedAfter (s : Shared) : Call → Dict Ids
  | .save f => s.saved.set (f ++ ".sep") s.ids
  | _ => s.saved

/-- One step of a script. -/
noncomputable def Shared.step (env : Env) (s : Shared) : ScriptStep → Shared
  | .call c =>
      let r := s.world.step env c
      if r.2 then
        let i := s.ids.after s.world s.next s.saved c
        { s with world := r.1, ids := i.1, next := i.2, saved := s.savedAfter c }
      else { s with world := r.1 }
  -- core/__init__.py 141-157, model.py 95-99, load/__init__.py 40-44: `np.array(v)` copies
  | .askRestraints case =>
      match s.world.getNodeRestraints case with
      | some d => { s with rests := s.rests ++ (List.range d.length).map (s.next + ·), next := s.next + d.length }
      | none => s
  -- core/__init__.py 126-139, model.py 207-208, node.py 31-33, csys.py 64-66: the array itself
  | .askLocation name =>
      match s.ids.node.get? name with
      | some a => { s with locs := s.locs ++ [a] }
      | none => s
  -- core/__init__.py 637-651, pattern.py 34-35: `copy` of a dictionary copies the table, not the arrays in it
  | .askLoads pattern =>
      match s.world.api.loadpatterns.get? pattern with
      | some r => { s with loads := s.loads ++ (s.ids.load r).values }
      | none => s
  | .writeRestraints k g => s.write s.rests[k]? ⟨id, g, id⟩
  | .writeLocation k g => s.write s.locs[k]? ⟨g, id, id⟩
  | .writeLoads k g => s.write s.loads[k]? ⟨id, id, g⟩

/-- A script. -/
noncomputable def Shared.run (env : Env) (s : Shared) (acts : List ScriptStep) : Shared := acts.foldl (fun s a => s.step env a) s

end Hyperstatic
