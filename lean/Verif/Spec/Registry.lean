import Verif.Spec.History

/-
Abstract machines: what the user believes the registries of the API contain.
-/

namespace Hyperstatic.Spec

/-- Nodes: names in order of first addition, and the coordinates of the last `add_node` for each name. -/
structure NodeReg where
  names : List String
  loc : String → Option V3

/-- C02: `add_node` lists a new name at the end and records the coordinates; nothing else matters. -/
def nodeReg : Machine NodeReg where
  init := ⟨[], fun _ => none⟩
  edit s
    | .addNode n x y z =>
        ⟨if n ∈ s.names then s.names else s.names ++ [n], fun m => if m = n then some ⟨x, y, z⟩ else s.loc m⟩
    | _ => s

/-- The acceptance condition for the two end points: (nearly) vertical with a height difference of at least twice the
tolerance, or a horizontal offset of at least twice the tolerance. -/
def Acceptable (p q : V3) : Prop :=
  (max |q.x - p.x| |q.y - p.y| < absTol ∧ 2 * absTol ≤ |q.z - p.z|) ∨ 2 * absTol ≤ max |q.x - p.x| |q.y - p.y|

/-- Restraints: which nodes and cases exist, the global flags and the flags of each case. -/
structure RestReg where
  nodes : String → Prop
  global : String → Option Flags
  cases : String → Option (String → Option Flags)

/-- C07: a setting for an existing node (case) overwrites the flags of that node (in that case) only; creating a
case starts it without restraints. -/
noncomputable def restReg : Machine RestReg where
  init := ⟨fun _ => False, fun _ => none, fun _ => none⟩
  edit s
    | .addNode n _ _ _ => { s with nodes := fun m => m = n ∨ s.nodes m }
    | .setNodalRestraint n f =>
        open Classical in
        { s with global := fun m => if m = n ∧ s.nodes n then some f else s.global m }
    | .addStaticCase c => { s with cases := fun c' => if c' = c then some (fun _ => none) else s.cases c' }
    | .addModalCase c => { s with cases := fun c' => if c' = c then some (fun _ => none) else s.cases c' }
    | .setLoadcaseNodalRestraint c n f =>
        { s with
          cases := fun c' => if c' = c then (s.cases c).map (fun g m => if m = n then some f else g m)
            else s.cases c' }
    | _ => s

/-- C44: the mass attached to each node. -/
def massReg : Machine (String → Option (Vec 6)) where
  init := fun _ => none
  edit s
    | .addNode n _ _ _ => fun m => if m = n then some 0 else s m
    | .setNodalMass n mass => fun m => if m = n then (s n).map (fun _ => mass) else s m
    | _ => s

/-- C09: for each existing pattern, the load of each loaded node; creating a pattern (again) empties it. -/
def loadReg : Machine (String → Option (String → Option (Vec 6))) where
  init := fun _ => none
  edit s
    | .addLoadpattern p => fun q => if q = p then some (fun _ => none) else s q
    | .setNodalLoad p n f => fun q =>
        if q = p then (s p).map (fun g m => if m = n then some f else g m) else s q
    | _ => s

/-- The loads of a pattern: per node the six components, per beam the last distributed load (as given:
`p_i, p_j, q_i2, q_j2, q_i3, q_j3, t_i, t_j`) and the last concentrated load (`F1, F2, F3, M1, M2, M3, r`). -/
structure PatReg where
  node : String → Option (Vec 6)
  dist : String → Option (Vec 8)
  conc : String → Option (Vec 7)

/-- A pattern without loads. -/
def PatReg.empty : PatReg := ⟨fun _ => none, fun _ => none, fun _ => none⟩

/-- Patterns and cases for C10: the loads of each pattern, and for each case the factors of its patterns. -/
structure CaseReg where
  pats : String → Option PatReg
  cases : String → Option (String → Option ℝ)

/-- Change the loads of one existing pattern. -/
def CaseReg.upd (s : CaseReg) (p : String) (g : PatReg → PatReg) : CaseReg :=
  { s with pats := fun q => if q = p then (s.pats p).map g else s.pats q }

/-- C10: the loads of a pattern live with the pattern; a case only remembers one factor per pattern name, that of the
latest `add_case_pattern`. -/
def caseReg : Machine CaseReg where
  init := ⟨fun _ => none, fun _ => none⟩
  edit s
    | .addLoadpattern p => { s with pats := fun q => if q = p then some PatReg.empty else s.pats q }
    | .setNodalLoad p n f => s.upd p fun g => { g with node := fun m => if m = n then some f else g.node m }
    | .setBeamLoadDistributed p b pi pj qi2 qj2 qi3 qj3 ti tj => s.upd p fun g =>
        { g with dist := fun m => if m = b then some ![pi, pj, qi2, qj2, qi3, qj3, ti, tj] else g.dist m }
    | .setBeamLoadConcentrated p b F1 F2 F3 M1 M2 M3 r => s.upd p fun g =>
        { g with conc := fun m => if m = b then some ![F1, F2, F3, M1, M2, M3, r] else g.conc m }
    | .addStaticCase c => { s with cases := fun c' => if c' = c then some (fun _ => none) else s.cases c' }
    | .addModalCase c => { s with cases := fun c' => if c' = c then some (fun _ => none) else s.cases c' }
    | .addCasePattern c p fac => { s with
        cases := fun c' => if c' = c then
          (s.cases c).map (fun g q => if q = p ∧ (s.pats p).isSome then some fac else g q)
        else s.cases c' }
    | _ => s

/-- Equivalent end forces of a registered beam load (`distF` is characterised by C33, `concF` by C34). -/
noncomputable def PatReg.beamF (g : PatReg) (b : String) (l : ℝ) : Vec 12 :=
  (match g.dist b with
    | some v => distF ![v 0, v 2, v 4, v 6, 0, 0, v 1, v 3, v 5, v 7, 0, 0] l
    | none => 0) +
  (match g.conc b with
    | some v => concF v l
    | none => 0)

/-- The load on a node in a case: the sum over the case's pattern names `names` of factor times registered load. -/
noncomputable def CaseReg.nodeLoad (s : CaseReg) (g : String → Option ℝ) (names : List String) (n : String) : Vec 6 :=
  (names.map fun p => (g p).getD 0 • (((s.pats p).bind fun r => r.node n).getD 0)).sum

/-- The equivalent end forces of a beam of length `l` in a case. -/
noncomputable def CaseReg.beamLoad (s : CaseReg) (g : String → Option ℝ) (names : List String) (b : String) (l : ℝ) : Vec 12 :=
  (names.map fun p => (g p).getD 0 • (((s.pats p).map fun r => r.beamF b l).getD 0)).sum

/-- No load pattern name that exists at that moment is created again. -/
def NoRecreate (env : Env) : World → List Call → Prop :=
  AllCalls env (fun w c => ∀ p, c = .addLoadpattern p → w.api.loadpatterns.get? p = none)

end Hyperstatic.Spec
