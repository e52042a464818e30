import Verif.Model.CaseObject
import Verif.Spec.Registry

/-
A ledger of pattern objects and one case object (C163).
-/

namespace Hyperstatic.Spec

/-- a pattern object: its name, its loads, its prescribed displacements -/
structure LedgerPat where
  name : String
  loads : PatReg
  disp : String → Option (Vec 6)

/-- all patterns created, and for the case: under each name the pattern that takes part with its curve, and the factor -/
structure Ledger where
  pats : List LedgerPat
  part : String → Option (ℕ × List ℝ)
  factor : String → Option ℝ

/-- each call is entered: the latest load of a place, the latest factor of a name -/
def Ledger.enter (s : Ledger) : CaseOp → Ledger
  | .newPattern n => { s with pats := s.pats ++ [⟨n, PatReg.empty, fun _ => none⟩] }
  | .nodalLoad r n f => { s with pats := s.pats.modify r fun p =>
      { p with loads := { p.loads with node := fun m => if m = n then some f else p.loads.node m } } }
  | .nodalDisp r n u => { s with pats := s.pats.modify r fun p => { p with disp := fun m => if m = n then some u else p.disp m } }
  | .lineLoad r b pi pj qi2 qj2 qi3 qj3 ti tj => { s with pats := s.pats.modify r fun p =>
      { p with loads := { p.loads with dist := fun m => if m = b then some ![pi, pj, qi2, qj2, qi3, qj3, ti, tj] else p.loads.dist m } } }
  | .pointLoad r b F1 F2 F3 M1 M2 M3 ra => { s with pats := s.pats.modify r fun p =>
      { p with loads := { p.loads with conc := fun m => if m = b then some ![F1, F2, F3, M1, M2, M3, ra] else p.loads.conc m } } }
  | .add r v c => match s.pats[r]? with
    | some p => { s with part := fun m => if m = p.name then some (r, c.getD [1, 1]) else s.part m
                         factor := fun m => if m = p.name then some v else s.factor m }
    | none => s
  | .setFactor n v => { s with factor := fun m => if m = n then some v else s.factor m }
  | .hold _ _ => s

/-- the ledger of a program -/
def ledger (ops : List CaseOp) : Ledger := ops.foldl Ledger.enter ⟨[], fun _ => none, fun _ => none⟩

/-- factor, pattern and curve under a name -/
def Ledger.entry (s : Ledger) (n : String) : Option (ℝ × LedgerPat × List ℝ) :=
  match s.factor n, s.part n with
  | some v, some (r, c) => (s.pats[r]?).map fun p => (v, p, c)
  | _, _ => none

/-- the load on a node at an instant: factor times load times value of the curve, summed over the names -/
def Ledger.nodeLoad (s : Ledger) (names : List String) (node : String) (t : ℕ) : Vec 6 :=
  (names.map fun q => match s.entry q with
    | some (v, p, c) => (v * c.getD t 0) • (p.loads.node node).getD 0
    | none => 0).sum

/-- the end forces of the loads on a beam of length `l`: factor times load, summed over the names -/
noncomputable def Ledger.beamLoad (s : Ledger) (names : List String) (beam : String) (l : ℝ) : Vec 12 :=
  (names.map fun q => match s.entry q with
    | some (v, p, _) => v • p.loads.beamF beam l
    | none => 0).sum

end Hyperstatic.Spec
