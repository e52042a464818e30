import Verif.Lemmas.Grasshopper

/-
C109, C110: merging of points by the assembling component for Grasshopper.
-/

namespace Hyperstatic
open Spec

theorem mergeDrawing_nodes (d : Drawing) : ∃ l l', (placeSpecial d.tol [] (d.restraints.map (·.node) ++ d.loads.map (·.node))).1 = l ∧
    (mergeDrawing d).nodes = l ++ l' ∧ (∀ n ∈ l, n ∈ d.restraints.map (·.node) ++ d.loads.map (·.node)) ∧
    ∀ n ∈ l', ∃ b ∈ d.beams, n.point = b.start ∨ n.point = b.stop := by
  obtain ⟨l, hl, hm⟩ := placeSpecial_prefix d.tol [] (d.restraints.map (·.node) ++ d.loads.map (·.node))
  obtain ⟨l', hl', hm'⟩ := placeBeams_prefix d.tol d.beams ((placeSpecial d.tol [] (d.restraints.map (·.node) ++ d.loads.map (·.node))).1, [])
  refine ⟨_, l', rfl, hl', ?_, hm'⟩
  rw [hl]
  simpa using hm

/-! ### C109 Merged nodes -/

/-- Different nodes of the assembled model lie at least the merging tolerance apart. -/
def C109_claim : Prop := ∀ d : Drawing, 0 < d.tol → (mergeDrawing d).nodes.Pairwise fun m n => d.tol ≤ V3.norm (n.point - m.point)

/-- Proved when no beam is shorter than the tolerance.  (Missing: shorter beams, for which it is false.) -/
theorem C109_apart_partial (d : Drawing) (hs : NoShortBeam d) :
    (mergeDrawing d).nodes.Pairwise fun m n => d.tol ≤ V3.norm (n.point - m.point) :=
  placeBeams_apart d.beams _ hs (placeSpecial_apart [] _ List.Pairwise.nil)

/-- No points are invented: every node of the assembled model is a drawn point. -/
theorem C109_drawn (d : Drawing) : ∀ n ∈ (mergeDrawing d).nodes, n.point ∈ drawnPoints d := by
  obtain ⟨l, l', _, e, h, h'⟩ := mergeDrawing_nodes d
  intro n hn
  rw [e] at hn
  unfold drawnPoints
  rcases List.mem_append.mp hn with hn | hn
  · have := h n hn
    simp only [List.mem_append, List.mem_map] at this ⊢
    rcases this with ⟨r, hr, rfl⟩ | ⟨r, hr, rfl⟩
    · exact Or.inl (Or.inl ⟨r, hr, rfl⟩)
    · exact Or.inl (Or.inr ⟨r, hr, rfl⟩)
  · obtain ⟨b, hb, hp⟩ := h' n hn
    apply List.mem_append_right
    rw [List.mem_flatMap]
    exact ⟨b, hb, by rcases hp with hp | hp <;> simp [hp]⟩

/-- a material and a section as drawn by hand -/
def ghSteel : GhMaterial := ⟨1, "steel", 7849, 200000000000, 0.3, some 0⟩
/-- a general section of it -/
def ghSec : GhSection := generalSectionComponent 2 "s" ghSteel 1 1 1 1 1 1

theorem norm_along (x y : ℝ) : V3.norm ((⟨x, 0, 0⟩ : V3) - ⟨y, 0, 0⟩) = |x - y| := by
  show Real.sqrt ((x - y) * (x - y) + (0 - 0) * (0 - 0) + (0 - 0) * (0 - 0)) = _
  rw [show (x - y) * (x - y) + (0 - 0) * (0 - 0) + (0 - 0) * (0 - 0) = (x - y) ^ 2 by ring, Real.sqrt_sq_eq_abs]

/-- A beam of length 1 with a tolerance of 2 gives two nodes at a distance of 1. -/
theorem C109_false : ¬ C109_claim := by
  intro h
  have := h ⟨"Meters", "N", 2, [], [], [⟨"0", ⟨0, 0, 0⟩, ⟨1, 0, 0⟩, ghSec⟩]⟩ (by norm_num)
  have e : (mergeDrawing ⟨"Meters", "N", 2, [], [], [⟨"0", ⟨0, 0, 0⟩, ⟨1, 0, 0⟩, ghSec⟩]⟩).nodes =
      [⟨"gen_" ++ toString 0, ⟨0, 0, 0⟩⟩, ⟨"gen_" ++ toString 1, ⟨1, 0, 0⟩⟩] := rfl
  rw [e] at this
  simp only [List.pairwise_cons, List.mem_singleton, forall_eq] at this
  have h1 := this.1
  rw [norm_along] at h1
  norm_num at h1

/-! ### C110 Ends, loads and supports find their nodes -/

/-- Every end of a drawn beam is attached to the first node nearer than the tolerance. -/
def C110_claim : Prop := ∀ d : Drawing, 0 < d.tol → ∀ b ∈ d.beams, ∃ i j, (mergeDrawing d).conn.get? b.name = some (i, j) ∧
  FirstNear d.tol b.start (mergeDrawing d).nodes i ∧ FirstNear d.tol b.stop (mergeDrawing d).nodes j

/-- Proved when the beams have different names and none is shorter than the tolerance.  (Missing: beams of several beam components, whose
names coincide, for which it is false.) -/
theorem C110_ends_partial (d : Drawing) (ht : 0 < d.tol) (hs : NoShortBeam d) (hn : BeamNamesDiffer d) :
    ∀ b ∈ d.beams, ∃ i j, (mergeDrawing d).conn.get? b.name = some (i, j) ∧
      FirstNear d.tol b.start (mergeDrawing d).nodes i ∧ FirstNear d.tol b.stop (mergeDrawing d).nodes j := by
  intro b hb
  obtain ⟨i, j, h1, h2, h3⟩ := placeBeams_ends ht d.beams
    ((placeSpecial d.tol [] (d.restraints.map (·.node) ++ d.loads.map (·.node))).1, []) hs hn b hb
  exact ⟨i, j, h1, findPt_some.mp h2, findPt_some.mp h3⟩

theorem firstNear_unique {tol : ℝ} {p : V3} {nodes : List GhNode} {i j : ℕ} (hi : FirstNear tol p nodes i) (hj : FirstNear tol p nodes j) :
    i = j := by
  have h1 := findPt_some.mpr hi
  rw [findPt_some.mpr hj] at h1
  exact (Option.some.inj h1).symm

/-- Beams drawn from the same point share a node (here: the end of one is the start of the other). -/
theorem C110_shared_partial (d : Drawing) (ht : 0 < d.tol) (hs : NoShortBeam d) (hn : BeamNamesDiffer d) (a b : GhBeam) (ha : a ∈ d.beams)
    (hb : b ∈ d.beams) (hp : a.stop = b.start) :
    ∃ i j k, (mergeDrawing d).conn.get? a.name = some (i, j) ∧ (mergeDrawing d).conn.get? b.name = some (j, k) := by
  obtain ⟨i, j, h1, _, h3⟩ := C110_ends_partial d ht hs hn a ha
  obtain ⟨j', k, h1', h2', _⟩ := C110_ends_partial d ht hs hn b hb
  rw [hp] at h3
  rw [firstNear_unique h2' h3] at h1'
  exact ⟨i, j, k, h1, h1'⟩

theorem forall₂_zip {α : Type} {R : GhNode → GhNode → Prop} (nd : α → GhNode) (up : α → GhNode → α) :
    ∀ (l : List α) (ns : List GhNode), List.Forall₂ R (l.map nd) ns →
      List.Forall₂ (fun a b => ∃ n, R (nd a) n ∧ b = up a n) l (List.zipWith up l ns)
  | [], [], _ => List.Forall₂.nil
  | a :: l, n :: ns, h => by
      rw [List.map_cons, List.forall₂_cons] at h
      exact List.Forall₂.cons ⟨n, h.1, rfl⟩ (forall₂_zip nd up l ns h.2)
  | [], _ :: _, h => by cases h
  | _ :: _, [], h => by cases h

theorem special_split (d : Drawing) (ht : 0 < d.tol) :
    List.Forall₂ (NodeFor d.tol (mergeDrawing d).nodes) (d.restraints.map (·.node))
      ((placeSpecial d.tol [] (d.restraints.map (·.node) ++ d.loads.map (·.node))).2.take d.restraints.length) ∧
    List.Forall₂ (NodeFor d.tol (mergeDrawing d).nodes) (d.loads.map (·.node))
      ((placeSpecial d.tol [] (d.restraints.map (·.node) ++ d.loads.map (·.node))).2.drop d.restraints.length) := by
  obtain ⟨l, l', e, e', _, _⟩ := mergeDrawing_nodes d
  have h := placeSpecial_found ht [] (d.restraints.map (·.node) ++ d.loads.map (·.node)) l'
  rw [e, ← e'] at h
  constructor
  · have := List.forall₂_take d.restraints.length h
    rwa [List.take_left' (by simp)] at this
  · have := List.forall₂_drop d.restraints.length h
    rwa [List.drop_left' (by simp)] at this

/-- Every load is written for the first node nearer than the tolerance to where it was drawn, with its own components; likewise every
restraint. -/
theorem C110_special (d : Drawing) (ht : 0 < d.tol) :
    List.Forall₂ (fun l l' : GhLoad => l'.f = l.f ∧ ∃ i, FirstNear d.tol l.node.point (mergeDrawing d).nodes i ∧
      (mergeDrawing d).nodes[i]? = some l'.node) d.loads (mergeDrawing d).loads ∧
    List.Forall₂ (fun r r' : GhRestraint => r'.flags = r.flags ∧ ∃ i, FirstNear d.tol r.node.point (mergeDrawing d).nodes i ∧
      (mergeDrawing d).nodes[i]? = some r'.node) d.restraints (mergeDrawing d).restraints := by
  obtain ⟨h1, h2⟩ := special_split d ht
  constructor
  · refine List.Forall₂.imp ?_ (forall₂_zip (fun l : GhLoad => l.node) (fun l n => { l with node := n }) d.loads _ h2)
    rintro l _ ⟨n, ⟨i, hi, hn⟩, rfl⟩
    exact ⟨rfl, i, findPt_some.mp hi, hn⟩
  · refine List.Forall₂.imp ?_ (forall₂_zip (fun l : GhRestraint => l.node) (fun l n => { l with node := n }) d.restraints _ h1)
    rintro l _ ⟨n, ⟨i, hi, hn⟩, rfl⟩
    exact ⟨rfl, i, findPt_some.mp hi, hn⟩

/-- Two beam components with one curve each: both beams are called "0", and the first is attached to the nodes of the second. -/
theorem C110_false : ¬ C110_claim := by
  intro h
  let b1 : GhBeam := ⟨"0", ⟨0, 0, 0⟩, ⟨2, 0, 0⟩, ghSec⟩
  let b2 : GhBeam := ⟨"0", ⟨4, 0, 0⟩, ⟨6, 0, 0⟩, ghSec⟩
  let d : Drawing := ⟨"Meters", "N", 1, [], [], beamComponent [(⟨0, 0, 0⟩, ⟨2, 0, 0⟩)] ghSec ++ beamComponent [(⟨4, 0, 0⟩, ⟨6, 0, 0⟩)] ghSec⟩
  obtain ⟨i, j, h1, ⟨⟨n, hn, h2⟩, _⟩, _⟩ := h d (by norm_num [d]) b1 List.mem_cons_self
  obtain ⟨i', j', h1', h2', _⟩ := placeBeam_ends (tol := 1) (by norm_num) (placeBeam 1 ([], []) b1) b2
    (by show (1 : ℝ) ≤ V3.norm ((⟨4, 0, 0⟩ : V3) - ⟨6, 0, 0⟩); rw [norm_along]; norm_num)
  have e : (mergeDrawing d).conn.get? "0" = some (i', j') := by
    show Dict.get? (placeBeam 1 (placeBeam 1 ([], []) b1) b2).2 "0" = _
    rw [h1', Dict.get?_set, if_pos rfl]
  have e2 : some (i', j') = some (i, j) := e.symm.trans h1
  simp only [Option.some.injEq, Prod.mk.injEq] at e2
  rw [e2.1] at h2'
  obtain ⟨⟨n', hn', h3⟩, _⟩ := findPt_some.mp h2'
  have : n = n' := Option.some.inj (hn.symm.trans hn')
  subst this
  have hm := C109_drawn d n (List.mem_of_getElem? hn)
  have hx : n.point = ⟨0, 0, 0⟩ ∨ n.point = ⟨2, 0, 0⟩ ∨ n.point = ⟨4, 0, 0⟩ ∨ n.point = ⟨6, 0, 0⟩ := by
    simpa [d, drawnPoints, beamComponent] using hm
  change V3.norm ((⟨0, 0, 0⟩ : V3) - n.point) < 1 at h2
  change V3.norm ((⟨4, 0, 0⟩ : V3) - n.point) < 1 at h3
  rcases hx with hx | hx | hx | hx <;> rw [hx, norm_along] at h2 h3 <;> revert h2 h3 <;> norm_num

/-- a drawing of two beams that meet, with a support and a load -/
noncomputable def ghDemo : Drawing where
  lengthUnit := "Meters"
  forceUnit := "N"
  tol := 1 / 10
  loads := [⟨⟨"2", ⟨4, 0, 0⟩⟩, ![0, 0, -1000, 0, 0, 0]⟩]
  restraints := restraintComponent (nodeComponent [⟨0, 0, 0⟩]) fun _ => true
  beams := beamComponent [(⟨0, 0, 0⟩, ⟨2, 0, 0⟩), (⟨2, 0, 0⟩, ⟨4, 0, 0⟩)] ghSec

theorem ghDemo_short : NoShortBeam ghDemo := by
  intro b hb
  simp only [ghDemo, beamComponent, List.zipIdx_cons, List.zipIdx_nil, List.map_cons, List.map_nil, List.mem_cons, List.not_mem_nil, or_false] at hb ⊢
  rcases hb with rfl | rfl
  · rw [norm_along]; norm_num
  · rw [norm_along]; norm_num

theorem ghDemo_names : BeamNamesDiffer ghDemo := by
  show ["0", "1"].Nodup
  decide

/-- the two beams of the demonstration share the node at (2,0,0) -/
example : ∃ i j k, (mergeDrawing ghDemo).conn.get? "0" = some (i, j) ∧ (mergeDrawing ghDemo).conn.get? "1" = some (j, k) :=
  C110_shared_partial ghDemo (by norm_num [ghDemo]) ghDemo_short ghDemo_names ⟨"0", ⟨0, 0, 0⟩, ⟨2, 0, 0⟩, ghSec⟩ ⟨"1", ⟨2, 0, 0⟩, ⟨4, 0, 0⟩, ghSec⟩
    List.mem_cons_self (List.mem_cons_of_mem _ List.mem_cons_self) rfl

end Hyperstatic
