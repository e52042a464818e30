import Verif.Lemmas.Names
import Verif.Props.StaticsDemo

/-
C136, C137: names carry no meaning; symmetric structures have symmetric answers.
-/

namespace Hyperstatic
open Matrix Spec

/-! ### C136 Names -/

/-- the problem under the new names -/
structure RenamedProblem (ν : Naming) (P P' : Problem) : Prop where
  frame : FrameRenamed ν P.frame P'.frame
  nodes : P'.nodes = P.nodes.map ν.node
  fix : Carried ν.node id P.fix P'.fix
  load : ∀ v, P'.load v = P.load (oldNames ν v)

theorem renamed_problem {ν : Naming} (hν : ν.Distinct) {pre : List Call} {c : String} {P : Problem} (hD : Poses pre c P) :
    ∃ P', Poses (pre.map (renameCall ν)) (ν.case c) P' ∧ RenamedProblem ν P P' := by
  have hB := blueprint_rename hν pre
  have hL := caseReg_rename hν pre
  have hR := inForce_rename (restReg_rename hν pre) c
  rw [← hD.frame] at hB
  rw [← hD.fix] at hR
  obtain ⟨g, names, hc, hl, e⟩ := hD.load
  obtain ⟨g', hc', hg⟩ := hL.cases.some c g hc
  refine ⟨⟨(blueprint.run (pre.map (renameCall ν))).cur, P.nodes.map ν.node, (restReg.run (pre.map (renameCall ν))).cur.inForce (ν.case c),
    (blueprint.run (pre.map (renameCall ν))).cur.caseWork (P.nodes.map ν.node) (caseReg.run (pre.map (renameCall ν))).cur g' (names.map ν.pat)⟩,
    ⟨rfl, ?_, rfl, g', names.map ν.pat, hc', ⟨hl.1.map hν.pat, ?_⟩, rfl⟩, hB, rfl, hR, ?_⟩
  · show P.nodes.map ν.node = _
    rw [nodeReg_rename hν, hD.nodes]
  · intro p
    by_cases hp : ∃ q, ν.pat q = p
    · obtain ⟨q, rfl⟩ := hp
      rw [hg.fwd, List.mem_map_of_injective hν.pat, hl.2]
      simp
    · rw [hg.off p (fun q hq => hp ⟨q, hq⟩)]
      simp only [List.mem_map, Option.isSome_none, Bool.false_eq_true, iff_false]
      rintro ⟨q, _, hq⟩
      exact hp ⟨q, hq⟩
  · intro v
    rw [e]
    exact caseWork_rename hB P.nodes hL hg names v

theorem RenamedProblem.obeys {ν : Naming} {P P' : Problem} (h : RenamedProblem ν P P') {v : State} (hv : Obeys P'.fix v) :
    Obeys P.fix (oldNames ν v) := by
  intro n f hf r hr
  exact hv (ν.node n) f (by rw [h.fix.fwd, hf]; rfl) r hr

theorem RenamedProblem.stable {ν : Naming} {P P' : Problem} (h : RenamedProblem ν P P') (hst : P.frame.Stable P.nodes P.fix) :
    P'.frame.Stable P'.nodes P'.fix := by
  intro v hv h0 m hm
  rw [h.nodes] at hm
  obtain ⟨n, hn, rfl⟩ := List.mem_map.mp hm
  exact hst (oldNames ν v) (h.obeys hv) (by rw [← internal_rename h.frame]; exact h0) n hn

/-- The same calls with other names for nodes, materials, sections, beams, patterns and cases report the same displacements under the new
names. -/
theorem C136_names (env : Env) (henv : env.SolverSound) (ν : Naming) (hν : ν.Distinct) (pre mid mid' : List Call) (hF : PlainFrame env pre)
    (hF' : PlainFrame env (pre.map (renameCall ν))) (c : String) (P : Problem) (hD : Poses pre c P)
    (hst : P.frame.Stable P.nodes P.fix) (u u' : State) (hu : Reports env pre mid c u)
    (hu' : Reports env (pre.map (renameCall ν)) mid' (ν.case c) u') : ∀ n ∈ P.nodes, u' (ν.node n) = u n := by
  obtain ⟨P', hD', hR⟩ := renamed_problem hν hD
  -- a state of the old nodes under the new names
  let new : State → State := fun v => Function.extend ν.node v 0
  have on : ∀ v, oldNames ν (new v) = v := fun v => funext fun n => hν.node.extend_apply v 0 n
  have bwd : ∀ v, Obeys P.fix v → Obeys P'.fix (new v) := by
    intro v hv m f hf r hr
    by_cases hm : ∃ n, ν.node n = m
    · obtain ⟨n, rfl⟩ := hm
      show Function.extend ν.node v 0 (ν.node n) r = 0
      rw [hν.node.extend_apply]
      rw [hR.fix.fwd n, Option.map_id, id] at hf
      exact hv n f hf r hr
    · rw [hR.fix.off m (fun n hn => hm ⟨n, hn⟩)] at hf
      cases hf
  obtain ⟨x, h1, h2, h3⟩ := reports_equilibrium henv hF hD hst hu
  obtain ⟨y, k1, k2, k3⟩ := reports_equilibrium henv hF' hD' (hR.stable hst) hu'
  have := same_answer (hD.sane env) hst (hR.obeys k2) h2 (load := P.load) (fun v hv => by
    have := k3 _ (bwd v hv)
    rw [hR.load, on, internal_rename hR.frame, on] at this
    exact this) h3
  intro n hn
  rw [k1 (ν.node n) (by rw [hR.nodes]; exact List.mem_map_of_mem hn), h1 n hn, ← this n hn]
  rfl

/-- Histories that are plain stay plain under other names. -/
theorem rename_plain {ν : Naming} (hν : ν.Distinct) {pre : List Call} (h : PlainCalls pre) : PlainCalls (pre.map (renameCall ν)) := by
  obtain ⟨h1, h2, h3⟩ := h
  have e1 : ∀ l : List Call, (l.map (renameCall ν)).filterMap addedNode = (l.filterMap addedNode).map ν.node := by
    intro l
    rw [List.filterMap_map, List.map_filterMap]
    congr 1
    funext c
    cases c <;> rfl
  have e2 : ∀ l : List Call, (l.map (renameCall ν)).filterMap addedPattern = (l.filterMap addedPattern).map ν.pat := by
    intro l
    rw [List.filterMap_map, List.map_filterMap]
    congr 1
    funext c
    cases c <;> rfl
  refine ⟨by rw [e1]; exact h1.map hν.node, by rw [e2]; exact h2.map hν.pat, ?_⟩
  intro b n1 n2 n3 n4 s hm
  obtain ⟨c, hc, e⟩ := List.mem_map.mp hm
  cases c <;> simp only [renameCall, reduceCtorEq] at e
  exact h3 _ _ _ _ _ _ hc

/-! ### C137 Symmetry -/

theorem acceptable_swap {p q : V3} (h : Acceptable p q) : Acceptable q p := by
  unfold Acceptable at *
  rw [abs_sub_comm p.x, abs_sub_comm p.y, abs_sub_comm p.z]
  exact h

/-- A symmetric structure under symmetric loads has symmetric displacements: paired nodes move as mirror images of each other. -/
theorem C137_symmetric (env : Env) (henv : env.SolverSound) (pre mid : List Call) (hF : PlainFrame env pre) (c : String) (P : Problem)
    (hD : Poses pre c P) (hst : P.frame.Stable P.nodes P.fix) (m : V3) (hm : Signs m) (σ τ : String → String) (hY : Symmetric m σ τ P)
    (u : State) (hu : Reports env pre mid c u) : ∀ n ∈ P.nodes, u (σ n) = flipSix m (u n) := by
  have hS := hD.sane env
  obtain ⟨x, h1, h2, h3⟩ := reports_equilibrium henv hF hD hst hu
  let S : State → State := fun v n => flipSix m (v (σ n))
  have SS : ∀ v, S (S v) = v := fun v => funext fun n => by
    show flipSix m (flipSix m (v (σ (σ n)))) = v n
    rw [flipSix_inv hm, hY.pairs]
  have ob : ∀ v, Obeys P.fix v → Obeys P.fix (S v) := by
    intro v hv
    rw [obeys_iff] at hv ⊢
    intro n r hr
    exact (flipSix_comp hm _ r).mpr (hv (σ n) r ((hY.fix n r).mpr hr))
  have term : ∀ v w : State, ∀ b ∈ P.frame.beams, P.frame.term (S v) (S w) (τ b) = P.frame.term v w b := by
    intro v w b hb
    obtain ⟨g, hg⟩ := hS.term hb
    obtain ⟨cs, hcs⟩ := hS.ok b g hg
    rw [term_some hg]
    have key : ∀ {cs' : Csys}, lineCsys (reflect m g.p) (reflect m g.q) = .ok cs' →
        (⟨σ g.start, σ g.stop, reflect m g.p, reflect m g.q, g.sec⟩ : GivenBeam).internal (S v) (S w) = g.internal v w := by
      intro cs' hcs'
      rw [← internal_flip hm hcs (show lineCsys (flipBeam m g).p (flipBeam m g).q = _ from hcs') v w]
      have e : ∀ z : State, (⟨σ g.start, σ g.stop, reflect m g.p, reflect m g.q, g.sec⟩ : GivenBeam).ends (S z) =
          (flipBeam m g).ends (fun n => flipSix m (z n)) := by
        intro z
        unfold GivenBeam.ends
        show localEnds _ (flipSix m (z (σ (σ g.start)))) (flipSix m (z (σ (σ g.stop)))) = _
        rw [hY.pairs, hY.pairs]
        rfl
      rw [internal_eq (g := ⟨σ g.start, σ g.stop, reflect m g.p, reflect m g.q, g.sec⟩) hcs', internal_eq (g := flipBeam m g) hcs', e, e]
      rfl
    rcases hY.beam b g hg with h | h
    · obtain ⟨cs', hcs'⟩ := hS.ok _ _ h
      rw [term_some h]
      exact key hcs'
    · obtain ⟨cs', hcs'⟩ := hS.ok _ _ h
      rw [term_some h]
      obtain ⟨cs'', hcs''⟩ := (lineCsys_accept _ _).mpr (acceptable_swap (lineCsys_acceptable hcs'))
      rw [← key hcs'']
      exact internal_swap (g := ⟨σ g.start, σ g.stop, reflect m g.p, reflect m g.q, g.sec⟩) hcs'' hcs' (S v) (S w)
  have ii : ∀ v w, P.frame.internal (S v) (S w) = P.frame.internal v w := by
    intro v w
    have hperm : (P.frame.beams.map τ).Perm P.frame.beams := by
      apply (List.perm_ext_iff_of_nodup (hS.nodup.map (fun a b hab => by rw [← hY.bpairs a, hab, hY.bpairs])) hS.nodup).mpr
      have hmem : ∀ b ∈ P.frame.beams, τ b ∈ P.frame.beams := by
        intro b hb
        obtain ⟨g, hg⟩ := hS.term hb
        rcases hY.beam b g hg with h | h <;> exact (hS.mem _).mpr (by rw [h]; rfl)
      intro b
      constructor
      · intro hb
        obtain ⟨k, hk, rfl⟩ := List.mem_map.mp hb
        exact hmem k hk
      · intro hb
        exact List.mem_map.mpr ⟨τ b, hmem b hb, hY.bpairs b⟩
    show (P.frame.beams.map fun b => P.frame.term (S v) (S w) b).sum = (P.frame.beams.map fun b => P.frame.term v w b).sum
    rw [← (hperm.map _).sum_eq, List.map_map]
    congr 1
    apply List.map_congr_left
    intro b hb
    exact term v w b hb
  have := same_answer hS hst (ob x h2) h2 (load := P.load) (fun v hv => by
    rw [← SS v, ii, h3 _ (ob v hv)]
    exact (hY.load (S v)).symm) h3
  intro n hn
  have e := this (σ n) (hY.nodes n hn)
  have e' : x (σ n) = flipSix m (x (σ (σ n))) := e.symm
  rw [hY.pairs] at e'
  rw [h1 _ (hY.nodes n hn), h1 n hn, e']

end Hyperstatic
