import Verif.Props.Determinate
import Verif.Props.FrameLawsDemo

/-
A concrete case for C158 and C159: a post with a load at its top, and the same post with an arm that carries nothing.
-/

namespace Hyperstatic
open Matrix Spec

/-- a post loaded at its top, with an arm at its top -/
noncomputable def armCalls : List Call :=
  [.addNode "A" 0 0 0, .addNode "B" 0 0 3, .addSimpleBeam "b" "A" "B" 200 (3 / 10) 1 2 3 4 0, .setNodalRestraint "A" (fun _ => true),
    .addNode "C" 4 0 3, .addSimpleBeam "d" "B" "C" 100 (1 / 5) 2 2 2 2 0,
    .addLoadpattern "P", .setNodalLoad "P" "B" ![0, 6, 0, 0, 0, 0], .addStaticCase "X", .addCasePattern "X" "P" 1]

noncomputable def armProblem : Problem :=
  ⟨(blueprint.run armCalls).cur, (nodeReg.run armCalls).cur.names, (fun n => if n = "A" then some (fun _ => true) else none),
    (blueprint.run armCalls).cur.caseWork (nodeReg.run armCalls).cur.names (caseReg.run armCalls).cur (fun k => if k = "P" then some 1 else none) ["P"]⟩

theorem acc_arm : Acceptable ⟨0, 0, 3⟩ ⟨4, 0, 3⟩ := by right; norm_num [absTol]

theorem arm_case : (caseReg.run armCalls).cur.cases "X" = some (fun k => if k = "P" then some 1 else none) := by
  simp [armCalls, Machine.run, Machine.step, caseReg, CaseReg.upd]

theorem lists_P : Lists ["P"] (fun k => if k = "P" then some (1:ℝ) else none) :=
  ⟨by simp, by intro k; by_cases h : k = "P" <;> simp [h]⟩

theorem arm_poses : Poses armCalls "X" armProblem := by
  refine ⟨rfl, rfl, ?_, _, _, arm_case, lists_P, rfl⟩
  simp only [armProblem, armCalls, Machine.run, Machine.step, restReg, RestReg.inForce, List.foldl_cons, List.foldl_nil]
  simp

theorem arm_nodes : armProblem.nodes = ["A", "B", "C"] := by
  simp [armProblem, armCalls, Machine.run, Machine.step, nodeReg]

theorem arm_beams : armProblem.frame.beams = ["b", "d"] ∧ ∀ k, armProblem.frame.beam k =
    if k = "d" then some ⟨"B", "C", ⟨0, 0, 3⟩, ⟨4, 0, 3⟩, ⟨⟨0, 100, 1 / 5⟩, 2, 2, 2, 2⟩⟩ else
    if k = "b" then some (cantileverBeam ⟨0, 0, 0⟩ ⟨0, 0, 3⟩ 200 (3 / 10) 1 2 3 4) else none := by
  constructor
  · simp [armProblem, armCalls, Machine.run, Machine.step, blueprint, Blueprint.addBeam, sectionCall, acc_col, acc_arm]
  · intro k
    simp [armProblem, armCalls, Machine.run, Machine.step, blueprint, Blueprint.addBeam, sectionCall, acc_col, acc_arm, cantileverBeam]

theorem arm_locs (n : String) : armProblem.frame.loc n =
    if n = "C" then some ⟨4, 0, 3⟩ else if n = "B" then some ⟨0, 0, 3⟩ else if n = "A" then some ⟨0, 0, 0⟩ else none := by
  simp [armProblem, armCalls, Machine.run, Machine.step, blueprint, Blueprint.addBeam, sectionCall, acc_col, acc_arm]

theorem arm_pats : (caseReg.run armCalls).cur.pats "P" =
    some ⟨fun n => if n = "B" then some ![0, 6, 0, 0, 0, 0] else none, fun _ => none, fun _ => none⟩ := by
  simp [armCalls, Machine.run, Machine.step, caseReg, CaseReg.upd, PatReg.empty]

theorem arm_load (v : State) : armProblem.load v = ![0, 6, 0, 0, 0, 0] ⬝ᵥ v "B" := by
  have hb := arm_beams
  have hn := arm_nodes
  simp only [armProblem] at hb hn
  simp only [armProblem, Blueprint.caseWork, Blueprint.patternWork, hn, List.map_cons, List.map_nil, arm_pats, hb.1, hb.2,
    Option.elim_some]
  simp

theorem arm_positive : armProblem.frame.Positive := by
  intro k g hg
  rw [arm_beams.2] at hg
  by_cases hd : k = "d"
  · rw [if_pos hd] at hg; cases hg; norm_num [GivenSec.Positive]
  · rw [if_neg hd] at hg
    by_cases hb : k = "b"
    · rw [if_pos hb] at hg; cases hg; norm_num [GivenSec.Positive, cantileverBeam]
    · rw [if_neg hb] at hg; cases hg

theorem arm_stable : armProblem.frame.Stable armProblem.nodes armProblem.fix := by
  apply grounded_stable (arm_poses.sane idealEnv) arm_positive
  have hA : Clamped armProblem.fix "A" := ⟨fun _ => true, by simp [armProblem], fun _ => rfl⟩
  have hAB : Relation.ReflTransGen armProblem.frame.Joined "B" "A" :=
    Relation.ReflTransGen.single ⟨"b", _, (arm_beams.2 "b").trans rfl, Or.inr ⟨rfl, rfl⟩⟩
  intro n hn
  rw [arm_nodes] at hn
  simp only [List.mem_cons, List.not_mem_nil, or_false] at hn
  rcases hn with rfl | rfl | rfl
  · exact ⟨"A", hA, Relation.ReflTransGen.refl⟩
  · exact ⟨"A", hA, hAB⟩
  · exact ⟨"A", hA, Relation.ReflTransGen.head ⟨"d", _, (arm_beams.2 "d").trans rfl, Or.inr ⟨rfl, rfl⟩⟩ hAB⟩

theorem arm_plain : PlainFrame idealEnv armCalls :=
  plainFrame_of_calls _ (by simp [PlainCalls, armCalls, addedNode, addedPattern, List.filterMap_cons])

theorem arm_reports : ∃ u, Reports idealEnv armCalls [] "X" u := by
  refine stable_solved idealEnv idealEnv_sound _ arm_plain "X" _ arm_poses arm_positive arm_stable ?_ ⟨"B", by rw [arm_nodes]; simp, 0, ?_⟩
  · intro own ho n f hn
    simp only [armCalls, Machine.run, Machine.step, restReg, List.foldl_cons, List.foldl_nil] at ho
    simp at ho
    subst ho
    cases hn
  · intro f hf
    simp [armProblem] at hf

/-- the post without the arm -/
noncomputable abbrev barePost : Problem := cantileverProblem ⟨0, 0, 0⟩ ⟨0, 0, 3⟩ 200 (3 / 10) 1 2 3 4 ![0, 6, 0, 0, 0, 0] 0 0 "P"

theorem arm_branched : Branched barePost armProblem "B" where
  root := by rw [cantilever_names]; simp
  nodes := by
    intro n hn
    rw [cantilever_names] at hn
    rw [arm_nodes]
    simp only [List.mem_cons, List.not_mem_nil, or_false] at hn ⊢
    rcases hn with h | h
    · exact Or.inl h
    · exact Or.inr (Or.inl h)
  beam := by
    intro b g hg
    rw [cantilever_beam_of _ _ _ _ _ _ _ _ _ acc_col] at hg
    by_cases hb : b = "b"
    · rw [if_pos hb] at hg
      rw [arm_beams.2, hb]
      exact hg
    · rw [if_neg hb] at hg; cases hg
  apart := by
    intro b g hg hg'
    rw [cantilever_beam_of _ _ _ _ _ _ _ _ _ acc_col] at hg
    rw [arm_beams.2] at hg'
    by_cases hb : b = "b"
    · rw [if_pos hb] at hg; cases hg
    · rw [if_neg hb] at hg'
      by_cases hd : b = "d"
      · rw [if_pos hd] at hg'
        cases hg'
        rw [cantilever_names]
        simp
      · rw [if_neg hd] at hg'; cases hg'
  fix := fun _ _ => rfl
  free := by
    rintro n r hn ⟨f, hf, _⟩
    apply hn
    rw [cantilever_names]
    by_cases hA : n = "A"
    · simp [hA]
    · simp [armProblem, hA] at hf
  load := by
    intro v
    rw [arm_load, (cantilever_load _ _ _ _ _ _ _ _ _ _ _ acc_col _).1]

/-- The hypotheses of C159 hold, and the end of the arm goes with the top of the post: it moves sideways by as much, and turns by as much. -/
example : ∃ u, Reports idealEnv armCalls [] "X" u ∧ u "C" 1 = u "B" 1 + 4 * u "B" 5 ∧ u "C" 3 = u "B" 3 := by
  obtain ⟨u, hu⟩ := arm_reports
  obtain ⟨w, hw⟩ := cantilever_demo ⟨0, 0, 0⟩ ⟨0, 0, 3⟩ 200 (3 / 10) 1 2 3 4 ![0, 6, 0, 0, 0, 0] 0 0 acc_col
    (by norm_num [GivenSec.Positive, cantileverBeam]) (cantilever_cases _ _ _ _ _ _ _ _ _ _ _).1
  have := (C159_branch idealEnv idealEnv_sound _ _ _ _ (plainFrame_of_calls _ (cantilever_plain _ _ _ _ _ _ _ _ _ _ _)) arm_plain "X" "X" _ _
    (cantilever_poses _ _ _ _ _ _ _ _ _ _ _ (cantilever_cases _ _ _ _ _ _ _ _ _ _ _).1) arm_poses arm_stable "B" arm_branched w u hw hu).2 "C"
    (by rw [arm_nodes]; simp) (by rw [cantilever_names]; simp)
  refine ⟨u, hu, ?_⟩
  unfold Blueprint.at at this
  rw [arm_locs, arm_locs] at this
  constructor
  · rw [this]; simp [rigidlyWith, V3.cross, Spec.trans, Spec.rot]; ring
  · rw [this]; simp [rigidlyWith]

/-- A structure held at one node only, in all its components, has determinate supports. -/
theorem clamp_determinate {P : Problem} (hn : P.nodes.Nodup) {a : String} (ha : a ∈ P.nodes) (h : ∀ n r, SupportAt P n r → n = a) : Determinate P := by
  intro R hR hf hm
  have hz : ∀ n, n ≠ a → R n = 0 := by
    intro n hne
    funext r
    by_contra h0
    exact hne (h n r (hR n r h0))
  have single : ∀ f : String → ℝ, (∀ n, n ≠ a → f n = 0) → (P.nodes.map f).sum = f a := by
    intro f hf
    rw [← List.sum_toFinset f hn]
    exact Finset.sum_eq_single a (fun b _ hb => hf b hb) (fun hx => absurd (List.mem_toFinset.mpr ha) hx)
  have f1 := congrArg V3.x hf
  have f2 := congrArg V3.y hf
  have f3 := congrArg V3.z hf
  have m1 := congrArg V3.x hm
  have m2 := congrArg V3.y hm
  have m3 := congrArg V3.z hm
  simp only [forceSum, momentSum] at f1 f2 f3 m1 m2 m3
  rw [single _ (fun n hne => by rw [hz n hne]; rfl)] at f1 f2 f3
  have hmz : ∀ n, n ≠ a → ((P.frame.at n - ⟨0, 0, 0⟩).cross (Spec.trans (R n)) + Spec.rot (R n)) = 0 := by
    intro n hne
    rw [hz n hne]
    ext <;> simp [V3.cross, Spec.trans, Spec.rot]
  rw [single _ (fun n hne => by rw [hmz n hne]; rfl)] at m1 m2 m3
  have e0 : R a 0 = 0 := f1
  have e1 : R a 1 = 0 := f2
  have e2 : R a 2 = 0 := f3
  simp [V3.cross, Spec.trans, Spec.rot, e0, e1, e2] at m1 m2 m3
  intro n
  by_cases hne : n = a
  · subst hne
    funext r
    fin_cases r <;> simp [*]
  · exact hz n hne

theorem post_determinate : Determinate barePost := by
  apply clamp_determinate (a := "A") (by rw [cantilever_names]; decide) (by rw [cantilever_names]; simp)
  rintro n r ⟨_, f, hf, _⟩
  by_contra hne
  simp [cantileverProblem, hne] at hf

theorem post_locs (n : String) : barePost.frame.loc n = if n = "B" then some ⟨0, 0, 3⟩ else if n = "A" then some ⟨0, 0, 0⟩ else none := by
  simp [cantileverProblem, cantileverCalls, Machine.run, Machine.step, blueprint, Blueprint.addBeam, sectionCall, acc_col]

theorem post_arm_supports : SameSupports barePost armProblem where
  same := by
    intro n r
    unfold SupportAt
    rw [cantilever_names, arm_nodes]
    constructor
    · rintro ⟨h1, h2⟩
      exact ⟨by simp only [List.mem_cons] at h1 ⊢; tauto, h2⟩
    · rintro ⟨_, h2⟩
      refine ⟨?_, h2⟩
      obtain ⟨f, hf, _⟩ := h2
      by_cases hA : n = "A"
      · simp [hA]
      · simp [armProblem, hA] at hf
  place := by
    rintro n r ⟨_, f, hf, _⟩
    have hA : n = "A" := by
      by_contra hA
      simp [cantileverProblem, hA] at hf
    subst hA
    rw [arm_locs, post_locs]
    simp

/-- The hypotheses of C158 hold for the post and the post with the arm: the foot is held by the same forces. -/
example : ∃ u u' R R', Reports idealEnv (cantileverCalls ⟨0, 0, 0⟩ ⟨0, 0, 3⟩ 200 (3 / 10) 1 2 3 4 ![0, 6, 0, 0, 0, 0] 0 0) [] "X" u ∧
    Reports idealEnv armCalls [] "X" u' ∧ SupportForces barePost u R ∧ SupportForces armProblem u' R' ∧ R' "A" = R "A" := by
  obtain ⟨u', hu'⟩ := arm_reports
  obtain ⟨u, hu⟩ := cantilever_demo ⟨0, 0, 0⟩ ⟨0, 0, 3⟩ 200 (3 / 10) 1 2 3 4 ![0, 6, 0, 0, 0, 0] 0 0 acc_col
    (by norm_num [GivenSec.Positive, cantileverBeam]) (cantilever_cases _ _ _ _ _ _ _ _ _ _ _).1
  have hpl := plainFrame_of_calls idealEnv (cantilever_plain ⟨0, 0, 0⟩ ⟨0, 0, 3⟩ 200 (3 / 10) 1 2 3 4 ![0, 6, 0, 0, 0, 0] 0 0)
  have hpo := cantilever_poses ⟨0, 0, 0⟩ ⟨0, 0, 3⟩ 200 (3 / 10) 1 2 3 4 ![0, 6, 0, 0, 0, 0] 0 0 (cantilever_cases _ _ _ _ _ _ _ _ _ _ _).1
  obtain ⟨R', hR', _⟩ := C133_supports idealEnv idealEnv_sound _ _ arm_plain "X" _ arm_poses arm_stable u' hu'
  obtain ⟨R, hR, _⟩ := C133_supports idealEnv idealEnv_sound _ _ hpl "X" _ hpo
    (cantilever_stable _ _ _ _ _ _ _ _ _ acc_col (by norm_num [GivenSec.Positive, cantileverBeam])) u hu
  have hb := cantilever_blueprint ⟨0, 0, 0⟩ ⟨0, 0, 3⟩ 200 (3 / 10) 1 2 3 4 ![0, 6, 0, 0, 0, 0] 0 0 acc_col
  have hp := (cantilever_pats ⟨0, 0, 0⟩ ⟨0, 0, 3⟩ 200 (3 / 10) 1 2 3 4 ![0, 6, 0, 0, 0, 0] 0 0).1
  refine ⟨u, u', R, R', hu, hu', hR, hR', ?_⟩
  funext r
  refine C158_supports idealEnv _ _ hpl arm_plain "X" "X" _ _ hpo arm_poses post_determinate post_arm_supports _ _ ["P"] ["P"]
    (cantilever_cases _ _ _ _ _ _ _ _ _ _ _).1 lists_P arm_case lists_P ?_ ?_ u u' R R' hR hR' "A" r
    ⟨by rw [cantilever_names]; simp, fun _ => true, rfl, rfl⟩
  · simp only [Blueprint.caseForce, Blueprint.patternForce, cantilever_names, arm_nodes, arm_pats, hp, arm_beams.1, List.map_cons, List.map_nil,
      Option.elim_some, show barePost.frame.beams = ["b"] from hb.1, show barePost.frame.beam "b" = _ from hb.2, arm_beams.2]
    simp
    simp [Spec.trans]
  · simp only [Blueprint.caseMoment, Blueprint.patternMoment, cantilever_names, arm_nodes, arm_pats, hp, arm_beams.1, List.map_cons, List.map_nil,
      Option.elim_some, show barePost.frame.beams = ["b"] from hb.1, show barePost.frame.beam "b" = _ from hb.2, arm_beams.2]
    simp [Blueprint.at, arm_locs, post_locs]
    simp [Spec.trans, Spec.rot, V3.cross]

/-- The post has six supports: no fewer are enough, and more would not be determinate. -/
example : ∃ S : Finset (String × Fin 6), (∀ x, x ∈ S ↔ SupportAt barePost x.1 x.2) ∧ S.card = 6 := by
  refine ⟨Finset.univ.image fun r : Fin 6 => ("A", r), ?_, by rfl⟩
  rintro ⟨n, r⟩
  simp only [Finset.mem_image, Finset.mem_univ, true_and, Prod.mk.injEq]
  constructor
  · rintro ⟨r', rfl, rfl⟩
    exact ⟨by rw [cantilever_names]; simp, fun _ => true, rfl, rfl⟩
  · rintro ⟨_, f, hf, _⟩
    refine ⟨r, ?_, rfl⟩
    by_contra hne
    simp [cantileverProblem, Ne.symm hne] at hf

end Hyperstatic
