import Verif.Props.FrameMapDemo

/-
The cantilever in two parts and the cantilever with exchanged ends: concrete cases for C77 and C78, and the failure of C77 in general.
-/

namespace Hyperstatic
open Matrix Spec

/-- calls that describe a cantilever from `p` over `m` to `q` with a load at its end -/
def splitCalls (p m q : V3) (E mu A I2 I3 J : ℝ) (F : Vec 6) : List Call :=
  [.addNode "A" p.x p.y p.z, .addNode "M" m.x m.y m.z, .addNode "B" q.x q.y q.z, .addSimpleBeam "b" "A" "M" E mu A I2 I3 J 0,
    .addSimpleBeam "d" "M" "B" E mu A I2 I3 J 0, .setNodalRestraint "A" (fun _ => true), .addLoadpattern "P", .setNodalLoad "P" "B" F,
    .addStaticCase "X", .addCasePattern "X" "P" 1]

/-- calls that describe the cantilever with a beam from its end to its start -/
def swappedCalls (p q : V3) (E mu A I2 I3 J : ℝ) (F : Vec 6) : List Call :=
  [.addNode "A" p.x p.y p.z, .addNode "B" q.x q.y q.z, .addSimpleBeam "b" "B" "A" E mu A I2 I3 J 0,
    .setNodalRestraint "A" (fun _ => true), .addLoadpattern "P", .setNodalLoad "P" "B" F, .addStaticCase "X", .addCasePattern "X" "P" 1]

/-- the problem of case "X" of such calls -/
noncomputable def tipProblem (pre : List Call) : Problem :=
  ⟨(blueprint.run pre).cur, (nodeReg.run pre).cur.names, (fun n => if n = "A" then some (fun _ => true) else none),
    (blueprint.run pre).cur.caseWork (nodeReg.run pre).cur.names (caseReg.run pre).cur (fun k => if k = "P" then some 1 else none) ["P"]⟩

/-- what these calls have in common -/
structure TipCalls (pre : List Call) (F : Vec 6) : Prop where
  rest : (restReg.run pre).cur.inForce "X" = fun n => if n = "A" then some (fun _ => true) else none
  own : ∀ own, (restReg.run pre).cur.cases "X" = some own → ∀ n, own n = none
  cases : (caseReg.run pre).cur.cases "X" = some (fun k => if k = "P" then some 1 else none)
  pat : (caseReg.run pre).cur.pats "P" = some ⟨fun n => if n = "B" then some F else none, fun _ => none, fun _ => none⟩
  names : "B" ∈ (nodeReg.run pre).cur.names ∧ (nodeReg.run pre).cur.names.Nodup
  plain : PlainCalls pre

theorem TipCalls.poses {pre : List Call} {F : Vec 6} (h : TipCalls pre F) : Poses pre "X" (tipProblem pre) :=
  ⟨rfl, rfl, h.rest.symm, _, _, h.cases, ⟨by simp, by intro k; by_cases h : k = "P" <;> simp [h]⟩, rfl⟩

theorem sum_single {l : List String} (hn : l.Nodup) {b : String} (hb : b ∈ l) (f : String → ℝ) (h : ∀ k, k ≠ b → f k = 0) : (l.map f).sum = f b := by
  induction l with
  | nil => cases hb
  | cons a l ih =>
    rw [List.map_cons, List.sum_cons]
    rw [List.nodup_cons] at hn
    by_cases ha : a = b
    · subst ha
      have : (l.map f).sum = 0 := List.sum_eq_zero (by
        intro x hx
        obtain ⟨k, hk, rfl⟩ := List.mem_map.mp hx
        exact h k (by rintro rfl; exact hn.1 hk))
      rw [this, add_zero]
    · rw [h a ha, zero_add]
      exact ih hn.2 ((List.mem_cons.mp hb).resolve_left (fun e => ha e.symm))

theorem TipCalls.load {pre : List Call} {F : Vec 6} (h : TipCalls pre F) (v : State) : (tipProblem pre).load v = F ⬝ᵥ v "B" := by
  have h1 : ((nodeReg.run pre).cur.names.map fun n => ((if n = "B" then some F else none).getD 0) ⬝ᵥ v n).sum = F ⬝ᵥ v "B" := by
    rw [sum_single h.names.2 h.names.1]
    · simp
    · intro k hk; simp [hk]
  have h2 : ∀ l : List String, (l.map fun b => ((blueprint.run pre).cur.beam b).elim (0:ℝ) fun _ => 0 + 0).sum = 0 := by
    intro l
    apply List.sum_eq_zero
    intro x hx
    obtain ⟨k, _, rfl⟩ := List.mem_map.mp hx
    cases (blueprint.run pre).cur.beam k <;> simp
  simp only [tipProblem, Blueprint.caseWork, Blueprint.patternWork, List.map_cons, List.map_nil, h.pat, Option.elim_some, Option.elim_none]
  rw [h1, h2]
  simp

theorem TipCalls.solved {pre : List Call} {F : Vec 6} (h : TipCalls pre F) (hp : (tipProblem pre).frame.Positive)
    (hg : ∀ n ∈ (tipProblem pre).nodes, Relation.ReflTransGen (tipProblem pre).frame.Joined n "A") :
    (tipProblem pre).frame.Stable (tipProblem pre).nodes (tipProblem pre).fix ∧ ∃ u, Reports idealEnv pre [] "X" u := by
  have hG : (tipProblem pre).frame.Grounded (tipProblem pre).nodes (tipProblem pre).fix :=
    fun n hn => ⟨"A", ⟨fun _ => true, by simp [tipProblem], fun _ => rfl⟩, hg n hn⟩
  refine ⟨grounded_stable (h.poses.sane idealEnv) hp hG, ?_⟩
  obtain ⟨u, hu, _⟩ := C69_grounded_solved idealEnv idealEnv_sound pre [] (plainFrame_of_calls _ h.plain) (by simp) "X" _ h.poses hp hG
    (by intro own ho n f hn; rw [h.own own ho n] at hn; cases hn)
    ⟨"B", h.names.1, 0, by intro f hf; simp [tipProblem] at hf⟩
  exact ⟨u, hu⟩

section
variable (p m q : V3) (E mu A I2 I3 J : ℝ) (F : Vec 6)

theorem split_tip : TipCalls (splitCalls p m q E mu A I2 I3 J F) F where
  rest := by
    simp only [splitCalls, Machine.run, Machine.step, restReg, RestReg.inForce, List.foldl_cons, List.foldl_nil]
    simp
  own := by
    intro own ho n
    simp only [splitCalls, Machine.run, Machine.step, restReg, List.foldl_cons, List.foldl_nil] at ho
    simp at ho
    subst ho; rfl
  cases := by simp [splitCalls, Machine.run, Machine.step, caseReg, CaseReg.upd]
  pat := by simp [splitCalls, Machine.run, Machine.step, caseReg, CaseReg.upd, PatReg.empty]
  names := by simp [splitCalls, Machine.run, Machine.step, nodeReg]
  plain := by simp [PlainCalls, splitCalls, addedNode, addedPattern, List.filterMap_cons]

theorem swapped_tip : TipCalls (swappedCalls p q E mu A I2 I3 J F) F where
  rest := by
    simp only [swappedCalls, Machine.run, Machine.step, restReg, RestReg.inForce, List.foldl_cons, List.foldl_nil]
    simp
  own := by
    intro own ho n
    simp only [swappedCalls, Machine.run, Machine.step, restReg, List.foldl_cons, List.foldl_nil] at ho
    simp at ho
    subst ho; rfl
  cases := by simp [swappedCalls, Machine.run, Machine.step, caseReg, CaseReg.upd]
  pat := by simp [swappedCalls, Machine.run, Machine.step, caseReg, CaseReg.upd, PatReg.empty]
  names := by simp [swappedCalls, Machine.run, Machine.step, nodeReg]
  plain := by simp [PlainCalls, swappedCalls, addedNode, addedPattern, List.filterMap_cons]

theorem split_beam (h1 : Acceptable p m) (h2 : Acceptable m q) :
    (tipProblem (splitCalls p m q E mu A I2 I3 J F)).frame.beams = ["b", "d"] ∧
    ∀ k, (tipProblem (splitCalls p m q E mu A I2 I3 J F)).frame.beam k =
      if k = "d" then some ⟨"M", "B", m, q, ⟨⟨0, E, mu⟩, A, I2, I3, J⟩⟩ else
      if k = "b" then some ⟨"A", "M", p, m, ⟨⟨0, E, mu⟩, A, I2, I3, J⟩⟩ else none := by
  constructor
  · simp [tipProblem, splitCalls, Machine.run, Machine.step, blueprint, Blueprint.addBeam, sectionCall, h1, h2]
  · intro k
    simp [tipProblem, splitCalls, Machine.run, Machine.step, blueprint, Blueprint.addBeam, sectionCall, h1, h2]

theorem split_names : (tipProblem (splitCalls p m q E mu A I2 I3 J F)).nodes = ["A", "M", "B"] := by
  simp [tipProblem, splitCalls, Machine.run, Machine.step, nodeReg]

theorem swapped_beam (h : Acceptable q p) (k : String) :
    (tipProblem (swappedCalls p q E mu A I2 I3 J F)).frame.beam k =
      if k = "b" then some ⟨"B", "A", q, p, ⟨⟨0, E, mu⟩, A, I2, I3, J⟩⟩ else none := by
  simp [tipProblem, swappedCalls, Machine.run, Machine.step, blueprint, Blueprint.addBeam, sectionCall, h]

theorem swapped_names : (tipProblem (swappedCalls p q E mu A I2 I3 J F)).nodes = ["A", "B"] := by
  simp [tipProblem, swappedCalls, Machine.run, Machine.step, nodeReg]

theorem split_solved (h1 : Acceptable p m) (h2 : Acceptable m q) (hp : (cantileverBeam p q E mu A I2 I3 J).sec.Positive) :
    (tipProblem (splitCalls p m q E mu A I2 I3 J F)).frame.Stable (tipProblem (splitCalls p m q E mu A I2 I3 J F)).nodes
      (tipProblem (splitCalls p m q E mu A I2 I3 J F)).fix ∧ ∃ u, Reports idealEnv (splitCalls p m q E mu A I2 I3 J F) [] "X" u := by
  apply (split_tip p m q E mu A I2 I3 J F).solved
  · intro b g hg
    rw [(split_beam p m q E mu A I2 I3 J F h1 h2).2] at hg
    by_cases hd : b = "d"
    · rw [if_pos hd] at hg; cases hg; exact hp
    · rw [if_neg hd] at hg
      by_cases hb : b = "b"
      · rw [if_pos hb] at hg; cases hg; exact hp
      · rw [if_neg hb] at hg; cases hg
  · intro n hn
    have jM : (tipProblem (splitCalls p m q E mu A I2 I3 J F)).frame.Joined "M" "A" :=
      ⟨"b", _, by rw [(split_beam p m q E mu A I2 I3 J F h1 h2).2]; rfl, Or.inr ⟨rfl, rfl⟩⟩
    have jB : (tipProblem (splitCalls p m q E mu A I2 I3 J F)).frame.Joined "B" "M" :=
      ⟨"d", _, by rw [(split_beam p m q E mu A I2 I3 J F h1 h2).2]; rfl, Or.inr ⟨rfl, rfl⟩⟩
    rw [split_names] at hn
    simp only [List.mem_cons, List.not_mem_nil, or_false] at hn
    rcases hn with rfl | rfl | rfl
    · exact Relation.ReflTransGen.refl
    · exact Relation.ReflTransGen.single jM
    · exact Relation.ReflTransGen.head jB (Relation.ReflTransGen.single jM)

theorem swapped_solved (h : Acceptable q p) (hp : (cantileverBeam p q E mu A I2 I3 J).sec.Positive) :
    ∃ u, Reports idealEnv (swappedCalls p q E mu A I2 I3 J F) [] "X" u := by
  apply ((swapped_tip p q E mu A I2 I3 J F).solved _ _).2
  · intro b g hg
    rw [swapped_beam p q E mu A I2 I3 J F h] at hg
    by_cases hb : b = "b"
    · rw [if_pos hb] at hg; cases hg; exact hp
    · rw [if_neg hb] at hg; cases hg
  · intro n hn
    rw [swapped_names] at hn
    simp only [List.mem_cons, List.not_mem_nil, or_false] at hn
    rcases hn with rfl | rfl
    · exact Relation.ReflTransGen.refl
    · exact Relation.ReflTransGen.single ⟨"b", _, by rw [swapped_beam p q E mu A I2 I3 J F h]; rfl, Or.inl ⟨rfl, rfl⟩⟩

/-- the cantilever in two parts is the subdivided cantilever -/
theorem cantilever_split {t : ℝ} (ht : 0 < t) (ht' : t < 1) (hm : m = (cantileverBeam p q E mu A I2 I3 J).point t) (h : Acceptable p q)
    (h1 : Acceptable p m) (h2 : Acceptable m q) :
    Subdivided (cantileverProblem p q E mu A I2 I3 J F 0 0 "P") (tipProblem (splitCalls p m q E mu A I2 I3 J F)) "b" "d" "M"
      (cantileverBeam p q E mu A I2 I3 J) t where
  pos := ht
  lt := ht'
  old := by rw [cantilever_beam_of _ _ _ _ _ _ _ _ _ h]; rfl
  first := by rw [(split_beam p m q E mu A I2 I3 J F h1 h2).2, ← hm]; rfl
  second := by rw [(split_beam p m q E mu A I2 I3 J F h1 h2).2, ← hm]; rfl
  ne := by decide
  new := by rw [cantilever_beam_of _ _ _ _ _ _ _ _ _ h]; rfl
  others := by
    intro k hb hd
    rw [cantilever_beam_of _ _ _ _ _ _ _ _ _ h, (split_beam p m q E mu A I2 I3 J F h1 h2).2, if_neg hb, if_neg hd, if_neg hb]
  fresh := by rw [cantilever_names]; simp
  nodes := by
    intro n
    rw [split_names, cantilever_names]
    simp only [List.mem_cons, List.not_mem_nil, or_false]
    tauto
  fix := fun _ _ => rfl
  free := by intro f hf; simp [tipProblem] at hf
  load := by
    intro v
    rw [(split_tip p m q E mu A I2 I3 J F).load, (cantilever_load _ _ _ _ _ _ _ _ _ _ _ h _).1]
    rfl

theorem cantilever_swapped (h : Acceptable p q) (h' : Acceptable q p) :
    EndsSwapped (cantileverProblem p q E mu A I2 I3 J F 0 0 "P") (tipProblem (swappedCalls p q E mu A I2 I3 J F)) "b"
      (cantileverBeam p q E mu A I2 I3 J) where
  old := by rw [cantilever_beam_of _ _ _ _ _ _ _ _ _ h]; rfl
  new := by rw [swapped_beam p q E mu A I2 I3 J F h']; rfl
  others := by
    intro k hb
    rw [cantilever_beam_of _ _ _ _ _ _ _ _ _ h, swapped_beam p q E mu A I2 I3 J F h', if_neg hb, if_neg hb]
  nodes := by rw [swapped_names, cantilever_names]
  fix := rfl
  load := by
    intro v
    rw [(swapped_tip p q E mu A I2 I3 J F).load, (cantilever_load _ _ _ _ _ _ _ _ _ _ _ h _).1]

end

/-- an inclined beam divided at a quarter of its length: the hypotheses of the partial theorem C77 hold, and both models are solved -/
example : Subdivided (cantileverProblem ⟨0, 0, 0⟩ ⟨4, 0, 4⟩ 200 (3 / 10) 1 2 3 4 ![0, 6, 1, 0, 0, 0] 0 0 "P")
      (tipProblem (splitCalls ⟨0, 0, 0⟩ ⟨1, 0, 1⟩ ⟨4, 0, 4⟩ 200 (3 / 10) 1 2 3 4 ![0, 6, 1, 0, 0, 0])) "b" "d" "M"
      (cantileverBeam ⟨0, 0, 0⟩ ⟨4, 0, 4⟩ 200 (3 / 10) 1 2 3 4) (1 / 4) ∧
    ¬ Upright ⟨0, 0, 0⟩ ⟨4, 0, 4⟩ ∧ ¬ Upright ⟨0, 0, 0⟩ ⟨1, 0, 1⟩ ∧ ¬ Upright ⟨1, 0, 1⟩ ⟨4, 0, 4⟩ ∧
    (∃ u, Reports idealEnv (cantileverCalls ⟨0, 0, 0⟩ ⟨4, 0, 4⟩ 200 (3 / 10) 1 2 3 4 ![0, 6, 1, 0, 0, 0] 0 0) [] "X" u) ∧
    ∃ u, Reports idealEnv (splitCalls ⟨0, 0, 0⟩ ⟨1, 0, 1⟩ ⟨4, 0, 4⟩ 200 (3 / 10) 1 2 3 4 ![0, 6, 1, 0, 0, 0]) [] "X" u := by
  have h : Acceptable ⟨0, 0, 0⟩ ⟨4, 0, 4⟩ := by right; norm_num [absTol]
  have h1 : Acceptable ⟨0, 0, 0⟩ ⟨1, 0, 1⟩ := by right; norm_num [absTol]
  have h2 : Acceptable ⟨1, 0, 1⟩ ⟨4, 0, 4⟩ := by right; norm_num [absTol]
  have hp : (cantileverBeam ⟨0, 0, 0⟩ ⟨4, 0, 4⟩ 200 (3 / 10) 1 2 3 4).sec.Positive := by norm_num [GivenSec.Positive, cantileverBeam]
  exact ⟨cantilever_split _ _ _ _ _ _ _ _ _ _ (by norm_num) (by norm_num) (by ext <;> norm_num [GivenBeam.point, cantileverBeam]) h h1 h2,
    by norm_num [Upright, absTol], by norm_num [Upright, absTol], by norm_num [Upright, absTol],
    cantilever_demo _ _ _ _ _ _ _ _ _ _ _ h hp (cantilever_cases _ _ _ _ _ _ _ _ _ _ _).1, (split_solved _ _ _ _ _ _ _ _ _ _ h1 h2 hp).2⟩

/-- a post drawn upwards and downwards: the hypotheses of C78 hold, and both models are solved -/
example : EndsSwapped (cantileverProblem ⟨0, 0, 0⟩ ⟨0, 0, 3⟩ 200 (3 / 10) 1 2 3 4 ![0, 6, 1, 0, 0, 0] 0 0 "P")
      (tipProblem (swappedCalls ⟨0, 0, 0⟩ ⟨0, 0, 3⟩ 200 (3 / 10) 1 2 3 4 ![0, 6, 1, 0, 0, 0])) "b"
      (cantileverBeam ⟨0, 0, 0⟩ ⟨0, 0, 3⟩ 200 (3 / 10) 1 2 3 4) ∧
    (∃ u, Reports idealEnv (cantileverCalls ⟨0, 0, 0⟩ ⟨0, 0, 3⟩ 200 (3 / 10) 1 2 3 4 ![0, 6, 1, 0, 0, 0] 0 0) [] "X" u) ∧
    ∃ u, Reports idealEnv (swappedCalls ⟨0, 0, 0⟩ ⟨0, 0, 3⟩ 200 (3 / 10) 1 2 3 4 ![0, 6, 1, 0, 0, 0]) [] "X" u := by
  have h' : Acceptable ⟨0, 0, 3⟩ ⟨0, 0, 0⟩ := by left; norm_num [absTol]
  have hp : (cantileverBeam ⟨0, 0, 0⟩ ⟨0, 0, 3⟩ 200 (3 / 10) 1 2 3 4).sec.Positive := by norm_num [GivenSec.Positive, cantileverBeam]
  exact ⟨cantilever_swapped _ _ _ _ _ _ _ _ _ acc_col h',
    cantilever_demo _ _ _ _ _ _ _ _ _ _ _ acc_col hp (cantilever_cases _ _ _ _ _ _ _ _ _ _ _).1, swapped_solved _ _ _ _ _ _ _ _ _ h' hp⟩

/-! ### a leaning post whose lower part counts as vertical -/

theorem unit_lean {a b l : ℝ} (hl : 0 < l) (h : a ^ 2 + b ^ 2 = 1) {d : V3} (hd : d = l • ⟨0, a, b⟩) : d.unit = ⟨0, a, b⟩ := by
  rw [hd, V3.unit_smul_pos hl, V3.unit_of_dot_one]
  simp only [V3.dot]; linarith

/-- the local axes of a beam that leans in the y direction -/
theorem frame_lean {p q : V3} {a b l : ℝ} (hl : 0 < l) (ha : 0 < a) (h : a ^ 2 + b ^ 2 = 1) (hd : q - p = l • ⟨0, a, b⟩) (hu : ¬ Upright p q) :
    (beamFrame p q).x = ⟨0, a, b⟩ ∧ (beamFrame p q).y = ⟨0, -b, a⟩ ∧ (beamFrame p q).z = ⟨1, 0, 0⟩ := by
  have hx : (beamFrame p q).x = ⟨0, a, b⟩ := unit_lean hl h hd
  have hz : (beamFrame p q).z = ⟨1, 0, 0⟩ := by
    unfold Upright at hu
    unfold beamFrame
    simp only
    rw [if_neg hu, unit_lean hl h hd, show V3.cross ⟨0, a, b⟩ ⟨0, 0, 1⟩ = a • (⟨1, 0, 0⟩ : V3) by ext <;> simp [V3.cross], V3.unit_smul_pos ha,
      V3.unit_of_dot_one (by norm_num [V3.dot])]
  refine ⟨hx, ?_, hz⟩
  show (beamFrame p q).z.cross (beamFrame p q).x = _
  rw [hx, hz]
  ext <;> simp [V3.cross]

/-- the local axes of the same beam when the tolerance takes it for vertical -/
theorem frame_upright {p q : V3} {a b l : ℝ} (hl : 0 < l) (h : a ^ 2 + b ^ 2 = 1) (hd : q - p = l • ⟨0, a, b⟩) (hu : Upright p q) :
    (beamFrame p q).x = ⟨0, a, b⟩ ∧ (beamFrame p q).y = ⟨1, 0, 0⟩ ∧ (beamFrame p q).z = ⟨0, b, -a⟩ := by
  have hx : (beamFrame p q).x = ⟨0, a, b⟩ := unit_lean hl h hd
  have hz : (beamFrame p q).z = ⟨0, b, -a⟩ := by
    unfold Upright at hu
    unfold beamFrame
    simp only
    rw [if_pos hu, unit_lean hl h hd, show V3.cross ⟨0, a, b⟩ ⟨1, 0, 0⟩ = (⟨0, b, -a⟩ : V3) by ext <;> simp [V3.cross],
      V3.unit_of_dot_one (by simp only [V3.dot]; linarith)]
  refine ⟨hx, ?_, hz⟩
  show (beamFrame p q).z.cross (beamFrame p q).x = _
  rw [hx, hz]
  ext
  · simp [V3.cross]; linarith
  · simp [V3.cross]
  · simp [V3.cross]

/-- sway and slope at the end of the lower part and at the top -/
noncomputable def leanAnswer (a b : ℝ) (δ φ δ' φ' : ℝ) : State := fun n =>
  if n = "M" then ![δ, 0, 0, 0, b * φ, -a * φ] else if n = "B" then ![δ', 0, 0, 0, b * φ', -a * φ'] else 0

theorem lean_work {c : BeamConsts} {e f : Csys} {a b F l l' : ℝ} (hl : l ≠ 0) (hl' : l' ≠ 0) (h : a ^ 2 + b ^ 2 = 1)
    (he : e.x = ⟨0, a, b⟩ ∧ e.y = ⟨1, 0, 0⟩ ∧ e.z = ⟨0, b, -a⟩) (hf : f.x = ⟨0, a, b⟩ ∧ f.y = ⟨0, -b, a⟩ ∧ f.z = ⟨1, 0, 0⟩)
    (hi : c.E * c.I3 ≠ 0) (hj : c.E * c.I2 ≠ 0) (vM vB : Vec 6) {δ φ δ' φ' : ℝ}
    (hδ : δ = F * l ^ 3 / (3 * (c.E * c.I3)) + F * l' * l ^ 2 / (2 * (c.E * c.I3)))
    (hφ : φ = F * l ^ 2 / (2 * (c.E * c.I3)) + F * l' * l / (c.E * c.I3))
    (hδ' : δ' = δ + φ * l' + F * l' ^ 3 / (3 * (c.E * c.I2))) (hφ' : φ' = φ + F * l' ^ 2 / (2 * (c.E * c.I2))) :
    beamWork c l (localEnds e 0 vM) (localEnds e 0 ![δ, 0, 0, 0, b * φ, -a * φ]) +
      beamWork c l' (localEnds f vM vB) (localEnds f ![δ, 0, 0, 0, b * φ, -a * φ] ![δ', 0, 0, 0, b * φ', -a * φ']) = F * vB 0 := by
  obtain ⟨e1, e2, e3⟩ := he
  obtain ⟨f1, f2, f3⟩ := hf
  have k1 : ∀ φ : ℝ, b * (b * φ) + -a * (-a * φ) = φ := by intro φ; linear_combination φ * h
  have k2 : ∀ φ : ℝ, a * (b * φ) + b * (-a * φ) = 0 := by intro φ; ring
  have k3 : ∀ φ : ℝ, -b * (b * φ) + a * (-a * φ) = -φ := by intro φ; linear_combination -φ * h
  unfold beamWork localEnds
  simp only [cons_val_zero, cons_val_one, cons_val, V3.dot, Spec.trans, Spec.rot, e1, e2, e3, f1, f2, f3, Pi.zero_apply, zero_mul, one_mul, mul_zero,
    add_zero, zero_add, k1, k2, k3, sub_zero, neg_neg]
  rw [hδ', hφ', hδ, hφ]
  unfold bendWork
  generalize c.E * c.I3 = i at *
  generalize c.E * c.I2 = j at *
  generalize c.E * c.A = g
  generalize c.G * c.J = k
  field_simp
  ring

/-- the displacement of the top of a leaning cantilever, in one beam and in two -/
theorem lean_whole {q : V3} {a b L E mu A I2 I3 J F : ℝ} (hL : 0 < L) (ha : 0 < a) (h : a ^ 2 + b ^ 2 = 1) (hq : q = L • ⟨0, a, b⟩)
    (hacc : Acceptable ⟨0, 0, 0⟩ q) (hu : ¬ Upright ⟨0, 0, 0⟩ q) (hp : (cantileverBeam ⟨0, 0, 0⟩ q E mu A I2 I3 J).sec.Positive) (u : State)
    (hr : Reports idealEnv (cantileverCalls ⟨0, 0, 0⟩ q E mu A I2 I3 J ![F, 0, 0, 0, 0, 0] 0 0) [] "X" u) :
    u "B" 0 = F * L ^ 3 / (3 * (E * I2)) := by
  have hd : q - ⟨0, 0, 0⟩ = L • ⟨0, a, b⟩ := by rw [hq]; ext <;> simp
  have hn : V3.norm (q - ⟨0, 0, 0⟩) = L := by
    rw [hd, V3.norm_smul_pos hL]
    have : V3.norm ⟨0, a, b⟩ = 1 := by
      unfold V3.norm
      simp only
      rw [show (0:ℝ) * 0 + a * a + b * b = 1 by linarith, Real.sqrt_one]
    rw [this, mul_one]
  obtain ⟨_, hc, _⟩ := C74_tip_load idealEnv idealEnv_sound _ [] (plainFrame_of_calls _ (cantilever_plain _ _ _ _ _ _ _ _ _ _ _)) "X" _
    (cantilever_poses _ _ _ _ _ _ _ _ _ _ _ (cantilever_cases _ _ _ _ _ _ _ _ _ _ _).1) _
    (cantilever_is _ _ _ _ _ _ _ _ _ _ _ hacc "P") hp u hr _
    (fun v => (cantilever_load _ _ _ _ _ _ _ _ _ _ _ hacc v).1) _ rfl _ _ _ _ _ _ rfl rfl rfl rfl rfl rfl _ _ _ _ rfl rfl rfl rfl
  have hz := congrArg V3.z hc
  obtain ⟨_, f2, f3⟩ := frame_lean hL ha h hd hu
  simp only [cantileverBeam, f2, f3, hn] at hz
  simpa [V3.dot, Spec.trans, Spec.rot] using hz

theorem lean_split {m q : V3} {a b l l' E mu A I2 I3 J F : ℝ} (hl : 0 < l) (hl' : 0 < l') (ha : 0 < a) (h : a ^ 2 + b ^ 2 = 1)
    (hm : m = l • ⟨0, a, b⟩) (hq : q - m = l' • ⟨0, a, b⟩) (h1 : Acceptable ⟨0, 0, 0⟩ m) (h2 : Acceptable m q)
    (hu1 : Upright ⟨0, 0, 0⟩ m) (hu2 : ¬ Upright m q) (hp : (cantileverBeam ⟨0, 0, 0⟩ q E mu A I2 I3 J).sec.Positive) (u : State)
    (hr : Reports idealEnv (splitCalls ⟨0, 0, 0⟩ m q E mu A I2 I3 J ![F, 0, 0, 0, 0, 0]) [] "X" u) :
    u "B" 0 = (F * l ^ 3 / (3 * (E * I3)) + F * l' * l ^ 2 / (2 * (E * I3))) + (F * l ^ 2 / (2 * (E * I3)) + F * l' * l / (E * I3)) * l' +
      F * l' ^ 3 / (3 * (E * I2)) := by
  have hT := split_tip ⟨0, 0, 0⟩ m q E mu A I2 I3 J ![F, 0, 0, 0, 0, 0]
  have hst := (split_solved ⟨0, 0, 0⟩ m q E mu A I2 I3 J ![F, 0, 0, 0, 0, 0] h1 h2 hp).1
  have hS := hT.poses.sane idealEnv
  obtain ⟨hbs, hb⟩ := split_beam ⟨0, 0, 0⟩ m q E mu A I2 I3 J ![F, 0, 0, 0, 0, 0] h1 h2
  obtain ⟨x, i1, i2, i3⟩ := reports_equilibrium idealEnv_sound (plainFrame_of_calls _ hT.plain) hT.poses hst hr
  have hm' : m - ⟨0, 0, 0⟩ = l • ⟨0, a, b⟩ := by rw [hm]; ext <;> simp
  have n1 : V3.norm ⟨0, a, b⟩ = 1 := by
    unfold V3.norm
    simp only
    rw [show (0:ℝ) * 0 + a * a + b * b = 1 by linarith, Real.sqrt_one]
  have bb : (tipProblem (splitCalls ⟨0, 0, 0⟩ m q E mu A I2 I3 J ![F, 0, 0, 0, 0, 0])).frame.beam "b" =
      some ⟨"A", "M", ⟨0, 0, 0⟩, m, ⟨⟨0, E, mu⟩, A, I2, I3, J⟩⟩ := by rw [hb]; rfl
  have bd : (tipProblem (splitCalls ⟨0, 0, 0⟩ m q E mu A I2 I3 J ![F, 0, 0, 0, 0, 0])).frame.beam "d" =
      some ⟨"M", "B", m, q, ⟨⟨0, E, mu⟩, A, I2, I3, J⟩⟩ := by rw [hb]; rfl
  obtain ⟨c1, hc1⟩ := hS.ok _ _ bb
  obtain ⟨c2, hc2⟩ := hS.ok _ _ bd
  have l1 : GivenBeam.len ⟨"A", "M", ⟨0, 0, 0⟩, m, ⟨⟨0, E, mu⟩, A, I2, I3, J⟩⟩ = l := by
    unfold GivenBeam.len; simp only; rw [hm', V3.norm_smul_pos hl, n1, mul_one]
  have l2 : GivenBeam.len ⟨"M", "B", m, q, ⟨⟨0, E, mu⟩, A, I2, I3, J⟩⟩ = l' := by
    unfold GivenBeam.len; simp only; rw [hq, V3.norm_smul_pos hl', n1, mul_one]
  have hint : ∀ v y, (tipProblem (splitCalls ⟨0, 0, 0⟩ m q E mu A I2 I3 J ![F, 0, 0, 0, 0, 0])).frame.internal v y =
      beamWork (gconsts ⟨⟨0, E, mu⟩, A, I2, I3, J⟩) l (localEnds (beamFrame ⟨0, 0, 0⟩ m) (v "A") (v "M")) (localEnds (beamFrame ⟨0, 0, 0⟩ m) (y "A") (y "M")) +
      beamWork (gconsts ⟨⟨0, E, mu⟩, A, I2, I3, J⟩) l' (localEnds (beamFrame m q) (v "M") (v "B")) (localEnds (beamFrame m q) (y "M") (y "B")) := by
    intro v y
    unfold Blueprint.internal
    rw [hbs]
    simp only [List.map_cons, List.map_nil, List.sum_cons, List.sum_nil, add_zero, bb, bd, Option.elim_some]
    rw [internal_eq (g := ⟨"A", "M", ⟨0, 0, 0⟩, m, ⟨⟨0, E, mu⟩, A, I2, I3, J⟩⟩) hc1, internal_eq (g := ⟨"M", "B", m, q, ⟨⟨0, E, mu⟩, A, I2, I3, J⟩⟩) hc2,
      l1, l2]
    unfold GivenBeam.ends
    rfl
  obtain ⟨p1, p2, p3, p4⟩ := GivenSec.Positive.prod hp
  let δ := F * l ^ 3 / (3 * (E * I3)) + F * l' * l ^ 2 / (2 * (E * I3))
  let φ := F * l ^ 2 / (2 * (E * I3)) + F * l' * l / (E * I3)
  let y := leanAnswer a b δ φ (δ + φ * l' + F * l' ^ 3 / (3 * (E * I2))) (φ + F * l' ^ 2 / (2 * (E * I2)))
  have y0 : y "A" = 0 := by simp [y, leanAnswer]
  have hob : ∀ v, Obeys (tipProblem (splitCalls ⟨0, 0, 0⟩ m q E mu A I2 I3 J ![F, 0, 0, 0, 0, 0])).fix v ↔ v "A" = 0 := fun v => obeys_clamp v
  have hxy := same_answer hS hst i2 ((hob y).mpr y0) i3 (by
    intro v hv
    have v0 := (hob v).mp hv
    rw [hint, hT.load, v0, y0]
    have := lean_work (c := gconsts ⟨⟨0, E, mu⟩, A, I2, I3, J⟩) hl.ne' hl'.ne' h (frame_upright hl h hm' hu1) (frame_lean hl' ha h hq hu2)
      p3.ne' p4.ne' (v "M") (v "B") (F := F) rfl rfl rfl rfl
    rw [show (![F, 0, 0, 0, 0, 0] : Vec 6) ⬝ᵥ v "B" = F * v "B" 0 by simp [dotProduct, Fin.sum_univ_six]]
    exact this)
  have hB := hT.names.1
  rw [i1 "B" hB, hxy "B" hB]
  simp [y, leanAnswer, δ, φ]

/-- A post that leans by a few nanometres: its lower part counts as vertical, so that its cross section is turned by a right angle against
the upper part, and against the post in one piece. -/
theorem C77_false : ¬ C77_claim := by
  intro hall
  let k : ℝ := 1 / 10 ^ 9
  let a : ℝ := 2 * k / (1 + k ^ 2)
  let b : ℝ := (1 - k ^ 2) / (1 + k ^ 2)
  let L : ℝ := 3 * (1 + k ^ 2)
  let q : V3 := L • ⟨0, a, b⟩
  let m : V3 := (L / 8) • ⟨0, a, b⟩
  have hab : a ^ 2 + b ^ 2 = 1 := by norm_num [a, b, k]
  have ha : 0 < a := by norm_num [a, k]
  have hL : 0 < L := by norm_num [L, k]
  have hu : ¬ Upright ⟨0, 0, 0⟩ q := by norm_num [Upright, q, L, a, k, absTol]
  have hu1 : Upright ⟨0, 0, 0⟩ m := by norm_num [Upright, m, L, a, k, absTol]
  have hu2 : ¬ Upright m q := by norm_num [Upright, q, m, L, a, k, absTol]
  have acc : Acceptable ⟨0, 0, 0⟩ q := by right; norm_num [q, L, a, k, absTol]
  have acc1 : Acceptable ⟨0, 0, 0⟩ m := by left; norm_num [m, L, a, b, k, absTol]
  have acc2 : Acceptable m q := by right; norm_num [q, m, L, a, k, absTol]
  have hp : (cantileverBeam ⟨0, 0, 0⟩ q 200 (3 / 10) 1 2 3 4).sec.Positive := by norm_num [GivenSec.Positive, cantileverBeam]
  obtain ⟨u, hr⟩ := cantilever_demo ⟨0, 0, 0⟩ q 200 (3 / 10) 1 2 3 4 ![6, 0, 0, 0, 0, 0] 0 0 acc hp (cantilever_cases _ _ _ _ _ _ _ _ _ _ _).1
  obtain ⟨hst', u', hr'⟩ := split_solved ⟨0, 0, 0⟩ m q 200 (3 / 10) 1 2 3 4 ![6, 0, 0, 0, 0, 0] acc1 acc2 hp
  have hT := split_tip ⟨0, 0, 0⟩ m q 200 (3 / 10) 1 2 3 4 ![6, 0, 0, 0, 0, 0]
  have hsub := cantilever_split ⟨0, 0, 0⟩ m q 200 (3 / 10) 1 2 3 4 ![6, 0, 0, 0, 0, 0] (t := 1 / 8) (by norm_num) (by norm_num)
    (by ext <;> simp [GivenBeam.point, cantileverBeam, q, m] <;> ring) acc acc1 acc2
  have h := hall idealEnv idealEnv_sound _ _ [] [] (plainFrame_of_calls _ (cantilever_plain _ _ _ _ _ _ _ _ _ _ _))
    (plainFrame_of_calls _ hT.plain) "X" "X" _ _
    (cantilever_poses _ _ _ _ _ _ _ _ _ _ _ (cantilever_cases _ _ _ _ _ _ _ _ _ _ _).1) hT.poses
    (cantilever_positive _ _ _ _ _ _ _ _ _ acc hp) (cantilever_stable _ _ _ _ _ _ _ _ _ acc hp) hst' _ _ _ _ _ hsub u u' hr hr' "B"
    (((cantilever_is _ _ _ _ _ _ _ _ _ _ _ acc "P").nodes "B").mpr (Or.inr rfl))
  have h0 := congrFun h 0
  rw [lean_whole hL ha hab rfl acc hu hp u hr, lean_split (l := L / 8) (l' := 7 * L / 8) (by linarith) (by linarith) ha hab rfl
    (by ext <;> simp [q, m] <;> ring) acc1 acc2 hu1 hu2 hp u' hr'] at h0
  norm_num [L, k] at h0

end Hyperstatic
