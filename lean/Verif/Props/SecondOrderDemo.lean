import Verif.Props.SecondOrder

/-
A beam whose end `n` is clamped first and whose end `m` is held along x afterwards.
-/

namespace Hyperstatic
open Matrix Spec

def duoCalls (n m : String) : List Call :=
  [.addNode "A" 0 0 0, .addNode "B" 1 2 3, .addSimpleBeam "b" "A" "B" 1 0 1 1 1 1 1, .setNodalRestraint n (fun _ => true),
    .setNodalRestraint m (fun r => r == 0), .addLoadpattern "P", .setNodalLoad "P" m ![0, 2, 3, 4, 5, 6], .addStaticCase "C",
    .addCasePattern "C" "P" 2]

def duoModel (c : Csys) (n m : String) : FeModel :=
  { FeModel.empty with
    nodes := [("A", stdNode "A" 0 0 0), ("B", stdNode "B" 1 2 3)]
    restraints := [(n, fun _ => true), (m, fun r => r == 0)]
    beams := [("b", demoBeam c)]
    hidNode := [("A", 0), ("B", 1)]
    hidBeam := [("b", 0)] }

def duoApi (c : Csys) (n m : String) : Api where
  model := duoModel c n m
  loadcases := [("C", demoCase)]
  loadpatterns := [("P", 0)]
  heap := [⟨"P", [(m, ![0, 2, 3, 4, 5, 6])], [], [], []⟩]

def Duo (n m : String) : Prop := (n = "A" ∧ m = "B") ∨ (n = "B" ∧ m = "A")

theorem duo_run (env : Env) {n m : String} (h : Duo n m) : ∃ c, World.init.run env (duoCalls n m) = ⟨duoApi c n m, []⟩ := by
  obtain ⟨c, hc⟩ := demo_csys
  refine ⟨c, ?_⟩
  unfold duoCalls
  have hb : BeamElm.mk? "b" (stdNode "A" 0 0 0) (stdNode "B" 1 2 3) (.simple 1 0 1 1 1 1 1) = .ok (demoBeam c) := by
    unfold BeamElm.mk?
    have e1 : (stdNode "A" 0 0 0).loc = ⟨0, 0, 0⟩ := rfl
    have e2 : (stdNode "B" 1 2 3).loc = ⟨1, 2, 3⟩ := rfl
    rw [e1, e2, hc]
    rfl
  rcases h with ⟨rfl, rfl⟩ | ⟨rfl, rfl⟩ <;>
  · rw [run_cons, step_addNode, run_cons, step_addNode, run_cons, step_addSimpleBeam_of env _ _ _ _ _ _ _ _ _ _ _ _ _ _ rfl rfl hb,
      run_cons, step_setNodalRestraint, run_cons, step_setNodalRestraint, run_cons, step_addLoadpattern, run_cons,
      step_setNodalLoad_of env _ _ _ _ 0 (LoadPattern.new "P") rfl rfl, run_cons, step_addStaticCase, run_cons,
      step_addCasePattern_of env _ _ _ _ (LoadCase.new "C" .static) 0 _ rfl rfl rfl, run_nil]
    rfl

theorem duo_plain (n m : String) : PlainCalls (duoCalls n m) := by
  simp [PlainCalls, duoCalls, addedNode, addedPattern, List.filterMap_cons]

def duoBeam : GivenBeam := ⟨"A", "B", ⟨0, 0, 0⟩, ⟨1, 2, 3⟩, ⟨⟨1, 1, 0⟩, 1, 1, 1, 1⟩⟩

noncomputable def duo (n m : String) : Problem :=
  ⟨(blueprint.run (duoCalls n m)).cur, (nodeReg.run (duoCalls n m)).cur.names, (restReg.run (duoCalls n m)).cur.inForce "C",
    (blueprint.run (duoCalls n m)).cur.caseWork (nodeReg.run (duoCalls n m)).cur.names (caseReg.run (duoCalls n m)).cur
      (fun q => if q = "P" then some 2 else none) ["P"]⟩

theorem duo_poses (n m : String) : Poses (duoCalls n m) "C" (duo n m) :=
  ⟨rfl, rfl, rfl, _, _, by simp [duoCalls, Machine.run, Machine.step, caseReg, CaseReg.upd],
    ⟨by simp, by intro p; by_cases h : p = "P" <;> simp [h]⟩, rfl⟩

theorem duo_nodes (n m : String) : (duo n m).nodes = ["A", "B"] := by
  simp [duo, duoCalls, Machine.run, Machine.step, nodeReg]

theorem duo_frame (n m : String) : ∀ b, (duo n m).frame.beam b = if b = "b" then some duoBeam else none := by
  have acc : Acceptable ⟨0, 0, 0⟩ ⟨1, 2, 3⟩ := by right; norm_num [absTol]
  simp [duo, duoCalls, Machine.run, Machine.step, blueprint, Blueprint.addBeam, sectionCall, acc, duoBeam]

theorem duo_fix {n m : String} (h : Duo n m) : (duo n m).fix = fun k => if k = m then some (fun r => r == 0) else if k = n then some (fun _ => true)
    else none := by
  rcases h with ⟨rfl, rfl⟩ | ⟨rfl, rfl⟩ <;> simp [duo, duoCalls, Machine.run, Machine.step, restReg, RestReg.inForce]

theorem duo_positive (n m : String) : (duo n m).frame.Positive := by
  intro b g hb
  rw [duo_frame] at hb
  split at hb
  · cases hb; norm_num [GivenSec.Positive, duoBeam]
  · cases hb

theorem duo_grounded {n m : String} (h : Duo n m) : (duo n m).frame.Grounded (duo n m).nodes (duo n m).fix := by
  have hA : Clamped (duo n m).fix n := ⟨fun _ => true, by rw [duo_fix h]; rcases h with ⟨rfl, rfl⟩ | ⟨rfl, rfl⟩ <;> rfl, fun _ => rfl⟩
  intro k hk
  rw [duo_nodes] at hk
  simp only [List.mem_cons, List.not_mem_nil, or_false] at hk
  refine ⟨n, hA, ?_⟩
  have j1 : (duo n m).frame.Joined "A" "B" := ⟨"b", duoBeam, by rw [duo_frame]; rfl, Or.inl ⟨rfl, rfl⟩⟩
  have j2 : (duo n m).frame.Joined "B" "A" := ⟨"b", duoBeam, by rw [duo_frame]; rfl, Or.inr ⟨rfl, rfl⟩⟩
  rcases h with ⟨rfl, rfl⟩ | ⟨rfl, rfl⟩ <;> rcases hk with rfl | rfl
  · exact .refl
  · exact .single j2
  · exact .single j1
  · exact .refl

theorem duo_reports {n m : String} (h : Duo n m) : ∃ u, Reports idealEnv (duoCalls n m) [] "C" u := by
  obtain ⟨u, hu, _⟩ := C69_grounded_solved idealEnv idealEnv_sound (duoCalls n m) [] (plainFrame_of_calls _ (duo_plain n m)) (by simp) "C"
    (duo n m) (duo_poses n m) (duo_positive n m) (duo_grounded h)
    (by
      intro own hc k f hk
      simp [duoCalls, Machine.run, Machine.step, restReg] at hc
      rw [← hc] at hk
      simp at hk)
    ⟨m, by rw [duo_nodes]; rcases h with ⟨rfl, rfl⟩ | ⟨rfl, rfl⟩ <;> simp, 1, by
      intro f hf
      rw [duo_fix h] at hf
      simp at hf
      rw [← hf]; rfl⟩
  exact ⟨u, hu⟩

theorem duo_ordered : RestrainedInOrder idealEnv (duoCalls "A" "B") "C" := by
  intro lc hlc
  obtain ⟨c, hrun⟩ := duo_run idealEnv (n := "A") (m := "B") (Or.inl ⟨rfl, rfl⟩)
  unfold World.getNodeNames
  rw [hrun] at hlc ⊢
  cases hlc
  exact List.Sublist.refl _

/-- clamped at "A", held at "B": both analyses report the same displacements -/
example : ∃ u, Reports idealEnv (duoCalls "A" "B") [] "C" u ∧ SecondReports idealEnv exactCg (duoCalls "A" "B") [] "C" u := by
  obtain ⟨u, hu⟩ := duo_reports (n := "A") (m := "B") (Or.inl ⟨rfl, rfl⟩)
  exact ⟨u, hu, (C151_same_partial idealEnv idealEnv_sound exactCg exactCg_sound _ [] (plainFrame_of_calls _ (duo_plain _ _)) "C" _
    (duo_poses _ _) (C69_grounded_stable _ _ _ (duo_poses _ _) (duo_positive _ _) (duo_grounded (Or.inl ⟨rfl, rfl⟩))) duo_ordered u hu).1⟩

/-- `np.insert` beyond the end -/
theorem solveCase2nd_short {dyn : DynEnv} {x : Assembly} {c : String} {K : Coo} {d : List ℝ} {fixed : List ℕ} {i : ℕ} {rest : List ℕ}
    (hb : x.boundaryDofs c = .ok fixed) (hr : solverRestraints x c = .ok (i :: rest)) (hi : K.nrow - fixed.length < i)
    (h : solveCase2nd dyn x c K = .ok d) : False := by
  unfold solveCase2nd at h
  simp only [Except.bind_ok_iff] at h
  obtain ⟨f, hf, K', hK', f', hf', h⟩ := h
  unfold Assembly.boundaryMatrix at hK'
  rw [hb, Except.bind_ok] at hK'
  have hn := (dropMatrix_shape hK').2.2.1
  split at h
  · rw [hr, Except.bind_ok] at h
    unfold expandInsert at h
    rw [List.foldlM_cons] at h
    simp only [npInsertZero, List.length_ofFn] at h
    rw [if_neg (by omega)] at h
    simp only [Except.bind_error] at h
    cases h
  · cases h

/-- C151 is false: with the second node restrained first, the zeros of the restrained components cannot be inserted where the loop inserts
them, and `solve_2nd_order` raises. -/
theorem C151_false : ¬ C151_claim := by
  intro h
  have hduo : Duo "B" "A" := Or.inr ⟨rfl, rfl⟩
  obtain ⟨u, hu⟩ := duo_reports hduo
  obtain ⟨u', h2, -⟩ := h idealEnv idealEnv_sound exactCg exactCg_sound _ [] (plainFrame_of_calls _ (duo_plain "B" "A")) "C" _ (duo_poses _ _)
    (C69_grounded_stable _ _ _ (duo_poses _ _) (duo_positive _ _) (duo_grounded hduo)) u hu
  have hret := h2.ret
  obtain ⟨c, hrun⟩ := duo_run idealEnv hduo
  rw [hrun, run_cons, run_nil] at hret
  have hx : (duoApi c "B" "A").assembly = .ok ⟨duoModel c "B" "A", [("C", demoCase)], (duoApi c "B" "A").heap, 5, [6, 7, 8, 9, 10, 11, 0]⟩ := rfl
  rw [step_assemble idealEnv _ _ hx] at hret
  generalize hxx : (⟨duoModel c "B" "A", [("C", demoCase)], (duoApi c "B" "A").heap, 5, [6, 7, 8, 9, 10, 11, 0]⟩ : Assembly) = x at hret
  have hopen : openAssembly (A := Api) (Dict.set [] Api.filename (.asb x)) Api.filename = .ok x := by
    unfold openAssembly
    rw [Dict.get?_set_same]
  have hb : x.boundaryDofs "C" = .ok [6, 7, 8, 9, 10, 11, 0] := by rw [← hxx]; rfl
  have hr : solverRestraints x "C" = .ok (6 :: [7, 8, 9, 10, 11, 0]) := by rw [← hxx]; rfl
  have hm : x.model.nodeCount = 2 := by rw [← hxx]; rfl
  replace hret : (solve2nd idealEnv exactCg (Dict.set [] Api.filename (.asb x)) Api.filename "C" none).2 = .ok () := hret
  unfold solve2nd cacheMatrix at hret
  rw [hopen] at hret
  simp only at hret
  rw [if_neg (by simp [Dict.contains, Dict.set, Dict.get?]; decide)] at hret
  cases hK : x.assembleK idealEnv with
  | error e => simp only [hK] at hret; cases hret
  | ok K =>
    simp only [hK] at hret
    cases hd : solveCase2nd exactCg x "C" K with
    | error e => simp only [hd] at hret; cases hret
    | ok d =>
      refine solveCase2nd_short hb hr ?_ hd
      rw [(assembleK_range hK).1, hm]
      decide

end Hyperstatic
