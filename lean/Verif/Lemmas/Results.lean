import Verif.Spec.Results
import Verif.Lemmas.World

/-
Which files the static solution and the result queries look at.
-/

namespace Hyperstatic
open Spec

/-- worlds with the same assembly and the same results -/
def SameFiles (w w' : World) : Prop :=
  w.fs.get? Api.filename = w'.fs.get? Api.filename ∧ w.fs.get? "0.k" = w'.fs.get? "0.k" ∧
  ∀ c : String, w.fs.get? (c ++ ".d.npy") = w'.fs.get? (c ++ ".d.npy")

theorem SameFiles.refl (w : World) : SameFiles w w := ⟨rfl, rfl, fun _ => rfl⟩
theorem SameFiles.symm {w w' : World} (h : SameFiles w w') : SameFiles w' w := ⟨h.1.symm, h.2.1.symm, fun c => (h.2.2 c).symm⟩
theorem SameFiles.trans {w w' w'' : World} (h : SameFiles w w') (h' : SameFiles w' w'') : SameFiles w w'' :=
  ⟨h.1.trans h'.1, h.2.1.trans h'.2.1, fun c => (h.2.2 c).trans (h'.2.2 c)⟩

theorem openAssembly_congr {A : Type} {fs fs' : Dict (File A)} {f : String} (h : fs.get? f = fs'.get? f) :
    openAssembly fs f = openAssembly fs' f := by unfold openAssembly; rw [h]

theorem sameResults_of {w w' : World} {c : String} (h1 : w.fs.get? Api.filename = w'.fs.get? Api.filename)
    (h2 : w.fs.get? (c ++ ".d.npy") = w'.fs.get? (c ++ ".d.npy")) : SameResults w w' c := by
  constructor
  · intro n
    unfold World.resultGetNodalDisplacement resolveNodalDisplacement loadDisp
    rw [openAssembly_congr h1, h2]
  · intro b l
    unfold World.resultGetBeamDeformation resolveBeamDeformation loadDisp
    rw [openAssembly_congr h1, h2]

theorem SameFiles.results {w w' : World} (h : SameFiles w w') (c : String) : SameResults w w' c :=
  sameResults_of h.1 (h.2.2 c)

/-- the solution only looks at the assembly (and for `0.k`) -/
theorem solve_congr (env : Env) {w w' : World} (h1 : w.fs.get? Api.filename = w'.fs.get? Api.filename)
    (h2 : w.fs.get? "0.k" = w'.fs.get? "0.k") (c : String) :
    (w.step env (.solveStatic c)).2 = (w'.step env (.solveStatic c)).2 ∧
    ((w.step env (.solveStatic c)).2 = true →
      (w.step env (.solveStatic c)).1.fs.get? (c ++ ".d.npy") = (w'.step env (.solveStatic c)).1.fs.get? (c ++ ".d.npy")) := by
  have hcont : w.fs.contains "0.k" = w'.fs.contains "0.k" := by unfold Dict.contains; rw [h2]
  simp only [World.step, solveLinear, openAssembly_congr h1, hcont]
  cases openAssembly w'.fs Api.filename with
  | error e => exact ⟨rfl, fun h => by simp [tryBool] at h⟩
  | ok x =>
    simp only
    by_cases hk : w'.fs.contains "0.k" = true
    · simp [hk, tryBool]
    · simp only [hk, Bool.false_eq_true, if_false]
      cases x.assembleK env with
      | error e => exact ⟨rfl, fun h => by simp [tryBool] at h⟩
      | ok K =>
        simp only
        cases solveCase env x c K with
        | error e => exact ⟨rfl, fun h => by simp [tryBool] at h⟩
        | ok d =>
          refine ⟨rfl, fun _ => ?_⟩
          simp only [disp_eq, Dict.get?_set_same]

/-- what a solution leaves alone -/
theorem solve_frame (env : Env) (w : World) (c : String) :
    (w.step env (.solveStatic c)).1.fs.get? Api.filename = w.fs.get? Api.filename ∧
    (w.step env (.solveStatic c)).1.fs.get? "0.k" = w.fs.get? "0.k" ∧
    (∀ c', c' ≠ c → (w.step env (.solveStatic c)).1.fs.get? (c' ++ ".d.npy") = w.fs.get? (c' ++ ".d.npy")) ∧
    ((w.step env (.solveStatic c)).2 = false →
      (w.step env (.solveStatic c)).1.fs.get? (c ++ ".d.npy") = w.fs.get? (c ++ ".d.npy")) := by
  refine ⟨asb_step env w _ (by simp), ?_, ?_, ?_⟩
  · simp only [World.step]
    rcases solveLinear_fs env w.fs Api.filename c with e | ⟨K, e⟩ | ⟨K, d, e⟩
    · rw [e]
    · rw [e, Dict.get?_set_ne _ _ (by decide)]
    · rw [e, Dict.get?_set_ne _ _ (by rw [disp_eq]; exact append_ne_0k (by decide)), Dict.get?_set_ne _ _ (by decide)]
  · intro c' hc
    simp only [World.step]
    rcases solveLinear_fs env w.fs Api.filename c with e | ⟨K, e⟩ | ⟨K, d, e⟩
    · rw [e]
    · rw [e, Dict.get?_set_ne _ _ (disp_ne_stiff c').symm]
    · rw [e, Dict.get?_set_ne _ _ (by rw [disp_eq]; exact disp_ne_disp hc.symm), Dict.get?_set_ne _ _ (disp_ne_stiff c').symm]
  · simp only [World.step, solveLinear]
    cases openAssembly w.fs Api.filename with
    | error e => intro _; rfl
    | ok x =>
      simp only
      by_cases hk : w.fs.contains "0.k" = true
      · simp [hk]
      · simp only [hk, Bool.false_eq_true, if_false]
        cases x.assembleK env with
        | error e => intro _; rfl
        | ok K =>
          simp only
          cases solveCase env x c K with
          | error e => intro _; exact Dict.get?_set_ne _ _ (disp_ne_stiff c).symm
          | ok d => intro h; simp [tryBool] at h

theorem SameFiles.solve (env : Env) {w w' : World} (h : SameFiles w w') (c : String) :
    (w.step env (.solveStatic c)).2 = (w'.step env (.solveStatic c)).2 ∧
    SameFiles (w.step env (.solveStatic c)).1 (w'.step env (.solveStatic c)).1 := by
  obtain ⟨e1, e2⟩ := solve_congr env h.1 h.2.1 c
  obtain ⟨f1, f2, f3, f4⟩ := solve_frame env w c
  obtain ⟨g1, g2, g3, g4⟩ := solve_frame env w' c
  refine ⟨e1, ?_, ?_, ?_⟩
  · rw [f1, g1]; exact h.1
  · rw [f2, g2]; exact h.2.1
  · intro c'
    by_cases hc : c' = c
    · subst hc
      cases hr : (w.step env (.solveStatic c')).2 with
      | true => exact e2 hr
      | false => rw [f4 hr, g4 (e1 ▸ hr)]; exact h.2.2 c'
    · rw [f3 c' hc, g3 c' hc]; exact h.2.2 c'

/-- other calls than `assemble` and `solve_static` leave assembly and results alone -/
theorem SameFiles.idle (env : Env) (w : World) (c : Call) (h1 : c ≠ .assemble) (h2 : isSolve c = false) :
    SameFiles (w.step env c).1 w := by
  by_cases he : c.isEdit = true
  · rw [step_edit env w c he]
    split <;> exact SameFiles.refl w
  · cases c <;> first | (exact absurd rfl he) | (exact absurd rfl h1) | (cases h2; done) | skip
    case solveModal => exact SameFiles.refl w
    case clearWorkspace => exact SameFiles.refl w
    case load f =>
      rw [step_load]
      split <;> exact SameFiles.refl w
    case save f =>
      rw [step_save]
      refine ⟨Dict.get?_set_ne _ _ (sep_ne_asb f), Dict.get?_set_ne _ _ (append_ne_0k (by decide)), fun c => ?_⟩
      have := sep_ne_disp f c
      rw [disp_eq] at this
      exact Dict.get?_set_ne _ _ this

theorem solves_only (env : Env) (cs : List Call) (hcs : ∀ c ∈ cs, c ≠ .assemble) {w w' : World} (h : SameFiles w w') :
    solveReturns env w cs = outputs env w' (cs.filter isSolve) ∧ SameFiles (w.run env cs) (w'.run env (cs.filter isSolve)) := by
  induction cs generalizing w w' with
  | nil => exact ⟨rfl, h⟩
  | cons c cs ih =>
    have hc := hcs c (by simp)
    have hcs' := fun k hk => hcs k (List.mem_cons_of_mem _ hk)
    by_cases hs : isSolve c = true
    · cases c <;> first | (simp [isSolve] at hs; done) | skip
      rename_i case
      obtain ⟨h1, h2⟩ := SameFiles.solve env h case
      obtain ⟨i1, i2⟩ := ih hcs' h2
      rw [List.filter_cons_of_pos hs]
      refine ⟨?_, i2⟩
      unfold solveReturns outputs
      rw [if_pos hs, h1, i1]
    · have hs' : isSolve c = false := by simpa using hs
      obtain ⟨i1, i2⟩ := ih hcs' ((SameFiles.idle env w c hc hs').trans h)
      rw [List.filter_cons_of_neg hs]
      refine ⟨?_, i2⟩
      unfold solveReturns
      rw [if_neg hs]
      exact i1

end Hyperstatic
