import Verif.Lemmas.Inv

namespace Hyperstatic

/-! closed forms of calls that always succeed, for concrete histories -/

theorem step_addNode (env : Env) (w : World) (name : String) (x y z : ℝ) :
    w.step env (.addNode name x y z) = ({ w with api := { w.api with model := { w.api.model with
      hidNode := w.api.model.hidNode.set name w.api.model.nodes.length
      nodes := w.api.model.nodes.set name (stdNode name x y z) } } }, true) := by
  rw [step_edit _ _ _ rfl, edit_addNode]

theorem step_of_edit (env : Env) (w : World) (c : Call) (a : Api) (hc : c.isEdit = true)
    (h : EditEff w.api c a) : w.step env c = ({ w with api := a }, true) := by
  rw [step_edit _ _ _ hc, (edit_ok_iff _ _ _).mpr h]

theorem step_addLoadpattern (env : Env) (w : World) (name : String) :
    w.step env (.addLoadpattern name) = ({ w with api := { w.api with
        heap := w.api.heap ++ [LoadPattern.new name]
        loadpatterns := w.api.loadpatterns.set name w.api.heap.length } }, true) :=
  step_of_edit _ _ _ _ rfl rfl

theorem step_addStaticCase (env : Env) (w : World) (name : String) :
    w.step env (.addStaticCase name) = ({ w with api := { w.api with
        loadcases := w.api.loadcases.set name (LoadCase.new name .static) } }, true) :=
  step_of_edit _ _ _ _ rfl rfl

theorem step_setNodalRestraint (env : Env) (w : World) (node : String) (flags : Flags) :
    w.step env (.setNodalRestraint node flags) = ({ w with api := if w.api.model.nodes.contains node then
        { w.api with model := { w.api.model with restraints := w.api.model.restraints.set node flags } }
        else w.api }, true) :=
  step_of_edit _ _ _ _ rfl rfl

theorem step_addMaterial (env : Env) (w : World) (name : String) (rho E mu al : ℝ) :
    w.step env (.addIsotropicMaterial name rho E mu al) = ({ w with api := { w.api with model := { w.api.model with
        material := w.api.model.material.set name ⟨name, rho, E, mu, al⟩ } } }, true) :=
  step_of_edit _ _ _ _ rfl rfl

theorem step_assemble (env : Env) (w : World) (x : Assembly) (h : w.api.assembly = .ok x) :
    w.step env .assemble = ({ w with fs := w.fs.set ".asb" (.asb x) }, true) := by
  simp only [World.step, h]; rfl

theorem step_save (env : Env) (w : World) (f : String) :
    w.step env (.save f) = ({ w with fs := w.fs.set (f ++ ".sep") (.sep w.api) }, true) := rfl

theorem step_load (env : Env) (w : World) (f : String) :
    w.step env (.load f) = match w.fs.get? (f ++ ".sep") with
      | some (.sep a) => ({ w with api := a }, true)
      | _ => (w, false) := rfl

theorem step_solveModal (env : Env) (w : World) (c : String) (n : ℕ) : w.step env (.solveModal c n) = (w, false) := by
  simp only [World.step]
  cases openAssembly w.fs Api.filename <;> rfl

theorem reaction_none (w : World) (n c : String) : w.resultGetNodalReaction n c = none := rfl

theorem endForce_none (w : World) (b c : String) : w.resultGetBeamEndForce b c = none := by
  unfold World.resultGetBeamEndForce resolveBeamEndForce
  cases openAssembly w.fs Api.filename <;> rfl

theorem run_nil (env : Env) (w : World) : w.run env [] = w := rfl
theorem run_cons (env : Env) (w : World) (c : Call) (cs : List Call) :
    w.run env (c :: cs) = (w.step env c).1.run env cs := rfl
theorem run_append (env : Env) (w : World) (cs cs' : List Call) :
    w.run env (cs ++ cs') = (w.run env cs).run env cs' := by
  simp [World.run, List.foldl_append]

/-- solving never touches the assembly -/
theorem openAssembly_solve {A : Type} (env : Env) (fs : Dict (File A)) (c : String) :
    openAssembly (solveLinear env fs Api.filename c).1 Api.filename = openAssembly fs Api.filename := by
  have : (solveLinear env fs Api.filename c).1.get? Api.filename = fs.get? Api.filename := by
    rcases solveLinear_fs env fs Api.filename c with e | ⟨K, e⟩ | ⟨K, d, e⟩
    · rw [e]
    · rw [e, Dict.get?_set_ne]; decide
    · rw [e, Dict.get?_set_ne _ _ (by rw [disp_eq]; exact disp_ne_asb c), Dict.get?_set_ne]; decide
  unfold openAssembly; rw [this]

/-- the assembly of a world is that of a model without restraints -/
theorem assembly_norest (a : Api) (h : a.model.restraints = []) :
    a.assembly = .ok ⟨a.model, a.loadcases.values.foldl (fun d lc => Dict.set d lc.name lc) [], a.heap,
      (a.model.nodeCount * 6 : ℕ) - (0 : ℕ), []⟩ := by
  simp only [Api.assembly, Assembly.mk?, restraintDofs, h]
  rfl

end Hyperstatic
