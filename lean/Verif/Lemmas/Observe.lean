import Verif.Spec.Observe
import Verif.Lemmas.Step

namespace Hyperstatic
open Spec

/-- same api, same files apart from the stored stiffness -/
def SameButStiff (w w' : World) : Prop :=
  w.api = w'.api ∧ ∀ k, k ≠ "0.k.npy" → w.fs.get? k = w'.fs.get? k

theorem SameButStiff.answers {w w' : World} (h : SameButStiff w w') : SameAnswers w w' := by
  obtain ⟨ha, hf⟩ := h
  obtain ⟨a, fs⟩ := w
  obtain ⟨a', fs'⟩ := w'
  simp only at ha hf
  subst ha
  have h1 : openAssembly fs Api.filename = openAssembly fs' Api.filename := by
    unfold openAssembly; rw [hf _ (by decide)]
  have h2 : ∀ c, loadDisp fs c = loadDisp fs' c := by
    intro c; unfold loadDisp; rw [hf _ (disp_ne_stiff c)]
  have h3 : ∀ n c, resolveNodalDisplacement fs Api.filename n c = resolveNodalDisplacement fs' Api.filename n c := by
    intro n c; unfold resolveNodalDisplacement; rw [h1, h2]
  constructor <;> intros <;> try rfl
  · simp only [World.resultGetNodalDisplacement, h3]
  · simp only [World.resultGetAllNodalDisplacement, World.getNodeNames, h1, h3]
  · simp only [endForce_none]
  · simp only [World.resultGetBeamDeformation, resolveBeamDeformation, h1, h2]

theorem contains_congr {α : Type} {d e : Dict α} {k : String} (h : d.get? k = e.get? k) :
    d.contains k = e.contains k := by unfold Dict.contains; rw [h]

theorem SameButStiff.set {fs fs' : Dict (File Api)} (h : ∀ k, k ≠ "0.k.npy" → fs.get? k = fs'.get? k)
    (k : String) (v : File Api) : ∀ q, q ≠ "0.k.npy" → (fs.set k v).get? q = (fs'.set k v).get? q := by
  intro q hq
  rw [Dict.get?_set, Dict.get?_set, h q hq]

theorem SameButStiff.setStiff {fs fs' : Dict (File Api)} (h : ∀ k, k ≠ "0.k.npy" → fs.get? k = fs'.get? k)
    (v : File Api) : ∀ q, q ≠ "0.k.npy" → (fs.set "0.k.npy" v).get? q = fs'.get? q := by
  intro q hq
  rw [Dict.get?_set_ne _ _ (Ne.symm hq), h q hq]

theorem solveLinear_same {fs fs' : Dict (File Api)} (env : Env) (c : String)
    (h : ∀ k, k ≠ "0.k.npy" → fs.get? k = fs'.get? k) :
    (solveLinear env fs Api.filename c).2 = (solveLinear env fs' Api.filename c).2 ∧
    ∀ k, k ≠ "0.k.npy" → (solveLinear env fs Api.filename c).1.get? k =
      (solveLinear env fs' Api.filename c).1.get? k := by
  have h1 : openAssembly fs Api.filename = openAssembly fs' Api.filename := by
    unfold openAssembly; rw [h _ (by decide)]
  have h2 : fs.contains "0.k" = fs'.contains "0.k" := contains_congr (h _ (by decide))
  unfold solveLinear
  rw [h1, h2]
  split
  · exact ⟨rfl, h⟩
  · split
    · exact ⟨rfl, h⟩
    · split
      · exact ⟨rfl, h⟩
      · split
        · exact ⟨rfl, SameButStiff.set h _ _⟩
        · exact ⟨rfl, SameButStiff.set (SameButStiff.set h _ _) _ _⟩

theorem SameButStiff.step {w w' : World} (env : Env) (c : Call) (h : SameButStiff w w') :
    (w.step env c).2 = (w'.step env c).2 ∧ SameButStiff (w.step env c).1 (w'.step env c).1 := by
  obtain ⟨ha, hf⟩ := h
  obtain ⟨a, fs⟩ := w
  obtain ⟨a', fs'⟩ := w'
  simp only at ha hf
  subst ha
  by_cases hc : c.isEdit = true
  · rw [step_edit _ _ _ hc, step_edit _ _ _ hc]
    simp only
    split
    · exact ⟨rfl, rfl, hf⟩
    · exact ⟨rfl, rfl, hf⟩
  · cases c <;> first | (exact absurd rfl hc) | skip
    · simp only [World.step]
      split
      · exact ⟨rfl, rfl, SameButStiff.set hf _ _⟩
      · exact ⟨rfl, rfl, hf⟩
    · rename_i case
      obtain ⟨h1, h2⟩ := solveLinear_same env case hf
      exact ⟨congrArg tryBool h1, rfl, h2⟩
    · rw [step_solveModal, step_solveModal]
      exact ⟨rfl, rfl, hf⟩
    · exact ⟨rfl, rfl, SameButStiff.set hf _ _⟩
    · rename_i f
      simp only [World.step]
      rw [hf _ (sep_ne_stiff f)]
      split
      · exact ⟨rfl, rfl, hf⟩
      · exact ⟨rfl, rfl, hf⟩
    · exact ⟨rfl, rfl, hf⟩

theorem SameButStiff.indist {w w' : World} (env : Env) (h : SameButStiff w w') : Indistinguishable env w w' := by
  intro cs
  induction cs generalizing w w' with
  | nil => exact ⟨rfl, h.answers⟩
  | cons c cs ih =>
    obtain ⟨h1, h2⟩ := h.step env c
    obtain ⟨h3, h4⟩ := ih h2
    exact ⟨by simp only [outputs, h1, h3], h4⟩

end Hyperstatic
