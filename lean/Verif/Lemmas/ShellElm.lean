import Verif.Lemmas.ShellStrain
import Mathlib.Logic.Equiv.Fin.Basic

/-
Shell elements as objects: virtual work of displacement states in terms of strains.
-/

namespace Hyperstatic
open Matrix Spec

theorem split6_eq (n : ℕ) : split6 n = (finProdFinEquiv (m := n) (n := 6)).symm := by
  funext p
  apply Prod.ext <;> apply Fin.ext <;> simp [split6, finProdFinEquiv, Fin.divNat, Fin.modNat]

theorem submatrix_work (n : ℕ) (K : Matrix (Fin n × Fin 6) (Fin n × Fin 6) ℝ) (x y : Fin n × Fin 6 → ℝ) :
    (fun k => x (split6 n k)) ⬝ᵥ (K.submatrix (split6 n) (split6 n) *ᵥ fun k => y (split6 n k)) = x ⬝ᵥ (K *ᵥ y) := by
  rw [split6_eq]
  unfold dotProduct
  rw [← Equiv.sum_comp (finProdFinEquiv (m := n) (n := 6)).symm]
  apply Finset.sum_congr rfl
  intro i _
  congr 1
  unfold mulVec dotProduct
  rw [← Equiv.sum_comp (finProdFinEquiv (m := n) (n := 6)).symm]
  rfl

/-- nodal displacements of the nodes with given names -/
def nodal {n : ℕ} (names : Fin n → String) (u : State) : Fin n × Fin 6 → ℝ := fun p => u (names p.1) p.2

theorem shellEnds_nodal (e : ShellElm) (n0 n1 n2 n3 : String × V3) (hn : e.nodes = [n0, n1, n2, n3]) (u : State) :
    shellEnds e u = fun k : Fin (4 * 6) => nodal ![n0.1, n1.1, n2.1, n3.1] u (split6 4 k) := by
  funext k
  unfold shellEnds nodal split6
  rw [hn]
  obtain ⟨k, hk⟩ := k
  have hk' : k / 6 < 4 := by omega
  simp only
  generalize hq : (⟨k % 6, Nat.mod_lt _ (by decide)⟩ : Fin 6) = r
  have : k / 6 = 0 ∨ k / 6 = 1 ∨ k / 6 = 2 ∨ k / 6 = 3 := by omega
  rcases this with h | h | h | h <;> simp only [h] <;> rfl

theorem shellEnds_nodal3 (e : ShellElm) (n0 n1 n2 : String × V3) (hn : e.nodes = [n0, n1, n2]) (u : State) :
    shellEnds e u = fun k : Fin (3 * 6) => nodal ![n0.1, n1.1, n2.1] u (split6 3 k) := by
  funext k
  unfold shellEnds nodal split6
  rw [hn]
  obtain ⟨k, hk⟩ := k
  simp only
  have : k / 6 = 0 ∨ k / 6 = 1 ∨ k / 6 = 2 := by omega
  rcases this with h | h | h <;> simp only [h] <;> rfl

theorem quad_internal (q : Schemes) (nan4 : ShellElm → Matrix (Fin 24) (Fin 24) ℝ) (nan3 : ShellElm → Matrix (Fin 18) (Fin 18) ℝ)
    (solve : (n : ℕ) → Matrix (Fin n) (Fin n) ℝ → Vec n → Except PyErr (Vec n)) (e : ShellElm) (hr : e.regular q) (c : Csys)
    (hc : e.csys = some c) (n0 n1 n2 n3 : String × V3) (hn : e.nodes = [n0, n1, n2, n3]) (v u : State) :
    shellInternal (shellEnv q nan4 nan3 solve) e v u =
      nodal ![n0.1, n1.1, n2.1, n3.1] v ⬝ᵥ (quadStiffness q e.section_ c ![n0.2, n1.2, n2.2, n3.2] *ᵥ nodal ![n0.1, n1.1, n2.1, n3.1] u) := by
  unfold shellInternal shellEnv
  rw [if_pos (by rw [hn]; rfl)]
  simp only [hr, if_true, hc, hn]
  rw [shellEnds_nodal e n0 n1 n2 n3 hn, shellEnds_nodal e n0 n1 n2 n3 hn]
  exact submatrix_work 4 _ _ _

theorem tria_internal (q : Schemes) (nan4 : ShellElm → Matrix (Fin 24) (Fin 24) ℝ) (nan3 : ShellElm → Matrix (Fin 18) (Fin 18) ℝ)
    (solve : (n : ℕ) → Matrix (Fin n) (Fin n) ℝ → Vec n → Except PyErr (Vec n)) (e : ShellElm) (hr : e.regular q) (c : Csys)
    (hc : e.csys = some c) (n0 n1 n2 : String × V3) (hn : e.nodes = [n0, n1, n2]) (v u : State) :
    shellInternal (shellEnv q nan4 nan3 solve) e v u =
      nodal ![n0.1, n1.1, n2.1] v ⬝ᵥ (triaStiffness q e.section_ c ![n0.2, n1.2, n2.2] *ᵥ nodal ![n0.1, n1.1, n2.1] u) := by
  unfold shellInternal shellEnv
  rw [if_neg (by rw [hn]; simp)]
  simp only [hr, if_true, hc, hn]
  rw [shellEnds_nodal3 e n0 n1 n2 hn, shellEnds_nodal3 e n0 n1 n2 hn]
  exact submatrix_work 3 _ _ _

theorem localOf_nodal {n : ℕ} (c : Csys) (x : Fin n × Fin 6 → ℝ) (i : Fin n) :
    localOf c x (i, 0) = c.x.x * x (i, 0) + c.x.y * x (i, 1) + c.x.z * x (i, 2) ∧
    localOf c x (i, 1) = c.y.x * x (i, 0) + c.y.y * x (i, 1) + c.y.z * x (i, 2) ∧
    localOf c x (i, 2) = c.z.x * x (i, 0) + c.z.y * x (i, 1) + c.z.z * x (i, 2) ∧
    localOf c x (i, 3) = c.x.x * x (i, 3) + c.x.y * x (i, 4) + c.x.z * x (i, 5) ∧
    localOf c x (i, 4) = c.y.x * x (i, 3) + c.y.y * x (i, 4) + c.y.z * x (i, 5) ∧
    localOf c x (i, 5) = c.z.x * x (i, 3) + c.z.y * x (i, 4) + c.z.z * x (i, 5) := by
  have key : ∀ r, localOf c x (i, r) = ∑ r', shellT n c (i, r) (i, r') * x (i, r') := by
    intro r
    unfold localOf mulVec dotProduct
    rw [Fintype.sum_prod_type, Finset.sum_eq_single i]
    · intro j _ hj
      apply Finset.sum_eq_zero
      intro r' _
      have : ¬ i = j := fun h => hj h.symm
      simp [shellT, this]
    · simp
  refine ⟨?_, ?_, ?_, ?_, ?_, ?_⟩ <;> rw [key] <;> simp [Fin.sum_univ_six, shellT, Csys.T]

/-- membrane components of a quadrilateral in the axes of the element -/
theorem pick_quad {n : ℕ} (c : Csys) (names : Fin n → String) (u : State) (i : Fin n) :
    pick quadIdx (localOf c (nodal names u)) (i, 0) = c.x.dot (Spec.trans (u (names i))) ∧
    pick quadIdx (localOf c (nodal names u)) (i, 1) = c.y.dot (Spec.trans (u (names i))) ∧
    pick quadIdx (localOf c (nodal names u)) (i, 2) = c.z.dot (Spec.rot (u (names i))) := by
  obtain ⟨h0, h1, h2, h3, h4, h5⟩ := localOf_nodal c (nodal names u) i
  exact ⟨h0, h1, h5⟩

theorem pick_tria {n : ℕ} (c : Csys) (names : Fin n → String) (u : State) (i : Fin n) :
    pick triaIdx (localOf c (nodal names u)) (i, 0) = c.x.dot (Spec.trans (u (names i))) ∧
    pick triaIdx (localOf c (nodal names u)) (i, 1) = c.y.dot (Spec.trans (u (names i))) := by
  obtain ⟨h0, h1, h2, h3, h4, h5⟩ := localOf_nodal c (nodal names u) i
  exact ⟨h0, h1⟩

/-- plate components in the axes of the element -/
theorem pick_plate {n : ℕ} (c : Csys) (names : Fin n → String) (u : State) (i : Fin n) :
    pick plateIdx (localOf c (nodal names u)) (i, 0) = c.z.dot (Spec.trans (u (names i))) ∧
    pick plateIdx (localOf c (nodal names u)) (i, 1) = c.x.dot (Spec.rot (u (names i))) ∧
    pick plateIdx (localOf c (nodal names u)) (i, 2) = c.y.dot (Spec.rot (u (names i))) := by
  obtain ⟨h0, h1, h2, h3, h4, h5⟩ := localOf_nodal c (nodal names u) i
  exact ⟨h2, h3, h4⟩

end Hyperstatic
