import Verif.Props.TimeHistory

/-
C121, C122: energy in the time-history solvers.
-/

namespace Hyperstatic
open Matrix Spec

/-! ### C121 Damping takes energy out -/

theorem rayleigh_in_use : rayleighA0 0.05 0.02 2 1 = 0.02 / (3 * Real.pi) * (4 * Real.pi) ^ 2 ∧
    rayleighA1 0.05 0.02 2 1 = - (0.02 / (3 * Real.pi)) := by
  have hpi := Real.pi_pos.ne'
  unfold rayleighA0 rayleighA1
  simp only
  have h : (2 * Real.pi / 1) ^ 2 - (2 * Real.pi / 2) ^ 2 = 3 * Real.pi ^ 2 := by ring
  constructor
  · rw [h]; field_simp; norm_num
  · rw [h]; field_simp; norm_num

/-- The property: the damping matrix of a direct time integration never does positive work on the structure. -/
def C121_claim : Prop :=
  ∀ (env : Env) (cs : List Call), NoReadd env World.init cs → ∀ (cases : List LoadCase) (heap : PatHeap) (x : Assembly),
    Assembly.mk? (World.init.run env cs).api.model cases heap = .ok x → ∀ (c : String) (lc : LoadCase), x.cases.get? c = some lc →
    lc.restraint.WF → ∀ (K M K_ M_ C_ : Coo), x.assembleK env = .ok K → x.assembleM = .ok M → x.boundaryMatrix c K = .ok K_ →
    x.boundaryMatrix c M = .ok M_ → x.boundaryMatrix c (rayleighC K M) = .ok C_ →
    ∀ v : Vec K_.nrow, 0 ≤ v ⬝ᵥ (C_.dense K_.nrow *ᵥ v)

/-- The power drawn by the damping forces from velocities `v` is a positive multiple of `(4π)² v·Mv - v·Kv`. -/
theorem C121_power_partial (env : Env) (cs : List Call) (hcs : NoReadd env World.init cs) (cases : List LoadCase) (heap : PatHeap) (x : Assembly)
    (hx : Assembly.mk? (World.init.run env cs).api.model cases heap = .ok x) (c : String) (lc : LoadCase)
    (hc : x.cases.get? c = some lc) (hr : lc.restraint.WF) (K M K_ M_ C_ : Coo) (hK : x.assembleK env = .ok K) (hM : x.assembleM = .ok M)
    (hK_ : x.boundaryMatrix c K = .ok K_) (hM_ : x.boundaryMatrix c M = .ok M_) (hC_ : x.boundaryMatrix c (rayleighC K M) = .ok C_)
    (v : Vec K_.nrow) :
    v ⬝ᵥ (C_.dense K_.nrow *ᵥ v) = 0.02 / (3 * Real.pi) *
      ((4 * Real.pi) ^ 2 * (v ⬝ᵥ (M_.dense K_.nrow *ᵥ v)) - v ⬝ᵥ (K_.dense K_.nrow *ᵥ v)) := by
  have hF := (FreshInv_run env cs hcs).1
  obtain ⟨hm, -, hfix, -⟩ := mk_assembly hx
  have hwf := governing_wf' hF.toApiInv hr
  obtain ⟨fixed, ht, hb, hK'⟩ := boundaryMatrix_split hm hfix hc hK_
  unfold Assembly.boundaryMatrix at hM_ hC_
  rw [hb, Except.bind_ok] at hM_ hC_
  have hn := (stiff_form env hF hm hK hwf ht hK').1
  rw [damping_dense env hF hm hK hM hwf ht hK' hM_ hC_ _ hn]
  obtain ⟨r0, r1⟩ := rayleigh_in_use
  rw [r0, r1, add_mulVec, smul_mulVec, smul_mulVec, dotProduct_add, dotProduct_smul, dotProduct_smul, smul_eq_mul, smul_eq_mul]
  ring

/-- So it takes energy out exactly of the motions whose elastic power is at most `(4π)²` times the inertial one: in a vibration mode, when its
circular frequency is at most `4π`, that is, its period at least half a second. -/
theorem C121_slow_modes_partial (env : Env) (cs : List Call) (hcs : NoReadd env World.init cs) (cases : List LoadCase) (heap : PatHeap) (x : Assembly)
    (hx : Assembly.mk? (World.init.run env cs).api.model cases heap = .ok x) (c : String) (lc : LoadCase)
    (hc : x.cases.get? c = some lc) (hr : lc.restraint.WF) (K M K_ M_ C_ : Coo) (hK : x.assembleK env = .ok K) (hM : x.assembleM = .ok M)
    (hK_ : x.boundaryMatrix c K = .ok K_) (hM_ : x.boundaryMatrix c M = .ok M_) (hC_ : x.boundaryMatrix c (rayleighC K M) = .ok C_)
    (phi : Vec K_.nrow) (ω : ℝ) (hω : 0 ≤ ω) (hphi : K_.dense K_.nrow *ᵥ phi = ω ^ 2 • (M_.dense K_.nrow *ᵥ phi))
    (hpos : 0 < phi ⬝ᵥ (M_.dense K_.nrow *ᵥ phi)) :
    0 ≤ phi ⬝ᵥ (C_.dense K_.nrow *ᵥ phi) ↔ ω ≤ 4 * Real.pi := by
  have hpi := Real.pi_pos
  rw [C121_power_partial env cs hcs cases heap x hx c lc hc hr K M K_ M_ C_ hK hM hK_ hM_ hC_ phi, hphi, dotProduct_smul, smul_eq_mul]
  generalize phi ⬝ᵥ (M_.dense K_.nrow *ᵥ phi) = m at hpos
  have hk : 0 < 0.02 / (3 * Real.pi) := by positivity
  rw [← sub_mul, mul_nonneg_iff_of_pos_left hk, mul_nonneg_iff_of_pos_right hpos, sub_nonneg, sq_le_sq₀ hω (by positivity)]

/-- a time-history case without loads -/
def idleCase : LoadCase := LoadCase.new "H" .timeHistory

theorem demo_idle (env : Env) : ∃ (cy : Csys) (x : Assembly) (K M K_ M_ C_ : Coo), lineCsys ⟨0, 0, 0⟩ ⟨1, 2, 3⟩ = .ok cy ∧
    (World.init.run env demoCalls).api.model = demoModel cy ∧
    Assembly.mk? (World.init.run env demoCalls).api.model [idleCase] [] = .ok x ∧ x.cases.get? "H" = some idleCase ∧
    x.assembleK env = .ok K ∧ x.assembleM = .ok M ∧ x.boundaryMatrix "H" K = .ok K_ ∧ x.boundaryMatrix "H" M = .ok M_ ∧
    x.boundaryMatrix "H" (rayleighC K M) = .ok C_ ∧
    ∀ V : ℕ → ℝ, (∀ i < 6, V i = 0) → ∃ v : Vec K_.nrow,
      v ⬝ᵥ (K_.dense K_.nrow *ᵥ v) = internalWork env (demoModel cy) (gat (demoModel cy) V) (gat (demoModel cy) V) ∧
      v ⬝ᵥ (M_.dense K_.nrow *ᵥ v) = inertialWork (demoModel cy) (gat (demoModel cy) V) (gat (demoModel cy) V) := by
  obtain ⟨c, hc, hrun⟩ := demo_run env
  have hF := (FreshInv_run env demoCalls (demo_noReadd env)).1
  have hapi : (World.init.run env demoCalls).api = demoApi c := by rw [hrun]
  rw [hapi] at hF ⊢
  have hA := hF.toApiInv
  have hfix : restraintDofs (demoModel c) (demoModel c).restraints = .ok [0, 1, 2, 3, 4, 5] := rfl
  have hx : ∃ x, Assembly.mk? (demoApi c).model [idleCase] [] = .ok x ∧ x.cases = [("H", idleCase)] := ⟨_, rfl, rfl⟩
  obtain ⟨x, hx, hcs⟩ := hx
  obtain ⟨hm, -, hfix', -⟩ := mk_assembly hx
  obtain ⟨K, hK⟩ := (assembleK_ok_iff env hF hm).mpr (demo_mu c)
  obtain ⟨M, hM⟩ := assembleM_ok hF hm
  have hcase : x.cases.get? "H" = some idleCase := by rw [hcs]; rfl
  have hb : x.boundaryDofs "H" = .ok [0, 1, 2, 3, 4, 5] := by
    rw [boundaryDofs_governing hm hfix' hcase]; exact hfix
  obtain ⟨hnd, hlt⟩ := restraintDofs_nodup hF hF.toApiInv.rest_wf hfix
  obtain ⟨kr, kc, kents⟩ := assembleK_range hK
  obtain ⟨mr, mc, ments⟩ := assembleM_range hM
  rw [hm] at kr kc mr mc
  obtain ⟨K_, hK'⟩ := dropMatrix_ok hnd (kr.trans kc.symm) (by rw [kr]; exact hlt) kents
  obtain ⟨M_, hM'⟩ := dropMatrix_ok hnd (mr.trans mc.symm) (by rw [mr]; exact hlt) ments
  have cents : ∀ e ∈ (rayleighC K M).ents, e.1 < (rayleighC K M).nrow ∧ e.2.1 < (rayleighC K M).ncol := by
    intro e he
    have e1 : (rayleighC K M).nrow = M.nrow := rfl
    have e2 : (rayleighC K M).ncol = M.ncol := rfl
    rw [e1, e2]
    unfold rayleighC at he
    simp only [List.mem_append, List.mem_map] at he
    rcases he with ⟨q, hq, rfl⟩ | ⟨q, hq, rfl⟩
    · exact ments q hq
    · have := kents q hq
      rw [mr, mc, ← kr]
      exact ⟨this.1, by rw [kr, ← kc]; exact this.2⟩
  obtain ⟨C_, hC'⟩ := dropMatrix_ok (K := rayleighC K M) hnd (mr.trans mc.symm) (by show ∀ i ∈ _, i < M.nrow; rw [mr]; exact hlt) cents
  obtain ⟨hn, kf⟩ := stiff_form env hF hm hK hF.toApiInv.rest_wf hfix hK'
  obtain ⟨hn', mf⟩ := mass_form hF hm hM hF.toApiInv.rest_wf hfix hM'
  refine ⟨c, x, K, M, K_, M_, C_, hc, rfl, hx, hcase, hK, hM, ?_, ?_, ?_, ?_⟩
  · unfold Assembly.boundaryMatrix; rw [hb, Except.bind_ok, hK']
  · unfold Assembly.boundaryMatrix; rw [hb, Except.bind_ok, hM']
  · unfold Assembly.boundaryMatrix; rw [hb, Except.bind_ok, hC']
  · intro V hV
    have hV' : ∀ i ∈ [0, 1, 2, 3, 4, 5], V i = 0 := by
      intro i hi
      apply hV
      simp only [List.mem_cons, List.not_mem_nil, or_false] at hi
      omega
    exact ⟨_, kf _ hn V V hV' hV', mf _ hn V V hV' hV'⟩

/-- False: every frame has fast rotational modes (the rotary inertia of a beam end is 1e-12), and in these the damping forces push. -/
theorem C121_false : ¬ C121_claim := by
  intro H
  obtain ⟨c, x, K, M, K_, M_, C_, hc, hmod, hx, hcase, hK, hM, hK_, hM_, hC_, hform⟩ := demo_idle idealEnv
  have hwf : idleCase.restraint.WF := List.nodup_nil
  obtain ⟨hr, hl, -⟩ := lineCsys_ok hc
  obtain ⟨v, hk, hmm⟩ := hform (fun i => if i = 9 then c.x.x else if i = 10 then c.x.y else if i = 11 then c.x.z else 0) (by
    intro i hi
    rw [if_neg (by omega), if_neg (by omega), if_neg (by omega)])
  have h0 := H idealEnv demoCalls (demo_noReadd _) _ _ x hx "H" idleCase hcase hwf K M K_ M_ C_ hK hM hK_ hM_ hC_ v
  rw [C121_power_partial idealEnv demoCalls (demo_noReadd _) _ _ x hx "H" idleCase hcase hwf K M K_ M_ C_ hK hM hK_ hM_ hC_ v, hk, hmm] at h0
  generalize hu : gat (demoModel c) (fun i => if i = 9 then c.x.x else if i = 10 then c.x.y else if i = 11 then c.x.z else 0) = u at h0
  have uA : u "A" = 0 := by
    rw [← hu]; funext r
    have : hidOf (demoModel c) "A" = 0 := rfl
    unfold gat
    rw [this]
    have := r.isLt
    simp only [Pi.zero_apply]
    rw [if_neg (by omega), if_neg (by omega), if_neg (by omega)]
  have uB : u "B" = ![0, 0, 0, c.x.x, c.x.y, c.x.z] := by
    rw [← hu]; funext r
    have : hidOf (demoModel c) "B" = 1 := rfl
    unfold gat
    rw [this]
    fin_cases r <;> rfl
  have hxx : c.x.dot c.x = 1 := hr.xx
  have hyx : c.y.dot c.x = 0 := by rw [← hr.xy]; simp only [V3.dot]; ring
  have hzx : c.z.dot c.x = 0 := hr.zx
  have e1 : inertialWork (demoModel c) u u = 1 / 10 ^ 12 := by
    rw [demo_inertia c u u uA, uB]
    have t : Spec.trans ![0, 0, 0, c.x.x, c.x.y, c.x.z] = ⟨0, 0, 0⟩ := by simp [Spec.trans]
    have r : Spec.rot ![0, 0, 0, c.x.x, c.x.y, c.x.z] = c.x := by simp [Spec.rot]
    rw [t, r, hxx]
    simp [V3.dot]
  have e2 : internalWork idealEnv (demoModel c) u u = 1 / (2 * lineLength ⟨0, 0, 0⟩ ⟨1, 2, 3⟩) := by
    have : internalWork idealEnv (demoModel c) u u = beamInternal (demoBeam c) u u := by
      simp [internalWork, demoModel, FeModel.empty]
    rw [this]
    have e1 : beamEnds (demoBeam c) u = ![0, 0, 0, 0, 0, 0, 0, 0, 0, 1, 0, 0] := by
      show localEnds c (u "A") (u "B") = _
      rw [uA, uB, ← hxx]
      unfold localEnds
      have r : Spec.rot ![0, 0, 0, c.x.x, c.x.y, c.x.z] = c.x := by simp [Spec.rot]
      rw [r, hyx, hzx]
      simp [Spec.trans, Spec.rot, V3.dot]
    unfold beamInternal beamWork bendWork
    rw [e1]
    simp [demoBeam, constsOf, BeamElm.length]
    ring
  rw [e1, e2] at h0
  have hpi := Real.pi_pos
  have hpi4 := Real.pi_le_four
  have hlen : lineLength ⟨0, 0, 0⟩ ⟨1, 2, 3⟩ ≤ 4 := by
    unfold lineLength V3.norm
    rw [Real.sqrt_le_left (by norm_num)]
    show ((0 : ℝ) - 1) * (0 - 1) + (0 - 2) * (0 - 2) + (0 - 3) * (0 - 3) ≤ 4 ^ 2
    norm_num
  have hlen0 : 0 < lineLength ⟨0, 0, 0⟩ ⟨1, 2, 3⟩ := hl
  have hk : 0 < 0.02 / (3 * Real.pi) := by positivity
  have h1 := (mul_nonneg_iff_of_pos_left hk).mp h0
  have h2 : (4 * Real.pi) ^ 2 * (1 / 10 ^ 12) ≤ 256 / 10 ^ 12 := by
    have : (4 * Real.pi) ^ 2 ≤ 256 := by nlinarith
    nlinarith
  have h3 : 1 / 8 ≤ 1 / (2 * lineLength ⟨0, 0, 0⟩ ⟨1, 2, 3⟩) := by
    apply one_div_le_one_div_of_le (by positivity)
    linarith
  norm_num at h2
  linarith

end Hyperstatic
