import Verif.Lemmas.World
import Verif.Props.Structure
import Verif.Spec.Cases

/-
`solve_2nd_order` against `solve_linear`.
-/

namespace Hyperstatic
open Matrix Spec

theorem flagDofs_sorted (i : ℕ) (f : Flags) : (flagDofs i f).Pairwise (· < ·) := by
  unfold flagDofs
  rw [List.pairwise_map]
  apply List.Pairwise.imp ?_ ((List.pairwise_lt_finRange 6).filter _)
  intro a b hab
  have : a.val < b.val := hab
  omega

/-- nodes listed in the order of their creation have increasing degrees of freedom -/
theorem restraintDofs_sorted {a : Api} (h : FreshInv a) {t : Dict Flags} {fixed : List ℕ} (hok : restraintDofs a.model t = .ok fixed)
    (hs : t.keys.Sublist a.model.nodes.keys) : fixed.Pairwise (· < ·) := by
  have hA := h.toApiInv
  have hk := restraintDofs_keys hA hok
  rw [restraintDofs_eq hA hk] at hok
  cases hok
  rw [List.pairwise_flatten]
  constructor
  · intro l hl
    obtain ⟨it, _, rfl⟩ := List.mem_map.mp hl
    exact flagDofs_sorted _ _
  · rw [List.pairwise_map]
    have hp : t.keys.Pairwise (fun n m => hidOf a.model n < hidOf a.model m) := by
      apply List.Pairwise.sublist hs
      rw [List.pairwise_iff_getElem]
      intro i j hi hj hij
      have e : ∀ k (hk : k < a.model.nodes.keys.length), hidOf a.model a.model.nodes.keys[k] = k := by
        intro k hk
        have h3 := (h.hidOf_lt (List.getElem_mem hk)).2.2
        have hnd : a.model.nodes.keys.Nodup := hA.nodes_wf
        rw [List.getElem?_eq_some_iff] at h3
        obtain ⟨h4, h5⟩ := h3
        exact (List.Nodup.getElem_inj_iff hnd).mp h5
      rw [e i hi, e j hj]
      exact hij
    have hp' : List.Pairwise (fun p q : String × Flags => hidOf a.model p.1 < hidOf a.model q.1) t := by
      have h7 := hp
      unfold Dict.keys at h7
      rw [List.pairwise_map] at h7
      exact h7
    apply hp'.imp
    rintro ⟨n, f⟩ ⟨m, g⟩ hlt x hx y hy
    obtain ⟨r, _, e1⟩ := mem_flagDofs.mp hx
    obtain ⟨s, _, e2⟩ := mem_flagDofs.mp hy
    have := r.isLt
    have := s.isLt
    simp only at e1 e2 hlt
    omega

/-- both ways of putting the zeros back agree for increasing restraints -/
theorem expandInsert_eq (n : ℕ) (fixed : List ℕ) (hs : fixed.Pairwise (· < ·)) (hN : ∀ i ∈ fixed, i < n * 6) (delta : List ℝ)
    (hl : delta.length = (free (n * 6) fixed).length) : expandInsert n fixed delta = expandDisp n fixed delta := by
  obtain ⟨val, rfl⟩ := exists_val _ (free_nodup (n * 6) fixed) delta hl
  rw [expandDisp_eq n fixed (hs.imp (fun h => Nat.ne_of_lt h)) hN val]
  unfold expandInsert
  have := npInsert_all (n * 6) fixed hs hN val
  unfold free
  rw [this, Except.bind_ok, if_pos (by simp)]
  rfl

/-- The numerical parts agree. -/
theorem solveCase2nd_eq (env : Env) (henv : env.SolverSound) (dyn : DynEnv) (hdyn : dyn.CgSound) (cs : List Call)
    (hcs : NoReadd env World.init cs) (w : World) (hw : w = World.init.run env cs) (hss : ShellsSymm env w.api.model)
    {x : Assembly} (hx : w.api.assembly = .ok x) {c : String} {lc : LoadCase} (hc : w.api.loadcases.get? c = some lc)
    (hu : Unambiguous w.api.model lc) (hst : Stable env w.api.model (governing w.api.model lc))
    (hord : (governing w.api.model lc).keys.Sublist w.api.model.nodes.keys)
    {K : Coo} (hK : x.assembleK env = .ok K) {d : List ℝ} (hd : solveCase env x c K = .ok d) : solveCase2nd dyn x c K = .ok d := by
  have h := (FreshInv_run env cs hcs).1
  rw [← hw] at h
  have hA := h.toApiInv
  obtain ⟨h1, h2, h3, h4, h5⟩ := hA.assembly_eq hx
  have hlc := hA.case_ok c lc hc
  have hwf := governing_wf hA hlc
  unfold solveCase at hd
  simp only [Except.bind_ok_iff] at hd
  obtain ⟨f, hf, K', hK', f', hf', hd⟩ := hd
  have hsym := C14_symmetrising env cs hcs w hw hss x hx K hK c K' hK'
  have hfix : ∃ fixed, restraintDofs w.api.model (governing w.api.model lc) = .ok fixed := by
    have hb := hK'
    unfold governing
    cases hr : lc.restraint with
    | nil => exact ⟨_, h4⟩
    | cons p ps =>
      unfold Assembly.boundaryMatrix at hb
      simp only [Except.bind_ok_iff] at hb
      obtain ⟨fixed, hb, _⟩ := hb
      unfold Assembly.boundaryDofs at hb
      rw [h3, Dict.getItem_of_some hc, Except.bind_ok, hr, h1] at hb
      exact ⟨fixed, hb⟩
  obtain ⟨fixed, hfx⟩ := hfix
  obtain ⟨hb, hr⟩ := case_restraints hA hx hc hu hfx
  obtain ⟨hnd, hlt⟩ := restraintDofs_nodup h hwf hfx
  obtain ⟨K₁, hK₁, hlen, hform⟩ := reduced_case env h h1 hK hwf hfx
  have hinj := reduced_inj env h hwf hfx hst hlen hform
  have hKK : K₁ = K' := by
    have := hK'
    unfold Assembly.boundaryMatrix at this
    rw [hb, Except.bind_ok, hK₁] at this
    cases this; rfl
  subst hKK
  split at hd
  · rename_i hlen2
    simp only [Except.bind_ok_iff] at hd
    obtain ⟨delta, hdelta, rest, hrest, hd⟩ := hd
    rw [hr] at hrest
    cases hrest
    have hsol : symmetrised K₁ *ᵥ delta = fun i => f'[i.val]'(by rw [hlen2]; exact i.isLt) := by
      rcases Nat.eq_zero_or_pos K₁.nrow with h0 | hpos
      · funext i
        exact absurd i.isLt (by omega)
      · obtain ⟨z, hz1, hz2⟩ := henv K₁.nrow (symmetrised K₁) (fun i => f'[i.val]'(by rw [hlen2]; exact i.isLt)) hpos hinj
        rw [hz1] at hdelta
        cases hdelta
        exact hz2
    have hden : K₁.dense K₁.nrow = symmetrised K₁ := by rw [hsym]; rfl
    have hcg := hdyn K₁.nrow (symmetrised K₁) _ ⟨delta, hsol⟩
    have heq : dyn.cg K₁.nrow (symmetrised K₁) (fun i => f'[i.val]'(by rw [hlen2]; exact i.isLt)) = delta := by
      apply sub_eq_zero.mp
      apply hinj
      rw [mulVec_sub, hcg, hsol, sub_self]
    unfold solveCase2nd
    rw [hf, Except.bind_ok, hK', Except.bind_ok, hf', Except.bind_ok, dif_pos hlen2, hr, Except.bind_ok]
    simp only [hden, heq]
    rw [h1] at hd ⊢
    rw [expandInsert_eq _ _ (restraintDofs_sorted h hfx hord) hlt _ (by rw [List.length_ofFn, hlen])]
    exact hd
  · cases hd

/-- The whole runs agree. -/
theorem solve2nd_eq (env : Env) (henv : env.SolverSound) (dyn : DynEnv) (hdyn : dyn.CgSound) (pre : List Call)
    (hpre : NoReadd env World.init pre) (w₀ : World) (hw₀ : w₀ = World.init.run env pre) (hss : ShellsSymm env w₀.api.model)
    {c : String} {lc : LoadCase} (hc : w₀.api.loadcases.get? c = some lc) (hu : Unambiguous w₀.api.model lc)
    (hst : Stable env w₀.api.model (governing w₀.api.model lc))
    (hord : (governing w₀.api.model lc).keys.Sublist w₀.api.model.nodes.keys) {x : Assembly} (hx : w₀.api.assembly = .ok x)
    (fs : Dict (File Api)) (hfs : fs.get? Api.filename = some (.asb x)) (h0 : fs.get? "0.k" = none)
    (hret : (solveLinear env fs Api.filename c).2 = .ok ()) :
    solve2nd env dyn fs Api.filename c none = solveLinear env fs Api.filename c := by
  have hopen : openAssembly fs Api.filename = .ok x := openAssembly_of_get hfs
  have hcon : fs.contains "0.k" = false := by
    simpa [Dict.contains] using h0
  unfold solveLinear at hret ⊢
  unfold solve2nd cacheMatrix
  rw [hopen] at hret ⊢
  simp only [hcon, Bool.false_eq_true, if_false] at hret ⊢
  cases hK : x.assembleK env with
  | error e => simp only [hK] at hret; cases hret
  | ok K =>
    rw [hK] at hret
    simp only at hret ⊢
    cases hd : solveCase env x c K with
    | error e => rw [hd] at hret; exact nomatch hret
    | ok d =>
      rw [solveCase2nd_eq env henv dyn hdyn pre hpre w₀ hw₀ hss hx hc hu hst hord hK hd]
      rfl

end Hyperstatic
