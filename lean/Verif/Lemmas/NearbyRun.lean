import Verif.Lemmas.Converge

namespace Hyperstatic
open Matrix Spec Filter Topology

/-! ### what is computed from converging frames and loads -/

/-- the frames described by the changed histories tend to the described frame -/
structure BlueTends (s : Blueprint) (t : ℕ → Blueprint) : Prop where
  loc : ∀ n, OptTends PtTends (s.loc n) fun k => (t k).loc n
  mat : ∀ n, OptTends MatTends (s.mat n) fun k => (t k).mat n
  sec : ∀ n, OptTends SecTends (s.sec n) fun k => (t k).sec n
  beams : ∀ k, (t k).beams = s.beams
  beam : ∀ b, OptTends BeamTends (s.beam b) fun k => (t k).beam b

/-- vectors that tend to a vector -/
def VecTends {m : ℕ} (f : Vec m) (fk : ℕ → Vec m) : Prop := ∀ i, Tendsto (fun k => fk k i) atTop (𝓝 (f i))

structure PatTends (r : PatReg) (rk : ℕ → PatReg) : Prop where
  node : ∀ n, OptTends VecTends (r.node n) fun k => (rk k).node n
  dist : ∀ n, OptTends VecTends (r.dist n) fun k => (rk k).dist n
  conc : ∀ n, OptTends VecTends (r.conc n) fun k => (rk k).conc n

/-- factors of a case that tend to factors -/
def FacTends (g : String → Option ℝ) (gk : ℕ → String → Option ℝ) : Prop :=
  ∀ p, OptTends (fun x xk => Tendsto xk atTop (𝓝 x)) (g p) fun k => gk k p

structure CaseTends (s : CaseReg) (t : ℕ → CaseReg) : Prop where
  pats : ∀ p, OptTends PatTends (s.pats p) fun k => (t k).pats p
  cases : ∀ c, OptTends FacTends (s.cases c) fun k => (t k).cases c

theorem OptTends.elim {α : Type} {R : α → (ℕ → α) → Prop} {o : Option α} {ok : ℕ → Option α} (h : OptTends R o ok) {f : α → ℝ} {fk : ℕ → α → ℝ}
    (hf : ∀ a ak, o = some a → (∀ k, ok k = some (ak k)) → R a ak → Tendsto (fun k => fk k (ak k)) atTop (𝓝 (f a))) :
    Tendsto (fun k => (ok k).elim 0 (fk k)) atTop (𝓝 (o.elim 0 f)) := by
  rcases h with ⟨rfl, hk⟩ | ⟨a, ak, rfl, hk, hr⟩
  · simp only [hk, Option.elim_none]
    exact tendsto_const_nhds
  · simp only [hk, Option.elim_some]
    exact hf a ak rfl hk hr

theorem beamWork_tends {c : BeamConsts} {ck : ℕ → BeamConsts} {l : ℝ} {lk : ℕ → ℝ} {v d : Vec 12} {vk dk : ℕ → Vec 12}
    (hE : Tendsto (fun k => (ck k).E) atTop (𝓝 c.E)) (hG : Tendsto (fun k => (ck k).G) atTop (𝓝 c.G))
    (hA : Tendsto (fun k => (ck k).A) atTop (𝓝 c.A)) (h2 : Tendsto (fun k => (ck k).I2) atTop (𝓝 c.I2))
    (h3 : Tendsto (fun k => (ck k).I3) atTop (𝓝 c.I3)) (hJ : Tendsto (fun k => (ck k).J) atTop (𝓝 c.J))
    (hl : Tendsto lk atTop (𝓝 l)) (l0 : l ≠ 0) (hv : VecTends v vk) (hd : VecTends d dk) :
    Tendsto (fun k => beamWork (ck k) (lk k) (vk k) (dk k)) atTop (𝓝 (beamWork c l v d)) := by
  have v0 := hv 0; have v1 := hv 1; have v2 := hv 2; have v3 := hv 3; have v4 := hv 4; have v5 := hv 5; have v6 := hv 6
  have v7 := hv 7; have v8 := hv 8; have v9 := hv 9; have v10 := hv 10; have v11 := hv 11
  have d0 := hd 0; have d1 := hd 1; have d2 := hd 2; have d3 := hd 3; have d4 := hd 4; have d5 := hd 5; have d6 := hd 6
  have d7 := hd 7; have d8 := hd 8; have d9 := hd 9; have d10 := hd 10; have d11 := hd 11
  unfold beamWork bendWork
  lims

theorem BeamTends.internal {g : GivenBeam} {gk : ℕ → GivenBeam} (h : BeamTends g gk) (hp : g.sec.Positive)
    (ok : ∃ c, lineCsys g.p g.q = .ok c) (okk : ∀ k, ∃ c, lineCsys (gk k).p (gk k).q = .ok c) (v u : State) :
    Tendsto (fun k => (gk k).internal v u) atTop (𝓝 (g.internal v u)) := by
  obtain ⟨c, hc⟩ := ok
  choose ck hck using okk
  obtain ⟨hl, l0, he⟩ := h.frame
  have hmu : (1 + g.sec.mat.mu) ≠ 0 := by
    have := hp.2.1
    intro h; linarith
  rw [internal_eq hc, show (fun k => (gk k).internal v u) = fun k => beamWork (gconsts (gk k).sec) (gk k).len ((gk k).ends v) ((gk k).ends u)
    from funext fun k => internal_eq (hck k) v u]
  refine beamWork_tends h.sec.mat.E ?_ h.sec.A h.sec.I2 h.sec.I3 h.sec.J hl l0 (he v) (he u)
  exact h.sec.mat.E.div (tendsto_const_nhds.mul (tendsto_const_nhds.add h.sec.mat.mu)) (mul_ne_zero two_ne_zero hmu)

theorem internal_tends {s : Blueprint} {t : ℕ → Blueprint} (h : BlueTends s t) {nodes : List String} (hS : Sane s nodes)
    (hSk : ∀ k, Sane (t k) nodes) (hp : s.Positive) (v u : State) :
    Tendsto (fun k => (t k).internal v u) atTop (𝓝 (s.internal v u)) := by
  unfold Blueprint.internal
  simp only [h.beams]
  refine tendsto_list_sum _ fun b _ => ?_
  refine OptTends.elim (h.beam b) fun g gk e ek hr => ?_
  exact BeamTends.internal hr (hp b g e) (hS.ok b g e) (fun k => (hSk k).ok b (gk k) (ek k)) v u

theorem positive_tends {s : Blueprint} {t : ℕ → Blueprint} (h : BlueTends s t) {nodes : List String}
    (hSk : ∀ k, Sane (t k) nodes) (hp : s.Positive) : ∀ᶠ k in atTop, (t k).Positive := by
  have key : ∀ b ∈ s.beams.toFinset, ∀ᶠ k in atTop, ∀ g, (t k).beam b = some g → g.sec.Positive := by
    intro b _
    rcases h.beam b with ⟨_, hk⟩ | ⟨g, gk, e, ek, hr⟩
    · exact Eventually.of_forall fun k g hg => by have := (hk k).symm.trans hg; cases this
    · obtain ⟨p1, p2, p3, p4, p5, p6⟩ := hp b g e
      filter_upwards [hr.sec.mat.E.eventually_const_lt p1, hr.sec.mat.mu.eventually_const_lt p2, hr.sec.A.eventually_const_lt p3,
        hr.sec.I2.eventually_const_lt p4, hr.sec.I3.eventually_const_lt p5, hr.sec.J.eventually_const_lt p6] with k q1 q2 q3 q4 q5 q6
      intro g' hg'
      cases (ek k).symm.trans hg'
      exact ⟨q1, q2, q3, q4, q5, q6⟩
  filter_upwards [(Filter.eventually_all_finset _).mpr key] with k hk b g hg
  refine hk b ?_ g hg
  rw [List.mem_toFinset, ← h.beams k]
  exact ((hSk k).mem b).mpr (by rw [hg]; rfl)

theorem dot_tends {m : ℕ} {a b : Vec m} {ak bk : ℕ → Vec m} (ha : VecTends a ak) (hb : VecTends b bk) :
    Tendsto (fun k => ak k ⬝ᵥ bk k) atTop (𝓝 (a ⬝ᵥ b)) :=
  tendsto_finsetSum _ fun i _ => (ha i).mul (hb i)

theorem distF_tends {w : Vec 8} {wk : ℕ → Vec 8} (hw : VecTends w wk) {l : ℝ} {lk : ℕ → ℝ} (hl : Tendsto lk atTop (𝓝 l)) :
    VecTends (distF ![w 0, w 2, w 4, w 6, 0, 0, w 1, w 3, w 5, w 7, 0, 0] l)
      (fun k => distF ![wk k 0, wk k 2, wk k 4, wk k 6, 0, 0, wk k 1, wk k 3, wk k 5, wk k 7, 0, 0] (lk k)) := by
  have w0 := hw 0; have w1 := hw 1; have w2 := hw 2; have w3 := hw 3; have w4 := hw 4; have w5 := hw 5; have w6 := hw 6; have w7 := hw 7
  intro i
  unfold distF
  fin_cases i
  all_goals dsimp
  all_goals lims
  all_goals norm_num

set_option maxHeartbeats 1000000 in
theorem concF_tends {w : Vec 7} {wk : ℕ → Vec 7} (hw : VecTends w wk) {l : ℝ} {lk : ℕ → ℝ} (hl : Tendsto lk atTop (𝓝 l)) (l0 : l ≠ 0) :
    VecTends (concF w l) (fun k => concF (wk k) (lk k)) := by
  have w0 := hw 0; have w1 := hw 1; have w2 := hw 2; have w3 := hw 3; have w4 := hw 4; have w5 := hw 5; have w6 := hw 6
  have l3 : l ^ 3 ≠ 0 := pow_ne_zero _ l0
  intro i
  unfold concF
  fin_cases i
  all_goals dsimp
  all_goals lims

theorem pattern_tends {s : Blueprint} {t : ℕ → Blueprint} (h : BlueTends s t) {nodes : List String} (hS : Sane s nodes)
    (hSk : ∀ k, Sane (t k) nodes) {r : PatReg} {rk : ℕ → PatReg} (hr : PatTends r rk) (v : State) :
    Tendsto (fun k => (t k).patternWork nodes (rk k) v) atTop (𝓝 (s.patternWork nodes r v)) := by
  unfold Blueprint.patternWork
  simp only [h.beams]
  refine (tendsto_list_sum _ fun n _ => ?_).add (tendsto_list_sum _ fun b _ => ?_)
  · rcases hr.node n with ⟨e, ek⟩ | ⟨f, fk, e, ek, hf⟩
    · simp only [e, ek]
      exact tendsto_const_nhds
    · simp only [e, ek, Option.getD_some]
      exact dot_tends hf (fun i => tendsto_const_nhds)
  · refine OptTends.elim (h.beam b) fun g gk e ek hg => ?_
    obtain ⟨c, hc⟩ := hS.ok b g e
    have hck : ∀ k, ∃ c, lineCsys (gk k).p (gk k).q = .ok c := fun k => (hSk k).ok b (gk k) (ek k)
    choose ck hck using hck
    obtain ⟨hl, l0, he⟩ := hg.frame
    refine Filter.Tendsto.add ?_ ?_
    · refine OptTends.elim (hr.dist b) fun w wk _ _ hw => ?_
      simp only [distWork_dot (len_pos hc), distWork_dot (len_pos (hck _))]
      exact dot_tends (distF_tends hw hl) (he v)
    · refine OptTends.elim (hr.conc b) fun w wk _ _ hw => ?_
      simp only [concWork_dot (len_pos hc), concWork_dot (len_pos (hck _))]
      exact dot_tends (concF_tends hw hl l0) (he v)

theorem case_tends {s : Blueprint} {t : ℕ → Blueprint} (h : BlueTends s t) {nodes : List String} (hS : Sane s nodes)
    (hSk : ∀ k, Sane (t k) nodes) {r : CaseReg} {rk : ℕ → CaseReg} (hr : CaseTends r rk) {g : String → Option ℝ}
    {gk : ℕ → String → Option ℝ} (hg : FacTends g gk) (names : List String) (v : State) :
    Tendsto (fun k => (t k).caseWork nodes (rk k) (gk k) names v) atTop (𝓝 (s.caseWork nodes r g names v)) := by
  unfold Blueprint.caseWork
  refine tendsto_list_sum _ fun p _ => Filter.Tendsto.mul ?_ ?_
  · rcases hg p with ⟨e, ek⟩ | ⟨x, xk, e, ek, hx⟩
    · simp only [e, ek]
      exact tendsto_const_nhds
    · simp only [e, ek, Option.getD_some]
      exact hx
  · exact OptTends.elim (hr.pats p) fun q qk _ _ hq => pattern_tends h hS hSk hq v

/-! ### histories -/

theorem nearby_save {δ : ℝ} {n : String} {c : Call} (h : Nearby δ (.save n) c) : c = .save n := h
theorem nearby_load {δ : ℝ} {n : String} {c : Call} (h : Nearby δ (.load n) c) : c = .load n := h

theorem nearby_other {δ : ℝ} {c c' : Call} (h : Nearby δ c c') (h1 : ∀ n, c ≠ .save n) (h2 : ∀ n, c ≠ .load n) :
    (∀ n, c' ≠ .save n) ∧ (∀ n, c' ≠ .load n) := by
  cases c <;> simp only [Nearby] at h <;>
    first
    | (subst h; exact ⟨h1, h2⟩)
    | (obtain ⟨_, rfl, _⟩ := h; constructor <;> intro _ e <;> cases e)
    | (obtain ⟨_, _, rfl, _⟩ := h; constructor <;> intro _ e <;> cases e)
    | (obtain ⟨_, _, _, rfl, _⟩ := h; constructor <;> intro _ e <;> cases e)
    | (obtain ⟨_, _, _, _, rfl, _⟩ := h; constructor <;> intro _ e <;> cases e)
    | (obtain ⟨_, _, _, _, _, _, _, rfl, _⟩ := h; constructor <;> intro _ e <;> cases e)
    | (obtain ⟨_, _, _, _, _, _, _, _, rfl, _⟩ := h; constructor <;> intro _ e <;> cases e)

/-- convergence along histories that differ less and less in their numbers -/
theorem run_tends {S : Type} (M : Machine S) (R : S → (ℕ → S) → Prop) (G : S → Call → Prop) {δ : ℕ → ℝ} (hinit : R M.init fun _ => M.init)
    (hedit : ∀ (s : S) (t : ℕ → S) (c : Call) (ck : ℕ → Call), R s t → (∀ k, Nearby (δ k) c (ck k)) → G s c → (∀ k, G (t k) (ck k)) →
      R (M.edit s c) (fun k => M.edit (t k) (ck k)))
    {cs : List Call} {csk : ℕ → List Call} (hn : ∀ k, List.Forall₂ (Nearby (δ k)) cs (csk k))
    (hG : ∀ a c b, cs = a ++ c :: b → G (M.run a).cur c) (hGk : ∀ k a c b, csk k = a ++ c :: b → G (M.run a).cur c) :
    R (M.run cs).cur (fun k => (M.run (csk k)).cur) := by
  have key : ∀ (cs : List Call) (csk : ℕ → List Call) (s : MState S) (t : ℕ → MState S), (∀ k, List.Forall₂ (Nearby (δ k)) cs (csk k)) →
      (∀ a c b, cs = a ++ c :: b → G (a.foldl M.step s).cur c) → (∀ k a c b, csk k = a ++ c :: b → G (a.foldl M.step (t k)).cur c) →
      R s.cur (fun k => (t k).cur) → (∀ n, OptTends R (s.saved n) fun k => (t k).saved n) →
      R (cs.foldl M.step s).cur (fun k => ((csk k).foldl M.step (t k)).cur) := by
    intro cs
    induction cs with
    | nil =>
      intro csk s t hn _ _ hr _
      have e : ∀ k, csk k = [] := fun k => List.forall₂_nil_left_iff.mp (hn k)
      simp only [e, List.foldl_nil]
      exact hr
    | cons c cs ih =>
      intro csk s t hn hG hGk hr hs
      have e : ∀ k, ∃ d ds, Nearby (δ k) c d ∧ List.Forall₂ (Nearby (δ k)) cs ds ∧ csk k = d :: ds :=
        fun k => List.forall₂_cons_left_iff.mp (hn k)
      choose d ds hd hds e using e
      simp only [e, List.foldl_cons]
      apply ih ds (M.step s c) (fun k => M.step (t k) (d k)) hds
      · intro a x b hx
        exact hG (c :: a) x b (by rw [hx]; rfl)
      · intro k a x b hx
        exact hGk k (d k :: a) x b (by rw [e, hx]; rfl)
      · by_cases h1 : ∃ n, c = .save n
        · obtain ⟨n, rfl⟩ := h1
          obtain rfl : d = fun _ => .save n := funext fun k => nearby_save (hd k)
          exact hr
        by_cases h2 : ∃ n, c = .load n
        · obtain ⟨n, rfl⟩ := h2
          obtain rfl : d = fun _ => .load n := funext fun k => nearby_load (hd k)
          rcases hs n with ⟨e1, e2⟩ | ⟨x, xk, e1, e2, hx⟩
          · simp only [Machine.step, e1, e2]; exact hr
          · simp only [Machine.step, e1, e2]; exact hx
        have h1 : ∀ n, c ≠ .save n := fun n e => h1 ⟨n, e⟩
        have h2 : ∀ n, c ≠ .load n := fun n e => h2 ⟨n, e⟩
        have step_other : ∀ (t : MState S) (c : Call), (∀ n, c ≠ .save n) → (∀ n, c ≠ .load n) →
            (M.step t c).cur = M.edit t.cur c := by
          intro t c h1 h2
          cases c <;> first | rfl | exact absurd rfl (h1 _) | exact absurd rfl (h2 _)
        rw [step_other s c h1 h2]
        simp only [fun k => step_other (t k) (d k) (nearby_other (hd k) h1 h2).1 (nearby_other (hd k) h1 h2).2]
        exact hedit s.cur (fun k => (t k).cur) c d hr hd (hG [] c cs rfl) (fun k => hGk k [] (d k) (ds k) (e k))
      · by_cases h1 : ∃ n, c = .save n
        · obtain ⟨n, rfl⟩ := h1
          obtain rfl : d = fun _ => .save n := funext fun k => nearby_save (hd k)
          intro m
          simp only [Machine.step]
          by_cases em : m = n
          · simp only [em, if_true]
            exact OptTends.present hr
          · simp only [em, if_false]
            exact hs m
        by_cases h2 : ∃ n, c = .load n
        · obtain ⟨n, rfl⟩ := h2
          obtain rfl : d = fun _ => .load n := funext fun k => nearby_load (hd k)
          intro m
          rcases hs n with ⟨e1, e2⟩ | ⟨x, xk, e1, e2, hx⟩
          · simp only [Machine.step, e1, e2]; exact hs m
          · simp only [Machine.step, e1, e2]; exact hs m
        have h1 : ∀ n, c ≠ .save n := fun n e => h1 ⟨n, e⟩
        have h2 : ∀ n, c ≠ .load n := fun n e => h2 ⟨n, e⟩
        have step_other : ∀ (t : MState S) (c : Call), (∀ n, c ≠ .save n) → (∀ n, c ≠ .load n) →
            (M.step t c).saved = t.saved := by
          intro t c h1 h2
          cases c <;> first | rfl | exact absurd rfl (h1 _) | exact absurd rfl (h2 _)
        rw [step_other s c h1 h2]
        simp only [fun k => step_other (t k) (d k) (nearby_other (hd k) h1 h2).1 (nearby_other (hd k) h1 h2).2]
        exact hs
  exact key cs csk _ _ hn hG hGk hinit (fun n => OptTends.absent)

end Hyperstatic
