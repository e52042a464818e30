import Verif.Lemmas.NearbyRun

namespace Hyperstatic
open Matrix Spec Filter Topology

/-! ### restraints and node names do not depend on the numbers -/

theorem forall₂_run {S T : Type} (M : Machine S) (φ : S → T) {δ : ℝ} (hM : ∀ s s' c c', Nearby δ c c' → φ s = φ s' → φ (M.edit s c) = φ (M.edit s' c'))
    {cs cs' : List Call} (hn : List.Forall₂ (Nearby δ) cs cs') : φ (M.run cs').cur = φ (M.run cs).cur := by
  have := run_tends M (fun s t => ∀ k : ℕ, φ (t k) = φ s) (fun _ _ => True) (δ := fun _ => δ) (fun _ => rfl)
    (fun s t c ck h hc _ _ k => (hM _ _ _ _ (hc k) (h k).symm).symm) (cs := cs) (csk := fun _ => cs') (fun _ => hn)
    (fun _ _ _ _ => trivial) (fun _ _ _ _ _ => trivial)
  exact this 0

theorem restReg_nearby {δ : ℝ} {cs cs' : List Call} (hn : List.Forall₂ (Nearby δ) cs cs') : (restReg.run cs').cur = (restReg.run cs).cur := by
  refine forall₂_run restReg id ?_ hn
  rintro s _ c c' h rfl
  cases c <;> simp only [Nearby] at h <;>
    first
    | (subst h; rfl)
    | (obtain ⟨_, rfl, _⟩ := h; rfl)
    | (obtain ⟨_, _, rfl, _⟩ := h; rfl)
    | (obtain ⟨_, _, _, rfl, _⟩ := h; rfl)
    | (obtain ⟨_, _, _, _, rfl, _⟩ := h; rfl)
    | (obtain ⟨_, _, _, _, _, _, _, rfl, _⟩ := h; rfl)
    | (obtain ⟨_, _, _, _, _, _, _, _, rfl, _⟩ := h; rfl)

theorem nodeReg_nearby {δ : ℝ} {cs cs' : List Call} (hn : List.Forall₂ (Nearby δ) cs cs') :
    (nodeReg.run cs').cur.names = (nodeReg.run cs).cur.names := by
  refine forall₂_run nodeReg NodeReg.names ?_ hn
  rintro ⟨ns, l⟩ ⟨_, l'⟩ c c' h rfl
  cases c <;> simp only [Nearby] at h <;>
    first
    | (subst h; rfl)
    | (obtain ⟨_, rfl, _⟩ := h; rfl)
    | (obtain ⟨_, _, rfl, _⟩ := h; rfl)
    | (obtain ⟨_, _, _, rfl, _⟩ := h; rfl)
    | (obtain ⟨_, _, _, _, rfl, _⟩ := h; rfl)
    | (obtain ⟨_, _, _, _, _, _, _, rfl, _⟩ := h; rfl)
    | (obtain ⟨_, _, _, _, _, _, _, _, rfl, _⟩ := h; rfl)

/-! ### the frame -/

/-- the call adds what it is meant to add -/
def BlueGood (s : Blueprint) (c : Call) : Prop :=
  (∀ b i j sec, c = .addBeam b i j sec → ∃ p q g, s.loc i = some p ∧ s.loc j = some q ∧ s.sec sec = some g ∧ Acceptable p q) ∧
  (∀ b i j E mu A I2 I3 J rho, c = .addSimpleBeam b i j E mu A I2 I3 J rho → ∃ p q, s.loc i = some p ∧ s.loc j = some q ∧ Acceptable p q) ∧
  (∀ n m, sectionCall c = some (n, m) → ∃ mat g, s.mat m = some mat ∧ shapeConsts mat c = some g)

theorem secBuild_good {a a' : Api} {name m : String} {build : Material → Except PyErr BeamSection} {c : Call}
    (hc : sectionCall c = some (name, m))
    (hb : ∀ mat, (build mat).toOption.map givenSec = shapeConsts (givenMat mat) c) (he : SecBuild a name m build a') :
    ∀ n m', sectionCall c = some (n, m') → ∃ mat g, (blueprintOf a).mat m' = some mat ∧ shapeConsts mat c = some g := by
  intro n m' h
  rw [hc] at h
  cases h
  obtain ⟨mat, sec, h1, h2, rfl⟩ := he
  have h3 := hb mat
  rw [h2] at h3
  exact ⟨givenMat mat, givenSec sec, by simp [blueprintOf, h1], h3.symm⟩

theorem edit_good {a a' : Api} {c : Call} (h : a.edit c = .ok a') : BlueGood (blueprintOf a) c := by
  rw [edit_ok_iff] at h
  cases c <;> simp only [EditEff] at h
  case addBeam b i j s =>
    obtain ⟨n0, n1, sec, be, h0, h1, h2, h3, rfl⟩ := h
    have hacc := (beam_mk_iff b n0 n1 _).mp ⟨be, h3⟩
    refine ⟨?_, fun _ _ _ _ _ _ _ _ _ _ e => (by cases e), fun _ _ e => (by cases e)⟩
    intro b' i' j' s' e
    cases e
    exact ⟨n0.loc, n1.loc, givenSec sec, by simp [blueprintOf, h0], by simp [blueprintOf, h1], by simp [blueprintOf, h2], hacc⟩
  case addSimpleBeam b i j E mu A I2 I3 J rho =>
    obtain ⟨n0, n1, be, h0, h1, h3, rfl⟩ := h
    have hacc := (beam_mk_iff b n0 n1 _).mp ⟨be, h3⟩
    refine ⟨fun _ _ _ _ e => (by cases e), ?_, fun _ _ e => (by cases e)⟩
    intro b' i' j' E' mu' A' I2' I3' J' rho' e
    cases e
    exact ⟨n0.loc, n1.loc, by simp [blueprintOf, h0], by simp [blueprintOf, h1], hacc⟩
  case addBeamSectionGeneral =>
    exact ⟨fun _ _ _ _ e => (by cases e), fun _ _ _ _ _ _ _ _ _ _ e => (by cases e), secBuild_good (by rfl) (fun mat => by rfl) h⟩
  case addBeamSectionRectangle =>
    exact ⟨fun _ _ _ _ e => (by cases e), fun _ _ _ _ _ _ _ _ _ _ e => (by cases e),
      secBuild_good (by rfl) (fun mat => by rw [rect_build]; rfl) h⟩
  case addBeamSectionPipe =>
    exact ⟨fun _ _ _ _ e => (by cases e), fun _ _ _ _ _ _ _ _ _ _ e => (by cases e),
      secBuild_good (by rfl) (fun mat => by rw [rect_build]; rfl) h⟩
  case addBeamSectionI =>
    exact ⟨fun _ _ _ _ e => (by cases e), fun _ _ _ _ _ _ _ _ _ _ e => (by cases e), secBuild_good (by rfl) (fun mat => i_build ..) h⟩
  case addBeamSectionBox =>
    exact ⟨fun _ _ _ _ e => (by cases e), fun _ _ _ _ _ _ _ _ _ _ e => (by cases e), secBuild_good (by rfl) (fun mat => box_build ..) h⟩
  case addBeamSectionCircle =>
    exact ⟨fun _ _ _ _ e => (by cases e), fun _ _ _ _ _ _ _ _ _ _ e => (by cases e), secBuild_good (by rfl) (fun mat => circle_build ..) h⟩
  all_goals exact ⟨fun _ _ _ _ e => (by cases e), fun _ _ _ _ _ _ _ _ _ _ e => (by cases e), fun _ _ e => (by cases e)⟩

theorem accepted_good {env : Env} {pre : List Call} (h : Accepted env pre) (a : List Call) (c : Call) (b : List Call) (e : pre = a ++ c :: b) :
    BlueGood (blueprint.run a).cur c := by
  have h := allCalls_iff.mp h a c b e
  rw [← blueprint_refined env a]
  by_cases hc : definesBeam c = true
  · have hed : c.isEdit = true := by cases c <;> first | rfl | exact absurd hc (by simp [definesBeam])
    obtain ⟨a', ha⟩ := (step_ok_iff env _ c hed).mp (h hc)
    exact edit_good ((edit_ok_iff _ _ _).mpr ha)
  · cases c <;> first
      | exact absurd rfl hc
      | exact ⟨fun _ _ _ _ e => (by cases e), fun _ _ _ _ _ _ _ _ _ _ e => (by cases e), fun _ _ e => (by cases e)⟩

theorem edit_section {s : Blueprint} {c : Call} {n m : String} {mat : GivenMat} {g : GivenSec} (hs : sectionCall c = some (n, m))
    (hm : s.mat m = some mat) (hg : shapeConsts mat c = some g) :
    blueprint.edit s c = { s with sec := fun k => if k = n then some g else s.sec k } := by
  cases c <;> first
    | (cases hs; done)
    | (simp only [sectionCall, Option.some.injEq, Prod.mk.injEq] at hs
       obtain ⟨rfl, rfl⟩ := hs
       simp only [blueprint, sectionCall, hm, Option.bind_some, hg])

theorem addBeam_good {s : Blueprint} {b i j : String} {p q : V3} {g : GivenSec} (h1 : s.loc i = some p) (h2 : s.loc j = some q)
    (ha : Acceptable p q) : s.addBeam b i j (some g) = { s with
      beams := if b ∈ s.beams then s.beams else s.beams ++ [b]
      beam := fun b' => if b' = b then some ⟨i, j, p, q, g⟩ else s.beam b' } := by
  unfold Blueprint.addBeam
  simp only [h1, h2, ha, if_true]

theorem OptTends.upd {α : Type} {R : α → (ℕ → α) → Prop} {f : String → Option α} {fk : ℕ → String → Option α}
    (h : ∀ n, OptTends R (f n) fun k => fk k n) (m : String) {a : α} {ak : ℕ → α} (ha : R a ak) :
    ∀ n, OptTends R (if n = m then some a else f n) fun k => if n = m then some (ak k) else fk k n := by
  intro n
  by_cases e : n = m
  · simp only [e, if_true]; exact OptTends.present ha
  · simp only [e, if_false]; exact h n

theorem section_tends {δ : ℕ → ℝ} (hδ : Tendsto δ atTop (𝓝 0)) {s : Blueprint} {t : ℕ → Blueprint} (h : BlueTends s t) {c : Call}
    {ck : ℕ → Call} (hc : ∀ k, Nearby (δ k) c (ck k)) (hg : BlueGood s c) (hgk : ∀ k, BlueGood (t k) (ck k)) {n m : String}
    (hs : sectionCall c = some (n, m)) (hsk : ∀ k, sectionCall (ck k) = some (n, m)) :
    BlueTends (blueprint.edit s c) (fun k => blueprint.edit (t k) (ck k)) := by
  obtain ⟨mat, g, h1, h2⟩ := hg.2.2 n m hs
  have hk : ∀ k, ∃ mat g, (t k).mat m = some mat ∧ shapeConsts mat (ck k) = some g := fun k => (hgk k).2.2 n m (hsk k)
  choose matk gk h1k h2k using hk
  have hm : MatTends mat matk := by
    have := h.mat m
    rw [h1] at this
    obtain ⟨mk, e, hr⟩ := this.of
    obtain rfl : mk = matk := funext fun k => Option.some.inj ((e k).symm.trans (h1k k))
    exact hr
  rw [edit_section hs h1 h2]
  simp only [fun k => edit_section (hsk k) (h1k k) (h2k k)]
  exact ⟨h.loc, h.mat, OptTends.upd h.sec n (shape_tends hδ hm hc h2 h2k), h.beams, h.beam⟩

theorem addBeam_tends {s : Blueprint} {t : ℕ → Blueprint} (h : BlueTends s t) (b : String) {i j : String} {p q : V3} {pk qk : ℕ → V3} {g : GivenSec}
    {gk : ℕ → GivenSec} (h1 : s.loc i = some p) (h2 : s.loc j = some q) (ha : Acceptable p q) (h1k : ∀ k, (t k).loc i = some (pk k))
    (h2k : ∀ k, (t k).loc j = some (qk k)) (hak : ∀ k, Acceptable (pk k) (qk k)) (hg : SecTends g gk) :
    BlueTends (s.addBeam b i j (some g)) (fun k => (t k).addBeam b i j (some (gk k))) := by
  rw [addBeam_good h1 h2 ha]
  simp only [fun k => addBeam_good (b := b) (g := gk k) (h1k k) (h2k k) (hak k)]
  have hp : PtTends p pk := by
    have := h.loc i
    rw [h1] at this
    obtain ⟨mk, e, hr⟩ := this.of
    obtain rfl : mk = pk := funext fun k => Option.some.inj ((e k).symm.trans (h1k k))
    exact hr
  have hq : PtTends q qk := by
    have := h.loc j
    rw [h2] at this
    obtain ⟨mk, e, hr⟩ := this.of
    obtain rfl : mk = qk := funext fun k => Option.some.inj ((e k).symm.trans (h2k k))
    exact hr
  refine ⟨h.loc, h.mat, h.sec, fun k => by simp only [h.beams], OptTends.upd h.beam b ⟨fun _ => rfl, fun _ => rfl, hp, hq, hg, ha⟩⟩

theorem blue_step {δ : ℕ → ℝ} (hδ : Tendsto δ atTop (𝓝 0)) {s : Blueprint} {t : ℕ → Blueprint} (h : BlueTends s t) {c : Call}
    {ck : ℕ → Call} (hc : ∀ k, Nearby (δ k) c (ck k)) (hg : BlueGood s c) (hgk : ∀ k, BlueGood (t k) (ck k)) :
    BlueTends (blueprint.edit s c) (fun k => blueprint.edit (t k) (ck k)) := by
  have hc' := hc
  cases c <;> simp only [Nearby] at hc'
  case addNode n x y z =>
    choose x' y' z' e h1 h2 h3 using hc'
    obtain rfl : ck = _ := funext e
    exact ⟨OptTends.upd h.loc n ⟨near_tends hδ h1, near_tends hδ h2, near_tends hδ h3⟩, h.mat, h.sec, h.beams, h.beam⟩
  case addIsotropicMaterial n rho E mu a =>
    choose rho' E' mu' a' e h1 h2 h3 h4 using hc'
    obtain rfl : ck = _ := funext e
    exact ⟨h.loc, OptTends.upd h.mat n ⟨near_tends hδ h2, near_tends hδ h3⟩, h.sec, h.beams, h.beam⟩
  case addBeamSectionGeneral n m _ _ _ _ _ _ _ _ =>
    choose _ _ _ _ _ _ _ _ e _ _ _ _ _ _ _ _ using hc'
    exact section_tends hδ h hc hg hgk rfl (fun k => by rw [e k]; rfl)
  case addBeamSectionRectangle n m _ _ =>
    choose _ _ e _ _ using hc'
    exact section_tends hδ h hc hg hgk rfl (fun k => by rw [e k]; rfl)
  case addBeamSectionPipe n m _ _ =>
    choose _ _ e _ _ using hc'
    exact section_tends hδ h hc hg hgk rfl (fun k => by rw [e k]; rfl)
  case addBeamSectionI n m _ _ _ _ =>
    choose _ _ _ _ e _ _ _ _ using hc'
    exact section_tends hδ h hc hg hgk rfl (fun k => by rw [e k]; rfl)
  case addBeamSectionBox n m _ _ _ _ =>
    choose _ _ _ _ e _ _ _ _ using hc'
    exact section_tends hδ h hc hg hgk rfl (fun k => by rw [e k]; rfl)
  case addBeamSectionCircle n m _ =>
    choose _ e _ using hc'
    exact section_tends hδ h hc hg hgk rfl (fun k => by rw [e k]; rfl)
  case addBeam b i j sec =>
    obtain rfl : ck = _ := funext hc'
    obtain ⟨p, q, g, h1, h2, h3, ha⟩ := hg.1 b i j sec rfl
    have hk : ∀ k, ∃ p q g, (t k).loc i = some p ∧ (t k).loc j = some q ∧ (t k).sec sec = some g ∧ Acceptable p q :=
      fun k => (hgk k).1 b i j sec rfl
    choose pk qk gk h1k h2k h3k hak using hk
    have hs : SecTends g gk := by
      have := h.sec sec
      rw [h3] at this
      obtain ⟨mk, e, hr⟩ := this.of
      obtain rfl : mk = gk := funext fun k => Option.some.inj ((e k).symm.trans (h3k k))
      exact hr
    have := addBeam_tends h b h1 h2 ha h1k h2k hak hs
    simp only [blueprint, h3, h3k]
    exact this
  case addSimpleBeam b i j E mu A I2 I3 J rho =>
    choose E' mu' A' I2' I3' J' rho' e e1 e2 e3 e4 e5 e6 e7 using hc'
    obtain rfl : ck = _ := funext e
    obtain ⟨p, q, h1, h2, ha⟩ := hg.2.1 b i j E mu A I2 I3 J rho rfl
    have hk : ∀ k, ∃ p q, (t k).loc i = some p ∧ (t k).loc j = some q ∧ Acceptable p q :=
      fun k => (hgk k).2.1 b i j _ _ _ _ _ _ _ rfl
    choose pk qk h1k h2k hak using hk
    exact addBeam_tends h b h1 h2 ha h1k h2k hak ⟨⟨near_tends hδ e1, near_tends hδ e2⟩, near_tends hδ e3, near_tends hδ e4, near_tends hδ e5,
      near_tends hδ e6⟩
  all_goals first
    | (obtain rfl : ck = _ := funext hc'; exact h)
    | (choose _ e _ using hc'; obtain rfl : ck = _ := funext e; exact h)
    | (choose _ _ _ _ _ _ _ e _ _ _ _ _ _ _ using hc'; obtain rfl : ck = _ := funext e; exact h)
    | (choose _ _ _ _ _ _ _ _ e _ _ _ _ _ _ _ _ using hc'; obtain rfl : ck = _ := funext e; exact h)

/-! ### the loads -/

theorem upd_tends {s : CaseReg} {t : ℕ → CaseReg} (h : CaseTends s t) (p : String) {f : PatReg → PatReg} {fk : ℕ → PatReg → PatReg}
    (hf : ∀ r rk, PatTends r rk → PatTends (f r) fun k => fk k (rk k)) : CaseTends (s.upd p f) fun k => (t k).upd p (fk k) := by
  refine ⟨fun q => ?_, h.cases⟩
  simp only [CaseReg.upd]
  by_cases e : q = p
  · simp only [e, if_true]
    rcases h.pats p with ⟨e1, e2⟩ | ⟨r, rk, e1, e2, hr⟩
    · simp only [e1, e2, Option.map_none]; exact OptTends.absent
    · simp only [e1, e2, Option.map_some]; exact OptTends.present (hf r rk hr)
  · simp only [e, if_false]; exact h.pats q

theorem case_step {δ : ℕ → ℝ} (hδ : Tendsto δ atTop (𝓝 0)) {s : CaseReg} {t : ℕ → CaseReg} (h : CaseTends s t) {c : Call}
    {ck : ℕ → Call} (hc : ∀ k, Nearby (δ k) c (ck k)) : CaseTends (caseReg.edit s c) (fun k => caseReg.edit (t k) (ck k)) := by
  cases c <;> simp only [Nearby] at hc
  case addLoadpattern p =>
    obtain rfl : ck = _ := funext hc
    exact ⟨OptTends.upd h.pats p ⟨fun _ => OptTends.absent, fun _ => OptTends.absent, fun _ => OptTends.absent⟩, h.cases⟩
  case setNodalLoad p n F =>
    choose F' e h1 using hc
    obtain rfl : ck = _ := funext e
    exact upd_tends h p fun r rk hr => ⟨OptTends.upd hr.node n fun i => near_tends hδ fun k => h1 k i, hr.dist, hr.conc⟩
  case setBeamLoadDistributed p b _ _ _ _ _ _ _ _ =>
    choose _ _ _ _ _ _ _ _ e h1 h2 h3 h4 h5 h6 h7 h8 using hc
    obtain rfl : ck = _ := funext e
    refine upd_tends h p fun r rk hr => ⟨hr.node, OptTends.upd hr.dist b fun i => ?_, hr.conc⟩
    fin_cases i
    exacts [near_tends hδ h1, near_tends hδ h2, near_tends hδ h3, near_tends hδ h4, near_tends hδ h5, near_tends hδ h6, near_tends hδ h7,
      near_tends hδ h8]
  case setBeamLoadConcentrated p b _ _ _ _ _ _ _ =>
    choose _ _ _ _ _ _ _ e h1 h2 h3 h4 h5 h6 h7 using hc
    obtain rfl : ck = _ := funext e
    refine upd_tends h p fun r rk hr => ⟨hr.node, hr.dist, OptTends.upd hr.conc b fun i => ?_⟩
    fin_cases i
    exacts [near_tends hδ h1, near_tends hδ h2, near_tends hδ h3, near_tends hδ h4, near_tends hδ h5, near_tends hδ h6, near_tends hδ h7]
  case addStaticCase n =>
    obtain rfl : ck = _ := funext hc
    exact ⟨h.pats, OptTends.upd h.cases n fun _ => OptTends.absent⟩
  case addModalCase n =>
    obtain rfl : ck = _ := funext hc
    exact ⟨h.pats, OptTends.upd h.cases n fun _ => OptTends.absent⟩
  case addCasePattern n p f =>
    choose f' e h1 using hc
    obtain rfl : ck = _ := funext e
    refine ⟨h.pats, fun m => ?_⟩
    simp only [caseReg]
    by_cases em : m = n
    · simp only [em, if_true]
      rcases h.cases n with ⟨e1, e2⟩ | ⟨g, gk, e1, e2, hg⟩
      · simp only [e1, e2, Option.map_none]; exact OptTends.absent
      · simp only [e1, e2, Option.map_some]
        refine OptTends.present fun q => ?_
        have hiso : ∀ k, ((t k).pats p).isSome = (s.pats p).isSome := by
          intro k
          rcases h.pats p with ⟨x1, x2⟩ | ⟨r, rk, x1, x2, _⟩
          · rw [x1, show (t k).pats p = none from x2 k]
          · rw [x1, show (t k).pats p = some (rk k) from x2 k]; rfl
        simp only [hiso]
        by_cases eq : q = p ∧ (s.pats p).isSome = true
        · simp only [eq, and_self, if_true]; exact OptTends.present (near_tends hδ h1)
        · simp only [eq, if_false]; exact hg q
    · simp only [em, if_false]; exact h.cases m
  all_goals first
    | (obtain rfl : ck = _ := funext hc; exact h)
    | (choose _ e _ using hc; obtain rfl : ck = _ := funext e; exact h)
    | (choose _ _ e _ _ using hc; obtain rfl : ck = _ := funext e; exact h)
    | (choose _ _ _ e _ _ _ using hc; obtain rfl : ck = _ := funext e; exact h)
    | (choose _ _ _ _ e _ _ _ _ using hc; obtain rfl : ck = _ := funext e; exact h)
    | (choose _ _ _ _ _ _ _ e _ _ _ _ _ _ _ using hc; obtain rfl : ck = _ := funext e; exact h)
    | (choose _ _ _ _ _ _ _ _ e _ _ _ _ _ _ _ _ using hc; obtain rfl : ck = _ := funext e; exact h)

end Hyperstatic
