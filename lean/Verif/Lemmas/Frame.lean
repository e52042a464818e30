import Verif.Spec.Frame
import Verif.Props.Blueprint

namespace Hyperstatic
open Matrix Spec

/-! ### beams of a blueprint -/

/-- elastic constants of a described beam -/
noncomputable def gconsts (g : GivenSec) : BeamConsts :=
  ⟨g.mat.E, g.mat.E / (2 * (1 + g.mat.mu)), g.A, g.I2, g.I3, g.J, g.mat.rho⟩

/-- facts about every blueprint that a history describes -/
structure Sane (s : Blueprint) (nodes : List String) : Prop where
  nodup : s.beams.Nodup
  mem : ∀ b, b ∈ s.beams ↔ (s.beam b).isSome
  ok : ∀ b g, s.beam b = some g → ∃ c, lineCsys g.p g.q = .ok c
  start : ∀ b g, s.beam b = some g → g.start ∈ nodes
  stop : ∀ b g, s.beam b = some g → g.stop ∈ nodes

theorem sane_of {a : Api} (h : ApiInv a) : Sane (blueprintOf a) a.model.nodes.keys where
  nodup := h.beams_wf
  mem := by
    intro b
    simp only [blueprintOf, Option.isSome_map]
    exact (Dict.get?_isSome_iff _ _).symm
  ok := by
    intro b g hg
    simp only [blueprintOf, Option.map_eq_some_iff] at hg
    obtain ⟨be, hb, rfl⟩ := hg
    exact ⟨_, (h.beam_ok b be hb).2.2.2.1⟩
  start := by
    intro b g hg
    simp only [blueprintOf, Option.map_eq_some_iff] at hg
    obtain ⟨be, hb, rfl⟩ := hg
    exact (h.beam_ok b be hb).2.1
  stop := by
    intro b g hg
    simp only [blueprintOf, Option.map_eq_some_iff] at hg
    obtain ⟨be, hb, rfl⟩ := hg
    exact (h.beam_ok b be hb).2.2.1

theorem sane_run (env : Env) (pre : List Call) : Sane (blueprint.run pre).cur (nodeReg.run pre).cur.names := by
  rw [← blueprint_refined env pre, ← (C02_node_registry env pre).1]
  exact sane_of (ApiInv_run env pre).1

theorem frame_rightHanded {p q : V3} {c : Csys} (h : lineCsys p q = .ok c) : RightHanded (beamFrame p q) := by
  rw [← beamFrame_eq h]; exact (lineCsys_ok h).1

theorem len_pos {g : GivenBeam} {c : Csys} (h : lineCsys g.p g.q = .ok c) : 0 < g.len := by
  have := (lineCsys_ok h).2.1
  rwa [show lineLength g.p g.q = g.len by
    unfold GivenBeam.len lineLength V3.norm
    simp only [V3.sub_def]
    congr 1; ring] at this

theorem internal_eq {g : GivenBeam} {c : Csys} (h : lineCsys g.p g.q = .ok c) (v u : State) :
    g.internal v u = beamWork (gconsts g.sec) g.len (g.ends v) (g.ends u) := by
  let be : BeamElm := ⟨"", g.start, g.p, g.stop, g.q, c, fun _ => false,
    .simple g.sec.mat.E g.sec.mat.mu g.sec.A g.sec.I2 g.sec.I3 g.sec.J g.sec.mat.rho⟩
  have e : givenBeam be = g := rfl
  have hl : be.length = g.len := (givenBeam_len be).symm
  have h2 : lineCsys be.startLoc be.endLoc = .ok be.csys := h
  have := givenBeam_internal (be := be) (lineCsys_ok h).2.1 h2 v u
  rw [e] at this
  rw [this]
  unfold beamInternal
  rw [← givenBeam_ends h2, ← givenBeam_ends h2, e, hl]
  congr 1
  unfold gconsts
  simp only [be, constsOf, div_div]

theorem GivenSec.Positive.prod {g : GivenSec} (h : g.Positive) : 0 < (gconsts g).E * (gconsts g).A ∧
    0 < (gconsts g).G * (gconsts g).J ∧ 0 < (gconsts g).E * (gconsts g).I3 ∧ 0 < (gconsts g).E * (gconsts g).I2 := by
  obtain ⟨h1, h2, h3, h4, h5, h6⟩ := h
  have : 0 < 1 + g.mat.mu := by linarith
  unfold gconsts
  refine ⟨?_, ?_, ?_, ?_⟩ <;> positivity

theorem ginternal_nonneg {g : GivenBeam} {c : Csys} (h : lineCsys g.p g.q = .ok c) (hp : g.sec.Positive) (u : State) :
    0 ≤ g.internal u u := by
  rw [internal_eq h, ← beamK_bilin _ (len_pos h).ne']
  obtain ⟨h1, h2, h3, h4⟩ := GivenSec.Positive.prod hp
  exact C30_nonneg _ _ (len_pos h) h1.le h2.le h3.le h4.le _

/-- a beam without energy and with one end at rest is at rest -/
theorem rigid_rest {g : GivenBeam} {c : Csys} (h : lineCsys g.p g.q = .ok c) (hp : g.sec.Positive) {u : State}
    (h0 : g.internal u u = 0) : (u g.start = 0 ↔ u g.stop = 0) := by
  rw [internal_eq h, ← beamK_bilin _ (len_pos h).ne'] at h0
  obtain ⟨h1, h2, h3, h4⟩ := GivenSec.Positive.prod hp
  obtain ⟨t, ω, e0, e1, e2, e3, e4, e5, e6, e7, e8, e9, e10, e11⟩ := ((C30_rigid_modes _ _ (len_pos h) h1 h2 h3 h4 _).1).mp h0
  have hl := (len_pos h).ne'
  have zero : ∀ {w : Vec 6} {a : V3}, w = 0 → a.dot (Spec.trans w) = 0 ∧ a.dot (Spec.rot w) = 0 := by
    rintro w a rfl
    simp [Spec.trans, Spec.rot, V3.dot]
  simp only [V3.add_def, V3.cross] at e6 e7 e8
  have hz : (∀ k : Fin 12, k.val < 6 → g.ends u k = 0) ∨ (∀ k : Fin 12, 6 ≤ k.val → g.ends u k = 0) → g.ends u = 0 := by
    rintro (hk | hk)
    · rw [hk 0 (by decide)] at e0
      rw [hk 1 (by decide)] at e1
      rw [hk 2 (by decide)] at e2
      rw [hk 3 (by decide)] at e3
      rw [hk 4 (by decide)] at e4
      rw [hk 5 (by decide)] at e5
      have k6 : g.ends u 6 = 0 := by rw [e6, ← e0]; ring
      have k7 : g.ends u 7 = 0 := by rw [e7, ← e1, ← e5]; ring
      have k8 : g.ends u 8 = 0 := by rw [e8, ← e2, ← e4]; ring
      have k9 := e9.trans e3.symm
      have k10 := e10.trans e4.symm
      have k11 := e11.trans e5.symm
      funext k
      by_cases hk' : k.val < 6
      · exact hk k hk'
      · fin_cases k <;> first | (exact absurd (by decide) hk') | (simp only [Pi.zero_apply]; assumption)
    · rw [hk 9 (by decide)] at e9
      rw [hk 10 (by decide)] at e10
      rw [hk 11 (by decide)] at e11
      rw [hk 6 (by decide), ← e10, ← e11] at e6
      rw [hk 7 (by decide), ← e9, ← e11] at e7
      rw [hk 8 (by decide), ← e9, ← e10] at e8
      have k0 : g.ends u 0 = 0 := by rw [e0]; linarith
      have k1 : g.ends u 1 = 0 := by rw [e1]; linarith
      have k2 : g.ends u 2 = 0 := by rw [e2]; linarith
      have k3 := e3.trans e9.symm
      have k4 := e4.trans e10.symm
      have k5 := e5.trans e11.symm
      funext k
      by_cases hk' : 6 ≤ k.val
      · exact hk k hk'
      · fin_cases k <;> first | (exact absurd (by decide) hk') | (simp only [Pi.zero_apply]; assumption)
  constructor
  · intro hs
    refine (ends_zero (frame_rightHanded h) (hz (Or.inl ?_))).2
    intro k hk
    unfold GivenBeam.ends localEnds
    rw [hs]
    fin_cases k <;> first | (exact absurd hk (by decide)) | simp [Spec.trans, Spec.rot, V3.dot]
  · intro hs
    refine (ends_zero (frame_rightHanded h) (hz (Or.inr ?_))).1
    intro k hk
    unfold GivenBeam.ends localEnds
    rw [hs]
    fin_cases k <;> first | (exact absurd hk (by decide)) | simp [Spec.trans, Spec.rot, V3.dot]

/-! ### sums over the beams -/

theorem Sane.term {s : Blueprint} {nodes : List String} (h : Sane s nodes) {b : String} (hb : b ∈ s.beams) :
    ∃ g, s.beam b = some g := Option.isSome_iff_exists.mp ((h.mem b).mp hb)

theorem internal_nonneg {s : Blueprint} {nodes : List String} (h : Sane s nodes) (hp : s.Positive) (u : State) :
    0 ≤ s.internal u u := by
  apply List.sum_nonneg
  intro y hy
  obtain ⟨b, hb, rfl⟩ := List.mem_map.mp hy
  obtain ⟨g, hg⟩ := h.term hb
  obtain ⟨c, hc⟩ := h.ok b g hg
  simp only [hg, Option.elim_some]
  exact ginternal_nonneg hc (hp b g hg) u

theorem list_sum_zero {α : Type} {l : List α} {f : α → ℝ} (hn : ∀ a ∈ l, 0 ≤ f a) (h : (l.map f).sum = 0) : ∀ a ∈ l, f a = 0 := by
  induction l with
  | nil => simp
  | cons a l ih =>
    rw [List.map_cons, List.sum_cons] at h
    have h1 := hn a List.mem_cons_self
    have h2 : 0 ≤ (l.map f).sum := List.sum_nonneg (by
      intro y hy
      obtain ⟨b, hb, rfl⟩ := List.mem_map.mp hy
      exact hn b (List.mem_cons_of_mem _ hb))
    intro b hb
    rcases List.mem_cons.mp hb with rfl | hb
    · linarith
    · exact ih (fun c hc => hn c (List.mem_cons_of_mem _ hc)) (by linarith) b hb

theorem grounded_stable {s : Blueprint} {nodes : List String} (h : Sane s nodes) (hp : s.Positive) {t : String → Option Flags}
    (hg : s.Grounded nodes t) : s.Stable nodes t := by
  intro u hu h0 n hn
  have hzero : ∀ b g, s.beam b = some g → g.internal u u = 0 := by
    intro b g hb
    have := list_sum_zero (l := s.beams) (f := fun b => (s.beam b).elim 0 fun g => g.internal u u) ?_ h0 b
      ((h.mem b).mpr (by rw [hb]; rfl))
    · simpa only [hb, Option.elim_some] using this
    · intro b' hb'
      obtain ⟨g', hg'⟩ := h.term hb'
      obtain ⟨c, hc⟩ := h.ok b' g' hg'
      simp only [hg', Option.elim_some]
      exact ginternal_nonneg hc (hp b' g' hg') u
  obtain ⟨m, ⟨f, hf, hall⟩, hchain⟩ := hg n hn
  have hm : u m = 0 := by
    funext r
    exact hu m f hf r (hall r)
  induction hchain using Relation.ReflTransGen.head_induction_on with
  | refl => exact hm
  | head hj _ ih =>
    obtain ⟨b, g, hb, hor⟩ := hj
    obtain ⟨c, hc⟩ := h.ok b g hb
    have hr := rigid_rest hc (hp b g hb) (hzero b g hb)
    rcases hor with ⟨rfl, rfl⟩ | ⟨rfl, rfl⟩
    · exact hr.mpr (ih (h.stop b g hb))
    · exact hr.mp (ih (h.start b g hb))

theorem ends_congr {g : GivenBeam} {u u' : State} (h1 : u g.start = u' g.start) (h2 : u g.stop = u' g.stop) : g.ends u = g.ends u' := by
  unfold GivenBeam.ends; rw [h1, h2]

theorem internal_congr {s : Blueprint} {nodes : List String} (h : Sane s nodes) {v v' u u' : State} (hv : ∀ n ∈ nodes, v n = v' n)
    (hu : ∀ n ∈ nodes, u n = u' n) : s.internal v u = s.internal v' u' := by
  unfold Blueprint.internal
  congr 1
  apply List.map_congr_left
  intro b hb
  obtain ⟨g, hg⟩ := h.term hb
  obtain ⟨c, hc⟩ := h.ok b g hg
  simp only [hg, Option.elim_some]
  rw [internal_eq hc, internal_eq hc, ends_congr (hv _ (h.start b g hg)) (hv _ (h.stop b g hg)),
    ends_congr (hu _ (h.start b g hg)) (hu _ (h.stop b g hg))]

theorem ends_lin (g : GivenBeam) (a b : ℝ) (u w : State) : g.ends (a • u + b • w) = a • g.ends u + b • g.ends w :=
  localEnds_lin _ _ _ _ _ _ _

theorem internal_lin {s : Blueprint} {nodes : List String} (h : Sane s nodes) (a b : ℝ) (v u w : State) :
    s.internal v (a • u + b • w) = a * s.internal v u + b * s.internal v w := by
  unfold Blueprint.internal
  rw [← List.sum_map_mul_left, ← List.sum_map_mul_left, ← List.sum_map_add]
  congr 1
  apply List.map_congr_left
  intro k hk
  obtain ⟨g, hg⟩ := h.term hk
  obtain ⟨c, hc⟩ := h.ok k g hg
  simp only [hg, Option.elim_some]
  rw [internal_eq hc, internal_eq hc, internal_eq hc, ends_lin, beamWork_lin_right]

theorem internal_symm {s : Blueprint} {nodes : List String} (h : Sane s nodes) (v u : State) : s.internal v u = s.internal u v := by
  unfold Blueprint.internal
  congr 1
  apply List.map_congr_left
  intro k hk
  obtain ⟨g, hg⟩ := h.term hk
  obtain ⟨c, hc⟩ := h.ok k g hg
  simp only [hg, Option.elim_some]
  rw [internal_eq hc, internal_eq hc, beamWork_comm]

theorem Obeys.lin {t : String → Option Flags} {u v : State} (hu : Obeys t u) (hv : Obeys t v) (a b : ℝ) : Obeys t (a • u + b • v) := by
  intro n f hf r hr
  simp [hu n f hf r hr, hv n f hf r hr]

/-! ### histories that only use names once -/

/-- an api all of whose nodes and patterns have been added, without shells -/
structure Within (L L' : List String) (a : Api) : Prop where
  nodes : ∀ n ∈ a.model.nodes.keys, n ∈ L
  pats : ∀ p ∈ a.loadpatterns.keys, p ∈ L'
  shells : a.model.shells = []

def Allowed (L L' : List String) (_ : World) (c : Call) : Prop :=
  (∀ n, addedNode c = some n → n ∈ L) ∧ (∀ p, addedPattern c = some p → p ∈ L') ∧ ∀ b n1 n2 n3 n4 s, c ≠ .addShell b n1 n2 n3 n4 s

theorem Within.edit {L L' : List String} {w : World} {c : Call} {a' : Api} (hP : Allowed L L' w c) (h : Within L L' w.api)
    (he : w.api.edit c = .ok a') : Within L L' a' := by
  obtain ⟨p1, p2, p3⟩ := hP
  have hsec : ∀ {name mat : String} {b : Material → Except PyErr BeamSection}, SecBuild w.api name mat b a' → Within L L' a' := by
    rintro name mat b ⟨_, _, _, _, rfl⟩
    exact { h with }
  have hpat : ∀ {p : String} {g : LoadPattern → LoadPattern}, PatUpd w.api p g a' → Within L L' a' := by
    rintro p g ⟨_, _, _, _, rfl⟩
    exact { h with }
  rw [edit_ok_iff] at he
  cases c <;> simp only [EditEff] at he
  case addNode n x y z =>
    subst he
    refine { h with nodes := ?_ }
    intro m hm
    simp only [Dict.mem_keys_set] at hm
    rcases hm with rfl | hm
    · exact p1 _ rfl
    · exact h.nodes m hm
  case setNodalMass n mass =>
    obtain ⟨nd, hnd, rfl⟩ := he
    refine { h with nodes := ?_ }
    intro m hm
    simp only [Dict.mem_keys_set] at hm
    rcases hm with rfl | hm
    · exact h.nodes _ (Dict.mem_keys_of_get? hnd)
    · exact h.nodes m hm
  case addLoadpattern p =>
    subst he
    refine { h with pats := ?_ }
    intro q hq
    simp only [Dict.mem_keys_set] at hq
    rcases hq with rfl | hq
    · exact p2 _ rfl
    · exact h.pats q hq
  case addShell => exact absurd rfl (p3 _ _ _ _ _ _)
  case setNodalRestraint =>
    subst he
    split
    · exact { h with }
    · exact h
  case addBeam => obtain ⟨_, _, _, _, _, _, _, _, rfl⟩ := he; exact { h with }
  case addSimpleBeam => obtain ⟨_, _, _, _, _, _, rfl⟩ := he; exact { h with }
  case addShellSection => obtain ⟨_, _, rfl⟩ := he; exact { h with }
  case setLoadcaseNodalRestraint => obtain ⟨_, _, rfl⟩ := he; exact { h with }
  case addCasePattern => obtain ⟨_, _, _, _, _, _, rfl⟩ := he; exact { h with }
  case setNodalLoad => exact hpat he
  case setBeamLoadDistributed => exact hpat he
  case setBeamLoadConcentrated => exact hpat he
  all_goals first | exact hsec he | (subst he; exact { h with })

theorem allowed_all (env : Env) (L L' : List String) (w : World) (cs : List Call) (h1 : ∀ n ∈ cs.filterMap addedNode, n ∈ L)
    (h2 : ∀ p ∈ cs.filterMap addedPattern, p ∈ L') (h3 : ∀ b n1 n2 n3 n4 s, Call.addShell b n1 n2 n3 n4 s ∉ cs) :
    AllCalls env (Allowed L L') w cs := by
  induction cs generalizing w with
  | nil => trivial
  | cons c cs ih =>
    refine ⟨⟨?_, ?_, ?_⟩, ih _ ?_ ?_ ?_⟩
    · intro n hn; exact h1 n (List.mem_filterMap.mpr ⟨c, List.mem_cons_self, hn⟩)
    · intro n hn; exact h2 n (List.mem_filterMap.mpr ⟨c, List.mem_cons_self, hn⟩)
    · rintro b n1 n2 n3 n4 s rfl; exact h3 b n1 n2 n3 n4 s List.mem_cons_self
    · intro n hn
      obtain ⟨k, hk, e⟩ := List.mem_filterMap.mp hn
      exact h1 n (List.mem_filterMap.mpr ⟨k, List.mem_cons_of_mem _ hk, e⟩)
    · intro n hn
      obtain ⟨k, hk, e⟩ := List.mem_filterMap.mp hn
      exact h2 n (List.mem_filterMap.mpr ⟨k, List.mem_cons_of_mem _ hk, e⟩)
    · intro b n1 n2 n3 n4 s hm; exact h3 b n1 n2 n3 n4 s (List.mem_cons_of_mem _ hm)

theorem within_run (env : Env) (cs : List Call) (h3 : ∀ b n1 n2 n3 n4 s, Call.addShell b n1 n2 n3 n4 s ∉ cs) :
    Within (cs.filterMap addedNode) (cs.filterMap addedPattern) (World.init.run env cs).api :=
  (WInv_run env (Allowed _ _) (fun _ _ _ hP h he => Within.edit hP h he) World.init cs
    (allowed_all env _ _ _ cs (fun _ h => h) (fun _ h => h) h3)
    (WInv_init ⟨by simp [Api.init, FeModel.empty, Dict.keys], by simp [Api.init, Dict.keys], rfl⟩)).1

theorem allCalls_iff {env : Env} {P : World → Call → Prop} {w : World} {cs : List Call} :
    AllCalls env P w cs ↔ ∀ a c b, cs = a ++ c :: b → P (w.run env a) c := by
  induction cs generalizing w with
  | nil => simp [AllCalls]
  | cons k cs ih =>
    simp only [AllCalls, ih]
    constructor
    · rintro ⟨h1, h2⟩ a c b e
      cases a with
      | nil => cases e; exact h1
      | cons a0 a => cases e; exact h2 a c b rfl
    · intro h
      refine ⟨h [] k cs rfl, ?_⟩
      rintro a c b rfl
      exact h (k :: a) c b rfl

/-- using every name once is enough -/
theorem plainFrame_of_calls (env : Env) {pre : List Call} (h : PlainCalls pre) : PlainFrame env pre := by
  obtain ⟨h1, h2, h3⟩ := h
  refine ⟨?_, ?_, ?_⟩
  · refine allCalls_iff.mpr ?_
    rintro a c b rfl n x y z rfl hn
    have hw := within_run env a (fun b' n1 n2 n3 n4 s hm => h3 b' n1 n2 n3 n4 s (List.mem_append_left _ hm))
    have := hw.nodes n hn
    rw [List.filterMap_append, List.filterMap_cons_some (show addedNode (.addNode n x y z) = some n from rfl)] at h1
    exact (List.disjoint_of_nodup_append h1) this List.mem_cons_self
  · refine allCalls_iff.mpr ?_
    rintro a c b rfl p rfl
    have hw := within_run env a (fun b' n1 n2 n3 n4 s hm => h3 b' n1 n2 n3 n4 s (List.mem_append_left _ hm))
    rw [List.filterMap_append, List.filterMap_cons_some (show addedPattern (.addLoadpattern p) = some p from rfl)] at h2
    cases hg : (World.init.run env a).api.loadpatterns.get? p with
    | none => rfl
    | some r => exact absurd (hw.pats p (Dict.mem_keys_of_get? hg)) (fun hm => (List.disjoint_of_nodup_append h2) hm List.mem_cons_self)
  · have hw := within_run env pre h3
    unfold World.getShellNames
    rw [hw.shells]; rfl

end Hyperstatic
