import Verif.Lemmas.TwoSupports

/-
C108: the beam on two supports under a load between them.
-/

namespace Hyperstatic
open Matrix Spec

section
variable {P : Problem} {s k t : String} {p : V3} {a b : ℝ} {g : GivenSec}

theorem Spec.TwoSupports.obeys (hT : TwoSupports P s k t p a b g) {v : State} (hv : Obeys P.fix v) :
    v s 0 = 0 ∧ v s 1 = 0 ∧ v s 2 = 0 ∧ v s 3 = 0 ∧ v t 1 = 0 ∧ v t 2 = 0 := by
  have h := (obeys_iff _ _).mp hv
  exact ⟨h s 0 ((hT.fix s 0).mpr (Or.inl ⟨rfl, by simp⟩)), h s 1 ((hT.fix s 1).mpr (Or.inl ⟨rfl, by simp⟩)),
    h s 2 ((hT.fix s 2).mpr (Or.inl ⟨rfl, by simp⟩)), h s 3 ((hT.fix s 3).mpr (Or.inl ⟨rfl, by simp⟩)),
    h t 1 ((hT.fix t 1).mpr (Or.inr ⟨rfl, by simp⟩)), h t 2 ((hT.fix t 2).mpr (Or.inr ⟨rfl, by simp⟩))⟩

/-- the internal work of the two parts -/
theorem Spec.TwoSupports.work (hT : TwoSupports P s k t p a b g) (hS : Sane P.frame P.nodes) (ha : 0 < a) (hb : 0 < b) :
    ∃ e f : Csys, (e.x = ⟨1, 0, 0⟩ ∧ e.y = ⟨0, 0, 1⟩ ∧ e.z = ⟨0, -1, 0⟩) ∧ (f.x = ⟨1, 0, 0⟩ ∧ f.y = ⟨0, 0, 1⟩ ∧ f.z = ⟨0, -1, 0⟩) ∧
      ∀ v x : State, P.frame.internal v x = beamWork (gconsts g) a (localEnds e (v s) (v k)) (localEnds e (x s) (x k)) +
        beamWork (gconsts g) b (localEnds f (v k) (v t)) (localEnds f (x k) (x t)) := by
  obtain ⟨b1, b2, h0, h1, h2⟩ := hT.beams
  have d1 : p + ⟨a, 0, 0⟩ - p = (⟨a, 0, 0⟩ : V3) := by ext <;> simp
  have d2 : p + ⟨a + b, 0, 0⟩ - (p + ⟨a, 0, 0⟩) = (⟨b, 0, 0⟩ : V3) := by ext <;> simp
  generalize p + ⟨a, 0, 0⟩ = q at *
  generalize p + ⟨a + b, 0, 0⟩ = q' at *
  obtain ⟨c1, hc1⟩ := hS.ok b1 _ h1
  obtain ⟨c2, hc2⟩ := hS.ok b2 _ h2
  refine ⟨beamFrame p q, beamFrame q q', flat_frame hc1 ha d1, flat_frame hc2 hb d2, ?_⟩
  intro v x
  unfold Blueprint.internal
  rw [h0]
  simp only [List.map_cons, List.map_nil, List.sum_cons, List.sum_nil, add_zero, h1, h2, Option.elim_some]
  rw [internal_eq hc1, internal_eq hc2, flat_len ha d1, flat_len hb d2]
  rfl

theorem Spec.TwoSupports.stable (hT : TwoSupports P s k t p a b g) (hS : Sane P.frame P.nodes) (ha : 0 < a) (hb : 0 < b) (hg : g.Positive) :
    P.frame.Stable P.nodes P.fix := by
  intro v hv h0 n hn
  obtain ⟨e, f, he, hf, hw⟩ := hT.work hS ha hb
  obtain ⟨p1, p2, p3, p4⟩ := GivenSec.Positive.prod hg
  obtain ⟨o1, o2, o3, o4, o5, o6⟩ := hT.obeys hv
  rw [hw] at h0
  obtain ⟨z1, z2, z3⟩ := span_rest ha hb he hf p1 p2 p3 p4 (v s) (v k) (v t) o1 o2 o3 o4 o5 o6 h0
  rw [hT.nodes] at hn
  simp only [List.mem_cons, List.not_mem_nil, or_false] at hn
  rcases hn with rfl | rfl | rfl
  · exact z1
  · exact z2
  · exact z3

end

/-- Under a force `Fx, Fy, Fz` and a torque `M` at `k` all displacements and rotations are those of the beam tables: deflection under the load
`F a² b² / (3 E I L)`, slopes `F b (L² - b²) / (6 L E I)` at the start, `F a b (b - a) / (3 L E I)` under the load and
`-F a (L² - a²) / (6 L E I)` at the end.  Vertical loads bend about axis 3, horizontal ones about axis 2. -/
theorem C108_span (env : Env) (henv : env.SolverSound) (pre mid : List Call) (hF : PlainFrame env pre) (c : String) (P : Problem)
    (hD : Poses pre c P) (s k t : String) (p : V3) (a b : ℝ) (g : GivenSec) (hT : TwoSupports P s k t p a b g) (ha : 0 < a) (hb : 0 < b)
    (hg : g.Positive) (u : State) (hu : Reports env pre mid c u) (Fx Fy Fz M : ℝ)
    (hload : ∀ v, P.load v = Fx * v k 0 + Fy * v k 1 + Fz * v k 2 + M * v k 3)
    (L EA Ez Ey GJ : ℝ) (hL : L = a + b) (hEA : EA = g.mat.E * g.A) (hEz : Ez = g.mat.E * g.I3) (hEy : Ey = g.mat.E * g.I2)
    (hGJ : GJ = g.mat.E / (2 * (1 + g.mat.mu)) * g.J) :
    u s = ![0, 0, 0, 0, -(Fz * b * (L ^ 2 - b ^ 2) / (6 * L * Ez)), Fy * b * (L ^ 2 - b ^ 2) / (6 * L * Ey)] ∧
    u k = ![Fx * a / EA, Fy * a ^ 2 * b ^ 2 / (3 * Ey * L), Fz * a ^ 2 * b ^ 2 / (3 * Ez * L), M * a / GJ,
      -(Fz * a * b * (b - a) / (3 * L * Ez)), Fy * a * b * (b - a) / (3 * L * Ey)] ∧
    u t = ![Fx * a / EA, 0, 0, M * a / GJ, Fz * a * (L ^ 2 - a ^ 2) / (6 * L * Ez), -(Fy * a * (L ^ 2 - a ^ 2) / (6 * L * Ey))] := by
  have hS := hD.sane env
  have hst := hT.stable hS ha hb hg
  obtain ⟨e, f, he, hf, hw⟩ := hT.work hS ha hb
  obtain ⟨p1, p2, p3, p4⟩ := GivenSec.Positive.prod hg
  obtain ⟨x, h1, h2, h3⟩ := reports_equilibrium henv hF hD hst hu
  have hd := hT.distinct
  simp only [List.nodup_cons, List.mem_cons, List.not_mem_nil, or_false, not_or, not_false_eq_true, List.nodup_nil, and_true] at hd
  obtain ⟨⟨sk, st⟩, kt⟩ := hd
  have eA : (gconsts g).E * (gconsts g).A = EA := hEA.symm
  have e3 : (gconsts g).E * (gconsts g).I3 = Ez := hEz.symm
  have e2 : (gconsts g).E * (gconsts g).I2 = Ey := hEy.symm
  have eJ : (gconsts g).G * (gconsts g).J = GJ := hGJ.symm
  let d : SpanAnswer := ⟨Fx * a / EA, spanDefl Fy a b Ey, spanDefl Fz a b Ez, M * a / GJ, spanSlope Fy a b Ey, spanSlope Fz a b Ez⟩
  let y : State := fun n => if n = s then d.s else if n = k then d.k else if n = t then d.t else 0
  have ys : y s = d.s := if_pos rfl
  have yk : y k = d.k := by show (if k = s then _ else _) = _; rw [if_neg (Ne.symm sk), if_pos rfl]
  have yt : y t = d.t := by show (if t = s then _ else _) = _; rw [if_neg (Ne.symm st), if_neg (Ne.symm kt), if_pos rfl]
  have oy : Obeys P.fix y := by
    rw [obeys_iff]
    intro n r hr
    rcases (hT.fix n r).mp hr with ⟨rfl, h⟩ | ⟨rfl, h⟩
    · rw [ys]; rcases h with rfl | rfl | rfl | rfl <;> rfl
    · rw [yt]; rcases h with rfl | rfl <;> rfl
  have hxy := same_answer hS hst h2 oy h3 (fun v hv => by
    obtain ⟨o1, o2, o3, o4, o5, o6⟩ := hT.obeys hv
    rw [hw, ys, yk, yt, hload]
    exact span_work ha hb he hf p1.ne' p2.ne' p3.ne' p4.ne' ⟨Fx, Fy, Fz⟩ M (d := d) (by rw [eA]) (by rw [eJ]) (by rw [e2]) (by rw [e3])
      (by rw [e2]) (by rw [e3]) (v s) (v k) (v t) o1 o2 o3 o4 o5 o6)
  have ms : s ∈ P.nodes := by rw [hT.nodes]; simp
  have mk : k ∈ P.nodes := by rw [hT.nodes]; simp
  have mt : t ∈ P.nodes := by rw [hT.nodes]; simp
  rw [h1 s ms, h1 k mk, h1 t mt, hxy s ms, hxy k mk, hxy t mt, ys, yk, yt, hL]
  refine ⟨?_, ?_, ?_⟩ <;> funext i <;> fin_cases i <;>
    simp [SpanAnswer.s, SpanAnswer.k, SpanAnswer.t, d, spanDefl, spanSlope]

/-- With the load at midspan: `F L³ / (48 E I)`. -/
theorem C108_midspan (env : Env) (henv : env.SolverSound) (pre mid : List Call) (hF : PlainFrame env pre) (c : String) (P : Problem)
    (hD : Poses pre c P) (s k t : String) (p : V3) (L : ℝ) (g : GivenSec) (hT : TwoSupports P s k t p (L / 2) (L / 2) g) (hL : 0 < L)
    (hg : g.Positive) (u : State) (hu : Reports env pre mid c u) (Fz : ℝ) (hload : ∀ v, P.load v = Fz * v k 2) :
    u k = ![0, 0, Fz * L ^ 3 / (48 * (g.mat.E * g.I3)), 0, 0, 0] := by
  obtain ⟨_, h, _⟩ := C108_span env henv pre mid hF c P hD s k t p (L / 2) (L / 2) g hT (by linarith) (by linarith) hg u hu 0 0 Fz 0
    (by intro v; rw [hload]; ring) _ _ _ _ _ rfl rfl rfl rfl rfl
  rw [h]
  have hE : g.mat.E ≠ 0 := hg.1.ne'
  have hI : g.I3 ≠ 0 := hg.2.2.2.2.1.ne'
  funext i
  fin_cases i <;> simp
  field_simp
  ring

end Hyperstatic
