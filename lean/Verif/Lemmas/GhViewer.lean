import Verif.Lemmas.Viewer
import Verif.Spec.GhViewer

/-
Lemmas about the viewers started from Grasshopper.
-/

namespace Hyperstatic
open Spec

namespace GhView

/-- what both ways of exchanging the actors do -/
def redraw (v : GhView) (ps : List V3) (ls : List (V3 × V3)) (on : Bool) : GhView :=
  { v with
    heap := v.heap ++ [⟨.points ps, on⟩, ⟨.lines ls, true⟩]
    shown := (v.shown.filter (· ≠ v.vnodes)).filter (· ≠ v.vbeams)
    vnodes := v.heap.length
    vbeams := v.heap.length + 1 }

/-- what the viewer keeps true, whatever is clicked -/
structure Inv (w : World) (P : Picture) (v : GhView) : Prop where
  api : v.api = w
  pts : v.pts = tabulate w.getNodeNames (nodeAt w none)
  lines : v.lines = tabulate w.getBeamNames (beamAt w none)
  beam : v.heap[v.vbeams]? = some ⟨.lines (w.getBeamNames.map (beamAt w P.shape)), true⟩
  node : ∃ o, v.heap[v.vnodes]? = some ⟨.points (w.getNodeNames.map (nodeAt w P.shape)), o⟩
  sb : v.vbeams ∈ v.shown
  sn : v.vnodes ∈ v.shown
  sub : ∀ i ∈ v.shown, i = v.vnodes ∨ i = v.vbeams
  btnNode : v.btnNode = P.nodes
  btn : ∀ a, v.btn a = true ↔ P.shape.map Prod.fst = some a
  scale : v.scale = P.scale

/-- the nodes are on when the button says so -/
def Tidy (P : Picture) (v : GhView) : Prop := ∃ d, v.heap[v.vnodes]? = some ⟨d, P.nodes⟩

theorem Inv.redraw {w : World} {P : Picture} {v : GhView} (h : Inv w P v) (shape : Option (Axis × ℝ)) (on : Bool)
    (btn : Axis → Bool) (hb : ∀ a, btn a = true ↔ shape.map Prod.fst = some a) :
    Inv w { P with shape := shape }
      ({ v.redraw (w.getNodeNames.map (nodeAt w shape)) (w.getBeamNames.map (beamAt w shape)) on with btn := btn } : GhView).reset := by
  have hin : ∀ i, i = v.heap.length ∨ i = v.heap.length + 1 → i ∈ ({ v.redraw (w.getNodeNames.map (nodeAt w shape))
      (w.getBeamNames.map (beamAt w shape)) on with btn := btn } : GhView).reset.shown := by
    intro i hi
    simp only [GhView.reset, List.mem_append, List.mem_filter]
    by_cases hm : i ∈ (v.redraw (w.getNodeNames.map (nodeAt w shape)) (w.getBeamNames.map (beamAt w shape)) on).shown
    · exact Or.inl hm
    · exact Or.inr ⟨by simpa [GhView.redraw] using hi, by simpa using hm⟩
  refine ⟨h.api, h.pts, h.lines, ?_, ⟨on, ?_⟩, ?_, ?_, ?_, h.btnNode, hb, h.scale⟩
  · simp [GhView.reset, GhView.redraw]
  · simp [GhView.reset, GhView.redraw]
  · exact hin _ (Or.inr rfl)
  · exact hin _ (Or.inl rfl)
  · intro i hi
    simp only [GhView.reset, List.mem_append, List.mem_filter] at hi ⊢
    rcases hi with hi | ⟨hi, _⟩
    · simp only [GhView.redraw, List.mem_filter, decide_eq_true_eq] at hi
      rcases h.sub i hi.1.1 with h0 | h0
      · exact absurd h0 hi.1.2
      · exact absurd h0 hi.2
    · simpa [GhView.redraw] using hi

theorem showDeformation_eq {w : World} {P : Picture} {v : GhView} (h : Inv w P v) (hd : Drawable w)
    (ht : w.resultGetAllNodalDisplacement "case1" =
      some (tabulate w.getNodeNames fun n => (w.resultGetNodalDisplacement n "case1").getD [])) (hD : Displayable w) (a : Axis) :
    v.showDeformation = .ok (v.redraw (w.getNodeNames.map (nodeAt w (some (a, P.scale))))
      (w.getBeamNames.map (beamAt w (some (a, P.scale)))) v.btnNode) := by
  unfold GhView.showDeformation
  rw [h.api, ht]
  simp only []
  rw [h.pts, h.scale, moveAll_ok hd hD a]
  have hv : v.vbeams ≠ v.heap.length := by
    have := (List.getElem?_eq_some_iff.mp h.beam).1
    omega
  cases hb : v.btnNode with
  | true =>
    simp only [Except.bind_ok, GhView.remove, GhView.make, hb, if_true, h.api, h.lines, viewLines_again hd, values_tabulate, GhView.redraw,
      List.append_assoc, List.cons_append, List.nil_append, List.length_append, List.length_cons, List.length_nil, pure, Except.pure]
  | false =>
    simp only [Except.bind_ok, GhView.remove, GhView.make, GhView.switch, hb, Bool.false_eq_true, if_false, h.api, h.lines,
      viewLines_again hd, values_tabulate, GhView.redraw, modify_last, List.append_assoc, List.cons_append, List.nil_append,
      List.length_append, List.length_cons, List.length_nil, pure, Except.pure]

theorem modify_last2 {α : Type _} (l : List α) (x y : α) (f : α → α) : (l ++ [x, y]).modify l.length f = l ++ [f x, y] := by
  induction l with
  | nil => rfl
  | cons a l ih => simp [ih]

theorem resetDeformation_eq {w : World} {P : Picture} {v : GhView} (h : Inv w P v) :
    v.resetDeformation = v.redraw (w.getNodeNames.map (nodeAt w none)) (w.getBeamNames.map (beamAt w none)) false := by
  unfold GhView.resetDeformation
  cases hb : v.btnNode with
  | true =>
    simp only [GhView.remove, GhView.make, hb, if_true, h.pts, h.lines, values_tabulate, GhView.redraw, List.append_assoc,
      List.cons_append, List.nil_append, List.length_append, List.length_cons, List.length_nil]
  | false =>
    simp only [GhView.remove, GhView.make, GhView.switch, hb, Bool.false_eq_true, if_false, h.pts, h.lines, values_tabulate, GhView.redraw,
      modify_last2, List.append_assoc, List.cons_append, List.nil_append, List.length_append, List.length_cons, List.length_nil]

theorem showDeformation_error {w : World} {P : Picture} {v : GhView} (h : Inv w P v)
    (ht : w.resultGetAllNodalDisplacement "case1" = none ∨ w.resultGetAllNodalDisplacement "case1" =
      some (tabulate w.getNodeNames fun n => (w.resultGetNodalDisplacement n "case1").getD []) ∧
      ∀ n ∈ w.getNodeNames, ∃ d, w.resultGetNodalDisplacement n "case1" = some d) (hD : ¬ Displayable w) :
    ∃ e, v.showDeformation = .error e := by
  unfold GhView.showDeformation
  rw [h.api]
  rcases ht with ht | ⟨ht, hs⟩
  · rw [ht]; exact ⟨_, rfl⟩
  · rw [ht]
    unfold Displayable at hD
    push Not at hD
    obtain ⟨n, hn, hlen⟩ := hD
    obtain ⟨d, hd⟩ := hs n hn
    obtain ⟨e, he⟩ := moveAll_error v.scale v.pts w.getNodeNames (fun n => (w.resultGetNodalDisplacement n "case1").getD [])
      ⟨n, hn, by rw [hd]; exact hlen d hd⟩
    simp only []
    rw [he]
    exact ⟨_, rfl⟩

theorem Inv_step (env : Env) (cs : List Call) (w : World) (hw : w = World.init.run env cs) (hne : w.getNodeNames ≠ [])
    {P : Picture} {v : GhView} (h : Inv w P v) (hsh : ¬ Displayable w → P.shape = none) (c : Click) :
    Inv w (Picture.step w P c) (v.step c) ∧ (¬ Displayable w → (Picture.step w P c).shape = none) ∧
    (Tidy P v → (∀ a, c = .deform a → P.shape.map Prod.fst = some a → P.nodes = false) → Tidy (Picture.step w P c) (v.step c)) := by
  have hd : Drawable w := by rw [hw]; exact Drawable_run env cs
  cases c with
  | slide s =>
    exact ⟨⟨h.api, h.pts, h.lines, h.beam, h.node, h.sb, h.sn, h.sub, h.btnNode, h.btn, rfl⟩, hsh, fun ht _ => ht⟩
  | node =>
    have hst : v.step .node = { (v.switch v.vnodes (!v.btnNode)) with btnNode := !v.btnNode } := by
      simp only [GhView.step, GhView.toggleNode]
      cases hb : v.btnNode <;> simp [GhView.switch, hb]
    obtain ⟨o, hn⟩ := h.node
    have hneb : v.vbeams ≠ v.vnodes := by
      intro e
      have := h.beam
      rw [e, hn] at this
      simp at this
    have hnew : (v.step .node).heap[v.vnodes]? = some ⟨.points (w.getNodeNames.map (nodeAt w P.shape)), !v.btnNode⟩ := by
      rw [hst]
      simp only [GhView.switch]
      rw [List.getElem?_modify_eq, hn]
      rfl
    refine ⟨⟨by rw [hst]; exact h.api, by rw [hst]; exact h.pts, by rw [hst]; exact h.lines, ?_, ⟨!v.btnNode, ?_⟩, by rw [hst]; exact h.sb,
      by rw [hst]; exact h.sn, by rw [hst]; exact h.sub, ?_, by rw [hst]; exact h.btn, by rw [hst]; exact h.scale⟩, hsh, ?_⟩
    · rw [hst]
      simp only [GhView.switch]
      rw [List.getElem?_modify]
      simp only [Ne.symm hneb, if_false]
      rw [h.beam]
      rfl
    · have : (v.step .node).vnodes = v.vnodes := by rw [hst]; rfl
      rw [this]; exact hnew
    · rw [hst]; show (!v.btnNode) = !P.nodes; rw [h.btnNode]
    · intro _ _
      have : (v.step .node).vnodes = v.vnodes := by rw [hst]; rfl
      refine ⟨.points (w.getNodeNames.map (nodeAt w P.shape)), ?_⟩
      rw [this, hnew, h.btnNode]; rfl
  | deform a =>
    by_cases hD : Displayable w
    · have htab := (displacement_table env cs w hw hne).resolve_left (fun h => h.2 hD)
      by_cases hsame : P.shape.map Prod.fst = some a
      · have hb : v.btn a = true := (h.btn a).mpr hsame
        have hp : Picture.step w P (.deform a) = { P with shape := none } := by
          simp only [Picture.step]; rw [if_pos hD, if_pos hsame]
        have hb' : ∀ b', (fun b => if b = a then !v.btn a else false : Axis → Bool) b' = true ↔
            (none : Option (Axis × ℝ)).map Prod.fst = some b' := by
          intro b; simp only [hb]; by_cases hx : b = a <;> simp [hx]
        have hst : v.step (.deform a) = ({ v.redraw (w.getNodeNames.map (nodeAt w none)) (w.getBeamNames.map (beamAt w none)) false
            with btn := fun b => if b = a then !v.btn a else false } : GhView).reset := by
          simp only [GhView.step, GhView.deform, hb, if_true, resetDeformation_eq h]
          simp only [pure, Except.pure, bind, Except.bind, GhView.redraw, hb]
        rw [hp, hst]
        refine ⟨h.redraw none false _ hb', fun _ => rfl, ?_⟩
        intro ht hno
        refine ⟨.points (w.getNodeNames.map (nodeAt w none)), ?_⟩
        have hnf : P.nodes = false := hno a rfl hsame
        simp [GhView.reset, GhView.redraw, hnf]
      · have hb : v.btn a = false := by
          cases hx : v.btn a with
          | false => rfl
          | true => exact absurd ((h.btn a).mp hx) hsame
        have hp : Picture.step w P (.deform a) = { P with shape := some (a, P.scale) } := by
          simp only [Picture.step]; rw [if_pos hD, if_neg hsame]
        have hb' : ∀ b', (fun b => if b = a then !v.btn a else false : Axis → Bool) b' = true ↔
            (some (a, P.scale) : Option (Axis × ℝ)).map Prod.fst = some b' := by
          intro b; simp only [hb]; by_cases hx : b = a <;> simp [hx]
          exact fun e => hx e.symm
        have hst : v.step (.deform a) = ({ v.redraw (w.getNodeNames.map (nodeAt w (some (a, P.scale))))
            (w.getBeamNames.map (beamAt w (some (a, P.scale)))) v.btnNode
            with btn := fun b => if b = a then !v.btn a else false } : GhView).reset := by
          simp only [GhView.step, GhView.deform, hb, if_false, Bool.false_eq_true, showDeformation_eq h hd htab.1 hD a]
          simp only [pure, Except.pure, bind, Except.bind, GhView.redraw, hb]
        rw [hp, hst]
        refine ⟨h.redraw _ _ _ hb', fun hn => absurd hD hn, ?_⟩
        intro _ _
        refine ⟨.points (w.getNodeNames.map (nodeAt w (some (a, P.scale)))), ?_⟩
        simp [GhView.reset, GhView.redraw, h.btnNode]
    · have hp : Picture.step w P (.deform a) = P := by
        simp only [Picture.step]; rw [if_neg hD]
      have hb : v.btn a = false := by
        cases hx : v.btn a with
        | false => rfl
        | true => have := (h.btn a).mp hx; rw [hsh hD] at this; cases this
      have hst : v.step (.deform a) = v := by
        obtain ⟨e, he⟩ := showDeformation_error h (by
          rcases displacement_table env cs w hw hne with h | h
          · exact Or.inl h.1
          · exact Or.inr h) hD
        simp only [GhView.step, GhView.deform, hb, if_false, Bool.false_eq_true, he]
        rfl
      rw [hp, hst]
      exact ⟨h, hsh, fun ht _ => ht⟩

theorem Inv_run (env : Env) (cs : List Call) (w : World) (hw : w = World.init.run env cs) (hne : w.getNodeNames ≠ []) {v : GhView}
    (h : Inv w ghStart v) (ht : Tidy ghStart v) (clicks : List Click) :
    Inv w (ghPicture w clicks) (v.run clicks) ∧ (¬ Displayable w → (ghPicture w clicks).shape = none) ∧
    (NoResetWithNodes w clicks → Tidy (ghPicture w clicks) (v.run clicks)) := by
  induction clicks using List.reverseRecOn with
  | nil => exact ⟨h, fun _ => rfl, fun _ => ht⟩
  | append_singleton l c ih =>
    have e1 : v.run (l ++ [c]) = (v.run l).step c := by simp [GhView.run]
    have e2 : ghPicture w (l ++ [c]) = Picture.step w (ghPicture w l) c := by simp [ghPicture]
    rw [e1, e2]
    obtain ⟨k1, k2, k3⟩ := Inv_step env cs w hw hne ih.1 ih.2.1 c
    refine ⟨k1, k2, fun hno => k3 (ih.2.2 ?_) ?_⟩
    · intro pre a post e
      exact hno pre a (post ++ [c]) (by rw [e]; simp)
    · rintro a rfl
      exact hno l a [] rfl

theorem step_cones (v : GhView) (c : Click) : (v.step c).cones = v.cones := by
  cases c with
  | node => simp only [GhView.step, GhView.toggleNode]; cases v.btnNode <;> rfl
  | slide s => rfl
  | deform a =>
    simp only [GhView.step]
    cases hd : v.deform a with
    | error e => rfl
    | ok v' =>
      unfold GhView.deform at hd
      by_cases hb : v.btn a = true
      · simp only [hb, if_true, pure, Except.pure, bind, Except.bind, Except.ok.injEq] at hd
        subst hd
        simp only [GhView.reset, GhView.resetDeformation]
        split <;> rfl
      · simp only [hb, if_false, Bool.false_eq_true] at hd
        cases hs : v.showDeformation with
        | error e => rw [hs] at hd; cases hd
        | ok v₂ =>
          rw [hs] at hd
          simp only [pure, Except.pure, bind, Except.bind, Except.ok.injEq] at hd
          subst hd
          show v₂.cones = v.cones
          unfold GhView.showDeformation at hs
          cases hr : v.api.resultGetAllNodalDisplacement "case1" with
          | none => rw [hr] at hs; cases hs
          | some d =>
            rw [hr] at hs
            simp only [Except.bind_ok_iff] at hs
            obtain ⟨pts, _, hs⟩ := hs
            cases hbn : v.btnNode <;> simp only [GhView.remove, GhView.make, GhView.switch, hbn, if_true, if_false, Bool.false_eq_true] at hs <;>
              (obtain ⟨ls, _, hs⟩ := hs; simp only [pure, Except.pure, Except.ok.injEq] at hs; subst hs; rfl)

end GhView

/-- the cones of one node -/
noncomputable def ghConesAt (p : V3) (k : ℝ) (f : Flags) : List Cone :=
  ((List.finRange 6).filter (fun i => f i)).flatMap fun i =>
    if i.val < 3 then [⟨⟨p.x - k * (supportDir i).x, p.y - k * (supportDir i).y, p.z - k * (supportDir i).z⟩, supportDir i, k, false⟩]
    else [⟨⟨p.x - k * (supportDir i).x, p.y - k * (supportDir i).y, p.z - k * (supportDir i).z⟩, supportDir i, k, true⟩,
      ⟨⟨p.x - 2 * k * (supportDir i).x, p.y - 2 * k * (supportDir i).y, p.z - 2 * k * (supportDir i).z⟩, supportDir i, k, true⟩]

theorem ghCones_eq (pre : List Cone) (p : V3) (k : ℝ) (f : Flags) : ghCones pre p k f = pre ++ ghConesAt p k f := by
  have hf : List.finRange 6 = [0, 1, 2, 3, 4, 5] := by decide
  simp only [ghCones, ghConesAt, hf]
  cases h0 : f 0 <;> cases h1 : f 1 <;> cases h2 : f 2 <;> cases h3 : f 3 <;> cases h4 : f 4 <;> cases h5 : f 5 <;>
    simp [h0, h1, h2, h3, h4, h5, supportDir]

theorem ghCones_fold {w : World} (l : List (String × Flags)) (pre : List Cone) :
    ((∀ kv ∈ l, kv.1 ∈ w.getNodeNames) →
      l.foldlM (fun cones kv => do
        let pt ← (tabulate w.getNodeNames (nodeAt w none)).getItem kv.1
        return ghCones cones pt 0.1 kv.2) pre =
      Except.ok (ε := PyErr) (pre ++ l.flatMap fun kv => ghConesAt (nodeAt w none kv.1) 0.1 kv.2)) ∧
    (¬ (∀ kv ∈ l, kv.1 ∈ w.getNodeNames) → ∃ e,
      l.foldlM (fun cones kv => do
        let pt ← (tabulate w.getNodeNames (nodeAt w none)).getItem kv.1
        return ghCones cones pt 0.1 kv.2) pre = Except.error (ε := PyErr) e) := by
  induction l generalizing pre with
  | nil => exact ⟨fun _ => by simp [pure, Except.pure], fun h => absurd (by simp) h⟩
  | cons kv l ih =>
    rw [List.foldlM_cons]
    by_cases hm : kv.1 ∈ w.getNodeNames
    · have e : ((do
          let pt ← (tabulate w.getNodeNames (nodeAt w none)).getItem kv.1
          return ghCones pre pt 0.1 kv.2) : Except PyErr (List Cone)) = .ok (ghCones pre (nodeAt w none kv.1) 0.1 kv.2) := by
        simp [Dict.getItem, get?_tabulate _ _ _ hm, pure, Except.pure, bind, Except.bind]
      rw [e]
      simp only [Except.bind_ok]
      obtain ⟨i1, i2⟩ := ih (ghCones pre (nodeAt w none kv.1) 0.1 kv.2)
      constructor
      · intro h
        rw [i1 (fun x hx => h x (List.mem_cons_of_mem _ hx)), ghCones_eq, List.flatMap_cons, List.append_assoc]
      · intro h
        apply i2
        intro hall
        apply h
        intro x hx
        rcases List.mem_cons.mp hx with rfl | hx
        · exact hm
        · exact hall x hx
    · constructor
      · intro h; exact absurd (h kv List.mem_cons_self) hm
      · intro _
        have : Dict.get? (tabulate w.getNodeNames (nodeAt w none)) kv.1 = none := by
          cases hg : Dict.get? (tabulate w.getNodeNames (nodeAt w none)) kv.1 with
          | none => rfl
          | some x =>
            have := Dict.mem_keys_of_get? hg
            rw [keys_tabulate] at this
            exact absurd this hm
        simp [Dict.getItem, this, bind, Except.bind]

/-- when the viewer of results opens, and with what -/
theorem gh_open {w : World} (hd : Drawable w) :
    (∀ v, GhView.open? w = .ok v ↔ w.getNodeNames ≠ [] ∧ ∃ rest, w.getNodeRestraints (some "case1") = some rest ∧
      (∀ kv ∈ rest, kv.1 ∈ w.getNodeNames) ∧
      v = { api := w, pts := tabulate w.getNodeNames (nodeAt w none), lines := tabulate w.getBeamNames (beamAt w none)
            cones := rest.flatMap fun kv => ghConesAt (nodeAt w none kv.1) 0.1 kv.2
            heap := [⟨.points (w.getNodeNames.map (nodeAt w none)), false⟩, ⟨.lines (w.getBeamNames.map (beamAt w none)), true⟩]
            shown := [0, 1], vnodes := 0, vbeams := 1, btnNode := false, btn := fun _ => false, scale := 1 }) := by
  intro v
  unfold GhView.open?
  rw [viewPts_eq hd]
  simp only [Except.bind_ok]
  cases hr : w.getNodeRestraints (some "case1") with
  | none => simp
  | some rest =>
    simp only [Option.some.injEq, exists_eq_left']
    by_cases hall : ∀ kv ∈ rest, kv.1 ∈ w.getNodeNames
    · rw [(ghCones_fold rest []).1 hall]
      simp only [Except.bind_ok, viewLines_new hd, values_tabulate, List.nil_append]
      have hl : (tabulate w.getNodeNames (nodeAt w none)).length = 0 ↔ w.getNodeNames = [] := by
        simp [tabulate]
      by_cases hne : w.getNodeNames = []
      · rw [if_pos (hl.mpr hne)]
        simp [hne]
      · rw [if_neg (fun h => hne (hl.mp h))]
        simp only [pure, Except.pure, Except.ok.injEq, ne_eq, hne, not_false_eq_true, true_and]
        exact ⟨fun h => ⟨hall, h.symm⟩, fun h => h.2.symm⟩
    · obtain ⟨e, he⟩ := (ghCones_fold (w := w) rest []).2 hall
      rw [he]
      constructor
      · intro h; cases h
      · intro h; exact absurd h.2.1 hall

theorem gh_open_inv {w : World} (hd : Drawable w) {v : GhView} (hv : GhView.open? w = .ok v) :
    w.getNodeNames ≠ [] ∧ GhView.Inv w ghStart v ∧ GhView.Tidy ghStart v := by
  obtain ⟨hne, rest, _, _, rfl⟩ := (gh_open hd v).mp hv
  refine ⟨hne, ⟨rfl, rfl, rfl, rfl, ⟨false, rfl⟩, by simp, by simp, by simp, rfl, by simp [ghStart], rfl⟩, ⟨_, rfl⟩⟩

end Hyperstatic
