import Verif.Props.Grasshopper
import Verif.Props.Blueprint
import Verif.Props.Registry
import Verif.Lemmas.Coo
import Std.Data.String.ToNat

/-
Lemmas about the script written by the assembling component: which calls it consists of and what they define.
-/

namespace Hyperstatic
open Spec

/-! ### folds -/

theorem foldl_inv {S A : Type} (step : S → A → S) (l : List A) (P : S → Prop) (hP : ∀ a ∈ l, ∀ s, P s → P (step s a)) (s : S) (hs : P s) :
    P (l.foldl step s) := by
  induction l generalizing s with
  | nil => exact hs
  | cons a l ih => exact ih (fun b hb => hP b (List.mem_cons_of_mem _ hb)) _ (hP a List.mem_cons_self s hs)

theorem foldl_hits {S A : Type} (step : S → A → S) (l : List A) (P : S → Prop) (Q : A → S → Prop)
    (hP : ∀ a ∈ l, ∀ s, P s → P (step s a)) (hQ : ∀ a ∈ l, ∀ s, P s → Q a (step s a))
    (hk : ∀ a ∈ l, ∀ b ∈ l, ∀ s, P s → Q a s → Q a (step s b)) (s : S) (hs : P s) : ∀ a ∈ l, Q a (l.foldl step s) := by
  induction l generalizing s with
  | nil => simp
  | cons c l ih =>
    intro a ha
    rw [List.foldl_cons]
    rcases List.mem_cons.mp ha with rfl | ha
    · exact (foldl_inv step l (fun s => P s ∧ Q a s) (fun b hb s h => ⟨hP b (List.mem_cons_of_mem _ hb) s h.1,
        hk a List.mem_cons_self b (List.mem_cons_of_mem _ hb) s h.1 h.2⟩) _
        ⟨hP a List.mem_cons_self s hs, hQ a List.mem_cons_self s hs⟩).2
    · exact ih (fun b hb => hP b (List.mem_cons_of_mem _ hb)) (fun b hb => hQ b (List.mem_cons_of_mem _ hb))
        (fun a ha b hb => hk a (List.mem_cons_of_mem _ ha) b (List.mem_cons_of_mem _ hb)) _ (hP c List.mem_cons_self s hs) a ha

theorem foldl_still {S A : Type} (step : S → A → S) (l : List A) (h : ∀ a ∈ l, ∀ s, step s a = s) (s : S) : l.foldl step s = s :=
  foldl_inv step l (fun t => t = s) (fun a ha t ht => by rw [h a ha]; exact ht) s rfl

theorem run_cur_unloaded {S : Type} (M : Machine S) (cs : List Call) (hl : ∀ f, Call.load f ∉ cs) (hs : ∀ s f, M.edit s (.save f) = s) :
    (M.run cs).cur = cs.foldl M.edit M.init := by
  have : ∀ (cs : List Call) (t : MState S), (∀ f, Call.load f ∉ cs) → (cs.foldl M.step t).cur = cs.foldl M.edit t.cur := by
    intro cs
    induction cs with
    | nil => intro t _; rfl
    | cons c cs ih =>
      intro t h
      rw [List.foldl_cons, List.foldl_cons, ih _ (fun f hf => h f (List.mem_cons_of_mem _ hf))]
      congr 1
      cases c <;> first | rfl | exact (hs _ _).symm | exact absurd List.mem_cons_self (h _)
  exact this cs _ hl

theorem runLines_calls (env : Env) (cs : List Call) (w : World) : runLines env w (cs.map .call) = w.run env cs := by
  induction cs generalizing w with
  | nil => rfl
  | cons c cs ih => exact ih _

/-! ### names -/

theorem gen_inj {j k : ℕ} (h : "gen_" ++ toString j = "gen_" ++ toString k) : j = k := by
  have h1 := (String.append_right_inj "gen_").mp h
  exact Nat.repr_injective h1

theorem endNode_gen (nodes : List GhNode) (p : V3) (o : Option ℕ) (base : ℕ)
    (h : ∀ k n, nodes[k]? = some n → base ≤ k → n.name = "gen_" ++ toString k) :
    ∀ k n, (endNode nodes p o).1[k]? = some n → base ≤ k → n.name = "gen_" ++ toString k := by
  cases o with
  | some i => exact h
  | none =>
    intro k n hk hb
    simp only [endNode] at hk
    rcases lt_trichotomy k nodes.length with hl | hl | hl
    · rw [List.getElem?_append_left hl] at hk
      exact h k n hk hb
    · subst hl
      simp at hk
      rw [← hk]
      rfl
    · rw [List.getElem?_eq_none (by simp; omega)] at hk
      simp at hk

theorem placeBeams_gen (tol : ℝ) (bs : List GhBeam) (s : List GhNode × Dict (ℕ × ℕ)) (base : ℕ)
    (h : ∀ k n, s.1[k]? = some n → base ≤ k → n.name = "gen_" ++ toString k) :
    ∀ k n, (bs.foldl (placeBeam tol) s).1[k]? = some n → base ≤ k → n.name = "gen_" ++ toString k :=
  foldl_inv (placeBeam tol) bs (fun s => ∀ k n, s.1[k]? = some n → base ≤ k → n.name = "gen_" ++ toString k)
    (fun _ _ s hs => endNode_gen _ _ _ base (endNode_gen s.1 _ _ base hs)) s h

theorem nodup_of_apart {tol : ℝ} (ht : 0 < tol) {l : List GhNode} (h : Apart tol l)
    (hp : ∀ s ∈ l, ∀ t ∈ l, s.name = t.name → s.point = t.point) : (l.map (·.name)).Nodup := by
  rw [List.Nodup, List.pairwise_map]
  refine List.Pairwise.imp_of_mem ?_ h
  intro a b ha hb hab e
  rw [hp a ha b hb e, norm_self_sub] at hab
  linarith

theorem mergeDrawing_names (d : Drawing) (ht : 0 < d.tol) (hn : PointNamesSound d) : ((mergeDrawing d).nodes.map (·.name)).Nodup := by
  obtain ⟨l, l', e, e', hm, _⟩ := mergeDrawing_nodes d
  have hap : Apart d.tol l := by
    rw [← e]
    exact placeSpecial_apart [] _ List.Pairwise.nil
  have hg : ∀ k n, (mergeDrawing d).nodes[k]? = some n → l.length ≤ k → n.name = "gen_" ++ toString k := by
    refine placeBeams_gen d.tol d.beams _ l.length ?_
    rw [e]
    intro k n hk hb
    rw [List.getElem?_eq_none hb] at hk
    simp at hk
  have hl' : ∀ k n, l'[k]? = some n → n.name = "gen_" ++ toString (l.length + k) := by
    intro k n hk
    apply hg _ n _ (Nat.le_add_right _ _)
    rw [e', List.getElem?_append_right (Nat.le_add_right _ _)]
    simpa using hk
  rw [e', List.map_append, List.nodup_append]
  refine ⟨nodup_of_apart ht hap fun s hs t ht' => hn.1 s (hm s hs) t (hm t ht'), ?_, ?_⟩
  · rw [List.nodup_iff_injective_getElem]
    intro i j hij
    simp only [List.getElem_map] at hij
    have hi : (i : ℕ) < l'.length := by simpa using i.2
    have hj : (j : ℕ) < l'.length := by simpa using j.2
    rw [hl' i _ (List.getElem?_eq_getElem hi), hl' j _ (List.getElem?_eq_getElem hj)] at hij
    have := gen_inj hij
    ext
    omega
  · intro a ha b hb hab
    obtain ⟨s, hs, rfl⟩ := List.mem_map.mp ha
    obtain ⟨t, ht', rfl⟩ := List.mem_map.mp hb
    obtain ⟨k, hk, rfl⟩ := List.getElem_of_mem ht'
    rw [hl' k _ (List.getElem?_eq_getElem hk)] at hab
    exact hn.2 s (hm s hs) _ hab

/-! ### objects -/

theorem byIdentity_sub {α : Type} (key : α → ℕ) (l : List α) : ∀ x ∈ byIdentity key l, x ∈ l := by
  induction l with
  | nil => simp [byIdentity]
  | cons a l ih =>
    intro x hx
    rcases List.mem_cons.mp hx with rfl | hx
    · exact List.mem_cons_self
    · exact List.mem_cons_of_mem _ (ih x (List.mem_filter.mp hx).1)

theorem byIdentity_mem {α : Type} (key : α → ℕ) (l : List α) (h : ∀ x ∈ l, ∀ y ∈ l, key x = key y → x = y) : ∀ x ∈ l, x ∈ byIdentity key l := by
  induction l with
  | nil => simp
  | cons a l ih =>
    intro x hx
    by_cases hk : key x = key a
    · rw [h x hx a List.mem_cons_self hk]
      exact List.mem_cons_self
    · rcases List.mem_cons.mp hx with rfl | hx
      · exact absurd rfl hk
      · refine List.mem_cons_of_mem _ (List.mem_filter.mpr ⟨ih (fun x hx y hy => h x (List.mem_cons_of_mem _ hx) y (List.mem_cons_of_mem _ hy)) x hx, ?_⟩)
        simpa using hk

theorem byIdentity_nodup {α : Type} (key : α → ℕ) (l : List α) : ((byIdentity key l).map key).Nodup := by
  induction l with
  | nil => simp [byIdentity]
  | cons a l ih =>
    show (key a :: ((byIdentity key l).filter _).map key).Nodup
    rw [List.nodup_cons]
    refine ⟨?_, ih.sublist (List.Sublist.map _ List.filter_sublist)⟩
    simp

/-! ### the calls -/

/-- sections of a drawing -/
def ghSections (d : Drawing) : List GhSection := byIdentity GhSection.id (d.beams.map (·.sec))
/-- materials of a drawing -/
def ghMaterials (d : Drawing) : List GhMaterial := byIdentity GhMaterial.id ((ghSections d).map (·.material))

noncomputable def matCall (fmt : ℝ → ℝ) (scale fscale : ℝ) (m : GhMaterial) : Call :=
  .addIsotropicMaterial m.name (fmt (m.rho / scale ^ 3)) (fmt (m.E * fscale / scale ^ 2)) (fmt m.mu) (fmt (m.a.getD 0))
noncomputable def genCall (fmt : ℝ → ℝ) (scale : ℝ) (s : GhSection) : Call :=
  .addBeamSectionGeneral s.name s.material.name (fmt ((s.attr "A").getD 0 * scale ^ 2)) (fmt ((s.attr "As2").getD 0 * scale ^ 2))
    (fmt ((s.attr "As3").getD 0 * scale ^ 2)) (fmt ((s.attr "I2").getD 0 * scale ^ 4)) (fmt ((s.attr "I3").getD 0 * scale ^ 4))
    (fmt ((s.attr "J").getD 0 * scale ^ 4)) (fmt 0) (fmt 0)
noncomputable def nodeCall (fmt : ℝ → ℝ) (scale : ℝ) (n : GhNode) : Call :=
  .addNode n.name (fmt (n.point.x * scale)) (fmt (n.point.y * scale)) (fmt (n.point.z * scale))
noncomputable def loadCall (fmt : ℝ → ℝ) (fscale : ℝ) (l : GhLoad) : Call :=
  .setNodalLoad "pat1" l.node.name ![fmt (l.f 0 * fscale), fmt (l.f 1 * fscale), fmt (l.f 2 * fscale),
    fmt (l.f 3 * fscale ^ 2), fmt (l.f 4 * fscale ^ 2), fmt (l.f 5 * fscale ^ 2)]
def restCall (r : GhRestraint) : Call := .setNodalRestraint r.node.name r.flags

/-- the lines after the beams -/
noncomputable def tailCalls (fmt : ℝ → ℝ) (fscale : ℝ) (m : GhModel) : List Call :=
  [.addLoadpattern "pat1", .addStaticCase "case1", .addCasePattern "case1" "pat1" 1] ++ m.loads.map (loadCall fmt fscale) ++
    m.restraints.map restCall ++ [.assemble, .save "assembly"]

theorem generateWith_ok {fmt : ℝ → ℝ} {d : Drawing} {lines : List ScriptLine} :
    generateWith fmt d = .ok lines ↔ ∃ scale fscale ms ss bs, lengthScale d.lengthUnit = .ok scale ∧ forceScale d.forceUnit = .ok fscale ∧
      (ghMaterials d).mapM (materialLine fmt scale fscale) = .ok ms ∧ (ghSections d).mapM (sectionLine fmt scale) = .ok ss ∧
      d.beams.mapM (beamLine (mergeDrawing d)) = .ok bs ∧
      lines = ms ++ ss ++ (mergeDrawing d).nodes.map (nodeLine fmt scale) ++ bs ++ (tailCalls fmt fscale (mergeDrawing d)).map .call := by
  have ht : ∀ fscale, (tailCalls fmt fscale (mergeDrawing d)).map ScriptLine.call =
      [.call (.addLoadpattern "pat1"), .call (.addStaticCase "case1"), .call (.addCasePattern "case1" "pat1" 1)]
        ++ (mergeDrawing d).loads.map (loadLine fmt fscale) ++ (mergeDrawing d).restraints.map restraintLine
        ++ [.call .assemble, .call (.save "assembly")] := by
    intro fscale
    simp only [tailCalls, List.map_append, List.map_map, List.map_cons, List.map_nil]
    rfl
  unfold generateWith
  simp only [Except.bind_ok_iff, Except.pure_eq_ok, Except.ok.injEq]
  constructor
  · rintro ⟨scale, h1, fscale, h2, ms, h3, ss, h4, bs, h5, rfl⟩
    exact ⟨scale, fscale, ms, ss, bs, h1, h2, h3, h4, h5, by rw [ht]; simp⟩
  · rintro ⟨scale, fscale, ms, ss, bs, h1, h2, h3, h4, h5, rfl⟩
    exact ⟨scale, h1, fscale, h2, ms, h3, ss, h4, bs, h5, by rw [ht]; simp⟩

theorem materialLine_ok {fmt : ℝ → ℝ} {scale fscale : ℝ} {m : GhMaterial} {x : ScriptLine} (h : materialLine fmt scale fscale m = .ok x) :
    x = .call (matCall fmt scale fscale m) ∧ m.a ≠ none := by
  unfold materialLine at h
  cases ha : m.a with
  | none => rw [ha] at h; cases h
  | some a =>
    rw [ha] at h
    simp only [Except.ok.injEq] at h
    rw [← h, matCall, ha]
    simp

theorem GhSection.get_ok {s : GhSection} {k : String} {x : ℝ} : s.get k = .ok x ↔ s.attr k = some x := by
  unfold GhSection.get
  cases s.attr k <;> simp

theorem sectionLine_general {fmt : ℝ → ℝ} {scale : ℝ} {s : GhSection} (hs : s.shape = "general") {x : ScriptLine} (h : sectionLine fmt scale s = .ok x) :
    x = .call (genCall fmt scale s) ∧ ∀ k ∈ ["A", "As2", "As3", "I2", "I3", "J"], s.attr k ≠ none := by
  unfold sectionLine at h
  rw [if_pos hs] at h
  simp only [Except.bind_ok_iff, Except.pure_eq_ok, Except.ok.injEq, GhSection.get_ok] at h
  obtain ⟨A, h1, As2, h2, As3, h3, I2, h4, I3, h5, J, h6, rfl⟩ := h
  refine ⟨by simp [genCall, h1, h2, h3, h4, h5, h6], ?_⟩
  simp [h1, h2, h3, h4, h5, h6]

/-! ### what the script defines -/

/-- the names of the end nodes written for a beam -/
def endNames (m : GhModel) (b : GhBeam) : String × String :=
  (((m.nodes[((m.conn.get? b.name).getD (0, 0)).1]?).map (·.name)).getD "", ((m.nodes[((m.conn.get? b.name).getD (0, 0)).2]?).map (·.name)).getD "")

def beamCall (m : GhModel) (b : GhBeam) : Call := .addBeam b.name (endNames m b).1 (endNames m b).2 b.sec.name

theorem beamLine_ok {m : GhModel} {b : GhBeam} {x : ScriptLine} (h : beamLine m b = .ok x) : x = .call (beamCall m b) := by
  unfold beamLine at h
  simp only [Except.bind_ok_iff] at h
  obtain ⟨c, hc, h⟩ := h
  unfold Dict.getItem at hc
  cases hg : m.conn.get? b.name with
  | none => rw [hg] at hc; cases hc
  | some c' =>
    rw [hg] at hc
    simp only [Except.ok.injEq] at hc
    subst hc
    cases h1 : m.nodes[c'.1]? with
    | none => rw [h1] at h; cases h
    | some i =>
      cases h2 : m.nodes[c'.2]? with
      | none => rw [h1, h2] at h; cases h
      | some j =>
        rw [h1, h2] at h
        simp only [Except.pure_eq_ok, Except.ok.injEq] at h
        rw [← h, beamCall, endNames, hg]
        simp [h1, h2]

/-- the calls of a script with general sections only -/
noncomputable def scriptCalls (fmt : ℝ → ℝ) (scale fscale : ℝ) (d : Drawing) : List Call :=
  (ghMaterials d).map (matCall fmt scale fscale) ++ (ghSections d).map (genCall fmt scale) ++
    (mergeDrawing d).nodes.map (nodeCall fmt scale) ++ d.beams.map (beamCall (mergeDrawing d)) ++ tailCalls fmt fscale (mergeDrawing d)

theorem ghSections_sub {d : Drawing} {s : GhSection} (h : s ∈ ghSections d) : ∃ b ∈ d.beams, b.sec = s := by
  simpa using byIdentity_sub _ _ s h

theorem ghMaterials_sub {d : Drawing} {m : GhMaterial} (h : m ∈ ghMaterials d) : ∃ b ∈ d.beams, b.sec.material = m := by
  obtain ⟨s, hs, rfl⟩ := List.mem_map.mp (byIdentity_sub _ _ m h)
  obtain ⟨b, hb, rfl⟩ := ghSections_sub hs
  exact ⟨b, hb, rfl⟩

theorem mem_ghSections {d : Drawing} (ho : ObjectsSound d) {b : GhBeam} (hb : b ∈ d.beams) : b.sec ∈ ghSections d := by
  refine byIdentity_mem _ _ ?_ _ (List.mem_map_of_mem hb)
  intro x hx y hy
  obtain ⟨b, hb, rfl⟩ := List.mem_map.mp hx
  obtain ⟨c, hc, rfl⟩ := List.mem_map.mp hy
  exact ho.secId b hb c hc

theorem mem_ghMaterials {d : Drawing} (ho : ObjectsSound d) {b : GhBeam} (hb : b ∈ d.beams) : b.sec.material ∈ ghMaterials d := by
  refine byIdentity_mem _ _ ?_ _ (List.mem_map_of_mem (mem_ghSections ho hb))
  intro x hx y hy
  obtain ⟨s, hs, rfl⟩ := List.mem_map.mp hx
  obtain ⟨t, ht, rfl⟩ := List.mem_map.mp hy
  obtain ⟨b, hb, rfl⟩ := ghSections_sub hs
  obtain ⟨c, hc, rfl⟩ := ghSections_sub ht
  exact ho.matId b hb c hc

theorem generateWith_general {fmt : ℝ → ℝ} {d : Drawing} (hg : GeneralSections d) {lines : List ScriptLine} (h : generateWith fmt d = .ok lines) :
    ∃ scale fscale, lengthScale d.lengthUnit = .ok scale ∧ forceScale d.forceUnit = .ok fscale ∧
      lines = (scriptCalls fmt scale fscale d).map .call ∧
      ∀ s ∈ ghSections d, ∀ k ∈ ["A", "As2", "As3", "I2", "I3", "J"], s.attr k ≠ none := by
  obtain ⟨scale, fscale, ms, ss, bs, h1, h2, h3, h4, h5, rfl⟩ := generateWith_ok.mp h
  have hsh : ∀ s ∈ ghSections d, s.shape = "general" := by
    intro s hs
    obtain ⟨b, hb, rfl⟩ := ghSections_sub hs
    exact hg b hb
  refine ⟨scale, fscale, h1, h2, ?_, ?_⟩
  · rw [mapM_ok_eq h3 (fun m => .call (matCall fmt scale fscale m)) (fun m _ x hx => (materialLine_ok hx).1),
      mapM_ok_eq h4 (fun m => .call (genCall fmt scale m)) (fun s hs x hx => (sectionLine_general (hsh s hs) hx).1),
      mapM_ok_eq h5 (fun b => .call (beamCall (mergeDrawing d) b)) (fun b _ x hx => beamLine_ok hx)]
    simp only [scriptCalls, List.map_append, List.map_map]
    rfl
  · intro s hs
    obtain ⟨x, hx⟩ := mapM_ok_forall h4 s hs
    exact (sectionLine_general (hsh s hs) hx).2

theorem scriptCalls_noload (fmt : ℝ → ℝ) (scale fscale : ℝ) (d : Drawing) (f : String) : Call.load f ∉ scriptCalls fmt scale fscale d := by
  simp [scriptCalls, tailCalls, matCall, genCall, nodeCall, beamCall, loadCall, restCall]

theorem tail_forall {fmt : ℝ → ℝ} {fscale : ℝ} {m : GhModel} {P : Call → Prop} (h1 : ∀ p, P (.addLoadpattern p)) (h2 : ∀ c, P (.addStaticCase c))
    (h3 : ∀ c p f, P (.addCasePattern c p f)) (h4 : ∀ p n f, P (.setNodalLoad p n f)) (h5 : ∀ n f, P (.setNodalRestraint n f))
    (h6 : P .assemble) (h7 : ∀ f, P (.save f)) : ∀ c ∈ tailCalls fmt fscale m, P c := by
  intro c hc
  simp only [tailCalls, List.mem_append, List.mem_cons, List.mem_map, List.not_mem_nil, or_false] at hc
  rcases hc with (((rfl | rfl | rfl) | ⟨_, _, rfl⟩) | ⟨_, _, rfl⟩) | rfl | rfl
  · exact h1 _
  · exact h2 _
  · exact h3 _ _ _
  · exact h4 _ _ _
  · exact h5 _ _
  · exact h6
  · exact h7 _

theorem inj_of_nodup_map {α : Type} {f : α → String} {l : List α} (h : (l.map f).Nodup) : ∀ a ∈ l, ∀ b ∈ l, f a = f b → a = b := by
  intro a ha b hb e
  exact List.inj_on_of_nodup_map h ha hb e

theorem nodeReg_script (fmt : ℝ → ℝ) (scale fscale : ℝ) (d : Drawing) (hn : ((mergeDrawing d).nodes.map (·.name)).Nodup) :
    (nodeReg.run (scriptCalls fmt scale fscale d)).cur.names = (mergeDrawing d).nodes.map (·.name) ∧
    ∀ n ∈ (mergeDrawing d).nodes, (nodeReg.run (scriptCalls fmt scale fscale d)).cur.loc n.name =
      some ⟨fmt (n.point.x * scale), fmt (n.point.y * scale), fmt (n.point.z * scale)⟩ := by
  rw [run_cur_unloaded _ _ (scriptCalls_noload _ _ _ _) (fun _ _ => rfl), scriptCalls]
  simp only [List.foldl_append]
  rw [foldl_still nodeReg.edit (tailCalls _ _ _) (tail_forall (fun _ _ => rfl) (fun _ _ => rfl) (fun _ _ _ _ => rfl) (fun _ _ _ _ => rfl)
      (fun _ _ _ => rfl) (fun _ => rfl) (fun _ _ => rfl)),
    foldl_still nodeReg.edit (d.beams.map _) (by rintro _ hc _; obtain ⟨b, _, rfl⟩ := List.mem_map.mp hc; rfl),
    foldl_still nodeReg.edit ((ghMaterials d).map _) (by rintro _ hc _; obtain ⟨b, _, rfl⟩ := List.mem_map.mp hc; rfl),
    foldl_still nodeReg.edit ((ghSections d).map _) (by rintro _ hc _; obtain ⟨b, _, rfl⟩ := List.mem_map.mp hc; rfl)]
  rw [List.foldl_map]
  constructor
  · have : ∀ (l : List GhNode) (s : NodeReg), (s.names ++ l.map (·.name)).Nodup →
        (l.foldl (fun s n => nodeReg.edit s (nodeCall fmt scale n)) s).names = s.names ++ l.map (·.name) := by
      intro l
      induction l with
      | nil => intro s _; simp
      | cons n l ih =>
        intro s hs
        have hne : n.name ∉ s.names := by
          intro h
          rw [List.map_cons, List.nodup_append] at hs
          exact hs.2.2 _ h _ List.mem_cons_self rfl
        have hk : (nodeReg.edit s (nodeCall fmt scale n)).names = s.names ++ [n.name] := if_neg hne
        rw [List.foldl_cons, ih _ (by rw [hk]; simpa using hs), hk]
        simp
    exact this (mergeDrawing d).nodes nodeReg.init hn
  · refine foldl_hits _ _ (fun _ => True) (fun (n : GhNode) (s : NodeReg) => s.loc n.name = some ⟨fmt (n.point.x * scale), fmt (n.point.y * scale), fmt (n.point.z * scale)⟩)
      (fun _ _ _ _ => trivial) ?_ ?_ _ trivial
    · intro n _ s _
      simp [nodeReg, nodeCall]
    · intro a ha b hb s _ h
      by_cases e : a.name = b.name
      · rw [inj_of_nodup_map hn a ha b hb e]
        simp [nodeReg, nodeCall]
      · simpa [nodeReg, nodeCall, e] using h

/-- the constants written for a section -/
noncomputable def writtenSec (fmt : ℝ → ℝ) (scale fscale : ℝ) (s : GhSection) : GivenSec :=
  ⟨⟨fmt (s.material.rho / scale ^ 3), fmt (s.material.E * fscale / scale ^ 2), fmt s.material.mu⟩, fmt ((s.attr "A").getD 0 * scale ^ 2),
    fmt ((s.attr "I2").getD 0 * scale ^ 4), fmt ((s.attr "I3").getD 0 * scale ^ 4), fmt ((s.attr "J").getD 0 * scale ^ 4)⟩

theorem blueprint_script (fmt : ℝ → ℝ) (scale fscale : ℝ) (d : Drawing) (hn : ((mergeDrawing d).nodes.map (·.name)).Nodup)
    (hb : BeamNamesDiffer d) (ho : ObjectsSound d) (W : V3 → V3) (hW : ∀ p, W p = ⟨fmt (p.x * scale), fmt (p.y * scale), fmt (p.z * scale)⟩)
    (hends : ∀ b ∈ d.beams, ∃ ni ∈ (mergeDrawing d).nodes, ∃ nj ∈ (mergeDrawing d).nodes, endNames (mergeDrawing d) b = (ni.name, nj.name) ∧
      Acceptable (W ni.point) (W nj.point)) :
    (blueprint.run (scriptCalls fmt scale fscale d)).cur.beams = d.beams.map (·.name) ∧
    ∀ b ∈ d.beams, ∃ ni ∈ (mergeDrawing d).nodes, ∃ nj ∈ (mergeDrawing d).nodes, endNames (mergeDrawing d) b = (ni.name, nj.name) ∧
      (blueprint.run (scriptCalls fmt scale fscale d)).cur.beam b.name =
        some ⟨ni.name, nj.name, W ni.point, W nj.point, writtenSec fmt scale fscale b.sec⟩ := by
  rw [run_cur_unloaded _ _ (scriptCalls_noload _ _ _ _) (fun _ _ => rfl), scriptCalls]
  simp only [List.foldl_append]
  rw [foldl_still blueprint.edit (tailCalls _ _ _) (tail_forall (fun _ _ => rfl) (fun _ _ => rfl) (fun _ _ _ _ => rfl) (fun _ _ _ _ => rfl)
      (fun _ _ _ => rfl) (fun _ => rfl) (fun _ _ => rfl))]
  simp only [List.foldl_map]
  -- materials
  have hM := foldl_hits (fun s m => blueprint.edit s (matCall fmt scale fscale m)) (ghMaterials d) (fun _ => True)
    (fun m s => s.mat m.name = some ⟨fmt (m.rho / scale ^ 3), fmt (m.E * fscale / scale ^ 2), fmt m.mu⟩) (fun _ _ _ _ => trivial)
    (by intro m _ s _; simp [blueprint, matCall])
    (by
      intro a ha b hb' s _ h
      by_cases e : a.name = b.name
      · obtain ⟨x, hx, rfl⟩ := ghMaterials_sub ha
        obtain ⟨y, hy, rfl⟩ := ghMaterials_sub hb'
        rw [ho.matName x hx y hy e]
        simp [blueprint, matCall]
      · simpa [blueprint, matCall, e] using h) blueprint.init trivial
  have hM0 := foldl_inv (fun s m => blueprint.edit s (matCall fmt scale fscale m)) (ghMaterials d) (fun s => s.beams = [])
    (fun m _ s hs => hs) blueprint.init rfl
  generalize (ghMaterials d).foldl (fun s m => blueprint.edit s (matCall fmt scale fscale m)) blueprint.init = s1 at hM hM0 ⊢
  -- sections
  have hsec : ∀ s : Blueprint, (∀ m ∈ ghMaterials d, s.mat m.name = some ⟨fmt (m.rho / scale ^ 3), fmt (m.E * fscale / scale ^ 2), fmt m.mu⟩) →
      ∀ x ∈ ghSections d, blueprint.edit s (genCall fmt scale x) =
        { s with sec := fun k => if k = x.name then some (writtenSec fmt scale fscale x) else s.sec k } := by
    intro s hs x hx
    obtain ⟨b, hb, rfl⟩ := ghSections_sub hx
    have := hs _ (mem_ghMaterials ho hb)
    simp [blueprint, genCall, sectionCall, this, shapeConsts, writtenSec]
  have hS := foldl_hits (fun s x => blueprint.edit s (genCall fmt scale x)) (ghSections d)
    (fun s => ∀ m ∈ ghMaterials d, s.mat m.name = some ⟨fmt (m.rho / scale ^ 3), fmt (m.E * fscale / scale ^ 2), fmt m.mu⟩)
    (fun x s => s.sec x.name = some (writtenSec fmt scale fscale x))
    (by intro x hx s hs; rw [hsec s hs x hx]; exact hs)
    (by intro x hx s hs; rw [hsec s hs x hx]; simp)
    (by
      intro a ha b hb' s hs h
      rw [hsec s hs b hb']
      by_cases e : a.name = b.name
      · obtain ⟨x, hx, rfl⟩ := ghSections_sub ha
        obtain ⟨y, hy, rfl⟩ := ghSections_sub hb'
        rw [ho.secName x hx y hy e]
        simp
      · simpa [e] using h) s1 hM
  have hS0 := (foldl_inv (fun s x => blueprint.edit s (genCall fmt scale x)) (ghSections d)
    (fun s => s.beams = [] ∧ ∀ m ∈ ghMaterials d, s.mat m.name = some ⟨fmt (m.rho / scale ^ 3), fmt (m.E * fscale / scale ^ 2), fmt m.mu⟩)
    (by intro x hx s hs; rw [hsec s hs.2 x hx]; exact hs) s1 ⟨hM0, hM⟩).1
  generalize (ghSections d).foldl (fun s x => blueprint.edit s (genCall fmt scale x)) s1 = s2 at hS hS0 ⊢
  -- nodes
  have hN := foldl_hits (fun s n => blueprint.edit s (nodeCall fmt scale n)) (mergeDrawing d).nodes (fun _ => True)
    (fun n s => s.loc n.name = some (W n.point)) (fun _ _ _ _ => trivial)
    (by intro n _ s _; simp [blueprint, nodeCall, hW])
    (by
      intro a ha b hb' s _ h
      by_cases e : a.name = b.name
      · rw [inj_of_nodup_map hn a ha b hb' e]
        simp [blueprint, nodeCall, hW]
      · simpa [blueprint, nodeCall, e] using h) s2 trivial
  have hN0 := foldl_inv (fun s n => blueprint.edit s (nodeCall fmt scale n)) (mergeDrawing d).nodes
    (fun s => s.beams = [] ∧ ∀ x ∈ ghSections d, s.sec x.name = some (writtenSec fmt scale fscale x))
    (fun m _ s hs => hs) s2 ⟨hS0, hS⟩
  generalize (mergeDrawing d).nodes.foldl (fun s n => blueprint.edit s (nodeCall fmt scale n)) s2 = s3 at hN hN0 ⊢
  -- beams
  have : Nonempty GhNode := ⟨⟨"", ⟨0, 0, 0⟩⟩⟩
  choose! ni hni nj hnj hnames hacc using hends
  let P : Blueprint → Prop := fun s => (∀ n ∈ (mergeDrawing d).nodes, s.loc n.name = some (W n.point)) ∧
    ∀ x ∈ ghSections d, s.sec x.name = some (writtenSec fmt scale fscale x)
  have hstep : ∀ s, P s → ∀ b ∈ d.beams, blueprint.edit s (beamCall (mergeDrawing d) b) =
      { s with
        beams := if b.name ∈ s.beams then s.beams else s.beams ++ [b.name]
        beam := fun b' => if b' = b.name then some ⟨(ni b).name, (nj b).name, W (ni b).point, W (nj b).point, writtenSec fmt scale fscale b.sec⟩ else s.beam b' } := by
    intro s hs b hb
    have h1 := hs.1 _ (hni b hb)
    have h2 := hs.1 _ (hnj b hb)
    have h3 := hs.2 _ (mem_ghSections ho hb)
    show s.addBeam b.name (endNames (mergeDrawing d) b).1 (endNames (mergeDrawing d) b).2 (s.sec b.sec.name) = _
    rw [hnames b hb, h3]
    unfold Blueprint.addBeam
    rw [h1, h2]
    exact if_pos (hacc b hb)
  have hP : ∀ b ∈ d.beams, ∀ s, P s → P (blueprint.edit s (beamCall (mergeDrawing d) b)) := by
    intro b hb s hs
    rw [hstep s hs b hb]
    exact hs
  refine ⟨?_, ?_⟩
  · have : ∀ (l : List GhBeam) (s : Blueprint), P s → (∀ b ∈ l, b ∈ d.beams) → (s.beams ++ l.map (·.name)).Nodup →
        (l.foldl (fun s b => blueprint.edit s (beamCall (mergeDrawing d) b)) s).beams = s.beams ++ l.map (·.name) := by
      intro l
      induction l with
      | nil => intro s _ _ _; simp
      | cons b l ih =>
        intro s hs hl hnd
        have hbd := hl b List.mem_cons_self
        have hne : b.name ∉ s.beams := by
          intro h
          rw [List.map_cons, List.nodup_append] at hnd
          exact hnd.2.2 _ h _ List.mem_cons_self rfl
        have hk : (blueprint.edit s (beamCall (mergeDrawing d) b)).beams = s.beams ++ [b.name] := by
          rw [hstep s hs b hbd]
          exact if_neg hne
        rw [List.foldl_cons, ih _ (hP b hbd s hs) (fun c hc => hl c (List.mem_cons_of_mem _ hc)) (by rw [hk]; simpa using hnd), hk]
        simp
    have := this d.beams s3 ⟨hN, hN0.2⟩ (fun _ h => h) (by rw [hN0.1]; exact hb)
    rw [this, hN0.1]
    simp
  · intro b hbd
    refine ⟨ni b, hni b hbd, nj b, hnj b hbd, hnames b hbd, ?_⟩
    refine foldl_hits (fun s b => blueprint.edit s (beamCall (mergeDrawing d) b)) d.beams P
      (fun b s => s.beam b.name = some ⟨(ni b).name, (nj b).name, W (ni b).point, W (nj b).point, writtenSec fmt scale fscale b.sec⟩) hP ?_ ?_ s3
      ⟨hN, hN0.2⟩ b hbd
    · intro b hb s hs
      rw [hstep s hs b hb]
      simp
    · intro a ha b hb' s hs h
      rw [hstep s hs b hb']
      by_cases e : a.name = b.name
      · rw [inj_of_nodup_map hb a ha b hb' e]
        simp
      · simpa [e] using h

/-! ### loads and restraints -/

theorem foldl_single {S A : Type} (step : S → A → S) (p : A → Bool) (P : S → Prop) (Q : S → Prop) (x : A) (hx : ∀ s, P s → Q (step s x))
    (hP : ∀ a s, P s → P (step s a)) (hQ : ∀ a s, P s → p a = false → Q s → Q (step s a)) :
    ∀ (l : List A) (s : S), l.filter p = [x] → P s → Q (l.foldl step s) := by
  have key : ∀ (l : List A) (s : S), l.filter p = [] → P s → Q s → Q (l.foldl step s) := by
    intro l
    induction l with
    | nil => intro s _ _ h; exact h
    | cons a l ih =>
      intro s hl hs h
      by_cases ha : p a = true
      · rw [List.filter_cons_of_pos ha] at hl
        cases hl
      · rw [List.filter_cons_of_neg ha] at hl
        exact ih _ hl (hP a s hs) (hQ a s hs (by simpa using ha) h)
  intro l
  induction l with
  | nil => intro s h; cases h
  | cons a l ih =>
    intro s hl hs
    by_cases ha : p a = true
    · rw [List.filter_cons_of_pos ha] at hl
      injection hl with h1 h2
      subst h1
      exact key l _ h2 (hP a s hs) (hx s hs)
    · rw [List.filter_cons_of_neg ha] at hl
      exact ih _ hl (hP a s hs)

theorem name_index {nodes : List GhNode} (hn : (nodes.map (·.name)).Nodup) {i k : ℕ} {m n : GhNode} (hi : nodes[i]? = some m)
    (hk : nodes[k]? = some n) (e : m.name = n.name) : i = k := by
  have h1 : (nodes.map (·.name))[i]? = some n.name := by rw [List.getElem?_map, hi, ← e]; rfl
  have h2 : (nodes.map (·.name))[k]? = some n.name := by rw [List.getElem?_map, hk]; rfl
  have hl : i < (nodes.map (·.name)).length := by
    by_contra hc
    rw [List.getElem?_eq_none (by omega)] at h1
    cases h1
  exact (List.getElem?_inj hl hn).mp (h1.trans h2.symm)

open Classical in
/-- The drawn objects near a node are those written for it. -/
theorem filter_transfer {α : Type} (nd : α → GhNode) {nodes : List GhNode} (hn : (nodes.map (·.name)).Nodup) {tol : ℝ} {i : ℕ} {n : GhNode}
    (hi : nodes[i]? = some n) (same : α → α → Prop) :
    ∀ (l l' : List α), List.Forall₂ (fun a b => same a b ∧ ∃ k, FirstNear tol (nd a).point nodes k ∧ nodes[k]? = some (nd b)) l l' →
      ∀ x, l.filter (fun a => FirstNear tol (nd a).point nodes i) = [x] →
        ∃ y, same x y ∧ nd y = n ∧ l'.filter (fun b => (nd b).name = n.name) = [y] := by
  have key : ∀ a b : α, (∃ k, FirstNear tol (nd a).point nodes k ∧ nodes[k]? = some (nd b)) →
      ((nd b).name = n.name ↔ FirstNear tol (nd a).point nodes i) := by
    rintro a b ⟨k, hk, hb⟩
    constructor
    · intro e
      rw [← name_index hn hb hi e]
      exact hk
    · intro h
      rw [firstNear_unique hk h, hi] at hb
      rw [Option.some.inj hb]
  have key0 : ∀ (l l' : List α), List.Forall₂ (fun a b => same a b ∧ ∃ k, FirstNear tol (nd a).point nodes k ∧ nodes[k]? = some (nd b)) l l' →
      l.filter (fun a => FirstNear tol (nd a).point nodes i) = [] → l'.filter (fun b => (nd b).name = n.name) = [] := by
    intro l l' h
    induction h with
    | nil => intro _; rfl
    | cons h hl ih =>
      rename_i a b _ _
      intro hf
      by_cases ha : FirstNear tol (nd a).point nodes i
      · rw [List.filter_cons_of_pos (by simpa using ha)] at hf
        cases hf
      · rw [List.filter_cons_of_neg (by simpa using ha)] at hf
        rw [List.filter_cons_of_neg (by simpa [key a b h.2] using ha)]
        exact ih hf
  intro l l' h
  induction h with
  | nil => intro x hx; cases hx
  | cons h hl ih =>
    rename_i a b _ _
    intro x hf
    by_cases ha : FirstNear tol (nd a).point nodes i
    · rw [List.filter_cons_of_pos (by simpa using ha)] at hf
      injection hf with h1 h2
      subst h1
      refine ⟨b, h.1, ?_, ?_⟩
      · obtain ⟨k, hk, hb⟩ := h.2
        rw [firstNear_unique hk ha, hi] at hb
        exact (Option.some.inj hb).symm
      · rw [List.filter_cons_of_pos (by simpa [key a b h.2] using ha), key0 _ _ hl h2]
    · rw [List.filter_cons_of_neg (by simpa using ha)] at hf
      obtain ⟨y, h1, h2, h3⟩ := ih x hf
      exact ⟨y, h1, h2, by rw [List.filter_cons_of_neg (by simpa [key a b h.2] using ha)]; exact h3⟩

theorem loadReg_script (fmt : ℝ → ℝ) (scale fscale : ℝ) (d : Drawing) (n : String) (y : GhLoad)
    (hy : (mergeDrawing d).loads.filter (fun b => b.node.name = n) = [y]) (hyn : y.node.name = n) :
    ((loadReg.run (scriptCalls fmt scale fscale d)).cur "pat1").bind (fun g => g n) =
      some ![fmt (y.f 0 * fscale), fmt (y.f 1 * fscale), fmt (y.f 2 * fscale), fmt (y.f 3 * fscale ^ 2), fmt (y.f 4 * fscale ^ 2),
        fmt (y.f 5 * fscale ^ 2)] := by
  rw [run_cur_unloaded _ _ (scriptCalls_noload _ _ _ _) (fun _ _ => rfl), scriptCalls]
  simp only [List.foldl_append]
  rw [foldl_still loadReg.edit (d.beams.map _) (by rintro _ hc _; obtain ⟨b, _, rfl⟩ := List.mem_map.mp hc; rfl),
    foldl_still loadReg.edit ((ghMaterials d).map _) (by rintro _ hc _; obtain ⟨b, _, rfl⟩ := List.mem_map.mp hc; rfl),
    foldl_still loadReg.edit ((ghSections d).map _) (by rintro _ hc _; obtain ⟨b, _, rfl⟩ := List.mem_map.mp hc; rfl),
    foldl_still loadReg.edit ((mergeDrawing d).nodes.map _) (by rintro _ hc _; obtain ⟨b, _, rfl⟩ := List.mem_map.mp hc; rfl)]
  rw [tailCalls]
  simp only [List.foldl_append]
  rw [foldl_still loadReg.edit ((mergeDrawing d).restraints.map _) (by rintro _ hc _; obtain ⟨b, _, rfl⟩ := List.mem_map.mp hc; rfl)]
  show ((loadReg.edit (loadReg.edit _ .assemble) (.save "assembly")) "pat1").bind _ = _
  rw [List.foldl_map]
  refine foldl_single (fun s l => loadReg.edit s (loadCall fmt fscale l)) (fun b => decide (b.node.name = n)) (fun s => s "pat1" ≠ none)
    (fun s => (s "pat1").bind (fun g => g n) = some ![fmt (y.f 0 * fscale), fmt (y.f 1 * fscale), fmt (y.f 2 * fscale),
      fmt (y.f 3 * fscale ^ 2), fmt (y.f 4 * fscale ^ 2), fmt (y.f 5 * fscale ^ 2)]) y ?_ ?_ ?_ _ _ hy ?_
  · intro s hs
    obtain ⟨g, hg⟩ := Option.ne_none_iff_exists'.mp hs
    simp [loadReg, loadCall, hg, hyn]
  · intro a s hs
    simpa [loadReg, loadCall] using hs
  · intro a s hs ha h
    obtain ⟨g, hg⟩ := Option.ne_none_iff_exists'.mp hs
    have : n ≠ a.node.name := by simpa [eq_comm] using ha
    simpa [loadReg, loadCall, hg, this] using h
  · simp [loadReg]

theorem restReg_script (fmt : ℝ → ℝ) (scale fscale : ℝ) (d : Drawing) (n : GhNode) (hn : n ∈ (mergeDrawing d).nodes) (y : GhRestraint)
    (hy : (mergeDrawing d).restraints.filter (fun b => b.node.name = n.name) = [y]) (hyn : y.node.name = n.name) :
    (restReg.run (scriptCalls fmt scale fscale d)).cur.global n.name = some y.flags := by
  rw [run_cur_unloaded _ _ (scriptCalls_noload _ _ _ _) (fun _ _ => rfl), scriptCalls]
  simp only [List.foldl_append]
  rw [foldl_still restReg.edit ((ghMaterials d).map _) (by rintro _ hc _; obtain ⟨b, _, rfl⟩ := List.mem_map.mp hc; rfl),
    foldl_still restReg.edit ((ghSections d).map _) (by rintro _ hc _; obtain ⟨b, _, rfl⟩ := List.mem_map.mp hc; rfl),
    foldl_still restReg.edit (d.beams.map _) (by rintro _ hc _; obtain ⟨b, _, rfl⟩ := List.mem_map.mp hc; rfl)]
  have h1 : (((mergeDrawing d).nodes.map (nodeCall fmt scale)).foldl restReg.edit restReg.init).nodes n.name := by
    rw [List.foldl_map]
    exact foldl_hits (fun s n => restReg.edit s (nodeCall fmt scale n)) (mergeDrawing d).nodes (fun _ => True) (fun n s => s.nodes n.name)
      (fun _ _ _ _ => trivial) (fun n _ s _ => Or.inl rfl) (fun a _ b _ s _ h => Or.inr h) restReg.init trivial n hn
  generalize ((mergeDrawing d).nodes.map (nodeCall fmt scale)).foldl restReg.edit restReg.init = s1 at h1 ⊢
  rw [tailCalls]
  simp only [List.foldl_append]
  rw [foldl_still restReg.edit ((mergeDrawing d).loads.map _) (by rintro _ hc _; obtain ⟨b, _, rfl⟩ := List.mem_map.mp hc; rfl)]
  show (List.foldl restReg.edit _ _).global _ = _
  rw [List.foldl_map]
  refine foldl_single (fun s l => restReg.edit s (restCall l)) (fun b => decide (b.node.name = n.name)) (fun s => s.nodes n.name)
    (fun s => s.global n.name = some y.flags) y ?_ ?_ ?_ _ _ hy ?_
  · intro s hs
    have : n.name = y.node.name ∧ s.nodes y.node.name := ⟨hyn.symm, hyn ▸ hs⟩
    simp [restReg, restCall, this]
  · intro a s hs
    exact hs
  · intro a s hs ha h
    have : n.name ≠ a.node.name := by simpa [eq_comm] using ha
    simpa [restReg, restCall, this] using h
  · exact h1

end Hyperstatic
