import Verif.Spec.Merging
import Verif.Lemmas.Inv
import Verif.Lemmas.Alias
import Verif.Lemmas.Demo

/-
C162: the check for duplicates when nodes and beams are added to a model object.
-/

namespace Hyperstatic
open Spec

theorem norm_same (p q : V3) : V3.norm (p - q) < absTol ↔ SameSpot p q := by
  unfold SameSpot V3.norm absTol
  rw [V3.sub_def]
  simp only [sq]

theorem SameSpot.symm {p q : V3} (h : SameSpot p q) : SameSpot q p := by
  unfold SameSpot at *
  have e : (q.x - p.x) ^ 2 + (q.y - p.y) ^ 2 + (q.z - p.z) ^ 2 = (p.x - q.x) ^ 2 + (p.y - q.y) ^ 2 + (p.z - q.z) ^ 2 := by ring
  rwa [e]

theorem SameTrack.symm {p q r s : V3} (h : SameTrack p q r s) : SameTrack r s p q := by
  rcases h with ⟨h1, h2⟩ | ⟨h1, h2⟩
  · exact Or.inl ⟨SameSpot.symm h1, SameSpot.symm h2⟩
  · exact Or.inr ⟨SameSpot.symm h2, SameSpot.symm h1⟩

theorem get?_set_eq {α : Type} (d : Dict α) (k n : String) (v : α) : (d.set k v).get? n = if n = k then some v else d.get? n := by
  rw [Dict.get?_set]
  by_cases h : n = k
  · subst h; simp
  · rw [if_neg h, if_neg (Ne.symm h)]

theorem get?_of_mem_values {α : Type} {d : Dict α} (hd : d.WF) {v : α} (h : v ∈ d.values) : ∃ k, d.get? k = some v := by
  induction d with
  | nil => cases h
  | cons kv d ih =>
    obtain ⟨k, u⟩ := kv
    simp only [Dict.values, List.map_cons, List.mem_cons] at h
    simp only [Dict.WF, Dict.keys, List.map_cons, List.nodup_cons] at hd
    rcases h with rfl | h
    · exact ⟨k, by simp [Dict.get?]⟩
    · obtain ⟨k', hk'⟩ := ih hd.2 h
      refine ⟨k', ?_⟩
      have hne : k ≠ k' := by
        rintro rfl
        exact hd.1 (Dict.mem_keys_of_get? hk')
      simp [Dict.get?, hne, hk']

/-- what holds of every model built with the check -/
structure MergeInv (m : FeModel) : Prop where
  nwf : m.nodes.WF
  bwf : m.beams.WF
  nname : ∀ n nd, m.nodes.get? n = some nd → nd.name = n ∧ ∃ h, m.hidNode.get? n = some h
  bname : ∀ b be, m.beams.get? b = some be → be.name = b ∧ ∃ h, m.hidBeam.get? b = some h
  napart : ∀ a b na nb, m.nodes.get? a = some na → m.nodes.get? b = some nb → a ≠ b → ¬ SameSpot na.loc nb.loc
  bapart : ∀ a b ea eb, m.beams.get? a = some ea → m.beams.get? b = some eb → a ≠ b →
    ¬ SameTrack ea.startLoc ea.endLoc eb.startLoc eb.endLoc

theorem addNode_checked {m : FeModel} (h : MergeInv m) (name : String) (x y z : ℝ) :
    (∃ n nd k, m.nodes.get? n = some nd ∧ SameSpot nd.loc ⟨x, y, z⟩ ∧ m.hidNode.get? n = some k ∧
      m.addNode name x y z true = .ok (m, k)) ∨
    ((∀ n nd, m.nodes.get? n = some nd → ¬ SameSpot nd.loc ⟨x, y, z⟩) ∧ m.addNode name x y z true =
      .ok ({ m with hidNode := m.hidNode.set name m.nodes.length, nodes := m.nodes.set name (stdNode name x y z) }, m.nodes.length)) := by
  unfold FeModel.addNode
  rw [Node.mk?_eq]
  simp only [Except.bind_ok, if_true]
  cases hf : m.nodes.values.filter (fun a => decide (V3.norm (a.loc - ⟨x, y, z⟩) < absTol)) with
  | nil =>
    right
    refine ⟨?_, rfl⟩
    intro n nd hn hs
    have := List.filter_eq_nil_iff.mp hf nd (Dict.mem_values_of_get? hn)
    exact this (decide_eq_true ((norm_same _ _).mpr hs))
  | cons dup rest =>
    left
    have hmem : dup ∈ m.nodes.values.filter (fun a => decide (V3.norm (a.loc - ⟨x, y, z⟩) < absTol)) := by rw [hf]; simp
    obtain ⟨h1, h2⟩ := List.mem_filter.mp hmem
    obtain ⟨n, hn⟩ := get?_of_mem_values h.nwf h1
    obtain ⟨hname, k, hk⟩ := h.nname n dup hn
    refine ⟨n, dup, k, hn, (norm_same _ _).mp (of_decide_eq_true h2), hk, ?_⟩
    simp only [hname, Dict.getItem_of_some hk, Except.bind_ok]
    rfl

theorem storeBeam_checked {m : FeModel} (h : MergeInv m) (name : String) (n0 n1 : Node) (beam : BeamElm) :
    (∃ b be k, m.beams.get? b = some be ∧ SameTrack be.startLoc be.endLoc n0.loc n1.loc ∧ m.hidBeam.get? b = some k ∧
      m.storeBeam name n0 n1 beam true = .ok (m, k)) ∨
    ((∀ b be, m.beams.get? b = some be → ¬ SameTrack be.startLoc be.endLoc n0.loc n1.loc) ∧ m.storeBeam name n0 n1 beam true =
      .ok ({ m with hidBeam := m.hidBeam.set name m.beams.length, beams := m.beams.set name beam }, m.beams.length)) := by
  unfold FeModel.storeBeam
  simp only [if_true]
  cases hf : m.beams.values.filter (fun b => decide ((V3.norm (b.startLoc - n0.loc) < absTol ∧ V3.norm (b.endLoc - n1.loc) < absTol) ∨
        (V3.norm (b.endLoc - n0.loc) < absTol ∧ V3.norm (b.startLoc - n1.loc) < absTol))) with
  | nil =>
    right
    refine ⟨?_, rfl⟩
    intro b be hb hs
    have := List.filter_eq_nil_iff.mp hf be (Dict.mem_values_of_get? hb)
    apply this
    simp only [norm_same, decide_eq_true_eq]
    exact hs
  | cons dup rest =>
    left
    have hmem : dup ∈ m.beams.values.filter (fun b => decide ((V3.norm (b.startLoc - n0.loc) < absTol ∧ V3.norm (b.endLoc - n1.loc) < absTol) ∨
        (V3.norm (b.endLoc - n0.loc) < absTol ∧ V3.norm (b.startLoc - n1.loc) < absTol))) := by rw [hf]; simp
    obtain ⟨h1, h2⟩ := List.mem_filter.mp hmem
    obtain ⟨b, hb⟩ := get?_of_mem_values h.bwf h1
    obtain ⟨hname, k, hk⟩ := h.bname b dup hb
    refine ⟨b, dup, k, hb, ?_, hk, ?_⟩
    · simp only [norm_same, decide_eq_true_eq] at h2
      exact h2
    · simp only [hname, Dict.getItem_of_some hk, Except.bind_ok]
      rfl

theorem MergeInv.addNode {m m' : FeModel} {name : String} {x y z : ℝ} {k : ℕ} (h : MergeInv m)
    (he : m.addNode name x y z true = .ok (m', k)) : MergeInv m' := by
  rcases addNode_checked h name x y z with ⟨n, nd, k', _, _, _, e⟩ | ⟨hno, e⟩
  · rw [e] at he; cases he; exact h
  · rw [e] at he; cases he
    refine ⟨Dict.set_wf h.nwf .., h.bwf, ?_, h.bname, ?_, h.bapart⟩
    · intro n nd hn
      simp only [get?_set_eq] at hn ⊢
      by_cases hc : n = name
      · subst hc
        simp only [if_true, Option.some.injEq] at hn
        subst hn
        exact ⟨rfl, _, if_pos rfl⟩
      · rw [if_neg hc] at hn ⊢
        exact h.nname n nd hn
    · intro a b na nb ha hb hab
      simp only [get?_set_eq] at ha hb
      by_cases ca : a = name
      · subst ca
        rw [if_neg (Ne.symm hab)] at hb
        simp only [if_true, Option.some.injEq] at ha
        subst ha
        exact fun hs => hno b nb hb (SameSpot.symm hs)
      · rw [if_neg ca] at ha
        by_cases cb : b = name
        · subst cb
          simp only [if_true, Option.some.injEq] at hb
          subst hb
          exact fun hs => hno a na ha hs
        · rw [if_neg cb] at hb
          exact h.napart a b na nb ha hb hab

theorem MergeInv.storeBeam {m m' : FeModel} {name : String} {n0 n1 : Node} {beam : BeamElm} {k : ℕ} (h : MergeInv m)
    (hb : beam.name = name ∧ beam.startLoc = n0.loc ∧ beam.endLoc = n1.loc)
    (he : m.storeBeam name n0 n1 beam true = .ok (m', k)) : MergeInv m' := by
  obtain ⟨hb1, hb2, hb3⟩ := hb
  rcases storeBeam_checked h name n0 n1 beam with ⟨n, nd, k', _, _, _, e⟩ | ⟨hno, e⟩
  · rw [e] at he; cases he; exact h
  · rw [e] at he; cases he
    refine ⟨h.nwf, Dict.set_wf h.bwf .., h.nname, ?_, h.napart, ?_⟩
    · intro n nd hn
      simp only [get?_set_eq] at hn ⊢
      by_cases hc : n = name
      · subst hc
        simp only [if_true, Option.some.injEq] at hn
        subst hn
        exact ⟨hb1, _, if_pos rfl⟩
      · rw [if_neg hc] at hn ⊢
        exact h.bname n nd hn
    · intro a b na nb ha hb hab
      simp only [get?_set_eq] at ha hb
      by_cases ca : a = name
      · subst ca
        rw [if_neg (Ne.symm hab)] at hb
        simp only [if_true, Option.some.injEq] at ha
        subst ha
        rw [hb2, hb3]
        exact fun hs => hno b nb hb (SameTrack.symm hs)
      · rw [if_neg ca] at ha
        by_cases cb : b = name
        · subst cb
          simp only [if_true, Option.some.injEq] at hb
          subst hb
          rw [hb2, hb3]
          exact fun hs => hno a na ha hs
        · rw [if_neg cb] at hb
          exact h.bapart a b na nb ha hb hab

theorem mk?_facts {name : String} {n0 n1 : Node} {p : BeamProp} {b : BeamElm} (h : BeamElm.mk? name n0 n1 p = .ok b) :
    b.name = name ∧ b.startLoc = n0.loc ∧ b.endLoc = n1.loc := by
  simp only [BeamElm.mk?, Except.bind_ok_iff, Except.pure_eq_ok, Except.ok.injEq] at h
  obtain ⟨c, _, rfl⟩ := h
  exact ⟨rfl, rfl, rfl⟩

theorem checked_inv {m : FeModel} (h : Checked m) : MergeInv m := by
  induction h with
  | empty => constructor <;> simp [FeModel.empty, Dict.WF, Dict.keys, Dict.get?]
  | node _ he ih => exact ih.addNode he
  | beam _ he ih =>
    simp only [FeModel.addBeam, Except.bind_ok_iff] at he
    obtain ⟨n0, _, n1, _, s, _, b, hb, he⟩ := he
    exact ih.storeBeam (mk?_facts hb) he
  | simple _ he ih =>
    simp only [FeModel.addSimpleBeam, Except.bind_ok_iff] at he
    obtain ⟨n0, _, n1, _, b, hb, he⟩ := he
    exact ih.storeBeam (mk?_facts hb) he
  | @mass m m' name mass _ he ih =>
    simp only [FeModel.setNodalMass, Except.bind_ok_iff, Except.pure_eq_ok, Except.ok.injEq] at he
    obtain ⟨nd, hnd, rfl⟩ := he
    rw [Dict.getItem_eq_ok_iff] at hnd
    have key : ∀ n x, (m.nodes.set name { nd with mass := mass }).get? n = some x → ∃ y, m.nodes.get? n = some y ∧ x.name = y.name ∧ x.loc = y.loc := by
      intro n x hx
      rw [get?_set_eq] at hx
      split at hx
      · rename_i hc
        subst hc
        cases hx
        exact ⟨nd, hnd, rfl, rfl⟩
      · exact ⟨x, hx, rfl, rfl⟩
    refine ⟨Dict.set_wf ih.nwf .., ih.bwf, ?_, ih.bname, ?_, ih.bapart⟩
    · intro n x hx
      obtain ⟨y, hy, e, _⟩ := key n x hx
      rw [e]
      exact ih.nname n y hy
    · intro a b na nb ha hb hab
      obtain ⟨ya, hya, _, ea⟩ := key a na ha
      obtain ⟨yb, hyb, _, eb⟩ := key b nb hb
      rw [ea, eb]
      exact ih.napart a b ya yb hya hyb hab
  | other _ h1 h2 h3 h4 ih =>
    refine ⟨by rw [h1]; exact ih.nwf, by rw [h2]; exact ih.bwf, ?_, ?_, ?_, ?_⟩
    · rw [h1, h3]; exact ih.nname
    · rw [h2, h4]; exact ih.bname
    · rw [h1]; exact ih.napart
    · rw [h2]; exact ih.bapart

/-- With the check no two nodes are at the same place and no two beams join the same places, whatever is added in whatever order. -/
theorem C162_apart (m : FeModel) (h : Checked m) :
    (∀ a b na nb, m.nodes.get? a = some na → m.nodes.get? b = some nb → a ≠ b → ¬ SameSpot na.loc nb.loc) ∧
    (∀ a b ea eb, m.beams.get? a = some ea → m.beams.get? b = some eb → a ≠ b →
      ¬ SameTrack ea.startLoc ea.endLoc eb.startLoc eb.endLoc) :=
  ⟨(checked_inv h).napart, (checked_inv h).bapart⟩

/-- Adding a node with the check never raises.  The number returned is that of a node at the place; if there was one before nothing
changes, otherwise there is one more node, with the given name, unless the name was in use. -/
theorem C162_node (m : FeModel) (h : Checked m) (name : String) (x y z : ℝ) :
    ∃ m' k, m.addNode name x y z true = .ok (m', k) ∧
      (∃ n nd, m'.nodes.get? n = some nd ∧ SameSpot nd.loc ⟨x, y, z⟩ ∧ m'.hidNode.get? n = some k) ∧
      ((∃ n nd, m.nodes.get? n = some nd ∧ SameSpot nd.loc ⟨x, y, z⟩) → m' = m) ∧
      ((∀ n nd, m.nodes.get? n = some nd → ¬ SameSpot nd.loc ⟨x, y, z⟩) →
        (∃ nd, m'.nodes.get? name = some nd ∧ nd.loc = ⟨x, y, z⟩ ∧ m'.hidNode.get? name = some k) ∧
        ∀ n, n ≠ name → m'.nodes.get? n = m.nodes.get? n) := by
  rcases addNode_checked (checked_inv h) name x y z with ⟨n, nd, k, h1, h2, h3, e⟩ | ⟨hno, e⟩
  · exact ⟨m, k, e, ⟨n, nd, h1, h2, h3⟩, fun _ => rfl, fun hno => absurd h2 (hno n nd h1)⟩
  · refine ⟨_, _, e, ⟨name, stdNode name x y z, by simp [get?_set_eq], ?_, by simp [get?_set_eq]⟩, ?_, ?_⟩
    · rw [← norm_same]
      have : (stdNode name x y z).loc = ⟨x, y, z⟩ := rfl
      rw [this, V3.sub_def]
      simp [V3.norm, absTol]
    · rintro ⟨n, nd, h1, h2⟩; exact absurd h2 (hno n nd h1)
    · intro _
      exact ⟨⟨stdNode name x y z, by rw [get?_set_eq, if_pos rfl], rfl, by rw [get?_set_eq, if_pos rfl]⟩, fun n hn => by rw [get?_set_eq, if_neg hn]⟩

/-- Adding a beam of given properties between two nodes of the model with the check: the number returned is that of a beam that joins the
places; if there was one before nothing changes, otherwise the beam is added under its name. -/
theorem C162_beam (m : FeModel) (h : Checked m) (name i j : String) (E mu A I2 I3 J rho : ℝ) (m' : FeModel) (k : ℕ)
    (he : m.addSimpleBeam name i j E mu A I2 I3 J rho true = .ok (m', k)) :
    ∃ n0 n1, m.nodes.get? i = some n0 ∧ m.nodes.get? j = some n1 ∧ m'.nodes = m.nodes ∧
      (∃ b be, m'.beams.get? b = some be ∧ SameTrack be.startLoc be.endLoc n0.loc n1.loc ∧ m'.hidBeam.get? b = some k) ∧
      ((∃ b be, m.beams.get? b = some be ∧ SameTrack be.startLoc be.endLoc n0.loc n1.loc) → m' = m) ∧
      ((∀ b be, m.beams.get? b = some be → ¬ SameTrack be.startLoc be.endLoc n0.loc n1.loc) →
        (∃ be, m'.beams.get? name = some be ∧ be.startLoc = n0.loc ∧ be.endLoc = n1.loc ∧
          be.prop = .simple E mu A I2 I3 J rho ∧ m'.hidBeam.get? name = some k) ∧
        ∀ b, b ≠ name → m'.beams.get? b = m.beams.get? b) := by
  simp only [FeModel.addSimpleBeam, Except.bind_ok_iff, Dict.getItem_eq_ok_iff] at he
  obtain ⟨n0, h0, n1, h1, b, hb, he⟩ := he
  have hp : b.prop = .simple E mu A I2 I3 J rho := by
    simp only [BeamElm.mk?, Except.bind_ok_iff, Except.pure_eq_ok, Except.ok.injEq] at hb
    obtain ⟨c, _, rfl⟩ := hb
    rfl
  obtain ⟨_, hs, ht⟩ := mk?_facts hb
  refine ⟨n0, n1, h0, h1, ?_⟩
  have self : ∀ p : V3, SameSpot p p := fun p => by
    rw [← norm_same, V3.sub_def]
    simp [V3.norm, absTol]
  rcases storeBeam_checked (checked_inv h) name n0 n1 b with ⟨c, ce, k', g1, g2, g3, e⟩ | ⟨hno, e⟩
  · rw [e] at he; cases he
    exact ⟨rfl, ⟨c, ce, g1, g2, g3⟩, fun _ => rfl, fun hno => absurd g2 (hno c ce g1)⟩
  · rw [e] at he; cases he
    refine ⟨rfl, ⟨name, b, by rw [get?_set_eq, if_pos rfl], ?_, by rw [get?_set_eq, if_pos rfl]⟩, ?_, ?_⟩
    · rw [hs, ht]; exact Or.inl ⟨self _, self _⟩
    · rintro ⟨c, ce, g1, g2⟩; exact absurd g2 (hno c ce g1)
    · intro _
      exact ⟨⟨b, by rw [get?_set_eq, if_pos rfl], hs, ht, hp, by rw [get?_set_eq, if_pos rfl]⟩, fun c hc => by rw [get?_set_eq, if_neg hc]⟩

/-- The same for a beam with a section of the model. -/
theorem C162_section_beam (m : FeModel) (h : Checked m) (name i j sec : String) (m' : FeModel) (k : ℕ)
    (he : m.addBeam name i j sec true = .ok (m', k)) :
    ∃ n0 n1 s, m.nodes.get? i = some n0 ∧ m.nodes.get? j = some n1 ∧ m.beamSection.get? sec = some s ∧ m'.nodes = m.nodes ∧
      (∃ b be, m'.beams.get? b = some be ∧ SameTrack be.startLoc be.endLoc n0.loc n1.loc ∧ m'.hidBeam.get? b = some k) ∧
      ((∃ b be, m.beams.get? b = some be ∧ SameTrack be.startLoc be.endLoc n0.loc n1.loc) → m' = m) ∧
      ((∀ b be, m.beams.get? b = some be → ¬ SameTrack be.startLoc be.endLoc n0.loc n1.loc) →
        (∃ be, m'.beams.get? name = some be ∧ be.startLoc = n0.loc ∧ be.endLoc = n1.loc ∧ be.prop = .sec s ∧ m'.hidBeam.get? name = some k) ∧
        ∀ b, b ≠ name → m'.beams.get? b = m.beams.get? b) := by
  simp only [FeModel.addBeam, Except.bind_ok_iff, Dict.getItem_eq_ok_iff] at he
  obtain ⟨n0, h0, n1, h1, s, hsec, b, hb, he⟩ := he
  have hp : b.prop = .sec s := by
    simp only [BeamElm.mk?, Except.bind_ok_iff, Except.pure_eq_ok, Except.ok.injEq] at hb
    obtain ⟨c, _, rfl⟩ := hb
    rfl
  obtain ⟨_, hs, ht⟩ := mk?_facts hb
  refine ⟨n0, n1, s, h0, h1, hsec, ?_⟩
  have self : ∀ p : V3, SameSpot p p := fun p => by
    rw [← norm_same, V3.sub_def]
    simp [V3.norm, absTol]
  rcases storeBeam_checked (checked_inv h) name n0 n1 b with ⟨c, ce, k', g1, g2, g3, e⟩ | ⟨hno, e⟩
  · rw [e] at he; cases he
    exact ⟨rfl, ⟨c, ce, g1, g2, g3⟩, fun _ => rfl, fun hno => absurd g2 (hno c ce g1)⟩
  · rw [e] at he; cases he
    refine ⟨rfl, ⟨name, b, by rw [get?_set_eq, if_pos rfl], ?_, by rw [get?_set_eq, if_pos rfl]⟩, ?_, ?_⟩
    · rw [hs, ht]; exact Or.inl ⟨self _, self _⟩
    · rintro ⟨c, ce, g1, g2⟩; exact absurd g2 (hno c ce g1)
    · intro _
      exact ⟨⟨b, by rw [get?_set_eq, if_pos rfl], hs, ht, hp, by rw [get?_set_eq, if_pos rfl]⟩, fun c hc => by rw [get?_set_eq, if_neg hc]⟩

/-- the full property also says that the name of a node added with the check can be used afterwards -/
def C162_name_claim : Prop :=
  ∀ m : FeModel, Checked m → ∀ (name : String) (x y z : ℝ) (m' : FeModel) (k : ℕ), m.addNode name x y z true = .ok (m', k) →
    ∃ nd, m'.nodes.get? name = some nd ∧ SameSpot nd.loc ⟨x, y, z⟩

/-- the name of a merged node is not known: beams to it are refused -/
theorem C162_name_lost (m : FeModel) (h : Checked m) (name : String) (x y z : ℝ) (hn : m.nodes.get? name = none)
    (hd : ∃ n nd, m.nodes.get? n = some nd ∧ SameSpot nd.loc ⟨x, y, z⟩) :
    ∃ k, m.addNode name x y z true = .ok (m, k) ∧ ∀ b j E mu A I2 I3 J rho,
      m.addSimpleBeam b name j E mu A I2 I3 J rho true = .error .keyError := by
  rcases addNode_checked (checked_inv h) name x y z with ⟨n, nd, k, h1, h2, h3, e⟩ | ⟨hno, e⟩
  · refine ⟨k, e, ?_⟩
    intro b j E mu A I2 I3 J rho
    simp only [FeModel.addSimpleBeam, Dict.getItem_of_none hn, bind, Except.bind]
  · obtain ⟨n, nd, h1, h2⟩ := hd
    exact absurd h2 (hno n nd h1)

/-- two nodes added at the same place -/
theorem merge_demo : ∃ m, Checked m ∧ m.nodes.get? "B" = none ∧ m.nodes.get? "A" = some (stdNode "A" 1 2 3) := by
  rcases addNode_checked (checked_inv .empty) "A" 1 2 3 with ⟨n, nd, k, h1, _⟩ | ⟨_, e⟩
  · cases h1
  · refine ⟨_, .node .empty e, ?_, ?_⟩
    · rw [get?_set_eq, if_neg (by decide)]; rfl
    · rw [get?_set_eq, if_pos rfl]

theorem C162_name_false : ¬ C162_name_claim := by
  intro hc
  obtain ⟨m, h, hB, hA⟩ := merge_demo
  obtain ⟨k, e, _⟩ := C162_name_lost m h "B" 1 2 3 hB ⟨"A", _, hA, by
    rw [← norm_same]
    have : (stdNode "A" 1 2 3).loc = ⟨1, 2, 3⟩ := rfl
    rw [this, V3.sub_def]
    simp [V3.norm, absTol]⟩
  obtain ⟨nd, hnd, _⟩ := hc m h "B" 1 2 3 m k e
  rw [hB] at hnd
  cases hnd

/-- places that differ by less than a thousand millionth are the same, others are not -/
example : SameSpot ⟨0, 0, 0⟩ ⟨0, 1 / 10 ^ 10, 0⟩ ∧ ¬ SameSpot ⟨0, 0, 0⟩ ⟨0, 1 / 10 ^ 9, 0⟩ := by
  unfold SameSpot
  constructor
  · rw [show ((0 : ℝ) - 0) ^ 2 + (0 - 1 / 10 ^ 10) ^ 2 + (0 - 0) ^ 2 = (1 / 10 ^ 10) ^ 2 by ring, Real.sqrt_sq (by positivity)]
    norm_num
  · rw [show ((0 : ℝ) - 0) ^ 2 + (0 - 1 / 10 ^ 9) ^ 2 + (0 - 0) ^ 2 = (1 / 10 ^ 9) ^ 2 by ring, Real.sqrt_sq (by positivity)]
    norm_num

theorem addSimple_of {m : FeModel} {name i j : String} {E mu A I2 I3 J rho : ℝ} {n0 n1 : Node} {b : BeamElm} (h0 : m.nodes.get? i = some n0)
    (h1 : m.nodes.get? j = some n1) (hb : BeamElm.mk? name n0 n1 (.simple E mu A I2 I3 J rho) = .ok b) :
    m.addSimpleBeam name i j E mu A I2 I3 J rho true = m.storeBeam name n0 n1 b true := by
  unfold FeModel.addSimpleBeam
  rw [Dict.getItem_of_some h0, Dict.getItem_of_some h1]
  simp only [Except.bind_ok, hb]

/-- a model with two nodes and a beam; the beam the other way round is not added -/
example : ∃ m m' k, Checked m ∧ m.addSimpleBeam "b" "A" "B" 1 0 1 1 1 1 1 true = .ok (m', k) ∧ m' ≠ m ∧
    (∃ be, m'.beams.get? "b" = some be) ∧ ∀ m'' k', m'.addSimpleBeam "c" "B" "A" 2 0 2 2 2 2 2 true = .ok (m'', k') → m'' = m' := by
  obtain ⟨c, hc⟩ := demo_csys
  have hnear : ¬ SameSpot ⟨0, 0, 0⟩ ⟨1, 2, 3⟩ := by
    unfold SameSpot
    rw [not_lt]
    apply Real.le_sqrt_of_sq_le
    norm_num
  rcases addNode_checked (checked_inv .empty) "A" 0 0 0 with ⟨n, nd, k, h1, _⟩ | ⟨_, e⟩
  · cases h1
  have h1 := Checked.node .empty e
  rcases addNode_checked (checked_inv h1) "B" 1 2 3 with ⟨n, nd, k, g1, g2, _⟩ | ⟨_, e'⟩
  · rw [get?_set_eq] at g1
    split at g1
    · cases g1; exact absurd g2 hnear
    · cases g1
  have h2 := Checked.node h1 e'
  rcases storeBeam_checked (checked_inv h2) "b" (stdNode "A" 0 0 0) (stdNode "B" 1 2 3) (demoBeam c) with ⟨n, nd, k, g1, g2, _⟩ | ⟨_, e3⟩
  · cases g1
  have ha := (addSimple_of (name := "b") (i := "A") (j := "B") rfl rfl (demo_mk hc)).trans e3
  refine ⟨_, _, _, h2, ha, ?_, ⟨demoBeam c, rfl⟩, ?_⟩
  · intro hh
    have := congrArg (fun m => m.beams.get? "b") hh
    cases this
  · intro m'' k' he
    obtain ⟨n0, n1, g0, g1, _, _, hsame, _⟩ := C162_beam _ (.simple h2 ha) "c" "B" "A" 2 0 2 2 2 2 2 m'' k' he
    apply hsame
    cases g0
    cases g1
    refine ⟨"b", demoBeam c, rfl, Or.inr ⟨?_, ?_⟩⟩ <;>
    · rw [← norm_same]
      simp [demoBeam, stdNode, Node.loc, V3.sub_def, V3.norm, absTol]

end Hyperstatic
