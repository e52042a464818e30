import Verif.Spec.CaseObject
import Verif.Props.Loads
import Verif.Props.Merging
import Verif.Model.Solver

/-
C163: pattern and case objects used directly.
-/

namespace Hyperstatic
open Spec

/-- the entry of a pattern object -/
def toLedgerPat (p : LoadPattern) : LedgerPat := ⟨p.name, toReg p, fun n => p.nodalDisp.get? n⟩

/-- the ledger a state stands for -/
def toLedger (s : PatHeap × LoadCase) : Ledger :=
  ⟨s.1.map toLedgerPat, fun n => match s.2.pattern.get? n, s.2.loadCurve.get? n with
    | some r, some c => some (r, c)
    | _, _ => none, fun n => s.2.loadFactor.get? n⟩

/-- invariant of a case object -/
structure ObjInv (s : PatHeap × LoadCase) : Prop where
  wf : s.2.loadFactor.WF
  same : ∀ n, (s.2.pattern.get? n).isSome = (s.2.loadCurve.get? n).isSome
  refs : ∀ n r, s.2.pattern.get? n = some r → r < s.1.length
  known : ∀ n r, s.2.pattern.get? n = some r → ∃ v, s.2.loadFactor.get? n = some v

theorem map_modify {α β : Type} (f : α → β) (g : α → α) (k : β → β) (h : ∀ a, f (g a) = k (f a)) (l : List α) (r : ℕ) :
    (l.modify r g).map f = (l.map f).modify r k := by
  induction l generalizing r with
  | nil => cases r <;> rfl
  | cons a l ih => cases r with
    | zero => simp [h]
    | succ r => simp [ih]

theorem step_inv {s : PatHeap × LoadCase} (h : ObjInv s) (op : CaseOp) :
    ObjInv (CaseOp.step s op) ∧ toLedger (CaseOp.step s op) = (toLedger s).enter op := by
  have hmod : ∀ (r : ℕ) (g : LoadPattern → LoadPattern) (k : LedgerPat → LedgerPat) (_ : ∀ p, toLedgerPat (g p) = k (toLedgerPat p)),
      ObjInv (s.1.modify r g, s.2) ∧ toLedger (s.1.modify r g, s.2) = { toLedger s with pats := (toLedger s).pats.modify r k } := by
    intro r g k hk
    refine ⟨⟨h.wf, h.same, ?_, h.known⟩, ?_⟩
    · intro n r' hr
      simpa using h.refs n r' hr
    · simp only [toLedger]
      rw [map_modify _ _ _ hk]
  cases op with
  | newPattern n =>
    refine ⟨⟨h.wf, h.same, ?_, h.known⟩, ?_⟩
    · intro m r hr
      exact Nat.lt_of_lt_of_le (h.refs m r hr) (by simp [CaseOp.step])
    · simp [toLedger, CaseOp.step, Ledger.enter, toLedgerPat, LoadPattern.new, toReg, PatReg.empty, Dict.get?]
  | nodalLoad r n f =>
    refine hmod r _ _ (fun p => ?_)
    simp only [toLedgerPat, LoadPattern.setNodalLoad, toReg, get?_set_eq]
  | nodalDisp r n u =>
    refine hmod r _ _ (fun p => ?_)
    simp only [toLedgerPat, LoadPattern.setNodalDisp, toReg, get?_set_eq]
  | lineLoad r b pi pj qi2 qj2 qi3 qj3 ti tj =>
    refine hmod r _ _ (fun p => ?_)
    simp only [toLedgerPat, LoadPattern.setBeamLoadDist, toReg, get?_set_eq, LedgerPat.mk.injEq, PatReg.mk.injEq, true_and, and_true]
    funext m
    by_cases e : m = b <;> simp [e]
  | pointLoad r b F1 F2 F3 M1 M2 M3 ra =>
    refine hmod r _ _ (fun p => ?_)
    simp only [toLedgerPat, LoadPattern.setBeamLoadConc, toReg, get?_set_eq]
  | add r v c =>
    cases hr : s.1[r]? with
    | none => simpa [CaseOp.step, Ledger.enter, toLedger, hr] using h
    | some p =>
      have hlt : r < s.1.length := (List.getElem?_eq_some_iff.mp hr).1
      constructor
      · simp only [CaseOp.step, hr]
        refine ⟨Dict.set_wf h.wf _ _, ?_, ?_, ?_⟩
        · intro n
          simp only [LoadCase.addPattern, get?_set_eq]
          by_cases e : n = p.name
          · simp [e]
          · simpa [e] using h.same n
        · intro n r' hn
          simp only [LoadCase.addPattern, get?_set_eq] at hn
          by_cases e : n = p.name
          · simp only [e, if_true, Option.some.injEq] at hn; rw [← hn]; exact hlt
          · simp only [e, if_false] at hn; exact h.refs n r' hn
        · intro n r' hn
          simp only [LoadCase.addPattern, get?_set_eq] at hn ⊢
          by_cases e : n = p.name
          · exact ⟨v, by simp [e]⟩
          · simp only [e, if_false] at hn ⊢; exact h.known n r' hn
      · simp only [CaseOp.step, hr, Ledger.enter, toLedger, List.getElem?_map, Option.map_some, LoadCase.addPattern, get?_set_eq, toLedgerPat,
          Ledger.mk.injEq, true_and, and_true]
        funext n
        by_cases e : n = p.name <;> simp [e]
  | setFactor n v =>
    refine ⟨⟨Dict.set_wf h.wf _ _, h.same, h.refs, ?_⟩, ?_⟩
    · intro m r hm
      simp only [CaseOp.step, LoadCase.setPatternFactor, get?_set_eq] at hm ⊢
      by_cases e : m = n
      · exact ⟨v, by simp [e]⟩
      · simpa [e] using h.known m r hm
    · simp [CaseOp.step, Ledger.enter, toLedger, LoadCase.setPatternFactor, get?_set_eq]
  | hold n f => exact ⟨⟨h.wf, h.same, h.refs, h.known⟩, rfl⟩

theorem run_inv (name : String) (kind : CaseKind) (ops : List CaseOp) :
    ObjInv (CaseOp.run name kind ops) ∧ toLedger (CaseOp.run name kind ops) = ledger ops := by
  have h0 : ObjInv ([], LoadCase.new name kind) := ⟨by simp [LoadCase.new, Dict.WF, Dict.keys], by simp [LoadCase.new, Dict.get?],
    by simp [LoadCase.new, Dict.get?], by simp [LoadCase.new, Dict.get?]⟩
  have e0 : toLedger ([], LoadCase.new name kind) = ⟨[], fun _ => none, fun _ => none⟩ := by
    simp [toLedger, LoadCase.new, Dict.get?]
  unfold CaseOp.run ledger
  rw [← e0]
  generalize (([], LoadCase.new name kind) : PatHeap × LoadCase) = s at h0
  induction ops generalizing s with
  | nil => exact ⟨h0, rfl⟩
  | cons op ops ih =>
    rw [List.foldl_cons, List.foldl_cons, ← (step_inv h0 op).2]
    exact ih _ (step_inv h0 op).1

/-- the entry under a name with a factor -/
theorem toLedger_entry {s : PatHeap × LoadCase} (h : ObjInv s) {n : String} {v : ℝ} (hv : s.2.loadFactor.get? n = some v)
    (hp : ((toLedger s).part n).isSome) :
    ∃ r c p, s.2.pattern.get? n = some r ∧ s.2.loadCurve.get? n = some c ∧ s.1[r]? = some p ∧
      (toLedger s).part n = some (r, c) ∧ (toLedger s).entry n = some (v, toLedgerPat p, c) := by
  have hs := h.same n
  cases h1 : s.2.pattern.get? n with
  | none => simp [toLedger, h1] at hp
  | some r =>
    cases h2 : s.2.loadCurve.get? n with
    | none => simp [h1, h2] at hs
    | some c =>
      have h3 := List.getElem?_eq_getElem (h.refs n r h1)
      exact ⟨r, c, _, rfl, rfl, h3, by simp [toLedger, h1, h2], by simp [Ledger.entry, toLedger, h1, h2, hv, h3]⟩

/-- After every program: if a pattern has been added under each name with a factor, the case applies at every node, at every instant of its
curves, the latest loads of its patterns with the latest factors; and likewise to every beam. -/
theorem C163_factor (name : String) (kind : CaseKind) (ops : List CaseOp) (s : PatHeap × LoadCase) (hs : s = CaseOp.run name kind ops)
    (L : Ledger) (hL : L = ledger ops) (hk : ∀ n, (L.factor n).isSome → (L.part n).isSome) :
    ∃ names : List String, names.Nodup ∧ (∀ n, n ∈ names ↔ (L.entry n).isSome) ∧
      (∀ node t, (∀ n r c, L.part n = some (r, c) → t < c.length) → s.2.getNodalF s.1 node t = .ok (L.nodeLoad names node t)) ∧
      (∀ beam l, s.2.getBeamF s.1 beam l = .ok (L.beamLoad names beam l)) := by
  obtain ⟨hI, hE⟩ := run_inv name kind ops
  rw [← hs] at hI hE
  rw [← hE] at hL
  subst hL
  have hent : ∀ n v, s.2.loadFactor.get? n = some v → _ := fun n v hv => toLedger_entry hI hv (hk n (by simp [toLedger, hv]))
  refine ⟨s.2.loadFactor.keys, hI.wf, ?_, ?_, ?_⟩
  · intro n
    rw [← Dict.get?_isSome_iff]
    cases hv : s.2.loadFactor.get? n with
    | none => simp [Ledger.entry, toLedger, hv]
    | some v =>
      obtain ⟨r, c, p, h1, h2, h3, h4, h5⟩ := hent n v hv
      simp [h5]
  · intro node t ht
    unfold LoadCase.getNodalF
    rw [foldlM_ok_sum s.2.loadFactor _ (fun q => match (toLedger s).entry q.1 with
      | some (v, p, c) => (v * c.getD t 0) • (p.loads.node node).getD 0
      | none => 0)]
    · unfold Ledger.nodeLoad
      rw [map_keys_eq _ hI.wf _ (fun q => match (toLedger s).entry q.1 with
        | some (v, p, c) => (v * c.getD t 0) • (p.loads.node node).getD 0
        | none => 0) (fun _ _ _ => rfl)]
      congr 1; exact zero_add _
    · rintro ⟨n, v⟩ hm acc
      obtain ⟨r, c, p, h1, h2, h3, h4, h5⟩ := hent n v ((Dict.mem_iff_get? hI.wf n v).mp hm)
      have hlt := ht n r c h4
      simp only [Dict.getItem_of_some h1, PatHeap.deref, h3, h5, LoadPattern.getNodalF, toLedgerPat, toReg, bind, Except.bind, pure, Except.pure]
      cases hf : p.nodalLoad.get? node with
      | none => simp
      | some f =>
        simp only [Dict.getItem_of_some h2, LoadCase.curveAt, List.getElem?_eq_getElem hlt, Option.getD_some]
        congr 2
        funext i
        simp [hlt]
        ring
  · intro beam l
    unfold LoadCase.getBeamF
    rw [foldlM_ok_sum s.2.loadFactor _ (fun q => match (toLedger s).entry q.1 with
      | some (v, p, _) => v • p.loads.beamF beam l
      | none => 0)]
    · unfold Ledger.beamLoad
      rw [map_keys_eq _ hI.wf _ (fun q => match (toLedger s).entry q.1 with
        | some (v, p, _) => v • p.loads.beamF beam l
        | none => 0) (fun _ _ _ => rfl)]
      congr 1; exact zero_add _
    · rintro ⟨n, v⟩ hm acc
      obtain ⟨r, c, p, h1, h2, h3, h4, h5⟩ := hent n v ((Dict.mem_iff_get? hI.wf n v).mp hm)
      simp only [Dict.getItem_of_some h1, PatHeap.deref, h3, h5, toLedgerPat, bind, Except.bind, pure, Except.pure, toReg_beamF]
      congr 2
      funext i
      simp [mul_comm]

/-- a pattern loaded, added, loaded again, and given another factor -/
def factorOps : List CaseOp :=
  [.newPattern "P", .nodalLoad 0 "A" ![1, 0, 0, 0, 0, 0], .add 0 1 none, .nodalLoad 0 "A" ![2, 0, 0, 0, 0, 0], .setFactor "P" 3]

example : (∀ n, ((ledger factorOps).factor n).isSome → ((ledger factorOps).part n).isSome) ∧
    (ledger factorOps).nodeLoad ["P"] "A" 1 = ![6, 0, 0, 0, 0, 0] := by
  constructor
  · intro n
    simp only [ledger, factorOps, List.foldl_cons, List.foldl_nil, Ledger.enter, List.nil_append, List.modify_cons, if_true, List.getElem?_cons_zero]
    by_cases e : n = "P" <;> simp [e]
  · funext i
    fin_cases i <;> simp [Ledger.nodeLoad, Ledger.entry, ledger, factorOps, Ledger.enter] <;> norm_num

/-- the property: every change of a factor that is accepted can be evaluated afterwards -/
def C163_claim : Prop := ∀ name kind ops beam l, ∃ f, (CaseOp.run name kind ops).2.getBeamF (CaseOp.run name kind ops).1 beam l = .ok f

theorem foldlM_some_error {α M : Type} (l : List α) (f : M → α → Except PyErr M) (e : PyErr)
    (h : ∀ it ∈ l, ∀ acc, f acc it = .error e ∨ ∃ b, f acc it = .ok b) (hx : ∃ it ∈ l, ∀ acc, f acc it = .error e) (acc : M) :
    l.foldlM f acc = .error e := by
  induction l generalizing acc with
  | nil => obtain ⟨_, h, _⟩ := hx; simp at h
  | cons it l ih =>
    rw [List.foldlM_cons]
    rcases h it List.mem_cons_self acc with e1 | ⟨b, e1⟩
    · rw [e1]; rfl
    · rw [e1, Except.bind_ok]
      apply ih (fun it hit => h it (List.mem_cons_of_mem _ hit))
      obtain ⟨it', hm, he⟩ := hx
      rcases List.mem_cons.mp hm with rfl | hm
      · rw [he acc] at e1; cases e1
      · exact ⟨it', hm, he⟩

/-- A factor set under a name no pattern has been added under is accepted; from then on, until one is added, every question for a load raises
`KeyError`: about every beam, and about every node at every instant of the curves. -/
theorem C163_unknown (name : String) (kind : CaseKind) (ops : List CaseOp) (s : PatHeap × LoadCase) (hs : s = CaseOp.run name kind ops)
    (L : Ledger) (hL : L = ledger ops) (n : String) (h1 : (L.factor n).isSome) (h2 : L.part n = none) :
    (∀ beam l, s.2.getBeamF s.1 beam l = .error .keyError) ∧
    ∀ node t, (∀ n r c, L.part n = some (r, c) → t < c.length) → s.2.getNodalF s.1 node t = .error .keyError := by
  obtain ⟨hI, hE⟩ := run_inv name kind ops
  rw [← hs] at hI hE
  rw [← hE] at hL
  subst hL
  obtain ⟨v, hv⟩ := Option.isSome_iff_exists.mp h1
  have hnone : s.2.pattern.get? n = none := by
    have := hI.same n
    cases e : s.2.pattern.get? n with
    | none => rfl
    | some r =>
      obtain ⟨c, hc⟩ := Option.isSome_iff_exists.mp (by rw [← this, e]; rfl : (s.2.loadCurve.get? n).isSome = true)
      simp [toLedger, e, hc] at h2
  have hm : (n, v) ∈ s.2.loadFactor := (Dict.mem_iff_get? hI.wf n v).mpr hv
  constructor
  · intro beam l
    unfold LoadCase.getBeamF
    apply foldlM_some_error
    · rintro ⟨m, w⟩ hmem acc
      cases e : s.2.pattern.get? m with
      | none => left; simp [Dict.getItem_of_none e, bind, Except.bind]
      | some r =>
        right
        have h3 := List.getElem?_eq_getElem (hI.refs m r e)
        simp [Dict.getItem_of_some e, PatHeap.deref, h3, bind, Except.bind, pure, Except.pure]
    · exact ⟨_, hm, fun acc => by simp [Dict.getItem_of_none hnone, bind, Except.bind]⟩
  · intro node t ht
    unfold LoadCase.getNodalF
    apply foldlM_some_error
    · rintro ⟨m, w⟩ hmem acc
      cases e : s.2.pattern.get? m with
      | none => left; simp [Dict.getItem_of_none e, bind, Except.bind]
      | some r =>
        right
        obtain ⟨p, h3⟩ : ∃ p, s.1[r]? = some p := ⟨_, List.getElem?_eq_getElem (hI.refs m r e)⟩
        have := hI.same m
        obtain ⟨c, hc⟩ := Option.isSome_iff_exists.mp (by rw [← this, e]; rfl : (s.2.loadCurve.get? m).isSome = true)
        have hlt := ht m r c (by simp [toLedger, e, hc])
        simp only [Dict.getItem_of_some e, PatHeap.deref, h3, bind, Except.bind, pure, Except.pure]
        cases p.getNodalF node with
        | none => exact ⟨_, rfl⟩
        | some f => simp [Dict.getItem_of_some hc, LoadCase.curveAt, List.getElem?_eq_getElem hlt]
    · exact ⟨_, hm, fun acc => by simp [Dict.getItem_of_none hnone, bind, Except.bind]⟩

theorem C163_false : ¬ C163_claim := by
  intro h
  obtain ⟨f, hf⟩ := h "C" .static [.setFactor "P" 1] "b" 1
  rw [(C163_unknown "C" .static [.setFactor "P" 1] _ rfl _ rfl "P" (by simp [ledger, Ledger.enter]) (by simp [ledger, Ledger.enter])).1] at hf
  cases hf

/-- The displacement prescribed at a node is the latest one given. -/
theorem C163_disp (name : String) (kind : CaseKind) (ops : List CaseOp) (r : ℕ) (node : String) :
    ((CaseOp.run name kind ops).1[r]?).map (fun p => p.getNodalD node) = ((ledger ops).pats[r]?).map fun p => p.disp node := by
  rw [← (run_inv name kind ops).2]
  simp [toLedger, toLedgerPat, LoadPattern.getNodalD, Function.comp_def]

/-- forget all prescribed displacements -/
def noDisp : CaseOp → Bool
  | .nodalDisp .. => false
  | _ => true

/-- two patterns differ at most in the prescribed displacements -/
def LoadAlike (p q : LoadPattern) : Prop :=
  p.name = q.name ∧ p.nodalLoad = q.nodalLoad ∧ p.beamDist = q.beamDist ∧ p.beamConc = q.beamConc

/-- two heaps differ at most in the prescribed displacements -/
def HeapAlike (h k : PatHeap) : Prop := ∀ r : ℕ, match h[r]?, k[r]? with
  | some p, some q => LoadAlike p q
  | none, none => True
  | _, _ => False

theorem LoadAlike.refl (p : LoadPattern) : LoadAlike p p := ⟨rfl, rfl, rfl, rfl⟩

theorem HeapAlike.length {h k : PatHeap} (hk : HeapAlike h k) : h.length = k.length := by
  by_contra hne
  rcases Nat.lt_or_gt_of_ne hne with hlt | hlt
  · have := hk h.length
    rw [List.getElem?_eq_none (le_refl _), List.getElem?_eq_getElem hlt] at this
    exact this
  · have := hk k.length
    rw [List.getElem?_eq_none (le_refl k.length), List.getElem?_eq_getElem hlt] at this
    exact this

theorem HeapAlike.modify {h k : PatHeap} (hk : HeapAlike h k) (r : ℕ) (f g : LoadPattern → LoadPattern)
    (hfg : ∀ p q, LoadAlike p q → LoadAlike (f p) (g q)) : HeapAlike (h.modify r f) (k.modify r g) := by
  intro i
  have := hk i
  simp only [List.getElem?_modify]
  cases h1 : h[i]? <;> cases h2 : k[i]? <;> simp only [h1, h2] at this ⊢
  · trivial
  · by_cases e : r = i
    · simpa [e] using hfg _ _ this
    · simpa [e] using this

theorem step_alike {s t : PatHeap × LoadCase} (hh : HeapAlike s.1 t.1) (hc : s.2 = t.2) (op : CaseOp) :
    HeapAlike (CaseOp.step s op).1 (CaseOp.step t op).1 ∧ (CaseOp.step s op).2 = (CaseOp.step t op).2 := by
  cases op with
  | newPattern n =>
    refine ⟨?_, hc⟩
    intro i
    simp only [CaseOp.step, List.getElem?_append, hh.length]
    by_cases hlt : i < t.1.length
    · simp only [hlt, if_true]; exact hh i
    · simp only [hlt, if_false]
      cases e : [LoadPattern.new n][i - t.1.length]? with
      | none => trivial
      | some p => exact LoadAlike.refl p
  | nodalLoad r n f => exact ⟨hh.modify r _ _ fun p q h => ⟨h.1, by simp [LoadPattern.setNodalLoad, h.2.1], h.2.2.1, h.2.2.2⟩, hc⟩
  | nodalDisp r n u => exact ⟨hh.modify r _ _ fun p q h => h, hc⟩
  | lineLoad r b pi pj qi2 qj2 qi3 qj3 ti tj =>
    exact ⟨hh.modify r _ _ fun p q h => ⟨h.1, h.2.1, by simp [LoadPattern.setBeamLoadDist, h.2.2.1], h.2.2.2⟩, hc⟩
  | pointLoad r b F1 F2 F3 M1 M2 M3 ra =>
    exact ⟨hh.modify r _ _ fun p q h => ⟨h.1, h.2.1, h.2.2.1, by simp [LoadPattern.setBeamLoadConc, h.2.2.2]⟩, hc⟩
  | add r v c =>
    have := hh r
    simp only [CaseOp.step]
    cases h1 : s.1[r]? <;> cases h2 : t.1[r]? <;> simp only [h1, h2] at this ⊢
    · exact ⟨hh, hc⟩
    · exact ⟨hh, by rw [this.1, hc]⟩
  | setFactor n v => exact ⟨hh, by simp [CaseOp.step, hc]⟩
  | hold n f => exact ⟨hh, by simp [CaseOp.step, hc]⟩

theorem run_noDisp (name : String) (kind : CaseKind) (ops : List CaseOp) :
    HeapAlike (CaseOp.run name kind ops).1 (CaseOp.run name kind (ops.filter noDisp)).1 ∧
      (CaseOp.run name kind ops).2 = (CaseOp.run name kind (ops.filter noDisp)).2 := by
  unfold CaseOp.run
  have key : ∀ (s t : PatHeap × LoadCase), HeapAlike s.1 t.1 → s.2 = t.2 →
      HeapAlike (ops.foldl CaseOp.step s).1 ((ops.filter noDisp).foldl CaseOp.step t).1 ∧
        (ops.foldl CaseOp.step s).2 = ((ops.filter noDisp).foldl CaseOp.step t).2 := by
    induction ops with
    | nil => exact fun s t h1 h2 => ⟨h1, h2⟩
    | cons op ops ih =>
      intro s t hh hc
      by_cases e : noDisp op = true
      · rw [List.filter_cons_of_pos e, List.foldl_cons, List.foldl_cons]
        exact ih _ _ (step_alike hh hc op).1 (step_alike hh hc op).2
      · rw [List.filter_cons_of_neg e, List.foldl_cons]
        cases op with
        | nodalDisp r n u =>
          refine ih _ _ ?_ hc
          intro i
          have := hh i
          simp only [CaseOp.step, List.getElem?_modify]
          cases h1 : s.1[i]? <;> cases h2 : t.1[i]? <;> simp only [h1, h2] at this ⊢
          · trivial
          · by_cases er : r = i <;> simp [er] <;> exact this
        | _ => simp [noDisp] at e
  exact key _ _ (fun i => by simp) rfl

theorem getNodalF_alike {h k : PatHeap} (hk : HeapAlike h k) (c : LoadCase) (n : String) (t : ℕ) : c.getNodalF h n t = c.getNodalF k n t := by
  unfold LoadCase.getNodalF
  congr 1
  funext fn it
  cases c.pattern.getItem it.1 with
  | error e => rfl
  | ok r =>
    have := hk r
    simp only [PatHeap.deref, bind, Except.bind]
    cases h1 : h[r]? <;> cases h2 : k[r]? <;> simp only [h1, h2] at this ⊢
    simp only [LoadPattern.getNodalF, this.2.1]

theorem getBeamF_alike {h k : PatHeap} (hk : HeapAlike h k) (c : LoadCase) (b : String) (l : ℝ) : c.getBeamF h b l = c.getBeamF k b l := by
  unfold LoadCase.getBeamF
  congr 1
  funext fn it
  cases c.pattern.getItem it.1 with
  | error e => rfl
  | ok r =>
    have := hk r
    simp only [PatHeap.deref, bind, Except.bind]
    cases h1 : h[r]? <;> cases h2 : k[r]? <;> simp only [h1, h2] at this ⊢
    simp only [LoadPattern.getBeamF, this.2.2.1, this.2.2.2]

/-- Prescribed displacements are ignored: for every program that prescribes displacements, in every model, with every solver, the load vector
and the displacements of the case are those of the program without them. -/
theorem C163_ignored (env : Env) (name : String) (kind : CaseKind) (ops : List CaseOp) (m : FeModel) (x y : Assembly)
    (hx : Assembly.mk? m [(CaseOp.run name kind ops).2] (CaseOp.run name kind ops).1 = .ok x)
    (hy : Assembly.mk? m [(CaseOp.run name kind (ops.filter noDisp)).2] (CaseOp.run name kind (ops.filter noDisp)).1 = .ok y) :
    (∀ t, x.assembleF name t = y.assembleF name t) ∧ ∀ K, solveCase env x name K = solveCase env y name K := by
  obtain ⟨hh, hc⟩ := run_noDisp name kind ops
  rw [← hc] at hy
  simp only [Assembly.mk?, bind, Except.bind] at hx hy
  split at hx
  · cases hx
  · rename_i fixed hf
    rw [hf] at hy
    simp only [pure, Except.pure, Except.ok.injEq] at hx hy
    have e1 : x.model = y.model := by rw [← hx, ← hy]
    have e2 : x.cases = y.cases := by rw [← hx, ← hy]
    have e3 : HeapAlike x.heap y.heap := by rw [← hx, ← hy]; exact hh
    have e4 : x.fixedDof = y.fixedDof := by rw [← hx, ← hy]
    have e5 : x.dof = y.dof := by rw [← hx, ← hy]
    have hF : ∀ t, x.assembleF name t = y.assembleF name t := by
      intro t
      unfold Assembly.assembleF
      rw [e1, e2]
      have a1 : ∀ lc, Assembly.nodeFTriplets x lc t = Assembly.nodeFTriplets y lc t := by
        intro lc; funext n; simp only [Assembly.nodeFTriplets, e1, getNodalF_alike e3]
      have a2 : ∀ lc, Assembly.beamFTriplets x lc = Assembly.beamFTriplets y lc := by
        intro lc; funext n; simp only [Assembly.beamFTriplets, e1, getBeamF_alike e3]
      simp only [a1, a2]
    refine ⟨hF, fun K => ?_⟩
    unfold solveCase
    have b0 : x.boundaryDofs name = y.boundaryDofs name := by unfold Assembly.boundaryDofs; rw [e1, e2, e4]
    have b1 : x.boundaryMatrix name K = y.boundaryMatrix name K := by unfold Assembly.boundaryMatrix; rw [b0]
    have b2 : ∀ f, x.boundaryVector name f = y.boundaryVector name f := by intro f; unfold Assembly.boundaryVector; rw [b0]
    have b3 : solverRestraints x name = solverRestraints y name := by simp only [solverRestraints, Assembly.restraintDOF, e1, e2]
    simp only [hF, b1, b2, b3, e1]

/-- a program that prescribes a displacement; every model without supports of its own can be assembled with it -/
example (m : FeModel) (hm : m.restraints = []) (ops : List CaseOp)
    (_ : ops = [.newPattern "P", .nodalDisp 0 "A" ![1, 0, 0, 0, 0, 0], .nodalLoad 0 "B" ![1, 0, 0, 0, 0, 0], .add 0 1 none]) :
    (∃ x, Assembly.mk? m [(CaseOp.run "C" .static ops).2] (CaseOp.run "C" .static ops).1 = .ok x) ∧
    ∃ y, Assembly.mk? m [(CaseOp.run "C" .static (ops.filter noDisp)).2] (CaseOp.run "C" .static (ops.filter noDisp)).1 = .ok y := by
  simp [Assembly.mk?, hm, restraintDofs, bind, Except.bind, pure, Except.pure]

/-- The table of prescribed displacements of a case with one pattern shows zero wherever something is prescribed. -/
theorem C163_table (h : PatHeap) (c : LoadCase) (q : String) (r : ℕ) (p : LoadPattern) (hc : c.pattern = [(q, r)]) (hr : h[r]? = some p)
    (hwf : p.nodalDisp.WF) :
    ∃ d, c.getNodalDDict h = .ok d ∧ ∀ n, d.get? n = (p.nodalDisp.get? n).map fun _ => 0 := by
  have key : ∀ (l res : Dict (Vec 6)), l.WF → (∀ k ∈ l.keys, res.get? k = none) →
      ∃ d, l.foldlM (fun res (nl : String × Vec 6) =>
        match res.get? nl.1 with
        | some _ => do
            let fac ← c.loadFactor.getItem q
            pure (LoadCase.nodalFDictStep fac res nl)
        | none => (pure (LoadCase.nodalFDictStep 0 res nl) : Except PyErr _)) res = .ok d ∧
        ∀ n, d.get? n = match l.get? n with | some _ => some 0 | none => res.get? n := by
    intro l
    induction l with
    | nil => exact fun res _ _ => ⟨res, rfl, fun n => rfl⟩
    | cons it l ih =>
      obtain ⟨k, f⟩ := it
      intro res hw hn
      have hw' : k ∉ Dict.keys l ∧ (Dict.keys l).Nodup := List.nodup_cons.mp hw
      have hk : res.get? k = none := hn k (by simp [Dict.keys])
      obtain ⟨d, h1, h2⟩ := ih (Dict.set res k fun _ => 0) hw'.2 (by
        intro m hm
        have hne : m ≠ k := fun e => hw'.1 (e ▸ hm)
        rw [get?_set_eq, if_neg hne]
        exact hn m (by simp only [Dict.keys, List.map_cons, List.mem_cons]; exact Or.inr hm))
      refine ⟨d, ?_, ?_⟩
      · rw [List.foldlM_cons]
        simp only [hk, LoadCase.nodalFDictStep, pure_bind]
        exact h1
      · intro n
        rw [h2 n, get?_set_eq]
        by_cases e : n = k
        · subst e
          have : Dict.get? l n = none := by
            by_contra hne
            exact hw'.1 ((Dict.get?_isSome_iff _ _).mp (Option.isSome_iff_ne_none.mpr hne))
          simp [this, Dict.get?]; rfl
        · simp [Dict.get?, Ne.symm e, e]
  obtain ⟨d, h1, h2⟩ := key p.nodalDisp [] hwf (fun k _ => rfl)
  refine ⟨d, ?_, fun n => ?_⟩
  · unfold LoadCase.getNodalDDict
    rw [hc]
    simp only [List.foldlM_cons, List.foldlM_nil, PatHeap.deref, hr, LoadPattern.getNodalDDict]
    simp only [bind, Except.bind] at h1 ⊢
    erw [h1]; rfl
  · rw [h2]; cases p.nodalDisp.get? n <;> rfl

/-- the property: a displacement prescribed in a pattern is found in the table of the cases that use it -/
def C163_table_claim : Prop := ∀ name kind ops r p q (u : Vec 6) node d, (CaseOp.run name kind ops).1[r]? = some p →
  (CaseOp.run name kind ops).2.pattern = [(q, r)] → (CaseOp.run name kind ops).2.loadFactor = [(q, 1)] → p.getNodalD node = some u →
  (CaseOp.run name kind ops).2.getNodalDDict (CaseOp.run name kind ops).1 = .ok d → d.get? node = some u

theorem C163_table_false : ¬ C163_table_claim := by
  intro h
  obtain ⟨d, h1, h2⟩ := C163_table (CaseOp.run "C" .static [.newPattern "P", .nodalDisp 0 "A" 1, .add 0 1 none]).1
    (CaseOp.run "C" .static [.newPattern "P", .nodalDisp 0 "A" 1, .add 0 1 none]).2 "P" 0 ⟨"P", [], [("A", 1)], [], []⟩
    (by simp [CaseOp.run, CaseOp.step, LoadPattern.new, LoadPattern.setNodalDisp, LoadCase.addPattern, LoadCase.new, Dict.set])
    (by simp [CaseOp.run, CaseOp.step, LoadPattern.new, LoadPattern.setNodalDisp, Dict.set]) (by simp [Dict.WF, Dict.keys])
  have := h "C" .static [.newPattern "P", .nodalDisp 0 "A" 1, .add 0 1 none] 0 ⟨"P", [], [("A", 1)], [], []⟩ "P" 1 "A" d
    (by simp [CaseOp.run, CaseOp.step, LoadPattern.new, LoadPattern.setNodalDisp, Dict.set])
    (by simp [CaseOp.run, CaseOp.step, LoadPattern.new, LoadPattern.setNodalDisp, LoadCase.addPattern, LoadCase.new, Dict.set])
    (by simp [CaseOp.run, CaseOp.step, LoadPattern.new, LoadPattern.setNodalDisp, LoadCase.addPattern, LoadCase.new, Dict.set])
    (by simp [LoadPattern.getNodalD, Dict.get?]) h1
  rw [h2] at this
  simp [Dict.get?] at this

/-- The table of the loads on all beams, and that of the loads over time, are never answered by a case with a pattern; the point load of a
beam is never reported: the question for it is answered with the line load. -/
theorem C163_never (name : String) (kind : CaseKind) (ops : List CaseOp) (s : PatHeap × LoadCase) (hs : s = CaseOp.run name kind ops)
    (n : String) (h : ((ledger ops).part n).isSome) :
    s.2.getBeamFDict = .error .attributeError ∧
    (s.2.getNodalFTimeHistoryDict = .error .attributeError ∨ s.2.getNodalFTimeHistoryDict = .error .valueError) ∧
    ∀ p : LoadPattern, ∀ b, p.getBeamConcentrated b = p.getBeamDistributed b := by
  obtain ⟨hI, hE⟩ := run_inv name kind ops
  rw [← hs] at hI hE
  rw [← hE] at h
  have h1 : s.2.pattern ≠ [] := by
    intro e; simp [toLedger, e, Dict.get?] at h
  have h2 : s.2.loadCurve ≠ [] := by
    intro e
    simp only [toLedger, e, Dict.get?] at h
    cases s.2.pattern.get? n <;> simp at h
  refine ⟨?_, ?_, fun p b => rfl⟩
  · unfold LoadCase.getBeamFDict
    cases e : s.2.pattern with
    | nil => exact absurd e h1
    | cons a l => rfl
  · unfold LoadCase.getNodalFTimeHistoryDict
    cases e : s.2.loadCurve with
    | nil => exact absurd e h2
    | cons a l => simp only; split <;> simp

example : ((ledger factorOps).part "P").isSome := by
  simp [ledger, factorOps, Ledger.enter]

end Hyperstatic
