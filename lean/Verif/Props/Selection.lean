import Verif.Model.Selection
import Verif.Props.Spectrum
import Verif.Props.Seismic

/-
C132: selection of records that fit the design spectrum.
-/

namespace Hyperstatic

open Spec

/-- the error of one file -/
noncomputable def judge (amax Tg damp lo hi : ℝ) (f : WaveFile) : Except PyErr (ℝ × List (ℝ × ℝ) × Option ℝ) := open Classical in do
  let dt ← f.step
  let s ← gb50011 amax Tg damp dt
  let q ← fft2spec f.data dt damp (amax * 440)
  let domain := (List.range s.length).filter fun i => decide (lo ≤ (s.getD i (0, 0)).1 ∧ (s.getD i (0, 0)).1 ≤ hi)
  match domain.head?, domain.getLast? with
  | some i, some j => return (dt, s, squareErr (pySlice q.2 i j) (pySlice (s.map Prod.snd) i j))
  | _, _ => throw .indexError

theorem selectStep_eq {amax Tg damp lo hi : ℝ} {st : SelectState} (h : gb50011 amax Tg damp st.dt = .ok st.code) (f : WaveFile) :
    selectStep amax Tg damp lo hi st f = (judge amax Tg damp lo hi f).map fun q => ⟨q.1, q.2.1, st.mse ++ [(f, q.2.2)]⟩ := by
  unfold selectStep judge
  cases hf : f.step with
  | error e => rfl
  | ok dt =>
    simp only [bind, Except.bind, pure, Except.pure]
    by_cases hd : dt = st.dt
    · subst hd
      rw [if_neg (by simp), h]
      dsimp only
      cases fft2spec f.data st.dt damp (amax * 440) with
      | error e => rfl
      | ok q => 
        dsimp only
        generalize (List.filter _ _).head? = a
        generalize (List.filter _ _).getLast? = b
        cases a <;> cases b <;> rfl
    · rw [if_pos hd]
      cases gb50011 amax Tg damp dt with
      | error e => rfl
      | ok s =>
        dsimp only
        cases fft2spec f.data dt damp (amax * 440) with
        | error e => rfl
        | ok q =>
          dsimp only
          generalize (List.filter _ _).head? = a
          generalize (List.filter _ _).getLast? = b
          cases a <;> cases b <;> rfl

theorem judge_ok {amax Tg damp lo hi : ℝ} {f : WaveFile} {q : ℝ × List (ℝ × ℝ) × Option ℝ} (h : judge amax Tg damp lo hi f = .ok q) :
    f.step = .ok q.1 ∧ gb50011 amax Tg damp q.1 = .ok q.2.1 ∧ ∃ r, fft2spec f.data q.1 damp (amax * 440) = .ok r := by
  unfold judge at h
  cases hf : f.step with
  | error e => rw [hf] at h; cases h
  | ok dt =>
    rw [hf] at h
    simp only [bind, Except.bind, pure, Except.pure] at h
    cases hs : gb50011 amax Tg damp dt with
    | error e => rw [hs] at h; cases h
    | ok s =>
      rw [hs] at h
      dsimp only at h
      cases hq : fft2spec f.data dt damp (amax * 440) with
      | error e => rw [hq] at h; cases h
      | ok r =>
        rw [hq] at h
        dsimp only at h
        split at h
        · cases h; exact ⟨rfl, hs, r, hq⟩
        · cases h

/-- the first loop of `select` -/
theorem selectLoop {amax Tg damp lo hi : ℝ} (files : List WaveFile) {st : SelectState} (h : gb50011 amax Tg damp st.dt = .ok st.code) {st' : SelectState}
    (e : files.foldlM (selectStep amax Tg damp lo hi) st = .ok st') :
    ∃ qs, files.mapM (judge amax Tg damp lo hi) = .ok qs ∧ st'.mse = st.mse ++ files.zip (qs.map fun q => q.2.2) ∧
      (st'.dt = st.dt ∨ ∃ f ∈ files, f.step = .ok st'.dt) ∧ (files = [] → st'.dt = st.dt) ∧ (∀ f, files.getLast? = some f → f.step = .ok st'.dt) := by
  induction files generalizing st with
  | nil => cases e; exact ⟨[], rfl, by simp, .inl rfl, fun _ => rfl, by simp⟩
  | cons f l ih =>
    rw [List.foldlM_cons, selectStep_eq h] at e
    cases hj : judge amax Tg damp lo hi f with
    | error x => rw [hj] at e; cases e
    | ok q =>
      rw [hj] at e
      obtain ⟨h1, h2, -⟩ := judge_ok hj
      obtain ⟨qs, i1, i2, i3, i4, i5⟩ := ih (st := ⟨q.1, q.2.1, st.mse ++ [(f, q.2.2)]⟩) h2 e
      refine ⟨q :: qs, ?_, by simp [i2], ?_, by simp, ?_⟩
      · rw [List.mapM_cons, hj, i1]; rfl
      · rcases i3 with i | ⟨g, hg, i⟩
        · exact .inr ⟨f, by simp, by rw [i]; exact h1⟩
        · exact .inr ⟨g, by simp [hg], i⟩
      · intro g hg
        cases l with
        | nil => simp at hg; subst hg; rw [i4 rfl]; exact h1
        | cons x l => exact i5 g (by simpa using hg)

theorem selectLoop_ok {amax Tg damp lo hi : ℝ} (files : List WaveFile) {st : SelectState} (h : gb50011 amax Tg damp st.dt = .ok st.code) {qs}
    (e : files.mapM (judge amax Tg damp lo hi) = .ok qs) : ∃ st', files.foldlM (selectStep amax Tg damp lo hi) st = .ok st' := by
  induction files generalizing st qs with
  | nil => exact ⟨_, rfl⟩
  | cons f l ih =>
    rw [List.foldlM_cons, selectStep_eq h]
    rw [List.mapM_cons] at e
    cases hj : judge amax Tg damp lo hi f with
    | error x => rw [hj] at e; cases e
    | ok q =>
      rw [hj] at e
      cases hl : l.mapM (judge amax Tg damp lo hi) with
      | error x => rw [hl] at e; cases e
      | ok qs' => exact ih (st := ⟨q.1, q.2.1, st.mse ++ [(f, q.2.2)]⟩) (judge_ok hj).2.1 hl

theorem mapM_forall₂ {α β : Type} {f : α → Except PyErr β} {l : List α} {r : List β} (h : l.mapM f = .ok r) : List.Forall₂ (fun a b => f a = .ok b) l r := by
  induction l generalizing r with
  | nil => cases h; exact .nil
  | cons a l ih =>
    rw [List.mapM_cons] at h
    cases ha : f a with
    | error e => rw [ha] at h; cases h
    | ok b =>
      rw [ha] at h
      cases hl : l.mapM f with
      | error e => rw [hl] at h; cases h
      | ok bs => rw [hl] at h; cases h; exact .cons ha (ih hl)

theorem mapM_option {α β : Type} {f : α → Option β} {l : List α} {r : List β} (h : l.mapM f = some r) : List.Forall₂ (fun a b => f a = some b) l r := by
  induction l generalizing r with
  | nil => cases h; exact .nil
  | cons a l ih =>
    rw [List.mapM_cons] at h
    cases ha : f a with
    | none => rw [ha] at h; cases h
    | some b =>
      rw [ha] at h
      cases hl : l.mapM f with
      | none => rw [hl] at h; cases h
      | some bs => rw [hl] at h; cases h; exact .cons ha (ih hl)

/-- Everything `select` computes, in terms of the errors of single files. -/
theorem select_ok {files : List WaveFile} {amax Tg damp lo hi : ℝ} {num : ℕ} {R : Selection} (h : select files amax Tg damp lo hi num = .ok (some R)) :
    ∃ l dt, List.Forall₂ (fun f (q : WaveFile × ℝ) => q.1 = f ∧ ∃ d s, judge amax Tg damp lo hi f = .ok (d, s, some q.2)) files l ∧
      (∀ f, files.getLast? = some f → f.step = .ok dt) ∧
      R.ranking.Perm l ∧ R.ranking.Pairwise (fun a b => a.2 ≤ b.2) ∧ R.champions = R.ranking.take num ∧
      List.Forall₂ (fun (c : WaveFile × ℝ) (p : WaveFile × (List ℝ × List (Option ℝ))) => p.1 = c.1 ∧ fft2spec c.1.data dt damp (amax * 440) = .ok p.2) R.champions R.plotted := by
  unfold select at h
  cases hs : gb50011 amax Tg damp (1 / 100) with
  | error e => rw [hs] at h; cases h
  | ok s =>
    rw [hs] at h
    simp only [bind, Except.bind, pure, Except.pure] at h
    cases hl : files.foldlM (selectStep amax Tg damp lo hi) ⟨1 / 100, s, []⟩ with
    | error e => rw [hl] at h; cases h
    | ok st =>
      rw [hl] at h
      dsimp only at h
      obtain ⟨qs, i1, i2, -, -, i5⟩ := selectLoop files (st := ⟨1 / 100, s, []⟩) hs hl
      cases hm : st.mse.mapM (m := Option) fun q => q.2.map fun e => (q.1, e) with
      | none => rw [hm] at h; cases h
      | some l =>
        rw [hm] at h
        dsimp only at h
        split at h
        · cases h
        · rename_i pl hpl
          cases h
          refine ⟨l, st.dt, ?_, i5, List.mergeSort_perm _ _, ?_, rfl, ?_⟩
          · have f1 := mapM_forall₂ i1
            have f2 := mapM_option hm
            rw [i2, List.nil_append] at f2
            clear hm hpl i1 i2 i5 hl
            induction f1 generalizing l with
            | nil => simp at f2; subst f2; exact .nil
            | cons hab _ ih =>
              rw [List.map_cons, List.zip_cons_cons] at f2
              cases f2 with
              | cons h1 h2 =>
                refine .cons ?_ (ih _ h2)
                rename_i a b _ _ _ c _
                obtain ⟨x, y, z⟩ := b
                cases z with
                | none => cases h1
                | some z => cases h1; exact ⟨rfl, x, y, hab⟩
          · have := List.pairwise_mergeSort (le := fun a b : WaveFile × ℝ => decide (a.2 ≤ b.2)) (by simp; intros; linarith) (by simp; intros; exact le_total _ _) l
            simpa using this
          · have := mapM_forall₂ hpl
            refine this.imp fun c p hc => ?_
            cases hq : fft2spec c.1.data st.dt damp (amax * 440) with
            | error e => rw [hq] at hc; cases hc
            | ok q => rw [hq] at hc; cases hc; exact ⟨rfl, rfl⟩

theorem mapM_all {α β : Type} {f : α → Except PyErr β} {l : List α} (h : ∀ a ∈ l, ∃ b, f a = .ok b) : ∃ r, l.mapM f = .ok r := by
  induction l with
  | nil => exact ⟨_, rfl⟩
  | cons a l ih =>
    obtain ⟨b, hb⟩ := h a (by simp)
    obtain ⟨r, hr⟩ := ih fun c hc => h c (by simp [hc])
    exact ⟨b :: r, by rw [List.mapM_cons, hb, hr]; rfl⟩

theorem mapM_error {α β : Type} {f : α → Except PyErr β} {l : List α} {e : PyErr} (h : l.mapM f = .error e) : ∃ a ∈ l, ∃ e', f a = .error e' := by
  by_contra hc
  obtain ⟨r, hr⟩ := mapM_all (f := f) (l := l) fun a ha => by
    cases hf : f a with
    | error e' => exact absurd ⟨a, ha, e', hf⟩ hc
    | ok b => exact ⟨b, rfl⟩
  rw [hr] at h
  cases h

theorem fft2spec_step {ag : List ℝ} {dt damp a dt' damp' a' : ℝ} {r r'} {ag' : List ℝ} (h : fft2spec ag dt damp a = .ok r) (h' : fft2spec ag' dt' damp' a' = .ok r') :
    ∃ q, fft2spec ag dt' damp a = .ok q := by
  unfold fft2spec at h h' ⊢
  cases hs : scaledRecord ag a with
  | error e => rw [hs] at h; cases h
  | ok s =>
    cases hs' : scaledRecord ag' a' with
    | error e => rw [hs'] at h'; cases h'
    | ok s' =>
      rw [hs'] at h'
      cases hp : specPeriods dt' with
      | error e => rw [hp] at h'; cases h'
      | ok T => exact ⟨_, rfl⟩

/-- `select` succeeds if every file has an error -/
theorem select_exists {files : List WaveFile} {amax Tg damp lo hi : ℝ} (num : ℕ) {s} (hs : gb50011 amax Tg damp (1 / 100) = .ok s)
    (h : ∀ f ∈ files, ∃ d c e, judge amax Tg damp lo hi f = .ok (d, c, some e)) : ∃ R, select files amax Tg damp lo hi num = .ok (some R) := by
  obtain ⟨qs, hq⟩ := mapM_all (f := judge amax Tg damp lo hi) (l := files) fun f hf => by
    obtain ⟨d, c, e, hj⟩ := h f hf; exact ⟨_, hj⟩
  obtain ⟨st, hst⟩ := selectLoop_ok files (st := ⟨1 / 100, s, []⟩) hs hq
  obtain ⟨qs', i1, i2, -, -, i5⟩ := selectLoop files (st := ⟨1 / 100, s, []⟩) hs hst
  rw [hq] at i1
  cases i1
  obtain ⟨l, hl, hlf⟩ : ∃ l, st.mse.mapM (m := Option) (fun q => q.2.map fun e => (q.1, e)) = some l ∧ ∀ q ∈ l, q.1 ∈ files := by
    rw [i2, List.nil_append]
    have f1 := mapM_forall₂ hq
    clear hq i2 i5 hst
    induction f1 with
    | nil => exact ⟨[], rfl, by simp⟩
    | cons hab _ ih =>
      rename_i a b _ _ _
      obtain ⟨l, hl, hlf⟩ := ih fun f hf => h f (by simp [hf])
      obtain ⟨d, c, e, hj⟩ := h a (by simp)
      rw [hab] at hj
      cases hj
      refine ⟨(a, e) :: l, ?_, ?_⟩
      · rw [List.map_cons, List.zip_cons_cons, List.mapM_cons, hl]; rfl
      · intro q hq
        rcases List.mem_cons.mp hq with rfl | hq
        · simp
        · exact List.mem_cons_of_mem _ (hlf q hq)
  unfold select
  rw [hs]
  simp only [bind, Except.bind, pure, Except.pure]
  rw [hst]
  dsimp only
  rw [hl]
  dsimp only
  split
  · rename_i e he
    obtain ⟨c, hc, e', hce⟩ := mapM_error he
    have hc' : c.1 ∈ files := hlf c ((List.mergeSort_perm _ _).mem_iff.mp (List.mem_of_mem_take hc))
    obtain ⟨d, s', e, hj⟩ := h c.1 hc'
    obtain ⟨-, -, r, hr⟩ := judge_ok hj
    obtain ⟨g, hg⟩ : ∃ g, files.getLast? = some g := by
      cases hgl : files.getLast? with
      | none => rw [List.getLast?_eq_none_iff] at hgl; rw [hgl] at hc'; cases hc'
      | some g => exact ⟨g, rfl⟩
    obtain ⟨d', s'', e', hj'⟩ := h g (List.mem_of_getLast? hg)
    obtain ⟨k1, -, r', hr'⟩ := judge_ok hj'
    rw [i5 g hg] at k1
    cases k1
    obtain ⟨q, hq⟩ := fft2spec_step hr hr'
    rw [hq] at hce
    cases hce
  · exact ⟨_, rfl⟩

theorem select_single {f : WaveFile} {amax Tg damp lo hi : ℝ} (num : ℕ) {s} (hs : gb50011 amax Tg damp (1 / 100) = .ok s) {d c} {e : ℝ}
    (h : judge amax Tg damp lo hi f = .ok (d, c, some e)) : ∃ R, select [f] amax Tg damp lo hi num = .ok (some R) ∧ R.ranking = [(f, e)] := by
  obtain ⟨R, hR⟩ := select_exists (files := [f]) num hs (fun g hg => by rw [List.mem_singleton.mp hg]; exact ⟨d, c, e, h⟩)
  refine ⟨R, hR, ?_⟩
  obtain ⟨l, dt, h1, -, h3, -⟩ := select_ok hR
  cases h1 with
  | cons h1 h2 =>
    cases h2
    rename_i q
    obtain ⟨q1, q2⟩ := q
    obtain ⟨rfl, d', c', hj⟩ := h1
    rw [h] at hj
    cases hj
    exact List.perm_singleton.mp h3

/-- All files appear once, in the order of their errors; the champions are the first `num_wave` of them, and their spectra are plotted. -/
theorem C132_order {files : List WaveFile} {amax Tg damp lo hi : ℝ} {num : ℕ} {R : Selection} (h : select files amax Tg damp lo hi num = .ok (some R)) :
    (R.ranking.map Prod.fst).Perm files ∧ R.ranking.Pairwise (fun a b => a.2 ≤ b.2) ∧ R.champions = R.ranking.take num ∧
      R.plotted.map Prod.fst = R.champions.map Prod.fst := by
  obtain ⟨l, dt, h1, -, h3, h4, h5, h6⟩ := select_ok h
  refine ⟨?_, h4, h5, ?_⟩
  · have : l.map Prod.fst = files := by
      clear h h3
      induction h1 with
      | nil => rfl
      | cons a _ ih => rw [List.map_cons, ih, a.1]
    rw [← this]
    exact h3.map _
  · clear h5
    generalize R.champions = cs at h6
    generalize R.plotted = ps at h6
    induction h6 with
    | nil => rfl
    | cons a _ ih => rw [List.map_cons, List.map_cons, ih, a.1]

/-- No file that was left out has a smaller error than a champion. -/
theorem C132_best {files : List WaveFile} {amax Tg damp lo hi : ℝ} {num : ℕ} {R : Selection} (h : select files amax Tg damp lo hi num = .ok (some R)) :
    R.champions.length = min num files.length ∧ ∃ rest, R.ranking = R.champions ++ rest ∧ ∀ c ∈ R.champions, ∀ r ∈ rest, c.2 ≤ r.2 := by
  obtain ⟨h1, h2, h3, -⟩ := C132_order h
  refine ⟨?_, R.ranking.drop num, ?_, ?_⟩
  · rw [h3, List.length_take, ← h1.length_eq, List.length_map]
  · rw [h3, List.take_append_drop]
  · intro c hc r hr
    rw [← List.take_append_drop num R.ranking, List.pairwise_append] at h2
    exact h2.2.2 c (h3 ▸ hc) r hr

/-- The error of a file is the same if it is judged alone. -/
theorem C132_alone {files : List WaveFile} {amax Tg damp lo hi : ℝ} {num : ℕ} {R : Selection} (h : select files amax Tg damp lo hi num = .ok (some R))
    {q : WaveFile × ℝ} (hq : q ∈ R.ranking) : ∃ R', select [q.1] amax Tg damp lo hi num = .ok (some R') ∧ R'.ranking = [q] := by
  obtain ⟨l, dt, h1, -, h3, -⟩ := select_ok h
  have hs : ∃ s, gb50011 amax Tg damp (1 / 100) = .ok s := by
    cases hs : gb50011 amax Tg damp (1 / 100) with
    | error e => unfold select at h; rw [hs] at h; cases h
    | ok s => exact ⟨s, rfl⟩
  obtain ⟨s, hs⟩ := hs
  have hql := h3.mem_iff.mp hq
  have : ∃ d c, judge amax Tg damp lo hi q.1 = .ok (d, c, some q.2) := by
    clear h h3
    induction h1 with
    | nil => cases hql
    | cons a _ ih =>
      rcases List.mem_cons.mp hql with rfl | hm
      · rw [a.1]; exact a.2
      · exact ih hm
  obtain ⟨d, c, hj⟩ := this
  exact select_single num hs hj

/-! ### Errors -/

/-- sum of the squared distances between a spectrum with ordinates `S` at periods `T` and a curve, over the periods with the property `P` -/
noncomputable def Spec.squaredDistance (f : ℝ → ℝ) (T S : List ℝ) (P : ℝ → Prop) : ℝ := open Classical in
  (((T.zip S).filter fun q => decide (P q.1)).map fun q => (q.2 - f q.1) ^ 2).sum

/-- What `select` reports of one file: with the curve moved by `shift`, and periods with the property `P`, the squared distance between its
spectrum and the design spectrum. -/
def Spec.Judges (shift : ℝ → ℝ → ℝ) (P : ℝ → ℝ → ℝ → ℝ → Prop) : Prop := ∀ (f : WaveFile) (dt m amax Tg damp lo hi : ℝ) (num : ℕ), f.step = .ok dt → 0 < dt →
  IsLargest f.data m → 0 < m → 0.1 ≤ Tg → 0 < damp → damp < 1 → (∃ k : ℕ, lo ≤ k * dt ∧ k * dt ≤ hi ∧ k * dt < 6) →
  ∃ curve T S e R, DesignCurve amax Tg damp curve ∧ fft2spec f.data dt damp (440 * amax) = .ok (T, S.map some) ∧ S.length = T.length ∧
    select [f] amax Tg damp lo hi num = .ok (some R) ∧ R.ranking = [(f, e)] ∧ e = squaredDistance (fun t => curve (shift dt t)) T S (P dt lo hi)

/-- Spectrum and design spectrum are compared at the periods of the sensitive interval. -/
def C132_periods_claim : Prop := Spec.Judges (fun _ t => t) fun _ lo hi t => lo ≤ t ∧ t ≤ hi

theorem pySlice_range {α : Type} (F : ℕ → α) {n i j : ℕ} (hj : j ≤ n) : pySlice ((List.range n).map F) i j = (List.range' i (j - i)).map F := by
  unfold pySlice
  exact List.ext_getElem (by simp; omega) fun k h1 h2 => by simp

theorem squareErr_range (v g : ℕ → ℝ) (i k : ℕ) : squareErr ((List.range' i k).map fun a => some (v a)) ((List.range' i k).map g) =
    some (((List.range' i k).map fun a => (v a - g a) ^ 2).sum) := by
  unfold squareErr
  generalize List.range' i k = l
  have : ((l.map fun a => some (v a)).zip (l.map g)).mapM (m := Option) (fun q : Option ℝ × ℝ => q.1.map fun a => (a - q.2) ^ 2) =
      some (l.map fun a => (v a - g a) ^ 2) := by
    induction l with
    | nil => rfl
    | cons a l ih => rw [List.map_cons, List.map_cons, List.zip_cons_cons, List.mapM_cons, ih]; rfl
  rw [this]; rfl

theorem head_least {l : List ℕ} (h : l.Pairwise (· < ·)) {a : ℕ} (ha : l.head? = some a) : a ∈ l ∧ ∀ x ∈ l, a ≤ x := by
  cases l with
  | nil => cases ha
  | cons b l =>
    cases ha
    refine ⟨by simp, fun x hx => ?_⟩
    rcases List.mem_cons.mp hx with rfl | hx
    · exact le_rfl
    · exact (List.rel_of_pairwise_cons h hx).le

theorem last_largest {l : List ℕ} (h : l.Pairwise (· < ·)) {a : ℕ} (ha : l.getLast? = some a) : a ∈ l ∧ ∀ x ∈ l, x ≤ a := by
  obtain ⟨l', rfl⟩ : ∃ l', l = l' ++ [a] := by
    rw [List.getLast?_eq_some_iff] at ha
    exact ha
  refine ⟨by simp, fun x hx => ?_⟩
  rcases List.mem_append.mp hx with hx | hx
  · exact ((List.pairwise_append.mp h).2.2 x hx a (by simp)).le
  · rw [List.mem_singleton.mp hx]

/-- The indices from `i` below `j` are those with `P`. -/
theorem filter_range {n i j : ℕ} (hj : j ≤ n) {P : ℕ → Prop} [DecidablePred P] (h : ∀ k < n, P k ↔ i ≤ k ∧ k < j) :
    ((List.range n).filter fun k => decide (P k)).Perm (List.range' i (j - i)) := by
  rw [List.perm_ext_iff_of_nodup (List.nodup_range.filter _) List.nodup_range']
  intro k
  simp only [List.mem_filter, List.mem_range, decide_eq_true_eq, List.mem_range'_1]
  constructor
  · rintro ⟨h1, h2⟩
    have := (h k h1).mp h2
    omega
  · intro h1
    exact ⟨by omega, (h k (by omega)).mpr (by omega)⟩

/-- Proved with the design spectrum taken at the period before (`T - dt`), and for the periods after the first multiple of the step in the sensitive
interval up to the last one.  Missing: the claim itself, which is false. -/
theorem C132_shifted_partial : Spec.Judges (fun dt t => t - dt) fun dt lo hi t => lo ≤ t - dt ∧ t ≤ hi ∧ t < 6 := by
  intro f dt m amax Tg damp lo hi num hf hd hm h0 hT hx h1 hk
  obtain ⟨curve, hc, -, hcode⟩ := C79_curve amax hT hx.le
  obtain ⟨s, n, hs, hs', hn⟩ := hcode dt hd
  obtain ⟨s0, n0, hs0, -, -⟩ := hcode (1 / 100) (by norm_num)
  obtain ⟨T, Sa, e1, hl, hlen, hord⟩ := C129_shifted_partial f.data m dt damp (amax * 440) hm h0 hd hx h1
  have hTn : T.length = n := by
    have : ∀ i : ℕ, i < T.length ↔ i < n := fun i => by
      rw [hlen, hn]; constructor <;> intro h <;> linarith
    have a := this n
    have b := this T.length
    omega
  -- the ordinates
  have hv : ∀ i : ℕ, ∃ v : ℝ, i < n → Sa[i]? = some (some v) := fun i => by
    by_cases hi : i < n
    · obtain ⟨-, v, hv, -⟩ := hord i (by omega)
      exact ⟨v, fun _ => hv⟩
    · exact ⟨0, fun h => absurd h hi⟩
  choose v hv using hv
  have hSa : Sa = (List.range n).map fun i => some (v i) := by
    refine List.ext_getElem? fun i => ?_
    by_cases hi : i < n
    · rw [hv i hi, List.getElem?_map, List.getElem?_range hi]; rfl
    · rw [List.getElem?_eq_none (by omega), List.getElem?_eq_none (by simpa using hi)]
  have hTT : T = (List.range n).map fun i : ℕ => ((i : ℝ) + 1) * dt := by
    refine List.ext_getElem (by simp [hTn]) fun i h1 h2 => ?_
    rw [(hord i h1).1]; simp
  -- the domain
  classical
  set domain := (List.range s.length).filter fun i => decide (lo ≤ (s.getD i (0, 0)).1 ∧ (s.getD i (0, 0)).1 ≤ hi) with hdom
  have hsl : s.length = n := by rw [hs']; simp
  have hsg : ∀ i < n, (s.getD i (0, 0)).1 = i * dt := fun i hi => by
    rw [hs', List.getD_eq_getElem?_getD, List.getElem?_map, List.getElem?_range hi]; rfl
  have hmem : ∀ i, i ∈ domain ↔ i < n ∧ lo ≤ i * dt ∧ i * dt ≤ hi := fun i => by
    rw [hdom, List.mem_filter, List.mem_range, hsl, decide_eq_true_eq]
    refine and_congr_right fun hi => ?_
    rw [hsg i hi]
  have hpw : domain.Pairwise (· < ·) := List.pairwise_lt_range.filter _
  obtain ⟨k, k1, k2, k3⟩ := hk
  have hkd : k ∈ domain := (hmem k).mpr ⟨(hn k).mpr k3, k1, k2⟩
  obtain ⟨i, hhd⟩ : ∃ i, domain.head? = some i := by
    cases h : domain with
    | nil => rw [h] at hkd; cases hkd
    | cons a l => exact ⟨a, rfl⟩
  obtain ⟨j, hj⟩ : ∃ j, domain.getLast? = some j := by
    cases h : domain.getLast? with
    | none => rw [List.getLast?_eq_none_iff] at h; rw [h] at hkd; cases hkd
    | some a => exact ⟨a, rfl⟩
  obtain ⟨i1, i2⟩ := head_least hpw hhd
  obtain ⟨j1, j2⟩ := last_largest hpw hj
  obtain ⟨in', ilo, ihi⟩ := (hmem i).mp i1
  obtain ⟨jn, jlo, jhi⟩ := (hmem j).mp j1
  have hjudge : judge amax Tg damp lo hi f = .ok (dt, s, some (((List.range' i (j - i)).map fun a => (v a - curve (a * dt)) ^ 2).sum)) := by
    unfold judge
    simp only [hf, hs, e1, bind, Except.bind, pure, Except.pure]
    rw [← hdom, hhd, hj]
    dsimp only
    rw [hSa, pySlice_range _ jn.le, hs', List.map_map, pySlice_range _ jn.le]
    have := squareErr_range v (fun a => curve (a * dt)) i (j - i)
    rw [← this]
    rfl
  obtain ⟨R, hR, hR'⟩ := select_single num hs0 hjudge
  refine ⟨curve, T, (List.range n).map v, _, R, hc, ?_, by simp [hTn], hR, hR', ?_⟩
  · rw [mul_comm, e1, hSa, List.map_map]; rfl
  · unfold Spec.squaredDistance
    rw [hTT, List.zip_map', List.filter_map, List.map_map]
    have hp := filter_range (P := fun k : ℕ => lo ≤ ((k : ℝ) + 1) * dt - dt ∧ ((k : ℝ) + 1) * dt ≤ hi ∧ ((k : ℝ) + 1) * dt < 6) jn.le (i := i) (fun k hk => ?_)
    · rw [← (hp.map _).sum_eq]
      refine congrArg List.sum (congrArg₂ List.map (funext fun a => ?_) ?_)
      · simp only [Function.comp]; congr 3; ring
      · refine List.filter_congr fun a _ => ?_
        simp only [Function.comp]
        exact decide_eq_decide.mpr Iff.rfl
    · constructor
      · rintro ⟨a1, a2, a3⟩
        have b1 : k ∈ domain := (hmem k).mpr ⟨hk, by linarith, by linarith⟩
        have b2 : k + 1 ∈ domain := (hmem (k + 1)).mpr ⟨(hn _).mpr (by push_cast; linarith), by push_cast; linarith, by push_cast; linarith⟩
        exact ⟨i2 k b1, j2 _ b2⟩
      · rintro ⟨a1, a2⟩
        have c1 : (i : ℝ) * dt ≤ k * dt := mul_le_mul_of_nonneg_right (by exact_mod_cast a1) hd.le
        have c2 : ((k : ℝ) + 1) * dt ≤ j * dt := mul_le_mul_of_nonneg_right (by exact_mod_cast a2) hd.le
        have c3 := (hn j).mp jn
        exact ⟨by linarith, by linarith, by linarith⟩

/-- With a step of 6 s the period 6 s in the interval from 0 to 6 s is not looked at: all records have error zero. -/
theorem C132_periods_false : ¬ C132_periods_claim := by
  intro h
  have key : ∀ (data : List ℝ) (m : ℝ), IsLargest data m → 0 < m → ∃ curve x, DesignCurve (5 / 22) 1 (1 / 2) curve ∧ fft2spec data 6 (1 / 2) 100 = .ok ([6], [some x]) ∧ x = curve 6 := by
    intro data m hm h0
    obtain ⟨c, T, S, e, R, hc, e1, hl, e2, e3, e4⟩ := h ⟨"a 6.txt", .ok 6, data⟩ 6 m (5 / 22) 1 (1 / 2) 0 6 1 rfl (by norm_num) hm h0 (by norm_num) (by norm_num) (by norm_num) ⟨0, by norm_num⟩
    obtain ⟨c', T', S', e', R', -, e1', hl', e2', e3', e4'⟩ := C132_shifted_partial ⟨"a 6.txt", .ok 6, data⟩ 6 m (5 / 22) 1 (1 / 2) 0 6 1 rfl (by norm_num) hm h0 (by norm_num) (by norm_num) (by norm_num) ⟨0, by norm_num⟩
    rw [e2] at e2'
    cases e2'
    rw [e3] at e3'
    cases e3'
    rw [show (440 : ℝ) * (5 / 22) = 100 by norm_num] at e1 e1'
    rw [e1] at e1'
    have hT : T = [6] := by
      have := fft2spec_ok hm h0.ne' (show (0 : ℝ) < 6 by norm_num) (1 / 2) 100
      rw [this] at e1
      simp only [Except.ok.injEq, Prod.mk.injEq] at e1
      rw [← e1.1]; norm_num
    have hT' : T' = [6] := by
      simp only [Except.ok.injEq, Prod.mk.injEq] at e1'
      rw [← e1'.1, hT]
    subst hT hT'
    obtain ⟨x, rfl⟩ : ∃ x, S = [x] := List.length_eq_one_iff.mp (by simpa using hl)
    refine ⟨c, x, hc, by simpa using e1, ?_⟩
    rw [e4'] at e4
    obtain ⟨x', rfl⟩ : ∃ x', S' = [x'] := List.length_eq_one_iff.mp (by simpa using hl')
    simp [Spec.squaredDistance] at e4
    have := pow_eq_zero_iff (two_ne_zero) |>.mp e4.symm
    linarith
  obtain ⟨c, x, hc, e1, hx⟩ := key alternating 1 alternating_largest one_pos
  have hm' : Spec.IsLargest (List.replicate 4096 0 ++ alternating) 1 := by
    refine ⟨List.mem_append_right _ alternating_largest.1, fun x hx => ?_⟩
    rcases List.mem_append.mp hx with hx | hx
    · rw [(List.mem_replicate.mp hx).2]; exact zero_le_one
    · exact alternating_largest.2 x hx
  obtain ⟨c', x', hc', e1', hx'⟩ := key _ 1 hm' one_pos
  apply quiet_ne
  rw [e1, e1', hx, hx', C79_unique (by norm_num) hc hc' 6 (by norm_num)]

/-! ### Plots -/

/-- The spectra plotted for the champions are those of the records with their own steps. -/
def C132_plot_claim : Prop := ∀ (files : List WaveFile) (amax Tg damp lo hi : ℝ) (num : ℕ) (R : Selection), select files amax Tg damp lo hi num = .ok (some R) →
  ∀ p ∈ R.plotted, ∃ dt, p.1.step = .ok dt ∧ fft2spec p.1.data dt damp (440 * amax) = .ok p.2

theorem plotted_last {files : List WaveFile} {amax Tg damp lo hi : ℝ} {num : ℕ} {R : Selection} (h : select files amax Tg damp lo hi num = .ok (some R)) :
    ∃ dt, (∀ f, files.getLast? = some f → f.step = .ok dt) ∧ ∀ p ∈ R.plotted, p.1 ∈ files ∧ fft2spec p.1.data dt damp (440 * amax) = .ok p.2 := by
  obtain ⟨l, dt, -, h2, -, -, -, h6⟩ := select_ok h
  obtain ⟨o1, -, o3, o4⟩ := C132_order h
  refine ⟨dt, h2, fun p hp => ⟨?_, ?_⟩⟩
  · have : p.1 ∈ R.plotted.map Prod.fst := List.mem_map_of_mem hp
    rw [o4, o3] at this
    obtain ⟨q, hq, e⟩ := List.mem_map.mp this
    rw [← e]
    exact o1.mem_iff.mp (List.mem_map_of_mem (List.mem_of_mem_take hq))
  · rw [mul_comm]
    clear o1 o3 o4
    generalize R.champions = cs at h6
    generalize R.plotted = ps at h6 hp
    induction h6 with
    | nil => cases hp
    | cons a _ ih =>
      rcases List.mem_cons.mp hp with rfl | hp
      · rw [a.1]; exact a.2
      · exact ih hp

/-- Proved for files with the same step.  Missing: different steps, where it is false. -/
theorem C132_plot_partial {files : List WaveFile} {amax Tg damp lo hi : ℝ} {num : ℕ} {R : Selection} {dt : ℝ} (hs : ∀ f ∈ files, f.step = .ok dt)
    (h : select files amax Tg damp lo hi num = .ok (some R)) : ∀ p ∈ R.plotted, p.1.step = .ok dt ∧ fft2spec p.1.data dt damp (440 * amax) = .ok p.2 := by
  obtain ⟨dt', h1, h2⟩ := plotted_last h
  intro p hp
  obtain ⟨h3, h4⟩ := h2 p hp
  refine ⟨hs _ h3, ?_⟩
  obtain ⟨g, hg⟩ : ∃ g, files.getLast? = some g := by
    cases hgl : files.getLast? with
    | none => rw [List.getLast?_eq_none_iff] at hgl; rw [hgl] at h3; cases h3
    | some g => exact ⟨g, rfl⟩
  have e := h1 g hg
  rw [hs g (List.mem_of_getLast? hg)] at e
  cases e
  exact h4

/-- Two records with steps 6 s and 3 s: both are plotted with step 3 s. -/
theorem C132_plot_false : ¬ C132_plot_claim := by
  intro h
  have hm : IsLargest [1, 0] 1 := ⟨by simp, fun x hx => by simp at hx; rcases hx with rfl | rfl <;> norm_num⟩
  have hj : ∀ (nm : String) (dt : ℝ), 0 < dt → ∃ d c e, judge 1 1 (1 / 2) 0 6 ⟨nm, .ok dt, [1, 0]⟩ = .ok (d, c, some e) := by
    intro nm dt hd
    obtain ⟨-, -, -, e, R, -, -, -, hR, hR', -⟩ := C132_shifted_partial ⟨nm, .ok dt, [1, 0]⟩ dt 1 1 1 (1 / 2) 0 6 1 rfl hd hm one_pos (by norm_num) (by norm_num) (by norm_num) ⟨0, by norm_num⟩
    obtain ⟨l, -, h1, -⟩ := select_ok hR
    cases h1 with
    | cons h1 _ => obtain ⟨-, d, c, hj⟩ := h1; exact ⟨d, c, _, hj⟩
  obtain ⟨_, _, _, hcode⟩ := C79_curve 1 (Tg := 1) (xi := 1 / 2) (by norm_num) (by norm_num)
  obtain ⟨s0, -, hs0, -, -⟩ := hcode (1 / 100) (by norm_num)
  obtain ⟨R, hR⟩ := select_exists (files := [⟨"a 6.txt", .ok 6, [1, 0]⟩, ⟨"b 3.txt", .ok 3, [1, 0]⟩]) 2 hs0 (fun f hf => by
    rcases List.mem_cons.mp hf with rfl | hf
    · exact hj _ 6 (by norm_num)
    · rw [List.mem_singleton.mp hf]; exact hj _ 3 (by norm_num))
  obtain ⟨o1, -, o3, o4⟩ := C132_order hR
  obtain ⟨dt, l1, l2⟩ := plotted_last hR
  have e3 := l1 _ rfl
  cases e3
  have hmem : (⟨"a 6.txt", .ok 6, [1, 0]⟩ : WaveFile) ∈ R.plotted.map Prod.fst := by
    rw [o4, o3, List.take_of_length_le (by have := o1.length_eq; simp at this; omega)]
    exact o1.mem_iff.mpr (by simp)
  obtain ⟨p, hp, hp'⟩ := List.mem_map.mp hmem
  obtain ⟨dt, k1, k2⟩ := h _ _ _ _ _ _ _ _ hR p hp
  have k3 := (l2 p hp).2
  rw [hp'] at k1 k2 k3
  cases k1
  rw [fft2spec_ok hm one_ne_zero (by norm_num)] at k2 k3
  simp only [Except.ok.injEq] at k2 k3
  have := congrArg (fun q => q.1.length) (k2.trans k3.symm)
  norm_num at this

-- files to which the theorems apply
example : ∃ R, select [⟨"a 0.02.txt", .ok 0.02, [0.1, -0.3, 0.2]⟩] 0.16 0.55 0.05 0.5 1.4 7 = .ok (some R) := by
  have hm : IsLargest [0.1, -0.3, 0.2] 0.2 := ⟨by simp, fun x hx => by simp at hx; rcases hx with rfl | rfl | rfl <;> norm_num⟩
  obtain ⟨-, -, -, -, R, -, -, -, hR, -⟩ := C132_shifted_partial ⟨"a 0.02.txt", .ok 0.02, [0.1, -0.3, 0.2]⟩ 0.02 0.2 0.16 0.55 0.05 0.5 1.4 7 rfl
    (by norm_num) hm (by norm_num) (by norm_num) (by norm_num) (by norm_num) ⟨50, by norm_num⟩
  exact ⟨R, hR⟩

end Hyperstatic
