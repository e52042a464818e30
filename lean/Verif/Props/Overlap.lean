import Verif.Lemmas.Overlap
import Verif.Model.Office
import Verif.Props.Results

/-
C146: calls of different processes that overlap in time.  C126: the moments at which a process can die.
-/

namespace Hyperstatic
open Spec

variable {ι : Type} [DecidableEq ι]

/-- The property as one would like it: calls that overlap have the answers of the same calls made one after the other in some order. -/
def C146_claim : Prop := ∀ (ι : Type) [DecidableEq ι] (env : Env) (s : Site ι) (sched : List ι), (∀ i, AtRest (s.procs i)) →
  (∀ i, Finished ((s.run env sched).procs i)) →
    ∃ order, ∀ i, ((oneByOne env s order).procs i).answers = ((s.run env sched).procs i).answers

omit [DecidableEq ι] in
theorem follows_start (s : Site ι) (i : ι) (hrest : ∀ j, AtRest (s.procs j))
    (hfree : ∀ j, j ≠ i → (s.procs j).workpath = (s.procs i).workpath →
      ∀ r ∈ (s.procs i).todo, ∀ r' ∈ (s.procs j).todo, ∀ f ∈ concerns r, f ∉ writes r') :
    Follows (fun f => ∀ j, j ≠ i → (s.procs j).workpath = (s.procs i).workpath → ∀ r' ∈ (s.procs j).todo, f ∉ writes r') s i
      (s.procs i, s.disk (s.procs i).workpath) := by
  refine ⟨rfl, fun _ _ => rfl, ⟨fun r hr f hf j hj hw r' hr' => hfree j hj hw r hr r' hr' f hf, fun A hA => ?_⟩, fun j hj hw =>
    ⟨fun r' hr' f hf hV => hV j hj hw r' hr' hf, fun A hA => ?_⟩⟩
  · rw [(hrest i).1] at hA; cases hA
  · rw [(hrest j).1] at hA; cases hA

/-- A process whose requests are about files that no other process of the same folder writes: in whatever order the file operations of
all processes come, and wherever other processes stop, every answer it has got so far is the one it would get if it were alone; after
enough steps of its own it has got all answers, and every file no other process writes is as if it had been alone.  (Missing: processes
that write files another one uses, `C146_false`; see `C146_never_wrong` for these.) -/
theorem C146_undisturbed_partial (env : Env) (s : Site ι) (i : ι) (hrest : ∀ j, AtRest (s.procs j))
    (hfree : ∀ j, j ≠ i → (s.procs j).workpath = (s.procs i).workpath →
      ∀ r ∈ (s.procs i).todo, ∀ r' ∈ (s.procs j).todo, ∀ f ∈ concerns r, f ∉ writes r') :
    (∀ sched, ((s.run env sched).procs i).answers <+: answered env (seen s i) (s.procs i).todo) ∧
    ∃ n, ∀ sched, n ≤ List.count i sched →
      Finished ((s.run env sched).procs i) ∧
      ((s.run env sched).procs i).answers = answered env (seen s i) (s.procs i).todo ∧
      ((s.run env sched).procs i).api = (after env (seen s i) (s.procs i).todo).api ∧
      ∀ f, (∀ j, j ≠ i → (s.procs j).workpath = (s.procs i).workpath → ∀ r' ∈ (s.procs j).todo, f ∉ writes r') →
        (seen (s.run env sched) i).fs.get? f = (after env (seen s i) (s.procs i).todo).fs.get? f := by
  have h0 := follows_start s i hrest hfree
  obtain ⟨n, hn⟩ := solo_all env (s.procs i).todo (s.procs i) (s.disk (s.procs i).workpath) (hrest i).1 rfl
  rw [(hrest i).2, List.nil_append] at hn
  have hfin : Finished (solo env (s.procs i, s.disk (s.procs i).workpath) n).1 := by
    rw [hn]; exact ⟨(hrest i).1, rfl⟩
  have hlate : ∀ m, n ≤ m → solo env (s.procs i, s.disk (s.procs i).workpath) m =
      solo env (s.procs i, s.disk (s.procs i).workpath) n := by
    intro m hm
    obtain ⟨k, rfl⟩ := Nat.exists_eq_add_of_le hm
    rw [solo_add, solo_finished env _ hfin]
  refine ⟨fun sched => ?_, n, fun sched hs => ?_⟩
  · have h := (h0.run (env := env) sched).same
    rw [h]
    have h2 := solo_answers env (s.procs i, s.disk (s.procs i).workpath) (List.count i sched) n
    rw [Nat.add_comm, hlate _ (Nat.le_add_right _ _), hn] at h2
    exact h2
  · have h := h0.run (env := env) sched
    have he := hlate _ hs
    have hp : (s.run env sched).procs i = (solo env (s.procs i, s.disk (s.procs i).workpath) n).1 := by rw [h.same, he]
    refine ⟨by rw [hp]; exact hfin, by rw [hp, hn]; rfl, by rw [hp, hn]; rfl, fun f hf => ?_⟩
    have := h.agree f hf
    rw [he, hn] at this
    exact this

/-- Processes with work paths of their own, whatever they do: each gets the answers it would get alone. -/
theorem C146_own_folder (env : Env) (s : Site ι) (i : ι) (hrest : ∀ j, AtRest (s.procs j))
    (hown : ∀ j, j ≠ i → (s.procs j).workpath ≠ (s.procs i).workpath) :
    (∀ sched, ((s.run env sched).procs i).answers <+: answered env (seen s i) (s.procs i).todo) ∧
    ∃ n, ∀ sched, n ≤ List.count i sched →
      ((s.run env sched).procs i).answers = answered env (seen s i) (s.procs i).todo ∧
      ∀ f, (seen (s.run env sched) i).fs.get? f = (after env (seen s i) (s.procs i).todo).fs.get? f := by
  obtain ⟨h1, n, h2⟩ := C146_undisturbed_partial env s i hrest (fun j hj hw => absurd hw (hown j hj))
  exact ⟨h1, n, fun sched hs => ⟨(h2 sched hs).2.1, fun f => (h2 sched hs).2.2.2 f (fun j hj hw => absurd hw (hown j hj))⟩⟩

theorem disp_inj {c c' : String} (h : c ++ ".d.npy" = c' ++ ".d.npy") : c = c' := String.append_right_inj' h

theorem disp_ne_stiff' (c : String) : c ++ ".d.npy" ≠ "0.k.npy" := by
  have := String.append_suffix_ne (a := c) (b := "0") (s := ".d.npy") (t := ".k.npy") (by decide) (by decide)
  intro h; exact this (h.trans (by decide))

theorem disp_ne_k (c : String) : c ++ ".d.npy" ≠ "0.k" := by
  intro h
  have h2 := congrArg (fun s => s.toList.length) h
  simp only [String.toList_append, List.length_append] at h2
  have : (".d.npy" : String).toList.length = 6 := by decide
  have h3 : ("0.k" : String).toList.length = 3 := by decide
  omega

theorem writes_case (r : Request) (c : String) (hr : caseOf r = some c) : ∀ f ∈ writes r, f = "0.k.npy" ∨ f = c ++ ".d.npy" := by
  intro f hf
  cases r with
  | call k =>
    cases k with
    | solveStatic c' =>
      cases hr
      simpa [writes] using hf
    | _ => cases hr
  | _ => cases hf

theorem concerns_case (r : Request) (c : String) (hr : caseOf r = some c) :
    ∀ f ∈ concerns r, f = ".asb" ∨ f = "0.k" ∨ f = c ++ ".d.npy" := by
  intro f hf
  cases r with
  | call k =>
    cases k with
    | solveStatic c' =>
      cases hr
      simpa [concerns] using hf
    | _ => cases hr
  | displacement n c' =>
    cases hr
    have : f = ".asb" ∨ f = c ++ ".d.npy" := by simpa [concerns] using hf
    tauto
  | table c' =>
    cases hr
    have : f = ".asb" ∨ f = c ++ ".d.npy" := by simpa [concerns] using hf
    tauto
  | deformation b l c' =>
    cases hr
    have : f = ".asb" ∨ f = c ++ ".d.npy" := by simpa [concerns] using hf
    tauto

/-- The cases of a model that has been assembled, shared out among processes that work in one folder at the same time: each solves and
reads cases of its own, and gets the answers it would get alone. -/
theorem C146_parallel_cases (env : Env) (s : Site ι) (hrest : ∀ j, AtRest (s.procs j))
    (hkind : ∀ j, ∀ r ∈ (s.procs j).todo, ∃ c, caseOf r = some c)
    (hcases : ∀ i j, i ≠ j → ∀ r ∈ (s.procs i).todo, ∀ r' ∈ (s.procs j).todo, caseOf r ≠ caseOf r') (i : ι) :
    (∀ sched, ((s.run env sched).procs i).answers <+: answered env (seen s i) (s.procs i).todo) ∧
    ∃ n, ∀ sched, n ≤ List.count i sched →
      ((s.run env sched).procs i).answers = answered env (seen s i) (s.procs i).todo := by
  have hw := writes_case
  have hc := concerns_case
  obtain ⟨h1, n, h2⟩ := C146_undisturbed_partial env s i hrest (by
    intro j hj _ r hr r' hr' f hf hf'
    obtain ⟨c, hcr⟩ := hkind i r hr
    obtain ⟨c', hcr'⟩ := hkind j r' hr'
    have hne : c ≠ c' := by
      intro e; subst e
      exact hcases i j hj.symm r hr r' hr' (hcr.trans hcr'.symm)
    rcases hc r c hcr f hf with rfl | rfl | rfl <;> rcases hw r' c' hcr' _ hf' with h | h
    · exact absurd h (by decide)
    · exact disp_ne_asb c' h.symm
    · exact absurd h (by decide)
    · exact disp_ne_k c' h.symm
    · exact disp_ne_stiff' c h
    · exact hne (disp_inj h))
  exact ⟨h1, n, fun sched hs => (h2 sched hs).2.1⟩

/-! ### several processes with the same model -/

/-- what the files of a folder hold if everybody in it has the model of `api` -/
def Fit (env : Env) (api : Api) (n : String) (y : Option (File Api)) : Prop :=
  (n = ".asb" → y = none ∨ y = some .broken ∨ ∃ x, api.assembly = .ok x ∧ y = some (.asb x)) ∧
  (∀ c, n = c ++ ".d.npy" → y = none ∨ y = some .broken ∨
    ∃ x K d, api.assembly = .ok x ∧ x.assembleK env = .ok K ∧ solveCase env x c K = .ok d ∧ y = some (.disp d)) ∧
  (n = "0.k" → y = none)

/-- a computation that keeps files fit, and has a good result as long as they are -/
def Act.Sound {α : Type} (P : String → Option (File Api) → Prop) (Q : α → Prop) : Act α → Prop
  | .done a => Q a
  | .read n k => ∀ y, P n y → (k y).Sound P Q
  | .empty n next => P n (some .broken) ∧ next.Sound P Q
  | .fill n content next => P n (some content) ∧ next.Sound P Q

theorem asbOf_fit {env : Env} {api : Api} {y : Option (File Api)} (h : Fit env api Api.filename y) {x : Assembly} (hx : asbOf y = .ok x) :
    api.assembly = .ok x := by
  rcases h.1 rfl with rfl | rfl | ⟨x', h1, rfl⟩
  · cases hx
  · cases hx
  · rw [h1]; exact hx

theorem dispOf_fit {env : Env} {api : Api} {c : String} {y : Option (File Api)} (h : Fit env api (c ++ ".d.npy") y) {d : List ℝ}
    (hd : dispOf y = .ok d) : ∃ x K, api.assembly = .ok x ∧ x.assembleK env = .ok K ∧ solveCase env x c K = .ok d := by
  rcases h.2.1 c rfl with rfl | rfl | ⟨x', K, d', h1, h2, h3, rfl⟩
  · cases hd
  · cases hd
  · exact ⟨x', K, h1, h2, by rw [h3]; exact hd⟩

theorem fit_asb {env : Env} {api : Api} {y : File Api} (h : y = .broken ∨ ∃ x, api.assembly = .ok x ∧ y = .asb x) :
    Fit env api ".asb" (some y) := by
  refine ⟨fun _ => ?_, fun c hc => absurd hc.symm (disp_ne_asb c), fun h => absurd h (by decide)⟩
  rcases h with rfl | ⟨x, h1, rfl⟩
  · exact Or.inr (Or.inl rfl)
  · exact Or.inr (Or.inr ⟨x, h1, rfl⟩)

theorem fit_disp {env : Env} {api : Api} {c : String} {y : File Api} (h : y = .broken ∨ ∃ x K d, api.assembly = .ok x ∧
    x.assembleK env = .ok K ∧ solveCase env x c K = .ok d ∧ y = .disp d) : Fit env api (c ++ ".d.npy") (some y) := by
  refine ⟨fun h => absurd h (disp_ne_asb c), fun c' hc => ?_, fun h => absurd h (disp_ne_k c)⟩
  have := disp_inj hc
  subst this
  rcases h with rfl | ⟨x, K, d, h1, h2, h3, rfl⟩
  · exact Or.inr (Or.inl rfl)
  · exact Or.inr (Or.inr ⟨x, K, d, h1, h2, h3, rfl⟩)

theorem fit_stiff {env : Env} {api : Api} {y : Option (File Api)} : Fit env api "0.k.npy" y :=
  ⟨fun h => absurd h (by decide), fun c hc => absurd hc.symm (disp_ne_stiff' c), fun h => absurd h (by decide)⟩

/-- the folder after assembling alone -/
theorem alone_asb (env : Env) {api : Api} {x : Assembly} (h : api.assembly = .ok x) :
    after env ⟨api, []⟩ [.call .assemble] = ⟨api, [(".asb", .asb x)]⟩ := by
  simp only [after, respond, World.step, h]
  rfl

theorem alone_solve (env : Env) {api : Api} {x : Assembly} {K : Coo} {d : List ℝ} {c : String}
    (hK : x.assembleK env = .ok K) (hd : solveCase env x c K = .ok d) :
    respond env ⟨api, [(".asb", .asb x)]⟩ (.call (.solveStatic c)) =
      (⟨api, (Dict.set (Dict.set [(".asb", .asb x)] "0.k.npy" (.stiff K)) (c ++ ".d.npy") (.disp d) : Dict (File Api))⟩, .flag true) := by
  have h1 : openAssembly ([(".asb", .asb x)] : Dict (File Api)) Api.filename = .ok x := rfl
  have h2 : ¬ (Dict.contains ([(".asb", .asb x)] : Dict (File Api)) "0.k" = true) := by
    simp [Dict.contains, Dict.get?]
  simp only [respond, World.step, solveLinear, h1, if_neg h2, hK, hd, disp_eq]
  rfl

theorem alone_files (env : Env) {api : Api} {x : Assembly} {K : Coo} {d : List ℝ} {c : String} (h : api.assembly = .ok x)
    (hK : x.assembleK env = .ok K) (hd : solveCase env x c K = .ok d) :
    ∃ fs, after env ⟨api, []⟩ [.call .assemble, .call (.solveStatic c)] = ⟨api, fs⟩ ∧ openAssembly fs Api.filename = .ok x ∧
      loadDisp fs c = .ok d := by
  have e : after env ⟨api, []⟩ [.call .assemble, .call (.solveStatic c)] =
      (respond env (after env ⟨api, []⟩ [.call .assemble]) (.call (.solveStatic c))).1 := rfl
  rw [alone_asb env h, alone_solve env hK hd] at e
  refine ⟨_, e, ?_, ?_⟩
  · rw [openAssembly_eq, show Api.filename = ".asb" from rfl, Dict.get?_set_ne _ _ (disp_ne_asb c), Dict.get?_set_ne _ _ (by decide)]
    rfl
  · rw [loadDisp_eq, Dict.get?_set_same]
    rfl

/-- the answer is a failure or the proper one, and the object is unchanged -/
def Decent (env : Env) (api : Api) (r : Request) (a : Api × Answer) : Prop := a.1 = api ∧ (failure a.2 ∨ a.2 = proper env api r)

theorem sound_solve (env : Env) (api : Api) (c : String) :
    (solveAct env api c).Sound (Fit env api) (Decent env api (.call (.solveStatic c))) := by
  intro f hf
  simp only
  split
  · exact ⟨rfl, Or.inl rfl⟩
  · rename_i x hx
    have hx' := asbOf_fit hf hx
    intro g hg
    simp only
    split
    · exact ⟨rfl, Or.inl rfl⟩
    · split
      · exact ⟨rfl, Or.inl rfl⟩
      · rename_i K hK
        refine ⟨fit_stiff, fit_stiff, ?_⟩
        split
        · exact ⟨rfl, Or.inl rfl⟩
        · rename_i d hd
          refine ⟨fit_disp (Or.inl rfl), fit_disp (Or.inr ⟨x, K, d, hx', hK, hd, rfl⟩), rfl, Or.inr ?_⟩
          simp only [proper]
          rw [alone_asb env hx', alone_solve env hK hd]

theorem sound_assemble (env : Env) (api : Api) : (actOf env api (.call .assemble)).Sound (Fit env api) (Decent env api (.call .assemble)) := by
  simp only [actOf]
  split
  · rename_i x hx
    refine ⟨fit_asb (Or.inl rfl), fit_asb (Or.inr ⟨x, hx, rfl⟩), rfl, Or.inr ?_⟩
    simp only [proper]
    rw [alone_asb env hx]
    simp only [respond, World.step, hx]
  · exact ⟨rfl, Or.inl rfl⟩

theorem bind_ok_of {α β : Type} {e : Except PyErr α} {k : α → Except PyErr β} {v : β} (h : (e >>= k) = .ok v) : ∃ a, e = .ok a ∧ k a = .ok v := by
  cases e with
  | error e => cases h
  | ok a => exact ⟨a, rfl, h⟩

theorem eq_ok_of_tryOption {α : Type} {e : Except PyErr α} {v : α} (h : tryOption e = some v) : e = .ok v := by
  cases e with
  | error e => cases h
  | ok a => cases h; rfl

theorem sound_displacement (env : Env) (api : Api) (n c : String) :
    (actOf env api (.displacement n c)).Sound (Fit env api) (Decent env api (.displacement n c)) := by
  intro f hf
  simp only
  split
  · exact ⟨rfl, Or.inl rfl⟩
  · rename_i x hx
    have hx' := asbOf_fit hf hx
    intro g hg
    refine ⟨rfl, ?_⟩
    simp only
    cases hd : dispOf g with
    | error e => exact Or.inl rfl
    | ok d =>
      right
      obtain ⟨x', K, h1, h2, h3⟩ := dispOf_fit hg hd
      rw [hx'] at h1
      cases h1
      obtain ⟨fs, e1, e2, e3⟩ := alone_files env hx' h2 h3
      simp only [proper]
      rw [e1]
      simp only [respond, World.resultGetNodalDisplacement, resolveNodalDisplacement, e2, e3]
      rfl

theorem sound_deformation (env : Env) (api : Api) (b : String) (l : ℝ) (c : String) :
    (actOf env api (.deformation b l c)).Sound (Fit env api) (Decent env api (.deformation b l c)) := by
  intro f hf
  simp only
  split
  · exact ⟨rfl, Or.inl rfl⟩
  · rename_i x hx
    have hx' := asbOf_fit hf hx
    intro g hg
    refine ⟨rfl, ?_⟩
    simp only
    cases hd : dispOf g with
    | error e => exact Or.inl rfl
    | ok d =>
      right
      obtain ⟨x', K, h1, h2, h3⟩ := dispOf_fit hg hd
      rw [hx'] at h1
      cases h1
      obtain ⟨fs, e1, e2, e3⟩ := alone_files env hx' h2 h3
      simp only [proper]
      rw [e1]
      simp only [respond, World.resultGetBeamDeformation, resolveBeamDeformation, e2, e3]
      rfl

/-- the rows of a table -/
def rowOf (a : Assembly) (d : List ℝ) (n : String) : Except PyErr (String × List ℝ) := do
  let hid ← a.model.getNodeHid n
  return (n, (d.drop (hid * 6)).take 6)

theorem rowOf_of {x : Assembly} {y : Option (File Api)} {d v : List ℝ} {n : String} (hd : dispOf y = .ok d)
    (h : (do let d ← dispOf y; let hid ← x.model.getNodeHid n; return (d.drop (hid * 6)).take 6 : Except PyErr (List ℝ)) = .ok v) :
    rowOf x d n = .ok (n, v) := by
  rw [hd] at h
  obtain ⟨hid, h1, h2⟩ := bind_ok_of (show (x.model.getNodeHid n >>= fun hid => (pure ((d.drop (hid * 6)).take 6) : Except PyErr _)) = .ok v from h)
  unfold rowOf
  rw [h1]
  cases h2
  rfl

theorem proper_table (env : Env) {api : Api} {c : String} {x : Assembly} {K : Coo} {d : List ℝ} (hx : api.assembly = .ok x)
    (hK : x.assembleK env = .ok K) (hd : solveCase env x c K = .ok d) :
    proper env api (.table c) = .table (tryOption (api.model.nodes.keys.mapM (rowOf x d))) := by
  obtain ⟨fs, e1, e2, e3⟩ := alone_files env hx hK hd
  simp only [proper]
  rw [e1]
  simp only [respond, World.resultGetAllNodalDisplacement, World.getNodeNames]
  have : (fun n => (do let d ← resolveNodalDisplacement fs Api.filename n c; return (n, d) : Except PyErr (String × List ℝ))) = rowOf x d := by
    funext n
    unfold resolveNodalDisplacement rowOf
    rw [e2, e3]
    show (do let d ← (x.model.getNodeHid n >>= fun hid => pure ((d.drop (hid * 6)).take 6)); return (n, d)) = _
    cases x.model.getNodeHid n <;> rfl
  rw [this, e2]
  rfl

theorem sound_tableAct (env : Env) {api : Api} {c : String} {x : Assembly} {K : Coo} {d : List ℝ} (hx : api.assembly = .ok x)
    (hK : x.assembleK env = .ok K) (hd : solveCase env x c K = .ok d) (ns : List String) :
    ∀ (pre : List String) (t : Dict (List ℝ)), pre.mapM (rowOf x d) = .ok t → api.model.nodes.keys = pre ++ ns →
      (tableAct api c x ns t).Sound (Fit env api) (Decent env api (.table c)) := by
  induction ns with
  | nil =>
    intro pre t ht hk
    refine ⟨rfl, Or.inr ?_⟩
    rw [proper_table env hx hK hd, hk, List.append_nil, ht]
    rfl
  | cons n ns ih =>
    intro pre t ht hk y hy
    simp only
    split
    · exact ⟨rfl, Or.inl rfl⟩
    · rename_i v hv
      obtain ⟨d', hd', _⟩ := bind_ok_of hv
      obtain ⟨x', K', h1, h2, h3⟩ := dispOf_fit hy hd'
      rw [hx] at h1
      cases h1
      rw [hK] at h2
      cases h2
      rw [hd] at h3
      cases h3
      apply ih (pre ++ [n])
      · rw [List.mapM_append, ht, List.mapM_cons, rowOf_of hd' hv]
        rfl
      · rw [hk, List.append_assoc]; rfl

theorem sound_table (env : Env) (api : Api) (c : String) : (actOf env api (.table c)).Sound (Fit env api) (Decent env api (.table c)) := by
  intro f hf
  simp only
  split
  · exact ⟨rfl, Or.inl rfl⟩
  · rename_i x hx
    have hx' := asbOf_fit hf hx
    cases hk : api.model.nodes.keys with
    | nil =>
      refine ⟨rfl, Or.inr ?_⟩
      have e : after env ⟨api, []⟩ [.call .assemble, .call (.solveStatic c)] =
        ((after env ⟨api, []⟩ [.call .assemble]).step env (.solveStatic c)).1 := rfl
      have e2 : openAssembly ((after env ⟨api, []⟩ [.call .assemble]).step env (.solveStatic c)).1.fs Api.filename = .ok x := by
        rw [openAssembly_eq, asb_step env _ _ (by simp), alone_asb env hx']
        rfl
      have e3 : ((after env ⟨api, []⟩ [.call .assemble]).step env (.solveStatic c)).1.api = api := by
        rw [alone_asb env hx']
        rfl
      simp only [proper, respond]
      rw [e]
      unfold World.resultGetAllNodalDisplacement World.getNodeNames
      rw [e2, e3, hk]
      rfl
    | cons n ns =>
      intro y hy
      simp only
      split
      · exact ⟨rfl, Or.inl rfl⟩
      · rename_i v hv
        obtain ⟨d, hd, _⟩ := bind_ok_of hv
        obtain ⟨x', K, h1, h2, h3⟩ := dispOf_fit hy hd
        rw [hx'] at h1
        cases h1
        apply sound_tableAct env hx' h2 h3 ns [n]
        · rw [List.mapM_cons, rowOf_of hd hv]
          rfl
        · exact hk

theorem sound_actOf (env : Env) (api : Api) (r : Request) (h : Analysis r) :
    (actOf env api r).Sound (Fit env api) (Decent env api r) := by
  cases r with
  | call c =>
    cases c with
    | solveStatic c => exact sound_solve env api c
    | assemble => exact sound_assemble env api
    | _ => exact h.elim
  | displacement n c => exact sound_displacement env api n c
  | table c => exact sound_table env api c
  | deformation b l c => exact sound_deformation env api b l c

/-- a process of the folder: what it has got, what it is doing, what it will do -/
structure Fair (env : Env) (api : Api) (orig : List Request) (p : Proc) : Prop where
  api_eq : p.api = api
  split : ∃ pre cur, orig = pre ++ cur ++ p.todo ∧ List.Forall₂ (fun r a => failure a ∨ a = proper env api r) pre p.answers ∧
    ((p.current = none ∧ cur = []) ∨ ∃ A r, p.current = some A ∧ cur = [r] ∧ A.Sound (Fit env api) (Decent env api r))

theorem fair_tick (env : Env) {api : Api} {orig : List Request} (hk : ∀ r ∈ orig, Analysis r) {p : Proc} (h : Fair env api orig p)
    {fs : Dict (File Api)} (hfs : ∀ n, Fit env api n (fs.get? n)) :
    Fair env api orig (p.tick env fs).1 ∧ ∀ n, Fit env api n ((p.tick env fs).2.get? n) := by
  obtain ⟨ha, pre, cur, ho, hf, hc⟩ := h
  have hset : ∀ (n : String) (y : File Api), Fit env api n (some y) → ∀ m, Fit env api m ((fs.set n y).get? m) := by
    intro n y hy m
    rw [Dict.get?_set]
    split
    · rename_i e; exact e ▸ hy
    · exact hfs m
  rcases hc with ⟨hc, rfl⟩ | ⟨A, r, hc, rfl, hA⟩
  · unfold Proc.tick
    rw [hc]
    simp only
    split
    · exact ⟨⟨ha, pre, [], ho, hf, Or.inl ⟨hc, rfl⟩⟩, hfs⟩
    · rename_i r rs ht
      refine ⟨⟨ha, pre, [r], ?_, hf, Or.inr ⟨_, r, rfl, rfl, ?_⟩⟩, hfs⟩
      · rw [ho, ht]; simp
      · rw [ha]
        exact sound_actOf env api r (hk r (by rw [ho, ht]; simp))
  · unfold Proc.tick
    rw [hc]
    cases A with
    | done b =>
      obtain ⟨b, ans⟩ := b
      obtain ⟨hb, hans⟩ := hA
      refine ⟨⟨hb, pre ++ [r], [], ?_, ?_, Or.inl ⟨rfl, rfl⟩⟩, hfs⟩
      · rw [ho]; simp
      · exact List.rel_append hf (List.Forall₂.cons hans List.Forall₂.nil)
    | read n k => exact ⟨⟨ha, pre, [r], ho, hf, Or.inr ⟨_, r, rfl, rfl, hA _ (hfs n)⟩⟩, hfs⟩
    | empty n next => exact ⟨⟨ha, pre, [r], ho, hf, Or.inr ⟨_, r, rfl, rfl, hA.2⟩⟩, hset _ _ hA.1⟩
    | fill n content next => exact ⟨⟨ha, pre, [r], ho, hf, Or.inr ⟨_, r, rfl, rfl, hA.2⟩⟩, hset _ _ hA.1⟩

/-- Processes with the same model that begin in an empty folder and assemble, solve and read results in whatever order their file
operations come, whoever stops half way: no answer is wrong.  Each is `False` or `None`, or the answer of someone who assembles and solves
the case alone.  (Processes in other folders may do anything.) -/
theorem C146_never_wrong (env : Env) (s : Site ι) (path : String) (api : Api) (hempty : s.disk path = [])
    (hrest : ∀ j, AtRest (s.procs j)) (hapi : ∀ j, (s.procs j).workpath = path → (s.procs j).api = api)
    (hkind : ∀ j, (s.procs j).workpath = path → ∀ r ∈ (s.procs j).todo, Analysis r) (sched : List ι) (i : ι)
    (hi : (s.procs i).workpath = path) :
    List.Forall₂ (fun r a => failure a ∨ a = proper env api r)
      ((s.procs i).todo.take ((s.run env sched).procs i).answers.length) ((s.run env sched).procs i).answers := by
  have key : ∀ (sched : List ι) (s' : Site ι), (∀ j, (s'.procs j).workpath = (s.procs j).workpath) →
      (∀ n, Fit env api n ((s'.disk path).get? n)) → (∀ j, (s.procs j).workpath = path → Fair env api (s.procs j).todo (s'.procs j)) →
      Fair env api (s.procs i).todo ((s'.run env sched).procs i) := by
    intro sched
    induction sched with
    | nil => intro s' _ _ h; exact h i hi
    | cons j sched ih =>
      intro s' hw hfs hfair
      apply ih (s'.step env j)
      · intro k
        by_cases hkj : k = j
        · subst hkj; simp [Site.step, tick_workpath, hw]
        · simp [Site.step, hkj, hw]
      · by_cases hj : (s.procs j).workpath = path
        · have hwj : (s'.procs j).workpath = path := (hw j).trans hj
          have := (fair_tick env (hkind j hj) (hfair j hj) hfs).2
          intro n
          have hd : (s'.step env j).disk path = ((s'.procs j).tick env (s'.disk path)).2 := by
            simp only [Site.step, hwj]; exact Function.update_self _ _ _
          rw [hd]
          exact this n
        · have hd : (s'.step env j).disk path = s'.disk path := by
            simp only [Site.step]
            exact Function.update_of_ne (fun e => hj ((hw j).symm.trans e.symm)) _ _
          rw [hd]; exact hfs
      · intro k hk
        by_cases hkj : k = j
        · subst hkj
          have hp : (s'.step env k).procs k = ((s'.procs k).tick env (s'.disk path)).1 := by
            simp only [Site.step, (hw k).trans hk]; exact Function.update_self _ _ _
          rw [hp]
          exact (fair_tick env (hkind k hk) (hfair k hk) hfs).1
        · have hp : (s'.step env j).procs k = s'.procs k := by simp [Site.step, hkj]
          rw [hp]; exact hfair k hk
  obtain ⟨_, pre, cur, ho, hf, _⟩ := key sched s (fun _ => rfl) (by
      intro n
      rw [hempty]
      exact ⟨fun _ => Or.inl rfl, fun _ _ => Or.inl rfl, fun _ => rfl⟩)
    (fun j hj => ⟨hapi j hj, [], [], by simp, by rw [(hrest j).2]; exact List.Forall₂.nil, Or.inl ⟨(hrest j).1, rfl⟩⟩)
  rw [← hf.length_eq, ho, List.append_assoc, List.take_left]
  exact hf

/-- the assembled cantilever -/
theorem demo_folder : ∃ (api : Api) (x : Assembly), api.assembly = .ok x ∧
    ((⟨api, [(".asb", .asb x)]⟩ : World).step idealEnv (.solveStatic "C")).2 = true := by
  obtain ⟨c, hc, hrun⟩ := demo_run idealEnv
  have h := demo_solves idealEnv idealEnv_sound [] (by simp)
  rw [hrun] at h
  simp only [run_cons, run_nil] at h
  refine ⟨demoApi c, ?_⟩
  cases hx : (demoApi c).assembly with
  | error e =>
    exfalso
    simp only [World.step, hx] at h
    simp [solveLinear, openAssembly, Dict.get?, tryBool] at h
  | ok x =>
    refine ⟨x, rfl, ?_⟩
    rw [step_assemble idealEnv _ x hx] at h
    exact h

/-- two processes in one folder with the same model, already assembled: `true` solves, `false` assembles again -/
noncomputable def clash (api : Api) (x : Assembly) : Site Bool :=
  { disk := fun _ => [(".asb", .asb x)]
    procs := fun b => ⟨"p", api, if b then [.call (.solveStatic "C")] else [.call .assemble], none, []⟩ }

/-- the file is emptied just before it is read -/
theorem clash_run {api : Api} {x : Assembly} (hx : api.assembly = .ok x) :
    (∀ i, Finished (((clash api x).run idealEnv [false, false, true, true, true, false, false]).procs i)) ∧
    (((clash api x).run idealEnv [false, false, true, true, true, false, false]).procs true).answers = [.flag false] := by
  constructor
  · intro i
    cases i <;>
    simp [clash, Site.run, Site.step, Proc.tick, actOf, solveAct, hx, Function.update, Finished, asbOf, Api.filename]
  · simp [clash, Site.run, Site.step, Proc.tick, actOf, solveAct, hx, Function.update, asbOf, Api.filename]

/-- one after the other, in whatever order, the solution succeeds -/
theorem clash_serial {api : Api} {x : Assembly} (hx : api.assembly = .ok x)
    (hs : ((⟨api, [(".asb", .asb x)]⟩ : World).step idealEnv (.solveStatic "C")).2 = true) (order : List Bool) :
    ((oneByOne idealEnv (clash api x) order).procs true).answers ≠ [.flag false] := by
  have key : ∀ (order : List Bool) (s : Site Bool), (s.disk "p").get? ".asb" = some (.asb x) → (s.disk "p").get? "0.k" = none →
      (∀ b, (s.procs b).workpath = "p" ∧ (s.procs b).api = api) →
      (((s.procs true).todo = [.call (.solveStatic "C")] ∧ (s.procs true).answers = []) ∨
        ((s.procs true).todo = [] ∧ (s.procs true).answers = [.flag true])) →
      ((s.procs false).todo = [.call .assemble] ∨ (s.procs false).todo = []) →
      ((oneByOne idealEnv s order).procs true).answers ≠ [.flag false] := by
    intro order
    induction order with
    | nil =>
      intro s _ _ _ h _
      show (s.procs true).answers ≠ _
      rcases h with h | h <;> rw [h.2] <;> simp
    | cons b order ih =>
      intro s h1 h2 h3 h4 h5
      have hrun : oneByOne idealEnv s (b :: order) = oneByOne idealEnv (whole idealEnv s b) order := rfl
      rw [hrun]
      cases b with
      | true =>
        rcases h4 with h4 | h4
        · have hseen : seen s true = ⟨api, s.disk "p"⟩ := by unfold seen; rw [(h3 true).1, (h3 true).2]
          have hr := (solve_congr idealEnv (w := ⟨api, s.disk "p"⟩) (w' := ⟨api, [(".asb", .asb x)]⟩) (by rw [show Api.filename = ".asb" from rfl, h1]; rfl)
            (by rw [h2]; rfl) "C").1.trans hs
          have hfr := solve_frame idealEnv ⟨api, s.disk "p"⟩ "C"
          have he : whole idealEnv s true =
              { disk := Function.update s.disk "p" ((⟨api, s.disk "p"⟩ : World).step idealEnv (.solveStatic "C")).1.fs
                procs := Function.update s.procs true { s.procs true with api := api, todo := [], answers := [.flag true] } } := by
            unfold whole
            rw [h4.1]
            simp only [hseen, respond, hr, h4.2, List.nil_append, (h3 true).1]
            rfl
          rw [he]
          apply ih
          · simp only [Function.update_self]; exact hfr.1.trans h1
          · simp only [Function.update_self]; exact hfr.2.1.trans h2
          · intro b; cases b
            · exact h3 false
            · exact ⟨(h3 true).1, rfl⟩
          · exact Or.inr ⟨rfl, rfl⟩
          · exact h5
        · have he : whole idealEnv s true = s := by unfold whole; rw [h4.1]
          rw [he]
          exact ih s h1 h2 h3 (Or.inr h4) h5
      | false =>
        rcases h5 with h5 | h5
        · have hseen : seen s false = ⟨api, s.disk "p"⟩ := by unfold seen; rw [(h3 false).1, (h3 false).2]
          have he : whole idealEnv s false =
              { disk := Function.update s.disk "p" ((s.disk "p").set ".asb" (.asb x))
                procs := Function.update s.procs false
                  { s.procs false with api := api, todo := [], answers := (s.procs false).answers ++ [.flag true] } } := by
            unfold whole
            rw [h5]
            simp only [hseen, respond, step_assemble idealEnv ⟨api, s.disk "p"⟩ x hx, (h3 false).1]
          rw [he]
          apply ih
          · simp only [Function.update_self]; exact Dict.get?_set_same _ _ _
          · simp only [Function.update_self]; rw [Dict.get?_set_ne _ _ (by decide)]; exact h2
          · intro b; cases b
            · exact ⟨(h3 false).1, rfl⟩
            · exact h3 true
          · exact h4
          · exact Or.inr rfl
        · have he : whole idealEnv s false = s := by unfold whole; rw [h5]
          rw [he]
          exact ih s h1 h2 h3 h4 (Or.inr h5)
  apply key
  · rfl
  · rfl
  · intro b; exact ⟨rfl, rfl⟩
  · exact Or.inl ⟨rfl, rfl⟩
  · exact Or.inl rfl

/-- One process assembles the model again while another one solves it: the solution fails, though it succeeds before and after. -/
theorem C146_false : ¬ C146_claim := by
  intro h
  obtain ⟨api, x, hx, hs⟩ := demo_folder
  obtain ⟨order, ho⟩ := h Bool idealEnv (clash api x) [false, false, true, true, true, false, false] (fun i => ⟨rfl, rfl⟩) (clash_run hx).1
  exact clash_serial hx hs order ((ho true).trans (clash_run hx).2)

/-- the cantilever solved by one process while another saves, solves and reads another case in the same folder -/
example : ∃ s : Site Bool, (∀ j, AtRest (s.procs j)) ∧ (∀ j, (s.procs j).workpath = "p") ∧
    (∀ i j, j ≠ i → ∀ r ∈ (s.procs i).todo, ∀ r' ∈ (s.procs j).todo, ∀ f ∈ concerns r, f ∉ writes r') ∧
    answered idealEnv (seen s true) (s.procs true).todo = [.flag true] := by
  obtain ⟨api, x, hx, hs⟩ := demo_folder
  refine ⟨{ disk := fun _ => [(".asb", .asb x)]
            procs := fun b => ⟨"p", api, if b then [.call (.solveStatic "C")] else [.call (.save "f"), .call (.solveStatic "D"), .table "D"], none, []⟩ },
    fun j => ⟨rfl, rfl⟩, fun j => rfl, ?_, ?_⟩
  · intro i j hij
    cases i <;> cases j <;> first | exact absurd rfl hij | simp [concerns, writes]
  · simp only [seen, answered, respond, if_true]
    rw [hs]

/-- three processes share the cantilever: no wrong answers; the proper one is a success -/
example : ∃ (s : Site (Fin 3)) (api : Api), s.disk "p" = [] ∧ (∀ j, AtRest (s.procs j)) ∧ (∀ j, (s.procs j).workpath = "p") ∧
    (∀ j, (s.procs j).api = api) ∧ (∀ j, ∀ r ∈ (s.procs j).todo, Analysis r) ∧
    proper idealEnv api (.call (.solveStatic "C")) = .flag true := by
  obtain ⟨api, x, hx, hs⟩ := demo_folder
  refine ⟨{ disk := fun _ => [], procs := fun j => ⟨"p", api, [.call .assemble, .call (.solveStatic "C"), .table "C"], none, []⟩ }, api,
    rfl, fun j => ⟨rfl, rfl⟩, fun j => rfl, fun j => rfl, ?_, ?_⟩
  · intro j r hr
    simp only [List.mem_cons, List.not_mem_nil, or_false] at hr
    rcases hr with rfl | rfl | rfl <;> trivial
  · simp only [proper]
    rw [alone_asb idealEnv hx]
    simp only [respond, hs]

/-- the states of the folder before each file operation, and after the last one -/
def Act.moments {α : Type} : Act α → Dict (File Api) → List (Dict (File Api))
  | .done _, fs => [fs]
  | .read n k, fs => fs :: (k (fs.get? n)).moments fs
  | .empty n next, fs => fs :: next.moments (fs.set n .broken)
  | .fill n content next, fs => fs :: next.moments (fs.set n content)

/-- The files a process leaves when it dies between two file operations of a call are among those of `C126_recovery` and
`C126_other_cases`, or the call is complete. -/
theorem C126_moments (env : Env) (w : World) (c : Call) (fs : Dict (File Api))
    (h : fs ∈ (actOf env w.api (.call c)).moments w.fs) : fs ∈ Office.leftBehind env w c ∨ fs = (w.step env c).1.fs := by
  cases c with
  | assemble =>
    simp only [actOf] at h
    simp only [Office.leftBehind, World.step]
    cases hx : w.api.assembly with
    | error e => simp only [hx, Act.moments, List.mem_singleton] at h; exact Or.inr h
    | ok x =>
      simp only [hx, Act.moments, Dict.set_twice, List.mem_cons, List.not_mem_nil, or_false] at h ⊢
      tauto
  | save f =>
    simp only [actOf, Act.moments, Dict.set_twice, List.mem_cons, List.not_mem_nil, or_false] at h
    simp only [Office.leftBehind, World.step, List.mem_cons, List.not_mem_nil, or_false]
    tauto
  | solveStatic c =>
    simp only [actOf, solveAct, Act.moments, List.mem_cons] at h
    simp only [Office.leftBehind, World.step, solveLinear, openAssembly_eq]
    cases hx : asbOf (Dict.get? w.fs Api.filename) with
    | error e => rw [hx] at h; simp [Act.moments] at h; exact Or.inr h
    | ok x =>
      rw [hx] at h
      simp only [Act.moments, List.mem_cons] at h
      by_cases hg : Dict.contains w.fs "0.k" = true
      · have hg' : (Dict.get? w.fs "0.k").isSome = true := hg
        rw [if_pos hg'] at h
        simp only [if_pos hg]
        simp [Act.moments] at h
        exact Or.inr h
      · have hg' : ¬ (Dict.get? w.fs "0.k").isSome = true := hg
        rw [if_neg hg'] at h
        simp only [if_neg hg]
        cases hK : x.assembleK env with
        | error e => rw [hK] at h; simp [Act.moments] at h; exact Or.inr h
        | ok K =>
          rw [hK] at h
          simp only [Act.moments, Dict.set_twice, List.mem_cons] at h
          cases hd : solveCase env x c K with
          | error e => rw [hd] at h; simp [Act.moments] at h; simp; tauto
          | ok d =>
            rw [hd] at h
            simp only [Act.moments, Dict.set_twice, List.mem_cons, List.not_mem_nil, or_false] at h
            simp only [List.mem_cons, List.not_mem_nil, or_false, disp_eq, hd]
            tauto
  | load f =>
    simp only [actOf, Act.moments, List.mem_cons] at h
    left
    rcases h with h | h
    · simp [Office.leftBehind, h]
    · split at h <;> simp [Act.moments] at h <;> simp [Office.leftBehind, h]
  | solveModal c n => simp [actOf, Act.moments] at h; simp [Office.leftBehind, h]
  | clearWorkspace => simp [actOf, Act.moments] at h; simp [Office.leftBehind, h]
  | _ =>
    simp only [actOf] at h
    left
    split at h <;> simp [Act.moments] at h <;> simp [Office.leftBehind, h]

end Hyperstatic
