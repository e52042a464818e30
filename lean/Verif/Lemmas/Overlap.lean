import Verif.Spec.Overlap
import Verif.Lemmas.History

/-
Facts about computations on files, and about one process among others.
-/

namespace Hyperstatic

open Spec

theorem Dict.set_twice {α : Type _} (d : Dict α) (k : String) (u v : α) : Dict.set (Dict.set d k u) k v = Dict.set d k v := by
  induction d with
  | nil => simp [Dict.set]
  | cons p d ih =>
    obtain ⟨k', v'⟩ := p
    by_cases h : k' = k
    · simp [Dict.set, h]
    · simp only [Dict.set, if_neg h]; rw [ih]

namespace Act

variable {α : Type}

/-- all operations of a computation, undisturbed -/
def exec : Act α → Dict (File Api) → α × Dict (File Api)
  | done a, fs => (a, fs)
  | read n k, fs => (k (fs.get? n)).exec fs
  | empty n next, fs => next.exec (fs.set n .broken)
  | fill n content next, fs => next.exec (fs.set n content)

/-- only files of `V` are read -/
def ReadsIn (V : String → Prop) : Act α → Prop
  | done _ => True
  | read n k => V n ∧ ∀ x, (k x).ReadsIn V
  | empty _ next => next.ReadsIn V
  | fill _ _ next => next.ReadsIn V

/-- only files of `W` are written -/
def WritesIn (W : String → Prop) : Act α → Prop
  | done _ => True
  | read _ k => ∀ x, (k x).WritesIn W
  | empty n next => W n ∧ next.WritesIn W
  | fill n _ next => W n ∧ next.WritesIn W

theorem WritesIn.mono {W W' : String → Prop} (h : ∀ f, W f → W' f) {A : Act α} : A.WritesIn W → A.WritesIn W' := by
  induction A with
  | done a => exact id
  | read n k ih => exact fun ha x => ih x (ha x)
  | empty n next ih => exact fun ha => ⟨h _ ha.1, ih ha.2⟩
  | fill n c next ih => exact fun ha => ⟨h _ ha.1, ih ha.2⟩

theorem ReadsIn.mono {W W' : String → Prop} (h : ∀ f, W f → W' f) {A : Act α} : A.ReadsIn W → A.ReadsIn W' := by
  induction A with
  | done a => exact id
  | read n k ih => exact fun ha => ⟨h _ ha.1, fun x => ih x (ha.2 x)⟩
  | empty n next ih => exact fun ha => ih ha
  | fill n c next ih => exact fun ha => ih ha

end Act

theorem openAssembly_eq (fs : Dict (File Api)) (n : String) : openAssembly fs n = asbOf (fs.get? n) := by
  unfold openAssembly asbOf
  cases fs.get? n with
  | none => rfl
  | some x => cases x <;> rfl

theorem loadDisp_eq (fs : Dict (File Api)) (c : String) : loadDisp fs c = dispOf (fs.get? (c ++ ".d.npy")) := by
  unfold loadDisp dispOf
  cases fs.get? (c ++ ".d.npy") with
  | none => rfl
  | some x =>
    cases x with
    | rows r => cases r <;> rfl
    | _ => rfl

theorem exec_solve (env : Env) (w : World) (c : String) :
    (solveAct env w.api c).exec w.fs =
      (((respond env w (.call (.solveStatic c))).1.api, (respond env w (.call (.solveStatic c))).2),
        (respond env w (.call (.solveStatic c))).1.fs) := by
  simp only [solveAct, respond, World.step, solveLinear, Act.exec, openAssembly_eq]
  cases asbOf (Dict.get? w.fs Api.filename) with
  | error e => rfl
  | ok a =>
    simp only [Act.exec]
    by_cases hg : Dict.contains w.fs "0.k" = true
    · have hg' : (Dict.get? w.fs "0.k").isSome = true := hg
      simp only [hg, hg', if_true]; rfl
    · have hg' : ¬ (Dict.get? w.fs "0.k").isSome = true := hg
      simp only [if_neg hg, if_neg hg']
      cases a.assembleK env with
      | error e => rfl
      | ok K =>
        simp only [Act.exec, Dict.set_twice]
        cases solveCase env a c K with
        | error e => rfl
        | ok d => simp only [Act.exec, Dict.set_twice, disp_eq]; rfl

theorem exec_table (w : World) (c : String) (a : Assembly) (h : openAssembly w.fs Api.filename = .ok a) (ns : List String) :
    ∀ t : Dict (List ℝ), (tableAct w.api c a ns t).exec w.fs =
      ((w.api, .table (tryOption (do
        let ps ← ns.mapM (fun n => do let d ← resolveNodalDisplacement w.fs Api.filename n c; return (n, d))
        return t ++ ps))), w.fs) := by
  induction ns with
  | nil => intro t; simp [tableAct, Act.exec, tryOption, pure, Except.pure, bind, Except.bind]
  | cons n ns ih =>
    intro t
    have hr : resolveNodalDisplacement w.fs Api.filename n c =
        (do let d ← dispOf (w.fs.get? (c ++ ".d.npy")); let hid ← a.model.getNodeHid n; return (d.drop (hid * 6)).take 6) := by
      unfold resolveNodalDisplacement
      rw [h, loadDisp_eq]; rfl
    simp only [tableAct, Act.exec, List.mapM_cons, hr]
    cases (do let d ← dispOf (w.fs.get? (c ++ ".d.npy")); let hid ← a.model.getNodeHid n; return (d.drop (hid * 6)).take 6 : Except PyErr (List ℝ)) with
    | error e => rfl
    | ok v =>
      simp only [ih]
      congr 3
      show tryOption _ = tryOption _
      congr 1
      cases (ns.mapM (fun n => do let d ← resolveNodalDisplacement w.fs Api.filename n c; return (n, d)) : Except PyErr _) with
      | error e => rfl
      | ok ps => simp [pure, Except.pure, bind, Except.bind]

/-- undisturbed, the operations of a request have the effect of the call -/
theorem exec_actOf (env : Env) (w : World) (r : Request) :
    (actOf env w.api r).exec w.fs = (((respond env w r).1.api, (respond env w r).2), (respond env w r).1.fs) := by
  cases r with
  | call c =>
    cases c with
    | solveStatic c => exact exec_solve env w c
    | assemble =>
      simp only [actOf, respond, World.step]
      cases w.api.assembly with
      | error e => rfl
      | ok a => simp only [Act.exec, Dict.set_twice]
    | solveModal c n =>
      simp only [actOf, respond, World.step, Act.exec]
      cases openAssembly w.fs Api.filename <;> rfl
    | save f => simp only [actOf, respond, World.step, Act.exec, Dict.set_twice]
    | load f =>
      simp only [actOf, respond, World.step, Act.exec]
      cases Dict.get? w.fs (f ++ ".sep") with
      | none => rfl
      | some x => cases x <;> rfl
    | clearWorkspace => rfl
    | _ =>
      simp only [actOf, respond, World.step]
      generalize w.api.edit _ = e
      cases e <;> rfl
  | displacement n c =>
    simp only [actOf, respond, Act.exec, World.resultGetNodalDisplacement, resolveNodalDisplacement, openAssembly_eq, loadDisp_eq]
    cases asbOf (Dict.get? w.fs Api.filename) with
    | error e => rfl
    | ok a => rfl
  | table c =>
    simp only [actOf, respond, Act.exec, World.resultGetAllNodalDisplacement]
    cases h : asbOf (Dict.get? w.fs Api.filename) with
    | error e => rw [openAssembly_eq, h]; rfl
    | ok a =>
      simp only
      rw [exec_table w c a (by rw [openAssembly_eq, h]), openAssembly_eq, h]
      congr 3
      show tryOption _ = tryOption _
      congr 1
      simp only [List.nil_append, bind_pure]
      rfl
  | deformation b l c =>
    simp only [actOf, respond, Act.exec, World.resultGetBeamDeformation, resolveBeamDeformation, openAssembly_eq, loadDisp_eq]
    cases asbOf (Dict.get? w.fs Api.filename) with
    | error e => rfl
    | ok a => rfl

theorem readsIn_table (api : Api) (c : String) (a : Assembly) (V : String → Prop) (h : V (c ++ ".d.npy")) (ns : List String) :
    ∀ t, (tableAct api c a ns t).ReadsIn V := by
  induction ns with
  | nil => intro t; trivial
  | cons n ns ih =>
    intro t
    refine ⟨h, fun x => ?_⟩
    simp only
    split
    · trivial
    · exact ih _

theorem writesIn_table (api : Api) (c : String) (a : Assembly) (V : String → Prop) (ns : List String) :
    ∀ t, (tableAct api c a ns t).WritesIn V := by
  induction ns with
  | nil => intro t; trivial
  | cons n ns ih =>
    intro t x
    simp only
    split
    · trivial
    · exact ih _

/-- a request reads files it is about -/
theorem actOf_reads (env : Env) (api : Api) (r : Request) : (actOf env api r).ReadsIn (fun f => f ∈ concerns r) := by
  cases r with
  | call c =>
    cases c with
    | solveStatic c =>
      refine ⟨by simp [concerns, Api.filename], fun f => ?_⟩
      simp only
      split
      · trivial
      · refine ⟨by simp [concerns], fun g => ?_⟩
        simp only
        split
        · trivial
        · split
          · trivial
          · simp only [Act.ReadsIn]
            split <;> trivial
    | assemble => simp only [actOf]; split <;> trivial
    | solveModal c n => exact ⟨by simp [concerns, Api.filename], fun f => trivial⟩
    | save f => trivial
    | load f =>
      refine ⟨by simp [concerns], fun x => ?_⟩
      simp only
      split <;> trivial
    | clearWorkspace => trivial
    | _ => simp only [actOf]; split <;> trivial
  | displacement n c =>
    refine ⟨by simp [concerns, Api.filename], fun f => ?_⟩
    simp only
    split
    · trivial
    · exact ⟨by simp [concerns], fun g => trivial⟩
  | table c =>
    refine ⟨by simp [concerns, Api.filename], fun f => ?_⟩
    simp only
    split
    · trivial
    · exact readsIn_table _ _ _ _ (by simp [concerns]) _ _
  | deformation b l c =>
    refine ⟨by simp [concerns, Api.filename], fun f => ?_⟩
    simp only
    split
    · trivial
    · exact ⟨by simp [concerns], fun g => trivial⟩

/-- a request writes the files it is said to write -/
theorem actOf_writes (env : Env) (api : Api) (r : Request) : (actOf env api r).WritesIn (fun f => f ∈ writes r) := by
  cases r with
  | call c =>
    cases c with
    | solveStatic c =>
      intro f
      simp only
      split
      · trivial
      · intro g
        simp only
        split
        · trivial
        · split
          · trivial
          · refine ⟨by simp [writes], by simp [writes], ?_⟩
            split
            · trivial
            · exact ⟨by simp [writes], by simp [writes], trivial⟩
    | assemble =>
      simp only [actOf]
      split
      · exact ⟨by simp [writes, Api.filename], by simp [writes, Api.filename], trivial⟩
      · trivial
    | solveModal c n => exact fun f => trivial
    | save f => exact ⟨by simp [writes], by simp [writes], trivial⟩
    | load f =>
      intro x
      simp only
      split <;> trivial
    | clearWorkspace => trivial
    | _ => simp only [actOf]; split <;> trivial
  | displacement n c =>
    intro f
    simp only
    split
    · trivial
    · exact fun g => trivial
  | table c =>
    intro f
    simp only
    split
    · trivial
    · exact writesIn_table _ _ _ _ _ _
  | deformation b l c =>
    intro f
    simp only
    split
    · trivial
    · exact fun g => trivial

/-! ### one process alone -/

/-- `n` steps of a process that is alone in its folder -/
noncomputable def solo (env : Env) (x : Proc × Dict (File Api)) : ℕ → Proc × Dict (File Api)
  | 0 => x
  | n + 1 => (solo env x n).1.tick env (solo env x n).2

theorem solo_add (env : Env) (x : Proc × Dict (File Api)) (m n : ℕ) : solo env x (m + n) = solo env (solo env x m) n := by
  induction n with
  | zero => rfl
  | succ n ih =>
    show (solo env x (m + n)).1.tick env (solo env x (m + n)).2 = _
    rw [ih]; rfl

theorem solo_one (env : Env) (x : Proc × Dict (File Api)) : solo env x 1 = x.1.tick env x.2 := rfl

/-- a request is carried through -/
theorem solo_act (env : Env) (A : Act (Api × Answer)) : ∀ (p : Proc) (fs : Dict (File Api)), p.current = some A →
    ∃ n, solo env (p, fs) n =
      ({ p with api := (A.exec fs).1.1, current := none, answers := p.answers ++ [(A.exec fs).1.2] }, (A.exec fs).2) := by
  induction A with
  | done a =>
    intro p fs h
    refine ⟨1, ?_⟩
    obtain ⟨b, ans⟩ := a
    simp only [solo_one, Proc.tick, h, Act.exec]
  | read n k ih =>
    intro p fs h
    obtain ⟨m, hm⟩ := ih (fs.get? n) { p with current := some (k (fs.get? n)) } fs rfl
    refine ⟨1 + m, ?_⟩
    rw [solo_add, solo_one]
    simp only [Proc.tick, h]
    exact hm
  | empty n next ih =>
    intro p fs h
    obtain ⟨m, hm⟩ := ih { p with current := some next } (fs.set n .broken) rfl
    refine ⟨1 + m, ?_⟩
    rw [solo_add, solo_one]
    simp only [Proc.tick, h]
    exact hm
  | fill n content next ih =>
    intro p fs h
    obtain ⟨m, hm⟩ := ih { p with current := some next } (fs.set n content) rfl
    refine ⟨1 + m, ?_⟩
    rw [solo_add, solo_one]
    simp only [Proc.tick, h]
    exact hm

/-- all requests are carried through, one after the other -/
theorem solo_all (env : Env) (rs : List Request) : ∀ (p : Proc) (fs : Dict (File Api)), p.current = none → p.todo = rs →
    ∃ n, solo env (p, fs) n =
      ({ p with api := (after env ⟨p.api, fs⟩ rs).api, todo := [], answers := p.answers ++ answered env ⟨p.api, fs⟩ rs },
        (after env ⟨p.api, fs⟩ rs).fs) := by
  induction rs with
  | nil =>
    intro p fs hc ht
    refine ⟨0, ?_⟩
    obtain ⟨wp, api, todo, cur, ans⟩ := p
    simp only at hc ht
    subst ht
    simp [solo, after, answered]
  | cons r rs ih =>
    intro p fs hc ht
    obtain ⟨m, hm⟩ := solo_act env (actOf env p.api r) { p with todo := rs, current := some (actOf env p.api r) } fs rfl
    have he := exec_actOf env ⟨p.api, fs⟩ r
    simp only at he
    rw [he] at hm
    simp only at hm
    obtain ⟨n, hn⟩ := ih _ (respond env ⟨p.api, fs⟩ r).1.fs (show ({ p with
      todo := rs, api := (respond env ⟨p.api, fs⟩ r).1.api, current := none,
      answers := p.answers ++ [(respond env ⟨p.api, fs⟩ r).2] } : Proc).current = none from rfl) rfl
    refine ⟨1 + (m + n), ?_⟩
    rw [solo_add, solo_one, solo_add]
    simp only [Proc.tick, hc, ht]
    rw [hm]
    rw [hn]
    simp only [after, answered, List.append_assoc, List.cons_append, List.nil_append]

theorem tick_finished (env : Env) (p : Proc) (fs : Dict (File Api)) (h : Finished p) : p.tick env fs = (p, fs) := by
  unfold Proc.tick
  rw [h.1, h.2]

theorem solo_finished (env : Env) (x : Proc × Dict (File Api)) (h : Finished x.1) (n : ℕ) : solo env x n = x := by
  induction n with
  | zero => rfl
  | succ n ih => show (solo env x n).1.tick env (solo env x n).2 = x; rw [ih, tick_finished env _ _ h]

theorem tick_answers (env : Env) (p : Proc) (fs : Dict (File Api)) : p.answers <+: (p.tick env fs).1.answers := by
  unfold Proc.tick
  split
  · split <;> exact List.prefix_refl _
  · exact List.prefix_append _ _
  all_goals exact List.prefix_refl _

theorem solo_answers (env : Env) (x : Proc × Dict (File Api)) (m n : ℕ) : (solo env x m).1.answers <+: (solo env x (m + n)).1.answers := by
  induction n with
  | zero => exact List.prefix_refl _
  | succ n ih => exact ih.trans (tick_answers env _ _)

theorem tick_workpath (env : Env) (p : Proc) (fs : Dict (File Api)) : (p.tick env fs).1.workpath = p.workpath := by
  unfold Proc.tick
  split
  · split <;> rfl
  all_goals rfl

/-! ### one process among others -/

/-- what the process still does only reads files of `V` -/
def Looks (V : String → Prop) (p : Proc) : Prop :=
  (∀ r ∈ p.todo, ∀ f ∈ concerns r, V f) ∧ ∀ A, p.current = some A → A.ReadsIn V

/-- what the process still does only writes files of `W` -/
def Touches (W : String → Prop) (p : Proc) : Prop :=
  (∀ r ∈ p.todo, ∀ f ∈ writes r, W f) ∧ ∀ A, p.current = some A → A.WritesIn W

theorem looks_tick (env : Env) {V : String → Prop} {p : Proc} (h : Looks V p) (fs : Dict (File Api)) : Looks V (p.tick env fs).1 := by
  obtain ⟨h1, h2⟩ := h
  unfold Proc.tick
  split
  · split
    · exact ⟨h1, h2⟩
    · rename_i hc r rs ht
      refine ⟨fun r' hr' => h1 r' (by rw [ht]; exact List.mem_cons_of_mem _ hr'), fun A hA => ?_⟩
      simp only [Option.some.injEq] at hA
      subst hA
      exact (actOf_reads env p.api r).mono (h1 r (by rw [ht]; exact List.mem_cons_self))
  · exact ⟨h1, fun A hA => by cases hA⟩
  · rename_i n k hc
    refine ⟨h1, fun A hA => ?_⟩
    simp only [Option.some.injEq] at hA
    subst hA
    exact (h2 _ hc).2 _
  · rename_i n next hc
    refine ⟨h1, fun A hA => ?_⟩
    simp only [Option.some.injEq] at hA
    subst hA
    have := h2 _ hc
    exact this
  · rename_i n content next hc
    refine ⟨h1, fun A hA => ?_⟩
    simp only [Option.some.injEq] at hA
    subst hA
    have := h2 _ hc
    exact this

theorem touches_tick (env : Env) {W : String → Prop} {p : Proc} (h : Touches W p) (fs : Dict (File Api)) :
    Touches W (p.tick env fs).1 := by
  obtain ⟨h1, h2⟩ := h
  unfold Proc.tick
  split
  · split
    · exact ⟨h1, h2⟩
    · rename_i hc r rs ht
      refine ⟨fun r' hr' => h1 r' (by rw [ht]; exact List.mem_cons_of_mem _ hr'), fun A hA => ?_⟩
      simp only [Option.some.injEq] at hA
      subst hA
      exact (actOf_writes env p.api r).mono (h1 r (by rw [ht]; exact List.mem_cons_self))
  · exact ⟨h1, fun A hA => by cases hA⟩
  · rename_i n k hc
    refine ⟨h1, fun A hA => ?_⟩
    simp only [Option.some.injEq] at hA
    subst hA
    exact (h2 _ hc) _
  · rename_i n next hc
    refine ⟨h1, fun A hA => ?_⟩
    simp only [Option.some.injEq] at hA
    subst hA
    exact (h2 _ hc).2
  · rename_i n content next hc
    refine ⟨h1, fun A hA => ?_⟩
    simp only [Option.some.injEq] at hA
    subst hA
    exact (h2 _ hc).2

/-- a file that is not written keeps its content -/
theorem tick_keeps (env : Env) {W : String → Prop} {p : Proc} (h : Touches W p) (fs : Dict (File Api)) {f : String} (hf : ¬ W f) :
    (p.tick env fs).2.get? f = fs.get? f := by
  unfold Proc.tick
  split
  · split <;> rfl
  · rfl
  · rfl
  · rename_i n next hc
    exact Dict.get?_set_ne _ _ (fun e => hf (e ▸ (h.2 _ hc).1))
  · rename_i n content next hc
    exact Dict.get?_set_ne _ _ (fun e => hf (e ▸ (h.2 _ hc).1))

/-- a process does the same in two folders that agree on the files it reads -/
theorem tick_same (env : Env) {V : String → Prop} {p : Proc} (h : Looks V p) {fs fs' : Dict (File Api)}
    (ha : ∀ f, V f → fs.get? f = fs'.get? f) :
    (p.tick env fs).1 = (p.tick env fs').1 ∧ ∀ f, V f → (p.tick env fs).2.get? f = (p.tick env fs').2.get? f := by
  unfold Proc.tick
  split
  · split <;> exact ⟨rfl, ha⟩
  · exact ⟨rfl, ha⟩
  · rename_i n k hc
    simp only
    rw [ha n (h.2 _ hc).1]
    exact ⟨rfl, ha⟩
  · refine ⟨rfl, fun f hf => ?_⟩
    simp only [Dict.get?_set]
    split
    · rfl
    · exact ha f hf
  · refine ⟨rfl, fun f hf => ?_⟩
    simp only [Dict.get?_set]
    split
    · rfl
    · exact ha f hf

variable {ι : Type} [DecidableEq ι]

/-- process `i` of the site is where it would be alone, in a folder that agrees on `V`, and the others leave `V` alone -/
structure Follows (V : String → Prop) (s : Site ι) (i : ι) (x : Proc × Dict (File Api)) : Prop where
  same : s.procs i = x.1
  agree : ∀ f, V f → (s.disk (s.procs i).workpath).get? f = x.2.get? f
  looks : Looks V (s.procs i)
  apart : ∀ j, j ≠ i → (s.procs j).workpath = (s.procs i).workpath → Touches (fun f => ¬ V f) (s.procs j)

theorem Follows.own {V : String → Prop} {env : Env} {s : Site ι} {i : ι} {x : Proc × Dict (File Api)} (h : Follows V s i x) :
    Follows V (s.step env i) i (x.1.tick env x.2) := by
  have hp : (s.step env i).procs i = ((s.procs i).tick env (s.disk (s.procs i).workpath)).1 := by
    simp [Site.step]
  have hw : ((s.step env i).procs i).workpath = (s.procs i).workpath := by rw [hp, tick_workpath]
  have hd : (s.step env i).disk (s.procs i).workpath = ((s.procs i).tick env (s.disk (s.procs i).workpath)).2 := by
    simp [Site.step]
  have hs := tick_same env h.looks h.agree
  refine ⟨?_, ?_, ?_, ?_⟩
  · rw [hp, hs.1, h.same]
  · intro f hf
    rw [hw, hd, hs.2 f hf, h.same]
  · rw [hp]; exact looks_tick env h.looks _
  · intro j hj hwj
    rw [hw] at hwj
    have : (s.step env i).procs j = s.procs j := by simp [Site.step, hj]
    rw [this] at hwj ⊢
    exact h.apart j hj hwj

theorem Follows.other {V : String → Prop} {env : Env} {s : Site ι} {i : ι} {x : Proc × Dict (File Api)} (h : Follows V s i x) {j : ι}
    (hj : j ≠ i) : Follows V (s.step env j) i x := by
  have hp : (s.step env j).procs i = s.procs i := by simp [Site.step, hj.symm]
  refine ⟨by rw [hp, h.same], ?_, by rw [hp]; exact h.looks, ?_⟩
  · intro f hf
    rw [hp]
    by_cases hw : (s.procs j).workpath = (s.procs i).workpath
    · have hd : (s.step env j).disk (s.procs i).workpath = ((s.procs j).tick env (s.disk (s.procs j).workpath)).2 := by
        rw [← hw]; simp [Site.step]
      rw [hd, tick_keeps env (h.apart j hj hw) _ (not_not.mpr hf), hw]
      exact h.agree f hf
    · have hd : (s.step env j).disk (s.procs i).workpath = s.disk (s.procs i).workpath := by
        simp only [Site.step]
        exact Function.update_of_ne (fun e => hw e.symm) _ _
      rw [hd]
      exact h.agree f hf
  · intro k hk hwk
    rw [hp] at hwk
    by_cases hkj : k = j
    · subst hkj
      have hp' : (s.step env k).procs k = ((s.procs k).tick env (s.disk (s.procs k).workpath)).1 := by simp [Site.step]
      rw [hp'] at hwk ⊢
      rw [tick_workpath] at hwk
      exact touches_tick env (h.apart k hk hwk) _
    · have hp' : (s.step env j).procs k = s.procs k := by simp [Site.step, hkj]
      rw [hp'] at hwk ⊢
      exact h.apart k hk hwk

theorem Follows.run {V : String → Prop} {env : Env} {i : ι} {x : Proc × Dict (File Api)} (sched : List ι) : ∀ {s : Site ι},
    Follows V s i x → Follows V (s.run env sched) i (solo env x (sched.count i)) := by
  induction sched generalizing x with
  | nil => intro s h; exact h
  | cons j sched ih =>
    intro s h
    show Follows V ((s.step env j).run env sched) i _
    by_cases hj : j = i
    · subst hj
      rw [List.count_cons_self, Nat.add_comm, solo_add, solo_one]
      exact ih h.own
    · rw [List.count_cons_of_ne hj]
      exact ih (h.other hj)

end Hyperstatic
