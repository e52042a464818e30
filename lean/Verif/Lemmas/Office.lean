import Verif.Spec.Office
import Verif.Lemmas.World

namespace Hyperstatic
open Spec

/-! ### folders and variables after one event -/

theorem folder_set (o : Office) (q p : String) (F : Folder) (S : Dict Session) :
    Office.folder ⟨o.disk.set q F, S⟩ p = if q = p then F else o.folder p := by
  unfold Office.folder
  rw [Dict.get?_set]
  split <;> rfl

theorem folder_sessions (o : Office) (S : Dict Session) (p : String) : Office.folder { o with sessions := S } p = o.folder p := rfl

theorem drop_get (d : Dict Session) (s t : String) : (Office.drop d s).get? t = if t = s then none else d.get? t := by
  induction d with
  | nil => simp [Office.drop]
  | cons a d ih =>
    obtain ⟨k, v⟩ := a
    unfold Office.drop at ih ⊢
    rw [List.filter_cons]
    by_cases hk : k = s
    · subst hk
      simp only [ne_eq, not_true_eq_false, decide_false, Bool.false_eq_true, if_false]
      rw [ih, Dict.get?_cons]
      by_cases ht : t = k
      · rw [if_pos ht, if_pos ht]
      · rw [if_neg ht, if_neg ht, if_neg (fun h => ht h.symm)]
    · simp only [ne_eq, hk, not_false_eq_true, decide_true, if_true]
      rw [Dict.get?_cons, Dict.get?_cons, ih]
      by_cases ht : k = t
      · subst ht; rw [if_pos rfl, if_neg hk, if_pos rfl]
      · rw [if_neg ht, if_neg ht]

theorem loadFrom_folder (o : Office) (s q f p : String) : (o.loadFrom s q f).1.folder p = o.folder p := by
  unfold Office.loadFrom
  split <;> rfl

theorem loadFrom_other (o : Office) (s q f : String) {t : String} (h : s ≠ t) :
    (o.loadFrom s q f).1.sessions.get? t = o.sessions.get? t := by
  unfold Office.loadFrom
  split
  · exact Dict.get?_set_ne _ _ h
  · rfl

/-- a call other than `load`, written out -/
theorem step_call (env : Env) {o : Office} {s : String} {x : Session} (hs : o.sessions.get? s = some x) {c : Call}
    (hc : ¬ Call.isLoad c) : o.step env (.call s c) =
      ({ disk := o.disk.set x.workpath ⟨(World.step env ⟨x.api, (o.folder x.workpath).files⟩ c).1.fs,
            Office.notePath (o.folder x.workpath).savedPath x.workpath c⟩
         sessions := o.sessions.set s ⟨x.workpath, (World.step env ⟨x.api, (o.folder x.workpath).files⟩ c).1.api⟩ },
        (World.step env ⟨x.api, (o.folder x.workpath).files⟩ c).2) := by
  cases c <;> first | (exact absurd trivial hc) | (simp only [Office.step, hs])

theorem step_callLoad (env : Env) {o : Office} {s : String} {x : Session} (hs : o.sessions.get? s = some x) (f : String) :
    o.step env (.call s (.load f)) = o.loadFrom s x.workpath f := by
  simp only [Office.step, hs]

theorem step_callNone (env : Env) {o : Office} {s : String} (hs : o.sessions.get? s = none) (c : Call) :
    o.step env (.call s c) = (o, false) := by
  simp only [Office.step, hs]

theorem isLoad_cases (c : Call) : (∃ f, c = .load f) ∨ ¬ Call.isLoad c := by
  cases c <;> first | exact Or.inl ⟨_, rfl⟩ | exact Or.inr (fun h => h)

/-- a variable is changed only by events about it -/
theorem step_session (env : Env) (o : Office) (e : Event) {s : String} (h : ¬ Event.about s e) :
    (o.step env e).1.sessions.get? s = o.sessions.get? s := by
  cases e with
  | start t q => exact Dict.get?_set_ne _ _ h
  | load t q f => exact loadFrom_other o t q f h
  | call t c =>
    cases ht : o.sessions.get? t with
    | none => rw [step_callNone env ht]
    | some x =>
      rcases isLoad_cases c with ⟨f, rfl⟩ | hc
      · rw [step_callLoad env ht]; exact loadFrom_other o t _ f h
      · rw [step_call env ht hc]; exact Dict.get?_set_ne _ _ h
  | kill t =>
    show (Office.drop o.sessions t).get? s = _
    rw [drop_get, if_neg (fun e => h e.symm)]
  | killDuring t c k =>
    simp only [Office.step]
    cases ht : o.sessions.get? t with
    | none => rfl
    | some x =>
      simp only
      generalize (Office.leftBehind env ⟨x.api, (o.folder x.workpath).files⟩ c)[k]? = r
      cases r with
      | none => rfl
      | some fs =>
        show (Office.drop o.sessions t).get? s = _
        rw [drop_get, if_neg (fun e => h e.symm)]
  | copy q r => rfl

/-- a folder is changed only by events that take place there -/
theorem step_folder (env : Env) (o : Office) (e : Event) {p : String} (h : place o e ≠ some p) :
    (o.step env e).1.folder p = o.folder p := by
  cases e with
  | start t q =>
    show Office.folder ⟨o.disk.set q (o.folder q), _⟩ p = _
    rw [folder_set]
    split
    · next hq => rw [hq]
    · rfl
  | load t q f => exact loadFrom_folder o t q f p
  | call t c =>
    cases ht : o.sessions.get? t with
    | none => rw [step_callNone env ht]
    | some x =>
      rcases isLoad_cases c with ⟨f, rfl⟩ | hc
      · rw [step_callLoad env ht]; exact loadFrom_folder o t _ f p
      · have hx : x.workpath ≠ p := by
          intro hp; apply h; simp only [place, ht, Option.map_some, hp]
        rw [step_call env ht hc, folder_set, if_neg hx]
  | kill t => rfl
  | killDuring t c k =>
    simp only [Office.step]
    cases ht : o.sessions.get? t with
    | none => rfl
    | some x =>
      have hx : x.workpath ≠ p := by
        intro hp; apply h; simp only [place, ht, Option.map_some, hp]
      simp only
      generalize (Office.leftBehind env ⟨x.api, (o.folder x.workpath).files⟩ c)[k]? = r
      cases r with
      | none => rfl
      | some fs => simp only; rw [folder_set, if_neg hx]
  | copy q r =>
    have hr : r ≠ p := by intro hp; apply h; simp only [place, hp]
    show Office.folder ⟨o.disk.set r _, _⟩ p = _
    rw [folder_set, if_neg hr]

/-! ### an undisturbed session -/

/-- every file of saved model data in the folder was saved by an object working there -/
def OwnPaths (F : Folder) (p : String) : Prop := ∀ k q, F.savedPath.get? k = some q → q = p

theorem ownPaths_note {d : Dict String} {p : String} (h : ∀ k q, d.get? k = some q → q = p) (c : Call) (k q : String)
    (hk : (Office.notePath d p c).get? k = some q) : q = p := by
  cases c with
  | save f =>
    simp only [Office.notePath] at hk
    rw [Dict.get?_set] at hk
    split at hk
    · cases hk; rfl
    · exact h _ _ hk
  | _ => exact h _ _ hk

/-- the step of the session itself -/
theorem own_step (env : Env) {o : Office} {s p : String} {a : Api} (hs : o.sessions.get? s = some ⟨p, a⟩) (c : Call)
    (hc : OwnPaths (o.folder p) p ∨ ¬ Call.isLoad c) :
    (o.step env (.call s c)).1.sessions.get? s = some ⟨p, (World.step env ⟨a, (o.folder p).files⟩ c).1.api⟩ ∧
    ((o.step env (.call s c)).1.folder p).files = (World.step env ⟨a, (o.folder p).files⟩ c).1.fs ∧
    (o.step env (.call s c)).2 = (World.step env ⟨a, (o.folder p).files⟩ c).2 ∧
    (OwnPaths (o.folder p) p → OwnPaths ((o.step env (.call s c)).1.folder p) p) := by
  rcases isLoad_cases c with ⟨f, rfl⟩ | hl
  · have ho : OwnPaths (o.folder p) p := hc.resolve_right (fun h => h trivial)
    rw [step_callLoad env hs]
    simp only
    refine ⟨?_, ?_, ?_, ?_⟩
    · rw [step_load]
      unfold Office.loadFrom
      simp only
      generalize hg : (o.folder p).files.get? (f ++ ".sep") = r
      cases r with
      | none => exact hs
      | some v =>
        cases v with
        | sep b =>
          simp only [Dict.get?_set_same]
          congr 2
          generalize hq : (o.folder p).savedPath.get? (f ++ ".sep") = q
          cases q with
          | none => rfl
          | some q => exact ho _ _ hq
        | _ => exact hs
    · rw [loadFrom_folder, step_load]
      split <;> rfl
    · rw [step_load]
      unfold Office.loadFrom
      simp only
      generalize (o.folder p).files.get? (f ++ ".sep") = r
      cases r with
      | none => rfl
      | some v => cases v <;> rfl
    · intro h
      rw [loadFrom_folder]; exact h
  · rw [step_call env hs hl]
    simp only
    refine ⟨Dict.get?_set_same _ _ _, ?_, trivial, ?_⟩
    · rw [folder_set, if_pos rfl]
    · intro h
      rw [folder_set, if_pos rfl]
      exact ownPaths_note h c

/-- what an undisturbed session does is what it would do alone in a copy of its folder -/
theorem undisturbed_run (env : Env) {s p : String} (es : List Event) :
    ∀ {o : Office} {a : Api}, o.sessions.get? s = some ⟨p, a⟩ → Undisturbed env s p o es →
      (OwnPaths (o.folder p) p ∨ ∀ c ∈ callsOf s es, ¬ Call.isLoad c) →
      (o.run env es).world s = some (World.run env ⟨a, (o.folder p).files⟩ (callsOf s es)) ∧
      (∃ b, (o.run env es).sessions.get? s = some ⟨p, b⟩) ∧
      returnsOf env s o es = outputs env ⟨a, (o.folder p).files⟩ (callsOf s es) := by
  induction es with
  | nil =>
    intro o a hs _ _
    refine ⟨?_, ⟨a, hs⟩, rfl⟩
    show o.world s = _
    unfold Office.world
    rw [hs]; rfl
  | cons e es ih =>
    intro o a hs hU hp
    obtain ⟨h1, h2⟩ := hU
    by_cases hown : ∃ c, e = .call s c
    · obtain ⟨c, rfl⟩ := hown
      have hcs : callsOf s (.call s c :: es) = c :: callsOf s es := if_pos rfl
      rw [hcs] at hp
      have hc : OwnPaths (o.folder p) p ∨ ¬ Call.isLoad c := hp.imp id (fun h => h c List.mem_cons_self)
      obtain ⟨k1, k2, k3, k4⟩ := own_step env hs c hc
      obtain ⟨i1, i2, i3⟩ := ih k1 h2 (hp.imp k4 (fun h c' hc' => h c' (List.mem_cons_of_mem _ hc')))
      rw [k2] at i1 i3
      refine ⟨?_, i2, ?_⟩
      · rw [hcs]; exact i1
      · rw [hcs]
        show returnsOf env s o (.call s c :: es) = _
        unfold returnsOf outputs
        rw [if_pos rfl, k3, i3]
    · obtain ⟨n1, n2⟩ := h1.resolve_left hown
      have e1 := step_session env o e n1
      have e2 := step_folder env o e n2
      have hcs : callsOf s (e :: es) = callsOf s es := by
        cases e with
        | call t c => exact if_neg n1
        | _ => rfl
      rw [hcs] at hp
      obtain ⟨i1, i2, i3⟩ := ih (e1.trans hs) h2 (by rw [e2]; exact hp)
      rw [e2] at i1 i3
      refine ⟨by rw [hcs]; exact i1, i2, ?_⟩
      rw [hcs]
      have : returnsOf env s o (e :: es) = returnsOf env s (o.step env e).1 es := by
        cases e with
        | call t c =>
          show (if t = s then _ else _) = _
          exact if_neg n1
        | _ => rfl
      rw [this]; exact i3

/-! ### no file `0.k` -/

theorem leftBehind_get (env : Env) (w : World) (c : Call) {fs : Dict (File Api)} (h : fs ∈ Office.leftBehind env w c) (key : String)
    (h1 : key ≠ Api.filename) (h2 : key ≠ "0.k.npy") (h3 : ∀ n : String, key ≠ n ++ ".d" ++ ".npy")
    (h4 : ∀ f, c = .save f → key ≠ f ++ ".sep") : fs.get? key = w.fs.get? key := by
  cases c with
  | assemble =>
    unfold Office.leftBehind at h
    cases hx : w.api.assembly with
    | error e =>
      simp only [hx, List.mem_singleton] at h
      rw [h]
    | ok a =>
      simp only [hx, List.mem_cons, List.not_mem_nil, or_false] at h
      rcases h with rfl | rfl
      · rfl
      · exact Dict.get?_set_ne _ _ (Ne.symm h1)
  | solveStatic n =>
    unfold Office.leftBehind at h
    cases hx : openAssembly w.fs Api.filename with
    | error e => simp only [hx, List.mem_singleton] at h; rw [h]
    | ok a =>
      simp only [hx] at h
      split at h
      · rw [List.mem_singleton] at h; rw [h]
      · cases hK : a.assembleK env with
        | error e => simp only [hK, List.mem_singleton] at h; rw [h]
        | ok K =>
          simp only [hK, List.mem_cons, List.not_mem_nil, or_false] at h
          rcases h with rfl | rfl | rfl | rfl
          · rfl
          · exact Dict.get?_set_ne _ _ (Ne.symm h2)
          · exact Dict.get?_set_ne _ _ (Ne.symm h2)
          · rw [Dict.get?_set_ne _ _ (Ne.symm (h3 n)), Dict.get?_set_ne _ _ (Ne.symm h2)]
  | save f =>
    unfold Office.leftBehind at h
    simp only [List.mem_cons, List.not_mem_nil, or_false] at h
    rcases h with rfl | rfl
    · rfl
    · exact Dict.get?_set_ne _ _ (Ne.symm (h4 f rfl))
  | _ =>
    unfold Office.leftBehind at h
    rw [List.mem_singleton] at h
    rw [h]

theorem leftBehind_no0k (env : Env) (w : World) (c : Call) {fs : Dict (File Api)} (h : fs ∈ Office.leftBehind env w c)
    (h0 : w.fs.get? "0.k" = none) : fs.get? "0.k" = none := by
  rw [leftBehind_get env w c h "0.k" (by decide) (by decide)
    (fun n => Ne.symm (by rw [disp_eq]; exact append_ne_0k (by decide))) (fun f _ => Ne.symm (append_ne_0k (by decide)))]
  exact h0

theorem office_no0k_step (env : Env) (o : Office) (e : Event) (h : ∀ p, (o.folder p).files.get? "0.k" = none) (p : String) :
    ((o.step env e).1.folder p).files.get? "0.k" = none := by
  by_cases hp : place o e = some p
  · cases e with
    | call t c =>
      cases ht : o.sessions.get? t with
      | none => rw [step_callNone env ht]; exact h p
      | some x =>
        rcases isLoad_cases c with ⟨f, rfl⟩ | hc
        · rw [step_callLoad env ht, loadFrom_folder]; exact h p
        · rw [step_call env ht hc, folder_set]
          split
          · exact no0k_step env _ c (h _)
          · exact h p
    | killDuring t c k =>
      simp only [Office.step]
      cases ht : o.sessions.get? t with
      | none => exact h p
      | some x =>
        simp only
        generalize hr : (Office.leftBehind env ⟨x.api, (o.folder x.workpath).files⟩ c)[k]? = r
        cases r with
        | none => exact h p
        | some fs =>
          simp only
          rw [folder_set]
          split
          · exact leftBehind_no0k env _ c (List.mem_of_getElem? hr) (h _)
          · exact h p
    | copy q r =>
      show (Office.folder ⟨o.disk.set r _, _⟩ p).files.get? "0.k" = none
      rw [folder_set]
      split
      · exact h q
      · exact h p
    | _ => cases hp
  · rw [step_folder env o e hp]; exact h p

theorem office_no0k (env : Env) (evs : List Event) (p : String) :
    ((Office.init.run env evs).folder p).files.get? "0.k" = none := by
  have : ∀ (evs : List Event) (o : Office), (∀ p, (o.folder p).files.get? "0.k" = none) →
      ∀ p, ((o.run env evs).folder p).files.get? "0.k" = none := by
    intro evs
    induction evs with
    | nil => intro o h; exact h
    | cons e es ih => intro o h; exact ih _ (office_no0k_step env o e h)
  exact this evs Office.init (fun p => rfl) p

/-! ### a used folder and a new one -/

/-- the used folder has every assembly and displacement file of the new one, and these only follow an assembly -/
structure Covers (w w' : World) : Prop where
  api : w.api = w'.api
  no0k : w.fs.get? "0.k" = none
  no0k' : w'.fs.get? "0.k" = none
  asb : ∀ v, w.fs.get? Api.filename = some v → w'.fs.get? Api.filename = some v
  disp : ∀ c v, w.fs.get? (c ++ ".d.npy") = some v → w'.fs.get? (c ++ ".d.npy") = some v
  late : w.fs.get? Api.filename = none → ∀ c : String, w.fs.get? (c ++ ".d.npy") = none

theorem sep_ne_dnpy (f c : String) : f ++ ".sep" ≠ c ++ ".d.npy" := by rw [← disp_eq]; exact sep_ne_disp f c

theorem Covers.step (env : Env) {w w' : World} (h : Covers w w') {c : Call} (hc : ¬ Call.isLoad c) :
    Covers (w.step env c).1 (w'.step env c).1 ∧ ((w.step env c).2 = true → (w'.step env c).2 = true) := by
  have n1 := no0k_step env w c h.no0k
  have n2 := no0k_step env w' c h.no0k'
  by_cases he : c.isEdit = true
  · rw [step_edit env w c he, step_edit env w' c he, ← h.api]
    cases hx : w.api.edit c with
    | ok a => exact ⟨⟨rfl, h.no0k, h.no0k', h.asb, h.disp, h.late⟩, fun _ => rfl⟩
    | error e => exact ⟨h, fun hh => hh⟩
  · cases c with
    | assemble =>
      cases hx : w.api.assembly with
      | error e =>
        have hx' : w'.api.assembly = .error e := by rw [← h.api]; exact hx
        simp only [World.step, hx, hx']
        exact ⟨h, fun hh => hh⟩
      | ok x =>
        rw [step_assemble env w' x (by rw [← h.api]; exact hx)] at n2 ⊢
        rw [step_assemble env w x hx] at n1 ⊢
        refine ⟨⟨h.api, n1, n2, ?_, ?_, ?_⟩, fun _ => rfl⟩
        · intro v hv
          change (Dict.set w.fs ".asb" _).get? ".asb" = some v at hv
          change (Dict.set w'.fs ".asb" _).get? ".asb" = some v
          rw [Dict.get?_set_same] at hv ⊢
          exact hv
        · intro c v hv
          rw [Dict.get?_set_ne _ _ (Ne.symm (disp_ne_asb c))] at hv ⊢
          exact h.disp c v hv
        · intro hn
          change (Dict.set w.fs ".asb" _).get? ".asb" = none at hn
          rw [Dict.get?_set_same] at hn
          cases hn
    | solveStatic n =>
      cases hA : w.fs.get? Api.filename with
      | none =>
        have hop : openAssembly w.fs Api.filename = .error .fileNotFound := by unfold openAssembly; rw [hA]
        have e1 : w.step env (.solveStatic n) = (w, false) := by
          simp only [World.step, solveLinear, hop]; rfl
        rw [e1]
        refine ⟨⟨?_, h.no0k, n2, ?_, ?_, h.late⟩, fun hh => by cases hh⟩
        · rw [h.api]; rfl
        · intro v hv; rw [hA] at hv; cases hv
        · intro c v hv; rw [h.late hA c] at hv; cases hv
      | some v =>
        have hA' := h.asb v hA
        by_cases hv : ∃ x, v = .asb x
        · obtain ⟨x, rfl⟩ := hv
          rw [solveStatic_eq env hA h.no0k, solveStatic_eq env hA' h.no0k']
          rw [solveStatic_eq env hA h.no0k] at n1
          rw [solveStatic_eq env hA' h.no0k'] at n2
          cases hK : x.assembleK env with
          | error e => exact ⟨h, fun hh => hh⟩
          | ok K =>
            simp only [hK] at n1 n2 ⊢
            have a1 : ∀ fs : Dict (File Api), (Dict.set fs "0.k.npy" (.stiff K)).get? Api.filename = fs.get? Api.filename :=
              fun fs => Dict.get?_set_ne _ _ (by decide)
            have d1 : ∀ (fs : Dict (File Api)) (c : String),
                (Dict.set fs "0.k.npy" (.stiff K)).get? (c ++ ".d.npy") = fs.get? (c ++ ".d.npy") :=
              fun fs c => Dict.get?_set_ne _ _ (Ne.symm (disp_ne_stiff c))
            cases hd : solveCase env x n K with
            | error e =>
              simp only [hd] at n1 n2 ⊢
              refine ⟨⟨h.api, n1, n2, ?_, ?_, ?_⟩, fun hh => hh⟩
              · intro v hv; rw [a1] at hv ⊢; exact h.asb v hv
              · intro c v hv; rw [d1] at hv ⊢; exact h.disp c v hv
              · intro hn c; rw [a1] at hn; rw [d1]; exact h.late hn c
            | ok d =>
              simp only [hd] at n1 n2 ⊢
              refine ⟨⟨h.api, n1, n2, ?_, ?_, ?_⟩, fun _ => trivial⟩
              · intro v hv
                rw [Dict.get?_set_ne _ _ (show n ++ ".d.npy" ≠ Api.filename from disp_ne_asb n), a1] at hv ⊢
                exact h.asb v hv
              · intro c v hv
                rw [Dict.get?_set] at hv ⊢
                split
                · next hcn => rw [if_pos hcn] at hv; exact hv
                · next hcn =>
                  rw [if_neg hcn, d1] at hv
                  rw [d1]; exact h.disp c v hv
              · intro hn c
                rw [Dict.get?_set_ne _ _ (show n ++ ".d.npy" ≠ Api.filename from disp_ne_asb n), a1, hA] at hn
                cases hn
        · have hop : ∀ fs : Dict (File Api), fs.get? Api.filename = some v → openAssembly fs Api.filename = .error .exception := by
            intro fs hfs
            unfold openAssembly
            rw [hfs]
            cases v <;> first | rfl | exact absurd ⟨_, rfl⟩ hv
          have e : ∀ u : World, u.fs.get? Api.filename = some v → u.step env (.solveStatic n) = (u, false) := by
            intro u hu
            simp only [World.step, solveLinear, hop _ hu]; rfl
          rw [e w hA, e w' hA']
          exact ⟨h, fun hh => hh⟩
    | solveModal n k =>
      rw [step_solveModal, step_solveModal]
      exact ⟨h, fun hh => hh⟩
    | save f =>
      rw [step_save] at n1 n2
      rw [step_save, step_save]
      refine ⟨⟨h.api, n1, n2, ?_, ?_, ?_⟩, fun _ => rfl⟩
      · intro v hv
        rw [Dict.get?_set_ne _ _ (show f ++ ".sep" ≠ Api.filename from sep_ne_asb f)] at hv ⊢
        exact h.asb v hv
      · intro c v hv
        rw [Dict.get?_set_ne _ _ (sep_ne_dnpy f c)] at hv ⊢
        exact h.disp c v hv
      · intro hn c
        rw [Dict.get?_set_ne _ _ (show f ++ ".sep" ≠ Api.filename from sep_ne_asb f)] at hn
        rw [Dict.get?_set_ne _ _ (sep_ne_dnpy f c)]
        exact h.late hn c
    | load f => exact absurd trivial hc
    | clearWorkspace => exact ⟨h, fun hh => hh⟩
    | _ => exact absurd rfl he

theorem Covers.run (env : Env) (cs : List Call) : ∀ {w w' : World}, Covers w w' → (∀ c ∈ cs, ¬ Call.isLoad c) →
    Covers (w.run env cs) (w'.run env cs) ∧ List.Forall₂ (fun a b => a = true → b = true) (outputs env w cs) (outputs env w' cs) := by
  induction cs with
  | nil => intro w w' h _; exact ⟨h, .nil⟩
  | cons c cs ih =>
    intro w w' h hl
    obtain ⟨h1, h2⟩ := h.step env (hl c List.mem_cons_self)
    obtain ⟨i1, i2⟩ := ih h1 (fun c' hc' => hl c' (List.mem_cons_of_mem _ hc'))
    exact ⟨i1, .cons h2 i2⟩

theorem Covers.openAsb {w w' : World} (h : Covers w w') {a : Assembly} (ha : openAssembly w.fs Api.filename = .ok a) :
    openAssembly w'.fs Api.filename = .ok a := by
  unfold openAssembly at ha ⊢
  cases hv : w.fs.get? Api.filename with
  | none => rw [hv] at ha; cases ha
  | some v => rw [hv] at ha; rw [h.asb v hv]; exact ha

theorem Covers.loadD {w w' : World} (h : Covers w w') {c : String} {d : List ℝ} (hd : loadDisp w.fs c = .ok d) :
    loadDisp w'.fs c = .ok d := by
  unfold loadDisp at hd ⊢
  cases hv : w.fs.get? (c ++ ".d.npy") with
  | none => rw [hv] at hd; cases hd
  | some v => rw [hv] at hd; rw [h.disp c v hv]; exact hd

theorem Covers.nodal {w w' : World} (h : Covers w w') {n c : String} {d : List ℝ}
    (hd : resolveNodalDisplacement w.fs Api.filename n c = .ok d) : resolveNodalDisplacement w'.fs Api.filename n c = .ok d := by
  unfold resolveNodalDisplacement at hd ⊢
  cases ha : openAssembly w.fs Api.filename with
  | error e => rw [ha] at hd; cases hd
  | ok a =>
    rw [ha] at hd
    rw [h.openAsb ha]
    rw [Except.bind_ok] at hd ⊢
    cases hl : loadDisp w.fs c with
    | error e => rw [hl] at hd; cases hd
    | ok l =>
      rw [hl] at hd
      rw [h.loadD hl]
      exact hd

theorem tryOption_some {α : Type} {e : Except PyErr α} {x : α} : tryOption e = some x ↔ e = .ok x := by
  cases e <;> simp [tryOption]

theorem mapM_ok_of {α β : Type} {f g : α → Except PyErr β} (h : ∀ a b, f a = .ok b → g a = .ok b) (l : List α) {r : List β}
    (hr : l.mapM f = .ok r) : l.mapM g = .ok r := by
  induction l generalizing r with
  | nil => exact hr
  | cons a l ih =>
    rw [List.mapM_cons] at hr ⊢
    cases ha : f a with
    | error e => rw [ha] at hr; cases hr
    | ok b =>
      rw [ha] at hr
      rw [h a b ha]
      rw [Except.bind_ok] at hr ⊢
      cases hl : l.mapM f with
      | error e => rw [hl] at hr; cases hr
      | ok bs => rw [hl] at hr; rw [ih hl]; exact hr

theorem Covers.confirms {w w' : World} (h : Covers w w') : Confirms w w' where
  nodeNames := by unfold World.getNodeNames; rw [h.api]
  nodeLocation n := by unfold World.getNodeLocation; rw [h.api]
  nodeRestraints c := by unfold World.getNodeRestraints; rw [h.api]
  beamNames := by unfold World.getBeamNames; rw [h.api]
  beamNodeNames b := by unfold World.getBeamNodeNames; rw [h.api]
  beamLocation b := by unfold World.getBeamLocation; rw [h.api]
  shellNames := by unfold World.getShellNames; rw [h.api]
  shellNodeNames s := by unfold World.getShellNodeNames; rw [h.api]
  shellLocation s := by unfold World.getShellLocation; rw [h.api]
  nodalLoad p n := by unfold World.getNodalLoad; rw [h.api]
  allNodalLoad p := by unfold World.getAllNodalLoad; rw [h.api]
  displacement n c d hd := tryOption_some.mpr (h.nodal (tryOption_some.mp hd))
  allDisplacement c d hd := by
    have hd' := tryOption_some.mp hd
    refine tryOption_some.mpr ?_
    cases ha : openAssembly w.fs Api.filename with
    | error e => rw [ha] at hd'; cases hd'
    | ok a =>
      rw [ha, Except.bind_ok] at hd'
      rw [h.openAsb ha, Except.bind_ok]
      have hn : w'.getNodeNames = w.getNodeNames := by unfold World.getNodeNames; rw [h.api]
      rw [hn]
      have key : ∀ (r : List (String × List ℝ)), w.getNodeNames.mapM (fun n => do
          let d ← resolveNodalDisplacement w.fs Api.filename n c
          return (n, d)) = .ok r → w.getNodeNames.mapM (fun n => do
          let d ← resolveNodalDisplacement w'.fs Api.filename n c
          return (n, d)) = .ok r := by
        intro r hr
        refine mapM_ok_of ?_ _ hr
        intro n b hb
        cases hx : resolveNodalDisplacement w.fs Api.filename n c with
        | error e => rw [hx] at hb; cases hb
        | ok x => rw [hx] at hb; rw [h.nodal hx]; exact hb
      generalize hm : w.getNodeNames.mapM (fun n => do
          let d ← resolveNodalDisplacement w.fs Api.filename n c
          return (n, d)) = m at hd'
      cases m with
      | error e => cases hd'
      | ok r => rw [key r hm]; exact hd'
  deformation b l c d hd := by
    have hd' := tryOption_some.mp hd
    refine tryOption_some.mpr ?_
    unfold resolveBeamDeformation at hd' ⊢
    cases ha : openAssembly w.fs Api.filename with
    | error e => rw [ha] at hd'; cases hd'
    | ok a =>
      rw [ha] at hd'
      rw [h.openAsb ha]
      rw [Except.bind_ok] at hd' ⊢
      cases hl : loadDisp w.fs c with
      | error e => rw [hl] at hd'; cases hd'
      | ok l => rw [hl] at hd'; rw [h.loadD hl]; exact hd'

end Hyperstatic
