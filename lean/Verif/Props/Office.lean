import Verif.Lemmas.Office
import Verif.Props.Results

/-
C125: sessions on one disk do not disturb one another.  C126: processes that die.
-/

namespace Hyperstatic
open Spec

theorem office_run_append (env : Env) (o : Office) (a b : List Event) : o.run env (a ++ b) = (o.run env a).run env b :=
  List.foldl_append

theorem office_run_cons (env : Env) (o : Office) (e : Event) (es : List Event) : o.run env (e :: es) = (o.step env e).1.run env es := rfl

theorem office_run_nil (env : Env) (o : Office) : o.run env [] = o := rfl

/-! ### C125 Sessions do not disturb one another -/

/-- The property as one would like it: a session that is started in a folder answers as if it were the only one, whatever other sessions
do. -/
def C125_claim : Prop := ∀ (env : Env) (s p : String) (rest : List Event), (∀ e ∈ rest, Event.about s e → ∃ c, e = .call s c) →
  ∃ w, (Office.init.run env (.start s p :: rest)).world s = some w ∧ SameAnswers w (World.init.run env (callsOf s rest))

/-- an event of other sessions, none of which works in `p` -/
theorem step_far (env : Env) {o : Office} {p : String} (e : Event) (hn : ¬ Event.names p e)
    (hS : ∀ t x, Event.about t e → o.sessions.get? t = some x → x.workpath ≠ p)
    (hF : ∀ q, q ≠ p → ∀ k r, (o.folder q).savedPath.get? k = some r → r ≠ p) :
    place o e ≠ some p ∧
    (∀ t x, (o.step env e).1.sessions.get? t = some x → o.sessions.get? t = some x ∨ x.workpath ≠ p) ∧
    ∀ q, q ≠ p → ∀ k r, ((o.step env e).1.folder q).savedPath.get? k = some r → r ≠ p := by
  have hload : ∀ s q f, q ≠ p → ∀ t x, (o.loadFrom s q f).1.sessions.get? t = some x → o.sessions.get? t = some x ∨ x.workpath ≠ p := by
    intro s q f hq t x hx
    unfold Office.loadFrom at hx
    split at hx
    · rw [Dict.get?_set] at hx
      split at hx
      · cases hx
        right
        simp only
        generalize hk : (o.folder q).savedPath.get? (f ++ ".sep") = k
        cases k with
        | none => exact hq
        | some r => exact hF q hq _ _ hk
      · exact Or.inl hx
    · exact Or.inl hx
  cases e with
  | start s q =>
    refine ⟨by simp [place], ?_, ?_⟩
    · intro t x hx
      change (o.sessions.set s _).get? t = some x at hx
      rw [Dict.get?_set] at hx
      split at hx
      · cases hx; exact Or.inr hn
      · exact Or.inl hx
    · intro q' hq' k r hk
      rw [step_folder env o _ (by simp [place])] at hk
      exact hF q' hq' k r hk
  | load s q f =>
    refine ⟨by simp [place], hload s q f hn, ?_⟩
    intro q' hq' k r hk
    rw [step_folder env o _ (by simp [place])] at hk
    exact hF q' hq' k r hk
  | call s c =>
    cases hs : o.sessions.get? s with
    | none =>
      rw [step_callNone env hs]
      exact ⟨by simp [place, hs], fun t x hx => Or.inl hx, hF⟩
    | some y =>
      have hy : y.workpath ≠ p := hS s y rfl hs
      refine ⟨by simp [place, hs, hy], ?_, ?_⟩
      · rcases isLoad_cases c with ⟨f, rfl⟩ | hc
        · rw [step_callLoad env hs]; exact hload s _ f hy
        · rw [step_call env hs hc]
          intro t x hx
          rw [Dict.get?_set] at hx
          split at hx
          · cases hx; exact Or.inr hy
          · exact Or.inl hx
      · rcases isLoad_cases c with ⟨f, rfl⟩ | hc
        · rw [step_callLoad env hs]
          intro q hq k r hk
          rw [loadFrom_folder] at hk
          exact hF q hq k r hk
        · rw [step_call env hs hc]
          intro q hq k r hk
          rw [folder_set] at hk
          split at hk
          · next hyq =>
            subst hyq
            simp only at hk
            cases c with
            | save f =>
              simp only [Office.notePath] at hk
              rw [Dict.get?_set] at hk
              split at hk
              · cases hk; exact hy
              · exact hF _ hq k r hk
            | _ => exact hF _ hq k r hk
          · exact hF q hq k r hk
  | kill s =>
    refine ⟨by simp [place], ?_, hF⟩
    intro t x hx
    change (Office.drop o.sessions s).get? t = some x at hx
    rw [drop_get] at hx
    split at hx
    · cases hx
    · exact Or.inl hx
  | killDuring s c k =>
    simp only [Office.step]
    cases hs : o.sessions.get? s with
    | none => exact ⟨by simp [place, hs], fun t x hx => Or.inl hx, hF⟩
    | some y =>
      have hy : y.workpath ≠ p := hS s y rfl hs
      refine ⟨by simp [place, hs, hy], ?_⟩
      simp only
      generalize (Office.leftBehind env ⟨y.api, (o.folder y.workpath).files⟩ c)[k]? = v
      cases v with
      | none => exact ⟨fun t x hx => Or.inl hx, hF⟩
      | some fs =>
        refine ⟨?_, ?_⟩
        · intro t x hx
          change (Office.drop o.sessions s).get? t = some x at hx
          rw [drop_get] at hx
          split at hx
          · cases hx
          · exact Or.inl hx
        · intro q hq k r hk
          simp only at hk
          rw [folder_set] at hk
          split at hk
          · next hyq => subst hyq; exact hF _ hq k r hk
          · exact hF q hq k r hk
  | copy q r =>
    have hqr : q ≠ p ∧ r ≠ p := not_or.mp hn
    refine ⟨by simp [place, hqr.2], fun t x hx => Or.inl hx, ?_⟩
    intro q' hq' k v hk
    change ((Office.folder ⟨o.disk.set r (o.folder q), _⟩ q').savedPath).get? k = some v at hk
    rw [folder_set] at hk
    split at hk
    · exact hF q hqr.1 k v hk
    · exact hF q' hq' k v hk

/-- before the folder is used -/
theorem before_use (env : Env) {p : String} (pre : List Event) (h : ∀ e ∈ pre, ¬ Event.names p e) :
    (∀ t x, (Office.init.run env pre).sessions.get? t = some x → x.workpath ≠ p) ∧
    (∀ q, q ≠ p → ∀ k r, ((Office.init.run env pre).folder q).savedPath.get? k = some r → r ≠ p) ∧
    (Office.init.run env pre).folder p = ⟨[], []⟩ := by
  have key : ∀ (pre : List Event) (o : Office), (∀ e ∈ pre, ¬ Event.names p e) → (∀ t x, o.sessions.get? t = some x → x.workpath ≠ p) →
      (∀ q, q ≠ p → ∀ k r, (o.folder q).savedPath.get? k = some r → r ≠ p) → o.folder p = ⟨[], []⟩ →
      (∀ t x, (o.run env pre).sessions.get? t = some x → x.workpath ≠ p) ∧
      (∀ q, q ≠ p → ∀ k r, ((o.run env pre).folder q).savedPath.get? k = some r → r ≠ p) ∧ (o.run env pre).folder p = ⟨[], []⟩ := by
    intro pre
    induction pre with
    | nil => intro o _ h1 h2 h3; exact ⟨h1, h2, h3⟩
    | cons e es ih =>
      intro o hn h1 h2 h3
      obtain ⟨k1, k2, k3⟩ := step_far env e (hn e List.mem_cons_self) (fun t x _ hx => h1 t x hx) h2
      exact ih _ (fun e' he' => hn e' (List.mem_cons_of_mem _ he')) (fun t x hx => (k2 t x hx).elim (h1 t x) id) k3
        (by rw [step_folder env o e k1]; exact h3)
  exact key pre Office.init h (fun t x hx => by simp [Office.init] at hx)
    (fun q _ k r hk => by simp [Office.init, Office.folder] at hk) rfl

/-- static conditions under which a session is undisturbed -/
theorem undisturbed_of (env : Env) {s p : String} (rest : List Event) : ∀ {o : Office} {a : Api},
    o.sessions.get? s = some ⟨p, a⟩ → OwnPaths (o.folder p) p → (∀ t x, t ≠ s → o.sessions.get? t = some x → x.workpath ≠ p) →
    (∀ q, q ≠ p → ∀ k r, (o.folder q).savedPath.get? k = some r → r ≠ p) →
    (∀ e ∈ rest, Event.about s e → ∃ c, e = .call s c) → (∀ e ∈ rest, ¬ Event.names p e) → Undisturbed env s p o rest := by
  induction rest with
  | nil => intros; trivial
  | cons e es ih =>
    intro o a hs hO hS hF hown hn
    have hown' := fun e' he' => hown e' (List.mem_cons_of_mem _ he')
    have hn' := fun e' he' => hn e' (List.mem_cons_of_mem _ he')
    by_cases ha : Event.about s e
    · obtain ⟨c, rfl⟩ := hown e List.mem_cons_self ha
      obtain ⟨k1, _, _, k4⟩ := own_step env hs c (Or.inl hO)
      refine ⟨Or.inl ⟨c, rfl⟩, ih k1 (k4 hO) ?_ ?_ hown' hn'⟩
      · intro t x ht hx
        rw [step_session env o _ (show ¬ Event.about t (.call s c) from fun h => ht h.symm)] at hx
        exact hS t x ht hx
      · intro q hq k r hk
        rw [step_folder env o _ (show place o (.call s c) ≠ some q by simp [place, hs, Ne.symm hq])] at hk
        exact hF q hq k r hk
    · obtain ⟨k1, k2, k3⟩ := step_far env e (hn e List.mem_cons_self)
        (fun t x ht hx => hS t x (fun h => ha (h ▸ ht)) hx) hF
      refine ⟨Or.inr ⟨ha, k1⟩, ih (by rw [step_session env o e ha]; exact hs) (by rw [step_folder env o e k1]; exact hO) ?_ k3 hown' hn'⟩
      intro t x ht hx
      exact (k2 t x hx).elim (hS t x ht) id

/-- Sessions with work paths of their own: whatever any number of other sessions do, in whatever order, including being started, loaded,
killed and killed in the middle of a call, a session that has the folder `p` to itself holds the model, finds the files and returns the
truth values it would alone.  (Missing from the claim: sessions that share a folder, see `C125_false` and `C125_turns_partial`.) -/
theorem C125_isolated_partial (env : Env) (s p : String) (pre rest : List Event) (hpre : ∀ e ∈ pre, ¬ Event.names p e)
    (hown : ∀ e ∈ rest, Event.about s e → ∃ c, e = .call s c) (hrest : ∀ e ∈ rest, ¬ Event.names p e) :
    (Office.init.run env (pre ++ .start s p :: rest)).world s = some (World.init.run env (callsOf s rest)) ∧
    returnsOf env s (Office.init.run env (pre ++ [.start s p])) rest = outputs env World.init (callsOf s rest) := by
  obtain ⟨h1, h2, h3⟩ := before_use env pre hpre
  rw [office_run_append, office_run_append, office_run_cons, office_run_cons, office_run_nil]
  generalize Office.init.run env pre = o at h1 h2 h3
  have hs : (o.step env (.start s p)).1.sessions.get? s = some ⟨p, Api.init⟩ := Dict.get?_set_same _ _ _
  have hf : ∀ q, (o.step env (.start s p)).1.folder q = o.folder q := fun q => step_folder env o _ (by simp [place])
  have hO : OwnPaths ((o.step env (.start s p)).1.folder p) p := by
    intro k q hk
    rw [hf, h3] at hk
    simp at hk
  have hU := undisturbed_of env rest hs hO
    (by
      intro t x ht hx
      rw [step_session env o _ (show ¬ Event.about t (.start s p) from fun h => ht h.symm)] at hx
      exact h1 t x hx)
    (by intro q hq k r hk; rw [hf] at hk; exact h2 q hq k r hk) hown hrest
  obtain ⟨i1, _, i3⟩ := undisturbed_run env rest hs hU (Or.inl hO)
  rw [hf, h3] at i1 i3
  exact ⟨i1, i3⟩

/-- two sessions, calls interleaved, one of them killed while it saves -/
example : ∃ (pre rest : List Event), (∀ e ∈ pre, ¬ Event.names "q" e) ∧ (∀ e ∈ rest, Event.about "b" e → ∃ c, e = .call "b" c) ∧
    (∀ e ∈ rest, ¬ Event.names "q" e) ∧ (callsOf "b" rest).length = 3 ∧ rest.length = 6 :=
  ⟨[.start "a" "p", .call "a" (.addNode "1" 0 0 0)],
    [.call "b" (.addNode "1" 1 0 0), .call "a" .assemble, .call "b" .assemble, .killDuring "a" (.save "f") 1, .call "b" (.save "f"),
      .load "a" "p" "f"],
    by simp [Event.names], by simp [Event.about], by simp [Event.names], rfl, rfl⟩

/-- Sessions that share a folder, after any history whatever: while nobody else writes in the folder, everything a session that begins
its model anew would report in an empty folder it also reports here; each of its calls that would succeed there succeeds.
(Missing from the claim: other sessions writing in between.) -/
theorem C125_turns_partial (env : Env) (s p : String) (past rest : List Event)
    (hU : Undisturbed env s p (Office.init.run env (past ++ [.start s p])) rest) (hl : ∀ c ∈ callsOf s rest, ¬ Call.isLoad c) :
    (∃ w, (Office.init.run env (past ++ .start s p :: rest)).world s = some w ∧ Confirms (World.init.run env (callsOf s rest)) w) ∧
    List.Forall₂ (fun alone here => alone = true → here = true) (outputs env World.init (callsOf s rest))
      (returnsOf env s (Office.init.run env (past ++ [.start s p])) rest) := by
  have h0 := office_no0k env (past ++ [.start s p]) p
  have hs : (Office.init.run env (past ++ [.start s p])).sessions.get? s = some ⟨p, Api.init⟩ := by
    rw [office_run_append]; exact Dict.get?_set_same _ _ _
  have e : past ++ .start s p :: rest = (past ++ [.start s p]) ++ rest := by simp
  have e2 : Office.init.run env ((past ++ [.start s p]) ++ rest) = (Office.init.run env (past ++ [.start s p])).run env rest :=
    office_run_append env _ _ _
  rw [e, e2]
  generalize Office.init.run env (past ++ [.start s p]) = o at hU h0 hs
  obtain ⟨i1, _, i3⟩ := undisturbed_run env rest hs hU (Or.inr hl)
  have hC : Covers World.init ⟨Api.init, (o.folder p).files⟩ :=
    ⟨rfl, rfl, h0, fun v hv => by simp [World.init] at hv, fun c v hv => by simp [World.init] at hv, fun _ c => rfl⟩
  obtain ⟨j1, j2⟩ := hC.run env (callsOf s rest) hl
  exact ⟨⟨_, i1, j1.confirms⟩, by rw [i3]; exact j2⟩

theorem callsOf_calls (s : String) (cs : List Call) : callsOf s (cs.map (.call s)) = cs := by
  induction cs with
  | nil => rfl
  | cons c cs ih =>
    show (if s = s then c :: callsOf s (cs.map (.call s)) else _) = _
    rw [if_pos rfl, ih]

theorem undisturbed_calls (env : Env) (s p : String) (cs : List Call) : ∀ o : Office, Undisturbed env s p o (cs.map (.call s)) := by
  induction cs with
  | nil => intro o; trivial
  | cons c cs ih => intro o; exact ⟨Or.inl ⟨c, rfl⟩, ih _⟩

/-- the cantilever, solved in a folder another session has used: it has a table of displacements in the empty folder -/
example : ∃ (past rest : List Event) (t : Dict (List ℝ)),
    Undisturbed idealEnv "b" "p" (Office.init.run idealEnv (past ++ [.start "b" "p"])) rest ∧ (∀ c ∈ callsOf "b" rest, ¬ Call.isLoad c) ∧
    (World.init.run idealEnv (callsOf "b" rest)).resultGetAllNodalDisplacement "C" = some t := by
  obtain ⟨t, ht, _⟩ := demo_table
  refine ⟨[.start "a" "p", .call "a" (.addNode "1" 0 0 0), .call "a" .assemble, .killDuring "a" (.save "f") 1],
    (demoCalls ++ [Call.assemble, Call.solveStatic "C"]).map (.call "b"), t, undisturbed_calls _ _ _ _ _, ?_, ?_⟩
  · rw [callsOf_calls]; simp [demoCalls, Call.isLoad]
  · rw [callsOf_calls, run_append]; exact ht

theorem init_assembly : ∃ x, Api.init.assembly = .ok x ∧ x.model = FeModel.empty := ⟨_, rfl, rfl⟩

/-- Two sessions in one folder: the first has solved its model, the second assembles its own, and the results of the first are gone. -/
theorem C125_false : ¬ C125_claim := by
  intro h
  obtain ⟨t, ht, _⟩ := demo_table
  obtain ⟨x0, hx0, hm0⟩ := init_assembly
  have hsolve : ((World.init.run idealEnv demoCalls).run idealEnv [.assemble]).run idealEnv [.solveStatic "C"] =
      World.init.run idealEnv (demoCalls ++ [.assemble, .solveStatic "C"]) := by rw [run_append]; rfl
  rw [hsolve] at ht
  set cs := demoCalls ++ [Call.assemble, .solveStatic "C"] with hcs
  have hiso := (C125_isolated_partial idealEnv "a" "p" [] (cs.map (.call "a")) (by simp)
    (by intro e he _; obtain ⟨c, _, rfl⟩ := List.mem_map.mp he; exact ⟨c, rfl⟩)
    (by intro e he; obtain ⟨c, _, rfl⟩ := List.mem_map.mp he; exact fun h => h)).1
  rw [callsOf_calls, List.nil_append] at hiso
  obtain ⟨w, hw, hS⟩ := h idealEnv "a" "p" (cs.map (.call "a") ++ [.start "b" "p", .call "b" .assemble]) (by
    intro e he ha
    rcases List.mem_append.mp he with he | he
    · obtain ⟨c, _, rfl⟩ := List.mem_map.mp he; exact ⟨c, rfl⟩
    · simp only [List.mem_cons, List.not_mem_nil, or_false] at he
      rcases he with rfl | rfl <;> simp [Event.about] at ha)
  have hcalls : callsOf "a" (cs.map (.call "a") ++ [.start "b" "p", .call "b" .assemble]) = cs := by
    have : ∀ (cs : List Call), callsOf "a" (cs.map (.call "a") ++ [.start "b" "p", .call "b" .assemble]) = cs := by
      intro cs
      induction cs with
      | nil => rfl
      | cons c cs ih =>
        show (if "a" = "a" then c :: callsOf "a" (cs.map (.call "a") ++ _) else _) = _
        rw [if_pos rfl, ih]
    exact this cs
  rw [hcalls] at hS
  have hall := hS.allDisplacement "C"
  rw [ht] at hall
  rw [show Event.start "a" "p" :: (cs.map (.call "a") ++ [.start "b" "p", .call "b" .assemble]) =
    (.start "a" "p" :: cs.map (.call "a")) ++ [.start "b" "p", .call "b" .assemble] from rfl, office_run_append] at hw
  have hstart := hiso
  have hpath : ∃ b, (Office.init.run idealEnv (.start "a" "p" :: cs.map (.call "a"))).sessions.get? "a" = some ⟨"p", b⟩ := by
    have := undisturbed_run idealEnv (s := "a") (p := "p") (cs.map (.call "a"))
      (o := (Office.init.step idealEnv (.start "a" "p")).1) (a := Api.init) rfl (undisturbed_calls _ _ _ _ _)
      (Or.inr (by rw [callsOf_calls]; rw [hcs]; simp [demoCalls, Call.isLoad]))
    exact this.2.1
  generalize Office.init.run idealEnv (.start "a" "p" :: cs.map (.call "a")) = o at hw hstart hpath
  obtain ⟨b, hb⟩ := hpath
  rw [office_run_cons, office_run_cons, office_run_nil] at hw
  have hb1 : (o.step idealEnv (.start "b" "p")).1.sessions.get? "b" = some ⟨"p", Api.init⟩ := Dict.get?_set_same _ _ _
  have hf1 : (o.step idealEnv (.start "b" "p")).1.folder "p" = o.folder "p" := step_folder _ _ _ (by simp [place])
  have ha1 : (o.step idealEnv (.start "b" "p")).1.sessions.get? "a" = some ⟨"p", b⟩ := by
    rw [step_session _ _ _ (by simp [Event.about])]; exact hb
  generalize (o.step idealEnv (.start "b" "p")).1 = o1 at hw hb1 hf1 ha1
  obtain ⟨_, k2, _, _⟩ := own_step idealEnv hb1 .assemble (Or.inr (fun h => h))
  rw [step_assemble idealEnv _ x0 hx0] at k2
  simp only at k2
  have ha2 : (o1.step idealEnv (.call "b" .assemble)).1.sessions.get? "a" = some ⟨"p", b⟩ := by
    rw [step_session _ _ _ (by simp [Event.about])]; exact ha1
  generalize (o1.step idealEnv (.call "b" .assemble)).1 = o2 at hw k2 ha2
  unfold Office.world at hw hstart
  rw [ha2] at hw
  rw [hb] at hstart
  simp only [Option.map_some, Option.some.injEq] at hw hstart
  subst hw
  have hn : ({ api := b, fs := (o2.folder "p").files } : World).getNodeNames = "A" :: ["B"] := by
    have : b = (World.init.run idealEnv cs).api := by rw [← hstart]
    obtain ⟨c, hc, hrun⟩ := demo_run idealEnv
    have h2 : ∀ w : World, ((w.run idealEnv [.assemble]).run idealEnv [.solveStatic "C"]).api = w.api := by
      intro w
      simp only [run_cons, run_nil, World.step]
      split <;> rfl
    unfold World.getNodeNames
    rw [this, ← hsolve, h2, hrun]; rfl
  have hasb : openAssembly (o2.folder "p").files Api.filename = .ok x0 := by
    apply openAssembly_of_get
    rw [k2]
    exact Dict.get?_set_same _ _ _
  have hA : ∀ c, ∃ e, resolveNodalDisplacement (o2.folder "p").files Api.filename "A" c = .error e := by
    intro c
    unfold resolveNodalDisplacement
    rw [hasb, Except.bind_ok]
    cases loadDisp (o2.folder "p").files c with
    | error e => exact ⟨e, rfl⟩
    | ok d =>
      refine ⟨.keyError, ?_⟩
      rw [Except.bind_ok]
      unfold FeModel.getNodeHid
      rw [hm0]
      rfl
  obtain ⟨e, he⟩ := hA "C"
  unfold World.resultGetAllNodalDisplacement at hall
  rw [hn] at hall
  simp only [hasb, Except.bind_ok, List.mapM_cons, he] at hall
  cases hall

/-- A session loaded from a folder works in that folder. -/
def C125_place_claim : Prop := ∀ (env : Env) (past : List Event) (t p f : String),
  ((Office.init.run env past).step env (.load t p f)).2 = true →
  ∃ a, ((Office.init.run env past).step env (.load t p f)).1.sessions.get? t = some ⟨p, a⟩

theorem ownPaths_all (env : Env) (past : List Event) (h : ∀ e ∈ past, ∀ q r, e ≠ .copy q r) (p : String) :
    OwnPaths ((Office.init.run env past).folder p) p := by
  have key : ∀ (past : List Event) (o : Office), (∀ e ∈ past, ∀ q r, e ≠ .copy q r) → (∀ p, OwnPaths (o.folder p) p) →
      ∀ p, OwnPaths ((o.run env past).folder p) p := by
    intro past
    induction past with
    | nil => intro o _ h; exact h
    | cons e es ih =>
      intro o hn h
      refine ih _ (fun e' he' => hn e' (List.mem_cons_of_mem _ he')) ?_
      intro p
      show OwnPaths ((o.step env e).1.folder p) p
      by_cases hp : place o e = some p
      · cases e with
        | call t c =>
          cases ht : o.sessions.get? t with
          | none => rw [step_callNone env ht]; exact h p
          | some x =>
            rcases isLoad_cases c with ⟨f, rfl⟩ | hc
            · rw [step_callLoad env ht, loadFrom_folder]; exact h p
            · rw [step_call env ht hc, folder_set]
              split
              · next hx => subst hx; exact ownPaths_note (h _) c
              · exact h p
        | killDuring t c k =>
          simp only [Office.step]
          cases ht : o.sessions.get? t with
          | none => exact h p
          | some x =>
            simp only
            generalize (Office.leftBehind env ⟨x.api, (o.folder x.workpath).files⟩ c)[k]? = v
            cases v with
            | none => exact h p
            | some fs =>
              simp only
              rw [folder_set]
              split
              · next hx => subst hx; exact h x.workpath
              · exact h p
        | copy q r => exact absurd rfl (hn _ List.mem_cons_self q r)
        | _ => cases hp
      · rw [step_folder env o e hp]; exact h p
  exact key past Office.init h (fun p k q hk => by simp [Office.init, Office.folder] at hk) p

/-- It does as long as no folder was copied.  (Missing: copied or moved folders, `C125_place_false`.) -/
theorem C125_place_partial (env : Env) (past : List Event) (hc : ∀ e ∈ past, ∀ q r, e ≠ .copy q r) (t p f : String)
    (h : ((Office.init.run env past).step env (.load t p f)).2 = true) :
    ∃ a, ((Office.init.run env past).step env (.load t p f)).1.sessions.get? t = some ⟨p, a⟩ := by
  have hO := ownPaths_all env past hc p
  generalize Office.init.run env past = o at h hO
  change (o.loadFrom t p f).2 = true at h
  show ∃ a, (o.loadFrom t p f).1.sessions.get? t = some ⟨p, a⟩
  unfold Office.loadFrom at h ⊢
  split
  · next a ha =>
    refine ⟨a, ?_⟩
    simp only [Dict.get?_set_same]
    congr 2
    generalize hq : (o.folder p).savedPath.get? (f ++ ".sep") = q
    cases q with
    | none => rfl
    | some q => exact hO _ _ hq
  · next hno =>
    split at h
    · next a ha => exact absurd ha (hno a)
    · cases h

/-- A copied folder: the session loaded from the copy goes on working in the original. -/
theorem C125_place_false : ¬ C125_place_claim := by
  intro h
  obtain ⟨a, ha⟩ := h idealEnv [.start "a" "p", .call "a" (.save "f"), .copy "p" "q"] "b" "q" "f" (by
    simp [Office.run, Office.step, Office.init, Office.folder, Office.loadFrom, Office.notePath, World.step, Dict.set, Dict.get?])
  simp [Office.run, Office.step, Office.init, Office.folder, Office.loadFrom, Office.notePath, World.step, Dict.set, Dict.get?] at ha

/-! ### C126 Processes that die -/

/-- What could be loaded before can be loaded after a process died while saving under the same name. -/
def C126_claim : Prop := ∀ (env : Env) (past : List Event) (s t p f : String) (k : ℕ),
  ((Office.init.run env past).step env (.load t p f)).2 = true →
  ((Office.init.run env (past ++ [.killDuring s (.save f) k])).step env (.load t p f)).2 = true

/-- The old file is emptied before the new one is written: dying in between loses both. -/
theorem C126_false : ¬ C126_claim := by
  intro h
  have := h idealEnv [.start "a" "p", .call "a" (.save "f")] "a" "b" "p" "f" 1 (by
    simp [Office.run, Office.step, Office.init, Office.folder, Office.loadFrom, Office.notePath, World.step, Dict.set, Dict.get?])
  simp [Office.run, Office.step, Office.init, Office.folder, Office.loadFrom, Office.notePath, World.step, Dict.set, Dict.get?,
    Office.leftBehind] at this

/-- what is in the file of saved model data `f` of folder `p` -/
theorem office_saved_step (env : Env) (o : Office) (e : Event) {p f : String}
    (h : place o e = some p → ¬ Event.saves f e ∧ ∀ q, e ≠ .copy q p) :
    ((o.step env e).1.folder p).files.get? (f ++ ".sep") = (o.folder p).files.get? (f ++ ".sep") ∧
    ((o.step env e).1.folder p).savedPath.get? (f ++ ".sep") = (o.folder p).savedPath.get? (f ++ ".sep") := by
  by_cases hp : place o e = some p
  · obtain ⟨h1, h2⟩ := h hp
    cases e with
    | call t c =>
      cases ht : o.sessions.get? t with
      | none => rw [step_callNone env ht]; exact ⟨rfl, rfl⟩
      | some x =>
        rcases isLoad_cases c with ⟨g, rfl⟩ | hc
        · rw [step_callLoad env ht, loadFrom_folder]; exact ⟨rfl, rfl⟩
        · have hx : x.workpath = p := by
            simp only [place, ht, Option.map_some, Option.some.injEq] at hp; exact hp
          subst hx
          rw [step_call env ht hc, folder_set, if_pos rfl]
          have hne : ∀ g, c = .save g → g ++ ".sep" ≠ f ++ ".sep" := by
            intro g hg he
            apply h1
            show c = .save f
            rw [hg, String.append_right_inj' he]
          constructor
          · by_cases he : c.isEdit = true
            · rw [step_edit env _ c he]; split <;> rfl
            · cases c with
              | assemble =>
                simp only [World.step]
                split
                · exact Dict.get?_set_ne _ _ (Ne.symm (sep_ne_asb f))
                · rfl
              | solveStatic n =>
                simp only [World.step]
                rcases solveLinear_fs env (o.folder x.workpath).files Api.filename n with e | ⟨K, e⟩ | ⟨K, d, e⟩
                · rw [e]
                · rw [e, Dict.get?_set_ne _ _ (Ne.symm (sep_ne_stiff f))]
                · rw [e, Dict.get?_set_ne _ _ (Ne.symm (sep_ne_disp f n)), Dict.get?_set_ne _ _ (Ne.symm (sep_ne_stiff f))]
              | solveModal n k => rfl
              | save g => exact Dict.get?_set_ne _ _ (hne g rfl)
              | load g => exact absurd trivial hc
              | clearWorkspace => rfl
              | _ => exact absurd rfl he
          · simp only
            cases c with
            | save g => exact Dict.get?_set_ne _ _ (hne g rfl)
            | _ => rfl
    | killDuring t c k =>
      simp only [Office.step]
      cases ht : o.sessions.get? t with
      | none => exact ⟨rfl, rfl⟩
      | some x =>
        have hx : x.workpath = p := by
          simp only [place, ht, Option.map_some, Option.some.injEq] at hp; exact hp
        subst hx
        simp only
        generalize hv : (Office.leftBehind env ⟨x.api, (o.folder x.workpath).files⟩ c)[k]? = v
        cases v with
        | none => exact ⟨rfl, rfl⟩
        | some fs =>
          simp only
          rw [folder_set, if_pos rfl]
          refine ⟨?_, rfl⟩
          refine leftBehind_get env _ c (List.mem_of_getElem? hv) _ (sep_ne_asb f) (sep_ne_stiff f) (fun n => sep_ne_disp f n) ?_
          intro g hg he
          apply h1
          show c = .save f
          rw [hg, String.append_right_inj' he]
    | copy q r =>
      simp only [place, Option.some.injEq] at hp
      subst hp
      exact absurd rfl (h2 q)
    | _ => cases hp
  · rw [step_folder env o e hp]; exact ⟨rfl, rfl⟩

theorem office_saved_run (env : Env) {p f : String} (es : List Event) : ∀ (o : Office), NotOverwritten env p f o es →
    ((o.run env es).folder p).files.get? (f ++ ".sep") = (o.folder p).files.get? (f ++ ".sep") ∧
    ((o.run env es).folder p).savedPath.get? (f ++ ".sep") = (o.folder p).savedPath.get? (f ++ ".sep") := by
  induction es with
  | nil => intro o _; exact ⟨rfl, rfl⟩
  | cons e es ih =>
    intro o h
    obtain ⟨i1, i2⟩ := ih _ h.2
    obtain ⟨k1, k2⟩ := office_saved_step env o e h.1
    exact ⟨i1.trans k1, i2.trans k2⟩

/-- A saved model survives: after `save`, whatever sessions do and whenever processes die, in this folder or another, loading gives back
the model as it was saved, unless somebody saves in this folder under the same name (or dies doing so) or replaces the folder.
(Missing from the claim: dying while saving under the same name, `C126_false`.) -/
theorem C126_durable_partial (env : Env) (past later : List Event) (s t p f : String) (a : Api)
    (hs : (Office.init.run env past).sessions.get? s = some ⟨p, a⟩)
    (hL : NotOverwritten env p f (Office.init.run env (past ++ [.call s (.save f)])) later) :
    let o := (Office.init.run env (past ++ .call s (.save f) :: later)).step env (.load t p f)
    o.2 = true ∧ o.1.sessions.get? t = some ⟨p, a⟩ := by
  have e : past ++ .call s (.save f) :: later = (past ++ [.call s (.save f)]) ++ later := by simp
  have e2 : Office.init.run env ((past ++ [.call s (.save f)]) ++ later) =
      (Office.init.run env (past ++ [.call s (.save f)])).run env later := office_run_append env _ _ _
  rw [e, e2]
  obtain ⟨i1, i2⟩ := office_saved_run env later _ hL
  have h1 : ((Office.init.run env (past ++ [.call s (.save f)])).folder p).files.get? (f ++ ".sep") = some (.sep a) ∧
      ((Office.init.run env (past ++ [.call s (.save f)])).folder p).savedPath.get? (f ++ ".sep") = some p := by
    rw [office_run_append, office_run_cons, office_run_nil, step_call env hs (c := .save f) (fun h => h), folder_set, if_pos rfl]
    exact ⟨Dict.get?_set_same _ _ _, Dict.get?_set_same _ _ _⟩
  rw [h1.1] at i1
  rw [h1.2] at i2
  generalize (Office.init.run env (past ++ [.call s (.save f)])).run env later = o at i1 i2
  show (o.loadFrom t p f).2 = true ∧ (o.loadFrom t p f).1.sessions.get? t = some ⟨p, a⟩
  unfold Office.loadFrom
  rw [i1]
  simp only [i2]
  exact ⟨trivial, Dict.get?_set_same _ _ _⟩

/-- a session saves, goes on, and dies in the middle of assembling -/
example : ∃ (past later : List Event) (a : Api), (Office.init.run idealEnv past).sessions.get? "a" = some ⟨"p", a⟩ ∧
    NotOverwritten idealEnv "p" "f" (Office.init.run idealEnv (past ++ [.call "a" (.save "f")])) later ∧ later.length = 3 := by
  refine ⟨[.start "a" "p"], [.call "a" (.addNode "1" 0 0 0), .call "a" (.save "g"), .killDuring "a" .assemble 1], Api.init, rfl, ?_, rfl⟩
  simp [NotOverwritten, Event.saves]

/-- Nothing a dying process leaves behind can spoil a later analysis: after any history and a death at any moment of any call, a new
session in the same folder that makes the calls `cs` reports everything it would report in an empty folder, and every call that would
succeed there succeeds. -/
theorem C126_recovery (env : Env) (past : List Event) (s t p : String) (c : Call) (k : ℕ) (cs : List Call) (hl : ∀ c ∈ cs, ¬ Call.isLoad c) :
    ∃ w, (Office.init.run env (past ++ .killDuring s c k :: .start t p :: cs.map (.call t))).world t = some w ∧
      Confirms (World.init.run env cs) w := by
  have h := (C125_turns_partial env t p (past ++ [.killDuring s c k]) (cs.map (.call t)) (undisturbed_calls _ _ _ _ _)
    (by rw [callsOf_calls]; exact hl)).1
  rw [callsOf_calls] at h
  simpa using h

/-- dying while the assembly is written; the cantilever is solved all the same -/
example : ∃ (cs : List Call) (t : Dict (List ℝ)), (∀ c ∈ cs, ¬ Call.isLoad c) ∧
    (World.init.run idealEnv cs).resultGetAllNodalDisplacement "C" = some t := by
  obtain ⟨t, ht, _⟩ := demo_table
  refine ⟨demoCalls ++ [.assemble, .solveStatic "C"], t, by simp [demoCalls, Call.isLoad], ?_⟩
  rw [run_append]; exact ht

/-- Dying in the solution of one case leaves the reports on the other cases as they were, for every session; of the case itself either
the old values are reported or nothing. -/
theorem C126_other_cases (env : Env) (o : Office) (s t n c c' : String) (k : ℕ) (w w' : World) (hst : s ≠ t)
    (hw : o.world t = some w) (hw' : (o.step env (.killDuring s (.solveStatic c) k)).1.world t = some w') :
    (c' ≠ c → w'.resultGetNodalDisplacement n c' = w.resultGetNodalDisplacement n c') ∧
    (w'.resultGetNodalDisplacement n c = w.resultGetNodalDisplacement n c ∨ w'.resultGetNodalDisplacement n c = none) := by
  have same : w' = w → (c' ≠ c → w'.resultGetNodalDisplacement n c' = w.resultGetNodalDisplacement n c') ∧
      (w'.resultGetNodalDisplacement n c = w.resultGetNodalDisplacement n c ∨ w'.resultGetNodalDisplacement n c = none) := by
    rintro rfl
    exact ⟨fun _ => rfl, Or.inl rfl⟩
  have hses := step_session env o (.killDuring s (.solveStatic c) k) (s := t) hst
  unfold Office.world at hw hw'
  rw [hses] at hw'
  cases ht : o.sessions.get? t with
  | none => rw [ht] at hw; cases hw
  | some y =>
    rw [ht] at hw hw'
    simp only [Option.map_some, Option.some.injEq] at hw hw'
    by_cases hpl : place o (.killDuring s (.solveStatic c) k) = some y.workpath
    · simp only [Office.step] at hw'
      cases hs : o.sessions.get? s with
      | none => simp only [hs] at hw'; exact same (hw'.symm.trans hw)
      | some x =>
        have hx : x.workpath = y.workpath := by
          simp only [place, hs, Option.map_some, Option.some.injEq] at hpl; exact hpl
        simp only [hs] at hw'
        generalize hv : (Office.leftBehind env ⟨x.api, (o.folder x.workpath).files⟩ (.solveStatic c))[k]? = v at hw'
        cases v with
        | none => exact same (hw'.symm.trans hw)
        | some fs =>
          simp only at hw'
          rw [folder_set, if_pos hx] at hw'
          simp only at hw'
          have hmem := List.mem_of_getElem? hv
          rw [hx] at hmem
          have hasb : fs.get? Api.filename = (o.folder y.workpath).files.get? Api.filename := by
            unfold Office.leftBehind at hmem
            simp only at hmem
            split at hmem
            · rw [List.mem_singleton] at hmem; rw [hmem]
            · split at hmem
              · rw [List.mem_singleton] at hmem; rw [hmem]
              · split at hmem
                · rw [List.mem_singleton] at hmem; rw [hmem]
                · simp only [List.mem_cons, List.not_mem_nil, or_false] at hmem
                  have d : c ++ ".d" ++ ".npy" ≠ Api.filename := by rw [disp_eq]; exact disp_ne_asb c
                  rcases hmem with rfl | rfl | rfl | rfl
                  · rfl
                  · exact Dict.get?_set_ne _ _ (by decide)
                  · exact Dict.get?_set_ne _ _ (by decide)
                  · rw [Dict.get?_set_ne _ _ d]; exact Dict.get?_set_ne _ _ (by decide)
          have hdisp : ∀ c', (c' ≠ c → fs.get? (c' ++ ".d.npy") = (o.folder y.workpath).files.get? (c' ++ ".d.npy")) ∧
              (fs.get? (c ++ ".d.npy") = (o.folder y.workpath).files.get? (c ++ ".d.npy") ∨ fs.get? (c ++ ".d.npy") = some .broken) := by
            intro c'
            unfold Office.leftBehind at hmem
            simp only at hmem
            have k0 : ∀ (g : Dict (File Api)) (v : File Api) (n : String),
                (Dict.set g "0.k.npy" v).get? (n ++ ".d.npy") = g.get? (n ++ ".d.npy") :=
              fun g v n => Dict.get?_set_ne _ _ (Ne.symm (disp_ne_stiff n))
            split at hmem
            · rw [List.mem_singleton] at hmem; rw [hmem]; exact ⟨fun _ => rfl, Or.inl rfl⟩
            · split at hmem
              · rw [List.mem_singleton] at hmem; rw [hmem]; exact ⟨fun _ => rfl, Or.inl rfl⟩
              · split at hmem
                · rw [List.mem_singleton] at hmem; rw [hmem]; exact ⟨fun _ => rfl, Or.inl rfl⟩
                · simp only [List.mem_cons, List.not_mem_nil, or_false] at hmem
                  rcases hmem with rfl | rfl | rfl | rfl
                  · exact ⟨fun _ => rfl, Or.inl rfl⟩
                  · exact ⟨fun _ => k0 _ _ _, Or.inl (k0 _ _ _)⟩
                  · exact ⟨fun _ => k0 _ _ _, Or.inl (k0 _ _ _)⟩
                  · rw [disp_eq]
                    refine ⟨fun hne => ?_, Or.inr (Dict.get?_set_same _ _ _)⟩
                    rw [Dict.get?_set_ne _ _ (disp_ne_disp (Ne.symm hne)), k0]
          subst hw hw'
          have hopen : openAssembly fs Api.filename = openAssembly (o.folder y.workpath).files Api.filename := by
            unfold openAssembly; rw [hasb]
          have hres : ∀ n c, fs.get? (c ++ ".d.npy") = (o.folder y.workpath).files.get? (c ++ ".d.npy") →
              resolveNodalDisplacement fs Api.filename n c = resolveNodalDisplacement (o.folder y.workpath).files Api.filename n c := by
            intro n c hc
            unfold resolveNodalDisplacement loadDisp
            rw [hopen, hc]
          unfold World.resultGetNodalDisplacement
          refine ⟨fun hne => ?_, ?_⟩
          · simp only; rw [hres n c' ((hdisp c').1 hne)]
          · rcases (hdisp c).2 with h | h
            · left; simp only; rw [hres n c h]
            · right
              simp only
              unfold resolveNodalDisplacement loadDisp
              rw [h]
              cases openAssembly fs Api.filename <;> rfl
    · rw [step_folder env o _ hpl] at hw'
      exact same (hw'.symm.trans hw)

/-- two sessions in a folder, one dies -/
example : ∃ (o : Office) (w w' : World), o.world "b" = some w ∧
    (o.step idealEnv (.killDuring "a" (.solveStatic "C") 0)).1.world "b" = some w' :=
  ⟨Office.init.run idealEnv [.start "a" "p", .start "b" "p"], ⟨Api.init, []⟩, ⟨Api.init, []⟩, by rfl, by rfl⟩

end Hyperstatic
