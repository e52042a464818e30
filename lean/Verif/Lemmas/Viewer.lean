import Verif.Spec.Viewer
import Verif.Props.Results

/-
The result viewer: what its dictionaries hold and the invariant of its actors.
-/

namespace Hyperstatic
open Spec

theorem Dict.set_mid {α : Type _} (pre rest : Dict α) (k : String) (u v : α) (h : k ∉ Dict.keys pre) :
    Dict.set (pre ++ (k, u) :: rest) k v = pre ++ (k, v) :: rest := by
  induction pre with
  | nil => simp [Dict.set]
  | cons p pre ih =>
    simp only [Dict.keys, List.map_cons, List.mem_cons, not_or] at h
    obtain ⟨q, x⟩ := p
    simp only [List.cons_append, Dict.set]
    rw [if_neg (fun e => h.1 e.symm), ih h.2]

theorem Dict.set_end {α : Type _} (pre : Dict α) (k : String) (v : α) (h : k ∉ Dict.keys pre) :
    Dict.set pre k v = pre ++ [(k, v)] := by
  induction pre with
  | nil => simp [Dict.set]
  | cons p pre ih =>
    simp only [Dict.keys, List.map_cons, List.mem_cons, not_or] at h
    obtain ⟨q, x⟩ := p
    simp only [List.cons_append, Dict.set]
    rw [if_neg (fun e => h.1 e.symm), ih h.2]

/-- a dictionary given by a function on its keys -/
def tabulate {α : Type _} (ns : List String) (f : String → α) : Dict α := ns.map fun n => (n, f n)

theorem keys_tabulate {α : Type _} (ns : List String) (f : String → α) : Dict.keys (tabulate ns f) = ns := by
  simp [Dict.keys, tabulate, List.map_map, Function.comp_def]

theorem values_tabulate {α : Type _} (ns : List String) (f : String → α) : Dict.values (tabulate ns f) = ns.map f := by
  simp [Dict.values, tabulate, List.map_map, Function.comp_def]

theorem get?_tabulate {α : Type _} (ns : List String) (f : String → α) (n : String) (h : n ∈ ns) :
    Dict.get? (tabulate ns f) n = some (f n) := by
  induction ns with
  | nil => simp at h
  | cons m ns ih =>
    simp only [tabulate, List.map_cons, Dict.get?]
    by_cases e : m = n
    · rw [if_pos e, e]
    · rw [if_neg e]
      exact ih ((List.mem_cons.mp h).resolve_left (fun e' => e e'.symm))

/-- a loop that sets one entry after the other, into an empty dictionary -/
theorem foldlM_fill {α : Type _} (g : Dict α → String → Except PyErr (Dict α)) (f : String → α) (pre suf : List String)
    (hn : (pre ++ suf).Nodup) (hg : ∀ n ∈ suf, ∀ d, g d n = .ok (Dict.set d n (f n))) :
    suf.foldlM g (tabulate pre f) = .ok (tabulate (pre ++ suf) f) := by
  induction suf generalizing pre with
  | nil => simp [pure, Except.pure]
  | cons n suf ih =>
    rw [List.foldlM_cons, hg n (by simp)]
    have hp : n ∉ pre := fun h => by
      have := (List.nodup_append.mp hn).2.2 n h n (by simp)
      exact this rfl
    rw [Dict.set_end _ _ _ (by rw [keys_tabulate]; exact hp)]
    have e : tabulate pre f ++ [(n, f n)] = tabulate (pre ++ [n]) f := by simp [tabulate]
    show (suf.foldlM g (tabulate pre f ++ [(n, f n)])) = _
    rw [e, ih (pre ++ [n]) (by simpa using hn) (fun m hm => hg m (by simp [hm]))]
    simp

/-- a loop that sets one entry after the other, over the entries there -/
theorem foldlM_refill {α : Type _} (g : Dict α → String → Except PyErr (Dict α)) (f₀ f : String → α) (pre suf : List String)
    (hn : (pre ++ suf).Nodup)
    (hg : ∀ n ∈ suf, ∀ d, Dict.get? d n = some (f₀ n) → g d n = .ok (Dict.set d n (f n))) :
    suf.foldlM g (tabulate pre f ++ tabulate suf f₀) = .ok (tabulate (pre ++ suf) f) := by
  induction suf generalizing pre with
  | nil => simp [pure, Except.pure, tabulate]
  | cons n suf ih =>
    have hp : n ∉ pre := fun h => by
      have := (List.nodup_append.mp hn).2.2 n h n (by simp)
      exact this rfl
    have get : ∀ ns : List String, n ∉ ns → ∀ rest : Dict α, Dict.get? (tabulate ns f ++ (n, f₀ n) :: rest) n = some (f₀ n) := by
      intro ns
      induction ns with
      | nil => intro _ rest; simp [tabulate, Dict.get?]
      | cons m ns ih' =>
        intro h rest
        simp only [List.mem_cons, not_or] at h
        simp only [tabulate, List.map_cons, List.cons_append, Dict.get?]
        rw [if_neg (fun e => h.1 e.symm)]
        exact ih' h.2 rest
    have e0 : tabulate pre f ++ tabulate (n :: suf) f₀ = tabulate pre f ++ (n, f₀ n) :: tabulate suf f₀ := rfl
    rw [List.foldlM_cons, e0, hg n (by simp) _ (get pre hp _), Dict.set_mid _ _ _ _ _ (by rw [keys_tabulate]; exact hp)]
    have e : tabulate pre f ++ (n, f n) :: tabulate suf f₀ = tabulate (pre ++ [n]) f ++ tabulate suf f₀ := by simp [tabulate]
    show (suf.foldlM g (tabulate pre f ++ (n, f n) :: tabulate suf f₀)) = _
    rw [e, ih (pre ++ [n]) (by simpa using hn) (fun m hm => hg m (by simp [hm]))]
    simp

/-- the worlds a viewer can open: names are used once, beams have nodes -/
structure Drawable (w : World) : Prop where
  nodes : w.getNodeNames.Nodup
  beams : w.getBeamNames.Nodup
  locs : ∀ n ∈ w.getNodeNames, ∃ p, w.getNodeLocation n = some p
  ends : ∀ b ∈ w.getBeamNames, ∃ s e, w.getBeamNodeNames b = some (s, e) ∧ s ∈ w.getNodeNames ∧ e ∈ w.getNodeNames
  shells : w.getShellNames.Nodup
  corners : ∀ s ∈ w.getShellNames, ∀ a b c d, w.getShellNodeNames s = some (a, b, c, d) →
    a ∈ w.getNodeNames ∧ b ∈ w.getNodeNames ∧ c ∈ w.getNodeNames ∧ d ∈ w.getNodeNames
  rests : ∀ kv ∈ w.api.model.restraints, kv.1 ∈ w.getNodeNames

theorem Drawable_run (env : Env) (cs : List Call) : Drawable (World.init.run env cs) := by
  have h := (ApiInv_run env cs).1
  refine ⟨h.nodes_wf, h.beams_wf, ?_, ?_, h.shells_wf, ?_, fun kv hk => h.rest_keys kv.1 (List.mem_map.mpr ⟨kv, hk, rfl⟩)⟩
  · intro n hn
    obtain ⟨nd, hd⟩ := Dict.get?_of_mem_keys hn
    exact ⟨nd.loc, by simp [World.getNodeLocation, FeModel.getNodeLocation, Dict.getItem, hd, tryOption, bind, Except.bind, pure,
      Except.pure]⟩
  · intro b hb
    obtain ⟨be, hd⟩ := Dict.get?_of_mem_keys hb
    obtain ⟨_, h1, h2, _⟩ := h.beam_ok b be hd
    exact ⟨be.startName, be.endName, by simp [World.getBeamNodeNames, FeModel.getBeamConnection, Dict.getItem, hd, tryOption, bind,
      Except.bind, pure, Except.pure], h1, h2⟩
  · intro s hs a b c d hg
    obtain ⟨se, hd⟩ := Dict.get?_of_mem_keys hs
    obtain ⟨_, h2⟩ := h.shell_ok s se hd
    simp only [World.getShellNodeNames, FeModel.getShellConnection, Dict.getItem, hd, bind, Except.bind] at hg
    match hse : se.nodes with
    | [x, y, z, u] =>
      rw [hse] at hg h2
      simp only [tryOption, pure, Except.pure, Option.some.injEq, Prod.mk.injEq] at hg
      obtain ⟨rfl, rfl, rfl, rfl⟩ := hg
      exact ⟨h2 x (by simp), h2 y (by simp), h2 z (by simp), h2 u (by simp)⟩
    | [] => rw [hse] at hg; simp [tryOption] at hg
    | [_] => rw [hse] at hg; simp [tryOption] at hg
    | [_, _] => rw [hse] at hg; simp [tryOption] at hg
    | [_, _, _] => rw [hse] at hg; simp [tryOption] at hg
    | _ :: _ :: _ :: _ :: _ :: _ => rw [hse] at hg; simp [tryOption] at hg

theorem viewPts_eq {w : World} (h : Drawable w) : viewPts w = .ok (tabulate w.getNodeNames (nodeAt w none)) := by
  have := foldlM_fill (fun pts n =>
    match w.getNodeLocation n with
    | some p => .ok (Dict.set pts n p)
    | none => .error .typeError) (nodeAt w none) [] w.getNodeNames (by simpa using h.nodes) (by
      intro n hn d
      obtain ⟨p, hp⟩ := h.locs n hn
      simp [hp, nodeAt])
  exact this

theorem viewLines_step {w : World} (h : Drawable w) (f : String → V3) (b : String) (hb : b ∈ w.getBeamNames)
    (d : Dict (V3 × V3)) : (match w.getBeamNodeNames b with
    | some (s, e) => do
        let p ← (tabulate w.getNodeNames f).getItem s
        let q ← (tabulate w.getNodeNames f).getItem e
        return Dict.set d b (p, q)
    | none => .error .typeError) = Except.ok (ε := PyErr) (Dict.set d b
      (f ((w.getBeamNodeNames b).getD ("", "")).1, f ((w.getBeamNodeNames b).getD ("", "")).2)) := by
  obtain ⟨s, e, he, hs, he'⟩ := h.ends b hb
  simp [he, Dict.getItem, get?_tabulate _ _ _ hs, get?_tabulate _ _ _ he', bind, Except.bind, pure, Except.pure]

theorem viewLines_new {w : World} (h : Drawable w) (shape : Option (Axis × ℝ)) :
    viewLines w (tabulate w.getNodeNames (nodeAt w shape)) [] = .ok (tabulate w.getBeamNames (beamAt w shape)) := by
  have := foldlM_fill _ (beamAt w shape) [] w.getBeamNames (by simpa using h.beams)
    (fun b hb d => viewLines_step h (nodeAt w shape) b hb d)
  exact this

theorem viewLines_again {w : World} (h : Drawable w) (s₀ shape : Option (Axis × ℝ)) :
    viewLines w (tabulate w.getNodeNames (nodeAt w shape)) (tabulate w.getBeamNames (beamAt w s₀)) =
      .ok (tabulate w.getBeamNames (beamAt w shape)) := by
  have := foldlM_refill _ (beamAt w s₀) (beamAt w shape) [] w.getBeamNames (by simpa using h.beams)
    (fun b hb d _ => viewLines_step h (nodeAt w shape) b hb d)
  exact this

theorem viewIds_eq (names : List String) (hn : names.Nodup) : viewIds names = tabulate names fun n => names.idxOf n := by
  have key : ∀ (suf pre : List String), (pre ++ suf).Nodup →
      (suf.foldl (fun (s : Dict Unit × Dict ℕ) n => (Dict.set s.1 n (), Dict.set s.2 n s.1.length))
        (tabulate pre (fun _ => ()), tabulate pre fun n => (pre ++ suf).idxOf n)).2 =
      tabulate (pre ++ suf) fun n => (pre ++ suf).idxOf n := by
    intro suf
    induction suf with
    | nil => intro pre _; simp
    | cons n suf ih =>
      intro pre hn
      have hp : n ∉ pre := fun h => by
        have := (List.nodup_append.mp hn).2.2 n h n (by simp)
        exact this rfl
      rw [List.foldl_cons]
      simp only []
      rw [Dict.set_end _ _ _ (by rw [keys_tabulate]; exact hp), Dict.set_end _ _ _ (by rw [keys_tabulate]; exact hp)]
      have e1 : tabulate pre (fun _ => ()) ++ [(n, ())] = tabulate (pre ++ [n]) fun _ => () := by simp [tabulate]
      have hi : (pre ++ n :: suf).idxOf n = pre.length := by
        rw [List.idxOf_append_of_notMem hp]; simp
      have e2 : (tabulate pre fun m => (pre ++ n :: suf).idxOf m) ++ [(n, (tabulate pre fun _ => ()).length)] =
          tabulate (pre ++ [n]) fun m => (pre ++ n :: suf).idxOf m := by
        simp [tabulate, hi]
      rw [e1, e2]
      have := ih (pre ++ [n]) (by simpa using hn)
      simpa using this
  exact key names [] (by simpa using hn)

/-- the numbers of the corners of a shell -/
def faceOf (w : World) (s : String) : ℕ × ℕ × ℕ × ℕ :=
  let c := (w.getShellNodeNames s).getD ("", "", "", "")
  (w.getNodeNames.idxOf c.1, w.getNodeNames.idxOf c.2.1, w.getNodeNames.idxOf c.2.2.1, w.getNodeNames.idxOf c.2.2.2)

/-- no triangles -/
def AllQuads (w : World) : Prop := ∀ s ∈ w.getShellNames, w.getShellNodeNames s ≠ none

theorem viewFaces_eq {w : World} (h : Drawable w) (hq : AllQuads w) :
    viewFaces w (viewIds w.getNodeNames) = .ok (tabulate w.getShellNames (faceOf w)) := by
  rw [viewIds_eq _ h.nodes]
  have := foldlM_fill (fun faces s =>
    match w.getShellNodeNames s with
    | some (n1, n2, n3, n4) => do
        let a ← (tabulate w.getNodeNames fun n => w.getNodeNames.idxOf n).getItem n1
        let b ← (tabulate w.getNodeNames fun n => w.getNodeNames.idxOf n).getItem n2
        let c ← (tabulate w.getNodeNames fun n => w.getNodeNames.idxOf n).getItem n3
        let d ← (tabulate w.getNodeNames fun n => w.getNodeNames.idxOf n).getItem n4
        return Dict.set faces s (a, b, c, d)
    | none => .error .typeError) (faceOf w) [] w.getShellNames (by simpa using h.shells) (by
      intro s hs d
      match hg : w.getShellNodeNames s with
      | none => exact absurd hg (hq s hs)
      | some (a, b, c, e) =>
        obtain ⟨ha, hb, hc, he⟩ := h.corners s hs a b c e hg
        simp [hg, faceOf, Dict.getItem, get?_tabulate _ _ _ ha, get?_tabulate _ _ _ hb, get?_tabulate _ _ _ hc, get?_tabulate _ _ _ he,
          bind, Except.bind, pure, Except.pure])
  exact this

theorem viewFaces_error {w : World} (hq : ¬ AllQuads w) :
    ∃ e, viewFaces w (viewIds w.getNodeNames) = .error e := by
  have hq' : ∃ s ∈ w.getShellNames, w.getShellNodeNames s = none := by
    unfold AllQuads at hq
    push Not at hq
    exact hq
  unfold viewFaces
  generalize viewIds w.getNodeNames = ids
  have key : ∀ (l : List String) (faces : Dict (ℕ × ℕ × ℕ × ℕ)), (∃ s ∈ l, w.getShellNodeNames s = none) →
      ∃ e, l.foldlM (fun faces s =>
        match w.getShellNodeNames s with
        | some (n1, n2, n3, n4) => do
            let a ← ids.getItem n1
            let b ← ids.getItem n2
            let c ← ids.getItem n3
            let d ← ids.getItem n4
            return Dict.set faces s (a, b, c, d)
        | none => .error .typeError) faces = Except.error (ε := PyErr) e := by
    intro l
    induction l with
    | nil => rintro _ ⟨s, hs, _⟩; cases hs
    | cons m l ih =>
      rintro faces ⟨s, hs, hn⟩
      rw [List.foldlM_cons]
      rcases List.mem_cons.mp hs with rfl | hs
      · rw [hn]; exact ⟨_, rfl⟩
      · generalize hx : (match w.getShellNodeNames m with
          | some (n1, n2, n3, n4) => do
              let a ← ids.getItem n1
              let b ← ids.getItem n2
              let c ← ids.getItem n3
              let d ← ids.getItem n4
              return Dict.set faces m (a, b, c, d)
          | none => Except.error (ε := PyErr) .typeError) = x
        cases x with
        | error e => exact ⟨e, rfl⟩
        | ok y => exact ih y ⟨s, hs, hn⟩
  exact key _ _ hq'

/-- the corners drawn are the places of the nodes -/
theorem meshCorners_eq {w : World} (h : Drawable w) (hq : AllQuads w) (shape : Option (Axis × ℝ)) :
    meshCorners (w.getNodeNames.map (nodeAt w shape)) (w.getShellNames.map (faceOf w)) = w.getShellNames.map (shellAt w shape) := by
  unfold meshCorners
  rw [List.map_map]
  apply List.map_congr_left
  intro s hs
  match hg : w.getShellNodeNames s with
  | none => exact absurd hg (hq s hs)
  | some (a, b, c, e) =>
    obtain ⟨ha, hb, hc, he⟩ := h.corners s hs a b c e hg
    have hx : ∀ n ∈ w.getNodeNames, (w.getNodeNames.map (nodeAt w shape))[w.getNodeNames.idxOf n]? = some (nodeAt w shape n) := by
      intro n hn
      rw [List.getElem?_map, List.getElem?_eq_getElem (List.idxOf_lt_length_of_mem hn)]
      simp
    simp only [Function.comp_apply, faceOf, shellAt, hg, Option.getD_some, hx a ha, hx b hb, hx c hc, hx e he]

/-- the symbols of the supports of one node -/
noncomputable def conesAt (p : V3) (k : ℝ) (f : Flags) : List Cone :=
  ((List.finRange 6).filter (fun i => f i)).map fun i =>
    ⟨⟨p.x - k * (supportDir i).x, p.y - k * (supportDir i).y, p.z - k * (supportDir i).z⟩, supportDir i, k, decide (3 ≤ i.val)⟩

theorem nodeCones_eq (pre : List Cone) (p : V3) (k : ℝ) (f : Flags) : nodeCones pre p k f = pre ++ conesAt p k f := by
  have hf : List.finRange 6 = [0, 1, 2, 3, 4, 5] := by decide
  simp only [nodeCones, conesAt, hf]
  cases h0 : f 0 <;> cases h1 : f 1 <;> cases h2 : f 2 <;> cases h3 : f 3 <;> cases h4 : f 4 <;> cases h5 : f 5 <;>
    simp [h0, h1, h2, h3, h4, h5, supportDir]

theorem viewCones_eq {w : World} (h : Drawable w) (k : ℝ) :
    viewCones w (tabulate w.getNodeNames (nodeAt w none)) k =
      .ok (w.api.model.restraints.flatMap fun kv => conesAt (nodeAt w none kv.1) k kv.2) := by
  have key : ∀ (l : List (String × Flags)) (pre : List Cone), (∀ kv ∈ l, kv.1 ∈ w.getNodeNames) →
      l.foldlM (fun cones kv => do
        let pt ← (tabulate w.getNodeNames (nodeAt w none)).getItem kv.1
        return nodeCones cones pt k kv.2) pre =
      Except.ok (ε := PyErr) (pre ++ l.flatMap fun kv => conesAt (nodeAt w none kv.1) k kv.2) := by
    intro l
    induction l with
    | nil => intro pre _; simp [pure, Except.pure]
    | cons kv l ih =>
      intro pre hl
      rw [List.foldlM_cons]
      have hg : (tabulate w.getNodeNames (nodeAt w none)).getItem kv.1 = .ok (nodeAt w none kv.1) := by
        simp [Dict.getItem, get?_tabulate _ _ _ (hl kv (by simp))]
      rw [hg, Except.bind_ok]
      show (List.foldlM _ (nodeCones pre (nodeAt w none kv.1) k kv.2) l) = _
      rw [nodeCones_eq, ih _ (fun x hx => hl x (by simp [hx]))]
      simp
  unfold viewCones
  simp only [World.getNodeRestraints]
  have := key w.api.model.restraints [] h.rests
  simpa using this

/-- the table is there exactly when every node has a displacement -/
theorem displacement_table (env : Env) (cs : List Call) (w : World) (hw : w = World.init.run env cs) (hne : w.getNodeNames ≠ []) :
    (w.resultGetAllNodalDisplacement "case1" = none ∧ ¬ Displayable w) ∨
    (w.resultGetAllNodalDisplacement "case1" =
      some (tabulate w.getNodeNames fun n => (w.resultGetNodalDisplacement n "case1").getD []) ∧
      ∀ n ∈ w.getNodeNames, ∃ d, w.resultGetNodalDisplacement n "case1" = some d) := by
  obtain ⟨h1, h2⟩ := C28_table env cs w hw "case1"
  cases ht : w.resultGetAllNodalDisplacement "case1" with
  | none =>
    left
    refine ⟨rfl, ?_⟩
    intro hD
    rcases h2.mp ht with h | ⟨n, hn, h⟩
    · obtain ⟨n, hn⟩ := List.exists_mem_of_ne_nil _ hne
      obtain ⟨d, hd, _⟩ := hD n hn
      have hno : ¬ ∃ x, openAssembly w.fs Api.filename = .ok x := by
        rw [hw]; exact fun hx => h ((assembled_iff env cs).mp hx)
      unfold World.resultGetNodalDisplacement resolveNodalDisplacement at hd
      cases ho : openAssembly w.fs Api.filename with
      | ok x => exact hno ⟨x, ho⟩
      | error e => rw [ho] at hd; simp [tryOption, bind, Except.bind] at hd
    · obtain ⟨d, hd, _⟩ := hD n hn
      rw [h] at hd; cases hd
  | some t =>
    right
    obtain ⟨hk, hg⟩ := h1 t ht
    have hwf : w.getNodeNames.Nodup := by rw [hw]; exact (Drawable_run env cs).nodes
    have hs : ∀ n ∈ w.getNodeNames, ∃ d, w.resultGetNodalDisplacement n "case1" = some d := by
      intro n hn
      rw [← hg n hn]
      rw [← hk] at hn
      exact Dict.get?_of_mem_keys hn
    refine ⟨?_, hs⟩
    have key : ∀ (ns : List String) (t : Dict (List ℝ)), Dict.keys t = ns → ns.Nodup →
        (∀ n ∈ ns, Dict.get? t n = w.resultGetNodalDisplacement n "case1") →
        t = tabulate ns fun n => (w.resultGetNodalDisplacement n "case1").getD [] := by
      intro ns
      induction ns with
      | nil => intro t hk _ _; simpa [Dict.keys, tabulate] using hk
      | cons m ns ih =>
        intro t hk hn hg
        cases t with
        | nil => simp [Dict.keys] at hk
        | cons p t =>
          obtain ⟨q, x⟩ := p
          simp only [Dict.keys, List.map_cons, List.cons.injEq] at hk
          obtain ⟨rfl, hk⟩ := hk
          have hq := hg q (by simp)
          simp only [Dict.get?, if_true] at hq
          have := ih t hk (List.nodup_cons.mp hn).2 (by
            intro n hn'
            rw [← hg n (by simp [hn'])]
            simp only [Dict.get?]
            rw [if_neg]
            rintro rfl
            exact (List.nodup_cons.mp hn).1 hn')
          rw [this]
          simp [tabulate, ← hq]
    rw [key _ t hk hwf hg]

/-- every entry of the table moves its point, if it has three components -/
theorem moveAll_ok {w : World} (h : Drawable w) (hD : Displayable w) (a : Axis) (k : ℝ) :
    moveAll k (tabulate w.getNodeNames (nodeAt w none))
      (tabulate w.getNodeNames fun n => (w.resultGetNodalDisplacement n "case1").getD []) =
      .ok (tabulate w.getNodeNames (nodeAt w (some (a, k)))) := by
  unfold moveAll
  have := foldlM_refill (fun pts n => do
    let o ← Dict.getItem pts n
    match (w.resultGetNodalDisplacement n "case1").getD [] with
    | v0 :: v1 :: v2 :: _ => return Dict.set pts n ⟨o.x + v0 * k, o.y + v1 * k, o.z + v2 * k⟩
    | _ => .error .indexError) (nodeAt w none) (nodeAt w (some (a, k))) [] w.getNodeNames (by simpa using h.nodes) (by
      intro n hn d hd
      obtain ⟨x, hx, hl⟩ := hD n hn
      obtain ⟨p, hp⟩ := h.locs n hn
      match x, hl with
      | v0 :: v1 :: v2 :: r, _ =>
        simp only [Dict.getItem, hd, hx, Except.bind_ok, Option.getD_some, nodeAt, hp, List.getD_cons_zero, List.getD_cons_succ]
        simp only [pure, Except.pure, mul_comm k])
  rw [show (tabulate [] (nodeAt w (some (a, k))) ++ tabulate w.getNodeNames (nodeAt w none)) =
    tabulate w.getNodeNames (nodeAt w none) from rfl, List.nil_append] at this
  rw [← this]
  conv_lhs => unfold tabulate
  rw [List.foldlM_map]
  rfl

theorem moveAll_error (k : ℝ) (pts : Dict V3) (ns : List String) (g : String → List ℝ)
    (hs : ∃ n ∈ ns, (g n).length < 3) : ∃ e, moveAll k pts (tabulate ns g) = .error e := by
  induction ns generalizing pts with
  | nil => simp at hs
  | cons m ns ih =>
    unfold moveAll tabulate
    rw [List.map_cons, List.foldlM_cons]
    cases hi : Dict.getItem pts m with
    | error e => exact ⟨e, by simp [bind, Except.bind]⟩
    | ok o =>
      simp only [Except.bind_ok]
      match hm : g m with
      | v0 :: v1 :: v2 :: r =>
        have hs' : ∃ n ∈ ns, (g n).length < 3 := by
          obtain ⟨n, hn, hl⟩ := hs
          rcases List.mem_cons.mp hn with rfl | hn
          · rw [hm] at hl; simp at hl; omega
          · exact ⟨n, hn, hl⟩
        exact ih _ hs'
      | [] => exact ⟨_, rfl⟩
      | [_] => exact ⟨_, rfl⟩
      | [_, _] => exact ⟨_, rfl⟩

/-- both ways to exchange the actors of nodes, beams and shells -/
def Viewer.redraw (v : Viewer) (ps : List V3) (ls : List (V3 × V3)) (on : Bool) : Viewer :=
  { v with
    heap := v.heap ++ [⟨.points ps, on⟩, ⟨.lines ls, true⟩, ⟨.mesh ps v.faces.values, true⟩]
    shown := ((v.shown.filter (· ≠ v.vnodes)).filter (· ≠ v.vbeams)).filter (fun i => v.vshells ≠ some i)
    vnodes := v.heap.length
    vbeams := v.heap.length + 1
    vshells := some (v.heap.length + 2)
    actors := ((v.actors.set "nodes" v.heap.length).set "beams" (v.heap.length + 1)).set "shells" (v.heap.length + 2) }

theorem Viewer.removeShells_eq (v : Viewer) :
    v.removeShells = { v with shown := v.shown.filter (fun i => v.vshells ≠ some i) } := by
  unfold Viewer.removeShells
  cases h : v.vshells with
  | none =>
    obtain ⟨_, _, _, _, _, _, _, _, _, _, _, _, _, _⟩ := v
    simp only at h
    subst h
    simp
  | some i =>
    simp only [Viewer.remove, ne_eq, Option.some.injEq]
    congr 1
    apply List.filter_congr
    intro x _
    simp [eq_comm]

theorem modify_last {α : Type _} (l : List α) (x : α) (f : α → α) : (l ++ [x]).modify l.length f = l ++ [f x] := by
  induction l with
  | nil => rfl
  | cons a l ih => simp [ih]

theorem modify_last3 {α : Type _} (l : List α) (x y z : α) (f : α → α) : (l ++ [x, y, z]).modify l.length f = l ++ [f x, y, z] := by
  induction l with
  | nil => rfl
  | cons a l ih => simp [ih]

/-- what the viewer keeps true, whatever is clicked -/
structure ViewInv (w : World) (P : Picture) (v : Viewer) : Prop where
  api : v.api = w
  pts : v.pts = tabulate w.getNodeNames (nodeAt w none)
  lines : v.lines = tabulate w.getBeamNames (beamAt w none)
  faces : v.faces = tabulate w.getShellNames (faceOf w)
  beam : v.heap[v.vbeams]? = some ⟨.lines (w.getBeamNames.map (beamAt w P.shape)), true⟩
  node : ∃ o, v.heap[v.vnodes]? = some ⟨.points (w.getNodeNames.map (nodeAt w P.shape)), o⟩
  zero : ∃ o, v.heap[0]? = some ⟨.points (w.getNodeNames.map (nodeAt w none)), o⟩
  sb : v.vbeams ∈ v.shown
  sn : v.vnodes ∈ v.shown
  shell : (v.vshells = none ∧ w.getShellNames = []) ∨ ∃ i, v.vshells = some i ∧ i ∈ v.shown ∧
    v.heap[i]? = some ⟨.mesh (w.getNodeNames.map (nodeAt w P.shape)) (w.getShellNames.map (faceOf w)), true⟩
  sub : ∀ i ∈ v.shown, i = 0 ∨ i = v.vnodes ∨ i = v.vbeams ∨ v.vshells = some i
  acts : v.actors = [("node", 0), ("beams", v.vbeams)] ∨
    (∃ i, v.vshells = some i ∧ (v.actors = [("node", 0), ("beams", v.vbeams), ("shells", i)] ∨
      v.actors = [("node", 0), ("beams", v.vbeams), ("nodes", v.vnodes), ("shells", i)] ∨
      v.actors = [("node", 0), ("beams", v.vbeams), ("shells", i), ("nodes", v.vnodes)]))
  btnNode : v.btnNode = P.nodes
  btn : ∀ a, v.btn a = true ↔ P.shape.map Prod.fst = some a
  scale : v.scale = P.scale

/-- what it keeps true as long as deformations are asked for with the nodes hidden -/
structure ViewTidy (P : Picture) (v : Viewer) : Prop where
  node : ∃ d, v.heap[v.vnodes]? = some ⟨d, P.nodes⟩
  zero : v.vnodes = 0 ∨ ∃ d, v.heap[0]? = some ⟨d, false⟩

theorem ViewInv.redraw_actors {w : World} {P : Picture} {v : Viewer} (h : ViewInv w P v) (ps : List V3) (ls : List (V3 × V3)) (on : Bool) :
    (v.redraw ps ls on).actors = [("node", 0), ("beams", v.heap.length + 1), ("nodes", v.heap.length), ("shells", v.heap.length + 2)] ∨
    (v.redraw ps ls on).actors = [("node", 0), ("beams", v.heap.length + 1), ("shells", v.heap.length + 2), ("nodes", v.heap.length)] := by
  rcases h.acts with ha | ⟨i, _, ha | ha | ha⟩
  · left; simp [Viewer.redraw, ha, Dict.set]
  · right; simp [Viewer.redraw, ha, Dict.set]
  · left; simp [Viewer.redraw, ha, Dict.set]
  · right; simp [Viewer.redraw, ha, Dict.set]

theorem ViewInv.redraw {w : World} {P : Picture} {v : Viewer} (h : ViewInv w P v) (shape : Option (Axis × ℝ)) (on : Bool)
    (btn : Axis → Bool) (hb : ∀ a, btn a = true ↔ shape.map Prod.fst = some a) :
    ViewInv w { P with shape := shape }
      ({ v.redraw (w.getNodeNames.map (nodeAt w shape)) (w.getBeamNames.map (beamAt w shape)) on with btn := btn } : Viewer).reset := by
  have e := h.redraw_actors (w.getNodeNames.map (nodeAt w shape)) (w.getBeamNames.map (beamAt w shape)) on
  have hval : ∀ i, i ∈ (v.redraw (w.getNodeNames.map (nodeAt w shape)) (w.getBeamNames.map (beamAt w shape)) on).actors.values ↔
      i = 0 ∨ i = v.heap.length ∨ i = v.heap.length + 1 ∨ i = v.heap.length + 2 := by
    intro i
    rcases e with e | e <;> rw [e] <;> simp [Dict.values] <;> tauto
  have hin : ∀ i, i ∈ (v.redraw (w.getNodeNames.map (nodeAt w shape)) (w.getBeamNames.map (beamAt w shape)) on).actors.values →
      i ∈ ({ v.redraw (w.getNodeNames.map (nodeAt w shape)) (w.getBeamNames.map (beamAt w shape)) on with
        btn := btn } : Viewer).reset.shown := by
    intro i hi
    simp only [Viewer.reset, List.mem_append, List.mem_filter]
    by_cases hm : i ∈ (v.redraw (w.getNodeNames.map (nodeAt w shape)) (w.getBeamNames.map (beamAt w shape)) on).shown
    · exact Or.inl hm
    · exact Or.inr ⟨hi, by simpa using hm⟩
  refine ⟨h.api, h.pts, h.lines, h.faces, ?_, ⟨on, ?_⟩, ?_, ?_, ?_, ?_, ?_, ?_, h.btnNode, hb, h.scale⟩
  · simp [Viewer.reset, Viewer.redraw]
  · simp [Viewer.reset, Viewer.redraw]
  · obtain ⟨o, hz⟩ := h.zero
    refine ⟨o, ?_⟩
    simp only [Viewer.reset, Viewer.redraw]
    rw [List.getElem?_append_left (List.getElem?_eq_some_iff.mp hz).1, hz]
  · exact hin _ ((hval _).mpr (Or.inr (Or.inr (Or.inl rfl))))
  · exact hin _ ((hval _).mpr (Or.inr (Or.inl rfl)))
  · right
    refine ⟨v.heap.length + 2, rfl, hin _ ((hval _).mpr (Or.inr (Or.inr (Or.inr rfl)))), ?_⟩
    simp [Viewer.reset, Viewer.redraw, h.faces, values_tabulate]
  · intro i hi
    simp only [Viewer.reset, List.mem_append, List.mem_filter] at hi ⊢
    rcases hi with hi | ⟨hi, _⟩
    · simp only [Viewer.redraw, List.mem_filter, decide_eq_true_eq] at hi
      obtain ⟨⟨⟨h1, h2⟩, h3⟩, h4⟩ := hi
      rcases h.sub i h1 with h0 | h0 | h0 | h0
      · exact Or.inl h0
      · exact absurd h0 h2
      · exact absurd h0 h3
      · exact absurd h0 h4
    · rcases (hval i).mp hi with h1 | h1 | h1 | h1
      · exact Or.inl h1
      · exact Or.inr (Or.inl h1)
      · exact Or.inr (Or.inr (Or.inl h1))
      · exact Or.inr (Or.inr (Or.inr (by rw [h1]; rfl)))
  · right
    refine ⟨v.heap.length + 2, rfl, ?_⟩
    rcases e with e | e
    · exact Or.inr (Or.inl e)
    · exact Or.inr (Or.inr e)

theorem ViewTidy.redraw {w : World} {P : Picture} {v : Viewer} (h : ViewInv w P v) (ht : ViewTidy P v) (hn : P.nodes = false)
    (shape : Option (Axis × ℝ)) (ps : List V3) (ls : List (V3 × V3)) (btn : Axis → Bool) :
    ViewTidy { P with shape := shape } ({ v.redraw ps ls false with btn := btn } : Viewer).reset := by
  constructor
  · refine ⟨.points ps, ?_⟩
    simp [Viewer.reset, Viewer.redraw, hn]
  · right
    simp only [Viewer.reset, Viewer.redraw]
    obtain ⟨o, hz⟩ := h.zero
    rw [List.getElem?_append_left (List.getElem?_eq_some_iff.mp hz).1]
    rcases ht.zero with h0 | h0
    · obtain ⟨d, hd⟩ := ht.node
      rw [h0, hn] at hd
      exact ⟨d, hd⟩
    · exact h0

theorem showDeformation_eq {w : World} {P : Picture} {v : Viewer} (h : ViewInv w P v) (hd : Drawable w)
    (ht : w.resultGetAllNodalDisplacement "case1" =
      some (tabulate w.getNodeNames fun n => (w.resultGetNodalDisplacement n "case1").getD [])) (hD : Displayable w) (a : Axis) :
    v.showDeformation = .ok (v.redraw (w.getNodeNames.map (nodeAt w (some (a, P.scale))))
      (w.getBeamNames.map (beamAt w (some (a, P.scale)))) v.btnNode) := by
  unfold Viewer.showDeformation
  rw [h.api, ht]
  simp only []
  rw [h.pts, h.scale, moveAll_ok hd hD a]
  simp only [Except.bind_ok]
  cases hb : v.btnNode with
  | true =>
    simp only [Viewer.remove, Viewer.make, hb, if_true]
    rw [h.api, h.lines, viewLines_again hd]
    simp only [Except.bind_ok, Viewer.removeShells_eq, Viewer.redraw, values_tabulate, pure, Except.pure, List.append_assoc,
      List.cons_append, List.nil_append, List.length_append, List.length_cons, List.length_nil]
    simp only [h.api, h.lines, hb]
  | false =>
    simp only [Viewer.remove, Viewer.make, hb, if_false, Viewer.switch, Bool.false_eq_true]
    rw [h.api, h.lines, viewLines_again hd]
    simp only [Except.bind_ok, Viewer.removeShells_eq, Viewer.redraw, values_tabulate, pure, Except.pure, List.append_assoc,
      List.cons_append, List.nil_append, List.length_append, List.length_cons, List.length_nil,
      modify_last]
    simp only [h.api, h.lines, hb]

theorem resetDeformation_eq {w : World} {P : Picture} {v : Viewer} (h : ViewInv w P v) :
    v.resetDeformation = v.redraw (w.getNodeNames.map (nodeAt w none)) (w.getBeamNames.map (beamAt w none)) false := by
  unfold Viewer.resetDeformation
  cases hb : v.btnNode with
  | true =>
    simp only [Viewer.removeShells_eq, Viewer.remove, Viewer.make, hb, if_true, h.pts, h.lines, values_tabulate, Viewer.redraw,
      List.append_assoc, List.cons_append, List.nil_append, List.length_append, List.length_cons,
      List.length_nil]
  | false =>
    simp only [Viewer.removeShells_eq, Viewer.remove, Viewer.make, hb, if_false, Bool.false_eq_true, h.pts, h.lines, values_tabulate,
      Viewer.redraw, List.append_assoc, List.cons_append, List.nil_append, List.length_append,
      List.length_cons, List.length_nil, Viewer.switch, modify_last3]

theorem showDeformation_error {w : World} {P : Picture} {v : Viewer} (h : ViewInv w P v)
    (ht : w.resultGetAllNodalDisplacement "case1" = none ∨ w.resultGetAllNodalDisplacement "case1" =
      some (tabulate w.getNodeNames fun n => (w.resultGetNodalDisplacement n "case1").getD []) ∧
      ∀ n ∈ w.getNodeNames, ∃ d, w.resultGetNodalDisplacement n "case1" = some d) (hD : ¬ Displayable w) :
    ∃ e, v.showDeformation = .error e := by
  unfold Viewer.showDeformation
  rw [h.api]
  rcases ht with ht | ⟨ht, hs⟩
  · rw [ht]; exact ⟨_, rfl⟩
  · rw [ht]
    obtain ⟨e, he⟩ := moveAll_error v.scale v.pts w.getNodeNames (fun n => (w.resultGetNodalDisplacement n "case1").getD []) (by
      by_contra hno
      push Not at hno
      apply hD
      intro n hn
      obtain ⟨d, hd⟩ := hs n hn
      have := hno n hn
      rw [hd] at this
      exact ⟨d, hd, this⟩)
    simp only []
    rw [he]
    exact ⟨e, rfl⟩

/-- a click keeps the invariant -/
theorem ViewInv_step (env : Env) (cs : List Call) (w : World) (hw : w = World.init.run env cs) (hne : w.getNodeNames ≠ [])
    {P : Picture} {v : Viewer} (h : ViewInv w P v) (hsh : ¬ Displayable w → P.shape = none) (c : Click) :
    ViewInv w (Picture.step w P c) (v.step c) ∧ (¬ Displayable w → (Picture.step w P c).shape = none) ∧
    (ViewTidy P v → ((∃ a, c = .deform a) → P.nodes = false) → ViewTidy (Picture.step w P c) (v.step c)) := by
  have hd : Drawable w := by rw [hw]; exact Drawable_run env cs
  cases c with
  | slide s =>
    refine ⟨⟨h.api, h.pts, h.lines, h.faces, h.beam, h.node, h.zero, h.sb, h.sn, h.shell, h.sub, h.acts, h.btnNode, h.btn, rfl⟩, hsh, ?_⟩
    intro ht _
    exact ⟨ht.node, ht.zero⟩
  | node =>
    have hst : v.step .node = { (v.switch v.vnodes (!v.btnNode)) with btnNode := !v.btnNode } := by
      simp only [Viewer.step, Viewer.toggleNode]
      cases hb : v.btnNode <;> simp [Viewer.switch, hb]
    obtain ⟨o, hn⟩ := h.node
    obtain ⟨oz, hz⟩ := h.zero
    have hneb : v.vnodes ≠ v.vbeams := by
      intro e
      have := h.beam
      rw [← e, hn] at this
      simp at this
    have hnew : (v.step .node).heap[v.vnodes]? = some ⟨.points (w.getNodeNames.map (nodeAt w P.shape)), !v.btnNode⟩ := by
      rw [hst]
      simp only [Viewer.switch]
      rw [List.getElem?_modify_eq, hn]
      rfl
    have hother : ∀ i, i ≠ v.vnodes → (v.step .node).heap[i]? = v.heap[i]? := by
      intro i hi
      rw [hst]
      simp only [Viewer.switch]
      rw [List.getElem?_modify]
      simp [Ne.symm hi]
    have e1 : (v.step .node).vnodes = v.vnodes := by rw [hst]; rfl
    have e2 : (v.step .node).vbeams = v.vbeams := by rw [hst]; rfl
    refine ⟨⟨?_, ?_, ?_, ?_, ?_, ⟨!v.btnNode, ?_⟩, ?_, ?_, ?_, ?_, ?_, ?_, ?_, ?_, ?_⟩, hsh, ?_⟩
    · rw [hst]; exact h.api
    · rw [hst]; exact h.pts
    · rw [hst]; exact h.lines
    · rw [hst]; exact h.faces
    · rw [e2, hother _ (fun e => hneb e.symm)]; exact h.beam
    · rw [e1]; exact hnew
    · by_cases h0 : v.vnodes = 0
      · refine ⟨!v.btnNode, ?_⟩
        rw [h0] at hnew hn
        rw [hnew]
        rw [hz] at hn
        simp only [Option.some.injEq, Actor.mk.injEq, Sketch.points.injEq] at hn
        rw [hn.1]
      · exact ⟨oz, by rw [hother 0 (fun e => h0 e.symm)]; exact hz⟩
    · rw [hst]; exact h.sb
    · rw [hst]; exact h.sn
    · have e3 : (v.step .node).vshells = v.vshells := by rw [hst]; rfl
      have e4 : (v.step .node).shown = v.shown := by rw [hst]; rfl
      rw [e3, e4]
      rcases h.shell with hs | ⟨i, h1, h2, h3⟩
      · exact Or.inl hs
      · refine Or.inr ⟨i, h1, h2, ?_⟩
        rw [hother i]
        · exact h3
        · rintro rfl
          rw [hn] at h3
          simp at h3
    · rw [hst]; exact h.sub
    · rw [hst]; exact h.acts
    · rw [hst]; show (!v.btnNode) = !P.nodes; rw [h.btnNode]
    · rw [hst]; exact h.btn
    · rw [hst]; exact h.scale
    · intro ht _
      refine ⟨⟨.points (w.getNodeNames.map (nodeAt w P.shape)), ?_⟩, ?_⟩
      · rw [e1, hnew, h.btnNode]; rfl
      · rw [e1]
        rcases ht.zero with h0 | ⟨d, h0⟩
        · exact Or.inl h0
        · by_cases hv : v.vnodes = 0
          · exact Or.inl hv
          · exact Or.inr ⟨d, by rw [hother 0 (fun e => hv e.symm)]; exact h0⟩
  | deform a =>
    by_cases hD : Displayable w
    · have htab := (displacement_table env cs w hw hne).resolve_left (fun h => h.2 hD)
      by_cases hsame : P.shape.map Prod.fst = some a
      · have hb : v.btn a = true := (h.btn a).mpr hsame
        have hp : Picture.step w P (.deform a) = { P with shape := none } := by
          simp only [Picture.step]; rw [if_pos hD, if_pos hsame]
        have hb' : ∀ x, (fun b => if b = a then !v.btn a else false : Axis → Bool) x = true ↔
            (none : Option (Axis × ℝ)).map Prod.fst = some x := by
          intro x; simp only [hb]; by_cases hx : x = a <;> simp [hx]
        have hst : v.step (.deform a) = ({ v.redraw (w.getNodeNames.map (nodeAt w none)) (w.getBeamNames.map (beamAt w none)) false
            with btn := fun b => if b = a then !v.btn a else false } : Viewer).reset := by
          simp only [Viewer.step, Viewer.deform, hb, if_true, resetDeformation_eq h]
          simp only [pure, Except.pure, bind, Except.bind, Viewer.redraw, hb]
        rw [hp, hst]
        refine ⟨h.redraw none false _ hb', fun _ => rfl, ?_⟩
        intro ht hno
        exact ViewTidy.redraw h ht (hno ⟨a, rfl⟩) none _ _ _
      · have hb : v.btn a = false := by
          cases hx : v.btn a with
          | false => rfl
          | true => exact absurd ((h.btn a).mp hx) hsame
        have hp : Picture.step w P (.deform a) = { P with shape := some (a, P.scale) } := by
          simp only [Picture.step]; rw [if_pos hD, if_neg hsame]
        have hb' : ∀ x, (fun b => if b = a then !v.btn a else false : Axis → Bool) x = true ↔
            (some (a, P.scale) : Option (Axis × ℝ)).map Prod.fst = some x := by
          intro x; simp only [hb]; by_cases hx : x = a <;> simp [hx, eq_comm]
          exact fun e => hx e.symm
        have hst : v.step (.deform a) = ({ v.redraw (w.getNodeNames.map (nodeAt w (some (a, P.scale))))
            (w.getBeamNames.map (beamAt w (some (a, P.scale)))) v.btnNode
            with btn := fun b => if b = a then !v.btn a else false } : Viewer).reset := by
          simp only [Viewer.step, Viewer.deform, hb, if_false, Bool.false_eq_true, showDeformation_eq h hd htab.1 hD a]
          simp only [pure, Except.pure, bind, Except.bind, Viewer.redraw, hb]
        rw [hp, hst]
        refine ⟨h.redraw _ _ _ hb', fun hn => absurd hD hn, ?_⟩
        intro ht hno
        have := hno ⟨a, rfl⟩
        have hbf : v.btnNode = false := h.btnNode.trans this
        rw [hbf]
        exact ViewTidy.redraw h ht this _ _ _ _
    · have hp : Picture.step w P (.deform a) = P := by
        simp only [Picture.step]; rw [if_neg hD]
      have hb : v.btn a = false := by
        cases hx : v.btn a with
        | false => rfl
        | true => have := (h.btn a).mp hx; rw [hsh hD] at this; cases this
      have hst : v.step (.deform a) = v := by
        obtain ⟨e, he⟩ := showDeformation_error h (by
          rcases displacement_table env cs w hw hne with h | h
          · exact Or.inl h.1
          · exact Or.inr h) hD
        simp only [Viewer.step, Viewer.deform, hb, if_false, Bool.false_eq_true, he]
        rfl
      rw [hp, hst]
      exact ⟨h, hsh, fun ht _ => ht⟩

theorem open_inv {w : World} (hd : Drawable w) (hne : w.getNodeNames ≠ []) (hq : AllQuads w) :
    ∃ v, Viewer.open? w = .ok v ∧ ViewInv w Picture.start v ∧ ViewTidy Picture.start v ∧ v.vnodes = 0 ∧
      v.cones = w.api.model.restraints.flatMap (fun kv =>
        conesAt (nodeAt w none kv.1) (sceneRadius (w.getNodeNames.map (nodeAt w none)) / 100) kv.2) := by
  have hl : (tabulate w.getNodeNames (nodeAt w none)).length ≠ 0 := by
    simp [tabulate, hne]
  unfold Viewer.open?
  rw [viewPts_eq hd]
  simp only [Except.bind_ok]
  rw [viewLines_new hd]
  simp only [Except.bind_ok]
  rw [viewFaces_eq hd hq]
  simp only [Except.bind_ok]
  rw [if_neg hl, viewCones_eq hd]
  simp only [Except.bind_ok]
  refine ⟨_, rfl, ⟨rfl, rfl, rfl, rfl, ?_, ⟨false, ?_⟩, ⟨false, ?_⟩, ?_, ?_, ?_, ?_, ?_, rfl, ?_, rfl⟩, ⟨⟨_, rfl⟩, Or.inl rfl⟩, rfl, ?_⟩
  · simp [values_tabulate, Picture.start]
  · simp [values_tabulate, Picture.start]
  · simp [values_tabulate]
  · simp
  · simp
  · by_cases hs : w.getShellNames = []
    · left; simp [hs]
    · right
      refine ⟨2, ?_, ?_, ?_⟩ <;> simp [hs, values_tabulate, Picture.start]
  · intro i hi
    by_cases hs : w.getShellNames = []
    · simp [hs] at hi ⊢
      omega
    · simp [hs] at hi ⊢
      omega
  · by_cases hs : w.getShellNames = []
    · left; simp [hs]
    · right
      exact ⟨2, by simp [hs], Or.inl (by simp [hs])⟩
  · intro a; simp [Picture.start]
  · simp only [values_tabulate]

theorem open_error {w : World} (hd : Drawable w) (h : w.getNodeNames = [] ∨ ¬ AllQuads w) : ∃ e, Viewer.open? w = .error e := by
  unfold Viewer.open?
  rw [viewPts_eq hd]
  simp only [Except.bind_ok]
  rw [viewLines_new hd]
  simp only [Except.bind_ok]
  by_cases hq : AllQuads w
  · rw [viewFaces_eq hd hq]
    simp only [Except.bind_ok]
    rcases h with h | h
    · rw [if_pos (by simp [tabulate, h])]
      exact ⟨_, rfl⟩
    · exact absurd hq h
  · obtain ⟨e, he⟩ := viewFaces_error hq
    rw [he]
    exact ⟨e, rfl⟩

theorem Viewer.step_cones (v : Viewer) (c : Click) : (v.step c).cones = v.cones := by
  cases c with
  | slide s => rfl
  | node =>
    simp only [Viewer.step, Viewer.toggleNode]
    split <;> rfl
  | deform a =>
    simp only [Viewer.step, Viewer.deform]
    cases hb : v.btn a with
    | true =>
      simp only [if_true, bind, Except.bind, pure, Except.pure, Viewer.reset, Viewer.resetDeformation]
      split <;> simp [Viewer.switch, Viewer.make, Viewer.removeShells_eq, Viewer.remove]
    | false =>
      simp only [Bool.false_eq_true, if_false]
      cases hs : v.showDeformation with
      | error e => rfl
      | ok v' =>
        simp only [bind, Except.bind, pure, Except.pure, Viewer.reset]
        unfold Viewer.showDeformation at hs
        cases ht : v.api.resultGetAllNodalDisplacement "case1" with
        | none => rw [ht] at hs; cases hs
        | some d =>
          rw [ht] at hs
          simp only [] at hs
          cases hm : moveAll v.scale v.pts d with
          | error e => rw [hm] at hs; cases hs
          | ok pts =>
            rw [hm] at hs
            simp only [Except.bind_ok] at hs
            generalize hu : (if ({ (v.remove v.vnodes).make (.points pts.values) true with
              vnodes := (v.remove v.vnodes).heap.length } : Viewer).btnNode = true then
              ({ (v.remove v.vnodes).make (.points pts.values) true with vnodes := (v.remove v.vnodes).heap.length } : Viewer)
              else ({ (v.remove v.vnodes).make (.points pts.values) true with
                vnodes := (v.remove v.vnodes).heap.length } : Viewer).switch _ false) = u at hs
            have huc : u.cones = v.cones := by
              rw [← hu]; split <;> rfl
            cases hl : viewLines (u.remove u.vbeams).api pts (u.remove u.vbeams).lines with
            | error e => rw [hl] at hs; cases hs
            | ok lines =>
              rw [hl] at hs
              simp only [Except.bind_ok, pure, Except.pure, Except.ok.injEq] at hs
              rw [← hs]
              simp [Viewer.make, Viewer.removeShells_eq, Viewer.remove, huc]

theorem view_run (env : Env) (cs : List Call) (w : World) (hw : w = World.init.run env cs) (v : Viewer)
    (hv : Viewer.open? w = .ok v) (clicks : List Click) :
    (w.getNodeNames ≠ [] ∧ AllQuads w) ∧ ViewInv w (Picture.after w clicks) (v.run clicks) ∧
    (NodesHidden w clicks → ViewTidy (Picture.after w clicks) (v.run clicks)) := by
  have hd : Drawable w := by rw [hw]; exact Drawable_run env cs
  have hne : w.getNodeNames ≠ [] := by
    intro h
    obtain ⟨e, he⟩ := open_error hd (Or.inl h)
    rw [he] at hv; cases hv
  have hq : AllQuads w := by
    by_contra h
    obtain ⟨e, he⟩ := open_error hd (Or.inr h)
    rw [he] at hv; cases hv
  obtain ⟨v', hv', hi, ht, _⟩ := open_inv hd hne hq
  rw [hv] at hv'
  cases hv'
  have key : ViewInv w (Picture.after w clicks) (v.run clicks) ∧ (¬ Displayable w → (Picture.after w clicks).shape = none) ∧
      (NodesHidden w clicks → ViewTidy (Picture.after w clicks) (v.run clicks)) := by
    induction clicks using List.reverseRecOn with
    | nil => exact ⟨hi, fun _ => rfl, fun _ => ht⟩
    | append_singleton l c ih =>
      have e1 : Picture.after w (l ++ [c]) = Picture.step w (Picture.after w l) c := by simp [Picture.after]
      have e2 : v.run (l ++ [c]) = (v.run l).step c := by simp [Viewer.run]
      rw [e1, e2]
      obtain ⟨h1, h2, h3⟩ := ViewInv_step env cs w hw hne ih.1 ih.2.1 c
      refine ⟨h1, h2, ?_⟩
      intro hh
      refine h3 (ih.2.2 ?_) ?_
      · intro pre a post e
        exact hh pre a (post ++ [c]) (by rw [e]; simp)
      · rintro ⟨a, rfl⟩
        exact hh l a [] rfl
  exact ⟨⟨hne, hq⟩, key.1, key.2.2⟩

end Hyperstatic
