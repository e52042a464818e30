import Verif.Lemmas.Fresh
import Verif.Lemmas.Step

/-
Properties C01, C02, C03, C04, C06, C07, C09: the registries of the API along histories of calls.
-/

namespace Hyperstatic

open Spec

/-! ## C02 Node registry is a last-write-wins map in first-insertion order -/

/-- After every history of API calls, `get_node_names` and `get_node_location` answer as the abstract register
`Spec.nodeReg` says: each name once, in order of first addition, with the coordinates of the last `add_node`. -/
theorem C02_node_registry (env : Env) (cs : List Call) :
    (World.init.run env cs).getNodeNames = (nodeReg.run cs).cur.names ∧
    (∀ n, (World.init.run env cs).getNodeLocation n = (nodeReg.run cs).cur.loc n) ∧
    (World.init.run env cs).getNodeNames.Nodup := by
  let abs : Api → NodeReg := fun a => ⟨a.model.nodes.keys, fun n => (a.model.nodes.get? n).map Node.loc⟩
  have href : abs (World.init.run env cs).api = (nodeReg.run cs).cur := by
    apply refines env nodeReg abs ApiInv
    · simp [abs, nodeReg, Api.init, FeModel.empty, Dict.keys]
    · exact ApiInv_init
    · exact fun a c a' h he => ApiInv_edit h he
    · intro a c a' h he
      rw [edit_ok_iff] at he
      cases c <;> simp only [EditEff] at he
      case addNode name x y z =>
        subst he
        simp only [abs, nodeReg, Dict.keys_set, Dict.get?_set, NodeReg.mk.injEq, true_and]
        funext m
        by_cases hm : name = m
        · subst hm; simp [Node.loc, stdNode]
        · simp [hm, Ne.symm hm]
      case setNodalMass name mass =>
        obtain ⟨nd, hnd, rfl⟩ := he
        simp only [abs, nodeReg, Dict.keys_set_of_mem hnd, Dict.get?_set, NodeReg.mk.injEq, true_and]
        funext m
        by_cases hm : name = m
        · subst hm; simp [hnd, Node.loc]
        · simp [hm]
      case setNodalRestraint => subst he; split <;> rfl
      all_goals first
        | (subst he; rfl)
        | (obtain ⟨_, _, rfl⟩ := he; rfl)
        | (obtain ⟨_, _, _, _, rfl⟩ := he; rfl)
        | (obtain ⟨_, _, _, _, _, _, rfl⟩ := he; rfl)
        | (obtain ⟨_, _, _, _, _, _, _, _, rfl⟩ := he; rfl)
    · intro a c e h he
      cases c <;> first | rfl | (rw [edit_addNode] at he; simp at he)
  refine ⟨congrArg NodeReg.names href, ?_, (ApiInv_run env cs).1.nodes_wf⟩
  intro n
  rw [← href]
  show tryOption (FeModel.getNodeLocation _ n) = ((World.init.run env cs).api.model.nodes.get? n).map Node.loc
  unfold FeModel.getNodeLocation Dict.getItem
  cases Dict.get? (World.init.run env cs).api.model.nodes n <;> rfl

/-- Reading back: the location last given to a name is returned until the name is added again (or an older state is
loaded). -/
theorem C02_readback (env : Env) (cs cs' : List Call) (n : String) (x y z : ℝ)
    (h : ∀ c ∈ cs', (∀ x y z, c ≠ .addNode n x y z) ∧ (∀ f, c ≠ .load f)) :
    (World.init.run env (cs ++ .addNode n x y z :: cs')).getNodeLocation n = some ⟨x, y, z⟩ := by
  rw [(C02_node_registry env _).2.1]
  simp only [Machine.run, List.foldl_append, List.foldl_cons]
  generalize List.foldl nodeReg.step _ cs = s
  have h0 : (nodeReg.step s (.addNode n x y z)).cur.loc n = some ⟨x, y, z⟩ := by
    simp [Machine.step, nodeReg]
  generalize nodeReg.step s (.addNode n x y z) = t at h0
  induction cs' generalizing t with
  | nil => exact h0
  | cons c cs' ih =>
    rw [List.foldl_cons]
    apply ih (fun c hc => h c (List.mem_cons_of_mem _ hc))
    obtain ⟨h1, h2⟩ := h c List.mem_cons_self
    cases c
    case addNode m x' y' z' =>
      have : n ≠ m := fun e => h1 x' y' z' (by rw [e])
      simpa [Machine.step, nodeReg, this] using h0
    case load f => exact absurd rfl (h2 f)
    all_goals exact h0

/-- a non-trivial history: a name is re-used and other names are added; the last write wins -/
example (env : Env) : (World.init.run env
      [.addNode "A" 0 0 0, .addNode "B" 1 0 0, .addNode "A" 5 6 7, .addNode "C" 2 0 0]).getNodeLocation "A"
    = some ⟨5, 6, 7⟩ :=
  C02_readback env [.addNode "A" 0 0 0, .addNode "B" 1 0 0] [.addNode "C" 2 0 0] "A" 5 6 7 (by
    intro c hc; simp at hc; subst hc; simp)

/-! ## C01 Every node owns its own six result slots -/

/-- Full statement of C01 for one world: the six positions `6h..6h+5` a node's results are read from lie inside the
vector of `6 * number of nodes` entries and are disjoint from those of every other node. -/
def SlotsDisjoint (w : World) : Prop :=
  ∀ n ∈ w.getNodeNames, ∃ h, w.api.model.getNodeHid n = .ok h ∧ h < w.getNodeNames.length ∧
    ∀ m ∈ w.getNodeNames, m ≠ n → ∀ h', w.api.model.getNodeHid m = .ok h' →
      ∀ r < 6, ∀ s < 6, h * 6 + r ≠ h' * 6 + s

/-- C01 is false for all histories: after re-adding node `A` the nodes `A` and `C` share their slots, so whatever case is
added and solved afterwards they report the same displacement. -/
theorem C01_false (env : Env) : ∃ cs, ¬ SlotsDisjoint (World.init.run env cs) ∧
    ∀ case, let w := World.init.run env (cs ++ [.addStaticCase case, .assemble, .solveStatic case])
      w.resultGetNodalDisplacement "A" case = w.resultGetNodalDisplacement "C" case := by
  have hw : World.init.run env [.addNode "A" 0 0 0, .addNode "B" 1 0 0, .addNode "A" 2 0 0, .addNode "C" 3 0 0]
      = ⟨{ Api.init with model := { FeModel.empty with
            nodes := [("A", stdNode "A" 2 0 0), ("B", stdNode "B" 1 0 0), ("C", stdNode "C" 3 0 0)]
            hidNode := [("A", 2), ("B", 1), ("C", 2)] } }, []⟩ := by
    simp [run_cons, run_nil, step_addNode, World.init, Api.init, FeModel.empty, Dict.set]
  refine ⟨[.addNode "A" 0 0 0, .addNode "B" 1 0 0, .addNode "A" 2 0 0, .addNode "C" 3 0 0], ?_, ?_⟩
  · intro h
    rw [hw] at h
    obtain ⟨i, h1, _, h3⟩ := h "A" (by simp [World.getNodeNames, Dict.keys])
    have hA : i = 2 := by
      simpa [FeModel.getNodeHid, Dict.getItem, Dict.get?] using h1.symm
    subst hA
    exact h3 "C" (by simp [World.getNodeNames, Dict.keys]) (by decide) 2
      (by simp [FeModel.getNodeHid, Dict.getItem, Dict.get?]) 0 (by decide) 0 (by decide) rfl
  · intro case
    rw [run_append, hw]
    simp only [run_cons, run_nil, step_addStaticCase]
    rw [step_assemble _ _ _ (assembly_norest _ rfl)]
    simp only [World.step, World.resultGetNodalDisplacement, resolveNodalDisplacement, openAssembly_solve]
    rfl

/-- C01 for histories that do not add an existing node name again: slots are disjoint and in range, in the current model
and in every assembly in the work path (from which results are read). -/
theorem C01_slots_partial (env : Env) (cs : List Call) (hP : NoReadd env World.init cs) :
    SlotsDisjoint (World.init.run env cs) ∧
    ∀ k x, (World.init.run env cs).fs.get? k = some (.asb x) → SlotsDisjoint ⟨⟨x.model, [], [], []⟩, []⟩ := by
  have key : ∀ a : Api, FreshInv a → ∀ fs, SlotsDisjoint ⟨a, fs⟩ := by
    intro a h fs n hn
    change n ∈ a.model.nodes.keys at hn
    obtain ⟨i, hi⟩ := List.mem_iff_getElem?.mp hn
    refine ⟨i, ?_, (List.getElem?_eq_some_iff.mp hi).1, ?_⟩
    · exact (Dict.getItem_eq_ok_iff _ _ _).mpr ((h.hid_get n i).mpr hi)
    · intro m hm hmn j hj r hr s hs e
      have hj' := (h.hid_get m j).mp ((Dict.getItem_eq_ok_iff _ _ _).mp hj)
      have : i = j := by omega
      subst this
      rw [hi] at hj'
      exact hmn (Option.some.inj hj').symm
  have hI := FreshInv_run env cs hP
  refine ⟨key _ hI.1 _, ?_⟩
  intro k x hx
  obtain ⟨a, ha, hax⟩ := hI.2.2 k x hx
  have hm : x.model = a.model := by
    simp only [Api.assembly, Assembly.mk?, Except.bind_ok_iff, Except.pure_eq_ok, Except.ok.injEq] at hax
    obtain ⟨_, _, rfl⟩ := hax
    rfl
  have := key a ha []
  intro n hn
  have := this n (by rw [hm] at hn; exact hn)
  rw [hm]; exact this

/-- hypotheses of `C01_slots_partial` are met by an ordinary history, including a reload -/
example (env : Env) : NoReadd env World.init
    [.addNode "A" 0 0 0, .save "f", .addNode "B" 1 0 0, .load "f", .addNode "B" 2 0 0, .assemble] := by
  simp [NoReadd, AllCalls, step_addNode, step_save, step_load, World.getNodeNames, World.init, Api.init, FeModel.empty,
    Dict.set, Dict.keys, Dict.get?]
  constructor <;> (rintro n - - - rfl - - -; decide)

end Hyperstatic
