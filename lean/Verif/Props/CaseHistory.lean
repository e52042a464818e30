import Verif.Props.CaseObject

/-
C163: asking a case object for the table of its loads over time.
-/

namespace Hyperstatic
open Spec

/-- **C163, loads over time.** The table of the loads over time is answered only by a case without patterns and factors, and is empty then.
A factor without any pattern is a `KeyError`; otherwise the name of the first pattern is taken apart, which is an `AttributeError` if all
patterns have names of two letters and a `ValueError` if none has. -/
theorem C163_history (name : String) (kind : CaseKind) (ops : List CaseOp) (s : PatHeap × LoadCase) (hs : s = CaseOp.run name kind ops)
    (L : Ledger) (hL : L = ledger ops) :
    (∀ d, s.2.getNodalFTimeHistoryDict = .ok d ↔ d = [] ∧ ∀ n, L.part n = none ∧ L.factor n = none) ∧
    ((∀ n, L.part n = none) → (∃ n, (L.factor n).isSome) → s.2.getNodalFTimeHistoryDict = .error .keyError) ∧
    ((∃ n, (L.part n).isSome) → (∀ n, (L.part n).isSome → n.length = 2) → s.2.getNodalFTimeHistoryDict = .error .attributeError) ∧
    ((∃ n, (L.part n).isSome) → (∀ n, (L.part n).isSome → n.length ≠ 2) → s.2.getNodalFTimeHistoryDict = .error .valueError) := by
  obtain ⟨hI, hE⟩ := run_inv name kind ops
  rw [← hs] at hI hE
  rw [← hE] at hL
  subst hL
  have hp : ∀ n, ((toLedger s).part n).isSome = (s.2.loadCurve.get? n).isSome := by
    intro n
    have := hI.same n
    unfold toLedger
    cases h1 : s.2.pattern.get? n <;> cases h2 : s.2.loadCurve.get? n <;> simp_all
  have hpn : ∀ n, (toLedger s).part n = none ↔ s.2.loadCurve.get? n = none := by
    intro n
    rw [← Option.not_isSome_iff_eq_none, ← Option.not_isSome_iff_eq_none, hp n]
  have hf : ∀ n, (toLedger s).factor n = s.2.loadFactor.get? n := fun _ => rfl
  simp only [hp, hpn, hf]
  unfold LoadCase.getNodalFTimeHistoryDict
  cases hc : s.2.loadCurve with
  | nil =>
    cases hg : s.2.loadFactor with
    | nil => simp [eq_comm]
    | cons a l =>
      have ha : Dict.get? (a :: l) a.1 ≠ none := by rw [Ne, Dict.get?_eq_none_iff]; simp [Dict.keys]
      refine ⟨fun d => ⟨fun h => by simp at h, fun h => absurd (h.2 a.1).2 ha⟩, fun _ _ => rfl, ?_, ?_⟩ <;>
        (rintro ⟨n, hn⟩; simp at hn)
  | cons a l =>
    have ha : Dict.get? (a :: l) a.1 ≠ none := by rw [Ne, Dict.get?_eq_none_iff]; simp [Dict.keys]
    have ha' := Option.isSome_iff_ne_none.mpr ha
    refine ⟨fun d => ⟨fun h => ?_, fun h => absurd (h.2 a.1).1 ha⟩, fun h => absurd (h a.1) ha, fun _ h => if_pos (h a.1 ha'),
      fun _ h => if_neg (h a.1 ha')⟩
    simp only at h
    split at h <;> cases h

/-- a case with one pattern, and one with a factor only -/
example : ((ledger factorOps).part "P").isSome ∧ (∀ n, (ledger [.setFactor "P" 1]).part n = none) ∧
    ((ledger [.setFactor "P" 1]).factor "P").isSome := by
  refine ⟨by simp [ledger, factorOps, Ledger.enter], fun n => by simp [ledger, Ledger.enter], by simp [ledger, Ledger.enter]⟩

end Hyperstatic
