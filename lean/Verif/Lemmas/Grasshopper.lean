import Verif.Spec.Grasshopper
import Verif.Lemmas.Coo
import Verif.Lemmas.Geom

/-
Merging of points in the assembling component.
-/

namespace Hyperstatic
open Spec

theorem norm_self_sub (p : V3) : V3.norm (p - p) = 0 := by
  have : p - p = ⟨0, 0, 0⟩ := by ext <;> show _ - _ = _ <;> simp
  rw [this]; simp [V3.norm]

theorem findPt_some {p : V3} {l : List GhNode} {tol : ℝ} {i : ℕ} : findPt p l tol = some i ↔ FirstNear tol p l i := by
  unfold findPt FirstNear
  rw [List.findIdx?_eq_some_iff_getElem]
  constructor
  · rintro ⟨h, h1, h2⟩
    refine ⟨⟨l[i], by simp [h], by simpa using h1⟩, ?_⟩
    intro k hk n hn
    have hkl : k < l.length := by omega
    rw [List.getElem?_eq_getElem hkl, Option.some.injEq] at hn
    subst hn
    simpa using h2 k hk
  · rintro ⟨⟨n, hn, h1⟩, h2⟩
    obtain ⟨h, rfl⟩ := List.getElem?_eq_some_iff.mp hn
    refine ⟨h, by simpa using h1, ?_⟩
    intro k hk
    have hkl : k < l.length := by omega
    simpa using h2 k hk _ (List.getElem?_eq_getElem hkl)

theorem findPt_none {p : V3} {l : List GhNode} {tol : ℝ} : findPt p l tol = none ↔ ∀ n ∈ l, tol ≤ V3.norm (p - n.point) := by
  unfold findPt
  rw [List.findIdx?_eq_none_iff]
  simp

theorem findPt_append {p : V3} {l : List GhNode} {tol : ℝ} {i : ℕ} (h : findPt p l tol = some i) (l' : List GhNode) :
    findPt p (l ++ l') tol = some i := by
  unfold findPt at *
  rw [List.findIdx?_append, h]; rfl

theorem findPt_new {p : V3} {l : List GhNode} {tol : ℝ} (ht : 0 < tol) (h : findPt p l tol = none) (s : String) :
    findPt p (l ++ [⟨s, p⟩]) tol = some l.length := by
  unfold findPt at *
  rw [List.findIdx?_append, h]
  have h0 := norm_self_sub p
  rw [List.findIdx?_cons, if_pos (by simp only [decide_eq_true_eq]; rw [h0]; exact ht)]
  simp

/-! ### restraints and loads -/

/-- the nodes are only extended -/
theorem placeSpecial_prefix (tol : ℝ) (nodes sp : List GhNode) : ∃ l, (placeSpecial tol nodes sp).1 = nodes ++ l ∧ ∀ n ∈ l, n ∈ sp := by
  induction sp generalizing nodes with
  | nil => exact ⟨[], by simp [placeSpecial]⟩
  | cons s rest ih =>
    unfold placeSpecial
    cases h : findPt s.point nodes tol with
    | none =>
      obtain ⟨l, hl, hm⟩ := ih (nodes ++ [s])
      refine ⟨s :: l, by simp [hl], ?_⟩
      intro n hn
      rcases List.mem_cons.mp hn with rfl | hn
      · simp
      · exact List.mem_cons_of_mem _ (hm n hn)
    | some k =>
      obtain ⟨l, hl, hm⟩ := ih nodes
      exact ⟨l, hl, fun n hn => List.mem_cons_of_mem _ (hm n hn)⟩

theorem placeSpecial_length (tol : ℝ) (nodes sp : List GhNode) : (placeSpecial tol nodes sp).2.length = sp.length := by
  induction sp generalizing nodes with
  | nil => rfl
  | cons s rest ih =>
    unfold placeSpecial
    cases h : findPt s.point nodes tol <;> simp [ih]

/-- the node found for an object -/
def NodeFor (tol : ℝ) (nodes : List GhNode) (s n : GhNode) : Prop := ∃ i, findPt s.point nodes tol = some i ∧ nodes[i]? = some n

theorem placeSpecial_found {tol : ℝ} (ht : 0 < tol) (nodes sp : List GhNode) (tail : List GhNode) :
    List.Forall₂ (NodeFor tol ((placeSpecial tol nodes sp).1 ++ tail)) sp (placeSpecial tol nodes sp).2 := by
  induction sp generalizing nodes with
  | nil => exact List.Forall₂.nil
  | cons s rest ih =>
    unfold placeSpecial
    cases h : findPt s.point nodes tol with
    | none =>
      refine List.Forall₂.cons ?_ (ih _)
      obtain ⟨l, hl, _⟩ := placeSpecial_prefix tol (nodes ++ [s]) rest
      refine ⟨nodes.length, ?_, ?_⟩
      · show findPt s.point ((placeSpecial tol (nodes ++ [s]) rest).1 ++ tail) tol = _
        rw [hl, List.append_assoc]
        exact findPt_append (findPt_new ht h s.name) _
      · show ((placeSpecial tol (nodes ++ [s]) rest).1 ++ tail)[nodes.length]? = some s
        rw [hl]
        simp
    | some k =>
      refine List.Forall₂.cons ?_ (ih _)
      obtain ⟨l, hl, _⟩ := placeSpecial_prefix tol nodes rest
      obtain ⟨⟨n, hn, _⟩, _⟩ := findPt_some.mp h
      obtain ⟨hk, hk'⟩ := List.getElem?_eq_some_iff.mp hn
      refine ⟨k, ?_, ?_⟩
      · show findPt s.point ((placeSpecial tol nodes rest).1 ++ tail) tol = _
        rw [hl, List.append_assoc]
        exact findPt_append h _
      · show ((placeSpecial tol nodes rest).1 ++ tail)[k]? = some (nodes.getD k s)
        rw [hl, List.append_assoc, List.getElem?_append_left hk, List.getD_eq_getElem?_getD, hn]
        rfl

/-- distinct nodes are at least the tolerance apart -/
def Apart (tol : ℝ) (nodes : List GhNode) : Prop := nodes.Pairwise fun m n => tol ≤ V3.norm (n.point - m.point)

theorem Apart.snoc {tol : ℝ} {nodes : List GhNode} (h : Apart tol nodes) {s : GhNode} (hs : findPt s.point nodes tol = none) :
    Apart tol (nodes ++ [s]) := by
  unfold Apart
  rw [List.pairwise_append]
  refine ⟨h, List.pairwise_singleton _ _, ?_⟩
  intro a ha b hb
  rw [List.mem_singleton] at hb
  subst hb
  exact findPt_none.mp hs a ha

theorem placeSpecial_apart {tol : ℝ} (nodes sp : List GhNode) (h : Apart tol nodes) : Apart tol (placeSpecial tol nodes sp).1 := by
  induction sp generalizing nodes with
  | nil => exact h
  | cons s rest ih =>
    unfold placeSpecial
    cases hs : findPt s.point nodes tol with
    | none => exact ih _ (h.snoc hs)
    | some k => exact ih _ h

/-! ### beams -/

theorem endNode_prefix (nodes : List GhNode) (p : V3) (o : Option ℕ) :
    ∃ l, (endNode nodes p o).1 = nodes ++ l ∧ ∀ n ∈ l, n.point = p ∧ n.name = "gen_" ++ toString nodes.length := by
  cases o with
  | none => exact ⟨[_], rfl, by simp⟩
  | some k => exact ⟨[], by simp [endNode]⟩

theorem placeBeam_prefix (tol : ℝ) (s : List GhNode × Dict (ℕ × ℕ)) (b : GhBeam) :
    ∃ l, (placeBeam tol s b).1 = s.1 ++ l ∧ ∀ n ∈ l, n.point = b.start ∨ n.point = b.stop := by
  obtain ⟨l1, h1, m1⟩ := endNode_prefix s.1 b.start (findPt b.start s.1 tol)
  obtain ⟨l2, h2, m2⟩ := endNode_prefix (endNode s.1 b.start (findPt b.start s.1 tol)).1 b.stop (findPt b.stop s.1 tol)
  refine ⟨l1 ++ l2, ?_, ?_⟩
  · show (endNode (endNode s.1 b.start (findPt b.start s.1 tol)).1 b.stop (findPt b.stop s.1 tol)).1 = _
    rw [h2, h1, List.append_assoc]
  · intro n hn
    rcases List.mem_append.mp hn with h | h
    · exact Or.inl (m1 n h).1
    · exact Or.inr (m2 n h).1

theorem placeBeams_prefix (tol : ℝ) (bs : List GhBeam) (s : List GhNode × Dict (ℕ × ℕ)) :
    ∃ l, (bs.foldl (placeBeam tol) s).1 = s.1 ++ l ∧ ∀ n ∈ l, ∃ b ∈ bs, n.point = b.start ∨ n.point = b.stop := by
  induction bs generalizing s with
  | nil => exact ⟨[], by simp⟩
  | cons b bs ih =>
    obtain ⟨l1, h1, m1⟩ := placeBeam_prefix tol s b
    obtain ⟨l2, h2, m2⟩ := ih (placeBeam tol s b)
    refine ⟨l1 ++ l2, by rw [List.foldl_cons, h2, h1, List.append_assoc], ?_⟩
    intro n hn
    rcases List.mem_append.mp hn with h | h
    · exact ⟨b, List.mem_cons_self, m1 n h⟩
    · obtain ⟨b', hb', e⟩ := m2 n h
      exact ⟨b', List.mem_cons_of_mem _ hb', e⟩

theorem norm_sub_comm' (p q : V3) : V3.norm (p - q) = V3.norm (q - p) := by
  show Real.sqrt ((p.x - q.x) * (p.x - q.x) + (p.y - q.y) * (p.y - q.y) + (p.z - q.z) * (p.z - q.z)) =
    Real.sqrt ((q.x - p.x) * (q.x - p.x) + (q.y - p.y) * (q.y - p.y) + (q.z - p.z) * (q.z - p.z))
  congr 1
  ring

/-- after the start has been placed, a far away end that was not found is still not found -/
theorem findPt_snoc_none {tol : ℝ} {nodes : List GhNode} {p q : V3} (h : findPt q nodes tol = none) (hpq : tol ≤ V3.norm (p - q)) (s : String) :
    findPt q (nodes ++ [⟨s, p⟩]) tol = none := by
  rw [findPt_none] at *
  intro n hn
  rcases List.mem_append.mp hn with hn | hn
  · exact h n hn
  · rw [List.mem_singleton] at hn
    subst hn
    rw [norm_sub_comm']
    exact hpq

theorem placeBeam_ends {tol : ℝ} (ht : 0 < tol) (s : List GhNode × Dict (ℕ × ℕ)) (b : GhBeam) (hb : tol ≤ V3.norm (b.start - b.stop)) :
    ∃ i j, (placeBeam tol s b).2 = s.2.set b.name (i, j) ∧ findPt b.start (placeBeam tol s b).1 tol = some i ∧
      findPt b.stop (placeBeam tol s b).1 tol = some j := by
  unfold placeBeam
  cases h1 : findPt b.start s.1 tol with
  | some i =>
    cases h2 : findPt b.stop s.1 tol with
    | some j => exact ⟨i, j, rfl, h1, h2⟩
    | none => exact ⟨i, _, rfl, findPt_append h1 _, findPt_new ht h2 _⟩
  | none =>
    cases h2 : findPt b.stop s.1 tol with
    | some j => exact ⟨_, j, rfl, findPt_new ht h1 _, findPt_append h2 _⟩
    | none =>
      refine ⟨_, _, rfl, findPt_append (findPt_new ht h1 _) _, ?_⟩
      exact findPt_new ht (findPt_snoc_none h2 hb _) _

theorem placeBeam_apart {tol : ℝ} (s : List GhNode × Dict (ℕ × ℕ)) (b : GhBeam) (hb : tol ≤ V3.norm (b.start - b.stop))
    (h : Apart tol s.1) : Apart tol (placeBeam tol s b).1 := by
  unfold placeBeam
  cases h1 : findPt b.start s.1 tol with
  | some i =>
    cases h2 : findPt b.stop s.1 tol with
    | some j => exact h
    | none => exact h.snoc (s := ⟨_, b.stop⟩) h2
  | none =>
    cases h2 : findPt b.stop s.1 tol with
    | some j => exact h.snoc (s := ⟨_, b.start⟩) h1
    | none => exact (h.snoc (s := ⟨_, b.start⟩) h1).snoc (s := ⟨_, b.stop⟩) (findPt_snoc_none h2 hb _)

theorem placeBeams_apart {tol : ℝ} (bs : List GhBeam) (s : List GhNode × Dict (ℕ × ℕ)) (hb : ∀ b ∈ bs, tol ≤ V3.norm (b.start - b.stop))
    (h : Apart tol s.1) : Apart tol (bs.foldl (placeBeam tol) s).1 := by
  induction bs generalizing s with
  | nil => exact h
  | cons b bs ih =>
    exact ih _ (fun b' hb' => hb b' (List.mem_cons_of_mem _ hb')) (placeBeam_apart s b (hb b List.mem_cons_self) h)

theorem placeBeams_conn_other {tol : ℝ} (bs : List GhBeam) (s : List GhNode × Dict (ℕ × ℕ)) (n : String) (hn : n ∉ bs.map (·.name)) :
    (bs.foldl (placeBeam tol) s).2.get? n = s.2.get? n := by
  induction bs generalizing s with
  | nil => rfl
  | cons b bs ih =>
    rw [List.map_cons, List.mem_cons, not_or] at hn
    rw [List.foldl_cons, ih _ hn.2]
    exact Dict.get?_set_ne _ _ (Ne.symm hn.1)

theorem placeBeams_ends {tol : ℝ} (ht : 0 < tol) (bs : List GhBeam) (s : List GhNode × Dict (ℕ × ℕ))
    (hb : ∀ b ∈ bs, tol ≤ V3.norm (b.start - b.stop)) (hn : (bs.map (·.name)).Nodup) :
    ∀ b ∈ bs, ∃ i j, (bs.foldl (placeBeam tol) s).2.get? b.name = some (i, j) ∧
      findPt b.start (bs.foldl (placeBeam tol) s).1 tol = some i ∧ findPt b.stop (bs.foldl (placeBeam tol) s).1 tol = some j := by
  induction bs generalizing s with
  | nil => simp
  | cons b bs ih =>
    rw [List.map_cons, List.nodup_cons] at hn
    intro c hc
    rcases List.mem_cons.mp hc with rfl | hc
    · obtain ⟨i, j, h1, h2, h3⟩ := placeBeam_ends ht s c (hb c List.mem_cons_self)
      obtain ⟨l, hl, _⟩ := placeBeams_prefix tol bs (placeBeam tol s c)
      refine ⟨i, j, ?_, ?_, ?_⟩
      · rw [List.foldl_cons, placeBeams_conn_other bs _ _ hn.1, h1]; simp
      · rw [List.foldl_cons, hl]; exact findPt_append h2 _
      · rw [List.foldl_cons, hl]; exact findPt_append h3 _
    · exact ih _ (fun b' hb' => hb b' (List.mem_cons_of_mem _ hb')) hn.2 c hc

/-- keys of the connection table -/
theorem placeBeams_keys {tol : ℝ} (bs : List GhBeam) (s : List GhNode × Dict (ℕ × ℕ)) (hn : (s.2.keys ++ bs.map (·.name)).Nodup) :
    (bs.foldl (placeBeam tol) s).2.keys = s.2.keys ++ bs.map (·.name) := by
  induction bs generalizing s with
  | nil => simp
  | cons b bs ih =>
    have hk : (placeBeam tol s b).2.keys = s.2.keys ++ [b.name] := by
      show Dict.keys (Dict.set s.2 b.name _) = _
      rw [Dict.keys_set, if_neg]
      intro h
      rw [List.map_cons, List.nodup_append] at hn
      exact hn.2.2 _ h _ List.mem_cons_self rfl
    rw [List.foldl_cons, ih, hk]
    · simp
    · rw [hk]; simpa using hn

end Hyperstatic
