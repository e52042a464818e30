import Verif.Model.S2k
import Verif.Spec.S2k
import Verif.Lemmas.Py
import Verif.Lemmas.Edit
import Mathlib.Tactic.Basic
import Mathlib.Data.List.Nodup

/-
C123: reading the tables of an s2k file.
-/

namespace Hyperstatic
open Spec

/-! ### splitting a row -/

/-- the segments when the pending one is closed -/
def s2kClosed (st : List Txt × Bool × Txt) : List Txt := if st.2.2 = [] then st.1 else st.1 ++ [st.2.2]

theorem split_plain (w : Txt) (hw : ∀ c ∈ w, c ≠ ' ' ∧ c ≠ '"' ∧ c ≠ '\n') (segs : List Txt) (temp : Txt) :
    w.foldl splitRowStep (segs, false, temp) = (segs, false, temp ++ w) := by
  induction w generalizing temp with
  | nil => simp
  | cons c w ih =>
    obtain ⟨h1, h2, h3⟩ := hw c (List.mem_cons_self ..)
    have : splitRowStep (segs, false, temp) c = (segs, false, temp ++ [c]) := by simp [splitRowStep, h1, h2, h3]
    rw [List.foldl_cons, this, ih (fun c hc => hw c (List.mem_cons_of_mem _ hc)), List.append_assoc, List.singleton_append]

theorem split_inside (w : Txt) (hw : ∀ c ∈ w, c ≠ '"') (segs : List Txt) (temp : Txt) :
    w.foldl splitRowStep (segs, true, temp) = (segs, true, temp ++ w) := by
  induction w generalizing temp with
  | nil => simp
  | cons c w ih =>
    have h := hw c (List.mem_cons_self ..)
    have : splitRowStep (segs, true, temp) c = (segs, true, temp ++ [c]) := by simp [splitRowStep, h]
    rw [List.foldl_cons, this, ih (fun c hc => hw c (List.mem_cons_of_mem _ hc)), List.append_assoc, List.singleton_append]

theorem split_quoted (w : Txt) (hw : ∀ c ∈ w, c ≠ '"') (segs : List Txt) (temp : Txt) :
    ('"' :: (w ++ ['"'])).foldl splitRowStep (segs, false, temp) = (segs, false, temp ++ '"' :: (w ++ ['"'])) := by
  rw [List.foldl_cons, List.foldl_append]
  have : splitRowStep (segs, false, temp) '"' = (segs, true, temp ++ ['"']) := by simp [splitRowStep]
  rw [this, split_inside w hw]
  simp [splitRowStep]

theorem split_blank (c : Char) (hc : c = ' ' ∨ c = '\n') (segs : List Txt) (temp : Txt) :
    splitRowStep (segs, false, temp) c = (s2kClosed (segs, false, temp), false, []) := by
  have h : c ≠ '"' := by rcases hc with rfl | rfl <;> decide
  by_cases ht : temp = []
  · subst ht
    rcases hc with rfl | rfl <;> simp [splitRowStep, s2kClosed]
  · rcases hc with rfl | rfl <;> simp [splitRowStep, s2kClosed, ht]

/-- an entry that can be read back -/
structure FieldOk (f : S2kField) : Prop where
  key : ∀ c ∈ f.key, c ≠ ' ' ∧ c ≠ '"' ∧ c ≠ '=' ∧ c ≠ '\n'
  value : ∀ c ∈ f.value, c ≠ '"' ∧ c ≠ '\n'

theorem split_text {f : S2kField} (h : FieldOk f) (segs : List Txt) (temp : Txt) :
    f.text.foldl splitRowStep (segs, false, temp) = (segs, false, temp ++ f.text) := by
  unfold S2kField.text
  rw [List.foldl_append, split_plain _ (fun c hc => ⟨(h.key c hc).1, (h.key c hc).2.1, (h.key c hc).2.2.2⟩), List.foldl_cons]
  have e : splitRowStep (segs, false, temp ++ f.key) '=' = (segs, false, temp ++ f.key ++ ['=']) := by simp [splitRowStep]
  rw [e]
  split
  · rw [split_quoted _ (fun c hc => (h.value c hc).1)]; simp
  · rename_i hb
    rw [split_plain _ (fun c hc => ⟨fun e => hb (e ▸ hc), (h.value c hc).1, (h.value c hc).2⟩)]; simp

theorem text_ne_nil (f : S2kField) : f.text ≠ [] := by
  unfold S2kField.text
  simp

theorem split_line (l : List S2kField) (hl : ∀ f ∈ l, FieldOk f) (segs : List Txt) (temp : Txt) :
    ∃ segs' temp', (s2kLine l).foldl splitRowStep (segs, false, temp) = (segs', false, temp') ∧
      s2kClosed (segs', false, temp') = s2kClosed (segs, false, temp) ++ l.map S2kField.text := by
  induction l generalizing segs temp with
  | nil => exact ⟨segs, temp, rfl, by simp⟩
  | cons f l ih =>
    have e : s2kLine (f :: l) = ' ' :: ' ' :: ' ' :: (f.text ++ s2kLine l) := by simp [s2kLine]
    rw [e]
    simp only [List.foldl_cons, List.foldl_append]
    have b : ∀ segs : List Txt, splitRowStep (segs, false, []) ' ' = (segs, false, []) := by
      intro segs; rw [split_blank _ (Or.inl rfl)]; simp [s2kClosed]
    rw [split_blank _ (Or.inl rfl), b, b, split_text (hl f (List.mem_cons_self ..))]
    obtain ⟨a, t, h1, h2⟩ := ih (fun g hg => hl g (List.mem_cons_of_mem _ hg)) (s2kClosed (segs, false, temp)) ([] ++ f.text)
    refine ⟨a, t, h1, ?_⟩
    rw [h2]
    simp [s2kClosed, text_ne_nil]

/-- what `joinLines` makes of the lines of a row -/
def s2kJoined : List (List S2kField) → Txt
  | [] => []
  | [l] => s2kLine l ++ ['\n']
  | l :: t => s2kLine l ++ ' ' :: s2kJoined t

theorem split_joined (r : List (List S2kField)) (hr : r ≠ []) (h : ∀ f ∈ r.flatten, FieldOk f) (segs : List Txt) (temp : Txt) :
    ((s2kJoined r).foldl splitRowStep (segs, false, temp)).1 = s2kClosed (segs, false, temp) ++ r.flatten.map S2kField.text := by
  induction r generalizing segs temp with
  | nil => exact absurd rfl hr
  | cons l t ih =>
    obtain ⟨a, b, h1, h2⟩ := split_line l (fun f hf => h f (by simp [hf])) segs temp
    cases t with
    | nil =>
      unfold s2kJoined
      rw [List.foldl_append, h1, List.foldl_cons, split_blank _ (Or.inr rfl), h2]
      simp
    | cons l' t =>
      have e : s2kJoined (l :: l' :: t) = s2kLine l ++ ' ' :: s2kJoined (l' :: t) := rfl
      rw [e, List.foldl_append, h1, List.foldl_cons, split_blank _ (Or.inl rfl),
        ih (by simp) (fun f hf => h f (by rw [List.flatten_cons]; exact List.mem_append_right _ hf)), h2]
      simp [s2kClosed]

theorem splitRow_joined (r : List (List S2kField)) (hr : r ≠ []) (h : ∀ f ∈ r.flatten, FieldOk f) :
    splitRow (s2kJoined r) = r.flatten.map S2kField.text := by
  unfold splitRow
  rw [split_joined r hr h]
  simp [s2kClosed]

/-! ### one entry -/

theorem strip_plain (w : Txt) (hw : ∀ c ∈ w, c ≠ '"') : stripQuotes w = w := by
  have h : ∀ w : Txt, (∀ c ∈ w, c ≠ '"') → w.dropWhile (· = '"') = w := by
    intro w hw
    cases w with
    | nil => rfl
    | cons c w => rw [List.dropWhile_cons, if_neg (by simpa using hw c (List.mem_cons_self ..))]
  unfold stripQuotes
  rw [h w hw, h _ (fun c hc => hw c (List.mem_reverse.mp hc)), List.reverse_reverse]

theorem strip_quoted (w : Txt) (hw : ∀ c ∈ w, c ≠ '"') : stripQuotes ('"' :: (w ++ ['"'])) = w := by
  unfold stripQuotes
  rw [List.dropWhile_cons, if_pos (by simp)]
  cases w with
  | nil => rfl
  | cons c w =>
    have hc := hw c (List.mem_cons_self ..)
    rw [List.cons_append, List.dropWhile_cons, if_neg (by simpa using hc), ← List.cons_append, List.reverse_append,
      List.reverse_singleton, List.singleton_append, List.dropWhile_cons, if_pos (by simp)]
    cases h : (c :: w).reverse with
    | nil => simp at h
    | cons d v =>
      have hd : d ∈ c :: w := by rw [← List.mem_reverse, h]; exact List.mem_cons_self ..
      rw [List.dropWhile_cons, if_neg (by simpa using hw d hd), ← h, List.reverse_reverse]

theorem parse_text {f : S2kField} (h : FieldOk f) : parseField f.text = .ok (String.ofList f.key, String.ofList f.value) := by
  unfold parseField S2kField.text
  rw [if_pos (by simp)]
  have h1 : ∀ w : Txt, (f.key ++ '=' :: w).takeWhile (· ≠ '=') = f.key := by
    intro w
    rw [List.takeWhile_append_of_pos (fun c hc => by simpa using (h.key c hc).2.2.1)]
    simp
  have h2 : ∀ w : Txt, ((f.key ++ '=' :: w).dropWhile (· ≠ '=')).drop 1 = w := by
    intro w
    rw [List.dropWhile_append_of_pos (fun c hc => by simpa using (h.key c hc).2.2.1)]
    simp
  rw [h1, h2, strip_plain _ (fun c hc => (h.key c hc).2.1)]
  split
  · rw [strip_quoted _ (fun c hc => (h.value c hc).1)]
  · rw [strip_plain _ (fun c hc => (h.value c hc).1)]

theorem mapM_parse (l : List S2kField) (h : ∀ f ∈ l, FieldOk f) :
    (l.map S2kField.text).mapM parseField = .ok (l.map fun f => (String.ofList f.key, String.ofList f.value)) := by
  induction l with
  | nil => rfl
  | cons f l ih =>
    rw [List.map_cons, List.mapM_cons, parse_text (h f (List.mem_cons_self ..)), Except.bind_ok,
      ih (fun g hg => h g (List.mem_cons_of_mem _ hg)), Except.bind_ok]
    rfl

theorem set_new {α : Type} (d : Dict α) (k : String) (v : α) (h : k ∉ d.keys) : d.set k v = d ++ [(k, v)] := by
  induction d with
  | nil => rfl
  | cons p d ih =>
    simp only [Dict.keys, List.map_cons, List.mem_cons, not_or] at h
    obtain ⟨k', v'⟩ := p
    unfold Dict.set
    rw [if_neg (fun e => h.1 e.symm), ih h.2]
    rfl

theorem pyDict_nodup (l : List (String × String)) (h : (l.map Prod.fst).Nodup) : pyDict l = l := by
  have key : ∀ (l d : List (String × String)), ((d ++ l).map Prod.fst).Nodup → l.foldl (fun d p => Dict.set d p.1 p.2) d = d ++ l := by
    intro l
    induction l with
    | nil => intro d _; simp
    | cons p l ih =>
      intro d hd
      have hn : p.1 ∉ Dict.keys d := by
        rw [List.map_append, List.nodup_append] at hd
        intro hm
        exact hd.2.2 _ hm p.1 (by simp) rfl
      rw [List.foldl_cons, set_new _ _ _ hn, ih _ (by simpa using hd)]
      simp
  exact key l [] (by simpa using h)

/-! ### rows over several lines -/

/-- the text of the last entry of a row does not end with an underscore -/
def NoScore (r : List (List S2kField)) : Prop := ∀ f, r.flatten.getLast? = some f → f.text.getLast? ≠ some '_'

theorem join_end (pre : Txt) (l : List S2kField) (hl : l ≠ []) (h : ∀ f, l.getLast? = some f → f.text.getLast? ≠ some '_') (it : List Txt) :
    joinLines (pre ++ (s2kLine l ++ ['\n'])) it = .ok (some (pre ++ (s2kLine l ++ ['\n']), it)) := by
  obtain ⟨l', f, rfl⟩ : ∃ l' f, l = l' ++ [f] := ⟨l.dropLast, l.getLast hl, (List.dropLast_append_getLast hl).symm⟩
  have hf := h f (by simp)
  obtain ⟨w, c, hw⟩ : ∃ w c, f.text = w ++ [c] := ⟨_, _, (List.dropLast_append_getLast (text_ne_nil f)).symm⟩
  have hc : c ≠ '_' := by rw [hw] at hf; simpa using hf
  have e : (pre ++ (s2kLine (l' ++ [f]) ++ ['\n'])).reverse = '\n' :: c :: (pre ++ (s2kLine l' ++ ' ' :: ' ' :: ' ' :: w)).reverse := by
    simp [s2kLine, hw]
  unfold joinLines
  split
  · rename_i r heq
    rw [e] at heq
    simp only [List.cons.injEq] at heq
    exact absurd heq.2.1 hc
  · rfl
  · rename_i h1 h2
    exact absurd e (h2 _ _ _)

theorem join_more (pre : Txt) (l : List S2kField) (next : Txt) (it : List Txt) :
    joinLines (pre ++ (s2kLine l ++ [' ', '_', '\n'])) (next :: it) = joinLines (pre ++ (s2kLine l ++ [' ']) ++ next) it := by
  have e : (pre ++ (s2kLine l ++ [' ', '_', '\n'])).reverse = '\n' :: '_' :: (pre ++ (s2kLine l ++ [' '])).reverse := by simp
  conv_lhs => unfold joinLines
  split
  · rename_i a r heq
    rw [e] at heq
    simp only [List.cons.injEq, true_and] at heq
    rw [← heq.2, List.reverse_reverse]
  · rename_i a b r hne heq
    rw [e] at heq
    simp only [List.cons.injEq] at heq
    exact absurd heq.2.1.symm hne
  · rename_i h1 h2
    exact absurd e (h2 _ _ _)

theorem join_row (pre : Txt) (r : List (List S2kField)) (hlast : ∃ l, r.getLast? = some l ∧ l ≠ []) (hs : NoScore r) (it : List Txt) :
    ∃ l t, s2kRow r = l :: t ∧ joinLines (pre ++ l) (t ++ it) = .ok (some (pre ++ s2kJoined r, it)) := by
  induction r generalizing pre with
  | nil => obtain ⟨l, hl, -⟩ := hlast; simp at hl
  | cons l r ih =>
    obtain ⟨m, hm, hm'⟩ := hlast
    cases r with
    | nil =>
      simp only [List.getLast?_singleton, Option.some.injEq] at hm
      subst hm
      refine ⟨_, [], rfl, ?_⟩
      rw [List.nil_append]
      exact join_end pre l hm' (fun f hf => hs f (by simpa using hf)) it
    | cons l' r =>
      have hm2 : (l' :: r).getLast? = some m := by simpa using hm
      have hne : (l' :: r).flatten ≠ [] := by
        intro h0
        have : m ∈ l' :: r := List.mem_of_getLast? hm2
        exact hm' (List.flatten_eq_nil_iff.mp h0 m this)
      have hs' : NoScore (l' :: r) := by
        intro f hf
        apply hs f
        rw [List.flatten_cons, List.getLast?_append_of_ne_nil _ hne]
        exact hf
      obtain ⟨a, t, h1, h2⟩ := ih (pre ++ (s2kLine l ++ [' '])) ⟨m, hm2, hm'⟩ hs'
      refine ⟨s2kLine l ++ [' ', '_', '\n'], a :: t, ?_, ?_⟩
      · rw [← h1]; rfl
      · rw [List.cons_append, join_more, h2]
        congr 3
        have : s2kJoined (l :: l' :: r) = s2kLine l ++ ' ' :: s2kJoined (l' :: r) := rfl
        rw [this]; simp

/-- the row of pairs -/
def s2kPairs (r : List (List S2kField)) : List (String × String) := r.flatten.map fun f => (String.ofList f.key, String.ofList f.value)

structure RowOk (r : List (List S2kField)) : Prop where
  field : ∀ f ∈ r.flatten, FieldOk f
  last : ∃ l, r.getLast? = some l ∧ l ≠ []
  nodup : (r.flatten.map S2kField.key).Nodup
  noScore : NoScore r

theorem parse_rows (rows : List (List (List S2kField))) (h : ∀ r ∈ rows, RowOk r) (data : List (Dict String)) :
    parseLoop data (rows.flatMap s2kRow) = .ok (some (data ++ rows.map s2kPairs)) := by
  induction rows generalizing data with
  | nil => rw [List.flatMap_nil]; unfold parseLoop; simp
  | cons r rows ih =>
    have hr := h r (List.mem_cons_self ..)
    obtain ⟨l, t, h1, h2⟩ := join_row [] r hr.last hr.noScore (rows.flatMap s2kRow)
    rw [List.nil_append, List.nil_append] at h2
    have hne : r ≠ [] := by rintro rfl; obtain ⟨l, hl, -⟩ := hr.last; simp at hl
    have hne' : r.flatten ≠ [] := by
      obtain ⟨m, hm, hm'⟩ := hr.last
      exact fun h0 => hm' (List.flatten_eq_nil_iff.mp h0 m (List.mem_of_getLast? hm))
    have hsp := splitRow_joined r hne hr.field
    have hmp := mapM_parse r.flatten hr.field
    have hnd : (((r.flatten.map fun f => (String.ofList f.key, String.ofList f.value))).map Prod.fst).Nodup := by
      have : ((r.flatten.map fun f => (String.ofList f.key, String.ofList f.value))).map Prod.fst = (r.flatten.map S2kField.key).map String.ofList := by
        rw [List.map_map, List.map_map]; rfl
      rw [this]
      exact hr.nodup.map (fun a b hab => String.ofList_injective hab)
    rw [List.flatMap_cons, h1, List.cons_append]
    unfold parseLoop
    split
    · rename_i e heq; rw [h2] at heq; cases heq
    · rename_i heq; rw [h2] at heq; cases heq
    · rename_i params rest heq
      rw [h2] at heq
      cases heq
      split
      · rename_i hnil
        rw [hsp] at hnil
        exact absurd (List.map_eq_nil_iff.mp hnil) hne'
      · rw [hsp, hmp]
        simp only
        rw [pyDict_nodup _ hnd, ih (fun q hq => h q (List.mem_cons_of_mem _ hq))]
        simp [s2kPairs]

/-! ### tables -/

/-- the lines of a table that belong to its block -/
structure LinesOk (t : S2kTable) : Prop where
  title : ¬ occursIn "END TABLE DATA" t.title
  rows : ∀ l ∈ t.rows.flatMap s2kRow, ¬ occursIn "END TABLE DATA" l ∧ ¬ occursIn "TABLE:" l

theorem title_table (t : S2kTable) : occursIn "TABLE:" t.title := by
  refine ⟨[], "  \"".toList ++ t.name ++ "\"\n".toList, ?_⟩
  unfold S2kTable.title
  simp

theorem block_append (lines : List Txt) (h : ∀ l ∈ lines, ¬ occursIn "END TABLE DATA" l ∧ ¬ occursIn "TABLE:" l) (bs : List (List Txt)) (b : List Txt) :
    lines.foldlM blocksStep (bs ++ [b]) = .ok (bs ++ [b ++ lines]) := by
  induction lines generalizing b with
  | nil => simp; rfl
  | cons l lines ih =>
    obtain ⟨h1, h2⟩ := h l (List.mem_cons_self ..)
    have e : blocksStep (bs ++ [b]) l = .ok (bs ++ [b ++ [l]]) := by
      unfold blocksStep
      rw [if_neg h1, if_neg h2]
      simp
    rw [List.foldlM_cons, e, Except.bind_ok, ih (fun l hl => h l (List.mem_cons_of_mem _ hl))]
    simp

theorem blocks_tables (ts : List S2kTable) (h : ∀ t ∈ ts, LinesOk t) (bs : List (List Txt)) :
    (ts.flatMap S2kTable.lines).foldlM blocksStep bs = .ok (bs ++ ts.map S2kTable.lines) := by
  induction ts generalizing bs with
  | nil => simp; rfl
  | cons t ts ih =>
    have ht := h t (List.mem_cons_self ..)
    have e : blocksStep bs t.title = .ok (bs ++ [[t.title]]) := by
      unfold blocksStep
      rw [if_neg ht.title, if_pos (title_table t)]
    have hl : ∀ l ∈ t.rows.flatMap s2kRow ++ [[' ', '\n']], ¬ occursIn "END TABLE DATA" l ∧ ¬ occursIn "TABLE:" l := by
      intro l hl
      rcases List.mem_append.mp hl with hl | hl
      · exact ht.rows l hl
      · rw [List.mem_singleton.mp hl]
        decide
    rw [List.flatMap_cons, List.foldlM_append, S2kTable.lines, List.foldlM_cons, e, Except.bind_ok, block_append _ hl, Except.bind_ok,
      ih (fun q hq => h q (List.mem_cons_of_mem _ hq))]
    simp [S2kTable.lines]

theorem name_title (t : S2kTable) (h : ∀ c ∈ t.name, c ≠ '"') : blockName t.title = .ok (String.ofList t.name) := by
  have e : t.title = ['T', 'A', 'B', 'L', 'E', ':', ' ', ' '] ++ '"' :: (t.name ++ '"' :: ['\n']) := by
    unfold S2kTable.title
    simp
  have hs : ∀ w : Txt, (∀ c ∈ w, c ≠ '"') → w.splitOnP (· == '"') = [w] := fun w hw => List.splitOnP_eq_singleton (by simpa using hw)
  unfold blockName List.splitOn
  rw [e, List.splitOnP_append_cons _ _ (by simp), List.splitOnP_append_cons _ _ (by simp), hs _ (by simp), hs _ h, hs _ (by simp)]
  rfl

/-- a table whose lines and rows the reader can tell apart -/
structure Spec.S2kTable.Readable (t : S2kTable) : Prop where
  wf : t.WF
  lines : LinesOk t
  noScore : ∀ r ∈ t.rows, NoScore r

theorem attrs_tables (ts : List S2kTable) (h : ∀ t ∈ ts, t.Readable) (d : Dict (Option (List (Dict String))))
    (hn : (d.keys ++ ts.map fun t => String.ofList t.name).Nodup) :
    (ts.map S2kTable.lines).foldlM attrsStep d = .ok (d ++ ts.map fun t => (String.ofList t.name, some t.content)) := by
  induction ts generalizing d with
  | nil => simp; rfl
  | cons t ts ih =>
    have ht := h t (List.mem_cons_self ..)
    have hrows : ∀ r ∈ t.rows, RowOk r := fun r hr =>
      ⟨fun f hf => ⟨ht.wf.key r hr f hf, ht.wf.value r hr f hf⟩, ht.wf.last r hr, ht.wf.nodup r hr, ht.noScore r hr⟩
    have hk : String.ofList t.name ∉ d.keys := by
      rw [List.nodup_append] at hn
      intro hm
      exact hn.2.2 _ hm _ (by simp) rfl
    have e : attrsStep d t.lines = .ok (d ++ [(String.ofList t.name, some t.content)]) := by
      unfold attrsStep S2kTable.lines
      rw [List.drop_succ_cons, List.drop_zero, List.dropLast_concat, parseLines, parse_rows _ hrows, Except.bind_ok, List.headD_cons,
        name_title t (fun c hc => (ht.wf.name c hc).1), Except.bind_ok, set_new _ _ _ hk]
      rfl
    rw [List.map_cons, List.foldlM_cons, e, Except.bind_ok, ih (fun q hq => h q (List.mem_cons_of_mem _ hq))]
    · simp
    · simpa [Dict.keys] using hn

/-! ### C123 -/

/-- The property: importing a file that was written in the format succeeds, and the reader finds every table with every row and entry. -/
def C123_claim : Prop :=
  ∀ (h1 h2 : Txt) (ts : List S2kTable), (∀ t ∈ ts, t.WF) → (ts.map fun t => String.ofList t.name).Nodup →
    s2kTables (s2kFile h1 h2 ts) = .ok (ts.map fun t => (String.ofList t.name, some t.content)) ∧
    importS2k (s2kFile h1 h2 ts) = .ok true

/-- Proved: reading is exact, for any number of tables, rows, entries and lines per row, when no line of a row contains `TABLE:` or
`END TABLE DATA` and no row ends with an underscore.  Missing: those rows, and the import itself. -/
theorem C123_read_partial (h1 h2 : Txt) (ts : List S2kTable) (h : ∀ t ∈ ts, t.Readable) (hn : (ts.map fun t => String.ofList t.name).Nodup) :
    s2kTables (s2kFile h1 h2 ts) = .ok (ts.map fun t => (String.ofList t.name, some t.content)) := by
  unfold s2kTables s2kFile
  rw [List.drop_succ_cons, List.drop_succ_cons, List.drop_zero, List.foldlM_append, blocks_tables ts (fun t ht => (h t ht).lines), Except.bind_ok,
    List.nil_append]
  have e : blocksStep (ts.map S2kTable.lines) "END TABLE DATA\n".toList = .ok (ts.map S2kTable.lines) := by
    unfold blocksStep
    rw [if_pos ⟨[], ['\n'], by simp⟩]
  rw [List.foldlM_cons, e, Except.bind_ok, List.foldlM_nil]
  show (Except.ok _ >>= _) = _
  rw [Except.bind_ok, attrs_tables ts h [] (by rw [Dict.keys, List.map_nil, List.nil_append]; exact hn), List.nil_append]

/-- Importing never succeeds, whatever the file. -/
theorem C123_never_partial (file : List Txt) : ∃ e, importS2k file = .error e := by
  unfold importS2k
  cases s2kTables file with
  | error e => exact ⟨e, rfl⟩
  | ok a => exact ⟨_, rfl⟩

/-- a table of two joints, the second row on two lines, and one of a section with a blank in its name -/
def s2kDemo : List S2kTable :=
  [⟨"JOINT COORDINATES".toList, [[[⟨"Joint".toList, "1".toList⟩, ⟨"GlobalX".toList, "-1.5".toList⟩]],
      [[⟨"Joint".toList, "2".toList⟩], [⟨"GlobalX".toList, "3".toList⟩, ⟨"Note".toList, "a=b".toList⟩]]]⟩,
    ⟨"SECTIONS".toList, [[[⟨"Shape".toList, "I/Wide Flange".toList⟩]]]⟩]

theorem s2kDemo_readable : ∀ t ∈ s2kDemo, t.Readable := by
  have a : ∀ t ∈ s2kDemo, ∀ r ∈ t.rows, ∀ f ∈ r.flatten, ∀ c ∈ f.key, c ≠ ' ' ∧ c ≠ '"' ∧ c ≠ '=' ∧ c ≠ '\n' := by decide
  have b : ∀ t ∈ s2kDemo, ∀ r ∈ t.rows, ∀ f ∈ r.flatten, ∀ c ∈ f.value, c ≠ '"' ∧ c ≠ '\n' := by decide
  have c : ∀ t ∈ s2kDemo, ∀ c ∈ t.name, c ≠ '"' ∧ c ≠ '\n' := by decide
  have d : ∀ t ∈ s2kDemo, ∀ r ∈ t.rows, (r.getLast?.getD []).isEmpty = false := by decide
  have e : ∀ t ∈ s2kDemo, ∀ r ∈ t.rows, (r.flatten.map S2kField.key).Nodup := by decide
  have f : ∀ t ∈ s2kDemo, ¬ occursIn "END TABLE DATA" t.title := by decide
  have g : ∀ t ∈ s2kDemo, ∀ l ∈ t.rows.flatMap s2kRow, ¬ occursIn "END TABLE DATA" l ∧ ¬ occursIn "TABLE:" l := by decide
  have i : ∀ t ∈ s2kDemo, ∀ r ∈ t.rows, ((r.flatten.getLast?.map S2kField.text).getD []).getLast? ≠ some '_' := by decide
  intro t ht
  refine ⟨⟨a t ht, b t ht, c t ht, fun r hr => ?_, e t ht⟩, ⟨f t ht, g t ht⟩, fun r hr q hq => ?_⟩
  · have := d t ht r hr
    cases hl : r.getLast? with
    | none => rw [hl] at this; simp at this
    | some l =>
      rw [hl] at this
      exact ⟨l, rfl, by rintro rfl; simp at this⟩
  · have := i t ht r hr
    rw [hq] at this
    simpa using this

/-- the demonstration file is read -/
example : s2kTables (s2kFile "File".toList "".toList s2kDemo) =
    .ok [("JOINT COORDINATES", some [[("Joint", "1"), ("GlobalX", "-1.5")], [("Joint", "2"), ("GlobalX", "3"), ("Note", "a=b")]]),
      ("SECTIONS", some [[("Shape", "I/Wide Flange")]])] :=
  C123_read_partial _ _ _ s2kDemo_readable (by decide)

/-- a table with one row that ends with an underscore -/
def s2kLost : S2kTable := ⟨"T".toList, [[[⟨"Material".toList, "A_".toList⟩]]]⟩

theorem s2kLost_wf : s2kLost.WF where
  key := by decide
  value := by decide
  name := by decide
  last := by intro r hr; rw [List.mem_singleton.mp hr]; exact ⟨_, rfl, by simp⟩
  nodup := by decide

/-- the row is lost -/
theorem s2kLost_read (h1 h2 : Txt) : s2kTables (s2kFile h1 h2 [s2kLost]) = .ok [("T", some [])] := by
  have hl : LinesOk s2kLost := ⟨by decide, by decide⟩
  unfold s2kTables s2kFile
  rw [List.drop_succ_cons, List.drop_succ_cons, List.drop_zero, List.foldlM_append, blocks_tables [s2kLost] (by simpa using hl), Except.bind_ok,
    List.nil_append]
  have e : blocksStep ([s2kLost].map S2kTable.lines) "END TABLE DATA\n".toList = .ok ([s2kLost].map S2kTable.lines) := by
    unfold blocksStep
    rw [if_pos ⟨[], ['\n'], by simp⟩]
  rw [List.foldlM_cons, e, Except.bind_ok, List.foldlM_nil]
  have e2 : attrsStep [] s2kLost.lines = .ok [("T", some [])] := by
    unfold attrsStep
    have h1 : (s2kLost.lines.drop 1).dropLast = ["   Material=A_\n".toList] := by decide
    have h2 : joinLines "   Material=A_\n".toList [] = .ok none := by
      unfold joinLines
      rfl
    have h3 : parseLines ["   Material=A_\n".toList] = .ok (some []) := by
      unfold parseLines parseLoop
      split
      · rename_i e heq; rw [h2] at heq; cases heq
      · rfl
      · rename_i heq; rw [h2] at heq; cases heq
    rw [h1, h3, Except.bind_ok]
    have h4 : blockName (s2kLost.lines.headD []) = .ok "T" := name_title s2kLost (by decide)
    rw [h4]
    rfl
  show (Except.ok _ >>= _) = _
  rw [Except.bind_ok, List.map_singleton, List.foldlM_cons, e2]
  rfl

/-- False: a row whose last value ends with an underscore is taken for one that continues on the next line; and the import raises. -/
theorem C123_false : ¬ C123_claim := by
  intro h
  have h1 := (h [] [] [s2kLost] (by simpa using s2kLost_wf) (by simp)).1
  rw [s2kLost_read] at h1
  simp [S2kTable.content, s2kLost] at h1

/-- rows read one after the other, with anything behind them -/
theorem parse_rows_then (rows : List (List (List S2kField))) (h : ∀ r ∈ rows, RowOk r) (data : List (Dict String)) (it : List Txt) :
    parseLoop data (rows.flatMap s2kRow ++ it) = parseLoop (data ++ rows.map s2kPairs) it := by
  induction rows generalizing data with
  | nil => simp
  | cons r rows ih =>
    have hr := h r (List.mem_cons_self ..)
    obtain ⟨l, t, h1, h2⟩ := join_row [] r hr.last hr.noScore (rows.flatMap s2kRow ++ it)
    rw [List.nil_append, List.nil_append] at h2
    have hne : r ≠ [] := by rintro rfl; obtain ⟨l, hl, -⟩ := hr.last; simp at hl
    have hne' : r.flatten ≠ [] := by
      obtain ⟨m, hm, hm'⟩ := hr.last
      exact fun h0 => hm' (List.flatten_eq_nil_iff.mp h0 m (List.mem_of_getLast? hm))
    have hsp := splitRow_joined r hne hr.field
    have hmp := mapM_parse r.flatten hr.field
    have hnd : (((r.flatten.map fun f => (String.ofList f.key, String.ofList f.value))).map Prod.fst).Nodup := by
      have : ((r.flatten.map fun f => (String.ofList f.key, String.ofList f.value))).map Prod.fst = (r.flatten.map S2kField.key).map String.ofList := by
        rw [List.map_map, List.map_map]; rfl
      rw [this]
      exact hr.nodup.map (fun a b hab => String.ofList_injective hab)
    rw [List.flatMap_cons, h1, List.append_assoc, List.cons_append]
    conv_lhs => unfold parseLoop
    split
    · rename_i e heq; rw [h2] at heq; cases heq
    · rename_i heq; rw [h2] at heq; cases heq
    · rename_i params rest heq
      rw [h2] at heq
      cases heq
      split
      · rename_i hnil
        rw [hsp] at hnil
        exact absurd (List.map_eq_nil_iff.mp hnil) hne'
      · rw [hsp, hmp]
        simp only
        rw [pyDict_nodup _ hnd, ih (fun q hq => h q (List.mem_cons_of_mem _ hq))]
        simp [s2kPairs]

theorem splitRow_blanks (k : ℕ) : splitRow (List.replicate k ' ' ++ ['\n']) = [] := by
  unfold splitRow
  have key : ∀ k, (List.replicate k ' ').foldl splitRowStep ([], false, []) = ([], false, []) := by
    intro k
    induction k with
    | zero => rfl
    | succ k ih => rw [List.replicate_succ, List.foldl_cons]; exact ih
  rw [List.foldl_append, key]
  rfl

/-- A line of blanks between the rows of a table, or a second one after them, loses all rows of the table: nothing is read, and no
exception tells. -/
theorem C123_blank (rows : List (List (List S2kField))) (h : ∀ r ∈ rows, RowOk r) (k : ℕ) (rest : List Txt) :
    parseLines (rows.flatMap s2kRow ++ (List.replicate (k + 1) ' ' ++ ['\n']) :: rest) = .ok none := by
  unfold parseLines
  rw [parse_rows_then rows h]
  have hj : joinLines (List.replicate (k + 1) ' ' ++ ['\n']) rest = .ok (some (List.replicate (k + 1) ' ' ++ ['\n'], rest)) := by
    unfold joinLines
    have e : (List.replicate (k + 1) ' ' ++ ['\n']).reverse = '\n' :: ' ' :: List.replicate k ' ' := by
      rw [List.reverse_append, List.reverse_replicate, List.replicate_succ]; rfl
    split
    · rename_i heq; rw [e] at heq; simp at heq
    · rfl
    · rename_i h1 h2
      exact absurd e (h2 _ _ _)
  unfold parseLoop
  split
  · rename_i e heq; rw [hj] at heq; cases heq
  · rename_i heq; rw [hj] at heq; cases heq
  · rename_i params r heq
    rw [hj] at heq
    cases heq
    split
    · rfl
    · rename_i hne
      exact absurd (splitRow_blanks (k + 1)) hne

end Hyperstatic
