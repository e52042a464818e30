/-
Vocabulary for the text format of SAP2000 tables (s2k files), as that program writes it.
-/

namespace Hyperstatic.Spec

/-- one entry `key=value` of a row -/
structure S2kField where
  key : List Char
  value : List Char

/-- a table; a row is the list of the lines it is spread over, a line the list of its entries -/
structure S2kTable where
  name : List Char
  rows : List (List (List S2kField))

/-- `key=value`, the value in quotes when it contains a blank -/
def S2kField.text (f : S2kField) : List Char :=
  f.key ++ '=' :: (if ' ' ∈ f.value then '"' :: (f.value ++ ['"']) else f.value)

/-- the entries of a line, each after three blanks -/
def s2kLine (l : List S2kField) : List Char := l.flatMap fun f => ' ' :: ' ' :: ' ' :: f.text

/-- the lines of a row; all but the last end with a blank and an underscore -/
def s2kRow : List (List S2kField) → List (List Char)
  | [] => []
  | [l] => [s2kLine l ++ ['\n']]
  | l :: t => (s2kLine l ++ [' ', '_', '\n']) :: s2kRow t

/-- the title line -/
def S2kTable.title (t : S2kTable) : List Char := "TABLE:  \"".toList ++ t.name ++ "\"\n".toList

/-- the lines of a table: title, rows and an empty line -/
def S2kTable.lines (t : S2kTable) : List (List Char) := t.title :: (t.rows.flatMap s2kRow ++ [[' ', '\n']])

/-- a file: two lines of comment, the tables, an end mark -/
def s2kFile (head1 head2 : List Char) (ts : List S2kTable) : List (List Char) :=
  head1 :: head2 :: (ts.flatMap S2kTable.lines ++ ["END TABLE DATA\n".toList])

/-- Keys are without blanks, quotes and equality signs; values without quotes; nothing contains a line break; the last line of a row has
an entry; no key occurs twice in a row. -/
structure S2kTable.WF (t : S2kTable) : Prop where
  key : ∀ r ∈ t.rows, ∀ f ∈ r.flatten, ∀ c ∈ f.key, c ≠ ' ' ∧ c ≠ '"' ∧ c ≠ '=' ∧ c ≠ '\n'
  value : ∀ r ∈ t.rows, ∀ f ∈ r.flatten, ∀ c ∈ f.value, c ≠ '"' ∧ c ≠ '\n'
  name : ∀ c ∈ t.name, c ≠ '"' ∧ c ≠ '\n'
  last : ∀ r ∈ t.rows, ∃ l, r.getLast? = some l ∧ l ≠ []
  nodup : ∀ r ∈ t.rows, (r.flatten.map S2kField.key).Nodup

/-- The rows of a table as lists of pairs. -/
def S2kTable.content (t : S2kTable) : List (List (String × String)) :=
  t.rows.map fun r => r.flatten.map fun f => (String.ofList f.key, String.ofList f.value)

end Hyperstatic.Spec
