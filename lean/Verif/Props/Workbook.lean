import Verif.Lemmas.Workbook
import Verif.Props.Excel
/-
C103: what is made of every workbook.
-/

namespace Verif.Props
open Spec

/-- C103: what is made of a workbook, whatever its sheets say: the exception of the first row that ends in one, nothing if a sheet or header
is missing, otherwise exactly the databases the sheets describe. -/
theorem C103_exactly (wb : Workbook) (r : Except PyErr (Dict Database)) : readXls wb = r ↔ Makes wb r := by
  have to_run : ∀ r, Makes wb r → readXls wb = r := by
    intro r h
    cases h with
    | headless hh => exact readXls_headless hh
    | misshaped hh hs => exact readXls_misshaped hh hs
    | fails hs hf =>
      obtain ⟨_, _, _, _, _, _, _, _, S⟩ := shaped_sheets hs
      exact S.raises hs hf
    | read hs hp hd =>
      obtain ⟨_, _, _, _, _, _, _, _, S⟩ := shaped_sheets hs
      rcases S.outcome hs with ⟨e, _, hf⟩ | ⟨dbs, hr, _⟩
      · exact absurd hp (fails_not_passes hf)
      · rw [hr, describes_unique (S.describes hr) hd]
  constructor
  · rintro rfl
    by_cases hh : Headed wb
    · by_cases hs : Shaped wb
      · obtain ⟨_, _, _, _, _, _, _, _, S⟩ := shaped_sheets hs
        rcases S.outcome hs with ⟨e, hr, hf⟩ | ⟨dbs, hr, hp⟩
        · rw [hr]; exact .fails hs hf
        · rw [hr]; exact .read hs hp (S.describes hr)
      · rw [readXls_misshaped hh hs]; exact .misshaped hh hs
    · rw [readXls_headless hh]; exact .headless hh
  · exact to_run r

/-- C103: a workbook with all sheets and headers is read exactly if none of its rows ends in an exception, … -/
theorem C103_reads {wb : Workbook} (hs : Shaped wb) : (∃ dbs, readXls wb = .ok dbs) ↔ Passes wb := by
  obtain ⟨_, _, _, _, _, _, _, _, S⟩ := shaped_sheets hs
  rcases S.outcome hs with ⟨e, hr, hf⟩ | ⟨dbs, hr, hp⟩
  · simp only [hr, reduceCtorEq, exists_false, false_iff]
    exact fails_not_passes hf
  · exact ⟨fun _ => hp, fun _ => ⟨dbs, hr⟩⟩

/-- C103: … otherwise the reading ends with the exception of the first row that does. -/
theorem C103_raises {wb : Workbook} (hs : Shaped wb) (e : PyErr) : readXls wb = .error e ↔ Fails wb e := by
  obtain ⟨_, _, _, _, _, _, _, _, S⟩ := shaped_sheets hs
  refine ⟨fun hr => ?_, S.raises hs⟩
  rcases S.outcome hs with ⟨e', hr', hf⟩ | ⟨dbs, hr', _⟩
  · rw [hr'] at hr; cases hr; exact hf
  · rw [hr'] at hr; cases hr

/-- C103: the sheets do not describe anything else. -/
theorem C103_unique {wb : Workbook} {a b : Dict Database} (h1 : DescribesAll wb a) (h2 : DescribesAll wb b) : a = b := describes_unique h1 h2

/-- C103: cells without numbers end in three ways only: a type that is none, lists of different lengths, a relationship of an unknown table in
a known database. -/
theorem C103_texts {wb : Workbook} {h row : List XCell} {sheet : Str} {e : PyErr} (hf : RowFails wb h row sheet e)
    (ht : ∀ c q, ¬ Under h row c (.num q)) :
    (sheet = c!"Columns" ∧ e = .value ∧ ∃ ty, Under h row c!"Type" (.text ty) ∧ ty ∉ validTypes ∧ ¬ Varchar ty) ∨
    (sheet = c!"Foreign Keys" ∧ e = .value ∧ ∃ s s' l l', Under h row c!"From Columns" (.text s) ∧ Under h row c!"To Columns" (.text s') ∧
      PiecesIn s l ∧ PiecesIn s' l' ∧ l.length ≠ l'.length) ∨
    (sheet = c!"Relationships" ∧ e = .attribute ∧ ∃ d m n, Under h row c!"Database" (.text d) ∧ Known wb d m ∧ Under h row c!"From Table" n ∧
      NoTable wb d n) := by
  cases hf with
  | noType _ _ h1 h2 h3 => exact .inl ⟨rfl, rfl, _, h1, h2, h3⟩
  | lengths _ _ h1 h2 h3 h4 h5 => exact .inr (.inl ⟨rfl, rfl, _, _, _, _, h1, h2, h3, h4, h5⟩)
  | noTable h1 h2 h3 h4 => exact .inr (.inr ⟨rfl, rfl, _, _, _, h1, h2, h3, h4⟩)
  | database h => exact absurd h (ht _ _)
  | primaryKey _ _ h => exact absurd h (ht _ _)
  | shardKey _ _ _ h => exact absurd h (ht _ _)
  | tableName _ _ _ _ _ h => exact absurd h (ht _ _)
  | numberType _ _ h => exact absurd h (ht _ _)
  | columnName _ _ _ _ h => exact absurd h (ht _ _)
  | fromColumns _ _ h => exact absurd h (ht _ _)
  | toColumns _ _ _ h => exact absurd h (ht _ _)
  | keyName _ _ _ _ _ _ _ _ h => exact absurd h (ht _ _)
  | relationship _ _ _ h => exact absurd h (ht _ _)

/-! ### Cases -/

/-- The sample with another row of "Columns" and another row of "Relationships". -/
def failingBook (ty : XCell) (rel : Str) : Workbook := sampleBook.map (fun p =>
  if p.1 = c!"Columns" then (p.1, p.2 ++ [txt [c!"d", c!"s", c!"b", c!"", c!"z"] ++ [ty]])
  else if p.1 = c!"Relationships" then (p.1, p.2 ++ [txt [c!"r", c!"d", c!"s", rel, c!"a", c!"1 = 1"]])
  else p)

-- all rows are read
example : Passes sampleBook := (C103_reads (by decide +kernel)).1 ⟨_, (by decide +kernel : readXls sampleBook = .ok (((readXls sampleBook).toOption).getD []))⟩
-- a type that is none comes before a table that is unknown
example : Shaped (failingBook (.text c!"TEXT") c!"zz") ∧ readXls (failingBook (.text c!"TEXT") c!"zz") = .error .value := by decide +kernel
example : Fails (failingBook (.text c!"TEXT") c!"zz") .value := (C103_raises (by decide +kernel) _).1 (by decide +kernel)
-- a number has no method of a text
example : Fails (failingBook (.num 3) c!"zz") .attribute := (C103_raises (by decide +kernel) _).1 (by decide +kernel)
-- the relationship alone
example : Fails (failingBook (.text c!"INT") c!"zz") .attribute := (C103_raises (by decide +kernel) _).1 (by decide +kernel)
example : Passes (failingBook (.text c!"INT") c!"b") := (C103_reads (by decide +kernel)).1
  ⟨_, (by decide +kernel : readXls (failingBook (.text c!"INT") c!"b") = .ok (((readXls (failingBook (.text c!"INT") c!"b")).toOption).getD []))⟩
-- a sheet without a header row
example : Makes ((c!"Columns", []) :: sampleBook.tail) (.error .index) := (C103_exactly _ _).1 C40_empty_sheet
-- the schemas count the rows, not the tables: the same table twice
example : (readXls (sampleBook.map (fun p => if p.1 = c!"Tables" then (p.1, p.2 ++ [txt [c!"d", c!"s", c!"b"]]) else p))).map
    (fun dbs => (dbs.get? c!"d").map (fun db => (db.tables.keys, db.schemas))) = .ok (some ([c!"a", c!"b"], [(c!"s", 3)])) := by decide +kernel

end Verif.Props
