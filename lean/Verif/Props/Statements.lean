import Verif.Lemmas.Statements
import Verif.Props.Lines
import Verif.Props.Breaks
/-
C100: the statements of every DDL file; and, exactly, when lines without code matter (C31, C32, C71).
-/

namespace Verif.Props
open Spec

/-! ## C100 -/

/-- C100: the statements read from a file, whatever is in it, are those of the specification: the texts before semicolons in what its lines add,
without the ones that are found too late. -/
theorem C100_exactly (content : Str) (ss : List Str) : getStatements (fileLines content) = ss ↔ FileStatements content ss :=
  fileStatements_iff.symm

/-- C100: as many statements are lost at the end of the file as semicolons are in excess of lines there; none exactly if no end of the file has more
semicolons than lines. -/
theorem C100_number {content : Str} {ls ts : List Str} {o : Bool} (hl : TextLines content ls) (h : Contributes false ls o ts) :
    (∃ k, Late ts k ∧ (getStatements (fileLines content)).length + k = semicolons ts) ∧
    ((getStatements (fileLines content)).length = semicolons ts ↔ ∀ b, b <:+ ts → semicolons b ≤ b.length) := by
  obtain ⟨k, hk⟩ := late_total ts
  have hle := late_le hk
  have e : (getStatements (fileLines content)).length + k = semicolons ts := by
    rw [fileLines_of hl, getStatements_contributes (fun l hx => (areLines_of hl l hx).1) h hk, List.length_map, List.length_take, length_terminated]
    omega
  refine ⟨⟨k, hk, e⟩, ?_⟩
  constructor
  · intro h0 b hb
    have := hk.1 b hb
    omega
  · intro hb
    obtain ⟨b, hb', e'⟩ := hk.2
    have := hb b hb'
    omega

/-- C100: what is made of a file depends on these statements alone. -/
theorem C100_parse {fs fs' : FS} {f content content' : Str} (p : ParserSt) {ss : List Str} (h : fs f = some (.text content)) (h' : fs' f = some (.text content'))
    (hs : FileStatements content ss) (hs' : FileStatements content' ss) : parseDdl fs p (some f) = parseDdl fs' p (some f) :=
  parseDdl_congr p h h' (by rw [fileStatements_iff.1 hs, fileStatements_iff.1 hs'])

/-- C100: and so does the exception it ends in. -/
theorem C100_exception {fs : FS} {p : ParserSt} {f content : Str} (hne : f ≠ []) (hf : fs f = some (.text content)) (e : PyErr) :
    (parseDdl fs p (some f)).2 = .error e ↔ ∃ ss, FileStatements content ss ∧ EndsIn ss e := by
  rw [C99_exactly hne hf]
  exact ⟨fun h => ⟨_, fileStatements_iff.2 rfl, h⟩, fun ⟨ss, h1, h2⟩ => by rw [fileStatements_iff.1 h1]; exact h2⟩

/-- A file with the three line ends, all kinds of comments, a batch separator and more semicolons than lines. -/
def oddFile : Str := c!"create table -- x;\r\na /* b;\nGO */;\rc */ (d\tint)\nGOOD;\n;\re;  f /* g */ h; i; j;"

theorem oddFile_lines : TextLines oddFile [c!"create table -- x;", c!"a /* b;", c!"GO */;", c!"c */ (d\tint)", c!"GOOD;", c!";", c!"e;  f /* g */ h; i; j;"] :=
  textLines_iff.2 (by decide +kernel)

theorem oddFile_adds : Contributes false [c!"create table -- x;", c!"a /* b;", c!"GO */;", c!"c */ (d\tint)", c!"GOOD;", c!";", c!"e;  f /* g */ h; i; j;"] false
    [c!" create table ", c!"a ", c!" (d\tint)", c!" ;", c!"e;  f  h; i; j;"] := by
  refine .line (c := c!"create table ") (lineCode_iff.2 (by decide +kernel)) (by decide) (.plain (by decide)) ?_
  refine .line (c := c!"a /* b;") (lineCode_iff.2 (by decide +kernel)) (by decide) (.opens (a := c!"a ") (b := c!" b;") (by decide) (by decide)) ?_
  refine .batch (c := c!"GO */;") (lineCode_iff.2 (by decide +kernel)) (by decide) ?_
  refine .line (c := c!"c */ (d\tint)") (lineCode_iff.2 (by decide +kernel)) (by decide) (.closes (a := c!"c ") (b := c!" (d\tint)") (by decide)) ?_
  refine .batch (c := c!"GOOD;") (lineCode_iff.2 (by decide +kernel)) (by decide) ?_
  refine .line (c := c!";") (lineCode_iff.2 (by decide +kernel)) (by decide) (.plain (by decide)) ?_
  exact .line (c := c!"e;  f /* g */ h; i; j;") (lineCode_iff.2 (by decide +kernel)) (by decide)
    (.whole (a := c!"e;  f ") (b := c!" g ") (c := c!" h; i; j;") (by decide) (by decide)) .nil

example : getStatements (fileLines oddFile) = [c!"create table a (d int)", c!"e"] ∧
    Late [c!" create table ", c!"a ", c!" (d\tint)", c!" ;", c!"e;  f  h; i; j;"] 3 := by
  refine ⟨by decide +kernel, ?_⟩
  rw [late_iff]
  decide +kernel

/-! ## C31, C32, C71 -/

theorem noCode_exactly {pre post ts1 ts2 : List Str} {l : Str} {o o' : Bool} (h : AreLines (pre ++ l :: post)) (hp : ∀ x ∈ pre ++ post, PlainSpace x)
    (hl : NoCode l) (h1 : Contributes false pre o ts1) (h2 : Contributes o post o' ts2) :
    getStatements (pre ++ post) = getStatements (pre ++ l :: post) ↔
      ∃ k, Late (ts1 ++ ts2) k ∧ Late ts2 k ∧ (o = false → Glued ts1 ts2 → semicolons ts2 ≤ k) := by
  have e : pre ++ l :: post = pre ++ [l] ++ post := by simp
  rw [e] at h ⊢
  obtain ⟨ha, hb⟩ := contributes_noCode hl
  cases o with
  | true => simpa using getStatements_insert_nothing (fun x hx => (h x hx).1) h1 hb h2 (by simp) rfl
  | false => simpa using getStatements_insert_blank (fun x hx => (h x hx).1) hp h1 ha h2 rfl

/-- C32, exactly: a blank line does not matter if and only if everything found too late is behind it, and it keeps no code apart in a statement that is
read, or is in a block comment. -/
theorem C32_exactly {pre post ts1 ts2 : List Str} {l : Str} {o o' : Bool} (h : AreLines (pre ++ l :: post)) (hp : ∀ x ∈ pre ++ post, PlainSpace x)
    (hl : ∀ c ∈ l, isSpace c = true) (h1 : Contributes false pre o ts1) (h2 : Contributes o post o' ts2) :
    getStatements (pre ++ post) = getStatements (pre ++ l :: post) ↔
      ∃ k, Late (ts1 ++ ts2) k ∧ Late ts2 k ∧ (o = false → Glued ts1 ts2 → semicolons ts2 ≤ k) :=
  noCode_exactly h hp (.blank hl) h1 h2

/-- C31, exactly: the same for a comment on a line of its own. -/
theorem C31_exactly {pre post ts1 ts2 : List Str} {w c : Str} {o o' : Bool} (h : AreLines (pre ++ (w ++ c!"--" ++ c) :: post))
    (hp : ∀ x ∈ pre ++ post, PlainSpace x) (hw : ∀ x ∈ w, isSpace x = true) (h1 : Contributes false pre o ts1) (h2 : Contributes o post o' ts2) :
    getStatements (pre ++ post) = getStatements (pre ++ (w ++ c!"--" ++ c) :: post) ↔
      ∃ k, Late (ts1 ++ ts2) k ∧ Late ts2 k ∧ (o = false → Glued ts1 ts2 → semicolons ts2 ≤ k) :=
  noCode_exactly h hp (.comment hw) h1 h2

/-- C71, exactly: a block comment on lines of its own does not matter if and only if everything found too late is behind it. -/
theorem C71_exactly {pre b post ts1 ts2 : List Str} {o' : Bool} (h : AreLines (pre ++ b ++ post)) (hb : BlockComment b)
    (h1 : Contributes false pre false ts1) (h2 : Contributes false post o' ts2) :
    getStatements (pre ++ post) = getStatements (pre ++ b ++ post) ↔ ∃ k, Late (ts1 ++ ts2) k ∧ Late ts2 k := by
  obtain ⟨ts0, h0, hne, hf⟩ := contributes_blockComment hb
  exact getStatements_insert_nothing (fun x hx => (h x hx).1) h1 h0 h2 hne hf

/-- Code that a line in between keeps apart. -/
theorem glued_adds : Contributes false [c!"a; b;", c!"c"] false [c!" a; b;", c!" c"] ∧ Contributes false [c!"d /* e */;", c!"f;"] false [c!"d ;", c!" f;"] ∧
    Glued [c!" a; b;", c!" c"] [c!"d ;", c!" f;"] ∧ Late ([c!" a; b;", c!" c"] ++ [c!"d ;", c!" f;"]) 0 ∧ Late [c!"d ;", c!" f;"] 0 := by
  refine ⟨?_, ?_, ⟨c!" a; b; ", 'c', 'd', c!" ; f;", by decide, by decide, by decide, by decide, by decide, by decide⟩, late_iff.2 (by decide +kernel), late_iff.2 (by decide +kernel)⟩
  · exact .line (c := c!"a; b;") (lineCode_iff.2 (by decide +kernel)) (by decide) (.plain (by decide))
      (.line (c := c!"c") (lineCode_iff.2 (by decide +kernel)) (by decide) (.plain (by decide)) .nil)
  · exact .line (c := c!"d /* e */;") (lineCode_iff.2 (by decide +kernel)) (by decide) (.whole (a := c!"d ") (b := c!" e ") (c := c!";") (by decide) (by decide))
      (.line (c := c!"f;") (lineCode_iff.2 (by decide +kernel)) (by decide) (.plain (by decide)) .nil)

example : getStatements ([c!"a; b;", c!"c"] ++ [c!"d /* e */;", c!"f;"]) = [c!"a", c!"b", c!"cd", c!"f"] ∧
    getStatements ([c!"a; b;", c!"c"] ++ c!" \t" :: [c!"d /* e */;", c!"f;"]) = [c!"a", c!"b", c!"c d", c!"f"] ∧
    getStatements ([c!"a; b;", c!"c"] ++ (c!" " ++ c!"--" ++ c!"x;") :: [c!"d /* e */;", c!"f;"]) = [c!"a", c!"b", c!"c d", c!"f"] ∧
    getStatements ([c!"a; b;", c!"c"] ++ [c!"/* x;", c!"y */"] ++ [c!"d /* e */;", c!"f;"]) = [c!"a", c!"b", c!"cd", c!"f"] := by decide +kernel

/-- Lines of the examples. -/
theorem glued_lines : AreLines ([c!"a; b;", c!"c"] ++ c!" \t" :: [c!"d /* e */;", c!"f;"]) ∧ (∀ x ∈ [c!"a; b;", c!"c"] ++ [c!"d /* e */;", c!"f;"], PlainSpace x) ∧
    BlockComment [c!"/* x;", c!"y */"] := by
  refine ⟨by simp only [AreLines]; decide, by simp only [PlainSpace]; decide, ?_⟩
  exact .many (w := []) (c := c!" x;") (mid := []) (d := c!"y ") (w' := []) (by simp [AllSpace]) (by simp [AllSpace]) (by decide) (by simp) (by decide)
    (by decide) (by decide)

end Verif.Props
