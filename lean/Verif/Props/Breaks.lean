import Verif.Lemmas.Breaks
import Verif.Props.Cli
/-
C99: which DDL files end in an exception.
-/

namespace Verif.Props
open Spec

/-- C99: reading a text file raises exactly if it has a CREATE TABLE with an empty field or a malformed NUMBER; the first one gives the
exception. -/
theorem C99_exactly {fs : FS} {p : ParserSt} {f content : Str} (hne : f ≠ []) (hf : fs f = some (.text content)) (e : PyErr) :
    (parseDdl fs p (some f)).2 = .error e ↔ EndsIn (getStatements (fileLines content)) e := by
  unfold EndsIn
  rw [← parseStatements_error (schema := p.schemaName) _ (Database.empty p.databaseName) e]
  cases f with
  | nil => exact absurd rfl hne
  | cons c t =>
    unfold parseDdl
    simp only [hf]
    rcases parseStatements p.schemaName (Database.empty p.databaseName) (getStatements (fileLines content)) with ⟨db, _ | e'⟩
    · simp
    · simp

/-- C99: a single statement raises whatever was read before and whatever the schema is. -/
theorem C99_statement (schema : Str) (db : Database) (s : Str) (e : PyErr) : parseStatement schema db s = .error e ↔ Breaks s e :=
  parseStatement_error

/-- C99: there are two kinds of exceptions. -/
theorem C99_kinds {s : Str} {e : PyErr} (h : Breaks s e) : e = .index ∨ e = .value := by
  obtain ⟨_, pre, f, post, _, _, hf⟩ := h
  cases hf with
  | empty => exact .inl rfl
  | number => exact .inr rfl

theorem parseStatements_stop {schema : Str} : ∀ {pre : List Str} {s : Str} {post : List Str} {db : Database} {e : PyErr}, (∀ s' ∈ pre, ∀ e', ¬ Breaks s' e') →
    Breaks s e → parseStatements schema db (pre ++ s :: post) = ((parseStatements schema db pre).1, some e)
  | [], s, post, db, e, _, h => by
    rw [List.nil_append]
    unfold parseStatements
    rw [parseStatement_error.2 h]
  | x :: pre, s, post, db, e, h1, h => by
    rw [List.cons_append]
    unfold parseStatements
    cases hx : parseStatement schema db x with
    | error e' => exact absurd (parseStatement_error.1 hx) (h1 x (by simp) e')
    | ok db' => exact parseStatements_stop (fun s' hs => h1 s' (by simp [hs])) h

/-- C99: the parser is left with the database of the statements before; the table itself and everything after it are missing. -/
theorem C99_left {fs : FS} {p : ParserSt} {f content : Str} (hne : f ≠ []) (hf : fs f = some (.text content)) {pre post : List Str} {s : Str} {e : PyErr}
    (hs : getStatements (fileLines content) = pre ++ s :: post) (hpre : ∀ s' ∈ pre, ∀ e', ¬ Breaks s' e') (h : Breaks s e) :
    parseDdl fs p (some f) = ({ p with database := some (parseStatements p.schemaName (Database.empty p.databaseName) pre).1 }, .error e) := by
  cases f with
  | nil => exact absurd rfl hne
  | cons c t =>
    unfold parseDdl
    simp only [hf]
    rw [hs, parseStatements_stop hpre h]

/-- C99: convert_ddl ends with that exception and changes no file. -/
theorem C99_convert (env : Env) {a : ConvertArgs} (ha : ConvertDocumented a) (hv : a.version = false) {f : Str} (hfa : a.fromDdl = some f) (hne : f ≠ [])
    {n : Str} (hn : a.database = some n) {w : World} {content : Str} (hf : w.disk.fs f = some (.text content)) {e : PyErr}
    (h : EndsIn (getStatements (fileLines content)) e) : convertMain env a w = (w, .error e) := by
  have hr : convertRead env a w = (w, .error e) := by
    unfold convertRead
    rw [if_pos (given_iff.2 ⟨f, hfa, hne⟩)]
    unfold readDdl parseFor
    rw [hfa, hn]
    simp only
    rw [(C99_exactly hne hf e).2 h]
  unfold convertMain
  rw [if_pos ((C60_convert a).2 ha), if_neg (by simp [hv]), Act.bind_eq, hr]

/-- C99: ddldiff ends with the exception of the first file that has one, and compares nothing. -/
theorem C99_diff (floatRepr : Rat → Str) {d : Disk} {a : DiffArgs} (ha : validDiff d a = true) {f g : Str} (hfa : a.ddl1 = some f) (hga : a.ddl2 = some g)
    (hf : f ≠ []) (hg : g ≠ []) {s t : Str} (hfs : d.fs f = some (.text s)) (hgs : d.fs g = some (.text t)) {e : PyErr}
    (h : EndsIn (getStatements (fileLines s)) e ∨ (∀ e', ¬ EndsIn (getStatements (fileLines s)) e') ∧ EndsIn (getStatements (fileLines t)) e) :
    diffMain floatRepr d a = (.alters [], some e) := by
  have key : ∀ (f s : Str) (e : PyErr), f ≠ [] → d.fs f = some (.text s) →
      (parseFor d.fs (some a.database) a.schema (some f) = .error e ↔ EndsIn (getStatements (fileLines s)) e) := fun f s e h1 h2 => C99_exactly h1 h2 e
  unfold diffMain
  rw [if_pos ha, hfa, hga]
  rcases h with h | ⟨h1, h2⟩
  · rw [(key f s e hf hfs).2 h]
  · cases hp : parseFor d.fs (some a.database) a.schema (some f) with
    | error e' => exact absurd ((key f s e' hf hfs).1 hp) (h1 e')
    | ok db => rw [(key g t e hg hgs).2 h2]

/-! ## Cases -/

theorem not_breaks {s : Str} (h : (match parseStatement c!"s" (Database.empty c!"d") s with | .ok _ => true | .error _ => false) = true) (e : PyErr) :
    ¬ Breaks s e := fun hb => by
  rw [(C99_statement c!"s" (Database.empty c!"d") s e).2 hb] at h
  cases h

/-- Two commas after one another. -/
example : Breaks c!"create table a (b int,, c int)" .index := (C99_statement c!"s" (Database.empty c!"d") _ _).1 (by decide)
/-- A comma at the end does no harm. -/
example (e : PyErr) : ¬ Breaks c!"create table a (b int, c int,)" e := not_breaks (by decide +kernel) e
/-- Three arguments, in a quoted column after one without type. -/
example : Breaks c!"create table a (x, [b c] number(1,2,3) not null)" .value := (C99_statement c!"s" (Database.empty c!"d") _ _).1 (by decide +kernel)
/-- Not a CREATE TABLE. -/
example (e : PyErr) : ¬ Breaks c!"create view a (b,, c)" e := fun h => absurd h.1 (by unfold CreatesTable; decide)
/-- The fields of a statement. -/
example : FieldsOf c!"create table a (b int, c number(1,2) , (x" [c!"b int", c!"c number(1,2"] := (fieldsOf_iff (by decide)).2 (by decide)
/-- A file. -/
def breakingFile : Str := c!"create table a (b int);\ncreate table c (, d int);\ncreate table e (f int);\n"
theorem breakingFile_ends : EndsIn (getStatements (fileLines breakingFile)) .index :=
  ⟨[c!"create table a (b int)"], c!"create table c (, d int)", [c!"create table e (f int)"], by decide +kernel,
    fun s' hs => by rw [List.mem_singleton] at hs; subst hs; exact not_breaks (by decide +kernel),
    (C99_statement c!"s" (Database.empty c!"d") _ _).1 (by decide +kernel)⟩
/-- A disk with that file only. -/
def breakingWorld : World := ⟨fun n => if n = c!"f" then some (.file (.text breakingFile)) else none, []⟩
example (env : Env) : convertMain env { fromDdl := some c!"f", database := some c!"d", toTql := some c!"o" } breakingWorld = (breakingWorld, .error .index) :=
  C99_convert env ((C60_convert _).1 (by decide)) rfl rfl (by decide) rfl (by rfl) breakingFile_ends

end Verif.Props
