import Verif.Props.Reports
/-
Property C90: the lines the parser writes to the standard error stream.
-/

namespace Verif.Props
open Verif Verif.Spec

/-! ## Each line is about a statement -/

/-- Every message about a list of statements is about one of them, and it is true of the database as it was when the turn of that statement came. -/
theorem C90_about (schema : Str) : ∀ {l : List Str} {db : Database} {m : Report}, m ∈ (parseStatementsTold schema db l).2.1 →
    ∃ pre stmt post mid, l = pre ++ stmt :: post ∧ parseStatements schema db pre = (mid, none) ∧ TrueReport stmt mid m
  | [], db, m, h => by cases h
  | s :: l, db, m, h => by
    unfold parseStatementsTold at h
    cases e : parseStatementTold schema db s with
    | error x => rw [e] at h; cases h
    | ok r =>
      obtain ⟨db1, ms⟩ := r
      rw [e] at h
      simp only [List.mem_append] at h
      rcases h with h | h
      · exact ⟨[], s, l, db, rfl, rfl, told_true e m h⟩
      · obtain ⟨pre, stmt, post, mid, rfl, h1, h2⟩ := C90_about schema h
        refine ⟨s :: pre, stmt, post, mid, rfl, ?_, h2⟩
        have hs := parseStatementTold_fst schema db s
        rw [e] at hs
        rw [parseStatements, ← hs]
        exact h1

/-- The statement can be found: the line has its text, or it names a table that is not there. -/
theorem C90_found {stmt : Str} {db : Database} {m : Report} (h : TrueReport stmt db m) :
    stmt <:+: m.text ∨ bracketsQuoted stmt <:+: m.text ∨ ∃ n, n <:+: m.text ∧ (∀ t, ¬ TableOf db n t) := by
  cases h with
  | @notFound w _ _ =>
    left
    cases w <;> exact ⟨_, c!".", rfl⟩
  | @failed w why _ _ =>
    cases w with
    | hashKey => exact .inr (.inl ⟨_, [], by rw [List.append_nil]; rfl⟩)
    | _ => exact .inl ⟨_, [], by rw [List.append_nil]; rfl⟩
  | @noTable w n _ hn => exact .inr (.inr ⟨n, ⟨_, _, rfl⟩, hn⟩)

/-- The same for a file: whatever is written while it is read is one line for each message, and each message is about a statement of the file.  (Files that do not exist or cannot be
decoded: C77_no_file, C95_as_prefix_partial.) -/
theorem C90_file {fs : FS} {p : ParserSt} {f content : Str} (hf : f ≠ []) (hc : fs f = some (.text content)) {m : Report} (hm : m ∈ parseReports fs p (some f)) :
    ∃ pre stmt post mid, getStatements (fileLines content) = pre ++ stmt :: post ∧ parseStatements p.schemaName (Database.empty p.databaseName) pre = (mid, none) ∧
      TrueReport stmt mid m := by
  cases f with
  | nil => exact absurd rfl hf
  | cons c f =>
    unfold parseReports at hm
    simp only [hc] at hm
    exact C90_about _ hm

/-! ## The wording -/

/-- Two different messages are different lines, unless both give the text of an exception in a sentence or one is nothing but such a text. -/
theorem C90_told_apart {m m' : Report} (h : ∀ w why s, m ≠ .failed w why s) (hd : ∀ x, m ≠ .decoding x) (hd' : ∀ x, m' ≠ .decoding x) (e : m.text = m'.text) : m = m' := by
  cases m with
  | failed w why s => exact absurd rfl (h w why s)
  | decoding x => exact absurd rfl (hd x)
  | notFound w s =>
    cases m' with
    | notFound w' s' => cases w <;> cases w' <;> simp [Report.text, Wanted.words] at e ⊢ <;> exact e
    | decoding x => exact absurd rfl (hd' x)
    | _ => cases w <;> simp [Report.text] at e
  | noTable w s =>
    cases m' with
    | noTable w' s' => cases w <;> cases w' <;> simp [Report.text, Wanted.words] at e ⊢ <;> exact e
    | notFound w' s' => cases w' <;> simp [Report.text] at e
    | decoding x => exact absurd rfl (hd' x)
    | _ => simp [Report.text] at e
  | noFile f =>
    cases m' with
    | noFile f' => simp [Report.text] at e ⊢; exact e
    | notFound w' s' => cases w' <;> simp [Report.text] at e
    | decoding x => exact absurd rfl (hd' x)
    | _ => simp [Report.text] at e

/-! ## Concrete cases -/

/-- A script with a statement for an unknown table, one that cannot be read, one whose numbers of columns differ, and a shard key that is no number. -/
def noisyScript : Str := c!"create table t (a int, b int) partition by hash (many) key (a);
alter table u add constraint primary key (a);
alter table t add primary key;
alter table t add constraint k1 foreign key (a, b) references p (x);
alter table t add relationship r with u as;
alter table t set fact partition by hash (8) key (a);
"

example : reportLines (parseReports (fun f => if f = c!"a" then some (.text noisyScript) else none) { databaseName := c!"d" } (some c!"a")) =
c!"Error \"invalid literal for int() with base 10: 'many'\" extracting hash key from: create table t (a int, b int) partition by hash (many) key (a)
ERROR:root:Attempting to add a primary key to table u, which is not in the database.
Possible parsing error: unable to extract primary key from alter table t add primary key.
Error \"k1 has different length keys:  t:['a', 'b'] -- p:['x']\" extracting foreign key from: alter table t add constraint k1 foreign key (a, b) references p (x)
Possible parsing error: unable to extract generic relationship from alter table t add relationship r with u as.
ERROR:root:Attempting to add a shard key to table , which is not in the database.
" := by decide +kernel

example : reportLines (parseReports (fun _ => none) { databaseName := c!"d" } (some c!"a.ddl")) = c!"Input file a.ddl doesn't exist for parsing.\n" := by decide

/-- Tables without a name. -/
example : (parseStatementTold c!"s" bareDb c!"alter table t add constraint foreign key (a) references s. (x)").map (fun r => reportLines r.2) =
      .ok c!"Error \"string index out of range\" extracting foreign key from: alter table t add constraint foreign key (a) references s. (x)\n" ∧
    (parseStatementTold c!"s" bareDb c!"alter table t drop constraint foreign key").map (fun r => reportLines r.2) =
      .ok c!"Error \"'NoneType' object is not subscriptable\" extracting foreign key from: alter table t drop constraint foreign key\n" := by decide +kernel

/-- A line can be about two different statements if it gives the text of an exception, since names are quoted there as they are. -/
theorem C90_ambiguous : ∃ why s why' s', Report.failed .foreignKey why s ≠ .failed .foreignKey why' s' ∧ (Report.failed .foreignKey why s).text = (Report.failed .foreignKey why' s').text :=
  ⟨c!"a\" extracting foreign key from: b", c!"c", c!"a", c!"b\" extracting foreign key from: c", by decide, by decide⟩

end Verif.Props
