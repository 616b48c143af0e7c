import Verif.Lemmas.Messages
import Verif.Lemmas.Statements
/-
C102: what the parser says about every statement and about every DDL file.
-/

namespace Verif.Props
open Spec

/-- C102: what a statement does and what is said about it, whatever its text is. -/
theorem C102_statement (schema s : Str) {db : Database} (hk : (db.tables.map Prod.fst).Nodup) (db' : Database) (ms : List Report) :
    parseStatementTold schema db s = .ok (db', ms) ↔ Does schema s db db' ∧ Tells s db ms := told_iff hk

/-- C102: the messages of a text file, whatever is in it: those of its statements, one after the other, up to the first that raises. -/
theorem C102_file {fs : FS} {p : ParserSt} {f content : Str} (hne : f ≠ []) (hf : fs f = some (.text content)) (ms : List Report) :
    parseReports fs p (some f) = ms ↔ ∃ ss, FileStatements content ss ∧ TellAll p.schemaName ss ⟨p.databaseName, [], []⟩ ms := by
  have hk : ((⟨p.databaseName, [], []⟩ : Database).tables.map Prod.fst).Nodup := List.nodup_nil
  have key : parseReports fs p (some f) = (parseStatementsTold p.schemaName ⟨p.databaseName, [], []⟩ (getStatements (fileLines content))).2.1 := by
    cases f with
    | nil => exact absurd rfl hne
    | cons c t => simp only [parseReports, hf, Database.empty]
  rw [key, ← tellAll_iff hk]
  exact ⟨fun h => ⟨_, fileStatements_iff.2 rfl, h⟩, fun ⟨ss, h1, h2⟩ => by rw [fileStatements_iff.1 h1]; exact h2⟩

/-- C102: the messages of a file that cannot be decoded to its end: that it cannot, and then those of what was read. -/
theorem C102_undecodable {fs : FS} {p : ParserSt} {f before why : Str} (hne : f ≠ []) (hf : fs f = some (.undecodable before why)) (ms : List Report) :
    parseReports fs p (some f) = ms ↔ ∃ ss ms', FileStatements before ss ∧ TellAll p.schemaName ss ⟨p.databaseName, [], []⟩ ms' ∧ ms = .decoding why :: ms' := by
  have hk : ((⟨p.databaseName, [], []⟩ : Database).tables.map Prod.fst).Nodup := List.nodup_nil
  have key : parseReports fs p (some f) = .decoding why :: (parseStatementsTold p.schemaName ⟨p.databaseName, [], []⟩ (getStatements (fileLines before))).2.1 := by
    cases f with
    | nil => exact absurd rfl hne
    | cons c t => simp only [parseReports, hf, Database.empty]
  rw [key]
  constructor
  · rintro rfl
    exact ⟨_, _, fileStatements_iff.2 rfl, (tellAll_iff hk).2 rfl, rfl⟩
  · rintro ⟨ss, ms', h1, h2, rfl⟩
    rw [← fileStatements_iff.1 h1] at h2
    rw [(tellAll_iff hk).1 h2]

/-- C102: about statements exactly one thing is said. -/
theorem C102_determined (schema : Str) (ss : List Str) {db : Database} (hk : (db.tables.map Prod.fst).Nodup) : ∃! ms, TellAll schema ss db ms :=
  ⟨_, (tellAll_iff hk).2 rfl, fun _ h => ((tellAll_iff hk).1 h).symm⟩

theorem silent_constraints {s tn : Str} {db : Database} {cs : List Str} : ConstraintsTold s db tn cs [] ↔
    ∀ c ∈ cs, ∃ k t, GivesKey c k ∧ TableOf db tn t ∧ k.cols.length = k.refs.length := by
  constructor
  · intro h
    generalize hm : ([] : List Report) = ms at h
    induction h with
    | nil => intro c h; cases h
    | fine h1 h2 h3 _ ih =>
      intro c hc
      rcases List.mem_cons.1 hc with rfl | hc
      · exact ⟨_, _, h1, h2, h3⟩
      · exact ih hm c hc
    | _ => cases hm
  · intro h
    induction cs with
    | nil => exact .nil
    | cons c cs ih =>
      obtain ⟨k, t, h1, h2, h3⟩ := h c List.mem_cons_self
      exact .fine h1 h2 h3 (ih fun c hc => h c (List.mem_cons_of_mem _ hc))

/-- C102: exactly when nothing is said about an ALTER TABLE: it has none of the four words, or the key or relationship it has could be read and its table is there, or
it speaks of a foreign key and each of its constraints (there may be none) could be read, has lists of one length and a table that is there, or it has only the word
hash and there is a table without a name. -/
theorem C102_silent {s : Str} (ha : Alters s) (schema : Str) {db db' : Database} (hk : (db.tables.map Prod.fst).Nodup) (hd : parseStatement schema db s = .ok db') :
    parseStatementTold schema db s = .ok (db', []) ↔
      (∀ w ∈ [c!"primary key", c!"foreign", c!"relationship", c!"hash"], Lacks w s) ∨
      (¬ Lacks c!"primary key" s ∧ ∃ g f tn t, Longest (marked primaryShape [true, false, false, true, false]) s [g, f] ∧ NamesTable g tn ∧ TableOf db tn t) ∨
      (Lacks c!"primary key" s ∧ ¬ Lacks c!"foreign" s ∧ ∃ g tn p parts, Longest (marked addShape [true, false]) s [g] ∧ Written g tn ∧ WordCut c!"constraint" s (p :: parts) ∧
        ∀ c ∈ parts, ∃ k t, GivesKey c k ∧ TableOf db tn t ∧ k.cols.length = k.refs.length) ∨
      (Lacks c!"primary key" s ∧ Lacks c!"foreign" s ∧ ¬ Lacks c!"relationship" s ∧ ∃ tn r t, GivesRelationship s tn r ∧ TableOf db tn t) ∨
      ((∀ w ∈ [c!"primary key", c!"foreign", c!"relationship"], Lacks w s) ∧ ¬ Lacks c!"hash" s ∧ ∃ t, TableOf db [] t) := by
  rw [told_iff hk]
  constructor
  · rintro ⟨_, h⟩
    generalize hm : ([] : List Report) = ms at h
    cases h with
    | create hc => exact (not_both hc ha).elim
    | sharded hc => exact (not_both hc ha).elim
    | primary _ h1 h2 =>
      subst hm
      cases h2 with
      | fine a b c => exact .inr (.inl ⟨h1, _, _, _, _, a, b, c⟩)
    | foreign _ h1 h2 h3 =>
      subst hm
      cases h3 with
      | constraints a b c d => exact .inr (.inr (.inl ⟨h1, h2, _, _, _, _, a, b, c, silent_constraints.1 d⟩))
    | relationship _ h1 h2 h3 h4 =>
      subst hm
      cases h4 with
      | fine a b => exact .inr (.inr (.inr (.inl ⟨h1, h2, h3, _, _, _, a, b⟩)))
    | hash => cases hm
    | hashSilent _ h1 h2 h3 => exact .inr (.inr (.inr (.inr ⟨h1, h2, _, h3⟩)))
    | unknown _ h => exact .inl h
    | other _ h => exact absurd ha h
  · intro h
    refine ⟨(does_iff hk).2 hd, ?_⟩
    rcases h with h | ⟨h1, g, f, tn, t, a, b, c⟩ | ⟨h1, h2, g, tn, p, parts, a, b, c, d⟩ | ⟨h1, h2, h3, tn, r, t, a, b⟩ | ⟨h1, h2, t, h3⟩
    · exact .unknown ha h
    · exact .primary ha h1 (.fine a b c)
    · exact .foreign ha h1 h2 (.constraints a b c (silent_constraints.2 d))
    · exact .relationship ha h1 h2 h3 (.fine a b)
    · exact .hashSilent ha h1 h2 h3

/-! ## Cases -/

/-- A file every second statement of which is complained about, and what is said. -/
def toldFile : Str := c!"create table a (x int) partition by hash (4 4) key (x);\nalter table b add primary key (y);\nalter table a add constraint k foreign key (x) references a (x, y), constraint foreign key (x) references a (x);\nalter table c add constraint foreign key (x) references a (x), constraint foreign key (x) references a (x);\nalter table a add relationship to b as 'x';\nalter table a add column z int;\nalter table a set hash;\n"

def toldLines : List Report :=
  [.failed .hashKey c!"invalid literal for int() with base 10: '4 4'" c!"create table a (x int) partition by hash (4 4) key (x)",
   .noTable .primaryKey c!"b",
   .failed .foreignKey c!"k has different length keys:  a:['x'] -- a:['x', 'y']" c!"alter table a add constraint k foreign key (x) references a (x, y), constraint foreign key (x) references a (x)",
   .noTable .foreignKey c!"c", .noTable .foreignKey c!"c",
   .notFound .relationship c!"alter table a add relationship to b as 'x'",
   .noTable .shardKey []]

example : ∃ ss, FileStatements toldFile ss ∧ TellAll c!"s" ss ⟨c!"d", [], []⟩ toldLines :=
  (C102_file (fs := fun n => if n = c!"f" then some (.text toldFile) else none) (p := { databaseName := c!"d", schemaName := c!"s" }) (f := c!"f") (by decide) (by rfl)
    toldLines).1 (by decide +kernel)

/-- The same text, cut off by a byte that cannot be decoded. -/
example : ∃ ss ms', FileStatements toldFile ss ∧ TellAll c!"s" ss ⟨c!"d", [], []⟩ ms' ∧ Report.decoding c!"invalid start byte" :: toldLines = .decoding c!"invalid start byte" :: ms' :=
  (C102_undecodable (fs := fun n => if n = c!"f" then some (.undecodable toldFile c!"invalid start byte") else none) (p := { databaseName := c!"d", schemaName := c!"s" })
    (f := c!"f") (by decide) (by rfl) _).1 (by decide +kernel)

/-- A key that takes the place of another, without a word; and the same statement without the table. -/
def silentDb : Database := ⟨c!"d", [(c!"t", ⟨c!"t", c!"s", [c!"x"], none, [], [], []⟩), (c!"u", ⟨c!"u", c!"s", [], none, [], [], []⟩)], []⟩

example : Does c!"s" c!"alter table v.t add constraint primary key (y, \"z\")" silentDb
      ⟨c!"d", [(c!"t", ⟨c!"t", c!"s", [c!"y", c!"z"], none, [], [], []⟩), (c!"u", ⟨c!"u", c!"s", [], none, [], [], []⟩)], []⟩ ∧
    Tells c!"alter table v.t add constraint primary key (y, \"z\")" silentDb [] :=
  (C102_statement c!"s" _ (by decide) _ _).1 (by decide +kernel)

example : Tells c!"alter table v.w add constraint primary key (y, \"z\")" silentDb [.noTable .primaryKey c!"w"] :=
  ((C102_statement c!"s" _ (by decide) silentDb _).1 (by decide +kernel)).2

/-- The foreign key of a statement without the word constraint is not looked at, and nothing is said: the third case. -/
example : ∃ g tn p parts, Longest (marked addShape [true, false]) c!"alter table t add foreign key (a) references p (x)" [g] ∧ Written g tn ∧
    WordCut c!"constraint" c!"alter table t add foreign key (a) references p (x)" (p :: parts) ∧
    ∀ c ∈ parts, ∃ k t, GivesKey c k ∧ TableOf silentDb tn t ∧ k.cols.length = k.refs.length := by
  have ha : Alters c!"alter table t add foreign key (a) references p (x)" := ⟨by simp only [Lacks]; decide +kernel, by simp only [NotCreate, Lacks]; decide +kernel⟩
  rcases (C102_silent ha c!"s" (db := silentDb) (db' := silentDb) (by decide) (by decide +kernel)).1 (by decide +kernel) with h | h | h | h | h
  · exact absurd (h c!"foreign" (by decide)) (by simp only [Lacks]; decide +kernel)
  · exact absurd (show Lacks c!"primary key" _ by simp only [Lacks]; decide +kernel) h.1
  · exact h.2.2
  · exact absurd h.2.1 (by simp only [Lacks]; decide +kernel)
  · exact absurd (h.1 c!"foreign" (by decide)) (by simp only [Lacks]; decide +kernel)

end Verif.Props
