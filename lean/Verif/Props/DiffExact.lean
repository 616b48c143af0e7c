import Verif.Props.DiffAlters
import Verif.Props.MigrateExact
/-
Properties C18 and C76, exactly: for which databases and files the printed script is a complete migration.
-/

namespace Verif.Props
open Verif Verif.Spec

theorem noKeyAdded_iff {db1 db2 : Database} : NoKeyAdded db1 db2 ↔ ¬ KeyAdded db1 db2 := by
  constructor
  · rintro h ⟨n, t1, t2, g1, g2, e1, e2⟩
    exact (h n t1 t2 g1 g2).elim e1 e2
  · intro h n t1 t2 g1 g2
    by_contra hc
    rw [not_or] at hc
    exact h ⟨n, t1, t2, g1, g2, hc.1, hc.2⟩

/-- The written text of a list that can be written completely, when no key is added. -/
theorem script_iff (fr : Rat → Str) {shared : Str → Bool} {rep : FK → FK → Bool} {reported : FK → FK → Prop} {db1 db2 : Database}
    (h1 : WellKeyed db1) (h2 : WellKeyed db2) (a1 : NamesApart db1) (a2 : NamesApart db2) (p1 : PlainDb db1) (p2 : PlainDb db2)
    (w2 : WholeCounts db2) (hrep : ∀ a b : FK, a.name = b.name → (rep a b = false ↔ ¬ reported a b))
    (hto : ∀ a b : FK, ¬ reported a b → a.toTable = b.toTable) (sv : Server) (hsv : sv.cat = catOf db1) :
    let l := (allNames db1.tables db2.tables).flatMap (dbE rep shared db1 db2)
    ((writeAlters fr l).2 = none ∧ ∃ sts sv', readScript (writeAlters fr l).1 = some sts ∧ execAll sv sts = some sv' ∧
      CatSame sv'.cat (catOf db2)) ↔ Complete shared reported db1 db2 sv.schemas ∧ NoKeyAdded db1 db2 := by
  intro l
  have M := migrates_iff (shared := shared) h1 h2 a1 a2 hrep hto sv hsv
  have R := (C19_raises_exactly fr l).1
  rw [unprintable_dbE h1 h2 w2] at R
  have P : NoKeyAdded db1 db2 → ∀ x ∈ l, Printable x := by
    intro hk x hx
    obtain ⟨n, -, hx⟩ := List.mem_flatMap.1 hx
    exact printable_dbE h1 h2 p1 p2 hk w2 n x hx
  constructor
  · rintro ⟨ho, sts, sv', hr, he, hc⟩
    have hk : NoKeyAdded db1 db2 := noKeyAdded_iff.2 (fun h => R.2 h ho)
    rw [(C18_alter_script_reads_partial fr (P hk)).2, Option.some.injEq] at hr
    subst hr
    exact ⟨M.1 ⟨sv', he, hc⟩, hk⟩
  · rintro ⟨C, hk⟩
    obtain ⟨sv', he, hc⟩ := M.2 C
    have := C18_alter_script_reads_partial fr (P hk)
    exact ⟨this.1, _, sv', this.2, he, hc⟩

/-- C18, exactly, end to end.  For databases whose names, types and conditions can be quoted and whose shard counts are whole numbers: the text is
written to the end and, read as TQL and executed on a server holding the first database, leaves the second, if and only if the list is
complete (C17) and no primary key has to be added (C19). -/
theorem C18_exactly (fr : Rat → Str) {shared : Str → Bool} {db1 db2 : Database} (h1 : WellKeyed db1) (h2 : WellKeyed db2)
    (a1 : NamesApart db1) (a2 : NamesApart db2) (p1 : PlainDb db1) (p2 : PlainDb db2) :
    (WholeCounts db2 → ∀ sv : Server, sv.cat = catOf db1 →
      (((writeAlters fr (compareDatabases shared db1 db2).1).2 = none ∧ ∃ sts sv',
        readScript (writeAlters fr (compareDatabases shared db1 db2).1).1 = some sts ∧ execAll sv sts = some sv' ∧
        CatSame sv'.cat (catOf db2)) ↔ Complete shared FkReported db1 db2 sv.schemas ∧ NoKeyAdded db1 db2)) ∧
    (WholeCounts db1 → ∀ sv : Server, sv.cat = catOf db2 →
      (((writeAlters fr (compareDatabases shared db1 db2).2).2 = none ∧ ∃ sts sv',
        readScript (writeAlters fr (compareDatabases shared db1 db2).2).1 = some sts ∧ execAll sv sts = some sv' ∧
        CatSame sv'.cat (catOf db1)) ↔ Complete shared (fun b a => FkReported a b) db2 db1 sv.schemas ∧ NoKeyAdded db2 db1)) := by
  constructor
  · intro w sv hsv
    rw [compareDatabases_fst h1 h2]
    exact script_iff fr h1 h2 a1 a2 p1 p2 w (fun a b => not_reported) (fun a b h => by unfold FkReported at h; tauto) sv hsv
  · intro w sv hsv
    rw [compareDatabases_snd h1 h2]
    exact script_iff (rep := fun b a => !a.eq b) fr h2 h1 a2 a1 p2 p1 w (fun b a e => not_reported e.symm)
      (fun b a h => by unfold FkReported at h; tauto) sv hsv

/-- `dbFk` and `dbRel` (`dbRel_complete`) meet the hypotheses; the list in the first direction also adds no key. -/
example : PlainDb dbFk ∧ PlainDb dbRel ∧ NoKeyAdded dbFk dbRel ∧
    (compareDatabases (fun _ => true) dbFk dbRel).1.length = 2 := by
  refine ⟨plainDbB_sound (by decide), plainDbB_sound (by decide), ?_, by decide⟩
  have : ∀ p ∈ dbFk.tables, ∀ q ∈ dbRel.tables, p.1 = q.1 → p.2.pk = q.2.pk := by decide
  exact fun n a b ha hb => .inl (this _ ha _ hb rfl)

/-! ## C76 -/

/-- The changes of keys that the script from `old` to `new` can make: no foreign key takes the name of an old relationship, foreign keys of the same
name that are not told apart have the same columns, new tables have neither foreign keys nor relationships, and no primary key has to be added. -/
structure Feasible (reported : FK → FK → Prop) (old new : Database) : Prop where
  names : ∀ n t1 t2, TableOf old n t1 → TableOf new n t2 → ∀ m k r, (m, k) ∈ t2.fks → (m, r) ∉ t1.rels
  fks : ∀ n t1 t2, TableOf old n t1 → TableOf new n t2 → ∀ m a b, (m, a) ∈ t1.fks → (m, b) ∈ t2.fks →
    reported a b ∨ (a.fromKeys = b.fromKeys ∧ a.toKeys = b.toKeys)
  bare : NewTablesBare old new
  pk : NoKeyAdded old new

theorem complete_iff_feasible {reported : FK → FK → Prop} {old new : Database} {schema : Str} {schemas : List Str}
    (c1 : ∀ n t, TableOf old n t → t.schema = schema) (c2 : ∀ n t, TableOf new n t → t.schema = schema)
    (hs : schema = defaultSchema ∨ schema ∈ schemas) :
    Complete (fun _ => false) reported old new schemas ∧ NoKeyAdded old new ↔ Feasible reported old new := by
  constructor
  · rintro ⟨C, hk⟩
    exact ⟨C.names, C.fks, fun n t ht hno => ⟨(C.fresh n t ht hno).1, (C.fresh n t ht hno).2.1⟩, hk⟩
  · rintro ⟨h1, h2, h3, h4⟩
    refine ⟨⟨fun n t1 t2 g1 g2 => by rw [c1 n t1 g1, c2 n t2 g2], h1, fun _ _ _ _ _ h => (by cases h), h2, fun n t ht hno => ?_⟩, h4⟩
    exact ⟨(h3 n t ht hno).1, (h3 n t ht hno).2, by rw [c2 n t ht]; exact hs⟩

/-- **C76**, exactly.  For two files whose names, types and conditions can be quoted, and without a foreign key and a relationship of the same name
in one table: with --alter1 ddldiff prints its comment line and a script that turns a server with the first file's schema into one with the
second's, and ends normally, if and only if the changes are `Feasible`; with --alter2 likewise for the other direction. -/
theorem C76_exactly (fr : Rat → Str) (d : Disk) (a : DiffArgs) (f1 f2 : Str) (db1 db2 : Database) (hv : DiffDocumented d a)
    (h1 : a.ddl1 = some f1) (h2 : a.ddl2 = some f2)
    (hp1 : (parseDdl d.fs { databaseName := a.database, schemaName := a.schema } (some f1)).2 = .ok (some db1))
    (hp2 : (parseDdl d.fs { databaseName := a.database, schemaName := a.schema } (some f2)).2 = .ok (some db2))
    (a1 : NamesApart db1) (a2 : NamesApart db2) (p1 : PlainDb db1) (p2 : PlainDb db2) :
    (a.alter1 = true → a.alter2 = false →
      ((∃ s, diffMain fr d a = (.alters (c!"-- changes needed for first schema to match the second\n" ++ s), none) ∧
        Migrates a.schema s db1 db2) ↔ Feasible FkReported db1 db2)) ∧
    (a.alter1 = false → a.alter2 = true →
      ((∃ s, diffMain fr d a = (.alters (c!"-- changes needed for second schema to match the first\n" ++ s), none) ∧
        Migrates a.schema s db2 db1) ↔ Feasible (fun b a => FkReported a b) db2 db1)) := by
  have c1 := ((C36_parsed_database_consistent d.fs _ _).1 db1 hp1).1
  have c2 := ((C36_parsed_database_consistent d.fs _ _).1 db2 hp2).1
  have w1 : WholeCounts db1 := fun n t k g e => (c1.shards n t g k e).2
  have w2 : WholeCounts db2 := fun n t k g e => (c2.shards n t g k e).2
  have E := C18_exactly fr (shared := fun _ => false) c1.keyed c2.keyed a1 a2 p1 p2
  constructor
  · intro e1 e2
    rw [diffMain_alters fr d a f1 f2 db1 db2 hv h1 h2 (.inl e1) hp1 hp2]
    simp only [e1, e2, if_true, Bool.false_eq_true, if_false, List.append_nil, writeAll_headed]
    constructor
    · rintro ⟨s, ho, sts, hr, hm⟩
      simp only [Prod.mk.injEq, DiffOut.alters.injEq, List.append_cancel_left_eq] at ho
      obtain ⟨rfl, ho⟩ := ho
      have hs : a.schema = defaultSchema ∨ a.schema ∈ [a.schema] := .inr (by simp)
      refine (complete_iff_feasible c1.schema c2.schema hs).1 ((E.1 w2 { cat := catOf db1, schemas := [a.schema] } rfl).1 ⟨ho, ?_⟩)
      obtain ⟨sv', he, hc⟩ := hm { cat := catOf db1, schemas := [a.schema] } rfl hs
      exact ⟨sts, sv', hr, he, hc⟩
    · intro F
      have go : ∀ sv : Server, sv.cat = catOf db1 → a.schema = defaultSchema ∨ a.schema ∈ sv.schemas → _ :=
        fun sv hc hs => (E.1 w2 sv hc).2 ((complete_iff_feasible c1.schema c2.schema hs).2 F)
      obtain ⟨ho, sts, _, hr, -⟩ := go { cat := catOf db1, schemas := [a.schema] } rfl (.inr (by simp))
      refine ⟨(writeAlters fr (compareDatabases (fun _ => false) db1 db2).1).1, Prod.ext rfl ho, sts, hr, fun sv hsv hsch => ?_⟩
      obtain ⟨-, sts', sv', hr', he, hc⟩ := go sv hsv hsch
      rw [hr, Option.some.injEq] at hr'
      subst hr'
      exact ⟨sv', he, hc⟩
  · intro e1 e2
    rw [diffMain_alters fr d a f1 f2 db1 db2 hv h1 h2 (.inr e2) hp1 hp2]
    simp only [e1, e2, if_true, Bool.false_eq_true, if_false, List.nil_append, writeAll_headed]
    constructor
    · rintro ⟨s, ho, sts, hr, hm⟩
      simp only [Prod.mk.injEq, DiffOut.alters.injEq, List.append_cancel_left_eq] at ho
      obtain ⟨rfl, ho⟩ := ho
      have hs : a.schema = defaultSchema ∨ a.schema ∈ [a.schema] := .inr (by simp)
      refine (complete_iff_feasible c2.schema c1.schema hs).1 ((E.2 w1 { cat := catOf db2, schemas := [a.schema] } rfl).1 ⟨ho, ?_⟩)
      obtain ⟨sv', he, hc⟩ := hm { cat := catOf db2, schemas := [a.schema] } rfl hs
      exact ⟨sts, sv', hr, he, hc⟩
    · intro F
      have go : ∀ sv : Server, sv.cat = catOf db2 → a.schema = defaultSchema ∨ a.schema ∈ sv.schemas → _ :=
        fun sv hc hs => (E.2 w1 sv hc).2 ((complete_iff_feasible c2.schema c1.schema hs).2 F)
      obtain ⟨ho, sts, _, hr, -⟩ := go { cat := catOf db2, schemas := [a.schema] } rfl (.inr (by simp))
      refine ⟨(writeAlters fr (compareDatabases (fun _ => false) db1 db2).2).1, Prod.ext rfl ho, sts, hr, fun sv hsv hsch => ?_⟩
      obtain ⟨-, sts', sv', hr', he, hc⟩ := go sv hsv hsch
      rw [hr, Option.some.injEq] at hr'
      subst hr'
      exact ⟨sv', he, hc⟩

/-- The sample of C76 meets the hypotheses of `C76_exactly`, and its changes are feasible in both directions. -/
example : NamesApart olderDb ∧ NamesApart newerDb ∧ Feasible FkReported olderDb newerDb ∧
    Feasible (fun b a => FkReported a b) newerDb olderDb := by
  have o : ∀ p ∈ olderDb.tables, p.2.fks = [] ∧ p.2.rels = [] := by decide
  have n : ∀ p ∈ newerDb.tables, p.2.fks = [] ∧ p.2.rels = [] := by decide
  have hb := bare_told o n
  refine ⟨fun _ _ ht _ _ _ hk => ?_, fun _ _ ht _ _ _ hk => ?_, ⟨fun _ _ _ _ g2 _ _ _ hk => ?_, hb.1.fks, hb.2.1, keyless (by decide)⟩,
    ⟨fun _ _ _ _ g2 _ _ _ hk => ?_, fun _ _ _ g1 _ _ _ _ hk => ?_, hb.2.2, keyless (by decide)⟩⟩
  · rw [(o _ ht).1] at hk; cases hk
  · rw [(n _ ht).1] at hk; cases hk
  · rw [(n _ g2).1] at hk; cases hk
  · rw [(o _ g2).1] at hk; cases hk
  · rw [(n _ g1).1] at hk; cases hk

end Verif.Props
