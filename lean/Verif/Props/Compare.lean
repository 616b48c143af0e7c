import Verif.Lemmas.CompareNodup
/-
C12-C16: what a comparison of two databases reports.
-/

namespace Verif.Props
open Verif Verif.Spec

/-! ## Two small tables used in the examples below -/

/-- A table with one column and a foreign key `a.x -> b.y`. -/
def tblA : Table :=
  { name := c!"a", schema := defaultSchema, pk := [], shard := none,
    cols := [(c!"x", ⟨c!"x", c!"BIGINT"⟩)],
    fks := [(c!"FK", ⟨c!"FK", c!"a", [c!"x"], c!"b", [c!"y"]⟩)], rels := [] }

/-- The table `tblA` refers to. -/
def tblB : Table :=
  { name := c!"b", schema := defaultSchema, pk := [c!"y"], shard := some ⟨[c!"y"], .int 8⟩,
    cols := [(c!"y", ⟨c!"y", c!"BIGINT"⟩), (c!"z", ⟨c!"z", c!"DATE"⟩)], fks := [], rels := [] }

/-- A database with a foreign key between differently named columns. -/
def dbFk : Database := (((Database.empty c!"d").addTable tblA).addTable tblB)

/-- The same with the foreign key between equally named columns. -/
def dbFkSame : Database :=
  ((Database.empty c!"d").addTable
    { tblA with fks := [(c!"FK", ⟨c!"FK", c!"a", [c!"x"], c!"b", [c!"x"]⟩)] }).addTable tblB

/-! ## C12 -/

theorem compare_equal_iff {db : Database} (h : WellKeyed db) (shared : Str → Bool) :
    compareDatabases shared db db = ([], []) ↔
      (∀ n t, TableOf db n t → ∀ m fk, (m, fk) ∈ t.fks → fk.fromKeys.Perm fk.toKeys) ∧
      (∀ n t, TableOf db n t → t.shard ≠ none → shared n = true) := by
  rw [compareDatabases_eq h h, concat_eq_nil_iff (by simp) (by simp)]
  simp only [true_and, iff_self, implies_true]
  have key : ∀ n t, db.tables.get? n = some t →
      (compareTables (shared t.name) db.name t db.name t = ([], []) ↔
        (∀ m fk, (m, fk) ∈ t.fks → fk.fromKeys.Perm fk.toKeys) ∧ (t.shard ≠ none → shared n = true)) := by
    intro n t ht
    have hk := tableKeyed_of_get? h ht
    have hn := name_of_get? h ht
    have hpk : comparePrimaryKeys db.name t db.name t = ([], []) := by simp [comparePrimaryKeys]
    have hcol : compareColumns db.name t db.name t = ([], []) := by
      rw [compareColumns_eq hk hk, concat_eq_nil_iff (by simp) (by simp)]
      refine ⟨by simp, fun m u v hu hv => ?_⟩
      rw [hu] at hv; cases hv; simp
    have hrel : compareRelationships db.name t db.name t = ([], []) := by
      rw [compareRelationships_eq hk hk, concat_eq_nil_iff (by simp) (by simp)]
      refine ⟨by simp, fun m u v hu hv => ?_⟩
      rw [hu] at hv; cases hv; simp [(relEq_iff u u).2 rfl]
    have hfk : compareForeignKeys db.name t db.name t = ([], []) ↔
        ∀ m fk, (m, fk) ∈ t.fks → fk.fromKeys.Perm fk.toKeys := by
      rw [compareForeignKeys_eq hk hk, concat_eq_nil_iff (by simp) (by simp)]
      simp only [iff_self, implies_true, true_and]
      constructor
      · intro hh m fk hm
        have := hh m fk fk (Dict.get?_of_mem hk.fks hm) (Dict.get?_of_mem hk.fks hm)
        by_cases he : fk.eq fk = true
        · exact ((fkEq_iff fk fk).1 he).2.2.1
        · simp [he] at this
      · intro hh m u v hu hv
        rw [hu] at hv; cases hv
        have := (fkEq_iff u u).2 ⟨rfl, rfl, hh m u (Dict.mem_of_get? hu), rfl⟩
        simp [this]
    have hsh : compareShardKeys (shared t.name) db.name t db.name t = ([], []) ↔ (t.shard ≠ none → shared n = true) := by
      unfold compareShardKeys
      rw [hn]
      cases hs : t.shard with
      | none => simp
      | some s => by_cases hn : shared n = true <;> simp [hn]
    rw [← hfk, ← hsh]
    unfold compareTables
    rw [hpk, hcol, hrel]
    cases compareForeignKeys db.name t db.name t with
    | mk f1 f2 =>
      cases compareShardKeys (shared t.name) db.name t db.name t with
      | mk s1 s2 => simp [Diffs.append]; tauto
  constructor
  · intro hh
    refine ⟨fun n t ht m fk hm => ?_, fun n t ht hs => ?_⟩
    · have ht' := (tableOf_iff h).1 ht
      exact ((key n t ht').1 (hh n t t ht' ht')).1 m fk hm
    · have ht' := (tableOf_iff h).1 ht
      exact ((key n t ht').1 (hh n t t ht' ht')).2 hs
  · rintro ⟨h1, h2⟩ n u v hu hv
    rw [hu] at hv; cases hv
    have ht := (tableOf_iff h).2 hu
    exact (key n u hu).2 ⟨h1 n u ht, h2 n u ht⟩

/-- C12: comparing a database with itself reports nothing exactly if every foreign key joins equally named columns.
Full claim: it always reports nothing.  Missing: databases with a foreign key between differently named columns, for which
the claim is false (`C12_self_compare_reports_foreign_key`). -/
theorem C12_self_compare_partial {db : Database} (h : WellKeyed db) :
    compareDatabases (fun _ => true) db db = ([], []) ↔
      ∀ n t, TableOf db n t → ∀ m fk, (m, fk) ∈ t.fks → fk.fromKeys.Perm fk.toKeys := by
  rw [compare_equal_iff h]; simp

example : WellKeyed dbFkSame ∧ compareDatabases (fun _ => true) dbFkSame dbFkSame = ([], []) := by decide

/-- C12 fails: `ForeignKey.__eq__` compares the from-columns with the object's own to-columns. -/
theorem C12_self_compare_reports_foreign_key :
    WellKeyed dbFk ∧ (compareDatabases (fun _ => true) dbFk dbFk).1 =
      [.fkDropped c!"d" tblA c!"FK", .fkAdded c!"d" tblA ⟨c!"FK", c!"a", [c!"x"], c!"b", [c!"y"]⟩] := by decide

/-! ## C13 -/

/-- Whether two foreign keys count as equal does not depend on which comes first. -/
def FksComparable (db1 db2 : Database) : Prop :=
  ∀ n t1 t2, TableOf db1 n t1 → TableOf db2 n t2 → ∀ m k1 k2, (m, k1) ∈ t1.fks → (m, k2) ∈ t2.fks →
    k1.fromTable = k2.fromTable → k1.toTable = k2.toTable → (k1.fromKeys.Perm k1.toKeys ↔ k2.fromKeys.Perm k2.toKeys)

/-- C13: swapping the databases swaps the reports.  Full claim: for every pair of databases.  Missing: pairs where a foreign
key between equally named columns meets one between differently named columns under the same name; there the claim is
false (`C13_swap_fails`). -/
theorem C13_swap_partial {db1 db2 : Database} (h1 : WellKeyed db1) (h2 : WellKeyed db2) (shared : Str → Bool)
    (hf : FksComparable db1 db2) :
    compareDatabases shared db2 db1 = (compareDatabases shared db1 db2).swap := by
  rw [compareDatabases_eq h1 h2, compareDatabases_eq h2 h1]
  apply concat_swap h1.tables h2.tables
  · intros; rfl
  · intros; rfl
  intro n t1 t2 ht1 ht2
  have k1 := tableKeyed_of_get? h1 ht1
  have k2 := tableKeyed_of_get? h2 ht2
  rw [name_of_get? h1 ht1, name_of_get? h2 ht2]
  have hpk : comparePrimaryKeys db2.name t2 db1.name t1 = (comparePrimaryKeys db1.name t1 db2.name t2).swap := by
    unfold comparePrimaryKeys
    by_cases e : t1.pk = t2.pk
    · simp [e]
    · have e' : t2.pk ≠ t1.pk := fun h => e h.symm
      by_cases e1 : t1.pk = [] <;> by_cases e2 : t2.pk = []
      · exact absurd (e1.trans e2.symm) e
      · simp [e1, e2]
      · simp [e1, e2]
      · simp [e, e', e1, e2]
  have hsh : compareShardKeys (shared n) db2.name t2 db1.name t1 =
      (compareShardKeys (shared n) db1.name t1 db2.name t2).swap := by
    unfold compareShardKeys
    cases t1.shard <;> cases t2.shard <;> simp
    split <;> rfl
  have hfk : compareForeignKeys db2.name t2 db1.name t1 = (compareForeignKeys db1.name t1 db2.name t2).swap := by
    rw [compareForeignKeys_eq k1 k2, compareForeignKeys_eq k2 k1]
    apply concat_swap k1.fks k2.fks
    · intros; rfl
    · intros; rfl
    · intro m u v hu hv
      have hm1 := Dict.mem_of_get? hu
      have hm2 := Dict.mem_of_get? hv
      have : v.eq u = u.eq v := by
        rw [Bool.eq_iff_iff, fkEq_iff, fkEq_iff]
        have := hf n t1 t2 ((tableOf_iff h1).2 ht1) ((tableOf_iff h2).2 ht2) m u v hm1 hm2
        constructor
        · rintro ⟨a, b, c, d⟩; exact ⟨a.symm, b.symm, (this b.symm d.symm).2 c, d.symm⟩
        · rintro ⟨a, b, c, d⟩; exact ⟨a.symm, b.symm, (this b d).1 c, d.symm⟩
      rw [this]
      split <;> rfl
  have hrel : compareRelationships db2.name t2 db1.name t1 = (compareRelationships db1.name t1 db2.name t2).swap := by
    rw [compareRelationships_eq k1 k2, compareRelationships_eq k2 k1]
    apply concat_swap k1.rels k2.rels
    · intros; rfl
    · intros; rfl
    · intro m u v hu hv
      have : v.eq u = u.eq v := by rw [Bool.eq_iff_iff, relEq_iff, relEq_iff]; exact eq_comm
      rw [this]
      split <;> rfl
  have hcol : compareColumns db2.name t2 db1.name t1 = (compareColumns db1.name t1 db2.name t2).swap := by
    rw [compareColumns_eq k1 k2, compareColumns_eq k2 k1]
    apply concat_swap k1.cols k2.cols
    · intros; rfl
    · intros; rfl
    · intro m u v hu hv
      by_cases e : u.type = v.type
      · simp [e]
      · simp [e, Ne.symm e]
  unfold compareTables
  rw [hpk, hsh, hfk, hrel, hcol]
  rfl

/-- `dbFk` with another target column and another column type. -/
def dbFk2 : Database :=
  (((Database.empty c!"e").addTable
    { tblA with cols := [(c!"x", ⟨c!"x", c!"DATE"⟩)]
                fks := [(c!"FK", ⟨c!"FK", c!"a", [c!"x"], c!"b", [c!"z"]⟩)] }).addTable tblB)

example : WellKeyed dbFk ∧ WellKeyed dbFk2 ∧ FksComparable dbFk dbFk2 ∧
    (compareDatabases (fun _ => false) dbFk dbFk2).1.length = 4 := by
  refine ⟨by decide, by decide, ?_, by decide⟩
  intro n t1 t2 h1 h2 m k1 k2 hk1 hk2 _ _
  simp only [TableOf, dbFk, dbFk2, Database.empty, Database.addTable, Dict.set, tblA, tblB, List.mem_cons,
    Prod.mk.injEq, List.not_mem_nil, or_false] at h1 h2
  simp (config := { decide := true }) only [if_false, List.mem_cons, Prod.mk.injEq, List.not_mem_nil, or_false] at h1 h2
  rcases h1 with ⟨rfl, rfl⟩ | ⟨rfl, rfl⟩ <;> rcases h2 with ⟨h, rfl⟩ | ⟨h, rfl⟩ <;>
    simp_all <;> decide

/-- C13 fails: one order reports the foreign key, the other does not. -/
theorem C13_swap_fails : WellKeyed dbFk ∧ WellKeyed dbFkSame ∧
    (compareDatabases (fun _ => true) dbFkSame dbFk).2 = [] ∧
    (compareDatabases (fun _ => true) dbFk dbFkSame).1 ≠ [] := by decide

/-! ## C14 -/

/-- C14: table entries are exact.  First list: dropped = only in `db1`, created = only in `db2`; second list the reverse; no
entry occurs twice. -/
theorem C14_table_differences {db1 db2 : Database} (h1 : WellKeyed db1) (h2 : WellKeyed db2) (shared : Str → Bool) :
    let d := compareDatabases shared db1 db2
    (∀ m t, Diff.tableDropped m t ∈ d.1 ↔ m = db1.name ∧ ∃ n, TableOf db1 n t ∧ ¬ ∃ u, TableOf db2 n u) ∧
    (∀ m t, Diff.tableCreated m t ∈ d.1 ↔ m = db1.name ∧ ∃ n, TableOf db2 n t ∧ ¬ ∃ u, TableOf db1 n u) ∧
    (∀ m t, Diff.tableDropped m t ∈ d.2 ↔ m = db2.name ∧ ∃ n, TableOf db2 n t ∧ ¬ ∃ u, TableOf db1 n u) ∧
    (∀ m t, Diff.tableCreated m t ∈ d.2 ↔ m = db2.name ∧ ∃ n, TableOf db1 n t ∧ ¬ ∃ u, TableOf db2 n u) ∧
    d.1.Nodup ∧ d.2.Nodup := by
  intro d
  suffices H : _ ∧ _ ∧ _ ∧ _ from ⟨H.1, H.2.1, H.2.2.1, H.2.2.2, compareDatabases_nodup h1 h2 shared⟩
  have hno : ∀ (n : Str) (t1 t2 : Table), db1.tables.get? n = some t1 → db2.tables.get? n = some t2 →
      ∀ m t, Diff.tableDropped m t ∉ (compareTables (shared t1.name) db1.name t1 db2.name t2).1 ∧
        Diff.tableCreated m t ∉ (compareTables (shared t1.name) db1.name t1 db2.name t2).1 ∧
        Diff.tableDropped m t ∉ (compareTables (shared t1.name) db1.name t1 db2.name t2).2 ∧
        Diff.tableCreated m t ∉ (compareTables (shared t1.name) db1.name t1 db2.name t2).2 := by
    intro n t1 t2 ht1 ht2 m t
    have k1 := tableKeyed_of_get? h1 ht1
    have k2 := tableKeyed_of_get? h2 ht2
    rw [mem_compareTables_fst, mem_compareTables_fst, mem_compareTables_snd, mem_compareTables_snd,
      compareForeignKeys_eq k1 k2, compareRelationships_eq k1 k2, compareColumns_eq k1 k2]
    simp only [mem_concat_fst, mem_concat_snd]
    unfold comparePrimaryKeys compareShardKeys
    refine ⟨?_, ?_, ?_, ?_⟩ <;>
    · rintro (h | h | h | h | h)
      · split at h
        · split at h
          · simp at h
          · split at h <;> simp at h
        · simp at h
      · split at h
        · simp at h
        · simp at h
        · simp at h
        · split at h <;> simp at h
      all_goals
        rcases h with ⟨_, _, _, _, h⟩ | ⟨_, _, _, _, h⟩ | ⟨_, _, _, _, _, h⟩
        · simp at h
        · simp at h
        · split at h <;> simp at h
  have e1 := compareDatabases_eq h1 h2 shared
  refine ⟨fun m t => ?_, fun m t => ?_, fun m t => ?_, fun m t => ?_⟩
  all_goals
    simp only [d, e1, mem_concat_fst, mem_concat_snd, tableOf_iff h1, tableOf_iff h2]
    simp only [← tableOf_iff h1, ← tableOf_iff h2, no_tableOf_iff]
    simp only [tableOf_iff h1, tableOf_iff h2]
    constructor
    · rintro (⟨n, u, hu, hv, h⟩ | ⟨n, u, hu, hv, h⟩ | ⟨n, u, v, hu, hv, h⟩)
      · simp at h
        try (obtain ⟨rfl, rfl⟩ := h; exact ⟨rfl, n, by assumption, by assumption⟩)
      · simp at h
        try (obtain ⟨rfl, rfl⟩ := h; exact ⟨rfl, n, by assumption, by assumption⟩)
      · have := hno n u v hu hv m t
        tauto
    · rintro ⟨rfl, n, hu, hv⟩
      first
        | exact .inl ⟨n, t, hu, hv, by simp⟩
        | exact .inr (.inl ⟨n, t, hv, hu, by simp⟩)

example : (compareDatabases (fun _ => false) dbFk
    ((Database.empty c!"e").addTable { tblB with name := c!"c" })).1 =
      [.tableDropped c!"d" tblA, .tableDropped c!"d" tblB, .tableCreated c!"d" { tblB with name := c!"c" }] := by decide

/-! ## C15 -/

/-- C15: column entries of a common table are exact, and entries below table level concern common tables only.  (No entry
occurs twice: last part of `C14_table_differences`.) -/
theorem C15_column_differences {db1 db2 : Database} (h1 : WellKeyed db1) (h2 : WellKeyed db2) (shared : Str → Bool)
    (n : Str) (t1 t2 : Table) (ht1 : TableOf db1 n t1) (ht2 : TableOf db2 n t2) (m : Str) (c : Column) :
    let d := compareDatabases shared db1 db2
    (Diff.colAdded m t1 c ∈ d.1 ↔ m = db1.name ∧ ∃ k, ColumnOf t2 k c ∧ ¬ ∃ c', ColumnOf t1 k c') ∧
    (Diff.colDropped m t1 c ∈ d.1 ↔ m = db1.name ∧ ∃ k, ColumnOf t1 k c ∧ ¬ ∃ c', ColumnOf t2 k c') ∧
    (Diff.colModified m t1 c ∈ d.1 ↔ m = db1.name ∧ ∃ k c', ColumnOf t1 k c' ∧ ColumnOf t2 k c ∧ c'.type ≠ c.type) ∧
    (Diff.colAdded m t2 c ∈ d.2 ↔ m = db2.name ∧ ∃ k, ColumnOf t1 k c ∧ ¬ ∃ c', ColumnOf t2 k c') ∧
    (Diff.colDropped m t2 c ∈ d.2 ↔ m = db2.name ∧ ∃ k, ColumnOf t2 k c ∧ ¬ ∃ c', ColumnOf t1 k c') ∧
    (Diff.colModified m t2 c ∈ d.2 ↔ m = db2.name ∧ ∃ k c', ColumnOf t2 k c' ∧ ColumnOf t1 k c ∧ c'.type ≠ c.type) := by
  intro d
  have g1 := (tableOf_iff h1).1 ht1
  have g2 := (tableOf_iff h2).1 ht2
  have k1 := tableKeyed_of_get? h1 g1
  have k2 := tableKeyed_of_get? h2 g2
  obtain ⟨a1, a2, a3, a4, a5, a6, a7, a8, -, -⟩ :=
    kinds_compare (m1 := db1.name) (m2 := db2.name) (same := shared n) k1 k2
  have red1 : ∀ x : Diff, x.kind = 5 → x.table = t1 → (x ∈ d.1 ↔ x ∈ (compareColumns db1.name t1 db2.name t2).1) := by
    intro x hx ht
    rw [(mem_common h1 h2 shared g1 g2 x (by omega)).1 ht, mem_compareTables_fst]
    have b0 := fun h => (a1 x h).1
    have b1 := fun h => (a3 x h).1
    have b2 := fun h => (a5 x h).1
    have b3 := fun h => (a7 x h).1
    rw [hx] at b0 b1 b2 b3
    simp only [Nat.reduceEqDiff, imp_false] at b0 b1 b2 b3
    tauto
  have red2 : ∀ x : Diff, x.kind = 5 → x.table = t2 → (x ∈ d.2 ↔ x ∈ (compareColumns db1.name t1 db2.name t2).2) := by
    intro x hx ht
    rw [(mem_common h1 h2 shared g1 g2 x (by omega)).2 ht, mem_compareTables_snd]
    have b0 := fun h => (a2 x h).1
    have b1 := fun h => (a4 x h).1
    have b2 := fun h => (a6 x h).1
    have b3 := fun h => (a8 x h).1
    rw [hx] at b0 b1 b2 b3
    simp only [Nat.reduceEqDiff, imp_false] at b0 b1 b2 b3
    tauto
  rw [red1 _ rfl rfl, red1 _ rfl rfl, red1 _ rfl rfl, red2 _ rfl rfl, red2 _ rfl rfl, red2 _ rfl rfl,
    compareColumns_eq k1 k2]
  simp only [mem_concat_fst, mem_concat_snd, ColumnOf, no_mem_iff]
  simp only [Dict.mem_iff_get? k1.cols, Dict.mem_iff_get? k2.cols]
  refine ⟨?_, ?_, ?_, ?_, ?_, ?_⟩
  all_goals
    constructor
    · rintro (⟨k, u, hu, hv, h⟩ | ⟨k, u, hu, hv, h⟩ | ⟨k, u, v, hu, hv, h⟩)
      · simp at h
        try (obtain ⟨rfl, rfl⟩ := h; exact ⟨rfl, k, by assumption, by assumption⟩)
      · simp at h
        try (obtain ⟨rfl, rfl⟩ := h; exact ⟨rfl, k, by assumption, by assumption⟩)
      · split at h
        · rename_i hne
          simp at h
          try (obtain ⟨rfl, rfl⟩ := h; exact ⟨rfl, k, _, hu, hv, hne⟩)
          try (obtain ⟨rfl, rfl⟩ := h; exact ⟨rfl, k, _, hv, hu, Ne.symm hne⟩)
        · simp at h
  · rintro ⟨rfl, k, hu, hv⟩; exact .inr (.inl ⟨k, c, hv, hu, by simp⟩)
  · rintro ⟨rfl, k, hu, hv⟩; exact .inl ⟨k, c, hu, hv, by simp⟩
  · rintro ⟨rfl, k, c', hu, hv, hne⟩; exact .inr (.inr ⟨k, c', c, hu, hv, by simp [hne]⟩)
  · rintro ⟨rfl, k, hu, hv⟩; exact .inl ⟨k, c, hu, hv, by simp⟩
  · rintro ⟨rfl, k, hu, hv⟩; exact .inr (.inl ⟨k, c, hv, hu, by simp⟩)
  · rintro ⟨rfl, k, c', hu, hv, hne⟩; exact .inr (.inr ⟨k, c, c', hv, hu, by simp [Ne.symm hne]⟩)

/-- C15, second half: entries below table level concern tables of both databases only. -/
theorem C15_only_common_tables {db1 db2 : Database} (h1 : WellKeyed db1) (h2 : WellKeyed db2) (shared : Str → Bool)
    (m : Str) (t : Table) (c : Column) (x : Diff)
    (hx : x ∈ [Diff.colAdded m t c, Diff.colDropped m t c, Diff.colModified m t c]) :
    (x ∈ (compareDatabases shared db1 db2).1 → ∃ n u, TableOf db1 n t ∧ TableOf db2 n u) ∧
    (x ∈ (compareDatabases shared db1 db2).2 → ∃ n u, TableOf db2 n t ∧ TableOf db1 n u) := by
  have hk : x.kind = 5 ∧ x.table = t := by
    simp at hx; rcases hx with rfl | rfl | rfl <;> exact ⟨rfl, rfl⟩
  have := common_of_mem h1 h2 shared x (by omega)
  rw [hk.2] at this
  constructor
  · intro h
    obtain ⟨n, u, a, b⟩ := this.1 h
    exact ⟨n, u, (tableOf_iff h1).2 a, (tableOf_iff h2).2 b⟩
  · intro h
    obtain ⟨n, u, a, b⟩ := this.2 h
    exact ⟨n, u, (tableOf_iff h2).2 b, (tableOf_iff h1).2 a⟩

/-- `tblB` with one column gone, one added and one of another type. -/
def tblB2 : Table :=
  { tblB with cols := [(c!"y", ⟨c!"y", c!"DOUBLE"⟩), (c!"w", ⟨c!"w", c!"BOOL"⟩)] }

example : (compareDatabases (fun _ => true) ((Database.empty c!"d").addTable tblB)
    ((Database.empty c!"e").addTable tblB2)).1 =
      [.colAdded c!"d" tblB ⟨c!"w", c!"BOOL"⟩, .colModified c!"d" tblB ⟨c!"y", c!"DOUBLE"⟩,
       .colDropped c!"d" tblB ⟨c!"z", c!"DATE"⟩] := by decide

/-! ## C16 -/

/-- C16, primary keys: reported exactly when different; the old key is dropped if there is one, the other side's key is
added if there is one. -/
theorem C16_primary_key {db1 db2 : Database} (h1 : WellKeyed db1) (h2 : WellKeyed db2) (shared : Str → Bool)
    (n : Str) (t1 t2 : Table) (ht1 : TableOf db1 n t1) (ht2 : TableOf db2 n t2) (m : Str)
    (k : List Str) :
    let d := compareDatabases shared db1 db2
    (Diff.pkAdded m t1 k ∈ d.1 ↔ m = db1.name ∧ t1.pk ≠ t2.pk ∧ t2.pk ≠ [] ∧ k = t2.pk) ∧
    (Diff.pkDropped m t1 ∈ d.1 ↔ m = db1.name ∧ t1.pk ≠ t2.pk ∧ t1.pk ≠ []) ∧
    (Diff.pkAdded m t2 k ∈ d.2 ↔ m = db2.name ∧ t1.pk ≠ t2.pk ∧ t1.pk ≠ [] ∧ k = t1.pk) ∧
    (Diff.pkDropped m t2 ∈ d.2 ↔ m = db2.name ∧ t1.pk ≠ t2.pk ∧ t2.pk ≠ []) := by
  intro d
  have g1 := (tableOf_iff h1).1 ht1
  have g2 := (tableOf_iff h2).1 ht2
  have k1 := tableKeyed_of_get? h1 g1
  have k2 := tableKeyed_of_get? h2 g2
  obtain ⟨a1, a2, a3, a4, a5, a6, a7, a8, a9, a10⟩ :=
    kinds_compare (m1 := db1.name) (m2 := db2.name) (same := shared n) k1 k2
  have red1 : ∀ x : Diff, x.kind = 1 → x.table = t1 → (x ∈ d.1 ↔ x ∈ (comparePrimaryKeys db1.name t1 db2.name t2).1) := by
    intro x hx ht
    rw [(mem_common h1 h2 shared g1 g2 x (by omega)).1 ht, mem_compareTables_fst]
    have b0 := fun h => (a3 x h).1
    have b1 := fun h => (a5 x h).1
    have b2 := fun h => (a7 x h).1
    have b3 := fun h => (a9 x h).1
    rw [hx] at b0 b1 b2 b3
    simp only [Nat.reduceEqDiff, imp_false] at b0 b1 b2 b3
    tauto
  have red2 : ∀ x : Diff, x.kind = 1 → x.table = t2 → (x ∈ d.2 ↔ x ∈ (comparePrimaryKeys db1.name t1 db2.name t2).2) := by
    intro x hx ht
    rw [(mem_common h1 h2 shared g1 g2 x (by omega)).2 ht, mem_compareTables_snd]
    have b0 := fun h => (a4 x h).1
    have b1 := fun h => (a6 x h).1
    have b2 := fun h => (a8 x h).1
    have b3 := fun h => (a10 x h).1
    rw [hx] at b0 b1 b2 b3
    simp only [Nat.reduceEqDiff, imp_false] at b0 b1 b2 b3
    tauto
  rw [red1 _ rfl rfl, red1 _ rfl rfl, red2 _ rfl rfl, red2 _ rfl rfl]
  unfold comparePrimaryKeys
  by_cases e : t1.pk = t2.pk
  · simp [e]
  · by_cases e1 : t1.pk = [] <;> by_cases e2 : t2.pk = []
    · exact absurd (e1.trans e2.symm) e
    · simp [e1, e2, Ne.symm e2]
    · simp [e1, e2]
    · simp [e, e1, e2]

/-- C16, relationships: exact; a changed relationship is dropped and added with the other side's definition. -/
theorem C16_relationships {db1 db2 : Database} (h1 : WellKeyed db1) (h2 : WellKeyed db2) (shared : Str → Bool)
    (n : Str) (t1 t2 : Table) (ht1 : TableOf db1 n t1) (ht2 : TableOf db2 n t2) (m : Str)
    (r : Rel) (k : Str) :
    let d := compareDatabases shared db1 db2
    (Diff.relAdded m t1 r ∈ d.1 ↔ m = db1.name ∧ (r.name, r) ∈ t2.rels ∧ (r.name, r) ∉ t1.rels) ∧
    (Diff.relDropped m t1 k ∈ d.1 ↔ m = db1.name ∧ ∃ r', (k, r') ∈ t1.rels ∧ (k, r') ∉ t2.rels) ∧
    (Diff.relAdded m t2 r ∈ d.2 ↔ m = db2.name ∧ (r.name, r) ∈ t1.rels ∧ (r.name, r) ∉ t2.rels) ∧
    (Diff.relDropped m t2 k ∈ d.2 ↔ m = db2.name ∧ ∃ r', (k, r') ∈ t2.rels ∧ (k, r') ∉ t1.rels) := by
  intro d
  have g1 := (tableOf_iff h1).1 ht1
  have g2 := (tableOf_iff h2).1 ht2
  have k1 := tableKeyed_of_get? h1 g1
  have k2 := tableKeyed_of_get? h2 g2
  obtain ⟨a1, a2, a3, a4, a5, a6, a7, a8, a9, a10⟩ :=
    kinds_compare (m1 := db1.name) (m2 := db2.name) (same := shared n) k1 k2
  have red1 : ∀ x : Diff, x.kind = 4 → x.table = t1 → (x ∈ d.1 ↔ x ∈ (compareRelationships db1.name t1 db2.name t2).1) := by
    intro x hx ht
    rw [(mem_common h1 h2 shared g1 g2 x (by omega)).1 ht, mem_compareTables_fst]
    have b0 := fun h => (a1 x h).1
    have b1 := fun h => (a3 x h).1
    have b2 := fun h => (a5 x h).1
    have b3 := fun h => (a9 x h).1
    rw [hx] at b0 b1 b2 b3
    simp only [Nat.reduceEqDiff, imp_false] at b0 b1 b2 b3
    tauto
  have red2 : ∀ x : Diff, x.kind = 4 → x.table = t2 → (x ∈ d.2 ↔ x ∈ (compareRelationships db1.name t1 db2.name t2).2) := by
    intro x hx ht
    rw [(mem_common h1 h2 shared g1 g2 x (by omega)).2 ht, mem_compareTables_snd]
    have b0 := fun h => (a2 x h).1
    have b1 := fun h => (a4 x h).1
    have b2 := fun h => (a6 x h).1
    have b3 := fun h => (a10 x h).1
    rw [hx] at b0 b1 b2 b3
    simp only [Nat.reduceEqDiff, imp_false] at b0 b1 b2 b3
    tauto
  rw [red1 _ rfl rfl, red1 _ rfl rfl, red2 _ rfl rfl, red2 _ rfl rfl, compareRelationships_eq k1 k2]
  simp only [mem_concat_fst, mem_concat_snd, Dict.mem_iff_get? k1.rels, Dict.mem_iff_get? k2.rels]
  have n1 : ∀ k u, t1.rels.get? k = some u → u.name = k := fun k u h => (k1.relNames _ (Dict.mem_of_get? h)).symm
  have n2 : ∀ k u, t2.rels.get? k = some u → u.name = k := fun k u h => (k2.relNames _ (Dict.mem_of_get? h)).symm
  refine ⟨?_, ?_, ?_, ?_⟩
  · constructor
    · rintro (⟨k, u, hu, hv, h⟩ | ⟨k, u, hu, hv, h⟩ | ⟨k, u, v, hu, hv, h⟩)
      · simp at h
      · simp at h; obtain ⟨rfl, rfl⟩ := h
        have := n2 k r hv; subst this; simp [hu, hv]
      · split at h
        · rename_i hne
          simp at h; obtain ⟨rfl, rfl⟩ := h
          have := n2 k r hv; subst this
          rw [relEq_iff] at hne
          simp [hu, hv, hne]
        · simp at h
    · rintro ⟨rfl, hv, hu⟩
      cases hg : t1.rels.get? r.name with
      | none => exact .inr (.inl ⟨_, r, hg, hv, by simp⟩)
      | some u =>
        refine .inr (.inr ⟨_, u, r, hg, hv, ?_⟩)
        have : ¬ u.eq r = true := by rw [relEq_iff]; rintro rfl; exact hu hg
        simp [this]
  · constructor
    · rintro (⟨k', u, hu, hv, h⟩ | ⟨k', u, hu, hv, h⟩ | ⟨k', u, v, hu, hv, h⟩)
      · simp at h; obtain ⟨rfl, rfl⟩ := h
        have := n1 k' u hu; subst this; exact ⟨rfl, u, hu, by simp [hv]⟩
      · simp at h
      · split at h
        · rename_i hne
          simp at h; obtain ⟨rfl, rfl⟩ := h
          have := n1 k' u hu; subst this
          rw [relEq_iff] at hne
          refine ⟨rfl, u, hu, ?_⟩
          rw [hv]; simpa using Ne.symm hne
        · simp at h
    · rintro ⟨rfl, u, hu, hv⟩
      have := n1 k u hu; subst this
      cases hg : t2.rels.get? u.name with
      | none => exact .inl ⟨_, u, hu, hg, by simp⟩
      | some v =>
        refine .inr (.inr ⟨_, u, v, hu, hg, ?_⟩)
        have : ¬ u.eq v = true := by rw [relEq_iff]; rintro rfl; exact hv hg
        simp [this]
  · constructor
    · rintro (⟨k, u, hu, hv, h⟩ | ⟨k, u, hu, hv, h⟩ | ⟨k, u, v, hu, hv, h⟩)
      · simp at h; obtain ⟨rfl, rfl⟩ := h
        have := n1 k r hu; subst this; simp [hu, hv]
      · simp at h
      · split at h
        · rename_i hne
          simp at h; obtain ⟨rfl, rfl⟩ := h
          have := n1 k r hu; subst this
          rw [relEq_iff] at hne
          simp [hu, hv, Ne.symm hne]
        · simp at h
    · rintro ⟨rfl, hu, hv⟩
      cases hg : t2.rels.get? r.name with
      | none => exact .inl ⟨_, r, hu, hg, by simp⟩
      | some v =>
        refine .inr (.inr ⟨_, r, v, hu, hg, ?_⟩)
        have : ¬ r.eq v = true := by rw [relEq_iff]; rintro rfl; exact hv hg
        simp [this]
  · constructor
    · rintro (⟨k', u, hu, hv, h⟩ | ⟨k', u, hu, hv, h⟩ | ⟨k', u, v, hu, hv, h⟩)
      · simp at h
      · simp at h; obtain ⟨rfl, rfl⟩ := h
        have := n2 k' u hv; subst this; exact ⟨rfl, u, hv, by simp [hu]⟩
      · split at h
        · rename_i hne
          simp at h; obtain ⟨rfl, rfl⟩ := h
          have := n2 k' v hv; subst this
          rw [relEq_iff] at hne
          refine ⟨rfl, v, hv, ?_⟩
          rw [hu]; simpa using hne
        · simp at h
    · rintro ⟨rfl, v, hv, hu⟩
      have := n2 k v hv; subst this
      cases hg : t1.rels.get? v.name with
      | none => exact .inr (.inl ⟨_, v, hg, hv, by simp⟩)
      | some u =>
        refine .inr (.inr ⟨_, u, v, hg, hv, ?_⟩)
        have : ¬ u.eq v = true := by rw [relEq_iff]; rintro rfl; exact hu hg
        simp [this]

/-- C16, shard keys.  Full claim: an entry appears exactly when the shard keys differ.  What holds: if only one side has a
shard key the entries are exact; if both have one, both lists get a set entry with the other side's definition unless
the two tables share one `ShardKey` object, so equal shard keys are reported too
(`C16_equal_shard_keys_reported`). -/
theorem C16_shard_key_partial {db1 db2 : Database} (h1 : WellKeyed db1) (h2 : WellKeyed db2) (shared : Str → Bool)
    (n : Str) (t1 t2 : Table) (ht1 : TableOf db1 n t1) (ht2 : TableOf db2 n t2) (m : Str)
    (c : ShardCount) (k : List Str) :
    let d := compareDatabases shared db1 db2
    (Diff.shardAdded m t1 c k ∈ d.1 ↔ m = db1.name ∧ t2.shard = some ⟨k, c⟩ ∧ (t1.shard = none ∨ shared n = false)) ∧
    (Diff.shardDropped m t1 ∈ d.1 ↔ m = db1.name ∧ t1.shard ≠ none ∧ t2.shard = none) ∧
    (Diff.shardAdded m t2 c k ∈ d.2 ↔ m = db2.name ∧ t1.shard = some ⟨k, c⟩ ∧ (t2.shard = none ∨ shared n = false)) ∧
    (Diff.shardDropped m t2 ∈ d.2 ↔ m = db2.name ∧ t2.shard ≠ none ∧ t1.shard = none) := by
  intro d
  have g1 := (tableOf_iff h1).1 ht1
  have g2 := (tableOf_iff h2).1 ht2
  have k1 := tableKeyed_of_get? h1 g1
  have k2 := tableKeyed_of_get? h2 g2
  obtain ⟨a1, a2, a3, a4, a5, a6, a7, a8, a9, a10⟩ :=
    kinds_compare (m1 := db1.name) (m2 := db2.name) (same := shared n) k1 k2
  have red1 : ∀ x : Diff, x.kind = 2 → x.table = t1 → (x ∈ d.1 ↔ x ∈ (compareShardKeys (shared n) db1.name t1 db2.name t2).1) := by
    intro x hx ht
    rw [(mem_common h1 h2 shared g1 g2 x (by omega)).1 ht, mem_compareTables_fst]
    have b0 := fun h => (a1 x h).1
    have b1 := fun h => (a5 x h).1
    have b2 := fun h => (a7 x h).1
    have b3 := fun h => (a9 x h).1
    rw [hx] at b0 b1 b2 b3
    simp only [Nat.reduceEqDiff, imp_false] at b0 b1 b2 b3
    tauto
  have red2 : ∀ x : Diff, x.kind = 2 → x.table = t2 → (x ∈ d.2 ↔ x ∈ (compareShardKeys (shared n) db1.name t1 db2.name t2).2) := by
    intro x hx ht
    rw [(mem_common h1 h2 shared g1 g2 x (by omega)).2 ht, mem_compareTables_snd]
    have b0 := fun h => (a2 x h).1
    have b1 := fun h => (a6 x h).1
    have b2 := fun h => (a8 x h).1
    have b3 := fun h => (a10 x h).1
    rw [hx] at b0 b1 b2 b3
    simp only [Nat.reduceEqDiff, imp_false] at b0 b1 b2 b3
    tauto
  rw [red1 _ rfl rfl, red1 _ rfl rfl, red2 _ rfl rfl, red2 _ rfl rfl]
  unfold compareShardKeys
  cases e1 : t1.shard with
  | none =>
    cases e2 : t2.shard with
    | none => simp
    | some s2 => cases s2; simp; tauto
  | some s1 =>
    cases e2 : t2.shard with
    | none => cases s1; simp; tauto
    | some s2 =>
      cases s1; cases s2
      by_cases hs : shared n = true
      · simp [hs]
      · simp [hs]; tauto

/-- C16 fails for shard keys: the same sharding on both sides is reported as a change. -/
theorem C16_equal_shard_keys_reported :
    (compareDatabases (fun _ => false) ((Database.empty c!"d").addTable tblB) ((Database.empty c!"d").addTable tblB)).1 =
      [.shardAdded c!"d" tblB (.int 8) [c!"y"]] := by decide

/-- Two foreign keys under the same name that `ForeignKey.__eq__` tells apart, in terms of the first one's columns. -/
def FkReported (a b : FK) : Prop :=
  a.fromTable ≠ b.fromTable ∨ a.toTable ≠ b.toTable ∨ ¬ a.fromKeys.Perm a.toKeys

/-- C16, foreign keys.  Full claim: an entry appears exactly when the foreign keys differ.  What holds: missing foreign keys
are reported exactly; one that is on both sides is reported (dropped and added with the other side's definition) iff
`FkReported`, which ignores the second side's columns: changes can go unreported
(`C16_changed_foreign_key_not_reported`) and equal ones be reported (`C12_self_compare_reports_foreign_key`). -/
theorem C16_foreign_keys_partial {db1 db2 : Database} (h1 : WellKeyed db1) (h2 : WellKeyed db2) (shared : Str → Bool)
    (n : Str) (t1 t2 : Table) (ht1 : TableOf db1 n t1) (ht2 : TableOf db2 n t2) (m : Str)
    (fk : FK) (k : Str) :
    let d := compareDatabases shared db1 db2
    (Diff.fkAdded m t1 fk ∈ d.1 ↔ m = db1.name ∧ (fk.name, fk) ∈ t2.fks ∧
      ∀ a, (fk.name, a) ∈ t1.fks → FkReported a fk) ∧
    (Diff.fkDropped m t1 k ∈ d.1 ↔ m = db1.name ∧ ∃ a, (k, a) ∈ t1.fks ∧ ∀ b, (k, b) ∈ t2.fks → FkReported a b) ∧
    (Diff.fkAdded m t2 fk ∈ d.2 ↔ m = db2.name ∧ (fk.name, fk) ∈ t1.fks ∧
      ∀ b, (fk.name, b) ∈ t2.fks → FkReported fk b) ∧
    (Diff.fkDropped m t2 k ∈ d.2 ↔ m = db2.name ∧ ∃ b, (k, b) ∈ t2.fks ∧ ∀ a, (k, a) ∈ t1.fks → FkReported a b) := by
  intro d
  have g1 := (tableOf_iff h1).1 ht1
  have g2 := (tableOf_iff h2).1 ht2
  have k1 := tableKeyed_of_get? h1 g1
  have k2 := tableKeyed_of_get? h2 g2
  obtain ⟨a1, a2, a3, a4, a5, a6, a7, a8, a9, a10⟩ :=
    kinds_compare (m1 := db1.name) (m2 := db2.name) (same := shared n) k1 k2
  have red1 : ∀ x : Diff, x.kind = 3 → x.table = t1 → (x ∈ d.1 ↔ x ∈ (compareForeignKeys db1.name t1 db2.name t2).1) := by
    intro x hx ht
    rw [(mem_common h1 h2 shared g1 g2 x (by omega)).1 ht, mem_compareTables_fst]
    have b0 := fun h => (a1 x h).1
    have b1 := fun h => (a3 x h).1
    have b2 := fun h => (a7 x h).1
    have b3 := fun h => (a9 x h).1
    rw [hx] at b0 b1 b2 b3
    simp only [Nat.reduceEqDiff, imp_false] at b0 b1 b2 b3
    tauto
  have red2 : ∀ x : Diff, x.kind = 3 → x.table = t2 → (x ∈ d.2 ↔ x ∈ (compareForeignKeys db1.name t1 db2.name t2).2) := by
    intro x hx ht
    rw [(mem_common h1 h2 shared g1 g2 x (by omega)).2 ht, mem_compareTables_snd]
    have b0 := fun h => (a2 x h).1
    have b1 := fun h => (a4 x h).1
    have b2 := fun h => (a8 x h).1
    have b3 := fun h => (a10 x h).1
    rw [hx] at b0 b1 b2 b3
    simp only [Nat.reduceEqDiff, imp_false] at b0 b1 b2 b3
    tauto
  rw [red1 _ rfl rfl, red1 _ rfl rfl, red2 _ rfl rfl, red2 _ rfl rfl, compareForeignKeys_eq k1 k2]
  simp only [mem_concat_fst, mem_concat_snd, Dict.mem_iff_get? k1.fks, Dict.mem_iff_get? k2.fks]
  have n1 : ∀ k u, t1.fks.get? k = some u → u.name = k := fun k u h => (k1.fkNames _ (Dict.mem_of_get? h)).symm
  have n2 : ∀ k u, t2.fks.get? k = some u → u.name = k := fun k u h => (k2.fkNames _ (Dict.mem_of_get? h)).symm
  have hr : ∀ k u v, t1.fks.get? k = some u → t2.fks.get? k = some v → (¬ u.eq v = true ↔ FkReported u v) := by
    intro k u v hu hv
    rw [fkEq_iff]
    have := (n1 k u hu).trans (n2 k v hv).symm
    unfold FkReported
    tauto
  refine ⟨?_, ?_, ?_, ?_⟩
  · constructor
    · rintro (⟨k, u, hu, hv, h⟩ | ⟨k, u, hu, hv, h⟩ | ⟨k, u, v, hu, hv, h⟩)
      · simp at h
      · simp at h; obtain ⟨rfl, rfl⟩ := h
        have := n2 k fk hv; subst this; simp [hu, hv]
      · split at h
        · rename_i hne
          simp at h; obtain ⟨rfl, rfl⟩ := h
          have := n2 k fk hv; subst this
          rw [hr _ _ _ hu hv] at hne
          simp [hu, hv, hne]
        · simp at h
    · rintro ⟨rfl, hv, hu⟩
      cases hg : t1.fks.get? fk.name with
      | none => exact .inr (.inl ⟨_, fk, hg, hv, by simp⟩)
      | some u =>
        refine .inr (.inr ⟨_, u, fk, hg, hv, ?_⟩)
        have := (hr _ _ _ hg hv).2 (hu u hg)
        simp [this]
  · constructor
    · rintro (⟨k', u, hu, hv, h⟩ | ⟨k', u, hu, hv, h⟩ | ⟨k', u, v, hu, hv, h⟩)
      · simp at h; obtain ⟨rfl, rfl⟩ := h
        have := n1 k' u hu; subst this; exact ⟨rfl, u, hu, by simp [hv]⟩
      · simp at h
      · split at h
        · rename_i hne
          simp at h; obtain ⟨rfl, rfl⟩ := h
          have := n1 k' u hu; subst this
          rw [hr _ _ _ hu hv] at hne
          refine ⟨rfl, u, hu, ?_⟩
          simpa [hv] using hne
        · simp at h
    · rintro ⟨rfl, u, hu, hv⟩
      have := n1 k u hu; subst this
      cases hg : t2.fks.get? u.name with
      | none => exact .inl ⟨_, u, hu, hg, by simp⟩
      | some v =>
        refine .inr (.inr ⟨_, u, v, hu, hg, ?_⟩)
        have := (hr _ _ _ hu hg).2 (hv v hg)
        simp [this]
  · constructor
    · rintro (⟨k, u, hu, hv, h⟩ | ⟨k, u, hu, hv, h⟩ | ⟨k, u, v, hu, hv, h⟩)
      · simp at h; obtain ⟨rfl, rfl⟩ := h
        have := n1 k fk hu; subst this; simp [hu, hv]
      · simp at h
      · split at h
        · rename_i hne
          simp at h; obtain ⟨rfl, rfl⟩ := h
          have := n1 k fk hu; subst this
          rw [hr _ _ _ hu hv] at hne
          simp [hu, hv, hne]
        · simp at h
    · rintro ⟨rfl, hu, hv⟩
      cases hg : t2.fks.get? fk.name with
      | none => exact .inl ⟨_, fk, hu, hg, by simp⟩
      | some v =>
        refine .inr (.inr ⟨_, fk, v, hu, hg, ?_⟩)
        have := (hr _ _ _ hu hg).2 (hv v hg)
        simp [this]
  · constructor
    · rintro (⟨k', u, hu, hv, h⟩ | ⟨k', u, hu, hv, h⟩ | ⟨k', u, v, hu, hv, h⟩)
      · simp at h
      · simp at h; obtain ⟨rfl, rfl⟩ := h
        have := n2 k' u hv; subst this; exact ⟨rfl, u, hv, by simp [hu]⟩
      · split at h
        · rename_i hne
          simp at h; obtain ⟨rfl, rfl⟩ := h
          have := n2 k' v hv; subst this
          rw [hr _ _ _ hu hv] at hne
          refine ⟨rfl, v, hv, ?_⟩
          simpa [hu] using hne
        · simp at h
    · rintro ⟨rfl, v, hv, hu⟩
      have := n2 k v hv; subst this
      cases hg : t1.fks.get? v.name with
      | none => exact .inr (.inl ⟨_, v, hg, hv, by simp⟩)
      | some u =>
        refine .inr (.inr ⟨_, u, v, hg, hv, ?_⟩)
        have := (hr _ _ _ hg hv).2 (hu u hg)
        simp [this]

/-- C16 fails for foreign keys: a foreign key that now joins other columns is not reported. -/
theorem C16_changed_foreign_key_not_reported :
    compareDatabases (fun _ => true) dbFkSame dbFk = ([], []) ∧ dbFkSame ≠ dbFk := by decide

/-- Two tables that differ in every kind of key. -/
example :
    let t1 : Table := { tblA with pk := [c!"x"], rels := [(c!"R", ⟨c!"R", c!"a", c!"b", c!"a.x = b.y"⟩)] }
    let t2 : Table := { tblA with shard := some ⟨[c!"x"], .int 4⟩, fks := [],
                                  rels := [(c!"R", ⟨c!"R", c!"a", c!"b", c!"a.x < b.y"⟩)] }
    (compareDatabases (fun _ => false) ((Database.empty c!"d").addTable t1) ((Database.empty c!"e").addTable t2)).1 =
      [.pkDropped c!"d" t1, .shardAdded c!"d" t1 (.int 4) [c!"x"], .fkDropped c!"d" t1 c!"FK",
       .relDropped c!"d" t1 c!"R", .relAdded c!"d" t1 ⟨c!"R", c!"a", c!"b", c!"a.x < b.y"⟩] := by decide

end Verif.Props
