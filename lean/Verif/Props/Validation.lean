import Verif.Lemmas.Validator
import Verif.Lemmas.Shown
import Verif.Lemmas.WellKeyed
import Mathlib.Data.List.Perm.Subperm
/-
C07-C11: relationship counts and validation.
-/

namespace Verif.Props
open Verif Verif.Spec

/-! ## C07 -/

/-- The targets of all foreign keys and relationships of the database. -/
def allTargets (db : Database) : List Str :=
  db.tables.flatMap (fun p => p.2.fks.map (fun q => q.2.toTable) ++ p.2.rels.map (fun q => q.2.toTable))

theorem foldl_count {α : Type} (p : α → Prop) [DecidablePred p] (l : List α) (n : Nat) :
    l.foldl (fun a x => if p x then a + 1 else a) n = n + l.countP (fun x => decide (p x)) := by
  induction l generalizing n with
  | nil => simp
  | cons a l ih => by_cases h : p a <;> simp [ih, h]; omega

theorem numberRelsTo_eq (db : Database) (n : Str) (h : n ∈ db.tableNames) :
    db.numberRelsTo n = .ok ((allTargets db).count n) := by
  have hc : db.tableNames.contains n = true := by simpa using h
  unfold Database.numberRelsTo
  rw [if_neg (by simpa using h)]
  congr 1
  have : ∀ (l : List (Str × Table)) (k : Nat), (Dict.vals l).foldl (fun acc t =>
      let acc := t.fks.vals.foldl (fun a (fk : FK) => if fk.toTable = n then a + 1 else a) acc
      t.rels.vals.foldl (fun a (r : Rel) => if r.toTable = n then a + 1 else a) acc) k
      = k + (l.flatMap (fun p => p.2.fks.map (fun q => q.2.toTable) ++ p.2.rels.map (fun q => q.2.toTable))).count n := by
    intro l
    induction l with
    | nil => simp
    | cons p l ih =>
      intro k
      simp only [Dict.vals_cons, List.foldl_cons, List.flatMap_cons, List.count_append]
      rw [ih, foldl_count (fun r : Rel => r.toTable = n), foldl_count (fun r : FK => r.toTable = n)]
      have e1 : (Dict.vals p.2.fks).countP (fun x => decide (x.toTable = n)) =
          (p.2.fks.map (fun q => q.2.toTable)).count n := by
        simp [Dict.vals, List.count, List.countP_map, Function.comp_def, beq_eq_decide]
      have e2 : (Dict.vals p.2.rels).countP (fun x => decide (x.toTable = n)) =
          (p.2.rels.map (fun q => q.2.toTable)).count n := by
        simp [Dict.vals, List.count, List.countP_map, Function.comp_def, beq_eq_decide]
      omega
  rw [this]; simp [allTargets]

theorem mapM_ok {α β : Type} (f : α → Except PyErr β) (g : α → β) (l : List α) (h : ∀ a ∈ l, f a = .ok (g a)) :
    l.mapM f = .ok (l.map g) := by
  induction l with
  | nil => rfl
  | cons a l ih =>
    rw [List.mapM_cons, h a (by simp), ih (fun b hb => h b (by simp [hb]))]
    rfl

theorem sum_count_nodup (names l : List Str) (h : names.Nodup) :
    (names.map (fun n => l.count n)).sum + l.countP (fun x => decide (x ∉ names)) = l.length := by
  induction l with
  | nil => simp
  | cons a l ih =>
    simp only [List.countP_cons, List.length_cons]
    have : (names.map (fun n => (a :: l).count n)).sum =
        (names.map (fun n => l.count n)).sum + (if a ∈ names then 1 else 0) := by
      clear ih
      induction names with
      | nil => simp
      | cons m ms ihm =>
        simp at h
        simp only [List.map_cons, List.sum_cons, List.mem_cons]
        rw [ihm h.2]
        by_cases e : a = m
        · subst e; simp [h.1]; omega
        · simp [e]; omega
    rw [this]
    by_cases ha : a ∈ names <;> simp [ha] at * <;> omega

/-- **C07.** Summed over all tables, the relationship counts "from" equal those "to" plus the number of dangling
references. -/
theorem C07_relationship_counts_balance (db : Database) (hd : (db.tables.map Prod.fst).Nodup) :
    ∃ froms tos, db.tableNames.mapM db.numberRelsFrom = .ok froms ∧ db.tableNames.mapM db.numberRelsTo = .ok tos ∧
      froms.sum = tos.sum + (allTargets db).countP (fun x => decide (x ∉ db.tables.map Prod.fst)) := by
  refine ⟨db.tables.map (fun p => p.2.fks.length + p.2.rels.length), _, ?_,
    mapM_ok _ (fun n => (allTargets db).count n) _ (fun n hn => numberRelsTo_eq db n hn), ?_⟩
  · have h1 : ∀ (l : List (Str × Table)), (∀ p ∈ l, db.tables.get? p.1 = some p.2) →
        (l.map Prod.fst).mapM db.numberRelsFrom = .ok (l.map (fun p => p.2.fks.length + p.2.rels.length)) := by
      intro l
      induction l with
      | nil => intro _; rfl
      | cons p l ih =>
        intro h
        rw [List.map_cons, List.mapM_cons, ih (fun q hq => h q (by simp [hq]))]
        simp [Database.numberRelsFrom, Database.getTable, h p (by simp)]
        rfl
    exact h1 db.tables (fun p hp => Dict.get?_of_mem hd hp)
  · have h2 := sum_count_nodup (db.tables.map Prod.fst) (allTargets db) hd
    have h3 : (allTargets db).length = (db.tables.map (fun p => p.2.fks.length + p.2.rels.length)).sum := by
      simp [allTargets, List.length_flatMap]
    show _ = (db.tables.keys.map _).sum + _
    simp only [Dict.keys]
    omega

/-- **C07** (errors). Both counters raise `ValueError` exactly for names that are not tables of the database. -/
theorem C07_unknown_table (db : Database) (n : Str) :
    (db.numberRelsFrom n = .error .value ↔ ¬ ∃ t, TableOf db n t) ∧
    (db.numberRelsTo n = .error .value ↔ ¬ ∃ t, TableOf db n t) := by
  have h1 := getTable_none_iff db n
  have h2 : n ∈ db.tableNames ↔ ∃ t, TableOf db n t := by
    simp [Database.tableNames, Dict.keys, TableOf]
  constructor
  · rw [← h1]; unfold Database.numberRelsFrom; cases db.getTable n <;> simp
  · unfold Database.numberRelsTo
    rw [← h2]
    by_cases h : n ∈ db.tableNames <;> simp [h]

/-- Non-trivial case: two tables, one mutual pair of references and one dangling reference. -/
example :
    let fk1 : FK := ⟨c!"f1", c!"a", [c!"x"], c!"b", [c!"y"]⟩
    let fk2 : FK := ⟨c!"f2", c!"a", [c!"x"], c!"zz", [c!"y"]⟩
    let r1 : Rel := ⟨c!"r1", c!"b", c!"a", c!"cond"⟩
    let a : Table := ⟨c!"a", c!"s", [], none, [], [(c!"f1", fk1), (c!"f2", fk2)], []⟩
    let b : Table := ⟨c!"b", c!"s", [], none, [], [], [(c!"r1", r1)]⟩
    let db : Database := ((Database.empty c!"d").addTable a).addTable b
    db.tableNames.mapM db.numberRelsFrom = .ok [2, 1] ∧ db.tableNames.mapM db.numberRelsTo = .ok [1, 1] ∧
      allTargets db = [c!"b", c!"zz", c!"a"] := by decide

/-! ## C08, C09, C11 -/

/-- Tables a program can build with the API. -/
inductive ApiTable : Table → Prop where
  | new (n s pk sk t) : mkTable n s pk sk = .ok t → ApiTable t
  | addColumn (t a b c) : ApiTable t → mkColumn a b = .ok c → ApiTable (t.addColumn c)
  | dropColumn (t n) : ApiTable t → ApiTable (t.dropColumn n).1
  | setPrimaryKey (t k t') : ApiTable t → t.setPrimaryKey k = .ok t' → ApiTable t'
  | addForeignKey (t a b c d t') : ApiTable t → t.addForeignKey a b c d = .ok t' → ApiTable t'
  | addForeignKeyObj (t a b c d e k) : ApiTable t → mkFK a b c d e = .ok k → ApiTable (t.addForeignKeyObj k)
  | addRelationship (t a b c t') : ApiTable t → t.addRelationship a b c = .ok t' → ApiTable t'
  | addRelationshipObj (t r) : ApiTable t → ApiTable (t.addRelationshipObj r)

/-- Databases a program can build with the API. -/
inductive ApiDb : Database → Prop where
  | new (n) : ApiDb (Database.empty n)
  | addTable (db t) : ApiDb db → ApiTable t → ApiDb (db.addTable t)
  | dropTable (db n r) : ApiDb db → db.dropTable n = .ok r → ApiDb r.1

theorem ApiTable.keyed {t : Table} (h : ApiTable t) :
    TableKeyed t ∧ ∀ q ∈ t.fks, ∃ a b c d e, mkFK a b c d e = .ok q.2 := by
  induction h with
  | new n s pk sk t ht =>
    unfold mkTable at ht
    split at ht
    · simp at ht; subst ht; exact ⟨⟨by simp, by simp, by simp, by simp, by simp, by simp⟩, by simp⟩
    · simp at ht
  | addColumn t a b c _ _ ih => exact ⟨ih.1.addColumn c, ih.2⟩
  | dropColumn t n _ ih => exact ⟨ih.1.dropColumn n, ih.2⟩
  | setPrimaryKey t k t' _ hk ih =>
    unfold Table.setPrimaryKey at hk
    split at hk
    · simp at hk
    · simp at hk; subst hk; exact ⟨⟨ih.1.1, ih.1.2, ih.1.3, ih.1.4, ih.1.5, ih.1.6⟩, ih.2⟩
  | addForeignKey t a b c d t' _ hk ih =>
    unfold Table.addForeignKey at hk
    simp only [bind, Except.bind] at hk
    split at hk
    · simp at hk
    · rename_i k hm
      simp at hk; subst hk
      refine ⟨ih.1.addForeignKeyObj k, fun q hq => ?_⟩
      rcases Dict.mem_set_of hq with rfl | hq
      · exact ⟨_, _, _, _, _, hm⟩
      · exact ih.2 q hq
  | addForeignKeyObj t a b c d e k _ hm ih =>
    refine ⟨ih.1.addForeignKeyObj k, fun q hq => ?_⟩
    rcases Dict.mem_set_of hq with rfl | hq
    · exact ⟨_, _, _, _, _, hm⟩
    · exact ih.2 q hq
  | addRelationship t a b c t' _ hk ih =>
    unfold Table.addRelationship at hk
    simp only [bind, Except.bind] at hk
    split at hk
    · simp at hk
    · simp at hk; subst hk; exact ⟨ih.1.addRelationshipObj _, ih.2⟩
  | addRelationshipObj t r _ ih => exact ⟨ih.1.addRelationshipObj r, ih.2⟩

/-- Every database built with the API meets the hypotheses of C08-C11. -/
theorem ApiDb.keyed {db : Database} (h : ApiDb db) : WellKeyed db ∧
    ∀ n t, TableOf db n t → ∀ m fk, (m, fk) ∈ t.fks → ∃ a b c d e, mkFK a b c d e = .ok fk := by
  induction h with
  | new n => exact ⟨wellKeyed_empty n, by simp [TableOf, Database.empty]⟩
  | addTable db t _ ht ih =>
    refine ⟨ih.1.addTable ht.keyed.1, fun n u hu m fk hm => ?_⟩
    rcases Dict.mem_set_of hu with h | h
    · simp at h; rw [h.2] at hm; exact ht.keyed.2 _ hm
    · exact ih.2 n u h m fk hm
  | dropTable db n r _ hr ih =>
    have hsub : ∀ p ∈ r.1.tables, p ∈ db.tables := by
      unfold Database.dropTable at hr
      split at hr
      · simp at hr; subst hr; exact fun p hp => hp
      · split at hr
        · simp at hr
        · simp at hr; subst hr; exact fun p hp => Dict.mem_of_mem_erase hp
    have hnd : r.1.tables.keys.Nodup := by
      have hnd := ((wellKeyed_iff db).1 ih.1).1
      unfold Database.dropTable at hr
      split at hr
      · simp at hr; subst hr; exact hnd
      · split at hr
        · simp at hr
        · simp at hr; subst hr; exact Dict.nodup_erase hnd _
    refine ⟨(wellKeyed_iff _).2 ⟨hnd, fun p hp => ((wellKeyed_iff db).1 ih.1).2.1 p (hsub p hp),
      fun p hp => ((wellKeyed_iff db).1 ih.1).2.2 p (hsub p hp)⟩, fun n u hu => ih.2 n u (hsub _ hu)⟩

/-- C09: the lists of key columns in the messages (Python's `repr`) can be told apart: two lists are printed alike only if they are the same, whatever the names contain. -/
theorem C09_key_lists_readable (l l' : List Str) : showNames l = showNames l' ↔ l = l' := ⟨showNames_inj, fun h => by rw [h]⟩

example : showNames [c!"a'b", c!"c\"'\\", c!"d\t"] = c!"[\"a'b\", 'c\"\\'\\\\', 'd\\t']" ∧ showNames [c!"a', 'b"] ≠ showNames [c!"a", c!"b"] := by decide

/-- **C09.** Whenever validation returns, the reported issues are exactly the defects of the tables, each prefixed by
database and table name and with its level; the database counts as valid exactly when there is no issue. -/
theorem C09_issues_are_exactly_the_defects (db : Database) (hw : WellKeyed db) (r : ValidationResult)
    (h : db.validate = .ok r) :
    (∀ text level, (text, level) ∈ r.issues ↔ ∃ n t m s, TableOf db n t ∧ Defect db t m s ∧
      text = c!"database " ++ db.name ++ c!", table " ++ n ++ c!":  " ++ m ∧
      level = (match s with | .warning => Level.warning | .error => Level.error)) ∧
    (r.isValid = true ↔ r.issues = []) := by
  obtain ⟨r', hr', h1, h2⟩ := ext_validate hw (walkable_of_ok hw h)
  rw [h] at hr'; simp at hr'; subst hr'
  refine ⟨?_, h2⟩
  intro text level
  rw [h1]
  unfold issueOf issueText
  constructor
  · rintro ⟨n, t, ht, m, s, hd, he⟩
    simp only [Prod.mk.injEq] at he
    refine ⟨n, t, m, s, ht, hd, ?_, ?_⟩
    · rw [hw.tableNames n t ht]; exact he.1
    · rw [he.2]; cases s <;> rfl
  · rintro ⟨n, t, m, s, ht, hd, rfl, rfl⟩
    refine ⟨n, t, ht, m, s, hd, ?_⟩
    rw [hw.tableNames n t ht]; cases s <;> rfl

/-- **C08.** The validator accepts exactly the well-formed databases. -/
theorem C08_valid_iff_well_formed (db : Database) (hw : WellKeyed db) :
    (∃ r, db.validate = .ok r ∧ r.isValid = true) ↔ WellFormed db := by
  constructor
  · rintro ⟨r, hr, hv⟩
    have hwalk := walkable_of_ok hw hr
    obtain ⟨r', hr', h1, h2⟩ := ext_validate hw hwalk
    rw [hr] at hr'; simp at hr'; subst hr'
    have hnil := h2.1 hv
    rw [← defect_free_iff hw]
    intro n t ht m s hd
    have := (h1 (issueText db t m, sevLevel s)).2 ⟨n, t, ht, m, s, hd, rfl⟩
    rw [hnil] at this; simp at this
  · intro hwf
    have hwalk : ∀ n t, TableOf db n t → FksWalkable db t := by
      intro n t ht m fk hfk _
      obtain ⟨_, _, hl, _⟩ := hwf.fks n t ht m fk hfk
      omega
    obtain ⟨r, hr, h1, h2⟩ := ext_validate hw hwalk
    refine ⟨r, hr, h2.2 ?_⟩
    apply List.eq_nil_iff_forall_not_mem.2
    intro x hx
    obtain ⟨n, t, ht, m, s, hd, _⟩ := (h1 x).1 hx
    exact (defect_free_iff hw).2 hwf n t ht m s hd

/-- **C11.** If all foreign keys were built by the constructor (same number of columns on both sides), validation
returns. -/
theorem C11_validate_total (db : Database) (hw : WellKeyed db)
    (hfk : ∀ n t, TableOf db n t → ∀ m fk, (m, fk) ∈ t.fks → ∃ a b c d e, mkFK a b c d e = .ok fk) :
    ∃ r, db.validate = .ok r := by
  obtain ⟨r, hr, _⟩ := ext_validate hw (fun n t ht m fk hm _ => by
    obtain ⟨a, b, c, d, e, h⟩ := hfk n t ht m fk hm
    unfold mkFK at h
    split at h
    · split at h
      · simp at h
      · rename_i hl
        simp at h; subst h; simp only; omega
    · simp at h)
  exact ⟨r, hr⟩

/-- **C11** for every database built with the API. -/
theorem C11_validate_total_api (db : Database) (h : ApiDb db) : ∃ r, db.validate = .ok r :=
  C11_validate_total db h.keyed.1 h.keyed.2

/-- **C08** for every database built with the API. -/
theorem C08_valid_iff_well_formed_api (db : Database) (h : ApiDb db) :
    (∃ r, db.validate = .ok r ∧ r.isValid = true) ↔ WellFormed db :=
  C08_valid_iff_well_formed db h.keyed.1

/-- Without that proviso the validator can raise: more from-columns than to-columns (an object whose key list was
changed after construction). -/
theorem C11_validate_raises_on_tampered_key :
    ∃ db : Database, WellKeyed db ∧ db.validate = .error .index := by
  refine ⟨((Database.empty c!"d").addTable ⟨c!"t", c!"s", [], none, [], [(c!"f", ⟨c!"f", c!"t", [c!"x"], c!"t", []⟩)],
    []⟩), by decide, by decide⟩

/-- A database that meets the hypotheses of C08, C09, C11 and is well-formed, and one with two defects. -/
def sampleDb (ty : Str) : Database :=
  let a : Table := ⟨c!"a", c!"s", [c!"x"], some ⟨[c!"x"], .int 4⟩,
    [(c!"x", ⟨c!"x", c!"INT"⟩), (c!"y", ⟨c!"y", ty⟩)], [(c!"f", ⟨c!"f", c!"a", [c!"y"], c!"b", [c!"z"]⟩)], []⟩
  let b : Table := ⟨c!"b", c!"s", [c!"z"], none, [(c!"z", ⟨c!"z", c!"VARCHAR(8)"⟩)], [],
    [(c!"r", ⟨c!"r", c!"b", c!"a", c!"cond"⟩)]⟩
  ((Database.empty c!"d").addTable a).addTable b

example : WellKeyed (sampleDb c!"VARCHAR(0)") := by decide

example : (sampleDb c!"VARCHAR(0)").validate = .ok ⟨true, []⟩ := by decide
example : (sampleDb c!"UNKNOWN").validate = .ok ⟨false,
    [(c!"database d, table a:  column y is of type UNKNOWN.", .warning),
     (c!"database d, table a:  foreign key f column y type UNKNOWN doesn't match type VARCHAR(8) for b column z",
      .error)]⟩ := by decide

/-! ## C10 -/

/-- **C10.** In a validated database the to-columns of a foreign key lie in the target's primary key, are as many, and
if they are distinct they are exactly that primary key; if the primary key itself repeats no column, only then. The claim for keys that repeat a column is false, see
`C10_duplicate_target_column_accepted`. -/
theorem C10_foreign_key_covers_primary_key_partial (db : Database) (hw : WellKeyed db) (r : ValidationResult)
    (h : db.validate = .ok r) (hv : r.isValid = true) (n m : Str) (t : Table) (fk : FK) (ht : TableOf db n t)
    (hfk : (m, fk) ∈ t.fks) :
    ∃ u, TableOf db fk.toTable u ∧ fk.toKeys ⊆ u.pk ∧ fk.toKeys.length = u.pk.length ∧
      (fk.toKeys.Nodup → fk.toKeys.Perm u.pk) ∧ (u.pk.Nodup → (fk.toKeys.Perm u.pk ↔ fk.toKeys.Nodup)) := by
  have hwf := (C08_valid_iff_well_formed db hw).1 ⟨r, h, hv⟩
  obtain ⟨u, hu, hl, hl2, hall⟩ := hwf.fks n t ht m fk hfk
  have hsub : fk.toKeys ⊆ u.pk := by
    intro b hb
    obtain ⟨i, hi⟩ := List.getElem?_of_mem hb
    have hi' : i < fk.toKeys.length := by
      rcases Nat.lt_or_ge i fk.toKeys.length with h | h
      · exact h
      · rw [List.getElem?_eq_none h] at hi; simp at hi
    exact (hall i _ b (List.getElem?_eq_getElem (by omega)) hi).1
  have hp : fk.toKeys.Nodup → fk.toKeys.Perm u.pk := fun hnd => (hnd.subperm hsub).perm_of_length_le (by omega)
  exact ⟨u, hu, hsub, hl2, hp, fun hu' => ⟨fun h' => h'.nodup_iff.2 hu', hp⟩⟩

/-- The full claim fails: a key that names the same target column twice is accepted although it misses a column of the
target's primary key. -/
theorem C10_duplicate_target_column_accepted :
    ∃ (db : Database) (t : Table) (fk : FK) (u : Table), WellKeyed db ∧ db.validate = .ok ⟨true, []⟩ ∧
      TableOf db t.name t ∧ (fk.name, fk) ∈ t.fks ∧ TableOf db fk.toTable u ∧ ¬ fk.toKeys.Perm u.pk := by
  let fk : FK := ⟨c!"f", c!"a", [c!"x", c!"x"], c!"b", [c!"z", c!"z"]⟩
  let a : Table := ⟨c!"a", c!"s", [], none, [(c!"x", ⟨c!"x", c!"INT"⟩)], [(c!"f", fk)], []⟩
  let b : Table := ⟨c!"b", c!"s", [c!"z", c!"w"], none, [(c!"z", ⟨c!"z", c!"INT"⟩), (c!"w", ⟨c!"w", c!"INT"⟩)], [], []⟩
  refine ⟨((Database.empty c!"d").addTable a).addTable b, a, fk, b, by decide, by decide, ?_, ?_, ?_, ?_⟩
  · simp [TableOf, a, b, Database.empty, Database.addTable, Dict.set]
  · simp [a, fk]
  · simp [TableOf, a, b, fk, Database.empty, Database.addTable, Dict.set]
  · simp [fk, b]

end Verif.Props
