import Verif.Props.Validation
/-
C109: what keeps a valid database valid.
-/

namespace Verif.Props
open Verif Verif.Spec

/-- The validator accepts the database. -/
def Valid (db : Database) : Prop := ∃ r, db.validate = .ok r ∧ r.isValid = true

/-- One table of a database is in order: known types, columns that exist in its keys, foreign keys that fit, relationships from this table to one that exists. -/
structure InOrder (db : Database) (t : Table) : Prop where
  types : ∀ m c, ColumnOf t m c → c.type ≠ c!"UNKNOWN"
  pk : ∀ k ∈ t.pk, ∃ c, ColumnOf t k c
  shard : ∀ sk, t.shard = some sk → ∀ k ∈ sk.keys, (∃ c, ColumnOf t k c) ∧ (t.pk = [] ∨ k ∈ t.pk)
  fks : ∀ m fk, (m, fk) ∈ t.fks → FKOk db t fk
  rels : ∀ m r, (m, r) ∈ t.rels → r.fromTable = t.name ∧ ∃ u, TableOf db r.toTable u

/-- The table has a foreign key or a relationship to the table called `n`. -/
def RefersTo (t : Table) (n : Str) : Prop := (∃ m fk, (m, fk) ∈ t.fks ∧ fk.toTable = n) ∨ ∃ m r, (m, r) ∈ t.rels ∧ r.toTable = n

theorem wellFormed_iff (db : Database) : WellFormed db ↔ ∀ n t, TableOf db n t → InOrder db t :=
  ⟨fun h n t ht => ⟨h.types n t ht, h.pk n t ht, h.shard n t ht, h.fks n t ht, h.rels n t ht⟩,
   fun h => ⟨fun n t ht => (h n t ht).types, fun n t ht => (h n t ht).pk, fun n t ht => (h n t ht).shard, fun n t ht => (h n t ht).fks, fun n t ht => (h n t ht).rels⟩⟩

/-- A table stays in order if the tables it refers to are still there. -/
theorem InOrder.mono {db db' : Database} {t : Table} (h : InOrder db t) (hk : ∀ n u, RefersTo t n → TableOf db n u → TableOf db' n u) : InOrder db' t := by
  refine ⟨h.types, h.pk, h.shard, fun m fk hm => ?_, fun m r hm => ?_⟩
  · obtain ⟨u, hu, rest⟩ := h.fks m fk hm
    exact ⟨u, hk _ _ (.inl ⟨m, fk, hm, rfl⟩) hu, rest⟩
  · obtain ⟨h1, u, hu⟩ := h.rels m r hm
    exact ⟨h1, u, hk _ _ (.inr ⟨m, r, hm, rfl⟩) hu⟩

/-- What a table in order refers to is there. -/
theorem InOrder.refers {db : Database} {t : Table} (h : InOrder db t) {n : Str} (hr : RefersTo t n) : ∃ u, TableOf db n u := by
  rcases hr with ⟨m, fk, hm, rfl⟩ | ⟨m, r, hm, rfl⟩
  · obtain ⟨u, hu, -⟩ := h.fks m fk hm
    exact ⟨u, hu⟩
  · exact (h.rels m r hm).2

theorem tableOf_drop {db : Database} (hw : WellKeyed db) {n : Str} {r : Database × Option Table} (h : db.dropTable n = .ok r) (m : Str) (t : Table) :
    TableOf r.1 m t ↔ TableOf db m t ∧ m ≠ n := by
  have hd : db.tables.keys.Nodup := hw.tables
  unfold Database.dropTable at h
  cases hg : db.tables.get? n with
  | none =>
    rw [hg] at h
    cases h
    refine ⟨fun ht => ⟨ht, fun e => ?_⟩, And.left⟩
    have := (Dict.mem_iff_get? hd).1 ht
    rw [e, hg] at this
    cases this
  | some u =>
    rw [hg] at h
    dsimp only at h
    split at h
    · cases h
    · cases h
      unfold TableOf
      rw [Dict.mem_iff_get? (Dict.nodup_erase hd n), Dict.mem_iff_get? hd, Dict.get?_erase hd]
      split <;> simp [*]

/-- C109: after a table was dropped from a valid database, the database is valid exactly if no other table refers to it. -/
theorem C109_drop (db : Database) (h : ApiDb db) (hv : Valid db) (n : Str) (r : Database × Option Table) (hr : db.dropTable n = .ok r) :
    Valid r.1 ↔ ∀ m t, TableOf db m t → m ≠ n → ¬ RefersTo t n := by
  have key := tableOf_drop h.keyed.1 hr
  have wf := (wellFormed_iff db).1 ((C08_valid_iff_well_formed_api db h).1 hv)
  rw [Valid, C08_valid_iff_well_formed_api _ (.dropTable db n r h hr), wellFormed_iff]
  constructor
  · intro h' m t ht hm href
    obtain ⟨u, hu⟩ := (h' m t ((key m t).2 ⟨ht, hm⟩)).refers href
    exact ((key n u).1 hu).2 rfl
  · intro h' m t ht
    obtain ⟨ht, hm⟩ := (key m t).1 ht
    refine (wf m t ht).mono (fun k u hk hu => (key k u).2 ⟨hu, ?_⟩)
    rintro rfl
    exact h' m t ht hm hk

/-- C109: after a table with a new name was added to a valid database, the database is valid exactly if the new table is in order. -/
theorem C109_add (db : Database) (h : ApiDb db) (hv : Valid db) (t : Table) (ht : ApiTable t) (hn : ∀ u, ¬ TableOf db t.name u) :
    Valid (db.addTable t) ↔ InOrder (db.addTable t) t := by
  have hd : db.tables.keys.Nodup := h.keyed.1.tables
  have key : ∀ m u, TableOf (db.addTable t) m u ↔ (m = t.name ∧ u = t) ∨ TableOf db m u := by
    intro m u
    unfold TableOf Database.addTable
    rw [Dict.mem_set hd]
    constructor
    · rintro (e | ⟨-, e⟩)
      · cases e; exact .inl ⟨rfl, rfl⟩
      · exact .inr e
    · rintro (⟨rfl, rfl⟩ | e)
      · exact .inl rfl
      · refine .inr ⟨?_, e⟩
        rintro rfl
        exact hn u e
  have wf := (wellFormed_iff db).1 ((C08_valid_iff_well_formed_api db h).1 hv)
  rw [Valid, C08_valid_iff_well_formed_api _ (.addTable db t h ht), wellFormed_iff]
  constructor
  · exact fun h' => h' t.name t ((key _ _).2 (.inl ⟨rfl, rfl⟩))
  · intro h' m u hu
    rcases (key m u).1 hu with ⟨rfl, rfl⟩ | hu
    · exact h'
    · exact (wf m u hu).mono (fun k x _ hx => (key k x).2 (.inr hx))

/-- C109: after a table was added to a valid database, in place of one with its name or not, the database is valid exactly if the table is in order and the foreign keys of the other
tables that point to this name fit it. -/
theorem C109_put (db : Database) (h : ApiDb db) (hv : Valid db) (t : Table) (ht : ApiTable t) :
    Valid (db.addTable t) ↔ InOrder (db.addTable t) t ∧
      ∀ m u, TableOf db m u → m ≠ t.name → ∀ k fk, (k, fk) ∈ u.fks → fk.toTable = t.name → FKOk (db.addTable t) u fk := by
  have hd : db.tables.keys.Nodup := h.keyed.1.tables
  have key : ∀ m u, TableOf (db.addTable t) m u ↔ (m = t.name ∧ u = t) ∨ (m ≠ t.name ∧ TableOf db m u) := by
    intro m u
    unfold TableOf Database.addTable
    rw [Dict.mem_set hd, Prod.mk.injEq]
  have wf := (wellFormed_iff db).1 ((C08_valid_iff_well_formed_api db h).1 hv)
  rw [Valid, C08_valid_iff_well_formed_api _ (.addTable db t h ht), wellFormed_iff]
  constructor
  · exact fun h' => ⟨h' t.name t ((key _ _).2 (.inl ⟨rfl, rfl⟩)), fun m u hu hm k fk hk _ => (h' m u ((key m u).2 (.inr ⟨hm, hu⟩))).fks k fk hk⟩
  · rintro ⟨h1, h2⟩ m u hu
    rcases (key m u).1 hu with ⟨rfl, rfl⟩ | ⟨hm, hu⟩
    · exact h1
    · have w := wf m u hu
      refine ⟨w.types, w.pk, w.shard, fun k fk hk => ?_, fun k r hk => ?_⟩
      · by_cases e : fk.toTable = t.name
        · exact h2 m u hu hm k fk hk e
        · obtain ⟨x, hx, rest⟩ := w.fks k fk hk
          exact ⟨x, (key _ _).2 (.inr ⟨e, hx⟩), rest⟩
      · obtain ⟨e1, x, hx⟩ := w.rels k r hk
        refine ⟨e1, ?_⟩
        by_cases e : r.toTable = t.name
        · exact ⟨t, (key _ _).2 (.inl ⟨e, rfl⟩)⟩
        · exact ⟨x, (key _ _).2 (.inr ⟨e, hx⟩)⟩

/-- C109: the order in which tables were added does not matter. -/
theorem C109_order (db db' : Database) (h : ApiDb db) (h' : ApiDb db') (hp : db.tables.Perm db'.tables) : Valid db ↔ Valid db' := by
  have key : ∀ m u, TableOf db m u ↔ TableOf db' m u := fun m u => hp.mem_iff
  rw [Valid, Valid, C08_valid_iff_well_formed_api _ h, C08_valid_iff_well_formed_api _ h', wellFormed_iff, wellFormed_iff]
  exact ⟨fun w m t ht => (w m t ((key m t).2 ht)).mono (fun k x _ hx => (key k x).1 hx), fun w m t ht => (w m t ((key m t).1 ht)).mono (fun k x _ hx => (key k x).2 hx)⟩

/-- A customer table and an order table that refers to it, as a program builds them. -/
def keptCustomers : Table := (Table.addColumn ⟨c!"customer", c!"s", [], none, [], [], []⟩ ⟨c!"id", c!"INT"⟩)
/-- See above. -/
def keptOrders : Table := (Table.addRelationshipObj ⟨c!"order", c!"s", [], none, [], [], []⟩ ⟨c!"r", c!"order", c!"customer", c!"cond"⟩)
/-- The database with the customers. -/
def keptDb : Database := (Database.empty c!"d").addTable keptCustomers
/-- The database with both. -/
def keptDb2 : Database := keptDb.addTable keptOrders

theorem keptCustomers_api : ApiTable keptCustomers := .addColumn _ (some c!"id") (some c!"INT") _ (.new (some c!"customer") (some c!"s") none none _ rfl) rfl
theorem keptOrders_api : ApiTable keptOrders := .addRelationshipObj _ _ (.new (some c!"order") (some c!"s") none none _ rfl)

/-- The hypotheses of C109_add and C109_drop are met, and both sides occur: the customers cannot be dropped, the orders can. -/
example : ApiDb keptDb ∧ Valid keptDb ∧ (∀ u, ¬ TableOf keptDb keptOrders.name u) ∧ ApiDb keptDb2 ∧ Valid keptDb2 ∧ RefersTo keptOrders c!"customer" ∧
    (keptDb2.dropTable c!"customer").map (fun r => r.1.validate.map (·.isValid)) = .ok (.ok false) ∧
    (keptDb2.dropTable c!"order").map (fun r => r.1.validate.map (·.isValid)) = .ok (.ok true) := by
  refine ⟨.addTable _ _ (.new _) keptCustomers_api, ⟨⟨true, []⟩, by decide, rfl⟩, ?_, .addTable _ _ (.addTable _ _ (.new _) keptCustomers_api) keptOrders_api, ⟨⟨true, []⟩, by decide, rfl⟩,
    .inr ⟨c!"r", _, List.mem_singleton.2 rfl, rfl⟩, by decide, by decide⟩
  intro u h
  have := List.mem_singleton.1 h
  exact absurd (show keptOrders.name = keptCustomers.name from congrArg Prod.fst this) (by decide)

/-- Another table in place of the customers, without the column, is valid as well, since a relationship needs only the table. -/
example : (keptDb2.addTable ⟨c!"customer", c!"s", [], none, [], [], []⟩).validate.map (·.isValid) = .ok true := by decide

end Verif.Props
