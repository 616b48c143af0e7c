import Verif.Model
import Verif.Lemmas.Dict
/-
C01-C06, C97: registries of tables and databases, constructors, primary keys.
-/

namespace Verif.Props
open Verif Verif.Spec

/-! ## C01: columns of a table -/

/-- A call that changes the columns of a table. -/
inductive ColCall where
  | add (c : Column)
  | addMany (cs : List Column)
  | drop (n : Str)

/-- The calls, run on the model. -/
def ColCall.run (t : Table) : ColCall → Table
  | .add c => t.addColumn c
  | .addMany cs => t.addColumns cs
  | .drop n => (t.dropColumn n).1

/-- What the user did, as registry events: `add_columns` is one event per column. -/
def ColCall.events : ColCall → List (Ev Column)
  | .add c => [.put c.name c]
  | .addMany cs => cs.map (fun c => .put c.name c)
  | .drop n => [.del n]

theorem colRun_cols (h : List ColCall) : ∀ (t : Table) (e : List (Ev Column)), t.cols = Ev.run e →
    (h.foldl ColCall.run t).cols = Ev.run (e ++ h.flatMap ColCall.events) ∧
    (h.foldl ColCall.run t) = { t with cols := (h.foldl ColCall.run t).cols } := by
  induction h with
  | nil => intro t e he; exact ⟨by simp [he], rfl⟩
  | cons o h ih =>
    intro t e he
    have step : (ColCall.run t o).cols = Ev.run (e ++ ColCall.events o) ∧
        ColCall.run t o = { t with cols := (ColCall.run t o).cols } := by
      cases o with
      | add c => simp [ColCall.run, ColCall.events, Table.addColumn, Ev.run_append, he, Ev.apply]
      | drop n => simp [ColCall.run, ColCall.events, Table.dropColumn, Ev.run_append, he, Ev.apply]
      | addMany cs =>
        simp only [ColCall.run, ColCall.events, Table.addColumns]
        clear ih
        induction cs generalizing t e with
        | nil => exact ⟨by simp [he], rfl⟩
        | cons c cs ihc =>
          have := ihc (t.addColumn c) (e ++ [.put c.name c])
            (by simp [Table.addColumn, Ev.run_append, he, Ev.apply])
          simp only [List.foldl_cons, List.map_cons]
          refine ⟨by rw [this.1]; simp, ?_⟩
          exact this.2.trans (by simp [Table.addColumn])
    have := ih (ColCall.run t o) (e ++ ColCall.events o) step.1
    simp only [List.foldl_cons, List.flatMap_cons]
    refine ⟨by rw [this.1]; simp, ?_⟩
    exact this.2.trans (by rw [step.2])

theorem columnNames_eq (t : Table) : t.columnNames = t.cols.keys := by
  have : ∀ (l acc : List Str), l.foldl (fun acc n => acc ++ [n]) acc = acc ++ l := by
    intro l; induction l with
    | nil => simp
    | cons a l ih => intro acc; simp [ih]
  simp [Table.columnNames, this]

/-- Every value of the dictionary is stored under its own name. -/
theorem run_named {α : Type} (name : α → Str) (e : List (Ev α))
    (he : ∀ k v, Ev.put k v ∈ e → k = name v) : ∀ p ∈ Ev.run e, p.1 = name p.2 := by
  induction e using snocInd with
  | nil => simp [Ev.run]
  | append_singleton e o ih =>
    intro p hp
    rw [Ev.run_snoc] at hp
    have ih' := ih (fun k v h => he k v (by simp [h]))
    cases o with
    | put k v =>
      rcases Dict.mem_set_of hp with rfl | h
      · exact he k v (by simp)
      · exact ih' p h
    | del k => exact ih' p (Dict.mem_of_mem_erase hp)

theorem col_events_named (h : List ColCall) : ∀ k v, Ev.put k v ∈ h.flatMap ColCall.events → k = v.name := by
  intro k v hm
  rw [List.mem_flatMap] at hm
  obtain ⟨o, _, ho⟩ := hm
  cases o with
  | add c => simp [ColCall.events] at ho; rw [ho.1, ho.2]
  | drop n => simp [ColCall.events] at ho
  | addMany cs =>
    simp [ColCall.events] at ho
    obtain ⟨_, h1⟩ := ho
    exact h1.symm

theorem vals_names {α : Type} (name : α → Str) (d : Dict α) (h : ∀ p ∈ d, p.1 = name p.2) :
    d.vals.map name = d.keys := by
  simp only [Dict.vals, Dict.keys, List.map_map]
  apply List.map_congr_left
  intro p hp; exact (h p hp).symm

/-- **C01.** After any history of column calls on a new table, the columns are exactly the insertion-ordered map
the history describes, and all accessors agree with it; nothing else of the table changes. -/
theorem C01_columns_ordered_map (t0 : Table) (h0 : t0.cols = []) (h : List ColCall) :
    let t := h.foldl ColCall.run t0
    let e := h.flatMap ColCall.events
    Ev.Lists e t.columnNames ∧
    (∀ n c, t.getColumn n = some c ↔ Ev.LastPut e n c) ∧
    (∀ n, t.hasColumn n = true ↔ ∃ c, Ev.LastPut e n c) ∧
    (∀ n c, (t.dropColumn n).2 = some c ↔ Ev.LastPut e n c) ∧
    t.iter.map (·.name) = t.columnNames ∧ (∀ c ∈ t.iter, Ev.LastPut e c.name c) ∧
    t.numberColumns = t.columnNames.length ∧
    (t.name = t0.name ∧ t.schema = t0.schema ∧ t.pk = t0.pk ∧ t.shard = t0.shard ∧ t.fks = t0.fks ∧
      t.rels = t0.rels) := by
  have H := colRun_cols h t0 [] (by simp [h0, Ev.run])
  simp only [List.nil_append] at H
  have hnames := run_named Column.name _ (col_events_named h)
  intro t e
  have ht : t.cols = Ev.run e := H.1
  have hget : ∀ n c, t.cols.get? n = some c ↔ Ev.LastPut e n c := by
    intro n c; rw [ht]; exact Ev.get?_run e n c
  refine ⟨?_, hget, ?_, hget, ?_, ?_, ?_, ?_⟩
  · rw [columnNames_eq, ht]; exact Ev.lists_run e
  · intro n
    rw [← Ev.mem_keys_run, ← ht]
    simp [Table.hasColumn]
  · rw [columnNames_eq]; exact vals_names Column.name t.cols (by rw [ht]; exact hnames)
  · intro c hc
    rw [← hget]
    simp only [Table.iter, Dict.vals, List.mem_map] at hc
    obtain ⟨p, hp, rfl⟩ := hc
    have hp' : p.1 = p.2.name := hnames p (by rw [← ht]; exact hp)
    rw [← hp']
    exact Dict.get?_of_mem (by rw [ht]; exact Ev.nodup_run e) hp
  · simp [columnNames_eq, Table.numberColumns]
  · have h2 : t = { t0 with cols := t.cols } := H.2
    rw [h2]; simp

/-- Non-trivial case: re-adding `a` keeps its place, dropping and re-adding moves it to the end. -/
example :
    let a : Column := ⟨c!"a", c!"INT"⟩
    let a' : Column := ⟨c!"a", c!"DATE"⟩
    let b : Column := ⟨c!"b", c!"INT"⟩
    let t0 : Table := ⟨c!"t", c!"s", [], none, [], [], []⟩
    ([ColCall.add a, .add b, .add a'].foldl ColCall.run t0).iter = [a', b] ∧
    ([ColCall.addMany [a, b], .drop c!"a", .add a'].foldl ColCall.run t0).iter = [b, a'] := by decide

/-! ## C02-C04: tables of a database -/

/-- A call that changes the tables of a database. -/
inductive TabCall where
  | add (t : Table)
  | drop (n : Str)

/-- The calls, run on the model; `drop_table` may raise. -/
def TabCall.run (db : Database) : TabCall → Except PyErr Database
  | .add t => .ok (db.addTable t)
  | .drop n => (db.dropTable n).map Prod.fst

/-- What the user did, as registry events. -/
def TabCall.event : TabCall → Ev Table
  | .add t => .put t.name t
  | .drop n => .del n

/-- Number of tables of a schema. -/
def schemaCount (d : Dict Table) (s : Str) : Nat := d.countP (fun p => p.2.schema == s)

theorem schemaCount_set (d : Dict Table) (t : Table) (s : Str) (hd : d.keys.Nodup) :
    schemaCount (d.set t.name t) s + (match d.get? t.name with
      | some o => if o.schema = s then 1 else 0
      | none => 0) = schemaCount d s + (if t.schema = s then 1 else 0) := by
  induction d with
  | nil => simp [Dict.set, schemaCount, List.countP_cons]
  | cons p d ih =>
    obtain ⟨k, v⟩ := p
    simp at hd
    simp only [Dict.set, Dict.get?_cons]
    by_cases hk : k = t.name
    · simp [hk, schemaCount, List.countP_cons]; omega
    · have := ih hd.2
      simp only [hk, if_false]
      simp only [schemaCount, List.countP_cons] at this ⊢
      split at this <;> omega

theorem schemaCount_erase (d : Dict Table) (n : Str) (s : Str) (hd : d.keys.Nodup) :
    schemaCount (d.erase n) s + (match d.get? n with
      | some o => if o.schema = s then 1 else 0
      | none => 0) = schemaCount d s := by
  induction d with
  | nil => simp [Dict.erase, schemaCount]
  | cons p d ih =>
    obtain ⟨k, v⟩ := p
    simp at hd
    simp only [Dict.erase, Dict.get?_cons]
    by_cases hk : k = n
    · simp [hk, schemaCount, List.countP_cons]
    · have := ih hd.2
      simp only [hk, if_false]
      simp only [schemaCount, List.countP_cons] at this ⊢
      split at this <;> omega

/-- Invariant of the schema counters: stored counters are positive and at least the number of tables in the schema. -/
def SchemaInv (db : Database) : Prop :=
  db.schemas.keys.Nodup ∧ (∀ s k, db.schemas.get? s = some k → 0 < k) ∧
  (∀ s, (schemaCount db.tables s : Int) ≤ (db.schemas.get? s).getD 0)

/-- By how much the counter of a schema exceeds the number of its tables. -/
def schemaSurplus (db : Database) (s : Str) : Int := (db.schemas.get? s).getD 0 - schemaCount db.tables s

theorem getD_nonneg {db : Database} (h : SchemaInv db) (s : Str) : 0 ≤ (db.schemas.get? s).getD 0 := by
  have := h.2.2 s; omega

theorem inv_addTable {db : Database} (hd : db.tables.keys.Nodup) (h : SchemaInv db) (t : Table) :
    SchemaInv (db.addTable t) := by
  refine ⟨Dict.nodup_set h.1 _ _, ?_, ?_⟩
  · intro s k hk
    simp only [Database.addTable, Dict.get?_set] at hk
    split at hk
    · have := getD_nonneg h t.schema
      simp at hk; omega
    · exact h.2.1 s k hk
  · intro s
    have h1 := schemaCount_set db.tables t s hd
    have h2 := h.2.2 s
    simp only [Database.addTable, Dict.get?_set]
    by_cases hs : s = t.schema
    · subst hs; simp only [if_true, Option.getD_some]
      simp at h1
      omega
    · simp [hs, Ne.symm hs] at h1 ⊢
      omega

theorem surplus_addTable {db : Database} (hd : db.tables.keys.Nodup) (t : Table) (s : Str) :
    schemaSurplus (db.addTable t) s = schemaSurplus db s + (match db.tables.get? t.name with
      | some o => if o.schema = s then 1 else 0
      | none => 0) := by
  have h1 := schemaCount_set db.tables t s hd
  simp only [schemaSurplus, Database.addTable, Dict.get?_set]
  cases hg : db.tables.get? t.name with
  | none =>
    rw [hg] at h1
    by_cases hs : s = t.schema
    · subst hs; simp only [if_true, Option.getD_some] at h1 ⊢; omega
    · simp [hs, Ne.symm hs] at h1 ⊢; omega
  | some o =>
    rw [hg] at h1
    by_cases hs : s = t.schema
    · subst hs; simp only [if_true, Option.getD_some] at h1 ⊢; split at h1 <;> simp_all <;> omega
    · simp only [hs, Ne.symm hs, if_false] at h1 ⊢; split at h1 <;> simp_all <;> omega

theorem dropTable_ok {db : Database} (hd : db.tables.keys.Nodup) (h : SchemaInv db) (n : Str) :
    ∃ db', db.dropTable n = .ok (db', db.tables.get? n) ∧ db'.tables = db.tables.erase n ∧ db'.name = db.name ∧
      SchemaInv db' ∧ (∀ s, schemaSurplus db' s = schemaSurplus db s) := by
  unfold Database.dropTable
  cases hg : db.tables.get? n with
  | none =>
    refine ⟨db, rfl, ?_, rfl, h, fun _ => rfl⟩
    have : n ∉ db.tables.keys := (Dict.get?_eq_none_iff _ _).1 hg
    generalize db.tables = d at this
    induction d with
    | nil => rfl
    | cons p d ih =>
      obtain ⟨k, v⟩ := p
      simp at this
      simp [Dict.erase, Ne.symm this.1, ← ih this.2]
  | some t =>
    have hpos : ∀ s, schemaCount (db.tables.erase n) s + (if t.schema = s then 1 else 0) = schemaCount db.tables s := by
      intro s; have := schemaCount_erase db.tables n s hd; rw [hg] at this; exact this
    have hge : 1 ≤ schemaCount db.tables t.schema := by have := hpos t.schema; simp at this; omega
    cases hk : db.schemas.get? t.schema with
    | none => have := h.2.2 t.schema; rw [hk] at this; simp at this; omega
    | some k =>
      refine ⟨{ db with
        tables := db.tables.erase n
        schemas := if k - 1 = 0 then db.schemas.erase t.schema else db.schemas.set t.schema (k - 1) },
        by simp only [hk], rfl, rfl, ⟨?_, ?_, ?_⟩, ?_⟩
      · dsimp only; split
        · exact Dict.nodup_erase h.1 _
        · exact Dict.nodup_set h.1 _ _
      · intro s j hj
        dsimp only at hj
        have hkpos := h.2.1 _ _ hk
        split at hj
        · rw [Dict.get?_erase h.1] at hj
          split at hj
          · simp at hj
          · exact h.2.1 s j hj
        · rw [Dict.get?_set] at hj
          split at hj
          · simp at hj; omega
          · exact h.2.1 s j hj
      · intro s
        have h1 := hpos s
        have h2 := h.2.2 s
        dsimp only
        split
        · rw [Dict.get?_erase h.1]
          by_cases hs : s = t.schema
          · subst hs; simp [hk] at h1 h2 ⊢; omega
          · simp [hs, Ne.symm hs] at h1 ⊢; omega
        · rw [Dict.get?_set]
          by_cases hs : s = t.schema
          · subst hs; simp [hk] at h1 h2 ⊢; omega
          · simp [hs, Ne.symm hs] at h1 ⊢; omega
      · intro s
        have h1 := hpos s
        simp only [schemaSurplus]
        split
        · rw [Dict.get?_erase h.1]
          by_cases hs : s = t.schema
          · subst hs; simp [hk] at h1 ⊢; omega
          · simp [hs, Ne.symm hs] at h1 ⊢; omega
        · rw [Dict.get?_set]
          by_cases hs : s = t.schema
          · subst hs; simp [hk] at h1 ⊢; omega
          · simp [hs, Ne.symm hs] at h1 ⊢; omega

/-- Some `add_table` of the history replaced a table of schema `s` that was present. -/
def ReplacedIn (h : List TabCall) (s : Str) : Prop :=
  ∃ h1 t h2 t', h = h1 ++ .add t :: h2 ∧ Ev.LastPut (h1.map TabCall.event) t.name t' ∧ t'.schema = s

theorem replacedIn_snoc {h : List TabCall} {o : TabCall} {s : Str} : ReplacedIn (h ++ [o]) s ↔
    ReplacedIn h s ∨ ∃ t t', o = .add t ∧ Ev.LastPut (h.map TabCall.event) t.name t' ∧ t'.schema = s := by
  constructor
  · rintro ⟨h1, t, h2, t', e, hl, hs⟩
    rcases List.eq_nil_or_concat h2 with rfl | ⟨l, x, rfl⟩
    · obtain ⟨e1, e2⟩ := List.append_inj' e rfl
      simp only [List.cons.injEq, and_true] at e2
      exact .inr ⟨t, t', e2, by rw [e1]; exact hl, hs⟩
    · rw [List.concat_eq_append, ← List.cons_append, ← List.append_assoc] at e
      exact .inl ⟨h1, t, l, t', (List.append_inj' e rfl).1, hl, hs⟩
  · rintro (⟨h1, t, h2, t', e, hl, hs⟩ | ⟨t, t', rfl, hl, hs⟩)
    · exact ⟨h1, t, h2 ++ [o], t', by simp [e], hl, hs⟩
    · exact ⟨h, t, [], t', rfl, hl, hs⟩

theorem tabRun (nm : Str) (h : List TabCall) :
    ∃ db, h.foldlM TabCall.run (Database.empty nm) = .ok db ∧ db.tables = Ev.run (h.map TabCall.event) ∧
      db.name = nm ∧ SchemaInv db ∧ (∀ s, 0 < schemaSurplus db s ↔ ReplacedIn h s) := by
  induction h using snocInd with
  | nil => exact ⟨Database.empty nm, rfl, rfl, rfl, ⟨by simp [Database.empty], by simp [Database.empty],
      by intro s; simp [Database.empty, schemaCount]⟩, by
        intro s; simp [schemaSurplus, Database.empty, schemaCount, ReplacedIn]⟩
  | append_singleton h o ih =>
    obtain ⟨db, h1, h2, hnm, h3, h4⟩ := ih
    have hnd : db.tables.keys.Nodup := by rw [h2]; exact Ev.nodup_run _
    rw [List.foldlM_append, h1]
    cases o with
    | add t =>
      refine ⟨db.addTable t, by simp [TabCall.run, pure, Except.pure, bind, Except.bind], ?_, hnm, inv_addTable hnd h3 t, ?_⟩
      · simp [Ev.run_snoc, TabCall.event, Ev.apply, Database.addTable, h2]
      · intro s
        have hnn : 0 ≤ schemaSurplus db s := by have := h3.2.2 s; simp only [schemaSurplus]; omega
        rw [surplus_addTable hnd, replacedIn_snoc, ← h4 s]
        have hl : ∀ t', Ev.LastPut (h.map TabCall.event) t.name t' ↔ db.tables.get? t.name = some t' := by
          intro t'; rw [h2]; exact (Ev.get?_run _ _ _).symm
        have hrew : (∃ t0 t', TabCall.add t = .add t0 ∧ Ev.LastPut (h.map TabCall.event) t0.name t' ∧ t'.schema = s) ↔
            ∃ t', db.tables.get? t.name = some t' ∧ t'.schema = s := by
          constructor
          · rintro ⟨t0, t', e, hp, hs⟩; injection e with e; subst e; exact ⟨t', (hl t').1 hp, hs⟩
          · rintro ⟨t', hg, hs⟩; exact ⟨t, t', rfl, (hl t').2 hg, hs⟩
        rw [hrew]
        cases hg : db.tables.get? t.name with
        | none => simp
        | some u =>
          by_cases hs : u.schema = s
          · simp [hs]; omega
          · simp [hs]
    | drop n =>
      obtain ⟨db', e1, e2, e3, e4, e5⟩ := dropTable_ok hnd h3 n
      refine ⟨db', by simp [TabCall.run, e1, pure, Except.pure, bind, Except.bind, Except.map], ?_, by rw [e3, hnm],
        e4, fun s => ?_⟩
      · simp [Ev.run_snoc, TabCall.event, Ev.apply, e2, h2]
      · rw [e5, h4, replacedIn_snoc]; simp

theorem tab_events_named (h : List TabCall) : ∀ k v, Ev.put k v ∈ h.map TabCall.event → k = v.name := by
  intro k v hm
  rw [List.mem_map] at hm
  obtain ⟨o, _, ho⟩ := hm
  cases o with
  | add c => simp [TabCall.event] at ho; rw [← ho.1, ho.2]
  | drop n => simp [TabCall.event] at ho

/-- **C02.** After any history of table calls on a new database, the tables are exactly the insertion-ordered map the
history describes, and all accessors agree with it. -/
theorem C02_tables_ordered_map (nm : Str) (h : List TabCall) (db : Database)
    (hrun : h.foldlM TabCall.run (Database.empty nm) = .ok db) :
    let e := h.map TabCall.event
    Ev.Lists e db.tableNames ∧ (∀ n t, db.getTable n = some t ↔ Ev.LastPut e n t) ∧
    db.numberTables = db.tableNames.length ∧
    db.iter.map (·.name) = db.tableNames ∧ (∀ t ∈ db.iter, Ev.LastPut e t.name t) ∧ db.name = nm := by
  obtain ⟨db', h1, h2, hnm, _, _⟩ := tabRun nm h
  rw [h1] at hrun; simp at hrun; subst hrun
  intro e
  have hnames := run_named Table.name _ (tab_events_named h)
  have hget : ∀ n c, db'.tables.get? n = some c ↔ Ev.LastPut e n c := by
    intro n c; rw [h2]; exact Ev.get?_run e n c
  refine ⟨?_, hget, rfl, ?_, ?_, hnm⟩
  · show Ev.Lists e db'.tables.keys
    rw [h2]; exact Ev.lists_run e
  · exact vals_names Table.name db'.tables (by rw [h2]; exact hnames)
  · intro c hc
    rw [← hget]
    simp only [Database.iter, Dict.vals, List.mem_map] at hc
    obtain ⟨p, hp, rfl⟩ := hc
    have hp' : p.1 = p.2.name := hnames p (by rw [← h2]; exact hp)
    rw [← hp']
    exact Dict.get?_of_mem (by rw [h2]; exact Ev.nodup_run e) hp

/-- **C02** (drop). Dropping returns the table that was present, or `None`, and afterwards exactly that name is gone,
all other tables keeping their order. -/
theorem C02_drop_returns (nm : Str) (h : List TabCall) (db : Database)
    (hrun : h.foldlM TabCall.run (Database.empty nm) = .ok db) (n : Str) :
    ∃ db' r, db.dropTable n = .ok (db', r) ∧ (∀ t, r = some t ↔ Ev.LastPut (h.map TabCall.event) n t) ∧
      db'.tableNames = db.tableNames.filter (· ≠ n) ∧ ∀ m, m ≠ n → db'.getTable m = db.getTable m := by
  obtain ⟨db0, h1, h2, _, h3, _⟩ := tabRun nm h
  rw [h1] at hrun; simp at hrun; subst hrun
  have hnd : db0.tables.keys.Nodup := by rw [h2]; exact Ev.nodup_run _
  obtain ⟨db', e1, e2, _, _, _⟩ := dropTable_ok hnd h3 n
  refine ⟨db', _, e1, ?_, ?_, ?_⟩
  · intro t; rw [h2]; exact Ev.get?_run _ n t
  · simp only [Database.tableNames, e2, Dict.keys_erase]
    rw [hnd.erase_eq_filter]
    congr 1; funext x; rw [Bool.eq_iff_iff]; simp
  · intro m hm
    simp [Database.getTable, e2, Dict.get?_erase hnd, hm]

/-- **C04.** Table calls never raise: every history runs to completion. -/
theorem C04_drop_never_raises (nm : Str) (h : List TabCall) :
    ∃ db, h.foldlM TabCall.run (Database.empty nm) = .ok db ∧ ∀ n, ∃ r, db.dropTable n = .ok r := by
  obtain ⟨db, h1, h2, _, h3, _⟩ := tabRun nm h
  refine ⟨db, h1, fun n => ?_⟩
  obtain ⟨db', e, _⟩ := dropTable_ok (by rw [h2]; exact Ev.nodup_run _) h3 n
  exact ⟨_, e⟩

theorem schemaCount_pos_iff (d : Dict Table) (s : Str) : 0 < schemaCount d s ↔ ∃ t ∈ d.vals, t.schema = s := by
  simp only [schemaCount, List.countP_pos_iff, Dict.vals, List.mem_map, beq_iff_eq]
  constructor
  · rintro ⟨p, hp, hs⟩; exact ⟨p.2, ⟨p, hp, rfl⟩, hs⟩
  · rintro ⟨t, ⟨p, hp, rfl⟩, hs⟩; exact ⟨p, hp, hs⟩

/-- **C03.** After any history, a schema is listed exactly if a table of it is present or some call replaced a table of it
that was present; no schema is listed twice. -/
theorem C03_schema_names_exactly (nm : Str) (h : List TabCall) (db : Database)
    (hrun : h.foldlM TabCall.run (Database.empty nm) = .ok db) :
    db.schemaNames.Nodup ∧
    ∀ s, s ∈ db.schemaNames ↔ (∃ t, Ev.LastPut (h.map TabCall.event) t.name t ∧ t.schema = s) ∨ ReplacedIn h s := by
  obtain ⟨db0, h1, h2, _, h3, h4⟩ := tabRun nm h
  rw [h1] at hrun; simp at hrun; subst hrun
  refine ⟨h3.1, fun s => ?_⟩
  have hnd : db0.tables.keys.Nodup := by rw [h2]; exact Ev.nodup_run _
  have hpres : (∃ t, Ev.LastPut (h.map TabCall.event) t.name t ∧ t.schema = s) ↔ 0 < schemaCount db0.tables s := by
    rw [schemaCount_pos_iff]
    constructor
    · rintro ⟨t, hl, hs⟩
      have := (Ev.get?_run _ _ _).2 hl
      rw [← h2] at this
      exact ⟨t, List.mem_map.2 ⟨_, Dict.mem_of_get? this, rfl⟩, hs⟩
    · rintro ⟨t, ht, hs⟩
      obtain ⟨p, hp, rfl⟩ := List.mem_map.1 ht
      have hnames := run_named Table.name _ (tab_events_named h)
      rw [← h2] at hnames
      refine ⟨p.2, (Ev.get?_run _ _ _).1 ?_, hs⟩
      rw [← h2, ← hnames p hp]
      exact Dict.get?_of_mem hnd hp
  rw [hpres, ← h4 s]
  show s ∈ db0.schemas.keys ↔ _
  rw [← Dict.get?_isSome_iff]
  have h6 := h3.2.2 s
  simp only [schemaSurplus]
  cases hg : db0.schemas.get? s with
  | none => rw [hg] at h6; simp at h6 ⊢; omega
  | some k => have := h3.2.1 s k hg; simp; omega

/-- **C03**, as stated: after any history, every schema with a present table is listed, once; if no call replaced a present
table, no other schema is listed. -/
theorem C03_schema_names (nm : Str) (h : List TabCall) (db : Database)
    (hrun : h.foldlM TabCall.run (Database.empty nm) = .ok db) :
    db.schemaNames.Nodup ∧ (∀ s, (∃ t ∈ db.iter, t.schema = s) → s ∈ db.schemaNames) ∧
    ((∀ s, ¬ ReplacedIn h s) → ∀ s, s ∈ db.schemaNames ↔ ∃ t ∈ db.iter, t.schema = s) := by
  obtain ⟨hn, he⟩ := C03_schema_names_exactly nm h db hrun
  have hc := C02_tables_ordered_map nm h db hrun
  have hi : ∀ s, (∃ t, Ev.LastPut (h.map TabCall.event) t.name t ∧ t.schema = s) ↔ ∃ t ∈ db.iter, t.schema = s := by
    intro s
    constructor
    · rintro ⟨t, hl, hs⟩
      have := (hc.2.1 _ _).2 hl
      exact ⟨t, List.mem_map.2 ⟨_, Dict.mem_of_get? this, rfl⟩, hs⟩
    · rintro ⟨t, ht, hs⟩
      exact ⟨t, hc.2.2.2.2.1 t ht, hs⟩
  refine ⟨hn, fun s hs => (he s).2 (.inl ((hi s).2 hs)), fun hr s => ?_⟩
  rw [he, hi]
  exact ⟨fun h => h.resolve_right (hr s), .inl⟩

/-- The claim without the proviso fails: replacing a table leaves its old schema listed although no table is in it,
and dropping the replacement keeps it listed with the database empty. -/
theorem C03_ghost_schema :
    ∃ (h : List TabCall) (db : Database), h.foldlM TabCall.run (Database.empty c!"d") = .ok db ∧
      c!"s1" ∈ db.schemaNames ∧ db.iter = [] := by
  refine ⟨[.add ⟨c!"t", c!"s1", [], none, [], [], []⟩, .add ⟨c!"t", c!"s2", [], none, [], [], []⟩, .drop c!"t"],
    _, rfl, ?_, ?_⟩ <;> decide

/-- Case for `C03_schema_names_exactly`: schema `s1` stays listed since a table of it was replaced, schema `u` goes with its only
table, and `s2` is listed since it has a table. -/
example :
    let h : List TabCall := [.add ⟨c!"t", c!"s1", [], none, [], [], []⟩, .add ⟨c!"v", c!"u", [], none, [], [], []⟩,
      .add ⟨c!"t", c!"s2", [], none, [], [], []⟩, .drop c!"v"]
    (∃ db, h.foldlM TabCall.run (Database.empty c!"d") = .ok db ∧ db.schemaNames = [c!"s1", c!"s2"]) ∧
      ReplacedIn h c!"s1" :=
  ⟨⟨_, rfl, by decide⟩, [.add ⟨c!"t", c!"s1", [], none, [], [], []⟩, .add ⟨c!"v", c!"u", [], none, [], [], []⟩],
    ⟨c!"t", c!"s2", [], none, [], [], []⟩, [.drop c!"v"], ⟨c!"t", c!"s1", [], none, [], [], []⟩, rfl,
    ⟨[], [.put c!"v" ⟨c!"v", c!"u", [], none, [], [], []⟩], rfl, by simp [Ev.key]⟩, rfl⟩

/-- Non-trivial case for C02-C04: two tables of one schema, one dropped and re-added. -/
example :
    let t1 : Table := ⟨c!"t1", c!"s", [], none, [], [], []⟩
    let t2 : Table := ⟨c!"t2", c!"s", [], none, [], [], []⟩
    let t3 : Table := ⟨c!"t3", c!"u", [], none, [], [], []⟩
    ∃ db, [TabCall.add t1, .add t2, .drop c!"t1", .add t3, .add t1].foldlM TabCall.run (Database.empty c!"d")
        = .ok db ∧ db.iter = [t2, t3, t1] ∧ db.schemaNames = [c!"s", c!"u"] :=
  ⟨_, rfl, by decide, by decide⟩

/-! ## C05: foreign keys and relationships of a table -/

/-- Arguments of one `add_foreign_key` call with details. -/
structure FKArgs where
  fromKeys : List Str
  toTable : Str
  toKeys : List Str
  name : Option Str

/-- The name a user expects: the given one, else `FK_<from>_to_<to>`. -/
def FKArgs.effName (owner : Str) (a : FKArgs) : Str :=
  a.name.getD (c!"FK_" ++ owner ++ c!"_to_" ++ a.toTable)

/-- The foreign key a user expects. -/
def FKArgs.expected (owner : Str) (a : FKArgs) : FK :=
  { name := a.effName owner, fromTable := owner, fromKeys := a.fromKeys, toTable := a.toTable, toKeys := a.toKeys }

/-- The call on the model. -/
def FKArgs.call (t : Table) (a : FKArgs) : Except PyErr Table :=
  t.addForeignKey (some (.many a.fromKeys)) (some a.toTable) (some (.many a.toKeys)) a.name

theorem fkCall_ok (t : Table) (a : FKArgs) (h : a.fromKeys.length = a.toKeys.length) :
    a.call t = .ok (t.addForeignKeyObj (a.expected t.name)) := by
  unfold FKArgs.call Table.addForeignKey mkFK
  simp [KeyArg.toList, h, bind, Except.bind, FKArgs.expected, FKArgs.effName]
  cases a.name <;> rfl

theorem fkRun (args : List FKArgs) : ∀ (t0 : Table) (e : List (Ev FK)), t0.fks = Ev.run e →
    (∀ a ∈ args, a.fromKeys.length = a.toKeys.length) →
    ∃ t, args.foldlM FKArgs.call t0 = .ok t ∧
      t.fks = Ev.run (e ++ args.map (fun a => Ev.put (a.effName t0.name) (a.expected t0.name))) ∧
      t = { t0 with fks := t.fks } := by
  induction args with
  | nil => intro t0 e h0 _; exact ⟨t0, rfl, by simp [h0], rfl⟩
  | cons a args ih =>
    intro t0 e h0 har
    obtain ⟨t, h1, h2, h3⟩ := ih (t0.addForeignKeyObj (a.expected t0.name))
      (e ++ [.put (a.effName t0.name) (a.expected t0.name)])
      (by simp [Ev.run_snoc, Table.addForeignKeyObj, h0, Ev.apply, FKArgs.expected])
      (fun b hb => har b (by simp [hb]))
    refine ⟨t, ?_, ?_, ?_⟩
    · simp [List.foldlM_cons, fkCall_ok t0 a (har a (by simp)), bind, Except.bind, h1]
    · rw [h2]; simp [Table.addForeignKeyObj]
    · rw [h3]; simp [Table.addForeignKeyObj]

/-- **C05** (foreign keys). Adding foreign keys keeps exactly the last definition per effective name, in order of first
use of the name, and changes nothing else. -/
theorem C05_foreign_keys_registered (t0 : Table) (h0 : t0.fks = []) (args : List FKArgs)
    (har : ∀ a ∈ args, a.fromKeys.length = a.toKeys.length) :
    ∃ t, args.foldlM FKArgs.call t0 = .ok t ∧
      let e := args.map (fun a => Ev.put (a.effName t0.name) (a.expected t0.name))
      Ev.Lists e t.fks.keys ∧ (∀ n fk, t.getForeignKey n = some fk ↔ Ev.LastPut e n fk) ∧
      (t.name = t0.name ∧ t.schema = t0.schema ∧ t.pk = t0.pk ∧ t.shard = t0.shard ∧ t.cols = t0.cols ∧
        t.rels = t0.rels) := by
  obtain ⟨t, h1, h2, h3⟩ := fkRun args t0 [] (by simp [h0, Ev.run]) har
  refine ⟨t, h1, ?_, ?_, ?_⟩
  · rw [h2]; exact Ev.lists_run _
  · intro n fk; simp only [Table.getForeignKey, h2]; exact Ev.get?_run _ n fk
  · rw [h3]; simp

/-- **C05** (collision). Of the unnamed foreign keys of a table to one target, only the last survives. -/
theorem C05_unnamed_foreign_keys_collide (t0 : Table) (h0 : t0.fks = []) (args : List FKArgs)
    (har : ∀ a ∈ args, a.fromKeys.length = a.toKeys.length) (hun : ∀ a ∈ args, a.name = none) :
    ∃ t, args.foldlM FKArgs.call t0 = .ok t ∧
      ∀ fk, fk ∈ t.fks.vals ↔ ∃ a1 a a2, args = a1 ++ a :: a2 ∧ (∀ b ∈ a2, b.toTable ≠ a.toTable) ∧
        fk = ⟨c!"FK_" ++ t0.name ++ c!"_to_" ++ a.toTable, t0.name, a.fromKeys, a.toTable, a.toKeys⟩ := by
  obtain ⟨t, h1, h2, h3⟩ := fkRun args t0 [] (by simp [h0, Ev.run]) har
  refine ⟨t, h1, fun fk => ?_⟩
  have hinj : ∀ a ∈ args, ∀ b ∈ args, a.effName t0.name = b.effName t0.name ↔ a.toTable = b.toTable := by
    intro a ha b hb
    simp [FKArgs.effName, hun a ha, hun b hb]
  have hexp : ∀ a ∈ args, a.expected t0.name =
      ⟨c!"FK_" ++ t0.name ++ c!"_to_" ++ a.toTable, t0.name, a.fromKeys, a.toTable, a.toKeys⟩ := by
    intro a ha; simp [FKArgs.expected, FKArgs.effName, hun a ha]
  rw [Dict.mem_vals_iff (by rw [h2]; exact Ev.nodup_run _)]
  constructor
  · rintro ⟨k, hk⟩
    rw [h2, Ev.get?_run] at hk
    obtain ⟨e1, e2, he, hl⟩ := hk
    simp only [List.nil_append] at he
    rw [List.map_eq_append_iff] at he
    obtain ⟨a1, a2', rfl, rfl, he2⟩ := he
    rw [List.map_eq_cons_iff] at he2
    obtain ⟨a, a2, rfl, he3, rfl⟩ := he2
    simp only [Ev.put.injEq] at he3
    refine ⟨a1, a, a2, rfl, ?_, ?_⟩
    · intro b hb hbt
      have := hl _ (List.mem_map.2 ⟨b, hb, rfl⟩)
      simp only [Ev.key] at this
      apply this
      rw [← he3.1, hinj b (by simp [hb]) a (by simp)]
      exact hbt
    · rw [← he3.2, hexp a (by simp)]
  · rintro ⟨a1, a, a2, rfl, hl, rfl⟩
    refine ⟨a.effName t0.name, ?_⟩
    rw [h2, Ev.get?_run]
    refine ⟨a1.map (fun a => Ev.put (a.effName t0.name) (a.expected t0.name)),
      a2.map (fun a => Ev.put (a.effName t0.name) (a.expected t0.name)), by rw [← hexp a (by simp)]; simp, ?_⟩
    intro o ho
    rw [List.mem_map] at ho
    obtain ⟨b, hb, rfl⟩ := ho
    simp only [Ev.key]
    rw [Ne, hinj b (by simp [hb]) a (by simp)]
    exact hl b hb

/-- Arguments of one `add_relationship` call with details. -/
structure RelArgs where
  toTable : Str
  conditions : Str
  name : Option Str

/-- The name a user expects: the given one, else `REL_<from>_to_<to>`. -/
def RelArgs.effName (owner : Str) (a : RelArgs) : Str :=
  a.name.getD (c!"REL_" ++ owner ++ c!"_to_" ++ a.toTable)

/-- The relationship a user expects. -/
def RelArgs.expected (owner : Str) (a : RelArgs) : Rel :=
  { name := a.effName owner, fromTable := owner, toTable := a.toTable, conditions := a.conditions }

/-- The call on the model. -/
def RelArgs.call (t : Table) (a : RelArgs) : Except PyErr Table :=
  t.addRelationship (some a.toTable) a.name (some a.conditions)

theorem relCall_ok (t : Table) (a : RelArgs) : a.call t = .ok (t.addRelationshipObj (a.expected t.name)) := by
  unfold RelArgs.call Table.addRelationship mkRel
  simp [bind, Except.bind, RelArgs.expected, RelArgs.effName]
  cases a.name <;> rfl

theorem relRun (args : List RelArgs) : ∀ (t0 : Table) (e : List (Ev Rel)), t0.rels = Ev.run e →
    ∃ t, args.foldlM RelArgs.call t0 = .ok t ∧
      t.rels = Ev.run (e ++ args.map (fun a => Ev.put (a.effName t0.name) (a.expected t0.name))) ∧
      t = { t0 with rels := t.rels } := by
  induction args with
  | nil => intro t0 e h0; exact ⟨t0, rfl, by simp [h0], rfl⟩
  | cons a args ih =>
    intro t0 e h0
    obtain ⟨t, h1, h2, h3⟩ := ih (t0.addRelationshipObj (a.expected t0.name))
      (e ++ [.put (a.effName t0.name) (a.expected t0.name)])
      (by simp [Ev.run_snoc, Table.addRelationshipObj, h0, Ev.apply, RelArgs.expected])
    refine ⟨t, ?_, ?_, ?_⟩
    · simp [List.foldlM_cons, relCall_ok t0 a, bind, Except.bind, h1]
    · rw [h2]; simp [Table.addRelationshipObj]
    · rw [h3]; simp [Table.addRelationshipObj]

/-- **C05** (relationships). As for foreign keys. -/
theorem C05_relationships_registered (t0 : Table) (h0 : t0.rels = []) (args : List RelArgs) :
    ∃ t, args.foldlM RelArgs.call t0 = .ok t ∧
      let e := args.map (fun a => Ev.put (a.effName t0.name) (a.expected t0.name))
      Ev.Lists e t.rels.keys ∧ (∀ n r, t.getRelationship n = some r ↔ Ev.LastPut e n r) ∧
      (t.name = t0.name ∧ t.schema = t0.schema ∧ t.pk = t0.pk ∧ t.shard = t0.shard ∧ t.cols = t0.cols ∧
        t.fks = t0.fks) := by
  obtain ⟨t, h1, h2, h3⟩ := relRun args t0 [] (by simp [h0, Ev.run])
  refine ⟨t, h1, ?_, ?_, ?_⟩
  · rw [h2]; exact Ev.lists_run _
  · intro n fk; simp only [Table.getRelationship, h2]; exact Ev.get?_run _ n fk
  · rw [h3]; simp

/-- Non-trivial case: two unnamed keys to `u` collide, a named one and one to `v` survive. -/
example :
    let t0 : Table := ⟨c!"t", c!"s", [], none, [], [], []⟩
    ∃ t, [(⟨[c!"a"], c!"u", [c!"x"], none⟩ : FKArgs), ⟨[c!"b"], c!"v", [c!"x"], none⟩,
        ⟨[c!"c"], c!"u", [c!"y"], none⟩, ⟨[c!"d"], c!"u", [c!"z"], some c!"n"⟩].foldlM FKArgs.call t0 = .ok t ∧
      t.fks.vals.map (·.fromKeys) = [[c!"c"], [c!"b"], [c!"d"]] :=
  ⟨_, rfl, by decide⟩

/-- A call of `add_foreign_key` or `add_relationship`, with any arguments. -/
inductive KeyCall where
  | fk (obj : Option KeyObj) (fromKeys : Option KeyArg) (toTable : Option Str) (toKeys : Option KeyArg) (name : Option Str)
  | rel (obj : Option KeyObj) (toTable name conditions : Option Str)

/-- The call on the model: the table afterwards and the exception, if one is raised.  A call that raises has not assigned anything. -/
def KeyCall.run (t : Table) (c : KeyCall) : Table × Option PyErr :=
  match (match c with
    | .fk obj fromKeys toTable toKeys name => t.addForeignKeyArg obj fromKeys toTable toKeys name
    | .rel obj toTable name conditions => t.addRelationshipArg obj toTable name conditions) with
  | .ok t' => (t', none)
  | .error e => (t, some e)

/-- The columns a key argument stands for. -/
def argCols : KeyArg → List Str
  | .one c => [c]
  | .many l => l

/-- The foreign key a call is meant to store in a table called `owner`: the object, or without one a key with these details, if they are complete and
there are as many columns on both sides. -/
inductive Stores (owner : Str) : KeyCall → FK → Prop
  | object (k : FK) (a : Option KeyArg) (t : Option Str) (b : Option KeyArg) (n : Option Str) : Stores owner (.fk (some (.fk k)) a t b n) k
  | named (a : KeyArg) (t : Str) (b : KeyArg) (n : Str) (h : (argCols a).length = (argCols b).length) :
      Stores owner (.fk none (some a) (some t) (some b) (some n)) ⟨n, owner, argCols a, t, argCols b⟩
  | unnamed (a : KeyArg) (t : Str) (b : KeyArg) (h : (argCols a).length = (argCols b).length) :
      Stores owner (.fk none (some a) (some t) (some b) none) ⟨c!"FK_" ++ owner ++ c!"_to_" ++ t, owner, argCols a, t, argCols b⟩

/-- The relationship a call is meant to store. -/
inductive StoresRel (owner : Str) : KeyCall → Rel → Prop
  | object (r : Rel) (t n c : Option Str) : StoresRel owner (.rel (some (.rel r)) t n c) r
  | named (t n c : Str) : StoresRel owner (.rel none (some t) (some n) (some c)) ⟨n, owner, t, c⟩
  | unnamed (t c : Str) : StoresRel owner (.rel none (some t) none (some c)) ⟨c!"REL_" ++ owner ++ c!"_to_" ++ t, owner, t, c⟩

/-- `k` is what the last of the calls that store a key under the name `n` stored. -/
def LastStored {κ : Type} (stores : KeyCall → κ → Prop) (name : κ → Str) (calls : List KeyCall) (n : Str) (k : κ) : Prop :=
  ∃ c1 c c2, calls = c1 ++ c :: c2 ∧ stores c k ∧ name k = n ∧ ∀ d ∈ c2, ∀ k', stores d k' → name k' ≠ n

/-- The keys stored are called in the order of the first call that uses the name: the earliest use of the one is before all uses of the other. -/
def FirstBefore {κ : Type} (stores : KeyCall → κ → Prop) (name : κ → Str) (calls : List KeyCall) (m n : Str) : Prop :=
  ∃ c1 c c2 k, calls = c1 ++ c :: c2 ∧ stores c k ∧ name k = m ∧ ∀ d ∈ c1 ++ [c], ∀ k', stores d k' → name k' ≠ n

/-- The call on the model, seen as what is stored. -/
theorem run_cases (t : Table) (c : KeyCall) :
    (∃ k, Stores t.name c k ∧ KeyCall.run t c = (t.addForeignKeyObj k, none) ∧ ∀ r, ¬ StoresRel t.name c r) ∨
    (∃ r, StoresRel t.name c r ∧ KeyCall.run t c = (t.addRelationshipObj r, none) ∧ ∀ k, ¬ Stores t.name c k) ∨
    (∃ e, KeyCall.run t c = (t, some e) ∧ (∀ k, ¬ Stores t.name c k) ∧ (∀ r, ¬ StoresRel t.name c r)) := by
  cases c with
  | fk obj a tt b n =>
    have hr : ∀ r, ¬ StoresRel t.name (.fk obj a tt b n) r := by intro r h; cases h
    rcases obj with _ | (k | r | _)
    · rcases a with _ | a
      · exact .inr (.inr ⟨_, rfl, (by intro k h; cases h), hr⟩)
      rcases tt with _ | tt
      · exact .inr (.inr ⟨_, rfl, (by intro k h; cases h), hr⟩)
      rcases b with _ | b
      · exact .inr (.inr ⟨_, rfl, (by intro k h; cases h), hr⟩)
      have ha : ∀ x : KeyArg, x.toList = argCols x := by intro x; cases x <;> rfl
      by_cases hl : (argCols a).length = (argCols b).length
      · refine .inl ?_
        cases n with
        | none => exact ⟨_, .unnamed a tt b hl, by simp [KeyCall.run, Table.addForeignKeyArg, Table.addForeignKey, mkFK, ha, hl, bind, Except.bind], hr⟩
        | some n => exact ⟨_, .named a tt b n hl, by simp [KeyCall.run, Table.addForeignKeyArg, Table.addForeignKey, mkFK, ha, hl, bind, Except.bind], hr⟩
      · refine .inr (.inr ⟨.value, ?_, ?_, hr⟩)
        · simp [KeyCall.run, Table.addForeignKeyArg, Table.addForeignKey, mkFK, ha, hl, bind, Except.bind]
        · intro k h; cases h <;> exact hl ‹_›
    · exact .inl ⟨k, .object .., rfl, hr⟩
    · exact .inr (.inr ⟨_, rfl, (by intro k h; cases h), hr⟩)
    · exact .inr (.inr ⟨_, rfl, (by intro k h; cases h), hr⟩)
  | rel obj tt n cc =>
    have hr : ∀ k, ¬ Stores t.name (.rel obj tt n cc) k := by intro r h; cases h
    rcases obj with _ | (k | r | _)
    · rcases tt with _ | tt
      · exact .inr (.inr ⟨_, rfl, hr, by intro k h; cases h⟩)
      rcases cc with _ | cc
      · exact .inr (.inr ⟨_, rfl, hr, by intro k h; cases h⟩)
      refine .inr (.inl ?_)
      cases n with
      | none => exact ⟨_, .unnamed tt cc, rfl, hr⟩
      | some n => exact ⟨_, .named tt n cc, rfl, hr⟩
    · exact .inr (.inr ⟨_, rfl, hr, by intro k h; cases h⟩)
    · exact .inr (.inl ⟨r, .object .., rfl, hr⟩)
    · exact .inr (.inr ⟨_, rfl, hr, by intro k h; cases h⟩)

theorem Stores.unique {o : Str} {c : KeyCall} {k k' : FK} (h : Stores o c k) (h' : Stores o c k') : k' = k := by
  cases h <;> cases h' <;> rfl

theorem StoresRel.unique {o : Str} {c : KeyCall} {k k' : Rel} (h : StoresRel o c k) (h' : StoresRel o c k') : k' = k := by
  cases h <;> cases h' <;> rfl

/-- A dictionary that holds what the calls stored, in order of first use. -/
def Tracks {κ : Type} (stores : KeyCall → κ → Prop) (name : κ → Str) (calls : List KeyCall) (d : Dict κ) : Prop :=
  (∀ n k, d.get? n = some k ↔ LastStored stores name calls n k) ∧ d.keys.Pairwise (FirstBefore stores name calls)

theorem lastStored_snoc {κ : Type} {stores : KeyCall → κ → Prop} {name : κ → Str} {calls : List KeyCall} {c : KeyCall} {n : Str} {k : κ} :
    LastStored stores name (calls ++ [c]) n k ↔
      (stores c k ∧ name k = n) ∨ (LastStored stores name calls n k ∧ ∀ k', stores c k' → name k' ≠ n) := by
  constructor
  · rintro ⟨c1, x, c2, he, hs, hn, hl⟩
    rcases List.eq_nil_or_concat c2 with rfl | ⟨c3, y, rfl⟩
    · have := List.append_inj_right' he (by simp)
      simp only [List.cons.injEq, and_true] at this
      exact .inl (this ▸ ⟨hs, hn⟩)
    · have he' : calls ++ [c] = (c1 ++ x :: c3) ++ [y] := by rw [he]; simp
      have h1 := List.append_inj_right' he' (by simp)
      have h2 := List.append_inj_left' he' (by simp)
      simp only [List.cons.injEq, and_true] at h1
      subst h1
      exact .inr ⟨⟨c1, x, c3, h2, hs, hn, fun d hd => hl d (by simp [hd])⟩, hl c (by simp)⟩
  · rintro (⟨hs, hn⟩ | ⟨⟨c1, x, c2, rfl, hs, hn, hl⟩, hc⟩)
    · exact ⟨calls, c, [], rfl, hs, hn, by simp⟩
    · refine ⟨c1, x, c2 ++ [c], by simp, hs, hn, ?_⟩
      intro d hd
      rcases List.mem_append.1 hd with hd | hd
      · exact hl d hd
      · rw [List.mem_singleton] at hd; subst hd; exact hc

theorem firstBefore_snoc {κ : Type} {stores : KeyCall → κ → Prop} {name : κ → Str} {calls : List KeyCall} {c : KeyCall} {m n : Str}
    (h : FirstBefore stores name calls m n) : FirstBefore stores name (calls ++ [c]) m n := by
  obtain ⟨c1, x, c2, k, rfl, h1, h2, h3⟩ := h
  exact ⟨c1, x, c2 ++ [c], k, by simp, h1, h2, h3⟩

theorem tracks_skip {κ : Type} {stores : KeyCall → κ → Prop} {name : κ → Str} {calls : List KeyCall} {c : KeyCall} {d : Dict κ}
    (h : Tracks stores name calls d) (hc : ∀ k, ¬ stores c k) : Tracks stores name (calls ++ [c]) d := by
  refine ⟨fun n k => ?_, h.2.imp firstBefore_snoc⟩
  rw [h.1, lastStored_snoc]
  constructor
  · exact fun hl => .inr ⟨hl, fun k' hk => absurd hk (hc k')⟩
  · rintro (⟨hs, _⟩ | ⟨hl, _⟩)
    · exact absurd hs (hc k)
    · exact hl

theorem tracks_put {κ : Type} {stores : KeyCall → κ → Prop} {name : κ → Str} {calls : List KeyCall} {c : KeyCall} {d : Dict κ} {k : κ}
    (h : Tracks stores name calls d) (hc : stores c k) (hu : ∀ k', stores c k' → k' = k) :
    Tracks stores name (calls ++ [c]) (d.set (name k) k) := by
  refine ⟨fun n v => ?_, ?_⟩
  · rw [Dict.get?_set, lastStored_snoc]
    by_cases hn : n = name k
    · subst hn
      simp only [if_true, Option.some.injEq]
      constructor
      · rintro rfl; exact .inl ⟨hc, rfl⟩
      · rintro (⟨hs, _⟩ | ⟨_, hl⟩)
        · exact (hu v hs).symm
        · exact absurd rfl (hl k hc)
    · rw [if_neg hn, h.1]
      constructor
      · exact fun hl => .inr ⟨hl, fun k' hk => by rw [hu k' hk]; exact fun e => hn e.symm⟩
      · rintro (⟨hs, he⟩ | ⟨hl, _⟩)
        · exact absurd (by rw [← he, hu v hs]) hn
        · exact hl
  · rw [Dict.keys_set]
    split
    · exact h.2.imp firstBefore_snoc
    · rename_i hk
      rw [List.pairwise_append]
      refine ⟨h.2.imp firstBefore_snoc, by simp, ?_⟩
      intro m hm n hn
      rw [List.mem_singleton] at hn
      subst hn
      obtain ⟨v, hv⟩ : ∃ v, d.get? m = some v := by
        cases e : d.get? m with
        | none => exact absurd hm ((Dict.get?_eq_none_iff _ _).1 e)
        | some v => exact ⟨v, rfl⟩
      obtain ⟨c1, x, c2, rfl, hs, hnm, _⟩ := (h.1 m v).1 hv
      refine ⟨c1, x, c2 ++ [c], v, by simp, hs, hnm, ?_⟩
      -- no call so far has used the name
      intro y hy k' hk' he
      have hno : ∀ cs : List KeyCall, (∀ z, ¬ LastStored stores name cs (name k) z) → ∀ y ∈ cs, ∀ k', stores y k' → name k' ≠ name k := by
        intro cs
        induction cs using snocInd with
        | nil => simp
        | append_singleton cs z ih =>
          intro hz y hy k' hk' he
          have hz1 : ∀ w, stores z w → name w ≠ name k := fun w hw e => hz w (lastStored_snoc.2 (.inl ⟨hw, e⟩))
          rcases List.mem_append.1 hy with hy | hy
          · exact ih (fun w hw => hz w (lastStored_snoc.2 (.inr ⟨hw, hz1⟩))) y hy k' hk' he
          · rw [List.mem_singleton] at hy; subst hy; exact hz1 k' hk' he
      refine hno (c1 ++ x :: c2) ?_ y ?_ k' hk' he
      · intro z hz
        refine hk (Classical.byContradiction fun hn => ?_)
        have := (h.1 _ _).2 hz
        rw [(Dict.get?_eq_none_iff _ _).2 hn] at this
        cases this
      · rcases List.mem_append.1 hy with hy | hy
        · simp [hy]
        · rw [List.mem_singleton] at hy; simp [hy]

/-- **C05** (any calls). After any calls of `add_foreign_key` and `add_relationship` on a new table, with objects, with details, or with arguments they refuse,
the caller catching what is raised: `get_foreign_key` and `get_relationship` give what the last call that stores something under the name stored, the iterators
list exactly these in the order in which the names were first used, each name once, and the rest of the table is as before. -/
theorem C05_any_calls (t0 : Table) (h0 : t0.fks = []) (h1 : t0.rels = []) (calls : List KeyCall) :
    let t := calls.foldl (fun t c => (KeyCall.run t c).1) t0
    (∀ n k, t.getForeignKey n = some k ↔ LastStored (Stores t0.name) FK.name calls n k) ∧
    (∀ k, k ∈ t.foreignKeysIter ↔ ∃ n, LastStored (Stores t0.name) FK.name calls n k) ∧
    (t.foreignKeysIter.map (·.name)).Pairwise (FirstBefore (Stores t0.name) FK.name calls) ∧ (t.foreignKeysIter.map (·.name)).Nodup ∧
    (∀ n r, t.getRelationship n = some r ↔ LastStored (StoresRel t0.name) Rel.name calls n r) ∧
    (∀ r, r ∈ t.relationshipsIter ↔ ∃ n, LastStored (StoresRel t0.name) Rel.name calls n r) ∧
    (t.relationshipsIter.map (·.name)).Pairwise (FirstBefore (StoresRel t0.name) Rel.name calls) ∧ (t.relationshipsIter.map (·.name)).Nodup ∧
    t = { t0 with fks := t.fks, rels := t.rels } := by
  have key : ∀ calls : List KeyCall, let t := calls.foldl (fun t c => (KeyCall.run t c).1) t0
      Tracks (Stores t0.name) FK.name calls t.fks ∧ Tracks (StoresRel t0.name) Rel.name calls t.rels ∧
      t = { t0 with fks := t.fks, rels := t.rels } := by
    intro calls
    induction calls using snocInd with
    | nil =>
      simp only [List.foldl_nil, h0, h1]
      refine ⟨⟨?_, by simp⟩, ⟨?_, by simp⟩, ?_⟩
      · intro n k; simp [LastStored]
      · intro n k; simp [LastStored]
      · rw [← h0, ← h1]
    | append_singleton calls c ih =>
      obtain ⟨ha, hb, hc⟩ := ih
      simp only [List.foldl_append, List.foldl_cons, List.foldl_nil]
      generalize calls.foldl (fun t c => (KeyCall.run t c).1) t0 = t at ha hb hc
      have hn : t.name = t0.name := by rw [hc]
      rcases run_cases t c with ⟨k, h1, h2, h3⟩ | ⟨r, h1, h2, h3⟩ | ⟨e, h2, h1, h3⟩ <;> rw [hn] at h1 h3 <;> rw [h2]
      · exact ⟨tracks_put ha h1 (fun _ => h1.unique), tracks_skip hb h3, by rw [hc]; rfl⟩
      · exact ⟨tracks_skip ha h3, tracks_put hb h1 (fun _ => h1.unique), by rw [hc]; rfl⟩
      · exact ⟨tracks_skip ha h1, tracks_skip hb h3, hc⟩
  obtain ⟨ha, hb, hc⟩ := key calls
  have gen : ∀ {κ : Type} {stores : KeyCall → κ → Prop} {name : κ → Str} {d : Dict κ}, Tracks stores name calls d →
      (∀ k, k ∈ d.vals ↔ ∃ n, LastStored stores name calls n k) ∧ (d.vals.map name).Pairwise (FirstBefore stores name calls) ∧
      (d.vals.map name).Nodup := by
    intro κ stores name d h
    have hne : d.keys.Nodup := h.2.imp (by
      rintro m n ⟨c1, x, c2, k, _, hs, hm, hl⟩ rfl
      exact hl x (by simp) k hs hm)
    have hv : d.vals.map name = d.keys := by
      simp only [Dict.vals, Dict.keys, List.map_map]
      apply List.map_congr_left
      intro p hp
      obtain ⟨_, _, _, _, _, e, _⟩ := (h.1 p.1 p.2).1 (Dict.get?_of_mem hne hp)
      exact e
    refine ⟨fun k => ?_, hv ▸ h.2, hv ▸ hne⟩
    rw [Dict.mem_vals_iff hne]
    exact exists_congr fun n => h.1 n k
  exact ⟨ha.1, (gen ha).1, (gen ha).2.1, (gen ha).2.2, hb.1, (gen hb).1, (gen hb).2.1, (gen hb).2.2, hc⟩

/-- **C05** (refusals). A call raises exactly when there is nothing to store: `ValueError` for an object of another class and for details with different numbers
of columns, `AssertionError` for details that are missing. -/
theorem C05_refusals (t : Table) (c : KeyCall) :
    ((KeyCall.run t c).2 = none ↔ (∃ k, Stores t.name c k) ∨ ∃ r, StoresRel t.name c r) ∧
    ((KeyCall.run t c).2 = some .value ↔
      (∃ o a tt b n, c = .fk (some o) a tt b n ∧ ∀ k, o ≠ .fk k) ∨ (∃ o tt n cc, c = .rel (some o) tt n cc ∧ ∀ r, o ≠ .rel r) ∨
      ∃ a tt b n, c = .fk none (some a) (some tt) (some b) n ∧ (argCols a).length ≠ (argCols b).length) ∧
    ((KeyCall.run t c).2 = some .assertion ↔
      (∃ a tt b n, c = .fk none a tt b n ∧ (a = none ∨ tt = none ∨ b = none)) ∨
      ∃ tt n cc, c = .rel none tt n cc ∧ (tt = none ∨ cc = none)) := by
  have ha : ∀ x : KeyArg, x.toList = argCols x := by intro x; cases x <;> rfl
  refine ⟨?_, ?_⟩
  · rcases run_cases t c with ⟨k, h1, h2, h3⟩ | ⟨r, h1, h2, h3⟩ | ⟨e, h2, h1, h3⟩ <;> rw [h2]
    · simp only [true_iff]; exact .inl ⟨k, h1⟩
    · simp only [true_iff]; exact .inr ⟨r, h1⟩
    · simp [h1, h3]
  · cases c with
    | fk obj a tt b n =>
      rcases obj with _ | (k | r | _)
      · rcases a with _ | a
        · simp [KeyCall.run, Table.addForeignKeyArg, Table.addForeignKey, mkFK, bind, Except.bind]
          exact ⟨_, _, _, ⟨rfl, rfl, rfl⟩, by simp⟩
        rcases tt with _ | tt
        · simp [KeyCall.run, Table.addForeignKeyArg, Table.addForeignKey, mkFK, bind, Except.bind]
          exact ⟨_, _, _, ⟨rfl, rfl, rfl⟩, by simp⟩
        rcases b with _ | b
        · simp [KeyCall.run, Table.addForeignKeyArg, Table.addForeignKey, mkFK, bind, Except.bind]
          exact ⟨_, _, _, ⟨rfl, rfl, rfl⟩, by simp⟩
        by_cases hl : (argCols a).length = (argCols b).length
        · simp only [KeyCall.run, Table.addForeignKeyArg, Table.addForeignKey, mkFK, bind, Except.bind, ha, hl]
          simp
          exact hl
        · simp [KeyCall.run, Table.addForeignKeyArg, Table.addForeignKey, mkFK, bind, Except.bind, ha, hl]
          exact ⟨_, _, _, ⟨rfl, rfl, rfl⟩, hl⟩
      · simp [KeyCall.run, Table.addForeignKeyArg]
      · simp [KeyCall.run, Table.addForeignKeyArg]
      · simp [KeyCall.run, Table.addForeignKeyArg]
    | rel obj tt n cc =>
      rcases obj with _ | (k | r | _)
      · rcases tt with _ | tt <;> rcases cc with _ | cc <;>
          simp [KeyCall.run, Table.addRelationshipArg, Table.addRelationship, mkRel, bind, Except.bind] <;>
          exact ⟨_, _, _, ⟨rfl, rfl, rfl⟩, by simp⟩
      · simp [KeyCall.run, Table.addRelationshipArg]
      · simp [KeyCall.run, Table.addRelationshipArg]
      · simp [KeyCall.run, Table.addRelationshipArg]

/-- Non-trivial case: objects, details, a replacement, a relationship given as a foreign key and details that are refused. -/
example :
    let t0 : Table := ⟨c!"t", c!"s", [], none, [], [], []⟩
    let calls : List KeyCall := [.fk none (some (.one c!"a")) (some c!"u") (some (.one c!"x")) none,
      .fk (some (.rel ⟨c!"r", c!"t", c!"u", c!"t.a < u.x"⟩)) none none none none,
      .rel none (some c!"v") none (some c!"t.a < v.x"),
      .fk (some (.fk ⟨c!"k", c!"t", [c!"a"], c!"w", [c!"x"]⟩)) none (some c!"ignored") none none,
      .fk none (some (.many [c!"a", c!"b"])) (some c!"u") (some (.one c!"x")) none,
      .fk none (some (.many [c!"a", c!"b"])) (some c!"u") (some (.many [c!"x", c!"y"])) none,
      .rel none none (some c!"r") (some c!"t.a < v.x")]
    let t := calls.foldl (fun t c => (KeyCall.run t c).1) t0
    t.foreignKeysIter.map (fun k => [k.name, k.toTable] ++ k.fromKeys) = [[c!"FK_t_to_u", c!"u", c!"a", c!"b"], [c!"k", c!"w", c!"a"]] ∧
    t.relationshipsIter.map (·.name) = [c!"REL_t_to_v"] ∧
    (calls.map fun c => (KeyCall.run t0 c).2) = [none, some .value, none, none, some .value, none, some .assertion] := by
  decide

/-! ## C06: constructors -/

/-- The column types ThoughtSpot knows (README, dt/model.py docstring): the scalar types and `VARCHAR...`. -/
def TsType (t : Str) : Prop :=
  t = c!"DOUBLE" ∨ t = c!"FLOAT" ∨ t = c!"BOOL" ∨ t = c!"INT" ∨ t = c!"BIGINT" ∨ t = c!"DATE" ∨ t = c!"DATETIME" ∨
  t = c!"TIMESTAMP" ∨ t = c!"TIME" ∨ t = c!"UNKNOWN" ∨ ∃ rest, t = c!"VARCHAR" ++ rest

theorem valid_iff_tsType (t : Str) :
    (validTypes.contains t = true ∨ startsWith t c!"VARCHAR" = true) ↔ TsType t := by
  have hv : startsWith t c!"VARCHAR" = true ↔ ∃ rest, t = c!"VARCHAR" ++ rest := by
    simp only [startsWith, List.isPrefixOf_iff_prefix]
    exact ⟨fun ⟨r, h⟩ => ⟨r, h.symm⟩, fun ⟨r, h⟩ => ⟨r, h.symm⟩⟩
  rw [hv]
  simp only [validTypes, List.contains_iff_mem, List.mem_cons, List.not_mem_nil, or_false, TsType]
  constructor
  · rintro ((h | h | h | h | h | h | h | h | h | h | h) | h)
    · exact Or.inr (Or.inr (Or.inr (Or.inr (Or.inr (Or.inr (Or.inr (Or.inr (Or.inr (Or.inr ⟨[], by simp [h]⟩)))))))))
    all_goals simp [h]
    all_goals simp_all
  · intro h
    rcases h with h | h | h | h | h | h | h | h | h | h | h
    all_goals first
      | exact Or.inr h
      | exact Or.inl (by simp [h])

/-- **C06** (columns). A column is built exactly for a non-None name and a ThoughtSpot type, and holds what was given. -/
theorem C06_column_constructor (n t : Option Str) (c : Column) :
    mkColumn n t = .ok c ↔ ∃ n' t', n = some n' ∧ t = some t' ∧ TsType t' ∧ c = ⟨n', t'⟩ := by
  cases n with
  | none => simp [mkColumn]
  | some n =>
    cases t with
    | none => simp [mkColumn]
    | some t =>
      have := valid_iff_tsType t
      simp only [mkColumn]
      by_cases hv : validTypes.contains t = true ∨ startsWith t c!"VARCHAR" = true
      · have hv' : ¬ (¬ validTypes.contains t = true ∧ ¬ startsWith t c!"VARCHAR" = true) := by
          rintro ⟨h1, h2⟩; rcases hv with h | h <;> contradiction
        rw [if_neg hv']
        constructor
        · intro h; simp at h; exact ⟨n, t, rfl, rfl, this.1 hv, h.symm⟩
        · rintro ⟨_, _, h1, h2, _, h3⟩; simp at h1 h2; subst h1; subst h2; simp [h3]
      · have hv' : ¬ validTypes.contains t = true ∧ ¬ startsWith t c!"VARCHAR" = true := by
          constructor
          · intro h; exact hv (Or.inl h)
          · intro h; exact hv (Or.inr h)
        rw [if_pos hv']
        constructor
        · intro h; simp at h
        · rintro ⟨_, t', h1, h2, h3, _⟩; simp at h1 h2; subst h2; exact absurd (this.2 h3) hv

/-- The columns a key argument denotes. -/
def KeyCols : KeyArg → List Str → Prop
  | .one c, l => l = [c]
  | .many cs, l => l = cs

/-- **C06** (foreign keys). A foreign key is built exactly for non-None arguments with equally many columns on both
sides; a scalar means a one-element list; the object holds what was given. -/
theorem C06_foreign_key_constructor (ft : Option Str) (fk : Option KeyArg) (tt : Option Str) (tk : Option KeyArg)
    (nm : Option Str) (r : FK) :
    mkFK ft fk tt tk nm = .ok r ↔
      ∃ ft' fk' tt' tk' fl tl, ft = some ft' ∧ fk = some fk' ∧ tt = some tt' ∧ tk = some tk' ∧ KeyCols fk' fl ∧
        KeyCols tk' tl ∧ fl.length = tl.length ∧
        r = ⟨nm.getD (c!"FK_" ++ ft' ++ c!"_to_" ++ tt'), ft', fl, tt', tl⟩ := by
  have hk : ∀ a l, KeyCols a l ↔ l = a.toList := by intro a l; cases a <;> simp [KeyCols, KeyArg.toList]
  cases ft <;> cases fk <;> cases tt <;> cases tk <;> simp [mkFK, hk]
  rename_i ft fk tt tk
  cases nm <;> by_cases hl : fk.toList.length = tk.toList.length <;> simp [hl, eq_comm]

/-- **C06** (errors). The two ways a foreign key can be refused: a missing argument or different key lengths. -/
theorem C06_foreign_key_errors (ft : Option Str) (fk : Option KeyArg) (tt : Option Str) (tk : Option KeyArg)
    (nm : Option Str) (e : PyErr) (h : mkFK ft fk tt tk nm = .error e) :
    (e = .assertion ∧ (ft = none ∨ fk = none ∨ tt = none ∨ tk = none)) ∨
    (e = .value ∧ ∃ a b fl tl, fk = some a ∧ tk = some b ∧ KeyCols a fl ∧ KeyCols b tl ∧ fl.length ≠ tl.length) := by
  have hk : ∀ a l, KeyCols a l ↔ l = a.toList := by intro a l; cases a <;> simp [KeyCols, KeyArg.toList]
  cases ft with
  | none => simp [mkFK] at h; exact Or.inl ⟨h.symm, by simp⟩
  | some ft =>
  cases fk with
  | none => simp [mkFK] at h; exact Or.inl ⟨h.symm, by simp⟩
  | some fk =>
  cases tt with
  | none => simp [mkFK] at h; exact Or.inl ⟨h.symm, by simp⟩
  | some tt =>
  cases tk with
  | none => simp [mkFK] at h; exact Or.inl ⟨h.symm, by simp⟩
  | some tk =>
  by_cases hl : fk.toList.length = tk.toList.length
  · simp [mkFK, hl] at h
  · simp [mkFK, hl] at h
    exact Or.inr ⟨h.symm, fk, tk, fk.toList, tk.toList, rfl, rfl, (hk _ _).2 rfl, (hk _ _).2 rfl, hl⟩

/-- **C06** (shard and primary keys). The lists held are the columns denoted by the argument. -/
theorem C06_keys_normalised (k : KeyArg) (n : ShardCount) (t : Table) (l : List Str) (hl : KeyCols k l) :
    mkShardKey (some k) (some n) = .ok ⟨l, n⟩ ∧ t.setPrimaryKey (some k) = .ok { t with pk := l } ∧
    (∀ nm s, mkTable (some nm) (some s) (some k) none = .ok ⟨nm, s, l, none, [], [], []⟩) := by
  cases k <;> simp [KeyCols] at hl <;> subst hl <;> simp [mkShardKey, Table.setPrimaryKey, mkTable, KeyArg.toList]

/-- Non-trivial cases. -/
example : mkColumn (some c!"c") (some c!"VARCHAR(12)") = .ok ⟨c!"c", c!"VARCHAR(12)"⟩ ∧
    mkColumn (some c!"c") (some c!"TEXT") = .error .value ∧
    mkFK (some c!"a") (some (.one c!"x")) (some c!"b") (some (.many [c!"y"])) none =
      .ok ⟨c!"FK_a_to_b", c!"a", [c!"x"], c!"b", [c!"y"]⟩ ∧
    mkFK (some c!"a") (some (.one c!"x")) (some c!"b") (some (.many [c!"y", c!"z"])) none = .error .value := by
  decide

/-! ## C97: primary keys -/

/-- The primary keys a call of `set_primary_key` asks for: the column, or the columns of the list. -/
def AsksKey : Table.PkArg → List Str → Prop
  | .key (.one c), l => l = [c]
  | .key (.many cs), l => l = cs
  | _, _ => False

/-- The table after calls of `set_primary_key`, with the exceptions they raised. -/
def setKeys (t : Table) : List Table.PkArg → Table × List PyErr
  | [] => (t, [])
  | a :: as =>
    let (t1, e) := t.setPrimaryKeyCall a
    let (t2, es) := setKeys t1 as
    (t2, e.toList ++ es)

theorem setKeys_append (t : Table) (as bs : List Table.PkArg) :
    setKeys t (as ++ bs) = ((setKeys (setKeys t as).1 bs).1, (setKeys t as).2 ++ (setKeys (setKeys t as).1 bs).2) := by
  induction as generalizing t with
  | nil => rfl
  | cons a as ih => simp [setKeys, ih]

theorem setKeys_fields (t : Table) (as : List Table.PkArg) : (setKeys t as).1 = { t with pk := (setKeys t as).1.pk } := by
  induction as generalizing t with
  | nil => rfl
  | cons a as ih =>
    simp only [setKeys]
    rw [ih]
    rcases a with _ | k | _ <;> rfl

/-- **C97**, in part: if no call gets something other than a text, a list or `None`, then the primary key after the calls is that of the last call that
asked for one, or else the one from before; nothing else of the table changes, and an exception is raised exactly for each `None`.
Missing: other arguments, see `C97_other` and `C97_key_lost`. -/
theorem C97_primary_key_partial (t : Table) (calls : List Table.PkArg) (h : .other ∉ calls) :
    ∃ l, (setKeys t calls).1 = { t with pk := l } ∧
      ((∃ as a bs, calls = as ++ a :: bs ∧ AsksKey a l ∧ ∀ b ∈ bs, ∀ l', ¬ AsksKey b l') ∨ ((∀ b ∈ calls, ∀ l', ¬ AsksKey b l') ∧ l = t.pk)) ∧
      (setKeys t calls).2 = List.replicate (calls.count .none) .assertion := by
  induction calls using snocInd with
  | nil => exact ⟨t.pk, rfl, .inr ⟨by simp, rfl⟩, rfl⟩
  | append_singleton as a ih =>
    obtain ⟨l, e, hl, he⟩ := ih (fun hm => h (by simp [hm]))
    rw [setKeys_append, e, he]
    rcases a with _ | k | _
    · refine ⟨l, rfl, ?_, by simp [setKeys, Table.setPrimaryKeyCall, List.replicate_succ', List.count_append]⟩
      have hn : ∀ l', ¬ AsksKey .none l' := by intro l' hl'; cases hl'
      rcases hl with ⟨xs, x, ys, rfl, h1, h2⟩ | ⟨h1, h2⟩
      · refine .inl ⟨xs, x, ys ++ [.none], by simp, h1, fun b hb => ?_⟩
        rcases List.mem_append.1 hb with hb | hb
        · exact h2 b hb
        · rw [List.mem_singleton.1 hb]; exact hn
      · refine .inr ⟨fun b hb => ?_, h2⟩
        rcases List.mem_append.1 hb with hb | hb
        · exact h1 b hb
        · rw [List.mem_singleton.1 hb]; exact hn
    · refine ⟨k.toList, rfl, .inl ⟨as, _, [], rfl, ?_, by simp⟩, by simp [setKeys, Table.setPrimaryKeyCall, List.count_append]⟩
      cases k <;> rfl
    · exact absurd (by simp) h

/-- **C97** (other arguments). Anything else raises `ValueError`, and the table has lost its primary key. -/
theorem C97_other (t : Table) (calls : List Table.PkArg) :
    (setKeys t (calls ++ [.other])).1 = { t with pk := [] } ∧ (setKeys t (calls ++ [.other])).2.getLast? = some .value := by
  rw [setKeys_append, setKeys_fields t calls]
  exact ⟨rfl, by simp [setKeys, Table.setPrimaryKeyCall]⟩

/-- **C97** fails: a refused call can change the table. -/
theorem C97_key_lost : ∃ t : Table, ∃ t' e, t.setPrimaryKeyCall .other = (t', some e) ∧ t' ≠ t :=
  ⟨⟨c!"t", c!"s", [c!"a"], none, [], [], []⟩, _, _, rfl, by decide⟩

example : setKeys ⟨c!"t", c!"s", [c!"a"], none, [], [], []⟩ [.key (.many [c!"b", c!"c"]), .none, .key (.one c!"d"), .none] =
    (⟨c!"t", c!"s", [c!"d"], none, [], [], []⟩, [.assertion, .assertion]) := by decide

end Verif.Props
