import Verif.Parser
import Verif.Lemmas.Re
import Verif.Lemmas.WellKeyed
import Verif.Spec.Parse
import Verif.Props.Types
/-
Helper lemmas for the properties of whole parses.
-/

namespace Verif
open Verif.Spec

/-! ## Names come from the statement -/

theorem cleanName_mentions {stmt s : Str} (h : s <:+: stmt) : Mentions stmt (cleanName s) := by
  unfold Mentions cleanName
  rw [replace_char_nil, replace_char_nil, replace_char_nil, replace_char_nil, replace_char_nil, List.filter_filter,
    List.filter_filter, List.filter_filter, List.filter_filter]
  have e : ∀ l : Str, (l.filter (fun a => decide (a ≠ ']') && decide (a ≠ '[') && decide (a ≠ '\'') && decide (a ≠ '"') &&
      decide (a ≠ '\t'))) = l.filter (fun c => !noise.contains c) := by
    intro l
    apply List.filter_congr
    intro c _
    unfold noise
    by_cases h1 : c = ']'
    · subst h1; rfl
    by_cases h2 : c = '['
    · subst h2; rfl
    by_cases h3 : c = '\''
    · subst h3; rfl
    by_cases h4 : c = '"'
    · subst h4; rfl
    by_cases h5 : c = '\t'
    · subst h5; rfl
    simp [h1, h2, h3, h4, h5]
  rw [e]
  exact (((strip_infix _).trans (getLastD_splitC_infix (c := '.') (s := s))).trans h).filter _

theorem headD_splitC_infix {c : Char} {s : Str} : (splitC c s).headD [] <:+: s := by
  cases hs : splitC c s with
  | nil => exact absurd hs (splitC_ne_nil c s)
  | cons p ps => exact splitC_infix (c := c) (by rw [hs]; simp)

theorem extractName_infix {s n : Str} (h : extractName s = some n) : n <:+: s := by
  unfold extractName at h
  split at h
  · cases h
  · cases h; exact headD_splitC_infix.trans (List.suffix_cons _ _).isInfix
  · cases h; exact headD_splitC_infix.trans (List.suffix_cons _ _).isInfix
  · cases h; exact headD_splitC_infix

theorem extractTableName_mentions {stmt s n : Str} (hs : s <:+: stmt) (h : extractTableName s = some n) : Mentions stmt n := by
  unfold extractTableName at h
  rw [Option.map_eq_some_iff] at h
  obtain ⟨m, hm, rfl⟩ := h
  exact cleanName_mentions (((extractName_infix hm).trans getLastD_splitC_infix).trans hs)

/-! ## What a statement changes -/

/-- The table called `n` is changed by something of kind `R`, everything else stays. -/
structure Touches (R : Table → Table → Prop) (n : Str) (db db' : Database) : Prop where
  name : db'.name = db.name
  schemas : db'.schemas = db.schemas
  tables : List.Forall₂ (fun p q => q.1 = p.1 ∧ (p.1 ≠ n → q.2 = p.2) ∧ (p.1 = n → R p.2 q.2)) db.tables db'.tables

theorem Touches.refl {R : Table → Table → Prop} (hR : ∀ t, R t t) (n : Str) (db : Database) : Touches R n db db :=
  ⟨rfl, rfl, by
    generalize db.tables = l
    induction l with
    | nil => exact .nil
    | cons p l ih => exact .cons ⟨rfl, fun _ => rfl, fun _ => hR _⟩ ih⟩

theorem Touches.trans {R : Table → Table → Prop} (hR : ∀ a b c, R a b → R b c → R a c) {n : Str} {db1 db2 db3 : Database}
    (h1 : Touches R n db1 db2) (h2 : Touches R n db2 db3) : Touches R n db1 db3 := by
  refine ⟨h2.name.trans h1.name, h2.schemas.trans h1.schemas, ?_⟩
  have a := h1.tables
  have b := h2.tables
  generalize db1.tables = l1 at a
  generalize db2.tables = l2 at a b
  generalize db3.tables = l3 at b
  induction a generalizing l3 with
  | nil => cases b; exact .nil
  | cons hp _ ih =>
    cases b with
    | cons hq hb =>
      refine .cons ⟨hq.1.trans hp.1, fun hn => ?_, fun hn => ?_⟩ (ih _ hb)
      · rw [hq.2.1 (by rw [hp.1]; exact hn), hp.2.1 hn]
      · exact hR _ _ _ (hp.2.2 hn) (hq.2.2 (by rw [hp.1]; exact hn))

theorem Touches.update {R : Table → Table → Prop} {n : Str} {db : Database} {f : Table → Table}
    (h : ∀ t, (n, t) ∈ db.tables → R t (f t)) : Touches R n db (db.updateTable n f) := by
  refine ⟨rfl, rfl, ?_⟩
  unfold Database.updateTable
  dsimp only
  generalize db.tables = l at h
  induction l with
  | nil => exact .nil
  | cons p l ih =>
    refine .cons ⟨?_, fun hn => ?_, fun hn => ?_⟩ (ih (fun t ht => h t (by simp [ht])))
    · dsimp only; split <;> rfl
    · dsimp only; rw [if_neg hn]
    · dsimp only; rw [if_pos hn]; exact h _ (by rw [← hn]; simp)

/-- A change of foreign keys only. -/
def FkChange (t t' : Table) : Prop := ∃ fks, t' = { t with fks := fks }

theorem FkChange.trans {a b c : Table} (h1 : FkChange a b) (h2 : FkChange b c) : FkChange a c := by
  obtain ⟨f, rfl⟩ := h1
  obtain ⟨g, rfl⟩ := h2
  exact ⟨g, rfl⟩

theorem addForeignKey_change {t t' : Table} {fk tk : Option KeyArg} {tt n : Option Str}
    (h : t.addForeignKey fk tt tk n = .ok t') : ∃ k, mkFK (some t.name) fk tt tk n = .ok k ∧ t' = t.addForeignKeyObj k := by
  unfold Table.addForeignKey at h
  cases hk : mkFK (some t.name) fk tt tk n with
  | error e => rw [hk] at h; cases h
  | ok k => rw [hk] at h; cases h; exact ⟨k, rfl, rfl⟩

theorem addRelationship_change {t t' : Table} {tt n c : Option Str}
    (h : t.addRelationship tt n c = .ok t') : ∃ r, mkRel (some t.name) tt c n = .ok r ∧ t' = t.addRelationshipObj r := by
  unfold Table.addRelationship at h
  cases hk : mkRel (some t.name) tt c n with
  | error e => rw [hk] at h; cases h
  | ok k => rw [hk] at h; cases h; exact ⟨k, rfl, rfl⟩

theorem unique_of_get? {db : Database} (hk : WellKeyed db) {n : Str} {t t' : Table} (h : db.getTable n = some t)
    (h' : (n, t') ∈ db.tables) : t' = t := by
  have := Dict.get?_of_mem hk.tables h'
  unfold Database.getTable at h
  rw [h] at this
  exact (Option.some.inj this).symm

/-! ## The invariant of a parse -/

/-- The invariant of one table. -/
structure TableOk (schema : Str) (t : Table) : Prop where
  keyed : TableKeyed t
  schema : t.schema = schema
  types : ∀ q ∈ t.cols, q.2.type ∈ Props.converted
  fks : ∀ q ∈ t.fks, q.2.fromTable = t.name ∧ q.2.fromKeys.length = q.2.toKeys.length
  rels : ∀ q ∈ t.rels, q.2.fromTable = t.name
  shard : ∀ k, t.shard = some k → k.keys ≠ [] ∧ ∃ n, k.number = .int n

/-- The invariant of a database. -/
structure DbOk (name schema : Str) (db : Database) : Prop where
  name : db.name = name
  keyed : WellKeyed db
  tables : ∀ p ∈ db.tables, TableOk schema p.2
  schemas : db.schemas.map Prod.fst = if db.tables = [] then [] else [schema]

theorem TableOk.addFK {s : Str} {t : Table} (h : TableOk s t) {k : FK} {fk tk : Option KeyArg} {tt n : Option Str}
    (hk : mkFK (some t.name) fk tt tk n = .ok k) : TableOk s (t.addForeignKeyObj k) := by
  refine ⟨h.keyed.addForeignKeyObj k, h.schema, h.types, fun q hq => ?_, h.rels, h.shard⟩
  rcases Dict.mem_set_of hq with rfl | hq
  · cases fk <;> cases tt <;> cases tk <;> simp only [mkFK, reduceCtorEq] at hk
    split at hk
    · cases hk
    · rename_i hl
      cases hk
      exact ⟨rfl, not_not.1 hl⟩
  · exact h.fks q hq

theorem TableOk.addRel {s : Str} {t : Table} (h : TableOk s t) {r : Rel} {tt n c : Option Str}
    (hk : mkRel (some t.name) tt c n = .ok r) : TableOk s (t.addRelationshipObj r) := by
  refine ⟨h.keyed.addRelationshipObj r, h.schema, h.types, h.fks, fun q hq => ?_, h.shard⟩
  rcases Dict.mem_set_of hq with rfl | hq
  · cases tt <;> cases c <;> simp only [mkRel, reduceCtorEq] at hk
    cases hk
    rfl
  · exact h.rels q hq

theorem DbOk.update {m s n : Str} {db : Database} (h : DbOk m s db) {f : Table → Table}
    (hf : ∀ t, (n, t) ∈ db.tables → TableOk s t → TableOk s (f t) ∧ (f t).name = t.name) : DbOk m s (db.updateTable n f) := by
  refine ⟨h.name, ?_, ?_, ?_⟩
  · exact h.keyed.updateTable (fun t ht _ => ⟨(hf t ht (h.tables _ ht)).1.keyed, (hf t ht (h.tables _ ht)).2⟩)
  · intro p hp
    obtain ⟨q, hq, e, h1 | h1⟩ := mem_updateTable hp
    · have hq' : (n, q.2) ∈ db.tables := by rw [← h1.1, e]; exact hq
      rw [h1.2]; exact (hf q.2 hq' (h.tables q hq)).1
    · rw [h1.2]; exact h.tables q hq
  · have e : (db.updateTable n f).tables = [] ↔ db.tables = [] := by simp [Database.updateTable]
    rw [if_congr e rfl rfl]
    exact h.schemas

theorem DbOk.addPrimaryKey {m s : Str} {db : Database} (h : DbOk m s db) (stmt : Str) : DbOk m s (addPrimaryKey db stmt) := by
  unfold Verif.addPrimaryKey
  split
  · split
    · exact h.update (fun t _ ht => ⟨⟨⟨ht.keyed.cols, ht.keyed.colNames, ht.keyed.fks, ht.keyed.fkNames, ht.keyed.rels,
        ht.keyed.relNames⟩, ht.schema, ht.types, ht.fks, ht.rels, ht.shard⟩, rfl⟩)
    · exact h
  · exact h

theorem storeForeignKey_spec {m s : Str} {db db' : Database} (h : DbOk m s db) {n : Str}
    {k : Option Str × List Str × Str × List Str} (hs : storeForeignKey db n k = some db') :
    DbOk m s db' ∧ Touches FkChange n db db' := by
  unfold storeForeignKey at hs
  split at hs
  · cases hs; exact ⟨h, .refl (fun t => ⟨t.fks, rfl⟩) n db⟩
  · rename_i t ht
    split at hs
    · rename_i t' ht'
      cases hs
      obtain ⟨k, hk, rfl⟩ := addForeignKey_change ht'
      refine ⟨h.update (fun u hu hok => ?_), .update (fun u hu => ?_)⟩
      · rw [unique_of_get? h.keyed ht hu] at hok ⊢
        exact ⟨hok.addFK hk, rfl⟩
      · rw [unique_of_get? h.keyed ht hu]
        exact ⟨_, rfl⟩
    · cases hs

theorem addConstraints_spec {m s : Str} {n : Str} (l : List Str) : ∀ {db : Database}, DbOk m s db →
    DbOk m s (addConstraints n db l) ∧ Touches FkChange n db (addConstraints n db l) := by
  induction l with
  | nil => intro db h; exact ⟨h, .refl (fun t => ⟨t.fks, rfl⟩) n db⟩
  | cons c l ih =>
    intro db h
    unfold addConstraints
    cases hr : readConstraint c with
    | none => exact ⟨h, .refl (fun t => ⟨t.fks, rfl⟩) n db⟩
    | some k =>
      dsimp only
      cases hs : storeForeignKey db n k with
      | none => exact ⟨h, .refl (fun t => ⟨t.fks, rfl⟩) n db⟩
      | some db' =>
        dsimp only
        obtain ⟨h1, h2⟩ := storeForeignKey_spec h hs
        obtain ⟨h3, h4⟩ := ih h1
        exact ⟨h3, Touches.trans (R := FkChange) (fun _ _ _ a b => FkChange.trans a b) h2 h4⟩

/-- The same without the invariant. -/
theorem addConstraints_touches {n : Str} (l : List Str) : ∀ {db : Database}, WellKeyed db →
    Touches FkChange n db (addConstraints n db l) := by
  induction l with
  | nil => intro db _; exact .refl (fun t => ⟨t.fks, rfl⟩) n db
  | cons c l ih =>
    intro db h
    unfold addConstraints
    cases hr : readConstraint c with
    | none => exact .refl (fun t => ⟨t.fks, rfl⟩) n db
    | some k =>
      dsimp only
      unfold storeForeignKey
      cases ht : db.getTable n with
      | none => exact ih h
      | some t =>
        dsimp only
        cases ht' : t.addForeignKey (some (.many k.2.1)) (some k.2.2.1) (some (.many k.2.2.2)) k.1 with
        | error e => exact .refl (fun t => ⟨t.fks, rfl⟩) n db
        | ok t' =>
          obtain ⟨k', -, rfl⟩ := addForeignKey_change ht'
          dsimp only
          have h1 : Touches FkChange n db (db.updateTable n (fun _ => t.addForeignKeyObj k')) :=
            .update (fun u hu => by rw [unique_of_get? h ht hu]; exact ⟨_, rfl⟩)
          refine Touches.trans (R := FkChange) (fun _ _ _ a b => FkChange.trans a b) h1 (ih ?_)
          refine h.updateTable (fun u hu hok => ?_)
          rw [unique_of_get? h ht hu] at hok ⊢
          exact ⟨hok.addForeignKeyObj k', rfl⟩

theorem DbOk.addForeignKeyStmt {m s : Str} {db : Database} (h : DbOk m s db) (stmt : Str) :
    DbOk m s (addForeignKeyStmt db stmt) := by
  unfold Verif.addForeignKeyStmt
  split
  · exact (addConstraints_spec _ h).1
  · exact h

theorem DbOk.addGenericRelationship {m s : Str} {db : Database} (h : DbOk m s db) (stmt : Str) :
    DbOk m s (addGenericRelationship db stmt) := by
  unfold Verif.addGenericRelationship
  split
  · exact h
  · split
    · exact h
    · rename_i t ht
      split
      · rename_i t' ht'
        obtain ⟨r, hr, rfl⟩ := addRelationship_change ht'
        refine h.update (fun u hu hok => ?_)
        rw [unique_of_get? h.keyed ht hu] at hok ⊢
        exact ⟨hok.addRel hr, rfl⟩
      · exact h

theorem mkColumn_type {n ty : Str} {c : Column} (h : mkColumn (some n) (some ty) = .ok c) : c = ⟨n, ty⟩ := by
  unfold mkColumn at h
  dsimp only at h
  split at h
  · cases h
  · cases h; rfl

theorem fieldColumn_type {rf : Str} {c : Column} (h : fieldColumn rf = .ok c) : c.type ∈ Props.converted := by
  unfold fieldColumn at h
  split at h
  · cases h
  · dsimp only at h
    split at h
    · cases h
    · rename_i ty hty
      rw [mkColumn_type h]
      rcases Props.C29_type_is_valid _ c.name with ⟨ty', h1, h2, -⟩ | h1
      · rw [h1] at hty; cases hty; exact h2
      · rw [h1] at hty; cases hty

theorem addField_spec {s : Str} {acc acc' : Table × List Column} {rf : Str} (h : addField acc rf = .ok acc')
    (h1 : TableOk s acc.1 ∧ acc.1.fks = [] ∧ acc.1.rels = []) (h2 : ∀ c ∈ acc.2, c.type ∈ Props.converted) :
    (TableOk s acc'.1 ∧ acc'.1.fks = [] ∧ acc'.1.rels = []) ∧ ∀ c ∈ acc'.2, c.type ∈ Props.converted := by
  unfold addField at h
  dsimp only at h
  split at h
  · split at h
    · cases h
      obtain ⟨ht, hf, hr⟩ := h1
      exact ⟨⟨⟨⟨ht.keyed.cols, ht.keyed.colNames, ht.keyed.fks, ht.keyed.fkNames, ht.keyed.rels, ht.keyed.relNames⟩,
        ht.schema, ht.types, ht.fks, ht.rels, ht.shard⟩, hf, hr⟩, h2⟩
    · cases h; exact ⟨h1, h2⟩
  · split at h
    · cases h
    · rename_i c hc
      cases h
      refine ⟨h1, fun x hx => ?_⟩
      rcases List.mem_append.1 hx with hx | hx
      · exact h2 x hx
      · rw [List.mem_singleton.1 hx]; exact fieldColumn_type hc

theorem foldlM_addField_spec {s : Str} (l : List Str) : ∀ {acc acc' : Table × List Column},
    l.foldlM addField acc = Except.ok acc' →
    (TableOk s acc.1 ∧ acc.1.fks = [] ∧ acc.1.rels = []) → (∀ c ∈ acc.2, c.type ∈ Props.converted) →
    (TableOk s acc'.1 ∧ acc'.1.fks = [] ∧ acc'.1.rels = []) ∧ ∀ c ∈ acc'.2, c.type ∈ Props.converted := by
  induction l with
  | nil => intro acc acc' h h1 h2; cases h; exact ⟨h1, h2⟩
  | cons rf l ih =>
    intro acc acc' h h1 h2
    rw [List.foldlM_cons] at h
    cases ha : addField acc rf with
    | error e => rw [ha] at h; cases h
    | ok a =>
      rw [ha] at h
      obtain ⟨g1, g2⟩ := addField_spec ha h1 h2
      exact ih h g1 g2

theorem addColumns_ok {s : Str} (cs : List Column) : ∀ {t : Table}, TableOk s t → (∀ c ∈ cs, c.type ∈ Props.converted) →
    TableOk s (t.addColumns cs) := by
  unfold Table.addColumns
  induction cs with
  | nil => intro t h _; exact h
  | cons c cs ih =>
    intro t h hc
    rw [List.foldl_cons]
    refine ih ⟨h.keyed.addColumn c, h.schema, fun q hq => ?_, h.fks, h.rels, h.shard⟩ (fun x hx => hc x (by simp [hx]))
    rcases Dict.mem_set_of hq with rfl | hq
    · exact hc c (by simp)
    · exact h.types q hq

theorem TableOk.addHashKey {s : Str} {t : Table} (h : TableOk s t) (stmt : Str) : TableOk s (addHashKey t stmt) := by
  unfold Verif.addHashKey
  split
  · split
    · refine ⟨⟨h.keyed.cols, h.keyed.colNames, h.keyed.fks, h.keyed.fkNames, h.keyed.rels, h.keyed.relNames⟩,
        h.schema, h.types, h.fks, h.rels, fun k hk => ?_⟩
      cases hk
      exact ⟨by simp [cleanNames, splitC_ne_nil], _, rfl⟩
    · exact h
  · exact h

theorem addTable_schemas {s : Str} {db : Database} {t : Table}
    (h : db.schemas.map Prod.fst = if db.tables = [] then [] else [s]) (ht : t.schema = s) :
    (db.addTable t).schemas.map Prod.fst = if (db.addTable t).tables = [] then [] else [s] := by
  have hne : (db.addTable t).tables ≠ [] := by
    intro e
    have : (db.addTable t).tables.get? t.name = some t := Dict.get?_set_self _ _ _
    rw [e] at this
    cases this
  rw [if_neg hne]
  show (db.schemas.set t.schema _).map Prod.fst = _
  rw [ht]
  split at h
  · rw [List.map_eq_nil_iff.1 h]; rfl
  · match hd : db.schemas, h with
    | [(a, n)], h =>
      simp only [List.map_cons, List.map_nil, List.cons.injEq, and_true] at h
      subst h
      simp [Dict.set]

theorem DbOk.parseCreateTable {m s : Str} {db db' : Database} (h : DbOk m s db) {stmt : Str}
    (hp : parseCreateTable s db stmt = .ok db') : DbOk m s db' := by
  unfold Verif.parseCreateTable addColumnsOf mkTable at hp
  dsimp only [bind, Except.bind] at hp
  split at hp
  · cases hp
  · rename_i t ht
    split at ht
    · cases ht
    · rename_i acc hacc
      cases ht
      obtain ⟨⟨g1, -, -⟩, g2⟩ := foldlM_addField_spec (s := s) _ hacc
        ⟨⟨⟨by simp, by simp, by simp, by simp, by simp, by simp⟩, rfl, by simp, by simp, by simp, by simp⟩, rfl, rfl⟩ (by simp)
      have ok := addColumns_ok _ g1 g2
      have ok2 : TableOk s (if hasSub c!"partition by hash" (lower (replace c!"]" c!"\"" (replace c!"[" c!"\"" stmt))) then
          addHashKey (acc.1.addColumns acc.2) (replace c!"]" c!"\"" (replace c!"[" c!"\"" stmt)) else acc.1.addColumns acc.2) := by
        split
        · exact ok.addHashKey _
        · exact ok
      cases hp
      refine ⟨h.name, h.keyed.addTable ok2.keyed, fun p hp => ?_, addTable_schemas h.schemas ok2.schema⟩
      rcases Dict.mem_set_of hp with rfl | hp
      · exact ok2
      · exact h.tables p hp

theorem DbOk.parseStatement {m s : Str} {db db' : Database} (h : DbOk m s db) {stmt : Str}
    (hp : parseStatement s db stmt = .ok db') : DbOk m s db' := by
  unfold Verif.parseStatement at hp
  dsimp only at hp
  split at hp
  · cases hp; exact h
  split at hp
  · exact h.parseCreateTable hp
  split at hp
  · split at hp
    · cases hp; exact h.addPrimaryKey stmt
    split at hp
    · cases hp; exact h.addForeignKeyStmt stmt
    split at hp
    · cases hp; exact h.addGenericRelationship stmt
    · cases hp; exact h
  · cases hp; exact h

theorem DbOk.parseStatements {m s : Str} (l : List Str) : ∀ {db : Database}, DbOk m s db →
    DbOk m s (parseStatements s db l).1 := by
  induction l with
  | nil => intro db h; exact h
  | cons x l ih =>
    intro db h
    unfold Verif.parseStatements
    cases hp : Verif.parseStatement s db x with
    | ok db' => exact ih (h.parseStatement hp)
    | error e => exact h

theorem DbOk.empty (m s : Str) : DbOk m s (Database.empty m) :=
  ⟨rfl, wellKeyed_empty m, by simp [Database.empty], rfl⟩

end Verif
