import Verif.Props.StrictServer
import Verif.Props.MigrateExact
import Verif.Lemmas.Again
/-
C13, C24, C25, C26 and C88: the exact conditions under which the claims hold.
-/

namespace Verif.Props
open Verif Verif.Spec

/-! ## C13 -/

/-- C13: swapping the databases swaps the reports exactly if no foreign key between equally named columns meets, under the same name and between the same tables, one between
differently named columns. -/
theorem C13_exactly {db1 db2 : Database} (h1 : WellKeyed db1) (h2 : WellKeyed db2) (shared : Str → Bool) :
    compareDatabases shared db2 db1 = (compareDatabases shared db1 db2).swap ↔ FksComparable db1 db2 := by
  refine ⟨fun h => ?_, C13_swap_partial h1 h2 shared⟩
  intro n t1 t2 ht1 ht2 m k1 k2 hk1 hk2 e1 e2
  have u1 : ∀ a, (m, a) ∈ t1.fks → a = k1 := by
    intro a ha
    have f := h1.fks n t1 ht1
    have x := (Dict.mem_iff_get? f).1 ha
    rw [(Dict.mem_iff_get? f).1 hk1] at x
    exact (Option.some.inj x).symm
  have u2 : ∀ a, (m, a) ∈ t2.fks → a = k2 := by
    intro a ha
    have f := h2.fks n t2 ht2
    have x := (Dict.mem_iff_get? f).1 ha
    rw [(Dict.mem_iff_get? f).1 hk2] at x
    exact (Option.some.inj x).symm
  have a := (C16_foreign_keys_partial h1 h2 shared n t1 t2 ht1 ht2 db1.name k1 m).2.1
  have b := (C16_foreign_keys_partial h2 h1 shared n t2 t1 ht2 ht1 db1.name k1 m).2.2.2
  rw [h] at b
  have c := a.symm.trans b
  have l : (db1.name = db1.name ∧ ∃ a, (m, a) ∈ t1.fks ∧ ∀ b, (m, b) ∈ t2.fks → FkReported a b) ↔ ¬ k1.fromKeys.Perm k1.toKeys := by
    constructor
    · rintro ⟨-, a, ha, hb⟩
      have := hb k2 hk2
      rw [u1 a ha] at this
      exact (this.resolve_left (fun x => x e1)).resolve_left (fun x => x e2)
    · exact fun x => ⟨rfl, k1, hk1, fun b _ => .inr (.inr x)⟩
  have r : (db1.name = db1.name ∧ ∃ b, (m, b) ∈ t1.fks ∧ ∀ a, (m, a) ∈ t2.fks → FkReported a b) ↔ ¬ k2.fromKeys.Perm k2.toKeys := by
    constructor
    · rintro ⟨-, a, ha, hb⟩
      have := hb k2 hk2
      rw [u1 a ha] at this
      exact (this.resolve_left (fun x => x e1.symm)).resolve_left (fun x => x e2.symm)
    · exact fun x => ⟨rfl, k1, hk1, fun b hb => by rw [u2 b hb]; exact .inr (.inr x)⟩
  exact not_iff_not.1 (l.symm.trans (c.trans r))

/-- Two databases for which the reports are not swapped. -/
example : WellKeyed dbFkSame ∧ WellKeyed dbFk ∧ ¬ FksComparable dbFkSame dbFk := by
  refine ⟨by decide, by decide, fun h => ?_⟩
  have := (C13_exactly (db1 := dbFkSame) (db2 := dbFk) (by decide) (by decide) (fun _ => true)).2 h
  revert this
  decide

/-! ## C24 -/

/-- Every table a statement refers to is created by a statement before it. -/
def CreatedBefore (sts : List Stmt) : Prop :=
  ∀ pre x post, sts = pre ++ x :: post → ∀ r ∈ refers x, ∃ cols pk sh, .createTable r.1 r.2 cols pk sh ∈ pre

/-- Both ends of every foreign key and relationship are tables in the schema of the table it is stored on. -/
def EndsInSchema (db : Database) : Prop :=
  ∀ n t, TableOf db n t →
    (∀ m k, (m, k) ∈ t.fks → (∃ u, TableOf db k.fromTable u ∧ u.schema = t.schema) ∧ ∃ u, TableOf db k.toTable u ∧ u.schema = t.schema) ∧
    (∀ m r, (m, r) ∈ t.rels → (∃ u, TableOf db r.fromTable u ∧ u.schema = t.schema) ∧ ∃ u, TableOf db r.toTable u ∧ u.schema = t.schema)

theorem mem_iter {db : Database} {t : Table} : t ∈ db.iter ↔ ∃ n, TableOf db n t := by
  simp only [Database.iter, Dict.vals, List.mem_map, TableOf]
  exact ⟨fun ⟨p, hp, e⟩ => ⟨p.1, e ▸ hp⟩, fun ⟨n, h⟩ => ⟨_, h, rfl⟩⟩

/-- C24: everything a key statement refers to is created before it exactly if both ends of every key are in the schema of the table the key is stored on. -/
theorem C24_exactly (create : Bool) {db : Database} (hw : WellKeyed db) (hp : PlainDb db) :
    ∃ sts, (writeTql { createDb := create } db).2 = none ∧ readScript (writeTql { createDb := create } db).1 = some sts ∧
      (CreatedBefore sts ↔ EndsInSchema db) := by
  have hok := writeTql_ok (o := { createDb := create }) hp (.inr (.inr rfl))
  refine ⟨_, hok, writeTql_reads hp hok, ?_⟩
  have spec : ∀ s n cols pk sh, Stmt.createTable s n cols pk sh ∈ tqlStmts { createDb := create } db → ∃ u, TableOf db n u ∧ u.schema = s := by
    intro s n cols pk sh hm
    unfold tqlStmts headStmts at hm
    simp only [List.mem_append, List.mem_flatMap] at hm
    rcases hm with ((hm | ⟨t, ht, hm⟩) | ⟨t, ht, hm⟩) | ⟨t, ht, hm⟩
    · rcases hm with (hm | hm) | hm
      · split at hm <;> simp at hm
      · simp at hm
      · split at hm <;> simp at hm
    · simp only [List.mem_cons, List.not_mem_nil, or_false] at hm
      rcases hm with hm | hm
      · cases hm
      · simp only [createStmt, caseD_default, Stmt.createTable.injEq] at hm
        obtain ⟨rfl, rfl, -⟩ := hm
        obtain ⟨m, hm⟩ := mem_iter.1 ht
        exact ⟨t, (hw.tableNames m t hm) ▸ hm, rfl⟩
    · obtain ⟨k, -, e⟩ := List.mem_map.1 hm; cases e
    · obtain ⟨k, -, e⟩ := List.mem_map.1 hm; cases e
  constructor
  · intro h n t ht
    have use : ∀ x ∈ tqlStmts { createDb := create } db, ∀ r ∈ refers x, ∃ u, TableOf db r.2 u ∧ u.schema = r.1 := by
      intro x hx r hr
      obtain ⟨pre, post, e⟩ := List.append_of_mem hx
      obtain ⟨cols, pk, sh, hc⟩ := h pre x post e r hr
      exact spec r.1 r.2 cols pk sh (by rw [e]; exact List.mem_append_left _ hc)
    have hti := mem_iter.2 ⟨n, ht⟩
    constructor
    · intro m k hk
      have hx : Stmt.alter t.schema k.fromTable (.addFK k.name k.fromKeys (some t.schema) k.toTable k.toKeys) ∈ tqlStmts { createDb := create } db := by
        unfold tqlStmts
        refine List.mem_append_left _ (List.mem_append_right _ (List.mem_flatMap.2 ⟨t, hti, ?_⟩))
        exact List.mem_map.2 ⟨k, List.mem_map.2 ⟨_, hk, rfl⟩, by simp [caseD_default]⟩
      exact ⟨use _ hx (t.schema, k.fromTable) (by simp [refers]), use _ hx (t.schema, k.toTable) (by simp [refers])⟩
    · intro m k hk
      have hx : Stmt.alter t.schema k.fromTable (.addRel k.name (some t.schema) k.toTable k.conditions) ∈ tqlStmts { createDb := create } db := by
        unfold tqlStmts
        refine List.mem_append_right _ (List.mem_flatMap.2 ⟨t, hti, ?_⟩)
        exact List.mem_map.2 ⟨k, List.mem_map.2 ⟨_, hk, rfl⟩, by simp [caseD_default]⟩
      exact ⟨use _ hx (t.schema, k.fromTable) (by simp [refers]), use _ hx (t.schema, k.toTable) (by simp [refers])⟩
  · intro h pre x post e r hr
    have nil_of : ∀ y ∈ headStmts { createDb := create } db ++ db.iter.flatMap (fun t => [.dropTable (caseD {} t.schema) (caseD {} t.name), createStmt {} t]), refers y = [] := by
      intro y hy
      rcases List.mem_append.1 hy with hy | hy
      · simp only [headStmts, List.mem_append] at hy
        rcases hy with (hy | hy) | hy
        · split at hy
          · simp only [List.mem_singleton] at hy; subst hy; rfl
          · cases hy
        · simp only [List.mem_singleton] at hy; subst hy; rfl
        · split at hy
          · obtain ⟨s, -, rfl⟩ := List.mem_map.1 hy; rfl
          · cases hy
      · obtain ⟨t, -, hy⟩ := List.mem_flatMap.1 hy
        simp only [List.mem_cons, List.not_mem_nil, or_false] at hy
        rcases hy with rfl | rfl <;> rfl
    have made : ∀ s n, (∃ u, TableOf db n u ∧ u.schema = s) → ∃ cols pk sh, Stmt.createTable s n cols pk sh ∈
        headStmts { createDb := create } db ++ db.iter.flatMap (fun t => [.dropTable (caseD {} t.schema) (caseD {} t.name), createStmt {} t]) := by
      rintro s n ⟨u, hu, rfl⟩
      refine ⟨u.cols.map (fun p => (colCase {} p.2.name, p.2.type)), u.pk, u.shard.map (fun k => (countText k.number, k.keys)),
        List.mem_append_right _ (List.mem_flatMap.2 ⟨u, mem_iter.2 ⟨n, hu⟩, ?_⟩)⟩
      rw [hw.tableNames n u hu]
      simp [createStmt, caseD_default]
    unfold tqlStmts at e
    rw [List.append_assoc] at e
    rcases List.append_eq_append_iff.1 e with ⟨l, e1, e2⟩ | ⟨l, e1, e2⟩
    · -- `x` is a key statement
      have hx : x ∈ db.iter.flatMap (fkStmts {}) ++ db.iter.flatMap (relStmts {}) := by rw [e2]; simp
      have sub : ∀ s n, (∃ u, TableOf db n u ∧ u.schema = s) → ∃ cols pk sh, Stmt.createTable s n cols pk sh ∈ pre := by
        intro s n hu
        obtain ⟨cols, pk, sh, hc⟩ := made s n hu
        exact ⟨cols, pk, sh, by rw [e1]; exact List.mem_append_left _ hc⟩
      rcases List.mem_append.1 hx with hx | hx
      · obtain ⟨t, hti, hx⟩ := List.mem_flatMap.1 hx
        obtain ⟨k, hk, rfl⟩ := List.mem_map.1 hx
        obtain ⟨q, hq, rfl⟩ := List.mem_map.1 hk
        obtain ⟨n, ht⟩ := mem_iter.1 hti
        obtain ⟨ha, hb⟩ := (h n t ht).1 q.1 q.2 hq
        simp only [refers, caseD_default, Option.getD_some, List.mem_cons, List.not_mem_nil, or_false] at hr
        rcases hr with rfl | rfl
        · exact sub _ _ ha
        · exact sub _ _ hb
      · obtain ⟨t, hti, hx⟩ := List.mem_flatMap.1 hx
        obtain ⟨k, hk, rfl⟩ := List.mem_map.1 hx
        obtain ⟨q, hq, rfl⟩ := List.mem_map.1 hk
        obtain ⟨n, ht⟩ := mem_iter.1 hti
        obtain ⟨ha, hb⟩ := (h n t ht).2 q.1 q.2 hq
        simp only [refers, caseD_default, Option.getD_some, List.mem_cons, List.not_mem_nil, or_false] at hr
        rcases hr with rfl | rfl
        · exact sub _ _ ha
        · exact sub _ _ hb
    · cases l with
      | nil =>
        -- the first key statement
        simp only [List.append_nil] at e1
        simp only [List.nil_append] at e2
        have hx : x ∈ db.iter.flatMap (fkStmts {}) ++ db.iter.flatMap (relStmts {}) := by rw [← e2]; simp
        have sub : ∀ s n, (∃ u, TableOf db n u ∧ u.schema = s) → ∃ cols pk sh, Stmt.createTable s n cols pk sh ∈ pre := by
          intro s n hu
          obtain ⟨cols, pk, sh, hc⟩ := made s n hu
          exact ⟨cols, pk, sh, by rw [← e1]; exact hc⟩
        rcases List.mem_append.1 hx with hx | hx
        · obtain ⟨t, hti, hx⟩ := List.mem_flatMap.1 hx
          obtain ⟨k, hk, rfl⟩ := List.mem_map.1 hx
          obtain ⟨q, hq, rfl⟩ := List.mem_map.1 hk
          obtain ⟨n, ht⟩ := mem_iter.1 hti
          obtain ⟨ha, hb⟩ := (h n t ht).1 q.1 q.2 hq
          simp only [refers, caseD_default, Option.getD_some, List.mem_cons, List.not_mem_nil, or_false] at hr
          rcases hr with rfl | rfl
          · exact sub _ _ ha
          · exact sub _ _ hb
        · obtain ⟨t, hti, hx⟩ := List.mem_flatMap.1 hx
          obtain ⟨k, hk, rfl⟩ := List.mem_map.1 hx
          obtain ⟨q, hq, rfl⟩ := List.mem_map.1 hk
          obtain ⟨n, ht⟩ := mem_iter.1 hti
          obtain ⟨ha, hb⟩ := (h n t ht).2 q.1 q.2 hq
          simp only [refers, caseD_default, Option.getD_some, List.mem_cons, List.not_mem_nil, or_false] at hr
          rcases hr with rfl | rfl
          · exact sub _ _ ha
          · exact sub _ _ hb
      | cons y l =>
        simp only [List.cons_append, List.cons.injEq] at e2
        obtain ⟨rfl, -⟩ := e2
        rw [nil_of x (by rw [e1]; simp)] at hr
        cases hr

/-- A database whose keys stay in their schema, and one with a key to another schema. -/
example : EndsInSchema snakeDb ∧ ¬ EndsInSchema dbTwoSchemas := by
  constructor
  · have : ∀ p ∈ snakeDb.tables, (∀ q ∈ p.2.fks, (∃ u ∈ snakeDb.tables, u.1 = q.2.fromTable ∧ u.2.schema = p.2.schema) ∧ ∃ u ∈ snakeDb.tables, u.1 = q.2.toTable ∧ u.2.schema = p.2.schema) ∧
        ∀ q ∈ p.2.rels, (∃ u ∈ snakeDb.tables, u.1 = q.2.fromTable ∧ u.2.schema = p.2.schema) ∧ ∃ u ∈ snakeDb.tables, u.1 = q.2.toTable ∧ u.2.schema = p.2.schema := by decide
    intro n t ht
    have far : ∀ {x : Str}, (∃ u ∈ snakeDb.tables, u.1 = x ∧ u.2.schema = t.schema) → ∃ u, TableOf snakeDb x u ∧ u.schema = t.schema := by
      rintro x ⟨u, hu, rfl, e⟩; exact ⟨u.2, hu, e⟩
    exact ⟨fun m k hk => ⟨far ((this _ ht).1 _ hk).1, far ((this _ ht).1 _ hk).2⟩, fun m k hk => ⟨far ((this _ ht).2 _ hk).1, far ((this _ ht).2 _ hk).2⟩⟩
  · intro h
    have : ∃ p ∈ dbTwoSchemas.tables, ∃ q ∈ p.2.fks, ∀ u ∈ dbTwoSchemas.tables, u.1 = q.2.toTable → u.2.schema ≠ p.2.schema := by decide
    obtain ⟨p, hp, q, hq, hn⟩ := this
    obtain ⟨-, u, hu, e⟩ := (h p.1 p.2 hp).1 q.1 q.2 hq
    exact hn _ hu rfl e

/-! ## C25 -/

/-- Foreign keys and relationships are stored on the table they start from. -/
def KeysStartHere (db : Database) : Prop :=
  ∀ n t, TableOf db n t → (∀ m k, (m, k) ∈ t.fks → k.fromTable = t.name) ∧ ∀ m r, (m, r) ∈ t.rels → r.fromTable = t.name

theorem inPlace {db : Database} (h : KeysStartHere db) (ha : NamesApart db) : ∀ p ∈ db.tables, KeysInPlace p.2 := by
  intro p hp
  refine ⟨fun q hq => (h p.1 p.2 hp).1 q.1 q.2 hq, fun q hq => (h p.1 p.2 hp).2 q.1 q.2 hq, ?_⟩
  intro q hq r hr e
  exact ha p.1 p.2 hp q.1 q.2 r.2 hq (by rw [e]; exact hr)

/-- A constraint stays while keys are added. -/
theorem con_stays {l : List Stmt} (hl : ∀ st ∈ l, AddsKey st) {sv sv' : Server} (h : execAll sv l = some sv') {s n m : Str} {T : CTable} (hT : sv.cat s n = some T)
    (hm : T.cons m ≠ none) : ∃ T', sv'.cat s n = some T' ∧ T'.cons m ≠ none := by
  induction l generalizing sv T with
  | nil => cases h; exact ⟨T, hT, hm⟩
  | cons st l ih =>
    simp only [execAll] at h
    obtain ⟨s1, h1, h2⟩ := Option.bind_eq_some_iff.1 h
    have step : ∃ T1, s1.cat s n = some T1 ∧ T1.cons m ≠ none := by
      have ha := hl st (by simp)
      have key : ∀ s n op, AddsKey (.alter s n op) → ∀ T T', applyOp s T op = some T' → T.cons m ≠ none → T'.cons m ≠ none := by
        intro s n op ho T T' e hne
        cases op <;> first | exact False.elim ho | skip
        all_goals
          simp only [applyOp] at e
          split at e
          · cases e
            dsimp only
            split
            · simp
            · exact hne
          · cases e
      cases st with
      | alter s' n' op =>
        simp only [exec] at h1
        cases hc : sv.cat s' n' with
        | none => rw [hc] at h1; cases h1
        | some U =>
          rw [hc] at h1
          obtain ⟨U', e1, e2⟩ := Option.map_eq_some_iff.1 h1
          subst e2
          simp only [Server.put]
          split
          · rename_i e
            rw [e.1, e.2, hc] at hT
            cases hT
            exact ⟨U', rfl, key _ _ _ ha _ _ e1 hm⟩
          · exact ⟨T, hT, hm⟩
      | _ => exact absurd ha (by simp [AddsKey])
    obtain ⟨T1, e1, e2⟩ := step
    exact ih (fun x hx => hl x (by simp [hx])) h2 e1 e2

theorem fks_add {db : Database} : ∀ st ∈ db.iter.flatMap (fkStmts {}), AddsKey st := by
  intro st hst
  obtain ⟨t, ht, hst⟩ := List.mem_flatMap.1 hst
  obtain ⟨k, hk, rfl⟩ := List.mem_map.1 hst
  trivial

theorem rels_add {db : Database} : ∀ st ∈ db.iter.flatMap (relStmts {}), AddsKey st := by
  intro st hst
  obtain ⟨t, ht, hst⟩ := List.mem_flatMap.1 hst
  obtain ⟨k, hk, rfl⟩ := List.mem_map.1 hst
  trivial

/-- A script that is executed has no foreign key and relationship of the same name at one table. -/
theorem apart_of_exec {create : Bool} {db : Database} (hw : WellKeyed db) (hh : KeysStartHere db) {sv sv' : Server} (h : execAll sv (tqlStmts { createDb := create } db) = some sv') :
    NamesApart db := by
  intro n t ht m k r hk hr
  have hti := mem_iter.2 ⟨n, ht⟩
  have hx : Stmt.alter t.schema t.name (.addFK m k.fromKeys (some t.schema) k.toTable k.toKeys) ∈ db.iter.flatMap (fkStmts {}) :=
    List.mem_flatMap.2 ⟨t, hti, List.mem_map.2 ⟨k, List.mem_map.2 ⟨_, hk, rfl⟩, by simp [caseD_default, (hh n t ht).1 m k hk, hw.fkNames n t ht m k hk]⟩⟩
  have hy : Stmt.alter t.schema t.name (.addRel m (some t.schema) r.toTable r.conditions) ∈ db.iter.flatMap (relStmts {}) :=
    List.mem_flatMap.2 ⟨t, hti, List.mem_map.2 ⟨r, List.mem_map.2 ⟨_, hr, rfl⟩, by simp [caseD_default, (hh n t ht).2 m r hr, hw.relNames n t ht m r hr]⟩⟩
  obtain ⟨f1, f2, ef⟩ := List.append_of_mem hx
  obtain ⟨r1, r2, er⟩ := List.append_of_mem hy
  have addF : ∀ st ∈ f2, AddsKey st := fun st hst => fks_add st (by rw [ef]; simp [hst])
  have addR : ∀ st ∈ r1, AddsKey st := fun st hst => rels_add st (by rw [er]; simp [hst])
  unfold tqlStmts at h
  rw [execAll_append] at h
  obtain ⟨s1, h1, h2⟩ := Option.bind_eq_some_iff.1 h
  rw [execAll_append] at h1
  obtain ⟨s0, -, h1⟩ := Option.bind_eq_some_iff.1 h1
  have h1' : execAll s0 (f1 ++ _ :: f2) = some s1 := ef ▸ h1
  have h2' : execAll s1 (r1 ++ _ :: r2) = some sv' := er ▸ h2
  rw [execAll_append] at h1' h2'
  obtain ⟨a1, -, a2⟩ := Option.bind_eq_some_iff.1 h1'
  obtain ⟨b1, b2, b3⟩ := Option.bind_eq_some_iff.1 h2'
  simp only [execAll] at a2 b3
  obtain ⟨a3, a4, a5⟩ := Option.bind_eq_some_iff.1 a2
  obtain ⟨b4, b5, -⟩ := Option.bind_eq_some_iff.1 b3
  have made : ∃ T, a3.cat t.schema t.name = some T ∧ T.cons m ≠ none := by
    simp only [exec] at a4
    cases hc : a1.cat t.schema t.name with
    | none => rw [hc] at a4; cases a4
    | some U =>
      rw [hc] at a4
      obtain ⟨U', e1, e2⟩ := Option.map_eq_some_iff.1 a4
      subst e2
      simp only [applyOp] at e1
      split at e1
      · cases e1
        exact ⟨_, by simp only [Server.put, and_self, if_true]; rfl, by simp⟩
      · cases e1
  obtain ⟨T, hT, hm⟩ := made
  obtain ⟨T1, hT1, hm1⟩ := con_stays addF a5 hT hm
  obtain ⟨T2, hT2, hm2⟩ := con_stays addR b2 hT1 hm1
  simp only [exec, hT2] at b5
  obtain ⟨U', e1, -⟩ := Option.map_eq_some_iff.1 b5
  simp only [applyOp, if_neg hm2] at e1
  cases e1

/-- C25: executing the script on a server without the database creates exactly the database if and only if no foreign key of a table is called like one of its relationships.  The
database has keys that are stored on the table they start from, and names, types, conditions and shard counts that can be read back; `hn` and `hs` hold for every database built with the API (C03). -/
theorem C25_exactly {db : Database} (hw : WellKeyed db) (hp : PlainDb db) (hh : KeysStartHere db)
    (hn : db.schemaNames.Nodup) (hs : ∀ p ∈ db.tables, p.2.schema ∈ db.schemaNames) (dbs : List Str) (hfresh : db.name ∉ dbs) :
    ∃ sts, (writeTql { createDb := true } db).2 = none ∧ readScript (writeTql { createDb := true } db).1 = some sts ∧
      ((∃ sv, execAll { dbs := dbs } sts = some sv ∧ sv.cat = catOf db ∧ sv.dbs = dbs ++ [db.name] ∧ sv.current = some db.name ∧
        sv.schemas = db.schemaNames.filter (fun s => s ≠ c!"falcon_default_schema")) ↔ NamesApart db) := by
  have hok := writeTql_ok (o := { createDb := true }) hp (.inr (.inr rfl))
  refine ⟨_, hok, writeTql_reads hp hok, ?_, fun ha => exec_recreates hw (inPlace hh ha) hn hs dbs hfresh⟩
  rintro ⟨sv, h, -⟩
  exact apart_of_exec hw hh h

/-! ## C26 -/

/-- C26: the key clauses name declared columns exactly if no key column is changed by the case option. -/
theorem C26_exactly (o : TqlOpts) {db : Database} (hw : WellKeyed db) (hp : PlainDb db) (hv : ∃ r, db.validate = .ok r ∧ r.isValid = true) (hok : (writeTql o db).2 = none) :
    ∃ sts, readScript (writeTql o db).1 = some sts ∧
      ((∀ s n cols pk sh, .createTable s n cols pk sh ∈ sts → (∀ k ∈ pk, k ∈ cols.map Prod.fst) ∧ ∀ c ks, sh = some (c, ks) → ∀ k ∈ ks, k ∈ cols.map Prod.fst) ↔
        ∀ n t, TableOf db n t → ∀ k, (k ∈ t.pk ∨ ∃ sk, t.shard = some sk ∧ k ∈ sk.keys) → ColumnAs o.toGenOpts k = k) := by
  refine ⟨_, writeTql_reads hp hok, ?_, ?_⟩
  · intro h n t ht k hk
    have hm : createStmt o.toGenOpts t ∈ tqlStmts o db := by
      unfold tqlStmts
      refine List.mem_append_left _ (List.mem_append_left _ (List.mem_append_right _ (List.mem_flatMap.2 ⟨t, mem_iter.2 ⟨n, ht⟩, by simp⟩)))
    obtain ⟨h1, h2⟩ := h _ _ _ _ _ hm
    have : k ∈ (t.cols.map (fun p => (colCase o.toGenOpts p.2.name, p.2.type))).map Prod.fst := by
      rcases hk with hk | ⟨sk, e, hk⟩
      · exact h1 k hk
      · exact h2 (countText sk.number) sk.keys (by rw [e]; rfl) k hk
    rw [List.map_map] at this
    obtain ⟨p, -, rfl⟩ := List.mem_map.1 this
    simp only [Function.comp, colCase_printed, columnAs_again]
  · intro h
    obtain ⟨sts, hr, hc⟩ := C26_key_columns_declared_partial o hw hp hv hok (.inr (fun n t ht k hk => by rw [colCase_printed]; exact h n t ht k hk))
    rw [writeTql_reads hp hok] at hr
    cases hr
    exact hc

/-- A valid database for which lower case changes nothing and upper case changes a key column. -/
example : (∃ r, dbOneSchema.validate = .ok r ∧ r.isValid = true) ∧ (writeTql { lowercase := true } dbOneSchema).2 = none ∧ (writeTql { uppercase := true } dbOneSchema).2 = none ∧
    (∀ p ∈ dbOneSchema.tables, ∀ k ∈ p.2.pk, ColumnAs { lowercase := true } k = k) ∧ ∃ p ∈ dbOneSchema.tables, ∃ k ∈ p.2.pk, ColumnAs { uppercase := true } k ≠ k :=
  ⟨⟨_, rfl, by decide⟩, by decide, by decide, by decide, by decide⟩

/-! ## C88 -/

theorem table_of_cat {db : Database} {s n : Str} {T : CTable} (h : catOf db s n = some T) : ∃ t, TableOf db n t ∧ t.schema = s ∧ T = ctable t := by
  unfold catOf at h
  rw [lookup_eq] at h
  cases g : db.tables.get? n with
  | none => rw [g] at h; cases h
  | some t =>
    rw [g] at h
    simp only at h
    split at h
    · rename_i e
      exact ⟨t, Dict.mem_of_get? g, e, (Option.some.inj h).symm⟩
    · cases h

theorem column_of_cat {db : Database} (hw : WellKeyed db) {n : Str} {t : Table} (ht : TableOf db n t) {a ty : Str} (h : (ctable t).HasCol a ty) : ∃ c, ColumnOf t a c ∧ c.type = ty := by
  obtain ⟨q, hq, e⟩ := List.mem_map.1 h
  cases e
  have := hw.colNames n t ht q.1 q.2 hq
  exact ⟨q.2, by unfold ColumnOf; rw [← this]; exact hq, rfl⟩

theorem unique_table {db : Database} (hw : WellKeyed db) {n : Str} {t u : Table} (ht : TableOf db n t) (hu : TableOf db n u) : t = u := by
  have a := (Dict.mem_iff_get? hw.tables).1 ht
  rw [(Dict.mem_iff_get? hw.tables).1 hu] at a
  exact (Option.some.inj a).symm

theorem accepts_suffix {sv sv' : Server} {l m : List Stmt} (h : Accepts sv (l ++ m) sv') : ∃ s1, Accepts sv l s1 ∧ Accepts s1 m sv' := by
  induction l generalizing sv with
  | nil => exact ⟨sv, .nil _, h⟩
  | cons x l ih =>
    cases h with
    | cons _ s1 _ _ _ ho he hr =>
      obtain ⟨s2, h1, h2⟩ := ih hr
      exact ⟨s2, .cons _ s1 _ _ _ ho he h1, h2⟩

/-- Key statements that are accepted are in order at the end. -/
theorem keys_in_order {l : List Stmt} (hl : ∀ st ∈ l, AddsKey st) {sv sv' : Server} (h : Accepts sv l sv') : ∀ st ∈ l, RefsOk sv' st := by
  induction h with
  | nil => intro st hst; cases hst
  | cons sv s1 s2 st l ho he hr ih =>
    intro x hx
    rcases List.mem_cons.1 hx with rfl | hx
    · have sh := execAll_shape hl (by simp only [execAll, he, Option.bind_some, hr.exec] : execAll sv (x :: l) = some s2)
      exact refsOk_shape sh (hl x (by simp)) ho
    · exact ih (fun y hy => hl y (by simp [hy])) x hx

/-- The script is accepted by a new server exactly for well-formed databases whose keys stay within a schema and have names of their own. -/
theorem accepts_iff {db : Database} (hw : WellKeyed db) (hh : KeysStartHere db) (hn : db.schemaNames.Nodup) (hs : ∀ p ∈ db.tables, p.2.schema ∈ db.schemaNames)
    (hty : ∀ n t, TableOf db n t → ∀ m c, ColumnOf t m c → c.type ≠ c!"UNKNOWN") (dbs : List Str) (hfresh : db.name ∉ dbs) :
    ((∃ sv, Accepts { dbs := dbs } (tqlStmts { createDb := true } db) sv) ↔ WellFormed db ∧ WithinSchemas db ∧ NamesApart db) ∧
      ∀ sv, Accepts { dbs := dbs } (tqlStmts { createDb := true } db) sv → sv.cat = catOf db := by
  have same : ∀ sv, Accepts { dbs := dbs } (tqlStmts { createDb := true } db) sv → sv.cat = catOf db := by
    intro sv h
    obtain ⟨sv', he, hc, -⟩ := exec_recreates hw (inPlace hh (apart_of_exec hw hh h.exec)) hn hs dbs hfresh
    rw [h.exec] at he
    cases he
    exact hc
  refine ⟨?_, same⟩
  constructor
  · rintro ⟨sv, h⟩
    have hc := same sv h
    have ha := apart_of_exec hw hh h.exec
    have refs : ∀ st ∈ db.iter.flatMap (fkStmts {}) ++ db.iter.flatMap (relStmts {}), RefsOk sv st := by
      unfold tqlStmts at h
      rw [List.append_assoc] at h
      obtain ⟨s1, -, h2⟩ := accepts_suffix h
      refine keys_in_order ?_ h2
      intro st hst
      rcases List.mem_append.1 hst with hst | hst
      · exact fks_add st hst
      · exact rels_add st hst
    have create : ∀ n t, TableOf db n t → RefsOk sv (createStmt {} t) := by
      intro n t ht
      have hm : createStmt {} t ∈ tqlStmts { createDb := true } db := by
        unfold tqlStmts
        refine List.mem_append_left _ (List.mem_append_left _ (List.mem_append_right _ (List.mem_flatMap.2 ⟨t, mem_iter.2 ⟨n, ht⟩, by simp⟩)))
      obtain ⟨a, b, e⟩ := List.append_of_mem hm
      rw [e] at h
      obtain ⟨sv1, -, ho⟩ := accepts_split h
      exact ho
    have declared : ∀ n t, TableOf db n t → ∀ k, k ∈ (t.cols.map (fun p => (colCase {} p.2.name, p.2.type))).map Prod.fst → ∃ c, ColumnOf t k c := by
      intro n t ht k hk
      rw [List.map_map] at hk
      obtain ⟨q, hq, rfl⟩ := List.mem_map.1 hk
      have := hw.colNames n t ht q.1 q.2 hq
      refine ⟨q.2, ?_⟩
      unfold ColumnOf
      simp only [Function.comp, colCase, Bool.false_eq_true, if_false, ← this]
      exact hq
    have fk : ∀ n t, TableOf db n t → ∀ m k, (m, k) ∈ t.fks → ∃ u, TableOf db k.toTable u ∧ u.schema = t.schema ∧ FKOk db t k := by
      intro n t ht m k hk
      have ho := refs (.alter t.schema t.name (.addFK k.name k.fromKeys (some t.schema) k.toTable k.toKeys)) (List.mem_append_left _
        (List.mem_flatMap.2 ⟨t, mem_iter.2 ⟨n, ht⟩, List.mem_map.2 ⟨k, List.mem_map.2 ⟨_, hk, rfl⟩, by simp [caseD_default, (hh n t ht).1 m k hk]⟩⟩))
      obtain ⟨T, U, h1, h2, l1, l2, l3⟩ := ho
      rw [hc] at h1 h2
      rw [Option.getD_some] at h2
      obtain ⟨t', ht', -, rfl⟩ := table_of_cat h1
      obtain ⟨u, hu, es, rfl⟩ := table_of_cat h2
      have := unique_table hw ht' ((hw.tableNames n t ht) ▸ ht)
      subst this
      refine ⟨u, hu, es, u, hu, l1, l2, ?_⟩
      intro i a b ia ib
      obtain ⟨p1, ta, tb, c1, c2, c3⟩ := l3 i a b ia ib
      obtain ⟨ca, e1, e2⟩ := column_of_cat hw ht c1
      obtain ⟨cb, e3, e4⟩ := column_of_cat hw hu c2
      exact ⟨p1, ca, cb, e1, e3, by rw [e2, e4]; exact c3⟩
    have rel : ∀ n t, TableOf db n t → ∀ m r, (m, r) ∈ t.rels → ∃ u, TableOf db r.toTable u ∧ u.schema = t.schema := by
      intro n t ht m k hk
      have ho := refs (.alter t.schema t.name (.addRel k.name (some t.schema) k.toTable k.conditions)) (List.mem_append_right _
        (List.mem_flatMap.2 ⟨t, mem_iter.2 ⟨n, ht⟩, List.mem_map.2 ⟨k, List.mem_map.2 ⟨_, hk, rfl⟩, by simp [caseD_default, (hh n t ht).2 m k hk]⟩⟩))
      obtain ⟨-, U, h2⟩ := ho
      rw [hc, Option.getD_some] at h2
      obtain ⟨u, hu, es, -⟩ := table_of_cat h2
      exact ⟨u, hu, es⟩
    refine ⟨⟨hty, ?_, ?_, ?_, ?_⟩, ?_, ha⟩
    · intro n t ht k hk
      exact declared n t ht k ((create n t ht).1 k hk)
    · intro n t ht sk e k hk
      obtain ⟨a, b⟩ := (create n t ht).2 (countText sk.number) sk.keys (by rw [e]; rfl) k hk
      exact ⟨declared n t ht k a, b⟩
    · intro n t ht m k hk
      obtain ⟨u, -, -, h⟩ := fk n t ht m k hk
      exact h
    · intro n t ht m r hr
      obtain ⟨u, hu, -⟩ := rel n t ht m r hr
      exact ⟨(hh n t ht).2 m r hr, u, hu⟩
    · intro n t ht
      constructor
      · intro m k hk u hu
        obtain ⟨u', hu', e, -⟩ := fk n t ht m k hk
        rw [unique_table hw hu hu']; exact e
      · intro m k hk u hu
        obtain ⟨u', hu', e⟩ := rel n t ht m k hk
        rw [unique_table hw hu hu']; exact e
  · rintro ⟨wf, hi, ha⟩
    obtain ⟨sv, he, hc, -⟩ := exec_recreates hw (inPlace hh ha) hn hs dbs hfresh
    exact ⟨sv, accepts_tql true hw wf (inPlace hh ha) hi he (fun s n T e => by rw [hc]; exact e)⟩

theorem keysStartHere_printed {o : GenOpts} {db db' : Database} (hd : DatabaseAs o db db') (hh : KeysStartHere db) : KeysStartHere db' := by
  intro n t' ht'
  obtain ⟨p, hp, -, h⟩ := forall₂_right hd.tables ht'
  constructor
  · intro m k' hk'
    obtain ⟨q, hq, -, hk⟩ := forall₂_right h.fks hk'
    exact printed_det hk.fromTable ((hh p.1 p.2 hp).1 q.1 q.2 hq ▸ h.name)
  · intro m k' hk'
    obtain ⟨q, hq, -, hk⟩ := forall₂_right h.rels hk'
    exact printed_det hk.fromTable ((hh p.1 p.2 hp).2 q.1 q.2 hq ▸ h.name)

/-- C88 with the exact condition, for all case options: a new server that checks what a statement refers to accepts the script exactly if the database as it is printed is
well-formed, its keys stay within a schema, and no foreign key of a table is called like one of its relationships.  Whenever it accepts, it ends up with the database. -/
theorem C88_exactly (o : TqlOpts) (hcr : o.createDb = true) {db db' : Database} (hd : DatabaseAs o.toGenOpts db db') (hno : NoCollision o.toGenOpts db db') (hw : WellKeyed db)
    (hp : PlainDb db) (hh : KeysStartHere db) (hs : ∀ p ∈ db.tables, p.2.schema ∈ db.schemaNames) (hty : ∀ n t, TableOf db n t → ∀ m c, ColumnOf t m c → c.type ≠ c!"UNKNOWN")
    (dbs : List Str) (hfresh : db'.name ∉ dbs) :
    ∃ sts, (writeTql o db).2 = none ∧ readScript (writeTql o db).1 = some sts ∧
      ((∃ sv, Accepts { dbs := dbs } sts sv) ↔ WellFormed db' ∧ WithinSchemas db' ∧ NamesApart db') ∧
      ∀ sv, Accepts { dbs := dbs } sts sv → sv.cat = catOf db' := by
  have hok := writeTql_printed hd hp
  have hr := writeTql_reads hp hok
  rw [tqlStmts_printed hd hno.default, hcr] at hr
  refine ⟨_, hok, hr, accepts_iff (wellKeyed_printed hd hw hno) (keysStartHere_printed hd hh) hno.schemas (schemas_of_printed hd hs) ?_ dbs hfresh⟩
  intro n t' ht' m c hc
  obtain ⟨p, hp, -, h⟩ := forall₂_right hd.tables ht'
  unfold ColumnOf at hc
  rw [h.cols] at hc
  obtain ⟨q, hq, e⟩ := List.mem_map.1 hc
  cases e
  exact hty p.1 p.2 hp q.1 q.2 hq

/-- C88 and `validate`, without case options: a new server accepts the script exactly if `validate` finds nothing wrong, keys stay within a schema and names are apart. -/
theorem C88_validate {db : Database} (hw : WellKeyed db) (hp : PlainDb db) (hh : KeysStartHere db) (hn : db.schemaNames.Nodup) (hs : ∀ p ∈ db.tables, p.2.schema ∈ db.schemaNames)
    (hty : ∀ n t, TableOf db n t → ∀ m c, ColumnOf t m c → c.type ≠ c!"UNKNOWN") (dbs : List Str) (hfresh : db.name ∉ dbs) :
    ∃ sts, (writeTql { createDb := true } db).2 = none ∧ readScript (writeTql { createDb := true } db).1 = some sts ∧
      ((∃ sv, Accepts { dbs := dbs } sts sv) ↔ (∃ r, db.validate = .ok r ∧ r.isValid = true) ∧ WithinSchemas db ∧ NamesApart db) := by
  have hok := writeTql_ok (o := { createDb := true }) hp (.inr (.inr rfl))
  refine ⟨_, hok, writeTql_reads hp hok, ?_⟩
  rw [(accepts_iff hw hh hn hs hty dbs hfresh).1, C08_valid_iff_well_formed db hw]

/-- The hypotheses of `C25_exactly`, `C88_exactly` and `C88_validate` are met by a database that is accepted. -/
example : KeysStartHere snakeDb ∧ snakeDb.schemaNames.Nodup ∧ (∀ p ∈ snakeDb.tables, p.2.schema ∈ snakeDb.schemaNames) ∧
    (∀ n t, TableOf snakeDb n t → ∀ m c, ColumnOf t m c → c.type ≠ c!"UNKNOWN") ∧ WithinSchemas snakeDb ∧ NamesApart snakeDb := by
  have a : ∀ p ∈ snakeDb.tables, ∀ q ∈ p.2.cols, q.2.type ≠ c!"UNKNOWN" := by decide
  refine ⟨fun n t ht => ⟨fun m k hk => (snake_in_place _ ht).fkFrom _ hk, fun m k hk => (snake_in_place _ ht).relFrom _ hk⟩, by decide, by decide, fun n t ht m c hc => a _ ht _ hc,
    snake_within, fun n t ht m k r hk hr => (snake_in_place _ ht).clash _ hk _ hr rfl⟩

/-- And by one that is refused: a foreign key leads to another schema. -/
example : WellKeyed dbTwoSchemas ∧ PlainDb dbTwoSchemas ∧ KeysStartHere dbTwoSchemas ∧ dbTwoSchemas.schemaNames.Nodup ∧ (∀ p ∈ dbTwoSchemas.tables, p.2.schema ∈ dbTwoSchemas.schemaNames) ∧
    (∀ n t, TableOf dbTwoSchemas n t → ∀ m c, ColumnOf t m c → c.type ≠ c!"UNKNOWN") ∧ ¬ WithinSchemas dbTwoSchemas := by
  have a : ∀ p ∈ dbTwoSchemas.tables, ∀ q ∈ p.2.cols, q.2.type ≠ c!"UNKNOWN" := by decide
  have b : ∀ p ∈ dbTwoSchemas.tables, (∀ q ∈ p.2.fks, q.2.fromTable = p.2.name) ∧ ∀ q ∈ p.2.rels, q.2.fromTable = p.2.name := by decide
  have c : ∃ p ∈ dbTwoSchemas.tables, ∃ q ∈ p.2.fks, ∃ u ∈ dbTwoSchemas.tables, u.1 = q.2.toTable ∧ u.2.schema ≠ p.2.schema := by decide
  refine ⟨by decide, plainDbB_sound (by decide), fun n t ht => ⟨fun m k hk => (b _ ht).1 _ hk, fun m k hk => (b _ ht).2 _ hk⟩, by decide, by decide, fun n t ht m c hc => a _ ht _ hc, ?_⟩
  obtain ⟨p, hp, q, hq, u, hu, e, hne⟩ := c
  exact fun h => hne ((h p.1 p.2 hp).1 q.1 q.2 hq u.2 (by unfold TableOf; rw [← e]; exact hu))

end Verif.Props
