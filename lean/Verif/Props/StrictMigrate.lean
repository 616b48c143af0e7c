import Verif.Lemmas.StrictMigrate
import Verif.Props.MigrateOrder
import Verif.Props.MigrateExact
import Verif.Props.AlterScript
import Verif.Props.Validation
/-
Property C89: ddldiff's script on a server that checks what a statement refers to.
-/

namespace Verif.Props
open Verif Verif.Spec

/-- The catalogue's table and the database's table say the same, or neither is there. -/
def Views (c : Option CTable) (is : Table → Prop) (s : Str) : Prop :=
  (c = none ∧ ∀ u, is u → u.schema ≠ s) ∨
  ∃ U u, c = some U ∧ (∀ v, is v ↔ v = u) ∧ u.schema = s ∧ U.pk = u.pk ∧ ∀ n ty, (n, ty) ∈ U.cols ↔ ∃ col, ColumnOf u n col ∧ col.type = ty

theorem ctable_cols {t : Table} (hn : ∀ q ∈ t.cols, q.1 = q.2.name) (n ty : Str) : (n, ty) ∈ (ctable t).cols ↔ ∃ col, ColumnOf t n col ∧ col.type = ty := by
  simp only [ctable, bareTable, List.mem_map, Prod.mk.injEq]
  constructor
  · rintro ⟨p, hp, rfl, rfl⟩
    exact ⟨p.2, by rw [← hn p hp]; exact hp, rfl⟩
  · rintro ⟨col, h, rfl⟩
    exact ⟨_, h, (hn _ h).symm, rfl⟩

theorem views_db {db : Database} (hk : WellKeyed db) {c : Option CTable} {s n : Str} (h : OptSame c (catOf db s n)) : Views c (TableOf db n) s := by
  rw [catOf_eq] at h
  cases hg : db.tables.get? n with
  | none =>
    rw [hg] at h
    cases c with
    | none => exact .inl ⟨rfl, fun u hu => absurd ⟨u, hu⟩ (no_tableOf_iff.2 hg)⟩
    | some T => exact h.elim
  | some t =>
    rw [hg, Option.bind_some] at h
    have hu : ∀ u, TableOf db n u ↔ u = t := by
      intro u
      rw [tableOf_iff hk, hg, Option.some.injEq]
      exact eq_comm
    by_cases hs : t.schema = s
    · rw [if_pos hs] at h
      cases c with
      | none => exact h.elim
      | some T =>
        refine .inr ⟨T, t, rfl, hu, hs, h.pk, fun n ty => ?_⟩
        rw [h.cols.mem_iff]
        exact ctable_cols (tableKeyed_of_get? hk hg).colNames n ty
    · rw [if_neg hs] at h
      cases c with
      | none => exact .inl ⟨rfl, fun u hu' => by rw [(hu u).1 hu']; exact hs⟩
      | some T => exact h.elim

theorem Views.exists {c : Option CTable} {is : Table → Prop} {s : Str} (h : Views c is s) : (∃ U, c = some U) ↔ ∃ u, is u ∧ u.schema = s := by
  rcases h with ⟨rfl, h⟩ | ⟨U, u, rfl, h1, h2, -⟩
  · exact ⟨fun ⟨_, h⟩ => (by cases h), fun ⟨u, hu, hs⟩ => absurd hs (h u hu)⟩
  · exact ⟨fun _ => ⟨u, (h1 u).2 rfl, h2⟩, fun _ => ⟨U, rfl⟩⟩

theorem keys_iff {t : Table} (hn : ∀ q ∈ t.cols, q.1 = q.2.name) (k : Str) : k ∈ (ctable t).cols.map Prod.fst ↔ ∃ c, ColumnOf t k c := by
  simp only [List.mem_map, Prod.exists]
  constructor
  · rintro ⟨a, b, h, rfl⟩
    obtain ⟨col, h, -⟩ := (ctable_cols hn a b).1 h
    exact ⟨col, h⟩
  · rintro ⟨c, h⟩
    exact ⟨k, c.type, (ctable_cols hn _ _).2 ⟨c, h, rfl⟩, rfl⟩

/-- The statement of an entry is in order on the server exactly if the entry is, given what is known of the server at this moment. -/
theorem refsOk_iff {old new : Database} (h1 : WellKeyed old) (h2 : WellKeyed new) {sv : Server} {x : Diff}
    (hcreated : ∀ d t, x = .tableCreated d t → new.tables.get? t.name = some t)
    (hcommon : x.kind ≠ 0 → old.tables.get? x.table.name = some x.table)
    (ho : OldColumns sv x)
    (he : ∀ m s, Earlier m x.table.name → OptSame (sv.cat s m) (catOf new s m))
    (hl : ∀ m s, Earlier x.table.name m → sv.cat s m = catOf old s m)
    (hpk : x.kind ≠ 0 → x.kind ≠ 1 → ∃ t2, new.tables.get? x.table.name = some t2 ∧ (sv.cat x.table.schema x.table.name).map (·.pk) = some t2.pk) :
    RefsOk sv (stmtOf x) ↔ EntryOk old new x := by
  have view : x.kind ≠ 0 → x.kind ≠ 1 → x.kind ≠ 5 → ∀ m, Views (sv.cat x.table.schema m) (AtMoment old new x.table.name m) x.table.schema := by
    intro hk0 hk1 hk5 m
    unfold AtMoment
    by_cases h : Earlier m x.table.name
    · simp only [if_pos h]
      exact views_db h2 (he _ _ h)
    · simp only [if_neg h]
      by_cases e : m = x.table.name
      · subst e
        simp only [if_true]
        obtain ⟨T, hT, hc⟩ := ho hk0 hk5
        obtain ⟨t2, g2, hp⟩ := hpk hk0 hk1
        rw [hT, Option.map_some, Option.some.injEq] at hp
        have g1 := hcommon hk0
        refine .inr ⟨T, { x.table with pk := t2.pk }, hT, ?_, rfl, hp, ?_⟩
        · intro v
          constructor
          · rintro ⟨uo, un, ho, hn, rfl⟩
            rw [tableOf_iff h1, g1, Option.some.injEq] at ho
            rw [tableOf_iff h2, g2, Option.some.injEq] at hn
            rw [ho, hn]
          · rintro rfl
            exact ⟨_, _, (tableOf_iff h1).2 g1, (tableOf_iff h2).2 g2, rfl⟩
        · intro n ty
          rw [hc]
          exact ctable_cols (tableKeyed_of_get? h1 g1).colNames n ty
      · simp only [if_neg e]
        have h' : Earlier x.table.name m := by
          by_contra h'
          exact e (not_lt_not_lt (by rwa [← earlier_iff]) (by rwa [← earlier_iff]))
        exact views_db h1 (by rw [hl _ _ h']; exact optSame_refl _)
  cases x with
  | tableDropped | pkDropped | shardDropped | fkDropped | relDropped | colAdded | colDropped | colModified => simp [stmtOf, RefsOk, EntryOk]
  | tableCreated d t =>
    have hn := (tableKeyed_of_get? h2 (hcreated d t rfl)).colNames
    have := keys_iff hn
    simp only [ctable, bareTable] at this
    simp only [stmtOf, RefsOk, EntryOk, this]
    refine and_congr Iff.rfl ?_
    cases t.shard with
    | none => simp
    | some sh => simp
  | pkAdded d t ks =>
    obtain ⟨T, hT, hc⟩ := ho (by simp [Diff.kind]) (by simp [Diff.kind])
    simp only [Diff.table] at hT hc
    have hn := (tableKeyed_of_get? h1 (hcommon (by simp [Diff.kind]))).colNames
    simp only [Diff.table] at hn
    simp only [stmtOf, RefsOk, EntryOk]
    constructor
    · rintro ⟨T', hT', h⟩ k hk
      rw [hT] at hT'; cases hT'
      exact (keys_iff hn k).1 (hc ▸ h k hk)
    · intro h
      exact ⟨T, hT, fun k hk => by rw [hc]; exact (keys_iff hn k).2 (h k hk)⟩
  | shardAdded d t n ks =>
    obtain ⟨T, hT, hc⟩ := ho (by simp [Diff.kind]) (by simp [Diff.kind])
    obtain ⟨t2, g2, hp⟩ := hpk (by simp [Diff.kind]) (by simp [Diff.kind])
    simp only [Diff.table] at hT hc g2 hp
    rw [hT, Option.map_some, Option.some.injEq] at hp
    have hn := (tableKeyed_of_get? h1 (hcommon (by simp [Diff.kind]))).colNames
    simp only [Diff.table] at hn
    simp only [stmtOf, RefsOk, EntryOk]
    constructor
    · rintro ⟨T', hT', h⟩ k hk
      rw [hT] at hT'; cases hT'
      refine ⟨(keys_iff hn k).1 (hc ▸ (h k hk).1), fun u hu => ?_⟩
      rw [tableOf_iff h2, g2, Option.some.injEq] at hu
      rw [← hu, ← hp]
      exact (h k hk).2
    · intro h
      refine ⟨T, hT, fun k hk => ⟨by rw [hc]; exact (keys_iff hn k).2 (h k hk).1, ?_⟩⟩
      rw [hp]
      exact (h k hk).2 t2 ((tableOf_iff h2).2 g2)
  | fkAdded d t fk =>
    obtain ⟨T, hT, hc⟩ := ho (by simp [Diff.kind]) (by simp [Diff.kind])
    simp only [Diff.table] at hT hc
    have hn := (tableKeyed_of_get? h1 (hcommon (by simp [Diff.kind]))).colNames
    simp only [Diff.table] at hn
    have hv := view (by simp [Diff.kind]) (by simp [Diff.kind]) (by simp [Diff.kind]) fk.toTable
    simp only [Diff.table] at hv
    simp only [stmtOf, RefsOk, EntryOk, Option.getD_none, CTable.HasCol]
    rcases hv with ⟨h0, hno⟩ | ⟨U, u, hU, hu, hs, hp, hcols⟩
    · constructor
      · rintro ⟨_, U, _, hU, _⟩; rw [h0] at hU; cases hU
      · rintro ⟨u, hu, hs, _⟩; exact absurd hs (hno u hu)
    · constructor
      · rintro ⟨T', U', hT', hU', e1, e2, h⟩
        rw [hT] at hT'; cases hT'
        rw [hU] at hU'; cases hU'
        refine ⟨u, (hu u).2 rfl, hs, e1, hp ▸ e2, fun i a b ha hb => ?_⟩
        obtain ⟨hm, ta, tb, hta, htb, hmatch⟩ := h i a b ha hb
        obtain ⟨ca, hca, rfl⟩ := (ctable_cols hn a ta).1 (hc ▸ hta)
        obtain ⟨cb, hcb, rfl⟩ := (hcols b tb).1 htb
        exact ⟨hp ▸ hm, ca, cb, hca, hcb, hmatch⟩
      · rintro ⟨v, hv, -, e1, e2, h⟩
        cases (hu v).1 hv
        refine ⟨T, U, hT, hU, e1, hp ▸ e2, fun i a b ha hb => ?_⟩
        obtain ⟨hm, ca, cb, hca, hcb, hmatch⟩ := h i a b ha hb
        exact ⟨hp ▸ hm, ca.type, cb.type, by rw [hc]; exact (ctable_cols hn _ _).2 ⟨ca, hca, rfl⟩, (hcols _ _).2 ⟨cb, hcb, rfl⟩, hmatch⟩
  | relAdded d t r =>
    obtain ⟨T, hT, -⟩ := ho (by simp [Diff.kind]) (by simp [Diff.kind])
    simp only [Diff.table] at hT
    have hv := view (by simp [Diff.kind]) (by simp [Diff.kind]) (by simp [Diff.kind]) r.toTable
    simp only [Diff.table] at hv
    simp only [stmtOf, RefsOk, EntryOk, Option.getD_none]
    rw [hv.exists]
    exact ⟨fun h => h.2, fun h => ⟨⟨T, hT⟩, h⟩⟩

/-- Where the entries of the list for a name come from. -/
theorem mem_dbE {rep : FK → FK → Bool} {shared : Str → Bool} {db1 db2 : Database} (h1 : WellKeyed db1) (h2 : WellKeyed db2) {n : Str} {x : Diff}
    (hx : x ∈ dbE rep shared db1 db2 n) :
    (∃ d t, x = .tableCreated d t ∧ db2.tables.get? t.name = some t) ∨ (∃ d t, x = .tableDropped d t) ∨
    x.kind ≠ 0 ∧ ∃ t1 t2, x.table = t1 ∧ db1.tables.get? t1.name = some t1 ∧ db2.tables.get? t1.name = some t2 ∧
      (∀ d t ks, x = .pkAdded d t ks → ks = t2.pk ∧ t1.pk ≠ t2.pk) ∧
      (∀ d t m ks, x = .shardAdded d t m ks → ∃ sh, t2.shard = some sh ∧ ks = sh.keys) ∧
      (∀ d t k, x = .fkAdded d t k → ∃ m, (m, k) ∈ t2.fks) ∧ ∀ d t r, x = .relAdded d t r → ∃ m, (m, r) ∈ t2.rels := by
  unfold dbE regE at hx
  cases hu : db1.tables.get? n <;> cases hv : db2.tables.get? n <;> rw [hu, hv] at hx <;> simp only at hx
  · cases hx
  · simp only [List.mem_singleton] at hx
    subst hx
    refine .inl ⟨_, _, rfl, ?_⟩
    rw [name_of_get? h2 hv]; exact hv
  · simp only [List.mem_singleton] at hx
    subst hx
    exact .inr (.inl ⟨_, _, rfl⟩)
  · rename_i t1 t2
    have hn := name_of_get? h1 hu
    refine .inr (.inr ?_)
    suffices h : x.kind ≠ 0 ∧ x.table = t1 ∧ (∀ d t ks, x = .pkAdded d t ks → ks = t2.pk ∧ t1.pk ≠ t2.pk) ∧
      (∀ d t m ks, x = .shardAdded d t m ks → ∃ sh, t2.shard = some sh ∧ ks = sh.keys) ∧
      (∀ d t k, x = .fkAdded d t k → ∃ m, (m, k) ∈ t2.fks) ∧ ∀ d t r, x = .relAdded d t r → ∃ m, (m, r) ∈ t2.rels by
      exact ⟨h.1, t1, t2, h.2.1, by rw [hn]; exact hu, by rw [hn]; exact hv, h.2.2⟩
    simp only [tableE, List.mem_append, List.mem_flatMap] at hx
    rcases hx with (((h | h) | ⟨k, -, h⟩) | ⟨k, -, h⟩) | ⟨k, -, h⟩
    · unfold pkE at h
      split at h
      · cases h
      · rename_i hne
        rcases List.mem_append.1 h with h | h
        · split at h
          · cases h
          · simp only [List.mem_singleton] at h; subst h; simp [Diff.kind, Diff.table]
        · split at h
          · cases h
          · simp only [List.mem_singleton] at h; subst h; simp [Diff.kind, Diff.table, hne]
    · unfold shardE at h
      split at h
      · cases h
      · rename_i s2 _ hs2
        simp only [List.mem_singleton] at h; subst h; simp +contextual [Diff.kind, Diff.table, hs2, eq_comm]
      · simp only [List.mem_singleton] at h; subst h; simp [Diff.kind, Diff.table]
      · rename_i s1 s2 _ hs2
        split at h
        · cases h
        · simp only [List.mem_singleton] at h; subst h; simp +contextual [Diff.kind, Diff.table, hs2, eq_comm]
    · unfold fkE regE at h
      cases e1 : t1.fks.get? k <;> cases e2 : t2.fks.get? k <;> rw [e1, e2] at h <;> simp only at h
      · cases h
      · have hm := Dict.mem_of_get? e2
        simp only [List.mem_singleton] at h; subst h
        simp only [Diff.kind, Diff.table]
        simp
        exact ⟨_, hm⟩
      · simp only [List.mem_singleton] at h; subst h; simp [Diff.kind, Diff.table]
      · have hm := Dict.mem_of_get? e2
        split at h
        · simp only [List.mem_cons, List.not_mem_nil, or_false] at h
          rcases h with rfl | rfl
          · simp [Diff.kind, Diff.table]
          · simp only [Diff.kind, Diff.table]
            simp
            exact ⟨_, hm⟩
        · cases h
    · unfold relE regE at h
      cases e1 : t1.rels.get? k <;> cases e2 : t2.rels.get? k <;> rw [e1, e2] at h <;> simp only at h
      · cases h
      · have hm := Dict.mem_of_get? e2
        simp only [List.mem_singleton] at h; subst h
        simp only [Diff.kind, Diff.table]
        simp
        exact ⟨_, hm⟩
      · simp only [List.mem_singleton] at h; subst h; simp [Diff.kind, Diff.table]
      · have hm := Dict.mem_of_get? e2
        split at h
        · cases h
        · simp only [List.mem_cons, List.not_mem_nil, or_false] at h
          rcases h with rfl | rfl
          · simp [Diff.kind, Diff.table]
          · simp only [Diff.kind, Diff.table]
            simp
            exact ⟨_, hm⟩
    · unfold colE regE at h
      cases e1 : t1.cols.get? k <;> cases e2 : t2.cols.get? k <;> rw [e1, e2] at h <;> simp only at h
      · cases h
      · simp only [List.mem_singleton] at h; subst h; simp [Diff.kind, Diff.table]
      · simp only [List.mem_singleton] at h; subst h; simp [Diff.kind, Diff.table]
      · split at h
        · cases h
        · simp only [List.mem_singleton] at h; subst h; simp [Diff.kind, Diff.table]

/-- One direction of the comparison on the checking server. -/
theorem accepted_iff {rep : FK → FK → Bool} {shared : Str → Bool} {db1 db2 : Database} (h1 : WellKeyed db1) (h2 : WellKeyed db2)
    (hd : ∀ n t1 t2, db1.tables.get? n = some t1 → db2.tables.get? n = some t2 → Detected rep (shared n) t1 t2)
    (hb : NewTablesBare db1 db2) (sv : Server) (hsv : Holds sv db1 db2) :
    (∃ sv', Accepts sv (((allNames db1.tables db2.tables).flatMap (dbE rep shared db1 db2)).map stmtOf) sv') ↔
      ∀ x ∈ (allNames db1.tables db2.tables).flatMap (dbE rep shared db1 db2), EntryOk db1 db2 x := by
  have hnew := fun n t2 (g1 : db1.tables.get? n = none) (g2 : db2.tables.get? n = some t2) => hb n t2 ((tableOf_iff h2).2 g2) (no_tableOf_iff.2 g1)
  have hsch := fun n t2 (g1 : db1.tables.get? n = none) (g2 : db2.tables.get? n = some t2) => hsv.schemas n t2 ((tableOf_iff h2).2 g2) (no_tableOf_iff.2 g1)
  have hincr := allNames_incr h1.tables h2.tables
  have hall : ∀ n, n ∉ allNames db1.tables db2.tables → db1.tables.get? n = none ∧ db2.tables.get? n = none := fun n hn => by
    rw [mem_allNames, not_or] at hn
    exact ⟨(Dict.get?_eq_none_iff _ _).2 hn.1, (Dict.get?_eq_none_iff _ _).2 hn.2⟩
  obtain ⟨_, r, -⟩ := db_phase h1 h2 hd hnew _ hincr.nodup sv (fun n _ s => by rw [hsv.cat]) hsch
  have key : ∀ a x b, (allNames db1.tables db2.tables).flatMap (dbE rep shared db1 db2) = a ++ x :: b →
      ∃ s, execAll sv (a.map stmtOf) = some s ∧ (RefsOk s (stmtOf x) ↔ EntryOk db1 db2 x) := by
    intro a x b e
    obtain ⟨s, hs, ho, he, hl⟩ := others h1 h2 hd hnew _ hincr hall sv hsv.cat hsch e
    obtain ⟨n, -, hx⟩ := List.mem_flatMap.1 (show x ∈ (allNames db1.tables db2.tables).flatMap (dbE rep shared db1 db2) by rw [e]; simp)
    have hc := mem_dbE h1 h2 hx
    refine ⟨s, hs, refsOk_iff h1 h2 ?_ ?_ ho he hl ?_⟩
    · rintro d t rfl
      rcases hc with ⟨d', t', e', g⟩ | ⟨d', t', e'⟩ | ⟨hk, -⟩
      · cases e'; exact g
      · cases e'
      · simp [Diff.kind] at hk
    · intro hk
      rcases hc with ⟨d', t', rfl, g⟩ | ⟨d', t', rfl⟩ | ⟨-, t1, t2, e1, g1, -⟩
      · simp [Diff.kind] at hk
      · simp [Diff.kind] at hk
      · rw [e1]; exact g1
    · intro hk0 hk1
      obtain ⟨t1, t2, g1, g2, hp⟩ := own_pk h1 h2 hd hnew _ hincr.nodup sv hsv.cat hsch e hk0 hk1 hs
      rcases hc with ⟨d', t', rfl, g⟩ | ⟨d', t', rfl⟩ | ⟨-, u1, u2, e1, g3, -⟩
      · simp [Diff.kind] at hk0
      · simp [Diff.kind] at hk0
      · rw [← e1, g1, Option.some.injEq] at g3
        exact ⟨t2, g2, g3 ▸ hp⟩
  rw [accepts_iff r.execAll]
  constructor
  · intro h x hx
    obtain ⟨a, b, e⟩ := List.append_of_mem hx
    obtain ⟨s, hs, hiff⟩ := key a x b e
    obtain ⟨s', hs', hok⟩ := h (a.map stmtOf) (stmtOf x) (b.map stmtOf) (by rw [e]; simp)
    rw [hs] at hs'; cases hs'
    exact hiff.1 hok
  · intro h a' st b' e
    obtain ⟨a, c, e1, rfl, e2⟩ := List.map_eq_append_iff.1 e
    obtain ⟨x, b, rfl, rfl, rfl⟩ := List.map_eq_cons_iff.1 e2
    obtain ⟨s, hs, hiff⟩ := key a x b e1
    exact ⟨s, hs, hiff.2 (h x (by rw [e1]; simp))⟩

/-- C89.  Full claim: a server that checks what a statement refers to accepts the script ddldiff writes for two valid databases.  That is not so
(`C89_refused`).  What holds: under the conditions of C17 such a server accepts the script exactly if every entry is in order at its moment (`EntryOk`):
a key must not need a column or a primary key that comes later in the script, where tables come in the order of their names and in a table
the primary key comes first and the columns come last. -/
theorem C89_accepted_iff_partial {shared : Str → Bool} {db1 db2 : Database} (h1 : WellKeyed db1) (h2 : WellKeyed db2)
    (hm : Migratable shared db1 db2) :
    (NewTablesBare db1 db2 → ∀ sv : Server, Holds sv db1 db2 →
      ((∃ sv', Accepts sv ((compareDatabases shared db1 db2).1.map stmtOf) sv') ↔ ∀ x ∈ (compareDatabases shared db1 db2).1, EntryOk db1 db2 x)) ∧
    (NewTablesBare db2 db1 → ∀ sv : Server, Holds sv db2 db1 →
      ((∃ sv', Accepts sv ((compareDatabases shared db1 db2).2.map stmtOf) sv') ↔ ∀ x ∈ (compareDatabases shared db1 db2).2, EntryOk db2 db1 x)) := by
  constructor
  · intro hb sv hsv
    rw [compareDatabases_fst h1 h2]
    exact accepted_iff h1 h2 (fun n t1 t2 g1 g2 => detected_fst h1 h2 hm g1 g2) hb sv hsv
  · intro hb sv hsv
    rw [compareDatabases_snd h1 h2]
    exact accepted_iff h2 h1 (fun n t1 t2 g1 g2 => detected_snd h1 h2 hm g2 g1) hb sv hsv

/-- C89, exactly.  For databases a catalogue can hold: the checking server accepts the script and ends with the other version if and only if
the script is complete (`Complete`, C17) and every entry is in order at its moment (`EntryOk`). -/
theorem C89_exactly {shared : Str → Bool} {db1 db2 : Database} (h1 : WellKeyed db1) (h2 : WellKeyed db2)
    (a1 : NamesApart db1) (a2 : NamesApart db2) :
    (∀ sv : Server, sv.cat = catOf db1 →
      ((∃ sv', Accepts sv ((compareDatabases shared db1 db2).1.map stmtOf) sv' ∧ CatSame sv'.cat (catOf db2)) ↔
        Complete shared FkReported db1 db2 sv.schemas ∧ ∀ x ∈ (compareDatabases shared db1 db2).1, EntryOk db1 db2 x)) ∧
    (∀ sv : Server, sv.cat = catOf db2 →
      ((∃ sv', Accepts sv ((compareDatabases shared db1 db2).2.map stmtOf) sv' ∧ CatSame sv'.cat (catOf db1)) ↔
        Complete shared (fun b a => FkReported a b) db2 db1 sv.schemas ∧ ∀ x ∈ (compareDatabases shared db1 db2).2, EntryOk db2 db1 x)) := by
  have E := C17_exactly (shared := shared) h1 h2 a1 a2
  constructor
  · intro sv hsv
    have acc : Complete shared FkReported db1 db2 sv.schemas →
        ((∃ sv', Accepts sv ((compareDatabases shared db1 db2).1.map stmtOf) sv') ↔ ∀ x ∈ (compareDatabases shared db1 db2).1, EntryOk db1 db2 x) := by
      intro C
      rw [compareDatabases_fst h1 h2]
      exact accepted_iff h1 h2 (C.detected h1 h2 a1 a2 (fun a b => not_reported) (fun a b h => by unfold FkReported at h; tauto))
        (fun n t ht hno => ⟨(C.fresh n t ht hno).1, (C.fresh n t ht hno).2.1⟩) sv ⟨hsv, fun n t ht hno => (C.fresh n t ht hno).2.2⟩
    constructor
    · rintro ⟨sv', ha, hc⟩
      have C := (E.1 sv hsv).1 ⟨sv', ha.exec, hc⟩
      exact ⟨C, (acc C).1 ⟨sv', ha⟩⟩
    · rintro ⟨C, ho⟩
      obtain ⟨sv', ha⟩ := (acc C).2 ho
      obtain ⟨s, hs, hc⟩ := (E.1 sv hsv).2 C
      rw [ha.exec, Option.some.injEq] at hs
      exact ⟨sv', ha, hs ▸ hc⟩
  · intro sv hsv
    have acc : Complete shared (fun b a => FkReported a b) db2 db1 sv.schemas →
        ((∃ sv', Accepts sv ((compareDatabases shared db1 db2).2.map stmtOf) sv') ↔ ∀ x ∈ (compareDatabases shared db1 db2).2, EntryOk db2 db1 x) := by
      intro C
      rw [compareDatabases_snd h1 h2]
      exact accepted_iff h2 h1 (C.detected h2 h1 a2 a1 (fun b a e => not_reported e.symm) (fun b a h => by unfold FkReported at h; tauto))
        (fun n t ht hno => ⟨(C.fresh n t ht hno).1, (C.fresh n t ht hno).2.1⟩) sv ⟨hsv, fun n t ht hno => (C.fresh n t ht hno).2.2⟩
    constructor
    · rintro ⟨sv', ha, hc⟩
      have C := (E.2 sv hsv).1 ⟨sv', ha.exec, hc⟩
      exact ⟨C, (acc C).1 ⟨sv', ha⟩⟩
    · rintro ⟨C, ho⟩
      obtain ⟨sv', ha⟩ := (acc C).2 ho
      obtain ⟨s, hs, hc⟩ := (E.2 sv hsv).2 C
      rw [ha.exec, Option.some.injEq] at hs
      exact ⟨sv', ha, hs ▸ hc⟩

/-- From `dbFk` to `dbRel` (`dbRel_complete`) the list has two entries, both in order. -/
example : (compareDatabases (fun _ => true) dbFk dbRel).1.length = 2 ∧ ∀ x ∈ (compareDatabases (fun _ => true) dbFk dbRel).1, EntryOk dbFk dbRel x := by
  have e : (compareDatabases (fun _ => true) dbFk dbRel).1 =
      [.fkDropped c!"d" tblA c!"FK", .relAdded c!"d" tblA ⟨c!"FK", c!"a", c!"b", c!"(x = y)"⟩] := by decide
  rw [e]
  refine ⟨rfl, fun x hx => ?_⟩
  simp only [List.mem_cons, List.not_mem_nil, or_false] at hx
  rcases hx with rfl | rfl
  · trivial
  · refine ⟨tblB, ?_, by decide⟩
    have h1 : ¬ Earlier c!"b" c!"a" := by unfold Earlier; decide
    have h2 : ¬ c!"b" = c!"a" := by decide
    show AtMoment dbFk dbRel c!"a" c!"b" tblB
    unfold AtMoment
    rw [if_neg h1, if_neg h2]
    show (c!"b", tblB) ∈ dbFk.tables
    decide

/-- Entries are in order when they refer to nothing that is new. -/
theorem entryOk_of {rep : FK → FK → Bool} {shared : Str → Bool} {db1 db2 : Database} (h1 : WellKeyed db1) (h2 : WellKeyed db2)
    (hschema : ∀ n t1 t2, TableOf db1 n t1 → TableOf db2 n t2 → t1.schema = t2.schema)
    (wf : WellFormed db2) (hw : WithinSchemas db2) (hn : NothingToReferTo db1 db2) {n : Str} {x : Diff} (hx : x ∈ dbE rep shared db1 db2 n) : EntryOk db1 db2 x := by
  -- a table of the second database at the moment, with the columns and the primary key it has there
  have moment : ∀ k m u, TableOf db2 m u → ∃ v, AtMoment db1 db2 k m v ∧ v.schema = u.schema ∧ v.pk = u.pk ∧ ∀ c col, ColumnOf u c col → ColumnOf v c col := by
    intro k m u hu
    obtain ⟨t, ht⟩ := hn.tables m u hu
    unfold AtMoment
    split
    · exact ⟨u, hu, rfl, rfl, fun _ _ h => h⟩
    · split
      · exact ⟨_, ⟨t, u, ht, hu, rfl⟩, hschema _ t u ht hu, rfl, fun c col h => hn.cols _ t u ht hu c col h⟩
      · exact ⟨t, ht, hschema _ _ _ ht hu, hn.pk _ _ _ ht hu, hn.cols _ _ _ ht hu⟩
  rcases mem_dbE h1 h2 hx with ⟨d, t, rfl, g⟩ | ⟨d, t, rfl⟩ | ⟨hk, t1, t2, e1, g1, g2, hp, hs, hf, hr⟩
  · have ht := (tableOf_iff h2).2 g
    exact ⟨wf.pk _ _ ht, wf.shard _ _ ht⟩
  · trivial
  · have m1 := (tableOf_iff h1).2 g1
    have m2 := (tableOf_iff h2).2 g2
    cases x with
    | tableCreated | tableDropped => simp [Diff.kind] at hk
    | pkDropped | shardDropped | fkDropped | relDropped | colAdded | colDropped | colModified => trivial
    | pkAdded d t ks => exact absurd (hn.pk _ _ _ m1 m2) (hp d t ks rfl).2
    | shardAdded d t m ks =>
      obtain ⟨sh, e, rfl⟩ := hs d t m ks rfl
      simp only [Diff.table] at e1
      subst e1
      intro k hk
      obtain ⟨⟨c, hc⟩, hin⟩ := wf.shard _ _ m2 sh e k hk
      refine ⟨⟨c, hn.cols _ _ _ m1 m2 _ _ hc⟩, fun u hu => ?_⟩
      rw [tableOf_iff h2, g2, Option.some.injEq] at hu
      rw [← hu]; exact hin
    | fkAdded d t fk =>
      obtain ⟨m, hm⟩ := hf d t fk rfl
      simp only [Diff.table] at e1
      subst e1
      obtain ⟨u, hu, l1, l2, hcols⟩ := wf.fks _ _ m2 m fk hm
      obtain ⟨v, hv, vs, vp, vc⟩ := moment t.name _ u hu
      refine ⟨v, hv, ?_, l1, by rw [vp]; exact l2, fun i a b ha hb => ?_⟩
      · rw [vs, (hw _ _ m2).1 m fk hm u hu, hschema _ _ _ m1 m2]
      · obtain ⟨hin, ca, cb, hca, hcb, hmatch⟩ := hcols i a b ha hb
        exact ⟨by rw [vp]; exact hin, ca, cb, hn.cols _ _ _ m1 m2 _ _ hca, vc _ _ hcb, hmatch⟩
    | relAdded d t r =>
      obtain ⟨m, hm⟩ := hr d t r rfl
      simp only [Diff.table] at e1
      subst e1
      obtain ⟨-, u, hu⟩ := wf.rels _ _ m2 m r hm
      obtain ⟨v, hv, vs, -, -⟩ := moment t.name _ u hu
      exact ⟨v, hv, by rw [vs, (hw _ _ m2).2 m r hm u hu, hschema _ _ _ m1 m2]⟩

/-- C89, the easy case: when the new version has only new shard keys, foreign keys and relationships (whatever disappears), is well-formed and
its references stay within schemas, the checking server accepts the script and ends with the new version. -/
theorem C89_keys_accepted_partial {shared : Str → Bool} {db1 db2 : Database} (h1 : WellKeyed db1) (h2 : WellKeyed db2)
    (hm : Migratable shared db1 db2) :
    (WellFormed db2 → WithinSchemas db2 → NothingToReferTo db1 db2 → ∀ sv : Server, sv.cat = catOf db1 →
      ∃ sv', Accepts sv ((compareDatabases shared db1 db2).1.map stmtOf) sv' ∧ CatSame sv'.cat (catOf db2)) ∧
    (WellFormed db1 → WithinSchemas db1 → NothingToReferTo db2 db1 → ∀ sv : Server, sv.cat = catOf db2 →
      ∃ sv', Accepts sv ((compareDatabases shared db1 db2).2.map stmtOf) sv' ∧ CatSame sv'.cat (catOf db1)) := by
  constructor
  · intro wf hw hn sv hsv
    have hb : NewTablesBare db1 db2 := fun n t ht hno => absurd (hn.tables n t ht) hno
    have hh : Holds sv db1 db2 := ⟨hsv, fun n t ht hno => absurd (hn.tables n t ht) hno⟩
    obtain ⟨s, hs⟩ := ((C89_accepted_iff_partial h1 h2 hm).1 hb sv hh).2 (by
      rw [compareDatabases_fst h1 h2]
      intro x hx
      obtain ⟨n, -, hx⟩ := List.mem_flatMap.1 hx
      exact entryOk_of h1 h2 hm.schema wf hw hn hx)
    obtain ⟨s', hs', hc⟩ := (C17_differences_migrate_partial h1 h2 hm).1 hb sv hh
    rw [hs.exec, Option.some.injEq] at hs'
    exact ⟨s, hs, hs' ▸ hc⟩
  · intro wf hw hn sv hsv
    have hb : NewTablesBare db2 db1 := fun n t ht hno => absurd (hn.tables n t ht) hno
    have hh : Holds sv db2 db1 := ⟨hsv, fun n t ht hno => absurd (hn.tables n t ht) hno⟩
    obtain ⟨s, hs⟩ := ((C89_accepted_iff_partial h1 h2 hm).2 hb sv hh).2 (by
      rw [compareDatabases_snd h1 h2]
      intro x hx
      obtain ⟨n, -, hx⟩ := List.mem_flatMap.1 hx
      exact entryOk_of h2 h1 (fun n t1 t2 ht1 ht2 => (hm.schema n t2 t1 ht2 ht1).symm) wf hw hn hx)
    obtain ⟨s', hs', hc⟩ := (C17_differences_migrate_partial h1 h2 hm).2 hb sv hh
    rw [hs.exec, Option.some.injEq] at hs'
    exact ⟨s, hs, hs' ▸ hc⟩

/-- C89 for the text: what ddldiff prints, read as a script, is accepted exactly if the entries are in order at their moments; for databases that can be
printed and no primary key added, as in C18. -/
theorem C89_script_accepted_iff_partial (fr : Rat → Str) {shared : Str → Bool} {db1 db2 : Database} (h1 : WellKeyed db1) (h2 : WellKeyed db2)
    (hm : Migratable shared db1 db2) (p1 : PlainDb db1) (p2 : PlainDb db2) :
    (NewTablesBare db1 db2 → NoKeyAdded db1 db2 → WholeCounts db2 → ∀ sv : Server, Holds sv db1 db2 →
      ∃ sts, readScript (writeAlters fr (compareDatabases shared db1 db2).1).1 = some sts ∧
        ((∃ sv', Accepts sv sts sv') ↔ ∀ x ∈ (compareDatabases shared db1 db2).1, EntryOk db1 db2 x)) ∧
    (NewTablesBare db2 db1 → NoKeyAdded db2 db1 → WholeCounts db1 → ∀ sv : Server, Holds sv db2 db1 →
      ∃ sts, readScript (writeAlters fr (compareDatabases shared db1 db2).2).1 = some sts ∧
        ((∃ sv', Accepts sv sts sv') ↔ ∀ x ∈ (compareDatabases shared db1 db2).2, EntryOk db2 db1 x)) := by
  constructor
  · intro hb hk hw sv hsv
    refine ⟨_, (C18_alter_script_reads_partial fr ?_).2, (C89_accepted_iff_partial h1 h2 hm).1 hb sv hsv⟩
    intro x hx
    rw [compareDatabases_fst h1 h2] at hx
    obtain ⟨n, -, hx⟩ := List.mem_flatMap.1 hx
    exact printable_dbE h1 h2 p1 p2 hk hw n x hx
  · intro hb hk hw sv hsv
    refine ⟨_, (C18_alter_script_reads_partial fr ?_).2, (C89_accepted_iff_partial h1 h2 hm).2 hb sv hsv⟩
    intro x hx
    rw [compareDatabases_snd h1 h2] at hx
    obtain ⟨n, -, hx⟩ := List.mem_flatMap.1 hx
    exact printable_dbE h2 h1 p2 p1 hk hw n x hx

theorem dbNoB_migratable : WellKeyed dbNoB ∧ WellKeyed dbFk ∧ Migratable (fun _ => false) dbNoB dbFk ∧ NewTablesBare dbNoB dbFk ∧
    Holds { cat := catOf dbNoB } dbNoB dbFk ∧ NoKeyAdded dbNoB dbFk ∧ WholeCounts dbFk ∧ PlainDb dbNoB ∧ PlainDb dbFk := by
  refine ⟨by decide, by decide, ⟨?_, ?_, by simp, ?_⟩, ?_, ⟨rfl, ?_⟩, ?_, ?_, plainDbB_sound (by decide), plainDbB_sound (by decide)⟩
  · have : ∀ p ∈ dbNoB.tables, ∀ q ∈ dbFk.tables, p.1 = q.1 → p.2.schema = q.2.schema := by decide
    exact fun n a b ha hb => this _ ha _ hb rfl
  · have h1 : ∀ p ∈ dbNoB.tables, p.2.rels = [] := by decide
    have h2 : ∀ p ∈ dbFk.tables, p.2.rels = [] := by decide
    rintro n a b ha hb m - ⟨r, hr⟩
    rw [h1 _ ha, h2 _ hb] at hr
    simp at hr
  · have : ∀ p ∈ dbNoB.tables, p.2.fks = [] := by decide
    intro n a b ha hb m x y hx
    rw [this _ ha] at hx; simp at hx
  · have : ∀ p ∈ dbFk.tables, (p.1 ∈ dbNoB.tables.keys) ∨ (p.2.fks = [] ∧ p.2.rels = []) := by decide
    intro n t ht hno
    rcases this _ ht with h | h
    · obtain ⟨p, hp, e⟩ := List.mem_map.1 h
      dsimp only at e
      exact absurd ⟨p.2, by rw [← e]; exact hp⟩ hno
    · exact h
  · have : ∀ p ∈ dbFk.tables, p.2.schema = defaultSchema := by decide
    exact fun n t ht _ => .inl (this _ ht)
  · have : ∀ p ∈ dbNoB.tables, ∀ q ∈ dbFk.tables, p.1 = q.1 → p.2.pk = q.2.pk := by decide
    exact fun n a b ha hb => .inl (this _ ha _ hb rfl)
  · have : ∀ p ∈ dbFk.tables, p.2.shard = none ∨ p.2.shard = some ⟨[c!"y"], .int 8⟩ := by decide
    intro n t k ht hk
    rcases this _ ht with e | e
    · rw [e] at hk; cases hk
    · rw [e] at hk; cases hk; exact ⟨8, rfl⟩

/-- Both versions are valid, but the script adds the foreign key to `b` before it creates `b`, and the checking server refuses it. -/
theorem C89_refused (fr : Rat → Str) :
    dbNoB.validate.map (·.isValid) = .ok true ∧ dbFk.validate.map (·.isValid) = .ok true ∧
    ∃ sts, readScript (writeAlters fr (compareDatabases (fun _ => false) dbNoB dbFk).1).1 = some sts ∧
      ∀ sv', ¬ Accepts { cat := catOf dbNoB } sts sv' := by
  obtain ⟨w1, w2, hm, hb, hh, hk, hw, p1, p2⟩ := dbNoB_migratable
  obtain ⟨sts, hs, hiff⟩ := (C89_script_accepted_iff_partial fr w1 w2 hm p1 p2).1 hb hk hw _ hh
  refine ⟨by decide, by decide, sts, hs, fun sv' h => ?_⟩
  have := hiff.1 ⟨sv', h⟩
  have hx : (compareDatabases (fun _ => false) dbNoB dbFk).1[0]'(by decide) = .fkAdded c!"d" { tblA with fks := [] } ⟨c!"FK", c!"a", [c!"x"], c!"b", [c!"y"]⟩ := by decide
  obtain ⟨u, hu, -⟩ : EntryOk dbNoB dbFk (.fkAdded c!"d" _ _) := hx ▸ this _ (List.getElem_mem _)
  unfold AtMoment at hu
  rw [if_neg (by decide), if_neg (by decide), tableOf_iff w1] at hu
  have e : dbNoB.tables.get? c!"b" = none := by decide
  rw [e] at hu
  cases hu

/-- `dbFk` before its foreign key and its shard key, and with a relationship and a column more. -/
def dbNoKeys : Database :=
  ((Database.empty c!"d").addTable { tblA with fks := [], cols := [(c!"x", ⟨c!"x", c!"BIGINT"⟩), (c!"w", ⟨c!"w", c!"DATE"⟩)], rels := [(c!"R", ⟨c!"R", c!"a", c!"b", c!"(x = y)"⟩)] }).addTable { tblB with shard := none }

/-- `dbNoKeys` and `dbFk` meet the hypotheses of the theorems. -/
example : WellKeyed dbNoKeys ∧ WellKeyed dbFk ∧ Migratable (fun _ => false) dbNoKeys dbFk ∧ WellFormed dbFk ∧ WithinSchemas dbFk ∧ NothingToReferTo dbNoKeys dbFk ∧
    ((compareDatabases (fun _ => false) dbNoKeys dbFk).1.length = 4) := by
  have all : ∀ p ∈ dbFk.tables, p.2.schema = defaultSchema := by decide
  have all' : ∀ p ∈ dbNoKeys.tables, p.2.schema = defaultSchema := by decide
  refine ⟨by decide, by decide, ⟨?_, ?_, by simp, ?_⟩, ?_, ?_, ⟨?_, ?_, ?_⟩, by decide⟩
  · exact fun n a b ha hb => (all' _ ha).trans (all _ hb).symm
  · have : ∀ p ∈ dbNoKeys.tables, ∀ q ∈ dbFk.tables, p.1 = q.1 → ∀ k ∈ p.2.fks.keys ++ q.2.fks.keys, k ∉ p.2.rels.keys ++ q.2.rels.keys := by
      decide
    intro n a b ha hb m ⟨k, hk⟩ ⟨r, hr⟩
    refine this _ ha _ hb rfl m ?_ ?_
    · rcases hk with hk | hk
      · exact List.mem_append_left _ (List.mem_map.2 ⟨_, hk, rfl⟩)
      · exact List.mem_append_right _ (List.mem_map.2 ⟨_, hk, rfl⟩)
    · rcases hr with hk | hk
      · exact List.mem_append_left _ (List.mem_map.2 ⟨_, hk, rfl⟩)
      · exact List.mem_append_right _ (List.mem_map.2 ⟨_, hk, rfl⟩)
  · have : ∀ p ∈ dbNoKeys.tables, p.2.fks = [] := by decide
    intro n a b ha hb m x y hx
    rw [this _ ha] at hx; simp at hx
  · exact (C08_valid_iff_well_formed _ (by decide)).1 ⟨_, rfl, by decide⟩
  · exact fun n t ht => ⟨fun _ k _ u hu => (all _ hu).trans (all _ ht).symm, fun _ r _ u hu => (all _ hu).trans (all _ ht).symm⟩
  · have : ∀ p ∈ dbFk.tables, ∃ q ∈ dbNoKeys.tables, q.1 = p.1 := by decide
    intro n u hu
    obtain ⟨q, hq, e⟩ := this _ hu
    exact ⟨q.2, by rw [show n = q.1 from e.symm]; exact hq⟩
  · have : ∀ p ∈ dbNoKeys.tables, ∀ q ∈ dbFk.tables, p.1 = q.1 → ∀ c ∈ q.2.cols, c ∈ p.2.cols := by decide
    exact fun n t u ht hu c col h => this _ ht _ hu rfl _ h
  · have : ∀ p ∈ dbNoKeys.tables, ∀ q ∈ dbFk.tables, p.1 = q.1 → p.2.pk = q.2.pk := by decide
    exact fun n t u ht hu => this _ ht _ hu rfl

end Verif.Props
