import Verif.Lemmas.MigrateOrder
import Verif.Props.Migrate
/-
Property C20, continued: the tables foreign keys refer to.
-/

namespace Verif.Props
open Verif Verif.Spec

theorem onServer_db {sv : Server} {db : Database} (hk : WellKeyed db) {s n : Str} (h : OptSame (sv.cat s n) (catOf db s n)) (l : List Str) :
    OnServer sv s n l ↔ InDatabase db s n l := by
  rw [catOf_eq] at h
  unfold OnServer InDatabase
  cases hg : db.tables.get? n with
  | none =>
    rw [hg] at h
    have hno : ¬ ∃ t, TableOf db n t := no_tableOf_iff.2 hg
    cases hc : sv.cat s n with
    | none =>
      constructor
      · rintro ⟨T, hT, -⟩; cases hT
      · rintro ⟨t, ht, -⟩; exact absurd ⟨t, ht⟩ hno
    | some T => rw [hc] at h; exact h.elim
  | some t =>
    rw [hg, Option.bind_some] at h
    have hu : ∀ u, TableOf db n u → u = t := by
      intro u hu
      have := (tableOf_iff hk).1 hu
      rw [hg] at this
      exact (Option.some.inj this).symm
    by_cases hs : t.schema = s
    · rw [if_pos hs] at h
      cases hc : sv.cat s n with
      | none => rw [hc] at h; exact h.elim
      | some T =>
        rw [hc] at h
        have e : ∀ c, c ∈ T.cols.map Prod.fst ↔ ∃ col, ColumnOf t c col := by
          intro c
          rw [(h.cols.map Prod.fst).mem_iff]
          simp only [ctable, bareTable, List.map_map, List.mem_map, Function.comp]
          have hn := (tableKeyed_of_get? hk hg).colNames
          constructor
          · rintro ⟨p, hp, rfl⟩
            exact ⟨p.2, by rw [← hn p hp]; exact hp⟩
          · rintro ⟨col, h⟩
            exact ⟨_, h, (hn _ h).symm⟩
        constructor
        · rintro ⟨T', hT', hl⟩
          cases hT'
          exact ⟨t, (tableOf_iff hk).2 hg, hs, fun c hc => (e c).1 (hl c hc)⟩
        · rintro ⟨u, hu', -, hl⟩
          cases hu u hu'
          exact ⟨T, rfl, fun c hc => (e c).2 (hl c hc)⟩
    · rw [if_neg hs] at h
      cases hc : sv.cat s n with
      | none =>
        constructor
        · rintro ⟨T, hT, -⟩; cases hT
        · rintro ⟨u, hu', hs', -⟩; cases hu u hu'; exact absurd hs' hs
      | some T => rw [hc] at h; exact h.elim

theorem optSame_refl (a : Option CTable) : OptSame a a := by
  cases a with
  | none => trivial
  | some T => exact ⟨List.Perm.refl _, rfl, rfl, rfl⟩

/-- The state of the referenced table, in terms of the databases. -/
theorem target_iff {old new : Database} (h1 : WellKeyed old) (h2 : WellKeyed new) {sv : Server} {x : Diff} {d : Str} {t : Table} {k : FK}
    (hx : x = .fkAdded d t k) {n : Str} (hg : old.tables.get? n = some t) (ho : OldColumns sv x)
    (he : ∀ m s, Earlier m x.table.name → OptSame (sv.cat s m) (catOf new s m))
    (hl : ∀ m s, Earlier x.table.name m → sv.cat s m = catOf old s m) :
    OnServer sv t.schema k.toTable k.toKeys ↔ TargetThere old new t k := by
  subst hx
  simp only [Diff.table] at he hl
  unfold TargetThere
  by_cases h : Earlier k.toTable t.name
  · rw [if_pos h]
    exact onServer_db h2 (he _ _ h) _
  · rw [if_neg h]
    by_cases h' : Earlier t.name k.toTable
    · exact onServer_db h1 (by rw [hl _ _ h']; exact optSame_refl _) _
    · have e : k.toTable = t.name := not_lt_not_lt (by rwa [← earlier_iff]) (by rwa [← earlier_iff])
      have hn : t.name = n := name_of_get? h1 hg
      obtain ⟨T, hT, hc⟩ := ho (by simp [Diff.kind]) (by simp [Diff.kind])
      simp only [Diff.table] at hT hc
      have hc' : catOf old t.schema t.name = some (ctable t) := by rw [catOf_eq, hn, hg]; simp
      have hT' : OnServer sv t.schema k.toTable k.toKeys ↔ OnServer { sv with cat := catOf old } t.schema k.toTable k.toKeys := by
        unfold OnServer
        rw [e]
        dsimp only
        rw [hT, hc']
        constructor
        · rintro ⟨T', hT', h⟩; cases hT'; exact ⟨_, rfl, by rw [← hc]; exact h⟩
        · rintro ⟨T', hT', h⟩; cases hT'; exact ⟨_, rfl, by rw [hc]; exact h⟩
      rw [hT']
      exact onServer_db h1 (optSame_refl _) _

/-- C20, the referenced table.  Full claim: when the script adds a foreign key, the columns it refers to exist.  What holds: they
do exactly if they exist in the new version of a table with an earlier name, or in the old version of any other table; so a key to
a new table is too early if that table has a later name (`C20_target_created_later`) and a key to a new column of a table
with a later name, or of the same table, is too early as well (`C20_target_column_later`).  The condition on
`Migratable` and on new tables is as in C17. -/
theorem C20_referenced_columns_exist_partial {shared : Str → Bool} {db1 db2 : Database} (h1 : WellKeyed db1) (h2 : WellKeyed db2)
    (hm : Migratable shared db1 db2) :
    (NewTablesBare db1 db2 → ∀ sv : Server, Holds sv db1 db2 → ∀ a d t k b,
      (compareDatabases shared db1 db2).1 = a ++ .fkAdded d t k :: b →
      ∃ sv', execAll sv (a.map stmtOf) = some sv' ∧
        (OnServer sv' t.schema k.toTable k.toKeys ↔ TargetThere db1 db2 t k)) ∧
    (NewTablesBare db2 db1 → ∀ sv : Server, Holds sv db2 db1 → ∀ a d t k b,
      (compareDatabases shared db1 db2).2 = a ++ .fkAdded d t k :: b →
      ∃ sv', execAll sv (a.map stmtOf) = some sv' ∧
        (OnServer sv' t.schema k.toTable k.toKeys ↔ TargetThere db2 db1 t k)) := by
  constructor
  · intro hb sv hsv a d t k b hl
    have hmem : Diff.fkAdded d t k ∈ (compareDatabases shared db1 db2).1 := by rw [hl]; simp
    obtain ⟨n, t', g1, -⟩ := (common_of_mem h1 h2 shared _ (by simp [Diff.kind])).1 hmem
    rw [compareDatabases_fst h1 h2] at hl
    obtain ⟨s, hs, ho, he, hla⟩ := others (rep := fun a b => !a.eq b) (shared := shared) h1 h2
      (fun n t1 t2 g1 g2 => detected_fst h1 h2 hm g1 g2)
      (fun n t2 g1 g2 => hb n t2 ((tableOf_iff h2).2 g2) (no_tableOf_iff.2 g1)) _ (allNames_incr h1.tables h2.tables)
      (fun n hn => by
        rw [mem_allNames, not_or] at hn
        exact ⟨(Dict.get?_eq_none_iff _ _).2 hn.1, (Dict.get?_eq_none_iff _ _).2 hn.2⟩) sv hsv.cat
      (fun n t2 g1 g2 => hsv.schemas n t2 ((tableOf_iff h2).2 g2) (no_tableOf_iff.2 g1)) hl
    exact ⟨s, hs, target_iff h1 h2 rfl g1 ho he hla⟩
  · intro hb sv hsv a d t k b hl
    have hmem : Diff.fkAdded d t k ∈ (compareDatabases shared db1 db2).2 := by rw [hl]; simp
    obtain ⟨n, t', -, g1⟩ := (common_of_mem h1 h2 shared _ (by simp [Diff.kind])).2 hmem
    rw [compareDatabases_snd h1 h2] at hl
    obtain ⟨s, hs, ho, he, hla⟩ := others (rep := fun b a => !a.eq b) (shared := shared) h2 h1
      (fun n t1 t2 g1 g2 => detected_snd h1 h2 hm g2 g1)
      (fun n t2 g1 g2 => hb n t2 ((tableOf_iff h1).2 g2) (no_tableOf_iff.2 g1)) _ (allNames_incr h2.tables h1.tables)
      (fun n hn => by
        rw [mem_allNames, not_or] at hn
        exact ⟨(Dict.get?_eq_none_iff _ _).2 hn.1, (Dict.get?_eq_none_iff _ _).2 hn.2⟩) sv hsv.cat
      (fun n t2 g1 g2 => hsv.schemas n t2 ((tableOf_iff h1).2 g2) (no_tableOf_iff.2 g1)) hl
    exact ⟨s, hs, target_iff h2 h1 rfl g1 ho he hla⟩

/-- The first list for `dbOld` and `dbFk` adds a foreign key whose target is there. -/
example : ∃ a d t k b, (compareDatabases (fun _ => false) dbOld dbFk).1 = a ++ .fkAdded d t k :: b ∧ b ≠ [] ∧
    Earlier t.name k.toTable ∧ TargetThere dbOld dbFk t k := by
  refine ⟨[], _, _, _, _, rfl, by decide, by decide, ?_⟩
  unfold TargetThere
  rw [if_neg (by decide)]
  refine ⟨{ tblB with pk := [], shard := none }, by unfold TableOf; decide, by decide, ?_⟩
  intro c hc
  simp only [List.mem_singleton] at hc
  subst hc
  exact ⟨⟨c!"y", c!"BIGINT"⟩, by unfold ColumnOf; decide⟩

/-- `dbFk` before the referenced table and the key were added. -/
def dbNoB : Database := (Database.empty c!"d").addTable { tblA with fks := [] }

/-- The foreign key to the new table `b` comes before the table itself; both databases are valid. -/
theorem C20_target_created_later :
    let d := (compareDatabases (fun _ => false) dbNoB dbFk).1
    ∃ a x k b, d = a ++ .fkAdded c!"d" x k :: b ∧ k.toTable = c!"b" ∧
      (∃ sv, execAll { cat := catOf dbNoB } (a.map stmtOf) = some sv ∧ sv.cat x.schema c!"b" = none) ∧
      (∃ t ∈ b, ∃ m u, t = .tableCreated m u ∧ u.name = c!"b") ∧
      dbNoB.validate.map (·.isValid) = .ok true ∧ dbFk.validate.map (·.isValid) = .ok true := by
  refine ⟨[], _, _, _, rfl, by decide, ⟨_, rfl, by decide⟩, ⟨_, .head _, _, _, rfl, by decide⟩, by decide, by decide⟩

/-- The foreign key to the new column `y` of `b` comes before the column; both databases are valid. -/
theorem C20_target_column_later :
    let d := (compareDatabases (fun _ => false) dbNoY dbFk).1
    ∃ a x k b, d = a ++ .fkAdded c!"d" x k :: b ∧ k.toTable = c!"b" ∧ k.toKeys = [c!"y"] ∧
      (∃ sv, execAll { cat := catOf dbNoY } (a.map stmtOf) = some sv ∧
        (sv.cat x.schema c!"b").map (fun T => decide (c!"y" ∈ T.cols.map Prod.fst)) = some false) ∧
      dbNoY.validate.map (·.isValid) = .ok true ∧ dbFk.validate.map (·.isValid) = .ok true := by
  refine ⟨[], _, _, _, rfl, by decide, by decide, ⟨_, rfl, by decide⟩, by decide, by decide⟩

end Verif.Props
