import Verif.Lemmas.CompareNodup
import Verif.Spec.Catalog
/-
Executing difference lists on a catalogue.
-/

namespace Verif
open Verif.Spec

/-! ## The two lists of a comparison in one form -/

section report
variable {α : Type}

/-- Entries for one name of two registries. -/
def regE (d1 d2 : Dict α) (drop : α → List Diff) (add : α → List Diff) (change : α → α → List Diff) (n : Str) : List Diff :=
  match d1.get? n, d2.get? n with
  | some x, some y => change x y
  | some x, none => drop x
  | none, some y => add y
  | none, none => []

/-- Primary key entries. -/
def pkE (m : Str) (t1 t2 : Table) : List Diff :=
  if t1.pk = t2.pk then [] else
    (if t1.pk = [] then [] else [.pkDropped m t1]) ++ (if t2.pk = [] then [] else [.pkAdded m t1 t2.pk])

/-- Shard key entries. -/
def shardE (same : Bool) (m : Str) (t1 t2 : Table) : List Diff :=
  match t1.shard, t2.shard with
  | none, none => []
  | none, some s2 => [.shardAdded m t1 s2.number s2.keys]
  | some _, none => [.shardDropped m t1]
  | some _, some s2 => if same then [] else [.shardAdded m t1 s2.number s2.keys]

/-- Foreign key entries for one name; `rep` says which pairs are reported. -/
def fkE (rep : FK → FK → Bool) (m : Str) (t1 t2 : Table) (n : Str) : List Diff :=
  regE t1.fks t2.fks (fun x => [.fkDropped m t1 x.name]) (fun y => [.fkAdded m t1 y])
    (fun x y => if rep x y then [.fkDropped m t1 x.name, .fkAdded m t1 y] else []) n

/-- Relationship entries for one name. -/
def relE (m : Str) (t1 t2 : Table) (n : Str) : List Diff :=
  regE t1.rels t2.rels (fun x => [.relDropped m t1 x.name]) (fun y => [.relAdded m t1 y])
    (fun x y => if x = y then [] else [.relDropped m t1 x.name, .relAdded m t1 y]) n

/-- Column entries for one name. -/
def colE (m : Str) (t1 t2 : Table) (n : Str) : List Diff :=
  regE t1.cols t2.cols (fun x => [.colDropped m t1 x]) (fun y => [.colAdded m t1 y])
    (fun x y => if x.type = y.type then [] else [.colModified m t1 y]) n

/-- Entries for a common table. -/
def tableE (rep : FK → FK → Bool) (same : Bool) (m : Str) (t1 t2 : Table) : List Diff :=
  pkE m t1 t2 ++ shardE same m t1 t2 ++ (allNames t1.fks t2.fks).flatMap (fkE rep m t1 t2) ++
  (allNames t1.rels t2.rels).flatMap (relE m t1 t2) ++ (allNames t1.cols t2.cols).flatMap (colE m t1 t2)

/-- Entries for one table name. -/
def dbE (rep : FK → FK → Bool) (shared : Str → Bool) (db1 db2 : Database) (n : Str) : List Diff :=
  regE db1.tables db2.tables (fun t => [.tableDropped db1.name t]) (fun t => [.tableCreated db1.name t])
    (fun t1 t2 => tableE rep (shared n) db1.name t1 t2) n

theorem concat_fst_regE {d1 d2 : Dict α} {o1 o2 : α → Diffs} {b : α → α → Diffs} :
    (Diffs.concat (dictPick d1 d2 o1 o2 b) (allNames d1 d2)).1 =
      (allNames d1 d2).flatMap (regE d1 d2 (fun x => (o1 x).1) (fun y => (o2 y).1) (fun x y => (b x y).1)) := by
  rw [Diffs.concat_fst]
  congr 1; funext n
  unfold dictPick regE
  cases d1.get? n <;> cases d2.get? n <;> rfl

theorem concat_snd_regE {d1 d2 : Dict α} (h1 : d1.keys.Nodup) (h2 : d2.keys.Nodup) {o1 o2 : α → Diffs}
    {b : α → α → Diffs} :
    (Diffs.concat (dictPick d1 d2 o1 o2 b) (allNames d1 d2)).2 =
      (allNames d2 d1).flatMap (regE d2 d1 (fun y => (o2 y).2) (fun x => (o1 x).2) (fun y x => (b x y).2)) := by
  rw [Diffs.concat_snd, show allNames d2 d1 = allNames d1 d2 from unionS_comm (sortStr_incr h2) (sortStr_incr h1)]
  congr 1; funext n
  unfold dictPick regE
  cases d1.get? n <;> cases d2.get? n <;> rfl

theorem regE_congr {d1 d2 : Dict α} {f f' g g' : α → List Diff} {h h' : α → α → List Diff} {n : Str}
    (e1 : ∀ x, d1.get? n = some x → f x = f' x) (e2 : ∀ x, d2.get? n = some x → g x = g' x)
    (e3 : ∀ x y, d1.get? n = some x → d2.get? n = some y → h x y = h' x y) : regE d1 d2 f g h n = regE d1 d2 f' g' h' n := by
  unfold regE
  cases hu : d1.get? n <;> cases hv : d2.get? n
  · rfl
  · exact e2 _ hv
  · exact e1 _ hu
  · exact e3 _ _ hu hv

theorem compareTables_fst {same : Bool} {m1 m2 : Str} {t1 t2 : Table} (k1 : TableKeyed t1) (k2 : TableKeyed t2) :
    (compareTables same m1 t1 m2 t2).1 = tableE (fun a b => !a.eq b) same m1 t1 t2 := by
  have hp : (comparePrimaryKeys m1 t1 m2 t2).1 = pkE m1 t1 t2 := by
    unfold comparePrimaryKeys pkE
    by_cases e : t1.pk = t2.pk
    · simp [e]
    · by_cases e1 : t1.pk = [] <;> by_cases e2 : t2.pk = []
      · exact absurd (e1.trans e2.symm) e
      · simp [e1, e2, Ne.symm e2]
      · simp [e1, e2]
      · simp [e, e1, e2]
  have hs : (compareShardKeys same m1 t1 m2 t2).1 = shardE same m1 t1 t2 := by
    unfold compareShardKeys shardE
    cases t1.shard <;> cases t2.shard <;> cases same <;> rfl
  unfold compareTables tableE
  simp only [Diffs.append]
  rw [hp, hs, compareForeignKeys_eq k1 k2, compareRelationships_eq k1 k2, compareColumns_eq k1 k2,
    concat_fst_regE, concat_fst_regE, concat_fst_regE]
  congr 1
  · congr 1
    · congr 2
      funext n
      apply regE_congr
      · intros; rfl
      · intros; rfl
      · intro x y _ _
        cases h : x.eq y <;> simp [h]
    · congr 1; funext n
      apply regE_congr
      · intros; rfl
      · intros; rfl
      · intro x y _ _
        by_cases e : x = y
        · simp [e, relEq_iff]
        · have : ¬ x.eq y = true := by rw [relEq_iff]; exact e
          simp [this, e]
  · congr 1; funext n
    apply regE_congr
    · intros; rfl
    · intros; rfl
    · intro x y _ _
      by_cases e : x.type = y.type <;> simp [e]

theorem compareTables_snd {same : Bool} {m1 m2 : Str} {t1 t2 : Table} (k1 : TableKeyed t1) (k2 : TableKeyed t2) :
    (compareTables same m1 t1 m2 t2).2 = tableE (fun b a => !a.eq b) same m2 t2 t1 := by
  have hp : (comparePrimaryKeys m1 t1 m2 t2).2 = pkE m2 t2 t1 := by
    unfold comparePrimaryKeys pkE
    by_cases e : t1.pk = t2.pk
    · simp [e]
    · by_cases e1 : t1.pk = [] <;> by_cases e2 : t2.pk = []
      · exact absurd (e1.trans e2.symm) e
      · simp [e1, e2, Ne.symm e2]
      · simp [e1, e2, Ne.symm e1]
      · simp [e, e1, e2, Ne.symm e]
  have hs : (compareShardKeys same m1 t1 m2 t2).2 = shardE same m2 t2 t1 := by
    unfold compareShardKeys shardE
    cases t1.shard <;> cases t2.shard <;> cases same <;> rfl
  unfold compareTables tableE
  simp only [Diffs.append]
  rw [hp, hs, compareForeignKeys_eq k1 k2, compareRelationships_eq k1 k2, compareColumns_eq k1 k2,
    concat_snd_regE k1.fks k2.fks, concat_snd_regE k1.rels k2.rels, concat_snd_regE k1.cols k2.cols]
  congr 1
  · congr 1
    · congr 2
      funext n
      apply regE_congr
      · intros; rfl
      · intros; rfl
      · intro x y _ _
        cases h : y.eq x <;> simp [h]
    · congr 1; funext n
      apply regE_congr
      · intros; rfl
      · intros; rfl
      · intro x y _ _
        by_cases e : x = y
        · simp [e, relEq_iff]
        · have : ¬ y.eq x = true := by rw [relEq_iff]; exact fun h => e h.symm
          simp [this, e]
  · congr 1; funext n
    apply regE_congr
    · intros; rfl
    · intros; rfl
    · intro x y _ _
      by_cases e : x.type = y.type <;> simp [e, eq_comm]

theorem compareDatabases_fst {db1 db2 : Database} (h1 : WellKeyed db1) (h2 : WellKeyed db2) (shared : Str → Bool) :
    (compareDatabases shared db1 db2).1 =
      (allNames db1.tables db2.tables).flatMap (dbE (fun a b => !a.eq b) shared db1 db2) := by
  rw [compareDatabases_eq h1 h2, concat_fst_regE]
  congr 1; funext n
  apply regE_congr
  · intros; rfl
  · intros; rfl
  · intro x y hx hy
    rw [compareTables_fst (tableKeyed_of_get? h1 hx) (tableKeyed_of_get? h2 hy), name_of_get? h1 hx]

theorem compareDatabases_snd {db1 db2 : Database} (h1 : WellKeyed db1) (h2 : WellKeyed db2) (shared : Str → Bool) :
    (compareDatabases shared db1 db2).2 =
      (allNames db2.tables db1.tables).flatMap (dbE (fun b a => !a.eq b) shared db2 db1) := by
  rw [compareDatabases_eq h1 h2, concat_snd_regE h1.tables h2.tables]
  congr 1; funext n
  apply regE_congr
  · intros; rfl
  · intros; rfl
  · intro x y hx hy
    rw [compareTables_snd (tableKeyed_of_get? h1 hy) (tableKeyed_of_get? h2 hx), name_of_get? h1 hy]

end report

/-! ## Runs -/

/-- The server executes the entries one after the other; before each one `P` holds. -/
inductive Runs (P : Server → Diff → Prop) : Server → List Diff → Server → Prop where
  | nil (sv : Server) : Runs P sv [] sv
  | cons {sv sv' sv'' : Server} {x : Diff} {l : List Diff} : P sv x → exec sv (stmtOf x) = some sv' → Runs P sv' l sv'' →
      Runs P sv (x :: l) sv''

theorem Runs.append {P : Server → Diff → Prop} {a b : List Diff} {s1 s2 s3 : Server} (h1 : Runs P s1 a s2)
    (h2 : Runs P s2 b s3) : Runs P s1 (a ++ b) s3 := by
  induction h1 with
  | nil => exact h2
  | cons hp he _ ih => exact .cons hp he (ih h2)

theorem Runs.execAll {P : Server → Diff → Prop} {l : List Diff} {s1 s2 : Server} (h : Runs P s1 l s2) :
    execAll s1 (l.map stmtOf) = some s2 := by
  induction h with
  | nil => rfl
  | cons _ he _ ih => simp [Spec.execAll, he, ih]

theorem Runs.prefix {P : Server → Diff → Prop} {l : List Diff} {s1 s2 : Server} (h : Runs P s1 l s2) {a b : List Diff}
    {x : Diff} (hl : l = a ++ x :: b) : ∃ s, Spec.execAll s1 (a.map stmtOf) = some s ∧ P s x := by
  induction h generalizing a with
  | nil => simp at hl
  | cons hp he _ ih =>
    cases a with
    | nil =>
      simp at hl
      obtain ⟨rfl, -⟩ := hl
      exact ⟨_, rfl, hp⟩
    | cons y a =>
      simp at hl
      obtain ⟨rfl, hl⟩ := hl
      obtain ⟨s, hs, hp⟩ := ih hl
      exact ⟨s, by simp [Spec.execAll, he, hs], hp⟩

/-- The entry is an action on the columns. -/
def ColumnOp : Diff → Prop
  | .colAdded .. | .colDropped .. | .colModified .. => True
  | _ => False

/-- Entries that are actions on a table, other than column actions, meet that table with its old columns. -/
def OldColumns (sv : Server) (x : Diff) : Prop :=
  x.kind ≠ 0 → x.kind ≠ 5 → ∃ T, sv.cat x.table.schema x.table.name = some T ∧ T.cols = (ctable x.table).cols

/-- Like `Runs`, on one table. -/
inductive TRuns (t : Table) : CTable → List Diff → CTable → Prop where
  | nil (T : CTable) : TRuns t T [] T
  | cons {T T' T'' : CTable} {x : Diff} {l : List Diff} {op : AlterOp} : x.table = t → x.kind ≠ 0 →
      stmtOf x = .alter t.schema t.name op → (x.kind ≠ 5 → T.cols = (ctable t).cols) → applyOp t.schema T op = some T' →
      TRuns t T' l T'' → TRuns t T (x :: l) T''

theorem TRuns.append {t : Table} {a b : List Diff} {s1 s2 s3 : CTable} (h1 : TRuns t s1 a s2) (h2 : TRuns t s2 b s3) :
    TRuns t s1 (a ++ b) s3 := by
  induction h1 with
  | nil => exact h2
  | cons h1 h2' h3 h4 h5 _ ih => exact .cons h1 h2' h3 h4 h5 (ih h2)

theorem put_put (sv : Server) (s n : Str) (A B : Option CTable) : (sv.put s n A).put s n B = sv.put s n B := by
  simp only [Server.put]
  congr 1
  funext s' n'
  split <;> rfl

theorem put_cat (sv : Server) (s n s' n' : Str) (A : Option CTable) :
    (sv.put s n A).cat s' n' = if s' = s ∧ n' = n then A else sv.cat s' n' := rfl

theorem TRuns.runs {t : Table} {T T' : CTable} {l : List Diff} (h : TRuns t T l T') (sv : Server)
    (hc : sv.cat t.schema t.name = some T) :
    ∃ sv', Runs OldColumns sv l sv' ∧ sv'.cat t.schema t.name = some T' ∧
      (∀ s n, ¬ (s = t.schema ∧ n = t.name) → sv'.cat s n = sv.cat s n) ∧ sv'.dbs = sv.dbs ∧
      sv'.current = sv.current ∧ sv'.schemas = sv.schemas := by
  induction h generalizing sv with
  | nil => exact ⟨sv, .nil _, hc, fun _ _ _ => rfl, rfl, rfl, rfl⟩
  | @cons T T1 T2 x l op h1 h2 h3 h4 h5 _ ih =>
    obtain ⟨sv', r, c, f, d⟩ := ih (sv.put t.schema t.name (some T1)) (by simp [put_cat])
    refine ⟨sv', .cons ?_ ?_ r, c, ?_, d⟩
    · intro _ hk
      rw [h1]
      exact ⟨T, hc, h4 hk⟩
    · rw [h3]
      simp [exec, hc, h5]
    · intro s n hne
      rw [f s n hne, put_cat, if_neg hne]

/-! ## Phases of one table -/

theorem pk_phase {m : Str} {t1 t2 : Table} {T : CTable} (hT : T.pk = t1.pk) (hc : T.cols = (ctable t1).cols) :
    TRuns t1 T (pkE m t1 t2) { T with pk := t2.pk } := by
  unfold pkE
  by_cases e : t1.pk = t2.pk
  · have : T = { T with pk := t2.pk } := by cases T; simp_all
    rw [if_pos e, ← this]; exact .nil _
  · rw [if_neg e]
    have hadd : t2.pk ≠ [] → ∀ T' : CTable, T'.pk = [] → T'.cols = (ctable t1).cols →
        TRuns t1 T' [.pkAdded m t1 t2.pk] { T' with pk := t2.pk } := by
      intro e2 T' hp hc'
      exact .cons (T' := { T' with pk := t2.pk }) rfl (by simp [Diff.kind]) rfl (fun _ => hc') (by simp [applyOp, hp, e2]) (.nil _)
    have hdrop : t1.pk ≠ [] → TRuns t1 T [.pkDropped m t1] { T with pk := [] } := by
      intro e1
      exact .cons (T' := { T with pk := [] }) rfl (by simp [Diff.kind]) rfl (fun _ => hc) (by simp [applyOp, hT, e1]) (.nil _)
    by_cases e1 : t1.pk = [] <;> by_cases e2 : t2.pk = []
    · exact absurd (e1.trans e2.symm) e
    · rw [if_pos e1, if_neg e2]; exact hadd e2 T (hT.trans e1) hc
    · rw [if_neg e1, if_pos e2, e2]; exact hdrop e1
    · rw [if_neg e1, if_neg e2]
      exact (hdrop e1).append (hadd e2 { T with pk := [] } rfl hc)

/-- The shard key as in the catalogue. -/
def shardOf (t : Table) : Option (Str × List Str) := t.shard.map (fun k => (countText k.number, k.keys))

theorem shard_phase {same : Bool} {m : Str} {t1 t2 : Table} {T : CTable} (hT : T.shard = shardOf t1)
    (hs : same = true → t1.shard ≠ none → t2.shard ≠ none → shardOf t1 = shardOf t2) (hc : T.cols = (ctable t1).cols) :
    TRuns t1 T (shardE same m t1 t2) { T with shard := shardOf t2 } := by
  unfold shardE shardOf
  unfold shardOf at hT hs
  cases e1 : t1.shard with
  | none =>
    cases e2 : t2.shard with
    | none =>
      have : T = { T with shard := none } := by cases T; simp_all
      simp only [Option.map_none]
      rw [← this]; exact .nil _
    | some s2 => exact .cons (T' := { T with shard := _ }) rfl (by simp [Diff.kind]) rfl (fun _ => hc) (by rfl) (.nil _)
  | some s1 =>
    cases e2 : t2.shard with
    | none =>
      exact .cons (T' := { T with shard := _ }) rfl (by simp [Diff.kind]) rfl (fun _ => hc)
        (by simp [applyOp, hT, e1]) (.nil _)
    | some s2 =>
      cases hsame : same with
      | true =>
        have e3 := hs hsame (by simp [e1]) (by simp [e2])
        rw [e2] at e3
        have : T = { T with shard := (some s2).map (fun k => (countText k.number, k.keys)) } := by
          rw [← e3, ← hT]
        rw [← this]; exact .nil _
      | false =>
        exact .cons (T' := { T with shard := _ }) rfl (by simp [Diff.kind]) rfl (fun _ => hc) (by rfl) (.nil _)

/-- The phases that change constraints, for foreign keys and relationships alike. -/
theorem con_phase {α : Type} {m : Str} {t1 : Table} {d1 d2 : Dict α} {con : α → Con} {drop add : α → Diff}
    {rep : α → α → Bool}
    (hdrop : ∀ n x, d1.get? n = some x → (drop x).table = t1 ∧ (drop x).kind ≠ 0 ∧ (drop x).kind ≠ 5 ∧
      stmtOf (drop x) = .alter t1.schema t1.name (.dropCon n))
    (hadd : ∀ n y, d2.get? n = some y → (add y).table = t1 ∧ (add y).kind ≠ 0 ∧ (add y).kind ≠ 5 ∧
      ∃ op, stmtOf (add y) = .alter t1.schema t1.name op ∧ ∀ T : CTable, T.cons n = none →
        applyOp t1.schema T op = some { T with cons := fun k => if k = n then some (con y) else T.cons k })
    (hrep : ∀ n x y, d1.get? n = some x → d2.get? n = some y → rep x y = false → con x = con y)
    (l : List Str) (hl : l.Nodup) (T : CTable) (hT : ∀ n ∈ l, T.cons n = (d1.get? n).map con)
    (hc : T.cols = (ctable t1).cols) :
    TRuns t1 T (l.flatMap (regE d1 d2 (fun x => [drop x]) (fun y => [add y]) (fun x y => if rep x y then [drop x, add y] else [])))
      { T with cons := fun k => if k ∈ l then (d2.get? k).map con else T.cons k } := by
  induction l generalizing T with
  | nil => simp; exact .nil _
  | cons n l ih =>
    have hn : n ∉ l := (List.nodup_cons.1 hl).1
    have hl' : l.Nodup := (List.nodup_cons.1 hl).2
    rw [List.flatMap_cons]
    -- the entries for `n`
    have step : TRuns t1 T (regE d1 d2 (fun x => [drop x]) (fun y => [add y]) (fun x y => if rep x y then [drop x, add y] else []) n)
        { T with cons := fun k => if k = n then (d2.get? n).map con else T.cons k } := by
      have hTn := hT n (by simp)
      have hD : ∀ x, d1.get? n = some x → TRuns t1 T [drop x] { T with cons := fun k => if k = n then none else T.cons k } := by
        intro x hx
        obtain ⟨a, b, c, d⟩ := hdrop n x hx
        exact .cons (T' := { T with cons := fun k => if k = n then none else T.cons k }) a b d (fun _ => hc)
          (by simp [applyOp, hTn, hx]) (.nil _)
      have hA : ∀ y, d2.get? n = some y → ∀ T' : CTable, T'.cons n = none → T'.cols = (ctable t1).cols →
          TRuns t1 T' [add y] { T' with cons := fun k => if k = n then some (con y) else T'.cons k } := by
        intro y hy T' h0 hc'
        obtain ⟨a, b, c, op, d, e⟩ := hadd n y hy
        exact .cons (T' := { T' with cons := fun k => if k = n then some (con y) else T'.cons k }) a b d (fun _ => hc')
          (e T' h0) (.nil _)
      unfold regE
      cases hu : d1.get? n with
      | none =>
        rw [hu] at hTn
        cases hv : d2.get? n with
        | none =>
          have : T = { T with cons := fun k => if k = n then (none : Option α).map con else T.cons k } := by
            cases T with
            | mk a b c d =>
              simp only [CTable.mk.injEq, true_and]
              funext k
              by_cases hk : k = n
              · subst hk; simpa using hTn
              · simp [hk]
          rw [← this]; exact .nil _
        | some y => exact hA y hv T hTn hc
      | some x =>
        rw [hu] at hTn
        cases hv : d2.get? n with
        | none => exact hD x hu
        | some y =>
          cases hr : rep x y with
          | true =>
            have := (hD x hu).append (hA y hv { T with cons := fun k => if k = n then none else T.cons k } (by simp) hc)
            simp only [hr, if_true]
            have e : (fun k => if k = n then (some y).map con else T.cons k) =
                (fun k => if k = n then some (con y) else if k = n then none else T.cons k) := by
              funext k
              by_cases hk : k = n <;> simp [hk]
            rw [e]
            exact this
          | false =>
            have e := hrep n x y hu hv hr
            have : T = { T with cons := fun k => if k = n then (some y).map con else T.cons k } := by
              cases T with
              | mk a b c d =>
                simp only [CTable.mk.injEq, true_and]
                funext k
                by_cases hk : k = n
                · subst hk; simpa [e] using hTn
                · simp [hk]
            simp only [hr, Bool.false_eq_true, if_false]
            rw [← this]; exact .nil _
    refine step.append ?_
    have := ih hl' { T with cons := fun k => if k = n then (d2.get? n).map con else T.cons k } (by
      intro k hk
      have : k ≠ n := fun h => hn (h ▸ hk)
      simpa [this] using hT k (by simp [hk])) hc
    convert this using 2
    funext k
    by_cases hk : k = n
    · subst hk; simp [hn]
    · by_cases hkl : k ∈ l <;> simp [hk, hkl]

/-! ### Columns -/

theorem get?_append {α : Type} (a b : Dict α) (k : Str) : Dict.get? (a ++ b) k = (Dict.get? a k).or (Dict.get? b k) := by
  induction a with
  | nil => simp
  | cons p a ih =>
    rw [List.cons_append, Dict.get?_cons, Dict.get?_cons, ih]
    split <;> simp

theorem get?_filter_ne {α : Type} (a : Dict α) (n k : Str) :
    Dict.get? (a.filter (fun p => p.1 ≠ n)) k = if k = n then none else Dict.get? a k := by
  induction a with
  | nil => simp
  | cons p a ih =>
    by_cases hp : p.1 = n
    · rw [List.filter_cons_of_neg (by simp [hp]), ih, Dict.get?_cons]
      by_cases hk : k = n
      · simp [hk]
      · have : p.1 ≠ k := fun h => hk (h ▸ hp)
        simp [hk, this]
    · rw [List.filter_cons_of_pos (by simp [hp]), Dict.get?_cons, ih, Dict.get?_cons]
      by_cases hk : k = n
      · subst hk; simp [hp]
      · simp [hk]

theorem get?_map_ne {α : Type} (a : Dict α) (n k : Str) (v : α) :
    Dict.get? (a.map (fun p => if p.1 = n then (n, v) else p)) k =
      if k = n ∧ n ∈ a.map Prod.fst then some v else Dict.get? a k := by
  induction a with
  | nil => simp
  | cons p a ih =>
    rw [List.map_cons, Dict.get?_cons, ih, Dict.get?_cons]
    by_cases hp : p.1 = n
    · subst hp
      by_cases hk : k = p.1
      · subst hk; simp
      · simp [hk, Ne.symm hk]
    · simp only [if_neg hp]
      by_cases hk : k = n
      · subst hk
        have hp' : ¬ k = p.1 := fun h => hp h.symm
        simp only [List.map_cons, List.mem_cons, true_and, hp', false_or, if_neg hp]
      · simp [hk]

/-- The column registry as in the catalogue. -/
def colsOf (t : Table) : List (Str × Str) := t.cols.map (fun p => (p.2.name, p.2.type))

theorem colsOf_keys {t : Table} (k : TableKeyed t) : (colsOf t).map Prod.fst = t.cols.keys := by
  simp only [colsOf, List.map_map, Dict.keys]
  apply List.map_congr_left
  intro p hp
  exact (k.colNames p hp).symm

theorem colsOf_get? {t : Table} (k : TableKeyed t) (n : Str) :
    Dict.get? (colsOf t) n = (t.cols.get? n).map (·.type) := by
  have hn := k.colNames
  unfold colsOf
  revert hn
  induction t.cols with
  | nil => intro _; simp
  | cons p d ih =>
    intro hn
    rw [List.map_cons, Dict.get?_cons, Dict.get?_cons, ih (fun q hq => hn q (by simp [hq]))]
    simp only [← hn p (by simp)]
    split <;> simp

theorem perm_of_get? {α : Type} {a b : Dict α} (ha : (a.map Prod.fst).Nodup) (hb : (b.map Prod.fst).Nodup)
    (h : ∀ k, Dict.get? a k = Dict.get? b k) : a.Perm b := by
  refine (List.perm_ext_iff_of_nodup (List.Nodup.of_map _ ha) (List.Nodup.of_map _ hb)).2 ?_
  rintro ⟨k, v⟩
  rw [Dict.mem_iff_get? ha, Dict.mem_iff_get? hb, h]

theorem col_phase {m : Str} {t1 t2 : Table} (k1 : TableKeyed t1) (k2 : TableKeyed t2) (l : List Str) (hl : l.Nodup)
    (T : CTable) (hn : (T.cols.map Prod.fst).Nodup) (hT : ∀ n ∈ l, Dict.get? T.cols n = (t1.cols.get? n).map (·.type)) :
    ∃ C, TRuns t1 T (l.flatMap (colE m t1 t2)) { T with cols := C } ∧ (C.map Prod.fst).Nodup ∧
      ∀ k, Dict.get? C k = if k ∈ l then (t2.cols.get? k).map (·.type) else Dict.get? T.cols k := by
  induction l generalizing T with
  | nil => exact ⟨T.cols, .nil _, hn, by simp⟩
  | cons n l ih =>
    have hnl : n ∉ l := (List.nodup_cons.1 hl).1
    have hl' : l.Nodup := (List.nodup_cons.1 hl).2
    have hTn := hT n (by simp)
    have step : ∃ C, TRuns t1 T (colE m t1 t2 n) { T with cols := C } ∧ (C.map Prod.fst).Nodup ∧
        ∀ k, Dict.get? C k = if k = n then (t2.cols.get? k).map (·.type) else Dict.get? T.cols k := by
      have hmem : (n ∈ T.cols.map Prod.fst) ↔ (t1.cols.get? n).isSome = true := by
        rw [show (n ∈ T.cols.map Prod.fst) ↔ (Dict.get? T.cols n).isSome = true from (Dict.get?_isSome_iff _ _).symm, hTn]
        simp
      unfold colE regE
      cases hu : t1.cols.get? n with
      | none =>
        rw [hu] at hmem hTn
        have hno : n ∉ T.cols.map Prod.fst := by simp [hmem]
        cases hv : t2.cols.get? n with
        | none =>
          refine ⟨T.cols, .nil _, hn, fun k => ?_⟩
          by_cases hk : k = n
          · subst hk; simpa [hv] using hTn
          · simp [hk]
        | some y =>
          have hy : y.name = n := (k2.colNames _ (Dict.mem_of_get? hv)).symm
          refine ⟨T.cols ++ [(n, y.type)], ?_, ?_, fun k => ?_⟩
          · refine .cons (T' := { T with cols := T.cols ++ [(n, y.type)] }) rfl (by simp [Diff.kind]) rfl
              (by simp [Diff.kind]) ?_ (.nil _)
            simp only [applyOp, hy, if_neg hno]
          · rw [List.map_append, List.nodup_append']
            refine ⟨hn, by simp, ?_⟩
            intro z hz hz2
            simp at hz2; subst hz2; exact hno hz
          · rw [get?_append]
            by_cases hk : k = n
            · subst hk
              simp only [Option.map_none] at hTn
              rw [hTn]
              simp [hv, Dict.get?_cons]
            · simp [hk, Dict.get?_cons, Ne.symm hk]
      | some x =>
        have hx : x.name = n := (k1.colNames _ (Dict.mem_of_get? hu)).symm
        rw [hu] at hmem hTn
        have hyes : n ∈ T.cols.map Prod.fst := by simp [hmem]
        cases hv : t2.cols.get? n with
        | none =>
          refine ⟨T.cols.filter (fun p => p.1 ≠ n), ?_, ?_, fun k => ?_⟩
          · refine .cons (T' := { T with cols := T.cols.filter (fun p => p.1 ≠ n) }) rfl (by simp [Diff.kind]) rfl
              (by simp [Diff.kind]) ?_ (.nil _)
            simp only [applyOp, hx, if_pos hyes]
          · exact hn.sublist (List.Sublist.map _ List.filter_sublist)
          · rw [get?_filter_ne]
            by_cases hk : k = n
            · subst hk; simp [hv]
            · simp [hk]
        | some y =>
          have hy : y.name = n := (k2.colNames _ (Dict.mem_of_get? hv)).symm
          by_cases e : x.type = y.type
          · refine ⟨T.cols, by simp only [e, if_true]; exact .nil _, hn, fun k => ?_⟩
            by_cases hk : k = n
            · subst hk; simpa [hv, e] using hTn
            · simp [hk]
          · refine ⟨T.cols.map (fun p => if p.1 = n then (n, y.type) else p), ?_, ?_, fun k => ?_⟩
            · simp only [if_neg e]
              refine .cons (T' := { T with cols := T.cols.map (fun p => if p.1 = n then (n, y.type) else p) }) rfl
                (by simp [Diff.kind]) rfl (by simp [Diff.kind]) ?_ (.nil _)
              simp only [applyOp, hy, if_pos hyes]
            · rw [List.map_map]
              have : (Prod.fst ∘ fun p : Str × Str => if p.1 = n then (n, y.type) else p) = Prod.fst := by
                funext p; simp only [Function.comp]; split
                · rename_i h; exact h.symm
                · rfl
              rw [this]; exact hn
            · rw [get?_map_ne]
              by_cases hk : k = n
              · subst hk
                have hyes' : ∃ a, (k, a) ∈ T.cols := by simpa using hyes
                simp [hv, hyes']
              · simp [hk]
    obtain ⟨C, hr, hCn, hC⟩ := step
    obtain ⟨C', hr', hC'n, hC'⟩ := ih hl' { T with cols := C } hCn (by
      intro k hk
      have : k ≠ n := fun h => hnl (h ▸ hk)
      simp only [hC, if_neg this]
      exact hT k (by simp [hk]))
    refine ⟨C', ?_, hC'n, fun k => ?_⟩
    · rw [List.flatMap_cons]; exact hr.append hr'
    · rw [hC']
      simp only [hC]
      by_cases hk : k = n
      · subst hk; simp [hnl]
      · by_cases hkl : k ∈ l <;> simp [hk, hkl]

/-! ## A whole table -/

theorem lookup_eq {α : Type} (d : Dict α) (n : Str) : lookup d n = d.get? n := by
  induction d with
  | nil => rfl
  | cons p d ih =>
    rw [Dict.get?_cons, ← ih]
    unfold lookup
    by_cases h : p.1 = n <;> simp [h]

theorem ctable_cons (t : Table) (n : Str) :
    (ctable t).cons n = ((t.fks.get? n).map (fkCon t.schema)).or ((t.rels.get? n).map (relCon t.schema)) := by
  simp [ctable, lookup_eq]

/-- No foreign key has the name of a relationship of its table, and no foreign key of the new table that of a relationship of
the old one. -/
structure NoClash (t1 t2 : Table) : Prop where
  old : ∀ n ∈ t1.fks.keys, n ∉ t1.rels.keys
  new : ∀ n ∈ t2.fks.keys, n ∉ t2.rels.keys
  cross : ∀ n ∈ t2.fks.keys, n ∉ t1.rels.keys

theorem table_phase {rep : FK → FK → Bool} {same : Bool} {m : Str} {t1 t2 : Table} (k1 : TableKeyed t1) (k2 : TableKeyed t2)
    (hschema : t1.schema = t2.schema) (hclash : NoClash t1 t2) (hsame : same = true → t1.shard ≠ none → t2.shard ≠ none → shardOf t1 = shardOf t2)
    (hrep : ∀ n x y, t1.fks.get? n = some x → t2.fks.get? n = some y → rep x y = false → fkCon t1.schema x = fkCon t1.schema y) :
    ∃ T, TRuns t1 (ctable t1) (tableE rep same m t1 t2) T ∧ T.Same (ctable t2) := by
  have r1 := pk_phase (m := m) (t2 := t2) (T := ctable t1) rfl rfl
  have r2 := shard_phase (same := same) (m := m) (t1 := t1) (t2 := t2) (T := { ctable t1 with pk := t2.pk }) rfl hsame rfl
  have r3 := con_phase (m := m) (t1 := t1) (d1 := t1.fks) (d2 := t2.fks) (con := fkCon t1.schema)
    (drop := fun x => .fkDropped m t1 x.name) (add := fun y => .fkAdded m t1 y) (rep := rep)
    (by
      intro n x hx
      have : x.name = n := (k1.fkNames _ (Dict.mem_of_get? hx)).symm
      exact ⟨rfl, by simp [Diff.kind], by simp [Diff.kind], by simp [stmtOf, this]⟩)
    (by
      intro n x hx
      have : x.name = n := (k2.fkNames _ (Dict.mem_of_get? hx)).symm
      refine ⟨rfl, by simp [Diff.kind], by simp [Diff.kind], _, rfl, ?_⟩
      intro T hT
      simp [applyOp, this, hT, fkCon])
    hrep (allNames t1.fks t2.fks) (allNames_incr k1.fks k2.fks).nodup
    { ctable t1 with pk := t2.pk, shard := shardOf t2 }
    (by
      intro n hn
      rw [mem_allNames] at hn
      show (ctable t1).cons n = _
      rw [ctable_cons]
      have : t1.rels.get? n = none := by
        rw [Dict.get?_eq_none_iff]
        exact fun h => hn.elim (fun hn => hclash.old n hn h) (fun hn => hclash.cross n hn h)
      rw [this]; simp) rfl
  have r4 := con_phase (m := m) (t1 := t1) (d1 := t1.rels) (d2 := t2.rels) (con := relCon t1.schema)
    (drop := fun x => .relDropped m t1 x.name) (add := fun y => .relAdded m t1 y) (rep := fun x y => !decide (x = y))
    (by
      intro n x hx
      have : x.name = n := (k1.relNames _ (Dict.mem_of_get? hx)).symm
      exact ⟨rfl, by simp [Diff.kind], by simp [Diff.kind], by simp [stmtOf, this]⟩)
    (by
      intro n x hx
      have : x.name = n := (k2.relNames _ (Dict.mem_of_get? hx)).symm
      refine ⟨rfl, by simp [Diff.kind], by simp [Diff.kind], _, rfl, ?_⟩
      intro T hT
      simp [applyOp, this, hT, relCon])
    (by
      intro n x y _ _ h
      simp at h
      rw [h]) (allNames t1.rels t2.rels) (allNames_incr k1.rels k2.rels).nodup
    { ctable t1 with pk := t2.pk, shard := shardOf t2, cons := fun k => if k ∈ allNames t1.fks t2.fks then (t2.fks.get? k).map (fkCon t1.schema) else (ctable t1).cons k }
    (by
      intro n hn
      rw [mem_allNames] at hn
      have h2 : n ∉ t2.fks.keys := fun h => hn.elim (hclash.cross n h) (hclash.new n h)
      show (if n ∈ allNames t1.fks t2.fks then _ else (ctable t1).cons n) = _
      by_cases hf : n ∈ t1.fks.keys
      · rw [if_pos (mem_allNames.2 (.inl hf)), (Dict.get?_eq_none_iff _ _).2 h2, (Dict.get?_eq_none_iff _ _).2 (hclash.old n hf)]
        rfl
      · have h1 : n ∉ allNames t1.fks t2.fks := fun h => (mem_allNames.1 h).elim hf h2
        rw [if_neg h1, ctable_cons, (Dict.get?_eq_none_iff _ _).2 hf]; simp) rfl
  obtain ⟨C, r5, hCn, hC⟩ := col_phase (m := m) k1 k2 (allNames t1.cols t2.cols) (allNames_incr k1.cols k2.cols).nodup
    { ctable t1 with
      pk := t2.pk, shard := shardOf t2
      cons := fun k => if k ∈ allNames t1.rels t2.rels then (t2.rels.get? k).map (relCon t1.schema) else
        if k ∈ allNames t1.fks t2.fks then (t2.fks.get? k).map (fkCon t1.schema) else (ctable t1).cons k }
    (by
      show ((colsOf t1).map Prod.fst).Nodup
      rw [colsOf_keys k1]; exact k1.cols)
    (fun n _ => colsOf_get? k1 n)
  have er : (fun n => relE m t1 t2 n) = regE t1.rels t2.rels (fun x => [.relDropped m t1 x.name]) (fun y => [.relAdded m t1 y])
      (fun x y => if (!decide (x = y)) = true then [.relDropped m t1 x.name, .relAdded m t1 y] else []) := by
    funext n
    unfold relE
    apply regE_congr
    · intros; rfl
    · intros; rfl
    · intro x y _ _
      by_cases e : x = y <;> simp [e]
  refine ⟨{ cols := C, pk := t2.pk, shard := shardOf t2
            cons := fun k => if k ∈ allNames t1.rels t2.rels then (t2.rels.get? k).map (relCon t1.schema) else
              if k ∈ allNames t1.fks t2.fks then (t2.fks.get? k).map (fkCon t1.schema) else (ctable t1).cons k }, ?run, ?same⟩
  case run =>
    unfold tableE
    refine (((r1.append r2).append r3).append ?_).append r5
    rw [show relE m t1 t2 = fun n => relE m t1 t2 n from rfl, er]
    exact r4
  case same =>
    constructor
    · show C.Perm (colsOf t2)
      refine perm_of_get? hCn (by rw [colsOf_keys k2]; exact k2.cols) (fun k => ?_)
      rw [hC, colsOf_get? k2]
      split
      · rfl
      · rename_i h
        rw [mem_allNames, not_or] at h
        show Dict.get? (colsOf t1) k = _
        rw [colsOf_get? k1, (Dict.get?_eq_none_iff _ _).2 h.1, (Dict.get?_eq_none_iff _ _).2 h.2]
    · rfl
    · rfl
    · funext k
      rw [ctable_cons, ← hschema]
      dsimp only
      by_cases hr : k ∈ allNames t1.rels t2.rels
      · have hf : k ∉ t2.fks.keys := fun h => (mem_allNames.1 hr).elim (hclash.cross k h) (hclash.new k h)
        rw [if_pos hr, (Dict.get?_eq_none_iff _ _).2 hf]
        simp
      · rw [if_neg hr]
        rw [mem_allNames, not_or] at hr
        rw [(Dict.get?_eq_none_iff t2.rels _).2 hr.2]
        by_cases hf : k ∈ allNames t1.fks t2.fks
        · rw [if_pos hf]; simp
        · rw [if_neg hf, ctable_cons]
          rw [mem_allNames, not_or] at hf
          rw [(Dict.get?_eq_none_iff _ _).2 hf.1, (Dict.get?_eq_none_iff _ _).2 hf.2, (Dict.get?_eq_none_iff _ _).2 hr.1]

/-! ## A whole database -/

theorem catOf_eq (db : Database) (s n : Str) :
    catOf db s n = (db.tables.get? n).bind (fun t => if t.schema = s then some (ctable t) else none) := by
  unfold catOf
  rw [lookup_eq]
  cases db.tables.get? n <;> rfl

theorem CTable.Same.refl (T : CTable) : T.Same T := ⟨.refl _, rfl, rfl, rfl⟩

theorem OptSame.refl (T : Option CTable) : OptSame T T := by
  cases T
  · trivial
  · exact CTable.Same.refl _

/-- What the comparison of two tables must not miss. -/
structure Detected (rep : FK → FK → Bool) (same : Bool) (t1 t2 : Table) : Prop where
  schema : t1.schema = t2.schema
  clash : NoClash t1 t2
  shard : same = true → t1.shard ≠ none → t2.shard ≠ none → shardOf t1 = shardOf t2
  fks : ∀ n x y, t1.fks.get? n = some x → t2.fks.get? n = some y → rep x y = false → fkCon t1.schema x = fkCon t1.schema y

theorem db_phase {rep : FK → FK → Bool} {shared : Str → Bool} {db1 db2 : Database} (h1 : WellKeyed db1) (h2 : WellKeyed db2)
    (hd : ∀ n t1 t2, db1.tables.get? n = some t1 → db2.tables.get? n = some t2 → Detected rep (shared n) t1 t2)
    (hnew : ∀ n t2, db1.tables.get? n = none → db2.tables.get? n = some t2 → t2.fks = [] ∧ t2.rels = [])
    (l : List Str) (hl : l.Nodup) (sv : Server) (hsv : ∀ n ∈ l, ∀ s, sv.cat s n = catOf db1 s n)
    (hsch : ∀ n t2, db1.tables.get? n = none → db2.tables.get? n = some t2 →
      t2.schema = defaultSchema ∨ t2.schema ∈ sv.schemas) :
    ∃ sv', Runs OldColumns sv (l.flatMap (dbE rep shared db1 db2)) sv' ∧
      (∀ n ∈ l, ∀ s, OptSame (sv'.cat s n) (catOf db2 s n)) ∧ (∀ n, n ∉ l → ∀ s, sv'.cat s n = sv.cat s n) ∧
      sv'.dbs = sv.dbs ∧ sv'.current = sv.current ∧ sv'.schemas = sv.schemas := by
  induction l generalizing sv with
  | nil => exact ⟨sv, .nil _, by simp, by simp, rfl, rfl, rfl⟩
  | cons n l ih =>
    have hn : n ∉ l := (List.nodup_cons.1 hl).1
    have hl' : l.Nodup := (List.nodup_cons.1 hl).2
    have step : ∃ sv', Runs OldColumns sv (dbE rep shared db1 db2 n) sv' ∧
        (∀ s, OptSame (sv'.cat s n) (catOf db2 s n)) ∧ (∀ k, k ≠ n → ∀ s, sv'.cat s k = sv.cat s k) ∧
        sv'.dbs = sv.dbs ∧ sv'.current = sv.current ∧ sv'.schemas = sv.schemas := by
      have hc : ∀ s, sv.cat s n = (db1.tables.get? n).bind (fun t => if t.schema = s then some (ctable t) else none) := by
        intro s; rw [hsv n (by simp), catOf_eq]
      have hc2 := fun s => catOf_eq db2 s n
      unfold dbE regE
      cases hu : db1.tables.get? n with
      | none =>
        rw [hu] at hc
        cases hv : db2.tables.get? n with
        | none =>
          rw [hv] at hc2
          refine ⟨sv, .nil _, fun s => ?_, fun _ _ _ => rfl, rfl, rfl, rfl⟩
          rw [hc, hc2]; exact OptSame.refl _
        | some t2 =>
          rw [hv] at hc2
          have k2 := tableKeyed_of_get? h2 hv
          have hname : t2.name = n := name_of_get? h2 hv
          obtain ⟨hf, hr⟩ := hnew n t2 hu hv
          refine ⟨sv.put t2.schema n (some (bareTable t2)), .cons (sv' := sv.put t2.schema n (some (bareTable t2))) (by intro h; exact absurd rfl h) ?_ (.nil _), fun s => ?_, ?_, rfl, rfl, rfl⟩
          · have hnd : ((colsOf t2).map Prod.fst).Nodup := by rw [colsOf_keys k2]; exact k2.cols
            have hno : sv.cat t2.schema n = none := by rw [hc]; rfl
            simp only [stmtOf, exec, hname, hno]
            rw [if_neg (by
              rintro (h | h | ⟨h, h'⟩)
              · simp at h
              · exact h hnd
              · exact (hsch n t2 hu hv).elim h h')]
            rfl
          · rw [hc2, put_cat]
            simp only [Option.bind_some, and_true]
            by_cases hs : s = t2.schema
            · subst hs
              simp only [if_true]
              refine ⟨.refl _, rfl, rfl, ?_⟩
              funext k
              rw [ctable_cons, hf, hr]; rfl
            · rw [if_neg hs, if_neg (Ne.symm hs), hc]; trivial
          · intro k hk s
            rw [put_cat, if_neg (by simp [hk])]
      | some t1 =>
        rw [hu] at hc
        have k1 := tableKeyed_of_get? h1 hu
        have hname : t1.name = n := name_of_get? h1 hu
        cases hv : db2.tables.get? n with
        | none =>
          rw [hv] at hc2
          refine ⟨sv.put t1.schema n none, .cons (sv' := sv.put t1.schema n none) (by intro h; exact absurd rfl h) ?_ (.nil _), fun s => ?_, ?_, rfl, rfl, rfl⟩
          · simp [stmtOf, exec, hname]
          · rw [hc2, put_cat]
            by_cases hs : s = t1.schema
            · simp [hs, OptSame]
            · rw [if_neg (by simp [hs]), hc]
              simp [Ne.symm hs, OptSame]
          · intro k hk s
            rw [put_cat, if_neg (by simp [hk])]
        | some t2 =>
          rw [hv] at hc2
          have k2 := tableKeyed_of_get? h2 hv
          have D := hd n t1 t2 hu hv
          obtain ⟨T, hr, hS⟩ := table_phase (m := db1.name) k1 k2 D.schema D.clash D.shard D.fks
          obtain ⟨sv', r, c, f, g⟩ := hr.runs sv (by rw [hname, hc]; simp)
          refine ⟨sv', r, fun s => ?_, fun k hk s => f s k (by rw [hname]; exact fun h => hk h.2), g⟩
          rw [hc2]
          by_cases hs : s = t1.schema
          · subst hs
            rw [hname] at c
            rw [c]
            simpa [D.schema, OptSame] using hS
          · rw [f s n (by simp [hs]), hc]
            have : ¬ t2.schema = s := by rw [← D.schema]; exact Ne.symm hs
            simp [Ne.symm hs, this, OptSame]
    obtain ⟨sv1, r1, a1, b1, d1, e1, g1⟩ := step
    obtain ⟨sv2, r2, a2, b2, d2, e2, g2⟩ := ih hl' sv1 (by
      intro k hk s
      have : k ≠ n := fun h => hn (h ▸ hk)
      rw [b1 k this]
      exact hsv k (by simp [hk]) s) (by rw [g1]; exact hsch)
    refine ⟨sv2, by rw [List.flatMap_cons]; exact r1.append r2, ?_, ?_, d2.trans d1, e2.trans e1, g2.trans g1⟩
    · intro k hk s
      rcases List.mem_cons.1 hk with rfl | hk
      · rw [b2 k hn]; exact a1 s
      · exact a2 k hk s
    · intro k hk s
      simp only [List.mem_cons, not_or] at hk
      rw [b2 k hk.2, b1 k hk.1]

end Verif
