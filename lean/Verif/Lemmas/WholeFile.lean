import Verif.Lemmas.CreateKeys
import Verif.Lemmas.Reports
import Verif.Lemmas.BlockComment
import Verif.Spec.WholeFile
/-
Lemmas for C80.
-/

namespace Verif
open Spec

theorem parse_creates {schema stmt : Str} {t : Table} (h : Creates schema stmt t) (db : Database) : parseStatement schema db stmt = .ok (db.addTable t) := by
  cases h with
  | plain hk hp hw hb hf ht hty hn hdb hs => exact parse_create_keys hk hp hw hb hf ht hty hn hdb hs
  | sharded hk hp hw hb hf hlast hpt hty hn hdb hline => exact parse_create_sharded hk hp hw hb hf hlast hpt hty hn hdb hline

theorem tableWith_keyed {schema n : Str} {fs : List Field} {tys : List Str} {sh : Option ShardKey} (hn : ((columnsOf fs).map (·.name)).Nodup)
    (hl : (columnsOf fs).length = tys.length) : TableKeyed (tableWith schema n fs tys sh) := by
  refine ⟨?_, ?_, by simp [tableWith, Dict.keys], by simp [tableWith], by simp [tableWith, Dict.keys], by simp [tableWith]⟩
  · have : (tableWith schema n fs tys sh).cols.keys = (columnsOf fs).map (·.name) := by
      simp only [tableWith, Dict.keys, List.map_map]
      rw [show (Prod.fst ∘ fun p : Decl × Str => (p.1.name, (⟨p.1.name, p.2⟩ : Column))) = (fun d : Decl => d.name) ∘ Prod.fst from rfl, ← List.map_map,
        List.map_fst_zip (by omega)]
    rw [this]; exact hn
  · intro q hq
    simp only [tableWith, List.mem_map] at hq
    obtain ⟨p, -, rfl⟩ := hq
    rfl

theorem creates_keyed {schema stmt : Str} {t : Table} (h : Creates schema stmt t) : TableKeyed t ∧ t.schema = schema := by
  cases h with
  | plain hk hp hw hb hf ht hty hn hdb hs => exact ⟨tableWith_keyed hn (by simpa using congrArg List.length hty), rfl⟩
  | sharded hk hp hw hb hf hlast hpt hty hn hdb hline => exact ⟨tableWith_keyed hn (by simpa using congrArg List.length hty), rfl⟩

theorem alteration_name {stmt n : Str} {f : Table → Table} (h : Alteration stmt n f) (t : Table) : (f t).name = t.name := by
  cases h <;> rfl

theorem parse_alteration {schema stmt n : Str} {f : Table → Table} (h : Alteration stmt n f) {db : Database} (hw : WellKeyed db) :
    parseStatement schema db stmt = .ok (changed db n f) := by
  cases h with
  | keys h => exact parse_adds_fks h schema hw
  | primary h => exact parse_sets_pk h schema db
  | relationship h => exact parse_adds_rel h schema hw

theorem told_nothing {schema stmt : Str} (h : Means schema stmt .nothing) (db : Database) : parseStatementTold schema db stmt = .ok (db, []) := by
  unfold parseStatementTold
  cases h with
  | database h => simp only [hasSub_not_lacks.2 h, if_true]
  | other h1 h2 =>
    simp only [hasSub_without (h1 c!"create database" (by simp)), hasSub_without (h1 c!"create table" (by simp)),
      hasSub_without (h1 c!"create or replace table" (by simp)), hasSub_without h2, Bool.false_eq_true, if_false, Bool.or_self]

/-- The messages of a CREATE TABLE do not depend on the database. -/
theorem told_creates {schema stmt : Str} {t : Table} (h : Creates schema stmt t) (db : Database) :
    parseStatementTold schema db stmt = .ok (db.addTable t, []) := by
  have h0 : Lacks c!"create database" stmt := by
    cases h with
    | plain _ _ _ _ _ _ _ _ hdb _ => exact hdb
    | sharded _ _ _ _ _ _ _ _ _ hdb _ => exact hdb
  have hsh : Lacks c!"partition by hash" stmt ∨ t.shard ≠ none := by
    cases h with
    | plain _ _ _ _ _ _ _ _ _ hs => exact .inl hs
    | sharded _ _ _ _ _ _ _ _ _ _ _ => exact .inr (by simp [tableWith])
  have hc : (hasSub c!"create table" (lower stmt) || hasSub c!"create or replace table" (lower stmt)) = true := by
    have key : ∀ {kw k rest : Str}, k.map small = kw ++ [' '] → hasSub kw (lower (k ++ rest)) = true := by
      intro kw k rest hk
      rw [hasSub_not_lacks]
      intro hl
      apply hl
      rw [List.map_append, hk]
      exact ⟨[], ' ' :: rest.map small, by simp⟩
    cases h with
    | plain hk _ _ _ _ _ _ _ _ _ =>
      simp only [List.append_assoc]
      cases hk with
      | create hk => rw [key (kw := c!"create table") hk]; rfl
      | replace hk => rw [key (kw := c!"create or replace table") hk, Bool.or_true]
    | sharded hk _ _ _ _ _ _ _ _ _ _ => simp only [List.append_assoc]; rw [key (kw := c!"create table") hk]; rfl
  have hp := parse_creates h
  have e : ∀ db, parseStatementTold schema db stmt = parseCreateTableTold schema db stmt := by
    intro db
    unfold parseStatementTold
    simp only [hasSub_without h0, hc, if_true, Bool.false_eq_true, if_false]
  have f := fun db => (congrArg (Except.map Prod.fst) (e db)).symm.trans ((parseStatementTold_fst schema db stmt).trans (hp db))
  rw [e]
  have fe := f (Database.empty [])
  have fd := f db
  unfold parseCreateTableTold at fe fd ⊢
  simp only [mkTable, bind, Except.bind, unbracket] at fe fd ⊢
  rw [hasSub_lower_ub (by decide)] at fe fd ⊢
  cases g : addColumnsOf ⟨getTableName (stmt.map ub), schema, [], none, [], [], []⟩ (stmt.map ub) with
  | error x => rw [g] at fe; cases fe
  | ok t0 =>
    rw [g] at fe fd
    have hs := addColumnsOf_shard g
    simp only at hs
    simp only [Except.map, Except.ok.injEq] at fe fd ⊢
    generalize hr : (if hasSub c!"partition by hash" (lower stmt) = true then addHashKeyTold t0 (stmt.map ub) else (t0, [])) = r at fe fd ⊢
    have ht : r.1 = t := by
      have := congrArg Database.tables fe
      simp only [Database.addTable, Database.empty, Dict.set, List.cons.injEq, Prod.mk.injEq, and_true] at this
      exact this.2
    refine Prod.ext fd ?_
    simp only
    rcases hsh with hl | hn
    · rw [hasSub_without hl] at hr
      rw [← hr]; rfl
    · by_cases hh : hasSub c!"partition by hash" (lower stmt) = true
      · rw [if_pos hh] at hr
        have := addHashKeyTold_iff hs (stmt.map ub)
        rw [hr] at this
        exact this.2 (by rw [ht]; exact hn)
      · rw [if_neg hh] at hr
        rw [← hr]

/-! ## Scripts -/

theorem later_cons_table (n : Str) (t' : Table) (es : List Effect) (t : Table) : later n (.table t' :: es) t = later n es t := rfl

theorem later_cons_nothing (n : Str) (es : List Effect) (t : Table) : later n (.nothing :: es) t = later n es t := rfl

theorem later_cons_change (n m : Str) (f : Table → Table) (es : List Effect) (t : Table) :
    later n (.change m f :: es) t = later n es (if m = n then f t else t) := rfl

/-- The schemas after k tables. -/
def grown (d : Dict Int) (s : Str) : Nat → Dict Int
  | 0 => d
  | k + 1 => d.set s ((d.get? s).getD 0 + (k + 1 : Nat))

theorem set_set {α : Type} (d : Dict α) (k : Str) (v w : α) : (d.set k v).set k w = d.set k w := by
  induction d with
  | nil => simp [Dict.set]
  | cons p d ih =>
    obtain ⟨a, b⟩ := p
    by_cases h : a = k
    · simp [h, Dict.set]
    · have ih' : Dict.set (Dict.set d k v) k w = Dict.set d k w := ih
      simp [h, Dict.set, ih']

theorem grown_succ (d : Dict Int) (s : Str) (k : Nat) : grown (d.set s ((d.get? s).getD 0 + 1)) s k = grown d s (k + 1) := by
  cases k with
  | zero => rfl
  | succ k =>
    simp only [grown, set_set, Dict.get?_set_self, Option.getD_some]
    congr 1
    push_cast
    omega

theorem describes_length (es : List Effect) : (describes es).length = (createdNames es).length := by
  induction es with
  | nil => rfl
  | cons e es ih => cases e <;> simp_all [describes, createdNames]

theorem run_script {schema : Str} {stmts : List Str} {es : List Effect} (h : List.Forall₂ (Means schema) stmts es) :
    ∀ {db : Database}, WellKeyed db → (createdNames es).Nodup → (∀ n ∈ createdNames es, n ∉ db.tables.keys) →
      parseStatements schema db stmts = ({ db with
        tables := db.tables.map (fun p => (p.1, later p.1 es p.2)) ++ (describes es).map (fun t => (t.name, t))
        schemas := grown db.schemas schema (createdNames es).length }, none) ∧
      ((∀ pre n f post, es = pre ++ .change n f :: post → n ∈ createdNames pre ∨ n ∈ db.tables.keys) → (parseStatementsTold schema db stmts).2.1 = []) := by
  induction h with
  | nil =>
    intro db _ _ _
    refine ⟨?_, fun _ => rfl⟩
    simp [parseStatements, describes, later, createdNames, grown]
  | @cons stmt e stmts es hm _ ih =>
    intro db hw hn hd
    cases hm with
    | @creates t hc =>
      have hnd : t.name ∉ createdNames es ∧ (createdNames es).Nodup := by simpa [createdNames] using hn
      have hfresh : t.name ∉ db.tables.keys := hd _ (by simp [createdNames])
      have htab : (db.addTable t).tables = db.tables ++ [(t.name, t)] := Dict.set_of_not_mem t hfresh
      have hkeys : (db.addTable t).tables.keys = db.tables.keys ++ [t.name] := by rw [htab]; simp [Dict.keys]
      obtain ⟨i1, i2⟩ := ih (hw.addTable (creates_keyed hc).1) hnd.2 (by
        intro n hn' hk
        rw [hkeys, List.mem_append, List.mem_singleton] at hk
        rcases hk with hk | rfl
        · exact hd n (by simp only [createdNames, List.filterMap_cons]; exact List.mem_cons_of_mem _ hn') hk
        · exact hnd.1 hn')
      constructor
      · rw [parseStatements, parse_creates hc db]
        simp only
        rw [i1, htab]
        have hname : ∀ {l : List Effect} {stmts : List Str}, List.Forall₂ (Means schema) stmts l → ∀ u : Table, (later t.name l u).name = u.name := by
          intro l stmts hl
          induction hl with
          | nil => intro u; rfl
          | cons hm _ ih =>
            intro u
            cases hm with
            | creates _ => exact ih u
            | @alters m f ha =>
              rw [later_cons_change, ih]
              split
              · exact alteration_name ha u
              · rfl
            | database _ => exact ih u
            | other _ _ => exact ih u
        have hl2 := hname ‹List.Forall₂ (Means schema) stmts es› t
        have hs : (db.addTable t).schemas = db.schemas.set schema ((db.schemas.get? schema).getD 0 + 1) := by
          simp only [Database.addTable, (creates_keyed hc).2]
        rw [hs, grown_succ]
        simp [describes, createdNames, later_cons_table, hl2, Database.addTable]
      · intro hord
        rw [parseStatementsTold, told_creates hc db]
        simp only [List.nil_append]
        apply i2
        intro pre n f post e'
        have := hord (.table t :: pre) n f post (by rw [e']; rfl)
        rw [hkeys, List.mem_append, List.mem_singleton]
        simp only [createdNames, List.filterMap_cons, List.mem_cons] at this ⊢
        tauto
    | @alters m f ha =>
      have hkeys : (changed db m f).tables.keys = db.tables.keys := keys_updateTable db m f
      obtain ⟨i1, i2⟩ := ih (alteration_keyed ha hw) hn (by rw [hkeys]; exact hd)
      constructor
      · rw [parseStatements, parse_alteration ha hw]
        simp only
        rw [i1]
        simp only [changed, List.map_map, describes, createdNames, List.filterMap_cons]
        congr 3
        apply List.map_congr_left
        intro p _
        simp only [Function.comp, later_cons_change]
        by_cases hp : p.1 = m
        · simp [hp]
        · simp [hp, Ne.symm hp]
      · intro hord
        have hin : m ∈ db.tables.keys := by
          rcases hord [] m f es rfl with h | h
          · simp [createdNames] at h
          · exact h
        obtain ⟨t, ht⟩ := Option.isSome_iff_exists.1 ((Dict.get?_isSome_iff db.tables m).2 hin)
        obtain ⟨db', hq⟩ := quiet ha schema (db := db) (t := t) ht
        have h1 := parseStatementTold_fst schema db stmt
        rw [hq, parse_alteration ha hw] at h1
        have h1 : db' = changed db m f := Except.ok.inj h1
        rw [parseStatementsTold, hq, h1]
        simp only [List.nil_append]
        apply i2
        intro pre n g post e'
        have := hord (.change m f :: pre) n g post (by rw [e']; rfl)
        rw [hkeys]
        simpa [createdNames] using this
    | database hx =>
      have hm : Means schema stmt .nothing := .database hx
      obtain ⟨i1, i2⟩ := ih hw hn hd
      have h1 := parseStatementTold_fst schema db stmt
      rw [told_nothing hm db] at h1
      constructor
      · rw [parseStatements, ← h1]
        exact i1
      · intro hord
        rw [parseStatementsTold, told_nothing hm db]
        exact i2 (fun pre n f post e' => by simpa [createdNames] using hord (.nothing :: pre) n f post (by rw [e']; rfl))
    | other hx hy =>
      have hm : Means schema stmt .nothing := .other hx hy
      obtain ⟨i1, i2⟩ := ih hw hn hd
      have h1 := parseStatementTold_fst schema db stmt
      rw [told_nothing hm db] at h1
      constructor
      · rw [parseStatements, ← h1]
        exact i1
      · intro hord
        rw [parseStatementsTold, told_nothing hm db]
        exact i2 (fun pre n f post e' => by simpa [createdNames] using hord (.nothing :: pre) n f post (by rw [e']; rfl))

end Verif
