import Verif.Lemmas.Script
/-
Executing the statements of `write_tql`.
-/

namespace Verif
open Verif.Spec

theorem execAll_append (sv : Server) (a b : List Stmt) : execAll sv (a ++ b) = (execAll sv a).bind (fun s => execAll s b) := by
  induction a generalizing sv with
  | nil => rfl
  | cons x a ih =>
    simp only [List.cons_append, execAll]
    cases exec sv x with
    | none => rfl
    | some s => exact ih s

theorem put_same (sv : Server) (s n : Str) (T : CTable) (h : sv.cat s n = some T) : sv.put s n (some T) = sv := by
  cases sv with
  | mk dbs cur sch cat =>
    simp only [Server.put, Server.mk.injEq, true_and]
    funext s' n'
    split
    · rename_i e; rw [e.1, e.2]; exact h.symm
    · rfl

theorem exec_drop_create (sv : Server) (s n : Str) (cols : List (Str × Str)) (pk : List Str) (sh : Option (Str × List Str))
    (hc : (cols.map Prod.fst).Nodup) (hs : s = defaultSchema ∨ s ∈ sv.schemas) :
    execAll sv [.dropTable s n, .createTable s n cols pk sh] =
      some (sv.put s n (some { cols := cols, pk := pk, shard := sh, cons := fun _ => none })) := by
  simp only [execAll, exec, Option.bind_some]
  rw [if_neg]
  · simp only [Option.bind_some, put_put]
  · rw [put_cat, if_pos ⟨rfl, rfl⟩]
    simp only [Option.isSome_none, Bool.false_eq_true, false_or, not_or, not_not]
    refine ⟨hc, ?_⟩
    rintro ⟨h1, h2⟩
    rcases hs with h | h
    · exact h1 h
    · exact h2 h

theorem exec_cons {α : Type} {s n : Str} {con : α → Con} {op : α → AlterOp} (d : Dict α) (hnd : (d.map Prod.fst).Nodup)
    (hop : ∀ p ∈ d, ∀ T : CTable, T.cons p.1 = none →
      applyOp s T (op p.2) = some { T with cons := fun m => if m = p.1 then some (con p.2) else T.cons m })
    (T : CTable) (hT : ∀ p ∈ d, T.cons p.1 = none) (sv : Server) (hsv : sv.cat s n = some T) :
    execAll sv (d.map (fun p => .alter s n (op p.2))) =
      some (sv.put s n (some { T with cons := fun m => ((lookup d m).map con).or (T.cons m) })) := by
  induction d generalizing T sv with
  | nil => simp [execAll, lookup, put_same sv s n T hsv]
  | cons p d ih =>
    rw [List.map_cons] at hnd
    have hnd' := List.nodup_cons.1 hnd
    simp only [List.map_cons, execAll, exec, hsv]
    rw [hop p (by simp) T (hT p (by simp))]
    simp only [Option.map_some, Option.bind_some]
    rw [ih hnd'.2 (fun q hq => hop q (by simp [hq])) { T with cons := fun m => if m = p.1 then some (con p.2) else T.cons m }
      ?_ _ (by rw [put_cat, if_pos ⟨rfl, rfl⟩])]
    · rw [put_put]
      congr 4
      funext m
      by_cases hm : m = p.1
      · have : lookup d m = none := by
          rw [lookup_eq]
          exact (Dict.get?_eq_none_iff _ _).2 (by rw [hm]; exact hnd'.1)
        rw [this, lookup_eq, hm, Dict.get?_cons]
        simp
      · simp only [hm, if_false]
        congr 2
        rw [lookup_eq, lookup_eq, Dict.get?_cons, if_neg (Ne.symm hm)]
    · intro q hq
      have : q.1 ≠ p.1 := fun e => hnd'.1 (e ▸ List.mem_map_of_mem hq)
      simp only [this, if_false]
      exact hT q (by simp [hq])

/-- Two servers that differ at most in their tables. -/
structure Framed (sv sv' : Server) : Prop where
  dbs : sv'.dbs = sv.dbs
  current : sv'.current = sv.current
  schemas : sv'.schemas = sv.schemas

/-- A phase that treats each table by itself. -/
theorem exec_phase {f : Table → List Stmt} {P : Table → Option CTable → Prop} {B : Table → CTable} (sch : List Str)
    (l : List Table) (hl : (l.map (·.name)).Nodup)
    (hf : ∀ t ∈ l, ∀ sv : Server, sv.schemas = sch → P t (sv.cat t.schema t.name) →
      execAll sv (f t) = some (sv.put t.schema t.name (some (B t))))
    (sv : Server) (hsch : sv.schemas = sch) (hP : ∀ t ∈ l, P t (sv.cat t.schema t.name)) :
    ∃ sv', execAll sv (l.flatMap f) = some sv' ∧ Framed sv sv' ∧ (∀ t ∈ l, sv'.cat t.schema t.name = some (B t)) ∧
      ∀ s n, (∀ t ∈ l, ¬ (t.schema = s ∧ t.name = n)) → sv'.cat s n = sv.cat s n := by
  induction l generalizing sv with
  | nil => exact ⟨sv, rfl, ⟨rfl, rfl, rfl⟩, by simp, by simp⟩
  | cons t l ih =>
    rw [List.map_cons] at hl
    have hl' := List.nodup_cons.1 hl
    have hne : ∀ u ∈ l, ¬ (u.schema = t.schema ∧ u.name = t.name) :=
      fun u hu e => hl'.1 (e.2 ▸ List.mem_map_of_mem hu)
    obtain ⟨sv', r, fr, a, b⟩ := ih hl'.2 (fun u hu => hf u (by simp [hu])) (sv.put t.schema t.name (some (B t))) hsch
      (fun u hu => by rw [put_cat, if_neg (hne u hu)]; exact hP u (by simp [hu]))
    refine ⟨sv', ?_, ⟨fr.dbs, fr.current, fr.schemas⟩, ?_, ?_⟩
    · rw [List.flatMap_cons, execAll_append, hf t (by simp) sv hsch (hP t (by simp))]
      exact r
    · intro u hu
      rcases List.mem_cons.1 hu with rfl | hu
      · rw [b _ _ hne, put_cat, if_pos ⟨rfl, rfl⟩]
      · exact a u hu
    · intro s n hn
      rw [b s n (fun u hu => hn u (by simp [hu])), put_cat, if_neg]
      rintro ⟨rfl, rfl⟩
      exact hn t (by simp) ⟨rfl, rfl⟩

/-- The part of the script after the schemas. -/
theorem exec_body {db : Database} (hw : WellKeyed db) (hk : ∀ p ∈ db.tables, KeysInPlace p.2) (sv : Server)
    (hs : ∀ p ∈ db.tables, p.2.schema = defaultSchema ∨ p.2.schema ∈ sv.schemas) :
    ∃ sv', execAll sv (db.iter.flatMap (fun t => [.dropTable (caseD {} t.schema) (caseD {} t.name), createStmt {} t]) ++
        db.iter.flatMap (fkStmts {}) ++ db.iter.flatMap (relStmts {})) = some sv' ∧ Framed sv sv' ∧
      ∀ s n, sv'.cat s n = (catOf db s n).or (sv.cat s n) := by
  have mem : ∀ t ∈ db.iter, ∃ p ∈ db.tables, p.2 = t := fun t ht => by simpa [Database.iter, Dict.vals] using ht
  have tk : ∀ t ∈ db.iter, TableKeyed t := by
    intro t ht; obtain ⟨p, hp, rfl⟩ := mem t ht; exact ((wellKeyed_iff db).1 hw).2.2 p hp
  have kp : ∀ t ∈ db.iter, KeysInPlace t := by
    intro t ht; obtain ⟨p, hp, rfl⟩ := mem t ht; exact hk p hp
  have hnd : (db.iter.map (·.name)).Nodup := by
    have : db.iter.map (·.name) = db.tables.map Prod.fst := by
      simp only [Database.iter, Dict.vals, List.map_map]
      apply List.map_congr_left
      intro p hp
      exact (hw.tableNames _ _ hp).symm
    rw [this]; exact hw.tables
  obtain ⟨s1, r1, f1, a1, b1⟩ := exec_phase (P := fun _ _ => True) (B := bareTable) sv.schemas db.iter hnd (f := fun t =>
      [.dropTable (caseD {} t.schema) (caseD {} t.name), createStmt {} t]) (by
    intro t ht sv' hsv' _
    obtain ⟨p, hp, rfl⟩ := mem t ht
    simp only [createStmt, caseD_default]
    rw [exec_drop_create]
    · simp [bareTable, colCase]
    · have := (colsOf_keys (tk _ ht))
      simp only [colsOf] at this
      simp only [colCase, if_neg (Bool.false_ne_true)]
      rw [this]; exact (tk _ ht).cols
    · rw [hsv']; exact hs p hp) sv rfl (by simp)
  obtain ⟨s2, r2, f2, a2, b2⟩ := exec_phase (P := fun t o => o = some (bareTable t)) (f := fkStmts {})
    (B := fun t => { bareTable t with cons := fun n => (lookup t.fks n).map (fkCon t.schema) }) sv.schemas db.iter hnd (by
    intro t ht sv' _ hP
    have e : fkStmts {} t = t.fks.map (fun p => .alter t.schema t.name (.addFK p.2.name p.2.fromKeys (some t.schema) p.2.toTable p.2.toKeys)) := by
      simp only [fkStmts, caseD_default, Dict.vals, List.map_map]
      apply List.map_congr_left
      intro p hp
      simp [(kp t ht).fkFrom p hp]
    rw [e, exec_cons (s := t.schema) (n := t.name) (con := fkCon t.schema)
      (op := fun k : FK => .addFK k.name k.fromKeys (some t.schema) k.toTable k.toKeys) t.fks (tk t ht).fks ?_ _ ?_ sv' hP]
    · simp [bareTable]
    · intro p hp T hT
      have hpn := (tk t ht).fkNames p hp
      rw [hpn] at hT ⊢
      simp [applyOp, hT, fkCon]
    · intro p _; rfl) s1 f1.schemas a1
  obtain ⟨s3, r3, f3, a3, b3⟩ := exec_phase
    (P := fun t o => o = some { bareTable t with cons := fun n => (lookup t.fks n).map (fkCon t.schema) }) (f := relStmts {})
    (B := ctable) sv.schemas db.iter hnd (by
    intro t ht sv' _ hP
    have e : relStmts {} t = t.rels.map (fun p => .alter t.schema t.name (.addRel p.2.name (some t.schema) p.2.toTable p.2.conditions)) := by
      simp only [relStmts, caseD_default, Dict.vals, List.map_map]
      apply List.map_congr_left
      intro p hp
      simp [(kp t ht).relFrom p hp]
    have nofk : ∀ p ∈ t.rels, lookup t.fks p.1 = none := by
      intro p hp
      rw [lookup_eq, Dict.get?_eq_none_iff]
      intro hm
      obtain ⟨q, hq, e⟩ := List.mem_map.1 hm
      exact (kp t ht).clash q hq p hp e
    rw [e, exec_cons (s := t.schema) (n := t.name) (con := relCon t.schema)
      (op := fun k : Rel => .addRel k.name (some t.schema) k.toTable k.conditions) t.rels (tk t ht).rels ?_ _ ?_ sv' hP]
    · have hc : ∀ m, ((lookup t.rels m).map (relCon t.schema)).or ((lookup t.fks m).map (fkCon t.schema)) =
          ((lookup t.fks m).map (fkCon t.schema)).or ((lookup t.rels m).map (relCon t.schema)) := by
        intro m
        cases hf : lookup t.fks m with
        | none => simp
        | some k =>
          have : lookup t.rels m = none := by
            rw [lookup_eq, Dict.get?_eq_none_iff]
            intro hm
            obtain ⟨q, hq, e⟩ := List.mem_map.1 hm
            have := nofk q hq
            rw [e, hf] at this; cases this
          simp [this]
      simp only [ctable, hc]
    · intro p hp T hT
      have hpn := (tk t ht).relNames p hp
      rw [hpn] at hT ⊢
      simp [applyOp, hT, relCon]
    · intro p hp
      simp [nofk p hp]) s2 (f2.schemas.trans f1.schemas) a2
  refine ⟨s3, ?_, ⟨?_, ?_, ?_⟩, ?_⟩
  · rw [execAll_append, execAll_append, r1, Option.bind_some, r2, Option.bind_some, r3]
  · rw [f3.dbs, f2.dbs, f1.dbs]
  · rw [f3.current, f2.current, f1.current]
  · rw [f3.schemas, f2.schemas, f1.schemas]
  · intro s n
    by_cases hx : ∃ t ∈ db.iter, t.schema = s ∧ t.name = n
    · obtain ⟨t, ht, rfl, rfl⟩ := hx
      rw [a3 t ht]
      obtain ⟨p, hp, rfl⟩ := mem t ht
      have hg : db.tables.get? p.2.name = some p.2 := by
        rw [← Dict.mem_iff_get? hw.tables]
        have : p = (p.1, p.2) := rfl
        rw [← hw.tableNames _ _ hp]; exact hp
      simp [catOf, lookup_eq, hg]
    · have hno : ∀ t ∈ db.iter, ¬ (t.schema = s ∧ t.name = n) := fun t ht e => hx ⟨t, ht, e⟩
      rw [b3 s n hno, b2 s n hno, b1 s n hno]
      have : catOf db s n = none := by
        unfold catOf
        rw [lookup_eq]
        cases hg : db.tables.get? n with
        | none => rfl
        | some t =>
          have hm := Dict.mem_of_get? hg
          have ht : t ∈ db.iter := by
            simp only [Database.iter, Dict.vals]; exact List.mem_map.2 ⟨_, hm, rfl⟩
          simp only
          rw [if_neg]
          intro e
          exact hno t ht ⟨e, (hw.tableNames _ _ hm).symm⟩
      rw [this]; rfl

end Verif
