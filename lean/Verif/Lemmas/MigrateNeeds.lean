import Verif.Lemmas.Alter
/-
What a run of a difference list that arrives at the other database tells about the two databases.
-/

namespace Verif
open Verif.Spec

/-! ## One table -/

/-- The actions the entries stand for, one after the other on table `t`. -/
inductive Alterations (t : Table) : CTable → List Diff → CTable → Prop where
  | nil (T : CTable) : Alterations t T [] T
  | cons {T T' T'' : CTable} {x : Diff} {l : List Diff} {op : AlterOp} : stmtOf x = .alter t.schema t.name op →
      applyOp t.schema T op = some T' → Alterations t T' l T'' → Alterations t T (x :: l) T''

theorem Alterations.split {t : Table} {a b : List Diff} {T T' : CTable} (h : Alterations t T (a ++ b) T') :
    ∃ T1, Alterations t T a T1 ∧ Alterations t T1 b T' := by
  induction a generalizing T with
  | nil => exact ⟨T, .nil _, h⟩
  | cons x a ih =>
    cases h with
    | cons h1 h2 h3 =>
      obtain ⟨T1, r, r'⟩ := ih h3
      exact ⟨T1, .cons h1 h2 r, r'⟩

/-- The constraint an entry is about. -/
def touched : Diff → Option Str
  | .fkAdded _ _ k => some k.name
  | .fkDropped _ _ n => some n
  | .relAdded _ _ r => some r.name
  | .relDropped _ _ n => some n
  | _ => none

theorem Alterations.shard {t : Table} {l : List Diff} {T T' : CTable} (h : Alterations t T l T') (hl : ∀ x ∈ l, x.kind ≠ 2) :
    T'.shard = T.shard := by
  induction h with
  | nil => rfl
  | @cons T T1 T2 x l op h1 h2 _ ih =>
    rw [ih (fun y hy => hl y (by simp [hy]))]
    have hx := hl x (by simp)
    cases x <;> simp only [stmtOf, Stmt.alter.injEq, reduceCtorEq] at h1 <;> simp only [Diff.kind, ne_eq, not_true] at hx <;>
      (obtain ⟨-, -, rfl⟩ := h1; simp only [applyOp] at h2; split at h2 <;> simp at h2 <;> rw [← h2])

theorem Alterations.cons_of {t : Table} {l : List Diff} {T T' : CTable} (h : Alterations t T l T') {n : Str}
    (hl : ∀ x ∈ l, touched x ≠ some n) : T'.cons n = T.cons n := by
  induction h with
  | nil => rfl
  | @cons T T1 T2 x l op h1 h2 _ ih =>
    rw [ih (fun y hy => hl y (by simp [hy]))]
    have hx := hl x (by simp)
    cases x <;> simp only [stmtOf, Stmt.alter.injEq, reduceCtorEq] at h1 <;>
      simp only [touched, ne_eq, Option.some.injEq, reduceCtorEq, not_false_eq_true] at hx <;>
      obtain ⟨-, -, rfl⟩ := h1 <;> simp only [applyOp] at h2
    case shardAdded => simp at h2; rw [← h2]
    all_goals
      split at h2
      all_goals simp at h2
      all_goals rw [← h2]
      all_goals try (simp only [if_neg (Ne.symm hx)])

theorem touched_pkE {m : Str} {t1 t2 : Table} : ∀ x ∈ pkE m t1 t2, touched x = none ∧ x.kind ≠ 2 := by
  intro x hx
  unfold pkE at hx
  split at hx
  · simp at hx
  · rcases List.mem_append.1 hx with h | h <;> split at h <;> simp at h <;> subst h <;> simp [touched, Diff.kind]

theorem touched_shardE {same : Bool} {m : Str} {t1 t2 : Table} : ∀ x ∈ shardE same m t1 t2, touched x = none := by
  intro x hx
  unfold shardE at hx
  split at hx
  · simp at hx
  · simp at hx; subst hx; rfl
  · simp at hx; subst hx; rfl
  · split at hx
    · simp at hx
    · simp at hx; subst hx; rfl

theorem touched_fkE {rep : FK → FK → Bool} {m : Str} {t1 t2 : Table} (k1 : TableKeyed t1) (k2 : TableKeyed t2) (n : Str) :
    ∀ x ∈ fkE rep m t1 t2 n, touched x = some n ∧ x.kind ≠ 2 := by
  intro x hx
  unfold fkE regE at hx
  have n1 : ∀ u, t1.fks.get? n = some u → u.name = n := fun u h => (k1.fkNames _ (Dict.mem_of_get? h)).symm
  have n2 : ∀ u, t2.fks.get? n = some u → u.name = n := fun u h => (k2.fkNames _ (Dict.mem_of_get? h)).symm
  split at hx
  · rename_i u v hu hv
    dsimp only at hx
    split at hx
    · simp at hx
      rcases hx with rfl | rfl
      · simp [touched, Diff.kind, n1 _ hu]
      · simp [touched, Diff.kind, n2 _ hv]
    · simp at hx
  · rename_i u hu hv; simp at hx; subst hx; simp [touched, Diff.kind, n1 _ hu]
  · rename_i u hu hv; simp at hx; subst hx; simp [touched, Diff.kind, n2 _ hv]
  · simp at hx

theorem touched_relE {m : Str} {t1 t2 : Table} (k1 : TableKeyed t1) (k2 : TableKeyed t2) (n : Str) :
    ∀ x ∈ relE m t1 t2 n, touched x = some n ∧ x.kind ≠ 2 := by
  intro x hx
  unfold relE regE at hx
  have n1 : ∀ u, t1.rels.get? n = some u → u.name = n := fun u h => (k1.relNames _ (Dict.mem_of_get? h)).symm
  have n2 : ∀ u, t2.rels.get? n = some u → u.name = n := fun u h => (k2.relNames _ (Dict.mem_of_get? h)).symm
  split at hx
  · rename_i u v hu hv
    dsimp only at hx
    split at hx
    · simp at hx
    · simp at hx
      rcases hx with rfl | rfl
      · simp [touched, Diff.kind, n1 _ hu]
      · simp [touched, Diff.kind, n2 _ hv]
  · rename_i u hu hv; simp at hx; subst hx; simp [touched, Diff.kind, n1 _ hu]
  · rename_i u hu hv; simp at hx; subst hx; simp [touched, Diff.kind, n2 _ hv]
  · simp at hx

theorem touched_colE {m : Str} {t1 t2 : Table} (n : Str) :
    ∀ x ∈ colE m t1 t2 n, touched x = none ∧ x.kind ≠ 2 := by
  intro x hx
  unfold colE regE at hx
  split at hx
  · dsimp only at hx
    split at hx <;> simp at hx
    subst hx; simp [touched, Diff.kind]
  · simp at hx; subst hx; simp [touched, Diff.kind]
  · simp at hx; subst hx; simp [touched, Diff.kind]
  · simp at hx

theorem table_needs {rep : FK → FK → Bool} {same : Bool} {m : Str} {t1 t2 : Table} (k1 : TableKeyed t1) (k2 : TableKeyed t2)
    (hschema : t1.schema = t2.schema) (a1 : ∀ n ∈ t1.fks.keys, n ∉ t1.rels.keys) (a2 : ∀ n ∈ t2.fks.keys, n ∉ t2.rels.keys)
    {T : CTable} (h : Alterations t1 (ctable t1) (tableE rep same m t1 t2) T) (hS : T.Same (ctable t2)) :
    Detected rep same t1 t2 := by
  refine ⟨hschema, ⟨a1, a2, ?_⟩, ?_, ?_⟩
  · intro n hn hr
    obtain ⟨y, hy⟩ := Option.isSome_iff_exists.1 ((Dict.get?_isSome_iff _ _).2 hn)
    obtain ⟨r, hr'⟩ := Option.isSome_iff_exists.1 ((Dict.get?_isSome_iff _ _).2 hr)
    have hx : t1.fks.get? n = none := (Dict.get?_eq_none_iff _ _).2 (fun h => a1 n h hr)
    have hmem : n ∈ allNames t1.fks t2.fks := mem_allNames.2 (.inr hn)
    obtain ⟨a, b, hab⟩ := List.append_of_mem hmem
    have hnd := (allNames_incr k1.fks k2.fks).nodup
    unfold tableE at h
    obtain ⟨_, h, -⟩ := h.split
    obtain ⟨_, h, -⟩ := h.split
    obtain ⟨T2, h0, h⟩ := h.split
    rw [hab, List.flatMap_append, List.flatMap_cons] at h
    obtain ⟨T3, h3, h⟩ := h.split
    obtain ⟨T4, h, -⟩ := h.split
    have hna : n ∉ a := by
      rw [hab, List.nodup_append] at hnd
      exact fun hm => hnd.2.2 n hm n (by simp) rfl
    have c2 : T2.cons n = (ctable t1).cons n := h0.cons_of (by
      intro x hx
      rcases List.mem_append.1 hx with hx | hx
      · rw [(touched_pkE x hx).1]; simp
      · rw [touched_shardE x hx]; simp)
    have c3 : T3.cons n = T2.cons n := h3.cons_of (by
      intro x hx
      obtain ⟨k, hk, hx⟩ := List.mem_flatMap.1 hx
      rw [(touched_fkE k1 k2 k x hx).1]
      rintro ⟨⟩
      exact hna hk)
    rw [c2, ctable_cons, hx, hr'] at c3
    have hyn : y.name = n := (k2.fkNames _ (Dict.mem_of_get? hy)).symm
    simp only [fkE, regE, hx, hy] at h
    cases h with
    | cons e1 e2 _ =>
      simp only [stmtOf, Stmt.alter.injEq, true_and] at e1
      subst e1
      simp [applyOp, hyn, c3] at e2
  · intro hs e1 e2
    have hE : shardE same m t1 t2 = [] := by
      unfold shardE
      cases hu : t1.shard <;> cases hv : t2.shard <;> simp_all
    have := h.shard (by
      intro x hx
      unfold tableE at hx
      rw [hE] at hx
      simp only [List.append_nil, List.mem_append, List.mem_flatMap] at hx
      rcases hx with ((hx | ⟨k, _, hx⟩) | ⟨k, _, hx⟩) | ⟨k, _, hx⟩
      · exact (touched_pkE x hx).2
      · exact (touched_fkE k1 k2 k x hx).2
      · exact (touched_relE k1 k2 k x hx).2
      · exact (touched_colE k x hx).2)
    exact this.symm.trans hS.shard
  · intro n x y hx hy hr
    have n1 : n ∉ t1.rels.keys := a1 n ((Dict.get?_isSome_iff _ _).1 (by simp [hx]))
    have n2 : n ∉ t2.rels.keys := a2 n ((Dict.get?_isSome_iff _ _).1 (by simp [hy]))
    have := h.cons_of (n := n) (by
      intro z hz
      unfold tableE at hz
      simp only [List.mem_append, List.mem_flatMap] at hz
      rcases hz with (((hz | hz) | ⟨k, hk, hz⟩) | ⟨k, hk, hz⟩) | ⟨k, hk, hz⟩
      · rw [(touched_pkE z hz).1]; simp
      · rw [touched_shardE z hz]; simp
      · rw [(touched_fkE k1 k2 k z hz).1]
        rintro ⟨⟩
        simp [fkE, regE, hx, hy, hr] at hz
      · rw [(touched_relE k1 k2 k z hz).1]
        rintro ⟨⟩
        exact (mem_allNames.1 hk).elim n1 n2
      · rw [(touched_colE k z hz).1]; simp)
    rw [hS.cons, ctable_cons, ctable_cons, hx, hy] at this
    simp only [Option.map_some, Option.some_or, Option.some.injEq] at this
    rw [hschema] at this ⊢
    exact this.symm

/-! ## The whole database -/

theorem execAll_two (sv : Server) (a b : List Stmt) : execAll sv (a ++ b) = (execAll sv a).bind (fun s => execAll s b) := by
  induction a generalizing sv with
  | nil => rfl
  | cons x a ih =>
    simp only [List.cons_append, execAll]
    cases exec sv x with
    | none => rfl
    | some s => simp [ih]

theorem execAll_split {sv sv' : Server} {a b : List Diff} (h : execAll sv ((a ++ b).map stmtOf) = some sv') :
    ∃ s, execAll sv (a.map stmtOf) = some s ∧ execAll s (b.map stmtOf) = some sv' := by
  rw [List.map_append, execAll_two] at h
  cases e : execAll sv (a.map stmtOf) with
  | none => rw [e] at h; cases h
  | some s => rw [e] at h; exact ⟨s, rfl, h⟩

theorem exec_frame {sv sv' : Server} {x : Diff} (h : exec sv (stmtOf x) = some sv') :
    sv'.schemas = sv.schemas ∧ ∀ n, n ≠ x.table.name → ∀ s, sv'.cat s n = sv.cat s n := by
  have hput : ∀ (s0 n0 : Str) (A : Option CTable), sv' = sv.put s0 n0 A →
      sv'.schemas = sv.schemas ∧ ∀ n, n ≠ n0 → ∀ s, sv'.cat s n = sv.cat s n := by
    rintro s0 n0 A rfl
    refine ⟨rfl, fun n hn s => ?_⟩
    rw [put_cat, if_neg (fun h => hn h.2)]
  cases x
  case tableCreated =>
    simp only [stmtOf, exec] at h
    split at h
    · cases h
    · exact hput _ _ _ (Option.some.inj h).symm
  case tableDropped => exact hput _ _ _ (Option.some.inj h).symm
  all_goals
    simp only [stmtOf, exec] at h
    split at h
    · cases h
    · obtain ⟨T', -, h⟩ := Option.map_eq_some_iff.1 h
      exact hput _ _ _ h.symm

theorem execAll_frame {sv sv' : Server} {l : List Diff} (h : execAll sv (l.map stmtOf) = some sv') :
    sv'.schemas = sv.schemas ∧ ∀ n, (∀ x ∈ l, x.table.name ≠ n) → ∀ s, sv'.cat s n = sv.cat s n := by
  induction l generalizing sv with
  | nil => cases h; exact ⟨rfl, fun _ _ _ => rfl⟩
  | cons x l ih =>
    simp only [List.map_cons, execAll] at h
    cases e : exec sv (stmtOf x) with
    | none => rw [e] at h; cases h
    | some s1 =>
      rw [e] at h
      obtain ⟨a, b⟩ := ih h
      obtain ⟨c, d⟩ := exec_frame e
      refine ⟨a.trans c, fun n hn s => ?_⟩
      rw [b n (fun y hy => hn y (by simp [hy])), d n (Ne.symm (hn x (by simp)))]

theorem tableE_alter {rep : FK → FK → Bool} {same : Bool} {m : Str} {t1 t2 : Table} :
    ∀ x ∈ tableE rep same m t1 t2, x.table = t1 ∧ ∃ op, stmtOf x = .alter t1.schema t1.name op := by
  intro x hx
  unfold tableE pkE shardE fkE relE colE regE at hx
  simp only [List.mem_append, List.mem_flatMap] at hx
  rcases hx with (((hx | hx) | ⟨k, _, hx⟩) | ⟨k, _, hx⟩) | ⟨k, _, hx⟩
  · split at hx
    · simp at hx
    · rcases List.mem_append.1 hx with h | h <;> split at h <;> simp at h <;> subst h <;> exact ⟨rfl, _, rfl⟩
  · split at hx
    · simp at hx
    · simp at hx; subst hx; exact ⟨rfl, _, rfl⟩
    · simp at hx; subst hx; exact ⟨rfl, _, rfl⟩
    · split at hx <;> simp at hx
      subst hx; exact ⟨rfl, _, rfl⟩
  · split at hx
    · split at hx <;> simp at hx
      rcases hx with rfl | rfl <;> exact ⟨rfl, _, rfl⟩
    · simp at hx; subst hx; exact ⟨rfl, _, rfl⟩
    · simp at hx; subst hx; exact ⟨rfl, _, rfl⟩
    · simp at hx
  · split at hx
    · split at hx <;> simp at hx
      rcases hx with rfl | rfl <;> exact ⟨rfl, _, rfl⟩
    · simp at hx; subst hx; exact ⟨rfl, _, rfl⟩
    · simp at hx; subst hx; exact ⟨rfl, _, rfl⟩
    · simp at hx
  · split at hx
    · split at hx <;> simp at hx
      subst hx; exact ⟨rfl, _, rfl⟩
    · simp at hx; subst hx; exact ⟨rfl, _, rfl⟩
    · simp at hx; subst hx; exact ⟨rfl, _, rfl⟩
    · simp at hx

theorem dbE_name {rep : FK → FK → Bool} {shared : Str → Bool} {db1 db2 : Database} (h1 : WellKeyed db1) (h2 : WellKeyed db2)
    {n : Str} : ∀ x ∈ dbE rep shared db1 db2 n, x.table.name = n := by
  intro x hx
  unfold dbE regE at hx
  split at hx
  · rename_i hu hv
    rw [(tableE_alter x hx).1]; exact name_of_get? h1 hu
  · rename_i hu hv; simp at hx; subst hx; exact name_of_get? h1 hu
  · rename_i hu hv; simp at hx; subst hx; exact name_of_get? h2 hv
  · simp at hx

theorem alterations_of_exec {t : Table} {l : List Diff} (hl : ∀ x ∈ l, ∃ op, stmtOf x = .alter t.schema t.name op) {sv sv' : Server}
    {T : CTable} (hc : sv.cat t.schema t.name = some T) (h : execAll sv (l.map stmtOf) = some sv') :
    ∃ T', Alterations t T l T' ∧ sv'.cat t.schema t.name = some T' := by
  induction l generalizing sv T with
  | nil => cases h; exact ⟨T, .nil _, hc⟩
  | cons x l ih =>
    obtain ⟨op, hop⟩ := hl x (by simp)
    simp only [List.map_cons, execAll, hop, exec, hc] at h
    cases e : applyOp t.schema T op with
    | none => rw [e] at h; cases h
    | some T1 =>
      rw [e] at h
      obtain ⟨T', r, c⟩ := ih (sv := sv.put t.schema t.name (some T1)) (T := T1) (fun y hy => hl y (by simp [hy])) (by simp [put_cat]) h
      exact ⟨T', .cons hop e r, c⟩

/-- What a successful and complete run tells. -/
theorem db_needs {rep : FK → FK → Bool} {shared : Str → Bool} {db1 db2 : Database} (h1 : WellKeyed db1) (h2 : WellKeyed db2)
    (a1 : ∀ n t, db1.tables.get? n = some t → ∀ k ∈ t.fks.keys, k ∉ t.rels.keys)
    (a2 : ∀ n t, db2.tables.get? n = some t → ∀ k ∈ t.fks.keys, k ∉ t.rels.keys)
    {sv sv' : Server} (hsv : sv.cat = catOf db1)
    (h : execAll sv (((allNames db1.tables db2.tables).flatMap (dbE rep shared db1 db2)).map stmtOf) = some sv')
    (hS : CatSame sv'.cat (catOf db2)) :
    (∀ n t1 t2, db1.tables.get? n = some t1 → db2.tables.get? n = some t2 → Detected rep (shared n) t1 t2) ∧
    (∀ n t2, db1.tables.get? n = none → db2.tables.get? n = some t2 →
      (t2.fks = [] ∧ t2.rels = []) ∧ (t2.schema = defaultSchema ∨ t2.schema ∈ sv.schemas)) := by
  have hnd := (allNames_incr h1.tables h2.tables).nodup
  -- the part for one name
  have part : ∀ n ∈ allNames db1.tables db2.tables, ∃ s s', (∀ z, s.cat z n = catOf db1 z n) ∧ s.schemas = sv.schemas ∧
      execAll s ((dbE rep shared db1 db2 n).map stmtOf) = some s' ∧ ∀ z, OptSame (s'.cat z n) (catOf db2 z n) := by
    intro n hn
    obtain ⟨a, b, hab⟩ := List.append_of_mem hn
    rw [hab, List.nodup_append] at hnd
    have hna : n ∉ a := fun hm => hnd.2.2 n hm n (by simp) rfl
    have hnb : n ∉ b := (List.nodup_cons.1 hnd.2.1).1
    rw [hab, List.flatMap_append, List.flatMap_cons] at h
    obtain ⟨s, r1, h⟩ := execAll_split h
    obtain ⟨s', r2, r3⟩ := execAll_split h
    have other : ∀ l : List Str, n ∉ l → ∀ x ∈ l.flatMap (dbE rep shared db1 db2), x.table.name ≠ n := by
      intro l hl x hx
      obtain ⟨k, hk, hx⟩ := List.mem_flatMap.1 hx
      rw [dbE_name h1 h2 x hx]
      exact fun e => hl (e ▸ hk)
    refine ⟨s, s', fun z => ?_, (execAll_frame r1).1, r2, fun z => ?_⟩
    · rw [(execAll_frame r1).2 n (other a hna), hsv]
    · rw [← (execAll_frame r3).2 n (other b hnb)]; exact hS z n
  constructor
  · intro n t1 t2 g1 g2
    have k1 := tableKeyed_of_get? h1 g1
    have k2 := tableKeyed_of_get? h2 g2
    obtain ⟨s, s', c, -, r, c'⟩ := part n (mem_allNames.2 (.inl ((Dict.get?_isSome_iff _ _).1 (by simp [g1]))))
    simp only [dbE, regE, g1, g2] at r
    have c1 := c t1.schema
    rw [catOf_eq, g1] at c1
    simp only [Option.bind_some, if_true] at c1
    have hname := name_of_get? h1 g1
    obtain ⟨T, st, cT⟩ := alterations_of_exec (t := t1) (fun x hx => (tableE_alter x hx).2) (by rw [hname]; exact c1) r
    have c2 := c' t1.schema
    rw [hname] at cT
    rw [cT, catOf_eq, g2] at c2
    simp only [Option.bind_some] at c2
    by_cases hs : t2.schema = t1.schema
    · rw [if_pos hs] at c2
      exact table_needs k1 k2 hs.symm (a1 n t1 g1) (a2 n t2 g2) st c2
    · rw [if_neg hs] at c2
      exact absurd c2 (by simp [OptSame])
  · intro n t2 g1 g2
    obtain ⟨s, s', c, hsch, r, c'⟩ := part n (mem_allNames.2 (.inr ((Dict.get?_isSome_iff _ _).1 (by simp [g2]))))
    simp only [dbE, regE, g1, g2] at r
    have hname := name_of_get? h2 g2
    simp only [List.map_cons, List.map_nil, stmtOf, execAll, exec] at r
    split at r
    · cases r
    · rename_i hno
      simp only [not_or, not_and] at hno
      simp only [Option.bind_some, Option.some.injEq] at r
      have c2 := c' t2.schema
      rw [catOf_eq, g2, ← r, put_cat, if_pos ⟨rfl, hname.symm⟩] at c2
      simp only [Option.bind_some, if_true] at c2
      have hc : ∀ k, ((t2.fks.get? k).map (fkCon t2.schema)).or ((t2.rels.get? k).map (relCon t2.schema)) = none := by
        intro k
        rw [← ctable_cons, ← c2.cons]
      refine ⟨⟨?_, ?_⟩, ?_⟩
      · cases e : t2.fks with
        | nil => rfl
        | cons p l =>
          have := hc p.1
          rw [e, Dict.get?_cons] at this
          simp at this
      · cases e : t2.rels with
        | nil => rfl
        | cons p l =>
          have := hc p.1
          rw [e, Dict.get?_cons] at this
          simp at this
      · by_cases hd : t2.schema = defaultSchema
        · exact .inl hd
        · right
          have := hno.2.2 hd
          rw [hsch] at this
          exact Decidable.not_not.1 this

/-! ## The columns before they change -/

theorem exec_cols {sv sv' : Server} {x : Diff} {t : Table} (hx : x.table.name = t.name → x.table = t ∧ x.kind ≠ 0 ∧ x.kind ≠ 5) {T : CTable}
    (hc : sv.cat t.schema t.name = some T) (h : exec sv (stmtOf x) = some sv') :
    ∃ T', sv'.cat t.schema t.name = some T' ∧ T'.cols = T.cols := by
  by_cases hn : x.table.name = t.name
  · obtain ⟨e, k0, k5⟩ := hx hn
    cases x <;> simp only [Diff.kind, ne_eq, not_true] at k0 k5 <;> simp only [Diff.table] at e <;> subst e <;>
      simp only [stmtOf, exec, hc] at h <;> obtain ⟨T', hT, rfl⟩ := Option.map_eq_some_iff.1 h <;>
      refine ⟨T', by simp [put_cat], ?_⟩ <;> simp only [applyOp] at hT
    case shardAdded => simp at hT; rw [← hT]
    all_goals
      split at hT
      all_goals simp at hT
      all_goals rw [← hT]
  · exact ⟨T, by rw [(exec_frame h).2 _ (Ne.symm hn)]; exact hc, rfl⟩

theorem execAll_cols {l : List Diff} {sv sv' : Server} {t : Table}
    (hl : ∀ x ∈ l, x.table.name = t.name → x.table = t ∧ x.kind ≠ 0 ∧ x.kind ≠ 5) {T : CTable}
    (hc : sv.cat t.schema t.name = some T) (h : execAll sv (l.map stmtOf) = some sv') :
    ∃ T', sv'.cat t.schema t.name = some T' ∧ T'.cols = T.cols := by
  induction l generalizing sv T with
  | nil => cases h; exact ⟨T, hc, rfl⟩
  | cons x l ih =>
    simp only [List.map_cons, execAll] at h
    cases e : exec sv (stmtOf x) with
    | none => rw [e] at h; cases h
    | some s1 =>
      rw [e] at h
      obtain ⟨T1, c1, e1⟩ := exec_cols (hl x (by simp)) hc e
      obtain ⟨T', c', e'⟩ := ih (fun y hy => hl y (by simp [hy])) c1 h
      exact ⟨T', c', e'.trans e1⟩

theorem kind_colE {m : Str} {t1 t2 : Table} (n : Str) : ∀ x ∈ colE m t1 t2 n, x.kind = 5 := by
  intro x hx
  unfold colE regE at hx
  split at hx
  · dsimp only at hx
    split at hx <;> simp at hx
    subst hx; rfl
  · simp at hx; subst hx; rfl
  · simp at hx; subst hx; rfl
  · simp at hx

theorem kind_keysE {rep : FK → FK → Bool} {same : Bool} {m : Str} {t1 t2 : Table} :
    ∀ x ∈ pkE m t1 t2 ++ shardE same m t1 t2 ++ (allNames t1.fks t2.fks).flatMap (fkE rep m t1 t2) ++
      (allNames t1.rels t2.rels).flatMap (relE m t1 t2), x.kind ≠ 0 ∧ x.kind ≠ 5 := by
  intro x hx
  unfold pkE shardE fkE relE regE at hx
  simp only [List.mem_append, List.mem_flatMap] at hx
  rcases hx with ((hx | hx) | ⟨k, _, hx⟩) | ⟨k, _, hx⟩
  · split at hx
    · simp at hx
    · rcases List.mem_append.1 hx with h | h <;> split at h <;> simp at h <;> subst h <;> simp [Diff.kind]
  · split at hx
    · simp at hx
    · simp at hx; subst hx; simp [Diff.kind]
    · simp at hx; subst hx; simp [Diff.kind]
    · split at hx <;> simp at hx
      subst hx; simp [Diff.kind]
  · split at hx
    · split at hx <;> simp at hx
      rcases hx with rfl | rfl <;> simp [Diff.kind]
    · simp at hx; subst hx; simp [Diff.kind]
    · simp at hx; subst hx; simp [Diff.kind]
    · simp at hx
  · split at hx
    · split at hx <;> simp at hx
      rcases hx with rfl | rfl <;> simp [Diff.kind]
    · simp at hx; subst hx; simp [Diff.kind]
    · simp at hx; subst hx; simp [Diff.kind]
    · simp at hx

/-- Whatever the databases: entries on the keys of a table meet the table with its old columns, if what comes before is accepted. -/
theorem old_columns {rep : FK → FK → Bool} {shared : Str → Bool} {db1 db2 : Database} (h1 : WellKeyed db1) (h2 : WellKeyed db2)
    {sv sv' : Server} (hsv : sv.cat = catOf db1) {a b : List Diff} {x : Diff}
    (hl : (allNames db1.tables db2.tables).flatMap (dbE rep shared db1 db2) = a ++ x :: b) (hk0 : x.kind ≠ 0) (hk5 : x.kind ≠ 5)
    (h : execAll sv (a.map stmtOf) = some sv') :
    ∃ T, sv'.cat x.table.schema x.table.name = some T ∧ T.cols = (ctable x.table).cols ∧
      db1.tables.get? x.table.name = some x.table := by
  have hnd := (allNames_incr h1.tables h2.tables).nodup
  have hx : x ∈ (allNames db1.tables db2.tables).flatMap (dbE rep shared db1 db2) := by rw [hl]; simp
  obtain ⟨n, hn, hx⟩ := List.mem_flatMap.1 hx
  obtain ⟨l1, l2, hab⟩ := List.append_of_mem hn
  rw [hab, List.nodup_append] at hnd
  have hn1 : n ∉ l1 := fun hm => hnd.2.2 n hm n (by simp) rfl
  have hn2 : n ∉ l2 := (List.nodup_cons.1 hnd.2.1).1
  have other : ∀ l : List Str, n ∉ l → ∀ x ∈ l.flatMap (dbE rep shared db1 db2), x.table.name ≠ n := by
    intro l hl x hx
    obtain ⟨k, hk, hx⟩ := List.mem_flatMap.1 hx
    rw [dbE_name h1 h2 x hx]
    exact fun e => hl (e ▸ hk)
  have hxn := dbE_name h1 h2 x hx
  cases g1 : db1.tables.get? n with
  | none =>
    simp only [dbE, regE, g1] at hx
    split at hx
    · simp at *
    · simp at *
    · simp at hx; subst hx; exact absurd rfl hk0
    · simp at hx
  | some t1 =>
    cases g2 : db2.tables.get? n with
    | none =>
      simp only [dbE, regE, g1, g2] at hx
      simp at hx; subst hx; exact absurd rfl hk0
    | some t2 =>
      have hE : dbE rep shared db1 db2 n = tableE rep (shared n) db1.name t1 t2 := by simp only [dbE, regE, g1, g2]
      rw [hE] at hx
      have ht := (tableE_alter x hx).1
      rw [hab, List.flatMap_append, List.flatMap_cons, hE] at hl
      unfold tableE at hl
      rw [List.append_assoc _ _ (List.flatMap _ l2), ← List.append_assoc] at hl
      have before : ∀ y ∈ a, y.table.name = t1.name → y.table = t1 ∧ y.kind ≠ 0 ∧ y.kind ≠ 5 := by
        have hsub : ∀ y ∈ a, y ∈ l1.flatMap (dbE rep shared db1 db2) ++
            (pkE db1.name t1 t2 ++ shardE (shared n) db1.name t1 t2 ++ (allNames t1.fks t2.fks).flatMap (fkE rep db1.name t1 t2) ++
              (allNames t1.rels t2.rels).flatMap (relE db1.name t1 t2)) := by
          rcases List.append_eq_append_iff.1 hl with ⟨c, e1, e2⟩ | ⟨c, e1, e2⟩
          · exfalso
            have : x ∈ (allNames t1.cols t2.cols).flatMap (colE db1.name t1 t2) ++ l2.flatMap (dbE rep shared db1 db2) := by
              rw [e2]; simp
            rcases List.mem_append.1 this with hm | hm
            · obtain ⟨k, -, hm⟩ := List.mem_flatMap.1 hm
              exact hk5 (kind_colE k x hm)
            · exact other l2 hn2 x hm hxn
          · intro y hy
            rw [e1]; simp [hy]
        intro y hy hyn
        rcases List.mem_append.1 (hsub y hy) with hm | hm
        · exact absurd (hyn.trans (name_of_get? h1 g1)) (other l1 hn1 y hm)
        · refine ⟨(tableE_alter (rep := rep) (same := shared n) (m := db1.name) (t2 := t2) y ?_).1, kind_keysE y hm⟩
          unfold tableE
          exact List.mem_append_left _ hm
      have hc : sv.cat t1.schema t1.name = some (ctable t1) := by
        rw [hsv, catOf_eq, name_of_get? h1 g1, g1]
        simp
      obtain ⟨T, c, e⟩ := execAll_cols before hc h
      rw [ht]
      exact ⟨T, c, e, by rw [name_of_get? h1 g1]; exact g1⟩

end Verif
