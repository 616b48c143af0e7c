import Verif.Lemmas.CaseScript
/-
Scripts on a server that checks what a statement refers to.
-/

namespace Verif
open Verif.Spec

theorem Spec.Accepts.append {sv sv' sv'' : Server} {l m : List Stmt} (h : Accepts sv l sv') (h' : Accepts sv' m sv'') : Accepts sv (l ++ m) sv'' := by
  induction h with
  | nil => exact h'
  | cons sv s1 s2 st l ho he _ ih => exact .cons _ _ _ _ _ ho he (ih h')

theorem Spec.Accepts.exec {sv sv' : Server} {l : List Stmt} (h : Accepts sv l sv') : execAll sv l = some sv' := by
  induction h with
  | nil => rfl
  | cons sv s1 s2 st l ho he _ ih => simp only [execAll, he, Option.bind_some, ih]

theorem accepts_free {l : List Stmt} (hl : ∀ st ∈ l, ∀ sv, RefsOk sv st) {sv sv' : Server} (h : execAll sv l = some sv') : Accepts sv l sv' := by
  induction l generalizing sv with
  | nil => cases h; exact .nil _
  | cons st l ih =>
    simp only [execAll] at h
    obtain ⟨s1, h1, h2⟩ := Option.bind_eq_some_iff.1 h
    exact .cons _ s1 _ _ _ (hl st (by simp) sv) h1 (ih (fun x hx => hl x (by simp [hx])) h2)

/-- A statement that adds a foreign key or a relationship. -/
def AddsKey : Stmt → Prop
  | .alter _ _ (.addFK ..) => True
  | .alter _ _ (.addRel ..) => True
  | _ => False

/-- Columns and primary keys of the tables are the same. -/
def SameShape (sv sv' : Server) : Prop := ∀ s n, (sv.cat s n).map (fun T => (T.cols, T.pk)) = (sv'.cat s n).map (fun T => (T.cols, T.pk))

theorem sameShape_symm {sv sv' : Server} (h : SameShape sv sv') : SameShape sv' sv := fun s n => (h s n).symm

theorem exec_addsKey {sv sv' : Server} {st : Stmt} (h : AddsKey st) (he : exec sv st = some sv') : SameShape sv sv' := by
  have key : ∀ s n op, AddsKey (.alter s n op) → ∀ T T', applyOp s T op = some T' → (T'.cols, T'.pk) = (T.cols, T.pk) := by
    intro s n op ho T T' e
    cases op <;> first | exact False.elim ho | skip
    all_goals
      simp only [applyOp] at e
      split at e
      · cases e; rfl
      · cases e
  cases st with
  | alter s n op =>
    simp only [exec] at he
    cases hc : sv.cat s n with
    | none => rw [hc] at he; cases he
    | some T =>
      rw [hc] at he
      obtain ⟨T', h1, h2⟩ := Option.map_eq_some_iff.1 he
      subst h2
      intro s' n'
      simp only [Server.put]
      split
      · rename_i e
        rw [e.1, e.2, hc]
        simp only [Option.map_some, key s n op h T T' h1]
      · rfl
  | _ => exact absurd h (by simp [AddsKey])

theorem shape_table {sv sv' : Server} (h : SameShape sv sv') {s n : Str} {T : CTable} (e : sv.cat s n = some T) :
    ∃ T', sv'.cat s n = some T' ∧ T'.cols = T.cols ∧ T'.pk = T.pk := by
  have := h s n
  rw [e] at this
  cases hc : sv'.cat s n with
  | none => rw [hc] at this; cases this
  | some T' =>
    rw [hc] at this
    simp only [Option.map_some, Option.some.injEq, Prod.mk.injEq] at this
    exact ⟨T', rfl, this.1.symm, this.2.symm⟩

theorem refsOk_shape {sv sv' : Server} (h : SameShape sv sv') {st : Stmt} (hk : AddsKey st) (ho : RefsOk sv st) : RefsOk sv' st := by
  cases st with
  | alter s n op =>
    cases op with
    | addFK m cols ts t tk =>
      obtain ⟨T, U, h1, h2, h3, h4, h5⟩ := ho
      obtain ⟨T', e1, c1, p1⟩ := shape_table h h1
      obtain ⟨U', e2, c2, p2⟩ := shape_table h h2
      refine ⟨T', U', e1, e2, h3, by rw [p2]; exact h4, ?_⟩
      simp only [CTable.HasCol, c1, c2, p2]
      exact h5
    | addRel m ts t c =>
      obtain ⟨⟨T, h1⟩, U, h2⟩ := ho
      obtain ⟨T', e1, -⟩ := shape_table h h1
      obtain ⟨U', e2, -⟩ := shape_table h h2
      exact ⟨⟨T', e1⟩, U', e2⟩
    | _ => exact absurd hk (by simp [AddsKey])
  | _ => exact absurd hk (by simp [AddsKey])

theorem execAll_shape {l : List Stmt} (hl : ∀ st ∈ l, AddsKey st) {sv sv' : Server} (h : execAll sv l = some sv') : SameShape sv sv' := by
  induction l generalizing sv with
  | nil => cases h; exact fun _ _ => rfl
  | cons st l ih =>
    simp only [execAll] at h
    obtain ⟨s1, h1, h2⟩ := Option.bind_eq_some_iff.1 h
    exact fun s n => (exec_addsKey (hl st (by simp)) h1 s n).trans (ih (fun x hx => hl x (by simp [hx])) h2 s n)

/-- Statements that add keys are in order on the way if they are at the end. -/
theorem accepts_keys {l : List Stmt} (hl : ∀ st ∈ l, AddsKey st) {sv sv' : Server} (h : execAll sv l = some sv') (ho : ∀ st ∈ l, RefsOk sv' st) : Accepts sv l sv' := by
  induction l generalizing sv with
  | nil => cases h; exact .nil _
  | cons st l ih =>
    have hs := execAll_shape hl h
    simp only [execAll] at h
    obtain ⟨s1, h1, h2⟩ := Option.bind_eq_some_iff.1 h
    exact .cons _ s1 _ _ _ (refsOk_shape (sameShape_symm hs) (hl st (by simp)) (ho st (by simp))) h1
      (ih (fun x hx => hl x (by simp [hx])) h2 (fun x hx => ho x (by simp [hx])))

theorem lookup_table {db : Database} (hw : WellKeyed db) {n : Str} {t : Table} (h : TableOf db n t) : catOf db t.schema n = some (ctable t) := by
  have hg : db.tables.get? n = some t := by rw [← Dict.mem_iff_get? hw.tables]; exact h
  simp [catOf, lookup_eq, hg]

theorem cols_table {db : Database} (hw : WellKeyed db) {n : Str} {t : Table} (h : TableOf db n t) {a : Str} {c : Column} (hc : ColumnOf t a c) : (ctable t).HasCol a c.type := by
  have := hw.colNames n t h a c hc
  exact List.mem_map.2 ⟨(a, c), hc, by simp [this]⟩

/-- A script that is executed is accepted if the database is well-formed and keys stay within a schema. -/
theorem accepts_tql {db : Database} (create : Bool) (hw : WellKeyed db) (wf : WellFormed db) (hk : ∀ p ∈ db.tables, KeysInPlace p.2) (hi : WithinSchemas db) {sv sv' : Server}
    (he : execAll sv (tqlStmts { createDb := create } db) = some sv') (hc : ∀ s n T, catOf db s n = some T → sv'.cat s n = some T) :
    Accepts sv (tqlStmts { createDb := create } db) sv' := by
  have mem : ∀ t ∈ db.iter, ∃ n, TableOf db n t := fun t ht => by
    obtain ⟨p, hp, rfl⟩ := List.mem_map.1 ht
    exact ⟨p.1, hp⟩
  unfold tqlStmts at he ⊢
  rw [List.append_assoc, execAll_append] at he
  rw [List.append_assoc]
  obtain ⟨s1, h1, h2⟩ := Option.bind_eq_some_iff.1 he
  refine (accepts_free ?_ h1).append (accepts_keys ?_ h2 ?_)
  · intro st hst sv
    rcases List.mem_append.1 hst with hst | hst
    · simp only [headStmts, List.mem_append] at hst
      rcases hst with (hst | hst) | hst
      · split at hst
        · simp only [List.mem_singleton] at hst; subst hst; trivial
        · cases hst
      · simp only [List.mem_singleton] at hst; subst hst; trivial
      · split at hst
        · obtain ⟨s, -, rfl⟩ := List.mem_map.1 hst; trivial
        · cases hst
    · obtain ⟨t, ht, hst⟩ := List.mem_flatMap.1 hst
      simp only [List.mem_cons, List.not_mem_nil, or_false] at hst
      rcases hst with rfl | rfl
      · trivial
      · obtain ⟨n, hT⟩ := mem t ht
        have decl : ∀ k, (∃ c, ColumnOf t k c) → k ∈ (t.cols.map (fun p => (colCase {} p.2.name, p.2.type))).map Prod.fst := by
          rintro k ⟨c, hc⟩
          rw [List.map_map]
          exact List.mem_map.2 ⟨(k, c), hc, by simp [colCase, hw.colNames n t hT k c hc]⟩
        refine ⟨fun k hk => decl k (wf.pk n t hT k hk), ?_⟩
        intro m ks e k hk
        obtain ⟨sk, hsk, e'⟩ := Option.map_eq_some_iff.1 e
        cases e'
        obtain ⟨a, b⟩ := wf.shard n t hT sk hsk k hk
        exact ⟨decl k a, b⟩
  · intro st hst
    rcases List.mem_append.1 hst with hst | hst
    · obtain ⟨t, ht, hst⟩ := List.mem_flatMap.1 hst
      obtain ⟨k, hk, rfl⟩ := List.mem_map.1 hst
      trivial
    · obtain ⟨t, ht, hst⟩ := List.mem_flatMap.1 hst
      obtain ⟨k, hk, rfl⟩ := List.mem_map.1 hst
      trivial
  · intro st hst
    rcases List.mem_append.1 hst with hst | hst
    · obtain ⟨t, ht, hst⟩ := List.mem_flatMap.1 hst
      obtain ⟨k, hk', rfl⟩ := List.mem_map.1 hst
      obtain ⟨q, hq, rfl⟩ := List.mem_map.1 hk'
      obtain ⟨n, hT⟩ := mem t ht
      have hn := hw.tableNames n t hT
      obtain ⟨u, hu, l1, l2, l3⟩ := wf.fks n t hT q.1 q.2 hq
      have hus := (hi n t hT).1 q.1 q.2 hq u hu
      have hfrom := (hk _ hT).fkFrom q hq
      simp only [caseD_default] at hfrom ⊢
      refine ⟨ctable t, ctable u, ?_, ?_, l1, l2, ?_⟩
      · rw [hfrom, ← hn]; exact hc _ _ _ (lookup_table hw hT)
      · rw [Option.getD_some, ← hus]; exact hc _ _ _ (lookup_table hw hu)
      · intro i a b ha hb
        obtain ⟨hb', ca, cb, h1, h2, h3⟩ := l3 i a b ha hb
        exact ⟨hb', ca.type, cb.type, cols_table hw hT h1, cols_table hw hu h2, h3⟩
    · obtain ⟨t, ht, hst⟩ := List.mem_flatMap.1 hst
      obtain ⟨k, hk', rfl⟩ := List.mem_map.1 hst
      obtain ⟨q, hq, rfl⟩ := List.mem_map.1 hk'
      obtain ⟨n, hT⟩ := mem t ht
      have hn := hw.tableNames n t hT
      obtain ⟨hf, u, hu⟩ := wf.rels n t hT q.1 q.2 hq
      have hus := (hi n t hT).2 q.1 q.2 hq u hu
      simp only [caseD_default]
      refine ⟨⟨ctable t, ?_⟩, ctable u, ?_⟩
      · rw [hf, ← hn]; exact hc _ _ _ (lookup_table hw hT)
      · rw [Option.getD_some, ← hus]; exact hc _ _ _ (lookup_table hw hu)

end Verif
