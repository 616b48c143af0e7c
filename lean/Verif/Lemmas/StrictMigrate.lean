import Verif.Lemmas.MigrateOrder
import Verif.Lemmas.StrictServer
import Verif.Spec.StrictMigrate
/-
Executing the difference list on a checking server.
-/

namespace Verif
open Verif.Spec

theorem exec_pk {sv sv' : Server} {x : Diff} (h0 : x.kind ≠ 0) (h1 : x.kind ≠ 1) (h : exec sv (stmtOf x) = some sv') (s m : Str) :
    (sv'.cat s m).map (·.pk) = (sv.cat s m).map (·.pk) := by
  have gen : ∀ (t : Table) (op : AlterOp), exec sv (.alter t.schema t.name op) = some sv' →
      (∀ T T', applyOp t.schema T op = some T' → T'.pk = T.pk) → (sv'.cat s m).map (·.pk) = (sv.cat s m).map (·.pk) := by
    intro t op h hop
    simp only [exec] at h
    split at h
    · cases h
    · rename_i T hT
      obtain ⟨T', hT', rfl⟩ := Option.map_eq_some_iff.1 h
      rw [put_cat]
      split
      · rename_i e
        obtain ⟨rfl, rfl⟩ := e
        rw [hT, Option.map_some, Option.map_some, hop T T' hT']
      · rfl
  cases x <;> simp only [Diff.kind, ne_eq, not_true_eq_false] at h0 h1 <;> simp only [stmtOf] at h <;> refine gen _ _ h ?_ <;>
    intro T T' hT <;> simp only [applyOp] at hT
  all_goals
    first
    | (split at hT <;> first | (cases hT; done) | (cases hT; rfl))
    | (cases hT; rfl)

theorem execAll_pk {l : List Diff} (hl : ∀ x ∈ l, x.kind ≠ 0 ∧ x.kind ≠ 1) {sv sv' : Server} (h : execAll sv (l.map stmtOf) = some sv') (s m : Str) :
    (sv'.cat s m).map (·.pk) = (sv.cat s m).map (·.pk) := by
  induction l generalizing sv with
  | nil => cases h; rfl
  | cons x l ih =>
    simp only [List.map_cons, execAll] at h
    obtain ⟨s1, h1, h2⟩ := Option.bind_eq_some_iff.1 h
    rw [ih (fun y hy => hl y (by simp [hy])) h2, exec_pk (hl x (by simp)).1 (hl x (by simp)).2 h1]

theorem pkE_kind {m : Str} {t1 t2 : Table} {x : Diff} (h : x ∈ pkE m t1 t2) : x.kind = 1 := by
  unfold pkE at h
  split at h
  · cases h
  · rcases List.mem_append.1 h with h | h
    · split at h
      · cases h
      · simp only [List.mem_singleton] at h; subst h; rfl
    · split at h
      · cases h
      · simp only [List.mem_singleton] at h; subst h; rfl

/-- The part of a table's entries after the primary key. -/
theorem tableE_rest (rep : FK → FK → Bool) (same : Bool) (m : Str) (t1 t2 : Table) :
    ∃ rest, tableE rep same m t1 t2 = pkE m t1 t2 ++ rest ∧ ∀ x ∈ rest, x.kind ≠ 0 ∧ x.kind ≠ 1 := by
  refine ⟨shardE same m t1 t2 ++ ((allNames t1.fks t2.fks).flatMap (fkE rep m t1 t2) ++
    ((allNames t1.rels t2.rels).flatMap (relE m t1 t2) ++ (allNames t1.cols t2.cols).flatMap (colE m t1 t2))), by unfold tableE; simp only [List.append_assoc], ?_⟩
  intro x h
  have reg : ∀ {α : Type} (d1 d2 : Dict α) (f g : α → List Diff) (c : α → α → List Diff) (k : Str), x ∈ regE d1 d2 f g c k →
      (∀ v, ∀ y ∈ f v, y.kind ≠ 0 ∧ y.kind ≠ 1) → (∀ v, ∀ y ∈ g v, y.kind ≠ 0 ∧ y.kind ≠ 1) →
      (∀ v w, ∀ y ∈ c v w, y.kind ≠ 0 ∧ y.kind ≠ 1) → x.kind ≠ 0 ∧ x.kind ≠ 1 := by
    intro α d1 d2 f g c k h hf hg hc
    unfold regE at h
    cases e1 : d1.get? k <;> cases e2 : d2.get? k <;> rw [e1, e2] at h
    · cases h
    · exact hg _ _ h
    · exact hf _ _ h
    · exact hc _ _ _ h
  simp only [List.mem_append, List.mem_flatMap] at h
  rcases h with h | ⟨k, -, h⟩ | ⟨k, -, h⟩ | ⟨k, -, h⟩
  · unfold shardE at h
    split at h
    · cases h
    · simp only [List.mem_singleton] at h; subst h; simp [Diff.kind]
    · simp only [List.mem_singleton] at h; subst h; simp [Diff.kind]
    · split at h
      · cases h
      · simp only [List.mem_singleton] at h; subst h; simp [Diff.kind]
  · refine reg _ _ _ _ _ _ h (by simp [Diff.kind]) (by simp [Diff.kind]) ?_
    intro v w y hy
    split at hy
    · simp only [List.mem_cons, List.not_mem_nil, or_false] at hy
      rcases hy with rfl | rfl <;> simp [Diff.kind]
    · cases hy
  · refine reg _ _ _ _ _ _ h (by simp [Diff.kind]) (by simp [Diff.kind]) ?_
    intro v w y hy
    split at hy
    · cases hy
    · simp only [List.mem_cons, List.not_mem_nil, or_false] at hy
      rcases hy with rfl | rfl <;> simp [Diff.kind]
  · refine reg _ _ _ _ _ _ h (by simp [Diff.kind]) (by simp [Diff.kind]) ?_
    intro v w y hy
    split at hy
    · cases hy
    · simp only [List.mem_singleton] at hy
      subst hy; simp [Diff.kind]

theorem split_tail {α : Type} {p r a b : List α} {x : α} (h : p ++ r = a ++ x :: b) (hx : x ∉ p) : ∃ a', a = p ++ a' ∧ r = a' ++ x :: b := by
  rcases List.append_eq_append_iff.1 h with ⟨a', h1, h2⟩ | ⟨c, h1, h2⟩
  · exact ⟨a', h1, h2⟩
  · cases c with
    | nil => exact ⟨[], by simpa using h1.symm, by simpa using h2.symm⟩
    | cons y c =>
      simp only [List.cons_append, List.cons.injEq] at h2
      obtain ⟨rfl, -⟩ := h2
      exact absurd (by rw [h1]; simp) hx

/-- The table an entry is about has its new primary key already, when the entry is not about the primary key. -/
theorem own_pk {rep : FK → FK → Bool} {shared : Str → Bool} {db1 db2 : Database} (h1 : WellKeyed db1) (h2 : WellKeyed db2)
    (hd : ∀ n t1 t2, db1.tables.get? n = some t1 → db2.tables.get? n = some t2 → Detected rep (shared n) t1 t2)
    (hnew : ∀ n t2, db1.tables.get? n = none → db2.tables.get? n = some t2 → t2.fks = [] ∧ t2.rels = [])
    (l : List Str) (hl : l.Nodup) (sv : Server) (hsv : sv.cat = catOf db1)
    (hsch : ∀ n t2, db1.tables.get? n = none → db2.tables.get? n = some t2 → t2.schema = defaultSchema ∨ t2.schema ∈ sv.schemas)
    {a b : List Diff} {x : Diff} (he : l.flatMap (dbE rep shared db1 db2) = a ++ x :: b) (hk0 : x.kind ≠ 0) (hk1 : x.kind ≠ 1)
    {sv' : Server} (hex : execAll sv (a.map stmtOf) = some sv') :
    ∃ t1 t2, db1.tables.get? x.table.name = some t1 ∧ db2.tables.get? x.table.name = some t2 ∧
      (sv'.cat t1.schema x.table.name).map (·.pk) = some t2.pk := by
  obtain ⟨pre, n, post, a', b', rfl, hx, rfl⟩ := flatMap_split he
  have hpre : pre.Nodup := (List.nodup_append.1 hl).1
  have hnp : n ∉ pre := fun h => (List.nodup_append.1 hl).2.2 n h n (by simp) rfl
  obtain ⟨s1, r1, c1, c2, -⟩ := db_phase h1 h2 hd hnew pre hpre sv (fun n _ s => by rw [hsv]) hsch
  have hname : x.table.name = n := dbE_name h1 h2 (rep := rep) (shared := shared) (by rw [hx]; simp)
  rw [List.map_append, execAll_append, r1.execAll, Option.bind_some] at hex
  rw [hname]
  unfold dbE regE at hx
  cases hu : db1.tables.get? n with
  | none =>
    cases hv : db2.tables.get? n with
    | none => rw [hu, hv] at hx; simp at hx
    | some t2 =>
      rw [hu, hv] at hx
      simp only at hx
      have : x ∈ [Diff.tableCreated db1.name t2] := by rw [hx]; simp
      simp only [List.mem_singleton] at this
      subst this; simp [Diff.kind] at hk0
  | some t1 =>
    cases hv : db2.tables.get? n with
    | none =>
      rw [hu, hv] at hx
      simp only at hx
      have : x ∈ [Diff.tableDropped db1.name t1] := by rw [hx]; simp
      simp only [List.mem_singleton] at this
      subst this; simp [Diff.kind] at hk0
    | some t2 =>
      rw [hu, hv] at hx
      refine ⟨t1, t2, rfl, rfl, ?_⟩
      have hn1 : t1.name = n := name_of_get? h1 hu
      simp only at hx
      obtain ⟨rest, hr, hkr⟩ := tableE_rest rep (shared n) db1.name t1 t2
      rw [hr] at hx
      obtain ⟨a'', rfl, hrest⟩ := split_tail hx (fun h => hk1 (pkE_kind h))
      have hcat : s1.cat t1.schema t1.name = some (ctable t1) := by rw [hn1, c2 n hnp, hsv, catOf_eq, hu]; simp
      obtain ⟨s2, r2, e2, -⟩ := (pk_phase (m := db1.name) (t2 := t2) (T := ctable t1) rfl rfl).runs s1 hcat
      rw [List.map_append, execAll_append, r2.execAll, Option.bind_some] at hex
      rw [execAll_pk (fun y hy => hkr y (by rw [hrest]; simp [hy])) hex, ← hn1, e2]
      rfl

theorem accepts_iff {sv sv' : Server} {l : List Stmt} (h : execAll sv l = some sv') :
    (∃ sv', Accepts sv l sv') ↔ ∀ a st b, l = a ++ st :: b → ∃ s, execAll sv a = some s ∧ RefsOk s st := by
  induction l generalizing sv with
  | nil => exact ⟨fun _ a st b h => by simp at h, fun _ => ⟨sv, .nil _⟩⟩
  | cons x l ih =>
    simp only [execAll] at h
    obtain ⟨s1, h1, h2⟩ := Option.bind_eq_some_iff.1 h
    have := ih h2
    constructor
    · rintro ⟨s', hs'⟩ a st b e
      cases hs' with
      | cons _ s1' _ _ _ hok hex hr =>
        rw [h1] at hex; cases hex
        cases a with
        | nil => simp only [List.nil_append, List.cons.injEq] at e; obtain ⟨rfl, -⟩ := e; exact ⟨sv, rfl, hok⟩
        | cons y a =>
          simp only [List.cons_append, List.cons.injEq] at e
          obtain ⟨rfl, e⟩ := e
          obtain ⟨s, hs, ho⟩ := this.1 ⟨_, hr⟩ a st b e
          exact ⟨s, by simp only [execAll, h1, Option.bind_some, hs], ho⟩
    · intro hall
      obtain ⟨s, hs, ho⟩ := hall [] x l rfl
      cases hs
      obtain ⟨s', hs'⟩ := this.2 (by
        rintro a st b rfl
        obtain ⟨s, hs, ho⟩ := hall (x :: a) st b rfl
        simp only [execAll, h1, Option.bind_some] at hs
        exact ⟨s, hs, ho⟩)
      exact ⟨s', .cons _ _ _ _ _ ho h1 hs'⟩

end Verif
