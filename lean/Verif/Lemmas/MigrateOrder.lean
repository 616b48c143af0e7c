import Verif.Lemmas.Alter
import Verif.Spec.MigrateOrder
/-
The state of the other tables while the difference list is executed.
-/

namespace Verif
open Verif.Spec

theorem earlier_iff {a b : Str} : Earlier a b ↔ Lt a b := by
  unfold Earlier
  induction a generalizing b with
  | nil => cases b <;> simp [Lt, strLt, strLe]
  | cons c a ih =>
    cases b with
    | nil => simp [Lt, strLt, strLe]
    | cons d b =>
      rw [List.map_cons, List.map_cons, List.cons_lt_cons_iff, ih]
      simp only [Lt, strLt, strLe]
      by_cases h1 : c.toNat < d.toNat
      · have h2 : ¬ d.toNat < c.toNat := by omega
        simp [h1, h2]
      · by_cases h2 : d.toNat < c.toNat
        · have h3 : c.toNat ≠ d.toNat := by omega
          simp [h1, h2, h3]
        · have h3 : c.toNat = d.toNat := by omega
          simp [h3]

theorem flatMap_split {α β : Type} {f : α → List β} {l : List α} {a b : List β} {x : β} (h : l.flatMap f = a ++ x :: b) :
    ∃ pre n post a' b', l = pre ++ n :: post ∧ f n = a' ++ x :: b' ∧ a = pre.flatMap f ++ a' := by
  induction l generalizing a with
  | nil => simp at h
  | cons n l ih =>
    rw [List.flatMap_cons] at h
    rcases List.append_eq_append_iff.1 h with ⟨a', h1, h2⟩ | ⟨c, h1, h2⟩
    · obtain ⟨pre, m, post, a'', b', e1, e2, e3⟩ := ih h2
      exact ⟨n :: pre, m, post, a'', b', by simp [e1], e2, by rw [h1, e3, List.flatMap_cons, List.append_assoc]⟩
    · cases c with
      | nil =>
        obtain ⟨pre, m, post, a'', b', e1, e2, e3⟩ := ih (a := []) (by simpa using h2.symm)
        refine ⟨n :: pre, m, post, a'', b', by simp [e1], e2, ?_⟩
        rw [List.flatMap_cons, List.append_assoc, ← e3, h1]; simp
      | cons y c =>
        simp only [List.cons_append, List.cons.injEq] at h2
        obtain ⟨rfl, h2⟩ := h2
        exact ⟨[], n, l, a, c, rfl, h1, by simp⟩

theorem exec_other {sv sv' : Server} {x : Diff} (h : exec sv (stmtOf x) = some sv') {m : Str} (hm : m ≠ x.table.name) (s : Str) : sv'.cat s m = sv.cat s m := by
  cases x <;> simp only [stmtOf, exec, Diff.table] at h hm
  case tableCreated =>
    split at h
    · cases h
    · cases h; rw [put_cat, if_neg (fun e => hm e.2)]
  case tableDropped => cases h; rw [put_cat, if_neg (fun e => hm e.2)]
  all_goals
    split at h
    · cases h
    · obtain ⟨T, -, rfl⟩ := Option.map_eq_some_iff.1 h
      rw [put_cat, if_neg (fun e => hm e.2)]

theorem execAll_other {l : List Diff} {n : Str} (hl : ∀ x ∈ l, x.table.name = n) {sv sv' : Server} (h : execAll sv (l.map stmtOf) = some sv') {m : Str} (hm : m ≠ n) (s : Str) :
    sv'.cat s m = sv.cat s m := by
  induction l generalizing sv with
  | nil => cases h; rfl
  | cons x l ih =>
    simp only [List.map_cons, execAll] at h
    obtain ⟨s1, h1, h2⟩ := Option.bind_eq_some_iff.1 h
    rw [ih (fun y hy => hl y (by simp [hy])) h2, exec_other h1 (by rw [hl x (by simp)]; exact hm)]

theorem dbE_name {rep : FK → FK → Bool} {shared : Str → Bool} {db1 db2 : Database} (h1 : WellKeyed db1) (h2 : WellKeyed db2) {n : Str} {x : Diff}
    (hx : x ∈ dbE rep shared db1 db2 n) : x.table.name = n := by
  have tab : ∀ m t1 t2 same, x ∈ tableE rep same m t1 t2 → x.table = t1 := by
    intro m t1 t2 same h
    have reg : ∀ {α : Type} (d1 d2 : Dict α) (f g : α → List Diff) (c : α → α → List Diff) (k : Str), x ∈ regE d1 d2 f g c k →
        (∀ v, ∀ y ∈ f v, y.table = t1) → (∀ v, ∀ y ∈ g v, y.table = t1) → (∀ v w, ∀ y ∈ c v w, y.table = t1) → x.table = t1 := by
      intro α d1 d2 f g c k h hf hg hc
      unfold regE at h
      cases e1 : d1.get? k <;> cases e2 : d2.get? k <;> rw [e1, e2] at h
      · cases h
      · exact hg _ _ h
      · exact hf _ _ h
      · exact hc _ _ _ h
    simp only [tableE, List.mem_append, List.mem_flatMap] at h
    rcases h with (((h | h) | ⟨k, -, h⟩) | ⟨k, -, h⟩) | ⟨k, -, h⟩
    · unfold pkE at h
      split at h
      · cases h
      · rcases List.mem_append.1 h with h | h
        · split at h
          · cases h
          · simp only [List.mem_singleton] at h; subst h; rfl
        · split at h
          · cases h
          · simp only [List.mem_singleton] at h; subst h; rfl
    · unfold shardE at h
      split at h
      · cases h
      · simp only [List.mem_singleton] at h; subst h; rfl
      · simp only [List.mem_singleton] at h; subst h; rfl
      · split at h
        · cases h
        · simp only [List.mem_singleton] at h; subst h; rfl
    · refine reg _ _ _ _ _ _ h (by simp [Diff.table]) (by simp [Diff.table]) ?_
      intro v w y hy
      split at hy
      · simp only [List.mem_cons, List.not_mem_nil, or_false] at hy
        rcases hy with rfl | rfl <;> rfl
      · cases hy
    · refine reg _ _ _ _ _ _ h (by simp [Diff.table]) (by simp [Diff.table]) ?_
      intro v w y hy
      split at hy
      · cases hy
      · simp only [List.mem_cons, List.not_mem_nil, or_false] at hy
        rcases hy with rfl | rfl <;> rfl
    · refine reg _ _ _ _ _ _ h (by simp [Diff.table]) (by simp [Diff.table]) ?_
      intro v w y hy
      split at hy
      · cases hy
      · simp only [List.mem_singleton] at hy
        subst hy; rfl
  unfold dbE regE at hx
  cases hu : db1.tables.get? n <;> cases hv : db2.tables.get? n <;> rw [hu, hv] at hx <;> simp only at hx
  · cases hx
  · simp only [List.mem_singleton] at hx
    subst hx
    exact name_of_get? h2 hv
  · simp only [List.mem_singleton] at hx
    subst hx
    exact name_of_get? h1 hu
  · rw [tab _ _ _ _ hx]
    exact name_of_get? h1 hu

/-- Before an entry is executed, the tables with earlier names are as in the second database and those with later names as in the first. -/
theorem others {rep : FK → FK → Bool} {shared : Str → Bool} {db1 db2 : Database} (h1 : WellKeyed db1) (h2 : WellKeyed db2)
    (hd : ∀ n t1 t2, db1.tables.get? n = some t1 → db2.tables.get? n = some t2 → Detected rep (shared n) t1 t2)
    (hnew : ∀ n t2, db1.tables.get? n = none → db2.tables.get? n = some t2 → t2.fks = [] ∧ t2.rels = [])
    (l : List Str) (hl : Incr l) (hall : ∀ n, n ∉ l → db1.tables.get? n = none ∧ db2.tables.get? n = none) (sv : Server) (hsv : sv.cat = catOf db1)
    (hsch : ∀ n t2, db1.tables.get? n = none → db2.tables.get? n = some t2 → t2.schema = defaultSchema ∨ t2.schema ∈ sv.schemas)
    {a b : List Diff} {x : Diff} (he : l.flatMap (dbE rep shared db1 db2) = a ++ x :: b) :
    ∃ sv', execAll sv (a.map stmtOf) = some sv' ∧ OldColumns sv' x ∧ (∀ m s, Earlier m x.table.name → OptSame (sv'.cat s m) (catOf db2 s m)) ∧
      ∀ m s, Earlier x.table.name m → sv'.cat s m = catOf db1 s m := by
  obtain ⟨pre, n, post, a', b', rfl, hx, rfl⟩ := flatMap_split he
  obtain ⟨_, r, -⟩ := db_phase h1 h2 hd hnew (pre ++ n :: post) hl.nodup sv (fun n _ s => by rw [hsv]) hsch
  obtain ⟨s, hs, hold⟩ := r.prefix he
  have hpre : pre.Nodup := (List.nodup_append.1 hl.nodup).1
  obtain ⟨s1, r1, c1, c2, -⟩ := db_phase h1 h2 hd hnew pre hpre sv (fun n _ s => by rw [hsv]) hsch
  have hname : x.table.name = n := dbE_name h1 h2 (rep := rep) (shared := shared) (by rw [hx]; simp)
  have hsplit := hs
  rw [List.map_append] at hsplit
  have happ : execAll sv (((pre.flatMap (dbE rep shared db1 db2)).map stmtOf) ++ a'.map stmtOf) = (execAll sv ((pre.flatMap (dbE rep shared db1 db2)).map stmtOf)).bind (fun t => execAll t (a'.map stmtOf)) := by
    generalize (pre.flatMap (dbE rep shared db1 db2)).map stmtOf = u
    generalize a'.map stmtOf = v
    clear * -
    induction u generalizing sv with
    | nil => rfl
    | cons y u ih =>
      simp only [List.cons_append, execAll]
      cases exec sv y with
      | none => rfl
      | some t => exact ih t
  rw [happ, r1.execAll, Option.bind_some] at hsplit
  have hother : ∀ m, m ≠ n → ∀ q, s.cat q m = s1.cat q m := fun m hm q =>
    execAll_other (fun y hy => dbE_name h1 h2 (rep := rep) (shared := shared) (by rw [hx]; simp [hy])) hsplit hm q
  have hsorted := List.pairwise_append.1 hl
  refine ⟨s, hs, hold, ?_, ?_⟩
  · intro m q hm
    rw [hname, earlier_iff] at hm
    have hne := (lt_iff.1 hm).2
    rw [hother m hne]
    by_cases hmem : m ∈ pre
    · exact c1 m hmem q
    · rw [c2 m hmem, hsv]
      have hnot : m ∉ pre ++ n :: post := by
        intro h
        rcases List.mem_append.1 h with h | h
        · exact hmem h
        · rcases List.mem_cons.1 h with h | h
          · exact hne h
          · have := (List.pairwise_cons.1 hsorted.2.1).1 m h
            exact (lt_iff.1 this).2 (strLe_antisymm (lt_iff.1 this).1 (lt_iff.1 hm).1)
      obtain ⟨e1, e2⟩ := hall m hnot
      rw [catOf_eq, catOf_eq, e1, e2]
      trivial
  · intro m q hm
    rw [hname, earlier_iff] at hm
    have hne := (lt_iff.1 hm).2
    rw [hother m (Ne.symm hne)]
    have hmem : m ∉ pre := by
      intro h
      have := hsorted.2.2 m h n (by simp)
      exact hne (strLe_antisymm (lt_iff.1 hm).1 (lt_iff.1 this).1)
    rw [c2 m hmem, hsv]

end Verif
