import Verif.Props.Review
/-
C52: the exact condition under which the review of the joins ends with a report.
-/

namespace Verif.Props
open Verif Verif.Spec

/-- Every foreign key and relationship can be asked about: its target exists, both tables have a primary key or columns, and a foreign key names at least as many to-columns as from-columns. -/
def Askable (db : Database) : Prop :=
  ∀ n t, TableOf db n t →
    (∀ m k, (m, k) ∈ t.fks → (t.pk ≠ [] ∨ t.cols ≠ []) ∧ k.fromKeys.length ≤ k.toKeys.length ∧ ∃ u, TableOf db k.toTable u ∧ (u.pk ≠ [] ∨ u.cols ≠ [])) ∧
    (∀ m r, (m, r) ∈ t.rels → (t.pk ≠ [] ∨ t.cols ≠ []) ∧ ∃ u, TableOf db r.toTable u ∧ (u.pk ≠ [] ∨ u.cols ≠ []))

theorem keyCols_ne {t : Table} : keyCols t ≠ [] ↔ t.pk ≠ [] ∨ t.cols ≠ [] := by
  unfold keyCols
  by_cases hp : t.pk = []
  · simp [hp, Dict.keys]
  · simp [hp]

theorem mapM_all {α β : Type} {f : α → Except PyErr β} {l : List α} {bs : List β} (h : l.mapM f = .ok bs) : ∀ a ∈ l, ∃ b ∈ bs, f a = .ok b := by
  induction l generalizing bs with
  | nil => simp
  | cons a l ih =>
    rw [List.mapM_cons] at h
    obtain ⟨b, h1, h2⟩ := (bind_ok_iff _ _ _).1 h
    obtain ⟨cs, h3, h4⟩ := (bind_ok_iff _ _ _).1 h2
    cases h4
    intro x hx
    rcases List.mem_cons.1 hx with rfl | hx
    · exact ⟨b, by simp, h1⟩
    · obtain ⟨c, hc, e⟩ := ih h3 x hx
      exact ⟨c, by simp [hc], e⟩

theorem runJoins_needs {srv : QueryServer} {ps : List QueryParts} {asked : List Str} {r : List Str × List Str} (h : runJoins srv asked ps = .ok r) :
    ∀ p ∈ ps, p.fromCols ≠ [] ∧ p.toCols ≠ [] := by
  induction ps generalizing asked r with
  | nil => simp
  | cons p ps ih =>
    unfold runJoins at h
    obtain ⟨q1, h1, h⟩ := (bind_ok_iff _ _ _).1 h
    obtain ⟨q2, h2, h⟩ := (bind_ok_iff _ _ _).1 h
    obtain ⟨r', h3, -⟩ := (bind_ok_iff _ _ _).1 h
    intro x hx
    rcases List.mem_cons.1 hx with rfl | hx
    · constructor
      · intro e; simp [fromQuery, e] at h2
      · intro e; simp [toQuery, e] at h1
    · exact ih h3 x hx

theorem joinTables_needs {srv : QueryServer} {db : Database} {ts : List Table} {asked : List Str} {r : List Str × List Str} (h : joinTables srv db asked ts = .ok r) :
    ∀ t ∈ ts, ∃ ps, joinsOf db t = .ok ps ∧ ∀ p ∈ ps, p.fromCols ≠ [] ∧ p.toCols ≠ [] := by
  induction ts generalizing asked r with
  | nil => simp
  | cons t ts ih =>
    unfold joinTables at h
    obtain ⟨ps, h1, h⟩ := (bind_ok_iff _ _ _).1 h
    obtain ⟨r1, h2, h⟩ := (bind_ok_iff _ _ _).1 h
    obtain ⟨r2, h3, -⟩ := (bind_ok_iff _ _ _).1 h
    intro x hx
    rcases List.mem_cons.1 hx with rfl | hx
    · exact ⟨ps, h1, runJoins_needs h2⟩
    · exact ih h3 x hx

theorem condition_needs {t u : Table} {k : FK} {s : Str} (h : fkCondition t u k = .ok s) : k.fromKeys.length ≤ k.toKeys.length := by
  have all : ∀ (l : List Nat) (acc s : Str), l.foldlM (fun acc i => do
      let e ← fkEquation t u k i
      .ok (acc ++ (if i > 0 then c!" AND " else []) ++ e)) acc = .ok s → ∀ i ∈ l, ∃ e, fkEquation t u k i = .ok e := by
    intro l
    induction l with
    | nil => simp
    | cons i l ih =>
      intro acc s h
      rw [List.foldlM_cons] at h
      obtain ⟨a, h1, h2⟩ := (bind_ok_iff _ _ _).1 h
      obtain ⟨e, h3, -⟩ := (bind_ok_iff _ _ _).1 h1
      intro x hx
      rcases List.mem_cons.1 hx with rfl | hx
      · exact ⟨e, h3⟩
      · exact ih _ _ h2 x hx
  have hk := all _ _ _ h
  by_contra hlt
  obtain ⟨e, he⟩ := hk k.toKeys.length (List.mem_range.2 (by omega))
  unfold fkEquation at he
  rw [List.getElem?_eq_none (Nat.le_refl k.toKeys.length)] at he
  split at he
  · rename_i a b h1 h2; cases h2
  · cases he

/-- C52: the review of the joins ends with a report exactly if all joins can be asked about; then it asks for every foreign key and relationship, in order, its two questions and
reports exactly the verdicts. -/
theorem C52_exactly (srv : QueryServer) (db : Database) (hk : WellKeyed db) :
    ((∃ issues, reviewTableJoins srv db = .ok issues) ↔ Askable db) ∧
    ∀ issues, reviewTableJoins srv db = .ok issues → ∃ joins : List (List Join), List.Forall₂ (TableJoins db) (db.tables.map Prod.snd) joins ∧
      JoinReport db.name srv [] joins.flatten issues := by
  have fwd : (∃ issues, reviewTableJoins srv db = .ok issues) → Askable db := by
    rintro ⟨issues, h⟩ n t ht
    unfold reviewTableJoins at h
    obtain ⟨r, h1, -⟩ := (bind_ok_iff _ _ _).1 h
    obtain ⟨ps, h2, h3⟩ := joinTables_needs h1 t (List.mem_map.2 ⟨_, ht, rfl⟩)
    unfold joinsOf at h2
    obtain ⟨a, ha, h2⟩ := (bind_ok_iff _ _ _).1 h2
    obtain ⟨b, hb, h2⟩ := (bind_ok_iff _ _ _).1 h2
    cases h2
    constructor
    · intro m k hkm
      obtain ⟨p, hp, e⟩ := mapM_all ha k (List.mem_map.2 ⟨_, hkm, rfl⟩)
      obtain ⟨n1, n2⟩ := h3 p (List.mem_append_left _ hp)
      unfold fkJoinParts at e
      cases g : db.getTable k.toTable with
      | none => rw [g] at e; cases e
      | some u =>
        rw [g] at e
        obtain ⟨cond, hc, e⟩ := (bind_ok_iff _ _ _).1 e
        cases e
        exact ⟨keyCols_ne.1 n1, condition_needs hc, u, (tableOf_iff hk).2 g, keyCols_ne.1 n2⟩
    · intro m k hkm
      obtain ⟨p, hp, e⟩ := mapM_all hb k (List.mem_map.2 ⟨_, hkm, rfl⟩)
      obtain ⟨n1, n2⟩ := h3 p (List.mem_append_right _ hp)
      unfold relJoinParts at e
      cases g : db.getTable k.toTable with
      | none => rw [g] at e; cases e
      | some u =>
        rw [g] at e
        cases e
        exact ⟨keyCols_ne.1 n1, u, (tableOf_iff hk).2 g, keyCols_ne.1 n2⟩
  have bwd : Askable db → ∃ (joins : List (List Join)) (issues : List Str), List.Forall₂ (TableJoins db) (db.tables.map Prod.snd) joins ∧
      JoinReport db.name srv [] joins.flatten issues ∧ reviewTableJoins srv db = .ok issues := by
    intro ha
    have hd : ¬ Dangling db := by
      rintro ⟨a, b, ⟨t, ht, h⟩, hn⟩
      rcases h with ⟨m, k, hkm, rfl⟩ | ⟨m, k, hkm, rfl⟩
      · obtain ⟨-, -, u, hu, -⟩ := (ha a t ht).1 m k hkm
        exact hn ⟨u, hu⟩
      · obtain ⟨-, u, hu, -⟩ := (ha a t ht).2 m k hkm
        exact hn ⟨u, hu⟩
    obtain ⟨pss, joins, f1, f2, f3⟩ := forall₂_of_forall (P := fun t ps => joinsOf db t = .ok ps) (Q := TableJoins db)
      (S := List.Forall₂ (PartsOf db.name)) (l := db.tables.map Prod.snd) (by
        intro t ht
        obtain ⟨⟨n, t⟩, hq, rfl⟩ := List.mem_map.1 ht
        exact joinsOf_spec hk hd (fun p hp q hq => ((ha p.1 p.2 hp).1 q.1 q.2 hq).2.1) n t hq)
    have hne : ∀ j ∈ joins.flatten, keyCols j.source ≠ [] ∧ keyCols j.target ≠ [] := by
      intro j hj
      obtain ⟨js, hjs, hj⟩ := List.mem_flatten.1 hj
      obtain ⟨t, ht, hT⟩ := forall₂_exists_of_mem_right f2 js hjs
      obtain ⟨⟨n, t⟩, hq, rfl⟩ := List.mem_map.1 ht
      have uniq : ∀ {x : Str} {u v : Table}, TableOf db x u → TableOf db x v → u = v := by
        intro x u v hu hv
        have a := (tableOf_iff hk).1 hu
        rw [(tableOf_iff hk).1 hv] at a
        exact (Option.some.inj a).symm
      cases hT with
      | mk a b ha' hb' =>
        rcases List.mem_append.1 hj with hj | hj
        · obtain ⟨k, hkm, hJ⟩ := forall₂_exists_of_mem_right ha' j hj
          obtain ⟨⟨m, k⟩, hkm', rfl⟩ := List.mem_map.1 hkm
          obtain ⟨h1, -, v, hv, h2⟩ := (ha n t hq).1 m k hkm'
          cases hJ with
          | mk u cond hu _ => exact ⟨keyCols_ne.2 h1, keyCols_ne.2 (uniq hu hv ▸ h2)⟩
        · obtain ⟨k, hkm, hJ⟩ := forall₂_exists_of_mem_right hb' j hj
          obtain ⟨⟨m, k⟩, hkm', rfl⟩ := List.mem_map.1 hkm
          obtain ⟨h1, v, hv, h2⟩ := (ha n t hq).2 m k hkm'
          cases hJ with
          | mk u hu => exact ⟨keyCols_ne.2 h1, keyCols_ne.2 (uniq hu hv ▸ h2)⟩
    obtain ⟨asked', issues, e, hrep⟩ := runJoins_spec srv joins.flatten pss.flatten (forall₂_flatten f3) hne []
    refine ⟨joins, issues, f2, hrep, ?_⟩
    unfold reviewTableJoins Database.iter Dict.vals
    rw [joinTables_eq srv db _ pss f1 [] asked' issues e]
    rfl
  refine ⟨⟨fwd, fun ha => ?_⟩, fun issues h => ?_⟩
  · obtain ⟨-, issues, -, -, h⟩ := bwd ha
    exact ⟨issues, h⟩
  · obtain ⟨joins, issues', h1, h2, h3⟩ := bwd (fwd ⟨issues, h⟩)
    rw [h] at h3
    cases h3
    exact ⟨joins, h1, h2⟩

/-- A table without columns and keys that takes part in no join does no harm. -/
example : WellKeyed { joinDb with tables := joinDb.tables ++ [(c!"z", ⟨c!"z", c!"s", [], none, [], [], []⟩)] } ∧
    reviewTableJoins sampleServer { joinDb with tables := joinDb.tables ++ [(c!"z", ⟨c!"z", c!"s", [], none, [], [], []⟩)] } = .ok [c!"k is a 1:M join.", c!"r is a M:M join."] := by
  decide +kernel

end Verif.Props
