import Verif.Lemmas.ExcelRows
import Mathlib.Data.List.Forall2
/-
What comes back from a workbook (C38).
-/

namespace Verif
open Spec

/-- A database without tables is not read. -/
theorem readXls_held_nil {other : PyCell → XCell} {db : Database} (h : db.tables = []) : readXls (saved other (writeXls db)) = .ok [] := by
  rw [readXls_shaped (shaped_written other db), saved_shape]
  have : db.iter = [] := by simp [Database.iter, h, Dict.vals]
  rw [this]
  rfl

theorem throughShard_back (k : Option ShardKey) : ShardBack k (throughShard k) := by
  cases k with
  | none => rfl
  | some k =>
    obtain ⟨ks, nb⟩ := k
    simp only [ShardBack, throughShard]
    by_cases h : ks = []
    · simp [h]
    · cases nb with
      | int n => by_cases h0 : n = 0 <;> simp [h, h0, NoCount, backCount]
      | flt n => by_cases h0 : n = 0 <;> simp [h, h0, NoCount, backCount]
      | text n => by_cases h0 : n = [] <;> simp [h, h0, NoCount, backCount]

theorem throughFK_back {k : FK} (hl : k.fromKeys.length = k.toKeys.length) : FKBack k (throughFK k) := by
  refine ⟨rfl, rfl, rfl, ?_⟩
  by_cases h : k.fromKeys = []
  · have ht : k.toKeys = [] := by rw [h] at hl; exact List.length_eq_zero_iff.1 hl.symm
    exact .inl ⟨h, by simp [throughFK, throughKeys, h], by simp [throughFK, throughKeys, ht]⟩
  · have ht : k.toKeys ≠ [] := by intro e; rw [e] at hl; exact h (List.length_eq_zero_iff.1 hl)
    exact .inr ⟨h, by simp [throughFK, throughKeys, h], by simp [throughFK, throughKeys, ht]⟩

theorem throughFK_same_iff {k : FK} (hl : k.fromKeys.length = k.toKeys.length) : throughFK k = k ↔ k.fromKeys ≠ [] := by
  constructor
  · intro h e
    have := congrArg FK.fromKeys h
    simp [throughFK, throughKeys, e] at this
  · intro h
    have ht : k.toKeys ≠ [] := by intro e; rw [e] at hl; exact h (List.length_eq_zero_iff.1 hl)
    simp [throughFK, throughKeys, h, ht]

/-- A table comes back unharmed iff nothing about it gets lost. -/
theorem through_back_iff {db : Database} (h : HoldDb db) {n : Str} {t : Table} (hm : (n, t) ∈ db.tables) : through t = backTable t ↔ Keeps t := by
  have hb := throughShard_back t.shard
  constructor
  · intro e
    refine ⟨?_, ?_, ?_⟩
    · intro k hk
      have e1 : throughShard t.shard = t.shard.map (fun k => { k with number := backCount k.number }) := congrArg Table.shard e
      rw [e1, hk] at hb
      rcases hb with ⟨_, hb⟩ | ⟨h1, h2, _⟩
      · cases hb
      · exact ⟨h1, h2⟩
    · intro m k hk
      have e1 : t.fks.map (fun p => (p.1, throughFK p.2)) = t.fks := congrArg Table.fks e
      have : ∀ p ∈ t.fks, (p.1, throughFK p.2) = p := by
        intro p hp
        have : t.fks.map (fun p => (p.1, throughFK p.2)) = t.fks.map id := by rw [e1, List.map_id]
        exact List.map_inj_left.1 this p hp
      have := congrArg Prod.snd (this _ hk)
      exact (throughFK_same_iff ((h.tables n t hm).fks m k hk).2.2.2.1).1 this
    · intro m r hr
      have e1 : t.rels.vals.foldl (fun e r => Dict.set e (throughRel t.name r).name (throughRel t.name r)) [] = t.rels := congrArg Table.rels e
      have key : ∀ (l : List Rel) (d : Dict Rel), (∀ m r, (m, r) ∈ d → r.name = relName t.name r.toTable) →
          ∀ m r, (m, r) ∈ l.foldl (fun e r => Dict.set e (throughRel t.name r).name (throughRel t.name r)) d → r.name = relName t.name r.toTable := by
        intro l
        induction l with
        | nil => intro d hd; exact hd
        | cons x l ih =>
          intro d hd
          refine ih _ fun m r hmr => ?_
          rcases Dict.mem_set_of hmr with e | e
          · obtain ⟨_, rfl⟩ := Prod.mk.inj e; rfl
          · exact hd _ _ e
      exact key _ [] (by simp) m r (by rw [e1]; exact hr)
  · rintro ⟨k1, k2, k3⟩
    have e1 : throughShard t.shard = t.shard.map (fun k => { k with number := backCount k.number }) := by
      cases hk : t.shard with
      | none => rfl
      | some k =>
        rw [hk] at hb
        rcases hb with ⟨h1, _⟩ | ⟨_, _, h1⟩
        · obtain ⟨h2, h3⟩ := k1 k hk
          rcases h1 with h1 | h1
          · exact absurd h1 h2
          · exact absurd h1 h3
        · exact h1
    have e2 : t.fks.map (fun p => (p.1, throughFK p.2)) = t.fks := by
      have : t.fks.map (fun p => (p.1, throughFK p.2)) = t.fks.map id := List.map_congr_left fun p hp => by
        rw [(throughFK_same_iff ((h.tables n t hm).fks p.1 p.2 hp).2.2.2.1).2 (k2 p.1 p.2 hp)]
        rfl
      rw [this, List.map_id]
    have e3 : t.rels.vals.foldl (fun e r => Dict.set e (throughRel t.name r).name (throughRel t.name r)) [] = t.rels := by
      have hs : ∀ r ∈ t.rels.vals, throughRel t.name r = r := by
        intro r hr
        simp only [Dict.vals, List.mem_map] at hr
        obtain ⟨⟨m, r⟩, hp, rfl⟩ := hr
        have := k3 m r hp
        show { r with name := relName t.name r.toTable } = r
        rw [← this]
      have hr := refill (name := Rel.name) id t.rels [] (fun k v hkv => h.keyed.relNames _ t hm k v hkv) (by
        simpa [Dict.keys] using h.keyed.rels _ t hm)
      have : ∀ (l : List Rel) (e : Dict Rel), (∀ r ∈ l, throughRel t.name r = r) →
          l.foldl (fun e r => Dict.set e (throughRel t.name r).name (throughRel t.name r)) e = l.foldl (fun e r => Dict.set e r.name (id r)) e := by
        intro l
        induction l with
        | nil => intro _ _; rfl
        | cons x l ih =>
          intro e he
          rw [List.foldl_cons, List.foldl_cons, ih _ (fun r hr => he r (by simp [hr])), he x (by simp)]
          rfl
      rw [this _ _ hs, hr]
      simp
    unfold through backTable
    rw [e1, e2, e3]

/-- The relationships that come back. -/
theorem throughRels_back {n : Str} {rs : Dict Rel} (hf : ∀ m r, (m, r) ∈ rs → r.fromTable = n) :
    RelsBack n rs (rs.vals.foldl (fun e r => Dict.set e (throughRel n r).name (throughRel n r)) []) := by
  have hf' : ∀ r ∈ rs.vals, r.fromTable = n := by
    intro r hr
    simp only [Dict.vals, List.mem_map] at hr
    obtain ⟨⟨m, r⟩, hp, rfl⟩ := hr
    exact hf m r hp
  generalize hl : rs.vals = l at hf'
  have names : ∀ (l : List Rel) (d : Dict Rel), (l.foldl (fun e r => Dict.set e (throughRel n r).name (throughRel n r)) d).keys =
      (l.map (fun r => relName n r.toTable)).foldl appendNew d.keys := by
    intro l
    induction l with
    | nil => intro d; rfl
    | cons x l ih =>
      intro d
      rw [List.foldl_cons, ih, List.map_cons, List.foldl_cons]
      congr 1
      simp only [Dict.keys_set, appendNew]
      rfl
  refine ⟨by rw [names, hl]; exact appendNew_fold_nil _, ?_⟩
  rw [hl]
  clear hl hf names
  have key : ∀ l : List Rel, (∀ r ∈ l, r.fromTable = n) → (l.foldl (fun e r => Dict.set e (throughRel n r).name (throughRel n r)) []).keys.Nodup ∧
      ∀ m r, (m, r) ∈ l.foldl (fun e r => Dict.set e (throughRel n r).name (throughRel n r)) [] → m = r.name ∧ r.fromTable = n ∧
        r.name = relName n r.toTable ∧ ∃ pre x post, l = pre ++ x :: post ∧ x.toTable = r.toTable ∧ x.conditions = r.conditions ∧
        ∀ y ∈ post, y.toTable ≠ r.toTable := by
    intro l
    induction l using snocInd with
    | nil => intro _; exact ⟨by simp, by simp⟩
    | append_singleton l x ih =>
      intro hl
      obtain ⟨i1, i2⟩ := ih fun r hr => hl r (by simp [hr])
      rw [List.foldl_append, List.foldl_cons, List.foldl_nil]
      refine ⟨Dict.nodup_set i1 _ _, fun m r hr => ?_⟩
      rcases (Dict.mem_set i1).1 hr with e | ⟨e1, e2⟩
      · obtain ⟨rfl, rfl⟩ := Prod.mk.inj e
        exact ⟨rfl, hl x (by simp), rfl, l, x, [], rfl, rfl, rfl, by simp⟩
      · obtain ⟨a1, a2, a3, pre, y, post, rfl, a4, a5, a6⟩ := i2 m r e2
        refine ⟨a1, a2, a3, pre, y, post ++ [x], by simp, a4, a5, ?_⟩
        intro z hz
        simp only [List.mem_append, List.mem_singleton] at hz
        rcases hz with hz | rfl
        · exact a6 z hz
        · intro hc
          apply e1
          show m = relName n z.toTable
          rw [a1, a3, hc]
  exact (key l hf').2

/-- What comes back of a table. -/
theorem through_back {t : Table} (h : HoldTable t) : TableBack t (through t) := by
  refine ⟨rfl, rfl, rfl, rfl, throughShard_back _, ?_, throughRels_back fun m r hr => (h.rels m r hr).1⟩
  show List.Forall₂ _ t.fks (t.fks.map (fun p => (p.1, throughFK p.2)))
  rw [List.forall₂_map_right_iff, List.forall₂_same]
  exact fun p hp => ⟨rfl, throughFK_back (h.fks p.1 p.2 hp).2.2.2.1⟩

theorem Spec.CellTable.hold {t : Table} (h : CellTable t) : HoldTable t where
  name := h.name
  schema := h.schema
  pk := h.pk
  shard := by
    intro k hk
    obtain ⟨_, h1, h2⟩ := h.shard k hk
    refine ⟨h1, ?_⟩
    cases hn : k.number with
    | int n => rw [hn] at h2; exact h2.2
    | flt q => trivial
    | text s => rw [hn] at h2; exact h2.2
  cols := h.cols
  fks := fun n k hk => by
    obtain ⟨a1, a2, a3, _, a4⟩ := h.fks n k hk
    exact ⟨a1, a2, a3, a4⟩
  rels := fun n r hr => (h.rels n r hr).2.2

theorem Spec.CellTable.keeps {t : Table} (h : CellTable t) : Keeps t where
  shard := by
    intro k hk
    obtain ⟨h0, _, h2⟩ := h.shard k hk
    refine ⟨h0, ?_⟩
    cases hn : k.number with
    | int n => rw [hn] at h2; exact h2.1
    | flt q => rw [hn] at h2; exact h2
    | text s => rw [hn] at h2; exact h2.1
  fks := fun n k hk => (h.fks n k hk).2.2.2.1
  rels := fun n r hr => (h.rels n r hr).1

theorem Spec.CellDb.hold {db : Database} (h : CellDb db) : HoldDb db := ⟨h.keyed, h.name, fun n t ht => (h.tables n t ht).hold⟩

theorem readXls_written {other : PyCell → XCell} {db : Database} (h : CellDb db) :
    readXls (saved other (writeXls db)) = 
      .ok [(db.name, { (db.iter.map bare).foldl Database.addTable (Database.empty db.name) with
        tables := db.tables.map (fun p => (p.1, backTable p.2)) })] := by
  rw [readXls_held h.hold h.some]
  have : db.tables.map (fun p => (p.1, through p.2)) = db.tables.map (fun p => (p.1, backTable p.2)) := List.map_congr_left fun p hp => by
    rw [(through_back_iff h.hold hp).2 (h.tables p.1 p.2 hp).keeps]
  rw [this]

end Verif
