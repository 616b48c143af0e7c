import Verif.Listing
import Verif.Spec.Listing
import Verif.Props.DiffAlters
/-
C78: the list of differences ddldiff prints.
-/

namespace Verif.Props
open Verif Verif.Spec

/-- The kind of an entry. -/
def changeOf : Diff → Change
  | .tableCreated .. => .tableCreated
  | .tableDropped .. => .tableDropped
  | .colAdded .. => .columnAdded
  | .colDropped .. => .columnDropped
  | .colModified .. => .columnModified
  | .pkAdded .. => .keyAdded
  | .pkDropped .. => .keyDropped
  | .shardAdded .. => .hashAdded
  | .shardDropped .. => .hashDropped
  | .fkAdded .. => .foreignAdded
  | .fkDropped .. => .foreignDropped
  | .relAdded .. => .relationshipAdded
  | .relDropped .. => .relationshipDropped

theorem repr_eq (x : Diff) : x.repr = changeLine x.place.1 x.place.2.1 x.place.2.2 (changeOf x) := by
  cases x <;> simp [Diff.repr, changeLine, changeOf, Diff.typeText, Change.text]

theorem change_text_suffix : ∀ k k' : Change, k.text <:+ k'.text → k = k' := by
  intro k k'
  cases k <;> cases k' <;> first | (intro _; rfl) | (intro h; revert h; decide)

/-- A line says which table and which kind it is about. -/
theorem C78_line_injective {d s n n' : Str} {k k' : Change} (h : changeLine d s n k = changeLine d s n' k') : n = n' ∧ k = k' := by
  unfold changeLine at h
  simp only [List.append_assoc, List.cons_append, List.append_cancel_left_eq, List.cons.injEq, true_and] at h
  have hk : k = k' := by
    have h1 : k.text <:+ n ++ k.text := List.suffix_append _ _
    have h2 : k'.text <:+ n ++ k.text := by rw [h]; exact List.suffix_append _ _
    rcases Nat.le_total k.text.length k'.text.length with hl | hl
    · exact change_text_suffix _ _ (List.suffix_of_suffix_length_le h1 h2 hl)
    · exact (change_text_suffix _ _ (List.suffix_of_suffix_length_le h2 h1 hl)).symm
  subst hk
  exact ⟨List.append_cancel_right h, rfl⟩

/-- What the comparison gets right in the two databases: foreign keys of the same name are told apart if and only if they differ, and no table has the same shard key in both. -/
structure KeysCompared (db1 db2 : Database) : Prop where
  fks : ∀ n t1 t2, TableOf db1 n t1 → TableOf db2 n t2 → ∀ m a b, (m, a) ∈ t1.fks → (m, b) ∈ t2.fks → (FkReported a b ↔ a ≠ b)
  shards : ∀ n t1 t2, TableOf db1 n t1 → TableOf db2 n t2 → t1.shard = t2.shard → t1.shard = none

/-- The kinds that need it. -/
def needsKeys (k : Change) : Prop := k = .foreignAdded ∨ k = .foreignDropped ∨ k = .hashAdded

theorem unique_entry {α : Type} {l : List (Str × α)} (h : (l.map Prod.fst).Nodup) {m : Str} {a b : α} (ha : (m, a) ∈ l) (hb : (m, b) ∈ l) : a = b := by
  have h1 := (Dict.mem_iff_get? (d := l) h).1 ha
  have h2 := (Dict.mem_iff_get? (d := l) h).1 hb
  rw [h1] at h2
  exact Option.some.inj h2

/-- The entries of the first list for a table of both databases. -/
theorem common_fst {db1 db2 : Database} (h1 : WellKeyed db1) (h2 : WellKeyed db2) {n : Str} {t1 t2 : Table} (ht1 : TableOf db1 n t1) (ht2 : TableOf db2 n t2)
    {k : Change} (hk : needsKeys k → KeysCompared db1 db2) :
    (∃ x ∈ (compareDatabases (fun _ => false) db1 db2).1, x.table = t1 ∧ x.kind ≠ 0 ∧ changeOf x = k) ↔ TablesDiffer t1 t2 k := by
  constructor
  · rintro ⟨x, hx, rfl, h0, rfl⟩
    cases x with
    | tableCreated m t => exact absurd rfl h0
    | tableDropped m t => exact absurd rfl h0
    | colAdded m t c =>
      obtain ⟨-, m', hc, hn⟩ := (C15_column_differences h1 h2 _ n t t2 ht1 ht2 m c).1.1 hx
      exact ⟨m', c, hc, hn⟩
    | colDropped m t c =>
      obtain ⟨-, m', hc, hn⟩ := (C15_column_differences h1 h2 _ n t t2 ht1 ht2 m c).2.1.1 hx
      exact ⟨m', c, hc, hn⟩
    | colModified m t c =>
      obtain ⟨-, m', c', hc, hc', hne⟩ := (C15_column_differences h1 h2 _ n t t2 ht1 ht2 m c).2.2.1.1 hx
      exact ⟨m', c', c, hc, hc', hne⟩
    | pkAdded m t k =>
      obtain ⟨-, hne, h, -⟩ := (C16_primary_key h1 h2 _ n t t2 ht1 ht2 m k).1.1 hx
      exact ⟨hne, h⟩
    | pkDropped m t =>
      obtain ⟨-, hne, h⟩ := (C16_primary_key h1 h2 _ n t t2 ht1 ht2 m []).2.1.1 hx
      exact ⟨hne, h⟩
    | shardAdded m t c k =>
      obtain ⟨-, h, -⟩ := (C16_shard_key_partial h1 h2 _ n t t2 ht1 ht2 m c k).1.1 hx
      have hn : t2.shard ≠ none := by rw [h]; simp
      refine ⟨fun e => ?_, hn⟩
      exact hn (e ▸ (hk (.inr (.inr rfl))).shards n t t2 ht1 ht2 e)
    | shardDropped m t =>
      obtain ⟨-, h, h'⟩ := (C16_shard_key_partial h1 h2 _ n t t2 ht1 ht2 m (.int 0) []).2.1.1 hx
      exact ⟨h, h'⟩
    | fkAdded m t k =>
      obtain ⟨-, h, h'⟩ := (C16_foreign_keys_partial h1 h2 _ n t t2 ht1 ht2 m k []).1.1 hx
      exact ⟨k.name, k, h, fun hm => ((hk (.inl rfl)).fks n t t2 ht1 ht2 _ _ _ hm h).1 (h' k hm) rfl⟩
    | fkDropped m t j =>
      obtain ⟨-, a, h, h'⟩ := (C16_foreign_keys_partial h1 h2 _ n t t2 ht1 ht2 m ⟨[], [], [], [], []⟩ j).2.1.1 hx
      exact ⟨j, a, h, fun hm => ((hk (.inr (.inl rfl))).fks n t t2 ht1 ht2 _ _ _ h hm).1 (h' a hm) rfl⟩
    | relAdded m t r =>
      obtain ⟨-, h, h'⟩ := (C16_relationships h1 h2 _ n t t2 ht1 ht2 m r []).1.1 hx
      exact ⟨r.name, r, h, h'⟩
    | relDropped m t j =>
      obtain ⟨-, r, h, h'⟩ := (C16_relationships h1 h2 _ n t t2 ht1 ht2 m ⟨[], [], [], []⟩ j).2.1.1 hx
      exact ⟨j, r, h, h'⟩
  · intro h
    cases k with
    | tableCreated => exact h.elim
    | tableDropped => exact h.elim
    | columnAdded =>
      obtain ⟨m, c, hc, hn⟩ := h
      exact ⟨_, (C15_column_differences h1 h2 _ n t1 t2 ht1 ht2 _ c).1.2 ⟨rfl, m, hc, hn⟩, rfl, by simp [Diff.kind], rfl⟩
    | columnDropped =>
      obtain ⟨m, c, hc, hn⟩ := h
      exact ⟨_, (C15_column_differences h1 h2 _ n t1 t2 ht1 ht2 _ c).2.1.2 ⟨rfl, m, hc, hn⟩, rfl, by simp [Diff.kind], rfl⟩
    | columnModified =>
      obtain ⟨m, c, c', hc, hc', hne⟩ := h
      exact ⟨_, (C15_column_differences h1 h2 _ n t1 t2 ht1 ht2 _ c').2.2.1.2 ⟨rfl, m, c, hc, hc', hne⟩, rfl, by simp [Diff.kind], rfl⟩
    | keyAdded => exact ⟨_, (C16_primary_key h1 h2 _ n t1 t2 ht1 ht2 _ t2.pk).1.2 ⟨rfl, h.1, h.2, rfl⟩, rfl, by simp [Diff.kind], rfl⟩
    | keyDropped => exact ⟨_, (C16_primary_key h1 h2 _ n t1 t2 ht1 ht2 _ []).2.1.2 ⟨rfl, h.1, h.2⟩, rfl, by simp [Diff.kind], rfl⟩
    | hashAdded =>
      obtain ⟨-, h⟩ := h
      cases e : t2.shard with
      | none => exact absurd e h
      | some sh => exact ⟨_, (C16_shard_key_partial h1 h2 _ n t1 t2 ht1 ht2 _ sh.number sh.keys).1.2 ⟨rfl, e, .inr rfl⟩, rfl, by simp [Diff.kind], rfl⟩
    | hashDropped => exact ⟨_, (C16_shard_key_partial h1 h2 _ n t1 t2 ht1 ht2 _ (.int 0) []).2.1.2 ⟨rfl, h.1, h.2⟩, rfl, by simp [Diff.kind], rfl⟩
    | foreignAdded =>
      obtain ⟨m, b, hb, hn⟩ := h
      obtain rfl := h2.fkNames n t2 ht2 m b hb
      refine ⟨_, (C16_foreign_keys_partial h1 h2 _ n t1 t2 ht1 ht2 _ b []).1.2 ⟨rfl, hb, fun a ha => ?_⟩, rfl, by simp [Diff.kind], rfl⟩
      exact ((hk (.inl rfl)).fks n t1 t2 ht1 ht2 _ _ _ ha hb).2 (by rintro rfl; exact hn ha)
    | foreignDropped =>
      obtain ⟨m, a, ha, hn⟩ := h
      refine ⟨_, (C16_foreign_keys_partial h1 h2 _ n t1 t2 ht1 ht2 _ a m).2.1.2 ⟨rfl, a, ha, fun b hb => ?_⟩, rfl, by simp [Diff.kind], rfl⟩
      exact ((hk (.inr (.inl rfl))).fks n t1 t2 ht1 ht2 _ _ _ ha hb).2 (by rintro rfl; exact hn hb)
    | relationshipAdded =>
      obtain ⟨m, r, hr, hn⟩ := h
      obtain rfl := h2.relNames n t2 ht2 m r hr
      exact ⟨_, (C16_relationships h1 h2 _ n t1 t2 ht1 ht2 _ r []).1.2 ⟨rfl, hr, hn⟩, rfl, by simp [Diff.kind], rfl⟩
    | relationshipDropped =>
      obtain ⟨m, r, hr, hn⟩ := h
      exact ⟨_, (C16_relationships h1 h2 _ n t1 t2 ht1 ht2 _ r m).2.1.2 ⟨rfl, r, hr, hn⟩, rfl, by simp [Diff.kind], rfl⟩


/-- The entries of the second list for a table of both databases. -/
theorem common_snd {db1 db2 : Database} (h1 : WellKeyed db1) (h2 : WellKeyed db2) {n : Str} {t1 t2 : Table} (ht1 : TableOf db1 n t1) (ht2 : TableOf db2 n t2)
    {k : Change} (hk : needsKeys k → KeysCompared db1 db2) :
    (∃ x ∈ (compareDatabases (fun _ => false) db1 db2).2, x.table = t2 ∧ x.kind ≠ 0 ∧ changeOf x = k) ↔ TablesDiffer t2 t1 k := by
  constructor
  · rintro ⟨x, hx, rfl, h0, rfl⟩
    cases x with
    | tableCreated m t => exact absurd rfl h0
    | tableDropped m t => exact absurd rfl h0
    | colAdded m t c =>
      obtain ⟨-, m', hc, hn⟩ := (C15_column_differences h1 h2 _ n t1 t ht1 ht2 m c).2.2.2.1.1 hx
      exact ⟨m', c, hc, hn⟩
    | colDropped m t c =>
      obtain ⟨-, m', hc, hn⟩ := (C15_column_differences h1 h2 _ n t1 t ht1 ht2 m c).2.2.2.2.1.1 hx
      exact ⟨m', c, hc, hn⟩
    | colModified m t c =>
      obtain ⟨-, m', c', hc, hc', hne⟩ := (C15_column_differences h1 h2 _ n t1 t ht1 ht2 m c).2.2.2.2.2.1 hx
      exact ⟨m', c', c, hc, hc', hne⟩
    | pkAdded m t k =>
      obtain ⟨-, hne, h, -⟩ := (C16_primary_key h1 h2 _ n t1 t ht1 ht2 m k).2.2.1.1 hx
      exact ⟨Ne.symm hne, h⟩
    | pkDropped m t =>
      obtain ⟨-, hne, h⟩ := (C16_primary_key h1 h2 _ n t1 t ht1 ht2 m []).2.2.2.1 hx
      exact ⟨Ne.symm hne, h⟩
    | shardAdded m t c k =>
      obtain ⟨-, h, -⟩ := (C16_shard_key_partial h1 h2 _ n t1 t ht1 ht2 m c k).2.2.1.1 hx
      have hn : t1.shard ≠ none := by rw [h]; simp
      exact ⟨fun e => hn ((hk (.inr (.inr rfl))).shards n t1 t ht1 ht2 e.symm), hn⟩
    | shardDropped m t =>
      obtain ⟨-, h, h'⟩ := (C16_shard_key_partial h1 h2 _ n t1 t ht1 ht2 m (.int 0) []).2.2.2.1 hx
      exact ⟨h, h'⟩
    | fkAdded m t k =>
      obtain ⟨-, h, h'⟩ := (C16_foreign_keys_partial h1 h2 _ n t1 t ht1 ht2 m k []).2.2.1.1 hx
      exact ⟨k.name, k, h, fun hm => ((hk (.inl rfl)).fks n t1 t ht1 ht2 _ _ _ h hm).1 (h' k hm) rfl⟩
    | fkDropped m t j =>
      obtain ⟨-, a, h, h'⟩ := (C16_foreign_keys_partial h1 h2 _ n t1 t ht1 ht2 m ⟨[], [], [], [], []⟩ j).2.2.2.1 hx
      exact ⟨j, a, h, fun hm => ((hk (.inr (.inl rfl))).fks n t1 t ht1 ht2 _ _ _ hm h).1 (h' a hm) rfl⟩
    | relAdded m t r =>
      obtain ⟨-, h, h'⟩ := (C16_relationships h1 h2 _ n t1 t ht1 ht2 m r []).2.2.1.1 hx
      exact ⟨r.name, r, h, h'⟩
    | relDropped m t j =>
      obtain ⟨-, r, h, h'⟩ := (C16_relationships h1 h2 _ n t1 t ht1 ht2 m ⟨[], [], [], []⟩ j).2.2.2.1 hx
      exact ⟨j, r, h, h'⟩
  · intro h
    cases k with
    | tableCreated => exact h.elim
    | tableDropped => exact h.elim
    | columnAdded =>
      obtain ⟨m, c, hc, hn⟩ := h
      exact ⟨_, (C15_column_differences h1 h2 _ n t1 t2 ht1 ht2 _ c).2.2.2.1.2 ⟨rfl, m, hc, hn⟩, rfl, by simp [Diff.kind], rfl⟩
    | columnDropped =>
      obtain ⟨m, c, hc, hn⟩ := h
      exact ⟨_, (C15_column_differences h1 h2 _ n t1 t2 ht1 ht2 _ c).2.2.2.2.1.2 ⟨rfl, m, hc, hn⟩, rfl, by simp [Diff.kind], rfl⟩
    | columnModified =>
      obtain ⟨m, c, c', hc, hc', hne⟩ := h
      exact ⟨_, (C15_column_differences h1 h2 _ n t1 t2 ht1 ht2 _ c').2.2.2.2.2.2 ⟨rfl, m, c, hc, hc', hne⟩, rfl, by simp [Diff.kind], rfl⟩
    | keyAdded => exact ⟨_, (C16_primary_key h1 h2 _ n t1 t2 ht1 ht2 _ t1.pk).2.2.1.2 ⟨rfl, Ne.symm h.1, h.2, rfl⟩, rfl, by simp [Diff.kind], rfl⟩
    | keyDropped => exact ⟨_, (C16_primary_key h1 h2 _ n t1 t2 ht1 ht2 _ []).2.2.2.2 ⟨rfl, Ne.symm h.1, h.2⟩, rfl, by simp [Diff.kind], rfl⟩
    | hashAdded =>
      obtain ⟨-, h⟩ := h
      cases e : t1.shard with
      | none => exact absurd e h
      | some sh => exact ⟨_, (C16_shard_key_partial h1 h2 _ n t1 t2 ht1 ht2 _ sh.number sh.keys).2.2.1.2 ⟨rfl, e, .inr rfl⟩, rfl, by simp [Diff.kind], rfl⟩
    | hashDropped => exact ⟨_, (C16_shard_key_partial h1 h2 _ n t1 t2 ht1 ht2 _ (.int 0) []).2.2.2.2 ⟨rfl, h.1, h.2⟩, rfl, by simp [Diff.kind], rfl⟩
    | foreignAdded =>
      obtain ⟨m, b, hb, hn⟩ := h
      obtain rfl := h1.fkNames n t1 ht1 m b hb
      refine ⟨_, (C16_foreign_keys_partial h1 h2 _ n t1 t2 ht1 ht2 _ b []).2.2.1.2 ⟨rfl, hb, fun a ha => ?_⟩, rfl, by simp [Diff.kind], rfl⟩
      exact ((hk (.inl rfl)).fks n t1 t2 ht1 ht2 _ _ _ hb ha).2 (by rintro rfl; exact hn ha)
    | foreignDropped =>
      obtain ⟨m, a, ha, hn⟩ := h
      refine ⟨_, (C16_foreign_keys_partial h1 h2 _ n t1 t2 ht1 ht2 _ a m).2.2.2.2 ⟨rfl, a, ha, fun b hb => ?_⟩, rfl, by simp [Diff.kind], rfl⟩
      exact ((hk (.inr (.inl rfl))).fks n t1 t2 ht1 ht2 _ _ _ hb ha).2 (by rintro rfl; exact hn hb)
    | relationshipAdded =>
      obtain ⟨m, r, hr, hn⟩ := h
      obtain rfl := h1.relNames n t1 ht1 m r hr
      exact ⟨_, (C16_relationships h1 h2 _ n t1 t2 ht1 ht2 _ r []).2.2.1.2 ⟨rfl, hr, hn⟩, rfl, by simp [Diff.kind], rfl⟩
    | relationshipDropped =>
      obtain ⟨m, r, hr, hn⟩ := h
      exact ⟨_, (C16_relationships h1 h2 _ n t1 t2 ht1 ht2 _ r m).2.2.2.2 ⟨rfl, r, hr, hn⟩, rfl, by simp [Diff.kind], rfl⟩


/-- The entries of the first list. -/
theorem entries_fst {db1 db2 : Database} {name schema : Str} (c1 : Consistent name schema db1) (c2 : Consistent name schema db2) {n : Str} {k : Change}
    (hk : needsKeys k → KeysCompared db1 db2) :
    (∃ x ∈ (compareDatabases (fun _ => false) db1 db2).1, x.place.2.2 = n ∧ changeOf x = k) ↔ MustChange db1 db2 n k := by
  have h1 := c1.keyed
  have h2 := c2.keyed
  have C14 := C14_table_differences h1 h2 (fun _ => false)
  by_cases hc : k = .tableCreated
  · subst hc
    constructor
    · rintro ⟨x, hx, rfl, hxk⟩
      cases x <;> simp [changeOf] at hxk
      rename_i m t
      obtain ⟨-, n, ht, hn⟩ := (C14.2.1 m t).1 hx
      obtain rfl := h2.tableNames n t ht
      exact ⟨⟨t, ht⟩, hn⟩
    · rintro ⟨⟨t, ht⟩, hn⟩
      exact ⟨_, (C14.2.1 _ t).2 ⟨rfl, n, ht, hn⟩, (h2.tableNames n t ht).symm, rfl⟩
  by_cases hd : k = .tableDropped
  · subst hd
    constructor
    · rintro ⟨x, hx, rfl, hxk⟩
      cases x <;> simp [changeOf] at hxk
      rename_i m t
      obtain ⟨-, n, ht, hn⟩ := (C14.1 m t).1 hx
      obtain rfl := h1.tableNames n t ht
      exact ⟨⟨t, ht⟩, hn⟩
    · rintro ⟨⟨t, ht⟩, hn⟩
      exact ⟨_, (C14.1 _ t).2 ⟨rfl, n, ht, hn⟩, (h1.tableNames n t ht).symm, rfl⟩
  have em : MustChange db1 db2 n k ↔ ∃ t1 t2, TableOf db1 n t1 ∧ TableOf db2 n t2 ∧ TablesDiffer t1 t2 k := by
    cases k <;> first | exact absurd rfl hc | exact absurd rfl hd | exact Iff.rfl
  rw [em]
  constructor
  · rintro ⟨x, hx, rfl, rfl⟩
    have h0 : x.kind ≠ 0 := by cases x <;> simp_all [Diff.kind, changeOf]
    obtain ⟨n, t2, g1, g2⟩ := (common_of_mem h1 h2 _ x h0).1 hx
    have ht1 := (tableOf_iff h1).2 g1
    have ht2 := (tableOf_iff h2).2 g2
    have hn : n = x.place.2.2 := (h1.tableNames n _ ht1).trans (by cases x <;> rfl)
    subst hn
    exact ⟨x.table, t2, ht1, ht2, (common_fst h1 h2 ht1 ht2 hk).1 ⟨x, hx, rfl, h0, rfl⟩⟩
  · rintro ⟨t1, t2, ht1, ht2, h⟩
    obtain ⟨x, hx, hxt, -, hxk⟩ := (common_fst h1 h2 ht1 ht2 hk).2 h
    refine ⟨x, hx, ?_, hxk⟩
    rw [h1.tableNames n t1 ht1, ← hxt]
    cases x <;> rfl

/-- The entries of the second list. -/
theorem entries_snd {db1 db2 : Database} {name schema : Str} (c1 : Consistent name schema db1) (c2 : Consistent name schema db2) {n : Str} {k : Change}
    (hk : needsKeys k → KeysCompared db1 db2) :
    (∃ x ∈ (compareDatabases (fun _ => false) db1 db2).2, x.place.2.2 = n ∧ changeOf x = k) ↔ MustChange db2 db1 n k := by
  have h1 := c1.keyed
  have h2 := c2.keyed
  have C14 := C14_table_differences h1 h2 (fun _ => false)
  by_cases hc : k = .tableCreated
  · subst hc
    constructor
    · rintro ⟨x, hx, rfl, hxk⟩
      cases x <;> simp [changeOf] at hxk
      rename_i m t
      obtain ⟨-, n, ht, hn⟩ := (C14.2.2.2.1 m t).1 hx
      obtain rfl := h1.tableNames n t ht
      exact ⟨⟨t, ht⟩, hn⟩
    · rintro ⟨⟨t, ht⟩, hn⟩
      exact ⟨_, (C14.2.2.2.1 _ t).2 ⟨rfl, n, ht, hn⟩, (h1.tableNames n t ht).symm, rfl⟩
  by_cases hd : k = .tableDropped
  · subst hd
    constructor
    · rintro ⟨x, hx, rfl, hxk⟩
      cases x <;> simp [changeOf] at hxk
      rename_i m t
      obtain ⟨-, n, ht, hn⟩ := (C14.2.2.1 m t).1 hx
      obtain rfl := h2.tableNames n t ht
      exact ⟨⟨t, ht⟩, hn⟩
    · rintro ⟨⟨t, ht⟩, hn⟩
      exact ⟨_, (C14.2.2.1 _ t).2 ⟨rfl, n, ht, hn⟩, (h2.tableNames n t ht).symm, rfl⟩
  have em : MustChange db2 db1 n k ↔ ∃ t2 t1, TableOf db2 n t2 ∧ TableOf db1 n t1 ∧ TablesDiffer t2 t1 k := by
    cases k <;> first | exact absurd rfl hc | exact absurd rfl hd | exact Iff.rfl
  rw [em]
  constructor
  · rintro ⟨x, hx, rfl, rfl⟩
    have h0 : x.kind ≠ 0 := by cases x <;> simp_all [Diff.kind, changeOf]
    obtain ⟨n, t1, g1, g2⟩ := (common_of_mem h1 h2 _ x h0).2 hx
    have ht1 := (tableOf_iff h1).2 g1
    have ht2 := (tableOf_iff h2).2 g2
    have hn : n = x.place.2.2 := (h2.tableNames n _ ht2).trans (by cases x <;> rfl)
    subst hn
    exact ⟨x.table, t1, ht2, ht1, (common_snd h1 h2 ht1 ht2 hk).1 ⟨x, hx, rfl, h0, rfl⟩⟩
  · rintro ⟨t2, t1, ht2, ht1, h⟩
    obtain ⟨x, hx, hxt, -, hxk⟩ := (common_snd h1 h2 ht1 ht2 hk).2 h
    refine ⟨x, hx, ?_, hxk⟩
    rw [h2.tableNames n t2 ht2, ← hxt]
    cases x <;> rfl

/-! ## How often a line is printed -/

theorem count_entries {β : Type} {l : List Diff} (hl : l.Nodup) {P : Diff → Bool} {items : List β} (hi : items.Nodup) {mk : β → Diff}
    (hm : ∀ a ∈ items, ∀ b ∈ items, mk a = mk b → a = b) (h : ∀ x, (x ∈ l ∧ P x = true) ↔ ∃ b ∈ items, mk b = x) : l.countP P = items.length := by
  have h1 : (l.filter P).Nodup := hl.filter _
  have h2 : (items.map mk).Nodup := hi.map_on hm
  have h3 : (l.filter P).Perm (items.map mk) := (List.perm_ext_iff_of_nodup h1 h2).2 (fun x => by rw [List.mem_filter, List.mem_map]; exact h x)
  rw [List.countP_eq_length_filter, h3.length_eq, List.length_map]

theorem one_entry {l : List Diff} (hl : l.Nodup) {P : Diff → Bool} {c : Prop} [Decidable c] {y : Diff}
    (h : ∀ x, (x ∈ l ∧ P x = true) ↔ c ∧ y = x) : l.countP P = if c then 1 else 0 := by
  by_cases hc : c
  · rw [if_pos hc]
    exact count_entries hl (items := [()]) (mk := fun _ => y) (by simp) (by simp) (fun x => by rw [h]; simp [hc])
  · rw [if_neg hc]
    exact count_entries hl (items := ([] : List Unit)) (mk := fun _ => y) (by simp) (by simp) (fun x => by rw [h]; simp [hc])

/-- Whether an entry is about the table `n` and of the kind `k`. -/
def aboutB (n : Str) (k : Change) (x : Diff) : Bool := decide (x.place.2.2 = n) && decide (changeOf x = k)

theorem aboutB_iff {n : Str} {k : Change} {x : Diff} : aboutB n k x = true ↔ x.place.2.2 = n ∧ changeOf x = k := by simp [aboutB]

theorem nodup_of_keys {α : Type} {l : List (Str × α)} (h : (l.map Prod.fst).Nodup) : l.Nodup := List.Nodup.of_map _ h

/-- The entries of a list for a table that both databases have, `t1` in the database the list is for and `t2` in the other. -/
structure Told (l : List Diff) (m n : Str) (t1 t2 : Table) (keys : Prop) : Prop where
  nodup : l.Nodup
  name : t1.name = n
  table : ∀ x ∈ l, x.place.2.2 = n → x.kind ≠ 0 ∧ x.table = t1
  colAdded : ∀ m' c, Diff.colAdded m' t1 c ∈ l ↔ m' = m ∧ ∃ k, ColumnOf t2 k c ∧ ¬ ∃ c', ColumnOf t1 k c'
  colDropped : ∀ m' c, Diff.colDropped m' t1 c ∈ l ↔ m' = m ∧ ∃ k, ColumnOf t1 k c ∧ ¬ ∃ c', ColumnOf t2 k c'
  colModified : ∀ m' c, Diff.colModified m' t1 c ∈ l ↔ m' = m ∧ ∃ k c', ColumnOf t1 k c' ∧ ColumnOf t2 k c ∧ c'.type ≠ c.type
  pkAdded : ∀ m' k, Diff.pkAdded m' t1 k ∈ l ↔ m' = m ∧ (t1.pk ≠ t2.pk ∧ t2.pk ≠ []) ∧ k = t2.pk
  pkDropped : ∀ m', Diff.pkDropped m' t1 ∈ l ↔ m' = m ∧ t1.pk ≠ t2.pk ∧ t1.pk ≠ []
  shardAdded : keys → ∀ m' c k, Diff.shardAdded m' t1 c k ∈ l ↔ m' = m ∧ t1.shard ≠ t2.shard ∧ t2.shard = some ⟨k, c⟩
  shardDropped : ∀ m', Diff.shardDropped m' t1 ∈ l ↔ m' = m ∧ t1.shard ≠ none ∧ t2.shard = none
  fkAdded : keys → ∀ m' k, Diff.fkAdded m' t1 k ∈ l ↔ m' = m ∧ (k.name, k) ∈ t2.fks ∧ (k.name, k) ∉ t1.fks
  fkDropped : keys → ∀ m' k, Diff.fkDropped m' t1 k ∈ l ↔ m' = m ∧ ∃ a, (k, a) ∈ t1.fks ∧ (k, a) ∉ t2.fks
  relAdded : ∀ m' r, Diff.relAdded m' t1 r ∈ l ↔ m' = m ∧ (r.name, r) ∈ t2.rels ∧ (r.name, r) ∉ t1.rels
  relDropped : ∀ m' k, Diff.relDropped m' t1 k ∈ l ↔ m' = m ∧ ∃ r, (k, r) ∈ t1.rels ∧ (k, r) ∉ t2.rels

theorem told_fst {db1 db2 : Database} (h1 : WellKeyed db1) (h2 : WellKeyed db2) {n : Str} {t1 t2 : Table} (ht1 : TableOf db1 n t1) (ht2 : TableOf db2 n t2) :
    Told (compareDatabases (fun _ => false) db1 db2).1 db1.name n t1 t2 (KeysCompared db1 db2) where
  nodup := (C14_table_differences h1 h2 (fun _ => false)).2.2.2.2.1
  name := (h1.tableNames n t1 ht1).symm
  table x hx e := by
    have h0 : x.kind ≠ 0 := by
      intro h0
      cases x <;> simp [Diff.kind] at h0
      · obtain ⟨-, n', h, h'⟩ := ((C14_table_differences h1 h2 (fun _ => false)).2.1 _ _).1 hx
        have e' := h2.tableNames n' _ h
        simp only [Diff.place] at e
        exact h' ⟨t1, by rw [e', e]; exact ht1⟩
      · obtain ⟨-, n', h, h'⟩ := ((C14_table_differences h1 h2 (fun _ => false)).1 _ _).1 hx
        have e' := h1.tableNames n' _ h
        simp only [Diff.place] at e
        exact h' ⟨t2, by rw [e', e]; exact ht2⟩
    refine ⟨h0, ?_⟩
    obtain ⟨n', t2', g1, g2⟩ := (common_of_mem h1 h2 _ x h0).1 hx
    have ht := (tableOf_iff h1).2 g1
    have e' : n' = x.place.2.2 := (h1.tableNames n' _ ht).trans (by cases x <;> rfl)
    rw [e', e] at ht
    exact unique_entry h1.tables ht ht1
  colAdded m' c := (C15_column_differences h1 h2 _ n t1 t2 ht1 ht2 m' c).1
  colDropped m' c := (C15_column_differences h1 h2 _ n t1 t2 ht1 ht2 m' c).2.1
  colModified m' c := (C15_column_differences h1 h2 _ n t1 t2 ht1 ht2 m' c).2.2.1
  pkAdded m' k := (C16_primary_key h1 h2 _ n t1 t2 ht1 ht2 m' k).1.trans (by rw [and_assoc])
  pkDropped m' := (C16_primary_key h1 h2 _ n t1 t2 ht1 ht2 m' []).2.1
  shardAdded hk m' c k := by
    rw [(C16_shard_key_partial h1 h2 _ n t1 t2 ht1 ht2 m' c k).1]
    refine and_congr_right (fun _ => ⟨fun ⟨h, _⟩ => ⟨fun e => ?_, h⟩, fun h => ⟨h.2, .inr rfl⟩⟩)
    rw [← e, hk.shards n t1 t2 ht1 ht2 e] at h
    cases h
  shardDropped m' := (C16_shard_key_partial h1 h2 _ n t1 t2 ht1 ht2 m' (.int 0) []).2.1
  fkAdded hk m' k := by
    rw [(C16_foreign_keys_partial h1 h2 _ n t1 t2 ht1 ht2 m' k []).1]
    refine and_congr_right (fun _ => and_congr_right (fun hb => ⟨fun h ha => ?_, fun h a ha => ?_⟩))
    · exact (hk.fks n t1 t2 ht1 ht2 _ _ _ ha hb).1 (h _ ha) rfl
    · exact (hk.fks n t1 t2 ht1 ht2 _ _ _ ha hb).2 (by rintro rfl; exact h ha)
  fkDropped hk m' k := by
    rw [(C16_foreign_keys_partial h1 h2 _ n t1 t2 ht1 ht2 m' ⟨[], [], [], [], []⟩ k).2.1]
    refine and_congr_right (fun _ => exists_congr (fun a => and_congr_right (fun ha => ⟨fun h hb => ?_, fun h b hb => ?_⟩)))
    · exact (hk.fks n t1 t2 ht1 ht2 _ _ _ ha hb).1 (h _ hb) rfl
    · exact (hk.fks n t1 t2 ht1 ht2 _ _ _ ha hb).2 (by rintro rfl; exact h hb)
  relAdded m' r := (C16_relationships h1 h2 _ n t1 t2 ht1 ht2 m' r []).1
  relDropped m' k := (C16_relationships h1 h2 _ n t1 t2 ht1 ht2 m' ⟨[], [], [], []⟩ k).2.1

theorem told_snd {db1 db2 : Database} (h1 : WellKeyed db1) (h2 : WellKeyed db2) {n : Str} {t1 t2 : Table} (ht1 : TableOf db1 n t1) (ht2 : TableOf db2 n t2) :
    Told (compareDatabases (fun _ => false) db1 db2).2 db2.name n t2 t1 (KeysCompared db1 db2) where
  nodup := (C14_table_differences h1 h2 (fun _ => false)).2.2.2.2.2
  name := (h2.tableNames n t2 ht2).symm
  table x hx e := by
    have h0 : x.kind ≠ 0 := by
      intro h0
      cases x <;> simp [Diff.kind] at h0
      · obtain ⟨-, n', h, h'⟩ := ((C14_table_differences h1 h2 (fun _ => false)).2.2.2.1 _ _).1 hx
        have e' := h1.tableNames n' _ h
        simp only [Diff.place] at e
        exact h' ⟨t2, by rw [e', e]; exact ht2⟩
      · obtain ⟨-, n', h, h'⟩ := ((C14_table_differences h1 h2 (fun _ => false)).2.2.1 _ _).1 hx
        have e' := h2.tableNames n' _ h
        simp only [Diff.place] at e
        exact h' ⟨t1, by rw [e', e]; exact ht1⟩
    refine ⟨h0, ?_⟩
    obtain ⟨n', t1', g1, g2⟩ := (common_of_mem h1 h2 _ x h0).2 hx
    have ht := (tableOf_iff h2).2 g2
    have e' : n' = x.place.2.2 := (h2.tableNames n' _ ht).trans (by cases x <;> rfl)
    rw [e', e] at ht
    exact unique_entry h2.tables ht ht2
  colAdded m' c := (C15_column_differences h1 h2 _ n t1 t2 ht1 ht2 m' c).2.2.2.1
  colDropped m' c := (C15_column_differences h1 h2 _ n t1 t2 ht1 ht2 m' c).2.2.2.2.1
  colModified m' c := (C15_column_differences h1 h2 _ n t1 t2 ht1 ht2 m' c).2.2.2.2.2
  pkAdded m' k := (C16_primary_key h1 h2 _ n t1 t2 ht1 ht2 m' k).2.2.1.trans (by rw [and_assoc, ne_comm])
  pkDropped m' := (C16_primary_key h1 h2 _ n t1 t2 ht1 ht2 m' []).2.2.2.trans (by rw [ne_comm])
  shardAdded hk m' c k := by
    rw [(C16_shard_key_partial h1 h2 _ n t1 t2 ht1 ht2 m' c k).2.2.1]
    refine and_congr_right (fun _ => ⟨fun ⟨h, _⟩ => ⟨fun e => ?_, h⟩, fun h => ⟨h.2, .inr rfl⟩⟩)
    rw [hk.shards n t1 t2 ht1 ht2 e.symm] at h
    cases h
  shardDropped m' := (C16_shard_key_partial h1 h2 _ n t1 t2 ht1 ht2 m' (.int 0) []).2.2.2
  fkAdded hk m' k := by
    rw [(C16_foreign_keys_partial h1 h2 _ n t1 t2 ht1 ht2 m' k []).2.2.1]
    refine and_congr_right (fun _ => and_congr_right (fun hb => ⟨fun h ha => ?_, fun h a ha => ?_⟩))
    · exact (hk.fks n t1 t2 ht1 ht2 _ _ _ hb ha).1 (h _ ha) rfl
    · exact (hk.fks n t1 t2 ht1 ht2 _ _ _ hb ha).2 (by rintro rfl; exact h ha)
  fkDropped hk m' k := by
    rw [(C16_foreign_keys_partial h1 h2 _ n t1 t2 ht1 ht2 m' ⟨[], [], [], [], []⟩ k).2.2.2]
    refine and_congr_right (fun _ => exists_congr (fun a => and_congr_right (fun ha => ⟨fun h hb => ?_, fun h b hb => ?_⟩)))
    · exact (hk.fks n t1 t2 ht1 ht2 _ _ _ hb ha).1 (h _ hb) rfl
    · exact (hk.fks n t1 t2 ht1 ht2 _ _ _ hb ha).2 (by rintro rfl; exact h hb)
  relAdded m' r := (C16_relationships h1 h2 _ n t1 t2 ht1 ht2 m' r []).2.2.1
  relDropped m' k := (C16_relationships h1 h2 _ n t1 t2 ht1 ht2 m' ⟨[], [], [], []⟩ k).2.2.2

theorem column_iff {t : Table} {j : Str} : (∃ c, ColumnOf t j c) ↔ j ∈ t.cols.map Prod.fst := by
  rw [List.mem_map]
  exact ⟨fun ⟨c, h⟩ => ⟨_, h, rfl⟩, fun ⟨⟨_, c⟩, h, e⟩ => ⟨c, e ▸ h⟩⟩

/-- One entry for each pair of a filtered dictionary, made from the value. -/
theorem count_values {α : Type} {l : List Diff} (hl : l.Nodup) {P : Diff → Bool} {d : List (Str × α)} (hd : (d.map Prod.fst).Nodup) {q : Str × α → Bool} {nm : α → Str}
    (hn : ∀ m a, (m, a) ∈ d → m = nm a) {mk : α → Diff} (hm : ∀ a b, mk a = mk b → a = b) (h : ∀ x, (x ∈ l ∧ P x = true) ↔ ∃ m a, (m, a) ∈ d ∧ q (m, a) = true ∧ mk a = x) :
    l.countP P = (d.filter q).length := by
  refine count_entries hl (mk := fun p => mk p.2) ((nodup_of_keys hd).filter _) ?_ ?_
  · intro a ha b hb e
    have e' : a.2 = b.2 := hm _ _ e
    have ea := hn a.1 a.2 (List.mem_filter.1 ha).1
    have eb := hn b.1 b.2 (List.mem_filter.1 hb).1
    exact Prod.ext (by rw [ea, eb, e']) e'
  · intro x
    rw [h]
    constructor
    · rintro ⟨m, a, ha, hq, e⟩
      exact ⟨_, List.mem_filter.2 ⟨ha, hq⟩, e⟩
    · rintro ⟨⟨m, a⟩, hp, e⟩
      obtain ⟨ha, hq⟩ := List.mem_filter.1 hp
      exact ⟨m, a, ha, hq, e⟩

/-- One entry for each pair of a filtered dictionary, made from the key. -/
theorem count_keys {α : Type} {l : List Diff} (hl : l.Nodup) {P : Diff → Bool} {d : List (Str × α)} (hd : (d.map Prod.fst).Nodup) {q : Str × α → Bool}
    {mk : Str → Diff} (hm : ∀ a b, mk a = mk b → a = b) (h : ∀ x, (x ∈ l ∧ P x = true) ↔ ∃ m a, (m, a) ∈ d ∧ q (m, a) = true ∧ mk m = x) :
    l.countP P = (d.filter q).length := by
  refine count_entries hl (mk := fun p => mk p.1) ((nodup_of_keys hd).filter _) ?_ ?_
  · rintro ⟨m, a⟩ ha ⟨m', b⟩ hb e
    obtain rfl : m = m' := hm _ _ e
    rw [unique_entry hd (List.mem_filter.1 ha).1 (List.mem_filter.1 hb).1]
  · intro x
    rw [h]
    constructor
    · rintro ⟨m, a, ha, hq, e⟩
      exact ⟨_, List.mem_filter.2 ⟨ha, hq⟩, e⟩
    · rintro ⟨⟨m, a⟩, hp, e⟩
      obtain ⟨ha, hq⟩ := List.mem_filter.1 hp
      exact ⟨m, a, ha, hq, e⟩

theorem count_told {l : List Diff} {m n : Str} {t1 t2 : Table} {keys : Prop} {k : Change} (T : Told l m n t1 t2 keys) (hk : needsKeys k → keys)
    (c1 : (t1.cols.map Prod.fst).Nodup) (c2 : (t2.cols.map Prod.fst).Nodup) (cn1 : ∀ m c, (m, c) ∈ t1.cols → m = c.name) (cn2 : ∀ m c, (m, c) ∈ t2.cols → m = c.name)
    (f1 : (t1.fks.map Prod.fst).Nodup) (f2 : (t2.fks.map Prod.fst).Nodup) (fn2 : ∀ m c, (m, c) ∈ t2.fks → m = c.name)
    (r1 : (t1.rels.map Prod.fst).Nodup) (r2 : (t2.rels.map Prod.fst).Nodup) (rn2 : ∀ m c, (m, c) ∈ t2.rels → m = c.name) :
    l.countP (aboutB n k) = tableChanges t1 t2 k := by
  have hl := T.nodup
  have hn := T.name
  have dir : ∀ x (Q : Prop), (∀ _ : x.table = t1, changeOf x = k → (x ∈ l ↔ Q)) → (Q → x.table = t1 ∧ x.place.2.2 = n ∧ changeOf x = k) → ((x ∈ l ∧ aboutB n k x = true) ↔ Q) := by
    intro x Q h1 h2
    rw [aboutB_iff]
    constructor
    · rintro ⟨hx, e1, e2⟩
      exact (h1 (T.table x hx e1).2 e2).1 hx
    · intro q
      obtain ⟨a, b, c⟩ := h2 q
      exact ⟨(h1 a c).2 q, b, c⟩
  cases k with
  | tableCreated =>
    rw [tableChanges, List.countP_eq_zero]
    intro x hx hp
    obtain ⟨e1, e2⟩ := aboutB_iff.1 hp
    exact (T.table x hx e1).1 (by cases x <;> simp [changeOf] at e2 <;> rfl)
  | tableDropped =>
    rw [tableChanges, List.countP_eq_zero]
    intro x hx hp
    obtain ⟨e1, e2⟩ := aboutB_iff.1 hp
    exact (T.table x hx e1).1 (by cases x <;> simp [changeOf] at e2 <;> rfl)
  | columnAdded =>
    refine count_values hl c2 (nm := Column.name) cn2 (mk := fun c => .colAdded m t1 c) (by intro a b e; injection e) (fun x => dir x _ ?_ ?_)
    · intro et e2
      cases x <;> simp [changeOf] at e2
      rename_i m' t c
      obtain rfl : t = t1 := et
      simp only [T.colAdded, Diff.colAdded.injEq, decide_eq_true_eq, ColumnOf]
      constructor
      · rintro ⟨rfl, j, h, h'⟩; exact ⟨j, c, h, fun hj => h' (column_iff.2 hj), by simp⟩
      · rintro ⟨j, c', h, h', rfl, -, rfl⟩; exact ⟨rfl, j, h, fun hj => h' (column_iff.1 hj)⟩
    · rintro ⟨_, _, _, _, rfl⟩; exact ⟨rfl, hn, rfl⟩
  | columnDropped =>
    refine count_values hl c1 (nm := Column.name) cn1 (mk := fun c => .colDropped m t1 c) (by intro a b e; injection e) (fun x => dir x _ ?_ ?_)
    · intro et e2
      cases x <;> simp [changeOf] at e2
      rename_i m' t c
      obtain rfl : t = t1 := et
      simp only [T.colDropped, Diff.colDropped.injEq, decide_eq_true_eq, ColumnOf]
      constructor
      · rintro ⟨rfl, j, h, h'⟩; exact ⟨j, c, h, fun hj => h' (column_iff.2 hj), by simp⟩
      · rintro ⟨j, c', h, h', rfl, -, rfl⟩; exact ⟨rfl, j, h, fun hj => h' (column_iff.1 hj)⟩
    · rintro ⟨_, _, _, _, rfl⟩; exact ⟨rfl, hn, rfl⟩
  | columnModified =>
    refine count_values hl c2 (nm := Column.name) cn2 (mk := fun c => .colModified m t1 c) (by intro a b e; injection e) (fun x => dir x _ ?_ ?_)
    · intro et e2
      cases x <;> simp [changeOf] at e2
      rename_i m' t c
      obtain rfl : t = t1 := et
      simp only [T.colModified, Diff.colModified.injEq, decide_eq_true_eq, ColumnOf]
      constructor
      · rintro ⟨rfl, j, c', h, h', hne⟩; exact ⟨j, c, h', ⟨_, h, rfl, hne⟩, by simp⟩
      · rintro ⟨j, c', h, ⟨⟨_, q⟩, hq, rfl, hne⟩, rfl, -, rfl⟩; exact ⟨rfl, _, q, hq, h, hne⟩
    · rintro ⟨_, _, _, _, rfl⟩; exact ⟨rfl, hn, rfl⟩
  | keyAdded =>
    refine one_entry hl (y := .pkAdded m t1 t2.pk) (fun x => dir x _ ?_ ?_)
    · intro et e2
      cases x <;> simp [changeOf] at e2
      rename_i m' t k
      obtain rfl : t = t1 := et
      simp only [T.pkAdded, Diff.pkAdded.injEq]
      constructor
      · rintro ⟨rfl, h, rfl⟩; exact ⟨h, by simp⟩
      · rintro ⟨h, rfl, -, rfl⟩; exact ⟨rfl, h, rfl⟩
    · rintro ⟨_, rfl⟩; exact ⟨rfl, hn, rfl⟩
  | keyDropped =>
    refine one_entry hl (y := .pkDropped m t1) (fun x => dir x _ ?_ ?_)
    · intro et e2
      cases x <;> simp [changeOf] at e2
      rename_i m' t
      obtain rfl : t = t1 := et
      simp only [T.pkDropped, Diff.pkDropped.injEq]
      constructor
      · rintro ⟨rfl, h⟩; exact ⟨h, by simp⟩
      · rintro ⟨h, rfl, -⟩; exact ⟨rfl, h⟩
    · rintro ⟨_, rfl⟩; exact ⟨rfl, hn, rfl⟩
  | hashAdded =>
    have S := T.shardAdded (hk (.inr (.inr rfl)))
    refine one_entry hl (y := .shardAdded m t1 ((t2.shard.map ShardKey.number).getD (.int 0)) ((t2.shard.map ShardKey.keys).getD [])) (fun x => dir x _ ?_ ?_)
    · intro et e2
      cases x <;> simp [changeOf] at e2
      rename_i m' t c k
      obtain rfl : t = t1 := et
      simp only [S, Diff.shardAdded.injEq]
      constructor
      · rintro ⟨rfl, h, e⟩; exact ⟨⟨h, by rw [e]; simp⟩, by simp [e]⟩
      · rintro ⟨⟨h, h'⟩, rfl, -, rfl, rfl⟩
        refine ⟨rfl, h, ?_⟩
        cases e : t2.shard with
        | none => exact absurd e h'
        | some s => rfl
    · rintro ⟨_, rfl⟩; exact ⟨rfl, hn, rfl⟩
  | hashDropped =>
    refine one_entry hl (y := .shardDropped m t1) (fun x => dir x _ ?_ ?_)
    · intro et e2
      cases x <;> simp [changeOf] at e2
      rename_i m' t
      obtain rfl : t = t1 := et
      simp only [T.shardDropped, Diff.shardDropped.injEq]
      constructor
      · rintro ⟨rfl, h⟩; exact ⟨h, by simp⟩
      · rintro ⟨h, rfl, -⟩; exact ⟨rfl, h⟩
    · rintro ⟨_, rfl⟩; exact ⟨rfl, hn, rfl⟩
  | foreignAdded =>
    have S := T.fkAdded (hk (.inl rfl))
    refine count_values hl f2 (nm := FK.name) fn2 (mk := fun c => .fkAdded m t1 c) (by intro a b e; injection e) (fun x => dir x _ ?_ ?_)
    · intro et e2
      cases x <;> simp [changeOf] at e2
      rename_i m' t c
      obtain rfl : t = t1 := et
      simp only [S, Diff.fkAdded.injEq, decide_eq_true_eq]
      constructor
      · rintro ⟨rfl, h, h'⟩; exact ⟨_, c, h, h', by simp⟩
      · rintro ⟨j, c', h, h', rfl, -, rfl⟩
        obtain rfl := fn2 _ _ h
        exact ⟨rfl, h, h'⟩
    · rintro ⟨_, _, _, _, rfl⟩; exact ⟨rfl, hn, rfl⟩
  | foreignDropped =>
    have S := T.fkDropped (hk (.inr (.inl rfl)))
    refine count_keys hl f1 (mk := fun c => .fkDropped m t1 c) (by intro a b e; injection e) (fun x => dir x _ ?_ ?_)
    · intro et e2
      cases x <;> simp [changeOf] at e2
      rename_i m' t c
      obtain rfl : t = t1 := et
      simp only [S, Diff.fkDropped.injEq, decide_eq_true_eq]
      constructor
      · rintro ⟨rfl, a, h, h'⟩; exact ⟨_, a, h, h', by simp⟩
      · rintro ⟨j, c', h, h', rfl, -, rfl⟩
        exact ⟨rfl, c', h, h'⟩
    · rintro ⟨_, _, _, _, rfl⟩; exact ⟨rfl, hn, rfl⟩
  | relationshipAdded =>
    refine count_values hl r2 (nm := Rel.name) rn2 (mk := fun c => .relAdded m t1 c) (by intro a b e; injection e) (fun x => dir x _ ?_ ?_)
    · intro et e2
      cases x <;> simp [changeOf] at e2
      rename_i m' t c
      obtain rfl : t = t1 := et
      simp only [T.relAdded, Diff.relAdded.injEq, decide_eq_true_eq]
      constructor
      · rintro ⟨rfl, h, h'⟩; exact ⟨_, c, h, h', by simp⟩
      · rintro ⟨j, c', h, h', rfl, -, rfl⟩
        obtain rfl := rn2 _ _ h
        exact ⟨rfl, h, h'⟩
    · rintro ⟨_, _, _, _, rfl⟩; exact ⟨rfl, hn, rfl⟩
  | relationshipDropped =>
    refine count_keys hl r1 (mk := fun c => .relDropped m t1 c) (by intro a b e; injection e) (fun x => dir x _ ?_ ?_)
    · intro et e2
      cases x <;> simp [changeOf] at e2
      rename_i m' t c
      obtain rfl : t = t1 := et
      simp only [T.relDropped, Diff.relDropped.injEq, decide_eq_true_eq]
      constructor
      · rintro ⟨rfl, a, h, h'⟩; exact ⟨_, a, h, h', by simp⟩
      · rintro ⟨j, c', h, h', rfl, -, rfl⟩
        exact ⟨rfl, c', h, h'⟩
    · rintro ⟨_, _, _, _, rfl⟩; exact ⟨rfl, hn, rfl⟩

/-! ## C78 -/

theorem place_fst {db1 db2 : Database} {name schema : Str} (c1 : Consistent name schema db1) (c2 : Consistent name schema db2) :
    (∀ x ∈ (compareDatabases (fun _ => false) db1 db2).1, x.place.1 = name ∧ x.place.2.1 = schema) ∧
    (∀ x ∈ (compareDatabases (fun _ => false) db1 db2).2, x.place.1 = name ∧ x.place.2.1 = schema) := by
  have h1 := c1.keyed
  have h2 := c2.keyed
  have C14 := C14_table_differences h1 h2 (fun _ => false)
  have sch : ∀ (x : Diff) t, x.table = t → x.place.2.1 = t.schema := by intro x t e; subst e; cases x <;> rfl
  constructor
  · intro x hx
    by_cases h0 : x.kind = 0
    · cases x <;> simp [Diff.kind] at h0
      · rename_i m t
        obtain ⟨hm, n, ht, -⟩ := (C14.2.1 m t).1 hx
        exact ⟨hm.trans c1.name, c2.schema n t ht⟩
      · rename_i m t
        obtain ⟨hm, n, ht, -⟩ := (C14.1 m t).1 hx
        exact ⟨hm.trans c1.name, c1.schema n t ht⟩
    · obtain ⟨n, t2, g1, g2⟩ := (common_of_mem h1 h2 _ x h0).1 hx
      have ht1 := (tableOf_iff h1).2 g1
      have ht2 := (tableOf_iff h2).2 g2
      refine ⟨?_, (sch x _ rfl).trans (c1.schema n _ ht1)⟩
      rw [← c1.name]
      cases x with
      | tableCreated m t => exact absurd rfl h0
      | tableDropped m t => exact absurd rfl h0
      | colAdded m t c => exact ((C15_column_differences h1 h2 _ n t t2 ht1 ht2 m c).1.1 hx).1
      | colDropped m t c => exact ((C15_column_differences h1 h2 _ n t t2 ht1 ht2 m c).2.1.1 hx).1
      | colModified m t c => exact ((C15_column_differences h1 h2 _ n t t2 ht1 ht2 m c).2.2.1.1 hx).1
      | pkAdded m t k => exact ((C16_primary_key h1 h2 _ n t t2 ht1 ht2 m k).1.1 hx).1
      | pkDropped m t => exact ((C16_primary_key h1 h2 _ n t t2 ht1 ht2 m []).2.1.1 hx).1
      | shardAdded m t c k => exact ((C16_shard_key_partial h1 h2 _ n t t2 ht1 ht2 m c k).1.1 hx).1
      | shardDropped m t => exact ((C16_shard_key_partial h1 h2 _ n t t2 ht1 ht2 m (.int 0) []).2.1.1 hx).1
      | fkAdded m t k => exact ((C16_foreign_keys_partial h1 h2 _ n t t2 ht1 ht2 m k []).1.1 hx).1
      | fkDropped m t j => exact ((C16_foreign_keys_partial h1 h2 _ n t t2 ht1 ht2 m ⟨[], [], [], [], []⟩ j).2.1.1 hx).1
      | relAdded m t r => exact ((C16_relationships h1 h2 _ n t t2 ht1 ht2 m r []).1.1 hx).1
      | relDropped m t j => exact ((C16_relationships h1 h2 _ n t t2 ht1 ht2 m ⟨[], [], [], []⟩ j).2.1.1 hx).1
  · intro x hx
    by_cases h0 : x.kind = 0
    · cases x <;> simp [Diff.kind] at h0
      · rename_i m t
        obtain ⟨hm, n, ht, -⟩ := (C14.2.2.2.1 m t).1 hx
        exact ⟨hm.trans c2.name, c1.schema n t ht⟩
      · rename_i m t
        obtain ⟨hm, n, ht, -⟩ := (C14.2.2.1 m t).1 hx
        exact ⟨hm.trans c2.name, c2.schema n t ht⟩
    · obtain ⟨n, t1, g1, g2⟩ := (common_of_mem h1 h2 _ x h0).2 hx
      have ht1 := (tableOf_iff h1).2 g1
      have ht2 := (tableOf_iff h2).2 g2
      refine ⟨?_, (sch x _ rfl).trans (c2.schema n _ ht2)⟩
      rw [← c2.name]
      cases x with
      | tableCreated m t => exact absurd rfl h0
      | tableDropped m t => exact absurd rfl h0
      | colAdded m t c => exact ((C15_column_differences h1 h2 _ n t1 t ht1 ht2 m c).2.2.2.1.1 hx).1
      | colDropped m t c => exact ((C15_column_differences h1 h2 _ n t1 t ht1 ht2 m c).2.2.2.2.1.1 hx).1
      | colModified m t c => exact ((C15_column_differences h1 h2 _ n t1 t ht1 ht2 m c).2.2.2.2.2.1 hx).1
      | pkAdded m t k => exact ((C16_primary_key h1 h2 _ n t1 t ht1 ht2 m k).2.2.1.1 hx).1
      | pkDropped m t => exact ((C16_primary_key h1 h2 _ n t1 t ht1 ht2 m []).2.2.2.1 hx).1
      | shardAdded m t c k => exact ((C16_shard_key_partial h1 h2 _ n t1 t ht1 ht2 m c k).2.2.1.1 hx).1
      | shardDropped m t => exact ((C16_shard_key_partial h1 h2 _ n t1 t ht1 ht2 m (.int 0) []).2.2.2.1 hx).1
      | fkAdded m t k => exact ((C16_foreign_keys_partial h1 h2 _ n t1 t ht1 ht2 m k []).2.2.1.1 hx).1
      | fkDropped m t j => exact ((C16_foreign_keys_partial h1 h2 _ n t1 t ht1 ht2 m ⟨[], [], [], [], []⟩ j).2.2.2.1 hx).1
      | relAdded m t r => exact ((C16_relationships h1 h2 _ n t1 t ht1 ht2 m r []).2.2.1.1 hx).1
      | relDropped m t j => exact ((C16_relationships h1 h2 _ n t1 t ht1 ht2 m ⟨[], [], [], []⟩ j).2.2.2.1 hx).1

theorem mem_lines {l : List Diff} {name schema n : Str} {k : Change} (hp : ∀ x ∈ l, x.place.1 = name ∧ x.place.2.1 = schema) :
    changeLine name schema n k ∈ l.map Diff.repr ↔ ∃ x ∈ l, x.place.2.2 = n ∧ changeOf x = k := by
  rw [List.mem_map]
  constructor
  · rintro ⟨x, hx, e⟩
    obtain ⟨e1, e2⟩ := hp x hx
    rw [repr_eq, e1, e2] at e
    exact ⟨x, hx, C78_line_injective e⟩
  · rintro ⟨x, hx, rfl, rfl⟩
    obtain ⟨e1, e2⟩ := hp x hx
    exact ⟨x, hx, by rw [repr_eq, e1, e2]⟩

/-- The text of a list of lines, each after a tab. -/
def tabbed (l : List Str) : Str := (l.map (fun s => c!"\t" ++ s ++ c!"\n")).flatten

theorem count_lines {l : List Diff} {name schema n : Str} {k : Change} (hp : ∀ x ∈ l, x.place.1 = name ∧ x.place.2.1 = schema) :
    (l.map Diff.repr).count (changeLine name schema n k) = l.countP (aboutB n k) := by
  rw [List.count_eq_countP, List.countP_map]
  refine List.countP_congr (fun x hx => ?_)
  obtain ⟨e1, e2⟩ := hp x hx
  simp only [Function.comp, beq_iff_eq, aboutB_iff, repr_eq, e1, e2]
  exact ⟨C78_line_injective, fun ⟨a, b⟩ => by rw [a, b]⟩

/-- An entry for a table in only one of the databases is there once. -/
theorem one_told {l : List Diff} (hl : l.Nodup) {n : Str} {k : Change}
    (h : ∀ x ∈ l, ∀ y ∈ l, x.place.2.2 = n → changeOf x = k → y.place.2.2 = n → changeOf y = k → x = y) : l.countP (aboutB n k) ≤ 1 := by
  rw [List.countP_eq_length_filter]
  have h1 : (l.filter (aboutB n k)).Nodup := hl.filter _
  have : ∀ x ∈ l.filter (aboutB n k), ∀ y ∈ l.filter (aboutB n k), x = y := by
    intro x hx y hy
    obtain ⟨h2, h3⟩ := List.mem_filter.1 hx
    obtain ⟨h4, h5⟩ := aboutB_iff.1 h3
    obtain ⟨g2, g3⟩ := List.mem_filter.1 hy
    obtain ⟨g4, g5⟩ := aboutB_iff.1 g3
    exact h x h2 y g2 h4 h5 g4 g5
  rcases e : l.filter (aboutB n k) with _ | ⟨a, _ | ⟨b, r⟩⟩
  · simp
  · simp
  · rw [e] at h1 this
    have hb := this a (by simp) b (by simp)
    rw [hb] at h1
    simp at h1

theorem same_table {db : Database} (hw : WellKeyed db) {n a b : Str} {t u : Table} (ht : TableOf db a t) (hu : TableOf db b u) (e1 : t.name = n) (e2 : u.name = n) : t = u := by
  rw [hw.tableNames a t ht, e1] at ht
  rw [hw.tableNames b u hu, e2] at hu
  exact unique_entry hw.tables ht hu

/-- **C78.** Without --alter1 and --alter2, ddldiff prints two lists of lines.  Each line names a table and a kind of change, and the line for a table and a kind is in the first
list exactly if the first database has to change in this way to become the second, and in the second list the other way round; it is there as often as there are changes of the kind.  Full claim: for all kinds.  What holds: the same,
except that for foreign keys and added shard keys the comparison has to tell the keys apart (`KeysCompared`; see C16). -/
theorem C78_listing_partial (fr : Rat → Str) (d : Disk) (a : DiffArgs) (f1 f2 : Str) (db1 db2 : Database) (hv : DiffDocumented d a)
    (h1 : a.ddl1 = some f1) (h2 : a.ddl2 = some f2) (n1 : a.alter1 = false) (n2 : a.alter2 = false)
    (hp1 : (parseDdl d.fs { databaseName := a.database, schemaName := a.schema } (some f1)).2 = .ok (some db1))
    (hp2 : (parseDdl d.fs { databaseName := a.database, schemaName := a.schema } (some f2)).2 = .ok (some db2)) :
    ∃ l1 l2, (diffMain fr d a).2 = none ∧
      (diffMain fr d a).1.text = c!"Database differences for DB 1:\n" ++ tabbed l1 ++ (c!"Database differences for DB 2:\n" ++ tabbed l2) ∧
      (∀ s ∈ l1 ++ l2, ∃ n k, s = changeLine a.database a.schema n k) ∧
      (∀ n k, (needsKeys k → KeysCompared db1 db2) →
        (changeLine a.database a.schema n k ∈ l1 ↔ MustChange db1 db2 n k) ∧ (changeLine a.database a.schema n k ∈ l2 ↔ MustChange db2 db1 n k) ∧
        (∀ t1 t2, TableOf db1 n t1 → TableOf db2 n t2 → l1.count (changeLine a.database a.schema n k) = tableChanges t1 t2 k ∧
          l2.count (changeLine a.database a.schema n k) = tableChanges t2 t1 k) ∧
        (k = .tableCreated ∨ k = .tableDropped → l1.count (changeLine a.database a.schema n k) ≤ 1 ∧ l2.count (changeLine a.database a.schema n k) ≤ 1)) := by
  have c1 := ((C36_parsed_database_consistent d.fs _ _).1 db1 hp1).1
  have c2 := ((C36_parsed_database_consistent d.fs _ _).1 db2 hp2).1
  have hd : diffMain fr d a = (.lists (compareDatabases (fun _ => false) db1 db2).1 (compareDatabases (fun _ => false) db1 db2).2, none) := by
    unfold diffMain parseFor
    rw [if_pos ((C60_diff d a).2 hv), h1, h2]
    simp only [hp1, hp2]
    rw [if_pos (by simp [n1, n2])]
  obtain ⟨q1, q2⟩ := place_fst c1 c2
  refine ⟨(compareDatabases (fun _ => false) db1 db2).1.map Diff.repr, (compareDatabases (fun _ => false) db1 db2).2.map Diff.repr, by rw [hd], ?_, ?_, ?_⟩
  · rw [hd]
    simp only [DiffOut.text, printLists, tabbed, List.map_map]
    rfl
  · intro s hs
    rw [← List.map_append] at hs
    obtain ⟨x, hx, rfl⟩ := List.mem_map.1 hs
    have e : x.place.1 = a.database ∧ x.place.2.1 = a.schema := by
      rcases List.mem_append.1 hx with hx | hx
      · exact q1 x hx
      · exact q2 x hx
    exact ⟨x.place.2.2, changeOf x, by rw [repr_eq, e.1, e.2]⟩
  · intro n k hk
    rw [mem_lines q1, mem_lines q2]
    have k1 := c1.keyed
    have k2 := c2.keyed
    have C14 := C14_table_differences k1 k2 (fun _ => false)
    refine ⟨entries_fst c1 c2 hk, entries_snd c1 c2 hk, fun t1 t2 ht1 ht2 => ?_, fun hkind => ?_⟩
    · rw [count_lines q1, count_lines q2]
      exact ⟨count_told (told_fst k1 k2 ht1 ht2) hk (k1.cols n t1 ht1) (k2.cols n t2 ht2) (k1.colNames n t1 ht1) (k2.colNames n t2 ht2) (k1.fks n t1 ht1)
          (k2.fks n t2 ht2) (k2.fkNames n t2 ht2) (k1.rels n t1 ht1) (k2.rels n t2 ht2) (k2.relNames n t2 ht2),
        count_told (told_snd k1 k2 ht1 ht2) hk (k2.cols n t2 ht2) (k1.cols n t1 ht1) (k2.colNames n t2 ht2) (k1.colNames n t1 ht1) (k2.fks n t2 ht2)
          (k1.fks n t1 ht1) (k1.fkNames n t1 ht1) (k2.rels n t2 ht2) (k1.rels n t1 ht1) (k1.relNames n t1 ht1)⟩
    · rw [count_lines q1, count_lines q2]
      rcases hkind with rfl | rfl
      · exact ⟨one_told C14.2.2.2.2.1 (fun x hx y hy e1 e2 e3 e4 => by
            cases x <;> simp [changeOf] at e2
            cases y <;> simp [changeOf] at e4
            obtain ⟨rfl, a, h, -⟩ := (C14.2.1 _ _).1 hx
            obtain ⟨rfl, b, h', -⟩ := (C14.2.1 _ _).1 hy
            rw [same_table k2 h h' e1 e3]),
          one_told C14.2.2.2.2.2 (fun x hx y hy e1 e2 e3 e4 => by
            cases x <;> simp [changeOf] at e2
            cases y <;> simp [changeOf] at e4
            obtain ⟨rfl, a, h, -⟩ := (C14.2.2.2.1 _ _).1 hx
            obtain ⟨rfl, b, h', -⟩ := (C14.2.2.2.1 _ _).1 hy
            rw [same_table k1 h h' e1 e3])⟩
      · exact ⟨one_told C14.2.2.2.2.1 (fun x hx y hy e1 e2 e3 e4 => by
            cases x <;> simp [changeOf] at e2
            cases y <;> simp [changeOf] at e4
            obtain ⟨rfl, a, h, -⟩ := (C14.1 _ _).1 hx
            obtain ⟨rfl, b, h', -⟩ := (C14.1 _ _).1 hy
            rw [same_table k1 h h' e1 e3]),
          one_told C14.2.2.2.2.2 (fun x hx y hy e1 e2 e3 e4 => by
            cases x <;> simp [changeOf] at e2
            cases y <;> simp [changeOf] at e4
            obtain ⟨rfl, a, h, -⟩ := (C14.2.2.1 _ _).1 hx
            obtain ⟨rfl, b, h', -⟩ := (C14.2.2.1 _ _).1 hy
            rw [same_table k2 h h' e1 e3])⟩

theorem bare_compared {db1 db2 : Database} (h1 : ∀ p ∈ db1.tables, p.2.fks = [] ∧ p.2.shard = none) : KeysCompared db1 db2 :=
  ⟨fun n t1 t2 g1 _ m a b ha => by rw [(h1 _ g1).1] at ha; exact absurd ha (by simp), fun n t1 t2 g1 _ _ => (h1 _ g1).2⟩

/-- The sample files of C76, by the theorem: a column of `a` is new and one has another type, `b` is new and `gone` is dropped. -/
example : ∃ l1 l2, (diffMain (fun _ => []) twoFiles { ddl1 := some c!"f", ddl2 := some c!"g" }).1.text =
      c!"Database differences for DB 1:\n" ++ tabbed l1 ++ (c!"Database differences for DB 2:\n" ++ tabbed l2) ∧
    (∀ n k, changeLine c!"MY_DATABASE" defaultSchema n k ∈ l1 ↔ MustChange olderDb newerDb n k) ∧
    (∀ n k, changeLine c!"MY_DATABASE" defaultSchema n k ∈ l2 ↔ MustChange newerDb olderDb n k) ∧
    l1.count (changeLine c!"MY_DATABASE" defaultSchema c!"a" .columnAdded) = 1 := by
  have hk : KeysCompared olderDb newerDb := bare_compared (by decide)
  obtain ⟨l1, l2, -, h, -, h'⟩ := C78_listing_partial (fun _ => []) twoFiles { ddl1 := some c!"f", ddl2 := some c!"g" }
    c!"f" c!"g" olderDb newerDb ((C60_diff _ _).1 (by decide)) rfl rfl rfl rfl (by decide +kernel) (by decide +kernel)
  refine ⟨l1, l2, h, fun n k => (h' n k (fun _ => hk)).1, fun n k => (h' n k (fun _ => hk)).2.1, ?_⟩
  exact ((h' c!"a" .columnAdded (fun _ => hk)).2.2.1 _ _ (List.Mem.head _) (List.Mem.head _)).1

/-- The text itself. -/
example : (diffMain (fun _ => []) twoFiles { ddl1 := some c!"f", ddl2 := some c!"g" }).1.text = c!"Database differences for DB 1:
\tMY_DATABASE.falcon_default_schema.a (10): Column Added
\tMY_DATABASE.falcon_default_schema.a (12): Column Modified
\tMY_DATABASE.falcon_default_schema.b (0): Table Created
\tMY_DATABASE.falcon_default_schema.gone (1): Table Dropped
Database differences for DB 2:
\tMY_DATABASE.falcon_default_schema.a (11): Column Dropped
\tMY_DATABASE.falcon_default_schema.a (12): Column Modified
\tMY_DATABASE.falcon_default_schema.b (1): Table Dropped
\tMY_DATABASE.falcon_default_schema.gone (0): Table Created
" := by decide +kernel

/-- C78 fails for shard keys: a file compared with itself is said to differ. -/
theorem C78_same_file : (diffMain (fun _ => []) (disk [(c!"f", .file (.text c!"CREATE TABLE a (x BIGINT) PARTITION BY HASH (8) KEY (x);"))])
      { ddl1 := some c!"f", ddl2 := some c!"f" }).1.text = c!"Database differences for DB 1:
\tMY_DATABASE.falcon_default_schema.a (30): Hash Key Added
Database differences for DB 2:
\tMY_DATABASE.falcon_default_schema.a (30): Hash Key Added
" := by decide +kernel

/-- C78 fails for foreign keys: one that is on another column is not listed. -/
theorem C78_moved_key : (diffMain (fun _ => []) (disk [
        (c!"f", .file (.text c!"CREATE TABLE b (x INT, y INT);\nCREATE TABLE a (x INT, y INT);\nALTER TABLE a ADD CONSTRAINT k FOREIGN KEY (x) REFERENCES b (x);\n")),
        (c!"g", .file (.text c!"CREATE TABLE b (x INT, y INT);\nCREATE TABLE a (x INT, y INT);\nALTER TABLE a ADD CONSTRAINT k FOREIGN KEY (y) REFERENCES b (y);\n"))])
      { ddl1 := some c!"f", ddl2 := some c!"g" }).1.text = c!"Database differences for DB 1:\nDatabase differences for DB 2:\n" := by decide +kernel

end Verif.Props
