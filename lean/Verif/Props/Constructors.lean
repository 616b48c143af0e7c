import Verif.Props.Registry
import Verif.Props.Config
import Mathlib.Data.List.Perm.Subperm
/-
What constructors and comparisons of configurations do, exactly: C06, C44.
-/

namespace Verif.Props
open Verif Verif.Spec

/-- Values that are the same to Python: the same text or the same number. -/
inductive SameValue : CfgVal → CfgVal → Prop where
  | text (s : Str) : SameValue (.text s) (.text s)
  | int (n : Int) : SameValue (.int n) (.int n)
  | flt (q : Rat) : SameValue (.flt q) (.flt q)
  | whole (n : Int) : SameValue (.int n) (.flt n)
  | fraction (n : Int) : SameValue (.flt n) (.int n)

theorem same_iff (v u : CfgVal) : CfgVal.same v u = true ↔ SameValue v u := by
  constructor
  · intro h
    cases v <;> cases u <;> simp only [CfgVal.same, decide_eq_true_eq, Bool.false_eq_true] at h
    · subst h; exact .int _
    · subst h; exact .whole _
    · subst h; exact .fraction _
    · subst h; exact .flt _
    · subst h; exact .text _
  · intro h
    cases h <;> simp [CfgVal.same]

theorem SameValue.symm {v u : CfgVal} (h : SameValue v u) : SameValue u v := by
  cases h
  · exact .text _
  · exact .int _
  · exact .flt _
  · exact .fraction _
  · exact .whole _

/-- C44, what equal means: two configurations are equal if and only if every setting of the one is a setting of the other with the same value. -/
theorem C44_equal (a b : Config) (ha : a.keys.Nodup) (hb : b.keys.Nodup) : Config.eq a b = true ↔
    (∀ k v, (k, v) ∈ a → ∃ u, (k, u) ∈ b ∧ SameValue v u) ∧ (∀ k v, (k, v) ∈ b → ∃ u, (k, u) ∈ a ∧ SameValue v u) := by
  have step : (a.all (fun p => match b.get? p.1 with | some v => CfgVal.same p.2 v | none => false) = true) ↔
      ∀ k v, (k, v) ∈ a → ∃ u, (k, u) ∈ b ∧ SameValue v u := by
    rw [List.all_eq_true]
    constructor
    · intro h k v hm
      have := h _ hm
      cases hg : b.get? k with
      | none => simp only [hg] at this; cases this
      | some u =>
        simp only [hg] at this
        exact ⟨u, Dict.mem_of_get? hg, (same_iff _ _).1 this⟩
    · rintro h ⟨k, v⟩ hm
      obtain ⟨u, hu, hs⟩ := h k v hm
      simp only [Dict.get?_of_mem hb hu]
      exact (same_iff _ _).2 hs
  unfold Config.eq
  rw [Bool.and_eq_true, beq_iff_eq]
  refine (and_congr_right fun _ => step).trans ?_
  have sub : (∀ k v, (k, v) ∈ a → ∃ u, (k, u) ∈ b ∧ SameValue v u) → a.keys ⊆ b.keys := by
    intro h k hk
    obtain ⟨⟨k, v⟩, hm, rfl⟩ := List.mem_map.1 hk
    obtain ⟨u, hu, -⟩ := h k v hm
    exact List.mem_map.2 ⟨_, hu, rfl⟩
  have la : a.keys.length = a.length := by simp [Dict.keys]
  have lb : b.keys.length = b.length := by simp [Dict.keys]
  constructor
  · rintro ⟨hl, h⟩
    refine ⟨h, fun k v hm => ?_⟩
    have hperm : b.keys ⊆ a.keys := (List.subperm_of_subset ha (sub h)).perm_of_length_le (by omega) |>.symm.subset
    obtain ⟨⟨k', u⟩, hu, e⟩ := List.mem_map.1 (hperm (List.mem_map.2 ⟨_, hm, rfl⟩))
    dsimp only at e
    subst e
    obtain ⟨v', hv', hs⟩ := h k' u hu
    have : v' = v := by
      have h1 := Dict.get?_of_mem hb hv'
      rw [Dict.get?_of_mem hb hm] at h1
      exact (Option.some.inj h1).symm
    subst this
    exact ⟨u, hu, hs.symm⟩
  · rintro ⟨h, h'⟩
    refine ⟨?_, h⟩
    have h1 := (List.subperm_of_subset ha (sub h)).length_le
    have hsub : b.keys ⊆ a.keys := by
      intro k hk
      obtain ⟨⟨k, v⟩, hm, rfl⟩ := List.mem_map.1 hk
      obtain ⟨u, hu, -⟩ := h' k v hm
      exact List.mem_map.2 ⟨_, hu, rfl⟩
    have h2 := (List.subperm_of_subset hb hsub).length_le
    omega

example : Config.eq [(c!"a", .int 2), (c!"b", .text c!"x")] [(c!"b", .text c!"x"), (c!"a", .flt 2)] = true ∧
    Config.eq [(c!"a", .int 2)] [(c!"a", .text c!"2")] = false ∧ Config.eq [(c!"a", .int 2)] [(c!"a", .int 2), (c!"b", .int 1)] = false := by decide +kernel

/-- **C06** (tables). A table is built exactly if its name and schema are given, and holds exactly what was given. -/
theorem C06_table_constructor (n s : Option Str) (k : Option KeyArg) (sk : Option ShardKey) (t : Table) :
    mkTable n s k sk = .ok t ↔ n = some t.name ∧ s = some t.schema ∧ ((k = none ∧ t.pk = []) ∨ ∃ a, k = some a ∧ KeyCols a t.pk) ∧ t.shard = sk ∧
      t.cols = [] ∧ t.fks = [] ∧ t.rels = [] := by
  obtain ⟨tn, ts, tk, tsh, tc, tf, tr⟩ := t
  cases n with
  | none => simp [mkTable]
  | some n =>
    cases s with
    | none => simp [mkTable]
    | some s =>
      cases k with
      | none =>
        simp only [mkTable, Except.ok.injEq, Table.mk.injEq, Option.some.injEq, reduceCtorEq, false_and, exists_false, or_false, true_and]
        constructor
        · rintro ⟨rfl, rfl, rfl, rfl, rfl, rfl, rfl⟩; simp
        · rintro ⟨rfl, rfl, rfl, rfl, rfl, rfl, rfl⟩; simp
      | some k =>
        simp only [mkTable, Except.ok.injEq, Table.mk.injEq, Option.some.injEq, reduceCtorEq, false_and, false_or]
        constructor
        · rintro ⟨rfl, rfl, rfl, rfl, rfl, rfl, rfl⟩
          refine ⟨rfl, rfl, ⟨k, rfl, ?_⟩, rfl, rfl, rfl, rfl⟩
          cases k <;> rfl
        · rintro ⟨rfl, rfl, ⟨a, rfl, ha⟩, rfl, rfl, rfl, rfl⟩
          cases k <;> cases ha <;> simp [KeyArg.toList]

/-- **C06** (tables). Otherwise it is an `AssertionError`. -/
theorem C06_table_constructor_error (n s : Option Str) (k : Option KeyArg) (sk : Option ShardKey) (e : PyErr) :
    mkTable n s k sk = .error e ↔ e = .assertion ∧ (n = none ∨ s = none) := by
  cases n <;> cases s <;> simp [mkTable, eq_comm]

/-- **C06** (shard keys). A shard key is built exactly if both arguments are given; the table that is given it tells its columns and number of
shards, and a table without one tells `None` for both. -/
theorem C06_shard_key_told (k : Option KeyArg) (n : Option ShardCount) (sk : ShardKey) (t : Table) (h : t.shard = some sk) :
    mkShardKey k n = .ok sk ↔ (∃ a l, k = some a ∧ KeyCols a l ∧ t.shardKeyColumns = some l) ∧ n.isSome ∧ t.numberShards = n := by
  unfold Table.shardKeyColumns Table.numberShards
  rw [h]
  obtain ⟨ks, num⟩ := sk
  cases k with
  | none => simp [mkShardKey]
  | some k =>
    cases n with
    | none => simp [mkShardKey]
    | some n =>
      simp only [mkShardKey, Except.ok.injEq, ShardKey.mk.injEq, Option.map_some, Option.some.injEq, Option.isSome_some, true_and]
      constructor
      · rintro ⟨rfl, rfl⟩
        exact ⟨⟨k, _, rfl, by cases k <;> rfl, rfl⟩, rfl⟩
      · rintro ⟨⟨a, l, rfl, ha, rfl⟩, rfl⟩
        refine ⟨?_, rfl⟩
        cases k <;> cases ha <;> rfl

theorem C06_no_shard_key (t : Table) : (t.shardKeyColumns = none ↔ t.shard = none) ∧ (t.numberShards = none ↔ t.shard = none) := by
  unfold Table.shardKeyColumns Table.numberShards
  simp

example : (∃ t, mkTable (some c!"t") (some c!"s") (some (.one c!"a")) (some ⟨[c!"a", c!"b"], .int 4⟩) = .ok t ∧ t.pk = [c!"a"] ∧ t.shardKeyColumns = some [c!"a", c!"b"]) ∧
    mkTable (some c!"t") none none none = .error .assertion := ⟨⟨_, rfl, rfl, rfl⟩, rfl⟩

end Verif.Props
