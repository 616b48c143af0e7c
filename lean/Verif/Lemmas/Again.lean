import Verif.Lemmas.ReadBack
import Verif.Spec.Parse
/-
Lemmas on writing what was read from written TQL.
-/

namespace Verif
open Verif Verif.Spec

theorem small_small (c : Char) : small (small c) = small c := by
  have key : ∀ p ∈ letters, small p.2 = p.2 := by decide
  cases h : letters.find? (fun p => p.1 = c) with
  | none =>
    have : small c = c := by unfold small; rw [h]
    rw [this, this]
  | some p =>
    have : small c = p.2 := by unfold small; rw [h]
    rw [this]
    exact key p (List.mem_of_find?_eq_some h)

theorem big_big (c : Char) : big (big c) = big c := by
  have key : ∀ p ∈ letters, big p.1 = p.1 := by decide
  cases h : letters.find? (fun p => p.2 = c) with
  | none =>
    have : big c = c := by unfold big; rw [h]
    rw [this, this]
  | some p =>
    have : big c = p.1 := by unfold big; rw [h]
    rw [this]
    exact key p (List.mem_of_find?_eq_some h)

theorem big_ne_underscore {c : Char} (hc : c ≠ '_') : big c ≠ '_' := by
  have key : ∀ p ∈ letters, p.1 ≠ '_' := by decide
  cases h : letters.find? (fun p => p.2 = c) with
  | none =>
    have : big c = c := by unfold big; rw [h]
    rw [this]
    exact hc
  | some p =>
    have : big c = p.1 := by unfold big; rw [h]
    rw [this]
    exact key p (List.mem_of_find?_eq_some h)

theorem map_small_small (s : Str) : (s.map small).map small = s.map small := by
  simp [List.map_map, Function.comp_def, small_small]

theorem map_big_big (s : Str) : (s.map big).map big = s.map big := by
  simp [List.map_map, Function.comp_def, big_big]

/-- A printed name is printed as it is. -/
theorem printed_again {o : GenOpts} {n m : Str} (h : PrintedAs o n m) : PrintedAs o m m := by
  by_cases hm : m = c!"falcon_default_schema"
  · simp [PrintedAs, hm]
  have hn : n ≠ c!"falcon_default_schema" := by
    rintro rfl
    simp only [PrintedAs, if_true] at h
    exact hm h
  unfold PrintedAs at h ⊢
  rw [if_neg hn] at h
  rw [if_neg hm]
  cases hl : o.lowercase with
  | true => simp only [hl, if_true] at h ⊢; rw [h, map_small_small]
  | false =>
    cases hu : o.uppercase with
    | true => simp only [hl, hu, if_true, Bool.false_eq_true, if_false] at h ⊢; rw [h, map_big_big]
    | false =>
      cases hc : o.camelcase with
      | false => simp
      | true =>
        simp only [hl, hu, hc, if_true, Bool.false_eq_true, if_false] at h ⊢
        obtain ⟨a, ws, b, hne, hw, -, rfl⟩ := h
        refine ⟨0, [ws.flatMap capitalised], 0, by simp, ?_, by simp [snake], ?_⟩
        · intro w hw'
          rw [List.mem_singleton] at hw'
          subst hw'
          refine ⟨?_, ?_⟩
          · cases ws with
            | nil => exact absurd rfl hne
            | cons w ws =>
              cases w with
              | nil => exact absurd rfl (hw [] (by simp)).1
              | cons c w => simp [capitalised]
          · simp only [List.mem_flatMap, not_exists, not_and]
            intro w hws
            have := (hw w hws).2
            cases w with
            | nil => simp [capitalised]
            | cons c w =>
              simp only [List.mem_cons, not_or] at this
              simp only [capitalised, List.mem_cons, not_or]
              exact ⟨fun e => big_ne_underscore (Ne.symm this.1) e.symm, this.2⟩
        · cases ws with
          | nil => exact absurd rfl hne
          | cons w ws =>
            cases w with
            | nil => exact absurd rfl (hw [] (by simp)).1
            | cons c w => simp [capitalised, big_big]

theorem columnAs_again (o : GenOpts) (n : Str) : ColumnAs o (ColumnAs o n) = ColumnAs o n := by
  unfold ColumnAs
  split
  · exact map_small_small n
  · split
    · exact map_big_big n
    · rfl

/-- What is read from the printed text is printed alike. -/
theorem databaseAs_again {o : GenOpts} {n schema : Str} {db db' : Database} (hd : DatabaseAs o db db') (hc : Consistent n schema db)
    (hi : ∀ m t, TableOf db m t → ∀ q c, ColumnOf t q c → c.type ≠ c!"INT") : DatabaseAs o (normalDb n schema db') db' := by
  have hlen : db'.tables = [] ↔ db.tables = [] := by
    rw [← List.length_eq_zero_iff, ← List.length_eq_zero_iff, hd.tables.length_eq]
  refine ⟨by have := hd.name; rw [hc.name] at this; exact this, ?_, ?_⟩
  · simp only [normalDb, List.forall₂_map_left_iff]
    rw [List.forall₂_same]
    intro p' hp'
    obtain ⟨p, hp, hp1, ht⟩ : ∃ p ∈ db.tables, PrintedAs o p.1 p'.1 ∧ TableAs o p.2 p'.2 := by
      obtain ⟨i, hi, rfl⟩ := List.mem_iff_getElem.1 hp'
      exact ⟨_, List.getElem_mem (by rw [hd.tables.length_eq]; exact hi), hd.tables.get _ hi⟩
    refine ⟨printed_again hp1, printed_again ht.name, ?_, rfl, ?_, ?_, ?_, ?_⟩
    · have := ht.schema
      rw [hc.schema p.1 p.2 hp] at this
      exact this
    · simp only [normalTable]
      cases e : p'.2.shard with
      | none => rfl
      | some k =>
        obtain ⟨-, i, hk⟩ := hc.shards p.1 p.2 hp k (by rw [← ht.shard, e])
        cases k
        simp only at hk
        subst hk
        rfl
    · simp only [normalTable, ht.cols, List.map_map]
      apply List.map_congr_left
      intro q hq
      have h1 := hc.types p.1 p.2 hp q.1 q.2 hq
      have h2 := hi p.1 p.2 hp q.1 q.2 hq
      have key : ∀ ty ∈ [c!"DOUBLE", c!"BOOL", c!"INT", c!"BIGINT", c!"DATE", c!"DATETIME", c!"TIME", c!"UNKNOWN", c!"VARCHAR(0)"],
          ty ≠ c!"INT" → normalType ty = ty := by decide
      simp [columnAs_again, key _ h1 h2]
    · rw [normalTable, List.forall₂_same]
      intro q' hq'
      obtain ⟨q, hq, -, hk⟩ : ∃ q ∈ p.2.fks, q'.1 = q.1 ∧ KeyAs o q.2 q'.2 := by
        obtain ⟨i, hi, rfl⟩ := List.mem_iff_getElem.1 hq'
        exact ⟨_, List.getElem_mem (by rw [ht.fks.length_eq]; exact hi), ht.fks.get _ hi⟩
      exact ⟨rfl, rfl, printed_again hk.fromTable, rfl, printed_again hk.toTable, rfl⟩
    · rw [normalTable, List.forall₂_same]
      intro q' hq'
      obtain ⟨q, hq, -, hk⟩ : ∃ q ∈ p.2.rels, q'.1 = q.1 ∧ RelationshipAs o q.2 q'.2 := by
        obtain ⟨i, hi, rfl⟩ := List.mem_iff_getElem.1 hq'
        exact ⟨_, List.getElem_mem (by rw [ht.rels.length_eq]; exact hi), ht.rels.get _ hi⟩
      exact ⟨rfl, rfl, printed_again hk.fromTable, printed_again hk.toTable, rfl⟩
  · have h1 := hc.schemas
    have h2 : List.Forall₂ (fun s p' => PrintedAs o s p'.1) (db.schemas.map Prod.fst) db'.schemas := by
      rw [List.forall₂_map_left_iff]; exact hd.schemas
    rw [h1] at h2
    simp only [normalDb]
    by_cases e : db.tables = []
    · rw [if_pos e] at h2
      rw [if_pos (hlen.2 e)]
      rw [List.forall₂_nil_left_iff.1 h2]
      exact .nil
    · rw [if_neg e] at h2
      rw [if_neg (fun x => e (hlen.1 x))]
      obtain ⟨b, l, hb, hl, e'⟩ := List.forall₂_cons_left_iff.1 h2
      rw [e', List.forall₂_nil_left_iff.1 hl]
      exact .cons hb .nil

theorem schemaNames_again {o : GenOpts} {n schema : Str} {db db' : Database} (hd : DatabaseAs o db db') (hc : Consistent n schema db) :
    (normalDb n schema db').schemaNames = db.schemaNames := by
  have hlen : db'.tables = [] ↔ db.tables = [] := by
    rw [← List.length_eq_zero_iff, ← List.length_eq_zero_iff, hd.tables.length_eq]
  have h1 := hc.schemas
  show (normalDb n schema db').schemas.map Prod.fst = db.schemas.map Prod.fst
  rw [h1]
  simp only [normalDb, if_congr hlen rfl rfl]
  split <;> rfl

end Verif
