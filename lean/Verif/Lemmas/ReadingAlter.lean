import Verif.Lemmas.ReadingNames
/-
What ALTER TABLE statements do, whatever their text is.
-/

namespace Verif
open Spec

theorem longest_length : ∀ {l : List ((Str × Between) × Bool)} {s : Str} {gs : List Str}, Longest l s gs → gs.length = (l.filter (·.2)).length
  | [], _, gs, h => by rw [show gs = [] from h]; rfl
  | (p, cap) :: l, s, gs, ⟨m, g, r, gs', _, _, _, _, h, e⟩ => by
    have := longest_length h
    subst e
    cases cap <;> simp [this]

theorem length_two {l : List Str} (h : l.length = 2) : ∃ a b, l = [a, b] := by
  match l, h with
  | [a, b], _ => exact ⟨a, b, rfl⟩

theorem length_three {l : List Str} (h : l.length = 3) : ∃ a b c, l = [a, b, c] := by
  match l, h with
  | [a, b, c], _ => exact ⟨a, b, c, rfl⟩

theorem length_four {l : List Str} (h : l.length = 4) : ∃ a b c d, l = [a, b, c, d] := by
  match l, h with
  | [a, b, c, d], _ => exact ⟨a, b, c, d, rfl⟩

theorem fk_longest {s : Str} {gs : List Str} : reMatch patFK s = some gs ↔ Longest (marked namedKeyShape [true, false, true, false, true, true, false]) s gs := by
  rw [patFK_eq, ← longest_iff (by decide)]; rfl

theorem fk_none {s : Str} : reMatch patFK s = none ↔ ¬ HasShape namedKeyShape s := by
  rw [patFK_eq, shape_iff (by decide)]; rfl

theorem fkNoName_longest {s : Str} {gs : List Str} : reMatch patFKNoName s = some gs ↔ Longest (marked keyShape [false, true, false, true, true, false]) s gs := by
  rw [patFKNoName_eq, ← longest_iff (by decide)]; rfl

theorem pk_longest {s : Str} {gs : List Str} : reMatch patPK s = some gs ↔ Longest (marked primaryShape [true, false, false, true, false]) s gs := by
  rw [patPK_eq, ← longest_iff (by decide)]; rfl

theorem add_longest {s : Str} {gs : List Str} : reMatch patAdd s = some gs ↔ Longest (marked addShape [true, false]) s gs := by
  rw [patAdd_eq, ← longest_iff (by decide)]; rfl

theorem rel_longest {s : Str} {gs : List Str} : reMatch patRel s = some gs ↔ Longest (marked namedRelationshipShape [true, true, true, true]) s gs := by
  rw [patRel_eq, ← longest_iff (by decide)]; rfl

theorem rel_none {s : Str} : reMatch patRel s = none ↔ ¬ HasShape namedRelationshipShape s := by
  rw [patRel_eq, shape_iff (by decide)]; rfl

theorem relNoName_longest {s : Str} {gs : List Str} : reMatch patRelNoName s = some gs ↔ Longest (marked relationshipShape [true, true, true]) s gs := by
  rw [patRelNoName_eq, ← longest_iff (by decide)]; rfl

/-! ## Foreign keys -/

theorem givesKey_iff {s : Str} {k : KeyText} : GivesKey s k ↔ readConstraint s = some (k.name, k.cols, k.table, k.refs) := by
  obtain ⟨name, cols, table, refs⟩ := k
  constructor
  · intro h
    cases h with
    | @named c n f u g _ hs hl hn hf hu hg =>
      obtain ⟨m, hm, hw⟩ := hn
      simp only at hm hf hu hg
      unfold readConstraint
      rw [shaved_iff.1 hs]
      simp only [fk_longest.2 hl, namesTable_iff.1 hu, written_iff.1 hw, columns_iff.1 hf, columns_iff.1 hg, Option.map_some, hm]
    | @unnamed c f u g _ hs hn hl hk hf hu hg =>
      simp only at hk hf hu hg
      unfold readConstraint
      rw [shaved_iff.1 hs]
      simp only [fk_none.2 hn, fkNoName_longest.2 hl, namesTable_iff.1 hu, columns_iff.1 hf, columns_iff.1 hg, Option.map_some, hk]
  · intro h
    unfold readConstraint at h
    have hs := shaved_iff.2 (rfl : strip (stripChars (· == ';') (stripChars (· == ',') (strip s))) = _)
    generalize strip (stripChars (· == ';') (stripChars (· == ',') (strip s))) = c at h hs
    dsimp only at h
    cases hm : reMatch patFK c with
    | some gs =>
      obtain ⟨n, f, u, g, rfl⟩ := length_four (longest_length (fk_longest.1 hm))
      rw [hm] at h
      simp only [Option.map_eq_some_iff, Prod.mk.injEq] at h
      obtain ⟨t, ht, e1, e2, rfl, e4⟩ := h
      exact .named hs (fk_longest.1 hm) ⟨_, e1.symm, written_iff.2 rfl⟩ (columns_iff.2 e2) (namesTable_iff.2 ht) (columns_iff.2 e4)
    | none =>
      rw [hm] at h
      dsimp only at h
      cases hm' : reMatch patFKNoName c with
      | none => rw [hm'] at h; cases h
      | some gs =>
        obtain ⟨f, u, g, rfl⟩ := length_three (longest_length (fkNoName_longest.1 hm'))
        rw [hm'] at h
        simp only [Option.map_eq_some_iff, Prod.mk.injEq] at h
        obtain ⟨t, ht, e1, e2, rfl, e4⟩ := h
        exact .unnamed hs (fk_none.1 hm) (fkNoName_longest.1 hm') e1.symm (columns_iff.2 e2) (namesTable_iff.2 ht) (columns_iff.2 e4)

theorem set_put {A : Type} : ∀ (d : Dict A) (n : Str) (a : A), d.set n a = put d n a
  | [], n, a => by simp [Dict.set, put]
  | (m, b) :: d, n, a => by
    rw [Dict.set]
    by_cases h : m = n
    · rw [if_pos h]
      subst h
      simp [put]
    · rw [if_neg h, set_put d n a]
      simp [put, h]

theorem get_find {A : Type} : ∀ (d : Dict A) (n : Str), d.get? n = (d.find? (fun p => p.1 = n)).map Prod.snd
  | [], n => rfl
  | (m, b) :: d, n => by
    rw [Dict.get?]
    by_cases h : m = n
    · rw [if_pos h]
      simp [h]
    · rw [if_neg h, get_find d n]
      simp [h]

theorem changed_id {db : Database} {n : Str} {f : Table → Table} (h : ∀ t, TableOf db n t → f t = t) : changed db n f = db := by
  have : db.tables.map (fun p => if p.1 = n then (p.1, f p.2) else p) = db.tables := by
    conv_rhs => rw [← List.map_id db.tables]
    apply List.map_congr_left
    rintro ⟨m, t⟩ hp
    split
    · rename_i hn
      simp only at hn
      subst hn
      rw [h t hp]
      rfl
    · rfl
  unfold changed
  rw [this]

theorem changed_congr {db : Database} {n : Str} {f g : Table → Table} (h : ∀ t, TableOf db n t → f t = g t) : changed db n f = changed db n g := by
  unfold changed
  congr 1
  apply List.map_congr_left
  rintro ⟨m, t⟩ hp
  split
  · rename_i hn
    simp only at hn
    subst hn
    rw [h t hp]
  · rfl

theorem find_absent {db : Database} {n : Str} (h : db.getTable n = none) (t : Table) : ¬ TableOf db n t := by
  intro ht
  have : n ∈ db.tables.keys := by
    simp only [Dict.keys]
    exact List.mem_map.2 ⟨(n, t), ht, rfl⟩
  unfold Database.getTable at h
  have hn : ∀ {d : Dict Table}, d.get? n = none → (n, t) ∉ d := by
    intro d
    induction d with
    | nil => simp
    | cons p d ih =>
      obtain ⟨m, b⟩ := p
      rw [Dict.get?]
      split
      · intro h; cases h
      · rename_i hm
        intro h hp
        rcases List.mem_cons.1 hp with hp | hp
        · exact hm (by rw [Prod.mk.injEq] at hp; exact hp.1.symm)
        · exact ih h hp
  exact hn h ht

theorem find_present {db : Database} {n : Str} {t u : Table} (hk : (db.tables.map Prod.fst).Nodup) (h : db.getTable n = some t) (hu : TableOf db n u) : u = t := by
  unfold Database.getTable at h
  unfold TableOf at hu
  generalize db.tables = d at *
  induction d with
  | nil => cases hu
  | cons p d ih =>
    obtain ⟨m, b⟩ := p
    rw [List.map_cons, List.nodup_cons] at hk
    rw [Dict.get?] at h
    split at h
    · rename_i hm
      cases h
      rcases List.mem_cons.1 hu with hu | hu
      · rw [Prod.mk.injEq] at hu; exact hu.2
      · exact absurd (List.mem_map.2 ⟨_, hu, hm.symm⟩) hk.1
    · rename_i hm
      rcases List.mem_cons.1 hu with hu | hu
      · rw [Prod.mk.injEq] at hu; exact absurd hu.1.symm hm
      · exact ih hk.2 h hu

theorem changed_keys (db : Database) (n : Str) (f : Table → Table) : (changed db n f).tables.map Prod.fst = db.tables.map Prod.fst := by
  unfold changed
  simp only [List.map_map]
  apply List.map_congr_left
  intro p _
  simp only [Function.comp]
  split <;> rfl

/-- The table with these foreign keys. -/
def withKeys (ks : List KeyText) (t : Table) : Table := { t with fks := ks.foldl (fun d k => put d (k.key t.name).name (k.key t.name)) t.fks }

theorem updateTable_changed (db : Database) (n : Str) (f : Table → Table) : db.updateTable n f = changed db n f := rfl

theorem addForeignKey_text (t : Table) (k : KeyText) : t.addForeignKey (some (.many k.cols)) (some k.table) (some (.many k.refs)) k.name =
    if k.cols.length = k.refs.length then .ok (t.addForeignKeyObj (k.key t.name)) else .error .value := by
  have e : ∀ l : List Str, (KeyArg.many l).toList = l := fun l => rfl
  unfold Table.addForeignKey mkFK
  simp only [e]
  by_cases hl : k.cols.length = k.refs.length
  · simp only [hl, not_true_eq_false, if_false, if_true, KeyText.key]
    cases k.name <;> rfl
  · simp only [hl, not_false_eq_true, if_true, if_false]
    rfl

open Classical in
theorem store_iff {db : Database} (hk : (db.tables.map Prod.fst).Nodup) {tn : Str} {k : KeyText} : storeForeignKey db tn (k.name, k.cols, k.table, k.refs) =
    if (∃ t, TableOf db tn t) ∧ k.cols.length ≠ k.refs.length then none else some (changed db tn (withKeys [k])) := by
  unfold storeForeignKey
  cases hg : db.getTable tn with
  | none =>
    have hn := find_absent hg
    rw [if_neg (by rintro ⟨⟨t, ht⟩, _⟩; exact hn t ht), changed_id (fun t ht => absurd ht (hn t))]
  | some t =>
    have ht : TableOf db tn t := Dict.mem_of_get? hg
    dsimp only
    rw [addForeignKey_text]
    by_cases hl : k.cols.length = k.refs.length
    · rw [if_pos hl, if_neg (fun h => h.2 hl)]
      dsimp only
      rw [updateTable_changed]
      congr 1
      apply changed_congr
      intro u hu
      rw [find_present hk hg hu]
      unfold withKeys Table.addForeignKeyObj
      simp only [List.foldl_cons, List.foldl_nil]
      rw [set_put]
    · rw [if_neg hl, if_pos ⟨⟨t, ht⟩, hl⟩]

theorem changed_twice {db : Database} {n : Str} {f g : Table → Table} : changed (changed db n f) n g = changed db n (fun t => g (f t)) := by
  unfold changed
  simp only [List.map_map]
  congr 1
  apply List.map_congr_left
  intro p _
  simp only [Function.comp]
  split
  · rename_i h
    simp [h]
  · rename_i h
    simp [h]

theorem withKeys_cons (k : KeyText) (ks : List KeyText) (t : Table) : withKeys ks (withKeys [k] t) = withKeys (k :: ks) t := rfl

theorem usable_total (l : List Str) : ∃ ks, UsableKeys l ks := by
  induction l with
  | nil => exact ⟨[], .nil⟩
  | cons c l ih =>
    obtain ⟨ks, h⟩ := ih
    by_cases hk : ∃ k, GivesKey c k ∧ k.cols.length = k.refs.length
    · obtain ⟨k, h1, h2⟩ := hk
      exact ⟨_, .more h1 h2 h⟩
    · exact ⟨[], .stop (fun k h1 h2 => hk ⟨k, h1, h2⟩)⟩

theorem givesKey_unique {c : Str} {k k' : KeyText} (h : GivesKey c k) (h' : GivesKey c k') : k = k' := by
  rw [givesKey_iff] at h h'
  rw [h] at h'
  obtain ⟨a, b, c, d⟩ := k
  obtain ⟨a', b', c', d'⟩ := k'
  simpa using h'

theorem usable_unique {l : List Str} {ks : List KeyText} (h : UsableKeys l ks) : ∀ {ks' : List KeyText}, UsableKeys l ks' → ks = ks' := by
  induction h with
  | nil => intro ks' h; cases h; rfl
  | stop h1 =>
    intro ks' h
    cases h with
    | stop => rfl
    | more h2 h3 _ => exact absurd h3 (h1 _ h2)
  | more h1 h2 _ ih =>
    intro ks' h
    cases h with
    | stop h3 => exact absurd h2 (h3 _ h1)
    | more h3 _ h4 => rw [givesKey_unique h1 h3, ih h4]

theorem addConstraints_usable {tn : Str} {l : List Str} {ks : List KeyText} (h : UsableKeys l ks) : ∀ {db : Database}, (db.tables.map Prod.fst).Nodup →
    addConstraints tn db l = changed db tn (withKeys ks) := by
  induction h with
  | nil => intro db _; exact (changed_id (fun t _ => rfl)).symm
  | @stop c l h1 =>
    intro db hk
    have e : changed db tn (withKeys []) = db := changed_id (fun t _ => rfl)
    rw [e]
    unfold addConstraints
    cases hr : readConstraint c with
    | none => rfl
    | some k =>
      obtain ⟨a, b, t, d⟩ := k
      have hl := h1 ⟨a, b, t, d⟩ (givesKey_iff.2 hr)
      have hst := store_iff hk (tn := tn) (k := ⟨a, b, t, d⟩)
      dsimp only at hst ⊢
      rw [hst]
      by_cases ht : ∃ t, TableOf db tn t
      · rw [if_pos ⟨ht, hl⟩]
      · rw [if_neg (fun h => ht h.1), changed_id (fun t h => absurd ⟨t, h⟩ ht)]
        have : ∀ (l : List Str), addConstraints tn db l = db := by
          intro l
          have hn : db.getTable tn = none := by
            cases hg : db.getTable tn with
            | none => rfl
            | some t => exact absurd ⟨t, Dict.mem_of_get? hg⟩ ht
          induction l with
          | nil => rfl
          | cons c l ih =>
            unfold addConstraints
            cases readConstraint c with
            | none => rfl
            | some k =>
              simp only [storeForeignKey, hn]
              exact ih
        exact this l
  | @more c l k ks h1 h2 _ ih =>
    intro db hk
    unfold addConstraints
    rw [givesKey_iff.1 h1]
    dsimp only
    rw [store_iff hk, if_neg (fun h => h.2 h2)]
    dsimp only
    rw [ih (by rw [changed_keys]; exact hk), changed_twice]
    rfl

/-! ## Relationships -/

theorem givesRelationship_iff {s tn : Str} {r : RelText} : GivesRelationship s tn r ↔ readRelationship s = some (tn, r.name, r.table, r.cond) := by
  obtain ⟨name, table, cond⟩ := r
  constructor
  · intro h
    cases h with
    | @named t m u c _ _ hl ht hn hu hc =>
      obtain ⟨n, hm, hw⟩ := hn
      simp only at hm hu hc
      unfold readRelationship
      simp only [rel_longest.2 hl, namesTable_iff.1 ht, namesTable_iff.1 hu, written_iff.1 hw, Option.map_some, hm, hc]
    | @unnamed t u c _ _ hs hl ht hn hu hc =>
      simp only at hn hu hc
      unfold readRelationship
      simp only [rel_none.2 hs, relNoName_longest.2 hl, namesTable_iff.1 ht, namesTable_iff.1 hu, Option.map_some, hn, hc]
  · intro h
    unfold readRelationship at h
    cases hm : reMatch patRel s with
    | some gs =>
      obtain ⟨t, m, u, c, rfl⟩ := length_four (longest_length (rel_longest.1 hm))
      rw [hm] at h
      dsimp only at h
      cases ht : extractTableName t with
      | none => rw [ht] at h; cases h
      | some t' =>
        rw [ht] at h
        simp only [Option.map_eq_some_iff, Prod.mk.injEq] at h
        obtain ⟨u', hu, rfl, e2, rfl, e4⟩ := h
        exact .named (rel_longest.1 hm) (namesTable_iff.2 ht) ⟨_, e2.symm, written_iff.2 rfl⟩ (namesTable_iff.2 hu) e4.symm
    | none =>
      rw [hm] at h
      dsimp only at h
      cases hm' : reMatch patRelNoName s with
      | none => rw [hm'] at h; cases h
      | some gs =>
        obtain ⟨t, u, c, rfl⟩ := length_three (longest_length (relNoName_longest.1 hm'))
        rw [hm'] at h
        dsimp only at h
        cases ht : extractTableName t with
        | none => rw [ht] at h; cases h
        | some t' =>
          rw [ht] at h
          simp only [Option.map_eq_some_iff, Prod.mk.injEq] at h
          obtain ⟨u', hu, rfl, e2, rfl, e4⟩ := h
          exact .unnamed (rel_none.1 hm) (relNoName_longest.1 hm') (namesTable_iff.2 ht) e2.symm (namesTable_iff.2 hu) e4.symm

theorem addRelationship_changed {db : Database} (hk : (db.tables.map Prod.fst).Nodup) {s tn : Str} {r : RelText} (h : GivesRelationship s tn r) :
    addGenericRelationship db s = changed db tn (fun t => { t with rels := put t.rels (r.rel t.name).name (r.rel t.name) }) := by
  unfold addGenericRelationship
  rw [givesRelationship_iff.1 h]
  dsimp only
  cases hg : db.getTable tn with
  | none => exact (changed_id (fun t ht => absurd ht (find_absent hg t))).symm
  | some t =>
    dsimp only [Table.addRelationship, mkRel, bind, Except.bind]
    rw [updateTable_changed]
    apply changed_congr
    intro u hu
    rw [find_present hk hg hu]
    unfold Table.addRelationshipObj
    rw [set_put]
    simp only [RelText.rel]
    cases r.name <;> rfl

/-! ## The statement -/

theorem alters_iff {s : Str} : Alters s ↔ hasSub c!"alter table" (lower s) = true ∧ hasSub c!"create database" (lower s) = false ∧
    (hasSub c!"create table" (lower s) || hasSub c!"create or replace table" (lower s)) = false := by
  have hl : ∀ w, hasSub w (lower s) = false ↔ Lacks w s := by
    intro w
    rw [lacks_lower, ← hasSub_iff, Bool.not_eq_true]
  constructor
  · rintro ⟨h1, h2⟩
    refine ⟨?_, (hl _).2 (h2 _ (by simp)), ?_⟩
    · rw [← Bool.not_eq_false, hl]; exact h1
    · rw [Bool.or_eq_false_iff]
      exact ⟨(hl _).2 (h2 _ (by simp)), (hl _).2 (h2 _ (by simp))⟩
  · rintro ⟨h1, h2, h3⟩
    rw [Bool.or_eq_false_iff] at h3
    refine ⟨?_, ?_⟩
    · rw [← hl, Bool.not_eq_false]; exact h1
    · intro w hw
      simp only [List.mem_cons, List.not_mem_nil, or_false] at hw
      rcases hw with rfl | rfl | rfl
      exacts [(hl _).1 h2, (hl _).1 h3.1, (hl _).1 h3.2]

theorem lacks_sub {w s : Str} : Lacks w s ↔ hasSub w (lower s) = false := by
  rw [lacks_lower, ← hasSub_iff, Bool.not_eq_true]

theorem not_lacks_sub {w s : Str} : ¬ Lacks w s ↔ hasSub w (lower s) = true := by
  rw [lacks_sub, Bool.not_eq_false]

/-- What the parser does with an ALTER TABLE. -/
theorem parseStatement_alters {schema s : Str} {db : Database} (h : Alters s) : parseStatement schema db s = .ok
    (if hasSub c!"primary key" (lower s) then addPrimaryKey db s
    else if hasSub c!"foreign" (lower s) then addForeignKeyStmt db s
    else if hasSub c!"relationship" (lower s) then addGenericRelationship db s
    else db) := by
  obtain ⟨h1, h2, h3⟩ := alters_iff.1 h
  unfold parseStatement
  dsimp only
  rw [h2, if_neg (by decide), h3, if_neg (by decide), h1, if_pos rfl]
  split_ifs <;> rfl

theorem changes_does {schema s n : Str} {f : Table → Table} {db : Database} (hk : (db.tables.map Prod.fst).Nodup) (ha : Alters s) (h : Changes s n f) :
    parseStatement schema db s = .ok (changed db n f) := by
  rw [parseStatement_alters ha]
  cases h with
  | @primary g t tn cols h1 hl ht hc =>
    rw [if_pos (not_lacks_sub.1 h1)]
    unfold addPrimaryKey
    simp only [pk_longest.2 hl, namesTable_iff.1 ht, columns_iff.1 hc]
    rfl
  | @foreign g tn p parts ks h1 h2 hl ht hw hu =>
    rw [if_neg (by rw [lacks_sub.1 h1]; decide), if_pos (not_lacks_sub.1 h2)]
    unfold addForeignKeyStmt
    simp only [add_longest.2 hl, written_iff.1 ht, (wordCut_iff (by decide) (by decide)).1 hw, List.tail_cons]
    rw [addConstraints_usable hu hk]
    rfl
  | @relationship tn r h1 h2 h3 hr =>
    rw [if_neg (by rw [lacks_sub.1 h1]; decide), if_neg (by rw [lacks_sub.1 h2]; decide), if_pos (not_lacks_sub.1 h3), addRelationship_changed hk hr]

theorem length_one {l : List Str} (h : l.length = 1) : ∃ a, l = [a] := by
  match l, h with
  | [a], _ => exact ⟨a, rfl⟩

theorem no_changes_does {schema s : Str} {db : Database} (ha : Alters s) (h : ∀ n f, ¬ Changes s n f) : parseStatement schema db s = .ok db := by
  rw [parseStatement_alters ha]
  split_ifs with h1 h2 h3
  · unfold addPrimaryKey
    cases hm : reMatch patPK s with
    | none => rfl
    | some gs =>
      obtain ⟨g, f, rfl⟩ := length_two (longest_length (pk_longest.1 hm))
      dsimp only
      cases ht : extractTableName g with
      | none => rfl
      | some tn => exact absurd (.primary (not_lacks_sub.2 h1) (pk_longest.1 hm) (namesTable_iff.2 ht) (columns_iff.2 rfl)) (h _ _)
  · unfold addForeignKeyStmt
    cases hm : reMatch patAdd s with
    | none => rfl
    | some gs =>
      obtain ⟨g, rfl⟩ := length_one (longest_length (add_longest.1 hm))
      exfalso
      have hw := (wordCut_iff (w := c!"constraint") (by decide) (by decide) (s := s)).2 rfl
      cases hc : splitCi c!"constraint" s with
      | nil => rw [hc] at hw; cases hw
      | cons p parts =>
        rw [hc] at hw
        obtain ⟨ks, hu⟩ := usable_total parts
        exact h _ _ (.foreign (lacks_sub.2 (by simpa using h1)) (not_lacks_sub.2 h2) (add_longest.1 hm) (written_iff.2 rfl) hw hu)
  · unfold addGenericRelationship
    cases hr : readRelationship s with
    | none => rfl
    | some k =>
      obtain ⟨tn, n, u, c⟩ := k
      exact absurd (.relationship (r := ⟨n, u, c⟩) (lacks_sub.2 (by simpa using h1)) (lacks_sub.2 (by simpa using h2)) (not_lacks_sub.2 h3) (givesRelationship_iff.2 hr)) (h _ _)
  · rfl

end Verif
