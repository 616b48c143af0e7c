import Verif.Spec.Messages
import Verif.Lemmas.ReadingFile
import Verif.Lemmas.Reports
/-
What is said about statements and files, whatever their text is.
-/

namespace Verif
open Spec

theorem noName_none {g : Str} : NoName g ↔ extractTableName g = none := by
  refine ⟨?_, noName_of⟩
  rintro (rfl | ⟨p, rfl⟩)
  · rfl
  · unfold extractTableName
    rw [show p ++ ['.'] = p ++ '.' :: [] from rfl, show (splitC '.' (p ++ '.' :: [])).getLastD [] = [] from by
      rw [splitC_append]; simp [splitC]]
    rfl

theorem found_iff {db : Database} {n : Str} (hk : (db.tables.map Prod.fst).Nodup) {t : Table} : TableOf db n t ↔ db.getTable n = some t := by
  constructor
  · intro h
    cases hg : db.getTable n with
    | none => exact absurd h (find_absent hg t)
    | some u => rw [find_present hk hg h]
  · exact fun h => Dict.mem_of_get? h

/-! ## The shard key -/

theorem hash_search {s : Str} {gs : List Str} : reSearch patHash s = some gs ↔ ∃ a r, s = a ++ r ∧ (∀ r', r' <:+ s → r.length < r'.length → ¬ HasShape hashShape r') ∧
    Longest (marked hashShape [false, false, true, false, true, false]) r gs := by
  rw [patHash_eq, search_iff (by decide)]
  rfl

theorem hash_none {s : Str} : reSearch patHash s = none ↔ ∀ r, r <:+ s → ¬ HasShape hashShape r := by
  have key : ∀ s, reSearch patHash s = none ↔ ∀ r, r <:+ s → reMatch patHash r = none := by
    intro s
    induction s with
    | nil =>
      rw [reSearch]
      constructor
      · intro h r hr
        rw [List.suffix_nil.1 hr]; exact h
      · intro h; exact h [] (List.suffix_refl _)
    | cons c s ih =>
      rw [reSearch]
      cases hm : reMatch patHash (c :: s) with
      | some g =>
        simp only [reduceCtorEq, false_iff]
        intro h
        rw [h _ (List.suffix_refl _)] at hm
        cases hm
      | none =>
        simp only
        rw [ih]
        constructor
        · intro h r hr
          rcases List.suffix_cons_iff.1 hr with rfl | hr
          · exact hm
          · exact h r hr
        · intro h r hr
          exact h r (hr.trans (List.suffix_cons c s))
  rw [key]
  apply forall_congr'
  intro r
  apply imp_congr_right
  intro _
  rw [patHash_eq, shape_iff (by decide)]
  rfl

theorem hashTold_some {s : Str} {ms : List Report} (t : Table) (h : HashTold s ms) : (addHashKeyTold t s).2 = ms := by
  unfold addHashKeyTold
  cases h with
  | fine hk =>
    obtain ⟨n, keys, m, h1, h2, _⟩ := shardOf_iff.1 hk
    simp only [h1, h2]
  | noClause h => simp only [hash_none.2 h]; rfl
  | noNumber e h1 h2 h3 =>
    simp only [hash_search.2 ⟨_, _, e, h1, h2⟩]
    cases hi : pyInt _ with
    | some m => exact absurd ((pyInt_value _ _).1 hi) (h3 m)
    | none =>
      simp only [badInt, pyRepr_eq]

theorem hashTold_total (s : Str) : ∃ ms, HashTold s ms := by
  cases hm : reSearch patHash s with
  | none => exact ⟨_, .noClause (hash_none.1 hm)⟩
  | some gs =>
    obtain ⟨a, r, e, h1, h2⟩ := hash_search.1 hm
    obtain ⟨n, keys, rfl⟩ := length_two (longest_length h2)
    cases hi : pyInt n with
    | some m => exact ⟨_, .fine (shardOf_iff.2 ⟨n, keys, m, hm, hi, rfl⟩)⟩
    | none => exact ⟨_, .noNumber e h1 h2 (fun m h => by rw [(pyInt_value _ _).2 h] at hi; cases hi)⟩

/-! ## Primary keys -/

theorem pk_none {s : Str} : reMatch patPK s = none ↔ ¬ HasShape primaryShape s := by
  rw [patPK_eq, shape_iff (by decide)]; rfl

theorem primaryTold_some {s : Str} {db : Database} {ms : List Report} (h : PrimaryTold s db ms) : (addPrimaryKeyTold db s).2 = ms := by
  unfold addPrimaryKeyTold
  cases h with
  | notFound h => simp only [pk_none.2 h]
  | noName hl hn => simp only [pk_longest.2 hl, noName_none.1 hn]; rfl
  | noTable hl hn ht => simp only [pk_longest.2 hl, namesTable_iff.1 hn, no_table.2 ht]
  | fine hl hn ht =>
    simp only [pk_longest.2 hl, namesTable_iff.1 hn]
    cases hg : db.getTable _ with
    | none => exact absurd ht (find_absent hg _)
    | some t => rfl

theorem primaryTold_total (s : Str) (db : Database) : ∃ ms, PrimaryTold s db ms := by
  cases hm : reMatch patPK s with
  | none => exact ⟨_, .notFound (pk_none.1 hm)⟩
  | some gs =>
    obtain ⟨g, f, rfl⟩ := length_two (longest_length (pk_longest.1 hm))
    cases hn : extractTableName g with
    | none => exact ⟨_, .noName (pk_longest.1 hm) (noName_none.2 hn)⟩
    | some tn =>
      cases hg : db.getTable tn with
      | none => exact ⟨_, .noTable (pk_longest.1 hm) (namesTable_iff.2 hn) (find_absent hg)⟩
      | some t => exact ⟨_, .fine (pk_longest.1 hm) (namesTable_iff.2 hn) (Dict.mem_of_get? hg)⟩

/-! ## Foreign keys -/

theorem fkNoName_none {s : Str} : reMatch patFKNoName s = none ↔ ¬ HasShape keyShape s := by
  rw [patFKNoName_eq, shape_iff (by decide)]; rfl

theorem add_none {s : Str} : reMatch patAdd s = none ↔ ¬ HasShape addShape s := by
  rw [patAdd_eq, shape_iff (by decide)]; rfl

theorem told_gives {s c : Str} {k : KeyText} (h : GivesKey c k) : readConstraintTold s c = .ok (k.name, k.cols, k.table, k.refs) := by
  apply ok_of_toOption
  rw [← readConstraintTold_eq, givesKey_iff.1 h]

theorem told_misshaped {s c x : Str} (h : Shaved c x) (h1 : ¬ HasShape namedKeyShape x) (h2 : ¬ HasShape keyShape x) :
    readConstraintTold s c = .error (.notFound .foreignKey s) := by
  unfold readConstraintTold
  rw [shaved_iff.1 h]
  simp only [fk_none.2 h1, fkNoName_none.2 h2]

theorem told_noTarget {s c : Str} (h : NoTarget c) : readConstraintTold s c = .error (.failed .foreignKey noChar s) := by
  unfold readConstraintTold
  cases h with
  | named hs hl hn =>
    rw [shaved_iff.1 hs]
    simp only [fk_longest.2 hl, noName_none.1 hn]
  | unnamed hs h1 hl hn =>
    rw [shaved_iff.1 hs]
    simp only [fk_none.2 h1, fkNoName_longest.2 hl, noName_none.1 hn]

theorem constraint_cases (c : Str) : (∃ k, GivesKey c k) ∨ (∃ x, Shaved c x ∧ ¬ HasShape namedKeyShape x ∧ ¬ HasShape keyShape x) ∨ NoTarget c := by
  have hs := shaved_iff.2 (rfl : strip (stripChars (· == ';') (stripChars (· == ',') (strip c))) = _)
  generalize strip (stripChars (· == ';') (stripChars (· == ',') (strip c))) = x at hs
  cases hm : reMatch patFK x with
  | some gs =>
    have hl := fk_longest.1 hm
    obtain ⟨n, f, u, g, rfl⟩ := length_four (longest_length hl)
    cases hn : extractTableName u with
    | none => exact .inr (.inr (.named hs hl (noName_none.2 hn)))
    | some t => exact .inl ⟨⟨_, _, _, _⟩, .named hs hl ⟨_, rfl, written_iff.2 rfl⟩ (columns_iff.2 rfl) (namesTable_iff.2 hn) (columns_iff.2 rfl)⟩
  | none =>
    cases hm' : reMatch patFKNoName x with
    | none => exact .inr (.inl ⟨x, hs, fk_none.1 hm, fkNoName_none.1 hm'⟩)
    | some gs =>
      have hl := fkNoName_longest.1 hm'
      obtain ⟨f, u, g, rfl⟩ := length_three (longest_length hl)
      cases hn : extractTableName u with
      | none => exact .inr (.inr (.unnamed hs (fk_none.1 hm) hl (noName_none.2 hn)))
      | some t => exact .inl ⟨⟨_, _, _, _⟩, .unnamed hs (fk_none.1 hm) hl rfl (columns_iff.2 rfl) (namesTable_iff.2 hn) (columns_iff.2 rfl)⟩

theorem constraintsTold_total (s : Str) (db : Database) (tn : Str) : ∀ cs : List Str, ∃ ms, ConstraintsTold s db tn cs ms
  | [] => ⟨_, .nil⟩
  | c :: cs => by
    obtain ⟨ms, h⟩ := constraintsTold_total s db tn cs
    rcases constraint_cases c with ⟨k, hk⟩ | ⟨x, h1, h2, h3⟩ | h1
    · cases hg : db.getTable tn with
      | none => exact ⟨_, .noTable hk (find_absent hg) h⟩
      | some t =>
        by_cases hl : k.cols.length = k.refs.length
        · exact ⟨_, .fine hk (Dict.mem_of_get? hg) hl h⟩
        · exact ⟨_, .lengths hk (Dict.mem_of_get? hg) hl⟩
    · exact ⟨_, .notFound h1 h2 h3⟩
    · exact ⟨_, .noName h1⟩

/-- Both databases have the table, with the same name, or none has it. -/
def SameName (tn : Str) (db0 db : Database) : Prop :=
  (db0.getTable tn = none ∧ db.getTable tn = none) ∨ ∃ t0 t, db0.getTable tn = some t0 ∧ db.getTable tn = some t ∧ t.name = t0.name

theorem constraintsTold_some {s tn : Str} {db0 : Database} (hk : (db0.tables.map Prod.fst).Nodup) {cs : List Str} {ms : List Report}
    (h : ConstraintsTold s db0 tn cs ms) : ∀ {db : Database}, SameName tn db0 db → (addConstraintsTold s tn db cs).2 = ms := by
  induction h with
  | nil => intro db _; rfl
  | notFound h1 h2 h3 => intro db _; rw [addConstraintsTold, told_misshaped h1 h2 h3]
  | noName h1 => intro db _; rw [addConstraintsTold, told_noTarget h1]; rfl
  | noTable h1 h2 _ ih =>
    intro db hs
    rw [addConstraintsTold, told_gives h1]
    rcases hs with ⟨g0, g⟩ | ⟨t0, t, g0, g, _⟩
    · simp only [g]
      rw [ih (.inl ⟨g0, g⟩)]
    · exact absurd ((found_iff hk).2 g0) (h2 t0)
  | @lengths c l k t1 h1 h2 h3 =>
    intro db hs
    rw [addConstraintsTold, told_gives h1]
    rcases hs with ⟨g0, g⟩ | ⟨t0, t, g0, g, e⟩
    · exact absurd h2 (find_absent g0 _)
    · simp only [g, addForeignKey_text, if_neg h3]
      have : t1 = t0 := find_present hk g0 h2
      subst this
      simp only [keyFailure, e, reprList_eq]
  | @fine c l k t1 ms h1 h2 h3 _ ih =>
    intro db hs
    rw [addConstraintsTold, told_gives h1]
    rcases hs with ⟨g0, g⟩ | ⟨t0, t, g0, g, e⟩
    · exact absurd h2 (find_absent g0 _)
    · simp only [g, addForeignKey_text, if_pos h3]
      exact ih (.inr ⟨t0, _, g0, getTable_replaced g _, e⟩)

theorem foreignTold_some {s : Str} {db : Database} (hk : (db.tables.map Prod.fst).Nodup) {ms : List Report} (h : ForeignTold s db ms) : (addForeignKeyTold db s).2 = ms := by
  unfold addForeignKeyTold
  cases h with
  | noAdd h => simp only [add_none.2 h]; rfl
  | @constraints g tn p parts _ hl hw hc ht =>
    simp only [add_longest.2 hl, written_iff.1 hw, (wordCut_iff (by decide) (by decide)).1 hc, List.tail_cons]
    apply constraintsTold_some hk ht
    cases hg : db.getTable tn with
    | none => exact .inl ⟨hg, hg⟩
    | some t => exact .inr ⟨t, t, hg, hg, rfl⟩

theorem foreignTold_total (s : Str) (db : Database) : ∃ ms, ForeignTold s db ms := by
  cases hm : reMatch patAdd s with
  | none => exact ⟨_, .noAdd (add_none.1 hm)⟩
  | some gs =>
    have hl := add_longest.1 hm
    obtain ⟨g, rfl⟩ := length_one (longest_length hl)
    have hw := (wordCut_iff (w := c!"constraint") (by decide) (by decide) (s := s)).2 rfl
    cases hc : splitCi c!"constraint" s with
    | nil => rw [hc] at hw; cases hw
    | cons p parts =>
      rw [hc] at hw
      obtain ⟨ms, h⟩ := constraintsTold_total s db (cleanName g) parts
      exact ⟨ms, .constraints hl (written_iff.2 rfl) hw h⟩

/-! ## Relationships -/

theorem relNoName_none {s : Str} : reMatch patRelNoName s = none ↔ ¬ HasShape relationshipShape s := by
  rw [patRelNoName_eq, shape_iff (by decide)]; rfl

theorem told_rel {s tn : Str} {r : RelText} (h : GivesRelationship s tn r) : readRelationshipTold s = .ok (tn, r.name, r.table, r.cond) := by
  apply ok_of_toOption
  rw [← readRelationshipTold_eq, givesRelationship_iff.1 h]

theorem relationshipTold_some {s : Str} {db : Database} {ms : List Report} (h : RelationshipTold s db ms) : (addRelationshipTold db s).2 = ms := by
  unfold addRelationshipTold
  cases h with
  | notFound h1 h2 => simp only [readRelationshipTold, rel_none.2 h1, relNoName_none.2 h2]
  | noName hl hn =>
    simp only [readRelationshipTold, rel_longest.2 hl]
    rcases hn with hn | hn
    · simp only [noName_none.1 hn]; rfl
    · rw [noName_none.1 hn]
      cases extractTableName _ <;> rfl
  | noNameEither h1 hl hn =>
    simp only [readRelationshipTold, rel_none.2 h1, relNoName_longest.2 hl]
    rcases hn with hn | hn
    · simp only [noName_none.1 hn]; rfl
    · rw [noName_none.1 hn]
      cases extractTableName _ <;> rfl
  | noTable h ht => simp only [told_rel h, no_table.2 ht]
  | @fine tn r t h ht =>
    simp only [told_rel h]
    cases hg : db.getTable tn with
    | none => exact absurd ht (find_absent hg _)
    | some u =>
      dsimp only [Table.addRelationship, mkRel, bind, Except.bind]

theorem relationshipTold_total (s : Str) (db : Database) : ∃ ms, RelationshipTold s db ms := by
  have key : ∀ {tn : Str} {r : RelText}, GivesRelationship s tn r → ∃ ms, RelationshipTold s db ms := by
    intro tn r h
    cases hg : db.getTable tn with
    | none => exact ⟨_, .noTable h (find_absent hg)⟩
    | some t => exact ⟨_, .fine h (Dict.mem_of_get? hg)⟩
  have either : ∀ t u : Str, (∃ a b, extractTableName t = some a ∧ extractTableName u = some b) ∨ NoName t ∨ NoName u := by
    intro t u
    cases h1 : extractTableName t with
    | none => exact .inr (.inl (noName_none.2 h1))
    | some a =>
      cases h2 : extractTableName u with
      | none => exact .inr (.inr (noName_none.2 h2))
      | some b => exact .inl ⟨a, b, rfl, rfl⟩
  cases hm : reMatch patRel s with
  | some gs =>
    have hl := rel_longest.1 hm
    obtain ⟨t, m, u, c, rfl⟩ := length_four (longest_length hl)
    rcases either t u with ⟨a, b, h1, h2⟩ | h
    · exact key (r := ⟨_, _, _⟩) (.named hl (namesTable_iff.2 h1) ⟨_, rfl, written_iff.2 rfl⟩ (namesTable_iff.2 h2) rfl)
    · exact ⟨_, .noName hl h⟩
  | none =>
    cases hm' : reMatch patRelNoName s with
    | none => exact ⟨_, .notFound (rel_none.1 hm) (relNoName_none.1 hm')⟩
    | some gs =>
      have hl := relNoName_longest.1 hm'
      obtain ⟨t, u, c, rfl⟩ := length_three (longest_length hl)
      rcases either t u with ⟨a, b, h1, h2⟩ | h
      · exact key (r := ⟨_, _, _⟩) (.unnamed (rel_none.1 hm) hl (namesTable_iff.2 h1) rfl (namesTable_iff.2 h2) rfl)
      · exact ⟨_, .noNameEither (rel_none.1 hm) hl h⟩

/-! ## Statements -/

theorem createTold_snd {schema s : Str} {db : Database} {r : Database × List Report} (h : parseCreateTableTold schema db s = .ok r) :
    ∃ t, r.2 = if hasSub c!"partition by hash" (lower (asQuotes s)) then (addHashKeyTold t (asQuotes s)).2 else [] := by
  unfold parseCreateTableTold at h
  rw [unbracket, ← asQuotes_ub] at h
  simp only [bind, Except.bind, mkTable] at h
  cases hc : addColumnsOf _ (asQuotes s) with
  | error e => rw [hc] at h; cases h
  | ok t =>
    rw [hc] at h
    simp only [Except.ok.injEq] at h
    refine ⟨t, ?_⟩
    rw [← h]
    split <;> rfl

theorem tells_some {schema s : Str} {db : Database} (hk : (db.tables.map Prod.fst).Nodup) {ms : List Report} (h : Tells s db ms) {r : Database × List Report}
    (hr : parseStatementTold schema db s = .ok r) : r.2 = ms := by
  have hcr : CreatesTable s → parseCreateTableTold schema db s = .ok r := by
    intro hc
    obtain ⟨h1, h2⟩ := createsTable_iff.1 hc
    unfold parseStatementTold at hr
    dsimp only at hr
    rw [h1, if_neg (by decide), if_pos h2] at hr
    exact hr
  have hal : Alters s → (.ok (if hasSub c!"primary key" (lower s) then addPrimaryKeyTold db s else if hasSub c!"foreign" (lower s) then addForeignKeyTold db s
      else if hasSub c!"relationship" (lower s) then addRelationshipTold db s else if hasSub c!"hash" (lower s) then addShardKeyTold db else (db, [])) :
      Except PyErr (Database × List Report)) = .ok r := by
    intro ha
    obtain ⟨h1, h2, h3⟩ := alters_iff.1 ha
    unfold parseStatementTold at hr
    dsimp only at hr
    rw [h2, if_neg (by decide), h3, if_neg (by decide), h1, if_pos rfl] at hr
    rw [← hr]
    split_ifs <;> rfl
  have no : ∀ {w}, Lacks w s → ¬ (hasSub w (lower s) = true) := fun h => by rw [lacks_sub.1 h]; decide
  cases h with
  | create hc hl =>
    obtain ⟨t, e⟩ := createTold_snd (hcr hc)
    rw [e, if_neg (fun h => hasSub_quotes.1 h hl)]
  | sharded hc hl ht =>
    obtain ⟨t, e⟩ := createTold_snd (hcr hc)
    rw [e, if_pos (hasSub_quotes.2 hl), hashTold_some t ht]
  | primary ha h1 ht =>
    have e := Except.ok.inj (hal ha)
    rw [if_pos (not_lacks_sub.1 h1)] at e
    rw [← e, primaryTold_some ht]
  | foreign ha h1 h2 ht =>
    have e := Except.ok.inj (hal ha)
    rw [if_neg (no h1), if_pos (not_lacks_sub.1 h2)] at e
    rw [← e, foreignTold_some hk ht]
  | relationship ha h1 h2 h3 ht =>
    have e := Except.ok.inj (hal ha)
    rw [if_neg (no h1), if_neg (no h2), if_pos (not_lacks_sub.1 h3)] at e
    rw [← e, relationshipTold_some ht]
  | hash ha h1 h2 ht =>
    have e := Except.ok.inj (hal ha)
    rw [if_neg (no (h1 _ (by simp))), if_neg (no (h1 _ (by simp))), if_neg (no (h1 _ (by simp))), if_pos (not_lacks_sub.1 h2)] at e
    rw [← e, addShardKeyTold, no_table.2 ht]
  | @hashSilent t ha h1 h2 ht =>
    have e := Except.ok.inj (hal ha)
    rw [if_neg (no (h1 _ (by simp))), if_neg (no (h1 _ (by simp))), if_neg (no (h1 _ (by simp))), if_pos (not_lacks_sub.1 h2)] at e
    rw [← e, addShardKeyTold]
    cases hg : db.getTable [] with
    | none => exact absurd ht (find_absent hg _)
    | some u => rfl
  | unknown ha h1 =>
    have e := Except.ok.inj (hal ha)
    rw [if_neg (no (h1 _ (by simp))), if_neg (no (h1 _ (by simp))), if_neg (no (h1 _ (by simp))), if_neg (no (h1 _ (by simp)))] at e
    rw [← e]
  | other h1 h2 =>
    rw [createsTable_iff] at h1
    rw [alters_iff] at h2
    unfold parseStatementTold at hr
    dsimp only at hr
    cases ha : hasSub c!"create database" (lower s)
    · cases hb : hasSub c!"create table" (lower s) || hasSub c!"create or replace table" (lower s)
      · cases hd : hasSub c!"alter table" (lower s)
        · rw [ha, hb, hd, if_neg (by decide), if_neg (by decide), if_neg (by decide)] at hr
          rw [← Except.ok.inj hr]
        · exact absurd ⟨hd, ha, hb⟩ h2
      · exact absurd ⟨ha, hb⟩ h1
    · rw [ha, if_pos rfl] at hr
      rw [← Except.ok.inj hr]

theorem tells_total (s : Str) (db : Database) : ∃ ms, Tells s db ms := by
  by_cases hc : CreatesTable s
  · by_cases hl : Lacks c!"partition by hash" s
    · exact ⟨_, .create hc hl⟩
    · obtain ⟨ms, h⟩ := hashTold_total (asQuotes s)
      exact ⟨ms, .sharded hc hl h⟩
  · by_cases ha : Alters s
    · by_cases h1 : Lacks c!"primary key" s
      · by_cases h2 : Lacks c!"foreign" s
        · by_cases h3 : Lacks c!"relationship" s
          · have hw : ∀ w ∈ [c!"primary key", c!"foreign", c!"relationship"], Lacks w s := by
              intro w hw
              simp only [List.mem_cons, List.not_mem_nil, or_false] at hw
              rcases hw with rfl | rfl | rfl
              exacts [h1, h2, h3]
            by_cases h4 : Lacks c!"hash" s
            · refine ⟨_, .unknown ha ?_⟩
              intro w hw
              simp only [List.mem_cons, List.not_mem_nil, or_false] at hw
              rcases hw with rfl | rfl | rfl | rfl
              exacts [h1, h2, h3, h4]
            · cases hg : db.getTable [] with
              | none => exact ⟨_, .hash ha hw h4 (find_absent hg)⟩
              | some t => exact ⟨_, .hashSilent ha hw h4 (Dict.mem_of_get? hg)⟩
          · obtain ⟨ms, h⟩ := relationshipTold_total s db
            exact ⟨ms, .relationship ha h1 h2 h3 h⟩
        · obtain ⟨ms, h⟩ := foreignTold_total s db
          exact ⟨ms, .foreign ha h1 h2 h⟩
      · obtain ⟨ms, h⟩ := primaryTold_total s db
        exact ⟨ms, .primary ha h1 h⟩
    · exact ⟨_, .other hc ha⟩

theorem told_iff {schema s : Str} {db db' : Database} (hk : (db.tables.map Prod.fst).Nodup) {ms : List Report} :
    parseStatementTold schema db s = .ok (db', ms) ↔ Does schema s db db' ∧ Tells s db ms := by
  have hf := parseStatementTold_fst schema db s
  constructor
  · intro h
    rw [h] at hf
    refine ⟨(does_iff hk).2 hf.symm, ?_⟩
    obtain ⟨ms', ht⟩ := tells_total s db
    have := tells_some hk ht h
    simp only at this
    rw [this]
    exact ht
  · rintro ⟨h1, h2⟩
    have e := (does_iff hk).1 h1
    cases hr : parseStatementTold schema db s with
    | error x => rw [hr, e] at hf; cases hf
    | ok r =>
      obtain ⟨d, m⟩ := r
      rw [hr, e] at hf
      have := tells_some hk h2 hr
      rw [← Except.ok.inj hf, ← this]

theorem told_breaks {schema s : Str} {db : Database} {e : PyErr} : parseStatementTold schema db s = .error e ↔ Breaks s e := by
  rw [← parseStatement_error (schema := schema) (db := db), ← parseStatementTold_fst]
  cases parseStatementTold schema db s <;> simp [Except.map]

theorem tellAll_iff {schema : Str} : ∀ {ss : List Str} {db : Database} {ms : List Report}, (db.tables.map Prod.fst).Nodup →
    (TellAll schema ss db ms ↔ (parseStatementsTold schema db ss).2.1 = ms)
  | [], db, ms, _ => by
    constructor
    · intro h; cases h; rfl
    · intro h
      simp only [parseStatementsTold] at h
      rw [← h]; exact .nil
  | s :: ss, db, ms, hk => by
    unfold parseStatementsTold
    cases hs : parseStatementTold schema db s with
    | error e =>
      constructor
      · intro h
        cases h with
        | cons h1 h2 _ => rw [(told_iff hk).2 ⟨h1, h2⟩] at hs; cases hs
        | stop _ => rfl
      · rintro rfl
        exact .stop (told_breaks.1 hs)
    | ok r =>
      obtain ⟨d, m⟩ := r
      obtain ⟨h1, h2⟩ := (told_iff hk).1 hs
      have hk' := does_nodup hk h1
      constructor
      · intro h
        cases h with
        | cons h1' h2' h3 =>
          have e := (told_iff hk).2 ⟨h1', h2'⟩
          rw [hs] at e
          injection e with e
          injection e with e1 e2
          subst e1 e2
          dsimp only
          rw [(tellAll_iff hk').1 h3]
        | stop hb => rw [(told_breaks (schema := schema) (db := db)).2 hb] at hs; cases hs
      · rintro rfl
        exact .cons h1 h2 ((tellAll_iff hk').2 rfl)

end Verif
