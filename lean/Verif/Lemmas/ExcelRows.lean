import Verif.Lemmas.Excel
import Verif.Lemmas.Review
/-
Lemmas on the workbook reader: rows are read one by one, each changes only the table it names.
-/

namespace Verif
open Spec

/-! ## Running over rows -/

/-- A run over some of the rows follows the run over all of them. -/
theorem foldlM_follow {S T R : Type} {f : S → R → Except PyErr S} {g : T → R → Except PyErr T} {keep : R → Bool} {Q : S → T → Prop} :
    ∀ (rows : List R) (s s' : S) (t : T),
    (∀ s s' t, ∀ r ∈ rows, keep r = false → f s r = .ok s' → Q s t → Q s' t) →
    (∀ s s' t, ∀ r ∈ rows, keep r = true → f s r = .ok s' → Q s t → ∃ t', g t r = .ok t' ∧ Q s' t') →
    rows.foldlM f s = .ok s' → Q s t → ∃ t', (rows.filter keep).foldlM g t = .ok t' ∧ Q s' t'
  | [], s, s', t, _, _, h, hq => by
    cases h
    exact ⟨t, rfl, hq⟩
  | r :: rows, s, s', t, h1, h2, h, hq => by
    rw [List.foldlM_cons] at h
    cases hf : f s r with
    | error e => rw [hf] at h; cases h
    | ok s1 =>
      rw [hf] at h
      cases hk : keep r with
      | false =>
        rw [List.filter_cons_of_neg (by simp [hk])]
        exact foldlM_follow rows s1 s' t (fun a b c d hd => h1 a b c d (by simp [hd])) (fun a b c d hd => h2 a b c d (by simp [hd])) h
          (h1 s s1 t r (by simp) hk hf hq)
      | true =>
        obtain ⟨t1, hg, hq1⟩ := h2 s s1 t r (by simp) hk hf hq
        rw [List.filter_cons_of_pos (by simp [hk]), List.foldlM_cons, hg]
        exact foldlM_follow rows s1 s' t1 (fun a b c d hd => h1 a b c d (by simp [hd])) (fun a b c d hd => h2 a b c d (by simp [hd])) h hq1

/-- Rows that change nothing can be left out. -/
theorem foldlM_skip {S R : Type} {f : S → R → Except PyErr S} {keep : R → Bool} {I : S → Prop} :
    ∀ (rows : List R) (s : S), (∀ s, ∀ r ∈ rows, I s → keep r = false → f s r = .ok s) →
    (∀ s s', ∀ r ∈ rows, I s → f s r = .ok s' → I s') → I s →
    (rows.filter keep).foldlM f s = rows.foldlM f s
  | [], _, _, _, _ => rfl
  | r :: rows, s, h1, h2, hi => by
    have ih := fun t ht => foldlM_skip rows t (fun a b hb => h1 a b (by simp [hb])) (fun a b c hc => h2 a b c (by simp [hc])) ht
    cases hk : keep r with
    | false =>
      rw [List.filter_cons_of_neg (by simp [hk]), ih s hi, List.foldlM_cons, h1 s r (by simp) hi hk]
      rfl
    | true =>
      rw [List.filter_cons_of_pos (by simp [hk]), List.foldlM_cons, List.foldlM_cons]
      cases hf : f s r with
      | error e => rfl
      | ok s1 => exact ih s1 (h2 s s1 r (by simp) hi hf)

/-- What every row keeps, the run keeps. -/
theorem foldlM_keeps {S R : Type} {f : S → R → Except PyErr S} {I : S → Prop} : ∀ (rows : List R) (s s' : S),
    (∀ s s', ∀ r ∈ rows, I s → f s r = .ok s' → I s') → rows.foldlM f s = .ok s' → I s → I s'
  | [], s, s', _, h, hi => by cases h; exact hi
  | r :: rows, s, s', h1, h, hi => by
    rw [List.foldlM_cons] at h
    cases hf : f s r with
    | error e => rw [hf] at h; cases h
    | ok s1 =>
      rw [hf] at h
      exact foldlM_keeps rows s1 s' (fun a b c hc => h1 a b c (by simp [hc])) h (h1 s s1 r (by simp) hi hf)

/-! ## One row -/

theorem name_ok_iff (v : XCell) (s : Str) : v.name = .ok s ↔ v = .text s := by
  cases v <;> simp [XCell.name]

theorem str_ok_iff (v : XCell) (s : Str) : v.str = .ok s ↔ v = .text s := by
  cases v <;> simp [XCell.str]

theorem splitNames_pieces (s : Str) (h : strip s ≠ []) : NamesIn s (splitNames (strip s)) :=
  .inr ⟨h, splitC ',' (strip s), splitC_ne_nil _ _, by rw [← joinS_intersperse, joinS_splitC], fun p hp => not_mem_splitC p hp, rfl⟩

theorem splitNames_ne (s : Str) : splitNames s ≠ [] := by
  simp [splitNames, splitC_ne_nil]

theorem pieces_unique {c : Char} : ∀ {ps qs : List Str}, ps ≠ [] → qs ≠ [] → (∀ p ∈ ps, c ∉ p) → (∀ p ∈ qs, c ∉ p) →
    (ps.intersperse [c]).flatten = (qs.intersperse [c]).flatten → ps = qs := by
  have key : ∀ {ps : List Str}, ps ≠ [] → (∀ p ∈ ps, c ∉ p) → splitC c (ps.intersperse [c]).flatten = ps := by
    intro ps
    induction ps with
    | nil => intro h; exact absurd rfl h
    | cons a ps ih =>
      intro _ h
      cases ps with
      | nil => simpa using splitC_plain (h a (by simp))
      | cons b ps =>
        have := ih (by simp) (fun p hp => h p (by simp [hp]))
        have e : ((a :: b :: ps).intersperse [c]).flatten = a ++ c :: ((b :: ps).intersperse [c]).flatten := by simp
        rw [e, splitC_cons (h a (by simp)), this]
  intro ps qs h1 h2 h3 h4 e
  rw [← key h1 h3, e, key h2 h4]

theorem NamesIn.eq {s : Str} {l : List Str} (h : NamesIn s l) : l = if strip s = [] then [] else splitNames (strip s) := by
  rcases h with ⟨h1, rfl⟩ | ⟨h1, ps, h2, h3, h4, rfl⟩
  · rw [if_pos h1]
  · rw [if_neg h1, splitNames]
    congr 1
    refine pieces_unique h2 (splitC_ne_nil _ _) h4 (fun p hp => not_mem_splitC p hp) ?_
    rw [h3, ← joinS_intersperse, joinS_splitC]

theorem count_iff (v : XCell) (c : Option ShardCount) : CountIn v c ↔ v.count = c := by
  cases v with
  | text s =>
    simp only [CountIn, XCell.count]
    by_cases h : s = []
    · simp [h, eq_comm]
    · simp [h, eq_comm]
  | num q =>
    simp only [CountIn, XCell.count]
    by_cases h : q = 0
    · simp [h, eq_comm]
    · simp [h, eq_comm]

theorem rowTable_ok {h row : List XCell} {t : Table} (ht : rowTable h row = .ok t) : TableFrom h row t := by
  unfold rowTable at ht
  simp only [bind_ok_iff, cell_ok_iff, name_ok_iff, str_ok_iff] at ht
  obtain ⟨_, p1, pk, rfl, _, p2, sk, rfl, n, p3, _, p4, _, p5, name, rfl, schema, rfl, ht⟩ := ht
  unfold mkTable at ht
  simp only [Except.ok.injEq] at ht
  subst ht
  refine ⟨p4, p5, ⟨pk, p1, ?_⟩, ?_, rfl, rfl, rfl⟩
  · by_cases hp : strip pk = []
    · simp only [hp, if_true]; exact .inl ⟨hp, rfl⟩
    · simp only [hp, if_false]; exact splitNames_pieces pk hp
  · refine ⟨sk, n, if strip sk = [] then [] else splitNames (strip sk), n.count, p2, p3, ?_, (count_iff _ _).2 rfl, ?_⟩
    · by_cases hs : strip sk = []
      · rw [if_pos hs]; exact .inl ⟨hs, rfl⟩
      · rw [if_neg hs]; exact splitNames_pieces sk hs
    · simp only [rowShard]
      by_cases hs : strip sk = []
      · simp [hs]
      · cases hn : n.count with
        | none => simp [hs]
        | some c => simp [hs, splitNames_ne]

theorem readTableRow_cases {h row : List XCell} {dbs dbs' : Dict Database} (hr : readTableRow h dbs row = .ok dbs') :
    (Under h row c!"Database" (.text []) ∧ dbs' = dbs) ∨
    ∃ d t, d ≠ [] ∧ Under h row c!"Database" (.text d) ∧ rowTable h row = .ok t ∧
      dbs' = dbs.set d (((dbs.get? d).getD (Database.empty d)).addTable t) := by
  unfold readTableRow at hr
  cases hc : cell h row c!"Database" with
  | error e => rw [hc] at hr; cases hr
  | ok v =>
    rw [hc] at hr
    simp only [bind, Except.bind] at hr
    by_cases hv : v = .text []
    · subst hv
      rw [if_pos rfl] at hr
      cases hr
      exact .inl ⟨(cell_ok_iff _ _ _ _).1 hc, rfl⟩
    · rw [if_neg hv] at hr
      cases v with
      | num q => cases hr
      | text d =>
        simp only [XCell.name] at hr
        cases ht : rowTable h row with
        | error e => rw [ht] at hr; cases hr
        | ok t =>
          rw [ht] at hr
          cases hr
          exact .inr ⟨d, t, fun e => hv (by rw [e]), (cell_ok_iff _ _ _ _).1 hc, rfl, rfl⟩

/-- What `onTable` does if it returns. -/
theorem onTable_cases {dbs dbs' : Dict Database} {d n : XCell} {miss : Except PyErr (Dict Database)} {f : Table → Except PyErr Table}
    (h : onTable dbs d n miss f = .ok dbs') :
    ((∀ s, d = .text s → dbs.get? s = none) ∧ dbs' = dbs) ∨
    (∃ s db, d = .text s ∧ dbs.get? s = some db ∧ (∀ m, n = .text m → db.getTable m = none) ∧ miss = .ok dbs') ∨
    (∃ s db m t t', d = .text s ∧ dbs.get? s = some db ∧ n = .text m ∧ db.getTable m = some t ∧ f t = .ok t' ∧
      dbs' = dbs.set s (db.updateTable m (fun _ => t'))) := by
  unfold onTable at h
  cases d with
  | num q => cases h; exact .inl ⟨by simp, rfl⟩
  | text s =>
    simp only at h
    cases hg : dbs.get? s with
    | none =>
      rw [hg] at h; cases h
      exact .inl ⟨fun _ e => by cases e; exact hg, rfl⟩
    | some db =>
      rw [hg] at h
      simp only at h
      cases n with
      | num q => exact .inr (.inl ⟨s, db, rfl, hg, by simp, h⟩)
      | text m =>
        simp only at h
        cases ht : db.getTable m with
        | none =>
          rw [ht] at h
          exact .inr (.inl ⟨s, db, rfl, hg, fun _ e => by cases e; exact ht, h⟩)
        | some t =>
          rw [ht] at h
          simp only [bind, Except.bind] at h
          cases hf : f t with
          | error e => rw [hf] at h; cases h
          | ok t' =>
            rw [hf] at h; cases h
            exact .inr (.inr ⟨s, db, m, t, t', rfl, hg, rfl, ht, hf, rfl⟩)

/-! ## The sheet "Tables" -/

/-- Put a name at the end unless it is there. -/
def appendNew (l : List Str) (k : Str) : List Str := if k ∈ l then l else l ++ [k]

theorem firstUses_filter (p : Str → Bool) (l : List Str) : (firstUses l).filter p = firstUses (l.filter p) := by
  induction l with
  | nil => rfl
  | cons s l ih =>
    rw [firstUses, List.filter_cons]
    cases hp : p s with
    | true =>
      simp only [if_true]
      rw [List.filter_filter, List.filter_cons_of_pos hp, firstUses, ← ih, List.filter_filter]
      congr 1
      exact List.filter_congr (fun a _ => by rw [Bool.and_comm])
    | false =>
      simp only [Bool.false_eq_true, if_false]
      rw [List.filter_filter, List.filter_cons_of_neg (by simp [hp]), ← ih]
      apply List.filter_congr
      intro a _
      by_cases ha : a = s
      · subst ha; simp [hp]
      · simp [ha]

theorem appendNew_fold : ∀ (ks l : List Str), ks.foldl appendNew l = l ++ (firstUses ks).filter (fun k => decide (k ∉ l))
  | [], l => by simp [firstUses]
  | k :: ks, l => by
    rw [List.foldl_cons, appendNew_fold ks, firstUses, List.filter_cons, List.filter_filter, appendNew]
    by_cases hk : k ∈ l
    · simp only [hk, if_true, not_true_eq_false, decide_false, Bool.false_eq_true, if_false]
      congr 1
      apply List.filter_congr
      intro a _
      by_cases ha : a = k
      · subst ha; simp [hk]
      · simp [ha]
    · simp only [hk, if_false, not_false_eq_true, decide_true, if_true, List.append_assoc, List.singleton_append]
      congr 2
      apply List.filter_congr
      intro a _
      by_cases ha : a = k
      · subst ha; simp
      · simp [ha]

theorem appendNew_fold_nil (ks : List Str) : ks.foldl appendNew [] = firstUses ks := by
  rw [appendNew_fold]; simp

/-- The names of the tables of a database. -/
def tablesIn (dbs : Dict Database) (d : Str) : List Str := ((dbs.get? d).map (·.tables.keys)).getD []

theorem tablesIn_set (dbs : Dict Database) (d : Str) (t : Table) (e : Str) :
    tablesIn (dbs.set d (((dbs.get? d).getD (Database.empty d)).addTable t)) e =
      if e = d then appendNew (tablesIn dbs d) t.name else tablesIn dbs e := by
  unfold tablesIn
  rw [Dict.get?_set]
  by_cases h : e = d
  · subst h
    simp only [if_true, Option.map_some, Option.getD_some, Database.addTable, Dict.keys_set, appendNew]
    cases dbs.get? e with
    | none => rfl
    | some db => rfl
  · simp [h]

theorem tables_listed {h : List XCell} : ∀ (rows : List (List XCell)) (s s' : Dict Database),
    rows.foldlM (readTableRow h) s = .ok s' →
    ∃ l, RowsName h rows l ∧ s'.keys = (l.map Prod.fst).foldl appendNew s.keys ∧
      ∀ d, tablesIn s' d = ((l.filter (fun p => decide (p.1 = d))).map Prod.snd).foldl appendNew (tablesIn s d)
  | [], s, s', hr => by
    cases hr
    exact ⟨[], .nil, rfl, fun _ => rfl⟩
  | row :: rows, s, s', hr => by
    rw [List.foldlM_cons, bind_ok_iff] at hr
    obtain ⟨s1, h1, h2⟩ := hr
    obtain ⟨l, hl, hk, ht⟩ := tables_listed rows s1 s' h2
    rcases readTableRow_cases h1 with ⟨hb, rfl⟩ | ⟨d, t, hd, hu, hrow, rfl⟩
    · exact ⟨l, .blank hb hl, hk, ht⟩
    · refine ⟨(d, t.name) :: l, .row hd hu (rowTable_ok hrow).name hl, ?_, fun e => ?_⟩
      · rw [hk, Dict.keys_set, List.map_cons, List.foldl_cons, appendNew]
      · rw [ht e, tablesIn_set]
        by_cases he : e = d
        · subst he
          simp
        · simp [he, Ne.symm he]

/-- What holds for the databases while they are read. -/
structure DbsOk (s : Dict Database) : Prop where
  nodup : s.keys.Nodup
  name : ∀ d db, s.get? d = some db → db.name = d
  keyed : ∀ d db, s.get? d = some db → WellKeyed db

theorem dbsOk_nil : DbsOk [] := ⟨by simp, by simp, by simp⟩

theorem tableFrom_keyed {h row : List XCell} {t : Table} (ht : TableFrom h row t) : TableKeyed t := by
  obtain ⟨h1, h2, h3⟩ := ht.fresh
  exact ⟨by simp [h1], by simp [h1], by simp [h2], by simp [h2], by simp [h3], by simp [h3]⟩

theorem readTableRow_dbsOk {h row : List XCell} {s s' : Dict Database} (hs : DbsOk s) (hr : readTableRow h s row = .ok s') : DbsOk s' := by
  rcases readTableRow_cases hr with ⟨_, rfl⟩ | ⟨d, t, hd, hu, hrow, rfl⟩
  · exact hs
  · refine ⟨Dict.nodup_set hs.nodup _ _, fun e db he => ?_, fun e db he => ?_⟩
    · rw [Dict.get?_set] at he
      by_cases hed : e = d
      · subst hed
        simp only [if_true, Option.some.injEq] at he
        subst he
        cases hg : s.get? e with
        | none => rfl
        | some x => simpa [Database.addTable] using hs.name e x hg
      · rw [if_neg hed] at he; exact hs.name e db he
    · rw [Dict.get?_set] at he
      by_cases hed : e = d
      · subst hed
        simp only [if_true, Option.some.injEq] at he
        subst he
        cases hg : s.get? e with
        | none => exact (wellKeyed_empty e).addTable (tableFrom_keyed (rowTable_ok hrow))
        | some x => exact (hs.keyed e x hg).addTable (tableFrom_keyed (rowTable_ok hrow))
      · rw [if_neg hed] at he; exact hs.keyed e db he

/-! ## The other sheets -/

/-- How a row changes the table it names: it only adds a column, a foreign key or a relationship. -/
inductive Grows (t : Table) : Table → Prop where
  | column (c : Column) : Grows t (t.addColumn c)
  | fk (k : FK) : k.fromTable = t.name → k.fromKeys.length = k.toKeys.length → Grows t (t.addForeignKeyObj k)
  | rel (r : Rel) : r.fromTable = t.name → r.name = c!"REL_" ++ t.name ++ c!"_to_" ++ r.toTable → Grows t (t.addRelationshipObj r)

/-- A reader that finds the table named under `col` and changes it as `P` says.  `strict` says that an unknown table is an error. -/
def IsRowStep (h : List XCell) (col : Str) (strict : Bool) (P : List XCell → Table → Table → Prop)
    (step : Dict Database → List XCell → Except PyErr (Dict Database)) : Prop :=
  ∀ row, ∃ d n f, Under h row c!"Database" d ∧ Under h row col n ∧ (∀ t t', f t = .ok t' → P row t t') ∧
    ∀ dbs, step dbs row = onTable dbs d n (if strict then .error .attribute else .ok dbs) f

def ColumnStep (h row : List XCell) (t t' : Table) : Prop := ∃ c, ColumnFrom h row c ∧ t' = t.addColumn c
def FKStep (h row : List XCell) (t t' : Table) : Prop := ∃ k, FKFrom t.name h row k ∧ t' = t.addForeignKeyObj k
def RelStep (h row : List XCell) (t t' : Table) : Prop := ∃ r, RelFrom t.name h row r ∧ t' = t.addRelationshipObj r

theorem ColumnStep.grows {h row : List XCell} {t t' : Table} (x : ColumnStep h row t t') : Grows t t' := by
  obtain ⟨c, _, rfl⟩ := x; exact .column c
theorem FKStep.grows {h row : List XCell} {t t' : Table} (x : FKStep h row t t') : Grows t t' := by
  obtain ⟨k, hk, rfl⟩ := x; exact .fk k hk.2.1 hk.2.2.2.2.2
theorem RelStep.grows {h row : List XCell} {t t' : Table} (x : RelStep h row t t') : Grows t t' := by
  obtain ⟨k, hk, rfl⟩ := x; exact .rel k hk.2.1 hk.1

theorem mkColumn_ok {n ty : Str} {c : Column} (h : mkColumn (some n) (some ty) = .ok c) :
    c = { name := n, type := ty } ∧ (ty ∈ validTypes ∨ Varchar ty) := by
  unfold mkColumn at h
  simp only at h
  split at h
  · cases h
  · rename_i hn
    cases h
    refine ⟨rfl, ?_⟩
    by_cases h1 : validTypes.contains ty
    · exact .inl (by simpa using h1)
    · by_cases h2 : startsWith ty c!"VARCHAR"
      · rw [startsWith, List.isPrefixOf_iff_prefix] at h2
        obtain ⟨rest, hr⟩ := h2
        exact .inr ⟨rest, hr.symm⟩
      · exact absurd ⟨h1, h2⟩ hn

theorem isRowStep_columns {h : List XCell} (h1 : XCell.text c!"Database" ∈ h) (h2 : XCell.text c!"Table" ∈ h) :
    IsRowStep h c!"Table" false (ColumnStep h) (readColumnRow h) := by
  intro row
  obtain ⟨d, hd⟩ := cell_of_mem (row := row) h1
  obtain ⟨n, hn⟩ := cell_of_mem (row := row) h2
  refine ⟨d, n, _, (cell_ok_iff _ _ _ _).1 hd, (cell_ok_iff _ _ _ _).1 hn, ?_, fun dbs => by
    simp only [readColumnRow, hd, hn, bind, Except.bind, Bool.false_eq_true, if_false]; rfl⟩
  intro t t' ht
  cases hc : rowColumn h row with
  | error e => rw [hc] at ht; cases ht
  | ok c =>
    rw [hc] at ht; cases ht
    refine ⟨c, ?_, rfl⟩
    simp only [rowColumn, bind_ok_iff, cell_ok_iff, name_ok_iff, str_ok_iff] at hc
    obtain ⟨_, p1, _, p2, ty, rfl, c0, hc0, name, rfl, hc⟩ := hc
    obtain ⟨rfl, hv⟩ := mkColumn_ok hc0
    cases hc
    exact ⟨p1, p2, hv⟩

theorem splitNames_piecesIn (s : Str) : PiecesIn s (splitNames s) :=
  ⟨splitC ',' s, splitC_ne_nil _ _, by rw [← joinS_intersperse, joinS_splitC], fun p hp => not_mem_splitC p hp, rfl⟩

theorem rowFK_step {h row : List XCell} {t t' : Table} (ht : rowFK h row t = .ok t') : FKStep h row t t' := by
  unfold rowFK at ht
  simp only [bind_ok_iff, cell_ok_iff, str_ok_iff] at ht
  obtain ⟨_, p1, _, p2, fk, rfl, _, p3, tk, rfl, _, p4, ht⟩ := ht
  split at ht
  · cases ht
  · rename_i hlen
    simp only [bind_ok_iff, name_ok_iff] at ht
    obtain ⟨name, rfl, tt, rfl, ht⟩ := ht
    simp only [Table.addForeignKey, bind_ok_iff, mkFK] at ht
    obtain ⟨k, hk, ht⟩ := ht
    split at hk
    · cases hk
    · rename_i hl
      cases hk; cases ht
      exact ⟨_, ⟨p1, rfl, p4, ⟨fk, p2, splitNames_piecesIn _⟩, ⟨tk, p3, splitNames_piecesIn _⟩, Decidable.not_not.1 hl⟩, rfl⟩

theorem rowRel_step {h row : List XCell} {t t' : Table} (ht : rowRel h row t = .ok t') : RelStep h row t t' := by
  unfold rowRel at ht
  simp only [bind_ok_iff, cell_ok_iff, name_ok_iff] at ht
  obtain ⟨_, p1, _, p2, tt, rfl, cond, rfl, ht⟩ := ht
  simp only [Table.addRelationship, bind_ok_iff, mkRel] at ht
  obtain ⟨r, hr, ht⟩ := ht
  cases hr; cases ht
  exact ⟨_, ⟨rfl, rfl, p1, p2⟩, rfl⟩

theorem isRowStep_fks {h : List XCell} (h1 : XCell.text c!"Database" ∈ h) (h2 : XCell.text c!"From Table" ∈ h) :
    IsRowStep h c!"From Table" false (FKStep h) (readFKRow h) := by
  intro row
  obtain ⟨d, hd⟩ := cell_of_mem (row := row) h1
  obtain ⟨n, hn⟩ := cell_of_mem (row := row) h2
  exact ⟨d, n, rowFK h row, (cell_ok_iff _ _ _ _).1 hd, (cell_ok_iff _ _ _ _).1 hn, fun _ _ => rowFK_step, fun dbs => by
    simp only [readFKRow, hd, hn, bind, Except.bind, Bool.false_eq_true, if_false]⟩

theorem isRowStep_rels {h : List XCell} (h1 : XCell.text c!"Database" ∈ h) (h2 : XCell.text c!"From Table" ∈ h) :
    IsRowStep h c!"From Table" true (RelStep h) (readRelRow h) := by
  intro row
  obtain ⟨d, hd⟩ := cell_of_mem (row := row) h1
  obtain ⟨n, hn⟩ := cell_of_mem (row := row) h2
  exact ⟨d, n, rowRel h row, (cell_ok_iff _ _ _ _).1 hd, (cell_ok_iff _ _ _ _).1 hn, fun _ _ => rowRel_step, fun dbs => by
    simp only [readRelRow, hd, hn, bind, Except.bind, if_true]⟩

theorem Grows.name {t t' : Table} (h : Grows t t') : t'.name = t.name := by cases h <;> rfl
theorem Grows.keyed {t t' : Table} (h : Grows t t') (ht : TableKeyed t) : TableKeyed t' := by
  cases h with
  | column c => exact ht.addColumn c
  | fk k _ _ => exact ht.addForeignKeyObj k
  | rel r _ _ => exact ht.addRelationshipObj r
theorem Grows.same {t t' : Table} (h : Grows t t') : t'.schema = t.schema ∧ t'.pk = t.pk ∧ t'.shard = t.shard := by
  cases h <;> exact ⟨rfl, rfl, rfl⟩

theorem getTable_update (db : Database) (m n : Str) (f : Table → Table) :
    (db.updateTable m f).getTable n = if n = m then (db.getTable n).map f else db.getTable n := by
  unfold Database.updateTable Database.getTable
  simp only
  induction db.tables with
  | nil => simp
  | cons p l ih =>
    obtain ⟨k, t⟩ := p
    rw [List.map_cons]
    by_cases hk : k = m
    · subst hk
      simp only [if_true, Dict.get?_cons]
      by_cases hn : n = k
      · subst hn; simp
      · simp only [Ne.symm hn, if_false, hn] at ih ⊢; exact ih
    · simp only [hk, if_false, Dict.get?_cons]
      by_cases hkn : k = n
      · subst hkn; simp [hk]
      · simp only [hkn, if_false]; exact ih

/-- What a row of the other sheets does if it is read. -/
theorem rowStep_cases {h : List XCell} {col : Str} {strict : Bool} {P : List XCell → Table → Table → Prop} {step : Dict Database → List XCell → Except PyErr (Dict Database)}
    (hstep : IsRowStep h col strict P step) {s s' : Dict Database} {row : List XCell} (hr : step s row = .ok s') :
    ∃ d n, Under h row c!"Database" d ∧ Under h row col n ∧
    (((∀ x, d = .text x → s.get? x = none) ∧ s' = s) ∨
     (∃ x db, d = .text x ∧ s.get? x = some db ∧ (∀ m, n = .text m → db.getTable m = none) ∧ s' = s ∧ strict = false) ∨
     (∃ x db m t t', d = .text x ∧ s.get? x = some db ∧ n = .text m ∧ db.getTable m = some t ∧ P row t t' ∧
        s' = s.set x (db.updateTable m (fun _ => t')))) := by
  obtain ⟨d, n, f, h1, h2, h3, h4⟩ := hstep row
  rw [h4] at hr
  refine ⟨d, n, h1, h2, ?_⟩
  rcases onTable_cases hr with h | ⟨x, db, e1, e2, e3, e4⟩ | ⟨x, db, m, t, t', e1, e2, e3, e4, e5, e6⟩
  · exact .inl h
  · cases strict with
    | true => cases e4
    | false => cases e4; exact .inr (.inl ⟨x, db, e1, e2, e3, rfl, rfl⟩)
  · exact .inr (.inr ⟨x, db, m, t, t', e1, e2, e3, e4, h3 t t' e5, e6⟩)

theorem rowStep_dbsOk {h : List XCell} {col : Str} {strict : Bool} {P : List XCell → Table → Table → Prop} {step : Dict Database → List XCell → Except PyErr (Dict Database)}
    (hstep : IsRowStep h col strict P step) (hP : ∀ row t t', P row t t' → Grows t t')
    {s s' : Dict Database} {row : List XCell} (hs : DbsOk s) (hr : step s row = .ok s') :
    DbsOk s' ∧ s'.keys = s.keys ∧ ∀ e, tablesIn s' e = tablesIn s e := by
  obtain ⟨d, n, _, _, ⟨_, rfl⟩ | ⟨x, db, _, _, _, rfl, _⟩ | ⟨x, db, m, t, t', rfl, hx, rfl, ht, hp, rfl⟩⟩ := rowStep_cases hstep hr
  · exact ⟨hs, rfl, fun _ => rfl⟩
  · exact ⟨hs, rfl, fun _ => rfl⟩
  · have hg := hP _ _ _ hp
    have hxk : x ∈ s.keys := (Dict.get?_isSome_iff s x).1 (by simp [hx])
    refine ⟨⟨Dict.nodup_set hs.nodup _ _, fun e db' he => ?_, fun e db' he => ?_⟩, by rw [Dict.keys_set, if_pos hxk], fun e => ?_⟩
    · rw [Dict.get?_set] at he
      by_cases hex : e = x
      · subst hex
        simp only [if_true, Option.some.injEq] at he
        subst he
        exact hs.name e db hx
      · rw [if_neg hex] at he; exact hs.name e db' he
    · rw [Dict.get?_set] at he
      by_cases hex : e = x
      · subst hex
        simp only [if_true, Option.some.injEq] at he
        subst he
        have hw := hs.keyed e db hx
        refine hw.updateTable (fun u hu huk => ?_)
        have : u = t := by
          have := Dict.get?_of_mem hw.tables hu
          rw [Database.getTable] at ht
          rw [ht] at this
          exact (Option.some.inj this).symm
        subst this
        exact ⟨hg.keyed huk, hg.name⟩
      · rw [if_neg hex] at he; exact hs.keyed e db' he
    · unfold tablesIn
      rw [Dict.get?_set]
      by_cases hex : e = x
      · subst hex; simp [hx, keys_updateTable]
      · simp [hex]

/-- The same for all rows of a sheet. -/
theorem rowSteps_dbsOk {h : List XCell} {col : Str} {strict : Bool} {P : List XCell → Table → Table → Prop} {step : Dict Database → List XCell → Except PyErr (Dict Database)}
    (hstep : IsRowStep h col strict P step) (hP : ∀ row t t', P row t t' → Grows t t')
    {s s' : Dict Database} {rows : List (List XCell)} (hs : DbsOk s) (hr : rows.foldlM step s = .ok s') :
    DbsOk s' ∧ s'.keys = s.keys ∧ ∀ e, tablesIn s' e = tablesIn s e := by
  refine foldlM_keeps (I := fun x => DbsOk x ∧ x.keys = s.keys ∧ ∀ e, tablesIn x e = tablesIn s e) rows s s' ?_ hr ⟨hs, rfl, fun _ => rfl⟩
  rintro a b r _ ⟨h1, h2, h3⟩ hab
  obtain ⟨g1, g2, g3⟩ := rowStep_dbsOk hstep hP h1 hab
  exact ⟨g1, g2.trans h2, fun e => (g3 e).trans (h3 e)⟩

end Verif
