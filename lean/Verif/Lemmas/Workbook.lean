import Verif.Spec.Workbook
import Verif.Lemmas.ExcelReports
/-
Lemmas on the reading of every workbook: which rows end in an exception, why what the sheets describe is unique.
-/

namespace Verif
open Spec

/-! ## Rows that end in an exception -/

theorem foldlM_error_iff {S R : Type} {f : S → R → Except PyErr S} {I : S → Prop} {F : R → PyErr → Prop} {e : PyErr} :
    ∀ (rows : List R) (s : S), (∀ s, ∀ r ∈ rows, I s → ∀ e, f s r = .error e ↔ F r e) →
    (∀ s s', ∀ r ∈ rows, I s → f s r = .ok s' → I s') → I s →
    (rows.foldlM f s = .error e ↔ ∃ pre r post, rows = pre ++ r :: post ∧ (∀ x ∈ pre, ∀ e', ¬ F x e') ∧ F r e)
  | [], s, _, _, _ => by
    constructor
    · intro h; cases h
    · rintro ⟨pre, r, post, h, _⟩
      cases pre <;> cases h
  | r :: rows, s, h1, h2, hi => by
    rw [List.foldlM_cons]
    cases hf : f s r with
    | error e' =>
      have hF := (h1 s r (by simp) hi e').1 hf
      constructor
      · intro h
        cases h
        exact ⟨[], r, rows, rfl, by simp, hF⟩
      · rintro ⟨pre, x, post, hx, hp, he⟩
        cases pre with
        | nil =>
          simp only [List.nil_append, List.cons.injEq] at hx
          obtain ⟨rfl, rfl⟩ := hx
          have := (h1 s r (by simp) hi e).2 he
          rw [hf] at this
          cases this
          rfl
        | cons y pre =>
          simp only [List.cons_append, List.cons.injEq] at hx
          obtain ⟨rfl, rfl⟩ := hx
          exact absurd hF (hp r (by simp) e')
    | ok s' =>
      have ih := foldlM_error_iff (e := e) (f := f) (I := I) (F := F) rows s' (fun s r hr => h1 s r (by simp [hr])) (fun s s' r hr => h2 s s' r (by simp [hr]))
        (h2 s s' r (by simp) hi hf)
      have hno : ∀ e', ¬ F r e' := fun e' he => by
        have := (h1 s r (by simp) hi e').2 he
        rw [hf] at this
        cases this
      change rows.foldlM f s' = .error e ↔ _
      rw [ih]
      constructor
      · rintro ⟨pre, x, post, rfl, hp, he⟩
        exact ⟨r :: pre, x, post, rfl, fun y hy => (List.mem_cons.1 hy).elim (fun h => h ▸ hno) (hp y), he⟩
      · rintro ⟨pre, x, post, hx, hp, he⟩
        cases pre with
        | nil =>
          simp only [List.nil_append, List.cons.injEq] at hx
          obtain ⟨rfl, rfl⟩ := hx
          exact absurd he (hno e)
        | cons y pre =>
          simp only [List.cons_append, List.cons.injEq] at hx
          obtain ⟨rfl, rfl⟩ := hx
          exact ⟨pre, x, post, rfl, fun z hz => hp z (by simp [hz]), he⟩

theorem header_mem {wb : Workbook} (hs : Shaped wb) {name : Str} {cols : List Str} {h : List XCell} {rows : List (List XCell)}
    (hm : (name, cols) ∈ needed) (hsh : SheetIs wb name h rows) {c : Str} (hc : c ∈ cols) (row : List XCell) : ∃ v, Under h row c v := by
  obtain ⟨h', rows', hs', hall⟩ := hs _ hm
  rw [SheetIs] at hsh hs'
  simp only at hs'
  rw [hsh] at hs'
  cases hs'
  obtain ⟨v, hv⟩ := cell_of_mem (row := row) (hall c hc)
  exact ⟨v, (cell_ok_iff _ _ _ _).1 hv⟩

theorem cell_of {h row : List XCell} {col : Str} {v : XCell} (hu : Under h row col v) : cell h row col = .ok v := (cell_ok_iff _ _ _ _).2 hu

theorem tableRow_fails {wb : Workbook} {h row : List XCell} (hall : ∀ c ∈ [c!"Database", c!"Schema", c!"Table", c!"Primary Key", c!"Shard Key",
    c!"# Shards"], ∃ v, Under h row c v) (s : Dict Database) (e : PyErr) : readTableRow h s row = .error e ↔ RowFails wb h row c!"Tables" e := by
  constructor
  · intro hr
    obtain ⟨vd, ud⟩ := hall c!"Database" (by simp)
    obtain ⟨vs, us⟩ := hall c!"Schema" (by simp)
    obtain ⟨vt, ut⟩ := hall c!"Table" (by simp)
    obtain ⟨vp, up⟩ := hall c!"Primary Key" (by simp)
    obtain ⟨vk, uk⟩ := hall c!"Shard Key" (by simp)
    obtain ⟨vn, un⟩ := hall c!"# Shards" (by simp)
    cases vd with
    | num q =>
      simp only [readTableRow, cell_of ud, bind, Except.bind, XCell.name] at hr
      rw [if_neg (by simp)] at hr
      cases hr
      exact .database ud
    | text d =>
      by_cases hd : d = []
      · subst hd
        simp only [readTableRow, cell_of ud, bind, Except.bind, if_true] at hr
        cases hr
      · simp only [readTableRow, cell_of ud, bind, Except.bind, XCell.name] at hr
        rw [if_neg (by simpa using hd)] at hr
        simp only [rowTable, cell_of us, cell_of ut, cell_of up, cell_of uk, cell_of un, bind, Except.bind] at hr
        cases vp with
        | num q => cases hr; exact .primaryKey hd ud up
        | text p =>
          cases vk with
          | num q => cases hr; exact .shardKey hd ud up uk
          | text k =>
            cases vt with
            | num q => cases hr; exact .tableName hd ud up uk (by simp) ut
            | text t =>
              cases vs with
              | num q => cases hr; exact .tableName hd ud up uk (by simp) us
              | text sc => cases hr
  · intro hf
    generalize hS : c!"Tables" = S at hf
    cases hf with
    | database hu =>
      simp only [readTableRow, cell_of hu, bind, Except.bind, XCell.name]
      rw [if_neg (by simp)]
    | primaryKey hd hu hp =>
      simp only [readTableRow, cell_of hu, bind, Except.bind, XCell.name]
      rw [if_neg (by simpa using hd)]
      simp only [rowTable, cell_of hp, bind, Except.bind, XCell.str]
    | shardKey hd hu hp hk =>
      simp only [readTableRow, cell_of hu, bind, Except.bind, XCell.name]
      rw [if_neg (by simpa using hd)]
      simp only [rowTable, cell_of hp, cell_of hk, bind, Except.bind, XCell.str]
    | tableName hd hu hp hk hc hq =>
      obtain ⟨vn, un⟩ := hall c!"# Shards" (by simp)
      obtain ⟨vs, us⟩ := hall c!"Schema" (by simp)
      obtain ⟨vt, ut⟩ := hall c!"Table" (by simp)
      simp only [readTableRow, cell_of hu, bind, Except.bind, XCell.name]
      rw [if_neg (by simpa using hd)]
      simp only [rowTable, cell_of hp, cell_of hk, cell_of un, cell_of us, cell_of ut, bind, Except.bind, XCell.str]
      simp only [List.mem_cons, List.not_mem_nil, or_false] at hc
      rcases hc with rfl | rfl
      · rw [under_unique ut hq]; rfl
      · rw [under_unique us hq]
        cases vt <;> rfl
    | _ => exact absurd hS (by decide)

/-- Where the change of a table fails. -/
theorem onTable_fails {wb : Workbook} {s : Dict Database} (K : Knows wb s) (d n : XCell) (miss : Except PyErr (Dict Database))
    (f : Table → Except PyErr Table) (e : PyErr) :
    onTable s d n miss f = .error e ↔ (∃ x m, d = .text x ∧ Known wb x m ∧ NoTable wb x n ∧ miss = .error e) ∨
      ∃ x m t, d = .text x ∧ n = .text m ∧ Known wb x m ∧ tableAt s x m = some t ∧ f t = .error e := by
  have hget : ∀ {x m : Str}, Known wb x m → ∃ db t, s.get? x = some db ∧ db.getTable m = some t := by
    intro x m hk
    have hm := (K.tables x m).2 hk
    unfold tablesIn at hm
    cases hg : s.get? x with
    | none => simp [hg] at hm
    | some db =>
      simp only [hg, Option.map_some, Option.getD_some] at hm
      obtain ⟨t, ht⟩ := Option.isSome_iff_exists.1 ((Dict.get?_isSome_iff db.tables m).2 hm)
      exact ⟨db, t, rfl, ht⟩
  have hkn : ∀ {x m : Str} {db : Database} {t : Table}, s.get? x = some db → db.getTable m = some t → Known wb x m := by
    intro x m db t hg ht
    refine (K.tables x m).1 ?_
    unfold tablesIn
    rw [hg]
    exact (Dict.get?_isSome_iff db.tables m).1 (by rw [Database.getTable] at ht; simp [ht])
  cases d with
  | num q => simp [onTable]
  | text x =>
    cases hg : s.get? x with
    | none =>
      simp only [onTable, hg, reduceCtorEq, false_iff, not_or, not_exists, not_and]
      refine ⟨fun y m hy hk => ?_, fun y m t hy _ hk => ?_⟩
      · cases hy
        obtain ⟨db, t, h1, _⟩ := hget hk
        rw [hg] at h1; cases h1
      · cases hy
        obtain ⟨db, t, h1, _⟩ := hget hk
        rw [hg] at h1; cases h1
    | some db =>
      obtain ⟨m0, hm0⟩ := (K.dbs x).1 ((Dict.get?_isSome_iff s x).1 (by simp [hg]))
      cases n with
      | num q =>
        simp only [onTable, hg]
        constructor
        · intro h; exact .inl ⟨x, m0, rfl, hm0, fun y hy => absurd hy (by simp), h⟩
        · rintro (⟨y, m, _, _, _, h⟩ | ⟨y, m, t, _, h, _⟩)
          · exact h
          · cases h
      | text m =>
        cases ht : db.getTable m with
        | none =>
          simp only [onTable, hg, ht]
          constructor
          · intro h
            refine .inl ⟨x, m0, rfl, hm0, fun y hy hk => ?_, h⟩
            cases hy
            obtain ⟨db', t, h1, h2⟩ := hget hk
            rw [hg] at h1; cases h1
            rw [ht] at h2; cases h2
          · rintro (⟨y, m, _, _, _, h⟩ | ⟨y, m', t, h1, h2, hk, _⟩)
            · exact h
            · cases h1; cases h2
              obtain ⟨db', t, h1, h2⟩ := hget hk
              rw [hg] at h1; cases h1
              rw [ht] at h2; cases h2
        | some t =>
          simp only [onTable, hg, ht]
          have hat : tableAt s x m = some t := by simp [tableAt, hg, ht]
          constructor
          · intro h
            refine .inr ⟨x, m, t, rfl, rfl, hkn hg ht, hat, ?_⟩
            cases hf : f t with
            | error e' => rw [hf] at h; cases h; rfl
            | ok t' => rw [hf] at h; cases h
          · rintro (⟨y, m', h1, _, hno, _⟩ | ⟨y, m', t', h1, h2, _, h3, h4⟩)
            · cases h1
              exact absurd (hkn hg ht) (hno m rfl)
            · cases h1; cases h2
              rw [hat] at h3; cases h3
              rw [h4]; rfl

theorem Knows.at {wb : Workbook} {s : Dict Database} (K : Knows wb s) {x m : Str} (hk : Known wb x m) : ∃ t, tableAt s x m = some t := by
  have hm := (K.tables x m).2 hk
  unfold tablesIn at hm
  unfold tableAt
  cases hg : s.get? x with
  | none => simp [hg] at hm
  | some db =>
    simp only [hg, Option.map_some, Option.getD_some] at hm
    exact Option.isSome_iff_exists.1 ((Dict.get?_isSome_iff db.tables m).2 hm)

theorem mkColumn_error {ty : Str} {e : PyErr} : mkColumn (some []) (some ty) = .error e ↔ ty ∉ validTypes ∧ ¬ Varchar ty ∧ e = .value := by
  have hv : startsWith ty c!"VARCHAR" = true ↔ Varchar ty := by
    rw [startsWith, List.isPrefixOf_iff_prefix]
    constructor
    · rintro ⟨r, h⟩; exact ⟨r, h.symm⟩
    · rintro ⟨r, h⟩; exact ⟨r, h.symm⟩
  unfold mkColumn
  simp only
  by_cases h1 : ty ∈ validTypes
  · rw [if_neg (by simp [h1])]; simp [h1]
  · by_cases h2 : Varchar ty
    · rw [if_neg (by simp [hv.2 h2])]; simp [h2]
    · rw [if_pos ⟨by simpa using h1, fun h => h2 (hv.1 h)⟩]; simp [h1, h2, eq_comm]

theorem columnRow_fails {wb : Workbook} {h row : List XCell} (hall : ∀ c ∈ [c!"Database", c!"Table", c!"Name", c!"Type"], ∃ v, Under h row c v)
    {s : Dict Database} (K : Knows wb s) (e : PyErr) : readColumnRow h s row = .error e ↔ RowFails wb h row c!"Columns" e := by
  obtain ⟨vd, ud⟩ := hall c!"Database" (by simp)
  obtain ⟨vt, ut⟩ := hall c!"Table" (by simp)
  obtain ⟨vn, un⟩ := hall c!"Name" (by simp)
  obtain ⟨vy, uy⟩ := hall c!"Type" (by simp)
  have hstep : readColumnRow h s row = onTable s vd vt (.ok s) (fun t => rowColumn h row >>= fun c => .ok (t.addColumn c)) := by
    simp only [readColumnRow, cell_of ud, cell_of ut, bind, Except.bind]
  have hrow : ∀ t : Table, (rowColumn h row >>= fun c => (Except.ok (t.addColumn c) : Except PyErr Table)) = .error e ↔
      rowColumn h row = .error e := by
    intro t
    cases rowColumn h row <;> simp [bind, Except.bind]
  rw [hstep, onTable_fails K]
  simp only [hrow, reduceCtorEq, and_false, exists_false, false_or]
  constructor
  · rintro ⟨x, m, t, rfl, rfl, hk, _, hr⟩
    simp only [rowColumn, cell_of un, cell_of uy, bind, Except.bind] at hr
    cases vy with
    | num q => cases hr; exact .numberType ⟨ud, ut⟩ hk uy
    | text ty =>
      simp only [XCell.str] at hr
      cases hc : mkColumn (some []) (some ty) with
      | error e' =>
        rw [hc] at hr
        cases hr
        obtain ⟨h1, h2, rfl⟩ := mkColumn_error.1 hc
        exact .noType ⟨ud, ut⟩ hk uy h1 h2
      | ok c =>
        rw [hc] at hr
        cases vn with
        | num q => cases hr; exact .columnName ⟨ud, ut⟩ hk uy (mkColumn_ok hc).2 un
        | text n => cases hr
  · intro hf
    generalize hS : c!"Columns" = S at hf
    cases hf with
    | numberType hn hk hu =>
      obtain ⟨t, ht⟩ := K.at hk
      refine ⟨_, _, t, under_unique ud hn.1, under_unique ut hn.2, hk, ht, ?_⟩
      simp only [rowColumn, cell_of un, cell_of hu, bind, Except.bind, XCell.str]
    | noType hn hk hu h1 h2 =>
      obtain ⟨t, ht⟩ := K.at hk
      refine ⟨_, _, t, under_unique ud hn.1, under_unique ut hn.2, hk, ht, ?_⟩
      simp only [rowColumn, cell_of un, cell_of hu, bind, Except.bind, XCell.str, mkColumn_error.2 ⟨h1, h2, rfl⟩]
    | @columnName d n ty q hn hk hu h1 h2 =>
      obtain ⟨t, ht⟩ := K.at hk
      refine ⟨_, _, t, under_unique ud hn.1, under_unique ut hn.2, hk, ht, ?_⟩
      simp only [rowColumn, cell_of h2, cell_of hu, bind, Except.bind, XCell.str]
      cases hc : mkColumn (some []) (some ty) with
      | error e' =>
        obtain ⟨g1, g2, _⟩ := mkColumn_error.1 hc
        exact absurd h1 (by rintro (h | h); exacts [g1 h, g2 h])
      | ok c => rfl
    | _ => exact absurd hS (by decide)

theorem PiecesIn.eq {s : Str} {l : List Str} (h : PiecesIn s l) : l = splitNames s := by
  obtain ⟨ps, h1, h2, h3, rfl⟩ := h
  rw [splitNames, ← h2]
  congr 1
  exact pieces_unique h1 (splitC_ne_nil _ _) h3 (fun p hp => not_mem_splitC p hp) (by rw [← joinS_intersperse, ← joinS_intersperse, joinS_splitC])

theorem fkRow_fails {wb : Workbook} {h row : List XCell} (hall : ∀ c ∈ [c!"Name", c!"Database", c!"From Table", c!"From Columns", c!"To Table",
    c!"To Columns"], ∃ v, Under h row c v) {s : Dict Database} (K : Knows wb s) (e : PyErr) :
    readFKRow h s row = .error e ↔ RowFails wb h row c!"Foreign Keys" e := by
  obtain ⟨vd, ud⟩ := hall c!"Database" (by simp)
  obtain ⟨vt, ut⟩ := hall c!"From Table" (by simp)
  obtain ⟨vn, un⟩ := hall c!"Name" (by simp)
  obtain ⟨vf, uf⟩ := hall c!"From Columns" (by simp)
  obtain ⟨vo, uo⟩ := hall c!"To Table" (by simp)
  obtain ⟨vc, uc⟩ := hall c!"To Columns" (by simp)
  have hstep : readFKRow h s row = onTable s vd vt (.ok s) (rowFK h row) := by
    simp only [readFKRow, cell_of ud, cell_of ut, bind, Except.bind]
  rw [hstep, onTable_fails K]
  simp only [reduceCtorEq, and_false, exists_false, false_or]
  constructor
  · rintro ⟨x, m, t, rfl, rfl, hk, _, hr⟩
    simp only [rowFK, cell_of un, cell_of uf, cell_of uo, cell_of uc, bind, Except.bind] at hr
    cases vf with
    | num q => cases hr; exact .fromColumns ⟨ud, ut⟩ hk uf
    | text fs =>
      cases vc with
      | num q => cases hr; exact .toColumns ⟨ud, ut⟩ hk uf uc
      | text tc =>
        simp only [XCell.str] at hr
        by_cases hl : (splitNames fs).length = (splitNames tc).length
        · rw [if_neg (by simpa using hl)] at hr
          cases vn with
          | num q => cases hr; exact .keyName ⟨ud, ut⟩ hk uf uc (splitNames_piecesIn _) (splitNames_piecesIn _) hl (by simp) un
          | text n =>
            cases vo with
            | num q => cases hr; exact .keyName ⟨ud, ut⟩ hk uf uc (splitNames_piecesIn _) (splitNames_piecesIn _) hl (by simp) uo
            | text o =>
              exfalso
              simp only [XCell.name, Table.addForeignKey, bind, Except.bind] at hr
              simp [mkFK, KeyArg.toList, hl] at hr
        · rw [if_pos hl] at hr
          cases hr
          exact .lengths ⟨ud, ut⟩ hk uf uc (splitNames_piecesIn _) (splitNames_piecesIn _) hl
  · intro hf
    generalize hS : c!"Foreign Keys" = S at hf
    cases hf with
    | fromColumns hn hk h1 =>
      obtain ⟨t, ht⟩ := K.at hk
      refine ⟨_, _, t, under_unique ud hn.1, under_unique ut hn.2, hk, ht, ?_⟩
      simp only [rowFK, cell_of un, cell_of h1, bind, Except.bind, XCell.str]
    | toColumns hn hk h1 h2 =>
      obtain ⟨t, ht⟩ := K.at hk
      refine ⟨_, _, t, under_unique ud hn.1, under_unique ut hn.2, hk, ht, ?_⟩
      simp only [rowFK, cell_of un, cell_of h1, cell_of h2, bind, Except.bind, XCell.str]
    | lengths hn hk h1 h2 p1 p2 hl =>
      obtain ⟨t, ht⟩ := K.at hk
      refine ⟨_, _, t, under_unique ud hn.1, under_unique ut hn.2, hk, ht, ?_⟩
      simp only [rowFK, cell_of un, cell_of uo, cell_of h1, cell_of h2, bind, Except.bind, XCell.str]
      rw [if_pos (by rw [← PiecesIn.eq p1, ← PiecesIn.eq p2]; exact hl)]
    | keyName hn hk h1 h2 p1 p2 hl hc hq =>
      obtain ⟨t, ht⟩ := K.at hk
      refine ⟨_, _, t, under_unique ud hn.1, under_unique ut hn.2, hk, ht, ?_⟩
      simp only [rowFK, cell_of un, cell_of uo, cell_of h1, cell_of h2, bind, Except.bind, XCell.str]
      rw [if_neg (by rw [← PiecesIn.eq p1, ← PiecesIn.eq p2]; simpa using hl)]
      simp only [List.mem_cons, List.not_mem_nil, or_false] at hc
      rcases hc with rfl | rfl
      · rw [under_unique un hq]; rfl
      · rw [under_unique uo hq]
        cases vn <;> rfl
    | _ => exact absurd hS (by decide)

theorem relRow_fails {wb : Workbook} {h row : List XCell} (hall : ∀ c ∈ [c!"Database", c!"From Table", c!"To Table", c!"Conditions"],
    ∃ v, Under h row c v) {s : Dict Database} (K : Knows wb s) (e : PyErr) :
    readRelRow h s row = .error e ↔ RowFails wb h row c!"Relationships" e := by
  obtain ⟨vd, ud⟩ := hall c!"Database" (by simp)
  obtain ⟨vt, ut⟩ := hall c!"From Table" (by simp)
  obtain ⟨vo, uo⟩ := hall c!"To Table" (by simp)
  obtain ⟨vc, uc⟩ := hall c!"Conditions" (by simp)
  have hstep : readRelRow h s row = onTable s vd vt (.error .attribute) (rowRel h row) := by
    simp only [readRelRow, cell_of ud, cell_of ut, bind, Except.bind]
  rw [hstep, onTable_fails K]
  constructor
  · rintro (⟨x, m, rfl, hk, hno, he⟩ | ⟨x, m, t, rfl, rfl, hk, _, hr⟩)
    · cases he
      exact .noTable ud hk ut hno
    · simp only [rowRel, cell_of uo, cell_of uc, bind, Except.bind] at hr
      cases vo with
      | num q => cases hr; exact .relationship ⟨ud, ut⟩ hk (by simp) uo
      | text o =>
        cases vc with
        | num q => cases hr; exact .relationship ⟨ud, ut⟩ hk (by simp) uc
        | text c => cases hr
  · intro hf
    generalize hS : c!"Relationships" = S at hf
    cases hf with
    | @noTable d m n hd hk hn hno =>
      refine .inl ⟨d, m, under_unique ud hd, hk, ?_, rfl⟩
      rw [under_unique ut hn]
      exact hno
    | relationship hn hk hc hq =>
      obtain ⟨t, ht⟩ := K.at hk
      refine .inr ⟨_, _, t, under_unique ud hn.1, under_unique ut hn.2, hk, ht, ?_⟩
      simp only [rowRel, cell_of uo, cell_of uc, bind, Except.bind]
      simp only [List.mem_cons, List.not_mem_nil, or_false] at hc
      rcases hc with rfl | rfl
      · rw [under_unique uo hq]; rfl
      · rw [under_unique uc hq]
        cases vo <;> rfl
    | _ => exact absurd hS (by decide)

/-! ## The whole run -/

theorem readXls_headless {wb : Workbook} (hh : ¬ Headed wb) : readXls wb = .error .index := by
  have key : ∀ (l : List (Str × List Str)) (v : Bool), (∃ p ∈ l, wb.get? p.1 = some []) → l.foldlM (fun valid p => do
      let ok ← verifySheet wb p
      Except.ok (valid && ok)) v = Except.error .index := by
    intro l
    induction l with
    | nil => rintro v ⟨p, hp, _⟩; exact absurd hp (by simp)
    | cons q l ih =>
      rintro v ⟨p, hp, he⟩
      rw [List.foldlM_cons]
      cases hq : wb.get? q.1 with
      | none =>
        have hv : verifySheet wb q = .ok false := by rw [verifySheet, hq]
        rw [hv]
        refine ih _ ⟨p, ?_, he⟩
        rcases List.mem_cons.1 hp with rfl | hp
        · rw [hq] at he; cases he
        · exact hp
      | some sh =>
        cases sh with
        | nil =>
          have hv : verifySheet wb q = .error .index := by rw [verifySheet, hq]
          rw [hv]
          rfl
        | cons hd rows =>
          have hv : ∃ b, verifySheet wb q = .ok b := ⟨_, by rw [verifySheet, hq]⟩
          obtain ⟨b, hv⟩ := hv
          rw [hv]
          refine ih _ ⟨p, ?_, he⟩
          rcases List.mem_cons.1 hp with rfl | hp
          · rw [hq] at he; cases he
          · exact hp
  have hex : ∃ p ∈ required, wb.get? p.1 = some [] := by
    by_contra hno
    refine hh (fun p hp e => hno ⟨p, ?_, e⟩)
    rw [required_eq]
    exact hp
  have hv : verifyFormat wb = .error .index := key required true hex
  rw [readXls, hv]
  rfl

/-- Some row, the first of its kind, ends in `e`. -/
def FirstFails (wb : Workbook) (sheet : Str) (h : List XCell) (rows : List (List XCell)) (e : PyErr) : Prop :=
  ∃ pre r post, rows = pre ++ r :: post ∧ RowsPass wb sheet h pre ∧ RowFails wb h r sheet e

theorem Sheets.folds {wb : Workbook} {hT : List XCell} {rT : List (List XCell)} {hC : List XCell} {rC : List (List XCell)}
    {hF : List XCell} {rF : List (List XCell)} {hR : List XCell} {rR : List (List XCell)} (S : Sheets wb hT rT hC rC hF rF hR rR)
    (hs : Shaped wb) : (∀ e, rT.foldlM (readTableRow hT) [] = .error e ↔ FirstFails wb c!"Tables" hT rT e) ∧
      (∀ e s, Knows wb s → (rC.foldlM (readColumnRow hC) s = .error e ↔ FirstFails wb c!"Columns" hC rC e)) ∧
      (∀ e s, Knows wb s → (rF.foldlM (readFKRow hF) s = .error e ↔ FirstFails wb c!"Foreign Keys" hF rF e)) ∧
      (∀ e s, Knows wb s → (rR.foldlM (readRelRow hR) s = .error e ↔ FirstFails wb c!"Relationships" hR rR e)) := by
  have fT := fun (e : PyErr) => foldlM_error_iff (f := readTableRow hT) (I := fun _ => True) (F := fun r e => RowFails wb hT r c!"Tables" e) (e := e)
    rT [] (fun s r _ _ e => tableRow_fails (fun c hc => header_mem hs (name := c!"Tables") (cols := [c!"Database", c!"Schema", c!"Table",
      c!"Updated", c!"Update Type", c!"# Rows", c!"# Columns", c!"Primary Key", c!"Shard Key", c!"# Shards", c!"RLS Column"]) (by simp [needed])
      S.tables (by revert c; decide) r) s e) (fun _ _ _ _ _ _ => trivial) trivial
  have fC := fun (e : PyErr) (s : Dict Database) (K : Knows wb s) => foldlM_error_iff (f := readColumnRow hC) (I := Knows wb)
    (F := fun r e => RowFails wb hC r c!"Columns" e) (e := e)
    rC s (fun s r _ K e => columnRow_fails (fun c hc => header_mem hs (name := c!"Columns") (cols := [c!"Database", c!"Schema", c!"Table",
      c!"Column", c!"Name", c!"Type"]) (by simp [needed]) S.columns (by revert c; decide) r) K e)
      (fun _ _ _ _ K h => K.step S.cStep (fun _ _ _ x => x.grows) h) K
  have fF := fun (e : PyErr) (s : Dict Database) (K : Knows wb s) => foldlM_error_iff (f := readFKRow hF) (I := Knows wb)
    (F := fun r e => RowFails wb hF r c!"Foreign Keys" e) (e := e)
    rF s (fun s r _ K e => fkRow_fails (fun c hc => header_mem hs (name := c!"Foreign Keys") (cols := [c!"Name", c!"Database", c!"Schema",
      c!"From Table", c!"From Columns", c!"To Table", c!"To Columns"]) (by simp [needed]) S.fks (by revert c; decide) r) K e)
      (fun _ _ _ _ K h => K.step S.fStep (fun _ _ _ x => x.grows) h) K
  have fR := fun (e : PyErr) (s : Dict Database) (K : Knows wb s) => foldlM_error_iff (f := readRelRow hR) (I := Knows wb)
    (F := fun r e => RowFails wb hR r c!"Relationships" e) (e := e)
    rR s (fun s r _ K e => relRow_fails (fun c hc => header_mem hs (name := c!"Relationships") (cols := [c!"Name", c!"Database", c!"Schema",
      c!"From Table", c!"To Table", c!"Conditions"]) (by simp [needed]) S.rels (by revert c; decide) r) K e)
      (fun _ _ _ _ K h => K.step S.rStep (fun _ _ _ x => x.grows) h) K
  exact ⟨fT, fC, fF, fR⟩

theorem Sheets.outcome {wb : Workbook} {hT : List XCell} {rT : List (List XCell)} {hC : List XCell} {rC : List (List XCell)}
    {hF : List XCell} {rF : List (List XCell)} {hR : List XCell} {rR : List (List XCell)} (S : Sheets wb hT rT hC rC hF rF hR rR)
    (hs : Shaped wb) : (∃ e, readXls wb = .error e ∧ Fails wb e) ∨ (∃ dbs, readXls wb = .ok dbs ∧ Passes wb) := by
  obtain ⟨fT, fC, fF, fR⟩ := S.folds hs
  -- a sheet whose rows are all read
  have pass : ∀ {F : List XCell → PyErr → Prop} {rows : List (List XCell)}, (∀ e, ¬ ∃ pre r post, rows = pre ++ r :: post ∧
      (∀ x ∈ pre, ∀ e', ¬ F x e') ∧ F r e) → ∀ r ∈ rows, ∀ e, ¬ F r e := by
    intro F rows
    induction rows with
    | nil => intro _ r hr; exact absurd hr (by simp)
    | cons a rows ih =>
      intro h r hr e
      have ha : ∀ e, ¬ F a e := fun e he => h e ⟨[], a, rows, rfl, by simp, he⟩
      rcases List.mem_cons.1 hr with rfl | hr
      · exact ha e
      · refine ih (fun e he => ?_) r hr e
        obtain ⟨pre, x, post, rfl, h1, h2⟩ := he
        exact h e ⟨a :: pre, x, post, rfl, fun y hy => (List.mem_cons.1 hy).elim (fun q => q ▸ ha) (h1 y), h2⟩
  have is : ∀ {name : Str} {h h' : List XCell} {rows rows' : List (List XCell)}, SheetIs wb name h rows → SheetIs wb name h' rows' →
      h' = h ∧ rows' = rows := by
    intro name h h' rows rows' h1 h2
    rw [SheetIs] at h1 h2
    rw [h1] at h2
    cases h2
    exact ⟨rfl, rfl⟩
  rw [S.run]
  cases h1 : rT.foldlM (readTableRow hT) [] with
  | error e =>
    obtain ⟨pre, r, post, rfl, hp, hf⟩ := (fT e).1 h1
    exact .inl ⟨e, rfl, [], _, _, rfl, by simp, hT, pre, r, post, S.tables, hp, hf⟩
  | ok a =>
    have K := knows_tables S.tables h1
    have pT : ∀ h rows, SheetIs wb c!"Tables" h rows → RowsPass wb c!"Tables" h rows := by
      intro h rows hsh
      obtain ⟨rfl, rfl⟩ := is S.tables hsh
      refine pass (F := fun r e => RowFails wb h r c!"Tables" e) (fun e he => ?_)
      have := (fT e).2 he
      rw [h1] at this
      cases this
    cases h2 : rC.foldlM (readColumnRow hC) a with
    | error e =>
      obtain ⟨pre, r, post, rfl, hp, hf⟩ := (fC e a K).1 h2
      refine .inl ⟨e, by simp only [bind, Except.bind, h2], [c!"Tables"], _, _, rfl, ?_, hC, pre, r, post, S.columns, hp, hf⟩
      intro s hm h rows hsh
      simp only [List.mem_singleton] at hm
      subst hm
      exact pT h rows hsh
    | ok b =>
      have K2 := rows_knows S.cStep (fun _ _ _ x => x.grows) K h2
      have pC : ∀ h rows, SheetIs wb c!"Columns" h rows → RowsPass wb c!"Columns" h rows := by
        intro h rows hsh
        obtain ⟨rfl, rfl⟩ := is S.columns hsh
        refine pass (F := fun r e => RowFails wb h r c!"Columns" e) (fun e he => ?_)
        have := (fC e a K).2 he
        rw [h2] at this
        cases this
      cases h3 : rF.foldlM (readFKRow hF) b with
      | error e =>
        obtain ⟨pre, r, post, rfl, hp, hf⟩ := (fF e b K2).1 h3
        refine .inl ⟨e, by simp only [bind, Except.bind, h2, h3], [c!"Tables", c!"Columns"], _, _, rfl, ?_, hF, pre, r, post, S.fks, hp, hf⟩
        intro s hm h rows hsh
        simp only [List.mem_cons, List.not_mem_nil, or_false] at hm
        rcases hm with rfl | rfl
        · exact pT h rows hsh
        · exact pC h rows hsh
      | ok c =>
        have K3 := rows_knows S.fStep (fun _ _ _ x => x.grows) K2 h3
        have pF : ∀ h rows, SheetIs wb c!"Foreign Keys" h rows → RowsPass wb c!"Foreign Keys" h rows := by
          intro h rows hsh
          obtain ⟨rfl, rfl⟩ := is S.fks hsh
          refine pass (F := fun r e => RowFails wb h r c!"Foreign Keys" e) (fun e he => ?_)
          have := (fF e b K2).2 he
          rw [h3] at this
          cases this
        cases h4 : rR.foldlM (readRelRow hR) c with
        | error e =>
          obtain ⟨pre, r, post, rfl, hp, hf⟩ := (fR e c K3).1 h4
          refine .inl ⟨e, by simp only [bind, Except.bind, h2, h3, h4], [c!"Tables", c!"Columns", c!"Foreign Keys"], _, _, rfl, ?_, hR, pre, r,
            post, S.rels, hp, hf⟩
          intro s hm h rows hsh
          simp only [List.mem_cons, List.not_mem_nil, or_false] at hm
          rcases hm with rfl | rfl | rfl
          · exact pT h rows hsh
          · exact pC h rows hsh
          · exact pF h rows hsh
        | ok dbs =>
          refine .inr ⟨dbs, by simp only [bind, Except.bind, h2, h3, h4], ?_⟩
          intro s hm h rows hsh
          simp only [readingOrder, List.mem_cons, List.not_mem_nil, or_false] at hm
          rcases hm with rfl | rfl | rfl | rfl
          · exact pT h rows hsh
          · exact pC h rows hsh
          · exact pF h rows hsh
          · obtain ⟨rfl, rfl⟩ := is S.rels hsh
            refine pass (F := fun r e => RowFails wb h r c!"Relationships" e) (fun e he => ?_)
            have := (fR e c K3).2 he
            rw [h4] at this
            cases this

theorem fails_not_passes {wb : Workbook} {e : PyErr} (hf : Fails wb e) : ¬ Passes wb := by
  rintro hp
  obtain ⟨before, sheet, after, ho, _, h, pre, row, post, hs, _, hr⟩ := hf
  exact hp sheet (by rw [ho]; simp) h _ hs row (by simp) e hr

theorem reading_cases {before after : List Str} {sheet : Str} (h : readingOrder = before ++ sheet :: after) :
    (before = [] ∧ sheet = c!"Tables") ∨ (before = [c!"Tables"] ∧ sheet = c!"Columns") ∨
    (before = [c!"Tables", c!"Columns"] ∧ sheet = c!"Foreign Keys") ∨
    (before = [c!"Tables", c!"Columns", c!"Foreign Keys"] ∧ sheet = c!"Relationships") := by
  unfold readingOrder at h
  rcases before with _ | ⟨a, _ | ⟨b, _ | ⟨c, _ | ⟨d, l⟩⟩⟩⟩
  · simp only [List.nil_append, List.cons.injEq] at h; exact .inl ⟨rfl, h.1.symm⟩
  · simp only [List.cons_append, List.nil_append, List.cons.injEq] at h
    obtain ⟨rfl, rfl, _⟩ := h; exact .inr (.inl ⟨rfl, rfl⟩)
  · simp only [List.cons_append, List.nil_append, List.cons.injEq] at h
    obtain ⟨rfl, rfl, rfl, _⟩ := h; exact .inr (.inr (.inl ⟨rfl, rfl⟩))
  · simp only [List.cons_append, List.nil_append, List.cons.injEq] at h
    obtain ⟨rfl, rfl, rfl, rfl, _⟩ := h; exact .inr (.inr (.inr ⟨rfl, rfl⟩))
  · simp only [List.cons_append, List.cons.injEq] at h
    obtain ⟨_, _, _, _, h⟩ := h
    simp at h

/-- The first row that ends in an exception is that of the run. -/
theorem Sheets.raises {wb : Workbook} {hT : List XCell} {rT : List (List XCell)} {hC : List XCell} {rC : List (List XCell)}
    {hF : List XCell} {rF : List (List XCell)} {hR : List XCell} {rR : List (List XCell)} (S : Sheets wb hT rT hC rC hF rF hR rR)
    (hs : Shaped wb) {e : PyErr} (hf : Fails wb e) : readXls wb = .error e := by
  obtain ⟨fT, fC, fF, fR⟩ := S.folds hs
  obtain ⟨before, sheet, after, ho, hb, h, pre, row, post, hsh, hp, hr⟩ := hf
  have no : ∀ {sheet : Str} {h : List XCell} {rows : List (List XCell)}, (∀ h rows, SheetIs wb sheet h rows → RowsPass wb sheet h rows) →
      SheetIs wb sheet h rows → ∀ e, ¬ FirstFails wb sheet h rows e := by
    rintro sheet h rows hp hs e ⟨pre, r, post, rfl, _, hr⟩
    exact hp h _ hs r (by simp) e hr
  have is : ∀ {name : Str} {h h' : List XCell} {rows rows' : List (List XCell)}, SheetIs wb name h rows → SheetIs wb name h' rows' →
      h' = h ∧ rows' = rows := by
    intro name h h' rows rows' h1 h2
    rw [SheetIs] at h1 h2
    rw [h1] at h2
    cases h2
    exact ⟨rfl, rfl⟩
  rw [S.run]
  rcases reading_cases ho with ⟨rfl, rfl⟩ | ⟨rfl, rfl⟩ | ⟨rfl, rfl⟩ | ⟨rfl, rfl⟩
  · obtain ⟨rfl, rfl⟩ := is S.tables hsh
    rw [(fT e).2 ⟨pre, row, post, rfl, hp, hr⟩]
    rfl
  · obtain ⟨rfl, rfl⟩ := is S.columns hsh
    cases h1 : rT.foldlM (readTableRow hT) [] with
    | error e' => exact absurd ((fT e').1 h1) (no (hb _ (by simp)) S.tables e')
    | ok a =>
      have K := knows_tables S.tables h1
      simp only [bind, Except.bind, (fC e a K).2 ⟨pre, row, post, rfl, hp, hr⟩]
  · obtain ⟨rfl, rfl⟩ := is S.fks hsh
    cases h1 : rT.foldlM (readTableRow hT) [] with
    | error e' => exact absurd ((fT e').1 h1) (no (hb _ (by simp)) S.tables e')
    | ok a =>
      have K := knows_tables S.tables h1
      cases h2 : rC.foldlM (readColumnRow hC) a with
      | error e' => exact absurd ((fC e' a K).1 h2) (no (hb _ (by simp)) S.columns e')
      | ok b =>
        have K2 := rows_knows S.cStep (fun _ _ _ x => x.grows) K h2
        simp only [bind, Except.bind, h2, (fF e b K2).2 ⟨pre, row, post, rfl, hp, hr⟩]
  · obtain ⟨rfl, rfl⟩ := is S.rels hsh
    cases h1 : rT.foldlM (readTableRow hT) [] with
    | error e' => exact absurd ((fT e').1 h1) (no (hb _ (by simp)) S.tables e')
    | ok a =>
      have K := knows_tables S.tables h1
      cases h2 : rC.foldlM (readColumnRow hC) a with
      | error e' => exact absurd ((fC e' a K).1 h2) (no (hb _ (by simp)) S.columns e')
      | ok b =>
        have K2 := rows_knows S.cStep (fun _ _ _ x => x.grows) K h2
        cases h3 : rF.foldlM (readFKRow hF) b with
        | error e' => exact absurd ((fF e' b K2).1 h3) (no (hb _ (by simp)) S.fks e')
        | ok c =>
          have K3 := rows_knows S.fStep (fun _ _ _ x => x.grows) K2 h3
          simp only [bind, Except.bind, h2, h3, (fR e c K3).2 ⟨pre, row, post, rfl, hp, hr⟩]

/-! ## What the sheets describe -/

theorem itemsOf_filter {α : Type} {about : List XCell → Prop} [DecidablePred about] {tells : List XCell → α → Prop} :
    ∀ {rows : List (List XCell)} {as : List α}, List.Forall₂ tells (rows.filter (fun r => decide (about r))) as → ItemsOf about tells rows as
  | [], as, h => by
    simp only [List.filter_nil, List.forall₂_nil_left_iff] at h
    subst h
    exact .nil
  | row :: rows, as, h => by
    rw [List.filter_cons] at h
    by_cases ha : about row
    · simp only [ha, decide_true, if_true] at h
      cases h with
      | cons h1 h2 => exact .take ha h1 (itemsOf_filter h2)
    · simp only [ha, decide_false, Bool.false_eq_true, if_false] at h
      exact .skip ha (itemsOf_filter h)

theorem Spec.ItemsOf.unique {α : Type} {about : List XCell → Prop} {tells : List XCell → α → Prop} {rows : List (List XCell)} {as bs : List α}
    (h1 : ItemsOf about tells rows as) (h2 : ItemsOf about tells rows bs) (ht : ∀ r a b, tells r a → tells r b → a = b) : as = bs := by
  induction h1 generalizing bs with
  | nil => cases h2; rfl
  | skip hn _ ih =>
    cases h2 with
    | skip _ h2 => exact ih h2
    | take ha => exact absurd ha hn
  | take ha hs _ ih =>
    cases h2 with
    | skip hn => exact absurd ha hn
    | take _ hs' h2 => rw [ht _ _ _ hs hs', ih h2]

theorem Spec.RowsName.unique {h : List XCell} {rows : List (List XCell)} {l m : List (Str × Str)} (h1 : RowsName h rows l) (h2 : RowsName h rows m) :
    l = m := by
  induction h1 generalizing m with
  | nil => cases h2; rfl
  | blank hb _ ih =>
    cases h2 with
    | blank _ h2 => exact ih h2
    | row hd hu => exact absurd (XCell.text.inj (under_unique hu hb)) hd
  | row hd hu hn _ ih =>
    cases h2 with
    | blank hb => exact absurd (XCell.text.inj (under_unique hu hb)) hd
    | row _ hu' hn' h2 =>
      rw [ih h2, XCell.text.inj (under_unique hu hu'), XCell.text.inj (under_unique hn hn')]

theorem columnFrom_unique {h row : List XCell} {a b : Column} (h1 : ColumnFrom h row a) (h2 : ColumnFrom h row b) : a = b := by
  obtain ⟨n, t⟩ := a
  obtain ⟨n', t'⟩ := b
  have e1 := XCell.text.inj (under_unique h1.1 h2.1)
  have e2 := XCell.text.inj (under_unique h1.2.1 h2.2.1)
  simp only at e1 e2
  rw [e1, e2]

theorem fkFrom_unique {n : Str} {h row : List XCell} {a b : FK} (h1 : FKFrom n h row a) (h2 : FKFrom n h row b) : a = b := by
  obtain ⟨an, af, afk, at', atk⟩ := a
  obtain ⟨bn, bf, bfk, bt, btk⟩ := b
  obtain ⟨x1, x2, x3, ⟨s, x4, x4'⟩, ⟨t, x5, x5'⟩, _⟩ := h1
  obtain ⟨y1, y2, y3, ⟨s', y4, y4'⟩, ⟨t', y5, y5'⟩, _⟩ := h2
  cases under_unique x4 y4
  cases under_unique x5 y5
  have e1 := XCell.text.inj (under_unique x1 y1)
  have e3 := XCell.text.inj (under_unique x3 y3)
  have e4 := (PiecesIn.eq x4').trans (PiecesIn.eq y4').symm
  have e5 := (PiecesIn.eq x5').trans (PiecesIn.eq y5').symm
  simp only at e1 x2 y2 e3 e4 e5
  rw [e1, x2, y2, e3, e4, e5]

theorem relFrom_unique {n : Str} {h row : List XCell} {a b : Rel} (h1 : RelFrom n h row a) (h2 : RelFrom n h row b) : a = b := by
  obtain ⟨an, af, at', ac⟩ := a
  obtain ⟨bn, bf, bt, bc⟩ := b
  obtain ⟨x1, x2, x3, x4⟩ := h1
  obtain ⟨y1, y2, y3, y4⟩ := h2
  have e3 := XCell.text.inj (under_unique x3 y3)
  have e4 := XCell.text.inj (under_unique x4 y4)
  simp only at x1 y1 x2 y2 e3 e4
  subst e3
  rw [x1, y1, x2, y2, e4]

theorem tableFrom_unique {h row : List XCell} {a b : Table} (h1 : TableFrom h row a) (h2 : TableFrom h row b) : a = b := by
  obtain ⟨n, s, pk, sh, c, f, r⟩ := a
  obtain ⟨n', s', pk', sh', c', f', r'⟩ := b
  obtain ⟨x1, x2, ⟨p, x3, x3'⟩, ⟨k, v, l, cn, x4, x5, x6, x7, x8⟩, x9⟩ := h1
  obtain ⟨y1, y2, ⟨p', y3, y3'⟩, ⟨k', v', l', cn', y4, y5, y6, y7, y8⟩, y9⟩ := h2
  cases under_unique x3 y3
  cases under_unique x4 y4
  cases under_unique x5 y5
  have e1 := XCell.text.inj (under_unique x1 y1)
  have e2 := XCell.text.inj (under_unique x2 y2)
  have e3 := (NamesIn.eq x3').trans (NamesIn.eq y3').symm
  have e6 := (NamesIn.eq x6).trans (NamesIn.eq y6).symm
  have e7 := ((count_iff _ _).1 x7).symm.trans ((count_iff _ _).1 y7)
  subst e6
  subst e7
  simp only at e1 e2 e3 x8 y8 x9 y9
  have e8 : sh = sh' := by
    rcases x8 with ⟨g1, rfl⟩ | ⟨m, g1, g2, rfl⟩
    · rcases y8 with ⟨_, rfl⟩ | ⟨m, k1, k2, rfl⟩
      · rfl
      · rcases g1 with g | g
        · exact absurd g k1
        · rw [g] at k2; cases k2
    · rcases y8 with ⟨k1, rfl⟩ | ⟨m', k1, k2, rfl⟩
      · rcases k1 with k | k
        · exact absurd k g1
        · rw [k] at g2; cases g2
      · rw [g2] at k2; cases k2; rfl
  obtain ⟨rfl, rfl, rfl⟩ := x9
  obtain ⟨rfl, rfl, rfl⟩ := y9
  rw [e1, e2, e3, e8]

theorem nodup_firstUses : ∀ (l : List Str), (firstUses l).Nodup
  | [] => by simp [firstUses]
  | a :: l => by
    rw [firstUses, List.nodup_cons]
    exact ⟨by simp, (nodup_firstUses l).filter _⟩

theorem get?_of_keys {α : Type} {a b : Dict α} (hk : a.keys = b.keys) (h : ∀ k ∈ a.keys, a.get? k = b.get? k) (k : Str) : a.get? k = b.get? k := by
  by_cases hm : k ∈ a.keys
  · exact h k hm
  · rw [(Dict.get?_eq_none_iff a k).2 hm, (Dict.get?_eq_none_iff b k).2 (hk ▸ hm)]

theorem filled_unique {α : Type} {name : α → Str} {l : List α} {a b : Dict α} (h1 : Filled name l a) (h2 : Filled name l b) : a = b := by
  refine Dict.ext_of_keys (by rw [h1.1]; exact nodup_firstUses _) (h1.1.trans h2.1.symm) (fun k => ?_)
  apply Option.ext
  intro v
  rw [h1.2, h2.2]

theorem last_unique {P : List XCell → Prop} {pre post pre' post' : List (List XCell)} {r r' : List XCell}
    (h : pre ++ r :: post = pre' ++ r' :: post') (h1 : P r) (h1' : P r') (h2 : ∀ x ∈ post, ¬ P x) (h2' : ∀ x ∈ post', ¬ P x) : r = r' := by
  induction pre generalizing pre' with
  | nil =>
    cases pre' with
    | nil => simp only [List.nil_append, List.cons.injEq] at h; exact h.1
    | cons y pre' =>
      simp only [List.nil_append, List.cons_append, List.cons.injEq] at h
      exact absurd h1' (h2 r' (by rw [h.2]; simp))
  | cons x pre ih =>
    cases pre' with
    | nil =>
      simp only [List.nil_append, List.cons_append, List.cons.injEq] at h
      exact absurd h1 (h2' r (by rw [← h.2]; simp))
    | cons y pre' =>
      simp only [List.cons_append, List.cons.injEq] at h
      exact ih h.2

theorem sheetIs_unique {wb : Workbook} {name : Str} {h h' : List XCell} {rows rows' : List (List XCell)} (h1 : SheetIs wb name h rows)
    (h2 : SheetIs wb name h' rows') : h = h' ∧ rows = rows' := by
  rw [SheetIs] at h1 h2
  rw [h1] at h2
  cases h2
  exact ⟨rfl, rfl⟩

theorem describesTable_unique {wb : Workbook} {d n : Str} {t u : Table} (h1 : DescribesTable wb d n t) (h2 : DescribesTable wb d n u) : t = u := by
  obtain ⟨⟨h, pre, row, post, a1, a2, a3, a4⟩, ⟨hc, rc, lc, b1, b2, b3⟩, ⟨hf, rf, lf, c1, c2, c3⟩, ⟨hr, rr, lr, d1, d2, d3⟩⟩ := h1
  obtain ⟨⟨h', pre', row', post', a1', a2', a3', a4'⟩, ⟨hc', rc', lc', b1', b2', b3'⟩, ⟨hf', rf', lf', c1', c2', c3'⟩,
    ⟨hr', rr', lr', d1', d2', d3'⟩⟩ := h2
  obtain ⟨rfl, e⟩ := sheetIs_unique a1 a1'
  obtain ⟨rfl, rfl⟩ := sheetIs_unique b1 b1'
  obtain ⟨rfl, rfl⟩ := sheetIs_unique c1 c1'
  obtain ⟨rfl, rfl⟩ := sheetIs_unique d1 d1'
  cases last_unique (P := fun r => Names h r c!"Tables" d n) e a2 a2' a3 a3'
  have e0 := tableFrom_unique a4 a4'
  cases b2.unique b2' (fun _ _ _ => columnFrom_unique)
  cases c2.unique c2' (fun _ _ _ => fkFrom_unique)
  cases d2.unique d2' (fun _ _ _ => relFrom_unique)
  have e1 := filled_unique b3 b3'
  have e2 := filled_unique c3 c3'
  have e3 := filled_unique d3 d3'
  obtain ⟨n1, s1, p1, k1, x1, y1, z1⟩ := t
  obtain ⟨n2, s2, p2, k2, x2, y2, z2⟩ := u
  simp only [Table.mk.injEq, and_true] at e0 e1 e2 e3
  obtain ⟨rfl, rfl, rfl, rfl⟩ := e0
  rw [e1, e2, e3]

theorem describesDb_unique {wb : Workbook} {l : List (Str × Str)} {d : Str} {a b : Database} (h1 : DescribesDb wb l d a)
    (h2 : DescribesDb wb l d b) : a = b := by
  have et : a.tables = b.tables := by
    refine Dict.ext_of_keys (by rw [h1.tables]; exact nodup_firstUses _) (h1.tables.trans h2.tables.symm) (get?_of_keys (h1.tables.trans h2.tables.symm) (fun k hk => ?_))
    obtain ⟨t, ht⟩ := Option.isSome_iff_exists.1 ((Dict.get?_isSome_iff _ _).2 hk)
    have hk' : k ∈ b.tables.keys := by rw [h2.tables, ← h1.tables]; exact hk
    obtain ⟨u, hu⟩ := Option.isSome_iff_exists.1 ((Dict.get?_isSome_iff _ _).2 hk')
    rw [ht, hu, describesTable_unique (h1.each k t ht) (h2.each k u hu)]
  have es : a.schemas = b.schemas := by
    obtain ⟨h, rows, ss, x1, x2, x3, x4⟩ := h1.schemas
    obtain ⟨h', rows', ss', y1, y2, y3, y4⟩ := h2.schemas
    obtain ⟨rfl, rfl⟩ := sheetIs_unique x1 y1
    cases x2.unique y2 (fun _ _ _ p q => XCell.text.inj (under_unique p q))
    refine Dict.ext_of_keys (by rw [x3]; exact nodup_firstUses _) (x3.trans y3.symm) (fun k => ?_)
    apply Option.ext
    intro v
    rw [x4, y4]
  obtain ⟨n, t, s⟩ := a
  obtain ⟨n', t', s'⟩ := b
  have e1 := h1.name
  have e2 := h2.name
  simp only at e1 e2 et es
  rw [e1, e2, et, es]

theorem describes_unique {wb : Workbook} {a b : Dict Database} (h1 : DescribesAll wb a) (h2 : DescribesAll wb b) : a = b := by
  obtain ⟨h, rows, l, x1, x2, x3, x4⟩ := h1
  obtain ⟨h', rows', l', y1, y2, y3, y4⟩ := h2
  obtain ⟨rfl, rfl⟩ := sheetIs_unique x1 y1
  cases x2.unique y2
  refine Dict.ext_of_keys (by rw [x3]; exact nodup_firstUses _) (x3.trans y3.symm) (get?_of_keys (x3.trans y3.symm) (fun k hk => ?_))
  obtain ⟨t, ht⟩ := Option.isSome_iff_exists.1 ((Dict.get?_isSome_iff _ _).2 hk)
  have hk' : k ∈ b.keys := by rw [y3, ← x3]; exact hk
  obtain ⟨u, hu⟩ := Option.isSome_iff_exists.1 ((Dict.get?_isSome_iff _ _).2 hk')
  rw [ht, hu, describesDb_unique (x4 k t ht) (y4 k u hu)]

/-! ## Schemas -/

/-- One more table of a schema. -/
def bump (m : Dict Int) (s : Str) : Dict Int := m.set s ((m.get? s).getD 0 + 1)

theorem bump_fold (ss : List Str) : (ss.foldl bump []).keys = firstUses ss ∧
    ∀ s k, (ss.foldl bump []).get? s = some k ↔ s ∈ ss ∧ k = (ss.count s : Int) := by
  have keys : ∀ (ss : List Str) (m : Dict Int), (ss.foldl bump m).keys = ss.foldl appendNew m.keys := by
    intro ss
    induction ss with
    | nil => intro m; rfl
    | cons a ss ih => intro m; rw [List.foldl_cons, ih, List.foldl_cons, bump, Dict.keys_set, appendNew]
  refine ⟨by rw [keys, Dict.keys_nil, appendNew_fold_nil], ?_⟩
  induction ss using snocInd with
  | nil => simp
  | append_singleton l a ih =>
    intro s k
    rw [List.foldl_append, List.foldl_cons, List.foldl_nil, bump, Dict.get?_set]
    by_cases hs : s = a
    · subst hs
      simp only [if_true, Option.some.injEq, List.mem_append, List.mem_singleton, or_true, true_and, List.count_append, List.count_singleton_self]
      have hg : ((l.foldl bump []).get? s).getD 0 = (l.count s : Int) := by
        by_cases hm : s ∈ l
        · rw [(ih s _).2 ⟨hm, rfl⟩]; rfl
        · cases hx : (l.foldl bump []).get? s with
          | none => simp [List.count_eq_zero_of_not_mem hm]
          | some v => exact absurd ((ih s v).1 hx).1 hm
      rw [hg]
      push_cast
      exact eq_comm
    · rw [if_neg hs, ih]
      simp [hs, List.count_append, Ne.symm hs]

/-- The schemas of a database. -/
def schemasIn (s : Dict Database) (d : Str) : Dict Int := ((s.get? d).map (·.schemas)).getD []

theorem tables_schemas {h : List XCell} {d : Str} (hd : d ≠ []) : ∀ (rows : List (List XCell)) (s s' : Dict Database),
    rows.foldlM (readTableRow h) s = .ok s' → ∃ ss, ItemsOf (fun r => Under h r c!"Database" (.text d)) (fun r x => Under h r c!"Schema" (.text x))
      rows ss ∧ schemasIn s' d = ss.foldl bump (schemasIn s d)
  | [], s, s', hr => by cases hr; exact ⟨[], .nil, rfl⟩
  | row :: rows, s, s', hr => by
    rw [List.foldlM_cons, bind_ok_iff] at hr
    obtain ⟨s1, h1, h2⟩ := hr
    obtain ⟨ss, i1, i2⟩ := tables_schemas hd rows s1 s' h2
    rcases readTableRow_cases h1 with ⟨hb, rfl⟩ | ⟨x, t, hx, hu, hrow, rfl⟩
    · exact ⟨ss, .skip (fun hh => hd (XCell.text.inj (under_unique hh hb))) i1, i2⟩
    · by_cases hdx : d = x
      · subst hdx
        refine ⟨t.schema :: ss, .take hu (rowTable_ok hrow).schema i1, ?_⟩
        rw [i2, List.foldl_cons]
        congr 1
        simp only [schemasIn, Dict.get?_set_self, Option.map_some, Option.getD_some, Database.addTable, bump]
        cases s.get? d with
        | none => rfl
        | some db => rfl
      · refine ⟨ss, .skip (fun hh => hdx (XCell.text.inj (under_unique hh hu))) i1, ?_⟩
        rw [i2, schemasIn, schemasIn, Dict.get?_set_ne _ _ hdx]

theorem rows_schemas {h : List XCell} {col : Str} {strict : Bool} {P : List XCell → Table → Table → Prop}
    {step : Dict Database → List XCell → Except PyErr (Dict Database)} (hstep : IsRowStep h col strict P step) (d : Str)
    {rows : List (List XCell)} {s s' : Dict Database} (hr : rows.foldlM step s = .ok s') : schemasIn s' d = schemasIn s d := by
  refine foldlM_keeps (I := fun x => schemasIn x d = schemasIn s d) rows s s' ?_ hr rfl
  intro a b r _ ha hab
  rw [← ha]
  obtain ⟨_, n, _, _, ⟨_, rfl⟩ | ⟨x, db, _, _, _, rfl, _⟩ | ⟨x, db, m, t, t', rfl, hx, rfl, ht, hp, rfl⟩⟩ := rowStep_cases hstep hab
  · rfl
  · rfl
  · unfold schemasIn
    rw [Dict.get?_set]
    by_cases hd : d = x
    · subst hd; simp [hx, Database.updateTable]
    · rw [if_neg hd]

theorem Sheets.describes {wb : Workbook} {hT : List XCell} {rT : List (List XCell)} {hC : List XCell} {rC : List (List XCell)}
    {hF : List XCell} {rF : List (List XCell)} {hR : List XCell} {rR : List (List XCell)} (S : Sheets wb hT rT hC rC hF rF hR rR)
    {dbs : Dict Database} (hr : readXls wb = .ok dbs) : DescribesAll wb dbs := by
  obtain ⟨a, b, c, h1, h2, h3, h4⟩ := S.steps.1 hr
  obtain ⟨hok, hk, ht⟩ := S.frame h1 h2 h3 h4
  obtain ⟨l, hl, lk, lt⟩ := tables_listed rT [] a h1
  refine ⟨hT, rT, l, S.tables, hl, by rw [hk, lk]; exact appendNew_fold_nil _, fun d db hd => ⟨hok.name d db hd, ?_, fun n t hn => ?_, ?_⟩⟩
  · have e1 := (ht d).trans (lt d)
    simp only [tablesIn, hd, Option.map_some, Option.getD_some, Dict.get?_nil, Option.map_none, Option.getD_none] at e1
    rw [e1]
    exact appendNew_fold_nil _
  · obtain ⟨⟨pre, row, post, e, g1, g2, g3⟩, ⟨cs, c1, c2⟩, ⟨ks, k1, k2⟩, ⟨rs, r1, r2⟩⟩ := S.contents hr (d := d) (n := n) (t := t)
      (by simp [tableAt, hd, Database.getTable, hn])
    subst e
    exact ⟨⟨hT, pre, row, post, S.tables, g1, g2, g3⟩, ⟨hC, rC, cs, S.columns, itemsOf_filter c1, c2⟩,
      ⟨hF, rF, ks, S.fks, itemsOf_filter k1, k2⟩, ⟨hR, rR, rs, S.rels, itemsOf_filter r1, r2⟩⟩
  · have hne : d ≠ [] := by
      have hm : d ∈ a.keys := by rw [← hk]; exact (Dict.get?_isSome_iff _ _).1 (by simp [hd])
      obtain ⟨n, hn⟩ := ((tables_named S.tables h1).1 d).1 hm
      exact hn.1
    obtain ⟨ss, i1, i2⟩ := tables_schemas hne rT [] a h1
    have e : db.schemas = ss.foldl bump [] := by
      have e4 := rows_schemas S.rStep d h4
      rw [rows_schemas S.fStep d h3, rows_schemas S.cStep d h2, i2] at e4
      simpa [schemasIn, hd] using e4
    refine ⟨hT, rT, ss, S.tables, i1, ?_⟩
    rw [e]
    exact bump_fold ss

end Verif
