import Verif.Spec.WorkbookSays
import Verif.Lemmas.Workbook
import Verif.Props.ExcelReports
/-
Lemmas on what the workbook reader says before it ends, with or without an exception.
-/

namespace Verif
open Spec

theorem foldTold_append {S R : Type} {f : S → R → XTold S} : ∀ (pre rows : List R) (s s1 : S),
    (foldTold f pre s).2 = .ok s1 → (foldTold f (pre ++ rows) s).1 = (foldTold f pre s).1 ++ (foldTold f rows s1).1
  | [], rows, s, s1, h => by
    cases h
    rfl
  | r :: pre, rows, s, s1, h => by
    cases hf : f s r with
    | mk ms x =>
      cases x with
      | error e => simp only [foldTold, hf, XTold.andThen] at h; cases h
      | ok a =>
        rw [foldTold_cons pre hf] at h
        have ih := foldTold_append pre rows a s1 h
        rw [List.cons_append, foldTold_cons (pre ++ rows) hf, foldTold_cons pre hf]
        simp only
        rw [ih, List.append_assoc]

theorem foldTold_raise {S R : Type} {f : S → R → XTold S} {pre post : List R} {r : R} {s s1 : S} {ms : List XReport} {e : PyErr}
    (h : pre.foldlM (fun s r => (f s r).2) s = .ok s1) (hr : f s1 r = (ms, .error e)) :
    (foldTold f (pre ++ r :: post) s).1 = (foldTold f pre s).1 ++ ms := by
  rw [foldTold_append pre (r :: post) s s1 (by rw [foldTold_snd]; exact h), foldTold, hr]
  rfl

/-- Where the loop ends. -/
theorem foldlM_first {S R : Type} {f : S → R → Except PyErr S} {I : S → Prop} {F : R → PyErr → Prop} {e : PyErr} {pre : List R} {r : R} {s : S}
    (h1 : ∀ s r, I s → ∀ e, f s r = .error e ↔ F r e) (h2 : ∀ s s' r, I s → f s r = .ok s' → I s') (hi : I s)
    (hp : ∀ x ∈ pre, ∀ e', ¬ F x e') (hr : F r e) : ∃ s1, pre.foldlM f s = .ok s1 ∧ I s1 ∧ f s1 r = .error e := by
  cases hf : pre.foldlM f s with
  | error e' =>
    obtain ⟨p, x, q, rfl, _, hx⟩ := (foldlM_error_iff (F := F) pre s (fun s r _ => h1 s r) (fun s s' r _ => h2 s s' r) hi).1 hf
    exact absurd hx (hp x (by simp) e')
  | ok s1 =>
    have hi1 := foldlM_keeps (I := I) pre s s1 (fun s s' r _ => h2 s s' r) hf hi
    exact ⟨s1, rfl, hi1, (h1 s1 r hi1 e).2 hr⟩

/-- Which rows of the sheets end in an exception. -/
theorem Sheets.each {wb : Workbook} {hT : List XCell} {rT : List (List XCell)} {hC : List XCell} {rC : List (List XCell)}
    {hF : List XCell} {rF : List (List XCell)} {hR : List XCell} {rR : List (List XCell)} (S : Sheets wb hT rT hC rC hF rF hR rR)
    (hs : Shaped wb) : (∀ s r (_ : True) e, readTableRow hT s r = .error e ↔ RowFails wb hT r c!"Tables" e) ∧
      (∀ s r, Knows wb s → ∀ e, readColumnRow hC s r = .error e ↔ RowFails wb hC r c!"Columns" e) ∧
      (∀ s r, Knows wb s → ∀ e, readFKRow hF s r = .error e ↔ RowFails wb hF r c!"Foreign Keys" e) ∧
      (∀ s r, Knows wb s → ∀ e, readRelRow hR s r = .error e ↔ RowFails wb hR r c!"Relationships" e) := by
  refine ⟨fun s r _ e => ?_, fun s r K e => ?_, fun s r K e => ?_, fun s r K e => ?_⟩
  · exact tableRow_fails (fun c hc => header_mem hs (name := c!"Tables") (cols := [c!"Database", c!"Schema", c!"Table",
      c!"Updated", c!"Update Type", c!"# Rows", c!"# Columns", c!"Primary Key", c!"Shard Key", c!"# Shards", c!"RLS Column"]) (by simp [needed])
      S.tables (by revert c; decide) r) s e
  · exact columnRow_fails (fun c hc => header_mem hs (name := c!"Columns") (cols := [c!"Database", c!"Schema", c!"Table",
      c!"Column", c!"Name", c!"Type"]) (by simp [needed]) S.columns (by revert c; decide) r) K e
  · exact fkRow_fails (fun c hc => header_mem hs (name := c!"Foreign Keys") (cols := [c!"Name", c!"Database", c!"Schema",
      c!"From Table", c!"From Columns", c!"To Table", c!"To Columns"]) (by simp [needed]) S.fks (by revert c; decide) r) K e
  · exact relRow_fails (fun c hc => header_mem hs (name := c!"Relationships") (cols := [c!"Name", c!"Database", c!"Schema",
      c!"From Table", c!"To Table", c!"Conditions"]) (by simp [needed]) S.rels (by revert c; decide) r) K e

theorem complaints_append {wb : Workbook} {sheet : Str} {h : List XCell} {as bs : List (List XCell)} {ms ns : List XReport}
    (h1 : Complaints wb sheet h as ms) (h2 : Complaints wb sheet h bs ns) : Complaints wb sheet h (as ++ bs) (ms ++ ns) := by
  induction h1 with
  | nil => exact h2
  | fine a b _ ih => exact .fine a b ih
  | database a b _ ih => exact .database a b ih
  | table a b c d _ ih => exact .table a b c d ih

theorem rowReports_complaint {wb : Workbook} {s : Dict Database} (K : Knows wb s) {h row : List XCell} {sheet : Str} {d n : XCell}
    (u1 : Under h row c!"Database" d) (u2 : Under h row (tableHeader sheet) n) :
    Complaints wb sheet h [row] (rowReports sheet (tableHeader sheet) h s row) := by
  rcases rowReports_cases (sheet := sheet) K u1 u2 with ⟨x, m, rfl, rfl, hk, e⟩ | ⟨hno, e⟩ | ⟨x, m, rfl, hk, hno, e⟩
  · rw [e]; exact .fine ⟨u1, u2⟩ hk .nil
  · rw [e]; exact .database u1 hno .nil
  · rw [e]; exact .table u1 hk u2 hno .nil

/-- What is said about the rows of a sheet up to one that ends in an exception. -/
theorem rows_told_fails {wb : Workbook} {h : List XCell} {sheet : Str} {strict : Bool} {P : List XCell → Table → Table → Prop}
    {step : Dict Database → List XCell → Except PyErr (Dict Database)} (hstep : IsRowStep h (tableHeader sheet) strict P step)
    (hP : ∀ row t t', P row t t' → Grows t t') {pre post : List (List XCell)} {row : List XCell} {s : Dict Database} {e : PyErr} (K : Knows wb s)
    (hF : ∀ s r, Knows wb s → ∀ e, step s r = .error e ↔ RowFails wb h r sheet e) (hp : RowsPass wb sheet h pre) (hr : RowFails wb h row sheet e) :
    Complaints wb sheet h (pre ++ [row])
      (foldTold (fun s row => (rowReports sheet (tableHeader sheet) h s row, step s row)) (pre ++ row :: post) s).1 := by
  obtain ⟨s1, h1, K1, h2⟩ := foldlM_first (F := fun r e => RowFails wb h r sheet e) hF (fun _ _ _ K h => K.step hstep hP h) K hp hr
  rw [foldTold_raise (s1 := s1) (ms := rowReports sheet (tableHeader sheet) h s1 row) (e := e) h1 (by rw [h2])]
  obtain ⟨d, n, _, u1, u2, _⟩ := hstep row
  exact complaints_append (rows_told hstep hP pre s s1 K h1).2 (rowReports_complaint K1 u1 u2)

theorem shardReports_fails {wb : Workbook} {h row : List XCell} {e : PyErr} (hf : RowFails wb h row c!"Tables" e) (hne : e ≠ .unmodelled) :
    shardReports h row = [] := by
  generalize hS : c!"Tables" = S at hf
  cases hf with
  | database _ => exact absurd rfl hne
  | tableName _ _ _ _ _ _ => exact absurd rfl hne
  | primaryKey hd hu hp =>
    unfold shardReports
    simp only [cell_of hu, cell_of hp, bind, Except.bind, XCell.str]
    rw [if_neg (by simpa using hd)]
  | shardKey hd hu hp hk =>
    unfold shardReports
    simp only [cell_of hu, cell_of hp, cell_of hk, bind, Except.bind, XCell.str]
    rw [if_neg (by simpa using hd)]
  | _ => exact absurd hS (by decide)

theorem tables_told_fails {wb : Workbook} {h : List XCell} {pre post : List (List XCell)} {row : List XCell} {s : Dict Database} {e : PyErr}
    (hF : ∀ s r (_ : True) e, readTableRow h s r = .error e ↔ RowFails wb h r c!"Tables" e) (hp : RowsPass wb c!"Tables" h pre)
    (hr : RowFails wb h row c!"Tables" e) (hne : e ≠ .unmodelled) :
    ShardComplaints h pre (foldTold (fun s row => (shardReports h row, readTableRow h s row)) (pre ++ row :: post) s).1 := by
  obtain ⟨s1, h1, _, h2⟩ := foldlM_first (I := fun _ => True) (F := fun r e => RowFails wb h r c!"Tables" e) (s := s) hF (fun _ _ _ _ _ => trivial)
    trivial hp hr
  rw [foldTold_raise (s1 := s1) (ms := []) (e := e) h1 (by rw [h2, shardReports_fails hr hne]), List.append_nil]
  exact tables_told pre s s1 h1

theorem andThen_raise {α β : Type} {x : XTold α} {e : PyErr} (h : x.2 = .error e) (f : α → XTold β) : (x.andThen f).1 = x.1 := by
  obtain ⟨ms, r⟩ := x
  simp only at h
  subst h
  rfl

/-- The messages of a run that ends in an exception. -/
theorem Sheets.saysFails {wb : Workbook} {hT : List XCell} {rT : List (List XCell)} {hC : List XCell} {rC : List (List XCell)}
    {hF : List XCell} {rF : List (List XCell)} {hR : List XCell} {rR : List (List XCell)} (S : Sheets wb hT rT hC rC hF rF hR rR)
    (hs : Shaped wb) {before after : List Str} {sheet : Str} {h : List XCell} {pre post : List (List XCell)} {row : List XCell} {e : PyErr}
    (ho : readingOrder = before ++ sheet :: after) (hb : ∀ s ∈ before, ∀ h rows, SheetIs wb s h rows → RowsPass wb s h rows)
    (hsh : SheetIs wb sheet h (pre ++ row :: post)) (hp : RowsPass wb sheet h pre) (hr : RowFails wb h row sheet e) (hne : e ≠ .unmodelled) :
    ∃ (f : Str → List XReport) (ms : List XReport), (∀ s ∈ before, ∀ h rows, SheetIs wb s h rows → SheetSays wb s h rows (f s)) ∧
      SheetSays wb sheet h (rowsSeen sheet pre row) ms ∧ (readXlsTold wb).1 = before.flatMap f ++ ms := by
  obtain ⟨fT, fC, fF, fR⟩ := S.folds hs
  obtain ⟨eT, eC, eF, eR⟩ := S.each hs
  have no : ∀ {sheet : Str} {h : List XCell} {rows : List (List XCell)}, (∀ h rows, SheetIs wb sheet h rows → RowsPass wb sheet h rows) →
      SheetIs wb sheet h rows → ∀ e, ¬ FirstFails wb sheet h rows e := by
    rintro sheet h rows hp hs e ⟨pre, r, post, rfl, _, hr⟩
    exact hp h _ hs r (by simp) e hr
  rw [readXlsTold_shaped hs, readDatabasesTold]
  rcases reading_cases ho with ⟨rfl, rfl⟩ | ⟨rfl, rfl⟩ | ⟨rfl, rfl⟩ | ⟨rfl, rfl⟩
  · obtain ⟨rfl, rfl⟩ := sheetIs_unique S.tables hsh
    refine ⟨fun _ => [], _, by simp, .inl ⟨rfl, tables_told_fails (post := post) (s := []) eT hp hr hne⟩, ?_⟩
    rw [andThen_raise (e := e) (by rw [readSheetTold_is S.tables, foldTold_snd]; exact (fT e).2 ⟨pre, row, post, rfl, hp, hr⟩), readSheetTold_is S.tables]
    rfl
  · obtain ⟨rfl, rfl⟩ := sheetIs_unique S.columns hsh
    cases h1 : rT.foldlM (readTableRow hT) [] with
    | error e' => exact absurd ((fT e').1 h1) (no (hb _ (by simp)) S.tables e')
    | ok a =>
      have K := knows_tables S.tables h1
      refine ⟨fun _ => (foldTold (fun s row => (shardReports hT row, readTableRow hT s row)) rT []).1, _, ?_, .inr ⟨by decide, rows_told_fails (sheet := c!"Columns") (post := post) S.cStep (fun _ _ _ x => x.grows) K eC hp hr⟩, ?_⟩
      · intro s hm h' rows' hsh'
        simp only [List.mem_singleton] at hm
        subst hm
        obtain ⟨rfl, rfl⟩ := sheetIs_unique S.tables hsh'
        exact .inl ⟨rfl, tables_told rT [] a h1⟩
      · rw [andThen_run (a := a) (by rw [readSheetTold_is S.tables, foldTold_snd]; exact h1),
          andThen_raise (e := e) (by rw [readSheetTold_is S.columns, foldTold_snd]; exact (fC e a K).2 ⟨pre, row, post, rfl, hp, hr⟩),
          readSheetTold_is S.tables, readSheetTold_is S.columns]
        simp only [List.flatMap_cons, List.flatMap_nil, List.append_nil]
        rfl
  · obtain ⟨rfl, rfl⟩ := sheetIs_unique S.fks hsh
    cases h1 : rT.foldlM (readTableRow hT) [] with
    | error e' => exact absurd ((fT e').1 h1) (no (hb _ (by simp)) S.tables e')
    | ok a =>
      have K := knows_tables S.tables h1
      cases h2 : rC.foldlM (readColumnRow hC) a with
      | error e' => exact absurd ((fC e' a K).1 h2) (no (hb _ (by simp)) S.columns e')
      | ok b =>
        obtain ⟨K2, c1⟩ := rows_told (wb := wb) (sheet := c!"Columns") S.cStep (fun _ _ _ x => x.grows) rC a b K h2
        refine ⟨fun s => if s = c!"Tables" then (foldTold (fun s row => (shardReports hT row, readTableRow hT s row)) rT []).1
          else (foldTold (fun s row => (rowReports c!"Columns" (tableHeader c!"Columns") hC s row, readColumnRow hC s row)) rC a).1, _, ?_, .inr ⟨by decide, rows_told_fails (sheet := c!"Foreign Keys") (post := post) S.fStep
          (fun _ _ _ x => x.grows) K2 eF hp hr⟩, ?_⟩
        · intro s hm h' rows' hsh'
          simp only [List.mem_cons, List.not_mem_nil, or_false] at hm
          rcases hm with rfl | rfl
          · obtain ⟨rfl, rfl⟩ := sheetIs_unique S.tables hsh'
            exact .inl ⟨rfl, tables_told rT [] a h1⟩
          · obtain ⟨rfl, rfl⟩ := sheetIs_unique S.columns hsh'
            exact .inr ⟨by decide, c1⟩
        · rw [andThen_run (a := a) (by rw [readSheetTold_is S.tables, foldTold_snd]; exact h1),
            andThen_run (a := b) (by rw [readSheetTold_is S.columns, foldTold_snd]; exact h2),
            andThen_raise (e := e) (by rw [readSheetTold_is S.fks, foldTold_snd]; exact (fF e b K2).2 ⟨pre, row, post, rfl, hp, hr⟩),
            readSheetTold_is S.tables, readSheetTold_is S.columns, readSheetTold_is S.fks]
          simp only [List.flatMap_cons, List.flatMap_nil, List.append_nil, List.append_assoc]
          rfl
  · obtain ⟨rfl, rfl⟩ := sheetIs_unique S.rels hsh
    cases h1 : rT.foldlM (readTableRow hT) [] with
    | error e' => exact absurd ((fT e').1 h1) (no (hb _ (by simp)) S.tables e')
    | ok a =>
      have K := knows_tables S.tables h1
      cases h2 : rC.foldlM (readColumnRow hC) a with
      | error e' => exact absurd ((fC e' a K).1 h2) (no (hb _ (by simp)) S.columns e')
      | ok b =>
        obtain ⟨K2, c1⟩ := rows_told (wb := wb) (sheet := c!"Columns") S.cStep (fun _ _ _ x => x.grows) rC a b K h2
        cases h3 : rF.foldlM (readFKRow hF) b with
        | error e' => exact absurd ((fF e' b K2).1 h3) (no (hb _ (by simp)) S.fks e')
        | ok c =>
          obtain ⟨K3, c2⟩ := rows_told (wb := wb) (sheet := c!"Foreign Keys") S.fStep (fun _ _ _ x => x.grows) rF b c K2 h3
          refine ⟨fun s => if s = c!"Tables" then (foldTold (fun s row => (shardReports hT row, readTableRow hT s row)) rT []).1
            else if s = c!"Columns" then (foldTold (fun s row => (rowReports c!"Columns" (tableHeader c!"Columns") hC s row, readColumnRow hC s row)) rC a).1
            else (foldTold (fun s row => (rowReports c!"Foreign Keys" (tableHeader c!"Foreign Keys") hF s row, readFKRow hF s row)) rF b).1, _, ?_, .inr ⟨by decide,
            rows_told_fails (sheet := c!"Relationships") (post := post) S.rStep (fun _ _ _ x => x.grows) K3 eR hp hr⟩, ?_⟩
          · intro s hm h' rows' hsh'
            simp only [List.mem_cons, List.not_mem_nil, or_false] at hm
            rcases hm with rfl | rfl | rfl
            · obtain ⟨rfl, rfl⟩ := sheetIs_unique S.tables hsh'
              exact .inl ⟨rfl, tables_told rT [] a h1⟩
            · obtain ⟨rfl, rfl⟩ := sheetIs_unique S.columns hsh'
              exact .inr ⟨by decide, c1⟩
            · obtain ⟨rfl, rfl⟩ := sheetIs_unique S.fks hsh'
              exact .inr ⟨by decide, c2⟩
          · rw [andThen_run (a := a) (by rw [readSheetTold_is S.tables, foldTold_snd]; exact h1),
              andThen_run (a := b) (by rw [readSheetTold_is S.columns, foldTold_snd]; exact h2),
              andThen_run (a := c) (by rw [readSheetTold_is S.fks, foldTold_snd]; exact h3),
              readSheetTold_is S.tables, readSheetTold_is S.columns, readSheetTold_is S.fks, readSheetTold_is S.rels]
            simp only [List.flatMap_cons, List.flatMap_nil, List.append_nil, List.append_assoc]
            rfl

theorem sheetSays_unique {wb : Workbook} {sheet : Str} {h : List XCell} {rows : List (List XCell)} {ms ns : List XReport}
    (h1 : SheetSays wb sheet h rows ms) (h2 : SheetSays wb sheet h rows ns) : ms = ns := by
  rcases h1 with ⟨rfl, h1⟩ | ⟨hne, h1⟩
  · rcases h2 with ⟨_, h2⟩ | ⟨hn, _⟩
    · exact Props.C81_shards_unique h1 h2
    · exact absurd rfl hn
  · rcases h2 with ⟨he, _⟩ | ⟨_, h2⟩
    · exact absurd he hne
    · exact Props.C81_rows_unique h1 h2

theorem Sheets.has {wb : Workbook} {hT : List XCell} {rT : List (List XCell)} {hC : List XCell} {rC : List (List XCell)}
    {hF : List XCell} {rF : List (List XCell)} {hR : List XCell} {rR : List (List XCell)} (S : Sheets wb hT rT hC rC hF rF hR rR) {s : Str}
    (hs : s ∈ readingOrder) : ∃ h rows, SheetIs wb s h rows := by
  simp only [readingOrder, List.mem_cons, List.not_mem_nil, or_false] at hs
  rcases hs with rfl | rfl | rfl | rfl
  exacts [⟨_, _, S.tables⟩, ⟨_, _, S.columns⟩, ⟨_, _, S.fks⟩, ⟨_, _, S.rels⟩]

/-- The messages about the sheets are determined. -/
theorem Sheets.says_congr {wb : Workbook} {hT : List XCell} {rT : List (List XCell)} {hC : List XCell} {rC : List (List XCell)}
    {hF : List XCell} {rF : List (List XCell)} {hR : List XCell} {rR : List (List XCell)} (S : Sheets wb hT rT hC rC hF rF hR rR) {l : List Str}
    (hl : ∀ s ∈ l, s ∈ readingOrder) {f g : Str → List XReport} (hf : ∀ s ∈ l, ∀ h rows, SheetIs wb s h rows → SheetSays wb s h rows (f s))
    (hg : ∀ s ∈ l, ∀ h rows, SheetIs wb s h rows → SheetSays wb s h rows (g s)) : l.flatMap f = l.flatMap g := by
  induction l with
  | nil => rfl
  | cons a l ih =>
    obtain ⟨h, rows, hsh⟩ := S.has (hl a (by simp))
    rw [List.flatMap_cons, List.flatMap_cons, sheetSays_unique (hf a (by simp) h rows hsh) (hg a (by simp) h rows hsh),
      ih (fun s hs => hl s (by simp [hs])) (fun s hs => hf s (by simp [hs])) (fun s hs => hg s (by simp [hs]))]

theorem Sheets.saysRead {wb : Workbook} {hT : List XCell} {rT : List (List XCell)} {hC : List XCell} {rC : List (List XCell)}
    {hF : List XCell} {rF : List (List XCell)} {hR : List XCell} {rR : List (List XCell)} (S : Sheets wb hT rT hC rC hF rF hR rR)
    (hs : Shaped wb) {dbs : Dict Database} (hr : readXls wb = .ok dbs) : ∃ f : Str → List XReport,
      (∀ s ∈ readingOrder, ∀ h rows, SheetIs wb s h rows → SheetSays wb s h rows (f s)) ∧ (readXlsTold wb).1 = readingOrder.flatMap f := by
  obtain ⟨ms, cs, fs, rs, h1, h2, h3, h4, h5⟩ := S.told hs hr
  refine ⟨fun s => if s = c!"Tables" then ms else if s = c!"Columns" then cs else if s = c!"Foreign Keys" then fs else rs, ?_, ?_⟩
  · intro s hm h rows hsh
    simp only [readingOrder, List.mem_cons, List.not_mem_nil, or_false] at hm
    rcases hm with rfl | rfl | rfl | rfl
    · obtain ⟨rfl, rfl⟩ := sheetIs_unique S.tables hsh
      exact .inl ⟨rfl, h1⟩
    · obtain ⟨rfl, rfl⟩ := sheetIs_unique S.columns hsh
      exact .inr ⟨by decide, h2⟩
    · obtain ⟨rfl, rfl⟩ := sheetIs_unique S.fks hsh
      exact .inr ⟨by decide, h3⟩
    · obtain ⟨rfl, rfl⟩ := sheetIs_unique S.rels hsh
      exact .inr ⟨by decide, h4⟩
  · rw [h5]
    simp only [readingOrder, List.flatMap_cons, List.flatMap_nil, List.append_nil]
    rfl

theorem says_headless {wb : Workbook} {pre post : List (Str × List Str)} {p : Str × List Str} (hn : needed = pre ++ p :: post)
    (hp : wb.get? p.1 = some []) (hpre : ∀ q ∈ pre, wb.get? q.1 ≠ some []) : (readXlsTold wb).1 = missingOf wb pre := by
  have hh : ¬ Headed wb := fun h => h p (by rw [hn]; simp) hp
  have hv : (verifyFormatTold wb).2 = .error .index := by
    have := readXls_headless hh
    rw [verifyFormatTold_snd]
    cases hx : verifyFormat wb with
    | ok b => exact absurd (headed_of_verify hx) hh
    | error e =>
      rw [readXls, hx] at this
      cases this
      rfl
  rw [readXlsTold, andThen_raise hv]
  unfold verifyFormatTold
  rw [required_eq, hn]
  have hok : ∃ b, pre.foldlM (fun valid p => ((verifySheetTold wb p).andThen (fun ok => (([] : List XReport), Except.ok (valid && ok)))).2) true =
      (Except.ok b : Except PyErr Bool) := by
    have key : ∀ (l : List (Str × List Str)) (v : Bool), (∀ q ∈ l, wb.get? q.1 ≠ some []) → ∃ b,
        l.foldlM (fun valid p => ((verifySheetTold wb p).andThen (fun ok => (([] : List XReport), Except.ok (valid && ok)))).2) v =
      (Except.ok b : Except PyErr Bool) := by
      intro l
      induction l with
      | nil => intro v _; exact ⟨v, rfl⟩
      | cons q l ih =>
        intro v hq
        obtain ⟨b, hb⟩ := verifySheetTold_fst (hq q (by simp))
        obtain ⟨c, hc⟩ := ih (v && b) (fun x hx => hq x (by simp [hx]))
        refine ⟨c, ?_⟩
        rw [List.foldlM_cons, hb, andThen_ok]
        exact hc
    exact key pre true hpre
  obtain ⟨b, hb⟩ := hok
  have hlast : (verifySheetTold wb p).andThen (fun ok => (([] : List XReport), Except.ok (b && ok))) = ([], .error .index) := by
    simp only [verifySheetTold, hp, XTold.andThen]
  rw [foldTold_raise (s1 := b) (ms := []) (e := .index) hb hlast, List.append_nil, verifyFold_told pre true hpre]
  rfl

end Verif
