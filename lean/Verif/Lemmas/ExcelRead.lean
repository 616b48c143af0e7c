import Verif.Lemmas.ExcelRows
import Mathlib.Data.List.Forall2
import Mathlib.Tactic.Tauto
/-
Lemmas on the workbook reader: what the databases read say, which rows matter for them.
-/

namespace Verif
open Spec

theorem under_unique {h row : List XCell} {col : Str} {v w : XCell} (h1 : Under h row col v) (h2 : Under h row col w) : v = w := by
  have := (cell_ok_iff _ _ _ _).2 h1
  rw [(cell_ok_iff _ _ _ _).2 h2] at this
  exact (Except.ok.inj this).symm

instance (h row : List XCell) (col : Str) (v : XCell) : Decidable (Under h row col v) := decidable_of_iff _ (cell_ok_iff h row col v)
instance (h row : List XCell) (sheet d n : Str) : Decidable (Names h row sheet d n) := inferInstanceAs (Decidable (_ ∧ _))

/-! ## The whole run -/

/-- The four sheets of a workbook that has them all. -/
structure Sheets (wb : Workbook) (hT : List XCell) (rT : List (List XCell)) (hC : List XCell) (rC : List (List XCell))
    (hF : List XCell) (rF : List (List XCell)) (hR : List XCell) (rR : List (List XCell)) : Prop where
  tables : SheetIs wb c!"Tables" hT rT
  columns : SheetIs wb c!"Columns" hC rC
  fks : SheetIs wb c!"Foreign Keys" hF rF
  rels : SheetIs wb c!"Relationships" hR rR
  cStep : IsRowStep hC c!"Table" false (ColumnStep hC) (readColumnRow hC)
  fStep : IsRowStep hF c!"From Table" false (FKStep hF) (readFKRow hF)
  rStep : IsRowStep hR c!"From Table" true (RelStep hR) (readRelRow hR)
  run : readXls wb = (rT.foldlM (readTableRow hT) [] >>= fun a => rC.foldlM (readColumnRow hC) a >>= fun b =>
    rF.foldlM (readFKRow hF) b >>= fun c => rR.foldlM (readRelRow hR) c)

theorem sheets_of {wb : Workbook} (hs : Shaped wb) {hT : List XCell} {rT : List (List XCell)} {hC : List XCell} {rC : List (List XCell)}
    {hF : List XCell} {rF : List (List XCell)} {hR : List XCell} {rR : List (List XCell)}
    (tables : SheetIs wb c!"Tables" hT rT) (columns : SheetIs wb c!"Columns" hC rC)
    (fks : SheetIs wb c!"Foreign Keys" hF rF) (rels : SheetIs wb c!"Relationships" hR rR) :
    Sheets wb hT rT hC rC hF rF hR rR := by
  have get : ∀ {name : Str} {cols : List Str} {h : List XCell} {rows : List (List XCell)}, (name, cols) ∈ needed → SheetIs wb name h rows →
      ∀ c ∈ cols, XCell.text c ∈ h := by
    intro name cols h rows hm hsh c hc
    obtain ⟨h', rows', hs', hall⟩ := hs _ hm
    rw [SheetIs] at hsh hs'
    simp only at hs'
    rw [hsh] at hs'
    cases hs'
    exact hall c hc
  refine ⟨tables, columns, fks, rels, ?_, ?_, ?_, ?_⟩
  · exact isRowStep_columns (get (cols := [c!"Database", c!"Schema", c!"Table", c!"Column", c!"Name", c!"Type"]) (by simp [needed]) columns _
      (by simp)) (get (cols := [c!"Database", c!"Schema", c!"Table", c!"Column", c!"Name", c!"Type"]) (by simp [needed]) columns _ (by simp))
  · exact isRowStep_fks (get (cols := [c!"Name", c!"Database", c!"Schema", c!"From Table", c!"From Columns", c!"To Table", c!"To Columns"])
      (by simp [needed]) fks _ (by simp)) (get
      (cols := [c!"Name", c!"Database", c!"Schema", c!"From Table", c!"From Columns", c!"To Table", c!"To Columns"]) (by simp [needed])
      fks _ (by simp))
  · exact isRowStep_rels (get (cols := [c!"Name", c!"Database", c!"Schema", c!"From Table", c!"To Table", c!"Conditions"])
      (by simp [needed]) rels _ (by simp)) (get
      (cols := [c!"Name", c!"Database", c!"Schema", c!"From Table", c!"To Table", c!"Conditions"]) (by simp [needed])
      rels _ (by simp))
  · rw [readXls_shaped hs]
    rw [SheetIs] at tables columns fks rels
    simp only [readDatabases, readSheet, tables, columns, fks, rels]

theorem shaped_sheets {wb : Workbook} (hs : Shaped wb) : ∃ hT rT hC rC hF rF hR rR, Sheets wb hT rT hC rC hF rF hR rR := by
  obtain ⟨hC, rC, h1, _⟩ := hs (c!"Columns", [c!"Database", c!"Schema", c!"Table", c!"Column", c!"Name", c!"Type"]) (by simp [needed])
  obtain ⟨hT, rT, h2, _⟩ := hs (c!"Tables", [c!"Database", c!"Schema", c!"Table", c!"Updated", c!"Update Type", c!"# Rows", c!"# Columns",
    c!"Primary Key", c!"Shard Key", c!"# Shards", c!"RLS Column"]) (by simp [needed])
  obtain ⟨hF, rF, h3, _⟩ := hs (c!"Foreign Keys", [c!"Name", c!"Database", c!"Schema", c!"From Table", c!"From Columns", c!"To Table",
    c!"To Columns"]) (by simp [needed])
  obtain ⟨hR, rR, h4, _⟩ := hs (c!"Relationships", [c!"Name", c!"Database", c!"Schema", c!"From Table", c!"To Table", c!"Conditions"])
    (by simp [needed])
  exact ⟨hT, rT, hC, rC, hF, rF, hR, rR, sheets_of hs h2 h1 h3 h4⟩

theorem Sheets.steps {wb : Workbook} {hT : List XCell} {rT : List (List XCell)} {hC : List XCell} {rC : List (List XCell)}
    {hF : List XCell} {rF : List (List XCell)} {hR : List XCell} {rR : List (List XCell)} (S : Sheets wb hT rT hC rC hF rF hR rR)
    {dbs : Dict Database} : readXls wb = .ok dbs ↔ ∃ a b c, rT.foldlM (readTableRow hT) [] = .ok a ∧ rC.foldlM (readColumnRow hC) a = .ok b ∧
      rF.foldlM (readFKRow hF) b = .ok c ∧ rR.foldlM (readRelRow hR) c = .ok dbs := by
  rw [S.run]
  simp only [bind_ok_iff]
  constructor
  · rintro ⟨a, h1, b, h2, c, h3, h4⟩; exact ⟨a, b, c, h1, h2, h3, h4⟩
  · rintro ⟨a, b, c, h1, h2, h3, h4⟩; exact ⟨a, h1, b, h2, c, h3, h4⟩

theorem tables_dbsOk {h : List XCell} {rows : List (List XCell)} {s : Dict Database} (hr : rows.foldlM (readTableRow h) [] = .ok s) : DbsOk s :=
  foldlM_keeps (I := DbsOk) rows [] s (fun _ _ _ _ h1 h2 => readTableRow_dbsOk h1 h2) hr dbsOk_nil

/-- What the rows of "Tables" create stays. -/
theorem Sheets.frame {wb : Workbook} {hT : List XCell} {rT : List (List XCell)} {hC : List XCell} {rC : List (List XCell)}
    {hF : List XCell} {rF : List (List XCell)} {hR : List XCell} {rR : List (List XCell)} (S : Sheets wb hT rT hC rC hF rF hR rR)
    {a b c dbs : Dict Database} (h1 : rT.foldlM (readTableRow hT) [] = .ok a) (h2 : rC.foldlM (readColumnRow hC) a = .ok b)
    (h3 : rF.foldlM (readFKRow hF) b = .ok c) (h4 : rR.foldlM (readRelRow hR) c = .ok dbs) :
    DbsOk dbs ∧ dbs.keys = a.keys ∧ ∀ e, tablesIn dbs e = tablesIn a e := by
  have k1 := tables_dbsOk h1
  obtain ⟨k2, e2, f2⟩ := rowSteps_dbsOk S.cStep (fun _ _ _ x => x.grows) k1 h2
  obtain ⟨k3, e3, f3⟩ := rowSteps_dbsOk S.fStep (fun _ _ _ x => x.grows) k2 h3
  obtain ⟨k4, e4, f4⟩ := rowSteps_dbsOk S.rStep (fun _ _ _ x => x.grows) k3 h4
  exact ⟨k4, e4.trans (e3.trans e2), fun e => (f4 e).trans ((f3 e).trans (f2 e))⟩

/-! ## The contents of one table -/

/-- The table `n` of the database `d`. -/
def tableAt (dbs : Dict Database) (d n : Str) : Option Table := (dbs.get? d).bind (fun db => db.getTable n)

theorem tableAt_set (s : Dict Database) (x : Str) (db : Database) (d n : Str) :
    tableAt (s.set x db) d n = if d = x then db.getTable n else tableAt s d n := by
  unfold tableAt
  rw [Dict.get?_set]
  by_cases h : d = x
  · simp [h]
  · simp [h]

theorem tableRow_at {h row : List XCell} {s s' : Dict Database} (hr : readTableRow h s row = .ok s') (d n : Str) :
    (∃ t, d ≠ [] ∧ Names h row c!"Tables" d n ∧ TableFrom h row t ∧ tableAt s' d n = some t) ∨
    ((d = [] ∨ ¬ Names h row c!"Tables" d n) ∧ tableAt s' d n = tableAt s d n) := by
  rcases readTableRow_cases hr with ⟨hb, rfl⟩ | ⟨x, t, hx, hu, hrow, rfl⟩
  · refine .inr ⟨?_, rfl⟩
    by_cases hd : d = []
    · exact .inl hd
    · exact .inr (fun hn => hd (XCell.text.inj (under_unique hn.1 hb)))
  · have hf := rowTable_ok hrow
    rw [tableAt_set]
    by_cases hd : d = x
    · subst hd
      rw [if_pos rfl]
      by_cases hn : n = t.name
      · subst hn
        exact .inl ⟨t, hx, ⟨hu, hf.name⟩, hf, by simp [Database.getTable, Database.addTable]⟩
      · refine .inr ⟨.inr (fun hh => hn (XCell.text.inj (under_unique hh.2 hf.name))), ?_⟩
        simp only [Database.getTable, Database.addTable, Dict.get?_set_ne _ _ hn, tableAt]
        cases s.get? d with
        | none => rfl
        | some db => rfl
    · rw [if_neg hd]
      exact .inr ⟨.inr (fun hh => hd (XCell.text.inj (under_unique hh.1 hu))), rfl⟩

/-- Which row of "Tables" makes a table. -/
theorem tables_at {h : List XCell} (d n : Str) : ∀ (rows : List (List XCell)) (s s' : Dict Database), rows.foldlM (readTableRow h) s = .ok s' →
    (tableAt s' d n = tableAt s d n ∧ ∀ row ∈ rows, d = [] ∨ ¬ Names h row c!"Tables" d n) ∨
    ∃ pre row post t, rows = pre ++ row :: post ∧ Names h row c!"Tables" d n ∧ (∀ r ∈ post, ¬ Names h r c!"Tables" d n) ∧
      TableFrom h row t ∧ tableAt s' d n = some t
  | [], s, s', hr => by cases hr; exact .inl ⟨rfl, by simp⟩
  | row :: rows, s, s', hr => by
    rw [List.foldlM_cons, bind_ok_iff] at hr
    obtain ⟨s1, h1, h2⟩ := hr
    rcases tables_at d n rows s1 s' h2 with ⟨e, hno⟩ | ⟨pre, r, post, t, rfl, g1, g2, g3, g4⟩
    · rcases tableRow_at h1 d n with ⟨t, hd, hn, hf, ht⟩ | ⟨hn, ht⟩
      · exact .inr ⟨[], row, rows, t, rfl, hn, fun r hr => (hno r hr).resolve_left hd, hf, e.trans ht⟩
      · exact .inl ⟨e.trans ht, by
          intro r hr
          rcases List.mem_cons.1 hr with rfl | hr
          · exact hn
          · exact hno r hr⟩
    · exact .inr ⟨row :: pre, r, post, t, rfl, g1, g2, g3, g4⟩

theorem rowStep_at {h : List XCell} {col : Str} {strict : Bool} {P : List XCell → Table → Table → Prop}
    {step : Dict Database → List XCell → Except PyErr (Dict Database)} (hstep : IsRowStep h col strict P step) {s s' : Dict Database}
    {row : List XCell} (hr : step s row = .ok s') (d n : Str) {t : Table} (ht : tableAt s d n = some t) :
    (Under h row c!"Database" (.text d) ∧ Under h row col (.text n) ∧ ∃ t', P row t t' ∧ tableAt s' d n = some t') ∨
    (¬ (Under h row c!"Database" (.text d) ∧ Under h row col (.text n)) ∧ tableAt s' d n = some t) := by
  obtain ⟨dc, nc, u1, u2, hc⟩ := rowStep_cases hstep hr
  rcases hc with ⟨hno, rfl⟩ | ⟨x, db, rfl, hx, hno, rfl, _⟩ | ⟨x, db, m, t0, t', rfl, hx, rfl, ht0, hp, rfl⟩
  · refine .inr ⟨fun hh => ?_, ht⟩
    have := hno d (under_unique u1 hh.1)
    simp [tableAt, this] at ht
  · refine .inr ⟨fun hh => ?_, ht⟩
    have e1 := XCell.text.inj (under_unique u1 hh.1)
    have := hno n (under_unique u2 hh.2)
    subst e1
    simp [tableAt, hx, this] at ht
  · rw [tableAt_set, getTable_update]
    by_cases hd : d = x
    · subst hd
      simp only [if_true]
      have htn : db.getTable n = some t := by simpa [tableAt, hx] using ht
      by_cases hn : n = m
      · subst hn
        rw [ht0] at htn
        cases htn
        exact .inl ⟨u1, u2, t', hp, by simp [ht0]⟩
      · rw [if_neg hn]
        exact .inr ⟨fun hh => hn (XCell.text.inj (under_unique hh.2 u2)), htn⟩
    · rw [if_neg hd]
      exact .inr ⟨fun hh => hd (XCell.text.inj (under_unique hh.1 u1)), ht⟩

/-- A table changed by some rows one after the other. -/
inductive Steps (P : List XCell → Table → Table → Prop) : List (List XCell) → Table → Table → Prop where
  | nil (t) : Steps P [] t t
  | cons {row rows t u v} : P row t u → Steps P rows u v → Steps P (row :: rows) t v

theorem rows_at {h : List XCell} {col : Str} {strict : Bool} {P : List XCell → Table → Table → Prop}
    {step : Dict Database → List XCell → Except PyErr (Dict Database)} (hstep : IsRowStep h col strict P step) (d n : Str) :
    ∀ (rows : List (List XCell)) (s s' : Dict Database) (t : Table), rows.foldlM step s = .ok s' → tableAt s d n = some t →
    ∃ t', tableAt s' d n = some t' ∧
      Steps P (rows.filter (fun r => decide (Under h r c!"Database" (.text d) ∧ Under h r col (.text n)))) t t'
  | [], s, s', t, hr, ht => by cases hr; exact ⟨t, ht, .nil t⟩
  | row :: rows, s, s', t, hr, ht => by
    rw [List.foldlM_cons, bind_ok_iff] at hr
    obtain ⟨s1, h1, h2⟩ := hr
    rcases rowStep_at hstep h1 d n ht with ⟨u1, u2, t1, hp, e⟩ | ⟨hn, e⟩
    · obtain ⟨t', e', st⟩ := rows_at hstep d n rows s1 s' t1 h2 e
      exact ⟨t', e', by rw [List.filter_cons_of_pos (by simp [u1, u2])]; exact .cons hp st⟩
    · obtain ⟨t', e', st⟩ := rows_at hstep d n rows s1 s' t h2 e
      exact ⟨t', e', by rw [List.filter_cons_of_neg (by simpa using hn)]; exact st⟩

theorem columnSteps {h : List XCell} : ∀ {rows : List (List XCell)} {t t' : Table}, Steps (ColumnStep h) rows t t' →
    ∃ cs, List.Forall₂ (ColumnFrom h) rows cs ∧ t' = { t with cols := cs.foldl (fun d c => d.set c.name c) t.cols }
  | [], t, _, .nil _ => ⟨[], .nil, rfl⟩
  | row :: rows, t, t', .cons ⟨c, hc, e⟩ st => by
    subst e
    obtain ⟨cs, hcs, rfl⟩ := columnSteps st
    exact ⟨c :: cs, .cons hc hcs, rfl⟩

theorem fkSteps {h : List XCell} : ∀ {rows : List (List XCell)} {t t' : Table}, Steps (FKStep h) rows t t' →
    ∃ cs, List.Forall₂ (FKFrom t.name h) rows cs ∧ t' = { t with fks := cs.foldl (fun d c => d.set c.name c) t.fks }
  | [], t, _, .nil _ => ⟨[], .nil, rfl⟩
  | row :: rows, t, t', .cons ⟨c, hc, e⟩ st => by
    subst e
    obtain ⟨cs, hcs, rfl⟩ := fkSteps st
    exact ⟨c :: cs, .cons hc hcs, rfl⟩

theorem relSteps {h : List XCell} : ∀ {rows : List (List XCell)} {t t' : Table}, Steps (RelStep h) rows t t' →
    ∃ cs, List.Forall₂ (RelFrom t.name h) rows cs ∧ t' = { t with rels := cs.foldl (fun d c => d.set c.name c) t.rels }
  | [], t, _, .nil _ => ⟨[], .nil, rfl⟩
  | row :: rows, t, t', .cons ⟨c, hc, e⟩ st => by
    subst e
    obtain ⟨cs, hcs, rfl⟩ := relSteps st
    exact ⟨c :: cs, .cons hc hcs, rfl⟩

theorem keys_fold_set {α : Type} (name : α → Str) : ∀ (l : List α) (d : Dict α),
    (l.foldl (fun d c => d.set (name c) c) d).keys = (l.map name).foldl appendNew d.keys
  | [], _ => rfl
  | a :: l, d => by
    rw [List.foldl_cons, keys_fold_set name l, List.map_cons, List.foldl_cons, Dict.keys_set, appendNew]

theorem filled_fold {α : Type} (name : α → Str) (l : List α) : Filled name l (l.foldl (fun d c => d.set (name c) c) []) := by
  refine ⟨by rw [keys_fold_set, Dict.keys_nil, appendNew_fold_nil], ?_⟩
  induction l using snocInd with
  | nil => simp
  | append_singleton l a ih =>
    intro k v
    rw [List.foldl_append, List.foldl_cons, List.foldl_nil, Dict.get?_set]
    by_cases hk : k = name a
    · subst hk
      simp only [if_true, Option.some.injEq]
      constructor
      · rintro rfl
        exact ⟨l, [], by simp, rfl, by simp⟩
      · rintro ⟨pre, post, e, hv, hp⟩
        rcases List.eq_nil_or_concat post with rfl | ⟨post', b, rfl⟩
        · have := List.append_inj' e rfl
          simpa using this.2
        · rw [List.concat_eq_append, ← List.cons_append, ← List.append_assoc] at e
          have := List.append_inj' e rfl
          have hb : a = b := by simpa using this.2
          subst hb
          exact absurd rfl (hp a (by simp))
    · rw [if_neg hk, ih]
      constructor
      · rintro ⟨pre, post, rfl, hv, hp⟩
        exact ⟨pre, post ++ [a], by simp, hv, by
          intro x hx
          rcases List.mem_append.1 hx with hx | hx
          · exact hp x hx
          · simp only [List.mem_singleton] at hx
            subst hx; exact Ne.symm hk⟩
      · rintro ⟨pre, post, e, hv, hp⟩
        rcases List.eq_nil_or_concat post with rfl | ⟨post', b, rfl⟩
        · have := List.append_inj' e rfl
          have hb : a = v := by simpa using this.2
          subst hb
          exact absurd hv (Ne.symm hk)
        · rw [List.concat_eq_append, ← List.cons_append, ← List.append_assoc] at e
          have := List.append_inj' e rfl
          exact ⟨pre, post', this.1, hv, fun x hx => hp x (by simp [hx])⟩

/-- What the sheets say about a table that was read. -/
theorem Sheets.contents {wb : Workbook} {hT : List XCell} {rT : List (List XCell)} {hC : List XCell} {rC : List (List XCell)}
    {hF : List XCell} {rF : List (List XCell)} {hR : List XCell} {rR : List (List XCell)} (S : Sheets wb hT rT hC rC hF rF hR rR)
    {dbs : Dict Database} (hr : readXls wb = .ok dbs) {d n : Str} {t : Table} (ht : tableAt dbs d n = some t) :
    (∃ pre row post, rT = pre ++ row :: post ∧ Names hT row c!"Tables" d n ∧ (∀ r ∈ post, ¬ Names hT r c!"Tables" d n) ∧
      TableFrom hT row { t with cols := [], fks := [], rels := [] }) ∧
    (∃ cs, List.Forall₂ (ColumnFrom hC) (rC.filter (fun r => decide (Names hC r c!"Columns" d n))) cs ∧ Filled Column.name cs t.cols) ∧
    (∃ ks, List.Forall₂ (FKFrom n hF) (rF.filter (fun r => decide (Names hF r c!"Foreign Keys" d n))) ks ∧ Filled FK.name ks t.fks) ∧
    (∃ rs, List.Forall₂ (RelFrom n hR) (rR.filter (fun r => decide (Names hR r c!"Relationships" d n))) rs ∧ Filled Rel.name rs t.rels) := by
  obtain ⟨a, b, c, h1, h2, h3, h4⟩ := S.steps.1 hr
  obtain ⟨_, hk, htab⟩ := S.frame h1 h2 h3 h4
  have mem : n ∈ tablesIn dbs d := by
    unfold tableAt at ht
    unfold tablesIn
    cases hg : dbs.get? d with
    | none => simp [hg] at ht
    | some db =>
      simp only [hg, Option.bind_some] at ht
      simpa using (Dict.get?_isSome_iff db.tables n).1 (by rw [Database.getTable] at ht; simp [ht])
  obtain ⟨t0, ht0⟩ : ∃ t0, tableAt a d n = some t0 := by
    rw [htab d] at mem
    unfold tablesIn at mem
    unfold tableAt
    cases hg : a.get? d with
    | none => simp [hg] at mem
    | some db =>
      simp only [hg, Option.map_some, Option.getD_some] at mem
      exact Option.isSome_iff_exists.1 ((Dict.get?_isSome_iff db.tables n).2 mem)
  rcases tables_at d n rT [] a h1 with ⟨e, _⟩ | ⟨pre, row, post, t0', e, g1, g2, g3, g4⟩
  · rw [ht0] at e; simp [tableAt] at e
  · rw [ht0] at g4
    cases g4
    obtain ⟨t1, e1, s1⟩ := rows_at S.cStep d n rC a b t0 h2 ht0
    obtain ⟨t2, e2, s2⟩ := rows_at S.fStep d n rF b c t1 h3 e1
    obtain ⟨t3, e3, s3⟩ := rows_at S.rStep d n rR c dbs t2 h4 e2
    rw [ht] at e3
    cases e3
    obtain ⟨cs, c1, rfl⟩ := columnSteps s1
    obtain ⟨ks, c2, rfl⟩ := fkSteps s2
    obtain ⟨rs, c3, rfl⟩ := relSteps s3
    have hn : t0.name = n := XCell.text.inj (under_unique g3.name g1.2)
    obtain ⟨f1, f2, f3⟩ := g3.fresh
    refine ⟨⟨pre, row, post, e, g1, g2, ?_⟩, ⟨cs, c1, ?_⟩, ⟨ks, ?_, ?_⟩, ⟨rs, ?_, ?_⟩⟩
    · obtain ⟨x1, x2, x3, x4, x5⟩ := g3
      exact ⟨x1, x2, x3, x4, rfl, rfl, rfl⟩
    · simp only [f1]; exact filled_fold _ _
    · rw [← hn]; rw [← hn] at c2; exact c2
    · simp only [f2]; exact filled_fold _ _
    · rw [← hn]; rw [← hn] at c3; exact c3
    · simp only [f3]; exact filled_fold _ _

/-! ## Databases and tables named by the workbook -/

theorem rowsName_mem {h : List XCell} {rows : List (List XCell)} {l : List (Str × Str)} (hl : RowsName h rows l) (d n : Str) :
    (d, n) ∈ l ↔ d ≠ [] ∧ ∃ row ∈ rows, Under h row c!"Database" (.text d) ∧ Under h row c!"Table" (.text n) := by
  induction hl with
  | nil => simp
  | @blank row rows l hb _ ih =>
    rw [ih]
    constructor
    · rintro ⟨h1, r, hr, h2⟩; exact ⟨h1, r, by simp [hr], h2⟩
    · rintro ⟨h1, r, hr, h2⟩
      rcases List.mem_cons.1 hr with rfl | hr
      · exact absurd (XCell.text.inj (under_unique h2.1 hb)) h1
      · exact ⟨h1, r, hr, h2⟩
  | @row row rows l d' n' hd h1 h2 _ ih =>
    rw [List.mem_cons, ih]
    constructor
    · rintro (e | ⟨g1, r, hr, g2⟩)
      · cases e; exact ⟨hd, row, by simp, h1, h2⟩
      · exact ⟨g1, r, by simp [hr], g2⟩
    · rintro ⟨g1, r, hr, g2, g3⟩
      rcases List.mem_cons.1 hr with rfl | hr
      · left
        rw [XCell.text.inj (under_unique g2 h1), XCell.text.inj (under_unique g3 h2)]
      · exact .inr ⟨g1, r, hr, g2, g3⟩

theorem mem_firstUses (x : Str) : ∀ (l : List Str), x ∈ firstUses l ↔ x ∈ l
  | [] => by simp [firstUses]
  | a :: l => by
    rw [firstUses, List.mem_cons, List.mem_filter, mem_firstUses x l, List.mem_cons]
    by_cases h : x = a <;> simp [h]

/-- After "Tables" the names are those of the rows. -/
theorem tables_named {wb : Workbook} {h : List XCell} {rows : List (List XCell)} (hs : SheetIs wb c!"Tables" h rows) {s : Dict Database}
    (hr : rows.foldlM (readTableRow h) [] = .ok s) :
    (∀ d, d ∈ s.keys ↔ ∃ n, Known wb d n) ∧ ∀ d n, n ∈ tablesIn s d ↔ Known wb d n := by
  obtain ⟨l, hl, hk, ht⟩ := tables_listed rows [] s hr
  have hkn : ∀ d n, (d, n) ∈ l ↔ Known wb d n := by
    intro d n
    rw [rowsName_mem hl]
    constructor
    · rintro ⟨h1, h2⟩; exact ⟨h1, h, rows, hs, h2⟩
    · rintro ⟨h1, h', rows', hs', h2⟩
      rw [SheetIs] at hs hs'
      rw [hs] at hs'
      cases hs'
      exact ⟨h1, h2⟩
  constructor
  · intro d
    rw [hk, Dict.keys_nil, appendNew_fold_nil, mem_firstUses, List.mem_map]
    constructor
    · rintro ⟨⟨d', n⟩, hm, rfl⟩; exact ⟨n, (hkn _ _).1 hm⟩
    · rintro ⟨n, hn⟩; exact ⟨(d, n), (hkn _ _).2 hn, rfl⟩
  · intro d n
    have : tablesIn ([] : Dict Database) d = [] := rfl
    rw [ht, this, appendNew_fold_nil, mem_firstUses, List.mem_map, ← hkn]
    constructor
    · rintro ⟨⟨d', n'⟩, hm, rfl⟩
      rw [List.mem_filter] at hm
      simp only [decide_eq_true_eq] at hm
      obtain ⟨hm, rfl⟩ := hm
      exact hm
    · intro hm
      exact ⟨(d, n), List.mem_filter.2 ⟨hm, by simp⟩, rfl⟩

/-- A row that names something unknown changes nothing. -/
theorem rowStep_unknown {h : List XCell} {col : Str} {strict : Bool} {P : List XCell → Table → Table → Prop}
    {step : Dict Database → List XCell → Except PyErr (Dict Database)} (hstep : IsRowStep h col strict P step) (s : Dict Database)
    (row : List XCell) (hno : ∀ d, Under h row c!"Database" (.text d) → d ∈ s.keys → strict = false ∧
      ∀ n, Under h row col (.text n) → n ∉ tablesIn s d) : step s row = .ok s := by
  obtain ⟨d, n, f, u1, u2, _, e⟩ := hstep row
  rw [e]
  unfold onTable
  cases d with
  | num q => rfl
  | text d =>
    simp only
    cases hg : s.get? d with
    | none => rfl
    | some db =>
      obtain ⟨hf, hno2⟩ := hno d u1 ((Dict.get?_isSome_iff s d).1 (by simp [hg]))
      subst hf
      cases n with
      | num q => rfl
      | text n =>
        have := hno2 n u2
        have hn : db.getTable n = none := by
          rw [Database.getTable, Dict.get?_eq_none_iff]
          simpa [tablesIn, hg] using this
        simp [hn]

theorem get?_restrict (keep : Str → List XCell → List XCell → Bool) (name : Str) : ∀ (wb : Workbook),
    (restrict keep wb).get? name = (wb.get? name).map (fun s => match s with
      | [] => []
      | h :: rows => h :: rows.filter (keep name h))
  | [] => rfl
  | (k, s) :: wb => by
    have ih := get?_restrict keep name wb
    unfold restrict at ih ⊢
    rw [List.map_cons, Dict.get?_cons, Dict.get?_cons]
    by_cases hk : k = name
    · subst hk; cases s <;> simp
    · simp only [hk, if_false]; exact ih

theorem sheetIs_restrict {keep : Str → List XCell → List XCell → Bool} {wb : Workbook} {name : Str} {h : List XCell} {rows : List (List XCell)}
    (hs : SheetIs wb name h rows) : SheetIs (restrict keep wb) name h (rows.filter (keep name h)) := by
  rw [SheetIs] at *
  rw [get?_restrict, hs]
  rfl

theorem shaped_restrict {keep : Str → List XCell → List XCell → Bool} {wb : Workbook} (hs : Shaped wb) : Shaped (restrict keep wb) := by
  intro p hp
  obtain ⟨h, rows, h1, h2⟩ := hs p hp
  exact ⟨h, _, sheetIs_restrict h1, h2⟩

theorem foldlM_bind_congr {α β ε : Type} {x : Except ε α} {f g : α → Except ε β} (h : ∀ a, x = .ok a → f a = g a) : x >>= f = x >>= g := by
  cases x with
  | error e => rfl
  | ok a => exact h a rfl

/-- Rows that name nothing known can be left out. -/
theorem readXls_skip {wb : Workbook} (hs : Shaped wb) (keep : Str → List XCell → List XCell → Bool)
    (hT : ∀ h row, keep c!"Tables" h row = true)
    (hC : ∀ sheet ∈ [c!"Columns", c!"Foreign Keys"], ∀ h rows, SheetIs wb sheet h rows → ∀ row ∈ rows, keep sheet h row = false →
      ∀ d n, Names h row sheet d n → ¬ Known wb d n)
    (hR : ∀ h rows, SheetIs wb c!"Relationships" h rows → ∀ row ∈ rows, keep c!"Relationships" h row = false →
      ∀ d, Under h row c!"Database" (.text d) → ∀ n, ¬ Known wb d n) :
    readXls (restrict keep wb) = readXls wb := by
  obtain ⟨HT, RT, HC, RC, HF, RF, HR, RR, S⟩ := shaped_sheets hs
  have S' := sheets_of (shaped_restrict (keep := keep) hs) (sheetIs_restrict S.tables) (sheetIs_restrict S.columns)
    (sheetIs_restrict S.fks) (sheetIs_restrict S.rels)
  rw [S'.run, S.run]
  have eT : RT.filter (keep c!"Tables" HT) = RT := List.filter_eq_self.2 (fun r _ => hT _ _)
  rw [eT]
  apply foldlM_bind_congr
  intro a ha
  obtain ⟨nk, nt⟩ := tables_named S.tables ha
  have ka := tables_dbsOk ha
  let I : Dict Database → Prop := fun s => DbsOk s ∧ s.keys = a.keys ∧ ∀ e, tablesIn s e = tablesIn a e
  have hIa : I a := ⟨ka, rfl, fun _ => rfl⟩
  have keepI : ∀ {h : List XCell} {col : Str} {strict : Bool} {P : List XCell → Table → Table → Prop}
      {step : Dict Database → List XCell → Except PyErr (Dict Database)}, IsRowStep h col strict P step → (∀ row t t', P row t t' → Grows t t') →
      ∀ s s' row, I s → step s row = .ok s' → I s' := by
    intro h col strict P step hst hP s s' row ⟨i1, i2, i3⟩ hr
    obtain ⟨g1, g2, g3⟩ := rowStep_dbsOk hst hP i1 hr
    exact ⟨g1, g2.trans i2, fun e => (g3 e).trans (i3 e)⟩
  have e1 := foldlM_skip (f := readColumnRow HC) (keep := keep c!"Columns" HC) (I := I) RC a
    (fun s r hr hi hk => rowStep_unknown S.cStep s r (fun d hd _ => ⟨rfl, fun n hn hm =>
      hC c!"Columns" (by simp) HC RC S.columns r hr hk d n ⟨hd, hn⟩ ((nt d n).1 (by rw [← hi.2.2 d]; exact hm))⟩))
    (fun s s' r _ => keepI S.cStep (fun _ _ _ x => x.grows) s s' r) hIa
  rw [e1]
  apply foldlM_bind_congr
  intro b hb
  have hIb : I b := foldlM_keeps (I := I) RC a b (fun s s' r _ => keepI S.cStep (fun _ _ _ x => x.grows) s s' r) hb hIa
  have e2 := foldlM_skip (f := readFKRow HF) (keep := keep c!"Foreign Keys" HF) (I := I) RF b
    (fun s r hr hi hk => rowStep_unknown S.fStep s r (fun d hd _ => ⟨rfl, fun n hn hm =>
      hC c!"Foreign Keys" (by simp) HF RF S.fks r hr hk d n ⟨hd, hn⟩ ((nt d n).1 (by rw [← hi.2.2 d]; exact hm))⟩))
    (fun s s' r _ => keepI S.fStep (fun _ _ _ x => x.grows) s s' r) hIb
  rw [e2]
  apply foldlM_bind_congr
  intro c hc
  have hIc : I c := foldlM_keeps (I := I) RF b c (fun s s' r _ => keepI S.fStep (fun _ _ _ x => x.grows) s s' r) hc hIb
  exact foldlM_skip (f := readRelRow HR) (keep := keep c!"Relationships" HR) (I := I) RR c
    (fun s r hr hi hk => rowStep_unknown S.rStep s r (fun d hd hm => by
      obtain ⟨n, hn⟩ := (nk d).1 (by rw [← hi.2.1]; exact hm)
      exact absurd hn (hR HR RR S.rels r hr hk d hd n)))
    (fun s s' r _ => keepI S.rStep (fun _ _ _ x => x.grows) s s' r) hIc

/-- If "Relationships" can be read, its rows name known tables or unknown databases. -/
theorem rels_known {h : List XCell} {P : List XCell → Table → Table → Prop}
    {step : Dict Database → List XCell → Except PyErr (Dict Database)} {col : Str} (hstep : IsRowStep h col true P step)
    (hP : ∀ row t t', P row t t' → Grows t t') :
    ∀ (rows : List (List XCell)) (s s' : Dict Database), DbsOk s → rows.foldlM step s = .ok s' → ∀ row ∈ rows, ∀ d,
      Under h row c!"Database" (.text d) → d ∈ s.keys → ∃ n, Under h row col (.text n) ∧ n ∈ tablesIn s d
  | [], _, _, _, _, _, h, _, _, _ => by simp at h
  | r :: rows, s, s', hs, hr, row, hrow, d, hd, hm => by
    rw [List.foldlM_cons, bind_ok_iff] at hr
    obtain ⟨s1, h1, h2⟩ := hr
    obtain ⟨g1, g2, g3⟩ := rowStep_dbsOk hstep hP hs h1
    rcases List.mem_cons.1 hrow with rfl | hrow
    · obtain ⟨dc, nc, u1, u2, hc⟩ := rowStep_cases hstep h1
      rcases hc with ⟨hno, rfl⟩ | ⟨x, db, rfl, hx, hno, rfl, hf⟩ | ⟨x, db, m, t0, t', rfl, hx, rfl, ht0, hp, rfl⟩
      · have := hno d (under_unique u1 hd)
        exact absurd hm ((Dict.get?_eq_none_iff _ _).1 this)
      · cases hf
      · have := XCell.text.inj (under_unique u1 hd)
        subst this
        refine ⟨m, u2, ?_⟩
        simp only [tablesIn, hx, Option.map_some, Option.getD_some]
        exact (Dict.get?_isSome_iff db.tables m).1 (by rw [Database.getTable] at ht0; simp [ht0])
    · obtain ⟨n, hn1, hn2⟩ := rels_known hstep hP rows s1 s' g1 h2 row hrow d hd (by rw [g2]; exact hm)
      exact ⟨n, hn1, by rw [← g3 d]; exact hn2⟩

/-! ## One database -/

/-- The databases `t` hold at most `d`, and there they agree with `s`. -/
def Agree (d : Str) (s t : Dict Database) : Prop := s.get? d = t.get? d ∧ ∀ e ∈ t.keys, e = d

theorem agree_set {d : Str} {s t : Dict Database} (h : Agree d s t) (db : Database) : Agree d (s.set d db) (t.set d db) :=
  ⟨by simp, fun e he => ((Dict.mem_keys_set t d e db).1 he).elim id (h.2 e)⟩

theorem agree_tables {h : List XCell} {d : Str} {rows : List (List XCell)} {s s' t : Dict Database}
    (hr : rows.foldlM (readTableRow h) s = .ok s') (hq : Agree d s t) :
    ∃ t', (rows.filter (fun r => decide (Under h r c!"Database" (.text d)))).foldlM (readTableRow h) t = .ok t' ∧ Agree d s' t' := by
  refine foldlM_follow (Q := Agree d) rows s s' t ?_ ?_ hr hq
  · intro s s' t r _ hk hf hq
    rcases readTableRow_cases hf with ⟨_, rfl⟩ | ⟨x, u, _, hu, _, rfl⟩
    · exact hq
    · have hx : d ≠ x := by rintro rfl; simp [hu] at hk
      exact ⟨by rw [Dict.get?_set_ne _ _ hx]; exact hq.1, hq.2⟩
  · intro s s' t r _ hk hf hq
    have hk' : Under h r c!"Database" (.text d) := by simpa using hk
    rcases readTableRow_cases hf with ⟨hb, rfl⟩ | ⟨x, u, hx, hu, hrow, rfl⟩
    · refine ⟨t, ?_, hq⟩
      simp only [readTableRow, (cell_ok_iff _ _ _ _).2 hb, bind, Except.bind, if_true]
    · have e := XCell.text.inj (under_unique hu hk')
      subst e
      refine ⟨_, ?_, agree_set hq _⟩
      rw [hq.1]
      simp only [readTableRow, (cell_ok_iff _ _ _ _).2 hu, bind, Except.bind, hrow, XCell.name]
      rw [if_neg (by simpa using hx)]

theorem agree_rows {h : List XCell} {col : Str} {strict : Bool} {P : List XCell → Table → Table → Prop}
    {step : Dict Database → List XCell → Except PyErr (Dict Database)} (hstep : IsRowStep h col strict P step) {d : Str}
    {rows : List (List XCell)} {s s' t : Dict Database} (hr : rows.foldlM step s = .ok s') (hq : Agree d s t) :
    ∃ t', (rows.filter (fun r => decide (Under h r c!"Database" (.text d)))).foldlM step t = .ok t' ∧ Agree d s' t' := by
  refine foldlM_follow (Q := Agree d) rows s s' t ?_ ?_ hr hq
  · intro s s' t r _ hk hf hq
    obtain ⟨dc, nc, u1, _, hc⟩ := rowStep_cases hstep hf
    rcases hc with ⟨_, rfl⟩ | ⟨_, _, _, _, _, rfl, _⟩ | ⟨x, db, m, t0, t', rfl, hx, rfl, ht0, hp, rfl⟩
    · exact hq
    · exact hq
    · have hx : d ≠ x := by rintro rfl; simp [u1] at hk
      exact ⟨by rw [Dict.get?_set_ne _ _ hx]; exact hq.1, hq.2⟩
  · intro s s' t r _ hk hf hq
    have hk' : Under h r c!"Database" (.text d) := by simpa using hk
    obtain ⟨dc, nc, f, u1, _, _, e⟩ := hstep r
    have ed := under_unique u1 hk'
    subst ed
    rw [e] at hf
    rw [e]
    unfold onTable at hf ⊢
    simp only at hf ⊢
    rw [← hq.1]
    cases hg : s.get? d with
    | none => rw [hg] at hf; cases hf; exact ⟨t, rfl, hq⟩
    | some db =>
      rw [hg] at hf
      simp only at hf ⊢
      cases nc with
      | num q =>
        cases strict with
        | true => cases hf
        | false => cases hf; exact ⟨t, rfl, hq⟩
      | text n =>
        simp only at hf ⊢
        cases hn : db.getTable n with
        | none =>
          rw [hn] at hf
          cases strict with
          | true => cases hf
          | false => cases hf; exact ⟨t, rfl, hq⟩
        | some u =>
          rw [hn] at hf
          simp only [bind, Except.bind] at hf ⊢
          cases hfu : f u with
          | error e => rw [hfu] at hf; cases hf
          | ok u' =>
            rw [hfu] at hf; cases hf
            exact ⟨_, rfl, agree_set hq _⟩

/-- The rows that name the database `d` are enough for it. -/
theorem readXls_only {wb : Workbook} (hs : Shaped wb) {dbs : Dict Database} (hr : readXls wb = .ok dbs) (d : Str) :
    ∃ dbs', readXls (restrict (fun _ h row => decide (Under h row c!"Database" (.text d))) wb) = .ok dbs' ∧ Agree d dbs dbs' := by
  obtain ⟨HT, RT, HC, RC, HF, RF, HR, RR, S⟩ := shaped_sheets hs
  have S' := sheets_of (shaped_restrict (keep := fun _ h row => decide (Under h row c!"Database" (.text d))) hs) (sheetIs_restrict S.tables)
    (sheetIs_restrict S.columns) (sheetIs_restrict S.fks) (sheetIs_restrict S.rels)
  obtain ⟨a, b, c, h1, h2, h3, h4⟩ := S.steps.1 hr
  obtain ⟨a', g1, q1⟩ := agree_tables (d := d) (t := []) h1 ⟨rfl, by simp⟩
  obtain ⟨b', g2, q2⟩ := agree_rows S.cStep h2 q1
  obtain ⟨c', g3, q3⟩ := agree_rows S.fStep h3 q2
  obtain ⟨e', g4, q4⟩ := agree_rows S.rStep h4 q3
  exact ⟨e', S'.steps.2 ⟨a', b', c', g1, g2, g3, g4⟩, q4⟩

end Verif
