import Verif.Spec.ExcelReports
import Verif.Lemmas.ExcelRead
/-
Lemmas on the messages of the workbook reader.
-/

namespace Verif
open Spec

/-! ## Loops with messages -/

theorem andThen_ok {α β : Type} {ms : List XReport} {a : α} (f : α → XTold β) :
    XTold.andThen (ms, .ok a) f = (ms ++ (f a).1, (f a).2) := rfl

theorem andThen_snd {α β : Type} (x : XTold α) (f : α → XTold β) : (x.andThen f).2 = x.2 >>= fun a => (f a).2 := by
  obtain ⟨ms, r⟩ := x
  cases r <;> rfl

theorem mem_andThen {α β : Type} {x : XTold α} {f : α → XTold β} {m : XReport} (h : m ∈ (x.andThen f).1) :
    m ∈ x.1 ∨ ∃ a, x.2 = .ok a ∧ m ∈ (f a).1 := by
  obtain ⟨ms, r⟩ := x
  cases r with
  | error e => exact .inl h
  | ok a =>
    rw [andThen_ok, List.mem_append] at h
    exact h.imp id (fun h => ⟨a, rfl, h⟩)

theorem foldTold_snd {S R : Type} (f : S → R → XTold S) : ∀ (rows : List R) (s : S),
    (foldTold f rows s).2 = rows.foldlM (fun s r => (f s r).2) s
  | [], _ => rfl
  | r :: rows, s => by
    rw [foldTold, andThen_snd, List.foldlM_cons]
    congr 1
    funext a
    exact foldTold_snd f rows a

theorem foldTold_cons {S R : Type} {f : S → R → XTold S} {s s1 : S} {r : R} {ms : List XReport} (rows : List R) (h : f s r = (ms, .ok s1)) :
    foldTold f (r :: rows) s = (ms ++ (foldTold f rows s1).1, (foldTold f rows s1).2) := by
  rw [foldTold, h, andThen_ok]

/-- Every message comes from a row, read in a state that the rows before led to. -/
theorem mem_foldTold {S R : Type} {f : S → R → XTold S} {I : S → Prop} {m : XReport} : ∀ (rows : List R) (s : S),
    (∀ s s', ∀ r ∈ rows, I s → (f s r).2 = .ok s' → I s') → I s → m ∈ (foldTold f rows s).1 →
    ∃ s, I s ∧ ∃ r ∈ rows, m ∈ (f s r).1
  | [], _, _, _, h => absurd h (by simp [foldTold])
  | r :: rows, s, hk, hi, h => by
    rw [foldTold] at h
    rcases mem_andThen h with h | ⟨a, ha, h⟩
    · exact ⟨s, hi, r, by simp, h⟩
    · obtain ⟨t, ht, q, hq, hm⟩ := mem_foldTold rows a (fun s s' r hr => hk s s' r (by simp [hr])) (hk s a r (by simp) hi ha) h
      exact ⟨t, ht, q, by simp [hq], hm⟩

/-! ## The databases are those read without looking at the messages -/

theorem verifySheetTold_snd (wb : Workbook) (p : Str × List Str) : (verifySheetTold wb p).2 = verifySheet wb p := by
  unfold verifySheetTold verifySheet
  cases wb.get? p.1 with
  | none => rfl
  | some s => cases s <;> rfl

theorem verifyFormatTold_snd (wb : Workbook) : (verifyFormatTold wb).2 = verifyFormat wb := by
  unfold verifyFormatTold verifyFormat
  rw [foldTold_snd]
  congr 1
  funext valid p
  rw [andThen_snd, verifySheetTold_snd]

theorem readSheetTold_snd (wb : Workbook) (name : Str) (told : List XCell → Dict Database → List XCell → List XReport)
    (f : List XCell → Dict Database → List XCell → Except PyErr (Dict Database)) (dbs : Dict Database) :
    (readSheetTold wb name told f dbs).2 = readSheet wb name f dbs := by
  unfold readSheetTold readSheet
  cases wb.get? name with
  | none => rfl
  | some s =>
    cases s with
    | nil => rfl
    | cons h rows => simp only; rw [foldTold_snd]

theorem readDatabasesTold_snd (wb : Workbook) : (readDatabasesTold wb).2 = readDatabases wb := by
  unfold readDatabasesTold readDatabases
  simp only [andThen_snd, readSheetTold_snd]

theorem readXlsTold_snd (wb : Workbook) : (readXlsTold wb).2 = readXls wb := by
  unfold readXlsTold readXls
  rw [andThen_snd, verifyFormatTold_snd]
  congr 1
  funext ok
  cases ok
  · rfl
  · exact readDatabasesTold_snd wb

/-! ## Missing sheets and headers -/

theorem verifySheetTold_fst {wb : Workbook} {p : Str × List Str} (hh : wb.get? p.1 ≠ some []) :
    ∃ b, verifySheetTold wb p = ((match wb.get? p.1 with
      | none => [.noSheet p.1]
      | some s => (p.2.filter (fun c => !(s.headD []).contains (XCell.text c))).map (fun c => .noColumn c p.1)), .ok b) := by
  unfold verifySheetTold
  cases hg : wb.get? p.1 with
  | none => exact ⟨_, rfl⟩
  | some s =>
    cases s with
    | nil => exact absurd hg hh
    | cons h rows =>
      exact ⟨_, rfl⟩

theorem verifyFold_told {wb : Workbook} : ∀ (l : List (Str × List Str)) (v : Bool), (∀ p ∈ l, wb.get? p.1 ≠ some []) →
    (foldTold (fun valid p => (verifySheetTold wb p).andThen (fun ok => (([] : List XReport), Except.ok (valid && ok)))) l v).1 =
    l.flatMap (fun p => match wb.get? p.1 with
      | none => [XReport.noSheet p.1]
      | some s => (p.2.filter (fun c => !(s.headD []).contains (XCell.text c))).map (fun c => XReport.noColumn c p.1))
  | [], _, _ => rfl
  | p :: l, v, h => by
    obtain ⟨b, hb⟩ := verifySheetTold_fst (h p (by simp))
    rw [foldTold_cons (s1 := v && b) l (by rw [hb, andThen_ok]), List.flatMap_cons, ← verifyFold_told l (v && b) (fun q hq => h q (by simp [hq]))]
    simp only [List.append_nil]

theorem verifyFormatTold_fst {wb : Workbook} (hh : Headed wb) : (verifyFormatTold wb).1 = missing wb := by
  have := verifyFold_told required true (wb := wb) (by rw [required_eq]; exact hh)
  unfold verifyFormatTold
  rw [this, missing, required_eq]
  rfl

theorem missing_nil_iff {wb : Workbook} (hh : Headed wb) : missing wb = [] ↔ Shaped wb := by
  unfold missing Shaped
  rw [List.flatMap_eq_nil_iff]
  refine forall_congr' (fun p => forall_congr' (fun hp => ?_))
  unfold SheetIs
  have hne := hh p hp
  cases hg : wb.get? p.1 with
  | none => simp
  | some s =>
    cases s with
    | nil => exact absurd hg hne
    | cons h rows =>
      simp only [List.headD_cons, List.map_eq_nil_iff, List.filter_eq_nil_iff, Bool.not_eq_true', List.contains_eq_mem, decide_eq_false_iff_not, not_not, Option.some.injEq, List.cons.injEq]
      constructor
      · intro hc; exact ⟨h, rows, ⟨rfl, rfl⟩, hc⟩
      · rintro ⟨_, _, ⟨rfl, rfl⟩, hc⟩; exact hc

theorem missing_justified {wb : Workbook} {m : XReport} (h : m ∈ missing wb) (hh : Headed wb) : Justified wb m := by
  unfold missing at h
  rw [List.mem_flatMap] at h
  obtain ⟨p, hp, hm⟩ := h
  have hne := hh p hp
  cases hg : wb.get? p.1 with
  | none =>
    rw [hg] at hm
    simp only [List.mem_singleton] at hm
    subst hm
    exact .noSheet (List.mem_map_of_mem hp) hg
  | some s =>
    cases s with
    | nil => exact absurd hg hne
    | cons h rows =>
      rw [hg] at hm
      simp only [List.headD_cons, List.mem_map, List.mem_filter, Bool.not_eq_true', List.contains_eq_mem, decide_eq_false_iff_not] at hm
      obtain ⟨c, ⟨hc, hno⟩, rfl⟩ := hm
      exact .noColumn (cols := p.2) hp hc hg hno

theorem verifySheetTold_justified {wb : Workbook} {p : Str × List Str} (hp : p ∈ needed) {m : XReport} (h : m ∈ (verifySheetTold wb p).1) :
    Justified wb m := by
  unfold verifySheetTold at h
  cases hg : wb.get? p.1 with
  | none =>
    rw [hg] at h
    simp only [List.mem_singleton] at h
    subst h
    exact .noSheet (List.mem_map_of_mem hp) hg
  | some s =>
    cases s with
    | nil => rw [hg] at h; exact absurd h (by simp)
    | cons hd rows =>
      rw [hg] at h
      simp only [List.mem_map, List.mem_filter, Bool.not_eq_true', List.contains_eq_mem, decide_eq_false_iff_not] at h
      obtain ⟨c, ⟨hc, hno⟩, rfl⟩ := h
      exact .noColumn (cols := p.2) hp hc hg hno

theorem verifyFormatTold_justified {wb : Workbook} {m : XReport} (h : m ∈ (verifyFormatTold wb).1) : Justified wb m := by
  unfold verifyFormatTold at h
  obtain ⟨s, _, p, hp, hm⟩ := mem_foldTold (I := fun _ => True) required true (by simp) trivial h
  rw [required_eq] at hp
  rcases mem_andThen hm with hm | ⟨a, _, hm⟩
  · exact verifySheetTold_justified hp hm
  · exact absurd hm (by simp)

/-! ## The rows of "Tables" -/

theorem shardReports_cases {h row : List XCell} : shardReports h row = [] ∨
    ∃ s v n, ¬ Under h row c!"Database" (.text []) ∧ Under h row c!"Shard Key" (.text s) ∧ Under h row c!"# Shards" v ∧
      ¬ (strip s = [] ↔ v = .text []) ∧ Under h row c!"Table" n ∧ shardReports h row = [.shardHalf n] := by
  by_cases he : shardReports h row = []
  · exact .inl he
  · refine .inr ?_
    unfold shardReports at he ⊢
    simp only at he ⊢
    split at he
    · rename_i l hl
      simp only [bind_ok_iff, cell_ok_iff] at hl
      obtain ⟨d, hd, hl⟩ := hl
      split at hl
      · cases hl; exact absurd rfl he
      · rename_i hnb
        simp only [bind_ok_iff, cell_ok_iff, str_ok_iff] at hl
        obtain ⟨_, _, _, _, _, u2, sk, rfl, n, u3, t, u4, hl⟩ := hl
        split at hl
        · rename_i hc
          cases hl
          refine ⟨sk, n, t, fun hb => hnb (under_unique hd hb), u2, u3, fun hiff => ?_, u4, rfl⟩
          tauto
        · cases hl; exact absurd rfl he
    · exact absurd rfl he

theorem shardReports_blank {h row : List XCell} (hb : Under h row c!"Database" (.text [])) : shardReports h row = [] := by
  unfold shardReports
  rw [(cell_ok_iff _ _ _ _).2 hb]
  rfl

theorem shardReports_table {h row : List XCell} {d : Str} {t : Table} (hne : d ≠ []) (hd : Under h row c!"Database" (.text d))
    (ht : rowTable h row = .ok t) : ∃ s v, Under h row c!"Shard Key" (.text s) ∧ Under h row c!"# Shards" v ∧
      shardReports h row = if (strip s = [] ↔ v = .text []) then [] else [.shardHalf (.text t.name)] := by
  have hn := (rowTable_ok ht).name
  unfold rowTable at ht
  simp only [bind_ok_iff, str_ok_iff] at ht
  obtain ⟨_, p1, pk, rfl, _, p2, sk, rfl, n, p3, _⟩ := ht
  refine ⟨sk, n, (cell_ok_iff _ _ _ _).1 p2, (cell_ok_iff _ _ _ _).1 p3, ?_⟩
  unfold shardReports
  rw [(cell_ok_iff _ _ _ _).2 hd, p1, p2, p3, (cell_ok_iff _ _ _ _).2 hn]
  have hb : ¬ (XCell.text d = XCell.text []) := by simpa using hne
  simp only [bind, Except.bind, XCell.str, if_neg hb]
  by_cases h1 : strip sk = [] <;> by_cases h2 : n = XCell.text [] <;> simp [h1, h2]

theorem tables_told {h : List XCell} : ∀ (rows : List (List XCell)) (s s' : Dict Database), rows.foldlM (readTableRow h) s = .ok s' →
    ShardComplaints h rows (foldTold (fun s row => (shardReports h row, readTableRow h s row)) rows s).1
  | [], _, _, _ => .nil
  | row :: rows, s, s', hr => by
    rw [List.foldlM_cons, bind_ok_iff] at hr
    obtain ⟨s1, h1, h2⟩ := hr
    have ih := tables_told rows s1 s' h2
    rw [foldTold_cons (s1 := s1) (ms := shardReports h row) rows (by rw [h1])]
    simp only
    rcases readTableRow_cases h1 with ⟨hb, _⟩ | ⟨d, t, hd, hu, hrow, _⟩
    · rw [shardReports_blank hb]
      exact .blank hb ih
    · obtain ⟨k, v, u1, u2, e⟩ := shardReports_table hd hu hrow
      rw [e]
      by_cases hc : strip k = [] ↔ v = .text []
      · rw [if_pos hc]
        exact .fine u1 u2 hc ih
      · rw [if_neg hc]
        exact .half (fun hb => hd (XCell.text.inj (under_unique hu hb))) u1 u2 hc (rowTable_ok hrow).name ih

/-! ## The rows of the other sheets -/

/-- The databases know what the sheet "Tables" names. -/
structure Knows (wb : Workbook) (s : Dict Database) : Prop where
  ok : DbsOk s
  dbs : ∀ d, d ∈ s.keys ↔ ∃ n, Known wb d n
  tables : ∀ d n, n ∈ tablesIn s d ↔ Known wb d n

theorem rowReports_cases {wb : Workbook} {s : Dict Database} (K : Knows wb s) {h row : List XCell} {sheet col : Str} {d n : XCell}
    (hd : Under h row c!"Database" d) (hn : Under h row col n) :
    (∃ x m, d = .text x ∧ n = .text m ∧ Known wb x m ∧ rowReports sheet col h s row = []) ∨
    (NoDatabase wb d ∧ rowReports sheet col h s row = [.noDatabase sheet d]) ∨
    (∃ x m, d = .text x ∧ Known wb x m ∧ NoTable wb x n ∧ rowReports sheet col h s row = [.noTable sheet n]) := by
  unfold rowReports
  rw [(cell_ok_iff _ _ _ _).2 hd]
  cases d with
  | num q => exact .inr (.inl ⟨fun s hs => absurd hs (by simp), rfl⟩)
  | text x =>
    simp only
    cases hg : s.get? x with
    | none =>
      refine .inr (.inl ⟨fun y hy n hk => ?_, rfl⟩)
      cases hy
      have := (Dict.get?_isSome_iff s x).2 ((K.dbs x).2 ⟨n, hk⟩)
      rw [hg] at this
      exact absurd this (by simp)
    | some db =>
      obtain ⟨m, hm⟩ := (K.dbs x).1 ((Dict.get?_isSome_iff s x).1 (by simp [hg]))
      simp only
      rw [(cell_ok_iff _ _ _ _).2 hn]
      have ht : ∀ y, y ∈ db.tables.keys ↔ Known wb x y := by
        intro y
        rw [← K.tables x y]
        simp [tablesIn, hg]
      cases n with
      | num q => exact .inr (.inr ⟨x, m, rfl, hm, fun y hy => absurd hy (by simp), rfl⟩)
      | text y =>
        simp only
        cases hy : db.getTable y with
        | none =>
          refine .inr (.inr ⟨x, m, rfl, hm, fun z hz hk => ?_, rfl⟩)
          cases hz
          have := (Dict.get?_isSome_iff db.tables y).2 ((ht y).2 hk)
          rw [Database.getTable] at hy
          rw [hy] at this
          exact absurd this (by simp)
        | some t =>
          exact .inl ⟨x, y, rfl, rfl, (ht y).1 ((Dict.get?_isSome_iff db.tables y).1 (by rw [Database.getTable] at hy; simp [hy])), rfl⟩

theorem Knows.step {wb : Workbook} {h : List XCell} {col : Str} {strict : Bool} {P : List XCell → Table → Table → Prop}
    {step : Dict Database → List XCell → Except PyErr (Dict Database)} (hstep : IsRowStep h col strict P step)
    (hP : ∀ row t t', P row t t' → Grows t t') {s s' : Dict Database} {row : List XCell} (K : Knows wb s) (hr : step s row = .ok s') : Knows wb s' := by
  obtain ⟨h1, h2, h3⟩ := rowStep_dbsOk hstep hP K.ok hr
  exact ⟨h1, fun d => by rw [h2]; exact K.dbs d, fun d n => by rw [h3]; exact K.tables d n⟩

theorem rows_told {wb : Workbook} {h : List XCell} {sheet : Str} {strict : Bool} {P : List XCell → Table → Table → Prop}
    {step : Dict Database → List XCell → Except PyErr (Dict Database)} (hstep : IsRowStep h (tableHeader sheet) strict P step)
    (hP : ∀ row t t', P row t t' → Grows t t') :
    ∀ (rows : List (List XCell)) (s s' : Dict Database), Knows wb s → rows.foldlM step s = .ok s' → Knows wb s' ∧
      Complaints wb sheet h rows (foldTold (fun s row => (rowReports sheet (tableHeader sheet) h s row, step s row)) rows s).1
  | [], _, _, K, hr => by cases hr; exact ⟨K, .nil⟩
  | row :: rows, s, s', K, hr => by
    rw [List.foldlM_cons, bind_ok_iff] at hr
    obtain ⟨s1, h1, h2⟩ := hr
    obtain ⟨K', ih⟩ := rows_told hstep hP rows s1 s' (K.step hstep hP h1) h2
    refine ⟨K', ?_⟩
    rw [foldTold_cons (s1 := s1) (ms := rowReports sheet (tableHeader sheet) h s row) rows (by rw [h1])]
    simp only
    obtain ⟨d, n, _, u1, u2, _⟩ := hstep row
    rcases rowReports_cases (sheet := sheet) K u1 u2 with ⟨x, m, rfl, rfl, hk, e⟩ | ⟨hno, e⟩ | ⟨x, m, rfl, hk, hno, e⟩
    · rw [e]; exact .fine ⟨u1, u2⟩ hk ih
    · rw [e]; exact .database u1 hno ih
    · rw [e]; exact .table u1 hk u2 hno ih

/-! ## The whole run -/

theorem readXlsTold_shaped {wb : Workbook} (hs : Shaped wb) : readXlsTold wb = readDatabasesTold wb := by
  have h1 := verifyFormatTold_fst hs.headed
  rw [(missing_nil_iff hs.headed).2 hs] at h1
  have h2 := verifyFormatTold_snd wb
  obtain ⟨r, h3, h4⟩ := verifyFormat_spec hs.headed
  rw [h3, h4.2 hs] at h2
  have : verifyFormatTold wb = ([], .ok true) := Prod.ext h1 h2
  rw [readXlsTold, this]
  rfl

theorem readSheetTold_is {wb : Workbook} {name : Str} {h : List XCell} {rows : List (List XCell)} (hs : SheetIs wb name h rows)
    (told : List XCell → Dict Database → List XCell → List XReport) (f : List XCell → Dict Database → List XCell → Except PyErr (Dict Database))
    (dbs : Dict Database) : readSheetTold wb name told f dbs = foldTold (fun s row => (told h s row, f h s row)) rows dbs := by
  rw [SheetIs] at hs
  rw [readSheetTold, hs]

theorem andThen_run {α β : Type} {x : XTold α} {a : α} (h : x.2 = .ok a) (f : α → XTold β) : (x.andThen f).1 = x.1 ++ (f a).1 := by
  obtain ⟨ms, r⟩ := x
  simp only at h
  subst h
  rfl

theorem knows_tables {wb : Workbook} {h : List XCell} {rows : List (List XCell)} (hs : SheetIs wb c!"Tables" h rows) {s : Dict Database}
    (hr : rows.foldlM (readTableRow h) [] = .ok s) : Knows wb s := by
  obtain ⟨n1, n2⟩ := tables_named hs hr
  exact ⟨tables_dbsOk hr, n1, n2⟩

theorem Sheets.told {wb : Workbook} {hT : List XCell} {rT : List (List XCell)} {hC : List XCell} {rC : List (List XCell)}
    {hF : List XCell} {rF : List (List XCell)} {hR : List XCell} {rR : List (List XCell)} (S : Sheets wb hT rT hC rC hF rF hR rR)
    (hs : Shaped wb) {dbs : Dict Database} (hr : readXls wb = .ok dbs) :
    ∃ ms cs fs rs, ShardComplaints hT rT ms ∧ Complaints wb c!"Columns" hC rC cs ∧ Complaints wb c!"Foreign Keys" hF rF fs ∧
      Complaints wb c!"Relationships" hR rR rs ∧ (readXlsTold wb).1 = ms ++ (cs ++ (fs ++ rs)) := by
  obtain ⟨a, b, c, h1, h2, h3, h4⟩ := S.steps.1 hr
  obtain ⟨K1, c1⟩ := rows_told (wb := wb) (sheet := c!"Columns") S.cStep (fun _ _ _ x => x.grows) rC a b (knows_tables S.tables h1) h2
  obtain ⟨K2, c2⟩ := rows_told (wb := wb) (sheet := c!"Foreign Keys") S.fStep (fun _ _ _ x => x.grows) rF b c K1 h3
  obtain ⟨K3, c3⟩ := rows_told (wb := wb) (sheet := c!"Relationships") S.rStep (fun _ _ _ x => x.grows) rR c dbs K2 h4
  refine ⟨_, _, _, _, tables_told rT [] a h1, c1, c2, c3, ?_⟩
  rw [readXlsTold_shaped hs, readDatabasesTold, andThen_run (a := a) (by rw [readSheetTold_is S.tables, foldTold_snd]; exact h1),
    andThen_run (a := b) (by rw [readSheetTold_is S.columns, foldTold_snd]; exact h2),
    andThen_run (a := c) (by rw [readSheetTold_is S.fks, foldTold_snd]; exact h3)]
  rw [readSheetTold_is S.tables, readSheetTold_is S.columns, readSheetTold_is S.fks, readSheetTold_is S.rels]
  rfl

/-- What a row of another sheet is told for is true. -/
theorem rows_justified {wb : Workbook} {h : List XCell} {sheet : Str} {strict : Bool} {P : List XCell → Table → Table → Prop}
    {step : Dict Database → List XCell → Except PyErr (Dict Database)} (hstep : IsRowStep h (tableHeader sheet) strict P step)
    (hP : ∀ row t t', P row t t' → Grows t t') {rows : List (List XCell)} (hs : SheetIs wb sheet h rows)
    (hm : sheet ∈ [c!"Columns", c!"Foreign Keys", c!"Relationships"]) {s : Dict Database} (K : Knows wb s) {m : XReport}
    (h : m ∈ (foldTold (fun s row => (rowReports sheet (tableHeader sheet) h s row, step s row)) rows s).1) : Justified wb m := by
  obtain ⟨s', K', row, hrow, hmem⟩ := mem_foldTold (I := Knows wb) rows s (fun a b r _ Ka hab => Ka.step hstep hP hab) K h
  simp only at hmem
  obtain ⟨d, n, _, u1, u2, _⟩ := hstep row
  rcases rowReports_cases (sheet := sheet) K' u1 u2 with ⟨x, y, rfl, rfl, hk, e⟩ | ⟨hno, e⟩ | ⟨x, y, rfl, hk, hno, e⟩
  · rw [e] at hmem; exact absurd hmem (by simp)
  · rw [e, List.mem_singleton] at hmem
    subst hmem
    exact .noDatabase hm hs hrow u1 hno
  · rw [e, List.mem_singleton] at hmem
    subst hmem
    exact .noTable hm hs hrow u1 hk u2 hno

theorem rows_knows {wb : Workbook} {h : List XCell} {col : Str} {strict : Bool} {P : List XCell → Table → Table → Prop}
    {step : Dict Database → List XCell → Except PyErr (Dict Database)} (hstep : IsRowStep h col strict P step)
    (hP : ∀ row t t', P row t t' → Grows t t') {rows : List (List XCell)} {s s' : Dict Database} (K : Knows wb s)
    (hr : rows.foldlM step s = .ok s') : Knows wb s' :=
  foldlM_keeps (I := Knows wb) rows s s' (fun _ _ _ _ Ka hab => Ka.step hstep hP hab) hr K

/-- A workbook whose sheets were looked at has a header in each of them. -/
theorem headed_of_verify {wb : Workbook} {r : Bool} (h : verifyFormat wb = .ok r) : Headed wb := by
  intro p hp e
  unfold verifyFormat at h
  rw [← required_eq] at hp
  have key : ∀ (l : List (Str × List Str)) (v w : Bool), p ∈ l → ¬ l.foldlM (fun valid p => do
      let ok ← verifySheet wb p
      Except.ok (valid && ok)) v = Except.ok w := by
    intro l
    induction l with
    | nil => intro _ _ hm; exact absurd hm (by simp)
    | cons q l ih =>
      intro v w hm hl
      rw [List.foldlM_cons, bind_ok_iff] at hl
      obtain ⟨b, hb, hl⟩ := hl
      rcases List.mem_cons.1 hm with rfl | hm
      · rw [bind_ok_iff] at hb
        obtain ⟨c, hc, _⟩ := hb
        rw [verifySheet, e] at hc
        cases hc
      · exact ih b w hm hl
  exact key required true r hp h

theorem told_justified {wb : Workbook} {m : XReport} (h : m ∈ (readXlsTold wb).1) : Justified wb m := by
  unfold readXlsTold at h
  rcases mem_andThen h with h | ⟨ok, hok, h⟩
  · exact verifyFormatTold_justified h
  · cases ok with
    | false => exact absurd h (by simp)
    | true =>
      have hs : Shaped wb := by
        rw [verifyFormatTold_snd] at hok
        have hh : Headed wb := headed_of_verify hok
        obtain ⟨r, h1, h2⟩ := verifyFormat_spec hh
        rw [h1] at hok
        cases hok
        exact h2.1 rfl
      obtain ⟨hT, rT, hC, rC, hF, rF, hR, rR, S⟩ := shaped_sheets hs
      simp only [if_true] at h
      unfold readDatabasesTold at h
      rw [readSheetTold_is S.tables] at h
      rcases mem_andThen h with h | ⟨a, ha, h⟩
      · obtain ⟨_, _, row, hrow, hm⟩ := mem_foldTold (I := fun _ => True) rT [] (by simp) trivial h
        simp only at hm
        rcases shardReports_cases (h := hT) (row := row) with e | ⟨s, v, n, g1, g2, g3, g4, g5, e⟩
        · rw [e] at hm; exact absurd hm (by simp)
        · rw [e, List.mem_singleton] at hm
          subst hm
          exact .shardHalf S.tables hrow g1 g2 g3 g4 g5
      rw [foldTold_snd] at ha
      have K1 := knows_tables S.tables ha
      rw [readSheetTold_is S.columns] at h
      rcases mem_andThen h with h | ⟨b, hb, h⟩
      · exact rows_justified (sheet := c!"Columns") S.cStep (fun _ _ _ x => x.grows) S.columns (by simp) K1 h
      rw [foldTold_snd] at hb
      have K2 := rows_knows S.cStep (fun _ _ _ x => x.grows) K1 hb
      rw [readSheetTold_is S.fks] at h
      rcases mem_andThen h with h | ⟨c, hc, h⟩
      · exact rows_justified (sheet := c!"Foreign Keys") S.fStep (fun _ _ _ x => x.grows) S.fks (by simp) K2 h
      rw [foldTold_snd] at hc
      have K3 := rows_knows S.fStep (fun _ _ _ x => x.grows) K2 hc
      rw [readSheetTold_is S.rels] at h
      exact rows_justified (sheet := c!"Relationships") S.rStep (fun _ _ _ x => x.grows) S.rels (by simp) K3 h

end Verif
