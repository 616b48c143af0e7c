import Verif.Props.Excel
import Verif.Lemmas.ExcelReports
/-
C81: the workbook reader reports what it skips, and nothing else.
-/

namespace Verif.Props
open Verif Spec

/-! ## C81 -/

/-- C81: without one of the sheets or headers the messages are exactly the missing ones, at least one, and nothing is read. -/
theorem C81_missing {wb : Workbook} (hh : Headed wb) (h : ¬ Shaped wb) : readXlsTold wb = (missing wb, .ok []) ∧ missing wb ≠ [] := by
  have hne : missing wb ≠ [] := fun e => h ((missing_nil_iff hh).1 e)
  refine ⟨?_, hne⟩
  have h2 : (readXlsTold wb).2 = .ok [] := by rw [readXlsTold_snd]; exact readXls_misshaped hh h
  refine Prod.ext ?_ h2
  obtain ⟨r, h3, h4⟩ := verifyFormat_spec hh
  have hr : r = false := by
    cases r with
    | false => rfl
    | true => exact absurd (h4.1 rfl) h
  subst hr
  have : verifyFormatTold wb = (missing wb, .ok false) := Prod.ext (verifyFormatTold_fst hh) (by rw [verifyFormatTold_snd]; exact h3)
  rw [readXlsTold, this]
  simp [andThen_ok]

/-- The sample without the sheet "Columns" and with a header misspelt. -/
def misspeltBook : Workbook :=
  sampleBook.tail.dropLast ++ [(c!"Relationships", [txt [c!"Name", c!"Database", c!"Schema", c!"FromTable", c!"To Table", c!"Condition"]])]

example : Headed misspeltBook ∧ ¬ Shaped misspeltBook := ⟨by unfold Headed; decide, by decide +kernel⟩
example : (readXlsTold misspeltBook).1.map (XReport.line (fun _ => [])) = [c!"Error:  missing sheet Columns!",
    c!"Error:  missing column From Table in sheet Relationships!", c!"Error:  missing column Conditions in sheet Relationships!"] := by decide +kernel

/-- C81: if the workbook has the sheets and headers and is read to the end, the messages are exactly the complaints about its rows: first those about
"Tables", then those about "Columns", "Foreign Keys" and "Relationships", each in the order of the rows; the databases are those read. -/
theorem C81_exact {wb : Workbook} {dbs : Dict Database} (hs : Shaped wb) (hr : (readXlsTold wb).2 = .ok dbs)
    {hT : List XCell} {rT : List (List XCell)} {hC : List XCell} {rC : List (List XCell)} {hF : List XCell} {rF : List (List XCell)}
    {hR : List XCell} {rR : List (List XCell)} (sT : SheetIs wb c!"Tables" hT rT) (sC : SheetIs wb c!"Columns" hC rC)
    (sF : SheetIs wb c!"Foreign Keys" hF rF) (sR : SheetIs wb c!"Relationships" hR rR) :
    ∃ ms cs fs rs, ShardComplaints hT rT ms ∧ Complaints wb c!"Columns" hC rC cs ∧ Complaints wb c!"Foreign Keys" hF rF fs ∧
      Complaints wb c!"Relationships" hR rR rs ∧ (readXlsTold wb).1 = ms ++ (cs ++ (fs ++ rs)) := by
  rw [readXlsTold_snd] at hr
  exact (sheets_of hs sT sC sF sR).told hs hr

/-- C81: the complaints about the rows of "Tables" are determined by the rows. -/
theorem C81_shards_unique {h : List XCell} {rows : List (List XCell)} {ms ms' : List XReport} (h1 : ShardComplaints h rows ms)
    (h2 : ShardComplaints h rows ms') : ms = ms' := by
  induction h1 generalizing ms' with
  | nil => cases h2; rfl
  | blank hb _ ih =>
    cases h2 with
    | blank _ h2 => exact ih h2
    | fine _ _ _ h2 => exact ih h2
    | half hn _ _ _ _ _ => exact absurd hb hn
  | fine u1 u2 hc _ ih =>
    cases h2 with
    | blank _ h2 => exact ih h2
    | fine _ _ _ h2 => exact ih h2
    | half _ v1 v2 hn _ _ =>
      cases under_unique u1 v1
      cases under_unique u2 v2
      exact absurd hc hn
  | half hn u1 u2 hc u3 _ ih =>
    cases h2 with
    | blank hb _ => exact absurd hb hn
    | fine v1 v2 hc' _ =>
      cases under_unique u1 v1
      cases under_unique u2 v2
      exact absurd hc' hc
    | half _ _ _ _ v3 h2 =>
      cases under_unique u3 v3
      rw [ih h2]

/-- C81: the complaints about the rows of another sheet are determined by the workbook. -/
theorem C81_rows_unique {wb : Workbook} {sheet : Str} {h : List XCell} {rows : List (List XCell)} {ms ms' : List XReport}
    (h1 : Complaints wb sheet h rows ms) (h2 : Complaints wb sheet h rows ms') : ms = ms' := by
  induction h1 generalizing ms' with
  | nil => cases h2; rfl
  | fine u hk _ ih =>
    cases h2 with
    | fine _ _ h2 => exact ih h2
    | database v hn _ => cases under_unique u.1 v; exact absurd hk (hn _ rfl _)
    | table v _ v' hn _ => cases under_unique u.1 v; cases under_unique u.2 v'; exact absurd hk (hn _ rfl)
  | database u hn _ ih =>
    cases h2 with
    | fine v hk _ => cases under_unique u v.1; exact absurd hk (hn _ rfl _)
    | database v _ h2 => cases under_unique u v; rw [ih h2]
    | table v hk _ _ _ => cases under_unique u v; exact absurd hk (hn _ rfl _)
  | table u hk u' hn _ ih =>
    cases h2 with
    | fine v hk' _ => cases under_unique u v.1; cases under_unique u' v.2; exact absurd hk' (hn _ rfl)
    | database v hn' _ => cases under_unique u v; exact absurd hk (hn' _ rfl _)
    | table v _ v' _ h2 => cases under_unique u' v'; rw [ih h2]

example : (readXlsTold sampleBook).1.map (XReport.line (fun _ => [])) = [
    c!"ERROR:  b need to provide both a shard key name and number of shards.",
    c!"ERROR:  Table zz from the Columns tab is not known.",
    c!"ERROR:  Database zz from the Foreign Keys tab is not known.",
    c!"ERROR:  Database zz from the Relationships tab is not known."] := by decide +kernel
example : Shaped sampleBook ∧ (readXlsTold sampleBook).2 ≠ .error .attribute := by decide +kernel

/-- C81: no message is a false alarm, whatever the workbook and even if reading it fails in the end. -/
theorem C81_true {wb : Workbook} {m : XReport} (h : m ∈ (readXlsTold wb).1) : Justified wb m := told_justified h

example : (readXlsTold danglingBook).1.getLast? = some (.noTable c!"Relationships" (.text c!"zz")) ∧ (readXlsTold danglingBook).2 = .error .attribute := by
  decide +kernel

/-- A complaint-free sheet names only known tables. -/
theorem complaints_nil {wb : Workbook} {sheet : Str} {h : List XCell} {rows : List (List XCell)} {ms : List XReport}
    (hc : Complaints wb sheet h rows ms) (he : ms = []) : ∀ row ∈ rows, ∃ d n, Names h row sheet d n ∧ Known wb d n := by
  induction hc with
  | nil => simp
  | fine u hk _ ih =>
    intro row hr
    rcases List.mem_cons.1 hr with rfl | hr
    · exact ⟨_, _, u, hk⟩
    · exact ih he row hr
  | database _ _ _ _ => cases he
  | table _ _ _ _ _ _ => cases he

theorem filled_mem {α : Type} {name : α → Str} {l : List α} {d : Dict α} (h : Filled name l d) {a : α} (ha : a ∈ l) : name a ∈ d.keys := by
  rw [h.1, mem_firstUses]
  exact List.mem_map_of_mem ha

theorem forall₂_left {α β : Type} {R : α → β → Prop} {l : List α} {m : List β} (h : List.Forall₂ R l m) {a : α} (ha : a ∈ l) : ∃ b ∈ m, R a b := by
  induction h with
  | nil => exact absurd ha (by simp)
  | @cons x y l m hxy _ ih =>
    rcases List.mem_cons.1 ha with rfl | ha
    · exact ⟨y, by simp, hxy⟩
    · obtain ⟨b, hb, hr⟩ := ih ha
      exact ⟨b, by simp [hb], hr⟩

/-- A known table is read. -/
theorem known_read {wb : Workbook} {dbs : Dict Database} (hs : Shaped wb) (hr : readXls wb = .ok dbs) {d n : Str} (hk : Known wb d n) :
    ∃ db t, dbs.get? d = some db ∧ db.getTable n = some t := by
  have h1 := C40_shaped hs hr d
  have hd := (Dict.get?_isSome_iff dbs d).2 (h1.1.2 ⟨n, hk⟩)
  obtain ⟨db, hdb⟩ := Option.isSome_iff_exists.1 hd
  obtain ⟨t, ht⟩ := Option.isSome_iff_exists.1 ((Dict.get?_isSome_iff db.tables n).2 ((h1.2 db hdb n).2 hk))
  exact ⟨db, t, hdb, ht⟩

/-- C81: if the reader is silent about "Columns", "Foreign Keys" and "Relationships", none of their rows is lost: each names a table that was read, and that
table has a column, foreign key or relationship of that name.  Partial: rows of "Tables" can be lost in silence, see below. -/
theorem C81_silent_partial {wb : Workbook} {dbs : Dict Database} (hs : Shaped wb) (hr : (readXlsTold wb).2 = .ok dbs)
    (hq : ∀ m ∈ (readXlsTold wb).1, ∃ t, m = .shardHalf t)
    {hC : List XCell} {rC : List (List XCell)} {hF : List XCell} {rF : List (List XCell)}
    {hR : List XCell} {rR : List (List XCell)} (sC : SheetIs wb c!"Columns" hC rC)
    (sF : SheetIs wb c!"Foreign Keys" hF rF) (sR : SheetIs wb c!"Relationships" hR rR) :
    (∀ row ∈ rC, ∃ d n db t c, Names hC row c!"Columns" d n ∧ dbs.get? d = some db ∧ db.getTable n = some t ∧ ColumnFrom hC row c ∧
      c.name ∈ t.cols.keys) ∧
    (∀ row ∈ rF, ∃ d n db t k, Names hF row c!"Foreign Keys" d n ∧ dbs.get? d = some db ∧ db.getTable n = some t ∧ FKFrom n hF row k ∧
      k.name ∈ t.fks.keys) ∧
    ∀ row ∈ rR, ∃ d n db t r, Names hR row c!"Relationships" d n ∧ dbs.get? d = some db ∧ db.getTable n = some t ∧ RelFrom n hR row r ∧
      r.name ∈ t.rels.keys := by
  obtain ⟨hT, rT, _, _, _, _, _, _, S⟩ := shaped_sheets hs
  have sT := S.tables
  obtain ⟨ms, cs, fs, rs, c1, c2, c3, c4, e⟩ := C81_exact hs hr sT sC sF sR
  rw [readXlsTold_snd] at hr
  rw [e] at hq
  have nil : ∀ {sheet h rows l}, Complaints wb sheet h rows l → (∀ m ∈ l, ∃ t, m = .shardHalf t) → l = [] := by
    intro sheet h rows l hc
    induction hc with
    | nil => intro _; rfl
    | fine _ _ _ ih => exact ih
    | database _ _ _ _ => intro hm; obtain ⟨t, ht⟩ := hm _ List.mem_cons_self; cases ht
    | table _ _ _ _ _ _ => intro hm; obtain ⟨t, ht⟩ := hm _ List.mem_cons_self; cases ht
  have k2 := complaints_nil c2 (nil c2 (fun m hm => hq m (by simp [hm])))
  have k3 := complaints_nil c3 (nil c3 (fun m hm => hq m (by simp [hm])))
  have k4 := complaints_nil c4 (nil c4 (fun m hm => hq m (by simp [hm])))
  refine ⟨fun row hrow => ?_, fun row hrow => ?_, fun row hrow => ?_⟩
  · obtain ⟨d, n, hn, hk⟩ := k2 row hrow
    obtain ⟨db, t, hd, ht⟩ := known_read hs hr hk
    obtain ⟨_, ⟨l, hl, hf⟩, _, _⟩ := C42_contents hs hr sT sC sF sR hd ht
    obtain ⟨c, hc, hcr⟩ := forall₂_left hl (a := row) (by simp [hrow, hn])
    exact ⟨d, n, db, t, c, hn, hd, ht, hcr, filled_mem hf hc⟩
  · obtain ⟨d, n, hn, hk⟩ := k3 row hrow
    obtain ⟨db, t, hd, ht⟩ := known_read hs hr hk
    obtain ⟨_, _, ⟨l, hl, hf⟩, _⟩ := C42_contents hs hr sT sC sF sR hd ht
    obtain ⟨c, hc, hcr⟩ := forall₂_left hl (a := row) (by simp [hrow, hn])
    exact ⟨d, n, db, t, c, hn, hd, ht, hcr, filled_mem hf hc⟩
  · obtain ⟨d, n, hn, hk⟩ := k4 row hrow
    obtain ⟨db, t, hd, ht⟩ := known_read hs hr hk
    obtain ⟨_, _, _, ⟨l, hl, hf⟩⟩ := C42_contents hs hr sT sC sF sR hd ht
    obtain ⟨c, hc, hcr⟩ := forall₂_left hl (a := row) (by simp [hrow, hn])
    exact ⟨d, n, db, t, c, hn, hd, ht, hcr, filled_mem hf hc⟩

/-- The sample without the rows that name nothing known. -/
def quietBook : Workbook := restrict (fun s h row => keepKnown s h row && !(decide (Under h row c!"Database" (.text c!"zz")))) sampleBook

example : Shaped quietBook ∧ (readXlsTold quietBook).1 = [.shardHalf (.text c!"b")] ∧ quietBook.map (·.2.length) = [5, 5, 2, 2] := by decide +kernel

/-- The headers of the sheets other than "Tables". -/
def bareSheets : Workbook := (sampleBook.filter (fun p => decide (p.1 ≠ c!"Tables"))).map (fun p => (p.1, p.2.take 1))

/-- C81, violated: a row of "Tables" without a database is skipped without a message, also if it names a table. -/
theorem C81_blank_database : readXlsTold ((c!"Tables", [txt [c!"Database", c!"Schema", c!"Table", c!"Updated", c!"Update Type", c!"# Rows", c!"# Columns",
      c!"Primary Key", c!"Shard Key", c!"# Shards", c!"RLS Column"],
      txt [c!"", c!"s", c!"a", c!"", c!"", c!"", c!"", c!"x", c!"", c!"", c!""]]) :: bareSheets) = ([], .ok []) := by decide +kernel

/-- C81, violated: a shard key with the number 0 is dropped without a message. -/
theorem C81_zero_shards : (readXlsTold ((c!"Tables", [txt [c!"Database", c!"Schema", c!"Table", c!"Updated", c!"Update Type", c!"# Rows", c!"# Columns",
      c!"Primary Key", c!"Shard Key", c!"# Shards", c!"RLS Column"],
      txt [c!"d", c!"s", c!"a", c!"", c!"", c!"", c!"", c!"x", c!"x"] ++ [.num 0, .text []]]) :: bareSheets)).1 = [] ∧
    (readXls ((c!"Tables", [txt [c!"Database", c!"Schema", c!"Table", c!"Updated", c!"Update Type", c!"# Rows", c!"# Columns",
      c!"Primary Key", c!"Shard Key", c!"# Shards", c!"RLS Column"],
      txt [c!"d", c!"s", c!"a", c!"", c!"", c!"", c!"", c!"x", c!"x"] ++ [.num 0, .text []]]) :: bareSheets)).map (fun dbs =>
        dbs.map (fun p => p.2.tables.vals.map (·.shard.isSome))) = .ok [[false]] := by decide +kernel

/-- Two messages that say the same about cells that Python writes the same way. -/
inductive SameMessage (float : Rat → Str) : XReport → XReport → Prop where
  | noSheet (s : Str) : SameMessage float (.noSheet s) (.noSheet s)
  | noColumn (c s : Str) : SameMessage float (.noColumn c s) (.noColumn c s)
  | shardHalf {t t' : XCell} : t.shown float = t'.shown float → SameMessage float (.shardHalf t) (.shardHalf t')
  | noDatabase (s : Str) {d d' : XCell} : d.shown float = d'.shown float → SameMessage float (.noDatabase s d) (.noDatabase s d')
  | noTable (s : Str) {t t' : XCell} : t.shown float = t'.shown float → SameMessage float (.noTable s t) (.noTable s t')

/-- The lines about missing headers all differ. -/
theorem headers_differ : ∀ p ∈ needed, ∀ c ∈ p.2, ∀ q ∈ needed, ∀ c' ∈ q.2,
    c ++ c!" in sheet " ++ p.1 ++ c!"!" = c' ++ c!" in sheet " ++ q.1 ++ c!"!" → c = c' ∧ p.1 = q.1 := by decide +kernel

/-- C81: the lines tell the messages apart: two lines printed for any workbooks are the same only if they say the same, about the same sheet, and the
cells they are about are written the same way. -/
theorem C81_lines_differ (float : Rat → Str) {wb wb' : Workbook} {m m' : XReport} (h : m ∈ (readXlsTold wb).1) (h' : m' ∈ (readXlsTold wb').1)
    (e : m.line float = m'.line float) : SameMessage float m m' := by
  have r := congrArg List.reverse e
  have sheets : ∀ {d d' s s' : Str}, s ∈ [c!"Columns", c!"Foreign Keys", c!"Relationships"] → s' ∈ [c!"Columns", c!"Foreign Keys", c!"Relationships"] →
      d ++ (c!" from the " ++ (s ++ c!" tab is not known.")) = d' ++ (c!" from the " ++ (s' ++ c!" tab is not known.")) → d = d' ∧ s = s' := by
    intro d d' s s' hs hs' e
    have r := congrArg List.reverse e
    simp only [List.mem_cons, List.not_mem_nil, or_false] at hs hs'
    rcases hs with rfl | rfl | rfl <;> rcases hs' with rfl | rfl | rfl <;> simp [List.reverse_append] at r ⊢ <;> exact r
  cases C81_true h with
  | noSheet hs =>
    cases C81_true h' with
    | noSheet => simp [XReport.line] at e; subst e; exact .noSheet _
    | _ => simp [XReport.line] at e
  | noColumn hs hc =>
    cases C81_true h' with
    | noColumn hs' hc' =>
      simp only [XReport.line, List.append_assoc] at e
      have e := List.append_cancel_left e
      obtain ⟨rfl, e2⟩ := headers_differ _ hs _ hc _ hs' _ hc' (by simpa using e)
      dsimp only at e2
      subst e2
      exact .noColumn _ _
    | _ => simp [XReport.line] at e
  | shardHalf =>
    cases C81_true h' with
    | shardHalf => simp [XReport.line] at e; exact .shardHalf e
    | noSheet => simp [XReport.line] at e
    | noColumn => simp [XReport.line] at e
    | noDatabase => simp [XReport.line, List.reverse_append] at r
    | noTable => simp [XReport.line, List.reverse_append] at r
  | noDatabase hs =>
    cases C81_true h' with
    | noDatabase hs' =>
      simp only [XReport.line, List.append_assoc] at e
      obtain ⟨e1, rfl⟩ := sheets hs hs' (List.append_cancel_left e)
      exact .noDatabase _ e1
    | shardHalf => simp [XReport.line, List.reverse_append] at r
    | _ => simp [XReport.line] at e
  | noTable hs =>
    cases C81_true h' with
    | noTable hs' =>
      simp only [XReport.line, List.append_assoc] at e
      obtain ⟨e1, rfl⟩ := sheets hs hs' (List.append_cancel_left e)
      exact .noTable _ e1
    | shardHalf => simp [XReport.line, List.reverse_append] at r
    | _ => simp [XReport.line] at e

/-- Two messages of the sample. -/
example : XReport.noTable c!"Columns" (.text c!"zz") ∈ (readXlsTold sampleBook).1 ∧ XReport.noDatabase c!"Foreign Keys" (.text c!"zz") ∈ (readXlsTold sampleBook).1 := by
  decide +kernel

end Verif.Props
