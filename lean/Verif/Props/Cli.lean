import Verif.Lemmas.Cli
import Verif.Props.Excel
import Verif.Props.Parse
/-
Properties of the command line tools: C59-C61, C64-C70.
-/

namespace Verif.Props
open Verif Verif.Spec

/-! ## Samples -/

/-- A disk with some files. -/
def disk (l : List (Str × Item)) : Disk := fun f => (l.find? (fun p => decide (p.1 = f))).map Prod.snd

/-- A server that answers every command with the same lines; every file can be written. -/
def sayEnv (lines : List Str) : Env := { writable := fun _ => true, answer := fun _ _ => .ok lines, other := fun _ => .num 0 }

/-- A table. -/
def oneLine : Str := c!"CREATE TABLE a (x BIGINT);"

/-- A text the parser fails on. -/
def badLine : Str := c!"CREATE TABLE a (,x INT);"

/-- The text in a file. -/
def textAt (w : World) (f : Str) : Option Str := match w.disk f with
  | some (.file (.text s)) => some s
  | _ => none

/-! ## C59 -/

/-- C59: reading from a server touches no file but the temporary one. -/
theorem C59_other_files (env : Env) (host : Str) (name : Str) (w : World) (g : Str) (hg : g ≠ name ++ c!".tmp") :
    (readFromTs env host (some name) w).1.disk g = w.disk g := readFromTs_only env host (some name) w g hg

/-- C59: if it returns, the temporary file is gone, whether or not it was there before, the server got one command, and the database
is the one read from the answer, whatever else is on the disk. -/
theorem C59_returns {env : Env} {host name : Str} {w w' : World} {db : Option Database}
    (h : readFromTs env host (some name) w = (w', .ok db)) :
    w'.disk (name ++ c!".tmp") = none ∧ w'.sent = w.sent ++ [(host, c!"script database " ++ name ++ c!";")] ∧
      ∃ l, env.answer host (c!"script database " ++ name ++ c!";") = .ok l ∧
        (parseDdl (oneFile c!"answer" (joinS [] (l.map (· ++ ['\n'])))) { databaseName := name } (some c!"answer")).2 = .ok db := by
  unfold readFromTs at h
  simp only [Option.getD_some] at h
  cases ha : env.answer host (c!"script database " ++ name ++ c!";") with
  | error e => rw [ha] at h; simp at h
  | ok l =>
    rw [ha] at h
    cases hw : env.writable (tmpFile name) with
    | false => rw [hw] at h; simp at h
    | true =>
      rw [hw] at h
      simp only [if_true] at h
      cases hp : parseFor (Disk.put w.disk (tmpFile name) (some (.file (.text (answerText l))))).fs (some name) defaultSchema
          (some (tmpFile name)) with
      | error e => rw [hp] at h; simp at h
      | ok db' =>
        rw [hp] at h
        simp only [Prod.mk.injEq, Except.ok.injEq] at h
        obtain ⟨rfl, rfl⟩ := h
        refine ⟨Disk.put_self _ _ _, rfl, l, rfl, ?_⟩
        have ht : joinS [] (l.map (· ++ ['\n'])) = answerText l := by
          unfold answerText
          generalize l.map (· ++ ['\n']) = m
          induction m with
          | nil => rfl
          | cons a m ih => cases m <;> simp_all [joinS]
        rw [ht]
        obtain ⟨c, t, hc⟩ : ∃ c t, tmpFile name = c :: t := List.exists_cons_of_ne_nil (tmpFile_ne name).1
        rw [← hp]
        have e := Disk.fs_put_text w.disk (tmpFile name) (answerText l)
        rw [hc] at e
        unfold parseFor parseDdl
        simp only [hc, e]
        simp [oneFile]

example : (readFromTs (sayEnv [oneLine]) c!"host" (some c!"d") ⟨disk [], []⟩).2.map (fun o => o.map (fun db => db.tables.keys)) =
    .ok (some [c!"a"]) := by decide +kernel

/-- The temporary file stays behind if the answer cannot be parsed, and a file of that name that was there is lost. -/
theorem C59_left_behind :
    (readFromTs (sayEnv [badLine]) c!"host" (some c!"d") ⟨disk [], []⟩).2 = .error .index ∧
    textAt (readFromTs (sayEnv [badLine]) c!"host" (some c!"d") ⟨disk [], []⟩).1 c!"d.tmp" = some (badLine ++ c!"\n") ∧
    textAt (readFromTs (sayEnv [oneLine]) c!"host" (some c!"d") ⟨disk [(c!"d.tmp", .file (.text c!"notes"))], []⟩).1 c!"d.tmp" = none := by
  decide +kernel

/-! ## C60 -/

/-- C60: convert_ddl goes on exactly with the documented arguments. -/
theorem C60_convert (a : ConvertArgs) : validConvert a = true ↔ ConvertDocumented a := by
  have hs : ConvertDocumented a ↔ (a.version = true ∨ a.empty = true ∨ Given a.fromDdl ∨ Given a.fromExcel ∨ Given a.fromTs ∨ Given a.toExcel) ∧
      (Given a.fromDdl ∨ Given a.fromTs → Given a.database) := ⟨fun h => ⟨h.1, h.2⟩, fun h => ⟨h.1, h.2⟩⟩
  rw [hs]
  simp only [← given_iff, validConvert]
  cases a.version <;> cases a.empty <;> cases given a.fromDdl <;> cases given a.fromExcel <;> cases given a.fromTs <;>
    cases given a.toExcel <;> cases given a.database <;> decide

/-- C60: without documented arguments nothing happens. -/
theorem C60_convert_refused (env : Env) (a : ConvertArgs) (w : World) (h : ¬ ConvertDocumented a) : convertMain env a w = (w, .ok ()) := by
  rw [← C60_convert] at h
  simp only [convertMain, h, Bool.false_eq_true, if_false]
  rfl

/-- C60: ddldiff goes on exactly if both files are given and exist. -/
theorem C60_diff (d : Disk) (a : DiffArgs) : validDiff d a = true ↔ DiffDocumented d a := by
  unfold validDiff DiffDocumented OnDisk
  rcases a with ⟨o1, o2, _⟩
  rcases o1 with _ | f <;> rcases o2 with _ | g <;> simp [given]
  by_cases hf : f = [] <;> by_cases hg : g = [] <;> simp [hf, hg, Option.isSome_iff_exists, and_comm]

/-- C60: review_model goes on exactly with the documented arguments. -/
theorem C60_review (d : Disk) (a : ReviewArgs) : validReview d a = true ↔ ReviewDocumented d a := by
  have file : ∀ o : Option Str, (∀ f, o = some f → f ≠ [] → OnDisk d f) ↔ (given o = true → (d (o.getD [])).isSome = true) := by
    intro o
    rcases o with _ | f
    · simp [given]
    · simp [given, OnDisk, Option.isSome_iff_exists]
  have hs : ReviewDocumented d a ↔ (a.showTests = true ∨ (Given a.database ∧ (Given a.databaseFile ∨ Given a.tsIp))) ∧
      ¬ (Given a.databaseFile ∧ Given a.tsIp) ∧ (∀ f, a.worksheetFile = some f → f ≠ [] → OnDisk d f) ∧
      (∀ f, a.configFile = some f → f ≠ [] → OnDisk d f) := ⟨fun h => ⟨h.1, h.2, h.3, h.4⟩, fun h => ⟨h.1, h.2.1, h.2.2.1, h.2.2.2⟩⟩
  rw [hs, file, file]
  simp only [← given_iff, validReview]
  cases a.showTests <;> cases given a.database <;> cases given a.databaseFile <;> cases given a.tsIp <;> cases given a.worksheetFile <;>
    cases given a.configFile <;> cases (d (a.worksheetFile.getD [])).isSome <;> cases (d (a.configFile.getD [])).isSome <;> decide

example : ConvertDocumented { fromDdl := some c!"f", database := some c!"d" } := (C60_convert _).1 (by decide)
example : ¬ ConvertDocumented { fromDdl := some c!"f" } := fun h => absurd ((C60_convert _).2 h) (by decide)
example : DiffDocumented (disk [(c!"f", .file .unreadable)]) { ddl1 := some c!"f", ddl2 := some c!"f" } := (C60_diff _ _).1 (by decide)
example : ReviewDocumented (disk []) { database := some c!"d", tsIp := some c!"host" } := (C60_review _ _).1 (by decide)

/-- Arguments the check admits and the run does not: `--to_excel` alone needs a database name, and so does `--show_tests` with a file. -/
theorem C60_admitted_and_raises : ConvertDocumented { toExcel := some c!"f" } ∧
    (convertMain (sayEnv []) { toExcel := some c!"f" } ⟨disk [], []⟩).2 = .error .assertion ∧
    ReviewDocumented (disk [(c!"f", .file (.text oneLine))]) { showTests := true, databaseFile := some c!"f" } ∧
    (reviewMain (sayEnv []) (fun _ _ _ _ => .ok []) { showTests := true, databaseFile := some c!"f" }
      ⟨disk [(c!"f", .file (.text oneLine))], []⟩).2 = .error .assertion :=
  ⟨(C60_convert _).1 (by decide), by decide, (C60_review _ _).1 (by decide), by decide⟩

/-- `review_model --version` prints the help instead of the version, which `convert_ddl --version` prints. -/
theorem C60_review_version (env : Env) (rev : Reviewer) (w : World) : reviewMain env rev { version := true } w = (w, .ok .help) ∧
    convertMain env { version := true } w = (w, .ok ()) ∧ ConvertDocumented { version := true } :=
  ⟨rfl, rfl, (C60_convert _).1 (by decide)⟩

/-! ## C61 -/

/-- C61: `read_excel` changes nothing and returns the database named first in the sheet "Tables", or `None` if that names none. -/
theorem C61_first {wb : Workbook} {f : Str} {w : World} (hf : w.disk f = some (.book wb)) (hs : Shaped wb) {r : Option Database}
    (hr : (readExcel f w).2 = .ok r) {h : List XCell} {rows : List (List XCell)} (hsheet : SheetIs wb c!"Tables" h rows) :
    (readExcel f w).1 = w ∧ ∃ l, RowsName h rows l ∧ r.map (fun db => db.name) = (l.map Prod.fst).head? ∧
      ∀ db, r = some db → ∃ dbs, readXls wb = .ok dbs ∧ dbs.get? db.name = some db := by
  refine ⟨rfl, ?_⟩
  unfold readExcel at hr
  rw [hf] at hr
  simp only at hr
  cases hx : readXls wb with
  | error e => rw [hx] at hr; simp [Except.map] at hr
  | ok dbs =>
    rw [hx] at hr
    simp only [Except.map, Except.ok.injEq] at hr
    obtain ⟨l, hl, hk, hd⟩ := C42_created hs hx hsheet
    refine ⟨l, hl, ?_⟩
    cases dbs with
    | nil =>
      simp at hr
      subst hr
      cases l with
      | nil => simp
      | cons p l => simp [Dict.keys, firstUses] at hk
    | cons p dbs =>
      obtain ⟨n, db⟩ := p
      simp [Dict.vals] at hr
      subst hr
      have hg : Dict.get? ((n, db) :: dbs) n = some db := by simp [Dict.get?]
      have hn := (hd n db hg).1
      cases l with
      | nil => simp [Dict.keys, firstUses] at hk
      | cons p l =>
        simp [Dict.keys, firstUses] at hk
        refine ⟨by simp [hn, hk.1], fun db' e => ⟨_, rfl, ?_⟩⟩
        cases e
        rw [hn]; exact hg

/-- C61: a misshaped workbook gives `None`. -/
theorem C61_misshaped {wb : Workbook} {f : Str} {w : World} (hf : w.disk f = some (.book wb)) (hh : Headed wb) (h : ¬ Shaped wb) :
    readExcel f w = (w, .ok none) := by
  unfold readExcel
  rw [hf]
  simp only [C40_misshaped hh h]
  rfl

example : (readExcel c!"f" ⟨disk [(c!"f", .book sampleBook)], []⟩).2.map (fun o => o.map (fun db => db.name)) = .ok (some c!"d") := by
  decide +kernel

/-! ## C64 -/

theorem convertRead_only (env : Env) (a : ConvertArgs) (r : Except PyErr (Option Database)) (hd : Given a.fromTs → Given a.database) :
    Act.Only (MayChange a r) (convertRead env a) := by
  unfold convertRead
  split
  · intro w g _; rfl
  · split
    · intro w g _; rfl
    · split
      · rename_i h1 h2 h3
        intro w g hg
        refine readFromTs_only env _ _ w g (fun e => hg ?_)
        obtain ⟨n, hn, _⟩ := hd (given_iff.1 h3)
        rw [hn] at e
        rw [e]
        exact .answer (given_iff.1 h3) (not_given_iff.1 (by simpa using h1)) (not_given_iff.1 (by simpa using h2)) hn
      · intro w g _; rfl

/-- C64: convert_ddl changes no file but the outputs it was given and the temporary files. -/
theorem C64_only_outputs (env : Env) (a : ConvertArgs) (w : World) (g : Str)
    (h : (convertMain env a w).1.disk g ≠ w.disk g) : MayChange a (convertRead env a w).2 g := by
  by_contra hg
  apply h
  unfold convertMain
  by_cases hv : validConvert a = true
  · rw [if_pos hv]
    by_cases hver : a.version = true
    · rw [if_pos hver]; rfl
    · rw [if_neg hver, Act.bind_eq]
      have h1 := convertRead_only env a (convertRead env a w).2
        (fun ht => ((C60_convert a).1 hv).named (.inr ht)) w g hg
      rcases hr : convertRead env a w with ⟨w1, e | db⟩
      · rw [hr] at h1; exact h1
      · rw [hr] at h1 hg
        simp only at h1 hg ⊢
        rw [← h1]
        have key : Act.Only (MayChange a (.ok db)) (convertWrite env a db) := by
          unfold convertWrite
          refine Act.Only.bind ?_ fun _ => Act.Only.bind ?_ fun _ => Act.Only.bind ?_ fun _ => ?_
          · refine Act.when_only fun _ => ?_
            unfold convertValidate
            split <;> exact Act.Only.lift _
          · refine Act.when_only fun ht w g hg => tqlToFile_only _ _ _ _ w g (fun e => hg ?_)
            obtain ⟨f, hf, hne⟩ := given_iff.1 ht
            rw [e, hf]
            exact .tql hf hne
          · refine Act.when_only fun ht w g hg => excelToFile_only _ _ _ w g (fun e => hg ?_)
            obtain ⟨f, hf, hne⟩ := given_iff.1 ht
            rw [e, hf]
            exact .excel hf hne (xlsFile_name f)
          · refine Act.when_only fun ht => ?_
            unfold writeToTs
            split
            · exact Act.Only.lift _
            · rename_i d
              refine Act.Only.bind (fun w g hg => ?_) (fun _ w g hg => ?_)
              · exact tqlToFile_only _ _ _ _ w g (fun e => hg (e ▸ .command (given_iff.1 ht) rfl))
              · exact sendFile_only _ _ _ w g (fun e => hg (e ▸ .command (given_iff.1 ht) rfl))
        exact key w1 g hg
  · rw [if_neg hv]; rfl

/-- C64: in particular the DDL file read is as it was, unless it is one of the outputs. -/
theorem C64_input_kept (env : Env) (a : ConvertArgs) (w : World) (f : Str) (hf : a.fromDdl = some f) (hne : f ≠ []) (ht : a.toTql ≠ some f)
    (hx : ∀ g, a.toExcel = some g → ¬ WorkbookName g f) (hs : ¬ Given a.toTs) : (convertMain env a w).1.disk f = w.disk f := by
  by_contra h
  generalize hr : (convertRead env a w).2 = r at *
  have := C64_only_outputs env a w f h
  generalize hg : f = g at this
  cases this with
  | tql h1 _ => exact ht (hg ▸ h1)
  | excel h1 _ h2 => exact hx _ h1 (hg ▸ h2)
  | answer _ h1 _ _ => exact h1 ⟨f, hf, hne⟩
  | command h1 _ => exact hs h1

/-- A run that reads and writes a file. -/
def copyArgs : ConvertArgs := { fromDdl := some c!"f", database := some c!"d", toTql := some c!"g" }

example : textAt (convertMain (sayEnv []) copyArgs ⟨disk [(c!"f", .file (.text oneLine))], []⟩).1 c!"f" = some oneLine ∧
    textAt (convertMain (sayEnv []) copyArgs ⟨disk [(c!"f", .file (.text oneLine))], []⟩).1 c!"g" ≠ none := by decide +kernel

/-- The temporary file of a server command replaces a file of that name. -/
theorem C64_temporary_replaces : textAt (convertMain (sayEnv []) { fromDdl := some c!"f", database := some c!"d", toTs := some c!"host" }
    ⟨disk [(c!"f", .file (.text oneLine)), (c!"d.tmp", .file (.text c!"notes"))], []⟩).1 c!"d.tmp" = none := by decide +kernel

/-! ## C65 -/

/-- C65: a successful run with `--to_tql` leaves in the file exactly the TQL of the database read. -/
theorem C65_to_tql {env : Env} {a : ConvertArgs} {w w' : World} {g : Str} (hv : ConvertDocumented a) (hver : a.version = false)
    (hg : a.toTql = some g) (hne : g ≠ []) (hstd : g ≠ c!"-") (hok : convertMain env a w = (w', .ok ())) :
    ∃ db, (convertRead env a w).2 = .ok (some db) ∧
      (writeTql ⟨⟨a.uppercase, a.lowercase, a.camelcase⟩, a.createDb⟩ db).2 = none ∧
      ((∀ f, a.toExcel = some f → f ≠ [] → ¬ WorkbookName f g) → (Given a.toTs → g ≠ db.name ++ c!".tmp") →
        w'.disk g = some (.file (.text (writeTql ⟨⟨a.uppercase, a.lowercase, a.camelcase⟩, a.createDb⟩ db).1))) := by
  obtain ⟨w1, db, h1, h⟩ := convertMain_ok ((C60_convert a).2 hv) hver hok
  obtain ⟨w2, w3, h2, h3, h4⟩ := convertWrite_ok h
  have hgiven : given a.toTql = true := given_iff.2 ⟨g, hg, hne⟩
  have h2 := (Act.when_ok h2).1 hgiven
  rw [hg, Option.getD_some] at h2
  obtain ⟨d, rfl, hn, hw⟩ := tqlToFile_ok h2
  obtain ⟨-, rfl⟩ := hw hne hstd
  refine ⟨d, by rw [h1], hn, fun hx ht => ?_⟩
  have e3 : w3.disk g = some (.file (.text (writeTql (tqlOpts a) d).1)) := by
    have : w3.disk g = (w1.disk.put g (some (.file (.text (writeTql (tqlOpts a) d).1)))) g := by
      cases hxe : given a.toExcel with
      | false => rw [(Act.when_ok h3).2 hxe]
      | true =>
        obtain ⟨f, hf, hfn⟩ := given_iff.1 hxe
        have := excelToFile_only env (some d) (a.toExcel.getD [])
          { w1 with disk := w1.disk.put g (some (.file (.text (writeTql (tqlOpts a) d).1))) } g
          (fun e => hx f hf hfn (by rw [e, hf]; exact xlsFile_name f))
        rw [(Act.when_ok h3).1 hxe] at this
        exact this
    rw [this, Disk.put_self]
  rw [← tqlOpts, ← e3]
  cases hts : given a.toTs with
  | false => rw [(Act.when_ok h4).2 hts]
  | true =>
    obtain ⟨d', _, e, _, _, _, _, ho⟩ := writeToTs_ok ((Act.when_ok h4).1 hts)
    cases e
    exact ho g (ht (given_iff.1 hts))

/-- C65: a successful run with `--to_excel` leaves the workbook of the database read. -/
theorem C65_to_excel {env : Env} {a : ConvertArgs} {w w' : World} {f : Str} (hv : ConvertDocumented a) (hver : a.version = false)
    (hf : a.toExcel = some f) (hne : f ≠ []) (hok : convertMain env a w = (w', .ok ())) :
    ∃ db g, (convertRead env a w).2 = .ok (some db) ∧ WorkbookName f g ∧
      ((Given a.toTs → g ≠ db.name ++ c!".tmp") → w'.disk g = some (.book (saved env.other (writeXls db)))) := by
  obtain ⟨w1, db, h1, h⟩ := convertMain_ok ((C60_convert a).2 hv) hver hok
  obtain ⟨w2, w3, h2, h3, h4⟩ := convertWrite_ok h
  have h3 := (Act.when_ok h3).1 (given_iff.2 ⟨f, hf, hne⟩)
  rw [hf] at h3
  obtain ⟨d, rfl, -, rfl⟩ := excelToFile_ok h3
  refine ⟨d, _, by rw [h1], xlsFile_name f, fun ht => ?_⟩
  cases hts : given a.toTs with
  | false => rw [(Act.when_ok h4).2 hts]; exact Disk.put_self _ _ _
  | true =>
    obtain ⟨d', _, e, _, _, _, _, ho⟩ := writeToTs_ok ((Act.when_ok h4).1 hts)
    cases e
    exact (ho _ (ht (given_iff.1 hts))).trans (Disk.put_self _ _ _)

/-- C65: what `--from_ddl` reads is what the parser makes of the file. -/
theorem C65_from_ddl {env : Env} {a : ConvertArgs} {w : World} {f n : Str} (hf : a.fromDdl = some f) (hne : f ≠ []) (hn : a.database = some n) :
    convertRead env a w = (w, (parseDdl w.disk.fs { databaseName := n, schemaName := a.schema } (some f)).2) := by
  unfold convertRead
  rw [if_pos (given_iff.2 ⟨f, hf, hne⟩), hf, hn]
  rfl

example : (convertMain (sayEnv []) copyArgs ⟨disk [(c!"f", .file (.text oneLine))], []⟩).2 = .ok () := by decide +kernel

/-- C65 and C41 together: DDL to Excel in one run and Excel to TQL in another leaves the same TQL file as DDL to TQL.  Full claim: for
every DDL file.  Missing: databases the workbook cannot hold (see C38, C41). -/
theorem C65_via_excel_partial {env : Env} {a b : ConvertArgs} {w w1 w2 w3 : World} {f n x g : Str} {db : Database}
    (ha : ConvertDocumented a) (hav : a.version = false) (hf : a.fromDdl = some f) (hfn : f ≠ []) (hn : a.database = some n)
    (hx : a.toExcel = some x) (hxn : x ≠ []) (hat : ¬ Given a.toTs)
    (hb : ConvertDocumented b) (hbv : b.version = false) (hbd : ¬ Given b.fromDdl) (hbx : WorkbookName x (b.fromExcel.getD []))
    (hg : b.toTql = some g) (hgn : g ≠ []) (hgs : g ≠ c!"-") (hbe : ¬ Given b.toExcel) (hbt : ¬ Given b.toTs)
    (hdb : (parseDdl w.disk.fs { databaseName := n, schemaName := a.schema } (some f)).2 = .ok (some db)) (hc : CellDb db)
    (ho : b.createDb = false ∨ db.schemas.keys = firstUses (db.iter.map (·.schema)))
    (h1 : convertMain env a w = (w1, .ok ())) (h2 : convertMain env b w1 = (w2, .ok ()))
    (h3 : convertMain env { b with fromDdl := a.fromDdl, database := a.database, schema := a.schema, fromExcel := none } w = (w3, .ok ())) :
    w2.disk g = w3.disk g := by
  obtain ⟨d, x', hd, hx', hw⟩ := C65_to_excel ha hav hx hxn h1
  rw [C65_from_ddl hf hfn hn, hdb] at hd
  cases hd
  have hw := hw (fun h => absurd h hat)
  have hxx : x' = b.fromExcel.getD [] := by
    rcases hx' with ⟨p, rfl⟩ | ⟨p, rfl⟩ <;> rcases hbx with ⟨q, e⟩ | ⟨q, e⟩ <;> first | exact e.symm | exact absurd p q | exact absurd q p
  have hge : given b.fromExcel = true := by
    rw [given_iff]
    cases hbe' : b.fromExcel with
    | none => rcases hbx with ⟨_, e⟩ | ⟨_, e⟩ <;> simp [hbe'] at e <;> simp_all
    | some y =>
      refine ⟨y, rfl, fun hy => ?_⟩
      rcases hbx with ⟨_, e⟩ | ⟨_, e⟩ <;> simp [hbe', hy] at e <;> simp_all
  obtain ⟨back, hback, htql⟩ := C41_same_tql_partial hc env.other
    ⟨⟨b.uppercase, b.lowercase, b.camelcase⟩, b.createDb⟩ (by simpa using ho)
  have hrb : (convertRead env b w1).2 = .ok (some back) := by
    unfold convertRead
    rw [if_neg (by rw [given_iff]; exact hbd), if_pos hge]
    unfold readExcel
    rw [← hxx, hw]
    simp [hback, Except.map, Dict.vals]
  obtain ⟨d2, hd2, _, e2⟩ := C65_to_tql hb hbv hg hgn hgs h2
  rw [hrb] at hd2
  cases hd2
  obtain ⟨d3, hd3, _, e3⟩ := C65_to_tql (a := { b with fromDdl := a.fromDdl, database := a.database, schema := a.schema, fromExcel := none })
    ⟨.inr (.inr (.inl ⟨f, hf, hfn⟩)), fun _ => ha.named (.inl ⟨f, hf, hfn⟩)⟩ hbv hg hgn hgs h3
  rw [C65_from_ddl (a := { b with fromDdl := a.fromDdl, database := a.database, schema := a.schema, fromExcel := none }) hf hfn hn] at hd3
  simp only at hd3
  rw [hdb] at hd3
  cases hd3
  rw [e2 (fun y hy hyn => absurd ⟨y, hy, hyn⟩ hbe) (fun h => absurd h hbt), e3 (fun y hy hyn => absurd ⟨y, hy, hyn⟩ hbe)
    (fun h => absurd h hbt), htql]

/-! ## C66 -/

/-- C66: a run that cannot read its input because of an exception changes no output.  Full claim: a failing run changes no output.
Missing: runs that go on without a database (`C66_truncated`) and failures while writing (`C66_half_written`). -/
theorem C66_unreadable_partial (env : Env) (a : ConvertArgs) (w : World) (e : PyErr) (hr : (convertRead env a w).2 = .error e) (g : Str)
    (hg : ¬ (∃ n, a.database = some n ∧ g = n ++ c!".tmp")) : (convertMain env a w).1.disk g = w.disk g := by
  by_cases hv : ConvertDocumented a
  · unfold convertMain
    rw [if_pos ((C60_convert a).2 hv)]
    split
    · rfl
    · rw [Act.bind_eq]
      rcases h : convertRead env a w with ⟨w1, e' | db⟩
      · have : (convertRead env a w).1.disk g = w.disk g := by
          unfold convertRead
          split
          · rfl
          · split
            · rfl
            · split
              · rename_i h3
                obtain ⟨n, hn, _⟩ := hv.named (.inr (given_iff.1 h3))
                refine readFromTs_only env _ _ w g (fun e => hg ⟨n, hn, ?_⟩)
                rw [hn] at e
                exact e
              · rfl
        rw [h] at this
        exact this
      · rw [h] at hr; simp at hr
  · rw [C60_convert_refused env a w hv]

/-- C66: likewise if there is no database and only a workbook or a server is to be written. -/
theorem C66_no_database_partial (env : Env) (a : ConvertArgs) (w w1 : World) (hr : convertRead env a w = (w1, .ok none)) (ht : ¬ Given a.toTql)
    (g : Str) : (convertMain env a w).1.disk g = w.disk g ∨ (convertMain env a w).1.disk g = w1.disk g := by
  by_cases hv : ConvertDocumented a
  · unfold convertMain
    rw [if_pos ((C60_convert a).2 hv)]
    split
    · exact .inl rfl
    · right
      rw [Act.bind_eq, hr]
      simp only [convertWrite, Act.bind_eq, Act.when, not_given_iff.2 ht, Act.pure_eq, convertValidate, excelToFile, writeToTs, Act.lift]
      cases a.validate <;> cases given a.toExcel <;> cases given a.toTs <;> rfl
  · exact .inl (by rw [C60_convert_refused env a w hv])

/-- C66 fails: with a mistyped input file the TQL file that was there is emptied. -/
theorem C66_truncated :
    textAt (convertMain (sayEnv []) copyArgs ⟨disk [(c!"g", .file (.text c!"my script"))], []⟩).1 c!"g" = some [] ∧
    (convertMain (sayEnv []) copyArgs ⟨disk [(c!"g", .file (.text c!"my script"))], []⟩).2 = .error .attribute := by decide +kernel

/-- C66 fails: camel case of the table name `_` raises in the middle of the script. -/
theorem C66_half_written :
    textAt (convertMain (sayEnv []) { copyArgs with camelcase := true } ⟨disk [(c!"f", .file (.text c!"CREATE TABLE _ (x INT);")),
      (c!"g", .file (.text c!"my script"))], []⟩).1 c!"g" = some c!"USE \"D\";\n\n" ∧
    (convertMain (sayEnv []) { copyArgs with camelcase := true } ⟨disk [(c!"f", .file (.text c!"CREATE TABLE _ (x INT);")),
      (c!"g", .file (.text c!"my script"))], []⟩).2 = .error .index := by decide +kernel

/-! ## C67 -/

/-- C67: a successful run with `--to_ts` sends the server exactly one command, the TQL of the database read, and leaves no temporary file. -/
theorem C67_to_ts {env : Env} {a : ConvertArgs} {w w' : World} {host : Str} (hv : ConvertDocumented a) (hver : a.version = false)
    (hh : a.toTs = some host) (hne : host ≠ []) (hok : convertMain env a w = (w', .ok ())) :
    ∃ db, (convertRead env a w).2 = .ok (some db) ∧
      (writeTql ⟨⟨a.uppercase, a.lowercase, a.camelcase⟩, a.createDb⟩ db).2 = none ∧
      w'.disk (db.name ++ c!".tmp") = none ∧
      ∃ text, w'.sent = (convertRead env a w).1.sent ++ [(host, text)] ∧
        ('\r' ∉ (writeTql ⟨⟨a.uppercase, a.lowercase, a.camelcase⟩, a.createDb⟩ db).1 →
          text = (writeTql ⟨⟨a.uppercase, a.lowercase, a.camelcase⟩, a.createDb⟩ db).1) := by
  obtain ⟨w1, db, h1, h⟩ := convertMain_ok ((C60_convert a).2 hv) hver hok
  obtain ⟨w2, w3, h2, h3, h4⟩ := convertWrite_ok h
  have h4 := (Act.when_ok h4).1 (given_iff.2 ⟨host, hh, hne⟩)
  rw [hh, Option.getD_some] at h4
  obtain ⟨d, l, rfl, hn, -, hs, hd, -⟩ := writeToTs_ok h4
  refine ⟨d, by rw [h1], hn, hd, _, ?_, fun hr => newlines_plain hr⟩
  rw [hs, h1]
  have e2 : w2.sent = w1.sent := by
    cases ht : given a.toTql with
    | false => rw [(Act.when_ok h2).2 ht]
    | true =>
      have h2 := (Act.when_ok h2).1 ht
      unfold tqlToFile at h2
      simp only at h2
      split at h2
      · exact (congrArg (fun p => p.1.sent) h2).symm
      · split at h2
        · exact (congrArg (fun p => p.1.sent) h2).symm
        · exact (congrArg (fun p => p.1.sent) h2).symm
  have e3 : w3.sent = w2.sent := by
    cases ht : given a.toExcel with
    | false => rw [(Act.when_ok h3).2 ht]
    | true =>
      obtain ⟨_, _, _, e⟩ := excelToFile_ok ((Act.when_ok h3).1 ht)
      rw [e]
  rw [e3, e2]
  rfl

/-- A run that sends a file to a server. -/
def sendArgs : ConvertArgs := { fromDdl := some c!"f", database := some c!"d", toTs := some c!"host" }

example : ConvertDocumented sendArgs ∧ (convertMain (sayEnv []) sendArgs ⟨disk [(c!"f", .file (.text oneLine))], []⟩).2 = .ok () ∧
    (convertMain (sayEnv []) sendArgs ⟨disk [(c!"f", .file (.text oneLine))], []⟩).1.sent.map (·.1) = [c!"host"] :=
  ⟨(C60_convert _).1 (by decide), by decide +kernel, by decide +kernel⟩

/-- If the server refuses the command, the temporary file stays behind. -/
theorem C67_refused : (textAt (convertMain { sayEnv [] with answer := fun _ _ => .error .value } sendArgs
    ⟨disk [(c!"f", .file (.text oneLine))], []⟩).1 c!"d.tmp").isSome = true := by decide +kernel

/-! ## C68 -/

/-- C68 fails: the option `--ignore_case` is not used. -/
theorem C68_option_unused (fr : Rat → Str) (d : Disk) (a : DiffArgs) (b : Bool) : diffMain fr d { a with ignoreCase := b } = diffMain fr d a := rfl

/-- C68 fails: two files that differ in the case of a name only are reported to differ. -/
theorem C68_case_reported :
    diffMain (fun _ => []) (disk [(c!"f", .file (.text oneLine)), (c!"g", .file (.text (lower oneLine ++ c!" ")))])
      { ddl1 := some c!"f", ddl2 := some c!"g", ignoreCase := true } = (.lists [] [], none) ∧
    diffMain (fun _ => []) (disk [(c!"f", .file (.text oneLine)), (c!"g", .file (.text (upper oneLine)))])
      { ddl1 := some c!"f", ddl2 := some c!"g", ignoreCase := true } ≠ (.lists [] [], none) := by decide +kernel

/-! ## C69 -/

/-- C69 fails: review_model checks that the configuration file exists and then reviews with an empty configuration. -/
theorem C69_configuration_unused (env : Env) (rev : Reviewer) (a : ReviewArgs) (w : World) :
    ∀ f g, validReview w.disk { a with configFile := f } = true → validReview w.disk { a with configFile := g } = true →
      reviewMain env rev { a with configFile := f } w = reviewMain env rev { a with configFile := g } w := by
  intro f g hf hg
  unfold reviewMain
  simp only [hf, hg]

/-- C69 fails: a review that uses a setting does not see the one in the file. -/
theorem C69_setting_lost :
    (reviewMain (sayEnv []) (fun _ _ _ cfg => .ok [(c!"r", cfg.keys)])
      { databaseFile := some c!"f", database := some c!"d", configFile := some c!"c" }
      ⟨disk [(c!"f", .file (.text oneLine)), (c!"c", .file (.text c!"max_chain = 3"))], []⟩).2 = .ok (.results [(c!"r", [])]) := by
  decide +kernel

/-! ## C70 -/

/-- C70: ddldiff of a file with itself lists no differences exactly if no table is sharded and all foreign keys name the same columns on
both sides.  Full claim: always.  Missing: sharded tables and other foreign keys (`C70_sharded`). -/
theorem C70_same_file_partial (fr : Rat → Str) (d : Disk) (a : DiffArgs) (f : Str) (db : Database) (hv : DiffDocumented d a)
    (h1 : a.ddl1 = some f) (h2 : a.ddl2 = some f) (ha : a.alter1 = false) (hb : a.alter2 = false)
    (hp : (parseDdl d.fs { databaseName := a.database, schemaName := a.schema } (some f)).2 = .ok (some db)) :
    diffMain fr d a = (.lists [] [], none) ↔
      (∀ n t, TableOf db n t → ∀ m fk, (m, fk) ∈ t.fks → fk.fromKeys.Perm fk.toKeys) ∧ (∀ n t, TableOf db n t → t.shard = none) := by
  rw [← C21_same_text_partial _ _ _ db db hp hp]
  unfold diffMain parseFor
  rw [if_pos ((C60_diff d a).2 hv), h1, h2]
  simp only [hp, ha, hb]
  simp [Prod.ext_iff]

example : diffMain (fun _ => []) (disk [(c!"f", .file (.text oneLine))]) { ddl1 := some c!"f", ddl2 := some c!"f" } = (.lists [] [], none) := by
  decide +kernel

/-- C70 fails: a file with a sharded table differs from itself. -/
theorem C70_sharded : diffMain (fun _ => []) (disk [(c!"f", .file (.text c!"CREATE TABLE a (x BIGINT) PARTITION BY HASH (4) KEY(\"x\");"))])
    { ddl1 := some c!"f", ddl2 := some c!"f" } ≠ (.lists [] [], none) := by decide +kernel

end Verif.Props
