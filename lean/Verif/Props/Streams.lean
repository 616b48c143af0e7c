import Verif.Props.CliExact
import Verif.Props.ReviewConsole

/-!
C98: what is wrong is reported on the standard error stream.
-/

namespace Verif.Props
open Verif Verif.Spec

/-- The steps after reading other than validating say nothing on the standard error stream. -/
theorem quiet_steps {p : List Step} {l : List Said} (h : Transcript p l) (hp : ∀ s ∈ p, s.reads = false ∧ s ≠ .validate) : l.filter Said.onErr = [] := by
  induction h with
  | nil => rfl
  | @step s m ss l hs _ ih =>
    obtain ⟨h1, h2⟩ := hp s (by simp)
    rw [List.cons_append, List.filter_cons_of_neg (by simp [Said.onErr]), List.filter_append, ih (fun x hx => hp x (by simp [hx]))]
    cases s with
    | readDdl | readExcel | readServer => cases h1
    | validate => exact absurd rfl h2
    | writeTql => rcases hs with rfl | ⟨s, rfl⟩ <;> rfl
    | writeExcel => rw [show m = [] from hs]; rfl
    | writeServer => rcases hs with rfl | ⟨s, rfl⟩ <;> rfl

/-- What is said on the standard error stream after reading. -/
theorem quiet_write {env : Env} {a : ConvertArgs} {db : Option Database} {w : World} :
    ((writeTalk env a db w).2.1.filter Said.onErr) = if a.validate then (validateTalk db w).2.1.filter Said.onErr else [] := by
  have hq : ∀ (ss : List Step) (w : World), (∀ s ∈ ss, s.reads = false ∧ s ≠ .validate) → (runSteps (stepTalk env a db) ss w).2.1.filter Said.onErr = [] := by
    intro ss w hss
    obtain ⟨done, rest, he, ht, -, -⟩ := run_steps (stepTalk env a db) ss (fun s hs => stepTalk_said env a db s (hss s hs).1) w
    exact quiet_steps ht (fun s hs => hss s (by rw [he]; simp [hs]))
  rw [writeTalk_steps]
  unfold writePlan
  have hrest : ∀ s ∈ (if given a.toTql then [Step.writeTql] else []) ++ (if given a.toExcel then [Step.writeExcel] else []) ++ (if given a.toTs then [Step.writeServer] else []), s.reads = false ∧ s ≠ .validate := by
    intro s hs
    simp at hs
    rcases hs with ⟨_, rfl⟩ | ⟨_, rfl⟩ | ⟨_, rfl⟩ <;> exact ⟨rfl, by simp⟩
  cases a.validate with
  | false =>
    simp only [Bool.false_eq_true, if_false, List.nil_append]
    exact hq _ _ hrest
  | true =>
    simp only [if_true, List.append_assoc, List.cons_append, List.nil_append]
    rw [List.append_assoc] at hrest
    rw [runSteps]
    simp only [Talk.bind_eq, Talk.say, stepTalk]
    rcases hv : validateTalk db w with ⟨w1, l, e | u⟩
    · simp [Said.onErr]
    · have := hq _ w1 hrest
      simp [Said.onErr, this]

/-- A line of the report on the validity of a database. -/
def DefectLine (db : Database) (text : Str) : Prop :=
  ∃ n t m s, TableOf db n t ∧ Defect db t m s ∧ text = (match s with | .warning => c!"Warning" | .error => c!"Error") ++ c!":  database " ++ db.name ++ c!", table " ++ n ++ c!":  " ++ m

/-- The standard error stream of a run: what is said while reading, then the defects. -/
theorem run_err (env : Env) (m : Manual) (dir : Str) {argv : List Str} {w : World} {ns : Dict ArgVal} (hp : parseArgs convertOpts argv = .ok ns)
    (hv : ConvertDocumented (convertArgs ns)) (hver : (convertArgs ns).version = false) :
    ∃ lines : List Str, (convertRun env m dir argv w).2.err = (readTalk env (convertArgs ns) w).2.1.filter Said.onErr ++ lines.map .err ∧
      ∀ text, text ∈ lines ↔ (convertArgs ns).validate = true ∧ ∃ db, (convertRead env (convertArgs ns) w).2 = .ok (some db) ∧ ¬ WellFormed db ∧ DefectLine db text := by
  unfold convertRun
  rw [hp]
  simp only [ended]
  generalize convertArgs ns = a at *
  rcases talk_parts (env := env) (dir := dir) hv hver w with ⟨w1, l, e, hr, hc, h⟩ | ⟨w1, l, db, hr, hc, h⟩
  · refine ⟨[], ?_, fun text => ?_⟩
    · rw [h, hr]
      simp [Said.onErr]
    · simp [hc]
  · rw [h, hr]
    simp only
    rw [List.cons_append, List.filter_cons_of_neg (by simp [Said.onErr]), List.filter_append, quiet_write]
    cases hval : a.validate with
    | false => exact ⟨[], by simp, by simp⟩
    | true =>
      simp only [if_true, hc, Except.ok.injEq, true_and]
      cases db with
      | none => exact ⟨[], by simp [validateTalk], by simp⟩
      | some db =>
        obtain ⟨hw, hlen⟩ := read_sound (show (convertRead env a w).2 = .ok (some db) by rw [hc])
        obtain ⟨r, hok, h1, h2⟩ := ext_validate hw (fun n t ht m k hk _ => le_of_eq (hlen n t ht m k hk))
        have hiff := C08_valid_iff_well_formed db hw
        obtain ⟨hiss, hempty⟩ := C09_issues_are_exactly_the_defects db hw r hok
        have hwf : r.isValid = true ↔ WellFormed db := ⟨fun e => hiff.1 ⟨r, hok, e⟩, fun e => by
          obtain ⟨r', hr1, hr2⟩ := hiff.2 e
          rw [hok] at hr1
          cases hr1
          exact hr2⟩
        refine ⟨if r.isValid then [] else r.lines, ?_, fun text => ?_⟩
        · cases hvd : r.isValid
          · simp only [validateTalk, hok, hvd, Bool.not_false, if_true, Bool.false_eq_true, if_false]
            congr 1
            rw [List.filter_eq_self]
            simp [Said.onErr]
          · simp [validateTalk, hok, hvd, Said.onErr]
        · simp only [Option.some.injEq, exists_eq_left']
          rw [← hwf]
          cases hvd : r.isValid with
          | true => simp
          | false =>
            simp only [Bool.false_eq_true, if_false, not_false_eq_true, true_and, ValidationResult.lines, List.mem_map]
            constructor
            · rintro ⟨⟨text, level⟩, hm, rfl⟩
              obtain ⟨n, t, m, s, ht, hd, rfl, rfl⟩ := (hiss text level).1 hm
              refine ⟨n, t, m, s, ht, hd, ?_⟩
              cases s <;> simp [Level.text]
            · rintro ⟨n, t, m, s, ht, hd, rfl⟩
              refine ⟨(_, _), (hiss _ _).2 ⟨n, t, m, s, ht, hd, rfl, rfl⟩, ?_⟩
              cases s <;> simp [Level.text]

/-- C98: a run of convert_ddl that reads a DDL file reports on the standard error stream what the parser finds, then, with `--validate`, each defect of the database, and nothing else;
this does not depend on what is written where, nor on whether writing succeeds. -/
theorem C98_convert (env : Env) (m : Manual) (dir : Str) {argv : List Str} {w : World} {ns : Dict ArgVal} {f n : Str} (hp : parseArgs convertOpts argv = .ok ns)
    (hv : ConvertDocumented (convertArgs ns)) (hver : (convertArgs ns).version = false) (hfrom : (convertArgs ns).fromDdl = some f) (hf : f ≠ []) (hn : (convertArgs ns).database = some n) :
    ∃ lines : List Str, (convertRun env m dir argv w).2.err = (parseReports w.disk.fs { databaseName := n, schemaName := (convertArgs ns).schema } (some f)).map .parser ++ lines.map .err ∧
      ∀ text, text ∈ lines ↔ (convertArgs ns).validate = true ∧ ∃ db, (convertRead env (convertArgs ns) w).2 = .ok (some db) ∧ ¬ WellFormed db ∧ DefectLine db text := by
  obtain ⟨lines, h1, h2⟩ := run_err env m dir (w := w) hp hv hver
  refine ⟨lines, ?_, h2⟩
  rw [h1]
  congr 1
  have hgiv : given (convertArgs ns).fromDdl = true := given_iff.2 ⟨f, hfrom, hf⟩
  unfold readTalk
  rw [if_pos hgiv]
  simp only [Talk.bind_eq, Talk.say, readDdlTalk, hn, hfrom, parserSays]
  simp only [List.cons_append, List.nil_append]
  rw [List.filter_cons_of_neg (by simp [Said.onErr]), List.filter_eq_self]
  simp [Said.onErr]

/-- C98: the same for a workbook: the messages of its reader, then one if there is not exactly one database in it, then the defects. -/
theorem C98_workbook (env : Env) (m : Manual) (dir : Str) {argv : List Str} {w : World} {ns : Dict ArgVal} {f : Str} {wb : Workbook} (hp : parseArgs convertOpts argv = .ok ns)
    (hv : ConvertDocumented (convertArgs ns)) (hver : (convertArgs ns).version = false) (hnd : ¬ Given (convertArgs ns).fromDdl) (hfrom : (convertArgs ns).fromExcel = some f) (hf : f ≠ [])
    (hwb : w.disk f = some (.book wb)) :
    ∃ number lines : List Str, (convertRun env m dir argv w).2.err = (readXlsTold wb).1.map .book ++ number.map .err ++ lines.map .err ∧
      (∀ e, readXls wb = .error e → number = []) ∧
      (∀ dbs, readXls wb = .ok dbs → (dbs = [] → number = [c!"ERROR:  No databases read."]) ∧ (dbs.length = 1 → number = []) ∧
        (∀ x y l, dbs = x :: y :: l → number = [c!"WARNING:  multiple databases read.  Only using " ++ x.2.name])) ∧
      ∀ text, text ∈ lines ↔ (convertArgs ns).validate = true ∧ ∃ db, (convertRead env (convertArgs ns) w).2 = .ok (some db) ∧ ¬ WellFormed db ∧ DefectLine db text := by
  obtain ⟨lines, h1, h2⟩ := run_err env m dir (w := w) hp hv hver
  have hg : given (convertArgs ns).fromDdl = false := by rw [← Bool.not_eq_true, given_iff]; exact hnd
  have hgx : given (convertArgs ns).fromExcel = true := given_iff.2 ⟨f, hfrom, hf⟩
  have hall : ∀ l : List XReport, (l.map Said.book).filter Said.onErr = l.map .book := fun l => by rw [List.filter_eq_self]; simp [Said.onErr]
  have hsame : (readXlsTold wb).2 = readXls wb := readXlsTold_snd wb
  have hread : (readTalk env (convertArgs ns) w).2.1.filter Said.onErr = (readXlsTold wb).1.map .book ++ (match (readXlsTold wb).2 with
      | .error _ => []
      | .ok dbs => if dbs.length = 0 then [.err c!"ERROR:  No databases read."]
        else if 1 < dbs.length then [.err (c!"WARNING:  multiple databases read.  Only using " ++ (dbs.vals.head?.map (·.name)).getD [])] else []) := by
    unfold readTalk
    rw [hg, if_neg (by simp), if_pos hgx]
    simp only [Talk.bind_eq, Talk.say, readExcelTalk, hfrom, Option.getD_some, hwb]
    cases (readXlsTold wb).2 with
    | error e => simp [Said.onErr, hall]
    | ok dbs =>
      simp only
      by_cases h0 : dbs.length = 0
      · simp [h0, Said.onErr, hall]
      · by_cases hm : 1 < dbs.length
        · simp [h0, hm, Said.onErr, hall]
        · simp [h0, hm, Said.onErr, hall]
  rw [h1, hread, hsame]
  cases hx : readXls wb with
  | error e => exact ⟨[], lines, by simp, by simp, by simp, h2⟩
  | ok dbs =>
    cases dbs with
    | nil => exact ⟨[_], lines, rfl, by simp, by simp, h2⟩
    | cons x l =>
      cases l with
      | nil => exact ⟨[], lines, rfl, by simp, by simp, h2⟩
      | cons y l =>
        refine ⟨[_], lines, rfl, by simp, ?_, h2⟩
        simp only [Except.ok.injEq, forall_eq', reduceCtorEq, false_imp_iff, List.length_cons, true_and]
        refine ⟨fun h => by omega, fun x' y' l' h => ?_⟩
        cases h
        rfl

/-- C98: the same for a database read from a server: the messages of the parser about the answer, then the defects. -/
theorem C98_server (env : Env) (m : Manual) (dir : Str) {argv : List Str} {w : World} {ns : Dict ArgVal} {host n : Str} {answer : List Str} (hp : parseArgs convertOpts argv = .ok ns)
    (hv : ConvertDocumented (convertArgs ns)) (hver : (convertArgs ns).version = false) (hnd : ¬ Given (convertArgs ns).fromDdl) (hnx : ¬ Given (convertArgs ns).fromExcel)
    (hfrom : (convertArgs ns).fromTs = some host) (hh : host ≠ []) (hn : (convertArgs ns).database = some n) (hans : env.answer host (c!"script database " ++ n ++ c!";") = .ok answer)
    (hwr : env.writable (n ++ c!".tmp") = true) :
    ∃ lines : List Str, (convertRun env m dir argv w).2.err =
        (parseReports (fun _ => some (.text (answer.flatMap (· ++ c!"\n")))) { databaseName := n } (some (n ++ c!".tmp"))).map .parser ++ lines.map .err ∧
      ∀ text, text ∈ lines ↔ (convertArgs ns).validate = true ∧ ∃ db, (convertRead env (convertArgs ns) w).2 = .ok (some db) ∧ ¬ WellFormed db ∧ DefectLine db text := by
  obtain ⟨lines, h1, h2⟩ := run_err env m dir (w := w) hp hv hver
  refine ⟨lines, ?_, h2⟩
  rw [h1]
  congr 1
  have hg : given (convertArgs ns).fromDdl = false := by rw [← Bool.not_eq_true, given_iff]; exact hnd
  have hgx : given (convertArgs ns).fromExcel = false := by rw [← Bool.not_eq_true, given_iff]; exact hnx
  have hgt : given (convertArgs ns).fromTs = true := given_iff.2 ⟨host, hfrom, hh⟩
  have hall : ∀ l : List Report, (l.map Said.parser).filter Said.onErr = l.map .parser := fun l => by rw [List.filter_eq_self]; simp [Said.onErr]
  have hne : n ++ c!".tmp" ≠ [] := by simp
  have hrep : ∀ d : Disk, parserSays (d.put (n ++ c!".tmp") (some (.file (.text (answerText answer))))).fs (some n) defaultSchema (some (n ++ c!".tmp")) =
      (parseReports (fun _ => some (.text (answer.flatMap (· ++ c!"\n")))) { databaseName := n } (some (n ++ c!".tmp"))).map .parser := by
    intro d
    have hfs : (d.put (n ++ c!".tmp") (some (.file (.text (answerText answer))))).fs (n ++ c!".tmp") = some (.text (answer.flatMap (· ++ c!"\n"))) := by
      simp [Disk.fs, Disk.put, answerText, List.flatMap_def]
    generalize n ++ c!".tmp" = f at *
    cases f with
    | nil => exact absurd rfl hne
    | cons c f => simp only [parserSays, parseReports, hfs]
  unfold readTalk
  rw [hg, hgx, hgt]
  simp only [Bool.false_eq_true, if_false, if_true, Talk.bind_eq, Talk.say, readFromTsTalk, hn, hfrom, Option.getD_some, hans, tmpFile, hwr]
  rw [← hrep w.disk]
  have hp2 : ∀ l, l = parserSays (w.disk.put (n ++ c!".tmp") (some (.file (.text (answerText answer))))).fs (some n) defaultSchema (some (n ++ c!".tmp")) →
      (Said.out c!"Reading DDL from ThoughtSpot" :: l).filter Said.onErr = l := by
    intro l hl
    rw [List.filter_cons_of_neg (by simp [Said.onErr]), hl, hrep, hall]
  rcases parseFor (w.disk.put (n ++ c!".tmp") (some (.file (.text (answerText answer))))).fs (some n) defaultSchema (some (n ++ c!".tmp")) with e | db
  · exact hp2 _ rfl
  · exact hp2 _ rfl

/-- A database that is not well-formed has a defect to report. -/
theorem defect_exists {env : Env} {a : ConvertArgs} {w : World} {db : Database} (hr : (convertRead env a w).2 = .ok (some db)) (h : ¬ WellFormed db) : ∃ text, DefectLine db text := by
  obtain ⟨hw, hlen⟩ := read_sound hr
  obtain ⟨r, hok, h1, h2⟩ := ext_validate hw (fun n t ht m k hk _ => le_of_eq (hlen n t ht m k hk))
  obtain ⟨hiss, hempty⟩ := C09_issues_are_exactly_the_defects db hw r hok
  have hne : r.issues ≠ [] := fun e => h ((C08_valid_iff_well_formed db hw).1 ⟨r, hok, hempty.2 e⟩)
  obtain ⟨⟨text, level⟩, hm⟩ := List.exists_mem_of_ne_nil _ hne
  obtain ⟨n, t, m, s, ht, hd, -, -⟩ := (hiss text level).1 hm
  exact ⟨_, n, t, m, s, ht, hd, rfl⟩

/-- C98: the standard error stream of such a run is empty exactly if the parser has nothing to report and the database read, if it is to be validated, is well-formed. -/
theorem C98_silent (env : Env) (m : Manual) (dir : Str) {argv : List Str} {w : World} {ns : Dict ArgVal} {f n : Str} (hp : parseArgs convertOpts argv = .ok ns)
    (hv : ConvertDocumented (convertArgs ns)) (hver : (convertArgs ns).version = false) (hfrom : (convertArgs ns).fromDdl = some f) (hf : f ≠ []) (hn : (convertArgs ns).database = some n) :
    (convertRun env m dir argv w).2.err = [] ↔ parseReports w.disk.fs { databaseName := n, schemaName := (convertArgs ns).schema } (some f) = [] ∧
      ((convertArgs ns).validate = true → ∀ db, (convertRead env (convertArgs ns) w).2 = .ok (some db) → WellFormed db) := by
  obtain ⟨lines, he, hl⟩ := C98_convert env m dir (w := w) hp hv hver hfrom hf hn
  rw [he, List.append_eq_nil_iff, List.map_eq_nil_iff, List.map_eq_nil_iff]
  refine and_congr_right (fun _ => ?_)
  rw [List.eq_nil_iff_forall_not_mem]
  constructor
  · intro h hval db hr
    refine Classical.byContradiction (fun hwf => ?_)
    obtain ⟨text, ht⟩ := defect_exists hr hwf
    exact h text ((hl text).2 ⟨hval, db, hr, hwf, ht⟩)
  · intro h text ht
    obtain ⟨hval, db, hr, hwf, -⟩ := (hl text).1 ht
    exact hwf (h hval db hr)

/-- C98: insufficient arguments are reported on the standard error stream, and on the standard output there is nothing, or the help. -/
theorem C98_arguments (env : Env) (r : ReviewEnv) (tests : List (TestItem × Str)) (fr : Rat → Str) (m : Manual) (dir : Str) (argv : List Str) (w : World) (ns : Dict ArgVal) :
    (parseArgs convertOpts argv = .ok ns → ¬ ConvertDocumented (convertArgs ns) → (convertRun env m dir argv w).2.out = [] ∧ ∃ text, (convertRun env m dir argv w).2.err = [.err text]) ∧
    (parseArgs diffOpts argv = .ok ns → ¬ DiffDocumented w.disk (diffArgs ns) → (diffRun fr m argv w.disk).out = [] ∧
      ∃ l, DiffRefused w.disk (diffArgs ns) l ∧ (diffRun fr m argv w.disk).err = l.map .err) ∧
    (parseArgs reviewOpts argv = .ok ns → ¬ ReviewDocumented w.disk (reviewArgs ns) → (reviewRun env r tests m dir argv w).2.out = m.help ∧
      ∃ ms : List ReviewMistake, ms ≠ [] ∧ (∀ x, x ∈ ms ↔ Made w.disk (reviewArgs ns) x) ∧ (reviewRun env r tests m dir argv w).2.err = ms.map (fun x => .err x.line)) := by
  refine ⟨fun hp hd => ⟨C92_hidden_partial env m dir w hp hd, ?_⟩, fun hp hd => ?_, fun hp hd => ⟨C92_review_hidden_partial env r tests m dir hp hd, ?_⟩⟩
  · have hv : validConvert (convertArgs ns) = false := by rw [← Bool.not_eq_true, C60_convert]; exact hd
    unfold convertRun
    rw [hp]
    simp only [convertTalk, hv, Bool.false_eq_true, if_false]
    split <;> exact ⟨_, rfl⟩
  · obtain ⟨l, h1, h2⟩ := C87_arguments fr w.disk (diffArgs ns) hd
    unfold diffRun
    rw [hp]
    simp only [ended, h2]
    refine ⟨by simp [List.flatMap_map, Said.printed], l, h1, ?_⟩
    rw [List.filter_eq_self]
    simp [Said.onErr]
  · obtain ⟨ms, h1, -, h3, h4⟩ := C86_arguments env r tests dir (reviewArgs ns) w hd
    unfold reviewRun
    rw [hp]
    simp only [ended, h4]
    refine ⟨ms, h1, h3, ?_⟩
    rw [List.filter_eq_self]
    simp [Said.onErr]

/-- C98: ddldiff reports what the parser finds in the first file, then, unless an exception was raised there, what it finds in the second one, and nothing else: no difference is reported as an error. -/
theorem C98_diff (fr : Rat → Str) (m : Manual) {argv : List Str} {d : Disk} {ns : Dict ArgVal} (hp : parseArgs diffOpts argv = .ok ns) (hd : DiffDocumented d (diffArgs ns)) :
    let p : ParserSt := { databaseName := (diffArgs ns).database, schemaName := (diffArgs ns).schema }
    ((∀ e, (parseDdl d.fs p (diffArgs ns).ddl1).2 ≠ .error e) →
      (diffRun fr m argv d).err = (parseReports d.fs p (diffArgs ns).ddl1 ++ parseReports d.fs p (diffArgs ns).ddl2).map .parser) ∧
    (∀ e, (parseDdl d.fs p (diffArgs ns).ddl1).2 = .error e → (diffRun fr m argv d).err = (parseReports d.fs p (diffArgs ns).ddl1).map .parser) := by
  intro p
  have hv := (C60_diff _ _).2 hd
  have hall : ∀ l : List Report, (l.map Said.parser).filter Said.onErr = l.map .parser := fun l => by rw [List.filter_eq_self]; simp [Said.onErr]
  have hlist : ∀ l : List Diff, (listTalk l).filter Said.onErr = [] := fun l => by unfold listTalk; rw [List.filter_eq_nil_iff]; simp [Said.onErr]
  have hthen : ∀ x y : List Said × Option PyErr, x.1.filter Said.onErr = [] → y.1.filter Said.onErr = [] → (andThen x y).1.filter Said.onErr = [] := by
    rintro ⟨l, _ | e⟩ y hx hy
    · simp only [andThen, List.filter_append, hy, List.append_nil]; exact hx
    · exact hx
  have hdiffs : ∀ x y : Database, ((diffsTalk fr (diffArgs ns) x y).1.filter Said.onErr) = [] := by
    intro x y
    unfold diffsTalk
    refine hthen _ _ ?_ (hthen _ _ ?_ ?_)
    · split
      · exact hthen _ _ rfl rfl
      · rfl
    · split
      · exact hthen _ _ rfl rfl
      · rfl
    · split
      · simp only [List.cons_append, List.filter_append, List.filter_cons_of_neg (show ¬ Said.onErr (.out _) = true by simp [Said.onErr]), hlist, List.append_nil]
      · rfl
  unfold diffRun
  rw [hp]
  simp only [ended, diffTalk, hv, Bool.not_true, Bool.false_eq_true, if_false, parserSays, parseFor]
  cases h1 : (parseDdl d.fs p (diffArgs ns).ddl1).2 with
  | error e =>
    refine ⟨fun h => absurd rfl (h e), fun e' _ => ?_⟩
    simp only [List.filter_cons_of_neg (show ¬ Said.onErr .args = true by simp [Said.onErr]), hall]
    rfl
  | ok db1 =>
    refine ⟨fun _ => ?_, fun e' h => by cases h⟩
    simp only
    rw [List.map_append]
    cases h2 : (parseDdl d.fs p (diffArgs ns).ddl2).2 with
    | error e =>
      simp only [List.cons_append, List.filter_cons_of_neg (show ¬ Said.onErr .args = true by simp [Said.onErr]), hall, List.filter_append]
      rfl
    | ok db2 =>
      cases db1 with
      | none =>
        simp only [List.cons_append, List.filter_cons_of_neg (show ¬ Said.onErr .args = true by simp [Said.onErr]), hall, List.filter_append]
        rfl
      | some db1 =>
        cases db2 with
        | none =>
          simp only [List.cons_append, List.filter_cons_of_neg (show ¬ Said.onErr .args = true by simp [Said.onErr]), hall, List.filter_append]
          rfl
        | some db2 =>
          simp only [andThen, List.cons_append, List.filter_cons_of_neg (show ¬ Said.onErr .args = true by simp [Said.onErr]), hall, List.filter_append, hdiffs, List.append_nil]
          rfl

theorem quiet_items {names : List Str} {i : Inputs} {run : Str → List Str → List Said × Except PyErr (List Str)} (hrun : ∀ n l, (run n l).1.filter Said.onErr = []) :
    ∀ (ts : List TestItem) (recs : Dict (List Str)), (reviewItemsTalk names i run recs ts).1.filter Said.onErr = []
  | [], recs => rfl
  | t :: ts, recs => by
    unfold reviewItemsTalk
    split
    · exact quiet_items hrun ts recs
    · split
      · cases callArgs i t with
        | none =>
          simp only [List.filter_append, quiet_items hrun ts recs, List.append_nil]
          unfold skipLine
          split <;> rfl
        | some args =>
          have h := hrun t.name args
          rcases hr : run t.name args with ⟨l, e | r⟩
          · rw [hr] at h
            simp only [hr]
            exact h
          · rw [hr] at h
            simp only at h
            simp only [hr, List.filter_append, quiet_items hrun ts _, List.append_nil, h]
      · exact quiet_items hrun ts recs

/-- C98: review_model with a DDL file reports what the parser finds there, and nothing else: the reviews without a server report nothing as an error, also if an exception is raised. -/
theorem C98_review (env : Env) (r : ReviewEnv) (tests : List (TestItem × Str)) (m : Manual) (dir : Str) {argv : List Str} {w : World} {ns : Dict ArgVal} {f n : Str} (hp : parseArgs reviewOpts argv = .ok ns)
    (hd : ReviewDocumented w.disk (reviewArgs ns)) (hver : (reviewArgs ns).version = false) (hts : ¬ Given (reviewArgs ns).tsIp) (hfile : (reviewArgs ns).databaseFile = some f) (hf : f ≠ [])
    (hn : (reviewArgs ns).database = some n) : (reviewRun env r tests m dir argv w).2.err = (parseReports w.disk.fs { databaseName := n } (some f)).map .parser := by
  have hv := (C60_review _ _).2 hd
  unfold reviewRun
  rw [hp]
  simp only [ended]
  generalize reviewArgs ns = a at *
  have hgt : given a.tsIp = false := by rw [← Bool.not_eq_true, given_iff]; exact hts
  have hgf : given a.databaseFile = true := given_iff.2 ⟨f, hfile, hf⟩
  have hall : ∀ l : List Report, (l.map Said.parser).filter Said.onErr = l.map .parser := fun l => by rw [List.filter_eq_self]; simp [Said.onErr]
  have hcall : ∀ (db : Database) (ws : Option Worksheet) (name : Str), (callReview r db ws none [] name).1.filter Said.onErr = [] := by
    intro db ws name
    unfold callReview
    split
    · rfl
    · split
      · rfl
      · split
        · rfl
        · split <;> rfl
  have hpart : ∀ (db : Option Database) (w : World), (reviewPart r a db none w).2.1.filter Said.onErr = [] := by
    intro db w
    have hrt : (reviewerTalk r w.disk.fs db (argOf a.worksheetFile) none []).1.filter Said.onErr = [] := by
      unfold reviewerTalk
      split
      · rfl
      · split
        · rfl
        · exact quiet_items (fun _ _ => hcall _ _ _) _ _
    unfold reviewPart
    rcases h : reviewerTalk r w.disk.fs db (argOf a.worksheetFile) none [] with ⟨l, e | res⟩
    · rw [h] at hrt; exact hrt
    · rw [h] at hrt
      simp only at hrt
      simp only [List.filter_append, hrt, List.nil_append, resultLines]
      rw [List.filter_eq_nil_iff]
      intro x hx
      simp only [List.mem_flatMap, List.mem_cons, List.mem_map] at hx
      obtain ⟨p, -, rfl | ⟨y, -, rfl⟩⟩ := hx <;> simp [Said.onErr]
  have htests : (listTests tests).filter Said.onErr = [] := by
    unfold listTests
    rw [List.filter_eq_nil_iff]
    intro x hx
    simp only [List.cons_append, List.mem_cons, List.mem_append, List.mem_flatMap, List.mem_map, List.not_mem_nil, or_false] at hx
    obtain rfl | ⟨p, -, rfl | rfl | ⟨y, -, rfl⟩⟩ | rfl := hx <;> simp [Said.onErr]
  unfold reviewTalk
  simp only [hv, Bool.not_true, Bool.false_eq_true, if_false, hver, hgt, hgf, if_true]
  have key : ∀ w, (((do let db ← readDdlTalk a.database defaultSchema a.databaseFile; reviewPart r a db none : Talk ReviewOut) w).2.1.filter Said.onErr) =
      (parseReports w.disk.fs { databaseName := n } (some f)).map .parser := by
    intro w
    simp only [Talk.bind_eq, readDdlTalk, hn, hfile, parserSays]
    rcases parseFor w.disk.fs (some n) defaultSchema (some f) with e | db
    · simp only [hall]
    · simp only [List.filter_append, hpart, List.append_nil, hall]
  rw [Talk.bind_eq]
  simp only [Talk.say, List.cons_append, List.nil_append, List.filter_cons_of_neg (show ¬ Said.onErr .args = true by simp [Said.onErr])]
  cases a.showTests with
  | false =>
    simp only [Talk.when, Bool.false_eq_true, if_false]
    rw [Talk.bind_eq]
    simp only [pure]
    simpa using key w
  | true =>
    simp only [Talk.when, if_true]
    rw [Talk.bind_eq]
    have hs : Talk.sayAll (listTests tests) w = (w, listTests tests, .ok ()) := rfl
    rw [hs]
    simp only [List.filter_append, htests, List.nil_append]
    exact key w

/-- A run that converts and validates a file with an unknown type and a statement that alters an unknown table: both are reported, the script is on the standard output. -/
example : (runOn [c!"--from_ddl=f", c!"-d=d", c!"-v", c!"--to_tql=-"] [(c!"f", .file (.text c!"CREATE TABLE a (x FOO);\nALTER TABLE b ADD CONSTRAINT PRIMARY KEY (x);"))]).err.length = 2 ∧
    c!"CREATE TABLE" <:+: (runOn [c!"--from_ddl=f", c!"-d=d", c!"-v", c!"--to_tql=-"] [(c!"f", .file (.text c!"CREATE TABLE a (x FOO);\nALTER TABLE b ADD CONSTRAINT PRIMARY KEY (x);"))]).out ∧
    (runOn [c!"--from_ddl=f", c!"-d=d", c!"-v", c!"--to_tql=-"] [(c!"f", .file (.text oneLine))]).err = [] := by decide +kernel

end Verif.Props
