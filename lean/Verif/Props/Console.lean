import Verif.Lemmas.Console
import Verif.Props.Cli
import Verif.Props.Validation
import Verif.Props.ExcelReports
/-
C83: what convert_ddl says on the terminal.
-/

namespace Verif.Props
open Verif Verif.Spec

/-! ## Steps -/

/-- What is printed changes nothing in what is done. -/
theorem C83_same (env : Env) (dir : Str) (a : ConvertArgs) (w : World) :
    ((convertTalk env dir a w).1, (convertTalk env dir a w).2.2) = convertMain env a w :=
  congrFun (mute_convert env dir a) w

theorem transcript_append {p q : List Step} {l m : List Said} (h1 : Transcript p l) (h2 : Transcript q m) : Transcript (p ++ q) (l ++ m) := by
  induction h1 with
  | nil => exact h2
  | step hs _ ih =>
    have := Transcript.step hs ih
    simpa using this

/-- What a run says and does, by the parts. -/
theorem talk_parts {env : Env} {dir : Str} {a : ConvertArgs} (hv : ConvertDocumented a) (hver : a.version = false) (w : World) :
    (∃ w1 l e, readTalk env a w = (w1, l, .error e) ∧ convertRead env a w = (w1, .error e) ∧ convertTalk env dir a w = (w1, .args :: l, .error e)) ∨
    (∃ w1 l db, readTalk env a w = (w1, l, .ok db) ∧ convertRead env a w = (w1, .ok db) ∧
      convertTalk env dir a w = ((writeTalk env a db w1).1, .args :: l ++ (writeTalk env a db w1).2.1, (writeTalk env a db w1).2.2)) := by
  have hm := congrFun (mute_read env a) w
  rcases hr : readTalk env a w with ⟨w1, l, e | db⟩
  · refine .inl ⟨w1, l, e, rfl, ?_, ?_⟩
    · rw [← hm]; simp [Talk.mute, hr]
    · unfold convertTalk
      rw [if_pos ((C60_convert a).2 hv), hver]
      simp [Talk.bind_eq, Talk.say, hr]
  · refine .inr ⟨w1, l, db, rfl, ?_, ?_⟩
    · rw [← hm]; simp [Talk.mute, hr]
    · unfold convertTalk
      rw [if_pos ((C60_convert a).2 hv), hver]
      simp [Talk.bind_eq, Talk.say, hr]

/-- C83: the text on the terminal follows the steps that were asked for, in order, each announced before what is said in it.  Without an exception all are there.  With one, the
steps up to the last one announced give the same exception and the same state of the files, and, unless that step is the reading, the steps before it give none: the step announced
last is the one that failed. -/
theorem C83_steps {env : Env} {dir : Str} {a : ConvertArgs} {p : List Step} (hv : ConvertDocumented a) (hver : a.version = false) (hp : Plan a p) (w : World) :
    ∃ done rest l, p = done ++ rest ∧ (convertTalk env dir a w).2.1 = .args :: l ∧ Transcript done l ∧ ((convertTalk env dir a w).2.2 = .ok () → rest = []) ∧
      ∀ e, (convertTalk env dir a w).2.2 = .error e → convertMain env (onlySteps done a) w = ((convertTalk env dir a w).1, .error e) ∧
        ∀ pre s, done = pre ++ [s] → s.reads = false → (convertMain env (onlySteps pre a) w).2 = .ok () := by
  have hvalid := (C60_convert a).2 hv
  have hreads : ∀ s ∈ readPlan a, s.reads = true := fun s hs => (mem_readPlan.1 hs).1
  rw [plan_eq hp]
  have hsaid := readTalk_said env a w
  rcases talk_parts (env := env) (dir := dir) hv hver w with ⟨w1, l, e, hr, hc, h⟩ | ⟨w1, l, db, hr, hc, h⟩
  · rw [hr] at hsaid
    refine ⟨readPlan a, writePlan a, l, rfl, by rw [h], hsaid, by rw [h]; simp, fun e' he => ⟨?_, fun pre s hd hs => ?_⟩⟩
    · rw [h] at he ⊢
      simp only [Except.error.injEq] at he
      subst he
      rw [main_onlySteps hvalid hver, Act.bind_eq, hc]
    · have := hreads s (by rw [hd]; simp)
      rw [this] at hs; cases hs
  · rw [hr] at hsaid
    obtain ⟨done, rest, he, ht, hok, herr⟩ := run_steps (stepTalk env a db) (writePlan a) (fun s hs => stepTalk_said env a db s (mem_writePlan.1 hs).1) w1
    rw [← writeTalk_steps] at ht hok herr
    have hpre : done <+: writePlan a := ⟨rest, he.symm⟩
    refine ⟨readPlan a ++ done, rest, l ++ (writeTalk env a db w1).2.1, by rw [he, List.append_assoc], by rw [h]; rfl, transcript_append hsaid ht, by rw [h]; exact hok, fun e hE => ?_⟩
    rw [h] at hE
    obtain ⟨h1, pre, s, h2, h3⟩ := herr e hE
    refine ⟨?_, fun pre' s' hd hs => ?_⟩
    · rw [h, main_onlySteps hvalid hver, Act.bind_eq, hc]
      simp only [write_onlySteps hpre hreads]
      exact h1
    · rw [h2, ← List.append_assoc] at hd
      obtain ⟨rfl, -⟩ := List.append_inj' hd rfl
      rw [main_onlySteps hvalid hver, Act.bind_eq, hc]
      simp only [write_onlySteps ((List.prefix_append pre [s]).trans (h2 ▸ hpre)) hreads]
      exact h3

/-- C83: arguments that are not as documented are met with one line that says what is missing, and nothing is done. -/
theorem C83_arguments (env : Env) (dir : Str) (a : ConvertArgs) (w : World) :
    (¬ (a.version = true ∨ a.empty = true ∨ Given a.fromDdl ∨ Given a.fromExcel ∨ Given a.fromTs ∨ Given a.toExcel) →
      convertTalk env dir a w = (w, [.err c!"--version, --empty, --from_ddl, --from_excel, or from_ts must be provided as arguments."], .ok ())) ∧
    ((Given a.fromDdl ∨ Given a.fromTs) → ¬ Given a.database →
      convertTalk env dir a w = (w, [.err c!"--from_ddl and --from_ts require the --database parameter."], .ok ())) ∧
    (ConvertDocumented a → a.version = true → convertTalk env dir a w = (w, [.args, .out (c!"convert_ddl (v2.0):  " ++ dir ++ c!"/convert_ddl")], .ok ())) := by
  refine ⟨fun h => ?_, fun h1 h2 => ?_, fun h1 h2 => ?_⟩
  · simp only [← given_iff, not_or, Bool.not_eq_true] at h
    simp [convertTalk, validConvert, h, Talk.say]
  · simp only [← given_iff, Bool.not_eq_true] at h1 h2
    rcases h1 with h1 | h1 <;> simp [convertTalk, validConvert, h1, h2, Talk.say]
  · unfold convertTalk
    rw [if_pos ((C60_convert a).2 h1), h2]
    simp [Talk.bind_eq, Talk.say]


example : ¬ (({ toTql := some c!"g" } : ConvertArgs).version = true ∨ ({ toTql := some c!"g" } : ConvertArgs).empty = true) ∧
    (Given { copyArgs with database := none }.fromDdl ∧ ¬ Given { copyArgs with database := none }.database) ∧ ConvertDocumented { version := true } :=
  ⟨by decide, ⟨⟨_, rfl, by decide⟩, by simp [Given]⟩, (C60_convert _).1 (by decide)⟩

/-! ## Samples -/

/-- A run with a file that can be read. -/
def goodRun : World := ⟨disk [(c!"f", .file (.text oneLine))], []⟩

example : ConvertDocumented copyArgs ∧ copyArgs.version = false ∧ Plan copyArgs [.readDdl, .writeTql] :=
  ⟨(C60_convert _).1 (by decide), rfl, plan_planned copyArgs⟩

example : (convertTalk (sayEnv []) c!"/x" copyArgs goodRun).2.1 = [.args, .out c!"Reading DDL ...", .out c!"Writing TQL ..."] := by decide +kernel

/-- A file that is not there: the parser says so, then the writer fails and nothing is sent to the server. -/
example : (convertTalk (sayEnv []) c!"/x" { copyArgs with toTs := some c!"host" } ⟨disk [], []⟩).2.1 =
      [.args, .out c!"Reading DDL ...", .parser (.noFile c!"f"), .out c!"Writing TQL ..."] ∧
    (convertTalk (sayEnv []) c!"/x" { copyArgs with toTs := some c!"host" } ⟨disk [], []⟩).2.2 = .error .attribute := by decide +kernel

/-! ## The report on the validity -/

theorem headed_of_read {wb : Workbook} {dbs : Dict Database} (h : readXls wb = .ok dbs) : Headed wb := by
  unfold readXls at h
  rw [bind_ok_iff] at h
  obtain ⟨r, hr, -⟩ := h
  exact headed_of_verify hr

/-- What holds for every database that convert_ddl reads. -/
theorem read_sound {env : Env} {a : ConvertArgs} {w : World} {db : Database} (h : (convertRead env a w).2 = .ok (some db)) :
    WellKeyed db ∧ ∀ n t, TableOf db n t → ∀ m k, (m, k) ∈ t.fks → k.fromKeys.length = k.toKeys.length := by
  have hparse : ∀ {fs : FS} {name : Option Str} {schema : Str} {f : Option Str}, parseFor fs name schema f = .ok (some db) →
      WellKeyed db ∧ ∀ n t, TableOf db n t → ∀ m k, (m, k) ∈ t.fks → k.fromKeys.length = k.toKeys.length := by
    intro fs name schema f h
    unfold parseFor at h
    split at h
    · have := ((C36_parsed_database_consistent _ _ _).1 db h).1
      exact ⟨this.keyed, fun n t ht m k hk => (this.fks n t ht m k hk).2⟩
    · split at h <;> simp at h
  unfold convertRead at h
  split at h
  · exact hparse h
  · split at h
    · unfold readExcel at h
      generalize w.disk (a.fromExcel.getD []) = it at h
      rcases it with _ | ⟨s⟩ | ⟨wb⟩
      · simp at h
      · simp at h
      · simp only at h
        cases hx : readXls wb with
        | error e => rw [hx] at h; simp [Except.map] at h
        | ok dbs =>
          rw [hx] at h
          simp only [Except.map, Except.ok.injEq] at h
          have hh := headed_of_read hx
          by_cases hs : Shaped wb
          · obtain ⟨hT, rT, hC, rC, hF, rF, hR, rR, S⟩ := shaped_sheets hs
            obtain ⟨l, -, -, hd⟩ := C42_created hs hx S.tables
            cases dbs with
            | nil => simp at h
            | cons p dbs =>
              obtain ⟨n, d⟩ := p
              simp [Dict.vals] at h
              subst h
              have hg : Dict.get? ((n, d) :: dbs) n = some d := by simp [Dict.get?]
              refine ⟨(hd n d hg).2.1, fun m t ht x k hk => ?_⟩
              have hw := (hd n d hg).2.1
              have hc := (C42_contents hs hx S.tables S.columns S.fks S.rels hg (Dict.get?_of_mem hw.tables ht)).2.2.1
              obtain ⟨ks, hks, hf⟩ := hc
              obtain ⟨pre, post, he, -⟩ := (hf.2 x k).1 (Dict.get?_of_mem (hw.fks m t ht) hk)
              have hm : k ∈ ks := by rw [he]; simp
              obtain ⟨i, hi, e⟩ := List.getElem_of_mem hm
              obtain ⟨hl, hget⟩ := List.forall₂_iff_get.1 hks
              have hrow := hget i (hl ▸ hi) hi
              simp only [List.get_eq_getElem, e] at hrow
              exact hrow.2.2.2.2.2
          · rw [readXls_misshaped hh hs] at hx
            cases hx
            simp at h
    · split at h
      · unfold readFromTs at h
        simp only at h
        split at h
        · cases h
        · split at h
          · split at h
            · cases h
            · rename_i hp
              simp only [Except.ok.injEq] at h
              subst h
              exact hparse hp
          · cases h
      · simp only [Act.lift] at h
        unfold mkDatabase at h
        split at h
        · simp [Except.map] at h
        · simp only [Except.map, Except.ok.injEq, Option.some.injEq] at h
          subst h
          exact ⟨wellKeyed_empty _, fun n t ht => absurd ht (by simp [TableOf])⟩

/-- Outside the validation nobody says that the database is valid. -/
theorem not_valid_elsewhere {p : List Step} {l : List Said} (h : Transcript p l) (hp : .validate ∉ p) : Said.out c!"Database is valid." ∉ l := by
  induction h with
  | nil => simp
  | step hs htr ih =>
    rename_i s m ss l
    simp only [List.mem_cons, not_or] at hp
    simp only [List.cons_append, List.mem_cons, List.mem_append, not_or]
    refine ⟨?_, fun hm => ?_, ih hp.2⟩
    · intro e
      cases s <;> simp [Step.line] at e
    · cases s with
      | readDdl => obtain ⟨r, e⟩ := hs _ hm; cases e
      | readServer => obtain ⟨r, e⟩ := hs _ hm; cases e
      | readExcel =>
        obtain ⟨x, e, rfl, hx, he⟩ := hs
        rcases List.mem_append.1 hm with hm | hm
        · obtain ⟨r, e⟩ := hx _ hm; cases e
        · rcases he with rfl | ⟨s, rfl⟩ <;> simp at hm
      | validate => exact absurd rfl hp.1
      | writeTql => rcases hs with rfl | ⟨s, rfl⟩ <;> simp at hm
      | writeExcel => rw [show m = [] from hs] at hm; simp at hm
      | writeServer => rcases hs with rfl | ⟨s, rfl⟩ <;> simp at hm

/-- C83: with `--validate` the announcement is followed by "Database is valid." if the database read is well-formed, otherwise by one line for each defect with its severity, and by no
other line. -/
theorem C83_valid {env : Env} {dir : Str} {a : ConvertArgs} {w : World} {db : Database} (hv : ConvertDocumented a) (hver : a.version = false) (hval : a.validate = true)
    (hr : (convertRead env a w).2 = .ok (some db)) :
    ∃ p q before lines after, (convertTalk env dir a w).2.1 = .args :: before ++ .out c!"Validating database" :: lines ++ after ∧
      Transcript p before ∧ Transcript q after ∧ .validate ∉ p ∧ .validate ∉ q ∧
      (WellFormed db → lines = [.out c!"Database is valid."]) ∧
      (¬ WellFormed db → ∀ x, x ∈ lines ↔ ∃ n t m s, TableOf db n t ∧ Defect db t m s ∧
        x = .err ((match s with | .warning => c!"Warning" | .error => c!"Error") ++ c!":  database " ++ db.name ++ c!", table " ++ n ++ c!":  " ++ m)) := by
  obtain ⟨hw, hlen⟩ := read_sound hr
  have hsaid := readTalk_said env a w
  rcases talk_parts (env := env) (dir := dir) hv hver w with ⟨w1, l, e, hr', hc, h⟩ | ⟨w1, l, db', hr', hc, h⟩
  · rw [hc] at hr; cases hr
  rw [hc] at hr
  simp only [Except.ok.injEq] at hr
  subst hr
  rw [hr'] at hsaid
  obtain ⟨r, hok, h1, h2⟩ := ext_validate hw (fun n t ht m k hk _ => le_of_eq (hlen n t ht m k hk))
  have hiff := C08_valid_iff_well_formed db hw
  obtain ⟨hiss, -⟩ := C09_issues_are_exactly_the_defects db hw r hok
  obtain ⟨rest, hplan⟩ : ∃ rest, writePlan a = .validate :: rest := ⟨_, by unfold writePlan; rw [hval, if_pos rfl]; rfl⟩
  have hnd : (writePlan a).Nodup := allSteps_nodup.sublist (writePlan_sublist a)
  rw [hplan, List.nodup_cons] at hnd
  have hv1 : validateTalk (some db) w1 = (w1, if !r.isValid then r.lines.map .err else [.out c!"Database is valid."], .ok ()) := by
    simp [validateTalk, hok]
  obtain ⟨done, rest', he, ht, -, -⟩ := run_steps (stepTalk env a (some db)) rest
    (fun s hs => stepTalk_said env a (some db) s (mem_writePlan.1 (by rw [hplan]; simp [hs])).1) w1
  refine ⟨readPlan a, done, l, if !r.isValid then r.lines.map .err else [.out c!"Database is valid."], (runSteps (stepTalk env a (some db)) rest w1).2.1, ?_, hsaid, ht, ?_, ?_, ?_, ?_⟩
  · rw [h, writeTalk_steps, hplan, runSteps]
    simp only [Talk.bind_eq, Talk.say, stepTalk, hv1]
    simp [Step.line]
  · intro hm
    have := (mem_readPlan.1 hm).1
    cases this
  · intro hm
    exact hnd.1 (by rw [he]; simp [hm])
  · intro hwf
    obtain ⟨r', hr1, hr2⟩ := hiff.2 hwf
    rw [hok] at hr1
    cases hr1
    simp [hr2]
  · intro hwf x
    have hfalse : r.isValid = false := by
      cases e : r.isValid with
      | false => rfl
      | true => exact absurd (hiff.1 ⟨r, hok, e⟩) hwf
    simp only [hfalse, Bool.not_false, if_true, ValidationResult.lines, List.map_map, List.mem_map, Function.comp]
    constructor
    · rintro ⟨⟨text, level⟩, hm, rfl⟩
      obtain ⟨n, t, m, s, ht, hd, rfl, rfl⟩ := (hiss text level).1 hm
      refine ⟨n, t, m, s, ht, hd, ?_⟩
      cases s <;> simp [Level.text]
    · rintro ⟨n, t, m, s, ht, hd, rfl⟩
      refine ⟨(_, _), (hiss _ _).2 ⟨n, t, m, s, ht, hd, rfl, rfl⟩, ?_⟩
      cases s <;> simp [Level.text]

/-- C83: a run with `--validate` says "Database is valid." exactly if the database read is well-formed. -/
theorem C83_valid_iff {env : Env} {dir : Str} {a : ConvertArgs} {w : World} {db : Database} (hv : ConvertDocumented a) (hver : a.version = false) (hval : a.validate = true)
    (hr : (convertRead env a w).2 = .ok (some db)) : .out c!"Database is valid." ∈ (convertTalk env dir a w).2.1 ↔ WellFormed db := by
  obtain ⟨p, q, before, lines, after, h, hb, ha, hp, hq, h1, h2⟩ := C83_valid (dir := dir) hv hver hval hr
  have n1 := not_valid_elsewhere hb hp
  have n2 := not_valid_elsewhere ha hq
  rw [h]
  by_cases hwf : WellFormed db
  · simp [hwf, h1 hwf]
  · simp only [List.cons_append, List.mem_cons, List.mem_append, reduceCtorEq, false_or, n1, n2, or_false, hwf, iff_false, not_or]
    refine ⟨by simp, fun hm => ?_⟩
    obtain ⟨n, t, m, s, -, -, e⟩ := (h2 hwf _).1 hm
    cases e

/-- A column of a type that is not known. -/
def oddLine : Str := c!"CREATE TABLE a (x BLOB);"

example : (convertTalk (sayEnv []) c!"/x" { copyArgs with validate := true } goodRun).2.1 =
      [.args, .out c!"Reading DDL ...", .out c!"Validating database", .out c!"Database is valid.", .out c!"Writing TQL ..."] ∧
    (convertTalk (sayEnv []) c!"/x" { copyArgs with validate := true } ⟨disk [(c!"f", .file (.text oddLine))], []⟩).2.1 =
      [.args, .out c!"Reading DDL ...", .out c!"Validating database", .err c!"Warning:  database d, table a:  column x is of type UNKNOWN.", .out c!"Writing TQL ..."] := by
  decide +kernel

/-! ## Workbooks with several databases -/

/-- C83: a run on a workbook reports what the reader could not use, then that there is no database, if the sheet "Tables" names none, or, if it names several, which one is used: the
first. -/
theorem C83_databases {env : Env} {dir : Str} {a : ConvertArgs} {w : World} {wb : Workbook} {f : Str} (hv : ConvertDocumented a) (hver : a.version = false)
    (hnd : ¬ Given a.fromDdl) (hx : a.fromExcel = some f) (hne : f ≠ []) (hf : w.disk f = some (.book wb)) (hs : Shaped wb) {dbs : Dict Database} (hr : readXls wb = .ok dbs)
    {h : List XCell} {rows : List (List XCell)} (hsheet : SheetIs wb c!"Tables" h rows) :
    ∃ l said after p, RowsName h rows l ∧ (convertTalk env dir a w).2.1 = .args :: .out c!"Reading Excel ..." :: (readXlsTold wb).1.map .book ++ said ++ after ∧ Transcript p after ∧
      .readExcel ∉ p ∧
      (firstUses (l.map Prod.fst) = [] → said = [.err c!"ERROR:  No databases read."] ∧ (convertRead env a w).2 = .ok none) ∧
      (∀ d ds, firstUses (l.map Prod.fst) = d :: ds → (said = if ds = [] then [] else [.err (c!"WARNING:  multiple databases read.  Only using " ++ d)]) ∧
        ∃ db, (convertRead env a w).2 = .ok (some db) ∧ db.name = d) := by
  obtain ⟨l, hl, hk, hd⟩ := C42_created hs hr hsheet
  have hgd : given a.fromDdl = false := by
    cases e : given a.fromDdl with
    | false => rfl
    | true => exact absurd (given_iff.1 e) hnd
  have hgx : given a.fromExcel = true := given_iff.2 ⟨f, hx, hne⟩
  have hread : readTalk env a w = (w, .out c!"Reading Excel ..." :: ((readXlsTold wb).1.map .book ++
      (if dbs.length = 0 then [.err c!"ERROR:  No databases read."]
        else if 1 < dbs.length then [.err (c!"WARNING:  multiple databases read.  Only using " ++ (dbs.vals.head?.map (·.name)).getD [])] else [])),
      .ok (if dbs.length = 0 then none else dbs.vals.head?)) := by
    unfold readTalk
    rw [hgd, hgx]
    simp only [Bool.false_eq_true, if_false, if_true, hx, Option.getD_some, Talk.bind_eq, Talk.say, readExcelTalk, hf, readXlsTold_snd, hr]
    by_cases h0 : dbs.length = 0
    · simp [h0]
    · simp [h0]
  rcases talk_parts (env := env) (dir := dir) hv hver w with ⟨w1, m, e, hr', hc, ht⟩ | ⟨w1, m, db', hr', hc, ht⟩
  · rw [hread] at hr'; simp at hr'
  rw [hread] at hr'
  simp only [Prod.mk.injEq, Except.ok.injEq] at hr'
  obtain ⟨rfl, rfl, rfl⟩ := hr'
  obtain ⟨done, rest', he, htr, -, -⟩ := run_steps (stepTalk env a (if dbs.length = 0 then none else dbs.vals.head?)) (writePlan a)
    (fun s hs => stepTalk_said env a _ s (mem_writePlan.1 hs).1) w
  refine ⟨l, if dbs.length = 0 then [.err c!"ERROR:  No databases read."] else if 1 < dbs.length then [.err (c!"WARNING:  multiple databases read.  Only using " ++ (dbs.vals.head?.map (·.name)).getD [])] else [], _, done, hl, ?_, htr, ?_, fun h0 => ?_, fun d ds h0 => ?_⟩
  · rw [ht, ← writeTalk_steps]
    simp
  · intro hm
    have := (mem_writePlan.1 (show Step.readExcel ∈ writePlan a by rw [he]; simp [hm])).1
    cases this
  · rw [h0] at hk
    have : dbs = [] := by simpa [Dict.keys] using hk
    subst this
    exact ⟨rfl, by rw [hc]; rfl⟩
  · rw [h0] at hk
    cases dbs with
    | nil => simp [Dict.keys] at hk
    | cons p dbs =>
      obtain ⟨n, db⟩ := p
      simp only [Dict.keys, List.map_cons, List.cons.injEq] at hk
      obtain ⟨rfl, rfl⟩ := hk
      have hn := (hd n db (by simp [Dict.get?])).1
      refine ⟨?_, db, by rw [hc]; simp [Dict.vals], hn⟩
      cases dbs with
      | nil => simp
      | cons q dbs => simp [Dict.vals, hn]

example : (convertTalk (sayEnv []) c!"/x" { fromExcel := some c!"f", toTql := some c!"g" } ⟨disk [(c!"f", .book sampleBook)], []⟩).2.1.filter (fun x => match x with | .book _ => false | _ => true) =
    [.args, .out c!"Reading Excel ...", .err c!"WARNING:  multiple databases read.  Only using d", .out c!"Writing TQL ..."] := by decide +kernel

/-! ## Writing to the standard output -/

/-- A run that writes a script and nothing else. -/
theorem main_tql_only {env : Env} {a : ConvertArgs} {w w1 : World} {db : Database} {f : Str} {r : ValidationResult} (hv : validConvert a = true) (hver : a.version = false)
    (hto : a.toTql = some f) (hf : f ≠ []) (hx : given a.toExcel = false) (ht : given a.toTs = false) (hc : convertRead env a w = (w1, .ok (some db))) (hok : db.validate = .ok r) :
    convertMain env a w = tqlToFile env (tqlOpts a) (some db) f w1 := by
  have hval : Act.when a.validate (convertValidate (some db)) w1 = (w1, .ok ()) := by
    cases a.validate
    · rfl
    · simp [Act.when, convertValidate, Act.lift, hok, Except.map]
  unfold convertMain
  rw [if_pos hv, hver]
  simp only [Bool.false_eq_true, if_false]
  rw [Act.bind_eq, hc]
  simp only
  unfold convertWrite
  rw [Act.bind_eq, hval, hx, ht, hto, given_iff.2 ⟨f, rfl, hf⟩]
  simp only [Act.when, if_true, Bool.false_eq_true, if_false, Option.getD_some]
  rw [Act.bind_eq]
  rcases tqlToFile env (tqlOpts a) (some db) f w1 with ⟨w2, e | ⟨⟩⟩ <;> rfl

/-- C83: with `--to_tql -` the script comes last on the terminal, and it is what a run with a file name leaves in that file. -/
theorem C83_standard_output {env : Env} {dir : Str} {a : ConvertArgs} {w : World} {db : Database} {g : Str} (hv : ConvertDocumented a) (hver : a.version = false)
    (hr : (convertRead env a w).2 = .ok (some db)) (hto : a.toTql = some c!"-") (hx : ¬ Given a.toExcel) (ht : ¬ Given a.toTs) (hg : g ≠ []) (hg' : g ≠ c!"-") (hw : env.writable g = true) :
    ∃ s, (convertTalk env dir a w).2.1.getLast? = some (.script s) ∧
      (convertMain env { a with toTql := some g } w).1.disk g = some (.file (.text s)) ∧
      (convertMain env { a with toTql := some g } w).2 = (convertMain env a w).2 := by
  obtain ⟨hwk, hlen⟩ := read_sound hr
  obtain ⟨r, hok, -, -⟩ := ext_validate hwk (fun n t ht m k hk _ => le_of_eq (hlen n t ht m k hk))
  have hvalid := (C60_convert a).2 hv
  have hgx : given a.toExcel = false := by
    cases e : given a.toExcel with
    | false => rfl
    | true => exact absurd (given_iff.1 e) hx
  have hgt : given a.toTs = false := by
    cases e : given a.toTs with
    | false => rfl
    | true => exact absurd (given_iff.1 e) ht
  have hvalid' : validConvert { a with toTql := some g } = true := hvalid
  rcases talk_parts (env := env) (dir := dir) hv hver w with ⟨w1, l, e, hr', hc, h⟩ | ⟨w1, l, db', hr', hc, h⟩
  · rw [hc] at hr; cases hr
  rw [hc] at hr
  simp only [Except.ok.injEq] at hr
  subst hr
  have hc' : convertRead env { a with toTql := some g } w = (w1, .ok (some db)) := hc
  refine ⟨(writeTql (tqlOpts a) db).1, ?_, ?_⟩
  · rw [h]
    unfold writeTalk
    rw [hgx, hgt, hto]
    simp only [Talk.when, given, Bool.false_eq_true, if_false, talk_bind_pure]
    have hcons : Talk.when a.validate (do Talk.say (.out c!"Validating database"); validateTalk (some db)) w1 =
        (w1, if a.validate then .out c!"Validating database" :: (if !r.isValid then r.lines.map .err else [.out c!"Database is valid."]) else [], .ok ()) := by
      cases a.validate <;> simp [Talk.when, Talk.bind_eq, Talk.say, validateTalk, hok, Talk.pure_eq]
    simp only [Talk.when] at hcons
    rw [Talk.bind_eq, hcons]
    simp [Talk.bind_eq, Talk.say, tqlTalk, tqlToFile]
    generalize (if a.validate = true then _ else _ : List Said) = m
    rw [List.getLast?_cons, List.getLast?_append, List.getLast?_append]
    simp
  · have e1 := main_tql_only (env := env) hvalid hver hto (by simp) hgx hgt hc hok
    have e2 := main_tql_only (env := env) (a := { a with toTql := some g }) hvalid' hver rfl hg hgx hgt hc' hok
    rw [e1, e2]
    simp only [tqlToFile, hg, hg', hw, or_self, if_false, if_true, or_true]
    exact ⟨Disk.put_self _ _ _, rfl⟩

example : (convertTalk (sayEnv []) c!"/x" { copyArgs with toTql := some c!"-" } goodRun).2.1.getLast? = (textAt (convertMain (sayEnv []) copyArgs goodRun).1 c!"g").map .script ∧
    textAt (convertMain (sayEnv []) copyArgs goodRun).1 c!"g" ≠ none := by decide +kernel

/-! ## The answer of the server -/

/-- No answer of a server is printed in steps other than writing to one. -/
theorem no_answer {p : List Step} {l : List Said} (h : Transcript p l) (hp : .writeServer ∉ p) (m : List Str) : Said.response m ∉ l := by
  induction h with
  | nil => simp
  | step hs htr ih =>
    rename_i s m' ss l
    simp only [List.mem_cons, not_or] at hp
    simp only [List.cons_append, List.mem_cons, List.mem_append, not_or]
    refine ⟨by simp, fun hm => ?_, ih hp.2⟩
    cases s with
    | readDdl => obtain ⟨r, e⟩ := hs _ hm; cases e
    | readServer => obtain ⟨r, e⟩ := hs _ hm; cases e
    | readExcel =>
      obtain ⟨x, e, rfl, h1, h2⟩ := hs
      rcases List.mem_append.1 hm with hm | hm
      · obtain ⟨r, e⟩ := h1 _ hm; cases e
      · rcases h2 with rfl | ⟨s, rfl⟩ <;> simp at hm
    | validate =>
      rcases hs with rfl | hs
      · simp at hm
      · obtain ⟨r, e⟩ := hs _ hm; cases e
    | writeTql => rcases hs with rfl | ⟨s, rfl⟩ <;> simp at hm
    | writeExcel => rw [hs] at hm; simp at hm
    | writeServer => exact hp.1 rfl

theorem talk_ok {α β : Type} {x : Talk α} {f : α → Talk β} {w : World} {b : β} (h : ((x >>= f) w).2.2 = .ok b) :
    ∃ w1 l a, x w = (w1, l, .ok a) ∧ (f a w1).2.2 = .ok b ∧ (x >>= f) w = ((f a w1).1, l ++ (f a w1).2.1, .ok b) := by
  rw [Talk.bind_eq] at h ⊢
  rcases hx : x w with ⟨w1, l, e | a⟩
  · rw [hx] at h; cases h
  · rw [hx] at h
    simp only at h ⊢
    exact ⟨w1, l, a, rfl, h, by rw [h]⟩

theorem validate_silent (db : Option Database) (w : World) (m : List Str) : Said.response m ∉ (validateTalk db w).2.1 := by
  unfold validateTalk
  split
  · simp
  · split
    · simp
    · split <;> simp

theorem tql_silent {env : Env} {o : TqlOpts} (db : Option Database) (f : Str) (w : World) (m : List Str) : Said.response m ∉ (tqlTalk env o db f w).2.1 := by
  unfold tqlTalk
  rcases db with _ | db
  · simp
  · simp only
    split <;> simp

/-- C83: a run that writes to a server and succeeds prints the answer to the last thing it sent, in the end and once. -/
theorem C83_answer {env : Env} {dir : Str} {a : ConvertArgs} {w : World} {host : Str} (hv : ConvertDocumented a) (hver : a.version = false) (hto : a.toTs = some host) (hne : host ≠ [])
    (hok : (convertTalk env dir a w).2.2 = .ok ()) :
    ∃ said sent data l, (convertTalk env dir a w).2.1 = said ++ [.response l] ∧ (∀ m, .response m ∉ said) ∧ (convertTalk env dir a w).1.sent = sent ++ [(host, data)] ∧
      env.answer host data = .ok l := by
  have hg : given a.toTs = true := given_iff.2 ⟨host, hto, hne⟩
  have hsaid := readTalk_said env a w
  rcases talk_parts (env := env) (dir := dir) hv hver w with ⟨w1, l, e, hr', hc, h⟩ | ⟨w1, l, db, hr', hc, h⟩
  · rw [h] at hok; cases hok
  rw [hr'] at hsaid
  have hl : ∀ m, Said.response m ∉ l := no_answer hsaid (fun hm => by have := (mem_readPlan.1 hm).1; cases this)
  rw [h] at hok ⊢
  simp only at hok ⊢
  unfold writeTalk at hok ⊢
  obtain ⟨w2, l2, u2, e2, hok2, e2'⟩ := talk_ok hok
  obtain ⟨w3, l3, u3, e3, hok3, e3'⟩ := talk_ok hok2
  obtain ⟨w4, l4, u4, e4, hok4, e4'⟩ := talk_ok hok3
  rw [e2', e3', e4']
  have q2 : ∀ m, Said.response m ∉ l2 := by
    intro m hm
    have : Said.response m ∈ (Talk.when a.validate (do Talk.say (.out c!"Validating database"); validateTalk db) w1).2.1 := by rw [e2]; exact hm
    cases hval : a.validate <;> rw [hval] at this
    · simp [Talk.when, Talk.pure_eq] at this
    · simp only [Talk.when, if_true, Talk.bind_eq, Talk.say, List.cons_append, List.nil_append, List.mem_cons, reduceCtorEq, false_or] at this
      exact validate_silent db w1 m this
  have q3 : ∀ m, Said.response m ∉ l3 := by
    intro m hm
    have : Said.response m ∈ (Talk.when (given a.toTql) (do Talk.say (.out c!"Writing TQL ..."); tqlTalk env (tqlOpts a) db (a.toTql.getD [])) w2).2.1 := by rw [e3]; exact hm
    cases hval : given a.toTql <;> rw [hval] at this
    · simp [Talk.when, Talk.pure_eq] at this
    · simp only [Talk.when, if_true, Talk.bind_eq, Talk.say, List.cons_append, List.nil_append, List.mem_cons, reduceCtorEq, false_or] at this
      exact tql_silent db _ w2 m this
  have q4 : ∀ m, Said.response m ∉ l4 := by
    intro m hm
    have : Said.response m ∈ (Talk.when (given a.toExcel) (do Talk.say (.out c!"Writing Excel ..."); Talk.act (excelToFile env db (a.toExcel.getD []))) w3).2.1 := by rw [e4]; exact hm
    cases hval : given a.toExcel <;> rw [hval] at this
    · simp [Talk.when, Talk.pure_eq] at this
    · simp [Talk.when, if_true, Talk.bind_eq, Talk.say, Talk.act] at this
  simp only [hg, Talk.when, if_true] at hok4 ⊢
  obtain ⟨w5, l5, u5, e5, hok5, e5'⟩ := talk_ok hok4
  rw [e5']
  have q5 : ∀ m, Said.response m ∉ l5 := by
    intro m hm
    simp only [Talk.say, Prod.mk.injEq] at e5
    rw [← e5.2.1] at hm
    simp at hm
  rcases db with _ | d
  · simp [writeToTsTalk, Talk.act, Act.lift] at hok5
  simp only [writeToTsTalk] at hok5 ⊢
  obtain ⟨w6, l6, u6, e6, hok6, e6'⟩ := talk_ok hok5
  rw [e6']
  have q6 : ∀ m, Said.response m ∉ l6 := by
    intro m hm
    have : Said.response m ∈ (tqlTalk env (tqlOpts a) (some d) (tmpFile d.name) w5).2.1 := by rw [e6]; exact hm
    exact tql_silent _ _ _ m this
  simp only [sendTalk] at hok6 ⊢
  split at hok6
  · rename_i data hd
    rw [hto] at hok6 ⊢
    simp only [Option.getD_some] at hok6 ⊢
    cases ha : env.answer host (newlines data) with
    | error e => rw [ha] at hok6; cases hok6
    | ok r =>
      simp only [hd, ha]
      refine ⟨.args :: l ++ l2 ++ l3 ++ l4 ++ l5 ++ l6, _, newlines data, r, by simp, ?_, rfl, ha⟩
      intro m hm
      simp only [List.cons_append, List.mem_cons, List.mem_append, reduceCtorEq, false_or] at hm
      rcases hm with ((((hm | hm) | hm) | hm) | hm) | hm
      · exact hl m hm
      · exact q2 m hm
      · exact q3 m hm
      · exact q4 m hm
      · exact q5 m hm
      · exact q6 m hm
  · cases hok6

example : (convertTalk (sayEnv [c!"done"]) c!"/x" { copyArgs with toTql := none, toTs := some c!"host" } goodRun).2.1.getLast? = some (.response [c!"done"]) ∧
    (convertTalk (sayEnv [c!"done"]) c!"/x" { copyArgs with toTql := none, toTs := some c!"host" } goodRun).2.2 = .ok () ∧
    (convertTalk (sayEnv [c!"done"]) c!"/x" { copyArgs with toTql := none, toTs := some c!"host" } goodRun).1.sent.length = 1 := by decide +kernel

end Verif.Props
