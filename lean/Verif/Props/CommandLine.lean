import Verif.Lemmas.ArgHelp
import Verif.Lemmas.CommandLine
import Verif.Props.Cli
import Verif.Props.Console
import Verif.Props.DiffConsole
import Verif.Props.ReviewConsole
/-
C91: command lines are read as the options are declared.
-/

namespace Verif.Props
open Verif Verif.Spec

/-- C91: a command line is accepted exactly if it can be read, and then every reading gives the same values: the last setting counts, otherwise the default. -/
theorem C91_read {t : List OptDecl} (ht : Sensible t) (argv : List Str) :
    ((∃ ns, parseArgs t argv = .ok ns) ↔ ∃ l, Reads t argv l) ∧
    ∀ ns, parseArgs t argv = .ok ns → ∀ l, Reads t argv l → ∀ dest v, ns.get? dest = some v ↔ ValueAfter t l dest v := by
  refine ⟨⟨?_, ?_⟩, ?_⟩
  · rintro ⟨ns, h⟩
    obtain ⟨l, h1, -⟩ := (parseArgs_iff ht argv ns).1 h
    exact ⟨l, h1⟩
  · rintro ⟨l, h⟩
    exact ⟨_, (parseArgs_iff ht argv _).2 ⟨l, h, rfl⟩⟩
  · intro ns h l hl dest v
    have h2 := (parseArgs_iff ht argv _).2 ⟨l, hl, rfl⟩
    rw [h] at h2
    cases h2
    exact value_after ht l dest v

/-- C91: the three tables are sensible, and they are the documented ones; review_model has one option more, which is not documented. -/
theorem C91_documented : Sensible convertOpts ∧ Sensible diffOpts ∧ Sensible reviewOpts ∧
    List.Forall₂ Declared convertOpts convertManual ∧ List.Forall₂ Declared diffOpts diffManual ∧
    List.Forall₂ Declared reviewOpts (reviewManual ++ [([c!"--config_file"], true)]) := by
  refine ⟨convert_sensible, diff_sensible, review_sensible, ?_, ?_, ?_⟩
  all_goals
    unfold Declared
    repeat (first | exact List.Forall₂.nil | refine List.Forall₂.cons (by decide) ?_)

/-- C91: without options the arguments are the defaults. -/
theorem C91_defaults : (parseArgs convertOpts []).map convertArgs = .ok {} ∧ (parseArgs diffOpts []).map diffArgs = .ok {} ∧ (parseArgs reviewOpts []).map reviewArgs = .ok {} := by
  decide

/-- C91: convert_ddl gets any arguments from the documented options, in any order, with any user, password and debug option. -/
theorem C91_convert (user password : Option Str) (debug : Bool) (a : ConvertArgs) {argv : List Str} (h : argv.Perm (convertWords user password debug a)) :
    ∃ ns, parseArgs convertOpts argv = .ok ns ∧ convertArgs ns = a ∧ ns.get? c!"username" = some (.text (user.getD c!"admin")) ∧
      ns.get? c!"password" = some (.text (password.getD c!"th0ughtSp0t")) ∧ ns.get? c!"debug" = some (.flag debug) := by
  rw [← convertPieces_words] at h
  obtain ⟨ns, h1, h2⟩ := pieces_read convert_sensible (convertPieces_ok user password debug a) (convertPieces_keys user password debug a) h
  refine ⟨ns, h1, ?_⟩
  cases a
  simp only [convertPieces, List.map_append, lastOf_append, lastOf_flag, lastOf_value] at h2
  refine ⟨?_, ?_, ?_, ?_⟩
  · simp only [convertArgs, ConvertArgs.mk.injEq]
    refine ⟨?_, ?_, ?_, ?_, ?_, ?_, ?_, ?_, ?_, ?_, ?_, ?_, ?_, ?_, ?_⟩
    all_goals
      first
        | exact flagOf_eq (by rw [h2]; simp (decide := true) only [if_false, if_true, false_and, true_and, Option.none_or, Option.or_none]; rfl)
        | exact textOf_eq (by rw [h2]; simp (decide := true) only [if_false, if_true, false_and, true_and, Option.none_or, Option.or_none]; rfl)
        | exact textOf_getD (by rw [h2]; simp (decide := true) only [if_false, if_true, false_and, true_and, Option.none_or, Option.or_none]; rfl)
  · rw [h2]; simp (decide := true) only [if_false, if_true, false_and, true_and, Option.none_or, Option.or_none]; cases user <;> rfl
  · rw [h2]; simp (decide := true) only [if_false, if_true, false_and, true_and, Option.none_or, Option.or_none]; cases password <;> rfl
  · rw [h2]; simp (decide := true) only [if_false, if_true, false_and, true_and, Option.none_or, Option.or_none]; cases debug <;> rfl

/-- C91: ddldiff gets any arguments from the documented options, in any order. -/
theorem C91_diff (a : DiffArgs) {argv : List Str} (h : argv.Perm (diffWords a)) : ∃ ns, parseArgs diffOpts argv = .ok ns ∧ diffArgs ns = a := by
  rw [← diffPieces_words] at h
  obtain ⟨ns, h1, h2⟩ := pieces_read diff_sensible (diffPieces_ok a) (diffPieces_keys a) h
  refine ⟨ns, h1, ?_⟩
  cases a
  simp only [diffPieces, List.map_append, lastOf_append, lastOf_flag, lastOf_value] at h2
  simp only [diffArgs, DiffArgs.mk.injEq]
  refine ⟨?_, ?_, ?_, ?_, ?_, ?_, ?_⟩
  all_goals
    first
      | exact flagOf_eq (by rw [h2]; simp (decide := true) only [if_false, if_true, false_and, true_and, Option.none_or, Option.or_none]; rfl)
      | exact textOf_eq (by rw [h2]; simp (decide := true) only [if_false, if_true, false_and, true_and, Option.none_or, Option.or_none]; rfl)
      | exact textOf_getD (by rw [h2]; simp (decide := true) only [if_false, if_true, false_and, true_and, Option.none_or, Option.or_none]; rfl)

/-- C91: review_model gets any arguments from its options, in any order, with any user, password and debug option. -/
theorem C91_review (user password : Option Str) (debug : Bool) (a : ReviewArgs) {argv : List Str} (h : argv.Perm (reviewWords user password debug a)) :
    ∃ ns, parseArgs reviewOpts argv = .ok ns ∧ reviewArgs ns = a ∧ ns.get? c!"username" = some (.text (user.getD c!"admin")) ∧
      ns.get? c!"password" = some (.text (password.getD c!"th0ughtSp0t")) ∧ ns.get? c!"debug" = some (.flag debug) := by
  rw [← reviewPieces_words] at h
  obtain ⟨ns, h1, h2⟩ := pieces_read review_sensible (reviewPieces_ok user password debug a) (reviewPieces_keys user password debug a) h
  refine ⟨ns, h1, ?_⟩
  cases a
  simp only [reviewPieces, List.map_append, lastOf_append, lastOf_flag, lastOf_value] at h2
  refine ⟨?_, ?_, ?_, ?_⟩
  · simp only [reviewArgs, ReviewArgs.mk.injEq]
    refine ⟨?_, ?_, ?_, ?_, ?_, ?_, ?_⟩
    all_goals
      first
        | exact flagOf_eq (by rw [h2]; simp (decide := true) only [if_false, if_true, false_and, true_and, Option.none_or, Option.or_none]; rfl)
        | exact textOf_eq (by rw [h2]; simp (decide := true) only [if_false, if_true, false_and, true_and, Option.none_or, Option.or_none]; rfl)
  · rw [h2]; simp (decide := true) only [if_false, if_true, false_and, true_and, Option.none_or, Option.or_none]; cases user <;> rfl
  · rw [h2]; simp (decide := true) only [if_false, if_true, false_and, true_and, Option.none_or, Option.or_none]; cases password <;> rfl
  · rw [h2]; simp (decide := true) only [if_false, if_true, false_and, true_and, Option.none_or, Option.or_none]; cases debug <;> rfl

/-- C91: the help is printed exactly if the command line asks for it and no word is ambiguous. -/
theorem C91_help {t : List OptDecl} (ht : Sensible t) (argv : List Str) : parseArgs t argv = .error .help ↔ Clear t argv ∧ AsksHelp t argv :=
  parseArgs_help ht argv

/-- C91: a command line that cannot be read changes nothing; the help is printed if it is asked for and no word is ambiguous, otherwise the run is refused. -/
theorem C91_refused (env : Env) (r : ReviewEnv) (tests : List (TestItem × Str)) (fr : Rat → Str) (m : Manual) (dir : Str) (argv : List Str) (w : World) :
    ((¬ ∃ l, Reads convertOpts argv l) → (convertRun env m dir argv w).1 = w ∧
      ((Clear convertOpts argv ∧ AsksHelp convertOpts argv) ∧ (convertRun env m dir argv w).2 = ⟨m.help, [], 0⟩ ∨
        ¬ (Clear convertOpts argv ∧ AsksHelp convertOpts argv) ∧ Refused (convertRun env m dir argv w).2)) ∧
    ((¬ ∃ l, Reads diffOpts argv l) →
      ((Clear diffOpts argv ∧ AsksHelp diffOpts argv) ∧ diffRun fr m argv w.disk = ⟨m.help, [], 0⟩ ∨
        ¬ (Clear diffOpts argv ∧ AsksHelp diffOpts argv) ∧ Refused (diffRun fr m argv w.disk))) ∧
    ((¬ ∃ l, Reads reviewOpts argv l) → (reviewRun env r tests m dir argv w).1 = w ∧
      ((Clear reviewOpts argv ∧ AsksHelp reviewOpts argv) ∧ (reviewRun env r tests m dir argv w).2 = ⟨m.help, [], 0⟩ ∨
        ¬ (Clear reviewOpts argv ∧ AsksHelp reviewOpts argv) ∧ Refused (reviewRun env r tests m dir argv w).2)) := by
  have hs : ∀ {t : List OptDecl}, Sensible t → ∀ e, parseArgs t argv = .error e →
      ((Clear t argv ∧ AsksHelp t argv) ∧ stopped m e = ⟨m.help, [], 0⟩ ∨ ¬ (Clear t argv ∧ AsksHelp t argv) ∧ Refused (stopped m e)) := by
    rintro t ht (_ | e) h
    · exact .inl ⟨(C91_help ht argv).1 h, rfl⟩
    · exact .inr ⟨fun h' => (by rw [(C91_help ht argv).2 h'] at h; cases h), rfl, rfl, _, rfl⟩
  refine ⟨fun h => ?_, fun h => ?_, fun h => ?_⟩
  · rw [← (C91_read convert_sensible argv).1] at h
    unfold convertRun
    cases e : parseArgs convertOpts argv with
    | ok ns => exact absurd ⟨ns, e⟩ h
    | error x => exact ⟨rfl, hs convert_sensible x e⟩
  · rw [← (C91_read diff_sensible argv).1] at h
    unfold diffRun
    cases e : parseArgs diffOpts argv with
    | ok ns => exact absurd ⟨ns, e⟩ h
    | error x => exact hs diff_sensible x e
  · rw [← (C91_read review_sensible argv).1] at h
    unfold reviewRun
    cases e : parseArgs reviewOpts argv with
    | ok ns => exact absurd ⟨ns, e⟩ h
    | error x => exact ⟨rfl, hs review_sensible x e⟩

/-- The help is asked for behind other options and unknown words; a command line with an ambiguous word behind the question is refused. -/
example : AsksHelp convertOpts [c!"-cl", c!"x", c!"--zzz", c!"-d", c!"y", c!"-vhq"] :=
  .flags 'c' c!"l" convertOpts[13] _ (by unfold Called; decide) rfl (by decide) (by decide) (by decide)
    (.flag c!"-l" convertOpts[14] _ (by decide) (.name (by unfold Called; decide)) rfl
      (.stray c!"x" _ (by decide) (.inl (by decide))
        (.stray c!"--zzz" _ (by decide) ((parseOptional_stray convert_sensible (by decide)).1 (by decide +kernel))
          (.value c!"-d" c!"y" convertOpts[11] _ (by decide) (.name (by unfold Called; decide)) rfl (.inl (by decide))
            (.flags 'v' c!"hq" convertOpts[17] _ (by unfold Called; decide) rfl (by decide) (by decide) (by decide)
              (.first 'h' c!"q" convertOpts[0] _ (by unfold Called; decide) rfl (by decide)
                (.unknown 'q' [] _ (by decide) ((get_none convert_sensible).1 (by decide)))))))))

example : parseArgs convertOpts [c!"-h"] = .error .help ∧ parseArgs convertOpts [c!"-h", c!"--to"] = .error (.error (.ambiguous c!"--to" [c!"--to_tql", c!"--to_ts", c!"--to_excel"])) ∧
    ¬ Clear convertOpts [c!"-h", c!"--to"] ∧ Clear convertOpts [c!"-h", c!"--", c!"--to"] := by
  refine ⟨by decide +kernel, by decide +kernel, ?_, ?_⟩
  · intro h
    have e : parseOptional (optionStrings convertOpts) c!"--to" = .error (.ambiguous c!"--to" [c!"--to_tql", c!"--to_ts", c!"--to_excel"]) := by decide +kernel
    exact h [c!"-h"] c!"--to" [] rfl (by decide) (by decide) ((parseOptional_ambiguous convert_sensible).1 ⟨_, e⟩)
  · exact (classify_clear convert_sensible _).1 ⟨[(c!"-h", .option ⟨convertOpts[0], c!"-h", none⟩), (c!"--", .dashes), (c!"--to", .plain)], by decide +kernel⟩

/-- The sample commands of the documentation that are accepted (README.md:104, 110, 116, 192, 258), and the arguments they give. -/
example : (parseArgs convertOpts [c!"--from_ddl", c!"a.sql", c!"--to_excel", c!"a.xlsx", c!"--database", c!"db"]).map convertArgs =
      .ok { fromDdl := some c!"a.sql", toExcel := some c!"a.xlsx", database := some c!"db" } ∧
    (parseArgs convertOpts [c!"--from_excel", c!"a.xlsx", c!"--validate"]).map convertArgs = .ok { fromExcel := some c!"a.xlsx", validate := true } ∧
    (parseArgs convertOpts [c!"--from_excel", c!"a.xlsx", c!"--to_tql", c!"a.tql"]).map convertArgs = .ok { fromExcel := some c!"a.xlsx", toTql := some c!"a.tql" } ∧
    (parseArgs reviewOpts [c!"--database_file", c!"your_database.tql", c!"--database", c!"your_database"]).map reviewArgs =
      .ok { databaseFile := some c!"your_database.tql", database := some c!"your_database" } ∧
    (parseArgs reviewOpts [c!"--show_tests"]).map reviewArgs = .ok { showTests := true } := by decide +kernel

/-- Short and joined forms, abbreviations, repeated options. -/
example : (parseArgs convertOpts [c!"-clv", c!"-dx", c!"-sy", c!"--from_d", c!"-", c!"-s", c!"z", c!"--up"]).map convertArgs =
    .ok { fromDdl := some c!"-", database := some c!"x", schema := c!"z", createDb := true, lowercase := true, uppercase := true, validate := true } := by decide +kernel

/-- A command line that is read by the grammar. -/
example : Reads convertOpts [c!"-v", c!"--to_tql=-", c!"--database", c!"d"] [(c!"validate", .flag true), (c!"to_tql", .text c!"-"), (c!"database", .text c!"d")] :=
  .flag _ convertOpts[17] _ _ (by decide) (.name (by unfold Called; decide)) rfl
    (.equals c!"--to_tql" c!"-" convertOpts[4] _ _ (by decide) (.name (by unfold Called; decide)) rfl
      (.value _ _ convertOpts[11] _ _ (by decide) (.name (by unfold Called; decide)) rfl (.inl (by decide)) .done))

/-- C91, negative: the documented sample command for a database on a server is refused (README.md:254 has `--ts_url`, the program `--ts_ip`), and so is the option of the usage message
(README.md:164). -/
theorem C91_sample_refused (env : Env) (r : ReviewEnv) (tests : List (TestItem × Str)) (m : Manual) (dir : Str) (w : World) :
    (∀ argv ∈ [[c!"--ts_url", c!"10.10.10.001", c!"--username", c!"admin", c!"--password", c!"password", c!"--database", c!"your_database"], [c!"--show_descriptions"]],
      (¬ ∃ l, Reads reviewOpts argv l) ∧ Refused (reviewRun env r tests m dir argv w).2) ∧
    ((parseArgs reviewOpts [c!"--ts_ip", c!"10.10.10.001", c!"--username", c!"admin", c!"--password", c!"password", c!"--database", c!"your_database"]).map reviewArgs =
      .ok { tsIp := some c!"10.10.10.001", database := some c!"your_database" }) := by
  have h1 : parseArgs reviewOpts [c!"--ts_url", c!"10.10.10.001", c!"--username", c!"admin", c!"--password", c!"password", c!"--database", c!"your_database"] =
      .error (.error (.unrecognized [c!"--ts_url", c!"10.10.10.001"])) := by decide +kernel
  have h2 : parseArgs reviewOpts [c!"--show_descriptions"] = .error (.error (.unrecognized [c!"--show_descriptions"])) := by decide +kernel
  refine ⟨?_, by decide +kernel⟩
  simp only [List.forall_mem_cons, List.not_mem_nil, false_implies, implies_true, and_true]
  refine ⟨⟨?_, ?_⟩, ?_, ?_⟩
  · rw [← (C91_read review_sensible _).1, h1]; rintro ⟨_, h⟩; cases h
  · unfold reviewRun; rw [h1]; exact ⟨rfl, rfl, _, rfl⟩
  · rw [← (C91_read review_sensible _).1, h2]; rintro ⟨_, h⟩; cases h
  · unfold reviewRun; rw [h2]; exact ⟨rfl, rfl, _, rfl⟩

end Verif.Props
