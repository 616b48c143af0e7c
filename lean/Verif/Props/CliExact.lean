import Verif.Props.Runs

/-!
Exact conditions about whole runs: what a run that could not read a database leaves behind (C66) and its status (C94), and what a run with insufficient arguments of review_model prints (C92).
-/

namespace Verif.Props
open Verif Verif.Spec

/-- Reading changes only the temporary file. -/
theorem read_only {env : Env} {a : ConvertArgs} {w : World} {g : Str} (hv : ConvertDocumented a) (hg : ¬ (∃ n, a.database = some n ∧ g = n ++ c!".tmp")) :
    (convertRead env a w).1.disk g = w.disk g := by
  unfold convertRead
  split
  · rfl
  · split
    · rfl
    · split
      · rename_i h3
        obtain ⟨n, hn, _⟩ := hv.named (.inr (given_iff.1 h3))
        refine readFromTs_only env _ _ w g (fun e => hg ⟨n, hn, ?_⟩)
        rw [hn] at e
        exact e
      · rfl

/-- A run that has read nothing goes on with `None`. -/
theorem main_eq {env : Env} {a : ConvertArgs} {w w1 : World} (hv : ConvertDocumented a) (hver : a.version = false) (hr : convertRead env a w = (w1, .ok none)) :
    convertMain env a w = convertWrite env a none w1 := by
  unfold convertMain
  rw [if_pos ((C60_convert a).2 hv), hver]
  simp only [Bool.false_eq_true, if_false]
  rw [Act.bind_eq, hr]

/-- C66 with the exact condition: if convert_ddl cannot read a database, a file other than the temporary one is changed exactly if it is the TQL file, nothing was raised while reading, the
database was not to be validated first, and the file can be opened; it is then empty. -/
theorem C66_exactly (env : Env) (a : ConvertArgs) (w : World) (hv : ConvertDocumented a) (hver : a.version = false) (hr : ∀ db, (convertRead env a w).2 ≠ .ok (some db)) (g : Str)
    (hg : ¬ (∃ n, a.database = some n ∧ g = n ++ c!".tmp")) :
    let emptied := (convertRead env a w).2 = .ok none ∧ a.validate = false ∧ a.toTql = some g ∧ g ≠ [] ∧ g ≠ c!"-" ∧ env.writable g = true
    (emptied → (convertMain env a w).1.disk g = some (.file (.text []))) ∧ (¬ emptied → (convertMain env a w).1.disk g = w.disk g) := by
  intro emptied
  have hro : (convertRead env a w).1.disk g = w.disk g := read_only hv hg
  rcases h : convertRead env a w with ⟨w1, e | o⟩
  · have hne : ¬ emptied := fun he => by have := he.1; rw [h] at this; cases this
    exact ⟨fun he => absurd he hne, fun _ => C66_unreadable_partial env a w e (by rw [h]) g hg⟩
  · cases o with
    | some db => exact absurd (by rw [h]) (hr db)
    | none =>
      rw [main_eq hv hver h]
      rw [h] at hro
      simp only at hro
      have key : emptied ↔ a.validate = false ∧ a.toTql = some g ∧ g ≠ [] ∧ g ≠ c!"-" ∧ env.writable g = true := by
        simp only [emptied, h, true_and]
      rw [key]
      unfold convertWrite
      cases hva : a.validate with
      | true => simp [Act.when, convertValidate, Act.lift, Act.bind_eq, hro]
      | false =>
        cases hto : a.toTql with
        | none =>
          simp only [Act.when, show given none = false from rfl, Bool.false_eq_true, if_false, Act.bind_eq, Act.pure_eq, reduceCtorEq, false_and, and_false, false_imp_iff, true_and, not_false_eq_true, true_imp_iff]
          cases given a.toExcel <;> cases given a.toTs <;> simpa [excelToFile, writeToTs, Act.lift, Act.pure_eq] using hro
        | some f =>
          by_cases hf : f = []
          · subst hf
            have : ¬ (([] : Str) = g ∧ g ≠ []) := fun ⟨x, y⟩ => y x.symm
            refine ⟨fun ⟨_, x, y, _⟩ => absurd ⟨Option.some.inj x, y⟩ this, fun _ => ?_⟩
            simp only [Act.when, show given (some []) = false from rfl, Bool.false_eq_true, if_false, Act.bind_eq, Act.pure_eq]
            cases given a.toExcel <;> cases given a.toTs <;> simpa [excelToFile, writeToTs, Act.lift, Act.pure_eq] using hro
          · by_cases hd : f = c!"-"
            · subst hd
              refine ⟨fun ⟨_, x, _, y, _⟩ => absurd (Option.some.inj x).symm y, fun _ => ?_⟩
              simpa [Act.when, given, tqlToFile, Act.bind_eq, Act.pure_eq] using hro
            · by_cases hw : env.writable f = true
              · simp only [Act.when, given, hf, tqlToFile, Act.bind_eq, Act.pure_eq, hd, hw, or_self, if_false, if_true, ne_eq, not_false_eq_true, decide_true, Option.getD_some, Bool.false_eq_true, Disk.put]
                refine ⟨fun ⟨_, x, _⟩ => by rw [if_pos (Option.some.inj x).symm], fun hn => ?_⟩
                rw [if_neg (fun e => hn ⟨trivial, by rw [e], by rw [e]; exact hf, by rw [e]; exact hd, by rw [e]; exact hw⟩)]
                exact hro
              · refine ⟨fun ⟨_, x, _, _, y⟩ => absurd y (by rw [← Option.some.inj x]; exact hw), fun _ => ?_⟩
                simpa [Act.when, given, hf, tqlToFile, Act.bind_eq, Act.pure_eq, hd, hw] using hro

/-- A mistyped DDL file: `out` is emptied, but it is left alone if the database is to be validated. -/
example : ConvertDocumented { copyArgs with fromDdl := some c!"nofile", toTql := some c!"out" } ∧
    (convertRead (sayEnv []) { copyArgs with fromDdl := some c!"nofile", toTql := some c!"out" } ⟨disk [(c!"out", .file (.text oneLine))], []⟩).2 = .ok none ∧
    textAt (convertMain (sayEnv []) { copyArgs with fromDdl := some c!"nofile", toTql := some c!"out" } ⟨disk [(c!"out", .file (.text oneLine))], []⟩).1 c!"out" = some [] ∧
    textAt (convertMain (sayEnv []) { copyArgs with fromDdl := some c!"nofile", toTql := some c!"out", validate := true } ⟨disk [(c!"out", .file (.text oneLine))], []⟩).1 c!"out" = some oneLine := by
  refine ⟨(C60_convert _).1 (by decide), ?_, by decide +kernel, by decide +kernel⟩
  rfl

/-- C94 for a database that cannot be read although nothing was raised (a missing DDL file, a workbook without databases): convert_ddl ends with status 0 exactly if nothing was to be done with it. -/
theorem C94_unread (env : Env) (m : Manual) (dir : Str) {argv : List Str} {w : World} {ns : Dict ArgVal} (hp : parseArgs convertOpts argv = .ok ns) (hv : ConvertDocumented (convertArgs ns))
    (hver : (convertArgs ns).version = false) (hr : (convertRead env (convertArgs ns) w).2 = .ok none) :
    (convertRun env m dir argv w).2.status = 0 ↔
      (convertArgs ns).validate = false ∧ ¬ Given (convertArgs ns).toTql ∧ ¬ Given (convertArgs ns).toExcel ∧ ¬ Given (convertArgs ns).toTs := by
  have hs2 : (convertTalk env dir (convertArgs ns) w).2.2 = (convertMain env (convertArgs ns) w).2 := congrArg Prod.snd (C83_same env dir (convertArgs ns) w)
  unfold convertRun
  rw [hp]
  simp only [ended, hs2]
  generalize convertArgs ns = a at *
  rcases h : convertRead env a w with ⟨w1, e | o⟩
  · rw [h] at hr; cases hr
  · rw [h] at hr
    cases hr
    rw [main_eq hv hver h]
    simp only [← not_given_iff]
    unfold convertWrite
    cases a.validate with
    | true => simp [Act.when, convertValidate, Act.lift, Act.bind_eq, exitStatus]
    | false =>
      cases hq : given a.toTql with
      | true =>
        have : ∃ e, (tqlToFile env (tqlOpts a) none (a.toTql.getD []) w1).2 = .error e := by
          unfold tqlToFile
          simp only
          split
          · exact ⟨_, rfl⟩
          · split
            · exact ⟨_, rfl⟩
            · exact ⟨_, rfl⟩
        obtain ⟨e, he⟩ := this
        rcases ht : tqlToFile env (tqlOpts a) none (a.toTql.getD []) w1 with ⟨w2, r⟩
        rw [ht] at he
        cases he
        simp [Act.when, Act.bind_eq, Act.pure_eq, ht, exitStatus]
      | false =>
        cases given a.toExcel <;> cases given a.toTs <;> simp [Act.when, Act.bind_eq, Act.pure_eq, excelToFile, writeToTs, Act.lift, exitStatus]

/-- A command line that only names a DDL file that is not there, without an output: nothing is done, the status is 0. -/
example : ∃ ns, parseArgs convertOpts [c!"--from_ddl", c!"nofile", c!"-d", c!"d"] = .ok ns ∧ (convertRead (sayEnv []) (convertArgs ns) ⟨disk [], []⟩).2 = .ok none ∧
    (convertArgs ns).validate = false ∧ (convertArgs ns).version = false := ⟨_, rfl, rfl, by decide, by decide⟩

/-- C92, partial: likewise review_model prints only its help on the standard output if the arguments are not sufficient. -/
theorem C92_review_hidden_partial (env : Env) (r : ReviewEnv) (tests : List (TestItem × Str)) (m : Manual) (dir : Str) {argv : List Str} {w : World} {ns : Dict ArgVal} (hp : parseArgs reviewOpts argv = .ok ns)
    (hd : ¬ ReviewDocumented w.disk (reviewArgs ns)) : (reviewRun env r tests m dir argv w).2.out = m.help := by
  have hv : validReview w.disk (reviewArgs ns) = false := by rw [← Bool.not_eq_true, C60_review]; exact hd
  unfold reviewRun
  rw [hp]
  simp only [reviewTalk, hv, Bool.not_false, if_true, ended, helpPart]
  have : (reviewMistakes w.disk (reviewArgs ns)).flatMap (Said.printed ns) = [] := by
    unfold reviewMistakes
    simp only [List.flatMap_append, List.append_eq_nil_iff]
    refine ⟨⟨⟨?_, ?_⟩, ?_⟩, ?_⟩ <;> (repeat' split) <;> rfl
  rw [this]
  rfl

/-- review_model without arguments. -/
example (d : Disk) : ∃ ns, parseArgs reviewOpts [] = .ok ns ∧ ¬ ReviewDocumented d (reviewArgs ns) := by
  refine ⟨_, rfl, ?_⟩
  rw [← C60_review, Bool.not_eq_true]
  rfl

end Verif.Props
