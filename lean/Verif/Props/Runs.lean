import Verif.Props.CommandLine
/-
C92: passwords are not shown.  C93: scripts on the standard output are scripts.  C94: the exit status tells about failures.
All three are violated; what holds instead is proved.
-/

namespace Verif.Props
open Verif Verif.Spec

/-! ## C92 -/

/-- The command line of a run of convert_ddl or review_model with this password (possibly the default one). -/
def WithPassword (t : List OptDecl) (argv : List Str) (pw : Str) : Prop := ∃ l, Reads t argv l ∧ ValueAfter t l c!"password" (.text pw)

theorem pyRepr_printable {s : Str} (h : PlainAscii s) : pyRepr s = ['\''] ++ s ++ ['\''] := by
  have hq : s.contains '\'' = false := by
    rw [← Bool.not_eq_true, List.contains_iff_mem]
    exact fun hm => (h _ hm).2.2.1 rfl
  have hc : s.flatMap (reprChar '\'') = s := by
    clear hq
    induction s with
    | nil => rfl
    | cons c s ih =>
      obtain ⟨h1, h2, h3, h4⟩ := h c List.mem_cons_self
      have h5 : 32 ≤ c.toNat := h1
      have h6 : c.toNat ≤ 126 := h2
      have hne : ∀ x : Char, c.toNat ≠ x.toNat → c ≠ x := fun x hx e => hx (by rw [e])
      have h7 : c ≠ '\n' := hne _ (by intro e; have : ('\n').toNat = 10 := rfl; omega)
      have h8 : c ≠ '\r' := hne _ (by intro e; have : ('\r').toNat = 13 := rfl; omega)
      have h9 : c ≠ '\t' := hne _ (by intro e; have : ('\t').toNat = 9 := rfl; omega)
      rw [List.flatMap_cons, ih (fun x hx => h x (List.mem_cons_of_mem _ hx))]
      have : reprChar '\'' c = [c] := by
        unfold reprChar
        simp only [beq_iff_eq, h3, h4, h7, h8, h9, Bool.or_eq_true, or_self, if_false, decide_eq_true_eq]
        rw [if_neg (by omega)]
      rw [this]
      rfl
  unfold pyRepr
  simp only [hq, Bool.false_and, Bool.false_eq_true, if_false, hc]

/-- C92, negative: every run of convert_ddl with a printable password that goes on after the check of its arguments prints the password, wherever it reads from or writes to. -/
theorem C92_convert_shows (env : Env) (m : Manual) (dir : Str) {argv : List Str} {pw : Str} (w : World) {ns : Dict ArgVal} (hp : parseArgs convertOpts argv = .ok ns)
    (hd : ConvertDocumented (convertArgs ns)) (h : WithPassword convertOpts argv pw) (hpr : PlainAscii pw) : Visible (c!"password='" ++ pw ++ c!"'") (convertRun env m dir argv w).2 := by
  obtain ⟨l, hl, hv⟩ := h
  have hg := ((C91_read convert_sensible argv).2 ns hp l hl _ _).2 hv
  obtain ⟨a, b, e⟩ := namespace_shows hg
  obtain ⟨x, ex⟩ := ended_out (ns := ns) (r := (convertTalk env dir (convertArgs ns) w).2.2) (convert_args (env := env) (dir := dir) ((C60_convert _).2 hd) w)
  unfold convertRun Visible
  rw [hp]
  simp only
  rw [ex, e]
  simp only [ArgVal.repr, pyRepr_printable hpr]
  exact ⟨a, b ++ c!"\n" ++ x, by simp⟩

/-- C92, negative: the same for review_model. -/
theorem C92_review_shows (env : Env) (r : ReviewEnv) (tests : List (TestItem × Str)) (m : Manual) (dir : Str) {argv : List Str} {pw : Str} (w : World) {ns : Dict ArgVal}
    (hp : parseArgs reviewOpts argv = .ok ns) (hd : ReviewDocumented w.disk (reviewArgs ns)) (h : WithPassword reviewOpts argv pw) (hpr : PlainAscii pw) :
    Visible (c!"password='" ++ pw ++ c!"'") (reviewRun env r tests m dir argv w).2 := by
  obtain ⟨l, hl, hv⟩ := h
  have hg := ((C91_read review_sensible argv).2 ns hp l hl _ _).2 hv
  obtain ⟨a, b, e⟩ := namespace_shows hg
  obtain ⟨x, ex⟩ := ended_out (ns := ns) (r := (reviewTalk env r tests dir (reviewArgs ns) w).2.2) (review_args (env := env) (r := r) (tests := tests) (dir := dir) ((C60_review _ _).2 hd))
  unfold reviewRun Visible
  rw [hp]
  simp only
  rw [ex, e]
  simp only [ArgVal.repr, pyRepr_printable hpr]
  exact ⟨a, b ++ c!"\n" ++ x ++ helpPart m (reviewTalk env r tests dir (reviewArgs ns) w).2.2, by simp⟩

/-- C92, partial: nothing is printed on the standard output, so no password, if the arguments are not sufficient.  Missing: all other runs. -/
theorem C92_hidden_partial (env : Env) (m : Manual) (dir : Str) {argv : List Str} (w : World) {ns : Dict ArgVal} (hp : parseArgs convertOpts argv = .ok ns)
    (hd : ¬ ConvertDocumented (convertArgs ns)) : (convertRun env m dir argv w).2.out = [] := by
  have hv : validConvert (convertArgs ns) = false := by rw [← Bool.not_eq_true, C60_convert]; exact hd
  unfold convertRun
  rw [hp]
  simp only
  unfold convertTalk
  rw [hv]
  simp only [Bool.false_eq_true, if_false]
  split <;> rfl

/-- A run with a password: validating a workbook, where the password is of no use. -/
example : ∃ ns, parseArgs convertOpts [c!"--from_excel", c!"f.xlsx", c!"--password", c!"s3cret", c!"-v"] = .ok ns ∧ ConvertDocumented (convertArgs ns) ∧
    WithPassword convertOpts [c!"--from_excel", c!"f.xlsx", c!"--password", c!"s3cret", c!"-v"] c!"s3cret" ∧ PlainAscii c!"s3cret" := by
  have h1 : ∃ ns, parseArgs convertOpts [c!"--from_excel", c!"f.xlsx", c!"--password", c!"s3cret", c!"-v"] = .ok ns ∧ validConvert (convertArgs ns) = true ∧
      ns.get? c!"password" = some (.text c!"s3cret") := ⟨_, rfl, by decide, by decide⟩
  obtain ⟨ns, h1, h2, h3⟩ := h1
  obtain ⟨l, hl⟩ := (C91_read convert_sensible _).1.1 ⟨ns, h1⟩
  exact ⟨ns, h1, (C60_convert _).1 h2, ⟨l, hl, ((C91_read convert_sensible _).2 ns h1 l hl _ _).1 h3⟩, by unfold PlainAscii; decide⟩

/-! ## C93 -/

/-- C93, negative: what convert_ddl or ddldiff prints on the standard output is never a script with statements, whatever the arguments are: it begins with the arguments, so that no
reader gets past the first statement. -/
theorem C93_no_script (env : Env) (fr : Rat → Str) (m : Manual) (dir : Str) (argv : List Str) (w : World) (l : List Stmt) :
    (∀ ns, parseArgs convertOpts argv = .ok ns → readScript (convertRun env m dir argv w).2.out = some l → l = []) ∧
    (∀ ns, parseArgs diffOpts argv = .ok ns → readScript (diffRun fr m argv w.disk).out = some l → l = []) := by
  constructor
  · intro ns hp h
    by_cases hv : validConvert (convertArgs ns) = true
    · obtain ⟨x, ex⟩ := ended_out (ns := ns) (r := (convertTalk env dir (convertArgs ns) w).2.2) (convert_args (env := env) (dir := dir) hv w)
      unfold convertRun at h
      rw [hp] at h
      simp only at h
      rw [ex] at h
      obtain ⟨y, ey⟩ := namespace_begins ns x
      rw [ey] at h
      exact read_namespace y l h
    · rw [C92_hidden_partial env m dir w hp (by rw [← C60_convert]; exact hv)] at h
      cases h
      rfl
  · intro ns hp h
    unfold diffRun at h
    rw [hp] at h
    simp only at h
    by_cases hv : validDiff w.disk (diffArgs ns) = true
    · obtain ⟨x, ex⟩ := ended_out (ns := ns) (l := (diffTalk fr w.disk (diffArgs ns)).1) (r := raised (diffTalk fr w.disk (diffArgs ns)).2) (by obtain ⟨l, h1, -⟩ := diff_args (fr := fr) hv; rw [h1]; rfl)
      rw [ex] at h
      obtain ⟨y, ey⟩ := namespace_begins ns x
      rw [ey] at h
      exact read_namespace y l h
    · obtain ⟨k, -, hk⟩ := C87_arguments fr w.disk (diffArgs ns) (by rw [← C60_diff]; exact hv)
      have : (ended ns (diffTalk fr w.disk (diffArgs ns)).1 (raised (diffTalk fr w.disk (diffArgs ns)).2)).out = [] := by
        rw [hk]
        simp [ended, List.flatMap_map, Said.printed]
      rw [this] at h
      cases h
      rfl

/-- C93, partial: with `--to_tql -` and no other output the standard output begins with the arguments and ends with exactly the script that a run to a file would write there.  Missing:
that there is nothing else. -/
theorem C93_convert_partial (env : Env) (m : Manual) (dir : Str) {argv : List Str} {w : World} {ns : Dict ArgVal} {db : Database} {g : Str} (hp : parseArgs convertOpts argv = .ok ns)
    (hv : ConvertDocumented (convertArgs ns)) (hver : (convertArgs ns).version = false) (hr : (convertRead env (convertArgs ns) w).2 = .ok (some db)) (hto : (convertArgs ns).toTql = some c!"-")
    (hx : ¬ Given (convertArgs ns).toExcel) (ht : ¬ Given (convertArgs ns).toTs) (hg : g ≠ []) (hg' : g ≠ c!"-") (hw : env.writable g = true) :
    ∃ head script, (convertRun env m dir argv w).2.out = namespaceText ns ++ c!"\n" ++ head ++ script ∧
      (convertMain env { convertArgs ns with toTql := some g } w).1.disk g = some (.file (.text script)) := by
  obtain ⟨s, h1, h2, -⟩ := C83_standard_output (dir := dir) hv hver hr hto hx ht hg hg' hw
  have h3 := convert_args (env := env) (dir := dir) ((C60_convert _).2 hv) w
  unfold convertRun
  rw [hp]
  simp only
  generalize (convertTalk env dir (convertArgs ns) w).2.1 = l at h1 h3
  cases l with
  | nil => cases h3
  | cons a l =>
    cases h3
    have hl : ∃ k, l = k ++ [.script s] := by
      cases l with
      | nil => cases h1
      | cons b l => rw [List.getLast?_cons_cons] at h1; exact ⟨_, (List.dropLast_append_getLast? _ h1).symm⟩
    obtain ⟨k, rfl⟩ := hl
    exact ⟨k.flatMap (Said.printed ns), s, by simp [ended, Said.printed], h2⟩

/-- C93, partial: ddldiff prints the arguments and then the text of `diffMain`, for which it is proved that it contains the script (C82, C89).  Missing: that there is nothing else. -/
theorem C93_diff_partial (fr : Rat → Str) (m : Manual) {argv : List Str} (d : Disk) {ns : Dict ArgVal} (hp : parseArgs diffOpts argv = .ok ns) (hd : DiffDocumented d (diffArgs ns)) :
    (diffRun fr m argv d).out = namespaceText ns ++ c!"\n" ++ (diffMain fr d (diffArgs ns)).1.text := by
  obtain ⟨l, h1, hno⟩ := diff_args (fr := fr) ((C60_diff _ _).2 hd)
  have h2 := (C87_same fr d (diffArgs ns)).1
  unfold diffRun
  rw [hp]
  simp only [ended]
  rw [h1] at h2 ⊢
  cases h2 with
  | args _ _ h2 =>
    have hno : ∀ x ∈ l, x ≠ .args := fun x hx e => hno (e ▸ hx)
    have : ∀ {l : List Said} {t : Str}, Printed l t → (∀ x ∈ l, x ≠ .args) → l.flatMap (Said.printed ns) = t := by
        intro l t h
        induction h with
        | nil => intro _; rfl
        | line s l t _ ih => intro hn; simp [Said.printed, ih (fun x hx => hn x (List.mem_cons_of_mem _ hx))]
        | script s l t _ ih => intro hn; simp [Said.printed, ih (fun x hx => hn x (List.mem_cons_of_mem _ hx))]
        | error s l t _ ih => intro hn; simp [Said.printed, ih (fun x hx => hn x (List.mem_cons_of_mem _ hx))]
        | parser s l t _ ih => intro hn; simp [Said.printed, ih (fun x hx => hn x (List.mem_cons_of_mem _ hx))]
        | args l t _ _ => intro hn; exact absurd rfl (hn _ List.mem_cons_self)
    simp [Said.printed, this h2 hno]

/-- A run with `--to_tql -` whose output contains statements, none of which can be read. -/
example : ∃ ns, parseArgs convertOpts [c!"--from_ddl=f", c!"-d", c!"d", c!"--to_tql=-"] = .ok ns ∧ ConvertDocumented (convertArgs ns) ∧ (convertArgs ns).version = false ∧
    (convertArgs ns).toTql = some c!"-" ∧ (∃ db, (convertRead (sayEnv []) (convertArgs ns) ⟨disk [(c!"f", .file (.text oneLine))], []⟩).2 = .ok (some db)) ∧
    readScript (convertRun (sayEnv []) ⟨[], [], []⟩ [] [c!"--from_ddl=f", c!"-d", c!"d", c!"--to_tql=-"] ⟨disk [(c!"f", .file (.text oneLine))], []⟩).2.out = none := by
  refine ⟨_, rfl, (C60_convert _).1 (by decide), by decide, by decide, ⟨_, rfl⟩, by decide +kernel⟩

/-! ## C94 -/

/-- C94: the exit status of convert_ddl is 2 exactly if the command line is refused, and 1 exactly if an exception is raised; otherwise it is 0. -/
theorem C94_convert (env : Env) (m : Manual) (dir : Str) (argv : List Str) (w : World) :
    ((convertRun env m dir argv w).2.status = 2 ↔ Refused (convertRun env m dir argv w).2) ∧
    ((convertRun env m dir argv w).2.status = 1 ↔ ∃ ns e, parseArgs convertOpts argv = .ok ns ∧ (convertMain env (convertArgs ns) w).2 = .error e) ∧
    (convertRun env m dir argv w).2.status ≤ 2 := by
  unfold convertRun
  cases hp : parseArgs convertOpts argv with
  | error e => cases e <;> simp [stopped, Refused]
  | ok ns =>
    have hs := C83_same env dir (convertArgs ns) w
    have hs2 : (convertTalk env dir (convertArgs ns) w).2.2 = (convertMain env (convertArgs ns) w).2 := congrArg Prod.snd hs
    simp only [ended, hs2, Except.ok.injEq, exists_and_left, exists_eq_left']
    cases (convertMain env (convertArgs ns) w).2 <;> simp [exitStatus, Refused]

/-- C94: the same for ddldiff. -/
theorem C94_diff (fr : Rat → Str) (m : Manual) (argv : List Str) (d : Disk) :
    ((diffRun fr m argv d).status = 2 ↔ Refused (diffRun fr m argv d)) ∧
    ((diffRun fr m argv d).status = 1 ↔ ∃ ns e, parseArgs diffOpts argv = .ok ns ∧ (diffMain fr d (diffArgs ns)).2 = some e) ∧ (diffRun fr m argv d).status ≤ 2 := by
  unfold diffRun
  cases hp : parseArgs diffOpts argv with
  | error e => cases e <;> simp [stopped, Refused]
  | ok ns =>
    have hs := (C87_same fr d (diffArgs ns)).2
    simp only [ended, hs, Except.ok.injEq, exists_and_left, exists_eq_left']
    cases (diffMain fr d (diffArgs ns)).2 <;> simp [raised, exitStatus, Refused]

/-- C94: the same for review_model. -/
theorem C94_review (env : Env) (r : ReviewEnv) (tests : List (TestItem × Str)) (m : Manual) (dir : Str) (argv : List Str) (w : World) :
    ((reviewRun env r tests m dir argv w).2.status = 2 ↔ Refused (reviewRun env r tests m dir argv w).2) ∧
    ((reviewRun env r tests m dir argv w).2.status = 1 ↔ ∃ ns e, parseArgs reviewOpts argv = .ok ns ∧ (reviewTalk env r tests dir (reviewArgs ns) w).2.2 = .error e) ∧
    (reviewRun env r tests m dir argv w).2.status ≤ 2 := by
  unfold reviewRun
  cases hp : parseArgs reviewOpts argv with
  | error e => cases e <;> simp [stopped, Refused]
  | ok ns =>
    simp only [ended, Except.ok.injEq, exists_and_left, exists_eq_left']
    cases (reviewTalk env r tests dir (reviewArgs ns) w).2.2 <;> simp [exitStatus, Refused]

/-- C94, negative: a run that does nothing because its arguments are insufficient ends with status 0. -/
theorem C94_undocumented (env : Env) (r : ReviewEnv) (tests : List (TestItem × Str)) (fr : Rat → Str) (m : Manual) (dir : Str) (argv : List Str) (w : World) (ns : Dict ArgVal) :
    (parseArgs convertOpts argv = .ok ns → ¬ ConvertDocumented (convertArgs ns) → (convertRun env m dir argv w).1 = w ∧ (convertRun env m dir argv w).2.status = 0) ∧
    (parseArgs diffOpts argv = .ok ns → ¬ DiffDocumented w.disk (diffArgs ns) → (diffRun fr m argv w.disk).status = 0) ∧
    (parseArgs reviewOpts argv = .ok ns → ¬ ReviewDocumented w.disk (reviewArgs ns) →
      (reviewRun env r tests m dir argv w).1 = w ∧ (reviewRun env r tests m dir argv w).2.status = 0) := by
  refine ⟨fun hp hd => ?_, fun hp hd => ?_, fun hp hd => ?_⟩
  · have h := C83_same env dir (convertArgs ns) w
    rw [C60_convert_refused env _ w hd] at h
    unfold convertRun
    rw [hp]
    have h1 := congrArg Prod.fst h
    have h2 := congrArg Prod.snd h
    simp only at h1 h2
    simp only [ended, h1, h2, exitStatus, and_self]
  · obtain ⟨k, -, hk⟩ := C87_arguments fr w.disk (diffArgs ns) hd
    unfold diffRun
    rw [hp]
    simp only [ended, hk, raised, exitStatus]
  · have hv : validReview w.disk (reviewArgs ns) = false := by rw [← Bool.not_eq_true, C60_review]; exact hd
    unfold reviewRun
    rw [hp]
    simp only [reviewTalk, hv, Bool.not_false, if_true, ended, exitStatus, and_self]

/-- C94, negative: validation does not show in the exit status: a run that validates a database and writes nothing ends with status 0, whatever is wrong with the database. -/
theorem C94_validation (env : Env) (m : Manual) (dir : Str) {argv : List Str} {w : World} {ns : Dict ArgVal} {db : Database} (hp : parseArgs convertOpts argv = .ok ns)
    (hv : ConvertDocumented (convertArgs ns)) (hr : (convertRead env (convertArgs ns) w).2 = .ok (some db))
    (hq : ¬ Given (convertArgs ns).toTql) (hx : ¬ Given (convertArgs ns).toExcel) (ht : ¬ Given (convertArgs ns).toTs) : (convertRun env m dir argv w).2.status = 0 := by
  have hs2 : (convertTalk env dir (convertArgs ns) w).2.2 = (convertMain env (convertArgs ns) w).2 := congrArg Prod.snd (C83_same env dir (convertArgs ns) w)
  unfold convertRun
  rw [hp]
  simp only [ended, hs2]
  generalize convertArgs ns = a at *
  obtain ⟨hwk, hlen⟩ := read_sound hr
  obtain ⟨r, hok, -, -⟩ := ext_validate hwk (fun n t ht m k hk _ => le_of_eq (hlen n t ht m k hk))
  have hg : ∀ {o : Option Str}, ¬ Given o → given o = false := by
    intro o ho
    rw [← Bool.not_eq_true, given_iff]
    exact ho
  have : (convertMain env a w).2 = .ok () := by
    unfold convertMain
    rw [if_pos ((C60_convert a).2 hv)]
    cases a.version
    · simp only [Bool.false_eq_true, if_false]
      rw [Act.bind_eq]
      rcases hc : convertRead env a w with ⟨w1, e | o⟩
      · rw [hc] at hr; cases hr
      · rw [hc] at hr
        cases hr
        unfold convertWrite
        cases a.validate <;> simp [Act.when, convertValidate, Act.lift, hok, Except.map, Act.bind_eq, hg hq, hg hx, hg ht] <;> rfl
    · rfl
  rw [this]
  rfl

/-- A run of convert_ddl with some files. -/
def runOn (argv : List Str) (files : List (Str × Item)) : Ended := (convertRun (sayEnv []) ⟨[], [], []⟩ [] argv ⟨disk files, []⟩).2

/-- Runs with status 0: a table with an unknown type that is found invalid, a file that does not exist, no arguments; a run with status 1 and one with status 2. -/
example : (runOn [c!"--from_ddl=f", c!"-d=d", c!"-v"] [(c!"f", .file (.text c!"CREATE TABLE a (x FOO);"))]).status = 0 ∧
    (runOn [c!"--from_ddl=f", c!"-d=d", c!"-v"] [(c!"f", .file (.text c!"CREATE TABLE a (x FOO);"))]).err = [.err c!"Warning:  database d, table a:  column x is of type UNKNOWN."] ∧
    (runOn [c!"--from_ddl=f", c!"-d=d"] []).status = 0 ∧ (runOn [c!"--from_ddl=f", c!"-d=d"] []).err = [.parser (.noFile c!"f")] ∧
    (runOn [] []).status = 0 ∧ (runOn [c!"--from_ddl=f", c!"-d=d", c!"-v"] []).status = 1 ∧ (runOn [c!"--from_dll=f"] []).status = 2 := by decide +kernel

end Verif.Props
