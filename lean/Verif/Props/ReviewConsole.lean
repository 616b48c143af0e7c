import Verif.Lemmas.ReviewConsole
import Verif.Props.Cli
import Verif.Props.Graph
import Verif.Props.Review
import Verif.Props.Parse
/-
C85, C86: what the reviews and review_model say on the terminal.
-/

namespace Verif.Props
open Verif Verif.Spec

/-! ## C85 -/

/-- C85: what the reviews print changes nothing in what they report. -/
theorem C85_same (r : ReviewEnv) (srv : QueryServer) (db : Database) (w : Worksheet) (fs : FS) (d : Option Database) (ws host : Option Str) (cfg : Config) :
    (reviewTableJoinsTalk srv db []).2.2 = reviewTableJoins srv db ∧ (reviewWorksheetJoinsTalk r.nested srv db w []).2.2 = reviewWorksheetJoins srv db w ∧
    (reviewerTalk r fs d ws host cfg).2 = theReviewer r fs d ws host cfg :=
  ⟨tableJoins_same srv db, worksheetJoins_same r.nested srv db w, theReviewer_same r fs d ws host cfg⟩

/-- C85: the review of the joins of tables prints every query it asks, before asking it, and shows an error exactly after the queries that were not answered with a number, also
if it ends with an exception. -/
theorem C85_queries (srv : QueryServer) (db : Database) :
    Asked srv [] (reviewTableJoinsTalk srv db []).2.1 (reviewTableJoinsTalk srv db []).1 :=
  follows_tableJoins srv db []

/-- C85: the review of a worksheet announces worksheet and database, and then says for each join either its two queries or why it is left out. -/
theorem C85_worksheet {nested : Yaml → Str} {srv : QueryServer} {db : Database} (hk : WellKeyed db) {w : Worksheet} {asked : List Str} {l : List Said} {is : List Str}
    (h : reviewWorksheetJoinsTalk nested srv db w [] = (asked, l, .ok is)) :
    ∃ l', l = .out (c!"reviewing worksheet joins for worksheet " ++ w.name.print nested ++ c!" using " ++ db.name ++ c!" database") :: l' ∧
      SheetSaid nested srv db w [] w.getJoins is l' := by
  unfold reviewWorksheetJoinsTalk at h
  rw [Rv.bind_eq] at h
  unfold Rv.say at h
  simp only at h
  rcases hj : wsJoinsTalk nested srv db w w.getJoins [] with ⟨q, m, e | is'⟩
  · rw [hj] at h; simp at h
  · rw [hj] at h
    simp only [Prod.mk.injEq, Except.ok.injEq] at h
    obtain ⟨-, h2, h3⟩ := h
    subst h2; subst h3
    exact ⟨m, rfl, wsJoinsTalk_said hk hj⟩

example : WellKeyed joinDb ∧ reviewWorksheetJoinsTalk (fun _ => []) leftServer joinDb (joinSheet c!"INNER") [] =
    ((reviewWorksheetJoinsTalk (fun _ => []) leftServer joinDb (joinSheet c!"INNER") []).1, (reviewWorksheetJoinsTalk (fun _ => []) leftServer joinDb (joinSheet c!"INNER") []).2.1,
      .ok [c!"Join k is type INNER, but should probably be LEFT_OUTER."]) ∧
    (reviewWorksheetJoinsTalk (fun _ => []) leftServer joinDb (joinSheet c!"INNER") []).2.1.take 2 =
      [.out c!"reviewing worksheet joins for worksheet w using d database", .err c!"Table z of type alias not supported.  Only 'table' type supported."] ∧
    (reviewWorksheetJoinsTalk (fun _ => []) leftServer joinDb (joinSheet c!"INNER") []).2.1.length = 4 := by decide +kernel


/-- A server that answers the second query only. -/
example : (reviewTableJoinsTalk (fun asked _ => if asked.length = 1 then .ok [some c!"1"] else .error .value) joinDb []).2.1.map
    (fun x => match x with | .out l => l.take 12 | .queryError => c!"error" | _ => []) =
    [c!"reviewing ta", c!"-- comparing", c!"select \"d\".\"", c!"error", c!"select \"d\".\"", c!"-- comparing", c!"select \"d\".\"", c!"error", c!"select \"d\".\"",
     c!"error"] := by decide +kernel

/-- C85: the reviewer accounts for each of the selected reviews in order: one that lacks an input is named as skipped, with its parameters, any other is called and speaks for
itself, up to the first that raises. -/
theorem C85_reviewer (names : List Str) (i : Inputs) (run : Str → List Said × Except PyErr (List Str)) (recs : Dict (List Str)) :
    ReviewerSaid names i run reviewFunctions (reviewItemsTalk names i (fun n _ => run n) recs reviewFunctions).1 :=
  reviewItems_said names i run reviewFunctions (by
    intro t ht _
    simp only [reviewFunctions, List.mem_cons, List.not_mem_nil, or_false] at ht
    rcases ht with rfl | rfl | rfl | rfl | rfl | rfl | rfl | rfl <;> decide) recs

/-- C85: every review that is called first says what it reviews: the name of the database is in its first line. -/
theorem C85_announced (r : ReviewEnv) (db : Database) (w : Worksheet) (h : Str) (cfg : Config) (t : TestItem) (ht : t ∈ reviewFunctions) (hn : ∃ rest, t.name = c!"review_" ++ rest) :
    ∃ s l, (callReview r db (some w) (some h) cfg t.name).1 = .out s :: l ∧ c!"reviewing " <+: s ∧ db.name <:+: s := by
  have talk : ∀ {α : Type} (x : Unit → Rv α) (s : Str), ∃ l, ((Rv.say (.out s) >>= x) []).2.1 = .out s :: l := by
    intro α x s
    rw [Rv.bind_eq]
    unfold Rv.say
    simp only
    rcases x () [] with ⟨q, l, e | a⟩ <;> exact ⟨_, rfl⟩
  simp only [reviewFunctions, List.mem_cons, List.not_mem_nil, or_false] at ht
  rcases ht with rfl | rfl | rfl | rfl | rfl | rfl | rfl | rfl
  · obtain ⟨rest, hr⟩ := hn; cases hr
  · exact ⟨_, _, rfl, ⟨_, by simp only [List.append_assoc]; rfl⟩, ⟨c!"reviewing circular relationships for ", c!" database", by simp⟩⟩
  · exact ⟨_, _, rfl, ⟨_, by simp only [List.append_assoc]; rfl⟩, ⟨c!"reviewing long chain (> 2) relationships for ", c!" database", by simp⟩⟩
  · exact ⟨_, _, rfl, ⟨_, by simp only [List.append_assoc]; rfl⟩, ⟨c!"reviewing primary keys for ", c!" database", by simp⟩⟩
  · exact ⟨_, _, rfl, ⟨_, by simp only [List.append_assoc]; rfl⟩, ⟨c!"reviewing relationships vs. foreign keys for ", c!" database", by simp⟩⟩
  · exact ⟨_, _, rfl, ⟨_, rfl⟩, ⟨c!"reviewing sharding for ", [], by simp⟩⟩
  · obtain ⟨l, hl⟩ := talk (fun _ => joinTablesTalk (r.joins h) db db.iter) (c!"reviewing table joins for the \"" ++ db.name ++ c!"\" database")
    exact ⟨_, l, hl, ⟨_, by simp only [List.append_assoc]; rfl⟩, ⟨c!"reviewing table joins for the \"", c!"\" database", by simp⟩⟩
  · obtain ⟨l, hl⟩ := talk (fun _ => wsJoinsTalk r.nested (r.sheets h) db w w.getJoins) (c!"reviewing worksheet joins for worksheet " ++ w.name.print r.nested ++ c!" using " ++ db.name ++ c!" database")
    exact ⟨_, l, hl, ⟨_, by simp only [List.append_assoc]; rfl⟩, ⟨c!"reviewing worksheet joins for worksheet " ++ w.name.print r.nested ++ c!" using ", c!" database", by simp⟩⟩

/-! ## C86 -/

/-- C86: what review_model prints changes nothing in what it does. -/
theorem C86_same (env : Env) (r : ReviewEnv) (tests : List (TestItem × Str)) (dir : Str) (a : ReviewArgs) (w : World) :
    ((reviewTalk env r tests dir a w).1, (reviewTalk env r tests dir a w).2.2) = reviewMain env (theReviewer r (reviewTalk env r tests dir a w).1.disk.fs) a w :=
  mute_review env r tests dir a w

/-- C86: arguments that are not as documented are answered with one message for each mistake, in order, and nothing else happens. -/
theorem C86_arguments (env : Env) (r : ReviewEnv) (tests : List (TestItem × Str)) (dir : Str) (a : ReviewArgs) (w : World) (h : ¬ ReviewDocumented w.disk a) :
    ∃ ms : List ReviewMistake, ms ≠ [] ∧ ms.Pairwise (fun x y => x.rank < y.rank) ∧ (∀ m, m ∈ ms ↔ Made w.disk a m) ∧
      reviewTalk env r tests dir a w = (w, ms.map (fun m => .err m.line), .ok .help) := by
  obtain ⟨ms, h1, h2, h3, h4⟩ := mistakes_spec w.disk a
  rw [← C60_review] at h
  refine ⟨ms, fun e => h (h4.2 e), h1, h2, ?_⟩
  unfold reviewTalk
  rw [Bool.not_eq_true] at h
  rw [h, ← h3]
  rfl

/-- C86: arguments without a mistake are as documented, and conversely. -/
theorem C86_mistakes (d : Disk) (a : ReviewArgs) : ReviewDocumented d a ↔ ∀ m, ¬ Made d a m := by
  obtain ⟨ms, -, h2, -, h4⟩ := mistakes_spec d a
  rw [← C60_review, h4, List.eq_nil_iff_forall_not_mem]
  exact forall_congr' (fun m => not_congr (h2 m))

/-- C86: `--version` (with arguments that are accepted) prints a version and does nothing; the line names convert_ddl instead of review_model. -/
theorem C86_version (env : Env) (r : ReviewEnv) (tests : List (TestItem × Str)) (dir : Str) (a : ReviewArgs) (w : World) (h : ReviewDocumented w.disk a) (hv : a.version = true) :
    reviewTalk env r tests dir a w = (w, [.args, .out (c!"convert_ddl (v1.0):  " ++ dir ++ c!"/convert_ddl")], .ok .version) := by
  unfold reviewTalk
  rw [(C60_review _ _).2 h, hv]
  rfl

theorem listTests_eq (tests : List (TestItem × Str)) (hn : (tests.map (·.1.name)).Nodup) (hp : ∀ p ∈ tests, '(' ∉ p.1.name) :
    ∃ parts, List.Forall₂ TestListed (tests.filter (fun p => startsWith p.1.name c!"review_")) parts ∧
      listTests tests = .out (c!"Found " ++ Nat.toDigits 10 parts.length ++ c!" tests.") :: parts.flatten ++ [.out []] := by
  refine ⟨(tests.filter (fun p => startsWith p.1.name c!"review_")).map
    (fun p => .out [] :: .out (p.1.name ++ c!"(" ++ joinS c!", " p.1.params ++ c!")" ++ c!":") :: (describe p.2).map (fun x => .out ('\t' :: x))), ?_, ?_⟩
  · rw [List.forall₂_map_right_iff, List.forall₂_same]
    exact fun p _ => testListed p
  · unfold listTests
    simp only [testDescriptions_eq tests hn hp, List.length_map, List.flatMap_def, List.map_map]
    rfl

/-- C86: `--show_tests` alone lists the reviews, each once and in order, with its parameters and the text of its documentation up to the parameters, and nothing else happens.
Names of functions are distinct and have no parenthesis in them. -/
theorem C86_listing (env : Env) (r : ReviewEnv) (tests : List (TestItem × Str)) (hn : (tests.map (·.1.name)).Nodup) (hp : ∀ p ∈ tests, '(' ∉ p.1.name) (dir : Str) (a : ReviewArgs) (w : World)
    (h : ReviewDocumented w.disk a) (hv : a.version = false) (hs : a.showTests = true) (hf : ¬ Given a.databaseFile) (ht : ¬ Given a.tsIp)
    (items : List (TestItem × Str)) (hi : items.Sublist tests) (hm : ∀ p ∈ tests, p ∈ items ↔ ∃ rest, p.1.name = c!"review_" ++ rest) :
    ∃ parts, List.Forall₂ TestListed items parts ∧
      reviewTalk env r tests dir a w = (w, .args :: .out (c!"Found " ++ Nat.toDigits 10 items.length ++ c!" tests.") :: parts.flatten ++ [.out []], .ok .listed) := by
  have hitems : items = tests.filter (fun p => startsWith p.1.name c!"review_") := by
    have hnd : tests.Nodup := List.Nodup.of_map _ hn
    refine List.Sublist.antisymm ?_ ?_
    · have := hi.filter (fun p => startsWith p.1.name c!"review_")
      rwa [List.filter_eq_self.2 (fun p hp => (startsWith_review.2 ((hm p (hi.subset hp)).1 hp)))] at this
    · have : tests.filter (fun p => startsWith p.1.name c!"review_") = tests.filter (fun p => decide (p ∈ items)) := by
        refine List.filter_congr (fun p hp => ?_)
        rw [Bool.eq_iff_iff, startsWith_review, decide_eq_true_iff]
        exact (hm p hp).symm
      rw [this]
      have e : ∀ (l : List (TestItem × Str)), l.Nodup → ∀ s : List (TestItem × Str), s.Sublist l → l.filter (fun p => decide (p ∈ s)) = s := by
        intro l hl s hs
        induction hs with
        | slnil => rfl
        | cons x h ih =>
          rw [List.nodup_cons] at hl
          rw [List.filter_cons_of_neg (by simpa using fun hx => hl.1 (h.subset hx)), ih hl.2]
        | cons_cons x h ih =>
          rw [List.nodup_cons] at hl
          rw [List.filter_cons_of_pos (by simp)]
          congr 1
          rw [← ih hl.2]
          refine List.filter_congr (fun p hp => ?_)
          have : p ≠ x := fun e => hl.1 (e ▸ hp)
          simp [this, hp]
      rw [e tests hnd items hi]
  obtain ⟨parts, h1, h2⟩ := listTests_eq tests hn hp
  rw [← hitems] at h1
  refine ⟨parts, h1, ?_⟩
  rw [← given_iff, Bool.not_eq_true] at hf ht
  unfold reviewTalk
  rw [(C60_review _ _).2 h, hv, hs, hf, ht, h2, h1.length_eq]
  simp [Talk.bind_eq, Talk.say, Talk.when, Talk.sayAll, Talk.pure_eq]

/-- The documentation of two reviews (dt/review/review_tests.py:63-70, 206-219). -/
def sampleTests : List (TestItem × Str) :=
  [(⟨c!"get_relationships", [c!"database"]⟩, c!"
    Gets the relationships.
    "),
   (⟨c!"review_relationships", [c!"database"]⟩, c!"
    Reviewing the database for the relationships that can be replaced with foreign keys.
    :param database: The database to review.
    :type database: Database
    "),
   (⟨c!"review_sharding", [c!"database", c!"rtql", c!"config_file"]⟩, c!"
    Reviews the sharding on tables for the database.
    Will report on oversharding, undersharding, high skew.
    Does not check for co-sharding issues.
    :param database: The database to review.  Only the name is needed.
    ")]

/-- A review without a server. -/
def sampleReviewEnv : ReviewEnv :=
  { order := id, floatRepr := fun _ => [], nested := fun _ => [], depth := 100, yaml := fun _ => .error .value, stats := fun _ => .error .value, joins := fun _ _ _ => .error .value,
    sheets := fun _ _ _ => .error .value }

example : (sampleTests.map (·.1.name)).Nodup ∧ (∀ p ∈ sampleTests, '(' ∉ p.1.name) ∧ ReviewDocumented (disk []) { showTests := true } ∧
    reviewTalk (sayEnv []) sampleReviewEnv sampleTests c!"/x" { showTests := true } ⟨disk [], []⟩ = (⟨disk [], []⟩,
      [.args, .out c!"Found 2 tests.", .out [], .out c!"review_relationships(database):",
       .out c!"\tReviewing the database for the relationships that can be replaced with foreign keys.", .out [], .out c!"review_sharding(database, rtql, config_file):",
       .out c!"\tReviews the sharding on tables for the database.", .out c!"\tWill report on oversharding, undersharding, high skew.",
       .out c!"\tDoes not check for co-sharding issues.", .out []], .ok .listed) := by
  refine ⟨by decide +kernel, by decide +kernel, (C60_review _ _).1 (by decide), ?_⟩
  refine Prod.ext rfl (Prod.ext ?_ rfl)
  show (reviewTalk (sayEnv []) sampleReviewEnv sampleTests c!"/x" { showTests := true } ⟨disk [], []⟩).2.1 = _
  decide +kernel

/-- All five mistakes cannot be made at once, but four can. -/
example : ¬ ReviewDocumented (disk []) { databaseFile := some c!"f", tsIp := some c!"h", worksheetFile := some c!"w", configFile := some c!"c" } ∧
    (reviewTalk (sayEnv []) sampleReviewEnv [] c!"/x" { databaseFile := some c!"f", tsIp := some c!"h", worksheetFile := some c!"w", configFile := some c!"c" } ⟨disk [], []⟩).2.1 =
      [.err c!"A database name must be provided.", .err c!"Only database_file or ts_ip can be provided.", .err c!"Worksheet file w doesn't exist.",
       .err c!"Configuration file c doesn't exist."] := by
  rw [← C60_review]
  exact ⟨by decide, by decide +kernel⟩

/-- The results of the reviewer have no empty lists. -/
theorem reviewItems_nonempty (names : List Str) (i : Inputs) (run : Str → List Str → List Said × Except PyErr (List Str)) : ∀ (items : List TestItem) (recs res : Dict (List Str)),
    (∀ p ∈ recs, p.2 ≠ []) → (reviewItemsTalk names i run recs items).2 = .ok res → ∀ p ∈ res, p.2 ≠ []
  | [], recs, res, hr, h => by cases h; exact hr
  | t :: ts, recs, res, hr, h => by
    have ih := reviewItems_nonempty names i run ts
    unfold reviewItemsTalk at h
    split at h
    · exact ih _ _ hr h
    · split at h
      · split at h
        · exact ih _ _ hr h
        · split at h
          · cases h
          · refine ih _ _ ?_ h
            split
            · rename_i hne
              intro p hp
              rcases Dict.mem_set_of hp with rfl | hp
              · exact hne
              · exact hr p hp
            · exact hr
      · exact ih _ _ hr h

theorem sections_of (res : Dict (List Str)) (h : ∀ p ∈ res, p.2 ≠ []) : ∃ parts, List.Forall₂ (fun (p : Str × List Str) => Section p.1 p.2) res parts ∧ resultLines res = parts.flatten := by
  refine ⟨res.map (fun p => sectionOf p.1 p.2), ?_, ?_⟩
  · rw [List.forall₂_map_right_iff, List.forall₂_same]
    exact fun p _ => section_of p.1 p.2
  · unfold resultLines
    rw [List.flatMap_def]
    congr 1
    refine List.map_congr_left (fun p hp => ?_)
    simp [sectionOf, h p hp]

/-- C86: a run that ends with results ends its text with exactly these results: for each review with issues its name and the issues, and no review without issues is named. -/
theorem C86_results {env : Env} {r : ReviewEnv} {tests : List (TestItem × Str)} {dir : Str} {a : ReviewArgs} {w : World} {res : Dict (List Str)}
    (h : (reviewTalk env r tests dir a w).2.2 = .ok (.results res)) :
    ∃ before parts, (reviewTalk env r tests dir a w).2.1 = before ++ parts.flatten ∧ List.Forall₂ (fun (p : Str × List Str) => Section p.1 p.2) res parts ∧ ∀ p ∈ res, p.2 ≠ [] := by
  have hpart : ∀ (db : Option Database) (host : Option Str) (w : World), (reviewPart r a db host w).2.2 = .ok (.results res) →
      ∃ before parts, (reviewPart r a db host w).2.1 = before ++ parts.flatten ∧ List.Forall₂ (fun (p : Str × List Str) => Section p.1 p.2) res parts ∧ ∀ p ∈ res, p.2 ≠ [] := by
    intro db host w h
    unfold reviewPart at h ⊢
    rcases hr : reviewerTalk r w.disk.fs db (argOf a.worksheetFile) host [] with ⟨l, e | res'⟩
    · rw [hr] at h; cases h
    · rw [hr] at h
      simp only [Except.ok.injEq, ReviewOut.results.injEq] at h
      subst h
      have hne : ∀ p ∈ res', p.2 ≠ [] := by
        unfold reviewerTalk at hr
        split at hr
        · simp at hr
        · split at hr
          · simp at hr
          · exact reviewItems_nonempty _ _ _ _ _ _ (by simp) (congrArg Prod.snd hr)
      obtain ⟨parts, h1, h2⟩ := sections_of res' hne
      exact ⟨l, parts, by simp only [h2], h1, hne⟩
  unfold reviewTalk at h ⊢
  cases hv : validReview w.disk a
  · rw [hv] at h; simp at h
  · rw [hv] at h
    simp only [Bool.not_true, Bool.false_eq_true, if_false] at h ⊢
    cases hver : a.version
    · rw [hver] at h
      simp only [Bool.false_eq_true, if_false, Talk.bind_eq, Talk.say] at h ⊢
      have hshow : Talk.when a.showTests (Talk.sayAll (listTests tests)) w = (w, if a.showTests then listTests tests else [], .ok ()) := by
        cases a.showTests <;> rfl
      rw [hshow] at h ⊢
      simp only at h ⊢
      cases hts : given a.tsIp
      · rw [hts] at h
        simp only [Bool.false_eq_true, if_false] at h ⊢
        cases hf : given a.databaseFile
        · rw [hf] at h; simp [Talk.pure_eq] at h
        · rw [hf] at h
          simp only [if_true, Talk.bind_eq, readDdlTalk] at h ⊢
          rcases hp : parseFor w.disk.fs a.database defaultSchema a.databaseFile with e | db
          · rw [hp] at h; simp at h
          · rw [hp] at h
            simp only at h ⊢
            obtain ⟨b, p, h1, h2⟩ := hpart db none w h
            refine ⟨.args :: ((if a.showTests then listTests tests else []) ++ (parserSays w.disk.fs a.database defaultSchema a.databaseFile ++ b)), p, ?_, h2⟩
            rw [h1]; simp
      · rw [hts] at h
        simp only [if_true, Talk.bind_eq] at h ⊢
        rcases hr : readFromTsTalk env (a.tsIp.getD []) a.database w with ⟨w1, l, e | db⟩
        · rw [hr] at h; simp at h
        · rw [hr] at h
          simp only at h ⊢
          obtain ⟨b, p, h1, h2⟩ := hpart db (argOf a.tsIp) w1 h
          refine ⟨.args :: ((if a.showTests then listTests tests else []) ++ (l ++ b)), p, ?_, h2⟩
          rw [h1]; simp
    · rw [hver] at h; simp [Talk.bind_eq, Talk.say, Talk.pure_eq] at h

/-- The arguments `--database_file f --database n`, without server, worksheet, and list of tests. -/
structure ReviewFile (a : ReviewArgs) (f n : Str) : Prop where
  noVersion : a.version = false
  noTests : a.showTests = false
  noServer : ¬ Given a.tsIp
  noWorksheet : ¬ Given a.worksheetFile
  file : a.databaseFile = some f ∧ f ≠ []
  database : a.database = some n ∧ n ≠ []

theorem review_file_run {env : Env} {r : ReviewEnv} {tests : List (TestItem × Str)} {dir : Str} {a : ReviewArgs} {w : World} {f n : Str} {db : Database} (h : ReviewFile a f n)
    (hd : ReviewDocumented w.disk a) (hp : parseFor w.disk.fs (some n) defaultSchema (some f) = .ok (some db)) :
    reviewTalk env r tests dir a w =
      (match reviewItemsTalk [] ⟨false, false⟩ (fun n _ => callReview r db none none [] n) [] reviewFunctions with
      | (l, .error e) => (w, .args :: parserSays w.disk.fs (some n) defaultSchema (some f) ++ l, .error e)
      | (l, .ok res) => (w, .args :: parserSays w.disk.fs (some n) defaultSchema (some f) ++ l ++ resultLines res, .ok (.results res))) := by
  have hs := h.noServer
  have hws := h.noWorksheet
  rw [← given_iff, Bool.not_eq_true] at hs hws
  have hf : given a.databaseFile = true := given_iff.2 ⟨f, h.file.1, h.file.2⟩
  have harg : argOf a.worksheetFile = none := by simp [argOf, hws]
  unfold reviewTalk
  rw [(C60_review _ _).2 hd, h.noVersion, h.noTests, hs, hf, h.database.1, h.file.1]
  simp only [Bool.not_true, Bool.false_eq_true, if_false, if_true, Talk.bind_eq, Talk.say, Talk.when, Talk.pure_eq, readDdlTalk, hp, reviewPart, harg, reviewerTalk, readWsFile, Option.isSome_none]
  rcases reviewItemsTalk [] ⟨false, false⟩ (fun n _ => callReview r db none none [] n) [] reviewFunctions with ⟨l, e | res⟩ <;> simp

/-- The reviews that need neither server nor worksheet. -/
theorem review_items_file (run : Str → List Str → List Said × Except PyErr (List Str)) {l1 l2 l3 l4 : List Said} {r1 r2 r3 : List Str}
    (h1 : ∀ x, run c!"review_circular_relationships" x = (l1, .ok r1)) (h2 : ∀ x, run c!"review_long_chain_relationships" x = (l2, .ok r2))
    (h3 : ∀ x, run c!"review_pks" x = (l3, .ok r3)) (h4 : ∀ x, run c!"review_relationships" x = (l4, .ok [])) :
    ∃ res, reviewItemsTalk [] ⟨false, false⟩ run [] reviewFunctions =
      (l1 ++ l2 ++ l3 ++ l4 ++ [.out c!"Skipping review_sharding(database, rtql, config_file)", .out c!"Skipping review_table_joins(database, rtql)",
        .out c!"Skipping review_worksheet_joins(database, rtql, worksheet)"], .ok res) ∧
      resultLines res = sectionOf c!"review_circular_relationships" r1 ++ sectionOf c!"review_long_chain_relationships" r2 ++ sectionOf c!"review_pks" r3 := by
  have hsec : ∀ (recs : Dict (List Str)) (n : Str) (r : List Str), n ∉ Dict.keys recs → resultLines (if r ≠ [] then recs.set n r else recs) = resultLines recs ++ sectionOf n r := by
    intro recs n r hn
    split
    · rename_i hr
      rw [Dict.set_of_not_mem _ hn]
      simp [resultLines, sectionOf, hr]
    · rename_i hr
      rw [not_not] at hr
      simp [sectionOf, hr]
  have hkeys : ∀ (recs : Dict (List Str)) (n m : Str) (r : List Str), m ∉ Dict.keys recs → m ≠ n → m ∉ Dict.keys (if r ≠ [] then recs.set n r else recs) := by
    intro recs n m r hm hne
    split
    · rw [Dict.mem_keys_set]
      simp [hm, hne]
    · exact hm
  have step : ∀ (recs : Dict (List Str)) (t : TestItem) (ts : List TestItem) (l : List Said) (r : List Str), startsWith t.name c!"review_" = true →
      (callArgs ⟨false, false⟩ t).isSome = true → (∀ x, run t.name x = (l, .ok r)) → reviewItemsTalk [] ⟨false, false⟩ run recs (t :: ts) =
      (l ++ (reviewItemsTalk [] ⟨false, false⟩ run (if r ≠ [] then recs.set t.name r else recs) ts).1, (reviewItemsTalk [] ⟨false, false⟩ run (if r ≠ [] then recs.set t.name r else recs) ts).2) := by
    intro recs t ts l r hs hc hr
    obtain ⟨args, hc⟩ := Option.isSome_iff_exists.1 hc
    rw [reviewItemsTalk]
    simp [hs, hc, hr]
  have skip : ∀ (recs : Dict (List Str)) (t : TestItem) (ts : List TestItem), startsWith t.name c!"review_" = true → callArgs ⟨false, false⟩ t = none →
      reviewItemsTalk [] ⟨false, false⟩ run recs (t :: ts) = (skipLine ⟨false, false⟩ t ++ (reviewItemsTalk [] ⟨false, false⟩ run recs ts).1, (reviewItemsTalk [] ⟨false, false⟩ run recs ts).2) := by
    intro recs t ts hs hc
    rw [reviewItemsTalk]
    simp [hs, hc]
  have other : ∀ (recs : Dict (List Str)) (t : TestItem) (ts : List TestItem), startsWith t.name c!"review_" = false →
      reviewItemsTalk [] ⟨false, false⟩ run recs (t :: ts) = reviewItemsTalk [] ⟨false, false⟩ run recs ts := by
    intro recs t ts hs
    rw [reviewItemsTalk]
    simp [hs]
  unfold reviewFunctions
  rw [other _ _ _ (by decide), step _ _ _ _ _ (by decide) (by decide) h1, step _ _ _ _ _ (by decide) (by decide) h2, step _ _ _ _ _ (by decide) (by decide) h3,
    step _ _ _ _ _ (by decide) (by decide) h4, skip _ _ _ (by decide) (by decide), skip _ _ _ (by decide) (by decide), skip _ _ _ (by decide) (by decide)]
  simp only [reviewItemsTalk, ne_eq, not_true_eq_false, if_false]
  refine ⟨_, Prod.ext ?_ rfl, ?_⟩
  · simp only [List.append_assoc]
    congr 4
  · have := hsec (if r2 ≠ [] then Dict.set (if r1 ≠ [] then Dict.set [] c!"review_circular_relationships" r1 else []) c!"review_long_chain_relationships" r2
      else (if r1 ≠ [] then Dict.set [] c!"review_circular_relationships" r1 else [])) c!"review_pks" r3
      (hkeys _ _ _ _ (hkeys [] _ _ _ (by simp [Dict.keys]) (by decide)) (by decide))
    rw [hsec _ _ _ (hkeys [] _ _ _ (by simp [Dict.keys]) (by decide)), hsec [] _ _ (by simp [Dict.keys])] at this
    exact this

theorem parsed_sound {fs : FS} {n : Str} {schema : Str} {f : Option Str} {db : Database} (h : parseFor fs (some n) schema f = .ok (some db)) : WellKeyed db ∧ db.name = n :=
  have := ((C36_parsed_database_consistent _ _ _).1 db h).1
  ⟨this.keyed, this.name⟩

/-- C86: `review_model --database_file f --database n` on a file all of whose foreign keys and relationships lead to tables in it.  The program says what the parser says, names the
four reviews it does and the three it skips, and then shows exactly the tables that lead back to themselves, the paths with more than three steps and the tables without primary
key; it changes nothing.  The stack has room for a path through all tables. -/
theorem C86_file {env : Env} {r : ReviewEnv} (ho : ∀ l, (r.order l).Perm l) {tests : List (TestItem × Str)} {dir : Str} {a : ReviewArgs} {w : World} {f n : Str} {db : Database}
    (h : ReviewFile a f n) (hd : ReviewDocumented w.disk a) (hp : parseFor w.disk.fs (some n) defaultSchema (some f) = .ok (some db)) (hc : ¬ Dangling db) (hdepth : db.tables.length ≤ r.depth) :
    ∃ (circular : List Str) (paths : List (List Str)) (noKey : List Table) (s1 s2 s3 : List Said) (res : Dict (List Str)),
      (circular.Sublist (db.tables.map Prod.fst) ∧ ∀ x, x ∈ circular ↔ Leads db x x) ∧
      (paths.Nodup ∧ ∀ p, p ∈ paths ↔ SimplePath db p ∧ 3 < p.length - 1) ∧
      (noKey.Sublist (db.tables.map Prod.snd) ∧ ∀ t, t ∈ noKey ↔ (∃ x, TableOf db x t) ∧ t.pk = []) ∧
      Section c!"review_circular_relationships" (circular.map (fun x => x ++ c!" has circular relationship back to itself.")) s1 ∧
      Section c!"review_long_chain_relationships" (paths.map (fun p => c!"Long path (" ++ Nat.toDigits 10 p.length ++ c!"):  " ++ showNames p ++ c!".")) s2 ∧
      Section c!"review_pks" (noKey.map (fun t => c!"No primary key on table " ++ n ++ c!"." ++ t.schema ++ c!"." ++ t.name)) s3 ∧
      reviewTalk env r tests dir a w = (w, .args :: parserSays w.disk.fs (some n) defaultSchema (some f) ++
        [.out (c!"reviewing circular relationships for " ++ n ++ c!" database"), .out (c!"reviewing long chain (> 2) relationships for " ++ n ++ c!" database"),
         .out (c!"reviewing primary keys for " ++ n ++ c!" database"), .out (c!"reviewing relationships vs. foreign keys for " ++ n ++ c!" database"),
         .out c!"Skipping review_sharding(database, rtql, config_file)", .out c!"Skipping review_table_joins(database, rtql)",
         .out c!"Skipping review_worksheet_joins(database, rtql, worksheet)"] ++ s1 ++ s2 ++ s3, .ok (.results res)) := by
  obtain ⟨hk, hname⟩ := parsed_sound hp
  obtain ⟨circ, e1, c1, -, c2⟩ := C47_circular_exact r.order ho db hk hc (db.tables.length + 2) (Nat.le_refl _)
  obtain ⟨paths, p1, p2, e2⟩ := C49_long_chains_exact r.order ho db hk hc [] (by simp) (.int 3) 3 (.missing (by simp)) (.int 3) r.depth
    (fun p hp => Nat.le_trans (simplePath_length hp) hdepth)
  have e3 := C50_missing_pks db
  obtain ⟨res, hr, hs⟩ := review_items_file (fun n _ => callReview r db none none [] n) (l1 := [.out (c!"reviewing circular relationships for " ++ db.name ++ c!" database")])
    (l2 := [.out (c!"reviewing long chain (> 2) relationships for " ++ db.name ++ c!" database")]) (l3 := [.out (c!"reviewing primary keys for " ++ db.name ++ c!" database")])
    (l4 := [.out (c!"reviewing relationships vs. foreign keys for " ++ db.name ++ c!" database")])
    (fun _ => by
      show (_, (reviewCircular r.order (db.tables.length + 2) db).getD (.error .unmodelled)) = _
      rw [e1]; rfl)
    (fun _ => by
      show (_, reviewLongChain r.order r.depth db []) = _
      rw [e2])
    (fun _ => rfl) (fun _ => rfl)
  rw [hname] at hr e3
  rw [e3] at hs
  refine ⟨circ, paths, (db.tables.map Prod.snd).filter (fun t => t.pk = []), _, _, _, res, ⟨c1, c2⟩, ⟨p1, fun p => ?_⟩, ⟨List.filter_sublist, fun t => ?_⟩, section_of _ _, section_of _ _, section_of _ _, ?_⟩
  · rw [p2]
    constructor
    · rintro ⟨q1, q2, q3⟩
      exact ⟨q1, by exact_mod_cast q3⟩
    · rintro ⟨q1, q2⟩
      exact ⟨q1, by omega, by exact_mod_cast q2⟩
  · simp only [List.mem_filter, List.mem_map, decide_eq_true_eq]
    constructor
    · rintro ⟨⟨⟨x, t'⟩, hm, rfl⟩, h2⟩
      exact ⟨⟨x, hm⟩, h2⟩
    · rintro ⟨⟨x, hm⟩, h2⟩
      exact ⟨⟨(x, t), hm, rfl⟩, h2⟩
  · rw [review_file_run h hd hp, hr]
    simp only [hs, List.append_assoc, List.cons_append, List.nil_append]

/-- C86: if a foreign key or relationship of the file leads to no table of it, the run ends with `KeyError` after the first announcement: none of the reviews reports anything. -/
theorem C86_dangling {env : Env} {r : ReviewEnv} (ho : ∀ l, (r.order l).Perm l) {tests : List (TestItem × Str)} {dir : Str} {a : ReviewArgs} {w : World} {f n : Str} {db : Database}
    (h : ReviewFile a f n) (hd : ReviewDocumented w.disk a) (hp : parseFor w.disk.fs (some n) defaultSchema (some f) = .ok (some db)) (hc : Dangling db) :
    reviewTalk env r tests dir a w = (w, .args :: parserSays w.disk.fs (some n) defaultSchema (some f) ++
      [.out (c!"reviewing circular relationships for " ++ n ++ c!" database")], .error .key) := by
  obtain ⟨hk, hname⟩ := parsed_sound hp
  have e := (C48_dangling_exact r.order ho db hk (db.tables.length + 2) (Nat.le_refl _)).1.2 hc
  have hi : reviewItemsTalk [] ⟨false, false⟩ (fun n _ => callReview r db none none [] n) [] reviewFunctions =
      ([.out (c!"reviewing circular relationships for " ++ n ++ c!" database")], .error .key) := by
    have : callReview r db none none [] c!"review_circular_relationships" = ([.out (c!"reviewing circular relationships for " ++ n ++ c!" database")], .error .key) := by
      show (_, (reviewCircular r.order (db.tables.length + 2) db).getD (.error .unmodelled)) = _
      rw [e, hname]; rfl
    unfold reviewFunctions
    rw [reviewItemsTalk, reviewItemsTalk]
    simp only [show startsWith c!"get_relationships" c!"review_" = false by decide, show startsWith c!"review_circular_relationships" c!"review_" = true by decide,
      show callArgs ⟨false, false⟩ ⟨c!"review_circular_relationships", [c!"database"]⟩ = some [c!"database"] by decide, this]
    simp
  rw [review_file_run h hd hp, hi]

/-- Two tables that refer to each other, one without primary key. -/
def loopText : Str := c!"CREATE TABLE a (x INT);
CREATE TABLE b (y INT, CONSTRAINT PRIMARY KEY (y));
ALTER TABLE a ADD CONSTRAINT k FOREIGN KEY (x) REFERENCES b (y);
ALTER TABLE b ADD CONSTRAINT l FOREIGN KEY (y) REFERENCES a (x);
"

/-- The database of `loopText`. -/
def loopDb : Database :=
  { name := c!"d"
    tables := [(c!"a", { name := c!"a", schema := c!"falcon_default_schema", pk := [], shard := none, cols := [(c!"x", ⟨c!"x", c!"BIGINT"⟩)],
                         fks := [(c!"k", ⟨c!"k", c!"a", [c!"x"], c!"b", [c!"y"]⟩)], rels := [] }),
               (c!"b", { name := c!"b", schema := c!"falcon_default_schema", pk := [c!"y"], shard := none, cols := [(c!"y", ⟨c!"y", c!"BIGINT"⟩)],
                         fks := [(c!"l", ⟨c!"l", c!"b", [c!"y"], c!"a", [c!"x"]⟩)], rels := [] })]
    schemas := [(c!"falcon_default_schema", 2)] }

/-- Arguments for the samples. -/
def loopArgs : ReviewArgs := { database := some c!"d", databaseFile := some c!"f" }

theorem loopArgs_file : ReviewFile loopArgs c!"f" c!"d" :=
  ⟨rfl, rfl, (by rintro ⟨x, h, -⟩; cases h), (by rintro ⟨x, h, -⟩; cases h), ⟨rfl, by decide⟩, ⟨rfl, by decide⟩⟩

theorem loop_parses : parseFor (disk [(c!"f", .file (.text loopText))]).fs (some c!"d") defaultSchema (some c!"f") = .ok (some loopDb) := by decide +kernel

example : ReviewDocumented (disk [(c!"f", .file (.text loopText))]) loopArgs ∧ ¬ Dangling loopDb ∧ loopDb.tables.length ≤ sampleReviewEnv.depth ∧
    (reviewTalk (sayEnv []) sampleReviewEnv [] c!"/x" loopArgs ⟨disk [(c!"f", .file (.text loopText))], []⟩).2.1 =
      [.args, .out c!"reviewing circular relationships for d database", .out c!"reviewing long chain (> 2) relationships for d database", .out c!"reviewing primary keys for d database",
       .out c!"reviewing relationships vs. foreign keys for d database", .out c!"Skipping review_sharding(database, rtql, config_file)",
       .out c!"Skipping review_table_joins(database, rtql)", .out c!"Skipping review_worksheet_joins(database, rtql, worksheet)", .out c!"review_circular_relationships:",
       .out c!"\ta has circular relationship back to itself.", .out c!"\tb has circular relationship back to itself.", .out c!"review_pks:",
       .out c!"\tNo primary key on table d.falcon_default_schema.a"] := by
  have hk : WellKeyed loopDb := (parsed_sound loop_parses).1
  refine ⟨(C60_review _ _).1 (by decide), ?_, by decide, by decide +kernel⟩
  rw [dangling_iff hk]
  decide +kernel

/-- A foreign key to a table the file does not have. -/
example : ∃ db, parseFor (disk [(c!"f", .file (.text c!"CREATE TABLE a (x INT);\nALTER TABLE a ADD CONSTRAINT k FOREIGN KEY (x) REFERENCES b (y);\n"))]).fs (some c!"d") defaultSchema (some c!"f") =
    .ok (some db) ∧ Dangling db := by
  have h : parseFor (disk [(c!"f", .file (.text c!"CREATE TABLE a (x INT);\nALTER TABLE a ADD CONSTRAINT k FOREIGN KEY (x) REFERENCES b (y);\n"))]).fs (some c!"d") defaultSchema (some c!"f") =
      .ok (some { name := c!"d"
                  tables := [(c!"a", { name := c!"a", schema := c!"falcon_default_schema", pk := [], shard := none, cols := [(c!"x", ⟨c!"x", c!"BIGINT"⟩)],
                                       fks := [(c!"k", ⟨c!"k", c!"a", [c!"x"], c!"b", [c!"y"]⟩)], rels := [] })]
                  schemas := [(c!"falcon_default_schema", 1)] }) := by decide +kernel
  refine ⟨_, h, ?_⟩
  rw [dangling_iff (parsed_sound h).1]
  decide +kernel

end Verif.Props
