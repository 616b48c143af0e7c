import Verif.Props.Runs
/-
C95: files that cannot be decoded.
-/

namespace Verif.Props
open Verif Verif.Spec

/-! ## Reading -/

/-- C95, partial: a DDL file that cannot be decoded is read as a file with the lines before the error, and the message about the error comes first.  Missing: that such a file is not used;
this is false. -/
theorem C95_as_prefix_partial {fs fs' : FS} (p : ParserSt) {f before m : Str} (hf : f ≠ []) (h : fs f = some (.undecodable before m)) (h' : fs' f = some (.text before)) :
    parseDdl fs p (some f) = parseDdl fs' p (some f) ∧ parseReports fs p (some f) = .decoding m :: parseReports fs' p (some f) := by
  cases f with
  | nil => exact absurd rfl hf
  | cons c f => simp only [parseDdl, parseReports, h, h', and_self]

/-! ## Worlds that differ in one file -/

/-- Equal but for the file `f`. -/
def SameBut (f : Str) (w w' : World) : Prop := (∀ g, g ≠ f → w.disk g = w'.disk g) ∧ w.sent = w'.sent

/-- A program that does the same whatever is in the file `f`. -/
def Blind {α : Type} (f : Str) (x : Talk α) : Prop := ∀ w w', SameBut f w w' → SameBut f (x w).1 (x w').1 ∧ (x w).2 = (x w').2

theorem SameBut.put {f : Str} {w w' : World} (h : SameBut f w w') (g : Str) (i : Option Item) :
    SameBut f { w with disk := w.disk.put g i } { w' with disk := w'.disk.put g i } := by
  refine ⟨fun k hk => ?_, h.2⟩
  simp only [Disk.put]
  split
  · rfl
  · exact h.1 k hk

theorem Blind.bind {α β : Type} {f : Str} {x : Talk α} {y : α → Talk β} (hx : Blind f x) (hy : ∀ a, Blind f (y a)) : Blind f (x >>= y) := by
  intro w w' h
  obtain ⟨h1, h2⟩ := hx w w' h
  rw [Talk.bind_eq, Talk.bind_eq]
  rcases e : x w with ⟨w1, l, r⟩
  rcases e' : x w' with ⟨w1', l', r'⟩
  rw [e, e'] at h1 h2
  simp only [Prod.mk.injEq] at h1 h2
  obtain ⟨rfl, rfl⟩ := h2
  cases r with
  | error e => exact ⟨h1, rfl⟩
  | ok a =>
    obtain ⟨h3, h4⟩ := hy a w1 w1' h1
    simp only
    exact ⟨h3, by rw [h4]⟩

theorem Blind.say (f : Str) (s : Said) : Blind f (Talk.say s) := fun _ _ h => ⟨h, rfl⟩

theorem Blind.when {f : Str} {x : Talk Unit} (c : Bool) (h : Blind f x) : Blind f (Talk.when c x) := by
  cases c
  · exact fun _ _ h => ⟨h, rfl⟩
  · exact h

theorem Blind.validate (f : Str) (db : Option Database) : Blind f (validateTalk db) := by
  intro w w' h
  unfold validateTalk
  cases db with
  | none => exact ⟨h, rfl⟩
  | some db =>
    simp only
    cases db.validate with
    | error e => exact ⟨h, rfl⟩
    | ok r => exact ⟨h, rfl⟩

theorem Blind.tql (f : Str) (env : Env) (o : TqlOpts) (db : Option Database) (g : Str) : Blind f (tqlTalk env o db g) := by
  intro w w' h
  simp only [tqlTalk, tqlToFile]
  split
  · exact ⟨h, rfl⟩
  · split
    · exact ⟨h.put _ _, rfl⟩
    · exact ⟨h, rfl⟩

theorem Blind.excel (f : Str) (env : Env) (db : Option Database) (g : Str) : Blind f (Talk.act (excelToFile env db g)) := by
  intro w w' h
  simp only [Talk.act, excelToFile]
  cases db with
  | none => exact ⟨h, rfl⟩
  | some db =>
    simp only
    split
    · exact ⟨h.put _ _, rfl⟩
    · exact ⟨h, rfl⟩

theorem Blind.writeToTs (f : Str) (env : Env) (o : TqlOpts) (db : Option Database) (host : Str) : Blind f (writeToTsTalk env o db host) := by
  cases db with
  | none => exact fun _ _ h => ⟨h, rfl⟩
  | some d =>
    intro w w' h
    have hne : ¬ (tmpFile d.name = [] ∨ tmpFile d.name = c!"-") := by
      unfold tmpFile
      rintro (e | e) <;> have := congrArg List.length e <;> simp at this
    simp only [writeToTsTalk, Talk.bind_eq, tqlTalk, tqlToFile, if_neg hne]
    cases hw : env.writable (tmpFile d.name) with
    | false => exact ⟨h, rfl⟩
    | true =>
      simp only [if_true]
      cases hres : (writeTql o d).2 with
      | some e => exact ⟨h.put _ _, rfl⟩
      | none =>
        simp only [sendTalk, Disk.fs, Disk.put, if_true, Option.map_some, h.2]
        cases env.answer host (newlines (writeTql o d).1) with
        | error e =>
          refine ⟨⟨fun k hk => ?_, rfl⟩, rfl⟩
          simp only [Disk.put]
          split
          · rfl
          · exact h.1 k hk
        | ok l =>
          refine ⟨⟨fun k hk => ?_, rfl⟩, rfl⟩
          simp only [Disk.put]
          split
          · rfl
          · exact h.1 k hk

theorem Blind.write (f : Str) (env : Env) (a : ConvertArgs) (db : Option Database) : Blind f (writeTalk env a db) := by
  unfold writeTalk
  exact (Blind.when _ ((Blind.say f _).bind fun _ => .validate f db)).bind fun _ => (Blind.when _ ((Blind.say f _).bind fun _ => .tql f env _ db _)).bind fun _ =>
    (Blind.when _ ((Blind.say f _).bind fun _ => .excel f env db _)).bind fun _ => Blind.when _ ((Blind.say f _).bind fun _ => .writeToTs f env _ db _)

/-! ## The programs -/

/-- The world with a text in the file `f`. -/
def withText (w : World) (f text : Str) : World := { w with disk := w.disk.put f (some (.file (.text text))) }

/-- C95, negative: convert_ddl with a file that cannot be decoded does what it does with a file of the lines before the error: the same files are written and the same is sent, what is
said is the same but for the message about the error, and it ends in the same way. -/
theorem C95_convert (env : Env) (dir : Str) {a : ConvertArgs} {w : World} {f before m : Str} (hv : ConvertDocumented a) (hver : a.version = false) (hfrom : a.fromDdl = some f) (hf : f ≠ [])
    (h : w.disk f = some (.file (.undecodable before m))) :
    SameBut f (convertTalk env dir a w).1 (convertTalk env dir a (withText w f before)).1 ∧
    (convertTalk env dir a w).2.2 = (convertTalk env dir a (withText w f before)).2.2 ∧
    ∃ rest, (convertTalk env dir a (withText w f before)).2.1 = [.args, .out c!"Reading DDL ..."] ++ rest ∧
      (convertTalk env dir a w).2.1 = [.args, .out c!"Reading DDL ..."] ++ .parser (.decoding m) :: rest := by
  have hg : given a.fromDdl = true := given_iff.2 ⟨f, hfrom, hf⟩
  have hdb : given a.database = true := by
    have := (C60_convert a).2 hv
    unfold validConvert at this
    cases e : given a.database with
    | true => rfl
    | false => simp [e, hg] at this
  obtain ⟨d, hd, -⟩ := given_iff.1 hdb
  have hfs : w.disk.fs f = some (.undecodable before m) := by simp [Disk.fs, h]
  have hfs' : (withText w f before).disk.fs f = some (.text before) := by simp [Disk.fs, withText, Disk.put]
  obtain ⟨h1, h2⟩ := C95_as_prefix_partial { databaseName := d, schemaName := a.schema } hf hfs hfs'
  have hread : readTalk env a w = (w, .out c!"Reading DDL ..." :: .parser (.decoding m) :: parserSays (withText w f before).disk.fs a.database a.schema a.fromDdl,
      parseFor (withText w f before).disk.fs a.database a.schema a.fromDdl) := by
    unfold readTalk
    rw [if_pos hg, Talk.bind_eq]
    simp only [Talk.say, readDdlTalk, hd, hfrom, parserSays, h2, List.map_cons, List.cons_append, List.nil_append, parseFor, h1]
  have hread' : readTalk env a (withText w f before) = (withText w f before, .out c!"Reading DDL ..." :: parserSays (withText w f before).disk.fs a.database a.schema a.fromDdl,
      parseFor (withText w f before).disk.fs a.database a.schema a.fromDdl) := by
    unfold readTalk
    rw [if_pos hg, Talk.bind_eq]
    rfl
  have hb : SameBut f w (withText w f before) := ⟨fun g hg => by simp [withText, Disk.put, hg], rfl⟩
  have hrun : ∀ w, convertTalk env dir a w = (do Talk.say .args; let db ← readTalk env a; writeTalk env a db : Talk Unit) w := by
    intro w
    unfold convertTalk
    rw [if_pos ((C60_convert a).2 hv), hver]
    rfl
  rw [hrun, hrun]
  simp only [Talk.bind_eq, Talk.say, hread, hread']
  cases parseFor (withText w f before).disk.fs a.database a.schema a.fromDdl with
  | error e => exact ⟨hb, rfl, _, rfl, rfl⟩
  | ok db =>
    obtain ⟨h3, h4⟩ := Blind.write f env a db _ _ hb
    simp only
    exact ⟨h3, by rw [h4], _, rfl, by rw [h4]; rfl⟩

/-- C95, negative: ddldiff compares what could be decoded. -/
theorem C95_diff (fr : Rat → Str) {a : DiffArgs} {d : Disk} {f before m : Str} (hd : DiffDocumented d a) (h : d f = some (.file (.undecodable before m))) :
    diffMain fr d a = diffMain fr (d.put f (some (.file (.text before)))) a ∧
    (a.ddl1 = some f → ∃ l, (diffTalk fr d a).1 = .args :: .parser (.decoding m) :: l) ∧
    (a.ddl2 = some f → (diffTalk fr d a).2 = none → .parser (.decoding m) ∈ (diffTalk fr d a).1) := by
  have hvalid := (C60_diff _ _).2 hd
  have hput : ∀ g, ((d.put f (some (.file (.text before)))) g).isSome = (d g).isSome := by
    intro g
    simp only [Disk.put]
    split
    · rename_i e; rw [e, h]; rfl
    · rfl
  have hparse : ∀ {g : Option Str}, given g = true → parseFor (d.put f (some (.file (.text before)))).fs (some a.database) a.schema g = parseFor d.fs (some a.database) a.schema g := by
    intro g hg
    obtain ⟨g, rfl, hne⟩ := given_iff.1 hg
    by_cases e : g = f
    · subst e
      have := (C95_as_prefix_partial (fs := d.fs) (fs' := (d.put g (some (.file (.text before)))).fs) { databaseName := a.database, schemaName := a.schema } hne
        (before := before) (m := m) (by simp [Disk.fs, h]) (by simp [Disk.fs, Disk.put])).1
      simp only [parseFor, this]
    · have hfs : (d.put f (some (.file (.text before)))).fs g = d.fs g := by simp [Disk.fs, Disk.put, e]
      cases g with
      | nil => exact absurd rfl hne
      | cons c g => simp only [parseFor, parseDdl, hfs]
  have hgiven : given a.ddl1 = true ∧ given a.ddl2 = true := by
    unfold validDiff at hvalid
    cases e1 : given a.ddl1 <;> cases e2 : given a.ddl2 <;> simp [e1, e2] at hvalid ⊢
  have hsay : f ≠ [] → ∃ l, parserSays d.fs (some a.database) a.schema (some f) = .parser (.decoding m) :: l := by
    intro hf
    have := (C95_as_prefix_partial (fs := d.fs) (fs' := (d.put f (some (.file (.text before)))).fs) { databaseName := a.database, schemaName := a.schema } hf
        (before := before) (m := m) (by simp [Disk.fs, h]) (by simp [Disk.fs, Disk.put])).2
    simp only [parserSays, this, List.map_cons]
    exact ⟨_, rfl⟩
  refine ⟨?_, ?_, ?_⟩
  · have hv' : validDiff (d.put f (some (.file (.text before)))) a = validDiff d a := by
      unfold validDiff
      simp only [hput]
    unfold diffMain
    rw [hv', hparse hgiven.1, hparse hgiven.2]
  · intro hf
    obtain ⟨g, hg, hne⟩ := given_iff.1 hgiven.1
    rw [hf] at hg
    cases hg
    obtain ⟨l, hl⟩ := hsay hne
    unfold diffTalk
    simp only [hvalid, Bool.not_true, Bool.false_eq_true, if_false, hf, hl]
    split
    · exact ⟨_, rfl⟩
    · split
      · exact ⟨_, rfl⟩
      · split
        · simp only [andThen]; exact ⟨_, rfl⟩
        · exact ⟨_, rfl⟩
  · intro hf hok
    obtain ⟨g, hg, hne⟩ := given_iff.1 hgiven.2
    rw [hf] at hg
    cases hg
    obtain ⟨l, hl⟩ := hsay hne
    unfold diffTalk at hok ⊢
    simp only [hvalid, Bool.not_true, Bool.false_eq_true, if_false, hf, hl] at hok ⊢
    split at hok
    · cases hok
    · split at hok
      · cases hok
      · split at hok
        · simp [andThen]
        · cases hok

/-- C95, negative: review_model reviews what could be decoded; the review comes after the message, and it is that of a file with the lines before the error. -/
theorem C95_review (env : Env) (r : ReviewEnv) (tests : List (TestItem × Str)) (dir : Str) {a : ReviewArgs} {w : World} {f before m : Str} (hd : ReviewDocumented w.disk a)
    (hver : a.version = false) (hfrom : a.databaseFile = some f) (hf : f ≠ []) (hdb : Given a.database) (hws : a.worksheetFile ≠ some f)
    (h : w.disk f = some (.file (.undecodable before m))) :
    (reviewTalk env r tests dir a w).1 = w ∧ (reviewTalk env r tests dir a w).2.2 = (reviewTalk env r tests dir a (withText w f before)).2.2 ∧
    ∃ pre rest, (reviewTalk env r tests dir a (withText w f before)).2.1 = pre ++ rest ∧ (reviewTalk env r tests dir a w).2.1 = pre ++ .parser (.decoding m) :: rest := by
  have hv := (C60_review _ _).2 hd
  have hput : ∀ g, ((withText w f before).disk g).isSome = (w.disk g).isSome := by
    intro g
    simp only [withText, Disk.put]
    split
    · rename_i e; rw [e, h]; rfl
    · rfl
  have hv' : validReview (withText w f before).disk a = true := by
    rw [← hv]
    unfold validReview
    simp only [hput]
  have hg : given a.databaseFile = true := given_iff.2 ⟨f, hfrom, hf⟩
  have hts : given a.tsIp = false := by
    cases e : given a.tsIp with
    | false => rfl
    | true => exact absurd ⟨given_iff.1 hg, given_iff.1 e⟩ hd.single
  obtain ⟨d, hdn, -⟩ := hdb
  obtain ⟨h1, h2⟩ := C95_as_prefix_partial (fs := w.disk.fs) (fs' := (withText w f before).disk.fs) (before := before) (m := m) { databaseName := d, schemaName := defaultSchema } hf
    (by simp [Disk.fs, h]) (by simp [Disk.fs, withText, Disk.put])
  have hread : readDdlTalk a.database defaultSchema a.databaseFile w =
      (w, .parser (.decoding m) :: parserSays (withText w f before).disk.fs a.database defaultSchema a.databaseFile,
        parseFor (withText w f before).disk.fs a.database defaultSchema a.databaseFile) := by
    simp only [readDdlTalk, hdn, hfrom, parserSays, h2, List.map_cons, parseFor, h1]
  have hws' : readWsFile r w.disk.fs (argOf a.worksheetFile) = readWsFile r (withText w f before).disk.fs (argOf a.worksheetFile) := by
    unfold readWsFile
    split
    · rfl
    · rename_i g e
      have hgf : g ≠ f := by
        rintro rfl
        apply hws
        unfold argOf at e
        split at e
        · exact e
        · cases e
      have : (withText w f before).disk.fs g = w.disk.fs g := by simp [Disk.fs, withText, Disk.put, hgf]
      rw [this]
  have hpart : ∀ db, reviewPart r a db none w = (w, (reviewPart r a db none (withText w f before)).2) := by
    intro db
    unfold reviewPart reviewerTalk
    rw [hws']
    generalize readWsFile r (withText w f before).disk.fs (argOf a.worksheetFile) = x
    cases x with
    | error e => rfl
    | ok y =>
      cases db with
      | none => rfl
      | some db =>
        simp only
        generalize reviewItemsTalk _ _ _ _ _ = z
        rcases z with ⟨l, e | res⟩ <;> rfl
  unfold reviewTalk
  rw [hv, hv', hver, hts, hg]
  simp only [Bool.not_true, Bool.false_eq_true, if_false, if_true, Talk.bind_eq, Talk.say]
  have hwhen : ∀ u, Talk.when a.showTests (Talk.sayAll (listTests tests)) u = (u, if a.showTests then listTests tests else [], .ok ()) := by
    intro u
    cases a.showTests <;> rfl
  have hread' : readDdlTalk a.database defaultSchema a.databaseFile (withText w f before) = (withText w f before,
      parserSays (withText w f before).disk.fs a.database defaultSchema a.databaseFile, parseFor (withText w f before).disk.fs a.database defaultSchema a.databaseFile) := rfl
  simp only [hwhen, hread, hread']
  cases parseFor (withText w f before).disk.fs a.database defaultSchema a.databaseFile with
  | error e => exact ⟨rfl, rfl, _, _, by simp only [← List.append_assoc]; rfl, by simp⟩
  | ok db =>
    simp only [hpart db]
    refine ⟨trivial, trivial, .args :: (if a.showTests = true then listTests tests else []), _, by simp; rfl, by simp⟩

/-! ## Concrete cases -/

/-- A file with two tables of which the first can be decoded, and its message. -/
def halfFile : FileState := .undecodable c!"CREATE TABLE a (x BIGINT);\nCREATE TABLE " c!"'utf-8' codec can't decode byte 0xe9 in position 8200: invalid continuation byte"

/-- A disk with this file, and an older script. -/
def halfDisk : Disk := disk [(c!"f", .file halfFile), (c!"g", .file (.text c!"older")), (c!"h", .file (.text c!"CREATE TABLE a (x BIGINT);\nCREATE TABLE b (y BIGINT);"))]

/-- A run of convert_ddl and what is in the file `g` afterwards. -/
def halfRun : Ended × Option Str :=
  let r := convertRun (sayEnv []) ⟨[], [], []⟩ [] [c!"--from_ddl=f", c!"-d", c!"d", c!"--to_tql=g"] ⟨halfDisk, []⟩
  (r.2, textAt r.1 c!"g")

/-- C95, negative: the script is replaced by one for a part of the file, and the status is 0. -/
theorem C95_partly_converted : halfRun.1.status = 0 ∧ halfRun.1.err = [.parser (.decoding c!"'utf-8' codec can't decode byte 0xe9 in position 8200: invalid continuation byte")] ∧
    ∃ s, halfRun.2 = some s ∧ c!"CREATE TABLE \"falcon_default_schema\".\"a\"" <:+: s ∧ ¬ c!"older" <:+: s := by
  refine ⟨by decide +kernel, by decide +kernel, _, rfl, by decide +kernel, by decide +kernel⟩

/-- What ddldiff prints to make the first file as the second. -/
def halfDiff : Str := (diffRun (fun _ => []) ⟨[], [], []⟩ [c!"--ddl1=h", c!"--ddl2=f", c!"--alter1"] halfDisk).out

/-- C95, negative: ddldiff tells to drop a table that is in the part of the other file that was not read. -/
theorem C95_drops : (diffRun (fun _ => []) ⟨[], [], []⟩ [c!"--ddl1=h", c!"--ddl2=f", c!"--alter1"] halfDisk).status = 0 ∧ c!"DROP TABLE \"falcon_default_schema\".\"b\"" <:+: halfDiff := by
  decide +kernel

/-- The hypotheses of C95_convert, C95_diff and C95_review hold. -/
example : ConvertDocumented { fromDdl := some c!"f", database := some c!"d", toTql := some c!"g" } ∧ DiffDocumented halfDisk { ddl1 := some c!"h", ddl2 := some c!"f" } ∧
    ReviewDocumented halfDisk { databaseFile := some c!"f", database := some c!"d" } ∧ halfDisk c!"f" = some (.file halfFile) :=
  ⟨(C60_convert _).1 (by decide), (C60_diff _ _).1 (by decide), (C60_review _ _).1 (by decide), rfl⟩

/-- A workbook in place of a script: an empty database, and the script is overwritten. -/
example : (convertMain (sayEnv []) { fromDdl := some c!"f", database := some c!"d", toTql := some c!"g" } ⟨disk [(c!"f", .book sampleBook), (c!"g", .file (.text c!"older"))], []⟩).2 = .ok () := by
  decide +kernel

end Verif.Props
