import Verif.Spec.Console
import Verif.Lemmas.Cli
import Verif.Lemmas.ExcelReports
/-
Lemmas on what convert_ddl says: the actions are those of Cli.lean; the text follows the steps.
-/

namespace Verif
open Verif Verif.Spec

namespace Talk

/-- The program without what it says. -/
def mute {α : Type} (x : Talk α) : Act α := fun w => ((x w).1, (x w).2.2)

theorem bind_eq {α β : Type} (x : Talk α) (f : α → Talk β) (w : World) :
    (x >>= f) w = match x w with
      | (w, l, .error e) => (w, l, .error e)
      | (w, l, .ok a) => ((f a w).1, l ++ (f a w).2.1, (f a w).2.2) := rfl

theorem pure_eq {α : Type} (a : α) (w : World) : (pure a : Talk α) w = (w, [], .ok a) := rfl

theorem mute_bind {α β : Type} (x : Talk α) (f : α → Talk β) : mute (x >>= f) = (mute x >>= fun a => mute (f a)) := by
  funext w
  rw [Act.bind_eq]
  show ((match x w with | (w, l, .error e) => (w, l, .error e) | (w, l, .ok a) => ((f a w).1, l ++ (f a w).2.1, (f a w).2.2) : World × List Said × Except PyErr β).1, _) = _
  rw [bind_eq]
  simp only [mute]
  rcases x w with ⟨w1, l, e | a⟩ <;> rfl

theorem mute_say {β : Type} (s : Said) (f : Unit → Talk β) : mute (Talk.say s >>= f) = mute (f ()) := by
  funext w
  simp [mute, bind_eq, Talk.say]

theorem mute_said {β : Type} (s : Said) (f : Unit → Act β) : (mute (Talk.say s) >>= f) = f () := rfl

theorem mute_pure {α : Type} (a : α) : mute (pure a : Talk α) = pure a := rfl

theorem mute_act {α : Type} (x : Act α) : mute (Talk.act x) = x := rfl

theorem mute_when (c : Bool) (x : Talk Unit) : mute (Talk.when c x) = Act.when c (mute x) := by
  cases c <;> rfl

end Talk

open Talk

theorem mute_readDdl (d : Option Str) (s : Str) (f : Option Str) : mute (readDdlTalk d s f) = readDdl d s f := rfl

theorem mute_readExcel (f : Str) : mute (readExcelTalk f) = readExcel f := by
  funext w
  simp only [mute, readExcelTalk, readExcel]
  rcases w.disk f with _ | ⟨s⟩ | ⟨wb⟩
  · rfl
  · rfl
  · simp only [readXlsTold_snd]
    rcases readXls wb with e | dbs
    · rfl
    · simp only [Except.map]
      split <;> rfl

theorem mute_readFromTs (env : Env) (host : Str) (n : Option Str) : mute (readFromTsTalk env host n) = readFromTs env host n := by
  funext w
  simp only [mute, readFromTsTalk, readFromTs]
  rcases env.answer host (c!"script database " ++ n.getD c!"None" ++ c!";") with e | out
  · rfl
  · simp only
    split
    · generalize parseFor _ n defaultSchema _ = r
      rcases r with e | db <;> rfl
    · rfl

theorem mute_validate (db : Option Database) : mute (validateTalk db) = convertValidate db := by
  funext w
  cases db with
  | none => rfl
  | some db =>
    simp only [mute, validateTalk, convertValidate, Act.lift]
    rcases db.validate with e | r <;> rfl

theorem mute_tql (env : Env) (o : TqlOpts) (db : Option Database) (f : Str) : mute (tqlTalk env o db f) = tqlToFile env o db f := rfl

theorem mute_send (env : Env) (host f : Str) : mute (sendTalk env host f) = sendFile env host f := by
  funext w
  simp only [mute, sendTalk, sendFile]
  rcases w.disk.fs f with _ | ⟨data⟩ | _
  · rfl
  · simp only
    rcases env.answer host (newlines data) with e | l <;> rfl
  · rfl
  · rfl

theorem mute_writeToTs (env : Env) (o : TqlOpts) (db : Option Database) (host : Str) : mute (writeToTsTalk env o db host) = writeToTs env o db host := by
  cases db with
  | none => rfl
  | some d =>
    simp only [writeToTsTalk, writeToTs]
    rw [mute_bind, mute_tql]
    simp only [mute_send]

theorem mute_read (env : Env) (a : ConvertArgs) : mute (readTalk env a) = convertRead env a := by
  unfold readTalk convertRead
  split
  · rw [mute_say, mute_readDdl]
  · split
    · rw [mute_say, mute_readExcel]
    · split
      · rw [mute_say, mute_readFromTs]
      · rfl

theorem mute_write (env : Env) (a : ConvertArgs) (db : Option Database) : mute (writeTalk env a db) = convertWrite env a db := by
  unfold writeTalk convertWrite
  simp only [mute_bind, mute_when, mute_said, mute_validate, mute_tql, mute_act, mute_writeToTs]

theorem mute_convert (env : Env) (dir : Str) (a : ConvertArgs) : mute (convertTalk env dir a) = convertMain env a := by
  unfold convertTalk convertMain
  split
  · rw [mute_say]
    split
    · rfl
    · rw [mute_bind, mute_read]
      simp only [mute_write]
  · split <;> rfl

/-! ## Steps -/

/-- The steps asked for. -/
def readPlan (a : ConvertArgs) : List Step :=
  if given a.fromDdl then [.readDdl] else if given a.fromExcel then [.readExcel] else if given a.fromTs then [.readServer] else []

def writePlan (a : ConvertArgs) : List Step :=
  (if a.validate then [.validate] else []) ++ (if given a.toTql then [.writeTql] else []) ++ (if given a.toExcel then [.writeExcel] else []) ++
    (if given a.toTs then [.writeServer] else [])

theorem sublist_ext {α : Type} [DecidableEq α] : ∀ {L p q : List α}, L.Nodup → p.Sublist L → q.Sublist L → (∀ s, s ∈ p ↔ s ∈ q) → p = q
  | [], p, q, _, hp, hq, _ => by rw [List.sublist_nil.1 hp, List.sublist_nil.1 hq]
  | x :: L, p, q, hn, hp, hq, h => by
    have hx := (List.nodup_cons.1 hn).1
    have hn := (List.nodup_cons.1 hn).2
    cases hp with
    | cons _ hp =>
      cases hq with
      | cons _ hq => exact sublist_ext hn hp hq h
      | cons_cons _ hq => exact absurd (hp.subset ((h x).2 (by simp))) hx
    | cons_cons _ hp =>
      cases hq with
      | cons _ hq => exact absurd (hq.subset ((h x).1 (by simp))) hx
      | cons_cons _ hq =>
        rename_i p q
        rw [sublist_ext hn hp hq]
        intro s
        have := h s
        simp only [List.mem_cons] at this
        constructor
        · intro hs
          rcases this.1 (.inr hs) with rfl | h
          · exact absurd (hp.subset hs) hx
          · exact h
        · intro hs
          rcases this.2 (.inr hs) with rfl | h
          · exact absurd (hq.subset hs) hx
          · exact h

theorem allSteps_nodup : allSteps.Nodup := by decide

theorem mem_readPlan {a : ConvertArgs} {s : Step} : s ∈ readPlan a ↔ s.reads = true ∧ Wants a s := by
  unfold readPlan
  have h1 := @given_iff a.fromDdl
  have h2 := @given_iff a.fromExcel
  have h3 := @given_iff a.fromTs
  cases e1 : given a.fromDdl <;> cases e2 : given a.fromExcel <;> cases e3 : given a.fromTs <;> rw [e1] at h1 <;> rw [e2] at h2 <;> rw [e3] at h3 <;>
    cases s <;> simp [Step.reads, Wants, ← h1, ← h2, ← h3]

theorem mem_writePlan {a : ConvertArgs} {s : Step} : s ∈ writePlan a ↔ s.reads = false ∧ Wants a s := by
  unfold writePlan
  have h1 := @given_iff a.toTql
  have h2 := @given_iff a.toExcel
  have h3 := @given_iff a.toTs
  cases e0 : a.validate <;> cases e1 : given a.toTql <;> cases e2 : given a.toExcel <;> cases e3 : given a.toTs <;> rw [e1] at h1 <;> rw [e2] at h2 <;> rw [e3] at h3 <;>
    cases s <;> simp [Step.reads, Wants, ← h1, ← h2, ← h3, e0]

theorem plan_sublist (a : ConvertArgs) : (readPlan a ++ writePlan a).Sublist allSteps := by
  unfold readPlan writePlan
  cases a.validate <;> cases given a.toTql <;> cases given a.toExcel <;> cases given a.toTs <;> cases given a.fromDdl <;> cases given a.fromExcel <;> cases given a.fromTs <;> decide

theorem plan_eq {a : ConvertArgs} {p : List Step} (h : Plan a p) : p = readPlan a ++ writePlan a := by
  refine sublist_ext allSteps_nodup h.1 (plan_sublist a) (fun s => ?_)
  rw [h.2, List.mem_append, mem_readPlan, mem_writePlan]
  cases s.reads <;> simp

theorem plan_planned (a : ConvertArgs) : Plan a (readPlan a ++ writePlan a) := by
  refine ⟨plan_sublist a, fun s => ?_⟩
  rw [List.mem_append, mem_readPlan, mem_writePlan]
  cases s.reads <;> simp

/-- A step after its announcement. -/
def stepTalk (env : Env) (a : ConvertArgs) (db : Option Database) : Step → Talk Unit
  | .validate => validateTalk db
  | .writeTql => tqlTalk env (tqlOpts a) db (a.toTql.getD [])
  | .writeExcel => Talk.act (excelToFile env db (a.toExcel.getD []))
  | .writeServer => writeToTsTalk env (tqlOpts a) db (a.toTs.getD [])
  | _ => pure ()

/-- Steps one after the other. -/
def runSteps (f : Step → Talk Unit) : List Step → Talk Unit
  | [] => pure ()
  | s :: ss => do
    Talk.say (.out s.line)
    f s
    runSteps f ss

theorem talk_bind_assoc {α β γ : Type} (x : Talk α) (f : α → Talk β) (g : β → Talk γ) : (x >>= f) >>= g = x >>= fun a => f a >>= g := by
  funext w
  simp only [Talk.bind_eq]
  rcases x w with ⟨w1, l, e | a⟩
  · rfl
  · simp only
    rcases f a w1 with ⟨w2, l2, e | b⟩
    · rfl
    · simp [List.append_assoc]

theorem talk_pure_bind {α β : Type} (a : α) (f : α → Talk β) : (pure a : Talk α) >>= f = f a := by
  funext w
  simp [Talk.bind_eq, Talk.pure_eq]

theorem talk_bind_pure (x : Talk Unit) : (x >>= fun _ => (pure () : Talk Unit)) = x := by
  funext w
  simp only [Talk.bind_eq]
  rcases x w with ⟨w1, l, e | ⟨⟩⟩
  · rfl
  · simp [Talk.pure_eq]

theorem runSteps_append (f : Step → Talk Unit) : ∀ ss ts, runSteps f (ss ++ ts) = (runSteps f ss >>= fun _ => runSteps f ts)
  | [], ts => by rw [runSteps, talk_pure_bind]; rfl
  | s :: ss, ts => by
    simp only [List.cons_append, runSteps, talk_bind_assoc, runSteps_append f ss ts]

theorem runSteps_if (f : Step → Talk Unit) (c : Bool) (s : Step) :
    runSteps f (if c then [s] else []) = Talk.when c (do Talk.say (.out s.line); f s) := by
  cases c
  · rfl
  · simp only [if_true, runSteps, Talk.when]
    simp only [talk_bind_pure]

theorem writeTalk_steps (env : Env) (a : ConvertArgs) (db : Option Database) : writeTalk env a db = runSteps (stepTalk env a db) (writePlan a) := by
  unfold writeTalk writePlan
  simp only [runSteps_append, runSteps_if, stepTalk, Step.line, talk_bind_assoc]

theorem stepTalk_said (env : Env) (a : ConvertArgs) (db : Option Database) (s : Step) (hs : s.reads = false) (w : World) : SaidIn s (stepTalk env a db s w).2.1 := by
  cases s with
  | readDdl | readExcel | readServer => cases hs
  | validate =>
    simp only [stepTalk, validateTalk, SaidIn]
    cases db with
    | none => simp
    | some db =>
      simp only
      rcases db.validate with e | r
      · simp
      · simp only
        cases h : r.isValid
        · right
          simp
        · left
          simp
  | writeTql =>
    simp only [stepTalk, tqlTalk, SaidIn]
    cases db with
    | none => simp
    | some db => simp only; split <;> simp
  | writeExcel => rfl
  | writeServer =>
    simp only [stepTalk, SaidIn, writeToTsTalk]
    cases db with
    | none => simp [Talk.act]
    | some d =>
      have hne : ¬ (tmpFile d.name = [] ∨ tmpFile d.name = c!"-") := by
        unfold tmpFile
        rintro (e | e) <;> have := congrArg List.length e <;> simp at this
      simp only [Talk.bind_eq, tqlTalk, if_neg hne]
      generalize tqlToFile env (tqlOpts a) (some d) (tmpFile d.name) w = r
      rcases r with ⟨w1, e | ⟨⟩⟩
      · simp
      · simp only [List.nil_append, sendTalk]
        rcases w1.disk.fs (tmpFile d.name) with _ | ⟨data⟩ | _
        · simp
        · simp only
          rcases env.answer _ (newlines data) with e | l <;> simp
        · simp
        · simp

theorem run_steps (f : Step → Talk Unit) : ∀ (ss : List Step) (_ : ∀ s ∈ ss, ∀ w, SaidIn s (f s w).2.1) (w : World),
    ∃ done rest, ss = done ++ rest ∧ Transcript done (runSteps f ss w).2.1 ∧ ((runSteps f ss w).2.2 = .ok () → rest = []) ∧
      ∀ e, (runSteps f ss w).2.2 = .error e → mute (runSteps f done) w = ((runSteps f ss w).1, .error e) ∧
        ∃ pre s, done = pre ++ [s] ∧ (mute (runSteps f pre) w).2 = .ok ()
  | [], _, w => ⟨[], [], rfl, .nil, fun _ => rfl, fun e h => by cases h⟩
  | s :: ss, h, w => by
    have hsaid := h s (by simp) w
    rw [runSteps]
    simp only [Talk.bind_eq, Talk.say]
    rcases hf : f s w with ⟨w1, l, e | ⟨⟩⟩
    · rw [hf] at hsaid
      refine ⟨[s], ss, rfl, ?_, by simp, ?_⟩
      · have := Transcript.step hsaid Transcript.nil
        simpa using this
      · intro e' he
        simp only [Except.error.injEq] at he
        subst he
        refine ⟨?_, [], s, rfl, rfl⟩
        simp [mute, runSteps, Talk.bind_eq, Talk.say, hf]
    · rw [hf] at hsaid
      obtain ⟨done, rest, he, ht, hok, herr⟩ := run_steps f ss (fun t ht => h t (by simp [ht])) w1
      refine ⟨s :: done, rest, by rw [he]; rfl, ?_, hok, ?_⟩
      · have := Transcript.step hsaid ht
        simpa using this
      · intro e h
        obtain ⟨h1, pre, t, h2, h3⟩ := herr e h
        refine ⟨?_, s :: pre, t, by rw [h2]; rfl, ?_⟩
        · simp only [mute, runSteps, Talk.bind_eq, Talk.say, hf] at h1 ⊢
          exact h1
        · simp only [mute, runSteps, Talk.bind_eq, Talk.say, hf] at h3 ⊢
          exact h3

theorem wants_onlySteps {a : ConvertArgs} {p : List Step} {s : Step} (hs : s.reads = false) : Wants (onlySteps p a) s ↔ Wants a s ∧ s ∈ p := by
  cases s with
  | readDdl | readExcel | readServer => cases hs
  | validate => simp [Wants, onlySteps]
  | writeTql => simp only [Wants, onlySteps]; split <;> simp_all [Given]
  | writeExcel => simp only [Wants, onlySteps]; split <;> simp_all [Given]
  | writeServer => simp only [Wants, onlySteps]; split <;> simp_all [Given]

theorem writePlan_sublist (a : ConvertArgs) : (writePlan a).Sublist allSteps := (List.sublist_append_right _ _).trans (plan_sublist a)

theorem writePlan_onlySteps {a : ConvertArgs} {p q : List Step} (hp : p <+: writePlan a) (hq : ∀ s ∈ q, s.reads = true) : writePlan (onlySteps (q ++ p) a) = p := by
  refine sublist_ext allSteps_nodup (writePlan_sublist _) (hp.sublist.trans (writePlan_sublist a)) (fun s => ?_)
  rw [mem_writePlan]
  constructor
  · rintro ⟨h1, h2⟩
    rcases List.mem_append.1 ((wants_onlySteps h1).1 h2).2 with h | h
    · rw [hq s h] at h1; cases h1
    · exact h
  · intro hs
    have h := mem_writePlan.1 (hp.subset hs)
    exact ⟨h.1, (wants_onlySteps h.1).2 ⟨h.2, by simp [hs]⟩⟩

theorem stepTalk_onlySteps {env : Env} {a : ConvertArgs} {db : Option Database} {p : List Step} : ∀ s ∈ p, stepTalk env (onlySteps p a) db s = stepTalk env a db s := by
  intro s hs
  cases s <;> simp [stepTalk, onlySteps, hs, tqlOpts]

theorem runSteps_congr {f g : Step → Talk Unit} : ∀ {p : List Step}, (∀ s ∈ p, f s = g s) → runSteps f p = runSteps g p
  | [], _ => rfl
  | s :: p, h => by
    rw [runSteps, runSteps, h s (by simp), runSteps_congr (fun t ht => h t (by simp [ht]))]

theorem write_onlySteps {env : Env} {a : ConvertArgs} {db : Option Database} {p q : List Step} (hp : p <+: writePlan a) (hq : ∀ s ∈ q, s.reads = true) :
    convertWrite env (onlySteps (q ++ p) a) db = mute (runSteps (stepTalk env a db) p) := by
  rw [← mute_write, writeTalk_steps, writePlan_onlySteps hp hq]
  rw [runSteps_congr (fun s hs => stepTalk_onlySteps s (by simp [hs]))]

theorem valid_onlySteps {a : ConvertArgs} {p : List Step} (h : validConvert a = true) : validConvert (onlySteps p a) = true := by
  unfold validConvert at h ⊢
  simp only [onlySteps, Bool.not_true, Bool.false_and, Bool.false_eq_true, if_false]
  split at h
  · cases h
  · exact h

theorem main_onlySteps {env : Env} {a : ConvertArgs} {p : List Step} (h : validConvert a = true) (hv : a.version = false) :
    convertMain env (onlySteps p a) = (convertRead env a >>= fun db => convertWrite env (onlySteps p a) db) := by
  unfold convertMain
  rw [if_pos (valid_onlySteps h)]
  have e : (onlySteps p a).version = false := hv
  rw [e]
  rfl

theorem parserSays_said {fs : FS} {n : Option Str} {schema : Str} {f : Option Str} : ∀ x ∈ parserSays fs n schema f, ∃ r, x = .parser r := by
  intro x hx
  unfold parserSays at hx
  split at hx
  · obtain ⟨r, -, rfl⟩ := List.mem_map.1 hx
    exact ⟨r, rfl⟩
  · split at hx <;> simp at hx
    exact ⟨_, hx⟩

theorem Spec.Transcript.one {s : Step} {x : Talk (Option Database)} {w : World} (h : SaidIn s (x w).2.1) : Transcript [s] ((Talk.say (.out s.line) >>= fun _ => x) w).2.1 := by
  have := Transcript.step h Transcript.nil
  simp only [Talk.bind_eq, Talk.say]
  simpa using this

theorem readTalk_said (env : Env) (a : ConvertArgs) (w : World) : Transcript (readPlan a) (readTalk env a w).2.1 := by
  unfold readPlan readTalk
  split
  · exact Transcript.one (s := .readDdl) parserSays_said
  · split
    · refine Transcript.one (s := .readExcel) ?_
      simp only [SaidIn, readExcelTalk]
      rcases w.disk (a.fromExcel.getD []) with _ | ⟨s⟩ | ⟨wb⟩
      · exact ⟨[], [], rfl, by simp, .inl rfl⟩
      · exact ⟨[], [], rfl, by simp, .inl rfl⟩
      · simp only
        have hm : ∀ x ∈ (readXlsTold wb).1.map Said.book, ∃ r, x = .book r := by
          intro x hx
          obtain ⟨r, -, rfl⟩ := List.mem_map.1 hx
          exact ⟨r, rfl⟩
        rcases (readXlsTold wb).2 with e | dbs
        · exact ⟨_, [], (List.append_nil _).symm, hm, .inl rfl⟩
        · simp only
          split
          · exact ⟨_, _, rfl, hm, .inr ⟨_, rfl⟩⟩
          · split
            · exact ⟨_, _, rfl, hm, .inr ⟨_, rfl⟩⟩
            · exact ⟨_, _, rfl, hm, .inl rfl⟩
    · split
      · refine Transcript.one (s := .readServer) ?_
        simp only [SaidIn, readFromTsTalk]
        rcases env.answer (a.fromTs.getD []) (c!"script database " ++ a.database.getD c!"None" ++ c!";") with e | out
        · simp
        · simp only
          split
          · generalize parseFor _ a.database defaultSchema _ = r
            rcases r with e | db <;> exact parserSays_said
          · simp
      · exact .nil

end Verif
