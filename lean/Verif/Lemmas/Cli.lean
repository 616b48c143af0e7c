import Verif.Spec.Cli
import Verif.Lemmas.Parse
/-
Lemmas on the command line tools.
-/

namespace Verif
open Verif Verif.Spec

theorem given_iff {o : Option Str} : given o = true ↔ Given o := by
  cases o <;> simp [given, Given]

theorem not_given_iff {o : Option Str} : given o = false ↔ ¬ Given o := by
  rw [← given_iff]; simp

theorem Disk.put_self (d : Disk) (f : Str) (i : Option Item) : d.put f i f = i := by simp [Disk.put]

theorem Disk.put_ne {d : Disk} {f g : Str} {i : Option Item} (h : g ≠ f) : d.put f i g = d g := by simp [Disk.put, h]

theorem Disk.fs_put_text (d : Disk) (f s : Str) : (d.put f (some (.file (.text s)))).fs f = some (.text s) := by
  simp [Disk.fs, Disk.put]

namespace Act

theorem bind_eq {α β : Type} (x : Act α) (f : α → Act β) (w : World) :
    (x >>= f) w = match x w with
      | (w, .error e) => (w, .error e)
      | (w, .ok a) => f a w := rfl

theorem pure_eq {α : Type} (a : α) (w : World) : (pure a : Act α) w = (w, .ok a) := rfl

/-- A successful sequence: both parts are successful. -/
theorem bind_ok_iff {α β : Type} {x : Act α} {f : α → Act β} {w w' : World} {b : β} :
    (x >>= f) w = (w', .ok b) ↔ ∃ w1 a, x w = (w1, .ok a) ∧ f a w1 = (w', .ok b) := by
  rw [bind_eq]
  rcases x w with ⟨w1, e | a⟩ <;> simp

/-- The program changes no other files. -/
def Only {α : Type} (S : Str → Prop) (x : Act α) : Prop := ∀ w g, ¬ S g → (x w).1.disk g = w.disk g

theorem Only.pure {α : Type} {S : Str → Prop} (a : α) : Only S (pure a : Act α) := fun _ _ _ => rfl

theorem Only.lift {α : Type} {S : Str → Prop} (x : Except PyErr α) : Only S (Act.lift x) := fun _ _ _ => rfl

theorem Only.bind {α β : Type} {S : Str → Prop} {x : Act α} {f : α → Act β} (hx : Only S x) (hf : ∀ a, Only S (f a)) : Only S (x >>= f) := by
  intro w g hg
  rw [bind_eq]
  have := hx w g hg
  rcases h : x w with ⟨w1, e | a⟩
  · rw [h] at this; exact this
  · rw [h] at this; exact (hf a w1 g hg).trans this

theorem Only.ite {S : Str → Prop} {c : Prop} [Decidable c] {x y : Act Unit} (hx : c → Only S x) (hy : ¬ c → Only S y) :
    Only S (if c then x else y) := by
  split
  · exact hx ‹_›
  · exact hy ‹_›

end Act

theorem readFromTs_only (env : Env) (host : Str) (name : Option Str) : Act.Only (· = name.getD c!"None" ++ c!".tmp") (readFromTs env host name) := by
  intro w g hg
  unfold readFromTs tmpFile
  simp only
  split
  · rfl
  · split
    · split
      · exact Disk.put_ne hg
      · simp only
        rw [Disk.put_ne hg, Disk.put_ne hg]
    · rfl

theorem tqlToFile_only (env : Env) (o : TqlOpts) (db : Option Database) (f : Str) : Act.Only (· = f) (tqlToFile env o db f) := by
  intro w g hg
  unfold tqlToFile
  simp only
  split
  · rfl
  · split
    · exact Disk.put_ne hg
    · rfl

theorem excelToFile_only (env : Env) (db : Option Database) (f : Str) : Act.Only (· = xlsFile f) (excelToFile env db f) := by
  intro w g hg
  unfold excelToFile
  split
  · rfl
  · split
    · exact Disk.put_ne hg
    · rfl

theorem sendFile_only (env : Env) (host f : Str) : Act.Only (· = f) (sendFile env host f) := by
  intro w g hg
  unfold sendFile
  split
  · simp only
    split
    · rfl
    · exact Disk.put_ne hg
  · rfl

theorem xlsFile_name (f : Str) : WorkbookName f (xlsFile f) := by
  unfold WorkbookName xlsFile
  by_cases h : c!".xlsx" <:+ f
  · simp [h]
  · simp [h]

theorem newlines_plain : ∀ {s : Str}, '\r' ∉ s → newlines s = s
  | [], _ => rfl
  | c :: t, h => by
    simp only [List.mem_cons, not_or] at h
    have : newlines (c :: t) = c :: newlines t := by
      rw [newlines]
      · exact fun t' e _ => h.1 e.symm
      · exact fun e => h.1 e.symm
    rw [this, newlines_plain h.2]

/-- A written TQL file. -/
theorem tqlToFile_ok {env : Env} {o : TqlOpts} {db : Option Database} {f : Str} {w w' : World} (h : tqlToFile env o db f w = (w', .ok ())) :
    ∃ d, db = some d ∧ (writeTql o d).2 = none ∧
      (f ≠ [] → f ≠ c!"-" → env.writable f = true ∧ w' = { w with disk := w.disk.put f (some (.file (.text (writeTql o d).1))) }) := by
  unfold tqlToFile at h
  cases db with
  | none => simp at h; split at h <;> [skip; split at h] <;> simp at h
  | some d =>
    refine ⟨d, rfl, ?_⟩
    simp only at h
    by_cases hf : f = [] ∨ f = c!"-"
    · rw [if_pos hf] at h
      refine ⟨?_, fun h1 h2 => absurd hf (by simp [h1, h2])⟩
      cases hr : (writeTql o d).2 with
      | none => rfl
      | some e => rw [hr] at h; simp at h
    · rw [if_neg hf] at h
      cases hw : env.writable f with
      | false => simp [hw] at h
      | true =>
        cases hr : (writeTql o d).2 with
        | none => simp [hw, hr] at h; exact ⟨rfl, fun _ _ => ⟨rfl, h.symm⟩⟩
        | some e => simp [hw, hr] at h

/-- A written workbook. -/
theorem excelToFile_ok {env : Env} {db : Option Database} {f : Str} {w w' : World} (h : excelToFile env db f w = (w', .ok ())) :
    ∃ d, db = some d ∧ env.writable (xlsFile f) = true ∧
      w' = { w with disk := w.disk.put (xlsFile f) (some (.book (saved env.other (writeXls d)))) } := by
  unfold excelToFile at h
  cases db with
  | none => simp at h
  | some d =>
    cases hw : env.writable (xlsFile f) with
    | false => simp [hw] at h
    | true => simp [hw] at h; exact ⟨d, rfl, rfl, h.symm⟩

theorem tmpFile_ne (n : Str) : tmpFile n ≠ [] ∧ tmpFile n ≠ c!"-" := by
  constructor
  · simp [tmpFile]
  · intro h
    have := congrArg List.length h
    simp [tmpFile] at this

/-- A script sent to a server. -/
theorem writeToTs_ok {env : Env} {o : TqlOpts} {db : Option Database} {host : Str} {w w' : World}
    (h : writeToTs env o db host w = (w', .ok ())) :
    ∃ d l, db = some d ∧ (writeTql o d).2 = none ∧ env.answer host (newlines (writeTql o d).1) = .ok l ∧
      w'.sent = w.sent ++ [(host, newlines (writeTql o d).1)] ∧ w'.disk (tmpFile d.name) = none ∧
      ∀ g, g ≠ tmpFile d.name → w'.disk g = w.disk g := by
  unfold writeToTs at h
  cases db with
  | none => simp [Act.lift] at h
  | some d =>
    simp only at h
    obtain ⟨w1, _, h1, h2⟩ := Act.bind_ok_iff.1 h
    obtain ⟨d', e, hn, hw⟩ := tqlToFile_ok h1
    cases e
    obtain ⟨-, rfl⟩ := hw (tmpFile_ne _).1 (tmpFile_ne _).2
    unfold sendFile at h2
    rw [Disk.fs_put_text] at h2
    simp only at h2
    cases ha : env.answer host (newlines (writeTql o d).1) with
    | error e => rw [ha] at h2; simp at h2
    | ok l =>
      rw [ha] at h2
      simp only [Prod.mk.injEq, and_true] at h2
      subst h2
      exact ⟨d, l, rfl, hn, ha, rfl, Disk.put_self _ _ _, fun g hg => by simp only; rw [Disk.put_ne hg, Disk.put_ne hg]⟩

theorem Act.when_only {S : Str → Prop} {c : Bool} {x : Act Unit} (hx : c = true → Act.Only S x) : Act.Only S (Act.when c x) := by
  unfold Act.when
  split
  · exact hx ‹_›
  · exact Act.Only.pure _

theorem Act.when_ok {c : Bool} {x : Act Unit} {w w' : World} (h : Act.when c x w = (w', .ok ())) :
    (c = true → x w = (w', .ok ())) ∧ (c = false → w' = w) := by
  unfold Act.when at h
  split at h
  · rename_i hc; simp [hc, h]
  · rename_i hc
    simp only [Bool.not_eq_true] at hc
    simp only [Act.pure_eq, Prod.mk.injEq, and_true] at h
    simp [hc, h]

theorem convertValidate_ok {db : Option Database} {w w' : World} (h : convertValidate db w = (w', .ok ())) :
    w' = w ∧ ∃ d v, db = some d ∧ d.validate = .ok v := by
  unfold convertValidate Act.lift at h
  cases db with
  | none => simp at h
  | some d =>
    simp only [Prod.mk.injEq] at h
    cases hv : d.validate with
    | error e => rw [hv] at h; simp [Except.map] at h
    | ok v => exact ⟨h.1.symm, d, v, rfl, hv⟩

/-- The parts of a successful `convertWrite`. -/
theorem convertWrite_ok {env : Env} {a : ConvertArgs} {db : Option Database} {w w' : World} (h : convertWrite env a db w = (w', .ok ())) :
    ∃ w2 w3, Act.when (given a.toTql) (tqlToFile env (tqlOpts a) db (a.toTql.getD [])) w = (w2, .ok ()) ∧
      Act.when (given a.toExcel) (excelToFile env db (a.toExcel.getD [])) w2 = (w3, .ok ()) ∧
      Act.when (given a.toTs) (writeToTs env (tqlOpts a) db (a.toTs.getD [])) w3 = (w', .ok ()) := by
  unfold convertWrite at h
  obtain ⟨w1, ⟨⟩, h1, h⟩ := Act.bind_ok_iff.1 h
  obtain ⟨w2, ⟨⟩, h2, h⟩ := Act.bind_ok_iff.1 h
  obtain ⟨w3, ⟨⟩, h3, h4⟩ := Act.bind_ok_iff.1 h
  have : w1 = w := by
    cases hv : a.validate with
    | false => exact (Act.when_ok h1).2 hv
    | true => exact (convertValidate_ok ((Act.when_ok h1).1 hv)).1
  subst this
  exact ⟨w2, w3, h2, h3, h4⟩

theorem convertMain_ok {env : Env} {a : ConvertArgs} {w w' : World} (hv : validConvert a = true) (hver : a.version = false)
    (h : convertMain env a w = (w', .ok ())) :
    ∃ w1 db, convertRead env a w = (w1, .ok db) ∧ convertWrite env a db w1 = (w', .ok ()) := by
  unfold convertMain at h
  rw [if_pos hv, hver] at h
  simp only [Bool.false_eq_true, if_false] at h
  obtain ⟨w1, db, h1, h2⟩ := Act.bind_ok_iff.1 h
  exact ⟨w1, db, h1, h2⟩

end Verif
