import Verif.Spec.DiffConsole
import Verif.Props.DiffAlters
import Verif.Props.Listing
import Verif.Lemmas.Console
/-
C87: what ddldiff says on the terminal.
-/

namespace Verif.Props
open Verif Verif.Spec

theorem printed_append {l m : List Said} {s t : Str} (h : Printed l s) (h' : Printed m t) : Printed (l ++ m) (s ++ t) := by
  induction h with
  | nil => exact h'
  | line x l u _ ih => have := Printed.line x _ _ ih; simpa using this
  | script x l u _ ih => have := Printed.script x _ _ ih; simpa using this
  | error x l u _ ih => exact .error x _ _ ih
  | parser x l u _ ih => exact .parser x _ _ ih
  | args l u _ ih => exact .args _ _ ih

theorem printed_parser (fs : FS) (n : Str) (schema : Str) (f : Option Str) : Printed (parserSays fs (some n) schema f) [] := by
  show Printed ((parseReports fs { databaseName := n, schemaName := schema } f).map .parser) []
  induction parseReports fs { databaseName := n, schemaName := schema } f with
  | nil => exact .nil
  | cons r rs ih => exact .parser r _ _ ih

theorem printed_list (l : List Diff) : Printed (listTalk l) ((l.map (fun x => c!"\t" ++ x.repr ++ c!"\n")).flatten) := by
  unfold listTalk
  induction l with
  | nil => exact .nil
  | cons x xs ih => have := Printed.line (c!"\t" ++ x.repr) _ _ ih; simpa using this

/-- The text and exception of a part. -/
def Prints (x : List Said × Option PyErr) (o : Output) : Prop := Printed x.1 o.1 ∧ x.2 = o.2

theorem writeAll_append (l m : List (Except PyErr Str)) : writeAll (l ++ m) = match writeAll l with
    | (s, some e) => (s, some e)
    | (s, none) => (s ++ (writeAll m).1, (writeAll m).2) := by
  induction l with
  | nil => rfl
  | cons x xs ih =>
    cases x with
    | error e => rfl
    | ok s =>
      simp only [List.cons_append, writeAll, ih]
      rcases writeAll xs with ⟨t, _ | e⟩ <;> simp

theorem prints_andThen {x y : List Said × Option PyErr} {l m : List (Except PyErr Str)} (hx : Prints x (writeAll l)) (hy : Prints y (writeAll m)) :
    Prints (andThen x y) (writeAll (l ++ m)) := by
  obtain ⟨x1, x2⟩ := x
  obtain ⟨h1, h2⟩ := hx
  rw [writeAll_append]
  rcases hw : writeAll l with ⟨s, _ | e⟩
  · rw [hw] at h1 h2
    simp only at h2
    subst h2
    exact ⟨printed_append h1 hy.1, hy.2⟩
  · rw [hw] at h1 h2
    simp only at h2
    subst h2
    exact ⟨h1, rfl⟩

theorem prints_alters (fr : Rat → Str) (c : Bool) (h : Str) (l : List Diff) :
    Prints (if c then andThen ([.out h], none) (altersTalk fr l) else ([], none)) (writeAll (if c then .ok (h ++ c!"\n") :: l.map (Diff.getAlter fr) else [])) := by
  cases c
  · exact ⟨.nil, rfl⟩
  · refine ⟨?_, rfl⟩
    show Printed (.out h :: [.script (writeAll (l.map (Diff.getAlter fr))).1]) (h ++ c!"\n" ++ (writeAll (l.map (Diff.getAlter fr))).1)
    have := Printed.line h _ _ (.script (writeAll (l.map (Diff.getAlter fr))).1 [] [] .nil)
    simpa using this

/-- C87: what ddldiff prints to the standard output is the text of C76 and C78, also if it ends with an exception; printing changes nothing in what is done. -/
theorem C87_same (fr : Rat → Str) (d : Disk) (a : DiffArgs) :
    Printed (diffTalk fr d a).1 (diffMain fr d a).1.text ∧ (diffTalk fr d a).2 = (diffMain fr d a).2 := by
  unfold diffTalk diffMain
  cases hv : validDiff d a
  · refine ⟨?_, rfl⟩
    simp only [Bool.not_false, if_true, Bool.false_eq_true, if_false, DiffOut.text]
    unfold diffMistakes
    split
    · exact .error _ _ _ .nil
    · exact printed_append (s := []) (by split; exacts [.nil, .error _ _ _ .nil]) (by split; exacts [.nil, .error _ _ _ .nil])
  · simp only [Bool.not_true, Bool.false_eq_true, if_false, if_true]
    have p1 := printed_parser d.fs a.database a.schema a.ddl1
    have p2 := printed_parser d.fs a.database a.schema a.ddl2
    have q : Printed ((.args :: parserSays d.fs (some a.database) a.schema a.ddl1) ++ parserSays d.fs (some a.database) a.schema a.ddl2) [] :=
      printed_append (s := []) (.args _ _ p1) p2
    rcases parseFor d.fs (some a.database) a.schema a.ddl1 with e | db1
    · exact ⟨.args _ _ p1, rfl⟩
    · rcases parseFor d.fs (some a.database) a.schema a.ddl2 with e | db2
      · exact ⟨q, rfl⟩
      · rcases db1 with _ | db1
        · exact ⟨q, rfl⟩
        · rcases db2 with _ | db2
          · exact ⟨q, rfl⟩
          · simp only
            have key := prints_andThen (prints_alters fr a.alter1 c!"-- changes needed for first schema to match the second" (compareDatabases (fun _ => false) db1 db2).1)
              (prints_alters fr a.alter2 c!"-- changes needed for second schema to match the first" (compareDatabases (fun _ => false) db1 db2).2)
            have hassoc : ∀ x y : List Said × Option PyErr, andThen x (andThen y ([], none)) = andThen x y := by
              rintro ⟨x, _ | e⟩ ⟨y, _ | e'⟩ <;> simp [andThen]
            cases hc : (!a.alter1 && !a.alter2)
            · simp only [Bool.false_eq_true, if_false]
              unfold diffsTalk
              simp only [hc, Bool.false_eq_true, if_false, hassoc]
              obtain ⟨k1, k2⟩ := key
              exact ⟨printed_append (s := []) q k1, k2⟩
            · simp only [Bool.and_eq_true, Bool.not_eq_true'] at hc
              simp only [if_true]
              unfold diffsTalk
              simp only [hc.1, hc.2, Bool.false_eq_true, if_false, Bool.not_false, Bool.and_self, if_true, andThen]
              refine ⟨printed_append (s := []) q ?_, trivial⟩
              show Printed _ (printLists _ _)
              unfold printLists
              have := printed_append (Printed.line c!"Database differences for DB 1:" _ _ (printed_list (compareDatabases (fun _ => false) db1 db2).1))
                (Printed.line c!"Database differences for DB 2:" _ _ (printed_list (compareDatabases (fun _ => false) db1 db2).2))
              simpa using this

/-- C87: arguments that are not as documented are answered with the line that says so: both files missing are both named. -/
theorem C87_arguments (fr : Rat → Str) (d : Disk) (a : DiffArgs) (h : ¬ DiffDocumented d a) :
    ∃ l, DiffRefused d a l ∧ diffTalk fr d a = (l.map .err, none) := by
  have hv : validDiff d a = false := by rw [← Bool.not_eq_true, C60_diff]; exact h
  have hg : ∀ o : Option Str, given o = true ↔ ∃ f, o = some f ∧ f ≠ [] := fun o => given_iff
  have hdt : diffTalk fr d a = (diffMistakes d a, none) := by unfold diffTalk; rw [hv]; rfl
  rw [hdt]
  by_cases hm : Given a.ddl1 ∧ Given a.ddl2
  · obtain ⟨⟨f, hf, hfn⟩, g, hgg, hgn⟩ := hm
    have g1 : given a.ddl1 = true := (hg _).2 ⟨f, hf, hfn⟩
    have g2 : given a.ddl2 = true := (hg _).2 ⟨g, hgg, hgn⟩
    have hs : ∀ x, OnDisk d x ↔ (d x).isSome = true := fun x => by rw [Option.isSome_iff_exists]; rfl
    unfold diffMistakes
    rw [g1, g2, hf, hgg]
    simp only [Option.getD_some, Bool.not_true, Bool.or_self, Bool.false_eq_true, if_false]
    by_cases c1 : OnDisk d f
    · by_cases c2 : OnDisk d g
      · exact absurd ⟨f, g, hf, hfn, c1, hgg, hgn, c2⟩ h
      · refine ⟨_, .second f g hf hfn hgg hgn c1 c2, ?_⟩
        rw [if_pos ((hs f).1 c1), if_neg (fun e => c2 ((hs g).2 e))]
        rfl
    · by_cases c2 : OnDisk d g
      · refine ⟨_, .first f g hf hfn hgg hgn c1 c2, ?_⟩
        rw [if_pos ((hs g).1 c2), if_neg (fun e => c1 ((hs f).2 e))]
        rfl
      · refine ⟨_, .both f g hf hfn hgg hgn c1 c2, ?_⟩
        rw [if_neg (fun e => c1 ((hs f).2 e)), if_neg (fun e => c2 ((hs g).2 e))]
        rfl
  · refine ⟨_, .missing hm, ?_⟩
    unfold diffMistakes
    have : (!given a.ddl1 || !given a.ddl2) = true := by
      rw [← given_iff, ← given_iff] at hm
      revert hm
      cases given a.ddl1 <;> cases given a.ddl2 <;> simp
    rw [this]
    rfl

/-- C87: what the parser says about a file comes before everything about the next, and the second file is not read if the first cannot be read. -/
theorem C87_files {fr : Rat → Str} {d : Disk} {a : DiffArgs} (h : DiffDocumented d a) :
    (∀ e, parseFor d.fs (some a.database) a.schema a.ddl1 = .error e → diffTalk fr d a = (.args :: parserSays d.fs (some a.database) a.schema a.ddl1, some e)) ∧
    (∀ db, parseFor d.fs (some a.database) a.schema a.ddl1 = .ok db →
      ∃ rest, (diffTalk fr d a).1 = .args :: parserSays d.fs (some a.database) a.schema a.ddl1 ++ parserSays d.fs (some a.database) a.schema a.ddl2 ++ rest ∧ ∀ r, .parser r ∉ rest) := by
  have hv : validDiff d a = true := (C60_diff _ _).2 h
  have hnot : ∀ x y : List Said × Option PyErr, (∀ r, .parser r ∉ x.1) → (∀ r, .parser r ∉ y.1) → ∀ r, .parser r ∉ (andThen x y).1 := by
    rintro ⟨x, _ | e⟩ ⟨y, e'⟩ hx hy r <;> simp_all [andThen]
  have hal : ∀ (c : Bool) (s : Str) (l : List Diff) (r : Report), .parser r ∉ (if c then andThen ([.out s], none) (altersTalk fr l) else ([], none) : List Said × Option PyErr).1 := by
    intro c s l r
    cases c <;> simp [andThen, altersTalk]
  constructor
  · intro e he
    unfold diffTalk
    rw [hv, he]
    rfl
  · intro db he
    unfold diffTalk
    rw [hv, he]
    simp only [Bool.not_true, Bool.false_eq_true, if_false]
    rcases parseFor d.fs (some a.database) a.schema a.ddl2 with e | db2
    · exact ⟨[], by simp, by simp⟩
    · rcases db with _ | db
      · exact ⟨[], by simp, by simp⟩
      · rcases db2 with _ | db2
        · exact ⟨[], by simp, by simp⟩
        · refine ⟨(diffsTalk fr a db db2).1, rfl, ?_⟩
          unfold diffsTalk
          refine hnot _ _ (hal _ _ _) (hnot _ _ (hal _ _ _) ?_)
          intro r
          split <;> simp [listTalk]

example : (diffTalk (fun _ => []) (disk [(c!"f", .file (.text c!"create table a (x int);"))]) { ddl1 := some c!"e", ddl2 := some c!"g" }) =
    ([.err c!"file e doesn't exist", .err c!"file g doesn't exist"], none) := by decide +kernel

example : DiffDocumented twoFiles { ddl1 := some c!"f", ddl2 := some c!"g" } ∧
    (diffTalk (fun _ => []) twoFiles { ddl1 := some c!"f", ddl2 := some c!"g" }).1.take 2 = [.args, .out c!"Database differences for DB 1:"] :=
  ⟨(C60_diff _ _).1 (by decide), by decide +kernel⟩

end Verif.Props
