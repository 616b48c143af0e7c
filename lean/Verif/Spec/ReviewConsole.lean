import Verif.ReviewConsole
import Verif.Spec.Cli
import Verif.Spec.Review
import Verif.Spec.Config
/-
Specification of what the reviews and review_model say on the terminal.
-/

namespace Verif.Spec
open Verif

/-! ## Reviews -/

/-- A text on the terminal and the queries asked while it was written: every query is printed and then asked, nothing else that is printed looks like a query, and an error is
shown exactly after a query that was not answered with a number. -/
inductive Asked (srv : QueryServer) : List Str → List Said → List Str → Prop where
  | done (asked : List Str) : Asked srv asked [] asked
  | note (asked asked' : List Str) (s : Str) (l : List Said) : ¬ c!"select " <+: s → Asked srv asked l asked' → Asked srv asked (.out s :: l) asked'
  | answered (asked asked' : List Str) (q t : Str) (n : Int) (rest : List (Option Str)) (l : List Said) : c!"select " <+: q → srv asked q = .ok (some t :: rest) → IntValue t n →
      Asked srv (asked ++ [q]) l asked' → Asked srv asked (.out q :: l) asked'
  | failed (asked asked' : List Str) (q : Str) (l : List Said) : c!"select " <+: q → (¬ ∃ t n rest, srv asked q = .ok (some t :: rest) ∧ IntValue t n) →
      Asked srv (asked ++ [q]) l asked' → Asked srv asked (.out q :: .queryError :: l) asked'

/-- What is said about the joins of a worksheet: for a join that is checked its two queries, for any other join why it is not.  How nested values are printed is a parameter. -/
inductive JoinSaid (nested : Yaml → Str) (db : Database) (w : Worksheet) (j : WsJoin) : List Str → List Said → Prop where
  | source (s : Str) (ty : Yaml) : j.source = .str s → WsType w s ty → ty ≠ .str c!"table" →
      JoinSaid nested db w j [] [.err (c!"Table " ++ s ++ c!" of type " ++ ty.print nested ++ c!" not supported.  Only 'table' type supported.")]
  | target (s d : Str) (ty : Yaml) : j.source = .str s → WsType w s (.str c!"table") → j.destination = .str d → WsType w d ty → ty ≠ .str c!"table" →
      JoinSaid nested db w j [] [.err (c!"Table " ++ d ++ c!" of type " ++ ty.print nested ++ c!" not supported. Only 'table' type supported.")]
  | noKey (s d n : Str) (t : Table) : j.source = .str s → WsType w s (.str c!"table") → j.destination = .str d → WsType w d (.str c!"table") → TableOf db s t → j.name = .str n → (∀ k, (n, k) ∉ t.fks) →
      JoinSaid nested db w j [] [.err (c!"Unable to access None for join " ++ n ++ c!".  Only foreign keys supported.")]
  | asked (q1 q2 : Str) : JoinSaid nested db w j [q1, q2] [.out q1, .out q2]

/-- The reports about the joins of a worksheet, with what is said about each. -/
inductive SheetSaid (nested : Yaml → Str) (srv : QueryServer) (db : Database) (w : Worksheet) : List Str → List WsJoin → List Str → List Said → Prop where
  | nil (asked : List Str) : SheetSaid nested srv db w asked [] [] []
  | cons (asked : List Str) (j : WsJoin) (js : List WsJoin) (qs l ls : List Str) (m ms : List Said) : WsVerdict srv db w asked j qs l → JoinSaid nested db w j qs m →
      SheetSaid nested srv db w (asked ++ qs) js ls ms → SheetSaid nested srv db w asked (j :: js) (l ++ ls) (m ++ ms)

/-- What the reviewer says: for each selected review in order, that it is skipped, or what the review itself says, until one raises. -/
inductive ReviewerSaid (names : List Str) (i : Inputs) (run : Str → List Said × Except PyErr (List Str)) : List TestItem → List Said → Prop where
  | nil : ReviewerSaid names i run [] []
  | other (t : TestItem) (ts : List TestItem) (l : List Said) : ¬ ((∃ rest, t.name = c!"review_" ++ rest) ∧ (names = [] ∨ t.name ∈ names)) → ReviewerSaid names i run ts l →
      ReviewerSaid names i run (t :: ts) l
  | skipped (t : TestItem) (ts : List TestItem) (l : List Said) : (∃ rest, t.name = c!"review_" ++ rest) → (names = [] ∨ t.name ∈ names) → ¬ Applicable names i t →
      ReviewerSaid names i run ts l →
      ReviewerSaid names i run (t :: ts) (.out (c!"Skipping " ++ t.name ++ c!"(" ++ (t.params.intersperse c!", ").flatten ++ c!")") :: l)
  | called (t : TestItem) (ts : List TestItem) (l : List Said) (r : List Str) : Applicable names i t → (run t.name).2 = .ok r → ReviewerSaid names i run ts l →
      ReviewerSaid names i run (t :: ts) ((run t.name).1 ++ l)
  | raises (t : TestItem) (ts : List TestItem) (e : PyErr) : Applicable names i t → (run t.name).2 = .error e → ReviewerSaid names i run (t :: ts) (run t.name).1

/-! ## review_model -/

/-- What can be wrong with the arguments of review_model, in the order in which it is said. -/
inductive ReviewMistake where
  | noDatabase | noSource | twoSources | noWorksheet (f : Str) | noConfig (f : Str)
deriving DecidableEq

/-- The message. -/
def ReviewMistake.line : ReviewMistake → Str
  | .noDatabase => c!"A database name must be provided."
  | .noSource => c!"Either a database file or ThoughtSpot IP must be provided."
  | .twoSources => c!"Only database_file or ts_ip can be provided."
  | .noWorksheet f => c!"Worksheet file " ++ f ++ c!" doesn't exist."
  | .noConfig f => c!"Configuration file " ++ f ++ c!" doesn't exist."

/-- The position in the text. -/
def ReviewMistake.rank : ReviewMistake → Nat
  | .noDatabase => 0
  | .noSource => 1
  | .twoSources => 2
  | .noWorksheet _ => 3
  | .noConfig _ => 4

/-- The arguments have the mistake. -/
inductive Made (d : Disk) (a : ReviewArgs) : ReviewMistake → Prop where
  | noDatabase : a.showTests = false → ¬ Given a.database → Made d a .noDatabase
  | noSource : a.showTests = false → ¬ Given a.databaseFile → ¬ Given a.tsIp → Made d a .noSource
  | twoSources : Given a.databaseFile → Given a.tsIp → Made d a .twoSources
  | noWorksheet (f : Str) : a.worksheetFile = some f → f ≠ [] → ¬ OnDisk d f → Made d a (.noWorksheet f)
  | noConfig (f : Str) : a.configFile = some f → f ≠ [] → ¬ OnDisk d f → Made d a (.noConfig f)

/-- The results of one review on the terminal: its name, then the issues; nothing if there are none. -/
inductive Section : Str → List Str → List Said → Prop where
  | none (name : Str) : Section name [] []
  | some (name : Str) (issues : List Str) : issues ≠ [] → Section name issues (.out (name ++ c!":") :: issues.map (fun x => .out (c!"\t" ++ x)))

/-- The description of a test, from the lines of its documentation: the lines with text, without the white space around it, up to the first that begins with a colon. -/
inductive Described : List Str → List Str → Prop where
  | nil : Described [] []
  | blank (l : Str) (ls ds : List Str) : White l → Described ls ds → Described (l :: ls) ds
  | stop (l t : Str) (ls : List Str) : Padded l (':' :: t) → Described (l :: ls) []
  | text (l core : Str) (ls ds : List Str) : Padded l core → core ≠ [] → (∀ t, core ≠ ':' :: t) → Described ls ds → Described (l :: ls) (core :: ds)

/-- A test in the list: an empty line, the name with the parameters, and the description. -/
inductive TestListed : TestItem × Str → List Said → Prop where
  | mk (t : TestItem) (doc : Str) (lines ds : List Str) : lines ≠ [] → (∀ l ∈ lines, '\n' ∉ l) → doc = (lines.intersperse c!"\n").flatten → Described lines ds →
      TestListed (t, doc) (.out [] :: .out (t.name ++ c!"(" ++ (t.params.intersperse c!", ").flatten ++ c!"):") :: ds.map (fun d => .out (c!"\t" ++ d)))

end Verif.Spec
