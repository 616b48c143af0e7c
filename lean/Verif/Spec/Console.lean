import Verif.Console
import Verif.Spec.Cli
import Verif.Spec.WellFormed
/-
Specification of what convert_ddl says on the terminal.
-/

namespace Verif.Spec
open Verif

/-- What convert_ddl can be asked to do, in the order in which it does it. -/
inductive Step where
  | readDdl | readExcel | readServer | validate | writeTql | writeExcel | writeServer
deriving DecidableEq, Repr

/-- How a step is announced. -/
def Step.line : Step → Str
  | .readDdl => c!"Reading DDL ..."
  | .readExcel => c!"Reading Excel ..."
  | .readServer => c!"Reading DDL from ThoughtSpot"
  | .validate => c!"Validating database"
  | .writeTql => c!"Writing TQL ..."
  | .writeExcel => c!"Writing Excel ..."
  | .writeServer => c!"Writing to ThoughtSpot ..."

/-- The step reads the database. -/
def Step.reads : Step → Bool
  | .readDdl | .readExcel | .readServer => true
  | _ => false

/-- The arguments ask for the step.  There is one source: a DDL file goes first, then a workbook, then a server. -/
def Wants (a : ConvertArgs) : Step → Prop
  | .readDdl => Given a.fromDdl
  | .readExcel => ¬ Given a.fromDdl ∧ Given a.fromExcel
  | .readServer => ¬ Given a.fromDdl ∧ ¬ Given a.fromExcel ∧ Given a.fromTs
  | .validate => a.validate = true
  | .writeTql => Given a.toTql
  | .writeExcel => Given a.toExcel
  | .writeServer => Given a.toTs

/-- All steps in order. -/
def allSteps : List Step := [.readDdl, .readExcel, .readServer, .validate, .writeTql, .writeExcel, .writeServer]

/-- The steps asked for, in order. -/
def Plan (a : ConvertArgs) (p : List Step) : Prop := p.Sublist allSteps ∧ ∀ s, s ∈ p ↔ Wants a s

/-- What may be said in a step after its announcement. -/
def SaidIn : Step → List Said → Prop
  | .readDdl, l => ∀ x ∈ l, ∃ r, x = .parser r
  | .readServer, l => ∀ x ∈ l, ∃ r, x = .parser r
  | .readExcel, l => ∃ m e, l = m ++ e ∧ (∀ x ∈ m, ∃ r, x = .book r) ∧ (e = [] ∨ ∃ s, e = [.err s])
  | .validate, l => l = [.out c!"Database is valid."] ∨ ∀ x ∈ l, ∃ s, x = .err s
  | .writeTql, l => l = [] ∨ ∃ s, l = [.script s]
  | .writeExcel, l => l = []
  | .writeServer, l => l = [] ∨ ∃ s, l = [.response s]

/-- The text on the terminal consists of these steps, each announced before what is said in it. -/
inductive Transcript : List Step → List Said → Prop where
  | nil : Transcript [] []
  | step {s m ss l} : SaidIn s m → Transcript ss l → Transcript (s :: ss) (.out s.line :: m ++ l)

/-- The same arguments with only some of the steps after reading; `--empty` allows a run without any. -/
def onlySteps (p : List Step) (a : ConvertArgs) : ConvertArgs :=
  { a with empty := true, validate := a.validate && p.contains .validate, toTql := if .writeTql ∈ p then a.toTql else none,
           toExcel := if .writeExcel ∈ p then a.toExcel else none, toTs := if .writeServer ∈ p then a.toTs else none }

end Verif.Spec
