import Verif.Spec.Worksheet
/-
Specification of what is wrong with a YAML document that does not describe a worksheet, and of the exception this gives.
-/

namespace Verif.Spec
open Verif

/-- Nothing a loop could go through. -/
def NoLoop (v : Yaml) : Prop := ∀ l, ¬ Elements v l

/-- A value without a key that is asked for: a mapping that lacks it, or something else. -/
inductive Missing (v : Yaml) (k : Str) : PyErr → Prop where
  | key : NoKey v k → Missing v k .key
  | type : NoMap v → Missing v k .type

/-- The first entry with something wrong, the ones before being in order. -/
def FirstWrong (good : Yaml → Prop) (wrong : Yaml → PyErr → Prop) (es : List Yaml) (err : PyErr) : Prop :=
  ∃ pre x post, es = pre ++ x :: post ∧ (∀ y ∈ pre, good y) ∧ wrong x err

/-- A table without a name, with an empty one, or of another type. -/
inductive TableWrong (e : Yaml) : PyErr → Prop where
  | name {err} : Missing e c!"name" err → TableWrong e err
  | value {n t} : HasKey e c!"name" n → KeyOr e c!"type" (.str c!"table") t → (Falsy n ∨ t ∉ [.str c!"table", .str c!"alias", .str c!"fqn"]) → TableWrong e .assertion

/-- A join that lacks one of its five values. -/
inductive JoinWrong (e : Yaml) : PyErr → Prop where
  | lacks {k err} : k ∈ [c!"name", c!"source", c!"destination", c!"type", c!"is_one_to_one"] → Missing e k err → JoinWrong e err

/-- A step of a path that is no mapping, or whose joins are neither empty nor a list. -/
inductive StepWrong (e : Yaml) : PyErr → Prop where
  | kind : NoMap e → StepWrong e .attribute
  | joins {v} : HasKey e c!"join" v → ¬ Falsy v → NoLoop v → StepWrong e .type

/-- A table path: the steps come first, then the id and the table. -/
inductive PathWrong (e : Yaml) : PyErr → Prop where
  | lacks {err} : Missing e c!"join_path" err → PathWrong e err
  | loop {v} : HasKey e c!"join_path" v → NoLoop v → PathWrong e .type
  | step {v es err} : HasKey e c!"join_path" v → Elements v es → FirstWrong (fun x => ∃ l, StepEntry x l) StepWrong es err → PathWrong e err
  | value {v es k} : HasKey e c!"join_path" v → Elements v es → (∀ x ∈ es, ∃ l, StepEntry x l) → k ∈ [c!"id", c!"table"] → NoKey e k → PathWrong e .key

/-- A formula that is no mapping, or has an empty name or expression. -/
inductive FormulaWrong (e : Yaml) : PyErr → Prop where
  | kind : NoMap e → FormulaWrong e .type
  | value {n x} : HasKey e c!"name" n → HasKey e c!"expr" x → (Falsy n ∨ Falsy x) → FormulaWrong e .assertion

/-- A column: the properties come first, then the name. -/
inductive ColumnWrong (e : Yaml) : PyErr → Prop where
  | lacks {err} : Missing e c!"properties" err → ColumnWrong e err
  | kind {p} : HasKey e c!"properties" p → NoMap p → ColumnWrong e .attribute
  | name {m} : HasKey e c!"properties" (.map m) → NoKey e c!"name" → ColumnWrong e .key
  | value {m n} : HasKey e c!"properties" (.map m) → HasKey e c!"name" n → Falsy n → ColumnWrong e .assertion

/-- A list of the worksheet that is missing, no list, or has something wrong in it. -/
inductive ListWrong (doc : Yaml) (k : Str) (good : Yaml → Prop) (wrong : Yaml → PyErr → Prop) : PyErr → Prop where
  | lacks : NoKey doc k → ListWrong doc k good wrong .key
  | loop {v} : HasKey doc k v → NoLoop v → ListWrong doc k good wrong .type
  | entry {v es err} : HasKey doc k v → Elements v es → FirstWrong good wrong es err → ListWrong doc k good wrong err

/-- The formulas may be missing. -/
inductive FormulasWrong (doc : Yaml) : PyErr → Prop where
  | loop {v} : HasKey doc c!"formulas" v → NoLoop v → FormulasWrong doc .type
  | entry {v es err} : HasKey doc c!"formulas" v → Elements v es → FirstWrong (fun x => ∃ f, FormulaEntry x f) FormulaWrong es err → FormulasWrong doc err

/-- Something that is no pair, or whose key is a list or a mapping.  Keys that are neither these nor texts are outside the model. -/
inductive PairWrong (e : Yaml) : PyErr → Prop where
  | loop : NoLoop e → PairWrong e .type
  | length {l} : Elements e l → l.length ≠ 2 → PairWrong e .value
  | list {l v} : Elements e [.seq l, v] → PairWrong e .type
  | mapping {m v} : Elements e [.map m, v] → PairWrong e .type
  | null {v} : Elements e [.null, v] → PairWrong e .unmodelled
  | other {t r v} : Elements e [.other t r, v] → PairWrong e .unmodelled

/-- Properties that are neither a mapping nor made of pairs. -/
inductive PropertiesWrong (p : Yaml) : PyErr → Prop where
  | loop : NoLoop p → PropertiesWrong p .type
  | pair {es err} : NoMap p → Elements p es → FirstWrong (fun x => ∃ y, PairEntry x y) PairWrong es err → PropertiesWrong p err

/-- The head of a worksheet. -/
inductive HeadWrong (doc : Yaml) : PyErr → Prop where
  | lacks {k err} : k ∈ [c!"name", c!"properties"] → Missing doc k err → HeadWrong doc err
  | name {n p} : HasKey doc c!"name" n → HasKey doc c!"properties" p → Falsy n → HeadWrong doc .assertion
  | properties {n p err} : HasKey doc c!"name" n → HasKey doc c!"properties" p → ¬ Falsy n → ¬ Falsy p → PropertiesWrong p err → HeadWrong doc err

/-- What is wrong with the worksheet of a document, looked at in the order head, tables, joins, paths, formulas, columns. -/
inductive SheetWrong (doc : Yaml) : PyErr → Prop where
  | head {err} : HeadWrong doc err → SheetWrong doc err
  | tables {w err} : HeadEntry doc w → ListWrong doc c!"tables" (fun x => ∃ t, TableEntry x t) TableWrong err → SheetWrong doc err
  | joins {w err} : HeadEntry doc w → EntriesOf doc c!"tables" TableEntry w.tables → ListWrong doc c!"joins" (fun x => ∃ j, JoinEntry x j) JoinWrong err →
      SheetWrong doc err
  | paths {w err} : HeadEntry doc w → EntriesOf doc c!"tables" TableEntry w.tables → EntriesOf doc c!"joins" JoinEntry w.joins →
      ListWrong doc c!"table_paths" (fun x => ∃ p, PathEntry x p) PathWrong err → SheetWrong doc err
  | formulas {w err} : HeadEntry doc w → EntriesOf doc c!"tables" TableEntry w.tables → EntriesOf doc c!"joins" JoinEntry w.joins →
      EntriesOf doc c!"table_paths" PathEntry w.paths → FormulasWrong doc err → SheetWrong doc err
  | columns {w err} : HeadEntry doc w → EntriesOf doc c!"tables" TableEntry w.tables → EntriesOf doc c!"joins" JoinEntry w.joins →
      EntriesOf doc c!"table_paths" PathEntry w.paths → FormulasOf doc w.formulas ∨ CutFormulasOf doc w.formulas →
      ListWrong doc c!"worksheet_columns" (fun x => ∃ c, ColumnEntry x c) ColumnWrong err → SheetWrong doc err

/-- What is wrong with a document. -/
inductive DocumentWrong (document : Yaml) : PyErr → Prop where
  | lacks {err} : Missing document c!"worksheet" err → DocumentWrong document err
  | sheet {doc err} : HasKey document c!"worksheet" doc → SheetWrong doc err → DocumentWrong document err

end Verif.Spec
