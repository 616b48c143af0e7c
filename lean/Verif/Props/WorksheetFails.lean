import Verif.Lemmas.WorksheetFails
import Verif.Props.Worksheet
/-
Properties of documents that cannot be read as worksheets: C105.
-/

namespace Verif.Props
open Verif Verif.Spec

/-- C105: reading a document ends in an exception if and only if something is wrong with it that gives this exception. -/
theorem C105_exactly (document : Yaml) (e : PyErr) : createWorksheet document = .error e ↔ DocumentWrong document e :=
  createWorksheet_error_iff document e

/-- C105: every document describes a worksheet or has something wrong with it, never both, and what is wrong gives only one exception. -/
theorem C105_one (document : Yaml) :
    (∃ w, (∀ w', (Describes document w' FormulasOf ∨ Describes document w' CutFormulasOf) ↔ w' = w) ∧ ∀ e, ¬ DocumentWrong document e) ∨
    (∃ e, (∀ e', DocumentWrong document e' ↔ e' = e) ∧ ∀ w, ¬ (Describes document w FormulasOf ∨ Describes document w CutFormulasOf)) := by
  simp only [← createWorksheet_ok_iff, ← createWorksheet_error_iff]
  cases createWorksheet document with
  | ok w =>
    refine .inl ⟨w, fun w' => ⟨fun h => (Except.ok.inj h).symm, fun h => by rw [h]⟩, fun e h => ?_⟩
    cases h
  | error e =>
    refine .inr ⟨e, fun e' => ⟨fun h => (Except.error.inj h).symm, fun h => by rw [h]⟩, fun w h => ?_⟩
    cases h

/-- C105: the only exceptions are `KeyError`, `TypeError`, `AttributeError`, `AssertionError` and `ValueError`, if the properties of the worksheet
are not a list with a pair whose key is a number, a truth value, a date or nothing. -/
theorem C105_kinds (document : Yaml) (e : PyErr) (h : createWorksheet document = .error e)
    (hp : ∀ doc l k v, HasKey document c!"worksheet" doc → HasKey doc c!"properties" (.seq l) → .seq [k, v] ∈ l →
      k ≠ .null ∧ ∀ t r, k ≠ .other t r) :
    e ∈ [.key, .type, .attribute, .assertion, .value] := by
  have first : ∀ {good wrong es} {err : PyErr}, FirstWrong good wrong es err → (∀ x e, wrong x e → e ∈ [.key, .type, .attribute, .assertion, .value]) →
      err ∈ [PyErr.key, .type, .attribute, .assertion, .value] := by
    rintro good wrong es err ⟨_, x, _, -, -, hx⟩ hw
    exact hw x err hx
  have list : ∀ {doc k good wrong} {err : PyErr}, ListWrong doc k good wrong err → (∀ x e, wrong x e → e ∈ [.key, .type, .attribute, .assertion, .value]) →
      err ∈ [PyErr.key, .type, .attribute, .assertion, .value] := by
    intro doc k good wrong err h hw
    cases h with
    | lacks => decide
    | loop => decide
    | entry _ _ h => exact first h hw
  have miss : ∀ {v : Yaml} {k : Str} {e : PyErr}, Missing v k e → e ∈ [PyErr.key, .type, .attribute, .assertion, .value] := by
    intro v k e h
    cases h <;> decide
  have no : ∀ {p x k v : Yaml} {es : List Yaml}, Elements p es → NoMap p → x ∈ es → Elements x [k, v] →
      (∀ l, p = .seq l → .seq [k, v] ∈ l → False) → (k = .null ∨ ∃ t r, k = .other t r) → False := by
    intro p x k v es hp hm hx hk h hn
    have hx' : x = .seq [k, v] := by
      generalize hl : [k, v] = kv at hk
      cases hk with
      | seq => rfl
      | keys m =>
        cases m with
        | nil => cases hl
        | cons q m =>
          simp only [List.map_cons, List.cons.injEq] at hl
          rcases hn with hn | ⟨t, r, hn⟩ <;> rw [hn] at hl <;> cases hl.1
      | chars s =>
        cases s with
        | nil => cases hl
        | cons q m =>
          simp only [List.map_cons, List.cons.injEq] at hl
          rcases hn with hn | ⟨t, r, hn⟩ <;> rw [hn] at hl <;> cases hl.1
    subst hx'
    cases hp with
    | seq l => exact h _ rfl hx
    | keys m => exact hm m rfl
    | chars s =>
      rw [List.mem_map] at hx
      obtain ⟨c, -, hc⟩ := hx
      cases hc
  cases (createWorksheet_error_iff _ _).1 h with
  | lacks h => exact miss h
  | sheet h0 h =>
    cases h with
    | head h =>
      cases h with
      | lacks _ h => exact miss h
      | name => decide
      | properties hn hq _ hf hm =>
        cases hm with
        | loop => decide
        | pair hm he h =>
          obtain ⟨pre, x, post, rfl, -, hx⟩ := h
          cases hx with
          | loop => decide
          | length => decide
          | list => decide
          | mapping => decide
          | null hk => exact (no he hm (by simp) hk (fun l hl hx => (hp _ l _ _ h0 (hl ▸ hq) hx).1 rfl) (.inl rfl)).elim
          | other hk => exact (no he hm (by simp) hk (fun l hl hx => (hp _ l _ _ h0 (hl ▸ hq) hx).2 _ _ rfl) (.inr ⟨_, _, rfl⟩)).elim
    | tables _ h =>
      refine list h fun x e h => ?_
      cases h with
      | name h => exact miss h
      | value => decide
    | joins _ _ h =>
      refine list h fun x e h => ?_
      cases h with
      | lacks _ h => exact miss h
    | paths _ _ _ h =>
      refine list h fun x e h => ?_
      cases h with
      | lacks h => exact miss h
      | loop => decide
      | step _ _ h => exact first h fun x e h => by cases h <;> decide
      | value => decide
    | formulas _ _ _ _ h =>
      cases h with
      | loop => decide
      | entry _ _ h => exact first h fun x e h => by cases h <;> decide
    | columns _ _ _ _ _ h =>
      refine list h fun x e h => ?_
      cases h with
      | lacks h => exact miss h
      | kind => decide
      | name => decide
      | value => decide

/-- A document whose second table path comes with these steps, and whose columns are these. -/
def brokenDoc (steps columns : Yaml) : Yaml :=
  .map [(c!"worksheet", .map [(c!"name", .str c!"w"), (c!"properties", .map []), (c!"tables", .seq [entry [(c!"name", c!"a")]]), (c!"joins", .seq []),
    (c!"table_paths", .seq [.map [(c!"id", .str c!"a_1"), (c!"table", .str c!"a"), (c!"join_path", .seq [.map []])],
      .map [(c!"table", .str c!"b"), (c!"join_path", steps)]]),
    (c!"worksheet_columns", columns)])]

/-- The steps are looked at before the id, and the paths before the columns. -/
example : DocumentWrong (brokenDoc (.seq [.map [], .null]) .null) .attribute ∧ DocumentWrong (brokenDoc .null .null) .type ∧
    DocumentWrong (brokenDoc (.seq [.map []]) .null) .key ∧
    DocumentWrong (sampleDoc [entry [(c!"name", c!""), (c!"expr", c!"1")]]) .assertion ∧
    DocumentWrong (sampleDoc [.null]) .type := by
  simp only [← C105_exactly]
  exact ⟨rfl, rfl, rfl, rfl, rfl⟩

/-- A document with these properties and nothing else wrong. -/
def propsDoc (p : Yaml) : Yaml :=
  .map [(c!"worksheet", .map [(c!"name", .str c!"w"), (c!"properties", p), (c!"tables", .seq []), (c!"joins", .seq []), (c!"table_paths", .seq []),
    (c!"worksheet_columns", .seq [])])]

/-- Properties may be a list of pairs, also of texts of two letters; the last value of a key counts. -/
example : (createWorksheet (propsDoc (.seq [.seq [.str c!"a", .null], .str c!"bc", .seq [.str c!"a", .str c!"x"]]))).map (fun w => w.properties.map (fun p => (p.1, p.2.text))) =
    .ok [(c!"a", .ok c!"x"), (c!"b", .ok c!"c")] := by decide +kernel

example : DocumentWrong (propsDoc (.str c!"ab")) .value ∧ DocumentWrong (propsDoc (.seq [.str c!"ab", .null])) .type ∧
    DocumentWrong (propsDoc (.seq [.seq [.seq [], .null]])) .type ∧ DocumentWrong (propsDoc (.seq [.seq []])) .value := by
  simp only [← C105_exactly]
  exact ⟨rfl, rfl, rfl, rfl⟩

/-- A list of pairs that meets the hypothesis. -/
example : ∀ doc l k v, HasKey (propsDoc (.seq [.seq [.seq [], .null]])) c!"worksheet" doc → HasKey doc c!"properties" (.seq l) → .seq [k, v] ∈ l →
    k ≠ .null ∧ ∀ t r, k ≠ .other t r := by
  intro doc l k v h hp hk
  rw [← item_ok_iff] at h hp
  cases h
  cases hp
  simp only [List.mem_singleton, Yaml.seq.injEq, List.cons.injEq] at hk
  rw [hk.1]
  exact ⟨fun h => (by cases h), fun t r h => (by cases h)⟩

/-- Built by hand from the specification: the first table is in order, the second has no name. -/
example : SheetWrong (.map [(c!"name", .str c!"w"), (c!"properties", .map []), (c!"tables", .seq [entry [(c!"name", c!"a")], entry []])]) .key := by
  refine .tables (w := { name := .str c!"w", description := .str [], properties := [] })
    (head_entry.2 ⟨.str c!"w", .null, .map [], (item_ok_iff _ _ _).1 rfl, (getD_ok_iff _ _ _ _).1 rfl, (item_ok_iff _ _ _).1 rfl, rfl⟩)
    (.entry (v := .seq [entry [(c!"name", c!"a")], entry []]) ((item_ok_iff _ _ _).1 rfl) (.seq _)
      ⟨[entry [(c!"name", c!"a")]], entry [], [], rfl, ?_, .name (.key ((item_key_iff _ _).1 rfl))⟩)
  intro y hy
  rw [List.mem_singleton] at hy
  subst hy
  refine ⟨⟨.str c!"a", .str c!"table"⟩, (item_ok_iff _ _ _).1 rfl, (getD_ok_iff _ _ _ _).1 rfl, ?_, by simp⟩
  rintro ⟨⟩

end Verif.Props
