import Verif.Spec.Worksheet
import Verif.Lemmas.Dict
import Verif.Lemmas.Review
import Mathlib.Data.List.Forall2
/-
Lemmas on worksheets.
-/

namespace Verif
open Spec

theorem get?_split {α : Type} (m : List (Str × α)) (k : Str) (x : α) :
    Dict.get? m k = some x ↔ ∃ pre post, m = pre ++ (k, x) :: post ∧ k ∉ pre.map Prod.fst := by
  induction m with
  | nil => simp [Dict.get?]
  | cons p m ih =>
    obtain ⟨a, b⟩ := p
    by_cases h : a = k
    · subst h
      have : Dict.get? ((a, b) :: m) a = some b := by simp [Dict.get?]
      rw [this]
      constructor
      · intro e; cases e; exact ⟨[], m, rfl, by simp⟩
      · rintro ⟨pre, post, e, hn⟩
        cases pre with
        | nil => cases e; rfl
        | cons q pre => cases e; simp at hn
    · have : Dict.get? ((a, b) :: m) k = Dict.get? m k := by simp [Dict.get?, h]
      rw [this, ih]
      constructor
      · rintro ⟨pre, post, rfl, hn⟩
        exact ⟨(a, b) :: pre, post, rfl, by simp [hn, Ne.symm h]⟩
      · rintro ⟨pre, post, e, hn⟩
        cases pre with
        | nil => cases e; exact absurd rfl h
        | cons q pre =>
          cases e
          simp only [List.map_cons, List.mem_cons, not_or] at hn
          exact ⟨pre, post, rfl, hn.2⟩

theorem item_ok_iff (v : Yaml) (k : Str) (x : Yaml) : v.item k = .ok x ↔ HasKey v k x := by
  unfold Yaml.item HasKey
  cases v with
  | map m =>
    dsimp only
    cases h : Dict.get? m k with
    | none =>
      constructor
      · intro e; cases e
      · rintro ⟨pre, post, e, hn⟩
        cases e
        rw [(get?_split _ k x).2 ⟨pre, post, rfl, hn⟩] at h
        cases h
    | some y =>
      constructor
      · intro e
        cases e
        obtain ⟨pre, post, e, hn⟩ := (get?_split _ _ _).1 h
        exact ⟨pre, post, by rw [e], hn⟩
      · rintro ⟨pre, post, e, hn⟩
        cases e
        rw [(get?_split _ k x).2 ⟨pre, post, rfl, hn⟩] at h
        cases h
        rfl
  | _ => constructor
         · intro h; cases h
         · rintro ⟨_, _, h, -⟩; cases h

theorem item_key_iff (v : Yaml) (k : Str) : v.item k = .error .key ↔ NoKey v k := by
  unfold Yaml.item NoKey
  cases v with
  | map m =>
    dsimp only
    have := Dict.get?_eq_none_iff (d := m) (k := k)
    cases h : Dict.get? m k with
    | none => exact ⟨fun _ => ⟨m, rfl, this.1 h⟩, fun _ => rfl⟩
    | some y =>
      constructor
      · intro e; cases e
      · rintro ⟨m', e, hn⟩
        cases e
        rw [this.2 hn] at h
        cases h
  | _ => constructor
         · intro h; cases h
         · rintro ⟨_, h, -⟩; cases h

theorem getD_ok_iff (v : Yaml) (k : Str) (d x : Yaml) : v.getD k d = .ok x ↔ KeyOr v k d x := by
  unfold KeyOr
  rw [← item_ok_iff, ← item_key_iff]
  unfold Yaml.getD Yaml.item
  cases v with
  | map m =>
    dsimp only
    cases h : Dict.get? m k with
    | none => simp [eq_comm]
    | some y => simp
  | _ => simp

theorem truthy_iff (v : Yaml) : v.truthy = true ↔ ¬ Falsy v := by
  cases v with
  | null => simp [Yaml.truthy, Falsy.null]
  | str s =>
    cases s with
    | nil => simp [Yaml.truthy, Falsy.str]
    | cons c s => simp only [Yaml.truthy]; constructor
                  · intro _ h; cases h
                  · intro _; rfl
  | other t r =>
    cases t with
    | false => simp [Yaml.truthy, Falsy.other]
    | true => constructor
              · intro _ h; cases h
              · intro _; rfl
  | seq l =>
    cases l with
    | nil => simp [Yaml.truthy, Falsy.seq]
    | cons c s => constructor
                  · intro _ h; cases h
                  · intro _; rfl
  | map l =>
    cases l with
    | nil => simp [Yaml.truthy, Falsy.map]
    | cons c s => constructor
                  · intro _ h; cases h
                  · intro _; rfl

theorem iter_ok_iff (v : Yaml) (l : List Yaml) : v.iter = .ok l ↔ Elements v l := by
  cases v with
  | seq m => simp only [Yaml.iter, Except.ok.injEq]; constructor
             · rintro rfl; exact .seq _
             · intro h; cases h; rfl
  | map m => simp only [Yaml.iter, Except.ok.injEq]; constructor
             · rintro rfl; exact .keys _
             · intro h; cases h; rfl
  | str m => simp only [Yaml.iter, Except.ok.injEq]; constructor
             · rintro rfl; exact .chars _
             · intro h; cases h; rfl
  | null => constructor <;> intro h <;> cases h
  | other a b => constructor <;> intro h <;> cases h

theorem items_ok_iff (v : Yaml) (m : List (Str × Yaml)) : v.items = .ok m ↔ v = .map m := by
  cases v <;> simp [Yaml.items]

theorem ok_inj_iff {α : Type} (a b : α) : (Except.ok a : Except PyErr α) = .ok b ↔ b = a := by
  rw [Except.ok.injEq]; exact eq_comm

theorem mkWsTable_ok_iff (n ty : Yaml) (t : WsTable) : mkWsTable n ty = .ok t ↔ t = ⟨n, ty⟩ ∧ ¬ Falsy n ∧
    (ty = .str c!"table" ∨ ty = .str c!"alias" ∨ ty = .str c!"fqn") := by
  unfold mkWsTable
  rw [← truthy_iff, ← isStr_iff, ← isStr_iff, ← isStr_iff]
  split
  · rename_i h; simp [h]
  · rename_i h
    split
    · rename_i h2; simp only [not_not] at h; simp [h2]
    · rename_i h2
      simp only [not_not] at h h2
      simp only [ok_inj_iff, h, h2, and_true]

theorem mkWsFormula_ok_iff (n e i : Yaml) (f : WsFormula) : mkWsFormula n e i = .ok f ↔ f = ⟨n, e, i⟩ ∧ ¬ Falsy n ∧ ¬ Falsy e := by
  unfold mkWsFormula
  rw [← truthy_iff, ← truthy_iff]
  split
  · rename_i h; simp [h]
  · rename_i h
    split
    · rename_i h2; simp [h2]
    · rename_i h2
      simp only [not_not] at h h2
      simp only [ok_inj_iff, h, h2, and_true]

theorem readWsTable_ok_iff (w : Worksheet) (e : Yaml) (w' : Worksheet) :
    readWsTable w e = .ok w' ↔ ∃ t, TableEntry e t ∧ w' = w.addTable t := by
  unfold readWsTable TableEntry
  simp only [bind_ok_iff, item_ok_iff, getD_ok_iff, mkWsTable_ok_iff, ok_inj_iff]
  constructor
  · rintro ⟨n, h1, ty, h2, t, ⟨rfl, h3, h4⟩, rfl⟩
    exact ⟨_, ⟨h1, h2, h3, h4⟩, rfl⟩
  · rintro ⟨t, ⟨h1, h2, h3, h4⟩, rfl⟩
    exact ⟨_, h1, _, h2, t, ⟨rfl, h3, h4⟩, rfl⟩

theorem readWsJoin_ok_iff (w : Worksheet) (e : Yaml) (w' : Worksheet) :
    readWsJoin w e = .ok w' ↔ ∃ j, JoinEntry e j ∧ w' = w.addJoin j := by
  unfold readWsJoin JoinEntry
  simp only [bind_ok_iff, item_ok_iff, ok_inj_iff]
  constructor
  · rintro ⟨a, h1, b, h2, c, h3, d, h4, f, h5, rfl⟩
    exact ⟨_, ⟨h1, h2, h3, h4, h5⟩, rfl⟩
  · rintro ⟨j, ⟨h1, h2, h3, h4, h5⟩, rfl⟩
    exact ⟨_, h1, _, h2, _, h3, _, h4, _, h5, rfl⟩

/-- A loop that adds what it reads. -/
theorem foldlM_add {σ α β : Type} {f : σ → α → Except PyErr σ} {add : σ → β → σ} {R : α → β → Prop}
    (h : ∀ w e w', f w e = .ok w' ↔ ∃ x, R e x ∧ w' = add w x) (l : List α) (w w' : σ) :
    l.foldlM f w = .ok w' ↔ ∃ xs, List.Forall₂ R l xs ∧ w' = xs.foldl add w := by
  induction l generalizing w with
  | nil =>
    constructor
    · intro e; cases e; exact ⟨[], .nil, rfl⟩
    · rintro ⟨xs, hx, e⟩; cases hx; cases e; rfl
  | cons a l ih =>
    rw [List.foldlM_cons, bind_ok_iff]
    constructor
    · rintro ⟨w1, e1, e2⟩
      obtain ⟨x, hx, rfl⟩ := (h _ _ _).1 e1
      obtain ⟨xs, hxs, rfl⟩ := (ih _).1 e2
      exact ⟨x :: xs, .cons hx hxs, rfl⟩
    · rintro ⟨xs, hxs, rfl⟩
      cases hxs with
      | cons hx hxs => exact ⟨_, (h _ _ _).2 ⟨_, hx, rfl⟩, (ih _).2 ⟨_, hxs, rfl⟩⟩

theorem readJoinPath_ok_iff (acc : List Yaml) (e : Yaml) (acc' : List Yaml) :
    readJoinPath acc e = .ok acc' ↔ ∃ l, StepEntry e l ∧ acc' = acc ++ l := by
  unfold readJoinPath StepEntry
  simp only [bind_ok_iff, getD_ok_iff]
  constructor
  · rintro ⟨v, hv, h⟩
    split at h
    · rename_i ht
      obtain ⟨l, hl, h⟩ := (bind_ok_iff _ _ _).1 h
      cases h
      exact ⟨l, ⟨v, hv, .inr ⟨(truthy_iff _).1 ht, (iter_ok_iff _ _).1 hl⟩⟩, rfl⟩
    · rename_i ht
      cases h
      refine ⟨[], ⟨v, hv, .inl ⟨?_, rfl⟩⟩, by simp⟩
      rw [truthy_iff, not_not] at ht
      exact ht
  · rintro ⟨l, ⟨v, hv, h⟩, rfl⟩
    refine ⟨v, hv, ?_⟩
    rcases h with ⟨he, rfl⟩ | ⟨he, hl⟩
    · rw [if_neg (by rw [truthy_iff, not_not]; exact he), List.append_nil]
    · rw [if_pos ((truthy_iff _).2 he), (iter_ok_iff _ _).2 hl]
      rfl

theorem foldl_append_flatten {α : Type} (ls : List (List α)) (acc : List α) : ls.foldl (· ++ ·) acc = acc ++ ls.flatten := by
  induction ls generalizing acc with
  | nil => simp
  | cons l ls ih => simp [ih]

theorem readWsPath_ok_iff (w : Worksheet) (e : Yaml) (w' : Worksheet) :
    readWsPath w e = .ok w' ↔ ∃ p, PathEntry e p ∧ w' = w.addPath p := by
  unfold readWsPath PathEntry
  simp only [bind_ok_iff, item_ok_iff, iter_ok_iff, ok_inj_iff,
    foldlM_add (f := readJoinPath) (add := fun a b => a ++ b) (R := StepEntry) readJoinPath_ok_iff]
  constructor
  · rintro ⟨v, hv, l, hl, js, ⟨xs, hxs, rfl⟩, i, hi, t, ht, rfl⟩
    refine ⟨_, ⟨hi, ht, v, l, xs, hv, hl, hxs, ?_⟩, rfl⟩
    simp [foldl_append_flatten]
  · rintro ⟨p, ⟨hi, ht, v, l, xs, hv, hl, hxs, e⟩, rfl⟩
    refine ⟨v, hv, l, hl, p.joins, ⟨xs, hxs, ?_⟩, _, hi, _, ht, rfl⟩
    simp [foldl_append_flatten, e]

theorem readWsFormula_ok_iff (w : Worksheet) (e : Yaml) (w' : Worksheet) :
    readWsFormula w e = .ok w' ↔ ∃ f, FormulaEntry e f ∧ w' = w.addFormula f := by
  unfold readWsFormula FormulaEntry
  simp only [bind_ok_iff, item_ok_iff, getD_ok_iff, mkWsFormula_ok_iff, ok_inj_iff]
  constructor
  · rintro ⟨a, h1, b, h2, c, h3, f, ⟨rfl, h4, h5⟩, rfl⟩
    exact ⟨_, ⟨h1, h2, h3, h4, h5⟩, rfl⟩
  · rintro ⟨f, ⟨h1, h2, h3, h4, h5⟩, rfl⟩
    exact ⟨_, h1, _, h2, _, h3, f, ⟨rfl, h4, h5⟩, rfl⟩

theorem bind_error_iff {α β : Type} (x : Except PyErr α) (f : α → Except PyErr β) (e : PyErr) :
    (x >>= f) = .error e ↔ x = .error e ∨ ∃ a, x = .ok a ∧ f a = .error e := by
  cases x with
  | error e' => simp [bind, Except.bind]
  | ok a => simp [bind, Except.bind]

theorem readWsFormula_key_iff (w : Worksheet) (e : Yaml) : readWsFormula w e = .error .key ↔ BadFormula e := by
  unfold readWsFormula BadFormula
  simp only [bind_error_iff, item_ok_iff, item_key_iff]
  have g : ∀ d : Yaml, e.getD c!"id" d ≠ .error .key := by intro d; cases e <;> simp [Yaml.getD]
  have m : ∀ a b c, mkWsFormula a b c ≠ .error .key := by
    intro a b c; unfold mkWsFormula; split
    · simp
    · split <;> simp
  constructor
  · rintro (h | ⟨a, ha, h | ⟨b, hb, h | ⟨c, hc, h | ⟨f, hf, h⟩⟩⟩⟩)
    · exact .inl h
    · exact .inr ⟨⟨a, ha⟩, h⟩
    · exact absurd h (g _)
    · exact absurd h (m _ _ _)
    · cases h
  · rintro (h | ⟨⟨a, ha⟩, h⟩)
    · exact .inl h
    · exact .inr ⟨a, ha, .inl h⟩

theorem readFormulas_ok_iff (w : Worksheet) (l : List Yaml) (w' : Worksheet) :
    readFormulas w l = .ok w' ↔ ∃ fs, w' = fs.foldl Worksheet.addFormula w ∧
      (List.Forall₂ FormulaEntry l fs ∨ ∃ es bad rest, l = es ++ bad :: rest ∧ List.Forall₂ FormulaEntry es fs ∧ BadFormula bad) := by
  induction l generalizing w with
  | nil =>
    constructor
    · intro h; cases h; exact ⟨[], rfl, .inl .nil⟩
    · rintro ⟨fs, e, h | ⟨es, bad, rest, h, -⟩⟩
      · cases h; cases e; rfl
      · simp at h
  | cons a l ih =>
    rw [readFormulas]
    constructor
    · intro h
      split at h
      · rename_i w1 h1
        obtain ⟨f, hf, rfl⟩ := (readWsFormula_ok_iff _ _ _).1 h1
        obtain ⟨fs, rfl, hfs⟩ := (ih _).1 h
        refine ⟨f :: fs, rfl, ?_⟩
        rcases hfs with hfs | ⟨es, bad, rest, rfl, hes, hb⟩
        · exact .inl (.cons hf hfs)
        · exact .inr ⟨a :: es, bad, rest, rfl, .cons hf hes, hb⟩
      · rename_i h1
        cases h
        exact ⟨[], rfl, .inr ⟨[], a, l, rfl, .nil, (readWsFormula_key_iff _ _).1 h1⟩⟩
      · cases h
    · rintro ⟨fs, rfl, h | ⟨es, bad, rest, e, hes, hb⟩⟩
      · cases h with
        | cons hf hfs =>
          rw [(readWsFormula_ok_iff _ _ _).2 ⟨_, hf, rfl⟩]
          exact (ih _).2 ⟨_, rfl, .inl hfs⟩
      · cases hes with
        | nil =>
          cases e
          rw [(readWsFormula_key_iff _ _).2 hb]
          rfl
        | cons hf hfs =>
          cases e
          rw [(readWsFormula_ok_iff _ _ _).2 ⟨_, hf, rfl⟩]
          exact (ih _).2 ⟨_, rfl, .inr ⟨_, bad, rest, rfl, hfs, hb⟩⟩

theorem iter_not_key (v : Yaml) : v.iter ≠ .error .key := by cases v <;> simp [Yaml.iter]

theorem readFormulasOf_ok_iff (w : Worksheet) (e : Yaml) (w' : Worksheet) :
    readFormulasOf w e = .ok w' ↔ ∃ fs, w' = fs.foldl Worksheet.addFormula w ∧ (FormulasOf e fs ∨ CutFormulasOf e fs) := by
  unfold readFormulasOf FormulasOf EntriesOf CutFormulasOf
  constructor
  · intro h
    split at h
    · rename_i h1
      cases h
      exact ⟨[], rfl, .inl (.inl ⟨(item_key_iff _ _).1 h1, rfl⟩)⟩
    · cases h
    · rename_i v hv
      rw [item_ok_iff] at hv
      split at h
      · cases h
      · rename_i l hl
        rw [iter_ok_iff] at hl
        obtain ⟨fs, rfl, hf | ⟨es, bad, rest, rfl, hes, hb⟩⟩ := (readFormulas_ok_iff _ _ _).1 h
        · exact ⟨fs, rfl, .inl (.inr ⟨v, l, hv, hl, hf⟩)⟩
        · exact ⟨fs, rfl, .inr ⟨v, es, bad, rest, hv, hl, hes, hb⟩⟩
  · rintro ⟨fs, rfl, (⟨hn, rfl⟩ | ⟨v, l, hv, hl, hf⟩) | ⟨v, es, bad, rest, hv, hl, hes, hb⟩⟩
    · rw [(item_key_iff _ _).2 hn]
      rfl
    · rw [(item_ok_iff _ _ _).2 hv]
      dsimp only
      rw [(iter_ok_iff _ _).2 hl]
      exact (readFormulas_ok_iff _ _ _).2 ⟨fs, rfl, .inl hf⟩
    · rw [(item_ok_iff _ _ _).2 hv]
      dsimp only
      rw [(iter_ok_iff _ _).2 hl]
      exact (readFormulas_ok_iff _ _ _).2 ⟨fs, rfl, .inr ⟨es, bad, rest, rfl, hes, hb⟩⟩

theorem mkWsColumn_ok_iff (n i : Yaml) (p : List (Str × Yaml)) (b : Bool) (c : WsColumn) :
    mkWsColumn n i p b = .ok c ↔ c = ⟨n, i, p, b⟩ ∧ ¬ Falsy n := by
  unfold mkWsColumn
  rw [← truthy_iff]
  split
  · rename_i h; simp [h]
  · rename_i h
    simp only [not_not] at h
    simp only [ok_inj_iff, h, and_true]

theorem readWsColumn_ok_iff (w : Worksheet) (e : Yaml) (w' : Worksheet) :
    readWsColumn w e = .ok w' ↔ ∃ c, ColumnEntry e c ∧ w' = w.addColumn c := by
  unfold readWsColumn ColumnEntry
  simp only [bind_ok_iff, item_ok_iff, getD_ok_iff, items_ok_iff, mkWsColumn_ok_iff, ok_inj_iff]
  constructor
  · rintro ⟨p, hp, props, rfl, cid, hc, fid, hf, n, hn, c, ⟨rfl, hne⟩, rfl⟩
    refine ⟨_, ⟨hn, hne, hp, cid, fid, hc, hf, ?_⟩, rfl⟩
    dsimp only
    by_cases h1 : cid.truthy = true
    · left
      simp only [h1, if_true, Bool.not_true, Bool.false_and, and_true]
      exact (truthy_iff _).1 h1
    · right
      have e1 : Falsy cid := by rw [truthy_iff, not_not] at h1; exact h1
      simp only [Bool.not_eq_true] at h1
      by_cases h2 : fid.truthy = true
      · left
        refine ⟨e1, (truthy_iff _).1 h2, ?_⟩
        simp [h1, h2]
      · right
        have e2 : Falsy fid := by rw [truthy_iff, not_not] at h2; exact h2
        simp only [Bool.not_eq_true] at h2
        refine ⟨e1, e2, ?_⟩
        simp [h1, h2]
  · rintro ⟨c, ⟨hn, hne, hp, cid, fid, hc, hf, h⟩, rfl⟩
    refine ⟨_, hp, _, rfl, cid, hc, fid, hf, _, hn, c, ⟨?_, hne⟩, rfl⟩
    obtain ⟨n, i, p, b⟩ := c
    dsimp only at h ⊢
    rcases h with ⟨h1, rfl, rfl⟩ | ⟨h1, h2, rfl, rfl⟩ | ⟨h1, h2, rfl, rfl⟩
    · simp [(truthy_iff _).2 h1]
    · have : cid.truthy = false := by
        rw [← Bool.not_eq_true, truthy_iff, not_not]; exact h1
      simp [this, (truthy_iff _).2 h2]
    · have t1 : cid.truthy = false := by
        rw [← Bool.not_eq_true, truthy_iff, not_not]; exact h1
      have t2 : i.truthy = false := by
        rw [← Bool.not_eq_true, truthy_iff, not_not]; exact h2
      simp [t1, t2]

theorem foldl_addTable (xs : List WsTable) (w : Worksheet) : xs.foldl Worksheet.addTable w = { w with tables := w.tables ++ xs } := by
  induction xs generalizing w with
  | nil => simp
  | cons x xs ih => simp [ih, Worksheet.addTable]

theorem foldl_addJoin (xs : List WsJoin) (w : Worksheet) : xs.foldl Worksheet.addJoin w = { w with joins := w.joins ++ xs } := by
  induction xs generalizing w with
  | nil => simp
  | cons x xs ih => simp [ih, Worksheet.addJoin]

theorem foldl_addPath (xs : List WsPath) (w : Worksheet) : xs.foldl Worksheet.addPath w = { w with paths := w.paths ++ xs } := by
  induction xs generalizing w with
  | nil => simp
  | cons x xs ih => simp [ih, Worksheet.addPath]

theorem foldl_addFormula (xs : List WsFormula) (w : Worksheet) :
    xs.foldl Worksheet.addFormula w = { w with formulas := w.formulas ++ xs } := by
  induction xs generalizing w with
  | nil => simp
  | cons x xs ih => simp [ih, Worksheet.addFormula]

theorem foldl_addColumn (xs : List WsColumn) (w : Worksheet) : xs.foldl Worksheet.addColumn w = { w with columns := w.columns ++ xs } := by
  induction xs generalizing w with
  | nil => simp
  | cons x xs ih => simp [ih, Worksheet.addColumn]

theorem set_split {α : Type} {a b : List (Str × α)} {k : Str} {u v : α} (h : k ∉ a.map Prod.fst) :
    Dict.set (a ++ (k, u) :: b) k v = a ++ (k, v) :: b := by
  induction a with
  | nil => simp [Dict.set]
  | cons p a ih =>
    obtain ⟨k', x⟩ := p
    simp only [List.map_cons, List.mem_cons, not_or] at h
    simp only [List.cons_append, Dict.set]
    rw [if_neg (Ne.symm h.1), ih h.2]

theorem collects_iff (ps d : List (Str × Yaml)) : Collects ps d ↔ d = ps.foldl (fun d p => Dict.set d p.1 p.2) [] := by
  constructor
  · intro h
    induction h with
    | nil => rfl
    | fresh k v _ hk ih =>
      rw [List.foldl_append, ← ih]
      exact (Dict.set_of_not_mem v hk).symm
    | again k u v _ hk ih =>
      rw [List.foldl_append, ← ih]
      exact (set_split hk).symm
  · rintro rfl
    induction ps using snocInd with
    | nil => exact .nil
    | append_singleton ps p ih =>
      rw [List.foldl_append]
      simp only [List.foldl_cons, List.foldl_nil]
      generalize ps.foldl (fun d p => Dict.set d p.1 p.2) [] = d at ih
      by_cases h : ∃ u, Dict.get? d p.1 = some u
      · obtain ⟨u, hu⟩ := h
        obtain ⟨a, b, rfl, ha⟩ := (get?_split _ _ _).1 hu
        rw [set_split ha]
        exact .again _ u _ ih ha
      · have hk : p.1 ∉ Dict.keys d := by
          rw [← Dict.get?_eq_none_iff]
          cases hg : Dict.get? d p.1 with
          | none => rfl
          | some u => exact absurd ⟨u, hg⟩ h
        rw [Dict.set_of_not_mem _ hk]
        exact .fresh _ _ ih hk

theorem pairStep_ok_iff (d : List (Str × Yaml)) (e : Yaml) (d' : List (Str × Yaml)) :
    pairStep d e = .ok d' ↔ ∃ p, PairEntry e p ∧ d' = Dict.set d p.1 p.2 := by
  simp only [PairEntry, ← iter_ok_iff]
  unfold pairStep
  constructor
  · intro h
    split at h
    · cases h
    · rename_i k v he
      split at h
      · cases h
        exact ⟨(_, v), he, rfl⟩
      all_goals cases h
    · cases h
  · rintro ⟨⟨k, v⟩, he, rfl⟩
    rw [he]

theorem toDict_ok_iff (p : Yaml) (d : List (Str × Yaml)) : p.toDict = .ok d ↔
    p = .map d ∨ (NoMap p ∧ ∃ es ps, Elements p es ∧ List.Forall₂ PairEntry es ps ∧ Collects ps d) := by
  have main : (p.iter >>= fun l => l.foldlM pairStep []) = .ok d ↔ ∃ es ps, Elements p es ∧ List.Forall₂ PairEntry es ps ∧ Collects ps d := by
    have fold : ∀ l : List Yaml, l.foldlM pairStep [] = .ok d ↔ ∃ ps, List.Forall₂ PairEntry l ps ∧ Collects ps d := by
      intro l
      rw [foldlM_add (add := fun d (p : Str × Yaml) => Dict.set d p.1 p.2) pairStep_ok_iff]
      simp only [collects_iff]
    simp only [bind_ok_iff, iter_ok_iff, fold, exists_and_left]
  cases p with
  | map m => simp [Yaml.toDict, NoMap]
  | _ => simp only [Yaml.toDict, main, NoMap]; simp

theorem mkWorksheet_ok_iff (n d p : Yaml) (w : Worksheet) : mkWorksheet n d p = .ok w ↔ ¬ Falsy n ∧
    ∃ props : List (Str × Yaml), PropertiesEntry p props ∧
      ∃ desc : Yaml, ((¬ Falsy d ∧ desc = d) ∨ (Falsy d ∧ desc = .str [])) ∧ w = { name := n, description := desc, properties := props } := by
  unfold mkWorksheet PropertiesEntry
  by_cases hn : Falsy n
  · rw [if_pos (by rw [truthy_iff, not_not]; exact hn)]
    simp [hn]
  · rw [if_neg (by rw [truthy_iff, not_not]; exact hn)]
    simp only [hn, not_false_eq_true, true_and]
    have hd : ∀ desc : Yaml, desc = (if d.truthy then d else .str []) ↔ ((¬ Falsy d ∧ desc = d) ∨ (Falsy d ∧ desc = .str [])) := by
      intro desc
      by_cases h : Falsy d
      · have : d.truthy = false := by rw [← Bool.not_eq_true, truthy_iff, not_not]; exact h
        simp [this, h]
      · simp [(truthy_iff d).2 h, h]
    by_cases hp : Falsy p
    · rw [if_neg (by rw [truthy_iff, not_not]; exact hp)]
      simp only [ok_inj_iff, ← hd]
      constructor
      · rintro rfl
        exact ⟨[], .inl ⟨hp, rfl⟩, _, rfl, rfl⟩
      · rintro ⟨props, (⟨-, rfl⟩ | ⟨h, rfl⟩ | ⟨h, -⟩), desc, rfl, rfl⟩
        · rfl
        · cases hp; exact absurd rfl h
        · exact absurd hp h
    · rw [if_pos ((truthy_iff p).2 hp)]
      simp only [← hd]
      constructor
      · intro h
        cases ht : p.toDict with
        | error e => rw [ht] at h; cases h
        | ok props =>
          rw [ht] at h
          cases h
          refine ⟨props, .inr ?_, _, rfl, rfl⟩
          rcases (toDict_ok_iff _ _).1 ht with rfl | h
          · refine .inl ⟨?_, rfl⟩
            rintro rfl
            exact hp .map
          · exact .inr ⟨hp, h⟩
      · rintro ⟨props, (⟨h, -⟩ | ⟨-, h⟩ | ⟨-, h⟩), desc, rfl, rfl⟩
        · exact absurd h hp
        · rw [(toDict_ok_iff _ _).2 (.inl h)]
        · rw [(toDict_ok_iff _ _).2 (.inr h)]

/-- Exactly when the document is read, and as what. -/
theorem createWorksheet_ok_iff (document : Yaml) (w : Worksheet) :
    createWorksheet document = .ok w ↔ Describes document w FormulasOf ∨ Describes document w CutFormulasOf := by
  have or_dist : (Describes document w FormulasOf ∨ Describes document w CutFormulasOf) ↔
      Describes document w (fun e l => FormulasOf e l ∨ CutFormulasOf e l) := by
    unfold Describes
    constructor
    · rintro (⟨e, h0, h1, h2, h3, h4, h5, h6⟩ | ⟨e, h0, h1, h2, h3, h4, h5, h6⟩)
      · exact ⟨e, h0, h1, h2, h3, h4, .inl h5, h6⟩
      · exact ⟨e, h0, h1, h2, h3, h4, .inr h5, h6⟩
    · rintro ⟨e, h0, h1, h2, h3, h4, h5 | h5, h6⟩
      · exact .inl ⟨e, h0, h1, h2, h3, h4, h5, h6⟩
      · exact .inr ⟨e, h0, h1, h2, h3, h4, h5, h6⟩
  rw [or_dist]
  unfold createWorksheet Describes HeadEntry EntriesOf
  simp only [bind_ok_iff, item_ok_iff, getD_ok_iff, iter_ok_iff, mkWorksheet_ok_iff, readFormulasOf_ok_iff,
    foldlM_add readWsTable_ok_iff, foldlM_add readWsJoin_ok_iff, foldlM_add readWsPath_ok_iff, foldlM_add readWsColumn_ok_iff,
    foldl_addTable, foldl_addJoin, foldl_addPath, foldl_addFormula, foldl_addColumn]
  constructor
  · rintro ⟨e, h0, n, hn, d, hd, p, hp, w0, ⟨hne, props, hprops, desc, hdesc, rfl⟩, v1, hv1, l1, hl1, w1, ⟨xs1, hx1, rfl⟩,
      v2, hv2, l2, hl2, w2, ⟨xs2, hx2, rfl⟩, v3, hv3, l3, hl3, w3, ⟨xs3, hx3, rfl⟩, w4, ⟨fs, rfl, hfs⟩, v5, hv5, l5, hl5, xs5, hx5, rfl⟩
    simp only [List.nil_append]
    exact ⟨e, h0, ⟨hn, hne, ⟨d, hd, hdesc⟩, p, hp, hprops⟩, ⟨v1, l1, hv1, hl1, hx1⟩, ⟨v2, l2, hv2, hl2, hx2⟩, ⟨v3, l3, hv3, hl3, hx3⟩, hfs,
      ⟨v5, l5, hv5, hl5, hx5⟩⟩
  · rintro ⟨e, h0, ⟨hn, hne, ⟨d, hd, hdesc⟩, p, hp, hprops⟩, ⟨v1, l1, hv1, hl1, hx1⟩, ⟨v2, l2, hv2, hl2, hx2⟩, ⟨v3, l3, hv3, hl3, hx3⟩, hfs,
      ⟨v5, l5, hv5, hl5, hx5⟩⟩
    refine ⟨e, h0, _, hn, d, hd, p, hp, _, ⟨hne, _, hprops, _, hdesc, rfl⟩, v1, hv1, l1, hl1, _, ⟨_, hx1, rfl⟩,
      v2, hv2, l2, hl2, _, ⟨_, hx2, rfl⟩, v3, hv3, l3, hl3, _, ⟨_, hx3, rfl⟩, _, ⟨_, rfl, hfs⟩, v5, hv5, l5, hl5, _, hx5, ?_⟩
    simp

end Verif
