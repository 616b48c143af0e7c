import Verif.Parser
import Verif.Lemmas.Comment
import Mathlib.Data.List.Forall2
import Verif.Spec.CreateTable
/-
The fields of a CREATE TABLE.
-/

namespace Verif
open Spec

/-- Parentheses are closed and there is no comma outside of them. -/
inductive Flat : Str → Prop where
  | nil : Flat []
  | char {c t} : c ≠ '(' → c ≠ ',' → Flat t → Flat (c :: t)
  | paren {a t} : ')' ∉ a → Flat t → Flat ('(' :: a ++ ')' :: t)

theorem rawFieldsGo_open {a t cur : Str} (h : ')' ∉ a) : rawFieldsGo true cur (a ++ ')' :: t) = rawFieldsGo false (cur ++ a ++ [')']) t := by
  induction a generalizing cur with
  | nil => simp [rawFieldsGo]
  | cons x a ih =>
    simp only [List.mem_cons, not_or] at h
    simp only [List.cons_append, rawFieldsGo]
    rw [show decide (x ≠ ')') = true from decide_eq_true (Ne.symm h.1), ih h.2]
    simp

theorem rawFieldsGo_flat {f : Str} (h : Flat f) : ∀ {cur t : Str}, rawFieldsGo false cur (f ++ t) = rawFieldsGo false (cur ++ f) t := by
  induction h with
  | nil => intro cur t; simp
  | char h1 h2 _ ih =>
    intro cur t
    simp only [List.cons_append, rawFieldsGo, if_neg h1, if_neg h2, ih]
    simp
  | paren ha _ ih =>
    intro cur t
    simp only [List.cons_append, List.append_assoc, rawFieldsGo, if_pos rfl]
    rw [rawFieldsGo_open ha, ih]
    simp

theorem flat_plain {s : Str} (h : ∀ c ∈ s, c ≠ '(' ∧ c ≠ ',') : Flat s := by
  induction s with
  | nil => exact .nil
  | cons c t ih => exact .char (h c (by simp)).1 (h c (by simp)).2 (ih (fun x hx => h x (by simp [hx])))

theorem Flat.append {a b : Str} (ha : Flat a) (hb : Flat b) : Flat (a ++ b) := by
  induction ha with
  | nil => exact hb
  | char h1 h2 _ ih => exact .char h1 h2 ih
  | paren h1 _ ih =>
    rw [List.append_assoc]
    exact .paren h1 ih

theorem flat_space {s : Str} (h : ∀ c ∈ s, isSpace c = true) : Flat s :=
  flat_plain (fun c hc => ⟨by rintro rfl; exact absurd (h _ hc) (by decide), by rintro rfl; exact absurd (h _ hc) (by decide)⟩)

theorem strip_pads {a f b : Str} (ha : ∀ c ∈ a, isSpace c = true) (hb : ∀ c ∈ b, isSpace c = true) (hf : Trim f) : strip (a ++ f ++ b) = f := by
  rw [strip_append_space hb]
  unfold strip
  rw [lstrip_append_space ha]
  exact hf.strip

theorem rawFieldsGo_list {fs : List Str} {s : Str} (h : FieldList fs s) (hf : ∀ f ∈ fs, Flat f ∧ Trim f ∧ f ≠ []) :
    rawFieldsGo false [] s = fs := by
  induction h with
  | @one f a b ha hb =>
    obtain ⟨h1, h2, h3⟩ := hf f (by simp)
    have hx := (((flat_space ha).append h1).append (flat_space hb))
    have := rawFieldsGo_flat hx (cur := []) (t := [])
    rw [List.append_nil, List.nil_append] at this
    rw [this, rawFieldsGo, if_pos (by simp [h3]), strip_pads ha hb h2]
  | @cons f a b fs s ha hb _ ih =>
    obtain ⟨h1, h2, h3⟩ := hf f (by simp)
    have hx := (((flat_space ha).append h1).append (flat_space hb))
    rw [rawFieldsGo_flat hx, List.nil_append, rawFieldsGo, if_neg (by decide), if_pos rfl, strip_pads ha hb h2,
      ih (fun x hx => hf x (by simp [hx]))]

theorem fieldList_ne_nil {fs : List Str} {s : Str} (h : FieldList fs s) : fs ≠ [] := by cases h <;> simp

theorem fieldList_lstrip {fs : List Str} {s : Str} (h : FieldList fs s) (hf : ∀ f ∈ fs, Trim f ∧ f ≠ []) : FieldList fs (lstrip s) := by
  have key : ∀ {a f t : Str}, (∀ c ∈ a, isSpace c = true) → Trim f → f ≠ [] → Verif.lstrip (a ++ f ++ t) = f ++ t := by
    intro a f t ha ht hn
    rw [List.append_assoc, lstrip_append_space ha]
    apply lstrip_of_head
    cases f with
    | nil => exact absurd rfl hn
    | cons c f => intro x hx; exact ht.1 x (by simpa using hx)
  cases h with
  | @one f a b ha hb =>
    rw [key ha (hf f (by simp)).1 (hf f (by simp)).2]
    exact FieldList.one (a := []) (by simp) hb
  | @cons f a b fs s ha hb h =>
    rw [List.append_assoc (a ++ f), key ha (hf f (by simp)).1 (hf f (by simp)).2, ← List.append_assoc]
    exact FieldList.cons (a := []) (by simp) hb h

theorem rstrip_append_ne {a b : Str} (h : ∃ c ∈ b, isSpace c = false) : rstrip (a ++ b) = a ++ rstrip b := rstrip_append_of h

theorem fieldList_rstrip {fs : List Str} {s : Str} (h : FieldList fs s) (hf : ∀ f ∈ fs, Trim f ∧ f ≠ []) : FieldList fs (rstrip s) := by
  induction h with
  | @one f a b ha hb =>
    obtain ⟨h1, h2⟩ := hf f (by simp)
    have : Verif.rstrip (a ++ f ++ b) = a ++ f ++ [] := by
      rw [rstrip_append_space hb]
      obtain ⟨t, c, rfl⟩ := (List.eq_nil_or_concat f).resolve_left h2
      simp only [List.concat_eq_append, List.append_nil]
      rw [← List.append_assoc]
      exact rstrip_id (h1.2 c (by simp))
    rw [this]
    exact .one ha (by simp)
  | @cons f a b fs s ha hb h ih =>
    have hr : Verif.rstrip (a ++ f ++ b ++ ',' :: s) = a ++ f ++ b ++ ',' :: Verif.rstrip s := by
      rcases space_or s with hs | hs
      · rw [show a ++ f ++ b ++ ',' :: s = (a ++ f ++ b ++ [',']) ++ s from by simp, rstrip_append_space hs, rstrip_id (by decide)]
        rw [show Verif.rstrip s = [] from by
          have := rstrip_append_space (a := []) hs
          rw [List.nil_append] at this
          exact this]
      · rw [show a ++ f ++ b ++ ',' :: s = (a ++ f ++ b ++ [',']) ++ s from by simp, rstrip_append_of hs]
        simp
    rw [hr]
    exact .cons ha hb (ih (fun x hx => hf x (by simp [hx])))

theorem fieldList_strip {fs : List Str} {s : Str} (h : FieldList fs s) (hf : ∀ f ∈ fs, Trim f ∧ f ≠ []) : FieldList fs (strip s) :=
  fieldList_rstrip (fieldList_lstrip h hf) hf

/-- The text between the first opening and the last closing parenthesis. -/
theorem rawFields_body {h body tail : Str} (h1 : '(' ∉ h) (h2 : ')' ∉ tail) :
    rawFields (h ++ '(' :: body ++ ')' :: tail) = rawFieldsGo false [] (strip body) := by
  unfold rawFields
  have e1 : pyFind c!"(" (h ++ '(' :: body ++ ')' :: tail) = (h.length : Int) := by
    rw [List.append_assoc, List.cons_append]; exact pyFind_char h1
  have e2 : pyRfind c!")" (h ++ '(' :: body ++ ')' :: tail) = ((h ++ '(' :: body).length : Int) := pyRfind_char h2
  rw [e1, e2, pySlice_succ, List.take_left]
  congr 2
  rw [show h ++ '(' :: body = (h ++ ['(']) ++ body from by simp]
  exact List.drop_left' (by simp)

theorem rawFields_list {h body tail : Str} {fs : List Str} (h1 : '(' ∉ h) (h2 : ')' ∉ tail) (hl : FieldList fs body)
    (hf : ∀ f ∈ fs, Flat f ∧ Trim f ∧ f ≠ []) : rawFields (h ++ '(' :: body ++ ')' :: tail) = fs := by
  rw [rawFields_body h1 h2]
  exact rawFieldsGo_list (fieldList_strip hl (fun f hx => (hf f hx).2)) hf

/-! ## One field -/

theorem pyFindFrom_char {c : Char} {pre a b : Str} {start : Nat} (hs : start = pre.length) (h : c ∉ a) :
    pyFindFrom [c] (pre ++ (a ++ c :: b)) start = ((start + a.length : Nat) : Int) := by
  unfold pyFindFrom
  rw [hs, List.drop_left, findIdx_char h]

theorem pyFindFrom_none {c : Char} {pre u : Str} {start : Nat} (hs : start = pre.length) (h : c ∉ u) : pyFindFrom [c] (pre ++ u) start = -1 := by
  unfold pyFindFrom
  rw [hs, List.drop_left, findIdx_char_none h]

theorem lower_cons (c : Char) (s : Str) : lower (c :: s) = lowerC c :: lower s := rfl

/-- What `_add_columns` takes for the type: text up to a closing parenthesis, or up to a blank or comma. -/
inductive TypeAt : Str → Str → Prop where
  | paren {a b} : ')' ∉ a → TypeAt (a ++ ')' :: b) (a ++ [')'])
  | blank {a b} : ')' ∉ a ++ ' ' :: b → ' ' ∉ a → ',' ∉ a → TypeAt (a ++ ' ' :: b) a
  | whole {a} : ')' ∉ a → ' ' ∉ a → ',' ∉ a → TypeAt a a

theorem dataType_eq {pre u ty : Str} {start : Nat} (hs : start = pre.length) (hpos : 0 < start) (h : TypeAt u ty) :
    (if pyFindFrom c!")" (lower (pre ++ u)) start > 0 then pySlice (pre ++ u) start (pyFindFrom c!")" (lower (pre ++ u)) start + 1)
      else pySlice (pre ++ u) start (typeEnd (pre ++ u) start)) = ty := by
  have hl : start = (lower pre).length := by rw [length_lower]; exact hs
  have lp : ∀ {s : Str}, ')' ∉ s → ')' ∉ lower s := fun h h' => h ((mem_lower_special (by decide) (by decide)).1 h')
  have slice : ∀ n : Nat, pySlice (pre ++ u) (start : Int) ((start + n : Nat) : Int) = u.take n := by
    intro n
    rw [pySlice_nat, hs, List.take_append, List.take_of_length_le (by omega), Nat.add_sub_cancel_left, List.drop_left]
  cases h with
  | @paren a b ha =>
    have e : pyFindFrom c!")" (lower (pre ++ (a ++ ')' :: b))) start = ((start + a.length : Nat) : Int) := by
      rw [lower_append, lower_append, lower_cons, show lowerC ')' = ')' from by decide, pyFindFrom_char hl (lp ha), length_lower]
    rw [e]
    have hsl := slice (a.length + 1)
    rw [show ((start + (a.length + 1) : Nat) : Int) = ((start + a.length : Nat) : Int) + 1 from by push_cast; omega] at hsl
    rw [hsl]
    rw [if_pos (by omega), List.take_append, List.take_of_length_le (by omega)]
    simp
  | @blank _ b h1 h2 h3 =>
    have e : pyFindFrom c!")" (lower (pre ++ (ty ++ ' ' :: b))) start = -1 := by
      rw [lower_append]
      exact pyFindFrom_none hl (lp h1)
    rw [e, if_neg (by decide)]
    have hte : typeEnd (pre ++ (ty ++ ' ' :: b)) start = ((start + ty.length : Nat) : Int) := by
      unfold typeEnd
      rw [pyFindFrom_char hs h2]
      rw [if_neg (by omega)]
      unfold pyFindFrom
      rw [hs, List.drop_left]
      cases hf : findIdx c!"," (ty ++ ' ' :: b) with
      | none => simp
      | some i =>
        obtain ⟨x, y, e, hx⟩ := findIdx_some hf
        have : ty.length ≤ i := by
          by_contra hlt
          have : ',' ∈ ty := by
            have hi : (ty ++ ' ' :: b)[i]? = some ',' := by rw [e]; simp [hx]
            rw [List.getElem?_append_left (by omega)] at hi
            exact List.mem_of_getElem? hi
          exact h3 this
        simp only
        rw [if_neg (by omega), Int.min_eq_left (by omega)]
    rw [hte, slice]
    simp
  | @whole a h1 h2 h3 =>
    have e : pyFindFrom c!")" (lower (pre ++ u)) start = -1 := by
      rw [lower_append]
      exact pyFindFrom_none hl (lp h1)
    rw [e, if_neg (by decide)]
    have hte : typeEnd (pre ++ u) start = ((start + u.length : Nat) : Int) := by
      unfold typeEnd
      rw [pyFindFrom_none hs h2, pyFindFrom_none hs h3]
      simp [hs]
    rw [hte, slice]
    simp

/-- A field that starts with a quoted name. -/
theorem fieldColumn_quoted {q : Char} (hq : q = '"' ∨ q = '\'' ∨ q = '`') {n u ty : Str} (hn : q ∉ n) (hu : TypeAt u ty) :
    fieldColumn (q :: n ++ q :: ' ' :: u) = (convertType ty).bind (fun t => mkColumn (some n) (some t)) := by
  have hh : (q == '"' || q == '\'' || q == '`') = true := by rcases hq with rfl | rfl | rfl <;> decide
  have hname : pySlice (q :: n ++ q :: ' ' :: u) 1 (pyFindFrom [q] (q :: n ++ q :: ' ' :: u) 1) = n := by
    rw [show q :: n ++ q :: ' ' :: u = [q] ++ (n ++ q :: ' ' :: u) from by simp, pyFindFrom_char (pre := [q]) (start := 1) rfl hn]
    have := pySlice_nat ([q] ++ (n ++ q :: ' ' :: u)) 1 (1 + n.length)
    rw [show ((1 : Nat) : Int) = 1 from rfl] at this
    rw [this, show 1 + n.length = n.length + 1 from by omega]
    simp
  have hd := dataType_eq (pre := q :: n ++ q :: [' ']) (start := n.length + 3) (by simp) (by omega) hu
  rw [show q :: n ++ q :: [' '] ++ u = q :: n ++ q :: ' ' :: u from by simp] at hd
  unfold fieldColumn
  simp only [List.cons_append] at hname hd ⊢
  simp only [hh, if_true, hname, hd]
  cases convertType ty <;> rfl

/-- A field that starts with a plain name. -/
theorem fieldColumn_plain {n u ty : Str} (hne : n ≠ []) (hb : ' ' ∉ n) (hh : ∀ c, n.head? = some c → c ∉ c!"\"'`") (hu : TypeAt u ty) :
    fieldColumn (n ++ ' ' :: u) = (convertType ty).bind (fun t => mkColumn (some n) (some t)) := by
  obtain ⟨c, n', rfl⟩ : ∃ c n', n = c :: n' := by
    cases n with
    | nil => exact absurd rfl hne
    | cons c n' => exact ⟨c, n', rfl⟩
  have hc := hh c rfl
  have hq : (c == '"' || c == '\'' || c == '`') = false := by
    simp only [List.mem_cons, List.not_mem_nil, or_false, not_or] at hc
    simp [hc.1, hc.2.1, hc.2.2]
  have hname : pySlice (c :: n' ++ ' ' :: u) 0 (pyFind c!" " (c :: n' ++ ' ' :: u)) = c :: n' := by
    rw [pyFind_char hb, pySlice_zero]
    simp
  have hd := dataType_eq (pre := c :: n' ++ [' ']) (start := (c :: n').length + 1) (by simp) (by omega) hu
  rw [show c :: n' ++ [' '] ++ u = c :: n' ++ ' ' :: u from by simp] at hd
  unfold fieldColumn
  simp only [List.cons_append] at hname hd ⊢
  simp only [hq, hname, hd, Bool.false_eq_true, if_false]
  cases convertType ty <;> rfl

/-- A list of fields that are columns. -/
theorem foldlM_columns {t : Table} : ∀ {fs : List Str} {cs acc : List Column},
    List.Forall₂ (fun f c => hasSub c!"key " (lower f) = false ∧ fieldColumn f = .ok c) fs cs →
    fs.foldlM addField (t, acc) = .ok (t, acc ++ cs)
  | _, _, acc, .nil => by simp; rfl
  | f :: fs, c :: cs, acc, .cons h hs => by
    have e : addField (t, acc) f = .ok (t, acc ++ [c]) := by
      unfold addField
      simp [h.1, h.2]
    rw [List.foldlM_cons, e]
    have := foldlM_columns (t := t) (acc := acc ++ [c]) hs
    simpa [bind, Except.bind] using this

theorem addColumns_cols : ∀ (cs : List Column) (t : Table), (t.cols.keys ++ cs.map (·.name)).Nodup →
    t.addColumns cs = { t with cols := t.cols ++ cs.map (fun c => (c.name, c)) }
  | [], t, _ => by simp [Table.addColumns]
  | c :: cs, t, h => by
    have hc : c.name ∉ t.cols.keys := by
      intro hc
      rw [List.nodup_append] at h
      exact h.2.2 _ hc _ (by simp) rfl
    have e : t.addColumn c = { t with cols := t.cols ++ [(c.name, c)] } := by
      unfold Table.addColumn
      rw [Dict.set_of_not_mem _ hc]
    have := addColumns_cols cs (t.addColumn c) (by
      rw [e]
      simpa [Dict.keys, List.append_assoc] using h)
    unfold Table.addColumns at this ⊢
    rw [List.foldl_cons, this, e]
    simp

end Verif
