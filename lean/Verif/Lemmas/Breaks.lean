import Verif.Spec.Breaks
import Verif.Lemmas.NamesRead
import Verif.Lemmas.Config
import Verif.Props.Types
/-
Which statements make the parser raise.
-/

namespace Verif
open Spec

/-! ## Cutting the list -/

theorem piece_flat {s : Str} (h : FieldPiece s) : Flat s := by
  induction h with
  | nil => exact .nil
  | char h1 h2 _ ih => exact .char h1 h2 ih
  | group h1 _ ih => exact .paren h1 ih

theorem rawFieldsGo_unclosed {g : Str} (h : ')' ∉ g) : ∀ cur : Str, cur ≠ [] → rawFieldsGo true cur g = [strip (cur ++ g)] := by
  induction g with
  | nil => intro cur hc; simp [rawFieldsGo, hc]
  | cons x g ih =>
    intro cur hc
    simp only [List.mem_cons, not_or] at h
    simp only [rawFieldsGo]
    rw [show decide (x ≠ ')') = true from decide_eq_true (Ne.symm h.1), ih h.2 _ (by simp)]
    simp

theorem rawFieldsGo_cut {s : Str} {l : List Str} (h : FieldCut s l) : rawFieldsGo false [] s = l.map strip := by
  induction h with
  | nothing => rfl
  | @last s h1 h2 =>
    have := rawFieldsGo_flat (piece_flat h1) (cur := []) (t := [])
    rw [List.append_nil] at this
    rw [this]
    simp [rawFieldsGo, h2]
  | @unclosed s g h1 h2 =>
    rw [rawFieldsGo_flat (piece_flat h1)]
    simp only [rawFieldsGo, if_true]
    rw [rawFieldsGo_unclosed h2 _ (by simp)]
    simp
  | @more s r l h1 _ ih =>
    rw [rawFieldsGo_flat (piece_flat h1)]
    simp [rawFieldsGo, ih]

theorem Spec.FieldPiece.append {a b : Str} (ha : FieldPiece a) (hb : FieldPiece b) : FieldPiece (a ++ b) := by
  induction ha with
  | nil => exact hb
  | char h1 h2 _ ih => exact .char h1 h2 ih
  | group h1 _ ih =>
    rw [List.append_assoc]
    exact .group h1 ih

theorem cut_prepend {p s : Str} {l : List Str} (hp : FieldPiece p) (hne : p ≠ []) (h : FieldCut s l) : ∃ l', FieldCut (p ++ s) l' := by
  cases h with
  | nothing => exact ⟨[p], by rw [List.append_nil]; exact .last hp hne⟩
  | last h1 h2 => exact ⟨_, .last (hp.append h1) (by simp [hne])⟩
  | unclosed h1 h2 =>
    rw [← List.append_assoc]
    exact ⟨_, .unclosed (hp.append h1) h2⟩
  | more h1 h2 =>
    rw [← List.append_assoc]
    exact ⟨_, .more (hp.append h1) h2⟩

theorem cut_exists : ∀ (n : Nat) (s : Str), s.length ≤ n → ∃ l, FieldCut s l
  | _, [], _ => ⟨[], .nothing⟩
  | 0, c :: t, h => by simp at h
  | n + 1, c :: t, h => by
    simp only [List.length_cons] at h
    by_cases h1 : c = '('
    · subst h1
      by_cases hm : ')' ∈ t
      · obtain ⟨g, u, rfl, hg⟩ := split_first hm
        simp only [List.length_append, List.length_cons] at h
        obtain ⟨l, hl⟩ := cut_exists n u (by omega)
        obtain ⟨l', h'⟩ := cut_prepend (p := '(' :: g ++ ')' :: []) (.group hg .nil) (by simp) hl
        exact ⟨l', by simpa using h'⟩
      · exact ⟨_, .unclosed (s := []) .nil hm⟩
    · obtain ⟨l, hl⟩ := cut_exists n t (by omega)
      by_cases h2 : c = ','
      · subst h2
        exact ⟨_, .more (s := []) .nil hl⟩
      · exact cut_prepend (p := [c]) (.char h1 h2 .nil) (by simp) hl

/-! ## Finding the list -/

theorem opening_slice {t a : Str} (h : Opening t a) : pyFind c!"(" t + 1 = (a.length : Int) ∧ a <+: t := by
  rcases h with ⟨x, rfl, hx, u, rfl⟩ | ⟨h1, rfl⟩
  · refine ⟨?_, u, rfl⟩
    rw [List.append_assoc, List.singleton_append, pyFind_char hx]
    simp
  · exact ⟨by rw [pyFind_char_none h1]; rfl, List.nil_prefix⟩

theorem pyRfind_char_none {c : Char} {s : Str} (h : c ∉ s) : pyRfind [c] s = -1 := by
  simp [pyRfind, rfindIdx_char_none h]

theorem closing_slice {t b : Str} (h : Closing t b) : sliceBound t.length (pyRfind c!")" t) = t.length - b.length ∧ b <:+ t := by
  rcases h with ⟨x, rfl, hx, u, rfl⟩ | ⟨h1, h2, h3⟩
  · refine ⟨?_, u, rfl⟩
    rw [pyRfind_char hx, sliceBound_nat]
    simp
  · refine ⟨?_, h2⟩
    rw [pyRfind_char_none h1, h3]
    unfold sliceBound
    rw [if_pos (by decide)]
    omega

theorem inner_slice {t x : Str} (h : Inner t x) : pySlice t (pyFind c!"(" t + 1) (pyRfind c!")" t) = x := by
  obtain ⟨a, b, ha, hb, h⟩ := h
  obtain ⟨e1, p1⟩ := opening_slice ha
  obtain ⟨e2, p2⟩ := closing_slice hb
  have l1 := p1.length_le
  have l2 := p2.length_le
  unfold pySlice
  rw [e1, e2, sliceBound_nat, Nat.min_eq_left l1]
  rcases h with h | ⟨h, rfl⟩
  · subst h
    rw [show (a ++ x ++ b).length - b.length = (a ++ x).length from by simp; omega, List.take_left, List.drop_left]
  · apply List.drop_of_length_le
    rw [List.length_take]
    omega

theorem opening_exists (t : Str) : ∃ a, Opening t a := by
  by_cases h : '(' ∈ t
  · obtain ⟨x, u, rfl, hx⟩ := split_first h
    exact ⟨x ++ ['('], .inl ⟨x, rfl, hx, u, by simp⟩⟩
  · exact ⟨[], .inr ⟨h, rfl⟩⟩

theorem closing_exists {t : Str} (hne : t ≠ []) : ∃ b, Closing t b := by
  by_cases h : ')' ∈ t
  · obtain ⟨u, x, rfl, hx⟩ := split_last h
    exact ⟨')' :: x, .inl ⟨x, rfl, hx, u, rfl⟩⟩
  · exact ⟨[t.getLast hne], .inr ⟨h, ⟨t.dropLast, List.dropLast_append_getLast hne⟩, rfl⟩⟩

theorem inner_exists {t : Str} (hne : t ≠ []) : ∃ x, Inner t x := by
  obtain ⟨a, ha⟩ := opening_exists t
  obtain ⟨b, hb⟩ := closing_exists hne
  by_cases h : t.length < a.length + b.length
  · exact ⟨[], a, b, ha, hb, .inr ⟨h, rfl⟩⟩
  · obtain ⟨u, hu⟩ := (opening_slice ha).2
    obtain ⟨v, hv⟩ := (closing_slice hb).2
    refine ⟨v.drop a.length, a, b, ha, hb, .inl ?_⟩
    have hl : a.length ≤ v.length := by
      have := congrArg List.length hv
      simp only [List.length_append] at this
      omega
    have : v.take a.length = a := by
      have h1 : t.take a.length = a := by rw [← hu, List.take_left]
      rw [← hv, List.take_append_of_le_length hl] at h1
      exact h1
    calc t = v ++ b := hv.symm
      _ = (v.take a.length ++ v.drop a.length) ++ b := by rw [List.take_append_drop]
      _ = a ++ v.drop a.length ++ b := by rw [this]

theorem forall₂_padded {l m : List Str} : List.Forall₂ Padded l m ↔ m = l.map strip := by
  constructor
  · intro h
    induction h with
    | nil => rfl
    | cons h _ ih => rw [padded_iff.1 h, ih]; rfl
  · rintro rfl
    rw [List.forall₂_map_right_iff]
    exact List.forall₂_same.2 (fun x _ => padded_iff.2 rfl)

/-- The fields the parser finds are those of the specification. -/
theorem fieldsOf_iff {t : Str} (hne : t ≠ []) {l : List Str} : FieldsOf t l ↔ rawFields t = l := by
  have fwd : ∀ {l}, FieldsOf t l → rawFields t = l := by
    rintro l ⟨x, y, parts, hi, hp, hc, hl⟩
    unfold rawFields
    rw [inner_slice hi, ← padded_iff.1 hp, rawFieldsGo_cut hc, forall₂_padded.1 hl]
  refine ⟨fwd, fun h => ?_⟩
  obtain ⟨x, hx⟩ := inner_exists hne
  obtain ⟨parts, hc⟩ := cut_exists _ (strip x) le_rfl
  have hf : FieldsOf t (parts.map strip) := ⟨x, _, parts, hx, padded_iff.2 rfl, hc, forall₂_padded.2 rfl⟩
  rw [← h, fwd hf]
  exact hf

/-! ## One field -/

theorem first_at {c : Char} : ∀ {a a' b b' : Str}, c ∉ a → c ∉ a' → a ++ c :: b = a' ++ c :: b' → a = a' ∧ b = b'
  | [], [], _, _, _, _, e => ⟨rfl, by simpa using e⟩
  | [], x :: a', _, _, _, h', e => by
    simp only [List.nil_append, List.cons_append, List.cons.injEq] at e
    exact absurd (by simp [e.1]) h'
  | x :: a, [], _, _, h, _, e => by
    simp only [List.nil_append, List.cons_append, List.cons.injEq] at e
    exact absurd (by simp [e.1]) h
  | x :: a, y :: a', _, _, h, h', e => by
    simp only [List.cons_append, List.cons.injEq] at e
    obtain ⟨h1, h2⟩ := first_at (fun hm => h (by simp [hm])) (fun hm => h' (by simp [hm])) e.2
    exact ⟨by rw [e.1, h1], h2⟩

theorem malformed_close {d : Str} (h : MalformedNumber d) : ')' ∈ d := by
  obtain ⟨w, args, hh, _⟩ := h
  generalize hx : w ++ args ++ [')'] = x at hh
  cases hh with
  | paren a b _ => simp
  | blank a b _ _ =>
    have := List.append_inj_right' hx rfl
    simp at this
  | whole d h1 _ =>
    subst hx
    simp

theorem mem_pySlice {s : Str} {n : Nat} {j : Int} {c : Char} (h : c ∈ pySlice s (n : Int) j) : c ∈ s.drop n := by
  unfold pySlice at h
  rw [sliceBound_nat] at h
  rw [List.drop_take] at h
  have := List.mem_of_mem_take h
  by_cases hn : n ≤ s.length
  · rwa [Nat.min_eq_left hn] at this
  · rw [Nat.min_eq_right (by omega)] at this
    simp at this

theorem convertType_error {d : Str} {e : PyErr} : convertType d = .error e ↔ e = .value ∧ MalformedNumber d := by
  constructor
  · intro h
    rcases Props.C29_type_is_valid d [] with ⟨ty, h1, _⟩ | h1
    · rw [h] at h1; cases h1
    · rw [h] at h1
      cases h1
      exact ⟨rfl, (Props.C29_raises_exactly d).1 h⟩
  · rintro ⟨rfl, h⟩
    exact (Props.C29_raises_exactly d).2 h

/-- The type of a field, as taken from its text. -/
def dataTypeFrom (rf : Str) (start : Nat) : Str :=
  if pyFindFrom c!")" (lower rf) start > 0 then pySlice rf start (pyFindFrom c!")" (lower rf) start + 1)
  else pySlice rf start (typeEnd rf start)

theorem dataType_malformed {rf : Str} {start : Nat} (hpos : 0 < start) : MalformedNumber (dataTypeFrom rf start) ↔
    ∃ a b, rf.drop start = a ++ ')' :: b ∧ ')' ∉ a ∧ MalformedNumber (a ++ [')']) := by
  by_cases hm : ')' ∈ rf.drop start
  · obtain ⟨a, b, e, ha⟩ := split_first hm
    have hlen : start ≤ rf.length := by
      by_contra hlt
      rw [List.drop_of_length_le (by omega)] at hm
      simp at hm
    have hd : dataTypeFrom rf start = a ++ [')'] := by
      have := dataType_eq (pre := rf.take start) (u := a ++ ')' :: b) (start := start) (by simp [hlen]) hpos (.paren ha)
      rw [← e, List.take_append_drop] at this
      exact this
    rw [hd]
    constructor
    · intro h
      exact ⟨a, b, e, ha, h⟩
    · rintro ⟨a', b', e', ha', h⟩
      obtain ⟨rfl, _⟩ := first_at ha ha' (e ▸ e')
      exact h
  · constructor
    · intro h
      exfalso
      apply hm
      have := malformed_close h
      unfold dataTypeFrom at this
      split_ifs at this <;> exact mem_pySlice this
    · rintro ⟨a, b, e, _, _⟩
      rw [e] at hm
      simp at hm

/-- The place in a field where its type begins. -/
def typeStart (rf : Str) : Nat :=
  match rf with
  | [] => 0
  | c :: _ =>
    let hadQuote : Bool := c == '"' || c == '\'' || c == '`'
    let name := if hadQuote then pySlice rf 1 (pyFindFrom [c] rf 1) else pySlice rf 0 (pyFind c!" " rf)
    name.length + (if hadQuote then 3 else 1)

theorem fieldColumn_error {rf : Str} (hne : rf ≠ []) {e : PyErr} : fieldColumn rf = .error e ↔ e = .value ∧ MalformedNumber (dataTypeFrom rf (typeStart rf)) := by
  cases rf with
  | nil => exact absurd rfl hne
  | cons c t =>
    rw [← convertType_error]
    have hd : fieldColumn (c :: t) = match convertType (dataTypeFrom (c :: t) (typeStart (c :: t))) with
      | .error e => .error e
      | .ok ty => mkColumn (some (if (c == '"' || c == '\'' || c == '`') = true then pySlice (c :: t) 1 (pyFindFrom [c] (c :: t) 1)
          else pySlice (c :: t) 0 (pyFind c!" " (c :: t)))) (some ty) := rfl
    rw [hd]
    cases hc : convertType (dataTypeFrom (c :: t) (typeStart (c :: t))) with
    | error e' => simp
    | ok ty => simp [mkColumn_converted hc]

theorem isQuote_iff {c : Char} : (c == '"' || c == '\'' || c == '`') = true ↔ c ∈ c!"\"'`" := by
  simp [or_assoc]

theorem typePart_iff {rf u : Str} (hu : u ≠ []) : TypePart rf u ↔ rf ≠ [] ∧ rf.drop (typeStart rf) = u := by
  cases rf with
  | nil =>
    refine ⟨fun h => ?_, fun h => absurd rfl h.1⟩
    generalize hx : ([] : Str) = x at h
    cases h <;> simp at hx
  | cons c t =>
    have hnn : ((c :: t : Str) ≠ []) := by simp
    by_cases hq : c ∈ c!"\"'`"
    · have hq' := isQuote_iff.2 hq
      by_cases hm : c ∈ t
      · obtain ⟨n, v, rfl, hn⟩ := split_first hm
        have hname : pySlice (c :: (n ++ c :: v)) 1 (pyFindFrom [c] (c :: (n ++ c :: v)) 1) = n := by
          rw [show c :: (n ++ c :: v) = [c] ++ (n ++ c :: v) from rfl, pyFindFrom_char (pre := [c]) (start := 1) rfl hn]
          have := pySlice_nat ([c] ++ (n ++ c :: v)) 1 (1 + n.length)
          rw [show ((1 : Nat) : Int) = 1 from rfl] at this
          rw [this, show 1 + n.length = n.length + 1 from by omega]
          simp
        have hs : typeStart (c :: (n ++ c :: v)) = n.length + 3 := by
          unfold typeStart
          dsimp only
          rw [if_pos hq', if_pos hq', hname]
        have hd : (c :: (n ++ c :: v)).drop (n.length + 3) = v.drop 1 := by
          rw [show c :: (n ++ c :: v) = (c :: n ++ [c]) ++ v from by simp, List.drop_append, List.drop_of_length_le (by simp)]
          simp
        rw [hs, hd]
        constructor
        · intro h
          refine ⟨hnn, ?_⟩
          generalize hx : c :: (n ++ c :: v) = x at h
          cases h with
          | @plain n' r h1 h2 =>
            exfalso
            cases n' with
            | nil =>
              simp only [List.nil_append, List.cons.injEq] at hx
              rw [hx.1] at hq
              revert hq
              decide
            | cons y n' =>
              simp only [List.cons_append, List.cons.injEq] at hx
              exact h1 y rfl (hx.1 ▸ hq)
          | @quoted q n' d r h1 h2 =>
            simp only [List.cons_append, List.cons.injEq] at hx
            obtain ⟨rfl, hx⟩ := hx
            obtain ⟨_, rfl⟩ := first_at hn h2 hx
            rfl
        · rintro ⟨_, h⟩
          cases v with
          | nil => exact absurd h.symm hu
          | cons d r =>
            simp only [List.drop_one, List.tail_cons] at h
            subst h
            exact .quoted hq hn
      · have hs : (c :: t).length ≤ typeStart (c :: t) := by
          unfold typeStart
          dsimp only
          rw [if_pos hq', if_pos hq', show pyFindFrom [c] (c :: t) 1 = -1 from pyFindFrom_none (pre := [c]) (u := t) rfl hm]
          simp only [pySlice, sliceBound, List.length_drop, List.length_take, List.length_cons]
          rw [if_pos (by decide), if_neg (by decide)]
          simp only [Int.toNat_one]
          omega
        rw [List.drop_of_length_le hs]
        constructor
        · intro h
          exfalso
          generalize hx : c :: t = x at h
          cases h with
          | @plain n' r h1 h2 =>
            cases n' with
            | nil =>
              simp only [List.nil_append, List.cons.injEq] at hx
              rw [hx.1] at hq
              revert hq
              decide
            | cons y n' =>
              simp only [List.cons_append, List.cons.injEq] at hx
              exact h1 y rfl (hx.1 ▸ hq)
          | @quoted q n' d r h1 h2 =>
            simp only [List.cons_append, List.cons.injEq] at hx
            apply hm
            rw [hx.2, hx.1]
            simp
        · rintro ⟨_, h⟩
          exact absurd h.symm hu
    · have hq' : ¬ (c == '"' || c == '\'' || c == '`') = true := fun h => hq (isQuote_iff.1 h)
      by_cases hm : ' ' ∈ c :: t
      · obtain ⟨n, r, e, hn⟩ := split_first hm
        have hname : pySlice (c :: t) 0 (pyFind c!" " (c :: t)) = n := by
          rw [e, pyFind_char hn, pySlice_zero]
          simp
        have hs : typeStart (c :: t) = n.length + 1 := by
          unfold typeStart
          dsimp only
          rw [if_neg hq', if_neg hq', hname]
        have hd : (c :: t).drop (n.length + 1) = r := by
          rw [e, show n ++ ' ' :: r = (n ++ [' ']) ++ r from by simp]
          exact List.drop_left' (by simp)
        rw [hs, hd]
        constructor
        · intro h
          refine ⟨hnn, ?_⟩
          rw [e] at h
          generalize hx : n ++ ' ' :: r = x at h
          cases h with
          | plain h1 h2 => exact (first_at hn h2 hx).2
          | quoted h1 h2 =>
            exfalso
            rw [← e] at hx
            simp only [List.cons_append, List.cons.injEq] at hx
            exact hq (hx.1 ▸ h1)
        · rintro ⟨_, rfl⟩
          rw [e]
          refine .plain (fun d hd hm => ?_) hn
          cases n with
          | nil => cases hd
          | cons y n =>
            simp only [List.head?_cons, Option.some.injEq] at hd
            simp only [List.cons_append, List.cons.injEq] at e
            rw [← hd, ← e.1] at hm
            exact hq hm
      · have hs : (c :: t).length ≤ typeStart (c :: t) := by
          unfold typeStart
          dsimp only
          rw [if_neg hq', if_neg hq', show pyFind c!" " (c :: t) = -1 from pyFind_char_none hm]
          simp only [pySlice, sliceBound, List.length_drop, List.length_take, List.length_cons]
          rw [if_pos (by decide), if_neg (by decide)]
          simp only [Int.toNat_zero]
          omega
        rw [List.drop_of_length_le hs]
        constructor
        · intro h
          exfalso
          generalize hx : c :: t = x at h
          cases h with
          | plain h1 h2 =>
            apply hm
            rw [hx]
            simp
          | quoted h1 h2 =>
            simp only [List.cons_append, List.cons.injEq] at hx
            exact hq (hx.1 ▸ h1)
        · rintro ⟨_, h⟩
          exact absurd h.symm hu

theorem typeStart_pos {rf : Str} (hne : rf ≠ []) : 0 < typeStart rf := by
  cases rf with
  | nil => exact absurd rfl hne
  | cons c t =>
    unfold typeStart
    dsimp only
    split_ifs <;> omega

/-- One field raises exactly if the specification says so. -/
theorem addField_error {acc : Table × List Column} {f : Str} {e : PyErr} : addField acc f = .error e ↔ FieldFault f e := by
  cases f with
  | nil =>
    have : addField acc [] = .error .index := rfl
    rw [this]
    constructor
    · intro h; cases h; exact .empty
    · intro h
      generalize hx : ([] : Str) = x at h
      cases h with
      | empty => rfl
      | number h1 h2 h3 h4 =>
        subst hx
        exact absurd rfl ((typePart_iff (by simp)).1 h2).1
  | cons c t =>
    have hne : (c :: t : Str) ≠ [] := by simp
    by_cases hk : hasSub c!"key " (lower (c :: t)) = true
    · have : ∃ a, addField acc (c :: t) = .ok a := by
        unfold addField
        dsimp only
        rw [if_pos hk]
        split_ifs <;> exact ⟨_, rfl⟩
      obtain ⟨a, ha⟩ := this
      rw [ha]
      refine ⟨fun h => (by cases h), fun h => ?_⟩
      generalize hx : c :: t = x at h
      cases h with
      | empty => cases hx
      | number h1 h2 h3 h4 =>
        rw [hasSub_iff, ← small_lower, hx] at hk
        exact absurd hk h1
    · have he : addField acc (c :: t) = .error e ↔ fieldColumn (c :: t) = .error e := by
        unfold addField
        dsimp only
        rw [if_neg hk]
        cases fieldColumn (c :: t) <;> simp
      rw [he, fieldColumn_error hne, dataType_malformed (typeStart_pos hne)]
      constructor
      · rintro ⟨rfl, a, b, e, ha, hm⟩
        refine .number ?_ ((typePart_iff (by simp)).2 ⟨hne, e⟩) ha hm
        rw [small_lower, ← hasSub_iff]
        exact hk
      · intro h
        generalize hx : c :: t = x at h
        cases h with
        | empty => cases hx
        | number h1 h2 h3 h4 => exact ⟨rfl, _, _, ((typePart_iff (by simp)).1 h2).2, h3, h4⟩

/-! ## Folds that stop at the first exception -/

theorem foldlM_error {A B : Type} {f : A → B → Except PyErr A} {F : B → PyErr → Prop} (hf : ∀ a b e, f a b = .error e ↔ F b e) :
    ∀ (l : List B) (a : A) (e : PyErr), l.foldlM f a = .error e ↔ ∃ pre b post, l = pre ++ b :: post ∧ (∀ b' ∈ pre, ∀ e', ¬ F b' e') ∧ F b e
  | [], a, e => by
    constructor
    · intro h; cases h
    · rintro ⟨pre, b, post, h, _⟩
      simp at h
  | x :: l, a, e => by
    rw [List.foldlM_cons]
    cases hx : f a x with
    | error e1 =>
      have hF := (hf a x e1).1 hx
      constructor
      · intro h
        cases h
        exact ⟨[], x, l, rfl, by simp, hF⟩
      · rintro ⟨pre, b, post, h, h1, h2⟩
        cases pre with
        | nil =>
          simp only [List.nil_append, List.cons.injEq] at h
          rw [← h.1] at h2
          have := (hf a x e).2 h2
          rw [hx] at this
          cases this
          rfl
        | cons y pre =>
          simp only [List.cons_append, List.cons.injEq] at h
          exact absurd hF (h.1 ▸ h1 y (by simp) e1)
    | ok a' =>
      have hn : ∀ e', ¬ F x e' := fun e' h => by
        have := (hf a x e').2 h
        rw [hx] at this
        cases this
      have ih := foldlM_error hf l a' e
      refine Iff.trans ?_ (ih.trans ?_)
      · rfl
      · constructor
        · rintro ⟨pre, b, post, rfl, h1, h2⟩
          refine ⟨x :: pre, b, post, rfl, ?_, h2⟩
          intro b' hb'
          rcases List.mem_cons.1 hb' with rfl | hb'
          · exact hn
          · exact h1 b' hb'
        · rintro ⟨pre, b, post, h, h1, h2⟩
          cases pre with
          | nil =>
            simp only [List.nil_append, List.cons.injEq] at h
            exact absurd h2 (h.1 ▸ hn e)
          | cons y pre =>
            simp only [List.cons_append, List.cons.injEq] at h
            exact ⟨pre, b, post, h.2, fun b' hb' => h1 b' (by simp [hb']), h2⟩

/-! ## Statements -/

theorem asQuotes_ub (s : Str) : asQuotes s = s.map ub := by
  unfold asQuotes
  apply List.map_congr_left
  intro c _
  unfold ub
  rfl

theorem createsTable_iff {s : Str} : CreatesTable s ↔
    hasSub c!"create database" (lower s) = false ∧ (hasSub c!"create table" (lower s) || hasSub c!"create or replace table" (lower s)) = true := by
  unfold CreatesTable
  rw [small_lower, Bool.or_eq_true, hasSub_iff, hasSub_iff, ← Bool.not_eq_true, hasSub_iff]

theorem createsTable_ne {s : Str} (h : CreatesTable s) : asQuotes s ≠ [] := by
  intro hn
  rw [asQuotes, List.map_eq_nil_iff] at hn
  subst hn
  rcases h.2 with h | h <;> exact absurd h (by decide)

theorem parseStatement_error {schema : Str} {db : Database} {s : Str} {e : PyErr} : parseStatement schema db s = .error e ↔ Breaks s e := by
  by_cases hc : CreatesTable s
  · have hp : parseStatement schema db s = parseCreateTable schema db s := by
      obtain ⟨h1, h2⟩ := createsTable_iff.1 hc
      unfold parseStatement
      dsimp only
      rw [h1, if_neg (by decide), if_pos h2]
    have he : parseCreateTable schema db s = .error e ↔ (rawFields (asQuotes s)).foldlM addField
        ({ name := getTableName (asQuotes s), schema := schema, pk := [], shard := none, cols := [], fks := [], rels := [] }, []) = .error e := by
      unfold parseCreateTable addColumnsOf mkTable
      rw [unbracket, ← asQuotes_ub]
      dsimp only [bind, Except.bind]
      cases List.foldlM addField ({ name := getTableName (asQuotes s), schema := schema, pk := [], shard := none, cols := [], fks := [], rels := [] }, [])
        (rawFields (asQuotes s)) <;> simp
    rw [hp, he, foldlM_error (F := FieldFault) (fun _ _ _ => addField_error)]
    unfold Breaks
    constructor
    · rintro ⟨pre, f, post, h1, h2, h3⟩
      exact ⟨hc, pre, f, post, (fieldsOf_iff (createsTable_ne hc)).2 h1, h2, h3⟩
    · rintro ⟨_, pre, f, post, h1, h2, h3⟩
      exact ⟨pre, f, post, (fieldsOf_iff (createsTable_ne hc)).1 h1, h2, h3⟩
  · refine ⟨fun h => ?_, fun h => absurd h.1 hc⟩
    exfalso
    unfold parseStatement at h
    dsimp only at h
    by_cases h1 : hasSub c!"create database" (lower s) = true
    · rw [if_pos h1] at h; cases h
    · rw [if_neg h1] at h
      rw [if_neg (fun h2 => hc (createsTable_iff.2 ⟨by simpa using h1, h2⟩))] at h
      split_ifs at h

theorem parseStatements_error {schema : Str} : ∀ (l : List Str) (db : Database) (e : PyErr), (parseStatements schema db l).2 = some e ↔
    ∃ pre s post, l = pre ++ s :: post ∧ (∀ s' ∈ pre, ∀ e', ¬ Breaks s' e') ∧ Breaks s e
  | [], db, e => by
    constructor
    · intro h; cases h
    · rintro ⟨pre, b, post, h, _⟩
      simp at h
  | x :: l, db, e => by
    unfold parseStatements
    cases hx : parseStatement schema db x with
    | error e1 =>
      have hF := parseStatement_error.1 hx
      constructor
      · intro h
        cases h
        exact ⟨[], x, l, rfl, by simp, hF⟩
      · rintro ⟨pre, b, post, h, h1, h2⟩
        cases pre with
        | nil =>
          simp only [List.nil_append, List.cons.injEq] at h
          rw [← h.1] at h2
          have := (parseStatement_error (schema := schema) (db := db)).2 h2
          rw [hx] at this
          cases this
          rfl
        | cons y pre =>
          simp only [List.cons_append, List.cons.injEq] at h
          exact absurd hF (h.1 ▸ h1 y (by simp) e1)
    | ok db' =>
      have hn : ∀ e', ¬ Breaks x e' := fun e' h => by
        have := (parseStatement_error (schema := schema) (db := db)).2 h
        rw [hx] at this
        cases this
      refine (parseStatements_error l db' e).trans ?_
      constructor
      · rintro ⟨pre, b, post, rfl, h1, h2⟩
        refine ⟨x :: pre, b, post, rfl, ?_, h2⟩
        intro b' hb'
        rcases List.mem_cons.1 hb' with rfl | hb'
        · exact hn
        · exact h1 b' hb'
      · rintro ⟨pre, b, post, h, h1, h2⟩
        cases pre with
        | nil =>
          simp only [List.nil_append, List.cons.injEq] at h
          exact absurd h2 (h.1 ▸ hn e)
        | cons y pre =>
          simp only [List.cons_append, List.cons.injEq] at h
          exact ⟨pre, b, post, h.2, fun b' hb' => h1 b' (by simp [hb']), h2⟩

end Verif
