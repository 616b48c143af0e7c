import Verif.Lemmas.ReadingTypes
import Verif.Lemmas.Breaks
import Verif.Lemmas.NamesRead
/-
What CREATE TABLE statements create, whatever their text is.
-/

namespace Verif
open Spec

/-! ## Columns -/

/-- The name of a column. -/
def fieldName (rf : Str) : Str :=
  match rf with
  | [] => []
  | c :: _ =>
    let hadQuote : Bool := c == '"' || c == '\'' || c == '`'
    if hadQuote then pySlice rf 1 (pyFindFrom [c] rf 1) else pySlice rf 0 (pyFind c!" " rf)

theorem fieldColumn_eq {rf : Str} (hne : rf ≠ []) : fieldColumn rf = match convertType (dataTypeFrom rf (typeStart rf)) with
    | .error e => .error e
    | .ok ty => mkColumn (some (fieldName rf)) (some ty) := by
  cases rf with
  | nil => exact absurd rfl hne
  | cons c t => rfl

theorem typeStart_eq (c : Char) (t : Str) : typeStart (c :: t) = (fieldName (c :: t)).length + (if c ∈ c!"\"'`" then 3 else 1) := by
  unfold typeStart fieldName
  dsimp only
  by_cases h : c ∈ c!"\"'`"
  · rw [if_pos (isQuote_iff.2 h), if_pos h, if_pos (isQuote_iff.2 h)]
  · rw [if_neg (fun h' => h (isQuote_iff.1 h')), if_neg h, if_neg (fun h' => h (isQuote_iff.1 h'))]

theorem slice_last (s : Str) : pySlice s 0 (-1) = s.dropLast := by
  unfold pySlice sliceBound
  rw [if_neg (by decide), if_pos (by decide), show min (0 : Int).toNat s.length = 0 from by simp, List.drop_zero, List.dropLast_eq_take]
  congr 1
  omega

theorem nameAndRest_some {rf n r : Str} (h : NameAndRest rf n r) : rf ≠ [] ∧ fieldName rf = n ∧ rf.drop (typeStart rf) = r := by
  cases h with
  | @plain _ _ h1 h2 =>
    have hne : n ++ ' ' :: r ≠ [] := by simp
    cases hx : n ++ ' ' :: r with
    | nil => exact absurd hx hne
    | cons c t =>
      have hc : c ∉ c!"\"'`" := by
        cases n with
        | nil =>
          simp only [List.nil_append, List.cons.injEq] at hx
          rw [← hx.1]; decide
        | cons d n =>
          simp only [List.cons_append, List.cons.injEq] at hx
          rw [← hx.1]
          exact h1 d rfl
      have hf : fieldName (c :: t) = n := by
        unfold fieldName
        dsimp only
        rw [if_neg (fun h' => hc (isQuote_iff.1 h')), ← hx, pyFind_char h2, pySlice_zero, List.take_left]
      refine ⟨by simp, hf, ?_⟩
      rw [typeStart_eq, hf, if_neg hc, ← hx, show n ++ ' ' :: r = (n ++ [' ']) ++ r from by simp]
      exact List.drop_left' (by simp)
  | @plainEnd _ d h1 h2 =>
    cases hx : n ++ [d] with
    | nil => simp at hx
    | cons c t =>
      have hc : c ∉ c!"\"'`" := h1 c (by rw [hx]; rfl)
      have hf : fieldName (c :: t) = n := by
        unfold fieldName
        dsimp only
        rw [if_neg (fun h' => hc (isQuote_iff.1 h')), ← hx, pyFind_char_none h2, slice_last, List.dropLast_concat]
      refine ⟨by simp, hf, ?_⟩
      rw [typeStart_eq, hf, if_neg hc, ← hx]
      exact List.drop_of_length_le (by simp)
  | @quoted q _ v h1 h2 =>
    rw [List.cons_append]
    have hf : fieldName (q :: (n ++ q :: v)) = n := by
      unfold fieldName
      dsimp only
      rw [if_pos (isQuote_iff.2 h1), show q :: (n ++ q :: v) = [q] ++ (n ++ q :: v) from rfl, pyFindFrom_char (pre := [q]) (start := 1) rfl h2]
      have := pySlice_nat ([q] ++ (n ++ q :: v)) 1 (1 + n.length)
      rw [show ((1 : Nat) : Int) = 1 from rfl] at this
      rw [this, show 1 + n.length = n.length + 1 from by omega]
      simp
    refine ⟨by simp, hf, ?_⟩
    rw [typeStart_eq, hf, if_pos h1, show q :: (n ++ q :: v) = (q :: n ++ [q]) ++ v from by simp, List.drop_append, List.drop_of_length_le (by simp)]
    simp
  | @unclosed q m h1 h2 =>
    have hf : fieldName (q :: m) = m.dropLast := by
      unfold fieldName
      dsimp only
      rw [if_pos (isQuote_iff.2 h1), show pyFindFrom [q] (q :: m) 1 = -1 from pyFindFrom_none (pre := [q]) (u := m) rfl h2]
      unfold pySlice sliceBound
      rw [if_neg (by decide), if_pos (by decide)]
      simp only [List.length_cons]
      rw [List.dropLast_eq_take, show (-1 + ((m.length + 1 : Nat) : Int)).toNat = m.length from by omega,
        show min (1 : Int).toNat (m.length + 1) = 1 from by simp, List.drop_take]
      simp
    refine ⟨by simp, hf, ?_⟩
    rw [typeStart_eq, hf, if_pos h1]
    apply List.drop_of_length_le
    simp only [List.length_cons, List.length_dropLast]
    omega

theorem nameAndRest_total {rf : Str} (hne : rf ≠ []) : ∃ n r, NameAndRest rf n r := by
  cases rf with
  | nil => exact absurd rfl hne
  | cons c t =>
    by_cases hq : c ∈ c!"\"'`"
    · by_cases hm : c ∈ t
      · obtain ⟨n, v, rfl, hn⟩ := split_first hm
        exact ⟨n, v.drop 1, .quoted hq hn⟩
      · exact ⟨_, _, .unclosed hq hm⟩
    · have hh : ∀ {n : Str} {x : Str} {d : Char}, c :: t = n ++ d :: x → ∀ y, n.head? = some y → y ∉ c!"\"'`" := by
        intro n x d e y hy
        cases n with
        | nil => cases hy
        | cons z n =>
          simp only [List.head?_cons, Option.some.injEq] at hy
          simp only [List.cons_append, List.cons.injEq] at e
          rw [← hy, ← e.1]
          exact hq
      by_cases hm : ' ' ∈ c :: t
      · obtain ⟨n, r, e, hn⟩ := split_first hm
        rw [e]
        exact ⟨n, r, .plain (hh e) hn⟩
      · have e : (c :: t).dropLast ++ [(c :: t).getLast hne] = c :: t := List.dropLast_append_getLast hne
        refine ⟨(c :: t).dropLast, [], ?_⟩
        have := NameAndRest.plainEnd (n := (c :: t).dropLast) (c := (c :: t).getLast hne) (by
          rw [e]
          intro x hx
          simp only [List.head?_cons, Option.some.injEq] at hx
          rw [← hx]; exact hq) (by rw [e]; exact hm)
        rw [e] at this
        exact this

theorem nameAndRest_iff {rf n r : Str} : NameAndRest rf n r ↔ rf ≠ [] ∧ fieldName rf = n ∧ rf.drop (typeStart rf) = r := by
  refine ⟨nameAndRest_some, ?_⟩
  rintro ⟨hne, rfl, rfl⟩
  obtain ⟨n, r, h⟩ := nameAndRest_total hne
  obtain ⟨_, h1, h2⟩ := nameAndRest_some h
  rw [h1, h2]
  exact h

theorem typeAhead_total (r : Str) : ∃ d, TypeAhead r d := by
  by_cases h : ')' ∈ r
  · obtain ⟨a, b, rfl, ha⟩ := split_first h
    exact ⟨_, .sized ha⟩
  · have e := List.takeWhile_append_dropWhile (p := fun c => c != ' ' && c != ',') (l := r)
    refine ⟨r.takeWhile (fun c => c != ' ' && c != ','), ?_⟩
    conv => lhs; rw [← e]
    refine .word (by rw [e]; exact h) ?_ ?_ ?_
    · intro hm; simpa using takeWhile_all hm
    · intro hm; simpa using takeWhile_all hm
    · intro c hc
      have := List.head?_dropWhile_not (fun c => c != ' ' && c != ',') r
      rw [hc] at this
      by_cases h1 : c = ' '
      · exact .inl h1
      · right
        simpa [h1] using this

theorem mem_index {c : Char} {a b x y : Str} (e : a ++ b = x ++ c :: y) (h : c ∉ a) : a.length ≤ x.length := by
  by_contra hlt
  apply h
  have hi : (a ++ b)[x.length]? = some c := by rw [e]; simp
  rw [List.getElem?_append_left (by omega)] at hi
  exact List.mem_of_getElem? hi

theorem typeAhead_some {rf : Str} {start : Nat} (hpos : 0 < start) {d : Str} (h : TypeAhead (rf.drop start) d) : dataTypeFrom rf start = d := by
  by_cases hlen : start ≤ rf.length
  · generalize hr : rf.drop start = r at h
    have e : rf = rf.take start ++ r := by rw [← hr, List.take_append_drop]
    have hs : start = (rf.take start).length := by simp [hlen]
    generalize rf.take start = pre at e hs
    subst e
    have hl : start = (lower pre).length := by rw [length_lower]; exact hs
    have lp : ∀ {s : Str}, ')' ∉ s → ')' ∉ lower s := fun h h' => h ((mem_lower_special (by decide) (by decide)).1 h')
    cases h with
    | sized ha => exact dataType_eq hs hpos (.paren ha)
    | @word _ b h1 h2 h3 h4 =>
      unfold dataTypeFrom
      rw [show pyFindFrom c!")" (lower (pre ++ (d ++ b))) start = -1 by rw [lower_append]; exact pyFindFrom_none hl (lp h1), if_neg (by decide)]
      have slice : pySlice (pre ++ (d ++ b)) (start : Int) ((start + d.length : Nat) : Int) = d := by
        rw [pySlice_nat, hs, List.take_append, List.take_of_length_le (by omega), Nat.add_sub_cancel_left, List.drop_left, List.take_left]
      have hend : typeEnd (pre ++ (d ++ b)) start = ((start + d.length : Nat) : Int) := by
        have far : ∀ {c : Char}, c ∉ d → c ∈ b → ∃ k : Nat, d.length ≤ k ∧ pyFindFrom [c] (pre ++ (d ++ b)) start = ((start + k : Nat) : Int) := by
          intro c hc hb
          obtain ⟨x, y, e, hx⟩ := split_first (s := d ++ b) (c := c) (by simp [hb])
          rw [e, pyFindFrom_char hs hx]
          exact ⟨x.length, mem_index e hc, rfl⟩
        cases b with
        | nil =>
          unfold typeEnd
          rw [pyFindFrom_none hs (by simpa using h2), pyFindFrom_none hs (by simpa using h3)]
          simp [hs]
        | cons c b =>
          rcases h4 c rfl with rfl | rfl
          · have e1 : pyFindFrom c!" " (pre ++ (d ++ ' ' :: b)) start = ((start + d.length : Nat) : Int) := pyFindFrom_char hs h2
            unfold typeEnd
            rw [e1, if_neg (by omega)]
            by_cases hb : ',' ∈ ' ' :: b
            · obtain ⟨k, hk, e2⟩ := far h3 hb
              rw [e2, if_neg (by omega), Int.min_eq_left (by omega)]
            · rw [pyFindFrom_none hs (by simp only [List.mem_append, not_or]; exact ⟨h3, hb⟩), if_pos rfl]
          · have e1 : pyFindFrom c!"," (pre ++ (d ++ ',' :: b)) start = ((start + d.length : Nat) : Int) := pyFindFrom_char hs h3
            unfold typeEnd
            rw [e1]
            by_cases hb : ' ' ∈ ',' :: b
            · obtain ⟨k, hk, e2⟩ := far h2 hb
              rw [e2, if_neg (by omega), if_neg (by omega), Int.min_eq_right (by omega)]
            · rw [pyFindFrom_none hs (by simp only [List.mem_append, not_or]; exact ⟨h2, hb⟩), if_pos rfl, if_neg (by omega)]
      rw [hend, slice]
  · rw [List.drop_of_length_le (by omega)] at h
    have hd : d = [] := by
      generalize hx : ([] : Str) = x at h
      cases h with
      | sized => simp at hx
      | word => exact (List.append_eq_nil_iff.1 hx.symm).1.trans hx
    subst hd
    unfold dataTypeFrom
    have : ∀ j, pySlice rf (start : Int) j = [] := by
      intro j
      unfold pySlice
      rw [sliceBound_nat]
      apply List.drop_of_length_le
      rw [List.length_take]
      omega
    rw [this, this]
    simp

theorem typeAhead_iff {rf : Str} {start : Nat} (hpos : 0 < start) {d : Str} : TypeAhead (rf.drop start) d ↔ dataTypeFrom rf start = d := by
  refine ⟨typeAhead_some hpos, ?_⟩
  rintro rfl
  obtain ⟨d, h⟩ := typeAhead_total (rf.drop start)
  rw [typeAhead_some hpos h]
  exact h

/-! ## Keys -/

theorem inParens_some {rf x : Str} (h : InParens rf x) : (partitionS c!")" (partitionS c!"(" rf).2.2).1 = x := by
  have absent : ∀ {c : Char} {s : Str}, c ∉ s → partitionS [c] s = (s, false, []) := by
    intro c s hc
    apply partitionS_absent
    rintro ⟨a, b, e⟩
    apply hc
    rw [← e]
    simp
  cases h with
  | @closed a _ b h1 h2 =>
    rw [List.append_assoc, List.cons_append, partitionS_char h1, partitionS_char h2]
  | @unclosed a _ h1 h2 => rw [partitionS_char h1, absent h2]
  | missing h1 => rw [absent h1]; rfl

theorem inParens_total (rf : Str) : ∃ x, InParens rf x := by
  by_cases h : '(' ∈ rf
  · obtain ⟨a, r, rfl, ha⟩ := split_first h
    by_cases h2 : ')' ∈ r
    · obtain ⟨x, b, rfl, hx⟩ := split_first h2
      exact ⟨x, by simpa using InParens.closed (b := b) ha hx⟩
    · exact ⟨r, .unclosed ha h2⟩
  · exact ⟨_, .missing h⟩

theorem keyList_iff {x : Str} {ks : List Str} : KeyList x ks ↔ splitC ',' (replace c!"\"" [] (replace c!" " [] x)) = ks := by
  have e : replace c!"\"" [] (replace c!" " [] x) = x.filter (fun c => c ≠ ' ' ∧ c ≠ '"') := by
    rw [replace_char_nil, replace_char_nil, List.filter_filter]
    apply List.filter_congr
    intro c _
    simp only [Bool.decide_and, Bool.and_comm]
  rw [e]
  constructor
  · rintro ⟨h1, h2, h3⟩
    rw [h3, splitC_intercalate h1 h2]
  · rintro rfl
    exact ⟨splitC_ne_nil _ _, fun k hk => not_mem_splitC k hk, (intercalate_splitC _ _).symm⟩

theorem fieldKeys_iff {rf : Str} {ks : List Str} : (∃ x, InParens rf x ∧ KeyList x ks) ↔ fieldKeys rf = ks := by
  constructor
  · rintro ⟨x, h1, h2⟩
    unfold fieldKeys
    rw [inParens_some h1, keyList_iff.1 h2]
  · rintro rfl
    obtain ⟨x, h⟩ := inParens_total rf
    refine ⟨x, h, keyList_iff.2 ?_⟩
    unfold fieldKeys
    rw [inParens_some h]

/-! ## Fields -/

/-- What an item adds. -/
def addItem (acc : Table × List Column) : FieldItem → Table × List Column
  | .column c => (acc.1, acc.2 ++ [c])
  | .key ks => ({ acc.1 with pk := ks }, acc.2)
  | .skipped => acc

theorem itemOf_iff {acc : Table × List Column} {f : Str} {i : FieldItem} (h : ItemOf f i) : addField acc f = .ok (addItem acc i) := by
  cases h with
  | @column n r d ty h1 h2 h3 h4 =>
    obtain ⟨hne, e1, e2⟩ := nameAndRest_iff.1 h2
    rw [← e2, typeAhead_iff (typeStart_pos hne)] at h3
    have hc := converts_iff.1 h4
    unfold addField
    dsimp only
    rw [if_neg (by rw [lacks_sub.1 h1]; decide), fieldColumn_eq hne, h3, hc]
    dsimp only
    rw [mkColumn_converted hc, e1]
    rfl
  | @key x ks h1 h2 h3 h4 =>
    unfold addField
    dsimp only
    rw [if_pos (not_lacks_sub.1 h1), if_pos (not_lacks_sub.1 h2), fieldKeys_iff.1 ⟨x, h3, h4⟩]
    rfl
  | skipped h1 h2 =>
    unfold addField
    dsimp only
    rw [if_pos (not_lacks_sub.1 h1), if_neg (by rw [lacks_sub.1 h2]; decide)]
    rfl

theorem itemOf_total {acc acc' : Table × List Column} {f : Str} (h : addField acc f = .ok acc') : ∃ i, ItemOf f i := by
  unfold addField at h
  dsimp only at h
  split_ifs at h with h1 h2
  · obtain ⟨x, hx, hk⟩ := fieldKeys_iff.2 (rfl : fieldKeys f = _)
    exact ⟨_, .key (not_lacks_sub.2 h1) (not_lacks_sub.2 h2) hx hk⟩
  · exact ⟨_, .skipped (not_lacks_sub.2 h1) (lacks_sub.2 (by simpa using h2))⟩
  · cases f with
    | nil => cases h
    | cons c t =>
      have hne : (c :: t : Str) ≠ [] := by simp
      rw [fieldColumn_eq hne] at h
      cases hc : convertType (dataTypeFrom (c :: t) (typeStart (c :: t))) with
      | error e => rw [hc] at h; cases h
      | ok ty =>
        exact ⟨_, .column (lacks_sub.2 (by simpa using h1)) (nameAndRest_iff.2 ⟨hne, rfl, rfl⟩) ((typeAhead_iff (typeStart_pos hne)).2 rfl) (converts_iff.2 hc)⟩

theorem items_some {fields : List Str} {items : List FieldItem} (h : List.Forall₂ ItemOf fields items) : ∀ acc : Table × List Column,
    fields.foldlM addField acc = .ok (items.foldl addItem acc) := by
  induction h with
  | nil => intro acc; rfl
  | cons h1 _ ih =>
    intro acc
    rw [List.foldlM_cons, itemOf_iff h1]
    exact ih _

theorem items_total : ∀ {fields : List Str} {acc acc' : Table × List Column}, fields.foldlM addField acc = .ok acc' → ∃ items, List.Forall₂ ItemOf fields items
  | [], _, _, _ => ⟨[], .nil⟩
  | f :: fields, acc, acc', h => by
    rw [List.foldlM_cons] at h
    cases hf : addField acc f with
    | error e => rw [hf] at h; cases h
    | ok a =>
      rw [hf] at h
      obtain ⟨i, hi⟩ := itemOf_total hf
      obtain ⟨is, his⟩ := items_total (fields := fields) (acc := a) (acc' := acc') h
      exact ⟨i :: is, .cons hi his⟩

theorem items_fold (items : List FieldItem) : ∀ acc : Table × List Column, items.foldl addItem acc =
    ({ acc.1 with pk := items.foldl (fun k i => match i with | .key ks => ks | _ => k) acc.1.pk }, acc.2 ++ itemColumns items) := by
  induction items with
  | nil => intro acc; simp [itemColumns]
  | cons i items ih =>
    intro acc
    rw [List.foldl_cons, ih, List.foldl_cons]
    cases i <;> simp [addItem, itemColumns]

theorem addColumns_eq (cs : List Column) : ∀ t : Table, t.addColumns cs = { t with cols := cs.foldl (fun d c => put d c.name c) t.cols } := by
  induction cs with
  | nil => intro t; rfl
  | cons c cs ih =>
    intro t
    unfold Table.addColumns at ih ⊢
    rw [List.foldl_cons, ih, List.foldl_cons]
    unfold Table.addColumn
    simp only [set_put]

/-! ## The name -/

theorem createdName_some {s n : Str} (h : CreatedName s n) : getTableName s = n := by
  obtain ⟨front, core, k, path, x, hf, ⟨w, rfl, hw, hl⟩, hk, hd, hp, hx, rfl⟩ := h
  have e1 : pySlice s 0 (pyFind c!"(" s) = core ++ w := by
    rcases hf with ⟨rest, rfl, hn⟩ | ⟨hn, e⟩
    · rw [pyFind_char hn, pySlice_zero, List.take_left]
    · rw [pyFind_char_none hn, slice_last, ← e]
  have e2 : rstrip (core ++ w) = core := by rw [rstrip_append_space hw, rstrip_of_last hl]
  have e3 : (if hasSub c!"or replace" (lower core) = true then c!"create or replace table ".length else c!"create table ".length) = k := by
    rcases hk with ⟨h1, rfl⟩ | ⟨h1, rfl⟩
    · rw [if_neg (by rw [lacks_sub.1 h1]; decide)]; rfl
    · rw [if_pos (not_lacks_sub.1 h1)]; rfl
  unfold getTableName
  simp only [e1, e2]
  rw [e3, hd, splitC_prefixed hp hx, stripQuotes_filter]
  apply List.filter_congr
  intro c _
  by_cases h1 : c = '"' <;> by_cases h2 : c = '`' <;> by_cases h3 : c = '\'' <;> simp [h1, h2, h3]

theorem createdName_total (s : Str) : ∃ n, CreatedName s n := by
  have hf : ∃ front, (∃ rest, s = front ++ '(' :: rest ∧ '(' ∉ front) ∨ ('(' ∉ s ∧ front = s.dropLast) := by
    by_cases h : '(' ∈ s
    · obtain ⟨a, b, e, ha⟩ := split_first h
      exact ⟨a, .inl ⟨b, e, ha⟩⟩
    · exact ⟨_, .inr ⟨h, rfl⟩⟩
  obtain ⟨front, hf⟩ := hf
  obtain ⟨w, e, hw⟩ := rstrip_split front
  have hk : ∃ k, (Lacks c!"or replace" (rstrip front) ∧ k = 13) ∨ (¬ Lacks c!"or replace" (rstrip front) ∧ k = 24) := by
    by_cases h : Lacks c!"or replace" (rstrip front)
    · exact ⟨13, .inl ⟨h, rfl⟩⟩
    · exact ⟨24, .inr ⟨h, rfl⟩⟩
  obtain ⟨k, hk⟩ := hk
  obtain ⟨path, x, hd, hp, hx⟩ := last_dot ((rstrip front).drop k)
  exact ⟨_, front, rstrip front, k, path, x, hf, ⟨w, e, hw, fun c hc => rstrip_last hc⟩, hk, hd, hp, hx, rfl⟩

theorem createdName_iff {s n : Str} : CreatedName s n ↔ getTableName s = n := by
  refine ⟨createdName_some, ?_⟩
  rintro rfl
  obtain ⟨n, h⟩ := createdName_total s
  rw [createdName_some h]
  exact h

/-! ## The shard key -/

theorem shardOf_iff {s : Str} {k : ShardKey} : ShardOf s k ↔ ∃ n keys m, reSearch patHash s = some [n, keys] ∧ pyInt n = some m ∧
    k = { keys := cleanNames keys, number := .int m } := by
  have hs : ∀ gs, reSearch patHash s = some gs ↔ ∃ a r, s = a ++ r ∧ (∀ r', r' <:+ s → r.length < r'.length → ¬ HasShape hashShape r') ∧
      Longest (marked hashShape [false, false, true, false, true, false]) r gs := by
    intro gs
    rw [patHash_eq, search_iff (by decide)]
    rfl
  constructor
  · rintro ⟨a, r, n, keys, m, cols, e, h1, h2, h3, h4, rfl⟩
    exact ⟨n, keys, m, (hs _).2 ⟨a, r, e, h1, h2⟩, (pyInt_value _ _).2 h3, by rw [columns_iff.1 h4]⟩
  · rintro ⟨n, keys, m, h1, h2, rfl⟩
    obtain ⟨a, r, e, h3, h4⟩ := (hs _).1 h1
    exact ⟨a, r, n, keys, m, _, e, h3, h4, (pyInt_value _ _).1 h2, columns_iff.2 rfl, rfl⟩

theorem addHashKey_some {s : Str} {k : ShardKey} (t : Table) (h : ShardOf s k) : addHashKey t s = { t with shard := some k } := by
  obtain ⟨n, keys, m, h1, h2, rfl⟩ := shardOf_iff.1 h
  unfold addHashKey
  rw [h1]
  dsimp only
  rw [h2]

theorem addHashKey_none {s : Str} (t : Table) (h : ∀ k, ¬ ShardOf s k) : addHashKey t s = t := by
  unfold addHashKey
  split
  · rename_i n keys hm
    cases hi : pyInt n with
    | none => rfl
    | some m => exact absurd (shardOf_iff.2 ⟨n, keys, m, hm, hi, rfl⟩) (h _)
  · rfl

/-! ## The statement -/

theorem hasSub_quotes {s : Str} : hasSub c!"partition by hash" (lower (asQuotes s)) = true ↔ ¬ Lacks c!"partition by hash" s := by
  rw [asQuotes_ub, ← not_lacks_sub, lacks_ub (by decide)]

theorem withTable_eq (db : Database) (t : Table) : withTable db t = db.addTable t := by
  unfold withTable Database.addTable
  rw [set_put, set_put, get_find]

theorem parseCreateTable_iff {schema s : Str} {db db' : Database} (hc : CreatesTable s) : parseStatement schema db s = .ok db' ↔
    ∃ t, TableBuilt schema s t ∧ db' = withTable db t := by
  have hp : parseStatement schema db s = parseCreateTable schema db s := by
    obtain ⟨h1, h2⟩ := createsTable_iff.1 hc
    unfold parseStatement
    dsimp only
    rw [h1, if_neg (by decide), if_pos h2]
  generalize hb : ({ name := getTableName (asQuotes s), schema := schema, pk := [], shard := none, cols := [], fks := [], rels := [] } : Table) = t0
  have he : parseCreateTable schema db s = match (rawFields (asQuotes s)).foldlM addField (t0, []) with
      | .error e => .error e
      | .ok r => .ok (db.addTable (if hasSub c!"partition by hash" (lower (asQuotes s)) then addHashKey (r.1.addColumns r.2) (asQuotes s) else r.1.addColumns r.2)) := by
    rw [← hb]
    unfold parseCreateTable addColumnsOf mkTable
    rw [unbracket, ← asQuotes_ub]
    dsimp only [bind, Except.bind]
    cases List.foldlM addField ({ name := getTableName (asQuotes s), schema := schema, pk := [], shard := none, cols := [], fks := [], rels := [] }, [])
      (rawFields (asQuotes s)) <;> rfl
  have main : ∀ {items : List FieldItem}, List.Forall₂ ItemOf (rawFields (asQuotes s)) items → parseCreateTable schema db s = .ok (db.addTable
      (let t : Table := { t0 with pk := itemKey items, cols := (itemColumns items).foldl (fun d c => put d c.name c) [] }
       if hasSub c!"partition by hash" (lower (asQuotes s)) then addHashKey t (asQuotes s) else t)) := by
    intro items hi
    rw [he, items_some hi]
    dsimp only
    rw [items_fold, addColumns_eq, ← hb]
    rfl
  rw [hp]
  constructor
  · intro h
    have : ∃ r, (rawFields (asQuotes s)).foldlM addField (t0, []) = .ok r := by
      rw [he] at h
      cases hf : (rawFields (asQuotes s)).foldlM addField (t0, []) with
      | error e => rw [hf] at h; cases h
      | ok r => exact ⟨r, rfl⟩
    obtain ⟨r, hr⟩ := this
    obtain ⟨items, hi⟩ := items_total hr
    rw [main hi] at h
    injection h with h
    refine ⟨_, ?_, by rw [withTable_eq]; exact h.symm⟩
    by_cases hsh : ¬ Lacks c!"partition by hash" s ∧ ∃ k, ShardOf (asQuotes s) k
    · obtain ⟨h1, k, h2⟩ := hsh
      dsimp only
      rw [if_pos (hasSub_quotes.2 h1), addHashKey_some _ h2, ← hb]
      exact ⟨getTableName (asQuotes s), rawFields (asQuotes s), items, createdName_iff.2 rfl, (fieldsOf_iff (createsTable_ne hc)).2 rfl, hi, rfl, rfl, rfl, rfl, rfl, rfl, .inl ⟨k, h1, h2, rfl⟩⟩
    · have hsh' : Lacks c!"partition by hash" s ∨ ∀ k, ¬ ShardOf (asQuotes s) k := by
        by_cases h1 : Lacks c!"partition by hash" s
        · exact .inl h1
        · exact .inr (fun k hk => hsh ⟨h1, k, hk⟩)
      have hnone : ∀ t : Table, (if hasSub c!"partition by hash" (lower (asQuotes s)) = true then addHashKey t (asQuotes s) else t) = t := by
        intro t
        rcases hsh' with h1 | h1
        · rw [if_neg (fun h => (hasSub_quotes.1 h) h1)]
        · rw [addHashKey_none t h1]; simp
      dsimp only
      rw [hnone, ← hb]
      exact ⟨getTableName (asQuotes s), rawFields (asQuotes s), items, createdName_iff.2 rfl, (fieldsOf_iff (createsTable_ne hc)).2 rfl, hi, rfl, rfl, rfl, rfl, rfl, rfl, .inr ⟨hsh', rfl⟩⟩
  · rintro ⟨t, ⟨n, fields, items, h1, h2, h3, e1, e2, e3, e4, e5, e6, h4⟩, rfl⟩
    have hf := (fieldsOf_iff (createsTable_ne hc)).1 h2
    subst hf
    have hn := createdName_iff.1 h1
    rw [main h3, withTable_eq]
    refine congrArg (fun t => Except.ok (db.addTable t)) ?_
    obtain ⟨tn, tsch, tpk, tsh, tcols, tfks, trels⟩ := t
    simp only at e1 e2 e3 e4 e5 e6 h4
    rw [← hb, hn, e1, e2, e3, e4, e5, e6]
    dsimp only
    rcases h4 with ⟨k, h5, h6, rfl⟩ | ⟨h5, rfl⟩
    · rw [if_pos (hasSub_quotes.2 h5), addHashKey_some _ h6]
    · rcases h5 with h5 | h5
      · rw [if_neg (fun h => (hasSub_quotes.1 h) h5)]
      · rw [addHashKey_none _ h5]; simp

end Verif
