import Verif.Review
import Verif.Spec.Review
import Verif.Lemmas.PyInt
import Verif.Lemmas.Float
import Verif.Lemmas.Validator
import Verif.Lemmas.Graph
import Mathlib.Tactic.Linarith
import Mathlib.Algebra.Order.Field.Basic
import Mathlib.Algebra.Order.Ring.Rat
import Mathlib.Algebra.Field.Rat
import Mathlib.Tactic.FieldSimp
/-
Lemmas for the reviews of sharding, joins and worksheets, and for the reviewer.
-/

namespace Verif
open Spec

/-! ## Integers -/

theorem digitsGo_filter : ∀ (s : Str) (b : Bool) (acc v : Nat), digitsGo b acc s = some v →
    v = Nat.ofDigitChars 10 (s.filter (· ≠ '_')) acc
  | [], b, acc, v, h => by
    simp only [digitsGo] at h
    split at h
    · cases h; simp [Nat.ofDigitChars_eq_foldl]
    · cases h
  | c :: t, b, acc, v, h => by
    simp only [digitsGo] at h
    split at h
    · rename_i hc
      have := digitsGo_filter t _ _ v h
      have hne : c ≠ '_' := by
        rintro rfl
        revert hc
        decide
      rw [List.filter_cons_of_pos (by simpa using hne), this]
      simp only [Nat.ofDigitChars_eq_foldl, List.foldl_cons]
      congr 1
      omega
    · split at h
      · rename_i hc
        rw [List.filter_cons_of_neg (by simp [hc.1])]
        exact digitsGo_filter t _ _ v h
      · cases h

theorem pyInt_parts {pre sign ds post : Str} (h1 : ∀ c ∈ pre, isSpace c = true) (h2 : ∀ c ∈ post, isSpace c = true)
    (hs : sign = [] ∨ sign = ['+'] ∨ sign = ['-']) (hd : Digits ds) :
    pyInt (pre ++ sign ++ ds ++ post) =
      some ((if sign = ['-'] then -1 else 1) * ((Nat.ofDigitChars 10 (ds.filter (· ≠ '_')) 0 : Nat) : Int)) := by
  have e : strip (pre ++ sign ++ ds ++ post) = sign ++ ds := by
    rw [List.append_assoc pre sign ds]; exact strip_pad h1 h2 (hd.trim hs)
  obtain ⟨v, hv⟩ := Option.isSome_iff_exists.1 ((digitsGo_isSome ds 0).2.2 hd)
  have hvv := digitsGo_filter ds false 0 v hv
  unfold pyInt
  rw [e]
  rcases hs with rfl | rfl | rfl
  · rw [List.nil_append]
    cases ds with
    | nil => exact absurd rfl hd.ne_nil
    | cons c t =>
      split
      · rename_i t' ht; cases ht
        rcases hd.chars '-' (by simp) with h | h <;> exact absurd h (by decide)
      · rename_i t' ht; cases ht
        rcases hd.chars '+' (by simp) with h | h <;> exact absurd h (by decide)
      · rw [hv, ← hvv]; simp
  · simp only [List.singleton_append]
    rw [hv, ← hvv]; simp
  · simp only [List.singleton_append]
    rw [hv, ← hvv]; simp

theorem pyInt_value (s : Str) (n : Int) : pyInt s = some n ↔ IntValue s n := by
  constructor
  · intro h
    obtain ⟨pre, sign, ds, post, h1, h2, hs, hd, rfl⟩ := (pyInt_isSome s).1 (by simp [h])
    rw [pyInt_parts h1 h2 hs hd] at h
    exact ⟨pre, sign, ds, post, h1, h2, hs, hd, rfl, (Option.some.inj h).symm⟩
  · rintro ⟨pre, sign, ds, post, h1, h2, hs, hd, rfl, rfl⟩
    exact pyInt_parts h1 h2 hs hd

/-! ## Thousands -/

theorem commaGo_group (c b a d : Char) (t : Str) : commaGo 3 (c :: b :: a :: d :: t) = c :: b :: a :: ',' :: commaGo 3 (d :: t) := by
  simp [commaGo]

theorem toDigits_three {n a b c : Nat} (hn : 0 < n) (ha : a < 10) (hb : b < 10) (hc : c < 10) :
    Nat.toDigits 10 (1000 * n + 100 * a + 10 * b + c) =
      Nat.toDigits 10 n ++ [Nat.digitChar a, Nat.digitChar b, Nat.digitChar c] := by
  have h1 := Nat.toDigits_append_toDigits (b := 10) (by decide) hn ha
  have h2 := Nat.toDigits_append_toDigits (b := 10) (n := 10 * n + a) (by decide) (by omega) hb
  have h3 := Nat.toDigits_append_toDigits (b := 10) (n := 10 * (10 * n + a) + b) (by decide) (by omega) hc
  have e : 1000 * n + 100 * a + 10 * b + c = 10 * (10 * (10 * n + a) + b) + c := by omega
  rw [e, ← h3, ← h2, ← h1, Nat.toDigits_of_lt_base ha, Nat.toDigits_of_lt_base hb, Nat.toDigits_of_lt_base hc]
  simp

theorem thousands_commaGo (n : Nat) : Thousands n (commaGo 3 (natToStr n).reverse).reverse := by
  induction n using Nat.strong_induction_on with
  | _ n ih =>
    by_cases hn : n < 1000
    · have hl : (natToStr n).length ≤ 3 := by
        unfold natToStr
        rw [Nat.length_toDigits_le_iff (by decide) (by decide)]
        exact hn
      have : ∀ s : Str, s.length ≤ 3 → commaGo 3 s = s := by
        intro s hs
        match s, hs with
        | [], _ => rfl
        | [_], _ => rfl
        | [_, _], _ => rfl
        | [_, _, _], _ => rfl
      rw [this _ (by simpa using hl), List.reverse_reverse]
      exact .small n hn
    · have h0 : 0 < n / 1000 := by omega
      have ha : n / 100 % 10 < 10 := by omega
      have hb : n / 10 % 10 < 10 := by omega
      have hc : n % 10 < 10 := by omega
      have e : n = 1000 * (n / 1000) + 100 * (n / 100 % 10) + 10 * (n / 10 % 10) + n % 10 := by omega
      have ih' := ih (n / 1000) (by omega)
      have hd := toDigits_three h0 ha hb hc
      rw [← e] at hd
      have key : (commaGo 3 (natToStr n).reverse).reverse =
          (commaGo 3 (natToStr (n / 1000)).reverse).reverse ++
            [',', Nat.digitChar (n / 100 % 10), Nat.digitChar (n / 10 % 10), Nat.digitChar (n % 10)] := by
        unfold natToStr at ih' ⊢
        rw [hd]
        cases hr : (Nat.toDigits 10 (n / 1000)).reverse with
        | nil => simp at hr
        | cons d t =>
          simp only [List.reverse_append, List.reverse_cons, List.reverse_nil, List.nil_append, List.cons_append, hr]
          rw [commaGo_group]
          simp
      rw [key]
      conv => arg 1; rw [e]
      exact .group _ _ _ _ _ h0 ih' ha hb hc

theorem groups_commaGo (d : Str) : Groups d.reverse (commaGo 3 d).reverse := by
  induction h : d.length using Nat.strong_induction_on generalizing d with
  | _ n ih =>
    match d, h with
    | [], _ => exact .small _ (by simp)
    | [_], _ => exact .small _ (by simp)
    | [_, _], _ => exact .small _ (by simp)
    | [_, _, _], _ => exact .small _ (by simp)
    | c :: b :: a :: e :: t, h =>
      rw [commaGo_group]
      have := Groups.group _ _ a b c (by simp) (ih (e :: t).length (by simp only [List.length_cons] at h ⊢; omega) (e :: t) rfl)
      simpa using this

theorem groupDigits_groups (sign s : Str) (hs : sign = [] ∨ sign = ['-']) (hn : sign = [] → s.head? ≠ some '-') : GroupsFloat (sign ++ s) (sign ++ groupDigits s) := by
  have h := GroupsFloat.mk sign (s.takeWhile (·.isDigit)) (s.dropWhile (·.isDigit)) _ hs (fun c hc => List.all_eq_true.1 List.all_takeWhile c hc) ?_ ?_
    (by simpa using groups_commaGo (s.takeWhile (·.isDigit)).reverse)
  · rw [List.append_assoc, List.takeWhile_append_dropWhile] at h
    unfold groupDigits
    rw [← List.append_assoc]
    exact h
  · intro c hc
    have := List.head?_dropWhile_not (fun c : Char => c.isDigit) s
    rw [Option.mem_def] at hc
    rw [hc] at this
    simpa using this
  · intro h1 h2
    have := List.takeWhile_append_dropWhile (p := fun c : Char => c.isDigit) (l := s)
    rw [h2, List.nil_append] at this
    rw [this]
    exact hn h1

theorem groupFloat_groups (s : Str) : GroupsFloat s (groupFloat s) := by
  unfold groupFloat
  split
  · next s => exact groupDigits_groups ['-'] s (.inr rfl) (by simp)
  · next hn =>
    refine groupDigits_groups [] s (.inl rfl) ?_
    intro _ h
    cases s with
    | nil => simp at h
    | cons c s => simp only [List.head?_cons, Option.some.injEq] at h; exact hn s (by rw [h])

theorem fmtComma_limit (fr : Rat → Str) {v : CfgVal} {q : Rat} (h : Number v q) : ∃ s, fmtComma fr v = .ok s ∧ Limit fr v s := by
  cases h with
  | int n =>
    refine ⟨_, rfl, ?_⟩
    by_cases hn : n < 0
    · have e : n = -(n.natAbs : Int) := by omega
      simp only [hn, if_true]
      conv => arg 2; rw [e]
      exact .neg _ _ (by omega) (thousands_commaGo _)
    · have e : n = (n.natAbs : Int) := by omega
      simp only [hn, if_false, List.nil_append]
      conv => arg 2; rw [e]
      exact .nat _ _ (thousands_commaGo _)
  | flt q => exact ⟨_, rfl, .flt q _ (groupFloat_groups _)⟩

/-! ## Sharding -/

theorem gtCfg_number {v : CfgVal} {q : Rat} (h : Number v q) (x : Rat) : gtCfg x v = .ok (decide (q < x)) := by
  cases h <;> rfl

theorem ltCfg_number {v : CfgVal} {q : Rat} (h : Number v q) (x : Rat) : ltCfg x v = .ok (decide (x < q)) := by
  cases h <;> rfl

theorem double_two_zpow {k : Int} (h : -1074 ≤ k) : Double (2 ^ k) := ⟨1, k, by norm_num, h, by rw [Int.cast_one, one_mul]⟩

theorem double_neg {y : Rat} (h : Double y) : Double (-y) := by
  obtain ⟨m, f, hm, hf, rfl⟩ := h
  exact ⟨-m, f, by rwa [abs_neg], hf, by push_cast; ring⟩

theorem Spec.Rounds.abs_le {q x : Rat} {k : Int} (h : Rounds q x) (hk : -1074 ≤ k) (hq : |q| ≤ 2 ^ k) : |x| ≤ 2 ^ k := by
  obtain ⟨a, b⟩ := _root_.abs_le.1 hq
  exact _root_.abs_le.2 ⟨h.ge (double_neg (double_two_zpow hk)) a, h.le (double_two_zpow hk) b⟩

theorem toFloat_small {q : Rat} {k : Int} (hk : -1074 ≤ k ∧ k ≤ 1023) (h : |q| ≤ 2 ^ k) : ∃ x, toFloat q = .ok x ∧ Rounds q x ∧ |x| ≤ 2 ^ k := by
  have : (2 : Rat) ^ k ≤ 2 ^ (1023 : Nat) := by
    rw [← zpow_natCast]
    exact two_zpow_le hk.2
  obtain ⟨x, e, hr, -⟩ := toFloat_total (le_trans h this)
  exact ⟨x, e, hr, hr.abs_le hk.1 h⟩

/-- Numbers that give floats. -/
theorem ratios_exist {rows shards skew : Int} (hs : 1 ≤ shards) (b1 : |rows| ≤ 2 ^ 500) (b2 : shards ≤ 2 ^ 500) (b3 : |skew| ≤ 2 ^ 500) :
    ∃ p, intDiv rows shards = .ok p ∧ ∃ z, skewRatio rows skew p = .ok z ∧ Ratios rows shards skew p z := by
  have hsq : (1 : Rat) ≤ shards := by exact_mod_cast hs
  have hs0 : (0 : Rat) < shards := by linarith
  have c1 : |(rows : Rat)| ≤ 2 ^ (500 : Int) := by exact_mod_cast b1
  have c2 : (shards : Rat) ≤ 2 ^ (500 : Int) := by exact_mod_cast b2
  have c3 : |(skew : Rat)| ≤ 2 ^ (500 : Int) := by exact_mod_cast b3
  have hq : |(rows : Rat) / shards| ≤ 2 ^ (500 : Int) := by
    rw [abs_div, abs_of_pos hs0, div_le_iff₀ hs0]
    exact le_trans c1 (le_mul_of_one_le_right (two_zpow_pos 500).le hsq)
  obtain ⟨p, e1, r1, -⟩ := toFloat_small (by norm_num) hq
  refine ⟨p, by rw [intDiv, if_neg (by omega), e1], ?_⟩
  by_cases hr : 0 < rows
  · obtain ⟨k, e2, r2, bk⟩ := toFloat_small (by norm_num) c3
    have hrq : (1 : Rat) ≤ rows := by exact_mod_cast (by omega : 1 ≤ rows)
    have hp : (2 : Rat) ^ (-500 : Int) ≤ p := by
      refine r1.ge (double_two_zpow (by norm_num)) ?_
      rw [le_div_iff₀ hs0]
      have e : (2 : Rat) ^ (-500 : Int) * 2 ^ (500 : Int) = 1 := by rw [← two_zpow_add]; norm_num
      have := mul_le_mul_of_nonneg_left c2 (two_zpow_pos (-500)).le
      rw [e] at this
      exact le_trans this hrq
    have hp0 : 0 < p := lt_of_lt_of_le (two_zpow_pos _) hp
    have hz : |k / p| ≤ 2 ^ (1000 : Int) := by
      rw [abs_div, abs_of_pos hp0, div_le_iff₀ hp0]
      have e : (2 : Rat) ^ (1000 : Int) * 2 ^ (-500 : Int) = 2 ^ (500 : Int) := by rw [← two_zpow_add]; norm_num
      have := mul_le_mul_of_nonneg_left hp (two_zpow_pos 1000).le
      rw [e] at this
      exact le_trans bk this
    obtain ⟨z, e3, r3, -⟩ := toFloat_small (by norm_num) hz
    refine ⟨z, ?_, .some k z hr r1 r2 r3⟩
    rw [skewRatio, if_pos hr, intFloatDiv, e2]
    simp [bind, Except.bind, hp0.ne', e3]
  · exact ⟨0, by rw [skewRatio, if_neg hr], .empty hr r1⟩

theorem shardingCase_spec (fr : Rat → Str) {vmax vmin vskew : CfgVal} {max min ratio : Rat} (h1 : Number vmax max) (h2 : Number vmin min)
    (h3 : Number vskew ratio) (r : StatRow) (rows shards skew : Int) (hs : 1 ≤ shards) (b1 : |rows| ≤ 2 ^ 500) (b2 : shards ≤ 2 ^ 500)
    (b3 : |skew| ≤ 2 ^ 500) :
    ∃ l fs p z, shardingCase fr vmax vmin vskew r rows shards skew = .ok l ∧ Ratios rows shards skew p z ∧
      (∀ f, f ∈ fs ↔ Found max min ratio rows shards p z f) ∧ fs.Sublist [.unsharded, .few, .many, .skewed] ∧
      List.Forall₂ (Says fr vmax vmin r rows z) fs l := by
  unfold shardingCase
  obtain ⟨smax, emax, lmax⟩ := fmtComma_limit fr h1
  obtain ⟨smin, emin, lmin⟩ := fmtComma_limit fr h2
  obtain ⟨p, ep, z, ez, hz⟩ := ratios_exist hs b1 b2 b3
  by_cases h : shards = 1
  · rw [if_pos h, gtCfg_number h1]
    by_cases hb : max < (rows : Rat)
    · refine ⟨_, [.unsharded], p, z, by simp only [hb, decide_true, bind, Except.bind, if_true, emax]; rfl, hz, ?_, by decide, ?_⟩
      · intro f
        cases f <;> simp [Found, h, hb]
      · exact .cons (.unsharded _ lmax) .nil
    · refine ⟨_, [], p, z, by simp only [hb, decide_false, bind, Except.bind, Bool.false_eq_true, if_false], hz, ?_, by decide, .nil⟩
      intro f
      cases f <;> simp [Found, h, hb]
  · rw [if_neg h, ep]
    -- rows per shard
    obtain ⟨l1, fs1, e1, m1, s1, a1⟩ : ∃ l fs, rowsPerShard fr vmax vmin r p = .ok l ∧
        (∀ f, f ∈ fs ↔ (f = .few ∨ f = .many) ∧ Found max min ratio rows shards p z f) ∧ fs.Sublist [.few, .many] ∧
        List.Forall₂ (Says fr vmax vmin r rows z) fs l := by
      unfold rowsPerShard
      rw [ltCfg_number h2, gtCfg_number h1]
      by_cases hf : p < min
      · refine ⟨_, [.few], by simp only [hf, decide_true, bind, Except.bind, if_true, emin]; rfl, ?_, by decide, .cons (.few _ lmin) .nil⟩
        intro f
        cases f <;> simp [Found, h, hf]
      · by_cases hm : max < p
        · refine ⟨_, [.many], by simp only [hf, hm, decide_true, decide_false, bind, Except.bind, if_true, Bool.false_eq_true, if_false, emax]; rfl,
            ?_, by decide, .cons (.many _ lmax) .nil⟩
          intro f
          cases f <;> simp [Found, h, hf, hm]
        · refine ⟨_, [], by simp only [hf, hm, decide_false, bind, Except.bind, Bool.false_eq_true, if_false],
            ?_, by decide, .nil⟩
          intro f
          cases f <;> simp [Found, h, hf, hm]
    -- skew
    obtain ⟨l2, fs2, e2, m2, s2, a2⟩ : ∃ l fs, skewIssue fr vskew r rows skew p = .ok l ∧
        (∀ f, f ∈ fs ↔ f = .skewed ∧ Found max min ratio rows shards p z f) ∧ fs.Sublist [.skewed] ∧
        List.Forall₂ (Says fr vmax vmin r rows z) fs l := by
      unfold skewIssue
      rw [ez]
      simp only [bind, Except.bind]
      rw [gtCfg_number h3]
      by_cases hq : ratio < z
      · by_cases hr : 0 < rows
        · refine ⟨_, [.skewed], by simp only [gt_iff_lt, hr, if_true, hq, decide_true]; rfl, ?_, by decide, .cons (.skewed hr) .nil⟩
          intro f
          cases f <;> simp [Found, h, hq]
        · refine ⟨_, [.skewed], by simp only [gt_iff_lt, hr, if_false, hq, decide_true, if_true, StatRow.label, List.append_assoc]; rfl, ?_,
            by decide, .cons (.empty hr) .nil⟩
          intro f
          cases f <;> simp [Found, h, hq]
      · refine ⟨_, [], by simp only [hq, decide_false, Bool.false_eq_true, if_false], ?_, by decide, .nil⟩
        intro f
        cases f <;> simp [Found, h, hq]
    refine ⟨l1 ++ l2, fs1 ++ fs2, p, z, by simp only [bind, Except.bind, e1, e2], hz, ?_, ?_, List.rel_append a1 a2⟩
    · intro f
      rw [List.mem_append, m1, m2]
      cases f <;> simp [Found, h]
    · exact List.Sublist.cons _ (s1.append s2)

/-- Rounding does not carry a quotient across an integer. -/
theorem rounds_lt_int {n m L : Int} {p : Rat} (hm : 1 ≤ m) (hm2 : m < 2 ^ 52) (hL : |L| * m < 2 ^ 52) (h : Rounds ((n : Rat) / m) p) :
    (p < L ↔ (n : Rat) < L * m) ∧ ((L : Rat) < p ↔ (L : Rat) * m < n) := by
  have hmq : (0 : Rat) < m := by exact_mod_cast (by omega : 0 < m)
  have hL1 : |L| < 2 ^ 52 := lt_of_le_of_lt (le_mul_of_one_le_right (abs_nonneg L) hm) hL
  have dL : Double (L : Rat) := double_int (lt_trans hL1 (by norm_num))
  -- a power of two that is at least `m`, and less than twice as much
  obtain ⟨M, rfl⟩ : ∃ M : Nat, m = M := ⟨m.toNat, by omega⟩
  have hM : M ≠ 0 := by omega
  obtain ⟨j, j1, j2⟩ : ∃ j : Nat, M ≤ 2 ^ j ∧ 2 ^ j + 1 ≤ 2 * M := by
    rcases Nat.eq_or_lt_of_le (Nat.log2_self_le hM) with e | e
    · exact ⟨M.log2, by omega, by omega⟩
    · have := (Nat.log2_lt hM).1 (Nat.lt_succ_self M.log2)
      refine ⟨M.log2 + 1, this.le, ?_⟩
      rw [Nat.pow_succ]
      omega
  have hj0 : (0 : Rat) < 2 ^ j := by positivity
  have e2 : (2 : Rat) ^ (-(j : Int)) = 1 / 2 ^ j := by rw [zpow_neg, zpow_natCast, one_div]
  have j2' : ((2 : Int) ^ j + 1) ≤ 2 * M := by exact_mod_cast j2
  have bound : |L| * 2 ^ j + 1 < 2 ^ 53 := by nlinarith [abs_nonneg L]
  have hj : j < 53 := by
    have : 2 ^ j < 2 ^ 53 := by omega
    exact (Nat.pow_lt_pow_iff_right (by norm_num)).1 this
  have dy : ∀ s : Int, |s| = 1 → Double ((L : Rat) + s * (1 / 2 ^ j)) := by
    intro s hs
    refine ⟨L * 2 ^ j + s, -(j : Int), ?_, by omega, ?_⟩
    · have := abs_add_le (L * 2 ^ j) s
      rw [abs_mul, hs, abs_of_nonneg (by positivity : (0 : Int) ≤ 2 ^ j)] at this
      omega
    · rw [e2]
      push_cast
      field_simp
  have hδ : (1 : Rat) / 2 ^ j ≤ 1 / (M : Int) := by
    refine one_div_le_one_div_of_le hmq ?_
    exact_mod_cast j1
  have hδ0 : (0 : Rat) < 1 / 2 ^ j := by positivity
  have lt_iff : ((n : Rat) / (M : Int) < L) ↔ (n : Rat) < L * (M : Int) := div_lt_iff₀ hmq
  have gt_iff : ((L : Rat) < (n : Rat) / (M : Int)) ↔ (L : Rat) * (M : Int) < n := lt_div_iff₀ hmq
  constructor
  · rw [← lt_iff]
    constructor
    · intro hp
      by_contra hc
      exact absurd (h.ge dL (not_lt.1 hc)) (not_le.2 hp)
    · intro hq
      have gap : (n : Rat) / (M : Int) + 1 / (M : Int) ≤ L := by
        rw [← add_div, div_le_iff₀ hmq]
        have := lt_iff.1 hq
        have : n < L * M := by exact_mod_cast this
        exact_mod_cast (by omega : n + 1 ≤ L * M)
      refine lt_of_le_of_ne (h.le dL hq.le) (h.ne (dy (-1) (by norm_num)) ?_)
      rw [Int.cast_neg, Int.cast_one, neg_one_mul]
      rw [abs_of_nonpos (by linarith), abs_of_nonpos (by linarith)]
      linarith
  · rw [← gt_iff]
    constructor
    · intro hp
      by_contra hc
      exact absurd (h.le dL (not_lt.1 hc)) (not_le.2 hp)
    · intro hq
      have gap : (L : Rat) ≤ (n : Rat) / (M : Int) - 1 / (M : Int) := by
        rw [← sub_div, le_div_iff₀ hmq]
        have := gt_iff.1 hq
        have : L * M < n := by exact_mod_cast this
        exact_mod_cast (by omega : L * M ≤ n - 1)
      refine lt_of_le_of_ne (h.ge dL hq.le) (Ne.symm (h.ne (dy 1 (by norm_num)) ?_))
      rw [Int.cast_one, one_mul]
      rw [abs_of_nonneg (by linarith), abs_of_nonneg (by linarith)]
      linarith

/-- The default limit of the skew ratio is the float next to one hundredth. -/
theorem rounds_hundredth : Rounds (1 / 100) minSkewRatio := (toFloat_ok.1 (by decide +kernel : toFloat (1 / 100) = .ok minSkewRatio)).1

/-- Rounding does not carry a skew ratio across the default limit. -/
theorem rounds_skew {rows shards skew : Int} {p z : Rat} (hr : 0 < rows) (hr2 : rows < 2 ^ 50) (hs : 1 ≤ shards) (hs2 : shards < 2 ^ 50)
    (hk : |skew| < 2 ^ 53) (h : Ratios rows shards skew p z) : minSkewRatio < z ↔ minSkewRatio * rows < skew * shards := by
  cases h with
  | empty h => exact absurd hr h
  | some k z _ h1 h2 h3 =>
    have ek : k = skew := rounds_double (m := skew) (f := 0) hk (by norm_num) (by simp) h2
    subst ek
    have hrq : (0 : Rat) < rows := by exact_mod_cast hr
    have hsq : (1 : Rat) ≤ shards := by exact_mod_cast hs
    have hs0 : (0 : Rat) < shards := by linarith
    have hr3 : (rows : Rat) < 2 ^ 50 := by exact_mod_cast hr2
    have hs3 : (shards : Rat) < 2 ^ 50 := by exact_mod_cast hs2
    -- relative error of the rows per shard
    have hq0 : (0 : Rat) < (rows : Rat) / shards := by positivity
    have hc := h1.close (by
      rw [abs_of_pos hq0, le_div_iff₀ hs0]
      have : (2 : Rat) ^ (-1022 : Int) ≤ 2 ^ (-50 : Int) := two_zpow_le (by norm_num)
      have e : (2 : Rat) ^ (-50 : Int) * 2 ^ 50 = 1 := by norm_num
      have h1r : (1 : Rat) ≤ rows := by exact_mod_cast (by omega : 1 ≤ rows)
      have := two_zpow_pos (-1022)
      nlinarith [mul_le_mul_of_nonneg_left hs3.le (two_zpow_pos (-50)).le])
    rw [abs_of_pos hq0] at hc
    obtain ⟨P, hP⟩ : ∃ P, P = p * shards := ⟨_, rfl⟩
    have hc2 : |(rows : Rat) - P| * 2 ^ 53 ≤ rows := by
      have e : |(rows : Rat) - P| = |(rows : Rat) / shards - p| * shards := by
        rw [← abs_of_pos hs0, ← abs_mul, abs_of_pos hs0, sub_mul, div_mul_cancel₀ _ hs0.ne', hP]
      have := mul_le_mul_of_nonneg_right hc hs0.le
      rw [div_mul_cancel₀ _ hs0.ne'] at this
      rw [e]
      linarith
    have c1 : ((rows : Rat) - P) * 2 ^ 53 ≤ rows := le_trans (mul_le_mul_of_nonneg_right (le_abs_self _) (by norm_num)) hc2
    have c2 : (P - (rows : Rat)) * 2 ^ 53 ≤ rows := by
      refine le_trans (mul_le_mul_of_nonneg_right ?_ (by norm_num)) hc2
      rw [abs_sub_comm]
      exact le_abs_self _
    have hP0 : 0 < P := by linarith
    have hp0 : 0 < p := by
      by_contra hcc
      have := mul_nonpos_of_nonpos_of_nonneg (not_lt.1 hcc) hs0.le
      linarith
    have dρ : Double minSkewRatio := ⟨5764607523034235, -59, by norm_num, by norm_num, by rw [minSkewRatio]; norm_num⟩
    have dρ2 : Double (minSkewRatio + 1 / 2 ^ 59) := ⟨5764607523034236, -59, by norm_num, by norm_num, by rw [minSkewRatio]; norm_num⟩
    rcases lt_trichotomy (100 * (skew * shards)) rows with ht | ht | ht
    · have t : 100 * ((skew : Rat) * shards) + 1 ≤ rows := by exact_mod_cast (by omega : 100 * (skew * shards) + 1 ≤ rows)
      refine iff_of_false ?_ ?_
      · refine not_lt.2 (h3.le dρ ?_)
        rw [div_le_iff₀ hp0]
        refine le_of_mul_le_mul_right ?_ hs0
        rw [mul_assoc, ← hP, minSkewRatio]
        linarith
      · rw [minSkewRatio]
        linarith
    · have t : 100 * ((skew : Rat) * shards) = rows := by exact_mod_cast ht
      have e1 : (rows : Rat) / shards = ((100 * skew : Int) : Rat) := by
        rw [div_eq_iff hs0.ne', ← t]; push_cast; ring
      have hk0 : 0 < skew := by
        by_contra hcc
        have := mul_nonpos_of_nonpos_of_nonneg (not_lt.1 hcc) (by omega : 0 ≤ shards)
        omega
      have hk1 : |100 * skew| < 2 ^ 53 := by
        rw [abs_of_pos (by omega)]
        have := mul_le_mul_of_nonneg_left hs hk0.le
        omega
      rw [e1] at h1
      have e2 := rounds_double (m := 100 * skew) (f := 0) hk1 (by norm_num) (by simp) h1
      have hkq : (0 : Rat) < skew := by exact_mod_cast hk0
      have e3 : (skew : Rat) / p = 1 / 100 := by
        rw [e2]; push_cast; field_simp
      rw [e3] at h3
      rw [h3.unique rounds_hundredth]
      refine iff_of_false (lt_irrefl _) ?_
      rw [minSkewRatio]
      linarith
    · have t : (rows : Rat) + 1 ≤ 100 * ((skew : Rat) * shards) := by exact_mod_cast (by omega : rows + 1 ≤ 100 * (skew * shards))
      refine iff_of_true ?_ ?_
      · have mid : minSkewRatio + 1 / 2 ^ 60 < (skew : Rat) / p := by
          rw [lt_div_iff₀ hp0]
          refine lt_of_mul_lt_mul_right ?_ hs0.le
          rw [mul_assoc, ← hP, minSkewRatio]
          linarith
        refine lt_of_le_of_ne (h3.ge dρ (by linarith [(by norm_num : (0 : Rat) < 1 / 2 ^ 60)])) (Ne.symm (h3.ne dρ2 ?_))
        rw [abs_of_pos (show (0 : Rat) < (skew : Rat) / p - minSkewRatio by linarith [(by norm_num : (0 : Rat) < 1 / 2 ^ 60)]), abs_lt]
        have : (1 : Rat) / 2 ^ 59 = 1 / 2 ^ 60 + 1 / 2 ^ 60 := by norm_num
        constructor <;> linarith [(by norm_num : (0 : Rat) < 1 / 2 ^ 60)]
      · rw [minSkewRatio]
        linarith

/-! ## Quoted names -/

theorem qualified_two (a b : Str) : qualified [a, b] = quoted a ++ c!"." ++ quoted b := by simp [qualified, quoted]

theorem qualified_three (a b c : Str) : qualified [a, b, c] = dbSchema a b ++ c!"." ++ quoted c := by
  simp [qualified, quoted, dbSchema]

theorem qualified_four (a b c d : Str) : qualified [a, b, c, d] = dbSchema a b ++ c!"." ++ quoted c ++ c!"." ++ quoted d := by
  simp [qualified, quoted, dbSchema]

/-! ## Joins -/

theorem fkEquation_ok (t u : Table) (k : FK) (i : Nat) (hi : i < (equations t u k).length) :
    fkEquation t u k i = .ok ((equations t u k)[i] ++ c!")") := by
  have hz : i < (k.fromKeys.zip k.toKeys).length := by simpa [equations] using hi
  have h1 : i < k.fromKeys.length := by simp only [List.length_zip] at hz; omega
  have h2 : i < k.toKeys.length := by simp only [List.length_zip] at hz; omega
  unfold fkEquation
  rw [List.getElem?_eq_getElem h1, List.getElem?_eq_getElem h2]
  simp [equations, qualified_two, quoted]

/-- The text after the opening parentheses, once the first `i` equations are added. -/
theorem fkCondition_loop (t u : Table) (k : FK) (n i : Nat) (hi : i ≤ (equations t u k).length) :
    ∃ w, (List.range i).foldlM (fun acc i => do
        let e ← fkEquation t u k i
        .ok (acc ++ (if i > 0 then c!" AND " else []) ++ e)) (List.replicate n '(') = (.ok (List.replicate n '(' ++ w) : Except PyErr Str) ∧
      Conj ((equations t u k).take i) (List.replicate i '(' ++ w) := by
  induction i with
  | zero => exact ⟨[], by simp [pure, Except.pure], .none⟩
  | succ i ih =>
    obtain ⟨w, e, c⟩ := ih (by omega)
    rw [List.range_succ, List.foldlM_append, e]
    refine ⟨w ++ (if i > 0 then c!" AND " else []) ++ ((equations t u k)[i] ++ c!")"), ?_, ?_⟩
    · simp [bind, Except.bind, fkEquation_ok t u k i (by omega), pure, Except.pure]
    · rw [List.take_succ_eq_append_getElem (by omega)]
      by_cases h0 : i = 0
      · subst h0
        have hw : w = [] := by simpa [pure, Except.pure] using e
        subst hw
        exact .one _
      · have hne : (equations t u k).take i ≠ [] := by
          simp only [ne_eq, List.take_eq_nil_iff, not_or]
          refine ⟨h0, ?_⟩
          intro h
          rw [h] at hi
          simp at hi
        have := Conj.more _ _ ((equations t u k)[i]) hne c
        simp only [Nat.pos_of_ne_zero h0, gt_iff_lt, if_true]
        rw [List.replicate_succ]
        simpa using this

theorem fkCondition_conj (t u : Table) (k : FK) (h : k.fromKeys.length ≤ k.toKeys.length) :
    ∃ cond, fkCondition t u k = .ok cond ∧ Conj (equations t u k) cond := by
  have hl : (equations t u k).length = k.fromKeys.length := by simp [equations]; omega
  obtain ⟨w, e, c⟩ := fkCondition_loop t u k k.fromKeys.length k.fromKeys.length (by omega)
  refine ⟨_, e, ?_⟩
  rwa [List.take_of_length_le (by omega)] at c

theorem keyOf_keyCols (t : Table) : KeyOf t (keyCols t) := by
  unfold keyCols
  split
  · rename_i h; exact .cols h
  · rename_i h; exact .pk h

/-- The parts of a join. -/
structure PartsOf (db : Str) (j : Join) (p : QueryParts) : Prop where
  name : p.name = j.name
  fromDb : p.fromDb = db
  toDb : p.toDb = db
  fromSchema : p.fromSchema = j.source.schema
  fromTable : p.fromTable = j.source.name
  toSchema : p.toSchema = j.target.schema
  toTable : p.toTable = j.target.name
  fromCols : p.fromCols = keyCols j.source
  toCols : p.toCols = keyCols j.target
  condition : p.condition = j.condition

/-- The parts of the join of two tables. -/
def partsFor (db name : Str) (t u : Table) (cond : Str) : QueryParts :=
  { name := name, fromDb := db, fromSchema := t.schema, fromTable := t.name, toDb := db,
    toSchema := u.schema, toTable := u.name, fromCols := keyCols t, toCols := keyCols u, condition := cond }

theorem fkJoinParts_spec {db : Database} (hk : WellKeyed db) (t : Table) (k : FK) (hu : ∃ u, TableOf db k.toTable u)
    (hl : k.fromKeys.length ≤ k.toKeys.length) :
    ∃ p j, fkJoinParts db t k = .ok p ∧ FkJoin db t k j ∧ PartsOf db.name j p := by
  obtain ⟨u, hu⟩ := hu
  obtain ⟨cond, e, c⟩ := fkCondition_conj t u k hl
  have hg : db.getTable k.toTable = some u := (tableOf_iff hk).1 hu
  refine ⟨partsFor db.name k.name t u cond, _, ?_, .mk u cond hu c, ?_⟩
  · unfold fkJoinParts
    rw [hg]
    simp only [e, bind, Except.bind]
    rfl
  · constructor <;> rfl

theorem relJoinParts_spec {db : Database} (hk : WellKeyed db) (t : Table) (r : Rel) (hu : ∃ u, TableOf db r.toTable u) :
    ∃ p j, relJoinParts db t r = .ok p ∧ RelJoin db t r j ∧ PartsOf db.name j p := by
  obtain ⟨u, hu⟩ := hu
  have hg : db.getTable r.toTable = some u := (tableOf_iff hk).1 hu
  refine ⟨partsFor db.name r.name t u r.conditions, _, ?_, .mk u hu, ?_⟩
  · unfold relJoinParts
    rw [hg]
    rfl
  · constructor <;> rfl

theorem mapM_spec {α β γ : Type} {f : α → Except PyErr β} {R : α → γ → Prop} {S : γ → β → Prop} {l : List α}
    (h : ∀ a ∈ l, ∃ b c, f a = .ok b ∧ R a c ∧ S c b) :
    ∃ bs cs, l.mapM f = .ok bs ∧ List.Forall₂ R l cs ∧ List.Forall₂ S cs bs := by
  induction l with
  | nil => exact ⟨[], [], rfl, .nil, .nil⟩
  | cons a l ih =>
    obtain ⟨b, c, e, hr, hs⟩ := h a (by simp)
    obtain ⟨bs, cs, e2, hr2, hs2⟩ := ih (fun x hx => h x (by simp [hx]))
    exact ⟨b :: bs, c :: cs, by simp [List.mapM_cons, e, e2, bind, Except.bind, pure, Except.pure], .cons hr hr2, .cons hs hs2⟩

theorem toQuery_spec {db : Str} {j : Join} {p : QueryParts} (h : PartsOf db j p) (hne : keyCols j.target ≠ []) :
    ∃ q, toQuery p = .ok q ∧ CountQuery db j.source j.target j.condition q := by
  unfold toQuery
  rw [h.toCols, h.fromDb, h.toDb, h.fromSchema, h.fromTable, h.toSchema, h.toTable, h.fromCols, h.condition]
  cases hc : keyCols j.target with
  | nil => exact absurd hc hne
  | cons c cs =>
    refine ⟨_, rfl, ?_⟩
    have := CountQuery.mk (db := db) (cond := j.condition) _ _ _ (keyOf_keyCols j.source) (hc ▸ keyOf_keyCols j.target)
    simpa only [cardinalityQuery, qualified_two, qualified_three, qualified_four, commas, joinS_intersperse, List.append_assoc] using this

theorem fromQuery_spec {db : Str} {j : Join} {p : QueryParts} (h : PartsOf db j p) (hne : keyCols j.source ≠ []) :
    ∃ q, fromQuery p = .ok q ∧ CountQuery db j.target j.source j.condition q := by
  unfold fromQuery
  rw [h.toCols, h.fromDb, h.toDb, h.fromSchema, h.fromTable, h.toSchema, h.toTable, h.fromCols, h.condition]
  cases hc : keyCols j.source with
  | nil => exact absurd hc hne
  | cons c cs =>
    refine ⟨_, rfl, ?_⟩
    have := CountQuery.mk (db := db) (cond := j.condition) _ _ _ (keyOf_keyCols j.target) (hc ▸ keyOf_keyCols j.source)
    simpa only [cardinalityQuery, qualified_two, qualified_three, qualified_four, commas, joinS_intersperse, List.append_assoc] using this

theorem counts_iff (srv : QueryServer) (asked : List Str) (q : Str) (n : Int) :
    Counts srv asked q n ↔ 0 < n ∧ cardinality srv asked q = n := by
  unfold Counts cardinality
  constructor
  · rintro ⟨h0, t, rest, e, hv⟩
    refine ⟨h0, ?_⟩
    rw [e]
    simp [(pyInt_value t n).2 hv]
  · rintro ⟨h0, h⟩
    refine ⟨h0, ?_⟩
    split at h
    · rename_i t rest e
      refine ⟨t, rest, e, ?_⟩
      rw [← pyInt_value]
      cases hp : pyInt t with
      | none => rw [hp] at h; simp only [Option.getD_none] at h; omega
      | some m => rw [hp] at h; simp only [Option.getD_some] at h; rw [h]
    · omega

theorem joinIssue_verdict (srv : QueryServer) (asked : List Str) (name qTo qFrom : Str) :
    Verdict srv asked name qTo qFrom (joinIssue name (cardinality srv (asked ++ [qTo]) qFrom) (cardinality srv asked qTo)) := by
  unfold joinIssue
  split
  · rename_i h
    refine .noData ?_
    rcases h with h | h
    · right
      rintro ⟨n, hn⟩
      rw [counts_iff] at hn
      omega
    · left
      rintro ⟨n, hn⟩
      rw [counts_iff] at hn
      omega
  · rename_i h
    push Not at h
    split
    · rename_i h1
      split
      · rename_i h2
        refine .oneToMany _ ((counts_iff _ _ _ _).2 ⟨h.2, rfl⟩) h1 ((counts_iff _ _ _ _).2 ⟨by omega, h2⟩)
      · rename_i h2
        exact .manyToMany _ _ ((counts_iff _ _ _ _).2 ⟨h.2, rfl⟩) h1 ((counts_iff _ _ _ _).2 ⟨h.1, rfl⟩) (by omega)
    · rename_i h1
      exact .fine _ ((counts_iff _ _ _ _).2 ⟨by omega, by omega⟩) ((counts_iff _ _ _ _).2 ⟨h.1, rfl⟩)

theorem runJoins_spec {db : Str} (srv : QueryServer) (js : List Join) (ps : List QueryParts) (h : List.Forall₂ (PartsOf db) js ps)
    (hne : ∀ j ∈ js, keyCols j.source ≠ [] ∧ keyCols j.target ≠ []) (asked : List Str) :
    ∃ asked' issues, runJoins srv asked ps = .ok (asked', issues) ∧ JoinReport db srv asked js issues := by
  induction h generalizing asked with
  | nil => exact ⟨asked, [], rfl, .nil _⟩
  | @cons j p js ps hjp _ ih =>
    obtain ⟨h1, h2⟩ := hne j (by simp)
    obtain ⟨q1, e1, c1⟩ := toQuery_spec hjp h2
    obtain ⟨q2, e2, c2⟩ := fromQuery_spec hjp h1
    obtain ⟨a, is, e3, r⟩ := ih (fun j hj => hne j (by simp [hj])) (asked ++ [q1, q2])
    refine ⟨a, joinIssue p.name (cardinality srv (asked ++ [q1]) q2) (cardinality srv asked q1) ++ is, ?_, ?_⟩
    · unfold runJoins
      rw [e1, e2]
      simp only [bind, Except.bind]
      rw [e3]
    · rw [hjp.name]
      exact .cons _ _ _ q1 q2 _ _ c1 c2 (joinIssue_verdict _ _ _ _ _) r

/-- The loop over the tables is the loop over all their joins. -/
theorem joinTables_eq (srv : QueryServer) (db : Database) (ts : List Table) (pss : List (List QueryParts))
    (h : List.Forall₂ (fun t ps => joinsOf db t = .ok ps) ts pss) (asked asked' issues : List Str)
    (e : runJoins srv asked pss.flatten = .ok (asked', issues)) : joinTables srv db asked ts = .ok (asked', issues) := by
  induction h generalizing asked issues with
  | nil => cases e; rfl
  | @cons t ps ts pss hj _ ih =>
    rw [List.flatten_cons] at e
    -- split the run
    have split : ∀ (a b : List QueryParts) (asked issues : List Str), runJoins srv asked (a ++ b) = .ok (asked', issues) →
        ∃ a1 i1 i2, runJoins srv asked a = .ok (a1, i1) ∧ runJoins srv a1 b = .ok (asked', i2) ∧ issues = i1 ++ i2 := by
      intro a b
      induction a with
      | nil => intro asked issues h; exact ⟨asked, [], issues, rfl, by simpa using h, rfl⟩
      | cons p a iha =>
        intro asked issues h
        rw [List.cons_append] at h
        unfold runJoins at h
        cases e1 : toQuery p with
        | error e => rw [e1] at h; cases h
        | ok q1 =>
          cases e2 : fromQuery p with
          | error e => rw [e1, e2] at h; cases h
          | ok q2 =>
            rw [e1, e2] at h
            simp only [bind, Except.bind] at h
            cases e3 : runJoins srv (asked ++ [q1, q2]) (a ++ b) with
            | error e => rw [e3] at h; cases h
            | ok r =>
              obtain ⟨r1, r2⟩ := r
              rw [e3] at h
              simp only [Except.ok.injEq, Prod.mk.injEq] at h
              obtain ⟨rfl, rfl⟩ := h
              obtain ⟨a1, i1, i2, h1, h2, rfl⟩ := iha _ _ e3
              refine ⟨a1, joinIssue p.name (cardinality srv (asked ++ [q1]) q2) (cardinality srv asked q1) ++ i1, i2, ?_, h2, by simp⟩
              unfold runJoins
              simp only [e1, e2, h1, bind, Except.bind]
    obtain ⟨a1, i1, i2, h1, h2, rfl⟩ := split _ _ _ _ e
    unfold joinTables
    rw [hj]
    simp only [bind, Except.bind]
    rw [h1]
    dsimp only
    rw [ih _ _ h2]

/-! ## Worksheet joins -/

theorem bind_ok_iff {α β : Type} (x : Except PyErr α) (f : α → Except PyErr β) (b : β) :
    (x >>= f) = .ok b ↔ ∃ a, x = .ok a ∧ f a = .ok b := by
  cases x with
  | error e => constructor <;> intro h
               · cases h
               · obtain ⟨a, h, -⟩ := h; cases h
  | ok a => constructor
            · intro h; exact ⟨a, rfl, h⟩
            · rintro ⟨a', h, h'⟩; cases h; exact h'

theorem text_ok_iff (y : Yaml) (s : Str) : y.text = .ok s ↔ y = .str s := by
  cases y <;> simp [Yaml.text]

theorem isStr_iff (y : Yaml) (s : Str) : y.isStr s = true ↔ y = .str s := by
  cases y <;> simp [Yaml.isStr]

theorem wsTableType_ok_iff (w : Worksheet) (n : Str) (ty : Yaml) : wsTableType w n = .ok ty ↔ WsType w n ty := by
  unfold wsTableType Worksheet.getTable WsType
  by_cases hn : n = []
  · simp [hn, bind, Except.bind]
  · simp only [hn, if_false, ne_eq, not_false_eq_true, true_and]
    cases hf : w.tables.find? (fun t => t.name.isStr n) with
    | none =>
      rw [List.find?_eq_none] at hf
      constructor
      · intro h; cases h
      · rintro ⟨pre, t, post, e, hname, -⟩
        exact absurd ((isStr_iff _ _).2 hname) (hf t (by rw [e]; simp))
    | some t =>
      obtain ⟨ht, pre, post, e, hpre⟩ := List.find?_eq_some_iff_append.1 hf
      have hpre' : ∀ t' ∈ pre, t'.name ≠ .str n := by
        intro t' ht' h
        have := hpre t' ht'
        rw [(isStr_iff _ _).2 h] at this
        cases this
      constructor
      · intro h
        cases h
        exact ⟨pre, t, post, e, (isStr_iff _ _).1 ht, rfl, hpre'⟩
      · rintro ⟨pre2, t2, post2, e2, hname, rfl, hpre2⟩
        have : w.tables.find? (fun t => t.name.isStr n) = some t2 := by
          rw [List.find?_eq_some_iff_append]
          refine ⟨(isStr_iff _ _).2 hname, pre2, post2, e2, ?_⟩
          intro a ha
          have := hpre2 a ha
          rw [← isStr_iff] at this
          simpa using this
        rw [hf] at this
        cases this
        rfl

theorem schemaOf_ok_iff {db : Database} (hk : WellKeyed db) (n s : Str) :
    schemaOf (db.getTable n) = .ok s ↔ ∃ t, TableOf db n t ∧ t.schema = s := by
  simp only [tableOf_iff hk]
  unfold schemaOf
  show (match db.tables.get? n with | none => _ | some t => _) = _ ↔ _
  cases db.tables.get? n with
  | none => simp
  | some t => simp

theorem joinS_append_singleton (sep : Str) (l : List Str) (x : Str) (h : l ≠ []) :
    joinS sep (l ++ [x]) = joinS sep l ++ sep ++ x := by
  induction l with
  | nil => exact absurd rfl h
  | cons a l ih =>
    cases l with
    | nil => simp [joinS]
    | cons b l =>
      have := ih (by simp)
      simp only [List.cons_append, joinS] at this ⊢
      rw [this]
      simp

theorem wsCondition_loop (db s1 t1 s2 t2 : Str) (k : FK) (i : Nat) (h1 : i ≤ k.fromKeys.length) (h2 : i ≤ k.toKeys.length) :
    (List.range i).foldlM (wsEquation db s1 t1 s2 t2 k) [] =
    .ok ((((k.fromKeys.zip k.toKeys).take i).map (fun p =>
      c!"(" ++ qualified [db, s1, t1, p.1] ++ c!" = " ++ qualified [db, s2, t2, p.2] ++ c!")")).intersperse c!" AND ").flatten := by
  induction i with
  | zero => rfl
  | succ i ih =>
    have hz : i < (k.fromKeys.zip k.toKeys).length := by simp only [List.length_zip]; omega
    rw [List.range_succ, List.foldlM_append, ih (by omega) (by omega), List.take_succ_eq_append_getElem hz]
    simp only [bind, Except.bind, List.foldlM_cons, List.foldlM_nil, pure, Except.pure]
    unfold wsEquation
    rw [List.getElem?_eq_getElem (by omega), List.getElem?_eq_getElem (by omega)]
    simp only [Except.ok.injEq, List.map_append, List.map_cons, List.map_nil, List.getElem_zip, qualified_four, fullCol]
    rw [← joinS_intersperse, ← joinS_intersperse]
    by_cases h0 : i = 0
    · subst h0
      simp [joinS]
    · have hne : ((k.fromKeys.zip k.toKeys).take i).map (fun p =>
          c!"(" ++ (dbSchema db s1 ++ c!"." ++ quoted t1 ++ c!"." ++ quoted p.1) ++ c!" = " ++
            (dbSchema db s2 ++ c!"." ++ quoted t2 ++ c!"." ++ quoted p.2) ++ c!")") ≠ [] := by
        intro h
        have := congrArg List.length h
        simp only [List.length_map, List.length_take, List.length_nil] at this
        omega
      rw [joinS_append_singleton _ _ _ hne]
      simp [Nat.pos_of_ne_zero h0]

theorem wsCondition_ok_iff (db s1 t1 s2 t2 : Str) (k : FK) (on : Str) :
    wsCondition db s1 t1 s2 t2 k = .ok on ↔ k.fromKeys.length ≤ k.toKeys.length ∧
      on = ((((k.fromKeys.zip k.toKeys)).map (fun p =>
        c!"(" ++ qualified [db, s1, t1, p.1] ++ c!" = " ++ qualified [db, s2, t2, p.2] ++ c!")")).intersperse c!" AND ").flatten := by
  by_cases hl : k.fromKeys.length ≤ k.toKeys.length
  · have := wsCondition_loop db s1 t1 s2 t2 k k.fromKeys.length (by omega) hl
    rw [List.take_of_length_le (by simp)] at this
    unfold wsCondition
    rw [this]
    simp only [Except.ok.injEq, hl, true_and]
    exact eq_comm
  · simp only [hl, false_and, iff_false]
    unfold wsCondition
    have e : List.range k.fromKeys.length = List.range k.toKeys.length ++ k.toKeys.length ::
        (List.range (k.fromKeys.length - k.toKeys.length - 1)).map (k.toKeys.length + 1 + ·) := by
      have : k.fromKeys.length = (k.toKeys.length + 1) + (k.fromKeys.length - k.toKeys.length - 1) := by omega
      conv => lhs; rw [this, List.range_add, List.range_succ]
      simp
    rw [e, List.foldlM_append, wsCondition_loop db s1 t1 s2 t2 k _ (by omega) (le_refl _)]
    simp only [bind, Except.bind, List.foldlM_cons]
    unfold wsEquation
    rw [List.getElem?_eq_none (l := k.toKeys) (le_refl _)]
    cases k.fromKeys[k.toKeys.length]? <;> simp

theorem missingQuery_eq (db : Str) (s d : Str) (t1 t2 : Table) (k : FK) (nt nc : Str) :
    missingQuery db t1.schema s t2.schema d k
      ((((k.fromKeys.zip k.toKeys)).map (fun p =>
        c!"(" ++ qualified [db, t1.schema, s, p.1] ++ c!" = " ++ qualified [db, t2.schema, d, p.2] ++ c!")")).intersperse
          c!" AND ").flatten nt nc = unmatchedQuery db (s, t1) (d, t2) k nt nc := by
  unfold missingQuery unmatchedQuery commas
  have h1 : fullCol db t1.schema s = fun c => qualified [db, t1.schema, s, c] := by
    funext c; rw [qualified_four]; rfl
  have h2 : fullCol db t2.schema d = fun c => qualified [db, t2.schema, d, c] := by
    funext c; rw [qualified_four]; rfl
  rw [h1, h2, joinS_intersperse, joinS_intersperse, qualified_three, qualified_three, qualified_two]
  simp only [List.append_assoc]

theorem needed_suggested (l r : Bool) : Needed l r (suggestedJoin l r) := by
  cases l <;> cases r <;> constructor

theorem Spec.Needed.eq {l r : Bool} {s : Str} (h : Needed l r s) : s = suggestedJoin l r := by
  cases h <;> rfl

theorem nonempty_decide {α : Type} (l : List α) : decide (l.length > 0) = !l.isEmpty := by
  cases l <;> simp

theorem wsJoinIssue_eq (n actual should : Str) : wsJoinIssue n actual should = if actual = should then []
    else [c!"Join " ++ n ++ c!" is type " ++ actual ++ c!", but should probably be " ++ should ++ c!"."] := by
  unfold wsJoinIssue
  by_cases h : actual = should <;> simp [h]

theorem runWsJoin_ok_iff (srv : QueryServer) (asked : List Str) (db s d n actual : Str) (t1 t2 : Table) (k : FK) (res : List Str × List Str) :
    runWsJoin srv asked db t1.schema s t2.schema d n actual k = .ok res ↔
      ∃ a b as bs r1 r2 should, k.fromKeys = a :: as ∧ k.toKeys = b :: bs ∧ k.fromKeys.length ≤ k.toKeys.length ∧
        srv asked (unmatchedQuery db (s, t1) (d, t2) k d a) = .ok r1 ∧
        srv (asked ++ [unmatchedQuery db (s, t1) (d, t2) k d a]) (unmatchedQuery db (s, t1) (d, t2) k s b) = .ok r2 ∧
        Needed (!r1.isEmpty) (!r2.isEmpty) should ∧
        res = (asked ++ [unmatchedQuery db (s, t1) (d, t2) k d a, unmatchedQuery db (s, t1) (d, t2) k s b],
          if actual = should then []
          else [c!"Join " ++ n ++ c!" is type " ++ actual ++ c!", but should probably be " ++ should ++ c!"."]) := by
  unfold runWsJoin
  rw [bind_ok_iff]
  constructor
  · rintro ⟨on, hon, h⟩
    obtain ⟨hl, rfl⟩ := (wsCondition_ok_iff _ _ _ _ _ _ _).1 hon
    split at h
    · rename_i a as b bs ha hb
      simp only [missingQuery_eq] at h
      rw [bind_ok_iff] at h
      obtain ⟨r1, h1, h⟩ := h
      rw [bind_ok_iff] at h
      obtain ⟨r2, h2, h⟩ := h
      simp only [nonempty_decide, wsJoinIssue_eq, Except.ok.injEq] at h
      exact ⟨a, b, as, bs, r1, r2, _, ha, hb, hl, h1, h2, needed_suggested _ _, h.symm⟩
    · cases h
  · rintro ⟨a, b, as, bs, r1, r2, should, ha, hb, hl, h1, h2, hn, rfl⟩
    refine ⟨_, (wsCondition_ok_iff _ _ _ _ _ _ _).2 ⟨hl, rfl⟩, ?_⟩
    split
    · rename_i a' as' b' bs' ha' hb'
      rw [ha] at ha'
      rw [hb] at hb'
      cases ha'
      cases hb'
      simp only [missingQuery_eq]
      rw [h1]
      simp only [bind, Except.bind]
      rw [h2]
      simp only [nonempty_decide, wsJoinIssue_eq, hn.eq]
    · rename_i hno
      exact absurd hb (hno _ _ _ _ ha)

theorem wsJoin_ok_iff (srv : QueryServer) {db : Database} (hk : WellKeyed db) (w : Worksheet) (asked : List Str) (j : WsJoin)
    (res : List Str × List Str) :
    wsJoin srv db w asked j = .ok res ↔ ∃ qs, res.1 = asked ++ qs ∧ WsVerdict srv db w asked j qs res.2 := by
  unfold wsJoin
  rw [bind_ok_iff]
  constructor
  · rintro ⟨s, hs, h⟩
    rw [text_ok_iff] at hs
    rw [bind_ok_iff] at h
    obtain ⟨ty1, hty1, h⟩ := h
    rw [wsTableType_ok_iff] at hty1
    by_cases hc1 : ty1 = .str c!"table"
    · rw [if_neg (by simpa [isStr_iff] using hc1), bind_ok_iff] at h
      obtain ⟨sc1, hsc1, h⟩ := h
      obtain ⟨t1, ht1, rfl⟩ := (schemaOf_ok_iff hk _ _).1 hsc1
      rw [bind_ok_iff] at h
      obtain ⟨d, hd, h⟩ := h
      rw [text_ok_iff] at hd
      rw [bind_ok_iff] at h
      obtain ⟨ty2, hty2, h⟩ := h
      rw [wsTableType_ok_iff] at hty2
      subst hc1
      by_cases hc2 : ty2 = .str c!"table"
      · rw [if_neg (by simpa [isStr_iff] using hc2), bind_ok_iff] at h
        obtain ⟨sc2, hsc2, h⟩ := h
        obtain ⟨t2, ht2, rfl⟩ := (schemaOf_ok_iff hk _ _).1 hsc2
        rw [bind_ok_iff] at h
        obtain ⟨n, hn, h⟩ := h
        rw [bind_ok_iff] at h
        obtain ⟨actual, hac, h⟩ := h
        rw [text_ok_iff] at hn hac
        subst hc2
        have hg : db.getTable s = some t1 := (tableOf_iff hk).1 ht1
        rw [hg] at h
        simp only [Option.bind_some] at h
        cases hfk : t1.getForeignKey n with
        | none =>
          rw [hfk] at h
          cases h
          refine ⟨[], by simp, .noKey s d n actual t1 t2 hs hty1 ht1 hd hty2 ht2 hn hac ?_⟩
          intro k hkm
          have : t1.fks.get? n = some k := Dict.get?_of_mem (hk.fks _ _ ht1) hkm
          rw [Table.getForeignKey] at hfk
          rw [hfk] at this
          cases this
        | some k =>
          rw [hfk] at h
          simp only [withForeignKey] at h
          rw [runWsJoin_ok_iff] at h
          obtain ⟨a, b, as, bs, r1, r2, should, ha, hb, hl, h1, h2, hnd, rfl⟩ := h
          exact ⟨_, rfl, .checked s d n actual t1 t2 k a b as bs r1 r2 should hs hty1 ht1 hd hty2 ht2 hn hac
            (Dict.mem_of_get? hfk) ha hb hl h1 h2 hnd⟩
      · rw [if_pos (by simpa [isStr_iff] using hc2)] at h
        cases h
        exact ⟨[], by simp, .otherTarget s d t1 ty2 hs hty1 ht1 hd hty2 hc2⟩
    · rw [if_pos (by simpa [isStr_iff] using hc1)] at h
      cases h
      exact ⟨[], by simp, .otherSource s ty1 hs hty1 hc1⟩
  · rintro ⟨qs, hres, hv⟩
    obtain ⟨asked', issues⟩ := res
    dsimp only at hres hv
    subst hres
    cases hv with
    | otherSource s ty hs hty hne =>
      refine ⟨s, (text_ok_iff _ _).2 hs, ?_⟩
      rw [bind_ok_iff]
      refine ⟨ty, (wsTableType_ok_iff _ _ _).2 hty, ?_⟩
      rw [if_pos (by simpa [isStr_iff] using hne)]
      simp
    | otherTarget s d t1 ty hs hty1 ht1 hd hty hne =>
      refine ⟨s, (text_ok_iff _ _).2 hs, ?_⟩
      rw [bind_ok_iff]
      refine ⟨_, (wsTableType_ok_iff _ _ _).2 hty1, ?_⟩
      rw [if_neg (by simp [isStr_iff]), bind_ok_iff]
      refine ⟨_, (schemaOf_ok_iff hk _ _).2 ⟨t1, ht1, rfl⟩, ?_⟩
      rw [bind_ok_iff]
      refine ⟨d, (text_ok_iff _ _).2 hd, ?_⟩
      rw [bind_ok_iff]
      refine ⟨ty, (wsTableType_ok_iff _ _ _).2 hty, ?_⟩
      rw [if_pos (by simpa [isStr_iff] using hne)]
      simp
    | noKey s d n actual t1 t2 hs hty1 ht1 hd hty2 ht2 hn hac hno =>
      refine ⟨s, (text_ok_iff _ _).2 hs, ?_⟩
      rw [bind_ok_iff]
      refine ⟨_, (wsTableType_ok_iff _ _ _).2 hty1, ?_⟩
      rw [if_neg (by simp [isStr_iff]), bind_ok_iff]
      refine ⟨_, (schemaOf_ok_iff hk _ _).2 ⟨t1, ht1, rfl⟩, ?_⟩
      rw [bind_ok_iff]
      refine ⟨d, (text_ok_iff _ _).2 hd, ?_⟩
      rw [bind_ok_iff]
      refine ⟨_, (wsTableType_ok_iff _ _ _).2 hty2, ?_⟩
      rw [if_neg (by simp [isStr_iff]), bind_ok_iff]
      refine ⟨_, (schemaOf_ok_iff hk _ _).2 ⟨t2, ht2, rfl⟩, ?_⟩
      rw [bind_ok_iff]
      refine ⟨n, (text_ok_iff _ _).2 hn, ?_⟩
      rw [bind_ok_iff]
      refine ⟨actual, (text_ok_iff _ _).2 hac, ?_⟩
      have hg : db.getTable s = some t1 := (tableOf_iff hk).1 ht1
      have hfk : t1.getForeignKey n = none := by
        unfold Table.getForeignKey
        cases h : t1.fks.get? n with
        | none => rfl
        | some k => exact absurd (Dict.mem_of_get? h) (hno k)
      rw [hg]
      simp only [Option.bind_some, hfk, withForeignKey, List.append_nil]
    | checked s d n actual t1 t2 k a b as bs r1 r2 should hs hty1 ht1 hd hty2 ht2 hn hac hkm ha hb hl h1 h2 hnd =>
      refine ⟨s, (text_ok_iff _ _).2 hs, ?_⟩
      rw [bind_ok_iff]
      refine ⟨_, (wsTableType_ok_iff _ _ _).2 hty1, ?_⟩
      rw [if_neg (by simp [isStr_iff]), bind_ok_iff]
      refine ⟨_, (schemaOf_ok_iff hk _ _).2 ⟨t1, ht1, rfl⟩, ?_⟩
      rw [bind_ok_iff]
      refine ⟨d, (text_ok_iff _ _).2 hd, ?_⟩
      rw [bind_ok_iff]
      refine ⟨_, (wsTableType_ok_iff _ _ _).2 hty2, ?_⟩
      rw [if_neg (by simp [isStr_iff]), bind_ok_iff]
      refine ⟨_, (schemaOf_ok_iff hk _ _).2 ⟨t2, ht2, rfl⟩, ?_⟩
      rw [bind_ok_iff]
      refine ⟨n, (text_ok_iff _ _).2 hn, ?_⟩
      rw [bind_ok_iff]
      refine ⟨actual, (text_ok_iff _ _).2 hac, ?_⟩
      have hg : db.getTable s = some t1 := (tableOf_iff hk).1 ht1
      have hfk : t1.getForeignKey n = some k := Dict.get?_of_mem (hk.fks _ _ ht1) hkm
      rw [hg]
      simp only [Option.bind_some, hfk, withForeignKey]
      rw [runWsJoin_ok_iff]
      exact ⟨a, b, as, bs, r1, r2, should, ha, hb, hl, h1, h2, hnd, rfl⟩

theorem wsJoins_ok_iff (srv : QueryServer) {db : Database} (hk : WellKeyed db) (w : Worksheet) (js : List WsJoin) (asked issues : List Str) :
    (∃ asked', wsJoins srv db w asked js = .ok (asked', issues)) ↔ WsReport srv db w asked js issues := by
  induction js generalizing asked issues with
  | nil =>
    constructor
    · rintro ⟨a, h⟩; cases h; exact .nil _
    · intro h; cases h; exact ⟨_, rfl⟩
  | cons j js ih =>
    constructor
    · rintro ⟨a, h⟩
      unfold wsJoins at h
      rw [bind_ok_iff] at h
      obtain ⟨⟨a1, i1⟩, h1, h⟩ := h
      rw [bind_ok_iff] at h
      obtain ⟨⟨a2, i2⟩, h2, h⟩ := h
      cases h
      obtain ⟨qs, hqs, hv⟩ := (wsJoin_ok_iff srv hk w asked j _).1 h1
      dsimp only at hqs hv h2
      subst hqs
      exact .cons _ _ _ qs _ _ hv ((ih _ _).1 ⟨_, h2⟩)
    · intro h
      cases h with
      | cons _ _ _ qs l ls hv hr =>
        obtain ⟨a2, h2⟩ := (ih _ _).2 hr
        have h1 := (wsJoin_ok_iff srv hk w asked j (asked ++ qs, l)).2 ⟨qs, rfl, hv⟩
        refine ⟨a2, ?_⟩
        unfold wsJoins
        rw [h1]
        simp only [bind, Except.bind]
        rw [h2]

/-! ## The reviewer -/

theorem startsWith_prefix_iff (s pre : Str) : startsWith s pre = true ↔ ∃ rest, s = pre ++ rest := by
  unfold startsWith
  rw [List.isPrefixOf_iff_prefix]
  constructor
  · rintro ⟨r, h⟩; exact ⟨r, h.symm⟩
  · rintro ⟨r, h⟩; exact ⟨r, h.symm⟩

theorem contains_iff_mem (l : List Str) (x : Str) : l.contains x = true ↔ x ∈ l := by simp

/-- Which reviews are called, and with which arguments. -/
theorem callArgs_spec (i : Inputs) (t : TestItem) (args : List Str) :
    callArgs i t = some args ↔ (c!"rtql" ∈ t.params → i.rtql = true) ∧ (c!"worksheet" ∈ t.params → i.worksheet = true) ∧
      args = inputsOf t ∧ args ≠ [] := by
  unfold callArgs inputsOf knownInputs
  by_cases hd : c!"database" ∈ t.params <;> by_cases hr : c!"rtql" ∈ t.params <;> by_cases hw : c!"worksheet" ∈ t.params <;>
    by_cases hc : c!"config_file" ∈ t.params <;> cases i.rtql <;> cases i.worksheet <;>
    simp [hd, hr, hw, hc, List.filter_cons, eq_comm] <;> (try (rintro rfl; simp))

theorem reviewItems_spec (names : List Str) (i : Inputs) (run : Str → List Str → Except PyErr (List Str)) (items : List TestItem)
    (hn : (items.map (·.name)).Nodup) (hin : ∀ t ∈ items, (∃ rest, t.name = c!"review_" ++ rest) → inputsOf t ≠ [])
    (recs : Dict (List Str)) (hrecs : ∀ t ∈ items, t.name ∉ recs.keys) :
    ∃ (app : List TestItem) (r : Except PyErr (List (Str × List Str))), app.Sublist items ∧ (∀ t, t ∈ app ↔ t ∈ items ∧ Applicable names i t) ∧
      Reviews run app (reviewItems names i run recs items).calls r ∧
      (reviewItems names i run recs items).result = r.map (recs ++ ·) := by
  induction items generalizing recs with
  | nil => exact ⟨[], .ok [], List.Sublist.refl _, by simp, .nil, by simp [reviewItems, Except.map]⟩
  | cons t ts ih =>
    simp only [List.map_cons, List.nodup_cons] at hn
    have ih' := ih hn.2 (fun t' ht' => hin t' (by simp [ht']))
    have skip : ¬ Applicable names i t → reviewItems names i run recs (t :: ts) = reviewItems names i run recs ts →
        ∃ (app : List TestItem) (r : Except PyErr (List (Str × List Str))), app.Sublist (t :: ts) ∧
          (∀ t', t' ∈ app ↔ t' ∈ t :: ts ∧ Applicable names i t') ∧
          Reviews run app (reviewItems names i run recs (t :: ts)).calls r ∧
          (reviewItems names i run recs (t :: ts)).result = r.map (recs ++ ·) := by
      intro hna e
      obtain ⟨app, r, h1, h2, h3, h4⟩ := ih' recs (fun t' ht' => hrecs t' (by simp [ht']))
      refine ⟨app, r, h1.cons _, ?_, by rw [e]; exact h3, by rw [e]; exact h4⟩
      intro t'
      rw [h2, List.mem_cons]
      constructor
      · rintro ⟨a, b⟩; exact ⟨.inr a, b⟩
      · rintro ⟨rfl | a, b⟩
        · exact absurd b hna
        · exact ⟨a, b⟩
    by_cases hsel : names ≠ [] ∧ ¬ names.contains t.name
    · refine skip (fun ha => ?_) (by rw [reviewItems, if_pos hsel])
      rcases ha.selected with h | h
      · exact hsel.1 h
      · exact hsel.2 ((contains_iff_mem _ _).2 h)
    · by_cases hrev : startsWith t.name c!"review_" = true
      · cases hca : callArgs i t with
        | none =>
          refine skip (fun ha => ?_) (by rw [reviewItems, if_neg hsel, if_pos hrev, hca])
          have := (callArgs_spec i t (inputsOf t)).2 ⟨ha.rtql, ha.worksheet, rfl, hin t (by simp) ha.review⟩
          rw [hca] at this
          cases this
        | some args =>
          obtain ⟨h1, h2, rfl, hne⟩ := (callArgs_spec i t args).1 hca
          have happ : Applicable names i t := by
            refine ⟨(startsWith_prefix_iff _ _).1 hrev, ?_, h1, h2⟩
            by_cases h : names = []
            · exact .inl h
            · right
              by_contra hm
              exact hsel ⟨h, by rwa [contains_iff_mem]⟩
          cases hrun : run t.name (inputsOf t) with
          | error e =>
            obtain ⟨app, -, g1, g2, -, -⟩ := ih' recs (fun t' ht' => hrecs t' (by simp [ht']))
            refine ⟨t :: app, .error e, g1.cons_cons _, ?_, ?_, ?_⟩
            · intro t'
              simp only [List.mem_cons, g2]
              constructor
              · rintro (rfl | ⟨a, b⟩)
                · exact ⟨.inl rfl, happ⟩
                · exact ⟨.inr a, b⟩
              · rintro ⟨rfl | a, b⟩
                · exact .inl rfl
                · exact .inr ⟨a, b⟩
            · simp only [reviewItems, if_neg hsel, if_pos hrev, hca, hrun]
              exact .raises _ _ _ hrun
            · simp only [reviewItems, if_neg hsel, if_pos hrev, hca, hrun, Except.map]
          | ok l =>
            have hset : (if l ≠ [] then recs.set t.name l else recs) = recs ++ (if l ≠ [] then [(t.name, l)] else []) := by
              split
              · exact Dict.set_of_not_mem _ (hrecs t (by simp))
              · simp
            obtain ⟨app, r, g1, g2, g3, g4⟩ := ih' (recs ++ (if l ≠ [] then [(t.name, l)] else [])) (by
              intro t' ht' hm
              rw [Dict.keys, List.map_append, List.mem_append] at hm
              rcases hm with hm | hm
              · exact hrecs t' (by simp [ht']) hm
              · split at hm
                · simp only [List.map_cons, List.map_nil, List.mem_singleton] at hm
                  exact hn.1 (by rw [← hm]; exact List.mem_map_of_mem ht')
                · simp at hm)
            have hmem : ∀ t', t' ∈ t :: app ↔ t' ∈ t :: ts ∧ Applicable names i t' := by
              intro t'
              simp only [List.mem_cons, g2]
              constructor
              · rintro (rfl | ⟨a, b⟩)
                · exact ⟨.inl rfl, happ⟩
                · exact ⟨.inr a, b⟩
              · rintro ⟨rfl | a, b⟩
                · exact .inl rfl
                · exact .inr ⟨a, b⟩
            by_cases hl : l = []
            · subst hl
              refine ⟨t :: app, r, g1.cons_cons _, hmem, ?_, ?_⟩
              · simp only [reviewItems, if_neg hsel, if_pos hrev, hca, hrun, hset]
                exact .clean _ _ _ _ hrun g3
              · simp only [reviewItems, if_neg hsel, if_pos hrev, hca, hrun, hset]
                simpa using g4
            · refine ⟨t :: app, r.map ((t.name, l) :: ·), g1.cons_cons _, hmem, ?_, ?_⟩
              · simp only [reviewItems, if_neg hsel, if_pos hrev, hca, hrun, hset]
                exact .found _ _ _ _ _ hrun hl g3
              · simp only [reviewItems, if_neg hsel, if_pos hrev, hca, hrun, hset]
                rw [g4]
                cases r <;> simp [Except.map, hl]
      · refine skip (fun ha => hrev ((startsWith_prefix_iff _ _).2 ha.review)) (by rw [reviewItems, if_neg hsel, if_neg hrev])

end Verif
