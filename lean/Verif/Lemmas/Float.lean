import Verif.Py.Float
import Verif.Spec.Float
import Mathlib.Tactic.Linarith
import Mathlib.Tactic.Ring
import Mathlib.Tactic.NormNum
import Mathlib.Tactic.FieldSimp
import Mathlib.Tactic.Positivity
import Mathlib.Algebra.Order.Field.Basic
import Mathlib.Algebra.Order.Field.Power
import Mathlib.Algebra.Field.Rat
/-
Lemmas about rounding: the model computes the rounded number, which is the nearest one and close.
-/

namespace Verif
open Spec

theorem two_zpow_pos (e : Int) : (0 : Rat) < 2 ^ e := zpow_pos (by norm_num) e

theorem two_zpow_add (a b : Int) : (2 : Rat) ^ (a + b) = 2 ^ a * 2 ^ b := zpow_add₀ (by norm_num) a b

theorem two_zpow_le {a b : Int} (h : a ≤ b) : (2 : Rat) ^ a ≤ 2 ^ b := zpow_le_zpow_right₀ (by norm_num) h

theorem two_zpow_lt {a b : Int} (h : a < b) : (2 : Rat) ^ a < 2 ^ b := zpow_lt_zpow_right₀ (by norm_num) h

/-- The nearest integer is at most a half away, and even if it is exactly a half away. -/
theorem roundEven_spec (q : Rat) : 2 * |q - roundEven q| ≤ 1 ∧ (2 * |q - roundEven q| = 1 → roundEven q % 2 = 0) := by
  have h1 : (q.floor : Rat) ≤ q := Rat.floor_le q
  have h2 : q < q.floor + 1 := by have := Rat.lt_floor_add_one q; push_cast at this; exact this
  unfold roundEven
  split
  · rename_i h
    rw [abs_of_nonneg (by linarith)]
    exact ⟨by linarith, fun e => absurd e (by linarith)⟩
  · split
    · rename_i h
      push_cast
      rw [abs_of_nonpos (by linarith)]
      exact ⟨by linarith, fun e => absurd e (by linarith)⟩
    · rename_i ha hb
      have e : q - q.floor = 1 / 2 := by linarith
      split
      · rename_i h
        rw [abs_of_nonneg (by linarith)]
        exact ⟨by linarith, fun _ => h⟩
      · rename_i h
        push_cast
        rw [abs_of_nonpos (by linarith)]
        exact ⟨by linarith, fun _ => by omega⟩

theorem abs_num_den (q : Rat) : (q.num.natAbs : Rat) / (q.den : Rat) = |q| := by
  have hd : (0 : Rat) < q.den := by exact_mod_cast q.den_pos
  conv => rhs; rw [← Rat.num_div_den q, abs_div, abs_of_pos hd]
  rw [Nat.cast_natAbs, Int.cast_abs]

theorem log2_bounds {n : Nat} (h : n ≠ 0) : (2 : Rat) ^ ((Nat.log2 n : Nat) : Int) ≤ n ∧ (n : Rat) < 2 ^ (((Nat.log2 n : Nat) : Int) + 1) := by
  constructor
  · rw [zpow_natCast]
    exact_mod_cast Nat.log2_self_le h
  · have : n < 2 ^ (n.log2 + 1) := (Nat.log2_lt h).1 (Nat.lt_succ_self _)
    have e : ((n.log2 : Nat) : Int) + 1 = ((n.log2 + 1 : Nat) : Int) := by push_cast; rfl
    rw [e, zpow_natCast]
    exact_mod_cast this

theorem lastBit_spec (q : Rat) : -1074 ≤ lastBit q ∧ |q| < 2 ^ (lastBit q + 53) ∧ (lastBit q = -1074 ∨ 2 ^ (lastBit q + 52) ≤ |q|) := by
  unfold lastBit
  split
  · rename_i h
    subst h
    exact ⟨le_refl _, by rw [abs_zero]; exact two_zpow_pos _, .inl rfl⟩
  · rename_i h
    have hn : q.num.natAbs ≠ 0 := by simpa using h
    obtain ⟨a1, a2⟩ := log2_bounds hn
    obtain ⟨b1, b2⟩ := log2_bounds q.den_nz
    dsimp only
    rw [abs_num_den]
    generalize hk : (Nat.log2 q.num.natAbs : Int) - (Nat.log2 q.den : Int) = k
    have hd : (0 : Rat) < q.den := by exact_mod_cast q.den_pos
    have up : |q| < 2 ^ (k + 1) := by
      rw [← abs_num_den, div_lt_iff₀ hd]
      calc (q.num.natAbs : Rat) < 2 ^ ((Nat.log2 q.num.natAbs : Int) + 1) := a2
        _ = 2 ^ (k + 1) * 2 ^ (Nat.log2 q.den : Int) := by rw [← two_zpow_add]; congr 1; omega
        _ ≤ 2 ^ (k + 1) * q.den := mul_le_mul_of_nonneg_left b1 (two_zpow_pos _).le
    have lo : 2 ^ (k - 1) ≤ |q| := by
      rw [← abs_num_den, le_div_iff₀ hd]
      calc 2 ^ (k - 1) * (q.den : Rat) ≤ 2 ^ (k - 1) * 2 ^ ((Nat.log2 q.den : Int) + 1) :=
            mul_le_mul_of_nonneg_left b2.le (two_zpow_pos _).le
        _ = 2 ^ (Nat.log2 q.num.natAbs : Int) := by rw [← two_zpow_add]; congr 1; omega
        _ ≤ _ := a1
    refine ⟨le_max_left _ _, ?_, ?_⟩
    · split
      · rename_i hlt
        exact lt_of_lt_of_le hlt (two_zpow_le (by omega))
      · exact lt_of_lt_of_le up (two_zpow_le (by omega))
    · split
      · by_cases hb : k - 53 ≤ -1074
        · exact .inl (max_eq_left hb)
        · refine .inr (le_trans (two_zpow_le ?_) lo)
          omega
      · rename_i hge
        by_cases hb : k - 52 ≤ -1074
        · exact .inl (max_eq_left hb)
        · refine .inr (le_trans (two_zpow_le ?_) (not_lt.1 hge))
          omega

/-- The number the model computes, before it looks whether it is too large. -/
theorem rounded_spec (q : Rat) : Rounds q ((roundEven (q / 2 ^ lastBit q) : Rat) * 2 ^ lastBit q) := by
  obtain ⟨h1, h2, h3⟩ := lastBit_spec q
  obtain ⟨r1, r2⟩ := roundEven_spec (q / 2 ^ lastBit q)
  have hp := two_zpow_pos (lastBit q)
  have e : |q - (roundEven (q / 2 ^ lastBit q) : Rat) * 2 ^ lastBit q| =
      |q / 2 ^ lastBit q - roundEven (q / 2 ^ lastBit q)| * 2 ^ lastBit q := by
    rw [← abs_of_pos hp, ← abs_mul, abs_of_pos hp, sub_mul, div_mul_cancel₀ _ hp.ne']
  refine ⟨lastBit q, _, h1, h2, h3, rfl, ?_, ?_⟩
  · rw [e]
    nlinarith
  · intro h
    rw [e] at h
    apply r2
    have : (2 * |q / 2 ^ lastBit q - roundEven (q / 2 ^ lastBit q)|) * 2 ^ lastBit q = 1 * 2 ^ lastBit q := by linarith
    exact mul_right_cancel₀ hp.ne' this

/-- A rounded number is unique. -/
theorem Spec.Rounds.unique {q x y : Rat} (hx : Rounds q x) (hy : Rounds q y) : x = y := by
  obtain ⟨e, m, a1, a2, a3, rfl, a5, a6⟩ := hx
  obtain ⟨f, n, b1, b2, b3, rfl, b5, b6⟩ := hy
  have key : ∀ {e f : Int}, -1074 ≤ f → |q| < 2 ^ (f + 53) → (e = -1074 ∨ 2 ^ (e + 52) ≤ |q|) → e ≤ f := by
    intro e f h1 h2 h3
    by_contra hc
    rcases h3 with h3 | h3
    · omega
    · have : (2 : Rat) ^ (f + 53) ≤ 2 ^ (e + 52) := two_zpow_le (by omega)
      linarith
  have ef : e = f := le_antisymm (key b1 b2 a3) (key a1 a2 b3)
  subst ef
  have hp := two_zpow_pos e
  have d : |(m : Rat) - n| * 2 ^ e ≤ 1 * 2 ^ e := by
    rw [← abs_of_pos hp, ← abs_mul, abs_of_pos hp]
    have := abs_sub_le ((m : Rat) * 2 ^ e) q (n * 2 ^ e)
    rw [abs_sub_comm ((m : Rat) * 2 ^ e) q] at this
    rw [sub_mul]
    linarith
  have d' : |(m : Rat) - n| ≤ 1 := le_of_mul_le_mul_right d hp
  by_cases hmn : m = n
  · rw [hmn]
  · exfalso
    have d1 : |m - n| ≤ 1 := by exact_mod_cast d'
    have d2 : |m - n| = 1 := by
      have : 0 < |m - n| := abs_pos.2 (sub_ne_zero.2 hmn)
      omega
    have d3 : |(m : Rat) * 2 ^ e - n * 2 ^ e| = 2 ^ e := by
      rw [← sub_mul, abs_mul, abs_of_pos hp]
      have : |(m : Rat) - n| = 1 := by exact_mod_cast d2
      rw [this, one_mul]
    have := abs_sub_le ((m : Rat) * 2 ^ e) q (n * 2 ^ e)
    rw [abs_sub_comm ((m : Rat) * 2 ^ e) q, d3] at this
    have m2 := a6 (by linarith)
    have n2 := b6 (by linarith)
    rcases abs_eq (by norm_num : (0 : Int) ≤ 1) |>.1 d2 with h | h <;> omega

theorem toFloat_ok {q x : Rat} : toFloat q = .ok x ↔ Rounds q x ∧ |x| < 2 ^ (1024 : Nat) := by
  unfold toFloat
  dsimp only
  have hr := rounded_spec q
  constructor
  · intro h
    split at h
    · rename_i hb
      cases h
      exact ⟨hr, abs_lt.2 ⟨hb.2, hb.1⟩⟩
    · cases h
  · rintro ⟨h1, h2⟩
    rw [h1.unique hr] at h2 ⊢
    rw [if_pos ⟨(abs_lt.1 h2).2, (abs_lt.1 h2).1⟩]

/-- Numbers with 53 binary digits. -/
def Double (y : Rat) : Prop := ∃ m f : Int, |m| < 2 ^ 53 ∧ -1074 ≤ f ∧ y = (m : Rat) * 2 ^ f

/-- A rounded number is the nearest. -/
theorem Spec.Rounds.nearest {q x y : Rat} (h : Rounds q x) (hy : Double y) : |q - x| ≤ |q - y| := by
  obtain ⟨e, m, h1, h2, h3, rfl, h5, -⟩ := h
  obtain ⟨n, f, n1, f1, rfl⟩ := hy
  have hp := two_zpow_pos e
  -- multiples of the last bit are not nearer
  have mult : ∀ k : Int, |q - m * 2 ^ e| ≤ |q - k * 2 ^ e| := by
    intro k
    by_cases hk : k = m
    · rw [hk]
    · have d1 : 1 ≤ |k - m| := Int.one_le_abs (sub_ne_zero.2 hk)
      have d2 : (1 : Rat) ≤ |(k : Rat) - m| := by exact_mod_cast d1
      have d3 : (2 : Rat) ^ e ≤ |(k : Rat) * 2 ^ e - m * 2 ^ e| := by
        rw [← sub_mul, abs_mul, abs_of_pos hp]
        nlinarith
      have := abs_sub_le ((k : Rat) * 2 ^ e) q (m * 2 ^ e)
      rw [abs_sub_comm ((k : Rat) * 2 ^ e) q] at this
      linarith
  by_cases hf : e ≤ f
  · have : (n : Rat) * 2 ^ f = ((n * 2 ^ (f - e).toNat : Int) : Rat) * 2 ^ e := by
      push_cast
      rw [mul_assoc, ← zpow_natCast, ← two_zpow_add]
      congr 2
      omega
    rw [this]
    exact mult _
  · have hf : f < e := not_le.1 hf
    have h3 : 2 ^ (e + 52) ≤ |q| := h3.resolve_left (by omega)
    have ny : |(n : Rat) * 2 ^ f| < 2 ^ (e + 52) := by
      rw [abs_mul, abs_of_pos (two_zpow_pos f)]
      have : |(n : Rat)| < 2 ^ (53 : Int) := by exact_mod_cast n1
      calc |(n : Rat)| * 2 ^ f < 2 ^ (53 : Int) * 2 ^ f := mul_lt_mul_of_pos_right this (two_zpow_pos f)
        _ = 2 ^ (53 + f) := (two_zpow_add _ _).symm
        _ ≤ 2 ^ (e + 52) := two_zpow_le (by omega)
    obtain ⟨l, u⟩ := abs_lt.1 ny
    have z : (2 : Rat) ^ (e + 52) = ((2 ^ 52 : Int) : Rat) * 2 ^ e := by
      rw [two_zpow_add, mul_comm]; norm_num
    rcases le_total 0 q with hq | hq
    · rw [abs_of_nonneg hq] at h3
      refine le_trans (mult (2 ^ 52)) ?_
      rw [← z, abs_of_nonneg (by linarith), abs_of_nonneg (by linarith)]
      linarith
    · rw [abs_of_nonpos hq] at h3
      refine le_trans (mult (-2 ^ 52)) ?_
      have z' : ((-2 ^ 52 : Int) : Rat) * 2 ^ e = -2 ^ (e + 52) := by rw [z]; push_cast; ring
      rw [z', abs_of_nonpos (by linarith), abs_of_nonpos (by linarith)]
      linarith

theorem Spec.Rounds.le {q x L : Rat} (h : Rounds q x) (hL : Double L) (hq : q ≤ L) : x ≤ L := by
  by_contra hc
  have := h.nearest hL
  rw [abs_of_nonpos (by linarith), abs_of_nonpos (by linarith)] at this
  linarith

theorem Spec.Rounds.ge {q x L : Rat} (h : Rounds q x) (hL : Double L) (hq : L ≤ q) : L ≤ x := by
  by_contra hc
  have := h.nearest hL
  rw [abs_of_nonneg (by linarith), abs_of_nonneg (by linarith)] at this
  linarith

/-- A number that is nearer to another double than to `L` is not rounded to `L`. -/
theorem Spec.Rounds.ne {q x L y : Rat} (h : Rounds q x) (hy : Double y) (hn : |q - y| < |q - L|) : x ≠ L := by
  rintro rfl
  have := h.nearest hy
  linarith

/-- The relative error is small, except for tiny numbers. -/
theorem Spec.Rounds.close {q x : Rat} (h : Rounds q x) (hq : 2 ^ (-1022 : Int) ≤ |q|) : |q - x| * 2 ^ 53 ≤ |q| := by
  obtain ⟨e, m, h1, h2, h3, rfl, h5, -⟩ := h
  have : (2 : Rat) ^ (e + 52) ≤ |q| := by
    rcases h3 with rfl | h3
    · exact hq
    · exact h3
  have z : (2 : Rat) ^ (e + 52) = 2 ^ 52 * 2 ^ e := by rw [two_zpow_add, mul_comm]; norm_num
  rw [z] at this
  linarith

theorem double_int {n : Int} (h : |n| < 2 ^ 53) : Double (n : Rat) := ⟨n, 0, h, by norm_num, by simp⟩

theorem rounds_double {y : Rat} {m f : Int} (hm : |m| < 2 ^ 53) (hf : -1074 ≤ f) (hy : y = (m : Rat) * 2 ^ f) {x : Rat} (h : Rounds y x) : x = y := by
  have := h.nearest ⟨m, f, hm, hf, hy⟩
  rw [sub_self, abs_zero] at this
  have := abs_nonpos_iff.1 this
  linarith

/-- Rounding numbers that are not too large succeeds. -/
theorem toFloat_total {q : Rat} (h : |q| ≤ 2 ^ (1023 : Nat)) : ∃ x, toFloat q = .ok x ∧ Rounds q x ∧ |x| ≤ 2 ^ (1023 : Nat) := by
  have hr := rounded_spec q
  have hd : Double (2 ^ (1023 : Nat)) := ⟨1, 1023, by norm_num, by norm_num, by rw [Int.cast_one, one_mul]; exact (zpow_natCast (2 : Rat) 1023).symm⟩
  have hd' : Double (-2 ^ (1023 : Nat)) := ⟨-1, 1023, by norm_num, by norm_num, by rw [Int.cast_neg, Int.cast_one, neg_one_mul]; congr 1⟩
  obtain ⟨a, b⟩ := abs_le.1 h
  have hx := abs_le.2 ⟨hr.ge hd' a, hr.le hd b⟩
  exact ⟨_, toFloat_ok.2 ⟨hr, lt_of_le_of_lt hx (pow_lt_pow_right₀ (by norm_num) (by norm_num))⟩, hr, hx⟩

end Verif
