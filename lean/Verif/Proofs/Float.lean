import Verif.Model.Float
import Mathlib.Tactic.Linarith
import Mathlib.Tactic.Ring
import Mathlib.Tactic.NormNum
import Mathlib.Tactic.FieldSimp
import Mathlib.Tactic.Positivity
import Mathlib.Algebra.Order.Field.Power

/-! # Facts about rounding -/

namespace Sas

theorem pow2_eq (e : Int) : pow2 e = (2 : ℚ) ^ e := by
  cases e with
  | ofNat n => simp [pow2]
  | negSucc n =>
    simp only [pow2, zpow_negSucc, Rat.mkRat_eq_div]
    push_cast
    rw [one_div]

theorem pow2_pos (e : Int) : 0 < pow2 e := by rw [pow2_eq]; positivity

theorem ilog2_spec {x : ℚ} (hx : 0 < x) : pow2 (ilog2 x) ≤ x ∧ x < pow2 (ilog2 x + 1) := by
  have hn : x.num.natAbs ≠ 0 := by
    have := Rat.num_pos.2 hx; omega
  have hd : x.den ≠ 0 := x.den_nz
  have hn1 := Nat.log2_self_le hn
  have hn2 := Nat.lt_log2_self (n := x.num.natAbs)
  have hd1 := Nat.log2_self_le hd
  have hd2 := Nat.lt_log2_self (n := x.den)
  generalize hA : x.num.natAbs.log2 = A at hn1 hn2
  generalize hB : x.den.log2 = B at hd1 hd2
  have hxe : x = (x.num.natAbs : ℚ) / (x.den : ℚ) := by
    have h := Rat.num_div_den x
    have h2 : ((x.num.natAbs : Int) : ℚ) = (x.num : ℚ) := by
      have := Rat.num_pos.2 hx
      rw [Int.natAbs_of_nonneg (le_of_lt this)]
    rw [← h2] at h
    rw [Int.cast_natCast] at h
    exact h.symm
  have hn1q : (2 : ℚ) ^ A ≤ x.num.natAbs := by exact_mod_cast hn1
  have hn2q : (x.num.natAbs : ℚ) < (2 : ℚ) ^ (A + 1) := by exact_mod_cast hn2
  have hd1q : (2 : ℚ) ^ B ≤ x.den := by exact_mod_cast hd1
  have hd2q : (x.den : ℚ) < (2 : ℚ) ^ (B + 1) := by exact_mod_cast hd2
  have hdpos : (0 : ℚ) < x.den := by exact_mod_cast Nat.pos_of_ne_zero hd
  have key1 : (2 : ℚ) ^ ((A : Int) - B - 1) ≤ x := by
    rw [hxe, le_div_iff₀ hdpos]
    calc (2 : ℚ) ^ ((A : Int) - B - 1) * x.den ≤ (2 : ℚ) ^ ((A : Int) - B - 1) * (2 : ℚ) ^ (B + 1) :=
          mul_le_mul_of_nonneg_left (le_of_lt hd2q) (by positivity)
      _ = (2 : ℚ) ^ A := by
          rw [← zpow_natCast, ← zpow_natCast, ← zpow_add₀ (by norm_num)]
          congr 1
          push_cast
          ring
      _ ≤ _ := hn1q
  have key2 : x < (2 : ℚ) ^ ((A : Int) - B + 1) := by
    rw [hxe, div_lt_iff₀ hdpos]
    calc (x.num.natAbs : ℚ) < (2 : ℚ) ^ (A + 1) := hn2q
      _ = (2 : ℚ) ^ ((A : Int) - B + 1) * (2 : ℚ) ^ B := by
          rw [← zpow_natCast, ← zpow_natCast, ← zpow_add₀ (by norm_num)]
          congr 1
          push_cast
          ring
      _ ≤ _ := mul_le_mul_of_nonneg_left hd1q (by positivity)
  unfold ilog2
  simp only [hA, hB]
  by_cases h : x < pow2 ((A : Int) - B)
  · rw [if_pos h]
    refine ⟨by rw [pow2_eq]; exact key1, ?_⟩
    have : ((A : Int) - B - 1 + 1) = (A : Int) - B := by ring
    rw [this]; exact h
  · rw [if_neg h]
    exact ⟨not_lt.1 h, by rw [pow2_eq]; exact key2⟩

theorem rint_err (x : ℚ) : |(rint x : ℚ) - x| ≤ 1 / 2 := by
  have h1 : (x.floor : ℚ) ≤ x := Rat.floor_le x
  have h2 : x < x.floor + 1 := by have := Rat.lt_floor_add_one x; push_cast at this; exact this
  unfold rint
  rw [abs_le]
  simp only
  split
  · constructor <;> linarith
  · split
    · push_cast; constructor <;> linarith
    · have h : x - x.floor = 1 / 2 := by linarith
      split
      · constructor <;> linarith
      · push_cast; constructor <;> linarith

theorem rint_int (n : Int) : rint (n : ℚ) = n := by
  unfold rint
  simp

theorem roundAway_err (x : ℚ) : |(roundAway x : ℚ) - x| ≤ 1 / 2 := by
  unfold roundAway
  rw [abs_le]
  split
  · have h1 := Rat.floor_le (x + 1 / 2)
    have h2 := Rat.lt_floor_add_one (x + 1 / 2)
    push_cast at h2
    constructor <;> linarith
  · have h1 := Rat.floor_le (-x + 1 / 2)
    have h2 := Rat.lt_floor_add_one (-x + 1 / 2)
    push_cast at h2
    push_cast
    constructor <;> linarith

/-- An integer less than one from both neighbours is the same integer. -/
theorem int_eq_of_abs_lt {m n : Int} (h : |(m : ℚ) - n| < 1) : m = n := by
  have h1 : |((m - n : Int) : ℚ)| < 1 := by push_cast; exact h
  have h2 : |m - n| < 1 := by exact_mod_cast h1
  have := Int.abs_lt_one_iff.1 h2
  omega

theorem roundAway_int (n : Int) : roundAway (n : ℚ) = n := by
  apply int_eq_of_abs_lt
  have := roundAway_err (n : ℚ)
  linarith

/-- When `x` is nonzero, `2 ^ (ulpExp x)` measures it. -/
theorem ulpExp_le {x : ℚ} {k : Int} (hx : |x| < (2 : ℚ) ^ k) (hk : -1021 ≤ k) : ulpExp x ≤ k - 53 := by
  unfold ulpExp
  split
  · omega
  · rename_i h0
    have ha : (if x < 0 then -x else x) = |x| := by
      split
      · rw [abs_of_neg ‹_›]
      · rw [abs_of_nonneg (not_lt.1 ‹_›)]
    rw [ha]
    have hpos : 0 < |x| := abs_pos.2 h0
    have h := (ilog2_spec hpos).1
    rw [pow2_eq] at h
    have h2 : (2 : ℚ) ^ (ilog2 |x|) < (2 : ℚ) ^ k := lt_of_le_of_lt h hx
    have h3 : ilog2 |x| < k := (zpow_lt_zpow_iff_right₀ (by norm_num)).1 h2
    omega

theorem ulpExp_ge (x : ℚ) : -1074 ≤ ulpExp x := by
  unfold ulpExp
  split <;> omega

/-- Rounding changes a number of magnitude below `2^k` by at most half a unit in the last place. -/
theorem fl_err {x : ℚ} {k : Int} (hx : |x| < (2 : ℚ) ^ k) (hk : -1021 ≤ k) :
    |fl x - x| ≤ (2 : ℚ) ^ (k - 54) := by
  have hu := ulpExp_le hx hk
  unfold fl
  rw [pow2_eq]
  generalize hE : ulpExp x = E at hu
  have hp : (0 : ℚ) < (2 : ℚ) ^ E := by positivity
  have h1 := rint_err (x / (2 : ℚ) ^ E)
  have h2 : (rint (x / (2 : ℚ) ^ E) : ℚ) * (2 : ℚ) ^ E - x
      = ((rint (x / (2 : ℚ) ^ E) : ℚ) - x / (2 : ℚ) ^ E) * (2 : ℚ) ^ E := by
    field_simp
  rw [h2, abs_mul, abs_of_pos hp]
  calc _ ≤ 1 / 2 * (2 : ℚ) ^ E := mul_le_mul_of_nonneg_right h1 (le_of_lt hp)
    _ = (2 : ℚ) ^ (E - 1) := by rw [zpow_sub_one₀ (by norm_num)]; ring
    _ ≤ (2 : ℚ) ^ (k - 54) := zpow_le_zpow_right₀ (by norm_num) (by omega)

/-- Rounding returns numbers with at most 53 significant bits unchanged. -/
theorem fl_exact' {n e : Int} (hn : |n| < 2 ^ 53) (he : -1074 ≤ e) :
    fl ((n : ℚ) * (2 : ℚ) ^ e) = (n : ℚ) * (2 : ℚ) ^ e := by
  have hx : |(n : ℚ) * (2 : ℚ) ^ e| < (2 : ℚ) ^ (e + 53) := by
    rw [abs_mul, abs_of_pos (by positivity : (0 : ℚ) < (2 : ℚ) ^ e), zpow_add₀ (by norm_num), mul_comm]
    have : (|n| : ℚ) < (2 : ℚ) ^ (53 : Int) := by
      rw [← Int.cast_abs]
      exact_mod_cast hn
    exact mul_lt_mul_of_pos_left this (by positivity)
  have hu := ulpExp_le hx (by omega)
  unfold fl
  rw [pow2_eq]
  generalize hE : ulpExp ((n : ℚ) * (2 : ℚ) ^ e) = E at hu
  obtain ⟨j, hj⟩ : ∃ j : Nat, e = E + j := ⟨(e - E).toNat, by omega⟩
  have h1 : (n : ℚ) * (2 : ℚ) ^ e / (2 : ℚ) ^ E = ((n * 2 ^ j : Int) : ℚ) := by
    rw [hj, zpow_add₀ (by norm_num), zpow_natCast]
    push_cast
    field_simp
  rw [h1, rint_int, ← h1]
  have : (2 : ℚ) ^ E ≠ 0 := by positivity
  field_simp

theorem fl_exact {n e : Int} (hn : |n| ≤ 2 ^ 53) (he : -1074 ≤ e) :
    fl ((n : ℚ) * (2 : ℚ) ^ e) = (n : ℚ) * (2 : ℚ) ^ e := by
  rcases lt_or_eq_of_le hn with h | h
  · exact fl_exact' h he
  · have h2 : n = 2 ^ 53 ∨ n = -2 ^ 53 := by
      rcases abs_choice n with h' | h' <;> omega
    have h3 : (n : ℚ) * (2 : ℚ) ^ e = ((n / 2 : Int) : ℚ) * (2 : ℚ) ^ (e + 1) := by
      rw [zpow_add_one₀ (by norm_num)]
      rcases h2 with rfl | rfl <;> norm_num <;> ring
    rw [h3]
    apply fl_exact' _ (by omega)
    rcases h2 with rfl | rfl <;> norm_num

theorem fl_int {n : Int} (hn : |n| ≤ 2 ^ 53) : fl (n : ℚ) = n := by
  have := fl_exact (n := n) (e := 0) hn (by norm_num)
  simpa using this

theorem fl_zero : fl 0 = 0 := by
  have := fl_int (n := 0) (by norm_num)
  simpa using this

end Sas
