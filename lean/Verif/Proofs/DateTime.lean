import Verif.Spec.DateTime
import Verif.Proofs.Float
import Verif.Proofs.Calendar

/-! # Lemmas about the conversion of doubles to instants -/

namespace Sas
open Spec

theorem IsDouble.fl {x : ℚ} (h : IsDouble x) : Sas.fl x = x := by
  obtain ⟨n, e, rfl, hn, he⟩ := h
  exact fl_exact' hn he

theorem IsDouble.int {n : Int} (h : |n| < 2 ^ 53) : IsDouble (n : ℚ) :=
  ⟨n, 0, by simp, h, by norm_num⟩

/-- Subtracting an integer from a double is exact when the result is not larger than what the double's
last place allows. -/
theorem sub_int_form {s : ℚ} {n e m : Int} (hs : s = (n : ℚ) * (2 : ℚ) ^ e) (he : -1074 ≤ e)
    (hsub : |s - m| ≤ (2 : ℚ) ^ (e + 53)) (hk : |s - m| ≤ (2 : ℚ) ^ (53 : Int)) :
    ∃ n' e' : Int, s - m = (n' : ℚ) * (2 : ℚ) ^ e' ∧ |n'| ≤ 2 ^ 53 ∧ -1074 ≤ e' := by
  by_cases h0 : 0 ≤ e
  · obtain ⟨j, rfl⟩ := Int.eq_ofNat_of_zero_le h0
    have hi : s - m = ((n * 2 ^ j - m : Int) : ℚ) := by rw [hs]; push_cast; rw [zpow_natCast]
    refine ⟨n * 2 ^ j - m, 0, by rw [hi]; simp, ?_, by norm_num⟩
    rw [hi, ← Int.cast_abs] at hk
    exact_mod_cast hk
  · obtain ⟨j, hj⟩ : ∃ j : Nat, e = -(j : Int) := ⟨(-e).toNat, by omega⟩
    have hm : s - m = ((n - m * 2 ^ j : Int) : ℚ) * (2 : ℚ) ^ e := by
      rw [hs, hj, zpow_neg, zpow_natCast]
      push_cast
      field_simp
    refine ⟨n - m * 2 ^ j, e, hm, ?_, he⟩
    rw [hm, abs_mul, abs_of_pos (by positivity : (0 : ℚ) < (2 : ℚ) ^ e), zpow_add₀ (by norm_num), mul_comm]
      at hsub
    have h2 := le_of_mul_le_mul_left hsub (by positivity : (0 : ℚ) < (2 : ℚ) ^ e)
    rw [← Int.cast_abs] at h2
    exact_mod_cast h2

/-- The intermediate results of `get_datetime_from_epoch`, for up to 2^42 seconds, about 139000 years. -/
theorem datetimeFromEpoch_parts {s : ℚ} (hd : IsDouble s) (hr : |s| ≤ (2 : ℚ) ^ (42 : Int)) :
    ∃ days secs micros : Int, ∃ r m : ℚ,
      roundAway (fl (s / 86400)) = days ∧ fl (s - fl (days * 86400)) = s - 86400 * days
      ∧ roundAway (s - 86400 * days) = secs ∧ fl (s - 86400 * days - secs) = r
      ∧ r = s - 86400 * days - secs ∧ |r| ≤ 1 / 2
      ∧ fl (r * 1000000) = m ∧ |m - r * 1000000| ≤ (2 : ℚ) ^ (-35 : Int) ∧ roundAway m = micros
      ∧ |(days : ℚ)| ≤ 2 ^ 26 ∧ |s - 86400 * days| ≤ 43201 := by
  obtain ⟨n, e, hs, hn, he⟩ := hd
  -- the day
  have hq0 : |s / 86400| < (2 : ℚ) ^ (26 : Int) := by
    rw [abs_div, abs_of_pos (by norm_num : (0 : ℚ) < 86400), div_lt_iff₀ (by norm_num)]
    refine lt_of_le_of_lt hr (by norm_num)
  have hq := fl_err hq0 (by norm_num)
  have hdd := roundAway_err (fl (s / 86400))
  generalize hday : roundAway (fl (s / 86400)) = days at hdd
  have hq' : |fl (s / 86400) - s / 86400| ≤ 1 / 268435456 := by
    refine le_trans hq (by norm_num)
  have hdiff : |s - 86400 * days| ≤ 43201 := by
    rw [abs_le] at *
    constructor <;> linarith
  have hdayb : |(days : ℚ)| ≤ 2 ^ 26 := by
    have hr' := abs_le.1 hr
    norm_num at hr'
    rw [abs_le] at *
    norm_num
    constructor <;> linarith
  have hdayi : |days * 86400| ≤ 2 ^ 53 := by
    have h : |days| ≤ 2 ^ 26 := by
      rw [← Int.cast_abs] at hdayb
      exact_mod_cast hdayb
    rw [abs_le] at *
    constructor <;> omega
  have hprod : fl ((days : ℚ) * 86400) = 86400 * days := by
    have h := fl_int hdayi
    push_cast at h
    rw [h]; ring
  -- the magnitude of `s`
  have hsn : |s| < (2 : ℚ) ^ (e + 53) := by
    rw [hs, abs_mul, abs_of_pos (by positivity : (0 : ℚ) < (2 : ℚ) ^ e), zpow_add₀ (by norm_num), mul_comm]
    have : (|n| : ℚ) < (2 : ℚ) ^ (53 : Int) := by
      rw [← Int.cast_abs]
      exact_mod_cast hn
    exact mul_lt_mul_of_pos_left this (by positivity)
  have hsub : |s - ((86400 * days : Int) : ℚ)| ≤ (2 : ℚ) ^ (e + 53) := by
    push_cast
    by_cases h0 : days = 0
    · rw [h0]; simpa using le_of_lt hsn
    · have h1 : (1 : ℚ) ≤ |(days : ℚ)| := by
        rw [← Int.cast_abs]
        exact_mod_cast Int.one_le_abs h0
      have h2 : (2 : ℚ) ^ (15 : Int) < |s| := by
        have hx : |s| = 86400 * |s / 86400| := by
          rw [abs_div, abs_of_pos (by norm_num : (0 : ℚ) < 86400)]; ring
        have hy : |(days : ℚ)| ≤ |s / 86400| + 1 / 2 + 1 / 268435456 := by
          calc |(days : ℚ)| = |(days - fl (s / 86400)) + (fl (s / 86400) - s / 86400) + s / 86400| := by
                congr 1; ring
            _ ≤ |(days - fl (s / 86400)) + (fl (s / 86400) - s / 86400)| + |s / 86400| := abs_add_le _ _
            _ ≤ |days - fl (s / 86400)| + |fl (s / 86400) - s / 86400| + |s / 86400| :=
                add_le_add_left (abs_add_le _ _) _
            _ ≤ _ := by linarith
        rw [hx]
        norm_num
        linarith
      have h3 : (15 : Int) < e + 53 := (zpow_lt_zpow_iff_right₀ (by norm_num)).1 (lt_trans h2 hsn)
      have h4 : (2 : ℚ) ^ (16 : Int) ≤ (2 : ℚ) ^ (e + 53) := zpow_le_zpow_right₀ (by norm_num) (by omega)
      norm_num at h4
      exact le_trans hdiff (le_trans (by norm_num) h4)
  obtain ⟨n1, e1, hd1, hn1, he1⟩ := sub_int_form hs he hsub (by
    push_cast; exact le_trans hdiff (by norm_num))
  push_cast at hd1
  have hfl1 : fl (s - 86400 * days) = s - 86400 * days := by rw [hd1]; exact fl_exact hn1 he1
  -- the second
  generalize hs1 : s - 86400 * (days : ℚ) = s1 at *
  have hsec := roundAway_err s1
  generalize hsecs : roundAway s1 = secs at hsec
  have hs1n : |s1| ≤ (2 : ℚ) ^ (e1 + 53) := by
    rw [hd1, abs_mul, abs_of_pos (by positivity : (0 : ℚ) < (2 : ℚ) ^ e1), zpow_add₀ (by norm_num), mul_comm]
    have : (|n1| : ℚ) ≤ (2 : ℚ) ^ (53 : Int) := by
      rw [← Int.cast_abs]
      exact_mod_cast hn1
    exact mul_le_mul_of_nonneg_left this (by positivity)
  have hr1 : |s1 - secs| ≤ 1 / 2 := by rw [abs_sub_comm]; exact hsec
  have hsub1 : |s1 - secs| ≤ (2 : ℚ) ^ (e1 + 53) := by
    by_cases h0 : secs = 0
    · rw [h0]; simpa using hs1n
    · have h1 : (1 : ℚ) ≤ |(secs : ℚ)| := by
        rw [← Int.cast_abs]
        exact_mod_cast Int.one_le_abs h0
      have h2 : |(secs : ℚ)| ≤ |secs - s1| + |s1| := by
        calc |(secs : ℚ)| = |(secs - s1) + s1| := by congr 1; ring
          _ ≤ _ := abs_add_le _ _
      linarith
  obtain ⟨n2, e2, hd2, hn2, he2⟩ := sub_int_form hd1 he1 hsub1 (le_trans hr1 (by norm_num))
  have hfl2 : fl (s1 - secs) = s1 - secs := by rw [hd2]; exact fl_exact hn2 he2
  -- the microseconds
  have hm0 : |(s1 - secs) * 1000000| < (2 : ℚ) ^ (19 : Int) := by
    rw [abs_mul, abs_of_pos (by norm_num : (0 : ℚ) < 1000000)]
    norm_num
    linarith
  have hm := fl_err hm0 (by norm_num)
  exact ⟨days, secs, _, s1 - secs, _, rfl, by rw [hprod, hs1, hfl1], by rw [hs1, hsecs], by rw [hs1, hfl2],
    by rw [hs1], hr1, rfl, by simpa using hm, rfl, hdayb, by rw [hs1]; exact hdiff⟩


/-- The instant is within half a microsecond, and the rounding error of one multiplication, of the exact
one. -/
theorem datetimeFromEpoch_near {s : ℚ} (hd : IsDouble s) (hr : |s| ≤ 2 ^ 42) :
    ∃ us : Int, datetimeFromEpoch (.fin s) = .ok (at1960 us)
      ∧ |(us : ℚ) - s * 1000000| ≤ 1 / 2 + 1 / 2 ^ 35 := by
  obtain ⟨days, secs, micros, r, m, p1, p2, p3, p4, p5, p6, p7, p8, p9, p10, p11⟩ :=
    datetimeFromEpoch_parts hd (by simpa using hr)
  have hmic := roundAway_err m
  rw [p9] at hmic
  have hsec := roundAway_err (s - 86400 * days)
  rw [p3] at hsec
  norm_num at p8
  have hclose : |((days * 86400000000 + secs * 1000000 + micros : Int) : ℚ) - s * 1000000|
      ≤ 1 / 2 + 1 / 2 ^ 35 := by
    push_cast
    rw [abs_le] at *
    norm_num
    constructor <;> linarith
  refine ⟨days * 86400000000 + secs * 1000000 + micros, ?_, hclose⟩
  have hdi : |days| ≤ 2 ^ 26 := by
    rw [← Int.cast_abs] at p10
    exact_mod_cast p10
  have hsi : |secs| ≤ 43202 := by
    have : |(secs : ℚ)| ≤ 43202 := by
      rw [abs_le] at *
      constructor <;> linarith
    rw [← Int.cast_abs] at this
    exact_mod_cast this
  have hmi : |micros| ≤ 500001 := by
    have : |(micros : ℚ)| ≤ 500001 := by
      rw [abs_le] at *
      constructor <;> linarith
    rw [← Int.cast_abs] at this
    exact_mod_cast this
  rw [abs_le] at hdi hsi hmi
  unfold datetimeFromEpoch
  simp only [p1, p2, p3, p4, p7, p9]
  have t0 : days32 days = .ok days := by
    unfold days32; rw [if_pos]; constructor <;> omega
  have t1 : ticks64 ((startDay + days) * usPerDay) = .ok ((startDay + days) * usPerDay) := by
    unfold ticks64 startDay usPerDay; rw [if_pos]; constructor <;> omega
  have t2 : ticks64 ((startDay + days) * usPerDay + secs * 1000000)
      = .ok ((startDay + days) * usPerDay + secs * 1000000) := by
    unfold ticks64 startDay usPerDay; rw [if_pos]; constructor <;> omega
  have t3 : ticks64 ((startDay + days) * usPerDay + secs * 1000000 + micros)
      = .ok ((startDay + days) * usPerDay + secs * 1000000 + micros) := by
    unfold ticks64 startDay usPerDay; rw [if_pos]; constructor <;> omega
  rw [t0]
  simp only [bind, Except.bind, t1, t2, t3]
  show Except.ok (DateTime.at _) = _
  unfold at1960 startDay usPerDay
  congr 2
  ring

/-- Rounding gives a double. -/
theorem fl_isDouble {x : ℚ} : IsDouble (fl x) := by
  by_cases h0 : x = 0
  · subst h0; rw [fl_zero]; exact ⟨0, 0, by simp, by norm_num, by norm_num⟩
  have hge := ulpExp_ge x
  have hE : ∃ E, ulpExp x = E ∧ -1074 ≤ E ∧ |x| < (2 : ℚ) ^ (E + 53) := by
    refine ⟨_, rfl, hge, ?_⟩
    unfold ulpExp
    rw [if_neg h0]
    have ha : (if x < 0 then -x else x) = |x| := by
      split
      · rw [abs_of_neg ‹_›]
      · rw [abs_of_nonneg (not_lt.1 ‹_›)]
    rw [ha]
    have h := (ilog2_spec (abs_pos.2 h0)).2
    rw [pow2_eq] at h
    exact lt_of_lt_of_le h (zpow_le_zpow_right₀ (by norm_num) (by omega))
  obtain ⟨E, hE1, hE2, hE3⟩ := hE
  unfold fl
  rw [pow2_eq, hE1]
  have hp : (0 : ℚ) < (2 : ℚ) ^ E := by positivity
  have hb : |x / (2 : ℚ) ^ E| < 2 ^ 53 := by
    rw [abs_div, abs_of_pos hp, div_lt_iff₀ hp]
    rw [zpow_add₀ (by norm_num), mul_comm] at hE3
    simpa using hE3
  have herr := rint_err (x / (2 : ℚ) ^ E)
  generalize rint (x / (2 : ℚ) ^ E) = k at herr ⊢
  have hk : |k| ≤ 2 ^ 53 := by
    have : |(k : ℚ)| < 2 ^ 53 + 1 := by
      rw [abs_lt] at *
      rw [abs_le] at herr
      constructor <;> linarith
    rw [← Int.cast_abs] at this
    have h2 : |k| < 2 ^ 53 + 1 := by exact_mod_cast this
    omega
  rcases lt_or_eq_of_le hk with h | h
  · exact ⟨k, E, rfl, h, hE2⟩
  · have h2 : k = 2 ^ 53 ∨ k = -2 ^ 53 := by
      rcases abs_choice k with h' | h' <;> omega
    refine ⟨k / 2, E + 1, ?_, ?_, by omega⟩
    · rw [zpow_add_one₀ (by norm_num)]
      rcases h2 with rfl | rfl <;> norm_num <;> ring
    · rcases h2 with rfl | rfl <;> norm_num

/-- The double with a given representation. -/
theorem ofBits_value {b : Nat} {x : ℚ} (h : IeeeValue b x) : Dbl.ofBits b = .fin x ∧ IsDouble x := by
  obtain ⟨sign, ex, frac, hs, hf, rfl, h⟩ := h
  have e1 : (sign * 2 ^ 63 + ex * 2 ^ 52 + frac) % 2 ^ 52 = frac := by omega
  have hex : ex ≤ 2046 := by rcases h with h | h <;> omega
  have e2 : (sign * 2 ^ 63 + ex * 2 ^ 52 + frac) / 2 ^ 52 % 2 ^ 11 = ex := by omega
  have e3 : (sign * 2 ^ 63 + ex * 2 ^ 52 + frac) / 2 ^ 63 % 2 = sign := by omega
  unfold Dbl.ofBits
  simp only [e1, e2, e3]
  rw [if_neg (by omega), pow2_eq]
  rcases h with ⟨rfl, rfl⟩ | ⟨h1, h2, rfl⟩
  · have hv : (if sign = 1 then -((frac : ℚ) * (2 : ℚ) ^ (((max 0 1 : Nat) : Int) - 1075))
        else (frac : ℚ) * (2 : ℚ) ^ (((max 0 1 : Nat) : Int) - 1075))
        = (((-1) ^ sign * frac : Int) : ℚ) * (2 : ℚ) ^ (-1074 : Int) := by
      have : sign = 0 ∨ sign = 1 := by omega
      rcases this with rfl | rfl <;> norm_num
    have hw : (-1) ^ sign * ((frac : ℚ) / 2 ^ 52) * (2 : ℚ) ^ (-1022 : Int)
        = (((-1) ^ sign * frac : Int) : ℚ) * (2 : ℚ) ^ (-1074 : Int) := by
      push_cast
      rw [show (-1022 : Int) = -1074 + 52 by norm_num, zpow_add₀ (by norm_num)]
      norm_num
      ring
    rw [if_pos rfl, hw]
    refine ⟨by rw [hv], (-1) ^ sign * frac, -1074, rfl, ?_, by norm_num⟩
    rw [abs_mul, abs_pow, abs_neg, abs_one, one_pow, one_mul, abs_of_nonneg (by omega)]
    omega
  · have hmax : max ex 1 = ex := by omega
    rw [if_neg (show ¬ ex = 0 by omega), hmax]
    have hv : (if sign = 1 then -(((2 ^ 52 + frac : Nat) : ℚ) * (2 : ℚ) ^ ((ex : Int) - 1075))
        else ((2 ^ 52 + frac : Nat) : ℚ) * (2 : ℚ) ^ ((ex : Int) - 1075))
        = (((-1) ^ sign * (2 ^ 52 + frac) : Int) : ℚ) * (2 : ℚ) ^ ((ex : Int) - 1075) := by
      have : sign = 0 ∨ sign = 1 := by omega
      rcases this with rfl | rfl
      · push_cast; norm_num
      · push_cast; norm_num; ring
    have hw : (-1) ^ sign * (1 + (frac : ℚ) / 2 ^ 52) * (2 : ℚ) ^ ((ex : Int) - 1023)
        = (((-1) ^ sign * (2 ^ 52 + frac) : Int) : ℚ) * (2 : ℚ) ^ ((ex : Int) - 1075) := by
      push_cast
      rw [show (ex : Int) - 1023 = ex - 1075 + 52 by ring, zpow_add₀ (by norm_num)]
      norm_num
      ring
    rw [hv, hw]
    refine ⟨rfl, (-1) ^ sign * (2 ^ 52 + frac), ex - 1075, rfl, ?_, by omega⟩
    rw [abs_mul, abs_pow, abs_neg, abs_one, one_pow, one_mul, abs_of_nonneg (by omega)]
    omega

theorem ofBits_nan {b : Nat} (h : IeeeNaN b) : Dbl.ofBits b = .nan := by
  obtain ⟨sign, frac, hs, hf, hf2, rfl⟩ := h
  have e1 : (sign * 2 ^ 63 + 2047 * 2 ^ 52 + frac) % 2 ^ 52 = frac := by omega
  have e2 : (sign * 2 ^ 63 + 2047 * 2 ^ 52 + frac) / 2 ^ 52 % 2 ^ 11 = 2047 := by omega
  unfold Dbl.ofBits
  simp only [e1, e2]
  rw [if_pos trivial, if_neg (by omega)]

theorem ofBits_inf {b : Nat} (h : IeeeInf b) : ∃ s, Dbl.ofBits b = .inf s := by
  obtain ⟨sign, hs, rfl⟩ := h
  have e1 : (sign * 2 ^ 63 + 2047 * 2 ^ 52) % 2 ^ 52 = 0 := by omega
  have e2 : (sign * 2 ^ 63 + 2047 * 2 ^ 52) / 2 ^ 52 % 2 ^ 11 = 2047 := by omega
  unfold Dbl.ofBits
  simp only [e1, e2]
  rw [if_pos trivial, if_pos trivial]
  exact ⟨_, rfl⟩

/-- The date of an instant in the calendar range. -/
theorem date_at {us : Int} (h1 : -204535 * 86400000000 ≤ us) (h2 : us < 2936550 * 86400000000) :
    (at1960 us).date = .ok (day1960 (us / 86400000000)) := by
  unfold at1960 DateTime.date day1960 usPerDay
  simp only
  have hdiv : (2436935 * 86400000000 + us).tdiv 86400000000 = 2436935 + us / 86400000000 := by
    rw [Int.tdiv_eq_ediv_of_nonneg (by omega)]
    omega
  rw [hdiv]
  obtain ⟨n, hn⟩ : ∃ n : Nat, 2436935 + us / 86400000000 = (n : Int) :=
    ⟨(2436935 + us / 86400000000).toNat, by omega⟩
  have hn1 : 2232400 ≤ n := by omega
  have hn2 : n ≤ 5373484 := by omega
  rw [hn]
  have hmod : (((n : Int) % 2 ^ 32).toNat) = n := by omega
  rw [hmod, ymd_inRange hn1 hn2, dayNumber_ymd hn1 hn2, Int.toNat_natCast]
  rfl

theorem date_early {us : Int} (h1 : -2436935 * 86400000000 ≤ us) (h2 : us < -204535 * 86400000000) :
    (at1960 us).date = .error (.exn .outOfRange) := by
  unfold at1960 DateTime.date usPerDay
  simp only
  have hdiv : (2436935 * 86400000000 + us).tdiv 86400000000 = 2436935 + us / 86400000000 := by
    rw [Int.tdiv_eq_ediv_of_nonneg (by omega)]
    omega
  rw [hdiv]
  obtain ⟨n, hn⟩ : ∃ n : Nat, 2436935 + us / 86400000000 = (n : Int) :=
    ⟨(2436935 + us / 86400000000).toNat, by omega⟩
  have hn1 : n < 2232400 := by omega
  rw [hn]
  have hmod : (((n : Int) % 2 ^ 32).toNat) = n := by omega
  rw [hmod, ymd_early hn1]
  rfl

theorem timeOfDay_at {us : Int} (h1 : -2436935 * 86400000000 ≤ us) :
    (at1960 us).timeOfDay = .us (us % 86400000000) := by
  unfold at1960 DateTime.timeOfDay usPerDay
  simp only
  rw [Int.tmod_eq_emod_of_nonneg (by omega)]
  congr 1
  omega

theorem dateFromEpochDays_ok {d : ℚ} {n : Int} (hn : roundAway d = n) (h1 : -204535 ≤ n) (h2 : n ≤ 2936549) :
    dateFromEpochDays (.fin d) = .ok (day1960 n) := by
  unfold dateFromEpochDays
  simp only
  rw [hn]
  have t0 : days32 n = .ok n := by
    unfold days32; rw [if_pos]; constructor <;> omega
  have t1 : ticks64 ((startDay + n) * usPerDay) = .ok ((startDay + n) * usPerDay) := by
    unfold ticks64 startDay usPerDay; rw [if_pos]; constructor <;> omega
  have hd := date_at (us := n * 86400000000) (by omega) (by omega)
  have he : (startDay + n) * usPerDay = 2436935 * 86400000000 + n * 86400000000 := by
    unfold startDay usPerDay; ring
  rw [t0]
  simp only [bind, Except.bind, t1]
  rw [he]
  unfold at1960 at hd
  rw [hd, Int.mul_ediv_cancel _ (by norm_num)]
  rfl

theorem rint_nearest (y : ℚ) (k : Int) : |(rint y : ℚ) - y| ≤ |(k : ℚ) - y| := by
  have h := rint_err y
  by_cases hk : rint y = k
  · rw [hk]
  · have h1 : (1 : ℚ) ≤ |(rint y : ℚ) - k| := by
      have : (1 : Int) ≤ |rint y - k| := Int.one_le_abs (by omega)
      have h2 : ((1 : Int) : ℚ) ≤ ((|rint y - k| : Int) : ℚ) := by exact_mod_cast this
      simpa using h2
    have h2 : |(rint y : ℚ) - k| ≤ |(rint y : ℚ) - y| + |(k : ℚ) - y| := by
      calc |(rint y : ℚ) - k| = |((rint y : ℚ) - y) - (k - y)| := by congr 1; ring
        _ ≤ _ := abs_sub _ _
    linarith

/-- `fl` is what IEEE 754 asks of rounding to nearest: no double is nearer. -/
theorem fl_nearest (x : ℚ) : Nearest (fl x) x := by
  refine ⟨fl_isDouble, fun t ht => ?_⟩
  by_cases h0 : x = 0
  · subst h0; rw [fl_zero]; simp
  -- among the multiples of the last place nothing is nearer
  have hmul : ∀ k : Int, |fl x - x| ≤ |(k : ℚ) * (2 : ℚ) ^ (ulpExp x) - x| := by
    intro k
    unfold fl
    rw [pow2_eq]
    have hp : (0 : ℚ) < (2 : ℚ) ^ (ulpExp x) := by positivity
    generalize (2 : ℚ) ^ (ulpExp x) = u at hp
    have h := rint_nearest (x / u) k
    have e : ∀ z : ℚ, |z * u - x| = |z - x / u| * u := by
      intro z
      rw [← abs_of_pos hp, ← abs_mul, abs_of_pos hp]
      congr 1
      field_simp
    rw [e, e]
    exact mul_le_mul_of_nonneg_right h (le_of_lt hp)
  obtain ⟨n, e, rfl, hn, he⟩ := ht
  by_cases hE : ulpExp x ≤ e
  · obtain ⟨j, hj⟩ : ∃ j : Nat, e = ulpExp x + j := ⟨(e - ulpExp x).toNat, by omega⟩
    have h := hmul (n * 2 ^ j)
    have h2 : ((n * 2 ^ j : Int) : ℚ) * (2 : ℚ) ^ (ulpExp x) = (n : ℚ) * (2 : ℚ) ^ e := by
      rw [hj, zpow_add₀ (by norm_num), zpow_natCast]
      push_cast
      ring
    rw [h2] at h
    exact h
  · -- the smaller ones lie below the first multiple of the binade of `x`
    have ha : (if x < 0 then -x else x) = |x| := by
      split
      · rw [abs_of_neg ‹_›]
      · rw [abs_of_nonneg (not_lt.1 ‹_›)]
    have hlog : ulpExp x = ilog2 |x| - 52 := by
      unfold ulpExp at hE ⊢
      rw [if_neg h0, ha] at hE ⊢
      omega
    have hlow := (ilog2_spec (abs_pos.2 h0)).1
    rw [pow2_eq, show ilog2 |x| = ulpExp x + 52 by omega] at hlow
    have ht : |(n : ℚ) * (2 : ℚ) ^ e| ≤ (2 : ℚ) ^ (ulpExp x + 52) := by
      rw [abs_mul, abs_of_pos (by positivity : (0 : ℚ) < (2 : ℚ) ^ e)]
      have h1 : (|n| : ℚ) ≤ (2 : ℚ) ^ (53 : Int) := by
        rw [← Int.cast_abs]
        exact_mod_cast le_of_lt hn
      calc (|n| : ℚ) * (2 : ℚ) ^ e ≤ (2 : ℚ) ^ (53 : Int) * (2 : ℚ) ^ e :=
            mul_le_mul_of_nonneg_right h1 (by positivity)
        _ = (2 : ℚ) ^ (53 + e) := by rw [zpow_add₀ (by norm_num)]
        _ ≤ _ := zpow_le_zpow_right₀ (by norm_num) (by omega)
    generalize (n : ℚ) * (2 : ℚ) ^ e = t at ht
    have h52 : ((2 ^ 52 : Int) : ℚ) * (2 : ℚ) ^ (ulpExp x) = (2 : ℚ) ^ (ulpExp x + 52) := by
      rw [zpow_add₀ (by norm_num)]
      push_cast
      rw [mul_comm]
    have h52n : ((-2 ^ 52 : Int) : ℚ) * (2 : ℚ) ^ (ulpExp x) = -(2 : ℚ) ^ (ulpExp x + 52) := by
      rw [← h52]; push_cast; ring
    rcases lt_or_gt_of_ne h0 with hx | hx
    · have h := hmul (-2 ^ 52)
      rw [h52n] at h
      rw [abs_of_neg hx] at hlow
      refine le_trans h ?_
      rw [abs_le] at ht
      rw [abs_of_nonneg (by linarith), abs_of_nonneg (by linarith)]
      linarith
    · have h := hmul (2 ^ 52)
      rw [h52] at h
      rw [abs_of_pos hx] at hlow
      refine le_trans h ?_
      rw [abs_le] at ht
      rw [abs_of_nonpos (by linarith), abs_of_nonpos (by linarith)]
      linarith

end Sas
