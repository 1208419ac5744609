import Verif.Spec.DateTime

/-! # The calendar conversion of Boost.DateTime agrees with the Gregorian calendar -/

namespace Sas
open Spec

theorem sub32 {x y : Nat} (h : y ≤ x) (hx : x < 4294967296) :
    (x + (4294967296 - y)) % 4294967296 = x - y := by omega

/-- The steps of `ymdOfDayNumber` without wrap-around. -/
theorem ymd_parts {n : Nat} (h2 : n < 536870912) : ∃ b c d e m : Nat,
    (4 * (n + 32044) + 3) / 146097 = b ∧ n + 32044 = 146097 * b / 4 + c ∧ c ≤ 36524
    ∧ (4 * c + 3) / 1461 = d ∧ c = 1461 * d / 4 + e ∧ d ≤ 99 ∧ e ≤ 365
    ∧ (5 * e + 2) / 153 = m ∧ m ≤ 11 ∧ (153 * m + 2) / 5 ≤ e
    ∧ ymdOfDayNumber n =
      { year := (100 * b + d + m / 10 + 4294962496) % 4294967296 % 65536
        month := m + 3 - 12 * (m / 10)
        day := e - (153 * m + 2) / 5 + 1 } := by
  obtain ⟨b, hb⟩ : ∃ b, (4 * (n + 32044) + 3) / 146097 = b := ⟨_, rfl⟩
  obtain ⟨c, hc⟩ : ∃ c, n + 32044 = 146097 * b / 4 + c := ⟨n + 32044 - 146097 * b / 4, by omega⟩
  have hc1 : c ≤ 36524 := by omega
  obtain ⟨d, hd⟩ : ∃ d, (4 * c + 3) / 1461 = d := ⟨_, rfl⟩
  obtain ⟨e, he⟩ : ∃ e, c = 1461 * d / 4 + e := ⟨c - 1461 * d / 4, by omega⟩
  have hd1 : d ≤ 99 := by omega
  have he1 : e ≤ 365 := by omega
  obtain ⟨m, hm⟩ : ∃ m, (5 * e + 2) / 153 = m := ⟨_, rfl⟩
  have hm1 : m ≤ 11 := by omega
  have hm2 : (153 * m + 2) / 5 ≤ e := by omega
  refine ⟨b, c, d, e, m, hb, hc, hc1, hd, he, hd1, he1, hm, hm1, hm2, ?_⟩
  have hb1 : b < 16384 := by omega
  have e1 : (n + 32044) % 4294967296 = n + 32044 := Nat.mod_eq_of_lt (by omega)
  have e2 : (4 * (n + 32044) + 3) % 4294967296 = 4 * (n + 32044) + 3 := Nat.mod_eq_of_lt (by omega)
  have e3 : (146097 * b) % 4294967296 = 146097 * b := Nat.mod_eq_of_lt (by omega)
  have e4 : (n + 32044 + (4294967296 - 146097 * b / 4)) % 4294967296 = c := by
    rw [sub32 (by omega) (by omega)]; omega
  have e5 : (4 * c + 3) % 4294967296 = 4 * c + 3 := Nat.mod_eq_of_lt (by omega)
  have e6 : (1461 * d) % 4294967296 = 1461 * d := Nat.mod_eq_of_lt (by omega)
  have e7 : (c + (4294967296 - 1461 * d / 4)) % 4294967296 = e := by
    rw [sub32 (by omega) (by omega)]; omega
  have e8 : (5 * e + 2) % 4294967296 = 5 * e + 2 := Nat.mod_eq_of_lt (by omega)
  have e9 : (153 * m + 2) % 4294967296 = 153 * m + 2 := Nat.mod_eq_of_lt (by omega)
  have e10 : (100 * b + d) % 4294967296 = 100 * b + d := Nat.mod_eq_of_lt (by omega)
  have e11 : (100 * b + d + (4294967296 - 4800) + m / 10) % 4294967296 % 65536
      = (100 * b + d + m / 10 + 4294962496) % 4294967296 % 65536 := by
    rw [show 100 * b + d + (4294967296 - 4800) + m / 10 = 100 * b + d + m / 10 + 4294962496 by omega]
  have e12 : (m + 3 + (4294967296 - 12 * (m / 10))) % 4294967296 % 65536 = m + 3 - 12 * (m / 10) := by
    rw [sub32 (by omega) (by omega)]; exact Nat.mod_eq_of_lt (by omega)
  have e13 : (e + (4294967296 - (153 * m + 2) / 5) + 1) % 4294967296 % 65536 = e - (153 * m + 2) / 5 + 1 := by
    rw [show e + (4294967296 - (153 * m + 2) / 5) + 1 = e + 1 + (4294967296 - (153 * m + 2) / 5) by omega,
      sub32 (by omega) (by omega)]
    rw [Nat.mod_eq_of_lt (by omega)]; omega
  unfold ymdOfDayNumber
  simp only [Nat.reducePow, e1, e2, hb, e3, e4, e5, hd, e6, e7, e8, hm, e9, e10, e11, e12, e13]

/-- The years whose dates Boost accepts. -/
theorem ymd_years {n : Nat} (h1 : 2232400 ≤ n) (h2 : n ≤ 5373484) {b c d e m : Nat}
    (hb : (4 * (n + 32044) + 3) / 146097 = b) (hc : n + 32044 = 146097 * b / 4 + c)
    (hd : (4 * c + 3) / 1461 = d) (he : c = 1461 * d / 4 + e) (hd1 : d ≤ 99) (hm : (5 * e + 2) / 153 = m)
    (hm1 : m ≤ 11) : 6200 ≤ 100 * b + d + m / 10 ∧ 100 * b + d + m / 10 ≤ 14799 := by
  have hb1 : 61 ≤ b := by omega
  have hb2 : b ≤ 147 := by omega
  constructor
  · by_cases hb3 : b = 61
    · subst hb3
      have hc3 : 36465 ≤ c := by omega
      have hd3 : d = 99 := by omega
      subst hd3
      have : 306 ≤ e := by omega
      omega
    · omega
  · by_cases hb3 : b = 147
    · subst hb3
      have hc3 : c ≤ 36464 := by omega
      by_cases hd3 : d = 99
      · subst hd3
        have : e ≤ 305 := by omega
        omega
      · omega
    · omega

theorem ymd_inRange {n : Nat} (h1 : 2232400 ≤ n) (h2 : n ≤ 5373484) :
    (ymdOfDayNumber n).inRange = true := by
  obtain ⟨b, c, d, e, m, hb, hc, hc1, hd, he, hd1, he1, hm, hm1, hm2, h⟩ := ymd_parts (n := n) (by omega)
  obtain ⟨hy1, hy2⟩ := ymd_years h1 h2 hb hc hd he hd1 hm hm1
  rw [h]
  generalize 100 * b + d + m / 10 = Y at hy1 hy2
  have hy : (Y + 4294962496) % 4294967296 % 65536 = Y - 4800 := by omega
  simp only [Ymd.inRange, Bool.and_eq_true, decide_eq_true_eq]
  rw [hy]
  clear hb hc hc1 hd hd1 h h1 h2
  omega

/-- The days before the year 1400. -/
theorem ymd_early {n : Nat} (h : n < 2232400) : (ymdOfDayNumber n).inRange = false := by
  obtain ⟨b, c, d, e, m, hb, hc, hc1, hd, he, hd1, he1, hm, hm1, hm2, hx⟩ := ymd_parts (n := n) (by omega)
  have hy1 : 100 * b + d + m / 10 ≤ 6199 := by
    have hb1 : b ≤ 61 := by omega
    by_cases hb3 : b = 61
    · subst hb3
      have hc3 : c ≤ 36464 := by omega
      by_cases hd3 : d = 99
      · subst hd3
        have : e ≤ 305 := by omega
        omega
      · omega
    · omega
  rw [hx]
  generalize 100 * b + d + m / 10 = Y at hy1
  have hy : (Y + 4294962496) % 4294967296 % 65536 < 1400 ∨ 9999 < (Y + 4294962496) % 4294967296 % 65536 := by omega
  simp only [Ymd.inRange, Bool.and_eq_false_iff, decide_eq_false_iff_not]
  left
  omega

/-- The conversions are inverse to each other. -/
theorem dayNumber_ymd {n : Nat} (h1 : 2232400 ≤ n) (h2 : n ≤ 5373484) :
    (ymdOfDayNumber n).dayNumber = n := by
  obtain ⟨b, c, d, e, m, hb, hc, hc1, hd, he, hd1, he1, hm, hm1, hm2, h⟩ := ymd_parts (n := n) (by omega)
  obtain ⟨hY1, hY2⟩ := ymd_years h1 h2 hb hc hd he hd1 hm hm1
  rw [h]
  have hy : (100 * b + d + m / 10 + 4294962496) % 4294967296 % 65536 = 100 * b + d + m / 10 - 4800 := by
    generalize 100 * b + d + m / 10 = Y at hY1 hY2 ⊢
    omega
  unfold Ymd.dayNumber
  simp only
  rw [hy]
  have ha : (14 - (m + 3 - 12 * (m / 10))) / 12 = m / 10 := by omega
  rw [ha]
  have hm' : m + 3 - 12 * (m / 10) + 12 * (m / 10) - 3 = m := by omega
  rw [hm']
  have hy2 : 100 * b + d + m / 10 - 4800 + 4800 - m / 10 = 100 * b + d := by omega
  rw [hy2]
  have f1 : (100 * b + d) / 4 = 25 * b + d / 4 := by omega
  have f2 : (100 * b + d) / 100 = b := by omega
  have f3 : (100 * b + d) / 400 = b / 4 := by omega
  have f4 : 146097 * b / 4 = 36524 * b + b / 4 := by omega
  have f5 : 1461 * d / 4 = 365 * d + d / 4 := by omega
  rw [f1, f2, f3]
  rw [f4] at hc
  rw [f5] at he
  have hb1 : 47 ≤ b := by omega
  clear hb hd hm ha hm' hy h f1 f2 f3 f4 f5 hy2
  omega

/-- The dates the conversion gives are dates of the calendar. -/
theorem ymd_real {n : Nat} (h1 : 2232400 ≤ n) (h2 : n ≤ 5373484) : RealDate (ymdOfDayNumber n) := by
  obtain ⟨b, c, d, e, m, hb, hc, hc1, hd, he, hd1, he1, hm, hm1, hm2, h⟩ := ymd_parts (n := n) (by omega)
  obtain ⟨hY1, hY2⟩ := ymd_years h1 h2 hb hc hd he hd1 hm hm1
  have hy : (100 * b + d + m / 10 + 4294962496) % 4294967296 % 65536 = 100 * b + d + m / 10 - 4800 := by
    generalize 100 * b + d + m / 10 = Y at hY1 hY2 ⊢
    omega
  rw [h]
  unfold RealDate
  simp only
  rw [hy]
  refine ⟨by omega, by omega, by omega, ?_⟩
  unfold monthDays
  have hcases : m = 0 ∨ m = 1 ∨ m = 2 ∨ m = 3 ∨ m = 4 ∨ m = 5 ∨ m = 6 ∨ m = 7 ∨ m = 8 ∨ m = 9 ∨ m = 10
    ∨ m = 11 := by omega
  by_cases hm11 : m = 11
  · subst hm11
    simp only [Nat.reduceDiv, Nat.reduceAdd, Nat.reduceMul, Nat.reduceSub]
    rw [if_pos trivial]
    -- February: day 366 of the year starting in March only exists before a leap day
    clear h hy hcases hm hm1 hm2
    have f4 : 146097 * b / 4 = 36524 * b + b / 4 := by omega
    have f5 : 1461 * d / 4 = 365 * d + d / 4 := by omega
    rw [f4] at hc
    rw [f5] at he
    clear f4 f5
    by_cases he2 : e = 365
    · subst he2
      have hd3 : d % 4 = 3 := by
        rw [he] at hd
        clear hc hb hc1 he hY1 hY2 h1 h2
        omega
      have hl : leap (100 * b + d + 1 - 4800) = true := by
        unfold leap
        by_cases h99 : d = 99
        · subst h99
          have hb3 : b % 4 = 3 := by
            have : c = 36524 := by omega
            rw [hc, this] at hb
            clear hc hc1 he hY1 hY2 h1 h2 hd
            omega
          clear hb hc hc1 he h1 h2 hd
          have h4 : (100 * b + 99 + 1 - 4800) % 4 = 0 := by omega
          have h400 : (100 * b + 99 + 1 - 4800) % 400 = 0 := by omega
          rw [h4, h400]; simp
        · clear hb hc hc1 he h1 h2 hd
          have h4 : (100 * b + d + 1 - 4800) % 4 = 0 := by omega
          have h100 : (100 * b + d + 1 - 4800) % 100 ≠ 0 := by omega
          rw [h4, beq_self_eq_true, Bool.true_and, bne_iff_ne.2 h100, Bool.true_or]
      rw [hl]; simp
    · clear hb hc hc1 he h1 h2 hd
      split <;> omega
  · clear hb hc hc1 hd he h hy hY1 hY2 h1 h2 hd1
    rcases hcases with rfl | rfl | rfl | rfl | rfl | rfl | rfl | rfl | rfl | rfl | rfl | rfl <;>
      simp <;> omega

theorem leap_split {Y b d : Nat} (h : Y + 4799 = 100 * b + d) (hd : d ≤ 99) (hl : leap Y = true) :
    d % 4 = 3 ∧ (d = 99 → b % 4 = 3) := by
  unfold leap at hl
  simp only [Bool.and_eq_true, Bool.or_eq_true, beq_iff_eq, bne_iff_ne] at hl
  obtain ⟨h4, h100⟩ := hl
  refine ⟨by omega, fun h99 => ?_⟩
  subst h99
  have : Y % 100 = 0 := by omega
  have : Y % 400 = 0 := by omega
  omega

/-- The month and the day of the year starting in March. -/
theorem month_split {Y M D m e : Nat} (r1 : 1 ≤ M) (r2 : M ≤ 12) (r3 : 1 ≤ D) (r4 : D ≤ monthDays Y M)
    (hm : M + 12 * ((14 - M) / 12) - 3 = m) (he : D - 1 + (153 * m + 2) / 5 = e) :
    m ≤ 11 ∧ M = m + 3 - 12 * (m / 10) ∧ (14 - M) / 12 = m / 10 ∧ (5 * e + 2) / 153 = m ∧ e ≤ 365
      ∧ (e = 365 → M = 2 ∧ leap Y = true) := by
  unfold monthDays at r4
  have hcases : M = 1 ∨ M = 2 ∨ M = 3 ∨ M = 4 ∨ M = 5 ∨ M = 6 ∨ M = 7 ∨ M = 8 ∨ M = 9 ∨ M = 10 ∨ M = 11
    ∨ M = 12 := by omega
  rcases hcases with rfl | rfl | rfl | rfl | rfl | rfl | rfl | rfl | rfl | rfl | rfl | rfl <;>
    simp at r4 hm <;> subst hm <;> simp at he <;> simp only [Nat.reduceAdd, Nat.reduceMul, Nat.reduceSub,
      Nat.reduceDiv]
  case inr.inl =>
    by_cases hl : leap Y = true
    · rw [if_pos hl] at r4
      exact ⟨by omega, trivial, trivial, by omega, by omega, fun _ => ⟨trivial, hl⟩⟩
    · rw [if_neg hl] at r4
      exact ⟨by omega, trivial, trivial, by omega, by omega, fun _ => by omega⟩
  all_goals exact ⟨by omega, trivial, trivial, by omega, by omega, fun _ => by omega⟩

/-- Each date of the calendar is the conversion of its day number. -/
theorem ymd_dayNumber {x : Ymd} (hr : RealDate x) (h1 : 1400 ≤ x.year) (h2 : x.year ≤ 9999) :
    ymdOfDayNumber x.dayNumber = x := by
  obtain ⟨Y, M, D⟩ := x
  obtain ⟨r1, r2, r3, r4⟩ := hr
  simp only at *
  -- the year starting in March
  obtain ⟨m, hm⟩ : ∃ m, M + 12 * ((14 - M) / 12) - 3 = m := ⟨_, rfl⟩
  obtain ⟨e, he⟩ : ∃ e, D - 1 + (153 * m + 2) / 5 = e := ⟨_, rfl⟩
  obtain ⟨hm11, hM, ha, hme, he365, hfeb⟩ := month_split r1 r2 r3 r4 hm he
  obtain ⟨b, d, hbd, hd99⟩ : ∃ b d, Y + 4800 - m / 10 = 100 * b + d ∧ d ≤ 99 :=
    ⟨(Y + 4800 - m / 10) / 100, (Y + 4800 - m / 10) % 100, by omega, by omega⟩
  have hleap : e = 365 → d % 4 = 3 ∧ (d = 99 → b % 4 = 3) := by
    intro h365
    obtain ⟨hM2, hl⟩ := hfeb h365
    have hm10 : m / 10 = 1 := by omega
    rw [hm10] at hbd
    exact leap_split (by omega) hd99 hl
  -- the day number
  have hn : ({ year := Y, month := M, day := D } : Ymd).dayNumber + 32044
      = 36524 * b + b / 4 + (365 * d + d / 4 + e) := by
    unfold Ymd.dayNumber
    simp only [hm]
    rw [ha, hbd]
    have f1 : (100 * b + d) / 4 = 25 * b + d / 4 := by omega
    have f2 : (100 * b + d) / 100 = b := by omega
    have f3 : (100 * b + d) / 400 = b / 4 := by omega
    rw [f1, f2, f3]
    clear f1 f2 f3 hfeb hleap hme hM ha hm
    have hb47 : 47 ≤ b := by omega
    omega
  generalize ({ year := Y, month := M, day := D } : Ymd).dayNumber = n at hn
  have hb1 : b ≤ 148 := by omega
  have hb47 : 47 ≤ b := by omega
  have hnb : n < 536870912 := by omega
  have hyear : 100 * b + d + m / 10 = Y + 4800 := by omega
  have hday : e - (153 * m + 2) / 5 + 1 = D := by omega
  clear hfeb hm r4 hbd
  obtain ⟨b', c', d', e', m', hb', hc', hc1', hd', he', hd1', he1', hm', hm1', hm2', h⟩ :=
    ymd_parts (n := n) hnb
  have g1 : b' = b := by
    rw [← hb', hn]
    clear hb' hc' hc1' hd' he' hd1' he1' hm' hm1' hm2' h hme hM ha he hday hyear
    have hd4 : 365 * d + d / 4 + e ≤ 36523 ∨ (365 * d + d / 4 + e = 36524 ∧ b % 4 = 3) := by
      by_cases h365 : e = 365
      · obtain ⟨hd3, h99⟩ := hleap h365
        by_cases hd99' : d = 99
        · have := h99 hd99'; omega
        · omega
      · omega
    generalize 365 * d + d / 4 + e = c at hd4 ⊢
    omega
  subst g1
  have f4 : 146097 * b' / 4 = 36524 * b' + b' / 4 := by omega
  have g2 : c' = 365 * d + d / 4 + e := by omega
  have g3 : d' = d := by
    rw [← hd', g2]
    clear hb' hc' hc1' hd' he' hd1' he1' hm' hm1' hm2' h hme hM ha he hday hyear hn f4 g2
    by_cases h365 : e = 365
    · have := (hleap h365).1; omega
    · omega
  subst g3
  have f5 : 1461 * d' / 4 = 365 * d' + d' / 4 := by omega
  have g4 : e' = e := by omega
  subst g4
  have g5 : m' = m := by rw [← hm', hme]
  subst g5
  rw [h, hyear]
  have hy : (Y + 4800 + 4294962496) % 4294967296 % 65536 = Y := by omega
  rw [hy, ← hM, hday]

/-- One more year has 365 days, or 366. -/
theorem year_step (z : Nat) : 365 * (z + 1) + (z + 1) / 4 - (z + 1) / 100 + (z + 1) / 400
    = 365 * z + z / 4 - z / 100 + z / 400 + 365 + (if leap (z + 1) = true then 1 else 0) := by
  have h4 : (z + 1) / 4 = z / 4 + if (z + 1) % 4 = 0 then 1 else 0 := by split <;> omega
  have h100 : (z + 1) / 100 = z / 100 + if (z + 1) % 100 = 0 then 1 else 0 := by split <;> omega
  have h400 : (z + 1) / 400 = z / 400 + if (z + 1) % 400 = 0 then 1 else 0 := by split <;> omega
  have g1 : (z + 1) % 100 = 0 → (z + 1) % 4 = 0 := by omega
  have g2 : (z + 1) % 400 = 0 → (z + 1) % 100 = 0 := by omega
  have g3 : z / 100 ≤ z / 4 := by omega
  rw [h4, h100, h400]
  unfold leap
  by_cases c4 : (z + 1) % 4 = 0
  · by_cases c100 : (z + 1) % 100 = 0
    · by_cases c400 : (z + 1) % 400 = 0
      · simp [c4, c100, c400]; omega
      · simp [c4, c100, c400]; omega
    · have c400 : (z + 1) % 400 ≠ 0 := fun h => c100 (g2 h)
      simp [c4, c100, c400]; omega
  · have c100 : (z + 1) % 100 ≠ 0 := fun h => c4 (g1 h)
    have c400 : (z + 1) % 400 ≠ 0 := fun h => c100 (g2 h)
    simp [c4, c100, c400]; omega

theorem leap_4800 (Y : Nat) : leap (Y + 4800) = leap Y := by
  unfold leap
  have h4 : (Y + 4800) % 4 = Y % 4 := by omega
  have h100 : (Y + 4800) % 100 = Y % 100 := by omega
  have h400 : (Y + 4800) % 400 = Y % 400 := by omega
  rw [h4, h100, h400]

/-- The next day has the next day number. -/
theorem dayNumber_tomorrow {x : Ymd} (hr : RealDate x) (hy : 1400 ≤ x.year) :
    (tomorrow x).dayNumber = x.dayNumber + 1 := by
  obtain ⟨Y, M, D⟩ := x
  obtain ⟨r1, r2, r3, r4⟩ := hr
  simp only at *
  unfold tomorrow
  simp only
  have hs := year_step (Y + 4799)
  rw [show Y + 4799 + 1 = Y + 4800 by omega, leap_4800] at hs
  have hA : 32045 < 365 * (Y + 4799) + (Y + 4799) / 4 - (Y + 4799) / 100 + (Y + 4799) / 400 := by omega
  have hs2 : 365 * (Y + 4800) + (Y + 4800) / 4 - (Y + 4800) / 100 + (Y + 4800) / 400 =
    365 * (Y + 1 + 4799) + (Y + 1 + 4799) / 4 - (Y + 1 + 4799) / 100 + (Y + 1 + 4799) / 400 := by
    rw [show Y + 1 + 4799 = Y + 4800 by omega]
  have g4 : (Y + 4800) / 100 ≤ (Y + 4800) / 4 := by omega
  have g5 : (Y + 4799) / 100 ≤ (Y + 4799) / 4 := by omega
  by_cases hd : D < monthDays Y M
  · rw [if_pos hd]
    unfold Ymd.dayNumber
    simp only
    have hz : ∀ z, z / 100 ≤ z / 4 := by intro z; omega
    have hz := hz (Y + 4800 - (14 - M) / 12)
    have hz2 : 4700 ≤ Y + 4800 - (14 - M) / 12 := by omega
    clear hs hA hs2 g4 g5 r4 hd
    generalize Y + 4800 - (14 - M) / 12 = z at *
    generalize M + 12 * ((14 - M) / 12) - 3 = w at *
    omega
  · rw [if_neg hd]
    have hD : D = monthDays Y M := by omega
    have hcases : M = 1 ∨ M = 2 ∨ M = 3 ∨ M = 4 ∨ M = 5 ∨ M = 6 ∨ M = 7 ∨ M = 8 ∨ M = 9 ∨ M = 10 ∨ M = 11
      ∨ M = 12 := by omega
    unfold monthDays at hD
    unfold Ymd.dayNumber
    clear hd r4
    generalize hx1 : (Y + 4799) / 4 = x1 at *
    generalize hx2 : (Y + 4799) / 100 = x2 at *
    generalize hx3 : (Y + 4799) / 400 = x3 at *
    generalize hx4 : (Y + 4800) / 4 = x4 at *
    generalize hx5 : (Y + 4800) / 100 = x5 at *
    generalize hx6 : (Y + 4800) / 400 = x6 at *
    have hY1 : Y + 1 + 4800 - 1 = Y + 4800 := by omega
    rcases hcases with rfl | rfl | rfl | rfl | rfl | rfl | rfl | rfl | rfl | rfl | rfl | rfl <;>
      simp only [Nat.reduceAdd, Nat.reduceSub, Nat.reduceDiv, Nat.reduceMul, Nat.reduceLT, if_true, if_false,
        Nat.reduceEqDiff, Nat.sub_zero, false_or, or_false, or_true, true_or, or_self,
        Nat.add_sub_cancel, Nat.add_sub_add_right, hY1, Nat.mul_zero, Nat.add_zero,
        show Y + 4800 - 1 = Y + 4799 by omega, hx1, hx2, hx3, hx4, hx5, hx6] at hD ⊢ <;>
      (clear hx1 hx2 hx3 hx4 hx5 hx6 hs2)
    case inr.inl =>
      by_cases hl : leap Y = true
      · rw [if_pos hl] at hD hs; omega
      · rw [if_neg hl] at hD hs; omega
    all_goals (clear hs; omega)

theorem tomorrow_real {x : Ymd} (hr : RealDate x) : RealDate (tomorrow x) := by
  obtain ⟨Y, M, D⟩ := x
  obtain ⟨r1, r2, r3, r4⟩ := hr
  simp only at *
  unfold tomorrow
  have hm : ∀ y m, 1 ≤ monthDays y m := by
    intro y m
    unfold monthDays; split <;> (try split) <;> omega
  simp only
  split
  · exact ⟨r1, r2, by simp only; omega, by simp only; omega⟩
  · split
    · exact ⟨by simp only; omega, by simp only; omega, by simp only; omega, hm _ _⟩
    · exact ⟨by simp only; omega, by simp only; omega, by simp only; omega, hm _ _⟩

theorem tomorrow_year (x : Ymd) : x.year ≤ (tomorrow x).year := by
  unfold tomorrow
  split
  · exact le_refl _
  · split
    · exact le_refl _
    · exact Nat.le_succ _

theorem dayNumber_year {x : Ymd} (hr : RealDate x) (hy : 10000 ≤ x.year) : 5373484 < x.dayNumber := by
  obtain ⟨Y, M, D⟩ := x
  obtain ⟨r1, r2, r3, r4⟩ := hr
  simp only at *
  unfold Ymd.dayNumber
  simp only
  omega

/-- Counting days forward from a date, one calendar day at a time, follows the conversion. -/
theorem daysAfter_ymd {n : Nat} (h1 : 2232400 ≤ n) : ∀ k, n + k ≤ 5373484 →
    daysAfter k (ymdOfDayNumber n) = ymdOfDayNumber (n + k)
  | 0, _ => rfl
  | k + 1, h => by
    have ih := daysAfter_ymd h1 k (by omega)
    unfold daysAfter
    rw [ih]
    have hr := ymd_real (n := n + k) (by omega) (by omega)
    have hy := ymd_inRange (n := n + k) (by omega) (by omega)
    have hn := dayNumber_ymd (n := n + k) (by omega) (by omega)
    generalize ymdOfDayNumber (n + k) = x at *
    have hy' : 1400 ≤ x.year := by
      unfold Ymd.inRange at hy; simp at hy; exact hy.1.1
    have ht := dayNumber_tomorrow hr hy'
    have htr := tomorrow_real hr
    have hty : 1400 ≤ (tomorrow x).year := le_trans hy' (tomorrow_year x)
    have htz : (tomorrow x).year ≤ 9999 := by
      by_contra hc
      have := dayNumber_year htr (by omega)
      omega
    rw [← ymd_dayNumber htr hty htz, ht, hn]
    rfl

end Sas
