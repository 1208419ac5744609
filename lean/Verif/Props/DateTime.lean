import Verif.Proofs.DateText
import Verif.Proofs.Values

/-!
# Properties C35 (dates and times), C41 (getters of the wrong type), C51 (calendar dates), C52 (text) and C53 (no abort)

As in Props/Values.lean, the row is `before ++ cell ++ after` with `before` as long as the column's
offset; `cell` is the encoding of a double in the byte order of the file.
-/

namespace Sas.Props
open Sas Spec

/-- The double read by a date or time getter. -/
theorem getDouble_cell (e : Endian) (before after : List Byte) (c : Column) (bits : Nat)
    (ho : c.offset = before.length) (hb : bits < 2 ^ 64) :
    c.getDouble e (before ++ encode e 8 bits ++ after) = .ok (Dbl.ofBits bits) := by
  have hl : (encode e 8 bits).length = 8 := by simp
  unfold Column.getDouble
  rw [c.cell_middle before _ after 8 ho hl]
  show Except.ok (Dbl.ofBits (getDoubleBits e (encode e 8 bits))) = _
  unfold getDoubleBits
  rw [getVal_encode, Nat.mod_eq_of_lt (by simpa using hb)]

theorem ieeeValue_lt {b : Nat} {x : ℚ} (h : IeeeValue b x) : b < 2 ^ 64 := by
  obtain ⟨sign, ex, frac, hs, hf, rfl, h⟩ := h
  have hex : ex ≤ 2046 := by rcases h with h | h <;> omega
  omega

theorem ieeeNaN_lt {b : Nat} (h : IeeeNaN b) : b < 2 ^ 64 := by
  obtain ⟨sign, frac, hs, hf, hf2, rfl⟩ := h
  omega

/-! ## C35: instants -/

/-- C35, partial. A datetime cell holding `s` seconds since 1960-01-01 (up to 2^42 seconds, 139000 years,
before or after) is returned as an instant within half a microsecond of it, up to 2^-35 of a microsecond;
the instant is exact when `s` is a whole number of microseconds, in particular of seconds. Missing from
the full statement, and false (`C35_refuted`): that the instant is always the nearest microsecond. -/
theorem C35_datetime_partial (e : Endian) (before after : List Byte) (c : Column) (bits : Nat) (s : ℚ)
    (hc : c.fmt = .datetime e) (ho : c.offset = before.length) (hv : IeeeValue bits s) (hr : |s| ≤ 2 ^ 42) :
    ∃ us : Int, c.getDatetime (before ++ encode e 8 bits ++ after) = .ok (at1960 us)
      ∧ |(us : ℚ) - s * 1000000| ≤ 1 / 2 + 1 / 2 ^ 35
      ∧ (∀ j : Int, s * 1000000 = j → us = j) := by
  obtain ⟨h1, h2⟩ := ofBits_value hv
  obtain ⟨us, h3, h4⟩ := datetimeFromEpoch_near h2 hr
  refine ⟨us, ?_, h4, fun j hj => ?_⟩
  · unfold Column.getDatetime
    simp only [hc, getDouble_cell e before after c bits ho (ieeeValue_lt hv), h1]
    exact h3
  · rw [hj] at h4
    exact int_eq_of_abs_lt (lt_of_le_of_lt h4 (by norm_num))

/-- C35. A time stamp of `j` microseconds, stored as (one of) the nearest double(s) of its number of
seconds, is returned exactly, from 1687 to 2232. -/
theorem C35_stored (e : Endian) (before after : List Byte) (c : Column) (bits : Nat) (s : ℚ) (j : Int)
    (hc : c.fmt = .datetime e) (ho : c.offset = before.length) (hv : IeeeValue bits s)
    (hs : Nearest s (j / 1000000)) (hj : |j| < 2 ^ 33 * 1000000) :
    c.getDatetime (before ++ encode e 8 bits ++ after) = .ok (at1960 j) := by
  have hx : |(j : ℚ) / 1000000| < (2 : ℚ) ^ (33 : Int) := by
    rw [abs_div, abs_of_pos (by norm_num : (0 : ℚ) < 1000000), div_lt_iff₀ (by norm_num), ← Int.cast_abs]
    have : ((|j| : Int) : ℚ) < ((2 ^ 33 * 1000000 : Int) : ℚ) := by exact_mod_cast hj
    refine lt_of_lt_of_le this (by norm_num)
  have h1 := hs.2 _ (fl_isDouble (x := (j : ℚ) / 1000000))
  have h2 := fl_err hx (by norm_num)
  have h3 : |s - j / 1000000| ≤ 1 / 2 ^ 21 := le_trans h1 (le_trans h2 (by norm_num))
  have hr : |s| ≤ 2 ^ 42 := by
    rw [abs_lt] at hx
    rw [abs_le] at *
    norm_num at *
    constructor <;> linarith
  obtain ⟨us, g1, g2, -⟩ := C35_datetime_partial e before after c bits s hc ho hv hr
  have : us = j := by
    apply int_eq_of_abs_lt
    rw [abs_lt]
    rw [abs_le] at g2 h3
    norm_num at *
    constructor <;> linarith
  rw [g1, this]

/-- The representation of the double nearest to 1798402476.493827, the number of seconds from 1960 to
2016-12-26 20:14:36.493827. -/
def stampBits : Nat := 0x41dacc5c6b1f9add

theorem stamp_value : IeeeValue stampBits (7543046700767965 / 4194304) :=
  ⟨0, 1053, 3039447073397469, by norm_num, by norm_num, by decide +kernel, .inr ⟨by norm_num, by norm_num, by norm_num⟩⟩

/-- The hypotheses of `C35_stored` are met by this time stamp. -/
theorem stamp_nearest : Nearest (7543046700767965 / 4194304) ((1798402476493827 : Int) / 1000000) := by
  have h := fl_nearest ((1798402476493827 : Int) / 1000000)
  have h2 : fl ((1798402476493827 : Int) / 1000000) = 7543046700767965 / 4194304 := by decide +kernel
  rw [h2] at h
  exact h

/-- 2016-12-26 20:14:36.493827 in a big-endian row. -/
example : (⟨[], [], [], .datetime .big, 1, 8⟩ : Column).getDatetime ([7] ++ encode .big 8 stampBits ++ [9])
    = .ok (at1960 1798402476493827) :=
  C35_stored .big [7] [9] _ _ _ _ rfl rfl stamp_value stamp_nearest (by decide)

/-- C35 is false as stated: 5e-7 seconds, stored as the nearest double (which is below 5e-7), is returned
as one microsecond although zero is nearer. -/
theorem C35_refuted : ∃ (c : Column) (bits : Nat) (s : ℚ) (us : Int), c.fmt = .datetime .little
    ∧ c.offset = 0 ∧ IeeeValue bits s ∧ c.getDatetime (encode .little 8 bits) = .ok (at1960 us)
    ∧ ∃ j : Int, |(j : ℚ) - s * 1000000| < |(us : ℚ) - s * 1000000| := by
  refine ⟨⟨[], [], [], .datetime .little, 0, 8⟩, 0x3ea0c6f7a0b5ed8d,
    4722366482869645 / 9444732965739290427392, 1, rfl, rfl, ?_, by decide +kernel, 0, ?_⟩
  · exact ⟨0, 1002, 218766855499149, by norm_num, by norm_num, by decide +kernel,
      .inr ⟨by norm_num, by norm_num, by norm_num⟩⟩
  · rw [abs_of_neg (by norm_num), abs_of_pos (by norm_num)]
    norm_num

/-- C35. The date and the time of day of a datetime column are those of its instant, in the calendar range
1400 to 9999. -/
theorem C35_parts (c : Column) (e : Endian) (row : List Byte) (us : Int)
    (hc : c.fmt = .datetime e) (hd : c.getDatetime row = .ok (at1960 us))
    (h1 : -204535 * 86400000000 ≤ us) (h2 : us < 2936550 * 86400000000) :
    c.getDate row = .ok (day1960 (us / 86400000000)) ∧ c.getTime row = .ok (.us (us % 86400000000)) := by
  unfold Column.getDatetime at hd
  simp only [hc] at hd
  constructor
  · unfold Column.getDate
    simp only [hc]
    cases hx : c.getDouble e row with
    | error x => rw [hx] at hd; exact absurd hd (by simp [bind, Except.bind])
    | ok x =>
      rw [hx] at hd
      simp only [bind, Except.bind] at hd ⊢
      rw [hd]
      simp only [date_at h1 h2]
      rfl
  · unfold Column.getTime
    simp only [hc]
    cases hx : c.getDouble e row with
    | error x => rw [hx] at hd; exact absurd hd (by simp [bind, Except.bind])
    | ok x =>
      rw [hx] at hd
      simp only [bind, Except.bind] at hd ⊢
      rw [hd]
      simp only [timeOfDay_at (us := us) (by omega)]
      rfl

/-- A date column reads its cell as a number of days. -/
theorem getDate_cell (e : Endian) (before after : List Byte) (c : Column) (bits : Nat) (x : ℚ) (d : Int)
    (hc : c.fmt = .date e) (ho : c.offset = before.length) (hv : IeeeValue bits x) (hd : |x - d| < 1 / 2)
    (h1 : -204535 ≤ d) (h2 : d ≤ 2936549) :
    c.getDate (before ++ encode e 8 bits ++ after) = .ok (day1960 d) := by
  have hround : roundAway x = d := by
    apply int_eq_of_abs_lt
    have := roundAway_err x
    rw [abs_le] at this
    rw [abs_lt] at *
    constructor <;> linarith
  unfold Column.getDate
  simp only [hc, getDouble_cell e before after c bits ho (ieeeValue_lt hv), (ofBits_value hv).1]
  show dateFromEpoch (.fin x) = _
  unfold dateFromEpoch
  rw [dateFromEpochDays_ok hround h1 h2]
  rfl

/-- C35. A date cell holding `d` days (or a number nearer to `d` than to any other integer) since
1960-01-01 is returned as that date, from the year 1400 to the year 9999; as a datetime it is its
midnight, and its time of day is zero. -/
theorem C35_date (e : Endian) (before after : List Byte) (c : Column) (bits : Nat) (x : ℚ) (d : Int)
    (hc : c.fmt = .date e) (ho : c.offset = before.length) (hv : IeeeValue bits x) (hd : |x - d| < 1 / 2)
    (h1 : -204535 ≤ d) (h2 : d ≤ 2936549) :
    c.getDate (before ++ encode e 8 bits ++ after) = .ok (day1960 d)
    ∧ c.getDatetime (before ++ encode e 8 bits ++ after) = .ok (at1960 (d * 86400000000))
    ∧ c.getTime (before ++ encode e 8 bits ++ after) = .ok (.us 0) := by
  have h := getDate_cell e before after c bits x d hc ho hv hd h1 h2
  refine ⟨h, ?_, ?_⟩
  · unfold Column.getDatetime
    simp only [hc, h]
    show Except.ok (DateTime.at _) = _
    unfold at1960 usPerDay
    congr 2
    rw [Int.toNat_of_nonneg (by omega)]
    ring
  · unfold Column.getTime
    simp only [hc]

/-- 22222 days after 1960-01-01. -/
example : (⟨[], [], [], .date .little, 0, 8⟩ : Column).getDate (encode .little 8 0x40d5b38000000000)
    = .ok (day1960 22222) := by decide +kernel
example : IeeeValue 0x40d5b38000000000 22222 :=
  ⟨0, 1037, 1604737220739072, by norm_num, by norm_num, by decide +kernel, .inr ⟨by norm_num, by norm_num, by norm_num⟩⟩

/-- C35, partial. A time cell holding `s` seconds (up to 2^37, 4355 years) is returned as the time of day
of the instant `s` seconds after 1960-01-01; exactly, when `s` is a whole number of microseconds. Missing,
as for datetime cells: rounding to the nearest microsecond in all cases. -/
theorem C35_time_partial (e : Endian) (before after : List Byte) (c : Column) (bits : Nat) (s : ℚ)
    (hc : c.fmt = .time e) (ho : c.offset = before.length) (hv : IeeeValue bits s) (hr : |s| ≤ 2 ^ 37) :
    ∃ us : Int, c.getTime (before ++ encode e 8 bits ++ after) = .ok (.us (us % 86400000000))
      ∧ |(us : ℚ) - s * 1000000| ≤ 1 / 2 + 1 / 2 ^ 35
      ∧ (∀ j : Int, s * 1000000 = j → us = j) := by
  obtain ⟨h1, h2⟩ := ofBits_value hv
  obtain ⟨us, h3, h4⟩ := datetimeFromEpoch_near h2 (le_trans hr (by norm_num))
  have hus : -2436935 * 86400000000 ≤ us := by
    have : ((-2436935 * 86400000000 : Int) : ℚ) ≤ us := by
      rw [abs_le] at hr h4
      norm_num at *
      linarith
    exact_mod_cast this
  refine ⟨us, ?_, h4, fun j hj => ?_⟩
  · unfold Column.getTime
    simp only [hc, getDouble_cell e before after c bits ho (ieeeValue_lt hv), h1]
    show timeFromEpoch (.fin s) = _
    unfold timeFromEpoch
    rw [h3]
    exact congrArg Except.ok (timeOfDay_at hus)
  · rw [hj] at h4
    exact int_eq_of_abs_lt (lt_of_le_of_lt h4 (by norm_num))

/-- 25 hours and a quarter of a second: 01:00:00.25. -/
example : (⟨[], [], [], .time .little, 0, 8⟩ : Column).getTime (encode .little 8 0x40f5f90400000000)
    = .ok (.us 3600250000) := by decide +kernel
example : IeeeValue 0x40f5f90400000000 (90000 + 1 / 4) :=
  ⟨0, 1039, 1681170458738688, by norm_num, by norm_num, by decide +kernel, .inr ⟨by norm_num, by norm_num, by norm_num⟩⟩

/-- C35. A missing value is returned as not-a-date by every getter, except that a date column has the time
of day zero. -/
theorem C35_missing (e : Endian) (before after : List Byte) (c : Column) (bits : Nat)
    (hc : c.fmt = .datetime e ∨ c.fmt = .date e ∨ c.fmt = .time e) (ho : c.offset = before.length)
    (hv : IeeeNaN bits) :
    c.getDatetime (before ++ encode e 8 bits ++ after) = .ok .notADateTime
    ∧ c.getDate (before ++ encode e 8 bits ++ after) = .ok .notADate
    ∧ c.getTime (before ++ encode e 8 bits ++ after)
      = .ok (if c.fmt = .date e then .us 0 else .notADateTime) := by
  have h := getDouble_cell e before after c bits ho (ieeeNaN_lt hv)
  rw [ofBits_nan hv] at h
  rcases hc with hc | hc | hc
  · refine ⟨?_, ?_, ?_⟩
    · unfold Column.getDatetime; simp only [hc, h]; rfl
    · unfold Column.getDate; simp only [hc, h]; rfl
    · unfold Column.getTime; simp only [hc, h]; rfl
  · have h2 : c.getDate (before ++ encode e 8 bits ++ after) = .ok .notADate := by
      unfold Column.getDate; simp only [hc, h]; rfl
    refine ⟨?_, h2, ?_⟩
    · unfold Column.getDatetime; simp only [hc, h2]; rfl
    · unfold Column.getTime; simp only [hc]; simp
  · have h2 : c.getTime (before ++ encode e 8 bits ++ after) = .ok .notADateTime := by
      unfold Column.getTime; simp only [hc, h]; rfl
    refine ⟨?_, ?_, ?_⟩
    · unfold Column.getDatetime; simp only [hc, h2]; rfl
    · unfold Column.getDate; simp only [hc]
    · rw [h2]; simp [hc]

/-- SAS's missing value `.` -/
example : IeeeNaN 0xfffffe0000000000 := ⟨1, 0xffe0000000000, by norm_num, by norm_num, by norm_num, by decide +kernel⟩

/-! ## C41: getters of the wrong type -/

/-- C41, partial. A getter that does not apply to the type of the column returns its missing value whatever
memory, even none at all, the pointer it is given points to; `get_datetime` of a time column, which
converts the cell before throwing the result away, does so wherever `get_time` succeeds. Missing, and false
(`C41_refuted`): that this last one does not read the row. -/
theorem C41_missing_partial (c : Column) (row : List Byte) :
    (¬ Applies .string c.type → c.getString row = .ok [])
    ∧ (¬ Applies .integer c.type → c.getInteger row = .ok 0)
    ∧ (¬ Applies .number c.type → c.getNumber row = .ok (.bits 0x7ff8000000000000))
    ∧ (¬ Applies .date c.type → c.getDate row = .ok .notADate)
    ∧ (¬ Applies .time c.type → c.getTime row = .ok .notADateTime)
    ∧ (¬ Applies .datetime c.type → (c.type = .time → ∃ t, c.getTime row = .ok t) →
        c.getDatetime row = .ok .notADateTime) := by
  obtain ⟨name, label, format, fmt, offset, length⟩ := c
  refine ⟨fun h => ?_, fun h => ?_, fun h => ?_, fun h => ?_, fun h => ?_, fun h ht => ?_⟩
  all_goals
    cases fmt <;>
      first
      | rfl
      | (exfalso; apply h; simp [Applies, Column.type, Formatter.type]; done)
      | (obtain ⟨t, ht⟩ := ht rfl
         unfold Column.getDatetime
         simp only [ht]
         rfl)

/-- An unknown column of a null row. -/
example : (⟨[], [], [], .none, 100, 8⟩ : Column).getDatetime [] = .ok .notADateTime :=
  (C41_missing_partial _ _).2.2.2.2.2 (by simp [Applies, Column.type, Formatter.type])
    (by simp [Column.type, Formatter.type])

/-- C41 is false of `get_datetime` of a time column: it reads the row, and is undefined without one. -/
theorem C41_refuted (e : Endian) (name label format : List Byte) (offset length : Nat) :
    ¬ Applies .datetime (⟨name, label, format, .time e, offset, length⟩ : Column).type
    ∧ (⟨name, label, format, .time e, offset, length⟩ : Column).getDatetime [] = .error .ub := by
  refine ⟨by simp [Applies, Column.type, Formatter.type], ?_⟩
  simp only [Column.getDatetime, Column.getTime, Column.getDouble, Column.cell]
  rw [if_neg (by simp)]
  rfl

/-! ## C51: dates of the calendar -/

/-- C51. The date `d` days after 1960-01-01 is the calendar date reached by counting `d` days forward, or
`-d` days backward, with the months and leap years of the Gregorian calendar; years 1400 to 9999. -/
theorem C51_calendar (d : Int) (h1 : -204535 ≤ d) (h2 : d ≤ 2936549) :
    ∃ x, (day1960 d).ymd = .ok x ∧ RealDate x
      ∧ (0 ≤ d → x = daysAfter d.toNat ⟨1960, 1, 1⟩) ∧ (d ≤ 0 → daysAfter (-d).toNat x = ⟨1960, 1, 1⟩) := by
  obtain ⟨n, hn, hn1, hn2, h⟩ := day1960_ymd h1 h2
  have h1960 : ymdOfDayNumber 2436935 = ⟨1960, 1, 1⟩ := by decide
  refine ⟨_, h, ymd_real hn1 hn2, fun h0 => ?_, fun h0 => ?_⟩
  · have := daysAfter_ymd (n := 2436935) (by omega) d.toNat (by omega)
    rw [h1960] at this
    rw [this]
    congr 1
    omega
  · have := daysAfter_ymd hn1 (-d).toNat (by omega)
    rw [show n + (-d).toNat = 2436935 by omega, h1960] at this
    exact this

example : (day1960 22222).ymd = .ok ⟨2020, 11, 3⟩ := by decide +kernel
example : (day1960 (-21914)).ymd = .ok ⟨1900, 1, 1⟩ := by decide +kernel
example : daysAfter 366 ⟨1960, 1, 1⟩ = ⟨1961, 1, 1⟩ := by decide +kernel

/-! ## C52: text of dates and times -/

/-- C52, partial. Dates of the years 1400 to 9999, with or without a time of day, and times of day are
printed in ISO 8601 form. Missing from the full statement, and false (`C52_refuted`): that a missing value
is printed as well. -/
theorem C52_text_partial :
    (∀ d : Int, -204535 ≤ d → d ≤ 2936549 → ∃ x, (day1960 d).ymd = .ok x ∧ (day1960 d).toText = .ok (isoDate x))
    ∧ (∀ us : Int, -204535 * 86400000000 ≤ us → us < 2936550 * 86400000000 →
        ∃ x, (day1960 (us / 86400000000)).ymd = .ok x ∧
          (at1960 us).toText = .ok (isoDate x ++ [32] ++ isoTime (us % 86400000000).toNat))
    ∧ (∀ n : Nat, n < 86400000000 → (Duration.us n).toText = .ok (isoTime n)) := by
  refine ⟨fun d h1 h2 => ?_, fun us h1 h2 => ?_, fun n hn => toText_time hn⟩
  · obtain ⟨x, hx1, hx2⟩ := date_text h1 h2
    exact ⟨x, hx1, toText_date hx1 hx2⟩
  · exact at1960_text h1 h2

example : (at1960 1798402476493827).toText = .ok (ascii "2016-12-26 20:14:36.493827") := by decide +kernel
example : (day1960 22222).toText = .ok (ascii "2020-11-03") := by decide +kernel
example : (Duration.us 3600000000).toText = .ok (ascii "01:00:00") := by decide +kernel

/-- C52 is false for missing values: `to_string` of a missing date or datetime raises an exception, and
`to_string` of a missing time reads beyond the end of its buffer. -/
theorem C52_refuted (showNumber : Num → List Byte) (e : Endian) (before after : List Byte) (c : Column)
    (bits : Nat) (ho : c.offset = before.length) (hv : IeeeNaN bits) :
    ((c.fmt = .datetime e ∨ c.fmt = .date e) →
      c.toText showNumber (before ++ encode e 8 bits ++ after) = .error (.exn .outOfRange))
    ∧ (c.fmt = .time e → c.toText showNumber (before ++ encode e 8 bits ++ after) = .error .ub) := by
  constructor
  · rintro (hc | hc)
    · have h := (C35_missing e before after c bits (.inl hc) ho hv).1
      unfold Column.toText
      simp only [hc, h]
      decide
    · have h := (C35_missing e before after c bits (.inr (.inl hc)) ho hv).2.1
      unfold Column.toText
      simp only [hc, h]
      decide
  · intro hc
    have h := (C35_missing e before after c bits (.inr (.inr hc)) ho hv).2.2
    rw [if_neg (by rw [hc]; simp)] at h
    unfold Column.toText
    simp only [hc, h]
    decide +kernel

/-! ## C53: no abort -/

/-- C53, partial. The date and time getters of a cell that is missing or in the calendar range return a
value. Missing from the full statement, and false (`C53_refuted`): the other cells. -/
theorem C53_benign_partial (e : Endian) (before after : List Byte) (c : Column) (bits : Nat)
    (hc : c.fmt = .datetime e ∨ c.fmt = .date e ∨ c.fmt = .time e) (ho : c.offset = before.length)
    (hv : IeeeNaN bits ∨ ∃ s, IeeeValue bits s ∧
      (if c.fmt = .date e then (-204535 ≤ s ∧ s ≤ 2936549) else (-17671824000 ≤ s ∧ s ≤ 253717919999 ))) :
    (∃ t, c.getDatetime (before ++ encode e 8 bits ++ after) = .ok t)
    ∧ (∃ d, c.getDate (before ++ encode e 8 bits ++ after) = .ok d)
    ∧ (∃ t, c.getTime (before ++ encode e 8 bits ++ after) = .ok t) := by
  rcases hv with hv | ⟨s, hv, hr⟩
  · obtain ⟨h1, h2, h3⟩ := C35_missing e before after c bits hc ho hv
    exact ⟨⟨_, h1⟩, ⟨_, h2⟩, ⟨_, h3⟩⟩
  · rcases hc with hc | hc | hc
    · rw [if_neg (by rw [hc]; simp)] at hr
      have hr' : |s| ≤ 2 ^ 42 := by
        rw [abs_le]; norm_num; constructor <;> linarith
      obtain ⟨us, h1, h2, -⟩ := C35_datetime_partial e before after c bits s hc ho hv hr'
      have hb1 : -204535 * 86400000000 ≤ us := by
        have : ((-204535 * 86400000000 - 1: Int) : ℚ) < us := by
          rw [abs_le] at h2; norm_num at *; linarith
        have : (-204535 * 86400000000 - 1 : Int) < us := by exact_mod_cast this
        omega
      have hb2 : us < 2936550 * 86400000000 := by
        have : (us : ℚ) < ((2936550 * 86400000000 : Int) : ℚ) := by
          rw [abs_le] at h2; norm_num at *; linarith
        exact_mod_cast this
      obtain ⟨g1, g2⟩ := C35_parts c e _ us hc h1 hb1 hb2
      exact ⟨⟨_, h1⟩, ⟨_, g1⟩, ⟨_, g2⟩⟩
    · rw [if_pos hc] at hr
      have herr := roundAway_err s
      have hb1 : -204535 ≤ roundAway s := by
        have : ((-204535 - 1 : Int) : ℚ) < roundAway s := by
          rw [abs_le] at herr; push_cast; linarith
        have : (-204535 - 1 : Int) < roundAway s := by exact_mod_cast this
        omega
      have hb2 : roundAway s ≤ 2936549 := by
        have : (roundAway s : ℚ) < ((2936549 + 1 : Int) : ℚ) := by
          rw [abs_le] at herr; push_cast; linarith
        have : roundAway s < 2936549 + 1 := by exact_mod_cast this
        omega
      have h : c.getDate (before ++ encode e 8 bits ++ after) = .ok (day1960 (roundAway s)) := by
        unfold Column.getDate
        simp only [hc, getDouble_cell e before after c bits ho (ieeeValue_lt hv), (ofBits_value hv).1]
        show dateFromEpoch (.fin s) = _
        unfold dateFromEpoch
        rw [dateFromEpochDays_ok rfl hb1 hb2]
        rfl
      refine ⟨?_, ⟨_, h⟩, ?_⟩
      · unfold Column.getDatetime
        simp only [hc, h]
        exact ⟨_, rfl⟩
      · unfold Column.getTime
        simp only [hc]
        exact ⟨_, rfl⟩
    · rw [if_neg (by rw [hc]; simp)] at hr
      have hr' : |s| ≤ 2 ^ 42 := by
        rw [abs_le]; norm_num; constructor <;> linarith
      obtain ⟨us, h3, h4⟩ := datetimeFromEpoch_near (ofBits_value hv).2 hr'
      have h : ∃ t, c.getTime (before ++ encode e 8 bits ++ after) = .ok t := by
        unfold Column.getTime
        simp only [hc, getDouble_cell e before after c bits ho (ieeeValue_lt hv), (ofBits_value hv).1]
        show ∃ t, timeFromEpoch (.fin s) = .ok t
        unfold timeFromEpoch
        rw [h3]
        exact ⟨_, rfl⟩
      obtain ⟨t, ht⟩ := h
      refine ⟨?_, ?_, ⟨t, ht⟩⟩
      · unfold Column.getDatetime
        simp only [hc, ht]
        exact ⟨_, rfl⟩
      · unfold Column.getDate
        simp only [hc]
        exact ⟨_, rfl⟩

/-- C53 is false outside the calendar range: reading the date of a date cell of 3000000 days (the year
10173), or of a datetime cell of as many days in seconds, ends the program with `std::terminate`. -/
theorem C53_refuted :
    (⟨[], [], [], .date .little, 0, 8⟩ : Column).getDate (encode .little 8 0x4146e36000000000) = .error .terminate
    ∧ (⟨[], [], [], .datetime .little, 0, 8⟩ : Column).getDate (encode .little 8 0x424e2cc310000000)
      = .error .terminate
    ∧ IeeeValue 0x4146e36000000000 3000000 ∧ IeeeValue 0x424e2cc310000000 259200000000 := by
  refine ⟨by decide +kernel, by decide +kernel, ?_, ?_⟩
  · exact ⟨0, 1044, 1938851316629504, by norm_num, by norm_num, by decide +kernel,
      .inr ⟨by norm_num, by norm_num, by norm_num⟩⟩
  · exact ⟨0, 1060, 3989865972629504, by norm_num, by norm_num, by decide +kernel,
      .inr ⟨by norm_num, by norm_num, by norm_num⟩⟩

end Sas.Props
