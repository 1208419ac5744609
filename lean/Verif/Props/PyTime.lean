import Verif.Spec.PyTime
import Verif.Props.DateTime

/-! # Property C38: times, durations and dates in Python -/

namespace Sas.Props
open Sas Spec

theorem toSigned_nat {n : Nat} (h : n < 2 ^ 31) : toSigned 32 n = n := by
  unfold toSigned
  rw [if_pos (by omega)]

theorem hours_nat {n : Nat} (h : n < 2147483648000000) : (Duration.us n).hours = (n / 3600000000 : Nat) := by
  unfold Duration.hours Duration.ticks
  simp only
  have e : ((n : Int) / 3600000000 % 2 ^ 32).toNat = n / 3600000000 := by omega
  rw [Int.tdiv_eq_ediv_of_nonneg (by omega), e, toSigned_nat (by omega)]

theorem totalSeconds_nat {n : Nat} (h : n < 2147483648000000) :
    (Duration.us n).totalSeconds = (n / 1000000 : Nat) := by
  unfold Duration.totalSeconds Duration.ticks
  simp only
  have e : ((n : Int) / 1000000 % 2 ^ 32).toNat = n / 1000000 := by omega
  rw [Int.tdiv_eq_ediv_of_nonneg (by omega), e, toSigned_nat (by omega)]

theorem minutes_nat (n : Nat) : (Duration.us n).minutes = (n / 60000000 % 60 : Nat) := by
  unfold Duration.minutes Duration.ticks
  simp only
  rw [Int.tdiv_eq_ediv_of_nonneg (by omega), Int.tmod_eq_emod_of_nonneg (by omega)]
  omega

theorem seconds_nat (n : Nat) : (Duration.us n).seconds = (n / 1000000 % 60 : Nat) := by
  unfold Duration.seconds Duration.ticks
  simp only
  rw [Int.tdiv_eq_ediv_of_nonneg (by omega), Int.tmod_eq_emod_of_nonneg (by omega)]
  omega

theorem usecs_nat (n : Nat) : (Duration.us n).usecs = (n % 1000000 : Nat) := by
  unfold Duration.usecs Duration.ticks
  simp only
  rw [Int.tmod_eq_emod_of_nonneg (by omega)]
  omega

/-- C38. A time of day becomes the Python `time` of the same microsecond. -/
theorem C38_time (n : Nat) (hn : n < 86400000000) :
    ∃ h m s us, (Duration.us n).toPython = .ok (.time h m s us) ∧ IsTime h m s us ∧ timeUs h m s us = n := by
  refine ⟨n / 3600000000, n / 60000000 % 60, n / 1000000 % 60, n % 1000000, ?_, ?_, ?_⟩
  · unfold Duration.toPython
    simp only
    rw [hours_nat (by omega), minutes_nat, seconds_nat, usecs_nat, if_pos, PyTime.fromTime, if_pos (by omega)]
    · simp only [Int.toNat_natCast]
    · rw [Int.tdiv_eq_ediv_of_nonneg (by omega)]; omega
  · unfold IsTime; omega
  · unfold timeUs; omega

example : (Duration.us 72876493827).toPython = .ok (.time 20 14 36 493827) := by decide

/-- The `timedelta` of a duration of a day or more. -/
theorem toPython_long {n : Nat} (h1 : 86400000000 ≤ n) (h2 : n < 2147483648000000) :
    (Duration.us n).toPython
      = .ok (.delta (n / 86400000000 : Nat) (n / 1000000 % 86400) (n % 1000000)) := by
  unfold Duration.toPython
  simp only
  rw [hours_nat h2, totalSeconds_nat h2, usecs_nat, Int.tdiv_eq_ediv_of_nonneg (by omega)]
  have hd : ((n / 3600000000 : Nat) : Int) / 24 = (n / 86400000000 : Nat) := by omega
  rw [hd, if_neg (by omega), if_neg (by omega), if_neg (by omega)]
  unfold PyTime.fromDSU
  simp only
  have e1 : ((n / 1000000 : Nat) : Int) - (n / 86400000000 : Nat) * 86400 + ((n % 1000000 : Nat) : Int) / 1000000
      = (n / 1000000 % 86400 : Nat) := by omega
  rw [e1]
  have e2 : ((n / 86400000000 : Nat) : Int) + ((n / 1000000 % 86400 : Nat) : Int) / 86400
      = (n / 86400000000 : Nat) := by omega
  rw [e2, if_pos (by omega)]
  congr 2 <;> omega

/-- C38. Every non-negative `timedelta` of up to 106751990 days (292000 years) becomes a duration of the
same length. -/
theorem C38_from_delta (d : Int) (s us : Nat) (h : IsDelta d s us) (h1 : 0 ≤ d) (h2 : d < 106751990) :
    (PyTime.delta d s us).toDuration = .ok (.ok (.us (deltaUs d s us))) := by
  obtain ⟨-, -, hs, hu⟩ := h
  unfold PyTime.toDuration deltaUs
  simp only
  rw [if_neg (by omega)]
  simp only [ticks64, bind, Except.bind, pure, Except.pure]
  rw [if_pos (by omega)]
  simp only
  rw [if_pos (by omega)]
  simp only
  rw [if_pos (by omega)]
  simp only
  rw [if_neg (by omega)]

/-- C38, partial. A duration of one day up to 2^31 seconds (68 years) becomes the Python `timedelta` of the
same length, and comes back as the same duration. Missing from the full statement, and false
(`C38_refuted`): durations below a day (they become a `time`, which does not convert back), negative ones,
and longer ones. -/
theorem C38_delta_partial (n : Nat) (h1 : 86400000000 ≤ n) (h2 : n < 2147483648000000) :
    ∃ d s us, (Duration.us n).toPython = .ok (.delta d s us) ∧ IsDelta d s us ∧ deltaUs d s us = n
      ∧ (PyTime.delta d s us).toDuration = .ok (.ok (.us n)) := by
  have hd : IsDelta (n / 86400000000 : Nat) (n / 1000000 % 86400) (n % 1000000) := by unfold IsDelta; omega
  have he : deltaUs (n / 86400000000 : Nat) (n / 1000000 % 86400) (n % 1000000) = n := by unfold deltaUs; omega
  have hf := C38_from_delta _ _ _ hd (by omega) (by omega)
  rw [he] at hf
  exact ⟨_, _, _, toPython_long h1 h2, hd, he, hf⟩

example : (Duration.us 90000250000).toPython = .ok (.delta 1 3600 250000) := by decide

/-- C38 is false of: a `time` on the way back (`TypeError`); minus one second (`ValueError` on the way to
Python); minus 25 hours, which becomes a `timedelta` of another length; a `timedelta` of minus one second,
which becomes a duration of minus two days; 2^31 seconds. -/
theorem C38_refuted :
    (∀ h m s us, (PyTime.time h m s us).toDuration = .raised)
    ∧ (Duration.us (-1000000)).toPython = .raised
    ∧ (∃ d s us, (Duration.us (-90000000000)).toPython = .ok (.delta d s us) ∧ deltaUs d s us ≠ -90000000000)
    ∧ (deltaUs (-1) 86399 0 = -1000000 ∧ (PyTime.delta (-1) 86399 0).toDuration = .ok (.ok (.us (-172799000000))))
    ∧ (∃ d s us, (Duration.us 2147483648000000).toPython = .ok (.delta d s us)
        ∧ deltaUs d s us ≠ 2147483648000000) := by
  refine ⟨fun _ _ _ _ => rfl, by decide, ⟨-2, 82800, 999999, by decide, by decide⟩, ⟨by decide, by decide⟩,
    ⟨-24856, 74752, 0, by decide, by decide⟩⟩

theorem toDateTime_day {x : Ymd} {n : Nat} (hx : Date.ofYmd x = .ok (.day n)) (h m s u : Nat) :
    (PyTime.datetime x h m s u).toDateTime = .ok (.ok (.at (n * 86400000000 + timeUs h m s u))) := by
  have e : timeUs h m s u = ((h * 3600 + m * 60 + s : Nat) : Int) * 1000000 + u := by
    unfold timeUs; push_cast; ring
  rw [e]
  simp only [PyTime.toDateTime, hx, bind, Except.bind, pure, Except.pure, usPerDay]
  push_cast
  rfl

/-- C38. An instant of the years 1400 to 9999 becomes the Python `datetime` of its calendar date and time
of day, and comes back as the same instant. -/
theorem C38_datetime (us : Int) (h1 : -204535 * 86400000000 ≤ us) (h2 : us < 2936550 * 86400000000) :
    ∃ x h m s u, (at1960 us).toPython = .ok (.ok (.datetime x h m s u))
      ∧ (day1960 (us / 86400000000)).ymd = .ok x ∧ IsTime h m s u ∧ timeUs h m s u = us % 86400000000
      ∧ (PyTime.datetime x h m s u).toDateTime = .ok (.ok (at1960 us)) := by
  obtain ⟨n, hn, hn1, hn2, hx⟩ := day1960_ymd (d := us / 86400000000) (by omega) (by omega)
  obtain ⟨k, hk⟩ : ∃ k : Nat, us % 86400000000 = k := ⟨(us % 86400000000).toNat, by omega⟩
  have hk2 : k < 86400000000 := by omega
  have ht : (at1960 us).timeOfDay = .us k := by rw [timeOfDay_at (by omega), hk]
  have hp : (at1960 us).toPython = .ok (PyTime.fromDateAndTime (ymdOfDayNumber n)
      (Duration.us k).hours (Duration.us k).minutes (Duration.us k).seconds (Duration.us k).usecs) := by
    have := bind_two (g := fun y : Ymd => (pure (PyTime.fromDateAndTime y (at1960 us).timeOfDay.hours
      (at1960 us).timeOfDay.minutes (at1960 us).timeOfDay.seconds (at1960 us).timeOfDay.usecs) : Res _))
      (date_at h1 h2) hx
    rw [ht] at this
    show (do
      let y ← (← (at1960 us).date).ymd
      (pure (PyTime.fromDateAndTime y (at1960 us).timeOfDay.hours
        (at1960 us).timeOfDay.minutes (at1960 us).timeOfDay.seconds (at1960 us).timeOfDay.usecs) : Res _)) = _
    rw [ht]
    exact this
  refine ⟨ymdOfDayNumber n, k / 3600000000, k / 60000000 % 60, k / 1000000 % 60, k % 1000000, ?_, hx, ?_, ?_, ?_⟩
  · rw [hp, hours_nat (by omega), minutes_nat, seconds_nat, usecs_nat, PyTime.fromDateAndTime, if_pos (by omega)]
    simp only [Int.toNat_natCast]
  · unfold IsTime; omega
  · unfold timeUs; omega
  · rw [toDateTime_day (n := n) (by unfold Date.ofYmd; rw [ymd_inRange hn1 hn2, dayNumber_ymd hn1 hn2]; rfl)]
    have e : (n : Int) * 86400000000 + timeUs (k / 3600000000) (k / 60000000 % 60) (k / 1000000 % 60) (k % 1000000)
      = 2436935 * 86400000000 + us := by unfold timeUs; omega
    rw [e]
    rfl

example : (at1960 1798402476493827).toPython = .ok (.ok (.datetime ⟨2016, 12, 26⟩ 20 14 36 493827)) := by
  decide +kernel

/-- C38. A date of the years 1400 to 9999 becomes the Python `date` of the same calendar date, and comes
back as the same date. -/
theorem C38_date (d : Int) (h1 : -204535 ≤ d) (h2 : d ≤ 2936549) :
    ∃ x, (day1960 d).toPython = .ok (.ok (.date x)) ∧ (day1960 d).ymd = .ok x
      ∧ (PyTime.date x).toDate = .ok (.ok (day1960 d)) := by
  obtain ⟨n, hn, hn1, hn2, hx⟩ := day1960_ymd h1 h2
  refine ⟨_, ?_, hx, ?_⟩
  · have : (day1960 d).toPython = (do return .ok (.date (← (day1960 d).ymd))) := rfl
    rw [this, hx]
    rfl
  · have e : Date.ofYmd (ymdOfDayNumber n) = .ok (.day n) := by
      unfold Date.ofYmd; rw [ymd_inRange hn1 hn2, dayNumber_ymd hn1 hn2]; rfl
    have e2 : (2436935 + d).toNat = n := by omega
    show PyResult.ok (Date.ofYmd _) = _
    rw [e, day1960, e2]

/-- C38. Every Python date of the years 1400 to 9999 becomes a date that converts back to it. -/
theorem C38_from_date (x : Ymd) (hr : RealDate x) (h1 : 1400 ≤ x.year) (h2 : x.year ≤ 9999) :
    ∃ d, (PyTime.date x).toDate = .ok (.ok d) ∧ d.toPython = .ok (.ok (.date x)) := by
  have hy : x.inRange = true := by
    obtain ⟨r1, r2, r3, r4⟩ := hr
    have := monthDays_le x.year x.month
    unfold Ymd.inRange
    simp only [Bool.and_eq_true, decide_eq_true_eq]
    omega
  have hb := ymd_dayNumber hr h1 h2
  refine ⟨.day x.dayNumber, ?_, ?_⟩
  · unfold PyTime.toDate Date.ofYmd
    simp only [hy, if_true]
  · show (do return PyResult.ok (PyTime.date (← (Date.day x.dayNumber).ymd))) = _
    have : (Date.day x.dayNumber).ymd = .ok x := by
      unfold Date.ymd
      simp only
      rw [hb]
      simp only [hy, if_true]
    rw [this]
    rfl

/-- C38. Missing values become `None`. -/
theorem C38_missing : DateTime.notADateTime.toPython = .ok (.ok .none) ∧ Date.notADate.toPython = .ok (.ok .none)
    ∧ Duration.notADateTime.toPython = .ok .none := ⟨rfl, rfl, rfl⟩

end Sas.Props
