import Verif.Proofs.Order
import Verif.Props.DateTime

/-!
# Property C80: the order of dates and times

As in Props/DateTime.lean, the row is `before ++ cell ++ after`, and `cell` the encoding of a double. `<` on texts is the
alphabetical order of bytes.
-/

namespace Sas.Props
open Sas Spec

/-- What the datetime getter gives for a number. -/
theorem getDatetime_cell {e : Endian} {c : Column} {before after : List Byte} {bits : Nat} {s : ℚ} (hc : c.fmt = .datetime e)
    (ho : c.offset = before.length) (hv : IeeeValue bits s) :
    c.getDatetime (before ++ encode e 8 bits ++ after) = datetimeFromEpoch (.fin s) := by
  unfold Column.getDatetime
  simp only [hc, getDouble_cell e before after c bits ho (ieeeValue_lt hv), (ofBits_value hv).1]
  rfl

/-- **C80**, instants. The larger of two numbers of seconds, within 139000 years of 1960, is never read as an earlier
instant, in any two rows; and if they are two microseconds apart, it is read as a later one. -/
theorem C80_instants (e : Endian) (c : Column) (hc : c.fmt = .datetime e) (before₁ after₁ before₂ after₂ : List Byte)
    (ho₁ : c.offset = before₁.length) (ho₂ : c.offset = before₂.length) (bits₁ bits₂ : Nat) (s t : ℚ)
    (hs : IeeeValue bits₁ s) (ht : IeeeValue bits₂ t) (hs' : |s| ≤ 2 ^ 42) (ht' : |t| ≤ 2 ^ 42) (h : s ≤ t) :
    ∃ a b : Int, c.getDatetime (before₁ ++ encode e 8 bits₁ ++ after₁) = .ok (at1960 a) ∧
      c.getDatetime (before₂ ++ encode e 8 bits₂ ++ after₂) = .ok (at1960 b) ∧ a ≤ b ∧
      (s + 2 / 1000000 ≤ t → a < b) := by
  rw [getDatetime_cell hc ho₁ hs, getDatetime_cell hc ho₂ ht]
  obtain ⟨a, b, h1, h2, h3⟩ := Proofs.datetimeFromEpoch_mono (ofBits_value hs).2 (ofBits_value ht).2 hs' ht' h
  refine ⟨a, b, h1, h2, h3, fun hlt => ?_⟩
  obtain ⟨a', g1, g2⟩ := datetimeFromEpoch_near (ofBits_value hs).2 hs'
  obtain ⟨b', g3, g4⟩ := datetimeFromEpoch_near (ofBits_value ht).2 ht'
  have inj : ∀ i j : Int, Except.ok (ε := Stop) (at1960 i) = .ok (at1960 j) → i = j := by
    intro i j hij
    unfold at1960 at hij
    injection hij with hij
    injection hij with hij
    omega
  have ea := inj _ _ (h1.symm.trans g1)
  have eb := inj _ _ (h2.symm.trans g3)
  subst ea eb
  rw [abs_le] at g2 g4
  have : (a : ℚ) < b := by
    norm_num at g2 g4
    linarith
  exact_mod_cast this

theorem calendar_low {x : ℚ} (h : -204535 ≤ x) : -204535 ≤ roundAway x := by
  have h1 := Proofs.roundAway_mono (x := ((-204535 : Int) : ℚ)) (y := x) (by push_cast; exact h)
  rwa [roundAway_int] at h1

theorem calendar_high {x : ℚ} (h : x ≤ 2936549) : roundAway x ≤ 2936549 := by
  have h1 := Proofs.roundAway_mono (x := x) (y := ((2936549 : Int) : ℚ)) (by push_cast; exact h)
  rwa [roundAway_int] at h1

/-- What the date getter gives for a number of days. -/
theorem getDate_round {e : Endian} {c : Column} {before after : List Byte} {bits : Nat} {z : ℚ} (hc : c.fmt = .date e)
    (ho : c.offset = before.length) (hz : IeeeValue bits z) (k1 : -204535 ≤ roundAway z) (k2 : roundAway z ≤ 2936549) :
    c.getDate (before ++ encode e 8 bits ++ after) = .ok (day1960 (roundAway z)) := by
  unfold Column.getDate
  simp only [hc, getDouble_cell e before after c bits ho (ieeeValue_lt hz), (ofBits_value hz).1]
  show dateFromEpoch (.fin z) = _
  unfold dateFromEpoch
  rw [dateFromEpochDays_ok rfl k1 k2]
  rfl

/-- **C80**, dates. The larger of two numbers of days, of the calendar from 1400 to 9999, is never read as an earlier date;
and if they are at least a day apart, it is read as a later one. -/
theorem C80_dates (e : Endian) (c : Column) (hc : c.fmt = .date e) (before₁ after₁ before₂ after₂ : List Byte)
    (ho₁ : c.offset = before₁.length) (ho₂ : c.offset = before₂.length) (bits₁ bits₂ : Nat) (x y : ℚ)
    (hx : IeeeValue bits₁ x) (hy : IeeeValue bits₂ y) (hx' : -204535 ≤ x) (hy' : y ≤ 2936549) (h : x ≤ y) :
    ∃ a b : Int, c.getDate (before₁ ++ encode e 8 bits₁ ++ after₁) = .ok (day1960 a) ∧
      c.getDate (before₂ ++ encode e 8 bits₂ ++ after₂) = .ok (day1960 b) ∧ a ≤ b ∧ (x + 1 ≤ y → a < b) := by
  have h1 := calendar_low hx'
  have h2 := calendar_high hy'
  have h3 := Proofs.roundAway_mono h
  refine ⟨_, _, getDate_round hc ho₁ hx h1 (by omega), getDate_round hc ho₂ hy (by omega) h2, h3, fun hlt => ?_⟩
  have h4 := Proofs.roundAway_mono hlt
  have h5 := Proofs.roundAway_succ x
  omega

theorem year_le {n : Nat} (h1 : 2232400 ≤ n) (h2 : n ≤ 5373484) : (ymdOfDayNumber n).year ≤ 9999 := by
  have h := ymd_inRange h1 h2
  unfold Ymd.inRange at h
  simp only [Bool.and_eq_true, decide_eq_true_eq] at h
  exact h.1.2

theorem ok_bind {α β : Type} (a : α) (f : α → Res β) : (Except.ok a >>= f) = f a := rfl

theorem toText_of_datetime {showNumber : Num → List Byte} {e : Endian} {c : Column} {row : List Byte} {d : DateTime}
    (hc : c.fmt = .datetime e) (h : c.getDatetime row = .ok d) : c.toText showNumber row = d.toText := by
  unfold Column.toText
  simp only [hc, h]
  exact ok_bind _ _

theorem toText_of_date {showNumber : Num → List Byte} {e : Endian} {c : Column} {row : List Byte} {d : Date}
    (hc : c.fmt = .date e) (h : c.getDate row = .ok d) : c.toText showNumber row = d.toText := by
  unfold Column.toText
  simp only [hc, h]
  exact ok_bind _ _

theorem toText_of_time {showNumber : Num → List Byte} {e : Endian} {c : Column} {row : List Byte} {d : Duration}
    (hc : c.fmt = .time e) (h : c.getTime row = .ok d) : c.toText showNumber row = d.toText := by
  unfold Column.toText
  simp only [hc, h]
  exact ok_bind _ _

/-- The date that follows is later, as the calendar counts. -/
theorem ymdKey_mono {n m : Nat} (hn : 2232400 ≤ n) (hm : m ≤ 5373484) (h : n < m) :
    Proofs.ymdKey (ymdOfDayNumber n) < Proofs.ymdKey (ymdOfDayNumber m) := by
  induction m, h using Nat.le_induction with
  | base =>
    have e := daysAfter_ymd hn 1 (by omega)
    rw [← e]
    exact Proofs.tomorrow_key (ymd_real hn (by omega))
  | succ m hm' ih =>
    have e := daysAfter_ymd (n := m) (by omega) 1 (by omega)
    have := ih (by omega)
    rw [← e]
    exact this.trans (Proofs.tomorrow_key (ymd_real (by omega) (by omega)))

/-- **C80**, texts. Of two different dates of the calendar from 1400 to 9999, of two different instants of it, and of two
different times of a day, the earlier one has the smaller text: sorting the texts sorts the times. -/
theorem C80_texts :
    (∀ a b : Int, -204535 ≤ a → b ≤ 2936549 → a < b →
      ∃ u v, (day1960 a).toText = .ok u ∧ (day1960 b).toText = .ok v ∧ u < v) ∧
    (∀ a b : Int, -204535 * 86400000000 ≤ a → b < 2936550 * 86400000000 → a < b →
      ∃ u v, (at1960 a).toText = .ok u ∧ (at1960 b).toText = .ok v ∧ u < v) ∧
    (∀ a b : Nat, b < 86400000000 → a < b →
      ∃ u v, (Duration.us a).toText = .ok u ∧ (Duration.us b).toText = .ok v ∧ u < v) := by
  have key : ∀ a b : Int, -204535 ≤ a → b ≤ 2936549 → a < b →
      ∃ x y, (day1960 a).ymd = .ok x ∧ (day1960 b).ymd = .ok y ∧ isoDate x < isoDate y := by
    intro a b ha hb hab
    obtain ⟨n, hn, n1, n2, hx⟩ := day1960_ymd ha (by omega : a ≤ 2936549)
    obtain ⟨m, hm, m1, m2, hy⟩ := day1960_ymd (by omega : -204535 ≤ b) hb
    exact ⟨_, _, hx, hy, Proofs.isoDate_mono (ymd_real n1 n2) (ymd_real m1 m2) (year_le m1 m2)
      (ymdKey_mono n1 m2 (by omega))⟩
  obtain ⟨p1, p2, p3⟩ := C52_text_partial
  refine ⟨fun a b ha hb hab => ?_, fun a b ha hb hab => ?_, fun a b hb hab => ?_⟩
  · obtain ⟨x, y, hx, hy, h⟩ := key a b ha hb hab
    obtain ⟨x', hx', tx⟩ := p1 a ha (by omega)
    obtain ⟨y', hy', ty⟩ := p1 b (by omega) hb
    obtain rfl : x = x' := Except.ok.inj (hx.symm.trans hx')
    obtain rfl : y = y' := Except.ok.inj (hy.symm.trans hy')
    exact ⟨_, _, tx, ty, h⟩
  · obtain ⟨x, hx, tx⟩ := p2 a ha (by omega)
    obtain ⟨y, hy, ty⟩ := p2 b (by omega) hb
    refine ⟨_, _, tx, ty, ?_⟩
    rcases lt_or_eq_of_le (Int.ediv_le_ediv (by norm_num : (0 : Int) < 86400000000) hab.le) with hd | hd
    · obtain ⟨x', y', hx', hy', h⟩ := key _ _ (by omega) (by omega) hd
      obtain rfl : x = x' := Except.ok.inj (hx.symm.trans hx')
      obtain rfl : y = y' := Except.ok.inj (hy.symm.trans hy')
      rw [List.append_assoc, List.append_assoc]
      exact Proofs.lex_right _ _ (Proofs.isoDate_length x y) h
    · rw [hd] at hx
      obtain rfl : x = y := Except.ok.inj (hx.symm.trans hy)
      exact Proofs.lex_left _ (Proofs.isoTime_mono (by omega) (by omega))
  · exact ⟨_, _, p3 a (by omega), p3 b hb, Proofs.isoTime_mono hab hb⟩

/-- **C80**, columns. In a date or datetime column, the texts of two cells with numbers of the calendar from 1400 to 9999
are in the order of the numbers, or equal. -/
theorem C80_columns (showNumber : Num → List Byte) (e : Endian) (c : Column) (hc : c.fmt = .datetime e ∨ c.fmt = .date e)
    (before₁ after₁ before₂ after₂ : List Byte) (ho₁ : c.offset = before₁.length) (ho₂ : c.offset = before₂.length)
    (bits₁ bits₂ : Nat) (s t : ℚ) (hs : IeeeValue bits₁ s) (ht : IeeeValue bits₂ t) (h : s ≤ t)
    (hr : if c.fmt = .date e then -204535 ≤ s ∧ t ≤ 2936549 else -17671824000 ≤ s ∧ t ≤ 253717919999) :
    ∃ u v, c.toText showNumber (before₁ ++ encode e 8 bits₁ ++ after₁) = .ok u ∧
      c.toText showNumber (before₂ ++ encode e 8 bits₂ ++ after₂) = .ok v ∧ (u = v ∨ u < v) := by
  obtain ⟨t1, t2, -⟩ := C80_texts
  obtain ⟨p1, p2, -⟩ := C52_text_partial
  rcases hc with hc | hc
  · rw [if_neg (by rw [hc]; simp)] at hr
    have hs' : |s| ≤ 2 ^ 42 := by rw [abs_le]; constructor <;> norm_num <;> linarith [hr.1, hr.2]
    have ht' : |t| ≤ 2 ^ 42 := by rw [abs_le]; constructor <;> norm_num <;> linarith [hr.1, hr.2]
    obtain ⟨a, b, g1, g2, g3, -⟩ := C80_instants e c hc before₁ after₁ before₂ after₂ ho₁ ho₂ bits₁ bits₂ s t hs ht hs' ht' h
    obtain ⟨a', k1, k2, -⟩ := C35_datetime_partial e before₁ after₁ c bits₁ s hc ho₁ hs hs'
    obtain ⟨b', k3, k4, -⟩ := C35_datetime_partial e before₂ after₂ c bits₂ t hc ho₂ ht ht'
    obtain rfl : a = a' := Proofs.at1960_inj (g1.symm.trans k1)
    obtain rfl : b = b' := Proofs.at1960_inj (g2.symm.trans k3)
    rw [abs_le] at k2 k4
    norm_num at k2 k4
    have ha : -204535 * 86400000000 ≤ a := by
      have : ((-204535 * 86400000000 - 1 : Int) : ℚ) < a := by push_cast; linarith [hr.1]
      have : -204535 * 86400000000 - 1 < a := by exact_mod_cast this
      omega
    have hb : b < 2936550 * 86400000000 := by
      have : (b : ℚ) < ((2936550 * 86400000000 : Int) : ℚ) := by push_cast; linarith [hr.2]
      exact_mod_cast this
    rw [toText_of_datetime hc g1, toText_of_datetime hc g2]
    rcases lt_or_eq_of_le g3 with hlt | rfl
    · obtain ⟨u, v, q1, q2, q3⟩ := t2 a b ha hb hlt
      exact ⟨u, v, q1, q2, .inr q3⟩
    · obtain ⟨x, -, q⟩ := p2 a ha hb
      exact ⟨_, _, q, q, .inl rfl⟩
  · rw [if_pos hc] at hr
    have h1 := calendar_low hr.1
    have h2 := calendar_high hr.2
    have h3 := Proofs.roundAway_mono h
    rw [toText_of_date hc (getDate_round hc ho₁ hs h1 (by omega)), toText_of_date hc (getDate_round hc ho₂ ht (by omega) h2)]
    rcases lt_or_eq_of_le h3 with hlt | heq
    · obtain ⟨u, v, q1, q2, q3⟩ := t1 _ _ h1 h2 hlt
      exact ⟨u, v, q1, q2, .inr q3⟩
    · obtain ⟨x, -, q⟩ := p1 _ h1 (by omega)
      rw [← heq]
      exact ⟨_, _, q, q, .inl rfl⟩

/-- **C80**, times, partial. The larger of two numbers of seconds of one day, up to 23:59:59.999999, is never read as an
earlier time of the day, and its text is not the smaller one. Missing: times of 24 hours and more, and negative ones. -/
theorem C80_times_partial (showNumber : Num → List Byte) (e : Endian) (c : Column) (hc : c.fmt = .time e)
    (before₁ after₁ before₂ after₂ : List Byte) (ho₁ : c.offset = before₁.length) (ho₂ : c.offset = before₂.length)
    (bits₁ bits₂ : Nat) (s t : ℚ) (hs : IeeeValue bits₁ s) (ht : IeeeValue bits₂ t) (h : s ≤ t) (h0 : 0 ≤ s)
    (h1 : t ≤ 86399 + 999999 / 1000000) :
    ∃ (a b : Nat) (u v : List Byte), c.getTime (before₁ ++ encode e 8 bits₁ ++ after₁) = .ok (.us a) ∧
      c.getTime (before₂ ++ encode e 8 bits₂ ++ after₂) = .ok (.us b) ∧ a ≤ b ∧
      c.toText showNumber (before₁ ++ encode e 8 bits₁ ++ after₁) = .ok u ∧
      c.toText showNumber (before₂ ++ encode e 8 bits₂ ++ after₂) = .ok v ∧ (u = v ∨ u < v) := by
  have hs' : |s| ≤ 2 ^ 37 := by rw [abs_le]; constructor <;> norm_num <;> linarith
  have ht' : |t| ≤ 2 ^ 37 := by rw [abs_le]; constructor <;> norm_num <;> linarith
  obtain ⟨a, b, g1, g2, g3⟩ := Proofs.datetimeFromEpoch_mono (ofBits_value hs).2 (ofBits_value ht).2
    (hs'.trans (by norm_num)) (ht'.trans (by norm_num)) h
  obtain ⟨a', k1, k2⟩ := datetimeFromEpoch_near (ofBits_value hs).2 (hs'.trans (by norm_num))
  obtain ⟨b', k3, k4⟩ := datetimeFromEpoch_near (ofBits_value ht).2 (ht'.trans (by norm_num))
  obtain rfl : a = a' := Proofs.at1960_inj (g1.symm.trans k1)
  obtain rfl : b = b' := Proofs.at1960_inj (g2.symm.trans k3)
  rw [abs_le] at k2 k4
  norm_num at k2 k4
  have ha : 0 ≤ a := by
    have : ((-1 : Int) : ℚ) < a := by push_cast; linarith
    have : -1 < a := by exact_mod_cast this
    omega
  have hb : b < 86400000000 := by
    have : (b : ℚ) < ((86400000000 : Int) : ℚ) := by push_cast; linarith
    exact_mod_cast this
  have key : ∀ (before after : List Byte) (bits : Nat) (z : ℚ) (us : Int), c.offset = before.length → IeeeValue bits z →
      datetimeFromEpoch (.fin z) = .ok (at1960 us) → 0 ≤ us → us < 86400000000 →
      c.getTime (before ++ encode e 8 bits ++ after) = .ok (.us us) := by
    intro before after bits z us ho hz hd u0 u1
    unfold Column.getTime
    simp only [hc, getDouble_cell e before after c bits ho (ieeeValue_lt hz), (ofBits_value hz).1]
    show timeFromEpoch (.fin z) = _
    unfold timeFromEpoch
    rw [hd]
    show Except.ok (at1960 us).timeOfDay = _
    rw [timeOfDay_at (by omega), Int.emod_eq_of_lt u0 u1]
  obtain ⟨a, rfl⟩ := Int.eq_ofNat_of_zero_le ha
  obtain ⟨b, rfl⟩ := Int.eq_ofNat_of_zero_le (ha.trans g3)
  have e1 := key before₁ after₁ bits₁ s _ ho₁ hs g1 ha (by omega)
  have e2 := key before₂ after₂ bits₂ t _ ho₂ ht g2 (by omega) hb
  have hb' : b < 86400000000 := by omega
  have hab : a ≤ b := by omega
  obtain ⟨-, -, t3⟩ := C80_texts
  obtain ⟨-, -, p3⟩ := C52_text_partial
  refine ⟨a, b, isoTime a, isoTime b, e1, e2, hab, ?_, ?_, ?_⟩
  · rw [toText_of_time hc e1]
    exact p3 a (by omega)
  · rw [toText_of_time hc e2]
    exact p3 b hb'
  · rcases Nat.lt_or_eq_of_le hab with hlt | rfl
    · exact .inr (Proofs.isoTime_mono hlt hb')
    · exact .inl rfl

/-- What is missing from `C80_times_partial`: the clock starts again at 24 hours, so that 86400 seconds are read as an
earlier time than one second. -/
theorem C80_refuted : ∃ (c : Column) (bits₁ bits₂ : Nat) (s t : ℚ) (a b : Int), c.fmt = .time .little ∧ c.offset = 0 ∧
    IeeeValue bits₁ s ∧ IeeeValue bits₂ t ∧ s < t ∧
    c.getTime (encode .little 8 bits₁) = .ok (.us a) ∧ c.getTime (encode .little 8 bits₂) = .ok (.us b) ∧ b < a := by
  refine ⟨⟨[], [], [], .time .little, 0, 8⟩, 0x3ff0000000000000, 0x40f5180000000000, 1, 86400, 1000000, 0, rfl, rfl,
    ?_, ?_, by norm_num, by decide +kernel, by decide +kernel, by norm_num⟩
  · exact ⟨0, 1023, 0, by norm_num, by norm_num, by decide +kernel, .inr ⟨by norm_num, by norm_num, by norm_num⟩⟩
  · exact ⟨0, 1039, 1433763162619904, by norm_num, by norm_num, by decide +kernel, .inr ⟨by norm_num, by norm_num, by norm_num⟩⟩

/-! A case for the theorems: 1960-01-01 00:00:01 and 2016-12-26 20:14:36.493827. -/

theorem one_value : IeeeValue 0x3ff0000000000000 1 :=
  ⟨0, 1023, 0, by norm_num, by norm_num, by decide +kernel, .inr ⟨by norm_num, by norm_num, by norm_num⟩⟩

example : ∃ u v, (⟨[], [], [], .datetime .big, 1, 8⟩ : Column).toText (fun _ => []) ([7] ++ encode .big 8 0x3ff0000000000000 ++ [9])
      = .ok u ∧ (⟨[], [], [], .datetime .big, 1, 8⟩ : Column).toText (fun _ => []) ([8] ++ encode .big 8 stampBits ++ [])
      = .ok v ∧ (u = v ∨ u < v) :=
  C80_columns _ .big _ (.inl rfl) [7] [9] [8] [] rfl rfl _ _ 1 _ one_value stamp_value (by norm_num)
    (by rw [if_neg (by simp)]; norm_num)

example : ∃ a b : Int, (⟨[], [], [], .datetime .big, 1, 8⟩ : Column).getDatetime ([7] ++ encode .big 8 0x3ff0000000000000 ++ [9])
      = .ok (at1960 a) ∧ (⟨[], [], [], .datetime .big, 1, 8⟩ : Column).getDatetime ([8] ++ encode .big 8 stampBits ++ [])
      = .ok (at1960 b) ∧ a < b := by
  obtain ⟨a, b, h1, h2, -, h3⟩ := C80_instants .big ⟨[], [], [], .datetime .big, 1, 8⟩ rfl [7] [9] [8] [] rfl rfl _ _ 1 _
    one_value stamp_value (by norm_num) (by rw [abs_le]; norm_num) (by norm_num)
  exact ⟨a, b, h1, h2, h3 (by norm_num)⟩

/-- A date column with the days 0 and 1. -/
example : ∃ a b : Int, (⟨[], [], [], .date .little, 0, 8⟩ : Column).getDate ([] ++ encode .little 8 0 ++ []) = .ok (day1960 a) ∧
    (⟨[], [], [], .date .little, 0, 8⟩ : Column).getDate ([] ++ encode .little 8 0x3ff0000000000000 ++ []) = .ok (day1960 b) ∧
    a < b := by
  obtain ⟨a, b, h1, h2, -, h3⟩ := C80_dates .little ⟨[], [], [], .date .little, 0, 8⟩ rfl [] [] [] [] rfl rfl 0 0x3ff0000000000000
    0 1 ⟨0, 0, 0, by norm_num, by norm_num, by decide +kernel, .inl ⟨by norm_num, by norm_num⟩⟩ one_value
    (by norm_num) (by norm_num) (by norm_num)
  exact ⟨a, b, h1, h2, h3 (by norm_num)⟩

/-- A time column with 0 and 1 seconds. -/
example : ∃ (a b : Nat) (u v : List Byte),
    (⟨[], [], [], .time .little, 0, 8⟩ : Column).getTime ([] ++ encode .little 8 0 ++ []) = .ok (.us a) ∧
    (⟨[], [], [], .time .little, 0, 8⟩ : Column).getTime ([] ++ encode .little 8 0x3ff0000000000000 ++ []) = .ok (.us b) ∧
    a ≤ b ∧
    (⟨[], [], [], .time .little, 0, 8⟩ : Column).toText (fun _ => []) ([] ++ encode .little 8 0 ++ []) = .ok u ∧
    (⟨[], [], [], .time .little, 0, 8⟩ : Column).toText (fun _ => []) ([] ++ encode .little 8 0x3ff0000000000000 ++ []) = .ok v ∧
    (u = v ∨ u < v) :=
  C80_times_partial _ .little _ rfl [] [] [] [] rfl rfl 0 0x3ff0000000000000
    0 1 ⟨0, 0, 0, by norm_num, by norm_num, by decide +kernel, .inl ⟨by norm_num, by norm_num⟩⟩ one_value
    (by norm_num) (by norm_num) (by norm_num)

end Sas.Props
