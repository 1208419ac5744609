import Verif.Proofs.DateTime

/-! # Lemmas about the text of dates and times -/

namespace Sas
open Spec

theorem decimal_lt {n : Nat} (h : n < 10) : decimal n = [UInt8.ofNat (48 + n % 10)] := by
  unfold decimal
  rw [Nat.toDigits_of_lt_base h]
  have : n = 0 ∨ n = 1 ∨ n = 2 ∨ n = 3 ∨ n = 4 ∨ n = 5 ∨ n = 6 ∨ n = 7 ∨ n = 8 ∨ n = 9 := by omega
  rcases this with rfl | rfl | rfl | rfl | rfl | rfl | rfl | rfl | rfl | rfl <;> rfl

theorem decimal_ge {n : Nat} (h : 10 ≤ n) : decimal n = decimal (n / 10) ++ [UInt8.ofNat (48 + n % 10)] := by
  have h1 := Nat.toDigits_append_toDigits (b := 10) (n := n / 10) (d := n % 10) (by omega) (by omega) (by omega)
  have h2 : 10 * (n / 10) + n % 10 = n := by omega
  rw [h2] at h1
  have h3 := decimal_lt (n := n % 10) (by omega)
  rw [Nat.mod_mod] at h3
  unfold decimal at *
  rw [← h1, List.map_append, h3]

theorem decimals_zero : ∀ w, decimals w 0 = List.replicate w 48
  | 0 => rfl
  | w + 1 => by
    rw [decimals, decimals_zero w, List.replicate_succ']
    rfl

theorem decimal_len : ∀ (w n : Nat), 0 < w → n < 10 ^ w → (decimal n).length ≤ w
  | 0, _, h, _ => absurd h (by omega)
  | w + 1, n, _, hn => by
    by_cases h : n < 10
    · rw [decimal_lt h]; simp
    · rw [decimal_ge (by omega), List.length_append]
      have hw : 0 < w := by
        rcases Nat.eq_zero_or_pos w with rfl | h'
        · simp at hn; omega
        · exact h'
      have := decimal_len w (n / 10) hw (by
        rw [Nat.div_lt_iff_lt_mul (by omega)]
        rw [Nat.pow_succ] at hn
        exact hn)
      simp; omega

/-- Zero-padded decimal numbers have the expected digits. -/
theorem padded_eq : ∀ (w n : Nat), 0 < w → n < 10 ^ w → padded w n = decimals w n
  | 0, _, h, _ => absurd h (by omega)
  | w + 1, n, _, hn => by
    unfold padded
    by_cases h : n < 10
    · rw [decimal_lt h, decimals, show n / 10 = 0 by omega, decimals_zero]
      simp
    · have hw : 0 < w := by
        rcases Nat.eq_zero_or_pos w with rfl | h'
        · simp at hn; omega
        · exact h'
      have hlt : n / 10 < 10 ^ w := by
        rw [Nat.div_lt_iff_lt_mul (by omega)]
        rw [Nat.pow_succ] at hn
        exact hn
      have ih := padded_eq w (n / 10) hw hlt
      have hlen := decimal_len w (n / 10) hw hlt
      rw [decimal_ge (by omega), decimals, ← ih, ← List.append_assoc]
      unfold padded
      congr 3
      rw [List.length_append]
      simp

theorem decimals_length : ∀ (w n : Nat), (decimals w n).length = w
  | 0, _ => rfl
  | w + 1, n => by rw [decimals, List.length_append, decimals_length w]; simp

theorem paddedInt_nat (w n : Nat) : paddedInt w (n : Int) = padded w n := by
  unfold paddedInt
  rw [if_neg (by omega)]
  simp

theorem monthDays_le (y m : Nat) : monthDays y m ≤ 31 := by
  unfold monthDays; split <;> (try split) <;> omega

theorem ymd_text {x : Ymd} (hr : RealDate x) (hy : x.year ≤ 9999) : x.text = isoDate x := by
  obtain ⟨h1, h2, h3, h4⟩ := hr
  have := monthDays_le x.year x.month
  unfold Ymd.text isoDate
  rw [padded_eq 4 x.year (by omega) (by omega), padded_eq 2 x.month (by omega) (by omega),
    padded_eq 2 x.day (by omega) (by omega)]

theorem isoDate_length (x : Ymd) : (isoDate x).length = 10 := by
  unfold isoDate
  simp [decimals_length]

theorem isoTime_length (n : Nat) : (isoTime n).length ≤ 15 := by
  unfold isoTime
  split <;> simp [decimals_length]

theorem duration_text {n : Nat} (h : n < 86400000000) : (Duration.us n).text = isoTime n := by
  unfold Duration.text Duration.ticks
  simp only
  have e1 : ((n : Int).tdiv 3600000000 % 2 ^ 32).toNat = n / 3600000000 := by
    rw [Int.tdiv_eq_ediv_of_nonneg (by omega)]; omega
  have e2 : (n : Int).tdiv 60000000 = ((n / 60000000 : Nat) : Int) := by
    rw [Int.tdiv_eq_ediv_of_nonneg (by omega)]; omega
  have e3 : (n : Int).tdiv 1000000 = ((n / 1000000 : Nat) : Int) := by
    rw [Int.tdiv_eq_ediv_of_nonneg (by omega)]; omega
  have e4 : (n : Int).tmod 1000000 = ((n % 1000000 : Nat) : Int) := by
    rw [Int.tmod_eq_emod_of_nonneg (by omega)]; omega
  have e5 : ∀ k : Nat, ((k : Int)).tmod 60 = ((k % 60 : Nat) : Int) := by
    intro k
    rw [Int.tmod_eq_emod_of_nonneg (by omega)]; omega
  have e6 : toSigned 32 (n / 3600000000) = ((n / 3600000000 : Nat) : Int) := by
    unfold toSigned
    have : n / 3600000000 < 24 := by omega
    generalize n / 3600000000 = k at *
    rw [if_pos (by simp; omega)]
  rw [e1, e2, e3, e4, e5, e5, e6]
  simp only [paddedInt_nat]
  rw [padded_eq 2 _ (by omega) (by omega), padded_eq 2 _ (by omega) (by omega),
    padded_eq 2 _ (by omega) (by omega), padded_eq 6 _ (by omega) (by omega)]
  unfold isoTime
  by_cases hz : n % 1000000 = 0
  · rw [hz]; simp
  · rw [if_neg hz, if_pos (by omega)]
    simp [List.append_assoc]

theorem day1960_ymd {d : Int} (h1 : -204535 ≤ d) (h2 : d ≤ 2936549) :
    ∃ n : Nat, (n : Int) = 2436935 + d ∧ 2232400 ≤ n ∧ n ≤ 5373484 ∧ (day1960 d).ymd = .ok (ymdOfDayNumber n) := by
  refine ⟨(2436935 + d).toNat, by omega, by omega, by omega, ?_⟩
  unfold day1960 Date.ymd
  simp only
  rw [ymd_inRange (by omega) (by omega)]
  rfl

theorem date_text {d : Int} (h1 : -204535 ≤ d) (h2 : d ≤ 2936549) :
    ∃ x, (day1960 d).ymd = .ok x ∧ x.text = isoDate x := by
  obtain ⟨n, hn, hn1, hn2, h⟩ := day1960_ymd h1 h2
  have hy := ymd_inRange hn1 hn2
  unfold Ymd.inRange at hy
  simp only [Bool.and_eq_true, decide_eq_true_eq] at hy
  exact ⟨_, h, ymd_text (ymd_real hn1 hn2) hy.1.2⟩

theorem toText_date {d : Date} {x : Ymd} (h : d.ymd = .ok x) (ht : x.text = isoDate x) :
    d.toText = .ok (isoDate x) := by
  unfold Date.toText
  rw [h]
  show fromBuffer 16 x.text = _
  rw [ht, fromBuffer, if_pos (by rw [isoDate_length]; omega)]

theorem bind_two {α β γ : Type} {r : Res α} {a : α} {f : α → Res β} {b : β} {g : β → Res γ}
    (h : r = .ok a) (h2 : f a = .ok b) : (do let x ← f (← r); g x) = g b := by
  rw [h]
  show (f a >>= g) = _
  rw [h2]
  rfl

theorem toText_datetime {t : DateTime} {d : Date} {x : Ymd} {n : Nat} (hd : t.date = .ok d)
    (h : d.ymd = .ok x) (ht : x.text = isoDate x) (hn : t.timeOfDay = .us n) (hn2 : n < 86400000000) :
    t.toText = .ok (isoDate x ++ [32] ++ isoTime n) := by
  have e : t.timeOfDay.text = isoTime n := by rw [hn]; exact duration_text hn2
  have e2 : t.toText = fromBuffer 32 (x.text ++ [32] ++ t.timeOfDay.text) :=
    bind_two (g := fun y : Ymd => fromBuffer 32 (y.text ++ [32] ++ t.timeOfDay.text)) hd h
  have hl := isoTime_length n
  have hl2 := isoDate_length x
  rw [e2, e, ht]
  generalize isoTime n = z at hl
  generalize isoDate x = y at hl2
  unfold fromBuffer
  rw [if_pos]
  rw [List.length_append, List.length_append, List.length_singleton]
  omega

theorem toText_time {n : Nat} (hn : n < 86400000000) : (Duration.us n).toText = .ok (isoTime n) := by
  unfold Duration.toText
  rw [duration_text hn, fromBuffer, if_pos]
  have := isoTime_length n
  omega

theorem at1960_text {us : Int} (h1 : -204535 * 86400000000 ≤ us) (h2 : us < 2936550 * 86400000000) :
    ∃ x, (day1960 (us / 86400000000)).ymd = .ok x ∧
      (at1960 us).toText = .ok (isoDate x ++ [32] ++ isoTime (us % 86400000000).toNat) := by
  obtain ⟨x, hx1, hx2⟩ := date_text (d := us / 86400000000) (by omega) (by omega)
  refine ⟨x, hx1, ?_⟩
  have ht := timeOfDay_at (us := us) (by omega)
  rw [← Int.toNat_of_nonneg (Int.emod_nonneg us (by omega : (86400000000 : Int) ≠ 0))] at ht
  exact toText_datetime (date_at h1 h2) hx1 hx2 ht (by omega)

/-- A time stamp in the calendar is converted to an instant that has a text. -/
theorem inCalendar_text {x : ℚ} (hd : IsDouble x) (h1 : -17671824000 ≤ x) (h2 : x ≤ 253717919999) :
    ∃ t s, datetimeFromEpoch (.fin x) = .ok t ∧ t.toText = .ok s := by
  obtain ⟨us, h3, h4⟩ := datetimeFromEpoch_near hd (by rw [abs_le]; constructor <;> norm_num <;> linarith)
  rw [abs_le] at h4
  have b1 : (-17671824000000001 : Int) < us := by
    have : ((-17671824000000001 : Int) : ℚ) < us := by push_cast; norm_num at h4 ⊢; linarith
    exact_mod_cast this
  have b2 : us < (253717919999000001 : Int) := by
    have : (us : ℚ) < ((253717919999000001 : Int) : ℚ) := by push_cast; norm_num at h4 ⊢; linarith
    exact_mod_cast this
  obtain ⟨y, -, hy⟩ := at1960_text (us := us) (by omega) (by omega)
  exact ⟨_, _, h3, hy⟩

end Sas
