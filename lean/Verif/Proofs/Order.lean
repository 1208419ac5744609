import Verif.Proofs.DateText
import Verif.Proofs.Calendar

/-! The order of instants and dates. -/

namespace Sas.Proofs

open Sas Spec

theorem fl_mono {x y : ℚ} (h : x ≤ y) : fl x ≤ fl y := by
  rcases lt_or_eq_of_le h with h | rfl
  · by_contra hc
    have hc := not_le.1 hc
    have h1 := (fl_nearest x).2 _ (fl_isDouble (x := y))
    have h2 := (fl_nearest y).2 _ (fl_isDouble (x := x))
    generalize fl x = a at hc h1 h2
    generalize fl y = b at hc h1 h2
    have k1 : (a + b) / 2 ≤ x := by
      by_contra hx
      have hx := not_le.1 hx
      have e1 : |a - x| = a - x := abs_of_pos (by linarith)
      rw [e1] at h1
      rcases abs_cases (b - x) with ⟨e2, _⟩ | ⟨e2, _⟩ <;> rw [e2] at h1 <;> linarith
    have k2 : y ≤ (a + b) / 2 := by
      by_contra hy
      have hy := not_le.1 hy
      have e1 : |b - y| = y - b := by rw [abs_sub_comm]; exact abs_of_pos (by linarith)
      rw [e1] at h2
      rcases abs_cases (a - y) with ⟨e2, _⟩ | ⟨e2, _⟩ <;> rw [e2] at h2 <;> linarith
    linarith
  · exact le_refl _

theorem roundAway_mono {x y : ℚ} (h : x ≤ y) : roundAway x ≤ roundAway y := by
  rcases lt_or_eq_of_le h with h | rfl
  · by_contra hc
    have hc : roundAway y + 1 ≤ roundAway x := by omega
    have hq : (roundAway y : ℚ) + 1 ≤ roundAway x := by exact_mod_cast hc
    have h1 := roundAway_err x
    have h2 := roundAway_err y
    rw [abs_le] at h1 h2
    linarith
  · exact le_refl _

/-- The parts of an instant: whole seconds, and microseconds of which there are at most half a million. -/
theorem datetimeFromEpoch_split {s : ℚ} (hd : IsDouble s) (hr : |s| ≤ 2 ^ 42) :
    ∃ (D : Int) (r : ℚ), s = D + r ∧ |r| ≤ 1 / 2 ∧
      datetimeFromEpoch (.fin s) = .ok (at1960 (D * 1000000 + roundAway (fl (r * 1000000)))) ∧
      |roundAway (fl (r * 1000000))| ≤ 500000 := by
  obtain ⟨days, secs, micros, r, m, p1, p2, p3, p4, p5, p6, p7, p8, p9, p10, p11⟩ :=
    datetimeFromEpoch_parts hd (by simpa using hr)
  have hr1 : |fl (r * 1000000)| ≤ 500000 := by
    rw [abs_le] at p6 ⊢
    have hu := fl_mono (x := r * 1000000) (y := (500000 : Int)) (by push_cast; linarith)
    have hl := fl_mono (x := (-500000 : Int)) (y := r * 1000000) (by push_cast; linarith)
    rw [fl_int (by norm_num)] at hu hl
    push_cast at hu hl
    exact ⟨hl, hu⟩
  have hmi : |roundAway (fl (r * 1000000))| ≤ 500000 := by
    rw [abs_le] at hr1 ⊢
    have hu := roundAway_mono (x := fl (r * 1000000)) (y := (500000 : Int)) (by push_cast; exact hr1.2)
    have hl := roundAway_mono (x := (-500000 : Int)) (y := fl (r * 1000000)) (by push_cast; exact hr1.1)
    rw [roundAway_int] at hu hl
    exact ⟨hl, hu⟩
  refine ⟨days * 86400 + secs, r, ?_, p6, ?_, hmi⟩
  · rw [p5]; push_cast; ring
  have hsec := roundAway_err (s - 86400 * days)
  rw [p3] at hsec
  have hdi : |days| ≤ 2 ^ 26 := by
    rw [← Int.cast_abs] at p10
    exact_mod_cast p10
  have hsi : |secs| ≤ 43202 := by
    have : |(secs : ℚ)| ≤ 43202 := by
      rw [abs_le] at *
      constructor <;> linarith
    rw [← Int.cast_abs] at this
    exact_mod_cast this
  rw [p7, p9] at hmi ⊢
  rw [abs_le] at hdi hsi hmi
  unfold datetimeFromEpoch
  simp only [p1, p2, p3, p4, p7, p9]
  have t0 : days32 days = .ok days := by
    unfold days32; rw [if_pos]; constructor <;> omega
  have t1 : ticks64 ((startDay + days) * usPerDay) = .ok ((startDay + days) * usPerDay) := by
    unfold ticks64 startDay usPerDay; rw [if_pos]; constructor <;> omega
  have t2 : ticks64 ((startDay + days) * usPerDay + secs * 1000000)
      = .ok ((startDay + days) * usPerDay + secs * 1000000) := by
    unfold ticks64 startDay usPerDay; rw [if_pos]; constructor <;> omega
  have t3 : ticks64 ((startDay + days) * usPerDay + secs * 1000000 + micros)
      = .ok ((startDay + days) * usPerDay + secs * 1000000 + micros) := by
    unfold ticks64 startDay usPerDay; rw [if_pos]; constructor <;> omega
  rw [t0]
  simp only [bind, Except.bind, t1, t2, t3]
  show Except.ok (DateTime.at _) = _
  unfold at1960 startDay usPerDay
  congr 2
  ring

theorem datetimeFromEpoch_mono {s t : ℚ} (hs : IsDouble s) (ht : IsDouble t) (hs' : |s| ≤ 2 ^ 42) (ht' : |t| ≤ 2 ^ 42) (h : s ≤ t) :
    ∃ a b : Int, datetimeFromEpoch (.fin s) = .ok (at1960 a) ∧ datetimeFromEpoch (.fin t) = .ok (at1960 b) ∧ a ≤ b := by
  obtain ⟨D, r, e1, b1, h1, m1⟩ := datetimeFromEpoch_split hs hs'
  obtain ⟨E, q, e2, b2, h2, m2⟩ := datetimeFromEpoch_split ht ht'
  refine ⟨_, _, h1, h2, ?_⟩
  rcases lt_or_eq_of_le h with h | rfl
  · rcases lt_trichotomy D E with hDE | rfl | hDE
    · rw [abs_le] at m1 m2
      omega
    · have : r ≤ q := by linarith
      have := roundAway_mono (fl_mono (mul_le_mul_of_nonneg_right this (by norm_num : (0 : ℚ) ≤ 1000000)))
      omega
    · exfalso
      have : (E : ℚ) + 1 ≤ D := by exact_mod_cast hDE
      rw [abs_le] at b1 b2
      linarith
  · rw [h1] at h2
    have : at1960 (D * 1000000 + roundAway (fl (r * 1000000))) = at1960 (E * 1000000 + roundAway (fl (q * 1000000))) := by
      injection h2
    unfold at1960 at this
    injection this with this
    omega

/-! ## Texts -/

theorem lex_left (p : List Byte) {u v : List Byte} (h : u < v) : p ++ u < p ++ v := by
  induction p with
  | nil => exact h
  | cons a p ih => exact List.Lex.cons ih

theorem lex_right : ∀ {p q : List Byte} (u v : List Byte), p.length = q.length → p < q → p ++ u < q ++ v := by
  intro p
  induction p with
  | nil =>
    intro q u v hl h
    cases q with
    | nil => cases h
    | cons b q => cases hl
  | cons a p ih =>
    intro q u v hl h
    cases q with
    | nil => cases hl
    | cons b q =>
      cases h with
      | cons h => exact List.Lex.cons (ih u v (Nat.succ.inj hl) h)
      | rel h => exact List.Lex.rel h

theorem digit_lt {a b : Nat} (h : a < b) (hb : b < 10) : UInt8.ofNat (48 + a) < UInt8.ofNat (48 + b) := by
  rw [UInt8.lt_iff_toNat_lt]
  simp only [UInt8.toNat_ofNat']
  omega

theorem decimals_mono : ∀ (w : Nat) {a b : Nat}, a < b → b < 10 ^ w → decimals w a < decimals w b := by
  intro w
  induction w with
  | zero => intro a b h hb; rw [Nat.pow_zero] at hb; omega
  | succ w ih =>
    intro a b h hb
    rw [Nat.pow_succ] at hb
    unfold decimals
    by_cases hq : a / 10 < b / 10
    · exact lex_right _ _ (by rw [decimals_length, decimals_length]) (ih hq (by omega))
    · have he : a / 10 = b / 10 := by omega
      rw [he]
      exact lex_left _ (List.Lex.rel (digit_lt (by omega) (by omega)))

/-- The order of dates. -/
def ymdKey (x : Ymd) : Nat := x.year * 10000 + x.month * 100 + x.day

theorem isoDate_mono {x y : Ymd} (hx : RealDate x) (hy : RealDate y) (hy9 : y.year ≤ 9999) (h : ymdKey x < ymdKey y) :
    isoDate x < isoDate y := by
  obtain ⟨a1, a2, a3, a4⟩ := hx
  obtain ⟨b1, b2, b3, b4⟩ := hy
  have m1 := monthDays_le x.year x.month
  have m2 := monthDays_le y.year y.month
  unfold ymdKey at h
  unfold isoDate
  by_cases hy : x.year < y.year
  · simp only [List.append_assoc]
    exact lex_right _ _ (by rw [decimals_length, decimals_length]) (decimals_mono 4 hy (by omega))
  · have ey : x.year = y.year := by omega
    rw [ey]
    by_cases hm : x.month < y.month
    · simp only [List.append_assoc]
      exact lex_left _ (lex_left _ (lex_right _ _ (by rw [decimals_length, decimals_length]) (decimals_mono 2 hm (by omega))))
    · have em : x.month = y.month := by omega
      rw [em]
      exact lex_left _ (decimals_mono 2 (by omega) (by omega))

theorem isoTime_mono {a b : Nat} (h : a < b) (hb : b < 86400000000) : isoTime a < isoTime b := by
  unfold isoTime
  by_cases h1 : a / 3600000000 < b / 3600000000
  · simp only [List.append_assoc]
    exact lex_right _ _ (by rw [decimals_length, decimals_length]) (decimals_mono 2 h1 (by omega))
  have e1 : a / 3600000000 = b / 3600000000 := by omega
  rw [e1]
  by_cases h2 : a / 60000000 % 60 < b / 60000000 % 60
  · simp only [List.append_assoc]
    exact lex_left _ (lex_left _ (lex_right _ _ (by rw [decimals_length, decimals_length]) (decimals_mono 2 h2 (by omega))))
  have e2 : a / 60000000 % 60 = b / 60000000 % 60 := by omega
  rw [e2]
  by_cases h3 : a / 1000000 % 60 < b / 1000000 % 60
  · simp only [List.append_assoc]
    exact lex_left _ (lex_left _ (lex_left _ (lex_left _ (lex_right _ _ (by rw [decimals_length, decimals_length])
      (decimals_mono 2 h3 (by omega))))))
  have e3 : a / 1000000 % 60 = b / 1000000 % 60 := by omega
  rw [e3]
  refine lex_left _ ?_
  have h4 : a % 1000000 < b % 1000000 := by omega
  rw [if_neg (by omega : ¬ b % 1000000 = 0)]
  split
  · exact List.Lex.nil
  · exact lex_left _ (decimals_mono 6 h4 (by omega))

theorem tomorrow_key {x : Ymd} (hx : RealDate x) : ymdKey x < ymdKey (tomorrow x) := by
  obtain ⟨a1, a2, a3, a4⟩ := hx
  have m1 := monthDays_le x.year x.month
  unfold tomorrow ymdKey
  split
  · dsimp only; omega
  · split
    · dsimp only; omega
    · dsimp only; omega

/-- A day more is read as a later day. -/
theorem roundAway_succ (x : ℚ) : roundAway x < roundAway (x + 1) := by
  have e1 := roundAway_err x
  have e2 := roundAway_err (x + 1)
  rw [abs_le] at e1 e2
  by_contra hn
  have hn' : roundAway (x + 1) ≤ roundAway x := by omega
  have hq : (roundAway (x + 1) : ℚ) ≤ roundAway x := by exact_mod_cast hn'
  have e3 : x = roundAway x - 1 / 2 := by linarith
  have e4 : (roundAway (x + 1) : ℚ) = roundAway x := by linarith
  have e5 : roundAway (x + 1) = roundAway x := by exact_mod_cast e4
  generalize hm : roundAway x = n at *
  by_cases h0 : 1 ≤ n
  · have h0' : (1 : ℚ) ≤ n := by exact_mod_cast h0
    unfold roundAway at e5
    rw [if_pos (by linarith), e3, show (n : ℚ) - 1 / 2 + 1 + 1 / 2 = ((n + 1 : Int) : ℚ) by push_cast; ring] at e5
    have := Rat.floor_intCast (n + 1)
    omega
  · have h0' : (n : ℚ) ≤ 0 := by
      have : n ≤ 0 := by omega
      exact_mod_cast this
    unfold roundAway at hm
    rw [if_neg (by linarith), e3, show -((n : ℚ) - 1 / 2) + 1 / 2 = ((-n + 1 : Int) : ℚ) by push_cast; ring] at hm
    have := Rat.floor_intCast (-n + 1)
    omega

theorem at1960_inj {i j : Int} (h : Except.ok (ε := Stop) (at1960 i) = .ok (at1960 j)) : i = j := by
  unfold at1960 at h
  injection h with h
  injection h with h
  omega

theorem isoDate_length (x y : Ymd) : (isoDate x).length = (isoDate y).length := by
  unfold isoDate
  simp [decimals_length]

end Sas.Proofs
