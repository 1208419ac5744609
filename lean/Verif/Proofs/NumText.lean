import Verif.Model.NumText
import Verif.Spec.NumText
import Verif.Proofs.TextSinks
import Verif.Proofs.Order

/-! # Helper lemmas for Props/NumText.lean -/

namespace Sas.Proofs
open Sas Spec

/-! ## Digits -/

theorem pow10_eq (e : Int) : pow10 e = (10 : ℚ) ^ e := by
  cases e with
  | ofNat n => simp [pow10]
  | negSucc n =>
    simp only [pow10, zpow_negSucc, Rat.mkRat_eq_div]
    push_cast
    rw [one_div]

theorem digits_fold (l : List Byte) : ∀ a : Nat, l.foldl (fun a b => 10 * a + (b.toNat - 48)) a = a * 10 ^ l.length + digitsValue l := by
  induction l with
  | nil => intro a; simp [digitsValue]
  | cons b l ih =>
    intro a
    unfold digitsValue
    simp only [List.foldl_cons, List.length_cons]
    rw [ih, ih (10 * 0 + _)]
    rw [Nat.pow_succ]
    ring

theorem digits_append (a b : List Byte) : digitsValue (a ++ b) = digitsValue a * 10 ^ b.length + digitsValue b := by
  show (a ++ b).foldl _ 0 = _
  rw [List.foldl_append, digits_fold]
  rfl

theorem digits_zeros (n : Nat) : digitsValue (List.replicate n 48) = 0 := by
  induction n with
  | zero => rfl
  | succ n ih => rw [List.replicate_succ', digits_append, ih]; rfl

theorem digits_decimal (n : Nat) : digitsValue (decimal n) = n := (decimal_digits n).2.2.2

theorem decimal_isDigit (n : Nat) : ∀ b ∈ decimal n, isDigit b = true := by
  intro b hb
  have := (decimal_digits n).2.1 b hb
  simp [isDigit, this.1, this.2]

theorem zeros_isDigit (n : Nat) : ∀ b ∈ List.replicate n (48 : Byte), isDigit b = true := by
  intro b hb
  rw [(List.mem_replicate.1 hb).2]
  rfl

theorem padded_isDigit (w n : Nat) : ∀ b ∈ padded w n, isDigit b = true := by
  intro b hb
  unfold padded at hb
  rcases List.mem_append.1 hb with h | h
  · exact zeros_isDigit _ _ h
  · exact decimal_isDigit _ _ h

theorem padded_value (w n : Nat) : digitsValue (padded w n) = n := by
  unfold padded
  rw [digits_append, digits_zeros, digits_decimal]
  omega

theorem decimal_ne (n : Nat) : decimal n ≠ [] := (decimal_digits n).1

theorem padded_ne (w n : Nat) : padded w n ≠ [] := by
  unfold padded
  simp [decimal_ne]

theorem takeWhile_digits {a : List Byte} (ha : ∀ b ∈ a, isDigit b = true) (r : List Byte)
    (hr : ∀ b, r.head? = some b → isDigit b = false) : (a ++ r).takeWhile isDigit = a := by
  induction a with
  | nil =>
    cases r with
    | nil => rfl
    | cons b r => rw [List.nil_append, List.takeWhile_cons, hr b rfl]; rfl
  | cons b a ih =>
    rw [List.cons_append, List.takeWhile_cons, ha b (by simp), if_pos rfl, ih fun c hc => ha c (by simp [hc])]

theorem dropWhile_digits {a : List Byte} (ha : ∀ b ∈ a, isDigit b = true) (r : List Byte)
    (hr : ∀ b, r.head? = some b → isDigit b = false) : (a ++ r).dropWhile isDigit = r := by
  induction a with
  | nil =>
    cases r with
    | nil => rfl
    | cons b r => rw [List.nil_append, List.dropWhile_cons, hr b rfl]; rfl
  | cons b a ih =>
    rw [List.cons_append, List.dropWhile_cons, ha b (by simp), if_pos rfl, ih fun c hc => ha c (by simp [hc])]

/-- Digits only. -/
theorem read_whole {a : List Byte} (ha : ∀ b ∈ a, isDigit b = true) (hne : a ≠ []) :
    readUnsigned a = some (digitsValue a : ℚ) := by
  have h1 := takeWhile_digits ha [] (by simp)
  have h2 := dropWhile_digits ha [] (by simp)
  rw [List.append_nil] at h1 h2
  unfold readUnsigned
  simp only [h1, h2, if_neg hne, readExponent, Option.map_some, mul_one]

/-- Digits, a point, digits. -/
theorem read_point {a f : List Byte} (ha : ∀ b ∈ a, isDigit b = true) (hne : a ≠ []) (hf : ∀ b ∈ f, isDigit b = true) :
    readUnsigned (a ++ [46] ++ f) = some ((digitsValue (a ++ f) : ℚ) / 10 ^ f.length) := by
  rw [List.append_assoc]
  have h1 := takeWhile_digits ha ([46] ++ f) (by simp; rfl)
  have h2 := dropWhile_digits ha ([46] ++ f) (by simp; rfl)
  have h3 := takeWhile_digits hf [] (by simp)
  have h4 := dropWhile_digits hf [] (by simp)
  rw [List.append_nil] at h3 h4
  unfold readUnsigned
  rw [h1, h2]
  simp only [if_neg hne, List.cons_append, List.nil_append, h3, h4, readExponent, Option.map_some, mul_one]
  rw [digits_append]
  congr 1
  push_cast
  field_simp

theorem read_exponent {e : Int} : readExponent ([101] ++ [if e < 0 then (45 : Byte) else 43] ++ padded 2 e.natAbs) = some ((10 : ℚ) ^ e) := by
  have hall : (padded 2 e.natAbs).all isDigit = true := by
    rw [List.all_eq_true]
    exact padded_isDigit _ _
  simp only [List.cons_append, List.nil_append, readExponent, ne_eq, padded_ne, not_false_eq_true, hall, and_self, if_true,
    padded_value]
  split
  · rename_i h
    rw [if_neg (by decide), if_pos rfl, ← zpow_natCast, one_div, ← zpow_neg]
    congr 2
    omega
  · rename_i h
    rw [if_pos rfl, ← zpow_natCast]
    congr 2
    omega

theorem head_e (e : Int) : ∀ b, ([101] ++ [if e < 0 then (45 : Byte) else 43] ++ padded 2 e.natAbs).head? = some b → isDigit b = false := by
  intro b hb
  simp at hb
  subst hb
  rfl

theorem read_exp_whole {a : List Byte} (ha : ∀ b ∈ a, isDigit b = true) (hne : a ≠ []) (e : Int) :
    readUnsigned (a ++ ([101] ++ [if e < 0 then (45 : Byte) else 43] ++ padded 2 e.natAbs)) = some ((digitsValue a : ℚ) * (10 : ℚ) ^ e) := by
  have h1 := takeWhile_digits ha _ (head_e e)
  have h2 := dropWhile_digits ha _ (head_e e)
  have h3 := read_exponent (e := e)
  unfold readUnsigned
  rw [h1, h2]
  rw [if_neg hne]
  exact congrArg (Option.map fun p => (digitsValue a : ℚ) * p) h3

theorem read_exp_point {a f : List Byte} (ha : ∀ b ∈ a, isDigit b = true) (hne : a ≠ []) (hf : ∀ b ∈ f, isDigit b = true) (e : Int) :
    readUnsigned (a ++ [46] ++ f ++ ([101] ++ [if e < 0 then (45 : Byte) else 43] ++ padded 2 e.natAbs)) =
      some ((digitsValue (a ++ f) : ℚ) / 10 ^ f.length * (10 : ℚ) ^ e) := by
  rw [List.append_assoc, List.append_assoc]
  have h1 := takeWhile_digits ha ([46] ++ (f ++ ([101] ++ [if e < 0 then (45 : Byte) else 43] ++ padded 2 e.natAbs))) (by simp; rfl)
  have h2 := dropWhile_digits ha ([46] ++ (f ++ ([101] ++ [if e < 0 then (45 : Byte) else 43] ++ padded 2 e.natAbs))) (by simp; rfl)
  have h3 := takeWhile_digits hf _ (head_e e)
  have h4 := dropWhile_digits hf _ (head_e e)
  have h5 := read_exponent (e := e)
  unfold readUnsigned
  rw [h1, h2]
  simp only [if_neg hne, List.singleton_append]
  simp only [List.cons_append, List.nil_append] at h3 h4 h5 ⊢
  rw [h3, h4, h5]
  simp only [Option.map_some]
  rw [digits_append]
  congr 1
  push_cast
  field_simp

/-- The text of `m * 10^k` has this value. -/
theorem read_writeFloat (m : Nat) (k : Int) : readUnsigned (writeFloat m k) = some ((m : ℚ) * (10 : ℚ) ^ k) := by
  have hd := decimal_isDigit m
  have hv := digits_decimal m
  have hne := decimal_ne m
  unfold writeFloat
  generalize decimal m = s at hd hv hne
  have hpos : 0 < s.length := List.length_pos_iff.2 hne
  have ht : ∀ n, ∀ b ∈ s.take n, isDigit b = true := fun n b hb => hd b (List.mem_of_mem_take hb)
  have hdr : ∀ n, ∀ b ∈ s.drop n, isDigit b = true := fun n b hb => hd b (List.mem_of_mem_drop hb)
  dsimp only
  split
  · rw [List.append_assoc, List.append_assoc]
    split
    · rename_i h1
      rw [← List.append_assoc [101], read_exp_whole hd hne, hv, h1]
      congr 3
      push_cast
      ring
    · rename_i h1
      rw [← List.append_assoc [101], read_exp_point (ht 1) (by
        rw [ne_eq, List.take_eq_nil_iff]
        rintro (h | h)
        · cases h
        · exact hne h) (hdr 1), List.take_append_drop, hv]
      congr 1
      rw [List.length_drop, div_mul_eq_mul_div, mul_div_assoc]
      congr 1
      rw [← zpow_natCast, ← zpow_sub₀ (by norm_num)]
      congr 1
      omega
  · split
    · rename_i h0
      rw [read_whole (fun b hb => by
        rcases List.mem_append.1 hb with h | h
        · exact hd b h
        · exact zeros_isDigit _ b h) (by simp [hne]), digits_append, digits_zeros, hv, List.length_replicate]
      congr 1
      push_cast
      rw [add_zero, ← zpow_natCast, Int.toNat_of_nonneg h0]
    · split
      · rename_i hk he
        rw [read_point (ht _) (by
          rw [ne_eq, List.take_eq_nil_iff]
          rintro (h | h)
          · omega
          · exact hne h) (hdr _), List.take_append_drop, hv, List.length_drop, div_eq_mul_inv, ← zpow_natCast, ← zpow_neg]
        congr 3
        omega
      · rename_i hk he
        rw [show [48, 46] ++ List.replicate (-(k + (s.length : Int))).toNat (48 : Byte) ++ s
          = [48] ++ [46] ++ (List.replicate (-(k + (s.length : Int))).toNat 48 ++ s) by simp]
        rw [read_point (by simp; rfl) (by simp) (fun b hb => by
          rcases List.mem_append.1 hb with h | h
          · exact zeros_isDigit _ b h
          · exact hd b h), digits_append, digits_append, digits_zeros, hv, List.length_append, List.length_replicate]
        rw [show digitsValue [48] = 0 from rfl, div_eq_mul_inv, ← zpow_natCast, ← zpow_neg]
        push_cast
        rw [zero_mul, zero_mul, zero_add, zero_add]
        congr 3
        omega

/-! ## The length of a number -/

theorem decimal_bounds : ∀ n : Nat, n < 10 ^ (decimal n).length ∧ (0 < n → 10 ^ ((decimal n).length - 1) ≤ n) := by
  intro n
  induction n using Nat.strongRecOn with
  | _ n ih =>
    by_cases h : n < 10
    · rw [decimal_lt h]
      simp
      omega
    · have h' : 10 ≤ n := by omega
      obtain ⟨a, b⟩ := ih (n / 10) (by omega)
      have b := b (by omega)
      rw [decimal_ge h']
      have hpos : 0 < (decimal (n / 10)).length := List.length_pos_iff.2 (decimal_ne _)
      rw [List.length_append, List.length_singleton, Nat.pow_succ, Nat.add_sub_cancel]
      refine ⟨by omega, fun _ => ?_⟩
      obtain ⟨l, hl⟩ : ∃ l, (decimal (n / 10)).length = l + 1 := ⟨_, (Nat.succ_pred_eq_of_pos hpos).symm⟩
      rw [hl] at b ⊢
      rw [Nat.add_sub_cancel] at b
      rw [Nat.pow_succ]
      omega

theorem ilog10_spec {x : ℚ} (hx : 0 < x) : (10 : ℚ) ^ ilog10 x ≤ x ∧ x < (10 : ℚ) ^ (ilog10 x + 1) := by
  have hn : 0 < x.num.natAbs := by
    have := Rat.num_pos.2 hx; omega
  have hd : 0 < x.den := x.den_pos
  obtain ⟨n2, n1⟩ := decimal_bounds x.num.natAbs
  obtain ⟨d2, d1⟩ := decimal_bounds x.den
  have n1 := n1 hn
  have d1 := d1 hd
  have hA : 0 < (decimal x.num.natAbs).length := List.length_pos_iff.2 (decimal_ne _)
  have hB : 0 < (decimal x.den).length := List.length_pos_iff.2 (decimal_ne _)
  unfold ilog10
  generalize (decimal x.num.natAbs).length = A at *
  generalize (decimal x.den).length = B at *
  have hxe : x = (x.num.natAbs : ℚ) / (x.den : ℚ) := by
    have h := Rat.num_div_den x
    have h2 : ((x.num.natAbs : Int) : ℚ) = (x.num : ℚ) := by
      have := Rat.num_pos.2 hx
      rw [Int.natAbs_of_nonneg (le_of_lt this)]
    rw [← h2] at h
    rw [Int.cast_natCast] at h
    exact h.symm
  have n1q : (10 : ℚ) ^ (A - 1) ≤ x.num.natAbs := by exact_mod_cast n1
  have n2q : (x.num.natAbs : ℚ) < (10 : ℚ) ^ A := by exact_mod_cast n2
  have d1q : (10 : ℚ) ^ (B - 1) ≤ x.den := by exact_mod_cast d1
  have d2q : (x.den : ℚ) < (10 : ℚ) ^ B := by exact_mod_cast d2
  have hdpos : (0 : ℚ) < x.den := by exact_mod_cast hd
  have key1 : (10 : ℚ) ^ ((A : Int) - B - 1) ≤ x := by
    rw [hxe, le_div_iff₀ hdpos]
    calc (10 : ℚ) ^ ((A : Int) - B - 1) * x.den ≤ (10 : ℚ) ^ ((A : Int) - B - 1) * (10 : ℚ) ^ B :=
          mul_le_mul_of_nonneg_left (le_of_lt d2q) (by positivity)
      _ = (10 : ℚ) ^ (A - 1) := by
          rw [← zpow_natCast, ← zpow_natCast, ← zpow_add₀ (by norm_num)]
          congr 1
          omega
      _ ≤ _ := n1q
  have key2 : x < (10 : ℚ) ^ ((A : Int) - B + 1) := by
    rw [hxe, div_lt_iff₀ hdpos]
    calc (x.num.natAbs : ℚ) < (10 : ℚ) ^ A := n2q
      _ = (10 : ℚ) ^ ((A : Int) - B + 1) * (10 : ℚ) ^ (B - 1) := by
          rw [← zpow_natCast, ← zpow_natCast, ← zpow_add₀ (by norm_num)]
          congr 1
          omega
      _ ≤ _ := mul_le_mul_of_nonneg_left d1q (by positivity)
  dsimp only
  by_cases h : x < pow10 ((A : Int) - B)
  · rw [if_pos h]
    rw [pow10_eq] at h
    refine ⟨key1, ?_⟩
    rw [sub_add_cancel]
    exact h
  · rw [if_neg h]
    rw [pow10_eq] at h
    exact ⟨not_lt.1 h, key2⟩

/-! ## Doubles lie apart -/

/-- A double that is not below `2^L` is a multiple of `2^(L - 52)`. -/
theorem double_grid {y : ℚ} (hy : IsDouble y) {L : Int} (h : (2 : ℚ) ^ L ≤ y) : ∃ n : Int, y = n * (2 : ℚ) ^ (L - 52) := by
  obtain ⟨n, e, rfl, hn, he⟩ := hy
  have h1 : (n : ℚ) < (2 : ℚ) ^ (53 : Int) := by
    have : n < 2 ^ 53 := lt_of_le_of_lt (le_abs_self n) hn
    exact_mod_cast this
  have h2 : (2 : ℚ) ^ L < (2 : ℚ) ^ (53 + e) := by
    rw [zpow_add₀ (by norm_num)]
    exact lt_of_le_of_lt h (mul_lt_mul_of_pos_right h1 (by positivity))
  have h3 : L < 53 + e := (zpow_lt_zpow_iff_right₀ (by norm_num)).1 h2
  obtain ⟨k, hk⟩ : ∃ k : Nat, e = L - 52 + k := ⟨(e - (L - 52)).toNat, by omega⟩
  refine ⟨n * 2 ^ k, ?_⟩
  rw [hk, zpow_add₀ (by norm_num), zpow_natCast]
  push_cast
  ring

/-- A double below `2^L` keeps a distance from it. -/
theorem double_below {y : ℚ} (hy : IsDouble y) {L : Int} (h : y < (2 : ℚ) ^ L) : y ≤ (2 : ℚ) ^ L - (2 : ℚ) ^ (L - 53) := by
  obtain ⟨n, e, rfl, hn, he⟩ := hy
  by_cases hc : L - 53 ≤ e
  · obtain ⟨k, hk⟩ : ∃ k : Nat, e = L - 53 + k := ⟨(e - (L - 53)).toNat, by omega⟩
    have hL : (2 : ℚ) ^ L = 2 ^ 53 * (2 : ℚ) ^ (L - 53) := by
      rw [← zpow_natCast, ← zpow_add₀ (by norm_num)]
      congr 1
      push_cast
      omega
    have hpos : (0 : ℚ) < (2 : ℚ) ^ (L - 53) := by positivity
    rw [hk, zpow_add₀ (by norm_num), zpow_natCast] at h ⊢
    rw [hL] at h ⊢
    have h1 : ((n * 2 ^ k : Int) : ℚ) < ((2 ^ 53 : Int) : ℚ) := by
      push_cast
      by_contra hcon
      have := mul_le_mul_of_nonneg_right (not_lt.1 hcon) hpos.le
      linarith
    have h2 : n * 2 ^ k < 2 ^ 53 := by exact_mod_cast h1
    have h3 : n * 2 ^ k ≤ 2 ^ 53 - 1 := by omega
    have h4 : ((n * 2 ^ k : Int) : ℚ) ≤ ((2 ^ 53 - 1 : Int) : ℚ) := by exact_mod_cast h3
    push_cast at h4
    have := mul_le_mul_of_nonneg_right h4 hpos.le
    linarith
  · have h1 : (n : ℚ) < (2 : ℚ) ^ (53 : Int) := by
      have : n < 2 ^ 53 := lt_of_le_of_lt (le_abs_self n) hn
      exact_mod_cast this
    have h2 : (n : ℚ) * (2 : ℚ) ^ e ≤ (2 : ℚ) ^ (53 + e) := by
      rw [zpow_add₀ (by norm_num)]
      exact mul_le_mul_of_nonneg_right h1.le (by positivity)
    have h3 : (2 : ℚ) ^ (53 + e) ≤ (2 : ℚ) ^ (L - 1) := zpow_le_zpow_right₀ (by norm_num) (by omega)
    have h4 : (2 : ℚ) ^ (L - 53) ≤ (2 : ℚ) ^ (L - 1) := zpow_le_zpow_right₀ (by norm_num) (by omega)
    have h5 : (2 : ℚ) ^ L = 2 * (2 : ℚ) ^ (L - 1) := by
      rw [← zpow_one_add₀ (by norm_num)]
      congr 1
      omega
    linarith

/-- The distance of two doubles. -/
theorem double_gap {x y : ℚ} (hx : IsDouble x) (hy : IsDouble y) (h0 : 0 < x) (hne : y ≠ x) : x / 2 ^ 53 ≤ |y - x| := by
  obtain ⟨l1, l2⟩ := ilog2_spec h0
  rw [pow2_eq] at l1 l2
  generalize ilog2 x = L at l1 l2
  have hL : (2 : ℚ) ^ (L + 1) = 2 ^ 53 * (2 : ℚ) ^ (L - 52) := by
    rw [← zpow_natCast, ← zpow_add₀ (by norm_num)]
    congr 1
    push_cast
    omega
  by_cases hc : (2 : ℚ) ^ L ≤ y
  · obtain ⟨n, hn⟩ := double_grid hx l1
    obtain ⟨m, hm⟩ := double_grid hy hc
    have hpos : (0 : ℚ) < (2 : ℚ) ^ (L - 52) := by positivity
    have hnm : (1 : ℚ) ≤ |((m - n : Int) : ℚ)| := by
      have h1 : m - n ≠ 0 := by
        intro h
        apply hne
        rw [hn, hm, show m = n by omega]
      have h2 : 1 ≤ |m - n| := Int.one_le_abs h1
      have h3 : ((1 : Int) : ℚ) ≤ ((|m - n| : Int) : ℚ) := by exact_mod_cast h2
      rw [Int.cast_abs] at h3
      simpa using h3
    have e1 : y - x = ((m - n : Int) : ℚ) * (2 : ℚ) ^ (L - 52) := by
      rw [hn, hm]; push_cast; ring
    rw [e1, abs_mul, abs_of_pos hpos]
    have h1 := mul_le_mul_of_nonneg_right hnm hpos.le
    rw [hL] at l2
    have h2 : x / 2 ^ 53 ≤ (2 : ℚ) ^ (L - 52) := by
      rw [div_le_iff₀ (by norm_num)]
      linarith
    linarith
  · have hc := double_below hy (not_le.1 hc)
    have h53 : (2 : ℚ) ^ L = 2 ^ 53 * (2 : ℚ) ^ (L - 53) := by
      rw [← zpow_natCast, ← zpow_add₀ (by norm_num)]
      congr 1
      push_cast
      omega
    have hlt : y - x ≤ 0 := by
      have : (0 : ℚ) < (2 : ℚ) ^ (L - 53) := by positivity
      linarith
    rw [abs_of_nonpos hlt]
    rw [div_le_iff₀ (by norm_num)]
    norm_num at h53 ⊢
    linarith

/-- A number that is close enough to a double is read as this double. -/
theorem reads_close {x d : ℚ} (hx : IsDouble x) (h0 : 0 < x) (h : 2 * |d - x| < x / 2 ^ 53) : fl d = x := by
  by_contra hne
  have h1 := double_gap hx (fl_isDouble (x := d)) h0 hne
  have h2 := (fl_nearest d).2 x hx
  have h3 : |fl d - x| ≤ |fl d - d| + |d - x| := abs_sub_le _ _ _
  rw [abs_sub_comm x d] at h2
  linarith

/-! ## The search for digits -/

theorem readsAs_iff {x : ℚ} {k : Int} {m : Nat} : readsAs x k m = true ↔ 0 < m ∧ fl ((m : ℚ) * (10 : ℚ) ^ k) = x := by
  unfold readsAs
  rw [pow10_eq]
  simp

theorem nextTo_reads {x : ℚ} {k : Int} {m : Nat} (h : nextTo x k = some m) : 0 < m ∧ fl ((m : ℚ) * (10 : ℚ) ^ k) = x := by
  rw [← readsAs_iff]
  unfold nextTo at h
  dsimp only at h
  split at h
  · rename_i hc
    injection h with h
    rw [← h]
    rw [Bool.and_eq_true] at hc
    exact hc.1
  · split at h
    · rename_i hc
      injection h with h
      rw [← h]
      exact hc
    · cases h

theorem nextTo_some {x : ℚ} {k : Int} (h : readsAs x k (x / (10 : ℚ) ^ k).floor.toNat = true ∨
    readsAs x k ((x / (10 : ℚ) ^ k).floor.toNat + 1) = true) : ∃ m, nextTo x k = some m := by
  unfold nextTo
  rw [pow10_eq]
  dsimp only
  split
  · exact ⟨_, rfl⟩
  · rename_i hc
    split
    · exact ⟨_, rfl⟩
    · rename_i hc2
      rcases h with h | h
      · rw [h] at hc
        simp [hc2] at hc
      · exact absurd h hc2

theorem search_spec {x : ℚ} : ∀ (n : Nat) (k : Int) (j : Nat) (m : Nat), j < n → nextTo x (k - j) = some m →
    ∃ (i m' : Nat), i ≤ j ∧ nextTo x (k - i) = some m' ∧ searchDigits x n k = (m', k - i) := by
  intro n
  induction n with
  | zero => intro k j m hj; omega
  | succ n ih =>
    intro k j m hj h
    unfold searchDigits
    cases hk : nextTo x k with
    | some m0 => exact ⟨0, m0, by omega, by simpa using hk, by simp⟩
    | none =>
      cases j with
      | zero => rw [Nat.cast_zero, sub_zero, hk] at h; cases h
      | succ j =>
        have e : k - ((j + 1 : Nat) : Int) = k - 1 - (j : Int) := by push_cast; ring
        rw [e] at h
        obtain ⟨i, m', h1, h2, h3⟩ := ih (k - 1) j m (by omega) h
        refine ⟨i + 1, m', by omega, ?_, ?_⟩
        · rw [show k - ((i + 1 : Nat) : Int) = k - 1 - (i : Int) by push_cast; ring]
          exact h2
        · dsimp only
          rw [h3, show k - ((i + 1 : Nat) : Int) = k - 1 - (i : Int) by push_cast; ring]

/-- Seventeen digits are enough. -/
theorem seventeen {x : ℚ} (hx : IsDouble x) (h0 : 0 < x) : ∃ m, nextTo x (ilog10 x - (16 : Nat)) = some m := by
  obtain ⟨l1, l2⟩ := ilog10_spec h0
  generalize ilog10 x = E at l1 l2
  have hpos : (0 : ℚ) < (10 : ℚ) ^ (E - ((16 : Nat) : Int)) := by positivity
  have hE : (10 : ℚ) ^ E = 10 ^ 16 * (10 : ℚ) ^ (E - ((16 : Nat) : Int)) := by
    rw [← zpow_natCast, ← zpow_add₀ (by norm_num)]
    congr 1
    push_cast
    omega
  apply nextTo_some
  rw [readsAs_iff, readsAs_iff]
  generalize (10 : ℚ) ^ (E - ((16 : Nat) : Int)) = u at *
  have hq : (10 : ℚ) ^ 16 ≤ x / u := by rw [le_div_iff₀ hpos]; linarith
  have f1 := Rat.floor_le (x / u)
  have f2 := Rat.lt_floor_add_one (x / u)
  have f3 : (10 ^ 16 : Int) ≤ (x / u).floor := Rat.le_floor_iff.2 (by push_cast; exact hq)
  obtain ⟨n, hn⟩ := Int.eq_ofNat_of_zero_le (le_trans (by norm_num) f3)
  rw [hn] at f1 f2 f3 ⊢
  rw [Int.toNat_natCast]
  rw [Int.cast_natCast, le_div_iff₀ hpos] at f1
  push_cast at f2
  rw [div_lt_iff₀ hpos] at f2
  have hn0 : 0 < n := by omega
  have hu : u ≤ x / 10 ^ 16 := by rw [le_div_iff₀ (by norm_num)]; linarith
  have hx1 : x / 10 ^ 16 < x / 2 ^ 53 := by
    rw [div_lt_div_iff_of_pos_left h0 (by norm_num) (by norm_num)]
    norm_num
  by_cases hc : 2 * (x - n * u) ≤ u
  · refine .inl ⟨hn0, reads_close hx h0 ?_⟩
    rw [abs_of_nonpos (by linarith)]
    linarith
  · refine .inr ⟨by omega, reads_close hx h0 ?_⟩
    push_cast
    rw [abs_of_nonneg (by linarith)]
    linarith

theorem strip_spec : ∀ (n m : Nat) (k : Int), 0 < m →
    0 < (stripZeros n m k).1 ∧ k ≤ (stripZeros n m k).2 ∧
      ((stripZeros n m k).1 : ℚ) * (10 : ℚ) ^ (stripZeros n m k).2 = (m : ℚ) * (10 : ℚ) ^ k := by
  intro n
  induction n with
  | zero => intro m k hm; exact ⟨hm, le_refl _, rfl⟩
  | succ n ih =>
    intro m k hm
    unfold stripZeros
    split
    · rename_i h
      obtain ⟨a, b, c⟩ := ih (m / 10) (k + 1) (by omega)
      refine ⟨a, by omega, c.trans ?_⟩
      have hm' : m = m / 10 * 10 := by omega
      rw [zpow_add_one₀ (by norm_num)]
      conv_rhs => rw [hm']
      push_cast
      ring
    · exact ⟨hm, le_refl _, rfl⟩

/-- The decimal found is read as the number. -/
theorem toDecimal_reads {x : ℚ} (hx : IsDouble x) (h0 : 0 ≤ x) : fl (((toDecimal x).1 : ℚ) * (10 : ℚ) ^ (toDecimal x).2) = x := by
  unfold toDecimal
  split
  · rename_i h
    rw [h]
    simp [fl_zero]
  · rename_i h
    have h0' : 0 < x := lt_of_le_of_ne h0 (Ne.symm h)
    obtain ⟨m, hm⟩ := seventeen hx h0'
    obtain ⟨i, m', h1, h2, h3⟩ := search_spec 17 (ilog10 x) 16 m (by omega) hm
    rw [h3]
    obtain ⟨g1, g2⟩ := nextTo_reads h2
    dsimp only
    rw [(strip_spec 17 m' _ g1).2.2, g2]

/-- The decimal found for a whole number is this number. -/
theorem toDecimal_whole {n : Nat} (hn : n < 2 ^ 53) (h0 : 0 < n) :
    0 < (toDecimal n).1 ∧ 0 ≤ (toDecimal n).2 ∧ ((toDecimal n).1 : ℚ) * (10 : ℚ) ^ (toDecimal n).2 = n := by
  have hx : (0 : ℚ) < n := by exact_mod_cast h0
  have hint : ∀ i : Int, |i| ≤ 2 ^ 53 → fl (i : ℚ) = i := fun i hi => fl_int hi
  obtain ⟨l1, l2⟩ := ilog10_spec hx
  have hE0 : 0 ≤ ilog10 (n : ℚ) := by
    by_contra hc
    have : (10 : ℚ) ^ (ilog10 (n : ℚ) + 1) ≤ (10 : ℚ) ^ (0 : Int) := zpow_le_zpow_right₀ (by norm_num) (by omega)
    rw [zpow_zero] at this
    have h1 : (1 : ℚ) ≤ n := by exact_mod_cast h0
    linarith
  have hE : ilog10 (n : ℚ) ≤ 15 := by
    by_contra hc
    have : (10 : ℚ) ^ (16 : Int) ≤ (10 : ℚ) ^ (ilog10 (n : ℚ)) := zpow_le_zpow_right₀ (by norm_num) (by omega)
    have h1 : (n : ℚ) < 9007199254740992 := by exact_mod_cast hn
    norm_num at this
    linarith
  obtain ⟨E, hEe⟩ := Int.eq_ofNat_of_zero_le hE0
  have hm : ∃ m, nextTo (n : ℚ) (ilog10 (n : ℚ) - (E : Nat)) = some m := by
    apply nextTo_some
    left
    rw [hEe, sub_self, zpow_zero, div_one, readsAs_iff, show (n : ℚ).floor = (n : Int) from by
      have := Rat.floor_intCast (n : Int)
      push_cast at this
      exact this, Int.toNat_natCast, zpow_zero, mul_one]
    refine ⟨h0, ?_⟩
    have := hint (n : Int) (by rw [abs_of_nonneg (by omega)]; omega)
    push_cast at this
    exact this
  obtain ⟨m, hm⟩ := hm
  obtain ⟨i, m', h1, h2, h3⟩ := search_spec 17 (ilog10 (n : ℚ)) E m (by omega) hm
  obtain ⟨g1, g2⟩ := nextTo_reads h2
  have hex : (m' : ℚ) * (10 : ℚ) ^ (ilog10 (n : ℚ) - (i : Int)) = n := by
    obtain ⟨k, hk⟩ : ∃ k : Nat, ilog10 (n : ℚ) - (i : Int) = k := ⟨E - i, by omega⟩
    rw [hk, zpow_natCast] at g2 ⊢
    have hcast : ((m' * 10 ^ k : Nat) : ℚ) = (m' : ℚ) * 10 ^ k := by push_cast; ring
    rw [← hcast] at g2 ⊢
    by_cases hle : m' * 10 ^ k ≤ 2 ^ 53
    · have := hint ((m' * 10 ^ k : Nat) : Int) (by rw [abs_of_nonneg (by omega)]; exact_mod_cast hle)
      rw [Int.cast_natCast] at this
      rw [this] at g2
      exact g2
    · have hmono := fl_mono (x := ((2 ^ 53 : Int) : ℚ)) (y := ((m' * 10 ^ k : Nat) : ℚ)) (by
        have : (2 ^ 53 : Nat) ≤ m' * 10 ^ k := by omega
        have := (Nat.cast_le (α := ℚ)).2 this
        push_cast at this ⊢
        exact this)
      rw [hint _ (by norm_num), g2] at hmono
      have : (n : ℚ) < 2 ^ 53 := by exact_mod_cast hn
      push_cast at hmono
      linarith
  unfold toDecimal
  rw [if_neg (by positivity), h3]
  dsimp only
  obtain ⟨a, b, c⟩ := strip_spec 17 m' (ilog10 (n : ℚ) - (i : Int)) g1
  exact ⟨a, by omega, c.trans hex⟩

/-- Zeros at the end of a number. -/
theorem decimal_zeros {m : Nat} (hm : 0 < m) : ∀ k : Nat, decimal m ++ List.replicate k 48 = decimal (m * 10 ^ k) := by
  intro k
  induction k with
  | zero => simp
  | succ k ih =>
    have hpos : 0 < 10 ^ k := Nat.pow_pos (by norm_num)
    have h10 : 10 ≤ m * 10 ^ (k + 1) := by
      rw [Nat.pow_succ]
      nlinarith [Nat.mul_pos hm hpos]
    rw [decimal_ge h10, List.replicate_succ', ← List.append_assoc, ih]
    have e1 : m * 10 ^ (k + 1) / 10 = m * 10 ^ k := by
      rw [Nat.pow_succ, ← Nat.mul_assoc, Nat.mul_div_cancel _ (by norm_num)]
    have e2 : m * 10 ^ (k + 1) % 10 = 0 := by
      rw [Nat.pow_succ, ← Nat.mul_assoc, Nat.mul_mod_left]
    rw [e1, e2]
    rfl

theorem write_whole {n : Nat} (hn : n < 2 ^ 53) : writeFloat (toDecimal n).1 (toDecimal n).2 = decimal n := by
  rcases Nat.eq_zero_or_pos n with rfl | h0
  · decide +kernel
  · obtain ⟨a, b, c⟩ := toDecimal_whole hn h0
    generalize toDecimal (n : ℚ) = p at *
    obtain ⟨m, k⟩ := p
    obtain ⟨k, rfl⟩ := Int.eq_ofNat_of_zero_le b
    simp only at *
    have hnat : m * 10 ^ k = n := by
      rw [zpow_natCast] at c
      exact_mod_cast c
    have hdec := decimal_zeros a k
    rw [hnat] at hdec
    have hlen : (decimal m).length + k = (decimal n).length := by rw [← hdec]; simp
    have h16 : (decimal n).length ≤ 16 := decimal_len 16 n (by norm_num) (by omega)
    have hpos : 0 < (decimal m).length := List.length_pos_iff.2 (decimal_ne _)
    unfold writeFloat
    dsimp only
    rw [if_neg (by omega), if_pos (by omega), Int.toNat_natCast]
    exact hdec

/-! ## Signs -/

theorem floor_eq {y : ℚ} {n : Int} (h1 : (n : ℚ) ≤ y) (h2 : y < n + 1) : y.floor = n := by
  have g1 : n ≤ y.floor := Rat.le_floor_iff.2 h1
  have g2 := Rat.floor_le y
  have : (y.floor : ℚ) < ((n + 1 : Int) : ℚ) := by push_cast; linarith
  have : y.floor < n + 1 := by exact_mod_cast this
  omega

theorem rint_neg (y : ℚ) : rint (-y) = -rint y := by
  have f1 := Rat.floor_le y
  have f2 := Rat.lt_floor_add_one y
  push_cast at f2
  unfold rint
  dsimp only
  generalize y.floor = f at *
  rcases eq_or_lt_of_le f1 with h | h
  · have hf : (-y).floor = -f := floor_eq (by push_cast; linarith) (by push_cast; linarith)
    rw [hf]
    push_cast
    rw [if_pos (by linarith), if_pos (by linarith)]
  · have hf : (-y).floor = -f - 1 := floor_eq (by push_cast; linarith) (by push_cast; linarith)
    rw [hf]
    push_cast
    by_cases c1 : y - f < 1 / 2
    · rw [if_neg (by linarith), if_pos (by linarith), if_pos c1]
      omega
    · by_cases c2 : 1 / 2 < y - f
      · rw [if_pos (by linarith), if_neg c1, if_pos c2]
        omega
      · rw [if_neg (by linarith), if_neg (by linarith), if_neg c1, if_neg c2]
        split <;> split <;> omega

theorem ulpExp_neg (x : ℚ) : ulpExp (-x) = ulpExp x := by
  unfold ulpExp
  by_cases h : x = 0
  · rw [h]; simp
  · rw [if_neg h, if_neg (by simpa using h)]
    rcases lt_or_gt_of_ne h with h1 | h1
    · rw [if_neg (by linarith), if_pos h1]
    · rw [if_pos (by linarith), if_neg (by linarith), neg_neg]

theorem fl_neg (x : ℚ) : fl (-x) = -fl x := by
  unfold fl
  rw [ulpExp_neg, neg_div, rint_neg]
  push_cast
  ring

theorem isDouble_neg {x : ℚ} (h : IsDouble x) : IsDouble (-x) := by
  obtain ⟨n, e, rfl, hn, he⟩ := h
  exact ⟨-n, e, by push_cast; ring, by rwa [abs_neg], he⟩

/-- The sign bit of a number. -/
theorem negative_of {b : Nat} {x : ℚ} (h : IeeeValue b x) :
    ((Num.bits b).negative = true → x ≤ 0) ∧ ((Num.bits b).negative = false → 0 ≤ x) := by
  obtain ⟨sign, ex, frac, hs, hf, rfl, h⟩ := h
  have hex : ex ≤ 2046 := by rcases h with h | h <;> omega
  have hsign : (sign * 2 ^ 63 + ex * 2 ^ 52 + frac) / 2 ^ 63 % 2 = sign := by omega
  have hfr : (0 : ℚ) ≤ (frac : ℚ) / 2 ^ 52 := by positivity
  unfold Num.negative
  dsimp only
  rw [hsign]
  have hx : ∃ y : ℚ, 0 ≤ y ∧ x = (-1) ^ sign * y := by
    rcases h with ⟨-, h⟩ | ⟨-, -, h⟩
    · exact ⟨(frac : ℚ) / 2 ^ 52 * (2 : ℚ) ^ (-1022 : Int), by positivity, by rw [h, mul_assoc]⟩
    · exact ⟨(1 + (frac : ℚ) / 2 ^ 52) * (2 : ℚ) ^ ((ex : Int) - 1023), by positivity, by rw [h, mul_assoc]⟩
  obtain ⟨y, hy, rfl⟩ := hx
  obtain rfl | rfl : sign = 0 ∨ sign = 1 := by omega
  · simp [hy]
  · simp [hy]

/-- A text with a minus sign or without. -/
theorem read_signed {neg : Bool} {t : List Byte} {d : ℚ} (h : readUnsigned t = some d) :
    readDecimal (minus neg ++ t) = some (if neg then -d else d) := by
  cases neg with
  | true =>
    show Option.map (- ·) (readUnsigned t) = _
    rw [h]
    rfl
  | false =>
    show readDecimal t = _
    have : ∀ u, t ≠ 45 :: u := by
      rintro u rfl
      unfold readUnsigned at h
      rw [List.takeWhile_cons, show isDigit 45 = false from rfl] at h
      simp at h
    unfold readDecimal
    split
    · exact absurd rfl (this _)
    · exact h

theorem magnitude_eq (x : ℚ) : magnitude x = |x| := by
  unfold magnitude
  split
  · rw [abs_of_neg (by assumption)]
  · rw [abs_of_nonneg (by linarith)]

theorem plain_writeFloat (m : Nat) (k : Int) : Plain (writeFloat m k) := by
  have hd : ∀ b, isDigit b = true → b ≠ 34 ∧ b ≠ 44 ∧ b ≠ 10 := by
    intro b hb
    refine ⟨?_, ?_, ?_⟩ <;> (rintro rfl; cases hb)
  have hP : ∀ l : List Byte, (∀ b ∈ l, isDigit b = true) → Plain l := fun l hl => plain_of fun b hb => hd b (hl b hb)
  have ht : ∀ n, Plain ((decimal m).take n) := fun n => hP _ fun b hb => decimal_isDigit m b (List.mem_of_mem_take hb)
  have hdr : ∀ n, Plain ((decimal m).drop n) := fun n => hP _ fun b hb => decimal_isDigit m b (List.mem_of_mem_drop hb)
  have hm : Plain (decimal m) := hP _ (decimal_isDigit m)
  have hz : ∀ n, Plain (List.replicate n (48 : Byte)) := fun n => hP _ (zeros_isDigit n)
  unfold writeFloat
  dsimp only
  split
  · refine Plain.append (Plain.append (Plain.append ?_ (by decide)) ?_) (hP _ (padded_isDigit _ _))
    · split
      · exact hm
      · exact Plain.append (Plain.append (ht 1) (by decide)) (hdr 1)
    · split <;> decide
  · split
    · exact Plain.append hm (hz _)
    · split
      · exact Plain.append (Plain.append (ht _) (by decide)) (hdr _)
      · exact Plain.append (Plain.append (by decide) (hz _)) hm

theorem plain_fmtNumber (y : Num) : Plain (fmtNumber y) := by
  unfold fmtNumber
  refine Plain.append ?_ ?_
  · unfold minus
    split <;> decide
  · split
    · decide
    · decide
    · exact plain_writeFloat _ _

/-! ## Six decimals -/

theorem read_fixed {x : ℚ} (h0 : 0 ≤ x) : ∃ n : Nat, readUnsigned (fixedText x) = some ((n : ℚ) / 1000000) ∧
    |(n : ℚ) - x * 1000000| ≤ 1 / 2 ∧ ∀ j : Int, x * 1000000 = j → (n : ℚ) = x * 1000000 := by
  have he := rint_err (x * 1000000)
  have h1 : 0 ≤ rint (x * 1000000) := by
    rw [abs_le] at he
    have h2 : (0 : ℚ) ≤ x * 1000000 := by positivity
    have : ((-1 : Int) : ℚ) < rint (x * 1000000) := by push_cast; linarith [he.1]
    have : -1 < rint (x * 1000000) := by exact_mod_cast this
    omega
  obtain ⟨n, hn⟩ := Int.eq_ofNat_of_zero_le h1
  refine ⟨n, ?_, ?_, ?_⟩
  · unfold fixedText
    dsimp only
    rw [hn, Int.toNat_natCast, read_point (decimal_isDigit _) (decimal_ne _) (padded_isDigit _ _), digits_append,
      digits_decimal, padded_value, padded_eq 6 _ (by norm_num) (by omega), decimals_length]
    congr 1
    have : n / 1000000 * 10 ^ 6 + n % 1000000 = n := by omega
    rw [this]
    norm_num
  · rw [hn] at he
    simpa using he
  · intro j hj
    rw [hj, rint_int] at hn
    rw [hj, hn]
    simp

end Sas.Proofs
