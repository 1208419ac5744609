import Verif.Proofs.NumText
import Verif.Props.Text
import Verif.Props.Order

/-!
# Property C81: numbers as texts

`fl d` is the double a decimal number `d` is read as: the nearest one, of two the even one (Model/Float.lean).
-/

namespace Sas.Props
open Sas Spec

variable {σ : Type} {S : Source σ}

theorem toDbl_value {b : Nat} {x : ℚ} (h : IeeeValue b x) : (Num.bits b).toDbl = .fin x := (ofBits_value h).1

/-- **C81**, CSV. The text of a finite number is a decimal number that is read as this number, bit by bit up to the sign
of zero. -/
theorem C81_number (b : Nat) (x : ℚ) (hv : IeeeValue b x) :
    ∃ d, readDecimal (libTexts.number (.bits b)) = some d ∧ fl d = x ∧ Nearest x d := by
  have hd := (ofBits_value hv).2
  have key : ∃ d, readDecimal (fmtNumber (.bits b)) = some d ∧ fl d = x := by
    unfold fmtNumber
    rw [toDbl_value hv]
    dsimp only
    rw [Proofs.magnitude_eq]
    have hr := Proofs.read_signed (neg := (Num.bits b).negative) (Proofs.read_writeFloat (toDecimal |x|).1 (toDecimal |x|).2)
    refine ⟨_, hr, ?_⟩
    obtain ⟨n1, n2⟩ := Proofs.negative_of hv
    cases hn : (Num.bits b).negative with
    | true =>
      have h0 := n1 hn
      rw [abs_of_nonpos h0]
      have := Proofs.toDecimal_reads (Proofs.isDouble_neg hd) (by linarith)
      rw [if_pos rfl, Proofs.fl_neg, this, neg_neg]
    | false =>
      have h0 := n2 hn
      rw [abs_of_nonneg h0, if_neg (by simp)]
      exact Proofs.toDecimal_reads hd h0
  obtain ⟨d, h1, h2⟩ := key
  exact ⟨d, h1, h2, h2 ▸ fl_nearest d⟩

/-- **C81**, CSV. A whole number below 2^53 is written as an integer, without point and exponent. -/
theorem C81_whole (b : Nat) (i : Int) (hv : IeeeValue b i) (hi : |i| < 2 ^ 53) (hz : b ≠ 2 ^ 63) :
    SignedDigits i (libTexts.number (.bits b)) := by
  show SignedDigits i (fmtNumber (.bits b))
  unfold fmtNumber
  rw [toDbl_value hv]
  dsimp only
  rw [Proofs.magnitude_eq]
  have hm : |(i : ℚ)| = ((i.natAbs : Nat) : ℚ) := by
    rw [Nat.cast_natAbs, Int.cast_abs]
  have hlt : i.natAbs < 2 ^ 53 := by
    rw [Int.abs_eq_natAbs] at hi
    exact_mod_cast hi
  rw [hm, Proofs.write_whole hlt]
  obtain ⟨n1, n2⟩ := Proofs.negative_of hv
  cases hn : (Num.bits b).negative with
  | true =>
    have h0 : i ≤ 0 := by exact_mod_cast n1 hn
    rcases lt_or_eq_of_le h0 with h0 | rfl
    · exact .inr ⟨h0, _, rfl, decimal_digits _⟩
    · exfalso
      apply hz
      obtain ⟨sign, ex, frac, hs, hf, rfl, h⟩ := hv
      have hex : ex ≤ 2046 := by rcases h with h | h <;> omega
      unfold Num.negative at hn
      simp only [beq_iff_eq] at hn
      have hsign : sign = 1 := by omega
      subst hsign
      rcases h with ⟨rfl, h⟩ | ⟨h1, -, h⟩
      · have : (frac : ℚ) = 0 := by
          have hp : (0 : ℚ) < (2 : ℚ) ^ (-1022 : Int) := by positivity
          by_contra hne
          have h3 : (0 : ℚ) < frac := lt_of_le_of_ne (Nat.cast_nonneg _) (Ne.symm hne)
          have : 0 < (frac : ℚ) / 2 ^ 52 * (2 : ℚ) ^ (-1022 : Int) := by positivity
          push_cast at h
          linarith
        have : frac = 0 := by exact_mod_cast this
        subst this
        norm_num
      · have hp : (0 : ℚ) < (1 + (frac : ℚ) / 2 ^ 52) * (2 : ℚ) ^ ((ex : Int) - 1023) := by positivity
        push_cast at h
        linarith
  | false =>
    have h0 : 0 ≤ i := by exact_mod_cast n2 hn
    exact .inl ⟨h0, decimal_digits _⟩

/-- **C81**, CSV files. Under the hypotheses of `C29_partial` (no quotes in the strings, dates of the calendar), and now
without any about the texts of numbers: the table a CSV reader finds has, in the field of each finite number, a decimal
number that is read as this number, and nothing in the field of each missing one. -/
theorem C81_csv {cfg : Cfg} {fuel : Nat} {filter : Option Filter} {s : σ} {R : Reader σ}
    (h : openReader cfg S fuel filter s = .ok R) (ops : List Op)
    (hne : R.props.columns ≠ []) (hnames : ∀ c ∈ R.props.columns, 34 ∉ c.name)
    (hcells : ∀ r ∈ pushes (R.run S ops).2.trace, ∀ c ∈ typed R.props.columns,
      ∃ v, c.value r.2.mem = .ok (some v) ∧ Writable v) :
    ∃ text table, csvText libTexts (R.run S ops).2.trace = (text, .ok ())
      ∧ csvRecords text = some (R.props.columns.map Column.name :: table)
      ∧ List.Forall₂ (fun (r : Nat × Row) fields => List.Forall₂ (fun (c : Column) t =>
          ∀ b, c.value r.2.mem = .ok (some (.num (.bits b))) →
            (IeeeNaN b → t = []) ∧ ∀ x, IeeeValue b x → ∃ d, readDecimal t = some d ∧ fl d = x) R.props.columns fields)
        (pushes (R.run S ops).2.trace) table := by
  obtain ⟨text, table, h1, h2, h3⟩ := C29_partial h ops libTexts Proofs.plain_fmtNumber hne hnames hcells
  refine ⟨text, table, h1, h2, h3.imp fun r fields hr => ?_⟩
  refine List.Forall₂.imp (fun c t hct b hb => ?_) hr
  rcases hct with ⟨hu, -⟩ | ⟨v, hv, hs⟩
  · unfold Column.value at hb
    rw [hu] at hb
    cases hb
  · rw [hb] at hv
    cases hv
    have hnan : IeeeNaN b → NanNum (.bits b) := by
      rintro ⟨sign, frac, h1, h2, h3, rfl⟩
      exact ⟨_, rfl, by omega, by omega⟩
    rcases hs with ⟨hn, ht⟩ | ⟨hn, ht⟩
    · refine ⟨fun _ => ht, fun x hx => ?_⟩
      exfalso
      obtain ⟨b', hb', e1, e2⟩ := hn
      cases hb'
      obtain ⟨sign, ex, frac, g1, g2, rfl, g3⟩ := hx
      have hex : ex ≤ 2046 := by rcases g3 with g3 | g3 <;> omega
      omega
    · refine ⟨fun hx => absurd (hnan hx) hn, fun x hx => ?_⟩
      obtain ⟨d, d1, d2, -⟩ := C81_number b x hx
      exact ⟨d, by rw [ht]; exact d1, d2⟩

/-- **C81**, `to_string`, partial. The text of a finite number is a decimal number within half a millionth of it; it is
exact for whole millionths, in particular for whole numbers, and is read as the number when that is 2^34 or more. Missing,
and false (`C81_refuted`): that it is always read as the number. -/
theorem C81_to_string_partial (e : Endian) (before after : List Byte) (c : Column) (b : Nat) (x : ℚ)
    (hc : c.fmt = .double e) (ho : c.offset = before.length) (hv : IeeeValue b x) :
    ∃ t d, c.toText libTexts.fixed (before ++ encode e 8 b ++ after) = .ok t ∧ readDecimal t = some d ∧
      |d - x| ≤ 1 / 2000000 ∧ (∀ j : Int, x * 1000000 = j → d = x) ∧ (2 ^ 34 ≤ |x| → fl d = x) := by
  have hd := (ofBits_value hv).2
  have htext : c.toText libTexts.fixed (before ++ encode e 8 b ++ after) = .ok (stdToString (.bits b)) := by
    have hg := getDouble_cell e before after c b ho (ieeeValue_lt hv)
    unfold Column.toText
    simp only [hc]
    have hn : c.getNumber (before ++ encode e 8 b ++ after) = .ok (.bits b) := by
      have hl : (encode e 8 b).length = 8 := by simp
      unfold Column.getNumber
      simp only [hc]
      rw [c.cell_middle before _ after 8 ho hl]
      show Except.ok (Num.bits (getDoubleBits e (encode e 8 b))) = _
      unfold getDoubleBits
      rw [getVal_encode, Nat.mod_eq_of_lt (by simpa using ieeeValue_lt hv)]
    rw [hn]
    rfl
  refine ⟨stdToString (.bits b), ?_⟩
  rw [htext]
  unfold stdToString
  rw [toDbl_value hv]
  dsimp only
  rw [Proofs.magnitude_eq]
  obtain ⟨n, r1, r2, r3⟩ := Proofs.read_fixed (abs_nonneg x)
  obtain ⟨n1, n2⟩ := Proofs.negative_of hv
  refine ⟨_, rfl, Proofs.read_signed r1, ?_⟩
  have hnear : |(n : ℚ) / 1000000 - (|x|)| ≤ 1 / 2000000 := by
    have e1 : (n : ℚ) / 1000000 - (|x|) = ((n : ℚ) - |x| * 1000000) / 1000000 := by ring
    rw [e1, abs_div, abs_of_pos (by norm_num : (0 : ℚ) < 1000000), div_le_iff₀ (by norm_num)]
    linarith
  have hfl : IsDouble |x| → 2 ^ 34 ≤ |x| → fl ((n : ℚ) / 1000000) = |x| := by
    intro hdx hx
    refine Proofs.reads_close hdx (by linarith [show (0 : ℚ) < 2 ^ 34 by norm_num]) ?_
    rw [lt_div_iff₀ (by norm_num)]
    norm_num at hx hnear ⊢
    linarith
  cases hn : (Num.bits b).negative with
  | true =>
    have h0 := n1 hn
    rw [if_pos rfl]
    rw [abs_of_nonpos h0] at hnear hfl r3
    refine ⟨?_, fun j hj => ?_, fun hx => ?_⟩
    · rw [← abs_neg, show -(-((n : ℚ) / 1000000) - x) = (n : ℚ) / 1000000 - -x by ring]
      exact hnear
    · have := r3 (-j) (by push_cast; linarith)
      linarith
    · rw [abs_of_nonpos h0] at hx
      rw [Proofs.fl_neg, hfl (Proofs.isDouble_neg hd) hx, neg_neg]
  | false =>
    have h0 := n2 hn
    rw [if_neg (by simp)]
    rw [abs_of_nonneg h0] at hnear hfl r3
    refine ⟨hnear, fun j hj => ?_, fun hx => ?_⟩
    · have := r3 j hj
      linarith
    · rw [abs_of_nonneg h0] at hx
      exact hfl hd hx

/-- What is missing from `C81_to_string_partial`: two different numbers (2^-22 and 2^-23) with one text, that of zero. -/
theorem C81_refuted : ∃ (c : Column) (b₁ b₂ : Nat) (x y : ℚ), c.fmt = .double .little ∧ c.offset = 0 ∧ IeeeValue b₁ x ∧
    IeeeValue b₂ y ∧ 0 < x ∧ x < y ∧ c.toText libTexts.fixed (encode .little 8 b₁) = .ok (ascii "0.000000") ∧
    c.toText libTexts.fixed (encode .little 8 b₂) = .ok (ascii "0.000000") := by
  refine ⟨⟨[], [], [], .double .little, 0, 8⟩, 1000 * 2 ^ 52, 1001 * 2 ^ 52, (2 : ℚ) ^ (-23 : Int), (2 : ℚ) ^ (-22 : Int), rfl, rfl,
    ?_, ?_, by norm_num, by norm_num, by decide +kernel, by decide +kernel⟩
  · exact ⟨0, 1000, 0, by norm_num, by norm_num, by decide +kernel, .inr ⟨by norm_num, by norm_num, by norm_num⟩⟩
  · exact ⟨0, 1001, 0, by norm_num, by norm_num, by decide +kernel, .inr ⟨by norm_num, by norm_num, by norm_num⟩⟩

/-! Some texts: a tenth, a whole number, one with an exponent, and pi with six decimals. -/

example : libTexts.number (.bits 0x3fb999999999999a) = ascii "0.1" := by decide +kernel
example : libTexts.number (.bits 0xc05ec00000000000) = ascii "-123" := by decide +kernel
example : libTexts.number (.bits 0x7fefffffffffffff) = ascii "1.7976931348623157e+308" := by decide +kernel
example : libTexts.number (.bits 0x3ee4f8b588e368f1) = ascii "1e-05" := by decide +kernel
example : libTexts.fixed (.bits 0xc00921fb54442d18) = ascii "-3.141593" := by decide +kernel

/-- The time stamp of Props/DateTime.lean as a number. -/
example : ∃ d, readDecimal (libTexts.number (.bits stampBits)) = some d ∧ fl d = 7543046700767965 / 4194304
    ∧ Nearest (7543046700767965 / 4194304) d := C81_number _ _ stamp_value

example : SignedDigits 1 (libTexts.number (.bits 0x3ff0000000000000)) :=
  C81_whole _ 1 (by exact_mod_cast one_value) (by norm_num) (by norm_num)

example : ∃ t d, (⟨[], [], [], .double .big, 1, 8⟩ : Column).toText libTexts.fixed ([7] ++ encode .big 8 stampBits ++ [9]) = .ok t
    ∧ readDecimal t = some d ∧ |d - 7543046700767965 / 4194304| ≤ 1 / 2000000
    ∧ (∀ j : Int, (7543046700767965 / 4194304 : ℚ) * 1000000 = j → d = 7543046700767965 / 4194304)
    ∧ (2 ^ 34 ≤ |(7543046700767965 / 4194304 : ℚ)| → fl d = 7543046700767965 / 4194304) :=
  C81_to_string_partial .big [7] [9] _ _ _ rfl rfl stamp_value

/-- The csv file of the demonstration data set (`Props/Text.lean` shows that the hypotheses of `C81_csv` are met). -/
example : csvText libTexts (Demo.reader.run ifs [.readAll]).2.trace
    = say (ascii "\"ID\",\"NAME\"\n1,\"ann\"\n2,\"bob\"\n4,\"cy\"\n") := by decide +kernel

end Sas.Props
