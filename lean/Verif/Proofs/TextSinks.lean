import Verif.Spec.Text
import Verif.Proofs.DateText
import Verif.Proofs.RSinks

/-!
# Lemmas about the text sinks
-/

namespace Sas
open Spec

/-! ## Writing -/

theorem andThen_say (t : List Byte) (q : Printed) : (say t).andThen q = (t ++ q.1, q.2) := rfl

theorem say_say (t u : List Byte) : (say t).andThen (say u) = say (t ++ u) := rfl

theorem sayAll_say (ts : List (List Byte)) : sayAll (ts.map say) = say ts.flatten := by
  induction ts with
  | nil => rfl
  | cons t ts ih => rw [List.map_cons, sayAll, ih]; rfl

theorem sayAll_map {α : Type} {l : List α} {f : α → Printed} {g : α → List Byte} (h : ∀ a ∈ l, f a = say (g a)) :
    sayAll (l.map f) = say (l.map g).flatten := by
  rw [← sayAll_say, List.map_map]
  congr 1
  exact List.map_congr_left h

/-! ## CSV text and its parser -/

/-- `e` is a way to write the field `f`. -/
def FieldText (e f : List Byte) : Prop := (Plain e ∧ f = e) ∨ (34 ∉ f ∧ e = [34] ++ f ++ [34])

theorem parse_quoted : ∀ (s f : List Byte) (r : List (List Byte)) (t : List Byte), 34 ∉ s →
    csvParse .quoted f r (s ++ 34 :: t) = csvParse .closed (f ++ s) r t
  | [], f, r, t, _ => by simp [csvParse]
  | b :: s, f, r, t, h => by
    rw [List.cons_append, csvParse, if_neg (by simp at h; exact fun e => h.1 e.symm),
      parse_quoted s _ r t (by simp at h; exact h.2)]
    simp

theorem plain_cons {b : Byte} {t : List Byte} (h : Plain (b :: t)) :
    b ≠ 34 ∧ b ≠ 44 ∧ b ≠ 10 ∧ Plain t := by
  obtain ⟨h1, h2, h3⟩ := h
  simp only [List.mem_cons, not_or] at h1 h2 h3
  exact ⟨fun e => h1.1 e.symm, fun e => h2.1 e.symm, fun e => h3.1 e.symm, h1.2, h2.2, h3.2⟩

theorem parse_plain : ∀ (s f : List Byte) (r : List (List Byte)) (t : List Byte), Plain s →
    csvParse .plain f r (s ++ t) = csvParse .plain (f ++ s) r t
  | [], f, r, t, _ => by simp
  | b :: s, f, r, t, h => by
    obtain ⟨h1, h2, h3, h4⟩ := plain_cons h
    rw [List.cons_append, csvParse, if_neg h1, if_neg h2, if_neg h3, parse_plain s _ r t h4]
    simp

theorem parse_comma {e f : List Byte} (h : FieldText e f) (r : List (List Byte)) (t : List Byte) (g : List Byte) :
    csvParse .start g r (e ++ 44 :: t) = csvParse .start [] (r ++ [f]) t := by
  rcases h with ⟨h, rfl⟩ | ⟨h, rfl⟩
  · cases f with
    | nil => simp [csvParse]
    | cons b s =>
      obtain ⟨h1, h2, h3, h4⟩ := plain_cons h
      rw [List.cons_append, csvParse.eq_6, if_neg h1, if_neg h2, if_neg h3, parse_plain s _ r _ h4]
      simp [csvParse]
  · rw [List.append_assoc, List.append_assoc, List.singleton_append, csvParse.eq_6, if_pos rfl, List.singleton_append,
      parse_quoted f [] r _ h]
    simp [csvParse]

theorem parse_newline {e f : List Byte} (h : FieldText e f) (r : List (List Byte)) (t : List Byte) (g : List Byte) :
    csvParse .start g r (e ++ 10 :: t) = (csvRecords t).map ((r ++ [f]) :: ·) := by
  rcases h with ⟨h, rfl⟩ | ⟨h, rfl⟩
  · cases f with
    | nil => simp [csvParse, csvRecords]
    | cons b s =>
      obtain ⟨h1, h2, h3, h4⟩ := plain_cons h
      rw [List.cons_append, csvParse.eq_6, if_neg h1, if_neg h2, if_neg h3, parse_plain s _ r _ h4]
      simp [csvParse, csvRecords]
  · rw [List.append_assoc, List.append_assoc, List.singleton_append, csvParse.eq_6, if_pos rfl, List.singleton_append,
      parse_quoted f [] r _ h]
    simp [csvParse, csvRecords]

/-- The elements of a line when nothing fails. -/
def commas : List (List Byte) → List Byte
  | [] => []
  | [e] => e
  | e :: es => e ++ 44 :: commas es

theorem csvElements_false : ∀ es : List (List Byte),
    csvElements false (es.map say) = say (es.flatMap ([44] ++ ·))
  | [] => rfl
  | e :: es => by
    rw [List.map_cons, csvElements, csvElements_false es]
    rfl

theorem commas_eq : ∀ (es : List (List Byte)) (e : List Byte), commas (e :: es) = e ++ es.flatMap ([44] ++ ·)
  | [], e => by simp [commas]
  | e' :: es, e => by rw [commas, commas_eq es e']; simp; simp

theorem csvLine_say (es : List (List Byte)) : csvLine (es.map say) = say (commas es ++ [10]) := by
  unfold csvLine
  cases es with
  | nil => rfl
  | cons e es =>
    rw [List.map_cons, csvElements, csvElements_false, commas_eq]
    rfl

theorem parse_line : ∀ (es fs : List (List Byte)) (r : List (List Byte)) (t : List Byte) (g : List Byte),
    es ≠ [] → List.Forall₂ FieldText es fs →
    csvParse .start g r (commas es ++ 10 :: t) = (csvRecords t).map ((r ++ fs) :: ·)
  | [], _, _, _, _, h, _ => absurd rfl h
  | [e], _, r, t, g, _, .cons h .nil => by
    rw [commas]
    exact parse_newline h r t g
  | e :: e' :: es, f :: fs, r, t, g, _, .cons h hs => by
    have : commas (e :: e' :: es) ++ 10 :: t = e ++ 44 :: (commas (e' :: es) ++ 10 :: t) := by
      rw [commas]; simp; simp
    rw [this, parse_comma h, parse_line (e' :: es) fs (r ++ [f]) t [] (by simp) hs]
    simp

/-- A file of lines. -/
theorem parse_lines : ∀ (ls : List (List (List Byte))) (rs : List (List (List Byte))),
    List.Forall₂ (fun es fs => es ≠ [] ∧ List.Forall₂ FieldText es fs) ls rs →
    csvRecords (ls.flatMap fun es => commas es ++ [10]) = some rs
  | [], _, .nil => rfl
  | es :: ls, fs :: rs, .cons h hs => by
    rw [List.flatMap_cons, List.append_assoc, csvRecords, List.singleton_append, parse_line es fs [] _ [] h.1 h.2,
      parse_lines ls rs hs]
    rfl

/-! ## The texts of the cells -/

theorem digit_val (d : Nat) (h : d < 10) : (UInt8.ofNat (48 + d)).toNat = 48 + d := by
  simp only [UInt8.toNat_ofNat']
  omega

theorem decimal_digits : ∀ (n : Nat), Digits n (decimal n) := by
  intro n
  induction n using Nat.strongRecOn with
  | _ n ih =>
    by_cases h : n < 10
    · rw [decimal_lt h]
      have hd := digit_val (n % 10) (by omega)
      refine ⟨by simp, ?_, ?_, ?_⟩
      · intro b hb
        rw [List.mem_singleton] at hb
        subst hb
        rw [UInt8.le_iff_toNat_le, UInt8.le_iff_toNat_le, hd]
        exact ⟨by show 48 ≤ _; omega, by show _ ≤ 57; omega⟩
      · intro h0; simpa using h0
      · simp only [List.foldl_cons, List.foldl_nil, hd]
        omega
    · obtain ⟨h1, h2, h3, h4⟩ := ih (n / 10) (by omega)
      rw [decimal_ge (by omega)]
      have hd := digit_val (n % 10) (by omega)
      refine ⟨by simp, ?_, ?_, ?_⟩
      · intro b hb
        rw [List.mem_append, List.mem_singleton] at hb
        rcases hb with hb | hb
        · exact h2 b hb
        subst hb
        rw [UInt8.le_iff_toNat_le, UInt8.le_iff_toNat_le, hd]
        exact ⟨by show 48 ≤ _; omega, by show _ ≤ 57; omega⟩
      · intro h0
        exfalso
        rw [List.head?_append_of_ne_nil _ h1] at h0
        rw [h3 h0] at h4
        simp at h4
        omega
      · rw [List.foldl_append, h4]
        simp only [List.foldl_cons, List.foldl_nil, hd]
        omega

theorem intText_digits (i : Int) : SignedDigits i (intText i) := by
  have hp : padded 0 i.natAbs = decimal i.natAbs := by unfold padded; simp
  unfold intText paddedInt
  by_cases h : i < 0
  · rw [if_pos h]
    exact .inr ⟨h, _, rfl, by rw [hp]; exact decimal_digits _⟩
  · rw [if_neg h]
    exact .inl ⟨by omega, by rw [hp]; exact decimal_digits _⟩

/-- Digits and the characters of times and dates. -/
theorem plain_of {t : List Byte} (h : ∀ b ∈ t, b ≠ 34 ∧ b ≠ 44 ∧ b ≠ 10) : Plain t :=
  ⟨fun hb => (h _ hb).1 rfl, fun hb => (h _ hb).2.1 rfl, fun hb => (h _ hb).2.2 rfl⟩

instance (t : List Byte) : Decidable (Plain t) := by unfold Plain; infer_instance

theorem Spec.Plain.append {a b : List Byte} (ha : Plain a) (hb : Plain b) : Plain (a ++ b) := by
  obtain ⟨a1, a2, a3⟩ := ha
  obtain ⟨b1, b2, b3⟩ := hb
  exact ⟨by simp [a1, b1], by simp [a2, b2], by simp [a3, b3]⟩

theorem plain_digits {n : Nat} {t : List Byte} (h : Digits n t) : Plain t := by
  refine plain_of fun b hb => ?_
  obtain ⟨h1, -⟩ := h.2.1 b hb
  refine ⟨?_, ?_, ?_⟩ <;> (rintro rfl; exact absurd h1 (by decide))

theorem plain_signed {i : Int} {t : List Byte} (h : SignedDigits i t) : Plain t := by
  rcases h with ⟨-, h⟩ | ⟨-, u, rfl, h⟩
  · exact plain_digits h
  · exact Plain.append (a := [45]) (by decide) (plain_digits h)

theorem plain_decimals : ∀ (w n : Nat), Plain (decimals w n)
  | 0, _ => show Plain [] by decide
  | w + 1, n => by
    rw [decimals]
    refine Plain.append (plain_decimals w _) (plain_of fun b hb => ?_)
    rw [List.mem_singleton] at hb
    have hd := digit_val (n % 10) (by omega)
    subst hb
    refine ⟨?_, ?_, ?_⟩ <;> (intro he; rw [he] at hd; simp at hd; omega)

theorem plain_month (m : Nat) : Plain (monthName m) := by
  unfold monthName
  split <;> decide

theorem plain_namedDate (x : Ymd) : Plain (namedDate x) := by
  unfold namedDate
  exact ((((plain_decimals _ _).append (by decide)).append (plain_month _)).append (by decide)).append
    (plain_decimals _ _)

theorem plain_isoTime (n : Nat) : Plain (isoTime n) := by
  unfold isoTime
  refine (((((plain_decimals _ _).append (by decide)).append (plain_decimals _ _)).append (by decide)).append
    (plain_decimals _ _)).append ?_
  split
  · decide
  · exact Plain.append (by decide) (plain_decimals _ _)

theorem monthShort_eq {m : Nat} (h1 : 1 ≤ m) (h2 : m ≤ 12) : monthShort m = monthName m := by
  have : m = 1 ∨ m = 2 ∨ m = 3 ∨ m = 4 ∨ m = 5 ∨ m = 6 ∨ m = 7 ∨ m = 8 ∨ m = 9 ∨ m = 10 ∨ m = 11 ∨ m = 12 := by
    omega
  rcases this with rfl | rfl | rfl | rfl | rfl | rfl | rfl | rfl | rfl | rfl | rfl | rfl <;> rfl

theorem boostText_ymd {x : Ymd} (hr : RealDate x) (hy : x.year ≤ 9999) : x.boostText = namedDate x := by
  obtain ⟨h1, h2, h3, h4⟩ := hr
  have := monthDays_le x.year x.month
  unfold Ymd.boostText namedDate
  rw [padded_eq 4 x.year (by omega) (by omega), monthShort_eq h1 h2, padded_eq 2 x.day (by omega) (by omega)]

theorem calendarDay_ymd {d : Int} (h : CalendarDay d) :
    ∃ x, (day1960 d).ymd = .ok x ∧ RealDate x ∧ x.boostText = namedDate x := by
  obtain ⟨n, hn, hn1, hn2, h⟩ := day1960_ymd h.1 h.2
  have hy := ymd_inRange hn1 hn2
  unfold Ymd.inRange at hy
  simp only [Bool.and_eq_true, decide_eq_true_eq] at hy
  exact ⟨_, h, ymd_real hn1 hn2, boostText_ymd (ymd_real hn1 hn2) hy.1.2⟩

theorem boostText_time (x : Texts) {n : Nat} (h : n < 86400000000) : (Duration.us n).boostText x = isoTime n := by
  unfold Duration.boostText isoTime
  simp only
  rw [if_neg (by omega), Int.toNat_natCast, padded_eq 2 (n / 3600000000) (by omega) (by omega),
    padded_eq 2 (n / 60000000 % 60) (by omega) (by omega), padded_eq 2 (n / 1000000 % 60) (by omega) (by omega)]
  by_cases h0 : n % 1000000 = 0
  · rw [if_neg (by simp [h0]), if_pos h0]
    simp
  · rw [if_pos h0, if_neg h0, padded_eq 6 _ (by omega) (by omega)]
    simp

theorem boostText_datetime (x : Texts) {us : Int} (h : CalendarDay (us / 86400000000)) :
    ∃ s, (at1960 us).boostText x = .ok s ∧ StampShows (at1960 us) s ∧ Plain s := by
  obtain ⟨y, h1, h2, h3⟩ := calendarDay_ymd h
  obtain ⟨h4, h5⟩ := h
  have ht := timeOfDay_at (us := us) (by omega)
  have hd := date_at (us := us) (by omega) (by omega)
  refine ⟨namedDate y ++ [32] ++ isoTime (us % 86400000000).toNat, ?_,
    .inr ⟨us, y, rfl, ⟨h4, h5⟩, h1, h2, rfl⟩,
    ((plain_namedDate _).append (by decide)).append (plain_isoTime _)⟩
  have e : (at1960 us).timeOfDay.boostText x = isoTime (us % 86400000000).toNat := by
    rw [ht, show us % 86400000000 = (((us % 86400000000).toNat : Nat) : Int) by omega]
    rw [boostText_time x (by omega)]
    rfl
  rw [← e, ← h3]
  exact bind_two (g := fun z : Ymd => Except.ok (z.boostText ++ [32] ++ (at1960 us).timeOfDay.boostText x)) hd h1

theorem boostText_stamp (x : Texts) {t : DateTime}
    (h : t = .notADateTime ∨ ∃ us, t = at1960 us ∧ CalendarDay (us / 86400000000)) :
    ∃ s, t.boostText x = .ok s ∧ StampShows t s ∧ Plain s := by
  rcases h with rfl | ⟨us, rfl, h⟩
  · exact ⟨_, rfl, .inl ⟨rfl, rfl⟩, by decide⟩
  · exact boostText_datetime x h

/-- Every value that can be written is written as one field. -/
theorem csvText_field (x : Texts) (hx : ∀ y, Plain (x.number y)) {v : Cell} (h : Writable v) :
    ∃ e f, v.csvText x = .ok e ∧ FieldText e f ∧ CsvShows x v f := by
  cases v with
  | str s => exact ⟨_, s, rfl, .inr ⟨h, rfl⟩, rfl⟩
  | int i => exact ⟨_, _, rfl, .inl ⟨plain_signed (intText_digits i), rfl⟩, intText_digits i⟩
  | num y =>
    by_cases hn : y.isNan = true
    · exact ⟨[], [], by simp only [Cell.csvText, hn, if_true], .inl ⟨by decide, rfl⟩, .inl ⟨(isNan_iff y).1 hn, rfl⟩⟩
    · exact ⟨x.number y, _, by simp only [Cell.csvText, hn]; rfl, .inl ⟨hx y, rfl⟩,
        .inr ⟨fun h => hn ((isNan_iff y).2 h), rfl⟩⟩
  | datetime t =>
    obtain ⟨s, h1, h2, h3⟩ := boostText_stamp x h
    exact ⟨s, s, h1, .inl ⟨h3, rfl⟩, h2⟩
  | date d =>
    rcases h with rfl | ⟨n, rfl, h⟩
    · exact ⟨_, _, rfl, .inl ⟨by decide, rfl⟩, .inl ⟨rfl, rfl⟩⟩
    · obtain ⟨y, h1, h2, h3⟩ := calendarDay_ymd h
      refine ⟨namedDate y, _, ?_, .inl ⟨plain_namedDate y, rfl⟩, .inr ⟨n, y, rfl, h, h1, h2, rfl⟩⟩
      show (do return (← (day1960 n).ymd).boostText) = _
      rw [h1]
      show Except.ok _ = _
      rw [h3]
  | time t =>
    rcases h with rfl | ⟨n, rfl, h⟩
    · exact ⟨notADateTimeText, _, rfl, .inl ⟨by decide, rfl⟩, .inl ⟨rfl, rfl⟩⟩
    · exact ⟨isoTime n, _, by simp only [Cell.csvText, boostText_time x h], .inl ⟨plain_isoTime n, rfl⟩,
        .inr ⟨n, rfl, h, rfl⟩⟩

/-! ## The csv sink -/

/-- A row that can be written: what is written of each column, and the field it stands for. -/
theorem csvRow_texts (x : Texts) (hx : ∀ y, Plain (x.number y)) (cols : List Column) (mem : List Byte)
    (h : ∀ c ∈ typed cols, ∃ v, c.value mem = .ok (some v) ∧ Writable v) :
    ∃ es fs, cols.map (csvCell x mem) = es.map say ∧ List.Forall₂ FieldText es fs ∧
      List.Forall₂ (fun c t => (c.type = .unknown ∧ t = []) ∨
        ∃ v, c.value mem = .ok (some v) ∧ CsvShows x v t) cols fs := by
  induction cols with
  | nil => exact ⟨[], [], rfl, .nil, .nil⟩
  | cons c cols ih =>
    obtain ⟨es, fs, h1, h2, h3⟩ := ih fun c hc => h c (by
      simp only [typed, List.mem_filter] at hc ⊢
      exact ⟨List.mem_cons_of_mem _ hc.1, hc.2⟩)
    by_cases hu : c.type = .unknown
    · refine ⟨[] :: es, [] :: fs, ?_, .cons (.inl ⟨by decide, rfl⟩) h2, .cons (.inl ⟨hu, rfl⟩) h3⟩
      rw [List.map_cons, List.map_cons, h1]
      congr 1
      unfold csvCell Column.value
      rw [hu]
      rfl
    · obtain ⟨v, hv, hw⟩ := h c (by simp [typed, hu])
      obtain ⟨e, f, k1, k2, k3⟩ := csvText_field x hx hw
      refine ⟨e :: es, f :: fs, ?_, .cons k2 h2, .cons (.inr ⟨v, hv, k3⟩) h3⟩
      rw [List.map_cons, List.map_cons, h1]
      congr 1
      unfold csvCell
      rw [hv]
      show sayRes (v.csvText x) = _
      rw [k1]
      rfl

theorem csv_run (x : Texts) (hx : ∀ y, Plain (x.number y)) (cols : List Column) (hne : cols ≠ []) :
    ∀ evs : List Event, (∀ p, Event.setProperties p ∉ evs) →
    (∀ r ∈ pushes evs, ∀ c ∈ typed cols, ∃ v, c.value r.2.mem = .ok (some v) ∧ Writable v) →
    ∃ ls rs, runText (csvStep x) cols evs = say (ls.flatMap fun es => commas es ++ [10]) ∧
      List.Forall₂ (fun es fs => es ≠ [] ∧ List.Forall₂ FieldText es fs) ls rs ∧
      List.Forall₂ (CsvRow x cols) (pushes evs) rs := by
  intro evs
  induction evs with
  | nil => intro _ _; exact ⟨[], [], rfl, .nil, .nil⟩
  | cons ev evs ih =>
    intro hp hr
    cases ev with
    | setProperties p => exact absurd (by simp) (hp p)
    | endOfData =>
      obtain ⟨ls, rs, h1, h2, h3⟩ := ih (fun p h => hp p (by simp [h])) hr
      refine ⟨ls, rs, ?_, h2, h3⟩
      rw [runText, show (csvStep x cols .endOfData).2 = cols from rfl, h1]
      rfl
    | pushRow i r =>
      simp only [pushes, List.mem_cons, forall_eq_or_imp] at hr
      obtain ⟨ls, rs, h1, h2, h3⟩ := ih (fun p h => hp p (by simp [h])) hr.2
      obtain ⟨es, fs, k1, k2, k3⟩ := csvRow_texts x hx cols r.mem hr.1
      refine ⟨es :: ls, fs :: rs, ?_, .cons ⟨?_, k2⟩ h2, .cons k3 h3⟩
      · rw [runText, show (csvStep x cols (.pushRow i r)).2 = cols from rfl, h1]
        show (csvLine (cols.map (csvCell x r.mem))).andThen _ = _
        rw [k1, csvLine_say]
        simp [say_say]
      · intro he
        subst he
        have := congrArg List.length k1
        simp at this
        exact hne this

theorem csv_header (x : Texts) (cols : List Column) (h : ∀ c ∈ cols, 34 ∉ c.name) :
    ∃ es, cols.map (fun c => sayRes ((Cell.str c.name).csvText x)) = es.map say ∧
      List.Forall₂ FieldText es (cols.map Column.name) := by
  induction cols with
  | nil => exact ⟨[], rfl, .nil⟩
  | cons c cols ih =>
    obtain ⟨es, h1, h2⟩ := ih fun c hc => h c (by simp [hc])
    exact ⟨([34] ++ c.name ++ [34]) :: es, by rw [List.map_cons, h1]; rfl,
      .cons (.inr ⟨h c (by simp), rfl⟩) h2⟩

end Sas
