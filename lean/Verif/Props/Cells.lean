import Verif.Spec.Cells
import Verif.Props.Values
import Verif.Props.DateTime
import Verif.Proofs.Open

/-!
# Property C43: the values of the cells of a written data set
-/

namespace Sas.Props

open Sas Sas.Spec

/-- C35. A time of day of `j` microseconds, stored as (one of) the nearest double(s) of its number of seconds, is
returned exactly. -/
theorem C35_time_stored (e : Endian) (before after : List Byte) (c : Column) (bits : Nat) (s : ℚ) (j : Int)
    (hc : c.fmt = .time e) (ho : c.offset = before.length) (hv : IeeeValue bits s)
    (hs : Nearest s (j / 1000000)) (h0 : 0 ≤ j) (h1 : j < 86400000000) :
    c.getTime (before ++ encode e 8 bits ++ after) = .ok (.us j) := by
  have hj0 : (0 : ℚ) ≤ (j : ℚ) / 1000000 := by positivity
  have hj1 : (j : ℚ) / 1000000 < 86400 := by
    rw [div_lt_iff₀ (by norm_num)]
    have : (j : ℚ) < ((86400000000 : Int) : ℚ) := by exact_mod_cast h1
    norm_num at this ⊢
    linarith
  have hx : |(j : ℚ) / 1000000| < (2 : ℚ) ^ (33 : Int) := by
    rw [abs_of_nonneg hj0]
    refine lt_trans hj1 (by norm_num)
  have g1 := hs.2 _ (fl_isDouble (x := (j : ℚ) / 1000000))
  have g2 := fl_err hx (by norm_num)
  have g3 : |s - j / 1000000| ≤ 1 / 2 ^ 21 := le_trans g1 (le_trans g2 (by norm_num))
  have hr : |s| ≤ 2 ^ 37 := by
    rw [abs_le] at *
    norm_num at *
    constructor <;> linarith
  obtain ⟨us, k1, k2, -⟩ := C35_time_partial e before after c bits s hc ho hv hr
  have : us = j := by
    apply int_eq_of_abs_lt
    rw [abs_lt]
    rw [abs_le] at k2 g3
    norm_num at *
    constructor <;> linarith
  rw [k1, this, Int.emod_eq_of_lt h0 h1]

/-- A quarter of a second after one. -/
example : (⟨[], [], [], .time .little, 0, 8⟩ : Column).getTime (encode .little 8 0x40ac208000000000)
    = .ok (.us 3600250000) := by decide +kernel

/-- The column returns the value. -/
def Gives (c : Column) (mem : List Byte) : Value → Prop
  | .text t => c.type = .string ∧ c.getString mem = .ok t
  | .integer x => c.type = .integer ∧ c.getInteger mem = .ok x
  | .number b => c.type = .number ∧ c.getNumber mem = .ok (.bits b)
  | .datetime us => c.type = .datetime ∧ c.getDatetime mem = .ok (at1960 us)
  | .date d => c.type = .date ∧ c.getDate mem = .ok (day1960 d)
  | .time us => c.type = .time ∧ c.getTime mem = .ok (.us us)
  | .missing => c.type = .datetime ∧ c.getDatetime mem = .ok .notADateTime ∨
      c.type = .date ∧ c.getDate mem = .ok .notADate ∨ c.type = .time ∧ c.getTime mem = .ok .notADateTime

theorem fmt_of_type {e : Endian} {num : Bool} {format : List Byte} {n : Nat} {t : ColType}
    (h : columnType num format n = t) : (chooseFormatter e num format n).type = t := by
  rw [chooseFormatter_type, h]

theorem fmt_number {num : Bool} {format : List Byte} {n : Nat}
    (h : columnType num format n = .number) : num = true ∧ 3 ≤ n ∧ n ≤ 8 ∧
      matchColumnFormat datetimeFormats format = false ∧ matchColumnFormat dateFormats format = false ∧
      matchColumnFormat timeFormats format = false := by
  unfold columnType at h
  split at h
  · cases h
  split at h
  · cases h
  split at h
  · cases h
  split at h
  · cases h
  split at h
  · cases h
  split at h
  · rename_i h1 h2 h3 h4 h5 h6
    refine ⟨by simpa using h1, h6.1, h6.2, ?_, ?_, ?_⟩
    · rw [← Bool.not_eq_true, datetime_iff]; exact h3
    · rw [← Bool.not_eq_true, date_iff]; exact h4
    · rw [← Bool.not_eq_true, time_iff]; exact h5
  · cases h

theorem fmt_calendar {e : Endian} {num : Bool} {format : List Byte} {n : Nat} :
    (columnType num format n = .datetime → chooseFormatter e num format n = .datetime e) ∧
    (columnType num format n = .date → chooseFormatter e num format n = .date e) ∧
    (columnType num format n = .time → chooseFormatter e num format n = .time e) := by
  unfold chooseFormatter columnType
  cases num
  · simp
  simp only [Bool.not_true, Bool.false_eq_true, if_false, Bool.true_eq_false]
  by_cases h1 : n = 1
  · simp [h1]
  by_cases h2 : n = 2
  · simp [h2]
  simp only [h1, h2, if_false, or_self]
  by_cases d1 : matchColumnFormat datetimeFormats format = true
  · rw [if_pos d1, if_pos ((datetime_iff _).mp d1)]; simp
  rw [if_neg d1, if_neg (fun h => d1 ((datetime_iff _).mpr h))]
  by_cases d2 : matchColumnFormat dateFormats format = true
  · rw [if_pos d2, if_pos ((date_iff _).mp d2)]; simp
  rw [if_neg d2, if_neg (fun h => d2 ((date_iff _).mpr h))]
  by_cases d3 : matchColumnFormat timeFormats format = true
  · rw [if_pos d3, if_pos ((time_iff _).mp d3)]; simp
  rw [if_neg d3, if_neg (fun h => d3 ((time_iff _).mpr h))]
  by_cases h3 : 3 ≤ n ∧ n ≤ 8
  · rw [if_pos h3]; simp
  · rw [if_neg h3]; simp

theorem fmt_datetime {e : Endian} {num : Bool} {format : List Byte} {n : Nat}
    (h : columnType num format n = .datetime) : chooseFormatter e num format n = .datetime e := fmt_calendar.1 h
theorem fmt_date {e : Endian} {num : Bool} {format : List Byte} {n : Nat}
    (h : columnType num format n = .date) : chooseFormatter e num format n = .date e := fmt_calendar.2.1 h
theorem fmt_time {e : Endian} {num : Bool} {format : List Byte} {n : Nat}
    (h : columnType num format n = .time) : chooseFormatter e num format n = .time e := fmt_calendar.2.2 h

/-- What a column returns for a cell that holds a value. -/
theorem cell_gives {e : Endian} {d : ColumnDesc} {c : Column} {v : Value} {cell before after : List Byte}
    (hf : c.fmt = chooseFormatter e d.numeric d.format d.length) (hl : c.length = d.length)
    (ho : c.offset = before.length) (hs : StoredAs e d v cell) (hcell : cell.length = d.length) :
    Gives c (before ++ cell ++ after) v := by
  cases hs with
  | text t pad hn hp ht =>
    refine ⟨by simp [Column.type, hf, chooseFormatter, hn, Formatter.type], ?_⟩
    obtain ⟨s, removed, h1, h2, h3, h4⟩ := C15_cell e d.format before (t ++ pad) after c
      (by rw [hf, hn, hl]) ho (by rw [hcell, hl])
    rw [h1]
    congr 1
    refine C15_unique (fun b => b = 0 ∨ white b) s t removed pad h2.symm h3 (fun b hb => ?_) h4 ht
    rcases hp b hb with rfl | rfl
    · exact .inl rfl
    · exact .inr (.inl rfl)
  | byte b hn hlen =>
    have hfmt : c.fmt = chooseFormatter e true d.format 1 := by rw [hf, hn, hlen]
    refine ⟨by simp [Column.type, hfmt, chooseFormatter, Formatter.type], ?_⟩
    exact (C13_column1 e d.format before after c b hfmt ho).1
  | short x hn hlen h1 h2 =>
    have hfmt : c.fmt = chooseFormatter e true d.format 2 := by rw [hf, hn, hlen]
    refine ⟨by simp [Column.type, hfmt, chooseFormatter, Formatter.type], ?_⟩
    exact (C13_column e d.format before after c x hfmt ho h1 h2).1
  | number bits ht hb hz =>
    obtain ⟨h1, h2, h3, h4, h5, h6⟩ := fmt_number ht
    refine ⟨by rw [Column.type, hf]; exact fmt_of_type ht, ?_⟩
    have := C14_read e d.format before after c d.length bits h2 h3 hb ⟨by rw [hf, h1], hl, h4, h5, h6⟩ ho
    rw [hz, Nat.sub_zero] at this
    exact this
  | datetime us bits s ht hlen hv hs hr =>
    have hfmt : c.fmt = .datetime e := by rw [hf]; exact fmt_datetime ht
    exact ⟨by rw [Column.type, hfmt]; rfl, C35_stored e before after c bits s us hfmt ho hv hs hr⟩
  | date days bits ht hlen hv h1 h2 =>
    have hfmt : c.fmt = .date e := by rw [hf]; exact fmt_date ht
    exact ⟨by rw [Column.type, hfmt]; rfl,
      (C35_date e before after c bits days days hfmt ho hv (by simp) h1 h2).1⟩
  | time us bits s ht hlen hv hs h1 h2 =>
    have hfmt : c.fmt = .time e := by rw [hf]; exact fmt_time ht
    exact ⟨by rw [Column.type, hfmt]; rfl, C35_time_stored e before after c bits s us hfmt ho hv hs h1 h2⟩
  | missing bits ht hlen hv =>
    rcases ht with ht | ht | ht
    · have hfmt : c.fmt = .datetime e := by rw [hf]; exact fmt_datetime ht
      exact .inl ⟨by rw [Column.type, hfmt]; rfl, (C35_missing e before after c bits (.inl hfmt) ho hv).1⟩
    · have hfmt : c.fmt = .date e := by rw [hf]; exact fmt_date ht
      exact .inr (.inl ⟨by rw [Column.type, hfmt]; rfl, (C35_missing e before after c bits (.inr (.inl hfmt)) ho hv).2.1⟩)
    · have hfmt : c.fmt = .time e := by rw [hf]; exact fmt_time ht
      refine .inr (.inr ⟨by rw [Column.type, hfmt]; rfl, ?_⟩)
      rw [(C35_missing e before after c bits (.inr (.inr hfmt)) ho hv).2.2, hfmt]
      rfl

end Sas.Props
