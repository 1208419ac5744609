import Verif.Proofs.Values

/-!
# Properties of decoded values: C13, C14, C15, C24, C37, C39

`mem` below is the row the getter is called on, with whatever memory follows it. Saying that a column's
cell is `cell` is saying that `mem` is `before ++ cell ++ after` with `before` as long as the column's
offset.
-/

namespace Sas.Props

open Sas Sas.Spec

/-! ## C13: integers are decoded independently of byte order -/

/-- C13. An unsigned integer of any width, written in either byte order, is read back. -/
theorem C13_unsigned (e : Endian) (w n : Nat) (h : n < 256 ^ w) : getVal e (encode e w n) = n := by
  rw [getVal_encode, Nat.mod_eq_of_lt h]

example : getVal .big (encode .big 4 0xc2ea8160) = 0xc2ea8160 := C13_unsigned _ _ _ (by decide)
example : encode .big 4 0xc2ea8160 = [0xc2, 0xea, 0x81, 0x60] := by decide
example : encode .little 4 0xc2ea8160 = [0x60, 0x81, 0xea, 0xc2] := by decide

/-- C13. A signed (two's complement) integer of any width, written in either byte order, is read back. -/
theorem C13_signed (e : Endian) (w : Nat) (hw : 0 < w) (x : Int)
    (h1 : -2 ^ (8 * w - 1) ≤ x) (h2 : x < 2 ^ (8 * w - 1)) :
    toSigned (8 * w) (getVal e (encodeSigned e w x)) = x := by
  have hp : (256 : Nat) ^ w = 2 ^ (8 * w) := by
    rw [show (256 : Nat) = 2 ^ 8 by rfl, ← Nat.pow_mul]
  have hlt : (x % 2 ^ (8 * w)).toNat < 256 ^ w := by
    have h3 : x % 2 ^ (8 * w) < 2 ^ (8 * w) := Int.emod_lt_of_pos _ (Int.pow_pos (by omega))
    have h4 : 0 ≤ x % 2 ^ (8 * w) :=
      Int.emod_nonneg _ (by have : (0 : Int) < 2 ^ (8 * w) := Int.pow_pos (by omega); omega)
    have hcast : ((2 ^ (8 * w) : Nat) : Int) = (2 : Int) ^ (8 * w) := by simp
    rw [hp]; omega
  rw [encodeSigned, C13_unsigned e w _ hlt]
  exact toSigned_emod _ (by omega) x h1 h2

example : toSigned 16 (getVal .big (encodeSigned .big 2 (-300))) = -300 :=
  C13_signed .big 2 (by decide) (-300) (by decide) (by decide)
example : encodeSigned .big 2 (-300) = [0xfe, 0xd4] := by decide

/-- C13. Reading in one byte order is reading the reversed bytes in the other. -/
theorem C13_reverse (bs : List Byte) :
    getVal .big bs = getVal .little bs.reverse ∧ getVal .little bs = getVal .big bs.reverse := by
  simp [getVal]

/-- C13, as seen through `get_integer`: a two-byte numeric column holding the encoding of `x` in the
byte order of the file returns `x`, whatever its format. -/
theorem C13_column (e : Endian) (format before after : List Byte) (c : Column) (x : Int)
    (hc : c.fmt = chooseFormatter e true format 2) (ho : c.offset = before.length)
    (h1 : -32768 ≤ x) (h2 : x < 32768) :
    c.getInteger (before ++ encodeSigned e 2 x ++ after) = .ok x ∧
    c.getNumber (before ++ encodeSigned e 2 x ++ after) = .ok (.ofInt x) := by
  have hfmt : c.fmt = .int16 e := by rw [hc]; simp [chooseFormatter]
  have hl : (encodeSigned e 2 x).length = 2 := by simp [encodeSigned]
  have hs := C13_signed e 2 (by decide) x (by simpa using h1) (by simpa using h2)
  have hi : c.getInteger (before ++ encodeSigned e 2 x ++ after) = .ok x := by
    simp only [Column.getInteger, hfmt, c.cell_middle before _ after 2 ho hl]
    exact congrArg Except.ok hs
  refine ⟨hi, ?_⟩
  simp only [Column.getNumber, hfmt, hi]
  rfl

example : (⟨[], [], [], .int16 .big, 3, 2⟩ : Column).getInteger [1, 2, 3, 0xfe, 0xd4, 7] = .ok (-300) := by
  decide

/-- C13. A one-byte numeric column returns its byte. -/
theorem C13_column1 (e : Endian) (format before after : List Byte) (c : Column) (b : Byte)
    (hc : c.fmt = chooseFormatter e true format 1) (ho : c.offset = before.length) :
    c.getInteger (before ++ [b] ++ after) = .ok (b.toNat : Int) ∧
    c.getNumber (before ++ [b] ++ after) = .ok (.ofInt b.toNat) := by
  have hfmt : c.fmt = .smallInt := by rw [hc]; simp [chooseFormatter]
  have hi : c.getInteger (before ++ [b] ++ after) = .ok (b.toNat : Int) := by
    simp only [Column.getInteger, hfmt, c.cell_middle before [b] after 1 ho rfl]
    rfl
  refine ⟨hi, ?_⟩
  simp only [Column.getNumber, hfmt, hi]
  rfl

example : (⟨[], [], [], .smallInt, 1, 1⟩ : Column).getInteger [1, 200, 3] = .ok 200 := by decide

/-! ## C14: truncated doubles -/

/-- A numeric column without a date, time or datetime format. -/
def plainNumeric (e : Endian) (format : List Byte) (n : Nat) (c : Column) : Prop :=
  c.fmt = chooseFormatter e true format n ∧ c.length = n ∧
  matchColumnFormat datetimeFormats format = false ∧ matchColumnFormat dateFormats format = false ∧
  matchColumnFormat timeFormats format = false

/-- C14. A numeric column of 3 to 8 bytes holding the most significant bytes of a double returns the
double with the bytes not stored replaced by zeros (for 8 bytes: the very same bit pattern). -/
theorem C14_read (e : Endian) (format before after : List Byte) (c : Column) (n bits : Nat)
    (hn : 3 ≤ n) (hn' : n ≤ 8) (hb : bits < 2 ^ 64)
    (hc : plainNumeric e format n c) (ho : c.offset = before.length) :
    c.getNumber (before ++ encodeTruncated e n bits ++ after) =
      .ok (.bits (bits - bits % 256 ^ (8 - n))) := by
  obtain ⟨hf, -, h1, h2, h3⟩ := hc
  have hl : (encodeTruncated e n bits).length = n := by
    cases e <;> simp [encodeTruncated] <;> omega
  by_cases h8 : n = 8
  · subst h8
    have hfmt : c.fmt = .double e := by rw [hf]; simp [chooseFormatter, h1, h2, h3]
    have he : encodeTruncated e 8 bits = encode e 8 bits := by
      cases e <;> simp [encodeTruncated, encode] <;> exact List.take_of_length_le (by simp)
    simp only [Column.getNumber, hfmt, c.cell_middle before _ after 8 ho hl]
    show Except.ok (Num.bits _) = _
    rw [he, getDoubleBits, getVal_encode, Nat.mod_eq_of_lt (by omega)]
    simp [Nat.mod_one]
  · have hfmt : c.fmt = .incomplete e n := by
      rw [hf]
      have : n = 3 ∨ n = 4 ∨ n = 5 ∨ n = 6 ∨ n = 7 := by omega
      rcases this with rfl | rfl | rfl | rfl | rfl <;> simp [chooseFormatter, h1, h2, h3]
    simp only [Column.getNumber, hfmt, c.cell_middle before _ after n ho hl]
    show Except.ok (Num.bits _) = _
    rw [getIncomplete_encode e n bits hn' hb]

/-- C14. Zeroing the bytes that were not stored keeps the sign and the exponent, gives the same double
when those bytes were zero, never increases the magnitude, and loses less than one unit of the last
fraction bit stored. -/
theorem C14_accuracy (n bits : Nat) (hn : 3 ≤ n) (hn' : n ≤ 8) :
    let kept := bits - bits % 256 ^ (8 - n)
    dblSign kept = dblSign bits ∧ dblExp kept = dblExp bits ∧
    (bits % 256 ^ (8 - n) = 0 → kept = bits) ∧
    dblMag kept ≤ dblMag bits ∧
    dblMag bits < dblMag kept + dblBitWeight bits (8 * (8 - n)) := by
  intro kept
  have key : kept / 2 ^ 63 = bits / 2 ^ 63 ∧ kept / 2 ^ 52 = bits / 2 ^ 52 ∧
      dblFrac kept ≤ dblFrac bits ∧ dblFrac bits < dblFrac kept + 2 ^ (8 * (8 - n)) := by
    have : n = 3 ∨ n = 4 ∨ n = 5 ∨ n = 6 ∨ n = 7 ∨ n = 8 := by omega
    rcases this with rfl | rfl | rfl | rfl | rfl | rfl <;>
      simp only [kept, dblFrac, Nat.reducePow, Nat.reduceSub, Nat.reduceMul] <;> omega
  obtain ⟨k1, k2, k3, k4⟩ := key
  have he : dblExp kept = dblExp bits := by simp only [dblExp, k2]
  refine ⟨by simp only [dblSign, k1], he, by intro h; simp only [kept, h]; omega, ?_, ?_⟩
  · simp only [dblMag, he]
    split
    · exact k3
    · exact Nat.mul_le_mul_right _ (by omega)
  · simp only [dblMag, he, dblBitWeight]
    split
    · rename_i h0; simpa [h0] using k4
    · rw [← Nat.add_mul]
      exact Nat.mul_lt_mul_of_pos_right (by omega) (Nat.pow_pos (by omega))

/-- C14. A missing value (an exponent of all ones with a fraction bit among the bytes stored) is read
back as a missing value, and infinities as infinities. -/
theorem C14_nan (n bits : Nat) (hn : 3 ≤ n) (hn' : n ≤ 8) (h : dblExp bits = 2047) :
    let kept := bits - bits % 256 ^ (8 - n)
    dblExp kept = 2047 ∧ (dblFrac kept ≠ 0 ↔ 256 ^ (8 - n) ≤ dblFrac bits) := by
  intro kept
  refine ⟨by rw [(C14_accuracy n bits hn hn').2.1, h], ?_⟩
  have : n = 3 ∨ n = 4 ∨ n = 5 ∨ n = 6 ∨ n = 7 ∨ n = 8 := by omega
  rcases this with rfl | rfl | rfl | rfl | rfl | rfl <;>
    simp only [kept, dblFrac, Nat.reducePow, Nat.reduceSub] <;> omega

/-- pi in 5 bytes, big-endian and little-endian. -/
example : (⟨[], [], [], .incomplete .big 5, 2, 5⟩ : Column).getNumber
    ([1, 2] ++ encodeTruncated .big 5 0x400921FB54442D18 ++ [9]) = .ok (.bits 0x400921FB54000000) := by
  decide
example : plainNumeric .little (ascii "BEST") 5 ⟨[], [], ascii "BEST", .incomplete .little 5, 2, 5⟩ := by
  unfold plainNumeric; decide
example : (⟨[], [], [], .incomplete .little 5, 2, 5⟩ : Column).getNumber
    ([1, 2] ++ encodeTruncated .little 5 0x400921FB54442D18 ++ [9]) = .ok (.bits 0x400921FB54000000) := by
  decide
example : 256 ^ (8 - 5) ≤ dblFrac 0xFFFFFE0000000000 ∧ dblExp 0xFFFFFE0000000000 = 2047 := by decide

/-! ## C15: strings are trimmed exactly -/

/-- C15. `get_string` of a string column: the cell is the returned string followed by NUL and white
space only, and the returned string does not end with NUL or white space. -/
theorem C15_cell (e : Endian) (format before cell after : List Byte) (c : Column)
    (hc : c.fmt = chooseFormatter e false format c.length) (ho : c.offset = before.length)
    (hl : cell.length = c.length) :
    ∃ s removed, c.getString (before ++ cell ++ after) = .ok s ∧ cell = s ++ removed ∧
      (∀ b ∈ removed, b = 0 ∨ white b) ∧ (∀ b, s.getLast? = some b → ¬ (b = 0 ∨ white b)) := by
  have hfmt : c.fmt = .string := by rw [hc]; simp [chooseFormatter]
  obtain ⟨removed, h1, h2, h3⟩ := trim_split (fun b => b == 0 || isSpace b) cell
  refine ⟨getStringTrim0 cell, removed, ?_, h1, ?_, ?_⟩
  · simp only [Column.getString, hfmt, c.cell_middle before cell after c.length ho hl]
    rfl
  · intro b hb
    have := h2 b hb
    simpa [isSpace_iff] using this
  · intro b hb
    have := h3 b hb
    simpa [isSpace_iff, isSpace_false] using this

/-- C15. The trimmed string of `C15_cell` is the only one of that kind. -/
theorem C15_unique (drop : Byte → Prop) (s t r q : List Byte) (h : s ++ r = t ++ q)
    (hr : ∀ b ∈ r, drop b) (hq : ∀ b ∈ q, drop b)
    (hs : ∀ b, s.getLast? = some b → ¬ drop b) (ht : ∀ b, t.getLast? = some b → ¬ drop b) : s = t := by
  rcases List.append_eq_append_iff.mp h with ⟨a, h1, h2⟩ | ⟨a, h1, h2⟩
  · rcases List.eq_nil_or_concat a with ha | ⟨a', x, ha⟩ <;> subst ha
    · simpa using h1.symm
    · exact absurd (hr x (by rw [h2]; simp)) (ht x (by rw [h1]; simp [← List.append_assoc]))
  · rcases List.eq_nil_or_concat a with ha | ⟨a', x, ha⟩ <;> subst ha
    · simpa using h1
    · exact absurd (hq x (by rw [h2]; simp)) (hs x (by rw [h1]; simp [← List.append_assoc]))

/-- C15. Header strings and column texts: the stored text is white space, then the returned string, then
non-printable characters and white space; the returned string neither starts with white space nor ends
with a non-printable or white-space character. -/
theorem C15_text (text : List Byte) :
    ∃ lead tail, text = lead ++ getStringTrim text ++ tail ∧
      (∀ b ∈ lead, white b) ∧ (∀ b ∈ tail, ¬ printable b ∨ white b) ∧
      (∀ b, (getStringTrim text).head? = some b → ¬ white b) ∧
      (∀ b, (getStringTrim text).getLast? = some b → printable b ∧ ¬ white b) := by
  obtain ⟨lead, h1, h2, h3⟩ := skipSpace_split text
  obtain ⟨tail, g1, g2, g3⟩ := trim_split (fun b => !isPrint b || isSpace b) (skipSpace text)
  refine ⟨lead, tail, ?_, ?_, ?_, ?_, ?_⟩
  · rw [List.append_assoc]
    unfold getStringTrim
    simp only
    rw [← g1, ← h1]
  · intro b hb; exact (isSpace_iff b).mp (h2 b hb)
  · intro b hb
    have := g2 b hb
    simp only [Bool.or_eq_true, Bool.not_eq_true', isSpace_iff] at this
    rcases this with h | h
    · left; rw [← isPrint_iff]; simp [h]
    · right; exact h
  · intro b hb
    apply (isSpace_false b).mp
    apply h3
    have hg : getStringTrim text = (skipSpace text).take
      (trimLen (fun b => !isPrint b || isSpace b) (skipSpace text) (skipSpace text).length) := rfl
    rw [hg, List.head?_take] at hb
    split at hb
    · cases hb
    · exact hb
  · intro b hb
    have := g3 b hb
    simp only [Bool.or_eq_false_iff, Bool.not_eq_false', isPrint_iff, isSpace_false] at this
    exact this

example : (⟨[], [], [], .string, 1, 7⟩ : Column).getString (ascii "x ab c " ++ [0, 9]) =
    .ok (ascii " ab c") := by decide
example : getStringTrim (ascii "  SAS FILE \n" ++ [0, 0]) = ascii "SAS FILE" := by decide

/-! ## C24: date, datetime and time columns are decoded from their own bytes -/

/-- A numeric column whose format is a date, datetime or time format. -/
def dateNumeric (e : Endian) (format : List Byte) (c : Column) : Prop :=
  c.fmt = chooseFormatter e true format c.length ∧
  (matchColumnFormat datetimeFormats format = true ∨ matchColumnFormat dateFormats format = true ∨
   matchColumnFormat timeFormats format = true)

theorem dateNumeric_fmt {e : Endian} {format : List Byte} {c : Column} (hl : 3 ≤ c.length)
    (hc : dateNumeric e format c) : c.fmt = .datetime e ∨ c.fmt = .date e ∨ c.fmt = .time e := by
  rw [hc.1]
  have h1 : c.length ≠ 1 := by omega
  have h2 : c.length ≠ 2 := by omega
  have h := hc.2
  simp only [chooseFormatter, h1, h2, Bool.not_true, Bool.false_eq_true, if_false]
  generalize matchColumnFormat datetimeFormats format = x at *
  generalize matchColumnFormat dateFormats format = y at *
  generalize matchColumnFormat timeFormats format = z at *
  cases x <;> cases y <;> cases z <;> simp_all

/-- The property C24, for a column: the number depends on the bytes of the column only. -/
def ownBytes (c : Column) : Prop :=
  ∀ before cell after before' after', c.offset = before.length → c.offset = before'.length →
    cell.length = c.length →
    c.getNumber (before ++ cell ++ after) = c.getNumber (before' ++ cell ++ after')

/-- C24 holds for columns of 8 bytes, and the number is the one of a plain numeric column of 8 bytes at
the same place. Missing: lengths 3 to 7, for which the property is false (`C24_refuted`). -/
theorem C24_eight_partial (e : Endian) (format : List Byte) (c : Column) (hl : c.length = 8)
    (hc : dateNumeric e format c) :
    ownBytes c ∧ ∀ d : Column, plainNumeric e [] 8 d → d.offset = c.offset → ∀ mem,
      c.getNumber mem = d.getNumber mem := by
  have hfmt := dateNumeric_fmt (by omega) hc
  have hnum : ∀ mem, c.getNumber mem = (do return .bits (getDoubleBits e (← c.cell mem 8))) := by
    intro mem
    rcases hfmt with h | h | h <;> simp only [Column.getNumber, h]
  constructor
  · intro before cell after before' after' h1 h2 h3
    rw [hl] at h3
    rw [hnum, hnum, c.cell_middle before cell after 8 h1 h3, c.cell_middle before' cell after' 8 h2 h3]
  · intro d hd ho mem
    have hdf : d.fmt = .double e := by
      obtain ⟨h1, -, h2, h3, h4⟩ := hd
      rw [h1]; simp [chooseFormatter, h2, h3, h4]
    rw [hnum]
    simp only [Column.getNumber, hdf, Column.cell, ho]

/-- C24 is false for every date, datetime and time column of 3 to 7 bytes: two rows with the same bytes
in the column give different numbers. -/
theorem C24_refuted (e : Endian) (format : List Byte) (c : Column) (hl : 3 ≤ c.length) (hl' : c.length ≤ 7)
    (hc : dateNumeric e format c) : ¬ ownBytes c := by
  have hfmt := dateNumeric_fmt (by omega) hc
  have hnum : ∀ mem, c.getNumber mem = (do return .bits (getDoubleBits e (← c.cell mem 8))) := by
    intro mem
    rcases hfmt with h | h | h <;> simp only [Column.getNumber, h]
  intro h
  have hx : ∀ b : Byte, c.getNumber (List.replicate c.offset 0 ++ List.replicate c.length 0 ++
        List.replicate (8 - c.length) b) =
      .ok (.bits (getVal e (List.replicate c.length 0 ++ List.replicate (8 - c.length) b))) := by
    intro b
    have := c.cell_middle (List.replicate c.offset 0)
      (List.replicate c.length 0 ++ List.replicate (8 - c.length) b) [] 8 (by simp)
      (by simp; omega)
    rw [List.append_nil, ← List.append_assoc] at this
    rw [hnum, this]; rfl
  have := h (List.replicate c.offset 0) (List.replicate c.length 0) (List.replicate (8 - c.length) 0)
    (List.replicate c.offset 0) (List.replicate (8 - c.length) 1) (by simp) (by simp) (by simp)
  rw [hx, hx] at this
  have h5 : c.length = 3 ∨ c.length = 4 ∨ c.length = 5 ∨ c.length = 6 ∨ c.length = 7 := by omega
  rcases h5 with h | h | h | h | h <;> rw [h] at this <;> revert this <;> cases e <;> decide

/-- C24. When nothing follows such a column, reading it is undefined behaviour. -/
theorem C24_overread (e : Endian) (format : List Byte) (c : Column) (hl : 3 ≤ c.length) (hl' : c.length ≤ 7)
    (hc : dateNumeric e format c) (before cell : List Byte) (ho : c.offset = before.length)
    (hcell : cell.length = c.length) : c.getNumber (before ++ cell) = .error .ub := by
  have hlen : ¬ (c.offset + 8 ≤ (before ++ cell).length) := by
    rw [List.length_append]; omega
  have hcell' : c.cell (before ++ cell) 8 = .error .ub := by
    rw [Column.cell, if_neg hlen]
  have h1 : c.length ≠ 1 := by omega
  have h2 : c.length ≠ 2 := by omega
  have hfmt := dateNumeric_fmt (by omega) hc
  rcases hfmt with h | h | h <;> simp only [Column.getNumber, h, hcell'] <;> rfl

example : dateNumeric .little (ascii "DATE") ⟨[], [], ascii "DATE", .date .little, 0, 4⟩ := by
  unfold dateNumeric; decide
example : dateNumeric .big (ascii "DATETIME") ⟨[], [], ascii "DATETIME", .datetime .big, 0, 8⟩ := by
  unfold dateNumeric; decide

/-! ## C37: every encoding byte has a name -/

/-- C37. Every encoding byte has a name: the assigned one, or WINDOWS-1252; it is never empty. -/
theorem C37_encoding (b : Byte) :
    getEncoding b = .ok ((encodingNames.lookup b.toNat).getD "WINDOWS-1252") ∧
    (encodingNames.lookup b.toNat).getD "WINDOWS-1252" ≠ "" := by
  have h : ∀ i : Fin 256, getEncoding (UInt8.ofNat i.val) =
        .ok ((encodingNames.lookup i.val).getD "WINDOWS-1252") ∧
      (encodingNames.lookup i.val).getD "WINDOWS-1252" ≠ "" := by decide +kernel
  have := h ⟨b.toNat, b.toNat_lt⟩
  simpa using this

example : getEncoding 20 = .ok "UTF-8" := by decide +kernel
example : getEncoding 255 = .ok "WINDOWS-1252" := by decide +kernel

/-! ## C39: splitting columns by type is a partition -/

theorem getColumns_eq (cs : List Column) (t : ColType) :
    getColumns cs t = cs.filter (fun c => decide (c.type = t)) := by
  induction cs with
  | nil => rfl
  | cons c cs ih => simp [getColumns, ih, List.filter_cons]

theorem count_filter' (cs : List Column) (p : Column → Bool) (a : Column) :
    (cs.filter p).count a = if p a then cs.count a else 0 := by
  induction cs with
  | nil => simp
  | cons c cs ih =>
    simp only [List.filter_cons]
    by_cases hca : c = a
    · subst hca
      cases hp : p c <;> simp_all
    · cases hp : p c <;> simp_all

/-- C39. Every list has exactly the columns of its type, in their original order; and together the six
lists are a permutation of the columns whose type is known. -/
theorem C39_partition (cs : List Column) :
    let g := Columns.ofColumns cs
    g.strings = cs.filter (fun c => decide (c.type = .string)) ∧
    g.numbers = cs.filter (fun c => decide (c.type = .number)) ∧
    g.integers = cs.filter (fun c => decide (c.type = .integer)) ∧
    g.datetimes = cs.filter (fun c => decide (c.type = .datetime)) ∧
    g.dates = cs.filter (fun c => decide (c.type = .date)) ∧
    g.times = cs.filter (fun c => decide (c.type = .time)) ∧
    (g.strings ++ g.numbers ++ g.integers ++ g.datetimes ++ g.dates ++ g.times).Perm
      (cs.filter (fun c => decide (c.type ≠ .unknown))) := by
  intro g
  refine ⟨getColumns_eq .., getColumns_eq .., getColumns_eq .., getColumns_eq .., getColumns_eq ..,
    getColumns_eq .., ?_⟩
  simp only [g, Columns.ofColumns, getColumns_eq]
  rw [List.perm_iff_count]
  intro a
  simp only [List.count_append, count_filter']
  generalize cs.count a = k
  cases h : a.type <;> simp

example : (Columns.ofColumns [⟨[1], [], [], .string, 0, 3⟩, ⟨[2], [], [], .smallInt, 3, 1⟩,
    ⟨[3], [], [], .none, 4, 9⟩, ⟨[4], [], [], .string, 13, 3⟩]).strings =
    [⟨[1], [], [], .string, 0, 3⟩, ⟨[4], [], [], .string, 13, 3⟩] := by decide

end Sas.Props
