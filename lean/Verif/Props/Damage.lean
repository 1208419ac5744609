import Verif.Proofs.Damage
import Verif.Model.Cell
import Verif.Demo

/-!
# Property C99: damage to rows stays where it is
-/

namespace Sas.Props

open Sas Spec

/-- **C99.** A file and a copy of it in which the content of data pages is damaged, whatever the build, the filter and the
compression. Either both are refused with the same error, or both are opened with the same properties. Then all histories
give the same results, exceptions included, and the sinks are called in the same way, except that rows of data pages are
read from the same place of the other file; no place is used twice, and the places are passed in their order. -/
theorem C99_damage {file file' : List Byte} (hd : Damaged file file') (cfg : Cfg) (fuel : Nat) (filter : Option Filter) :
    (∃ e, openReader cfg ifs fuel filter (IFStream.open file) = .error e ∧
      openReader cfg ifs fuel filter (IFStream.open file') = .error e) ∨
    ∃ R R', openReader cfg ifs fuel filter (IFStream.open file) = .ok R ∧
      openReader cfg ifs fuel filter (IFStream.open file') = .ok R' ∧ R'.props = R.props ∧
      ∀ ops, List.Forall₂ (SameRet file file' R.props.md.rowLength) (R.run ifs ops).1 (R'.run ifs ops).1 ∧
        (R'.run ifs ops).2.currentRowIndex = (R.run ifs ops).2.currentRowIndex ∧
        ∃ places, Twins file file' R.props.md.rowLength places (R.run ifs ops).2.trace (R'.run ifs ops).2.trace := by
  have h := Proofs.open_damaged hd cfg fuel filter
  generalize openReader cfg ifs fuel filter (IFStream.open file) = x at *
  rcases x with e | R
  · exact .inl ⟨e, rfl, h⟩
  · obtain ⟨R', h1, h2⟩ := h
    refine .inr ⟨R, R', rfl, h1, h2.props, fun ops => ?_⟩
    obtain ⟨g1, g2, ps, g3⟩ := Proofs.run_damaged hd ops h2
    refine ⟨g1, g3.rd.row, ps, ?_⟩
    have := g3.trace
    rwa [g2] at this

/-- Where a row is in its file. -/
def filePosition (start : List Byte) (n : Nat) (at_ : Place) : Nat :=
  announcedHeaderLength start + at_.1 * announcedPageLength start + rowStart (announcedFormat start) n at_.2

/-- A piece of a page is a piece of the file. -/
theorem page_slice {file page : List Byte} {k o m : Nat} (h : IsPage file k page) (hm : o + m ≤ announcedPageLength (file.take 288)) :
    slice page o m = slice file (announcedHeaderLength (file.take 288) + k * announcedPageLength (file.take 288) + o) m := by
  rw [h.2]
  unfold slice
  rw [List.drop_take, List.take_take, List.drop_drop, Nat.min_eq_left (by omega)]

theorem page_memory {file page rest : List Byte} {k o m : Nat} (h : IsPage file k page)
    (hm : o + m ≤ announcedPageLength (file.take 288)) :
    slice (page ++ rest) o m = slice file (announcedHeaderLength (file.take 288) + k * announcedPageLength (file.take 288) + o) m := by
  rw [← page_slice h hm]
  unfold slice
  rw [← Proofs.IsPage.long h] at hm
  rw [List.drop_append_of_le_length (by omega), List.take_append_of_le_length (by rw [List.length_drop]; omega)]

theorem slice_of_drop {l : List Byte} {a o m : Nat} : slice (l.drop a) o m = slice l (a + o) m := by
  unfold slice
  rw [List.drop_drop]

/-- Two rows from the same place: the memory from the row on, up to the end of the page, is that of the two files. -/
theorem rowsAt_slice {file file' : List Byte} (hd : Damaged file file') {n : Nat} {at_ : Place} {r r' : Row}
    (h : RowsAt file file' n at_ r r') {o m : Nat}
    (hin : rowStart (announcedFormat (file.take 288)) n at_.2 + (o + m) ≤ announcedPageLength (file.take 288)) :
    slice r.mem o m = slice file (filePosition (file.take 288) n at_ + o) m ∧
    slice r'.mem o m = slice file' (filePosition (file.take 288) n at_ + o) m ∧ r'.mem.length = r.mem.length := by
  obtain ⟨-, page, page', rest, h1, h2, -, -, h3, h4⟩ := h
  have hst := Proofs.Damaged.start hd
  have hlt : announcedPageLength (file.take 288) < 2 ^ 32 := announcedNumber_lt _ _
  rw [Nat.mod_eq_of_lt (by omega)] at h3 h4
  have l1 := Proofs.IsPage.long h1
  have l2 := Proofs.IsPage.long h2
  rw [hst] at l2
  unfold filePosition
  refine ⟨?_, ?_, ?_⟩
  · rw [h3, slice_of_drop, page_memory h1 (by omega), Nat.add_assoc _ _ o]
  · rw [h4, slice_of_drop, page_memory h2 (by rw [hst]; omega), hst, Nat.add_assoc _ _ o]
  · rw [h3, h4, List.length_drop, List.length_drop, List.length_append, List.length_append, l1, l2]

/-- C99. The bytes of a row that is inside its page are those of the file at the place of the row, in both files. -/
theorem C99_bytes {file file' : List Byte} (hd : Damaged file file') {n : Nat} {at_ : Place} {r r' : Row}
    (h : RowsAt file file' n at_ r r')
    (hin : rowStart (announcedFormat (file.take 288)) n at_.2 + n ≤ announcedPageLength (file.take 288)) :
    r.bytes = (file.drop (filePosition (file.take 288) n at_)).take n ∧
    r'.bytes = (file'.drop (filePosition (file.take 288) n at_)).take n := by
  obtain ⟨h1, h2, -⟩ := rowsAt_slice hd h (o := 0) (m := n) (by omega)
  unfold Row.bytes
  rw [h.lengths.1, h.lengths.2]
  exact ⟨h1, h2⟩

/-- The number of bytes of a row that the value of a column depends on. -/
def looksAt (c : Column) : Nat :=
  match c.type with
  | .string => c.length
  | .integer => c.length
  | .number => c.length
  | .datetime => 8
  | .date => 8
  | .time => 8
  | .unknown => 0

theorem formatter_cases (e : Endian) (num : Bool) (format : List Byte) (l : Nat) :
    chooseFormatter e num format l = .none ∨ chooseFormatter e num format l = .string ∨
    (chooseFormatter e num format l = .smallInt ∧ l = 1) ∨ (chooseFormatter e num format l = .int16 e ∧ l = 2) ∨
    (chooseFormatter e num format l = .double e ∧ l = 8) ∨ chooseFormatter e num format l = .incomplete e l ∨
    chooseFormatter e num format l = .datetime e ∨ chooseFormatter e num format l = .date e ∨
    chooseFormatter e num format l = .time e := by
  unfold chooseFormatter
  generalize matchColumnFormat datetimeFormats format = x
  generalize matchColumnFormat dateFormats format = y
  generalize matchColumnFormat timeFormats format = z
  cases num
  · exact .inr (.inl rfl)
  by_cases h1 : l = 1
  · subst h1; simp
  by_cases h2 : l = 2
  · subst h2; simp
  cases x
  case true => simp [h1, h2]
  cases y
  case true => simp [h1, h2]
  cases z
  case true => simp [h1, h2]
  by_cases h8 : l = 8
  · subst h8; simp
  by_cases h3 : l = 3
  · subst h3; simp
  by_cases h4 : l = 4
  · subst h4; simp
  by_cases h5 : l = 5
  · subst h5; simp
  by_cases h6 : l = 6
  · subst h6; simp
  by_cases h7 : l = 7
  · subst h7; simp
  simp [h1, h2, h3, h4, h5, h6, h7, h8]

/-- C99. The value of a cell whose bytes are the same in both files is the same. -/
theorem C99_cell {file file' : List Byte} (hd : Damaged file file') {n : Nat} {at_ : Place} {r r' : Row}
    (h : RowsAt file file' n at_ r r') (e : Endian) (num : Bool) (format : List Byte) (c : Column)
    (hc : c.fmt = chooseFormatter e num format c.length)
    (hin : rowStart (announcedFormat (file.take 288)) n at_.2 + (c.offset + looksAt c) ≤ announcedPageLength (file.take 288))
    (hsame : (file'.drop (filePosition (file.take 288) n at_ + c.offset)).take (looksAt c) =
      (file.drop (filePosition (file.take 288) n at_ + c.offset)).take (looksAt c)) :
    c.value r'.mem = c.value r.mem := by
  obtain ⟨h1, h2, h3⟩ := rowsAt_slice hd h hin
  have hcell : c.cell r'.mem (looksAt c) = c.cell r.mem (looksAt c) := by
    unfold Column.cell
    rw [h3, h1, h2]
    unfold slice
    rw [hsame]
  have hf := formatter_cases e num format c.length
  rw [← hc] at hf
  unfold looksAt Column.type at hcell
  unfold Column.value Column.type
  rcases hf with h | h | ⟨h, hl⟩ | ⟨h, hl⟩ | ⟨h, hl⟩ | h | h | h | h <;>
    simp only [h, Formatter.type] at hcell ⊢ <;>
    (try rw [hl] at hcell) <;>
    simp only [Column.getString, Column.getInteger, Column.getNumber, Column.getDatetime, Column.getDate, Column.getTime, Column.getDouble, h, hcell]

/-- The rows that data pages announce are inside their pages, and each of them announces one. -/
def RowsFit (file : List Byte) (n : Nat) : Prop :=
  ∀ k page, IsPage file k page →
    pageType (announcedOrder (file.take 288)) (announcedFormat (file.take 288)) page = 256 →
    0 < pageBlocks (announcedOrder (file.take 288)) (announcedFormat (file.take 288)) page ∧
    rowStart (announcedFormat (file.take 288)) n
      (pageBlocks (announcedOrder (file.take 288)) (announcedFormat (file.take 288)) page) ≤ announcedPageLength (file.take 288)

theorem rowsAt_fits {file file' : List Byte} {n : Nat} {at_ : Place} {r r' : Row} (h : RowsAt file file' n at_ r r')
    (hf : RowsFit file n) :
    rowStart (announcedFormat (file.take 288)) n at_.2 + n ≤ announcedPageLength (file.take 288) := by
  obtain ⟨-, page, page', rest, h1, -, h3, h4, -⟩ := h
  obtain ⟨g1, g2⟩ := hf _ _ h1 h3
  have := Nat.mul_le_mul_left n (h4 g1)
  rw [Nat.mul_succ] at this
  unfold rowStart at g2 ⊢
  omega

theorem slice_agree {l l' : List Byte} {o m : Nat} (h : ∀ j, o ≤ j → j < o + m → l'[j]? = l[j]?) :
    (l'.drop o).take m = (l.drop o).take m := by
  apply List.ext_getElem?
  intro i
  rw [List.getElem?_take, List.getElem?_take]
  split
  · rw [List.getElem?_drop, List.getElem?_drop]
    exact h _ (by omega) (by omega)
  · rfl

/-- C99. When all differences between the two files are inside one row, at most one call of the sink differs. -/
theorem C99_one_row {file file' : List Byte} (hd : Damaged file file') {n : Nat} (hf : RowsFit file n)
    {bad : Place} (hfit : rowStart (announcedFormat (file.take 288)) n bad.2 + n ≤ announcedPageLength (file.take 288))
    (hbad : ∀ j, j < filePosition (file.take 288) n bad ∨ filePosition (file.take 288) n bad + n ≤ j → file'[j]? = file[j]?)
    {places : List Place} {t t' : List Event} (h : Twins file file' n places t t') :
    t'.length = t.length ∧ ∃ m : Nat, ∀ j : Nat, j ≠ m → (t'.map Seen)[j]? = (t.map Seen)[j]? := by
  have key : t'.length = t.length ∧ (bad ∉ places → t'.map Seen = t.map Seen) ∧
      ∃ m : Nat, ∀ j : Nat, j ≠ m → (t'.map Seen)[j]? = (t.map Seen)[j]? := by
    induction h with
    | nil => exact ⟨rfl, fun _ => rfl, 0, fun _ _ => rfl⟩
    | @same e ps t t' h ih =>
      obtain ⟨h1, h2, m, h3⟩ := ih
      refine ⟨by simp [h1], fun hb => by simp [h2 hb], m, fun j hj => ?_⟩
      have := h3 j hj
      rw [List.map_append, List.map_append, List.getElem?_append, List.getElem?_append, List.length_map, List.length_map, h1, this]
    | @row i at_ r r' ps t t' h hb hr ih =>
      obtain ⟨h1, h2, m, h3⟩ := ih
      have hins := rowsAt_fits hr hf
      by_cases hc : bad = at_
      · subst hc
        have hnot : bad ∉ ps := by
          intro hm
          rcases hb _ hm with h | ⟨-, h⟩ <;> omega
        refine ⟨by simp [h1], fun h => absurd (by simp) h, t.length, fun j hj => ?_⟩
        rw [List.map_append, List.map_append, h2 hnot, List.getElem?_append, List.getElem?_append, List.length_map]
        split
        · rfl
        · rw [List.getElem?_eq_none (by simp; omega), List.getElem?_eq_none (by simp; omega)]
      · have hsame : r'.bytes = r.bytes := by
          obtain ⟨b1, b2⟩ := C99_bytes hd hr hins
          rw [b1, b2]
          refine slice_agree fun j hj1 hj2 => hbad j ?_
          unfold filePosition at hj1 hj2 ⊢
          by_cases hk : at_.1 = bad.1
          · have hi : at_.2 ≠ bad.2 := fun hi => hc (Prod.ext hk.symm hi.symm)
            rw [hk] at hj1 hj2
            unfold rowStart at *
            rcases Nat.lt_or_gt_of_ne hi with hi | hi
            · have := Nat.mul_le_mul_left n hi
              rw [Nat.mul_succ] at this
              omega
            · have := Nat.mul_le_mul_left n hi
              rw [Nat.mul_succ] at this
              omega
          · rcases Nat.lt_or_gt_of_ne hk with hk | hk
            · have := Nat.mul_le_mul_right (announcedPageLength (file.take 288)) hk
              rw [Nat.succ_mul] at this
              omega
            · have := Nat.mul_le_mul_right (announcedPageLength (file.take 288)) hk
              rw [Nat.succ_mul] at this
              omega
        have hs : Seen (.pushRow i r') = Seen (.pushRow i r) := by
          show Event.pushRow i ⟨r'.bytes, r'.len⟩ = Event.pushRow i ⟨r.bytes, r.len⟩
          rw [hsame, hr.lengths.1, hr.lengths.2]
        refine ⟨by simp [h1], fun hb => ?_, m, fun j hj => ?_⟩
        · simp only [List.mem_append, List.mem_singleton, not_or] at hb
          rw [List.map_append, List.map_append, h2 hb.1, List.map_singleton, List.map_singleton, hs]
        · rw [List.map_append, List.map_append, List.getElem?_append, List.getElem?_append, List.length_map, List.length_map, h1,
            h3 j hj, List.map_singleton, List.map_singleton, hs]
  exact ⟨key.1, key.2.2⟩

/-! A demonstration: the demo file with one letter of a name changed. -/

/-- The demo file with "bab" in place of "bob". -/
def scratched : List Byte :=
  Demo.header 900 4 ++ Demo.metaPage 0 14 3 0 (ascii "        ") [] [] ++
  Demo.page 900 256 2 [] [(24, Demo.row 0 "ann   " ++ Demo.row 1 "bab   ")] ++
  Demo.page 900 16384 0 [] [] ++
  Demo.page 900 256 1 [] [(24, Demo.row 2 "cy    ")]

theorem demo_pages {k : Nat} {page : List Byte} {file : List Byte} (h : IsPage file k page) (hl : file.length = 3888)
    (h1 : announcedHeaderLength (file.take 288) = 288) (h2 : announcedPageLength (file.take 288) = 900) :
    k < 4 ∧ page = (file.drop (288 + k * 900)).take 900 := by
  obtain ⟨h, hp⟩ := h
  rw [h1, h2] at h hp
  exact ⟨by omega, hp⟩

example : Demo.file.length = 3888 := by decide +kernel

theorem scratched_damaged : Damaged Demo.file scratched where
  length := by decide +kernel
  header := by decide +kernel
  pages k page page' h h' := by
    obtain ⟨g1, g2⟩ := demo_pages h (by decide +kernel) (by decide +kernel) (by decide +kernel)
    obtain ⟨-, g3⟩ := demo_pages h' (by decide +kernel) (by decide +kernel) (by decide +kernel)
    subst g2 g3
    clear h h'
    have h : k = 0 ∨ k = 1 ∨ k = 2 ∨ k = 3 := by omega
    rcases h with rfl | rfl | rfl | rfl <;> decide +kernel

theorem demo_fits : RowsFit Demo.file 14 := by
  intro k page h
  obtain ⟨g1, g2⟩ := demo_pages h (by decide +kernel) (by decide +kernel) (by decide +kernel)
  subst g2
  clear h
  have h : k = 0 ∨ k = 1 ∨ k = 2 ∨ k = 3 := by omega
  rcases h with rfl | rfl | rfl | rfl <;> decide +kernel

/-- The damaged row is the second one of page 1, and one byte of it differs. -/
example : filePosition (Demo.file.take 288) 14 (1, 1) = 1226 ∧
    (∀ j, j < 1226 ∨ 1226 + 14 ≤ j → scratched[j]? = Demo.file[j]?) ∧ scratched[1235]? ≠ Demo.file[1235]? := by
  refine ⟨by decide +kernel, fun j hj => ?_, by decide +kernel⟩
  have h1 : scratched.take 1226 = Demo.file.take 1226 := by decide +kernel
  have h2 : scratched.drop 1240 = Demo.file.drop 1240 := by decide +kernel
  rcases hj with hj | hj
  · have := congrArg (fun l => l[j]?) h1
    rwa [List.getElem?_take_of_lt hj, List.getElem?_take_of_lt hj] at this
  · have := congrArg (fun l => l[j - 1240]?) h2
    simp only [List.getElem?_drop] at this
    rwa [show 1240 + (j - 1240) = j by omega] at this

/-- Both files are opened, and the rows differ in one place. -/
example : (Demo.pushed (Demo.reader.run ifs [.readAll]).2, Demo.pushed
      ((Demo.get (openReader Demo.cfg ifs 10 none (IFStream.open scratched))).run ifs [.readAll]).2) =
    ([(0, Demo.row 0 "ann   "), (1, Demo.row 1 "bob   "), (2, Demo.row 2 "cy    ")],
     [(0, Demo.row 0 "ann   "), (1, Demo.row 1 "bab   "), (2, Demo.row 2 "cy    ")]) := by decide +kernel

/-- The hypotheses of `C99_bytes`, `C99_cell` and `C99_one_row` are met by the trace of the demo file. -/
example : ∃ R R' places, openReader Demo.cfg ifs 10 none (IFStream.open Demo.file) = .ok R ∧
    openReader Demo.cfg ifs 10 none (IFStream.open scratched) = .ok R' ∧ R.props.md.rowLength = 14 ∧
    Twins Demo.file scratched 14 places (R.run ifs [.readAll]).2.trace (R'.run ifs [.readAll]).2.trace := by
  rcases C99_damage scratched_damaged Demo.cfg 10 none with ⟨e, h, -⟩ | ⟨R, R', h1, h2, h3, h4⟩
  · exact absurd (Demo.opened_ok.symm.trans h) (fun h => by cases h)
  · obtain ⟨-, -, places, h5⟩ := h4 [.readAll]
    have hR : R = Demo.reader := by
      have := h1.symm.trans Demo.opened_ok
      injection this
    have hl : R.props.md.rowLength = 14 := by rw [hR]; decide +kernel
    rw [hl] at h5
    exact ⟨R, R', places, h1, h2, hl, h5⟩

end Sas.Props
