import Verif.Proofs.WriterRead
import Verif.Proofs.WriterPack
import Verif.Props.Cells
import Verif.Props.Rows

/-!
# Properties C43 and C61: a written data set is read back
-/

namespace Sas.Props

open Sas Sas.Spec

/-- The machine can hold the data set, and a debug build can log the dates of its header. -/
structure Machine (cfg : Cfg) (h : FileHeader) (d : DataSet) : Prop where
  header : h.headerLength ≤ cfg.maxAlloc
  page : h.pageLength ≤ cfg.maxAlloc
  row : d.rowLength ≤ cfg.maxAlloc
  columns : d.columns.length ≤ cfg.maxCols
  loggable : Loggable cfg h

/-- The reader `R` has been opened on a file with the data set `d`: it reports the header, the sizes and the
columns of the data set, and reading everything pushes its rows, in order, and then ends. From each pushed row,
each column returns the value the row holds. -/
structure ReadsBack (h : FileHeader) (d : DataSet) (R : Reader IFStream) : Prop where
  header : ReportedAs h R.props.header
  rowLength : R.props.md.rowLength = d.rowLength
  rowCount : R.props.md.rowCount = d.rows.length
  columnCount : R.props.md.columnCount = d.columns.length
  count : R.props.columns.length = d.columns.length
  columns : ∀ (i : Nat) (col : Column) (c : ColumnDesc), R.props.columns[i]? = some col → d.columns[i]? = some c →
    Reports col c
  result : (R.step ifs .readAll).1 = .ok .unit
  rows : ∃ rws : List Row, rws.map Row.bytes = d.rows ∧
    (R.step ifs .readAll).2.trace = .setProperties R.props :: pushEvents 0 rws ++ [.endOfData] ∧
    ∀ (j : Nat) (pushed : Row) (row : List Byte) (vs : List Value), rws[j]? = some pushed → d.rows[j]? = some row →
      RowHolds h.endian d.columns row vs → ∀ (i : Nat) (col : Column) (v : Value), R.props.columns[i]? = some col →
        vs[i]? = some v → Gives col pushed.mem v

theorem pageLength_pos {l : Layout} {d : DataSet} (hl : l.For d) : 0 < l.header.pageLength := by
  have hne : l.metaPages ≠ [] := by
    intro h
    have := hl.subs
    rw [h] at this
    cases this
  obtain ⟨p, ps, hp⟩ := List.exists_cons_of_ne_nil hne
  have := (hl.metaFits p (by rw [hp]; simp)).2
  have h1 := rowsStart_ge (f := l.header.fmt) (items := p.map (subItem l.header.endian l.header.fmt))
  unfold pageUsed at this
  omega

theorem plain_rowsOk {l : Layout} {d : DataSet} (hl : l.For d) (hr : l.Plain d) : ∀ p ∈ l.rowPages, RowsOk l d p := by
  intro p hp
  obtain ⟨h1, h2, h3⟩ := hr.rowsFit p hp
  have hL : l.header.pageLength < 2 ^ 32 := hl.header.sizes.2.2.2.1
  have hk : ∀ x ∈ p, x.length = (sizeOf l d).rowLength := fun x hx => by
    refine hr.rowLength x ?_
    rw [← hr.rows]
    exact List.mem_append_right _ (List.mem_flatten.mpr ⟨p, hp, hx⟩)
  have hc := hr.compression
  constructor
  · rw [hc]; exact plain_rowPage hL h2 h3 hk
  · rw [hc]; exact plain_stored h3 hk
  · exact h1
  · rw [hc]; exact writePage_length h3

theorem packed_ne {c : Compression} {n : Nat} {raw row : List Byte} (h : Packed c n raw row) (hn : 0 < n) :
    raw ≠ [] := by
  intro h0
  cases h with
  | plain _ h => subst h0; simp at h; omega
  | rle cs hc hv hs hfit hlast =>
    cases cs with
    | nil => simp [rleExpand] at hfit; omega
    | cons cmd cs =>
      have hcmd := hv cmd (by simp)
      simp only [rleEncode, List.flatMap_cons, List.append_eq_nil_iff] at h0
      cases cmd <;> simp [RleCmd.encode] at h0
  | rdc gs last out hc hwf hs ho hfit hlast =>
    simp only [rdcEncode] at h0
    rw [List.append_eq_nil_iff] at h0
    have := h0.2
    simp [rdcEncodeGroup] at this

theorem packed_raws {l : Layout} {d : DataSet} (hl : l.For d) (hr : l.Compressed d) :
    ∀ p ∈ l.rowPages, ∀ raw ∈ p, raw ≠ [] := by
  intro p hp raw hraw
  have hmem : raw ∈ l.rowPages.flatten := List.mem_flatten.mpr ⟨p, hp, hraw⟩
  obtain ⟨i, hi⟩ := List.mem_iff_getElem?.mp hmem
  have hlt := (List.getElem?_eq_some_iff.mp hi).1
  have hcount := hl.count
  rw [hr.mix, List.nil_append] at hcount
  exact packed_ne (hr.rows i raw d.rows[i] hi (List.getElem?_eq_getElem (by omega))) hr.rowLength

theorem packed_rowsOk {l : Layout} {d : DataSet} (hl : l.For d) (hr : l.Compressed d) :
    ∀ p ∈ l.rowPages, RowsOk l d p := by
  intro p hp
  obtain ⟨h1, h2, h3⟩ := hr.rowsFit p hp
  have hL : l.header.pageLength < 2 ^ 32 := hl.header.sizes.2.2.2.1
  have hne := packed_raws hl hr p hp
  have hc := hr.compression
  have hd : decide (l.compression ≠ .none) = true := decide_eq_true hc
  constructor
  · rw [hd]; exact packed_rowPage hc hne hL h2 (by omega)
  · rw [hd]; exact packed_stored hc hne (by omega)
  · exact h1
  · rw [writeRows_packed hc]; exact writePage_length (by omega)

/-- The pages of a written file, whatever its form; only compressed rows have pointers. -/
theorem pages_pointers {l : Layout} {d : DataSet} (hl : l.For d) (hr : l.Plain d ∨ l.Compressed d) :
    ∃ ps k tail n, Pages l d ps k tail n ∧ ps.length ≤ l.metaPages.length ∧ tail.length ≤ l.rowPages.length ∧
      (n ≠ 0 → l.compression ≠ .none) := by
  have hL : l.header.pageLength < 2 ^ 32 := hl.header.sizes.2.2.2.1
  by_cases hm : l.mix = []
  · cases hps : l.rowPages with
    | nil => exact ⟨_, _, _, _, pages_empty hl hm hps, Nat.le_refl _, Nat.le_refl _, fun h => absurd rfl h⟩
    | cons p ps =>
      have hp : p ∈ l.rowPages := by rw [hps]; simp
      refine ⟨_, _, ps, _, pages_rows hl hm hps ?_ ?_ ?_, Nat.le_refl _, by simp, fun h hc => h (if_pos hc)⟩
      · rcases hr with hr | hr
        · exact plain_rowsOk hl hr p hp
        · exact packed_rowsOk hl hr p hp
      · rcases hr with hr | hr
        · obtain ⟨h1, h2, h3⟩ := hr.rowsFit p hp
          rw [hr.compression]
          exact plain_is hL h2 h3
        · obtain ⟨h1, h2, h3⟩ := hr.rowsFit p hp
          exact packed_is hr.compression (packed_raws hl hr p hp) hL h2 h3 (hr.first p (by rw [hps]; rfl))
      · intro hc
        rcases hr with hr | hr
        · exact absurd hr.compression hc
        · exact packed_used hc (packed_raws hl hr p hp)
  · rcases hr with hr | hr
    · rcases List.eq_nil_or_concat l.metaPages with h0 | ⟨ps, last, hps⟩
      · have := hl.subs
        rw [h0] at this
        cases this
      · rw [List.concat_eq_append] at hps
        refine ⟨ps, _, _, _, pages_mix hl hm (fun r hr' => hr.rowLength r ?_) hps, by rw [hps]; simp, Nat.le_refl _,
          fun h => absurd rfl h⟩
        rw [← hr.rows]
        exact List.mem_append_left _ hr'
    · exact absurd hr.mix hm

/-- The pages of a written file, whatever its form. -/
theorem pages_written {l : Layout} {d : DataSet} (hl : l.For d) (hr : l.Plain d ∨ l.Compressed d) :
    ∃ ps k tail n, Pages l d ps k tail n ∧ ps.length ≤ l.metaPages.length ∧ tail.length ≤ l.rowPages.length := by
  obtain ⟨ps, k, tail, n, h1, h2, h3, -⟩ := pages_pointers hl hr
  exact ⟨ps, k, tail, n, h1, h2, h3⟩

theorem readsBack {cfg : Cfg} {l : Layout} {d : DataSet} {fuel : Nat} (hl : l.For d) (hr : l.Plain d ∨ l.Compressed d)
    (hm : Machine cfg l.header d) (hf : l.metaPages.length + l.rowPages.length < fuel) :
    ∃ R, openReader cfg ifs fuel none (IFStream.open (l.write d)) = .ok R ∧ ReadsBack l.header d R := by
  obtain ⟨ps, k, tail, n, hp, hps, htail⟩ := pages_written hl hr
  have hok : ∀ p ∈ l.rowPages, RowsOk l d p := by
    rcases hr with hr | hr
    · exact plain_rowsOk hl hr
    · exact packed_rowsOk hl hr
  have hw := written_wellFormed hl hp hok (cfg := cfg) (fuel := fuel) ⟨hm.header, hm.page, hm.row⟩ hm.loggable
    (by omega) hps (pageLength_pos hl)
  have hrf := written_rowFile hl hp hok
  have hrows := written_rows hl hp hok
  obtain ⟨R, hR, h1, h2, h3, h4⟩ := columns_described cfg ifs _ _ _ _ _ _ _ _ fuel d.columns hw (describes_all hl n) hm.columns
  obtain ⟨s1, s2, _⟩ := C60_sizes cfg ifs _ _ _ _ _ _ _ _ fuel none hw R hR
  rw [rowSize_all] at s1 s2
  have hcount := hl.count
  have key : (R.step ifs .readAll).1 = .ok .unit ∧ ∃ rws : List Row, rws.map Row.bytes = d.rows ∧
      (R.step ifs .readAll).2.trace = .setProperties R.props :: pushEvents 0 rws ++ [.endOfData] := by
    refine C01_compressed_partial cfg ifs _ _ _ _ _ _ _ _ fuel none hw hrf
      (by rw [rowTail, List.length_map]; omega) (.inl rfl) d.rows ?_ ?_ R hR
    · rw [hrows, rowSize_all, List.take_of_length_le (by rw [hcount]; exact Nat.le_refl _)]
      exact hcount
    · rw [hrows, rowSize_all, List.take_of_length_le (by rw [hcount]; exact Nat.le_refl _)]
      rcases hr with hr | hr
      · intro i raw row g1 g2
        rw [hr.rows, g2, Option.some.injEq] at g1
        subst g1
        exact .plain _ (hr.rowLength _ (List.mem_of_getElem? g2))
      · rw [hr.mix, List.nil_append]
        exact hr.rows
  obtain ⟨k1, rws, k2, k3⟩ := key
  refine ⟨R, hR, h1, s1, s2, h2, h3, fun i col c g1 g2 => (h4 i col c g1 g2).1, k1, rws, k2, k3, ?_⟩
  intro j pushed row vs g1 g2 hh i col v g3 g4
  have hi : i < d.columns.length := by rw [← hh.count]; exact (List.getElem?_eq_some_iff.mp g4).1
  have g5 : d.columns[i]? = some d.columns[i] := List.getElem?_eq_getElem hi
  obtain ⟨before, cell, after, e1, e2, e3, e4⟩ := hh.cells i _ v g5 g4
  obtain ⟨r1, r2⟩ := h4 i col _ g3 g5
  have hrow : pushed.bytes = row := by
    have := congrArg (·[j]?) k2
    simp only [List.getElem?_map, g1, g2, Option.map_some, Option.some.injEq] at this
    exact this
  have hmem : pushed.mem = before ++ cell ++ (after ++ pushed.mem.drop pushed.len) := by
    rw [← List.append_assoc, ← e1, ← hrow]
    exact (List.take_append_drop _ _).symm
  rw [hmem]
  exact cell_gives r2 r1.length (by rw [r1.offset, e2]) e4 e3

/-- C43. A data set that has been written uncompressed, in either byte order and word size, with any page length
and any distribution of the columns, subheaders and rows over groups and pages that fits, is read back: header,
columns and rows. -/
theorem C43_uncompressed (cfg : Cfg) (l : Layout) (d : DataSet) (fuel : Nat) (hl : l.For d) (hr : l.Plain d)
    (hm : Machine cfg l.header d) (hf : l.metaPages.length + l.rowPages.length < fuel) :
    ∃ R, openReader cfg ifs fuel none (IFStream.open (l.write d)) = .ok R ∧ ReadsBack l.header d R :=
  readsBack hl (.inl hr) hm hf

/-- C61 for compressed files whose rows are stored in one of the forms that are decompressed correctly
(`Packed`; others are not: C16, C17) and do not look like subheaders on the first page with rows. -/
theorem C61_layouts_partial (cfg : Cfg) (l : Layout) (d : DataSet) (fuel : Nat) (hl : l.For d) (hr : l.Compressed d)
    (hm : Machine cfg l.header d) (hf : l.metaPages.length + l.rowPages.length < fuel) :
    ∃ R, openReader cfg ifs fuel none (IFStream.open (l.write d)) = .ok R ∧ ReadsBack l.header d R :=
  readsBack hl (.inr hr) hm hf

theorem groupsSubs_length (e : Endian) : ∀ (gs : List (List ColumnDesc)) (t : Nat),
    (groupsSubs e t gs).length = 3 * gs.length + gs.flatten.length := by
  have hr : ∀ (g : List ColumnDesc) (t o : Nat), (refsFrom t o g).length = g.length := by
    intro g
    induction g with
    | nil => intros; rfl
    | cons d g ih => intro t o; simp [refsFrom, ih]
  intro gs
  induction gs with
  | nil => intros; rfl
  | cons g gs ih =>
    intro t
    simp only [groupsSubs, List.length_append, ih, groupSubs, List.length_map, hr, List.length_cons, List.length_nil,
      List.flatten_cons]
    omega

/-- C43. Every data set whose header, columns and rows can be written and fit on pages one by one can be stored
in a file that is read back: header, columns, rows and values. -/
theorem C43_every (cfg : Cfg) (h : FileHeader) (d : DataSet) (fuel : Nat) (hd : d.Fits h) (hm : Machine cfg h d)
    (hf : 3 + 4 * d.columns.length + d.rows.length < fuel) :
    ∃ R, openReader cfg ifs fuel none (IFStream.open ((Layout.packed h d).write d)) = .ok R ∧ ReadsBack h d R := by
  obtain ⟨h1, h2⟩ := packed_for hd
  refine readsBack h1 (.inl h2) hm ?_
  have g1 : (Layout.packed h d).metaPages.length ≤ (describe (Layout.packed h d) d).length := pack_length _ _
  have g2 : (Layout.packed h d).rowPages.length ≤ d.rows.length := pack_length _ _
  have g3 : (Layout.packed h d).groups.length ≤ d.columns.length := pack_length _ _
  have g4 : (describe (Layout.packed h d) d).length =
      3 + (3 * (Layout.packed h d).groups.length + (Layout.packed h d).groups.flatten.length) := by
    rw [describe, List.length_append, groupsSubs_length]
    rfl
  have g5 : (Layout.packed h d).groups.flatten.length = d.columns.length := by rw [h1.columns]
  omega

/-- C61. Every data set that can be written and fits can be stored RLE compressed in a file that is read back, if
no stored row looks like a subheader (which may be mistaken for one: C46) and the rows are not empty. -/
theorem C61_every_partial (cfg : Cfg) (h : FileHeader) (d : DataSet) (fuel : Nat) (hd : d.Fits h) (hm : Machine cfg h d)
    (h0 : 0 < d.rowLength) (hroom : 80 + d.rowLength ≤ h.pageLength)
    (hs : ∀ row ∈ d.rows, ¬ LooksLikeSubheader h.fmt (rleStore row))
    (hf : 3 + 4 * d.columns.length + d.rows.length < fuel) :
    ∃ R, openReader cfg ifs fuel none (IFStream.open ((Layout.rle h d).write d)) = .ok R ∧ ReadsBack h d R := by
  obtain ⟨h1, h2⟩ := rle_for hd h0 hroom hs
  refine readsBack h1 (.inr h2) hm ?_
  have g1 : (Layout.rle h d).metaPages.length ≤ (describe (Layout.rle h d) d).length := pack_length _ _
  have g2 : (Layout.rle h d).rowPages.length ≤ (d.rows.map rleStore).length := pack_length _ _
  have g3 : (Layout.rle h d).groups.length ≤ d.columns.length := pack_length _ _
  have g4 : (describe (Layout.rle h d) d).length =
      3 + (3 * (Layout.rle h d).groups.length + (Layout.rle h d).groups.flatten.length) := by
    rw [describe, List.length_append, groupsSubs_length]
    rfl
  have g5 : (Layout.rle h d).groups.flatten.length = d.columns.length := by rw [h1.columns]
  rw [List.length_map] at g2
  omega

/-! ## A data set -/

/-- A 64-bit big-endian file, padded, without time stamps (a stored time stamp may be missing). -/
def demoBig : FileHeader where
  wide := true
  padded := true
  endian := .big
  platform := .unix
  encoding := 20
  datasetName := ascii "PEOPLE"
  fileType := ascii "DATA"
  created := 0x7ff8000000000000
  modified := 0x7ff8000000000000
  headerLength := 1024
  pageLength := 1024
  pageCount := 3
  sasRelease := ascii "9.0401M3"
  serverType := ascii "X64_ES08R2"
  osType := []
  osName := []

/-- A number, a text, a small integer, a date. -/
def people : DataSet where
  columns := [⟨ascii "weight", ascii "kg", [], 0, 8, true⟩, ⟨ascii "name", [], ascii "$", 8, 6, false⟩,
    ⟨ascii "age", [], [], 14, 2, true⟩, ⟨ascii "born", ascii "date of birth", ascii "DATE", 16, 8, true⟩]
  rowLength := 24
  rows := [encode .big 8 0x4050000000000000 ++ ascii "ann   " ++ [0, 42] ++ encode .big 8 0x40c7700000000000,
    encode .big 8 0xfff0000000000000 ++ ascii "bob\x00  " ++ [255, 255] ++ encode .big 8 0x7ff8000000000000,
    encode .big 8 0x4050000000000000 ++ ascii "      " ++ [0, 7] ++ encode .big 8 0xc0c7700000000000]

theorem demoBig_writable : demoBig.Writable where
  long := by decide
  datasetName := ⟨by decide, show ∀ b ∈ demoBig.datasetName.head?, _ by decide,
    show ∀ b ∈ demoBig.datasetName.getLast?, _ by decide +kernel⟩
  fileType := ⟨by decide, show ∀ b ∈ demoBig.fileType.head?, _ by decide +kernel,
    show ∀ b ∈ demoBig.fileType.getLast?, _ by decide +kernel⟩
  sasRelease := ⟨by decide, show ∀ b ∈ demoBig.sasRelease.head?, _ by decide +kernel,
    show ∀ b ∈ demoBig.sasRelease.getLast?, _ by decide +kernel⟩
  serverType := ⟨by decide, show ∀ b ∈ demoBig.serverType.head?, _ by decide +kernel,
    show ∀ b ∈ demoBig.serverType.getLast?, _ by decide +kernel⟩
  osType := ⟨by decide, show ∀ b ∈ demoBig.osType.head?, _ by decide +kernel,
    show ∀ b ∈ demoBig.osType.getLast?, _ by decide +kernel⟩
  osName := ⟨by decide, show ∀ b ∈ demoBig.osName.head?, _ by decide +kernel,
    show ∀ b ∈ demoBig.osName.getLast?, _ by decide +kernel⟩
  stamps := ⟨.inl ⟨0, 2 ^ 51, by decide, by decide, by decide, by decide⟩,
    .inl ⟨0, 2 ^ 51, by decide, by decide, by decide, by decide⟩⟩
  sizes := by decide

theorem people_columns : ∀ c ∈ people.columns, c.Writable .bit64 := by
  have h : ∀ c ∈ people.columns, ((∀ b ∈ c.name.head?, printable b ∧ ¬ white b) ∧
      (∀ b ∈ c.name.getLast?, printable b ∧ ¬ white b)) ∧ ((∀ b ∈ c.format.head?, printable b ∧ ¬ white b) ∧
      (∀ b ∈ c.format.getLast?, printable b ∧ ¬ white b)) ∧ ((∀ b ∈ c.label.head?, printable b ∧ ¬ white b) ∧
      (∀ b ∈ c.label.getLast?, printable b ∧ ¬ white b)) ∧ c.offset < 256 ^ word .bit64 ∧ c.length < 2 ^ 32 := by
    decide +kernel
  intro c hc
  obtain ⟨h1, h2, h3, h4⟩ := h c hc
  exact ⟨⟨h1.1, h1.2⟩, ⟨h2.1, h2.2⟩, ⟨h3.1, h3.2⟩, h4⟩

theorem people_fits : people.Fits demoBig where
  header := demoBig_writable
  columnsOk := people_columns
  columns := by decide
  texts := by decide +kernel
  sizes := by decide
  rowLength := by decide +kernel
  page := by decide

theorem people_machine : Machine Demo.cfg demoBig people where
  header := by decide
  page := by decide
  row := by decide
  columns := by decide
  loggable := fun h => by cases h

example : ∃ R, openReader Demo.cfg ifs 100 none (IFStream.open ((Layout.packed demoBig people).write people)) = .ok R ∧
    ReadsBack demoBig people R :=
  C43_every Demo.cfg demoBig people 100 people_fits people_machine (by decide)

theorem columnType_of {e : Endian} {num : Bool} {format : List Byte} {n : Nat} {t : ColType}
    (h : (chooseFormatter e num format n).type = t) : columnType num format n = t := by
  rw [← chooseFormatter_type e, h]

/-- The values of the first row: 64, "ann", 42 and 1992-11-08, the day 12000. -/
theorem people_row0 : RowHolds .big people.columns people.rows[0]
    [.number 0x4050000000000000, .text (ascii "ann"), .integer 42, .date 12000] where
  count := rfl
  cells := by
    intro i c v h1 h2
    match i with
    | 0 =>
      cases h1; cases h2
      exact ⟨[], _, ascii "ann   " ++ [0, 42] ++ encode .big 8 0x40c7700000000000, by decide +kernel, rfl,
        by decide +kernel, .number _ (columnType_of (e := .big) (by decide +kernel)) (by decide) (by decide)⟩
    | 1 =>
      cases h1; cases h2
      exact ⟨encode .big 8 0x4050000000000000, _, [0, 42] ++ encode .big 8 0x40c7700000000000, by decide +kernel, rfl,
        by decide +kernel, .text (ascii "ann") [0x20, 0x20, 0x20] rfl (by decide)
          (show ∀ b ∈ (ascii "ann").getLast?, _ by decide +kernel)⟩
    | 2 =>
      cases h1; cases h2
      exact ⟨encode .big 8 0x4050000000000000 ++ ascii "ann   ", _, encode .big 8 0x40c7700000000000,
        by decide +kernel, rfl, by decide +kernel, .short 42 rfl rfl (by decide) (by decide)⟩
    | 3 =>
      cases h1; cases h2
      refine ⟨encode .big 8 0x4050000000000000 ++ ascii "ann   " ++ [0, 42], _, [], by decide +kernel, rfl,
        by decide +kernel, .date 12000 0x40c7700000000000 (columnType_of (e := .big) (by decide +kernel)) rfl
          ⟨0, 0x40c, 0x7700000000000, by decide, by decide, by decide, .inr ⟨by decide, by decide, ?_⟩⟩
          (by decide) (by decide)⟩
      norm_num

/-- The values of the second row: -inf, "bob", -1 and a missing date. -/
theorem people_row1 : RowHolds .big people.columns people.rows[1]
    [.number 0xfff0000000000000, .text (ascii "bob"), .integer (-1), .missing] where
  count := rfl
  cells := by
    intro i c v h1 h2
    match i with
    | 0 =>
      cases h1; cases h2
      exact ⟨[], _, ascii "bob\x00  " ++ [255, 255] ++ encode .big 8 0x7ff8000000000000, by decide +kernel, rfl,
        by decide +kernel, .number _ (columnType_of (e := .big) (by decide +kernel)) (by decide) (by decide)⟩
    | 1 =>
      cases h1; cases h2
      exact ⟨encode .big 8 0xfff0000000000000, _, [255, 255] ++ encode .big 8 0x7ff8000000000000, by decide +kernel,
        rfl, by decide +kernel, .text (ascii "bob") [0, 0x20, 0x20] rfl (by decide)
          (show ∀ b ∈ (ascii "bob").getLast?, _ by decide +kernel)⟩
    | 2 =>
      cases h1; cases h2
      exact ⟨encode .big 8 0xfff0000000000000 ++ ascii "bob\x00  ", _, encode .big 8 0x7ff8000000000000,
        by decide +kernel, rfl, by decide +kernel, .short (-1) rfl rfl (by decide) (by decide)⟩
    | 3 =>
      cases h1; cases h2
      exact ⟨encode .big 8 0xfff0000000000000 ++ ascii "bob\x00  " ++ [255, 255], _, [], by decide +kernel, rfl,
        by decide +kernel, .missing 0x7ff8000000000000 (.inr (.inl (columnType_of (e := .big) (by decide +kernel))))
          rfl ⟨0, 2 ^ 51, by decide, by decide, by decide, by decide⟩⟩

/-- The values of the third row: 64, an empty text, 7 and 1927-02-24, the day -12000. -/
theorem people_row2 : RowHolds .big people.columns people.rows[2]
    [.number 0x4050000000000000, .text [], .integer 7, .date (-12000)] where
  count := rfl
  cells := by
    intro i c v h1 h2
    match i with
    | 0 =>
      cases h1; cases h2
      exact ⟨[], _, ascii "      " ++ [0, 7] ++ encode .big 8 0xc0c7700000000000, by decide +kernel, rfl,
        by decide +kernel, .number _ (columnType_of (e := .big) (by decide +kernel)) (by decide) (by decide)⟩
    | 1 =>
      cases h1; cases h2
      exact ⟨encode .big 8 0x4050000000000000, _, [0, 7] ++ encode .big 8 0xc0c7700000000000, by decide +kernel, rfl,
        by decide +kernel, .text [] [0x20, 0x20, 0x20, 0x20, 0x20, 0x20] rfl (by decide) (by simp)⟩
    | 2 =>
      cases h1; cases h2
      exact ⟨encode .big 8 0x4050000000000000 ++ ascii "      ", _, encode .big 8 0xc0c7700000000000,
        by decide +kernel, rfl, by decide +kernel, .short 7 rfl rfl (by decide) (by decide)⟩
    | 3 =>
      cases h1; cases h2
      refine ⟨encode .big 8 0x4050000000000000 ++ ascii "      " ++ [0, 7], _, [], by decide +kernel, rfl,
        by decide +kernel, .date (-12000) 0xc0c7700000000000 (columnType_of (e := .big) (by decide +kernel)) rfl
          ⟨1, 0x40c, 0x7700000000000, by decide, by decide, by decide, .inr ⟨by decide, by decide, ?_⟩⟩
          (by decide) (by decide)⟩
      norm_num

/-- The values of all rows. -/
theorem people_values : List.Forall₂ (RowHolds .big people.columns) people.rows
    [[.number 0x4050000000000000, .text (ascii "ann"), .integer 42, .date 12000],
     [.number 0xfff0000000000000, .text (ascii "bob"), .integer (-1), .missing],
     [.number 0x4050000000000000, .text [], .integer 7, .date (-12000)]] :=
  .cons people_row0 (.cons people_row1 (.cons people_row2 .nil))

/-- The columns in two groups, the subheaders on four pages, the first row on the last of them (a mix page), the
other rows on two data pages. -/
def peopleMix : Layout where
  header := demoBig
  compression := .none
  groups := [people.columns.take 1, people.columns.drop 1]
  metaPages :=
    let l : Layout := ⟨demoBig, .none, [people.columns.take 1, people.columns.drop 1], [], people.rows.take 1, []⟩
    [(describe l people).take 1, ((describe l people).drop 1).take 5, ((describe l people).drop 6).take 1,
      (describe l people).drop 7]
  mix := people.rows.take 1
  rowPages := [[people.rows[1]], [people.rows[2]]]

theorem peopleMix_for : peopleMix.For people where
  header := demoBig_writable
  columns := rfl
  columnsOk := people_columns
  texts := by decide +kernel
  groups := by decide
  subs := rfl
  count := rfl
  sizes := by decide
  metaFits := by decide +kernel
  mixFits := show ∀ p ∈ peopleMix.metaPages.getLast?, _ by decide +kernel

theorem peopleMix_plain : peopleMix.Plain people where
  compression := rfl
  rows := rfl
  rowLength := by decide +kernel
  rowsFit := by decide +kernel

example : ∃ R, openReader Demo.cfg ifs 10 none (IFStream.open (peopleMix.write people)) = .ok R ∧
    ReadsBack demoBig people R :=
  C43_uncompressed Demo.cfg peopleMix people 10 peopleMix_for peopleMix_plain people_machine (by decide)

instance (f : Format) (stored : List Byte) : Decidable (LooksLikeSubheader f stored) :=
  decidable_of_iff (∃ e ∈ [Endian.little, .big], ∃ s ∈ [Sig.rowSize, .columnSize, .counts, .columnText, .columnNames,
    .columnAttrs, .formatLabel, .columnList], stored.take (word f) <+: Sig.bytes e f s) <| by
  constructor
  · rintro ⟨e, _, s, _, h⟩
    exact ⟨e, s, h⟩
  · rintro ⟨e, s, h⟩
    exact ⟨e, by cases e <;> simp, s, by cases s <;> simp, h⟩

/-- The first row is stored compressed. -/
example : rleStore people.rows[0] =
    [0x81, 0x40, 0x50, 0xC3, 0] ++ ([0x82] ++ ascii "ann") ++ [0xC0, 0x20] ++ [0x84, 0, 42, 0x40, 0xc7, 0x70] ++
      [0xC2, 0] := by decide +kernel

example : ∃ R, openReader Demo.cfg ifs 100 none (IFStream.open ((Layout.rle demoBig people).write people)) = .ok R ∧
    ReadsBack demoBig people R :=
  C61_every_partial Demo.cfg demoBig people 100 people_fits people_machine (by decide) (by decide)
    (by decide +kernel) (by decide)

end Sas.Props
