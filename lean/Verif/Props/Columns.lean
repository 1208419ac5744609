import Verif.Proofs.OpenLayout
import Verif.DemoFiles
import Verif.Props.Values

/-!
# Properties of the columns and the metadata: C20, C21, C22, C23, C44, C45
-/

namespace Sas.Props

open Sas Sas.Spec

variable {σ : Type}

/-! ## C20: columns are reported completely and in order -/

/-- C20, for any source: when construction without a filter succeeds there are exactly `column_count`
columns. -/
theorem C20_count (cfg : Cfg) (S : Source σ) (fuel : Nat) (s : σ) (R : Reader σ)
    (h : openReader cfg S fuel none s = .ok R) : R.props.columns.length = R.props.md.columnCount := by
  unfold openReader at h
  obtain ⟨⟨hd, b, s1⟩, _, h⟩ := bind_ok_inv h
  obtain ⟨⟨p, acc⟩, _, h⟩ := bind_ok_inv h
  obtain ⟨cols, hc, h⟩ := bind_ok_inv h
  obtain ⟨rd, _, h⟩ := bind_ok_inv h
  cases h
  rw [createColumns_none] at hc
  split at hc
  · exact allColumns_length _ _ _ _ _ hc
  · cases hc

theorem columns_described (cfg : Cfg) (S : Source σ) (s : σ) (h : FileHeader)
    (pre : List (List Byte × PageContent)) (k : Option (List Byte × PageContent))
    (post : List (List Byte)) (en : Ending) (all : List Sub) (c : Compression) (fuel : Nat)
    (ds : List ColumnDesc) (hw : WellFormed cfg S s h pre k post en all c fuel)
    (hd : Describes all ds) (hn : ds.length ≤ cfg.maxCols) :
    ∃ R, openReader cfg S fuel none s = .ok R ∧ ReportedAs h R.props.header ∧
      R.props.md.columnCount = ds.length ∧ R.props.columns.length = ds.length ∧
      ∀ (i : Nat) (col : Column) (d : ColumnDesc), R.props.columns[i]? = some col → ds[i]? = some d →
        Reports col d ∧ col.fmt = chooseFormatter h.endian d.numeric d.format d.length := by
  cases k with
  | none =>
    obtain ⟨acc, b, s', hacc, hds, _, ho⟩ := openReader_eof hw
    obtain ⟨dst, hb⟩ := RD_build_eof (b := b) (s' := s') hw hacc hds
    obtain ⟨cols, hc, hl, hr⟩ := createColumns_describes h.endian hacc hd hn
    have e := ho none
    unfold finish at e
    rw [hc, Res.ok_bind, hb, Res.ok_bind] at e
    obtain ⟨bs, _, _, hl', _⟩ := hw.presents
    exact ⟨_, e, reportedAs hl', by rw [hacc.columnCount, hd.count], hl,
      fun i col d h1 h2 => hr i col d h1 h2⟩
  | some kp =>
    obtain ⟨acc, b, s', hacc, hds, hb', _, ho⟩ := openReader_stop hw
    obtain ⟨pg, dst, hb, _⟩ := RD_build_stop (s' := s') hw hacc hds hb'
    obtain ⟨cols, hc, hl, hr⟩ := createColumns_describes h.endian hacc hd hn
    have e := ho none
    unfold finish at e
    rw [hc, Res.ok_bind, hb, Res.ok_bind] at e
    obtain ⟨bs, _, _, hl', _⟩ := hw.presents
    exact ⟨_, e, reportedAs hl', by rw [hacc.columnCount, hd.count], hl,
      fun i col d h1 h2 => hr i col d h1 h2⟩

/-- C20. A well-formed file whose subheaders describe the columns `ds` can be opened; the reader reports
the header, `ds.length` columns, and the i-th column has the i-th name, label, format, offset, length and
the type that goes with them. -/
theorem C20_columns (cfg : Cfg) (S : Source σ) (s : σ) (h : FileHeader)
    (pre : List (List Byte × PageContent)) (k : Option (List Byte × PageContent))
    (post : List (List Byte)) (en : Ending) (all : List Sub) (c : Compression) (fuel : Nat)
    (ds : List ColumnDesc) (hw : WellFormed cfg S s h pre k post en all c fuel)
    (hd : Describes all ds) (hn : ds.length ≤ cfg.maxCols) :
    ∃ R, openReader cfg S fuel none s = .ok R ∧ ReportedAs h R.props.header ∧
      R.props.md.columnCount = ds.length ∧ R.props.columns.length = ds.length ∧
      ∀ (i : Nat) (col : Column) (d : ColumnDesc), R.props.columns[i]? = some col → ds[i]? = some d →
        Reports col d := by
  obtain ⟨R, h1, h2, h3, h4, h5⟩ := columns_described cfg S s h pre k post en all c fuel ds hw hd hn
  exact ⟨R, h1, h2, h3, h4, fun i col d g1 g2 => (h5 i col d g1 g2).1⟩

/-- C20. When names, labels, formats or attributes are missing for one of the announced columns,
construction throws. -/
theorem C20_short (cfg : Cfg) (S : Source σ) (s : σ) (h : FileHeader)
    (pre : List (List Byte × PageContent)) (k : Option (List Byte × PageContent))
    (post : List (List Byte)) (en : Ending) (all : List Sub) (c : Compression) (fuel : Nat)
    (filter : Option Filter) (hw : WellFormed cfg S s h pre k post en all c fuel)
    (hn : columnCountOf 0 all ≤ cfg.maxCols)
    (hs : (nameRefs [] all).length < columnCountOf 0 all ∨ (labelRefs [] all).length < columnCountOf 0 all ∨
      (formatRefs [] all).length < columnCountOf 0 all ∨ (attrs all).length < columnCountOf 0 all) :
    openReader cfg S fuel filter s = .error (.exn .outOfRange) := by
  have key : ∀ acc : Acc, AccIs acc all → ∀ p : PState σ,
      finish cfg h fuel acc p filter = .error (.exn .outOfRange) := by
    intro acc hacc p
    have hs' := createColumns_short (cfg := cfg) (acc := acc) h.endian filter
      (by rw [hacc.columnCount]; exact hn) (by
        rw [hacc.columnCount, hacc.names, hacc.labels, hacc.formats, hacc.offsets, hacc.lengths, hacc.types]
        simp only [List.length_map]
        omega)
    unfold finish
    rw [hs']
    rfl
  cases k with
  | none =>
    obtain ⟨acc, b, s', hacc, _, _, ho⟩ := openReader_eof hw
    rw [ho]
    exact key acc hacc _
  | some kp =>
    obtain ⟨acc, b, s', hacc, _, _, _, ho⟩ := openReader_stop hw
    rw [ho]
    exact key acc hacc _

/-- The columns of the demonstration files. -/
def demoColumns : List ColumnDesc :=
  [⟨textBytes "ID", [], textBytes "BEST", 0, 8, true⟩, ⟨textBytes "NAME", textBytes "Key", [], 8, 6, false⟩]

theorem refersTo_intro {ts : List (List Byte)} {r : TextRef} {text : List Byte} (lead pad : List Byte)
    (h : referenced ts r = lead ++ text ++ pad) (h1 : lead.all (fun b => decide (b = 0x20)) = true)
    (h2 : pad.all (fun b => decide (¬ printable b ∨ white b)) = true)
    (h3 : text.head?.all (fun b => decide (printable b ∧ ¬ white b)) = true)
    (h4 : text.getLast?.all (fun b => decide (printable b ∧ ¬ white b)) = true) : RefersTo ts r text := by
  refine ⟨⟨lead, pad, h, ?_, ?_⟩, ?_, ?_⟩
  · intro b hb; exact of_decide_eq_true (List.all_eq_true.mp h1 b hb)
  · intro b hb; exact of_decide_eq_true (List.all_eq_true.mp h2 b hb)
  · intro b hb; rw [hb] at h3; exact of_decide_eq_true h3
  · intro b hb; rw [hb] at h4; exact of_decide_eq_true h4

theorem forall_two {P : Nat → ColumnDesc → Prop} {a b : ColumnDesc} (h0 : P 0 a) (h1 : P 1 b) :
    ∀ (i : Nat) (d : ColumnDesc), [a, b][i]? = some d → P i d := by
  intro i d h
  match i with
  | 0 => simp at h; exact h ▸ h0
  | 1 => simp at h; exact h ▸ h1
  | n + 2 => simp at h

theorem demo_describes : Describes Demo.fileSubs demoColumns where
  count := by decide +kernel
  name := forall_two
    ⟨texts Demo.fileSubs, ⟨0, 36, 2⟩, by decide +kernel, refersTo_intro [] [] (by decide +kernel) (by decide +kernel)
      (by decide +kernel) (by decide +kernel) (by decide +kernel)⟩
    ⟨texts Demo.fileSubs, ⟨0, 40, 4⟩, by decide +kernel, refersTo_intro [] [] (by decide +kernel) (by decide +kernel)
      (by decide +kernel) (by decide +kernel) (by decide +kernel)⟩
  label := forall_two
    ⟨texts Demo.fileSubs, ⟨0, 0, 0⟩, by decide +kernel, refersTo_intro [] [] (by decide +kernel) (by decide +kernel)
      (by decide +kernel) (by decide +kernel) (by decide +kernel)⟩
    ⟨texts Demo.fileSubs, ⟨0, 56, 3⟩, by decide +kernel, refersTo_intro [] [] (by decide +kernel) (by decide +kernel)
      (by decide +kernel) (by decide +kernel) (by decide +kernel)⟩
  format := forall_two
    ⟨texts Demo.fileSubs, ⟨0, 48, 4⟩, by decide +kernel, refersTo_intro [] [] (by decide +kernel) (by decide +kernel)
      (by decide +kernel) (by decide +kernel) (by decide +kernel)⟩
    ⟨texts Demo.fileSubs, ⟨0, 0, 0⟩, by decide +kernel, refersTo_intro [] [] (by decide +kernel) (by decide +kernel)
      (by decide +kernel) (by decide +kernel) (by decide +kernel)⟩
  attr := forall_two (by decide +kernel) (by decide +kernel)

example : ∃ R, openReader Demo.cfg ifs 10 none (IFStream.open Demo.file) = .ok R ∧
    R.props.columns.length = 2 := by
  obtain ⟨R, h1, _, _, h2, _⟩ := C20_columns Demo.cfg ifs _ demoHeader _ _ _ _ _ _ 10 demoColumns
    Demo.file_wellFormed demo_describes (by decide +kernel)
  exact ⟨R, h1, h2⟩

/-! ## C21: column filters select exactly the requested columns -/

/-- C21. Construction with a filter succeeds exactly when it does without one, and fails in the same way.
The columns are those the filter accepts, in the same order; everything else that is reported, including
`column_count`, is the same, and the sink is told the filtered properties. -/
theorem C21_filter (cfg : Cfg) (S : Source σ) (fuel : Nat) (s : σ) (accept : Filter) :
    (∀ e, openReader cfg S fuel none s = .error e → openReader cfg S fuel (some accept) s = .error e) ∧
    (∀ R, openReader cfg S fuel none s = .ok R → ∃ R', openReader cfg S fuel (some accept) s = .ok R' ∧
      R'.props.columns = R.props.columns.filter accept ∧
      R'.props.header = R.props.header ∧ R'.props.md = R.props.md ∧
      R'.trace = [.setProperties R'.props]) := by
  constructor
  · intro e h
    rw [openReader_filter, h]
    rfl
  · intro R h
    have ht : R.trace = [.setProperties R.props] := by
      unfold openReader at h
      obtain ⟨⟨hd, b, s1⟩, _, h⟩ := bind_ok_inv h
      obtain ⟨⟨p, acc⟩, _, h⟩ := bind_ok_inv h
      obtain ⟨cols, hc, h⟩ := bind_ok_inv h
      obtain ⟨rd, _, h⟩ := bind_ok_inv h
      cases h
      rfl
    refine ⟨R.withCols (R.props.columns.filter (keeps (some accept))), ?_, rfl, rfl, rfl, ?_⟩
    · rw [openReader_filter, h]
      rfl
    · simp only [Reader.withCols, ht, List.map_cons, List.map_nil, Event.withCols]

/-- C21. A filter that accepts everything is the same as no filter. -/
theorem C21_acceptAll (cfg : Cfg) (S : Source σ) (fuel : Nat) (s : σ) (R : Reader σ)
    (h : openReader cfg S fuel none s = .ok R) :
    ∃ R', openReader cfg S fuel (some Filter.acceptAll) s = .ok R' ∧ R'.props = R.props := by
  obtain ⟨R', h1, h2, h3, h4, _⟩ := (C21_filter cfg S fuel s Filter.acceptAll).2 R h
  refine ⟨R', h1, ?_⟩
  have : R.props.columns.filter Filter.acceptAll = R.props.columns := by
    rw [List.filter_eq_self]; intro c _; rfl
  rw [this] at h2
  cases hp : R.props
  cases hp' : R'.props
  simp_all

/-- C21. What the filters of the library accept. -/
theorem C21_includeExclude (included excluded : List (List Byte)) (c : Column) :
    (Filter.include included c = true ↔ c.name ∈ included) ∧
    (Filter.exclude excluded c = true ↔ c.name ∉ excluded) ∧
    (Filter.includeExclude included excluded c = true ↔
      (included ≠ [] ∧ c.name ∈ included) ∨ (included = [] ∧ excluded ≠ [] ∧ c.name ∉ excluded) ∨
      (included = [] ∧ excluded = [])) := by
  refine ⟨by simp [Filter.include], by simp [Filter.exclude], ?_⟩
  unfold Filter.includeExclude
  cases included <;> cases excluded <;> simp

example : ∃ R', openReader Demo.cfg ifs 10 (some (Filter.includeExclude [] [textBytes "ID"]))
    (IFStream.open Demo.file) = .ok R' ∧ R'.props.columns.map (·.name) = [textBytes "NAME"] := by
  obtain ⟨R', h1, h2, _⟩ := (C21_filter Demo.cfg ifs 10 (IFStream.open Demo.file)
    (Filter.includeExclude [] [textBytes "ID"])).2 Demo.reader Demo.opened_ok
  exact ⟨R', h1, by rw [h2]; decide +kernel⟩

/-! ## C22: filtering columns does not change values or rows -/

/-- What a sink call says apart from the list of columns. -/
def withoutColumns : Event → Event
  | .setProperties p => .setProperties { p with columns := [] }
  | e => e

/-- C22. Two readers on the same source that differ in their filter: any history of calls has the same
results on both, and the sinks receive the same calls apart from the list of columns. The columns kept by
both filters are the same, so they yield the same values on the same rows. -/
theorem C22_same_rows (cfg : Cfg) (S : Source σ) (fuel : Nat) (s : σ) (f g : Option Filter)
    (R R' : Reader σ) (h : openReader cfg S fuel f s = .ok R) (h' : openReader cfg S fuel g s = .ok R')
    (ops : List Op) :
    (R.run S ops).1 = (R'.run S ops).1 ∧
    (R.run S ops).2.trace.map withoutColumns = (R'.run S ops).2.trace.map withoutColumns ∧
    pushes (R.run S ops).2.trace = pushes (R'.run S ops).2.trace ∧
    (R.run S ops).2.currentRowIndex = (R'.run S ops).2.currentRowIndex := by
  rw [openReader_filter] at h h'
  cases h0 : openReader cfg S fuel none s with
  | error e => rw [h0] at h; cases h
  | ok R0 =>
    rw [h0] at h h'
    cases h
    cases h'
    rw [Reader.withCols_run, Reader.withCols_run]
    have hw : ∀ (cols : List Column) (e : Event), withoutColumns (e.withCols cols) = withoutColumns e := by
      intro cols e; cases e <;> rfl
    have hp : ∀ (cols : List Column) (es : List Event), pushes (es.map (Event.withCols cols)) = pushes es := by
      intro cols es
      induction es with
      | nil => rfl
      | cons e es ih => cases e <;> simp [Event.withCols, pushes, ih]
    refine ⟨rfl, ?_, ?_, rfl⟩
    · simp only [Reader.withCols, List.map_map]
      congr 1
      funext e
      simp [hw]
    · simp only [Reader.withCols, hp]

/-- C22. A column reported under a filter is one of the columns reported without, in the same position
relative to the others: it has the same offset, length and decoding, hence the same values. -/
theorem C22_same_columns (cfg : Cfg) (S : Source σ) (fuel : Nat) (s : σ) (f : Filter) (R R' : Reader σ)
    (h : openReader cfg S fuel none s = .ok R) (h' : openReader cfg S fuel (some f) s = .ok R') :
    R'.props.columns.Sublist R.props.columns ∧
    ∀ c ∈ R.props.columns, f c = true → c ∈ R'.props.columns := by
  obtain ⟨R1, h1, h2, _⟩ := (C21_filter cfg S fuel s f).2 R h
  rw [h'] at h1
  cases h1
  rw [h2]
  exact ⟨List.filter_sublist, fun c hc hf => List.mem_filter.mpr ⟨hc, hf⟩⟩

example : ∃ R', openReader Demo.cfg ifs 10 (some (Filter.include [textBytes "NAME"]))
    (IFStream.open Demo.file) = .ok R' ∧
    (pushes (R'.run ifs [.readAll]).2.trace).length = 3 := by
  obtain ⟨R', h1, _⟩ := (C21_filter Demo.cfg ifs 10 (IFStream.open Demo.file)
    (Filter.include [textBytes "NAME"])).2 Demo.reader Demo.opened_ok
  refine ⟨R', h1, ?_⟩
  rw [← (C22_same_rows Demo.cfg ifs 10 _ none _ Demo.reader R' Demo.opened_ok h1 [.readAll]).2.2.1]
  decide +kernel

/-! ## C23: column type classification -/

/-- C23. The type of a column is the one of the classification. -/
theorem C23_type (e : Endian) (numeric : Bool) (format : List Byte) (length : Nat) :
    (chooseFormatter e numeric format length).type = columnType numeric format length :=
  chooseFormatter_type e numeric format length

/-- C23. The classification does not depend on the order in which the formats are tried: no format is
in two of the lists, and none is listed twice. -/
theorem C23_disjoint : (datetimeNames ++ dateNames ++ timeNames).Nodup ∧
    ∀ f : List Byte, ¬ (oneOf datetimeNames f ∧ oneOf dateNames f) ∧
      ¬ (oneOf datetimeNames f ∧ oneOf timeNames f) ∧ ¬ (oneOf dateNames f ∧ oneOf timeNames f) := by
  have key : ∀ a b : List String, a.all (fun x => b.all (fun y => textBytes x ≠ textBytes y)) = true →
      ∀ f, ¬ (oneOf a f ∧ oneOf b f) := by
    intro a b h f ⟨⟨x, hx, h1⟩, ⟨y, hy, h2⟩⟩
    have := List.all_eq_true.mp (List.all_eq_true.mp h x hx) y hy
    simp only [ne_eq, decide_eq_true_eq] at this
    exact this (h1 ▸ h2 ▸ rfl)
  refine ⟨by decide +kernel, fun f => ⟨key _ _ ?_ f, key _ _ ?_ f, key _ _ ?_ f⟩⟩ <;> decide +kernel

/-- C23. Strings are strings whatever their format and length, and numeric columns of one or two bytes
are integers whatever their format. -/
theorem C23_always (format : List Byte) (n : Nat) (h : n = 1 ∨ n = 2) (m : Nat) :
    columnType false format m = .string ∧ columnType true format n = .integer := by
  unfold columnType
  simp [h]

example : (chooseFormatter .big true (ascii "MMDDYY") 8).type = .date := by decide +kernel
example : (chooseFormatter .big true (ascii "BEST") 9).type = .unknown := by decide +kernel

/-! ## C44: column texts -/

/-- C44. Whatever the reference, the result is a part of what the reference designates: no byte outside
the text is ever used. -/
theorem C44_inside (ts : List (List Byte)) (i o n : Nat) :
    columnTextSubstr ts i o n <:+: referenced ts ⟨i, o, n⟩ := by
  have h := columnTextSubstr_eq ts ⟨i, o, n⟩
  simp only [resolve] at h
  rw [h]
  cases hr : referenced ts ⟨i, o, n⟩ with
  | nil => exact List.nil_infix
  | cons b cell =>
    simp only
    split
    · obtain ⟨lead, tail, h1, _⟩ := C15_text (b :: cell)
      exact ⟨lead, tail, h1.symm⟩
    · exact List.nil_infix

/-- C44 for texts that start and end with visible ASCII characters: the text is returned, without the
blanks around it. Missing: other texts, for which the property is false (`C44_refuted`). -/
theorem C44_text_partial (ts : List (List Byte)) (r : TextRef) (text : List Byte) (h : RefersTo ts r text) :
    columnTextSubstr ts r.text r.offset r.length = text := resolve_refersTo h

/-- C44 is false for texts that start or end with a character outside ASCII, as in UTF-8 or Latin-1
files: "Ärzte" (UTF-8) gives an empty text, "Menü" loses its last letter. -/
theorem C44_refuted :
    (let text := "Ärzte".toUTF8.toList
     referenced [text] ⟨0, 0, text.length⟩ = text ∧ (∀ b ∈ text, ¬ white b) ∧
     columnTextSubstr [text] 0 0 text.length = []) ∧
    (let text := "Menü".toUTF8.toList
     referenced [text] ⟨0, 0, text.length⟩ = text ∧ (∀ b ∈ text, ¬ white b) ∧
     columnTextSubstr [text] 0 0 text.length = ascii "Men") := by decide +kernel

example : RefersTo [ascii "xx  Key for \n"] ⟨0, 2, 20⟩ (ascii "Key for") :=
  refersTo_intro [0x20, 0x20] (ascii " \n") (by decide +kernel) (by decide +kernel) (by decide +kernel)
    (by decide +kernel) (by decide +kernel)

/-! ## C45: compression detection -/

/-- C45. The compression of a well-formed file is the one its first column text announces, whatever the
other column texts are. -/
theorem C45_compression (cfg : Cfg) (S : Source σ) (s : σ) (h : FileHeader)
    (pre : List (List Byte × PageContent)) (k : Option (List Byte × PageContent))
    (post : List (List Byte)) (en : Ending) (all : List Sub) (c : Compression) (fuel : Nat)
    (filter : Option Filter) (hw : WellFormed cfg S s h pre k post en all c fuel) (R : Reader σ)
    (hR : openReader cfg S fuel filter s = .ok R) : IsCompression (texts all) R.props.md.compression := by
  have key : ∀ acc : Acc, AccIs acc all → ∀ p : PState σ, finish cfg h fuel acc p filter = .ok R →
      IsCompression (texts all) R.props.md.compression := by
    intro acc hacc p h
    unfold finish at h
    obtain ⟨cols, hc, h⟩ := bind_ok_inv h
    obtain ⟨rd, _, h⟩ := bind_ok_inv h
    cases h
    show IsCompression _ acc.md.compression
    rw [hacc.compression]
    exact announcedBy_isCompression _
  cases k with
  | none =>
    obtain ⟨acc, b, s', hacc, _, _, ho⟩ := openReader_eof hw
    rw [ho] at hR
    exact key acc hacc _ hR
  | some kp =>
    obtain ⟨acc, b, s', hacc, _, _, _, ho⟩ := openReader_stop hw
    rw [ho] at hR
    exact key acc hacc _ hR

/-- C45. There is exactly one compression that fits the column texts. -/
theorem C45_unique (ts : List (List Byte)) : ∃ c, IsCompression ts c ∧ ∀ c', IsCompression ts c' → c' = c :=
  ⟨_, announcedBy_isCompression ts, fun _ h => IsCompression.unique h (announcedBy_isCompression ts)⟩

example : IsCompression (texts Demo.rleSubs) Demo.rleReader.props.md.compression :=
  C45_compression Demo.cfg ifs _ Demo.rleHeader _ _ _ _ _ _ 10 none Demo.rle_wellFormed _ Demo.rleOpened_ok
example : Demo.rleReader.props.md.compression = .rle := by decide +kernel

/-! ## C60: the reported sizes -/

/-- C60. The sizes reported for a well-formed file, with any filter, are those its subheaders declare (the last
row-size and column-size subheader count). -/
theorem C60_sizes (cfg : Cfg) (S : Source σ) (s : σ) (h : FileHeader)
    (pre : List (List Byte × PageContent)) (k : Option (List Byte × PageContent))
    (post : List (List Byte)) (en : Ending) (all : List Sub) (c : Compression) (fuel : Nat)
    (filter : Option Filter) (hw : WellFormed cfg S s h pre k post en all c fuel) (R : Reader σ)
    (hR : openReader cfg S fuel filter s = .ok R) :
    R.props.md.rowLength = (rowSizeOf .none all).rowLength ∧ R.props.md.rowCount = (rowSizeOf .none all).rowCount ∧
    R.props.md.p1 = (rowSizeOf .none all).p1 ∧ R.props.md.p2 = (rowSizeOf .none all).p2 ∧
    R.props.md.mixCount = (rowSizeOf .none all).mixCount ∧ R.props.md.columnCount = columnCountOf 0 all := by
  have key : ∀ acc : Acc, AccIs acc all → ∀ p : PState σ, finish cfg h fuel acc p filter = .ok R →
      R.props.md = acc.md := by
    intro acc hacc p h
    unfold finish at h
    obtain ⟨cols, hc, h⟩ := bind_ok_inv h
    obtain ⟨rd, _, h⟩ := bind_ok_inv h
    cases h
    rfl
  cases k with
  | none =>
    obtain ⟨acc, b, s', hacc, _, _, ho⟩ := openReader_eof hw
    rw [ho] at hR
    rw [key acc hacc _ hR]
    exact ⟨hacc.rowLength, hacc.rowCount, hacc.p1, hacc.p2, hacc.mixCount, hacc.columnCount⟩
  | some kp =>
    obtain ⟨acc, b, s', hacc, _, _, _, ho⟩ := openReader_stop hw
    rw [ho] at hR
    rw [key acc hacc _ hR]
    exact ⟨hacc.rowLength, hacc.rowCount, hacc.p1, hacc.p2, hacc.mixCount, hacc.columnCount⟩

example : Demo.rleReader.props.md.rowLength = 14 ∧ Demo.rleReader.props.md.rowCount = 3 := by
  have := C60_sizes Demo.cfg ifs _ Demo.rleHeader _ _ _ _ _ _ 10 none Demo.rle_wellFormed _ Demo.rleOpened_ok
  exact ⟨this.1, this.2.1⟩

/-! ## C57: debug and release builds -/

/-- C57 is false: a debug build rejects every file whose header has no date of creation, whatever follows. -/
theorem C57_refuted (cfg : Cfg) (hd : cfg.debug = true) (fuel : Nat) (filter : Option Filter) (h : FileHeader)
    (bs rest : List Byte) (hl : HeaderLayout h bs) (hmem : h.headerLength ≤ cfg.maxAlloc)
    (hnan : IeeeNaN h.created) :
    openReader cfg ifs fuel filter (IFStream.open (bs ++ rest)) = .error (.exn .outOfRange) := by
  obtain ⟨s1, s2, r1, r2⟩ := ifs_header (rest := rest) hl
  obtain ⟨b, hb, -⟩ := readHeader_layout (cfg := cfg) hl hmem r1 r2
  have hlog : logHeader cfg h.reported = .error (.exn .outOfRange) := by
    have e1 : h.reported.dateCreated = .notADateTime := by
      show stampOf h.created = _
      unfold stampOf
      rw [ofBits_nan hnan]
      rfl
    have e2 : DateTime.notADateTime.toText = .error (.exn .outOfRange) := by
      unfold DateTime.toText DateTime.date
      have : Date.notADate.ymd = .error (.exn .outOfRange) := by
        unfold Date.ymd
        rw [if_neg (by decide +kernel)]
      simp only [Res.ok_bind]
      rw [this]
      rfl
    unfold logHeader
    rw [if_pos hd, e1, e2]
    rfl
  unfold openReader
  rw [hb, hlog]
  rfl

/-- The demonstration header with a missing date of creation. -/
theorem missingDate_layout : HeaderLayout { demoHeader with created := 0xFFFFFE0000000000 }
    (writeAt (Demo.header 900 4) 164 (Demo.le 8 0xFFFFFE0000000000)) where
  length := by decide +kernel
  long := by decide +kernel
  magic := by decide +kernel
  wide := by decide +kernel
  padded := by decide +kernel
  endian := by decide +kernel
  unix := by decide +kernel
  windows := by decide +kernel
  encoding := by decide +kernel
  datasetName := TextField.intro (List.replicate 60 0) (by decide +kernel) (by decide +kernel)
    (by decide +kernel) (by decide +kernel)
  fileType := TextField.intro (List.replicate 4 0) (by decide +kernel) (by decide +kernel)
    (by decide +kernel) (by decide +kernel)
  created := by decide +kernel
  modified := by decide +kernel
  headerLength := by decide +kernel
  pageLength := by decide +kernel
  pageCount := by decide +kernel
  sasRelease := TextField.intro [] (by decide +kernel) (by decide +kernel)
    (by decide +kernel) (by decide +kernel)
  serverType := TextField.intro (List.replicate 6 0) (by decide +kernel) (by decide +kernel)
    (by decide +kernel) (by decide +kernel)
  osType := TextField.intro (List.replicate 16 0) (by decide +kernel) (by decide +kernel)
    (by decide +kernel) (by decide +kernel)
  osName := TextField.intro (List.replicate 11 0) (by decide +kernel) (by decide +kernel)
    (by decide +kernel) (by decide +kernel)
  stamps := ⟨.inl ⟨1, 0xFFFFFE0000000000 - 2 ^ 63 - 2047 * 2 ^ 52, by decide, by decide, by decide, by decide⟩, stamp_zero⟩
  sizes := by decide +kernel

example : openReader { Demo.cfg with debug := true } ifs 10 none (IFStream.open
    (writeAt (Demo.header 900 4) 164 (Demo.le 8 0xFFFFFE0000000000) ++ Demo.file.drop 288)) =
      .error (.exn .outOfRange) :=
  C57_refuted _ rfl _ _ _ _ _ missingDate_layout (by decide +kernel)
    ⟨1, 0xFFFFFE0000000000 - 2 ^ 63 - 2047 * 2 ^ 52, by decide, by decide, by decide, by decide⟩

/-- Without debugging the same file opens. -/
example : Except.isOk (openReader Demo.cfg ifs 10 none (IFStream.open
    (writeAt (Demo.header 900 4) 164 (Demo.le 8 0xFFFFFE0000000000) ++ Demo.file.drop 288))) = true := by
  decide +kernel

/-- C57 for files whose header dates are in the calendar: a debug build and a release build both open a
well-formed file and report the same header, the same number of columns and the same columns. What is
missing are the other header dates, for which the claim is false. -/
theorem C57_partial (cfg : Cfg) (S : Source σ) (s : σ) (h : FileHeader)
    (pre : List (List Byte × PageContent)) (k : Option (List Byte × PageContent))
    (post : List (List Byte)) (en : Ending) (all : List Sub) (c : Compression) (fuel : Nat)
    (ds : List ColumnDesc) (hw : WellFormed cfg S s h pre k post en all c fuel)
    (hcal : InCalendar h.created ∧ InCalendar h.modified)
    (hd : Describes all ds) (hn : ds.length ≤ cfg.maxCols) (debug : Bool) :
    ∃ R, openReader { cfg with debug := debug } S fuel none s = .ok R ∧ ReportedAs h R.props.header ∧
      R.props.md.columnCount = ds.length ∧ R.props.columns.length = ds.length ∧
      ∀ (i : Nat) (col : Column) (d : ColumnDesc), R.props.columns[i]? = some col → ds[i]? = some d →
        Reports col d :=
  C20_columns _ S s h pre k post en all c fuel ds
    ⟨hw.presents, hw.fileMeta, hw.memory, fun _ => hcal, hw.enough, hw.noRows⟩ hd hn

theorem inCalendar_zero : InCalendar 0 :=
  ⟨0, ⟨0, 0, 0, by norm_num, by norm_num, by norm_num, .inl ⟨rfl, by norm_num⟩⟩, by norm_num, by norm_num⟩

example : ∃ R, openReader { Demo.cfg with debug := true } ifs 10 none (IFStream.open Demo.file) = .ok R ∧
    R.props.columns.length = 2 := by
  obtain ⟨R, h1, _, _, h2, _⟩ := C57_partial Demo.cfg ifs _ demoHeader _ _ _ _ _ _ 10 demoColumns
    Demo.file_wellFormed ⟨inCalendar_zero, inCalendar_zero⟩ demo_describes (by decide +kernel) true
  exact ⟨R, h1, h2⟩

end Sas.Props
