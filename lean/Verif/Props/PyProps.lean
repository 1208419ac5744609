import Verif.Spec.PyProps
import Verif.Props.Export

/-!
# Property C92: the properties of a file in Python
-/

namespace Sas.Props

open Sas Spec

theorem pyText_ok {s : List Byte} {x : PyAttr} (h : TextSeen s x) : pyText s = .ok x := by
  obtain ⟨h, rfl⟩ := h
  unfold pyText
  rw [if_pos (show utf8Valid s = true from ByteArray.validateUTF8_eq_true_iff.mpr h)]

theorem pyText_raised {s : List Byte} (h : ¬ IsUtf8 s) : pyText s = .error .raised := by
  unfold pyText
  rw [if_neg (show ¬ utf8Valid s = true from fun k => h (ByteArray.validateUTF8_eq_true_iff.mp k))]

theorem pyStamp_ok {t : DateTime} {x : PyAttr} (h : StampSeen t x) : pyStamp t = .ok x := by
  obtain ⟨v, h, rfl⟩ := h
  have key : pyStamp t = (Cell.toPy (.datetime t)).map PyAttr.val := by
    unfold pyStamp Cell.toPy
    dsimp only
    generalize PyM.ofRes t.toPython = r
    cases r with
    | error e => rfl
    | ok r => cases h : PyM.ofResult r <;> simp [bind, Except.bind, Except.map, pure, Except.pure, h]
  rw [key]
  obtain ⟨y, h1, h2⟩ := toPy_of_shows h
  have : y = v := by
    rcases h with ⟨rfl, rfl⟩ | ⟨us, rfl, -, h⟩
    · rcases h2 with ⟨-, rfl⟩ | ⟨us, e, -⟩
      · rfl
      · cases e
    · rcases h2 with ⟨e, -⟩ | ⟨us', e, -, h2⟩
      · cases e
      · have := Proofs.at1960_inj (congrArg Except.ok e)
        subst this
        exact pyMeans_unique (v := .datetime us) h2 h
  rw [h1, this]
  rfl

/-- **C92**, partial: in Python, every property has the value that the C++ property has: numbers, members of enumerations,
texts, time stamps, columns. Missing, and false (`C92_text_refuted`, `C92_date_refuted`): texts that are not UTF-8, dates
outside of the years 1400 to 9999. -/
theorem C92_python_partial (p : Properties) {name : List Byte} {x : PyAttr} (h : PySees p name x) :
    pyProperty p name = .ok x := by
  cases h with
  | format => exact congrArg (fun m => Except.ok (PyAttr.enum m)) (by cases p.header.format <;> rfl)
  | endianness => exact congrArg (fun m => Except.ok (PyAttr.enum m)) (by cases p.header.endian <;> rfl)
  | platform => exact congrArg (fun m => Except.ok (PyAttr.enum m)) (by cases p.header.platform <;> rfl)
  | compression => exact congrArg (fun m => Except.ok (PyAttr.enum m)) (by cases p.md.compression <;> rfl)
  | date_created h => exact pyStamp_ok h
  | date_modified h => exact pyStamp_ok h
  | dataset_name h => exact pyText_ok h
  | encoding h => exact pyText_ok h
  | file_type h => exact pyText_ok h
  | sas_release h => exact pyText_ok h
  | sas_server_type h => exact pyText_ok h
  | os_type h => exact pyText_ok h
  | os_name h => exact pyText_ok h
  | creator h => exact pyText_ok h
  | creator_proc h => exact pyText_ok h
  | columns => rfl
  | _ h => exact congrArg Except.ok h.symm

/-- **C92**: the columns likewise. -/
theorem C92_columns_partial (c : Column) {name : List Byte} {x : PyAttr} (h : PySeesColumn c name x) :
    pyColumnAttr c name = .ok x := by
  cases h with
  | name h => exact pyText_ok h
  | format h => exact pyText_ok h
  | label h => exact pyText_ok h
  | type => exact congrArg (fun m => Except.ok (PyAttr.enum m)) (by cases c.type <;> rfl)

theorem lookup_none_iff {α : Type} (l : List (List Byte × α)) (name : List Byte) :
    l.lookup name = none ↔ name ∉ l.map Prod.fst := by
  induction l with
  | nil => simp
  | cons a l ih =>
    obtain ⟨k, v⟩ := a
    rw [List.lookup_cons]
    by_cases h : name = k
    · subst h; simp
    · rw [beq_false_of_ne h]
      dsimp only
      rw [ih, List.map_cons, List.mem_cons, not_or]
      exact ⟨fun g => ⟨h, g⟩, fun g => g.2⟩

/-- **C92**: there are no other properties. -/
theorem C92_names (p : Properties) (name : List Byte) (h : name ∉ propertyNames) : pyProperty p name = .error .raised := by
  unfold pyProperty
  rw [(lookup_none_iff _ _).mpr h]

/-- **C92** is false of texts that are not UTF-8: whatever the file, the property cannot be read. -/
theorem C92_text_refuted (p : Properties) {name s : List Byte} (h : PyTextOf p name s) (hs : ¬ IsUtf8 s) :
    pyProperty p name = .error .raised := by
  cases h <;> exact pyText_raised hs

theorem C92_label_refuted (c : Column) :
    (¬ IsUtf8 c.label → pyColumnAttr c (ascii "label") = .error .raised) ∧
    (¬ IsUtf8 c.format → pyColumnAttr c (ascii "format") = .error .raised) ∧
    (¬ IsUtf8 c.name → pyColumnAttr c (ascii "name") = .error .raised) :=
  ⟨pyText_raised, pyText_raised, pyText_raised⟩

/-! ## Written files -/

/-- **C60**: the compression reported is the one that the first text of the columns announces. -/
theorem C60_compression {σ : Type} (cfg : Cfg) (S : Source σ) (s : σ) (h : FileHeader)
    (pre : List (List Byte × PageContent)) (k : Option (List Byte × PageContent))
    (post : List (List Byte)) (en : Ending) (all : List Sub) (c : Compression) (fuel : Nat)
    (filter : Option Filter) (hw : WellFormed cfg S s h pre k post en all c fuel) (R : Reader σ)
    (hR : openReader cfg S fuel filter s = .ok R) : R.props.md.compression = c := by
  have key : ∀ acc : Acc, AccIs acc all → ∀ p : PState σ, finish cfg h fuel acc p filter = .ok R →
      R.props.md.compression = c := by
    intro acc hacc p h
    unfold finish at h
    obtain ⟨cols, hc, h⟩ := bind_ok_inv h
    obtain ⟨rd, _, h⟩ := bind_ok_inv h
    cases h
    show acc.md.compression = c
    rw [hacc.compression]
    exact hw.fileMeta.announced
  cases k with
  | none =>
    obtain ⟨acc, b, s', hacc, _, _, ho⟩ := openReader_eof hw
    rw [ho] at hR
    exact key acc hacc _ hR
  | some kp =>
    obtain ⟨acc, b, s', hacc, _, _, _, ho⟩ := openReader_stop hw
    rw [ho] at hR
    exact key acc hacc _ hR

theorem encoding_utf8 (b : Byte) : IsUtf8 (ascii ((encodingNames.lookup b.toNat).getD "WINDOWS-1252")) := by
  have h : ∀ n, n < 256 → utf8Valid (ascii ((encodingNames.lookup n).getD "WINDOWS-1252")) = true := by decide +kernel
  exact ByteArray.validateUTF8_eq_true_iff.mp (h b.toNat b.toNat_lt)

theorem sees_of_file {h : FileHeader} {k : Compression} {d : DataSet} {R : Reader IFStream} (hb : ReadsBack h d R)
    (hk : R.props.md.compression = k) {name : List Byte} {x : PyAttr} (hx : PySeesFile h k d name x) :
    PySees R.props name x := by
  have hh := hb.header
  cases hx with
  | format =>
    have := PySees.format (p := R.props)
    rw [hh.format] at this
    cases hw : h.wide
    · rw [hw] at this; exact this
    · rw [hw] at this; exact this
  | endianness => rw [← hh.endian]; exact .endianness
  | platform => rw [← hh.platform]; exact .platform
  | dataset_name hx => exact .dataset_name (hh.datasetName ▸ hx)
  | encoding hx =>
    refine .encoding ⟨?_, ?_⟩
    · rw [hh.encoding]; exact encoding_utf8 _
    · rw [hh.encoding]; exact hx
  | file_type hx => exact .file_type (hh.fileType ▸ hx)
  | sas_release hx => exact .sas_release (hh.sasRelease ▸ hx)
  | sas_server_type hx => exact .sas_server_type (hh.serverType ▸ hx)
  | os_type hx => exact .os_type (hh.osType ▸ hx)
  | os_name hx => exact .os_name (hh.osName ▸ hx)
  | header_length hx => exact .header_length (hh.headerLength ▸ hx)
  | page_length hx => exact .page_length (hh.pageLength ▸ hx)
  | page_count hx => exact .page_count (hh.pageCount ▸ hx)
  | compression => rw [← hk]; exact .compression
  | row_length hx => exact .row_length (hb.rowLength ▸ hx)
  | row_count hx => exact .row_count (hb.rowCount ▸ hx)
  | column_count hx => exact .column_count (hb.columnCount ▸ hx)

theorem stored_stamp {bits : Nat} {t : DateTime} (h : Shows bits t) (hc : IeeeNaN bits ∨ InCalendar bits) :
    ∃ x, StampSeen t x ∧ StoredStampSeen bits x := by
  have key : ∃ x, StampSeen t x := by
    rcases hc with hc | hc
    · rcases h with ⟨-, rfl⟩ | ⟨x', us, hx', -⟩
      · exact ⟨_, .time .none, .inl ⟨rfl, rfl⟩, rfl⟩
      · have e1 := ofBits_nan hc
        rw [(ofBits_value hx').1] at e1
        cases e1
    · obtain ⟨us, rfl, hu⟩ := shows_inYears hc h
      obtain ⟨y, -, hy⟩ := py_instant hu
      exact ⟨_, y, .inr ⟨us, rfl, hu, hy⟩, rfl⟩
  obtain ⟨x, hx⟩ := key
  exact ⟨x, hx, t, h, hx⟩

/-- **C92** for written files, partial: after any calls of the reader, a Python program sees the header, the sizes, the dates
and the columns that were written. Missing, and false: texts that are not UTF-8 and dates outside of the years 1400 to 9999;
compressed rows in the forms that are not decompressed correctly (C16, C17). -/
theorem C92_written_partial (cfg : Cfg) (l : Layout) (d : DataSet) (fuel : Nat) (hl : l.For d)
    (hr : l.Plain d ∨ l.Compressed d) (hm : Machine cfg l.header d)
    (hf : l.metaPages.length + l.rowPages.length < fuel) :
    ∃ R, openReader cfg ifs fuel none (IFStream.open (l.write d)) = .ok R ∧ ∀ ops : List Op,
      (∀ name x, PySeesFile l.header l.compression d name x → pyProperty (R.run ifs ops).2.props name = .ok x) ∧
      (IeeeNaN l.header.created ∨ InCalendar l.header.created →
        ∃ x, pyProperty (R.run ifs ops).2.props (ascii "date_created") = .ok x ∧ StoredStampSeen l.header.created x) ∧
      (IeeeNaN l.header.modified ∨ InCalendar l.header.modified →
        ∃ x, pyProperty (R.run ifs ops).2.props (ascii "date_modified") = .ok x ∧ StoredStampSeen l.header.modified x) ∧
      ∃ cs, pyProperty (R.run ifs ops).2.props (ascii "columns") = .ok (.columns cs) ∧
        List.Forall₂ (fun col c => ∀ name x, PySeesDesc c name x → pyColumnAttr col name = .ok x) cs d.columns := by
  obtain ⟨R, hR, hb⟩ := readsBack hl hr hm hf
  have hk : R.props.md.compression = l.compression := by
    obtain ⟨ps, k, tail, n, hp, hps, htail⟩ := pages_written hl hr
    have hok : ∀ p ∈ l.rowPages, RowsOk l d p := by
      rcases hr with hr | hr
      · exact plain_rowsOk hl hr
      · exact packed_rowsOk hl hr
    have hw := written_wellFormed hl hp hok (cfg := cfg) (fuel := fuel) ⟨hm.header, hm.page, hm.row⟩ hm.loggable
      (by omega) hps (pageLength_pos hl)
    exact C60_compression cfg ifs _ _ _ _ _ _ _ _ fuel none hw R hR
  refine ⟨R, hR, fun ops => ?_⟩
  rw [Reader.run_props ops R (openReader_spec hR).1]
  refine ⟨fun name x hx => C92_python_partial _ (sees_of_file hb hk hx), fun hc => ?_, fun hc => ?_, R.props.columns, rfl, ?_⟩
  · obtain ⟨x, h1, h2⟩ := stored_stamp hb.header.dateCreated hc
    exact ⟨x, C92_python_partial _ (.date_created h1), h2⟩
  · obtain ⟨x, h1, h2⟩ := stored_stamp hb.header.dateModified hc
    exact ⟨x, C92_python_partial _ (.date_modified h1), h2⟩
  · rw [List.forall₂_iff_get]
    refine ⟨hb.count, fun i h1 h2 name x hx => C92_columns_partial _ ?_⟩
    have hc := hb.columns i _ _ (List.getElem?_eq_getElem h1) (List.getElem?_eq_getElem h2)
    show PySeesColumn R.props.columns[i] name x
    cases hx with
    | name hx => exact .name (hc.name ▸ hx)
    | format hx => exact .format (hc.format ▸ hx)
    | label hx => exact .label (hc.label ▸ hx)
    | type =>
      have := PySeesColumn.type (c := R.props.columns[i])
      rw [hc.type] at this
      exact this

/-- **C92** is false of dates outside of the years 1400 to 9999, for example the first day of the year 10000: whatever the
file, the property cannot be read. -/
theorem C92_date_refuted (p : Properties) (h : p.header.dateCreated = at1960 (2936550 * 86400000000)) :
    pyProperty p (ascii "date_created") = .error (.cpp (.exn .outOfRange)) := by
  show pyStamp p.header.dateCreated = _
  rw [h]
  decide +kernel

/-- The demonstration file. -/
example : pyProperty Demo.reader.props (ascii "row_count") = .ok (.val (.int 3)) ∧
    pyProperty Demo.reader.props (ascii "endianness") = .ok (.enum (ascii "little")) ∧
    pyProperty Demo.reader.props (ascii "rows") = .error .raised := by
  decide +kernel

/-- The written file of people. -/
example : ∃ R, openReader Demo.cfg ifs 100 none (IFStream.open ((Layout.packed demoDated people).write people)) = .ok R ∧
    ∀ ops : List Op, pyProperty (R.run ifs ops).2.props (ascii "row_count") = .ok (.val (.int 3)) ∧
      ∃ cs, pyProperty (R.run ifs ops).2.props (ascii "columns") = .ok (.columns cs) ∧ cs.length = 4 := by
  obtain ⟨R, h1, h2⟩ := C92_written_partial Demo.cfg _ _ 100 people_packed.1 (.inl people_packed.2) people_machine_dated
    (by decide +kernel)
  refine ⟨R, h1, fun ops => ?_⟩
  obtain ⟨g1, -, -, cs, g2, g3⟩ := h2 ops
  have hrows : people.rows.length = 3 := by decide
  have hcols : people.columns.length = 4 := by decide
  exact ⟨g1 _ _ (.row_count (show PyAttr.val (.int 3) = .val (.int (people.rows.length : Nat)) by rw [hrows]; rfl)), cs, g2,
    by rw [g3.length_eq, hcols]⟩

/-- A label in Latin-1 cannot be read. -/
example : ¬ IsUtf8 [0x4D, 0xFC] := fun h =>
  absurd (ByteArray.validateUTF8_eq_true_iff.mpr h) (by decide +kernel)

end Sas.Props
