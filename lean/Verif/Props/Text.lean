import Verif.Proofs.Cli
import Verif.Props.PySinks
import Verif.Props.Header

/-!
# Properties C29 (csv), C58 (print), C59 (null), C34, C33 (the command line) and C48 (csv to a file)

What a text sink writes is a function of the calls the reader has made, its trace. The theorems are about
the traces of opened readers, for any source, column filter and history of calls.
-/

namespace Sas.Props
open Sas Spec

variable {σ : Type} {S : Source σ}

/-- Texts to run the concrete cases with: all numbers are `1`, fixed `1.0`. -/
def someTexts : Texts := ⟨fun _ => ascii "1", fun _ => ascii "1.0", fun _ => ascii "-1"⟩

theorem printed_ok {p : Printed} (h : p.2 = .ok ()) : p = (p.1, .ok ()) := by
  rw [← h]

/-! ## C29 -/

/-- C29, partial. Whatever is read from a data set with at least one column, the csv sink writes a text whose
records (RFC 4180) are the column names followed by one record per pushed row, with one field per column in
column order. Assumed: the names and strings contain no double quote, the dates lie in the years 1400 to 9999
or are missing, and the text of a number contains no comma, quote or line feed. Missing, and false
(`C29_refuted`, `C29_date_refuted`): other strings and dates. -/
theorem C29_partial {cfg : Cfg} {fuel : Nat} {filter : Option Filter} {s : σ} {R : Reader σ}
    (h : openReader cfg S fuel filter s = .ok R) (ops : List Op) (x : Texts) (hx : ∀ y, Plain (x.number y))
    (hne : R.props.columns ≠ []) (hnames : ∀ c ∈ R.props.columns, 34 ∉ c.name)
    (hcells : ∀ r ∈ pushes (R.run S ops).2.trace, ∀ c ∈ typed R.props.columns,
      ∃ v, c.value r.2.mem = .ok (some v) ∧ Writable v) :
    ∃ text table, csvText x (R.run S ops).2.trace = (text, .ok ())
      ∧ csvRecords text = some (R.props.columns.map Column.name :: table)
      ∧ List.Forall₂ (CsvRow x R.props.columns) (pushes (R.run S ops).2.trace) table := by
  obtain ⟨es, h1, -, h2, -, -⟩ := C08_protocol h ops
  rw [h1] at hcells ⊢
  simp only [pushes] at hcells ⊢
  obtain ⟨ls, rs, k1, k2, k3⟩ := csv_run x hx R.props.columns hne es h2 hcells
  obtain ⟨hs, g1, g2⟩ := csv_header x R.props.columns hnames
  refine ⟨(hs :: ls).flatMap (fun es => commas es ++ [10]), rs, ?_, ?_, k3⟩
  · unfold csvText
    rw [runText, show (csvStep x [] (.setProperties R.props)).2 = R.props.columns from rfl, k1]
    show (csvLine (R.props.columns.map fun c => sayRes ((Cell.str c.name).csvText x))).andThen _ = _
    rw [g1, csvLine_say, say_say]
    rfl
  · refine parse_lines (hs :: ls) (R.props.columns.map Column.name :: rs) (.cons ⟨?_, g2⟩ k2)
    rintro rfl
    have := congrArg List.length g1
    simp at this
    exact hne this

/-- The hypotheses are met, and what comes out. -/
example : Demo.reader.props.columns ≠ [] ∧ (∀ c ∈ Demo.reader.props.columns, 34 ∉ c.name) ∧
    csvText someTexts (Demo.reader.run ifs [.readAll]).2.trace
      = say (ascii "\"ID\",\"NAME\"\n1,\"ann\"\n1,\"bob\"\n1,\"cy\"\n") := by decide +kernel

example : ∀ r ∈ pushes (Demo.reader.run ifs [.readAll]).2.trace, ∀ c ∈ typed Demo.reader.props.columns,
    ∃ v, c.value r.2.mem = .ok (some v) ∧ Writable v := by
  have h : ∀ r ∈ pushes (Demo.reader.run ifs [.readAll]).2.trace, ∀ c ∈ typed Demo.reader.props.columns,
      (match c.value r.2.mem with
       | .ok (some (.str s)) => decide (34 ∉ s) | .ok (some (.num _)) => true | _ => false) = true := by
    decide +kernel
  intro r hr c hc
  have := h r hr c hc
  cases hv : c.value r.2.mem with
  | error e => rw [hv] at this; cases this
  | ok v =>
    rw [hv] at this
    cases v with
    | none => cases this
    | some v => cases v <;> first | (cases this; done) | exact ⟨_, rfl, by simpa [Writable] using this⟩

/-- A file whose first name is `"n","` instead of `ann` (with the blanks after it). -/
def quoteReader : Reader IFStream :=
  Demo.get (patched [(1220, 110), (1221, 34), (1222, 44), (1223, 34), (1224, 110), (1225, 110)])

/-- C29 is false of strings with double quotes, which are not doubled: here the name `n","nn` becomes two
fields, so that the record has three fields for two columns. -/
theorem C29_refuted : ∃ R : Reader IFStream, Reachable ifs R ∧ R.props.columns.length = 2 ∧
    (∃ r ∈ pushes (R.run ifs [.readAll]).2.trace, ∃ c ∈ R.props.columns,
      c.value r.2.mem = .ok (some (.str (ascii "n\",\"nn")))) ∧
    ∃ text, csvText someTexts (R.run ifs [.readAll]).2.trace = (text, .ok ()) ∧
      csvRecords text = some [[ascii "ID", ascii "NAME"], [ascii "1", ascii "n", ascii "nn"],
        [ascii "1", ascii "bob"], [ascii "1", ascii "cy"]] := by
  refine ⟨quoteReader, patched_reachable (by decide +kernel), by decide +kernel, ?_, ?_⟩
  · decide +kernel
  · exact ⟨_, printed_ok (by decide +kernel), by decide +kernel⟩

/-- C29. The csv sink fails on a row exactly when a cell cannot be read or is a date outside the years 1400
to 9999: writing succeeds if and only if every cell of every pushed row has a text. -/
theorem C29_fails {cfg : Cfg} {fuel : Nat} {filter : Option Filter} {s : σ} {R : Reader σ}
    (h : openReader cfg S fuel filter s = .ok R) (ops : List Op) (x : Texts) :
    (csvText x (R.run S ops).2.trace).2 = .ok () ↔
      ∀ r ∈ pushes (R.run S ops).2.trace, ∀ c ∈ typed R.props.columns,
        ∃ v t, c.value r.2.mem = .ok (some v) ∧ v.csvText x = .ok t := by
  obtain ⟨es, h1, -, h2, -, -⟩ := C08_protocol h ops
  rw [h1]
  unfold csvText
  rw [runText, andThen_ok, show (csvStep x [] (.setProperties R.props)).2 = R.props.columns from rfl,
    runText_ok (csvStep_cols x R.props.columns) h2]
  simp only [csvStep_header_ok, true_and, pushes]
  constructor
  · intro hall r hr c hc
    have hl := hall _ (mem_pushes.2 hr)
    simp only [csvStep] at hl
    rw [csvLine_ok] at hl
    simp only [typed, List.mem_filter, decide_eq_true_eq] at hc
    have hcell := hl _ (List.mem_map.2 ⟨c, hc.1, rfl⟩)
    unfold csvCell at hcell
    rw [sayRes_ok] at hcell
    obtain ⟨t, ht⟩ := hcell
    cases hv : c.value r.2.mem with
    | error e => rw [hv] at ht; cases ht
    | ok v =>
      cases v with
      | none =>
        exfalso
        unfold Column.value at hv
        cases htype : c.type <;> rw [htype] at hv <;> simp only at hv
        · exact hc.2 htype
        all_goals
          revert hv
          first
          | (cases c.getString r.2.mem <;> intro hv <;> cases hv)
          | (cases c.getNumber r.2.mem <;> intro hv <;> cases hv)
          | (cases c.getInteger r.2.mem <;> intro hv <;> cases hv)
          | (cases c.getDatetime r.2.mem <;> intro hv <;> cases hv)
          | (cases c.getDate r.2.mem <;> intro hv <;> cases hv)
          | (cases c.getTime r.2.mem <;> intro hv <;> cases hv)
      | some v =>
        rw [hv] at ht
        exact ⟨v, t, rfl, ht⟩
  · intro hall ev hev
    cases ev with
    | setProperties p => exact absurd hev (h2 p)
    | endOfData => rfl
    | pushRow i r =>
      simp only [csvStep]
      rw [csvLine_ok]
      intro p hp
      obtain ⟨c, hc, rfl⟩ := List.mem_map.1 hp
      by_cases hu : c.type = .unknown
      · unfold csvCell Column.value
        rw [hu]
        rfl
      · obtain ⟨v, t, hv, ht⟩ := hall _ (mem_pushes.1 hev) c (by simp [typed, hc, hu])
        unfold csvCell
        rw [hv]
        show (sayRes (v.csvText x)).2 = _
        rw [ht]
        rfl

/-- C29 is false of dates: a datetime before the year 1400 (and not before Julian day 0) has no text, so that
the sink throws at its row, with the beginning of the line written. -/
theorem C29_date_refuted {cfg : Cfg} {fuel : Nat} {filter : Option Filter} {s : σ} {R : Reader σ}
    (h : openReader cfg S fuel filter s = .ok R) (ops : List Op) (x : Texts) (us : Int)
    (h1 : -2436935 * 86400000000 ≤ us) (h2 : us < -204535 * 86400000000)
    (hr : ∃ r ∈ pushes (R.run S ops).2.trace, ∃ c ∈ R.props.columns,
      c.value r.2.mem = .ok (some (.datetime (at1960 us)))) :
    (csvText x (R.run S ops).2.trace).2 ≠ .ok () := by
  rw [Ne, C29_fails h ops x]
  intro hall
  obtain ⟨r, hr, c, hc, hv⟩ := hr
  have hu : c.type ≠ .unknown := by
    intro hu
    unfold Column.value at hv
    rw [hu] at hv
    cases hv
  obtain ⟨v, t, hv', ht⟩ := hall r hr c (by simp [typed, hc, hu])
  rw [hv] at hv'
  cases hv'
  have hd := date_early h1 h2
  have : (Cell.datetime (at1960 us)).csvText x = .error (.exn .outOfRange) := by
    show (do return (← (← (at1960 us).date).ymd).boostText ++ [32] ++ (at1960 us).timeOfDay.boostText x) = _
    rw [hd]
    rfl
  rw [this] at ht
  cases ht

/-- A file whose first column is a datetime (format `DATETIME`), in its first row 10^11 seconds before 1960 (in
the year 1210 BC). -/
def earlyReader : Reader IFStream :=
  Demo.get (patched [(976, 68), (977, 65), (978, 84), (979, 69), (980, 84), (981, 73), (982, 77), (983, 69), (1114, 8), (1212, 0), (1213, 0), (1214, 0), (1215, 232), (1216, 118), (1217, 72), (1218, 55), (1219, 194)])

/-- The hypotheses of `C29_date_refuted` are met. -/
example : Reachable ifs earlyReader ∧ ∃ r ∈ pushes (earlyReader.run ifs [.readAll]).2.trace,
    ∃ c ∈ earlyReader.props.columns, c.value r.2.mem = .ok (some (.datetime (at1960 (-100000000000000000)))) :=
  ⟨patched_reachable (by decide +kernel), by decide +kernel⟩

/-! ## C58 -/

/-- The trace of an opened reader, for the print sink. -/
theorem print_listing (x : Texts) (p : Properties) (es : List Event) (hes : ∀ p, Event.setProperties p ∉ es)
    (h1 : p.header.dateCreated = .notADateTime ∨
      ∃ us, p.header.dateCreated = at1960 us ∧ CalendarDay (us / 86400000000))
    (h2 : p.header.dateModified = .notADateTime ∨
      ∃ us, p.header.dateModified = at1960 us ∧ CalendarDay (us / 86400000000))
    (hnames : ∀ c ∈ p.columns, 123 ∉ c.name ∧ 125 ∉ c.name)
    (hcells : ∀ r ∈ pushes es, ∀ c ∈ p.columns, ∃ t, c.toText x.fixed r.2.mem = .ok t) :
    ∃ lines, printText x (.setProperties p :: es) = (unlines lines, .ok ()) ∧ Listing x p (pushes es) lines := by
  obtain ⟨file, columns, a1, a2, a3⟩ := fileLines x p h1 h2
  obtain ⟨data, b1, b2⟩ := print_run x p.columns es hes hcells
  have hn : sayAll (p.columns.map fun c => (say [44]).andThen (sayRes (fmtBare c.name)))
      = say (p.columns.flatMap ([44] ++ ·.name)) := by
    rw [sayAll_map (g := fun c => [44] ++ c.name)]
    · rfl
    · intro c hc
      rw [fmtBare_plain (hnames c hc).1 (hnames c hc).2]
      rfl
  refine ⟨_, ?_, file, columns, data, a1, a2, b2, rfl⟩
  unfold printText
  rw [runText, show (printStep x [] (.setProperties p)).2 = p.columns from rfl, b1]
  simp only [printStep]
  rw [a3, hn]
  simp only [say_say]
  show (_, _) = _
  refine Prod.ext ?_ rfl
  simp [unlines]

/-- C58, partial. Whatever is read, the print sink writes the listing: the properties of the file and of the
columns, the line of names, and one line per pushed row with its index and the texts of its cells. Assumed:
the dates in the header are missing or in the years 1400 to 9999, no column name contains a brace, every cell
has a text (C52). Missing, and false: other names and cells (`C58_brace_refuted`, `C58_cells`). -/
theorem C58_partial {cfg : Cfg} {fuel : Nat} {filter : Option Filter} {s : σ} {R : Reader σ}
    (h : openReader cfg S fuel filter s = .ok R) (ops : List Op) (x : Texts)
    (h1 : R.props.header.dateCreated = .notADateTime ∨
      ∃ us, R.props.header.dateCreated = at1960 us ∧ CalendarDay (us / 86400000000))
    (h2 : R.props.header.dateModified = .notADateTime ∨
      ∃ us, R.props.header.dateModified = at1960 us ∧ CalendarDay (us / 86400000000))
    (hnames : ∀ c ∈ R.props.columns, 123 ∉ c.name ∧ 125 ∉ c.name)
    (hcells : ∀ r ∈ pushes (R.run S ops).2.trace, ∀ c ∈ R.props.columns,
      ∃ t, c.toText x.fixed r.2.mem = .ok t) :
    ∃ lines, printText x (R.run S ops).2.trace = (unlines lines, .ok ())
      ∧ Listing x R.props (pushes (R.run S ops).2.trace) lines := by
  obtain ⟨es, e1, -, e2, -, -⟩ := C08_protocol h ops
  rw [e1] at hcells ⊢
  exact print_listing x R.props es e2 h1 h2 hnames hcells

/-- The hypotheses are met, and what comes out. -/
example : Demo.reader.props.header.dateCreated = at1960 0 ∧ Demo.reader.props.header.dateModified = at1960 0 ∧
    (∀ c ∈ Demo.reader.props.columns, 123 ∉ c.name ∧ 125 ∉ c.name) ∧
    (∀ r ∈ pushes (Demo.reader.run ifs [.readAll]).2.trace, ∀ c ∈ Demo.reader.props.columns,
      (c.toText someTexts.fixed r.2.mem).isOk = true) ∧
    (printText someTexts (Demo.reader.run ifs [.readAll]).2.trace).1.drop 530
      = ascii "#,ID,NAME\n0,1.0,ann\n1,1.0,bob\n2,1.0,cy\n" := by decide +kernel

/-- C58 is false of column names with braces: the name is used as a format string. A single opening brace in
a name makes `set_properties`, and with it the construction of the reader, throw, whatever the file
contains. -/
theorem C58_brace_refuted {cfg : Cfg} {fuel : Nat} {filter : Option Filter} {s : σ} {R : Reader σ}
    (h : openReader cfg S fuel filter s = .ok R) (ops : List Op) (x : Texts) (c : Column) (a b : List Byte)
    (hc : c ∈ R.props.columns) (hname : c.name = a ++ [123] ++ b) (ha : 123 ∉ a ∧ 125 ∉ a)
    (hb : b.head? ≠ some 123) : (printText x (R.run S ops).2.trace).2 ≠ .ok () := by
  obtain ⟨es, e1, -, e2, -, -⟩ := C08_protocol h ops
  rw [e1]
  intro hok
  unfold printText at hok
  rw [runText, andThen_ok] at hok
  replace hok := hok.1
  simp only [printStep] at hok
  rw [andThen_ok, andThen_ok, andThen_ok, sayAll_ok] at hok
  have := hok.2.2.1 _ (List.mem_map.2 ⟨c, hc, rfl⟩)
  rw [andThen_ok, sayRes_ok, hname, List.append_assoc, List.singleton_append, fmtBare_brace ha.1 ha.2 hb] at this
  obtain ⟨-, t, ht⟩ := this
  cases ht

/-- A file whose first column is called `{}`. -/
def braceReader : Reader IFStream := Demo.get (patched [(964, 123), (965, 125)])

/-- The hypotheses are met; the exception is `fmt::format_error`. -/
example : Reachable ifs braceReader ∧ braceReader.props.columns.map Column.name = [ascii "{}", ascii "NAME"] ∧
    (printText someTexts braceReader.trace).2 = .error (.exn .formatError) :=
  ⟨patched_reachable (by decide +kernel), by decide +kernel⟩

/-- C58. The print sink fails on a row whenever one of its cells has no text (missing dates, for one:
`C52_refuted`). -/
theorem C58_cells {cfg : Cfg} {fuel : Nat} {filter : Option Filter} {s : σ} {R : Reader σ}
    (h : openReader cfg S fuel filter s = .ok R) (ops : List Op) (x : Texts)
    (hok : (printText x (R.run S ops).2.trace).2 = .ok ()) :
    ∀ r ∈ pushes (R.run S ops).2.trace, ∀ c ∈ R.props.columns, ∃ t, c.toText x.fixed r.2.mem = .ok t := by
  obtain ⟨es, e1, -, e2, -, -⟩ := C08_protocol h ops
  rw [e1] at hok ⊢
  unfold printText at hok
  rw [runText, andThen_ok, show (printStep x [] (.setProperties R.props)).2 = R.props.columns from rfl,
    runText_ok (printStep_cols x R.props.columns) e2] at hok
  intro r hr c hc
  have hl := hok.2 _ (mem_pushes.2 hr)
  simp only [printStep] at hl
  rw [andThen_ok, andThen_ok, sayAll_ok] at hl
  have := hl.2.1 _ (List.mem_map.2 ⟨c, hc, rfl⟩)
  rw [sayRes_ok] at this
  obtain ⟨t, ht⟩ := this
  cases hv : c.toText x.fixed r.2.mem with
  | error e => rw [hv] at ht; cases ht
  | ok t => exact ⟨t, rfl⟩

/-! ## C59 -/

theorem nullRow_ok (cols : List Column) (mem : List Byte) :
    (cols.forM fun c => do let _ ← c.value mem) = (.ok () : Res Unit) ↔ ∀ c ∈ cols, ∃ v, c.value mem = .ok v := by
  induction cols with
  | nil => simp [List.forM_nil, pure, Except.pure]
  | cons c cols ih =>
    rw [List.forM]
    cases hv : c.value mem with
    | error e =>
      constructor
      · intro h; cases h
      · intro h; obtain ⟨v, hv'⟩ := h c (by simp); rw [hv] at hv'; cases hv'
    | ok v =>
      show (cols.forM fun c => do let _ ← c.value mem) = (.ok () : Res Unit) ↔ _
      rw [ih]
      simp [hv]

/-- C59. The null sink accepts what it is given if and only if every cell of the pushed rows can be read. -/
theorem C59_null {cfg : Cfg} {fuel : Nat} {filter : Option Filter} {s : σ} {R : Reader σ}
    (h : openReader cfg S fuel filter s = .ok R) (ops : List Op) :
    nullRun [] (R.run S ops).2.trace = .ok () ↔
      ∀ r ∈ pushes (R.run S ops).2.trace, ∀ c ∈ R.props.columns, ∃ v, c.value r.2.mem = .ok v := by
  obtain ⟨es, e1, -, e2, -, -⟩ := C08_protocol h ops
  rw [e1]
  show nullRun R.props.columns es = .ok () ↔ ∀ r ∈ pushes es, _
  clear e1
  induction es with
  | nil => simp [nullRun, pushes]
  | cons ev es ih =>
    have hes : ∀ p, Event.setProperties p ∉ es := fun p h => e2 p (by simp [h])
    cases ev with
    | setProperties p => exact absurd (by simp) (e2 p)
    | endOfData => exact ih hes
    | pushRow i r =>
      simp only [pushes, List.mem_cons, forall_eq_or_imp]
      rw [← ih hes, ← nullRow_ok]
      rw [nullRun, nullStep]
      cases hf : (R.props.columns.forM fun c => do let _ ← c.value r.mem : Res Unit) with
      | error e => constructor <;> intro h <;> [cases h; cases h.1]
      | ok u => simp [bind, Except.bind, pure, Except.pure]

example : nullRun [] (Demo.reader.run ifs [.readAll]).2.trace = .ok () := by decide +kernel

/-! ## C34 -/

/-- C34. With a limit `k ≥ 0` the rows printed are the first `k` of those `read_all` delivers, and nothing fails
if there are as many; otherwise the end is that of `read_all`. Without a limit (a negative one) everything is
as with `read_all`. -/
theorem C34_limit {cfg : Cfg} {fuel : Nat} {filter : Option Filter} {s : σ} {R : Reader σ}
    (h : openReader cfg S fuel filter s = .ok R) :
    (∀ k : Nat,
      pushes (printLoop S (R.props.md.rowCount - R.rd.row + 1) k R).2.trace = (pushes (R.readAll S).2.trace).take k ∧
      (printLoop S (R.props.md.rowCount - R.rd.row + 1) k R).1 =
        if k ≤ (pushes (R.readAll S).2.trace).length then .ok () else (R.readAll S).1) ∧
    ∀ n : Int, n < 0 → printLoop S (R.props.md.rowCount - R.rd.row + 1) n R = R.readAll S := by
  obtain ⟨hinv, -, ht⟩ := openReader_spec h
  refine ⟨fun k => ?_, fun n hn => printLoop_neg _ n R hn⟩
  have := printLoop_take (S := S) (R.props.md.rowCount - R.rd.row + 1) k R hinv
  rw [show (pushes R.trace).length = 0 by rw [ht]; rfl, Nat.zero_add] at this
  exact this

example : (pushes (printLoop ifs 10 2 Demo.reader).2.trace).length = 2 ∧
    (pushes (Demo.reader.readAll ifs).2.trace).length = 3 := by decide +kernel

/-- C34, on the command line, for a file whose reading may fail: `print --nlines=n file` writes the listing of the first
`n` of the rows that can be read, and ends with the failure of the reader exactly when more rows are asked for than
can be read. -/
theorem C34_damaged (cfg : Cfg) (x : Texts) (fuel : Nat) (fs : FileSystem) (name data : List Byte) (n : Int)
    (R : Reader IFStream) (hf : fs.content name = some data)
    (h : openReader cfg ifs fuel none (IFStream.open data) = .ok R)
    (h1 : R.props.header.dateCreated = .notADateTime ∨
      ∃ us, R.props.header.dateCreated = at1960 us ∧ CalendarDay (us / 86400000000))
    (h2 : R.props.header.dateModified = .notADateTime ∨
      ∃ us, R.props.header.dateModified = at1960 us ∧ CalendarDay (us / 86400000000))
    (hnames : ∀ c ∈ R.props.columns, 123 ∉ c.name ∧ 125 ∉ c.name)
    (hcells : ∀ r ∈ pushes (R.run ifs [.readAll]).2.trace, ∀ c ∈ R.props.columns,
      ∃ t, c.toText x.fixed r.2.mem = .ok t) :
    ∃ lines, processPrint cfg x fuel fs name n = (unlines lines,
        if n < 0 ∨ ((pushes (R.run ifs [.readAll]).2.trace).length : Int) < n then (R.readAll ifs).1 else .ok ()) ∧
      Listing x R.props (if n < 0 then pushes (R.run ifs [.readAll]).2.trace
        else (pushes (R.run ifs [.readAll]).2.trace).take n.toNat) lines := by
  have hrun : (R.run ifs [.readAll]).2 = (R.readAll ifs).2 := by
    rw [Reader.run_cons]
    simp only [Reader.step]
    generalize R.readAll ifs = y at *
    obtain ⟨r, R1⟩ := y
    rcases r with (_ | _ | _ | _) | _ <;> rfl
  rw [hrun] at hcells ⊢
  obtain ⟨L1, L2⟩ := C34_limit h
  -- what the loop pushes, and that it starts with the properties
  have hloop : (printLoop ifs (R.props.md.rowCount - R.rd.row + 1) n R).1 =
        (if n < 0 ∨ ((pushes (R.readAll ifs).2.trace).length : Int) < n then (R.readAll ifs).1 else .ok ()) ∧
      pushes (printLoop ifs (R.props.md.rowCount - R.rd.row + 1) n R).2.trace
        = (if n < 0 then pushes (R.readAll ifs).2.trace else (pushes (R.readAll ifs).2.trace).take n.toNat) := by
    by_cases hn : n < 0
    · rw [L2 n hn, if_pos hn, if_pos (.inl hn)]
      exact ⟨rfl, rfl⟩
    · obtain ⟨k, rfl⟩ : ∃ k : Nat, n = k := ⟨n.toNat, by omega⟩
      rw [if_neg hn, (L1 k).1, (L1 k).2]
      refine ⟨?_, by simp⟩
      by_cases hk : k ≤ (pushes (R.readAll ifs).2.trace).length
      · rw [if_pos hk, if_neg (by omega)]
      · rw [if_neg hk, if_pos (by omega)]
  have htrace : ∃ es, (printLoop ifs (R.props.md.rowCount - R.rd.row + 1) n R).2.trace = .setProperties R.props :: es ∧
      ∀ p, Event.setProperties p ∉ es := by
    obtain ⟨k, hk⟩ := printLoop_iter (S := ifs) (R.props.md.rowCount - R.rd.row + 1) n R
    obtain ⟨hinv, -, ht⟩ := openReader_spec h
    obtain ⟨es, he, hp⟩ := iter_trace (S := ifs) k R hinv
    rw [hk, he, ht]
    exact ⟨es, rfl, hp⟩
  obtain ⟨es, he, hp⟩ := htrace
  rw [he] at hloop
  simp only [pushes] at hloop
  obtain ⟨lines, p1, p2⟩ := print_listing x R.props es hp h1 h2 hnames (by
    intro r hr
    refine hcells r ?_
    rw [hloop.2] at hr
    split at hr
    · exact hr
    · exact List.mem_of_mem_take hr)
  refine ⟨lines, ?_, by rw [← hloop.2]; exact p2⟩
  unfold processPrint openFile
  rw [hf]
  simp only [h]
  generalize printLoop ifs (R.props.md.rowCount - R.rd.row + 1) n R = y at *
  obtain ⟨r, R1⟩ := y
  simp only at hloop he ⊢
  rw [he, hloop.1, p1]
  simp [Printed.andThen]

/-- C34, on the command line. `print --nlines=n file` writes the listing of the first `n` rows of the file, all of
them for a negative `n` (also when there are fewer), for every file that is opened and read without failure and
whose names and cells can be printed (C58). -/
theorem C34_print (cfg : Cfg) (x : Texts) (fuel : Nat) (fs : FileSystem) (name data : List Byte) (n : Int)
    (R : Reader IFStream) (hf : fs.content name = some data)
    (h : openReader cfg ifs fuel none (IFStream.open data) = .ok R) (hall : (R.readAll ifs).1 = .ok ())
    (h1 : R.props.header.dateCreated = .notADateTime ∨
      ∃ us, R.props.header.dateCreated = at1960 us ∧ CalendarDay (us / 86400000000))
    (h2 : R.props.header.dateModified = .notADateTime ∨
      ∃ us, R.props.header.dateModified = at1960 us ∧ CalendarDay (us / 86400000000))
    (hnames : ∀ c ∈ R.props.columns, 123 ∉ c.name ∧ 125 ∉ c.name)
    (hcells : ∀ r ∈ pushes (R.run ifs [.readAll]).2.trace, ∀ c ∈ R.props.columns,
      ∃ t, c.toText x.fixed r.2.mem = .ok t) :
    ∃ lines, processPrint cfg x fuel fs name n = (unlines lines, .ok ()) ∧
      Listing x R.props (if n < 0 then pushes (R.run ifs [.readAll]).2.trace
        else (pushes (R.run ifs [.readAll]).2.trace).take n.toNat) lines := by
  have := C34_damaged cfg x fuel fs name data n R hf h h1 h2 hnames hcells
  rwa [hall, ite_self] at this

/-! ## C48 -/

/-- C48 is false of a sink given as a temporary, `Reader(source, datasink::csv(name))`, for every data set: the
file stays empty whatever is read, and the first row that is pushed is written through a reference to a
destroyed stream, which is undefined behaviour. -/
theorem C48_refuted {cfg : Cfg} {fuel : Nat} {filter : Option Filter} {s : σ} {R : Reader σ}
    (h : openReader cfg S fuel filter s = .ok R) (ops : List Op) (x : Texts) (name : List Byte) (w : World)
    (hw : w.fs.writable name = true) :
    (csvToFile x .temporary name (R.run S ops).2.trace w).2.fs.content name = some [] ∧
    ((csvText x (R.run S ops).2.trace).2 = .ok () → pushes (R.run S ops).2.trace ≠ [] →
      (csvToFile x .temporary name (R.run S ops).2.trace w).1 = .error .ub) := by
  constructor
  · rw [csvToFile_temporary]
    simp only [CsvFile.construct, World.openStream, hw, if_true]
    exact put_content _ _ _
  · obtain ⟨es, e1, -, e2, -, -⟩ := C08_protocol h ops
    rw [e1]
    intro hok hne
    exact csvToFile_ub x name R.props es w e2 hok hne

/-- The hypotheses are met. -/
example : (csvText someTexts (Demo.reader.run ifs [.readAll]).2.trace).2 = .ok () ∧
    pushes (Demo.reader.run ifs [.readAll]).2.trace ≠ [] := by decide +kernel

/-- C48, partial. A sink that is a named object works: the file holds exactly what the csv sink writes (C29), and
no other file changes. -/
theorem C48_named_partial (x : Texts) (name : List Byte) (evs : List Event) (w : World)
    (hw : w.fs.writable name = true) :
    (csvToFile x .named name evs w).1 = (csvText x evs).2 ∧
    (csvToFile x .named name evs w).2.fs.content name = some (csvText x evs).1 ∧
    ∀ n, n ≠ name → (csvToFile x .named name evs w).2.fs.content n = w.fs.content n := by
  obtain ⟨w1, hw1, hs, hc, ho⟩ : ∃ w1, w.openStream 0 name = w1 ∧ w1.streams 0 = .file name ∧
      w1.fs.content name = some [] ∧ ∀ n, n ≠ name → w1.fs.content n = w.fs.content n := by
    refine ⟨_, rfl, ?_, ?_, ?_⟩
    · simp [World.openStream, hw, World.set]
    · simp only [World.openStream, hw, if_true]
      exact put_content _ _ _
    · intro n hn
      simp only [World.openStream, hw, if_true]
      exact put_other _ _ hn
  have key : ∀ evs : List Event, csvToFile x .named name evs w =
      ((CsvFile.run x ⟨0, 0⟩ [] w1 evs).1, (CsvFile.run x ⟨0, 0⟩ [] w1 evs).2.2) := by
    intro evs
    unfold csvToFile
    simp only [CsvFile.construct, hw1]
    cases evs with
    | nil => rfl
    | cons ev evs =>
      simp only [List.take_succ_cons, List.take_zero, List.drop_succ_cons, List.drop_zero]
      rw [CsvFile.run, CsvFile.run]
      generalize CsvFile.step x ⟨0, 0⟩ [] w1 ev = y
      obtain ⟨r, cols, w2⟩ := y
      cases r with
      | error e => rfl
      | ok u => rfl
  obtain ⟨r1, r2, r3⟩ := run_open x ⟨0, 0⟩ name evs [] w1 [] hs hc
  rw [key]
  exact ⟨r1, r2, fun n hn => (r3 n hn).trans (ho n hn)⟩

/-! ## C33 -/

/-- C33 is false, for every input the program may write to: `cppsas7bdat-ci csv file` empties the file, fails with
`header_too_short`, and writes no other file. This does not depend on the unspecified order of evaluation. -/
theorem C33_refuted (cfg : Cfg) (x : Texts) (fuel : Nat) (sourceFirst : Bool) (fs : FileSystem)
    (name data : List Byte) (hmem : 288 ≤ cfg.maxAlloc) (hf : fs.content name = some data)
    (hw : fs.writable name = true) :
    (processCsv cfg x fuel sourceFirst fs name).1 = .error (.exn .headerTooShort) ∧
    (processCsv cfg x fuel sourceFirst fs name).2.content name = some [] ∧
    ∀ n, n ≠ name → (processCsv cfg x fuel sourceFirst fs name).2.content n = fs.content n := by
  have hopen : (CsvFile.construct ⟨fs, fun _ => .destroyed⟩ 0 name).2.fs = fs.put name [] := by
    simp [CsvFile.construct, World.openStream, hw, World.set]
  have hr := (C11_file cfg fuel none [] hmem).1 (by simp)
  have key : processCsv cfg x fuel sourceFirst fs name = (.error (.exn .headerTooShort), fs.put name []) := by
    unfold processCsv
    simp only [hopen]
    have h1 : openFile fs name = .ok (IFStream.open data) := by unfold openFile; rw [hf]
    have h2 : openFile (fs.put name []) name = .ok (IFStream.open []) := by
      unfold openFile; rw [put_content]
    rw [h1, h2]
    cases sourceFirst <;> simp only [hr]
  rw [key]
  exact ⟨rfl, put_content _ _ _, fun n hn => put_other _ _ hn⟩

/-- C33. Whatever the files and the name, no file but the named one is ever changed or created: the rows go
nowhere. -/
theorem C33_no_output (cfg : Cfg) (x : Texts) (fuel : Nat) (sourceFirst : Bool) (fs : FileSystem)
    (name n : List Byte) (hn : n ≠ name) :
    (processCsv cfg x fuel sourceFirst fs name).2.content n = fs.content n := by
  have hopen : (CsvFile.construct ⟨fs, fun _ => .destroyed⟩ 0 name).2.fs.content n = fs.content n := by
    simp only [CsvFile.construct, World.openStream]
    split
    · exact put_other _ _ hn
    · rfl
  have hrun : ∀ evs, (csvToFile x .temporary name evs ⟨fs, fun _ => .destroyed⟩).2.fs.content n = fs.content n := by
    intro evs
    rw [csvToFile_temporary, hopen]
  unfold processCsv
  simp only
  split
  · rfl
  · split
    · exact hopen
    · split
      · exact hopen
      · rename_i R hR
        have h1 := hrun (R.readAll ifs).2.trace
        generalize R.readAll ifs = y at *
        obtain ⟨r, R1⟩ := y
        simp only at h1 ⊢
        generalize csvToFile x .temporary name R1.trace ⟨fs, fun _ => .destroyed⟩ = z at *
        obtain ⟨r2, w2⟩ := z
        cases r2 <;> exact h1

/-- C33, partial. A file that the program may not write to is left unchanged (nothing is: no file changes). But
when it is opened and has rows that can be written, the program has undefined behaviour. -/
theorem C33_readonly_partial (cfg : Cfg) (x : Texts) (fuel : Nat) (sourceFirst : Bool) (fs : FileSystem)
    (name : List Byte) (hw : fs.writable name = false) :
    (processCsv cfg x fuel sourceFirst fs name).2.content name = fs.content name ∧
    ∀ data R, fs.content name = some data → openReader cfg ifs fuel none (IFStream.open data) = .ok R →
      (R.readAll ifs).1 = .ok () → pushes (R.readAll ifs).2.trace ≠ [] →
      (csvText x (R.readAll ifs).2.trace).2 = .ok () →
      (processCsv cfg x fuel sourceFirst fs name).1 = .error .ub := by
  have hopen : (CsvFile.construct ⟨fs, fun _ => .destroyed⟩ 0 name).2.fs = fs := by
    simp [CsvFile.construct, World.openStream, hw, World.set]
  have hrun : ∀ evs, (csvToFile x .temporary name evs ⟨fs, fun _ => .destroyed⟩).2.fs = fs := by
    intro evs
    rw [csvToFile_temporary, hopen]
  constructor
  · unfold processCsv
    simp only [hopen]
    split
    · rfl
    · split
      · rfl
      · split
        · rfl
        · rename_i R hR
          have h1 := hrun (R.readAll ifs).2.trace
          generalize R.readAll ifs = y at *
          obtain ⟨r, R1⟩ := y
          simp only at h1 ⊢
          generalize csvToFile x .temporary name R1.trace ⟨fs, fun _ => .destroyed⟩ = z at *
          obtain ⟨r2, w2⟩ := z
          cases r2 <;> (simp only at h1 ⊢; rw [h1])
  · intro data R hf hR hall hne hok
    have hrun2 : (R.run ifs [.readAll]).2 = (R.readAll ifs).2 := by
      rw [Reader.run_cons]
      simp only [Reader.step]
      generalize R.readAll ifs = y at *
      obtain ⟨r, R1⟩ := y
      subst hall
      rfl
    obtain ⟨es, e1, -, e2, -, -⟩ := C08_protocol hR [.readAll]
    rw [hrun2] at e1
    rw [e1] at hne hok
    have hub := csvToFile_ub x name R.props es ⟨fs, fun _ => .destroyed⟩ e2 hok hne
    rw [← e1] at hub
    have h1 : openFile fs name = .ok (IFStream.open data) := by unfold openFile; rw [hf]
    unfold processCsv
    simp only [hopen, h1]
    cases sourceFirst <;>
    · simp only [hR]
      generalize R.readAll ifs = y at *
      obtain ⟨r, R1⟩ := y
      simp only at hub ⊢
      generalize csvToFile x .temporary name R1.trace ⟨fs, fun _ => .destroyed⟩ = z at *
      obtain ⟨r2, w2⟩ := z
      simp only at hub
      subst hub
      rfl

/-- A file system with one file, which may not be written to; the hypotheses of both theorems can be met. -/
example : ∃ (fs : FileSystem) (R : Reader IFStream), fs.writable (ascii "a.sas7bdat") = false ∧
    fs.content (ascii "a.sas7bdat") = some Demo.file ∧
    openReader Demo.cfg ifs 10 none (IFStream.open Demo.file) = .ok R ∧
    (R.readAll ifs).1 = .ok () ∧ pushes (R.readAll ifs).2.trace ≠ [] ∧
    (csvText someTexts (R.readAll ifs).2.trace).2 = .ok () :=
  ⟨⟨fun _ => some Demo.file, fun _ => false⟩, Demo.reader, rfl, rfl, Demo.opened_ok, by decide +kernel⟩

/-- C33. The name the program computes (and does not use): the extension is replaced by `csv`, but a name
without extension gets `csv` without a dot. -/
theorem C33_name_partial (stem ext : List Byte) (he : 46 ∉ ext) :
    csvFilename (stem ++ [46] ++ ext) = stem ++ ascii ".csv" ∧
    csvFilename ext = ext ++ ascii "csv" := by
  have hd : ∀ l : List Byte, 46 ∉ l → ∀ r, (l ++ r).dropWhile (· ≠ 46) = r.dropWhile (· ≠ 46) := by
    intro l hl r
    induction l with
    | nil => rfl
    | cons b l ih =>
      simp only [List.mem_cons, not_or] at hl
      rw [List.cons_append, List.dropWhile_cons_of_pos (by simpa using fun e => hl.1 e.symm), ih hl.2]
  have hr : 46 ∉ ext.reverse := by simpa using he
  constructor
  · unfold csvFilename
    simp only [List.reverse_append, List.reverse_cons, List.reverse_nil, List.nil_append]
    rw [hd _ hr]
    simp [ascii]
  · unfold csvFilename
    have := hd _ hr []
    rw [List.append_nil] at this
    rw [this]
    simp

example : csvFilename (ascii "dir/cars.sas7bdat") = ascii "dir/cars.csv" := by decide +kernel

end Sas.Props
