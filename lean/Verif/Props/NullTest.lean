import Verif.Props.CliMain
import Verif.Props.DateTime

/-!
# C106: the null sink as a test of a file
-/

namespace Sas.Props
open Sas Spec

variable {σ : Type} {S : Source σ}

/-- A cell that has a text can be read. -/
theorem value_of_text {show' : Num → List Byte} {c : Column} {mem t : List Byte} (h : c.toText show' mem = .ok t) :
    ∃ v, c.value mem = .ok v := by
  unfold Column.toText at h
  unfold Column.value Column.type
  cases hf : c.fmt <;> rw [hf] at h <;> simp only [Formatter.type] at h ⊢
  case none => exact ⟨_, rfl⟩
  case string => rw [h]; exact ⟨_, rfl⟩
  all_goals
    first
      | (cases hg : c.getInteger mem with
         | ok v => exact ⟨_, rfl⟩
         | error e => rw [hg] at h; cases h)
      | (cases hg : c.getNumber mem with
         | ok v => exact ⟨_, rfl⟩
         | error e => rw [hg] at h; cases h)
      | (cases hg : c.getDatetime mem with
         | ok v => exact ⟨_, rfl⟩
         | error e => rw [hg] at h; cases h)
      | (cases hg : c.getDate mem with
         | ok v => exact ⟨_, rfl⟩
         | error e => rw [hg] at h; cases h)
      | (cases hg : c.getTime mem with
         | ok v => exact ⟨_, rfl⟩
         | error e => rw [hg] at h; cases h)

/-- **C106**: whatever has been read, if the csv sink gets through it, or the print sink does, then so does the null sink. -/
theorem C106_needed {cfg : Cfg} {fuel : Nat} {filter : Option Filter} {s : σ} {R : Reader σ}
    (h : openReader cfg S fuel filter s = .ok R) (ops : List Op) (x : Texts)
    (hok : (csvText x (R.run S ops).2.trace).2 = .ok () ∨ (printText x (R.run S ops).2.trace).2 = .ok ()) :
    nullRun [] (R.run S ops).2.trace = .ok () := by
  rw [C59_null h]
  intro r hr c hc
  rcases hok with hok | hok
  · by_cases hu : c.type = .unknown
    · exact ⟨none, by unfold Column.value; rw [hu]⟩
    · obtain ⟨v, -, hv, -⟩ := (C29_fails h ops x).1 hok r hr c (by simp [typed, hc, hu])
      exact ⟨_, hv⟩
  · obtain ⟨t, ht⟩ := C58_cells h ops x hok r hr c hc
    exact value_of_text ht

/-- The dates and time stamps that have a text in CSV: those of the calendar (years 1400 to 9999) and missing ones. -/
def Dated : Cell → Prop
  | .datetime t => t = .notADateTime ∨ ∃ us, t = at1960 us ∧ CalendarDay (us / 86400000000)
  | .date d => d = .notADate ∨ ∃ n, d = day1960 n ∧ CalendarDay n
  | _ => True

theorem csvText_dated (x : Texts) {v : Cell} (h : Dated v) : ∃ t, v.csvText x = .ok t := by
  cases v with
  | str s => exact ⟨_, rfl⟩
  | num y => exact ⟨_, rfl⟩
  | int i => exact ⟨_, rfl⟩
  | time t => exact ⟨_, rfl⟩
  | datetime t =>
    rcases h with rfl | ⟨us, rfl, hc⟩
    · exact ⟨_, rfl⟩
    · obtain ⟨y, hy, -⟩ := boostText_datetime x hc
      exact ⟨_, hy⟩
  | date d =>
    rcases h with rfl | ⟨n, rfl, hc⟩
    · exact ⟨_, rfl⟩
    · obtain ⟨y, h1, -⟩ := calendarDay_ymd hc
      exact ⟨y.boostText, by
        show (do return (← (day1960 n).ymd).boostText) = _
        rw [h1]
        rfl⟩

/-- **C106**, CSV, partial. Whatever has been read, if the null sink gets through it and the dates and time stamps are in the calendar or
missing, then the csv sink gets through it. Missing, and false (`C106_dates_refuted`): other dates. -/
theorem C106_csv_partial {cfg : Cfg} {fuel : Nat} {filter : Option Filter} {s : σ} {R : Reader σ}
    (h : openReader cfg S fuel filter s = .ok R) (ops : List Op) (x : Texts) (hok : nullRun [] (R.run S ops).2.trace = .ok ())
    (hd : ∀ r ∈ pushes (R.run S ops).2.trace, ∀ c ∈ R.props.columns, ∀ v, c.value r.2.mem = .ok (some v) → Dated v) :
    (csvText x (R.run S ops).2.trace).2 = .ok () := by
  rw [C29_fails h]
  intro r hr c hc
  have hc' := List.mem_of_mem_filter hc
  obtain ⟨v, hv⟩ := (C59_null h ops).1 hok r hr c hc'
  cases v with
  | none =>
    exfalso
    have hu : c.type ≠ .unknown := by simpa [typed, hc'] using hc
    unfold Column.value at hv
    cases ht : c.type with
    | unknown => exact hu ht
    | _ =>
      rw [ht] at hv
      simp only [bind, Except.bind, pure, Except.pure] at hv
      split at hv <;> cases hv
  | some v =>
    obtain ⟨t, ht⟩ := csvText_dated x (hd r hr c hc' v hv)
    exact ⟨v, t, hv, ht⟩

/-- The dates and times that have a text in a listing: those of the calendar and of the day. -/
def Listed : Cell → Prop
  | .datetime t => ∃ us, t = at1960 us ∧ CalendarDay (us / 86400000000)
  | .date d => ∃ n, d = day1960 n ∧ CalendarDay n
  | .time t => ∃ n : Nat, t = .us n ∧ n < 86400000000
  | _ => True

theorem text_bind {α : Type} {a : α} {f : α → Res (List Byte)} {t : List Byte} (h : f a = .ok t) :
    ∃ t, (Except.ok a >>= f : Res (List Byte)) = .ok t := ⟨t, h⟩

theorem text_of_value {show' : Num → List Byte} {c : Column} {mem : List Byte} {v : Option Cell} (h : c.value mem = .ok v)
    (hl : ∀ w, v = some w → Listed w) : ∃ t, c.toText show' mem = .ok t := by
  unfold Column.value Column.type at h
  unfold Column.toText
  cases hf : c.fmt <;> rw [hf] at h <;> simp only [Formatter.type] at h ⊢
  case none => exact ⟨_, rfl⟩
  case string =>
    cases hg : c.getString mem with
    | ok v => exact ⟨_, rfl⟩
    | error e => rw [hg] at h; cases h
  case datetime =>
    cases hg : c.getDatetime mem with
    | error e => rw [hg] at h; cases h
    | ok w =>
      rw [hg] at h
      cases h
      obtain ⟨us, rfl, h1, h2⟩ := hl _ rfl
      obtain ⟨y, -, ht⟩ := C52_text_partial.2.1 us (by omega) (by omega)
      exact text_bind ht
  case date =>
    cases hg : c.getDate mem with
    | error e => rw [hg] at h; cases h
    | ok w =>
      rw [hg] at h
      cases h
      obtain ⟨n, rfl, hc⟩ := hl _ rfl
      obtain ⟨y, -, ht⟩ := C52_text_partial.1 n hc.1 hc.2
      exact text_bind ht
  case time =>
    cases hg : c.getTime mem with
    | error e => rw [hg] at h; cases h
    | ok w =>
      rw [hg] at h
      cases h
      obtain ⟨n, rfl, hc⟩ := hl _ rfl
      exact text_bind (C52_text_partial.2.2 n hc)
  all_goals
    first
      | (cases hg : c.getInteger mem with
         | ok v => exact ⟨_, rfl⟩
         | error e => rw [hg] at h; cases h)
      | (cases hg : c.getNumber mem with
         | ok v => exact ⟨_, rfl⟩
         | error e => rw [hg] at h; cases h)

/-- **C106**, print, partial. Whatever has been read, if the null sink gets through it, dates and times are in the calendar, those of the
header in the calendar or missing, and names are without braces, then the print sink gets through it. Missing, and false: names with braces
(`C58_brace_refuted`), missing and other dates (`C52_refuted`, `C106_dates_refuted`). -/
theorem C106_print_partial {cfg : Cfg} {fuel : Nat} {filter : Option Filter} {s : σ} {R : Reader σ}
    (h : openReader cfg S fuel filter s = .ok R) (ops : List Op) (x : Texts) (hok : nullRun [] (R.run S ops).2.trace = .ok ())
    (h1 : R.props.header.dateCreated = .notADateTime ∨
      ∃ us, R.props.header.dateCreated = at1960 us ∧ CalendarDay (us / 86400000000))
    (h2 : R.props.header.dateModified = .notADateTime ∨
      ∃ us, R.props.header.dateModified = at1960 us ∧ CalendarDay (us / 86400000000))
    (hnames : ∀ c ∈ R.props.columns, 123 ∉ c.name ∧ 125 ∉ c.name)
    (hd : ∀ r ∈ pushes (R.run S ops).2.trace, ∀ c ∈ R.props.columns, ∀ v, c.value r.2.mem = .ok (some v) → Listed v) :
    (printText x (R.run S ops).2.trace).2 = .ok () := by
  obtain ⟨lines, hl, -⟩ := C58_partial h ops x h1 h2 hnames fun r hr c hc => by
    obtain ⟨v, hv⟩ := (C59_null h ops).1 hok r hr c hc
    exact text_of_value hv fun w hw => hd r hr c hc w (by rw [hv, hw])
  rw [hl]

/-- **C106**: a file that the command `print` lists completely is one that the command `null` gets through. With a number of rows
given, `print` says nothing about the rows behind them (`C106_rows_refuted`). -/
theorem C106_commands (cfg : Cfg) (x : Texts) (fuel : Nat) (sf : Bool) (fs : FileSystem) (f : List Byte) (n : Option Int)
    (hn : ∀ k, n = some k → k < 0) (h : (runMain cfg x fuel sf fs (.print n [f])).res = .ok ()) :
    (runMain cfg x fuel sf fs (.null [f])).res = .ok () := by
  have hneg : n.getD (-1) < 0 := by
    cases n with
    | none => decide
    | some k => exact hn k rfl
  obtain ⟨c1, c2, c3⟩ := C83_one_partial cfg x fuel sf fs f
  cases hf : fs.content f with
  | none => rw [(c2 hf).2 n] at h; cases h
  | some data =>
    cases hR : openReader cfg ifs fuel none (IFStream.open data) with
    | error e => rw [((c3 data hf).1 e hR).2 n] at h; cases h
    | ok R =>
      rw [runMain_print_one] at h
      simp only [processPrint, openFile, hf, hR, (C34_limit hR).2 _ hneg] at h
      have hrun : (R.run ifs [.readAll]).2 = (R.readAll ifs).2 := by
        rw [Reader.run_cons]
        simp only [Reader.step]
        generalize R.readAll ifs = y
        obtain ⟨r, R1⟩ := y
        rcases r with (_ | _ | _ | _) | _ <;> rfl
      rw [andThen_ok] at h
      refine c1.2 ⟨data, R, hf, hR, h.2, ?_⟩
      refine (C59_null hR [.readAll]).1 (C106_needed hR [.readAll] x (.inr ?_))
      rw [hrun]
      exact h.1

/-! ## What does not hold -/

/-- **C106** is false of early dates: the null sink gets through the file, neither of the others does. -/
theorem C106_dates_refuted : Reachable ifs earlyReader ∧ nullRun [] (earlyReader.run ifs [.readAll]).2.trace = .ok () ∧
    (csvText someTexts (earlyReader.run ifs [.readAll]).2.trace).2 = .error (.exn .outOfRange) ∧
    (printText someTexts (earlyReader.run ifs [.readAll]).2.trace).2 = .error (.exn .outOfRange) :=
  ⟨patched_reachable (by decide +kernel), by decide +kernel⟩

/-- **C106** is false of `print` with a number of rows: it lists the first row of a file whose second row cannot be read. -/
theorem C106_rows_refuted : (runMain Demo.cfg someTexts 10 true someFiles (.print (some 1) [ascii "e"])).res = .ok () ∧
    (runMain Demo.cfg someTexts 10 true someFiles (.null [ascii "e"])).res = .error (.exn .cannotDecompress) := by decide +kernel

/-! ## Files -/

/-- A file whose first column is a datetime, 10^9 seconds after 1960 in its first row. -/
def stampReader : Reader IFStream :=
  Demo.get (patched [(976, 68), (977, 65), (978, 84), (979, 69), (980, 84), (981, 73), (982, 77), (983, 69), (1114, 8), (1212, 0), (1213, 0), (1214, 0), (1215, 0), (1216, 101), (1217, 205), (1218, 205), (1219, 65)])

/-- All three sinks get through it. -/
example : Reachable ifs stampReader ∧ nullRun [] (stampReader.run ifs [.readAll]).2.trace = .ok () ∧
    csvText someTexts (stampReader.run ifs [.readAll]).2.trace
      = say (ascii "\"ID\",\"NAME\"\n1991-Sep-09 01:46:40,\"ann\"\n1960-Jan-01 00:00:02,\"bob\"\n1960-Jan-01 00:00:04,\"cy\"\n") ∧
    (printText someTexts (stampReader.run ifs [.readAll]).2.trace).2 = .ok () ∧
    (runMain Demo.cfg someTexts 10 true someFiles (.print none [ascii "a"])).res = .ok () :=
  ⟨patched_reachable (by decide +kernel), by decide +kernel⟩

/-- The hypotheses of `C106_csv_partial` and `C106_print_partial` on its cells are met. -/
example : ∀ r ∈ pushes (stampReader.run ifs [.readAll]).2.trace, ∀ c ∈ stampReader.props.columns, ∀ v,
    c.value r.2.mem = .ok (some v) → Dated v ∧ Listed v := by
  have h : ∀ r ∈ pushes (stampReader.run ifs [.readAll]).2.trace, ∀ c ∈ stampReader.props.columns,
      (match c.value r.2.mem with
       | .ok (some (.str _)) => true
       | .ok (some (.datetime t)) => decide (t = at1960 1000000000000000) || decide (t = at1960 2000000) || decide (t = at1960 4000000)
       | _ => false) = true := by
    decide +kernel
  intro r hr c hc v hv
  have := h r hr c hc
  rw [hv] at this
  cases v with
  | str => exact ⟨trivial, trivial⟩
  | datetime t =>
    simp only [Bool.or_eq_true, decide_eq_true_eq] at this
    obtain ⟨us, rfl, hc⟩ : ∃ us, t = at1960 us ∧ CalendarDay (us / 86400000000) := by
      rcases this with (rfl | rfl) | rfl <;> exact ⟨_, rfl, by unfold CalendarDay; decide⟩
    exact ⟨.inr ⟨_, rfl, hc⟩, ⟨_, rfl, hc⟩⟩
  | _ => cases this

end Sas.Props
