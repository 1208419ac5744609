import Verif.Proofs.PyFront
import Verif.Props.Writer
import Verif.Props.PySinks

/-!
# Properties C62 (arguments), C63 (`read_sas`), C64 (`df`) and C65 (names) of the Python package
-/

namespace Sas.Props

open Sas Spec

/-! ## C62: include and exclude -/

theorem argNames_ok {a : PyArg} {names : List (List Byte)} (h : ArgNames a names)
    (hl : ∀ items, a = .list items → items.length < 2 ^ 31) : listToSet a = .ok names := by
  cases a with
  | none => rw [show names = [] from h]; rfl
  | other => exact h.elim
  | list items =>
    have hlen := hl items rfl
    replace h : List.Forall₂ (fun i n => i = PyItem.str n ∨ i = .bytes n) items names := h
    have ht : (toSigned 32 (items.length % 2 ^ 32)).toNat = items.length := by
      unfold toSigned
      rw [Nat.mod_eq_of_lt (by omega), if_pos (by omega)]
      exact Int.toNat_natCast _
    unfold listToSet
    simp only
    rw [ht, List.take_length]
    clear ht hlen hl
    induction h with
    | nil => rfl
    | @cons i n items names h1 h2 ih =>
      rcases h1 with rfl | rfl <;> unfold itemsToSet <;> rw [ih] <;> rfl

theorem argNames_bad {a : PyArg} (h : ∀ names, ¬ ArgNames a names)
    (hl : ∀ items, a = .list items → items.length < 2 ^ 31) : listToSet a = .error .raised := by
  cases a with
  | none => exact absurd rfl (h [])
  | other => rfl
  | list items =>
    have hlen := hl items rfl
    have ht : (toSigned 32 (items.length % 2 ^ 32)).toNat = items.length := by
      unfold toSigned
      rw [Nat.mod_eq_of_lt (by omega), if_pos (by omega)]
      exact Int.toNat_natCast _
    unfold listToSet
    simp only
    rw [ht, List.take_length]
    clear ht hlen hl
    replace h : ∀ names, ¬ List.Forall₂ (fun i n => i = PyItem.str n ∨ i = .bytes n) items names := h
    induction items with
    | nil => exact absurd .nil (h [])
    | cons i items ih =>
      cases i with
      | other => rfl
      | str n =>
        unfold itemsToSet
        rw [ih fun names hn => h (n :: names) (.cons (.inl rfl) hn)]
        rfl
      | bytes n =>
        unfold itemsToSet
        rw [ih fun names hn => h (n :: names) (.cons (.inr rfl) hn)]
        rfl

theorem wanted_iff (i e : List (List Byte)) (c : Column) : Filter.includeExclude i e c = true ↔ Wanted i e c.name := by
  rw [(C21_includeExclude i e c).2.2]
  unfold Wanted
  by_cases h0 : i = []
  · subst h0
    by_cases h1 : e = []
    · subst h1; simp
    · simp [h1]
  · simp [h0]

/-- C62, partial. Opening a file with the arguments `include` and `exclude` either reports exactly the columns
asked for, in the order of the file, or fails as it would without them; if one of them is neither `None` nor a
list of `str` and `bytes`, a Python exception is raised. Missing, and false (`C62_long_refuted`): lists of
2^31 and more elements. -/
theorem C62_arguments_partial (cfg : Cfg) (fuel : Nat) (fs : FileSystem) (name : List Byte) (kind : PyKind)
    (incl excl : PyArg) (hi : ∀ items, incl = .list items → items.length < 2 ^ 31)
    (he : ∀ items, excl = .list items → items.length < 2 ^ 31) :
    (∀ s, pyOpen cfg fuel fs name kind incl excl = .ok s → ∃ i e src R, ArgNames incl i ∧ ArgNames excl e ∧
      openFile fs (name.takeWhile (· ≠ 0)) = .ok src ∧ openReader cfg ifs fuel none src = .ok R ∧
      ∃ keep : Column → Bool, (∀ c, keep c = true ↔ Wanted i e c.name) ∧
        s.reader.props.columns = R.props.columns.filter keep) ∧
    ((∀ names, ¬ ArgNames incl names) ∨ (∀ names, ¬ ArgNames excl names) →
      pyOpen cfg fuel fs name kind incl excl = .error .raised) := by
  constructor
  · intro s h
    obtain ⟨f, src, h1, h2, h3, -⟩ := open_history h
    have hi' : ∃ i, ArgNames incl i := by
      by_contra hc
      unfold pyFilter at h1
      rw [argNames_bad (not_exists.mp hc) hi] at h1
      cases h1
    have he' : ∃ e, ArgNames excl e := by
      by_contra hc
      unfold pyFilter at h1
      rw [argNames_ok hi'.choose_spec hi, argNames_bad (not_exists.mp hc) he] at h1
      cases h1
    obtain ⟨i, hi'⟩ := hi'
    obtain ⟨e, he'⟩ := he'
    unfold pyFilter at h1
    rw [argNames_ok hi' hi, argNames_ok he' he] at h1
    cases h1
    cases hR : openReader cfg ifs fuel none src with
    | error x => rw [(C21_filter cfg ifs fuel src _).1 x hR] at h3; cases h3
    | ok R =>
      obtain ⟨R', k1, k2, -⟩ := (C21_filter cfg ifs fuel src (Filter.includeExclude i e)).2 R hR
      rw [h3] at k1
      cases k1
      refine ⟨i, e, src, R, hi', he', h2, hR, Filter.includeExclude i e, wanted_iff i e, k2⟩
  · rintro (h | h)
    · unfold pyOpen pyFilter
      rw [argNames_bad h hi]
      rfl
    · by_cases hc : ∃ i, ArgNames incl i
      · obtain ⟨i, hi'⟩ := hc
        unfold pyOpen pyFilter
        rw [argNames_ok hi' hi, argNames_bad h he]
        rfl
      · unfold pyOpen pyFilter
        rw [argNames_bad (not_exists.mp hc) hi]
        rfl

/-- C62 is false of a list of 2^31 elements, none of which is a string: no exception, and all columns are
reported. -/
theorem C62_long_refuted : ∃ items : List PyItem, (∀ i ∈ items, i = .other) ∧ items ≠ [] ∧
    pyFilter (.list items) .none = .ok Filter.acceptAll := by
  refine ⟨List.replicate (2 ^ 31) .other, fun i hi => List.eq_of_mem_replicate hi, ?_, ?_⟩
  · rw [ne_eq, List.replicate_eq_nil_iff]
    decide
  · have : listToSet (.list (List.replicate (2 ^ 31) .other)) = .ok [] := by
      unfold listToSet
      simp only [List.length_replicate]
      rw [show (toSigned 32 (2 ^ 31 % 2 ^ 32)).toNat = 0 from by decide]
      rfl
    unfold pyFilter
    rw [this]
    rfl

/-- C62. Each of the three sink classes gets the protocol its methods belong to; an object without
`set_properties` and a matching method is rejected, and so is a chunk size that is no `size_t`. -/
theorem C62_sinks (n : Int) (a : PyAttrs) :
    pyKind { setProperties := true, pushRow := true } = .ok .row ∧
    pyKind { setProperties := true, setData := true } = .ok .data ∧
    (0 ≤ n → n < 2 ^ 64 →
      pyKind { chunkSize := some (some n), setProperties := true, pushRows := true } = .ok (.chunk n.toNat)) ∧
    (n < 0 ∨ 2 ^ 64 ≤ n → a.setProperties = true → a.pushRows = true → a.chunkSize = some (some n) →
      pyKind a = .error .raised) ∧
    (a.setProperties = false → pyKind a = .error .raised) ∧
    (∀ k, pyKind a = .ok k → a.setProperties = true ∧ match k with
      | .row => a.pushRow = true
      | .data => a.setData = true
      | .chunk m => a.pushRows = true ∧ a.chunkSize = some (some (m : Int))) := by
  refine ⟨rfl, rfl, fun h1 h2 => if_pos ⟨h1, h2⟩, ?_, ?_, ?_⟩
  · intro h h1 h2 h3
    unfold pyKind
    rw [h1, h2, h3]
    exact if_neg (by omega)
  · intro h
    unfold pyKind
    rw [h]
    cases a.chunkSize <;> rfl
  · intro k h
    unfold pyKind at h
    split at h
    · rename_i x hx hb
      rw [Bool.and_eq_true] at hb
      split at h
      · split at h
        · rename_i m hm
          cases h
          refine ⟨hb.1, hb.2, ?_⟩
          rw [hx, Int.toNat_of_nonneg hm.1]
        · cases h
      · cases h
    · split at h
      · rename_i hb
        rw [Bool.and_eq_true] at hb
        cases h
        exact hb
      · split at h
        · rename_i hb
          rw [Bool.and_eq_true] at hb
          cases h
          exact hb
        · cases h

/-! ## C65: the names of the columns -/

theorem all_utf8_iff {cols : List Column} :
    (cols.map Column.name).all utf8Valid = true ↔ ∀ c ∈ cols, IsUtf8 c.name := by
  simp only [List.all_eq_true, List.mem_map, forall_exists_index, and_imp, forall_apply_eq_imp_iff₂, utf8Valid]
  exact forall₂_congr fun c _ => ByteArray.validateUTF8_eq_true_iff

theorem open_ok {cfg : Cfg} {fuel : Nat} {fs : FileSystem} {name : List Byte} {kind : PyKind} {incl excl : PyArg}
    {f : Filter} {src : IFStream} {R : Reader IFStream} (hfil : pyFilter incl excl = .ok f)
    (hfile : openFile fs (name.takeWhile (· ≠ 0)) = .ok src) (hopen : openReader cfg ifs fuel (some f) src = .ok R) :
    R.trace = [.setProperties R.props] ∧ pyOpen cfg fuel fs name kind incl excl =
      ({ reader := R, cpp := CppSink.start kind, obj := { kind := kind } } : PySession IFStream).events R.trace := by
  constructor
  · obtain ⟨rest, h1, -⟩ := C08_protocol hopen []
    cases hR : openReader cfg ifs fuel none src with
    | error x => rw [(C21_filter cfg ifs fuel src _).1 x hR] at hopen; cases hopen
    | ok R0 =>
      obtain ⟨R', k1, -, -, -, k2⟩ := (C21_filter cfg ifs fuel src f).2 R0 hR
      rw [hopen] at k1
      cases k1
      exact k2
  · unfold pyOpen
    rw [hfil, hfile]
    simp only [bind, Except.bind, PyM.ofRes]
    rw [hopen]

/-- C65. A file that can be opened with these arguments is opened in Python, with a sink of the package, if and
only if the names of the columns reported are UTF-8; if one is not, an exception is raised. -/
theorem C65_names (cfg : Cfg) (fuel : Nat) (fs : FileSystem) (name : List Byte) (kind : PyKind) (incl excl : PyArg)
    (f : Filter) (src : IFStream) (R : Reader IFStream) (hfil : pyFilter incl excl = .ok f)
    (hfile : openFile fs (name.takeWhile (· ≠ 0)) = .ok src) (hopen : openReader cfg ifs fuel (some f) src = .ok R) :
    ((∀ c ∈ R.props.columns, IsUtf8 c.name) → ∃ s, pyOpen cfg fuel fs name kind incl excl = .ok s ∧ s.reader = R) ∧
    ((∃ c ∈ R.props.columns, ¬ IsUtf8 c.name) → pyOpen cfg fuel fs name kind incl excl = .error .raised) := by
  obtain ⟨h1, h2⟩ := open_ok (kind := kind) hfil hfile hopen
  rw [h2, h1]
  constructor
  · intro hu
    obtain ⟨s, k1, -, k2, -⟩ := start_live (R := R) (kind := kind) (all_utf8_iff.mpr hu)
    exact ⟨s, k1, k2⟩
  · rintro ⟨c, hc, hn⟩
    have : (R.props.columns.map Column.name).all utf8Valid = false := by
      rw [Bool.eq_false_iff]
      exact fun h => hn (all_utf8_iff.mp h c hc)
    cases kind <;>
      simp [PySession.events, CppSink.start, CppSink.step, PyRowSink.step, PyChunk.step, PyChunk.dataStep, PyM.ofRes,
        PyObj.calls, PyObj.call, this, bind, Except.bind, pure, Except.pure]

/-! ## C64: `df` -/

/-- C64, partial. A program opens a file, makes any calls that return, and looks at `sink.df`: it gets a frame
with the reported columns and exactly the rows pushed so far. `end_of_data` may have been signalled, but
nothing has been called after it. Missing, and false: the labels of a frame made of chunks do not count the rows
(`C64_labels_refuted`), and see `C64_stale_refuted`, `C64_lost_refuted`, `C64_dropped_refuted`, `C64_empty_refuted`
and `C64_continue_refuted` for other programs, and C48, C49 for columns with the same name and without a type. -/
theorem C64_df_partial (cfg : Cfg) (fuel : Nat) (fs : FileSystem) (name : List Byte) (kind : PyKind) (incl excl : PyArg)
    (f : Filter) (src : IFStream) (R R' : Reader IFStream) (hfil : pyFilter incl excl = .ok f)
    (hfile : openFile fs (name.takeWhile (· ≠ 0)) = .ok src) (hopen : openReader cfg ifs fuel (some f) src = .ok R)
    (hu : ∀ c ∈ R.props.columns, IsUtf8 c.name) (hg : GoodCols R.props.columns kind) (ops : List Op)
    (hR' : (R.run ifs ops).2 = R') (hres : ∀ r ∈ (R.run ifs ops).1, ∃ v, r = .ok v)
    (hend : .endOfData ∉ R'.trace.dropLast) (hread : PyReadable R.props.columns (pushes R'.trace))
    (h0 : kind = .row ∨ pushes R'.trace ≠ []) :
    ∃ s g s', pyOpen cfg fuel fs name kind incl excl = .ok s ∧
      s.run ifs (ops.map .call ++ [.df]) = .ok ([some g], s') ∧
      FrameHolds R.props.columns (pushes R'.trace) g ∧ LabelsAre (pushes R'.trace).length g.index kind := by
  subst hR'
  obtain ⟨h1, h2⟩ := open_ok (kind := kind) hfil hfile hopen
  obtain ⟨rest, p1, p2, p3, -⟩ := C08_protocol hopen ops
  have hpush : pushes (R.run ifs ops).2.trace = pushes rest := by rw [p1]; rfl
  rw [hpush] at hread h0 ⊢
  obtain ⟨s, k1, -, k2, -⟩ := start_live (R := R) (kind := kind) (all_utf8_iff.mpr hu)
  have he : Event.endOfData ∉ rest.dropLast := by
    intro h
    apply hend
    rw [p1]
    cases rest with
    | nil => cases h
    | cons e rest => exact List.mem_cons_of_mem _ h
  obtain ⟨s1, g1, g2, g3, g4⟩ := trace_events (R := (R.run ifs ops).2) (kind := kind) (all_utf8_iff.mpr hu) p3 he hg hread
  obtain ⟨g, s', q1, q2, q3⟩ := trace_df g3 (by rw [g2]; exact hg) hread
    (if hm : Event.endOfData ∈ rest then .inr (g4.2 hm) else .inl (g4.1 hm)) (by rw [g2]; exact h0)
  have hh : History kind s := by
    unfold History
    rw [k2, (events_reader k1).2, h1]
    exact k1
  have hrun := run_ok (S := ifs) (kind := kind) ops s s1 (by rw [k2]; exact .opened _ _ _ _ _ hopen) hh
    (by rw [k2]; exact hres) (by rw [k2, (events_reader k1).2, p1]; exact g1)
  refine ⟨s, g, s', by rw [h2, h1]; exact k1, ?_, q2, by rw [← g2]; exact q3⟩
  have happ : ∀ (ss : List PyStmt) (s : PySession IFStream), (∃ ops, ss = List.map PyStmt.call ops) →
      s.run ifs (ss ++ [.df]) = (do let x ← s.run ifs ss; x.2.run ifs [.df]) := by
    intro ss
    induction ss with
    | nil => intro s _; rfl
    | cons st ss ih =>
      rintro s ⟨ops, ho⟩
      cases ops with
      | nil => cases ho
      | cons op ops =>
        cases ho
        simp only [List.cons_append, PySession.run, bind_assoc]
        congr 1
        funext s1
        exact ih s1 ⟨_, rfl⟩
  rw [happ _ _ ⟨ops, rfl⟩, hrun]
  simp only [bind, Except.bind, PySession.run, q1]
  rfl

/-! ## C63: `read_sas` -/

theorem shows_of_gives {e : Endian} {d : ColumnDesc} {v : Value} {cell : List Byte} (hs : StoredAs e d v cell)
    {c : Column} {mem : List Byte} (hg : Gives c mem v) :
    ∃ w y, c.value mem = .ok (some w) ∧ PyShows w y ∧ ∀ y, PyShows w y → PyMeans v y := by
  have at_inj : ∀ us us' : Int, at1960 us = at1960 us' → us = us' := by
    intro us us' h
    unfold at1960 at h
    injection h with h
    omega
  cases hs with
  | text t pad hn hp ht =>
    exact ⟨.str t, _, by unfold Column.value; rw [hg.1, hg.2]; rfl, rfl, fun y h => h⟩
  | byte b hn hl =>
    exact ⟨.int _, _, by unfold Column.value; rw [hg.1, hg.2]; rfl, rfl, fun y h => h⟩
  | short x hn hl h1 h2 =>
    exact ⟨.int _, _, by unfold Column.value; rw [hg.1, hg.2]; rfl, rfl, fun y h => h⟩
  | number bits ht hb hz =>
    exact ⟨.num _, _, by unfold Column.value; rw [hg.1, hg.2]; rfl, rfl, fun y h => h⟩
  | datetime us bits s ht hl hv hs hr =>
    have hc : CalendarDay (us / 86400000000) := by
      unfold CalendarDay
      rw [abs_lt] at hr
      omega
    obtain ⟨y, -, hy⟩ := py_instant hc
    refine ⟨.datetime (at1960 us), y, by unfold Column.value; rw [hg.1, hg.2]; rfl, .inr ⟨us, rfl, hc, hy⟩, ?_⟩
    rintro y (⟨h, -⟩ | ⟨us', h, -, h2⟩)
    · cases h
    · rw [at_inj us us' h]; exact h2
  | date n bits ht hl hv h1 h2 =>
    obtain ⟨y, -, hy⟩ := py_day ⟨h1, h2⟩
    refine ⟨.date (day1960 n), y, by unfold Column.value; rw [hg.1, hg.2]; rfl, .inr ⟨n, rfl, ⟨h1, h2⟩, hy⟩, ?_⟩
    rintro y (⟨h, -⟩ | ⟨n', h, ⟨h3, h4⟩, h5⟩)
    · cases h
    · have : n = n' := by
        unfold day1960 at h
        injection h with h
        omega
      rw [this]; exact h5
  | time us bits s ht hl hv hs h1 h2 =>
    obtain ⟨n, rfl⟩ := Int.eq_ofNat_of_zero_le h1
    obtain ⟨y, -, hy⟩ := py_clock (n := n) (by omega)
    refine ⟨.time (.us n), y, by unfold Column.value; rw [hg.1, hg.2]; rfl, .inr ⟨n, rfl, by omega, hy⟩, ?_⟩
    rintro y (⟨h, -⟩ | ⟨n', h, -, h5⟩)
    · cases h
    · injection h with h
      show PyClock (n : Int) y
      rw [h]
      exact h5
  | missing bits ht hl hv =>
    rcases hg with ⟨g1, g2⟩ | ⟨g1, g2⟩ | ⟨g1, g2⟩
    · refine ⟨.datetime .notADateTime, _, by unfold Column.value; rw [g1, g2]; rfl, .inl ⟨rfl, rfl⟩, ?_⟩
      rintro y (⟨-, h⟩ | ⟨us, h, -⟩)
      · exact h
      · cases h
    · refine ⟨.date .notADate, _, by unfold Column.value; rw [g1, g2]; rfl, .inl ⟨rfl, rfl⟩, ?_⟩
      rintro y (⟨-, h⟩ | ⟨us, h, -⟩)
      · exact h
      · cases h
    · refine ⟨.time .notADateTime, _, by unfold Column.value; rw [g1, g2]; rfl, .inl ⟨rfl, rfl⟩, ?_⟩
      rintro y (⟨-, h⟩ | ⟨us, h, -⟩)
      · exact h
      · cases h

theorem filter_positions {α : Type} (l : List α) (p : α → Bool) : ∃ js : List Nat, js.Pairwise (· < ·) ∧
    (∀ j, j ∈ js ↔ ∃ a, l[j]? = some a ∧ p a = true) ∧ List.Forall₂ (fun j a => l[j]? = some a) js (l.filter p) := by
  let m := l.zipIdx.filter fun x => p x.1
  have hm : ∀ x, x ∈ m ↔ l[x.2]? = some x.1 ∧ p x.1 = true := by
    rintro ⟨a, j⟩
    rw [List.mem_filter, List.mem_zipIdx_iff_getElem?]
  refine ⟨m.map Prod.snd, ?_, fun j => ?_, ?_⟩
  · have : (l.zipIdx.map Prod.snd).Pairwise (· < ·) := by
      rw [List.zipIdx_map_snd]
      exact List.pairwise_lt_range'
    exact this.sublist (List.Sublist.map _ List.filter_sublist)
  · rw [List.mem_map]
    constructor
    · rintro ⟨x, h1, rfl⟩
      exact ⟨x.1, (hm x).mp h1⟩
    · rintro ⟨a, h1, h2⟩
      exact ⟨(a, j), (hm (a, j)).mpr ⟨h1, h2⟩, rfl⟩
  · have : l.filter p = m.map Prod.fst := by
      conv => lhs; rw [← List.zipIdx_map_fst 0 l]
      rw [List.filter_map]
      rfl
    rw [this, List.forall₂_map_left_iff, List.forall₂_map_right_iff, List.forall₂_same]
    exact fun x hx => ((hm x).mp hx).1

theorem pushes_pushEvents : ∀ (rs : List Row) (i : Nat), (pushes (pushEvents i rs)).map Prod.snd = rs := by
  intro rs
  induction rs with
  | nil => intro i; rfl
  | cons r rs ih => intro i; simp [pushEvents, pushes, ih]

/-- `read_sas` on a file that holds a data set. -/
theorem readSas_written {cfg : Cfg} {fuel : Nat} {fs : FileSystem} {name : List Byte} {kind : PyKind}
    {incl excl : PyArg} {i e : List (List Byte)} (hi : ArgNames incl i) (he : ArgNames excl e)
    (hli : ∀ items, incl = .list items → items.length < 2 ^ 31)
    (hle : ∀ items, excl = .list items → items.length < 2 ^ 31)
    {file : List Byte} (hfile : fs.content name = some file) (hname : 0 ∉ name)
    {h : FileHeader} {d : DataSet} {R : Reader IFStream} (hopen : openReader cfg ifs fuel none (IFStream.open file) = .ok R)
    (hb : ReadsBack h d R) {values : List (List Value)}
    (hv : List.Forall₂ (RowHolds h.endian d.columns) d.rows values) (hne : d.rows ≠ [])
    (hdist : (d.columns.map ColumnDesc.name).Nodup) (hsome : ∃ c ∈ d.columns, Wanted i e c.name)
    (hu : ∀ c ∈ d.columns, Wanted i e c.name → IsUtf8 c.name) :
    ∃ s f s', readSas cfg fuel fs name kind incl excl = .ok s ∧ s.df = .ok (some f, s') ∧
      DataFrameOf d.columns (Wanted i e) values f ∧ LabelsAre values.length f.index kind := by
  have hfil : pyFilter incl excl = .ok (Filter.includeExclude i e) := by
    unfold pyFilter
    rw [argNames_ok hi hli, argNames_ok he hle]
    rfl
  have hcut : name.takeWhile (· ≠ 0) = name := by
    clear hfile
    induction name with
    | nil => rfl
    | cons b l ih =>
      rw [List.mem_cons, not_or] at hname
      rw [List.takeWhile_cons, if_pos (by simpa using fun h => hname.1 h.symm), ih hname.2]
  have hof : openFile fs (name.takeWhile (· ≠ 0)) = .ok (IFStream.open file) := by
    unfold openFile
    rw [hcut, hfile]
  obtain ⟨R', o1, o2, o3, o4, o5⟩ := (C21_filter cfg ifs fuel _ (Filter.includeExclude i e)).2 R hopen
  obtain ⟨rws, b1, b2, b3⟩ := hb.rows
  obtain ⟨js, j1, j2, j3⟩ := filter_positions R.props.columns (Filter.includeExclude i e)
  rw [← o2] at j3
  -- the columns
  have hcol : ∀ (j : Nat) (col : Column), R.props.columns[j]? = some col → ∃ c, d.columns[j]? = some c ∧ Reports col c := by
    intro j col hj
    obtain ⟨hlt, -⟩ := List.getElem?_eq_some_iff.mp hj
    rw [hb.count] at hlt
    exact ⟨d.columns[j], List.getElem?_eq_getElem hlt, hb.columns j col _ hj (List.getElem?_eq_getElem hlt)⟩
  have hnames : R.props.columns.map Column.name = d.columns.map ColumnDesc.name := by
    apply List.ext_getElem?
    intro j
    rw [List.getElem?_map, List.getElem?_map]
    cases hj : R.props.columns[j]? with
    | none =>
      rw [List.getElem?_eq_none_iff, hb.count] at hj
      rw [List.getElem?_eq_none_iff.mpr hj]
      rfl
    | some col =>
      obtain ⟨c, h1, h2⟩ := hcol j col hj
      rw [h1]
      simp [h2.name]
  have hkept : ∀ col ∈ R'.props.columns, ∃ (j : Nat) (c : ColumnDesc), R.props.columns[j]? = some col ∧ d.columns[j]? = some c ∧
      Reports col c ∧ Wanted i e c.name := by
    intro col hc
    rw [o2, List.mem_filter] at hc
    obtain ⟨j, hj⟩ := List.mem_iff_getElem?.mp hc.1
    obtain ⟨c, h1, h2⟩ := hcol j col hj
    exact ⟨j, c, hj, h1, h2, by rw [← h2.name]; exact (wanted_iff i e col).mp hc.2⟩
  -- the rows
  have hrow : ∀ r ∈ rws, ∃ (k : Nat) (row : List Byte) (vs : List Value), rws[k]? = some r ∧ d.rows[k]? = some row ∧ values[k]? = some vs ∧
      RowHolds h.endian d.columns row vs := by
    intro r hr
    obtain ⟨k, hk⟩ := List.mem_iff_getElem?.mp hr
    have h1 : d.rows[k]? = some r.bytes := by rw [← b1, List.getElem?_map, hk]; rfl
    obtain ⟨hlt, h2⟩ := List.getElem?_eq_some_iff.mp h1
    have hlt2 : k < values.length := by rw [← hv.length_eq]; exact hlt
    refine ⟨k, r.bytes, values[k], hk, h1, List.getElem?_eq_getElem hlt2, ?_⟩
    have := (List.forall₂_iff_get.mp hv).2 k hlt hlt2
    simp only [List.get_eq_getElem, h2] at this
    exact this
  have hcell : ∀ (k : Nat) (r : Row) (row : List Byte) (vs : List Value), rws[k]? = some r → d.rows[k]? = some row →
      RowHolds h.endian d.columns row vs → ∀ (j : Nat) (col : Column) (c : ColumnDesc), R.props.columns[j]? = some col →
      d.columns[j]? = some c → ∃ v w y, vs[j]? = some v ∧ Gives col r.mem v ∧ col.value r.mem = .ok (some w) ∧
        PyShows w y ∧ ∀ y, PyShows w y → PyMeans v y := by
    intro k r row vs h1 h2 h3 j col c h4 h5
    have hlt : j < vs.length := by
      rw [h3.count]
      exact (List.getElem?_eq_some_iff.mp h5).1
    have hvj : vs[j]? = some vs[j] := List.getElem?_eq_getElem hlt
    obtain ⟨before, cell, after, -, -, -, hs⟩ := h3.cells j c _ h5 hvj
    have hgv := b3 k r row vs h1 h2 h3 j col _ h4 hvj
    obtain ⟨w, y, q⟩ := shows_of_gives hs hgv
    exact ⟨vs[j], w, y, hvj, hgv, q⟩
  have hrne : rws ≠ [] := by
    rintro rfl
    exact hne b1.symm
  obtain ⟨r0, hr0⟩ := List.exists_mem_of_ne_nil _ hrne
  have htyped : ∀ col ∈ R'.props.columns, col.type ≠ .unknown := by
    intro col hc hty
    obtain ⟨j, c, h1, h2, -, -⟩ := hkept col hc
    obtain ⟨k, row, vs, g1, g2, -, g3⟩ := hrow r0 hr0
    obtain ⟨v, w, y, -, -, hval, -⟩ := hcell k r0 row vs g1 g2 g3 j col c h1 h2
    unfold Column.value at hval
    rw [hty] at hval
    cases hval
  have hcne : R'.props.columns ≠ [] := by
    obtain ⟨c, hc, hw⟩ := hsome
    have hm : c.name ∈ R.props.columns.map Column.name := by
      rw [hnames]
      exact List.mem_map_of_mem hc
    obtain ⟨col, h1, h2⟩ := List.mem_map.mp hm
    rw [o2]
    refine List.ne_nil_of_mem (List.mem_filter.mpr ⟨h1, (wanted_iff i e col).mpr ?_⟩)
    rw [h2]
    exact hw
  have hgood : GoodCols R'.props.columns kind := by
    have hty : typed R'.props.columns = R'.props.columns := List.filter_eq_self.2 (by simpa using htyped)
    have hnd : (R'.props.columns.map Column.name).Nodup := by
      rw [← hnames] at hdist
      rw [o2]
      exact hdist.sublist (List.Sublist.map _ List.filter_sublist)
    cases kind with
    | row => exact ⟨hcne, htyped⟩
    | chunk n => exact ⟨hnd, by rw [hty]; exact hcne⟩
    | data => exact ⟨hnd, by rw [hty]; exact hcne⟩
  have hutf : ∀ c ∈ R'.props.columns, IsUtf8 c.name := by
    intro col hc
    obtain ⟨j, c, -, h1, h2, h3⟩ := hkept col hc
    rw [h2.name]
    exact hu c (List.mem_of_getElem? h1) h3
  -- the calls
  have hrun1 : ∀ T : Reader IFStream, (T.step ifs .readAll).1 = .ok .unit →
      T.run ifs [.readAll] = ([.ok .unit], (T.step ifs .readAll).2) := by
    intro T hT
    rw [Reader.run]
    generalize T.step ifs .readAll = x at hT
    obtain ⟨r, T'⟩ := x
    have hT : r = .ok .unit := hT
    subst hT
    rfl
  have hrunR := hrun1 R hb.result
  obtain ⟨w1, w2, -⟩ := C22_same_rows cfg ifs fuel _ none _ R R' hopen o1 [.readAll]
  obtain ⟨rest, p1, p2, p3, -⟩ := C08_protocol o1 [.readAll]
  have hrest : rest = pushEvents 0 rws ++ [.endOfData] := by
    rw [hrunR, b2, p1] at w2
    simp only [List.map_cons, List.cons_append, List.cons.injEq] at w2
    have hw : ∀ es es' : List Event, (∀ p, Event.setProperties p ∉ es) → (∀ p, Event.setProperties p ∉ es') →
        es.map withoutColumns = es'.map withoutColumns → es = es' := by
      intro es
      induction es with
      | nil => intro es' _ _ h; exact (List.map_eq_nil_iff.mp h.symm).symm
      | cons a es ih =>
        intro es' n1 n2 h
        cases es' with
        | nil => cases h
        | cons a' es' =>
          simp only [List.map_cons, List.cons.injEq] at h
          rw [ih es' (fun p hp => n1 p (by simp [hp])) (fun p hp => n2 p (by simp [hp])) h.2]
          congr 1
          cases a with
          | setProperties p => exact absurd (by simp) (n1 p)
          | pushRow k r => cases a' with
            | setProperties p => exact absurd (by simp) (n2 p)
            | pushRow k' r' => exact h.1
            | endOfData => exact h.1
          | endOfData => cases a' with
            | setProperties p => exact absurd (by simp) (n2 p)
            | pushRow k' r' => exact h.1
            | endOfData => exact h.1
    refine (hw _ _ ?_ p3 w2.2).symm
    intro p hp
    rw [List.mem_append] at hp
    rcases hp with hp | hp
    · have : ∀ (rs : List Row) (k : Nat), Event.setProperties p ∉ pushEvents k rs := by
        intro rs
        induction rs with
        | nil => intro k h; cases h
        | cons r rs ih =>
          intro k h
          rw [pushEvents, List.mem_cons] at h
          rcases h with h | h
          · cases h
          · exact ih _ h
      exact this _ _ hp
    · simp at hp
  have hpushes : pushes rest = pushes (pushEvents 0 rws) := by
    rw [hrest, pushes_append]
    simp [pushes]
  have hreadable : PyReadable R'.props.columns (pushes rest) := by
    rintro col hc ⟨k, r⟩ hr
    obtain ⟨j, c, h1, h2, -, -⟩ := hkept col (List.mem_of_mem_filter hc)
    have hr' : r ∈ rws := by
      rw [← pushes_pushEvents rws 0, ← hpushes]
      exact List.mem_map_of_mem (f := Prod.snd) hr
    obtain ⟨k, row, vs, g1, g2, -, g3⟩ := hrow r hr'
    obtain ⟨v, w, y, -, -, hval, hsh, -⟩ := hcell k r row vs g1 g2 g3 j col c h1 h2
    exact ⟨w, y, hval, hsh⟩
  have hnoend : Event.endOfData ∉ rest.dropLast := by
    rw [hrest, List.dropLast_concat]
    have : ∀ (rs : List Row) (k : Nat), Event.endOfData ∉ pushEvents k rs := by
      intro rs
      induction rs with
      | nil => intro k h; cases h
      | cons r rs ih =>
        intro k h
        rw [pushEvents, List.mem_cons] at h
        rcases h with h | h
        · cases h
        · exact ih _ h
    exact this _ _
  obtain ⟨q1, q2⟩ := open_ok (kind := kind) hfil hof o1
  obtain ⟨s0, k1, -, k2, -⟩ := start_live (R := R') (kind := kind) (all_utf8_iff.mpr hutf)
  obtain ⟨s1, g1, g2, g3, g4⟩ := trace_events (R := (R'.run ifs [.readAll]).2) (kind := kind) (all_utf8_iff.mpr hutf)
    p3 hnoend hgood hreadable
  have hended : Ended R'.props.columns (pushes rest) s1 := by
    exact g4.2 (by rw [hrest]; simp)
  have hh : History kind s0 := by
    unfold History
    rw [k2, (events_reader k1).2, q1]
    exact k1
  have hok : ∀ r ∈ (R'.run ifs [.readAll]).1, ∃ v, r = .ok v := by
    rw [← w1, hrunR]
    intro r hr
    rw [List.mem_singleton.mp hr]
    exact ⟨_, rfl⟩
  have hrun := run_ok (S := ifs) (kind := kind) [.readAll] s0 s1 (by rw [k2]; exact .opened _ _ _ _ _ o1) hh
    (by rw [k2]; exact hok) (by rw [k2, (events_reader k1).2, p1]; exact g1)
  have hop : s0.op ifs .readAll = .ok s1 := by
    simp only [List.map_cons, List.map_nil, PySession.run] at hrun
    cases hc : s0.op ifs .readAll with
    | error e => rw [hc] at hrun; cases hrun
    | ok s2 => rw [hc] at hrun; cases hrun; rfl
  have hpne : pushes rest ≠ [] := by
    rw [hpushes]
    intro h
    have := pushes_pushEvents rws 0
    rw [h] at this
    exact hrne this.symm
  have hended' : Ended R'.props.columns (pushes rest) s1.drop := hended
  obtain ⟨f, s', f1, f2, f3⟩ := ended_df hended' (.inr hpne)
  have hlen : (pushes rest).length = values.length := by
    rw [← hv.length_eq, ← b1, List.length_map, hpushes]
    conv => rhs; rw [← pushes_pushEvents rws 0]
    rw [List.length_map]
  refine ⟨s1.drop, f, s', ?_, f1, ⟨js, j1, fun j => ?_, ?_, ?_⟩, ?_⟩
  · unfold readSas
    rw [q2, q1, k1]
    simp only [bind, Except.bind]
    rw [hop]
    rfl
  · rw [j2]
    constructor
    · rintro ⟨col, h1, h2⟩
      obtain ⟨c, h3, h4⟩ := hcol j col h1
      exact ⟨c, h3, by rw [← h4.name]; exact (wanted_iff i e col).mp h2⟩
    · rintro ⟨c, h1, h2⟩
      have hlt : j < R.props.columns.length := by
        rw [hb.count]
        exact (List.getElem?_eq_some_iff.mp h1).1
      have h3 := List.getElem?_eq_getElem hlt
      refine ⟨_, h3, (wanted_iff i e _).mpr ?_⟩
      rw [(hb.columns j _ c h3 h1).name]
      exact h2
  · rw [f2.1, List.forall₂_map_right_iff]
    refine j3.imp fun j col hj => ?_
    obtain ⟨c, h1, h2⟩ := hcol j col hj
    exact ⟨c, h1, h2.name⟩
  · rw [List.forall₂_iff_get] at j3 ⊢
    have hF := List.forall₂_iff_get.mp f2.2
    refine ⟨j3.1.trans hF.1, fun n n1 n2 => ?_⟩
    have n3 : n < R'.props.columns.length := by rw [← j3.1]; exact n1
    have hj := j3.2 n n1 n3
    have hentries := hF.2 n n3 n2
    generalize js.get ⟨n, n1⟩ = j at hj
    generalize R'.props.columns.get ⟨n, n3⟩ = col at hj hentries
    generalize f.columns.get ⟨n, n2⟩ = column at hentries
    obtain ⟨c, hc, -⟩ := hcol j col hj
    rw [List.forall₂_iff_get] at hentries ⊢
    refine ⟨hlen.symm.trans hentries.1, fun k m1 m2 => ?_⟩
    have m3 : k < (pushes rest).length := by rw [hlen]; exact m1
    have hE := hentries.2 k m3 m2
    have hrk : rws[k]? = some ((pushes rest).get ⟨k, m3⟩).2 := by
      conv => lhs; rw [← pushes_pushEvents rws 0, ← hpushes]
      rw [List.getElem?_map, List.getElem?_eq_getElem m3]
      rfl
    have hdk : k < d.rows.length := by rw [hv.length_eq]; exact m1
    have hRH := (List.forall₂_iff_get.mp hv).2 k hdk m1
    obtain ⟨v, w, y, g1, g2, g3, -, g5⟩ := hcell k _ _ _ hrk (List.getElem?_eq_getElem hdk) hRH j col c hj hc
    rcases hE with ⟨hE, -⟩ | ⟨w', y', e1, e2, e3⟩
    · unfold Column.value at g3
      rw [hE] at g3
      cases g3
    · rw [g3] at e1
      cases e1
      exact ⟨v, y', g1, e3, g5 y' e2⟩
  · rw [← hlen]
    exact g2 ▸ f3

/-- C63, partial. `read_sas(name, sink, include, exclude).df` for a file that holds a data set, in any layout:
the columns asked for, in their order and under their names, and in every row the value that is stored there,
as a Python object. `rows` is not empty, the names are distinct and those asked for are UTF-8; the values of
`Value` are those a cell of `StoredAs` can hold. Missing, and false: a data set without rows (`C63_empty_refuted`),
columns with the same name (`C63_twins_refuted`), other names (C65), labels that count the rows of a frame made of
chunks (`C64_labels_refuted`). -/
theorem C63_layouts_partial (cfg : Cfg) (fuel : Nat) (fs : FileSystem) (name : List Byte) (kind : PyKind)
    (incl excl : PyArg) (i e : List (List Byte)) (hi : ArgNames incl i) (he : ArgNames excl e)
    (hli : ∀ items, incl = .list items → items.length < 2 ^ 31)
    (hle : ∀ items, excl = .list items → items.length < 2 ^ 31)
    (l : Layout) (d : DataSet) (hl : l.For d) (hr : l.Plain d ∨ l.Compressed d) (hm : Machine cfg l.header d)
    (hf : l.metaPages.length + l.rowPages.length < fuel)
    (hfile : fs.content name = some (l.write d)) (hname : 0 ∉ name)
    (values : List (List Value)) (hv : List.Forall₂ (RowHolds l.header.endian d.columns) d.rows values)
    (hne : d.rows ≠ []) (hdist : (d.columns.map ColumnDesc.name).Nodup) (hsome : ∃ c ∈ d.columns, Wanted i e c.name)
    (hu : ∀ c ∈ d.columns, Wanted i e c.name → IsUtf8 c.name) :
    ∃ s f s', readSas cfg fuel fs name kind incl excl = .ok s ∧ s.df = .ok (some f, s') ∧
      DataFrameOf d.columns (Wanted i e) values f ∧ LabelsAre values.length f.index kind := by
  obtain ⟨R, h1, h2⟩ := readsBack hl hr hm hf
  exact readSas_written hi he hli hle hfile hname h1 h2 hv hne hdist hsome hu

/-- C63, partial. Every data set that can be written and fits has a file from which `read_sas` with the default
arguments makes its frame. Missing as in `C63_layouts_partial`. -/
theorem C63_every_partial (cfg : Cfg) (fuel : Nat) (fs : FileSystem) (name : List Byte) (h : FileHeader) (d : DataSet)
    (hd : d.Fits h) (hm : Machine cfg h d) (hf : 3 + 4 * d.columns.length + d.rows.length < fuel)
    (hfile : fs.content name = some ((Layout.packed h d).write d)) (hname : 0 ∉ name)
    (values : List (List Value)) (hv : List.Forall₂ (RowHolds h.endian d.columns) d.rows values)
    (hne : d.rows ≠ []) (hcne : d.columns ≠ []) (hdist : (d.columns.map ColumnDesc.name).Nodup)
    (hu : ∀ c ∈ d.columns, IsUtf8 c.name) :
    ∃ s f s', readSas cfg fuel fs name = .ok s ∧ s.df = .ok (some f, s') ∧
      DataFrameOf d.columns (fun _ => True) values f ∧ f.index = List.range values.length := by
  obtain ⟨R, h1, h2⟩ := C43_every cfg h d fuel hd hm hf
  have hw : Wanted [] [] = fun _ => True := by
    funext n
    simp [Wanted]
  obtain ⟨c, hc⟩ := List.exists_mem_of_ne_nil _ hcne
  have := readSas_written (kind := .data) (incl := .none) (excl := .none) (i := []) (e := []) rfl rfl
    (fun _ h => by cases h) (fun _ h => by cases h) hfile hname h1 h2 hv hne hdist ⟨c, hc, by rw [hw]; trivial⟩
    (fun c hc _ => hu c hc)
  rw [hw] at this
  exact this

/-! ## What does not hold -/

/-- Files with this content. -/
def onlyFile (content : List Byte) : FileSystem := { content := fun _ => some content, writable := fun _ => false }

/-- The demonstration file with some bytes changed. -/
def patchedFile (l : List (Nat × Byte)) : FileSystem := onlyFile (l.foldl (fun f x => f.set x.1 x.2) Demo.file)

/-- A program that reads the demonstration file with some bytes changed. -/
def demoProgram (l : List (Nat × Byte)) (kind : PyKind) (ss : List PyStmt) : PyM (List (Option PyFrame)) :=
  pyProgram Demo.cfg 10 (patchedFile l) (ascii "f") kind .none .none ss

/-- The two complete columns and their first rows. -/
def demoFrame (n : Nat) : PyFrame where
  names := [ascii "ID", ascii "NAME"]
  index := List.range n
  columns := [[some (.float (.bits 0x3ff0000000000000)), some (.float (.bits 0x4000000000000000)),
      some (.float (.bits 0x4010000000000000))].take n,
    [some (.bytes (ascii "ann")), some (.bytes (ascii "bob")), some (.bytes (ascii "cy"))].take n]

/-- The frame of the demonstration file, read by `read_all`. -/
example : demoProgram [] .data [.call .readAll, .df] = .ok [some (demoFrame 3)] := by decide +kernel

/-- C64 is false of labels: with chunks of two rows, the three rows are labelled 0, 1, 0. -/
theorem C64_labels_refuted : demoProgram [] (.chunk 2) [.call .readAll, .df] =
    .ok [some { demoFrame 3 with index := [0, 1, 0] }] := by decide +kernel

/-- C64 is false of a program that looks twice: the second time it gets the old frame, although another row has
been read since. -/
theorem C64_stale_refuted (kind : PyKind) (hk : kind = .row ∨ kind = .chunk 2 ∨ kind = .data) :
    demoProgram [] kind [.call (.readRows 2), .df, .call .readRow, .df] =
      .ok [some (demoFrame 2), some (demoFrame 2)] := by
  rcases hk with rfl | rfl | rfl <;> decide +kernel

/-- C64 is false of a program that signals the end and goes on: with chunks, and with the whole data, the row that
was read after the end is not in the frame. -/
theorem C64_lost_refuted (kind : PyKind) (hk : kind = .chunk 2 ∨ kind = .data) :
    demoProgram [] kind [.call (.readRows 2), .call .endOfData, .call .readRow, .df] = .ok [some (demoFrame 2)] := by
  rcases hk with rfl | rfl <;> decide +kernel

/-- C64 is false of a program that looks at the frame of a reader that no longer exists and has not come to the
end: undefined behaviour. -/
theorem C64_dropped_refuted (kind : PyKind) (hk : kind = .row ∨ kind = .chunk 2 ∨ kind = .data) :
    demoProgram [] kind [.call (.readRows 2), .drop, .df] = .error (.cpp .ub) := by
  rcases hk with rfl | rfl | rfl <;> decide +kernel

/-- C64 is false of programs that have looked at a frame before the end: coming to the end raises an exception. -/
theorem C64_continue_refuted (kind : PyKind) (hk : kind = .row ∨ kind = .chunk 2 ∨ kind = .data) :
    demoProgram [] kind [.call (.readRows 2), .df, .call .readAll] = .error .raised := by
  rcases hk with rfl | rfl | rfl <;> decide +kernel

/-- C64 is false of frames without rows: `None` as a whole, an exception by chunks; only row by row it is an empty
frame. -/
theorem C64_empty_refuted : demoProgram [] .data [.df] = .ok [none] ∧
    demoProgram [] (.chunk 2) [.df] = .error .raised ∧ demoProgram [] .row [.df] = .ok [some (demoFrame 0)] := by
  decide +kernel

/-- C63 is false of a data set without rows. -/
theorem C63_empty_refuted : demoProgram [(552, 0)] .data [.call .readAll, .df] = .ok [none] ∧
    demoProgram [(552, 0)] (.chunk 2) [.call .readAll, .df] = .error .raised ∧
    demoProgram [(552, 0)] .row [.call .readAll, .df] = .ok [some (demoFrame 0)] := by decide +kernel

/-- C63 is false of two columns with the same name: both are shown with the values of the second. -/
theorem C63_twins_refuted : demoProgram [(1018, 36), (1020, 2)] .data [.call .readAll, .df] =
    .ok [some { demoFrame 3 with
      names := [ascii "ID", ascii "ID"]
      columns := List.replicate 2 [some (.bytes (ascii "ann")), some (.bytes (ascii "bob")), some (.bytes (ascii "cy"))] }] := by
  decide +kernel

/-- C65 for a name in Latin-1: the file cannot be opened, unless the column is excluded. -/
theorem C65_latin1_refuted : ∃ k, Demo.file[k]? = some (ascii "A")[0] ∧ ∀ kind, kind = .row ∨ kind = .chunk 2 ∨ kind = .data →
    demoProgram [(k, 0xC4)] kind [] = .error .raised ∧
    pyProgram Demo.cfg 10 (patchedFile [(k, 0xC4)]) (ascii "f") kind (.list [.str (ascii "ID")]) .none [] = .ok [] := by
  refine ⟨969, by decide +kernel, ?_⟩
  rintro kind (rfl | rfl | rfl) <;> decide +kernel

/-! ## Cases -/

/-- C62: a list of a `str` and a `bytes`, and arguments that are rejected. -/
example : ArgNames (.list [.str (ascii "ID"), .bytes (ascii "X")]) [ascii "ID", ascii "X"] ∧
    (∀ names, ¬ ArgNames (.list [.str (ascii "ID"), .other]) names) ∧ (∀ names, ¬ ArgNames .other names) := by
  refine ⟨.cons (.inl rfl) (.cons (.inr rfl) .nil), fun names h => ?_, fun names h => h⟩
  cases h with
  | cons h1 h2 => cases h2 with | cons h3 h4 => rcases h3 with h | h <;> cases h

example : (pyProgram Demo.cfg 10 (patchedFile []) (ascii "f") .data (.list [.str (ascii "NAME"), .bytes (ascii "X")]) .none
    [.call .readAll, .df]) = .ok [some ⟨[ascii "NAME"], [0, 1, 2],
      [[some (.bytes (ascii "ann")), some (.bytes (ascii "bob")), some (.bytes (ascii "cy"))]]⟩] := by
  decide +kernel

example : pyKind { setProperties := true, pushRows := true, chunkSize := some (some (-1)) } = .error .raised ∧
    pyKind { setProperties := true, pushRows := true } = .error .raised := by decide

/-- C65: a name with a character outside ASCII, and a byte that is no character. -/
example : IsUtf8 [0x4E, 0xC3, 0x84] ∧ ¬ IsUtf8 [0x4E, 0xC4, 0x4D] := by
  unfold IsUtf8
  rw [← ByteArray.validateUTF8_eq_true_iff, ← ByteArray.validateUTF8_eq_true_iff]
  decide +kernel

/-- C64: the hypotheses are met by the demonstration file after two of three rows. -/
example : ∃ s g s', pyOpen Demo.cfg 10 (patchedFile []) (ascii "f") (.chunk 2) .none .none = .ok s ∧
    s.run ifs ([Op.readRow, .readRow].map .call ++ [.df]) = .ok ([some g], s') ∧
    FrameHolds Demo.reader.props.columns (pushes (Demo.reader.run ifs [.readRow, .readRow]).2.trace) g ∧
    LabelsAre 2 g.index (.chunk 2) := by
  obtain ⟨R, h1, h2⟩ := C21_acceptAll Demo.cfg ifs 10 (IFStream.open Demo.file) Demo.reader Demo.opened_ok
  obtain ⟨w1, -, w3, -⟩ := C22_same_rows Demo.cfg ifs 10 _ none _ Demo.reader R Demo.opened_ok h1 [.readRow, .readRow]
  have hp : PyReadable Demo.reader.props.columns (pushes (Demo.reader.run ifs [.readRow, .readRow]).2.trace) := by
    have : ∀ c ∈ typed Demo.reader.props.columns, ∀ r ∈ pushes (Demo.reader.run ifs [.readRow, .readRow]).2.trace,
        (match c.value r.2.mem with | .ok (some (.str _)) => true | .ok (some (.num _)) => true | _ => false) = true := by
      decide +kernel
    intro c hc r hr
    have h := this c hc r hr
    split at h
    · rename_i s hs; exact ⟨_, _, hs, rfl⟩
    · rename_i s hs; exact ⟨_, _, hs, rfl⟩
    · cases h
  have hlen : (pushes (Demo.reader.run ifs [.readRow, .readRow]).2.trace).length = 2 := by decide +kernel
  have hend : Event.endOfData ∉ (R.run ifs [.readRow, .readRow]).2.trace.dropLast := by
    obtain ⟨-, w2, -⟩ := C22_same_rows Demo.cfg ifs 10 _ none _ Demo.reader R Demo.opened_ok h1 [.readRow, .readRow]
    intro h
    have h3 : Event.endOfData ∈ (Demo.reader.run ifs [.readRow, .readRow]).2.trace.map withoutColumns := by
      rw [w2]
      exact List.mem_map_of_mem (f := withoutColumns) (List.dropLast_subset _ h)
    obtain ⟨e, h4, h5⟩ := List.mem_map.mp h3
    have : ((Demo.reader.run ifs [.readRow, .readRow]).2.trace.all fun e => match e with | .endOfData => false | _ => true)
        = true := by decide +kernel
    have := List.all_eq_true.mp this e h4
    cases e <;> simp [withoutColumns] at h5 this
  have := C64_df_partial Demo.cfg 10 (patchedFile []) (ascii "f") (.chunk 2) .none .none Filter.acceptAll
    (IFStream.open Demo.file) R _ rfl rfl h1
    (by
      rw [h2]
      exact all_utf8_iff.mp (by decide +kernel))
    (by
      rw [h2]
      exact ⟨by decide +kernel, by decide +kernel⟩) [.readRow, .readRow] rfl
    (by
      rw [← w1]
      intro r hr
      have : ((Demo.reader.run ifs [.readRow, .readRow]).1.all fun r => r.isOk) = true := by decide +kernel
      have := List.all_eq_true.mp this r hr
      cases r with
      | ok v => exact ⟨v, rfl⟩
      | error e => cases this)
    hend (by rw [h2, ← w3]; exact hp)
    (.inr (by rw [← w3]; intro h; rw [h] at hlen; cases hlen))
  rw [h2, ← w3, hlen] at this
  exact this

/-- C63: the data set `people` with the values of its rows, two of whose columns are asked for, by chunks. -/
example : ∃ s f s', readSas Demo.cfg 100 (onlyFile ((Layout.packed demoBig people).write people)) (ascii "p") (.chunk 2)
    (.list [.str (ascii "name"), .str (ascii "born")]) = .ok s ∧ s.df = .ok (some f, s') ∧
    DataFrameOf people.columns (Wanted [ascii "name", ascii "born"] [])
      [[.number 0x4050000000000000, .text (ascii "ann"), .integer 42, .date 12000],
       [.number 0xfff0000000000000, .text (ascii "bob"), .integer (-1), .missing],
       [.number 0x4050000000000000, .text [], .integer 7, .date (-12000)]] f ∧ LabelsAre 3 f.index (.chunk 2) := by
  obtain ⟨R, h1, h2⟩ := C43_every Demo.cfg demoBig people 100 people_fits people_machine (by decide)
  refine readSas_written (incl := .list [.str (ascii "name"), .str (ascii "born")]) (excl := .none) (e := [])
    (show List.Forall₂ _ _ _ from .cons (.inl rfl) (.cons (.inl rfl) .nil)) rfl (fun items h => by cases h; decide)
    (fun items h => by cases h) rfl (by decide) h1 h2 people_values (by decide) (by decide +kernel)
    ⟨people.columns[1], List.getElem_mem _, List.mem_cons_self⟩ fun c hc _ => ?_
  have : ∀ c ∈ people.columns, utf8Valid c.name = true := by decide +kernel
  exact ByteArray.validateUTF8_eq_true_iff.mp (this c hc)

end Sas.Props
