import Verif.Proofs.RFront
import Verif.Props.PyFront

/-!
# Properties C66 (arguments), C67 (opening and properties), C68 (`read_sas`) and C69 (chunks) of the R package
-/

namespace Sas.Props

open Sas Spec

variable {unique : List (List Byte) → List (List Byte)}

/-! ## C66: include and exclude -/

theorem rArgNames_ok {a : RArg} {names : List (List Byte)} (h : RArgNames a names)
    (hl : ∀ items, a = .chr items → items.length < 2 ^ 31) : rListToSet a = .ok names := by
  cases a with
  | null => rw [show names = [] from h]; rfl
  | other => exact h.elim
  | chr items =>
    have hlen := hl items rfl
    have ht : (toSigned 32 (items.length % 2 ^ 32)).toNat = items.length := by
      unfold toSigned
      rw [Nat.mod_eq_of_lt (by omega), if_pos (by omega)]
      exact Int.toNat_natCast _
    unfold rListToSet
    simp only
    rw [ht, List.take_length, show names = items from h]

theorem rArgNames_bad {a : RArg} (h : ∀ names, ¬ RArgNames a names) : rListToSet a = .error .raised := by
  cases a with
  | null => exact absurd rfl (h [])
  | other => rfl
  | chr items => exact absurd rfl (h items)

theorem rOpen_inv {cfg : Cfg} {fuel : Nat} {fs : FileSystem} {name : List Byte} {kind : PyKind} {incl excl : RArg}
    {s : RSession IFStream} (h : rOpen unique cfg fuel fs name kind incl excl = .ok s) :
    ∃ f src, rFilter incl excl = .ok f ∧ openFile fs (name.takeWhile (· ≠ 0)) = .ok src ∧
      openReader cfg ifs fuel (some f) src = .ok s.reader ∧ (RSink.new kind).events unique s.reader.trace = .ok s.sink := by
  unfold rOpen at h
  cases hf : rFilter incl excl with
  | error e => rw [hf] at h; cases h
  | ok f =>
    rw [hf] at h
    cases hs : openFile fs (name.takeWhile (· ≠ 0)) with
    | error e => simp only [bind, Except.bind] at h; rw [hs] at h; cases h
    | ok src =>
      simp only [bind, Except.bind] at h
      rw [hs] at h
      simp only [PyM.ofRes] at h
      cases hR : openReader cfg ifs fuel (some f) src with
      | error e => rw [hR] at h; cases h
      | ok R =>
        rw [hR] at h
        simp only at h
        cases hk : (RSink.new kind).events unique R.trace with
        | error e => rw [hk] at h; cases h
        | ok k =>
          rw [hk] at h
          cases h
          exact ⟨f, src, rfl, rfl, hR, hk⟩

/-- C66, partial. Opening a file with the arguments `include` and `exclude` either reports exactly the columns
asked for, in the order of the file, or fails; if one of them is neither `NULL` nor a character vector, an R error
is raised. Missing, and false (`C66_long_refuted`): vectors of 2^31 and more elements. -/
theorem C66_arguments_partial (unique : List (List Byte) → List (List Byte)) (cfg : Cfg) (fuel : Nat) (fs : FileSystem)
    (name : List Byte) (kind : PyKind) (incl excl : RArg) (hi : ∀ items, incl = .chr items → items.length < 2 ^ 31)
    (he : ∀ items, excl = .chr items → items.length < 2 ^ 31) :
    (∀ s, rOpen unique cfg fuel fs name kind incl excl = .ok s → ∃ i e src R, RArgNames incl i ∧ RArgNames excl e ∧
      openFile fs (name.takeWhile (· ≠ 0)) = .ok src ∧ openReader cfg ifs fuel none src = .ok R ∧
      ∃ keep : Column → Bool, (∀ c, keep c = true ↔ Wanted i e c.name) ∧
        s.reader.props.columns = R.props.columns.filter keep) ∧
    ((∀ names, ¬ RArgNames incl names) ∨ (∀ names, ¬ RArgNames excl names) →
      rOpen unique cfg fuel fs name kind incl excl = .error .raised) := by
  constructor
  · intro s h
    obtain ⟨f, src, h1, h2, h3, -⟩ := rOpen_inv h
    have hi' : ∃ i, RArgNames incl i := by
      by_contra hc
      unfold rFilter at h1
      rw [rArgNames_bad (not_exists.mp hc)] at h1
      cases h1
    have he' : ∃ e, RArgNames excl e := by
      by_contra hc
      unfold rFilter at h1
      rw [rArgNames_ok hi'.choose_spec hi, rArgNames_bad (not_exists.mp hc)] at h1
      cases h1
    obtain ⟨i, hi'⟩ := hi'
    obtain ⟨e, he'⟩ := he'
    unfold rFilter at h1
    rw [rArgNames_ok hi' hi, rArgNames_ok he' he] at h1
    cases h1
    cases hR : openReader cfg ifs fuel none src with
    | error x => rw [(C21_filter cfg ifs fuel src _).1 x hR] at h3; cases h3
    | ok R =>
      obtain ⟨R', k1, k2, -⟩ := (C21_filter cfg ifs fuel src (Filter.includeExclude i e)).2 R hR
      rw [h3] at k1
      cases k1
      exact ⟨i, e, src, R, hi', he', h2, hR, Filter.includeExclude i e, wanted_iff i e, k2⟩
  · rintro (h | h)
    · unfold rOpen rFilter
      rw [rArgNames_bad h]
      rfl
    · by_cases hc : ∃ i, RArgNames incl i
      · obtain ⟨i, hi'⟩ := hc
        unfold rOpen rFilter
        rw [rArgNames_ok hi' hi, rArgNames_bad h]
        rfl
      · unfold rOpen rFilter
        rw [rArgNames_bad (not_exists.mp hc)]
        rfl

/-- C66 is false of a vector of 2^31 names that are not in the file: all columns are reported. -/
theorem C66_long_refuted : ∃ items : List (List Byte), items ≠ [] ∧ (∀ n ∈ items, n = ascii "?") ∧
    rFilter (.chr items) .null = .ok Filter.acceptAll := by
  refine ⟨List.replicate (2 ^ 31) (ascii "?"), ?_, fun i hi => List.eq_of_mem_replicate hi, ?_⟩
  · rw [ne_eq, List.replicate_eq_nil_iff]
    decide
  · have : rListToSet (.chr (List.replicate (2 ^ 31) (ascii "?"))) = .ok [] := by
      unfold rListToSet
      simp only [List.length_replicate]
      rw [show (toSigned 32 (2 ^ 31 % 2 ^ 32)).toNat = 0 from by decide]
      rfl
    unfold rFilter
    rw [this]
    rfl

/-- C66, partial. Each of the three sink classes gets the protocol its methods belong to; an object without
`set_properties` and a matching method is rejected, and so is a chunk size that is not a number. Missing, and
false (`C66_size_refuted`): negative chunk sizes are not rejected. -/
theorem C66_sinks_partial (n : Int) (a : RAttrs) :
    rKind { setProperties := true, pushRow := true } = .ok .row ∧
    rKind { setProperties := true, setData := true } = .ok .data ∧
    (0 ≤ n → n < 2 ^ 64 →
      rKind { chunkSize := some (some n), setProperties := true, pushRows := true } = .ok (.chunk n.toNat)) ∧
    (a.setProperties = true → a.pushRows = true → a.chunkSize = some none → rKind a = .error .raised) ∧
    (a.setProperties = false → rKind a = .error .raised) ∧
    (∀ k, rKind a = .ok k → a.setProperties = true ∧ match k with
      | .row => a.pushRow = true
      | .data => a.setData = true
      | .chunk m => a.pushRows = true ∧ a.chunkSize = some (some (m : Int))) := by
  refine ⟨rfl, rfl, fun h1 h2 => if_pos ⟨h1, h2⟩, ?_, ?_, ?_⟩
  · intro h1 h2 h3
    unfold rKind
    rw [h1, h2, h3]
    rfl
  · intro h
    unfold rKind
    rw [h]
    cases a.chunkSize <;> rfl
  · intro k h
    unfold rKind at h
    split at h
    · rename_i x hx hb
      rw [Bool.and_eq_true] at hb
      split at h
      · split at h
        · rename_i m hm
          cases h
          refine ⟨hb.1, hb.2, ?_⟩
          rw [hx, Int.toNat_of_nonneg hm.1]
        · cases h
      · cases h
    · split at h
      · rename_i hb
        rw [Bool.and_eq_true] at hb
        cases h
        exact hb
      · split at h
        · rename_i hb
          rw [Bool.and_eq_true] at hb
          cases h
          exact hb
        · cases h

/-- C66 is false of negative chunk sizes: undefined behaviour instead of an error. -/
theorem C66_size_refuted (n : Int) (h : n < 0) :
    rKind { chunkSize := some (some n), setProperties := true, pushRows := true } = .error (.cpp .ub) :=
  if_neg (by omega)

/-! ## C67: opening and properties -/

theorem years_text {x : DateTime} (h : InYears x) : ∃ t, x.toText = .ok t ∧ IsoStamp x t := by
  obtain ⟨us, rfl, hc⟩ := h
  have hc' := hc
  unfold CalendarDay at hc'
  obtain ⟨y, h1, h2⟩ := C52_text_partial.2.1 us (by omega) (by omega)
  exact ⟨_, h2, us, rfl, hc, y, isDay_of_ymd hc h1, rfl⟩

theorem wrap_ok {p : Properties} (h1 : InYears p.header.dateCreated) (h2 : InYears p.header.dateModified) :
    ∃ l, wrapProperties p = .ok l ∧ PropertiesList p l ∧ RList.dollar l (ascii "metadata") = none := by
  obtain ⟨t1, e1, s1⟩ := years_text h1
  obtain ⟨t2, e2, s2⟩ := years_text h2
  unfold wrapProperties
  rw [e1, e2]
  refine ⟨_, rfl, ⟨t1, t2, s1, s2, ?_⟩, ?_⟩
  · have a1 : Endian.text = endianName := by funext e; cases e <;> rfl
    have a2 : Platform.text = platformName := by funext e; cases e <;> rfl
    have a3 : Compression.text = compressionName := by funext e; cases e <;> rfl
    have a4 : ColType.text = typeName := by funext e; cases e <;> rfl
    rw [a1, a2, a3, a4]
    rfl
  · rfl

theorem r_opened {cfg : Cfg} {fuel : Nat} {fs : FileSystem} {name : List Byte} {kind : PyKind} {incl excl : RArg}
    {f : Filter} {src : IFStream} {R : Reader IFStream} (hfil : rFilter incl excl = .ok f)
    (hfile : openFile fs (name.takeWhile (· ≠ 0)) = .ok src) (hopen : openReader cfg ifs fuel (some f) src = .ok R) :
    R.trace = [.setProperties R.props] ∧ rOpen unique cfg fuel fs name kind incl excl =
      (do return { reader := R, sink := ← (RSink.new kind).event unique (.setProperties R.props) }) := by
  have ht : R.trace = [.setProperties R.props] := by
    cases hR : openReader cfg ifs fuel none src with
    | error x => rw [(C21_filter cfg ifs fuel src _).1 x hR] at hopen; cases hopen
    | ok R0 =>
      obtain ⟨R', k1, -, -, -, k2⟩ := (C21_filter cfg ifs fuel src f).2 R0 hR
      rw [hopen] at k1
      cases k1
      exact k2
  refine ⟨ht, ?_⟩
  unfold rOpen
  rw [hfil, hfile]
  simp only [bind, Except.bind, PyM.ofRes]
  rw [hopen]
  simp only [ht, RSink.events, bind, Except.bind]
  cases (RSink.new kind).event unique (.setProperties R.props) <;> rfl

/-- A sink after `set_properties`. -/
def RSink.opened (kind : PyKind) (p : Properties) (l : RList) : RSink where
  obj := { kind := kind, properties := some l }
  cpp := match kind with
    | .row => .row {}
    | .chunk n => .chunk (RCols.setProperties { size := n } p)
    | .data => .data (RCols.setProperties { size := 0 } p)

theorem told_set (o : RObj) (p : Properties) :
    o.told (.setProperties p) = (do o.setProperties (← PyM.ofRes (wrapProperties p))) := rfl

theorem event_open {kind : PyKind} (hk : kind ≠ .row) {p : Properties} {l : RList} (hw : wrapProperties p = .ok l)
    (hm : RList.dollar l (ascii "metadata") = none) :
    (RSink.new kind).event unique (.setProperties p) = .ok (RSink.opened kind p l) := by
  unfold RSink.event
  rw [told_set, hw]
  cases kind with
  | row => exact absurd rfl hk
  | chunk n =>
    simp only [RSink.new, PyM.ofRes, bind, Except.bind, RObj.setProperties, hm, rDollar, rNames, pure, Except.pure]
    rfl
  | data =>
    simp only [RSink.new, PyM.ofRes, bind, Except.bind, RObj.setProperties, hm, rDollar, rNames, pure, Except.pure]
    rfl

/-- C67, partial. A file that can be opened with these arguments is opened in R with `SinkByChunk` and
`SinkWholeData`, if the dates in its header are in the years 1400 to 9999. The sink gets the list of the
properties, and `properties()` returns the same list. Missing, and false: a header without a date
(`C67_date_refuted`), `SinkByRow` (`C67_row_refuted`), the columns of the sink (`C67_columns_refuted`), texts with
zero bytes, which are cut (see `PropertiesList`). -/
theorem C67_open_partial (unique : List (List Byte) → List (List Byte)) (cfg : Cfg) (fuel : Nat) (fs : FileSystem)
    (name : List Byte) (kind : PyKind) (incl excl : RArg) (f : Filter) (src : IFStream) (R : Reader IFStream)
    (hfil : rFilter incl excl = .ok f) (hfile : openFile fs (name.takeWhile (· ≠ 0)) = .ok src)
    (hopen : openReader cfg ifs fuel (some f) src = .ok R) (hk : kind ≠ .row)
    (h1 : InYears R.props.header.dateCreated) (h2 : InYears R.props.header.dateModified) :
    ∃ s l, rOpen unique cfg fuel fs name kind incl excl = .ok s ∧ s.reader = R ∧ PropertiesList R.props l ∧
      s.sink.obj.properties = some l ∧ s.properties = .ok l ∧ s.sink.df = none := by
  obtain ⟨l, w1, w2, w3⟩ := wrap_ok h1 h2
  obtain ⟨-, h⟩ := r_opened (unique := unique) (kind := kind) hfil hfile hopen
  rw [event_open hk w1 w3] at h
  refine ⟨_, l, h, rfl, w2, rfl, by unfold RSession.properties; rw [w1]; rfl, ?_⟩
  cases kind with
  | row => exact absurd rfl hk
  | chunk n => rfl
  | data => rfl

/-- C67 for the demonstration file. -/
example : ∃ s l, rOpen unique Demo.cfg 10 (onlyFile Demo.file) (ascii "f") (.chunk 2) .null .null = .ok s ∧
    PropertiesList Demo.reader.props l ∧ s.sink.obj.properties = some l ∧ s.properties = .ok l := by
  obtain ⟨R, h1, h2⟩ := C21_acceptAll Demo.cfg ifs 10 (IFStream.open Demo.file) Demo.reader Demo.opened_ok
  have hy : InYears (at1960 0) := ⟨0, rfl, by unfold CalendarDay; decide⟩
  have e1 : R.props.header.dateCreated = at1960 0 := by rw [h2]; decide +kernel
  have e2 : R.props.header.dateModified = at1960 0 := by rw [h2]; decide +kernel
  obtain ⟨s, l, g1, -, g3, g4, g5, -⟩ := C67_open_partial unique Demo.cfg 10 (onlyFile Demo.file) (ascii "f") (.chunk 2) .null
    .null Filter.acceptAll (IFStream.open Demo.file) R rfl rfl h1 (by decide) (by rw [e1]; exact hy) (by rw [e2]; exact hy)
  rw [h2] at g3
  exact ⟨s, l, g1, g3, g4, g5⟩

/-- C67 is false of a header without a date (a missing value, or one that is not a number): no sink opens the
file, although the reader can. -/
theorem C67_date_refuted (unique : List (List Byte) → List (List Byte)) (cfg : Cfg) (fuel : Nat) (fs : FileSystem)
    (name : List Byte) (kind : PyKind) (incl excl : RArg) (f : Filter) (src : IFStream) (R : Reader IFStream)
    (hfil : rFilter incl excl = .ok f) (hfile : openFile fs (name.takeWhile (· ≠ 0)) = .ok src)
    (hopen : openReader cfg ifs fuel (some f) src = .ok R) (h : R.props.header.dateCreated = .notADateTime) :
    rOpen unique cfg fuel fs name kind incl excl = .error (.cpp (.exn .outOfRange)) := by
  rw [(r_opened (unique := unique) (kind := kind) hfil hfile hopen).2]
  have : wrapProperties R.props = .error (.exn .outOfRange) := by
    unfold wrapProperties
    rw [h]
    rfl
  unfold RSink.event
  rw [told_set, this]
  rfl

/-- C67 is false of `SinkByRow`: no file can be opened with it. -/
theorem C67_row_refuted (unique : List (List Byte) → List (List Byte)) (cfg : Cfg) (fuel : Nat) (fs : FileSystem)
    (name : List Byte) (incl excl : RArg) (s : RSession IFStream) :
    rOpen unique cfg fuel fs name .row incl excl ≠ .ok s := by
  intro h
  obtain ⟨f, src, h1, h2, h3, h4⟩ := rOpen_inv h
  obtain ⟨ht, -⟩ := r_opened (unique := unique) (kind := .row) h1 h2 h3
  rw [ht] at h4
  simp only [RSink.events, bind, Except.bind] at h4
  have : ∀ k, (RSink.new .row).event unique (.setProperties s.reader.props) ≠ .ok k := by
    intro k hk
    unfold RSink.event at hk
    rw [told_set] at hk
    cases hw : wrapProperties s.reader.props with
    | error e => rw [hw] at hk; cases hk
    | ok l =>
      rw [hw] at hk
      simp only [PyM.ofRes, bind, Except.bind, RObj.setProperties, RSink.new] at hk
      cases hd : RList.dollar l (ascii "metadata") with
      | none => rw [hd] at hk; cases hk
      | some x => rw [hd] at hk; cases hk
  cases hc : (RSink.new .row).event unique (.setProperties s.reader.props) with
  | error e => rw [hc] at h4; cases h4
  | ok k => exact this k hc

theorem event_columns {k k' : RSink} {ev : Event} (hk : k.event unique ev = .ok k') (h : k.obj.columns = none) :
    k'.obj.columns = none := by
  unfold RSink.event at hk
  have key : ∀ obj : RObj, obj.columns = none →
      (match k.cpp with
        | .row st => do
          let (st, _) ← PyM.ofRes (st.step ev)
          return ({ obj := obj, cpp := .row st } : RSink)
        | .chunk st => do
          let (st, out) ← PyM.ofRes (st.step ev)
          return { obj := if delivers out then obj.pushRows unique st else obj, cpp := .chunk st }
        | .data st => do
          let (st, out) ← PyM.ofRes (st.dataStep ev)
          return { obj := if delivers out then { obj with df := .list } else obj, cpp := .data st }) = .ok k' →
      k'.obj.columns = none := by
    intro obj ho hk
    have hp : ∀ st, (obj.pushRows unique st).columns = none := by
      intro st
      unfold RObj.pushRows
      split <;> exact ho
    split at hk
    · rename_i st _
      cases hs : st.step ev with
      | error e => rw [hs] at hk; cases hk
      | ok x => rw [hs] at hk; cases hk; exact ho
    · rename_i st _
      cases hs : st.step ev with
      | error e => rw [hs] at hk; cases hk
      | ok x =>
        rw [hs] at hk
        cases hk
        show (if _ then _ else _ : RObj).columns = none
        split
        · exact hp _
        · exact ho
    · rename_i st _
      cases hs : st.dataStep ev with
      | error e => rw [hs] at hk; cases hk
      | ok x =>
        rw [hs] at hk
        cases hk
        show (if _ then _ else _ : RObj).columns = none
        split
        · exact ho
        · exact ho
  cases ev with
  | setProperties p =>
    rw [told_set] at hk
    cases hw : wrapProperties p with
    | error e => rw [hw] at hk; cases hk
    | ok l =>
      have hd : RList.dollar l (ascii "metadata") = none := by
        unfold wrapProperties at hw
        cases e1 : p.header.dateCreated.toText with
        | error e => rw [e1] at hw; cases hw
        | ok t1 =>
          rw [e1] at hw
          cases e2 : p.header.dateModified.toText with
          | error e => rw [e2] at hw; cases hw
          | ok t2 =>
            rw [e2] at hw
            cases hw
            rfl
      rw [hw] at hk
      simp only [PyM.ofRes, bind, Except.bind, RObj.setProperties, hd, rDollar, rNames, pure, Except.pure] at hk
      by_cases hr : k.obj.kind = .row
      · rw [if_pos hr] at hk
        cases hk
      · rw [if_neg hr] at hk
        exact key _ rfl hk
  | pushRow i r => exact key _ h hk
  | endOfData => exact key _ h hk

theorem events_columns : ∀ (evs : List Event) {k k' : RSink}, k.events unique evs = .ok k' → k.obj.columns = none →
    k'.obj.columns = none := by
  intro evs
  induction evs with
  | nil => intro k k' h h0; cases h; exact h0
  | cons ev evs ih =>
    intro k k' h h0
    rw [RSink.events] at h
    cases hc : k.event unique ev with
    | error e => rw [hc] at h; cases h
    | ok k1 => rw [hc] at h; exact ih h (event_columns hc h0)

/-- C67 is false of `sink$columns`, which is meant to hold the names of the columns: it is `NULL` in every program. -/
theorem C67_columns_refuted (unique : List (List Byte) → List (List Byte)) (cfg : Cfg) (fuel : Nat) (fs : FileSystem)
    (name : List Byte) (kind : PyKind) (incl excl : RArg) (ops : List Op) (s : RSession IFStream)
    (h : rProgram unique cfg fuel fs name kind incl excl ops = .ok s) : s.sink.obj.columns = none := by
  unfold rProgram at h
  cases h0 : rOpen unique cfg fuel fs name kind incl excl with
  | error e => rw [h0] at h; cases h
  | ok s0 =>
    rw [h0] at h
    have h1 : s0.sink.obj.columns = none := by
      obtain ⟨f, src, -, -, -, h4⟩ := rOpen_inv h0
      exact events_columns _ h4 rfl
    replace h : s0.ops unique ifs ops = .ok s := h
    clear h0
    induction ops generalizing s0 with
    | nil => cases h; exact h1
    | cons op ops ih =>
      rw [RSession.ops] at h
      cases hc : s0.op unique ifs op with
      | error e => rw [hc] at h; cases h
      | ok s1 =>
        rw [hc] at h
        refine ih s1 ?_ h
        unfold RSession.op at hc
        cases hs : s0.sink.events unique ((s0.reader.step ifs op).2.trace.drop s0.reader.trace.length) with
        | error e => simp only [hs, bind, Except.bind] at hc; cases hc
        | ok k =>
          simp only [hs, bind, Except.bind] at hc
          cases hr : (s0.reader.step ifs op).1 with
          | error e => rw [hr] at hc; cases hc
          | ok v => rw [hr] at hc; cases hc; exact events_columns _ hs h1

/-! ## C69: chunks -/

theorem events_cons {kind : PyKind} (hk : kind ≠ .row) {p : Properties} {l : RList} (hw : wrapProperties p = .ok l)
    (hm : RList.dollar l (ascii "metadata") = none) (evs : List Event) :
    (RSink.new kind).events unique (.setProperties p :: evs) = (RSink.opened kind p l).events unique evs := by
  rw [RSink.events, event_open hk hw hm]
  rfl

/-- A program whose reader makes these calls. -/
theorem program_ok {cfg : Cfg} {fuel : Nat} {fs : FileSystem} {name : List Byte} {kind : PyKind} {incl excl : RArg}
    {f : Filter} {src : IFStream} {R : Reader IFStream} {ops : List Op} (hfil : rFilter incl excl = .ok f)
    (hfile : openFile fs (name.takeWhile (· ≠ 0)) = .ok src) (hopen : openReader cfg ifs fuel (some f) src = .ok R)
    (hk : kind ≠ .row) (h1 : InYears R.props.header.dateCreated) (h2 : InYears R.props.header.dateModified)
    (hres : ∀ r ∈ (R.run ifs ops).1, ∃ v, r = .ok v) {l : RList} (w1 : wrapProperties R.props = .ok l)
    (w3 : RList.dollar l (ascii "metadata") = none) {evs : List Event}
    (ht : (R.run ifs ops).2.trace = .setProperties R.props :: evs) {k : RSink}
    (hk' : (RSink.opened kind R.props l).events unique evs = .ok k) :
    rProgram unique cfg fuel fs name kind incl excl ops = .ok ⟨(R.run ifs ops).2, k⟩ := by
  obtain ⟨ho, h⟩ := r_opened (unique := unique) (kind := kind) hfil hfile hopen
  rw [event_open hk w1 w3] at h
  unfold rProgram
  rw [h]
  refine RSession.ops_ok (kind := kind) ops ⟨R, _⟩ k (.opened _ _ _ _ _ hopen) ?_ hres ?_
  · show (RSink.new kind).events unique R.trace = _
    rw [ho, events_cons hk w1 w3]
    rfl
  · show (RSink.new kind).events unique (R.run ifs ops).2.trace = _
    rw [ht, events_cons hk w1 w3]
    exact hk'

/-- C69, partial. A program opens a file with a `SinkByChunk` and reads to the end; `sink$df` is then a frame with
the reported columns, sorted by type and under their names, and exactly the rows that were read. There is at least
one row, the chunk size is 0 (no chunks) or the data set has fewer rows than two chunks, and the names are distinct
and names in R. Missing, and false: more rows (`C69_chunks_refuted`), other names (`C69_names_refuted`), no rows
(`C69_empty_refuted`). -/
theorem C69_chunks_partial (unique : List (List Byte) → List (List Byte)) (cfg : Cfg) (fuel : Nat) (fs : FileSystem)
    (name : List Byte) (size : Nat) (incl excl : RArg) (f : Filter) (src : IFStream) (R R' : Reader IFStream)
    (hfil : rFilter incl excl = .ok f) (hfile : openFile fs (name.takeWhile (· ≠ 0)) = .ok src)
    (hopen : openReader cfg ifs fuel (some f) src = .ok R)
    (h1 : InYears R.props.header.dateCreated) (h2 : InYears R.props.header.dateModified)
    (hnames : ∀ c ∈ R.props.columns, SyntacticName c.name) (hdist : (R.props.columns.map Column.name).Nodup)
    (hsize : size = 0 ∨ R.props.md.rowCount < 2 * size) (h31 : R.props.md.rowCount ≤ 2 ^ 31)
    (ops : List Op) (hops : .endOfData ∉ ops) (hR' : (R.run ifs ops).2 = R')
    (hres : ∀ r ∈ (R.run ifs ops).1, ∃ v, r = .ok v) (hend : 0 < ends R'.trace)
    (hread : RReadable R.props.columns (pushes R'.trace)) (hne : pushes R'.trace ≠ []) :
    ∃ s t, rProgram unique cfg fuel fs name (.chunk size) incl excl ops = .ok s ∧ s.reader = R' ∧ s.sink.df = some t ∧
      TableHolds ((byType R.props.columns).map Column.name) R.props.columns (pushes R'.trace) t := by
  subst hR'
  have ht := C08_end_last hopen ops hops
  obtain ⟨es, e1, -, -, e4, e5⟩ := C08_protocol hopen ops
  have hpush : pushes (R.run ifs ops).2.trace = pushes es := by rw [e1]; rfl
  rw [← hpush] at e4 e5
  generalize hrw : pushes (R.run ifs ops).2.trace = rows at *
  obtain ⟨n, hn⟩ : ∃ n, ends (R.run ifs ops).2.trace = n + 1 := ⟨_, (Nat.succ_pred_eq_of_pos hend).symm⟩
  rw [hn] at ht
  obtain ⟨l, w1, w2, w3⟩ := wrap_ok h1 h2
  have hsub : ∀ c ∈ byType R.props.columns, c ∈ R.props.columns := fun c hc =>
    List.mem_of_mem_filter ((byType_perm R.props.columns).mem_iff.mp hc)
  have hN := frameNames_self (unique := unique) (fun c hc => hnames c (hsub c hc))
    (((byType_perm R.props.columns).map Column.name).nodup_iff.mpr (hdist.sublist (List.Sublist.map _ List.filter_sublist)))
  have hframe : RFrame unique R.props.columns size R.props.md.rowCount { kind := .chunk size, properties := some l }
      (RCols.setProperties { size := size } R.props) [] [] :=
    ⟨rstart size R.props, by simp, fun h => by simpa using h, fun i _ => by simp [RCols.setProperties, RCols.prepare],
      .inl ⟨rfl, rfl⟩⟩
  have hlen : (frameNames unique R.props.columns).length = (byType R.props.columns).length := by rw [hN, List.length_map]
  obtain ⟨o1, st1, d1, r1, a1, a2, a3, -, -⟩ := RFrame.rows hlen h31 hsize rows _ _ [] [] hframe hread
    (fun r hr => e5 r.1 (List.mem_map.2 ⟨r, hr, rfl⟩)) (by simpa using e4)
  rw [List.nil_append, List.nil_append] at a3
  obtain ⟨k, t, b1, b2, b3, -, -⟩ := a2.ends hlen n (by rw [a3]; exact hne)
  rw [a3, hN] at b3
  refine ⟨_, t, program_ok hfil hfile hopen (by simp) h1 h2 hres w1 w3 ht (k := k) ?_, rfl, b2, b3⟩
  refine (RSink.events_append _ _ _).trans ?_
  show (do (← (RSink.mk { kind := .chunk size, properties := some l }
    (.chunk (RCols.setProperties { size := size } R.props))).events unique _).events unique _) = _
  rw [a1]
  exact b1

/-! ## C68: whole data -/

/-- C68, partial. A program opens a file with a `SinkWholeData` and reads to the end; `sink$df` is then a list
with the reported columns, sorted by type, under their names as R strings, and exactly the rows that were read. There is at
least one row. Missing, and false: no rows (`C68_empty_refuted`). -/
theorem C68_data_partial (unique : List (List Byte) → List (List Byte)) (cfg : Cfg) (fuel : Nat) (fs : FileSystem)
    (name : List Byte) (incl excl : RArg) (f : Filter) (src : IFStream) (R R' : Reader IFStream)
    (hfil : rFilter incl excl = .ok f) (hfile : openFile fs (name.takeWhile (· ≠ 0)) = .ok src)
    (hopen : openReader cfg ifs fuel (some f) src = .ok R)
    (h1 : InYears R.props.header.dateCreated) (h2 : InYears R.props.header.dateModified)
    (h31 : R.props.md.rowCount ≤ 2 ^ 31)
    (ops : List Op) (hops : .endOfData ∉ ops) (hR' : (R.run ifs ops).2 = R')
    (hres : ∀ r ∈ (R.run ifs ops).1, ∃ v, r = .ok v) (hend : ends R'.trace = 1)
    (hread : RReadable R.props.columns (pushes R'.trace)) (hne : pushes R'.trace ≠ []) :
    ∃ s t, rProgram unique cfg fuel fs name .data incl excl ops = .ok s ∧ s.reader = R' ∧ s.sink.df = some t ∧
      TableHolds ((byType R.props.columns).map fun c => upToZero c.name) R.props.columns (pushes R'.trace) t := by
  subst hR'
  have ht := C08_end_last hopen ops hops
  obtain ⟨es, e1, -, -, e4, e5⟩ := C08_protocol hopen ops
  have hpush : pushes (R.run ifs ops).2.trace = pushes es := by rw [e1]; rfl
  rw [← hpush] at e4 e5
  generalize hrw : pushes (R.run ifs ops).2.trace = rows at *
  rw [hend] at ht
  obtain ⟨l, w1, w2, w3⟩ := wrap_ok h1 h2
  obtain ⟨st1, a1, a2⟩ := rdata_rows h31 rows _ [] (rstart 0 R.props) hread (by simpa using e4)
    (fun r hr => ⟨by simp [RCols.setProperties, RCols.prepare], e5 r.1 (List.mem_map.2 ⟨r, hr, rfl⟩)⟩)
  rw [List.nil_append] at a2
  have b1 := data_rows_events (unique := unique) (o := { kind := .data, properties := some l }) rows _ _ a1
  have hstep : st1.dataStep .endOfData = .ok (st1.setValues,
      [.setData (st1.setValues.heap.get st1.setValues.index) st1.setValues.rows]) := by
    simp only [RCols.dataStep]
    rw [if_neg]
    rw [a2.idata]
    simpa using hne
  have b2 : (RSink.mk { kind := .data, properties := some l } (.data st1)).event unique .endOfData =
      .ok (RSink.mk { kind := .data, properties := some l, df := .list } (.data st1.setValues)) := by
    unfold RSink.event
    simp only [hstep, bind, Except.bind, pure, Except.pure, PyM.ofRes, RObj.told, delivers]
    rfl
  have hholds := a2.holds
  refine ⟨_, st1.setValues.rows, program_ok hfil hfile hopen (by simp) h1 h2 hres w1 w3 ht
    (k := RSink.mk { kind := .data, properties := some l, df := .list } (.data st1.setValues)) ?_, rfl, rfl, ?_, ?_⟩
  · refine (RSink.events_append _ _ _).trans ?_
    show (do (← (RSink.mk { kind := .data, properties := some l }
      (.data (RCols.setProperties { size := 0 } R.props))).events unique _).events unique _) = _
    rw [b1]
    show (RSink.mk _ _).events unique [.endOfData] = _
    rw [RSink.events, b2]
    rfl
  · have := hholds.2
    rw [← List.forall₂_eq_eq_eq, List.forall₂_map_left_iff, List.forall₂_map_right_iff]
    exact this.flip.imp fun _ _ h => h.1
  · have := hholds.2
    rw [List.forall₂_map_right_iff]
    exact this.imp fun _ _ h => h.2

/-! ## Data sets -/

theorem shows_inYears {bits : Nat} {t : DateTime} (hc : InCalendar bits) (h : Shows bits t) : InYears t := by
  obtain ⟨x, hx, h1, h2⟩ := hc
  rcases h with ⟨h, -⟩ | ⟨x', us, hx', rfl, h3, -⟩
  · have e1 := ofBits_nan h
    rw [(ofBits_value hx).1] at e1
    cases e1
  · have e : x = x' := by
      have e1 := (ofBits_value hx).1
      rw [(ofBits_value hx').1] at e1
      cases e1
      rfl
    subst e
    refine ⟨us, rfl, ?_⟩
    rw [abs_le] at h3
    have a1 : ((-17671824000000000 - 1 : Int) : ℚ) < us := by push_cast; linarith [h3.1]
    have a2 : (us : ℚ) < ((253717920000000000 : Int) : ℚ) := by push_cast; linarith [h3.2]
    have a3 := Int.cast_lt.mp a1
    have a4 := Int.cast_lt.mp a2
    unfold CalendarDay
    omega

theorem r_shows_of_gives {e : Endian} {d : ColumnDesc} {v : Value} {cell : List Byte} (hs : StoredAs e d v cell)
    (h0 : ∀ t, v = .text t → 0 ∉ t) {c : Column} {mem : List Byte} (hg : Gives c mem v) :
    ∃ w x, c.value mem = .ok (some w) ∧ RShows w x ∧ ∀ x, RShows w x → RMeans v x := by
  cases hs with
  | text t pad hn hp ht =>
    refine ⟨.str t, _, by unfold Column.value; rw [hg.1, hg.2]; rfl, rfl, fun y h => ?_⟩
    rw [show y = .str (upToZero t) from h, upToZero_self (h0 t rfl)]
    rfl
  | byte b hn hl =>
    exact ⟨.int _, _, by unfold Column.value; rw [hg.1, hg.2]; rfl, rfl, fun y h => h⟩
  | short x hn hl h1 h2 =>
    exact ⟨.int _, _, by unfold Column.value; rw [hg.1, hg.2]; rfl, rfl, fun y h => h⟩
  | number bits ht hb hz =>
    exact ⟨.num _, _, by unfold Column.value; rw [hg.1, hg.2]; rfl, rfl, fun y h => h⟩
  | datetime us bits s ht hl hv hs hr =>
    have hc : CalendarDay (us / 86400000000) := by
      unfold CalendarDay
      rw [abs_lt] at hr
      omega
    have hc' := hc
    unfold CalendarDay at hc'
    obtain ⟨y, h1, h2⟩ := C52_text_partial.2.1 us (by omega) (by omega)
    refine ⟨.datetime (at1960 us), _, by unfold Column.value; rw [hg.1, hg.2]; rfl,
      .inr ⟨by unfold at1960; simp, _, h2, rfl⟩, ?_⟩
    rintro x (⟨h, -⟩ | ⟨-, s', h, rfl⟩)
    · cases h
    · rw [h2] at h
      cases h
      exact ⟨_, ⟨y, isDay_of_ymd hc h1, rfl⟩, rfl⟩
  | date n bits ht hl hv h1 h2 =>
    obtain ⟨y, g1, g2⟩ := C52_text_partial.1 n h1 h2
    refine ⟨.date (day1960 n), _, by unfold Column.value; rw [hg.1, hg.2]; rfl,
      .inr ⟨by unfold day1960; simp, _, g2, rfl⟩, ?_⟩
    rintro x (⟨h, -⟩ | ⟨-, s', h, rfl⟩)
    · cases h
    · rw [g2] at h
      cases h
      exact ⟨y, isDay_of_ymd ⟨h1, h2⟩ g1, rfl⟩
  | time us bits s ht hl hv hs h1 h2 =>
    obtain ⟨n, rfl⟩ := Int.eq_ofNat_of_zero_le h1
    have g2 := C52_text_partial.2.2 n (by omega)
    refine ⟨.time (.us n), _, by unfold Column.value; rw [hg.1, hg.2]; rfl, .inr ⟨by simp, _, g2, rfl⟩, ?_⟩
    rintro x (⟨h, -⟩ | ⟨-, s', h, rfl⟩)
    · cases h
    · rw [g2] at h
      cases h
      rfl
  | missing bits ht hl hv =>
    rcases hg with ⟨g1, g2⟩ | ⟨g1, g2⟩ | ⟨g1, g2⟩
    · refine ⟨.datetime .notADateTime, _, by unfold Column.value; rw [g1, g2]; rfl, .inl ⟨rfl, rfl⟩, ?_⟩
      rintro y (⟨-, h⟩ | ⟨h, -⟩)
      · exact h
      · exact absurd rfl h
    · refine ⟨.date .notADate, _, by unfold Column.value; rw [g1, g2]; rfl, .inl ⟨rfl, rfl⟩, ?_⟩
      rintro y (⟨-, h⟩ | ⟨h, -⟩)
      · exact h
      · exact absurd rfl h
    · refine ⟨.time .notADateTime, _, by unfold Column.value; rw [g1, g2]; rfl, .inl ⟨rfl, rfl⟩, ?_⟩
      rintro y (⟨-, h⟩ | ⟨h, -⟩)
      · exact h
      · exact absurd rfl h

/-- What a reader with a filter does with a file that holds a data set. -/
theorem written_filtered {cfg : Cfg} {fuel : Nat} {i e : List (List Byte)} {file : List Byte} {h : FileHeader}
    {d : DataSet} {R : Reader IFStream} (hopen : openReader cfg ifs fuel none (IFStream.open file) = .ok R)
    (hb : ReadsBack h d R) {values : List (List Value)} (hv : List.Forall₂ (RowHolds h.endian d.columns) d.rows values) :
    ∃ R' rws js, openReader cfg ifs fuel (some (Filter.includeExclude i e)) (IFStream.open file) = .ok R' ∧
      R'.props.header = R.props.header ∧ R'.props.md = R.props.md ∧ (R'.run ifs [.readAll]).1 = [.ok .unit] ∧
      (R'.run ifs [.readAll]).2.trace = .setProperties R'.props :: pushEvents 0 rws ++ [.endOfData] ∧
      js.Pairwise (· < ·) ∧ (∀ j, j ∈ js ↔ ∃ c, d.columns[j]? = some c ∧ Wanted i e c.name) ∧ rws.length = values.length ∧
      List.Forall₂ (fun (j : Nat) (col : Column) => ∃ c, d.columns[j]? = some c ∧ Reports col c ∧
        ∀ (k : Nat) (r : Row) (vs : List Value), rws[k]? = some r → values[k]? = some vs →
          ∃ v cell, vs[j]? = some v ∧ StoredAs h.endian c v cell ∧ Gives col r.mem v) js R'.props.columns := by
  obtain ⟨R', o1, o2, o3, o4, o5⟩ := (C21_filter cfg ifs fuel _ (Filter.includeExclude i e)).2 R hopen
  obtain ⟨rws, b1, b2, b3⟩ := hb.rows
  obtain ⟨js, j1, j2, j3⟩ := filter_positions R.props.columns (Filter.includeExclude i e)
  rw [← o2] at j3
  have hcol : ∀ (j : Nat) (col : Column), R.props.columns[j]? = some col → ∃ c, d.columns[j]? = some c ∧ Reports col c := by
    intro j col hj
    obtain ⟨hlt, -⟩ := List.getElem?_eq_some_iff.mp hj
    rw [hb.count] at hlt
    exact ⟨d.columns[j], List.getElem?_eq_getElem hlt, hb.columns j col _ hj (List.getElem?_eq_getElem hlt)⟩
  have hrun1 : ∀ T : Reader IFStream, (T.step ifs .readAll).1 = .ok .unit →
      T.run ifs [.readAll] = ([.ok .unit], (T.step ifs .readAll).2) := by
    intro T hT
    rw [Reader.run]
    generalize T.step ifs .readAll = x at hT
    obtain ⟨r, T'⟩ := x
    have hT : r = .ok .unit := hT
    subst hT
    rfl
  have hrunR := hrun1 R hb.result
  obtain ⟨w1, w2, w3, -⟩ := C22_same_rows cfg ifs fuel _ none _ R R' hopen o1 [.readAll]
  have ht := C08_end_last o1 [.readAll] (by simp)
  have he : ends (R'.run ifs [.readAll]).2.trace = 1 := by
    have hw : ∀ t : List Event, ends (t.map withoutColumns) = ends t := by
      intro t
      induction t with
      | nil => rfl
      | cons x t ih => cases x <;> simp [ends, withoutColumns] at ih ⊢ <;> exact ih
    rw [← hw, ← w2, hw, hrunR]
    show ends (R.step ifs .readAll).2.trace = 1
    rw [b2]
    have hp : ∀ (rs : List Row) (k : Nat), ends (pushEvents k rs ++ [.endOfData]) = 1 := by
      intro rs
      induction rs with
      | nil => intro k; rfl
      | cons r rs ih => intro k; simpa [pushEvents, ends] using ih (k + 1)
    simpa [ends] using hp rws 0
  have hp : pushes (R'.run ifs [.readAll]).2.trace = pushes (pushEvents 0 rws) := by
    rw [← w3, hrunR]
    show pushes (R.step ifs .readAll).2.trace = _
    rw [b2]
    simp [pushes, pushes_append]
  have hev : ∀ (rs : List Row) (k : Nat), (pushes (pushEvents k rs)).map (fun r => Event.pushRow r.1 r.2) = pushEvents k rs := by
    intro rs
    induction rs with
    | nil => intro k; rfl
    | cons r rs ih => intro k; simp [pushEvents, pushes, ih]
  rw [he, hp, hev] at ht
  have hlen : rws.length = values.length := by
    rw [← hv.length_eq, ← b1, List.length_map]
  refine ⟨R', rws, js, o1, o3, o4, by rw [← w1, hrunR], ht, j1, fun j => ?_, hlen, ?_⟩
  · rw [j2]
    constructor
    · rintro ⟨col, h1, h2⟩
      obtain ⟨c, h3, h4⟩ := hcol j col h1
      exact ⟨c, h3, by rw [← h4.name]; exact (wanted_iff i e col).mp h2⟩
    · rintro ⟨c, h1, h2⟩
      have hlt : j < R.props.columns.length := by
        rw [hb.count]
        exact (List.getElem?_eq_some_iff.mp h1).1
      have h3 := List.getElem?_eq_getElem hlt
      refine ⟨_, h3, (wanted_iff i e _).mpr ?_⟩
      rw [(hb.columns j _ c h3 h1).name]
      exact h2
  · refine j3.imp fun j col hj => ?_
    obtain ⟨c, h1, h2⟩ := hcol j col hj
    refine ⟨c, h1, h2, fun k r vs hk hvk => ?_⟩
    have h3 : d.rows[k]? = some r.bytes := by rw [← b1, List.getElem?_map, hk]; rfl
    obtain ⟨hlt, h4⟩ := List.getElem?_eq_some_iff.mp h3
    obtain ⟨hlt2, h5⟩ := List.getElem?_eq_some_iff.mp hvk
    have hR := (List.forall₂_iff_get.mp hv).2 k hlt hlt2
    simp only [List.get_eq_getElem, h4, h5] at hR
    have hlt3 : j < vs.length := by
      rw [hR.count]
      exact (List.getElem?_eq_some_iff.mp h1).1
    have hvj : vs[j]? = some vs[j] := List.getElem?_eq_getElem hlt3
    obtain ⟨before, cell, after, -, -, -, hs⟩ := hR.cells j c _ h1 hvj
    exact ⟨vs[j], cell, hvj, hs, b3 k r r.bytes vs hk h3 hR j col _ hj hvj⟩

/-- The place of a type among the columns of a table. -/
def typeRank : ColType → Nat
  | .number => 0
  | .integer => 1
  | .datetime => 2
  | .date => 3
  | .time => 4
  | .string => 5
  | .unknown => 6

theorem gives_rank {col : Column} {mem : List Byte} {v : Value} {n : Nat} (h : Gives col mem v) (hn : v.rank = some n) :
    typeRank col.type = n := by
  cases v with
  | missing => cases hn
  | _ => cases hn; rw [h.1]; rfl

/-- Sorted by type, and in order within a type. -/
theorem byType_sorted (P : List (Nat × Column)) (h : P.Pairwise fun x y => x.1 < y.1) :
    ([ColType.number, .integer, .datetime, .date, .time, .string].flatMap fun t => P.filter fun x => x.2.type = t).Pairwise
      fun x y => typeRank x.2.type < typeRank y.2.type ∨ typeRank x.2.type = typeRank y.2.type ∧ x.1 < y.1 := by
  rw [List.pairwise_flatMap]
  constructor
  · intro t _
    refine (List.Pairwise.and_mem.1 (h.sublist List.filter_sublist)).imp ?_
    rintro x y ⟨hx, hy, hlt⟩
    right
    have hx := (List.mem_filter.mp hx).2
    have hy := (List.mem_filter.mp hy).2
    simp only [decide_eq_true_eq] at hx hy
    exact ⟨by rw [hx, hy], hlt⟩
  · have hs : [ColType.number, .integer, .datetime, .date, .time, .string].Pairwise fun a b => typeRank a < typeRank b := by
      decide
    refine hs.imp ?_
    intro a b hab x hx y hy
    have hx := (List.mem_filter.mp hx).2
    have hy := (List.mem_filter.mp hy).2
    simp only [decide_eq_true_eq] at hx hy
    left
    rw [hx, hy]
    exact hab

/-- A table of the columns, sorted by type, is a table of the data set. -/
theorem tableOf_holds {d : DataSet} {wanted : List Byte → Prop} {values : List (List Value)} {js : List Nat}
    {cols : List Column} {rws : List Row} {e : Endian} {t : RTable} (h1 : js.Pairwise (· < ·))
    (h2 : ∀ j, j ∈ js ↔ ∃ c, d.columns[j]? = some c ∧ wanted c.name) (hlen : rws.length = values.length) (hne : rws ≠ [])
    (h3 : List.Forall₂ (fun (j : Nat) (col : Column) => ∃ c, d.columns[j]? = some c ∧ Reports col c ∧
        ∀ (k : Nat) (r : Row) (vs : List Value), rws[k]? = some r → values[k]? = some vs →
          ∃ v cell, vs[j]? = some v ∧ StoredAs e c v cell ∧ Gives col r.mem v) js cols)
    (h0 : ∀ row ∈ values, ∀ t, Value.text t ∈ row → 0 ∉ t)
    (ht : TableHolds ((byType cols).map Column.name) cols (pushes (pushEvents 0 rws)) t) :
    TableOf d.columns wanted values t := by
  let P := js.zip cols
  have hlenP := h3.length_eq
  have hP1 : P.map Prod.fst = js := List.map_fst_zip (by omega)
  have hP2 : P.map Prod.snd = cols := List.map_snd_zip (by omega)
  have hcell : ∀ x ∈ P, ∃ c, d.columns[x.1]? = some c ∧ Reports x.2 c ∧
        ∀ (k : Nat) (r : Row) (vs : List Value), rws[k]? = some r → values[k]? = some vs →
          ∃ v w y, vs[x.1]? = some v ∧ x.2.value r.mem = .ok (some w) ∧ RShows w y ∧ ∀ y, RShows w y → RMeans v y := by
    intro x hx
    have := List.forall₂_zip h3 (a := x.1) (b := x.2) hx
    obtain ⟨c, g1, g2, g3⟩ := this
    refine ⟨c, g1, g2, fun k r vs hk hvk => ?_⟩
    obtain ⟨v, cell, m1, m2, m3⟩ := g3 k r vs hk hvk
    obtain ⟨w, y, q1, q2, q3⟩ := r_shows_of_gives m2
      (fun t ht => h0 vs (List.mem_of_getElem? hvk) t (by rw [← ht]; exact List.mem_of_getElem? m1)) m3
    exact ⟨v, w, y, m1, q1, q2, q3⟩
  have hty : ∀ x ∈ P, x.2.type ≠ .unknown := by
    intro x hx hc
    obtain ⟨c, -, -, g3⟩ := hcell x hx
    obtain ⟨r, hr⟩ := List.exists_mem_of_ne_nil _ hne
    obtain ⟨k, hk⟩ := List.mem_iff_getElem?.mp hr
    have hlt : k < values.length := by rw [← hlen]; exact (List.getElem?_eq_some_iff.mp hk).1
    obtain ⟨v, w, y, -, q, -⟩ := g3 k r _ hk (List.getElem?_eq_getElem hlt)
    unfold Column.value at q
    rw [hc] at q
    cases q
  let Q := [ColType.number, .integer, .datetime, .date, .time, .string].flatMap fun t => P.filter fun x => x.2.type = t
  have hQ : Q.Perm P := by
    have := types_perm (fun x : Nat × Column => x.2.type) P
    rwa [List.filter_eq_self.2 (by simpa using hty)] at this
  have hQ2 : Q.map Prod.snd = byType cols := by
    have : ∀ t : ColType, (P.filter fun x => x.2.type = t).map Prod.snd = cols.filter fun c => c.type = t := by
      intro t
      rw [← hP2, List.filter_map]
      rfl
    simp only [Q, byType, List.map_flatMap, this]
  refine ⟨Q.map Prod.fst, ?_, fun j => ?_, ?_, ?_⟩
  · rw [(hQ.map Prod.fst).nodup_iff, hP1]
    exact h1.imp Nat.ne_of_lt
  · rw [(hQ.map Prod.fst).mem_iff, hP1]
    exact h2 j
  · have hsort := byType_sorted P (by
      have := h1
      rw [← hP1, List.pairwise_map] at this
      exact this)
    have hrank : ∀ x ∈ P, ∀ row ∈ values, ∀ v n, row[x.1]? = some v → v.rank = some n → typeRank x.2.type = n := by
      intro x hx row hrow v n hv hn
      obtain ⟨c, g1, g2, g3⟩ := List.forall₂_zip h3 (a := x.1) (b := x.2) hx
      obtain ⟨k, hk⟩ := List.mem_iff_getElem?.mp hrow
      have hlt : k < rws.length := by rw [hlen]; exact (List.getElem?_eq_some_iff.mp hk).1
      obtain ⟨v', cell, m1, -, m3⟩ := g3 k _ _ (List.getElem?_eq_getElem hlt) hk
      rw [hv] at m1
      cases m1
      exact gives_rank m3 hn
    rw [List.pairwise_map]
    refine (List.Pairwise.and_mem.1 hsort).imp ?_
    rintro x y ⟨hx, hy, hxy⟩ row hrow row' hrow' v v' n n' hv hv' hn hn'
    rw [hrank x (hQ.mem_iff.mp hx) row hrow v n hv hn, hrank y (hQ.mem_iff.mp hy) row' hrow' v' n' hv' hn'] at hxy
    exact hxy
  · obtain ⟨t1, t2⟩ := ht
    rw [← hQ2] at t1 t2
    have hsnd : ∀ (rs : List Row), (pushes (pushEvents 0 rs)).map Prod.snd = rs := fun rs => pushes_pushEvents rs 0
    have hmem : ∀ x ∈ Q, x ∈ P := fun x hx => hQ.mem_iff.mp hx
    clear_value Q
    rw [List.map_map] at t1
    clear hQ hQ2 hP1 hP2
    induction Q generalizing t with
    | nil =>
      cases t with
      | nil => exact .nil
      | cons a t => simp at t1
    | cons x Q ih =>
      cases t with
      | nil => simp at t1
      | cons a t =>
        simp only [List.map_cons, List.cons.injEq] at t1
        rw [List.map_cons, List.map_cons, List.forall₂_cons] at t2
        rw [List.map_cons]
        refine .cons ?_ (ih t1.2 t2.2 fun y hy => hmem y (List.mem_cons_of_mem _ hy))
        obtain ⟨c, g1, g2, g3⟩ := hcell x (hmem x List.mem_cons_self)
        refine ⟨⟨c, g1, by rw [t1.1, Function.comp_apply, g2.name]⟩, ?_⟩
        have t3 := t2.1
        have hl := hsnd rws
        have t4 : List.Forall₂ (fun (r : Row) y => ∃ v, x.2.value r.mem = .ok (some v) ∧ RShows v y) rws a.2 := by
          rw [← hl, List.forall₂_map_left_iff]
          exact t3
        rw [List.forall₂_iff_get] at t4 ⊢
        refine ⟨hlen.symm.trans t4.1, fun k n1 n2 => ?_⟩
        have n3 : k < rws.length := by omega
        obtain ⟨w', k1, k2⟩ := t4.2 k n3 n2
        obtain ⟨v, w, y, q1, q2, q3, q4⟩ := g3 k _ _ (List.getElem?_eq_getElem n3) (List.getElem?_eq_getElem n1)
        rw [List.get_eq_getElem] at k1
        rw [q2] at k1
        cases k1
        exact ⟨v, q1, q4 _ k2⟩

/-- A program that reads all of a file that holds a data set. -/
theorem r_written {cfg : Cfg} {fuel : Nat} {fs : FileSystem} {name : List Byte} {kind : PyKind}
    {incl excl : RArg} {i e : List (List Byte)} (hi : RArgNames incl i) (he : RArgNames excl e)
    (hli : ∀ items, incl = .chr items → items.length < 2 ^ 31)
    (hle : ∀ items, excl = .chr items → items.length < 2 ^ 31)
    {file : List Byte} (hfile : fs.content name = some file) (hname : 0 ∉ name)
    {h : FileHeader} {d : DataSet} {R : Reader IFStream} (hopen : openReader cfg ifs fuel none (IFStream.open file) = .ok R)
    (hb : ReadsBack h d R) (hc : InCalendar h.created ∧ InCalendar h.modified) {values : List (List Value)}
    (hv : List.Forall₂ (RowHolds h.endian d.columns) d.rows values) (hne : d.rows ≠ []) (h31 : d.rows.length ≤ 2 ^ 31)
    (h0 : ∀ row ∈ values, ∀ t, Value.text t ∈ row → 0 ∉ t)
    (hk : (kind = .data ∧ ∀ c ∈ d.columns, Wanted i e c.name → 0 ∉ c.name) ∨
      ∃ size, kind = .chunk size ∧ (size = 0 ∨ d.rows.length < 2 * size) ∧ (d.columns.map ColumnDesc.name).Nodup ∧
        ∀ c ∈ d.columns, Wanted i e c.name → SyntacticName c.name) :
    ∃ s t, rProgram unique cfg fuel fs name kind incl excl [.readAll] = .ok s ∧ s.sink.df = some t ∧
      TableOf d.columns (Wanted i e) values t := by
  have hfil : rFilter incl excl = .ok (Filter.includeExclude i e) := by
    unfold rFilter
    rw [rArgNames_ok hi hli, rArgNames_ok he hle]
    rfl
  have hof : openFile fs (name.takeWhile (· ≠ 0)) = .ok (IFStream.open file) := by
    have hcut : name.takeWhile (· ≠ 0) = name := upToZero_self hname
    unfold openFile
    rw [hcut, hfile]
  obtain ⟨R', rws, js, o1, o2, o3, o4, o5, j1, j2, j3, j4⟩ := written_filtered (i := i) (e := e) hopen hb hv
  have hlen : rws.length = d.rows.length := by rw [j3, hv.length_eq]
  have hrne : rws ≠ [] := by
    rintro rfl
    exact hne (List.eq_nil_of_length_eq_zero hlen.symm)
  have hpush : pushes (R'.run ifs [.readAll]).2.trace = pushes (pushEvents 0 rws) := by
    rw [o5]
    simp [pushes, pushes_append]
  have hends : ends (R'.run ifs [.readAll]).2.trace = 1 := by
    rw [o5]
    have hp : ∀ (rs : List Row) (k : Nat), ends (pushEvents k rs ++ [.endOfData]) = 1 := by
      intro rs
      induction rs with
      | nil => intro k; rfl
      | cons r rs ih => intro k; simpa [pushEvents, ends] using ih (k + 1)
    simpa [ends] using hp rws 0
  have hpne : pushes (R'.run ifs [.readAll]).2.trace ≠ [] := by
    rw [hpush]
    intro h
    have := pushes_pushEvents rws 0
    rw [h] at this
    exact hrne this.symm
  have hread : RReadable R'.props.columns (pushes (R'.run ifs [.readAll]).2.trace) := by
    intro col hcol r hr
    have hr' : r.2 ∈ rws := by
      rw [← pushes_pushEvents rws 0, ← hpush]
      exact List.mem_map_of_mem (f := Prod.snd) hr
    obtain ⟨k, hk⟩ := List.mem_iff_getElem?.mp hr'
    have hlt : k < values.length := by rw [← j3]; exact (List.getElem?_eq_some_iff.mp hk).1
    obtain ⟨j, -, c, -, -, hg⟩ := forall₂_mem_right j4 (List.mem_of_mem_filter hcol)
    obtain ⟨v, cell, m1, m2, m3⟩ := hg k _ _ hk (List.getElem?_eq_getElem hlt)
    obtain ⟨w, y, q1, q2, -⟩ := r_shows_of_gives m2
      (fun t ht => h0 _ (List.getElem_mem hlt) t (by rw [← ht]; exact List.mem_of_getElem? m1)) m3
    exact ⟨w, y, q1, q2⟩
  have hy1 : InYears R'.props.header.dateCreated := by rw [o2]; exact shows_inYears hc.1 hb.header.dateCreated
  have hy2 : InYears R'.props.header.dateModified := by rw [o2]; exact shows_inYears hc.2 hb.header.dateModified
  have hres : ∀ r ∈ (R'.run ifs [.readAll]).1, ∃ v, r = .ok v := by
    rw [o4]
    intro r hr
    exact ⟨_, List.mem_singleton.mp hr⟩
  have hrc : R'.props.md.rowCount = d.rows.length := by rw [o3, hb.rowCount]
  have hcols : ∀ col ∈ R'.props.columns, ∃ c ∈ d.columns, col.name = c.name ∧ Wanted i e c.name := by
    intro col hcol
    obtain ⟨j, hj, c, h1, h2, -⟩ := forall₂_mem_right j4 hcol
    obtain ⟨c', h3, h4⟩ := (j2 j).mp hj
    rw [h1] at h3
    cases h3
    exact ⟨c, List.mem_of_getElem? h1, h2.name, h4⟩
  rcases hk with ⟨rfl, hz⟩ | ⟨size, rfl, hs, hd, hn⟩
  · obtain ⟨s, t, g1, g2, g3, g4⟩ := C68_data_partial unique cfg fuel fs name incl excl _ _ R' _ hfil hof o1 hy1 hy2
      (by rw [hrc]; exact h31) [.readAll] (by simp) rfl hres hends hread hpne
    refine ⟨s, t, g1, g3, tableOf_holds j1 j2 j3 hrne j4 h0 ?_⟩
    have hN : ((byType R'.props.columns).map fun c => upToZero c.name) = (byType R'.props.columns).map Column.name := by
      refine List.map_congr_left fun col hcol => upToZero_self ?_
      obtain ⟨c, h1, h2, h3⟩ := hcols col (List.mem_of_mem_filter ((byType_perm _).mem_iff.mp hcol))
      rw [h2]
      exact hz c h1 h3
    rw [hN, hpush] at g4
    exact g4
  · have hdist : (R'.props.columns.map Column.name).Nodup := by
      have : List.Forall₂ (fun (j : Nat) n => ∃ c, d.columns[j]? = some c ∧ n = c.name) js (R'.props.columns.map Column.name) := by
        rw [List.forall₂_map_right_iff]
        exact j4.imp fun j col h => by obtain ⟨c, h1, h2, -⟩ := h; exact ⟨c, h1, h2.name⟩
      have hj : R'.props.columns.map Column.name = js.map fun j => ((d.columns.map ColumnDesc.name)[j]?).getD [] := by
        rw [← List.forall₂_eq_eq_eq, List.forall₂_map_right_iff]
        refine this.flip.imp fun n j h => ?_
        obtain ⟨c, h1, h2⟩ := h
        rw [List.getElem?_map, h1, h2]
        rfl
      rw [hj]
      refine List.Nodup.map_on (H := ?_) (d := ?_)
      · intro a ha b hb hab
        obtain ⟨ca, a1, -⟩ := (j2 a).mp ha
        obtain ⟨cb, b1, -⟩ := (j2 b).mp hb
        simp only [List.getElem?_map, a1, b1, Option.map_some, Option.getD_some] at hab
        have ha' : (d.columns.map ColumnDesc.name)[a]? = some ca.name := by rw [List.getElem?_map, a1]; rfl
        have hb' : (d.columns.map ColumnDesc.name)[b]? = some ca.name := by rw [List.getElem?_map, b1, hab]; rfl
        obtain ⟨la, -⟩ := List.getElem?_eq_some_iff.mp ha'
        exact (List.nodup_iff_getElem?_ne_getElem?.mp hd |> fun H => by
          rcases Nat.lt_trichotomy a b with hlt | heq | hgt
          · obtain ⟨lb, -⟩ := List.getElem?_eq_some_iff.mp hb'
            exact absurd (ha'.trans hb'.symm) (H a b hlt lb)
          · exact heq
          · exact absurd (hb'.trans ha'.symm) (H b a hgt la))
      · exact j1.imp Nat.ne_of_lt
    obtain ⟨s, t, g1, g2, g3, g4⟩ := C69_chunks_partial unique cfg fuel fs name size incl excl _ _ R' _ hfil hof o1 hy1 hy2
      (fun col hcol => by
        obtain ⟨c, h1, h2, h3⟩ := hcols col hcol
        rw [h2]
        exact hn c h1 h3) hdist (by rw [hrc]; exact hs)
      (by rw [hrc]; exact h31) [.readAll] (by simp) rfl hres (by rw [hends]; exact Nat.one_pos) hread hpne
    refine ⟨s, t, g1, g3, tableOf_holds j1 j2 j3 hrne j4 h0 ?_⟩
    rw [hpush] at g4
    exact g4

/-- C68, partial. `read_sas(name, include, exclude)$df` for a file that holds a data set, in any layout: each of the
columns asked for once, under its name, and in every row the value that is stored there, as an R value. There are
rows, at most 2^31; the dates of the header are in the years 1400 to 9999; texts and names have no zero bytes.
Missing, and false: a data set without rows (`C68_empty_refuted`), headers without a date (`C67_date_refuted`),
zero bytes (`C68_zero_refuted`). -/
theorem C68_layouts_partial (unique : List (List Byte) → List (List Byte)) (cfg : Cfg) (fuel : Nat) (fs : FileSystem)
    (name : List Byte) (incl excl : RArg) (i e : List (List Byte)) (hi : RArgNames incl i) (he : RArgNames excl e)
    (hli : ∀ items, incl = .chr items → items.length < 2 ^ 31)
    (hle : ∀ items, excl = .chr items → items.length < 2 ^ 31)
    (l : Layout) (d : DataSet) (hl : l.For d) (hr : l.Plain d ∨ l.Compressed d) (hm : Machine cfg l.header d)
    (hf : l.metaPages.length + l.rowPages.length < fuel)
    (hfile : fs.content name = some (l.write d)) (hname : 0 ∉ name)
    (hc : InCalendar l.header.created ∧ InCalendar l.header.modified)
    (values : List (List Value)) (hv : List.Forall₂ (RowHolds l.header.endian d.columns) d.rows values)
    (hne : d.rows ≠ []) (h31 : d.rows.length ≤ 2 ^ 31) (h0 : ∀ row ∈ values, ∀ t, Value.text t ∈ row → 0 ∉ t)
    (hz : ∀ c ∈ d.columns, Wanted i e c.name → 0 ∉ c.name) :
    ∃ k t, rReadSas unique cfg fuel fs name incl excl = .ok k ∧ k.df = some t ∧ TableOf d.columns (Wanted i e) values t := by
  obtain ⟨R, h1, h2⟩ := readsBack hl hr hm hf
  obtain ⟨s, t, g1, g2, g3⟩ := r_written (unique := unique) hi he hli hle hfile hname h1 h2 hc hv hne h31 h0 (.inl ⟨rfl, hz⟩)
  refine ⟨s.sink, t, ?_, g2, g3⟩
  unfold rReadSas
  rw [g1]
  rfl

/-- C68, partial. Every data set that can be written and fits has a file from which `read_sas(name)` makes its table.
Missing as in `C68_layouts_partial`. -/
theorem C68_every_partial (unique : List (List Byte) → List (List Byte)) (cfg : Cfg) (fuel : Nat) (fs : FileSystem)
    (name : List Byte) (h : FileHeader) (d : DataSet) (hd : d.Fits h) (hm : Machine cfg h d)
    (hf : 3 + 4 * d.columns.length + d.rows.length < fuel)
    (hfile : fs.content name = some ((Layout.packed h d).write d)) (hname : 0 ∉ name)
    (hc : InCalendar h.created ∧ InCalendar h.modified)
    (values : List (List Value)) (hv : List.Forall₂ (RowHolds h.endian d.columns) d.rows values)
    (hne : d.rows ≠ []) (h31 : d.rows.length ≤ 2 ^ 31) (h0 : ∀ row ∈ values, ∀ t, Value.text t ∈ row → 0 ∉ t)
    (hz : ∀ c ∈ d.columns, 0 ∉ c.name) :
    ∃ k t, rReadSas unique cfg fuel fs name = .ok k ∧ k.df = some t ∧ TableOf d.columns (fun _ => True) values t := by
  obtain ⟨R, h1, h2⟩ := C43_every cfg h d fuel hd hm hf
  have hw : Wanted [] [] = fun _ => True := by
    funext n
    simp [Wanted]
  obtain ⟨s, t, g1, g2, g3⟩ := r_written (unique := unique) (kind := .data) (incl := .null) (excl := .null) (i := []) (e := [])
    rfl rfl (fun _ h => by cases h) (fun _ h => by cases h) hfile hname h1 h2 hc hv hne h31 h0
    (.inl ⟨rfl, fun c hc _ => hz c hc⟩)
  rw [hw] at g3
  refine ⟨s.sink, t, ?_, g2, g3⟩
  unfold rReadSas
  rw [g1]
  rfl

/-- C69, partial. Reading all of a file that holds a data set, in any layout, with a `SinkByChunk`: the frame has each
of the columns asked for once, under its name, and in every row the value that is stored there, as an R value.
Missing as in `C69_chunks_partial` and `C68_layouts_partial`. -/
theorem C69_layouts_partial (unique : List (List Byte) → List (List Byte)) (cfg : Cfg) (fuel : Nat) (fs : FileSystem)
    (name : List Byte) (size : Nat) (incl excl : RArg) (i e : List (List Byte)) (hi : RArgNames incl i)
    (he : RArgNames excl e) (hli : ∀ items, incl = .chr items → items.length < 2 ^ 31)
    (hle : ∀ items, excl = .chr items → items.length < 2 ^ 31)
    (l : Layout) (d : DataSet) (hl : l.For d) (hr : l.Plain d ∨ l.Compressed d) (hm : Machine cfg l.header d)
    (hf : l.metaPages.length + l.rowPages.length < fuel)
    (hfile : fs.content name = some (l.write d)) (hname : 0 ∉ name)
    (hc : InCalendar l.header.created ∧ InCalendar l.header.modified)
    (values : List (List Value)) (hv : List.Forall₂ (RowHolds l.header.endian d.columns) d.rows values)
    (hne : d.rows ≠ []) (h31 : d.rows.length ≤ 2 ^ 31) (h0 : ∀ row ∈ values, ∀ t, Value.text t ∈ row → 0 ∉ t)
    (hsize : size = 0 ∨ d.rows.length < 2 * size) (hdist : (d.columns.map ColumnDesc.name).Nodup)
    (hn : ∀ c ∈ d.columns, Wanted i e c.name → SyntacticName c.name) :
    ∃ s t, rProgram unique cfg fuel fs name (.chunk size) incl excl [.readAll] = .ok s ∧ s.sink.df = some t ∧
      TableOf d.columns (Wanted i e) values t := by
  obtain ⟨R, h1, h2⟩ := readsBack hl hr hm hf
  exact r_written (unique := unique) hi he hli hle hfile hname h1 h2 hc hv hne h31 h0 (.inr ⟨size, rfl, hsize, hdist, hn⟩)

/-! ## A data set -/

/-- The header of `people` with dates: 1960-01-01. -/
def demoDated : FileHeader := { demoBig with created := 0, modified := 0 }

theorem demoDated_writable : demoDated.Writable where
  long := demoBig_writable.long
  datasetName := demoBig_writable.datasetName
  fileType := demoBig_writable.fileType
  sasRelease := demoBig_writable.sasRelease
  serverType := demoBig_writable.serverType
  osType := demoBig_writable.osType
  osName := demoBig_writable.osName
  stamps := by
    obtain ⟨x, h1, h2, h3⟩ := inCalendar_zero
    exact ⟨.inr ⟨x, h1, by rw [abs_le]; constructor <;> linarith⟩, .inr ⟨x, h1, by rw [abs_le]; constructor <;> linarith⟩⟩
  sizes := by decide

theorem people_fits_dated : people.Fits demoDated where
  header := demoDated_writable
  columnsOk := people_columns
  columns := by decide
  texts := by decide +kernel
  sizes := by decide
  rowLength := by decide +kernel
  page := by decide

theorem people_machine_dated : Machine Demo.cfg demoDated people where
  header := by decide
  page := by decide
  row := by decide
  columns := by decide
  loggable := fun h => by cases h

/-- C68 for `people`: all of its columns. -/
example : ∃ k t, rReadSas unique Demo.cfg 100 (onlyFile ((Layout.packed demoDated people).write people)) (ascii "p") = .ok k ∧
    k.df = some t ∧ TableOf people.columns (fun _ => True)
      [[.number 0x4050000000000000, .text (ascii "ann"), .integer 42, .date 12000],
       [.number 0xfff0000000000000, .text (ascii "bob"), .integer (-1), .missing],
       [.number 0x4050000000000000, .text [], .integer 7, .date (-12000)]] t :=
  C68_every_partial unique Demo.cfg 100 _ _ demoDated people people_fits_dated people_machine_dated (by decide) rfl
    (by decide) ⟨inCalendar_zero, inCalendar_zero⟩ _ people_values (by decide) (by decide)
    (by
      intro row hrow t ht
      simp only [List.mem_cons, List.not_mem_nil, or_false] at hrow
      rcases hrow with rfl | rfl | rfl <;> simp only [List.mem_cons, List.not_mem_nil, or_false, reduceCtorEq, false_or, Value.text.injEq] at ht <;>
        subst ht <;> decide +kernel)
    (by decide +kernel)

/-- C69 for `people`: two of its columns, in chunks of two rows. -/
example : ∃ s t, rProgram unique Demo.cfg 100 (onlyFile ((Layout.packed demoDated people).write people)) (ascii "p") (.chunk 2)
    (.chr [ascii "name", ascii "age"]) .null [.readAll] = .ok s ∧
    s.sink.df = some t ∧ TableOf people.columns (Wanted [ascii "name", ascii "age"] [])
      [[.number 0x4050000000000000, .text (ascii "ann"), .integer 42, .date 12000],
       [.number 0xfff0000000000000, .text (ascii "bob"), .integer (-1), .missing],
       [.number 0x4050000000000000, .text [], .integer 7, .date (-12000)]] t := by
  obtain ⟨R, h1, h2⟩ := C43_every Demo.cfg demoDated people 100 people_fits_dated people_machine_dated (by decide)
  refine r_written (unique := unique) (incl := .chr [ascii "name", ascii "age"]) (excl := .null) (e := [])
    rfl rfl (fun items h => by cases h; decide) (fun _ h => by cases h) rfl (by decide) h1 h2
    ⟨inCalendar_zero, inCalendar_zero⟩ people_values (by decide) (by decide) ?_
    (.inr ⟨2, rfl, .inr (by decide), by decide +kernel, ?_⟩)
  · intro row hrow t ht
    simp only [List.mem_cons, List.not_mem_nil, or_false] at hrow
    rcases hrow with rfl | rfl | rfl <;> simp only [List.mem_cons, List.not_mem_nil, or_false, reduceCtorEq, false_or, Value.text.injEq] at ht <;>
      subst ht <;> decide +kernel
  · intro c hc _
    have : ∀ c ∈ people.columns, (∀ b ∈ c.name, (97 ≤ b.toNat ∧ b.toNat ≤ 122)) ∧ c.name ≠ [] ∧ c.name ∉ reservedWords := by
      decide +kernel
    obtain ⟨g1, g2, g3⟩ := this c hc
    refine ⟨fun b hb => .inl (.inr (g1 b hb)), .inl ?_, g3⟩
    obtain ⟨b, l, hbl⟩ := List.exists_cons_of_ne_nil g2
    exact ⟨b, by rw [hbl]; rfl, .inr (g1 b (by rw [hbl]; exact List.mem_cons_self))⟩

/-! ## What does not hold -/

/-- The table of a program that reads the demonstration file with some bytes changed. -/
def demoTable (l : List (Nat × Byte)) (kind : PyKind) (ops : List Op) : PyM (Option RTable) := do
  return (← rProgram id Demo.cfg 10 (patchedFile l) (ascii "f") kind .null .null ops).sink.df

instance : DecidableEq (PyM (Option RTable)) := inferInstance

/-- The table of the demonstration file. -/
def demoRows : RTable :=
  [(ascii "ID", [.num (.bits 0x3ff0000000000000), .num (.bits 0x4000000000000000), .num (.bits 0x4010000000000000)]),
   (ascii "NAME", [.str (ascii "ann"), .str (ascii "bob"), .str (ascii "cy")])]

example : demoTable [] .data [.readAll] = .ok (some demoRows) ∧ demoTable [] (.chunk 2) [.readAll] = .ok (some demoRows) ∧
    demoTable [] (.chunk 0) [.readAll] = .ok (some demoRows) := by decide +kernel

/-- C68 is false of a data set without rows: there is no table. -/
theorem C68_empty_refuted : demoTable [(552, 0)] .data [.readAll] = .ok none := by decide +kernel

/-- C68 is false of texts and names with a zero byte: they are shown up to it. -/
theorem C68_zero_refuted : (Demo.file.drop 1220).take 3 = ascii "ann" ∧ (Demo.file.drop 968).take 4 = ascii "NAME" ∧
    demoTable [(1221, 0), (970, 0)] .data [.readAll] =
      .ok (some [demoRows[0], (ascii "NA", [.str (ascii "a"), .str (ascii "bob"), .str (ascii "cy")])]) := by
  decide +kernel

/-- C69 is false of data sets with more rows: three rows in chunks of one. The first row is replaced by the second. -/
theorem C69_chunks_refuted : demoTable [] (.chunk 1) [.readAll] =
    .ok (some [(ascii "ID", [.num (.bits 0x4000000000000000), .num (.bits 0x4000000000000000), .num (.bits 0x4010000000000000)]),
      (ascii "NAME", [.str (ascii "bob"), .str (ascii "bob"), .str (ascii "cy")])]) := by decide +kernel

/-- C69 is false of a data set without rows: there is no frame. -/
theorem C69_empty_refuted : demoTable [(552, 0)] (.chunk 2) [.readAll] = .ok none := by decide +kernel

/-- C69 is false of names that are not names in R: `1D` becomes `X1D`, `if` becomes `if.`, and so does `N ME`. -/
theorem C69_names_refuted : (Demo.file.drop 964).take 2 = ascii "ID" ∧
    demoTable [(964, 49), (969, 32)] (.chunk 2) [.readAll] =
      .ok (some [(ascii "X1D", demoRows[0].2), (ascii "N.ME", demoRows[1].2)]) ∧
    demoTable [(964, 105), (965, 102)] (.chunk 2) [.readAll] = .ok (some [(ascii "if.", demoRows[0].2), demoRows[1]]) := by
  decide +kernel

/-- C67 for a header without a date of creation (the bytes of a missing number), and for a sink row by row: the file
cannot be opened. -/
example : (∀ kind, kind = .row ∨ kind = .chunk 2 ∨ kind = .data → demoTable [(170, 0xF8), (171, 0x7F)] kind [] = .error (.cpp (.exn .outOfRange))) ∧
    demoTable [] .row [] = .error .raised ∧ demoTable [] .data [] = .ok none := by
  refine ⟨?_, by decide +kernel, by decide +kernel⟩
  rintro kind (rfl | rfl | rfl) <;> decide +kernel

end Sas.Props
