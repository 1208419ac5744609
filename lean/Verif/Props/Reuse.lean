import Verif.Model.Reuse
import Verif.Props.PyFront
import Verif.Props.Text

/-!
# C84: a sink that is used for several files
-/

namespace Sas.Props
open Sas Spec

variable {σ : Type}

/-! ## The sinks that write text -/

/-- The calls a sink gets from a reader: those of its constructor and of a history of calls on it. -/
def FromReader (t : List Event) : Prop :=
  ∃ (σ : Type) (S : Source σ) (cfg : Cfg) (fuel : Nat) (filter : Option Filter) (s : σ) (R : Reader σ) (ops : List Op),
    openReader cfg S fuel filter s = .ok R ∧ t = (R.run S ops).2.trace

theorem FromReader.start {t : List Event} (h : FromReader t) : ∃ p rest, t = .setProperties p :: rest := by
  obtain ⟨σ, S, cfg, fuel, filter, s, R, ops, h1, rfl⟩ := h
  obtain ⟨rest, h2, -⟩ := C08_protocol h1 ops
  exact ⟨_, rest, h2⟩

theorem andThen_assoc (p q r : Printed) : (p.andThen q).andThen r = p.andThen (q.andThen r) := by
  obtain ⟨a, ra⟩ := p
  cases ra with
  | error e => rfl
  | ok u =>
    obtain ⟨b, rb⟩ := q
    cases rb <;> simp [Printed.andThen]

theorem runText_append (step : List Column → Event → Printed × List Column)
    (hs : ∀ c c' p, step c (.setProperties p) = step c' (.setProperties p)) (cols : List Column) (a : List Event)
    (p : Properties) (b : List Event) :
    runText step cols (a ++ .setProperties p :: b) = (runText step cols a).andThen (runText step [] (.setProperties p :: b)) := by
  induction a generalizing cols with
  | nil =>
    rw [List.nil_append, runText, runText, hs cols []]
    simp only [runText, say, Printed.andThen, List.nil_append]
  | cons ev a ih =>
    rw [List.cons_append, runText, ih, ← andThen_assoc]
    rfl

theorem runText_flatten (step : List Column → Event → Printed × List Column)
    (hs : ∀ c c' p, step c (.setProperties p) = step c' (.setProperties p)) (traces : List (List Event))
    (h : ∀ t ∈ traces, ∃ p rest, t = .setProperties p :: rest) :
    runText step [] traces.flatten = sayAll (traces.map (runText step [])) := by
  induction traces with
  | nil => rfl
  | cons t ts ih =>
    have ih' := ih (fun u hu => h u (by simp [hu]))
    rw [List.flatten_cons, List.map_cons, sayAll, ← ih']
    cases ts with
    | nil =>
      simp only [List.flatten_nil, List.append_nil, runText, say]
      generalize runText step [] t = y
      obtain ⟨o, r⟩ := y
      cases r <;> simp [Printed.andThen]
    | cons u us =>
      obtain ⟨p, rest, rfl⟩ := h u (by simp)
      rw [List.flatten_cons, List.cons_append, runText_append step hs]

theorem nullRun_append (cols : List Column) (a : List Event) (p : Properties) (b : List Event) :
    nullRun cols (a ++ .setProperties p :: b) = (nullRun cols a >>= fun _ => nullRun [] (.setProperties p :: b)) := by
  induction a generalizing cols with
  | nil => rfl
  | cons ev a ih =>
    rw [List.cons_append, nullRun, nullRun]
    cases nullStep cols ev with
    | error e => rfl
    | ok c => exact ih c

/-- C84, partial. A csv, print or null sink that is used for one reader after the other, whatever is read with each of
them: what is written is one after the other what a new sink would write for each (until something cannot be
written), and the null sink ends as the first of them that fails. -/
theorem C84_text_partial (x : Texts) (traces : List (List Event)) (h : ∀ t ∈ traces, FromReader t) :
    csvText x traces.flatten = sayAll (traces.map (csvText x)) ∧
    printText x traces.flatten = sayAll (traces.map (printText x)) ∧
    (nullRun [] traces.flatten = .ok () ↔ ∀ t ∈ traces, nullRun [] t = .ok ()) := by
  have h' : ∀ t ∈ traces, ∃ p rest, t = Event.setProperties p :: rest := fun t ht => (h t ht).start
  refine ⟨runText_flatten _ (fun _ _ _ => rfl) _ h', runText_flatten _ (fun _ _ _ => rfl) _ h', ?_⟩
  clear h
  induction traces with
  | nil => simp [nullRun]
  | cons t ts ih =>
    have ih' := ih (fun u hu => h' u (by simp [hu]))
    rw [List.flatten_cons]
    simp only [List.mem_cons, forall_eq_or_imp]
    rw [← ih']
    cases ts with
    | nil => simp [nullRun]
    | cons u us =>
      obtain ⟨p, rest, rfl⟩ := h' u (by simp)
      rw [List.flatten_cons, List.cons_append, nullRun_append]
      cases nullRun [] t with
      | error e => constructor <;> intro h <;> [cases h; cases h.1]
      | ok u => exact ⟨fun h => ⟨rfl, h⟩, fun h => h.2⟩

/-- Two readers of the demo file, the second with only the column NAME. -/
example : FromReader (Demo.reader.run ifs [.readAll]).2.trace ∧
    csvText someTexts ((Demo.reader.run ifs [.readAll]).2.trace ++ (Demo.reader.run ifs [.readAll]).2.trace) =
      ((csvText someTexts (Demo.reader.run ifs [.readAll]).2.trace).1 ++
        (csvText someTexts (Demo.reader.run ifs [.readAll]).2.trace).1, .ok ()) :=
  ⟨⟨_, _, _, _, _, _, _, _, Demo.opened_ok, rfl⟩, by decide +kernel⟩

/-- C84 is false of two readers that use the sink at the same time: the rows of the one that was opened first are
written with the columns of the other. Here both read the demo file, the second one only its column NAME. -/
theorem C84_two_readers_refuted : ∃ (A B : Reader IFStream) (row : List Event),
    openReader Demo.cfg ifs 10 none (IFStream.open Demo.file) = .ok A ∧
    openReader Demo.cfg ifs 10 (some (Filter.includeExclude [ascii "NAME"] [])) (IFStream.open Demo.file) = .ok B ∧
    (A.step ifs .readRow).2.trace = A.trace ++ row ∧
    csvText someTexts (A.trace ++ row) = ((csvText someTexts A.trace).1 ++ ascii "1,\"ann\"\n", .ok ()) ∧
    csvText someTexts (A.trace ++ B.trace ++ row) =
      ((csvText someTexts (A.trace ++ B.trace)).1 ++ ascii "\"ann\"\n", .ok ()) :=
  ⟨_, Demo.get _, (Demo.reader.step ifs .readRow).2.trace.drop 1, Demo.opened_ok, Demo.get_ok (by decide +kernel),
    by decide +kernel, by decide +kernel, by decide +kernel⟩

/-! ## The sinks of the Python package -/

/-- What has become of a sink object `old` when a new one would be `new` now. -/
def onto (old new : PyObj) : PyObj :=
  { new with
    rows := old.rows ++ new.rows
    frames := old.frames ++ new.frames
    cached := new.cached.or old.cached }

theorem call_onto (old new : PyObj) (c : PyCall) : (onto old new).call c = (onto old ·) <$> new.call c := by
  cases c with
  | setProperties p =>
    simp only [PyObj.call]
    split <;> rfl
  | pushRow i l =>
    simp only [PyObj.call]
    cases cellsToPy l with
    | error e => rfl
    | ok l =>
      simp only [bind, Except.bind, show (onto old new).kind = new.kind from rfl]
      split
      · simp [onto, pure, Except.pure, Functor.map, Except.map]
      · rfl
  | pushRows i j d =>
    simp only [PyObj.call]
    cases dictToPy d with
    | error e => rfl
    | ok d =>
      simp only [bind, Except.bind, show (onto old new).kind = new.kind from rfl,
        show (onto old new).names = new.names from rfl]
      split
      · cases frameOfDict d new.names with
        | error e => rfl
        | ok f => simp [onto, pure, Except.pure, Functor.map, Except.map]
      · rfl
  | setData d =>
    simp only [PyObj.call]
    cases dictToPy d with
    | error e => rfl
    | ok d =>
      simp only [bind, Except.bind, show (onto old new).kind = new.kind from rfl,
        show (onto old new).names = new.names from rfl]
      split
      · cases frameOfDict d new.names with
        | error e => rfl
        | ok f => simp [onto, pure, Except.pure, Functor.map, Except.map]
      · rfl
  | attributeError => rfl

theorem calls_onto (old : PyObj) : ∀ (cs : List PyCall) (new : PyObj),
    (onto old new).calls cs = (onto old ·) <$> new.calls cs
  | [], _ => rfl
  | c :: cs, new => by
    simp only [PyObj.calls, call_onto]
    cases new.call c with
    | error e => rfl
    | ok o => exact calls_onto old cs o

/-- The session with a used sink object instead of a new one. -/
def sessionOnto (old : PyObj) (s : PySession σ) : PySession σ := { s with obj := onto old s.obj }

theorem session_events_onto (old : PyObj) : ∀ (evs : List Event) (s : PySession σ),
    (sessionOnto old s).events evs = (sessionOnto old ·) <$> s.events evs
  | [], _ => rfl
  | ev :: evs, s => by
    simp only [PySession.events, sessionOnto]
    cases PyM.ofRes (s.cpp.step ev) with
    | error e => rfl
    | ok y =>
      simp only [bind, Except.bind, calls_onto]
      cases h : s.obj.calls y.2 with
      | error e => rfl
      | ok o => exact session_events_onto old evs { s with cpp := y.1, obj := o }

theorem op_onto (S : Source σ) (old : PyObj) (s : PySession σ) (op : Op) :
    (sessionOnto old s).op S op = (sessionOnto old ·) <$> s.op S op := by
  simp only [PySession.op]
  rw [show (sessionOnto old s).reader = s.reader from rfl]
  generalize s.reader.step S op = y
  obtain ⟨r, R⟩ := y
  simp only
  have := session_events_onto old (R.trace.drop s.reader.trace.length) { s with reader := R }
  rw [show ({ sessionOnto old s with reader := R } : PySession σ) = sessionOnto old { s with reader := R } from rfl, this]
  cases ({ s with reader := R } : PySession σ).events (R.trace.drop s.reader.trace.length) with
  | error e => rfl
  | ok s' =>
    simp only [Functor.map, Except.map, bind, Except.bind]
    cases PyM.ofRes r <;> rfl

/-- The first call replaces the columns, so that it does not matter what they were. -/
theorem events_first (s : PySession σ) (cols : Option (List (List Byte))) (p : Properties) (evs : List Event) :
    ({ s with obj := { s.obj with columns := cols } } : PySession σ).events (.setProperties p :: evs) =
      s.events (.setProperties p :: evs) := by
  have : ∀ (o : PyObj) (out : List PyCall), ({ o with columns := cols } : PyObj).calls (.setProperties p :: out) =
      o.calls (.setProperties p :: out) := by
    intro o out
    simp only [PyObj.calls, PyObj.call]
  simp only [PySession.events]
  obtain ⟨R, alive, cpp, obj⟩ := s
  simp only
  cases cpp <;> simp only [CppSink.step, PyRowSink.step, PyChunk.step, PyChunk.dataStep, bind, Except.bind, PyM.ofRes,
    pure, Except.pure, this]

/-- Reading into a used sink: what it had, and what a new one would have. -/
theorem readSasInto_eq (cfg : Cfg) (fuel : Nat) (fs : FileSystem) (name : List Byte) (obj : PyObj) (incl excl : PyArg) :
    readSasInto cfg fuel fs name obj incl excl =
      (sessionOnto obj ·) <$> readSas cfg fuel fs name obj.kind incl excl := by
  have hopen : pyOpenInto cfg fuel fs name obj incl excl =
      (sessionOnto obj ·) <$> pyOpen cfg fuel fs name obj.kind incl excl := by
    unfold pyOpenInto pyOpen
    cases pyFilter incl excl with
    | error e => rfl
    | ok f =>
      simp only [bind, Except.bind]
      cases PyM.ofRes (openFile fs (name.takeWhile (· ≠ 0))) with
      | error e => rfl
      | ok src =>
        simp only
        cases hR : PyM.ofRes (openReader cfg ifs fuel (some f) src) with
        | error e => rfl
        | ok R =>
          simp only
          obtain ⟨-, -, ht⟩ := openReader_spec (ofRes_ok hR)
          rw [ht, ← session_events_onto,
            ← events_first { reader := R, cpp := CppSink.start obj.kind, obj := obj } none]
          congr 1
          simp [sessionOnto, onto]
  unfold readSasInto readSas
  rw [hopen]
  cases pyOpen cfg fuel fs name obj.kind incl excl with
  | error e => rfl
  | ok s =>
    simp only [Functor.map, Except.map, bind, Except.bind]
    rw [op_onto]
    cases s.op ifs .readAll <;> rfl

theorem call_keeps {o o' : PyObj} {c : PyCall} (h : o.call c = .ok o') :
    o'.kind = o.kind ∧ (o.kind ≠ .data → o'.cached = o.cached) := by
  cases c with
  | setProperties p =>
    simp only [PyObj.call] at h
    split at h
    · cases h; exact ⟨rfl, fun _ => rfl⟩
    · cases h
  | pushRow i l =>
    simp only [PyObj.call] at h
    cases hl : cellsToPy l with
    | error e => rw [hl] at h; cases h
    | ok l =>
      rw [hl] at h
      simp only [bind, Except.bind] at h
      split at h
      · cases h; exact ⟨rfl, fun _ => rfl⟩
      · cases h
  | pushRows i j d =>
    simp only [PyObj.call] at h
    cases hl : dictToPy d with
    | error e => rw [hl] at h; cases h
    | ok l =>
      rw [hl] at h
      simp only [bind, Except.bind] at h
      split at h
      · cases hf : frameOfDict l o.names with
        | error e => rw [hf] at h; cases h
        | ok f => rw [hf] at h; cases h; exact ⟨rfl, fun _ => rfl⟩
      · cases h
  | setData d =>
    simp only [PyObj.call] at h
    cases hl : dictToPy d with
    | error e => rw [hl] at h; cases h
    | ok l =>
      rw [hl] at h
      simp only [bind, Except.bind] at h
      split at h
      · rename_i hk
        cases hf : frameOfDict l o.names with
        | error e => rw [hf] at h; cases h
        | ok f => rw [hf] at h; cases h; exact ⟨rfl, fun hn => absurd hk hn⟩
      · cases h
  | attributeError => cases h

theorem calls_keep : ∀ {cs : List PyCall} {o o' : PyObj}, o.calls cs = .ok o' →
    o'.kind = o.kind ∧ (o.kind ≠ .data → o'.cached = o.cached)
  | [], _, _, h => by cases h; exact ⟨rfl, fun _ => rfl⟩
  | c :: cs, o, o', h => by
    simp only [PyObj.calls] at h
    cases h1 : o.call c with
    | error e => rw [h1] at h; cases h
    | ok o1 =>
      rw [h1] at h
      obtain ⟨k1, c1⟩ := call_keeps h1
      obtain ⟨k2, c2⟩ := calls_keep h
      exact ⟨k2.trans k1, fun hn => (c2 (k1 ▸ hn)).trans (c1 hn)⟩

theorem events_keep : ∀ {evs : List Event} {s s' : PySession σ}, s.events evs = .ok s' →
    s'.obj.kind = s.obj.kind ∧ (s.obj.kind ≠ .data → s'.obj.cached = s.obj.cached)
  | [], _, _, h => by cases h; exact ⟨rfl, fun _ => rfl⟩
  | ev :: evs, s, s', h => by
    simp only [PySession.events] at h
    cases h1 : PyM.ofRes (s.cpp.step ev) with
    | error e => rw [h1] at h; cases h
    | ok y =>
      rw [h1] at h
      simp only [bind, Except.bind] at h
      cases h2 : s.obj.calls y.2 with
      | error e => rw [h2] at h; cases h
      | ok o1 =>
        rw [h2] at h
        obtain ⟨k1, c1⟩ := calls_keep h2
        obtain ⟨k2, c2⟩ := events_keep h
        exact ⟨k2.trans k1, fun hn => (c2 (k1 ▸ hn)).trans (c1 hn)⟩

theorem readSas_keeps {cfg : Cfg} {fuel : Nat} {fs : FileSystem} {name : List Byte} {kind : PyKind} {incl excl : PyArg}
    {s : PySession IFStream} (h : readSas cfg fuel fs name kind incl excl = .ok s) :
    s.alive = false ∧ s.obj.kind = kind ∧ (kind ≠ .data → s.obj.cached = none) := by
  unfold readSas pyOpen at h
  cases h1 : pyFilter incl excl with
  | error e => rw [h1] at h; cases h
  | ok f =>
    rw [h1] at h
    cases h2 : PyM.ofRes (openFile fs (name.takeWhile (· ≠ 0))) with
    | error e => rw [h2] at h; cases h
    | ok src =>
      rw [h2] at h
      simp only [bind, Except.bind] at h
      cases h3 : PyM.ofRes (openReader cfg ifs fuel (some f) src) with
      | error e => rw [h3] at h; cases h
      | ok R =>
        rw [h3] at h
        simp only at h
        cases h4 : ({ reader := R, cpp := CppSink.start kind, obj := { kind := kind } } : PySession IFStream).events R.trace with
        | error e => rw [h4] at h; cases h
        | ok s1 =>
          rw [h4] at h
          simp only [PySession.op] at h
          generalize s1.reader.step ifs .readAll = y at h
          obtain ⟨r, R1⟩ := y
          simp only [bind, Except.bind] at h
          cases h5 : ({ s1 with reader := R1 } : PySession IFStream).events (R1.trace.drop s1.reader.trace.length) with
          | error e => rw [h5] at h; cases h
          | ok s2 =>
            rw [h5] at h
            simp only at h
            cases h6 : PyM.ofRes r with
            | error e => rw [h6] at h; cases h
            | ok u =>
              rw [h6] at h
              cases h
              obtain ⟨k1, c1⟩ := events_keep h4
              obtain ⟨k2, c2⟩ := events_keep h5
              simp only at k1 c1 k2 c2
              exact ⟨rfl, k2.trans k1, fun hn => (c2 (k1 ▸ hn)).trans (c1 hn)⟩

/-- The frame of a sink whose reader is gone. -/
theorem df_gone {s s' : PySession σ} {f : Option PyFrame} (ha : s.cpp.attr = true → s.alive = false)
    (hc : s.obj.cached = none) (h : s.df = .ok (f, s')) :
    s.cpp.attr = false ∧
    (s.obj.kind = .data → f = none) ∧
    (s.obj.kind = .row → ∃ g, f = some g ∧ frameOfRecords s.obj.rows s.obj.names = .ok g) ∧
    (∀ n, s.obj.kind = .chunk n → ∃ g, f = some g ∧ concatFrames s.obj.frames = .ok g) := by
  have hattr : s.cpp.attr = false := by
    cases hx : s.cpp.attr with
    | false => rfl
    | true =>
      simp only [PySession.df, hc, PySession.flush, hx, ha hx] at h
      cases h
  simp only [PySession.df, hc, PySession.flush, hattr] at h
  simp only [Bool.false_eq_true, if_false, bind, Except.bind] at h
  refine ⟨hattr, fun hk => ?_, fun hk => ?_, fun n hk => ?_⟩
  · rw [hk] at h
    simp only [hc] at h
    cases h
    rfl
  · rw [hk] at h
    simp only at h
    cases hf : frameOfRecords s.obj.rows s.obj.names with
    | error e => rw [hf] at h; cases h
    | ok g => rw [hf] at h; cases h; exact ⟨g, rfl, rfl⟩
  · rw [hk] at h
    simp only at h
    cases hf : concatFrames s.obj.frames with
    | error e => rw [hf] at h; cases h
    | ok g => rw [hf] at h; cases h; exact ⟨g, rfl, rfl⟩

/-- C84, partial. A file with rows that is read into a used `SinkWholeData`: the frame is the one a new sink has. -/
theorem C84_whole_partial {cfg : Cfg} {fuel : Nat} {fs : FileSystem} {name : List Byte} {incl excl : PyArg}
    {s s' : PySession IFStream} {f : PyFrame} (obj : PyObj) (hk : obj.kind = .data)
    (h : readSas cfg fuel fs name .data incl excl = .ok s) (hf : s.df = .ok (some f, s')) :
    ∃ t, readSasInto cfg fuel fs name obj incl excl = .ok t ∧ t.df = .ok (some f, t) := by
  obtain ⟨ha, k, -⟩ := readSas_keeps h
  have hc : s.obj.cached = some f := by
    cases hc : s.obj.cached with
    | none => cases (df_gone (fun _ => ha) hc hf).2.1 k
    | some g =>
      simp only [PySession.df, hc] at hf
      cases hf
      rfl
  refine ⟨sessionOnto obj s, ?_, ?_⟩
  · rw [readSasInto_eq, hk, h]; rfl
  · have : (sessionOnto obj s).obj.cached = some f := by simp [sessionOnto, onto, hc]
    simp only [PySession.df, this]

theorem append_assoc (a b c : PyFrame) : (a.append b).append c = a.append (b.append c) := by
  have : ∀ x y z : List (List (Option PyVal)), List.zipWith (· ++ ·) (List.zipWith (· ++ ·) x y) z =
      List.zipWith (· ++ ·) x (List.zipWith (· ++ ·) y z) := by
    intro x
    induction x with
    | nil => intro y z; simp
    | cons a x ih =>
      intro y z
      cases y with
      | nil => simp
      | cons b y =>
        cases z with
        | nil => simp
        | cons c z => simp [ih]
  simp [PyFrame.append, this]

theorem foldl_append_frame (a b : PyFrame) (fs : List PyFrame) :
    fs.foldl PyFrame.append (a.append b) = a.append (fs.foldl PyFrame.append b) := by
  induction fs generalizing b with
  | nil => rfl
  | cons f fs ih => rw [List.foldl_cons, List.foldl_cons, append_assoc, ih]

theorem frameOfRecords_append {a b : List (List PyVal)} {names : List (List Byte)} {f g : PyFrame}
    (h1 : frameOfRecords a names = .ok f) (h2 : frameOfRecords b names = .ok g) :
    frameOfRecords (a ++ b) names = .ok
      { names := f.names, index := List.range (f.index.length + g.index.length)
        columns := List.zipWith (· ++ ·) f.columns g.columns } := by
  unfold frameOfRecords at h1 h2 ⊢
  split at h1 <;> rename_i c1
  · split at h2 <;> rename_i c2
    · cases h1
      cases h2
      rw [if_pos (by rw [List.all_append, c1, c2]; rfl)]
      simp [List.zipWith_map]
    · cases h2
  · cases h1

/-- C84, partial. A file that is read into a `SinkByRow` or `SinkByChunk` that has been used (for any number of files),
whose frame has not been looked at, and whose columns have the same names: the frame has the rows of the earlier files
and then those of the new one, as new sinks have them. -/
theorem C84_append_partial {cfg : Cfg} {fuel : Nat} {fs : FileSystem} {name : List Byte} {incl excl : PyArg}
    {s1 s1' : PySession σ} {s2 s2' : PySession IFStream} {f1 f2 : PyFrame} (hk : s1.obj.kind ≠ .data)
    (ha : s1.alive = false) (hc : s1.obj.cached = none) (hf1 : s1.df = .ok (some f1, s1'))
    (h2 : readSas cfg fuel fs name s1.obj.kind incl excl = .ok s2) (hf2 : s2.df = .ok (some f2, s2'))
    (hn : f1.names = f2.names) :
    ∃ t t' f, readSasInto cfg fuel fs name s1.obj incl excl = .ok t ∧
      t.alive = false ∧ t.obj.kind = s1.obj.kind ∧ t.obj.cached = none ∧ t.df = .ok (some f, t') ∧
      f.names = f1.names ∧ f.columns = List.zipWith (· ++ ·) f1.columns f2.columns ∧
      f.index = (if s1.obj.kind = .row then List.range (f1.index.length + f2.index.length) else f1.index ++ f2.index) := by
  obtain ⟨ha2, k2, c2⟩ := readSas_keeps h2
  have hc2 := c2 hk
  obtain ⟨-, -, r1, q1⟩ := df_gone (fun _ => ha) hc hf1
  obtain ⟨a2, -, r2, q2⟩ := df_gone (fun _ => ha2) hc2 hf2
  rw [k2] at r2 q2
  have hread : readSasInto cfg fuel fs name s1.obj incl excl = .ok (sessionOnto s1.obj s2) := by
    rw [readSasInto_eq, h2]; rfl
  have hct : (sessionOnto s1.obj s2).obj.cached = none := by simp [sessionOnto, onto, hc, hc2]
  have hkt : (sessionOnto s1.obj s2).obj.kind = s1.obj.kind := k2
  have hflush : (sessionOnto s1.obj s2).flush = .ok (sessionOnto s1.obj s2) := by
    simp only [PySession.flush, show (sessionOnto s1.obj s2).cpp = s2.cpp from rfl, a2, Bool.false_eq_true, if_false]
  have hdf : ∀ f, ((s1.obj.kind = .row → frameOfRecords (sessionOnto s1.obj s2).obj.rows (sessionOnto s1.obj s2).obj.names = .ok f) ∧
      (∀ n, s1.obj.kind = .chunk n → concatFrames (sessionOnto s1.obj s2).obj.frames = .ok f)) →
      ∃ t', (sessionOnto s1.obj s2).df = .ok (some f, t') := by
    intro f hf
    simp only [PySession.df, hct, hflush, bind, Except.bind, hkt]
    cases hx : s1.obj.kind with
    | row => simp only [hf.1 hx]; exact ⟨_, rfl⟩
    | chunk n => simp only [hf.2 n hx]; exact ⟨_, rfl⟩
    | data => exact absurd hx hk
  cases hx : s1.obj.kind with
  | data => exact absurd hx hk
  | row =>
    obtain ⟨g1, e1, p1⟩ := r1 hx
    obtain ⟨g2, e2, p2⟩ := r2 hx
    cases e1
    cases e2
    have hnames : s1.obj.names = s2.obj.names := by
      have n1 : f1.names = s1.obj.names := by
        unfold frameOfRecords at p1
        split at p1 <;> cases p1
        rfl
      have n2 : f2.names = s2.obj.names := by
        unfold frameOfRecords at p2
        split at p2 <;> cases p2
        rfl
      rw [← n1, ← n2, hn]
    rw [hnames] at p1
    obtain ⟨t', ht⟩ := hdf _ ⟨fun _ => frameOfRecords_append p1 p2, fun n hx' => by rw [hx] at hx'; cases hx'⟩
    exact ⟨_, t', _, hread, ha2, hkt.trans hx, hct, ht, rfl, rfl, by simp⟩
  | chunk n =>
    obtain ⟨g1, e1, p1⟩ := q1 n hx
    obtain ⟨g2, e2, p2⟩ := q2 n hx
    cases e1
    cases e2
    have hcat : concatFrames (sessionOnto s1.obj s2).obj.frames = .ok (f1.append f2) := by
      show concatFrames (s1.obj.frames ++ s2.obj.frames) = _
      cases hA : s1.obj.frames with
      | nil => rw [hA] at p1; cases p1
      | cons a as =>
        cases hB : s2.obj.frames with
        | nil => rw [hB] at p2; cases p2
        | cons b bs =>
          rw [hA] at p1
          rw [hB] at p2
          simp only [concatFrames] at p1 p2
          cases p1
          cases p2
          simp only [List.cons_append, concatFrames, List.foldl_append, List.foldl_cons, foldl_append_frame]
    obtain ⟨t', ht⟩ := hdf _ ⟨fun hx' => (by rw [hx] at hx'; cases hx'), fun _ _ => hcat⟩
    exact ⟨_, t', _, hread, ha2, hkt.trans hx, hct, ht, rfl, rfl, by simp [PyFrame.append]⟩

/-- C84 is false of `SinkByRow` and `SinkByChunk` when the frame has been looked at: whatever is read into the sink
afterwards, its frame stays the one of the earlier file. -/
theorem C84_stale_refuted {cfg : Cfg} {fuel : Nat} {fs : FileSystem} {name : List Byte} {incl excl : PyArg}
    {s1 s1' : PySession σ} {t : PySession IFStream} {f1 : PyFrame} (hk : s1.obj.kind ≠ .data)
    (hf1 : s1.df = .ok (some f1, s1')) (h : readSasInto cfg fuel fs name s1'.obj incl excl = .ok t) :
    t.df = .ok (some f1, t) := by
  have hc1 : s1'.obj.kind = s1.obj.kind ∧ s1'.obj.cached = some f1 := by
    cases hc : s1.obj.cached with
    | some g =>
      simp only [PySession.df, hc] at hf1
      cases hf1
      exact ⟨rfl, hc⟩
    | none =>
      simp only [PySession.df, hc, bind, Except.bind] at hf1
      cases hfl : s1.flush with
      | error e => rw [hfl] at hf1; cases hf1
      | ok u =>
        have hku : u.obj.kind = s1.obj.kind := by
          unfold PySession.flush at hfl
          split at hfl
          · split at hfl
            · exact (events_keep hfl).1
            · cases hfl
          · cases hfl; rfl
        rw [hfl] at hf1
        simp only at hf1
        rw [hku] at hf1
        cases hx : s1.obj.kind with
        | data => exact absurd hx hk
        | row =>
          rw [hx] at hf1
          simp only at hf1
          cases hg : frameOfRecords u.obj.rows u.obj.names with
          | error e => rw [hg] at hf1; cases hf1
          | ok g => rw [hg] at hf1; cases hf1; exact ⟨rfl, rfl⟩
        | chunk n =>
          rw [hx] at hf1
          simp only at hf1
          cases hg : concatFrames u.obj.frames with
          | error e => rw [hg] at hf1; cases hf1
          | ok g => rw [hg] at hf1; cases hf1; exact ⟨rfl, rfl⟩
  rw [readSasInto_eq] at h
  cases h2 : readSas cfg fuel fs name s1'.obj.kind incl excl with
  | error e => rw [h2] at h; cases h
  | ok s2 =>
    rw [h2] at h
    cases h
    have hc2 := (readSas_keeps h2).2.2 (hc1.1 ▸ hk)
    have : (sessionOnto s1'.obj s2).obj.cached = some f1 := by simp [sessionOnto, onto, hc1.2, hc2]
    simp only [PySession.df, this]

/-- C84 is false of `SinkWholeData` and a file without rows: the frame stays the one of the earlier file. -/
theorem C84_empty_refuted {cfg : Cfg} {fuel : Nat} {fs : FileSystem} {name : List Byte} {incl excl : PyArg}
    {s s' : PySession IFStream} {f1 : PyFrame} (obj : PyObj) (hk : obj.kind = .data) (hc : obj.cached = some f1)
    (h : readSas cfg fuel fs name .data incl excl = .ok s) (hf : s.df = .ok (none, s')) :
    ∃ t, readSasInto cfg fuel fs name obj incl excl = .ok t ∧ t.df = .ok (some f1, t) := by
  have hc' : s.obj.cached = none := by
    cases hc : s.obj.cached with
    | none => rfl
    | some g =>
      simp only [PySession.df, hc] at hf
      cases hf
  refine ⟨sessionOnto obj s, ?_, ?_⟩
  · rw [readSasInto_eq, hk, h]; rfl
  · have : (sessionOnto obj s).obj.cached = some f1 := by simp [sessionOnto, onto, hc, hc']
    simp only [PySession.df, this]

/-- Files: the demo file, the same without its third row, and the same without rows. -/
def threeFiles : FileSystem :=
  ⟨fun n => if n = ascii "a" then some Demo.file else if n = ascii "b" then some (Demo.file.set 552 2)
    else if n = ascii "c" then some (Demo.file.set 552 0) else none, fun _ => false⟩

/-- `read_sas(first, sink)`, a look at the frame if wanted, `read_sas(second, sink)`, and the frame. -/
def twoFiles (kind : PyKind) (first second : List Byte) (looked : Bool) : PyM (Option PyFrame) := do
  let s ← readSasInto Demo.cfg 10 threeFiles first { kind := kind }
  let s ← if looked then (do return (← s.df).2) else pure s
  let s ← readSasInto Demo.cfg 10 threeFiles second s.obj
  return (← s.df).1

/-- How many rows the frame has. -/
def rowsOf : PyM (Option PyFrame) → Option Nat
  | .ok (some f) => some f.index.length
  | _ => none

/-- The hypotheses are met: three rows and two rows by row, in chunks and as a whole; and what is seen when the frame
has been looked at before, and when the second file is empty. -/
example : [twoFiles .row (ascii "a") (ascii "b") false, twoFiles (.chunk 2) (ascii "a") (ascii "b") false,
    twoFiles .data (ascii "a") (ascii "b") false, twoFiles .row (ascii "a") (ascii "b") true,
    twoFiles (.chunk 2) (ascii "a") (ascii "b") true, twoFiles .data (ascii "a") (ascii "b") true,
    twoFiles .data (ascii "a") (ascii "c") true].map rowsOf =
    [some 5, some 5, some 2, some 3, some 3, some 2, some 3] := by
  decide +kernel

end Sas.Props
