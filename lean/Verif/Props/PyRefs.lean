import Verif.Proofs.PyRefs
import Verif.Props.PyFront

/-!
# Property C71: reading leaves Python's `None` alone
-/

namespace Sas.Props

open Sas Spec

/-- The first call of the reader: nothing is stored, and nothing is lost. -/
theorem first_pay {σ : Type} (s : RefSession σ) (kind : PyKind) (p : Properties) (hs : s.cpp = CppSink.start kind) :
    ∃ cpp, Pending p.columns [] cpp ∧ cpp.attr = true ∧ (∀ rows, keptBack cpp.cap [] rows = rows.drop (handedOver kind false rows).length) ∧
      Does (fun h => ({ s with heap := h } : RefSession σ).events [.setProperties p]) 0 { s with cpp := cpp } := by
  have hl : ∀ h : PyHeap, h.lists [] = .ok (h, []) := fun _ => rfl
  cases kind with
  | row =>
    refine ⟨.row ⟨true, p.columns⟩, ⟨rfl, rfl⟩, rfl, fun rows => by
      rw [CppSink.cap, keptBack_some, Nat.mod_one]; rfl, fun h0 hh => ?_⟩
    unfold RefSession.events RefSession.event
    rw [lose_zero hh]
    cases hk : s.keep <;>
      simp [hs, hk, CppSink.start, CppSink.made, CppSink.step, PyRowSink.step, PyM.ofRes, hl, RefSession.events,
        PyHeap.release, bind, Except.bind, pure, Except.pure]
  | chunk n =>
    refine ⟨.chunk (PyChunk.setProperties { size := n } p), ⟨n, rfl, rfl, stored_nil _, rfl, by simp⟩, rfl,
      (fun rows => by
        rw [show (CppSink.chunk (PyChunk.setProperties { size := n } p)).cap = some n from rfl, keptBack_some]
        simp [handedOver]), fun h0 hh => ?_⟩
    unfold RefSession.events RefSession.event
    rw [lose_zero hh]
    cases hk : s.keep <;>
      simp [hs, hk, CppSink.start, CppSink.made, CppSink.step, PyChunk.step, PyM.ofRes, hl, RefSession.events,
        PyHeap.release, bind, Except.bind, pure, Except.pure]
  | data =>
    refine ⟨.data (PyChunk.setProperties { size := p.md.rowCount } p), ⟨_, rfl, rfl, stored_nil _, rfl, by simp⟩, rfl,
      (fun rows => by rw [CppSink.cap, keptBack_none]; simp [handedOver]), fun h0 hh => ?_⟩
    unfold RefSession.events RefSession.event
    rw [lose_zero hh]
    cases hk : s.keep <;>
      simp [hs, hk, CppSink.start, CppSink.made, CppSink.step, PyChunk.dataStep, PyM.ofRes, hl, RefSession.events,
        PyHeap.release, bind, Except.bind, pure, Except.pure]

theorem oneEnd_of : ∀ (es : List Event), (∀ p, Event.setProperties p ∉ es) → .endOfData ∉ es.dropLast → OneEnd true es := by
  intro es
  induction es with
  | nil => intros; trivial
  | cons e es ih =>
    intro h1 h2
    have h1' : ∀ p, Event.setProperties p ∉ es := fun p h => h1 p (List.mem_cons_of_mem _ h)
    cases es with
    | nil =>
      cases e with
      | setProperties p => exact absurd (by simp) (h1 p)
      | pushRow i r => exact ⟨rfl, trivial⟩
      | endOfData => exact ⟨rfl, trivial⟩
    | cons e' es =>
      have h2' : Event.endOfData ∉ (e' :: es).dropLast := fun h => h2 (List.mem_cons_of_mem _ h)
      cases e with
      | setProperties p => exact absurd (by simp) (h1 p)
      | pushRow i r => exact ⟨rfl, ih h1' h2'⟩
      | endOfData => exact absurd (by simp) h2

theorem pybind_ok {α β : Type} {x : PyM α} {f : α → PyM β} {c : β} (h : (x >>= f) = .ok c) :
    ∃ a, x = .ok a ∧ f a = .ok c := by
  cases x with
  | error e => cases h
  | ok a => exact ⟨a, rfl, h⟩

/-- C71, partial: what a program does to the count. A program opens a file with a sink of its own, makes any calls that
return and looks at the dates of the header, and releases everything: the interpreter has lost exactly one
reference to `None` for each missing datetime, date or time in the rows it was given, and one for each look at a
missing date of the header. It aborts if it has no more of them. The rows of a chunk that is never handed over cost
nothing. Missing, and false: that it has lost none (`C71_missing_refuted`, `C71_header_refuted`). For
programs that raise an exception on the way see `C71_raising_partial`. -/
theorem C71_count_partial (cfg : Cfg) (fuel : Nat) (fs : FileSystem) (name : List Byte) (kind : PyKind) (incl excl : PyArg)
    (f : Filter) (src : IFStream) (R R' : Reader IFStream) (hfil : pyFilter incl excl = .ok f)
    (hfile : openFile fs (name.takeWhile (· ≠ 0)) = .ok src) (hopen : openReader cfg ifs fuel (some f) src = .ok R)
    (ss : List RefStmt) (hR' : (R.run ifs (calls ss)).2 = R') (hres : ∀ r ∈ (R.run ifs (calls ss)).1, ∃ v, r = .ok v)
    (hend : .endOfData ∉ R'.trace.dropLast)
    (hconv : Convertible R.props.columns (pushes R'.trace))
    (hc : ∃ y, Cell.toPy (.datetime R.props.header.dateCreated) = .ok y)
    (hm : ∃ y, Cell.toPy (.datetime R.props.header.dateModified) = .ok y) (keep : Bool) (h : PyHeap) (hh : 1 ≤ h.none) :
    refProgram cfg fuel fs name kind incl excl keep ss h =
      lose h (missingCells R.props.columns (handedOver kind (R'.trace.contains .endOfData) (pushes R'.trace)) +
        missingLooks R.props ss) := by
  subst hR'
  obtain ⟨h1, -⟩ := open_ok (kind := kind) hfil hfile hopen
  obtain ⟨rest, p1, p2, p3, -⟩ := C08_protocol hopen (calls ss)
  have hpush : pushes (R.run ifs (calls ss)).2.trace = pushes rest := by rw [p1]; rfl
  rw [hpush] at hconv ⊢
  have he : Event.endOfData ∉ rest.dropLast := by
    intro h
    apply hend
    rw [p1]
    cases rest with
    | nil => cases h
    | cons e rest => exact List.mem_cons_of_mem _ h
  obtain ⟨cpp0, a1, a2, a3, a4⟩ := first_pay
    ({ reader := R, cpp := CppSink.start kind, heap := h, keep := keep } : RefSession IFStream) kind R.props rfl
  obtain ⟨k, vals, cpp, rest', b1, b2, b3, b4, ⟨-, b6⟩, b5⟩ := run_pay (S := ifs) (cols := R.props.columns) ss
    ({ reader := R, cpp := cpp0, heap := h, keep := keep } : RefSession IFStream) [] rest
    (.opened _ _ _ _ _ hopen) hres (by dsimp only; rw [p1, h1]; rfl) (by dsimp only; rw [a2]; exact oneEnd_of _ p3 he)
    a1 (fun h => rfl) hconv hc hm
  have hrest : missingCells R.props.columns (handedOver kind ((R.run ifs (calls ss)).2.trace.contains .endOfData) (pushes rest)) +
      missingCells R.props.columns rest' = missingCells R.props.columns (pushes rest) := by
    by_cases h0 : Event.endOfData ∈ rest
    · have : (R.run ifs (calls ss)).2.trace.contains .endOfData = true := by
        rw [p1, List.contains_iff_mem]
        exact List.mem_cons_of_mem _ h0
      rw [this, b4 (by rw [b3]; simp [attrAfter, h0])]
      simp [handedOver, missingCells]
    · have : (R.run ifs (calls ss)).2.trace.contains .endOfData = false := by
        rw [← Bool.not_eq_true, p1, List.contains_iff_mem]
        simpa using h0
      rw [this, b6 h0, a3, ← missingCells_append]
      congr 1
      cases kind with
      | row => simp [handedOver]
      | chunk n => simp [handedOver]
      | data => simp [handedOver]
  have hd := Does.bind (f := fun s => s.run ifs ss) a4 b5
  unfold refProgram
  rw [hfil, hfile]
  simp only [PyM.ofRes, bind, Except.bind, hopen]
  rw [h1]
  have e := hd h hh
  dsimp only at e
  simp only [Except.bind] at e
  have hb : k + nones vals = missingCells R.props.columns
      (handedOver kind ((R.run ifs (calls ss)).2.trace.contains .endOfData) (pushes rest)) + missingLooks R.props ss := by
    rw [List.nil_append] at b1
    dsimp only at b1
    omega
  rw [← hb, ← lose_lose]
  cases e1 : ({ reader := R, cpp := CppSink.start kind, heap := h, keep := keep } : RefSession IFStream).events [.setProperties R.props] with
  | error x =>
    rw [e1, Nat.zero_add] at e
    cases e2 : lose h k with
    | error y => rw [e2] at e; cases e; rfl
    | ok y => rw [e2] at e; cases e
  | ok s1 =>
    rw [e1, Nat.zero_add] at e
    simp only at e ⊢
    rw [e]
    cases e2 : lose h k with
    | error y => rfl
    | ok y =>
      simp only [Except.bind, List.nil_append]
      exact release_lose _ _ (lose_ok hh e2)

/-- C71, partial: when nothing is missing in the rows it was given, and no missing date of the header is looked at, a
program leaves the interpreter as it was; and so does every program when `None` is immortal. -/
theorem C71_balanced_partial (cfg : Cfg) (fuel : Nat) (fs : FileSystem) (name : List Byte) (kind : PyKind) (incl excl : PyArg)
    (f : Filter) (src : IFStream) (R R' : Reader IFStream) (hfil : pyFilter incl excl = .ok f)
    (hfile : openFile fs (name.takeWhile (· ≠ 0)) = .ok src) (hopen : openReader cfg ifs fuel (some f) src = .ok R)
    (ss : List RefStmt) (hR' : (R.run ifs (calls ss)).2 = R') (hres : ∀ r ∈ (R.run ifs (calls ss)).1, ∃ v, r = .ok v)
    (hend : .endOfData ∉ R'.trace.dropLast)
    (hconv : Convertible R.props.columns (pushes R'.trace))
    (hc : ∃ y, Cell.toPy (.datetime R.props.header.dateCreated) = .ok y)
    (hm : ∃ y, Cell.toPy (.datetime R.props.header.dateModified) = .ok y) (keep : Bool) (h : PyHeap) (hh : 1 ≤ h.none)
    (hno : h.immortal = true ∨ ((∀ c ∈ R.props.columns, ∀ r ∈ handedOver kind (R'.trace.contains .endOfData) (pushes R'.trace),
        c.value r.2.mem ≠ .ok (some (.datetime .notADateTime)) ∧
        c.value r.2.mem ≠ .ok (some (.date .notADate)) ∧ c.value r.2.mem ≠ .ok (some (.time .notADateTime))) ∧
      (.dateCreated ∈ ss → R.props.header.dateCreated ≠ .notADateTime) ∧
      (.dateModified ∈ ss → R.props.header.dateModified ≠ .notADateTime))) :
    refProgram cfg fuel fs name kind incl excl keep ss h = .ok h := by
  rw [C71_count_partial cfg fuel fs name kind incl excl f src R R' hfil hfile hopen ss hR' hres hend hconv hc hm keep h hh]
  rcases hno with hi | ⟨h1, h2, h3⟩
  · simp [lose, hi]
  · have e1 : missingCells R.props.columns (handedOver kind (R'.trace.contains .endOfData) (pushes R'.trace)) = 0 := by
      unfold missingCells
      rw [List.sum_eq_zero]
      intro x hx
      obtain ⟨r, hr, rfl⟩ := List.mem_map.1 hx
      rw [List.countP_eq_zero]
      intro c hcm
      obtain ⟨k1, k2, k3⟩ := h1 c hcm r hr
      unfold MissingAt
      split
      · contradiction
      · contradiction
      · contradiction
      · simp
    have e2 : missingLooks R.props ss = 0 := by
      unfold missingLooks
      rw [List.countP_eq_zero]
      intro s hs
      simp only [decide_eq_true_eq]
      rintro (⟨rfl, k⟩ | ⟨rfl, k⟩)
      · exact h2 hs k
      · exact h3 hs k
    rw [e1, e2]
    exact lose_zero hh

/-! ## What does not hold -/

/-- A program that loses a reference each time aborts the interpreter in the end. -/
theorem repeated_lose {p : PyHeap → PyM PyHeap} {k : Nat} (hk : 1 ≤ k)
    (hp : ∀ h : PyHeap, 1 ≤ h.none → p h = lose h k) : ∀ (n m : Nat), 1 ≤ m → m ≤ n →
    repeated p n ⟨false, m⟩ = .error (.cpp .terminate) := by
  intro n
  induction n with
  | zero => omega
  | succ n ih =>
    intro m h1 h2
    unfold repeated
    rw [hp _ h1]
    by_cases h3 : k < m
    · simp only [lose, h3, if_true, Bool.false_eq_true, if_false]
      exact ih (m - k) (by omega) (by omega)
    · simp only [lose, h3, Bool.false_eq_true, if_false]
      rfl

/-- The demonstration file: the format of its column `ID` is `DATE`, and the first value is missing (the bytes of a
missing number). -/
def missingDate : List (Nat × Byte) := [(976, 68), (977, 65), (978, 84), (979, 69), (1218, 0xF8), (1219, 0x7F)]

/-- A program that reads the demonstration file with some bytes changed. -/
def demoRefs (l : List (Nat × Byte)) (kind : PyKind) (keep : Bool) (ss : List RefStmt) : PyHeap → PyM PyHeap :=
  refProgram Demo.cfg 10 (patchedFile l) (ascii "f") kind .none .none keep ss

/-- The demonstration file with some bytes changed, when it is opened. -/
def refOpened (l : List (Nat × Byte)) : Res (Reader IFStream) :=
  openReader Demo.cfg ifs 10 (some Filter.acceptAll) (IFStream.open (l.foldl (fun f x => f.set x.1 x.2) Demo.file))

def isEnd : Event → Bool
  | .endOfData => true
  | _ => false

theorem isEnd_mem {es : List Event} : .endOfData ∈ es ↔ es.any isEnd = true := by
  rw [List.any_eq_true]
  refine ⟨fun h => ⟨_, h, rfl⟩, fun ⟨e, h1, h2⟩ => ?_⟩
  cases e <;> first | exact h1 | cases h2

def pyOk (c : Cell) : Bool :=
  match c.toPy with
  | .ok _ => true
  | .error _ => false

theorem pyOk_ok {c : Cell} (h : pyOk c = true) : ∃ y, c.toPy = .ok y := by
  unfold pyOk at h
  split at h
  · exact ⟨_, by assumption⟩
  · cases h

/-- The hypotheses of `C71_count_partial`, computed. -/
def refCheck (l : List (Nat × Byte)) (ss : List RefStmt) : Bool :=
  let R := Demo.get (refOpened l)
  let x := R.run ifs (calls ss)
  (refOpened l).isOk && x.1.all (fun r => r.isOk) && !x.2.trace.dropLast.any isEnd && x.2.trace.any isEnd &&
    (typed R.props.columns).all (fun c => (pushes x.2.trace).all fun r =>
      match c.value r.2.mem with
      | .ok (some v) => pyOk v
      | _ => false) &&
    pyOk (.datetime R.props.header.dateCreated) && pyOk (.datetime R.props.header.dateModified)

theorem demo_count {l : List (Nat × Byte)} {ss : List RefStmt} (h : refCheck l ss = true) {k : Nat}
    (hk : missingCells (Demo.get (refOpened l)).props.columns (pushes ((Demo.get (refOpened l)).run ifs (calls ss)).2.trace) +
      missingLooks (Demo.get (refOpened l)).props ss = k) (kind : PyKind) (keep : Bool) (h0 : PyHeap) (hh : 1 ≤ h0.none) :
    demoRefs l kind keep ss h0 = lose h0 k := by
  unfold refCheck at h
  simp only [Bool.and_eq_true] at h
  obtain ⟨⟨⟨⟨⟨⟨c1, c2⟩, c3⟩, c4⟩, c5⟩, c6⟩, c7⟩ := h
  have hall : ∀ rows, handedOver kind (((Demo.get (refOpened l)).run ifs (calls ss)).2.trace.contains .endOfData) rows = rows := by
    intro rows
    rw [show ((Demo.get (refOpened l)).run ifs (calls ss)).2.trace.contains .endOfData = true from
      List.contains_iff_mem.2 (isEnd_mem.2 c4)]
    rfl
  rw [← hk, ← hall (pushes _)]
  refine C71_count_partial Demo.cfg 10 (patchedFile l) (ascii "f") kind .none .none Filter.acceptAll _ _ _ rfl rfl
    (Demo.get_ok c1) ss rfl ?_ ?_ ?_ (pyOk_ok c6) (pyOk_ok c7) keep h0 hh
  · intro r hr
    have := List.all_eq_true.1 c2 r hr
    cases r with
    | ok v => exact ⟨v, rfl⟩
    | error e => cases this
  · rw [isEnd_mem, Bool.not_eq_true]
    exact Bool.not_eq_true' _ ▸ c3
  · intro c hc r hr
    have := List.all_eq_true.1 (List.all_eq_true.1 c5 c hc) r hr
    split at this
    · rename_i v hv
      obtain ⟨y, hy⟩ := pyOk_ok this
      exact ⟨v, y, hv, hy⟩
    · cases this

/-- C71 is false of missing values: a file with one missing date is read again and again, with any sink. Each
time one reference to `None` is lost, and the interpreter aborts. -/
theorem C71_missing_refuted (kind : PyKind) (keep : Bool) :
    (∀ h : PyHeap, h.immortal = false → 2 ≤ h.none → demoRefs missingDate kind keep [.call .readAll] h = .ok ⟨false, h.none - 1⟩) ∧
    ∀ n, 1 ≤ n → repeated (demoRefs missingDate kind keep [.call .readAll]) n ⟨false, n⟩ = .error (.cpp .terminate) := by
  have h1 : refCheck missingDate [.call .readAll] = true := by decide +kernel
  have h2 := demo_count h1 (k := 1) (by decide +kernel) kind keep
  constructor
  · intro h hi hn
    rw [h2 h (by omega)]
    simp only [lose, hi, Bool.false_eq_true, if_false, show 1 < h.none by omega, if_true]
  · exact fun n hn => repeated_lose (le_refl 1) h2 n n hn (le_refl n)

/-- C71 is false of the dates of the header: in a file without a date of creation (the bytes of a missing number), each
look at `properties.date_created` loses a reference. -/
theorem C71_header_refuted (kind : PyKind) (keep : Bool) :
    (∀ h : PyHeap, h.immortal = false → 3 ≤ h.none →
      demoRefs [(170, 0xF8), (171, 0x7F)] kind keep [.dateCreated, .call .readAll, .dateModified, .dateCreated] h =
        .ok ⟨false, h.none - 2⟩) ∧
    ∀ n, 1 ≤ n → repeated (demoRefs [(170, 0xF8), (171, 0x7F)] kind keep [.dateCreated, .call .readAll]) n ⟨false, n⟩ =
      .error (.cpp .terminate) := by
  have h2 := demo_count (l := [(170, 0xF8), (171, 0x7F)]) (ss := [.dateCreated, .call .readAll, .dateModified, .dateCreated])
    (by decide +kernel) (k := 2) (by decide +kernel) kind keep
  have h3 := demo_count (l := [(170, 0xF8), (171, 0x7F)]) (ss := [.dateCreated, .call .readAll])
    (by decide +kernel) (k := 1) (by decide +kernel) kind keep
  constructor
  · intro h hi hn
    rw [h2 h (by omega)]
    simp only [lose, hi, Bool.false_eq_true, if_false, show 2 < h.none by omega, if_true]
  · exact fun n hn => repeated_lose (le_refl 1) h3 n n hn (le_refl n)

/-! ## Cases -/

/-- The hypotheses of C71 are met by the demonstration file, which has no missing values; reading it changes nothing. -/
example (kind : PyKind) (keep : Bool) (h : PyHeap) (hh : 1 ≤ h.none) :
    demoRefs [] kind keep [.call .readRow, .dateCreated, .call .readAll] h = .ok h := by
  rw [demo_count (l := []) (k := 0) (by decide +kernel) (by decide +kernel) kind keep h hh, lose_zero hh]

/-- The missing date is the only one: the three cells are missing, the third and the fifth day of 1960. -/
example : (pushes ((Demo.get (refOpened missingDate)).run ifs [.readAll]).2.trace).map (fun r =>
      (Demo.get (refOpened missingDate)).props.columns.map fun c => c.value r.2.mem) =
    [[.ok (some (.date .notADate)), .ok (some (.str (ascii "ann")))],
     [.ok (some (.date (.day 2436937))), .ok (some (.str (ascii "bob")))],
     [.ok (some (.date (.day 2436939))), .ok (some (.str (ascii "cy")))]] := by decide +kernel

/-- A row sink that has been given no more than the second row. -/
example : demoRefs missingDate .row true [.call (.skip 1), .call .readRow] ⟨false, 5⟩ = .ok ⟨false, 5⟩ ∧
    demoRefs missingDate .row false [.call .readRow] ⟨false, 5⟩ = .ok ⟨false, 4⟩ ∧
    demoRefs missingDate .row true [.call .readRow] ⟨true, 5⟩ = .ok ⟨true, 5⟩ := by decide +kernel

/-- Chunks of two rows: after one row nothing has been handed over, after two the missing date has; the third row
never is, without the end. -/
example : demoRefs missingDate (.chunk 2) false [.call .readRow] ⟨false, 5⟩ = .ok ⟨false, 5⟩ ∧
    demoRefs missingDate (.chunk 2) false [.call .readRow, .call .readRow] ⟨false, 5⟩ = .ok ⟨false, 4⟩ ∧
    demoRefs missingDate .data true [.call .readRow, .call .readRow, .call .readRow] ⟨false, 5⟩ = .ok ⟨false, 5⟩ := by
  decide +kernel

end Sas.Props
