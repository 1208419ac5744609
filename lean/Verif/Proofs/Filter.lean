import Verif.Model.Reader
import Verif.Proofs.Reader
import Verif.Proofs.OpenErrs
import Verif.Proofs.Header

/-!
# Column filters
-/

namespace Sas

/-- All columns. -/
def allColumns (e : Endian) (acc : Acc) : (k icol : Nat) → Res (List Column)
  | 0, _ => .ok []
  | k + 1, icol =>
    match buildColumn e acc icol with
    | .error x => .error x
    | .ok c =>
      match allColumns e acc k (icol + 1) with
      | .error x => .error x
      | .ok cs => .ok (c :: cs)

/-- Does the filter keep the column? -/
def keeps (filter : Option Filter) (c : Column) : Bool :=
  match filter with
  | none => true
  | some accept => accept c

theorem createLoop_eq (e : Endian) (acc : Acc) (filter : Option Filter) :
    ∀ (k icol : Nat) (cols : List Column), createLoop e acc filter k icol cols =
      (allColumns e acc k icol).map fun cs => cols ++ cs.filter (keeps filter) := by
  intro k
  induction k with
  | zero => intro icol cols; simp [createLoop, allColumns, Except.map]
  | succ k ih =>
    intro icol cols
    unfold createLoop allColumns
    cases hb : buildColumn e acc icol with
    | error x => rfl
    | ok c =>
      show createLoop e acc filter k (icol + 1) (if keeps filter c then cols ++ [c] else cols) = _
      rw [ih]
      cases ha : allColumns e acc k (icol + 1) with
      | error x => rfl
      | ok cs =>
        simp only [Except.map, List.filter_cons]
        cases hk : keeps filter c <;> simp

theorem allColumns_length (e : Endian) (acc : Acc) : ∀ (k icol : Nat) (cs : List Column),
    allColumns e acc k icol = .ok cs → cs.length = k := by
  intro k
  induction k with
  | zero => intro icol cs h; simp [allColumns] at h; simp [← h]
  | succ k ih =>
    intro icol cs h
    unfold allColumns at h
    split at h
    · cases h
    · split at h
      · cases h
      · rename_i cs' hcs
        cases h
        simp [ih _ _ hcs]

theorem allColumns_get (e : Endian) (acc : Acc) : ∀ (k icol : Nat) (cs : List Column),
    allColumns e acc k icol = .ok cs → ∀ i c, cs[i]? = some c → buildColumn e acc (icol + i) = .ok c := by
  intro k
  induction k with
  | zero => intro icol cs h i c hc; simp only [allColumns, Except.ok.injEq] at h; subst h; simp at hc
  | succ k ih =>
    intro icol cs h i c hc
    unfold allColumns at h
    split at h
    · cases h
    · rename_i c0 hc0
      split at h
      · cases h
      · rename_i cs' hcs
        cases h
        cases i with
        | zero => simp at hc; rw [← hc]; exact hc0
        | succ i =>
          rw [List.getElem?_cons_succ] at hc
          have := ih _ _ hcs i c hc
          rwa [show icol + (i + 1) = icol + 1 + i by omega]

theorem allColumns_ok (e : Endian) (acc : Acc) : ∀ (k icol : Nat),
    (∀ i, i < k → ∃ c, buildColumn e acc (icol + i) = .ok c) →
    ∃ cs, allColumns e acc k icol = .ok cs := by
  intro k
  induction k with
  | zero => intro icol _; exact ⟨[], rfl⟩
  | succ k ih =>
    intro icol h
    obtain ⟨c, hc⟩ := h 0 (by omega)
    obtain ⟨cs, hcs⟩ := ih (icol + 1) (fun i hi => by
      obtain ⟨c', hc'⟩ := h (i + 1) (by omega)
      exact ⟨c', by rwa [show icol + 1 + i = icol + (i + 1) by omega]⟩)
    refine ⟨c :: cs, ?_⟩
    unfold allColumns
    simp only [Nat.add_zero] at hc
    rw [hc, hcs]

/-- A column that cannot be built makes the construction fail, with the same exception. -/
theorem allColumns_error (e : Endian) (acc : Acc) : ∀ (k icol : Nat) (i : Nat) (x : Stop),
    i < k → (∀ j, j < i → ∃ c, buildColumn e acc (icol + j) = .ok c) →
    buildColumn e acc (icol + i) = .error x → allColumns e acc k icol = .error x := by
  intro k
  induction k with
  | zero => intro icol i x hi; omega
  | succ k ih =>
    intro icol i x hi hok hx
    unfold allColumns
    cases i with
    | zero =>
      simp only [Nat.add_zero] at hx
      rw [hx]
    | succ i =>
      obtain ⟨c, hc⟩ := hok 0 (by omega)
      simp only [Nat.add_zero] at hc
      rw [hc]
      simp only
      rw [ih (icol + 1) i x (by omega) (fun j hj => by
        obtain ⟨c', hc'⟩ := hok (j + 1) (by omega)
        exact ⟨c', by rwa [show icol + 1 + j = icol + (j + 1) by omega]⟩)
        (by rwa [show icol + 1 + i = icol + (i + 1) by omega])]

theorem createColumns_filter (cfg : Cfg) (e : Endian) (acc : Acc) (filter : Option Filter) :
    createColumns cfg e acc filter =
      (createColumns cfg e acc none).map fun cs => cs.filter (keeps filter) := by
  unfold createColumns
  split
  · rw [createLoop_eq, createLoop_eq]
    cases allColumns e acc acc.md.columnCount 0 with
    | error x => rfl
    | ok cs =>
      have : cs.filter (keeps none) = cs := by
        rw [List.filter_eq_self]; intro c _; rfl
      simp [Except.map, this]
  · rfl

theorem createColumns_none (cfg : Cfg) (e : Endian) (acc : Acc) :
    createColumns cfg e acc none = if acc.md.columnCount ≤ cfg.maxCols
      then allColumns e acc acc.md.columnCount 0 else .error (.exn .badAlloc) := by
  unfold createColumns
  split
  · rw [createLoop_eq]
    cases allColumns e acc acc.md.columnCount 0 with
    | error x => rfl
    | ok cs =>
      have : cs.filter (keeps none) = cs := by
        rw [List.filter_eq_self]; intro c _; rfl
      simp [Except.map, this]
  · rfl

/-- The same event for a reader with other columns. -/
def Event.withCols (cols : List Column) : Event → Event
  | .setProperties p => .setProperties { p with columns := cols }
  | e => e

variable {σ : Type}

/-- The same reader with other columns. -/
def Reader.withCols (cols : List Column) (R : Reader σ) : Reader σ :=
  { R with props := { R.props with columns := cols }, trace := R.trace.map (Event.withCols cols) }

theorem openReader_filter (cfg : Cfg) (S : Source σ) (fuel : Nat) (filter : Option Filter) (s : σ) :
    openReader cfg S fuel filter s = (openReader cfg S fuel none s).map fun R =>
      R.withCols (R.props.columns.filter (keeps filter)) := by
  unfold openReader
  cases readHeader cfg S s with
  | error x => rfl
  | ok hbs =>
    obtain ⟨h, b, s1⟩ := hbs
    simp only [Res.ok_bind]
    cases hm : metaLoop _ S fuel _ {} with
    | error x => rfl
    | ok pacc =>
      obtain ⟨p, acc⟩ := pacc
      simp only [Res.ok_bind]
      rw [createColumns_filter]
      cases createColumns cfg h.endian acc none with
      | error x => rfl
      | ok cs =>
        simp only [Except.map, Res.ok_bind]
        cases RD.build _ p acc with
        | error x => rfl
        | ok rd => rfl

variable (S : Source σ) (cols : List Column)

theorem Reader.withCols_readRow (R : Reader σ) : (R.withCols cols).readRow S =
    ((R.readRow S).1, (R.readRow S).2.withCols cols) := by
  unfold Reader.readRow
  simp only [Reader.withCols]
  generalize R.rd.readLine R.env S R.props.md = x
  obtain ⟨res, rd⟩ := x
  cases res with
  | error e => rfl
  | ok o => cases o <;> simp [Reader.endOfData, Reader.emit, Event.withCols,
      Reader.currentRowIndex]

theorem Reader.withCols_readRows (n : Nat) : ∀ (R : Reader σ), (R.withCols cols).readRows S n =
    ((R.readRows S n).1, (R.readRows S n).2.withCols cols) := by
  induction n with
  | zero => intro R; rfl
  | succ n ih =>
    intro R
    unfold Reader.readRows
    rw [Reader.withCols_readRow]
    generalize R.readRow S = x
    obtain ⟨res, R1⟩ := x
    cases res with
    | error e => rfl
    | ok b => cases b <;> simp [ih]

theorem Reader.withCols_readAllLoop (n : Nat) : ∀ (R : Reader σ), (R.withCols cols).readAllLoop S n =
    ((R.readAllLoop S n).1, (R.readAllLoop S n).2.withCols cols) := by
  induction n with
  | zero => intro R; rfl
  | succ n ih =>
    intro R
    unfold Reader.readAllLoop
    rw [Reader.withCols_readRow]
    generalize R.readRow S = x
    obtain ⟨res, R1⟩ := x
    cases res with
    | error e => rfl
    | ok b => cases b <;> simp [ih]

theorem Reader.withCols_step (R : Reader σ) (op : Op) : (R.withCols cols).step S op =
    ((R.step S op).1, (R.step S op).2.withCols cols) := by
  cases op with
  | readRow => simp only [Reader.step, Reader.withCols_readRow]
  | readRows n => simp only [Reader.step, Reader.withCols_readRows]
  | readAll =>
    simp only [Reader.step, Reader.readAll]
    rw [Reader.withCols_readAllLoop]
    rfl
  | skip n =>
    simp only [Reader.step]
    unfold Reader.skip
    simp only [Reader.withCols]
    generalize R.rd.skip R.env S R.props.md n = x
    obtain ⟨res, rd⟩ := x
    cases res with
    | error e => rfl
    | ok b => cases b <;> simp [Reader.endOfData, Reader.emit, Event.withCols]
  | readRowNoSink =>
    simp only [Reader.step]
    unfold Reader.readRowNoSink
    simp only [Reader.withCols]
  | endOfData => simp [Reader.step, Reader.withCols, Reader.endOfData, Reader.emit, Event.withCols]

theorem Reader.withCols_run (ops : List Op) : ∀ (R : Reader σ), (R.withCols cols).run S ops =
    ((R.run S ops).1, (R.run S ops).2.withCols cols) := by
  induction ops with
  | nil => intro R; rfl
  | cons op ops ih =>
    intro R
    rw [Reader.run_cons, Reader.run_cons, Reader.withCols_step]
    generalize R.step S op = x
    obtain ⟨res, R1⟩ := x
    cases res with
    | ok v => simp [ih]
    | error e => cases e <;> simp [ih]

end Sas
