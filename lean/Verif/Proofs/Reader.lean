import Verif.Proofs.Errs
import Verif.Spec.Reader

/-! Lemmas on the reader state machine, for an arbitrary data source. -/

namespace Sas

open Spec

variable {σ : Type} {S : Source σ}

theorem pushes_append (a b : List Event) : pushes (a ++ b) = pushes a ++ pushes b := by
  induction a with
  | nil => rfl
  | cons e es ih => cases e <;> simp [pushes, ih]

theorem pushes_pushEvents (rows : List Row) : ∀ i,
    (pushes (pushEvents i rows)).map Prod.fst = List.range' i rows.length := by
  induction rows with
  | nil => intro i; rfl
  | cons r rs ih => intro i; simp [pushEvents, pushes, ih, List.range'_succ]

theorem length_pushes_pushEvents (rows : List Row) (i : Nat) :
    (pushes (pushEvents i rows)).length = rows.length := by
  have := congrArg List.length (pushes_pushEvents rows i)
  simpa using this

theorem ends_pushEvents (rows : List Row) : ∀ i, ends (pushEvents i rows) = 0 := by
  induction rows with
  | nil => intro i; rfl
  | cons r rs ih => intro i; simp [pushEvents, ends, ih]

theorem setProperties_notMem_pushEvents (rows : List Row) (p : Properties) : ∀ i,
    Event.setProperties p ∉ pushEvents i rows := by
  induction rows with
  | nil => intro i; simp [pushEvents]
  | cons r rs ih => intro i; simp [pushEvents, ih]

theorem ends_append (a b : List Event) : ends (a ++ b) = ends a + ends b := by
  induction a with
  | nil => simp [ends]
  | cons e es ih => cases e <;> simp [ends, ih]; omega

/-- The invariant of a constructed reader. -/
def Reader.Inv (R : Reader σ) : Prop := R.rd.Inv R.props.md

/-- The reader has reached the end of the data. -/
def Reader.Ended (R : Reader σ) : Prop := R.rd.Ended R.props.md

theorem openReader_spec {cfg : Cfg} {fuel : Nat} {filter : Option Filter} {s : σ} {R : Reader σ}
    (h : openReader cfg S fuel filter s = .ok R) :
    R.Inv ∧ R.rd.row = 0 ∧ R.trace = [.setProperties R.props] := by
  unfold openReader at h
  simp only [bind, Except.bind, pure, Except.pure] at h
  split at h
  · cases h
  · split at h
    · cases h
    · split at h
      · cases h
      · split at h
        · cases h
        · rename_i rd hrd
          simp only [Except.ok.injEq] at h
          subst h
          exact ⟨(RD.build_inv _ hrd).1, (RD.build_inv _ hrd).2, rfl⟩

/-- What a failed call leaves behind: `j` is the number of rows it delivered before failing. -/
def RD.AfterError (md : Meta) (r r' : RD σ) (j : Nat) (e : Stop) : Prop :=
  r.row + j ≤ r'.row ∧ r'.row ≤ r.row + j + 1 ∧
  match e with
  | .exn e => r'.row = r.row + j + lostRows e ∧ (e ≠ .cannotDecompress → r'.Ended md)
  | _ => True

/-- The same for the reader. -/
def Reader.AfterError (R R' : Reader σ) (j : Nat) (e : Stop) : Prop :=
  RD.AfterError R'.props.md R.rd R'.rd j e

theorem RD.readLine_error (env : Env) (md : Meta) (r : RD σ) (h : r.Inv md) (e : Stop)
    (he : (r.readLine env S md).1 = .error e) :
    RD.AfterError md r (r.readLine env S md).2 0 e := by
  obtain ⟨h1, h2⟩ := RD.readLine_spec env S md r h
  obtain ⟨h3, h4⟩ := RD.readLine_skip env S md r
  obtain ⟨h5, h6⟩ := RD.skip_spec env S md 1 r h
  have hrow : (r.readLine env S md).2.row = (r.skip env S md 1).2.row := by
    have := congrArg RD.row h3.1
    simpa using this
  have hpage : (r.readLine env S md).2.page = (r.skip env S md 1).2.page := by
    have := congrArg RD.page h3.1
    simpa using this
  rw [he] at h2 h4
  refine ⟨by rcases h2 with h2 | h2 <;> omega, by rcases h2 with h2 | h2 <;> omega, ?_⟩
  cases e with
  | exn e =>
    by_cases hd : e = .cannotDecompress
    · subst hd
      simp only at h4
      rw [h4] at h6
      exact ⟨by simp only at h6; simp only [lostRows]; omega, fun hn => absurd rfl hn⟩
    · have h7 : (r.skip env S md 1).1 = .error (.exn e) := by
        cases e <;> first | exact h4 | exact absurd rfl hd
      rw [h7] at h6
      simp only at h6
      have hl : lostRows e = 0 := by cases e <;> first | rfl | exact absurd rfl hd
      refine ⟨by omega, fun _ => ?_⟩
      unfold RD.Ended
      rw [hrow, hpage]
      exact h6.2.2
  | terminate => trivial
  | ub => trivial
  | fuel => trivial

/-- Everything there is to know about one `read_row`. -/
theorem Reader.readRow_spec (R : Reader σ) (h : R.Inv) :
    (R.readRow S).2.Inv ∧ (R.readRow S).2.props = R.props ∧ (R.readRow S).2.env = R.env ∧
    (match (R.readRow S).1 with
     | .ok true => (R.readRow S).2.rd.row = R.rd.row + 1 ∧
        ∃ row, (R.readRow S).2.trace = R.trace ++ [.pushRow R.rd.row row]
     | .ok false => (R.readRow S).2.rd.row = R.rd.row ∧ (R.readRow S).2.Ended ∧
        (R.readRow S).2.trace = R.trace ++ [.endOfData]
     | .error e => (R.readRow S).2.trace = R.trace ∧ R.AfterError (R.readRow S).2 0 e) := by
  obtain ⟨h1, h2⟩ := RD.readLine_spec R.env S R.props.md R.rd h
  have h3 := RD.readLine_error (S := S) R.env R.props.md R.rd h
  unfold Reader.readRow
  simp only
  generalize R.rd.readLine R.env S R.props.md = x at *
  obtain ⟨res, rd⟩ := x
  cases res with
  | error e =>
    refine ⟨h1, rfl, rfl, rfl, ?_⟩
    exact h3 e rfl
  | ok o =>
    cases o with
    | none => exact ⟨h1, rfl, rfl, h2.1, h2.2, rfl⟩
    | some row => exact ⟨h1, rfl, rfl, h2, row, rfl⟩

theorem Reader.readRow_ended (R : Reader σ) (h : R.Ended) :
    R.readRow S = (.ok false, R.endOfData) := by
  unfold Reader.readRow
  rw [RD.readLine_ended R.env S R.props.md R.rd h]

/-- Chaining: a failure after a first successfully delivered row. -/
theorem Reader.AfterError.cons {R R1 R2 : Reader σ} {j : Nat} {e : Stop}
    (h : R1.rd.row = R.rd.row + 1) (h' : R1.AfterError R2 j e) : R.AfterError R2 (j + 1) e := by
  obtain ⟨a, b, c⟩ := h'
  refine ⟨by omega, by omega, ?_⟩
  cases e with
  | exn e => exact ⟨by have := c.1; omega, c.2⟩
  | terminate => trivial
  | ub => trivial
  | fuel => trivial

theorem Reader.readRows_spec (n : Nat) : ∀ (R : Reader σ), R.Inv →
    (R.readRows S n).2.Inv ∧ (R.readRows S n).2.props = R.props ∧ (R.readRows S n).2.env = R.env ∧
    ∃ rows,
    (match (R.readRows S n).1 with
     | .ok true => (R.readRows S n).2.rd.row = R.rd.row + n ∧ rows.length = n ∧
        (R.readRows S n).2.trace = R.trace ++ pushEvents R.rd.row rows
     | .ok false => (R.readRows S n).2.rd.row = R.rd.row + rows.length ∧ (R.readRows S n).2.Ended ∧
        rows.length < n ∧
        (R.readRows S n).2.trace = R.trace ++ pushEvents R.rd.row rows ++ [.endOfData]
     | .error e => (R.readRows S n).2.trace = R.trace ++ pushEvents R.rd.row rows ∧ rows.length < n ∧
        R.AfterError (R.readRows S n).2 rows.length e) := by
  induction n with
  | zero => intro R h; exact ⟨h, rfl, rfl, [], by simp [Reader.readRows, pushEvents]⟩
  | succ n ih =>
    intro R h
    obtain ⟨h1, h2, h3, h4⟩ := Reader.readRow_spec (S := S) R h
    unfold Reader.readRows
    generalize R.readRow S = x at *
    obtain ⟨res, R1⟩ := x
    cases res with
    | error e => exact ⟨h1, h2, h3, [], by simpa [pushEvents] using h4.1, by simp, h4.2⟩
    | ok b =>
      cases b with
      | false => exact ⟨h1, h2, h3, [], by simpa [pushEvents] using h4⟩
      | true =>
        simp only at h1 h2 h3 h4 ⊢
        obtain ⟨h5, row, h6⟩ := h4
        obtain ⟨i1, i2, i3, rows, i5⟩ := ih R1 h1
        refine ⟨i1, i2.trans h2, i3.trans h3, row :: rows, ?_⟩
        generalize R1.readRows S n = y at *
        obtain ⟨res2, R2⟩ := y
        cases res2 with
        | error e =>
          simp only at i5 ⊢
          rw [h6, h5] at i5
          exact ⟨by simpa [pushEvents] using i5.1, by simp; omega, i5.2.2.cons h5⟩
        | ok b =>
          cases b with
          | false =>
            simp only at i5 ⊢
            rw [h6, h5] at i5
            exact ⟨by simp; omega, i5.2.1, by simp; omega, by simpa [pushEvents] using i5.2.2.2⟩
          | true =>
            simp only at i5 ⊢
            rw [h6, h5] at i5
            exact ⟨by omega, by simp; omega, by simpa [pushEvents] using i5.2.2⟩

theorem Reader.readAllLoop_spec (fuel : Nat) : ∀ (R : Reader σ), R.Inv →
    (R.readAllLoop S fuel).2.Inv ∧ (R.readAllLoop S fuel).2.props = R.props ∧
    (R.readAllLoop S fuel).2.env = R.env ∧
    ∃ rows,
    (match (R.readAllLoop S fuel).1 with
     | .ok () => (R.readAllLoop S fuel).2.rd.row = R.rd.row + rows.length ∧
        (R.readAllLoop S fuel).2.Ended ∧
        (R.readAllLoop S fuel).2.trace = R.trace ++ pushEvents R.rd.row rows ++ [.endOfData]
     | .error e => (R.readAllLoop S fuel).2.trace = R.trace ++ pushEvents R.rd.row rows ∧
        R.AfterError (R.readAllLoop S fuel).2 rows.length e) := by
  induction fuel with
  | zero =>
    intro R h
    exact ⟨h, rfl, rfl, [], by simp [Reader.readAllLoop, pushEvents], by simp [Reader.readAllLoop],
      by simp [Reader.readAllLoop], trivial⟩
  | succ n ih =>
    intro R h
    obtain ⟨h1, h2, h3, h4⟩ := Reader.readRow_spec (S := S) R h
    unfold Reader.readAllLoop
    generalize R.readRow S = x at *
    obtain ⟨res, R1⟩ := x
    cases res with
    | error e => exact ⟨h1, h2, h3, [], by simpa [pushEvents] using h4.1, h4.2⟩
    | ok b =>
      cases b with
      | false => exact ⟨h1, h2, h3, [], by simpa [pushEvents] using h4⟩
      | true =>
        simp only at h1 h2 h3 h4 ⊢
        obtain ⟨h5, row, h6⟩ := h4
        obtain ⟨i1, i2, i3, rows, i5⟩ := ih R1 h1
        refine ⟨i1, i2.trans h2, i3.trans h3, row :: rows, ?_⟩
        generalize R1.readAllLoop S n = y at *
        obtain ⟨res2, R2⟩ := y
        cases res2 with
        | error e =>
          simp only at i5 ⊢
          rw [h6, h5] at i5
          exact ⟨by simpa [pushEvents] using i5.1, i5.2.cons h5⟩
        | ok b =>
          simp only at i5 ⊢
          rw [h6, h5] at i5
          exact ⟨by simp; omega, i5.2.1, by simpa [pushEvents] using i5.2.2⟩

/-- Exhaustion of the fuel is never the reader's own doing: if every single `read_row` terminates, so
does the loop. -/
theorem Reader.readAllLoop_fuel (fuel : Nat) : ∀ (R : Reader σ), R.Inv →
    R.props.md.rowCount - R.rd.row < fuel →
    ∀ fuel', R.props.md.rowCount - R.rd.row < fuel' →
    R.readAllLoop S fuel = R.readAllLoop S fuel' := by
  induction fuel with
  | zero => intro R _ hf; omega
  | succ n ih =>
    intro R h hf fuel' hf'
    obtain ⟨m, rfl⟩ : ∃ m, fuel' = m + 1 := ⟨fuel' - 1, by omega⟩
    unfold Reader.readAllLoop
    obtain ⟨h1, h2, h3, h4⟩ := Reader.readRow_spec (S := S) R h
    generalize R.readRow S = x at *
    obtain ⟨res, R1⟩ := x
    cases res with
    | error e => rfl
    | ok b =>
      cases b with
      | false => rfl
      | true =>
        simp only at h1 h2 h3 h4 ⊢
        have := h1.row
        rw [h2] at this
        exact ih R1 h1 (by rw [h2, h4.1]; omega) m (by rw [h2, h4.1]; omega)

/-- The fuel given to `read_all` is adequate: any larger amount gives the same result. -/
theorem readAll_fuel_adequate (R : Reader σ) (h : R.Inv) (fuel : Nat)
    (hf : R.props.md.rowCount - R.rd.row < fuel) : R.readAllLoop S fuel = R.readAll S :=
  Reader.readAllLoop_fuel fuel R h hf _ (by omega)

theorem Reader.skip_spec (n : Nat) (R : Reader σ) (h : R.Inv) :
    (R.skip S n).2.Inv ∧ (R.skip S n).2.props = R.props ∧ (R.skip S n).2.env = R.env ∧
    (match (R.skip S n).1 with
     | .ok true => (R.skip S n).2.rd.row = R.rd.row + n ∧ (R.skip S n).2.trace = R.trace
     | .ok false => (R.skip S n).2.Ended ∧ R.rd.row ≤ (R.skip S n).2.rd.row ∧
        (R.skip S n).2.rd.row < R.rd.row + n ∧ (R.skip S n).2.trace = R.trace ++ [.endOfData]
     | .error _ => (R.skip S n).2.Ended ∧ R.rd.row ≤ (R.skip S n).2.rd.row ∧
        (R.skip S n).2.rd.row < R.rd.row + n ∧ (R.skip S n).2.trace = R.trace) := by
  obtain ⟨h1, h2⟩ := RD.skip_spec R.env S R.props.md n R.rd h
  unfold Reader.skip
  generalize R.rd.skip R.env S R.props.md n = x at *
  obtain ⟨res, rd⟩ := x
  cases res with
  | error e => exact ⟨h1, rfl, rfl, h2.2.2, h2.1, h2.2.1, rfl⟩
  | ok b =>
    cases b with
    | false => exact ⟨h1, rfl, rfl, h2.2.2, h2.1, h2.2.1, rfl⟩
    | true => exact ⟨h1, rfl, rfl, h2, rfl⟩

theorem Reader.readRowNoSink_spec (R : Reader σ) (h : R.Inv) :
    (R.readRowNoSink S).2.Inv ∧ (R.readRowNoSink S).2.props = R.props ∧
    (R.readRowNoSink S).2.env = R.env ∧ (R.readRowNoSink S).2.trace = R.trace ∧
    (match (R.readRowNoSink S).1 with
     | .ok (some _) => (R.readRowNoSink S).2.rd.row = R.rd.row + 1
     | .ok none => (R.readRowNoSink S).2.rd.row = R.rd.row ∧ (R.readRowNoSink S).2.Ended
     | .error e => R.AfterError (R.readRowNoSink S).2 0 e) := by
  obtain ⟨h1, h2⟩ := RD.readLine_spec R.env S R.props.md R.rd h
  have h3 := RD.readLine_error (S := S) R.env R.props.md R.rd h
  unfold Reader.readRowNoSink
  simp only
  generalize R.rd.readLine R.env S R.props.md = x at *
  obtain ⟨res, rd⟩ := x
  cases res with
  | error e => exact ⟨h1, trivial, trivial, trivial, h3 e rfl⟩
  | ok o =>
    cases o with
    | none => exact ⟨h1, trivial, trivial, trivial, h2.1, h2.2⟩
    | some row => exact ⟨h1, trivial, trivial, trivial, h2⟩

theorem Reader.step_inv (R : Reader σ) (h : R.Inv) (op : Op) :
    (R.step S op).2.Inv ∧ (R.step S op).2.props = R.props ∧ (R.step S op).2.env = R.env := by
  cases op with
  | readRow => have := Reader.readRow_spec (S := S) R h; exact ⟨this.1, this.2.1, this.2.2.1⟩
  | readRows n => have := Reader.readRows_spec (S := S) n R h; exact ⟨this.1, this.2.1, this.2.2.1⟩
  | readAll =>
    have := Reader.readAllLoop_spec (S := S) (R.props.md.rowCount - R.rd.row + 1) R h
    exact ⟨this.1, this.2.1, this.2.2.1⟩
  | skip n => have := Reader.skip_spec (S := S) n R h; exact ⟨this.1, this.2.1, this.2.2.1⟩
  | readRowNoSink =>
    have := Reader.readRowNoSink_spec (S := S) R h; exact ⟨this.1, this.2.1, this.2.2.1⟩
  | endOfData => exact ⟨h, rfl, rfl⟩

theorem Reachable.inv {R : Reader σ} (h : Reachable S R) : R.Inv := by
  induction h with
  | opened cfg fuel filter s R h => exact (openReader_spec h).1
  | called R op _ ih => exact (Reader.step_inv R ih op).1

theorem Reader.run_cons (R : Reader σ) (op : Op) (ops : List Op) :
    R.run S (op :: ops) =
    match R.step S op with
    | (.ok v, R) => (.ok v :: (R.run S ops).1, (R.run S ops).2)
    | (.error (.exn e), R) => (.error (.exn e) :: (R.run S ops).1, (R.run S ops).2)
    | (.error e, R) => ([.error e], R) := rfl

/-- Induction principle for histories: the final state of a run is reached by steps. -/
theorem Reader.run_induct {P : Reader σ → Prop} (hstep : ∀ R op, P R → P (R.step S op).2) :
    ∀ (ops : List Op) (R : Reader σ), P R → P (R.run S ops).2 := by
  intro ops
  induction ops with
  | nil => intro R h; exact h
  | cons op ops ih =>
    intro R h
    have hs := hstep R op h
    rw [Reader.run_cons]
    generalize R.step S op = x at *
    obtain ⟨res, R1⟩ := x
    cases res with
    | ok v => exact ih R1 hs
    | error e =>
      cases e with
      | exn e => exact ih R1 hs
      | terminate => exact hs
      | ub => exact hs
      | fuel => exact hs

theorem Reachable.run {R : Reader σ} (h : Reachable S R) (ops : List Op) :
    Reachable S (R.run S ops).2 :=
  Reader.run_induct (P := Reachable S) (fun R op h => .called R op h) ops R h

/-- The state after `k` calls of `read_row`, whatever they return. -/
def Reader.iter (S : Source σ) : Nat → Reader σ → Reader σ
  | 0, R => R
  | k + 1, R => Reader.iter S k (R.readRow S).2

theorem Reader.iter_add (a b : Nat) : ∀ R : Reader σ,
    Reader.iter S (a + b) R = Reader.iter S b (Reader.iter S a R) := by
  induction a with
  | zero => intro R; simp [Reader.iter]
  | succ a ih => intro R; rw [Nat.succ_add]; exact ih _

theorem Reader.iter_inv (k : Nat) : ∀ R : Reader σ, R.Inv → (Reader.iter S k R).Inv := by
  induction k with
  | zero => intro R h; exact h
  | succ k ih => intro R h; exact ih _ (Reader.readRow_spec R h).1

theorem Reader.readRow_pushes_prefix (R : Reader σ) (h : R.Inv) :
    pushes R.trace <+: pushes (R.readRow S).2.trace := by
  obtain ⟨-, -, -, h4⟩ := Reader.readRow_spec (S := S) R h
  generalize R.readRow S = x at *
  obtain ⟨res, R1⟩ := x
  cases res with
  | error e => rw [h4.1]; exact List.prefix_rfl
  | ok b =>
    cases b with
    | false => simp only at h4 ⊢; rw [h4.2.2, pushes_append]; exact List.prefix_append _ _
    | true =>
      simp only at h4 ⊢
      obtain ⟨-, row, h⟩ := h4
      rw [h, pushes_append]; exact List.prefix_append _ _

theorem Reader.iter_pushes_prefix (k : Nat) : ∀ R : Reader σ, R.Inv →
    pushes R.trace <+: pushes (Reader.iter S k R).trace := by
  induction k with
  | zero => intro R h; exact List.prefix_rfl
  | succ k ih =>
    intro R h
    exact (Reader.readRow_pushes_prefix R h).trans (ih _ (Reader.readRow_spec R h).1)

theorem Reader.iter_ended (k : Nat) : ∀ R : Reader σ, R.Ended →
    pushes (Reader.iter S k R).trace = pushes R.trace ∧ (Reader.iter S k R).Ended := by
  induction k with
  | zero => intro R h; exact ⟨rfl, h⟩
  | succ k ih =>
    intro R h
    have he : (R.readRow S).2 = R.endOfData := by rw [Reader.readRow_ended R h]
    have := ih (R.endOfData) h
    unfold Reader.iter
    rw [he]
    refine ⟨?_, this.2⟩
    rw [this.1]
    simp [Reader.endOfData, Reader.emit, pushes_append, pushes]

theorem Reader.readRows_iter (n : Nat) : ∀ R : Reader σ,
    ∃ k, (R.readRows S n).2 = Reader.iter S k R := by
  induction n with
  | zero => intro R; exact ⟨0, rfl⟩
  | succ n ih =>
    intro R
    unfold Reader.readRows
    cases hx : R.readRow S with
    | mk res R1 =>
      have e1 : Reader.iter S 1 R = R1 := by simp [Reader.iter, hx]
      cases res with
      | error e => exact ⟨1, e1.symm⟩
      | ok b =>
        cases b with
        | false => exact ⟨1, e1.symm⟩
        | true =>
          obtain ⟨k, hk⟩ := ih R1
          exact ⟨k + 1, by rw [Reader.iter, hx]; exact hk⟩

theorem Reader.readAllLoop_iter (n : Nat) : ∀ R : Reader σ,
    ∃ k, (R.readAllLoop S n).2 = Reader.iter S k R := by
  induction n with
  | zero => intro R; exact ⟨0, rfl⟩
  | succ n ih =>
    intro R
    unfold Reader.readAllLoop
    cases hx : R.readRow S with
    | mk res R1 =>
      have e1 : Reader.iter S 1 R = R1 := by simp [Reader.iter, hx]
      cases res with
      | error e => exact ⟨1, e1.symm⟩
      | ok b =>
        cases b with
        | false => exact ⟨1, e1.symm⟩
        | true =>
          obtain ⟨k, hk⟩ := ih R1
          exact ⟨k + 1, by rw [Reader.iter, hx]; exact hk⟩

theorem Reader.step_iter (R : Reader σ) (op : Op) (hop : isRead op = true) :
    ∃ k, (R.step S op).2 = Reader.iter S k R := by
  cases op with
  | readRow => exact ⟨1, rfl⟩
  | readRows n => exact Reader.readRows_iter n R
  | readAll => exact Reader.readAllLoop_iter (R.props.md.rowCount - R.rd.row + 1) R
  | skip n => cases hop
  | readRowNoSink => cases hop
  | endOfData => cases hop

theorem Reader.run_iter (ops : List Op) : ∀ R : Reader σ, (∀ op ∈ ops, isRead op = true) →
    ∃ k, (R.run S ops).2 = Reader.iter S k R := by
  induction ops with
  | nil => intro R _; exact ⟨0, rfl⟩
  | cons op ops ih =>
    intro R hops
    obtain ⟨k, hk⟩ := Reader.step_iter (S := S) R op (hops op (by simp))
    rw [Reader.run_cons]
    generalize R.step S op = x at *
    obtain ⟨res, R1⟩ := x
    simp only at hk
    subst hk
    have hrec := ih (Reader.iter S k R) (fun o ho => hops o (by simp [ho]))
    obtain ⟨j, hj⟩ := hrec
    have e : Reader.iter S j (Reader.iter S k R) = Reader.iter S (k + j) R := (Reader.iter_add k j R).symm
    cases res with
    | ok v => exact ⟨k + j, by rw [← e]; exact hj⟩
    | error er =>
      cases er with
      | exn e' => exact ⟨k + j, by rw [← e]; exact hj⟩
      | terminate => exact ⟨k, rfl⟩
      | ub => exact ⟨k, rfl⟩
      | fuel => exact ⟨k, rfl⟩

/-- A call that reports the end leaves the reader at the end. -/
theorem Reader.step_reportsEnd (R : Reader σ) (h : R.Inv) (op : Op)
    (he : reportsEnd op (R.step S op).1 = true) : (R.step S op).2.Ended := by
  cases op with
  | readRow =>
    have hs := (Reader.readRow_spec (S := S) R h).2.2.2
    simp only [Reader.step] at he ⊢
    generalize R.readRow S = x at *
    obtain ⟨res, R1⟩ := x
    cases res with
    | error e => cases he
    | ok b => cases b with
      | true => cases he
      | false => exact hs.2.1
  | readRows n =>
    obtain ⟨ps, hs⟩ := (Reader.readRows_spec (S := S) n R h).2.2.2
    simp only [Reader.step] at he ⊢
    generalize R.readRows S n = x at *
    obtain ⟨res, R1⟩ := x
    cases res with
    | error e => cases he
    | ok b => cases b with
      | true => cases he
      | false => exact hs.2.1
  | readAll =>
    obtain ⟨ps, hs⟩ :=
      (Reader.readAllLoop_spec (S := S) (R.props.md.rowCount - R.rd.row + 1) R h).2.2.2
    simp only [Reader.step, Reader.readAll] at he ⊢
    generalize R.readAllLoop S (R.props.md.rowCount - R.rd.row + 1) = x at *
    obtain ⟨res, R1⟩ := x
    cases res with
    | error e => cases he
    | ok b => exact hs.2.1
  | skip n =>
    have hs := (Reader.skip_spec (S := S) n R h).2.2.2
    simp only [Reader.step] at he ⊢
    generalize R.skip S n = x at *
    obtain ⟨res, R1⟩ := x
    cases res with
    | error e => cases he
    | ok b => cases b with
      | true => cases he
      | false => exact hs.1
  | readRowNoSink =>
    have hs := (Reader.readRowNoSink_spec (S := S) R h).2.2.2.2
    simp only [Reader.step] at he ⊢
    generalize R.readRowNoSink S = x at *
    obtain ⟨res, R1⟩ := x
    cases res with
    | error e => cases he
    | ok b => cases b with
      | some r => cases he
      | none => exact hs.2
  | endOfData => cases he

/-- At the end every call answers so and pushes nothing. -/
theorem Reader.step_ended (R : Reader σ) (h : R.Ended) (op : Op) :
    (R.step S op).1 = answerAtEnd op ∧ (R.step S op).2.Ended ∧
    (R.step S op).2.rd = R.rd ∧ pushes (R.step S op).2.trace = pushes R.trace := by
  have hr := Reader.readRow_ended (S := S) R h
  have hp : pushes R.endOfData.trace = pushes R.trace := by
    simp [Reader.endOfData, Reader.emit, pushes_append, pushes]
  cases op with
  | readRow => simp only [Reader.step, hr]; exact ⟨rfl, h, rfl, hp⟩
  | readRows n =>
    cases n with
    | zero => exact ⟨rfl, h, rfl, rfl⟩
    | succ n => simp only [Reader.step, Reader.readRows, hr]; exact ⟨rfl, h, rfl, hp⟩
  | readAll => simp only [Reader.step, Reader.readAll, Reader.readAllLoop, hr]; exact ⟨rfl, h, rfl, hp⟩
  | skip n =>
    cases n with
    | zero => exact ⟨rfl, h, rfl, rfl⟩
    | succ n =>
      simp only [Reader.step, Reader.skip, RD.skip_ended R.env S R.props.md n R.rd h]
      exact ⟨rfl, h, rfl, hp⟩
  | readRowNoSink =>
    simp only [Reader.step, Reader.readRowNoSink, RD.readLine_ended R.env S R.props.md R.rd h]
    exact ⟨rfl, h, trivial, trivial⟩
  | endOfData => exact ⟨rfl, h, rfl, hp⟩

theorem Reader.run_ended (ops : List Op) : ∀ (R : Reader σ), R.Ended →
    (R.run S ops).1 = ops.map answerAtEnd ∧ (R.run S ops).2.rd = R.rd ∧
    pushes (R.run S ops).2.trace = pushes R.trace := by
  induction ops with
  | nil => intro R _; exact ⟨rfl, rfl, rfl⟩
  | cons op ops ih =>
    intro R h
    obtain ⟨h1, h2, h3, h4⟩ := Reader.step_ended (S := S) R h op
    rw [Reader.run_cons]
    generalize R.step S op = x at *
    obtain ⟨res, R1⟩ := x
    simp only at h1 h2 h3 h4
    have hok : ∃ v, answerAtEnd op = .ok v := by cases op <;> exact ⟨_, rfl⟩
    obtain ⟨v, hv⟩ := hok
    obtain ⟨i1, i2, i3⟩ := ih R1 h2
    rw [h1, hv]
    simp only [List.map_cons, hv]
    exact ⟨by rw [i1], i2.trans h3, i3.trans h4⟩

/-- Two readers that differ only in what earlier rows left in the decompressor's buffer. -/
def Reader.Sim (R R' : Reader σ) : Prop :=
  R'.env = R.env ∧ R'.props = R.props ∧ RD.Sim R.rd R'.rd ∧ R'.trace = R.trace

theorem Reader.Sim.refl (R : Reader σ) : Reader.Sim R R := ⟨rfl, rfl, RD.Sim.refl _, rfl⟩

theorem RD.Sim.row {r r' : RD σ} (h : RD.Sim r r') : r'.row = r.row := by
  have := congrArg RD.row h.1
  simpa using this

theorem Reader.readRow_sim {R R' : Reader σ} (h : Reader.Sim R R') :
    (R.readRow S).1 = (R'.readRow S).1 ∧ Reader.Sim (R.readRow S).2 (R'.readRow S).2 := by
  obtain ⟨h1, h2, h3, h4⟩ := h
  obtain ⟨h5, h6⟩ := RD.readLine_sim R.env S R.props.md h3
  have h7 := h3.row
  unfold Reader.readRow Reader.currentRowIndex
  simp only [h1, h2, h7]
  generalize R.rd.readLine R.env S R.props.md = x at *
  generalize R'.rd.readLine R.env S R.props.md = y at *
  obtain ⟨res, rd⟩ := x
  obtain ⟨res', rd'⟩ := y
  simp only at h5 h6
  subst h5
  cases res with
  | error e => exact ⟨rfl, rfl, rfl, h6, h4⟩
  | ok o =>
    cases o with
    | none => exact ⟨rfl, rfl, rfl, h6, by simp [Reader.endOfData, Reader.emit, h4]⟩
    | some row => exact ⟨rfl, rfl, rfl, h6, by simp [Reader.emit, h4]⟩

theorem Reader.readRows_sim (n : Nat) : ∀ {R R' : Reader σ}, Reader.Sim R R' →
    (R.readRows S n).1 = (R'.readRows S n).1 ∧ Reader.Sim (R.readRows S n).2 (R'.readRows S n).2 := by
  induction n with
  | zero => intro R R' h; exact ⟨rfl, h⟩
  | succ n ih =>
    intro R R' h
    obtain ⟨h1, h2⟩ := Reader.readRow_sim (S := S) h
    unfold Reader.readRows
    generalize R.readRow S = x at *
    generalize R'.readRow S = y at *
    obtain ⟨res, R1⟩ := x
    obtain ⟨res', R1'⟩ := y
    simp only at h1 h2
    subst h1
    cases res with
    | error e => exact ⟨rfl, h2⟩
    | ok b => cases b with
      | false => exact ⟨rfl, h2⟩
      | true => exact ih h2

theorem Reader.readAllLoop_sim (n : Nat) : ∀ {R R' : Reader σ}, Reader.Sim R R' →
    (R.readAllLoop S n).1 = (R'.readAllLoop S n).1 ∧
    Reader.Sim (R.readAllLoop S n).2 (R'.readAllLoop S n).2 := by
  induction n with
  | zero => intro R R' h; exact ⟨rfl, h⟩
  | succ n ih =>
    intro R R' h
    obtain ⟨h1, h2⟩ := Reader.readRow_sim (S := S) h
    unfold Reader.readAllLoop
    generalize R.readRow S = x at *
    generalize R'.readRow S = y at *
    obtain ⟨res, R1⟩ := x
    obtain ⟨res', R1'⟩ := y
    simp only at h1 h2
    subst h1
    cases res with
    | error e => exact ⟨rfl, h2⟩
    | ok b => cases b with
      | false => exact ⟨rfl, h2⟩
      | true => exact ih h2

theorem Reader.skip_sim (n : Nat) {R R' : Reader σ} (h : Reader.Sim R R') :
    (R.skip S n).1 = (R'.skip S n).1 ∧ Reader.Sim (R.skip S n).2 (R'.skip S n).2 := by
  obtain ⟨h1, h2, h3, h4⟩ := h
  obtain ⟨h5, h6⟩ := RD.skip_sim R.env S R.props.md n h3
  unfold Reader.skip
  rw [h1, h2]
  generalize R.rd.skip R.env S R.props.md n = x at *
  generalize R'.rd.skip R.env S R.props.md n = y at *
  obtain ⟨res, rd⟩ := x
  obtain ⟨res', rd'⟩ := y
  simp only at h5 h6
  subst h5
  cases res with
  | error e => exact ⟨rfl, rfl, rfl, h6, h4⟩
  | ok b => cases b with
    | false => exact ⟨rfl, rfl, rfl, h6, by simp [Reader.endOfData, Reader.emit, h4]⟩
    | true => exact ⟨rfl, rfl, rfl, h6, h4⟩

theorem Reader.step_sim {R R' : Reader σ} (h : Reader.Sim R R') (op : Op) :
    (R.step S op).1 = (R'.step S op).1 ∧ Reader.Sim (R.step S op).2 (R'.step S op).2 := by
  cases op with
  | readRow =>
    have := Reader.readRow_sim (S := S) h
    exact ⟨by simp only [Reader.step, this.1], this.2⟩
  | readRows n =>
    have := Reader.readRows_sim (S := S) n h
    exact ⟨by simp only [Reader.step, this.1], this.2⟩
  | readAll =>
    have hr := h.2.2.1.row
    have hp := h.2.1
    have := Reader.readAllLoop_sim (S := S) (R.props.md.rowCount - R.rd.row + 1) h
    simp only [Reader.step, Reader.readAll, hp, hr]
    exact ⟨by rw [this.1], this.2⟩
  | skip n =>
    have := Reader.skip_sim (S := S) n h
    exact ⟨by simp only [Reader.step, this.1], this.2⟩
  | readRowNoSink =>
    obtain ⟨h1, h2, h3, h4⟩ := h
    obtain ⟨h5, h6⟩ := RD.readLine_sim R.env S R.props.md h3
    simp only [Reader.step, Reader.readRowNoSink, h1, h2]
    exact ⟨by rw [h5], rfl, rfl, h6, h4⟩
  | endOfData =>
    exact ⟨rfl, h.1, h.2.1, h.2.2.1, by simp [Reader.step, Reader.endOfData, Reader.emit, h.2.2.2]⟩

theorem Reader.run_sim (ops : List Op) : ∀ {R R' : Reader σ}, Reader.Sim R R' →
    (R.run S ops).1 = (R'.run S ops).1 ∧ Reader.Sim (R.run S ops).2 (R'.run S ops).2 := by
  induction ops with
  | nil => intro R R' h; exact ⟨rfl, h⟩
  | cons op ops ih =>
    intro R R' h
    obtain ⟨h1, h2⟩ := Reader.step_sim (S := S) h op
    rw [Reader.run_cons, Reader.run_cons]
    generalize R.step S op = x at *
    generalize R'.step S op = y at *
    obtain ⟨res, R1⟩ := x
    obtain ⟨res', R1'⟩ := y
    simp only at h1 h2
    subst h1
    obtain ⟨i1, i2⟩ := ih h2
    cases res with
    | ok v => exact ⟨by simp only [i1], i2⟩
    | error e => cases e with
      | exn e => exact ⟨by simp only [i1], i2⟩
      | terminate => exact ⟨rfl, h2⟩
      | ub => exact ⟨rfl, h2⟩
      | fuel => exact ⟨rfl, h2⟩

/-- What one call does to the sink: it pushes consecutive rows starting with the current index, then
possibly signals the end. -/
theorem Reader.step_trace (R : Reader σ) (h : R.Inv) (op : Op) :
    ∃ rows, (R.step S op).2.trace = R.trace ++ pushEvents R.rd.row rows ++
        endEvents (signalsEnd op (R.step S op).1) ∧
      R.rd.row + rows.length ≤ (R.step S op).2.rd.row := by
  cases op with
  | readRow =>
    have hs := (Reader.readRow_spec (S := S) R h).2.2.2
    simp only [Reader.step]
    generalize R.readRow S = x at *
    obtain ⟨res, R1⟩ := x
    cases res with
    | error e => exact ⟨[], by simpa [pushEvents, signalsEnd, endEvents, reportsEnd, Except.map] using hs.1, hs.2.1⟩
    | ok b => cases b with
      | true =>
        obtain ⟨h1, row, h2⟩ := hs
        exact ⟨[row], by simpa [pushEvents, signalsEnd, endEvents, reportsEnd, Except.map] using h2,
          by simp only [List.length_singleton]; exact Nat.le_of_eq h1.symm⟩
      | false =>
        exact ⟨[], by simpa [pushEvents, signalsEnd, endEvents, reportsEnd, Except.map] using hs.2.2,
          Nat.le_of_eq hs.1.symm⟩
  | readRows n =>
    obtain ⟨rows, hs⟩ := (Reader.readRows_spec (S := S) n R h).2.2.2
    simp only [Reader.step]
    generalize R.readRows S n = x at *
    obtain ⟨res, R1⟩ := x
    refine ⟨rows, ?_⟩
    cases res with
    | error e => exact ⟨by simpa [signalsEnd, endEvents, reportsEnd, Except.map] using hs.1, hs.2.2.1⟩
    | ok b => cases b with
      | true =>
        exact ⟨by simpa [signalsEnd, endEvents, reportsEnd, Except.map] using hs.2.2,
          by simp only at hs ⊢; omega⟩
      | false =>
        exact ⟨by simpa [signalsEnd, endEvents, reportsEnd, Except.map] using hs.2.2.2,
          Nat.le_of_eq hs.1.symm⟩
  | readAll =>
    obtain ⟨rows, hs⟩ :=
      (Reader.readAllLoop_spec (S := S) (R.props.md.rowCount - R.rd.row + 1) R h).2.2.2
    simp only [Reader.step, Reader.readAll]
    generalize R.readAllLoop S (R.props.md.rowCount - R.rd.row + 1) = x at *
    obtain ⟨res, R1⟩ := x
    refine ⟨rows, ?_⟩
    cases res with
    | error e => exact ⟨by simpa [signalsEnd, endEvents, reportsEnd, Except.map] using hs.1, hs.2.1⟩
    | ok b =>
      exact ⟨by simpa [signalsEnd, endEvents, reportsEnd, Except.map] using hs.2.2, Nat.le_of_eq hs.1.symm⟩
  | skip n =>
    have hs := (Reader.skip_spec (S := S) n R h).2.2.2
    simp only [Reader.step]
    generalize R.skip S n = x at *
    obtain ⟨res, R1⟩ := x
    refine ⟨[], ?_⟩
    cases res with
    | error e => exact ⟨by simpa [pushEvents, signalsEnd, endEvents, reportsEnd, Except.map] using hs.2.2.2, hs.2.1⟩
    | ok b => cases b with
      | true =>
        exact ⟨by simpa [pushEvents, signalsEnd, endEvents, reportsEnd, Except.map] using hs.2,
          by simp only [List.length_nil] at hs ⊢; omega⟩
      | false =>
        exact ⟨by simpa [pushEvents, signalsEnd, endEvents, reportsEnd, Except.map] using hs.2.2.2, hs.2.1⟩
  | readRowNoSink =>
    have hs := (Reader.readRowNoSink_spec (S := S) R h).2.2.2
    simp only [Reader.step]
    generalize R.readRowNoSink S = x at *
    obtain ⟨res, R1⟩ := x
    refine ⟨[], by simpa [pushEvents, endEvents, signalsEnd] using hs.1, ?_⟩
    cases res with
    | error e => exact hs.2.1
    | ok o => cases o with
      | none => exact Nat.le_of_eq hs.2.1.symm
      | some r => have := hs.2; simp only [List.length_nil] at this ⊢; omega
  | endOfData =>
    exact ⟨[], by simp [Reader.step, Reader.endOfData, Reader.emit, pushEvents, endEvents, signalsEnd],
      by simp [Reader.step, Reader.endOfData, Reader.emit]⟩

theorem Reader.step_mono (R : Reader σ) (h : R.Inv) (op : Op) :
    R.rd.row ≤ (R.step S op).2.rd.row := by
  obtain ⟨rows, -, h2⟩ := Reader.step_trace (S := S) R h op
  omega

theorem Reader.run_mono (ops : List Op) (R : Reader σ) (h : R.Inv) :
    R.rd.row ≤ (R.run S ops).2.rd.row := by
  have := Reader.run_induct (S := S) (P := fun R' => R'.Inv ∧ R.rd.row ≤ R'.rd.row)
    (fun R' op h' => ⟨(Reader.step_inv R' h'.1 op).1,
      Nat.le_trans h'.2 (Reader.step_mono R' h'.1 op)⟩) ops R ⟨h, Nat.le_refl _⟩
  exact this.2

theorem Reader.run_props (ops : List Op) (R : Reader σ) (h : R.Inv) :
    (R.run S ops).2.props = R.props := by
  have := Reader.run_induct (S := S) (P := fun R' => R'.Inv ∧ R'.props = R.props)
    (fun R' op h' => ⟨(Reader.step_inv R' h'.1 op).1, (Reader.step_inv R' h'.1 op).2.1.trans h'.2⟩)
    ops R ⟨h, rfl⟩
  exact this.2

/-- The shape of the list of sink calls. -/
structure Reader.TraceOk (R : Reader σ) : Prop where
  inv : R.Inv
  head : ∃ rest, R.trace = .setProperties R.props :: rest ∧ ∀ p, Event.setProperties p ∉ rest
  incr : ((pushes R.trace).map Prod.fst).Pairwise (· < ·)
  lt : ∀ i ∈ (pushes R.trace).map Prod.fst, i < R.rd.row

theorem Reader.TraceOk.step {R : Reader σ} (h : R.TraceOk) (op : Op) : (R.step S op).2.TraceOk := by
  obtain ⟨rows, h1, h2⟩ := Reader.step_trace (S := S) R h.inv op
  obtain ⟨h3, h4, -⟩ := Reader.step_inv (S := S) R h.inv op
  have hp : (pushes (R.step S op).2.trace).map Prod.fst =
      (pushes R.trace).map Prod.fst ++ List.range' R.rd.row rows.length := by
    rw [h1, pushes_append, pushes_append, List.map_append, List.map_append, pushes_pushEvents]
    cases signalsEnd op (R.step S op).1 <;> simp [pushes, endEvents]
  refine ⟨h3, ?_, ?_, ?_⟩
  · obtain ⟨rest, hr, hn⟩ := h.head
    refine ⟨rest ++ pushEvents R.rd.row rows ++
      endEvents (signalsEnd op (R.step S op).1), by rw [h1, hr, h4]; simp, ?_⟩
    intro p
    simp only [List.mem_append, not_or]
    refine ⟨⟨hn p, setProperties_notMem_pushEvents _ _ _⟩, ?_⟩
    cases signalsEnd op (R.step S op).1 <;> simp [endEvents]
  · rw [hp, List.pairwise_append]
    refine ⟨h.incr, List.pairwise_lt_range', ?_⟩
    intro a ha b hb
    have := h.lt a ha
    have := (List.mem_range'_1.1 hb).1
    omega
  · rw [hp]
    intro i hi
    rcases List.mem_append.1 hi with hi | hi
    · have := h.lt i hi; omega
    · have := (List.mem_range'_1.1 hi).2; omega

theorem Reachable.traceOk {R : Reader σ} (h : Reachable S R) : R.TraceOk := by
  induction h with
  | opened cfg fuel filter s R h =>
    obtain ⟨h1, h2, h3⟩ := openReader_spec h
    refine ⟨h1, ⟨[], h3, by simp⟩, by simp [h3, pushes], by simp [h3, pushes]⟩
  | called R op _ ih => exact ih.step op

theorem Reader.run_ends (ops : List Op) : ∀ (R : Reader σ), R.Inv →
    ends (R.run S ops).2.trace = ends R.trace +
      ((ops.zip (R.run S ops).1).filter fun x => signalsEnd x.1 x.2).length := by
  induction ops with
  | nil => intro R _; simp [Reader.run]
  | cons op ops ih =>
    intro R h
    obtain ⟨rows, h1, -⟩ := Reader.step_trace (S := S) R h op
    obtain ⟨h2, -, -⟩ := Reader.step_inv (S := S) R h op
    have he : ends (R.step S op).2.trace = ends R.trace +
        (signalsEnd op (R.step S op).1).toNat := by
      rw [h1, ends_append, ends_append, ends_pushEvents]
      cases signalsEnd op (R.step S op).1 <;> simp [ends, endEvents]
    have hi := ih _ h2
    rw [Reader.run_cons]
    generalize R.step S op = x at *
    obtain ⟨res, R1⟩ := x
    simp only at he hi
    cases res with
    | ok v =>
      simp only [List.zip_cons_cons, List.filter_cons]
      rw [hi, he]
      cases signalsEnd op (Except.ok v) <;> simp <;> omega
    | error e => cases e with
      | exn e =>
        simp only [List.zip_cons_cons, List.filter_cons]
        rw [hi, he]
        cases signalsEnd op (Except.error (.exn e)) <;> simp <;> omega
      | terminate =>
        simp only [List.zip_cons_cons, List.filter_cons, List.zip_nil_right, List.filter_nil]
        rw [he]
        cases signalsEnd op (Except.error .terminate) <;> simp
      | ub =>
        simp only [List.zip_cons_cons, List.filter_cons, List.zip_nil_right, List.filter_nil]
        rw [he]
        cases signalsEnd op (Except.error .ub) <;> simp
      | fuel =>
        simp only [List.zip_cons_cons, List.filter_cons, List.zip_nil_right, List.filter_nil]
        rw [he]
        cases signalsEnd op (Except.error .fuel) <;> simp

/-- If some call of a history reports the end, the history ends in an ended state. -/
theorem Reader.run_reported (ops : List Op) : ∀ (R : Reader σ), R.Inv →
    (∃ x ∈ ops.zip (R.run S ops).1, reportsEnd x.1 x.2 = true) → (R.run S ops).2.Ended := by
  induction ops with
  | nil => intro R _ h; simp at h
  | cons op ops ih =>
    intro R h hx
    obtain ⟨h2, -, -⟩ := Reader.step_inv (S := S) R h op
    have hend := Reader.step_reportsEnd (S := S) R h op
    have hi := ih _ h2
    rw [Reader.run_cons] at hx ⊢
    generalize R.step S op = y at *
    obtain ⟨res, R1⟩ := y
    simp only at h2 hend hi
    have key : R1.Ended → (R1.run S ops).2.Ended := by
      intro he
      exact (Reader.run_induct (S := S) (P := fun R => R.Ended)
        (fun R op hR => (Reader.step_ended R hR op).2.1) ops R1 he)
    have hcase : ∀ (r : Res Ret), (∃ x ∈ (op :: ops).zip (r :: (R1.run S ops).1),
        reportsEnd x.1 x.2 = true) → r = res → (R1.run S ops).2.Ended := by
      intro r hx' hr'
      subst hr'
      obtain ⟨x, hm, hr⟩ := hx'
      rw [List.zip_cons_cons, List.mem_cons] at hm
      rcases hm with rfl | hm
      · exact key (hend hr)
      · exact hi ⟨x, hm, hr⟩
    cases res with
    | ok v => exact hcase _ hx rfl
    | error e => cases e with
      | exn e => exact hcase _ hx rfl
      | terminate => obtain ⟨x, hm, hr⟩ := hx; simp at hm; subst hm; cases op <;> cases hr
      | ub => obtain ⟨x, hm, hr⟩ := hx; simp at hm; subst hm; cases op <;> cases hr
      | fuel => obtain ⟨x, hm, hr⟩ := hx; simp at hm; subst hm; cases op <;> cases hr

theorem RD.skip_add (env : Env) (md : Meta) (a b : Nat) : ∀ r : RD σ,
    r.skip env S md (a + b) =
    match r.skip env S md a with
    | (.ok true, r) => r.skip env S md b
    | (res, r) => (res, r) := by
  induction a with
  | zero => intro r; simp [RD.skip]
  | succ a ih =>
    intro r
    rw [Nat.succ_add, RD.skip_succ_eq, RD.skip_succ_eq]
    cases r.advance env S md with
    | mk res r1 =>
      cases res with
      | error e => rfl
      | ok o => cases o with
        | none => rfl
        | some ol => exact ih r1

/-- `n` discarded reads that all return or throw lead to the state `skip n` leads to, up to the content
of the decompressor's buffer. -/
theorem Reader.skip_run (n : Nat) : ∀ (R R' : Reader σ), Reader.Sim R R' →
    (∀ x ∈ (R'.run S (List.replicate n .readRowNoSink)).1,
      (∃ row, x = .ok (.ptr (some row))) ∨ x = .error (.exn .cannotDecompress)) →
    (R.skip S n).1 = .ok true ∧
    Reader.Sim (R.skip S n).2 (R'.run S (List.replicate n .readRowNoSink)).2 := by
  induction n with
  | zero => intro R R' h _; exact ⟨rfl, h⟩
  | succ n ih =>
    intro R R' h hx
    obtain ⟨g1, g2, g3, g4⟩ := h
    obtain ⟨h1, h2⟩ := RD.readLine_skip R.env S R.props.md R.rd
    obtain ⟨h3, h4⟩ := RD.readLine_sim R.env S R.props.md g3
    have hskip := RD.skip_add (S := S) R.env R.props.md 1 n R.rd
    rw [List.replicate_succ, Reader.run_cons] at hx ⊢
    have hstep : R'.step S .readRowNoSink =
        ((R'.rd.readLine R.env S R.props.md).1.map .ptr,
          { R' with rd := (R'.rd.readLine R.env S R.props.md).2 }) := by
      simp [Reader.step, Reader.readRowNoSink, g1, g2]
    rw [hstep] at hx ⊢
    rw [Nat.add_comm n 1]
    generalize R'.rd.readLine R.env S R.props.md = y at *
    generalize R.rd.readLine R.env S R.props.md = z at *
    obtain ⟨res, rd'⟩ := y
    obtain ⟨res0, rd0⟩ := z
    simp only at h1 h2 h3 h4 hx ⊢
    subst h3
    have fin : (R.rd.skip R.env S R.props.md 1).1 = .ok true →
        (∀ x ∈ (Reader.run S ({ R' with rd := rd' } : Reader σ) (List.replicate n .readRowNoSink)).1,
          (∃ row, x = .ok (.ptr (some row))) ∨ x = .error (.exn .cannotDecompress)) →
        (R.skip S (1 + n)).1 = .ok true ∧ Reader.Sim (R.skip S (1 + n)).2
          (Reader.run S ({ R' with rd := rd' } : Reader σ) (List.replicate n .readRowNoSink)).2 := by
      intro hok hx
      have hs : R.skip S (1 + n) =
          Reader.skip S n { R with rd := (R.rd.skip R.env S R.props.md 1).2 } := by
        unfold Reader.skip
        rw [hskip]
        generalize R.rd.skip R.env S R.props.md 1 = w at *
        obtain ⟨w1, w2⟩ := w
        simp only at hok
        subst hok
        rfl
      rw [hs]
      exact ih _ _ ⟨g1, g2, h1.trans h4, g4⟩ hx
    cases res0 with
    | ok o =>
      cases o with
      | none =>
        have := hx _ (List.mem_cons_self ..)
        simp [Except.map] at this
      | some row => exact fin h2 (fun x hxx => hx x (List.mem_cons_of_mem _ hxx))
    | error e =>
      have h0 : Except.error e = (Except.error (.exn .cannotDecompress) : Res Ret) := by
        cases e with
        | exn e =>
          have := hx _ (List.mem_cons_self ..)
          simpa [Except.map] using this
        | terminate => simp [Except.map] at hx
        | ub => simp [Except.map] at hx
        | fuel => simp [Except.map] at hx
      cases h0
      exact fin h2 (fun x hxx => hx x (List.mem_cons_of_mem _ hxx))

end Sas
