import Verif.Model.RSinks
import Verif.Model.Throwing

/-!
# R sinks whose functions raise errors

The sinks of R/CPPSAS7BDAT/src for any R object, as sinks that throw. A call of an R function that raises an error is a C++
exception (Rcpp's `eval_error`), and so is the text of a date that has none. What the C++ sink holds after that
depends on what it had done before. Simplification: a call that has undefined behaviour leaves the sink as it was.
-/

namespace Sas

/-- An R object: what its functions do. A call may raise an error (`false`), and the object may have changed by then
(the functions of R/CPPSAS7BDAT/src/sink_base.hpp:30, R/CPPSAS7BDAT/src/sink.hpp:105, R/CPPSAS7BDAT/src/sink_chunk.hpp:48 and R/CPPSAS7BDAT/src/sink_data.hpp:30). -/
structure RCode (κ : Type) where
  call : κ → RCall → Bool × κ

/-- Why a call on an R sink does not return
(R/CPPSAS7BDAT/src/sink.hpp:15, R/CPPSAS7BDAT/src/sink_chunk.hpp:16, R/CPPSAS7BDAT/src/sink_data.hpp:16). -/
inductive RStop
  /-- An error the R function has raised. -/
  | raised
  | cpp (s : Stop)
deriving DecidableEq

/-- The C++ side of the three sinks (R/CPPSAS7BDAT/src/sink.hpp:15, R/CPPSAS7BDAT/src/sink_chunk.hpp:16, R/CPPSAS7BDAT/src/sink_data.hpp:16). -/
inductive RKind
  | row (st : RRowSink)
  | chunk (st : RCols)
  | data (st : RCols)

/-- A sink: its C++ side, the R object, and the calls the object has taken, which are those that have returned
(R/CPPSAS7BDAT/src/sink.hpp:15, R/CPPSAS7BDAT/src/sink_chunk.hpp:16, R/CPPSAS7BDAT/src/sink_data.hpp:16). -/
structure RLive (κ : Type) where
  cpp : RKind
  obj : κ
  taken : List RCall := []

variable {κ : Type}

/-- A call of an R function (`f_set_properties`, R/CPPSAS7BDAT/src/sink_base.hpp:25; `f_push_row`, R/CPPSAS7BDAT/src/sink.hpp:88; `f_push_rows`,
R/CPPSAS7BDAT/src/sink_chunk.hpp:42; `f_set_data`, R/CPPSAS7BDAT/src/sink_data.hpp:26). -/
def RLive.r (P : RCode κ) (s : RLive κ) (c : RCall) : Except RStop Unit × RLive κ :=
  match P.call s.obj c with
  | (true, k) => (.ok (), { s with obj := k, taken := s.taken ++ [c] })
  | (false, k) => (.error .raised, { s with obj := k })

/-- The loop of `push_row` (R/CPPSAS7BDAT/src/sink.hpp:64-85), as `setRow`: the elements before the one that cannot be set
have been set. -/
def setRowT : List Column → List (Option RVal) → List Byte → Res Unit × List (Option RVal)
  | [], row, _ => (.ok (), row)
  | _ :: _, [], _ => (.error .ub, [])
  | c :: cs, x :: row, mem =>
    match (do match ← c.value mem with | some v => v.toRRow | none => pure x : Res (Option RVal)) with
    | .error e => (.error e, x :: row)
    | .ok x =>
      let (res, row) := setRowT cs row mem
      (res, x :: row)

/-- The calls on a `Sink` (R/CPPSAS7BDAT/src/sink.hpp:19-24, 62-89): the list is made after the R function has returned. -/
def RLive.rowCall (P : RCode κ) (s : RLive κ) (st : RRowSink) : Event → Except RStop Unit × RLive κ
  | .setProperties p =>
    match s.r P (.setProperties p) with
    | (.ok _, s) => (.ok (), { s with cpp := .row { columns := p.columns, row := p.columns.map fun _ => none } })
    | (.error e, s) => (.error e, s)
  | .pushRow i r =>
    match setRowT st.columns st.row r.mem with
    | (.error e, row) => (.error (.cpp e), { s with cpp := .row { st with row := row } })
    | (.ok _, row) => ({ s with cpp := .row { st with row := row } } : RLive κ).r P (.pushRow i row)
  | .endOfData => (.ok (), s)

/-- `push_values` for the six groups (R/CPPSAS7BDAT/src/sink_by_columns.hpp:107-151), as `writeAll`: the values before the one
that has no text have been written. -/
def writeAllT (idata : Nat) (mem : List Byte) : List GroupedColumn → List Nat → RHeap → Res Unit × RHeap
  | [], _, h => (.ok (), h)
  | _ :: _, [], h => (.error .ub, h)
  | g :: gs, v :: vs, h =>
    match (do h.write v idata (← (← g.2 g.1 mem).toR) : Res RHeap) with
    | .error e => (.error e, h)
    | .ok h => writeAllT idata mem gs vs h

/-- `SinkByColumns::push_row` (R/CPPSAS7BDAT/src/sink_by_columns.hpp:117-154): `idata` counts the rows that were written
completely. -/
def RCols.storeT (st : RCols) (i : Nat) (r : Row) : Res Unit × RCols :=
  match st.heap.write st.index st.idata (.int (asInt i)) with
  | .error e => (.error e, st)
  | .ok h =>
    match writeAllT st.idata r.mem st.cols st.vecs h with
    | (.error e, h) => (.error e, { st with heap := h })
    | (.ok _, h) => (.ok (), { st with heap := h, idata := st.idata + 1 })

/-- `SinkChunk::flush` (R/CPPSAS7BDAT/src/sink_chunk.hpp:38-45): the chunk is begun anew after the R function has returned.
The result is also the state of the C++ side. -/
def RLive.flush (P : RCode κ) (s : RLive κ) (st : RCols) : Except RStop Unit × RLive κ × RCols :=
  if st.istart > st.iend ∨ st.idata = 0 then (.ok (), s, st)
  else
    let st := st.setValues
    match s.r P (.pushRows (st.heap.get st.index) st.rows) with
    | (.ok _, s) => (.ok (), s, { st with idata := 0, istart := st.iend + 1 })
    | (.error e, s) => (.error e, s, st)

/-- The calls on a `SinkChunk` (R/CPPSAS7BDAT/src/sink_chunk.hpp:22-45, R/CPPSAS7BDAT/src/sink_by_columns.hpp:59-66). -/
def RLive.chunkCall (P : RCode κ) (s : RLive κ) (st : RCols) : Event → Except RStop Unit × RLive κ
  | .setProperties p =>
    match s.r P (.setProperties p) with
    | (.ok _, s) => (.ok (), { s with cpp := .chunk (st.setProperties p) })
    | (.error e, s) => (.error e, { s with cpp := .chunk { st with ilast := p.md.rowCount } })
  | .pushRow i r =>
    match st.storeT i r with
    | (.error e, st) => (.error (.cpp e), { s with cpp := .chunk st })
    | (.ok _, st) =>
      let st := { st with iend := i }
      if st.idata = st.size then
        match s.flush P st with
        | (.error e, s, st) => (.error e, { s with cpp := .chunk st })
        | (.ok _, s, st) =>
          if st.istart + st.size > st.ilast ∧ st.istart < st.ilast then
            (.ok (), { s with cpp := .chunk (st.prepare (st.ilast - st.istart)) })
          else (.ok (), { s with cpp := .chunk st })
      else (.ok (), { s with cpp := .chunk st })
  | .endOfData =>
    let (res, s, st) := s.flush P st
    (res, { s with cpp := .chunk st })

/-- The calls on a `SinkData` (R/CPPSAS7BDAT/src/sink_data.hpp:16-31, R/CPPSAS7BDAT/src/sink_by_columns.hpp:59-66). -/
def RLive.dataCall (P : RCode κ) (s : RLive κ) (st : RCols) : Event → Except RStop Unit × RLive κ
  | .setProperties p =>
    match s.r P (.setProperties p) with
    | (.ok _, s) => (.ok (), { s with cpp := .data (st.setProperties p) })
    | (.error e, s) => (.error e, { s with cpp := .data { st with ilast := p.md.rowCount } })
  | .pushRow i r =>
    match st.storeT i r with
    | (.error e, st) => (.error (.cpp e), { s with cpp := .data st })
    | (.ok _, st) => (.ok (), { s with cpp := .data st })
  | .endOfData =>
    if st.idata = 0 then (.ok (), s)
    else
      let st := st.setValues
      ({ s with cpp := .data st } : RLive κ).r P (.setData (st.heap.get st.index) st.rows)

/-- An R sink as a sink that throws
(R/CPPSAS7BDAT/src/sink.hpp:15-108, R/CPPSAS7BDAT/src/sink_chunk.hpp:16-49, R/CPPSAS7BDAT/src/sink_data.hpp:16-31). -/
def rSinkCode (P : RCode κ) : SinkCode (RLive κ) RStop where
  call s e :=
    match s.cpp with
    | .row st => s.rowCall P st e
    | .chunk st => s.chunkCall P st e
    | .data st => s.dataCall P st e

end Sas
