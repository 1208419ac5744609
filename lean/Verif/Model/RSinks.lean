import Verif.Model.Cell

/-!
# The sinks of the R binding

R/CPPSAS7BDAT/src/sink.hpp, sink_by_columns.hpp, sink_chunk.hpp, sink_data.hpp. R vectors are objects that
several owners share; Rcpp writes into them in place and does not check bounds. The model keeps them on a
heap: a vector is a number, its elements are looked up there, and a write outside is undefined behaviour.
The arguments of a call on the R object are recorded as they are at the time of the call.
Simplifications: the R functions do not fail (those that do are in RThrowing.lean); the encoding marks of R strings and `std::bad_alloc` are not
modelled.
-/

namespace Sas

/-- An element of an R vector or list. `fresh` is what `Rcpp::Vector(n)` fills it with (0 or "")
(R/CPPSAS7BDAT/src/sink.hpp:26-60, R/CPPSAS7BDAT/src/sink_by_columns.hpp:20-25, 45). -/
inductive RVal
  | fresh
  | na
  | str (s : List Byte)
  | int (i : Int)
  | num (x : Num)
deriving DecidableEq

/-- An R string made of a `std::string`: Rcpp passes on `c_str()`, so it ends at the first zero byte
(R/CPPSAS7BDAT/src/sink.hpp:27, 45, 52, 59; R/CPPSAS7BDAT/src/sink_by_columns.hpp:70, 88, 96, 104). -/
def cString (s : List Byte) : List Byte := s.takeWhile (· ≠ 0)

/-- `push_value` (R/CPPSAS7BDAT/src/sink_by_columns.hpp:68-105) for the six types. The texts of dates and times
have no zero byte. -/
def Cell.toR : Cell → Res RVal
  | .str s => .ok (.str (cString s))
  | .int i => .ok (.int i)
  | .num x => .ok (.num x)
  | .datetime .notADateTime => .ok .na
  | .datetime t => do return .str (← t.toText)
  | .date .notADate => .ok .na
  | .date d => do return .str (← d.toText)
  | .time .notADateTime => .ok .na
  | .time t => do return .str (← t.toText)

/-- What happens to the R object
(R/CPPSAS7BDAT/src/sink_base.hpp:25, R/CPPSAS7BDAT/src/sink.hpp:88, R/CPPSAS7BDAT/src/sink_chunk.hpp:42, R/CPPSAS7BDAT/src/sink_data.hpp:26). -/
inductive RCall
  | setProperties (p : Properties)
  /-- `NULL` is `none`. -/
  | pushRow (i : Nat) (row : List (Option RVal))
  | pushRows (index : List RVal) (rows : List (List Byte × List RVal))
  | setData (index : List RVal) (rows : List (List Byte × List RVal))
deriving DecidableEq

/-- A sink run over the calls the reader makes (the calls of include/cppsas7bdat/reader.hpp:56-64). -/
def runR {τ : Type} (step : τ → Event → Res (τ × List RCall)) : τ → List Event → Res (τ × List RCall)
  | st, [] => .ok (st, [])
  | st, ev :: evs => do
    let (st, out) ← step st ev
    let (st, out') ← runR step st evs
    return (st, out ++ out')

/-! ## Row by row -/

/-- `process_value` (R/CPPSAS7BDAT/src/sink.hpp:26-60). -/
def Cell.toRRow : Cell → Res (Option RVal)
  | .num x => .ok (some (if x.isNan then .na else .num x))
  | .datetime .notADateTime => .ok none
  | .date .notADate => .ok none
  | .time .notADateTime => .ok none
  | c => do return some (← c.toR)

/-- `Sink` (R/CPPSAS7BDAT/src/sink.hpp:15-108): `row` is the R list, which is made once. -/
structure RRowSink where
  columns : List Column := []
  row : List (Option RVal) := []

/-- The loop of `push_row` (R/CPPSAS7BDAT/src/sink.hpp:64-87) over columns and the elements of the list: a
column of unknown type leaves its element alone. -/
def setRow : List Column → List (Option RVal) → List Byte → Res (List (Option RVal))
  | [], row, _ => .ok row
  | _ :: _, [], _ => .error .ub
  | c :: cs, x :: row, mem => do
    let x ← match ← c.value mem with
      | some v => v.toRRow
      | none => pure x
    return x :: (← setRow cs row mem)

/-- The calls on a `Sink` (R/CPPSAS7BDAT/src/sink.hpp:19-24, 62-102). -/
def RRowSink.step (st : RRowSink) : Event → Res (RRowSink × List RCall)
  | .setProperties p => .ok ({ columns := p.columns, row := p.columns.map fun _ => none }, [.setProperties p])
  | .pushRow i r => do
    let row ← setRow st.columns st.row r.mem
    return ({ st with row := row }, [.pushRow i row])
  | .endOfData => .ok (st, [])

/-- The R calls a row sink makes, and its state afterwards (R/CPPSAS7BDAT/src/sink.hpp:15-108). -/
def rRowCalls (evs : List Event) : Res (RRowSink × List RCall) := runR RRowSink.step {} evs

/-! ## Column by column -/

/-- The R vectors (R/CPPSAS7BDAT/src/sink_by_columns.hpp:20-34, 207). -/
abbrev RHeap := List (List RVal)

/-- The elements of a vector (R/CPPSAS7BDAT/src/sink_by_columns.hpp:20-34, 207). -/
def RHeap.get (h : RHeap) (v : Nat) : List RVal := h.getD v []

/-- `v[i] = x` (R/CPPSAS7BDAT/src/sink_by_columns.hpp:70, 75, 80, 86-88, 94-96, 102-104, 120). -/
def RHeap.write (h : RHeap) (v i : Nat) (x : RVal) : Res RHeap :=
  if i < (h.get v).length then .ok (h.set v ((h.get v).set i x)) else .error .ub

/-- `SinkByColumns` and its derived classes (R/CPPSAS7BDAT/src/sink_by_columns.hpp:16-208,
R/CPPSAS7BDAT/src/sink_chunk.hpp:16-49). `cols` are the columns of the six groups and `vecs` their vectors; `list` are the
elements of the R list `rows`, which is made once. -/
structure RCols where
  size : Nat
  idata : Nat := 0
  ilast : Nat := 0
  istart : Nat := 0
  iend : Nat := 0
  heap : RHeap := []
  index : Nat := 0
  cols : List GroupedColumn := []
  vecs : List Nat := []
  list : List Nat := []

/-- `prepare_values` (R/CPPSAS7BDAT/src/sink_by_columns.hpp:39-57): new vectors of `n` elements. -/
def RCols.prepare (st : RCols) (n : Nat) : RCols :=
  { st with
    heap := st.heap ++ List.replicate (st.cols.length + 1) (List.replicate n .fresh)
    index := st.heap.length
    vecs := List.range' (st.heap.length + 1) st.cols.length }

/-- `set_properties` (R/CPPSAS7BDAT/src/sink_by_columns.hpp:59-66, 188-203). The elements of `rows` are
`NULL` until the first `set_values`; here no elements. -/
def RCols.setProperties (st : RCols) (p : Properties) : RCols :=
  let st := { st with ilast := p.md.rowCount, cols := (Columns.ofColumns p.columns).grouped }
  st.prepare (if st.size ≠ 0 then min st.size st.ilast else st.ilast)

/-- `push_values` for the six groups (R/CPPSAS7BDAT/src/sink_by_columns.hpp:107-151). -/
def writeAll (idata : Nat) (mem : List Byte) : List GroupedColumn → List Nat → RHeap → Res RHeap
  | [], _, h => .ok h
  | _ :: _, [], _ => .error .ub
  | g :: gs, v :: vs, h => do
    let x ← (← g.2 g.1 mem).toR
    writeAll idata mem gs vs (← h.write v idata x)

/-- An `int` made of a `size_t` (R/CPPSAS7BDAT/src/sink_by_columns.hpp:120). -/
def asInt (n : Nat) : Int := toSigned 32 (n % 2 ^ 32)

/-- `SinkByColumns::push_row` (R/CPPSAS7BDAT/src/sink_by_columns.hpp:117-154). -/
def RCols.store (st : RCols) (i : Nat) (r : Row) : Res RCols := do
  let h ← st.heap.write st.index st.idata (.int (asInt i))
  let h ← writeAll st.idata r.mem st.cols st.vecs h
  return { st with heap := h, idata := st.idata + 1 }

/-- A vector of another length is replaced by a copy of its first elements
(R/CPPSAS7BDAT/src/sink_by_columns.hpp:157-163, 170-174, 178-179). -/
def fit (n v : Nat) (h : RHeap) : RHeap × Nat :=
  if (h.get v).length ≠ n then (h ++ [(h.get v).take n], h.length) else (h, v)

/-- The vectors of `set_values`, in order (R/CPPSAS7BDAT/src/sink_by_columns.hpp:168-176). -/
def fitAll (n : Nat) : List Nat → RHeap → RHeap × List Nat
  | [], h => (h, [])
  | v :: vs, h =>
    let (h, v) := fit n v h
    let (h, vs) := fitAll n vs h
    (h, v :: vs)

/-- `set_values` (R/CPPSAS7BDAT/src/sink_by_columns.hpp:165-186): the index vector itself is replaced, the
column vectors only in the list. -/
def RCols.setValues (st : RCols) : RCols :=
  let (h, index) := fit st.idata st.index st.heap
  let (h, list) := fitAll st.idata st.vecs h
  { st with heap := h, index := index, list := list }

/-- The list `rows` as it is now: names and elements (R/CPPSAS7BDAT/src/sink_by_columns.hpp:207). -/
def RCols.rows (st : RCols) : List (List Byte × List RVal) :=
  (st.cols.zip st.list).map fun (g, v) => (cString g.1.name, st.heap.get v)

/-- `SinkChunk::flush` (R/CPPSAS7BDAT/src/sink_chunk.hpp:38-45). -/
def RCols.flush (st : RCols) : RCols × List RCall :=
  if st.istart > st.iend ∨ st.idata = 0 then (st, [])
  else
    let st := st.setValues
    ({ st with idata := 0, istart := st.iend + 1 }, [.pushRows (st.heap.get st.index) st.rows])

/-- The calls on a `SinkChunk` (R/CPPSAS7BDAT/src/sink_chunk.hpp:22-45). -/
def RCols.step (st : RCols) : Event → Res (RCols × List RCall)
  | .setProperties p => .ok (st.setProperties p, [.setProperties p])
  | .pushRow i r => do
    let st ← st.store i r
    let st := { st with iend := i }
    if st.idata = st.size then
      let (st, out) := st.flush
      if st.istart + st.size > st.ilast ∧ st.istart < st.ilast then
        return (st.prepare (st.ilast - st.istart), out)
      else return (st, out)
    else return (st, [])
  | .endOfData => .ok st.flush

/-- The calls on a `SinkData` (R/CPPSAS7BDAT/src/sink_data.hpp:16-31): nothing is reset. -/
def RCols.dataStep (st : RCols) : Event → Res (RCols × List RCall)
  | .setProperties p => .ok (st.setProperties p, [.setProperties p])
  | .pushRow i r => do return (← st.store i r, [])
  | .endOfData =>
    if st.idata = 0 then .ok (st, [])
    else
      let st := st.setValues
      .ok (st, [.setData (st.heap.get st.index) st.rows])

/-- The R calls a chunk sink makes, and its state afterwards (R/CPPSAS7BDAT/src/sink_chunk.hpp:16-49). -/
def rChunkCalls (size : Nat) (evs : List Event) : Res (RCols × List RCall) :=
  runR RCols.step { size := size } evs

/-- The R calls a whole-data sink makes, and its state afterwards (R/CPPSAS7BDAT/src/sink_data.hpp:16-31). -/
def rDataCalls (evs : List Event) : Res (RCols × List RCall) := runR RCols.dataStep { size := 0 } evs

end Sas
