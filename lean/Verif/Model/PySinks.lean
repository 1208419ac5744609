import Verif.Model.Cell

/-!
# The sinks of the Python binding

python/pycppsas7bdat/cpp/sink.hpp. A sink is a state machine over the calls the reader makes on it
(`Event`), producing the calls made on the Python object. Cells are the C++ values; their conversion to
Python objects is `Duration.toPython` etc. Reading a cell can be undefined or end the program, hence `Res`.
Simplifications: Python methods do not raise (those that do are in PyThrowing.lean); reference counts are not modelled here (that of `None` is, in PyRefs.lean).
-/

namespace Sas

/-- A Python dictionary: keys in insertion order (python/pycppsas7bdat/cpp/sink.hpp:332, 372). -/
abbrev PyDict := List (List Byte × List Cell)

/-- `d[k] = v` (python/pycppsas7bdat/cpp/sink.hpp:332, 372). -/
def PyDict.set : PyDict → List Byte → List Cell → PyDict
  | [], k, v => [(k, v)]
  | (k', v') :: d, k, v => if k' = k then (k, v) :: d else (k', v') :: PyDict.set d k v

/-- What happens to the Python object (python/pycppsas7bdat/cpp/sink.hpp:45, 48, 53, 117, 374, 412). -/
inductive PyCall
  | setProperties (p : Properties)
  | pushRow (i : Nat) (l : List Cell)
  | pushRows (istart iend : Nat) (d : PyDict)
  | setData (d : PyDict)
  /-- `PyObject_DelAttrString` of the attribute `_cpp` that is not there any more: the interpreter's error
  indicator is set, and the call of the reader's method ends in a Python exception. -/
  | attributeError
deriving DecidableEq

/-- Append what is there: an event-driven sink run over a list of events (the calls of include/cppsas7bdat/reader.hpp:56-64). -/
def runSink {τ : Type} (step : τ → Event → Res (τ × List PyCall)) : τ → List Event → Res (τ × List PyCall)
  | st, [] => .ok (st, [])
  | st, ev :: evs => do
    let (st, out) ← step st ev
    let (st, out') ← runSink step st evs
    return (st, out ++ out')

/-- `del_cpp_attr` (python/pycppsas7bdat/cpp/sink.hpp:48): `attr` says whether the attribute exists. -/
def delCppAttr (attr : Bool) : List PyCall := if attr then [] else [.attributeError]

/-- `Sink` (python/pycppsas7bdat/cpp/sink.hpp:80-127). -/
structure PyRowSink where
  attr : Bool := false
  columns : List Column := []

/-- The loop of `Sink::push_row` (python/pycppsas7bdat/cpp/sink.hpp:94-115): a column of unknown type
appends nothing. -/
def rowList : List Column → List Byte → Res (List Cell)
  | [], _ => .ok []
  | c :: cs, mem => do
    match ← c.value mem with
    | some v => return v :: (← rowList cs mem)
    | none => rowList cs mem

/-- `Sink::set_properties`, `push_row`, `end_of_data` (python/pycppsas7bdat/cpp/sink.hpp:83-123). -/
def PyRowSink.step (st : PyRowSink) : Event → Res (PyRowSink × List PyCall)
  | .setProperties p => .ok ({ attr := true, columns := p.columns }, [.setProperties p])
  | .pushRow i r => do return (st, [.pushRow i (← rowList st.columns r.mem)])
  | .endOfData => .ok ({ st with attr := false }, delCppAttr st.attr)

/-- `SinkChunk` (python/pycppsas7bdat/cpp/sink.hpp:129-392). `cols` are the six groups of columns and
`vals` the vectors of their values. -/
structure PyChunk where
  size : Nat
  idata : Nat := 0
  istart : Nat := 0
  iend : Nat := 0
  attr : Bool := false
  cols : List GroupedColumn := []
  vals : List (List Cell) := []

/-- `push_values` for the six groups (python/pycppsas7bdat/cpp/sink.hpp:220-228, 232-264). -/
def pushValues : List GroupedColumn → List (List Cell) → List Byte → Res (List (List Cell))
  | [], _, _ => .ok []
  | _ :: _, [], _ => .error .ub
  | g :: gs, v :: vs, mem => do
    let x ← g.2 g.1 mem
    return (v ++ [x]) :: (← pushValues gs vs mem)

/-- `set_dict_values` for the six groups (python/pycppsas7bdat/cpp/sink.hpp:326-368). -/
def dictOf : List GroupedColumn → List (List Cell) → PyDict → PyDict
  | [], _, d => d
  | _ :: _, [], d => d
  | g :: gs, v :: vs, d => dictOf gs vs (d.set g.1.name v)

/-- `clear_values` (python/pycppsas7bdat/cpp/sink.hpp:379-388). -/
def PyChunk.clear (st : PyChunk) : PyChunk :=
  { st with idata := 0, istart := st.iend + 1, vals := st.vals.map fun _ => [] }

/-- `SinkChunk::flush` (python/pycppsas7bdat/cpp/sink.hpp:370-377). -/
def PyChunk.flush (st : PyChunk) : PyChunk × List PyCall :=
  if st.idata ≠ 0 then (st.clear, [.pushRows st.istart st.iend (dictOf st.cols st.vals [])]) else (st, [])

/-- `set_properties` (python/pycppsas7bdat/cpp/sink.hpp:207-218). -/
def PyChunk.setProperties (st : PyChunk) (p : Properties) : PyChunk :=
  let cols := (Columns.ofColumns p.columns).grouped
  { st with attr := true, cols := cols, vals := cols.map fun _ => [] }

/-- `push_row` up to the test at its end (python/pycppsas7bdat/cpp/sink.hpp:230-269). -/
def PyChunk.store (st : PyChunk) (i : Nat) (r : Row) : Res PyChunk := do
  let vals ← pushValues st.cols st.vals r.mem
  return { st with vals := vals, iend := i, idata := st.idata + 1 }

/-- The calls on a `SinkChunk` (python/pycppsas7bdat/cpp/sink.hpp:207-218, 230-275). -/
def PyChunk.step (st : PyChunk) : Event → Res (PyChunk × List PyCall)
  | .setProperties p => .ok (st.setProperties p, [.setProperties p])
  | .pushRow i r => do
    let st ← st.store i r
    return if st.idata = st.size then st.flush else (st, [])
  | .endOfData =>
    let (st', out) := { st with attr := false }.flush
    .ok (st', delCppAttr st.attr ++ out)

/-- The calls on a `SinkData` (python/pycppsas7bdat/cpp/sink.hpp:394-416): its `flush` does nothing. -/
def PyChunk.dataStep (st : PyChunk) : Event → Res (PyChunk × List PyCall)
  | .setProperties p => .ok ({ st with size := p.md.rowCount }.setProperties p, [.setProperties p])
  | .pushRow i r => do return (← st.store i r, [])
  | .endOfData =>
    if st.idata ≠ 0 then
      .ok ({ st with attr := false }.clear, delCppAttr st.attr ++ [.setData (dictOf st.cols st.vals [])])
    else .ok ({ st with attr := false }, delCppAttr st.attr)

/-- The Python calls a row sink makes for a list of events (python/pycppsas7bdat/cpp/sink.hpp:80-127). -/
def pyRowCalls (evs : List Event) : Res (List PyCall) := do
  let (_, out) ← runSink PyRowSink.step {} evs
  return out

/-- The Python calls a chunk sink makes for a list of events (python/pycppsas7bdat/cpp/sink.hpp:129-392). -/
def pyChunkCalls (size : Nat) (evs : List Event) : Res (List PyCall) := do
  let (_, out) ← runSink PyChunk.step { size := size } evs
  return out

/-- The Python calls a whole-data sink makes for a list of events (python/pycppsas7bdat/cpp/sink.hpp:394-416). -/
def pyDataCalls (evs : List Event) : Res (List PyCall) := do
  let (_, out) ← runSink PyChunk.dataStep { size := 0 } evs
  return out

end Sas
