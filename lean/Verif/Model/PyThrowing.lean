import Verif.Model.PyFront
import Verif.Model.Throwing

/-!
# Python sinks whose methods raise

The sinks of python/pycppsas7bdat/cpp/sink.hpp for any Python object, as sinks that throw. `call_method` throws
`error_already_set` when the Python method raises, and so does the conversion of a value that has no Python object.
What the C++ sink holds after that depends on what it had done before.
-/

namespace Sas

/-- A Python object: what it does in a call. It may raise (`false`), and may have changed by then
(the object behind `self`, python/pycppsas7bdat/cpp/sink.hpp:53, 77, 117, 374, 412). -/
structure PyCode (κ : Type) where
  call : κ → PyCall → Bool × κ

/-- A sink: its C++ side, the Python object, and the calls that object has taken, which are those that have returned
(python/pycppsas7bdat/cpp/sink.hpp:30-78). -/
structure PyLive (κ : Type) where
  cpp : CppSink
  obj : κ
  taken : List PyCall := []

/-- The arguments of a call as Python objects: the list of a row (python/pycppsas7bdat/cpp/sink.hpp:92-115), the
dictionary of a chunk or of the data, whose keys are `str` and have to be UTF-8 (python/pycppsas7bdat/cpp/sink.hpp:326-368).
Simplification: the list of a row is made cell by cell while the row is read; here it is read first. -/
def PyCall.args : PyCall → PyM Unit
  | .setProperties _ => .ok ()
  | .pushRow _ l => do let _ ← cellsToPy l
  | .pushRows _ _ d => if d.all (fun e => utf8Valid e.1) then do let _ ← dictToPy d else .error .raised
  | .setData d => if d.all (fun e => utf8Valid e.1) then do let _ ← dictToPy d else .error .raised
  | .attributeError => .ok ()

variable {κ : Type}

/-- `call_method` (python/pycppsas7bdat/cpp/sink.hpp:53-55, 117, 374, 412) with its arguments. -/
def PyLive.python (P : PyCode κ) (s : PyLive κ) (c : PyCall) : PyM Unit × PyLive κ :=
  match c.args with
  | .error e => (.error e, s)
  | .ok _ =>
    match P.call s.obj c with
    | (true, k) => (.ok (), { s with obj := k, taken := s.taken ++ [c] })
    | (false, k) => (.error .raised, { s with obj := k })

/-- The calls on a `Sink` (python/pycppsas7bdat/cpp/sink.hpp:83-123): the columns are set after the Python method has
returned. -/
def PyLive.rowCall (P : PyCode κ) (s : PyLive κ) (st : PyRowSink) : Event → PyM Unit × PyLive κ
  | .setProperties p =>
    match ({ s with cpp := .row { st with attr := true } } : PyLive κ).python P (.setProperties p) with
    | (.ok _, s) => (.ok (), { s with cpp := .row { attr := true, columns := p.columns } })
    | (.error e, s) => (.error e, s)
  | .pushRow i r =>
    match rowList st.columns r.mem with
    | .error e => (.error (.cpp e), s)
    | .ok l => s.python P (.pushRow i l)
  | .endOfData => (if st.attr then .ok () else .error .raised, { s with cpp := .row { st with attr := false } })

/-- `SinkChunk::flush` (python/pycppsas7bdat/cpp/sink.hpp:370-377): the values are cleared after the Python method has
returned. -/
def PyLive.flush (P : PyCode κ) (s : PyLive κ) (st : PyChunk) : PyM Unit × PyLive κ :=
  if st.idata ≠ 0 then
    match s.python P (.pushRows st.istart st.iend (dictOf st.cols st.vals [])) with
    | (.ok _, s) => (.ok (), { s with cpp := .chunk st.clear })
    | (.error e, s) => (.error e, { s with cpp := .chunk st })
  else (.ok (), { s with cpp := .chunk st })

/-- The calls on a `SinkChunk` (python/pycppsas7bdat/cpp/sink.hpp:207-218, 230-275). Simplification: at a second
`end_of_data` the error of `del_cpp_attr` is set and the code goes on; here it stops there. -/
def PyLive.chunkCall (P : PyCode κ) (s : PyLive κ) (st : PyChunk) : Event → PyM Unit × PyLive κ
  | .setProperties p =>
    match ({ s with cpp := .chunk { st with attr := true } } : PyLive κ).python P (.setProperties p) with
    | (.ok _, s) => (.ok (), { s with cpp := .chunk (st.setProperties p) })
    | (.error e, s) => (.error e, s)
  | .pushRow i r =>
    match st.store i r with
    | .error e => (.error (.cpp e), s)
    | .ok st => if st.idata = st.size then s.flush P st else (.ok (), { s with cpp := .chunk st })
  | .endOfData => if st.attr then s.flush P { st with attr := false } else (.error .raised, s)

/-- The calls on a `SinkData` (python/pycppsas7bdat/cpp/sink.hpp:394-416), with the same simplification. -/
def PyLive.dataCall (P : PyCode κ) (s : PyLive κ) (st : PyChunk) : Event → PyM Unit × PyLive κ
  | .setProperties p =>
    match ({ s with cpp := .data { st with size := p.md.rowCount, attr := true } } : PyLive κ).python P (.setProperties p) with
    | (.ok _, s) => (.ok (), { s with cpp := .data ({ st with size := p.md.rowCount }.setProperties p) })
    | (.error e, s) => (.error e, s)
  | .pushRow i r =>
    match st.store i r with
    | .error e => (.error (.cpp e), s)
    | .ok st => (.ok (), { s with cpp := .data st })
  | .endOfData =>
    if st.attr then
      if st.idata ≠ 0 then
        match s.python P (.setData (dictOf st.cols st.vals [])) with
        | (.ok _, s) => (.ok (), { s with cpp := .data { st with attr := false }.clear })
        | (.error e, s) => (.error e, { s with cpp := .data { st with attr := false } })
      else (.ok (), { s with cpp := .data { st with attr := false } })
    else (.error .raised, s)

/-- A Python sink as a sink that throws. Simplification: a cell that cannot be read ends the program (C53); here it
throws (python/pycppsas7bdat/cpp/sink.hpp:80-416). -/
def pySinkCode (P : PyCode κ) : SinkCode (PyLive κ) PyStop where
  call s e :=
    match s.cpp with
    | .row st => s.rowCall P st e
    | .chunk st => s.chunkCall P st e
    | .data st => s.dataCall P st e

end Sas
