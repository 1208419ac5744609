import Verif.Model.PySinks
import Verif.Model.PyTime
import Verif.Model.Cli

/-!
# The Python package: arguments, sink classes, `read_sas`

python/pycppsas7bdat/cpp/reader.cpp, sink.py and read_sas.py. A Python program is modelled up to its first
exception. Simplifications: Boost.Python's conversions and pandas are modelled after their documentation; a
data frame holds the Python objects it is given (pandas may keep them in typed arrays); chunk sizes are
numbers of type `int`; the order in which C++ evaluates the arguments of the reader's constructor is fixed
(it only decides which of several errors is raised); reserving memory for the rows never fails.
-/

namespace Sas

/-- How a call can fail to return: a Python exception, or what happens in C++ (a C++ exception becomes a
Python exception when it leaves the extension module)
(no definition of the library: the ends of the calls of python/pycppsas7bdat/cpp/reader.cpp:20-104). -/
inductive PyStop
  | raised
  | cpp (s : Stop)
deriving DecidableEq

/-- A computation in Python (no definition of the library: the ends of the calls of python/pycppsas7bdat/cpp/reader.cpp:20-104). -/
abbrev PyM := Except PyStop

/-- A C++ call in Python (no definition of the library: the ends of the calls of python/pycppsas7bdat/cpp/reader.cpp:20-104). -/
def PyM.ofRes {α : Type} : Res α → PyM α
  | .ok a => .ok a
  | .error e => .error (.cpp e)

/-- A conversion that may raise
(python/pycppsas7bdat/cpp/import_datetime.cpp:34-44, 88-109, 154-161 called from python/pycppsas7bdat/cpp/sink.hpp:97-112, 312). -/
def PyM.ofResult {α : Type} : PyResult α → PyM α
  | .ok a => .ok a
  | .raised => .error .raised

/-! ## Arguments -/

/-- An element of the lists `include` and `exclude`. `extract<std::string>` takes a `str`, as UTF-8, and
`bytes` (python/pycppsas7bdat/cpp/reader.cpp:37-43). -/
inductive PyItem
  | str (utf8 : List Byte)
  | bytes (b : List Byte)
  | other
deriving DecidableEq

/-- The arguments `include` and `exclude` (python/pycppsas7bdat/cpp/reader.cpp:25-31, 94-96). -/
inductive PyArg
  | none
  | list (items : List PyItem)
  | other
deriving DecidableEq

/-- The loop of `list_to_set` (python/pycppsas7bdat/cpp/reader.cpp:36-44). -/
def itemsToSet : List PyItem → PyM (List (List Byte))
  | [] => .ok []
  | .str s :: l => do return s :: (← itemsToSet l)
  | .bytes s :: l => do return s :: (← itemsToSet l)
  | .other :: _ => .error .raised

/-- `list_to_set` (python/pycppsas7bdat/cpp/reader.cpp:27-45). The size of the list is kept in an `int`. -/
def listToSet : PyArg → PyM (List (List Byte))
  | .none => .ok []
  | .other => .error .raised
  | .list items => itemsToSet (items.take (toSigned 32 (items.length % 2 ^ 32)).toNat)

/-- `filter` (python/pycppsas7bdat/cpp/reader.cpp:25-51). -/
def pyFilter (incl excl : PyArg) : PyM Filter := do
  let i ← listToSet incl
  let e ← listToSet excl
  return Filter.includeExclude i e

/-- What `build` looks at in the sink object: which attributes it has; `chunkSize` is the value of the
attribute `chunk_size`, `some none` if that is not a number (python/pycppsas7bdat/cpp/reader.cpp:58-70). -/
structure PyAttrs where
  chunkSize : Option (Option Int) := none
  setProperties : Bool := false
  pushRows : Bool := false
  setData : Bool := false
  pushRow : Bool := false

/-- The C++ sinks (python/pycppsas7bdat/cpp/sink.hpp:80, 129, 394). -/
inductive PyKind
  | row
  | chunk (size : Nat)
  | data
deriving DecidableEq

/-- The choice in `build` (python/pycppsas7bdat/cpp/reader.cpp:58-75). `extract<size_t>` raises for what
is not a number and for a number that is not a `size_t`. -/
def pyKind (a : PyAttrs) : PyM PyKind :=
  match a.chunkSize, a.setProperties && a.pushRows with
  | some x, true =>
    match x with
    | some n => if 0 ≤ n ∧ n < 2 ^ 64 then .ok (.chunk n.toNat) else .error .raised
    | none => .error .raised
  | _, _ =>
    if a.setProperties && a.setData then .ok .data
    else if a.setProperties && a.pushRow then .ok .row
    else .error .raised

/-! ## Values -/

/-- The Python objects for the values of cells
(python/pycppsas7bdat/cpp/sink.hpp:70-74, 97-112 and python/pycppsas7bdat/cpp/import_datetime.cpp:34-44, 88-109, 154-161). -/
inductive PyVal
  | bytes (s : List Byte)
  | int (i : Int)
  | float (x : Num)
  | time (t : PyTime)
deriving DecidableEq

/-- Cells as Python objects: `to_str` (python/pycppsas7bdat/cpp/sink.hpp:70-74) and the conversions of
Boost.Python, to which import_datetime.cpp adds dates and times. -/
def Cell.toPy : Cell → PyM PyVal
  | .str s => .ok (.bytes s)
  | .int i => .ok (.int i)
  | .num x => .ok (.float x)
  | .datetime t => do return .time (← PyM.ofResult (← PyM.ofRes t.toPython))
  | .date d => do return .time (← PyM.ofResult (← PyM.ofRes d.toPython))
  | .time t => do return .time (← PyM.ofResult t.toPython)

/-- A list of cells (python/pycppsas7bdat/cpp/sink.hpp:94-115, 310-315). -/
def cellsToPy : List Cell → PyM (List PyVal)
  | [] => .ok []
  | c :: cs => do return (← c.toPy) :: (← cellsToPy cs)

/-- A dictionary of Python lists (python/pycppsas7bdat/cpp/sink.hpp:326-374). -/
abbrev PyLists := List (List Byte × List PyVal)

/-- The dictionary of a chunk (python/pycppsas7bdat/cpp/sink.hpp:326-374). -/
def dictToPy : PyDict → PyM PyLists
  | [] => .ok []
  | (k, cs) :: d => do return (k, ← cellsToPy cs) :: (← dictToPy d)

/-- Is this the UTF-8 encoding of something? A `std::string` that is not cannot be converted to `str`
(`UnicodeDecodeError`) (for the names of python/pycppsas7bdat/cpp/sink.hpp:332 and python/pycppsas7bdat/cpp/pycppsas7bdat.cpp:56-58). -/
def utf8Valid (s : List Byte) : Bool := (ByteArray.mk s.toArray).validateUTF8

/-! ## pandas -/

/-- A data frame: the names of its columns, the labels of its rows, the columns. `none` is the `NaN` with
which pandas fills a column there is no data for (python/pycppsas7bdat/sink.py:33, 44, 51, 60). -/
structure PyFrame where
  names : List (List Byte)
  index : List Nat
  columns : List (List (Option PyVal))
deriving DecidableEq

/-- `pd.DataFrame.from_records(rows, columns=names)` for a list of lists: `ValueError` when a row has
another number of entries (python/pycppsas7bdat/sink.py:33). -/
def frameOfRecords (rows : List (List PyVal)) (names : List (List Byte)) : PyM PyFrame :=
  if rows.all (·.length = names.length) then
    .ok { names := names, index := List.range rows.length
          columns := (List.range names.length).map fun i => rows.map (·[i]?) }
  else .error .raised

/-- `pd.DataFrame(d, columns=names)` for a dictionary of lists: the named entries; `ValueError` when
their lengths differ (python/pycppsas7bdat/sink.py:44, 60). -/
def frameOfDict (d : PyLists) (names : List (List Byte)) : PyM PyFrame :=
  let found := names.filterMap fun k => d.lookup k
  let n := (found.map List.length).headD 0
  if found.all (·.length = n) then
    .ok { names := names, index := List.range n
          columns := names.map fun k => match d.lookup k with
            | some vs => vs.map some
            | none => List.replicate n none }
  else .error .raised

/-- Two frames with the same columns, one below the other: the labels are kept (python/pycppsas7bdat/sink.py:51). -/
def PyFrame.append (f g : PyFrame) : PyFrame :=
  { f with index := f.index ++ g.index, columns := List.zipWith (· ++ ·) f.columns g.columns }

/-- `pd.concat(frames)` for frames with the same columns: `ValueError` for an empty list (python/pycppsas7bdat/sink.py:51). -/
def concatFrames : List PyFrame → PyM PyFrame
  | [] => .error .raised
  | f :: fs => .ok (fs.foldl PyFrame.append f)

/-! ## sink.py -/

/-- `SinkByRow`, `SinkByChunk` and `SinkWholeData` (python/pycppsas7bdat/sink.py:8-66); `rows` and `frames`
are the attribute `_rows` of the first and of the second, `cached` is `_df`. -/
structure PyObj where
  kind : PyKind
  columns : Option (List (List Byte)) := none
  rows : List (List PyVal) := []
  frames : List PyFrame := []
  cached : Option PyFrame := none
deriving DecidableEq

/-- The argument `columns` of a frame: `None` before `set_properties`. No frame is made before
(`self.columns`, python/pycppsas7bdat/sink.py:11, 15, 33, 44, 60). -/
def PyObj.names (o : PyObj) : List (List Byte) := o.columns.getD []

/-- A call on the object: `set_properties` (python/pycppsas7bdat/sink.py:13-15; `col.name` is a `str`), `push_row`
(python/pycppsas7bdat/sink.py:26-27), `push_rows` (python/pycppsas7bdat/sink.py:43-45), `set_data` (python/pycppsas7bdat/sink.py:59-60), each only on the class that has it.
The objects in the arguments are made before the call. -/
def PyObj.call (o : PyObj) : PyCall → PyM PyObj
  | .setProperties p =>
    if (p.columns.map Column.name).all utf8Valid then .ok { o with columns := some (p.columns.map Column.name) }
    else .error .raised
  | .pushRow _ l => do
    let l ← cellsToPy l
    if o.kind = .row then return { o with rows := o.rows ++ [l] } else .error .raised
  | .pushRows _ _ d => do
    let d ← dictToPy d
    match o.kind with
    | .chunk _ => return { o with frames := o.frames ++ [← frameOfDict d o.names] }
    | _ => .error .raised
  | .setData d => do
    let d ← dictToPy d
    if o.kind = .data then return { o with cached := some (← frameOfDict d o.names) } else .error .raised
  | .attributeError => .error .raised

/-- Calls one after the other (the calls of python/pycppsas7bdat/cpp/sink.hpp:53, 117, 374, 412). -/
def PyObj.calls : PyObj → List PyCall → PyM PyObj
  | o, [] => .ok o
  | o, c :: cs => do (← o.call c).calls cs

/-! ## A program -/

/-- The C++ side of a sink (python/pycppsas7bdat/cpp/sink.hpp:80-127, 129-392, 394-416). -/
inductive CppSink
  | row (st : PyRowSink)
  | chunk (st : PyChunk)
  | data (st : PyChunk)

/-- The sink `build` makes (python/pycppsas7bdat/cpp/reader.cpp:58-72). -/
def CppSink.start : PyKind → CppSink
  | .row => .row {}
  | .chunk n => .chunk { size := n }
  | .data => .data { size := 0 }

/-- A call of the reader on the sink (python/pycppsas7bdat/cpp/sink.hpp:83-123, 207-275, 394-416). -/
def CppSink.step : CppSink → Event → Res (CppSink × List PyCall)
  | .row st, ev => do
    let (st, out) ← st.step ev
    return (.row st, out)
  | .chunk st, ev => do
    let (st, out) ← st.step ev
    return (.chunk st, out)
  | .data st, ev => do
    let (st, out) ← st.dataStep ev
    return (.data st, out)

/-- Does the Python object have the attribute `_cpp`? (python/pycppsas7bdat/cpp/sink.hpp:41-48). -/
def CppSink.attr : CppSink → Bool
  | .row st => st.attr
  | .chunk st => st.attr
  | .data st => st.attr

/-- A Python program with a reader and a sink of sink.py. `alive` says whether the reader still exists; the
sink object does as long as the program uses it
(a program that uses python/pycppsas7bdat/cpp/reader.cpp:92-104 and python/pycppsas7bdat/sink.py:8-66). -/
structure PySession (σ : Type) where
  reader : Reader σ
  alive : Bool := true
  cpp : CppSink
  obj : PyObj

variable {σ : Type}

/-- The calls of the reader on the sink, one after the other
(python/pycppsas7bdat/cpp/sink.hpp:83-123, 207-275, 394-416 and python/pycppsas7bdat/sink.py:13-66). -/
def PySession.events : PySession σ → List Event → PyM (PySession σ)
  | s, [] => .ok s
  | s, ev :: evs => do
    let (cpp, out) ← PyM.ofRes (s.cpp.step ev)
    let obj ← s.obj.calls out
    ({ s with cpp := cpp, obj := obj } : PySession σ).events evs

/-- `Reader(filename, sink, include, exclude)` (python/pycppsas7bdat/cpp/reader.cpp:20-84) for a sink of
sink.py that has not been used yet. The file name is passed on as a C string. -/
def pyOpen (cfg : Cfg) (fuel : Nat) (fs : FileSystem) (name : List Byte) (kind : PyKind) (incl excl : PyArg) :
    PyM (PySession IFStream) := do
  let f ← pyFilter incl excl
  let src ← PyM.ofRes (openFile fs (name.takeWhile (· ≠ 0)))
  let R ← PyM.ofRes (openReader cfg ifs fuel (some f) src)
  ({ reader := R, cpp := CppSink.start kind, obj := { kind := kind } } : PySession IFStream).events R.trace

/-- A method of the reader (python/pycppsas7bdat/cpp/reader.cpp:100-104). -/
def PySession.op (S : Source σ) (s : PySession σ) (op : Op) : PyM (PySession σ) := do
  let (r, R) := s.reader.step S op
  let s' ← ({ s with reader := R } : PySession σ).events (R.trace.drop s.reader.trace.length)
  let _ ← PyM.ofRes r
  return s'

/-- The end of the reader's life (`del reader`, or the end of a function)
(the object of python/pycppsas7bdat/cpp/reader.cpp:79-84; the destructor python/pycppsas7bdat/cpp/sink.hpp:35-38 leaves `_cpp` as it is). -/
def PySession.drop (s : PySession σ) : PySession σ := { s with alive := false }

/-- `_cpp_flush_sink` (python/pycppsas7bdat/sink.py:17-18): `flush_sink` is `end_of_data` of the C++ sink, which belongs to the
reader (python/pycppsas7bdat/cpp/sink.hpp:58-61). -/
def PySession.flush (s : PySession σ) : PyM (PySession σ) :=
  if s.cpp.attr then
    if s.alive then s.events [.endOfData] else .error (.cpp .ub)
  else .ok s

/-- `sink.df` (python/pycppsas7bdat/sink.py:29-34, 47-52, 62-66): the frame (`none` is `None`). -/
def PySession.df (s : PySession σ) : PyM (Option PyFrame × PySession σ) :=
  match s.obj.cached with
  | some f => .ok (some f, s)
  | none => do
    let s ← s.flush
    match s.obj.kind with
    | .row =>
      let f ← frameOfRecords s.obj.rows s.obj.names
      return (some f, { s with obj := { s.obj with cached := some f } })
    | .chunk _ =>
      let f ← concatFrames s.obj.frames
      return (some f, { s with obj := { s.obj with cached := some f } })
    | .data => return (s.obj.cached, s)

/-- Statements of a program (a program that uses python/pycppsas7bdat/cpp/reader.cpp:92-104 and python/pycppsas7bdat/sink.py:8-66). -/
inductive PyStmt
  | call (op : Op)
  | df
  | drop
deriving DecidableEq

/-- Statements one after the other; the frames that were looked at
(a program that uses python/pycppsas7bdat/cpp/reader.cpp:92-104 and python/pycppsas7bdat/sink.py:8-66). -/
def PySession.run (S : Source σ) : PySession σ → List PyStmt → PyM (List (Option PyFrame) × PySession σ)
  | s, [] => .ok ([], s)
  | s, .call op :: ss => do (← s.op S op).run S ss
  | s, .drop :: ss => s.drop.run S ss
  | s, .df :: ss => do
    let (f, s) ← s.df
    let (fs, s) ← s.run S ss
    return (f :: fs, s)

/-- `read_sas(filename, sink, include, exclude)` (python/pycppsas7bdat/read_sas.py:9-13): the sink, after
the reader has gone. -/
def readSas (cfg : Cfg) (fuel : Nat) (fs : FileSystem) (name : List Byte) (kind : PyKind := .data)
    (incl excl : PyArg := .none) : PyM (PySession IFStream) := do
  let s ← pyOpen cfg fuel fs name kind incl excl
  return (← s.op ifs .readAll).drop

/-- A program that opens a file and then executes these statements: the frames it looks at
(a program that uses python/pycppsas7bdat/cpp/reader.cpp:92-104 and python/pycppsas7bdat/sink.py:8-66). -/
def pyProgram (cfg : Cfg) (fuel : Nat) (fs : FileSystem) (name : List Byte) (kind : PyKind) (incl excl : PyArg)
    (ss : List PyStmt) : PyM (List (Option PyFrame)) := do
  let s ← pyOpen cfg fuel fs name kind incl excl
  return (← s.run ifs ss).1

end Sas
