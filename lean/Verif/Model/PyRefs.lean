import Verif.Model.PyFront

/-!
# The reference count of Python's `None`

The conversions of import_datetime.cpp return `Py_None` without a new reference (lines 37, 91, 157), while
Boost.Python gives up the reference it takes to have received. Before version 3.12 of Python the count of
`None` is an ordinary one, and the interpreter aborts when it drops to zero (`none_dealloc`); since then
`None` is immortal and its count does not change.

The sink object is one of the program's own: it has the methods the reader asks for, and either keeps the
lists it is given or forgets them. (Frames of pandas hold references of their own, which they release
themselves: they do not change the balance.) All other objects are new when they are returned by a conversion,
so that their references come out even; they are not counted.
-/

namespace Sas

/-- The interpreter: the references to `None`
(no definition of the library: what python/pycppsas7bdat/cpp/import_datetime.cpp:37, 91, 157 acts on). -/
structure PyHeap where
  immortal : Bool
  none : Nat
deriving DecidableEq, Repr

/-- `Py_INCREF` (called by Boost.Python for the lists of python/pycppsas7bdat/cpp/sink.hpp:92-117, 310-315). -/
def PyHeap.incref (h : PyHeap) (v : PyVal) : PyHeap :=
  if v = .time .none ∧ h.immortal = false then { h with none := h.none + 1 } else h

/-- `Py_DECREF`: the deallocation of `None` is a fatal error
(called by Boost.Python for the lists of python/pycppsas7bdat/cpp/sink.hpp:92-117, 310-315). -/
def PyHeap.decref (h : PyHeap) (v : PyVal) : PyM PyHeap :=
  if v = .time .none ∧ h.immortal = false then
    if h.none ≤ 1 then .error (.cpp .terminate) else .ok { h with none := h.none - 1 }
  else .ok h

/-- `Py_DECREF` for the elements of a list that is deallocated (the lists of python/pycppsas7bdat/cpp/sink.hpp:92, 310). -/
def PyHeap.release : PyHeap → List PyVal → PyM PyHeap
  | h, [] => .ok h
  | h, v :: vs => do (← h.decref v).release vs

/-- `l.append(x)` (python/pycppsas7bdat/cpp/sink.hpp:96-112, 312): `boost::python::object(x)` calls the
conversion, takes a reference (`incref(arg_to_python(x).get())`) and releases the one it has received
(`~arg_to_python`); `PyList_Append` takes a reference; the temporary object releases its own. -/
def PyHeap.append (h : PyHeap) (c : Cell) : PyM (PyHeap × PyVal) := do
  let v ← c.toPy
  let h ← (h.incref v).decref v
  let h ← (h.incref v).decref v
  return (h, v)

/-- The loops that fill a list (python/pycppsas7bdat/cpp/sink.hpp:94-115, 311-313). -/
def PyHeap.list : PyHeap → List Cell → PyM (PyHeap × List PyVal)
  | h, [] => .ok (h, [])
  | h, c :: cs => do
    let (h, v) ← h.append c
    let (h, vs) ← h.list cs
    return (h, v :: vs)

/-- The lists of a chunk (python/pycppsas7bdat/cpp/sink.hpp:326-368). -/
def PyHeap.lists : PyHeap → List (List Cell) → PyM (PyHeap × List PyVal)
  | h, [] => .ok (h, [])
  | h, l :: ls => do
    let (h, vs) ← h.list l
    let (h, ws) ← h.lists ls
    return (h, vs ++ ws)

/-- The Python lists a call makes: one per row in `Sink::push_row` (python/pycppsas7bdat/cpp/sink.hpp:89-118),
one per column when a chunk or the whole data is handed over (python/pycppsas7bdat/cpp/sink.hpp:370-377,
406-415). -/
def CppSink.made : CppSink → Event → Res (List (List Cell))
  | .row st, .pushRow _ r => do return [← rowList st.columns r.mem]
  | .row _, _ => .ok []
  | .chunk st, .pushRow i r => do
    let st ← st.store i r
    return if st.idata = st.size then st.vals else []
  | .chunk st, .endOfData => .ok (if st.idata ≠ 0 then st.vals else [])
  | .data st, .endOfData => .ok (if st.idata ≠ 0 then st.vals else [])
  | _, _ => .ok []

/-- A program with a reader and its own sink. `keep` says whether the sink keeps what it is given; `kept` are
the elements of the lists it has kept (a program that uses python/pycppsas7bdat/cpp/reader.cpp:92-104). -/
structure RefSession (σ : Type) where
  reader : Reader σ
  cpp : CppSink
  heap : PyHeap
  keep : Bool
  kept : List PyVal := []

variable {σ : Type}

/-- A call of the reader on the sink: the lists are made, handed over and released
(python/pycppsas7bdat/cpp/sink.hpp:89-118, 370-377, 394-416). -/
def RefSession.event (s : RefSession σ) (ev : Event) : PyM (RefSession σ) := do
  let made ← PyM.ofRes (s.cpp.made ev)
  let (cpp, out) ← PyM.ofRes (s.cpp.step ev)
  if out.contains .attributeError then .error .raised
  let (heap, vals) ← s.heap.lists made
  if s.keep then return { s with cpp := cpp, heap := heap, kept := s.kept ++ vals }
  else return { s with cpp := cpp, heap := ← heap.release vals }

/-- Calls one after the other (python/pycppsas7bdat/cpp/sink.hpp:89-118, 370-377, 394-416). -/
def RefSession.events : RefSession σ → List Event → PyM (RefSession σ)
  | s, [] => .ok s
  | s, ev :: evs => do (← s.event ev).events evs

/-- `properties.date_created` and `properties.date_modified` (python/pycppsas7bdat/cpp/pycppsas7bdat.cpp:65-72):
the result of `to_python` is handed to the interpreter as a new reference; the program looks at it and
forgets it. -/
def RefSession.look (s : RefSession σ) (t : DateTime) : PyM (RefSession σ) := do
  let v ← Cell.toPy (.datetime t)
  return { s with heap := ← s.heap.decref v }

/-- Statements of a program (a program that uses python/pycppsas7bdat/cpp/reader.cpp:92-104). -/
inductive RefStmt
  | call (op : Op)
  | dateCreated
  | dateModified
deriving DecidableEq

/-- One statement; a method of the reader as in `PySession.op` (a program that uses python/pycppsas7bdat/cpp/reader.cpp:92-104). -/
def RefSession.stmt (S : Source σ) (s : RefSession σ) : RefStmt → PyM (RefSession σ)
  | .call op => do
    let (r, R) := s.reader.step S op
    let s' ← ({ s with reader := R } : RefSession σ).events (R.trace.drop s.reader.trace.length)
    let _ ← PyM.ofRes r
    return s'
  | .dateCreated => s.look s.reader.props.header.dateCreated
  | .dateModified => s.look s.reader.props.header.dateModified

/-- Statements one after the other (a program that uses python/pycppsas7bdat/cpp/reader.cpp:92-104). -/
def RefSession.run (S : Source σ) : RefSession σ → List RefStmt → PyM (RefSession σ)
  | s, [] => .ok s
  | s, st :: ss => do (← s.stmt S st).run S ss

/-- A program that opens a file, executes these statements, and releases the reader, the sink and what it has
kept: the interpreter afterwards (a program that uses python/pycppsas7bdat/cpp/reader.cpp:92-104). -/
def refProgram (cfg : Cfg) (fuel : Nat) (fs : FileSystem) (name : List Byte) (kind : PyKind) (incl excl : PyArg)
    (keep : Bool) (ss : List RefStmt) (h : PyHeap) : PyM PyHeap := do
  let f ← pyFilter incl excl
  let src ← PyM.ofRes (openFile fs (name.takeWhile (· ≠ 0)))
  let R ← PyM.ofRes (openReader cfg ifs fuel (some f) src)
  let s ← ({ reader := R, cpp := CppSink.start kind, heap := h, keep := keep } : RefSession IFStream).events R.trace
  let s ← s.run ifs ss
  s.heap.release s.kept

/-- The same program again and again (a program that uses python/pycppsas7bdat/cpp/reader.cpp:92-104). -/
def repeated (p : PyHeap → PyM PyHeap) : Nat → PyHeap → PyM PyHeap
  | 0, h => .ok h
  | n + 1, h => do repeated p n (← p h)

end Sas
