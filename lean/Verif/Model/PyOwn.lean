import Verif.Model.PyFront

/-!
# Who keeps the objects of the Python binding alive

python/pycppsas7bdat/cpp/sink.hpp, reader.cpp: the references to the Python object of a sink and to the objects its
attribute `_cpp` refers to. Any number of readers may be opened with one sink object, one after the other or at the same
time. Objects that are made, handed over and released in one call are not counted here (`None` is, in PyRefs.lean).
-/

namespace Sas

/-- The sink object: the references to it (0 when it has been deallocated), the object its attribute `_cpp` refers to, and
the reference counts of all objects that attribute has ever referred to (`self` and `_cpp`, python/pycppsas7bdat/cpp/sink.hpp:41-48, 77). -/
structure PyOwn where
  sink : Nat
  attr : Option Nat := none
  wrappers : List Nat := []
deriving DecidableEq, Repr

/-- `Py_INCREF` of the `i`-th object (python/pycppsas7bdat/cpp/sink.hpp:43-45). -/
def PyOwn.wrapperUp (o : PyOwn) (i : Nat) : PyOwn := { o with wrappers := o.wrappers.modify i (· + 1) }

/-- `Py_DECREF` of the `i`-th object (python/pycppsas7bdat/cpp/sink.hpp:45, 48). -/
def PyOwn.wrapperDown (o : PyOwn) (i : Nat) : PyOwn := { o with wrappers := o.wrappers.modify i (· - 1) }

/-- The attribute `_cpp` no longer refers to its object (python/pycppsas7bdat/cpp/sink.hpp:45, 48). -/
def PyOwn.dropAttr (o : PyOwn) : PyOwn :=
  match o.attr with
  | some i => { o.wrapperDown i with attr := none }
  | none => o

/-- `Py_INCREF(self)` of the sink object (python/pycppsas7bdat/cpp/sink.hpp:34). -/
def PyOwn.sinkUp (o : PyOwn) : PyOwn := { o with sink := o.sink + 1 }

/-- `Py_DECREF(self)` of the sink object: with the last reference the object goes, and its attributes with it
(python/pycppsas7bdat/cpp/sink.hpp:36-37). -/
def PyOwn.sinkDown (o : PyOwn) : PyOwn :=
  if o.sink ≤ 1 then { o.dropAttr with sink := 0 } else { o with sink := o.sink - 1 }

/-- `set_cpp_attr` (python/pycppsas7bdat/cpp/sink.hpp:41-46): `value` is a new object with one reference; `incref` takes one
more; `PyObject_SetAttrString` takes one for the attribute, and releases the object the attribute has referred to; the
destructor of `value` releases one. -/
def PyOwn.setCppAttr (o : PyOwn) : PyOwn :=
  let i := o.wrappers.length
  let o := { o with wrappers := o.wrappers ++ [1] }
  let o := o.wrapperUp i
  let o := { (o.dropAttr.wrapperUp i) with attr := some i }
  o.wrapperDown i

/-- `del_cpp_attr` (python/pycppsas7bdat/cpp/sink.hpp:48): when there is no attribute, only the error indicator is set. -/
def PyOwn.delCppAttr (o : PyOwn) : PyOwn := o.dropAttr

/-- What a call of the reader does to the attribute (python/pycppsas7bdat/cpp/sink.hpp:50-56, 120-123, 271-275, 406-415). -/
def PyOwn.event (o : PyOwn) : Event → PyOwn
  | .setProperties _ => o.setCppAttr
  | .pushRow _ _ => o
  | .endOfData => o.delCppAttr

/-- Calls one after the other (include/cppsas7bdat/reader.hpp:46-48). -/
def PyOwn.events (o : PyOwn) (es : List Event) : PyOwn := es.foldl PyOwn.event o

/-- A C++ sink: does its member `self` refer to the sink object, or is it null? (python/pycppsas7bdat/cpp/sink.hpp:77). -/
structure CppSelf where
  self : Bool
deriving DecidableEq, Repr

/-- `SinkBase::SinkBase(PyObject *)` (python/pycppsas7bdat/cpp/sink.hpp:34). -/
def PyOwn.construct (o : PyOwn) : CppSelf × PyOwn := (⟨true⟩, o.sinkUp)

/-- `SinkBase::~SinkBase` (python/pycppsas7bdat/cpp/sink.hpp:35-38). -/
def PyOwn.destroy (o : PyOwn) (s : CppSelf) : PyOwn := if s.self then o.sinkDown else o

/-- `SinkBase::SinkBase(SinkBase &&)` (python/pycppsas7bdat/cpp/sink.hpp:39): the new sink and the old one. -/
def CppSelf.move (s : CppSelf) : CppSelf × CppSelf := (⟨s.self⟩, ⟨false⟩)

/-- The way of a sink into the reader (python/pycppsas7bdat/cpp/reader.cpp:50-73, include/cppsas7bdat/reader.hpp:65-71): it is
moved some times, and what it was moved from is destroyed. -/
def PyOwn.moves (o : PyOwn) (s : CppSelf) : Nat → CppSelf × PyOwn
  | 0 => (s, o)
  | n + 1 =>
    let (new, old) := s.move
    (o.destroy old).moves new n

/-- How opening a reader ends: it throws before the sink has been told anything, the Python method `set_properties` raises, or
there is a reader (python/pycppsas7bdat/cpp/reader.cpp:53-84, src/reader-impl.hpp:23-26). -/
inductive Opening
  | failed
  | refused (p : Properties)
  | opened (p : Properties)

/-- A program: one sink object, in a variable while `var` holds, and the readers that were opened with it, each with its C++
sink while it lives. For each object of `_cpp`, the reader whose C++ sink it refers to (`boost::ref(*this)`,
python/pycppsas7bdat/cpp/sink.hpp:43), none when that reader was never made. `ub`: a C++ sink that is no more has been used. -/
structure OwnProgram where
  own : PyOwn := { sink := 1 }
  var : Bool := true
  readers : List (Option CppSelf) := []
  owners : List (Option Nat) := []
  ub : Bool := false
deriving DecidableEq, Repr

/-- Statements: open a reader with the sink, make calls that lead to these calls of the sink, drop a reader, drop the variable
of the sink, ask the sink for its data (`df`, which begins with `_cpp_flush_sink`)
(a program that uses python/pycppsas7bdat/cpp/reader.cpp:92-104 and python/pycppsas7bdat/sink.py:8-66). -/
inductive OwnStmt
  | open (moves : Nat) (how : Opening)
  | calls (reader : Nat) (es : List Event)
  | delReader (reader : Nat)
  | delSink
  | ask

/-- Does the object `i` of `_cpp` refer to a C++ sink that is still there? (`boost::ref(*this)`, python/pycppsas7bdat/cpp/sink.hpp:43). -/
def OwnProgram.refersToLiving (w : OwnProgram) (i : Nat) : Bool :=
  match w.owners[i]? with
  | some (some r) => (w.readers[r]?.join).isSome
  | _ => false

/-- `_cpp_flush_sink` (python/pycppsas7bdat/sink.py:17-18, python/pycppsas7bdat/cpp/sink.hpp:58-61): `end_of_data` of the C++
sink that the attribute `_cpp` refers to, if there is one. -/
def OwnProgram.flushSink (w : OwnProgram) : OwnProgram :=
  match w.own.attr with
  | none => w
  | some i => { w with own := w.own.event .endOfData, ub := w.ub || !w.refersToLiving i }

/-- One statement. Names that are not there raise, which changes nothing
(a program that uses python/pycppsas7bdat/cpp/reader.cpp:92-104 and python/pycppsas7bdat/sink.py:8-66). -/
def OwnProgram.stmt (w : OwnProgram) : OwnStmt → OwnProgram
  | .open n how =>
    if w.var then
      let (s, o) := w.own.construct
      let (s, o) := o.moves s n
      match how with
      | .failed => { w with own := o.destroy s }
      | .refused p => { w with own := (o.event (.setProperties p)).destroy s, owners := w.owners ++ [none] }
      | .opened p =>
        { w with
          own := o.event (.setProperties p), readers := w.readers ++ [some s],
          owners := w.owners ++ [some w.readers.length] }
    else w
  | .calls i es =>
    match w.readers[i]? with
    | some (some _) => { w with own := w.own.events es }
    | _ => w
  | .delReader i =>
    match w.readers[i]? with
    | some (some s) => { w with own := w.own.destroy s, readers := w.readers.set i none }
    | _ => w
  | .delSink => if w.var then { w with own := w.own.sinkDown, var := false } else w
  | .ask => if w.var then w.flushSink else w

/-- Statements one after the other
(a program that uses python/pycppsas7bdat/cpp/reader.cpp:92-104 and python/pycppsas7bdat/sink.py:8-66). -/
def OwnProgram.run (w : OwnProgram) (ss : List OwnStmt) : OwnProgram := ss.foldl OwnProgram.stmt w

/-- A program that opens a file with a new sink object and makes these calls: what the library does decides how the statements
end. `raises` says whether the object's `set_properties` raises
(a program that uses python/pycppsas7bdat/cpp/reader.cpp:92-104 and python/pycppsas7bdat/sink.py:8-66). -/
def ownProgram (cfg : Cfg) (fuel : Nat) (filter : Filter) (src : Res IFStream) (moves : Nat) (raises : Properties → Bool)
    (ops : List Op) : OwnProgram :=
  match src with
  | .error _ => ({} : OwnProgram).run [.open moves .failed]
  | .ok s =>
    match openReader cfg ifs fuel (some filter) s with
    | .error _ => ({} : OwnProgram).run [.open moves .failed]
    | .ok R =>
      if raises R.props then ({} : OwnProgram).run [.open moves (.refused R.props)]
      else ({} : OwnProgram).run [.open moves (.opened R.props), .calls 0 ((R.run ifs ops).2.trace.drop R.trace.length)]

end Sas
