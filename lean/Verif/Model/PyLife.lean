import Verif.Model.PyFront

/-!
# The life of the objects a Python program gets from a reader

python/pycppsas7bdat/cpp/pycppsas7bdat.cpp, reader.cpp and sink.hpp, with the call policies of Boost.Python as they
are documented. There are two C++ objects of type `Properties`: the member of the reader, and a copy that the C++ sink
makes for `set_properties` and hands over in a `shared_ptr`.
-/

namespace Sas

/-- A Python object for (a part of) the properties. An object keeps those alive that it is made of; `fromReader`
keeps nothing alive
(python/pycppsas7bdat/cpp/reader.cpp:98-99, python/pycppsas7bdat/cpp/sink.hpp:53-55, python/pycppsas7bdat/cpp/pycppsas7bdat.cpp:55-63, 122-123). -/
inductive PyRef
  /-- What `reader.properties()` returns: `reference_existing_object` (python/pycppsas7bdat/cpp/reader.cpp:98-99), a bare
  pointer into the reader. -/
  | fromReader
  /-- What a sink gets: a `shared_ptr` to the copy (python/pycppsas7bdat/cpp/sink.hpp:53-55). -/
  | fromSink
  /-- The attribute `columns`: `def_readonly` of a class type, an internal reference
  (python/pycppsas7bdat/cpp/pycppsas7bdat.cpp:122-123). -/
  | columns (of : PyRef)
  /-- The `i`-th object of an iteration over the columns: an internal reference into the iterator, which has the columns
  (python/pycppsas7bdat/cpp/pycppsas7bdat.cpp:60-63). -/
  | column (of : PyRef) (i : Nat)
deriving DecidableEq

/-- The object at the bottom (python/pycppsas7bdat/cpp/reader.cpp:98-99 or python/pycppsas7bdat/cpp/sink.hpp:53-55). -/
def PyRef.base : PyRef → PyRef
  | .columns r => r.base
  | .column r _ => r.base
  | r => r

/-- What can be looked at: the numbers and texts of the properties or of a column; how many columns there are
(python/pycppsas7bdat/cpp/pycppsas7bdat.cpp:55-63, 74-123). -/
inductive Seen
  | properties (p : Properties)
  | columns (n : Nat)
  | column (c : Column)
deriving DecidableEq

/-- How a program can end early: as in PyFront.lean, or by following a pointer to an object that is gone
(no definition of the library: the pointer is that of python/pycppsas7bdat/cpp/reader.cpp:98-99). -/
inductive LifeStop
  | py (e : PyStop)
  | dangling
deriving DecidableEq

/-- Computations that can end so (no definition of the library: the pointer is that of python/pycppsas7bdat/cpp/reader.cpp:98-99). -/
abbrev LifeM := Except LifeStop

/-- A program with one reader, one sink object and variables: the reader while it lives, the copy of the properties,
whether the program still has the sink
(a program that uses python/pycppsas7bdat/cpp/reader.cpp:92-104, python/pycppsas7bdat/sink.py:13-15 and python/pycppsas7bdat/cpp/pycppsas7bdat.cpp:55-123). -/
structure PyLife (σ : Type) where
  reader : Option (Reader σ)
  copy : Properties
  sink : Bool := true
  vars : List (Nat × PyRef) := []

/-- Statements
(a program that uses python/pycppsas7bdat/cpp/reader.cpp:92-104, python/pycppsas7bdat/sink.py:13-15 and python/pycppsas7bdat/cpp/pycppsas7bdat.cpp:55-123). -/
inductive LifeStmt
  /-- a method of the reader -/
  | call (op : Op)
  /-- `v = reader.properties()` -/
  | properties (v : Nat)
  /-- `v = sink.properties` -/
  | sinkProperties (v : Nat)
  /-- `v = w.columns` -/
  | columns (v w : Nat)
  /-- `v = list(w)[i]` -/
  | item (v w i : Nat)
  /-- looking at `v` -/
  | look (v : Nat)
  | del (v : Nat)
  /-- the end of the reader's life -/
  | delReader
  | delSink
deriving DecidableEq

variable {σ : Type}

/-- The C++ object behind a Python object. The copy lives as long as there is an object that has the `shared_ptr`, and
so as long as anything made of it; the properties of the reader live with the reader
(python/pycppsas7bdat/cpp/reader.cpp:98-99, python/pycppsas7bdat/cpp/sink.hpp:53-55, python/pycppsas7bdat/cpp/pycppsas7bdat.cpp:125). -/
def PyLife.target (s : PyLife σ) (r : PyRef) : LifeM Properties :=
  match r.base with
  | .fromReader =>
    match s.reader with
    | some R => .ok R.props
    | none => .error .dangling
  | _ => .ok s.copy

/-- A name that is not there, or an object of another type, is a Python exception
(Python itself, in a program that uses python/pycppsas7bdat/cpp/pycppsas7bdat.cpp:55-123). -/
def lifeRaise {α : Type} : LifeM α := .error (.py .raised)

/-- The object of a variable (Python itself, in a program that uses python/pycppsas7bdat/cpp/pycppsas7bdat.cpp:55-123). -/
def PyLife.var (s : PyLife σ) (v : Nat) : LifeM PyRef :=
  match s.vars.lookup v with
  | some r => .ok r
  | none => lifeRaise

/-- `v = r` (Python itself, in a program that uses python/pycppsas7bdat/cpp/pycppsas7bdat.cpp:55-123). -/
def PyLife.assign (s : PyLife σ) (v : Nat) (r : PyRef) : PyLife σ :=
  { s with vars := (v, r) :: s.vars.filter fun x => x.1 ≠ v }

/-- What is seen of an object (python/pycppsas7bdat/cpp/pycppsas7bdat.cpp:55-63, 74-123). -/
def PyRef.look (p : Properties) : PyRef → LifeM Seen
  | .columns _ => .ok (.columns p.columns.length)
  | .column _ i =>
    match p.columns[i]? with
    | some c => .ok (.column c)
    | none => lifeRaise
  | _ => .ok (.properties p)

/-- One statement, and what is seen. The calls of the reader on the sink are those of PyFront.lean; here only what
becomes of the reader matters
(a program that uses python/pycppsas7bdat/cpp/reader.cpp:92-104, python/pycppsas7bdat/sink.py:13-15 and python/pycppsas7bdat/cpp/pycppsas7bdat.cpp:55-123). -/
def PyLife.step (S : Source σ) (s : PyLife σ) : LifeStmt → LifeM (PyLife σ × List Seen)
  | .call op =>
    match s.reader with
    | none => lifeRaise
    | some R =>
      match R.step S op with
      | (.ok _, R) => .ok ({ s with reader := some R }, [])
      | (.error e, _) => .error (.py (.cpp e))
  | .properties v => if s.reader.isSome then .ok (s.assign v .fromReader, []) else lifeRaise
  | .sinkProperties v => if s.sink then .ok (s.assign v .fromSink, []) else lifeRaise
  | .columns v w => do
    let r ← s.var w
    if r = r.base then
      let _ ← s.target r
      return (s.assign v (.columns r), [])
    else lifeRaise
  | .item v w i => do
    let r ← s.var w
    match r with
    | .columns _ =>
      let p ← s.target r
      if i < p.columns.length then return (s.assign v (.column r i), []) else lifeRaise
    | _ => lifeRaise
  | .look v => do
    let r ← s.var v
    let p ← s.target r
    return (s, [← r.look p])
  | .del v => do
    let _ ← s.var v
    return ({ s with vars := s.vars.filter fun x => x.1 ≠ v }, [])
  | .delReader => .ok ({ s with reader := none }, [])
  | .delSink => .ok ({ s with sink := false }, [])

/-- A program: all that is seen
(a program that uses python/pycppsas7bdat/cpp/reader.cpp:92-104, python/pycppsas7bdat/sink.py:13-15 and python/pycppsas7bdat/cpp/pycppsas7bdat.cpp:55-123). -/
def PyLife.run (S : Source σ) : PyLife σ → List LifeStmt → LifeM (PyLife σ × List Seen)
  | s, [] => .ok (s, [])
  | s, st :: sts => do
    let (s, a) ← s.step S st
    let (s, b) ← s.run S sts
    return (s, a ++ b)

/-- The program after `reader = Reader(filename, sink)`: the sink's copy is made when the reader is constructed
(python/pycppsas7bdat/cpp/reader.cpp:79-84, python/pycppsas7bdat/cpp/sink.hpp:50-56). -/
def PyLife.start (R : Reader σ) : PyLife σ := { reader := some R, copy := R.props }

end Sas
