import Verif.Model.PyRefs
import Verif.Model.PyThrowing

/-!
# The reference count of `None` in programs that catch exceptions

As PyRefs.lean, for any Python object as a sink (PyThrowing.lean) and programs that go on after an exception: a list
that is being filled when a conversion raises is destroyed, with the references its elements hold.
-/

namespace Sas

/-- The interpreter: the references to `None`, whether it has been aborted because there were none left
(`none_dealloc`), after which nothing happens to it, and, for the record, the cells that were converted so far
(no definition of the library: what python/pycppsas7bdat/cpp/import_datetime.cpp:37, 91, 157 acts on). -/
structure PyCounts where
  immortal : Bool
  none : Nat
  aborted : Bool := false
  converted : List Cell := []
deriving DecidableEq

/-- `Py_INCREF` (called by Boost.Python for the lists of python/pycppsas7bdat/cpp/sink.hpp:92-117, 310-315). -/
def PyCounts.incref (h : PyCounts) (v : PyVal) : PyCounts :=
  if h.aborted = false ∧ h.immortal = false ∧ v = .time .none then { h with none := h.none + 1 } else h

/-- `Py_DECREF` (called by Boost.Python for the lists of python/pycppsas7bdat/cpp/sink.hpp:92-117, 310-315). -/
def PyCounts.decref (h : PyCounts) (v : PyVal) : PyCounts :=
  if h.aborted = false ∧ h.immortal = false ∧ v = .time .none then
    if h.none ≤ 1 then { h with none := 0, aborted := true } else { h with none := h.none - 1 }
  else h

/-- The elements of a list that is deallocated (the lists of python/pycppsas7bdat/cpp/sink.hpp:92, 310). -/
def PyCounts.release : PyCounts → List PyVal → PyCounts
  | h, [] => h
  | h, v :: vs => (h.decref v).release vs

/-- A conversion to Python (python/pycppsas7bdat/cpp/import_datetime.cpp:37, 91, 157 for what is missing): `Py_None` is
returned without a new reference; other objects are new. -/
def PyCounts.convert (h : PyCounts) (c : Cell) : PyM PyVal × PyCounts :=
  match c.toPy with
  | .error e => (.error e, h)
  | .ok v => (.ok v, if h.aborted then h else { h with converted := h.converted ++ [c] })

/-- `l.append(x)` (python/pycppsas7bdat/cpp/sink.hpp:96-112, 312), as `PyHeap.append`. -/
def PyCounts.append (h : PyCounts) (c : Cell) : PyM PyVal × PyCounts :=
  match h.convert c with
  | (.error e, h) => (.error e, h)
  | (.ok v, h) => (.ok v, (((h.incref v).decref v).incref v).decref v)

/-- The loops that fill a list (python/pycppsas7bdat/cpp/sink.hpp:94-115, 311-313): `done` are its elements so far. When a
conversion raises the list is destroyed. -/
def PyCounts.list : PyCounts → List PyVal → List Cell → PyM (List PyVal) × PyCounts
  | h, done, [] => (.ok done, h)
  | h, done, c :: cs =>
    match h.append c with
    | (.error e, h) => (.error e, h.release done)
    | (.ok v, h) => PyCounts.list h (done ++ [v]) cs

/-- The lists of a call, one after the other (python/pycppsas7bdat/cpp/sink.hpp:92-115, 326-368); those of a dictionary have
a name, which has to be UTF-8, and is converted after the list. `done` are the elements of the lists so far, which are
destroyed when a conversion raises. Simplification: a list that is replaced in the dictionary by that of a column of the
same name is destroyed then, here with the others. -/
def PyCounts.lists : PyCounts → List PyVal → List (Option (List Byte) × List Cell) → PyM (List PyVal) × PyCounts
  | h, done, [] => (.ok done, h)
  | h, done, (k, cs) :: ls =>
    match h.list [] cs with
    | (.error e, h) => (.error e, h.release done)
    | (.ok vs, h) =>
      if (k.map utf8Valid).getD true then PyCounts.lists h (done ++ vs) ls
      else (.error .raised, (h.release vs).release done)

/-- The vectors of a chunk with the names of their columns (python/pycppsas7bdat/cpp/sink.hpp:331-333). -/
def PyChunk.named (st : PyChunk) : List (Option (List Byte) × List Cell) :=
  (st.cols.map fun g => some g.1.name).zip st.vals

/-- The lists a call of the reader makes: as `CppSink.made`, with their names
(python/pycppsas7bdat/cpp/sink.hpp:92-115, 326-374, 394-416). -/
def CppSink.lists : CppSink → Event → List (Option (List Byte) × List Cell)
  | .row st, .pushRow _ r =>
    match rowList st.columns r.mem with
    | .ok l => [(none, l)]
    | .error _ => []
  | .chunk st, .pushRow i r =>
    match st.store i r with
    | .ok st => if st.idata = st.size then st.named else []
    | .error _ => []
  | .chunk st, .endOfData => if st.attr ∧ st.idata ≠ 0 then st.named else []
  | .data st, .endOfData => if st.attr ∧ st.idata ≠ 0 then st.named else []
  | _, _ => []

/-- A sink with its Python object and the interpreter; `kept` are the elements of the lists the object has kept
(python/pycppsas7bdat/cpp/sink.hpp:30-78 and the object of its member `self`). -/
structure PyOwner (κ : Type) where
  live : PyLive κ
  counts : PyCounts
  kept : List PyVal := []

variable {σ κ : Type}

/-- A Python sink as a sink that throws, with what its calls do to the interpreter: the lists are made and handed over;
the object keeps them or forgets them (`keep`), also when its method raises
(python/pycppsas7bdat/cpp/sink.hpp:83-123, 207-275, 370-377, 394-416). -/
def pyOwnerCode (P : PyCode κ) (keep : κ → Event → Bool) : SinkCode (PyOwner κ) PyStop where
  call s e :=
    let (r, live) := (pySinkCode P).call s.live e
    match s.counts.lists [] (s.live.cpp.lists e) with
    | (.error _, h) => (r, { s with live := live, counts := h })
    | (.ok vs, h) =>
      if keep s.live.obj e then (r, { s with live := live, counts := h, kept := s.kept ++ vs })
      else (r, { s with live := live, counts := h.release vs })

/-- `properties.date_created` and `properties.date_modified` (python/pycppsas7bdat/cpp/pycppsas7bdat.cpp:65-72), as
`RefSession.look`. -/
def PyCounts.look (h : PyCounts) (t : DateTime) : PyCounts :=
  match h.convert (.datetime t) with
  | (.error _, h) => h
  | (.ok v, h) => h.decref v

/-- Statements one after the other; the program catches every exception and goes on
(a program that uses python/pycppsas7bdat/cpp/reader.cpp:92-104). -/
def catchingRun (P : PyCode κ) (keep : κ → Event → Bool) (S : Source σ) :
    TReader σ (PyOwner κ) → List RefStmt → TReader σ (PyOwner κ)
  | T, [] => T
  | T, .call op :: ss =>
    match T.step (pyOwnerCode P keep) S op with
    | (.ok _, T) => catchingRun P keep S T ss
    | (.error (.sink _), T) => catchingRun P keep S T ss
    | (.error (.reader (.exn _)), T) => catchingRun P keep S T ss
    | (.error (.reader _), T) => T
  | T, .dateCreated :: ss =>
    catchingRun P keep S { T with sink := { T.sink with counts := T.sink.counts.look T.reader.props.header.dateCreated } } ss
  | T, .dateModified :: ss =>
    catchingRun P keep S { T with sink := { T.sink with counts := T.sink.counts.look T.reader.props.header.dateModified } } ss

/-- A program that opens a file with a sink of its own, executes these statements, and releases everything: the
interpreter afterwards (a program that uses python/pycppsas7bdat/cpp/reader.cpp:92-104). -/
def catchingProgram (P : PyCode κ) (keep : κ → Event → Bool) (cfg : Cfg) (fuel : Nat) (fs : FileSystem) (name : List Byte)
    (kind : PyKind) (incl excl : PyArg) (obj : κ) (ss : List RefStmt) (h : PyCounts) : PyCounts :=
  match pyFilter incl excl with
  | .error _ => h
  | .ok f =>
    match openFile fs (name.takeWhile (· ≠ 0)) with
    | .error _ => h
    | .ok src =>
      match openThrowing (pyOwnerCode P keep) cfg ifs fuel (some f) src { live := { cpp := .start kind, obj := obj }, counts := h } with
      | .error _ => h
      | .ok T =>
        let T := catchingRun P keep ifs T ss
        T.sink.counts.release T.sink.kept

end Sas
