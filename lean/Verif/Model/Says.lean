import Verif.Model.Log
import Verif.Model.PyFront
import Verif.Model.RFront

/-!
# What the exception says when a reader cannot be made in Python and R

The texts are those of the library and of the two bindings. How C++ exceptions become Python exceptions is decided by
Boost.Python (`handle_exception`): `std::bad_alloc` becomes `MemoryError`, `std::out_of_range` becomes `IndexError`, and any other
`std::exception` becomes `RuntimeError` with the text `what()`. Rcpp makes R errors with the text `what()`. The texts of
exceptions of the standard library and of fmt are not modelled, nor are those that Python and R functions raise themselves.
-/

namespace Sas

/-- What a program is told. In R only the text counts
(for the exceptions of src/exceptions.cpp:15-42, python/pycppsas7bdat/cpp/reader.cpp:32, 41, 74 and R/CPPSAS7BDAT/src/reader.cpp:46). -/
inductive Told
  /-- `RuntimeError(text)`, or an R error with this text. -/
  | text (t : List Byte)
  /-- `IndexError` -/
  | outOfRange
  /-- `MemoryError` -/
  | noMemory
  /-- `RuntimeError` with a text of fmt. -/
  | formatting
  /-- The exception that a method of the sink object has raised. -/
  | sink
  /-- Nothing: the process ends, or anything may happen. -/
  | crash
deriving DecidableEq

/-- A C++ exception that leaves the extension module; `file` is the name that was passed to `not_a_valid_file`
(src/stream.cpp:19, src/exceptions.cpp:15-42). -/
def stopSays (file : List Byte) : Stop → Told
  | .exn .outOfRange => .outOfRange
  | .exn .badAlloc => .noMemory
  | .exn .formatError => .formatting
  | .exn e => .text (e.text file)
  | _ => .crash

/-- The exceptions of `list_to_set` in Python (python/pycppsas7bdat/cpp/reader.cpp:27-45). -/
def listSays (context : List Byte) : PyArg → Option (List Byte)
  | .none => none
  | .other => some (context ++ ascii " argument is not a list")
  | .list items =>
    if PyItem.other ∈ items.take (toSigned 32 (items.length % 2 ^ 32)).toNat then
      some (ascii "Element of " ++ context ++ ascii " argument is not a string")
    else none

/-- The exceptions of `list_to_set` in R (R/CPPSAS7BDAT/src/filter.cpp:16-31). -/
def rListSays (context : List Byte) : RArg → Option (List Byte)
  | .other => some (context ++ ascii " argument is not a vector of character")
  | _ => none

/-- Making a reader of the library with a filter, after which the sink is told the properties: the call `Reader(source, sink,
filter)` in both bindings (python/pycppsas7bdat/cpp/reader.cpp:53-76, R/CPPSAS7BDAT/src/reader.cpp:22-48). -/
def openSays (cfg : Cfg) (fuel : Nat) (fs : FileSystem) (name : List Byte) (f : Filter) (sink : Reader IFStream → Option Told) :
    Option Told :=
  match openFile fs (name.takeWhile (· ≠ 0)) with
  | .error e => some (stopSays (name.takeWhile (· ≠ 0)) e)
  | .ok src =>
    match openReader cfg ifs fuel (some f) src with
    | .error e => some (stopSays [] e)
    | .ok R => sink R

/-- How the calls on the sink object end
(the calls of python/pycppsas7bdat/cpp/sink.hpp:50-56 and R/CPPSAS7BDAT/src/sink_base.hpp:22-26 on the classes of python/pycppsas7bdat/sink.py:8-66 and R/CPPSAS7BDAT/R/sink.R:8-63). -/
def sinkSays {α : Type} : PyM α → Option Told
  | .ok _ => none
  | .error .raised => some .sink
  | .error (.cpp e) => some (stopSays [] e)

/-- The rest of `Reader::build` in Python when the source has been opened before `filter` is called, or is opened after it
(python/pycppsas7bdat/cpp/reader.cpp:25-51, 62-72). -/
def pyArgsSays (cfg : Cfg) (fuel : Nat) (fs : FileSystem) (name : List Byte) (kind : PyKind) (incl excl : PyArg) : Option Told :=
  match listSays (ascii "include") incl, listSays (ascii "exclude") excl, pyFilter incl excl with
  | some t, _, _ => some (.text t)
  | none, some t, _ => some (.text t)
  | none, none, .error _ => some .crash
  | none, none, .ok f => openSays cfg fuel fs name f fun R =>
      sinkSays (({ reader := R, cpp := CppSink.start kind, obj := { kind := kind } } : PySession IFStream).events R.trace)

/-- The same for R (R/CPPSAS7BDAT/src/filter.cpp:14-37, R/CPPSAS7BDAT/src/reader.cpp:34-44). -/
def rArgsSays (unique : List (List Byte) → List (List Byte)) (cfg : Cfg) (fuel : Nat) (fs : FileSystem) (name : List Byte)
    (kind : PyKind) (incl excl : RArg) : Option Told :=
  match rListSays (ascii "include") incl, rListSays (ascii "exclude") excl, rFilter incl excl with
  | some t, _, _ => some (.text t)
  | none, some t, _ => some (.text t)
  | none, none, .error _ => some .crash
  | none, none, .ok f => openSays cfg fuel fs name f fun R => sinkSays ((RSink.new kind).events unique R.trace)

/-- `Reader(filename, sink, include, exclude)` in Python (python/pycppsas7bdat/cpp/reader.cpp:20-84), for a new sink of sink.py: what the
exception says, if there is one. In the calls `Reader(ifstream(_filename), SinkChunk(…), filter(_include, _exclude))` the order in which the
arguments are evaluated is unspecified in C++: `sourceFirst` says whether the file is opened before the lists are looked at. -/
def pyReaderSays (sourceFirst : Bool) (cfg : Cfg) (fuel : Nat) (fs : FileSystem) (name : List Byte) (kind : PyKind)
    (incl excl : PyArg) : Option Told :=
  match sourceFirst, openFile fs (name.takeWhile (· ≠ 0)) with
  | true, .error e => some (stopSays (name.takeWhile (· ≠ 0)) e)
  | _, _ => pyArgsSays cfg fuel fs name kind incl excl

/-- `sas_reader(filename, sink, include, exclude)` in R (R/CPPSAS7BDAT/src/reader.cpp:22-53), for a new sink of sink.R; `sourceFirst` as for
Python. -/
def rReaderSays (sourceFirst : Bool) (unique : List (List Byte) → List (List Byte)) (cfg : Cfg) (fuel : Nat) (fs : FileSystem)
    (name : List Byte) (kind : PyKind) (incl excl : RArg) : Option Told :=
  match sourceFirst, openFile fs (name.takeWhile (· ≠ 0)) with
  | true, .error e => some (stopSays (name.takeWhile (· ≠ 0)) e)
  | _, _ => rArgsSays unique cfg fuel fs name kind incl excl

end Sas
