import Verif.Model.TextSinks
import Verif.Model.Source

/-!
# The file-backed csv sink and the command line program

include/cppsas7bdat/sink/csv.hpp:85-103, include/cppsas7bdat/reader.hpp:54-102 (how a sink is taken over by
the reader) and apps/cppsas7bdat-ci.cpp. Not modelled: docopt (the options arrive as values), names that are
directories or links to other names, buffering of the streams (what is written is in the file at once, and
it is a plain file).
-/

namespace Sas

/-- The files, by name
(no definition of the library: what is behind the names of src/stream.cpp:17 and include/cppsas7bdat/sink/csv.hpp:88). -/
structure FileSystem where
  content : List Byte → Option (List Byte)
  /-- May the program open this name for writing (create or truncate it)? -/
  writable : List Byte → Bool

/-- Replace the content of a file
(no definition of the library: what is behind the names of src/stream.cpp:17 and include/cppsas7bdat/sink/csv.hpp:88). -/
def FileSystem.put (fs : FileSystem) (name data : List Byte) : FileSystem :=
  { fs with content := fun n => if n = name then some data else fs.content n }

/-- A `std::ofstream` object (`ofs`, include/cppsas7bdat/sink/csv.hpp:86). -/
inductive OStream
  | destroyed
  /-- not associated with a file: writes have no effect but an error state nobody looks at -/
  | closed
  | file (name : List Byte)
deriving DecidableEq

/-- The objects, by address, and the files
(no definition of the library: where the objects of include/cppsas7bdat/sink/csv.hpp:86, 91 are). -/
structure World where
  fs : FileSystem
  streams : Nat → OStream

/-- An object at an address (no definition of the library: where the objects of include/cppsas7bdat/sink/csv.hpp:86, 91 are). -/
def World.set (w : World) (a : Nat) (o : OStream) : World :=
  { w with streams := fun i => if i = a then o else w.streams i }

/-- `std::ofstream(name)` (include/cppsas7bdat/sink/csv.hpp:88): the file is truncated or created. -/
def World.openStream (w : World) (a : Nat) (name : List Byte) : World :=
  if w.fs.writable name then { w with fs := w.fs.put name [] }.set a (.file name) else w.set a .closed

/-- The move constructor of `std::ofstream`: the file goes with the new object
(`ofs`, include/cppsas7bdat/sink/csv.hpp:86, when include/cppsas7bdat/reader.hpp:54 moves the sink). -/
def World.move (w : World) (a b : Nat) : World := (w.set b (w.streams a)).set a .closed

/-- Writing through a reference to the object at address `a`. No write happens for an empty text
(`fmt::print(os, ...)`, include/cppsas7bdat/sink/csv.hpp:35-38, 47-82). -/
def World.write (w : World) (a : Nat) (t : List Byte) : Res World :=
  if t = [] then .ok w
  else match w.streams a with
  | .destroyed => .error .ub
  | .closed => .ok w
  | .file name => .ok { w with fs := w.fs.put name (((w.fs.content name).getD []) ++ t) }

/-- A `csv_ofstream` (include/cppsas7bdat/sink/csv.hpp:91-94): the address of its member `ofs` and the address its member
`csv::os` refers to. -/
structure CsvFile where
  ofs : Nat
  os : Nat

/-- The constructor of `csv_ofstream` at address `a` (include/cppsas7bdat/sink/csv.hpp:92-93): `csv(ofs)` refers to the member of the
same object. -/
def CsvFile.construct (w : World) (a : Nat) (name : List Byte) : CsvFile × World :=
  (⟨a, a⟩, w.openStream a name)

/-- The implicit move constructor: the stream is moved, the reference is copied
(include/cppsas7bdat/sink/csv.hpp:22, 86, 91; used by include/cppsas7bdat/reader.hpp:54, 99-102). -/
def CsvFile.moveTo (s : CsvFile) (w : World) (b : Nat) : CsvFile × World :=
  (⟨b, s.os⟩, w.move s.ofs b)

/-- The sink at work: each event is written through `os`. An event that fails has written the beginning
of its text (include/cppsas7bdat/sink/csv.hpp:28-72, called by include/cppsas7bdat/reader.hpp:56-64). -/
def CsvFile.step (x : Texts) (s : CsvFile) (cols : List Column) (w : World) (ev : Event) : Res Unit × List Column × World :=
  let (p, cols) := csvStep x cols ev
  match w.write s.os p.1 with
  | .error e => (.error e, cols, w)
  | .ok w => (p.2, cols, w)

/-- A sequence of events; the first failure ends it
(include/cppsas7bdat/sink/csv.hpp:28-72, called by include/cppsas7bdat/reader.hpp:56-64). -/
def CsvFile.run (x : Texts) (s : CsvFile) : List Column → World → List Event → Res Unit × List Column × World
  | cols, w, [] => (.ok (), cols, w)
  | cols, w, ev :: evs =>
    match s.step x cols w ev with
    | (.ok (), cols, w) => CsvFile.run x s cols w evs
    | r => r

/-- How the sink is given to the reader: as a temporary, `Reader(source, datasink::csv(name))`, or as a named
object (the argument `_sink` of include/cppsas7bdat/reader.hpp:99, 117). -/
inductive SinkArg
  | temporary
  | named
deriving DecidableEq

/-- `datasink::csv(name)` given to a `Reader`, and then the calls of the reader: the constructor of the
reader makes the first call, `set_properties` (src/reader-impl.hpp:23-26). A temporary sink is moved into a
`DatasetSinkModel<T>` (include/cppsas7bdat/reader.hpp:60-71, 99-102) and ends its life when the reader is constructed; a
`DatasetSinkModel<T &>` refers to a named one. -/
def csvToFile (x : Texts) (arg : SinkArg) (name : List Byte) (evs : List Event) (w : World) : Res Unit × World :=
  let (s, w) := CsvFile.construct w 0 name
  let (s, w) := match arg with
    | .temporary => s.moveTo w 1
    | .named => (s, w)
  match s.run x [] w (evs.take 1) with
  | (.error e, _, w) => (.error e, w)
  | (.ok (), cols, w) =>
    let w := match arg with
      | .temporary => w.set 0 .destroyed
      | .named => w
    let (r, _, w) := s.run x cols w (evs.drop 1)
    (r, w)

/-! ## The command line program -/

/-- `datasource::ifstream(name)` and the check that it can be used (include/cppsas7bdat/source/ifstream.hpp,
src/stream.cpp:15-25: `not_a_valid_file` when the file cannot be opened). -/
def openFile (fs : FileSystem) (name : List Byte) : Res IFStream :=
  match fs.content name with
  | some data => .ok (IFStream.open data)
  | none => .error (.exn .notAValidFile)

/-- `get_csv_filename` (apps/cppsas7bdat-ci.cpp:43-50): the name up to and including its last dot, then
`csv`; a name without a dot is just followed by `csv`. -/
def csvFilename (name : List Byte) : List Byte :=
  let rest := name.reverse.dropWhile (· ≠ 46)
  (if rest = [] then name else rest.reverse) ++ ascii "csv"

/-- The loop of `process_print` (apps/cppsas7bdat-ci.cpp:38-40), with at most `fuel` iterations. -/
def printLoop {σ : Type} (S : Source σ) : (fuel : Nat) → (n : Int) → Reader σ → Res Unit × Reader σ
  | 0, n, R => (if n = 0 then .ok () else .error .fuel, R)
  | f + 1, n, R =>
    if n = 0 then (.ok (), R)
    else match R.readRow S with
    | (.error e, R) => (.error e, R)
    | (.ok false, R) => (.ok (), R)
    | (.ok true, R) => printLoop S f (if n > 0 then n - 1 else n) R

/-- `process_print` (apps/cppsas7bdat-ci.cpp:35-41): what it writes to the standard output, and how it ends.
An exception of the sink ends the program, so that what comes after it does not matter. `fuel` bounds the page
loops; as for `read_all`, the row loop needs one more iteration than there are rows left. -/
def processPrint (cfg : Cfg) (x : Texts) (fuel : Nat) (fs : FileSystem) (name : List Byte) (n : Int) : Printed :=
  match openFile fs name with
  | .error e => ([], .error e)
  | .ok s =>
    match openReader cfg ifs fuel none s with
    | .error e => ([], .error e)
    | .ok R =>
      let (r, R) := printLoop ifs (R.props.md.rowCount - R.rd.row + 1) n R
      (printText x R.trace).andThen ([], r)

/-- `process_null` (apps/cppsas7bdat-ci.cpp:61-65). -/
def processNull (cfg : Cfg) (fuel : Nat) (fs : FileSystem) (name : List Byte) : Res Unit := do
  let s ← openFile fs name
  let R ← openReader cfg ifs fuel none s
  let (r, R) := R.readAll ifs
  nullRun [] R.trace
  r

/-- `process_csv` (apps/cppsas7bdat-ci.cpp:52-59): how it ends and the files afterwards. The sink is made from
the name of the *input*; `csv_filename` is not used. The order in which the arguments of `Reader` are
evaluated is unspecified: `sourceFirst` says which one it is. In either case the streams are opened before
anything is read. -/
def processCsv (cfg : Cfg) (x : Texts) (fuel : Nat) (sourceFirst : Bool) (fs : FileSystem) (name : List Byte) :
    Res Unit × FileSystem :=
  let w : World := ⟨fs, fun _ => .destroyed⟩
  let opened := (CsvFile.construct w 0 name).2.fs
  match sourceFirst, openFile fs name with
  -- the source throws before the sink exists
  | true, .error e => (.error e, fs)
  | _, _ =>
    match openFile opened name with
    | .error e => (.error e, opened)
    | .ok s =>
      match openReader cfg ifs fuel none s with
      | .error e => (.error e, opened)
      | .ok R =>
        let (r, R) := R.readAll ifs
        match csvToFile x .temporary name R.trace w with
        | (.error e, w) => (.error e, w.fs)
        | (.ok (), w) => (r, w.fs)

/-- `for (file : files) process(file)` (apps/cppsas7bdat-ci.cpp:78-94): an exception ends the program. -/
def processFiles {α : Type} (process : α → List Byte → Res Unit × α) : α → List (List Byte) → Res Unit × α
  | a, [] => (.ok (), a)
  | a, f :: fs =>
    match process a f with
    | (.ok (), a) => processFiles process a fs
    | r => r

end Sas
