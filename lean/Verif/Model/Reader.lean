import Verif.Model.Data

/-!
# src/reader-impl.hpp, src/reader.cpp: the public reader and the calls it makes on the sink
-/

namespace Sas

/-- `Properties` (include/cppsas7bdat/properties.hpp:17-80). -/
structure Properties where
  header : Header
  md : Meta
  columns : List Column
deriving DecidableEq

/-- The calls made on the sink (include/cppsas7bdat/reader.hpp:43-49). -/
inductive Event
  | setProperties (p : Properties)
  | pushRow (i : Nat) (r : Row)
  | endOfData
deriving DecidableEq

/-- `Reader::impl` and `ReaderImpl` (src/reader-impl.hpp:19-59, 63-103), with the list of the calls
made so far on the sink. Simplification: the sink does not throw (Throwing.lean has sinks that do). -/
structure Reader (σ : Type) where
  env : Env
  props : Properties
  rd : RD σ
  trace : List Event

/-- `Reader::Reader(source, sink, filter)`: `impl::build` (src/reader.cpp:26-39), i.e. `READ::data`
(src/sas7bdat-impl.hpp:43-160) followed by the `impl` constructor, which calls `set_properties`
(src/reader-impl.hpp:23-26). `fuel` bounds the page loops (see `Env`). -/
def openReader {σ : Type} (cfg : Cfg) (S : Source σ) (fuel : Nat) (filter : Option Filter) (s : σ) :
    Res (Reader σ) := do
  let (h, b, s) ← readHeader cfg S s
  let env : Env := { cfg := cfg, endian := h.endian, format := h.format, pageLength := h.pageLength
                     fuel := fuel }
  let (p, acc) ← metaLoop env S fuel ⟨s, b, PageHdr.reset⟩ {}
  let columns ← createColumns cfg h.endian acc filter
  let rd ← RD.build env p acc
  let props : Properties := { header := h, md := acc.md, columns := columns }
  return { env := env, props := props, rd := rd, trace := [.setProperties props] }

variable {σ : Type}

/-- One more call on the sink (src/reader-impl.hpp:25, 34, 37). -/
def Reader.emit (R : Reader σ) (e : Event) : Reader σ := { R with trace := R.trace ++ [e] }

/-- `end_of_data` (src/reader-impl.hpp:37). -/
def Reader.endOfData (R : Reader σ) : Reader σ := R.emit .endOfData

/-- `current_row_index` (src/reader-impl.hpp:74-76). -/
def Reader.currentRowIndex (R : Reader σ) : Nat := R.rd.row

/-- `read_row` (src/reader-impl.hpp:90-99). -/
def Reader.readRow (S : Source σ) (R : Reader σ) : Res Bool × Reader σ :=
  let rowIndex := R.currentRowIndex
  match R.rd.readLine R.env S R.props.md with
  | (.error e, rd) => (.error e, { R with rd := rd })
  | (.ok none, rd) => (.ok false, { R with rd := rd }.endOfData)
  | (.ok (some row), rd) => (.ok true, { R with rd := rd }.emit (.pushRow rowIndex row))

/-- `read_row_no_sink` (src/reader-impl.hpp:85-88); `none` is the null pointer. -/
def Reader.readRowNoSink (S : Source σ) (R : Reader σ) : Res (Option Row) × Reader σ :=
  match R.rd.readLine R.env S R.props.md with
  | (res, rd) => (res, { R with rd := rd })

/-- `skip` (src/reader-impl.hpp:78-83). -/
def Reader.skip (S : Source σ) (n : Nat) (R : Reader σ) : Res Bool × Reader σ :=
  match R.rd.skip R.env S R.props.md n with
  | (.error e, rd) => (.error e, { R with rd := rd })
  | (.ok true, rd) => (.ok true, { R with rd := rd })
  | (.ok false, rd) => (.ok false, { R with rd := rd }.endOfData)

/-- `read_rows` (src/reader-impl.hpp:45-49). -/
def Reader.readRows (S : Source σ) : (n : Nat) → Reader σ → Res Bool × Reader σ
  | 0, R => (.ok true, R)
  | n + 1, R =>
    match R.readRow S with
    | (.error e, R) => (.error e, R)
    | (.ok false, R) => (.ok false, R)
    | (.ok true, R) => Reader.readRows S n R

/-- The loop of `read_all` (src/reader-impl.hpp:51-54) with at most `fuel` calls of `read_row`. -/
def Reader.readAllLoop (S : Source σ) : (fuel : Nat) → Reader σ → Res Unit × Reader σ
  | 0, R => (.error .fuel, R)
  | n + 1, R =>
    match R.readRow S with
    | (.error e, R) => (.error e, R)
    | (.ok false, R) => (.ok (), R)
    | (.ok true, R) => Reader.readAllLoop S n R

/-- `read_all` (src/reader-impl.hpp:51-54). Every successful `read_row` increments the row number,
which never exceeds the announced row count, so that one more call than there are rows left always
suffices (`readAll_fuel_adequate` in Proofs/Reader.lean). -/
def Reader.readAll (S : Source σ) (R : Reader σ) : Res Unit × Reader σ :=
  Reader.readAllLoop S (R.props.md.rowCount - R.rd.row + 1) R

/-- The operations of the public interface that change something
(include/cppsas7bdat/reader.hpp:129-137). -/
inductive Op
  | readRow
  | readRows (n : Nat)
  | readAll
  | skip (n : Nat)
  | readRowNoSink
  | endOfData
deriving DecidableEq, Repr

/-- What an operation returns (include/cppsas7bdat/reader.hpp:129-137). -/
inductive Ret
  | unit
  | bool (b : Bool)
  | ptr (r : Option Row)
deriving DecidableEq

/-- One call on a constructed reader (src/reader.cpp:46-72 with a reader that is not empty; src/reader-impl.hpp:37-54, 78-99). -/
def Reader.step (S : Source σ) (R : Reader σ) : Op → Res Ret × Reader σ
  | .readRow => let (r, R) := R.readRow S; (r.map .bool, R)
  | .readRows n => let (r, R) := R.readRows S n; (r.map .bool, R)
  | .readAll => let (r, R) := R.readAll S; (r.map fun _ => .unit, R)
  | .skip n => let (r, R) := R.skip S n; (r.map .bool, R)
  | .readRowNoSink => let (r, R) := R.readRowNoSink S; (r.map .ptr, R)
  | .endOfData => (.ok .unit, R.endOfData)

/-- A history: the caller issues the operations one after the other, catching exceptions; after a
`terminate`, undefined behaviour or a divergence nothing more happens (a program that uses include/cppsas7bdat/reader.hpp:129-137). -/
def Reader.run (S : Source σ) : Reader σ → List Op → List (Res Ret) × Reader σ
  | R, [] => ([], R)
  | R, op :: ops =>
    match R.step S op with
    | (.ok v, R) => let (rs, R) := Reader.run S R ops; (.ok v :: rs, R)
    | (.error (.exn e), R) => let (rs, R) := Reader.run S R ops; (.error (.exn e) :: rs, R)
    | (.error e, R) => ([.error e], R)

/-- `Reader` as the user sees it: `none` is a default-constructed or moved-from reader (null `m_pimpl`),
on which every member function is a no-op (src/reader.cpp:41-72). -/
abbrev ApiReader (σ : Type) := Option (Reader σ)

/-- The member functions of `Reader` (src/reader.cpp:46-72). -/
def ApiReader.step (S : Source σ) (R : ApiReader σ) (op : Op) : Res Ret × ApiReader σ :=
  match R with
  | some R => let (r, R) := R.step S op; (r, some R)
  | none =>
    match op with
    | .readRow => (.ok (.bool false), none)
    | .readRows _ => (.ok (.bool false), none)
    | .readAll => (.ok .unit, none)
    | .skip _ => (.ok (.bool false), none)
    | .readRowNoSink => (.ok (.ptr none), none)
    | .endOfData => (.ok .unit, none)

/-- `Reader::current_row_index` (src/reader.cpp:66-68). -/
def ApiReader.currentRowIndex (R : ApiReader σ) : Nat :=
  match R with
  | some R => R.currentRowIndex
  | none => 0

/-- `Reader::properties` (src/reader.cpp:41-44); `none` stands for the static empty properties. -/
def ApiReader.properties (R : ApiReader σ) : Option Properties := R.map Reader.props

end Sas
