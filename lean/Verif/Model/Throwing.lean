import Verif.Model.Reader

/-!
# Sinks that throw

The reader together with its sink, which may throw an exception in any call. `Reader.step` of Reader.lean is the
same code for a sink that is only recorded.
-/

namespace Sas

/-- A sink (include/cppsas7bdat/reader.hpp:43-49): what it does in a call. It may throw an exception, and may have
changed by then. -/
structure SinkCode (τ ε : Type) where
  call : τ → Event → Except ε Unit × τ

/-- Why a call of the reader does not return: as in Reader.lean, or an exception of the sink
(no definition of the library: the ends of calls that reach include/cppsas7bdat/reader.hpp:56-64). -/
inductive TStop (ε : Type)
  | reader (s : Stop)
  | sink (e : ε)
deriving DecidableEq

/-- A call that may throw (no definition of the library: the ends of calls that reach include/cppsas7bdat/reader.hpp:56-64). -/
abbrev TRes (ε α : Type) := Except (TStop ε) α

/-- A reader and its sink (`m_sink`, src/reader-impl.hpp:57). The trace of the reader holds every call that has
been made, also those that have thrown. -/
structure TReader (σ τ : Type) where
  reader : Reader σ
  sink : τ

variable {σ τ ε : Type}

/-- A call on the sink (src/reader-impl.hpp:33-37). -/
def TReader.emit (K : SinkCode τ ε) (T : TReader σ τ) (e : Event) : TRes ε Unit × TReader σ τ :=
  match K.call T.sink e with
  | (.ok (), s) => (.ok (), ⟨T.reader.emit e, s⟩)
  | (.error x, s) => (.error (.sink x), ⟨T.reader.emit e, s⟩)

/-- `Reader::Reader(source, sink, filter)` (src/reader.cpp:26-39, src/reader-impl.hpp:23-26): when `set_properties`
throws there is no reader. -/
def openThrowing (K : SinkCode τ ε) (cfg : Cfg) (S : Source σ) (fuel : Nat) (filter : Option Filter) (s : σ) (k : τ) :
    TRes ε (TReader σ τ) :=
  match openReader cfg S fuel filter s with
  | .error e => .error (.reader e)
  | .ok R =>
    match K.call k (.setProperties R.props) with
    | (.ok (), k) => .ok ⟨R, k⟩
    | (.error x, _) => .error (.sink x)

/-- `read_row` (src/reader-impl.hpp:90-99). -/
def TReader.readRow (K : SinkCode τ ε) (S : Source σ) (T : TReader σ τ) : TRes ε Bool × TReader σ τ :=
  let rowIndex := T.reader.currentRowIndex
  match T.reader.rd.readLine T.reader.env S T.reader.props.md with
  | (.error e, rd) => (.error (.reader e), { T with reader := { T.reader with rd := rd } })
  | (.ok none, rd) =>
    match ({ T with reader := { T.reader with rd := rd } } : TReader σ τ).emit K .endOfData with
    | (.ok (), T) => (.ok false, T)
    | (.error x, T) => (.error x, T)
  | (.ok (some row), rd) =>
    match ({ T with reader := { T.reader with rd := rd } } : TReader σ τ).emit K (.pushRow rowIndex row) with
    | (.ok (), T) => (.ok true, T)
    | (.error x, T) => (.error x, T)

/-- `read_row_no_sink` (src/reader-impl.hpp:85-88). -/
def TReader.readRowNoSink (S : Source σ) (T : TReader σ τ) : TRes ε (Option Row) × TReader σ τ :=
  match T.reader.rd.readLine T.reader.env S T.reader.props.md with
  | (.error e, rd) => (.error (.reader e), { T with reader := { T.reader with rd := rd } })
  | (.ok r, rd) => (.ok r, { T with reader := { T.reader with rd := rd } })

/-- `skip` (src/reader-impl.hpp:78-83). -/
def TReader.skip (K : SinkCode τ ε) (S : Source σ) (n : Nat) (T : TReader σ τ) : TRes ε Bool × TReader σ τ :=
  match T.reader.rd.skip T.reader.env S T.reader.props.md n with
  | (.error e, rd) => (.error (.reader e), { T with reader := { T.reader with rd := rd } })
  | (.ok true, rd) => (.ok true, { T with reader := { T.reader with rd := rd } })
  | (.ok false, rd) =>
    match ({ T with reader := { T.reader with rd := rd } } : TReader σ τ).emit K .endOfData with
    | (.ok (), T) => (.ok false, T)
    | (.error x, T) => (.error x, T)

/-- `read_rows` (src/reader-impl.hpp:45-49). -/
def TReader.readRows (K : SinkCode τ ε) (S : Source σ) : (n : Nat) → TReader σ τ → TRes ε Bool × TReader σ τ
  | 0, T => (.ok true, T)
  | n + 1, T =>
    match T.readRow K S with
    | (.error e, T) => (.error e, T)
    | (.ok false, T) => (.ok false, T)
    | (.ok true, T) => TReader.readRows K S n T

/-- The loop of `read_all` (src/reader-impl.hpp:51-54), as in Reader.lean. -/
def TReader.readAllLoop (K : SinkCode τ ε) (S : Source σ) : (fuel : Nat) → TReader σ τ → TRes ε Unit × TReader σ τ
  | 0, T => (.error (.reader .fuel), T)
  | n + 1, T =>
    match T.readRow K S with
    | (.error e, T) => (.error e, T)
    | (.ok false, T) => (.ok (), T)
    | (.ok true, T) => TReader.readAllLoop K S n T

/-- `read_all` (src/reader-impl.hpp:51-54), as in Reader.lean. -/
def TReader.readAll (K : SinkCode τ ε) (S : Source σ) (T : TReader σ τ) : TRes ε Unit × TReader σ τ :=
  TReader.readAllLoop K S (T.reader.props.md.rowCount - T.reader.rd.row + 1) T

/-- One call (src/reader.cpp:46-72). -/
def TReader.step (K : SinkCode τ ε) (S : Source σ) (T : TReader σ τ) : Op → TRes ε Ret × TReader σ τ
  | .readRow => let (r, T) := T.readRow K S; (r.map .bool, T)
  | .readRows n => let (r, T) := T.readRows K S n; (r.map .bool, T)
  | .readAll => let (r, T) := T.readAll K S; (r.map fun _ => .unit, T)
  | .skip n => let (r, T) := T.skip K S n; (r.map .bool, T)
  | .readRowNoSink => let (r, T) := T.readRowNoSink S; (r.map .ptr, T)
  | .endOfData => let (r, T) := T.emit K .endOfData; (r.map fun _ => .unit, T)

/-- A history: the caller catches the exceptions of the reader and of the sink, and goes on
(a program that uses include/cppsas7bdat/reader.hpp:129-137). -/
def TReader.run (K : SinkCode τ ε) (S : Source σ) : TReader σ τ → List Op → List (TRes ε Ret) × TReader σ τ
  | T, [] => ([], T)
  | T, op :: ops =>
    match T.step K S op with
    | (.ok v, T) => let (rs, T) := TReader.run K S T ops; (.ok v :: rs, T)
    | (.error (.sink e), T) => let (rs, T) := TReader.run K S T ops; (.error (.sink e) :: rs, T)
    | (.error (.reader (.exn e)), T) =>
      let (rs, T) := TReader.run K S T ops; (.error (.reader (.exn e)) :: rs, T)
    | (.error e, T) => ([.error e], T)

end Sas
