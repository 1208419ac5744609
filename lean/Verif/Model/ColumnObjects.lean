import Verif.Model.Several
import Verif.Model.NumText

/-!
# Columns as objects of a program

include/cppsas7bdat/column.hpp:18-110. A `Column` holds texts and a `std::shared_ptr` to its formatter. A program copies the
columns of a reader, moves its own, destroys them in any order and reads cells with them; the reader may be gone by then.
Simplifications: there is memory for every copy; one thread.
-/

namespace Sas

/-- The getters (include/cppsas7bdat/column.hpp:97-106). -/
inductive ColAsk
  | string | number | integer | datetime | date | time | text | length
deriving DecidableEq

/-- What they return (include/cppsas7bdat/column.hpp:97-106). -/
inductive ColAnswer
  | str (s : List Byte)
  | num (x : Num)
  | int (i : Int)
  | datetime (t : DateTime)
  | date (d : Date)
  | time (t : Duration)
  | size (n : Nat)
deriving DecidableEq

/-- `FormatterModel` (include/cppsas7bdat/column.hpp:41-71): each getter is that of the formatter. -/
def Column.answer (c : Column) (mem : List Byte) : ColAsk → Res ColAnswer
  | .string => (c.getString mem).map .str
  | .number => (c.getNumber mem).map .num
  | .integer => (c.getInteger mem).map .int
  | .datetime => (c.getDatetime mem).map .datetime
  | .date => (c.getDate mem).map .date
  | .time => (c.getTime mem).map .time
  | .text => (c.toText stdToString mem).map .str
  | .length => .ok (.size c.length)

/-- A `Column` (include/cppsas7bdat/column.hpp:92-95, 109); `pimpl` is null after the column has been moved from. -/
structure ColObj where
  name : List Byte
  label : List Byte
  format : List Byte
  type : ColType
  pimpl : Option Nat
deriving DecidableEq

/-- What a `shared_ptr` refers to: the formatter, and the number of pointers to it (include/cppsas7bdat/column.hpp:24, 79-80, 109). -/
structure FmtBlock where
  fmt : Formatter
  offset : Nat
  length : Nat
  uses : Nat
deriving DecidableEq

/-- The formatters that exist (include/cppsas7bdat/column.hpp:24, 79-80, 109). -/
abbrev FmtHeap := Nat → Option FmtBlock

/-- The copy of a `shared_ptr` (include/cppsas7bdat/column.hpp:83). -/
def FmtHeap.share (h : FmtHeap) : Option Nat → Res FmtHeap
  | none => .ok h
  | some b =>
    match h b with
    | some k => .ok (put h b (some { k with uses := k.uses + 1 }))
    | none => .error .ub

/-- The destructor of a `shared_ptr`: the last one destroys the formatter
(the member `pimpl`, include/cppsas7bdat/column.hpp:109, of a `Column` that is destroyed). -/
def FmtHeap.release (h : FmtHeap) : Option Nat → Res FmtHeap
  | none => .ok h
  | some b =>
    match h b with
    | some k => .ok (put h b (if k.uses = 1 then none else some { k with uses := k.uses - 1 }))
    | none => .error .ub

/-- The destructors of the elements of a vector (`COLUMNS`, include/cppsas7bdat/column.hpp:117). -/
def FmtHeap.releaseAll : FmtHeap → List ColObj → Res FmtHeap
  | h, [] => .ok h
  | h, o :: os => do (← h.release o.pimpl).releaseAll os

/-- A program: the columns of the reader, as long as it lives; the objects the program has made, as long as they live; the
formatters (a program that uses include/cppsas7bdat/column.hpp:81-106; the columns are those of include/cppsas7bdat/reader.hpp:127). -/
structure ColProgram where
  own : Option (List ColObj)
  objs : List (Option ColObj)
  heap : FmtHeap

/-- A statement. Objects have numbers in the order in which they were made
(a program that uses include/cppsas7bdat/column.hpp:81-106; the columns are those of include/cppsas7bdat/reader.hpp:127). -/
inductive ColCmd
  /-- `Column x(reader.properties().columns[i])`. -/
  | take (i : Nat)
  /-- `Column x(y)`. -/
  | copy (j : Nat)
  /-- `Column x(std::move(y))`. -/
  | move (j : Nat)
  /-- The end of the life of `x`. -/
  | drop (j : Nat)
  /-- The end of the life of the reader. -/
  | leave
  /-- `x.get_…(p)`, `x.to_string(p)`, `x.length()`. -/
  | ask (j : Nat) (a : ColAsk) (mem : List Byte)
  /-- `x.name`, `x.label`, `x.format`, `x.type`. -/
  | look (j : Nat)
  /-- `x == y`. -/
  | same (j k : Nat)

/-- What a statement gives
(a program that uses include/cppsas7bdat/column.hpp:81-106; the columns are those of include/cppsas7bdat/reader.hpp:127). -/
inductive ColOut
  | done
  | answer (x : ColAnswer)
  | fields (name label format : List Byte) (type : ColType)
  | equal (b : Bool)
deriving DecidableEq

/-- An object that lives (an object of include/cppsas7bdat/column.hpp:18). -/
def ColProgram.at (s : ColProgram) (j : Nat) : Res ColObj :=
  match s.objs[j]? with
  | some (some o) => .ok o
  | _ => .error .ub

/-- The columns of a reader that lives (`properties().columns`, include/cppsas7bdat/reader.hpp:127). -/
def ColProgram.column (s : ColProgram) (i : Nat) : Res ColObj :=
  match s.own with
  | some l =>
    match l[i]? with
    | some o => .ok o
    | none => .error .ub
  | none => .error .ub

/-- The copy constructor (include/cppsas7bdat/column.hpp:81-83). -/
def ColProgram.copyOf (s : ColProgram) (o : ColObj) : Res ColProgram := do
  return { s with objs := s.objs ++ [some o], heap := ← s.heap.share o.pimpl }

/-- A getter (include/cppsas7bdat/column.hpp:97-106): `pimpl->…`. -/
def ColObj.ask (h : FmtHeap) (o : ColObj) (a : ColAsk) (mem : List Byte) : Res ColAnswer :=
  match o.pimpl with
  | none => .error .ub
  | some b =>
    match h b with
    | none => .error .ub
    | some k => Column.answer ⟨o.name, o.label, o.format, k.fmt, k.offset, k.length⟩ mem a

/-- One statement
(a program that uses include/cppsas7bdat/column.hpp:81-106; the columns are those of include/cppsas7bdat/reader.hpp:127). -/
def ColProgram.exec (s : ColProgram) : ColCmd → Res (ColOut × ColProgram)
  | .take i => do return (.done, ← s.copyOf (← s.column i))
  | .copy j => do return (.done, ← s.copyOf (← s.at j))
  -- include/cppsas7bdat/column.hpp:84-86
  | .move j => do
    let o ← s.at j
    return (.done, { s with objs := s.objs.set j (some { o with pimpl := none }) ++ [some o] })
  | .drop j => do
    let o ← s.at j
    return (.done, { s with objs := s.objs.set j none, heap := ← s.heap.release o.pimpl })
  | .leave =>
    match s.own with
    | none => .error .ub
    | some l => do return (.done, { s with own := none, heap := ← s.heap.releaseAll l })
  | .ask j a mem => do
    let o ← s.at j
    return (.answer (← o.ask s.heap a mem), s)
  | .look j => do
    let o ← s.at j
    return (.fields o.name o.label o.format o.type, s)
  -- include/cppsas7bdat/column.hpp:88-90
  | .same j k => do
    let o ← s.at j
    let p ← s.at k
    return (.equal (o.name == p.name), s)

/-- The program: it catches exceptions; nothing more happens after another error
(a program that uses include/cppsas7bdat/column.hpp:81-106; the columns are those of include/cppsas7bdat/reader.hpp:127). -/
def ColProgram.run : ColProgram → List ColCmd → List (Res ColOut) × ColProgram
  | s, [] => ([], s)
  | s, c :: cs =>
    match s.exec c with
    | .ok (o, s) => let (os, s) := s.run cs; (.ok o :: os, s)
    | .error (.exn e) => let (os, s) := s.run cs; (.error (.exn e) :: os, s)
    | .error e => ([.error e], s)

/-- The constructor with a formatter (include/cppsas7bdat/column.hpp:75-80, src/metadata.hpp:443-449). -/
def Column.object (c : Column) (b : Nat) : ColObj := ⟨c.name, c.label, c.format, c.type, some b⟩

/-- After a reader with these columns has been made (src/metadata.hpp:411-497): each column has a formatter of its own. The
temporary objects on the way have been moved from. -/
def ColProgram.start (cols : List Column) : ColProgram where
  own := some (cols.mapIdx fun i c => c.object i)
  objs := []
  heap b := cols[b]?.map fun c => ⟨c.fmt, c.offset, c.length, 1⟩

end Sas
