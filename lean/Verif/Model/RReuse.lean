import Verif.Model.RFront

/-!
# Reading another file into an R sink that has been used already

R/CPPSAS7BDAT/src/reader.cpp, R/sink.R. RFront.lean has the first file of a new sink. The reader of the earlier file is not
used any more, so that the vectors its C++ sink shares with the frame do not change.
-/

namespace Sas

/-- Can this be an element of a character vector? (in `rbind(self$df, rows)`, R/CPPSAS7BDAT/R/sink.R:44). -/
def RVal.isText : RVal → Bool
  | .str _ | .na | .fresh => true
  | _ => false

/-- Can this be an element of an integer vector? (in `rbind(self$df, rows)`, R/CPPSAS7BDAT/R/sink.R:44). -/
def RVal.isInt : RVal → Bool
  | .int _ | .fresh => true
  | _ => false

/-- Can this be an element of a numeric vector? (in `rbind(self$df, rows)`, R/CPPSAS7BDAT/R/sink.R:44). -/
def RVal.isNum : RVal → Bool
  | .num _ | .fresh => true
  | _ => false

/-- Elements of a vector put behind those of another one. What R makes of two vectors that have not the same type is left
open (`mix`) (in `rbind(self$df, rows)`, R/CPPSAS7BDAT/R/sink.R:44). -/
def rConcat (mix : List RVal → List RVal → List RVal) (a b : List RVal) : List RVal :=
  if (a ++ b).all RVal.isText ∨ (a ++ b).all RVal.isInt ∨ (a ++ b).all RVal.isNum then a ++ b else mix a b

/-- The columns of `b` behind those of `a` that have the same name (in `rbind(self$df, rows)`, R/CPPSAS7BDAT/R/sink.R:44). -/
def rMatch (mix : List RVal → List RVal → List RVal) (b : RTable) : RTable → PyM RTable
  | [] => .ok []
  | x :: a =>
    match b.find? fun y => y.1 = x.1 with
    | none => .error .raised
    | some y => do return (x.1, rConcat mix x.2 y.2) :: (← rMatch mix b a)

/-- `rbind(a, b)` for two data frames: frames without columns are left out; the number of columns must be the same; the
columns are matched by their names, which are distinct in a frame (in `rbind(self$df, rows)`, R/CPPSAS7BDAT/R/sink.R:44). -/
def rBindFrames (mix : List RVal → List RVal → List RVal) (a b : RTable) : PyM RTable :=
  if a = [] then .ok b
  else if b = [] then .ok a
  else if a.length ≠ b.length then .error .raised
  else if a.map Prod.fst = b.map Prod.fst then .ok (List.zipWith (fun x y => (x.1, rConcat mix x.2 y.2)) a b)
  else rMatch mix b a

/-- `push_rows` (R/CPPSAS7BDAT/R/sink.R:41-45) of a sink in any state; `st` is the C++ sink, whose list `rows` is the argument. -/
def RObj.pushRowsInto (unique : List (List Byte) → List (List Byte)) (mix : List RVal → List RVal → List RVal) (o : RObj)
    (st : RCols) : PyM RObj :=
  let names := rFrameNames unique (st.cols.map fun g => cString g.1.name)
  match o.df.look st with
  | none => .ok { o with df := .shared names st.list }
  | some t => do return { o with df := .own (← rBindFrames mix t (names.zip (st.list.map st.heap.get))) }

/-- The sink object after the reader has gone
(R/CPPSAS7BDAT/R/sink.R:8-63; its C++ side, R/CPPSAS7BDAT/src/reader.cpp:31-47, goes with the reader). -/
def RSink.left (s : RSink) : RObj :=
  { s.obj with df := match s.df with
    | none => .null
    | some t => .own t }

/-- A call of the reader on a sink in any state (as `RSink.event`)
(R/CPPSAS7BDAT/src/sink.hpp:19-91, R/CPPSAS7BDAT/src/sink_chunk.hpp:22-45, R/CPPSAS7BDAT/src/sink_data.hpp:20-27 with R/CPPSAS7BDAT/R/sink.R:8-63). -/
def RSink.eventInto (unique : List (List Byte) → List (List Byte)) (mix : List RVal → List RVal → List RVal) (s : RSink)
    (ev : Event) : PyM RSink := do
  let obj ← s.obj.told ev
  match s.cpp with
  | .row st => do
    let (st, _) ← PyM.ofRes (st.step ev)
    return { obj := obj, cpp := .row st }
  | .chunk st => do
    let (st, out) ← PyM.ofRes (st.step ev)
    if delivers out then return { obj := ← obj.pushRowsInto unique mix st, cpp := .chunk st }
    else return { obj := obj, cpp := .chunk st }
  | .data st => do
    let (st, out) ← PyM.ofRes (st.dataStep ev)
    return { obj := if delivers out then { obj with df := .list } else obj, cpp := .data st }

/-- The calls of the reader on the sink, one after the other
(R/CPPSAS7BDAT/src/sink.hpp:19-91, R/CPPSAS7BDAT/src/sink_chunk.hpp:22-45, R/CPPSAS7BDAT/src/sink_data.hpp:20-27 with R/CPPSAS7BDAT/R/sink.R:8-63). -/
def RSink.eventsInto (unique : List (List Byte) → List (List Byte)) (mix : List RVal → List RVal → List RVal) :
    RSink → List Event → PyM RSink
  | s, [] => .ok s
  | s, ev :: evs => do (← s.eventInto unique mix ev).eventsInto unique mix evs

/-- A sink object with the C++ sink `_build` makes for it (R/CPPSAS7BDAT/src/reader.cpp:31-47). -/
def RSink.around (obj : RObj) : RSink := { RSink.new obj.kind with obj := obj }

variable {σ : Type}

/-- `sas_reader(filename, sink, include, exclude)` (R/CPPSAS7BDAT/R/reader.R:6-10, src/reader.cpp:22-53) for a sink
of sink.R in any state. -/
def rOpenInto (unique : List (List Byte) → List (List Byte)) (mix : List RVal → List RVal → List RVal) (cfg : Cfg)
    (fuel : Nat) (fs : FileSystem) (name : List Byte) (obj : RObj) (incl excl : RArg) : PyM (RSession IFStream) := do
  let f ← rFilter incl excl
  let src ← PyM.ofRes (openFile fs (name.takeWhile (· ≠ 0)))
  let R ← PyM.ofRes (openReader cfg ifs fuel (some f) src)
  return { reader := R, sink := ← (RSink.around obj).eventsInto unique mix R.trace }

/-- A method of the reader (R/CPPSAS7BDAT/src/reader.cpp:59-79). -/
def RSession.opInto (unique : List (List Byte) → List (List Byte)) (mix : List RVal → List RVal → List RVal) (S : Source σ)
    (s : RSession σ) (op : Op) : PyM (RSession σ) := do
  let (r, R) := s.reader.step S op
  let sink ← s.sink.eventsInto unique mix (R.trace.drop s.reader.trace.length)
  let _ ← PyM.ofRes r
  return { reader := R, sink := sink }

/-- Methods one after the other (a program that uses R/CPPSAS7BDAT/R/reader.R:6-10 and R/CPPSAS7BDAT/src/reader.cpp:55-79). -/
def RSession.opsInto (unique : List (List Byte) → List (List Byte)) (mix : List RVal → List RVal → List RVal) (S : Source σ) :
    RSession σ → List Op → PyM (RSession σ)
  | s, [] => .ok s
  | s, op :: ops => do (← s.opInto unique mix S op).opsInto unique mix S ops

/-- A program that opens a file with a sink in any state and then calls methods of the reader: the session at the end
(a program that uses R/CPPSAS7BDAT/R/reader.R:6-10 and R/CPPSAS7BDAT/src/reader.cpp:55-79). -/
def rProgramInto (unique : List (List Byte) → List (List Byte)) (mix : List RVal → List RVal → List RVal) (cfg : Cfg)
    (fuel : Nat) (fs : FileSystem) (name : List Byte) (obj : RObj) (incl excl : RArg) (ops : List Op) :
    PyM (RSession IFStream) := do
  (← rOpenInto unique mix cfg fuel fs name obj incl excl).opsInto unique mix ifs ops

end Sas
