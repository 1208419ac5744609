import Verif.Model.ColumnObjects

/-!
# Columns as values

What a program may expect of columns: a copy is as good as the original, whatever becomes of the original and of the reader; a column
that was moved from keeps its texts only.
-/

namespace Sas.Spec

/-- What a program has. -/
inductive ColValue
  /-- A column. -/
  | whole (c : Column)
  /-- What is left of a column that was moved from. -/
  | shell (c : Column)
  /-- An object whose life has ended. -/
  | gone

/-- The columns of the reader and whether it lives; the objects made so far. -/
structure ColWorld where
  cols : List Column
  alive : Bool
  objs : List ColValue

/-- The column of an object that lives. -/
def ColValue.column? : ColValue → Option Column
  | .whole c => some c
  | .shell c => some c
  | .gone => none

/-- One statement; what has no meaning is undefined behaviour. -/
def ColWorld.exec (w : ColWorld) : ColCmd → Res (ColOut × ColWorld)
  | .take i =>
    match w.alive, w.cols[i]? with
    | true, some c => .ok (.done, { w with objs := w.objs ++ [.whole c] })
    | _, _ => .error .ub
  | .copy j =>
    match w.objs[j]? with
    | some (.whole c) => .ok (.done, { w with objs := w.objs ++ [.whole c] })
    | some (.shell c) => .ok (.done, { w with objs := w.objs ++ [.shell c] })
    | _ => .error .ub
  | .move j =>
    match w.objs[j]? with
    | some (.whole c) => .ok (.done, { w with objs := w.objs.set j (.shell c) ++ [.whole c] })
    | some (.shell c) => .ok (.done, { w with objs := w.objs ++ [.shell c] })
    | _ => .error .ub
  | .drop j =>
    match w.objs[j]? with
    | some (.whole _) | some (.shell _) => .ok (.done, { w with objs := w.objs.set j .gone })
    | _ => .error .ub
  | .leave => if w.alive then .ok (.done, { w with alive := false }) else .error .ub
  | .ask j a mem =>
    match w.objs[j]? with
    | some (.whole c) => (c.answer mem a).map fun x => (.answer x, w)
    | _ => .error .ub
  | .look j =>
    match w.objs[j]? with
    | some (.whole c) | some (.shell c) => .ok (.fields c.name c.label c.format c.type, w)
    | _ => .error .ub
  | .same j k =>
    match w.objs[j]?.bind ColValue.column?, w.objs[k]?.bind ColValue.column? with
    | some c, some d => .ok (.equal (c.name == d.name), w)
    | _, _ => .error .ub

/-- A program. -/
def ColWorld.run : ColWorld → List ColCmd → List (Res ColOut) × ColWorld
  | w, [] => ([], w)
  | w, c :: cs =>
    match w.exec c with
    | .ok (o, w) => let (os, w) := w.run cs; (.ok o :: os, w)
    | .error (.exn e) => let (os, w) := w.run cs; (.error (.exn e) :: os, w)
    | .error e => ([.error e], w)

/-- The objects that live. -/
def living (s : ColProgram) : List ColObj := s.own.getD [] ++ s.objs.filterMap id

end Sas.Spec
