import Verif.Model.Reader

/-!
# Programs with several readers

include/cppsas7bdat/reader.hpp:24-127, src/reader.cpp. A `Reader` is a variable of the program; sources and sinks are handed
to its constructor by value, then the reader owns them, or by name, then it keeps a reference (`DataSourceModel<T &>`,
`DatasetSinkModel<T &>`). The library has no variables of its own that change (the only ones are the constants of
src/reader.cpp:42 and python/pycppsas7bdat/cpp/import_datetime.cpp:24). Simplifications: objects handed over by name live to the end of
the program; sinks are handed over by name (one that a reader owns is one that nobody else names); sinks do not throw; one thread.
-/

namespace Sas

variable {σ : Type}

/-- How a source is handed over (include/cppsas7bdat/reader.hpp:95-98). -/
inductive Given (σ : Type)
  | own (s : σ)
  | named (i : Nat)

/-- A statement of the program (a program that uses include/cppsas7bdat/reader.hpp:114-139). -/
inductive Cmd (σ : Type)
  /-- `v = Reader(source, sink, filter)` (include/cppsas7bdat/reader.hpp:115-120), the sink by name. -/
  | make (v : Nat) (place : Given σ) (sink : Nat) (filter : Option Filter)
  /-- A call on `v`. -/
  | call (v : Nat) (op : Op)
  /-- `v = std::move(w)` (src/reader.cpp:14). -/
  | move (v w : Nat)
  /-- `v = Reader()` (src/reader.cpp:12). -/
  | clear (v : Nat)

/-- What is behind a variable: the reader (`m_pimpl`), the source it refers to, if by name, and its sink. `id` is not in the
program: the number of the statement that has made the reader
(include/cppsas7bdat/reader.hpp:109; src/reader-impl.hpp:57; include/cppsas7bdat/reader.hpp:40). -/
structure Held (σ : Type) where
  id : Nat
  reader : Reader σ
  src : Option Nat
  sink : Nat

/-- The variables, the sources that have names, what the sinks have been told, by which readers, and the number of
statements so far (a program that uses include/cppsas7bdat/reader.hpp:114-139). -/
structure Program (σ : Type) where
  vars : Nat → Option (Held σ)
  objs : Nat → Option σ
  told : Nat → List (Nat × Event)
  count : Nat

/-- What a statement comes to (a program that uses include/cppsas7bdat/reader.hpp:114-139). -/
inductive Outcome
  | made
  | failed (e : Stop)
  | returned (r : Res Ret)
  | done
  /-- The source has been used by a reader that could not be opened; its state is not modelled. -/
  | unknown
deriving DecidableEq

/-- Assignment to one place
(no definition of the library: for the variables of a program that uses include/cppsas7bdat/reader.hpp:114-139). -/
def put {α : Type} (f : Nat → α) (i : Nat) (a : α) : Nat → α := fun j => if j = i then a else f j

/-- The reader with its source as it is now: a reference refers to the object (include/cppsas7bdat/reader.hpp:40, 95-98). -/
def Held.load (h : Held σ) (objs : Nat → Option σ) : Option (Reader σ) :=
  match h.src with
  | none => some h.reader
  | some i => (objs i).map fun s => { h.reader with rd := { h.reader.rd with p := { h.reader.rd.p with src := s } } }

/-- `Reader::Reader` (include/cppsas7bdat/reader.hpp:115-120, src/reader.cpp:22-39): the variable keeps its old value when
the constructor throws. -/
def Program.make (cfg : Cfg) (S : Source σ) (fuel : Nat) (w : Program σ) (v : Nat) (place : Given σ) (sink : Nat)
    (filter : Option Filter) : Outcome × Program σ :=
  match (match place with | .own s => some s | .named i => w.objs i) with
  | none => (.unknown, w)
  | some s =>
    match openReader cfg S fuel filter s, place with
    | .error e, .own _ => (.failed e, w)
    | .error e, .named i => (.failed e, { w with objs := put w.objs i none })
    | .ok R, .own _ =>
      (.made, { w with vars := put w.vars v (some ⟨w.count, R, none, sink⟩)
                       told := put w.told sink (w.told sink ++ R.trace.map fun e => (w.count, e)) })
    | .ok R, .named i =>
      (.made, { w with vars := put w.vars v (some ⟨w.count, R, some i, sink⟩)
                       objs := put w.objs i (some R.rd.p.src)
                       told := put w.told sink (w.told sink ++ R.trace.map fun e => (w.count, e)) })

/-- A call on a variable (src/reader.cpp:46-72). The sink is told what the call adds to what the reader has told. -/
def Program.call (S : Source σ) (w : Program σ) (v : Nat) (op : Op) : Outcome × Program σ :=
  match w.vars v with
  | none => (.returned (ApiReader.step S none op).1, w)
  | some h =>
    match h.load w.objs with
    | none => (.unknown, w)
    | some R =>
      let (r, R') := R.step S op
      let w := { w with vars := put w.vars v (some { h with reader := R' })
                        told := put w.told h.sink (w.told h.sink ++ (R'.trace.drop R.trace.length).map fun e => (h.id, e)) }
      match h.src with
      | none => (.returned r, w)
      | some i => (.returned r, { w with objs := put w.objs i (some R'.rd.p.src) })

/-- One statement. A reader moved to itself stays (`std::unique_ptr`) (include/cppsas7bdat/reader.hpp:115-139, src/reader.cpp:14). -/
def Program.step (cfg : Cfg) (S : Source σ) (fuel : Nat) (w : Program σ) : Cmd σ → Outcome × Program σ
  | .make v place sink filter => let (o, w') := w.make cfg S fuel v place sink filter; (o, { w' with count := w.count + 1 })
  | .call v op => let (o, w') := w.call S v op; (o, { w' with count := w.count + 1 })
  | .move v u => (.done, { w with vars := if v = u then w.vars else put (put w.vars v (w.vars u)) u none, count := w.count + 1 })
  | .clear v => (.done, { w with vars := put w.vars v none, count := w.count + 1 })

/-- Does the program end here? (a program that uses include/cppsas7bdat/reader.hpp:114-139). -/
def Outcome.fatal : Outcome → Bool
  | .failed (.exn _) | .returned (.error (.exn _)) | .returned (.ok _) | .made | .done => false
  | _ => true

/-- The program: it catches exceptions; nothing more happens after another error
(a program that uses include/cppsas7bdat/reader.hpp:114-139). -/
def Program.run (cfg : Cfg) (S : Source σ) (fuel : Nat) : Program σ → List (Cmd σ) → List Outcome × Program σ
  | w, [] => ([], w)
  | w, c :: cs =>
    match w.step cfg S fuel c with
    | (o, w) => if o.fatal then ([o], w) else let (os, w) := Program.run cfg S fuel w cs; (o :: os, w)

/-- Before the first statement (a program that uses include/cppsas7bdat/reader.hpp:114-139). -/
def Program.start (objs : Nat → σ) : Program σ := ⟨fun _ => none, fun i => some (objs i), fun _ => [], 0⟩

end Sas
