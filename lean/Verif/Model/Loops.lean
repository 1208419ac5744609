import Verif.Model.PyFront
import Verif.Model.RFront

/-!
# Loops that read until the end

What programs do with the result of `read_row`, `read_rows` and `skip` (include/cppsas7bdat/reader.hpp:129-137): they
call again as long as it is true. The loops below are big-step: `X.Loop op s s'` says that the loop, started in `s`, ends
and leaves `s'`. A call that throws leaves the loop; this is not an end.
-/

namespace Sas

variable {σ : Type}

/-- `while (reader.read_rows(n)) {}`, and the same with `read_row()` and `skip(n)`, in C++
(include/cppsas7bdat/reader.hpp:129-137). -/
inductive Reader.Loop (S : Source σ) (op : Op) : Reader σ → Reader σ → Prop
  | stop {R R' : Reader σ} (h : R.step S op = (.ok (.bool false), R')) : Reader.Loop S op R R'
  | again {R R' R'' : Reader σ} (h : R.step S op = (.ok (.bool true), R')) (ht : Reader.Loop S op R' R'') :
      Reader.Loop S op R R''

/-- A method and its result (python/pycppsas7bdat/cpp/reader.cpp:100-104): boost.python makes a `bool` of a `bool`, `None`
of nothing. -/
def PySession.ask (S : Source σ) (s : PySession σ) (op : Op) : PyM (Ret × PySession σ) := do
  let s' ← s.op S op
  let v ← PyM.ofRes (s.reader.step S op).1
  return (v, s')

/-- `while reader.read_rows(n): pass` in Python (a program that uses python/pycppsas7bdat/cpp/reader.cpp:100-104). -/
inductive PySession.Loop (S : Source σ) (op : Op) : PySession σ → PySession σ → Prop
  | stop {s s' : PySession σ} (h : s.ask S op = .ok (.bool false, s')) : PySession.Loop S op s s'
  | again {s s' s'' : PySession σ} (h : s.ask S op = .ok (.bool true, s')) (ht : PySession.Loop S op s' s'') :
      PySession.Loop S op s s''

/-- A method and its result (R/CPPSAS7BDAT/src/reader.cpp:59-79): Rcpp makes a logical of a `bool`, `NULL` of nothing. -/
def RSession.ask (unique : List (List Byte) → List (List Byte)) (S : Source σ) (s : RSession σ) (op : Op) :
    PyM (Ret × RSession σ) := do
  let s' ← s.op unique S op
  let v ← PyM.ofRes (s.reader.step S op).1
  return (v, s')

/-- `while(reader$read_rows(n)) {}` in R (a program that uses R/CPPSAS7BDAT/src/reader.cpp:59-79). -/
inductive RSession.Loop (unique : List (List Byte) → List (List Byte)) (S : Source σ) (op : Op) :
    RSession σ → RSession σ → Prop
  | stop {s s' : RSession σ} (h : s.ask unique S op = .ok (.bool false, s')) : RSession.Loop unique S op s s'
  | again {s s' s'' : RSession σ} (h : s.ask unique S op = .ok (.bool true, s'))
      (ht : RSession.Loop unique S op s' s'') : RSession.Loop unique S op s s''

end Sas
