import Verif.Model.Reader
import Verif.Model.Float

/-!
# The methods of the reader as Python and R programs call them

The registration of the classes (python/pycppsas7bdat/cpp/reader.cpp:86-105, R/CPPSAS7BDAT/src/Rcppsas7bdat.cpp:13-26),
with the conversions of arguments and results of Boost.Python and Rcpp after their documentation and source, on a machine with
64-bit `size_t`. Exceptions are caught by the program, which goes on. Simplifications: no argument is passed by name; the
methods that every Python or R object has are not called; the sink does nothing (its calls are in the trace of the reader).
-/

namespace Sas

variable {σ : Type}

/-- What a program gets from a call: `None` or `NULL`, a truth value, a whole number, a double, the properties of the file
(PyFront.lean and RFront.lean have them), an exception; or it dies
(the results of the methods registered in python/pycppsas7bdat/cpp/reader.cpp:97-104 and R/CPPSAS7BDAT/src/Rcppsas7bdat.cpp:19-25). -/
inductive Reply
  | nothing
  | bool (b : Bool)
  | int (n : Nat)
  | double (q : ℚ)
  | properties
  | raised
  | dies (s : Stop)
deriving DecidableEq

/-- The result of a method: `void` and `bool`; a C++ exception becomes one of the language
(include/cppsas7bdat/reader.hpp:129-135, as python/pycppsas7bdat/cpp/reader.cpp:100-104 and R/CPPSAS7BDAT/src/Rcppsas7bdat.cpp:20-25 return it). -/
def Reply.of : Res Ret → Reply
  | .ok .unit => .nothing
  | .ok (.bool b) => .bool b
  | .ok (.ptr _) => .nothing
  | .error (.exn _) => .raised
  | .error s => .dies s

/-! ## Python -/

/-- An object passed as an argument (the arguments of `read_rows` and `skip`, python/pycppsas7bdat/cpp/reader.cpp:102-103). -/
inductive PyObject
  | int (i : Int)
  | bool (b : Bool)
  | float (x : Dbl)
  | str (s : List Byte)
  | none
  | other
deriving DecidableEq

/-- The conversion to `size_t` of an argument: integers (`bool` is a subclass of `int`) that are in range. A float is no
integer (the arguments of `read_rows` and `skip`, python/pycppsas7bdat/cpp/reader.cpp:102-103). -/
def PyObject.toSize : PyObject → Option Nat
  | .int i => if 0 ≤ i ∧ i < 2 ^ 64 then some i.toNat else .none
  | .bool b => some (if b then 1 else 0)
  | _ => .none

/-- What a program does with its reader: calling a method, or looking at `current_row_index`
(python/pycppsas7bdat/cpp/reader.cpp:97-104). -/
inductive PyUse
  | call (name : List Byte) (args : List PyObject)
  | index
deriving DecidableEq

/-- A method without arguments (`read_all`, `read_row` and `end_of_data`, python/pycppsas7bdat/cpp/reader.cpp:100-101, 104). -/
def noArgs {α : Type} (op : Op) : List α → Option Op
  | [] => some op
  | _ => none

/-- A method with a number (`read_rows` and `skip`, python/pycppsas7bdat/cpp/reader.cpp:102-103). -/
def oneSize (f : Nat → Op) : List PyObject → Option Op
  | [x] => x.toSize.map f
  | _ => none

/-- The methods (python/pycppsas7bdat/cpp/reader.cpp:100-104). `none`: `AttributeError`, or an error for the arguments. -/
def pyMethod (name : List Byte) (args : List PyObject) : Option Op :=
  if name = ascii "read_all" then noArgs .readAll args
  else if name = ascii "read_row" then noArgs .readRow args
  else if name = ascii "read_rows" then oneSize .readRows args
  else if name = ascii "skip" then oneSize .skip args
  else if name = ascii "end_of_data" then noArgs .endOfData args
  else none

/-- One use (python/pycppsas7bdat/cpp/reader.cpp:97-99). -/
def pyUse (S : Source σ) (R : Reader σ) : PyUse → Reply × Reader σ
  | .index => (.int R.currentRowIndex, R)
  | .call name args =>
    if name = ascii "properties" then (match args with | [] => .properties | _ => .raised, R)
    else match pyMethod name args with
    | none => (.raised, R)
    | some op => let (r, R) := R.step S op; (Reply.of r, R)

/-- Is this the end of the program?
(no function of the library: a call of python/pycppsas7bdat/cpp/reader.cpp:97-104 after which there is no program). -/
def Reply.ends : Reply → Bool
  | .dies _ => true
  | _ => false

/-- One use after the other (a program that uses the class of python/pycppsas7bdat/cpp/reader.cpp:92-104). -/
def pyScript (S : Source σ) : Reader σ → List PyUse → List Reply × Reader σ
  | R, [] => ([], R)
  | R, u :: us =>
    let (r, R) := pyUse S R u
    if r.ends then ([r], R) else let (rs, R) := pyScript S R us; (r :: rs, R)

/-! ## R -/

/-- A value passed as an argument: vectors of length one, `NA` being `none`; everything else that is no vector of one
number (the arguments of `read_rows` and `skip`, R/CPPSAS7BDAT/src/reader.cpp:67, 75). -/
inductive RValue
  | double (x : Dbl)
  | int (i : Option Int)
  | lgl (b : Option Bool)
  | other
deriving DecidableEq

/-- `static_cast<size_t>(double)`: the fraction is dropped; undefined if the rest does not fit
(the arguments of `read_rows` and `skip`, R/CPPSAS7BDAT/src/reader.cpp:67, 75). -/
def doubleToSize : Dbl → Except Reply Nat
  | .fin q => if -1 < q ∧ q < 2 ^ 64 then .ok q.floor.toNat else .error (.dies .ub)
  | _ => .error (.dies .ub)

/-- `Rcpp::as<size_t>`: by way of a double (the arguments of `read_rows` and `skip`, R/CPPSAS7BDAT/src/reader.cpp:67, 75). -/
def RValue.toSize : RValue → Except Reply Nat
  | .double x => doubleToSize x
  | .int (some i) => doubleToSize (.fin i)
  | .int .none => doubleToSize .nan
  | .lgl (some b) => .ok (if b then 1 else 0)
  | .lgl .none => doubleToSize .nan
  | .other => .error .raised

/-- A method without arguments
(`properties`, `read_all`, `read_row`, `current_row_index` and `end_of_data`, R/CPPSAS7BDAT/src/Rcppsas7bdat.cpp:19-21, 23, 25). -/
def rNoArgs {α : Type} (x : α) : List RValue → Except Reply α
  | [] => .ok x
  | _ => .error .raised

/-- A method with a number (`read_rows` and `skip`, R/CPPSAS7BDAT/src/Rcppsas7bdat.cpp:22, 24). -/
def rOneSize (f : Nat → Op) : List RValue → Except Reply Op
  | [x] => x.toSize.map f
  | _ => .error .raised

/-- The methods that change something (R/CPPSAS7BDAT/src/Rcppsas7bdat.cpp:19-25). -/
def rMethod (name : List Byte) (args : List RValue) : Except Reply Op :=
  if name = ascii "read_all" then rNoArgs .readAll args
  else if name = ascii "read_row" then rNoArgs .readRow args
  else if name = ascii "read_rows" then rOneSize .readRows args
  else if name = ascii "skip" then rOneSize .skip args
  else if name = ascii "end_of_data" then rNoArgs .endOfData args
  else .error .raised

/-- `reader$name(args)`. A `size_t` is returned as a double (R/CPPSAS7BDAT/src/Rcppsas7bdat.cpp:19,23). -/
def rUse (S : Source σ) (R : Reader σ) (name : List Byte) (args : List RValue) : Reply × Reader σ :=
  if name = ascii "current_row_index" then
    match rNoArgs () args with
    | .ok _ => (.double (fl R.currentRowIndex), R)
    | .error r => (r, R)
  else if name = ascii "properties" then (match args with | [] => .properties | _ => .raised, R)
  else
    match rMethod name args with
    | .error r => (r, R)
    | .ok op => let (r, R) := R.step S op; (Reply.of r, R)

/-- One call after the other (a program that uses the class of R/CPPSAS7BDAT/src/Rcppsas7bdat.cpp:17-25). -/
def rScript (S : Source σ) : Reader σ → List (List Byte × List RValue) → List Reply × Reader σ
  | R, [] => ([], R)
  | R, u :: us =>
    let (r, R) := rUse S R u.1 u.2
    if r.ends then ([r], R) else let (rs, R) := rScript S R us; (r :: rs, R)

end Sas
