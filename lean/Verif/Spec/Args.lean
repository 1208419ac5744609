import Verif.Model.Args

/-!
# What calls in Python and R ask for
-/

namespace Sas.Spec

/-- The methods of a reader without arguments. -/
inductive Plainly : List Byte → Op → Prop
  | readAll : Plainly (ascii "read_all") .readAll
  | readRow : Plainly (ascii "read_row") .readRow
  | endOfData : Plainly (ascii "end_of_data") .endOfData

/-- The methods of a reader with a number. -/
inductive Counting : List Byte → Nat → Op → Prop
  | readRows (n : Nat) : Counting (ascii "read_rows") n (.readRows n)
  | skip (n : Nat) : Counting (ascii "skip") n (.skip n)

/-- A Python object is the number `n`: an `int` in range, or a truth value. -/
inductive IsSize : PyObject → Nat → Prop
  | int (n : Nat) (h : n < 2 ^ 64) : IsSize (.int n) n
  | false : IsSize (.bool false) 0
  | true : IsSize (.bool true) 1

/-- The call asks for this. -/
inductive PyAsks : PyUse → Op → Prop
  | plain {name : List Byte} {op : Op} (h : Plainly name op) : PyAsks (.call name []) op
  | count {name : List Byte} {n : Nat} {op : Op} {x : PyObject} (h : Counting name n op) (hx : IsSize x n) :
      PyAsks (.call name [x]) op

/-- The operations that a sequence of uses asks for, in order; other uses are passed over. -/
inductive Asked {α : Type} (asks : α → Op → Prop) : List α → List Op → Prop
  | nil : Asked asks [] []
  | op {u : α} {us : List α} {o : Op} {os : List Op} (h : asks u o) (hs : Asked asks us os) : Asked asks (u :: us) (o :: os)
  | other {u : α} {us : List α} {os : List Op} (h : ∀ o, ¬ asks u o) (hs : Asked asks us os) : Asked asks (u :: us) os

/-- What a program is told of the result of a C++ call: nothing, a truth value, an exception; a program that crashes is
told nothing more. -/
inductive Tells : Res Ret → Reply → Prop
  | unit : Tells (.ok .unit) .nothing
  | bool (b : Bool) : Tells (.ok (.bool b)) (.bool b)
  | exn (e : Exn) : Tells (.error (.exn e)) .raised
  | terminate : Tells (.error .terminate) (.dies .terminate)
  | ub : Tells (.error .ub) (.dies .ub)
  | fuel : Tells (.error .fuel) (.dies .fuel)

/-- An R value is the number `x`. -/
inductive IsNumber : RValue → ℚ → Prop
  | double (q : ℚ) : IsNumber (.double (.fin q)) q
  | int (i : Int) : IsNumber (.int (some i)) i
  | false : IsNumber (.lgl (some false)) 0
  | true : IsNumber (.lgl (some true)) 1

/-- The call asks for this: the fraction of a number is dropped. -/
inductive RAsks : List Byte × List RValue → Op → Prop
  | plain {name : List Byte} {op : Op} (h : Plainly name op) : RAsks (name, []) op
  | count {name : List Byte} {n : Nat} {op : Op} {x : RValue} {q : ℚ} (h : Counting name n op) (hx : IsNumber x q)
      (hq : (n ≤ q ∧ q < n + 1) ∨ (n = 0 ∧ -1 < q ∧ q < 0)) (hn : n < 2 ^ 64) : RAsks (name, [x]) op

/-- A call with a number that is negative or too large, or with something that is missing or infinite where a number is
needed. -/
def RWild (u : List Byte × List RValue) : Prop :=
  (u.1 = ascii "read_rows" ∨ u.1 = ascii "skip") ∧ ∃ x, u.2 = [x] ∧
    ((∃ q, IsNumber x q ∧ (q ≤ -1 ∨ 2 ^ 64 ≤ q)) ∨ x = .int none ∨ x = .lgl none ∨ x = .double .nan ∨
      ∃ s, x = .double (.inf s))

end Sas.Spec
