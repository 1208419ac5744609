import Verif.Model.SourceThrowing

/-!
# Sources that throw, and sources that do not
-/

namespace Sas.Spec

variable {σ τ ε : Type}

/-- The first source does what the second one does, except that it may throw. By then it may have stored something, but no
more than it was asked for, and nothing if it was asked for 2^63 bytes or more. -/
structure SameUnlessThrown (S : SourceCode σ ε) (T : Source τ) (Q : σ → τ → Prop) : Prop where
  eof : ∀ s t, Q s t → S.eof s = T.eof t
  returns : ∀ s t, Q s t → ∀ n ok bytes s', S.read s n = (.ok ok, bytes, s') →
    (T.read t n).ok = ok ∧ (T.read t n).bytes = bytes ∧ Q s' (T.read t n).st
  fits : ∀ s t, Q s t → ∀ n x bytes s', S.read s n = (.error x, bytes, s') → bytes.length ≤ n
  huge : ∀ s t, Q s t → ∀ n x bytes s', S.read s n = (.error x, bytes, s') → 2 ^ 63 ≤ n → bytes = []

/-- A source that throws the exceptions that are planned for its calls, and otherwise does what another one does. A call that
throws does not change the other source. -/
def planned (T : Source τ) : SourceCode (List (Option ε) × τ) ε where
  eof s := T.eof s.2
  read s n :=
    match s.1 with
    | some x :: more => (.error x, [], more, s.2)
    | plan => (.ok (T.read s.2 n).ok, (T.read s.2 n).bytes, plan.tail, (T.read s.2 n).st)

/-- The same source, together with a log of the exceptions it has thrown. -/
def watched (S : SourceCode σ ε) : SourceCode (σ × List ε) ε where
  eof s := S.eof s.1
  read s n :=
    match S.read s.1 n with
    | (.ok ok, bytes, s') => (.ok ok, bytes, s', s.2)
    | (.error x, bytes, s') => (.error x, bytes, s', s.2 ++ [x])

/-- The exception of the source that a call has thrown. -/
def thrown {α : Type} : XRes ε α → Option ε
  | .error (.source x) => some x
  | _ => none

end Sas.Spec
