import Verif.Model.Throwing

/-!
# Sinks that throw: calls that were cut short
-/

namespace Sas.Spec

variable {σ τ ε : Type}

/-- The state of a sink after calls. -/
def afterCalls (K : SinkCode τ ε) (k : τ) (es : List Event) : τ := es.foldl (fun k e => (K.call k e).2) k

/-- None of these calls throws. -/
def Quiet (K : SinkCode τ ε) : τ → List Event → Prop
  | _, [] => True
  | k, e :: es => (K.call k e).1 = .ok () ∧ Quiet K (K.call k e).2 es

/-- These calls were made, and what became of them: none has thrown, or the last one was the first that threw, and it
threw `x`. -/
def Outcome {α : Type} (K : SinkCode τ ε) (k : τ) (es : List Event) : TRes ε α → Prop
  | .error (.sink x) => ∃ before e, es = before ++ [e] ∧ Quiet K k before ∧ (K.call (afterCalls K k before) e).1 = .error x
  | _ => Quiet K k es

/-- `op'` is `op`, or `op` cut short: a call that reads several rows has read `k` of them. -/
inductive CutShort : Op → Op → Prop
  | whole (op : Op) : CutShort op op
  | rows (n k : Nat) (h : k ≤ n) : CutShort (.readRows n) (.readRows k)
  | all (k : Nat) : CutShort .readAll (.readRows k)

/-- The calls `ops` had the results `rs` with a sink that throws; with one that does not, the calls `ops'` have the results
`rs'`. The calls are the same, and so are their results, up to those in which the sink has thrown, which were cut
short. After a fatal error there are no more calls. -/
inductive Explained : List Op → List (TRes ε Ret) → List Op → List (Res Ret) → Prop
  | nil (ops : List Op) : Explained ops [] [] []
  | ok {ops : List Op} {rs : List (TRes ε Ret)} {ops' : List Op} {rs' : List (Res Ret)} (op : Op) (v : Ret)
      (h : Explained ops rs ops' rs') : Explained (op :: ops) (.ok v :: rs) (op :: ops') (.ok v :: rs')
  | reader {ops : List Op} {rs : List (TRes ε Ret)} {ops' : List Op} {rs' : List (Res Ret)} (op : Op) (e : Stop)
      (h : Explained ops rs ops' rs') : Explained (op :: ops) (.error (.reader e) :: rs) (op :: ops') (.error e :: rs')
  | sink {ops : List Op} {rs : List (TRes ε Ret)} {ops' : List Op} {rs' : List (Res Ret)} (op op' : Op) (x : ε) (v : Ret)
      (hc : CutShort op op') (h : Explained ops rs ops' rs') :
      Explained (op :: ops) (.error (.sink x) :: rs) (op' :: ops') (.ok v :: rs')

end Sas.Spec
