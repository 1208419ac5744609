import Verif.Model.Several

/-!
# Programs with several readers: who is called
-/

namespace Sas.Spec

variable {σ : Type}

/-- The calls that go to the `k`-th statement's reader, and what they come to, from the text of the program and the outcomes of
its statements alone: `holds` says which reader is in which variable. -/
def callsOn (k : Nat) : (holds : Nat → Option Nat) → (n : Nat) → List (Cmd σ) → List Outcome → List (Op × Res Ret)
  | holds, n, .make v _ _ _ :: cs, .made :: os => callsOn k (put holds v (some n)) (n + 1) cs os
  | holds, n, .make _ _ _ _ :: cs, _ :: os => callsOn k holds (n + 1) cs os
  | holds, n, .call v op :: cs, .returned r :: os =>
    if holds v = some k then (op, r) :: callsOn k holds (n + 1) cs os else callsOn k holds (n + 1) cs os
  | holds, n, .call _ _ :: cs, _ :: os => callsOn k holds (n + 1) cs os
  | holds, n, .move v u :: cs, _ :: os =>
    callsOn k (if v = u then holds else put (put holds v (holds u)) u none) (n + 1) cs os
  | holds, n, .clear v :: cs, _ :: os => callsOn k (put holds v none) (n + 1) cs os
  | _, _, _, _ => []

/-- What a sink has been told by one of the readers. -/
def toldBy (k : Nat) (told : List (Nat × Event)) : List Event := told.filterMap fun p => if p.1 = k then some p.2 else none

/-- The source a statement names. -/
def namedIn : Cmd σ → Option Nat
  | .make _ (.named i) _ _ => some i
  | _ => none

/-- No two readers are made on one source. -/
def Apart (cs : List (Cmd σ)) : Prop := (cs.filterMap namedIn).Nodup

/-- The source that is handed over, as it is before the program. -/
def sourceOf (objs : Nat → σ) : Given σ → σ
  | .own s => s
  | .named i => objs i

end Sas.Spec
