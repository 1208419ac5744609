import Verif.Model.Filters

/-!
# What a filter is asked
-/

namespace Sas.Spec

variable {σ τ φ δ ε : Type}

/-- A filter `f` that is asked about these columns, one after the other, gives these answers, and is `f'` then. -/
inductive Answers (F : FilterCode φ δ) : φ → List (Column × Bool) → φ → Prop
  | nil (f : φ) : Answers F f [] f
  | cons {f f1 f2 : φ} {c : Column} {b : Bool} {l : List (Column × Bool)} (h : F.ask f c = (.ok b, f1))
      (hl : Answers F f1 l f2) : Answers F f ((c, b) :: l) f2

/-- The columns that have been accepted. -/
def accepted (l : List (Column × Bool)) : List Column := (l.filter fun x => x.2).map fun x => x.1

/-- A filter `f` that is asked about these columns throws `x` at one of them, and is `f'` then. -/
def ThrowsAt (F : FilterCode φ δ) (f : φ) (cols : List Column) (x : δ) (f' : φ) : Prop :=
  ∃ before c after f1, cols = before.map (fun y => y.1) ++ c :: after ∧ Answers F f before f1 ∧ F.ask f1 c = (.error x, f')

end Sas.Spec
