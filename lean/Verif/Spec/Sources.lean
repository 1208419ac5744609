import Verif.Model.Reader
import Verif.Model.Source

/-!
# Sources that give the same bytes
-/

namespace Sas.Spec

/-- Two sources, in states related by `Q`, do the same as far as the interface of a source goes: they agree on whether
their end has been seen, a read that succeeds on the first one succeeds on the second one with the same bytes, and one
that fails fails, with the same answer to `eof` afterwards. What a failed read has stored may differ. With `E`, the second
source may do anything once a read has failed on the first one. A read stores no more than was asked for, and one of 2^63
bytes or more that fails stores nothing. -/
structure Agree {σ₁ σ₂ : Type} (E : Prop) (S₁ : Source σ₁) (S₂ : Source σ₂) (Q : σ₁ → σ₂ → Prop) : Prop where
  fits₁ : ∀ a n, (S₁.read a n).bytes.length ≤ n
  fits₂ : ∀ b n, (S₂.read b n).bytes.length ≤ n
  huge₁ : ∀ a n, 2 ^ 63 ≤ n → (S₁.read a n).ok = false → (S₁.read a n).bytes = []
  huge₂ : ∀ b n, 2 ^ 63 ≤ n → (S₂.read b n).ok = false → (S₂.read b n).bytes = []
  eof : ∀ a b, Q a b → S₁.eof a = S₂.eof b
  good : ∀ a b, Q a b → ∀ n, (S₁.read a n).ok = true →
    (S₂.read b n).ok = true ∧ (S₁.read a n).bytes = (S₂.read b n).bytes ∧ Q (S₁.read a n).st (S₂.read b n).st
  fail : ∀ a b, Q a b → ∀ n, (S₁.read a n).ok = false →
    E ∨ ((S₂.read b n).ok = false ∧ S₁.eof (S₁.read a n).st = S₂.eof (S₂.read b n).st)

/-- Two attempts to open a reader have come to the same: the same error, or readers with the same properties for which all
histories of calls have the same results, make the same calls on the sink and end at the same row. -/
inductive SameOutcome {σ₁ σ₂ : Type} (S₁ : Source σ₁) (S₂ : Source σ₂) : Res (Reader σ₁) → Res (Reader σ₂) → Prop
  | error (e : Stop) : SameOutcome S₁ S₂ (.error e) (.error e)
  | ok (R₁ : Reader σ₁) (R₂ : Reader σ₂) (props : R₁.props = R₂.props)
      (results : ∀ ops, (R₁.run S₁ ops).1 = (R₂.run S₂ ops).1)
      (calls : ∀ ops, (R₁.run S₁ ops).2.trace = (R₂.run S₂ ops).2.trace)
      (row : ∀ ops, (R₁.run S₁ ops).2.currentRowIndex = (R₂.run S₂ ops).2.currentRowIndex) :
      SameOutcome S₁ S₂ (.ok R₁) (.ok R₂)

/-- A source as a user may write it from README.md:134-145, over bytes in memory: a read gives all bytes it was asked for
or none, and `eof` tells whether a read has found too few. -/
structure Memory where
  left : List Byte
  ended : Bool

/-- Its two methods. -/
def memory : Source Memory where
  eof m := m.ended
  read m n := if n ≤ m.left.length then ⟨⟨m.left.drop n, m.ended⟩, m.left.take n, true⟩ else ⟨⟨m.left, true⟩, [], false⟩

/-- A file with something behind it, on a device that may fail there. -/
def followed (file tail : List Byte) (fault : Option Nat) : IFStream :=
  ⟨file ++ tail, 0, false, false, fault.map (file.length + ·)⟩

end Sas.Spec
