import Verif.Model.Reader

/-!
# What reading asks of a source and of memory
-/

namespace Sas.Spec

/-- A source that notes every call of `read_bytes`: the number of bytes asked for, and the answer. -/
def logged {σ : Type} (S : Source σ) : Source (σ × List (Nat × Bool)) where
  eof s := S.eof s.1
  read s n := ⟨((S.read s.1 n).st, s.2 ++ [(n, (S.read s.1 n).ok)]), (S.read s.1 n).bytes, (S.read s.1 n).ok⟩

/-- What a reader's source has noted. -/
def readsOf {σ : Type} (R : Reader (σ × List (Nat × Bool))) : List (Nat × Bool) := R.rd.p.src.2

/-- The bytes of the blocks a reader holds besides its properties: the buffer for a page and the one for a decompressed
row. -/
def blocks {σ : Type} (R : Reader σ) : Nat := R.rd.p.buf.mem.length + R.rd.dst.length

/-- The number of pointers to rows a reader holds. -/
def rowPointers {σ : Type} (R : Reader σ) : Nat :=
  match R.rd.page with
  | some ⟨.metaP subs, _⟩ => subs.length
  | _ => 0

end Sas.Spec
