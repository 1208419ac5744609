import Verif.Spec.Columns

/-!
# Who has made a file
-/

namespace Sas.Spec

/-- The names of the program and of the procedure that have made a file, with the lengths that go with them. -/
structure Signature where
  creator : List Byte
  proc : List Byte
  lcs : Nat
  lcp : Nat

/-- One row-size subheader, and after it the first column text. -/
def Signs (r : RowSize) (t : List Byte) (all : List Sub) : Prop :=
  ∃ a b c, all = a ++ .rowSize r :: (b ++ .columnText t :: c) ∧ texts a = [] ∧ texts b = [] ∧
    ∀ q, Sub.rowSize q ∉ b ∧ Sub.rowSize q ∉ c

/-- Where the names are in the first column text (positions count from its length field): at 12 there are 8 characters, blank in an
uncompressed file; then the name of the procedure is at 28. In an RLE-compressed file they are the marker of the
compression; then the name of the procedure is at 36. Otherwise the name of the program is at 12, if its length is not 0. The lengths are
those of the row-size subheader. -/
inductive Signed (r : RowSize) (t : List Byte) : Signature → Prop
  | plain {proc} (mark : TextField (slice t 12 8) []) (field : TextField (slice t 28 r.lcp) proc) : Signed r t ⟨[], proc, 0, r.lcp⟩
  | rle {proc} (mark : slice t 12 8 = rleMarker) (field : TextField (slice t 36 r.lcp) proc) : Signed r t ⟨[], proc, r.lcs, r.lcp⟩
  | creator {mark name} (other : TextField (slice t 12 8) mark) (filled : mark ≠ []) (notRle : mark ≠ rleMarker)
      (long : 0 < r.lcs) (field : TextField (slice t 12 r.lcs) name) : Signed r t ⟨name, [], r.lcs, 0⟩
  | nobody {mark} (other : TextField (slice t 12 8) mark) (filled : mark ≠ []) (notRle : mark ≠ rleMarker)
      (short : r.lcs = 0) : Signed r t ⟨[], [], 0, r.lcp⟩

end Sas.Spec
