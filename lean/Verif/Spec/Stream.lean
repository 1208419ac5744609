import Verif.Model.Buffer

/-!
# The pages a data source delivers
-/

namespace Sas.Spec

open Sas

/-- How a source ends: regularly (also in the middle of a page), or because reading fails although the
end has not been reached. -/
inductive Ending
  | endOfFile
  | ioError
deriving DecidableEq

/-- From state `s` on, requests for `L` bytes deliver exactly the given pages, one after the other; then
the source ends. -/
inductive Stream {σ : Type} (S : Source σ) (L : Nat) : σ → List (List Byte) → Ending → Prop
  | eof (s : σ) (h : S.eof s = true) : Stream S L s [] .endOfFile
  | truncated (s : σ) (h : S.eof s = false) (hr : (S.read s L).ok = false)
      (hl : (S.read s L).bytes.length ≤ L) (he : S.eof (S.read s L).st = true) :
      Stream S L s [] .endOfFile
  | failed (s : σ) (h : S.eof s = false) (hr : (S.read s L).ok = false)
      (hl : (S.read s L).bytes.length ≤ L) (he : S.eof (S.read s L).st = false) :
      Stream S L s [] .ioError
  | page (s : σ) (ps : List (List Byte)) (e : Ending) (h : S.eof s = false)
      (hr : (S.read s L).ok = true) (hl : (S.read s L).bytes.length = L)
      (rest : Stream S L (S.read s L).st ps e) : Stream S L s ((S.read s L).bytes :: ps) e

end Sas.Spec
