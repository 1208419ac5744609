import Verif.Spec.Bounds
import Verif.Model.Reader

/-!
# Files whose data pages are damaged

Nothing here refers to the functions of the model; its data types for rows, events and results are used.
-/

namespace Sas.Spec

open Sas

/-- The second file is the first one, except for the content of data pages behind their heads: it is as long, has the same
header, and each complete page is the same, or a data page with the same head. -/
structure Damaged (file file' : List Byte) : Prop where
  length : file'.length = file.length
  header : file'.take (max 288 (announcedHeaderLength (file.take 288))) =
    file.take (max 288 (announcedHeaderLength (file.take 288)))
  pages : ∀ k page page', IsPage file k page → IsPage file' k page' → page' = page ∨
    (pageType (announcedOrder (file.take 288)) (announcedFormat (file.take 288)) page = 256 ∧
      page'.take (pageHead (announcedFormat (file.take 288)) + 8) = page.take (pageHead (announcedFormat (file.take 288)) + 8))

/-- Where a row is: the number of its page and its number on the page. -/
abbrev Place := Nat × Nat

/-- The place `a` is in front of the place `b`. -/
def Place.Before (a b : Place) : Prop := a.1 < b.1 ∨ (a.1 = b.1 ∧ a.2 < b.2)

/-- Where the row number `i` of a data page starts on its page, for rows of length `n`. -/
def rowStart (f : Format) (n i : Nat) : Nat := pageHead f + 8 + n * i

/-- Two rows of length `n` from the same place of two files, a data page: the pointers handed out point to the start of the row on
the page, and behind the page the memory is the same. The page announces the row, or no row at all. -/
structure RowsAt (file file' : List Byte) (n : Nat) (at_ : Place) (r r' : Row) : Prop where
  lengths : r.len = n ∧ r'.len = n
  content : ∃ page page' rest, IsPage file at_.1 page ∧ IsPage file' at_.1 page' ∧
    pageType (announcedOrder (file.take 288)) (announcedFormat (file.take 288)) page = 256 ∧
    (0 < pageBlocks (announcedOrder (file.take 288)) (announcedFormat (file.take 288)) page →
      at_.2 < pageBlocks (announcedOrder (file.take 288)) (announcedFormat (file.take 288)) page) ∧
    r.mem = (page ++ rest).drop (rowStart (announcedFormat (file.take 288)) n at_.2 % 2 ^ 64) ∧
    r'.mem = (page' ++ rest).drop (rowStart (announcedFormat (file.take 288)) n at_.2 % 2 ^ 64)

/-- The same result of a call, or two rows from the same place. -/
inductive SameRet (file file' : List Byte) (n : Nat) : Res Ret → Res Ret → Prop
  | same (x : Res Ret) : SameRet file file' n x x
  | row (at_ : Place) (r r' : Row) : RowsAt file file' n at_ r r' →
      SameRet file file' n (.ok (.ptr (some r))) (.ok (.ptr (some r')))

/-- Two lists of calls of a sink that agree, but for rows with the same number from the same place. The places are listed; each
one is behind those before it. -/
inductive Twins (file file' : List Byte) (n : Nat) : List Place → List Event → List Event → Prop
  | nil : Twins file file' n [] [] []
  | same (e : Event) {ps : List Place} {t t' : List Event} :
      Twins file file' n ps t t' → Twins file file' n ps (t ++ [e]) (t' ++ [e])
  | row (i : Nat) (at_ : Place) (r r' : Row) {ps : List Place} {t t' : List Event} :
      Twins file file' n ps t t' → (∀ p ∈ ps, p.Before at_) → RowsAt file file' n at_ r r' →
      Twins file file' n (ps ++ [at_]) (t ++ [.pushRow i r]) (t' ++ [.pushRow i r'])

/-- What a sink can see of a call within the length of the row. -/
def Seen : Event → Event
  | .pushRow i r => .pushRow i ⟨r.bytes, r.len⟩
  | e => e

end Sas.Spec
