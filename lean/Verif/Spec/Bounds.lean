import Verif.Spec.File
import Verif.Spec.Termination
import Verif.Spec.Compression

/-!
# Files whose positions and lengths stay inside their pages

What a file must not get wrong for a build without bounds checks. Nothing is said about the content: names,
types, counts, texts and rows may be anything. Nothing here refers to the functions of the model; its data types
for byte order, word size, compression and subheader pointers are used.
-/

namespace Sas.Spec

open Sas

/-- The number of `n` bytes at position `o` of a page. -/
def number (e : Endian) (page : List Byte) (o n : Nat) : Nat :=
  let digits := (page.drop o).take n
  let bigEndian := match e with
    | .little => digits.reverse
    | .big => digits
  bigEndian.foldl (fun n d => n * 256 + d.toNat) 0

/-- The byte order announced by the first 288 bytes of a file. -/
def announcedOrder (start : List Byte) : Endian := if start[37]? = some 1 then .little else .big

/-- The word size announced by the first 288 bytes of a file. -/
def announcedFormat (start : List Byte) : Format := if start[32]? = some 0x33 then .bit64 else .bit32

/-- The page number `k` of a file, if the file has all of it. -/
def IsPage (data : List Byte) (k : Nat) (page : List Byte) : Prop :=
  announcedHeaderLength (data.take 288) + (k + 1) * announcedPageLength (data.take 288) ≤ data.length ∧
  page = (data.drop (announcedHeaderLength (data.take 288) + k * announcedPageLength (data.take 288))).take
    (announcedPageLength (data.take 288))

/-- The type of a page. -/
def pageType (e : Endian) (f : Format) (page : List Byte) : Nat := number e page (pageHead f) 2

/-- The number of rows a data page announces. -/
def pageBlocks (e : Endian) (f : Format) (page : List Byte) : Nat := number e page (pageHead f + 2) 2

/-- The number of subheader pointers a page announces. -/
def pointerCount (e : Endian) (f : Format) (page : List Byte) : Nat := number e page (pageHead f + 4) 2

/-- The subheader pointer number `i` of a page. -/
def pointer (e : Endian) (f : Format) (page : List Byte) (i : Nat) : PageSub :=
  let o := pageHead f + 8 + i * (3 * word f)
  { offset := number e page o (word f), length := number e page (o + word f) (word f)
    comp := page.getD (o + 2 * word f) 0, type := page.getD (o + 2 * word f + 1) 0 }

/-- The page has a head; if it is searched for metadata, its subheader pointers are on the page and point into it. -/
structure PointersInside (e : Endian) (f : Format) (page : List Byte) : Prop where
  head : pageHead f + 6 ≤ page.length
  table : hasMeta (pageType e f page) = true → pageHead f + 8 + pointerCount e f page * (3 * word f) ≤ page.length
  targets : hasMeta (pageType e f page) = true → ∀ i < pointerCount e f page,
    (pointer e f page i).offset + (pointer e f page i).length ≤ page.length

/-- A subheader of this kind starts at position `o`, in whatever byte order. -/
def Marked (f : Format) (page : List Byte) (o : Nat) (s : Sig) : Prop :=
  ∃ e, (page.drop o).take (word f) = Sig.bytes e f s

/-- What is read of a subheader lies on the page. `creators` is not smaller than the lengths of the creator's names
that row-size subheaders announce; texts leave room for such names. -/
structure SubInside (e : Endian) (f : Format) (creators : Nat) (page : List Byte) (p : PageSub) : Prop where
  mark : p.offset + word f ≤ page.length
  rowSize : Marked f page p.offset .rowSize → p.offset + lcsAt f + 28 ≤ page.length ∧
    number e page (p.offset + lcsAt f) 2 ≤ creators ∧ number e page (p.offset + lcsAt f + 24) 2 ≤ creators
  columnSize : Marked f page p.offset .columnSize → p.offset + 2 * word f ≤ page.length
  columnText : Marked f page p.offset .columnText → p.offset + word f + 36 + creators ≤ page.length ∧
    p.offset + word f + number e page (p.offset + word f) 2 ≤ page.length
  columnNames : Marked f page p.offset .columnNames → word f + 12 ≤ p.offset + p.length
  columnAttrs : Marked f page p.offset .columnAttrs → word f + 12 ≤ p.offset + p.length
  formatLabel : Marked f page p.offset .formatLabel → p.offset + 3 * word f + 34 ≤ page.length

/-- All complete pages of the file have their pointers inside, and all subheaders on pages that no data or mix page
precedes. -/
structure FileInside (data : List Byte) (creators : Nat) : Prop where
  pointers : ∀ k page, IsPage data k page →
    PointersInside (announcedOrder (data.take 288)) (announcedFormat (data.take 288)) page
  subs : ∀ k page, IsPage data k page →
    (∀ j < k, ∀ before, IsPage data j before →
      hasRows (pageType (announcedOrder (data.take 288)) (announcedFormat (data.take 288)) before) = false) →
    hasMeta (pageType (announcedOrder (data.take 288)) (announcedFormat (data.take 288)) page) = true →
    ∀ i < pointerCount (announcedOrder (data.take 288)) (announcedFormat (data.take 288)) page,
      live (pointer (announcedOrder (data.take 288)) (announcedFormat (data.take 288)) page i) = true →
      SubInside (announcedOrder (data.take 288)) (announcedFormat (data.take 288)) creators page
        (pointer (announcedOrder (data.take 288)) (announcedFormat (data.take 288)) page i)

/-- A compressed row that can be unpacked without looking beyond it: RLE rows that do not end with `4x yy`; RDC rows
that are well formed and not too long. -/
def Unpackable (rowLength : Nat) (bytes : List Byte) : Compression → Prop
  | .none => True
  | .rle => ∀ hi lo : Byte, [hi, lo] <:+ bytes → hi.toNat / 16 ≠ 4
  | .rdc => ∃ gs last out, bytes = rdcEncode gs last ∧ RdcWellFormed gs last ∧
      rdcApply [] (gs.flatten ++ last) = some out ∧ out.length ≤ rowLength

/-- The rows of a page lie on the page, and there is one: those of a data page, which announces their number, those of a
mix page, and the compressed rows that subheader pointers point to. -/
structure PageRowsInside (e : Endian) (f : Format) (rowLength rowCount mixCount : Nat) (c : Compression)
    (page : List Byte) : Prop where
  data : pageType e f page = 256 → 0 < pageBlocks e f page ∧
    pageHead f + 8 + pageBlocks e f page * rowLength ≤ page.length
  mix : pageType e f page = 512 ∨ pageType e f page = 640 → 0 < mixCount ∧
    roundUp8 (pageHead f + 8 + pointerCount e f page * (3 * word f)) + min rowCount mixCount * rowLength ≤ page.length
  packed : hasMeta (pageType e f page) = true → ∀ i < pointerCount e f page,
    live (pointer e f page i) = true → rowPtr (pointer e f page i) = true →
    (pointer e f page i).length < rowLength →
    Unpackable rowLength ((page.drop (pointer e f page i).offset).take (pointer e f page i).length) c

end Sas.Spec
