import Verif.Spec.Header
import Verif.Model.Metadata

/-!
# The layout of pages, subheaders and rows

What the bytes of a page mean. Nothing here refers to the functions of the model; its data types for
subheader pointers (`PageSub`), compression and format are used.
-/

namespace Sas.Spec

open Sas

/-- The size of an integer in the file. -/
def word : Format → Nat
  | .bit32 => 4
  | .bit64 => 8

/-- Where the page type is in a page. -/
def pageHead : Format → Nat
  | .bit32 => 16
  | .bit64 => 32

/-- A subheader pointer at position `o` of the page. -/
structure PtrAt (e : Endian) (f : Format) (page : List Byte) (o : Nat) (p : PageSub) : Prop where
  offset : slice page o (word f) = encode e (word f) p.offset
  length : slice page (o + word f) (word f) = encode e (word f) p.length
  comp : page[o + 2 * word f]? = some p.comp
  type : page[o + 2 * word f + 1]? = some p.type
  room : o + 3 * word f ≤ page.length
  inside : p.offset + p.length ≤ page.length

/-- Pages that are searched for metadata: meta (0), amd (1024), mix (512, 640). -/
def hasMeta (type : Nat) : Bool := type = 0 ∨ type = 1024 ∨ type = 512 ∨ type = 640

/-- The page has this type, announces this number of rows and holds these subheader pointers
(pages that are not searched for metadata only announce their number). -/
structure PageLayout (e : Endian) (f : Format) (page : List Byte) (type blocks : Nat)
    (ptrs : List PageSub) : Prop where
  typeAt : slice page (pageHead f) 2 = encode e 2 type
  blocksAt : slice page (pageHead f + 2) 2 = encode e 2 blocks
  countAt : slice page (pageHead f + 4) 2 = encode e 2 ptrs.length
  sizes : type < 2 ^ 16 ∧ blocks < 2 ^ 16 ∧ ptrs.length < 2 ^ 16
  room : pageHead f + 6 ≤ page.length
  small : page.length < 2 ^ 32
  ptrsAt : hasMeta type = true → ∀ i p, ptrs[i]? = some p → PtrAt e f page (pageHead f + 8 + i * (3 * word f)) p

/-- Pointers to nothing and truncated subheaders (compression 1) are not used. -/
def live (p : PageSub) : Bool := p.length ≠ 0 ∧ p.comp ≠ 1

/-- A pointer to a row. -/
def rowPtr (p : PageSub) : Bool := (p.comp = 0 ∨ p.comp = 4) ∧ p.type = 1

/-! ## Subheaders -/

/-- The signatures that start the subheaders. -/
inductive Sig
  | rowSize | columnSize | counts | columnText | columnNames | columnAttrs | formatLabel | columnList
deriving DecidableEq

/-- The bytes of a signature: integers of the file's byte order and word size. -/
def Sig.bytes (e : Endian) (f : Format) : Sig → List Byte
  | .rowSize => encode e (word f) 0xF7F7F7F7
  | .columnSize => encode e (word f) 0xF6F6F6F6
  | .counts => encodeSigned e (word f) (-1024)
  | .columnText => encodeSigned e (word f) (-3)
  | .columnNames => encodeSigned e (word f) (-1)
  | .columnAttrs => encodeSigned e (word f) (-4)
  | .formatLabel => encodeSigned e (word f) (-1026)
  | .columnList => encodeSigned e (word f) (-2)

/-- What the row-size subheader says. -/
structure RowSize where
  rowLength : Nat
  rowCount : Nat
  p1 : Nat
  p2 : Nat
  mixCount : Nat
  lcs : Nat
  lcp : Nat
deriving DecidableEq

/-- A reference to a part of a column text. -/
structure TextRef where
  text : Nat
  offset : Nat
  length : Nat
deriving DecidableEq

/-- The position of a column in a row, and whether it is numeric. -/
structure Attr where
  offset : Nat
  length : Nat
  numeric : Bool
deriving DecidableEq

/-- The content of a subheader. -/
inductive Sub
  | rowSize (r : RowSize)
  | columnSize (n : Nat)
  | columnText (text : List Byte)
  | columnNames (refs : List TextRef)
  | columnAttrs (attrs : List Attr)
  | formatLabel (format label : TextRef)
  | ignored
  | row
deriving DecidableEq

/-- A text reference at position `o`: three 16-bit numbers. -/
structure RefAt (e : Endian) (page : List Byte) (o : Nat) (r : TextRef) : Prop where
  text : slice page o 2 = encode e 2 r.text
  offset : slice page (o + 2) 2 = encode e 2 r.offset
  length : slice page (o + 4) 2 = encode e 2 r.length
  room : o + 6 ≤ page.length
  sizes : r.text < 2 ^ 16 ∧ r.offset < 2 ^ 16 ∧ r.length < 2 ^ 16

/-- A column attribute at position `o`: offset, length (32 bits), type (1: number). -/
structure AttrAt (e : Endian) (f : Format) (page : List Byte) (o : Nat) (a : Attr) : Prop where
  offset : slice page o (word f) = encode e (word f) a.offset
  length : slice page (o + word f) 4 = encode e 4 a.length
  numeric : ∃ t, page[o + word f + 6]? = some t ∧ (t = 1 ↔ a.numeric = true)
  sizes : a.offset < 256 ^ word f ∧ a.length < 2 ^ 32

/-- The position, in the row-size subheader, of the creator lengths (`lcp` is 24 bytes further). -/
def lcsAt : Format → Nat
  | .bit32 => 354
  | .bit64 => 682

/-- The row-size subheader at position `o`. -/
structure RowSizeAt (e : Endian) (f : Format) (page : List Byte) (o : Nat) (r : RowSize) : Prop where
  rowLength : slice page (o + 5 * word f) (word f) = encode e (word f) r.rowLength
  rowCount : slice page (o + 6 * word f) (word f) = encode e (word f) r.rowCount
  p1 : slice page (o + 9 * word f) (word f) = encode e (word f) r.p1
  p2 : slice page (o + 10 * word f) (word f) = encode e (word f) r.p2
  mixCount : slice page (o + 15 * word f) (word f) = encode e (word f) r.mixCount
  lcs : slice page (o + lcsAt f) 2 = encode e 2 r.lcs
  lcp : slice page (o + lcsAt f + 24) 2 = encode e 2 r.lcp
  room : o + lcsAt f + 28 ≤ page.length
  sizes : r.rowLength < 256 ^ word f ∧ r.rowCount < 256 ^ word f ∧ r.p1 < 256 ^ word f ∧
    r.p2 < 256 ^ word f ∧ r.mixCount < 256 ^ word f ∧ r.lcs < 2 ^ 16 ∧ r.lcp < 2 ^ 16

/-- The subheader that `p` points to has this content. -/
def SubLayout (e : Endian) (f : Format) (page : List Byte) (p : PageSub) : Sub → Prop
  | .rowSize r => slice page p.offset (word f) = Sig.rowSize.bytes e f ∧ RowSizeAt e f page p.offset r
  | .columnSize n => slice page p.offset (word f) = Sig.columnSize.bytes e f ∧
      slice page (p.offset + word f) (word f) = encode e (word f) n ∧ n < 256 ^ word f ∧
      p.offset + 2 * word f ≤ page.length
  | .columnText t => slice page p.offset (word f) = Sig.columnText.bytes e f ∧
      slice page (p.offset + word f) 2 = encode e 2 t.length ∧ t.length < 2 ^ 16 ∧ 2 ≤ t.length ∧
      slice page (p.offset + word f) t.length = t ∧ p.offset + word f + t.length ≤ page.length
  | .columnNames rs => slice page p.offset (word f) = Sig.columnNames.bytes e f ∧
      (∀ i r, rs[i]? = some r → RefAt e page (p.offset + word f + 8 + 8 * i) r) ∧
      2 * word f + 12 + 8 * rs.length ≤ p.length ∧ p.length < 2 * word f + 12 + 8 * (rs.length + 1)
  | .columnAttrs as => slice page p.offset (word f) = Sig.columnAttrs.bytes e f ∧
      (∀ i a, as[i]? = some a → AttrAt e f page (p.offset + word f + 8 + (word f + 8) * i) a) ∧
      word f + 12 + (word f + 8) * as.length ≤ p.length ∧
      p.length < word f + 12 + (word f + 8) * (as.length + 1)
  | .formatLabel fr lr => slice page p.offset (word f) = Sig.formatLabel.bytes e f ∧
      RefAt e page (p.offset + 3 * word f + 22) fr ∧ RefAt e page (p.offset + 3 * word f + 28) lr
  | .ignored => p.offset + word f ≤ page.length ∧
      (slice page p.offset (word f) = Sig.counts.bytes e f ∨
       slice page p.offset (word f) = Sig.columnList.bytes e f ∨
       ((∀ e' s, slice page p.offset (word f) ≠ Sig.bytes e' f s) ∧ rowPtr p = false))
  | .row => p.offset + word f ≤ page.length ∧
      (∀ e' s, slice page p.offset (word f) ≠ Sig.bytes e' f s) ∧ rowPtr p = true

/-- The content of a page: its type, the number of rows announced, and the pointers with the content of
the subheaders they point to. -/
structure PageContent where
  type : Nat
  blocks : Nat
  subs : List (PageSub × Sub)

/-- Pages that hold rows outside subheaders: data (256), mix (512, 640). -/
def hasRows (type : Nat) : Bool := type = 256 ∨ type = 512 ∨ type = 640

/-- The page holds this content. -/
structure PageIs (e : Endian) (f : Format) (page : List Byte) (c : PageContent) : Prop where
  layout : PageLayout e f page c.type c.blocks (c.subs.map (·.1))
  subs : hasMeta c.type = true → ∀ ps ∈ c.subs, live ps.1 = true → SubLayout e f page ps.1 ps.2

/-- The subheaders of a page that count, in order. -/
def PageContent.used (c : PageContent) : List Sub :=
  if hasMeta c.type then (c.subs.filter fun ps => live ps.1).map (·.2) else []

/-- Does the metadata end with this page? It does when the page holds rows, be it as pointers to
compressed rows. -/
def PageContent.last (compressed : Bool) (c : PageContent) : Bool :=
  hasRows c.type || (compressed && c.used.contains .row)

/-! ## What a sequence of subheaders says -/

/-- The column texts, in order. -/
def texts : List Sub → List (List Byte)
  | [] => []
  | .columnText t :: ss => t :: texts ss
  | _ :: ss => texts ss

/-- The references to column names, each with the texts that precede it. -/
def nameRefs (ts : List (List Byte)) : List Sub → List (List (List Byte) × TextRef)
  | [] => []
  | .columnText t :: ss => nameRefs (ts ++ [t]) ss
  | .columnNames rs :: ss => rs.map (fun r => (ts, r)) ++ nameRefs ts ss
  | _ :: ss => nameRefs ts ss

/-- The references to formats, each with the texts that precede it. -/
def formatRefs (ts : List (List Byte)) : List Sub → List (List (List Byte) × TextRef)
  | [] => []
  | .columnText t :: ss => formatRefs (ts ++ [t]) ss
  | .formatLabel fr _ :: ss => (ts, fr) :: formatRefs ts ss
  | _ :: ss => formatRefs ts ss

/-- The references to labels, each with the texts that precede it. -/
def labelRefs (ts : List (List Byte)) : List Sub → List (List (List Byte) × TextRef)
  | [] => []
  | .columnText t :: ss => labelRefs (ts ++ [t]) ss
  | .formatLabel _ lr :: ss => (ts, lr) :: labelRefs ts ss
  | _ :: ss => labelRefs ts ss

/-- The column attributes, in order. -/
def attrs : List Sub → List Attr
  | [] => []
  | .columnAttrs as :: ss => as ++ attrs ss
  | _ :: ss => attrs ss

/-- The last row-size subheader. -/
def rowSizeOf (d : RowSize) : List Sub → RowSize
  | [] => d
  | .rowSize r :: ss => rowSizeOf r ss
  | _ :: ss => rowSizeOf d ss

/-- The last column-size subheader. -/
def columnCountOf (d : Nat) : List Sub → Nat
  | [] => d
  | .columnSize n :: ss => columnCountOf n ss
  | _ :: ss => columnCountOf d ss

/-- No row-size subheader. -/
def RowSize.none : RowSize := ⟨0, 0, 0, 0, 0, 0, 0⟩

/-- The markers of the compressions. -/
def rleMarker : List Byte := "SASYZCRL".toUTF8.toList
/-- The marker of the RDC compression. -/
def rdcMarker : List Byte := "SASYZCR2".toUTF8.toList

/-- The compression announced by the first column text. -/
structure IsCompression (ts : List (List Byte)) (c : Compression) : Prop where
  rle : c = .rle ↔ ∃ t, ts.head? = some t ∧ rleMarker <:+: t
  rdc : c = .rdc ↔ ∃ t, ts.head? = some t ∧ rdcMarker <:+: t ∧ ¬ rleMarker <:+: t

/-- The first column text is long enough to contain the compression marker and the names of the creator
whose lengths the row-size subheaders announce. -/
def RoomForCreator (subs : List Sub) : Prop :=
  ∀ t, (texts subs).head? = some t → 36 ≤ t.length ∧
    ∀ r, Sub.rowSize r ∈ subs → 36 + r.lcp ≤ t.length ∧ 12 + r.lcs ≤ t.length

/-- Every pointer to a row comes after a column text. -/
def rowsAfterText (seen : Bool) : List Sub → Bool
  | [] => true
  | .columnText _ :: ss => rowsAfterText true ss
  | .row :: ss => seen && rowsAfterText seen ss
  | _ :: ss => rowsAfterText seen ss

/-! ## Rows -/

/-- The smallest multiple of 8 that is not smaller than `n`. -/
def roundUp8 (n : Nat) : Nat := (n + 7) / 8 * 8

/-- Where the rows of a page are: offset and length of each. On data and mix pages the rows follow each
other, from the end of the page header (data) or from the end of the subheader pointers, rounded up to a
multiple of 8 (mix). On meta pages of compressed files each row has a pointer. Other pages hold no
rows. -/
def rowsAt (f : Format) (compressed : Bool) (r : RowSize) (type blocks : Nat) (ptrs : List PageSub) :
    List (Nat × Nat) :=
  if type = 0 then
    if compressed then ((ptrs.filter live).filter rowPtr).map fun p => (p.offset, p.length) else []
  else if type = 256 then
    (List.range blocks).map fun i => (pageHead f + 8 + i * r.rowLength, r.rowLength)
  else if type = 512 ∨ type = 640 then
    (List.range (min r.rowCount r.mixCount)).map fun i =>
      (roundUp8 (pageHead f + 8 + ptrs.length * (3 * word f)) + i * r.rowLength, r.rowLength)
  else []

end Sas.Spec
