import Verif.Spec.Rows

/-!
# A writer of SAS7BDAT files

Bytes for any data set, in either byte order and word size, following the layout of `Spec.Header` and
`Spec.File`. Nothing here refers to the functions of the model (its data types `PageSub`, `Endian`, `Format`,
`Platform`, `Compression` are used). How the columns are grouped, how the subheaders are distributed over the
metadata pages and how the rows are distributed over the pages is left open (`Layout`); `Layout.packed` is
one way that always works.
-/

namespace Sas.Spec

open Sas

/-- `n` zero bytes. -/
def zeros (n : Nat) : List Byte := List.replicate n 0

/-! ## The header -/

/-- A text in a field of `n` bytes, padded with blanks. -/
def blankPadded (n : Nat) (t : List Byte) : List Byte := t ++ List.replicate (n - t.length) 0x20

/-- The byte at 39. -/
def platformByte : Platform → Byte
  | .unix => 0x31
  | .windows => 0x32
  | .unknown => 0x20

/-- The header. -/
def writeHeader (h : FileHeader) : List Byte :=
  magic ++ ([if h.wide then 0x33 else 0x22, 0, 0, if h.padded then 0x33 else 0x22, 0,
    if h.endian = .little then 1 else 0, 0, platformByte h.platform] ++
  (zeros 30 ++ ([h.encoding] ++ (zeros 21 ++
  (blankPadded 64 h.datasetName ++ (blankPadded 8 h.fileType ++ (zeros h.a1 ++
  (encode h.endian 8 h.created ++ (encode h.endian 8 h.modified ++ (zeros 16 ++
  (encode h.endian 4 h.headerLength ++ (encode h.endian 4 h.pageLength ++ (encode h.endian 4 h.pageCount ++
  (zeros (8 + (h.a2 - h.a1)) ++
  (blankPadded 8 h.sasRelease ++ (blankPadded 16 h.serverType ++ (blankPadded 16 h.osType ++ (zeros 16 ++
  (blankPadded 16 h.osName ++ zeros (h.headerLength - (288 + h.a2)))))))))))))))))))))

/-- A text that can be written in a field of `n` bytes: it does not start with white space or a zero byte,
and it ends with a visible character. -/
structure FieldText (n : Nat) (t : List Byte) : Prop where
  fits : t.length ≤ n
  first : ∀ b, t.head? = some b → ¬ white b ∧ b ≠ 0
  last : ∀ b, t.getLast? = some b → printable b ∧ ¬ white b

/-- A header that can be written. -/
structure FileHeader.Writable (h : FileHeader) : Prop where
  long : 288 + h.a2 ≤ h.headerLength
  datasetName : FieldText 64 h.datasetName
  fileType : FieldText 8 h.fileType
  sasRelease : FieldText 8 h.sasRelease
  serverType : FieldText 16 h.serverType
  osType : FieldText 16 h.osType
  osName : FieldText 16 h.osName
  stamps : Stamp h.created ∧ Stamp h.modified
  sizes : h.created < 2 ^ 64 ∧ h.modified < 2 ^ 64 ∧ h.headerLength < 2 ^ 32 ∧ h.pageLength < 2 ^ 32 ∧
    h.pageCount < 2 ^ 32

/-! ## Subheaders -/

/-- A text reference. -/
def TextRef.bytes (e : Endian) (r : TextRef) : List Byte :=
  encode e 2 r.text ++ (encode e 2 r.offset ++ encode e 2 r.length)

/-- A column attribute. -/
def Attr.bytes (e : Endian) (f : Format) (a : Attr) : List Byte :=
  encode e (word f) a.offset ++ (encode e 4 a.length ++ [0, 0, if a.numeric then 1 else 2, 0])

/-- The bytes of a subheader. (Rows are not subheaders; nothing is written for `row` and `ignored`.) -/
def Sub.bytes (e : Endian) (f : Format) : Sub → List Byte
  | .rowSize r =>
    Sig.rowSize.bytes e f ++ (zeros (4 * word f) ++ (encode e (word f) r.rowLength ++
    (encode e (word f) r.rowCount ++ (zeros (2 * word f) ++ (encode e (word f) r.p1 ++
    (encode e (word f) r.p2 ++ (zeros (4 * word f) ++ (encode e (word f) r.mixCount ++
    (zeros (lcsAt f - 16 * word f) ++ (encode e 2 r.lcs ++ (zeros 22 ++ (encode e 2 r.lcp ++
    zeros 2))))))))))))
  | .columnSize n => Sig.columnSize.bytes e f ++ encode e (word f) n
  | .columnText t => Sig.columnText.bytes e f ++ t
  | .columnNames rs =>
    Sig.columnNames.bytes e f ++ (zeros 8 ++ ((rs.flatMap fun r => r.bytes e ++ zeros 2) ++ zeros (word f + 4)))
  | .columnAttrs as => Sig.columnAttrs.bytes e f ++ (zeros 8 ++ ((as.flatMap fun a => a.bytes e f) ++ zeros 4))
  | .formatLabel fr lr => Sig.formatLabel.bytes e f ++ (zeros (2 * word f + 22) ++ (fr.bytes e ++ lr.bytes e))
  | .ignored => []
  | .row => []

/-! ## Pages -/

/-- Something with a subheader pointer: a subheader or a row of a compressed file. -/
structure Item where
  comp : Byte
  type : Byte
  bytes : List Byte

/-- The subheader pointers of items that are stored one after the other from `o` on. -/
def pointers : (o : Nat) → List Item → List PageSub
  | _, [] => []
  | o, i :: is => ⟨o, i.bytes.length, i.comp, i.type⟩ :: pointers (o + i.bytes.length) is

/-- A subheader pointer. -/
def ptrBytes (e : Endian) (f : Format) (p : PageSub) : List Byte :=
  encode e (word f) p.offset ++ (encode e (word f) p.length ++ ([p.comp, p.type] ++ zeros (word f - 2)))

/-- Where rows start on a page with `n` subheader pointers. -/
def rowsStart (f : Format) (n : Nat) : Nat := roundUp8 (pageHead f + 8 + n * (3 * word f))

/-- The length of the used part of a page. -/
def pageUsed (f : Format) (rows : List Byte) (items : List Item) : Nat :=
  rowsStart f items.length + rows.length + (items.flatMap (·.bytes)).length

/-- A page of `L` bytes: its head, the subheader pointers, rows, and what is pointed to. -/
def writePage (e : Endian) (f : Format) (L type blocks : Nat) (rows : List Byte) (items : List Item) : List Byte :=
  zeros (pageHead f) ++ (encode e 2 type ++ (encode e 2 blocks ++ (encode e 2 items.length ++ (zeros 2 ++
  (((pointers (rowsStart f items.length + rows.length) items).flatMap (ptrBytes e f)) ++
  (zeros (rowsStart f items.length - (pageHead f + 8 + items.length * (3 * word f))) ++
  (rows ++ ((items.flatMap (·.bytes)) ++ zeros (L - pageUsed f rows items)))))))))

/-- The item of a subheader. -/
def subItem (e : Endian) (f : Format) (s : Sub) : Item := ⟨0, 0, s.bytes e f⟩

/-! ## Data sets -/

/-- A data set: its columns, the length of a row in bytes, and the rows. -/
structure DataSet where
  columns : List ColumnDesc
  rowLength : Nat
  rows : List (List Byte)

/-- The texts of a column, one after the other. -/
def ColumnDesc.text (d : ColumnDesc) : List Byte := d.name ++ (d.format ++ d.label)

/-- A column text with its length in front. -/
def textOf (e : Endian) (body : List Byte) : List Byte := encode e 2 (2 + body.length) ++ body

/-- Where the texts of columns are: name, format and label. -/
def refsFrom (text : Nat) : (o : Nat) → List ColumnDesc → List (TextRef × TextRef × TextRef)
  | _, [] => []
  | o, d :: ds =>
    (⟨text, o, d.name.length⟩, ⟨text, o + d.name.length, d.format.length⟩,
      ⟨text, o + d.name.length + d.format.length, d.label.length⟩) :: refsFrom text (o + d.text.length) ds

/-- The subheaders that describe a group of columns, which shares a column text, number `text`. -/
def groupSubs (e : Endian) (text : Nat) (g : List ColumnDesc) : List Sub :=
  [.columnText (textOf e (g.flatMap ColumnDesc.text)),
   .columnNames ((refsFrom text 2 g).map (·.1)),
   .columnAttrs (g.map fun d => ⟨d.offset, d.length, d.numeric⟩)] ++
  (refsFrom text 2 g).map fun r => .formatLabel r.2.1 r.2.2

/-- The subheaders of all groups. -/
def groupsSubs (e : Endian) : (text : Nat) → List (List ColumnDesc) → List Sub
  | _, [] => []
  | t, g :: gs => groupSubs e t g ++ groupsSubs e (t + 1) gs

/-- How a compression is announced. -/
def marker : Compression → List Byte
  | .none => List.replicate 8 0x20
  | .rle => rleMarker
  | .rdc => rdcMarker

/-- The first column text: it announces the compression. -/
def leadText (e : Endian) (c : Compression) : List Byte :=
  textOf e (List.replicate 10 0x20 ++ (marker c ++ List.replicate 16 0x20))

/-- The choices a writer has: header (byte order, word size, page length), compression, grouping of the
columns, distribution of the subheaders, rows on the last metadata page (a mix page, if there are any), and
distribution of the other rows, in the form in which they are stored. -/
structure Layout where
  header : FileHeader
  compression : Compression
  groups : List (List ColumnDesc)
  metaPages : List (List Sub)
  mix : List (List Byte)
  rowPages : List (List (List Byte))

/-- All subheaders of the file. -/
def describe (l : Layout) (d : DataSet) : List Sub :=
  [.rowSize ⟨d.rowLength, d.rows.length, d.columns.length, 0, l.mix.length, 0, 0⟩, .columnSize d.columns.length,
    .columnText (leadText l.header.endian l.compression)] ++ groupsSubs l.header.endian 1 l.groups

/-- The page with these subheaders and, if there are any, rows. -/
def writeMeta (h : FileHeader) (rows : List (List Byte)) (subs : List Sub) : List Byte :=
  writePage h.endian h.fmt h.pageLength (if rows = [] then 0 else 512) (if rows = [] then 0 else rows.length)
    rows.flatten (subs.map (subItem h.endian h.fmt))

/-- A row of a compressed file; `n` is the length of a row. -/
def rowItem (n : Nat) (raw : List Byte) : Item := ⟨if raw.length < n then 4 else 0, 1, raw⟩

/-- The page with these rows: a data page, or a page with a pointer for each row. -/
def writeRows (h : FileHeader) (c : Compression) (n : Nat) (rows : List (List Byte)) : List Byte :=
  if c = .none then writePage h.endian h.fmt h.pageLength 256 rows.length rows.flatten []
  else writePage h.endian h.fmt h.pageLength 0 0 [] (rows.map (rowItem n))

/-- The metadata pages: the last one holds the rows of the mix page. -/
def writeMetas (h : FileHeader) (mix : List (List Byte)) : List (List Sub) → List (List Byte)
  | [] => []
  | [p] => [writeMeta h mix p]
  | p :: q :: ps => writeMeta h [] p :: writeMetas h mix (q :: ps)

/-- The file. -/
def Layout.write (l : Layout) (d : DataSet) : List Byte :=
  writeHeader l.header ++ ((writeMetas l.header l.mix l.metaPages).flatten ++
    (l.rowPages.map (writeRows l.header l.compression d.rowLength)).flatten)

/-- A text of a column that can be written: it starts and ends with visible characters. -/
structure ColumnText (t : List Byte) : Prop where
  first : ∀ b, t.head? = some b → printable b ∧ ¬ white b
  last : ∀ b, t.getLast? = some b → printable b ∧ ¬ white b

/-- A column that can be written. -/
structure ColumnDesc.Writable (f : Format) (d : ColumnDesc) : Prop where
  name : ColumnText d.name
  format : ColumnText d.format
  label : ColumnText d.label
  sizes : d.offset < 256 ^ word f ∧ d.length < 2 ^ 32

/-- The layout is one for this data set: everything is there, in order, and fits. (That the stored rows are
the rows of the data set is said separately.) -/
structure Layout.For (l : Layout) (d : DataSet) : Prop where
  header : l.header.Writable
  columns : l.groups.flatten = d.columns
  columnsOk : ∀ c ∈ d.columns, c.Writable l.header.fmt
  texts : ∀ g ∈ l.groups, 2 + (g.flatMap ColumnDesc.text).length < 2 ^ 16
  groups : l.groups.length < 2 ^ 16 - 1
  subs : l.metaPages.flatten = describe l d
  count : (l.mix ++ l.rowPages.flatten).length = d.rows.length
  sizes : d.rowLength < 256 ^ word l.header.fmt ∧ d.rows.length < 256 ^ word l.header.fmt ∧
    d.columns.length < 256 ^ word l.header.fmt
  metaFits : ∀ p ∈ l.metaPages, p.length < 2 ^ 16 ∧
    pageUsed l.header.fmt [] (p.map (subItem l.header.endian l.header.fmt)) ≤ l.header.pageLength
  mixFits : ∀ p, l.metaPages.getLast? = some p → l.mix.length < 2 ^ 16 ∧
    pageUsed l.header.fmt l.mix.flatten (p.map (subItem l.header.endian l.header.fmt)) ≤ l.header.pageLength

/-- The stored rows are the rows of the data set, uncompressed. -/
structure Layout.Plain (l : Layout) (d : DataSet) : Prop where
  compression : l.compression = .none
  rows : l.mix ++ l.rowPages.flatten = d.rows
  rowLength : ∀ r ∈ d.rows, r.length = d.rowLength
  rowsFit : ∀ p ∈ l.rowPages, p ≠ [] ∧ p.length < 2 ^ 16 ∧
    pageUsed l.header.fmt p.flatten [] ≤ l.header.pageLength

/-- The stored rows are compressed rows of the data set, in a form the library decompresses correctly
(`Packed`). On the first page with rows they do not look like subheaders, which the reader looks for there. -/
structure Layout.Compressed (l : Layout) (d : DataSet) : Prop where
  compression : l.compression ≠ .none
  mix : l.mix = []
  rows : ∀ (i : Nat) (raw row : List Byte), l.rowPages.flatten[i]? = some raw → d.rows[i]? = some row →
    Packed l.compression d.rowLength raw row
  rowLength : 0 < d.rowLength
  rowsFit : ∀ p ∈ l.rowPages, p ≠ [] ∧ p.length < 2 ^ 16 ∧
    pageUsed l.header.fmt [] (p.map (rowItem d.rowLength)) + 8 ≤ l.header.pageLength
  first : ∀ p, l.rowPages.head? = some p → ∀ raws, raws <:+ p → raws ≠ [] → ∀ e s,
    (raws.flatten ++ zeros 8).take (word l.header.fmt) ≠ Sig.bytes e l.header.fmt s

/-! ## A layout for every data set -/

/-- Distribution of things over pages: a page is filled as long as everything on it fits, from the last page to
the first. -/
def pack {α : Type} (fits : List α → Bool) : List α → List (List α)
  | [] => []
  | x :: xs =>
    match pack fits xs with
    | [] => [[x]]
    | p :: ps => if fits (x :: p) then (x :: p) :: ps else [x] :: p :: ps

/-- Subheaders that fit on a page. -/
def subsFit (h : FileHeader) (p : List Sub) : Bool :=
  p.length < 2 ^ 16 ∧ pageUsed h.fmt [] (p.map (subItem h.endian h.fmt)) ≤ h.pageLength

/-- Columns that fit in a group: their texts are short enough, and each subheader fits on a page. -/
def groupFits (h : FileHeader) (g : List ColumnDesc) : Bool :=
  2 + (g.flatMap ColumnDesc.text).length < 2 ^ 16 ∧ ∀ s ∈ groupSubs h.endian 0 g, subsFit h [s] = true

/-- Rows that fit on a data page. -/
def rowsFit (h : FileHeader) (p : List (List Byte)) : Bool :=
  p.length < 2 ^ 16 ∧ pageUsed h.fmt p.flatten [] ≤ h.pageLength

/-- A layout with metadata pages that are as full as possible, and these pages of stored rows. -/
def Layout.filled (h : FileHeader) (c : Compression) (d : DataSet) (rowPages : List (List (List Byte))) : Layout :=
  let l : Layout := ⟨h, c, pack (groupFits h) d.columns, [], [], rowPages⟩
  { l with metaPages := pack (subsFit h) (describe l d) }

/-- The layout of an uncompressed file with data pages that are as full as possible. -/
def Layout.packed (h : FileHeader) (d : DataSet) : Layout := .filled h .none d (pack (rowsFit h) d.rows)

/-- The data set can be stored uncompressed in a file with this header: header and columns can be written, and
every single column and row fits on a page. -/
structure DataSet.Fits (d : DataSet) (h : FileHeader) : Prop where
  header : h.Writable
  columnsOk : ∀ c ∈ d.columns, c.Writable h.fmt
  columns : d.columns.length < 2 ^ 16 - 1
  texts : ∀ c ∈ d.columns, 2 + c.text.length < 2 ^ 16 ∧ 74 + c.text.length ≤ h.pageLength
  sizes : d.rowLength < 256 ^ word h.fmt ∧ d.rows.length < 256 ^ word h.fmt
  rowLength : ∀ r ∈ d.rows, r.length = d.rowLength
  page : 774 ≤ h.pageLength ∧ 40 + d.rowLength ≤ h.pageLength

/-! ## An RLE compressor -/

/-- One more byte in front of commands: it extends a run of the byte, starts one with two equal bytes, or is
copied. -/
def rlePush (b : Byte) : List RleCmd → List RleCmd
  | .byte3 x n :: cs => if x = b ∧ n < 18 then .byte3 x (n + 1) :: cs else .copy1 [b] :: .byte3 x n :: cs
  | .copy1 [x, y] :: cs => if x = b ∧ y = b then .byte3 b 3 :: cs else .copy1 [b, x, y] :: cs
  | .copy1 (x :: y :: bs) :: cs =>
    if x = b ∧ y = b then .byte3 b 3 :: .copy1 bs :: cs
    else if bs.length < 14 then .copy1 (b :: x :: y :: bs) :: cs
    else .copy1 [b] :: .copy1 (x :: y :: bs) :: cs
  | .copy1 bs :: cs => if bs.length < 16 then .copy1 (b :: bs) :: cs else .copy1 [b] :: .copy1 bs :: cs
  | cs => .copy1 [b] :: cs

/-- The commands for a row. -/
def rleCmds (row : List Byte) : List RleCmd := row.foldr rlePush []

/-- A row in compressed form, or as it is if that is not longer. -/
def rleStore (row : List Byte) : List Byte :=
  if (rleEncode (rleCmds row)).length < row.length then rleEncode (rleCmds row) else row

/-- Rows that fit on a page with a pointer for each row; `n` is the length of a row. -/
def itemsFit (h : FileHeader) (n : Nat) (p : List (List Byte)) : Bool :=
  p.length < 2 ^ 16 ∧ pageUsed h.fmt [] (p.map (rowItem n)) + 8 ≤ h.pageLength

/-- The layout of an RLE compressed file with pages that are as full as possible. -/
def Layout.rle (h : FileHeader) (d : DataSet) : Layout :=
  .filled h .rle d (pack (itemsFit h d.rowLength) (d.rows.map rleStore))

/-- A stored row that looks like a subheader: it starts with the bytes of a signature, or is shorter and the
signature starts with it. -/
def LooksLikeSubheader (f : Format) (stored : List Byte) : Prop :=
  ∃ e s, stored.take (word f) <+: Sig.bytes e f s

end Sas.Spec
