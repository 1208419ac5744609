import Verif.Model.PyProps
import Verif.Spec.PyFront
import Verif.Spec.RFront
import Verif.Spec.Writer

/-!
# What a Python program should see of the properties of a file
-/

namespace Sas.Spec

/-- What an attribute should be for a text: a `str`, which only holds UTF-8. -/
def TextSeen (s : List Byte) (x : PyAttr) : Prop := IsUtf8 s ∧ x = .str s

/-- What an attribute should be for a number. -/
def SizeSeen (n : Nat) (x : PyAttr) : Prop := x = .val (.int n)

/-- What an attribute should be for a time stamp: `None` if there is none, else the `datetime`. -/
def StampSeen (t : DateTime) (x : PyAttr) : Prop := ∃ v, PyShows (.datetime t) v ∧ x = .val v

/-- `properties.name` should be `x` for these properties. -/
inductive PySees (p : Properties) : List Byte → PyAttr → Prop
  | format : PySees p (ascii "format") (.enum (match p.header.format with | .bit32 => ascii "bit32" | .bit64 => ascii "bit64"))
  | endianness : PySees p (ascii "endianness") (.enum (endianName p.header.endian))
  | platform : PySees p (ascii "platform") (.enum (platformName p.header.platform))
  | date_created {x} (h : StampSeen p.header.dateCreated x) : PySees p (ascii "date_created") x
  | date_modified {x} (h : StampSeen p.header.dateModified x) : PySees p (ascii "date_modified") x
  | dataset_name {x} (h : TextSeen p.header.datasetName x) : PySees p (ascii "dataset_name") x
  | encoding {x} (h : TextSeen (ascii p.header.encoding) x) : PySees p (ascii "encoding") x
  | file_type {x} (h : TextSeen p.header.fileType x) : PySees p (ascii "file_type") x
  | sas_release {x} (h : TextSeen p.header.sasRelease x) : PySees p (ascii "sas_release") x
  | sas_server_type {x} (h : TextSeen p.header.serverType x) : PySees p (ascii "sas_server_type") x
  | os_type {x} (h : TextSeen p.header.osType x) : PySees p (ascii "os_type") x
  | os_name {x} (h : TextSeen p.header.osName x) : PySees p (ascii "os_name") x
  | header_length {x} (h : SizeSeen p.header.headerLength x) : PySees p (ascii "header_length") x
  | page_length {x} (h : SizeSeen p.header.pageLength x) : PySees p (ascii "page_length") x
  | page_count {x} (h : SizeSeen p.header.pageCount x) : PySees p (ascii "page_count") x
  | compression : PySees p (ascii "compression") (.enum (compressionName p.md.compression))
  | creator {x} (h : TextSeen p.md.creator x) : PySees p (ascii "creator") x
  | creator_proc {x} (h : TextSeen p.md.creatorProc x) : PySees p (ascii "creator_proc") x
  | row_length {x} (h : SizeSeen p.md.rowLength x) : PySees p (ascii "row_length") x
  | row_count {x} (h : SizeSeen p.md.rowCount x) : PySees p (ascii "row_count") x
  | column_count {x} (h : SizeSeen p.md.columnCount x) : PySees p (ascii "column_count") x
  | col_count_p1 {x} (h : SizeSeen p.md.p1 x) : PySees p (ascii "col_count_p1") x
  | col_count_p2 {x} (h : SizeSeen p.md.p2 x) : PySees p (ascii "col_count_p2") x
  | mix_page_row_count {x} (h : SizeSeen p.md.mixCount x) : PySees p (ascii "mix_page_row_count") x
  | lcs {x} (h : SizeSeen p.md.lcs x) : PySees p (ascii "lcs") x
  | lcp {x} (h : SizeSeen p.md.lcp x) : PySees p (ascii "lcp") x
  | columns : PySees p (ascii "columns") (.columns p.columns)

/-- The texts among the properties. -/
inductive PyTextOf (p : Properties) : List Byte → List Byte → Prop
  | dataset_name : PyTextOf p (ascii "dataset_name") p.header.datasetName
  | file_type : PyTextOf p (ascii "file_type") p.header.fileType
  | sas_release : PyTextOf p (ascii "sas_release") p.header.sasRelease
  | sas_server_type : PyTextOf p (ascii "sas_server_type") p.header.serverType
  | os_type : PyTextOf p (ascii "os_type") p.header.osType
  | os_name : PyTextOf p (ascii "os_name") p.header.osName
  | creator : PyTextOf p (ascii "creator") p.md.creator
  | creator_proc : PyTextOf p (ascii "creator_proc") p.md.creatorProc

/-- The names of the properties. -/
def propertyNames : List (List Byte) :=
  ["format", "endianness", "platform", "date_created", "date_modified", "dataset_name", "encoding", "file_type",
   "sas_release", "sas_server_type", "os_type", "os_name", "header_length", "page_length", "page_count", "compression",
   "creator", "creator_proc", "row_length", "row_count", "column_count", "col_count_p1", "col_count_p2",
   "mix_page_row_count", "lcs", "lcp", "columns"].map ascii

/-- `column.name` should be `x` for this column. -/
inductive PySeesColumn (c : Column) : List Byte → PyAttr → Prop
  | name {x} (h : TextSeen c.name x) : PySeesColumn c (ascii "name") x
  | format {x} (h : TextSeen c.format x) : PySeesColumn c (ascii "format") x
  | label {x} (h : TextSeen c.label x) : PySeesColumn c (ascii "label") x
  | type : PySeesColumn c (ascii "type") (.enum (typeName c.type))

/-- The Python object for a stored time stamp: `None` for a missing one, otherwise the `datetime` of the instant that is
nearest (see `Shows`). -/
def StoredStampSeen (bits : Nat) (x : PyAttr) : Prop := ∃ t, Shows bits t ∧ StampSeen t x

/-- `properties.name` should be `x` for a file with this header, this compression and this data set. -/
inductive PySeesFile (h : FileHeader) (k : Compression) (d : DataSet) : List Byte → PyAttr → Prop
  | format : PySeesFile h k d (ascii "format") (.enum (if h.wide then ascii "bit64" else ascii "bit32"))
  | endianness : PySeesFile h k d (ascii "endianness") (.enum (endianName h.endian))
  | platform : PySeesFile h k d (ascii "platform") (.enum (platformName h.platform))
  | dataset_name {x} (hx : TextSeen h.datasetName x) : PySeesFile h k d (ascii "dataset_name") x
  | encoding {x} (hx : x = .str (ascii ((encodingNames.lookup h.encoding.toNat).getD "WINDOWS-1252"))) :
      PySeesFile h k d (ascii "encoding") x
  | file_type {x} (hx : TextSeen h.fileType x) : PySeesFile h k d (ascii "file_type") x
  | sas_release {x} (hx : TextSeen h.sasRelease x) : PySeesFile h k d (ascii "sas_release") x
  | sas_server_type {x} (hx : TextSeen h.serverType x) : PySeesFile h k d (ascii "sas_server_type") x
  | os_type {x} (hx : TextSeen h.osType x) : PySeesFile h k d (ascii "os_type") x
  | os_name {x} (hx : TextSeen h.osName x) : PySeesFile h k d (ascii "os_name") x
  | header_length {x} (hx : SizeSeen h.headerLength x) : PySeesFile h k d (ascii "header_length") x
  | page_length {x} (hx : SizeSeen h.pageLength x) : PySeesFile h k d (ascii "page_length") x
  | page_count {x} (hx : SizeSeen h.pageCount x) : PySeesFile h k d (ascii "page_count") x
  | compression : PySeesFile h k d (ascii "compression") (.enum (compressionName k))
  | row_length {x} (hx : SizeSeen d.rowLength x) : PySeesFile h k d (ascii "row_length") x
  | row_count {x} (hx : SizeSeen d.rows.length x) : PySeesFile h k d (ascii "row_count") x
  | column_count {x} (hx : SizeSeen d.columns.length x) : PySeesFile h k d (ascii "column_count") x

/-- The attribute `name` of a column should be `x` for a column described like this. -/
inductive PySeesDesc (c : ColumnDesc) : List Byte → PyAttr → Prop
  | name {x} (h : TextSeen c.name x) : PySeesDesc c (ascii "name") x
  | format {x} (h : TextSeen c.format x) : PySeesDesc c (ascii "format") x
  | label {x} (h : TextSeen c.label x) : PySeesDesc c (ascii "label") x
  | type : PySeesDesc c (ascii "type") (.enum (typeName (columnType c.numeric c.format c.length)))

end Sas.Spec
