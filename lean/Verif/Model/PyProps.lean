import Verif.Model.PyFront

/-!
# The properties of a file in Python

The classes `Properties` and `Column` (python/pycppsas7bdat/cpp/pycppsas7bdat.cpp:23-126), with the conversions of
Boost.Python: numbers become `int`, a `std::string` becomes a `str` and must be UTF-8, a value of an enumeration becomes the
member that was registered for it. Simplification: the attributes that every Python object has are left out.
-/

namespace Sas

/-- The value of an attribute (python/pycppsas7bdat/cpp/pycppsas7bdat.cpp:32-59, 74-123). -/
inductive PyAttr
  | enum (member : List Byte)
  | str (utf8 : List Byte)
  | val (x : PyVal)
  | columns (cs : List Column)
deriving DecidableEq

/-- `enum_<Format>` (python/pycppsas7bdat/cpp/pycppsas7bdat.cpp:36-38). -/
def Format.pyMember : Format → List Byte
  | .bit32 => ascii "bit32"
  | .bit64 => ascii "bit64"

/-- `enum_<Endian>` (python/pycppsas7bdat/cpp/pycppsas7bdat.cpp:32-35). -/
def Endian.pyMember : Endian → List Byte
  | .little => ascii "little"
  | .big => ascii "big"

/-- `enum_<Platform>` (python/pycppsas7bdat/cpp/pycppsas7bdat.cpp:39-42). -/
def Platform.pyMember : Platform → List Byte
  | .unknown => ascii "unknown"
  | .unix => ascii "unix"
  | .windows => ascii "windows"

/-- `enum_<Compression>` (python/pycppsas7bdat/cpp/pycppsas7bdat.cpp:43-46). -/
def Compression.pyMember : Compression → List Byte
  | .none => ascii "none"
  | .rle => ascii "RLE"
  | .rdc => ascii "RDC"

/-- `enum_<Column::Type>` (python/pycppsas7bdat/cpp/pycppsas7bdat.cpp:47-54). -/
def ColType.pyMember : ColType → List Byte
  | .unknown => ascii "unknown"
  | .string => ascii "string"
  | .number => ascii "number"
  | .integer => ascii "integer"
  | .datetime => ascii "datetime"
  | .date => ascii "date"
  | .time => ascii "time"

/-- A `std::string`: `UnicodeDecodeError` if it is not UTF-8 (python/pycppsas7bdat/cpp/pycppsas7bdat.cpp:56-58, 83-94, 103-106). -/
def pyText (s : List Byte) : PyM PyAttr := if utf8Valid s then .ok (.str s) else .error .raised

/-- A `size_t` (python/pycppsas7bdat/cpp/pycppsas7bdat.cpp:95-100, 107-121). -/
def pySize (n : Nat) : PyM PyAttr := .ok (.val (.int n))

/-- `to_python` of a `ptime` (python/pycppsas7bdat/cpp/import_datetime.cpp:34-44, 197-199). -/
def pyStamp (t : DateTime) : PyM PyAttr := do
  return .val (.time (← PyM.ofResult (← PyM.ofRes t.toPython)))

/-- The attributes of `Properties` (python/pycppsas7bdat/cpp/pycppsas7bdat.cpp:74-123). -/
def pyGetters : List (List Byte × (Properties → PyM PyAttr)) :=
  [(ascii "format", fun p => .ok (.enum p.header.format.pyMember)),
   (ascii "endianness", fun p => .ok (.enum p.header.endian.pyMember)),
   (ascii "platform", fun p => .ok (.enum p.header.platform.pyMember)),
   (ascii "date_created", fun p => pyStamp p.header.dateCreated),
   (ascii "date_modified", fun p => pyStamp p.header.dateModified),
   (ascii "dataset_name", fun p => pyText p.header.datasetName),
   (ascii "encoding", fun p => pyText (ascii p.header.encoding)),
   (ascii "file_type", fun p => pyText p.header.fileType),
   (ascii "sas_release", fun p => pyText p.header.sasRelease),
   (ascii "sas_server_type", fun p => pyText p.header.serverType),
   (ascii "os_type", fun p => pyText p.header.osType),
   (ascii "os_name", fun p => pyText p.header.osName),
   (ascii "header_length", fun p => pySize p.header.headerLength),
   (ascii "page_length", fun p => pySize p.header.pageLength),
   (ascii "page_count", fun p => pySize p.header.pageCount),
   (ascii "compression", fun p => .ok (.enum p.md.compression.pyMember)),
   (ascii "creator", fun p => pyText p.md.creator),
   (ascii "creator_proc", fun p => pyText p.md.creatorProc),
   (ascii "row_length", fun p => pySize p.md.rowLength),
   (ascii "row_count", fun p => pySize p.md.rowCount),
   (ascii "column_count", fun p => pySize p.md.columnCount),
   (ascii "col_count_p1", fun p => pySize p.md.p1),
   (ascii "col_count_p2", fun p => pySize p.md.p2),
   (ascii "mix_page_row_count", fun p => pySize p.md.mixCount),
   (ascii "lcs", fun p => pySize p.md.lcs),
   (ascii "lcp", fun p => pySize p.md.lcp),
   (ascii "columns", fun p => .ok (.columns p.columns))]

/-- `properties.name`; `AttributeError` if there is no such attribute (python/pycppsas7bdat/cpp/pycppsas7bdat.cpp:74-123). -/
def pyProperty (p : Properties) (name : List Byte) : PyM PyAttr :=
  match pyGetters.lookup name with
  | some get => get p
  | none => .error .raised

/-- The attributes of `Column` (python/pycppsas7bdat/cpp/pycppsas7bdat.cpp:55-59). -/
def pyColumnGetters : List (List Byte × (Column → PyM PyAttr)) :=
  [(ascii "name", fun c => pyText c.name),
   (ascii "format", fun c => pyText c.format),
   (ascii "label", fun c => pyText c.label),
   (ascii "type", fun c => .ok (.enum c.type.pyMember))]

/-- `column.name` for a column of `properties.columns` (python/pycppsas7bdat/cpp/pycppsas7bdat.cpp:55-63, 122-123). -/
def pyColumnAttr (c : Column) (name : List Byte) : PyM PyAttr :=
  match pyColumnGetters.lookup name with
  | some get => get c
  | none => .error .raised

end Sas
