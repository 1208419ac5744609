import Verif.Spec.File
import Verif.Spec.Stream

/-!
# Columns: types, texts, filters; a file as a whole
-/

namespace Sas.Spec

open Sas

/-- Formats of columns that hold a date and time. -/
def datetimeNames : List String :=
  ["B8601DN", "B8601DT", "B8601DX", "B8601DZ", "B8601LX", "DATEAMPM", "DATETIME", "DTDATE", "DTMONYY",
   "DTWKDATX", "DTYEAR", "E8601DN", "E8601DT", "E8601DX", "E8601DZ", "E8601LX", "MDYAMPM", "TOD"]

/-- Formats of columns that hold a date. -/
def dateNames : List String :=
  ["B8601DA", "DATE", "DAY", "DDMMYY", "DDMMYYB", "DDMMYYC", "DDMMYYD", "DDMMYYN", "DDMMYYP", "DDMMYYS",
   "DOWNAME", "E8601DA", "JULDAY", "JULIAN", "MINGUO", "MMDDYY", "MMDDYYC", "MMDDYYD", "MMDDYYN",
   "MMDDYYP", "MMDDYYS", "MMYY", "MMYYC", "MMYYD", "MMYYN", "MMYYP", "MMYYS", "MONNAME", "MONTH",
   "MONYY", "NENGO", "QTR", "QTRR", "WEEKDATE", "WEEKDATX", "WEEKDAY", "WEEKV", "WORDDATE",
   "WORDDATX", "YEAR", "YYMM", "YYMMC", "YYMMD", "YYMMDD", "YYMMDDB", "YYMMDDC", "YYMMDDD",
   "YYMMDDN", "YYMMDDP", "YYMMDDS", "YYMMN", "YYMMP", "YYMMS", "YYMON", "YYQ", "YYQC", "YYQD",
   "YYQN", "YYQP", "YYQR", "YYQRC", "YYQRD", "YYQRN", "YYQRP", "YYQRS", "YYQS"]

/-- Formats of columns that hold a time of day. -/
def timeNames : List String := ["TIME"]

/-- The bytes of a text. -/
def textBytes (s : String) : List Byte := s.toUTF8.toList

/-- The format is one of these. -/
def oneOf (names : List String) (format : List Byte) : Prop := ∃ n ∈ names, format = textBytes n

open Classical in
/-- The type of a column. -/
noncomputable def columnType (numeric : Bool) (format : List Byte) (length : Nat) : ColType :=
  if numeric = false then .string
  else if length = 1 ∨ length = 2 then .integer
  else if oneOf datetimeNames format then .datetime
  else if oneOf dateNames format then .date
  else if oneOf timeNames format then .time
  else if 3 ≤ length ∧ length ≤ 8 then .number
  else .unknown

/-- The part of a text a reference designates: as much of it as exists. -/
def referenced (ts : List (List Byte)) (r : TextRef) : List Byte :=
  match ts[r.text]? with
  | some t => (t.drop r.offset).take r.length
  | none => []

/-- The reference designates this text, possibly with blanks before it and white space or non-printable
characters after it; the text starts and ends with visible (ASCII) characters. -/
structure RefersTo (ts : List (List Byte)) (r : TextRef) (text : List Byte) : Prop where
  cell : ∃ lead pad, referenced ts r = lead ++ text ++ pad ∧ (∀ b ∈ lead, b = 0x20) ∧
    (∀ b ∈ pad, ¬ printable b ∨ white b)
  first : ∀ b, text.head? = some b → printable b ∧ ¬ white b
  last : ∀ b, text.getLast? = some b → printable b ∧ ¬ white b

/-- A column as the creator of the file thinks of it. -/
structure ColumnDesc where
  name : List Byte
  label : List Byte
  format : List Byte
  offset : Nat
  length : Nat
  numeric : Bool

/-- The subheaders describe these columns. -/
structure Describes (ss : List Sub) (ds : List ColumnDesc) : Prop where
  count : columnCountOf 0 ss = ds.length
  name : ∀ (i : Nat) (d : ColumnDesc), ds[i]? = some d → ∃ ts r, (nameRefs [] ss)[i]? = some (ts, r) ∧ RefersTo ts r d.name
  label : ∀ (i : Nat) (d : ColumnDesc), ds[i]? = some d → ∃ ts r, (labelRefs [] ss)[i]? = some (ts, r) ∧ RefersTo ts r d.label
  format : ∀ (i : Nat) (d : ColumnDesc), ds[i]? = some d → ∃ ts r, (formatRefs [] ss)[i]? = some (ts, r) ∧ RefersTo ts r d.format
  attr : ∀ (i : Nat) (d : ColumnDesc), ds[i]? = some d → (attrs ss)[i]? = some ⟨d.offset, d.length, d.numeric⟩

/-- The column reported for a description. -/
structure Reports (c : Column) (d : ColumnDesc) : Prop where
  name : c.name = d.name
  label : c.label = d.label
  format : c.format = d.format
  offset : c.offset = d.offset
  length : c.length = d.length
  type : c.type = columnType d.numeric d.format d.length

/-- From state `s` on, the source presents the header `h` (in two reads, as the library requests it) and
then these pages. -/
def Presents {σ : Type} (S : Source σ) (s : σ) (h : FileHeader) (pages : List (List Byte)) (en : Ending) :
    Prop :=
  ∃ bs s1 s2, HeaderLayout h bs ∧ S.read s 288 = ⟨s1, bs.take 288, true⟩ ∧
    S.read s1 (h.headerLength - 288) = ⟨s2, bs.drop 288, true⟩ ∧ Stream S h.pageLength s2 pages en

/-- The word size of the file. -/
def FileHeader.fmt (h : FileHeader) : Format := if h.wide then .bit64 else .bit32

/-- The subheaders that count, over several pages. -/
def usedOf (cs : List PageContent) : List Sub := cs.flatMap PageContent.used

/-- The description of a file up to the page on which its metadata ends: pages `pre` without rows and
then, unless the file has no rows at all, the first page `k` with rows. `all` are their subheaders, `c`
the compression. -/
structure FileMeta (h : FileHeader) (pre : List (List Byte × PageContent))
    (k : Option (List Byte × PageContent)) (all : List Sub) (c : Compression) : Prop where
  all_eq : all = usedOf (pre.map (·.2)) ++ usedOf (k.toList.map (·.2))
  compression : IsCompression (texts all) c
  room : RoomForCreator all
  rows : rowsAfterText false all = true
  pre_is : ∀ pc ∈ pre, PageIs h.endian h.fmt pc.1 pc.2 ∧ pc.2.last (c ≠ .none) = false
  k_is : ∀ pc, k = some pc → PageIs h.endian h.fmt pc.1 pc.2 ∧ pc.2.last (c ≠ .none) = true

/-- A well-formed file on a machine with enough memory: header, the pages `pre` that only hold metadata,
the first page `k` with rows (if any), and the pages `post` after it. `fuel` bounds the number of pages
looked at in one go. -/
structure WellFormed {σ : Type} (cfg : Cfg) (S : Source σ) (s : σ) (h : FileHeader)
    (pre : List (List Byte × PageContent)) (k : Option (List Byte × PageContent))
    (post : List (List Byte)) (en : Ending) (all : List Sub) (c : Compression) (fuel : Nat) : Prop where
  presents : Presents S s h (pre.map (·.1) ++ (k.toList.map (·.1) ++ post)) en
  fileMeta : FileMeta h pre k all c
  memory : h.headerLength ≤ cfg.maxAlloc ∧ h.pageLength ≤ cfg.maxAlloc ∧
    (rowSizeOf .none all).rowLength ≤ cfg.maxAlloc
  loggable : Loggable cfg h
  enough : pre.length < fuel
  noRows : k = none → post = [] ∧ en = .endOfFile

end Sas.Spec
