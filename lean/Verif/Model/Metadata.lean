import Verif.Model.Page
import Verif.Model.Column

/-!
# src/metadata.hpp
-/

namespace Sas

/-- `COLUMN_DATETIME_FORMAT` (src/metadata.hpp:18-22). -/
def datetimeFormats : List String :=
  ["DATETIME", "DTWKDATX", "B8601DN", "B8601DT", "B8601DX", "B8601DZ", "B8601LX", "E8601DN",
   "E8601DT", "E8601DX", "E8601DZ", "E8601LX", "DATEAMPM", "DTDATE", "DTMONYY", "DTMONYY",
   "DTWKDATX", "DTYEAR", "TOD", "MDYAMPM"]

/-- `COLUMN_DATE_FORMAT` (src/metadata.hpp:24-35). -/
def dateFormats : List String :=
  ["DATE", "DAY", "DDMMYY", "DOWNAME", "JULDAY", "JULIAN", "MMDDYY", "MMYY",
   "MMYYC", "MMYYD", "MMYYP", "MMYYS", "MMYYN", "MONNAME", "MONTH", "MONYY",
   "QTR", "QTRR", "NENGO", "WEEKDATE", "WEEKDATX", "WEEKDAY", "WEEKV", "WORDDATE",
   "WORDDATX", "YEAR", "YYMM", "YYMMC", "YYMMD", "YYMMP", "YYMMS", "YYMMN",
   "YYMON", "YYMMDD", "YYQ", "YYQC", "YYQD", "YYQP", "YYQS", "YYQN",
   "YYQR", "YYQRC", "YYQRD", "YYQRP", "YYQRS", "YYQRN", "YYMMDDP", "YYMMDDC",
   "E8601DA", "YYMMDDN", "MMDDYYC", "MMDDYYS", "MMDDYYD", "YYMMDDS", "B8601DA", "DDMMYYN",
   "YYMMDDD", "DDMMYYB", "DDMMYYP", "MMDDYYP", "YYMMDDB", "MMDDYYN", "DDMMYYC", "DDMMYYD",
   "DDMMYYS", "MINGUO"]

/-- `COLUMN_TIME_FORMAT` (src/metadata.hpp:37). -/
def timeFormats : List String := ["TIME"]

/-- `lcs_offset` (src/metadata.hpp:42, 72). -/
def lcsOffset : Format → Nat
  | .bit64 => 682
  | .bit32 => 354

/-- `lcp_offset` (src/metadata.hpp:43, 73). -/
def lcpOffset : Format → Nat
  | .bit64 => 706
  | .bit32 => 378

/-- `compression_offset` (src/metadata.hpp:44, 74). -/
def compressionOffset : Format → Nat
  | .bit64 => 20
  | .bit32 => 16

/-- The kinds of subheader `process_subheader` tells apart (src/metadata.hpp:167-207). -/
inductive SubKind
  | rowSize | columnSize | counts | columnText | columnName | columnAttributes | formatAndLabel
  | columnList | other
deriving DecidableEq, Repr

/-- `ROW_SIZE_SUBHEADER` (src/metadata.hpp:46-48 for 64-bit, 76 for 32-bit files). -/
def rowSizeSignatures : Format → List (List Byte)
  | .bit64 => [[0x00, 0x00, 0x00, 0x00, 0xF7, 0xF7, 0xF7, 0xF7], [0xF7, 0xF7, 0xF7, 0xF7, 0x00, 0x00, 0x00, 0x00]]
  | .bit32 => [[0xF7, 0xF7, 0xF7, 0xF7]]

/-- `COLUMN_SIZE_SUBHEADER` (src/metadata.hpp:49-51 for 64-bit, 77 for 32-bit files). -/
def columnSizeSignatures : Format → List (List Byte)
  | .bit64 => [[0x00, 0x00, 0x00, 0x00, 0xF6, 0xF6, 0xF6, 0xF6], [0xF6, 0xF6, 0xF6, 0xF6, 0x00, 0x00, 0x00, 0x00]]
  | .bit32 => [[0xF6, 0xF6, 0xF6, 0xF6]]

/-- `SUBHEADER_COUNTS_SUBHEADER` (src/metadata.hpp:52-54 for 64-bit, 78-79 for 32-bit files). -/
def countsSignatures : Format → List (List Byte)
  | .bit64 => [[0x00, 0xFC, 0xFF, 0xFF, 0xFF, 0xFF, 0xFF, 0xFF], [0xFF, 0xFF, 0xFF, 0xFF, 0xFF, 0xFF, 0xFC, 0x00]]
  | .bit32 => [[0x00, 0xFC, 0xFF, 0xFF], [0xFF, 0xFF, 0xFC, 0x00]]

/-- `COLUMN_TEXT_SUBHEADER` (src/metadata.hpp:55-57 for 64-bit, 80-81 for 32-bit files). -/
def columnTextSignatures : Format → List (List Byte)
  | .bit64 => [[0xFD, 0xFF, 0xFF, 0xFF, 0xFF, 0xFF, 0xFF, 0xFF], [0xFF, 0xFF, 0xFF, 0xFF, 0xFF, 0xFF, 0xFF, 0xFD]]
  | .bit32 => [[0xFD, 0xFF, 0xFF, 0xFF], [0xFF, 0xFF, 0xFF, 0xFD]]

/-- `COLUMN_NAME_SUBHEADER` (src/metadata.hpp:58-59 for 64-bit, 82 for 32-bit files). -/
def columnNameSignatures : Format → List (List Byte)
  | .bit64 => [[0xFF, 0xFF, 0xFF, 0xFF, 0xFF, 0xFF, 0xFF, 0xFF]]
  | .bit32 => [[0xFF, 0xFF, 0xFF, 0xFF]]

/-- `COLUMN_ATTRIBUTES_SUBHEADER` (src/metadata.hpp:60-62 for 64-bit, 83-84 for 32-bit files). -/
def columnAttributesSignatures : Format → List (List Byte)
  | .bit64 => [[0xFC, 0xFF, 0xFF, 0xFF, 0xFF, 0xFF, 0xFF, 0xFF], [0xFF, 0xFF, 0xFF, 0xFF, 0xFF, 0xFF, 0xFF, 0xFC]]
  | .bit32 => [[0xFC, 0xFF, 0xFF, 0xFF], [0xFF, 0xFF, 0xFF, 0xFC]]

/-- `FORMAT_AND_LABEL_SUBHEADER` (src/metadata.hpp:63-65 for 64-bit, 85-86 for 32-bit files). -/
def formatAndLabelSignatures : Format → List (List Byte)
  | .bit64 => [[0xFE, 0xFB, 0xFF, 0xFF, 0xFF, 0xFF, 0xFF, 0xFF], [0xFF, 0xFF, 0xFF, 0xFF, 0xFF, 0xFF, 0xFB, 0xFE]]
  | .bit32 => [[0xFE, 0xFB, 0xFF, 0xFF], [0xFF, 0xFF, 0xFB, 0xFE]]

/-- `COLUMN_LIST_SUBHEADER` (src/metadata.hpp:66-68 for 64-bit, 87-88 for 32-bit files). -/
def columnListSignatures : Format → List (List Byte)
  | .bit64 => [[0xFE, 0xFF, 0xFF, 0xFF, 0xFF, 0xFF, 0xFF, 0xFF], [0xFF, 0xFF, 0xFF, 0xFF, 0xFF, 0xFF, 0xFF, 0xFE]]
  | .bit32 => [[0xFE, 0xFF, 0xFF, 0xFF], [0xFF, 0xFF, 0xFF, 0xFE]]

/-- `match_signature` (src/metadata.hpp:210-217). -/
def matchSignature (sigs : List (List Byte)) (sig : List Byte) : Bool := sigs.any (· == sig)

/-- The signature tests of `process_subheader`, in their order (src/metadata.hpp:167-198). -/
def classify (f : Format) (sig : List Byte) : SubKind :=
  if matchSignature (rowSizeSignatures f) sig then .rowSize
  else if matchSignature (columnSizeSignatures f) sig then .columnSize
  else if matchSignature (countsSignatures f) sig then .counts
  else if matchSignature (columnTextSignatures f) sig then .columnText
  else if matchSignature (columnNameSignatures f) sig then .columnName
  else if matchSignature (columnAttributesSignatures f) sig then .columnAttributes
  else if matchSignature (formatAndLabelSignatures f) sig then .formatAndLabel
  else if matchSignature (columnListSignatures f) sig then .columnList
  else .other

/-- `Properties::Metadata` without its columns (include/cppsas7bdat/properties.hpp:40-60). -/
structure Meta where
  compression : Compression := .none
  creator : List Byte := []
  creatorProc : List Byte := []
  rowLength : Nat := 0
  rowCount : Nat := 0
  columnCount : Nat := 0
  p1 : Nat := 0
  p2 : Nat := 0
  mixCount : Nat := 0
  lcs : Nat := 0
  lcp : Nat := 0
deriving DecidableEq

/-- What `READ_METADATA` accumulates (src/metadata.hpp:116-123) together with the metadata being
filled. `types` holds `true` for `Column::Type::number` and `false` for `Column::Type::string`. -/
structure Acc where
  md : Meta := {}
  dataSubs : List (Nat × Nat) := []
  texts : List (List Byte) := []
  names : List (List Byte) := []
  formats : List (List Byte) := []
  labels : List (List Byte) := []
  offsets : List Nat := []
  lengths : List Nat := []
  types : List Bool := []
deriving DecidableEq

/-- `process_ROW_SIZE_SUBHEADER` (src/metadata.hpp:219-242). Here and below sums `offset + constant`
do not wrap: the signature at `offset` has been read, so that `offset` lies inside an allocation. -/
def processRowSize (env : Env) (b : Buf) (md : Meta) (o : Nat) : Res Meta := do
  b.assertCheck (o + lcpOffset env.format) 4
  let lcs ← b.getU16 env.cfg env.endian (o + lcsOffset env.format)
  let lcp ← b.getU16 env.cfg env.endian (o + lcpOffset env.format)
  let rowLength ← b.getUInt env.cfg env.endian env.format (o + 5 * env.format.intSize)
  let rowCount ← b.getUInt env.cfg env.endian env.format (o + 6 * env.format.intSize)
  let p1 ← b.getUInt env.cfg env.endian env.format (o + 9 * env.format.intSize)
  let p2 ← b.getUInt env.cfg env.endian env.format (o + 10 * env.format.intSize)
  let mix ← b.getUInt env.cfg env.endian env.format (o + 15 * env.format.intSize)
  return { md with lcs := lcs, lcp := lcp, rowLength := rowLength, rowCount := rowCount, p1 := p1,
                   p2 := p2, mixCount := mix }

/-- `process_COLUMN_SIZE_SUBHEADER` (src/metadata.hpp:244-255); a mismatch is only logged. -/
def processColumnSize (env : Env) (b : Buf) (md : Meta) (o : Nat) : Res Meta := do
  let n ← b.getUInt env.cfg env.endian env.format (o + env.format.intSize)
  return { md with columnCount := n }

/-- `std::string_view::find(pat) != npos` (src/metadata.hpp:279, 281). -/
def containsSub (pat : List Byte) : List Byte → Bool
  | [] => pat.isEmpty
  | b :: bs => pat.isPrefixOf (b :: bs) || containsSub pat bs

/-- `RLE_COMPRESSION` (src/metadata.hpp:113). -/
def rleLiteral : List Byte := ascii "SASYZCRL"
/-- `RDC_COMPRESSION` (src/metadata.hpp:114). -/
def rdcLiteral : List Byte := ascii "SASYZCR2"

/-- `process_COLUMN_TEXT_SUBHEADER` (src/metadata.hpp:267-301). -/
def processColumnText (env : Env) (b : Buf) (acc : Acc) (o : Nat) : Res Acc := do
  let len ← b.getU16 env.cfg env.endian (o + env.format.intSize)
  let text ← b.getStringUntrim env.cfg (o + env.format.intSize) len
  let texts := acc.texts ++ [text]
  if texts.length = 1 then
    let md := acc.md
    let md := if containsSub rleLiteral text then { md with compression := .rle }
              else if containsSub rdcLiteral text then { md with compression := .rdc }
              else md
    let co := compressionOffset env.format
    let compression ← b.getString env.cfg (o + co) 8
    let md ←
      if compression = [] then do
        let creatorProc ← b.getString env.cfg (o + co + 16) md.lcp
        pure { md with lcs := 0, creatorProc := creatorProc }
      else if compression = rleLiteral then do
        let creatorProc ← b.getString env.cfg (o + co + 24) md.lcp
        pure { md with creatorProc := creatorProc }
      else if 0 < md.lcs then do
        let creator ← b.getString env.cfg (o + co) md.lcs
        pure { md with lcp := 0, creator := creator }
      else pure md
    return { acc with texts := texts, md := md }
  else
    return { acc with texts := texts }

/-- `get_column_text_substr` (src/metadata.hpp:303-323). -/
def columnTextSubstr (texts : List (List Byte)) (idx off len : Nat) : List Byte :=
  match texts[idx]? with
  | none => []
  | some ct =>
    let cell := slice ct (min off ct.length) (min len (ct.length - min off ct.length))
    match cell with
    | [] => []
    | b :: _ =>
      if isPrint b then
        let rest := skipSpace cell
        rest.take (trimLen (fun b => !isPrint b || isSpace b) rest rest.length)
      else []

/-- `offset_max` (src/metadata.hpp:330-331, 351-352); the subtraction wraps. -/
def offsetMax (f : Format) (s : PageSub) : Nat := sub64 (s.offset + s.length) (12 + f.intSize)

/-- The loop of `process_COLUMN_NAME_SUBHEADER` (src/metadata.hpp:332-342). Each turn reads inside the
buffer, so that a fuel of the buffer length is never exhausted. -/
def nameLoop (env : Env) (b : Buf) (texts : List (List Byte)) (offMax : Nat) :
    (fuel off : Nat) → List (List Byte) → Res (List (List Byte))
  | 0, _, _ => .error .fuel
  | n + 1, off, names =>
    if off ≤ offMax then do
      let idx ← b.getU16 env.cfg env.endian (off + 0)
      let nameOff ← b.getU16 env.cfg env.endian (off + 2)
      let nameLen ← b.getU16 env.cfg env.endian (off + 4)
      nameLoop env b texts offMax n (off + 8) (names ++ [columnTextSubstr texts idx nameOff nameLen])
    else .ok names

/-- `process_COLUMN_NAME_SUBHEADER` (src/metadata.hpp:325-343). -/
def processColumnName (env : Env) (b : Buf) (acc : Acc) (s : PageSub) : Res Acc := do
  let names ← nameLoop env b acc.texts (offsetMax env.format s) (b.mem.length + 1)
    (s.offset + env.format.intSize + 8) acc.names
  return { acc with names := names }

/-- The loop of `process_COLUMN_ATTRIBUTES_SUBHEADER` (src/metadata.hpp:353-364). -/
def attrLoop (env : Env) (b : Buf) (offMax : Nat) :
    (fuel off : Nat) → List Nat × List Nat × List Bool → Res (List Nat × List Nat × List Bool)
  | 0, _, _ => .error .fuel
  | n + 1, off, (os, ls, ts) =>
    if off ≤ offMax then do
      let o ← b.getUInt env.cfg env.endian env.format (off + 0)
      let l ← b.getU32 env.cfg env.endian (off + env.format.intSize)
      let t ← b.getByte env.cfg (off + env.format.intSize + 6)
      attrLoop env b offMax n (off + (env.format.intSize + 8)) (os ++ [o], ls ++ [l], ts ++ [t == 1])
    else .ok (os, ls, ts)

/-- `process_COLUMN_ATTRIBUTES_SUBHEADER` (src/metadata.hpp:345-365). -/
def processColumnAttributes (env : Env) (b : Buf) (acc : Acc) (s : PageSub) : Res Acc := do
  let (os, ls, ts) ← attrLoop env b (offsetMax env.format s) (b.mem.length + 1)
    (s.offset + env.format.intSize + 8) (acc.offsets, acc.lengths, acc.types)
  return { acc with offsets := os, lengths := ls, types := ts }

/-- `process_FORMAT_AND_LABEL_SUBHEADER` (src/metadata.hpp:367-393). -/
def processFormatAndLabel (env : Env) (b : Buf) (acc : Acc) (o : Nat) : Res Acc := do
  let off := o + 3 * env.format.intSize
  b.assertCheck (off + 32) 2
  let fIdx ← b.getU16 env.cfg env.endian (off + 22)
  let fOff ← b.getU16 env.cfg env.endian (off + 24)
  let fLen ← b.getU16 env.cfg env.endian (off + 26)
  let lIdx ← b.getU16 env.cfg env.endian (off + 28)
  let lOff ← b.getU16 env.cfg env.endian (off + 30)
  let lLen ← b.getU16 env.cfg env.endian (off + 32)
  return { acc with formats := acc.formats ++ [columnTextSubstr acc.texts fIdx fOff fLen]
                    labels := acc.labels ++ [columnTextSubstr acc.texts lIdx lOff lLen] }

/-- `process_subheader` (src/metadata.hpp:162-208); the flag is the returned "data reached". -/
def processSubheader (env : Env) (b : Buf) (acc : Acc) (s : PageSub) : Res (Acc × Bool) := do
  let sig ← b.rd env.cfg s.offset env.format.intSize
  match classify env.format sig with
  | .rowSize => do
    let md ← processRowSize env b acc.md s.offset
    return ({ acc with md := md }, false)
  | .columnSize => do
    let md ← processColumnSize env b acc.md s.offset
    return ({ acc with md := md }, false)
  | .counts => return (acc, false)
  | .columnText => return (← processColumnText env b acc s.offset, false)
  | .columnName => return (← processColumnName env b acc s, false)
  | .columnAttributes => return (← processColumnAttributes env b acc s, false)
  | .formatAndLabel => return (← processFormatAndLabel env b acc s.offset, false)
  | .columnList => return (acc, false)
  | .other =>
    if isDataSub acc.md.compression s then
      return ({ acc with dataSubs := acc.dataSubs ++ [(s.offset, s.length)] }, true)
    else return (acc, false)

/-- `process_page_metadata` (src/metadata.hpp:152-160). -/
def processPageMetadata (env : Env) (b : Buf) (subCount : Nat) (acc : Acc) : Res (Acc × Bool) :=
  processSubs env b
    (fun (a : Acc × Bool) s => do
      let (acc', reached) ← processSubheader env b a.1 s
      return (acc', a.2 || reached))
    subCount 0 (acc, false)

/-- `process_page` (src/metadata.hpp:144-150). -/
def processPage (env : Env) (b : Buf) (h : PageHdr) (acc : Acc) : Res (Acc × Bool) := do
  let (acc', reached) ← if isPageMetaMixAmd h.type then processPageMetadata env b h.subCount acc
                        else .ok (acc, false)
  return (acc', isPageDataMix h.type || reached)

/-- The loop of `set_metadata` (src/metadata.hpp:137-140), at most `fuel` pages. -/
def metaLoop {σ : Type} (env : Env) (S : Source σ) :
    (fuel : Nat) → PState σ → Acc → Res (PState σ × Acc)
  | 0, _, _ => .error .fuel
  | n + 1, p, acc =>
    match readPage env S p with
    | (.error e, _) => .error e
    | (.ok false, p') => .ok (p', acc)
    | (.ok true, p') => do
      let (acc', stop) ← processPage env p'.buf p'.hdr acc
      if stop then .ok (p', acc') else metaLoop env S n p' acc'

/-- `match_column_format` (src/metadata.hpp:499-504). -/
def matchColumnFormat (l : List String) (f : List Byte) : Bool := l.any fun g => f == ascii g

/-- The choice of the formatter in `create_columns` (src/metadata.hpp:453-495). `num` says whether
`column_type` is `Type::number` (otherwise it is `Type::string`). -/
def chooseFormatter (e : Endian) (num : Bool) (format : List Byte) (length : Nat) : Formatter :=
  if !num then .string
  else if length = 1 then .smallInt
  else if length = 2 then .int16 e
  else if matchColumnFormat datetimeFormats format then .datetime e
  else if matchColumnFormat dateFormats format then .date e
  else if matchColumnFormat timeFormats format then .time e
  else if length = 8 then .double e
  else if length = 3 then .incomplete e 3
  else if length = 4 then .incomplete e 4
  else if length = 5 then .incomplete e 5
  else if length = 6 then .incomplete e 6
  else if length = 7 then .incomplete e 7
  else .none

/-- `vals.at(icol)` (src/metadata.hpp:422). -/
def at? {α : Type} (l : List α) (i : Nat) : Res α :=
  match l[i]? with
  | some a => .ok a
  | none => .error (.exn .outOfRange)

/-- The column built for index `icol` (src/metadata.hpp:429-446, 453-495). -/
def buildColumn (e : Endian) (acc : Acc) (icol : Nat) : Res Column := do
  let name ← at? acc.names icol
  let label ← at? acc.labels icol
  let format ← at? acc.formats icol
  let offset ← at? acc.offsets icol
  let length ← at? acc.lengths icol
  let num ← at? acc.types icol
  return { name := name, label := label, format := format
           fmt := chooseFormatter e num format length, offset := offset, length := length }

/-- The loop of `create_columns` (src/metadata.hpp:427-496): `k` columns remain, the next one being
number `icol`; `filter = none` is a null filter pointer. -/
def createLoop (e : Endian) (acc : Acc) (filter : Option Filter) :
    (k icol : Nat) → List Column → Res (List Column)
  | 0, _, cols => .ok cols
  | k + 1, icol, cols => do
    let c ← buildColumn e acc icol
    let keep := match filter with
      | none => true
      | some accept => accept c
    createLoop e acc filter k (icol + 1) (if keep then cols ++ [c] else cols)

/-- `create_columns` (src/metadata.hpp:411-497). `columns.reserve` throws when the announced number of
columns is too large. -/
def createColumns (cfg : Cfg) (e : Endian) (acc : Acc) (filter : Option Filter) :
    Res (List Column) :=
  if acc.md.columnCount ≤ cfg.maxCols then createLoop e acc filter acc.md.columnCount 0 []
  else .error (.exn .badAlloc)

end Sas
