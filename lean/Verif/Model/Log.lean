import Verif.Model.Cli

/-!
# The messages of the library

All builds write messages with spdlog's default logger (release 1.9.2, conanfile.py:18), which shows messages from level
`info` on, each on a line of its own, on the standard output. The further messages of debug builds (the macro `D`,
src/debug.hpp:12-16) are not modelled. Messages do not change anything else, so they are described by functions beside those of
the other modules: each takes what its function takes and gives the messages that are written on the way. A message that is
followed by `terminate` or undefined behaviour is listed as well.
-/

namespace Sas

/-- The messages (src/exceptions.cpp:16; src/metadata.hpp:206, 254, 419-421, 429-436; src/decompressors.hpp:77, 152, 259). -/
inductive Msg
  /-- src/exceptions.cpp:15-18: `raise_exception` writes the text of the exception before it throws it. -/
  | raised (e : Exn) (file : List Byte)
  /-- src/metadata.hpp:206 -/
  | unknownSubheader
  /-- src/metadata.hpp:254 -/
  | columnCountMismatch
  /-- src/metadata.hpp:419-421 -/
  | fewValues (expected found : Nat) (what : List Byte)
  /-- src/decompressors.hpp:77 -/
  | rowTooLong (i n size : Nat)
  /-- src/decompressors.hpp:259-260 -/
  | unknownCommand (command : Nat) (offset : Nat)
deriving DecidableEq

/-- The exceptions that are thrown by `raise_exception` (src/exceptions.cpp:20-42; where they are raised: src/header.hpp:38, 44,
100, src/page.hpp:100, src/stream.cpp:19, src/decompressors.hpp:78, 154, 261). The others come from the standard library, from
boost and from fmt. -/
def Exn.ofLibrary : Exn → Bool
  | .headerTooShort | .invalidMagicNumber | .cannotReadPage | .cannotDecompress | .notAValidFile => true
  | .outOfRange | .badAlloc | .formatError => false

/-- What `raise_exception` writes (src/exceptions.cpp:15-18) when a function is left by this exception. -/
def raiseLog : Stop → List Msg
  | .exn e => if e.ofLibrary then [.raised e []] else []
  | _ => []

/-- The names of the levels (spdlog's `level_enum`, in its default pattern)
(those used in src/exceptions.cpp:16, src/metadata.hpp:206, 254, 419 and src/decompressors.hpp:77, 152, 259). -/
def Msg.level : Msg → List Byte
  | .raised _ _ | .rowTooLong _ _ _ | .unknownCommand _ _ => ascii "critical"
  | .unknownSubheader | .columnCountMismatch => ascii "warning"
  | .fewValues _ _ _ => ascii "info"

/-- The text of an exception of the library (src/exceptions.cpp:20-36), which is also its `what()`. -/
def Exn.text (file : List Byte) : Exn → List Byte
  | .headerTooShort => ascii "header_too_short"
  | .invalidMagicNumber => ascii "invalid_magic_number"
  | .cannotReadPage => ascii "cannot_read_page"
  | .cannotDecompress => ascii "cannot_decompress"
  | .notAValidFile => ascii "not_a_valid_file: [" ++ file ++ ascii "]"
  | .outOfRange | .badAlloc | .formatError => []

/-- A hexadecimal digit as `{:#X}` writes it. Commands have one digit (src/decompressors.hpp:152, 259). -/
def hexDigit (n : Nat) : List Byte := ascii "0X" ++ [UInt8.ofNat (if n < 10 then 48 + n else 55 + n)]

/-- The texts, some of which end with a line break of their own (at the lines named above)
(src/metadata.hpp:206, 254, 419-421, 429-436; src/decompressors.hpp:77, 152, 259). -/
def Msg.text : Msg → List Byte
  | .raised e file => e.text file
  | .unknownSubheader => ascii "Unknown subheader signature!"
  | .columnCountMismatch => ascii "Column count mismatch\n"
  | .fewValues ncols size what => ascii "Mismatch between the expected number of columns (" ++ decimal ncols ++
      ascii ") and the number (" ++ decimal size ++ ascii ") of '" ++ what ++ ascii "' values!\n"
  | .rowTooLong i n size => ascii "Invalid dst length: " ++ decimal i ++ ascii "+" ++ decimal n ++ ascii ">" ++ decimal size ++
      ascii "\n"
  | .unknownCommand command offset => ascii "Invalid command: " ++ hexDigit command ++ ascii " at offset " ++ decimal offset ++
      ascii "\n"

/-- A line on the standard output: spdlog's default pattern `[time] [level] text`. `now` is the text of the time
(of the calls of spdlog in src/exceptions.cpp:16, src/metadata.hpp:206, 254, 419 and src/decompressors.hpp:77, 152, 259). -/
def Msg.line (now : List Byte) (m : Msg) : List Byte :=
  ascii "[" ++ now ++ ascii "] [" ++ m.level ++ ascii "] " ++ m.text ++ ascii "\n"

/-- The lines of messages; `clock k` is the time of the message number `k`
(of the calls of spdlog in src/exceptions.cpp:16, src/metadata.hpp:206, 254, 419 and src/decompressors.hpp:77, 152, 259). -/
def logLines (clock : Nat → List Byte) : (k : Nat) → List Msg → List Byte
  | _, [] => []
  | k, m :: ms => m.line (clock k) ++ logLines clock (k + 1) ms

/-! ## Opening -/

/-- `process_subheader` (src/metadata.hpp:162-208, 244-255). The sum of the two numbers wraps. -/
def subheaderLog (env : Env) (b : Buf) (acc : Acc) (s : PageSub) : List Msg :=
  match b.rd env.cfg s.offset env.format.intSize with
  | .error _ => []
  | .ok sig =>
    match classify env.format sig with
    | .columnSize =>
      match processColumnSize env b acc.md s.offset with
      | .error _ => []
      | .ok md => if w64 (md.p1 + md.p2) ≠ md.columnCount then [.columnCountMismatch] else []
    | .other => if isDataSub acc.md.compression s then [] else [.unknownSubheader]
    | _ => []

/-- `process_page_subheaders` with `process_subheader` (src/page.hpp:120-136, src/metadata.hpp:152-160). -/
def subsLog (env : Env) (b : Buf) : (k i : Nat) → Acc → List Msg
  | 0, _, _ => []
  | k + 1, i, acc =>
    match getPageSubheader env b (env.format.pbo + 8 + i * subheaderSize env.format) with
    | .error _ => []
    | .ok s =>
      if s.length = 0 ∨ s.comp = 1 then subsLog env b k (i + 1) acc
      else
        subheaderLog env b acc s ++
          match processSubheader env b acc s with
          | .error _ => []
          | .ok (acc', _) => subsLog env b k (i + 1) acc'

/-- `process_page` (src/metadata.hpp:144-150). -/
def pageLog (env : Env) (b : Buf) (h : PageHdr) (acc : Acc) : List Msg :=
  if isPageMetaMixAmd h.type then subsLog env b h.subCount 0 acc else []

/-- The loop of `set_metadata` (src/metadata.hpp:137-140), and `read_page` (src/page.hpp:91-103). -/
def metaLog {σ : Type} (env : Env) (S : Source σ) : (fuel : Nat) → PState σ → Acc → List Msg
  | 0, _, _ => []
  | n + 1, p, acc =>
    match readPage env S p with
    | (.error e, _) => raiseLog e
    | (.ok false, _) => []
    | (.ok true, p') =>
      pageLog env p'.buf p'.hdr acc ++
        match processPage env p'.buf p'.hdr acc with
        | .error _ => []
        | .ok (acc', stop) => if stop then [] else metaLog env S n p' acc'

/-- The calls of `get_value` for one column (src/metadata.hpp:416-423, 429-436): the lists with their names and their sizes; a list
without an entry for the column ends the construction. -/
def valuesLog (ncols icol : Nat) : List (List Byte × Nat) → List Msg
  | [] => []
  | (what, size) :: rest =>
    (if min ncols size ≠ ncols then [.fewValues ncols size what] else []) ++
      if icol < size then valuesLog ncols icol rest else []

/-- The lists and their names (src/metadata.hpp:429-436). -/
def Acc.lists (acc : Acc) : List (List Byte × Nat) :=
  [(ascii "name", acc.names.length), (ascii "label", acc.labels.length), (ascii "format", acc.formats.length),
   (ascii "data_offset", acc.offsets.length), (ascii "data_length", acc.lengths.length), (ascii "data_type", acc.types.length)]

/-- The loop of `create_columns` (src/metadata.hpp:427-496): `k` columns remain, the next one being number `icol`. -/
def createLog (e : Endian) (acc : Acc) : (k icol : Nat) → List Msg
  | 0, _ => []
  | k + 1, icol =>
    valuesLog acc.md.columnCount icol acc.lists ++
      match buildColumn e acc icol with
      | .error _ => []
      | .ok _ => createLog e acc k (icol + 1)

/-- `create_columns` (src/metadata.hpp:411-497). -/
def createColumnsLog (cfg : Cfg) (e : Endian) (acc : Acc) : List Msg :=
  if acc.md.columnCount ≤ cfg.maxCols then createLog e acc acc.md.columnCount 0 else []

/-- `Reader::Reader` (src/reader.cpp:26-39, src/sas7bdat-impl.hpp:43-160). -/
def openLog {σ : Type} (cfg : Cfg) (S : Source σ) (fuel : Nat) (s : σ) : List Msg :=
  match readHeader cfg S s with
  | .error e => raiseLog e
  | .ok (h, b, s) =>
    let env : Env := { cfg := cfg, endian := h.endian, format := h.format, pageLength := h.pageLength
                       fuel := fuel }
    metaLog env S fuel ⟨s, b, PageHdr.reset⟩ {} ++
      match metaLoop env S fuel ⟨s, b, PageHdr.reset⟩ {} with
      | .error _ => []
      | .ok (_, acc) => createColumnsLog cfg h.endian acc

/-! ## Reading -/

/-- `assert_check(n)` (src/decompressors.hpp:75-80). -/
def Dst.checkLog (d : Dst) (n : Nat) : List Msg :=
  if d.i + n ≤ d.mem.length then [] else [.rowTooLong d.i n d.mem.length, .raised .cannotDecompress []]

/-- One turn of the RLE loop (src/decompressors.hpp:200-263); `offset` is the position of its command. -/
def rleStepLog (offset : Nat) (src : List Byte) (d : Dst) : List Msg :=
  match src with
  | [] => []
  | val :: src =>
    let command := val.toNat / 16
    let e := val.toNat % 16
    let values (src : List Byte) (n : Nat) : List Msg := d.checkLog (min n src.length)
    if command = 0x00 then
      match src with
      | [] => []
      | b :: src => values src (e * 256 + b.toNat + 64)
    else if command = 0x04 then
      match src with
      | b :: _ :: _ => d.checkLog (e * 16 + b.toNat + 18)
      | _ => []
    else if command = 0x05 ∨ command = 0x06 ∨ command = 0x07 then
      match src with
      | [] => []
      | b :: _ => d.checkLog (e * 256 + b.toNat + 17)
    else if command = 0x08 then values src (e + 1)
    else if command = 0x09 then values src (e + 17)
    else if command = 0x0A then values src (e + 33)
    else if command = 0x0B then values src (e + 49)
    else if command = 0x0C then
      match src with
      | [] => []
      | _ :: _ => d.checkLog (e + 3)
    else if command = 0x0D ∨ command = 0x0E ∨ command = 0x0F then d.checkLog (e + 2)
    else [.unknownCommand command offset, .raised .cannotDecompress []]

/-- The RLE loop (src/decompressors.hpp:207-264); `total` is the length of the compressed row. -/
def rleLog (total : Nat) : (fuel : Nat) → List Byte → Dst → List Msg
  | 0, _, _ => []
  | n + 1, src, d =>
    if 2 ≤ src.length ∧ d.i < d.mem.length then
      rleStepLog (total - src.length) src d ++
        match rleStep src d with
        | .ok (src', d') => rleLog total n src' d'
        | .error _ => []
    else []

/-- One turn of the RDC loop (src/decompressors.hpp:116-156): the number of bytes to be stored is checked first, for patterns
too. (The message about unknown markers, lines 152-154, cannot be reached: all 16 values of `cmd` are covered.) -/
def rdcStepLog (c : Ctrl) (src : List Byte) (d : Dst) : List Msg :=
  match rdcControl c src with
  | .error _ => []
  | .ok (c, src) =>
    match src with
    | [] => []
    | val :: src =>
      if c.isSet then
        let cmd := val.toNat / 16
        let cnt := val.toNat % 16
        if cmd = 0 then
          match src with
          | [] => []
          | _ :: _ => d.checkLog (cnt + 3)
        else if cmd = 1 then
          match src with
          | b :: _ :: _ => d.checkLog (cnt + (b.toNat * 16 + 19))
          | _ => []
        else if cmd = 2 then
          match src with
          | _ :: n :: _ => d.checkLog (n.toNat + 16)
          | _ => []
        else
          match src with
          | [] => []
          | _ :: _ => d.checkLog cmd
      else d.checkLog 1

/-- The RDC loop (src/decompressors.hpp:115-157). -/
def rdcLog (cfg : Cfg) : (fuel : Nat) → Ctrl → List Byte → Dst → List Msg
  | 0, _, _, _ => []
  | n + 1, c, src, d =>
    if 3 ≤ src.length ∧ d.i < d.mem.length then
      rdcStepLog c src d ++
        match rdcStep cfg c src d with
        | .ok (c', src', d') => rdcLog cfg n c' src' d'
        | .error _ => []
    else []

/-- `extract_row_values` (src/data.hpp:188-199) with the decompressor. (`fill` never writes a message: it stores what is
missing.) -/
def RD.extractLog {σ : Type} (env : Env) (md : Meta) (r : RD σ) (off len : Nat) : List Msg :=
  match fmtAssert env.cfg (w64 (off + len) ≤ env.pageLength) with
  | .error _ => []
  | .ok () =>
    match r.p.buf.rd env.cfg off len with
    | .error _ => []
    | .ok values =>
      if len < md.rowLength then
        match md.compression with
        | .none => []
        | .rle => rleLog values.length values.length values ⟨r.dst, 0⟩
        | .rdc => rdcLog env.cfg values.length ⟨0, 0⟩ values ⟨r.dst, 0⟩
      else []

/-- `READ_DATA::read_line` (src/data.hpp:151-169, 181-186, 231-241): what `next` throws comes from `read_page`. -/
def RD.readLineLog {σ : Type} (env : Env) (S : Source σ) (md : Meta) (r : RD σ) : List Msg :=
  match r.next env S md with
  | (.error e, _) => raiseLog e
  | (.ok false, _) => []
  | (.ok true, r) =>
    match r.takeLine with
    | (.error _, _) => []
    | (.ok (off, len), r) => r.extractLog env md off len

/-- `READ_DATA::skip` (src/data.hpp:171-179). -/
def RD.skipLog {σ : Type} (env : Env) (S : Source σ) (md : Meta) : (n : Nat) → RD σ → List Msg
  | 0, _ => []
  | n + 1, r =>
    match r.next env S md with
    | (.error e, _) => raiseLog e
    | (.ok false, _) => []
    | (.ok true, r) =>
      match r.takeLine with
      | (.error _, _) => []
      | (.ok _, r) => RD.skipLog env S md n r

variable {σ : Type}

/-- `read_row` and `read_row_no_sink` (src/reader-impl.hpp:85-99). -/
def Reader.readRowLog (S : Source σ) (R : Reader σ) : List Msg := R.rd.readLineLog R.env S R.props.md

/-- `read_rows` (src/reader-impl.hpp:45-49). -/
def Reader.readRowsLog (S : Source σ) : (n : Nat) → Reader σ → List Msg
  | 0, _ => []
  | n + 1, R =>
    R.readRowLog S ++
      match R.readRow S with
      | (.ok true, R) => Reader.readRowsLog S n R
      | _ => []

/-- One call on a constructed reader. `read_all` (src/reader-impl.hpp:51-54) is as many calls of `read_row` as
`Reader.readAll` makes. -/
def Reader.stepLog (S : Source σ) (R : Reader σ) : Op → List Msg
  | .readRow => R.readRowLog S
  | .readRows n => R.readRowsLog S n
  | .readAll => R.readRowsLog S (R.props.md.rowCount - R.rd.row + 1)
  | .skip n => R.rd.skipLog R.env S R.props.md n
  | .readRowNoSink => R.readRowLog S
  | .endOfData => []

/-- A history, as `Reader.run`: the messages of each call (src/reader.cpp:46-72). -/
def Reader.runLog (S : Source σ) : Reader σ → List Op → List (List Msg)
  | _, [] => []
  | R, op :: ops =>
    R.stepLog S op ::
      match R.step S op with
      | (.ok _, R) => Reader.runLog S R ops
      | (.error (.exn _), R) => Reader.runLog S R ops
      | (.error _, _) => []

/-! ## The command line program -/

/-- `open_stream` (src/stream.cpp:15-25). -/
def openFileLog (fs : FileSystem) (name : List Byte) : List Msg :=
  match fs.content name with
  | some _ => []
  | none => [.raised .notAValidFile name]

/-- The loop of `process_print` (apps/cppsas7bdat-ci.cpp:38-40). -/
def printLoopLog (S : Source σ) : (fuel : Nat) → (n : Int) → Reader σ → List Msg
  | 0, _, _ => []
  | f + 1, n, R =>
    if n = 0 then []
    else
      R.readRowLog S ++
        match R.readRow S with
        | (.ok true, R) => printLoopLog S f (if n > 0 then n - 1 else n) R
        | _ => []

/-- `process_print` (apps/cppsas7bdat-ci.cpp:35-41): the messages that are written before the listing, and those after it.
(A listing that is cut off by an exception of the sink: what the reader would have said later is not written.) -/
def processPrintLog (cfg : Cfg) (fuel : Nat) (fs : FileSystem) (name : List Byte) (n : Int) : List Msg × List Msg :=
  match openFile fs name with
  | .error _ => (openFileLog fs name, [])
  | .ok s =>
    match openReader cfg ifs fuel none s with
    | .error _ => (openLog cfg ifs fuel s, [])
    | .ok R => (openLog cfg ifs fuel s, printLoopLog ifs (R.props.md.rowCount - R.rd.row + 1) n R)

/-- What appears on the standard output during `process_print` (apps/cppsas7bdat-ci.cpp:35-41): the messages and the listing
share it. The sink is called for the first time when the file is open; while rows are read, a message is written only when the
call fails, and that ends the listing. -/
def printScreen (cfg : Cfg) (x : Texts) (clock : Nat → List Byte) (fuel : Nat) (fs : FileSystem) (name : List Byte) (n : Int) :
    List Byte :=
  let (before, after) := processPrintLog cfg fuel fs name n
  let (listing, r) := processPrint cfg x fuel fs name n
  logLines clock 0 before ++ listing ++
    match r with
    | .ok () => logLines clock before.length after
    | .error e => if raiseLog e = [] then [] else logLines clock before.length after

end Sas
