import Verif.Model.Reader
import Verif.Spec.Reader

/-!
# Concrete files

Small files, byte by byte, and the readers opened on them. They serve as the concrete cases shown beside
the theorems; nothing is proved *from* them except the statements that refute a claim.
-/

namespace Sas.Demo

open Sas Spec

/-- The `k` low bytes of `n`, least significant first. -/
def le (k n : Nat) : List Byte := (List.range k).map fun i => UInt8.ofNat (n / 256 ^ i)

/-- Bytes laid out at given ascending offsets, zero-filled in between and up to `size`. -/
def place (size : Nat) : (pos : Nat) → List (Nat × List Byte) → List Byte
  | pos, [] => List.replicate (size - pos) 0
  | pos, (o, bs) :: rest => List.replicate (o - pos) 0 ++ bs ++ place size (o + bs.length) rest

/-- A release build on a machine with plenty of memory. -/
def cfg : Cfg :=
  { debug := false, asserts := false, maxAlloc := 2 ^ 40, maxCols := 2 ^ 30, junk := fun _ => 0xAA }

/-- A debug build. -/
def cfgDebug : Cfg := { cfg with debug := true, asserts := true }

/-- A 32-bit little-endian header of 288 bytes. -/
def header (pageLength pageCount : Nat) : List Byte :=
  place 288 0
    [(0, magicNumber), (32, [0x22]), (35, [0x22]), (37, [0x01]), (39, ascii "1"), (70, [20]),
     (92, ascii "DEMO"), (156, ascii "DATA"), (196, le 4 288), (200, le 4 pageLength),
     (204, le 4 pageCount), (216, ascii "9.0401M1"), (224, ascii "XYZ_SERVER"), (256, ascii "Linux")]

/-- A page: type, block count, subheaders (offset, length, compression, type) and the bytes placed in
it. -/
def page (len type blocks : Nat) (subs : List (Nat × Nat × Byte × Byte)) (body : List (Nat × List Byte)) :
    List Byte :=
  place len 0
    ((16, le 2 type ++ le 2 blocks ++ le 2 subs.length ++ le 2 0 ++
        subs.flatMap fun (o, l, c, t) => le 4 o ++ le 4 l ++ [c, t, 0, 0]) :: body)

/-- The row-size subheader: row length, row count, number of rows on a mix page. -/
def rowSize (rowLength rowCount mix : Nat) : List Byte :=
  place 384 0
    [(0, [0xF7, 0xF7, 0xF7, 0xF7]), (20, le 4 rowLength), (24, le 4 rowCount), (36, le 4 2),
     (60, le 4 mix), (354, le 2 0), (378, le 2 4)]

/-- The column-size subheader. -/
def columnSize (n : Nat) : List Byte := [0xF6, 0xF6, 0xF6, 0xF6] ++ le 4 n ++ le 4 0

/-- The column-text subheader (72 bytes), with the 8 bytes that announce the compression. The names
start at offset 36 of the text (which starts at the length field). -/
def columnText (compression : List Byte) : List Byte :=
  place 72 0
    [(0, [0xFD, 0xFF, 0xFF, 0xFF]), (4, le 2 68), (16, compression), (32, ascii "PROC"),
     (40, ascii "ID  NAME    BEST    Key for  ")]

/-- The column-name subheader for `ID` and `NAME`. -/
def columnNames : List Byte :=
  [0xFF, 0xFF, 0xFF, 0xFF] ++ le 8 0 ++
    (le 2 0 ++ le 2 36 ++ le 2 2 ++ le 2 0) ++ (le 2 0 ++ le 2 40 ++ le 2 4 ++ le 2 0) ++ le 8 0

/-- The column-attributes subheader: a number of 8 bytes at 0 and a string of 6 bytes at 8. -/
def columnAttrs : List Byte :=
  [0xFC, 0xFF, 0xFF, 0xFF] ++ le 8 0 ++
    (le 4 0 ++ le 4 8 ++ le 2 0 ++ [1, 0]) ++ (le 4 8 ++ le 4 6 ++ le 2 0 ++ [2, 0]) ++ le 8 0

/-- A format-and-label subheader: format and label as (offset, length) in the first column text. -/
def formatLabel (fo fl lo ll : Nat) : List Byte :=
  [0xFE, 0xFB, 0xFF, 0xFF] ++ le 8 0 ++ le 22 0 ++
    le 2 0 ++ le 2 fo ++ le 2 fl ++ le 2 0 ++ le 2 lo ++ le 2 ll ++ le 6 0

/-- The page holding the metadata. -/
def metaPage (type rowLength rowCount mix : Nat) (compression : List Byte)
    (moreSubs : List (Nat × Nat × Byte × Byte)) (body : List (Nat × List Byte)) : List Byte :=
  page 900 type 0
    ([(240, 384, 0, 0), (624, 12, 0, 0), (636, 72, 0, 0), (708, 36, 0, 0), (744, 44, 0, 0),
      (788, 52, 0, 0), (840, 52, 0, 0)] ++ moreSubs)
    (body ++ [(240, rowSize rowLength rowCount mix), (624, columnSize 2), (636, columnText compression),
     (708, columnNames), (744, columnAttrs), (788, formatLabel 48 4 0 0), (840, formatLabel 0 0 56 3)])

/-- A row: the double 1.0·2^k and six characters. -/
def row (k : Nat) (name : String) : List Byte := le 8 ((1023 + k) * 2 ^ 52) ++ ascii name

/-- The three rows of the demonstration files. -/
def rows : List (List Byte) := [row 0 "ann   ", row 1 "bob   ", row 2 "cy    "]

/-- An uncompressed file: a metadata page, a data page with two rows, a page of an unknown kind, a data
page with one row. -/
def file : List Byte :=
  header 900 4 ++ metaPage 0 14 3 0 (ascii "        ") [] [] ++
  page 900 256 2 [] [(24, row 0 "ann   " ++ row 1 "bob   ")] ++
  page 900 16384 0 [] [] ++
  page 900 256 1 [] [(24, row 2 "cy    ")]

/-- The row 1.0, "ann   " RLE-compressed: 6 zero bytes, copy 5, 3 blanks. -/
def rleRow0 : List Byte := [0xF4, 0x84, 0xF0, 0x3F] ++ ascii "ann" ++ [0xE1, 0]

/-- A row that does not fit: insert 17 zero bytes. -/
def rleBad : List Byte := [0x70, 0x00, 0x00]

/-- The row 4.0, "cy    " RLE-compressed. -/
def rleRow2 : List Byte := [0xF4, 0x83, 0x10, 0x40] ++ ascii "cy" ++ [0xE2, 0]

/-- An RLE-compressed file of three rows whose second row is malformed. -/
def rleFile : List Byte :=
  header 900 2 ++
  metaPage 0 14 3 0 (ascii "SASYZCRL") [(150, 9, 4, 1)] [(150, rleRow0)] ++
  page 900 0 0 [(200, 3, 4, 1), (210, 8, 4, 1)] [(200, rleBad), (210, rleRow2)]

/-- The reader opened on `file`. -/
def opened : Res (Reader IFStream) := openReader cfg ifs 10 none (IFStream.open file)

/-- The reader opened on `rleFile`. -/
def rleOpened : Res (Reader IFStream) := openReader cfg ifs 10 none (IFStream.open rleFile)

/-- A reader that could not be opened. -/
def dead : Reader IFStream :=
  { env := ⟨cfg, .little, .bit32, 0, 0⟩
    props := ⟨⟨.bit32, .little, .unknown, "", [], [], .notADateTime, .notADateTime, 0, 0, 0, [], [], [], []⟩, {}, []⟩
    rd := ⟨⟨IFStream.open [], Buf.empty, PageHdr.reset⟩, none, 0, []⟩, trace := [] }

/-- The value of a successful outcome. -/
def get (r : Res (Reader IFStream)) : Reader IFStream :=
  match r with
  | .ok R => R
  | .error _ => dead

/-- The reader opened on `file`. -/
def reader : Reader IFStream := get opened

/-- The reader opened on `rleFile`. -/
def rleReader : Reader IFStream := get rleOpened

theorem get_ok {r : Res (Reader IFStream)} (h : r.isOk = true) : r = .ok (get r) := by
  cases r with
  | ok R => rfl
  | error e => cases h

theorem opened_ok : opened = .ok reader := get_ok (by decide +kernel)

theorem rleOpened_ok : rleOpened = .ok rleReader := get_ok (by decide +kernel)

theorem reachable : Reachable ifs reader := .opened cfg 10 none _ _ opened_ok

theorem rleReachable : Reachable ifs rleReader := .opened cfg 10 none _ _ rleOpened_ok

/-- The rows as they are pushed. -/
def pushed (R : Reader IFStream) : List (Nat × List Byte) :=
  (pushes R.trace).map fun (i, r) => (i, r.bytes)

example : (reader.run ifs [.readAll]).1 = [.ok .unit] := by decide +kernel

example : pushed (reader.run ifs [.readAll]).2 = [(0, row 0 "ann   "), (1, row 1 "bob   "),
    (2, row 2 "cy    ")] := by decide +kernel

example : reader.props.columns.map (fun c => (c.name, c.format, c.label, c.fmt, c.offset, c.length)) =
    [(ascii "ID", ascii "BEST", [], .double .little, 0, 8),
     (ascii "NAME", [], ascii "Key", .string, 8, 6)] := by decide +kernel

example : (rleReader.run ifs [.readRow, .readRow, .readRow, .readRow]).1 =
    [.ok (.bool true), .error (.exn .cannotDecompress), .ok (.bool true), .ok (.bool false)] := by
  decide +kernel

example : pushed (rleReader.run ifs [.readRow, .readRow, .readRow, .readRow]).2 =
    [(0, row 0 "ann   "), (2, row 2 "cy    ")] := by decide +kernel

end Sas.Demo
