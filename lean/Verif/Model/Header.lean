import Verif.Model.Source
import Verif.Model.Encodings
import Verif.Model.DateTime

/-!
# src/header.hpp
-/

namespace Sas

/-- `MAGIC_NUMBER` (src/header.hpp:20-23). -/
def magicNumber : List Byte :=
  [0x00, 0x00, 0x00, 0x00, 0x00, 0x00, 0x00, 0x00, 0x00, 0x00, 0x00,
   0x00, 0xc2, 0xea, 0x81, 0x60, 0xb3, 0x14, 0x11, 0xcf, 0xbd, 0x92,
   0x08, 0x00, 0x09, 0xc7, 0x31, 0x8c, 0x18, 0x1f, 0x10, 0x11]

/-- `Properties::Header` (include/cppsas7bdat/properties.hpp:17-39). -/
structure Header where
  format : Format
  endian : Endian
  platform : Platform
  encoding : String
  datasetName : List Byte
  fileType : List Byte
  dateCreated : DateTime
  dateModified : DateTime
  headerLength : Nat
  pageLength : Nat
  pageCount : Nat
  sasRelease : List Byte
  serverType : List Byte
  osType : List Byte
  osName : List Byte
deriving DecidableEq

/-- What `set_aligns_endianness` finds out (src/header.hpp:26-33, 52-66). -/
structure Align where
  align1 : Nat
  align2 : Nat
  format : Format
  endian : Endian
deriving DecidableEq

/-- `total_align` (src/header.hpp:61). -/
def Align.total (a : Align) : Nat := a.align1 + a.align2

/-- `CHECK_HEADER` constructor (src/header.hpp:35-39). -/
def checkHeaderRead {σ : Type} (cfg : Cfg) (S : Source σ) (s : σ) : Res (Buf × σ) :=
  match Buf.readStream cfg S Buf.empty s 288 0 with
  | (.error e, _, _) => .error e
  | (.ok true, b, s') => .ok (b, s')
  | (.ok false, _, _) => .error (.exn .headerTooShort)

/-- `check_magic_number` (src/header.hpp:41-50). -/
def checkMagic (cfg : Cfg) (b : Buf) : Res Unit := do
  let m ← b.rd cfg 0 32
  if m = magicNumber then .ok () else .error (.exn .invalidMagicNumber)

/-- `set_aligns_endianness` (src/header.hpp:52-66); `'3'` is 0x33. -/
def setAligns (cfg : Cfg) (b : Buf) : Res Align := do
  let b32 ← b.getByte cfg 32
  let b35 ← b.getByte cfg 35
  let b37 ← b.getByte cfg 37
  return { align2 := if b32 = 0x33 then 4 else 0
           format := if b32 = 0x33 then .bit64 else .bit32
           align1 := if b35 = 0x33 then 4 else 0
           endian := if b37 = 1 then .little else .big }

/-- `set_header_length_and_read` (src/header.hpp:86-103). `header_length - HEADER_SIZE` wraps when the
file announces less than 288 bytes. -/
def setHeaderLengthAndRead {σ : Type} (cfg : Cfg) (S : Source σ) (al : Align) (b : Buf) (s : σ) :
    Res (Nat × Buf × σ) := do
  let hl ← b.getU32 cfg al.endian (196 + al.align1)
  fmtAssert cfg (288 ≤ hl)
  match Buf.readStream cfg S b s (sub64 hl 288) 288 with
  | (.error e, _, _) => .error e
  | (.ok true, b', s') => .ok (hl, b', s')
  | (.ok false, _, _) => .error (.exn .headerTooShort)

/-- `get_datetime_from_epoch(buf.get_double(..))` (src/header.hpp:116-119). -/
def Buf.getDate (cfg : Cfg) (e : Endian) (b : Buf) (off : Nat) : Res DateTime := do
  datetimeFromEpoch (.ofBits (← b.getDouble cfg e off))

/-- `set_header` (src/header.hpp:105-132). -/
def setHeader (cfg : Cfg) (al : Align) (hl : Nat) (b : Buf) : Res Header := do
  fmtAssert cfg (288 + al.total ≤ b.size)
  let plat ← b.getByte cfg 39
  let enc ← getEncoding (← b.getByte cfg 70)
  let dsName ← b.getString cfg 92 64
  let fType ← b.getString cfg 156 8
  let created ← b.getDate cfg al.endian (164 + al.align1)
  let modified ← b.getDate cfg al.endian (172 + al.align1)
  let pageLength ← b.getU32 cfg al.endian (200 + al.align1)
  let pageCount ← b.getU32 cfg al.endian (204 + al.align1)
  let rel ← b.getString cfg (216 + al.total) 8
  let srv ← b.getString cfg (224 + al.total) 16
  let osT ← b.getString cfg (240 + al.total) 16
  let nameByte ← b.getByte cfg (272 + al.total)
  let osN ← if nameByte ≠ 0 then b.getString cfg (272 + al.total) 16
            else b.getString cfg (256 + al.total) 16
  return { format := al.format, endian := al.endian
           platform := if plat = 0x31 then .unix else if plat = 0x32 then .windows else .unknown
           encoding := enc, datasetName := dsName, fileType := fType
           dateCreated := created, dateModified := modified
           headerLength := hl, pageLength := pageLength, pageCount := pageCount
           sasRelease := rel, serverType := srv, osType := osT, osName := osN }

/-- The log message at the end of `set_header` (src/header.hpp:134-146), which debug builds assemble: the two
dates are converted to text. -/
def logHeader (cfg : Cfg) (h : Header) : Res Unit :=
  if cfg.debug then do
    let _ ← h.dateCreated.toText
    let _ ← h.dateModified.toText
    return ()
  else .ok ()

/-- `check_header` and `_read_header` (src/sas7bdat-impl.hpp:43-58, 112-127): the whole header phase. -/
def readHeader {σ : Type} (cfg : Cfg) (S : Source σ) (s : σ) : Res (Header × Buf × σ) := do
  let (b, s) ← checkHeaderRead cfg S s
  checkMagic cfg b
  let al ← setAligns cfg b
  let (hl, b, s) ← setHeaderLengthAndRead cfg S al b s
  let h ← setHeader cfg al hl b
  logHeader cfg h
  return (h, b, s)

end Sas
