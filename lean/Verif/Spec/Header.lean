import Verif.Spec.DateTime
import Verif.Model.Header

/-!
# The layout of a file header

Where each field of the header is and how it is written; nothing here refers to the functions of the
model (its data type for header properties is used).
-/

namespace Sas.Spec

open Sas

/-- The 32 bytes every SAS7BDAT file starts with. -/
def magic : List Byte :=
  List.replicate 12 0x00 ++ [0xc2, 0xea, 0x81, 0x60] ++ [0xb3, 0x14, 0x11, 0xcf] ++
  [0xbd, 0x92, 0x08, 0x00] ++ [0x09, 0xc7, 0x31, 0x8c] ++ [0x18, 0x1f, 0x10, 0x11]

/-- The information in a header. `wide`: 64-bit file (4 more bytes before the last texts). `padded`:
4 more bytes before the dates. `created` and `modified` are the bit patterns of the dates. -/
structure FileHeader where
  wide : Bool
  padded : Bool
  endian : Endian
  platform : Platform
  encoding : Byte
  datasetName : List Byte
  fileType : List Byte
  created : Nat
  modified : Nat
  headerLength : Nat
  pageLength : Nat
  pageCount : Nat
  sasRelease : List Byte
  serverType : List Byte
  osType : List Byte
  osName : List Byte

/-- The first displacement: 4 when the file is padded. -/
def FileHeader.a1 (h : FileHeader) : Nat := if h.padded then 4 else 0

/-- The second displacement: `a1`, and 4 more in 64-bit files. -/
def FileHeader.a2 (h : FileHeader) : Nat := h.a1 + if h.wide then 4 else 0

/-- A text in a field of fixed size: the text, which does not start with white space and ends with a
visible character, and then characters that are white space or not printable. -/
structure TextField (field text : List Byte) : Prop where
  pad : ∃ p, field = text ++ p ∧ ∀ b ∈ p, ¬ printable b ∨ white b
  first : ∀ b, text.head? = some b → ¬ white b
  last : ∀ b, text.getLast? = some b → printable b ∧ ¬ white b

/-- A stored time stamp: missing, or a number of seconds since 1960 of at most 2^42, which is 139000 years. -/
def Stamp (bits : Nat) : Prop := IeeeNaN bits ∨ ∃ x, IeeeValue bits x ∧ |x| ≤ 2 ^ 42

/-- The instant reported for a stored time stamp: none for a missing one, otherwise one within half a
microsecond (up to 2^-35 of a microsecond), and the stored one if that is a whole number of microseconds. -/
def Shows (bits : Nat) (t : DateTime) : Prop :=
  (IeeeNaN bits ∧ t = .notADateTime) ∨
  ∃ (x : ℚ) (us : Int), IeeeValue bits x ∧ t = at1960 us ∧ |(us : ℚ) - x * 1000000| ≤ 1 / 2 + 1 / 2 ^ 35 ∧
    ∀ j : Int, x * 1000000 = j → us = j

/-- The bytes `bs` are a header with the content `h`. -/
structure HeaderLayout (h : FileHeader) (bs : List Byte) : Prop where
  length : bs.length = h.headerLength
  long : 288 + h.a2 ≤ h.headerLength
  magic : bs.take 32 = Spec.magic
  wide : bs[32]? = some 0x33 ↔ h.wide = true
  padded : bs[35]? = some 0x33 ↔ h.padded = true
  endian : bs[37]? = some 1 ↔ h.endian = .little
  unix : bs[39]? = some 0x31 ↔ h.platform = .unix
  windows : bs[39]? = some 0x32 ↔ h.platform = .windows
  encoding : bs[70]? = some h.encoding
  datasetName : TextField (slice bs 92 64) h.datasetName
  fileType : TextField (slice bs 156 8) h.fileType
  created : slice bs (164 + h.a1) 8 = encode h.endian 8 h.created
  modified : slice bs (172 + h.a1) 8 = encode h.endian 8 h.modified
  headerLength : slice bs (196 + h.a1) 4 = encode h.endian 4 h.headerLength
  pageLength : slice bs (200 + h.a1) 4 = encode h.endian 4 h.pageLength
  pageCount : slice bs (204 + h.a1) 4 = encode h.endian 4 h.pageCount
  sasRelease : TextField (slice bs (216 + h.a2) 8) h.sasRelease
  serverType : TextField (slice bs (224 + h.a2) 16) h.serverType
  osType : TextField (slice bs (240 + h.a2) 16) h.osType
  osName : TextField (if bs[272 + h.a2]? = some 0 then slice bs (256 + h.a2) 16
    else slice bs (272 + h.a2) 16) h.osName
  stamps : Stamp h.created ∧ Stamp h.modified
  sizes : h.created < 2 ^ 64 ∧ h.modified < 2 ^ 64 ∧ h.headerLength < 2 ^ 32 ∧ h.pageLength < 2 ^ 32 ∧
    h.pageCount < 2 ^ 32

/-- A stored time stamp in the years 1400 to 9999. -/
def InCalendar (bits : Nat) : Prop := ∃ x, IeeeValue bits x ∧ -17671824000 ≤ x ∧ x ≤ 253717919999

/-- Debug builds log the dates of the header. They can if the dates exist and are in the calendar. -/
def Loggable (cfg : Cfg) (h : FileHeader) : Prop :=
  cfg.debug = true → InCalendar h.created ∧ InCalendar h.modified

/-- `r` is the header the library should report for a header with content `h`. -/
structure ReportedAs (h : FileHeader) (r : Header) : Prop where
  format : r.format = if h.wide then .bit64 else .bit32
  endian : r.endian = h.endian
  platform : r.platform = h.platform
  encoding : r.encoding = (encodingNames.lookup h.encoding.toNat).getD "WINDOWS-1252"
  datasetName : r.datasetName = h.datasetName
  fileType : r.fileType = h.fileType
  dateCreated : Shows h.created r.dateCreated
  dateModified : Shows h.modified r.dateModified
  headerLength : r.headerLength = h.headerLength
  pageLength : r.pageLength = h.pageLength
  pageCount : r.pageCount = h.pageCount
  sasRelease : r.sasRelease = h.sasRelease
  serverType : r.serverType = h.serverType
  osType : r.osType = h.osType
  osName : r.osName = h.osName

end Sas.Spec
