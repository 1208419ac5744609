import Verif.Model.Base

/-!
# src/encodings.cpp
-/

namespace Sas

/-- `SAS_DEFAULT_STRING_ENCODING` (src/encodings.cpp:13). -/
def defaultEncoding : String := "WINDOWS-1252"

/-- The table `encoding[256]` (src/encodings.cpp:14-270), entry by entry. -/
def encodingTable : List String := [
  defaultEncoding, defaultEncoding, defaultEncoding, defaultEncoding, defaultEncoding, defaultEncoding, defaultEncoding, defaultEncoding,
  defaultEncoding, defaultEncoding, defaultEncoding, defaultEncoding, defaultEncoding, defaultEncoding, defaultEncoding, defaultEncoding,
  defaultEncoding, defaultEncoding, defaultEncoding, defaultEncoding, "UTF-8", defaultEncoding, defaultEncoding, defaultEncoding,
  defaultEncoding, defaultEncoding, defaultEncoding, defaultEncoding, "US-ASCII", "ISO-8859-1", "ISO-8859-2", "ISO-8859-3",
  "ISO-8859-4", "ISO-8859-5", "ISO-8859-6", "ISO-8859-7", "ISO-8859-8", "ISO-8859-9", defaultEncoding, "ISO-8859-11",
  "ISO-8859-15", "CP437", "CP850", "CP852", "CP857", "CP858", "CP862", "CP864",
  "CP865", "CP866", "CP869", "CP874", "CP921", "CP922", "CP1129", "CP720",
  "CP737", "CP775", "CP860", "CP863", "WINDOWS-1250", "WINDOWS-1251", "WINDOWS-1252", "WINDOWS-1253",
  "WINDOWS-1254", "WINDOWS-1255", "WINDOWS-1256", "WINDOWS-1257", "WINDOWS-1258", "MACROMAN", "MACARABIC", "MACHEBREW",
  "MACGREEK", "MACTHAI", defaultEncoding, "MACTURKISH", "MACUKRAINE", defaultEncoding, defaultEncoding, defaultEncoding,
  defaultEncoding, defaultEncoding, defaultEncoding, defaultEncoding, defaultEncoding, defaultEncoding, defaultEncoding, defaultEncoding,
  defaultEncoding, defaultEncoding, defaultEncoding, defaultEncoding, defaultEncoding, defaultEncoding, defaultEncoding, defaultEncoding,
  defaultEncoding, defaultEncoding, defaultEncoding, defaultEncoding, defaultEncoding, defaultEncoding, defaultEncoding, defaultEncoding,
  defaultEncoding, defaultEncoding, defaultEncoding, defaultEncoding, defaultEncoding, defaultEncoding, defaultEncoding, defaultEncoding,
  defaultEncoding, defaultEncoding, defaultEncoding, defaultEncoding, defaultEncoding, defaultEncoding, "CP950", "EUC-TW",
  defaultEncoding, defaultEncoding, defaultEncoding, "BIG5-HKSCS", defaultEncoding, "GB18030", "CP936", defaultEncoding,
  "CP1381", defaultEncoding, defaultEncoding, defaultEncoding, defaultEncoding, defaultEncoding, "EUC-JP", defaultEncoding,
  "CP949", "CP942", "CP932", defaultEncoding, "EUC-KR", "CP949", "CP949", defaultEncoding,
  defaultEncoding, defaultEncoding, defaultEncoding, defaultEncoding, defaultEncoding, defaultEncoding, defaultEncoding, defaultEncoding,
  defaultEncoding, defaultEncoding, defaultEncoding, defaultEncoding, defaultEncoding, defaultEncoding, defaultEncoding, defaultEncoding,
  defaultEncoding, defaultEncoding, defaultEncoding, "MACICELAND", defaultEncoding, defaultEncoding, defaultEncoding, "ISO-2022-JP",
  "ISO-2022-KR", "ISO-2022-CN", defaultEncoding, defaultEncoding, "ISO-2022-CN-EXT", defaultEncoding, defaultEncoding, defaultEncoding,
  defaultEncoding, defaultEncoding, defaultEncoding, defaultEncoding, defaultEncoding, defaultEncoding, defaultEncoding, defaultEncoding,
  defaultEncoding, defaultEncoding, defaultEncoding, defaultEncoding, defaultEncoding, defaultEncoding, defaultEncoding, defaultEncoding,
  defaultEncoding, defaultEncoding, defaultEncoding, defaultEncoding, defaultEncoding, defaultEncoding, defaultEncoding, defaultEncoding,
  defaultEncoding, defaultEncoding, defaultEncoding, defaultEncoding, defaultEncoding, "GB18030", defaultEncoding, defaultEncoding,
  defaultEncoding, defaultEncoding, defaultEncoding, defaultEncoding, defaultEncoding, defaultEncoding, defaultEncoding, defaultEncoding,
  defaultEncoding, defaultEncoding, defaultEncoding, defaultEncoding, defaultEncoding, defaultEncoding, defaultEncoding, defaultEncoding,
  defaultEncoding, defaultEncoding, defaultEncoding, "ISO-8859-14", defaultEncoding, defaultEncoding, defaultEncoding, defaultEncoding,
  defaultEncoding, defaultEncoding, defaultEncoding, defaultEncoding, defaultEncoding, defaultEncoding, defaultEncoding, defaultEncoding,
  defaultEncoding, defaultEncoding, "ISO-8859-13", defaultEncoding, defaultEncoding, "MACCROATIAN", "MACCYRILLIC", "MACROMANIA",
  "SHIFT_JISX0213", defaultEncoding, defaultEncoding, defaultEncoding, defaultEncoding, defaultEncoding, defaultEncoding, defaultEncoding]

/-- `get_encoding` (src/encodings.cpp:11-272); an index outside the table would be undefined
behaviour. -/
def getEncoding (e : Byte) : Res String :=
  match encodingTable[e.toNat]? with
  | some s => .ok s
  | none => .error .ub

end Sas
