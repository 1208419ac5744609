import Verif.Model.Base

/-!
# What the stored values mean

Positional encodings, IEEE-754 doubles, blank characters, encoding numbers. Nothing here refers to the
functions of the model.
-/

namespace Sas.Spec

open Sas

/-- The `w` base-256 digits of `n`, most significant first. -/
def digits : (w n : Nat) → List Byte
  | 0, _ => []
  | w + 1, n => UInt8.ofNat (n / 256 ^ w % 256) :: digits w n

/-- An unsigned integer of `w` bytes as stored in a file of the given byte order. -/
def encode (e : Endian) (w n : Nat) : List Byte :=
  match e with
  | .big => digits w n
  | .little => (digits w n).reverse

/-- A signed integer of `w` bytes (two's complement). -/
def encodeSigned (e : Endian) (w : Nat) (x : Int) : List Byte :=
  encode e w (x % 2 ^ (8 * w)).toNat

/-- What SAS stores for a double (given by its 64-bit pattern) in `n` bytes: the `n` most significant
bytes, in the byte order of the file. -/
def encodeTruncated (e : Endian) (n bits : Nat) : List Byte :=
  match e with
  | .big => (digits 8 bits).take n
  | .little => ((digits 8 bits).take n).reverse

/-- The fields of a double: sign, biased exponent, fraction. -/
def dblSign (b : Nat) : Bool := b / 2 ^ 63 % 2 == 1
/-- The biased exponent of a double. -/
def dblExp (b : Nat) : Nat := b / 2 ^ 52 % 2 ^ 11
/-- The fraction field of a double. -/
def dblFrac (b : Nat) : Nat := b % 2 ^ 52

/-- The magnitude of a finite double, in units of 2^-1074 (the smallest positive double). -/
def dblMag (b : Nat) : Nat :=
  if dblExp b = 0 then dblFrac b else (2 ^ 52 + dblFrac b) * 2 ^ (dblExp b - 1)

/-- The weight of fraction bit number `k` of a finite double, in the same units. -/
def dblBitWeight (b k : Nat) : Nat := 2 ^ k * 2 ^ (dblExp b - 1)

/-- White space: blank, tab, line feed, vertical tab, form feed, carriage return. -/
def white (b : Byte) : Prop := b.toNat = 32 ∨ (9 ≤ b.toNat ∧ b.toNat ≤ 13)

/-- Printable ASCII. -/
def printable (b : Byte) : Prop := 32 ≤ b.toNat ∧ b.toNat ≤ 126

/-- The encoding numbers SAS assigns, with the name given to each; every other number means the default,
WINDOWS-1252. -/
def encodingNames : List (Nat × String) :=
  [(20, "UTF-8"), (28, "US-ASCII"), (29, "ISO-8859-1"), (30, "ISO-8859-2"), (31, "ISO-8859-3"),
   (32, "ISO-8859-4"), (33, "ISO-8859-5"), (34, "ISO-8859-6"), (35, "ISO-8859-7"), (36, "ISO-8859-8"),
   (37, "ISO-8859-9"), (39, "ISO-8859-11"), (40, "ISO-8859-15"), (41, "CP437"), (42, "CP850"),
   (43, "CP852"), (44, "CP857"), (45, "CP858"), (46, "CP862"), (47, "CP864"), (48, "CP865"),
   (49, "CP866"), (50, "CP869"), (51, "CP874"), (52, "CP921"), (53, "CP922"), (54, "CP1129"),
   (55, "CP720"), (56, "CP737"), (57, "CP775"), (58, "CP860"), (59, "CP863"), (60, "WINDOWS-1250"),
   (61, "WINDOWS-1251"), (62, "WINDOWS-1252"), (63, "WINDOWS-1253"), (64, "WINDOWS-1254"),
   (65, "WINDOWS-1255"), (66, "WINDOWS-1256"), (67, "WINDOWS-1257"), (68, "WINDOWS-1258"),
   (69, "MACROMAN"), (70, "MACARABIC"), (71, "MACHEBREW"), (72, "MACGREEK"), (73, "MACTHAI"),
   (75, "MACTURKISH"), (76, "MACUKRAINE"), (118, "CP950"), (119, "EUC-TW"), (123, "BIG5-HKSCS"),
   (125, "GB18030"), (126, "CP936"), (128, "CP1381"), (134, "EUC-JP"), (136, "CP949"), (137, "CP942"),
   (138, "CP932"), (140, "EUC-KR"), (141, "CP949"), (142, "CP949"), (163, "MACICELAND"),
   (167, "ISO-2022-JP"), (168, "ISO-2022-KR"), (169, "ISO-2022-CN"), (172, "ISO-2022-CN-EXT"),
   (205, "GB18030"), (227, "ISO-8859-14"), (242, "ISO-8859-13"), (245, "MACCROATIAN"),
   (246, "MACCYRILLIC"), (247, "MACROMANIA"), (248, "SHIFT_JISX0213")]

end Sas.Spec
