import Verif.Model.Base

/-!
# src/types.hpp: byte order, integers, doubles, string trimming
-/

namespace Sas

/-- Value of a byte string read with the least significant byte first (for src/types.hpp:90-102). -/
def natLE : List Byte → Nat
  | [] => 0
  | b :: bs => b.toNat + 256 * natLE bs

/-- `ENDIAN<_endian>::get_val<_Tp>` for an unsigned `_Tp` of `bs.length` bytes
(src/types.hpp:90-102): the bytes are copied and reversed when the file is big-endian. -/
def getVal (e : Endian) (bs : List Byte) : Nat :=
  match e with
  | .little => natLE bs
  | .big => natLE bs.reverse

/-- Reinterpretation of an unsigned `w`-bit value as two's complement
(`get_val<_endian, int16_t>` and friends, src/types.hpp:106-109). -/
def toSigned (w : Nat) (n : Nat) : Int :=
  if n < 2 ^ (w - 1) then (n : Int) else (n : Int) - 2 ^ w

/-- `get_double` (src/types.hpp:111-122): the 64-bit pattern of the double. -/
def getDoubleBits (e : Endian) (bs : List Byte) : Nat := getVal e bs

/-- `get_incomplete_double<_endian, n>` (src/types.hpp:124-141): the `n` stored bytes are completed
with zeros to 8 bytes, at the end for big-endian and at the beginning for little-endian. -/
def getIncompleteDoubleBits (e : Endian) (bs : List Byte) : Nat :=
  match e with
  | .big => getDoubleBits .big (bs ++ List.replicate (8 - bs.length) 0)
  | .little => getDoubleBits .little (List.replicate (8 - bs.length) 0 ++ bs)

/-- `std::isspace` in the "C" locale (src/types.hpp:27-48). -/
def isSpace (b : Byte) : Bool := b == 32 || (9 ≤ b && b ≤ 13)

/-- `std::isprint` in the "C" locale. Bytes of 128 and above are not printable; calls with a negative
`char` (src/metadata.hpp:310-316), formally undefined, behave so with the usual C libraries and are
modelled so. -/
def isPrint (b : Byte) : Bool := 32 ≤ b && b ≤ 126

/-- The loop `while (_length && p(_buf[_length - 1])) --_length` (src/types.hpp:29-32 and 43-46);
`buf[n]?` is always present because the callers pass a cell of at least `_length` bytes. -/
def trimLen (p : Byte → Bool) (buf : List Byte) : Nat → Nat
  | 0 => 0
  | n + 1 =>
    match buf[n]? with
    | some b => if p b then trimLen p buf n else n + 1
    | none => n + 1

/-- The loop `while (_length && isspace(_buf[offset])) { ++offset; --_length; }`
(src/types.hpp:39-42): what remains of the cell. -/
def skipSpace : List Byte → List Byte
  | [] => []
  | b :: bs => if isSpace b then skipSpace bs else b :: bs

/-- `get_string_trim_0` (src/types.hpp:27-34) on a cell of `_length` bytes. -/
def getStringTrim0 (cell : List Byte) : List Byte :=
  cell.take (trimLen (fun b => b == 0 || isSpace b) cell cell.length)

/-- `get_string_trim` (src/types.hpp:36-48) on a cell of `_length` bytes. -/
def getStringTrim (cell : List Byte) : List Byte :=
  let rest := skipSpace cell
  rest.take (trimLen (fun b => !isPrint b || isSpace b) rest rest.length)

end Sas
