import Verif.Model.DateTime
import Verif.Model.Buffer

/-!
# The byte order of the machine

The rest of the model says that a number is the one its bytes write in the byte order of the file
(`getVal`). The code gets there in two steps: the bytes are copied into an object, whose value depends on
the byte order of the machine, and the object is reversed or not. There are two versions of the second
step (src/types.hpp:56-104): one calls Boost (the default), the other one, under `USE_INHOUSE`, compares the
byte order of the file with that of the machine.
-/

namespace Sas

/-- `std::memcpy(&x, buf, sizeof(x))` for an unsigned integer `x` of `bs.length` bytes: on a little-endian
machine the first byte of the object is the least significant one, on a big-endian machine the most
significant one (src/types.hpp:66-68, 95-96). -/
def hostLoad (host : Endian) (bs : List Byte) : Nat :=
  match host with
  | .little => bs.foldr (fun b n => b.toNat + 256 * n) 0
  | .big => bs.foldl (fun n b => 256 * n + b.toNat) 0

/-- `boost::endian::endian_reverse` on an unsigned integer of `w` bytes: arithmetic on the value, the same on
every machine. Signed integers are converted to unsigned ones and back (src/types.hpp:73). -/
def endianReverse : Nat → Nat → Nat
  | 0, _ => 0
  | w + 1, x => (x % 256) * 256 ^ w + endianReverse w (x / 256)

/-- `boost::endian::big_to_native` (src/types.hpp:98). -/
def bigToNative (host : Endian) (w x : Nat) : Nat :=
  match host with
  | .big => x
  | .little => endianReverse w x

/-- `boost::endian::little_to_native` (src/types.hpp:100). -/
def littleToNative (host : Endian) (w x : Nat) : Nat :=
  match host with
  | .big => endianReverse w x
  | .little => x

/-- What the library is compiled for: the byte order of the machine (`__BYTE_ORDER__`), and whether
`USE_INHOUSE` is defined (src/types.hpp:56-62, 88). -/
structure Machine where
  order : Endian
  inhouse : Bool
deriving DecidableEq, Repr

/-- `ENDIAN<_endian>::get_val` (src/types.hpp:64-86 with `USE_INHOUSE`, 90-102 without). -/
def Machine.getVal (m : Machine) (e : Endian) (bs : List Byte) : Nat :=
  let x := hostLoad m.order bs
  if m.inhouse then
    if e = m.order then x else endianReverse bs.length x
  else
    match e with
    | .big => bigToNative m.order bs.length x
    | .little => littleToNative m.order bs.length x

/-- `get_double` (src/types.hpp:111-122). Simplification: doubles are stored with their bytes in the same order
as integers, so that copying the integer to the double keeps the pattern. -/
def Machine.getDoubleBits (m : Machine) (e : Endian) (bs : List Byte) : Nat := m.getVal e bs

/-- `get_incomplete_double` (src/types.hpp:124-141). -/
def Machine.getIncompleteDoubleBits (m : Machine) (e : Endian) (bs : List Byte) : Nat :=
  match e with
  | .big => m.getDoubleBits .big (bs ++ List.replicate (8 - bs.length) 0)
  | .little => m.getDoubleBits .little (List.replicate (8 - bs.length) 0 ++ bs)

/-- `Column::get_integer` on this machine (src/formatters.hpp:33-35, 77, 93-95). -/
def Machine.getInteger (m : Machine) (c : Column) (mem : List Byte) : Res Int :=
  match c.fmt with
  | .smallInt => do return (natLE (← c.cell mem 1) : Int)
  | .int16 e => do return toSigned 16 (m.getVal e (← c.cell mem 2))
  | _ => .ok 0

/-- `Column::get_number` on this machine (src/formatters.hpp:30-32, 79, 97, 111-113, 127-129). -/
def Machine.getNumber (m : Machine) (c : Column) (mem : List Byte) : Res Num :=
  match c.fmt with
  | .smallInt => do return .ofInt (← m.getInteger c mem)
  | .int16 _ => do return .ofInt (← m.getInteger c mem)
  | .double e => do return .bits (m.getDoubleBits e (← c.cell mem 8))
  | .datetime e => do return .bits (m.getDoubleBits e (← c.cell mem 8))
  | .date e => do return .bits (m.getDoubleBits e (← c.cell mem 8))
  | .time e => do return .bits (m.getDoubleBits e (← c.cell mem 8))
  | .incomplete e n => do return .bits (m.getIncompleteDoubleBits e (← c.cell mem n))
  | .none => .ok qNaN
  | .string => .ok qNaN

/-- The double of a datetime, date or time on this machine (src/formatters.hpp:111-113). -/
def Machine.getDouble (m : Machine) (c : Column) (e : Endian) (mem : List Byte) : Res Dbl := do
  return .ofBits (m.getDoubleBits e (← c.cell mem 8))

/-- `Column::get_time` on this machine (src/formatters.hpp:40-42, 152-154, 178, 193-196). -/
def Machine.getTime (m : Machine) (c : Column) (mem : List Byte) : Res Duration :=
  match c.fmt with
  | .datetime e => do return (← datetimeFromEpoch (← m.getDouble c e mem)).timeOfDay
  | .date _ => .ok (.us 0)
  | .time e => do timeFromEpoch (← m.getDouble c e mem)
  | _ => .ok .notADateTime

/-- `Column::get_date` on this machine (src/formatters.hpp:39, 148-150, 169-172). -/
def Machine.getDate (m : Machine) (c : Column) (mem : List Byte) : Res Date :=
  match c.fmt with
  | .datetime e => noexcept do (← datetimeFromEpoch (← m.getDouble c e mem)).date
  | .date e => do dateFromEpoch (← m.getDouble c e mem)
  | _ => .ok .notADate

/-- `Column::get_datetime` on this machine (src/formatters.hpp:36-38, 143-146, 174-176, 198-200). -/
def Machine.getDatetime (m : Machine) (c : Column) (mem : List Byte) : Res DateTime :=
  match c.fmt with
  | .datetime e => do datetimeFromEpoch (← m.getDouble c e mem)
  | .date _ => do
    match ← m.getDate c mem with
    | .notADate => return .notADateTime
    | .day n => return .at (n * usPerDay)
  | .time _ => do
    let _ ← m.getTime c mem
    return .notADateTime
  | _ => .ok .notADateTime

/-- `get_uint16`, `get_uint32` and `get_uinteger` (src/buffer.hpp:144-148, 156-160, 203-207), which read the header,
the pages and the subheaders, on this machine. -/
def Machine.getUInt (m : Machine) (cfg : Cfg) (e : Endian) (b : Buf) (off size : Nat) : Res Nat := do
  return m.getVal e (← b.rd cfg off size)

/-- `get_double` of a buffer (src/buffer.hpp:162-166), which reads the dates of the header, on this machine. -/
def Machine.getBufDouble (m : Machine) (cfg : Cfg) (e : Endian) (b : Buf) (off : Nat) : Res Nat := do
  return m.getDoubleBits e (← b.rd cfg off 8)

end Sas
