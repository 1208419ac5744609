import Verif.Spec.Writer
import Verif.Spec.DateTime

/-!
# How values are stored in the cells of a row
-/

namespace Sas.Spec

open Sas

/-- A value of a data set. Dates are days, times and datetimes are microseconds, counted from 1960-01-01. -/
inductive Value
  | text (t : List Byte)
  | integer (x : Int)
  | number (bits : Nat)
  | datetime (us : Int)
  | date (days : Int)
  | time (us : Int)
  | missing

/-- The cell of column `c` that holds a value: texts are padded with blanks or zero bytes, integers have one
(unsigned) or two bytes, numbers are doubles of which the leading 3 to 8 bytes are stored, and dates and times are
doubles: seconds, days, seconds. -/
inductive StoredAs (e : Endian) (c : ColumnDesc) : Value → List Byte → Prop
  | text (t pad : List Byte) (hn : c.numeric = false) (hp : ∀ b ∈ pad, b = 0 ∨ b = 0x20)
      (ht : ∀ b, t.getLast? = some b → ¬ (b = 0 ∨ white b)) : StoredAs e c (.text t) (t ++ pad)
  | byte (b : Byte) (hn : c.numeric = true) (hl : c.length = 1) : StoredAs e c (.integer b.toNat) [b]
  | short (x : Int) (hn : c.numeric = true) (hl : c.length = 2) (h1 : -32768 ≤ x) (h2 : x < 32768) :
      StoredAs e c (.integer x) (encodeSigned e 2 x)
  | number (bits : Nat) (ht : columnType c.numeric c.format c.length = .number) (hb : bits < 2 ^ 64)
      (hz : bits % 256 ^ (8 - c.length) = 0) : StoredAs e c (.number bits) (encodeTruncated e c.length bits)
  | datetime (us : Int) (bits : Nat) (s : ℚ) (ht : columnType c.numeric c.format c.length = .datetime)
      (hl : c.length = 8) (hv : IeeeValue bits s) (hs : Nearest s (us / 1000000)) (hr : |us| < 2 ^ 33 * 1000000) :
      StoredAs e c (.datetime us) (encode e 8 bits)
  | date (d : Int) (bits : Nat) (ht : columnType c.numeric c.format c.length = .date) (hl : c.length = 8)
      (hv : IeeeValue bits d) (h1 : -204535 ≤ d) (h2 : d ≤ 2936549) : StoredAs e c (.date d) (encode e 8 bits)
  | time (us : Int) (bits : Nat) (s : ℚ) (ht : columnType c.numeric c.format c.length = .time) (hl : c.length = 8)
      (hv : IeeeValue bits s) (hs : Nearest s (us / 1000000)) (h1 : 0 ≤ us) (h2 : us < 86400000000) :
      StoredAs e c (.time us) (encode e 8 bits)
  | missing (bits : Nat) (ht : columnType c.numeric c.format c.length = .datetime ∨
      columnType c.numeric c.format c.length = .date ∨ columnType c.numeric c.format c.length = .time)
      (hl : c.length = 8) (hv : IeeeNaN bits) : StoredAs e c .missing (encode e 8 bits)

/-- The row holds one value for each column, at its place. -/
structure RowHolds (e : Endian) (cs : List ColumnDesc) (row : List Byte) (vs : List Value) : Prop where
  count : vs.length = cs.length
  cells : ∀ (i : Nat) (c : ColumnDesc) (v : Value), cs[i]? = some c → vs[i]? = some v →
    ∃ before cell after, row = before ++ cell ++ after ∧ before.length = c.offset ∧ cell.length = c.length ∧
      StoredAs e c v cell

end Sas.Spec
