import Verif.Model.Base
import Verif.Model.Buffer

/-!
# src/decompressors.hpp

The source is represented by the list of bytes not yet popped (`values` from `i_src` on); `pop` on an
exhausted source (an out-of-range `string_view::operator[]`) is undefined behaviour.
-/

namespace Sas

/-- `DST_VALUES` (src/decompressors.hpp:45-48): the destination memory, reused from row to row, whose
length is `n_dst`, and the write position `i_dst`. -/
structure Dst where
  mem : List Byte
  i : Nat
deriving DecidableEq

/-- `store_value(v, n)` (src/decompressors.hpp:67-71). -/
def Dst.storeValue (d : Dst) (v : Byte) (n : Nat) : Res Dst :=
  if d.i + n ≤ d.mem.length then .ok ⟨writeAt d.mem d.i (List.replicate n v), d.i + n⟩
  else .error (.exn .cannotDecompress)

/-- The copy of source bytes in `store_values` (src/decompressors.hpp:202-204). -/
def Dst.storeBytes (d : Dst) (bs : List Byte) : Res Dst :=
  if d.i + bs.length ≤ d.mem.length then .ok ⟨writeAt d.mem d.i bs, d.i + bs.length⟩
  else .error (.exn .cannotDecompress)

/-- `store_pattern(ofs, n)` (src/decompressors.hpp:98-102, src/buffer.hpp:104-108). The source position
`i_dst - ofs` wraps below zero; a `memcpy` whose regions overlap is undefined. -/
def Dst.storePattern (cfg : Cfg) (d : Dst) (ofs n : Nat) : Res Dst :=
  if d.i + n ≤ d.mem.length then
    if cfg.debug && !(w64 (sub64 d.i ofs + n) ≤ d.mem.length) then .error .terminate
    else if d.i < ofs then .error .ub
    else if ofs < n then .error .ub
    else .ok ⟨writeAt d.mem d.i (slice d.mem (d.i - ofs) n), d.i + n⟩
  else .error (.exn .cannotDecompress)

/-- `fill` (src/decompressors.hpp:61-65). -/
def Dst.fill (d : Dst) : Res Dst :=
  if d.mem.length - d.i ≠ 0 then d.storeValue 0 (d.mem.length - d.i) else .ok d

/-- `pop()` (src/decompressors.hpp:28). -/
def pop : List Byte → Res (Byte × List Byte)
  | [] => .error .ub
  | b :: bs => .ok (b, bs)

/-- `store_values(n)` of the RLE decompressor (src/decompressors.hpp:200-205). -/
def rleStoreValues (src : List Byte) (d : Dst) (n : Nat) : Res (List Byte × Dst) := do
  let m := min n src.length
  let d ← d.storeBytes (src.take m)
  return (src.drop m, d)

/-- One turn of the RLE loop (src/decompressors.hpp:208-263). -/
def rleStep (src : List Byte) (d : Dst) : Res (List Byte × Dst) := do
  let (val, src) ← pop src
  let command := val.toNat / 16
  let e := val.toNat % 16
  if command = 0x00 then do
    let (b, src) ← pop src
    rleStoreValues src d (e * 256 + b.toNat + 64)
  else if command = 0x04 then do
    let (b, src) ← pop src
    let (v, src) ← pop src
    return (src, ← d.storeValue v (e * 16 + b.toNat + 18))
  else if command = 0x05 then do
    let (b, src) ← pop src
    return (src, ← d.storeValue 0x40 (e * 256 + b.toNat + 17))
  else if command = 0x06 then do
    let (b, src) ← pop src
    return (src, ← d.storeValue 0x20 (e * 256 + b.toNat + 17))
  else if command = 0x07 then do
    let (b, src) ← pop src
    return (src, ← d.storeValue 0x00 (e * 256 + b.toNat + 17))
  else if command = 0x08 then rleStoreValues src d (e + 1)
  else if command = 0x09 then rleStoreValues src d (e + 17)
  else if command = 0x0A then rleStoreValues src d (e + 33)
  else if command = 0x0B then rleStoreValues src d (e + 49)
  else if command = 0x0C then do
    let (v, src) ← pop src
    return (src, ← d.storeValue v (e + 3))
  else if command = 0x0D then return (src, ← d.storeValue 0x40 (e + 2))
  else if command = 0x0E then return (src, ← d.storeValue 0x20 (e + 2))
  else if command = 0x0F then return (src, ← d.storeValue 0x00 (e + 2))
  else .error (.exn .cannotDecompress)

/-- The RLE loop (src/decompressors.hpp:207-264). Every turn consumes a source byte, so that a fuel of
the source length is never exhausted. The destination is returned also when a turn fails (a failing
turn does not write). -/
def rleLoop : (fuel : Nat) → List Byte → Dst → Res Unit × Dst
  | 0, src, d => if 2 ≤ src.length ∧ d.i < d.mem.length then (.error .fuel, d) else (.ok (), d)
  | n + 1, src, d =>
    if 2 ≤ src.length ∧ d.i < d.mem.length then
      match rleStep src d with
      | .ok (src', d') => rleLoop n src' d'
      | .error e => (.error e, d)
    else (.ok (), d)

/-- `RLE::operator()` (src/decompressors.hpp:195-267): `dst` is the content of the destination buffer
left by the previous row. The result is the outcome and the destination buffer afterwards; on success
the row is the whole destination buffer. -/
def rle (src dst : List Byte) : Res (List Byte) × List Byte :=
  match rleLoop src.length src ⟨dst, 0⟩ with
  | (.error e, d) => (.error e, d.mem)
  | (.ok (), d) =>
    match d.fill with
    | .error e => (.error e, d.mem)
    | .ok d => (.ok d.mem, d.mem)

/-- Control state of the RDC loop: `ctrl_mask` and `ctrl_bits` (src/decompressors.hpp:112-113). -/
structure Ctrl where
  mask : Nat
  bits : Nat
deriving DecidableEq

/-- Lines 118-124 of src/decompressors.hpp: next control bit, reloading 16 of them when exhausted. -/
def rdcControl (c : Ctrl) (src : List Byte) : Res (Ctrl × List Byte) := do
  let mask := c.mask / 2
  if mask = 0 then do
    let (hi, src) ← pop src
    let (lo, src) ← pop src
    return (⟨0x8000, hi.toNat * 256 + lo.toNat⟩, src)
  else return (⟨mask, c.bits⟩, src)

/-- `(ctrl_bits & ctrl_mask) == 0` (src/decompressors.hpp:126), negated. -/
def Ctrl.isSet (c : Ctrl) : Bool := (c.bits &&& c.mask) != 0

/-- src/decompressors.hpp:129-155: one compressed token. -/
def rdcToken (cfg : Cfg) (src : List Byte) (d : Dst) : Res (List Byte × Dst) := do
  let (val, src) ← pop src
  let cmd := val.toNat / 16
  let cnt := val.toNat % 16
  if cmd = 0 then do
    let (v, src) ← pop src
    return (src, ← d.storeValue v (cnt + 3))
  else if cmd = 1 then do
    let (b, src) ← pop src
    let (v, src) ← pop src
    return (src, ← d.storeValue v (cnt + (b.toNat * 16 + 19)))
  else if cmd = 2 then do
    let (b, src) ← pop src
    let (n, src) ← pop src
    return (src, ← d.storePattern cfg (cnt + 3 + b.toNat * 16) (n.toNat + 16))
  else do
    let (b, src) ← pop src
    return (src, ← d.storePattern cfg (cnt + 3 + b.toNat * 16) cmd)

/-- One turn of the RDC loop (src/decompressors.hpp:116-156). -/
def rdcStep (cfg : Cfg) (c : Ctrl) (src : List Byte) (d : Dst) : Res (Ctrl × List Byte × Dst) := do
  let (c, src) ← rdcControl c src
  if c.isSet then do
    let (src, d) ← rdcToken cfg src d
    return (c, src, d)
  else do
    let (v, src) ← pop src
    return (c, src, ← d.storeValue v 1)

/-- The RDC loop (src/decompressors.hpp:115-157). -/
def rdcLoop (cfg : Cfg) : (fuel : Nat) → Ctrl → List Byte → Dst → Res Unit × Dst
  | 0, _, src, d => if 3 ≤ src.length ∧ d.i < d.mem.length then (.error .fuel, d) else (.ok (), d)
  | n + 1, c, src, d =>
    if 3 ≤ src.length ∧ d.i < d.mem.length then
      match rdcStep cfg c src d with
      | .ok (c', src', d') => rdcLoop cfg n c' src' d'
      | .error e => (.error e, d)
    else (.ok (), d)

/-- `RDC::operator()` (src/decompressors.hpp:104-160). -/
def rdc (cfg : Cfg) (src dst : List Byte) : Res (List Byte) × List Byte :=
  match rdcLoop cfg src.length ⟨0, 0⟩ src ⟨dst, 0⟩ with
  | (.error e, d) => (.error e, d.mem)
  | (.ok (), d) =>
    match d.fill with
    | .error e => (.error e, d.mem)
    | .ok d => (.ok d.mem, d.mem)

end Sas
