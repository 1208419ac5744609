import Verif.Model.Types

/-!
# src/buffer.hpp and the data source it reads from
-/

namespace Sas

/-- Result of one `read_bytes(dst, n)` call on a data source: the new state of the source, the bytes it
stored at `dst` (in order, from `dst[0]` on) and the returned flag (include/cppsas7bdat/reader.hpp:26). -/
structure ReadRes (σ : Type) where
  st : σ
  bytes : List Byte
  ok : Bool

/-- A data source: any object with `bool eof()` and `bool read_bytes(void *, size_t)`
(include/cppsas7bdat/source/ifstream.hpp:22-28 is the one shipped; README documents the interface).
Simplification: `eof()` does not modify the source. Sources that throw are in SourceThrowing.lean. -/
structure Source (σ : Type) where
  eof : σ → Bool
  read : σ → Nat → ReadRes σ

/-- The contract of `read_bytes`: never more than the requested bytes, exactly the requested bytes
when it returns `true` (include/cppsas7bdat/reader.hpp:26, as src/buffer.hpp:57 uses it). -/
structure Source.Lawful {σ : Type} (S : Source σ) : Prop where
  le : ∀ s n, (S.read s n).bytes.length ≤ n
  full : ∀ s n, (S.read s n).ok = true → (S.read s n).bytes.length = n

/-- `MBUFFER` (src/buffer.hpp:21-25): the allocated memory (whose length is the allocation size, which
never shrinks) and the logical size `m_size`. -/
structure Buf where
  mem : List Byte
  size : Nat
deriving DecidableEq

/-- `MBUFFER()` (src/buffer.hpp:27). -/
def Buf.empty : Buf := ⟨[], 0⟩

/-- Freshly allocated memory at addresses `[from, from+n)` of the new block (src/memory.hpp:24-28). -/
def freshMem (cfg : Cfg) (start n : Nat) : List Byte := (List.range' start n).map cfg.junk

/-- `MBUFFER(size_t)` (src/buffer.hpp:28-29, src/memory.hpp:24-28). -/
def Buf.alloc (cfg : Cfg) (n : Nat) : Res Buf :=
  if n ≤ cfg.maxAlloc then .ok ⟨freshMem cfg 0 n, n⟩ else .error (.exn .badAlloc)

/-- `MBUFFER::resize` (src/buffer.hpp:36-49). -/
def Buf.resize (cfg : Cfg) (b : Buf) (n : Nat) : Res Buf :=
  if b.size < n then
    if n ≤ cfg.maxAlloc then
      .ok ⟨b.mem.take b.size ++ freshMem cfg b.size (n - b.size), n⟩
    else .error (.exn .badAlloc)
  else .ok { b with size := n }

/-- Overwrite `bs.length` cells of the memory from `off` on (what `read_bytes` does behind the pointer of src/buffer.hpp:57). -/
def writeAt (mem : List Byte) (off : Nat) (bs : List Byte) : List Byte :=
  mem.take off ++ bs ++ mem.drop (off + bs.length)

/-- `MBUFFER::read_stream` (src/buffer.hpp:51-58). The outcome comes with the buffer and the source as
they are left, also when an exception is thrown. A source that stores bytes outside the allocation
causes undefined behaviour. -/
def Buf.readStream {σ : Type} (cfg : Cfg) (S : Source σ) (b : Buf) (s : σ) (len off : Nat) :
    Res Bool × Buf × σ :=
  match b.resize cfg (w64 (off + len)) with
  | .error e => (.error e, b, s)
  | .ok b' =>
    let r := S.read s len
    if off + r.bytes.length ≤ b'.mem.length then
      (.ok r.ok, { b' with mem := writeAt b'.mem off r.bytes }, r.st)
    else (.error .ub, b', r.st)

/-- `MBUFFER::check` (src/buffer.hpp:62-64); the sum wraps. -/
def Buf.check (b : Buf) (off len : Nat) : Bool := w64 (off + len) ≤ b.size

/-- `MBUFFER::assert_check` (src/buffer.hpp:66-69): it throws from a `noexcept` function. -/
def Buf.assertCheck (b : Buf) (off len : Nat) : Res Unit :=
  if b.check off len then .ok () else .error .terminate

/-- Reading `len` bytes through `data(off, len) const` (src/buffer.hpp:71-78), whatever the `ASSERT`
template argument: checked against `m_size` in `DEBUG` builds only, unchecked otherwise. Reading inside
the allocation but beyond `m_size` yields whatever bytes are there; reading outside the allocation is
undefined behaviour. -/
def Buf.rd (cfg : Cfg) (b : Buf) (off len : Nat) : Res (List Byte) :=
  if cfg.debug && !b.check off len then .error .terminate
  else if off + len ≤ b.mem.length then .ok (slice b.mem off len)
  else .error .ub

/-- `operator[]`, `get_byte` (src/buffer.hpp:93-95, 127-130). -/
def Buf.getByte (cfg : Cfg) (b : Buf) (off : Nat) : Res Byte := do
  match ← b.rd cfg off 1 with
  | x :: _ => .ok x
  | [] => .error .ub

/-- `get_uint16` (src/buffer.hpp:144-148). -/
def Buf.getU16 (cfg : Cfg) (e : Endian) (b : Buf) (off : Nat) : Res Nat := do
  return getVal e (← b.rd cfg off 2)

/-- `get_uint32` (src/buffer.hpp:156-160). -/
def Buf.getU32 (cfg : Cfg) (e : Endian) (b : Buf) (off : Nat) : Res Nat := do
  return getVal e (← b.rd cfg off 4)

/-- `get_uinteger` (src/buffer.hpp:203-207). -/
def Buf.getUInt (cfg : Cfg) (e : Endian) (f : Format) (b : Buf) (off : Nat) : Res Nat := do
  return getVal e (← b.rd cfg off f.intSize)

/-- `get_double` (src/buffer.hpp:162-166). -/
def Buf.getDouble (cfg : Cfg) (e : Endian) (b : Buf) (off : Nat) : Res Nat := do
  return getDoubleBits e (← b.rd cfg off 8)

/-- `get_string` (src/buffer.hpp:168-173). -/
def Buf.getString (cfg : Cfg) (b : Buf) (off len : Nat) : Res (List Byte) := do
  return getStringTrim (← b.rd cfg off len)

/-- `get_string_untrim` (src/buffer.hpp:175-180). -/
def Buf.getStringUntrim (cfg : Cfg) (b : Buf) (off len : Nat) : Res (List Byte) :=
  b.rd cfg off len

end Sas
