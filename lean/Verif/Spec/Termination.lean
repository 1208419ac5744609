import Verif.Spec.Header

/-!
# Finite data sources and the announced page length
-/

namespace Sas.Spec

open Sas

/-- A source with finitely many bytes left: `left s` bounds what it can still deliver in state `s`.
A successful read uses up what it delivers, no read brings bytes back. -/
structure Finite {σ : Type} (S : Source σ) (left : σ → Nat) : Prop where
  less : ∀ s n, (S.read s n).ok = true → left (S.read s n).st + n ≤ left s
  mono : ∀ s n, left (S.read s n).st ≤ left s

/-- The number of the given width in bytes announced by the first 288 bytes of a file at the given offset,
four bytes later when byte 35 is the digit 3, stored backwards when byte 37 is 1. -/
def announcedNumber (offset width : Nat) (start : List Byte) : Nat :=
  let at_ := if start[35]? = some 0x33 then offset + 4 else offset
  let digits := (start.drop at_).take width
  let bigEndian := if start[37]? = some 1 then digits.reverse else digits
  bigEndian.foldl (fun n d => n * 256 + d.toNat) 0

/-- The header length announced by the first 288 bytes of a file. -/
def announcedHeaderLength (start : List Byte) : Nat := announcedNumber 196 4 start

/-- The page length announced by the first 288 bytes of a file. -/
def announcedPageLength (start : List Byte) : Nat := announcedNumber 200 4 start

/-- The dates of creation and modification in the first 288 bytes of a file, as stored. -/
def announcedDates (start : List Byte) : List Nat := [announcedNumber 164 8 start, announcedNumber 172 8 start]

/-- The file starts with the magic number, and one of its two dates is neither missing nor within 139000 years
of 1960: an infinity or a very large number. -/
def WildDate (data : List Byte) : Prop :=
  data.take 32 = magic ∧ ∃ d ∈ announcedDates (data.take 288), ¬ Stamp d

/-- The header reaches beyond its announced length: the file is padded or 64-bit, which displaces the last
text by 4 or 8 bytes, the header has no room for that, the file has the announced header, and the
displaced text is not empty (its first byte is not 0). -/
def HeaderOverrun (data : List Byte) : Prop :=
  let displacement := (if data[35]? = some 0x33 then 4 else 0) + (if data[32]? = some 0x33 then 4 else 0)
  let length := announcedHeaderLength (data.take 288)
  data.take 32 = magic ∧ 288 ≤ length ∧ length ≤ data.length ∧ length < 288 + displacement ∧
    data[272 + displacement]? ≠ some 0

end Sas.Spec
