import Verif.Model.HostOrder
import Verif.Proofs.Values

/-!
# Property C98: the machine does not matter

A file is read the same way on a little-endian and on a big-endian machine, with either of the two versions of
the code that turns bytes around. The specification is the one of C20: `encode e w n` are the bytes of the
number `n` in the byte order `e`.
-/

namespace Sas.Props

open Sas Spec

/-! ## Lemmas -/

theorem hostLoad_little (bs : List Byte) : hostLoad .little bs = natLE bs := by
  simp only [hostLoad]
  induction bs with
  | nil => rfl
  | cons b bs ih => rw [List.foldr_cons, ih]; rfl

theorem hostLoad_big (bs : List Byte) : hostLoad .big bs = natLE bs.reverse := by
  rw [← hostLoad_little]
  simp only [hostLoad, List.foldr_reverse]
  congr 1
  funext n b
  omega

theorem endianReverse_natLE (bs : List Byte) : endianReverse bs.length (natLE bs) = natLE bs.reverse := by
  induction bs with
  | nil => rfl
  | cons b bs ih =>
    have hb : b.toNat < 256 := b.toNat_lt
    have h1 : (b.toNat + 256 * natLE bs) % 256 = b.toNat := by omega
    have h2 : (b.toNat + 256 * natLE bs) / 256 = natLE bs := by omega
    rw [List.length_cons, natLE, endianReverse, h1, h2, ih, List.reverse_cons, natLE_append, List.length_reverse]
    simp only [natLE]
    ring

theorem endianReverse_natLE' (bs : List Byte) : endianReverse bs.length (natLE bs.reverse) = natLE bs := by
  have := endianReverse_natLE bs.reverse
  rwa [List.length_reverse, List.reverse_reverse] at this

theorem machine_getVal (m : Machine) (e : Endian) (bs : List Byte) : m.getVal e bs = getVal e bs := by
  obtain ⟨o, i⟩ := m
  cases o <;> cases i <;> cases e <;>
    simp [Machine.getVal, hostLoad_little, hostLoad_big, getVal, bigToNative, littleToNative, endianReverse_natLE,
      endianReverse_natLE']

theorem machine_incomplete (m : Machine) (e : Endian) (bs : List Byte) :
    m.getIncompleteDoubleBits e bs = getIncompleteDoubleBits e bs := by
  cases e <;> simp only [Machine.getIncompleteDoubleBits, Machine.getDoubleBits, machine_getVal, getIncompleteDoubleBits,
    getDoubleBits]

theorem machine_getDouble (m : Machine) (c : Column) (e : Endian) (mem : List Byte) :
    m.getDouble c e mem = c.getDouble e mem := by
  simp only [Machine.getDouble, Machine.getDoubleBits, machine_getVal, Column.getDouble, getDoubleBits]

/-! ## The property -/

/-- C98: on every machine, and with either version of the code, the number read is the number written in the file:
for every width and every byte order of the file. -/
theorem C98_numbers (m : Machine) (e : Endian) (w n : Nat) (hn : n < 256 ^ w) : m.getVal e (encode e w n) = n := by
  rw [machine_getVal, getVal_encode, Nat.mod_eq_of_lt hn]

/-- C98: every getter of every column gives the same on every machine, whatever the bytes of the row, also when it
fails. -/
theorem C98_columns (m m' : Machine) (c : Column) (mem : List Byte) :
    m.getInteger c mem = m'.getInteger c mem ∧ m.getNumber c mem = m'.getNumber c mem ∧
    m.getDatetime c mem = m'.getDatetime c mem ∧ m.getDate c mem = m'.getDate c mem ∧
    m.getTime c mem = m'.getTime c mem := by
  refine ⟨?_, ?_, ?_, ?_, ?_⟩ <;>
    simp only [Machine.getInteger, Machine.getNumber, Machine.getDatetime, Machine.getDate, Machine.getTime,
      Machine.getDoubleBits, machine_getVal, machine_incomplete, machine_getDouble]

/-- C98: the numbers of the header, of the pages and of the descriptions of the columns are the same on every machine. -/
theorem C98_buffers (m m' : Machine) (cfg : Cfg) (e : Endian) (b : Buf) (off size : Nat) :
    m.getUInt cfg e b off size = m'.getUInt cfg e b off size ∧
    m.getBufDouble cfg e b off = m'.getBufDouble cfg e b off := by
  constructor <;> simp only [Machine.getUInt, Machine.getBufDouble, Machine.getDoubleBits, machine_getVal]

/-- C98: so that everything said about the reader elsewhere, where a number is what its bytes write in the byte order of
the file, is said about every machine. -/
theorem C98_reader (m : Machine) (c : Column) (mem : List Byte) (cfg : Cfg) (e : Endian) (f : Format) (b : Buf) (off : Nat) :
    m.getInteger c mem = c.getInteger mem ∧ m.getNumber c mem = c.getNumber mem ∧
    m.getDatetime c mem = c.getDatetime mem ∧ m.getDate c mem = c.getDate mem ∧ m.getTime c mem = c.getTime mem ∧
    m.getUInt cfg e b off 2 = b.getU16 cfg e off ∧ m.getUInt cfg e b off 4 = b.getU32 cfg e off ∧
    m.getUInt cfg e b off f.intSize = b.getUInt cfg e f off ∧ m.getBufDouble cfg e b off = b.getDouble cfg e off := by
  have h1 : ∀ c : Column, m.getInteger c mem = c.getInteger mem := fun c => by
    simp only [Machine.getInteger, Column.getInteger, machine_getVal]
    cases c.fmt <;> rfl
  have h2 : m.getDate c mem = c.getDate mem := by
    simp only [Machine.getDate, Column.getDate, machine_getDouble]
    cases c.fmt <;> rfl
  have h3 : m.getTime c mem = c.getTime mem := by
    simp only [Machine.getTime, Column.getTime, machine_getDouble]
    cases c.fmt <;> rfl
  refine ⟨h1 c, ?_, ?_, h2, h3, ?_, ?_, ?_, ?_⟩
  · simp only [Machine.getNumber, Column.getNumber, Machine.getDoubleBits, machine_getVal, machine_incomplete, h1]
    cases c.fmt <;> rfl
  · simp only [Machine.getDatetime, Column.getDatetime, machine_getDouble, h2, h3]
    cases c.fmt <;> rfl
  · simp only [Machine.getUInt, Buf.getU16, machine_getVal]
  · simp only [Machine.getUInt, Buf.getU32, machine_getVal]
  · simp only [Machine.getUInt, Buf.getUInt, machine_getVal]
  · simp only [Machine.getBufDouble, Buf.getDouble, Machine.getDoubleBits, machine_getVal, getDoubleBits]

/-- The number 258 in a big-endian file, on the four machines; the object its bytes are copied into has another value
on the little-endian ones. -/
example : encode .big 2 258 = [1, 2] ∧ hostLoad .little [1, 2] = 513 ∧ hostLoad .big [1, 2] = 258 ∧
    ([⟨.little, false⟩, ⟨.little, true⟩, ⟨.big, false⟩, ⟨.big, true⟩] : List Machine).map (fun m => m.getVal .big [1, 2]) =
      [258, 258, 258, 258] := by decide +kernel

/-- A column of three-byte doubles: the number 1 in a little-endian file, on a big-endian machine. -/
example : (⟨.big, true⟩ : Machine).getNumber { name := [], label := [], format := [], fmt := .incomplete .little 3, offset := 0, length := 3 }
    [0, 0xF0, 0x3F] = .ok (.bits 0x3FF0000000000000) := by decide +kernel

end Sas.Props
