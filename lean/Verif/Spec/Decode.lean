import Verif.Spec.Compression

/-!
# What arbitrary bytes mean as a compressed row

`Spec/Compression.lean` describes what a writer produces. Here any byte string is read: the commands (tokens) at its beginning are
carried out one after the other, as long as the row is not full and the input is not about to end. Nothing here refers to the
model of the decompressors.
-/

namespace Sas.Spec

open Sas (Byte)

/-- How it ends. -/
inductive Decoded
  /-- these bytes are produced; the rest of the row is filled with zeros -/
  | row (out : List Byte)
  /-- a command stands for more bytes than there is room for -/
  | tooLong
  /-- a command that does not exist -/
  | unknown
  /-- the input ends before the command does -/
  | truncated
  /-- a pattern begins `missing` bytes before the row; it is `n` bytes long -/
  | outside (missing n : Nat)
  /-- a pattern overlaps the place it is copied to -/
  | overlap
deriving DecidableEq

/-- These cannot be carried out within the input and the row. -/
def Decoded.Unsafe : Decoded → Prop
  | .truncated | .outside _ _ | .overlap => True
  | .row _ | .tooLong | .unknown => False

/-- Does the command copy bytes of the input? -/
def RleCmd.isCopy : RleCmd → Bool
  | .copy64 _ | .copy1 _ | .copy17 _ | .copy33 _ | .copy49 _ => true
  | _ => false

/-- RLE: reading `src` for a row of `n` bytes of which `out` are there. At least two bytes are needed to go on. A copy that the
input cuts short copies what is there. -/
inductive RleReads (n : Nat) : (src out : List Byte) → Decoded → Prop
  | stop {src out : List Byte} (h : src.length < 2 ∨ n ≤ out.length) : RleReads n src out (.row out)
  | command {out rest : List Byte} {r : Decoded} (c : RleCmd) (hv : c.Valid) (h2 : 2 ≤ (c.encode ++ rest).length)
      (hn : out.length < n) (hfit : out.length + c.expand.length ≤ n) (next : RleReads n rest (out ++ c.expand) r) :
      RleReads n (c.encode ++ rest) out r
  | tooLong {out rest : List Byte} (c : RleCmd) (hv : c.Valid) (h2 : 2 ≤ (c.encode ++ rest).length) (hn : out.length < n)
      (hfit : n < out.length + c.expand.length) : RleReads n (c.encode ++ rest) out .tooLong
  | cut {out head part missing : List Byte} (c : RleCmd) (hv : c.Valid) (hc : c.isCopy = true)
      (he : c.encode = head ++ (part ++ missing)) (hx : c.expand = part ++ missing) (hm : missing ≠ [])
      (h2 : 2 ≤ (head ++ part).length) (hn : out.length < n) :
      RleReads n (head ++ part) out (if out.length + part.length ≤ n then .row (out ++ part) else .tooLong)
  | unknown {out rest : List Byte} (b : Byte) (hb : 1 ≤ b.toNat / 16 ∧ b.toNat / 16 ≤ 3) (h2 : 1 ≤ rest.length)
      (hn : out.length < n) : RleReads n (b :: rest) out .unknown
  | truncated {out : List Byte} (hi lo : Byte) (hb : hi.toNat / 16 = 4) (hn : out.length < n) :
      RleReads n [hi, lo] out .truncated

/-- Parameters within what the encoding can express; patterns may overlap. -/
def RdcTok.InRange : RdcTok → Prop
  | .lit _ => True
  | .shortRun _ n => 3 ≤ n ∧ n ≤ 18
  | .longRun _ n => 19 ≤ n ∧ n ≤ 4114
  | .longPattern ofs n => 3 ≤ ofs ∧ ofs ≤ 4098 ∧ 16 ≤ n ∧ n ≤ 271
  | .shortPattern ofs n => 3 ≤ ofs ∧ ofs ≤ 4098 ∧ 3 ≤ n ∧ n ≤ 15

/-- How far back a pattern begins. -/
def RdcTok.back : RdcTok → Option Nat
  | .longPattern ofs _ | .shortPattern ofs _ => some ofs
  | _ => none

/-- The 16 bits of a control word, the highest first. -/
def wordBits (hi lo : Byte) : List Bool := (List.range 16).map fun k => (hi.toNat * 256 + lo.toNat).testBit (15 - k)

/-- The next control bit `b`: one that is left, or the first one of the next control word. -/
inductive NextBit : (bits : List Bool) → (src : List Byte) → (b : Bool) → (bits' : List Bool) → (src' : List Byte) → Prop
  | left {bits : List Bool} {src : List Byte} (b : Bool) : NextBit (b :: bits) src b bits src
  | word {bits : List Bool} {src : List Byte} {b : Bool} (hi lo : Byte) (h : wordBits hi lo = b :: bits) :
      NextBit [] (hi :: lo :: src) b bits src

/-- RDC: reading `src` for a row of `n` bytes of which `out` are there; `bits` is what is left of the control word. At least three
bytes are needed to go on. -/
inductive RdcReads (n : Nat) : (bits : List Bool) → (src out : List Byte) → Decoded → Prop
  | stop {bits : List Bool} {src out : List Byte} (h : src.length < 3 ∨ n ≤ out.length) : RdcReads n bits src out (.row out)
  | token {bits bits' : List Bool} {src rest out out' : List Byte} {r : Decoded} (t : RdcTok) (hv : t.Valid)
      (h3 : 3 ≤ src.length) (hn : out.length < n) (hb : NextBit bits src t.compressed bits' (t.encode ++ rest))
      (hfit : out.length + t.size ≤ n) (ha : t.apply out = some out') (next : RdcReads n bits' rest out' r) :
      RdcReads n bits src out r
  | tooLong {bits bits' : List Bool} {src rest out : List Byte} (t : RdcTok) (hv : t.InRange)
      (h3 : 3 ≤ src.length) (hn : out.length < n) (hb : NextBit bits src t.compressed bits' (t.encode ++ rest))
      (hfit : n < out.length + t.size) : RdcReads n bits src out .tooLong
  | outside {bits bits' : List Bool} {src rest out : List Byte} (t : RdcTok) (ofs : Nat) (hv : t.InRange)
      (h3 : 3 ≤ src.length) (hn : out.length < n) (hb : NextBit bits src t.compressed bits' (t.encode ++ rest))
      (hfit : out.length + t.size ≤ n) (ho : t.back = some ofs) (hl : out.length < ofs) :
      RdcReads n bits src out (.outside (ofs - out.length) t.size)
  | overlap {bits bits' : List Bool} {src rest out : List Byte} (t : RdcTok) (ofs : Nat) (hv : t.InRange)
      (h3 : 3 ≤ src.length) (hn : out.length < n) (hb : NextBit bits src t.compressed bits' (t.encode ++ rest))
      (hfit : out.length + t.size ≤ n) (ho : t.back = some ofs) (hl : ofs ≤ out.length) (hs : ofs < t.size) :
      RdcReads n bits src out .overlap
  | truncated {bits bits' : List Bool} {src src' out : List Byte} (b : Bool)
      (h3 : 3 ≤ src.length) (hn : out.length < n) (hb : NextBit bits src b bits' src')
      (hno : ∀ (t : RdcTok) (rest : List Byte), t.InRange → t.compressed = b → src' ≠ t.encode ++ rest) :
      RdcReads n bits src out .truncated

end Sas.Spec
