import Verif.Model.Base

/-!
# Independent specification of the two SAS row compressions

What a *writer* produces: commands with their byte encodings and the bytes they stand for. Nothing here
refers to the model of the decompressors.
-/

namespace Sas.Spec

open Sas (Byte)

/-- The commands of the SASYZCRL ("RLE") compression. -/
inductive RleCmd
  /-- copy 64..4159 literal bytes -/
  | copy64 (bs : List Byte)
  /-- copy 1..16 literal bytes -/
  | copy1 (bs : List Byte)
  /-- copy 17..32 literal bytes -/
  | copy17 (bs : List Byte)
  /-- copy 33..48 literal bytes -/
  | copy33 (bs : List Byte)
  /-- copy 49..64 literal bytes -/
  | copy49 (bs : List Byte)
  /-- `16*hi + lo + 18` times the byte `b`, `hi < 16` -/
  | byte18 (hi lo : Nat) (b : Byte)
  /-- 3..18 times the byte `b` -/
  | byte3 (b : Byte) (n : Nat)
  /-- 17..4112 times '@' -/
  | at17 (n : Nat)
  /-- 17..4112 times ' ' -/
  | blank17 (n : Nat)
  /-- 17..4112 times 0 -/
  | zero17 (n : Nat)
  /-- 2..17 times '@' -/
  | at2 (n : Nat)
  /-- 2..17 times ' ' -/
  | blank2 (n : Nat)
  /-- 2..17 times 0 -/
  | zero2 (n : Nat)
deriving DecidableEq

/-- Parameters in range. -/
def RleCmd.Valid : RleCmd → Prop
  | .copy64 bs => 64 ≤ bs.length ∧ bs.length ≤ 4159
  | .copy1 bs => 1 ≤ bs.length ∧ bs.length ≤ 16
  | .copy17 bs => 17 ≤ bs.length ∧ bs.length ≤ 32
  | .copy33 bs => 33 ≤ bs.length ∧ bs.length ≤ 48
  | .copy49 bs => 49 ≤ bs.length ∧ bs.length ≤ 64
  | .byte18 hi lo _ => hi < 16 ∧ lo < 256
  | .byte3 _ n => 3 ≤ n ∧ n ≤ 18
  | .at17 n => 17 ≤ n ∧ n ≤ 4112
  | .blank17 n => 17 ≤ n ∧ n ≤ 4112
  | .zero17 n => 17 ≤ n ∧ n ≤ 4112
  | .at2 n => 2 ≤ n ∧ n ≤ 17
  | .blank2 n => 2 ≤ n ∧ n ≤ 17
  | .zero2 n => 2 ≤ n ∧ n ≤ 17

instance : DecidablePred RleCmd.Valid := fun c => by
  cases c <;> simp only [RleCmd.Valid] <;> infer_instance

/-- Byte encoding of a command. -/
def RleCmd.encode : RleCmd → List Byte
  | .copy64 bs => [.ofNat ((bs.length - 64) / 256), .ofNat ((bs.length - 64) % 256)] ++ bs
  | .copy1 bs => .ofNat (0x80 + (bs.length - 1)) :: bs
  | .copy17 bs => .ofNat (0x90 + (bs.length - 17)) :: bs
  | .copy33 bs => .ofNat (0xA0 + (bs.length - 33)) :: bs
  | .copy49 bs => .ofNat (0xB0 + (bs.length - 49)) :: bs
  | .byte18 hi lo b => [.ofNat (0x40 + hi), .ofNat lo, b]
  | .byte3 b n => [.ofNat (0xC0 + (n - 3)), b]
  | .at17 n => [.ofNat (0x50 + (n - 17) / 256), .ofNat ((n - 17) % 256)]
  | .blank17 n => [.ofNat (0x60 + (n - 17) / 256), .ofNat ((n - 17) % 256)]
  | .zero17 n => [.ofNat (0x70 + (n - 17) / 256), .ofNat ((n - 17) % 256)]
  | .at2 n => [.ofNat (0xD0 + (n - 2))]
  | .blank2 n => [.ofNat (0xE0 + (n - 2))]
  | .zero2 n => [.ofNat (0xF0 + (n - 2))]

/-- The bytes a command stands for. -/
def RleCmd.expand : RleCmd → List Byte
  | .copy64 bs | .copy1 bs | .copy17 bs | .copy33 bs | .copy49 bs => bs
  | .byte18 hi lo b => List.replicate (16 * hi + lo + 18) b
  | .byte3 b n => List.replicate n b
  | .at17 n | .at2 n => List.replicate n 0x40
  | .blank17 n | .blank2 n => List.replicate n 0x20
  | .zero17 n | .zero2 n => List.replicate n 0

/-- Encoding of a row given as a list of commands. -/
def rleEncode (cs : List RleCmd) : List Byte := cs.flatMap RleCmd.encode

/-- The row a list of commands stands for. -/
def rleExpand (cs : List RleCmd) : List Byte := cs.flatMap RleCmd.expand

/-- The tokens of the SASYZCR2 ("RDC", Ross data compression) compression. -/
inductive RdcTok
  /-- one literal byte -/
  | lit (b : Byte)
  /-- 3..18 times the byte `b` -/
  | shortRun (b : Byte) (n : Nat)
  /-- 19..4114 times the byte `b` -/
  | longRun (b : Byte) (n : Nat)
  /-- copy the 16..271 bytes that start 3..4098 bytes before the end of the output -/
  | longPattern (ofs n : Nat)
  /-- copy the 3..15 bytes that start 3..4098 bytes before the end of the output -/
  | shortPattern (ofs n : Nat)
deriving DecidableEq

/-- Parameters in range; a pattern does not overlap the place it is copied to. -/
def RdcTok.Valid : RdcTok → Prop
  | .lit _ => True
  | .shortRun _ n => 3 ≤ n ∧ n ≤ 18
  | .longRun _ n => 19 ≤ n ∧ n ≤ 4114
  | .longPattern ofs n => 3 ≤ ofs ∧ ofs ≤ 4098 ∧ 16 ≤ n ∧ n ≤ 271 ∧ n ≤ ofs
  | .shortPattern ofs n => 3 ≤ ofs ∧ ofs ≤ 4098 ∧ 3 ≤ n ∧ n ≤ 15 ∧ n ≤ ofs

instance : DecidablePred RdcTok.Valid := fun c => by
  cases c <;> simp only [RdcTok.Valid] <;> infer_instance

/-- Is the token announced by a control bit 1? -/
def RdcTok.compressed : RdcTok → Bool
  | .lit _ => false
  | _ => true

/-- Byte encoding of a token. -/
def RdcTok.encode : RdcTok → List Byte
  | .lit b => [b]
  | .shortRun b n => [.ofNat (n - 3), b]
  | .longRun b n => [.ofNat (0x10 + (n - 19) % 16), .ofNat ((n - 19) / 16), b]
  | .longPattern ofs n => [.ofNat (0x20 + (ofs - 3) % 16), .ofNat ((ofs - 3) / 16), .ofNat (n - 16)]
  | .shortPattern ofs n => [.ofNat (16 * n + (ofs - 3) % 16), .ofNat ((ofs - 3) / 16)]

/-- Number of bytes a token stands for. -/
def RdcTok.size : RdcTok → Nat
  | .lit _ => 1
  | .shortRun _ n | .longRun _ n | .longPattern _ n | .shortPattern _ n => n

/-- The output after a token, given the output before it; `none` when a pattern refers to bytes before
the beginning of the output. -/
def RdcTok.apply (out : List Byte) : RdcTok → Option (List Byte)
  | .lit b => some (out ++ [b])
  | .shortRun b n | .longRun b n => some (out ++ List.replicate n b)
  | .longPattern ofs n | .shortPattern ofs n =>
    if ofs ≤ out.length then some (out ++ (out.drop (out.length - ofs)).take n) else none

/-- The output of a list of tokens, starting from a given output. -/
def rdcApply : List Byte → List RdcTok → Option (List Byte)
  | out, [] => some out
  | out, t :: ts => (t.apply out).bind fun out' => rdcApply out' ts

/-- The bits of a control word, the first token having weight `w`, the next one `w/2`, ... -/
def ctrlBits : Nat → List RdcTok → Nat
  | _, [] => 0
  | w, t :: ts => (if t.compressed then w else 0) + ctrlBits (w / 2) ts

/-- Encoding of a group of at most 16 tokens: control word (high byte first), then the tokens. -/
def rdcEncodeGroup (g : List RdcTok) : List Byte :=
  [.ofNat (ctrlBits 0x8000 g / 256), .ofNat (ctrlBits 0x8000 g % 256)] ++ g.flatMap RdcTok.encode

/-- Encoding of a row: full groups of 16 tokens, then a last group of 1 to 16 tokens. -/
def rdcEncode (gs : List (List RdcTok)) (last : List RdcTok) : List Byte :=
  gs.flatMap rdcEncodeGroup ++ rdcEncodeGroup last

/-- The token sequence is well formed: groups of 16 tokens and a last group of 1 to 16. -/
def RdcWellFormed (gs : List (List RdcTok)) (last : List RdcTok) : Prop :=
  (∀ g ∈ gs, g.length = 16 ∧ ∀ t ∈ g, t.Valid) ∧
  (last ≠ [] ∧ last.length ≤ 16 ∧ ∀ t ∈ last, t.Valid)

/-! ## What the code executes of a compressed row (see C16, C17) -/

/-- Does the encoding of the command occupy a single byte? -/
def RleCmd.isShort (c : RleCmd) : Bool := c.encode.length == 1

/-- The commands of a row that the decompressor executes: all of them except a final one-byte one. -/
def rleKept (cs : List RleCmd) : List RleCmd :=
  match cs.getLast? with
  | some c => if RleCmd.isShort c then cs.dropLast else cs
  | none => cs

/-- Length of the encoding of a list of tokens (without control words). -/
def toksLen (ts : List RdcTok) : Nat := (ts.flatMap RdcTok.encode).length

/-- Remove the longest suffix of at most two bytes. -/
def rdcDropShort : List RdcTok → List RdcTok
  | [] => []
  | t :: ts => if toksLen (t :: ts) ≤ 2 then [] else t :: rdcDropShort ts

/-- The tokens of the last group that the decompressor executes. -/
def rdcKeptLast : List RdcTok → List RdcTok
  | [] => []
  | t :: ts => t :: rdcDropShort ts

end Sas.Spec
