import Verif.Proofs.RdcSafe

/-!
# C16 - C19: the decompressors

The compressed form of a row is described independently of the decompressor in
`Verif/Spec/Compression.lean`: commands (tokens) with their byte encoding and the bytes they stand for.
`dst` is the content of the decompressor's row buffer, i.e. what earlier rows left behind; its length is
the row length.
-/

namespace Sas.Props

open Sas Sas.Spec

/-! ## C16 RLE -/

/-- C16, exact behaviour: the decompressor executes all commands except a final command of one byte and
fills the rest of the row with zeros. This holds for every command sequence that fits the row. -/
theorem C16_rle_behaviour (cs : List RleCmd) (hv : ∀ c ∈ cs, c.Valid) (dst : List Byte)
    (hfit : (rleExpand cs).length ≤ dst.length) :
    (rle (rleEncode cs) dst).1 =
      .ok (rleExpand (rleKept cs) ++ List.replicate (dst.length - (rleExpand (rleKept cs)).length) 0) :=
  rle_exact cs hv dst hfit

/-- C16 with the missing part: the round trip holds for every row and every valid command sequence that
encodes it and does not end with a one-byte "insert `@`" or "insert blank" command. Missing: command
sequences ending with such a command, for which the round trip fails (`C16_refuted`). -/
theorem C16_rle_roundtrip_partial (cs : List RleCmd) (hv : ∀ c ∈ cs, c.Valid) (dst : List Byte)
    (hfit : (rleExpand cs).length = dst.length)
    (hlast : ∀ n, cs.getLast? ≠ some (.at2 n) ∧ cs.getLast? ≠ some (.blank2 n)) :
    (rle (rleEncode cs) dst).1 = .ok (rleExpand cs) := by
  rw [rle_exact cs hv dst (by omega)]
  congr 1
  unfold rleKept
  cases hl : cs.getLast? with
  | none => simp only; rw [hfit]; simp
  | some c =>
    obtain ⟨l, rfl⟩ := List.getLast?_eq_some_iff.1 hl
    by_cases hs : RleCmd.isShort c
    · have hc : ∃ n, c = .zero2 n := by
        cases c <;> simp [RleCmd.isShort, RleCmd.encode] at hs
        case copy1 bs =>
          subst hs
          have := hv (.copy1 []) (by simp)
          simp [RleCmd.Valid] at this
        case copy17 bs =>
          subst hs
          have := hv (.copy17 []) (by simp)
          simp [RleCmd.Valid] at this
        case copy33 bs =>
          subst hs
          have := hv (.copy33 []) (by simp)
          simp [RleCmd.Valid] at this
        case copy49 bs =>
          subst hs
          have := hv (.copy49 []) (by simp)
          simp [RleCmd.Valid] at this
        case at2 n => exact absurd hl (hlast n).1
        case blank2 n => exact absurd hl (hlast n).2
        case zero2 n => exact ⟨n, rfl⟩
      obtain ⟨n, rfl⟩ := hc
      simp only [hs, if_true, List.dropLast_concat]
      rw [rleExpand_append] at hfit ⊢
      have e : rleExpand [.zero2 n] = List.replicate n 0 := by simp [rleExpand, RleCmd.expand]
      rw [e] at hfit ⊢
      simp only [List.length_append, List.length_replicate] at hfit
      congr 2
      omega
    · simp only [hs, Bool.false_eq_true, if_false]
      rw [hfit]; simp

/-- Non-trivial instance: 70 copied bytes, 5 times `x`, 300 blanks. -/
example : let cs := [RleCmd.copy64 (List.replicate 70 0x61), .byte3 0x78 5, .blank17 300]
    (∀ c ∈ cs, c.Valid) ∧ (rleExpand cs).length = (List.replicate 375 (0xEE : Byte)).length ∧
    (∀ n, cs.getLast? ≠ some (.at2 n) ∧ cs.getLast? ≠ some (.blank2 n)) := by
  refine ⟨by decide, by decide +kernel, by simp⟩

/-- C16 is false of the code: a row `abc` followed by two blanks, encoded as "copy 3 bytes, insert 2
blanks", comes back with two NUL bytes instead of the blanks. -/
theorem C16_refuted : ¬ ∀ (cs : List RleCmd), (∀ c ∈ cs, c.Valid) → ∀ dst : List Byte,
    (rleExpand cs).length = dst.length → (rle (rleEncode cs) dst).1 = .ok (rleExpand cs) := by
  intro h
  have := h [.copy1 (ascii "abc"), .blank2 2] (by decide) [0, 0, 0, 0, 0] (by decide)
  revert this
  decide

/-! ## C17 RDC -/

/-- C17, exact behaviour: in the last group, the longest final part of the tokens after the first one that
occupies at most two bytes is not executed; the rest of the row is filled with zeros. -/
theorem C17_rdc_behaviour (cfg : Cfg) (gs : List (List RdcTok)) (last : List RdcTok)
    (hwf : RdcWellFormed gs last) (dst out : List Byte)
    (ho : rdcApply [] (gs.flatten ++ last) = some out) (hfit : out.length ≤ dst.length)
    (h64 : dst.length < 2 ^ 64) :
    ∃ kept, rdcApply [] (gs.flatten ++ rdcKeptLast last) = some kept ∧
      (rdc cfg (rdcEncode gs last) dst).1 =
        .ok (kept ++ List.replicate (dst.length - kept.length) 0) :=
  rdc_exact cfg gs last hwf.1 hwf.2 dst out ho hfit h64

/-- C17 with the missing part: the round trip holds for every row and every well-formed token sequence
that encodes it and whose last token is the only one of its group or occupies three bytes. Missing:
sequences ending with a literal or a two-byte token further inside a group, which are lost
(`C17_refuted`). -/
theorem C17_rdc_roundtrip_partial (cfg : Cfg) (gs : List (List RdcTok)) (last : List RdcTok)
    (hwf : RdcWellFormed gs last) (dst out : List Byte)
    (ho : rdcApply [] (gs.flatten ++ last) = some out) (hfit : out.length = dst.length)
    (h64 : dst.length < 2 ^ 64)
    (hlast : last.length = 1 ∨ ∀ t, last.getLast? = some t → t.encode.length = 3) :
    (rdc cfg (rdcEncode gs last) dst).1 = .ok out := by
  obtain ⟨kept, h1, h2⟩ := rdc_exact cfg gs last hwf.1 hwf.2 dst out ho (by omega) h64
  have hk : rdcKeptLast last = last := by
    cases last with
    | nil => exact absurd rfl hwf.2.1
    | cons t ts =>
      have : rdcDropShort ts = ts := by
        apply rdcDropShort_id
        intro u hu
        rcases hlast with h | h
        · simp at h; subst h; simp at hu
        · have := h u (by
            cases ts with
            | nil => simp at hu
            | cons => simpa using hu)
          omega
      simp [rdcKeptLast, this]
  rw [hk, ho] at h1
  cases h1
  rw [h2, hfit]; simp

/-- Non-trivial instance: 18 tokens in two groups, with runs and a back reference, ending with a
three-byte back reference. -/
example : ∃ gs last out, RdcWellFormed gs last ∧ gs ≠ [] ∧
    rdcApply [] (gs.flatten ++ last) = some out ∧ out.length = 61 ∧
    (∀ t, last.getLast? = some t → t.encode.length = 3) :=
  ⟨[List.replicate 13 (.lit 0x61) ++ [.shortRun 0x20 5, .longRun 0 20, .shortPattern 10 4]],
    [.lit 1, .lit 2, .lit 3, .longPattern 20 16],
    List.replicate 13 0x61 ++ List.replicate 5 0x20 ++ List.replicate 20 0 ++ List.replicate 4 0 ++
      [1, 2, 3] ++ List.replicate 16 0 ++ [],
    by unfold RdcWellFormed; decide, by simp, by decide, by decide, by
      intro t ht; simp at ht; subst ht; rfl⟩

/-- C17 is false of the code: the row `abc` as three literals comes back as `a` and two NUL bytes. -/
theorem C17_refuted : ¬ ∀ (cfg : Cfg) (gs : List (List RdcTok)) (last : List RdcTok),
    RdcWellFormed gs last → ∀ dst out : List Byte, rdcApply [] (gs.flatten ++ last) = some out →
    out.length = dst.length → (rdc cfg (rdcEncode gs last) dst).1 = .ok out := by
  intro h
  have := h ⟨false, false, 0, 0, fun _ => 0⟩ [] [.lit 0x61, .lit 0x62, .lit 0x63]
    (by unfold RdcWellFormed; decide) [0, 0, 0] [0x61, 0x62, 0x63] (by decide) (by decide)
  revert this
  decide

/-! ## C18 the result is one row and depends on the compressed bytes only -/

/-- C18 for RLE: for every byte string and every buffer content, a successful result has the length of
the row; the buffer keeps its length; the outcome is the same whatever the buffer contained. Failures
are the exception, or the access characterised by C19. -/
theorem C18_rle (src dst dst' : List Byte) (hl : dst.length = dst'.length) :
    (∀ row, (rle src dst).1 = .ok row → row.length = dst.length) ∧
    (rle src dst).2.length = dst.length ∧
    (rle src dst).1 = (rle src dst').1 ∧
    (∀ e, (rle src dst).1 = .error e → e = .exn .cannotDecompress ∨ e = .ub) := by
  obtain ⟨h1, h2, h3⟩ := rle_sim src hl
  refine ⟨h2, h3, h1, fun e he => ?_⟩
  rcases rle_err src dst e he with h | h
  · exact Or.inl h
  · exact Or.inr h.1

/-- C18 for RDC. In builds with `DEBUG` bounds checks a back reference before the row terminates the
program instead of being undefined. -/
theorem C18_rdc (cfg : Cfg) (src dst dst' : List Byte) (hl : dst.length = dst'.length) :
    (∀ row, (rdc cfg src dst).1 = .ok row → row.length = dst.length) ∧
    (rdc cfg src dst).2.length = dst.length ∧
    (rdc cfg src dst).1 = (rdc cfg src dst').1 ∧
    (∀ e, (rdc cfg src dst).1 = .error e →
      e = .exn .cannotDecompress ∨ e = .ub ∨ (e = .terminate ∧ cfg.debug = true)) := by
  obtain ⟨h1, h2, h3⟩ := rdc_sim cfg src hl
  exact ⟨h2, h3, h1, fun e he => rdc_err cfg src dst e he⟩

example : [1, 2, 3].length = [(0 : Byte), 0, 0].length ∧
    (rle [0x82, 7, 8, 9] [1, 2, 3]).1 = .ok [7, 8, 9] ∧
    (rle [0x83, 7, 8, 9, 10] [1, 2, 3]).1 = .error (.exn .cannotDecompress) := by decide

/-! ## C19 memory safety of the decompressors -/

/-- C19 for RLE, with the missing part: every byte string is decompressed without leaving the input or
the row, unless its last two bytes are a truncated "insert byte" command `4x yy`. Missing: exactly those
strings (`C19_rle_refuted`). -/
theorem C19_rle_safe_partial (src dst : List Byte)
    (hend : ∀ hi lo : Byte, [hi, lo] <:+ src → hi.toNat / 16 ≠ 4) : Benign (rle src dst).1 := by
  cases h : (rle src dst).1 with
  | ok r => trivial
  | error e =>
    rcases rle_err src dst e h with h' | ⟨-, hi, lo, h1, h2⟩
    · subst h'; trivial
    · exact absurd h2 (hend hi lo h1)

example : ∀ hi lo : Byte, [hi, lo] <:+ [0x82, 7, 8, 9] → hi.toNat / 16 ≠ 4 := by
  intro hi lo h
  have h2 := List.suffix_iff_eq_drop.1 h
  simp at h2
  obtain ⟨rfl, rfl⟩ := h2
  decide

/-- C19 is false of the RLE code: `41 00` reads a byte after its end. -/
theorem C19_rle_refuted : ¬ ∀ src dst : List Byte, Benign (rle src dst).1 := by
  intro h
  have h' := h [0x41, 0x00] (List.replicate 40 0)
  have e : (rle [0x41, 0x00] (List.replicate 40 0)).1 = .error .ub := by decide
  rw [e] at h'
  exact h'

/-- C19 for RDC, with the missing part: the encoding of every well-formed token sequence whose output fits
the row is decompressed without leaving the input or the produced bytes. Missing: arbitrary byte strings
(`C19_rdc_refuted`, three different ways to fail). -/
theorem C19_rdc_safe_partial (cfg : Cfg) (gs : List (List RdcTok)) (last : List RdcTok)
    (hwf : RdcWellFormed gs last) (dst out : List Byte)
    (ho : rdcApply [] (gs.flatten ++ last) = some out) (hfit : out.length ≤ dst.length)
    (h64 : dst.length < 2 ^ 64) : Benign (rdc cfg (rdcEncode gs last) dst).1 := by
  obtain ⟨kept, -, h⟩ := rdc_exact cfg gs last hwf.1 hwf.2 dst out ho hfit h64
  rw [h]; trivial

example : RdcWellFormed [] [.lit 0x61, .longRun 0x62 30] ∧
    rdcApply [] ([].flatten ++ [.lit 0x61, .longRun 0x62 30]) = some (0x61 :: List.replicate 30 0x62) := by
  unfold RdcWellFormed; decide

/-- C19 is false of the RDC code: (1) a compressed token after the control word in a 3-byte row reads
past the input, (2) a back reference reaches before the row, (3) a back reference overlaps its copy. -/
theorem C19_rdc_refuted (cfg : Cfg) (hrelease : cfg.debug = false) :
    (rdc cfg [0x80, 0x00, 0x01] (List.replicate 40 0)).1 = .error .ub ∧
    (rdc cfg [0x80, 0x00, 0x31, 0x00] (List.replicate 40 0)).1 = .error .ub ∧
    (rdc cfg [0x10, 0x00, 0x61, 0x62, 0x63, 0x40, 0x00, 0x00] (List.replicate 40 0)).1 = .error .ub := by
  obtain ⟨debug, asserts, maxAlloc, maxCols, junk⟩ := cfg
  simp only at hrelease
  subst hrelease
  exact ⟨rfl, rfl, rfl⟩

end Sas.Props
