import Verif.Proofs.Decode

/-!
# C101: decompression of arbitrary bytes

`Verif/Spec/Decode.lean` says what any byte string means as a compressed row of `n` bytes. `dst` is what earlier rows left in the row
buffer; its length is the row length.
-/

namespace Sas.Props
open Sas Spec Proofs

/-- C101 for RLE. Every byte string has a meaning; its row is what is produced, then zeros; a command that does not fit or does not
exist raises `cannot_decompress`; what cannot be carried out within the input is undefined behaviour. -/
theorem C101_rle (src dst : List Byte) :
    (∃ r, RleReads dst.length src [] r) ∧
    (∀ out, RleReads dst.length src [] (.row out) →
      (rle src dst).1 = .ok (out ++ List.replicate (dst.length - out.length) 0)) ∧
    (RleReads dst.length src [] .tooLong ∨ RleReads dst.length src [] .unknown →
      (rle src dst).1 = .error (.exn .cannotDecompress)) ∧
    ∀ r, r.Unsafe → RleReads dst.length src [] r → (rle src dst).1 = .error .ub := by
  have key : ∀ r, RleReads dst.length src [] r → LoopEnds dst.length (rleLoop src.length src ⟨dst, 0⟩) r :=
    fun r h => rle_reads h _ (Dst.has_init dst) (Nat.le_refl _)
  have fail : ∀ e, (rleLoop src.length src ⟨dst, 0⟩).1 = .error e → (rle src dst).1 = .error e := by
    intro e h
    unfold rle
    generalize rleLoop src.length src ⟨dst, 0⟩ = x at *
    obtain ⟨r, d⟩ := x
    simp only at h
    subst h
    rfl
  refine ⟨rle_total _ _ _ _ (Nat.le_refl _), fun out h => ?_, fun h => ?_, fun r hr h => ?_⟩
  · obtain ⟨d, h1, h2⟩ := key _ h
    exact rle_of_loop h1 h2
  · rcases h with h | h <;> exact fail _ (key _ h)
  · cases r with
    | row | tooLong | unknown => exact hr.elim
    | truncated => exact fail _ (key _ h)
    | overlap => exact fail _ (key _ h)
    | outside missing k =>
      -- RLE has no patterns
      exfalso
      clear key fail hr
      generalize ([] : List Byte) = o at h
      generalize hd : Decoded.outside missing k = r at h
      induction h with
      | stop | tooLong | unknown | truncated => cases hd
      | command _ _ _ _ _ _ ih => exact ih hd
      | cut => split at hd <;> cases hd

/-- C101 for RDC, in all builds. In a release build what cannot be carried out within the input and the row is undefined
behaviour; a debug build ends the program instead for some of the patterns that begin before the row. -/
theorem C101_rdc (cfg : Cfg) (src dst : List Byte) (h64 : dst.length < 2 ^ 64) :
    (∃ r, RdcReads dst.length [] src [] r) ∧
    (∀ out, RdcReads dst.length [] src [] (.row out) →
      (rdc cfg src dst).1 = .ok (out ++ List.replicate (dst.length - out.length) 0)) ∧
    (RdcReads dst.length [] src [] .tooLong ∨ RdcReads dst.length [] src [] .unknown →
      (rdc cfg src dst).1 = .error (.exn .cannotDecompress)) ∧
    ∀ r, r.Unsafe → RdcReads dst.length [] src [] r →
      (cfg.debug = false → (rdc cfg src dst).1 = .error .ub) ∧
      ((rdc cfg src dst).1 = .error .ub ∨
        ∃ missing k, r = .outside missing k ∧ k < missing ∧ (rdc cfg src dst).1 = .error .terminate) := by
  have key := fun r (h : RdcReads dst.length [] src [] r) =>
    rdc_reads cfg h64 h (c := ⟨0, 0⟩) src.length (.inl ⟨rfl, rfl⟩) (Dst.has_init dst) (Nat.le_refl _)
  have fail : ∀ e, (rdcLoop cfg src.length ⟨0, 0⟩ src ⟨dst, 0⟩).1 = .error e → (rdc cfg src dst).1 = .error e := by
    intro e h
    unfold rdc
    generalize rdcLoop cfg src.length ⟨0, 0⟩ src ⟨dst, 0⟩ = x at *
    obtain ⟨r, d⟩ := x
    simp only at h
    subst h
    rfl
  refine ⟨rdc_total _ _ _ _ _ (Nat.le_refl _), fun out h => ?_, fun h => ?_, fun r hr h => ⟨fun hg => ?_, ?_⟩⟩
  · obtain ⟨⟨d, h1, h2⟩, -⟩ := key _ h
    exact rdc_of_loop h1 h2
  · rcases h with h | h <;> exact fail _ (key _ h).1
  · exact fail _ ((key _ h).2 hg hr)
  · have h1 := (key _ h).1
    cases r with
    | row | tooLong | unknown => exact hr.elim
    | truncated => exact .inl (fail _ h1)
    | overlap => exact .inl (fail _ h1)
    | outside missing k =>
      rcases h1 with h1 | ⟨h1, h2⟩
      · exact .inl (fail _ h1)
      · exact .inr ⟨missing, k, rfl, h2, fail _ h1⟩

/-- C101, the strings that are decompressed safely (C19): exactly those whose meaning is not one of the three that leave the input
or the row. -/
theorem C101_safe (cfg : Cfg) (src dst : List Byte) (h64 : dst.length < 2 ^ 64) :
    (Benign (rle src dst).1 ↔ ∀ r, RleReads dst.length src [] r → ¬ r.Unsafe) ∧
    (Benign (rdc cfg src dst).1 ↔ ∀ r, RdcReads dst.length [] src [] r → ¬ r.Unsafe) := by
  constructor
  · obtain ⟨⟨r, hr⟩, h1, h2, h3⟩ := C101_rle src dst
    refine ⟨fun hb r hr hu => ?_, fun h => ?_⟩
    · rw [h3 r hu hr] at hb
      exact hb
    · have hs := h r hr
      cases r with
      | row out => rw [h1 out hr]; trivial
      | tooLong => rw [h2 (.inl hr)]; trivial
      | unknown => rw [h2 (.inr hr)]; trivial
      | truncated | overlap | outside => exact absurd trivial hs
  · obtain ⟨⟨r, hr⟩, h1, h2, h3⟩ := C101_rdc cfg src dst h64
    refine ⟨fun hb r hr hu => ?_, fun h => ?_⟩
    · rcases (h3 r hu hr).2 with h | ⟨_, _, -, -, h⟩
      · rw [h] at hb; exact hb
      · rw [h] at hb; exact hb
    · have hs := h r hr
      cases r with
      | row out => rw [h1 out hr]; trivial
      | tooLong => rw [h2 (.inl hr)]; trivial
      | unknown => rw [h2 (.inr hr)]; trivial
      | truncated | overlap | outside => exact absurd trivial hs

/-- Bytes no writer produces: an RLE row whose copy is cut short. -/
example : RleReads 4 [0x40, 0x00, 0x61, 0x85, 0x62] [] .tooLong ∧ RleReads 20 [0x40, 0x00, 0x61, 0x85, 0x62] []
    (.row (List.replicate 18 0x61 ++ [0x62])) ∧ RleReads 40 [0x40, 0x00] [] .truncated ∧
    RleReads 40 [0xC0, 0x61, 0x20, 0x00] [] .unknown := by
  have a : ([0x40, 0x00, 0x61, 0x85, 0x62] : List Byte) = (RleCmd.byte18 0 0 0x61).encode ++ [0x85, 0x62] := by decide
  have b : ([0xC0, 0x61, 0x20, 0x00] : List Byte) = (RleCmd.byte3 0x61 3).encode ++ [0x20, 0x00] := by decide
  refine ⟨?_, ?_, .truncated 0x40 0x00 (by decide) (by decide), ?_⟩
  · rw [a]; exact .tooLong _ (by decide) (by decide) (by decide) (by decide)
  · rw [a]
    refine .command _ (by decide) (by decide) (by decide) (by decide) ?_
    exact .cut (head := [0x85]) (part := [0x62]) (missing := [0, 0, 0, 0, 0]) (.copy1 [0x62, 0, 0, 0, 0, 0]) (by decide)
      rfl (by decide) (by decide) (by decide) (by decide) (by decide)
  · rw [b]
    exact .command _ (by decide) (by decide) (by decide) (by decide) (.unknown 0x20 (by decide) (by decide) (by decide))

/-- The three ways in which RDC leaves the input or the row (`C19_rdc_refuted`), and a literal that does not fit after it. -/
example : RdcReads 40 [] [0x80, 0x00, 0x01] [] .truncated ∧ RdcReads 40 [] [0x80, 0x00, 0x31, 0x00] [] (.outside 4 3) ∧
    RdcReads 40 [] [0x10, 0x00, 0x61, 0x62, 0x63, 0x40, 0x00, 0x00] [] .overlap := by
  have w1 : wordBits 0x80 0x00 = true :: List.replicate 15 false := by decide +kernel
  have w2 : wordBits 0x10 0x00 = false :: false :: false :: true :: List.replicate 12 false := by decide +kernel
  have l : ∀ b : Byte, (RdcTok.lit b).Valid := fun _ => trivial
  refine ⟨?_, ?_, ?_⟩
  · refine .truncated (src' := [0x01]) true (by decide) (by decide) (.word 0x80 0x00 w1) ?_
    intro t rest ht hc h
    cases t with
    | lit => cases hc
    | shortRun | longRun | longPattern | shortPattern => simp [RdcTok.encode] at h
  · exact .outside (rest := []) (.shortPattern 4 3) 4 ⟨by decide, by decide, by decide, by decide⟩ (by decide) (by decide)
      (.word 0x80 0x00 w1) (by decide) rfl (by decide)
  · refine .token (rest := [0x62, 0x63, 0x40, 0x00, 0x00]) (.lit 0x61) (l _) (by decide) (by decide) (.word 0x10 0x00 w2)
      (by decide) rfl ?_
    refine .token (rest := [0x63, 0x40, 0x00, 0x00]) (.lit 0x62) (l _) (by decide) (by decide) (.left _) (by decide) rfl ?_
    refine .token (rest := [0x40, 0x00, 0x00]) (.lit 0x63) (l _) (by decide) (by decide) (.left _) (by decide) rfl ?_
    exact .overlap (rest := [0x00]) (.shortPattern 3 4) 3 ⟨by decide, by decide, by decide, by decide⟩ (by decide) (by decide)
      (.left _) (by decide) rfl (by decide) (by decide)

end Sas.Props
