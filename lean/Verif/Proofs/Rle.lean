import Verif.Proofs.Lists
import Verif.Spec.Compression

/-! The RLE decompressor against the specification of the writer. -/

namespace Sas

open Spec

theorem toNat_ofNat_lt {k : Nat} (h : k < 256) : (UInt8.ofNat k).toNat = k := by
  simp [UInt8.toNat_ofNat']; omega

theorem rleStoreValues_spec {d : Dst} {n : Nat} {out : List Byte} (h : d.Has n out)
    (bs rest : List Byte) (hk : out.length + bs.length ≤ n) :
    ∃ d', rleStoreValues (bs ++ rest) d bs.length = .ok (rest, d') ∧ d'.Has n (out ++ bs) := by
  obtain ⟨d', hd, hh⟩ := h.storeBytes bs hk
  refine ⟨d', ?_, hh⟩
  simp [rleStoreValues, hd, bind, Except.bind, pure, Except.pure]

theorem rleStep_spec (c : RleCmd) (hv : c.Valid) {d : Dst} {n : Nat} {out : List Byte}
    (h : d.Has n out) (rest : List Byte) (hk : out.length + c.expand.length ≤ n) :
    ∃ d', rleStep (c.encode ++ rest) d = .ok (rest, d') ∧ d'.Has n (out ++ c.expand) := by
  cases c with
  | copy64 bs =>
    simp only [RleCmd.Valid, RleCmd.expand] at hv hk
    obtain ⟨d', hd, hh⟩ := rleStoreValues_spec h bs rest hk
    refine ⟨d', ?_, hh⟩
    have e1 := toNat_ofNat_lt (k := (bs.length - 64) / 256) (by omega)
    have e2 := toNat_ofNat_lt (k := (bs.length - 64) % 256) (by omega)
    simp only [rleStep, RleCmd.encode, List.cons_append, List.nil_append, pop, bind, Except.bind, e1, e2]
    rw [if_pos (by omega), ← hd]
    congr 1; omega
  | copy1 bs =>
    simp only [RleCmd.Valid, RleCmd.expand] at hv hk
    obtain ⟨d', hd, hh⟩ := rleStoreValues_spec h bs rest hk
    refine ⟨d', ?_, hh⟩
    have e1 := toNat_ofNat_lt (k := 0x80 + (bs.length - 1)) (by omega)
    simp only [rleStep, RleCmd.encode, List.cons_append, pop, bind, Except.bind, e1]
    iterate 5 rw [if_neg (by omega)]
    rw [if_pos (by omega), ← hd]
    congr 1; omega
  | copy17 bs =>
    simp only [RleCmd.Valid, RleCmd.expand] at hv hk
    obtain ⟨d', hd, hh⟩ := rleStoreValues_spec h bs rest hk
    refine ⟨d', ?_, hh⟩
    have e1 := toNat_ofNat_lt (k := 0x90 + (bs.length - 17)) (by omega)
    simp only [rleStep, RleCmd.encode, List.cons_append, pop, bind, Except.bind, e1]
    iterate 6 rw [if_neg (by omega)]
    rw [if_pos (by omega), ← hd]
    congr 1; omega
  | copy33 bs =>
    simp only [RleCmd.Valid, RleCmd.expand] at hv hk
    obtain ⟨d', hd, hh⟩ := rleStoreValues_spec h bs rest hk
    refine ⟨d', ?_, hh⟩
    have e1 := toNat_ofNat_lt (k := 0xA0 + (bs.length - 33)) (by omega)
    simp only [rleStep, RleCmd.encode, List.cons_append, pop, bind, Except.bind, e1]
    iterate 7 rw [if_neg (by omega)]
    rw [if_pos (by omega), ← hd]
    congr 1; omega
  | copy49 bs =>
    simp only [RleCmd.Valid, RleCmd.expand] at hv hk
    obtain ⟨d', hd, hh⟩ := rleStoreValues_spec h bs rest hk
    refine ⟨d', ?_, hh⟩
    have e1 := toNat_ofNat_lt (k := 0xB0 + (bs.length - 49)) (by omega)
    simp only [rleStep, RleCmd.encode, List.cons_append, pop, bind, Except.bind, e1]
    iterate 8 rw [if_neg (by omega)]
    rw [if_pos (by omega), ← hd]
    congr 1; omega
  | byte18 hi lo b =>
    simp only [RleCmd.Valid, RleCmd.expand, List.length_replicate] at hv hk
    obtain ⟨d', hd, hh⟩ := h.storeValue b (16 * hi + lo + 18) hk
    refine ⟨d', ?_, hh⟩
    have e1 := toNat_ofNat_lt (k := 0x40 + hi) (by omega)
    have e2 := toNat_ofNat_lt (k := lo) (by omega)
    have e3 : (0x40 + hi) % 16 * 16 + lo + 18 = 16 * hi + lo + 18 := by omega
    simp only [rleStep, RleCmd.encode, List.cons_append, List.nil_append, pop, bind, Except.bind, e1, e2]
    rw [if_neg (by omega), if_pos (by omega), e3, hd]; rfl
  | byte3 b m =>
    simp only [RleCmd.Valid, RleCmd.expand, List.length_replicate] at hv hk
    obtain ⟨d', hd, hh⟩ := h.storeValue b m hk
    refine ⟨d', ?_, hh⟩
    have e1 := toNat_ofNat_lt (k := 0xC0 + (m - 3)) (by omega)
    have e3 : (0xC0 + (m - 3)) % 16 + 3 = m := by omega
    simp only [rleStep, RleCmd.encode, List.cons_append, List.nil_append, pop, bind, Except.bind, e1]
    iterate 9 rw [if_neg (by omega)]
    rw [if_pos (by omega), e3, hd]; rfl
  | at17 m =>
    simp only [RleCmd.Valid, RleCmd.expand, List.length_replicate] at hv hk
    obtain ⟨d', hd, hh⟩ := h.storeValue 0x40 m hk
    refine ⟨d', ?_, hh⟩
    have e1 := toNat_ofNat_lt (k := 0x50 + (m - 17) / 256) (by omega)
    have e2 := toNat_ofNat_lt (k := (m - 17) % 256) (by omega)
    have e3 : (0x50 + (m - 17) / 256) % 16 * 256 + (m - 17) % 256 + 17 = m := by omega
    simp only [rleStep, RleCmd.encode, List.cons_append, List.nil_append, pop, bind, Except.bind, e1, e2]
    iterate 2 rw [if_neg (by omega)]
    rw [if_pos (by omega), e3, hd]; rfl
  | blank17 m =>
    simp only [RleCmd.Valid, RleCmd.expand, List.length_replicate] at hv hk
    obtain ⟨d', hd, hh⟩ := h.storeValue 0x20 m hk
    refine ⟨d', ?_, hh⟩
    have e1 := toNat_ofNat_lt (k := 0x60 + (m - 17) / 256) (by omega)
    have e2 := toNat_ofNat_lt (k := (m - 17) % 256) (by omega)
    have e3 : (0x60 + (m - 17) / 256) % 16 * 256 + (m - 17) % 256 + 17 = m := by omega
    simp only [rleStep, RleCmd.encode, List.cons_append, List.nil_append, pop, bind, Except.bind, e1, e2]
    iterate 3 rw [if_neg (by omega)]
    rw [if_pos (by omega), e3, hd]; rfl
  | zero17 m =>
    simp only [RleCmd.Valid, RleCmd.expand, List.length_replicate] at hv hk
    obtain ⟨d', hd, hh⟩ := h.storeValue 0 m hk
    refine ⟨d', ?_, hh⟩
    have e1 := toNat_ofNat_lt (k := 0x70 + (m - 17) / 256) (by omega)
    have e2 := toNat_ofNat_lt (k := (m - 17) % 256) (by omega)
    have e3 : (0x70 + (m - 17) / 256) % 16 * 256 + (m - 17) % 256 + 17 = m := by omega
    simp only [rleStep, RleCmd.encode, List.cons_append, List.nil_append, pop, bind, Except.bind, e1, e2]
    iterate 4 rw [if_neg (by omega)]
    rw [if_pos (by omega), e3, hd]; rfl
  | at2 m =>
    simp only [RleCmd.Valid, RleCmd.expand, List.length_replicate] at hv hk
    obtain ⟨d', hd, hh⟩ := h.storeValue 0x40 m hk
    refine ⟨d', ?_, hh⟩
    have e1 := toNat_ofNat_lt (k := 0xD0 + (m - 2)) (by omega)
    have e3 : (0xD0 + (m - 2)) % 16 + 2 = m := by omega
    simp only [rleStep, RleCmd.encode, List.cons_append, List.nil_append, pop, bind, Except.bind, e1]
    iterate 10 rw [if_neg (by omega)]
    rw [if_pos (by omega), e3, hd]; rfl
  | blank2 m =>
    simp only [RleCmd.Valid, RleCmd.expand, List.length_replicate] at hv hk
    obtain ⟨d', hd, hh⟩ := h.storeValue 0x20 m hk
    refine ⟨d', ?_, hh⟩
    have e1 := toNat_ofNat_lt (k := 0xE0 + (m - 2)) (by omega)
    have e3 : (0xE0 + (m - 2)) % 16 + 2 = m := by omega
    simp only [rleStep, RleCmd.encode, List.cons_append, List.nil_append, pop, bind, Except.bind, e1]
    iterate 11 rw [if_neg (by omega)]
    rw [if_pos (by omega), e3, hd]; rfl
  | zero2 m =>
    simp only [RleCmd.Valid, RleCmd.expand, List.length_replicate] at hv hk
    obtain ⟨d', hd, hh⟩ := h.storeValue 0 m hk
    refine ⟨d', ?_, hh⟩
    have e1 := toNat_ofNat_lt (k := 0xF0 + (m - 2)) (by omega)
    have e3 : (0xF0 + (m - 2)) % 16 + 2 = m := by omega
    simp only [rleStep, RleCmd.encode, List.cons_append, List.nil_append, pop, bind, Except.bind, e1]
    iterate 12 rw [if_neg (by omega)]
    rw [if_pos (by omega), e3, hd]; rfl

theorem RleCmd.encode_pos (c : RleCmd) : 1 ≤ c.encode.length := by
  cases c <;> simp [RleCmd.encode]

theorem RleCmd.expand_pos (c : RleCmd) (hv : c.Valid) : 1 ≤ c.expand.length := by
  cases c <;> simp [RleCmd.expand, RleCmd.Valid] at * <;> omega

theorem rleLoop_succ (n : Nat) (src : List Byte) (d : Dst) : rleLoop (n + 1) src d =
    if 2 ≤ src.length ∧ d.i < d.mem.length then
      match rleStep src d with
      | .ok (src', d') => rleLoop n src' d'
      | .error e => (.error e, d)
    else (.ok (), d) := rfl

/-- Running the loop over encoded commands that are followed by `rest`, as long as every command finds
two bytes. -/
theorem rleLoop_spec (cs : List RleCmd) (hv : ∀ c ∈ cs, c.Valid) (rest : List Byte) :
    ∀ {d : Dst} {n : Nat} {out : List Byte} (fuel : Nat), d.Has n out →
    (∀ pre c post, cs = pre ++ c :: post → 2 ≤ (c.encode ++ rleEncode post ++ rest).length) →
    out.length + (rleExpand cs).length ≤ n →
    (rleEncode cs ++ rest).length ≤ fuel →
    ∃ d' fuel', rest.length ≤ fuel' ∧ d'.Has n (out ++ rleExpand cs) ∧
      rleLoop fuel (rleEncode cs ++ rest) d = rleLoop fuel' rest d' := by
  induction cs with
  | nil =>
    intro d n out fuel h _ _ hf
    exact ⟨d, fuel, by simpa [rleEncode] using hf, by simpa [rleExpand] using h, by simp [rleEncode]⟩
  | cons c cs ih =>
    intro d n out fuel h h2 hn hf
    have hc := hv c (by simp)
    have hex : rleExpand (c :: cs) = c.expand ++ rleExpand cs := by simp [rleExpand]
    have hen : rleEncode (c :: cs) = c.encode ++ rleEncode cs := by simp [rleEncode]
    rw [hex] at hn ⊢; rw [hen] at hf ⊢
    simp only [List.length_append] at hn hf
    have hp := RleCmd.encode_pos c
    have hxp := RleCmd.expand_pos c hc
    obtain ⟨d1, hs, hh⟩ := rleStep_spec c hc h (rleEncode cs ++ rest) (by omega)
    have h2' := h2 [] c cs rfl
    simp only [List.length_append] at h2'
    obtain ⟨fuel, rfl⟩ : ∃ k, fuel = k + 1 := ⟨fuel - 1, by omega⟩
    obtain ⟨d2, f2, hf2, hh2, he⟩ := ih (fun c hc => hv c (by simp [hc])) fuel hh
      (fun pre c' post hcs => h2 (c :: pre) c' post (by simp [hcs]))
      (by simp only [List.length_append]; omega) (by simp only [List.length_append]; omega)
    refine ⟨d2, f2, hf2, by simpa using hh2, ?_⟩
    rw [← he]
    have hl := h.len; have hi := h.idx
    show rleLoop (fuel + 1) (c.encode ++ rleEncode cs ++ rest) d = _
    rw [rleLoop_succ, if_pos (by simp only [List.length_append]; omega), List.append_assoc, hs]

theorem rleLoop_done {fuel : Nat} {src : List Byte} {d : Dst} (h : src.length < 2) :
    rleLoop fuel src d = (.ok (), d) := by
  cases fuel with
  | zero => unfold rleLoop; rw [if_neg (by omega)]
  | succ n => rw [rleLoop_succ, if_neg (by omega)]

theorem rle_of_loop {src dst out : List Byte} {d' : Dst}
    (he : rleLoop src.length src ⟨dst, 0⟩ = (.ok (), d')) (h : d'.Has dst.length out) :
    (rle src dst).1 = .ok (out ++ List.replicate (dst.length - out.length) 0) := by
  obtain ⟨d2, hf, hm⟩ := h.fill
  simp [rle, he, hf, hm]

theorem rleExpand_append (a b : List RleCmd) : rleExpand (a ++ b) = rleExpand a ++ rleExpand b := by
  simp [rleExpand]

theorem rleEncode_append (a b : List RleCmd) : rleEncode (a ++ b) = rleEncode a ++ rleEncode b := by
  simp [rleEncode]

theorem rle_exact (cs : List RleCmd) (hv : ∀ c ∈ cs, c.Valid) (dst : List Byte)
    (hn : (rleExpand cs).length ≤ dst.length) :
    (rle (rleEncode cs) dst).1 =
      .ok (rleExpand (rleKept cs) ++ List.replicate (dst.length - (rleExpand (rleKept cs)).length) 0) := by
  rcases List.eq_nil_or_concat cs with rfl | ⟨init, c, rfl⟩
  · exact rle_of_loop (rleLoop_done (by simp [rleEncode])) (Dst.has_init dst)
  · rw [List.concat_eq_append] at *
    have hk : rleKept (init ++ [c]) = if RleCmd.isShort c then init else init ++ [c] := by
      simp [rleKept]
    rw [hk]
    by_cases hs : RleCmd.isShort c
    · rw [if_pos hs]
      simp only [RleCmd.isShort, beq_iff_eq] at hs
      have hc : rleEncode [c] = c.encode := by simp [rleEncode]
      rw [rleExpand_append] at hn
      simp only [List.length_append] at hn
      obtain ⟨d', f', _, hh, he⟩ := rleLoop_spec init (fun c hc => hv c (by simp [hc])) c.encode
        (rleEncode (init ++ [c])).length (Dst.has_init dst)
        (by
          intro pre c' post _
          have := RleCmd.encode_pos c'
          simp only [List.length_append]; omega)
        (by simp; omega) (by rw [rleEncode_append, hc]; exact Nat.le_refl _)
      refine rle_of_loop (d' := d') ?_ (by simpa using hh)
      rw [rleLoop_done (src := c.encode) (by omega)] at he
      rw [← he, rleEncode_append, hc]
    · rw [if_neg hs]
      simp only [RleCmd.isShort, beq_iff_eq] at hs
      have hpc := RleCmd.encode_pos c
      obtain ⟨d', f', _, hh, he⟩ := rleLoop_spec (init ++ [c]) hv []
        (rleEncode (init ++ [c])).length (Dst.has_init dst)
        (by
          intro pre c' post h
          simp only [List.length_append]
          rcases List.eq_nil_or_concat post with rfl | ⟨post', c'', rfl⟩
          · have : c' = c := by
              have := congrArg List.getLast? h
              simpa using this.symm
            subst this; omega
          · have hp := RleCmd.encode_pos c'
            have hq := RleCmd.encode_pos c''
            rw [List.concat_eq_append, rleEncode_append]
            simp [rleEncode] at *; omega)
        (by simpa using hn) (by simp)
      refine rle_of_loop (d' := d') ?_ (by simpa using hh)
      rw [rleLoop_done (src := []) (by simp)] at he
      simpa using he

/-- Two runs of a decompression step behave alike. -/
inductive StepSim (n : Nat) : Res (List Byte × Dst) → Res (List Byte × Dst) → Prop
  | err (e : Stop) : StepSim n (.error e) (.error e)
  | ok (src : List Byte) (d d' : Dst) (out : List Byte) (h : d.Has n out) (h' : d'.Has n out) :
      StepSim n (.ok (src, d)) (.ok (src, d'))

theorem storeValue_sim {n : Nat} {d d' : Dst} {out : List Byte} (h : d.Has n out) (h' : d'.Has n out)
    (v : Byte) (k : Nat) (src : List Byte) :
    StepSim n (do return (src, ← d.storeValue v k)) (do return (src, ← d'.storeValue v k)) := by
  by_cases hk : out.length + k ≤ n
  · obtain ⟨e, he, hh⟩ := h.storeValue v k hk
    obtain ⟨e', he', hh'⟩ := h'.storeValue v k hk
    rw [he, he']
    exact .ok _ _ _ _ hh hh'
  · have := h.len; have := h.idx; have := h'.len; have := h'.idx
    unfold Dst.storeValue
    rw [if_neg (by omega), if_neg (by omega)]
    exact .err _

theorem storeBytes_sim {n : Nat} {d d' : Dst} {out : List Byte} (h : d.Has n out) (h' : d'.Has n out)
    (bs : List Byte) (src : List Byte) :
    StepSim n (do return (src, ← d.storeBytes bs)) (do return (src, ← d'.storeBytes bs)) := by
  by_cases hk : out.length + bs.length ≤ n
  · obtain ⟨e, he, hh⟩ := h.storeBytes bs hk
    obtain ⟨e', he', hh'⟩ := h'.storeBytes bs hk
    rw [he, he']
    exact .ok _ _ _ _ hh hh'
  · have := h.len; have := h.idx; have := h'.len; have := h'.idx
    unfold Dst.storeBytes
    rw [if_neg (by omega), if_neg (by omega)]
    exact .err _

theorem rleStoreValues_sim {n : Nat} {d d' : Dst} {out : List Byte} (h : d.Has n out)
    (h' : d'.Has n out) (src : List Byte) (k : Nat) :
    StepSim n (rleStoreValues src d k) (rleStoreValues src d' k) :=
  storeBytes_sim h h' _ _

theorem pop_bind_sim {n : Nat} (src : List Byte) (f g : Byte × List Byte → Res (List Byte × Dst))
    (h : ∀ x, StepSim n (f x) (g x)) : StepSim n (pop src >>= f) (pop src >>= g) := by
  cases src with
  | nil => exact .err _
  | cons b bs => exact h (b, bs)

theorem ite_sim {n : Nat} {p : Prop} [Decidable p] {a b a' b' : Res (List Byte × Dst)}
    (h1 : StepSim n a a') (h2 : StepSim n b b') :
    StepSim n (if p then a else b) (if p then a' else b') := by
  by_cases h : p
  · rw [if_pos h, if_pos h]; exact h1
  · rw [if_neg h, if_neg h]; exact h2

theorem rleStep_sim {n : Nat} {d d' : Dst} {out : List Byte} (h : d.Has n out) (h' : d'.Has n out)
    (src : List Byte) : StepSim n (rleStep src d) (rleStep src d') := by
  unfold rleStep
  apply pop_bind_sim
  rintro ⟨val, src⟩
  dsimp only
  apply ite_sim (pop_bind_sim _ _ _ fun _ => rleStoreValues_sim h h' _ _)
  apply ite_sim (pop_bind_sim _ _ _ fun _ => pop_bind_sim _ _ _ fun _ => storeValue_sim h h' _ _ _)
  apply ite_sim (pop_bind_sim _ _ _ fun _ => storeValue_sim h h' _ _ _)
  apply ite_sim (pop_bind_sim _ _ _ fun _ => storeValue_sim h h' _ _ _)
  apply ite_sim (pop_bind_sim _ _ _ fun _ => storeValue_sim h h' _ _ _)
  iterate 4 apply ite_sim (rleStoreValues_sim h h' _ _)
  apply ite_sim (pop_bind_sim _ _ _ fun _ => storeValue_sim h h' _ _ _)
  iterate 3 apply ite_sim (storeValue_sim h h' _ _ _)
  exact .err _

/-- Two runs of a decompression loop behave alike. -/
theorem rleLoop_sim {n : Nat} (fuel : Nat) : ∀ {d d' : Dst} {out : List Byte} (src : List Byte),
    d.Has n out → d'.Has n out →
    (rleLoop fuel src d).1 = (rleLoop fuel src d').1 ∧
    ∃ out', (rleLoop fuel src d).2.Has n out' ∧ (rleLoop fuel src d').2.Has n out' := by
  induction fuel with
  | zero =>
    intro d d' out src h h'
    have := h.len; have := h.idx; have := h'.len; have := h'.idx
    unfold rleLoop
    by_cases hc : 2 ≤ src.length ∧ d.i < d.mem.length
    · rw [if_pos hc, if_pos (by omega)]; exact ⟨rfl, out, h, h'⟩
    · rw [if_neg hc, if_neg (by omega)]; exact ⟨rfl, out, h, h'⟩
  | succ k ih =>
    intro d d' out src h h'
    have := h.len; have := h.idx; have := h'.len; have := h'.idx
    rw [rleLoop_succ, rleLoop_succ]
    by_cases hc : 2 ≤ src.length ∧ d.i < d.mem.length
    · rw [if_pos hc, if_pos (by omega)]
      have hs := rleStep_sim h h' src
      revert hs
      generalize rleStep src d = x
      generalize rleStep src d' = y
      intro hs
      cases hs with
      | err e => exact ⟨rfl, out, h, h'⟩
      | ok s d1 d1' o h1 h1' => exact ih s h1 h1'
    · rw [if_neg hc, if_neg (by omega)]; exact ⟨rfl, out, h, h'⟩

theorem rle_sim (src : List Byte) {dst dst' : List Byte} (hl : dst.length = dst'.length) :
    (rle src dst).1 = (rle src dst').1 ∧
    (∀ row, (rle src dst).1 = .ok row → row.length = dst.length) ∧
    (rle src dst).2.length = dst.length := by
  have h := Dst.has_init dst
  have h' := Dst.has_init dst'
  rw [← hl] at h'
  obtain ⟨h1, out, h2, h3⟩ := rleLoop_sim src.length src h h'
  unfold rle
  generalize rleLoop src.length src ⟨dst, 0⟩ = x at *
  generalize rleLoop src.length src ⟨dst', 0⟩ = y at *
  obtain ⟨r, d⟩ := x
  obtain ⟨r', d'⟩ := y
  simp only at h1 h2 h3
  subst h1
  cases r with
  | error e => exact ⟨rfl, by simp, h2.len⟩
  | ok u =>
    obtain ⟨e, he, hm⟩ := h2.fill
    obtain ⟨e', he', hm'⟩ := h3.fill
    have := h2.le
    simp only [he, he', hm, hm']
    refine ⟨trivial, ?_, by simp; omega⟩
    intro row hr; cases hr; simp; omega

end Sas
