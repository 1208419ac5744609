import Verif.Proofs.Rdc
import Verif.Spec.Decode

/-! Both decompressors on arbitrary bytes. -/

namespace Sas.Proofs
open Sas Spec

theorem ofNat_eq {v : Byte} {k : Nat} (h : k = v.toNat) : UInt8.ofNat k = v := by
  subst h; exact UInt8.ofNat_toNat

theorem storeValue_bytes (d : Dst) (v : Byte) (n : Nat) : d.storeValue v n = d.storeBytes (List.replicate n v) := by
  simp [Dst.storeValue, Dst.storeBytes]

theorem storeBytes_long {d : Dst} {n : Nat} {out : List Byte} (h : d.Has n out) {bs : List Byte}
    (hk : n < out.length + bs.length) : d.storeBytes bs = .error (.exn .cannotDecompress) := by
  have := h.len; have := h.idx
  unfold Dst.storeBytes
  rw [if_neg (by omega)]

theorem rleStoreValues_bytes (d : Dst) (bs rest : List Byte) :
    rleStoreValues (bs ++ rest) d bs.length = (do return (rest, ← d.storeBytes bs)) := by
  simp [rleStoreValues]

/-- One command, whether it fits or not. -/
theorem rleStep_long (c : RleCmd) (hv : c.Valid) {d : Dst} {n : Nat} {out : List Byte}
    (h : d.Has n out) (rest : List Byte) (hk : n < out.length + c.expand.length) :
    rleStep (c.encode ++ rest) d = .error (.exn .cannotDecompress) := by
  have hb := storeBytes_long h hk
  cases c with
  | copy64 bs =>
    simp only [RleCmd.Valid, RleCmd.expand] at hv hk hb
    have e1 := toNat_ofNat_lt (k := (bs.length - 64) / 256) (by omega)
    have e2 := toNat_ofNat_lt (k := (bs.length - 64) % 256) (by omega)
    have e3 : (bs.length - 64) / 256 % 16 * 256 + (bs.length - 64) % 256 + 64 = bs.length := by omega
    simp only [rleStep, RleCmd.encode, List.cons_append, List.nil_append, pop, bind, Except.bind, e1, e2]
    rw [if_pos (by omega), e3, rleStoreValues_bytes, hb]; rfl
  | copy1 bs =>
    simp only [RleCmd.Valid, RleCmd.expand] at hv hk hb
    have e1 := toNat_ofNat_lt (k := 0x80 + (bs.length - 1)) (by omega)
    have e3 : (0x80 + (bs.length - 1)) % 16 + 1 = bs.length := by omega
    simp only [rleStep, RleCmd.encode, List.cons_append, pop, bind, Except.bind, e1]
    iterate 5 rw [if_neg (by omega)]
    rw [if_pos (by omega), e3, rleStoreValues_bytes, hb]; rfl
  | copy17 bs =>
    simp only [RleCmd.Valid, RleCmd.expand] at hv hk hb
    have e1 := toNat_ofNat_lt (k := 0x90 + (bs.length - 17)) (by omega)
    have e3 : (0x90 + (bs.length - 17)) % 16 + 17 = bs.length := by omega
    simp only [rleStep, RleCmd.encode, List.cons_append, pop, bind, Except.bind, e1]
    iterate 6 rw [if_neg (by omega)]
    rw [if_pos (by omega), e3, rleStoreValues_bytes, hb]; rfl
  | copy33 bs =>
    simp only [RleCmd.Valid, RleCmd.expand] at hv hk hb
    have e1 := toNat_ofNat_lt (k := 0xA0 + (bs.length - 33)) (by omega)
    have e3 : (0xA0 + (bs.length - 33)) % 16 + 33 = bs.length := by omega
    simp only [rleStep, RleCmd.encode, List.cons_append, pop, bind, Except.bind, e1]
    iterate 7 rw [if_neg (by omega)]
    rw [if_pos (by omega), e3, rleStoreValues_bytes, hb]; rfl
  | copy49 bs =>
    simp only [RleCmd.Valid, RleCmd.expand] at hv hk hb
    have e1 := toNat_ofNat_lt (k := 0xB0 + (bs.length - 49)) (by omega)
    have e3 : (0xB0 + (bs.length - 49)) % 16 + 49 = bs.length := by omega
    simp only [rleStep, RleCmd.encode, List.cons_append, pop, bind, Except.bind, e1]
    iterate 8 rw [if_neg (by omega)]
    rw [if_pos (by omega), e3, rleStoreValues_bytes, hb]; rfl
  | byte18 hi lo b =>
    simp only [RleCmd.Valid, RleCmd.expand] at hv hk hb
    have e1 := toNat_ofNat_lt (k := 0x40 + hi) (by omega)
    have e2 := toNat_ofNat_lt (k := lo) (by omega)
    have e3 : (0x40 + hi) % 16 * 16 + lo + 18 = 16 * hi + lo + 18 := by omega
    simp only [rleStep, RleCmd.encode, List.cons_append, List.nil_append, pop, bind, Except.bind, e1, e2]
    rw [if_neg (by omega), if_pos (by omega), e3, storeValue_bytes, hb]
  | byte3 b m =>
    simp only [RleCmd.Valid, RleCmd.expand] at hv hk hb
    have e1 := toNat_ofNat_lt (k := 0xC0 + (m - 3)) (by omega)
    have e3 : (0xC0 + (m - 3)) % 16 + 3 = m := by omega
    simp only [rleStep, RleCmd.encode, List.cons_append, List.nil_append, pop, bind, Except.bind, e1]
    iterate 9 rw [if_neg (by omega)]
    rw [if_pos (by omega), e3, storeValue_bytes, hb]
  | at17 m =>
    simp only [RleCmd.Valid, RleCmd.expand] at hv hk hb
    have e1 := toNat_ofNat_lt (k := 0x50 + (m - 17) / 256) (by omega)
    have e2 := toNat_ofNat_lt (k := (m - 17) % 256) (by omega)
    have e3 : (0x50 + (m - 17) / 256) % 16 * 256 + (m - 17) % 256 + 17 = m := by omega
    simp only [rleStep, RleCmd.encode, List.cons_append, List.nil_append, pop, bind, Except.bind, e1, e2]
    iterate 2 rw [if_neg (by omega)]
    rw [if_pos (by omega), e3, storeValue_bytes, hb]
  | blank17 m =>
    simp only [RleCmd.Valid, RleCmd.expand] at hv hk hb
    have e1 := toNat_ofNat_lt (k := 0x60 + (m - 17) / 256) (by omega)
    have e2 := toNat_ofNat_lt (k := (m - 17) % 256) (by omega)
    have e3 : (0x60 + (m - 17) / 256) % 16 * 256 + (m - 17) % 256 + 17 = m := by omega
    simp only [rleStep, RleCmd.encode, List.cons_append, List.nil_append, pop, bind, Except.bind, e1, e2]
    iterate 3 rw [if_neg (by omega)]
    rw [if_pos (by omega), e3, storeValue_bytes, hb]
  | zero17 m =>
    simp only [RleCmd.Valid, RleCmd.expand] at hv hk hb
    have e1 := toNat_ofNat_lt (k := 0x70 + (m - 17) / 256) (by omega)
    have e2 := toNat_ofNat_lt (k := (m - 17) % 256) (by omega)
    have e3 : (0x70 + (m - 17) / 256) % 16 * 256 + (m - 17) % 256 + 17 = m := by omega
    simp only [rleStep, RleCmd.encode, List.cons_append, List.nil_append, pop, bind, Except.bind, e1, e2]
    iterate 4 rw [if_neg (by omega)]
    rw [if_pos (by omega), e3, storeValue_bytes, hb]
  | at2 m =>
    simp only [RleCmd.Valid, RleCmd.expand] at hv hk hb
    have e1 := toNat_ofNat_lt (k := 0xD0 + (m - 2)) (by omega)
    have e3 : (0xD0 + (m - 2)) % 16 + 2 = m := by omega
    simp only [rleStep, RleCmd.encode, List.cons_append, List.nil_append, pop, bind, Except.bind, e1]
    iterate 10 rw [if_neg (by omega)]
    rw [if_pos (by omega), e3, storeValue_bytes, hb]
  | blank2 m =>
    simp only [RleCmd.Valid, RleCmd.expand] at hv hk hb
    have e1 := toNat_ofNat_lt (k := 0xE0 + (m - 2)) (by omega)
    have e3 : (0xE0 + (m - 2)) % 16 + 2 = m := by omega
    simp only [rleStep, RleCmd.encode, List.cons_append, List.nil_append, pop, bind, Except.bind, e1]
    iterate 11 rw [if_neg (by omega)]
    rw [if_pos (by omega), e3, storeValue_bytes, hb]
  | zero2 m =>
    simp only [RleCmd.Valid, RleCmd.expand] at hv hk hb
    have e1 := toNat_ofNat_lt (k := 0xF0 + (m - 2)) (by omega)
    have e3 : (0xF0 + (m - 2)) % 16 + 2 = m := by omega
    simp only [rleStep, RleCmd.encode, List.cons_append, List.nil_append, pop, bind, Except.bind, e1]
    iterate 12 rw [if_neg (by omega)]
    rw [if_pos (by omega), e3, storeValue_bytes, hb]

theorem rleStoreValues_cut (d : Dst) (part : List Byte) (k : Nat) (hk : part.length ≤ k) :
    rleStoreValues part d k = (do return ([], ← d.storeBytes part)) := by
  simp [rleStoreValues, Nat.min_eq_right hk]

/-- A copy that the input cuts short. -/
theorem rleStep_cut (c : RleCmd) (hv : c.Valid) (hc : c.isCopy = true) {head part missing : List Byte}
    (he : c.encode = head ++ (part ++ missing)) (hx : c.expand = part ++ missing) (d : Dst) :
    rleStep (head ++ part) d = (do return ([], ← d.storeBytes part)) := by
  cases c with
  | copy64 bs =>
    simp only [RleCmd.Valid, RleCmd.expand, RleCmd.encode] at hv he hx
    have hl : head = [.ofNat ((bs.length - 64) / 256), .ofNat ((bs.length - 64) % 256)] := by
      rw [← hx] at he; exact (List.append_cancel_right he).symm
    have hp : part.length ≤ bs.length := by rw [hx]; simp
    have e1 := toNat_ofNat_lt (k := (bs.length - 64) / 256) (by omega)
    have e2 := toNat_ofNat_lt (k := (bs.length - 64) % 256) (by omega)
    rw [hl]
    simp only [rleStep, List.cons_append, List.nil_append, pop, bind, Except.bind, e1, e2]
    rw [if_pos (by omega), rleStoreValues_cut _ _ _ (by omega)]; rfl
  | copy1 bs =>
    simp only [RleCmd.Valid, RleCmd.expand, RleCmd.encode] at hv he hx
    have hl : head = [.ofNat (0x80 + (bs.length - 1))] := by
      rw [← hx, ← List.singleton_append] at he; exact (List.append_cancel_right he).symm
    have hp : part.length ≤ bs.length := by rw [hx]; simp
    have e1 := toNat_ofNat_lt (k := 0x80 + (bs.length - 1)) (by omega)
    rw [hl]
    simp only [rleStep, List.cons_append, List.nil_append, pop, bind, Except.bind, e1]
    iterate 5 rw [if_neg (by omega)]
    rw [if_pos (by omega), rleStoreValues_cut _ _ _ (by omega)]; rfl
  | copy17 bs =>
    simp only [RleCmd.Valid, RleCmd.expand, RleCmd.encode] at hv he hx
    have hl : head = [.ofNat (0x90 + (bs.length - 17))] := by
      rw [← hx, ← List.singleton_append] at he; exact (List.append_cancel_right he).symm
    have hp : part.length ≤ bs.length := by rw [hx]; simp
    have e1 := toNat_ofNat_lt (k := 0x90 + (bs.length - 17)) (by omega)
    rw [hl]
    simp only [rleStep, List.cons_append, List.nil_append, pop, bind, Except.bind, e1]
    iterate 6 rw [if_neg (by omega)]
    rw [if_pos (by omega), rleStoreValues_cut _ _ _ (by omega)]; rfl
  | copy33 bs =>
    simp only [RleCmd.Valid, RleCmd.expand, RleCmd.encode] at hv he hx
    have hl : head = [.ofNat (0xA0 + (bs.length - 33))] := by
      rw [← hx, ← List.singleton_append] at he; exact (List.append_cancel_right he).symm
    have hp : part.length ≤ bs.length := by rw [hx]; simp
    have e1 := toNat_ofNat_lt (k := 0xA0 + (bs.length - 33)) (by omega)
    rw [hl]
    simp only [rleStep, List.cons_append, List.nil_append, pop, bind, Except.bind, e1]
    iterate 7 rw [if_neg (by omega)]
    rw [if_pos (by omega), rleStoreValues_cut _ _ _ (by omega)]; rfl
  | copy49 bs =>
    simp only [RleCmd.Valid, RleCmd.expand, RleCmd.encode] at hv he hx
    have hl : head = [.ofNat (0xB0 + (bs.length - 49))] := by
      rw [← hx, ← List.singleton_append] at he; exact (List.append_cancel_right he).symm
    have hp : part.length ≤ bs.length := by rw [hx]; simp
    have e1 := toNat_ofNat_lt (k := 0xB0 + (bs.length - 49)) (by omega)
    rw [hl]
    simp only [rleStep, List.cons_append, List.nil_append, pop, bind, Except.bind, e1]
    iterate 8 rw [if_neg (by omega)]
    rw [if_pos (by omega), rleStoreValues_cut _ _ _ (by omega)]; rfl
  | byte18 | byte3 | at17 | blank17 | zero17 | at2 | blank2 | zero2 => simp [RleCmd.isCopy] at hc

/-- What the loop does, given how the reading ends. -/
def LoopEnds (n : Nat) (x : Res Unit × Dst) : Decoded → Prop
  | .row out => ∃ d, x = (.ok (), d) ∧ d.Has n out
  | .tooLong | .unknown => x.1 = .error (.exn .cannotDecompress)
  | .truncated | .overlap => x.1 = .error .ub
  | .outside missing k => x.1 = .error .ub ∨ (x.1 = .error .terminate ∧ k < missing)

theorem rle_reads {n : Nat} {src out : List Byte} {r : Decoded} (h : RleReads n src out r) :
    ∀ {d : Dst} (fuel : Nat), d.Has n out → src.length ≤ fuel → LoopEnds n (rleLoop fuel src d) r := by
  induction h with
  | stop h =>
    intro d fuel hd hf
    have := hd.len; have := hd.idx
    refine ⟨d, ?_, hd⟩
    cases fuel with
    | zero => unfold rleLoop; rw [if_neg (by omega)]
    | succ k => rw [rleLoop_succ, if_neg (by omega)]
  | command c hv h2 hn hfit next ih =>
    intro d fuel hd hf
    have := hd.len; have := hd.idx
    have hp := RleCmd.encode_pos c
    simp only [List.length_append] at hf h2
    obtain ⟨fuel, rfl⟩ : ∃ k, fuel = k + 1 := ⟨fuel - 1, by omega⟩
    obtain ⟨d', h1, h'⟩ := rleStep_spec c hv hd _ hfit
    rw [rleLoop_succ, if_pos ⟨by simp only [List.length_append]; omega, by omega⟩, h1]
    exact ih fuel h' (by omega)
  | tooLong c hv h2 hn hfit =>
    intro d fuel hd hf
    have := hd.len; have := hd.idx
    simp only [List.length_append] at hf h2
    obtain ⟨fuel, rfl⟩ : ∃ k, fuel = k + 1 := ⟨fuel - 1, by omega⟩
    rw [rleLoop_succ, if_pos ⟨by simp only [List.length_append]; omega, by omega⟩, rleStep_long c hv hd _ hfit]
    rfl
  | @cut out head part missing c hv hc he hx hm h2 hn =>
    intro d fuel hd hf
    have := hd.len; have := hd.idx
    simp only [List.length_append] at hf h2
    obtain ⟨fuel, rfl⟩ : ∃ k, fuel = k + 1 := ⟨fuel - 1, by omega⟩
    rw [rleLoop_succ, if_pos ⟨by simp only [List.length_append]; omega, by omega⟩, rleStep_cut c hv hc he hx]
    by_cases hfit : out.length + part.length ≤ n
    · obtain ⟨d', h1, h'⟩ := hd.storeBytes part hfit
      rw [if_pos hfit, h1]
      exact ⟨d', rleLoop_done (by simp), h'⟩
    · rw [if_neg hfit, storeBytes_long hd (by omega)]
      rfl
  | unknown b hb h2 hn =>
    intro d fuel hd hf
    have := hd.len; have := hd.idx
    simp only [List.length_cons] at hf
    obtain ⟨fuel, rfl⟩ : ∃ k, fuel = k + 1 := ⟨fuel - 1, by omega⟩
    rw [rleLoop_succ, if_pos ⟨by simp only [List.length_cons]; omega, by omega⟩]
    simp only [rleStep, pop, bind, Except.bind]
    iterate 13 rw [if_neg (by omega)]
    rfl
  | truncated hi lo hb hn =>
    intro d fuel hd hf
    have := hd.len; have := hd.idx
    simp only [List.length_cons] at hf
    obtain ⟨fuel, rfl⟩ : ∃ k, fuel = k + 1 := ⟨fuel - 1, by omega⟩
    rw [rleLoop_succ, if_pos ⟨by simp, by omega⟩]
    simp only [rleStep, pop, bind, Except.bind]
    rw [if_neg (by omega), if_pos hb]
    rfl

/-- A copy command at the beginning. -/
theorem reads_copy {n : Nat} {out src : List Byte} (k : Nat) (head : List Byte) (mk : List Byte → RleCmd)
    (hmk : ∀ bs : List Byte, bs.length = k → (mk bs).Valid ∧ (mk bs).isCopy = true ∧ (mk bs).encode = head ++ bs ∧
      (mk bs).expand = bs) (h2 : 2 ≤ (head ++ src).length) (hn : out.length < n)
    (ih : ∀ (src' out' : List Byte), src'.length < (head ++ src).length → out.length ≤ out'.length →
      ∃ r, RleReads n src' out' r) (hh : head ≠ []) : ∃ r, RleReads n (head ++ src) out r := by
  have hhl : 0 < head.length := List.length_pos_iff.2 hh
  by_cases hs : k ≤ src.length
  · have hl : (src.take k).length = k := by simp; omega
    obtain ⟨a1, a2, a3, a4⟩ := hmk (src.take k) hl
    have e : head ++ src = (mk (src.take k)).encode ++ src.drop k := by simp [a3]
    rw [e] at h2 ih ⊢
    by_cases hfit : out.length + (mk (src.take k)).expand.length ≤ n
    · obtain ⟨r, hr⟩ := ih (src.drop k) (out ++ (mk (src.take k)).expand)
        (by rw [List.length_append, a3, List.length_append]; omega) (by simp)
      exact ⟨r, .command _ a1 h2 hn hfit hr⟩
    · exact ⟨_, .tooLong _ a1 h2 hn (by omega)⟩
  · obtain ⟨a1, a2, a3, a4⟩ := hmk (src ++ List.replicate (k - src.length) 0) (by simp; omega)
    exact ⟨_, .cut _ a1 a2 a3 a4 (by simp; omega) h2 hn⟩

theorem rle_total (n : Nat) : ∀ (k : Nat) (src out : List Byte), src.length ≤ k → ∃ r, RleReads n src out r := by
  intro k
  induction k with
  | zero => intro src out h; exact ⟨_, .stop (.inl (by omega))⟩
  | succ k ih =>
    intro src out hk
    by_cases hstop : src.length < 2 ∨ n ≤ out.length
    · exact ⟨_, .stop hstop⟩
    have hn : out.length < n := by omega
    obtain ⟨v, b, rest, rfl⟩ : ∃ v b rest, src = v :: b :: rest := by
      rcases src with _ | ⟨v, _ | ⟨b, rest⟩⟩
      · simp at hstop
      · simp at hstop
      · exact ⟨v, b, rest, rfl⟩
    simp only [List.length_cons] at hk
    have hv := v.toNat_lt
    have hb := b.toNat_lt
    have go : ∀ (src' : List Byte) (c : RleCmd), c.Valid → v :: b :: rest = c.encode ++ src' →
        ∃ r, RleReads n (v :: b :: rest) out r := by
      intro src' c hc he
      have hp := RleCmd.encode_pos c
      have hl := congrArg List.length he
      simp only [List.length_cons, List.length_append] at hl
      rw [he]
      have h2 : 2 ≤ (c.encode ++ src').length := by rw [← he]; simp
      by_cases hfit : out.length + c.expand.length ≤ n
      · obtain ⟨r, hr⟩ := ih src' (out ++ c.expand) (by omega)
        exact ⟨r, .command c hc h2 hn hfit hr⟩
      · exact ⟨_, .tooLong c hc h2 hn (by omega)⟩
    have copy : ∀ (head src' : List Byte) (m : Nat) (mk : List Byte → RleCmd), v :: b :: rest = head ++ src' → head ≠ [] →
        (∀ bs : List Byte, bs.length = m → (mk bs).Valid ∧ (mk bs).isCopy = true ∧ (mk bs).encode = head ++ bs ∧
          (mk bs).expand = bs) → ∃ r, RleReads n (v :: b :: rest) out r := by
      intro head src' m mk he hh hmk
      have h2 : 2 ≤ (head ++ src').length := by rw [← he]; simp
      have hl := congrArg List.length he
      simp only [List.length_cons] at hl
      rw [he]
      exact reads_copy m head mk hmk h2 hn (fun s o hs _ => ih s o (by omega)) hh
    have hc : v.toNat / 16 < 16 := by omega
    rcases (by omega : v.toNat / 16 = 0 ∨ (1 ≤ v.toNat / 16 ∧ v.toNat / 16 ≤ 3) ∨ v.toNat / 16 = 4 ∨ v.toNat / 16 = 5 ∨
      v.toNat / 16 = 6 ∨ v.toNat / 16 = 7 ∨ v.toNat / 16 = 8 ∨ v.toNat / 16 = 9 ∨ v.toNat / 16 = 10 ∨ v.toNat / 16 = 11 ∨
      v.toNat / 16 = 12 ∨ v.toNat / 16 = 13 ∨ v.toNat / 16 = 14 ∨ v.toNat / 16 = 15) with
      h | h | h | h | h | h | h | h | h | h | h | h | h | h
    · refine copy [v, b] rest (v.toNat * 256 + b.toNat + 64) .copy64 rfl (by simp) fun bs hl =>
        ⟨⟨by omega, by omega⟩, rfl, ?_, rfl⟩
      show [UInt8.ofNat _, UInt8.ofNat _] ++ bs = _
      rw [ofNat_eq (v := v) (by omega), ofNat_eq (v := b) (by omega)]
    · exact ⟨_, .unknown v h (by simp) hn⟩
    · cases rest with
      | nil => exact ⟨_, .truncated v b h hn⟩
      | cons x rest =>
        refine go rest (.byte18 (v.toNat - 64) b.toNat x) ⟨by omega, hb⟩ ?_
        simp only [RleCmd.encode]
        rw [ofNat_eq (v := v) (by omega), ofNat_eq (v := b) (by omega)]; rfl
    · refine go rest (.at17 ((v.toNat - 80) * 256 + b.toNat + 17)) ⟨by omega, by omega⟩ ?_
      simp only [RleCmd.encode]
      rw [ofNat_eq (v := v) (by omega), ofNat_eq (v := b) (by omega)]; rfl
    · refine go rest (.blank17 ((v.toNat - 96) * 256 + b.toNat + 17)) ⟨by omega, by omega⟩ ?_
      simp only [RleCmd.encode]
      rw [ofNat_eq (v := v) (by omega), ofNat_eq (v := b) (by omega)]; rfl
    · refine go rest (.zero17 ((v.toNat - 112) * 256 + b.toNat + 17)) ⟨by omega, by omega⟩ ?_
      simp only [RleCmd.encode]
      rw [ofNat_eq (v := v) (by omega), ofNat_eq (v := b) (by omega)]; rfl
    · refine copy [v] (b :: rest) (v.toNat - 128 + 1) .copy1 rfl (by simp) fun bs hl => ⟨⟨by omega, by omega⟩, rfl, ?_, rfl⟩
      show UInt8.ofNat _ :: bs = _
      rw [ofNat_eq (v := v) (by omega)]; rfl
    · refine copy [v] (b :: rest) (v.toNat - 144 + 17) .copy17 rfl (by simp) fun bs hl => ⟨⟨by omega, by omega⟩, rfl, ?_, rfl⟩
      show UInt8.ofNat _ :: bs = _
      rw [ofNat_eq (v := v) (by omega)]; rfl
    · refine copy [v] (b :: rest) (v.toNat - 160 + 33) .copy33 rfl (by simp) fun bs hl => ⟨⟨by omega, by omega⟩, rfl, ?_, rfl⟩
      show UInt8.ofNat _ :: bs = _
      rw [ofNat_eq (v := v) (by omega)]; rfl
    · refine copy [v] (b :: rest) (v.toNat - 176 + 49) .copy49 rfl (by simp) fun bs hl => ⟨⟨by omega, by omega⟩, rfl, ?_, rfl⟩
      show UInt8.ofNat _ :: bs = _
      rw [ofNat_eq (v := v) (by omega)]; rfl
    · refine go rest (.byte3 b (v.toNat - 192 + 3)) ⟨by omega, by omega⟩ ?_
      simp only [RleCmd.encode]
      rw [ofNat_eq (v := v) (by omega)]; rfl
    · refine go (b :: rest) (.at2 (v.toNat - 208 + 2)) ⟨by omega, by omega⟩ ?_
      simp only [RleCmd.encode]
      rw [ofNat_eq (v := v) (by omega)]; rfl
    · refine go (b :: rest) (.blank2 (v.toNat - 224 + 2)) ⟨by omega, by omega⟩ ?_
      simp only [RleCmd.encode]
      rw [ofNat_eq (v := v) (by omega)]; rfl
    · refine go (b :: rest) (.zero2 (v.toNat - 240 + 2)) ⟨by omega, by omega⟩ ?_
      simp only [RleCmd.encode]
      rw [ofNat_eq (v := v) (by omega)]; rfl

/-! ## RDC -/

/-- The lowest `k` bits of a word, the highest first. -/
def restBits (w : Nat) : Nat → List Bool
  | 0 => []
  | k + 1 => w.testBit k :: restBits w k

theorem wordBits_eq (hi lo : Byte) : wordBits hi lo = restBits (hi.toNat * 256 + lo.toNat) 16 := rfl

/-- The control state and the bits that are left. -/
def Corr (c : Ctrl) (bits : List Bool) : Prop := (c.mask = 0 ∧ bits = []) ∨ ∃ k, c.mask = 2 ^ k ∧ bits = restBits c.bits k

theorem isSet_bit (w k : Nat) : (Ctrl.mk (2 ^ k) w).isSet = w.testBit k := by
  unfold Ctrl.isSet
  rw [and_two_pow']
  cases w.testBit k <;> simp

theorem nextBit_control {bits bits' : List Bool} {src src' : List Byte} {b : Bool} (h : NextBit bits src b bits' src') {c : Ctrl}
    (hc : Corr c bits) : ∃ c', rdcControl c src = .ok (c', src') ∧ c'.isSet = b ∧ Corr c' bits' := by
  cases h with
  | left =>
    rcases hc with ⟨-, h⟩ | ⟨k, hm, h⟩
    · cases h
    · cases k with
      | zero => cases h
      | succ k =>
        obtain ⟨m, w⟩ := c
        simp only at hm h
        subst hm
        rw [restBits] at h
        obtain ⟨rfl, rfl⟩ := List.cons.inj h
        exact ⟨_, rdcControl_next, isSet_bit _ _, .inr ⟨k, rfl, rfl⟩⟩
  | word hi lo h =>
    have hm : c.mask / 2 = 0 := by
      rcases hc with ⟨h0, -⟩ | ⟨k, h0, h1⟩
      · omega
      · cases k with
        | zero => rw [h0]
        | succ k => cases h1
    rw [wordBits_eq, restBits] at h
    obtain ⟨h1, h2⟩ := List.cons.inj h
    refine ⟨⟨2 ^ 15, hi.toNat * 256 + lo.toNat⟩, ?_, ?_, .inr ⟨15, rfl, h2.symm⟩⟩
    · unfold rdcControl
      simp only [hm, if_true, pop, bind, Except.bind]
      rfl
    · rw [isSet_bit, h1]

/-- What a token stores. -/
def store (cfg : Cfg) (d : Dst) : RdcTok → Res Dst
  | .lit b => d.storeValue b 1
  | .shortRun b n | .longRun b n => d.storeValue b n
  | .longPattern ofs n | .shortPattern ofs n => d.storePattern cfg ofs n

theorem rdcToken_store (cfg : Cfg) (t : RdcTok) (hv : t.InRange) (hc : t.compressed = true) (rest : List Byte) (d : Dst) :
    rdcToken cfg (t.encode ++ rest) d = (do return (rest, ← store cfg d t)) := by
  cases t with
  | lit b => simp [RdcTok.compressed] at hc
  | shortRun b m =>
    simp only [RdcTok.InRange] at hv
    have e1 := toNat_ofNat_lt (k := m - 3) (by omega)
    have e3 : (m - 3) % 16 + 3 = m := by omega
    simp only [rdcToken, RdcTok.encode, List.cons_append, List.nil_append, pop, bind, Except.bind, e1]
    rw [if_pos (by omega), e3]; rfl
  | longRun b m =>
    simp only [RdcTok.InRange] at hv
    have e1 := toNat_ofNat_lt (k := 0x10 + (m - 19) % 16) (by omega)
    have e2 := toNat_ofNat_lt (k := (m - 19) / 16) (by omega)
    have e3 : (0x10 + (m - 19) % 16) % 16 + ((m - 19) / 16 * 16 + 19) = m := by omega
    simp only [rdcToken, RdcTok.encode, List.cons_append, List.nil_append, pop, bind, Except.bind, e1,
      e2]
    rw [if_neg (by omega), if_pos (by omega), e3]; rfl
  | longPattern ofs m =>
    simp only [RdcTok.InRange] at hv
    have e1 := toNat_ofNat_lt (k := 0x20 + (ofs - 3) % 16) (by omega)
    have e2 := toNat_ofNat_lt (k := (ofs - 3) / 16) (by omega)
    have e2' := toNat_ofNat_lt (k := m - 16) (by omega)
    have e3 : (0x20 + (ofs - 3) % 16) % 16 + 3 + (ofs - 3) / 16 * 16 = ofs := by omega
    have e4 : m - 16 + 16 = m := by omega
    simp only [rdcToken, RdcTok.encode, List.cons_append, List.nil_append, pop, bind, Except.bind,
      e1, e2, e2']
    rw [if_neg (by omega), if_neg (by omega), if_pos (by omega), e3, e4]; rfl
  | shortPattern ofs m =>
    simp only [RdcTok.InRange] at hv
    have e1 := toNat_ofNat_lt (k := 16 * m + (ofs - 3) % 16) (by omega)
    have e2 := toNat_ofNat_lt (k := (ofs - 3) / 16) (by omega)
    have e3 : (16 * m + (ofs - 3) % 16) % 16 + 3 + (ofs - 3) / 16 * 16 = ofs := by omega
    have e4 : (16 * m + (ofs - 3) % 16) / 16 = m := by omega
    simp only [rdcToken, RdcTok.encode, List.cons_append, List.nil_append, pop, bind, Except.bind, e1, e2, e4]
    rw [if_neg (by omega), if_neg (by omega), if_neg (by omega), e3]; rfl

/-- One turn, for a token that is there. -/
theorem rdcStep_store (cfg : Cfg) (t : RdcTok) (hv : t.InRange) {bits bits' : List Bool} {src rest : List Byte} {c : Ctrl}
    (hb : NextBit bits src t.compressed bits' (t.encode ++ rest)) (hc : Corr c bits) (d : Dst) :
    ∃ c', Corr c' bits' ∧ rdcStep cfg c src d = (do return (c', rest, ← store cfg d t)) := by
  obtain ⟨c', h1, h2, h3⟩ := nextBit_control hb hc
  refine ⟨c', h3, ?_⟩
  unfold rdcStep
  rw [h1]
  simp only [bind, Except.bind, h2]
  cases hcomp : t.compressed with
  | true =>
    rw [if_pos rfl, rdcToken_store cfg t hv hcomp]
    cases store cfg d t <;> rfl
  | false =>
    cases t with
    | lit b => rfl
    | shortRun | longRun | longPattern | shortPattern => simp [RdcTok.compressed] at hcomp

theorem rdcToken_truncated (cfg : Cfg) (src : List Byte) (d : Dst)
    (h : ∀ (t : RdcTok) (rest : List Byte), t.InRange → t.compressed = true → src ≠ t.encode ++ rest) :
    rdcToken cfg src d = .error .ub := by
  rcases src with _ | ⟨v, src⟩
  · rfl
  have hv := v.toNat_lt
  unfold rdcToken
  simp only [pop, bind, Except.bind]
  by_cases h0 : v.toNat / 16 = 0
  · rw [if_pos h0]
    rcases src with _ | ⟨b, src⟩
    · rfl
    · refine absurd ?_ (h (.shortRun b (v.toNat + 3)) src ⟨by omega, by omega⟩ rfl)
      simp only [RdcTok.encode]
      rw [ofNat_eq (v := v) (by omega)]; rfl
  rw [if_neg h0]
  by_cases h1 : v.toNat / 16 = 1
  · rw [if_pos h1]
    rcases src with _ | ⟨a, _ | ⟨b, src⟩⟩
    · rfl
    · rfl
    · have ha := a.toNat_lt
      refine absurd ?_ (h (.longRun b (v.toNat - 16 + (a.toNat * 16 + 19))) src ⟨by omega, by omega⟩ rfl)
      simp only [RdcTok.encode]
      rw [ofNat_eq (v := v) (by omega), ofNat_eq (v := a) (by omega)]; rfl
  rw [if_neg h1]
  by_cases h2 : v.toNat / 16 = 2
  · rw [if_pos h2]
    rcases src with _ | ⟨a, _ | ⟨b, src⟩⟩
    · rfl
    · rfl
    · have ha := a.toNat_lt
      have hb := b.toNat_lt
      refine absurd ?_ (h (.longPattern (v.toNat - 32 + 3 + a.toNat * 16) (b.toNat + 16)) src
        ⟨by omega, by omega, by omega, by omega⟩ rfl)
      simp only [RdcTok.encode]
      rw [ofNat_eq (v := v) (by omega), ofNat_eq (v := a) (by omega), ofNat_eq (v := b) (by omega)]; rfl
  rw [if_neg h2]
  rcases src with _ | ⟨a, src⟩
  · rfl
  · have ha := a.toNat_lt
    refine absurd ?_ (h (.shortPattern (v.toNat % 16 + 3 + a.toNat * 16) (v.toNat / 16)) src
      ⟨by omega, by omega, by omega, by omega⟩ rfl)
    simp only [RdcTok.encode]
    rw [ofNat_eq (v := v) (by omega), ofNat_eq (v := a) (by omega)]; rfl

theorem RdcTok.valid_inRange {t : RdcTok} (h : t.Valid) : t.InRange := by
  cases t <;> simp only [RdcTok.Valid, RdcTok.InRange] at * <;> omega

theorem store_ok (cfg : Cfg) {t : RdcTok} (hv : t.Valid) {d : Dst} {n : Nat} {out out' : List Byte} (h : d.Has n out)
    (hn : n < 2 ^ 64) (hfit : out.length + t.size ≤ n) (ha : t.apply out = some out') :
    ∃ d', store cfg d t = .ok d' ∧ d'.Has n out' := by
  have pattern : ∀ ofs m, m ≤ ofs → out.length + m ≤ n →
      (if ofs ≤ out.length then some (out ++ (out.drop (out.length - ofs)).take m) else none) = some out' →
      ∃ d', d.storePattern cfg ofs m = .ok d' ∧ d'.Has n out' := by
    intro ofs m h1 h2 h3
    split at h3
    · rename_i hofs
      cases h3
      exact h.storePattern cfg ofs m h2 hofs h1 hn
    · cases h3
  cases t with
  | lit b => cases ha; exact h.storeValue b 1 hfit
  | shortRun b m => cases ha; exact h.storeValue b m hfit
  | longRun b m => cases ha; exact h.storeValue b m hfit
  | longPattern ofs m => exact pattern ofs m hv.2.2.2.2 hfit ha
  | shortPattern ofs m => exact pattern ofs m hv.2.2.2.2 hfit ha

theorem store_long (cfg : Cfg) (t : RdcTok) {d : Dst} {n : Nat} {out : List Byte} (h : d.Has n out)
    (hfit : n < out.length + t.size) : store cfg d t = .error (.exn .cannotDecompress) := by
  have := h.len; have := h.idx
  cases t <;> simp only [RdcTok.size] at hfit <;> simp only [store, Dst.storeValue, Dst.storePattern] <;> rw [if_neg (by omega)]

theorem store_outside (cfg : Cfg) {t : RdcTok} {ofs : Nat} {d : Dst} {n : Nat} {out : List Byte} (h : d.Has n out)
    (hn : n < 2 ^ 64) (hv : t.InRange) (hfit : out.length + t.size ≤ n) (ho : t.back = some ofs) (hl : out.length < ofs) :
    (store cfg d t = .error .ub ∨ (store cfg d t = .error .terminate ∧ t.size < ofs - out.length)) ∧
    (cfg.debug = false → store cfg d t = .error .ub) := by
  have := h.len; have := h.idx
  have pattern : ∀ m, out.length + m ≤ n → ofs ≤ 4098 →
      (d.storePattern cfg ofs m = .error .ub ∨ (d.storePattern cfg ofs m = .error .terminate ∧ m < ofs - out.length)) ∧
      (cfg.debug = false → d.storePattern cfg ofs m = .error .ub) := by
    intro m hm h4
    unfold Dst.storePattern
    rw [if_pos (by omega)]
    by_cases hd : (cfg.debug && !decide (w64 (sub64 d.i ofs + m) ≤ d.mem.length)) = true
    · rw [if_pos hd]
      simp only [Bool.and_eq_true, Bool.not_eq_true', decide_eq_false_iff_not] at hd
      refine ⟨.inr ⟨rfl, ?_⟩, fun h => by rw [h] at hd; cases hd.1⟩
      have h2 := hd.2
      unfold w64 sub64 at h2
      omega
    · rw [if_neg hd, if_pos (by omega)]
      exact ⟨.inl rfl, fun _ => rfl⟩
  cases t with
  | lit | shortRun | longRun => cases ho
  | longPattern o m => cases ho; exact pattern m hfit hv.2.1
  | shortPattern o m => cases ho; exact pattern m hfit hv.2.1

theorem store_overlap (cfg : Cfg) {t : RdcTok} {ofs : Nat} {d : Dst} {n : Nat} {out : List Byte} (h : d.Has n out)
    (hn : n < 2 ^ 64) (hfit : out.length + t.size ≤ n) (ho : t.back = some ofs) (hl : ofs ≤ out.length) (hs : ofs < t.size) :
    store cfg d t = .error .ub := by
  have := h.len; have := h.idx
  have pattern : ∀ m, out.length + m ≤ n → ofs < m → d.storePattern cfg ofs m = .error .ub := by
    intro m hm hs
    unfold Dst.storePattern
    have e : w64 (sub64 d.i ofs + m) ≤ d.mem.length := by
      unfold w64 sub64; omega
    rw [if_pos (by omega), if_neg (by simp [e]), if_neg (by omega), if_pos hs]
  cases t with
  | lit | shortRun | longRun => cases ho
  | longPattern o m => cases ho; exact pattern m hfit hs
  | shortPattern o m => cases ho; exact pattern m hfit hs

theorem nextBit_length {bits bits' : List Bool} {src src' : List Byte} {b : Bool} (h : NextBit bits src b bits' src') :
    src'.length ≤ src.length ∧ src.length ≤ src'.length + 2 := by
  cases h
  · simp
  · simp only [List.length_cons]; omega

theorem rdc_reads (cfg : Cfg) {n : Nat} (hn : n < 2 ^ 64) {bits : List Bool} {src out : List Byte} {r : Decoded}
    (h : RdcReads n bits src out r) :
    ∀ {c : Ctrl} {d : Dst} (fuel : Nat), Corr c bits → d.Has n out → src.length ≤ fuel →
      LoopEnds n (rdcLoop cfg fuel c src d) r ∧
      (cfg.debug = false → r.Unsafe → (rdcLoop cfg fuel c src d).1 = .error .ub) := by
  induction h with
  | stop h =>
    intro c d fuel _ hd hf
    have := hd.len; have := hd.idx
    exact ⟨⟨d, rdcLoop_done (by omega), hd⟩, fun _ h => h.elim⟩
  | token t hv h3 ho hb hfit ha next ih =>
    intro c d fuel hc hd hf
    have := hd.len; have := hd.idx
    have hp := RdcTok.encode_pos t
    have hl := nextBit_length hb
    simp only [List.length_append] at hl
    obtain ⟨fuel, rfl⟩ : ∃ k, fuel = k + 1 := ⟨fuel - 1, by omega⟩
    obtain ⟨c', hc', e⟩ := rdcStep_store cfg t (RdcTok.valid_inRange hv) hb hc d
    obtain ⟨d', e', hd'⟩ := store_ok cfg hv hd hn hfit ha
    rw [rdcLoop_succ, if_pos ⟨h3, by omega⟩, e, e']
    exact ih fuel hc' hd' (by omega)
  | tooLong t hv h3 ho hb hfit =>
    intro c d fuel hc hd hf
    have := hd.len; have := hd.idx
    obtain ⟨fuel, rfl⟩ : ∃ k, fuel = k + 1 := ⟨fuel - 1, by omega⟩
    obtain ⟨c', hc', e⟩ := rdcStep_store cfg t hv hb hc d
    rw [rdcLoop_succ, if_pos ⟨h3, by omega⟩, e, store_long cfg t hd hfit]
    exact ⟨rfl, fun _ h => h.elim⟩
  | outside t ofs hv h3 ho hb hfit hbk hl =>
    intro c d fuel hc hd hf
    have := hd.len; have := hd.idx
    obtain ⟨fuel, rfl⟩ : ∃ k, fuel = k + 1 := ⟨fuel - 1, by omega⟩
    obtain ⟨c', hc', e⟩ := rdcStep_store cfg t hv hb hc d
    obtain ⟨s1, s2⟩ := store_outside cfg hd hn hv hfit hbk hl
    rw [rdcLoop_succ, if_pos ⟨h3, by omega⟩, e]
    refine ⟨?_, fun hg _ => by rw [s2 hg]; rfl⟩
    rcases s1 with s1 | ⟨s1, s3⟩
    · rw [s1]; exact .inl rfl
    · rw [s1]; exact .inr ⟨rfl, s3⟩
  | overlap t ofs hv h3 ho hb hfit hbk hl hs =>
    intro c d fuel hc hd hf
    have := hd.len; have := hd.idx
    obtain ⟨fuel, rfl⟩ : ∃ k, fuel = k + 1 := ⟨fuel - 1, by omega⟩
    obtain ⟨c', hc', e⟩ := rdcStep_store cfg t hv hb hc d
    rw [rdcLoop_succ, if_pos ⟨h3, by omega⟩, e, store_overlap cfg hd hn hfit hbk hl hs]
    exact ⟨rfl, fun _ _ => rfl⟩
  | @truncated bits bits' src src' out b h3 ho hb hno =>
    intro c d fuel hc hd hf
    have := hd.len; have := hd.idx
    have hl := nextBit_length hb
    obtain ⟨fuel, rfl⟩ : ∃ k, fuel = k + 1 := ⟨fuel - 1, by omega⟩
    obtain ⟨c', h1, h2, -⟩ := nextBit_control hb hc
    have e : rdcStep cfg c src d = .error .ub := by
      unfold rdcStep
      rw [h1]
      simp only [bind, Except.bind, h2]
      cases b with
      | true => rw [if_pos rfl, rdcToken_truncated cfg src' d hno]
      | false =>
        rcases src' with _ | ⟨v, rest⟩
        · simp at hl; omega
        · exact absurd rfl (hno (.lit v) rest trivial rfl)
    rw [rdcLoop_succ, if_pos ⟨h3, by omega⟩, e]
    exact ⟨rfl, fun _ _ => rfl⟩

theorem nextBit_exists (bits : List Bool) (src : List Byte) (h : 3 ≤ src.length) :
    ∃ b bits' src', NextBit bits src b bits' src' := by
  cases bits with
  | cons b bits => exact ⟨b, bits, src, .left b⟩
  | nil =>
    rcases src with _ | ⟨hi, _ | ⟨lo, src⟩⟩
    · simp at h
    · simp at h
    · exact ⟨_, _, src, .word hi lo rfl⟩

theorem rdc_total (n : Nat) : ∀ (k : Nat) (bits : List Bool) (src out : List Byte), src.length ≤ k →
    ∃ r, RdcReads n bits src out r := by
  intro k
  induction k with
  | zero => intro bits src out h; exact ⟨_, .stop (.inl (by omega))⟩
  | succ k ih =>
    intro bits src out hk
    by_cases hstop : src.length < 3 ∨ n ≤ out.length
    · exact ⟨_, .stop hstop⟩
    have hn : out.length < n := by omega
    have h3 : 3 ≤ src.length := by omega
    obtain ⟨b, bits', src', hb⟩ := nextBit_exists bits src h3
    have hl := nextBit_length hb
    by_cases hex : ∃ (t : RdcTok) (rest : List Byte), t.InRange ∧ t.compressed = b ∧ src' = t.encode ++ rest
    · obtain ⟨t, rest, hv, rfl, rfl⟩ := hex
      have hp := RdcTok.encode_pos t
      simp only [List.length_append] at hl
      by_cases hfit : out.length + t.size ≤ n
      · have go : t.Valid → (∃ out', t.apply out = some out') → ∃ r, RdcReads n bits src out r := by
          rintro hv ⟨out', ha⟩
          obtain ⟨r, hr⟩ := ih bits' rest out' (by omega)
          exact ⟨r, .token t hv h3 hn hb hfit ha hr⟩
        have pattern : ∀ ofs, t.back = some ofs → (ofs ≤ out.length → t.size ≤ ofs → t.Valid) →
            (ofs ≤ out.length → ∃ out', t.apply out = some out') → ∃ r, RdcReads n bits src out r := by
          intro ofs h1 h2 h4
          by_cases h5 : out.length < ofs
          · exact ⟨_, .outside t ofs hv h3 hn hb hfit h1 h5⟩
          · by_cases h6 : ofs < t.size
            · exact ⟨_, .overlap t ofs hv h3 hn hb hfit h1 (by omega) h6⟩
            · exact go (h2 (by omega) (by omega)) (h4 (by omega))
        cases t with
        | lit b => exact go hv ⟨_, rfl⟩
        | shortRun b m => exact go hv ⟨_, rfl⟩
        | longRun b m => exact go hv ⟨_, rfl⟩
        | longPattern ofs m =>
          exact pattern ofs rfl (fun _ h => ⟨hv.1, hv.2.1, hv.2.2.1, hv.2.2.2, h⟩)
            (fun h => ⟨_, if_pos h⟩)
        | shortPattern ofs m =>
          exact pattern ofs rfl (fun _ h => ⟨hv.1, hv.2.1, hv.2.2.1, hv.2.2.2, h⟩)
            (fun h => ⟨_, if_pos h⟩)
      · exact ⟨_, .tooLong t hv h3 hn hb (by omega)⟩
    · exact ⟨_, .truncated b h3 hn hb fun t rest h1 h2 h4 => hex ⟨t, rest, h1, h2, h4⟩⟩

end Sas.Proofs
