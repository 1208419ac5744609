import Verif.Proofs.Rle

/-! The RDC decompressor against the specification of the writer. -/

namespace Sas

open Spec

theorem rdcToken_spec (cfg : Cfg) (t : RdcTok) (hv : t.Valid) (hcomp : t.compressed = true)
    {d : Dst} {n : Nat} {out out' : List Byte} (h : d.Has n out) (hn : n < 2 ^ 64)
    (rest : List Byte) (ho : t.apply out = some out') (hk : out'.length ≤ n) :
    ∃ d', rdcToken cfg (t.encode ++ rest) d = .ok (rest, d') ∧ d'.Has n out' := by
  cases t with
  | lit b => simp [RdcTok.compressed] at hcomp
  | shortRun b m =>
    simp only [RdcTok.Valid, RdcTok.apply, Option.some.injEq] at hv ho
    subst ho
    simp only [List.length_append, List.length_replicate] at hk
    obtain ⟨d', hd, hh⟩ := h.storeValue b m hk
    refine ⟨d', ?_, hh⟩
    have e1 := toNat_ofNat_lt (k := m - 3) (by omega)
    have e3 : (m - 3) % 16 + 3 = m := by omega
    simp only [rdcToken, RdcTok.encode, List.cons_append, List.nil_append, pop, bind, Except.bind, e1]
    rw [if_pos (by omega), e3, hd]; rfl
  | longRun b m =>
    simp only [RdcTok.Valid, RdcTok.apply, Option.some.injEq] at hv ho
    subst ho
    simp only [List.length_append, List.length_replicate] at hk
    obtain ⟨d', hd, hh⟩ := h.storeValue b m hk
    refine ⟨d', ?_, hh⟩
    have e1 := toNat_ofNat_lt (k := 0x10 + (m - 19) % 16) (by omega)
    have e2 := toNat_ofNat_lt (k := (m - 19) / 16) (by omega)
    have e3 : (0x10 + (m - 19) % 16) % 16 + ((m - 19) / 16 * 16 + 19) = m := by omega
    simp only [rdcToken, RdcTok.encode, List.cons_append, List.nil_append, pop, bind, Except.bind, e1,
      e2]
    rw [if_neg (by omega), if_pos (by omega), e3, hd]; rfl
  | longPattern ofs m =>
    simp only [RdcTok.Valid, RdcTok.apply] at hv ho
    split at ho
    · rename_i hofs
      cases ho
      rw [List.length_append, show ((out.drop (out.length - ofs)).take m).length = m from
        slice_length (l := out) (by omega)] at hk
      obtain ⟨d', hd, hh⟩ := h.storePattern cfg ofs m hk hofs (by omega) hn
      refine ⟨d', ?_, hh⟩
      have e1 := toNat_ofNat_lt (k := 0x20 + (ofs - 3) % 16) (by omega)
      have e2 := toNat_ofNat_lt (k := (ofs - 3) / 16) (by omega)
      have e2' := toNat_ofNat_lt (k := m - 16) (by omega)
      have e3 : (0x20 + (ofs - 3) % 16) % 16 + 3 + (ofs - 3) / 16 * 16 = ofs := by omega
      have e4 : m - 16 + 16 = m := by omega
      simp only [rdcToken, RdcTok.encode, List.cons_append, List.nil_append, pop, bind, Except.bind,
        e1, e2, e2']
      rw [if_neg (by omega), if_neg (by omega), if_pos (by omega), e3, e4, hd]; rfl
    · cases ho
  | shortPattern ofs m =>
    simp only [RdcTok.Valid, RdcTok.apply] at hv ho
    split at ho
    · rename_i hofs
      cases ho
      rw [List.length_append, show ((out.drop (out.length - ofs)).take m).length = m from
        slice_length (l := out) (by omega)] at hk
      obtain ⟨d', hd, hh⟩ := h.storePattern cfg ofs m hk hofs (by omega) hn
      refine ⟨d', ?_, hh⟩
      have e1 := toNat_ofNat_lt (k := 16 * m + (ofs - 3) % 16) (by omega)
      have e2 := toNat_ofNat_lt (k := (ofs - 3) / 16) (by omega)
      have e3 : (16 * m + (ofs - 3) % 16) % 16 + 3 + (ofs - 3) / 16 * 16 = ofs := by omega
      have e4 : (16 * m + (ofs - 3) % 16) / 16 = m := by omega
      simp only [rdcToken, RdcTok.encode, List.cons_append, List.nil_append, pop, bind, Except.bind,
        e1, e2]
      rw [if_neg (by omega), if_neg (by omega), if_neg (by omega), e3, e4, hd]; rfl
    · cases ho

theorem and_two_pow' (n i : Nat) : n &&& 2 ^ i = (n.testBit i).toNat * 2 ^ i := by
  apply Nat.eq_of_testBit_eq
  intro j
  rw [Nat.testBit_and, Nat.testBit_two_pow]
  by_cases h : i = j
  · subst h
    cases hb : n.testBit i <;> simp
  · cases hb : n.testBit i <;> simp [h]

theorem ctrlBits_lt (k : Nat) : ∀ ts : List RdcTok, ts.length ≤ k + 1 →
    ctrlBits (2 ^ k) ts < 2 ^ (k + 1) := by
  induction k with
  | zero =>
    intro ts h
    match ts, h with
    | [], _ => simp [ctrlBits]
    | [t], _ => simp only [ctrlBits]; split <;> simp
  | succ k ih =>
    intro ts h
    cases ts with
    | nil => simp [ctrlBits]; exact Nat.pow_pos (by omega)
    | cons t ts =>
      have := ih ts (by simpa using h)
      have e : 2 ^ (k + 1) / 2 = 2 ^ k := by rw [Nat.pow_succ]; omega
      simp only [ctrlBits, e]
      have e2 : 2 ^ (k + 1 + 1) = 2 ^ (k + 1) + 2 ^ (k + 1) := by omega
      split <;> omega

/-- `bits` is a control word whose bits from weight `2^k` down announce the tokens `ts`. -/
def Announces (bits k : Nat) (ts : List RdcTok) : Prop :=
  ∃ hi, bits = hi * 2 ^ (k + 1) + ctrlBits (2 ^ k) ts

theorem Announces.head {bits k : Nat} {t : RdcTok} {ts : List RdcTok}
    (h : Announces bits k (t :: ts)) (hl : (t :: ts).length ≤ k + 1) :
    (bits &&& 2 ^ k != 0) = t.compressed := by
  obtain ⟨hi, h⟩ := h
  rw [and_two_pow']
  have key : bits.testBit k = t.compressed := by
    rw [Nat.testBit_eq_decide_div_mod_eq]
    have hlt : ctrlBits (2 ^ k / 2) ts < 2 ^ k := by
      cases k with
      | zero =>
        have : ts = [] := by simpa using hl
        subst this; simp [ctrlBits]
      | succ k =>
        have e : 2 ^ (k + 1) / 2 = 2 ^ k := by rw [Nat.pow_succ]; omega
        rw [e]; exact ctrlBits_lt k ts (by simpa using hl)
    have hp : 0 < 2 ^ k := Nat.pow_pos (by omega)
    have e : hi * 2 ^ (k + 1) + ((if t.compressed then 2 ^ k else 0) + ctrlBits (2 ^ k / 2) ts)
        = (2 * hi + (if t.compressed then 1 else 0)) * 2 ^ k + ctrlBits (2 ^ k / 2) ts := by
      rw [Nat.pow_succ]
      cases t.compressed <;> simp <;> grind
    have hb : bits / 2 ^ k = 2 * hi + (if t.compressed then 1 else 0) := by
      rw [h]
      simp only [ctrlBits]
      rw [e, Nat.add_comm, Nat.add_mul_div_right _ _ hp, Nat.div_eq_of_lt hlt]
      omega
    simp only [hb]
    cases t.compressed <;> simp
  rw [key]
  cases t.compressed <;> simp

theorem Announces.tail {bits k : Nat} {t : RdcTok} {ts : List RdcTok}
    (h : Announces bits (k + 1) (t :: ts)) : Announces bits k ts := by
  obtain ⟨hi, h⟩ := h
  refine ⟨2 * hi + (if t.compressed then 1 else 0), ?_⟩
  rw [h]
  have e : 2 ^ (k + 1) / 2 = 2 ^ k := by rw [Nat.pow_succ]; omega
  simp only [ctrlBits, e]
  cases t.compressed <;> simp <;> grind

theorem RdcTok.encode_pos (t : RdcTok) : 1 ≤ t.encode.length := by
  cases t <;> simp [RdcTok.encode]

theorem RdcTok.apply_grow {t : RdcTok} (hv : t.Valid) {out out' : List Byte}
    (h : t.apply out = some out') : out.length < out'.length := by
  cases t <;> simp only [RdcTok.Valid, RdcTok.apply] at hv h
  · cases h; simp
  · cases h; simp; omega
  · cases h; simp; omega
  · split at h
    · cases h; simp; omega
    · cases h
  · split at h
    · cases h; simp; omega
    · cases h

theorem rdcApply_le {ts : List RdcTok} : ∀ {out out' : List Byte}, (∀ t ∈ ts, t.Valid) →
    rdcApply out ts = some out' → out.length ≤ out'.length := by
  induction ts with
  | nil => intro out out' _ h; cases h; exact Nat.le_refl _
  | cons t ts ih =>
    intro out out' hv h
    simp only [rdcApply] at h
    cases ha : t.apply out with
    | none => simp [ha] at h
    | some o =>
      simp only [ha, Option.bind_some] at h
      have := ih (fun t ht => hv t (by simp [ht])) h
      have := RdcTok.apply_grow (hv t (by simp)) ha
      omega

theorem rdcLoop_succ (cfg : Cfg) (n : Nat) (c : Ctrl) (src : List Byte) (d : Dst) :
    rdcLoop cfg (n + 1) c src d =
    if 3 ≤ src.length ∧ d.i < d.mem.length then
      match rdcStep cfg c src d with
      | .ok (c', src', d') => rdcLoop cfg n c' src' d'
      | .error e => (.error e, d)
    else (.ok (), d) := rfl

theorem rdcLoop_done {cfg : Cfg} {fuel : Nat} {c : Ctrl} {src : List Byte} {d : Dst}
    (h : src.length < 3 ∨ d.mem.length ≤ d.i) : rdcLoop cfg fuel c src d = (.ok (), d) := by
  cases fuel with
  | zero => unfold rdcLoop; rw [if_neg (by omega)]
  | succ n => rw [rdcLoop_succ, if_neg (by omega)]

/-- A step once the control word is known to announce the token `t`. -/
theorem rdcStep_ctrl (cfg : Cfg) (t : RdcTok) (hv : t.Valid) {k bits : Nat} {ts : List RdcTok}
    (ha : Announces bits k (t :: ts)) (hl : (t :: ts).length ≤ k + 1) {c : Ctrl}
    {d : Dst} {n : Nat} {out out' : List Byte} (h : d.Has n out) (hn : n < 2 ^ 64)
    {src : List Byte} (rest : List Byte)
    (hc : rdcControl c src = .ok (⟨2 ^ k, bits⟩, t.encode ++ rest))
    (ho : t.apply out = some out') (hk : out'.length ≤ n) :
    ∃ d', rdcStep cfg c src d = .ok (⟨2 ^ k, bits⟩, rest, d') ∧ d'.Has n out' := by
  have hh := ha.head hl
  unfold rdcStep
  rw [hc]
  simp only [bind, Except.bind, Ctrl.isSet, hh]
  cases ht : t.compressed with
  | true =>
    obtain ⟨d', hd, hh⟩ := rdcToken_spec cfg t hv ht h hn rest ho hk
    exact ⟨d', by simp [hd, pure, Except.pure], hh⟩
  | false =>
    cases t <;> simp [RdcTok.compressed] at ht
    rename_i b
    simp only [RdcTok.apply, Option.some.injEq] at ho
    subst ho
    simp only [List.length_append, List.length_cons, List.length_nil] at hk
    obtain ⟨d', hd, hh⟩ := h.storeValue b 1 (by omega)
    exact ⟨d', by simp [RdcTok.encode, pop, hd, pure, Except.pure], hh⟩

theorem rdcControl_next {k bits : Nat} {src : List Byte} :
    rdcControl ⟨2 ^ (k + 1), bits⟩ src = .ok (⟨2 ^ k, bits⟩, src) := by
  have e : 2 ^ (k + 1) / 2 = 2 ^ k := by rw [Nat.pow_succ]; omega
  have hp : 0 < 2 ^ k := Nat.pow_pos (by omega)
  simp only [rdcControl, e]
  rw [if_neg (by omega)]; rfl

theorem rdcControl_reload {m bits : Nat} (hm : m < 2) (g : List RdcTok) (hg : g.length ≤ 16)
    (rest : List Byte) :
    rdcControl ⟨m, bits⟩ (rdcEncodeGroup g ++ rest) =
      .ok (⟨2 ^ 15, ctrlBits (2 ^ 15) g⟩, g.flatMap RdcTok.encode ++ rest) := by
  have hb := ctrlBits_lt 15 g hg
  have e : ctrlBits 0x8000 g = ctrlBits (2 ^ 15) g := rfl
  unfold rdcEncodeGroup
  rw [e]
  generalize ctrlBits (2 ^ 15) g = x at *
  have e1 := toNat_ofNat_lt (k := x / 256) (by omega)
  have e2 := toNat_ofNat_lt (k := x % 256) (by omega)
  simp only [rdcControl]
  rw [if_pos (by omega)]
  simp only [List.cons_append, List.nil_append, pop, bind, Except.bind, e1, e2, pure, Except.pure]
  congr 3
  omega

/-- Running the loop inside a group, whose control word has been loaded, over tokens that all find three
bytes. -/
theorem rdcLoop_group (cfg : Cfg) {n : Nat} (hn : n < 2 ^ 64) (rest : List Byte) :
    ∀ (ts : List RdcTok) (later : List RdcTok) {bits : Nat} {d : Dst} {out out' : List Byte}
      (fuel : Nat) (k : Nat),
    (∀ t ∈ ts, t.Valid) → Announces bits k (ts ++ later) → (ts ++ later).length ≤ k + 1 →
    d.Has n out → rdcApply out ts = some out' → out'.length ≤ n →
    (∀ pre t post, ts = pre ++ t :: post → 3 ≤ toksLen (t :: post) + rest.length) →
    (ts.flatMap RdcTok.encode ++ rest).length ≤ fuel →
    ∃ d' fuel', rest.length ≤ fuel' ∧ d'.Has n out' ∧
      rdcLoop cfg fuel ⟨2 ^ (k + 1), bits⟩ (ts.flatMap RdcTok.encode ++ rest) d =
        rdcLoop cfg fuel' ⟨2 ^ (k + 1 - ts.length), bits⟩ rest d' := by
  intro ts
  induction ts with
  | nil =>
    intro later bits d out out' fuel k _ _ _ h ho _ _ hf
    cases ho
    exact ⟨d, fuel, by simpa using hf, h, by simp⟩
  | cons t ts ih =>
    intro later bits d out out' fuel k hv ha hl h ho hle h3 hf
    simp only [rdcApply] at ho
    cases hap : t.apply out with
    | none => simp [hap] at ho
    | some o =>
      simp only [hap, Option.bind_some] at ho
      have hvt := hv t (by simp)
      have hgr := RdcTok.apply_grow hvt hap
      have hgr2 := rdcApply_le (fun t ht => hv t (by simp [ht])) ho
      have hpos := RdcTok.encode_pos t
      have hsrc : (t :: ts).flatMap RdcTok.encode ++ rest =
          t.encode ++ (ts.flatMap RdcTok.encode ++ rest) := by simp
      obtain ⟨d1, hs, hh⟩ := rdcStep_ctrl cfg t hvt (ts := ts ++ later) ha hl h hn
        (src := (t :: ts).flatMap RdcTok.encode ++ rest)
        (ts.flatMap RdcTok.encode ++ rest) (c := ⟨2 ^ (k + 1), bits⟩)
        (by rw [rdcControl_next, hsrc]) hap (by omega)
      have h3' := h3 [] t ts rfl
      rw [hsrc] at hf hs ⊢
      simp only [toksLen, List.flatMap_cons, List.length_append] at h3' hf
      obtain ⟨fuel, rfl⟩ : ∃ j, fuel = j + 1 := ⟨fuel - 1, by omega⟩
      have hl1 := h.len; have hi1 := h.idx
      rw [rdcLoop_succ, if_pos (by simp only [List.length_append]; omega), hs]
      simp only
      cases k with
      | zero =>
        have hts : ts = [] := by
          cases ts with
          | nil => rfl
          | cons _ _ => simp at hl
        subst hts
        cases ho
        exact ⟨d1, fuel, by simp at hf ⊢; omega, hh, by simp⟩
      | succ k =>
        obtain ⟨d2, f2, hf2, hh2, he⟩ := ih later fuel k (fun t ht => hv t (by simp [ht])) ha.tail
          (by simpa using hl) hh ho hle
          (fun pre t' post hp => h3 (t :: pre) t' post (by simp [hp]))
          (by simp only [List.length_append]; omega)
        refine ⟨d2, f2, hf2, hh2, ?_⟩
        rw [he]
        congr 3
        simp

theorem flatMap_append_toks (a b : List RdcTok) :
    (a ++ b).flatMap RdcTok.encode = a.flatMap RdcTok.encode ++ b.flatMap RdcTok.encode := by
  simp

/-- A group whose first tokens `t :: ts` all find three bytes (the first one with the control word), and
whose other tokens are `later`. -/
theorem rdcLoop_oneGroup (cfg : Cfg) {n : Nat} (hn : n < 2 ^ 64) (rest : List Byte)
    (t : RdcTok) (ts later : List RdcTok) {d : Dst} {out out' : List Byte} {m bits : Nat} (hm : m < 2)
    (fuel : Nat) (hv : ∀ u ∈ t :: ts, u.Valid) (hl : (t :: ts ++ later).length ≤ 16)
    (h : d.Has n out) (ho : rdcApply out (t :: ts) = some out') (hle : out'.length ≤ n)
    (h3 : ∀ pre u post, ts = pre ++ u :: post →
      3 ≤ toksLen (u :: post) + (later.flatMap RdcTok.encode ++ rest).length)
    (hf : (rdcEncodeGroup (t :: ts ++ later) ++ rest).length ≤ fuel) :
    ∃ d' fuel', (later.flatMap RdcTok.encode ++ rest).length ≤ fuel' ∧ d'.Has n out' ∧
      rdcLoop cfg fuel ⟨m, bits⟩ (rdcEncodeGroup (t :: ts ++ later) ++ rest) d =
        rdcLoop cfg fuel' ⟨2 ^ (15 - ts.length), ctrlBits (2 ^ 15) (t :: ts ++ later)⟩
          (later.flatMap RdcTok.encode ++ rest) d' := by
  simp only [rdcApply] at ho
  cases hap : t.apply out with
  | none => simp [hap] at ho
  | some o =>
    simp only [hap, Option.bind_some] at ho
    have hvt := hv t (by simp)
    have hgr := RdcTok.apply_grow hvt hap
    have hgr2 := rdcApply_le (fun u hu => hv u (by simp [hu])) ho
    have hpos := RdcTok.encode_pos t
    have ha : Announces (ctrlBits (2 ^ 15) (t :: ts ++ later)) 15 (t :: (ts ++ later)) :=
      ⟨0, by simp⟩
    obtain ⟨d1, hs, hh⟩ := rdcStep_ctrl cfg t hvt (ts := ts ++ later) ha hl h hn
      (src := rdcEncodeGroup (t :: ts ++ later) ++ rest)
      (ts.flatMap RdcTok.encode ++ (later.flatMap RdcTok.encode ++ rest)) (c := ⟨m, bits⟩)
      (by rw [rdcControl_reload hm _ hl]; simp) hap (by omega)
    have hlen : (rdcEncodeGroup (t :: ts ++ later) ++ rest).length = 2 + t.encode.length +
        (ts.flatMap RdcTok.encode ++ (later.flatMap RdcTok.encode ++ rest)).length := by
      simp [rdcEncodeGroup]; omega
    obtain ⟨fuel, rfl⟩ : ∃ j, fuel = j + 1 := ⟨fuel - 1, by omega⟩
    have hl1 := h.len; have hi1 := h.idx
    obtain ⟨d2, f2, hf2, hh2, he⟩ := rdcLoop_group cfg hn (later.flatMap RdcTok.encode ++ rest) ts later
      fuel 14 (fun u hu => hv u (by simp [hu])) (Announces.tail ha) (by simpa using hl) hh ho hle h3
      (by omega)
    refine ⟨d2, f2, hf2, hh2, ?_⟩
    rw [rdcLoop_succ, if_pos (by omega), hs, ← he]

theorem rdcDropShort_spec (ts : List RdcTok) : ∃ later, ts = rdcDropShort ts ++ later ∧
    toksLen later ≤ 2 ∧
    ∀ pre u post, rdcDropShort ts = pre ++ u :: post → 3 ≤ toksLen (u :: post) + toksLen later := by
  induction ts with
  | nil => exact ⟨[], rfl, by simp [toksLen], by simp [rdcDropShort]⟩
  | cons t ts ih =>
    obtain ⟨later, h1, h2, h3⟩ := ih
    by_cases h : toksLen (t :: ts) ≤ 2
    · exact ⟨t :: ts, by simp [rdcDropShort, h], h, by simp [rdcDropShort, h]⟩
    · have e : rdcDropShort (t :: ts) = t :: rdcDropShort ts := by simp [rdcDropShort, h]
      refine ⟨later, by rw [e, List.cons_append, ← h1], h2, ?_⟩
      intro pre u post hp
      rw [e] at hp
      cases pre with
      | nil =>
        simp only [List.nil_append, List.cons.injEq] at hp
        obtain ⟨rfl, rfl⟩ := hp
        have : toksLen (t :: rdcDropShort ts) + toksLen later = toksLen (t :: ts) := by
          conv => rhs; rw [h1]
          simp [toksLen]; omega
        omega
      | cons p pre =>
        simp only [List.cons_append, List.cons.injEq] at hp
        exact h3 pre u post hp.2

theorem rdcApply_append (a b : List RdcTok) : ∀ out,
    rdcApply out (a ++ b) = (rdcApply out a).bind fun o => rdcApply o b := by
  induction a with
  | nil => intro out; rfl
  | cons t ts ih =>
    intro out
    simp only [List.cons_append, rdcApply]
    cases t.apply out with
    | none => rfl
    | some o => simp [ih]

/-- The loop over full groups. -/
theorem rdcLoop_groups (cfg : Cfg) {n : Nat} (hn : n < 2 ^ 64) (rest : List Byte)
    (hrest : 3 ≤ rest.length) : ∀ (gs : List (List RdcTok)) {d : Dst} {out out' : List Byte}
    {m bits : Nat}, m < 2 → ∀ (fuel : Nat), (∀ g ∈ gs, g.length = 16 ∧ ∀ t ∈ g, t.Valid) →
    d.Has n out → rdcApply out gs.flatten = some out' → out'.length ≤ n →
    (gs.flatMap rdcEncodeGroup ++ rest).length ≤ fuel →
    ∃ d' fuel' m' bits', m' < 2 ∧ rest.length ≤ fuel' ∧ d'.Has n out' ∧
      rdcLoop cfg fuel ⟨m, bits⟩ (gs.flatMap rdcEncodeGroup ++ rest) d =
        rdcLoop cfg fuel' ⟨m', bits'⟩ rest d' := by
  intro gs
  induction gs with
  | nil =>
    intro d out out' m bits hm fuel _ h ho _ hf
    cases ho
    exact ⟨d, fuel, m, bits, hm, by simpa using hf, h, by simp⟩
  | cons g gs ih =>
    intro d out out' m bits hm fuel hv h ho hle hf
    obtain ⟨hg, hgv⟩ := hv g (by simp)
    rw [List.flatten_cons, rdcApply_append] at ho
    cases hap : rdcApply out g with
    | none => simp [hap] at ho
    | some o =>
      simp only [hap, Option.bind_some] at ho
      have hle1 : o.length ≤ out'.length := rdcApply_le (by
        intro t ht
        obtain ⟨g', hg', ht⟩ := List.mem_flatten.1 ht
        exact (hv g' (by simp [hg'])).2 t ht) ho
      cases g with
      | nil => simp at hg
      | cons t ts =>
        have hsrc : ((t :: ts) :: gs).flatMap rdcEncodeGroup ++ rest =
            rdcEncodeGroup (t :: ts ++ []) ++ (gs.flatMap rdcEncodeGroup ++ rest) := by simp
        rw [hsrc] at hf ⊢
        obtain ⟨d1, f1, hf1, hh1, he1⟩ := rdcLoop_oneGroup cfg hn (gs.flatMap rdcEncodeGroup ++ rest)
          t ts [] hm (bits := bits) fuel hgv (by simpa using Nat.le_of_eq hg) h hap (by omega)
          (by intro pre u post _; simp only [List.length_append]; omega) hf
        have hts : ts.length = 15 := by simpa using hg
        rw [he1]
        exact ih (by rw [hts]; decide) f1 (fun g' hg' => hv g' (by simp [hg'])) hh1 ho hle
          (by simpa using hf1)

theorem rdc_of_loop {cfg : Cfg} {src dst out : List Byte} {d' : Dst}
    (he : rdcLoop cfg src.length ⟨0, 0⟩ src ⟨dst, 0⟩ = (.ok (), d')) (h : d'.Has dst.length out) :
    (rdc cfg src dst).1 = .ok (out ++ List.replicate (dst.length - out.length) 0) := by
  obtain ⟨d2, hf, hm⟩ := h.fill
  simp [rdc, he, hf, hm]

theorem rdc_exact (cfg : Cfg) (gs : List (List RdcTok)) (last : List RdcTok)
    (hgs : ∀ g ∈ gs, g.length = 16 ∧ ∀ t ∈ g, t.Valid)
    (hlast : last ≠ [] ∧ last.length ≤ 16 ∧ ∀ t ∈ last, t.Valid)
    (dst out : List Byte) (ho : rdcApply [] (gs.flatten ++ last) = some out)
    (hd : out.length ≤ dst.length) (h64 : dst.length < 2 ^ 64) :
    ∃ kept, rdcApply [] (gs.flatten ++ rdcKeptLast last) = some kept ∧
      (rdc cfg (rdcEncode gs last) dst).1 =
        .ok (kept ++ List.replicate (dst.length - kept.length) 0) := by
  obtain ⟨hne, hl16, hlv⟩ := hlast
  cases last with
  | nil => exact absurd rfl hne
  | cons t ts =>
    obtain ⟨later, h1, h2, h3⟩ := rdcDropShort_spec ts
    have hk : rdcKeptLast (t :: ts) = t :: rdcDropShort ts := rfl
    have hts : t :: ts = (t :: rdcDropShort ts) ++ later := by rw [List.cons_append, ← h1]
    rw [hk]
    have hvl : ∀ u ∈ later, u.Valid := fun u hu => hlv u (by rw [hts]; simp [hu])
    have hvk : ∀ u ∈ t :: rdcDropShort ts, u.Valid := fun u hu => hlv u (by
      rw [hts]; exact List.mem_append_left _ hu)
    rw [hts, ← List.append_assoc, rdcApply_append] at ho
    rw [rdcApply_append] at ho ⊢
    cases hg : rdcApply [] gs.flatten with
    | none => simp [hg] at ho
    | some og =>
      simp only [hg, Option.bind_some] at ho ⊢
      cases hkk : rdcApply og (t :: rdcDropShort ts) with
      | none => simp [hkk] at ho
      | some kept =>
        simp only [hkk, Option.bind_some] at ho
        have l1 := rdcApply_le hvl ho
        have l2 := rdcApply_le hvk hkk
        refine ⟨kept, rfl, ?_⟩
        have hp := RdcTok.encode_pos t
        have hr : 3 ≤ (rdcEncodeGroup (t :: ts)).length := by simp [rdcEncodeGroup]; omega
        obtain ⟨d1, f1, m1, b1, hm1, hf1, hh1, he1⟩ := rdcLoop_groups cfg h64
          (rdcEncodeGroup (t :: ts)) hr gs (m := 0) (bits := 0) (by omega)
          (rdcEncode gs (t :: ts)).length hgs (Dst.has_init dst) hg (by omega) (Nat.le_refl _)
        have hts' : t :: ts = t :: rdcDropShort ts ++ later := hts
        obtain ⟨d2, f2, hf2, hh2, he2⟩ := rdcLoop_oneGroup cfg h64 [] t (rdcDropShort ts) later hm1
          (bits := b1) f1 hvk (by rw [← hts']; exact hl16) hh1 hkk (by omega)
          (by
            intro pre u post hpp
            have := h3 pre u post hpp
            simpa [toksLen] using this)
          (by rw [← hts']; simpa using hf1)
        refine rdc_of_loop (d' := d2) ?_ hh2
        rw [← hts'] at he2
        simp only [List.append_nil] at he2
        show rdcLoop cfg _ _ (gs.flatMap rdcEncodeGroup ++ rdcEncodeGroup (t :: ts)) _ = _
        rw [he1, he2]
        exact rdcLoop_done (Or.inl (by simp only [toksLen] at h2; omega))

/-- Nothing is dropped from a last group that has one token, or whose last token has three bytes. -/
theorem rdcDropShort_id {ts : List RdcTok} (h : ∀ t, ts.getLast? = some t → 3 ≤ t.encode.length) :
    rdcDropShort ts = ts := by
  induction ts with
  | nil => rfl
  | cons t ts ih =>
    have hbig : ¬ toksLen (t :: ts) ≤ 2 := by
      obtain ⟨u, hu⟩ : ∃ u, (t :: ts).getLast? = some u := by
        cases h : (t :: ts).getLast? with
        | none => simp at h
        | some u => exact ⟨u, rfl⟩
      have := h u hu
      obtain ⟨l, hl⟩ := List.getLast?_eq_some_iff.1 hu
      rw [hl]
      simp [toksLen]; omega
    rw [rdcDropShort, if_neg hbig, ih]
    intro u hu
    apply h
    cases ts with
    | nil => simp at hu
    | cons => simpa using hu

/-- Two runs of an RDC step behave alike. -/
theorem storePattern_sim (cfg : Cfg) {n : Nat} {d d' : Dst} {out : List Byte} (h : d.Has n out)
    (h' : d'.Has n out) (ofs k : Nat) (src : List Byte) :
    StepSim n (do return (src, ← d.storePattern cfg ofs k))
      (do return (src, ← d'.storePattern cfg ofs k)) := by
  have a1 := h.len; have a2 := h.idx; have a3 := h'.len; have a4 := h'.idx
  unfold Dst.storePattern
  rw [a1, a2, a3, a4]
  by_cases c1 : out.length + k ≤ n
  · rw [if_pos c1, if_pos c1]
    split
    · exact .err _
    · split
      · exact .err _
      · split
        · exact .err _
        · have hs : slice d.mem (out.length - ofs) k = slice d'.mem (out.length - ofs) k := by
            have e1 := h.pre; have e2 := h'.pre
            have t1 := slice_take (l := d.mem) (k := out.length) (o := out.length - ofs) (n := k)
              (by omega)
            have t2 := slice_take (l := d'.mem) (k := out.length) (o := out.length - ofs) (n := k)
              (by omega)
            rw [← t1, ← t2, e1, e2]
          have hlen : (slice d.mem (out.length - ofs) k).length = k := by
            rw [slice_length]; omega
          simp only [bind, Except.bind, pure, Except.pure]
          have w1 := h.write (bs := slice d.mem (out.length - ofs) k) (by rw [hlen]; exact c1)
          have w2 := h'.write (bs := slice d.mem (out.length - ofs) k) (by rw [hlen]; exact c1)
          rw [a2, hlen] at w1
          rw [a4, hlen] at w2
          rw [← hs]
          exact .ok _ _ _ _ w1 w2
  · rw [if_neg c1, if_neg c1]; exact .err _

theorem rdcToken_sim (cfg : Cfg) {n : Nat} {d d' : Dst} {out : List Byte} (h : d.Has n out)
    (h' : d'.Has n out) (src : List Byte) :
    StepSim n (rdcToken cfg src d) (rdcToken cfg src d') := by
  unfold rdcToken
  apply pop_bind_sim
  rintro ⟨val, src⟩
  dsimp only
  apply ite_sim (pop_bind_sim _ _ _ fun _ => storeValue_sim h h' _ _ _)
  apply ite_sim (pop_bind_sim _ _ _ fun _ => pop_bind_sim _ _ _ fun _ => storeValue_sim h h' _ _ _)
  apply ite_sim (pop_bind_sim _ _ _ fun _ => pop_bind_sim _ _ _ fun _ =>
    storePattern_sim cfg h h' _ _ _)
  exact pop_bind_sim _ _ _ fun _ => storePattern_sim cfg h h' _ _ _

/-- Two runs of an RDC step behave alike. -/
inductive RdcSim (n : Nat) : Res (Ctrl × List Byte × Dst) → Res (Ctrl × List Byte × Dst) → Prop
  | err (e : Stop) : RdcSim n (.error e) (.error e)
  | ok (c : Ctrl) (src : List Byte) (d d' : Dst) (out : List Byte) (h : d.Has n out)
      (h' : d'.Has n out) : RdcSim n (.ok (c, src, d)) (.ok (c, src, d'))

theorem RdcSim.of_step {n : Nat} {x y : Res (List Byte × Dst)} (h : StepSim n x y) (c : Ctrl) :
    RdcSim n (do let (src, d) ← x; return (c, src, d)) (do let (src, d) ← y; return (c, src, d)) := by
  cases h with
  | err e => exact .err _
  | ok src d d' out h h' => exact .ok _ _ _ _ _ h h'

theorem rdcStep_sim (cfg : Cfg) {n : Nat} {d d' : Dst} {out : List Byte} (h : d.Has n out)
    (h' : d'.Has n out) (c : Ctrl) (src : List Byte) :
    RdcSim n (rdcStep cfg c src d) (rdcStep cfg c src d') := by
  unfold rdcStep
  cases hc : rdcControl c src with
  | error e => exact .err _
  | ok x =>
    obtain ⟨c, src⟩ := x
    simp only [bind, Except.bind]
    cases hs : c.isSet with
    | true => exact RdcSim.of_step (rdcToken_sim cfg h h' src) c
    | false =>
      simp only [Bool.false_eq_true, if_false]
      cases src with
      | nil => exact .err _
      | cons v src =>
        simp only [pop]
        have := RdcSim.of_step (storeValue_sim h h' v 1 src) c
        simp only [bind, Except.bind, pure, Except.pure] at this ⊢
        cases h1 : d.storeValue v 1 <;> cases h2 : d'.storeValue v 1 <;> simp_all

theorem rdcLoop_sim (cfg : Cfg) {n : Nat} (fuel : Nat) : ∀ {d d' : Dst} {out : List Byte} (c : Ctrl)
    (src : List Byte), d.Has n out → d'.Has n out →
    (rdcLoop cfg fuel c src d).1 = (rdcLoop cfg fuel c src d').1 ∧
    ∃ out', (rdcLoop cfg fuel c src d).2.Has n out' ∧ (rdcLoop cfg fuel c src d').2.Has n out' := by
  induction fuel with
  | zero =>
    intro d d' out c src h h'
    have := h.len; have := h.idx; have := h'.len; have := h'.idx
    unfold rdcLoop
    by_cases hc : 3 ≤ src.length ∧ d.i < d.mem.length
    · rw [if_pos hc, if_pos (by omega)]; exact ⟨rfl, out, h, h'⟩
    · rw [if_neg hc, if_neg (by omega)]; exact ⟨rfl, out, h, h'⟩
  | succ k ih =>
    intro d d' out c src h h'
    have := h.len; have := h.idx; have := h'.len; have := h'.idx
    rw [rdcLoop_succ, rdcLoop_succ]
    by_cases hc : 3 ≤ src.length ∧ d.i < d.mem.length
    · rw [if_pos hc, if_pos (by omega)]
      have hs := rdcStep_sim cfg h h' c src
      revert hs
      generalize rdcStep cfg c src d = x
      generalize rdcStep cfg c src d' = y
      intro hs
      cases hs with
      | err e => exact ⟨rfl, out, h, h'⟩
      | ok c1 s d1 d1' o h1 h1' => exact ih c1 s h1 h1'
    · rw [if_neg hc, if_neg (by omega)]; exact ⟨rfl, out, h, h'⟩

theorem rdc_sim (cfg : Cfg) (src : List Byte) {dst dst' : List Byte} (hl : dst.length = dst'.length) :
    (rdc cfg src dst).1 = (rdc cfg src dst').1 ∧
    (∀ row, (rdc cfg src dst).1 = .ok row → row.length = dst.length) ∧
    (rdc cfg src dst).2.length = dst.length := by
  have h := Dst.has_init dst
  have h' := Dst.has_init dst'
  rw [← hl] at h'
  obtain ⟨h1, out, h2, h3⟩ := rdcLoop_sim cfg src.length ⟨0, 0⟩ src h h'
  unfold rdc
  generalize rdcLoop cfg src.length ⟨0, 0⟩ src ⟨dst, 0⟩ = x at *
  generalize rdcLoop cfg src.length ⟨0, 0⟩ src ⟨dst', 0⟩ = y at *
  obtain ⟨r, d⟩ := x
  obtain ⟨r', d'⟩ := y
  simp only at h1 h2 h3
  subst h1
  cases r with
  | error e => exact ⟨rfl, by simp, h2.len⟩
  | ok u =>
    obtain ⟨e, he, hm⟩ := h2.fill
    obtain ⟨e', he', hm'⟩ := h3.fill
    have := h2.le
    simp only [he, he', hm, hm']
    refine ⟨trivial, ?_, by simp; omega⟩
    intro row hr; cases hr; simp; omega

end Sas
