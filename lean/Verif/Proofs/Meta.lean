import Verif.Proofs.Page
import Verif.Proofs.OpenErrs

/-!
# Subheaders laid out as specified are parsed as specified
-/

namespace Sas

open Spec

/-! ## Signatures -/

/-- The kind a signature stands for. -/
def Spec.Sig.kind : Sig → SubKind
  | .rowSize => .rowSize
  | .columnSize => .columnSize
  | .counts => .counts
  | .columnText => .columnText
  | .columnNames => .columnName
  | .columnAttrs => .columnAttributes
  | .formatLabel => .formatAndLabel
  | .columnList => .columnList

theorem classify_sig (e : Endian) (f : Format) (s : Sig) : classify f (s.bytes e f) = s.kind := by
  cases e <;> cases f <;> cases s <;> decide

theorem signatures_spec (f : Format) (x : List Byte) :
    (x ∈ rowSizeSignatures f → ∃ e s, x = Sig.bytes e f s) ∧
    (x ∈ columnSizeSignatures f → ∃ e s, x = Sig.bytes e f s) ∧
    (x ∈ countsSignatures f → ∃ e s, x = Sig.bytes e f s) ∧
    (x ∈ columnTextSignatures f → ∃ e s, x = Sig.bytes e f s) ∧
    (x ∈ columnNameSignatures f → ∃ e s, x = Sig.bytes e f s) ∧
    (x ∈ columnAttributesSignatures f → ∃ e s, x = Sig.bytes e f s) ∧
    (x ∈ formatAndLabelSignatures f → ∃ e s, x = Sig.bytes e f s) ∧
    (x ∈ columnListSignatures f → ∃ e s, x = Sig.bytes e f s) := by
  have key : ∀ (l : List (List Byte)) (s : Sig),
      (∀ y ∈ l, y = Sig.bytes .big f s ∨ y = Sig.bytes .little f s) →
      (x ∈ l → ∃ e s, x = Sig.bytes e f s) := by
    intro l s hl hx
    rcases hl x hx with h | h
    · exact ⟨.big, s, h⟩
    · exact ⟨.little, s, h⟩
  refine ⟨key _ .rowSize ?_, key _ .columnSize ?_, key _ .counts ?_, key _ .columnText ?_,
    key _ .columnNames ?_, key _ .columnAttrs ?_, key _ .formatLabel ?_, key _ .columnList ?_⟩ <;>
  cases f <;> decide

theorem matchSignature_mem {l : List (List Byte)} {x : List Byte} (h : matchSignature l x = true) :
    x ∈ l := by
  simpa [matchSignature] using h

theorem classify_other {f : Format} {x : List Byte} (h : ∀ e s, x ≠ Sig.bytes e f s) :
    classify f x = .other := by
  obtain ⟨h1, h2, h3, h4, h5, h6, h7, h8⟩ := signatures_spec f x
  have no : ∀ l, (x ∈ l → ∃ e s, x = Sig.bytes e f s) → ¬ matchSignature l x = true := by
    intro l hl hm
    obtain ⟨e, s, hx⟩ := hl (matchSignature_mem hm)
    exact h e s hx
  simp only [classify, no _ h1, no _ h2, no _ h3, no _ h4, no _ h5, no _ h6, no _ h7, no _ h8,
    Bool.false_eq_true, if_false]

/-! ## The single subheaders -/

variable {env : Env} {b : Buf} {page : List Byte}

theorem processRowSize_layout (hb : b.Holds page) {o : Nat} {r : RowSize} (md : Meta)
    (h : RowSizeAt env.endian env.format page o r) :
    processRowSize env b md o = .ok { md with
      lcs := r.lcs, lcp := r.lcp, rowLength := r.rowLength, rowCount := r.rowCount, p1 := r.p1,
      p2 := r.p2, mixCount := r.mixCount } := by
  obtain ⟨s1, s2, s3, s4, s5, s6, s7⟩ := h.sizes
  have hroom := h.room
  have hw := word_pos env.format
  have hlcs : lcsAt env.format = lcsOffset env.format := by cases env.format <;> rfl
  have hlcp : lcpOffset env.format = lcsAt env.format + 24 := by cases env.format <;> rfl
  have hbig : 16 * word env.format ≤ lcsAt env.format := by
    cases env.format <;> decide
  have e0 := hb.assertCheck (o := o + (lcsAt env.format + 24)) (n := 4) (by omega)
  have e1 := hb.u16 (cfg := env.cfg) h.lcs s6 (by omega)
  have e2 := hb.u16 (cfg := env.cfg) h.lcp s7 (by omega)
  have e3 := hb.uint (cfg := env.cfg) h.rowLength s1 (by omega)
  have e4 := hb.uint (cfg := env.cfg) h.rowCount s2 (by omega)
  have e5 := hb.uint (cfg := env.cfg) h.p1 s3 (by omega)
  have e6 := hb.uint (cfg := env.cfg) h.p2 s4 (by omega)
  have e7 := hb.uint (cfg := env.cfg) h.mixCount s5 (by omega)
  rw [Nat.add_assoc] at e2
  unfold processRowSize
  rw [hlcp, ← hlcs, ← word_eq]
  simp only [e0, e1, e2, e3, e4, e5, e6, e7, Res.ok_bind]
  rfl

theorem ref_layout (hb : b.Holds page) {o : Nat} {r : TextRef} (h : RefAt env.endian page o r) :
    b.getU16 env.cfg env.endian o = .ok r.text ∧ b.getU16 env.cfg env.endian (o + 2) = .ok r.offset ∧
      b.getU16 env.cfg env.endian (o + 4) = .ok r.length := by
  obtain ⟨s1, s2, s3⟩ := h.sizes
  have hroom := h.room
  exact ⟨hb.u16 h.text s1 (by omega), hb.u16 h.offset s2 (by omega), hb.u16 h.length s3 (by omega)⟩

/-- The text a reference yields in the model. -/
def resolve (tr : List (List Byte) × TextRef) : List Byte :=
  columnTextSubstr tr.1 tr.2.text tr.2.offset tr.2.length

theorem nameLoop_layout (hb : b.Holds page) (ts : List (List Byte)) (offMax : Nat) :
    ∀ (rs : List TextRef) (fuel off : Nat) (names : List (List Byte)),
      (∀ i r, rs[i]? = some r → RefAt env.endian page (off + 8 * i) r) →
      off + 8 * rs.length ≤ offMax + 8 → offMax < off + 8 * rs.length → rs.length < fuel →
      nameLoop env b ts offMax fuel off names = .ok (names ++ rs.map fun r => resolve (ts, r)) := by
  intro rs
  induction rs with
  | nil =>
    intro fuel off names _ h1 h2 hf
    obtain ⟨n, rfl⟩ : ∃ n, fuel = n + 1 := ⟨fuel - 1, by simp at hf; omega⟩
    simp only [List.length_nil] at h2
    unfold nameLoop
    rw [if_neg (by omega)]
    simp
  | cons r rs ih =>
    intro fuel off names hr h1 h2 hf
    simp only [List.length_cons] at h1 h2 hf
    obtain ⟨n, rfl⟩ : ∃ n, fuel = n + 1 := ⟨fuel - 1, by omega⟩
    obtain ⟨e1, e2, e3⟩ := ref_layout (env := env) hb (hr 0 r rfl)
    simp only [Nat.mul_zero, Nat.add_zero] at e1 e2 e3
    unfold nameLoop
    rw [if_pos (by omega)]
    simp only [Nat.add_zero, e1, e2, e3, Res.ok_bind]
    rw [ih n (off + 8) _ (fun i r' hi => by
      have := hr (i + 1) r' (by simpa using hi)
      rw [show off + 8 * (i + 1) = off + 8 + 8 * i by omega] at this
      exact this) (by omega) (by omega) (by omega)]
    simp [resolve]

theorem attrLoop_layout (hb : b.Holds page) (offMax : Nat) :
    ∀ (as : List Attr) (fuel off : Nat) (os ls : List Nat) (ts : List Bool),
      (∀ i a, as[i]? = some a → AttrAt env.endian env.format page (off + (word env.format + 8) * i) a) →
      off + (word env.format + 8) * as.length ≤ offMax + (word env.format + 8) →
      offMax < off + (word env.format + 8) * as.length →
      off + (word env.format + 8) * as.length ≤ page.length → as.length < fuel →
      attrLoop env b offMax fuel off (os, ls, ts) =
        .ok (os ++ as.map Attr.offset, ls ++ as.map Attr.length, ts ++ as.map Attr.numeric) := by
  intro as
  have hw := word_pos env.format
  induction as with
  | nil =>
    intro fuel off os ls ts _ h1 h2 _ hf
    obtain ⟨n, rfl⟩ : ∃ n, fuel = n + 1 := ⟨fuel - 1, by simp at hf; omega⟩
    simp only [List.length_nil, Nat.mul_zero] at h2
    unfold attrLoop
    rw [if_neg (by omega)]
    simp
  | cons a as ih =>
    intro fuel off os ls ts hr h1 h2 h3 hf
    simp only [List.length_cons, Nat.mul_add, Nat.mul_one] at h1 h2 h3 hf
    obtain ⟨n, rfl⟩ : ∃ n, fuel = n + 1 := ⟨fuel - 1, by omega⟩
    have ha := hr 0 a rfl
    simp only [Nat.mul_zero, Nat.add_zero] at ha
    obtain ⟨t, ht, htn⟩ := ha.numeric
    have e1 := hb.uint (cfg := env.cfg) ha.offset ha.sizes.1 (by omega)
    have e2 := hb.u32 (cfg := env.cfg) ha.length ha.sizes.2 (by omega)
    have e3 := hb.getByte (cfg := env.cfg) ht
    have e4 : (t == 1) = a.numeric := by
      cases hn : a.numeric
      · have : ¬ t = 1 := fun h => by rw [htn.mp h] at hn; cases hn
        simpa using this
      · simpa using htn.mpr hn
    unfold attrLoop
    rw [if_pos (by omega)]
    rw [← word_eq]
    simp only [Nat.add_zero, e1, e2, e3, e4, Res.ok_bind]
    rw [ih n (off + (word env.format + 8)) _ _ _ (fun i r' hi => by
      have := hr (i + 1) r' (by simpa using hi)
      rw [show off + (word env.format + 8) * (i + 1) =
        off + (word env.format + 8) + (word env.format + 8) * i by rw [Nat.mul_add]; omega] at this
      exact this) (by omega) (by omega) (by omega) (by omega)]
    simp

/-- The compression announced by a text. -/
def announced (t : List Byte) : Compression :=
  if containsSub rleLiteral t then .rle else if containsSub rdcLiteral t then .rdc else .none

/-- What the first column text does to the metadata. -/
def firstText (md : Meta) (t : List Byte) : Meta :=
  let md := if containsSub rleLiteral t then { md with compression := .rle }
            else if containsSub rdcLiteral t then { md with compression := .rdc }
            else md
  let compression := getStringTrim (slice t 12 8)
  if compression = [] then { md with lcs := 0, creatorProc := getStringTrim (slice t 28 md.lcp) }
  else if compression = rleLiteral then { md with creatorProc := getStringTrim (slice t 36 md.lcp) }
  else if 0 < md.lcs then { md with lcp := 0, creator := getStringTrim (slice t 12 md.lcs) }
  else md

theorem processColumnText_layout (hb : b.Holds page) {o : Nat} {t : List Byte} (acc : Acc)
    (hlen : slice page (o + word env.format) 2 = encode env.endian 2 t.length) (h16 : t.length < 2 ^ 16)
    (h2 : 2 ≤ t.length) (ht : slice page (o + word env.format) t.length = t)
    (hroom : o + word env.format + t.length ≤ page.length)
    (hfirst : acc.texts = [] → 36 ≤ t.length ∧ 36 + acc.md.lcp ≤ t.length ∧ 12 + acc.md.lcs ≤ t.length) :
    processColumnText env b acc o = .ok { acc with
      texts := acc.texts ++ [t], md := if acc.texts = [] then firstText acc.md t else acc.md } := by
  have e1 := hb.u16 (cfg := env.cfg) hlen h16 (by omega)
  have e2 : b.getStringUntrim env.cfg (o + word env.format) t.length = .ok t := by
    unfold Buf.getStringUntrim
    rw [hb.rd hroom, ht]
  have hco : compressionOffset env.format = word env.format + 12 := by cases env.format <;> rfl
  have hstr : ∀ k n, k + n ≤ t.length →
      b.getString env.cfg (o + word env.format + k) n = .ok (getStringTrim (slice t k n)) := by
    intro k n hk
    rw [hb.getString (by omega)]
    have : slice t k n = slice page (o + word env.format + k) n := by
      conv => lhs; rw [← ht]
      exact slice_slice hk
    rw [this]
  unfold processColumnText
  rw [← word_eq]
  simp only [e1, e2, Res.ok_bind]
  by_cases h0 : acc.texts = []
  · obtain ⟨g1, g2, g3⟩ := hfirst h0
    have hone : (acc.texts ++ [t]).length = 1 := by simp [h0]
    rw [if_pos hone, if_pos h0, hco]
    rw [show o + (word env.format + 12) = o + word env.format + 12 by omega]
    rw [Nat.add_assoc _ 12 16, Nat.add_assoc _ 12 24]
    rw [hstr 12 8 (by omega), Res.ok_bind]
    unfold firstText
    simp only []
    have hlcp : ∀ c : Compression, ({ acc.md with compression := c } : Meta).lcp = acc.md.lcp := fun _ => rfl
    have hlcs : ∀ c : Compression, ({ acc.md with compression := c } : Meta).lcs = acc.md.lcs := fun _ => rfl
    generalize hmd : (if containsSub rleLiteral t = true then { acc.md with compression := .rle }
            else if containsSub rdcLiteral t = true then { acc.md with compression := .rdc }
            else acc.md : Meta) = md
    have hp : md.lcp = acc.md.lcp := by rw [← hmd]; split <;> (try split) <;> rfl
    have hs : md.lcs = acc.md.lcs := by rw [← hmd]; split <;> (try split) <;> rfl
    split
    · rw [hstr 28 md.lcp (by omega)]; rfl
    · split
      · rw [hstr 36 md.lcp (by omega)]; rfl
      · split
        · rw [hstr 12 md.lcs (by omega)]; rfl
        · rfl
  · have hone : ¬ (acc.texts ++ [t]).length = 1 := by
      have := List.length_pos_iff.mpr h0
      simp; omega
    rw [if_neg hone, if_neg h0]
    rfl

/-- What a subheader does to the state of the metadata phase. -/
def applySub (acc : Acc) (p : PageSub) : Sub → Acc × Bool
  | .rowSize r => ({ acc with md := { acc.md with
      lcs := r.lcs, lcp := r.lcp, rowLength := r.rowLength, rowCount := r.rowCount, p1 := r.p1,
      p2 := r.p2, mixCount := r.mixCount } }, false)
  | .columnSize n => ({ acc with md := { acc.md with columnCount := n } }, false)
  | .columnText t => ({ acc with
      texts := acc.texts ++ [t], md := if acc.texts = [] then firstText acc.md t else acc.md }, false)
  | .columnNames rs => ({ acc with names := acc.names ++ rs.map fun r => resolve (acc.texts, r) }, false)
  | .columnAttrs as => ({ acc with
      offsets := acc.offsets ++ as.map Attr.offset, lengths := acc.lengths ++ as.map Attr.length
      types := acc.types ++ as.map Attr.numeric }, false)
  | .formatLabel fr lr => ({ acc with
      formats := acc.formats ++ [resolve (acc.texts, fr)]
      labels := acc.labels ++ [resolve (acc.texts, lr)] }, false)
  | .ignored => (acc, false)
  | .row => if acc.md.compression = .none then (acc, false)
            else ({ acc with dataSubs := acc.dataSubs ++ [(p.offset, p.length)] }, true)

/-- The room needed by the first column text. -/
def TextRoom (acc : Acc) : Sub → Prop
  | .columnText t => acc.texts = [] → 36 ≤ t.length ∧ 36 + acc.md.lcp ≤ t.length ∧ 12 + acc.md.lcs ≤ t.length
  | _ => True

theorem isDataSub_eq (c : Compression) (p : PageSub) :
    isDataSub c p = (decide (c ≠ .none) && rowPtr p) := by
  have h : ∀ c : Compression, (c != .none) = decide (c ≠ .none) := by intro c; cases c <;> rfl
  unfold isDataSub rowPtr
  rw [h, Bool.and_assoc]
  congr 1
  simp only [Bool.decide_and, Bool.decide_or]
  rw [Bool.or_comm]
  rfl

theorem offsetMax_eq {f : Format} {p : PageSub} {n : Nat} (h : p.offset + p.length ≤ n) (hn : n < 2 ^ 32)
    (hl : word f + 12 ≤ p.length) :
    offsetMax f p = p.offset + p.length - (word f + 12) := by
  unfold offsetMax
  rw [← word_eq, sub64_of_le (by omega) (by omega)]
  omega

theorem processSubheader_layout (hb : b.Holds page) (hsmall : page.length < 2 ^ 32) {p : PageSub}
    (hin : p.offset + p.length ≤ page.length) (acc : Acc) (s : Sub)
    (h : SubLayout env.endian env.format page p s) (hroom : TextRoom acc s) :
    processSubheader env b acc p = .ok (applySub acc p s) := by
  have hw := word_pos env.format
  have hsig : ∀ (sg : Sig), slice page p.offset (word env.format) = sg.bytes env.endian env.format →
      p.offset + word env.format ≤ page.length →
      ∃ x, b.rd env.cfg p.offset env.format.intSize = .ok x ∧ classify env.format x = sg.kind := by
    intro sg hs hr
    refine ⟨sg.bytes env.endian env.format, ?_, ?_⟩
    · rw [hb.rd (by rw [← word_eq]; exact hr), ← word_eq, hs]
    · exact classify_sig _ _ _
  have hother : (∀ e s, slice page p.offset (word env.format) ≠ Sig.bytes e env.format s) →
      p.offset + word env.format ≤ page.length →
      ∃ x, b.rd env.cfg p.offset env.format.intSize = .ok x ∧ classify env.format x = .other := by
    intro hs hr
    exact ⟨_, by rw [hb.rd (by rw [← word_eq]; exact hr), ← word_eq], classify_other hs⟩
  unfold processSubheader
  cases s with
  | rowSize r =>
    obtain ⟨h1, h2⟩ := h
    obtain ⟨x, e1, e2⟩ := hsig .rowSize h1 (by have := h2.room; have : 16 * word env.format ≤ lcsAt env.format := by { cases env.format <;> decide }; omega)
    rw [e1, Res.ok_bind, e2]
    simp only [Sig.kind]
    rw [processRowSize_layout hb acc.md h2]
    rfl
  | columnSize n =>
    obtain ⟨h1, h2, h3, h4⟩ := h
    obtain ⟨x, e1, e2⟩ := hsig .columnSize h1 (by omega)
    rw [e1, Res.ok_bind, e2]
    simp only [Sig.kind]
    have e3 := hb.uint (cfg := env.cfg) h2 h3 (by omega)
    unfold processColumnSize
    rw [← word_eq, e3]
    rfl
  | columnText t =>
    obtain ⟨h1, h2, h3, h4, h5, h6⟩ := h
    obtain ⟨x, e1, e2⟩ := hsig .columnText h1 (by omega)
    rw [e1, Res.ok_bind, e2]
    simp only [Sig.kind]
    rw [processColumnText_layout hb acc h2 h3 h4 h5 h6 hroom]
    rfl
  | columnNames rs =>
    obtain ⟨h1, h2, h3, h4⟩ := h
    obtain ⟨x, e1, e2⟩ := hsig .columnNames h1 (by omega)
    rw [e1, Res.ok_bind, e2]
    simp only [Sig.kind]
    have hm := hb.good.inside
    have hsz := hb.size
    unfold processColumnName
    rw [offsetMax_eq hin hsmall (by omega), ← word_eq,
      nameLoop_layout hb acc.texts _ rs _ _ _ h2 (by omega) (by omega) (by omega)]
    rfl
  | columnAttrs as =>
    obtain ⟨h1, h2, h3, h4⟩ := h
    obtain ⟨x, e1, e2⟩ := hsig .columnAttrs h1 (by omega)
    rw [e1, Res.ok_bind, e2]
    simp only [Sig.kind]
    have hm := hb.good.inside
    have hsz := hb.size
    rw [Nat.mul_add _ _ 1, Nat.mul_one] at h4
    have hmul : as.length ≤ (word env.format + 8) * as.length := Nat.le_mul_of_pos_left _ (by omega)
    unfold processColumnAttributes
    rw [offsetMax_eq hin hsmall (by omega), ← word_eq,
      attrLoop_layout hb _ as _ _ _ _ _ h2 (by omega) (by omega) (by omega) (by omega)]
    rfl
  | formatLabel fr lr =>
    obtain ⟨h1, h2, h3⟩ := h
    have hr2 := h2.room
    have hr3 := h3.room
    obtain ⟨x, e1, e2⟩ := hsig .formatLabel h1 (by omega)
    rw [e1, Res.ok_bind, e2]
    simp only [Sig.kind]
    obtain ⟨f1, f2, f3⟩ := ref_layout (env := env) hb h2
    obtain ⟨l1, l2, l3⟩ := ref_layout (env := env) hb h3
    have e3 := hb.assertCheck (o := p.offset + 3 * word env.format + 32) (n := 2) (by omega)
    unfold processFormatAndLabel
    rw [← word_eq]
    simp only [f1, f2, f3, l1, l2, l3, e3, Res.ok_bind]
    rfl
  | ignored =>
    obtain ⟨h1, h2 | h2 | ⟨h2, h3⟩⟩ := h
    · obtain ⟨x, e1, e2⟩ := hsig .counts h2 (by omega)
      rw [e1, Res.ok_bind, e2]
      rfl
    · obtain ⟨x, e1, e2⟩ := hsig .columnList h2 (by omega)
      rw [e1, Res.ok_bind, e2]
      rfl
    · obtain ⟨x, e1, e2⟩ := hother h2 (by omega)
      rw [e1, Res.ok_bind, e2]
      simp only [isDataSub_eq, h3, Bool.and_false, Bool.false_eq_true, if_false]
      rfl
  | row =>
    obtain ⟨h1, h2, h3⟩ := h
    obtain ⟨x, e1, e2⟩ := hother h2 (by omega)
    rw [e1, Res.ok_bind, e2]
    simp only [isDataSub_eq, h3, Bool.and_true, applySub]
    by_cases hc : acc.md.compression = .none
    · simp [hc]
      rfl
    · simp [hc]
      rfl

end Sas
