import Verif.Spec.Creator
import Verif.Props.PyProps

/-!
# Property C96: who has made a file
-/

namespace Sas.Props

open Sas Spec

theorem madeOf_quiet : ∀ (ss : List Sub) (m : Made), texts ss = [] → (∀ q, Sub.rowSize q ∉ ss) → ∀ seen, madeOf seen m ss = m := by
  intro ss
  induction ss with
  | nil => intro m _ _ seen; rfl
  | cons s ss ih =>
    intro m ht hr seen
    cases s with
    | rowSize r => exact absurd (List.mem_cons_self ..) (hr r)
    | columnText t => cases ht
    | _ => exact ih m ht (fun q h => hr q (List.mem_cons_of_mem _ h)) seen

theorem madeOf_seen : ∀ (ss : List Sub) (m : Made), (∀ q, Sub.rowSize q ∉ ss) → madeOf true m ss = m := by
  intro ss
  induction ss with
  | nil => intro m _; rfl
  | cons s ss ih =>
    intro m hr
    cases s with
    | rowSize r => exact absurd (List.mem_cons_self ..) (hr r)
    | _ => exact ih m (fun q h => hr q (List.mem_cons_of_mem _ h))

theorem madeOf_names : ∀ (ss : List Sub) (m : Made), texts ss = [] →
    (madeOf false m ss).creator = m.creator ∧ (madeOf false m ss).proc = m.proc := by
  intro ss
  induction ss with
  | nil => exact fun m _ => ⟨rfl, rfl⟩
  | cons s ss ih =>
    intro m ht
    cases s with
    | rowSize r => exact ih _ ht
    | columnText t => cases ht
    | _ => exact ih m ht

theorem madeOf_signs {r : RowSize} {t : List Byte} {all : List Sub} (h : Signs r t all) :
    madeOf false ⟨0, 0, [], []⟩ all = Made.text ⟨r.lcs, r.lcp, [], []⟩ t := by
  obtain ⟨a, b, c, rfl, ha, hb, hq⟩ := h
  rw [madeOf_append, ha]
  simp only [madeOf, List.isEmpty_nil, Bool.not_true, Bool.or_false]
  obtain ⟨h1, h2⟩ := madeOf_names a ⟨0, 0, [], []⟩ ha
  rw [madeOf_append, madeOf_quiet b _ hb fun q => (hq q).1, hb]
  simp only [madeOf, List.isEmpty_nil, Bool.not_true, Bool.or_false, Bool.false_eq_true, if_false]
  rw [madeOf_seen c _ fun q => (hq q).2, h1, h2]

theorem text_signed {r : RowSize} {t : List Byte} {g : Signature} (h : Signed r t g) :
    Made.text ⟨r.lcs, r.lcp, [], []⟩ t = ⟨g.lcs, g.lcp, g.creator, g.proc⟩ := by
  have hlit : rleMarker = rleLiteral := by decide +kernel
  unfold Made.text
  cases h with
  | plain mark field =>
    rw [if_pos (getStringTrim_field mark)]
    simp only [getStringTrim_field field]
  | rle mark field =>
    have h1 : getStringTrim (slice t 12 8) = rleLiteral := by
      rw [mark]
      decide +kernel
    rw [if_neg (by rw [h1]; decide +kernel), if_pos h1]
    simp only [getStringTrim_field field]
  | creator other filled notRle long field =>
    have h1 := getStringTrim_field other
    rw [if_neg (by rw [h1]; exact filled), if_neg (by rw [h1, ← hlit]; exact notRle), if_pos long]
    simp only [getStringTrim_field field]
  | nobody other filled notRle short =>
    have h1 := getStringTrim_field other
    rw [if_neg (by rw [h1]; exact filled), if_neg (by rw [h1, ← hlit]; exact notRle), if_neg (by simp [short])]
    rw [short]

/-- **C96**: the properties name the program and the procedure that the file says it was made by, with the lengths that go
with them. -/
theorem C96_creator {σ : Type} (cfg : Cfg) (S : Source σ) (s : σ) (h : FileHeader)
    (pre : List (List Byte × PageContent)) (k : Option (List Byte × PageContent))
    (post : List (List Byte)) (en : Ending) (all : List Sub) (c : Compression) (fuel : Nat)
    (filter : Option Filter) (hw : WellFormed cfg S s h pre k post en all c fuel) (r : RowSize) (t : List Byte)
    (hs : Signs r t all) (g : Signature) (hg : Signed r t g) (R : Reader σ) (hR : openReader cfg S fuel filter s = .ok R) :
    R.props.md.creator = g.creator ∧ R.props.md.creatorProc = g.proc ∧ R.props.md.lcs = g.lcs ∧ R.props.md.lcp = g.lcp := by
  have key : ∀ acc : Acc, AccIs acc all → ∀ p : PState σ, finish cfg h fuel acc p filter = .ok R →
      R.props.md.creator = g.creator ∧ R.props.md.creatorProc = g.proc ∧ R.props.md.lcs = g.lcs ∧ R.props.md.lcp = g.lcp := by
    intro acc hacc p h
    unfold finish at h
    obtain ⟨cols, hc, h⟩ := bind_ok_inv h
    obtain ⟨rd, _, h⟩ := bind_ok_inv h
    cases h
    have hm := hacc.made
    rw [madeOf_signs hs, text_signed hg] at hm
    unfold Meta.made at hm
    injection hm with h1 h2 h3 h4
    exact ⟨h3, h4, h1, h2⟩
  cases k with
  | none =>
    obtain ⟨acc, b, s', hacc, _, _, ho⟩ := openReader_eof hw
    rw [ho] at hR
    exact key acc hacc _ hR
  | some kp =>
    obtain ⟨acc, b, s', hacc, _, _, _, ho⟩ := openReader_stop hw
    rw [ho] at hR
    exact key acc hacc _ hR

/-- What is reported of an RDC-compressed file: the marker of the compression passes for the name of a program, and the procedure is
not looked for, if there is a length for the name of the program. -/
theorem C96_rdc {σ : Type} (cfg : Cfg) (S : Source σ) (s : σ) (h : FileHeader)
    (pre : List (List Byte × PageContent)) (k : Option (List Byte × PageContent))
    (post : List (List Byte)) (en : Ending) (all : List Sub) (c : Compression) (fuel : Nat)
    (filter : Option Filter) (hw : WellFormed cfg S s h pre k post en all c fuel) (r : RowSize) (t : List Byte)
    (hs : Signs r t all) (mark : slice t 12 8 = rdcMarker) (long : r.lcs = 8) (R : Reader σ)
    (hR : openReader cfg S fuel filter s = .ok R) :
    R.props.md.creator = rdcMarker ∧ R.props.md.creatorProc = [] ∧ R.props.md.lcp = 0 := by
  have hf : TextField (slice t 12 8) rdcMarker := by
    rw [mark]
    exact TextField.intro [] (by decide +kernel) (by decide +kernel) (by decide +kernel) (by decide +kernel)
  obtain ⟨h1, h2, _, h4⟩ := C96_creator cfg S s h pre k post en all c fuel filter hw r t hs _
    (.creator hf (by decide +kernel) (by decide +kernel) (by rw [long]; decide) (by rw [long]; exact hf)) R hR
  exact ⟨h1, h2, h4⟩

example : Demo.reader.props.md.creatorProc = ascii "PROC" ∧ Demo.reader.props.md.lcp = 4 := by
  have hs : Signs ⟨14, 3, 2, 0, 0, 0, 4⟩ ((Demo.columnText (ascii "        ")).drop 4) Demo.fileSubs :=
    ⟨[], [.columnSize 2], _, rfl, rfl, rfl, fun q => ⟨by simp, by simp⟩⟩
  have hg : Signed ⟨14, 3, 2, 0, 0, 0, 4⟩ ((Demo.columnText (ascii "        ")).drop 4) ⟨[], ascii "PROC", 0, 4⟩ :=
    .plain (TextField.intro (List.replicate 8 0x20) (by decide +kernel) (by decide +kernel) (by decide +kernel) (by decide +kernel))
      (TextField.intro [] (by decide +kernel) (by decide +kernel) (by decide +kernel) (by decide +kernel))
  have := C96_creator Demo.cfg ifs _ _ _ _ _ _ _ _ 10 none Demo.file_wellFormed _ _ hs _ hg _ Demo.opened_ok
  exact ⟨this.2.1, this.2.2.2⟩

end Sas.Props
