import Verif.Spec.File
import Verif.Proofs.Buffer
import Verif.Proofs.Header

/-!
# A page laid out as specified is parsed as specified
-/

namespace Sas

open Spec

theorem word_eq (f : Format) : word f = f.intSize := by cases f <;> rfl
theorem pageHead_eq (f : Format) : pageHead f = f.pbo := by cases f <;> rfl

theorem word_pos (f : Format) : 4 ≤ word f ∧ word f ≤ 8 := by cases f <;> simp [word]

theorem pow_word (f : Format) : 2 ^ 32 ≤ 256 ^ word f := by cases f <;> decide

theorem getVal_encode_of_lt {e : Endian} {w n : Nat} (h : n < 256 ^ w) : getVal e (encode e w n) = n := by
  rw [getVal_encode, Nat.mod_eq_of_lt h]

/-- Reading a 16-bit integer laid out at `o`. -/
theorem Buf.Holds.u16 {cfg : Cfg} {e : Endian} {b : Buf} {bs : List Byte} (h : b.Holds bs) {o n : Nat}
    (hs : Sas.slice bs o 2 = encode e 2 n) (hn : n < 2 ^ 16) (ho : o + 2 ≤ bs.length) :
    b.getU16 cfg e o = .ok n := by
  rw [h.getU16 ho, hs, getVal_encode_of_lt (by simpa using hn)]

/-- Reading a 32-bit integer laid out at `o`. -/
theorem Buf.Holds.u32 {cfg : Cfg} {e : Endian} {b : Buf} {bs : List Byte} (h : b.Holds bs) {o n : Nat}
    (hs : Sas.slice bs o 4 = encode e 4 n) (hn : n < 2 ^ 32) (ho : o + 4 ≤ bs.length) :
    b.getU32 cfg e o = .ok n := by
  rw [h.getU32 ho, hs, getVal_encode_of_lt (by simpa using hn)]

/-- Reading an integer of the file's word size laid out at `o`. -/
theorem Buf.Holds.uint {cfg : Cfg} {e : Endian} {f : Format} {b : Buf} {bs : List Byte} (h : b.Holds bs)
    {o n : Nat} (hs : Sas.slice bs o (word f) = encode e (word f) n) (hn : n < 256 ^ word f)
    (ho : o + word f ≤ bs.length) : b.getUInt cfg e f o = .ok n := by
  rw [h.getUInt (by rw [← word_eq]; exact ho), ← word_eq, hs, getVal_encode_of_lt hn]

variable {env : Env} {b : Buf} {page : List Byte} {type blocks : Nat} {ptrs : List PageSub}

theorem getPageHeader_layout (hb : b.Holds page)
    (hl : PageLayout env.endian env.format page type blocks ptrs) :
    getPageHeader env b = .ok ⟨type, blocks, ptrs.length⟩ := by
  have hr := hl.room
  have ⟨h1, h2, h3⟩ := hl.sizes
  unfold getPageHeader
  have e1 := hb.u16 (cfg := env.cfg) (e := env.endian) (o := pageHead env.format + 0) hl.typeAt h1 (by omega)
  have e2 := hb.u16 (cfg := env.cfg) (e := env.endian) hl.blocksAt h2 (by omega)
  have e3 := hb.u16 (cfg := env.cfg) (e := env.endian) hl.countAt h3 (by omega)
  rw [← pageHead_eq]
  simp only [e1, e2, e3, Res.ok_bind]
  rfl

theorem getPageSubheader_at (hb : b.Holds page) (hsmall : page.length < 2 ^ 32) {o : Nat} {p : PageSub}
    (hp : PtrAt env.endian env.format page o p) : getPageSubheader env b o = .ok p := by
  have hr := hp.room
  have hi := hp.inside
  have hw := word_pos env.format
  have hpw := pow_word env.format
  unfold getPageSubheader subheaderSize
  have e0 := hb.assertCheck (o := o) (n := 3 * word env.format) (by omega)
  have e1 := hb.uint (cfg := env.cfg) (f := env.format) hp.offset (by omega) (by omega)
  have e2 := hb.uint (cfg := env.cfg) (f := env.format) hp.length (by omega) (by omega)
  have e3 := hb.getByte (cfg := env.cfg) hp.comp
  have e4 := hb.getByte (cfg := env.cfg) hp.type
  have e5 := hb.assertCheck (o := p.offset) (n := p.length) hi
  rw [← word_eq, Nat.mul_comm (word env.format) 2]
  simp only [e0, e1, e2, e3, e4, e5, Res.ok_bind]
  rfl

/-- Going through the subheader pointers of a page is folding over the used ones. -/
theorem processSubs_layout {α : Type} (hb : b.Holds page)
    (hl : PageLayout env.endian env.format page type blocks ptrs) (hm : hasMeta type = true)
    (f : α → PageSub → Res α) :
    ∀ (k i : Nat) (a : α), i + k = ptrs.length →
      processSubs env b f k i a = ((ptrs.drop i).filter live).foldlM f a := by
  intro k
  induction k with
  | zero =>
    intro i a h
    rw [List.drop_of_length_le (by omega)]
    rfl
  | succ k ih =>
    intro i a h
    have hi : i < ptrs.length := by omega
    rw [List.drop_eq_getElem_cons hi]
    have hp := hl.ptrsAt hm i ptrs[i] (by simp [hi])
    unfold processSubs subheaderSize
    rw [← pageHead_eq, ← word_eq, getPageSubheader_at hb hl.small hp, Res.ok_bind]
    have hlive : live ptrs[i] = true ↔ ptrs[i].length ≠ 0 ∧ ptrs[i].comp ≠ 1 := by
      simp [live]
    by_cases h0 : ptrs[i].length = 0
    · rw [if_pos h0, Res.ok_bind]
      show processSubs env b f k (i + 1) a = _
      rw [ih (i + 1) a (by omega), List.filter_cons_of_neg (by rw [hlive]; simp [h0])]
    · rw [if_neg h0]
      by_cases h1 : ptrs[i].comp = 1
      · rw [if_pos h1, Res.ok_bind]
        show processSubs env b f k (i + 1) a = _
        rw [ih (i + 1) a (by omega),
          List.filter_cons_of_neg (by rw [hlive]; simp [h1])]
      · rw [if_neg h1, List.filter_cons_of_pos (by rw [hlive]; exact ⟨h0, h1⟩), List.foldlM_cons]
        cases hf : f a ptrs[i] with
        | error e => rfl
        | ok a' => rw [Res.ok_bind]; exact ih (i + 1) a' (by omega)

end Sas
