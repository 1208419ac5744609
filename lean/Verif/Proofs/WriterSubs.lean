import Verif.Proofs.Writer

/-!
# Written subheaders
-/

namespace Sas

open Spec

/-- The numbers of a text reference fit. -/
def RefOk (r : TextRef) : Prop := r.text < 2 ^ 16 ∧ r.offset < 2 ^ 16 ∧ r.length < 2 ^ 16

/-- A subheader that can be written. -/
def SubOk (e : Endian) (f : Format) : Sub → Prop
  | .rowSize r => r.rowLength < 256 ^ word f ∧ r.rowCount < 256 ^ word f ∧ r.p1 < 256 ^ word f ∧
    r.p2 < 256 ^ word f ∧ r.mixCount < 256 ^ word f ∧ r.lcs < 2 ^ 16 ∧ r.lcp < 2 ^ 16
  | .columnSize n => n < 256 ^ word f
  | .columnText t => t.length < 2 ^ 16 ∧ 2 ≤ t.length ∧ t.take 2 = encode e 2 t.length
  | .columnNames rs => ∀ r ∈ rs, RefOk r
  | .columnAttrs as => ∀ a ∈ as, a.offset < 256 ^ word f ∧ a.length < 2 ^ 32
  | .formatLabel a b => RefOk a ∧ RefOk b
  | .ignored => False
  | .row => False

@[simp] theorem sig_length (e : Endian) (f : Format) (s : Sig) : (s.bytes e f).length = word f := by
  cases s <;> simp [Sig.bytes, encodeSigned]

@[simp] theorem ref_length (e : Endian) (r : TextRef) : (r.bytes e).length = 6 := by simp [TextRef.bytes]

@[simp] theorem attr_length (e : Endian) (f : Format) (a : Attr) : (a.bytes e f).length = word f + 8 := by
  simp [Attr.bytes]

theorem word_cases (f : Format) : word f = 4 ∧ lcsAt f = 354 ∨ word f = 8 ∧ lcsAt f = 682 := by
  cases f
  · exact .inl ⟨rfl, rfl⟩
  · exact .inr ⟨rfl, rfl⟩

/-- Bytes of a page that hold a text reference. -/
theorem refAt {e : Endian} {page : List Byte} {o : Nat} {r : TextRef} (hr : RefOk r)
    (h : ∀ x n, x + n ≤ 6 → slice page (o + x) n = slice (r.bytes e) x n) (hl : o + 6 ≤ page.length) :
    RefAt e page o r where
  text := by
    have := h 0 2 (by omega)
    rw [Nat.add_zero] at this
    rw [this, TextRef.bytes, slice_first (by simp)]
  offset := by
    rw [h 2 2 (by omega), TextRef.bytes, slice_skip (by simp), encode_length, Nat.sub_self, slice_first (by simp)]
  length := by
    rw [h 4 2 (by omega), TextRef.bytes, slice_skip (by simp), slice_skip (by simp), encode_length, encode_length,
      slice_all (by simp)]
  room := hl
  sizes := hr

/-- Bytes of a page that hold a column attribute. -/
theorem attrAt {e : Endian} {f : Format} {page : List Byte} {o : Nat} {a : Attr}
    (ha : a.offset < 256 ^ word f ∧ a.length < 2 ^ 32)
    (h : ∀ x n, x + n ≤ word f + 8 → slice page (o + x) n = slice (a.bytes e f) x n) :
    AttrAt e f page o a where
  offset := by
    have := h 0 (word f) (by omega)
    rw [Nat.add_zero] at this
    rw [this, Attr.bytes, slice_first (by simp)]
  length := by
    rw [h (word f) 4 (by omega), Attr.bytes, slice_skip (by simp), encode_length, Nat.sub_self, slice_first (by simp)]
  numeric := by
    refine ⟨if a.numeric then 1 else 2, ?_, by cases a.numeric <;> simp⟩
    apply getElem?_slice
    rw [Nat.add_assoc, h (word f + 6) 1 (by omega), Attr.bytes, slice_skip (by simp), slice_skip (by simp), encode_length,
      encode_length, show word f + 6 - word f - 4 = 2 by omega]
    cases a.numeric <;> rfl
  sizes := ha

/-- A subheader in a page. -/
theorem subLayout {e : Endian} {f : Format} {page : List Byte} {p : PageSub} (s : Sub) (hok : SubOk e f s)
    (hl : p.length = (s.bytes e f).length) (hp : p.offset + p.length ≤ page.length)
    (h : ∀ x n, x + n ≤ (s.bytes e f).length → slice page (p.offset + x) n = slice (s.bytes e f) x n) :
    SubLayout e f page p s := by
  rw [hl] at hp
  have h0 : ∀ n, n ≤ (s.bytes e f).length → slice page p.offset n = slice (s.bytes e f) 0 n := fun n hn => by
    have := h 0 n (by omega)
    rwa [Nat.add_zero] at this
  have hw := word_ge f
  cases s with
  | ignored => exact hok.elim
  | row => exact hok.elim
  | columnSize n =>
    have hlen : (Sub.bytes e f (.columnSize n)).length = 2 * word f := by simp [Sub.bytes]; omega
    rw [hlen] at h h0 hp
    refine ⟨?_, ?_, hok, by omega⟩
    · rw [h0 _ (by omega), Sub.bytes, slice_first (by simp)]
    · rw [h _ _ (by omega), Sub.bytes, slice_skip (by simp), sig_length, Nat.sub_self, slice_all (by simp)]
  | columnText t =>
    obtain ⟨h1, h2, h3⟩ := hok
    have hlen : (Sub.bytes e f (.columnText t)).length = word f + t.length := by simp [Sub.bytes]
    rw [hlen] at h h0 hp
    refine ⟨?_, ?_, h1, h2, ?_, by omega⟩
    · rw [h0 _ (by omega), Sub.bytes, slice_first (by simp)]
    · rw [h _ _ (by omega), Sub.bytes, slice_skip (by simp), sig_length, Nat.sub_self, slice_zero, h3]
    · rw [h _ _ (by omega), Sub.bytes, slice_skip (by simp), sig_length, Nat.sub_self, slice_all (by simp)]
  | columnNames rs =>
    have hslot : ∀ r ∈ rs, ((fun r => TextRef.bytes e r ++ zeros 2) r).length = 8 := fun r _ => by simp
    have hlen : (Sub.bytes e f (.columnNames rs)).length = 2 * word f + 12 + 8 * rs.length := by
      simp only [Sub.bytes, List.length_append, sig_length, zeros_length, flatMap_length_slots rs hslot]
      omega
    rw [hlen] at h h0 hp hl
    refine ⟨?_, fun i r hi => ?_, by omega, by omega⟩
    · rw [h0 _ (by omega), Sub.bytes, slice_first (by simp)]
    · have hi' := (List.getElem?_eq_some_iff.mp hi).1
      refine refAt (hok r (List.mem_of_getElem? hi)) (fun x n hx => ?_) (by omega)
      rw [show p.offset + word f + 8 + 8 * i + x = p.offset + (word f + 8 + (i * 8 + x)) by omega, h _ _ (by omega),
        Sub.bytes, slice_skip (by simp; omega), slice_skip (by simp; omega), sig_length, zeros_length,
        show word f + 8 + (i * 8 + x) - word f - 8 = i * 8 + x by omega,
        slice_slot _ rs i r hslot hi x n (by omega), slice_append_left (by simp; omega)]
  | columnAttrs as =>
    have hslot : ∀ a ∈ as, ((fun a => Attr.bytes e f a) a).length = word f + 8 := fun a _ => by simp
    have hlen : (Sub.bytes e f (.columnAttrs as)).length = word f + 12 + (word f + 8) * as.length := by
      simp only [Sub.bytes, List.length_append, sig_length, zeros_length, flatMap_length_slots as hslot]
      rw [Nat.mul_comm]
      omega
    rw [hlen] at h h0 hp hl
    refine ⟨?_, fun i a hi => ?_, by omega, by rw [Nat.mul_add]; omega⟩
    · rw [h0 _ (by omega), Sub.bytes, slice_first (by simp)]
    · have hi' := (List.getElem?_eq_some_iff.mp hi).1
      have hm : (word f + 8) * (i + 1) ≤ (word f + 8) * as.length := Nat.mul_le_mul_left _ hi'
      rw [Nat.mul_add, Nat.mul_one] at hm
      refine attrAt (hok a (List.mem_of_getElem? hi)) (fun x n hx => ?_)
      rw [show p.offset + word f + 8 + (word f + 8) * i + x = p.offset + (word f + 8 + ((word f + 8) * i + x)) by omega,
        h _ _ (by omega),
        Sub.bytes, slice_skip (by simp; omega), slice_skip (by simp; omega), sig_length, zeros_length,
        show word f + 8 + ((word f + 8) * i + x) - word f - 8 = i * (word f + 8) + x by rw [Nat.mul_comm i]; omega,
        slice_slot _ as i a hslot hi x n (by omega)]
  | formatLabel a b =>
    have hlen : (Sub.bytes e f (.formatLabel a b)).length = 3 * word f + 34 := by
      simp only [Sub.bytes, List.length_append, sig_length, zeros_length, ref_length]
      omega
    rw [hlen] at h h0 hp hl
    refine ⟨?_, ?_, ?_⟩
    · rw [h0 _ (by omega), Sub.bytes, slice_first (by simp)]
    · refine refAt hok.1 (fun x n hx => ?_) (by omega)
      rw [show p.offset + 3 * word f + 22 + x = p.offset + (3 * word f + 22 + x) by omega, h _ _ (by omega),
        Sub.bytes, slice_skip (by simp; omega), slice_skip (by simp; omega), slice_append_left (by simp; omega)]
      congr 1; simp; omega
    · refine refAt hok.2 (fun x n hx => ?_) (by omega)
      rw [show p.offset + 3 * word f + 28 + x = p.offset + (3 * word f + 28 + x) by omega, h _ _ (by omega),
        Sub.bytes, slice_skip (by simp; omega), slice_skip (by simp; omega), slice_skip (by simp; omega)]
      congr 1; simp; omega
  | rowSize r =>
    let parts : List (List Byte) :=
      [Sig.rowSize.bytes e f, zeros (4 * word f), encode e (word f) r.rowLength, encode e (word f) r.rowCount,
       zeros (2 * word f), encode e (word f) r.p1, encode e (word f) r.p2, zeros (4 * word f),
       encode e (word f) r.mixCount, zeros (lcsAt f - 16 * word f), encode e 2 r.lcs, zeros 22, encode e 2 r.lcp, zeros 2]
    have hparts : Sub.bytes e f (.rowSize r) = parts.flatten := by simp [Sub.bytes, parts]
    have hlens : parts.map List.length = [word f, 4 * word f, word f, word f, 2 * word f, word f, word f, 4 * word f,
        word f, lcsAt f - 16 * word f, 2, 22, 2, 2] := by simp [parts]
    have hc := word_cases f
    have hlen : (Sub.bytes e f (.rowSize r)).length = lcsAt f + 28 := by
      rw [hparts, List.length_flatten, hlens]
      simp only [List.sum_cons, List.sum_nil]
      omega
    have part : ∀ (i o : Nat) (q : List Byte), parts[i]? = some q →
        o = (List.take i [word f, 4 * word f, word f, word f, 2 * word f, word f, word f, 4 * word f,
          word f, lcsAt f - 16 * word f, 2, 22, 2, 2]).sum → ∀ n, n = q.length → o + n ≤ lcsAt f + 28 →
        slice page (p.offset + o) n = q := by
      intro i o q hi ho n hn hr
      rw [h o n (by omega), hparts]
      exact slice_part _ i o n q hi (by rw [ho, ← hlens, List.map_take]) hn
    rw [hlen] at h0 hp hl
    refine ⟨?_, ?_⟩
    · rw [h0 _ (by omega), Sub.bytes, slice_first (by simp)]
    · exact {
        rowLength := part 2 _ _ rfl (by simp; omega) _ (by simp) (by omega)
        rowCount := part 3 _ _ rfl (by simp; omega) _ (by simp) (by omega)
        p1 := part 5 _ _ rfl (by simp; omega) _ (by simp) (by omega)
        p2 := part 6 _ _ rfl (by simp; omega) _ (by simp) (by omega)
        mixCount := part 8 _ _ rfl (by simp; omega) _ (by simp) (by omega)
        lcs := by
          exact part 10 (lcsAt f) _ rfl (by simp; omega) _ (by simp) (by omega)
        lcp := by
          rw [Nat.add_assoc]
          exact part 12 (lcsAt f + 24) _ rfl (by simp; omega) _ (by simp) (by omega)
        room := by omega
        sizes := hok }

end Sas
