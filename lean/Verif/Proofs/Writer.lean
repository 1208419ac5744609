import Verif.Spec.Writer
import Mathlib.Tactic.Linarith
import Verif.Proofs.Files
import Verif.Proofs.Values

/-!
# What the writer writes has the layout of the specification
-/

namespace Sas

open Spec

@[simp] theorem zeros_length (n : Nat) : (zeros n).length = n := by simp [zeros]

/-- A slice that starts after the first part. -/
theorem slice_skip {α : Type} {a b : List α} {o n : Nat} (h : a.length ≤ o) :
    slice (a ++ b) o n = slice b (o - a.length) n := by
  obtain ⟨k, rfl⟩ : ∃ k, o = a.length + k := ⟨o - a.length, by omega⟩
  rw [slice_append_right, Nat.add_sub_cancel_left]

/-- A slice that is the first part. -/
theorem slice_first {α : Type} {a b : List α} {n : Nat} (h : a.length = n) : slice (a ++ b) 0 n = a := by
  subst h; simp [slice]

theorem slice_all {α : Type} {a : List α} {n : Nat} (h : a.length ≤ n) : slice a 0 n = a := by
  simp [slice, List.take_of_length_le h]

/-- One of a sequence of parts of equal length. -/
theorem slice_slot {α : Type} {g : α → List Byte} {k : Nat} (rest : List Byte) : ∀ (l : List α) (i : Nat) (x : α),
    (∀ x ∈ l, (g x).length = k) → l[i]? = some x → ∀ o n, o + n ≤ k →
    slice (l.flatMap g ++ rest) (i * k + o) n = slice (g x) o n := by
  intro l
  induction l with
  | nil => intro i x _ h; simp at h
  | cons a l ih =>
    intro i x hk h o n hon
    have ha := hk a (List.mem_cons_self ..)
    rw [List.flatMap_cons, List.append_assoc]
    cases i with
    | zero =>
      simp only [List.getElem?_cons_zero, Option.some.injEq] at h
      subst h
      rw [Nat.zero_mul, Nat.zero_add, slice_append_left (by omega)]
    | succ i =>
      rw [List.getElem?_cons_succ] at h
      rw [slice_skip (by rw [ha, Nat.add_mul]; omega), ha,
        show (i + 1) * k + o - k = i * k + o by rw [Nat.add_mul]; omega]
      exact ih i x (fun y hy => hk y (List.mem_cons_of_mem _ hy)) h o n hon

theorem flatMap_length_slots {α : Type} {g : α → List Byte} {k : Nat} : ∀ (l : List α),
    (∀ x ∈ l, (g x).length = k) → (l.flatMap g).length = l.length * k := by
  intro l
  induction l with
  | nil => intro _; simp
  | cons a l ih =>
    intro hk
    rw [List.flatMap_cons, List.length_append, hk a (List.mem_cons_self ..),
      ih (fun y hy => hk y (List.mem_cons_of_mem _ hy)), List.length_cons, Nat.add_mul, Nat.one_mul, Nat.add_comm]

/-- One of a sequence of parts. -/
theorem slice_part : ∀ (parts : List (List Byte)) (i o n : Nat) (p : List Byte), parts[i]? = some p →
    o = ((parts.take i).map List.length).sum → n = p.length → slice parts.flatten o n = p := by
  intro parts
  induction parts with
  | nil => intro i o n p h; simp at h
  | cons a parts ih =>
    intro i o n p h ho hn
    rw [List.flatten_cons]
    cases i with
    | zero =>
      simp only [List.getElem?_cons_zero, Option.some.injEq] at h
      subst h
      simp only [List.take_zero, List.map_nil, List.sum_nil] at ho
      rw [ho]
      exact slice_first hn.symm
    | succ i =>
      rw [List.getElem?_cons_succ] at h
      simp only [List.take_succ_cons, List.map_cons, List.sum_cons] at ho
      rw [slice_skip (by omega)]
      exact ih i _ n p h (by omega) hn

theorem getElem?_slice {l : List Byte} {o : Nat} {b : Byte} (h : slice l o 1 = [b]) : l[o]? = some b := by
  have : (slice l o 1)[0]? = some b := by rw [h]; rfl
  rw [slice, List.getElem?_take_of_lt (by omega), List.getElem?_drop, Nat.add_zero] at this
  exact this

/-! ## The header -/

theorem blankPadded_length {n : Nat} {t : List Byte} (h : t.length ≤ n) : (blankPadded n t).length = n := by
  simp [blankPadded]; omega

theorem blankPadded_field {n : Nat} {t : List Byte} (h : FieldText n t) : TextField (blankPadded n t) t where
  pad := ⟨_, rfl, fun b hb => by
    rw [List.eq_of_mem_replicate hb]
    right; left; rfl⟩
  first b hb := (h.first b hb).1
  last b hb := h.last b hb

theorem a2_sub (h : FileHeader) : h.a1 + (h.a2 - h.a1) = h.a2 := by
  unfold FileHeader.a2; omega

/-- The parts of a header. -/
def headerParts (h : FileHeader) : List (List Byte) :=
  [magic, [if h.wide then 0x33 else 0x22], [0, 0], [if h.padded then 0x33 else 0x22], [0],
    [if h.endian = .little then 1 else 0], [0], [platformByte h.platform],
    zeros 30, [h.encoding], zeros 21, blankPadded 64 h.datasetName, blankPadded 8 h.fileType, zeros h.a1,
    encode h.endian 8 h.created, encode h.endian 8 h.modified, zeros 16, encode h.endian 4 h.headerLength,
    encode h.endian 4 h.pageLength, encode h.endian 4 h.pageCount, zeros (8 + (h.a2 - h.a1)),
    blankPadded 8 h.sasRelease, blankPadded 16 h.serverType, blankPadded 16 h.osType, zeros 16,
    blankPadded 16 h.osName, zeros (h.headerLength - (288 + h.a2))]

theorem writeHeader_eq (h : FileHeader) : writeHeader h = (headerParts h).flatten := by
  simp [writeHeader, headerParts]

theorem headerParts_lengths {h : FileHeader} (hw : h.Writable) : (headerParts h).map List.length =
    [32, 1, 2, 1, 1, 1, 1, 1, 30, 1, 21, 64, 8, h.a1, 8, 8, 16, 4, 4, 4, 8 + (h.a2 - h.a1), 8, 16, 16, 16, 16,
      h.headerLength - (288 + h.a2)] := by
  simp only [headerParts, List.map_cons, List.map_nil, zeros_length, encode_length, List.length_cons, List.length_nil,
    blankPadded_length hw.datasetName.fits, blankPadded_length hw.fileType.fits,
    blankPadded_length hw.sasRelease.fits, blankPadded_length hw.serverType.fits,
    blankPadded_length hw.osType.fits, blankPadded_length hw.osName.fits]
  rfl

theorem sum_eq {a1 a2 n : Nat} (hl : 288 + a2 ≤ n) (ha : a1 + (a2 - a1) = a2) :
    [32, 1, 2, 1, 1, 1, 1, 1, 30, 1, 21, 64, 8, a1, 8, 8, 16, 4, 4, 4, 8 + (a2 - a1), 8, 16, 16, 16, 16,
      n - (288 + a2)].sum = n := by
  obtain ⟨y, rfl⟩ : ∃ y, n = 288 + a2 + y := ⟨n - (288 + a2), by omega⟩
  rw [Nat.add_sub_cancel_left]
  generalize a2 - a1 = d at *
  simp only [List.sum_cons, List.sum_nil]
  subst ha
  linarith

theorem writeHeader_layout {h : FileHeader} (hw : h.Writable) : HeaderLayout h (writeHeader h) := by
  have hl := headerParts_lengths hw
  have hlong := hw.long
  have ha := a2_sub h
  have part : ∀ (i o : Nat) (p : List Byte), (headerParts h)[i]? = some p →
      o = (((headerParts h).map List.length).take i).sum → ∀ n, n = p.length → slice (writeHeader h) o n = p := by
    intro i o p hi ho n hn
    rw [writeHeader_eq]
    exact slice_part _ i o n p hi (by rw [ho, List.map_take]) hn
  rw [hl] at part
  have byte : ∀ (i o : Nat) (b : Byte), (headerParts h)[i]? = some [b] →
      o = (List.take i [32, 1, 2, 1, 1, 1, 1, 1, 30, 1, 21, 64, 8, h.a1, 8, 8, 16, 4, 4, 4, 8 + (h.a2 - h.a1), 8, 16, 16, 16, 16,
      h.headerLength - (288 + h.a2)]).sum → (writeHeader h)[o]? = some b :=
    fun i o b hi ho => getElem?_slice (part i o [b] hi ho 1 rfl)
  have hlen : (writeHeader h).length = h.headerLength := by
    rw [writeHeader_eq, List.length_flatten, hl]
    exact sum_eq hlong ha
  have b32 := byte 1 32 _ rfl rfl
  have b35 := byte 3 35 _ rfl rfl
  have b37 := byte 5 37 _ rfl rfl
  have b39 := byte 7 39 _ rfl rfl
  have b70 := byte 9 70 _ rfl rfl
  have e64 := blankPadded_length hw.datasetName.fits
  have hos := part 25 (272 + h.a2) _ rfl (by simp only [List.take_succ_cons, List.take_zero, List.sum_cons, List.sum_nil]; linarith) 16 (blankPadded_length hw.osName.fits).symm
  have b272 : (writeHeader h)[272 + h.a2]? ≠ some 0 := by
    have h0 : (writeHeader h)[272 + h.a2]? = (blankPadded 16 h.osName)[0]? := by
      rw [← hos, slice, List.getElem?_take_of_lt (by omega), List.getElem?_drop, Nat.add_zero]
    rw [h0]
    intro hc
    cases ht : h.osName with
    | nil => rw [ht] at hc; cases hc
    | cons b t =>
      rw [ht] at hc
      have : b = 0 := by simpa [blankPadded] using hc
      exact (hw.osName.first b (by rw [ht]; rfl)).2 this
  exact {
    length := hlen
    long := hlong
    magic := by
      have := part 0 0 _ rfl rfl 32 rfl
      rwa [slice_zero] at this
    wide := by rw [b32]; cases h.wide <;> simp
    padded := by rw [b35]; cases h.padded <;> simp
    endian := by rw [b37]; cases h.endian <;> simp
    unix := by rw [b39]; cases h.platform <;> simp [platformByte]
    windows := by rw [b39]; cases h.platform <;> simp [platformByte]
    encoding := b70
    datasetName := by
      rw [part 11 92 _ rfl rfl 64 (blankPadded_length hw.datasetName.fits).symm]
      exact blankPadded_field hw.datasetName
    fileType := by
      rw [part 12 156 _ rfl rfl 8 (blankPadded_length hw.fileType.fits).symm]
      exact blankPadded_field hw.fileType
    created := part 14 _ _ rfl (by simp only [List.take_succ_cons, List.take_zero, List.sum_cons, List.sum_nil]; linarith) 8 (by simp)
    modified := part 15 _ _ rfl (by simp only [List.take_succ_cons, List.take_zero, List.sum_cons, List.sum_nil]; linarith) 8 (by simp)
    headerLength := part 17 _ _ rfl (by simp only [List.take_succ_cons, List.take_zero, List.sum_cons, List.sum_nil]; linarith) 4 (by simp)
    pageLength := part 18 _ _ rfl (by simp only [List.take_succ_cons, List.take_zero, List.sum_cons, List.sum_nil]; linarith) 4 (by simp)
    pageCount := part 19 _ _ rfl (by simp only [List.take_succ_cons, List.take_zero, List.sum_cons, List.sum_nil]; linarith) 4 (by simp)
    sasRelease := by
      rw [part 21 (216 + h.a2) _ rfl (by simp only [List.take_succ_cons, List.take_zero, List.sum_cons, List.sum_nil]; linarith) 8 (blankPadded_length hw.sasRelease.fits).symm]
      exact blankPadded_field hw.sasRelease
    serverType := by
      rw [part 22 (224 + h.a2) _ rfl (by simp only [List.take_succ_cons, List.take_zero, List.sum_cons, List.sum_nil]; linarith) 16 (blankPadded_length hw.serverType.fits).symm]
      exact blankPadded_field hw.serverType
    osType := by
      rw [part 23 (240 + h.a2) _ rfl (by simp only [List.take_succ_cons, List.take_zero, List.sum_cons, List.sum_nil]; linarith) 16 (blankPadded_length hw.osType.fits).symm]
      exact blankPadded_field hw.osType
    osName := by
      rw [if_neg b272, hos]
      exact blankPadded_field hw.osName
    stamps := hw.stamps
    sizes := hw.sizes }

/-! ## Pages -/

theorem word_ge (f : Format) : 4 ≤ word f := by cases f <;> decide

theorem ptrBytes_length (e : Endian) (f : Format) (p : PageSub) : (ptrBytes e f p).length = 3 * word f := by
  have := word_ge f
  simp [ptrBytes]
  omega

theorem pointers_length : ∀ (is : List Item) (o : Nat), (pointers o is).length = is.length := by
  intro is
  induction is with
  | nil => intro o; rfl
  | cons i is ih => intro o; simp [pointers, ih]

theorem le_roundUp8 (n : Nat) : n ≤ roundUp8 n := by unfold roundUp8; omega

/-- The parts of a page. -/
def pageParts (e : Endian) (f : Format) (L type blocks : Nat) (rows : List Byte) (items : List Item) :
    List (List Byte) :=
  [zeros (pageHead f), encode e 2 type, encode e 2 blocks, encode e 2 items.length, zeros 2,
   (pointers (rowsStart f items.length + rows.length) items).flatMap (ptrBytes e f),
   zeros (rowsStart f items.length - (pageHead f + 8 + items.length * (3 * word f))),
   rows, items.flatMap (·.bytes), zeros (L - pageUsed f rows items)]

theorem writePage_eq (e : Endian) (f : Format) (L type blocks : Nat) (rows : List Byte) (items : List Item) :
    writePage e f L type blocks rows items = (pageParts e f L type blocks rows items).flatten := by
  simp [writePage, pageParts]

variable {e : Endian} {f : Format} {L type blocks : Nat} {rows : List Byte} {items : List Item}

theorem pageParts_lengths : (pageParts e f L type blocks rows items).map List.length =
    [pageHead f, 2, 2, 2, 2, items.length * (3 * word f),
     rowsStart f items.length - (pageHead f + 8 + items.length * (3 * word f)), rows.length,
     (items.flatMap (·.bytes)).length, L - pageUsed f rows items] := by
  simp only [pageParts, List.map_cons, List.map_nil, zeros_length, encode_length]
  rw [flatMap_length_slots _ (fun p _ => ptrBytes_length e f p), pointers_length]

theorem writePage_part (i o : Nat) (p : List Byte) (hi : (pageParts e f L type blocks rows items)[i]? = some p)
    (ho : o = (([pageHead f, 2, 2, 2, 2, items.length * (3 * word f),
     rowsStart f items.length - (pageHead f + 8 + items.length * (3 * word f)), rows.length,
     (items.flatMap (·.bytes)).length, L - pageUsed f rows items] : List Nat).take i).sum) (n : Nat) (hn : n = p.length) :
    slice (writePage e f L type blocks rows items) o n = p := by
  rw [writePage_eq]
  refine slice_part _ i o n p hi ?_ hn
  rw [ho, ← pageParts_lengths (e := e) (type := type) (blocks := blocks), List.map_take]

theorem rowsStart_ge : pageHead f + 8 + items.length * (3 * word f) ≤ rowsStart f items.length :=
  le_roundUp8 _

theorem writePage_length (h : pageUsed f rows items ≤ L) :
    (writePage e f L type blocks rows items).length = L := by
  rw [writePage_eq, List.length_flatten, pageParts_lengths]
  have h1 := rowsStart_ge (f := f) (items := items)
  unfold pageUsed at *
  simp only [List.sum_cons, List.sum_nil]
  omega

/-- The part before the rows and items. -/
theorem writePage_split (_h : pageUsed f rows items ≤ L) :
    ∃ front : List Byte, front.length = rowsStart f items.length ∧
      writePage e f L type blocks rows items =
        front ++ (rows ++ (items.flatMap (·.bytes) ++ zeros (L - pageUsed f rows items))) := by
  refine ⟨((pageParts e f L type blocks rows items).take 7).flatten, ?_, ?_⟩
  · rw [List.length_flatten, List.map_take, pageParts_lengths]
    have h1 := rowsStart_ge (f := f) (items := items)
    simp only [List.take_succ_cons, List.take_zero, List.sum_cons, List.sum_nil]
    omega
  · rw [writePage_eq]
    simp [pageParts]

/-- What a pointer points to. -/
theorem pointers_get : ∀ (items : List Item) (o i : Nat) (p : PageSub), (pointers o items)[i]? = some p →
    ∃ it, items[i]? = some it ∧ p.length = it.bytes.length ∧ p.comp = it.comp ∧ p.type = it.type ∧ o ≤ p.offset ∧
      p.offset + p.length ≤ o + (items.flatMap (·.bytes)).length ∧
      ∀ (front rest : List Byte), front.length = o → ∀ x n, x + n ≤ it.bytes.length →
        slice (front ++ (items.flatMap (·.bytes) ++ rest)) (p.offset + x) n = slice it.bytes x n := by
  intro items
  induction items with
  | nil => intro o i p h; simp [pointers] at h
  | cons it items ih =>
    intro o i p h
    rw [pointers] at h
    cases i with
    | zero =>
      simp only [List.getElem?_cons_zero, Option.some.injEq] at h
      subst h
      refine ⟨it, rfl, rfl, rfl, rfl, Nat.le_refl _, by simp, fun front rest hf x n hx => ?_⟩
      show slice _ (o + x) n = _
      rw [slice_skip (by omega), List.flatMap_cons, List.append_assoc, slice_append_left (by omega)]
      congr 1; omega
    | succ i =>
      rw [List.getElem?_cons_succ] at h
      obtain ⟨j, h1, h2, h3, h4, h5, h6, h7⟩ := ih _ i p h
      refine ⟨j, by rw [List.getElem?_cons_succ]; exact h1, h2, h3, h4, by omega,
        by rw [List.flatMap_cons, List.length_append]; omega, fun front rest hf x n hx => ?_⟩
      have := h7 (front ++ it.bytes) rest (by rw [List.length_append, hf]) x n hx
      rw [← this]
      simp [List.flatMap_cons]

theorem two_bytes_slice {l : List Byte} {o : Nat} {a b : Byte} {r : List Byte} {n : Nat} (hn : 2 ≤ n)
    (h : slice l o n = a :: b :: r) : l[o]? = some a ∧ l[o + 1]? = some b := by
  have h0 : (slice l o n)[0]? = some a := by rw [h]; rfl
  have h1 : (slice l o n)[1]? = some b := by rw [h]; rfl
  rw [slice, List.getElem?_take_of_lt (by omega), List.getElem?_drop] at h0 h1
  exact ⟨h0, h1⟩

/-- The head of a written page. -/
theorem writePage_layout (h : pageUsed f rows items ≤ L) (hL : L < 2 ^ 32) (ht : type < 2 ^ 16)
    (hb : blocks < 2 ^ 16) (hn : items.length < 2 ^ 16) :
    PageLayout e f (writePage e f L type blocks rows items) type blocks
      (pointers (rowsStart f items.length + rows.length) items) := by
  have hlen := writePage_length (e := e) (type := type) (blocks := blocks) h
  have h1 := rowsStart_ge (f := f) (items := items)
  have hu : pageUsed f rows items = rowsStart f items.length + rows.length + (items.flatMap (·.bytes)).length := rfl
  exact {
    typeAt := writePage_part 1 _ _ rfl (by simp) 2 (by simp)
    blocksAt := writePage_part 2 _ _ rfl (by simp) 2 (by simp)
    countAt := by
      rw [pointers_length]
      exact writePage_part 3 _ _ rfl (by simp) 2 (by simp)
    sizes := ⟨ht, hb, by rw [pointers_length]; exact hn⟩
    room := by rw [hlen]; omega
    small := by rw [hlen]; exact hL
    ptrsAt := by
      intro _ i p hp
      have hi : i < items.length := by
        have := (List.getElem?_eq_some_iff.mp hp).1
        rwa [pointers_length] at this
      have hmul : (i + 1) * (3 * word f) ≤ items.length * (3 * word f) := Nat.mul_le_mul_right _ hi
      rw [Nat.add_mul, Nat.one_mul] at hmul
      have key : ∀ o n, o + n ≤ 3 * word f →
          slice (writePage e f L type blocks rows items) (pageHead f + 8 + i * (3 * word f) + o) n =
            slice (ptrBytes e f p) o n := by
        intro o n hon
        have hs := slice_slot (g := ptrBytes e f) (k := 3 * word f) [] _ i p
          (fun p _ => ptrBytes_length e f p) hp o n hon
        rw [← hs]
        have hpart := writePage_part (e := e) (f := f) (L := L) (type := type) (blocks := blocks) (rows := rows)
          (items := items) 5 (pageHead f + 8) _ rfl (by simp) (items.length * (3 * word f)) (by
            rw [flatMap_length_slots _ (fun p _ => ptrBytes_length e f p), pointers_length])
        rw [List.append_nil, ← hpart, slice_slice (by omega)]
        congr 1; omega
      have hw := word_ge f
      obtain ⟨it, g1, g2, g3, g4, g5, g6, _⟩ := pointers_get _ _ _ _ hp
      have c := key (2 * word f) 2 (by omega)
      have hc : slice (ptrBytes e f p) (2 * word f) 2 = [p.comp, p.type] := by
        unfold ptrBytes
        rw [slice_skip (by simp; omega), slice_skip (by simp; omega), encode_length, encode_length,
          show 2 * word f - word f - word f = 0 by omega]
        exact slice_first rfl
      rw [hc] at c
      have c' := two_bytes_slice (Nat.le_refl 2) c
      exact {
        offset := by
          have := key 0 (word f) (by omega)
          rw [Nat.add_zero] at this
          rw [this, ptrBytes, slice_first (by simp)]
        length := by
          rw [key (word f) (word f) (by omega), ptrBytes, slice_skip (by simp), encode_length, Nat.sub_self,
            slice_first (by simp)]
        comp := c'.1
        type := c'.2
        room := by rw [hlen]; omega
        inside := by rw [hlen]; omega } }

/-- What the pointers of a written page point to. -/
theorem writePage_item (h : pageUsed f rows items ≤ L) {p : PageSub} {i : Nat}
    (hp : (pointers (rowsStart f items.length + rows.length) items)[i]? = some p) :
    ∃ it, items[i]? = some it ∧ p.length = it.bytes.length ∧ p.comp = it.comp ∧ p.type = it.type ∧
      p.offset + p.length ≤ L ∧
      ∀ x n, x + n ≤ it.bytes.length →
        slice (writePage e f L type blocks rows items) (p.offset + x) n = slice it.bytes x n := by
  obtain ⟨it, g1, g2, g3, g4, g5, g6, g7⟩ := pointers_get _ _ _ _ hp
  refine ⟨it, g1, g2, g3, g4, ?_, fun x n hx => ?_⟩
  · have hu : pageUsed f rows items = rowsStart f items.length + rows.length + (items.flatMap (·.bytes)).length := rfl
    omega
  · obtain ⟨front, hf, hs⟩ := writePage_split (e := e) (type := type) (blocks := blocks) h
    rw [hs, ← List.append_assoc]
    exact g7 (front ++ rows) _ (by rw [List.length_append, hf]) x n hx

/-- The rows of a written page. -/
theorem writePage_rows {rs : List (List Byte)} {k : Nat} (h : pageUsed f rs.flatten items ≤ L)
    (hk : ∀ r ∈ rs, r.length = k) :
    (List.range rs.length).map (fun i => slice (writePage e f L type blocks rs.flatten items)
      (rowsStart f items.length + i * k) k) = rs := by
  apply List.ext_getElem?
  intro i
  rw [List.getElem?_map]
  by_cases hi : i < rs.length
  · rw [List.getElem?_range hi, Option.map_some, List.getElem?_eq_getElem hi]
    congr 1
    obtain ⟨front, hf, hs⟩ := writePage_split (e := e) (type := type) (blocks := blocks) h
    rw [hs, ← hf, slice_append_right]
    have := slice_slot (g := id) (k := k) (items.flatMap (·.bytes) ++ zeros (L - pageUsed f rs.flatten items)) rs i rs[i]
      hk (List.getElem?_eq_getElem hi) 0 k (by omega)
    rw [Nat.add_zero, List.flatMap_id] at this
    rw [this]
    exact slice_all (Nat.le_of_eq (hk _ (List.getElem_mem hi)))
  · rw [List.getElem?_eq_none (by simpa using hi), List.getElem?_eq_none (by simpa using hi)]
    rfl

end Sas
