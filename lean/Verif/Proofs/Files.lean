import Verif.Spec.Columns
import Verif.Proofs.Source
import Verif.Proofs.Lists

/-!
# Files as byte strings
-/

namespace Sas

open Spec

theorem slice_append_right' {α : Type} (a b : List α) (n : Nat) : slice (a ++ b) a.length n = b.take n := by
  simp [slice]

/-- The pages of a file that works: whatever follows the last complete page is dropped. -/
theorem ifs_stream {L : Nat} (hL2 : L < 2 ^ 63) (part : List Byte) (hpart : part.length < L) :
    ∀ (pages : List (List Byte)) (front : List Byte), (∀ p ∈ pages, p.length = L) →
      Stream ifs L ⟨front ++ (pages.flatten ++ part), front.length, false, false, none⟩ pages .endOfFile := by
  intro pages
  induction pages with
  | nil =>
    intro front _
    have hr := ifs_read_short (data := front ++ ([].flatten ++ part)) (pos := front.length) (n := L)
      (by simp) (by simp; omega) hL2
    refine .truncated _ rfl ?_ ?_ ?_
    · rw [hr]
    · rw [hr]; simp; omega
    · rw [hr]; rfl
  | cons p pages ih =>
    intro front h
    have hp := h p (List.mem_cons_self ..)
    have hr := ifs_read_ok (data := front ++ ((p :: pages).flatten ++ part)) (pos := front.length) (n := L)
      (by simp; omega) hL2
    have hb : slice (front ++ ((p :: pages).flatten ++ part)) front.length L = p := by
      rw [slice_append_right']
      simp [← hp]
    rw [hb] at hr
    have := Stream.page (S := ifs) (L := L) ⟨front ++ ((p :: pages).flatten ++ part), front.length, false, false, none⟩
      pages .endOfFile rfl (by rw [hr]) (by rw [hr]; exact hp) (by
        rw [hr]
        have := ih (front ++ p) (fun q hq => h q (List.mem_cons_of_mem _ hq))
        simpa [hp, List.append_assoc] using this)
    rw [hr] at this
    exact this

/-- A file on a device that fails while reading the byte number `k`, which is inside the part after the
given pages. -/
theorem ifs_stream_fault {L : Nat} (hL2 : L < 2 ^ 63) (part : List Byte) (k : Nat) :
    ∀ (pages : List (List Byte)) (front : List Byte), (∀ p ∈ pages, p.length = L) →
      front.length + pages.flatten.length ≤ k → k < front.length + pages.flatten.length + L →
      k ≤ front.length + pages.flatten.length + part.length →
      Stream ifs L ⟨front ++ (pages.flatten ++ part), front.length, false, false, some k⟩ pages .ioError := by
  intro pages
  induction pages with
  | nil =>
    intro front _ h1 h2 h3
    simp only [List.flatten_nil, List.length_nil, Nat.add_zero] at h1 h2 h3
    have hr : ifs.read ⟨front ++ ([].flatten ++ part), front.length, false, false, some k⟩ L =
        ⟨⟨front ++ ([].flatten ++ part), max front.length k, false, true, some k⟩,
          slice (front ++ ([].flatten ++ part)) front.length (k - front.length), false⟩ := by
      simp only [ifs, IFStream.read, Bool.or_self, Bool.false_eq_true, if_false]
      rw [if_neg (by omega), if_pos ⟨h2, by simp; omega⟩]
    refine .failed _ rfl ?_ ?_ ?_
    · rw [hr]
    · rw [hr]
      simp only [slice, List.length_take]
      omega
    · rw [hr]; rfl
  | cons p pages ih =>
    intro front h h1 h2 h3
    have hp := h p (List.mem_cons_self ..)
    simp only [List.flatten_cons, List.length_append] at h1 h2 h3
    have hb : slice (front ++ ((p :: pages).flatten ++ part)) front.length L = p := by
      rw [slice_append_right']
      simp [← hp]
    have hr : ifs.read ⟨front ++ ((p :: pages).flatten ++ part), front.length, false, false, some k⟩ L =
        ⟨⟨front ++ ((p :: pages).flatten ++ part), front.length + L, false, false, some k⟩, p, true⟩ := by
      simp only [ifs, IFStream.read, Bool.or_self, Bool.false_eq_true, if_false]
      rw [if_neg (by omega), if_neg (by omega)]
      unfold IFStream.readPlain
      rw [if_pos (by simp; omega), hb]
    have := Stream.page (S := ifs) (L := L) ⟨front ++ ((p :: pages).flatten ++ part), front.length, false, false, some k⟩
      pages .ioError rfl (by rw [hr]) (by rw [hr]; exact hp) (by
        rw [hr]
        have := ih (front ++ p) (fun q hq => h q (List.mem_cons_of_mem _ hq))
          (by rw [List.length_append]; omega) (by rw [List.length_append]; omega)
          (by rw [List.length_append]; omega)
        simpa [hp, List.append_assoc] using this)
    rw [hr] at this
    exact this

theorem slice_zero_append {a b : List Byte} {n : Nat} (h : n ≤ a.length) : slice (a ++ b) 0 n = a.take n := by
  simp only [slice, List.drop_zero]
  rw [List.take_append_of_le_length h]

theorem slice_mid_append {a b : List Byte} {o n : Nat} (ho : o ≤ a.length) (h : n = a.length - o) :
    slice (a ++ b) o n = a.drop o := by
  simp only [slice]
  rw [List.drop_append_of_le_length ho, List.take_append_of_le_length (by simp; omega),
    List.take_of_length_le (by simp; omega)]

/-- A file delivers its header in two reads. -/
theorem ifs_header {h : FileHeader} {bs rest : List Byte} (hl : HeaderLayout h bs) :
    ∃ s1 s2, ifs.read (IFStream.open (bs ++ rest)) 288 = ⟨s1, bs.take 288, true⟩ ∧
      ifs.read s1 (h.headerLength - 288) = ⟨s2, bs.drop 288, true⟩ := by
  have hlong := hl.long
  have hlen := hl.length
  obtain ⟨-, -, s3, -, -⟩ := hl.sizes
  refine ⟨⟨bs ++ rest, 0 + 288, false, false, none⟩,
    ⟨bs ++ rest, 0 + 288 + (h.headerLength - 288), false, false, none⟩, ?_, ?_⟩
  · rw [IFStream.open, ifs_read_ok (by simp; omega) (by omega), slice_zero_append (by omega)]
  · rw [ifs_read_ok (by simp; omega) (by omega), slice_mid_append (by omega) (by omega)]

/-- A file that works presents its header and its complete pages. -/
theorem ifs_presents {h : FileHeader} {hdr : List Byte} (hl : HeaderLayout h hdr) 
    (pages : List (List Byte)) (hp : ∀ p ∈ pages, p.length = h.pageLength) (part : List Byte)
    (hpart : part.length < h.pageLength) :
    Presents ifs (IFStream.open (hdr ++ (pages.flatten ++ part))) h pages .endOfFile := by
  obtain ⟨_, _, s3, s4, _⟩ := hl.sizes
  have hlen := hl.length
  have hlong := hl.long
  refine ⟨hdr, ⟨hdr ++ (pages.flatten ++ part), 288, false, false, none⟩,
    ⟨hdr ++ (pages.flatten ++ part), hdr.length, false, false, none⟩, hl, ?_, ?_,
    ifs_stream (by omega) part hpart pages hdr hp⟩
  · have := ifs_read_ok (data := hdr ++ (pages.flatten ++ part)) (pos := 0) (n := 288) (by simp; omega)
      (by omega)
    simp only [Nat.zero_add] at this
    rw [IFStream.open, this]
    rw [slice_zero_append (by omega)]
  · have := ifs_read_ok (data := hdr ++ (pages.flatten ++ part)) (pos := 288) (n := h.headerLength - 288)
      (by simp; omega) (by omega)
    rw [this, show 288 + (h.headerLength - 288) = hdr.length by omega]
    rw [slice_mid_append (by omega) (by omega)]

/-- A file on a device that fails in the page after the given ones. -/
theorem ifs_presents_fault {h : FileHeader} {hdr : List Byte} (hl : HeaderLayout h hdr)
    (pages : List (List Byte)) (hp : ∀ p ∈ pages, p.length = h.pageLength) (part : List Byte) (k : Nat)
    (h1 : hdr.length + pages.flatten.length ≤ k) (h2 : k < hdr.length + pages.flatten.length + h.pageLength)
    (h3 : k ≤ hdr.length + pages.flatten.length + part.length) :
    Presents ifs { IFStream.open (hdr ++ (pages.flatten ++ part)) with fault := some k } h pages .ioError := by
  obtain ⟨_, _, s3, s4, _⟩ := hl.sizes
  have hlen := hl.length
  have hlong := hl.long
  refine ⟨hdr, ⟨hdr ++ (pages.flatten ++ part), 288, false, false, some k⟩,
    ⟨hdr ++ (pages.flatten ++ part), hdr.length, false, false, some k⟩, hl, ?_, ?_,
    ifs_stream_fault (by omega) part k pages hdr hp h1 h2 h3⟩
  · simp only [ifs, IFStream.read, IFStream.open, Bool.or_self, Bool.false_eq_true, if_false]
    rw [if_neg (by omega), if_neg (by omega)]
    unfold IFStream.readPlain
    rw [if_pos (by simp; omega)]
    rw [slice_zero_append (by omega)]
  · simp only [ifs, IFStream.read, Bool.or_self, Bool.false_eq_true, if_false]
    rw [if_neg (by omega), if_neg (by omega)]
    unfold IFStream.readPlain
    rw [if_pos (by simp; omega)]
    simp only
    rw [show 288 + (h.headerLength - 288) = hdr.length by omega]
    rw [slice_mid_append (by omega) (by omega)]

end Sas
