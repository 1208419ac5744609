import Verif.Proofs.Lists
import Verif.Model.Page

/-!
# Reading inside a buffer succeeds
-/

namespace Sas

/-- The logical size lies inside the allocation, and inside the address space. -/
structure Buf.Good (b : Buf) : Prop where
  inside : b.size ≤ b.mem.length
  small : b.size < 2 ^ 64

theorem Buf.rd_ok {cfg : Cfg} {b : Buf} {o n : Nat} (hg : b.Good) (h : o + n ≤ b.size) :
    b.rd cfg o n = .ok (slice b.mem o n) := by
  have h1 := hg.inside
  have h2 := hg.small
  have hc : b.check o n = true := by
    apply decide_eq_true
    show (o + n) % 2 ^ 64 ≤ b.size
    rw [Nat.mod_eq_of_lt (by omega)]; exact h
  simp only [Buf.rd, hc, Bool.not_true, Bool.and_false, Bool.false_eq_true, if_false]
  rw [if_pos (by omega)]

theorem Buf.assertCheck_ok {b : Buf} {o n : Nat} (hg : b.Good) (h : o + n ≤ b.size) :
    b.assertCheck o n = .ok () := by
  have h2 := hg.small
  have hc : b.check o n = true := by
    apply decide_eq_true
    show (o + n) % 2 ^ 64 ≤ b.size
    rw [Nat.mod_eq_of_lt (by omega)]; exact h
  simp [Buf.assertCheck, hc]

theorem slice_one {l : List Byte} {o : Nat} {x : Byte} (h : l[o]? = some x) : slice l o 1 = [x] := by
  have ⟨hlt, hx⟩ := List.getElem?_eq_some_iff.mp h
  unfold slice
  rw [List.drop_eq_getElem_cons hlt, hx]
  rfl

theorem Buf.getByte_ok {cfg : Cfg} {b : Buf} {o : Nat} {x : Byte} (hg : b.Good) (h : o < b.size)
    (hx : b.mem[o]? = some x) : b.getByte cfg o = .ok x := by
  unfold Buf.getByte
  rw [Buf.rd_ok hg (by omega), slice_one hx]
  rfl

theorem Buf.getU16_ok {cfg : Cfg} {e : Endian} {b : Buf} {o : Nat} (hg : b.Good) (h : o + 2 ≤ b.size) :
    b.getU16 cfg e o = .ok (getVal e (slice b.mem o 2)) := by
  unfold Buf.getU16
  rw [Buf.rd_ok hg h]
  rfl

theorem Buf.getU32_ok {cfg : Cfg} {e : Endian} {b : Buf} {o : Nat} (hg : b.Good) (h : o + 4 ≤ b.size) :
    b.getU32 cfg e o = .ok (getVal e (slice b.mem o 4)) := by
  unfold Buf.getU32
  rw [Buf.rd_ok hg h]
  rfl

theorem Buf.getUInt_ok {cfg : Cfg} {e : Endian} {f : Format} {b : Buf} {o : Nat} (hg : b.Good)
    (h : o + f.intSize ≤ b.size) : b.getUInt cfg e f o = .ok (getVal e (slice b.mem o f.intSize)) := by
  unfold Buf.getUInt
  rw [Buf.rd_ok hg h]
  rfl

theorem Buf.getDouble_ok {cfg : Cfg} {e : Endian} {b : Buf} {o : Nat} (hg : b.Good) (h : o + 8 ≤ b.size) :
    b.getDouble cfg e o = .ok (getVal e (slice b.mem o 8)) := by
  unfold Buf.getDouble
  rw [Buf.rd_ok hg h]
  rfl

theorem Buf.getString_ok {cfg : Cfg} {b : Buf} {o n : Nat} (hg : b.Good) (h : o + n ≤ b.size) :
    b.getString cfg o n = .ok (getStringTrim (slice b.mem o n)) := by
  unfold Buf.getString
  rw [Buf.rd_ok hg h]
  rfl

@[simp] theorem freshMem_length (cfg : Cfg) (o n : Nat) : (freshMem cfg o n).length = n := by
  simp [freshMem]

theorem Buf.empty_good : Buf.empty.Good := ⟨by simp [Buf.empty], by simp [Buf.empty]⟩

theorem Buf.resize_good {cfg : Cfg} {b b' : Buf} {n : Nat} (hg : b.Good) (hn : n < 2 ^ 64)
    (h : b.resize cfg n = .ok b') : b'.Good ∧ b'.size = n ∧
      b'.mem.take (min b.size n) = b.mem.take (min b.size n) := by
  unfold Buf.resize at h
  have h1 := hg.inside
  split at h
  · split at h
    · cases h
      refine ⟨⟨by simp; omega, hn⟩, rfl, ?_⟩
      have : min b.size n = b.size := by omega
      rw [this, List.take_append_of_le_length (by simp; omega), List.take_take, Nat.min_self]
    · cases h
  · cases h
    exact ⟨⟨by simp; omega, hn⟩, rfl, rfl⟩

theorem Buf.resize_ok {cfg : Cfg} {b : Buf} {n : Nat} (hn : n ≤ cfg.maxAlloc ∨ n ≤ b.size) :
    ∃ b', b.resize cfg n = .ok b' := by
  unfold Buf.resize
  split
  · rw [if_pos (by omega)]; exact ⟨_, rfl⟩
  · exact ⟨_, rfl⟩

/-- A successful read: the bytes before `off` are kept, the delivered bytes follow. -/
theorem Buf.readStream_ok {σ : Type} {cfg : Cfg} {S : Source σ} {b b' : Buf} {s s' : σ} {len off : Nat}
    (hg : b.Good) (hsum : off + len < 2 ^ 64)
    (hlen : (S.read s len).ok = true → (S.read s len).bytes.length = len)
    (h : Buf.readStream cfg S b s len off = (.ok true, b', s')) :
    b'.Good ∧ b'.size = off + len ∧ (S.read s len).ok = true ∧ s' = (S.read s len).st ∧
      slice b'.mem off len = (S.read s len).bytes ∧
      (off ≤ b.size → b'.mem.take off = b.mem.take off) := by
  unfold Buf.readStream at h
  have hw : w64 (off + len) = off + len := Nat.mod_eq_of_lt hsum
  rw [hw] at h
  cases hr : b.resize cfg (off + len) with
  | error e => rw [hr] at h; simp at h
  | ok b1 =>
    rw [hr] at h
    obtain ⟨g1, g2, g3⟩ := Buf.resize_good hg hsum hr
    simp only at h
    split at h
    · rename_i hle
      simp only [Prod.mk.injEq, Except.ok.injEq] at h
      obtain ⟨hok, rfl, rfl⟩ := h
      have hl := hlen hok
      have hin := g1.inside
      refine ⟨⟨?_, g1.small⟩, g2, hok, rfl, ?_, ?_⟩
      · simp only [writeAt_length hle]; exact hin
      · conv => lhs; arg 3; rw [← hl]
        exact writeAt_slice_same (by omega)
      · intro ho
        show (writeAt b1.mem off _).take off = _
        unfold writeAt
        rw [List.append_assoc, List.take_append_of_le_length (by simp; omega), List.take_take,
          Nat.min_self]
        have h4 := congrArg (List.take off) g3
        simp only [List.take_take] at h4
        have : min off (min b.size (off + len)) = off := by omega
        rw [this] at h4
        exact h4
    · simp at h

/-- When the source delivers and memory suffices, reading succeeds. -/
theorem Buf.readStream_succ {σ : Type} {cfg : Cfg} {S : Source σ} {b : Buf} {s : σ} {len off : Nat}
    (hg : b.Good) (hsum : off + len < 2 ^ 64) (hmax : off + len ≤ cfg.maxAlloc ∨ off + len ≤ b.size)
    (hok : (S.read s len).ok = true) (hlen : (S.read s len).bytes.length = len) :
    ∃ b', Buf.readStream cfg S b s len off = (.ok true, b', (S.read s len).st) := by
  unfold Buf.readStream
  have hw : w64 (off + len) = off + len := Nat.mod_eq_of_lt hsum
  rw [hw]
  obtain ⟨b1, hr⟩ := Buf.resize_ok (cfg := cfg) (b := b) hmax
  obtain ⟨g1, g2, g3⟩ := Buf.resize_good hg hsum hr
  have hin := g1.inside
  rw [hr]
  simp only
  rw [if_pos (by omega), hok]
  exact ⟨_, rfl⟩

/-- When the source fails, reading reports it. -/
theorem Buf.readStream_fail {σ : Type} {cfg : Cfg} {S : Source σ} {b : Buf} {s : σ} {len off : Nat}
    (hg : b.Good) (hsum : off + len < 2 ^ 64) (hmax : off + len ≤ cfg.maxAlloc ∨ off + len ≤ b.size)
    (hok : (S.read s len).ok = false) (hlen : (S.read s len).bytes.length ≤ len) :
    ∃ b', Buf.readStream cfg S b s len off = (.ok false, b', (S.read s len).st) ∧ b'.Good := by
  unfold Buf.readStream
  have hw : w64 (off + len) = off + len := Nat.mod_eq_of_lt hsum
  rw [hw]
  obtain ⟨b1, hr⟩ := Buf.resize_ok (cfg := cfg) (b := b) hmax
  obtain ⟨g1, g2, g3⟩ := Buf.resize_good hg hsum hr
  have hin := g1.inside
  rw [hr]
  simp only
  rw [if_pos (by omega), hok]
  refine ⟨_, rfl, ⟨?_, g1.small⟩⟩
  simp only
  rw [writeAt_length (by omega)]
  exact hin

/-- The logical content of the buffer is `bs`. -/
structure Buf.Holds (b : Buf) (bs : List Byte) : Prop where
  good : b.Good
  eq : b.mem.take b.size = bs

theorem Buf.Holds.size {b : Buf} {bs : List Byte} (h : b.Holds bs) : b.size = bs.length := by
  rw [← h.eq, List.length_take]
  have := h.good.inside
  omega

theorem Buf.Holds.slice {b : Buf} {bs : List Byte} (h : b.Holds bs) {o n : Nat} (hn : o + n ≤ bs.length) :
    Sas.slice b.mem o n = Sas.slice bs o n := by
  rw [← h.eq, slice_take (by rw [h.size]; exact hn)]

theorem Buf.Holds.getElem? {b : Buf} {bs : List Byte} (h : b.Holds bs) {o : Nat} (ho : o < bs.length) :
    b.mem[o]? = bs[o]? := by
  rw [← h.eq, List.getElem?_take, if_pos (by rw [h.size]; exact ho)]

theorem Buf.Holds.rd {cfg : Cfg} {b : Buf} {bs : List Byte} (h : b.Holds bs) {o n : Nat}
    (hn : o + n ≤ bs.length) : b.rd cfg o n = .ok (Sas.slice bs o n) := by
  rw [Buf.rd_ok h.good (by rw [h.size]; exact hn), h.slice hn]

theorem Buf.Holds.assertCheck {b : Buf} {bs : List Byte} (h : b.Holds bs) {o n : Nat}
    (hn : o + n ≤ bs.length) : b.assertCheck o n = .ok () :=
  Buf.assertCheck_ok h.good (by rw [h.size]; exact hn)

theorem Buf.Holds.getByte {cfg : Cfg} {b : Buf} {bs : List Byte} (h : b.Holds bs) {o : Nat} {x : Byte}
    (hx : bs[o]? = some x) : b.getByte cfg o = .ok x := by
  have hlt := (List.getElem?_eq_some_iff.mp hx).1
  exact Buf.getByte_ok h.good (by rw [h.size]; exact hlt) (by rw [h.getElem? hlt]; exact hx)

theorem Buf.Holds.getU16 {cfg : Cfg} {e : Endian} {b : Buf} {bs : List Byte} (h : b.Holds bs) {o : Nat}
    (hn : o + 2 ≤ bs.length) : b.getU16 cfg e o = .ok (getVal e (Sas.slice bs o 2)) := by
  rw [Buf.getU16_ok h.good (by rw [h.size]; exact hn), h.slice hn]

theorem Buf.Holds.getU32 {cfg : Cfg} {e : Endian} {b : Buf} {bs : List Byte} (h : b.Holds bs) {o : Nat}
    (hn : o + 4 ≤ bs.length) : b.getU32 cfg e o = .ok (getVal e (Sas.slice bs o 4)) := by
  rw [Buf.getU32_ok h.good (by rw [h.size]; exact hn), h.slice hn]

theorem Buf.Holds.getUInt {cfg : Cfg} {e : Endian} {f : Format} {b : Buf} {bs : List Byte}
    (h : b.Holds bs) {o : Nat} (hn : o + f.intSize ≤ bs.length) :
    b.getUInt cfg e f o = .ok (getVal e (Sas.slice bs o f.intSize)) := by
  rw [Buf.getUInt_ok h.good (by rw [h.size]; exact hn), h.slice hn]

theorem Buf.Holds.getDouble {cfg : Cfg} {e : Endian} {b : Buf} {bs : List Byte} (h : b.Holds bs) {o : Nat}
    (hn : o + 8 ≤ bs.length) : b.getDouble cfg e o = .ok (getVal e (Sas.slice bs o 8)) := by
  rw [Buf.getDouble_ok h.good (by rw [h.size]; exact hn), h.slice hn]

theorem Buf.Holds.getString {cfg : Cfg} {b : Buf} {bs : List Byte} (h : b.Holds bs) {o n : Nat}
    (hn : o + n ≤ bs.length) : b.getString cfg o n = .ok (getStringTrim (Sas.slice bs o n)) := by
  rw [Buf.getString_ok h.good (by rw [h.size]; exact hn), h.slice hn]

/-- After a successful read at 0 the buffer holds what was delivered. -/
theorem Buf.readStream_holds {σ : Type} {cfg : Cfg} {S : Source σ} {b b' : Buf} {s s' : σ} {len : Nat}
    (hg : b.Good) (hsum : len < 2 ^ 64)
    (hlen : (S.read s len).ok = true → (S.read s len).bytes.length = len)
    (h : Buf.readStream cfg S b s len 0 = (.ok true, b', s')) :
    b'.Holds (S.read s len).bytes := by
  obtain ⟨h1, h2, h3, h4, h5, h6⟩ := Buf.readStream_ok hg (by omega) hlen h
  refine ⟨h1, ?_⟩
  rw [h2, Nat.zero_add, ← slice_zero]
  exact h5

/-- After a successful read at the end the buffer holds its old content followed by what was
delivered. -/
theorem Buf.readStream_holds_append {σ : Type} {cfg : Cfg} {S : Source σ} {b b' : Buf} {s s' : σ}
    {len : Nat} {bs : List Byte} (hb : b.Holds bs) (hsum : bs.length + len < 2 ^ 64)
    (hlen : (S.read s len).ok = true → (S.read s len).bytes.length = len)
    (h : Buf.readStream cfg S b s len bs.length = (.ok true, b', s')) :
    b'.Holds (bs ++ (S.read s len).bytes) := by
  obtain ⟨h1, h2, h3, h4, h5, h6⟩ := Buf.readStream_ok hb.good hsum hlen h
  refine ⟨h1, ?_⟩
  rw [h2, List.take_add, h6 (Nat.le_of_eq hb.size.symm), ← hb.size, hb.eq]
  congr 1
  rw [hb.size]
  exact h5

end Sas
