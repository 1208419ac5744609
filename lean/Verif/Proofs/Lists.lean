import Verif.Model.Buffer
import Verif.Model.Decompress

/-! Helper lemmas on slices and on the destination buffer of the decompressors. -/

namespace Sas

theorem slice_length {α : Type} {l : List α} {o n : Nat} (h : o + n ≤ l.length) :
    (slice l o n).length = n := by
  simp [slice]; omega

theorem slice_zero {α : Type} {l : List α} {n : Nat} : slice l 0 n = l.take n := by simp [slice]

theorem slice_append_left {α : Type} {a b : List α} {o n : Nat} (h : o + n ≤ a.length) :
    slice (a ++ b) o n = slice a o n := by
  unfold slice
  rw [List.drop_append_of_le_length (by omega), List.take_append_of_le_length (by simp; omega)]

theorem slice_append_right {α : Type} {a b : List α} {o n : Nat} :
    slice (a ++ b) (a.length + o) n = slice b o n := by
  unfold slice
  rw [List.drop_append, List.drop_eq_nil_of_le (by omega)]
  simp

theorem slice_append_mid {α : Type} {a b c : List α} :
    slice (a ++ b ++ c) a.length b.length = b := by
  simp [slice]

theorem slice_take {α : Type} {l : List α} {o n k : Nat} (h : o + n ≤ k) :
    slice (l.take k) o n = slice l o n := by
  unfold slice
  rw [List.drop_take, List.take_take]
  congr 1; omega

theorem slice_slice {α : Type} {l : List α} {o n o' n' : Nat} (h : o' + n' ≤ n) :
    slice (slice l o n) o' n' = slice l (o + o') n' := by
  unfold slice
  rw [List.drop_take, List.take_take, List.drop_drop]
  congr 1; omega

theorem slice_drop {α : Type} {l : List α} {o n k : Nat} :
    slice (l.drop k) o n = slice l (k + o) n := by
  simp [slice]

theorem writeAt_length {mem bs : List Byte} {o : Nat} (h : o + bs.length ≤ mem.length) :
    (writeAt mem o bs).length = mem.length := by
  simp [writeAt]; omega

theorem writeAt_take {mem bs : List Byte} {o : Nat} (h : o + bs.length ≤ mem.length) :
    (writeAt mem o bs).take (o + bs.length) = mem.take o ++ bs := by
  unfold writeAt
  rw [List.take_append_of_le_length (by simp; omega)]
  apply List.take_of_length_le
  simp; omega

theorem writeAt_slice_same {mem bs : List Byte} {o : Nat} (h : o ≤ mem.length) :
    slice (writeAt mem o bs) o bs.length = bs := by
  unfold writeAt
  have : o = (mem.take o).length := by simp; omega
  conv => lhs; arg 2; rw [this]
  exact slice_append_mid

theorem writeAt_zero {mem bs : List Byte} :
    writeAt mem 0 bs = bs ++ mem.drop bs.length := by
  simp [writeAt]

/-- The destination of a decompressor of capacity `n` holds exactly the output `out` so far. -/
structure Dst.Has (d : Dst) (n : Nat) (out : List Byte) : Prop where
  len : d.mem.length = n
  idx : d.i = out.length
  pre : d.mem.take out.length = out
  le : out.length ≤ n

theorem Dst.has_init (dst : List Byte) : Dst.Has ⟨dst, 0⟩ dst.length [] :=
  ⟨rfl, rfl, rfl, Nat.zero_le _⟩

theorem Dst.Has.write {d : Dst} {n : Nat} {out bs : List Byte} (h : d.Has n out)
    (hb : out.length + bs.length ≤ n) :
    Dst.Has ⟨writeAt d.mem d.i bs, d.i + bs.length⟩ n (out ++ bs) := by
  obtain ⟨h1, h2, h3, h4⟩ := h
  refine ⟨?_, by simp [h2], ?_, by simp; omega⟩
  · show (writeAt d.mem d.i bs).length = n
    rw [writeAt_length (by omega)]; exact h1
  · show (writeAt d.mem d.i bs).take (out ++ bs).length = out ++ bs
    rw [List.length_append, ← h2, writeAt_take (by omega), h2, h3]

theorem Dst.Has.storeValue {d : Dst} {n : Nat} {out : List Byte} (h : d.Has n out) (v : Byte)
    (k : Nat) (hk : out.length + k ≤ n) :
    ∃ d', d.storeValue v k = .ok d' ∧ d'.Has n (out ++ List.replicate k v) := by
  refine ⟨_, ?_, h.write (bs := List.replicate k v) (by simpa using hk)⟩
  have := h.len; have := h.idx
  unfold Dst.storeValue
  rw [if_pos (by omega)]; simp

theorem Dst.Has.storeBytes {d : Dst} {n : Nat} {out : List Byte} (h : d.Has n out) (bs : List Byte)
    (hk : out.length + bs.length ≤ n) :
    ∃ d', d.storeBytes bs = .ok d' ∧ d'.Has n (out ++ bs) := by
  refine ⟨_, ?_, h.write (bs := bs) hk⟩
  have := h.len; have := h.idx
  unfold Dst.storeBytes
  rw [if_pos (by omega)]

theorem sub64_of_le {a b : Nat} (h : b ≤ a) (ha : a < 2 ^ 64) : sub64 a b = a - b := by
  unfold sub64
  rw [Nat.mod_eq_of_lt (a := b) (by omega)]
  omega

theorem w64_of_lt {a : Nat} (ha : a < 2 ^ 64) : w64 a = a := Nat.mod_eq_of_lt ha

theorem w64_le {a : Nat} : w64 a ≤ a := Nat.mod_le _ _

theorem Dst.Has.storePattern {d : Dst} {n : Nat} {out : List Byte} (h : d.Has n out) (cfg : Cfg)
    (ofs k : Nat) (hk : out.length + k ≤ n) (ho : ofs ≤ out.length) (hko : k ≤ ofs)
    (hn : n < 2 ^ 64) :
    ∃ d', d.storePattern cfg ofs k = .ok d' ∧
      d'.Has n (out ++ slice out (out.length - ofs) k) := by
  have hl := h.len; have hi := h.idx; have hp := h.pre
  have hs : slice d.mem (d.i - ofs) k = slice out (out.length - ofs) k := by
    rw [hi]; conv => rhs; arg 1; rw [← hp]
    rw [slice_take (by omega)]
  have hsl : (slice out (out.length - ofs) k).length = k := slice_length (by omega)
  refine ⟨_, ?_, h.write (bs := slice out (out.length - ofs) k) (by omega)⟩
  unfold Dst.storePattern
  rw [if_pos (by omega), sub64_of_le (by omega) (by omega), w64_of_lt (by omega)]
  rw [if_neg (by simp; intro _; omega), if_neg (by omega), if_neg (by omega), hs, hsl]

theorem Dst.Has.fill {d : Dst} {n : Nat} {out : List Byte} (h : d.Has n out) :
    ∃ d', d.fill = .ok d' ∧ d'.mem = out ++ List.replicate (n - out.length) 0 := by
  have hl := h.len; have hi := h.idx; have hp := h.pre; have hle := h.le
  unfold Dst.fill
  rw [hl, hi]
  by_cases hz : n - out.length = 0
  · refine ⟨d, by simp [hz], ?_⟩
    rw [hz]; simp
    rw [← hp, List.take_of_length_le (by omega)]
  · rw [if_pos hz]
    obtain ⟨d', hd, hh⟩ := h.storeValue 0 (n - out.length) (by omega)
    refine ⟨d', hd, ?_⟩
    have := hh.pre
    rw [← this]
    rw [List.take_of_length_le]
    rw [hh.len]; simp; omega

end Sas
