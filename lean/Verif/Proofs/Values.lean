import Verif.Model.Metadata
import Verif.Model.Encodings
import Verif.Spec.Values

/-!
# Lemmas about decoding values
-/

namespace Sas

open Spec

theorem natLE_append (a b : List Byte) : natLE (a ++ b) = natLE a + 256 ^ a.length * natLE b := by
  induction a with
  | nil => simp [natLE]
  | cons x a ih =>
    simp only [List.cons_append, natLE, ih, List.length_cons, Nat.pow_succ]
    rw [Nat.mul_add, Nat.add_assoc]
    congr 1
    congr 1
    ac_rfl

theorem natLE_replicate_zero (n : Nat) : natLE (List.replicate n 0) = 0 := by
  induction n with
  | zero => rfl
  | succ n ih => simp [List.replicate_succ, natLE, ih]

@[simp] theorem digits_length (w n : Nat) : (digits w n).length = w := by
  induction w with
  | zero => rfl
  | succ w ih => simp [digits, ih]

theorem natLE_digits (w n : Nat) : natLE (digits w n).reverse = n % 256 ^ w := by
  induction w with
  | zero => simp [digits, natLE, Nat.mod_one]
  | succ w ih =>
    rw [digits, List.reverse_cons, natLE_append, ih, List.length_reverse, digits_length,
      Nat.mod_pow_succ]
    simp only [natLE, Nat.mul_zero, Nat.add_zero]
    congr 2
    simp

theorem getVal_encode (e : Endian) (w n : Nat) : getVal e (encode e w n) = n % 256 ^ w := by
  cases e <;> simp [getVal, encode, natLE_digits]

@[simp] theorem encode_length (e : Endian) (w n : Nat) : (encode e w n).length = w := by
  cases e <;> simp [encode]

theorem digits_take (n k b : Nat) : (digits (n + k) b).take n = digits n (b / 256 ^ k) := by
  induction n with
  | zero => simp [digits]
  | succ n ih =>
    have h : n + 1 + k = (n + k) + 1 := by omega
    rw [h, digits, List.take_succ_cons, ih, digits, Nat.div_div_eq_div_mul, ← Nat.pow_add,
      Nat.add_comm k n]

theorem getIncomplete_encode (e : Endian) (n bits : Nat) (hn : n ≤ 8) (hb : bits < 2 ^ 64) :
    getIncompleteDoubleBits e (encodeTruncated e n bits) = bits - bits % 256 ^ (8 - n) := by
  obtain ⟨k, hk⟩ : ∃ k, 8 = n + k := ⟨8 - n, by omega⟩
  have hk' : 8 - n = k := by omega
  have ht : (digits 8 bits).take n = digits n (bits / 256 ^ k) := by
    rw [hk]; exact digits_take n k bits
  have hlt : bits / 256 ^ k < 256 ^ n := by
    apply Nat.div_lt_of_lt_mul
    rw [← Nat.pow_add, Nat.add_comm k n, ← hk]
    exact hb
  have hmul : 256 ^ k * (bits / 256 ^ k) = bits - bits % 256 ^ k := by
    have := Nat.div_add_mod bits (256 ^ k)
    omega
  cases e
  · simp only [getIncompleteDoubleBits, encodeTruncated, getDoubleBits, getVal, ht, hk',
      List.length_reverse, digits_length]
    rw [natLE_append, natLE_replicate_zero, natLE_digits, List.length_replicate,
      Nat.mod_eq_of_lt hlt, Nat.zero_add, hmul]
  · simp only [getIncompleteDoubleBits, encodeTruncated, getDoubleBits, getVal, ht, hk',
      List.reverse_append, List.reverse_replicate, digits_length]
    rw [natLE_append, natLE_replicate_zero, natLE_digits, List.length_replicate,
      Nat.mod_eq_of_lt hlt, Nat.zero_add, hmul]

theorem slice_middle (a cell b : List Byte) : slice (a ++ cell ++ b) a.length cell.length = cell := by
  simp [slice]

theorem Column.cell_middle (c : Column) (a cell b : List Byte) (n : Nat)
    (h1 : c.offset = a.length) (h2 : cell.length = n) : c.cell (a ++ cell ++ b) n = .ok cell := by
  subst h2
  simp only [Column.cell, h1, List.length_append]
  rw [if_pos (by omega), slice_middle]

theorem trimLen_le (p : Byte → Bool) (l : List Byte) (n : Nat) : trimLen p l n ≤ n := by
  induction n with
  | zero => simp [trimLen]
  | succ n ih =>
    simp only [trimLen]
    split
    · split <;> omega
    · omega

theorem trimLen_spec (p : Byte → Bool) (l : List Byte) (n : Nat) (hn : n ≤ l.length) :
    (∀ i, trimLen p l n ≤ i → i < n → ∀ b, l[i]? = some b → p b = true) ∧
    (∀ m, trimLen p l n = m + 1 → ∀ b, l[m]? = some b → p b = false) := by
  induction n with
  | zero => simp [trimLen]
  | succ n ih =>
    have hget : l[n]? = some l[n] := List.getElem?_eq_getElem (by omega)
    simp only [trimLen, hget]
    have ⟨i1, i2⟩ := ih (by omega)
    split
    · rename_i hp
      refine ⟨?_, i2⟩
      intro i h1 h2 b hb
      by_cases hi : i = n
      · subst hi; rw [hget] at hb; cases hb; exact hp
      · exact i1 i h1 (by omega) b hb
    · rename_i hp
      refine ⟨by intro i h1 h2; omega, ?_⟩
      intro m hm b hb
      have : m = n := by omega
      subst this; rw [hget] at hb; cases hb; simpa using hp

/-- Trimming splits the cell: what is kept is a prefix whose last byte is to be kept, what is removed
is all to be removed. -/
theorem trim_split (p : Byte → Bool) (l : List Byte) :
    ∃ removed, l = l.take (trimLen p l l.length) ++ removed ∧ (∀ b ∈ removed, p b = true) ∧
      (∀ b, (l.take (trimLen p l l.length)).getLast? = some b → p b = false) := by
  refine ⟨l.drop (trimLen p l l.length), (List.take_append_drop _ _).symm, ?_, ?_⟩
  · intro b hb
    obtain ⟨i, hi⟩ := List.mem_iff_getElem?.mp hb
    rw [List.getElem?_drop] at hi
    have hlt : trimLen p l l.length + i < l.length := by
      have := List.getElem?_eq_some_iff.mp hi
      exact this.1
    exact (trimLen_spec p l l.length (Nat.le_refl _)).1 _ (Nat.le_add_right _ _) hlt b hi
  · intro b hb
    have hle := trimLen_le p l l.length
    cases hm : trimLen p l l.length with
    | zero => simp [hm] at hb
    | succ m =>
      rw [hm] at hb
      have : (l.take (m + 1)).getLast? = l[m]? := by
        rw [List.getLast?_eq_getElem?, List.length_take, List.getElem?_take]
        have : min (m + 1) l.length = m + 1 := by omega
        rw [this]; simp
      rw [this] at hb
      exact (trimLen_spec p l l.length (Nat.le_refl _)).2 m hm b hb

theorem skipSpace_split (l : List Byte) :
    ∃ lead, l = lead ++ skipSpace l ∧ (∀ b ∈ lead, isSpace b = true) ∧
      (∀ b, (skipSpace l).head? = some b → isSpace b = false) := by
  induction l with
  | nil => exact ⟨[], by simp [skipSpace]⟩
  | cons x l ih =>
    by_cases hx : isSpace x = true
    · obtain ⟨lead, h1, h2, h3⟩ := ih
      refine ⟨x :: lead, ?_, ?_, ?_⟩
      · simp only [skipSpace, hx, if_true, List.cons_append]; rw [← h1]
      · intro b hb
        cases List.mem_cons.mp hb with
        | inl h => subst h; exact hx
        | inr h => exact h2 b h
      · simp only [skipSpace, hx, if_true]; exact h3
    · refine ⟨[], ?_, by simp, ?_⟩
      · simp [skipSpace, hx]
      · simp [skipSpace, hx]

theorem isSpace_iff (b : Byte) : isSpace b = true ↔ white b := by
  simp only [isSpace, white, Bool.or_eq_true, Bool.and_eq_true, decide_eq_true_eq, beq_iff_eq,
    UInt8.le_iff_toNat_le, ← UInt8.toNat_inj]
  rfl

theorem isPrint_iff (b : Byte) : isPrint b = true ↔ printable b := by
  simp only [isPrint, printable, Bool.and_eq_true, decide_eq_true_eq, UInt8.le_iff_toNat_le]
  rfl

theorem isSpace_false (b : Byte) : isSpace b = false ↔ ¬ white b := by
  rw [← isSpace_iff]; simp

theorem toSigned_emod (w : Nat) (hw : 0 < w) (x : Int) (h1 : -2 ^ (w - 1) ≤ x) (h2 : x < 2 ^ (w - 1)) :
    toSigned w (x % 2 ^ w).toNat = x := by
  obtain ⟨v, rfl⟩ : ∃ v, w = v + 1 := ⟨w - 1, by omega⟩
  simp only [Nat.add_sub_cancel] at h1 h2
  have hpos : (0 : Int) < 2 ^ v := Int.pow_pos (by omega)
  have hdbl : (2 : Int) ^ (v + 1) = 2 ^ v + 2 ^ v := by rw [Int.pow_succ]; omega
  have hcast : ((2 ^ v : Nat) : Int) = (2 : Int) ^ v := by simp
  simp only [toSigned, Nat.add_sub_cancel]
  by_cases hx : 0 ≤ x
  · have he : x % 2 ^ (v + 1) = x := Int.emod_eq_of_lt hx (by omega)
    rw [he]
    have : x.toNat < 2 ^ v := by omega
    rw [if_pos this]
    omega
  · have he : x % 2 ^ (v + 1) = x + 2 ^ (v + 1) := by
      rw [← Int.add_emod_right]
      exact Int.emod_eq_of_lt (by omega) (by omega)
    rw [he]
    have : ¬ (x + 2 ^ (v + 1)).toNat < 2 ^ v := by omega
    rw [if_neg this]
    omega

end Sas
