import Verif.Proofs.Lists
import Verif.Model.Source

/-! The file source keeps the contract of data sources. -/

namespace Sas

theorem IFStream.readPlain_lawful (s : IFStream) (n : Nat) :
    (s.readPlain n).bytes.length ≤ n ∧ ((s.readPlain n).ok = true → (s.readPlain n).bytes.length = n) := by
  unfold IFStream.readPlain
  split
  · rename_i h
    simp only [slice_length h]
    exact ⟨Nat.le_refl _, fun _ => trivial⟩
  · simp only [List.length_drop]
    exact ⟨by omega, by simp⟩

theorem ifs_lawful : ifs.Lawful := by
  have key : ∀ (s : IFStream) (n : Nat), (s.read n).bytes.length ≤ n ∧
      ((s.read n).ok = true → (s.read n).bytes.length = n) := by
    intro s n
    have hp := s.readPlain_lawful n
    unfold IFStream.read
    split
    · simp
    · split
      · simp
      · split
        · split
          · simp only [slice, List.length_take, List.length_drop]
            exact ⟨by omega, by simp⟩
          · exact hp
        · exact hp
  exact ⟨fun s n => (key s n).1, fun s n => (key s n).2⟩

/-- Reading from a file that works. -/
theorem ifs_read_ok {data : List Byte} {pos n : Nat} (h : pos + n ≤ data.length) (hn : n < 2 ^ 63) :
    ifs.read ⟨data, pos, false, false, none⟩ n =
      ⟨⟨data, pos + n, false, false, none⟩, slice data pos n, true⟩ := by
  simp only [ifs, IFStream.read, Bool.or_self, Bool.false_eq_true, if_false]
  rw [if_neg (by omega)]
  unfold IFStream.readPlain
  rw [if_pos h]

/-- Reading beyond the end of a file that works. -/
theorem ifs_read_short {data : List Byte} {pos n : Nat} (_hp : pos ≤ data.length)
    (h : data.length < pos + n) (hn : n < 2 ^ 63) :
    ifs.read ⟨data, pos, false, false, none⟩ n =
      ⟨⟨data, data.length, true, true, none⟩, data.drop pos, false⟩ := by
  simp only [ifs, IFStream.read, Bool.or_self, Bool.false_eq_true, if_false]
  rw [if_neg (by omega)]
  unfold IFStream.readPlain
  rw [if_neg (by simp; omega)]

end Sas
