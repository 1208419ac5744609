import Verif.Proofs.Sources
import Verif.Proofs.Source
import Verif.Demo

/-!
# Properties C75 and C76: what the source is, and what is behind the data
-/

namespace Sas.Props

open Sas Spec

variable {σ₁ σ₂ : Type}

/-- **C75.** Nothing but the bytes of a source matters. With two sources that agree, a reader is opened or not with the same
error; if it is, the properties are the same, and so are all results of all histories, exceptions included, all calls of
the sink and the index of the current row. -/
theorem C75_source {S₁ : Source σ₁} {S₂ : Source σ₂} {Q : σ₁ → σ₂ → Prop} (hA : Agree False S₁ S₂ Q)
    (cfg : Cfg) (fuel : Nat) (filter : Option Filter) {s₁ : σ₁} {s₂ : σ₂} (hQ : Q s₁ s₂) :
    SameOutcome S₁ S₂ (openReader cfg S₁ fuel filter s₁) (openReader cfg S₂ fuel filter s₂) := by
  have h := Proofs.open_agree hA cfg fuel filter hQ
  cases h₁ : openReader cfg S₁ fuel filter s₁ with
  | error e =>
    rw [h₁] at h
    rcases h with h | h
    · exact h.elim
    · rw [h]
      exact .error e
  | ok R₁ =>
    rw [h₁] at h
    rcases h with ⟨R₂, h2, h3⟩ | ⟨h, -⟩
    · rw [h2]
      have key : ∀ ops, (R₁.run S₁ ops).1 = (R₂.run S₂ ops).1 ∧ Proofs.ReRel Q (R₁.run S₁ ops).2 (R₂.run S₂ ops).2 := by
        intro ops
        rcases Proofs.run_agree hA ops h3 with g | ⟨g, -⟩
        · exact g
        · exact g.elim
      exact .ok R₁ R₂ h3.props (fun ops => (key ops).1) (fun ops => (key ops).2.trace) (fun ops => (key ops).2.rd.1)
    · exact h.elim

/-- Bytes in a file and the same bytes in memory agree. -/
theorem memory_agree : Agree False ifs memory fun a b => a.data.length < 2 ^ 63 ∧ a.pos ≤ a.data.length ∧
    b.left = a.data.drop a.pos ∧ a.eofbit = false ∧ a.failbit = false ∧ a.fault = none ∧ b.ended = false where
  fits₁ := ifs_lawful.le
  fits₂ b n := by
    unfold memory
    dsimp only
    split
    · simp
    · simp
  huge₁ a n h _ := by
    show (IFStream.read a n).bytes = []
    unfold IFStream.read
    rw [if_pos h]
    split
    · rfl
    · rfl
  huge₂ b n _ h := by
    revert h
    unfold memory
    dsimp only
    split
    · intro h; cases h
    · intro _; rfl
  eof a b h := by
    show a.eofbit = b.ended
    rw [h.2.2.2.1, h.2.2.2.2.2.2]
  good := by
    rintro ⟨d, p, e, f, k⟩ ⟨l, z⟩ ⟨h1, h2, h3, h4, h5, h6, h7⟩ n hok
    dsimp only at h1 h2 h3 h4 h5 h6 h7
    subst h3 h4 h5 h6 h7
    by_cases hn : p + n ≤ d.length
    · rw [show ifs.read ⟨d, p, false, false, none⟩ n = _ from ifs_read_ok hn (by omega)]
      have hm : n ≤ (d.drop p).length := by rw [List.length_drop]; omega
      unfold memory
      dsimp only
      rw [if_pos hm]
      exact ⟨rfl, rfl, h1, hn, by rw [List.drop_drop], rfl, rfl, rfl, rfl⟩
    · exfalso
      revert hok
      show (IFStream.read ⟨d, p, false, false, none⟩ n).ok = true → False
      unfold IFStream.read
      simp only [Bool.or_self, Bool.false_eq_true, if_false]
      split
      · intro h; cases h
      · unfold IFStream.readPlain
        rw [if_neg hn]
        intro h; cases h
  fail := by
    rintro ⟨d, p, e, f, k⟩ ⟨l, z⟩ ⟨h1, h2, h3, h4, h5, h6, h7⟩ n hok
    dsimp only at h1 h2 h3 h4 h5 h6 h7
    subst h3 h4 h5 h6 h7
    right
    by_cases hn : p + n ≤ d.length
    · rw [show ifs.read ⟨d, p, false, false, none⟩ n = _ from ifs_read_ok hn (by omega)] at hok
      cases hok
    · have hm : ¬ n ≤ (d.drop p).length := by rw [List.length_drop]; omega
      unfold memory
      dsimp only
      rw [if_neg hm]
      refine ⟨rfl, ?_⟩
      show (IFStream.read ⟨d, p, false, false, none⟩ n).st.eofbit = true
      unfold IFStream.read
      simp only [Bool.or_self, Bool.false_eq_true, if_false]
      split
      · rfl
      · unfold IFStream.readPlain
        rw [if_neg hn]

/-- **C75** for a source of one's own: the bytes of a file in memory are read as the file is. -/
theorem C75_memory (cfg : Cfg) (fuel : Nat) (filter : Option Filter) (data : List Byte) (h : data.length < 2 ^ 63) :
    SameOutcome ifs memory (openReader cfg ifs fuel filter (IFStream.open data))
      (openReader cfg memory fuel filter ⟨data, false⟩) :=
  C75_source (s₁ := IFStream.open data) (s₂ := ⟨data, false⟩) memory_agree cfg fuel filter ⟨h, Nat.zero_le _, rfl, rfl, rfl, rfl, rfl⟩

/-- The other reader of two that have come to the same. -/
theorem opened_alike {S₁ : Source σ₁} {S₂ : Source σ₂} {x : Res (Reader σ₁)} {y : Res (Reader σ₂)} (h : SameOutcome S₁ S₂ x y)
    {R₁ : Reader σ₁} (hx : x = .ok R₁) : ∃ R₂, y = .ok R₂ ∧ R₁.props = R₂.props ∧
      (∀ ops, (R₁.run S₁ ops).2.trace = (R₂.run S₂ ops).2.trace) ∧
      ∀ ops, (R₁.run S₁ ops).2.currentRowIndex = (R₂.run S₂ ops).2.currentRowIndex := by
  cases h with
  | error e => cases hx
  | ok R R₂ h1 h2 h3 h4 => cases hx; exact ⟨R₂, rfl, h1, h3, h4⟩

/-- The demonstration file is opened from memory, and its three rows arrive. -/
example : ∃ R, openReader Demo.cfg memory 10 none ⟨Demo.file, false⟩ = .ok R ∧ R.props = Demo.reader.props ∧
    (R.run memory [.readAll]).2.trace = (Demo.reader.run ifs [.readAll]).2.trace ∧
    (R.run memory [.readAll]).2.currentRowIndex = 3 := by
  have hl : Demo.file.length < 2 ^ 63 := by decide +kernel
  have h := C75_memory Demo.cfg 10 none Demo.file hl
  obtain ⟨R, h1, h2, h3, h4⟩ := opened_alike h Demo.opened_ok
  refine ⟨R, h1, h2.symm, (h3 _).symm, ?_⟩
  rw [← h4]
  decide +kernel

/-- A file, and the same file with something behind it, agree as long as no read fails on the file. -/
theorem followed_agree (file tail : List Byte) (fault : Option Nat) : Agree True ifs ifs fun a b =>
    (∃ p, a = ⟨file, p, false, false, none⟩ ∧ b = ⟨file ++ tail, p, false, false, fault.map (file.length + ·)⟩) where
  fits₁ := ifs_lawful.le
  fits₂ := ifs_lawful.le
  huge₁ a n h _ := by
    show (IFStream.read a n).bytes = []
    unfold IFStream.read
    rw [if_pos h]
    split
    · rfl
    · rfl
  huge₂ a n h _ := by
    show (IFStream.read a n).bytes = []
    unfold IFStream.read
    rw [if_pos h]
    split
    · rfl
    · rfl
  eof := by
    rintro _ _ ⟨p, rfl, rfl⟩
    rfl
  good := by
    rintro _ _ ⟨p, rfl, rfl⟩ n hok
    by_cases hn : p + n ≤ file.length ∧ n < 2 ^ 63
    · rw [show ifs.read ⟨file, p, false, false, none⟩ n = _ from ifs_read_ok hn.1 hn.2]
      have : ∀ o, o = fault.map (file.length + ·) → ifs.read ⟨file ++ tail, p, false, false, o⟩ n =
          ⟨⟨file ++ tail, p + n, false, false, o⟩, slice file p n, true⟩ := by
        intro o ho
        have h63 : ¬ 2 ^ 63 ≤ n := by omega
        have hp : IFStream.readPlain ⟨file ++ tail, p, false, false, o⟩ n =
            ⟨⟨file ++ tail, p + n, false, false, o⟩, slice file p n, true⟩ := by
          unfold IFStream.readPlain
          dsimp only
          rw [if_pos (by rw [List.length_append]; omega)]
          congr 1
          unfold slice
          rw [List.drop_append_of_le_length (by omega), List.take_append_of_le_length (by rw [List.length_drop]; omega)]
        show IFStream.read ⟨file ++ tail, p, false, false, o⟩ n = _
        unfold IFStream.read
        simp only [Bool.or_self, Bool.false_eq_true, if_false, h63]
        cases o with
        | none => exact hp
        | some k =>
          cases fault with
          | none => cases ho
          | some j =>
            simp only [Option.map_some, Option.some.injEq] at ho
            have hk : ¬ (k < p + n ∧ k ≤ (file ++ tail).length) := by omega
            simp only [hk, if_false]
            exact hp
      rw [this _ rfl]
      exact ⟨rfl, rfl, p + n, rfl, rfl⟩
    · exfalso
      revert hok
      show (IFStream.read ⟨file, p, false, false, none⟩ n).ok = true → False
      unfold IFStream.read
      simp only [Bool.or_self, Bool.false_eq_true, if_false]
      split
      · intro h; cases h
      · unfold IFStream.readPlain
        rw [if_neg (by intro h'; exact hn ⟨h', by omega⟩)]
        intro h; cases h
  fail a b _ n _ := .inl trivial

/-- **C76**, as far as it holds: for datasets with at least one row. Let a history on a file reach the last row. If anything
is appended to the file, or the device fails somewhere behind it, the file is opened with the same properties and the
history has the same results, makes the same calls on the sink and reaches the last row as well. -/
theorem C76_tail_partial {cfg : Cfg} {fuel : Nat} {filter : Option Filter} {file : List Byte} {R : Reader IFStream}
    (h : openReader cfg ifs fuel filter (IFStream.open file) = .ok R) (h0 : 0 < R.props.md.rowCount) (ops : List Op)
    (hlast : (R.run ifs ops).2.currentRowIndex = R.props.md.rowCount) (tail : List Byte) (fault : Option Nat) :
    ∃ R', openReader cfg ifs fuel filter (followed file tail fault) = .ok R' ∧ R'.props = R.props ∧
      (R'.run ifs ops).1 = (R.run ifs ops).1 ∧ (R'.run ifs ops).2.trace = (R.run ifs ops).2.trace ∧
      (R'.run ifs ops).2.currentRowIndex = R.props.md.rowCount := by
  obtain ⟨hpage, hrow, -⟩ := openReader_spec h
  have hst : Proofs.Starved R.props.md R.rd := fun _ => by omega
  have hend := Proofs.run_starved (S₁ := ifs) ops hst
  have hprops : (R.run ifs ops).2.props = R.props := Reader.run_props ops R hpage
  have hsome : (R.run ifs ops).2.rd.page ≠ none := by
    intro hn
    apply hend hn
    rw [hprops]
    exact hlast
  have ho := Proofs.open_agree (followed_agree file tail fault) cfg fuel filter
    (s₁ := IFStream.open file) (s₂ := followed file tail fault) ⟨0, rfl, rfl⟩
  rw [h] at ho
  rcases ho with ⟨R', h1, h2⟩ | ⟨-, hn⟩
  · rcases Proofs.run_agree (followed_agree file tail fault) ops h2 with ⟨g1, g2⟩ | ⟨-, hn⟩
    · exact ⟨R', h1, h2.props.symm, g1.symm, g2.trace.symm, by rw [← hlast]; exact g2.rd.1.symm⟩
    · exact absurd hn hsome
  · exact absurd (Proofs.run_dead ops hn) hsome

/-- Three rows, the file twice, and a device that fails in the second one. -/
example : ∃ R', openReader Demo.cfg ifs 10 none (followed Demo.file Demo.file (some 100)) = .ok R' ∧
    R'.props = Demo.reader.props ∧ (R'.run ifs [.readRow, .readAll]).1 = [.ok (.bool true), .ok .unit] ∧
    (R'.run ifs [.readRow, .readAll]).2.currentRowIndex = 3 := by
  obtain ⟨R', h1, h2, h3, h4, h5⟩ := C76_tail_partial (show openReader Demo.cfg ifs 10 none (IFStream.open Demo.file) =
    .ok Demo.reader from Demo.opened_ok) (by decide +kernel) [.readRow, .readAll] (by decide +kernel) Demo.file (some 100)
  refine ⟨R', h1, h2, ?_, ?_⟩
  · rw [h3]; decide +kernel
  · rw [h5]; decide +kernel

/-- A dataset without rows whose file ends with the metadata. -/
def emptyFile : List Byte := Demo.header 900 1 ++ Demo.metaPage 0 14 0 0 (ascii "        ") [] []

/-- **C76** is false of datasets without rows: what is behind them is taken for more of them. Here a page behind the file
turns a dataset that has no rows into one that has five. -/
theorem C76_refuted : ∃ (file tail : List Byte) (R R' : Reader IFStream),
    openReader Demo.cfg ifs 10 none (IFStream.open file) = .ok R ∧
    R.currentRowIndex = R.props.md.rowCount ∧ R.props.md.rowCount = 0 ∧
    openReader Demo.cfg ifs 10 none (followed file tail none) = .ok R' ∧ R'.props.md.rowCount = 5 :=
  ⟨emptyFile, Demo.metaPage 0 14 5 0 (ascii "        ") [] [],
    Demo.get (openReader Demo.cfg ifs 10 none (IFStream.open emptyFile)),
    Demo.get (openReader Demo.cfg ifs 10 none (followed emptyFile (Demo.metaPage 0 14 5 0 (ascii "        ") [] []) none)),
    Demo.get_ok (by decide +kernel), by decide +kernel, by decide +kernel, Demo.get_ok (by decide +kernel), by decide +kernel⟩

end Sas.Props
