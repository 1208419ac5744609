import Verif.Proofs.Rle

/-! The RLE decompressor on arbitrary input: the only possible undefined behaviour. -/

namespace Sas

theorem storeValue_err {d : Dst} {v : Byte} {k : Nat} {e : Stop} (h : d.storeValue v k = .error e) :
    e = .exn .cannotDecompress := by
  unfold Dst.storeValue at h
  split at h <;> cases h; rfl

theorem storeBytes_err {d : Dst} {bs : List Byte} {e : Stop} (h : d.storeBytes bs = .error e) :
    e = .exn .cannotDecompress := by
  unfold Dst.storeBytes at h
  split at h <;> cases h; rfl

/-- A step outcome: progress along the source, or an exception, or the one undefined behaviour. -/
def StepOk (src : List Byte) : Res (List Byte × Dst) → Prop
  | .ok (src', _) => src' <:+ src ∧ src'.length < src.length
  | .error e => e = .exn .cannotDecompress ∨
      (e = .ub ∧ ∃ hi lo : Byte, src = [hi, lo] ∧ hi.toNat / 16 = 4)

theorem storeValue_stepOk {src src' : List Byte} (hs : src' <:+ src) (hl : src'.length < src.length)
    (d : Dst) (v : Byte) (k : Nat) : StepOk src (do return (src', ← d.storeValue v k)) := by
  cases h : d.storeValue v k with
  | ok d' => exact ⟨hs, hl⟩
  | error e => exact Or.inl (storeValue_err h)

theorem rleStoreValues_stepOk {src src' : List Byte} (hs : src' <:+ src)
    (hl : src'.length < src.length) (d : Dst) (k : Nat) : StepOk src (rleStoreValues src' d k) := by
  unfold rleStoreValues
  cases h : d.storeBytes (src'.take (min k src'.length)) with
  | ok d' =>
    simp only [h, bind, Except.bind, pure, Except.pure, StepOk]
    exact ⟨(List.drop_suffix _ _).trans hs, by simp; omega⟩
  | error e =>
    simp only [h, bind, Except.bind, StepOk]
    exact Or.inl (storeBytes_err h)

theorem ite_stepOk {src : List Byte} {p : Prop} [Decidable p] {a b : Res (List Byte × Dst)}
    (h1 : p → StepOk src a) (h2 : ¬p → StepOk src b) : StepOk src (if p then a else b) := by
  by_cases h : p
  · rw [if_pos h]; exact h1 h
  · rw [if_neg h]; exact h2 h

theorem rleStep_stepOk (src : List Byte) (h2 : 2 ≤ src.length) (d : Dst) :
    StepOk src (rleStep src d) := by
  match src, h2 with
  | val :: b :: rest, _ =>
    unfold rleStep
    simp only [pop, bind, Except.bind]
    have s1 : b :: rest <:+ val :: b :: rest := List.suffix_cons _ _
    have s2 : rest <:+ val :: b :: rest := (List.suffix_cons _ _).trans s1
    have l1 : (b :: rest).length < (val :: b :: rest).length := by simp
    have l2 : rest.length < (val :: b :: rest).length := by simp; omega
    refine ite_stepOk (fun _ => rleStoreValues_stepOk s2 l2 _ _) fun _ => ?_
    refine ite_stepOk (fun h4 => ?_) fun _ => ?_
    · cases rest with
      | nil => exact Or.inr ⟨rfl, val, b, rfl, h4⟩
      | cons v rest' =>
        exact storeValue_stepOk ((List.suffix_cons _ _).trans s2) (by simp; omega) d v _
    refine ite_stepOk (fun _ => storeValue_stepOk s2 l2 _ _ _) fun _ => ?_
    refine ite_stepOk (fun _ => storeValue_stepOk s2 l2 _ _ _) fun _ => ?_
    refine ite_stepOk (fun _ => storeValue_stepOk s2 l2 _ _ _) fun _ => ?_
    refine ite_stepOk (fun _ => rleStoreValues_stepOk s1 l1 _ _) fun _ => ?_
    refine ite_stepOk (fun _ => rleStoreValues_stepOk s1 l1 _ _) fun _ => ?_
    refine ite_stepOk (fun _ => rleStoreValues_stepOk s1 l1 _ _) fun _ => ?_
    refine ite_stepOk (fun _ => rleStoreValues_stepOk s1 l1 _ _) fun _ => ?_
    refine ite_stepOk (fun _ => storeValue_stepOk s2 l2 _ _ _) fun _ => ?_
    refine ite_stepOk (fun _ => storeValue_stepOk s1 l1 _ _ _) fun _ => ?_
    refine ite_stepOk (fun _ => storeValue_stepOk s1 l1 _ _ _) fun _ => ?_
    refine ite_stepOk (fun _ => storeValue_stepOk s1 l1 _ _ _) fun _ => ?_
    exact Or.inl rfl

theorem rleLoop_err (fuel : Nat) : ∀ (src : List Byte) (d d' : Dst) (e : Stop), src.length ≤ fuel →
    rleLoop fuel src d = (.error e, d') →
    e = .exn .cannotDecompress ∨
      (e = .ub ∧ ∃ hi lo : Byte, [hi, lo] <:+ src ∧ hi.toNat / 16 = 4) := by
  induction fuel with
  | zero =>
    intro src d d' e hf h
    unfold rleLoop at h
    rw [if_neg (by omega)] at h
    cases h
  | succ k ih =>
    intro src d d' e hf h
    rw [rleLoop_succ] at h
    by_cases hc : 2 ≤ src.length ∧ d.i < d.mem.length
    · rw [if_pos hc] at h
      have hs := rleStep_stepOk src hc.1 d
      cases hr : rleStep src d with
      | error e' =>
        rw [hr] at h hs
        have : e' = e := by cases h; rfl
        subst this
        rcases hs with hs | ⟨hs, hi, lo, h1, h2⟩
        · exact Or.inl hs
        · exact Or.inr ⟨hs, hi, lo, by rw [h1]; exact List.suffix_refl _, h2⟩
      | ok x =>
        obtain ⟨s', d1⟩ := x
        rw [hr] at h hs
        rcases ih s' d1 d' e (by have := hs.2; omega) h with h | ⟨h, hi, lo, h1, h2⟩
        · exact Or.inl h
        · exact Or.inr ⟨h, hi, lo, h1.trans hs.1, h2⟩
    · rw [if_neg hc] at h; cases h

theorem rle_err (src dst : List Byte) (e : Stop) (h : (rle src dst).1 = .error e) :
    e = .exn .cannotDecompress ∨
      (e = .ub ∧ ∃ hi lo : Byte, [hi, lo] <:+ src ∧ hi.toNat / 16 = 4) := by
  obtain ⟨-, out, h2, -⟩ := rleLoop_sim src.length src (Dst.has_init dst) (Dst.has_init dst)
  unfold rle at h
  cases hx : rleLoop src.length src ⟨dst, 0⟩ with
  | mk r d =>
    rw [hx] at h h2
    cases r with
    | error e' =>
      simp only at h
      cases h
      exact rleLoop_err _ _ _ _ _ (Nat.le_refl _) hx
    | ok u =>
      obtain ⟨d', hf, -⟩ := h2.fill
      simp only at hf
      simp [hf] at h

end Sas
