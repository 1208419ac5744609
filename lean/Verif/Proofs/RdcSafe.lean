import Verif.Proofs.RleSafe
import Verif.Proofs.Rdc

/-! The RDC decompressor on arbitrary input: the possible outcomes. -/

namespace Sas

/-- The ways an RDC step can fail. -/
def RdcErr (cfg : Cfg) (e : Stop) : Prop :=
  e = .exn .cannotDecompress ∨ e = .ub ∨ (e = .terminate ∧ cfg.debug = true)

theorem storePattern_err {cfg : Cfg} {d : Dst} {ofs n : Nat} {e : Stop}
    (h : d.storePattern cfg ofs n = .error e) : RdcErr cfg e := by
  unfold Dst.storePattern at h
  split at h
  · split at h
    · rename_i hd
      cases h; right; right
      exact ⟨rfl, by simp at hd; exact hd.1⟩
    · split at h
      · cases h; right; left; rfl
      · split at h
        · cases h; right; left; rfl
        · cases h
  · cases h; left; rfl

/-- A token outcome: progress or a failure of the listed kinds. -/
def TokOk (cfg : Cfg) (n : Nat) : Res (List Byte × Dst) → Prop
  | .ok (src', _) => src'.length < n
  | .error e => RdcErr cfg e

theorem pop_tokOk {cfg : Cfg} {n : Nat} {src : List Byte} (hs : src.length ≤ n)
    {f : Byte × List Byte → Res (List Byte × Dst)}
    (h : ∀ v s', s'.length < n → TokOk cfg n (f (v, s'))) : TokOk cfg n (pop src >>= f) := by
  cases src with
  | nil => exact Or.inr (Or.inl rfl)
  | cons b bs => exact h b bs (by simp at hs; omega)

theorem ite_tokOk {cfg : Cfg} {n : Nat} {p : Prop} [Decidable p] {a b : Res (List Byte × Dst)}
    (h1 : TokOk cfg n a) (h2 : TokOk cfg n b) : TokOk cfg n (if p then a else b) := by
  by_cases h : p
  · rw [if_pos h]; exact h1
  · rw [if_neg h]; exact h2

theorem storeValue_tokOk {cfg : Cfg} {n : Nat} {src : List Byte} (hs : src.length < n) (d : Dst)
    (v : Byte) (k : Nat) : TokOk cfg n (do return (src, ← d.storeValue v k)) := by
  cases h : d.storeValue v k with
  | ok d' => exact hs
  | error e => exact Or.inl (storeValue_err h)

theorem storePattern_tokOk {cfg : Cfg} {n : Nat} {src : List Byte} (hs : src.length < n) (d : Dst)
    (o k : Nat) : TokOk cfg n (do return (src, ← d.storePattern cfg o k)) := by
  cases h : d.storePattern cfg o k with
  | ok d' => exact hs
  | error e => exact storePattern_err h

theorem rdcToken_tokOk (cfg : Cfg) (src : List Byte) (d : Dst) :
    TokOk cfg src.length (rdcToken cfg src d) := by
  unfold rdcToken
  refine pop_tokOk (Nat.le_refl _) fun val s hs => ?_
  dsimp only
  refine ite_tokOk (pop_tokOk (by omega) fun v s' hs' => storeValue_tokOk hs' _ _ _) ?_
  refine ite_tokOk (pop_tokOk (by omega) fun v s' hs' => pop_tokOk (Nat.le_of_lt hs') fun v s'' hs'' =>
    storeValue_tokOk hs'' _ _ _) ?_
  refine ite_tokOk (pop_tokOk (by omega) fun v s' hs' => pop_tokOk (Nat.le_of_lt hs') fun v s'' hs'' =>
    storePattern_tokOk hs'' _ _ _) ?_
  exact pop_tokOk (by omega) fun v s' hs' => storePattern_tokOk hs' _ _ _

theorem rdcControl_len {c c' : Ctrl} {src src' : List Byte}
    (h : rdcControl c src = .ok (c', src')) : src'.length ≤ src.length := by
  unfold rdcControl at h
  simp only at h
  split at h
  · match src, h with
    | [], h => cases h
    | [a], h => cases h
    | a :: b :: r, h => cases h; simp; omega
  · cases h; exact Nat.le_refl _

theorem rdcControl_err {c : Ctrl} {src : List Byte} {e : Stop}
    (h : rdcControl c src = .error e) : e = .ub := by
  unfold rdcControl at h
  simp only at h
  split at h
  · match src, h with
    | [], h => cases h; rfl
    | [a], h => cases h; rfl
    | a :: b :: r, h => cases h
  · cases h

theorem rdcStep_ok_lt {cfg : Cfg} {c c' : Ctrl} {src src' : List Byte} {d d' : Dst}
    (h : rdcStep cfg c src d = .ok (c', src', d')) : src'.length < src.length := by
  unfold rdcStep at h
  cases hc : rdcControl c src with
  | error e => simp [hc, bind, Except.bind] at h
  | ok x =>
    obtain ⟨c1, s1⟩ := x
    have hl := rdcControl_len hc
    simp only [hc, bind, Except.bind] at h
    cases hset : c1.isSet with
    | true =>
      simp only [hset, if_true] at h
      have ht := rdcToken_tokOk cfg s1 d
      cases hr : rdcToken cfg s1 d with
      | error e => simp [hr] at h
      | ok y =>
        obtain ⟨s2, d2⟩ := y
        rw [hr] at ht h
        simp only [pure, Except.pure, Except.ok.injEq, Prod.mk.injEq] at h
        obtain ⟨-, rfl, -⟩ := h
        have : s2.length < s1.length := ht
        omega
    | false =>
      simp only [hset, Bool.false_eq_true, if_false] at h
      cases s1 with
      | nil => simp [pop] at h
      | cons v s1 =>
        simp only [pop] at h
        cases hr : d.storeValue v 1 with
        | error e => simp [hr] at h
        | ok y =>
          simp only [hr, pure, Except.pure, Except.ok.injEq, Prod.mk.injEq] at h
          obtain ⟨-, rfl, -⟩ := h
          simp at hl; omega

theorem rdcStep_err {cfg : Cfg} {c : Ctrl} {src : List Byte} {d : Dst} {e : Stop}
    (h : rdcStep cfg c src d = .error e) : RdcErr cfg e := by
  unfold rdcStep at h
  cases hc : rdcControl c src with
  | error e' =>
    simp only [hc, bind, Except.bind, Except.error.injEq] at h
    subst h
    exact Or.inr (Or.inl (rdcControl_err hc))
  | ok x =>
    obtain ⟨c1, s1⟩ := x
    simp only [hc, bind, Except.bind] at h
    cases hset : c1.isSet with
    | true =>
      simp only [hset, if_true] at h
      have ht := rdcToken_tokOk cfg s1 d
      cases hr : rdcToken cfg s1 d with
      | error e' =>
        rw [hr] at ht h
        simp only [Except.error.injEq] at h
        subst h; exact ht
      | ok y => simp [hr, pure, Except.pure] at h
    | false =>
      simp only [hset, Bool.false_eq_true, if_false] at h
      cases s1 with
      | nil =>
        simp only [pop, Except.error.injEq] at h
        subst h; exact Or.inr (Or.inl rfl)
      | cons v s1 =>
        simp only [pop] at h
        cases hr : d.storeValue v 1 with
        | error e' =>
          simp only [hr, Except.error.injEq] at h
          subst h; exact Or.inl (storeValue_err hr)
        | ok y => simp [hr, pure, Except.pure] at h

theorem rdcLoop_err (cfg : Cfg) (fuel : Nat) : ∀ (c : Ctrl) (src : List Byte) (d d' : Dst) (e : Stop),
    src.length ≤ fuel → rdcLoop cfg fuel c src d = (.error e, d') → RdcErr cfg e := by
  induction fuel with
  | zero =>
    intro c src d d' e hf h
    unfold rdcLoop at h
    rw [if_neg (by omega)] at h
    cases h
  | succ k ih =>
    intro c src d d' e hf h
    rw [rdcLoop_succ] at h
    by_cases hc : 3 ≤ src.length ∧ d.i < d.mem.length
    · rw [if_pos hc] at h
      cases hr : rdcStep cfg c src d with
      | error e' =>
        rw [hr] at h
        cases h
        exact rdcStep_err hr
      | ok x =>
        obtain ⟨c1, s', d1⟩ := x
        have := rdcStep_ok_lt hr
        rw [hr] at h
        exact ih c1 s' d1 d' e (by omega) h
    · rw [if_neg hc] at h; cases h

theorem rdc_err (cfg : Cfg) (src dst : List Byte) (e : Stop) (h : (rdc cfg src dst).1 = .error e) :
    RdcErr cfg e := by
  obtain ⟨-, out, h2, -⟩ := rdcLoop_sim cfg src.length ⟨0, 0⟩ src (Dst.has_init dst) (Dst.has_init dst)
  unfold rdc at h
  cases hx : rdcLoop cfg src.length ⟨0, 0⟩ src ⟨dst, 0⟩ with
  | mk r d =>
    rw [hx] at h h2
    cases r with
    | error e' =>
      simp only at h
      cases h
      exact rdcLoop_err _ _ _ _ _ _ _ (Nat.le_refl _) hx
    | ok u =>
      obtain ⟨d', hf, -⟩ := h2.fill
      simp only at hf
      simp [hf] at h

end Sas
