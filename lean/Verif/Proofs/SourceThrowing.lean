import Verif.Spec.SourceThrowing
import Verif.Proofs.Sources

/-!
# Sources that throw
-/

namespace Sas.Proofs
open Sas Sas.Spec

variable {σ τ ε α : Type} {S : SourceCode σ ε} {T : Source τ} {Q : σ → τ → Prop}

/-- The same state on another source. -/
def _root_.Sas.PState.at (p : PState τ) (s : σ) : PState σ := ⟨s, p.buf, p.hdr⟩

def _root_.Sas.RD.at (r : RD τ) (s : σ) : RD σ := ⟨r.p.at s, r.page, r.row, r.dst⟩

def _root_.Sas.Reader.at (R : Reader τ) (s : σ) : Reader σ := ⟨R.env, R.props, R.rd.at s, R.trace⟩

/-- A state in which the source has just thrown. -/
def Threw (S : SourceCode σ ε) (Q : σ → τ → Prop) (s' : σ) (x : ε) : Prop :=
  ∃ s t n bytes, Q s t ∧ S.read s n = (.error x, bytes, s')

theorem readStream_follows (hS : SameUnlessThrown S T Q) (cfg : Cfg) {b : Buf} (hb : b.size ≤ b.mem.length) {s : σ} {t : τ}
    (hQ : Q s t) (len : Nat) {off : Nat} (ho : off < 2 ^ 63) (hs : off ≤ b.size) :
    (∃ s', Q s' (b.readStream cfg T t len off).2.2 ∧
      (b.readStream cfg T t len off).2.1.size ≤ (b.readStream cfg T t len off).2.1.mem.length ∧
      ((b.readStream cfg T t len off).1 = .ok true → (b.readStream cfg T t len off).2.1.size = w64 (off + len)) ∧
      b.readStreamX cfg S s len off = (XRes.of (b.readStream cfg T t len off).1, (b.readStream cfg T t len off).2.1, s')) ∨
    ∃ x b' s', b.readStreamX cfg S s len off = (.error (.source x), b', s') ∧ Threw S Q s' x := by
  unfold Buf.readStream Buf.readStreamX
  cases hr : b.resize cfg (w64 (off + len)) with
  | error e => exact .inl ⟨s, hQ, hb, (fun h => by cases h), rfl⟩
  | ok b' =>
    obtain ⟨h1, h2, h3⟩ := resize_inside hb hr
    have hret := hS.returns s t hQ len
    have hfit := hS.fits s t hQ len
    have hhuge := hS.huge s t hQ len
    have hth : ∀ x bytes s', S.read s len = (.error x, bytes, s') → Threw S Q s' x := fun x bytes s' h => ⟨s, t, len, bytes, hQ, h⟩
    clear hS
    generalize Threw S Q = P at *
    obtain ⟨eof, read⟩ := S
    dsimp only at *
    generalize read s len = y at *
    obtain ⟨r, bytes, s'⟩ := y
    dsimp only
    cases r with
    | ok ok =>
      obtain ⟨g1, g2, g3⟩ := hret _ _ _ rfl
      rw [g1, g2]
      left
      by_cases h : off + bytes.length ≤ b'.mem.length
      · simp only [if_pos h]
        refine ⟨s', g3, ?_, fun _ => h1, rfl⟩
        rw [length_writeAt h]
        omega
      · simp only [if_neg h]
        exact ⟨s', g3, by omega, (fun h => by cases h), rfl⟩
    | error x =>
      right
      have room : off + bytes.length ≤ b'.mem.length := by
        have hk := hfit _ _ _ rfl
        by_cases hl : 2 ^ 63 ≤ len
        · rw [hhuge _ _ _ rfl hl, List.length_nil]
          omega
        · have : w64 (off + len) = off + len := Nat.mod_eq_of_lt (by omega)
          omega
      simp only [if_pos room]
      exact ⟨x, _, s', rfl, hth _ _ _ rfl⟩

/-- The same outcome as on the other source, or the source has thrown. -/
def PFollows (S : SourceCode σ ε) (Q : σ → τ → Prop) (y : XRes ε α × PState σ) (z : Res α × PState τ) : Prop :=
  (∃ s', Q s' z.2.src ∧ z.2.buf.size ≤ z.2.buf.mem.length ∧ y = (XRes.of z.1, z.2.at s')) ∨
  ∃ x, y.1 = .error (.source x) ∧ Threw S Q y.2.src x

theorem readPage_follows (hS : SameUnlessThrown S T Q) (env : Env) {p : PState τ} {s : σ} (hQ : Q s p.src)
    (hb : p.buf.size ≤ p.buf.mem.length) : PFollows S Q (readPageX env S (p.at s)) (readPage env T p) := by
  unfold readPage readPageX
  rw [show (p.at s).src = s from rfl, hS.eof _ _ hQ]
  by_cases he : T.eof p.src = true
  · rw [if_pos he, if_pos he]
    exact .inl ⟨s, hQ, hb, rfl⟩
  · rw [if_neg he, if_neg he]
    rcases readStream_follows hS env.cfg hb hQ env.pageLength (off := 0) (by omega) (by omega) with
      ⟨s', g1, g2, -, g3⟩ | ⟨x, b', s', g, hx⟩
    · rw [show (p.at s).buf = p.buf from rfl, g3]
      generalize p.buf.readStream env.cfg T p.src env.pageLength 0 = z at g1 g2
      obtain ⟨r, b, t⟩ := z
      rcases r with e | (_ | _)
      · exact .inl ⟨s', g1, g2, rfl⟩
      · dsimp only [XRes.of]
        rw [hS.eof _ _ g1]
        by_cases ht : T.eof t = true
        · rw [if_pos ht, if_pos ht]
          exact .inl ⟨s', g1, g2, rfl⟩
        · rw [if_neg ht, if_neg ht]
          exact .inl ⟨s', g1, g2, rfl⟩
      · dsimp only [XRes.of]
        cases getPageHeader env b with
        | error e => exact .inl ⟨s', g1, g2, rfl⟩
        | ok h => exact .inl ⟨s', g1, g2, rfl⟩
    · rw [show (p.at s).buf = p.buf from rfl, g]
      exact .inr ⟨x, rfl, hx⟩

/-- The same outcome as on the other source, or the source has thrown and there is no page any more. -/
def RFollows (S : SourceCode σ ε) (Q : σ → τ → Prop) (y : XRes ε α × RD σ) (z : Res α × RD τ) : Prop :=
  (∃ s', Q s' z.2.p.src ∧ z.2.p.buf.size ≤ z.2.p.buf.mem.length ∧ y = (XRes.of z.1, z.2.at s')) ∨
  ∃ x, y.1 = .error (.source x) ∧ Threw S Q y.2.p.src x ∧ y.2.page = none

theorem nextPageLoop_follows (hS : SameUnlessThrown S T Q) (env : Env) (md : Meta) : ∀ (n : Nat) (r : RD τ) (s : σ),
    Q s r.p.src → r.p.buf.size ≤ r.p.buf.mem.length → r.page = none →
    RFollows S Q (nextPageLoopX env S md n (r.at s)) (nextPageLoop env T md n r) := by
  intro n
  induction n with
  | zero => exact fun r s hQ hb _ => .inl ⟨s, hQ, hb, rfl⟩
  | succ n ih =>
    intro r s hQ hb hp
    unfold nextPageLoop nextPageLoopX
    rcases readPage_follows hS env hQ hb with ⟨s', g1, g2, g3⟩ | ⟨x, g1, g2⟩
    · rw [show (r.at s).p = r.p.at s from rfl, g3]
      generalize readPage env T r.p = z at g1 g2
      obtain ⟨v, p⟩ := z
      rcases v with e | (_ | _)
      · exact .inl ⟨s', g1, g2, rfl⟩
      · exact .inl ⟨s', g1, g2, rfl⟩
      · dsimp only [XRes.of]
        rw [show (p.at s').buf = p.buf from rfl, show (p.at s').hdr = p.hdr from rfl]
        cases buildPage env md p.buf p.hdr with
        | error e => exact .inl ⟨s', g1, g2, rfl⟩
        | ok pg =>
          cases pg with
          | some pg => exact .inl ⟨s', g1, g2, rfl⟩
          | none => exact ih { r with p := p } s' g1 g2 hp
    · rw [show (r.at s).p = r.p.at s from rfl]
      generalize readPageX env S (r.p.at s) = y at g1 g2
      obtain ⟨v, p⟩ := y
      dsimp only at g1
      subst g1
      exact .inr ⟨x, rfl, g2, hp⟩

theorem next_follows (hS : SameUnlessThrown S T Q) (env : Env) (md : Meta) {r : RD τ} {s : σ} (hQ : Q s r.p.src)
    (hb : r.p.buf.size ≤ r.p.buf.mem.length) : RFollows S Q ((r.at s).nextX env S md) (r.next env T md) := by
  unfold RD.next RD.nextX
  rw [show (r.at s).row = r.row from rfl, show (r.at s).page = r.page from rfl]
  by_cases h : r.row = md.rowCount
  · rw [if_pos h, if_pos h]
    exact .inl ⟨s, hQ, hb, rfl⟩
  · rw [if_neg h, if_neg h]
    cases r.page with
    | none => exact .inl ⟨s, hQ, hb, rfl⟩
    | some pg =>
      dsimp only
      cases pg.next with
      | true => exact nextPageLoop_follows hS env md env.fuel { r with page := none } s hQ hb rfl
      | false => exact .inl ⟨s, hQ, hb, rfl⟩

theorem takeLine_at (r : RD τ) (s : σ) : (r.at s).takeLine = (r.takeLine.1, r.takeLine.2.at s) := by
  unfold RD.takeLine
  rw [show (r.at s).page = r.page from rfl]
  cases r.page with
  | none => rfl
  | some pg =>
    dsimp only
    cases pg.readLine <;> rfl

theorem takeLine_p (r : RD τ) : r.takeLine.2.p = r.p := by
  unfold RD.takeLine
  cases r.page with
  | none => rfl
  | some pg =>
    dsimp only
    cases pg.readLine <;> rfl

theorem extract_at (env : Env) (md : Meta) (r : RD τ) (s : σ) (off len : Nat) :
    (r.at s).extract env md off len = ((r.extract env md off len).1, (r.extract env md off len).2.at s) := by
  unfold RD.extract
  rw [show (r.at s).p.buf = r.p.buf from rfl]
  cases fmtAssert env.cfg (w64 (off + len) ≤ env.pageLength) with
  | error e => rfl
  | ok u =>
    dsimp only
    cases r.p.buf.rd env.cfg off len with
    | error e => rfl
    | ok v =>
      dsimp only
      split
      · unfold RD.decompress
        cases md.compression <;> rfl
      · rfl

theorem extract_p (env : Env) (md : Meta) (r : RD τ) (off len : Nat) : (r.extract env md off len).2.p = r.p := by
  unfold RD.extract
  cases fmtAssert env.cfg (w64 (off + len) ≤ env.pageLength) with
  | error e => rfl
  | ok u =>
    dsimp only
    cases r.p.buf.rd env.cfg off len with
    | error e => rfl
    | ok v =>
      dsimp only
      split
      · unfold RD.decompress
        cases md.compression <;> rfl
      · rfl

theorem readLine_follows (hS : SameUnlessThrown S T Q) (env : Env) (md : Meta) {r : RD τ} {s : σ} (hQ : Q s r.p.src)
    (hb : r.p.buf.size ≤ r.p.buf.mem.length) : RFollows S Q ((r.at s).readLineX env S md) (r.readLine env T md) := by
  unfold RD.readLine RD.readLineX
  rcases next_follows hS env md hQ hb with ⟨s', g1, g2, g3⟩ | ⟨x, g1, g2⟩
  · rw [g3]
    generalize r.next env T md = z at g1 g2
    obtain ⟨v, r'⟩ := z
    rcases v with e | (_ | _)
    · exact .inl ⟨s', g1, g2, rfl⟩
    · exact .inl ⟨s', g1, g2, rfl⟩
    · dsimp only [XRes.of]
      rw [takeLine_at]
      have hp := takeLine_p r'
      generalize r'.takeLine = w at hp
      obtain ⟨v, r2⟩ := w
      dsimp only at hp g1 g2
      rw [← hp] at g1 g2
      cases v with
      | error e => exact .inl ⟨s', g1, g2, rfl⟩
      | ok ol =>
        dsimp only
        rw [extract_at]
        have hp2 := extract_p env md r2 ol.1 ol.2
        generalize r2.extract env md ol.1 ol.2 = u at hp2
        obtain ⟨v, r3⟩ := u
        dsimp only at hp2
        rw [← hp2] at g1 g2
        cases v with
        | error e => exact .inl ⟨s', g1, g2, rfl⟩
        | ok row => exact .inl ⟨s', g1, g2, rfl⟩
  · generalize (r.at s).nextX env S md = y at g1 g2
    obtain ⟨v, r'⟩ := y
    dsimp only at g1
    subst g1
    exact .inr ⟨x, rfl, g2⟩

theorem skip_follows (hS : SameUnlessThrown S T Q) (env : Env) (md : Meta) : ∀ (n : Nat) (r : RD τ) (s : σ), Q s r.p.src →
    r.p.buf.size ≤ r.p.buf.mem.length → RFollows S Q ((r.at s).skipX env S md n) (r.skip env T md n) := by
  intro n
  induction n with
  | zero => exact fun r s hQ hb => .inl ⟨s, hQ, hb, rfl⟩
  | succ n ih =>
    intro r s hQ hb
    unfold RD.skip RD.skipX
    rcases next_follows hS env md hQ hb with ⟨s', g1, g2, g3⟩ | ⟨x, g1, g2⟩
    · rw [g3]
      generalize r.next env T md = z at g1 g2
      obtain ⟨v, r'⟩ := z
      rcases v with e | (_ | _)
      · exact .inl ⟨s', g1, g2, rfl⟩
      · exact .inl ⟨s', g1, g2, rfl⟩
      · dsimp only [XRes.of]
        rw [takeLine_at]
        have hp := takeLine_p r'
        generalize r'.takeLine = w at hp
        obtain ⟨v, r2⟩ := w
        dsimp only at hp g1 g2
        rw [← hp] at g1 g2
        cases v with
        | error e => exact .inl ⟨s', g1, g2, rfl⟩
        | ok ol =>
          exact ih r2 s' g1 g2
    · generalize (r.at s).nextX env S md = y at g1 g2
      obtain ⟨v, r'⟩ := y
      dsimp only at g1
      subst g1
      exact .inr ⟨x, rfl, g2⟩

/-- The same outcome as on the other source, or the source has thrown: then the sink has been told of the first ones of the
rows of the other source, not of the end. -/
def Follows (S : SourceCode σ ε) (Q : σ → τ → Prop) (R : Reader τ) (y : XRes ε α × Reader σ) (z : Res α × Reader τ) : Prop :=
  (∃ s', Q s' z.2.rd.p.src ∧ z.2.rd.p.buf.size ≤ z.2.rd.p.buf.mem.length ∧ y = (XRes.of z.1, z.2.at s')) ∨
  ∃ x, y.1 = .error (.source x) ∧ Threw S Q y.2.rd.p.src x ∧ y.2.rd.page = none ∧
    ∃ es, y.2.trace = R.trace ++ es ∧ Event.endOfData ∉ es ∧ y.2.trace <+: z.2.trace

theorem readRow_trace (R : Reader τ) : R.trace <+: (R.readRow T).2.trace := by
  unfold Reader.readRow
  generalize R.rd.readLine R.env T R.props.md = z
  obtain ⟨v, rd⟩ := z
  rcases v with e | (_ | row)
  · exact List.prefix_refl _
  · exact List.prefix_append _ _
  · exact List.prefix_append _ _

theorem readRows_trace : ∀ (n : Nat) (R : Reader τ), R.trace <+: (R.readRows T n).2.trace := by
  intro n
  induction n with
  | zero => exact fun R => List.prefix_refl _
  | succ n ih =>
    intro R
    have ht := readRow_trace (T := T) R
    unfold Reader.readRows
    generalize R.readRow T = z at ht
    obtain ⟨v, R'⟩ := z
    rcases v with e | (_ | _)
    · exact ht
    · exact ht
    · exact ht.trans (ih R')

theorem readAllLoop_trace : ∀ (n : Nat) (R : Reader τ), R.trace <+: (R.readAllLoop T n).2.trace := by
  intro n
  induction n with
  | zero => exact fun R => List.prefix_refl _
  | succ n ih =>
    intro R
    have ht := readRow_trace (T := T) R
    unfold Reader.readAllLoop
    generalize R.readRow T = z at ht
    obtain ⟨v, R'⟩ := z
    rcases v with e | (_ | _)
    · exact ht
    · exact ht
    · exact ht.trans (ih R')

theorem readRow_pushed {R R' : Reader τ} (h : R.readRow T = (.ok true, R')) :
    ∃ i row, R'.trace = R.trace ++ [.pushRow i row] := by
  unfold Reader.readRow at h
  generalize R.rd.readLine R.env T R.props.md = z at h
  obtain ⟨v, rd⟩ := z
  rcases v with e | (_ | row)
  · cases h
  · cases h
  · cases h
    exact ⟨_, _, rfl⟩

theorem readRow_follows (hS : SameUnlessThrown S T Q) {R : Reader τ} {s : σ} (hQ : Q s R.rd.p.src)
    (hb : R.rd.p.buf.size ≤ R.rd.p.buf.mem.length) : Follows S Q R ((R.at s).readRowX S) (R.readRow T) := by
  have ht := readRow_trace (T := T) R
  unfold Reader.readRow Reader.readRowX at *
  rw [show (R.at s).rd = R.rd.at s from rfl, show (R.at s).env = R.env from rfl, show (R.at s).props = R.props from rfl]
  rcases readLine_follows hS R.env R.props.md hQ hb with ⟨s', g1, g2, g3⟩ | ⟨x, g1, g2, g3⟩
  · rw [g3]
    generalize R.rd.readLine R.env T R.props.md = z at g1 g2
    obtain ⟨v, rd⟩ := z
    rcases v with e | (_ | row)
    · exact .inl ⟨s', g1, g2, rfl⟩
    · exact .inl ⟨s', g1, g2, rfl⟩
    · exact .inl ⟨s', g1, g2, rfl⟩
  · generalize (R.rd.at s).readLineX R.env S R.props.md = y at g1 g2 g3
    obtain ⟨v, r'⟩ := y
    dsimp only at g1
    subst g1
    exact .inr ⟨x, rfl, g2, g3, [], by simp [Reader.at], by simp, ht⟩

theorem readRows_follows (hS : SameUnlessThrown S T Q) : ∀ (n : Nat) (R : Reader τ) (s : σ), Q s R.rd.p.src →
    R.rd.p.buf.size ≤ R.rd.p.buf.mem.length →
    R.trace <+: (R.readRows T n).2.trace ∧ Follows S Q R ((R.at s).readRowsX S n) (R.readRows T n) := by
  intro n
  induction n with
  | zero => exact fun R s hQ hb => ⟨List.prefix_refl _, .inl ⟨s, hQ, hb, rfl⟩⟩
  | succ n ih =>
    intro R s hQ hb
    have ht := readRow_trace (T := T) R
    have hpush := fun R' => readRow_pushed (T := T) (R := R) (R' := R')
    have hf := readRow_follows hS hQ hb
    unfold Reader.readRows Reader.readRowsX
    generalize (R.at s).readRowX S = y at hf
    generalize R.readRow T = z at hf ht hpush
    obtain ⟨v, R'⟩ := z
    rcases hf with ⟨s', g1, g2, g3⟩ | ⟨x, g1, g2, g3, es, g4, g5, g6⟩
    · subst g3
      rcases v with e | (_ | _)
      · exact ⟨ht, .inl ⟨s', g1, g2, rfl⟩⟩
      · exact ⟨ht, .inl ⟨s', g1, g2, rfl⟩⟩
      · obtain ⟨i1, i2⟩ := ih R' s' g1 g2
        refine ⟨ht.trans i1, ?_⟩
        rcases i2 with i2 | ⟨x, k1, k2, k3, es, k4, k5, k6⟩
        · exact .inl i2
        · obtain ⟨i, row, hi⟩ := hpush R' rfl
          refine .inr ⟨x, k1, k2, k3, .pushRow i row :: es, ?_, by simp [k5], k6⟩
          rw [hi] at k4
          exact k4.trans (by simp)
    · obtain ⟨w, R1⟩ := y
      dsimp only at g1 g2 g3 g4 g6
      subst g1
      have hpre : R'.trace <+: (match ((v, R') : Res Bool × Reader τ) with
        | (.error e, R) => ((.error e, R) : Res Bool × Reader τ)
        | (.ok false, R) => (.ok false, R)
        | (.ok true, R) => R.readRows T n).2.trace := by
        rcases v with e | (_ | _)
        · exact List.prefix_refl _
        · exact List.prefix_refl _
        · exact readRows_trace n R'
      exact ⟨ht.trans hpre, .inr ⟨x, rfl, g2, g3, es, g4, g5, g6.trans hpre⟩⟩

theorem readAllLoop_follows (hS : SameUnlessThrown S T Q) : ∀ (n : Nat) (R : Reader τ) (s : σ), Q s R.rd.p.src →
    R.rd.p.buf.size ≤ R.rd.p.buf.mem.length →
    Follows S Q R ((R.at s).readAllLoopX S n) (R.readAllLoop T n) := by
  intro n
  induction n with
  | zero => exact fun R s hQ hb => .inl ⟨s, hQ, hb, rfl⟩
  | succ n ih =>
    intro R s hQ hb
    have ht := readRow_trace (T := T) R
    have hpush := fun R' => readRow_pushed (T := T) (R := R) (R' := R')
    have hf := readRow_follows hS hQ hb
    unfold Reader.readAllLoop Reader.readAllLoopX
    generalize (R.at s).readRowX S = y at hf
    generalize R.readRow T = z at hf ht hpush
    obtain ⟨v, R'⟩ := z
    rcases hf with ⟨s', g1, g2, g3⟩ | ⟨x, g1, g2, g3, es, g4, g5, g6⟩
    · subst g3
      rcases v with e | (_ | _)
      · exact .inl ⟨s', g1, g2, rfl⟩
      · exact .inl ⟨s', g1, g2, rfl⟩
      · rcases ih R' s' g1 g2 with i2 | ⟨x, k1, k2, k3, es, k4, k5, k6⟩
        · exact .inl i2
        · obtain ⟨i, row, hi⟩ := hpush R' rfl
          refine .inr ⟨x, k1, k2, k3, .pushRow i row :: es, ?_, by simp [k5], k6⟩
          rw [hi] at k4
          exact k4.trans (by simp)
    · obtain ⟨w, R1⟩ := y
      dsimp only at g1 g2 g3 g4 g6
      subst g1
      refine .inr ⟨x, rfl, g2, g3, es, g4, g5, g6.trans ?_⟩
      rcases v with e | (_ | _)
      · exact List.prefix_refl _
      · exact List.prefix_refl _
      · exact readAllLoop_trace n R'

theorem xof_map {β : Type} (y : Res α) (f : α → β) : (XRes.of (y.map f) : XRes ε β) = (XRes.of y).map f := by
  cases y <;> rfl

theorem Follows.map {β : Type} {R : Reader τ} {y : XRes ε α × Reader σ} {z : Res α × Reader τ} (f : α → β)
    (h : Follows S Q R y z) : Follows S Q R (y.1.map f, y.2) (z.1.map f, z.2) := by
  rcases h with ⟨s', g1, g2, g3⟩ | ⟨x, g1, g2⟩
  · refine .inl ⟨s', g1, g2, ?_⟩
    rw [g3, xof_map]
  · exact .inr ⟨x, by dsimp only; rw [g1]; rfl, g2⟩

theorem step_follows (hS : SameUnlessThrown S T Q) (R : Reader τ) (s : σ) (hQ : Q s R.rd.p.src)
    (hb : R.rd.p.buf.size ≤ R.rd.p.buf.mem.length) (op : Op) : Follows S Q R ((R.at s).stepX S op) (R.step T op) := by
  cases op with
  | readRow => exact (readRow_follows hS hQ hb).map Ret.bool
  | readRows n => exact (readRows_follows hS n R s hQ hb).2.map Ret.bool
  | readAll => exact (readAllLoop_follows hS (R.props.md.rowCount - R.rd.row + 1) R s hQ hb).map fun _ => Ret.unit
  | skip n =>
    refine Follows.map (y := (R.at s).skipX S n) (z := R.skip T n) Ret.bool ?_
    unfold Reader.skip Reader.skipX
    rw [show (R.at s).rd = R.rd.at s from rfl, show (R.at s).env = R.env from rfl, show (R.at s).props = R.props from rfl]
    have hf := skip_follows hS R.env R.props.md n R.rd s hQ hb
    generalize (R.rd.at s).skipX R.env S R.props.md n = y at hf
    generalize R.rd.skip R.env T R.props.md n = z at hf
    obtain ⟨v, rd⟩ := z
    rcases hf with ⟨s', g1, g2, g3⟩ | ⟨x, g1, g2, g3⟩
    · subst g3
      rcases v with e | (_ | _)
      · exact .inl ⟨s', g1, g2, rfl⟩
      · exact .inl ⟨s', g1, g2, rfl⟩
      · exact .inl ⟨s', g1, g2, rfl⟩
    · obtain ⟨w, r1⟩ := y
      dsimp only at g1 g2 g3
      subst g1
      refine .inr ⟨x, rfl, g2, g3, [], by simp [Reader.at], by simp, ?_⟩
      rcases v with e | (_ | _)
      · exact List.prefix_refl _
      · exact List.prefix_append _ _
      · exact List.prefix_refl _
  | readRowNoSink =>
    have hf := readLine_follows hS R.env R.props.md hQ hb
    refine Follows.map (y := (((R.at s).rd.readLineX R.env S R.props.md).1,
      { R.at s with rd := ((R.at s).rd.readLineX R.env S R.props.md).2 })) (z := R.readRowNoSink T) Ret.ptr ?_
    unfold Reader.readRowNoSink
    rw [show (R.at s).rd = R.rd.at s from rfl]
    generalize (R.rd.at s).readLineX R.env S R.props.md = y at hf
    generalize R.rd.readLine R.env T R.props.md = z at hf
    obtain ⟨v, rd⟩ := z
    rcases hf with ⟨s', g1, g2, g3⟩ | ⟨x, g1, g2, g3⟩
    · subst g3
      exact .inl ⟨s', g1, g2, rfl⟩
    · exact .inr ⟨x, g1, g2, g3, [], by simp [Reader.at], by simp, List.prefix_refl _⟩
  | endOfData => exact .inl ⟨s, hQ, hb, rfl⟩

/-! ## After the source has thrown -/

theorem nextX_dead (env : Env) (md : Meta) {r : RD σ} (h : r.page = none) : r.nextX env S md = (.ok false, r) := by
  unfold RD.nextX
  rw [h]
  split <;> rfl

theorem readRowX_dead {R : Reader σ} (h : R.rd.page = none) : R.readRowX S = (.ok false, R.endOfData) := by
  unfold Reader.readRowX RD.readLineX
  rw [nextX_dead R.env R.props.md h]

theorem stepX_dead {R : Reader σ} (h : R.rd.page = none) (op : Op) :
    (R.stepX S op).1 = XRes.of (answerAtEnd op) ∧ (R.stepX S op).2.rd = R.rd ∧
    ((R.stepX S op).2.trace = R.trace ∨ (R.stepX S op).2.trace = R.trace ++ [.endOfData]) := by
  cases op with
  | readRow =>
    simp only [Reader.stepX, readRowX_dead h]
    exact ⟨rfl, rfl, .inr rfl⟩
  | readRows n =>
    cases n with
    | zero => exact ⟨rfl, rfl, .inl rfl⟩
    | succ n =>
      simp only [Reader.stepX, Reader.readRowsX, readRowX_dead h]
      exact ⟨rfl, rfl, .inr rfl⟩
  | readAll =>
    simp only [Reader.stepX, Reader.readAllLoopX, readRowX_dead h]
    exact ⟨rfl, rfl, .inr rfl⟩
  | skip n =>
    cases n with
    | zero => exact ⟨rfl, rfl, .inl rfl⟩
    | succ n =>
      simp only [Reader.stepX, Reader.skipX, RD.skipX, nextX_dead R.env R.props.md h]
      exact ⟨rfl, rfl, .inr rfl⟩
  | readRowNoSink =>
    simp only [Reader.stepX, RD.readLineX, nextX_dead R.env R.props.md h]
    exact ⟨rfl, trivial, .inl trivial⟩
  | endOfData => exact ⟨rfl, rfl, .inr rfl⟩

theorem runX_cons (R : Reader σ) (op : Op) (ops : List Op) : R.runX S (op :: ops) =
    match R.stepX S op with
    | (.ok v, R) => (.ok v :: (R.runX S ops).1, (R.runX S ops).2)
    | (.error (.source x), R) => (.error (.source x) :: (R.runX S ops).1, (R.runX S ops).2)
    | (.error (.reader (.exn e)), R) => (.error (.reader (.exn e)) :: (R.runX S ops).1, (R.runX S ops).2)
    | (.error e, R) => ([.error e], R) := rfl

theorem runX_dead (ops : List Op) : ∀ {R : Reader σ}, R.rd.page = none →
    (R.runX S ops).1 = ops.map (fun op => XRes.of (answerAtEnd op)) ∧ (R.runX S ops).2.rd = R.rd ∧
    ∃ k, (R.runX S ops).2.trace = R.trace ++ List.replicate k .endOfData := by
  induction ops with
  | nil => exact fun {R} _ => ⟨rfl, rfl, 0, by simp [Reader.runX]⟩
  | cons op ops ih =>
    intro R h
    obtain ⟨h1, h2, h3⟩ := stepX_dead (S := S) h op
    rw [runX_cons]
    generalize R.stepX S op = y at h1 h2 h3
    obtain ⟨v, R1⟩ := y
    dsimp only at h1 h2 h3
    obtain ⟨w, hw⟩ : ∃ w, answerAtEnd op = .ok w := by cases op <;> exact ⟨_, rfl⟩
    obtain ⟨i1, i2, k, i3⟩ := ih (R := R1) (by rw [h2]; exact h)
    rw [h1, hw]
    simp only [XRes.of, List.map_cons, hw]
    refine ⟨by rw [i1]; rfl, i2.trans h2, ?_⟩
    rcases h3 with h3 | h3
    · exact ⟨k, by rw [i3, h3]⟩
    · exact ⟨k + 1, by rw [i3, h3, List.replicate_succ]; simp⟩

/-! ## Opening -/

/-- The same outcome as on the other source, or the source has thrown. -/
def OFollows (S : SourceCode σ ε) (Q : σ → τ → Prop) {α β : Type} (rel : α → β → Prop) (y : XRes ε α) (z : Res β) : Prop :=
  (∃ e, z = .error e ∧ y = .error (.reader e)) ∨ (∃ a b, z = .ok b ∧ y = .ok a ∧ rel a b) ∨
  ∃ x s', y = .error (.source x) ∧ Threw S Q s' x

theorem xok_bind {β : Type} (a : α) (g : α → XRes ε β) : ((.ok a : XRes ε α) >>= g) = g a := rfl

theorem xerror_bind {β : Type} (e : XStop ε) (g : α → XRes ε β) : ((.error e : XRes ε α) >>= g) = .error e := rfl

theorem checkHeaderRead_follows (hS : SameUnlessThrown S T Q) (cfg : Cfg) {s : σ} {t : τ} (hQ : Q s t) :
    OFollows S Q (fun a b => a.1 = b.1 ∧ Q a.2 b.2 ∧ b.1.size = 288 ∧ b.1.size ≤ b.1.mem.length)
      (checkHeaderReadX cfg S s) (checkHeaderRead cfg T t) := by
  unfold checkHeaderRead checkHeaderReadX
  rcases readStream_follows hS cfg (b := Buf.empty) (by simp [Buf.empty]) hQ 288 (off := 0) (by omega) (by omega) with
    ⟨s', g1, g2, gs, g3⟩ | ⟨x, b', s', g, hx⟩
  · rw [g3]
    generalize Buf.readStream cfg T Buf.empty t 288 0 = z at g1 g2 gs
    obtain ⟨v, b, t'⟩ := z
    rcases v with e | (_ | _)
    · exact .inl ⟨e, rfl, rfl⟩
    · exact .inl ⟨_, rfl, rfl⟩
    · exact .inr (.inl ⟨_, _, rfl, rfl, rfl, g1, gs rfl, g2⟩)
  · rw [g]
    exact .inr (.inr ⟨x, s', rfl, hx⟩)

theorem headerRest_follows (hS : SameUnlessThrown S T Q) (cfg : Cfg) (al : Align) {b : Buf} (hb : b.size ≤ b.mem.length)
    (h288 : 288 ≤ b.size) {s : σ} {t : τ} (hQ : Q s t) :
    OFollows S Q (fun a b => a.1 = b.1 ∧ a.2.1 = b.2.1 ∧ Q a.2.2 b.2.2 ∧ b.2.1.size ≤ b.2.1.mem.length)
      (setHeaderLengthAndReadX cfg S al b s) (setHeaderLengthAndRead cfg T al b t) := by
  unfold setHeaderLengthAndRead setHeaderLengthAndReadX
  obtain ⟨k, hk⟩ : ∃ k : Nat, k = 288 := ⟨_, rfl⟩
  simp only [← hk] at h288 ⊢
  have hk' : k < 2 ^ 63 := by omega
  clear hk
  cases b.getU32 cfg al.endian (196 + al.align1) with
  | error e => exact .inl ⟨e, rfl, rfl⟩
  | ok hl =>
    simp only [ok_bind'', XRes.of, xok_bind]
    cases fmtAssert cfg (k ≤ hl) with
    | error e => exact .inl ⟨e, rfl, rfl⟩
    | ok u =>
      simp only [ok_bind'', XRes.of, xok_bind]
      rcases readStream_follows hS cfg hb hQ (sub64 hl k) hk' h288 with ⟨s', g1, g2, gs, g3⟩ | ⟨x, b', s', g, hx⟩
      · rw [g3]
        generalize Buf.readStream cfg T b t (sub64 hl k) k = z at g1 g2 gs
        obtain ⟨v, b', t'⟩ := z
        rcases v with e | (_ | _)
        · exact .inl ⟨e, rfl, rfl⟩
        · exact .inl ⟨_, rfl, rfl⟩
        · exact .inr (.inl ⟨_, _, rfl, rfl, rfl, rfl, g1, g2⟩)
      · rw [g]
        exact .inr (.inr ⟨x, s', rfl, hx⟩)

theorem readHeader_follows (hS : SameUnlessThrown S T Q) (cfg : Cfg) {s : σ} {t : τ} (hQ : Q s t) :
    OFollows S Q (fun a b => a.1 = b.1 ∧ a.2.1 = b.2.1 ∧ Q a.2.2 b.2.2 ∧ b.2.1.size ≤ b.2.1.mem.length)
      (readHeaderX cfg S s) (readHeader cfg T t) := by
  unfold readHeader readHeaderX
  rcases checkHeaderRead_follows hS cfg hQ with ⟨e, g1, g2⟩ | ⟨⟨b1, s1⟩, ⟨b, t1⟩, g1, g2, g3, g4, g5, g6⟩ | ⟨x, s', g1, g2⟩
  · rw [g1, g2]
    exact .inl ⟨e, rfl, rfl⟩
  · rw [g1, g2]
    dsimp only at g3 g4 g5 g6
    subst g3
    simp only [ok_bind'', xok_bind]
    cases checkMagic cfg b1 with
    | error e => exact .inl ⟨e, rfl, rfl⟩
    | ok u =>
      simp only [ok_bind'', XRes.of, xok_bind]
      cases setAligns cfg b1 with
      | error e => exact .inl ⟨e, rfl, rfl⟩
      | ok al =>
        simp only [ok_bind'', xok_bind]
        rcases headerRest_follows hS cfg al g6 (Nat.le_of_eq g5.symm) g4 with ⟨e, k1, k2⟩ |
          ⟨⟨hl1, b2, s2⟩, ⟨hl, b3, t2⟩, k1, k2, k3, k4, k5, k6⟩ | ⟨x, s', k1, k2⟩
        · rw [k1, k2]
          exact .inl ⟨e, rfl, rfl⟩
        · rw [k1, k2]
          dsimp only at k3 k4 k5 k6
          subst k3 k4
          simp only [ok_bind'', xok_bind]
          cases setHeader cfg al hl1 b2 with
          | error e => exact .inl ⟨e, rfl, rfl⟩
          | ok h =>
            simp only [ok_bind'', XRes.of, xok_bind]
            cases logHeader cfg h with
            | error e => exact .inl ⟨e, rfl, rfl⟩
            | ok u => exact .inr (.inl ⟨_, _, rfl, rfl, rfl, rfl, k5, k6⟩)
        · rw [k1]
          exact .inr (.inr ⟨x, s', rfl, k2⟩)
  · rw [g1]
    exact .inr (.inr ⟨x, s', rfl, g2⟩)

theorem metaLoop_follows (hS : SameUnlessThrown S T Q) (env : Env) : ∀ (n : Nat) (p : PState τ) (s : σ) (acc : Acc),
    Q s p.src → p.buf.size ≤ p.buf.mem.length →
    OFollows S Q (fun a b => (∃ s', Q s' b.1.src ∧ b.1.buf.size ≤ b.1.buf.mem.length ∧ a.1 = b.1.at s') ∧ a.2 = b.2)
      (metaLoopX env S n (p.at s) acc) (metaLoop env T n p acc) := by
  intro n
  induction n with
  | zero => exact fun _ _ _ _ _ => .inl ⟨_, rfl, rfl⟩
  | succ n ih =>
    intro p s acc hQ hb
    unfold metaLoop metaLoopX
    have hf := readPage_follows hS env hQ hb
    generalize readPageX env S (p.at s) = y at hf
    generalize readPage env T p = z at hf
    obtain ⟨v, p'⟩ := z
    rcases hf with ⟨s', g1, g2, g3⟩ | ⟨x, g1, g2⟩
    · subst g3
      rcases v with e | (_ | _)
      · exact .inl ⟨e, rfl, rfl⟩
      · exact .inr (.inl ⟨_, _, rfl, rfl, ⟨s', g1, g2, rfl⟩, rfl⟩)
      · dsimp only [XRes.of]
        rw [show (p'.at s').buf = p'.buf from rfl, show (p'.at s').hdr = p'.hdr from rfl]
        rcases processPage env p'.buf p'.hdr acc with e | ⟨acc', stop⟩
        · exact .inl ⟨e, rfl, rfl⟩
        · simp only [ok_bind'']
          cases stop with
          | true => exact .inr (.inl ⟨_, _, rfl, rfl, ⟨s', g1, g2, rfl⟩, rfl⟩)
          | false => exact ih p' s' acc' g1 g2
    · obtain ⟨w, p1⟩ := y
      dsimp only at g1 g2
      subst g1
      exact .inr (.inr ⟨x, _, rfl, g2⟩)

theorem open_follows (hS : SameUnlessThrown S T Q) (cfg : Cfg) (fuel : Nat) (filter : Option Filter) {s : σ} {t : τ}
    (hQ : Q s t) : OFollows S Q (fun a b => ∃ s', Q s' b.rd.p.src ∧ b.rd.p.buf.size ≤ b.rd.p.buf.mem.length ∧ a = b.at s')
      (openReaderX cfg S fuel filter s) (openReader cfg T fuel filter t) := by
  unfold openReader openReaderX
  rcases readHeader_follows hS cfg hQ with ⟨e, g1, g2⟩ | ⟨⟨h1, b1, s1⟩, ⟨h, b, t1⟩, g1, g2, g3, g4, g5, g6⟩ | ⟨x, s', g1, g2⟩
  · rw [g1, g2]
    exact .inl ⟨e, rfl, rfl⟩
  · rw [g1, g2]
    dsimp only at g3 g4 g5 g6
    subst g3 g4
    simp only [ok_bind'', xok_bind]
    have hm := metaLoop_follows hS { cfg := cfg, endian := h1.endian, format := h1.format, pageLength := h1.pageLength, fuel := fuel }
      fuel ⟨t1, b1, PageHdr.reset⟩ s1 {} g5 g6
    rw [show ((⟨t1, b1, PageHdr.reset⟩ : PState τ).at s1) = ⟨s1, b1, PageHdr.reset⟩ from rfl] at hm
    generalize metaLoopX { cfg := cfg, endian := h1.endian, format := h1.format, pageLength := h1.pageLength, fuel := fuel }
      S fuel ⟨s1, b1, PageHdr.reset⟩ {} = y at hm
    generalize metaLoop { cfg := cfg, endian := h1.endian, format := h1.format, pageLength := h1.pageLength, fuel := fuel }
      T fuel ⟨t1, b1, PageHdr.reset⟩ {} = z at hm
    rcases hm with ⟨e, k1, k2⟩ | ⟨⟨p1, acc1⟩, ⟨p, acc⟩, k1, k2, ⟨s', k3, k4, k5⟩, k6⟩ | ⟨x, s', k1, k2⟩
    · rw [k1, k2]
      exact .inl ⟨e, rfl, rfl⟩
    · rw [k1, k2]
      dsimp only at k3 k4 k5 k6
      subst k5 k6
      simp only [ok_bind'', xok_bind]
      cases createColumns cfg h1.endian acc1 filter with
      | error e => exact .inl ⟨e, rfl, rfl⟩
      | ok columns =>
        simp only [ok_bind'', XRes.of, xok_bind]
        unfold RD.build
        cases buildDst cfg acc1.md with
        | error e => exact .inl ⟨e, rfl, rfl⟩
        | ok dst =>
          simp only [ok_bind'']
          cases acc1.dataSubs.isEmpty
          case true =>
            simp only [if_true]
            rw [show (p.at s').buf = p.buf from rfl, show (p.at s').hdr = p.hdr from rfl]
            cases buildPage { cfg := cfg, endian := h1.endian, format := h1.format, pageLength := h1.pageLength, fuel := fuel }
              acc1.md p.buf p.hdr with
            | error e => exact .inl ⟨e, rfl, rfl⟩
            | ok page => exact .inr (.inl ⟨_, _, rfl, rfl, s', k3, k4, rfl⟩)
          case false => exact .inr (.inl ⟨_, _, rfl, rfl, s', k3, k4, rfl⟩)
    · rw [k1]
      exact .inr (.inr ⟨x, s', rfl, k2⟩)
  · rw [g1]
    exact .inr (.inr ⟨x, s', rfl, g2⟩)

end Sas.Proofs
