import Verif.Props.Sources
import Verif.Props.Rows
import Verif.Props.Text

/-!
# Property C90: a file that is cut off gives the beginning of its rows
-/

namespace Sas.Props

open Sas Spec Proofs

variable {σ σ₁ σ₂ : Type} {E : Prop} {S : Source σ} {S₁ : Source σ₁} {S₂ : Source σ₂} {Q : σ₁ → σ₂ → Prop}

/-! ## What is pushed -/

theorem readLine_some {env : Env} {md : Meta} {r r' : RD σ} {row : Row} (h : r.readLine env S md = (.ok (some row), r')) :
    r'.page ≠ none := by
  unfold RD.readLine at h
  generalize r.next env S md = x at h
  obtain ⟨(e | (_ | _)), r1⟩ := x
  · cases h
  · cases h
  · dsimp only at h
    unfold RD.takeLine at h
    cases hp : r1.page with
    | none => rw [hp] at h; cases h
    | some pg =>
      rw [hp] at h
      dsimp only at h
      cases hl : pg.readLine with
      | error e => rw [hl] at h; cases h
      | ok ol =>
        rw [hl] at h
        dsimp only at h
        have key : ∀ (q : RD σ) (off len : Nat), (q.extract env md off len).2.page = q.page := by
          intro q off len
          unfold RD.extract
          cases fmtAssert env.cfg (w64 (off + len) ≤ env.pageLength) with
          | error e => rfl
          | ok u =>
            dsimp only
            cases q.p.buf.rd env.cfg off len with
            | error e => rfl
            | ok v =>
              dsimp only
              split
              · unfold RD.decompress
                cases md.compression <;> rfl
              · rfl
        have hk := key { r1 with row := r1.row + 1, page := some { pg with cur := pg.cur + 1 } } ol.1 ol.2
        generalize RD.extract env md { r1 with row := r1.row + 1, page := some { pg with cur := pg.cur + 1 } } ol.1 ol.2 = y at h hk
        obtain ⟨(e | w), r2⟩ := y
        · cases h
        · cases h
          rw [hk]
          simp

/-- The rows pushed by `R` are the first ones of those pushed by `R'`. -/
def Grown (R : Reader σ₁) (R' : Reader σ₂) : Prop := pushes R.trace <+: pushes R'.trace

theorem Grown.refl (R : Reader σ) : Grown R R := List.prefix_refl _

theorem Grown.trans {σ₃ : Type} {A : Reader σ₁} {B : Reader σ₂} {C : Reader σ₃} (h : Grown A B) (k : Grown B C) : Grown A C :=
  List.IsPrefix.trans h k

theorem readRow_grown (R : Reader σ) : Grown R (R.readRow S).2 := by
  unfold Grown Reader.readRow
  generalize R.rd.readLine R.env S R.props.md = x
  obtain ⟨(e | (_ | row)), r⟩ := x
  · exact List.prefix_refl _
  · simp [Reader.endOfData, Reader.emit, pushes_append, pushes]
  · simp [Reader.emit, pushes_append]

/-- When there is no page afterwards no row has been pushed. -/
theorem readRow_last {R : Reader σ} (h : (R.readRow S).2.rd.page = none) :
    pushes (R.readRow S).2.trace = pushes R.trace := by
  unfold Reader.readRow at h ⊢
  generalize hx : R.rd.readLine R.env S R.props.md = x at h ⊢
  obtain ⟨(e | (_ | row)), r⟩ := x
  · rfl
  · simp [Reader.endOfData, Reader.emit, pushes_append, pushes]
  · exact absurd h (readLine_some hx)

theorem readRows_grown : ∀ (n : Nat) (R : Reader σ), Grown R (R.readRows S n).2 := by
  intro n
  induction n with
  | zero => exact Grown.refl
  | succ n ih =>
    intro R
    have h1 := readRow_grown (S := S) R
    unfold Reader.readRows
    generalize R.readRow S = x at h1
    obtain ⟨(e | (_ | _)), R'⟩ := x
    · exact h1
    · exact h1
    · exact h1.trans (ih R')

theorem readAllLoop_grown : ∀ (n : Nat) (R : Reader σ), Grown R (R.readAllLoop S n).2 := by
  intro n
  induction n with
  | zero => exact Grown.refl
  | succ n ih =>
    intro R
    have h1 := readRow_grown (S := S) R
    unfold Reader.readAllLoop
    generalize R.readRow S = x at h1
    obtain ⟨(e | (_ | _)), R'⟩ := x
    · exact h1
    · exact h1
    · exact h1.trans (ih R')

theorem skip_pushes (n : Nat) (R : Reader σ) : pushes (R.skip S n).2.trace = pushes R.trace := by
  unfold Reader.skip
  generalize R.rd.skip R.env S R.props.md n = x
  obtain ⟨(e | (_ | _)), r⟩ := x
  · rfl
  · simp [Reader.endOfData, Reader.emit, pushes_append, pushes]
  · rfl

theorem end_pushes (R : Reader σ) : pushes R.endOfData.trace = pushes R.trace := by
  simp [Reader.endOfData, Reader.emit, pushes_append, pushes]

theorem step_grown (R : Reader σ) (op : Op) : Grown R (R.step S op).2 := by
  cases op with
  | readRow => exact readRow_grown R
  | readRows n => exact readRows_grown n R
  | readAll => exact (show Grown R (R.readAll S).2 by unfold Reader.readAll; exact readAllLoop_grown _ R)
  | skip n =>
    show _ <+: pushes (R.skip S n).2.trace
    rw [skip_pushes]
  | readRowNoSink => exact Grown.refl R
  | endOfData =>
    show _ <+: pushes R.endOfData.trace
    rw [end_pushes]

theorem run_grown : ∀ (ops : List Op) (R : Reader σ), Grown R (R.run S ops).2 := by
  intro ops
  induction ops with
  | nil => exact Grown.refl
  | cons op ops ih =>
    intro R
    have h1 := step_grown (S := S) R op
    unfold Reader.run
    generalize R.step S op = x at h1
    obtain ⟨(e | v), R'⟩ := x
    · cases e with
      | exn e => exact h1.trans (ih R')
      | terminate => exact h1
      | ub => exact h1
      | fuel => exact h1
    · exact h1.trans (ih R')

/-! ## A reader whose source has ended pushes nothing more -/

theorem readRow_dead_pushes {R : Reader σ} (h : R.rd.page = none) : pushes (R.readRow S).2.trace = pushes R.trace :=
  readRow_last (readRow_dead h)

theorem readRow_dead_result {R : Reader σ} (h : R.rd.page = none) : (R.readRow S).1 = .ok false := by
  unfold Reader.readRow
  rw [readLine_dead _ _ h]

theorem readRows_dead_pushes (n : Nat) {R : Reader σ} (h : R.rd.page = none) :
    pushes (R.readRows S n).2.trace = pushes R.trace := by
  cases n with
  | zero => rfl
  | succ n =>
    have h1 := readRow_dead_pushes (S := S) h
    have h2 := readRow_dead_result (S := S) h
    unfold Reader.readRows
    generalize R.readRow S = x at h1 h2
    obtain ⟨y, R'⟩ := x
    dsimp only at h2
    subst h2
    exact h1

theorem readAllLoop_dead_pushes (n : Nat) {R : Reader σ} (h : R.rd.page = none) :
    pushes (R.readAllLoop S n).2.trace = pushes R.trace := by
  cases n with
  | zero => rfl
  | succ n =>
    have h1 := readRow_dead_pushes (S := S) h
    have h2 := readRow_dead_result (S := S) h
    unfold Reader.readAllLoop
    generalize R.readRow S = x at h1 h2
    obtain ⟨y, R'⟩ := x
    dsimp only at h2
    subst h2
    exact h1

theorem step_dead_pushes {R : Reader σ} (h : R.rd.page = none) (op : Op) :
    pushes (R.step S op).2.trace = pushes R.trace := by
  cases op with
  | readRow => exact readRow_dead_pushes h
  | readRows n => exact readRows_dead_pushes n h
  | readAll =>
    show pushes (R.readAll S).2.trace = _
    unfold Reader.readAll
    exact readAllLoop_dead_pushes _ h
  | skip n => exact skip_pushes n R
  | readRowNoSink => rfl
  | endOfData => exact end_pushes R

theorem run_dead_pushes : ∀ (ops : List Op) {R : Reader σ}, R.rd.page = none →
    pushes (R.run S ops).2.trace = pushes R.trace := by
  intro ops
  induction ops with
  | nil => intro R _; rfl
  | cons op ops ih =>
    intro R h
    have h1 := step_dead_pushes (S := S) h op
    have h2 := step_dead (S₁ := S) h op
    unfold Reader.run
    generalize R.step S op = x at h1 h2
    obtain ⟨(e | v), R'⟩ := x
    · cases e with
      | exn e => exact (ih h2).trans h1
      | terminate => exact h1
      | ub => exact h1
      | fuel => exact h1
    · exact (ih h2).trans h1

theorem readLine_dead_row : ∀ (ops : List Op) {R : Reader σ}, R.rd.page = none → (R.run S ops).2.rd.row = R.rd.row := by
  have hrow : ∀ {R : Reader σ}, R.rd.page = none → (R.readRow S).2.rd = R.rd := by
    intro R h
    unfold Reader.readRow
    rw [readLine_dead _ _ h]
    rfl
  have hstep : ∀ {R : Reader σ}, R.rd.page = none → ∀ op, (R.step S op).2.rd.row = R.rd.row := by
    intro R h op
    have h2 := readRow_dead_result (S := S) h
    have h3 := hrow h
    cases op with
    | readRow => show (R.readRow S).2.rd.row = _; rw [h3]
    | readRows n =>
      show (R.readRows S n).2.rd.row = _
      cases n with
      | zero => rfl
      | succ n =>
        unfold Reader.readRows
        generalize R.readRow S = x at h2 h3
        obtain ⟨y, R'⟩ := x
        dsimp only at h2 h3
        subst h2
        rw [h3]
    | readAll =>
      show (R.readAll S).2.rd.row = _
      unfold Reader.readAll Reader.readAllLoop
      generalize R.readRow S = x at h2 h3
      obtain ⟨y, R'⟩ := x
      dsimp only at h2 h3
      subst h2
      rw [h3]
    | skip n =>
      show (R.skip S n).2.rd.row = _
      unfold Reader.skip
      have := skip_dead (S₁ := S) R.env R.props.md n h
      generalize R.rd.skip R.env S R.props.md n = x at this
      obtain ⟨(e | (_ | _)), r⟩ := x <;> (dsimp only at this; subst this; rfl)
    | readRowNoSink =>
      show (R.rd.readLine R.env S R.props.md).2.row = _
      rw [readLine_dead _ _ h]
    | endOfData => rfl
  intro ops
  induction ops with
  | nil => intro R _; rfl
  | cons op ops ih =>
    intro R h
    have h1 := hstep h op
    have h2 := step_dead (S₁ := S) h op
    unfold Reader.run
    generalize R.step S op = x at h1 h2
    obtain ⟨(e | v), R'⟩ := x
    · cases e with
      | exn e => exact (ih h2).trans h1
      | terminate => exact h1
      | ub => exact h1
      | fuel => exact h1
    · exact (ih h2).trans h1

/-! ## Two sources -/

/-- The same, or the first reader has come to the end of its source and has pushed no more than the second one. -/
def Lag (E : Prop) (Q : σ₁ → σ₂ → Prop) {α : Type} (x : α × Reader σ₁) (y : α × Reader σ₂) : Prop :=
  (x.1 = y.1 ∧ ReRel Q x.2 y.2) ∨ (E ∧ x.2.rd.page = none ∧ Grown x.2 y.2)

theorem readRow_lag (hA : Agree E S₁ S₂ Q) {R₁ : Reader σ₁} {R₂ : Reader σ₂} (h : ReRel Q R₁ R₂) :
    Lag E Q (R₁.readRow S₁) (R₂.readRow S₂) := by
  rcases readRow_agree hA h with h1 | ⟨h1, h2⟩
  · exact .inl h1
  · refine .inr ⟨h1, h2, ?_⟩
    unfold Grown
    rw [readRow_last h2, h.trace]
    exact readRow_grown R₂

theorem readRows_lag (hA : Agree E S₁ S₂ Q) : ∀ (n : Nat) {R₁ : Reader σ₁} {R₂ : Reader σ₂}, ReRel Q R₁ R₂ →
    Lag E Q (R₁.readRows S₁ n) (R₂.readRows S₂ n) := by
  intro n
  induction n with
  | zero => exact fun h => .inl ⟨rfl, h⟩
  | succ n ih =>
    intro R₁ R₂ h
    have h1 := readRow_lag hA h
    unfold Reader.readRows
    generalize R₁.readRow S₁ = x at h1
    generalize R₂.readRow S₂ = y at h1
    obtain ⟨x1, R1⟩ := x
    obtain ⟨y1, R2⟩ := y
    rcases h1 with ⟨g1, g2⟩ | ⟨g1, g2, g3⟩
    · dsimp only at g1 g2
      subst g1
      rcases x1 with e | (_ | _)
      · exact .inl ⟨rfl, g2⟩
      · exact .inl ⟨rfl, g2⟩
      · exact ih g2
    · right
      refine ⟨g1, ?_⟩
      dsimp only at g2 g3
      have k2 := readRows_dead (S₁ := S₁) n g2
      have k3 : Grown (R1.readRows S₁ n).2 R2 := by
        unfold Grown
        rw [readRows_dead_pushes n g2]
        exact g3
      have k4 := readRows_grown (S := S₂) n R2
      rcases x1 with e | (_ | _) <;> rcases y1 with e' | (_ | _) <;>
        first
          | exact ⟨g2, g3⟩
          | exact ⟨g2, g3.trans k4⟩
          | exact ⟨k2, k3⟩
          | exact ⟨k2, k3.trans k4⟩

theorem readAllLoop_lag (hA : Agree E S₁ S₂ Q) : ∀ (n : Nat) {R₁ : Reader σ₁} {R₂ : Reader σ₂}, ReRel Q R₁ R₂ →
    Lag E Q (R₁.readAllLoop S₁ n) (R₂.readAllLoop S₂ n) := by
  intro n
  induction n with
  | zero => exact fun h => .inl ⟨rfl, h⟩
  | succ n ih =>
    intro R₁ R₂ h
    have h1 := readRow_lag hA h
    unfold Reader.readAllLoop
    generalize R₁.readRow S₁ = x at h1
    generalize R₂.readRow S₂ = y at h1
    obtain ⟨x1, R1⟩ := x
    obtain ⟨y1, R2⟩ := y
    rcases h1 with ⟨g1, g2⟩ | ⟨g1, g2, g3⟩
    · dsimp only at g1 g2
      subst g1
      rcases x1 with e | (_ | _)
      · exact .inl ⟨rfl, g2⟩
      · exact .inl ⟨rfl, g2⟩
      · exact ih g2
    · right
      refine ⟨g1, ?_⟩
      dsimp only at g2 g3
      have k2 := readAllLoop_dead (S₁ := S₁) n g2
      have k3 : Grown (R1.readAllLoop S₁ n).2 R2 := by
        unfold Grown
        rw [readAllLoop_dead_pushes n g2]
        exact g3
      have k4 := readAllLoop_grown (S := S₂) n R2
      rcases x1 with e | (_ | _) <;> rcases y1 with e' | (_ | _) <;>
        first
          | exact ⟨g2, g3⟩
          | exact ⟨g2, g3.trans k4⟩
          | exact ⟨k2, k3⟩
          | exact ⟨k2, k3.trans k4⟩

theorem step_lag (hA : Agree E S₁ S₂ Q) {R₁ : Reader σ₁} {R₂ : Reader σ₂} (h : ReRel Q R₁ R₂) (op : Op) :
    Lag E Q (R₁.step S₁ op) (R₂.step S₂ op) := by
  rcases step_agree hA h op with h1 | ⟨h1, h2⟩
  · exact .inl h1
  · refine .inr ⟨h1, h2, ?_⟩
    have silent : pushes (R₁.step S₁ op).2.trace = pushes R₁.trace → Grown (R₁.step S₁ op).2 (R₂.step S₂ op).2 := by
      intro hs
      unfold Grown
      rw [hs, h.trace]
      exact step_grown R₂ op
    cases op with
    | readRow => exact silent (readRow_last h2)
    | readRows n =>
      rcases readRows_lag hA n h with ⟨-, g⟩ | ⟨-, -, g⟩
      · show pushes (R₁.readRows S₁ n).2.trace <+: pushes (R₂.readRows S₂ n).2.trace
        rw [g.trace]
      · exact g
    | readAll =>
      have e : R₂.readAll S₂ = R₂.readAllLoop S₂ (R₁.props.md.rowCount - R₁.rd.row + 1) := by
        rw [Reader.readAll, h.props, h.rd.1]
      show pushes (R₁.readAll S₁).2.trace <+: pushes (R₂.readAll S₂).2.trace
      rw [e]
      rcases readAllLoop_lag hA (R₁.props.md.rowCount - R₁.rd.row + 1) h with ⟨-, g⟩ | ⟨-, -, g⟩
      · show pushes (R₁.readAllLoop S₁ _).2.trace <+: _
        rw [g.trace]
      · exact g
    | skip n => exact silent (skip_pushes n R₁)
    | readRowNoSink => exact silent rfl
    | endOfData => exact silent (end_pushes R₁)

theorem run_lag (hA : Agree E S₁ S₂ Q) : ∀ (ops : List Op) {R₁ : Reader σ₁} {R₂ : Reader σ₂}, ReRel Q R₁ R₂ →
    Lag E Q (R₁.run S₁ ops) (R₂.run S₂ ops) := by
  intro ops
  induction ops with
  | nil => exact fun h => .inl ⟨rfl, h⟩
  | cons op ops ih =>
    intro R₁ R₂ h
    have h1 := step_lag hA h op
    rcases h1 with ⟨g1, g2⟩ | ⟨g1, g2, g3⟩
    · unfold Reader.run
      generalize R₁.step S₁ op = x at g1 g2
      generalize R₂.step S₂ op = y at g1 g2
      obtain ⟨x1, R1⟩ := x
      obtain ⟨y1, R2⟩ := y
      dsimp only at g1 g2
      subst g1
      have h2 := ih g2
      rcases x1 with e | v
      · cases e with
        | exn e =>
          rcases h2 with ⟨k1, k2⟩ | h2
          · exact .inl ⟨by dsimp only; rw [k1], k2⟩
          · exact .inr h2
        | terminate => exact .inl ⟨rfl, g2⟩
        | ub => exact .inl ⟨rfl, g2⟩
        | fuel => exact .inl ⟨rfl, g2⟩
      · rcases h2 with ⟨k1, k2⟩ | h2
        · exact .inl ⟨by dsimp only; rw [k1], k2⟩
        · exact .inr h2
    · right
      have tail₁ : (R₁.run S₁ (op :: ops)).2.rd.page = none ∧
          pushes (R₁.run S₁ (op :: ops)).2.trace = pushes (R₁.step S₁ op).2.trace := by
        unfold Reader.run
        generalize R₁.step S₁ op = x at g2
        obtain ⟨(e | v), R'⟩ := x
        · cases e with
          | exn e => exact ⟨run_dead ops g2, run_dead_pushes ops g2⟩
          | terminate => exact ⟨g2, rfl⟩
          | ub => exact ⟨g2, rfl⟩
          | fuel => exact ⟨g2, rfl⟩
        · exact ⟨run_dead ops g2, run_dead_pushes ops g2⟩
      have tail₂ : Grown (R₂.step S₂ op).2 (R₂.run S₂ (op :: ops)).2 := by
        unfold Reader.run
        generalize R₂.step S₂ op = x
        obtain ⟨(e | v), R'⟩ := x
        · cases e with
          | exn e => exact run_grown ops R'
          | terminate => exact Grown.refl _
          | ub => exact Grown.refl _
          | fuel => exact Grown.refl _
        · exact run_grown ops R'
      refine ⟨g1, tail₁.1, ?_⟩
      unfold Grown
      rw [tail₁.2]
      exact g3.trans tail₂

/-! ## The property -/

/-- **C90**, for sources. The first source gives the bytes of the second one until a read of it fails: a file that is cut
off, one that is still being written, a device that fails, a connection that breaks. If the reader can be opened on it and at least
one row can be read, then it can be opened on the second one with the same properties, and in every history of calls the rows
pushed are the first ones of those pushed by the same calls on the second source: same numbers, same bytes. -/
theorem C90_prefix_partial {S₁ : Source σ₁} {S₂ : Source σ₂} {Q : σ₁ → σ₂ → Prop} (hA : Agree True S₁ S₂ Q)
    {cfg : Cfg} {fuel : Nat} {filter : Option Filter} {s₁ : σ₁} {s₂ : σ₂} (hQ : Q s₁ s₂) {R₁ : Reader σ₁}
    (h : openReader cfg S₁ fuel filter s₁ = .ok R₁) (ops₀ : List Op) (hrow : 0 < (R₁.run S₁ ops₀).2.currentRowIndex) :
    ∃ R₂, openReader cfg S₂ fuel filter s₂ = .ok R₂ ∧ R₂.props = R₁.props ∧
      ∀ ops, pushes (R₁.run S₁ ops).2.trace <+: pushes (R₂.run S₂ ops).2.trace := by
  have ho := open_agree hA cfg fuel filter hQ
  rw [h] at ho
  rcases ho with ⟨R₂, h1, h2⟩ | ⟨-, hn⟩
  · refine ⟨R₂, h1, h2.props.symm, fun ops => ?_⟩
    rcases run_lag hA ops h2 with ⟨-, g⟩ | ⟨-, -, g⟩
    · rw [g.trace]
    · exact g
  · exfalso
    have := readLine_dead_row (S := S₁) ops₀ hn
    have h0 := (openReader_spec h).2.1
    unfold Reader.currentRowIndex at hrow
    omega

/-- **C90**, for files that are cut off after any number of bytes. -/
theorem C90_cut_partial {cfg : Cfg} {fuel : Nat} {filter : Option Filter} {file : List Byte} {k : Nat} {R : Reader IFStream}
    (h : openReader cfg ifs fuel filter (IFStream.open (file.take k)) = .ok R) (ops₀ : List Op)
    (hrow : 0 < (R.run ifs ops₀).2.currentRowIndex) :
    ∃ R', openReader cfg ifs fuel filter (IFStream.open file) = .ok R' ∧ R'.props = R.props ∧
      ∀ ops, pushes (R.run ifs ops).2.trace <+: pushes (R'.run ifs ops).2.trace := by
  refine C90_prefix_partial (followed_agree (file.take k) (file.drop k) none) (s₁ := IFStream.open (file.take k))
    (s₂ := IFStream.open file) ⟨0, rfl, ?_⟩ h ops₀ hrow
  unfold IFStream.open
  rw [List.take_append_drop]
  rfl

/-! ## The text of a csv file -/

theorem sayAll_prefix : ∀ (ps qs : List Printed), (sayAll ps).1 <+: (sayAll (ps ++ qs)).1 := by
  intro ps qs
  induction ps with
  | nil => exact List.nil_prefix
  | cons p ps ih =>
    show (p.andThen (sayAll ps)).1 <+: (p.andThen (sayAll (ps ++ qs))).1
    unfold Printed.andThen
    cases p.2 with
    | error e => exact List.prefix_refl _
    | ok u => exact (List.prefix_append_right_inj _).2 ih

theorem say_andThen (q : Printed) : (say []).andThen q = q := by
  unfold Printed.andThen say
  rfl

theorem csv_pushes (x : Texts) (cols : List Column) : ∀ (es : List Event), (∀ p, Event.setProperties p ∉ es) →
    runText (csvStep x) cols es = sayAll ((pushes es).map fun r => csvLine (cols.map (csvCell x r.2.mem))) := by
  intro es
  induction es with
  | nil => intro _; rfl
  | cons ev es ih =>
    intro h
    have ih := ih fun p hp => h p (List.mem_cons_of_mem _ hp)
    cases ev with
    | setProperties p => exact absurd List.mem_cons_self (h p)
    | pushRow i r =>
      show (csvLine (cols.map (csvCell x r.mem))).andThen (runText (csvStep x) cols es) = _
      rw [ih]
      rfl
    | endOfData =>
      show (say []).andThen (runText (csvStep x) cols es) = _
      rw [ih, say_andThen]
      rfl

/-- **C90**, for csv files: what is written from a file that is cut off is the beginning of what is written from the whole
file. -/
theorem C90_csv_partial {cfg : Cfg} {fuel : Nat} {filter : Option Filter} {file : List Byte} {k : Nat} {R : Reader IFStream}
    (h : openReader cfg ifs fuel filter (IFStream.open (file.take k)) = .ok R) (ops₀ : List Op)
    (hrow : 0 < (R.run ifs ops₀).2.currentRowIndex) :
    ∃ R', openReader cfg ifs fuel filter (IFStream.open file) = .ok R' ∧
      ∀ (x : Texts) (ops : List Op), (csvText x (R.run ifs ops).2.trace).1 <+: (csvText x (R'.run ifs ops).2.trace).1 := by
  obtain ⟨R', h1, h2, h3⟩ := C90_cut_partial h ops₀ hrow
  refine ⟨R', h1, fun x ops => ?_⟩
  have h3 := h3 ops
  obtain ⟨es, k1, -, k2, -, -⟩ := C08_protocol h ops
  obtain ⟨es', l1, -, l2, -, -⟩ := C08_protocol h1 ops
  rw [k1, l1] at h3
  simp only [pushes] at h3
  rw [k1, l1, h2]
  show ((csvLine _).andThen (runText (csvStep x) R.props.columns es)).1 <+:
    ((csvLine _).andThen (runText (csvStep x) R.props.columns es')).1
  rw [csv_pushes x _ es k2, csv_pushes x _ es' l2]
  obtain ⟨t, ht⟩ := h3
  rw [← ht, List.map_append]
  exact sayAll_prefix (_ :: _) _

/-! ## Devices -/

/-- A stream on a device that fails and one on a device that does not, until a read of the first one fails. -/
theorem device_agree (file : List Byte) (k : Nat) : Agree True ifs ifs fun a b =>
    (∃ p, a = ⟨file, p, false, false, some k⟩ ∧ b = ⟨file, p, false, false, none⟩) where
  fits₁ := ifs_lawful.le
  fits₂ := ifs_lawful.le
  huge₁ := (followed_agree [] [] none).huge₁
  huge₂ := (followed_agree [] [] none).huge₂
  eof := by
    rintro a b ⟨p, rfl, rfl⟩
    rfl
  good := by
    rintro a b ⟨p, rfl, rfl⟩ n h
    have key : IFStream.read ⟨file, p, false, false, some k⟩ n =
        IFStream.readPlain ⟨file, p, false, false, some k⟩ n ∧
        IFStream.read ⟨file, p, false, false, none⟩ n = IFStream.readPlain ⟨file, p, false, false, none⟩ n := by
      change (IFStream.read ⟨file, p, false, false, some k⟩ n).ok = true at h
      unfold IFStream.read at h ⊢
      dsimp only [Bool.or_false] at h ⊢
      by_cases h63 : 2 ^ 63 ≤ n
      · rw [if_pos h63] at h
        cases h
      · rw [if_neg h63, if_neg h63]
        rw [if_neg h63] at h
        by_cases hk : k < p + n ∧ k ≤ file.length
        · simp [hk] at h
        · simp [hk]
    change (IFStream.read ⟨file, p, false, false, some k⟩ n).ok = true at h
    show (IFStream.read _ n).ok = true ∧ (IFStream.read _ n).bytes = (IFStream.read _ n).bytes ∧ _
    show _ ∧ _ ∧ ∃ q, (IFStream.read _ n).st = _ ∧ (IFStream.read _ n).st = _
    rw [key.1] at h ⊢
    rw [key.2]
    unfold IFStream.readPlain at h ⊢
    dsimp only at h ⊢
    by_cases hn : p + n ≤ file.length
    · rw [if_pos hn, if_pos hn]
      exact ⟨rfl, rfl, _, rfl, rfl⟩
    · rw [if_neg hn] at h
      cases h
  fail := fun _ _ _ _ _ => .inl trivial

/-- **C90**, for devices that fail at any byte. -/
theorem C90_device_partial {cfg : Cfg} {fuel : Nat} {filter : Option Filter} {file : List Byte} {k : Nat} {R : Reader IFStream}
    (h : openReader cfg ifs fuel filter { IFStream.open file with fault := some k } = .ok R) (ops₀ : List Op)
    (hrow : 0 < (R.run ifs ops₀).2.currentRowIndex) :
    ∃ R', openReader cfg ifs fuel filter (IFStream.open file) = .ok R' ∧ R'.props = R.props ∧
      ∀ ops, pushes (R.run ifs ops).2.trace <+: pushes (R'.run ifs ops).2.trace :=
  C90_prefix_partial (device_agree file k) ⟨0, rfl, rfl⟩ h ops₀ hrow

/-- The demo file without its last 412 bytes: two of its three rows are left. -/
def cutAt : Nat := Demo.file.length - 412

example : ∃ R, openReader Demo.cfg ifs 10 none (IFStream.open (Demo.file.take cutAt)) = .ok R ∧
    R.props = Demo.reader.props ∧
    (pushes (R.run ifs [.readAll]).2.trace).length = 2 ∧
    pushes (R.run ifs [.readRow, .skip 1, .readAll]).2.trace <+: pushes (Demo.reader.run ifs [.readRow, .skip 1, .readAll]).2.trace := by
  have ho := Demo.get_ok (r := openReader Demo.cfg ifs 10 none (IFStream.open (Demo.file.take cutAt))) (by decide +kernel)
  obtain ⟨R', h1, h2, h3⟩ := C90_cut_partial ho [.readRow] (by decide +kernel)
  have : R' = Demo.reader := Except.ok.inj (h1.symm.trans Demo.opened_ok)
  rw [this] at h2 h3
  exact ⟨_, ho, h2.symm, by decide +kernel, h3 _⟩

example : csvText someTexts ((Demo.get (openReader Demo.cfg ifs 10 none (IFStream.open (Demo.file.take cutAt)))).run ifs
    [.readAll]).2.trace = say (ascii "\"ID\",\"NAME\"\n1,\"ann\"\n1,\"bob\"\n") := by decide +kernel

example : ∃ R, openReader Demo.cfg ifs 10 none { IFStream.open Demo.file with fault := some cutAt } = .ok R ∧
    (pushes (R.run ifs [.readAll]).2.trace).length = 2 ∧
    pushes (R.run ifs [.readAll]).2.trace <+: pushes (Demo.reader.run ifs [.readAll]).2.trace := by
  have ho := Demo.get_ok (r := openReader Demo.cfg ifs 10 none { IFStream.open Demo.file with fault := some cutAt })
    (by decide +kernel)
  obtain ⟨R', h1, h2, h3⟩ := C90_device_partial ho [.readRow] (by decide +kernel)
  have : R' = Demo.reader := Except.ok.inj (h1.symm.trans Demo.opened_ok)
  rw [this] at h2 h3
  exact ⟨_, ho, by decide +kernel, h3 _⟩

/-- **C90** is silent: `read_all` on a file that is cut off may return as it does for a whole file, after the end of the
data has been signalled to the sink, although rows are missing. Nothing but the row index tells. -/
theorem C90_silent_refuted : ∃ (file : List Byte) (k : Nat) (R R' : Reader IFStream),
    openReader Demo.cfg ifs 10 none (IFStream.open file) = .ok R ∧
    openReader Demo.cfg ifs 10 none (IFStream.open (file.take k)) = .ok R' ∧
    (R'.run ifs [.readAll]).1 = (R.run ifs [.readAll]).1 ∧ (R'.run ifs [.readAll]).1 = [.ok .unit] ∧
    (R'.run ifs [.readAll]).2.trace.getLast? = some .endOfData ∧
    (pushes (R'.run ifs [.readAll]).2.trace).length = 2 ∧ (pushes (R.run ifs [.readAll]).2.trace).length = 3 ∧
    R'.props.md.rowCount = 3 ∧ (R'.run ifs [.readAll]).2.currentRowIndex = 2 :=
  ⟨Demo.file, cutAt, Demo.reader, Demo.get (openReader Demo.cfg ifs 10 none (IFStream.open (Demo.file.take cutAt))),
    Demo.opened_ok, Demo.get_ok (by decide +kernel), by decide +kernel, by decide +kernel, by decide +kernel,
    by decide +kernel, by decide +kernel, by decide +kernel, by decide +kernel⟩

/-- **C90** needs a row: a file that is cut off in its metadata may be opened, with properties other than those of the
whole file. -/
theorem C90_metadata_refuted : ∃ (file : List Byte) (k : Nat) (R R' : Reader IFStream),
    openReader Demo.cfg ifs 10 none (IFStream.open file) = .ok R ∧
    openReader Demo.cfg ifs 10 none (IFStream.open (file.take k)) = .ok R' ∧
    R.props.md.rowCount = 5 ∧ R'.props.md.rowCount = 0 :=
  ⟨emptyFile ++ Demo.metaPage 0 14 5 0 (ascii "        ") [] [], emptyFile.length,
    Demo.get (openReader Demo.cfg ifs 10 none (IFStream.open (emptyFile ++ Demo.metaPage 0 14 5 0 (ascii "        ") [] []))),
    Demo.get (openReader Demo.cfg ifs 10 none (IFStream.open
      ((emptyFile ++ Demo.metaPage 0 14 5 0 (ascii "        ") [] []).take emptyFile.length))),
    Demo.get_ok (by decide +kernel), Demo.get_ok (by decide +kernel), by decide +kernel, by decide +kernel⟩

end Sas.Props
