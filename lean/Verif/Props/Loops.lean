import Verif.Model.Loops
import Verif.Props.Errors
import Verif.Props.Reader

/-!
# C89: loops read everything and end
-/

namespace Sas.Props
open Sas Sas.Spec

variable {σ : Type} {S : Source σ}

/-- The number of rows a call asks for. -/
def asksFor : Op → Nat
  | .readRow | .readRowNoSink => 1
  | .readRows n | .skip n => n
  | .readAll | .endOfData => 0

/-- The call has got what it asked for. -/
def Got : Res Ret → Prop
  | .ok (.bool b) => b = true
  | .ok (.ptr p) => p ≠ none
  | _ => False

theorem got_advances {R : Reader σ} (hR : Reachable S R) (op : Op) (h : Got (R.step S op).1) :
    (R.step S op).2.currentRowIndex = R.currentRowIndex + asksFor op := by
  cases op with
  | readRow =>
    have hs := (Reader.readRow_spec (S := S) R (Reachable.inv hR)).2.2.2
    simp only [Reader.step] at h ⊢
    generalize R.readRow S = x at *
    obtain ⟨r, R'⟩ := x
    cases r with
    | error e => cases h
    | ok b => cases b with
      | false => cases h
      | true => exact hs.1
  | readRows n =>
    obtain ⟨rows, hs⟩ := (Reader.readRows_spec (S := S) n R (Reachable.inv hR)).2.2.2
    simp only [Reader.step] at h ⊢
    generalize R.readRows S n = x at *
    obtain ⟨r, R'⟩ := x
    cases r with
    | error e => cases h
    | ok b => cases b with
      | false => cases h
      | true => exact hs.1
  | readAll =>
    simp only [Reader.step] at h
    generalize R.readAll S = x at *
    obtain ⟨r, R'⟩ := x
    cases r <;> cases h
  | skip n =>
    have hs := (Reader.skip_spec (S := S) n R (Reachable.inv hR)).2.2.2
    simp only [Reader.step] at h ⊢
    generalize R.skip S n = x at *
    obtain ⟨r, R'⟩ := x
    cases r with
    | error e => cases h
    | ok b => cases b with
      | false => cases h
      | true => exact hs.1
  | readRowNoSink =>
    have hs := (Reader.readRowNoSink_spec (S := S) R (Reachable.inv hR)).2.2.2.2
    simp only [Reader.step] at h ⊢
    generalize R.readRowNoSink S = x at *
    obtain ⟨r, R'⟩ := x
    cases r with
    | error e => cases h
    | ok p => cases p with
      | none => exact absurd rfl h
      | some row => exact hs
  | endOfData => cases h

/-- The reader after so many of these calls. -/
def afterCalls (S : Source σ) (R : Reader σ) (ops : Nat → Op) : Nat → Reader σ
  | 0 => R
  | k + 1 => ((afterCalls S R ops k).step S (ops k)).2

theorem afterCalls_reachable {R : Reader σ} (hR : Reachable S R) (ops : Nat → Op) (k : Nat) :
    Reachable S (afterCalls S R ops k) := by
  induction k with
  | zero => exact hR
  | succ k ih => exact .called _ _ ih

theorem afterCalls_props {R : Reader σ} (hR : Reachable S R) (ops : Nat → Op) (k : Nat) :
    (afterCalls S R ops k).props = R.props := by
  induction k with
  | zero => rfl
  | succ k ih => exact ((Reader.step_inv _ (Reachable.inv (afterCalls_reachable hR ops k)) _).2.1).trans ih

/-- **C89**, the end. Calls that each ask for at least one row cannot all get what they ask for: some call, after at most as
many as there are announced rows left, does not. (It returns false or the null pointer, or it fails.) -/
theorem C89_ends {R : Reader σ} (hR : Reachable S R) (ops : Nat → Op) (h : ∀ i, 1 ≤ asksFor (ops i)) :
    ∃ k, k ≤ R.props.md.rowCount - R.currentRowIndex ∧
      (∀ i < k, Got ((afterCalls S R ops i).step S (ops i)).1) ∧
      ¬ Got ((afterCalls S R ops k).step S (ops k)).1 := by
  classical
  have key : ∀ m, (∀ i < m, Got ((afterCalls S R ops i).step S (ops i)).1) →
      R.currentRowIndex + m ≤ (afterCalls S R ops m).currentRowIndex := by
    intro m
    induction m with
    | zero => intro _; exact Nat.le_refl _
    | succ m ih =>
      intro hg
      have h1 := ih fun i hi => hg i (by omega)
      have h2 := got_advances (afterCalls_reachable hR ops m) (ops m) (hg m (by omega))
      have h3 := h m
      rw [show afterCalls S R ops (m + 1) = ((afterCalls S R ops m).step S (ops m)).2 from rfl, h2]
      omega
  have hex : ∃ k, ¬ Got ((afterCalls S R ops k).step S (ops k)).1 := by
    by_contra hc
    have hc : ∀ i, Got ((afterCalls S R ops i).step S (ops i)).1 := fun i => by
      by_contra h'
      exact hc ⟨i, h'⟩
    have h1 := key (R.props.md.rowCount + 1) fun i _ => hc i
    have h2 := (Reachable.inv (afterCalls_reachable hR ops (R.props.md.rowCount + 1))).row
    rw [afterCalls_props hR] at h2
    have h3 : (afterCalls S R ops (R.props.md.rowCount + 1)).rd.row =
      (afterCalls S R ops (R.props.md.rowCount + 1)).currentRowIndex := rfl
    omega
  refine ⟨Nat.find hex, ?_, fun i hi => not_not.mp (Nat.find_min hex hi), Nat.find_spec hex⟩
  have h1 := key (Nat.find hex) fun i hi => not_not.mp (Nat.find_min hex hi)
  have h2 := (Reachable.inv (afterCalls_reachable hR ops (Nat.find hex))).row
  rw [afterCalls_props hR] at h2
  have h3 : (afterCalls S R ops (Nat.find hex)).rd.row = (afterCalls S R ops (Nat.find hex)).currentRowIndex := rfl
  omega

/-! ## What a loop reads -/

theorem rows_of_all (n : Nat) : ∀ (f : Nat) (R E : Reader σ), R.readAllLoop S f = (.ok (), E) →
    R.readRows S n = (.ok false, E) ∨
      ∃ R' f', R.readRows S n = (.ok true, R') ∧ f' + n = f ∧ R'.readAllLoop S f' = (.ok (), E) := by
  induction n with
  | zero => intro f R E h; exact .inr ⟨R, f, rfl, rfl, h⟩
  | succ n ih =>
    intro f R E h
    cases f with
    | zero => cases h
    | succ f =>
      rw [Reader.readAllLoop] at h
      rw [Reader.readRows]
      generalize R.readRow S = x at h ⊢
      obtain ⟨r, R1⟩ := x
      cases r with
      | error e => cases h
      | ok b => cases b with
        | false => cases h; exact .inl rfl
        | true =>
          rcases ih f R1 E h with h | ⟨R', f', h1, h2, h3⟩
          · exact .inl h
          · exact .inr ⟨R', f', h1, by omega, h3⟩

theorem all_of_rows_false (n : Nat) : ∀ (R E : Reader σ), R.readRows S n = (.ok false, E) →
    ∃ f, R.readAllLoop S f = (.ok (), E) := by
  induction n with
  | zero => intro R E h; cases h
  | succ n ih =>
    intro R E h
    rw [Reader.readRows] at h
    cases hx : R.readRow S with
    | mk r R1 =>
      rw [hx] at h
      cases r with
      | error e => cases h
      | ok b => cases b with
        | false => cases h; exact ⟨1, by rw [Reader.readAllLoop, hx]⟩
        | true =>
          obtain ⟨f, hf⟩ := ih R1 E h
          exact ⟨f + 1, by rw [Reader.readAllLoop, hx]; exact hf⟩

theorem all_of_rows_true (n : Nat) : ∀ (R R' E : Reader σ) (f : Nat), R.readRows S n = (.ok true, R') →
    R'.readAllLoop S f = (.ok (), E) → R.readAllLoop S (f + n) = (.ok (), E) := by
  induction n with
  | zero => intro R R' E f h hf; cases h; exact hf
  | succ n ih =>
    intro R R' E f h hf
    rw [Reader.readRows] at h
    cases hx : R.readRow S with
    | mk r R1 =>
      rw [hx] at h
      cases r with
      | error e => cases h
      | ok b => cases b with
        | false => cases h
        | true =>
          rw [show f + (n + 1) = (f + n) + 1 from rfl, Reader.readAllLoop, hx]
          exact ih R1 R' E f h hf

theorem readAllLoop_more : ∀ (f g : Nat) (R E : Reader σ), R.readAllLoop S f = (.ok (), E) →
    R.readAllLoop S (f + g) = (.ok (), E) := by
  intro f
  induction f with
  | zero => intro g R E h; cases h
  | succ f ih =>
    intro g R E h
    rw [show f + 1 + g = (f + g) + 1 by omega]
    rw [Reader.readAllLoop] at h ⊢
    generalize R.readRow S = x at h ⊢
    obtain ⟨r, R1⟩ := x
    cases r with
    | error e => cases h
    | ok b => cases b with
      | false => exact h
      | true => exact ih g R1 E h

theorem step_readRows_iff {R R' : Reader σ} {n : Nat} {b : Bool} :
    R.step S (.readRows n) = (.ok (.bool b), R') ↔ R.readRows S n = (.ok b, R') := by
  simp only [Reader.step]
  generalize R.readRows S n = x
  obtain ⟨r, R1⟩ := x
  cases r with
  | error e => constructor <;> intro h <;> cases h
  | ok c => constructor <;> intro h <;> cases h <;> rfl

theorem step_readAll_iff {R R' : Reader σ} :
    R.step S .readAll = (.ok .unit, R') ↔ R.readAll S = (.ok (), R') := by
  simp only [Reader.step]
  generalize R.readAll S = x
  obtain ⟨r, R1⟩ := x
  cases r with
  | error e => constructor <;> intro h <;> cases h
  | ok c => constructor <;> intro h <;> cases h <;> rfl

theorem loop_of_all {n : Nat} (hn : 1 ≤ n) : ∀ (f : Nat) (R E : Reader σ), R.readAllLoop S f = (.ok (), E) →
    Reader.Loop S (.readRows n) R E := by
  intro f
  induction f using Nat.strongRecOn with
  | _ f ih =>
    intro R E h
    rcases rows_of_all n f R E h with h1 | ⟨R', f', h1, h2, h3⟩
    · exact .stop (step_readRows_iff.mpr h1)
    · exact .again (step_readRows_iff.mpr h1) (ih f' (by omega) R' E h3)

theorem all_of_loop {n : Nat} {R E : Reader σ} (h : Reader.Loop S (.readRows n) R E) :
    ∃ f, R.readAllLoop S f = (.ok (), E) := by
  induction h with
  | stop h => exact all_of_rows_false n _ _ (step_readRows_iff.mp h)
  | again h _ ih =>
    obtain ⟨f, hf⟩ := ih
    exact ⟨_, all_of_rows_true n _ _ _ f (step_readRows_iff.mp h) hf⟩

/-- **C89**, C++. The loop `while (reader.read_rows(n))` with `n ≥ 1` ends exactly if `read_all` comes back, and it leaves
exactly the same: the same state of the reader, and the same calls of the sink. -/
theorem C89_loop {R : Reader σ} (hR : Reachable S R) (n : Nat) (hn : 1 ≤ n) (E : Reader σ) :
    Reader.Loop S (.readRows n) R E ↔ R.step S .readAll = (.ok .unit, E) := by
  rw [step_readAll_iff]
  constructor
  · intro h
    obtain ⟨f, hf⟩ := all_of_loop h
    rw [← readAll_fuel_adequate R (Reachable.inv hR) (f + (R.props.md.rowCount - R.rd.row + 1)) (by omega)]
    exact readAllLoop_more f _ R E hf
  · exact loop_of_all hn _ R E

theorem step_readRow_eq (R : Reader σ) : R.step S .readRow = R.step S (.readRows 1) := by
  simp only [Reader.step, Reader.readRows]
  generalize R.readRow S = x
  obtain ⟨r, R1⟩ := x
  cases r with
  | error e => rfl
  | ok b => cases b <;> rfl

theorem loop_congr {o p : Op} (h : ∀ R : Reader σ, R.step S o = R.step S p) {R E : Reader σ}
    (hl : Reader.Loop S o R E) : Reader.Loop S p R E := by
  induction hl with
  | stop k => exact .stop (by rw [← h]; exact k)
  | again k _ ih => exact .again (by rw [← h]; exact k) ih

/-- **C89**, C++: the same for `while (reader.read_row())`. -/
theorem C89_loop_row {R : Reader σ} (hR : Reachable S R) (E : Reader σ) :
    Reader.Loop S .readRow R E ↔ R.step S .readAll = (.ok .unit, E) :=
  ⟨fun h => (C89_loop hR 1 (Nat.le_refl _) E).mp (loop_congr step_readRow_eq h),
   fun h => loop_congr (fun R => (step_readRow_eq R).symm) ((C89_loop hR 1 (Nat.le_refl _) E).mpr h)⟩

/-- **C89** fails for loops that ask for no rows: `while (reader.read_rows(0))` and `while (reader.skip(0))` end for no file
and in no state. -/
theorem C89_zero_refuted (R E : Reader σ) :
    ¬ Reader.Loop S (.readRows 0) R E ∧ ¬ Reader.Loop S (.skip 0) R E := by
  constructor
  · intro h
    induction h with
    | stop h => cases h
    | again _ _ ih => exact ih
  · intro h
    induction h with
    | stop h =>
      rename_i R R'
      simp only [Reader.step, Reader.skip, RD.skip] at h
      cases h
    | again _ _ ih => exact ih

/-! ## Python -/

theorem loop_prefix {op : Op} {R E : Reader σ} (h : Reader.Loop S op R E) (hR : Reachable S R) :
    ∃ more, E.trace = R.trace ++ more := by
  induction h with
  | stop h =>
    obtain ⟨rows, ht, -⟩ := Reader.step_trace (S := S) _ (Reachable.inv hR) op
    rw [h, List.append_assoc] at ht
    exact ⟨_, ht⟩
  | again h _ ih =>
    rename_i R R' R'' _
    obtain ⟨rows, ht, -⟩ := Reader.step_trace (S := S) R (Reachable.inv hR) op
    have hR' : Reachable S (R.step S op).2 := .called _ _ hR
    rw [h] at hR'
    obtain ⟨more, hm⟩ := ih hR'
    rw [h, List.append_assoc] at ht
    exact ⟨_, by rw [hm, ht, List.append_assoc]⟩

theorem op_iff {s s' : PySession σ} {op : Op} {v : Ret} {R : Reader σ} (h : s.reader.step S op = (.ok v, R)) :
    s.op S op = .ok s' ↔ ({ s with reader := R } : PySession σ).events (R.trace.drop s.reader.trace.length) = .ok s' := by
  unfold PySession.op
  rw [h]
  simp only [bind, Except.bind]
  cases ({ s with reader := R } : PySession σ).events (R.trace.drop s.reader.trace.length) with
  | error e => constructor <;> intro h <;> cases h
  | ok t => constructor <;> intro h <;> cases h <;> rfl

theorem ask_iff {s s' : PySession σ} {op : Op} {v : Ret} :
    s.ask S op = .ok (v, s') ↔ s.reader.step S op = (.ok v, s'.reader) ∧ s.op S op = .ok s' := by
  constructor
  · intro h
    unfold PySession.ask at h
    cases ho : s.op S op with
    | error e => rw [ho] at h; cases h
    | ok t =>
      rw [ho] at h
      obtain ⟨w, hw⟩ := op_ok ho
      rw [hw] at h
      cases h
      exact ⟨hw, rfl⟩
  · rintro ⟨h1, h2⟩
    unfold PySession.ask
    rw [h2, h1]
    rfl

theorem step_prefix {op : Op} {R E : Reader σ} {r : Res Ret} (hR : Reachable S R) (h : R.step S op = (r, E)) :
    ∃ more, E.trace = R.trace ++ more := by
  obtain ⟨rows, ht, -⟩ := Reader.step_trace (S := S) R (Reachable.inv hR) op
  rw [h, List.append_assoc] at ht
  exact ⟨_, ht⟩

theorem step_reachable {op : Op} {R E : Reader σ} {r : Res Ret} (hR : Reachable S R) (h : R.step S op = (r, E)) :
    Reachable S E := by
  have : Reachable S (R.step S op).2 := .called _ _ hR
  rw [h] at this
  exact this

theorem py_loop_iff {op : Op} {s s' : PySession σ} (hR : Reachable S s.reader) :
    PySession.Loop S op s s' ↔ Reader.Loop S op s.reader s'.reader ∧
      ({ s with reader := s'.reader } : PySession σ).events (s'.reader.trace.drop s.reader.trace.length) = .ok s' := by
  constructor
  · intro h
    induction h with
    | stop h =>
      obtain ⟨h1, h2⟩ := ask_iff.mp h
      exact ⟨.stop h1, (op_iff h1).mp h2⟩
    | again h _ ih =>
      rename_i s t s' _
      obtain ⟨h1, h2⟩ := ask_iff.mp h
      have hT := step_reachable hR h1
      obtain ⟨k1, k2⟩ := ih hT
      refine ⟨.again h1 k1, ?_⟩
      have h3 := (op_iff h1).mp h2
      obtain ⟨a, ha⟩ := step_prefix hR h1
      obtain ⟨b, hb⟩ := loop_prefix k1 hT
      rw [ha, List.drop_left] at h3
      rw [hb, List.drop_left] at k2
      rw [hb, ha, List.append_assoc, List.drop_left, events_append]
      have h4 := events_with s'.reader h3
      simp only at h4
      rw [h4]
      exact k2
  · rintro ⟨h, he⟩
    generalize hE : s'.reader = E at h he
    generalize hr : s.reader = R at h
    induction h generalizing s with
    | stop h =>
      rename_i R R'
      subst hr
      refine .stop (ask_iff.mpr ⟨by rw [h, hE], (op_iff h).mpr ?_⟩)
      exact he
    | again h hl ih =>
      rename_i R R' E
      subst hr
      have hT := step_reachable hR h
      obtain ⟨a, ha⟩ := step_prefix hR h
      obtain ⟨b, hb⟩ := loop_prefix hl hT
      rw [hb, ha, List.append_assoc, List.drop_left, events_append] at he
      cases h1 : ({ s with reader := E } : PySession σ).events a with
      | error e => rw [h1] at he; cases he
      | ok t =>
        rw [h1] at he
        have h2 := events_with R' h1
        simp only at h2
        have htr : t.reader = E := (events_reader h1).1
        refine .again (s' := { t with reader := R' }) (ask_iff.mpr ⟨h, (op_iff h).mpr ?_⟩)
          (ih (s := { t with reader := R' }) hT hE ?_ rfl)
        · rw [ha, List.drop_left]
          exact h2
        · simp only
          rw [hb, List.drop_left]
          have he : t.events b = .ok s' := he
          rw [← htr]
          exact he

theorem readAll_unit {R E : Reader σ} {v : Ret} (h : R.step S .readAll = (.ok v, E)) : v = .unit := by
  simp only [Reader.step] at h
  generalize R.readAll S = x at h
  obtain ⟨r, R1⟩ := x
  cases r with
  | error e => cases h
  | ok c => cases h; rfl

theorem py_all_iff {op : Op} {s s' : PySession σ} (hR : Reachable S s.reader)
    (h : ∀ E, Reader.Loop S op s.reader E ↔ s.reader.step S .readAll = (.ok .unit, E)) :
    PySession.Loop S op s s' ↔ s.op S .readAll = .ok s' := by
  rw [py_loop_iff hR, h]
  constructor
  · rintro ⟨h1, h2⟩
    exact (op_iff h1).mpr h2
  · intro h
    obtain ⟨v, hv⟩ := op_ok h
    cases readAll_unit hv
    exact ⟨hv, (op_iff hv).mp h⟩

/-- **C89**, Python. `while reader.read_rows(n): pass` with `n ≥ 1`, and `while reader.read_row(): pass`, end exactly if
`reader.read_all()` comes back, and leave exactly the same reader and the same sink. -/
theorem C89_python {s : PySession σ} (hR : Reachable S s.reader) (s' : PySession σ) :
    (∀ n, 1 ≤ n → (PySession.Loop S (.readRows n) s s' ↔ s.op S .readAll = .ok s')) ∧
    (PySession.Loop S .readRow s s' ↔ s.op S .readAll = .ok s') :=
  ⟨fun n hn => py_all_iff hR fun E => C89_loop hR n hn E, py_all_iff hR fun E => C89_loop_row hR E⟩

/-! ## R -/

variable {unique : List (List Byte) → List (List Byte)}

theorem r_op_iff {s s' : RSession σ} {op : Op} {v : Ret} {R : Reader σ} (h : s.reader.step S op = (.ok v, R)) :
    s.op unique S op = .ok s' ↔
      s.sink.events unique (R.trace.drop s.reader.trace.length) = .ok s'.sink ∧ s'.reader = R := by
  unfold RSession.op
  rw [h]
  simp only [bind, Except.bind]
  cases s.sink.events unique (R.trace.drop s.reader.trace.length) with
  | error e => constructor <;> intro h <;> [cases h; cases h.1]
  | ok t =>
    constructor
    · intro h; cases h; exact ⟨rfl, rfl⟩
    · rintro ⟨h1, rfl⟩; cases h1; rfl

theorem r_ask_iff {s s' : RSession σ} {op : Op} {v : Ret} :
    s.ask unique S op = .ok (v, s') ↔ s.reader.step S op = (.ok v, s'.reader) ∧ s.op unique S op = .ok s' := by
  constructor
  · intro h
    unfold RSession.ask at h
    cases ho : s.op unique S op with
    | error e => rw [ho] at h; cases h
    | ok t =>
      rw [ho] at h
      obtain ⟨w, hw⟩ := r_op_ok ho
      rw [hw] at h
      cases h
      exact ⟨hw, rfl⟩
  · rintro ⟨h1, h2⟩
    unfold RSession.ask
    rw [h2, h1]
    rfl

theorem r_loop_iff {op : Op} {s s' : RSession σ} (hR : Reachable S s.reader) :
    RSession.Loop unique S op s s' ↔ Reader.Loop S op s.reader s'.reader ∧
      s.sink.events unique (s'.reader.trace.drop s.reader.trace.length) = .ok s'.sink := by
  constructor
  · intro h
    induction h with
    | stop h =>
      obtain ⟨h1, h2⟩ := r_ask_iff.mp h
      exact ⟨.stop h1, ((r_op_iff h1).mp h2).1⟩
    | again h _ ih =>
      rename_i s t s' _
      obtain ⟨h1, h2⟩ := r_ask_iff.mp h
      have hT := step_reachable hR h1
      obtain ⟨k1, k2⟩ := ih hT
      refine ⟨.again h1 k1, ?_⟩
      have h3 := ((r_op_iff h1).mp h2).1
      obtain ⟨a, ha⟩ := step_prefix hR h1
      obtain ⟨b, hb⟩ := loop_prefix k1 hT
      rw [ha, List.drop_left] at h3
      rw [hb, List.drop_left] at k2
      rw [hb, ha, List.append_assoc, List.drop_left, RSink.events_append, h3]
      exact k2
  · rintro ⟨h, he⟩
    generalize hE : s'.reader = E at h he
    generalize hr : s.reader = R at h
    induction h generalizing s with
    | stop h =>
      rename_i R R'
      subst hr
      exact .stop (r_ask_iff.mpr ⟨by rw [h, hE], (r_op_iff h).mpr ⟨he, hE⟩⟩)
    | again h hl ih =>
      rename_i R R' E
      subst hr
      have hT := step_reachable hR h
      obtain ⟨a, ha⟩ := step_prefix hR h
      obtain ⟨b, hb⟩ := loop_prefix hl hT
      rw [hb, ha, List.append_assoc, List.drop_left, RSink.events_append] at he
      cases h1 : s.sink.events unique a with
      | error e => rw [h1] at he; cases he
      | ok t =>
        rw [h1] at he
        refine .again (s' := { reader := R', sink := t }) (r_ask_iff.mpr ⟨h, (r_op_iff h).mpr ⟨?_, rfl⟩⟩)
          (ih (s := { reader := R', sink := t }) hT hE ?_ rfl)
        · rw [ha, List.drop_left]
          exact h1
        · simp only
          rw [hb, List.drop_left]
          exact he

theorem r_all_iff {op : Op} {s s' : RSession σ} (hR : Reachable S s.reader)
    (h : ∀ E, Reader.Loop S op s.reader E ↔ s.reader.step S .readAll = (.ok .unit, E)) :
    RSession.Loop unique S op s s' ↔ s.op unique S .readAll = .ok s' := by
  rw [r_loop_iff hR, h]
  constructor
  · rintro ⟨h1, h2⟩
    exact (r_op_iff h1).mpr ⟨h2, rfl⟩
  · intro h
    obtain ⟨v, hv⟩ := r_op_ok h
    cases readAll_unit hv
    exact ⟨hv, ((r_op_iff hv).mp h).1⟩

/-- **C89**, R. `while(reader$read_rows(n)) {}` with `n ≥ 1`, and `while(reader$read_row()) {}`, end exactly if
`reader$read_all()` comes back, and leave exactly the same reader and the same sink. -/
theorem C89_r {s : RSession σ} (hR : Reachable S s.reader) (s' : RSession σ) :
    (∀ n, 1 ≤ n → (RSession.Loop unique S (.readRows n) s s' ↔ s.op unique S .readAll = .ok s')) ∧
    (RSession.Loop unique S .readRow s s' ↔ s.op unique S .readAll = .ok s') :=
  ⟨fun n hn => r_all_iff hR fun E => C89_loop hR n hn E, r_all_iff hR fun E => C89_loop_row hR E⟩

/-! ## Whole programs -/

/-- **C89**, Python, whole programs. Opening a file and looping with `n ≥ 1` until the end is `read_sas`, except that the
reader is still there. -/
theorem C89_read_sas (cfg : Cfg) (fuel : Nat) (fs : FileSystem) (name : List Byte) (kind : PyKind) (incl excl : PyArg)
    (n : Nat) (hn : 1 ≤ n) (s' : PySession IFStream) :
    readSas cfg fuel fs name kind incl excl = .ok s' ↔
      ∃ s t, pyOpen cfg fuel fs name kind incl excl = .ok s ∧ PySession.Loop ifs (.readRows n) s t ∧ s' = t.drop := by
  unfold readSas
  cases h1 : pyOpen cfg fuel fs name kind incl excl with
  | error e =>
    constructor
    · intro h; cases h
    · rintro ⟨s, t, h, -⟩; cases h
  | ok s =>
    obtain ⟨f, src, -, -, o3, -⟩ := open_history h1
    have hR : Reachable ifs s.reader := .opened _ _ _ _ _ o3
    simp only [bind, Except.bind, pure, Except.pure]
    constructor
    · intro h
      cases h2 : s.op ifs .readAll with
      | error e => rw [h2] at h; cases h
      | ok t =>
        rw [h2] at h
        cases h
        exact ⟨s, t, rfl, ((C89_python hR t).1 n hn).mpr h2, rfl⟩
    · rintro ⟨s1, t, h, h2, rfl⟩
      cases h
      rw [((C89_python hR t).1 n hn).mp h2]

/-- **C89**, R, whole programs: the same. -/
theorem C89_r_read_sas (unique : List (List Byte) → List (List Byte)) (cfg : Cfg) (fuel : Nat) (fs : FileSystem)
    (name : List Byte) (kind : PyKind) (incl excl : RArg) (n : Nat) (hn : 1 ≤ n) (t : RSession IFStream) :
    rProgram unique cfg fuel fs name kind incl excl [.readAll] = .ok t ↔
      ∃ s, rOpen unique cfg fuel fs name kind incl excl = .ok s ∧ RSession.Loop unique ifs (.readRows n) s t := by
  unfold rProgram
  cases h1 : rOpen unique cfg fuel fs name kind incl excl with
  | error e =>
    constructor
    · intro h; cases h
    · rintro ⟨s, h, -⟩; cases h
  | ok s =>
    obtain ⟨f, src, -, -, o3, -⟩ := rOpen_inv h1
    have hR : Reachable ifs s.reader := .opened _ _ _ _ _ o3
    simp only [bind, Except.bind, RSession.ops]
    constructor
    · intro h
      cases h2 : s.op unique ifs .readAll with
      | error e => rw [h2] at h; cases h
      | ok t' =>
        rw [h2] at h
        cases h
        exact ⟨s, rfl, ((C89_r hR _).1 n hn).mpr h2⟩
    · rintro ⟨s1, h, h2⟩
      cases h
      rw [((C89_r hR t).1 n hn).mp h2]

theorem pair_of_fst {α β : Type} {x : α × β} {a : α} (h : x.1 = a) : x = (a, x.2) := by rw [← h]

/-- The file of the demonstration has three rows; the loop with `n = 2` ends with the second call. -/
example : Reader.Loop ifs (.readRows 2) Demo.reader (Demo.reader.step ifs .readAll).2 ∧
    (Demo.reader.run ifs [.readRows 2, .readRows 2]).1 = [.ok (.bool true), .ok (.bool false)] :=
  ⟨(C89_loop Demo.reachable 2 (by decide) _).mpr (pair_of_fst (by decide +kernel)), by decide +kernel⟩

/-- The calls need not be the same. -/
example : (∀ i, 1 ≤ asksFor (if i % 2 = 0 then .readRowNoSink else .skip 2)) ∧
    (Demo.reader.run ifs [.readRowNoSink, .skip 2, .readRow]).1.length = 3 ∧
    Got ((Demo.reader.run ifs [.readRowNoSink]).2.step ifs (.skip 2)).1 ∧
    (Demo.reader.run ifs [.readRowNoSink, .skip 2, .readRow]).1[2]? = some (.ok (.bool false)) :=
  ⟨fun i => by split <;> decide, by decide +kernel,
    by rw [show ((Demo.reader.run ifs [.readRowNoSink]).2.step ifs (.skip 2)).1 = .ok (.bool true) by decide +kernel]; rfl,
    by decide +kernel⟩

/-- `read_sas` on this file in Python comes back, so that the loops end. -/
example : ∃ s t, pyOpen Demo.cfg 10 (onlyFile Demo.file) (ascii "f") .data .none .none = .ok s ∧
    PySession.Loop ifs (.readRows 2) s t ∧ t.obj.cached.map (·.index.length) = some 3 := by
  have h : (readSas Demo.cfg 10 (onlyFile Demo.file) (ascii "f") .data .none .none).toOption.map
      (fun s => s.obj.cached.map (·.index.length)) = some (some 3) := by decide +kernel
  cases hs : readSas Demo.cfg 10 (onlyFile Demo.file) (ascii "f") .data .none .none with
  | error e => rw [hs] at h; cases h
  | ok s' =>
    rw [hs] at h
    obtain ⟨s, t, h1, h2, rfl⟩ := (C89_read_sas _ _ _ _ _ _ _ 2 (by decide) _).mp hs
    exact ⟨s, t, h1, h2, Option.some.inj h⟩

end Sas.Props
