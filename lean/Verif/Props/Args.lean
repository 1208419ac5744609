import Verif.Spec.Args
import Verif.Props.Reader
import Verif.Proofs.Float
import Verif.Proofs.NumText
import Verif.Demo

/-!
# Property C91: what Python and R programs pass to the reader arrives
-/

namespace Sas.Props

open Sas Spec

variable {σ : Type} {S : Source σ}

/-! ## Python -/

theorem toSize_iff {x : PyObject} {n : Nat} : x.toSize = some n ↔ IsSize x n := by
  constructor
  · intro h
    cases x with
    | int i =>
      unfold PyObject.toSize at h
      dsimp only at h
      by_cases hi : 0 ≤ i ∧ i < 2 ^ 64
      · rw [if_pos hi] at h
        have hn : i.toNat = n := Option.some.inj h
        have : i = (n : Int) := by omega
        subst this
        exact .int n (by omega)
      · rw [if_neg hi] at h
        cases h
    | bool b => cases b <;> (cases h; constructor)
    | _ => cases h
  · intro h
    cases h with
    | int n hn =>
      unfold PyObject.toSize
      dsimp only
      rw [if_pos ⟨by omega, by omega⟩, Int.toNat_natCast]
    | _ => rfl

theorem pyMethod_iff {name : List Byte} {args : List PyObject} {op : Op} :
    pyMethod name args = some op ↔ PyAsks (.call name args) op := by
  have plain : ∀ {o : Op}, noArgs o args = some op → args = [] ∧ op = o := by
    intro o h
    cases args with
    | nil => cases h; exact ⟨rfl, rfl⟩
    | cons x xs => cases h
  have count : ∀ {f : Nat → Op}, oneSize f args = some op → ∃ x n, args = [x] ∧ IsSize x n ∧ op = f n := by
    intro f h
    match args, h with
    | [x], h =>
      change x.toSize.map f = some op at h
      cases hx : x.toSize with
      | none => rw [hx] at h; cases h
      | some n => rw [hx] at h; cases h; exact ⟨x, n, rfl, toSize_iff.mp hx, rfl⟩
  constructor
  · intro h
    unfold pyMethod at h
    by_cases h1 : name = ascii "read_all"
    · rw [if_pos h1] at h
      obtain ⟨rfl, rfl⟩ := plain h
      subst h1
      exact .plain .readAll
    rw [if_neg h1] at h
    by_cases h2 : name = ascii "read_row"
    · rw [if_pos h2] at h
      obtain ⟨rfl, rfl⟩ := plain h
      subst h2
      exact .plain .readRow
    rw [if_neg h2] at h
    by_cases h3 : name = ascii "read_rows"
    · rw [if_pos h3] at h
      obtain ⟨x, n, rfl, hx, rfl⟩ := count h
      subst h3
      exact .count (.readRows n) hx
    rw [if_neg h3] at h
    by_cases h4 : name = ascii "skip"
    · rw [if_pos h4] at h
      obtain ⟨x, n, rfl, hx, rfl⟩ := count h
      subst h4
      exact .count (.skip n) hx
    rw [if_neg h4] at h
    by_cases h5 : name = ascii "end_of_data"
    · rw [if_pos h5] at h
      obtain ⟨rfl, rfl⟩ := plain h
      subst h5
      exact .plain .endOfData
    rw [if_neg h5] at h
    cases h
  · intro h
    cases h with
    | plain h => cases h <;> decide
    | count h hx =>
      have hx := toSize_iff.mpr hx
      cases h with
      | readRows n =>
        unfold pyMethod
        rw [if_neg (by decide), if_neg (by decide), if_pos rfl]
        unfold oneSize
        dsimp only
        rw [hx]
        rfl
      | skip n =>
        unfold pyMethod
        rw [if_neg (by decide), if_neg (by decide), if_neg (by decide), if_pos rfl]
        unfold oneSize
        dsimp only
        rw [hx]
        rfl

theorem tells_of (r : Res Ret) (h : ∀ p, r ≠ .ok (.ptr p)) : Tells r (Reply.of r) := by
  match r with
  | .ok .unit => exact .unit
  | .ok (.bool b) => exact .bool b
  | .ok (.ptr p) => exact absurd rfl (h p)
  | .error (.exn e) => exact .exn e
  | .error .terminate => exact .terminate
  | .error .ub => exact .ub
  | .error .fuel => exact .fuel

theorem step_no_pointer (R : Reader σ) {op : Op} (h : op ≠ .readRowNoSink) : ∀ p, (R.step S op).1 ≠ .ok (.ptr p) := by
  intro p hp
  have bools : ∀ (x : Res Bool), x.map Ret.bool ≠ .ok (.ptr p) := by
    intro x hx
    cases x <;> cases hx
  have units : ∀ (x : Res Unit), x.map (fun _ => Ret.unit) ≠ .ok (.ptr p) := by
    intro x hx
    cases x <;> cases hx
  cases op with
  | readRow => exact bools _ hp
  | readRows n => exact bools _ hp
  | readAll => exact units _ hp
  | skip n => exact bools _ hp
  | readRowNoSink => exact h rfl
  | endOfData => cases hp

theorem pyAsks_properties {name : List Byte} {args : List PyObject} {op : Op} (h : PyAsks (.call name args) op) :
    name ≠ ascii "properties" := by
  cases h with
  | plain h => cases h <;> decide
  | count h _ => cases h <;> decide

theorem pyAsks_sink {u : PyUse} {op : Op} (h : PyAsks u op) : op ≠ .readRowNoSink := by
  cases h with
  | plain h => cases h <;> simp
  | count h _ => cases h <;> simp

/-- **C91**, Python: a call that asks for something makes the C++ call, with the number that was passed, and the program is
told its result. -/
theorem C91_python (R : Reader σ) {u : PyUse} {op : Op} (h : PyAsks u op) :
    Tells (R.step S op).1 (pyUse S R u).1 ∧ (pyUse S R u).2 = (R.step S op).2 := by
  cases u with
  | index => cases h
  | call name args =>
    have hm := pyMethod_iff.mpr h
    unfold pyUse
    dsimp only
    rw [if_neg (pyAsks_properties h), hm]
    exact ⟨tells_of _ (step_no_pointer R (pyAsks_sink h)), rfl⟩

/-- **C91**, Python: any other call, with numbers that are negative, too large or no integers, with too many or too few
arguments, or of a method that does not exist, raises an exception and leaves the reader as it was. -/
theorem C91_python_raises (R : Reader σ) (name : List Byte) (args : List PyObject)
    (h : ∀ op, ¬ PyAsks (.call name args) op) (hp : (name, args) ≠ (ascii "properties", [])) :
    pyUse S R (.call name args) = (.raised, R) := by
  by_cases h0 : name = ascii "properties"
  · subst h0
    cases args with
    | nil => exact absurd rfl hp
    | cons x xs => rfl
  cases hm : pyMethod name args with
  | some op => exact absurd (pyMethod_iff.mp hm) (h op)
  | none =>
    unfold pyUse
    dsimp only
    rw [if_neg h0, hm]

/-- **C91**, Python: `current_row_index` is the index, whatever its size; looking at it or at the properties changes
nothing. -/
theorem C91_python_index (R : Reader σ) : pyUse S R .index = (.int R.currentRowIndex, R) ∧
    pyUse S R (.call (ascii "properties") []) = (.properties, R) := ⟨rfl, rfl⟩

/-- A crash ends a history. -/
theorem run_cons_dies {R : Reader σ} {op : Op} {ops : List Op} {s : Stop} (h : (R.step S op).1 = .error s)
    (hs : ∀ e, s ≠ .exn e) : (R.run S (op :: ops)).2 = (R.step S op).2 := by
  unfold Reader.run
  generalize R.step S op = x at h
  obtain ⟨r, R'⟩ := x
  dsimp only at h
  subst h
  cases s with
  | exn e => exact absurd rfl (hs e)
  | _ => rfl

theorem run_cons_goes {R : Reader σ} {op : Op} {ops : List Op} (h : ∀ s, (R.step S op).1 = .error s → ∃ e, s = .exn e) :
    (R.run S (op :: ops)).2 = ((R.step S op).2.run S ops).2 := by
  conv_lhs => unfold Reader.run
  generalize R.step S op = x at h
  obtain ⟨(s | v), R'⟩ := x
  · obtain ⟨e, rfl⟩ := h s rfl
    rfl
  · rfl

/-- **C91**, Python: whatever a program does with its reader, the reader does what a C++ program makes it do that calls the
same methods with the same numbers: what is proved of all histories of calls holds of Python programs. -/
theorem C91_python_script (us : List PyUse) : ∀ (R : Reader σ), ∃ ops, Asked PyAsks us ops ∧ .readRowNoSink ∉ ops ∧
    (pyScript S R us).2 = (R.run S ops).2 := by
  induction us with
  | nil => exact fun R => ⟨[], .nil, by simp, rfl⟩
  | cons u us ih =>
    intro R
    by_cases h : ∃ op, PyAsks u op
    · obtain ⟨op, h⟩ := h
      obtain ⟨k1, k2⟩ := C91_python (S := S) R h
      obtain ⟨ops, g1, g2, g3⟩ := ih (R.step S op).2
      refine ⟨op :: ops, .op h g1, ?_, ?_⟩
      · rw [List.mem_cons, not_or]
        exact ⟨(pyAsks_sink h).symm, g2⟩
      · unfold pyScript
        generalize hx : pyUse S R u = x at k1 k2
        obtain ⟨r, R'⟩ := x
        dsimp only at k1 k2 ⊢
        subst k2
        generalize hy : (R.step S op).1 = y at k1
        have dies : ∀ s, y = .error s → (∀ e, s ≠ .exn e) → (R.step S op).2 = (R.run S (op :: ops)).2 :=
          fun s h1 h2 => (run_cons_dies (by rw [hy, h1]) h2).symm
        have goes : (∀ s, y = .error s → ∃ e, s = .exn e) →
            (pyScript S (R.step S op).2 us).2 = (R.run S (op :: ops)).2 :=
          fun h1 => by rw [run_cons_goes (by rw [hy]; exact h1), g3]
        cases k1 with
        | unit => exact goes (fun s h => by cases h)
        | bool b => exact goes (fun s h => by cases h)
        | exn e => exact goes (fun s h => by cases h; exact ⟨e, rfl⟩)
        | terminate => exact dies _ rfl (by simp)
        | ub => exact dies _ rfl (by simp)
        | fuel => exact dies _ rfl (by simp)
    · rw [not_exists] at h
      obtain ⟨ops, g1, g2, g3⟩ := ih R
      refine ⟨ops, .other h g1, g2, ?_⟩
      rw [← g3]
      cases u with
      | index => rfl
      | call name args =>
        by_cases hp : (name, args) = (ascii "properties", [])
        · cases hp
          rfl
        · conv_lhs => unfold pyScript
          rw [C91_python_raises R name args h hp]
          rfl

/-- Three rows; `-1`, `1.5`, a missing argument and a method that does not exist are refused, `True` is 1. -/
example : (pyScript ifs Demo.reader [.call (ascii "read_rows") [.int (-1)], .call (ascii "skip") [.float (.fin (3/2))],
      .call (ascii "read_rows") [], .call (ascii "rewind") [], .call (ascii "read_rows") [.bool true], .index,
      .call (ascii "skip") [.int (2 ^ 64)], .call (ascii "read_all") [], .index]).1 =
    [.raised, .raised, .raised, .raised, .bool true, .int 1, .raised, .nothing, .int 3] := by
  decide +kernel

/-! ## R -/

theorem floor_toNat {q : ℚ} (hq : -1 < q) :
    ((q.floor.toNat : ℚ) ≤ q ∧ q < q.floor.toNat + 1) ∨ (q.floor.toNat = 0 ∧ -1 < q ∧ q < 0) := by
  have f1 := Rat.floor_le q
  have f2 := Rat.lt_floor_add_one q
  push_cast at f2
  by_cases h : 0 ≤ q
  · left
    have h0 : 0 ≤ q.floor := Rat.le_floor_iff.2 (by exact_mod_cast h)
    have h1 : ((q.floor.toNat : Int) : ℚ) = (q.floor : ℚ) := by rw [Int.toNat_of_nonneg h0]
    rw [Int.cast_natCast] at h1
    rw [h1]
    exact ⟨f1, f2⟩
  · right
    have h0 : (q.floor : ℚ) < ((0 : Int) : ℚ) := by push_cast; linarith
    have h1 : q.floor < 0 := by exact_mod_cast h0
    exact ⟨by omega, hq, by linarith⟩

theorem floor_of {q : ℚ} {n : Nat} (h : ((n : ℚ) ≤ q ∧ q < n + 1) ∨ (n = 0 ∧ -1 < q ∧ q < 0)) : q.floor.toNat = n := by
  rcases h with ⟨h1, h2⟩ | ⟨rfl, h1, h2⟩
  · rw [Proofs.floor_eq (n := n) (by exact_mod_cast h1) (by exact_mod_cast h2)]
    rfl
  · rw [Proofs.floor_eq (n := -1) (by push_cast; linarith) (by push_cast; linarith)]
    rfl

theorem doubleToSize_ok {q : ℚ} {n : Nat} (h : ((n : ℚ) ≤ q ∧ q < n + 1) ∨ (n = 0 ∧ -1 < q ∧ q < 0)) (hn : n < 2 ^ 64) :
    doubleToSize (.fin q) = .ok n := by
  unfold doubleToSize
  dsimp only
  have hn' : (n : ℚ) + 1 ≤ 2 ^ 64 := by exact_mod_cast hn
  have h0 : (0 : ℚ) ≤ n := by positivity
  rw [if_pos, floor_of h]
  rcases h with ⟨h1, h2⟩ | ⟨-, h1, h2⟩
  · exact ⟨by linarith, by linarith⟩
  · exact ⟨h1, by linarith⟩

/-- What becomes of a number. -/
theorem rToSize (x : RValue) :
    (∃ (q : ℚ) (n : Nat), IsNumber x q ∧ (((n : ℚ) ≤ q ∧ q < n + 1) ∨ (n = 0 ∧ -1 < q ∧ q < 0)) ∧ n < 2 ^ 64 ∧ x.toSize = .ok n) ∨
    (((∃ q, IsNumber x q ∧ (q ≤ -1 ∨ 2 ^ 64 ≤ q)) ∨ x = .int none ∨ x = .lgl none ∨ x = .double .nan ∨
      ∃ s, x = .double (.inf s)) ∧ x.toSize = .error (.dies .ub)) ∨
    (x = .other ∧ x.toSize = .error .raised) := by
  have fin : ∀ q : ℚ, IsNumber x q → x.toSize = doubleToSize (.fin q) →
      (∃ (q : ℚ) (n : Nat), IsNumber x q ∧ (((n : ℚ) ≤ q ∧ q < n + 1) ∨ (n = 0 ∧ -1 < q ∧ q < 0)) ∧ n < 2 ^ 64 ∧ x.toSize = .ok n) ∨
      ((∃ q, IsNumber x q ∧ (q ≤ -1 ∨ 2 ^ 64 ≤ q)) ∧ x.toSize = .error (.dies .ub)) := by
    intro q hq hx
    by_cases h : -1 < q ∧ q < 2 ^ 64
    · left
      have hf := floor_toNat h.1
      have hn : q.floor.toNat < 2 ^ 64 := by
        rcases hf with ⟨h1, h2⟩ | ⟨h1, -⟩
        · have : (q.floor.toNat : ℚ) < ((2 ^ 64 : Nat) : ℚ) := by push_cast; linarith [h.2]
          exact_mod_cast this
        · rw [h1]; decide
      exact ⟨q, _, hq, hf, hn, hx.trans (doubleToSize_ok hf hn)⟩
    · right
      refine ⟨⟨q, hq, ?_⟩, ?_⟩
      · by_contra hc
        rw [not_or, not_le, not_le] at hc
        exact h hc
      · rw [hx]
        unfold doubleToSize
        dsimp only
        rw [if_neg h]
  cases x with
  | double x =>
    cases x with
    | fin q => rcases fin q (.double q) rfl with h | ⟨h1, h2⟩; exacts [.inl h, .inr (.inl ⟨.inl h1, h2⟩)]
    | nan => exact .inr (.inl ⟨.inr (.inr (.inr (.inl rfl))), rfl⟩)
    | inf s => exact .inr (.inl ⟨.inr (.inr (.inr (.inr ⟨s, rfl⟩))), rfl⟩)
  | int i =>
    cases i with
    | some i => rcases fin i (.int i) rfl with h | ⟨h1, h2⟩; exacts [.inl h, .inr (.inl ⟨.inl h1, h2⟩)]
    | none => exact .inr (.inl ⟨.inr (.inl rfl), rfl⟩)
  | lgl b =>
    match b with
    | some true => exact .inl ⟨1, 1, .true, .inl ⟨by norm_num, by norm_num⟩, by decide, rfl⟩
    | some false => exact .inl ⟨0, 0, .false, .inl ⟨by norm_num, by norm_num⟩, by decide, rfl⟩
    | none => exact .inr (.inl ⟨.inr (.inr (.inl rfl)), rfl⟩)
  | other => exact .inr (.inr ⟨rfl, rfl⟩)

theorem isNumber_unique {x : RValue} {q q' : ℚ} (h : IsNumber x q) (h' : IsNumber x q') : q = q' := by
  cases h <;> cases h' <;> rfl

theorem counting_rMethod {name : List Byte} {n : Nat} {op : Op} (h : Counting name n op) :
    ∃ f : Nat → Op, op = f n ∧ (name = ascii "read_rows" ∨ name = ascii "skip") ∧
      ∀ args, rMethod name args = rOneSize f args := by
  cases h with
  | readRows n =>
    refine ⟨.readRows, rfl, .inl rfl, fun args => ?_⟩
    unfold rMethod
    rw [if_neg (by decide), if_neg (by decide), if_pos rfl]
  | skip n =>
    refine ⟨.skip, rfl, .inr rfl, fun args => ?_⟩
    unfold rMethod
    rw [if_neg (by decide), if_neg (by decide), if_neg (by decide), if_pos rfl]

theorem rAsks_method {u : List Byte × List RValue} {op : Op} (h : RAsks u op) :
    rMethod u.1 u.2 = .ok op ∧ u.1 ≠ ascii "current_row_index" ∧ u.1 ≠ ascii "properties" ∧ op ≠ .readRowNoSink := by
  cases h with
  | plain h => cases h <;> refine ⟨rfl, by decide, by decide, by simp⟩
  | count h hx hq hn =>
    rename_i name n x q
    refine ⟨?_, by cases h <;> (dsimp only; decide), by cases h <;> (dsimp only; decide), by cases h <;> simp⟩
    obtain ⟨f, rfl, -, hm⟩ := counting_rMethod h
    dsimp only
    rw [hm]
    have : x.toSize = .ok n := by
      have hd := doubleToSize_ok hq hn
      cases hx with
      | double q => exact hd
      | int i => exact hd
      | true => rw [← hd, doubleToSize_ok (n := 1) (.inl ⟨by norm_num, by norm_num⟩) (by decide)]; rfl
      | false => rw [← hd, doubleToSize_ok (n := 0) (.inl ⟨by norm_num, by norm_num⟩) (by decide)]; rfl
    unfold rOneSize
    dsimp only
    rw [this]
    rfl

/-- **C91**, R, partial: a call that asks for something makes the C++ call, with the number that was passed, without its
fraction, and the program is told its result. Missing, and false (`C91_r_wild_refuted`): numbers that are negative or too
large, missing values. -/
theorem C91_r_partial (R : Reader σ) {u : List Byte × List RValue} {op : Op} (h : RAsks u op) :
    Tells (R.step S op).1 (rUse S R u.1 u.2).1 ∧ (rUse S R u.1 u.2).2 = (R.step S op).2 := by
  obtain ⟨h1, h2, h2', h3⟩ := rAsks_method h
  unfold rUse
  rw [if_neg h2, if_neg h2', h1]
  exact ⟨tells_of _ (step_no_pointer R h3), rfl⟩

theorem wild_method {u : List Byte × List RValue} (h : RWild u) :
    rMethod u.1 u.2 = .error (.dies .ub) ∧ u.1 ≠ ascii "current_row_index" ∧ u.1 ≠ ascii "properties" := by
  obtain ⟨name, args⟩ := u
  obtain ⟨hname, x, rfl, hx⟩ := h
  dsimp only at hname ⊢
  have key : x.toSize = .error (.dies .ub) := by
    rcases rToSize x with ⟨q, n, g1, g2, g3, -⟩ | ⟨-, g⟩ | ⟨rfl, -⟩
    · exfalso
      have hn' : (n : ℚ) + 1 ≤ 2 ^ 64 := by exact_mod_cast g3
      have h0 : (0 : ℚ) ≤ n := by positivity
      rcases hx with ⟨q', k1, k2⟩ | rfl | rfl | rfl | ⟨s, rfl⟩
      · have := isNumber_unique g1 k1
        subst this
        rcases g2 with ⟨g4, g5⟩ | ⟨-, g4, g5⟩ <;> rcases k2 with k2 | k2 <;> linarith
      · cases g1
      · cases g1
      · cases g1
      · cases g1
    · exact g
    · rcases hx with ⟨q', k1, -⟩ | h | h | h | ⟨s, h⟩
      · cases k1
      all_goals cases h
  rcases hname with rfl | rfl
  · obtain ⟨f, -, -, hm⟩ := counting_rMethod (.readRows 0)
    rw [hm]
    refine ⟨?_, by decide, by decide⟩
    unfold rOneSize
    dsimp only
    rw [key]
    rfl
  · obtain ⟨f, -, -, hm⟩ := counting_rMethod (.skip 0)
    rw [hm]
    refine ⟨?_, by decide, by decide⟩
    unfold rOneSize
    dsimp only
    rw [key]
    rfl

/-- **C91** is false in R of numbers that are negative or too large and of missing values: the behaviour of the program is
undefined, for every reader. -/
theorem C91_r_wild_refuted (R : Reader σ) {u : List Byte × List RValue} (h : RWild u) :
    rUse S R u.1 u.2 = (.dies .ub, R) := by
  obtain ⟨h1, h2, h3⟩ := wild_method h
  unfold rUse
  rw [if_neg h2, if_neg h3, h1]

/-- **C91**, R: any other call raises an error and leaves the reader as it was. -/
theorem C91_r_raises (R : Reader σ) {u : List Byte × List RValue} (h : ∀ op, ¬ RAsks u op) (hw : ¬ RWild u)
    (hi : u ≠ (ascii "current_row_index", [])) (hp : u ≠ (ascii "properties", [])) : rUse S R u.1 u.2 = (.raised, R) := by
  obtain ⟨name, args⟩ := u
  dsimp only
  unfold rUse
  by_cases h0 : name = ascii "current_row_index"
  · rw [if_pos h0]
    subst h0
    cases args with
    | nil => exact absurd rfl hi
    | cons x xs => rfl
  by_cases h0' : name = ascii "properties"
  · rw [if_neg h0, if_pos h0']
    subst h0'
    cases args with
    | nil => exact absurd rfl hp
    | cons x xs => rfl
  · rw [if_neg h0, if_neg h0']
    have key : rMethod name args = .error .raised := by
      have plain : ∀ op, Plainly name op → rNoArgs op args = .error .raised := by
        intro op hpl
        cases args with
        | nil => exact absurd (.plain hpl) (h op)
        | cons x xs => rfl
      have count : ∀ f : Nat → Op, (∀ n, Counting name n (f n)) → (name = ascii "read_rows" ∨ name = ascii "skip") →
          rOneSize f args = .error .raised := by
        intro f hf hname
        match args with
        | [] => rfl
        | [x] =>
          rcases rToSize x with ⟨q, n, g1, g2, g3, -⟩ | ⟨g, -⟩ | ⟨rfl, g⟩
          · exact absurd (.count (hf n) g1 g2 g3) (h _)
          · exact absurd ⟨hname, x, rfl, g⟩ hw
          · rfl
        | x :: y :: xs => rfl
      unfold rMethod
      by_cases h1 : name = ascii "read_all"
      · rw [if_pos h1]; exact plain _ (h1 ▸ .readAll)
      rw [if_neg h1]
      by_cases h2 : name = ascii "read_row"
      · rw [if_pos h2]; exact plain _ (h2 ▸ .readRow)
      rw [if_neg h2]
      by_cases h3 : name = ascii "read_rows"
      · rw [if_pos h3]; exact count _ (fun n => h3 ▸ .readRows n) (.inl h3)
      rw [if_neg h3]
      by_cases h4 : name = ascii "skip"
      · rw [if_pos h4]; exact count _ (fun n => h4 ▸ .skip n) (.inr h4)
      rw [if_neg h4]
      by_cases h5 : name = ascii "end_of_data"
      · rw [if_pos h5]; exact plain _ (h5 ▸ .endOfData)
      rw [if_neg h5]
    rw [key]

/-- **C91**, R: the index of the row is told exactly as long as it is at most 2^53; looking at it or at the properties changes
nothing. -/
theorem C91_r_index_partial (R : Reader σ) (h : R.currentRowIndex ≤ 2 ^ 53) :
    rUse S R (ascii "current_row_index") [] = (.double R.currentRowIndex, R) ∧
    rUse S R (ascii "properties") [] = (.properties, R) := by
  refine ⟨?_, rfl⟩
  unfold rUse
  rw [if_pos rfl]
  unfold rNoArgs
  dsimp only
  have hfl : fl ((R.currentRowIndex : Int) : ℚ) = ((R.currentRowIndex : Int) : ℚ) :=
    fl_int (by rw [abs_of_nonneg (by omega)]; exact_mod_cast h)
  rw [Int.cast_natCast] at hfl
  rw [hfl]

/-- **C91**, R, partial: whatever a program without such calls does with its reader, the reader does what a C++ program
makes it do that calls the same methods with the same numbers, without their fractions. -/
theorem C91_r_script_partial (us : List (List Byte × List RValue)) (hw : ∀ u ∈ us, ¬ RWild u) : ∀ (R : Reader σ),
    ∃ ops, Asked RAsks us ops ∧ .readRowNoSink ∉ ops ∧ (rScript S R us).2 = (R.run S ops).2 := by
  induction us with
  | nil => exact fun R => ⟨[], .nil, by simp, rfl⟩
  | cons u us ih =>
    intro R
    have ih := ih fun u hu => hw u (List.mem_cons_of_mem _ hu)
    by_cases h : ∃ op, RAsks u op
    · obtain ⟨op, h⟩ := h
      obtain ⟨k1, k2⟩ := C91_r_partial (S := S) R h
      obtain ⟨ops, g1, g2, g3⟩ := ih (R.step S op).2
      refine ⟨op :: ops, .op h g1, ?_, ?_⟩
      · rw [List.mem_cons, not_or]
        exact ⟨(rAsks_method h).2.2.2.symm, g2⟩
      · unfold rScript
        generalize hx : rUse S R u.1 u.2 = x at k1 k2
        obtain ⟨r, R'⟩ := x
        dsimp only at k1 k2 ⊢
        subst k2
        generalize hy : (R.step S op).1 = y at k1
        have dies : ∀ s, y = .error s → (∀ e, s ≠ .exn e) → (R.step S op).2 = (R.run S (op :: ops)).2 :=
          fun s h1 h2 => (run_cons_dies (by rw [hy, h1]) h2).symm
        have goes : (∀ s, y = .error s → ∃ e, s = .exn e) →
            (rScript S (R.step S op).2 us).2 = (R.run S (op :: ops)).2 :=
          fun h1 => by rw [run_cons_goes (by rw [hy]; exact h1), g3]
        cases k1 with
        | unit => exact goes (fun s h => by cases h)
        | bool b => exact goes (fun s h => by cases h)
        | exn e => exact goes (fun s h => by cases h; exact ⟨e, rfl⟩)
        | terminate => exact dies _ rfl (by simp)
        | ub => exact dies _ rfl (by simp)
        | fuel => exact dies _ rfl (by simp)
    · rw [not_exists] at h
      obtain ⟨ops, g1, g2, g3⟩ := ih R
      refine ⟨ops, .other h g1, g2, ?_⟩
      rw [← g3]
      by_cases hi : u = (ascii "current_row_index", [])
      · subst hi
        rfl
      by_cases hp : u = (ascii "properties", [])
      · subst hp
        rfl
      · conv_lhs => unfold rScript
        rw [C91_r_raises R h (hw u List.mem_cons_self) hi hp]
        rfl

/-- **C91** in R: a program that asks for half a row is told that it got what it asked for, and no row is read; it is told so
again and again. -/
theorem C91_r_half (R : Reader σ) : rUse S R (ascii "read_rows") [.double (.fin (1 / 2))] = (.bool true, R) := by
  obtain ⟨h1, h2, h3, -⟩ := rAsks_method (.count (.readRows 0) (.double (1 / 2)) (.inl ⟨by norm_num, by norm_num⟩) (by decide))
  unfold rUse
  rw [if_neg h2, if_neg h3, h1]
  rfl

example : (rScript ifs Demo.reader [(ascii "read_rows", [.double (.fin (3 / 2))]), (ascii "current_row_index", []),
      (ascii "skip", [.other]), (ascii "skip", [.lgl (some true)]), (ascii "read_all", [.int (some 1)]), (ascii "read_all", []),
      (ascii "current_row_index", []), (ascii "skip", [.int none]), (ascii "read_row", [])]).1 =
    [.bool true, .double 1, .raised, .bool true, .raised, .nothing, .double 3, .dies .ub] := by
  decide +kernel

end Sas.Props
