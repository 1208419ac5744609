import Verif.Spec.Throwing
import Verif.Proofs.Reader

namespace Sas

open Spec

variable {σ τ ε : Type} {K : SinkCode τ ε} {S : Source σ}

theorem afterCalls_append (k : τ) (a b : List Event) : afterCalls K k (a ++ b) = afterCalls K (afterCalls K k a) b := by
  unfold afterCalls
  rw [List.foldl_append]

theorem quiet_append : ∀ (a b : List Event) (k : τ), Quiet K k (a ++ b) ↔ Quiet K k a ∧ Quiet K (afterCalls K k a) b := by
  intro a
  induction a with
  | nil => intro b k; simp [Quiet, afterCalls]
  | cons e a ih =>
    intro b k
    simp only [List.cons_append, Quiet, ih, and_assoc]
    rfl

/-- What a call on the reader with a sink has to do with the one without. -/
def Like {α : Type} : TRes ε α → Res α → Prop
  | .ok v, r => r = .ok v
  | .error (.reader e), r => r = .error e
  | .error (.sink _), r => ∃ v, r = .ok v

/-- The calls of the sink between two states. -/
def Between (K : SinkCode τ ε) {α : Type} (T T' : TReader σ τ) (res : TRes ε α) : Prop :=
  ∃ es, T'.reader.trace = T.reader.trace ++ es ∧ T'.sink = afterCalls K T.sink es ∧ Outcome K T.sink es res

theorem Between.trans {α β : Type} {T T1 T2 : TReader σ τ} {r1 : TRes ε α} {r2 : TRes ε β} {v : α}
    (h1 : Between K T T1 r1) (hv : r1 = .ok v) (h2 : Between K T1 T2 r2) : Between K T T2 r2 := by
  subst hv
  obtain ⟨es1, a1, a2, a3⟩ := h1
  obtain ⟨es2, b1, b2, b3⟩ := h2
  refine ⟨es1 ++ es2, by rw [b1, a1, List.append_assoc], by rw [b2, a2, afterCalls_append], ?_⟩
  have q1 : Quiet K T.sink es1 := a3
  rw [a2] at b3
  match r2, b3 with
  | .ok w, b3 => exact (quiet_append _ _ _).2 ⟨q1, b3⟩
  | .error (.reader e), b3 => exact (quiet_append _ _ _).2 ⟨q1, b3⟩
  | .error (.sink x), ⟨before, e, c1, c2, c3⟩ =>
    exact ⟨es1 ++ before, e, by rw [c1, List.append_assoc], (quiet_append _ _ _).2 ⟨q1, c2⟩, by rw [afterCalls_append]; exact c3⟩

theorem Between.change {α β : Type} {T T' : TReader σ τ} {r : TRes ε α} {r' : TRes ε β} (h : Between K T T' r)
    (hr : ∀ es, Outcome K T.sink es r → Outcome K T.sink es r') : Between K T T' r' :=
  let ⟨es, h1, h2, h3⟩ := h
  ⟨es, h1, h2, hr es h3⟩

theorem outcome_map {α β : Type} {k : τ} {es : List Event} {r : TRes ε α} {f : α → β} (h : Outcome K k es r) :
    Outcome K k es (r.map f) := by
  match r, h with
  | .ok v, h => exact h
  | .error (.reader e), h => exact h
  | .error (.sink x), h => exact h

theorem emit_like (T : TReader σ τ) (e : Event) : (T.emit K e).2.reader = T.reader.emit e ∧
    Like (T.emit K e).1 (.ok ()) ∧ Between K T (T.emit K e).2 (T.emit K e).1 := by
  unfold TReader.emit
  rcases h : K.call T.sink e with ⟨(x | ⟨⟨⟩⟩), s⟩
  · refine ⟨rfl, ⟨(), rfl⟩, [e], rfl, ?_, [], e, rfl, trivial, ?_⟩
    · simp [afterCalls, h]
    · simp [afterCalls, h]
  · refine ⟨rfl, rfl, [e], rfl, ?_, ?_, trivial⟩
    · simp [afterCalls, h]
    · simp [h]

theorem readRow_like (T : TReader σ τ) : (T.readRow K S).2.reader = (T.reader.readRow S).2 ∧
    Like (T.readRow K S).1 (T.reader.readRow S).1 ∧ Between K T (T.readRow K S).2 (T.readRow K S).1 := by
  unfold TReader.readRow Reader.readRow
  dsimp only
  rcases T.reader.rd.readLine T.reader.env S T.reader.props.md with ⟨(e | (_ | row)), rd⟩
  · exact ⟨rfl, rfl, [], (List.append_nil _).symm, rfl, trivial⟩
  · dsimp only
    obtain ⟨h1, h2, es, h3, h4, h5⟩ := emit_like (K := K) ({ T with reader := { T.reader with rd := rd } } : TReader σ τ) .endOfData
    rcases hx : ({ T with reader := { T.reader with rd := rd } } : TReader σ τ).emit K .endOfData with ⟨(x | ⟨⟨⟩⟩), T1⟩
    · rw [hx] at h1 h2 h3 h4 h5
      cases x with
      | reader s => cases h2
      | sink x => exact ⟨h1, ⟨_, rfl⟩, es, h3, h4, h5⟩
    · rw [hx] at h1 h2 h3 h4 h5
      exact ⟨h1, rfl, es, h3, h4, h5⟩
  · dsimp only
    obtain ⟨h1, h2, es, h3, h4, h5⟩ := emit_like (K := K) ({ T with reader := { T.reader with rd := rd } } : TReader σ τ)
      (.pushRow T.reader.currentRowIndex row)
    rcases hx : ({ T with reader := { T.reader with rd := rd } } : TReader σ τ).emit K
      (.pushRow T.reader.currentRowIndex row) with ⟨(x | ⟨⟨⟩⟩), T1⟩
    · rw [hx] at h1 h2 h3 h4 h5
      cases x with
      | reader s => cases h2
      | sink x => exact ⟨h1, ⟨_, rfl⟩, es, h3, h4, h5⟩
    · rw [hx] at h1 h2 h3 h4 h5
      exact ⟨h1, rfl, es, h3, h4, h5⟩

theorem skip_like (T : TReader σ τ) (n : Nat) : (T.skip K S n).2.reader = (T.reader.skip S n).2 ∧
    Like (T.skip K S n).1 (T.reader.skip S n).1 ∧ Between K T (T.skip K S n).2 (T.skip K S n).1 := by
  unfold TReader.skip Reader.skip
  rcases T.reader.rd.skip T.reader.env S T.reader.props.md n with ⟨(e | (_ | _)), rd⟩
  · exact ⟨rfl, rfl, [], (List.append_nil _).symm, rfl, trivial⟩
  · dsimp only
    obtain ⟨h1, h2, es, h3, h4, h5⟩ := emit_like (K := K) ({ T with reader := { T.reader with rd := rd } } : TReader σ τ) .endOfData
    rcases hx : ({ T with reader := { T.reader with rd := rd } } : TReader σ τ).emit K .endOfData with ⟨(x | ⟨⟨⟩⟩), T1⟩
    · rw [hx] at h1 h2 h3 h4 h5
      cases x with
      | reader s => cases h2
      | sink x => exact ⟨h1, ⟨_, rfl⟩, es, h3, h4, h5⟩
    · rw [hx] at h1 h2 h3 h4 h5
      exact ⟨h1, rfl, es, h3, h4, h5⟩
  · exact ⟨rfl, rfl, [], (List.append_nil _).symm, rfl, trivial⟩

theorem noSink_like (T : TReader σ τ) :
    (TReader.readRowNoSink (ε := ε) S T).2.reader = (T.reader.readRowNoSink S).2 ∧
    Like (TReader.readRowNoSink (ε := ε) S T).1 (T.reader.readRowNoSink S).1 ∧
    Between K T (TReader.readRowNoSink (ε := ε) S T).2 (TReader.readRowNoSink (ε := ε) S T).1 := by
  unfold TReader.readRowNoSink Reader.readRowNoSink
  rcases T.reader.rd.readLine T.reader.env S T.reader.props.md with ⟨(e | r), rd⟩
  · exact ⟨rfl, rfl, [], (List.append_nil _).symm, rfl, trivial⟩
  · exact ⟨rfl, rfl, [], (List.append_nil _).symm, rfl, trivial⟩

/-- A call that reads rows, perhaps cut short after `k` of them. -/
def RowsLike {α : Type} (S : Source σ) (T T' : TReader σ τ) (whole : Res α × Reader σ) (n : Nat) : TRes ε α → Prop
  | .ok v => whole = (.ok v, T'.reader)
  | .error (.reader e) => whole = (.error e, T'.reader)
  | .error (.sink _) => ∃ k b, k ≤ n ∧ T.reader.readRows S k = (.ok b, T'.reader)

theorem readRows_like : ∀ (n : Nat) (T : TReader σ τ),
    RowsLike S T (T.readRows K S n).2 (T.reader.readRows S n) n (T.readRows K S n).1 ∧
    Between K T (T.readRows K S n).2 (T.readRows K S n).1 := by
  intro n
  induction n with
  | zero => intro T; exact ⟨rfl, [], (List.append_nil _).symm, rfl, trivial⟩
  | succ n ih =>
    intro T
    obtain ⟨h1, h2, h3⟩ := readRow_like (K := K) (S := S) T
    unfold TReader.readRows
    rcases hx : T.readRow K S with ⟨((e | x) | (_ | _)), T1⟩
    · rw [hx] at h1 h2 h3
      refine ⟨?_, h3⟩
      show Reader.readRows S (n + 1) T.reader = _
      unfold Reader.readRows
      rcases hy : T.reader.readRow S with ⟨r, R1⟩
      rw [hy] at h1 h2
      cases h2
      rw [← show T1.reader = R1 from h1]
    · rw [hx] at h1 h2 h3
      obtain ⟨b, hb⟩ := h2
      refine ⟨⟨1, b, by omega, ?_⟩, h3⟩
      unfold Reader.readRows
      rcases hy : T.reader.readRow S with ⟨r, R1⟩
      rw [hy] at h1 hb
      cases hb
      dsimp only
      rw [h1]
      cases b <;> rfl
    · rw [hx] at h1 h2 h3
      refine ⟨?_, h3⟩
      show Reader.readRows S (n + 1) T.reader = _
      unfold Reader.readRows
      rcases hy : T.reader.readRow S with ⟨r, R1⟩
      rw [hy] at h1 h2
      cases h2
      rw [← show T1.reader = R1 from h1]
    · rw [hx] at h1 h2 h3
      dsimp only
      obtain ⟨g1, g2⟩ := ih T1
      refine ⟨?_, h3.trans rfl g2⟩
      rcases hy : T.reader.readRow S with ⟨r, R1⟩
      rw [hy] at h1 h2
      cases h2
      have hR : T1.reader = R1 := h1
      have e : ∀ m, Reader.readRows S (m + 1) T.reader = Reader.readRows S m T1.reader := by
        intro m
        rw [Reader.readRows, hy, hR]
      rw [e n]
      match (T1.readRows K S n).1, g1 with
      | .ok v, g1 => exact g1
      | .error (.reader x), g1 => exact g1
      | .error (.sink x), ⟨k, b, k1, k2⟩ => exact ⟨k + 1, b, by omega, by rw [e k]; exact k2⟩

theorem readAllLoop_like : ∀ (n : Nat) (T : TReader σ τ),
    RowsLike S T (T.readAllLoop K S n).2 (T.reader.readAllLoop S n) n (T.readAllLoop K S n).1 ∧
    Between K T (T.readAllLoop K S n).2 (T.readAllLoop K S n).1 := by
  intro n
  induction n with
  | zero => intro T; exact ⟨rfl, [], (List.append_nil _).symm, rfl, trivial⟩
  | succ n ih =>
    intro T
    obtain ⟨h1, h2, h3⟩ := readRow_like (K := K) (S := S) T
    unfold TReader.readAllLoop
    rcases hx : T.readRow K S with ⟨((e | x) | (_ | _)), T1⟩
    · rw [hx] at h1 h2 h3
      refine ⟨?_, h3⟩
      show Reader.readAllLoop S (n + 1) T.reader = _
      unfold Reader.readAllLoop
      rcases hy : T.reader.readRow S with ⟨r, R1⟩
      rw [hy] at h1 h2
      cases h2
      rw [← show T1.reader = R1 from h1]
    · rw [hx] at h1 h2 h3
      obtain ⟨b, hb⟩ := h2
      refine ⟨⟨1, b, by omega, ?_⟩, h3⟩
      unfold Reader.readRows
      rcases hy : T.reader.readRow S with ⟨r, R1⟩
      rw [hy] at h1 hb
      cases hb
      dsimp only
      rw [h1]
      cases b <;> rfl
    · rw [hx] at h1 h2 h3
      refine ⟨?_, h3⟩
      show Reader.readAllLoop S (n + 1) T.reader = _
      unfold Reader.readAllLoop
      rcases hy : T.reader.readRow S with ⟨r, R1⟩
      rw [hy] at h1 h2
      cases h2
      rw [← show T1.reader = R1 from h1]
    · rw [hx] at h1 h2 h3
      dsimp only
      obtain ⟨g1, g2⟩ := ih T1
      refine ⟨?_, h3.trans rfl g2⟩
      rcases hy : T.reader.readRow S with ⟨r, R1⟩
      rw [hy] at h1 h2
      cases h2
      have hR : T1.reader = R1 := h1
      have e : ∀ m, Reader.readRows S (m + 1) T.reader = Reader.readRows S m T1.reader := by
        intro m
        rw [Reader.readRows, hy, hR]
      have e' : Reader.readAllLoop S (n + 1) T.reader = Reader.readAllLoop S n T1.reader := by
        rw [Reader.readAllLoop, hy, hR]
      rw [e']
      match (T1.readAllLoop K S n).1, g1 with
      | .ok v, g1 => exact g1
      | .error (.reader x), g1 => exact g1
      | .error (.sink x), ⟨k, b, k1, k2⟩ => exact ⟨k + 1, b, by omega, by rw [e k]; exact k2⟩

/-- What a call does to the reader, perhaps cut short. -/
def StepLike (S : Source σ) (T T' : TReader σ τ) (op : Op) : TRes ε Ret → Prop
  | .ok v => T.reader.step S op = (.ok v, T'.reader)
  | .error (.reader e) => T.reader.step S op = (.error e, T'.reader)
  | .error (.sink _) => ∃ op' v, CutShort op op' ∧ T.reader.step S op' = (.ok v, T'.reader)

theorem step_like (T : TReader σ τ) (op : Op) :
    StepLike S T (T.step K S op).2 op (T.step K S op).1 ∧ Between K T (T.step K S op).2 (T.step K S op).1 := by
  have key : ∀ {α : Type} (x : TRes ε α × TReader σ τ) (y : Res α × Reader σ) (f : α → Ret),
      x.2.reader = y.2 → Like x.1 y.1 → T.reader.step S op = (y.1.map f, y.2) → StepLike S T x.2 op (x.1.map f) := by
    intro α x y f h1 h2 h3
    rcases x with ⟨((e | e) | v), T1⟩
    · cases y; cases h1; cases h2; exact h3
    · obtain ⟨v, hv⟩ := h2
      cases y; cases h1; cases hv
      exact ⟨op, _, .whole op, h3⟩
    · cases y; cases h1; cases h2; exact h3
  have rows : ∀ {α : Type} (x : TRes ε α × TReader σ τ) (y : Res α × Reader σ) (n : Nat) (f : α → Ret),
      RowsLike S T x.2 y n x.1 → T.reader.step S op = (y.1.map f, y.2) → (∀ k, k ≤ n → CutShort op (.readRows k)) →
      StepLike S T x.2 op (x.1.map f) := by
    intro α x y n f h1 h3 h4
    rcases x with ⟨((e | e) | v), T1⟩
    · rw [show y = _ from h1] at h3; exact h3
    · obtain ⟨k, b, k1, k2⟩ := h1
      refine ⟨.readRows k, .bool b, h4 k k1, ?_⟩
      simp only [Reader.step, k2]
      rfl
    · rw [show y = _ from h1] at h3; exact h3
  cases op with
  | readRow =>
    obtain ⟨h1, h2, h3⟩ := readRow_like (K := K) (S := S) T
    exact ⟨key _ _ _ h1 h2 rfl, h3.change fun _ => outcome_map⟩
  | skip n =>
    obtain ⟨h1, h2, h3⟩ := skip_like (K := K) (S := S) T n
    exact ⟨key _ _ _ h1 h2 rfl, h3.change fun _ => outcome_map⟩
  | readRowNoSink =>
    obtain ⟨h1, h2, h3⟩ := noSink_like (K := K) (S := S) T
    exact ⟨key _ _ _ h1 h2 rfl, h3.change fun _ => outcome_map⟩
  | endOfData =>
    obtain ⟨h1, h2, h3⟩ := emit_like (K := K) T .endOfData
    exact ⟨key (T.emit K .endOfData) (.ok (), T.reader.emit .endOfData) (fun _ => .unit) h1 h2 rfl, h3.change fun _ => outcome_map⟩
  | readRows n =>
    obtain ⟨h1, h3⟩ := readRows_like (K := K) (S := S) n T
    exact ⟨rows _ _ n _ h1 rfl fun k hk => .rows n k hk, h3.change fun _ => outcome_map⟩
  | readAll =>
    obtain ⟨h1, h3⟩ := readAllLoop_like (K := K) (S := S) (T.reader.props.md.rowCount - T.reader.rd.row + 1) T
    exact ⟨rows _ _ _ _ h1 rfl fun k _ => .all k, h3.change fun _ => outcome_map⟩

theorem Between.refl (T : TReader σ τ) : Between (α := Unit) K T T (.ok ()) := ⟨[], (List.append_nil _).symm, rfl, trivial⟩

theorem run_like : ∀ (ops : List Op) (T : TReader σ τ), ∃ ops',
    Explained ops (T.run K S ops).1 ops' (T.reader.run S ops').1 ∧ (T.reader.run S ops').2 = (T.run K S ops).2.reader ∧
    ∃ es, (T.run K S ops).2.reader.trace = T.reader.trace ++ es ∧ (T.run K S ops).2.sink = afterCalls K T.sink es ∧
      ((∀ x, .error (.sink x) ∉ (T.run K S ops).1) → Quiet K T.sink es) := by
  intro ops
  induction ops with
  | nil =>
    intro T
    exact ⟨[], .nil _, rfl, [], (List.append_nil _).symm, rfl, fun _ => trivial⟩
  | cons op ops ih =>
    intro T
    obtain ⟨h1, es, h2, h3, h4⟩ := step_like (K := K) (S := S) T op
    unfold TReader.run
    rcases hx : T.step K S op with ⟨((e | x) | v), T1⟩
    · rw [hx] at h1 h2 h3 h4
      have h1 : T.reader.step S op = (.error e, T1.reader) := h1
      have stop : ∀ r : Res Ret, r = .error e → (∀ x, e ≠ .exn x) →
          Reader.run S T.reader [op] = ([.error e], T1.reader) := by
        intro r _ hne
        rw [Reader.run, h1]
        cases e with
        | exn x => exact absurd rfl (hne x)
        | _ => rfl
      cases e with
      | exn e =>
        dsimp only
        obtain ⟨ops', g1, g2, es2, g3, g4, g5⟩ := ih T1
        refine ⟨op :: ops', ?_, ?_, es ++ es2, ?_, ?_, ?_⟩
        · rw [Reader.run, h1]
          exact .reader _ _ g1
        · rw [Reader.run, h1]
          exact g2
        · rw [g3, h2, List.append_assoc]
        · rw [g4, h3, afterCalls_append]
        · intro hno
          rw [quiet_append]
          refine ⟨h4, ?_⟩
          rw [← h3]
          exact g5 fun x hm => hno x (List.mem_cons_of_mem _ hm)
      | terminate =>
        dsimp only
        have := stop (.error .terminate) rfl (by intros x h; cases h)
        refine ⟨[op], ?_, ?_, es, h2, h3, fun _ => h4⟩
        · rw [this]; exact .reader _ _ (.nil _)
        · rw [this]
      | ub =>
        dsimp only
        have := stop (.error .ub) rfl (by intros x h; cases h)
        refine ⟨[op], ?_, ?_, es, h2, h3, fun _ => h4⟩
        · rw [this]; exact .reader _ _ (.nil _)
        · rw [this]
      | fuel =>
        dsimp only
        have := stop (.error .fuel) rfl (by intros x h; cases h)
        refine ⟨[op], ?_, ?_, es, h2, h3, fun _ => h4⟩
        · rw [this]; exact .reader _ _ (.nil _)
        · rw [this]
    · rw [hx] at h1 h2 h3 h4
      obtain ⟨op', v, c1, c2⟩ := h1
      dsimp only
      obtain ⟨ops', g1, g2, es2, g3, g4, g5⟩ := ih T1
      refine ⟨op' :: ops', ?_, ?_, es ++ es2, ?_, ?_, ?_⟩
      · rw [Reader.run, c2]
        exact .sink _ _ _ _ c1 g1
      · rw [Reader.run, c2]
        exact g2
      · rw [g3, h2, List.append_assoc]
      · rw [g4, h3, afterCalls_append]
      · intro hno
        exact absurd (List.mem_cons_self) (hno x)
    · rw [hx] at h1 h2 h3 h4
      have h1 : T.reader.step S op = (.ok v, T1.reader) := h1
      dsimp only
      obtain ⟨ops', g1, g2, es2, g3, g4, g5⟩ := ih T1
      refine ⟨op :: ops', ?_, ?_, es ++ es2, ?_, ?_, ?_⟩
      · rw [Reader.run, h1]
        exact .ok _ _ g1
      · rw [Reader.run, h1]
        exact g2
      · rw [g3, h2, List.append_assoc]
      · rw [g4, h3, afterCalls_append]
      · intro hno
        rw [quiet_append]
        refine ⟨h4, ?_⟩
        rw [← h3]
        exact g5 fun x hm => hno x (List.mem_cons_of_mem _ hm)

end Sas
