import Verif.Proofs.Throwing
import Verif.Props.Reader

/-!
# Property C72: a sink that throws loses no row
-/

namespace Sas.Props

open Sas Spec

variable {σ τ ε : Type}

/-- **C72.** Opening: there is a reader exactly when it could be opened for a sink that does not throw and
`set_properties` has returned. An exception of the sink reaches the caller as it is. -/
theorem C72_open (K : SinkCode τ ε) (cfg : Cfg) (S : Source σ) (fuel : Nat) (filter : Option Filter) (s : σ) (k : τ) :
    match openReader cfg S fuel filter s with
    | .error e => openThrowing K cfg S fuel filter s k = .error (.reader e)
    | .ok R =>
      match (K.call k (.setProperties R.props)).1 with
      | .error x => openThrowing K cfg S fuel filter s k = .error (.sink x)
      | .ok _ => openThrowing K cfg S fuel filter s k = .ok ⟨R, afterCalls K k R.trace⟩ := by
  cases h : openReader cfg S fuel filter s with
  | error e => simp [openThrowing, h]
  | ok R =>
    have ht : R.trace = [.setProperties R.props] := (openReader_spec h).2.2 
    dsimp only
    rcases hc : K.call k (.setProperties R.props) with ⟨(x | u), k'⟩
    · simp [openThrowing, h, hc]
    · simp [openThrowing, h, hc, ht, afterCalls]

/-- **C72.** One call, with any sink. The calls it has made on the sink are those by which the trace has grown. None of
them has thrown, or the last one was the first to throw and its exception is what the caller gets. -/
theorem C72_call (K : SinkCode τ ε) (S : Source σ) (T : TReader σ τ) (op : Op) :
    ∃ es, (T.step K S op).2.reader.trace = T.reader.trace ++ es ∧ (T.step K S op).2.sink = afterCalls K T.sink es ∧
      match (T.step K S op).1 with
      | .error (.sink x) => ∃ before e, es = before ++ [e] ∧ Quiet K T.sink before ∧
          (K.call (afterCalls K T.sink before) e).1 = .error x
      | _ => Quiet K T.sink es := by
  obtain ⟨-, es, h1, h2, h3⟩ := step_like (K := K) (S := S) T op
  refine ⟨es, h1, h2, ?_⟩
  match (T.step K S op).1, h3 with
  | .ok v, h3 => exact h3
  | .error (.reader e), h3 => exact h3
  | .error (.sink x), h3 => exact h3

/-- **C72.** Histories: every history with a sink that throws, the caller catching the exceptions and going on, is one
with a sink that does not throw, in which the calls that were interrupted have read fewer rows. All other calls
return the same; the reader is in the same state; and the sink has got the same calls. -/
theorem C72_histories (K : SinkCode τ ε) (S : Source σ) (T : TReader σ τ) (ops : List Op) :
    ∃ ops', Explained ops (T.run K S ops).1 ops' (T.reader.run S ops').1 ∧
      (T.run K S ops).2.reader = (T.reader.run S ops').2 := by
  obtain ⟨ops', h1, h2, -⟩ := run_like (K := K) (S := S) ops T
  exact ⟨ops', h1, h2.symm⟩

/-- **C72.** The protocol of C08, for any sink: `set_properties` comes first and only once, the indices of the rows
increase, so that no row comes twice, not even one the sink has thrown at. -/
theorem C72_protocol (K : SinkCode τ ε) {cfg : Cfg} {S : Source σ} {fuel : Nat} {filter : Option Filter} {s : σ} {k : τ}
    {T : TReader σ τ} (h : openThrowing K cfg S fuel filter s k = .ok T) (ops : List Op) :
    ∃ rest, (T.run K S ops).2.reader.trace = .setProperties T.reader.props :: rest ∧
      (T.run K S ops).2.reader.props = T.reader.props ∧
      (T.run K S ops).2.sink = afterCalls K k (.setProperties T.reader.props :: rest) ∧
      (∀ p, Event.setProperties p ∉ rest) ∧
      ((pushes rest).map Prod.fst).Pairwise (· < ·) ∧
      ∀ i ∈ (pushes rest).map Prod.fst, i < T.reader.props.md.rowCount := by
  have ho := C72_open K cfg S fuel filter s k
  cases hR : openReader cfg S fuel filter s with
  | error e => rw [hR] at ho; rw [show openThrowing K cfg S fuel filter s k = _ from ho] at h; cases h
  | ok R =>
    rw [hR] at ho
    dsimp only at ho
    have hT : T = ⟨R, afterCalls K k R.trace⟩ := by
      cases hc : (K.call k (.setProperties R.props)).1 with
      | error x => rw [hc] at ho; rw [show openThrowing K cfg S fuel filter s k = _ from ho] at h; cases h
      | ok u => rw [hc] at ho; rw [show openThrowing K cfg S fuel filter s k = _ from ho] at h; cases h; rfl
    subst hT
    obtain ⟨ops', -, h2, es, h3, h4, -⟩ := run_like (K := K) (S := S) ops ⟨R, afterCalls K k R.trace⟩
    obtain ⟨rest, p1, p2, p3, p4, p5⟩ := C08_protocol hR ops'
    dsimp only at h2 h3 h4 ⊢
    have hr : rest = es := by
      rw [h2, h3, show R.trace = [.setProperties R.props] from (openReader_spec hR).2.2] at p1
      simpa using p1.symm
    refine ⟨rest, by rw [← h2]; exact p1, by rw [← h2]; exact p2, ?_, p3, p4, p5⟩
    rw [h4, ← hr, ← afterCalls_append, show R.trace = [.setProperties R.props] from (openReader_spec hR).2.2]
    rfl

/-- Does this result of this call tell the caller that there are no more rows? -/
def tellsEnd (op : Op) : TRes ε Ret → Bool
  | .ok v => reportsEnd op (.ok v)
  | .error _ => false

theorem explained_reads {ops ops' : List Op} {rs : List (TRes ε Ret)} {rs' : List (Res Ret)}
    (h : Explained ops rs ops' rs') (hr : ∀ op ∈ ops, isRead op = true) : ∀ op ∈ ops', isRead op = true := by
  induction h with
  | nil ops => simp
  | ok op v h ih | reader op e h ih =>
    intro o ho
    rcases List.mem_cons.1 ho with rfl | ho
    · exact hr _ List.mem_cons_self
    · exact ih (fun o h => hr o (List.mem_cons_of_mem _ h)) o ho
  | sink op op' x v hc h ih =>
    intro o ho
    rcases List.mem_cons.1 ho with rfl | ho
    · cases hc with
      | whole => exact hr _ List.mem_cons_self
      | rows => rfl
      | all => rfl
    · exact ih (fun o h => hr o (List.mem_cons_of_mem _ h)) o ho

theorem explained_end {ops ops' : List Op} {rs : List (TRes ε Ret)} {rs' : List (Res Ret)}
    (h : Explained ops rs ops' rs') (he : ∃ x ∈ ops.zip rs, tellsEnd x.1 x.2 = true) :
    ∃ x ∈ ops'.zip rs', reportsEnd x.1 x.2 = true := by
  induction h with
  | nil ops => obtain ⟨x, hx, -⟩ := he; simp at hx
  | ok op v h ih =>
    obtain ⟨x, hx, hx2⟩ := he
    rcases List.mem_cons.1 hx with rfl | hx
    · exact ⟨_, List.mem_cons_self, hx2⟩
    · obtain ⟨y, hy, hy2⟩ := ih ⟨x, hx, hx2⟩
      exact ⟨y, List.mem_cons_of_mem _ hy, hy2⟩
  | reader op e h ih =>
    obtain ⟨x, hx, hx2⟩ := he
    rcases List.mem_cons.1 hx with rfl | hx
    · cases hx2
    · obtain ⟨y, hy, hy2⟩ := ih ⟨x, hx, hx2⟩
      exact ⟨y, List.mem_cons_of_mem _ hy, hy2⟩
  | sink op op' x v hc h ih =>
    obtain ⟨x, hx, hx2⟩ := he
    rcases List.mem_cons.1 hx with rfl | hx
    · cases hx2
    · obtain ⟨y, hy, hy2⟩ := ih ⟨x, hx, hx2⟩
      exact ⟨y, List.mem_cons_of_mem _ hy, hy2⟩

/-- **C72.** No row is lost. The reads of a program are interrupted by a sink that throws, any number of times, and
repeated; as soon as one of them has told it that there are no more rows, the sink has got exactly the rows `read_all`
gives to a sink that does not throw, each once and in order; and before, the first of them. -/
theorem C72_rows (K : SinkCode τ ε) {S : Source σ} {T : TReader σ τ} (hR : Reachable S T.reader)
    (hall : (T.reader.step S .readAll).1 = .ok .unit) (ops : List Op) (hr : ∀ op ∈ ops, isRead op = true) :
    pushes (T.run K S ops).2.reader.trace <+: pushes (T.reader.step S .readAll).2.trace ∧
    ((∃ x ∈ ops.zip (T.run K S ops).1, tellsEnd x.1 x.2 = true) →
      pushes (T.run K S ops).2.reader.trace = pushes (T.reader.step S .readAll).2.trace) := by
  obtain ⟨ops', h1, h2, -⟩ := run_like (K := K) (S := S) ops T
  obtain ⟨g1, g2⟩ := C02_readAll hR ops' (explained_reads h1 hr) hall
  rw [← h2]
  exact ⟨g1, fun he => g2 (explained_end h1 he)⟩

/-- **C72.** A sink that does not throw in any of the calls made on it: every call returns what it returns in Reader.lean, and
the sink gets the calls of the trace. -/
theorem C72_quiet (K : SinkCode τ ε) {S : Source σ} (T : TReader σ τ) (hq : ∀ k e, (K.call k e).1 = .ok ()) (ops : List Op) :
    (T.run K S ops).1 = (T.reader.run S ops).1.map
      (fun r => match r with | .ok v => .ok v | .error e => .error (.reader e)) ∧
    (T.run K S ops).2.reader = (T.reader.run S ops).2 := by
  have one : ∀ (T : TReader σ τ) op, ∀ x, (T.step K S op).1 ≠ .error (.sink x) := by
    intro T op x hx
    obtain ⟨es, -, -, h3⟩ := C72_call K S T op
    rw [hx] at h3
    obtain ⟨b, e, -, -, h⟩ := h3
    rw [hq] at h
    cases h
  induction ops generalizing T with
  | nil => exact ⟨rfl, rfl⟩
  | cons op ops ih =>
    have hne := one T op
    obtain ⟨h1, -⟩ := step_like (K := K) (S := S) T op
    rw [TReader.run, Reader.run]
    rcases hx : T.step K S op with ⟨((e | x) | v), T1⟩
    · rw [hx] at h1
      rw [show T.reader.step S op = (.error e, T1.reader) from h1]
      obtain ⟨g1, g2⟩ := ih T1
      cases e with
      | exn e =>
        dsimp only
        rw [g1, g2]
        exact ⟨rfl, rfl⟩
      | terminate => exact ⟨rfl, rfl⟩
      | ub => exact ⟨rfl, rfl⟩
      | fuel => exact ⟨rfl, rfl⟩
    · exact absurd (by rw [hx]) (hne x)
    · rw [hx] at h1
      rw [show T.reader.step S op = (.ok v, T1.reader) from h1]
      obtain ⟨g1, g2⟩ := ih T1
      dsimp only
      rw [g1, g2]
      exact ⟨rfl, rfl⟩

/-! ## Cases -/

/-- A sink that throws in every second call. -/
def everySecond : SinkCode Nat Unit where
  call n _ := (if n % 2 = 1 then .error () else .ok (), n + 1)

/-- The three rows of the demonstration file: `read_all` is interrupted at the first and at the third of them. The last call
comes to the end. Every row was handed over once. -/
example : ∃ T, openThrowing everySecond Demo.cfg ifs 10 none (IFStream.open Demo.file) 0 = .ok T ∧
    (T.run everySecond ifs [.readAll, .readAll, .readAll]).1 = [.error (.sink ()), .error (.sink ()), .ok .unit] ∧
    (pushes (T.run everySecond ifs [.readAll, .readAll, .readAll]).2.reader.trace).map Prod.fst = [0, 1, 2] ∧
    (T.run everySecond ifs [.readAll, .readAll, .readAll]).2.sink = 5 := by
  refine ⟨⟨Demo.reader, 1⟩, ?_, by decide +kernel, by decide +kernel, by decide +kernel⟩
  unfold openThrowing
  rw [show openReader Demo.cfg ifs 10 none (IFStream.open Demo.file) = .ok Demo.reader from Demo.opened_ok]
  rfl

/-- `set_properties` throws: no reader. -/
example : openThrowing everySecond Demo.cfg ifs 10 none (IFStream.open Demo.file) 1 = .error (.sink ()) := by
  unfold openThrowing
  rw [show openReader Demo.cfg ifs 10 none (IFStream.open Demo.file) = .ok Demo.reader from Demo.opened_ok]
  rfl

/-- The hypotheses of C72_rows and C72_quiet. -/
example : Reachable ifs Demo.reader ∧ (Demo.reader.step ifs .readAll).1 = .ok .unit :=
  ⟨.opened _ _ _ _ _ Demo.opened_ok, by decide +kernel⟩

end Sas.Props
