import Verif.Proofs.PyCounts
import Verif.Props.PyRefs
import Verif.Props.PyThrowing
import Verif.Props.Args
import Verif.Proofs.Cli

/-!
# Property C71 for programs that catch exceptions

Any Python object as a sink, raising whenever it likes, keeping the lists it is given or not; any calls; any looks at the
dates of the header. The program catches every exception, goes on, and releases everything in the end.
-/

namespace Sas.Props

open Sas Spec Proofs

variable {σ κ : Type} {P : PyCode κ} {keep : κ → Event → Bool} {S : Source σ}

theorem catching_settled (cfg : Cfg) (fuel : Nat) (fs : FileSystem) (name : List Byte) (kind : PyKind) (incl excl : PyArg)
    (obj : κ) (ss : List RefStmt) (h : PyCounts) (h1 : 1 ≤ h.none) (h2 : h.aborted = false) (h3 : h.converted = []) :
    Owes h.immortal h.none 0 (catchingProgram P keep cfg fuel fs name kind incl excl obj ss h) := by
  have o : Owes h.immortal h.none 0 h :=
    ⟨rfl, fun _ => ⟨h2, rfl⟩, fun _ _ => ⟨h1, by rw [h3]; rfl⟩, fun _ x => absurd (h2.symm.trans x) (by simp)⟩
  unfold catchingProgram
  split
  · exact o
  · split
    · exact o
    · split
      · exact o
      · rename_i T hT
        have hs : Settled h.immortal h.none T.sink := by
          have := Settled.call (P := P) (keep := keep) (s := { live := { cpp := .start kind, obj := obj }, counts := h }) o
            (.setProperties T.reader.props)
          rwa [(opened_sink hT).1] at this
        have := Settled.run (P := P) (keep := keep) (S := ifs) ss hs
        unfold Settled at this
        rw [← Nat.zero_add (nones _)] at this
        exact this.release _

/-- **C71**, partial: the price of an exception. Whatever a program does and whatever raises on the way, in the end the
interpreter has lost exactly one reference to `None` for each missing datetime, date or time the library has converted, be
it in a list that was destroyed because a later value could not be converted, in a chunk the sink has refused, or in a
date of the header; it has been aborted exactly if it had no more than that. An immortal `None` is left alone. Missing,
and false: that nothing is lost (`C71_missing_refuted`, `C71_header_refuted`). -/
theorem C71_raising_partial (P : PyCode κ) (keep : κ → Event → Bool) (cfg : Cfg) (fuel : Nat) (fs : FileSystem) (name : List Byte)
    (kind : PyKind) (incl excl : PyArg) (obj : κ) (ss : List RefStmt) (h : PyCounts) (h1 : 1 ≤ h.none) (h2 : h.aborted = false)
    (h3 : h.converted = []) (e : PyCounts) (he : catchingProgram P keep cfg fuel fs name kind incl excl obj ss h = e) :
    (h.immortal = true → e.aborted = false ∧ e.none = h.none) ∧
      (h.immortal = false → (e.aborted = true ↔ h.none ≤ missingCount e.converted) ∧
        (e.aborted = false → e.none + missingCount e.converted = h.none)) := by
  have o := catching_settled (P := P) (keep := keep) cfg fuel fs name kind incl excl obj ss h h1 h2 h3
  rw [he] at o
  refine ⟨fun hi => o.immortal (o.imm.trans hi), fun hi => ?_⟩
  have hi' := o.imm.trans hi
  refine ⟨⟨o.dead hi', fun hm => ?_⟩, fun ha => (o.alive hi' ha).2⟩
  by_contra hn
  rw [Bool.not_eq_true] at hn
  have := o.alive hi' hn
  omega

/-- What the reader does in a program that catches exceptions is a history of calls. -/
theorem catching_reader (ss : List RefStmt) : ∀ (T : TReader σ (PyOwner κ)),
    ∃ ops, (T.reader.run S ops).2 = (catchingRun P keep S T ss).reader := by
  induction ss with
  | nil => exact fun T => ⟨[], rfl⟩
  | cons x ss ih =>
    intro T
    cases x with
    | call op =>
      obtain ⟨h1, -⟩ := step_like (K := pyOwnerCode P keep) (S := S) T op
      unfold catchingRun
      rcases hx : T.step (pyOwnerCode P keep) S op with ⟨((e | x) | v), T1⟩ <;> rw [hx] at h1
      · have h1 : T.reader.step S op = (.error e, T1.reader) := h1
        by_cases he : ∃ x, e = .exn x
        · obtain ⟨x, rfl⟩ := he
          obtain ⟨ops, h⟩ := ih T1
          refine ⟨op :: ops, ?_⟩
          rw [run_cons_goes (by rw [h1]; intro s hs; cases hs; exact ⟨_, rfl⟩), h1]
          exact h
        · refine ⟨[op], ?_⟩
          rw [run_cons_dies (s := e) (by rw [h1]) (fun x hx => he ⟨x, hx⟩), h1]
          cases e <;> first | rfl | exact absurd ⟨_, rfl⟩ he
      · obtain ⟨op', v, -, h1⟩ : ∃ op' v, CutShort op op' ∧ T.reader.step S op' = (.ok v, T1.reader) := h1
        obtain ⟨ops, h⟩ := ih T1
        refine ⟨op' :: ops, ?_⟩
        rw [run_cons_goes (by rw [h1]; intro s hs; cases hs), h1]
        exact h
      · have h1 : T.reader.step S op = (.ok v, T1.reader) := h1
        obtain ⟨ops, h⟩ := ih T1
        refine ⟨op :: ops, ?_⟩
        rw [run_cons_goes (by rw [h1]; intro s hs; cases hs), h1]
        exact h
    | dateCreated =>
      exact ih { T with sink := { T.sink with counts := T.sink.counts.look T.reader.props.header.dateCreated } }
    | dateModified =>
      exact ih { T with sink := { T.sink with counts := T.sink.counts.look T.reader.props.header.dateModified } }

/-- The properties of a reader stay. -/
theorem catching_full {cols : List Column} (ss : List RefStmt) : ∀ (T : TReader σ (PyOwner κ)), FullSink cols T.sink.live.cpp →
    Full T.sink.counts.converted → (∀ e ∈ (catchingRun P keep S T ss).reader.trace, FullEvent cols e) →
    (∃ R0 : Reader σ, Reachable S R0 ∧ R0 = T.reader) → T.reader.props.header.dateCreated ≠ .notADateTime →
    T.reader.props.header.dateModified ≠ .notADateTime → Full (catchingRun P keep S T ss).sink.counts.converted := by
  induction ss with
  | nil => intro T _ hf _ _ _ _; exact hf
  | cons x ss ih =>
    intro T hs hf he hr hc hm
    obtain ⟨R0, hr, rfl⟩ := hr
    cases x with
    | call op =>
      obtain ⟨h1, es, h2, h3, -⟩ := step_like (K := pyOwnerCode P keep) (S := S) T op
      have hprops : ∀ {op' : Op} {r : Res Ret} {R' : Reader σ}, T.reader.step S op' = (r, R') → R'.props = T.reader.props ∧ Reachable S R' := by
        intro op' r R' h
        have hp := Reader.run_props (S := S) [op'] T.reader (Reachable.inv hr)
        have hq := Spec.Reachable.called (S := S) T.reader op' hr
        have hx : (T.reader.run S [op']).2 = (T.reader.step S op').2 := by
          unfold Reader.run
          rcases T.reader.step S op' with ⟨(_ | _ | _ | _) | _, _⟩ <;> rfl
        rw [hx, h] at hp
        rw [h] at hq
        exact ⟨hp, hq⟩
      have hP : (T.step (pyOwnerCode P keep) S op).2.reader.props = T.reader.props ∧ Reachable S (T.step (pyOwnerCode P keep) S op).2.reader := by
        generalize T.step (pyOwnerCode P keep) S op = y at h1
        obtain ⟨((e | x) | v), T1⟩ := y
        · exact hprops h1
        · obtain ⟨op', v, -, h1⟩ := h1; exact hprops h1
        · exact hprops h1
      have hsub : ∀ e ∈ es, e ∈ (catchingRun P keep S T (.call op :: ss)).reader.trace := by
        intro e hm
        have hin : e ∈ (T.step (pyOwnerCode P keep) S op).2.reader.trace := by rw [h2]; exact List.mem_append_right _ hm
        unfold catchingRun
        rcases hx : T.step (pyOwnerCode P keep) S op with ⟨((e | x) | v), T1⟩ <;> rw [hx] at hin <;> dsimp only at hin ⊢
        · cases e <;> dsimp only <;> first
            | exact hin
            | (obtain ⟨es', h⟩ := catching_trace (P := P) (keep := keep) (S := S) ss T1; rw [h]; exact List.mem_append_left _ hin)
        · obtain ⟨es', h⟩ := catching_trace (P := P) (keep := keep) (S := S) ss T1; rw [h]; exact List.mem_append_left _ hin
        · obtain ⟨es', h⟩ := catching_trace (P := P) (keep := keep) (S := S) ss T1; rw [h]; exact List.mem_append_left _ hin
      obtain ⟨k1, k2⟩ := calls_full (P := P) (keep := keep) es hs hf fun e hm => he e (hsub e hm)
      rw [← h3] at k1 k2
      have hnext := ih (T.step (pyOwnerCode P keep) S op).2 k1 k2
      unfold catchingRun at he ⊢
      rcases hx : T.step (pyOwnerCode P keep) S op with ⟨((e | x) | v), T1⟩ <;> rw [hx] at hnext hP k2 he <;>
        dsimp only at hnext hP k2 he ⊢
      · cases e <;> dsimp only at he ⊢ <;> first
          | exact k2
          | exact hnext he ⟨_, hP.2, rfl⟩ (by rw [hP.1]; exact hc) (by rw [hP.1]; exact hm)
      · exact hnext he ⟨_, hP.2, rfl⟩ (by rw [hP.1]; exact hc) (by rw [hP.1]; exact hm)
      · exact hnext he ⟨_, hP.2, rfl⟩ (by rw [hP.1]; exact hc) (by rw [hP.1]; exact hm)
    | dateCreated =>
      unfold catchingRun at he ⊢
      exact ih { T with sink := _ } hs (look_full hf hc) he ⟨_, hr, rfl⟩ hc hm
    | dateModified =>
      unfold catchingRun at he ⊢
      exact ih { T with sink := _ } hs (look_full hf hm) he ⟨_, hr, rfl⟩ hc hm

/-- **C71**, partial: nothing is lost when nothing is missing. If no row the program was given has a missing datetime, date or
time and neither date of the header is missing, the interpreter has as many references to `None` as before, whatever the
program did and whatever raised on the way. -/
theorem C71_unharmed_partial (P : PyCode κ) (keep : κ → Event → Bool) (cfg : Cfg) (fuel : Nat) (fs : FileSystem) (name : List Byte)
    (kind : PyKind) (incl excl : PyArg) (obj : κ) (ss : List RefStmt) (h : PyCounts) (h1 : 1 ≤ h.none) (h2 : h.aborted = false)
    (h3 : h.converted = []) (f : Filter) (src : IFStream) (T : TReader IFStream (PyOwner κ)) (hf : pyFilter incl excl = .ok f)
    (hsrc : openFile fs (name.takeWhile (· ≠ 0)) = .ok src)
    (hT : openThrowing (pyOwnerCode P keep) cfg ifs fuel (some f) src { live := { cpp := .start kind, obj := obj }, counts := h } = .ok T)
    (hrows : ∀ r ∈ pushes (catchingRun P keep ifs T ss).reader.trace, ∀ c ∈ T.reader.props.columns, MissingAt c r = false)
    (hc : T.reader.props.header.dateCreated ≠ .notADateTime) (hm : T.reader.props.header.dateModified ≠ .notADateTime) :
    (catchingProgram P keep cfg fuel fs name kind incl excl obj ss h).none = h.none ∧
      (catchingProgram P keep cfg fuel fs name kind incl excl obj ss h).aborted = false := by
  have ho := C71_raising_partial P keep cfg fuel fs name kind incl excl obj ss h h1 h2 h3 _ rfl
  obtain ⟨o1, o2, hreach⟩ := opened_sink hT
  have hstart : ∀ cols, FullSink cols (CppSink.start kind) := by
    intro cols
    cases kind with
    | row => intro c hc; cases hc
    | chunk n => exact ⟨fun g hg => (by cases hg), fun l hl => (by cases hl)⟩
    | data => exact ⟨fun g hg => (by cases hg), fun l hl => (by cases hl)⟩
  obtain ⟨ops, hops⟩ := catching_reader (P := P) (keep := keep) (S := ifs) ss T
  have hR : openReader cfg ifs fuel (some f) src = .ok T.reader := by
    unfold openThrowing at hT
    cases hR : openReader cfg ifs fuel (some f) src with
    | error e => rw [hR] at hT; cases hT
    | ok R =>
      rw [hR] at hT
      dsimp only at hT
      split at hT
      · cases hT; rfl
      · cases hT
  obtain ⟨rest, p1, -, p3, -⟩ := C08_protocol hR ops
  rw [hops] at p1
  have hfull := call_full (P := P) (keep := keep) (cols := T.reader.props.columns)
    (s := { live := { cpp := .start kind, obj := obj }, counts := h }) (e := .setProperties T.reader.props)
    (hstart _) (by rw [h3]; intro c hc; cases hc) rfl
  rw [o1] at hfull
  have hend := catching_full (P := P) (keep := keep) (S := ifs) (cols := T.reader.props.columns) ss T hfull.1 hfull.2 (by
    intro e he
    cases e with
    | setProperties p =>
      rw [p1] at he
      rcases List.mem_cons.1 he with he | he
      · cases he; rfl
      · exact absurd he (p3 p)
    | pushRow i r => exact fun c hc => hrows (i, r) (mem_pushes.1 he) c hc
    | endOfData => trivial) ⟨_, hreach, rfl⟩ hc hm
  have hzero : missingCount (catchingProgram P keep cfg fuel fs name kind incl excl obj ss h).converted = 0 := by
    unfold catchingProgram
    rw [hf]
    simp only [hsrc, hT]
    rw [release_converted, missingCount_eq, List.countP_eq_zero]
    intro c hc
    rw [hend c hc]
    simp
  rw [hzero] at ho
  cases hi : h.immortal with
  | true => exact ⟨(ho.1 hi).2, (ho.1 hi).1⟩
  | false =>
    obtain ⟨a1, a2⟩ := ho.2 hi
    have hna : (catchingProgram P keep cfg fuel fs name kind incl excl obj ss h).aborted = false := by
      rw [← Bool.not_eq_true, a1]; omega
    exact ⟨a2 hna, hna⟩

/-! ## Cases -/

/-- A program that reads the demonstration file with some bytes changed, with an object that raises when `n` says so. -/
def demoCatching (l : List (Nat × Byte)) (kind : PyKind) (n : List Bool) (kp : Bool) (ss : List RefStmt) (h : PyCounts) : PyCounts :=
  catchingProgram (refuses n) (fun _ _ => kp) Demo.cfg 10 (patchedFile l) (ascii "f") kind .none .none n ss h

/-- A file with one missing date. An object refuses its chunk and is given it again at the end: the missing date has been
converted twice and has cost two references. A row that is refused has cost one; an interpreter with one reference is
aborted, unless its `None` is immortal. -/
example : let ops : List RefStmt := [.call (.readRows 2), .call .endOfData, .call .readAll]
    (demoCatching missingDate (.chunk 2) [true, false] false [.call .readAll, .call .endOfData] ⟨false, 9, false, []⟩).none = 7 ∧
      (demoCatching missingDate .data [true] true [.call .readAll, .call .endOfData] ⟨false, 9, false, []⟩).none = 8 ∧
      (demoCatching missingDate .row [true] true ops ⟨false, 9, false, []⟩).none = 8 ∧
      (demoCatching missingDate .row [true] true ops ⟨false, 1, false, []⟩).aborted = true ∧
      missingCount (demoCatching missingDate .row [true] true ops ⟨false, 1, false, []⟩).converted = 1 ∧
      (demoCatching missingDate .row [true] true ops ⟨true, 1, false, []⟩).none = 1 := by
  decide +kernel

/-- The demonstration file has no missing values: nothing is lost, whatever the object refuses. -/
example : (demoCatching [] (.chunk 2) [true, true, false] false [.dateCreated, .call .readAll, .call .readAll] ⟨false, 9, false, []⟩).none = 9 ∧
    (demoCatching [] (.chunk 2) [true, true, false] false [.dateCreated, .call .readAll, .call .readAll] ⟨false, 9, false, []⟩).converted.length = 11 := by
  decide +kernel

end Sas.Props
