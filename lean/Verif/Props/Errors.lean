import Verif.Props.RFront

/-!
# C88: errors of the library are not silent in Python and R
-/

namespace Sas.Props
open Sas Sas.Spec

variable {σ : Type} {S : Source σ}

/-- The calls among the statements of a program. -/
def stmtCalls : List PyStmt → List Op
  | [] => []
  | .call op :: ss => op :: stmtCalls ss
  | _ :: ss => stmtCalls ss

/-- All calls came back. -/
def AllOk (rs : List (Res Ret)) : Prop := ∀ r ∈ rs, ∃ v, r = .ok v

theorem run_cons_ok {R R' : Reader σ} {op : Op} {v : Ret} {ops : List Op} (h : R.step S op = (.ok v, R'))
    (ho : AllOk (R'.run S ops).1) : AllOk (R.run S (op :: ops)).1 ∧ (R.run S (op :: ops)).1.length = (R'.run S ops).1.length + 1 := by
  rw [Reader.run, h]
  refine ⟨fun r hr => ?_, rfl⟩
  rcases List.mem_cons.mp hr with rfl | hr
  · exact ⟨v, rfl⟩
  · exact ho r hr

theorem op_ok {s s' : PySession σ} {op : Op} (h : s.op S op = .ok s') :
    ∃ v, s.reader.step S op = (.ok v, s'.reader) := by
  unfold PySession.op at h
  generalize s.reader.step S op = x at h ⊢
  obtain ⟨r, R⟩ := x
  dsimp only at h
  cases h1 : ({ s with reader := R } : PySession σ).events (R.trace.drop s.reader.trace.length) with
  | error e => rw [h1] at h; cases h
  | ok s1 =>
    rw [h1] at h
    cases r with
    | error e => cases h
    | ok v =>
      cases h
      rw [(events_reader h1).1]
      exact ⟨v, rfl⟩

theorem df_reader {s s' : PySession σ} {f : Option PyFrame} (h : s.df = .ok (f, s')) : s'.reader = s.reader := by
  unfold PySession.df at h
  cases hc : s.obj.cached with
  | some g => rw [hc] at h; cases h; rfl
  | none =>
    rw [hc] at h
    dsimp only at h
    cases h1 : s.flush with
    | error e => rw [h1] at h; cases h
    | ok s1 =>
      have hr : s1.reader = s.reader := by
        unfold PySession.flush at h1
        split at h1
        · split at h1
          · exact (events_reader h1).1
          · cases h1
        · cases h1; rfl
      rw [h1] at h
      simp only [bind, Except.bind] at h
      rw [← hr]
      cases hk : s1.obj.kind with
      | row =>
        rw [hk] at h
        simp only at h
        cases h2 : frameOfRecords s1.obj.rows s1.obj.names with
        | error e => rw [h2] at h; cases h
        | ok f => rw [h2] at h; cases h; rfl
      | chunk n =>
        rw [hk] at h
        simp only at h
        cases h2 : concatFrames s1.obj.frames with
        | error e => rw [h2] at h; cases h
        | ok f => rw [h2] at h; cases h; rfl
      | data => rw [hk] at h; cases h; rfl

theorem session_ok : ∀ (ss : List PyStmt) {s s' : PySession σ} {fs : List (Option PyFrame)}, s.run S ss = .ok (fs, s') →
    AllOk (s.reader.run S (stmtCalls ss)).1 ∧ (s.reader.run S (stmtCalls ss)).1.length = (stmtCalls ss).length := by
  intro ss
  induction ss with
  | nil => intro s s' fs _; exact ⟨fun r hr => by simp [stmtCalls, Reader.run] at hr, rfl⟩
  | cons st ss ih =>
    intro s s' fs h
    cases st with
    | call op =>
      rw [PySession.run] at h
      cases h1 : s.op S op with
      | error e => rw [h1] at h; cases h
      | ok s1 =>
        rw [h1] at h
        obtain ⟨v, hv⟩ := op_ok h1
        obtain ⟨g1, g2⟩ := ih h
        obtain ⟨k1, k2⟩ := run_cons_ok hv g1
        exact ⟨k1, by rw [show stmtCalls (.call op :: ss) = op :: stmtCalls ss from rfl, k2, g2]; rfl⟩
    | drop => exact ih (s := s.drop) h
    | df =>
      rw [PySession.run] at h
      cases h1 : s.df with
      | error e => rw [h1] at h; cases h
      | ok x =>
        obtain ⟨f, s1⟩ := x
        rw [h1] at h
        simp only [bind, Except.bind] at h
        cases h2 : s1.run S ss with
        | error e => rw [h2] at h; cases h
        | ok y =>
          obtain ⟨fs1, s2⟩ := y
          have := ih h2
          rw [df_reader h1] at this
          exact this

/-- **C88**, Python. If a program comes to its end without an exception, then its arguments are names, the file it names
was opened and presented by the library with these columns, and each of its calls came back in the library. -/
theorem C88_python (cfg : Cfg) (fuel : Nat) (fs : FileSystem) (name : List Byte) (kind : PyKind) (incl excl : PyArg)
    (hi : ∀ items, incl = .list items → items.length < 2 ^ 31) (he : ∀ items, excl = .list items → items.length < 2 ^ 31)
    (ss : List PyStmt) (frames : List (Option PyFrame)) (h : pyProgram cfg fuel fs name kind incl excl ss = .ok frames) :
    ∃ i e content R, ArgNames incl i ∧ ArgNames excl e ∧ fs.content (name.takeWhile (· ≠ 0)) = some content ∧
      openReader cfg ifs fuel (some (Filter.includeExclude i e)) (IFStream.open content) = .ok R ∧
      AllOk (R.run ifs (stmtCalls ss)).1 ∧ (R.run ifs (stmtCalls ss)).1.length = (stmtCalls ss).length := by
  unfold pyProgram at h
  cases h1 : pyOpen cfg fuel fs name kind incl excl with
  | error e => rw [h1] at h; cases h
  | ok s =>
    rw [h1] at h
    simp only [bind, Except.bind] at h
    cases h2 : s.run ifs ss with
    | error e => rw [h2] at h; cases h
    | ok y =>
      obtain ⟨fs', s'⟩ := y
      obtain ⟨f, src, o1, o2, o3, -⟩ := open_history h1
      have hi' : ∃ i, ArgNames incl i := by
        by_contra hc
        unfold pyFilter at o1
        rw [argNames_bad (not_exists.mp hc) hi] at o1
        cases o1
      have he' : ∃ e, ArgNames excl e := by
        by_contra hc
        unfold pyFilter at o1
        rw [argNames_ok hi'.choose_spec hi, argNames_bad (not_exists.mp hc) he] at o1
        cases o1
      obtain ⟨i, hi'⟩ := hi'
      obtain ⟨e, he'⟩ := he'
      unfold pyFilter at o1
      rw [argNames_ok hi' hi, argNames_ok he' he] at o1
      cases o1
      unfold openFile at o2
      cases hc : fs.content (name.takeWhile (· ≠ 0)) with
      | none => rw [hc] at o2; cases o2
      | some content =>
        rw [hc] at o2
        cases o2
        exact ⟨i, e, content, s.reader, hi', he', rfl, o3, session_ok ss h2⟩

/-- **C88**, Python, opening. What stops the library from opening the file stops the program, with the same exception. -/
theorem C88_python_open (cfg : Cfg) (fuel : Nat) (fs : FileSystem) (name : List Byte) (kind : PyKind) (incl excl : PyArg)
    (i e : List (List Byte)) (hi : ArgNames incl i) (he : ArgNames excl e)
    (hli : ∀ items, incl = .list items → items.length < 2 ^ 31) (hle : ∀ items, excl = .list items → items.length < 2 ^ 31)
    (ss : List PyStmt) (hname : 0 ∉ name) :
    (fs.content name = none → pyProgram cfg fuel fs name kind incl excl ss = .error (.cpp (.exn .notAValidFile))) ∧
    ∀ content x, fs.content name = some content → openReader cfg ifs fuel none (IFStream.open content) = .error x →
      pyProgram cfg fuel fs name kind incl excl ss = .error (.cpp x) := by
  have hn : name.takeWhile (· ≠ 0) = name := upToZero_self hname
  unfold pyProgram pyOpen pyFilter
  rw [argNames_ok hi hli, argNames_ok he hle, hn]
  refine ⟨fun hc => ?_, fun content x hc hx => ?_⟩
  · unfold openFile
    rw [hc]
    rfl
  · unfold openFile
    rw [hc]
    show ((PyM.ofRes (openReader cfg ifs fuel (some (Filter.includeExclude i e)) (IFStream.open content)) >>= _) >>= _) = _
    rw [(C21_filter cfg ifs fuel _ _).1 x hx]
    rfl

theorem r_op_ok {unique : List (List Byte) → List (List Byte)} {s s' : RSession σ} {op : Op}
    (h : s.op unique S op = .ok s') : ∃ v, s.reader.step S op = (.ok v, s'.reader) := by
  unfold RSession.op at h
  generalize s.reader.step S op = x at h ⊢
  obtain ⟨r, R⟩ := x
  dsimp only at h
  cases h1 : s.sink.events unique (R.trace.drop s.reader.trace.length) with
  | error e => rw [h1] at h; cases h
  | ok k =>
    rw [h1] at h
    cases r with
    | error e => cases h
    | ok v => cases h; exact ⟨v, rfl⟩

theorem r_session_ok {unique : List (List Byte) → List (List Byte)} : ∀ (ops : List Op) {s s' : RSession σ},
    s.ops unique S ops = .ok s' → AllOk (s.reader.run S ops).1 ∧ (s.reader.run S ops).1.length = ops.length := by
  intro ops
  induction ops with
  | nil => intro s s' _; exact ⟨fun r hr => by simp [Reader.run] at hr, rfl⟩
  | cons op ops ih =>
    intro s s' h
    rw [RSession.ops] at h
    cases h1 : s.op unique S op with
    | error e => rw [h1] at h; cases h
    | ok s1 =>
      rw [h1] at h
      obtain ⟨v, hv⟩ := r_op_ok h1
      obtain ⟨g1, g2⟩ := ih h
      obtain ⟨k1, k2⟩ := run_cons_ok hv g1
      exact ⟨k1, by rw [k2, g2]; rfl⟩

/-- **C88**, R. If a program comes to its end without an error, then its arguments are names, the file it names was opened
and presented by the library with these columns, and each of its calls came back in the library. -/
theorem C88_r (unique : List (List Byte) → List (List Byte)) (cfg : Cfg) (fuel : Nat) (fs : FileSystem) (name : List Byte)
    (kind : PyKind) (incl excl : RArg) (hi : ∀ items, incl = .chr items → items.length < 2 ^ 31)
    (he : ∀ items, excl = .chr items → items.length < 2 ^ 31) (ops : List Op) (s : RSession IFStream)
    (h : rProgram unique cfg fuel fs name kind incl excl ops = .ok s) :
    ∃ i e content R, RArgNames incl i ∧ RArgNames excl e ∧ fs.content (name.takeWhile (· ≠ 0)) = some content ∧
      openReader cfg ifs fuel (some (Filter.includeExclude i e)) (IFStream.open content) = .ok R ∧
      AllOk (R.run ifs ops).1 ∧ (R.run ifs ops).1.length = ops.length := by
  unfold rProgram at h
  cases h1 : rOpen unique cfg fuel fs name kind incl excl with
  | error e => rw [h1] at h; cases h
  | ok s1 =>
    rw [h1] at h
    obtain ⟨f, src, o1, o2, o3, -⟩ := rOpen_inv h1
    have hi' : ∃ i, RArgNames incl i := by
      by_contra hc
      unfold rFilter at o1
      rw [rArgNames_bad (not_exists.mp hc)] at o1
      cases o1
    have he' : ∃ e, RArgNames excl e := by
      by_contra hc
      unfold rFilter at o1
      rw [rArgNames_ok hi'.choose_spec hi, rArgNames_bad (not_exists.mp hc)] at o1
      cases o1
    obtain ⟨i, hi'⟩ := hi'
    obtain ⟨e, he'⟩ := he'
    unfold rFilter at o1
    rw [rArgNames_ok hi' hi, rArgNames_ok he' he] at o1
    cases o1
    unfold openFile at o2
    cases hc : fs.content (name.takeWhile (· ≠ 0)) with
    | none => rw [hc] at o2; cases o2
    | some content =>
      rw [hc] at o2
      cases o2
      exact ⟨i, e, content, s1.reader, hi', he', rfl, o3, r_session_ok ops h⟩

/-- **C88**, R, opening. What stops the library from opening the file stops the program, with the same exception. -/
theorem C88_r_open (unique : List (List Byte) → List (List Byte)) (cfg : Cfg) (fuel : Nat) (fs : FileSystem)
    (name : List Byte) (kind : PyKind) (incl excl : RArg) (i e : List (List Byte)) (hi : RArgNames incl i)
    (he : RArgNames excl e) (hli : ∀ items, incl = .chr items → items.length < 2 ^ 31)
    (hle : ∀ items, excl = .chr items → items.length < 2 ^ 31) (ops : List Op) (hname : 0 ∉ name) :
    (fs.content name = none → rProgram unique cfg fuel fs name kind incl excl ops = .error (.cpp (.exn .notAValidFile))) ∧
    ∀ content x, fs.content name = some content → openReader cfg ifs fuel none (IFStream.open content) = .error x →
      rProgram unique cfg fuel fs name kind incl excl ops = .error (.cpp x) := by
  have hn : name.takeWhile (· ≠ 0) = name := upToZero_self hname
  unfold rProgram rOpen rFilter
  rw [rArgNames_ok hi hli, rArgNames_ok he hle, hn]
  refine ⟨fun hc => ?_, fun content x hc hx => ?_⟩
  · unfold openFile
    rw [hc]
    rfl
  · unfold openFile
    rw [hc]
    show ((PyM.ofRes (openReader cfg ifs fuel (some (Filter.includeExclude i e)) (IFStream.open content)) >>= _) >>= _) = _
    rw [(C21_filter cfg ifs fuel _ _).1 x hx]
    rfl

/-- The table of a file, in R. -/
def rTable (file : List Byte) (ops : List Op) : PyM (Option RTable) := do
  return (← rProgram id Demo.cfg 9 (onlyFile file) (ascii "f") .data .null .null ops).sink.df

/-- The library throws for the second row of `Demo.rleFile`, and so does `read_sas`; the file is opened all the same. -/
example : (∃ R, openReader Demo.cfg ifs 9 none (IFStream.open Demo.rleFile) = .ok R ∧
      (R.run ifs [.readAll]).1 = [.error (.exn .cannotDecompress)]) ∧
    pyProgram Demo.cfg 9 (onlyFile Demo.rleFile) (ascii "f") .data .none .none [] = .ok [] ∧
    pyProgram Demo.cfg 9 (onlyFile Demo.rleFile) (ascii "f") .data .none .none [.call .readAll, .df] =
      .error (.cpp (.exn .cannotDecompress)) ∧
    rTable Demo.rleFile [.readAll] = .error (.cpp (.exn .cannotDecompress)) ∧ rTable Demo.file [.readAll] = .ok (some demoRows) :=
  ⟨⟨Demo.get (openReader Demo.cfg ifs 9 none (IFStream.open Demo.rleFile)), Demo.get_ok (by decide +kernel), by decide +kernel⟩,
    by decide +kernel⟩

end Sas.Props
