import Verif.Proofs.SourceThrowing
import Verif.Props.Cut

/-!
# Property C94: a source that throws
-/

namespace Sas.Props

open Sas Spec Proofs

variable {σ τ ε : Type} {S : SourceCode σ ε} {T : Source τ} {Q : σ → τ → Prop}

/-! ## Histories -/

theorem pushes_prefix {es es' : List Event} (h : es <+: es') : pushes es <+: pushes es' := by
  obtain ⟨r, rfl⟩ := h
  rw [pushes_append]
  exact List.prefix_append _ _

theorem pushes_ends (es : List Event) (k : Nat) : pushes (es ++ List.replicate k .endOfData) = pushes es := by
  rw [pushes_append]
  induction k with
  | zero => simp [pushes]
  | succ k ih => rwa [List.replicate_succ, pushes]

theorem run_follows (hS : SameUnlessThrown S T Q) : ∀ (ops : List Op) (R : Reader τ) (s : σ), Q s R.rd.p.src →
    R.rd.p.buf.size ≤ R.rd.p.buf.mem.length →
    (∃ s', Q s' (R.run T ops).2.rd.p.src ∧
      (R.at s).runX S ops = ((R.run T ops).1.map XRes.of, (R.run T ops).2.at s')) ∨
    ∃ pre op post x, ops = pre ++ op :: post ∧
      ((R.at s).runX S ops).1 =
        (R.run T pre).1.map XRes.of ++ .error (.source x) :: post.map (fun o => XRes.of (answerAtEnd o)) ∧
      Threw S Q ((R.at s).runX S ops).2.rd.p.src x ∧ ((R.at s).runX S ops).2.rd.page = none ∧
      pushes ((R.at s).runX S ops).2.trace <+: pushes (R.run T ops).2.trace := by
  intro ops
  induction ops with
  | nil => exact fun R s hQ hb => .inl ⟨s, hQ, rfl⟩
  | cons op ops ih =>
    intro R s hQ hb
    have hf := step_follows hS R s hQ hb op
    rw [runX_cons, Reader.run_cons]
    rcases hf with ⟨s', g1, g2, g3⟩ | ⟨x, g1, g2, g3, es, g4, g5, g6⟩
    · have hpre : ∀ pre, R.run T (op :: pre) =
        match R.step T op with
        | (.ok v, R) => (.ok v :: (R.run T pre).1, (R.run T pre).2)
        | (.error (.exn e), R) => (.error (.exn e) :: (R.run T pre).1, (R.run T pre).2)
        | (.error e, R) => ([.error e], R) := fun pre => Reader.run_cons R op pre
      rw [g3]
      generalize R.step T op = z at g1 g2 hpre
      obtain ⟨v, R'⟩ := z
      rcases v with e | v
      · cases e with
        | exn e =>
          rcases ih R' s' g1 g2 with ⟨s2, k1, k2⟩ | ⟨pre, o, post, x, k1, k2, k3, k4, k5⟩
          · refine .inl ⟨s2, k1, ?_⟩
            simp only [XRes.of, k2, List.map_cons]
          · refine .inr ⟨op :: pre, o, post, x, by rw [k1]; rfl, ?_, k3, k4, k5⟩
            rw [hpre]
            simp only [XRes.of, k2, List.map_cons, List.cons_append]
        | terminate => exact .inl ⟨s', g1, rfl⟩
        | ub => exact .inl ⟨s', g1, rfl⟩
        | fuel => exact .inl ⟨s', g1, rfl⟩
      · rcases ih R' s' g1 g2 with ⟨s2, k1, k2⟩ | ⟨pre, o, post, x, k1, k2, k3, k4, k5⟩
        · refine .inl ⟨s2, k1, ?_⟩
          simp only [XRes.of, k2, List.map_cons]
        · refine .inr ⟨op :: pre, o, post, x, by rw [k1]; rfl, ?_, k3, k4, k5⟩
          rw [hpre]
          simp only [XRes.of, k2, List.map_cons, List.cons_append]
    · right
      generalize (R.at s).stepX S op = y at g1 g2 g3 g4 g6
      obtain ⟨w, R1⟩ := y
      dsimp only at g1 g2 g3 g4 g6
      subst g1
      obtain ⟨d1, d2, k, d3⟩ := runX_dead (S := S) ops g3
      refine ⟨[], op, ops, x, rfl, ?_, ?_, ?_, ?_⟩
      · dsimp only
        rw [d1]
        rfl
      · dsimp only
        rw [d2]
        exact g2
      · dsimp only
        rw [d2]
        exact g3
      · dsimp only
        rw [d3, pushes_ends]
        refine (pushes_prefix g6).trans ?_
        generalize R.step T op = z
        obtain ⟨v, R'⟩ := z
        rcases v with e | v
        · cases e with
          | exn e => exact run_grown ops R'
          | terminate => exact List.prefix_refl _
          | ub => exact List.prefix_refl _
          | fuel => exact List.prefix_refl _
        · exact run_grown ops R'

/-! ## The property -/

/-- **C94**, opening. The source does what another one does, except that it may throw. Opening the reader throws the source's
exception, or it comes to what it comes to on the other source: the same error, or a reader with the same properties. -/
theorem C94_open (hS : SameUnlessThrown S T Q) (cfg : Cfg) (fuel : Nat) (filter : Option Filter) {s : σ} {t : τ} (hQ : Q s t) :
    (∃ x, openReaderX cfg S fuel filter s = .error (.source x)) ∨
    (∃ e, openReaderX cfg S fuel filter s = .error (.reader e) ∧ openReader cfg T fuel filter t = .error e) ∨
    ∃ R R', openReaderX cfg S fuel filter s = .ok R ∧ openReader cfg T fuel filter t = .ok R' ∧
      R.props = R'.props ∧ R.trace = R'.trace := by
  rcases open_follows hS cfg fuel filter hQ with ⟨e, h1, h2⟩ | ⟨R, R', h1, h2, s', -, -, rfl⟩ | ⟨x, s', h1, -⟩
  · exact .inr (.inl ⟨e, h2, h1⟩)
  · exact .inr (.inr ⟨_, R', h2, h1, rfl, rfl⟩)
  · exact .inl ⟨x, h1⟩

/-- **C94**, reading. In every history of calls, either the source does not throw, and everything is as on the other source:
results, calls on the sink, row index. Or it throws in one of the calls: the calls before have the results they have on the
other source, this call throws the source's exception, all later calls answer as at the end of the data, and the rows pushed
are the first ones of those pushed on the other source. -/
theorem C94_read_partial (hS : SameUnlessThrown S T Q) {cfg : Cfg} {fuel : Nat} {filter : Option Filter} {s : σ} {t : τ} (hQ : Q s t)
    {R : Reader σ} (h : openReaderX cfg S fuel filter s = .ok R) :
    ∃ R', openReader cfg T fuel filter t = .ok R' ∧ ∀ ops,
      ((R.runX S ops).1 = (R'.run T ops).1.map XRes.of ∧ (R.runX S ops).2.trace = (R'.run T ops).2.trace ∧
        (R.runX S ops).2.currentRowIndex = (R'.run T ops).2.currentRowIndex) ∨
      ∃ pre op post x, ops = pre ++ op :: post ∧
        (R.runX S ops).1 = (R'.run T pre).1.map XRes.of ++ .error (.source x) :: post.map (fun o => XRes.of (answerAtEnd o)) ∧
        pushes (R.runX S ops).2.trace <+: pushes (R'.run T ops).2.trace := by
  rcases open_follows hS cfg fuel filter hQ with ⟨e, -, h2⟩ | ⟨R₁, R', h1, h2, s', h3, h4, rfl⟩ | ⟨x, s', h1, -⟩
  · rw [h] at h2
    cases h2
  · rw [h] at h2
    cases h2
    refine ⟨R', h1, fun ops => ?_⟩
    rcases run_follows hS ops R' s' h3 h4 with ⟨s2, -, k2⟩ | ⟨pre, op, post, x, k1, k2, -, -, k5⟩
    · rw [k2]
      exact .inl ⟨rfl, rfl, rfl⟩
    · exact .inr ⟨pre, op, post, x, k1, k2, k5⟩
  · rw [h] at h1
    cases h1

/-- A source that stores no more than it was asked for when it throws. -/
def Careful (S : SourceCode σ ε) : Prop :=
  ∀ s n x bytes s', S.read s n = (.error x, bytes, s') → bytes.length ≤ n ∧ (2 ^ 63 ≤ n → bytes = [])

/-- The source without its exceptions. -/
def calm (S : SourceCode σ ε) : Source (σ × List ε) where
  eof s := S.eof s.1
  read s n :=
    match S.read s.1 n with
    | (.ok ok, bytes, s') => ⟨(s', s.2), bytes, ok⟩
    | (.error _, _, _) => ⟨s, [], false⟩

theorem calm_watched (hS : Careful S) : SameUnlessThrown (watched S) (calm S) fun a b => a = b ∧ a.2 = [] := by
  have key : ∀ (s : σ × List ε) n x bytes s', (watched S).read s n = (.error x, bytes, s') →
      ∃ s1, S.read s.1 n = (.error x, bytes, s1) := by
    intro s n x bytes s' h
    obtain ⟨eof, read⟩ := S
    dsimp only [watched] at h ⊢
    generalize read s.1 n = y at h ⊢
    obtain ⟨r, b, s1⟩ := y
    cases r with
    | ok ok => cases h
    | error x' =>
      cases h
      exact ⟨s1, rfl⟩
  refine ⟨?_, ?_, ?_, ?_⟩
  · rintro s t ⟨rfl, -⟩
    rfl
  · rintro s t ⟨rfl, hs⟩ n ok bytes s' h
    obtain ⟨eof, read⟩ := S
    dsimp only [watched, calm] at h ⊢
    generalize read s.1 n = y at h ⊢
    obtain ⟨r, b, s1⟩ := y
    cases r with
    | ok ok =>
      cases h
      exact ⟨rfl, rfl, rfl, hs⟩
    | error x' => cases h
  · intro s t hQ n x bytes s' h
    obtain ⟨s1, h1⟩ := key s n x bytes s' h
    exact (hS _ _ _ _ _ h1).1
  · intro s t hQ n x bytes s' h
    obtain ⟨s1, h1⟩ := key s n x bytes s' h
    exact (hS _ _ _ _ _ h1).2

theorem watched_threw {s' : σ × List ε} {x : ε} (h : Threw (watched S) (fun a b => a = b ∧ a.2 = []) s' x) : s'.2 = [x] := by
  obtain ⟨s, t, n, bytes, ⟨-, hs⟩, h⟩ := h
  obtain ⟨eof, read⟩ := S
  dsimp only [watched] at h
  generalize read s.1 n = y at h
  obtain ⟨r, b, s1⟩ := y
  cases r with
  | ok ok => cases h
  | error x' =>
    cases h
    simp [hs]

theorem thrown_of {α : Type} (z : Res α) : thrown (XRes.of z : XRes ε α) = none := by cases z <;> rfl

theorem thrown_map {α β : Type} (f : β → Res α) (l : List β) :
    (l.map fun b => (XRes.of (f b) : XRes ε α)).filterMap thrown = [] := by
  induction l with
  | nil => rfl
  | cons b l ih =>
    rw [List.map_cons, List.filterMap_cons, thrown_of]
    exact ih

/-- **C94**, no exception is lost and none is made up. The exceptions that the source has thrown, in a log, are those that the
calls have thrown: opening a reader throws the exception that the source throws, so that none has been thrown when the
reader is there; and after every history the log has the exceptions among the results of the calls, at most one. -/
theorem C94_arrives (hS : Careful S) {cfg : Cfg} {fuel : Nat} {filter : Option Filter} {s : σ} {R : Reader (σ × List ε)}
    (h : openReaderX cfg (watched S) fuel filter (s, []) = .ok R) :
    R.rd.p.src.2 = [] ∧ ∀ ops, (R.runX (watched S) ops).1.filterMap thrown = (R.runX (watched S) ops).2.rd.p.src.2 ∧
      (R.runX (watched S) ops).2.rd.p.src.2.length ≤ 1 := by
  rcases open_follows (calm_watched hS) cfg fuel filter (s := (s, [])) (t := (s, [])) ⟨rfl, rfl⟩ with
    ⟨e, -, h2⟩ | ⟨R₁, R', h1, h2, s', h3, h4, rfl⟩ | ⟨x, s', h1, -⟩
  · rw [h] at h2
    cases h2
  · rw [h] at h2
    cases h2
    refine ⟨h3.2, fun ops => ?_⟩
    rcases run_follows (calm_watched hS) ops R' s' h3 h4 with ⟨s2, k1, k2⟩ | ⟨pre, op, post, x, k1, k2, k3, k4, k5⟩
    · rw [k2]
      refine ⟨?_, ?_⟩
      · rw [thrown_map fun z => z]
        exact k1.2.symm
      · show s2.2.length ≤ 1
        rw [k1.2]
        exact Nat.zero_le _
    · rw [k2, watched_threw k3, List.filterMap_append, List.filterMap_cons, thrown_map fun z => z, thrown_map]
      exact ⟨rfl, Nat.le_refl _⟩
  · rw [h] at h1
    cases h1

/-- **C94**, an exception of the source is final. When a call has thrown one, all later calls answer as at the end of the data
and tell the sink of nothing else; the source is not asked again, and the row index stays. -/
theorem C94_final (hS : SameUnlessThrown S T Q) {cfg : Cfg} {fuel : Nat} {filter : Option Filter} {s : σ} {t : τ} (hQ : Q s t)
    {R : Reader σ} (h : openReaderX cfg S fuel filter s = .ok R) (ops : List Op) (x : ε)
    (hx : .error (.source x) ∈ (R.runX S ops).1) (later : List Op) :
    ((R.runX S ops).2.runX S later).1 = later.map (fun o => XRes.of (answerAtEnd o)) ∧
    ((R.runX S ops).2.runX S later).2.rd.p.src = (R.runX S ops).2.rd.p.src ∧
    ((R.runX S ops).2.runX S later).2.currentRowIndex = (R.runX S ops).2.currentRowIndex ∧
    ∃ k, ((R.runX S ops).2.runX S later).2.trace = (R.runX S ops).2.trace ++ List.replicate k .endOfData := by
  rcases open_follows hS cfg fuel filter hQ with ⟨e, -, h2⟩ | ⟨R₁, R', h1, h2, s', h3, h4, rfl⟩ | ⟨x, s', h1, -⟩
  · rw [h] at h2
    cases h2
  · rw [h] at h2
    cases h2
    rcases run_follows hS ops R' s' h3 h4 with ⟨s2, -, k2⟩ | ⟨pre, op, post, x, k1, k2, k3, k4, k5⟩
    · rw [k2] at hx
      obtain ⟨z, -, hz⟩ := List.mem_map.mp hx
      cases z <;> cases hz
    · obtain ⟨d1, d2, d3⟩ := runX_dead (S := S) later k4
      refine ⟨d1, by rw [d2], ?_, d3⟩
      unfold Reader.currentRowIndex
      rw [d2]
  · rw [h] at h1
    cases h1

/-! ## A source that throws what is planned -/

theorem planned_same (T : Source τ) :
    SameUnlessThrown (planned T : SourceCode (List (Option ε) × τ) ε) T fun a b => a.2 = b := by
  have key : ∀ (s : List (Option ε) × τ) n x bytes s', (planned T : SourceCode _ ε).read s n = (.error x, bytes, s') → bytes = [] := by
    rintro ⟨plan, t⟩ n x bytes s' h
    obtain ⟨eof, read⟩ := T
    rcases plan with _ | ⟨_ | y, plan⟩ <;> cases h
    rfl
  refine ⟨?_, ?_, ?_, ?_⟩
  · rintro s t rfl
    rfl
  · rintro ⟨plan, t⟩ _ rfl n ok bytes s' h
    rcases plan with _ | ⟨_ | y, plan⟩ <;> cases h
    · exact ⟨rfl, rfl, rfl⟩
    · exact ⟨rfl, rfl, rfl⟩
  · intro s t hQ n x bytes s' h
    rw [key s n x bytes s' h]
    exact Nat.zero_le _
  · intro s t hQ n x bytes s' h _
    exact key s n x bytes s' h

/-- The demo file behind a source that throws `7` in its fifth read, and does not throw afterwards. -/
def troubled : List (Option Nat) × IFStream := ([none, none, none, none, some 7], IFStream.open Demo.file)

/-- The reader on it. -/
def troubledReader : Reader (List (Option Nat) × IFStream) :=
  match openReaderX Demo.cfg (planned ifs) 10 none troubled with
  | .ok R => R
  | .error _ => Demo.dead.at troubled

theorem troubled_ok : openReaderX Demo.cfg (planned ifs) 10 none troubled = .ok troubledReader := by
  have h : (openReaderX Demo.cfg (planned ifs) 10 none troubled).isOk = true := by decide +kernel
  unfold troubledReader
  cases hr : openReaderX Demo.cfg (planned ifs) 10 none troubled with
  | ok R => rfl
  | error e =>
    rw [hr] at h
    cases h

example : troubledReader.props = Demo.reader.props ∧
    (troubledReader.runX (planned ifs) [.readRow, .readRow, .readRow, .readRow, .skip 0, .readAll]).1 =
      [.ok (.bool true), .ok (.bool true), .error (.source 7), .ok (.bool false), .ok (.bool true), .ok .unit] ∧
    pushes (troubledReader.runX (planned ifs) [.readAll]).2.trace <+: pushes (Demo.reader.run ifs [.readAll]).2.trace := by
  refine ⟨by decide +kernel, by decide +kernel, ?_⟩
  obtain ⟨R', h1, h2⟩ := C94_read_partial (planned_same ifs) rfl troubled_ok
  have : R' = Demo.reader := Except.ok.inj (h1.symm.trans Demo.opened_ok)
  rw [this] at h2
  rcases h2 [.readAll] with ⟨-, h, -⟩ | ⟨-, -, -, -, -, -, h⟩
  · rw [h]
  · exact h

example (later : List Op) : ((troubledReader.runX (planned ifs) [.readAll]).2.runX (planned ifs) later).1 =
    later.map (fun o => XRes.of (answerAtEnd o)) :=
  (C94_final (planned_same ifs) rfl troubled_ok [.readAll] 7 (by decide +kernel) later).1

example : thrown (openReaderX Demo.cfg (planned ifs) 10 none
    (([none, none, some 7], IFStream.open Demo.file) : List (Option Nat) × IFStream)) = some 7 := by decide +kernel

theorem careful_planned (T : Source τ) : Careful (planned T : SourceCode (List (Option ε) × τ) ε) := by
  intro s n x bytes s' h
  exact ⟨(planned_same T).fits s s.2 rfl n x bytes s' h, (planned_same T).huge s s.2 rfl n x bytes s' h⟩

example : ∃ R, openReaderX Demo.cfg (watched (planned ifs)) 10 none (troubled, []) = .ok R ∧
    (R.runX (watched (planned ifs)) [.readRow, .readAll, .readRow]).2.rd.p.src.2 = [7] ∧
    (R.runX (watched (planned ifs)) [.readRow, .readAll, .readRow]).1.filterMap thrown = [7] := by
  have h : (openReaderX Demo.cfg (watched (planned ifs)) 10 none (troubled, [])).isOk = true := by decide +kernel
  have h7 : (match openReaderX Demo.cfg (watched (planned ifs)) 10 none (troubled, []) with
    | .ok R => decide ((R.runX (watched (planned ifs)) [.readRow, .readAll, .readRow]).2.rd.p.src.2 = [7])
    | .error _ => false) = true := by decide +kernel
  cases hr : openReaderX Demo.cfg (watched (planned ifs)) 10 none (troubled, []) with
  | ok R =>
    rw [hr] at h7
    have h7 := of_decide_eq_true h7
    exact ⟨R, rfl, h7, ((C94_arrives (careful_planned ifs) hr).2 _).1.trans h7⟩
  | error e =>
    rw [hr] at h
    cases h

/-- **C94** has no second try: the source throws once, in the third call of `read_row`, and would then give the next page; but
the fourth call returns `false` and tells the sink that the data has ended, two rows after the start of a data set of
three. -/
theorem C94_retry_refuted : ∃ (S : SourceCode (List (Option Nat) × IFStream) Nat) (s : List (Option Nat) × IFStream)
    (R : Reader (List (Option Nat) × IFStream)) (R' : Reader IFStream),
    openReaderX Demo.cfg S 10 none s = .ok R ∧ openReader Demo.cfg ifs 10 none s.2 = .ok R' ∧
    (R.runX S [.readRow, .readRow, .readRow, .readRow]).1 =
      [.ok (.bool true), .ok (.bool true), .error (.source 7), .ok (.bool false)] ∧
    (R.runX S [.readRow, .readRow, .readRow, .readRow]).2.trace.getLast? = some .endOfData ∧
    (S.read (R.runX S [.readRow, .readRow, .readRow, .readRow]).2.rd.p.src R.env.pageLength).1 = .ok true ∧
    (R'.run ifs [.readRow, .readRow, .readRow, .readRow]).1 =
      [.ok (.bool true), .ok (.bool true), .ok (.bool true), .ok (.bool false)] :=
  ⟨planned ifs, troubled, troubledReader, Demo.reader, troubled_ok, Demo.opened_ok, by decide +kernel, by decide +kernel,
    by decide +kernel, by decide +kernel⟩

end Sas.Props
