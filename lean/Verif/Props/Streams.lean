import Verif.Proofs.Streams
import Verif.Props.Throwing
import Verif.Props.Text

/-!
# Property C74: text that cannot be written
-/

namespace Sas.Props

open Sas Spec

variable {σ : Type} {step : List Column → Event → Printed × List Column}

/-- What `written` says about a run without exceptions: it is the text the sink writes. -/
theorem C74_written (evs : List Event) : ∀ (cols : List Column) (text : List Byte),
    runText step cols evs = (text, .ok ()) → written step cols evs = text := by
  induction evs with
  | nil => intro cols text h; cases h; rfl
  | cons e es ih =>
    intro cols text h
    rw [runText, Printed.andThen] at h
    rcases h1 : (step cols e).1.2 with x | u
    · rw [h1] at h; cases h
    · rw [h1] at h
      dsimp only at h
      rcases h2 : runText step (step cols e).2 es with ⟨t, r⟩
      rw [h2] at h
      simp only [Prod.mk.injEq] at h
      obtain ⟨h3, h4⟩ := h
      rw [written, ih _ t (by rw [h2, h4]), h3]

/-- **C74.** What arrives: the calls made on the sink have a text, and the first bytes of it, as many as the device has room
for, are on the device at the end; for every stream and every history, also with exceptions. -/
theorem C74_prefix {cfg : Cfg} {S : Source σ} {fuel : Nat} {filter : Option Filter} {s : σ} {o : Out} {T : TReader σ TextSink}
    (ho : Fresh o) (h : openThrowing (textSink step) cfg S fuel filter s ⟨o, []⟩ = .ok T) (ops : List Op) :
    (T.run (textSink step) S ops).2.sink.os.close.device =
      o.device ++ (written step [] (T.run (textSink step) S ops).2.reader.trace).take o.room := by
  obtain ⟨rest, h1, -, h3, -⟩ := C72_protocol (textSink step) h ops
  rw [h1, h3]
  have := Proofs.filled_calls (step := step) (.setProperties T.reader.props :: rest) ⟨o, []⟩ [] (Proofs.Filled.start ho)
  rw [List.nil_append] at this
  exact this.close

/-- **C74**, the negation in general. A stream as it is by default tells nobody that it has failed: with two of
them, whatever they have room for, a reader is opened or not with the same error, all calls have the same results,
exceptions included, and the sinks get the same calls. -/
theorem C74_silent (cfg : Cfg) (S : Source σ) (fuel : Nat) (filter : Option Filter) (s : σ) (o₁ o₂ : Out)
    (h₁ : o₁.throws = false) (h₂ : o₂.throws = false) :
    match openThrowing (textSink step) cfg S fuel filter s ⟨o₁, []⟩, openThrowing (textSink step) cfg S fuel filter s ⟨o₂, []⟩ with
    | .ok T₁, .ok T₂ => ∀ ops, (T₁.run (textSink step) S ops).1 = (T₂.run (textSink step) S ops).1 ∧
        (T₁.run (textSink step) S ops).2.reader = (T₂.run (textSink step) S ops).2.reader
    | .error e₁, .error e₂ => e₁ = e₂
    | _, _ => False := by
  unfold openThrowing
  cases h : openReader cfg S fuel filter s with
  | error e => rfl
  | ok R =>
    dsimp only
    have hm : Proofs.Mute ⟨o₁, []⟩ ⟨o₂, []⟩ := ⟨rfl, h₁, h₂⟩
    obtain ⟨g1, g2⟩ := Proofs.mute_alike (step := step) _ _ (.setProperties R.props) hm
    rcases c1 : (textSink step).call ⟨o₁, []⟩ (.setProperties R.props) with ⟨r1, k1⟩
    rcases c2 : (textSink step).call ⟨o₂, []⟩ (.setProperties R.props) with ⟨r2, k2⟩
    rw [c1, c2] at g1 g2
    dsimp only at g1 g2
    subst g1
    rcases r1 with x | u
    · rfl
    · intro ops
      have := Proofs.run_same (S := S) (Proofs.mute_alike (step := step)) ops (T₁ := ⟨R, k1⟩) (T₂ := ⟨R, k2⟩) ⟨rfl, g2⟩
      exact ⟨this.1, this.2.1⟩

/-- **C74**, partial. A stream that was told to throw (`exceptions(badbit)`), and a history in which no call has ended with
its exception: the whole text is on the device, up to what is still in the buffer. Missing, and false (`C74_refuted`):
the rest; the sinks do not flush, and the end of the stream's life reports nothing. -/
theorem C74_reported_partial {cfg : Cfg} {S : Source σ} {fuel : Nat} {filter : Option Filter} {s : σ} {o : Out}
    {T : TReader σ TextSink} (ho : Fresh o) (ht : o.throws = true)
    (h : openThrowing (textSink step) cfg S fuel filter s ⟨o, []⟩ = .ok T) (ops : List Op)
    (hr : .error (.sink .stream) ∉ (T.run (textSink step) S ops).1) :
    (T.run (textSink step) S ops).2.sink.os.device ++ (T.run (textSink step) S ops).2.sink.os.pend =
      o.device ++ written step [] (T.run (textSink step) S ops).2.reader.trace ∧
    (T.run (textSink step) S ops).2.sink.os.pend.length ≤ o.cap := by
  have start : Proofs.Heard o.device o.room ⟨o, []⟩ [] :=
    ⟨Proofs.Filled.start ho, ht, ho.bad, by simp [ho.pend]⟩
  have caps : ∀ (es : List Event) (k : TextSink), (afterCalls (textSink step) k es).os.cap = k.os.cap := by
    intro es
    induction es with
    | nil => exact fun _ => rfl
    | cons e es ih =>
      intro k
      have := ih ((textSink step).call k e).2
      rw [Proofs.call_os] at this
      refine Eq.trans this ?_
      unfold Out.write
      split
      · rfl
      split
      · rfl
      split <;> rfl
  have hopen := C72_open (textSink step) cfg S fuel filter s ⟨o, []⟩
  cases hR : openReader cfg S fuel filter s with
  | error e => rw [hR] at hopen; rw [show openThrowing _ cfg S fuel filter s _ = _ from hopen] at h; cases h
  | ok R =>
    have htr : R.trace = [.setProperties R.props] := (openReader_spec hR).2.2
    rw [hR] at hopen
    dsimp only at hopen
    cases hc : ((textSink step).call ⟨o, []⟩ (.setProperties R.props)).1 with
    | error x => rw [hc] at hopen; rw [show openThrowing _ cfg S fuel filter s _ = _ from hopen] at h; cases h
    | ok u =>
      rw [hc] at hopen
      rw [show openThrowing _ cfg S fuel filter s _ = _ from hopen] at h
      cases h
      have first : Proofs.Heard o.device o.room (afterCalls (textSink step) ⟨o, []⟩ R.trace) (written step [] R.trace) := by
        have := start.calls (step := step) R.trace ⟨o, []⟩ [] (by rw [htr]; exact ⟨hc, trivial⟩)
        simpa using this
      have hcap : (afterCalls (textSink step) ⟨o, []⟩ R.trace).os.cap = o.cap := caps _ _
      have hcols : (afterCalls (textSink step) ⟨o, []⟩ R.trace).cols = R.trace.foldl (fun c e => (step c e).2) [] :=
        Proofs.afterCalls_cols _ _
      suffices key : ∀ (ops : List Op) (T : TReader σ TextSink),
          Proofs.Heard o.device o.room T.sink (written step [] T.reader.trace) → T.sink.os.cap = o.cap →
          T.sink.cols = T.reader.trace.foldl (fun c e => (step c e).2) [] →
          .error (.sink .stream) ∉ (T.run (textSink step) S ops).1 →
          Proofs.Heard o.device o.room (T.run (textSink step) S ops).2.sink
            (written step [] (T.run (textSink step) S ops).2.reader.trace) ∧
          (T.run (textSink step) S ops).2.sink.os.cap = o.cap by
        obtain ⟨k1, k2⟩ := key ops ⟨R, afterCalls (textSink step) ⟨o, []⟩ R.trace⟩ first hcap hcols hr
        obtain ⟨d, e1, e2, -, -⟩ := k1.filled.good k1.good
        rw [e1, List.append_assoc, ← e2]
        exact ⟨rfl, by rw [← k2]; exact k1.small⟩
      clear hr
      intro ops
      induction ops with
      | nil => exact fun T h1 h2 _ _ => ⟨h1, h2⟩
      | cons op ops ih =>
        intro T h1 h2 h3 h4
        obtain ⟨es, a1, a2, a3⟩ := (step_like (K := textSink step) (S := S) T op).2
        rw [TReader.run] at h4 ⊢
        rcases hx : T.step (textSink step) S op with ⟨r, T1⟩
        rw [hx] at h4 a1 a2 a3
        dsimp only at a1 a2 a3
        have hne : r ≠ .error (.sink .stream) := by
          rintro rfl
          exact h4 (List.mem_cons_self ..)
        have g1 : Proofs.Heard o.device o.room T1.sink (written step [] T1.reader.trace) := by
          have := h1.outcome a3 hne
          rw [a2, a1, Proofs.written_append, ← h3]
          exact this
        have g2 : T1.sink.os.cap = o.cap := by rw [a2, caps, h2]
        have g3 : T1.sink.cols = T1.reader.trace.foldl (fun c e => (step c e).2) [] := by
          rw [a2, a1, Proofs.afterCalls_cols, h3, List.foldl_append]
        rcases r with ((e | x) | v)
        · cases e with
          | exn e => exact ih T1 g1 g2 g3 (fun hm => h4 (List.mem_cons_of_mem _ hm))
          | terminate => exact ⟨g1, g2⟩
          | ub => exact ⟨g1, g2⟩
          | fuel => exact ⟨g1, g2⟩
        · exact ih T1 g1 g2 g3 (fun hm => h4 (List.mem_cons_of_mem _ hm))
        · exact ih T1 g1 g2 g3 (fun hm => h4 (List.mem_cons_of_mem _ hm))

/-- **C74** for the csv sink: a default stream with room for `n` bytes holds the first `n` bytes of the text of C29, and the
calls return what they return when nothing fails. -/
theorem C74_csv (x : Texts) {cfg : Cfg} {S : Source σ} {fuel : Nat} {filter : Option Filter} {s : σ} {o : Out}
    {T : TReader σ TextSink} (ho : Fresh o)
    (h : openThrowing (textSink (csvStep x)) cfg S fuel filter s ⟨o, []⟩ = .ok T) (ops : List Op) {text : List Byte}
    (ht : csvText x (T.run (textSink (csvStep x)) S ops).2.reader.trace = (text, .ok ())) :
    (T.run (textSink (csvStep x)) S ops).2.sink.os.close.device = o.device ++ text.take o.room := by
  rw [C74_prefix ho h ops, C74_written _ [] text ht]

/-- **C74** for the print sink, with the text of C58. -/
theorem C74_print (x : Texts) {cfg : Cfg} {S : Source σ} {fuel : Nat} {filter : Option Filter} {s : σ} {o : Out}
    {T : TReader σ TextSink} (ho : Fresh o)
    (h : openThrowing (textSink (printStep x)) cfg S fuel filter s ⟨o, []⟩ = .ok T) (ops : List Op) {text : List Byte}
    (ht : printText x (T.run (textSink (printStep x)) S ops).2.reader.trace = (text, .ok ())) :
    (T.run (textSink (printStep x)) S ops).2.sink.os.close.device = o.device ++ text.take o.room := by
  rw [C74_prefix ho h ops, C74_written _ [] text ht]

/-! ## Cases -/

/-- An empty device with room for `room` bytes. -/
def emptyOut (room cap : Nat) (throws : Bool) : Out := ⟨room, cap, [], [], false, throws⟩

/-- The demonstration file read into the csv sink on a stream. -/
def demoCsv (o : Out) : TReader IFStream TextSink :=
  ⟨Demo.reader, ((textSink (csvStep someTexts)).call ⟨o, []⟩ (.setProperties Demo.reader.props)).2⟩

theorem demoCsv_ok (o : Out) (h : ((textSink (csvStep someTexts)).call ⟨o, []⟩ (.setProperties Demo.reader.props)).1 = .ok ()) :
    openThrowing (textSink (csvStep someTexts)) Demo.cfg ifs 10 none (IFStream.open Demo.file) ⟨o, []⟩ = .ok (demoCsv o) := by
  unfold openThrowing
  rw [show openReader Demo.cfg ifs 10 none (IFStream.open Demo.file) = .ok Demo.reader from Demo.opened_ok]
  dsimp only
  rcases hc : (textSink (csvStep someTexts)).call ⟨o, []⟩ (.setProperties Demo.reader.props) with ⟨(x | u), k'⟩
  · rw [hc] at h; cases h
  · rw [demoCsv, hc]

/-- **C74** does not hold: reading the whole demonstration file succeeds, and the text is not on the device in the end: only its
first five bytes are with a default stream on a device with room for five, and none of it is, on a device that is full, even with
a stream that throws, because the buffer is larger than the text. -/
theorem C74_refuted :
    (∃ T, openThrowing (textSink (csvStep someTexts)) Demo.cfg ifs 10 none (IFStream.open Demo.file) ⟨emptyOut 5 0 false, []⟩ = .ok T ∧
      (T.run (textSink (csvStep someTexts)) ifs [.readAll]).1 = [.ok .unit] ∧
      (pushes (T.run (textSink (csvStep someTexts)) ifs [.readAll]).2.reader.trace).length = 3 ∧
      (T.run (textSink (csvStep someTexts)) ifs [.readAll]).2.sink.os.close.device = ascii "\"ID\",") ∧
    (∃ T, openThrowing (textSink (csvStep someTexts)) Demo.cfg ifs 10 none (IFStream.open Demo.file) ⟨emptyOut 0 8191 true, []⟩ = .ok T ∧
      (T.run (textSink (csvStep someTexts)) ifs [.readAll]).1 = [.ok .unit] ∧
      (pushes (T.run (textSink (csvStep someTexts)) ifs [.readAll]).2.reader.trace).length = 3 ∧
      (T.run (textSink (csvStep someTexts)) ifs [.readAll]).2.sink.os.close.device = []) :=
  ⟨⟨demoCsv _, demoCsv_ok _ (by decide +kernel), by decide +kernel, by decide +kernel, by decide +kernel⟩,
   ⟨demoCsv _, demoCsv_ok _ (by decide +kernel), by decide +kernel, by decide +kernel, by decide +kernel⟩⟩

/-- A stream that throws, with a small buffer: the failure is reported, in the call that has noticed it and in all later ones
that write. -/
example : ((demoCsv (emptyOut 15 4 true)).run (textSink (csvStep someTexts)) ifs [.readRow, .readRow, .readAll, .readRow]).1 =
    [.error (.sink .stream), .error (.sink .stream), .error (.sink .stream), .ok (.bool false)] := by decide +kernel

/-- The hypotheses of C74_reported_partial and C74_csv are met. -/
example : Fresh (emptyOut 1000 16 true) ∧
    ((textSink (csvStep someTexts)).call ⟨emptyOut 1000 16 true, []⟩ (.setProperties Demo.reader.props)).1 = .ok () ∧
    ((demoCsv (emptyOut 1000 16 true)).run (textSink (csvStep someTexts)) ifs [.readAll]).1 = [.ok .unit] ∧
    (csvText someTexts ((demoCsv (emptyOut 1000 16 true)).run (textSink (csvStep someTexts)) ifs [.readAll]).2.reader.trace).2
      = .ok () :=
  ⟨⟨rfl, rfl⟩, by decide +kernel, by decide +kernel, by decide +kernel⟩

end Sas.Props
