import Verif.Proofs.Filters
import Verif.Props.Columns
import Verif.Props.Header

/-!
# Property C93: a filter of the user's own is asked once about each column
-/

namespace Sas.Props

open Sas Spec

variable {σ τ φ δ ε : Type}

/-- C93. A file that can be opened, and a filter that answers each time, whatever it remembers: it is asked once about
each column, in the order of the file. The sink is then told the properties with the columns that were accepted, and
nothing else has changed: all later calls have the same results and hand over the same rows as without a filter. If the
sink throws there is no reader. -/
theorem C93_asked (F : FilterCode φ δ) (K : SinkCode τ ε) (cfg : Cfg) (S : Source σ) (fuel : Nat) (s : σ) (R : Reader σ)
    (hR : openReader cfg S fuel none s = .ok R) (f f' : φ) (a : List (Column × Bool))
    (ha : a.map (fun x => x.1) = R.props.columns) (hf : Answers F f a f') (k : τ) :
    ∃ R' : Reader σ, R'.props = { R.props with columns := accepted a } ∧ R'.trace = [.setProperties R'.props] ∧
      (∀ ops, (R'.run S ops).1 = (R.run S ops).1 ∧ pushes (R'.run S ops).2.trace = pushes (R.run S ops).2.trace ∧
        (R'.run S ops).2.currentRowIndex = (R.run S ops).2.currentRowIndex) ∧
      openAsking F K cfg S fuel s f k =
        match K.call k (.setProperties R'.props) with
        | (.ok (), k') => (.ok ⟨R', k'⟩, f', k')
        | (.error x, k') => (.error (.sink x), f', k') := by
  have ht : R.trace = [.setProperties R.props] := by
    unfold openReader at hR
    obtain ⟨⟨hd, b, s1⟩, _, hR⟩ := bind_ok_inv hR
    obtain ⟨⟨p, acc⟩, _, hR⟩ := bind_ok_inv hR
    obtain ⟨cols, hc, hR⟩ := bind_ok_inv hR
    obtain ⟨rd, _, hR⟩ := bind_ok_inv hR
    cases hR
    rfl
  refine ⟨R.withCols (accepted a), rfl, ?_, fun ops => ?_, ?_⟩
  · simp only [Reader.withCols, ht, List.map_cons, List.map_nil, Event.withCols]
  · have hp : ∀ es : List Event, pushes (es.map (Event.withCols (accepted a))) = pushes es := by
      intro es
      induction es with
      | nil => rfl
      | cons e es ih => cases e <;> simp [Event.withCols, pushes, ih]
    rw [Reader.withCols_run]
    exact ⟨rfl, hp _, rfl⟩
  · rw [openAsking_ok F K hR, (askAll_ok F _ _ _ _).2 ⟨a, ha, hf, rfl⟩]
    rfl

/-- C93. A filter that throws when it is asked about a column: the constructor throws the same exception. The filter
has been asked about the columns up to that one, and the sink has been told nothing. -/
theorem C93_throws (F : FilterCode φ δ) (K : SinkCode τ ε) (cfg : Cfg) (S : Source σ) (fuel : Nat) (s : σ) (R : Reader σ)
    (hR : openReader cfg S fuel none s = .ok R) (f f' : φ) (x : δ) (hf : ThrowsAt F f R.props.columns x f') (k : τ) :
    openAsking F K cfg S fuel s f k = (.error (.filter x), f', k) := by
  rw [openAsking_ok F K hR, (askAll_error F _ _ _ _).2 hf]

/-- C93. Every filter does one of the two, and there is only one way to do it. -/
theorem C93_either (F : FilterCode φ δ) (f : φ) (cols : List Column) :
    (∃ a f', (a.map (fun x => x.1) = cols ∧ Answers F f a f') ∧
      ∀ a1 f1, a1.map (fun x => x.1) = cols → Answers F f a1 f1 → a1 = a ∧ f1 = f') ∨
    (∃ x f', ThrowsAt F f cols x f' ∧ ∀ x1 f1, ThrowsAt F f cols x1 f1 → x1 = x ∧ f1 = f') := by
  generalize h : askAll F f cols = y
  obtain ⟨r, f'⟩ := y
  cases r with
  | ok l =>
    obtain ⟨a, h1, h2, h3⟩ := (askAll_ok F _ _ _ _).1 h
    refine .inl ⟨a, f', ⟨h1, h2⟩, ?_⟩
    clear h h3 l
    intro a1 f1 h3 h4
    rw [← h3] at h1
    clear h3
    induction h2 generalizing a1 with
    | nil f =>
      rw [List.map_nil] at h1
      have := List.map_eq_nil_iff.1 h1.symm
      subst this
      cases h4
      exact ⟨rfl, rfl⟩
    | cons hc hl ih =>
      cases h4 with
      | nil => simp at h1
      | cons hc1 hl1 =>
        simp only [List.map_cons, List.cons.injEq] at h1
        obtain ⟨rfl, h1⟩ := h1
        rw [hc] at hc1
        cases hc1
        obtain ⟨rfl, rfl⟩ := ih _ h1 hl1
        exact ⟨rfl, rfl⟩
  | error x =>
    refine .inr ⟨x, f', (askAll_error F _ _ _ _).1 h, fun x1 f1 h1 => ?_⟩
    rw [(askAll_error F _ _ _ _).2 h1] at h
    cases h
    exact ⟨rfl, rfl⟩

/-- C93. A file that cannot be opened cannot be opened with a filter either: the error is the same, unless the filter
has thrown before. The sink is told nothing. -/
theorem C93_fails (F : FilterCode φ δ) (K : SinkCode τ ε) (cfg : Cfg) (S : Source σ) (fuel : Nat) (s : σ) (e : Stop)
    (hR : openReader cfg S fuel none s = .error e) (f : φ) (k : τ) :
    ∃ cols, (∃ a f', a.map (fun x => x.1) = cols ∧ Answers F f a f' ∧
        openAsking F K cfg S fuel s f k = (.error (.reader e), f', k)) ∨
      (∃ x f', ThrowsAt F f cols x f' ∧ openAsking F K cfg S fuel s f k = (.error (.filter x), f', k)) := by
  obtain ⟨cols, h⟩ := openAsking_error F K hR f k
  refine ⟨cols, ?_⟩
  generalize hy : askAll F f cols = y at h
  obtain ⟨r, f'⟩ := y
  cases r with
  | ok l =>
    obtain ⟨a, h1, h2, -⟩ := (askAll_ok F _ _ _ _).1 hy
    exact .inl ⟨a, f', h1, h2, h⟩
  | error x => exact .inr ⟨x, f', (askAll_error F _ _ _ _).1 hy, h⟩

/-- C93. A filter that is a function of the column: the reader is the one of C21. -/
theorem C93_function (accept : Filter) (K : SinkCode τ ε) (cfg : Cfg) (S : Source σ) (fuel : Nat) (s : σ) (k : τ)
    (T : TReader σ τ) :
    (openAsking (⟨fun _ c => (.ok (accept c), ())⟩ : FilterCode Unit Empty) K cfg S fuel s () k).1 = .ok T ↔
      openThrowing K cfg S fuel (some accept) s k = .ok T := by
  have hask : ∀ cols : List Column,
      askAll (⟨fun _ c => (.ok (accept c), ())⟩ : FilterCode Unit Empty) () cols = (.ok (cols.filter accept), ()) := by
    intro cols
    induction cols with
    | nil => rfl
    | cons c cols ih =>
      rw [askAll]
      simp only
      rw [ih, List.filter_cons]
  unfold openThrowing
  rw [openReader_filter]
  cases hR : openReader cfg S fuel none s with
  | error e =>
    obtain ⟨cols, h⟩ := openAsking_error (⟨fun _ c => (.ok (accept c), ())⟩ : FilterCode Unit Empty) K hR () k
    rw [h, hask]
    simp [Except.map]
  | ok R =>
    rw [openAsking_ok _ K hR, hask]
    simp only [Except.map]
    rw [show (R.props.columns.filter (keeps (some accept))) = R.props.columns.filter accept from rfl]
    rw [show ({ R.props with columns := R.props.columns.filter accept } : Properties) =
      (R.withCols (R.props.columns.filter accept)).props from rfl]
    generalize K.call k _ = q
    obtain ⟨q, k'⟩ := q
    cases q <;> simp

/-! ## Cases -/

/-- A filter that accepts the first `n` columns it is asked about, and counts them; a sink that writes down the calls. -/
def firstColumns (n : Nat) : FilterCode Nat String := ⟨fun f _ => (.ok (decide (f < n)), f + 1)⟩

/-- A filter that does not want to be asked about strings. -/
def noStrings : FilterCode Nat String :=
  ⟨fun f c => (if c.type = .string then .error "no strings, please" else .ok true, f + 1)⟩

def notes : SinkCode (List Event) String := ⟨fun l e => (.ok (), l ++ [e])⟩

/-- The hypotheses of C93 are met: the first column of the demonstration file is accepted, the second is not. -/
example : ∃ R', R'.props.columns.map (·.name) = [textBytes "ID"] ∧
    openAsking (firstColumns 1) notes Demo.cfg ifs 10 (IFStream.open Demo.file) 0 [] =
      (.ok ⟨R', [.setProperties R'.props]⟩, 2, [.setProperties R'.props]) := by
  have h : ∃ c0 c1, Demo.reader.props.columns = [c0, c1] ∧ c0.name = textBytes "ID" := by
    have hl : Demo.reader.props.columns.length = 2 := by decide +kernel
    generalize hc : Demo.reader.props.columns = cols at hl
    obtain ⟨c0, c1, rfl⟩ := List.length_eq_two.1 hl
    refine ⟨c0, c1, rfl, ?_⟩
    have : Demo.reader.props.columns.head?.map (·.name) = some (textBytes "ID") := by decide +kernel
    rw [hc] at this
    simpa using this
  obtain ⟨c0, c1, hc, hn⟩ := h
  obtain ⟨R', h1, h2, -, h3⟩ := C93_asked (firstColumns 1) notes Demo.cfg ifs 10 _ Demo.reader Demo.opened_ok 0 2
    [(c0, true), (c1, false)] (by rw [hc]; rfl) (.cons rfl (.cons rfl (.nil _))) []
  exact ⟨R', by rw [h1]; simp [accepted, hn], h3⟩

/-- A filter that throws: it has been asked about both columns, and the sink has not been called. -/
example : openAsking noStrings notes Demo.cfg ifs 10 (IFStream.open Demo.file) 0 [] =
    (.error (.filter "no strings, please"), 2, []) := by
  have h : ∃ c0 c1, Demo.reader.props.columns = [c0, c1] ∧ c0.type ≠ .string ∧ c1.type = .string := by
    have hl : Demo.reader.props.columns.length = 2 := by decide +kernel
    generalize hc : Demo.reader.props.columns = cols at hl
    obtain ⟨c0, c1, rfl⟩ := List.length_eq_two.1 hl
    have : Demo.reader.props.columns.map (fun c => decide (c.type = .string)) = [false, true] := by decide +kernel
    rw [hc] at this
    simp at this
    exact ⟨c0, c1, rfl, this.1, this.2⟩
  obtain ⟨c0, c1, hc, h0, h1⟩ := h
  exact C93_throws noStrings notes Demo.cfg ifs 10 _ Demo.reader Demo.opened_ok 0 2 _
    ⟨[(c0, true)], c1, [], 1, by rw [hc]; rfl, .cons (by simp [noStrings, h0]) (.nil _), by simp [noStrings, h1]⟩ []

/-- A file that cannot be opened: it is empty. -/
example : ∃ f', openAsking (firstColumns 1) notes Demo.cfg ifs 10 (IFStream.open []) 0 [] =
    (.error (.reader (.exn .headerTooShort)), f', []) := by
  obtain ⟨cols, ⟨a, f', -, -, h⟩ | ⟨x, f', ⟨_, _, _, _, -, -, h⟩, -⟩⟩ := C93_fails (firstColumns 1) notes Demo.cfg ifs 10 (IFStream.open []) _
    ((C11_file Demo.cfg 10 none [] (by decide +kernel)).1 (by decide)) 0 []
  · exact ⟨f', h⟩
  · cases h

end Sas.Props
