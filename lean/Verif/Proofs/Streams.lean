import Verif.Spec.Streams
import Verif.Proofs.Throwing

namespace Sas.Proofs
open Sas Sas.Spec

variable {σ τ₁ τ₂ ε : Type} {S : Source σ}

/-! ## Two sinks that behave alike -/

/-- The answers of two sinks are the same, and they go on like that. -/
def Alike (K₁ : SinkCode τ₁ ε) (K₂ : SinkCode τ₂ ε) (Q : τ₁ → τ₂ → Prop) : Prop :=
  ∀ a b e, Q a b → (K₁.call a e).1 = (K₂.call b e).1 ∧ Q (K₁.call a e).2 (K₂.call b e).2

/-- The same reader with two sinks. -/
def Same (Q : τ₁ → τ₂ → Prop) (T₁ : TReader σ τ₁) (T₂ : TReader σ τ₂) : Prop :=
  T₁.reader = T₂.reader ∧ Q T₁.sink T₂.sink

variable {K₁ : SinkCode τ₁ ε} {K₂ : SinkCode τ₂ ε} {Q : τ₁ → τ₂ → Prop}

theorem emit_same (hA : Alike K₁ K₂ Q) {T₁ : TReader σ τ₁} {T₂ : TReader σ τ₂} (h : Same Q T₁ T₂) (e : Event) :
    (T₁.emit K₁ e).1 = (T₂.emit K₂ e).1 ∧ Same Q (T₁.emit K₁ e).2 (T₂.emit K₂ e).2 := by
  obtain ⟨h1, h2⟩ := hA _ _ e h.2
  unfold TReader.emit
  rcases g1 : K₁.call T₁.sink e with ⟨r1, s1⟩
  rcases g2 : K₂.call T₂.sink e with ⟨r2, s2⟩
  rw [g1, g2] at h1 h2
  dsimp only at h1 h2
  subst h1
  rcases r1 with x | ⟨⟨⟩⟩
  · exact ⟨rfl, by dsimp only; rw [h.1], h2⟩
  · exact ⟨rfl, by dsimp only; rw [h.1], h2⟩

theorem readRow_same (hA : Alike K₁ K₂ Q) {T₁ : TReader σ τ₁} {T₂ : TReader σ τ₂} (h : Same Q T₁ T₂) :
    (T₁.readRow K₁ S).1 = (T₂.readRow K₂ S).1 ∧ Same Q (T₁.readRow K₁ S).2 (T₂.readRow K₂ S).2 := by
  obtain ⟨R, k1⟩ := T₁
  obtain ⟨R', k2⟩ := T₂
  obtain ⟨h1, h2⟩ := h
  dsimp only at h1 h2
  subst h1
  unfold TReader.readRow
  dsimp only
  rcases g : R.rd.readLine R.env S R.props.md with ⟨(e | (_ | row)), rd⟩
  · exact ⟨rfl, rfl, h2⟩
  · dsimp only
    have := emit_same hA (T₁ := ⟨{ R with rd := rd }, k1⟩) (T₂ := ⟨{ R with rd := rd }, k2⟩) ⟨rfl, h2⟩ .endOfData
    rcases a1 : TReader.emit K₁ ⟨{ R with rd := rd }, k1⟩ .endOfData with ⟨r1, U1⟩
    rcases a2 : TReader.emit K₂ ⟨{ R with rd := rd }, k2⟩ .endOfData with ⟨r2, U2⟩
    rw [a1, a2] at this
    obtain ⟨b1, b2⟩ := this
    dsimp only at b1 b2
    subst b1
    rcases r1 with x | ⟨⟨⟩⟩
    · exact ⟨rfl, b2⟩
    · exact ⟨rfl, b2⟩
  · dsimp only
    have := emit_same hA (T₁ := ⟨{ R with rd := rd }, k1⟩) (T₂ := ⟨{ R with rd := rd }, k2⟩) ⟨rfl, h2⟩
      (.pushRow R.currentRowIndex row)
    rcases a1 : TReader.emit K₁ ⟨{ R with rd := rd }, k1⟩ (.pushRow R.currentRowIndex row) with ⟨r1, U1⟩
    rcases a2 : TReader.emit K₂ ⟨{ R with rd := rd }, k2⟩ (.pushRow R.currentRowIndex row) with ⟨r2, U2⟩
    rw [a1, a2] at this
    obtain ⟨b1, b2⟩ := this
    dsimp only at b1 b2
    subst b1
    rcases r1 with x | ⟨⟨⟩⟩
    · exact ⟨rfl, b2⟩
    · exact ⟨rfl, b2⟩

theorem skip_same (hA : Alike K₁ K₂ Q) {T₁ : TReader σ τ₁} {T₂ : TReader σ τ₂} (h : Same Q T₁ T₂) (n : Nat) :
    (T₁.skip K₁ S n).1 = (T₂.skip K₂ S n).1 ∧ Same Q (T₁.skip K₁ S n).2 (T₂.skip K₂ S n).2 := by
  obtain ⟨R, k1⟩ := T₁
  obtain ⟨R', k2⟩ := T₂
  obtain ⟨h1, h2⟩ := h
  dsimp only at h1 h2
  subst h1
  unfold TReader.skip
  dsimp only
  rcases g : R.rd.skip R.env S R.props.md n with ⟨(e | (_ | _)), rd⟩
  · exact ⟨rfl, rfl, h2⟩
  · dsimp only
    have := emit_same hA (T₁ := ⟨{ R with rd := rd }, k1⟩) (T₂ := ⟨{ R with rd := rd }, k2⟩) ⟨rfl, h2⟩ .endOfData
    rcases a1 : TReader.emit K₁ ⟨{ R with rd := rd }, k1⟩ .endOfData with ⟨r1, U1⟩
    rcases a2 : TReader.emit K₂ ⟨{ R with rd := rd }, k2⟩ .endOfData with ⟨r2, U2⟩
    rw [a1, a2] at this
    obtain ⟨b1, b2⟩ := this
    dsimp only at b1 b2
    subst b1
    rcases r1 with x | ⟨⟨⟩⟩
    · exact ⟨rfl, b2⟩
    · exact ⟨rfl, b2⟩
  · exact ⟨rfl, rfl, h2⟩

theorem noSink_same {T₁ : TReader σ τ₁} {T₂ : TReader σ τ₂} (h : Same Q T₁ T₂) :
    (T₁.readRowNoSink S : TRes ε _ × _).1 = (T₂.readRowNoSink S).1 ∧
    Same Q (T₁.readRowNoSink S : TRes ε _ × _).2 (T₂.readRowNoSink S : TRes ε _ × _).2 := by
  obtain ⟨R, k1⟩ := T₁
  obtain ⟨R', k2⟩ := T₂
  obtain ⟨h1, h2⟩ := h
  dsimp only at h1 h2
  subst h1
  unfold TReader.readRowNoSink
  dsimp only
  rcases g : R.rd.readLine R.env S R.props.md with ⟨(e | r), rd⟩ <;> exact ⟨rfl, rfl, h2⟩

theorem readRows_same (hA : Alike K₁ K₂ Q) : ∀ (n : Nat) {T₁ : TReader σ τ₁} {T₂ : TReader σ τ₂}, Same Q T₁ T₂ →
    (T₁.readRows K₁ S n).1 = (T₂.readRows K₂ S n).1 ∧ Same Q (T₁.readRows K₁ S n).2 (T₂.readRows K₂ S n).2 := by
  intro n
  induction n with
  | zero => exact fun h => ⟨rfl, h⟩
  | succ n ih =>
    intro T₁ T₂ h
    have := readRow_same (S := S) hA h
    unfold TReader.readRows
    rcases a1 : T₁.readRow K₁ S with ⟨r1, U1⟩
    rcases a2 : T₂.readRow K₂ S with ⟨r2, U2⟩
    rw [a1, a2] at this
    obtain ⟨b1, b2⟩ := this
    dsimp only at b1 b2
    subst b1
    rcases r1 with x | (_ | _)
    · exact ⟨rfl, b2⟩
    · exact ⟨rfl, b2⟩
    · exact ih b2

theorem readAllLoop_same (hA : Alike K₁ K₂ Q) : ∀ (n : Nat) {T₁ : TReader σ τ₁} {T₂ : TReader σ τ₂}, Same Q T₁ T₂ →
    (T₁.readAllLoop K₁ S n).1 = (T₂.readAllLoop K₂ S n).1 ∧ Same Q (T₁.readAllLoop K₁ S n).2 (T₂.readAllLoop K₂ S n).2 := by
  intro n
  induction n with
  | zero => exact fun h => ⟨rfl, h⟩
  | succ n ih =>
    intro T₁ T₂ h
    have := readRow_same (S := S) hA h
    unfold TReader.readAllLoop
    rcases a1 : T₁.readRow K₁ S with ⟨r1, U1⟩
    rcases a2 : T₂.readRow K₂ S with ⟨r2, U2⟩
    rw [a1, a2] at this
    obtain ⟨b1, b2⟩ := this
    dsimp only at b1 b2
    subst b1
    rcases r1 with x | (_ | _)
    · exact ⟨rfl, b2⟩
    · exact ⟨rfl, b2⟩
    · exact ih b2

theorem step_same (hA : Alike K₁ K₂ Q) {T₁ : TReader σ τ₁} {T₂ : TReader σ τ₂} (h : Same Q T₁ T₂) (op : Op) :
    (T₁.step K₁ S op).1 = (T₂.step K₂ S op).1 ∧ Same Q (T₁.step K₁ S op).2 (T₂.step K₂ S op).2 := by
  cases op with
  | readRow =>
    have := readRow_same (S := S) hA h
    exact ⟨congrArg (Except.map Ret.bool) this.1, this.2⟩
  | readRows n =>
    have := readRows_same (S := S) hA n h
    exact ⟨congrArg (Except.map Ret.bool) this.1, this.2⟩
  | readAll =>
    have := readAllLoop_same (S := S) hA (T₁.reader.props.md.rowCount - T₁.reader.rd.row + 1) h
    have e : T₂.readAll K₂ S = T₂.readAllLoop K₂ S (T₁.reader.props.md.rowCount - T₁.reader.rd.row + 1) := by
      rw [TReader.readAll, h.1]
    refine ⟨congrArg (Except.map fun _ => Ret.unit) (?_ : (T₁.readAll K₁ S).1 = (T₂.readAll K₂ S).1), ?_⟩
    · rw [e]; exact this.1
    · show Same Q (T₁.readAll K₁ S).2 (T₂.readAll K₂ S).2
      rw [e]; exact this.2
  | skip n =>
    have := skip_same (S := S) hA h n
    exact ⟨congrArg (Except.map Ret.bool) this.1, this.2⟩
  | readRowNoSink =>
    have := noSink_same (S := S) (ε := ε) h
    exact ⟨congrArg (Except.map Ret.ptr) this.1, this.2⟩
  | endOfData =>
    have := emit_same hA h .endOfData
    exact ⟨congrArg (Except.map fun _ => Ret.unit) this.1, this.2⟩

theorem run_same (hA : Alike K₁ K₂ Q) : ∀ (ops : List Op) {T₁ : TReader σ τ₁} {T₂ : TReader σ τ₂}, Same Q T₁ T₂ →
    (T₁.run K₁ S ops).1 = (T₂.run K₂ S ops).1 ∧ Same Q (T₁.run K₁ S ops).2 (T₂.run K₂ S ops).2 := by
  intro ops
  induction ops with
  | nil => exact fun h => ⟨rfl, h⟩
  | cons op ops ih =>
    intro T₁ T₂ h
    have := step_same (S := S) hA h op
    rw [TReader.run, TReader.run]
    rcases a1 : T₁.step K₁ S op with ⟨r1, U1⟩
    rcases a2 : T₂.step K₂ S op with ⟨r2, U2⟩
    rw [a1, a2] at this
    obtain ⟨b1, b2⟩ := this
    dsimp only at b1 b2
    subst b1
    obtain ⟨c1, c2⟩ := ih b2
    rcases r1 with ((e | x) | v)
    · cases e with
      | exn e => exact ⟨by dsimp only; rw [c1], c2⟩
      | terminate => exact ⟨rfl, b2⟩
      | ub => exact ⟨rfl, b2⟩
      | fuel => exact ⟨rfl, b2⟩
    · exact ⟨by dsimp only; rw [c1], c2⟩
    · exact ⟨by dsimp only; rw [c1], c2⟩

/-! ## The stream -/

variable {step : List Column → Event → Printed × List Column}

theorem written_append (a b : List Event) : ∀ cols, written step cols (a ++ b) =
    written step cols a ++ written step (a.foldl (fun c e => (step c e).2) cols) b := by
  induction a with
  | nil => exact fun _ => rfl
  | cons e a ih =>
    intro cols
    simp only [List.cons_append, written, ih, List.foldl_cons, List.append_assoc]

theorem call_cols (k : TextSink) (e : Event) : ((textSink step).call k e).2.cols = (step k.cols e).2 := by
  simp only [textSink]
  rcases k.os.write (step k.cols e).1.1 with ⟨(_ | _), o⟩ <;> rfl

theorem call_os (k : TextSink) (e : Event) : ((textSink step).call k e).2.os = (k.os.write (step k.cols e).1.1).2 := by
  simp only [textSink]
  rcases k.os.write (step k.cols e).1.1 with ⟨(_ | _), o⟩ <;> rfl

theorem call_stream (k : TextSink) (e : Event) :
    ((textSink step).call k e).1 = .error .stream ↔ (k.os.write (step k.cols e).1.1).1 = true := by
  simp only [textSink]
  rcases k.os.write (step k.cols e).1.1 with ⟨(_ | _), o⟩
  · rcases (step k.cols e).1.2 with x | ⟨⟨⟩⟩ <;> simp
  · simp

/-- The first `room` bytes of what has been written are on the device or on their way to it. -/
structure Filled (base : List Byte) (room : Nat) (o : Out) (t : List Byte) : Prop where
  good : o.bad = false → ∃ d, o.device = base ++ d ∧ t = d ++ o.pend ∧ d.length ≤ room ∧ o.room = room - d.length
  full : o.bad = true → o.device = base ++ t.take room ∧ o.pend = [] ∧ o.room = 0 ∧ room ≤ t.length

theorem Filled.start {o : Out} (h : Fresh o) : Filled o.device o.room o [] :=
  ⟨fun _ => ⟨[], by simp, by simp [h.pend], by simp, by simp⟩, fun hb => by rw [h.bad] at hb; cases hb⟩

theorem Filled.sync {base : List Byte} {room : Nat} {o : Out} {t : List Byte} (h : Filled base room o t) :
    Filled base room o.sync t := by
  cases hb : o.bad with
  | false =>
    obtain ⟨d, h1, h2, h3, h4⟩ := h.good hb
    constructor
    · intro hs
      have hle : o.pend.length ≤ o.room := by
        simp only [Out.sync, hb, Bool.false_or, decide_eq_false_iff_not] at hs
        omega
      refine ⟨d ++ o.pend, ?_, ?_, ?_, ?_⟩
      · simp only [Out.sync, h1, List.take_of_length_le hle, List.append_assoc]
      · simp [Out.sync, h2]
      · simp only [List.length_append]; omega
      · simp only [Out.sync, List.length_append]; omega
    · intro hs
      have hlt : o.room < o.pend.length := by
        simp only [Out.sync, hb, Bool.false_or, decide_eq_true_eq] at hs
        exact hs
      refine ⟨?_, rfl, ?_, ?_⟩
      · simp only [Out.sync, h1, h2, h4, List.append_assoc, List.take_append, List.take_of_length_le h3]
      · simp only [Out.sync]; omega
      · rw [h2, List.length_append]; omega
  | true =>
    obtain ⟨h1, h2, h3, h4⟩ := h.full hb
    constructor
    · intro hs
      simp [Out.sync, hb] at hs
    · intro _
      exact ⟨by simp [Out.sync, h1, h2], rfl, by simp [Out.sync, h3], h4⟩

theorem Filled.more {base : List Byte} {room : Nat} {o : Out} {t u : List Byte} (h : Filled base room o t)
    (hb : o.bad = false) : Filled base room { o with pend := o.pend ++ u } (t ++ u) := by
  obtain ⟨d, h1, h2, h3, h4⟩ := h.good hb
  exact ⟨fun _ => ⟨d, h1, by rw [h2, List.append_assoc], h3, h4⟩, fun hs => by rw [hb] at hs; cases hs⟩

theorem Filled.write {base : List Byte} {room : Nat} {o : Out} {t : List Byte} (h : Filled base room o t) (u : List Byte) :
    Filled base room (o.write u).2 (t ++ u) := by
  unfold Out.write
  by_cases hu : u = []
  · subst hu
    simpa using h
  rw [if_neg hu]
  by_cases hb : o.bad = true
  · rw [if_pos hb]
    obtain ⟨h1, h2, h3, h4⟩ := h.full hb
    refine ⟨fun hs => (by rw [hb] at hs; cases hs), fun _ => ⟨?_, h2, h3, ?_⟩⟩
    · rw [h1, List.take_append_of_le_length h4]
    · rw [List.length_append]; omega
  · rw [if_neg hb]
    have hb : o.bad = false := by simpa using hb
    split
    · exact h.more hb
    · exact (h.more hb).sync

theorem Filled.close {base : List Byte} {room : Nat} {o : Out} {t : List Byte} (h : Filled base room o t) :
    o.close.device = base ++ t.take room := by
  have := h.sync
  cases hb : o.sync.bad with
  | true => exact (this.full hb).1
  | false =>
    obtain ⟨d, h1, h2, h3, h4⟩ := this.good hb
    have : o.sync.pend = [] := rfl
    rw [this, List.append_nil] at h2
    show o.sync.device = _
    rw [h1, h2, List.take_of_length_le h3]

theorem filled_calls {base : List Byte} {room : Nat} : ∀ (es : List Event) (k : TextSink) (t : List Byte),
    Filled base room k.os t →
    Filled base room (afterCalls (textSink step) k es).os (t ++ written step k.cols es) := by
  intro es
  induction es with
  | nil => intro k t h; simpa [written, afterCalls] using h
  | cons e es ih =>
    intro k t h
    have h1 := h.write (step k.cols e).1.1
    rw [← call_os k e] at h1
    have := ih _ _ h1
    rw [call_cols, List.append_assoc] at this
    exact this

theorem write_throws (o : Out) (u : List Byte) : (o.write u).2.throws = o.throws := by
  unfold Out.write
  split
  · rfl
  split
  · rfl
  split <;> rfl

theorem write_silent {o : Out} (h : o.throws = false) (u : List Byte) : (o.write u).1 = false := by
  unfold Out.write
  split
  · rfl
  split
  · exact h
  split
  · rfl
  · simp [Out.sync, h]

theorem write_cap (o : Out) (u : List Byte) (h : o.pend.length ≤ o.cap) :
    (o.write u).2.pend.length ≤ (o.write u).2.cap ∧ (o.write u).2.cap = o.cap := by
  unfold Out.write
  split
  · exact ⟨h, rfl⟩
  split
  · exact ⟨h, rfl⟩
  split
  · rename_i h2
    exact ⟨by simpa [List.length_append] using h2, rfl⟩
  · exact ⟨by simp [Out.sync], rfl⟩

/-- A stream that throws when it is bad is not bad as long as it has not thrown. -/
theorem write_heard {o : Out} (h : o.throws = true) (hb : o.bad = false) {u : List Byte} (hw : (o.write u).1 = false) :
    (o.write u).2.bad = false := by
  unfold Out.write at hw ⊢
  by_cases hu : u = []
  · rw [if_pos hu]; exact hb
  rw [if_neg hu, hb] at hw ⊢
  simp only [Bool.false_eq_true, if_false] at hw ⊢
  by_cases hc : o.pend.length + u.length ≤ o.cap
  · rw [if_pos hc]
  · rw [if_neg hc] at hw ⊢
    dsimp only at hw ⊢
    have : (Out.sync { o with pend := o.pend ++ u }).throws = true := h
    rw [Bool.and_eq_false_iff] at hw
    rcases hw with hw | hw
    · exact hw
    · exact absurd (h.symm.trans hw) (by simp)

/-- Two streams of which neither throws. -/
def Mute (a b : TextSink) : Prop := a.cols = b.cols ∧ a.os.throws = false ∧ b.os.throws = false

theorem mute_alike : Alike (textSink step) (textSink step) Mute := by
  intro a b e ⟨h1, h2, h3⟩
  refine ⟨?_, by rw [call_cols, call_cols, h1], by rw [call_os, write_throws, h2], by rw [call_os, write_throws, h3]⟩
  have w1 := write_silent h2 (step a.cols e).1.1
  have w2 := write_silent h3 (step b.cols e).1.1
  simp only [textSink]
  rcases g1 : a.os.write (step a.cols e).1.1 with ⟨r1, o1⟩
  rcases g2 : b.os.write (step b.cols e).1.1 with ⟨r2, o2⟩
  rw [g1] at w1
  rw [g2] at w2
  dsimp only at w1 w2
  subst w1 w2
  rw [h1]

/-- All of the text is on the device or in the buffer. -/
structure Heard (base : List Byte) (room : Nat) (k : TextSink) (t : List Byte) : Prop where
  filled : Filled base room k.os t
  throws : k.os.throws = true
  good : k.os.bad = false
  small : k.os.pend.length ≤ k.os.cap

theorem Heard.call {base : List Byte} {room : Nat} {k : TextSink} {t : List Byte} (h : Heard base room k t) {e : Event}
    (hc : ((textSink step).call k e).1 ≠ .error .stream) :
    Heard base room ((textSink step).call k e).2 (t ++ (step k.cols e).1.1) := by
  have hw : (k.os.write (step k.cols e).1.1).1 = false := by
    cases hw : (k.os.write (step k.cols e).1.1).1 with
    | false => rfl
    | true => exact absurd ((call_stream k e).2 hw) hc
  constructor
  · rw [call_os]; exact h.filled.write _
  · rw [call_os, write_throws]; exact h.throws
  · rw [call_os]; exact write_heard h.throws h.good hw
  · rw [call_os]; exact (write_cap _ _ h.small).1

theorem Heard.calls {base : List Byte} {room : Nat} : ∀ (es : List Event) (k : TextSink) (t : List Byte),
    Heard base room k t → Quiet (textSink step) k es →
    Heard base room (afterCalls (textSink step) k es) (t ++ written step k.cols es) := by
  intro es
  induction es with
  | nil => intro k t h _; simpa [written, afterCalls] using h
  | cons e es ih =>
    intro k t h ⟨hq, hq2⟩
    have := ih _ _ (h.call (e := e) (by rw [hq]; intro h; cases h)) hq2
    rw [call_cols, List.append_assoc] at this
    exact this

theorem afterCalls_cols (es : List Event) : ∀ (k : TextSink),
    (afterCalls (textSink step) k es).cols = es.foldl (fun c e => (step c e).2) k.cols := by
  induction es with
  | nil => exact fun _ => rfl
  | cons e es ih =>
    intro k
    show (afterCalls (textSink step) ((textSink step).call k e).2 es).cols = _
    rw [ih, call_cols]
    rfl

/-- The same for the calls of which the last one may have thrown, but not because of the stream. -/
theorem Heard.outcome {α : Type} {base : List Byte} {room : Nat} {es : List Event} {k : TextSink} {t : List Byte}
    {r : TRes TextStop α} (h : Heard base room k t) (ho : Outcome (textSink step) k es r) (hr : r ≠ .error (.sink .stream)) :
    Heard base room (afterCalls (textSink step) k es) (t ++ written step k.cols es) := by
  rcases r with ((e | x) | v)
  · exact h.calls es k t ho
  · obtain ⟨before, e, rfl, hq, hx⟩ := ho
    have h1 := h.calls before k t hq
    have h2 := h1.call (step := step) (e := e) (by rw [hx]; intro he; cases he; exact hr rfl)
    rw [afterCalls_append, written_append]
    rw [afterCalls_cols, List.append_assoc] at h2
    simpa [afterCalls, written] using h2
  · exact h.calls es k t ho

end Sas.Proofs
