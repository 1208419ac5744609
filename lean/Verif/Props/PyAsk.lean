import Verif.Props.PyOwn

/-!
# Property C103: asking a Python sink for its data
-/

namespace Sas.Proofs

open Sas Spec

theorem ownEvent_end (o : PyOwn) : (o.event .endOfData).attr = none := by
  unfold PyOwn.event PyOwn.delCppAttr PyOwn.dropAttr
  cases h : o.attr <;> simp [h]

theorem events_attr (es : List Event) (hp : ∀ p, Event.setProperties p ∉ es) : ∀ o : PyOwn,
    (o.events es).attr = if Event.endOfData ∈ es then none else o.attr := by
  induction es with
  | nil => intro o; rfl
  | cons e es ih =>
    intro o
    have hp' : ∀ p, Event.setProperties p ∉ es := fun p h => hp p (List.mem_cons_of_mem _ h)
    have := ih hp' (o.event e)
    show ((o.event e).events es).attr = _
    rw [this]
    cases e with
    | setProperties p => exact absurd (by simp) (hp p)
    | pushRow i r => simp [PyOwn.event]
    | endOfData => simp [ownEvent_end]

theorem var_stmt {w : OwnProgram} {s : OwnStmt} (h : (w.stmt s).var = true) : w.var = true := by
  revert h
  cases s with
  | «open» n how =>
    unfold OwnProgram.stmt
    dsimp only
    split
    · intro; assumption
    · exact id
  | calls i es => unfold OwnProgram.stmt; dsimp only; split <;> exact id
  | delReader i => unfold OwnProgram.stmt; dsimp only; split <;> exact id
  | delSink => unfold OwnProgram.stmt; dsimp only; split <;> simp_all
  | ask =>
    unfold OwnProgram.stmt OwnProgram.flushSink
    dsimp only
    split
    · intro; assumption
    · exact id

theorem var_run {ss : List OwnStmt} : ∀ {w : OwnProgram}, (w.run ss).var = true → w.var = true := by
  induction ss with
  | nil => intro w h; exact h
  | cons s ss ih => intro w h; exact var_stmt (ih h)

theorem run_append' (w : OwnProgram) (a b : List OwnStmt) : w.run (a ++ b) = (w.run a).run b := by
  unfold OwnProgram.run; rw [List.foldl_append]

theorem open_stmt {w : OwnProgram} (hv : w.var = true) (n : Nat) (how : Opening) : w.stmt (.open n how) = match how with
    | .failed => { w with own := w.own.sinkUp.sinkDown }
    | .refused p => { w with own := (w.own.sinkUp.event (.setProperties p)).sinkDown, owners := w.owners ++ [none] }
    | .opened p =>
      { w with
        own := w.own.sinkUp.event (.setProperties p), readers := w.readers ++ [some ⟨true⟩],
        owners := w.owners ++ [some w.readers.length] } := by
  unfold OwnProgram.stmt
  dsimp only
  rw [if_pos hv]
  simp only [PyOwn.construct, moves_eq, PyOwn.destroy, if_true]
  cases how <;> rfl

theorem sinkDown_attr {o : PyOwn} (h : 1 < o.sink) : o.sinkDown.attr = o.attr := by
  unfold PyOwn.sinkDown
  rw [if_neg (by omega)]

theorem setCppAttr_attr (o : PyOwn) : o.setCppAttr.attr = some o.wrappers.length ∧ o.setCppAttr.sink = o.sink := by
  unfold PyOwn.setCppAttr PyOwn.dropAttr PyOwn.wrapperUp PyOwn.wrapperDown
  cases o.attr <;> simp

/-- A quiet statement leaves the attribute and what is known of it. -/
theorem quiet_stmt {w : OwnProgram} {told : Nat} (k : Keeps w told) {s : OwnStmt} (hs : ReaderCalls [s]) (hv : (w.stmt s).var = true)
    (q : QuietFor w s) : (w.stmt s).own.attr = w.own.attr ∧ (w.stmt s).owners = w.owners ∧
      (w.stmt s).readers.length = w.readers.length ∧
      ∀ r, r < w.readers.length → (OwnAlive (w.stmt s) r ↔ OwnAlive w r ∧ s ≠ .delReader r) := by
  have hv0 := var_stmt hv
  cases s with
  | «open» n how =>
    obtain rfl : how = .failed := q
    rw [open_stmt hv0]
    refine ⟨?_, rfl, rfl, fun r _ => ⟨fun h => ⟨h, by simp⟩, fun h => h.1⟩⟩
    show w.own.sinkUp.sinkDown.attr = _
    have := k.sink
    rw [hv0] at this
    rw [sinkDown_attr (by show 1 < w.own.sink + 1; simp at this; omega)]
    rfl
  | calls i es =>
    have hp := hs i es (by simp)
    unfold OwnProgram.stmt
    dsimp only
    split
    · rename_i t ht
      refine ⟨?_, rfl, rfl, fun r _ => ⟨fun h => ⟨h, by simp⟩, fun h => h.1⟩⟩
      show (w.own.events es).attr = _
      rw [events_attr es hp, if_neg (q ⟨t, ht⟩)]
    · exact ⟨rfl, rfl, rfl, fun r _ => ⟨fun h => ⟨h, by simp⟩, fun h => h.1⟩⟩
  | delReader i =>
    unfold OwnProgram.stmt
    dsimp only
    split
    · rename_i t ht
      have hself := k.self t (List.mem_of_getElem? ht)
      have hlive : 1 ≤ livingReaders w := List.countP_pos_iff.2 ⟨some t, List.mem_of_getElem? ht, rfl⟩
      have hk := k.sink
      rw [hv0] at hk
      refine ⟨?_, rfl, by simp, fun r hr => ?_⟩
      · show (w.own.destroy t).attr = _
        unfold PyOwn.destroy
        rw [if_pos hself, sinkDown_attr (by simp at hk; omega)]
      · unfold OwnAlive
        show (∃ s, (w.readers.set i none)[r]? = some (some s)) ↔ _
        rw [List.getElem?_set]
        by_cases hir : i = r
        · subst hir
          simp [hr]
        · simp [hir]
    · rename_i hn
      refine ⟨rfl, rfl, rfl, fun r _ => ⟨fun h => ⟨h, ?_⟩, fun h => h.1⟩⟩
      obtain ⟨t, ht⟩ := h
      intro e
      cases e
      exact hn t ht
  | delSink =>
    exfalso
    revert hv
    unfold OwnProgram.stmt
    dsimp only
    rw [if_pos hv0]
    simp
  | ask => exact q.elim

theorem quiet_run (b : List OwnStmt) : ∀ {w : OwnProgram} {told : Nat}, Keeps w told → ReaderCalls b → (w.run b).var = true →
    AllQuiet w b → (w.run b).own.attr = w.own.attr ∧ (w.run b).owners = w.owners ∧
      ∀ r, r < w.readers.length → (OwnAlive (w.run b) r ↔ OwnAlive w r ∧ .delReader r ∉ b) := by
  induction b with
  | nil => intro w told k hs hv q; exact ⟨rfl, rfl, fun r _ => ⟨fun h => ⟨h, by simp⟩, fun h => h.1⟩⟩
  | cons s b ih =>
    intro w told k hs hv q
    have hs1 : ReaderCalls [s] := fun i es h => hs i es (by rcases List.mem_singleton.1 h; simp)
    have hs2 : ReaderCalls b := fun i es h => hs i es (List.mem_cons_of_mem _ h)
    obtain ⟨a1, a2, a3, a4⟩ := quiet_stmt k hs1 (var_run hv) q.1
    obtain ⟨b1, b2, b3⟩ := ih (k.stmt s hs1).1 hs2 hv q.2
    refine ⟨b1.trans a1, b2.trans a2, fun r hr => ?_⟩
    have := b3 r (by rw [a3]; exact hr)
    show OwnAlive ((w.stmt s).run b) r ↔ _
    rw [this, a4 r hr]
    simp only [List.mem_cons, not_or, and_assoc, ne_eq]
    constructor
    · rintro ⟨h1, h2, h3⟩; exact ⟨h1, fun e => h2 e.symm, h3⟩
    · rintro ⟨h1, h2, h3⟩; exact ⟨h1, fun e => h2 e.symm, h3⟩

theorem owners_stmt {w : OwnProgram} {told : Nat} (k : Keeps w told) (s : OwnStmt) (hs : ReaderCalls [s])
    (h : w.owners.length = w.own.wrappers.length) : (w.stmt s).owners.length = (w.stmt s).own.wrappers.length := by
  have := (k.stmt s hs).1.length
  rw [this]
  rw [k.length] at h
  cases s with
  | «open» n how =>
    by_cases hv : w.var = true
    · rw [open_stmt hv]
      cases how <;> simp [tellings, h, hv]
    · have : w.stmt (.open n how) = w := by unfold OwnProgram.stmt; dsimp only; rw [if_neg hv]
      rw [this]
      rw [Bool.not_eq_true] at hv
      cases how <;> simp [tellings, h, hv]
  | calls i es => unfold OwnProgram.stmt; dsimp only; split <;> simpa [tellings] using h
  | delReader i => unfold OwnProgram.stmt; dsimp only; split <;> simpa [tellings] using h
  | delSink => unfold OwnProgram.stmt; dsimp only; split <;> simpa [tellings] using h
  | ask =>
    unfold OwnProgram.stmt OwnProgram.flushSink
    dsimp only
    split
    · split <;> simpa [tellings] using h
    · simpa [tellings] using h

theorem owners_run (ss : List OwnStmt) : ∀ {w : OwnProgram} {told : Nat}, Keeps w told → ReaderCalls ss →
    w.owners.length = w.own.wrappers.length → (w.run ss).owners.length = (w.run ss).own.wrappers.length := by
  induction ss with
  | nil => intro w told k hs h; exact h
  | cons s ss ih =>
    intro w told k hs h
    have hs1 : ReaderCalls [s] := fun i es h => hs i es (by rcases List.mem_singleton.1 h; simp)
    exact ih (k.stmt s hs1).1 (fun i es h => hs i es (List.mem_cons_of_mem _ h)) (owners_stmt k s hs1 h)

theorem readerCalls_left {a b : List OwnStmt} (h : ReaderCalls (a ++ b)) : ReaderCalls a :=
  fun i es hm => h i es (List.mem_append_left _ hm)

theorem readerCalls_right {a b : List OwnStmt} (h : ReaderCalls (a ++ b)) : ReaderCalls b :=
  fun i es hm => h i es (List.mem_append_right _ hm)

theorem AllQuiet.snoc (b : List OwnStmt) : ∀ {w : OwnProgram} {s : OwnStmt}, AllQuiet w b → QuietFor (w.run b) s → AllQuiet w (b ++ [s]) := by
  induction b with
  | nil => intro w s _ h; exact ⟨h, trivial⟩
  | cons t b ih => intro w s h1 h2; exact ⟨h1.1, ih h1.2 h2⟩

end Sas.Proofs

namespace Sas.Props

open Sas Spec Proofs

/-- While the sink has the attribute, it was set by the last reader that told its properties, and all was quiet since. -/
theorem attr_set (ss : List OwnStmt) : ReaderCalls ss → (({} : OwnProgram).run ss).var = true →
    (({} : OwnProgram).run ss).own.attr ≠ none →
    ∃ a n how b, ss = a ++ .open n how :: b ∧ how ≠ .failed ∧ AllQuiet (({} : OwnProgram).run (a ++ [.open n how])) b := by
  induction ss using List.reverseRecOn with
  | nil => intro _ _ h; exact absurd rfl h
  | append_singleton ss s ih =>
    intro hs hv ha
    rw [run_append'] at hv ha
    have hv0 : (({} : OwnProgram).run ss).var = true := var_run hv
    have k := keeps_start.run ss (readerCalls_left hs)
    have hs1 : ReaderCalls [s] := (readerCalls_right hs)
    have more : QuietFor (({} : OwnProgram).run ss) s → ∃ a n how b, ss ++ [s] = a ++ .open n how :: b ∧ how ≠ .failed ∧
        AllQuiet (({} : OwnProgram).run (a ++ [.open n how])) b := by
      intro q
      obtain ⟨h1, -⟩ := quiet_stmt k hs1 hv q
      have ha' : (({} : OwnProgram).run ss).own.attr ≠ none := by
        rw [← h1]; exact ha
      obtain ⟨a, n, how, b, e1, e2, e3⟩ := ih (readerCalls_left hs) hv0 ha'
      refine ⟨a, n, how, b ++ [s], by rw [e1]; simp, e2, AllQuiet.snoc b e3 ?_⟩
      rw [← run_append', List.append_assoc]
      simp only [List.singleton_append]
      rw [← e1]
      exact q
    cases s with
    | «open» n how =>
      by_cases hh : how = .failed
      · exact more hh
      · exact ⟨ss, n, how, [], rfl, hh, trivial⟩
    | calls i es =>
      refine more fun hal hm => ha ?_
      obtain ⟨t, ht⟩ := hal
      show ((({} : OwnProgram).run ss).stmt (.calls i es)).own.attr = none
      unfold OwnProgram.stmt
      simp only [ht]
      rw [events_attr es (hs1 i es (by simp)), if_pos hm]
    | delReader i => exact more trivial
    | delSink => exact more trivial
    | ask =>
      exfalso
      apply ha
      show ((({} : OwnProgram).run ss).stmt .ask).own.attr = none
      unfold OwnProgram.stmt OwnProgram.flushSink
      dsimp only
      rw [if_pos hv0]
      split
      · assumption
      · exact ownEvent_end _

/-- What the attribute refers to. -/
theorem attr_refers {ss a b : List OwnStmt} {n : Nat} {how : Opening} (e : ss = a ++ .open n how :: b) (hs : ReaderCalls ss)
    (hv : (({} : OwnProgram).run ss).var = true) (hh : how ≠ .failed)
    (q : AllQuiet (({} : OwnProgram).run (a ++ [.open n how])) b) :
    ∃ i, (({} : OwnProgram).run ss).own.attr = some i ∧ ((({} : OwnProgram).run ss).refersToLiving i = false ↔
      ((∃ p, how = .refused p) ∨ .delReader (({} : OwnProgram).run a).readers.length ∈ b)) := by
  subst e
  have hs1 : ReaderCalls (a ++ [.open n how]) := fun i es h => hs i es (by
    rcases List.mem_append.1 h with h | h
    · exact List.mem_append_left _ h
    · exact List.mem_append_right _ (by rw [List.mem_singleton.1 h]; simp))
  have hsb : ReaderCalls b := fun i es h => hs i es (List.mem_append_right _ (List.mem_cons_of_mem _ h))
  have er : ({} : OwnProgram).run (a ++ .open n how :: b) = (({} : OwnProgram).run (a ++ [.open n how])).run b := by
    rw [← run_append']; simp
  rw [er] at hv ⊢
  have ka := keeps_start.run a (readerCalls_left hs)
  have k1 := keeps_start.run _ hs1
  have hva : (({} : OwnProgram).run a).var = true := by
    have := var_run hv
    rw [run_append'] at this
    exact var_run this
  obtain ⟨r1, r2, r3⟩ := quiet_run b k1 hsb hv q
  have ho := owners_run a keeps_start (readerCalls_left hs) rfl
  have e1 : ({} : OwnProgram).run (a ++ [.open n how]) = (({} : OwnProgram).run a).stmt (.open n how) := by
    rw [run_append']; rfl
  have hk := ka.sink
  rw [hva] at hk
  generalize ({} : OwnProgram).run a = w at *
  rw [e1] at r1 r2 r3 hv ⊢
  rw [open_stmt hva] at r1 r2 r3 hv ⊢
  refine ⟨w.own.wrappers.length, ?_, ?_⟩
  · rw [r1]
    cases how with
    | failed => exact absurd rfl hh
    | refused p =>
      show ((w.own.sinkUp.event (.setProperties p)).sinkDown).attr = _
      rw [sinkDown_attr]
      · exact (setCppAttr_attr w.own.sinkUp).1
      · show 1 < (w.own.sinkUp.setCppAttr).sink
        rw [(setCppAttr_attr w.own.sinkUp).2]
        show 1 < w.own.sink + 1
        simp at hk; omega
    | opened p => exact (setCppAttr_attr w.own.sinkUp).1
  · unfold OwnProgram.refersToLiving
    rw [r2]
    cases how with
    | failed => exact absurd rfl hh
    | refused p =>
      dsimp only
      rw [← ho, List.getElem?_append_right (Nat.le_refl _)]
      simp
    | opened p =>
      dsimp only at r3 ⊢
      rw [← ho, List.getElem?_append_right (Nat.le_refl _)]
      have al := r3 w.readers.length (by simp)
      have h0 : OwnAlive
          { own := w.own.sinkUp.event (.setProperties p), var := w.var, readers := w.readers ++ [some ⟨true⟩],
            owners := w.owners ++ [some w.readers.length], ub := w.ub } w.readers.length := ⟨⟨true⟩, by simp⟩
      simp only [h0, true_and] at al
      simp only [Nat.sub_self, List.getElem?_cons_zero, reduceCtorEq, exists_false, false_or]
      unfold OwnAlive at al
      constructor
      · intro h
        by_contra hc
        obtain ⟨s, hs⟩ := al.2 hc
        rw [hs] at h
        simp at h
      · intro h
        by_contra hc
        apply al.1 _ h
        rw [Bool.not_eq_false, Option.isSome_iff_exists] at hc
        obtain ⟨s, hs⟩ := hc
        exact ⟨s, Option.join_eq_some_iff.1 hs⟩

/-- **C103**, exactly when asking is undefined: for every program that has been defined so far and still has the sink, asking the
sink for its data uses a C++ sink that is no more if and only if the last reader that has told its properties is gone and nobody
has ended the data of the sink since. -/
theorem C103_exact_partial (ss : List OwnStmt) (hs : ReaderCalls ss) (hv : (({} : OwnProgram).run ss).var = true)
    (hu : (({} : OwnProgram).run ss).ub = false) : (({} : OwnProgram).run (ss ++ [.ask])).ub = true ↔ Abandoned ss := by
  have e : ({} : OwnProgram).run (ss ++ [.ask]) = (({} : OwnProgram).run ss).flushSink := by
    rw [run_append']
    show (({} : OwnProgram).run ss).stmt .ask = _
    unfold OwnProgram.stmt
    dsimp only
    rw [if_pos hv]
  rw [e]
  constructor
  · intro h
    have ha : (({} : OwnProgram).run ss).own.attr ≠ none := by
      intro hn
      unfold OwnProgram.flushSink at h
      rw [hn] at h
      dsimp only at h
      rw [hu] at h
      cases h
    obtain ⟨a, n, how, b, e1, e2, e3⟩ := attr_set ss hs hv ha
    obtain ⟨i, h1, h2⟩ := attr_refers e1 hs hv e2 e3
    refine ⟨a, n, how, b, e1, e2, e3, h2.1 ?_⟩
    unfold OwnProgram.flushSink at h
    rw [h1] at h
    dsimp only at h
    rw [hu] at h
    simpa using h
  · rintro ⟨a, n, how, b, e1, e2, e3, e4⟩
    obtain ⟨i, h1, h2⟩ := attr_refers e1 hs hv e2 e3
    unfold OwnProgram.flushSink
    rw [h1]
    dsimp only
    rw [h2.2 e4]
    simp

/-- **C103**, partial: while no reader is dropped and no sink refuses its properties, asking is always defined, however many
readers there are and whatever they have read. -/
theorem C103_together_partial (ss : List OwnStmt) : ReaderCalls ss → (∀ r, .delReader r ∉ ss) →
    (∀ n p, .open n (.refused p) ∉ ss) → (({} : OwnProgram).run ss).ub = false := by
  induction ss using List.reverseRecOn with
  | nil => intro _ _ _; rfl
  | append_singleton ss s ih =>
    intro hs h1 h2
    have hu := ih (readerCalls_left hs) (fun r h => h1 r (List.mem_append_left _ h))
      (fun n p h => h2 n p (List.mem_append_left _ h))
    by_cases hask : s = .ask ∧ (({} : OwnProgram).run ss).var = true
    · obtain ⟨rfl, hv⟩ := hask
      by_contra hc
      rw [Bool.not_eq_false, C103_exact_partial ss (readerCalls_left hs) hv hu] at hc
      obtain ⟨a, n, how, b, e1, -, -, ⟨p, rfl⟩ | e4⟩ := hc
      · exact h2 n p (by rw [e1]; simp)
      · exact h1 _ (by rw [e1]; exact List.mem_append_left _ (List.mem_append_right _ (List.mem_cons_of_mem _ e4)))
    · rw [run_append']
      show ((({} : OwnProgram).run ss).stmt s).ub = false
      generalize ({} : OwnProgram).run ss = w at hask hu ⊢
      suffices h : (w.stmt s).ub = w.ub from h.trans hu
      cases s with
      | «open» n how =>
        unfold OwnProgram.stmt
        dsimp only
        split
        · cases how <;> rfl
        · rfl
      | calls i es => unfold OwnProgram.stmt; dsimp only; split <;> rfl
      | delReader i => unfold OwnProgram.stmt; dsimp only; split <;> rfl
      | delSink => unfold OwnProgram.stmt; dsimp only; split <;> rfl
      | ask =>
        unfold OwnProgram.stmt
        dsimp only
        rw [if_neg fun h => hask ⟨rfl, h⟩]

/-- **C103** for a file: a program opens it, makes any calls, drops the reader and asks the sink. This is defined if and only if
the calls have come to the end of the data. -/
theorem C103_file_partial (cfg : Cfg) (fuel : Nat) (filter : Filter) (s : IFStream) (moves : Nat) (raises : Properties → Bool)
    (ops : List Op) {R : Reader IFStream} (ho : openReader cfg ifs fuel (some filter) s = .ok R) (hr : raises R.props = false) :
    ((ownProgram cfg fuel filter (.ok s) moves raises ops).run [.delReader 0, .ask]).ub = false ↔
      Event.endOfData ∈ (R.run ifs ops).2.trace := by
  obtain ⟨rest, h1, -, h3, -⟩ := C08_protocol ho ops
  have ht : R.trace = [.setProperties R.props] := (openReader_spec ho).2.2
  have hes : (R.run ifs ops).2.trace.drop R.trace.length = rest := by rw [h1, ht]; rfl
  have hmem : Event.endOfData ∈ (R.run ifs ops).2.trace ↔ Event.endOfData ∈ rest := by rw [h1]; simp
  have hw : (ownProgram cfg fuel filter (.ok s) moves raises ops).run [.delReader 0] =
      ({} : OwnProgram).run [.open moves (.opened R.props), .calls 0 rest, .delReader 0] := by
    unfold ownProgram
    simp only [ho, hr, hes]
    rfl
  have hw2 : (ownProgram cfg fuel filter (.ok s) moves raises ops).run [.delReader 0, .ask] =
      ({} : OwnProgram).run ([.open moves (.opened R.props), .calls 0 rest, .delReader 0] ++ [.ask]) := by
    rw [run_append', ← hw]; rfl
  have hs : ReaderCalls [.open moves (.opened R.props), .calls 0 rest, .delReader 0] := by
    intro i es hm p hp
    simp only [List.mem_cons, List.not_mem_nil, reduceCtorEq, OwnStmt.calls.injEq, or_false, false_or] at hm
    obtain ⟨-, rfl⟩ := hm
    exact h3 p hp
  have hvu : (({} : OwnProgram).run [.open moves (.opened R.props), .calls 0 rest, .delReader 0]).var = true ∧
      (({} : OwnProgram).run [.open moves (.opened R.props), .calls 0 rest, .delReader 0]).ub = false := by
    constructor <;> simp [OwnProgram.run, OwnProgram.stmt, PyOwn.construct, moves_eq]
  rw [hw2, hmem, ← Bool.not_eq_true, C103_exact_partial _ hs hvu.1 hvu.2, not_iff_comm]
  constructor
  · intro hn
    refine ⟨[], moves, .opened R.props, [.calls 0 rest, .delReader 0], rfl, by simp, ⟨fun _ => hn, trivial, trivial⟩, .inr ?_⟩
    simp [OwnProgram.run]
  · rintro ⟨a, n, how, b, e1, e2, e3, e4⟩ hm
    cases a with
    | nil =>
      simp only [List.nil_append, List.cons.injEq] at e1
      obtain ⟨e0, rfl⟩ := e1
      cases e0
      refine e3.1 ⟨⟨true⟩, ?_⟩ hm
      simp [OwnProgram.run, OwnProgram.stmt, PyOwn.construct, moves_eq]
    | cons x a =>
      simp only [List.cons_append, List.cons.injEq] at e1
      have : OwnStmt.open n how ∈ [OwnStmt.calls 0 rest, .delReader 0] := by rw [e1.2]; simp
      simp at this

/-- C103 is false: a reader that is dropped before the end of its data, and a sink that refuses the properties, leave the sink with
an attribute that refers to nothing. -/
theorem C103_refuted (n : Nat) (p : Properties) :
    (({} : OwnProgram).run [.open n (.opened p), .delReader 0, .ask]).ub = true ∧
      (({} : OwnProgram).run [.open n (.refused p), .ask]).ub = true := by
  constructor
  · have := (C103_exact_partial [.open n (.opened p), .delReader 0] (by intro i es h; simp at h)
      (by simp [OwnProgram.run, OwnProgram.stmt, PyOwn.construct, moves_eq])
      (by simp [OwnProgram.run, OwnProgram.stmt, PyOwn.construct, moves_eq])).2
      ⟨[], n, .opened p, [.delReader 0], rfl, by simp, ⟨trivial, trivial⟩, .inr (by simp [OwnProgram.run])⟩
    exact this
  · have := (C103_exact_partial [.open n (.refused p)] (by intro i es h; simp at h)
      (by simp [OwnProgram.run, OwnProgram.stmt, PyOwn.construct, moves_eq])
      (by simp [OwnProgram.run, OwnProgram.stmt, PyOwn.construct, moves_eq])).2
      ⟨[], n, .refused p, [], rfl, by simp, trivial, .inl ⟨p, rfl⟩⟩
    exact this

/-! ## Cases -/

/-- Two readers, asked in between: the second has told last; when it is dropped the attribute refers to nothing, until the first ends
its data. -/
example (p : Properties) : let ss : List OwnStmt := [.open 1 (.opened p), .ask, .open 1 (.opened p), .delReader 1]
    (({} : OwnProgram).run ss).ub = false ∧ (({} : OwnProgram).run (ss ++ [.ask])).ub = true ∧
      (({} : OwnProgram).run (ss ++ [.calls 0 [.endOfData], .ask])).ub = false := ⟨rfl, rfl, rfl⟩

/-- The demonstration file: read to its end or not. -/
example : ((ownProgram Demo.cfg 10 Filter.acceptAll (.ok (IFStream.open Demo.file)) 3 (fun _ => false) [.readAll]).run
      [.delReader 0, .ask]).ub = false ∧
    ((ownProgram Demo.cfg 10 Filter.acceptAll (.ok (IFStream.open Demo.file)) 3 (fun _ => false) [.readRow]).run
      [.delReader 0, .ask]).ub = true := by decide +kernel

end Sas.Props
