import Verif.Spec.PyOwn
import Verif.Props.Reader
import Verif.Props.PyRefs

/-!
# Property C102: references of the Python binding

Any program with one sink object: readers opened with it in any order, with any calls, failures of opening at any stage,
readers and the variable of the sink dropped at any time.
-/

namespace Sas.Proofs

open Sas Spec

/-- The counts of the objects of `_cpp`, in balance. -/
structure Balanced (o : PyOwn) : Prop where
  attr : ∀ i, o.attr = some i → i < o.wrappers.length
  counts : ∀ (i : Nat) (h : i < o.wrappers.length), o.wrappers[i] = if o.attr = some i then 2 else 1

theorem Balanced.dropAttr {o : PyOwn} (b : Balanced o) :
    Balanced o.dropAttr ∧ o.dropAttr.attr = none ∧ o.dropAttr.wrappers.length = o.wrappers.length ∧ o.dropAttr.sink = o.sink := by
  unfold PyOwn.dropAttr
  cases ha : o.attr with
  | none => exact ⟨b, ha, rfl, rfl⟩
  | some i =>
    refine ⟨⟨fun j h => (by cases h), fun j hj => ?_⟩, rfl, by simp [PyOwn.wrapperDown], rfl⟩
    simp only [PyOwn.wrapperDown, List.length_modify] at hj
    have := b.counts j hj
    simp only [PyOwn.wrapperDown, List.getElem_modify]
    rw [ha] at this
    by_cases h : i = j
    · subst h; simp at this; simp [this]
    · have h' : ¬ (some i = some j) := fun x => h (Option.some.inj x)
      rw [if_neg h'] at this
      simp [h, this]

theorem Balanced.setCppAttr {o : PyOwn} (b : Balanced o) :
    Balanced o.setCppAttr ∧ o.setCppAttr.wrappers.length = o.wrappers.length + 1 ∧ o.setCppAttr.sink = o.sink := by
  have hl : o.setCppAttr.wrappers.length = o.wrappers.length + 1 ∧ o.setCppAttr.sink = o.sink ∧
      o.setCppAttr.attr = some o.wrappers.length := by
    unfold PyOwn.setCppAttr PyOwn.dropAttr PyOwn.wrapperUp PyOwn.wrapperDown
    cases o.attr <;> simp
  refine ⟨⟨fun i h => ?_, fun j hj => ?_⟩, hl.1, hl.2.1⟩
  · rw [hl.2.2] at h; cases h; rw [hl.1]; omega
  · rw [hl.2.2]
    rw [hl.1] at hj
    clear hl
    obtain ⟨sink, attr, wr⟩ := o
    cases attr with
    | none =>
      simp only [PyOwn.setCppAttr, PyOwn.dropAttr, PyOwn.wrapperUp, PyOwn.wrapperDown, List.getElem_modify]
      dsimp only at hj
      by_cases h : j < wr.length
      · have := b.counts j h
        dsimp only at this
        rw [List.getElem_append_left h, this]
        simp [show wr.length ≠ j by omega]
      · have : j = wr.length := by omega
        subst this
        simp
    | some i =>
      have hi : i < wr.length := b.attr i rfl
      simp only [PyOwn.setCppAttr, PyOwn.dropAttr, PyOwn.wrapperUp, PyOwn.wrapperDown, List.getElem_modify]
      dsimp only at hj
      by_cases h : j < wr.length
      · have := b.counts j h
        dsimp only at this
        rw [List.getElem_append_left h, this]
        simp only [show wr.length ≠ j by omega, if_false, Option.some.injEq]
        by_cases hij : i = j <;> simp [hij]
      · have : j = wr.length := by omega
        subst this
        simp [show i ≠ wr.length by omega]

theorem Balanced.sinkUp {o : PyOwn} (b : Balanced o) : Balanced o.sinkUp := ⟨b.attr, b.counts⟩

theorem Balanced.sinkDown {o : PyOwn} (b : Balanced o) : Balanced o.sinkDown ∧ o.sinkDown.sink = o.sink - 1 ∧
    o.sinkDown.wrappers.length = o.wrappers.length ∧ (o.sink ≤ 1 → o.sinkDown.attr = none) := by
  unfold PyOwn.sinkDown
  split
  · obtain ⟨h1, h2, h3, -⟩ := b.dropAttr
    exact ⟨⟨h1.attr, h1.counts⟩, by dsimp only; omega, h3, fun _ => h2⟩
  · exact ⟨⟨b.attr, b.counts⟩, rfl, rfl, fun h => absurd h (by omega)⟩

theorem Balanced.event {o : PyOwn} (b : Balanced o) (e : Event) : Balanced (o.event e) ∧ (o.event e).sink = o.sink ∧
    (o.event e).wrappers.length = o.wrappers.length + (match e with | .setProperties _ => 1 | _ => 0) := by
  cases e with
  | setProperties p => exact ⟨b.setCppAttr.1, b.setCppAttr.2.2, b.setCppAttr.2.1⟩
  | pushRow i r => exact ⟨b, rfl, rfl⟩
  | endOfData => exact ⟨b.dropAttr.1, b.dropAttr.2.2.2, b.dropAttr.2.2.1⟩

theorem Balanced.events (es : List Event) : ∀ {o : PyOwn}, Balanced o → Balanced (o.events es) ∧ (o.events es).sink = o.sink ∧
    ((∀ p, Event.setProperties p ∉ es) → (o.events es).wrappers.length = o.wrappers.length) := by
  induction es with
  | nil => intro o b; exact ⟨b, rfl, fun _ => rfl⟩
  | cons e es ih =>
    intro o b
    obtain ⟨h1, h2, h3⟩ := b.event e
    obtain ⟨k1, k2, k3⟩ := ih h1
    refine ⟨k1, k2.trans h2, fun h => (k3 fun p hp => h p (List.mem_cons_of_mem _ hp)).trans ?_⟩
    rw [h3]
    cases e with
    | setProperties p => exact absurd (by simp) (h p)
    | _ => rfl

theorem moves_eq (o : PyOwn) (s : CppSelf) : ∀ n, o.moves s n = (s, o)
  | 0 => rfl
  | n + 1 => by unfold PyOwn.moves CppSelf.move PyOwn.destroy; exact moves_eq o s n

/-- The state of a program. -/
structure Keeps (w : OwnProgram) (told : Nat) : Prop where
  balanced : Balanced w.own
  length : w.own.wrappers.length = told
  sink : w.own.sink = (if w.var then 1 else 0) + livingReaders w
  self : ∀ s, some s ∈ w.readers → s.self = true
  gone : w.own.sink = 0 → w.own.attr = none

theorem living_set {l : List (Option CppSelf)} {i : Nat} {s : CppSelf} (h : l[i]? = some (some s)) :
    (l.set i none).countP Option.isSome + 1 = l.countP Option.isSome := by
  induction l generalizing i with
  | nil => cases h
  | cons x l ih =>
    cases i with
    | zero =>
      simp only [List.getElem?_cons_zero, Option.some.injEq] at h
      subst h
      simp
    | succ i =>
      simp only [List.getElem?_cons_succ] at h
      simp only [List.set_cons_succ, List.countP_cons]
      rw [← ih h]
      omega

theorem Keeps.stmt {w : OwnProgram} {told : Nat} (k : Keeps w told) (s : OwnStmt) (hs : ReaderCalls [s]) :
    Keeps (w.stmt s) (told + tellings w.var [s]) ∧ tellings w.var [s] + tellings (w.stmt s).var [] = tellings w.var [s] := by
  refine ⟨?_, rfl⟩
  obtain ⟨b, hl, hk, hself, hg⟩ := k
  cases s with
  | «open» n how =>
    by_cases hv : w.var = true
    · have hst : w.stmt (.open n how) = match how with
          | .failed => { w with own := w.own.sinkUp.sinkDown }
          | .refused p => { w with own := (w.own.sinkUp.event (.setProperties p)).sinkDown, owners := w.owners ++ [none] }
          | .opened p =>
            { w with
              own := w.own.sinkUp.event (.setProperties p), readers := w.readers ++ [some ⟨true⟩],
              owners := w.owners ++ [some w.readers.length] } := by
        unfold OwnProgram.stmt
        dsimp only
        rw [if_pos hv]
        simp only [PyOwn.construct, moves_eq, PyOwn.destroy, if_true]
        cases how <;> rfl
      rw [hst]
      rw [hv] at hk
      have b1 := b.sinkUp
      have e1 : w.own.sinkUp.sink = w.own.sink + 1 := rfl
      have hne : ∀ {o : PyOwn}, o.sink = w.own.sink + 1 → o.sinkDown.sink = w.own.sink := by
        intro o h
        unfold PyOwn.sinkDown
        split
        · simp only [if_true] at hk; omega
        · dsimp only; omega
      cases how with
      | failed =>
        obtain ⟨c1, c2, c3, c4⟩ := b1.sinkDown
        refine ⟨c1, by simpa [tellings] using c3.trans hl, ?_, hself, ?_⟩
        · show w.own.sinkUp.sinkDown.sink = _
          rw [hne e1, hk, hv]; rfl
        · show w.own.sinkUp.sinkDown.sink = 0 → _
          rw [hne e1]
          intro h; simp only [if_true] at hk; omega
      | refused p =>
        obtain ⟨d1, d2, d3⟩ := b1.event (.setProperties p)
        obtain ⟨c1, c2, c3, c4⟩ := d1.sinkDown
        refine ⟨c1, ?_, ?_, hself, ?_⟩
        · show ((w.own.sinkUp.event (.setProperties p)).sinkDown).wrappers.length = _
          rw [c3, d3]
          show w.own.wrappers.length + 1 = _
          simp [tellings, hv, hl]
        · show ((w.own.sinkUp.event (.setProperties p)).sinkDown).sink = _
          rw [hne (d2.trans e1), hk, hv]; rfl
        · show ((w.own.sinkUp.event (.setProperties p)).sinkDown).sink = 0 → _
          rw [hne (d2.trans e1)]
          intro h; simp only [if_true] at hk; omega
      | opened p =>
        obtain ⟨d1, d2, d3⟩ := b1.event (.setProperties p)
        refine ⟨d1, ?_, ?_, ?_, ?_⟩
        · show (w.own.sinkUp.event (.setProperties p)).wrappers.length = _
          rw [d3]
          show w.own.wrappers.length + 1 = _
          simp [tellings, hv, hl]
        · show (w.own.sinkUp.event (.setProperties p)).sink = _
          rw [d2, e1, hk, hv]
          simp [livingReaders]
          omega
        · intro s hm
          rcases List.mem_append.1 hm with hm | hm
          · exact hself s hm
          · simp only [List.mem_singleton, Option.some.injEq] at hm; subst hm; rfl
        · show (w.own.sinkUp.event (.setProperties p)).sink = 0 → _
          rw [d2, e1]; intro h; omega
    · have hst : w.stmt (.open n how) = w := by
        unfold OwnProgram.stmt
        dsimp only
        rw [if_neg hv]
      rw [hst]
      rw [Bool.not_eq_true] at hv
      refine ⟨b, ?_, hk, hself, hg⟩
      rw [hl]
      cases how <;> simp [tellings, hv]
  | calls i es =>
    unfold OwnProgram.stmt
    dsimp only
    split
    · rename_i s hr
      obtain ⟨c1, c2, c3⟩ := b.events es
      refine ⟨c1, (c3 (hs i es (by simp))).trans (by simpa [tellings] using hl), ?_, hself, ?_⟩
      · show (w.own.events es).sink = _
        rw [c2, hk]; rfl
      · show (w.own.events es).sink = 0 → _
        rw [c2, hk]
        intro h
        have : 1 ≤ livingReaders w := List.countP_pos_iff.2 ⟨some s, List.mem_of_getElem? hr, rfl⟩
        omega
    · exact ⟨b, by simpa [tellings] using hl, hk, hself, hg⟩
  | delReader i =>
    unfold OwnProgram.stmt
    dsimp only
    split
    · rename_i s hr
      have hself' := hself s (List.mem_of_getElem? hr)
      obtain ⟨c1, c2, c3, c4⟩ := b.sinkDown
      have hd : w.own.destroy s = w.own.sinkDown := by unfold PyOwn.destroy; rw [hself']; rfl
      rw [hd]
      have hlive := living_set hr
      refine ⟨c1, by simpa [tellings] using c3.trans hl, ?_, ?_, ?_⟩
      · show w.own.sinkDown.sink = (if w.var then 1 else 0) + (w.readers.set i none).countP Option.isSome
        rw [c2, hk]
        unfold livingReaders
        omega
      · intro t ht
        obtain ⟨j, hj⟩ := List.mem_iff_getElem?.1 ht
        rw [List.getElem?_set] at hj
        split at hj
        · split at hj <;> cases hj
        · exact hself t (List.mem_iff_getElem?.2 ⟨j, hj⟩)
      · show w.own.sinkDown.sink = 0 → _
        intro h
        exact c4 (by omega)
    · exact ⟨b, by simpa [tellings] using hl, hk, hself, hg⟩
  | delSink =>
    unfold OwnProgram.stmt
    dsimp only
    split
    · rename_i hv
      obtain ⟨c1, c2, c3, c4⟩ := b.sinkDown
      refine ⟨c1, by simpa [tellings] using c3.trans hl, ?_, hself, ?_⟩
      · show w.own.sinkDown.sink = (if false = true then 1 else 0) + livingReaders w
        rw [c2, hk, if_pos hv]; simp
      · show w.own.sinkDown.sink = 0 → _
        intro h
        exact c4 (by omega)
    · exact ⟨b, by simpa [tellings] using hl, hk, hself, hg⟩
  | ask =>
    unfold OwnProgram.stmt
    dsimp only
    split
    · unfold OwnProgram.flushSink
      split
      · exact ⟨b, by simpa [tellings] using hl, hk, hself, hg⟩
      · obtain ⟨h1, h2, h3, h4⟩ := b.dropAttr
        refine ⟨h1, by simpa [tellings, PyOwn.event, PyOwn.delCppAttr] using h3.trans hl, ?_, hself, fun _ => h2⟩
        show w.own.dropAttr.sink = _
        rw [h4, hk]; rfl
    · exact ⟨b, by simpa [tellings] using hl, hk, hself, hg⟩

theorem tellings_cons (w : OwnProgram) (s : OwnStmt) (ss : List OwnStmt) :
    tellings w.var (s :: ss) = tellings w.var [s] + tellings (w.stmt s).var ss := by
  cases s with
  | «open» n how =>
    have : (w.stmt (.open n how)).var = w.var := by
      unfold OwnProgram.stmt
      dsimp only
      split
      · cases how <;> rfl
      · rfl
    rw [this]
    cases how <;> simp [tellings]
  | calls i es =>
    have : (w.stmt (.calls i es)).var = w.var := by
      unfold OwnProgram.stmt
      dsimp only
      split <;> rfl
    rw [this]
    simp [tellings]
  | delReader i =>
    have : (w.stmt (.delReader i)).var = w.var := by
      unfold OwnProgram.stmt
      dsimp only
      split <;> rfl
    rw [this]
    simp [tellings]
  | delSink =>
    have : (w.stmt .delSink).var = false := by
      unfold OwnProgram.stmt
      dsimp only
      split
      · rfl
      · rename_i h; simpa using h
    rw [this]
    simp [tellings]
  | ask =>
    have : (w.stmt .ask).var = w.var := by
      unfold OwnProgram.stmt OwnProgram.flushSink
      dsimp only
      split
      · split <;> rfl
      · rfl
    rw [this]
    simp [tellings]

theorem Keeps.run (ss : List OwnStmt) : ∀ {w : OwnProgram} {told : Nat}, Keeps w told → ReaderCalls ss →
    Keeps (w.run ss) (told + tellings w.var ss) := by
  induction ss with
  | nil => intro w told k _; exact k
  | cons s ss ih =>
    intro w told k hs
    have := ih (k.stmt s fun i es h => hs i es (by rcases List.mem_singleton.1 h; simp)).1
      fun i es h => hs i es (List.mem_cons_of_mem _ h)
    rw [Nat.add_assoc, ← tellings_cons] at this
    exact this

end Sas.Proofs

namespace Sas.Props

open Sas Spec Proofs

theorem keeps_start : Keeps {} 0 :=
  ⟨⟨fun i h => (by cases h), fun i h => absurd h (by simp)⟩, rfl, rfl, fun s h => (by cases h), fun h => (by cases h)⟩

/-- **C102**: the sink object. At any time the references to it are that of its variable and one for each reader that lives,
however often the readers' sinks were moved and wherever opening failed: a reader keeps its sink alive, and the object
goes, with its attribute, when the last of them goes. -/
theorem C102_sink (ss : List OwnStmt) (hs : ReaderCalls ss) :
    (({} : OwnProgram).run ss).own.sink = (if (({} : OwnProgram).run ss).var then 1 else 0) + livingReaders (({} : OwnProgram).run ss) ∧
      (Released (({} : OwnProgram).run ss) → (({} : OwnProgram).run ss).own.sink = 0 ∧ (({} : OwnProgram).run ss).own.attr = none) := by
  have k := keeps_start.run ss hs
  refine ⟨k.sink, fun ⟨h1, h2⟩ => ?_⟩
  have : (({} : OwnProgram).run ss).own.sink = 0 := by rw [k.sink, h1, h2]; rfl
  exact ⟨this, k.gone this⟩

/-- **C102**, partial: the objects of `_cpp`. There is one for each time a reader has told its properties, and none of them is
ever released: it has one reference more than the attribute holds. Reading, ending and flushing make no more of them.
Missing, and false: that they are released (`C102_refuted`). -/
theorem C102_wrappers_partial (ss : List OwnStmt) (hs : ReaderCalls ss) :
    (({} : OwnProgram).run ss).own.wrappers.length = tellings true ss ∧
      ∀ i (h : i < (({} : OwnProgram).run ss).own.wrappers.length),
        (({} : OwnProgram).run ss).own.wrappers[i] = if (({} : OwnProgram).run ss).own.attr = some i then 2 else 1 := by
  have k := keeps_start.run ss hs
  exact ⟨by rw [k.length]; simp, k.balanced.counts⟩

/-- C102 is false: when a program has released its readers and its sink, an object is left for each reader it has opened. -/
theorem C102_refuted (ss : List OwnStmt) (hs : ReaderCalls ss) (hr : Released (({} : OwnProgram).run ss)) :
    (({} : OwnProgram).run ss).own.wrappers = List.replicate (tellings true ss) 1 := by
  obtain ⟨h1, h2⟩ := C102_wrappers_partial ss hs
  have ha := ((C102_sink ss hs).2 hr).2
  rw [List.eq_replicate_iff]
  refine ⟨h1, fun b hb => ?_⟩
  obtain ⟨i, hi, rfl⟩ := List.mem_iff_getElem.1 hb
  rw [h2 i hi, ha]
  simp

/-- **C102**, partial: a program that opens a file, makes any calls, and releases everything. The sink object is gone; one object is
left if the file could be opened, also when the sink refused it, and none otherwise. -/
theorem C102_file_partial (cfg : Cfg) (fuel : Nat) (filter : Filter) (src : Res IFStream) (moves : Nat) (raises : Properties → Bool)
    (ops : List Op) (w : OwnProgram)
    (hw : (ownProgram cfg fuel filter src moves raises ops).run [.delSink, .delReader 0] = w) :
    w.own.sink = 0 ∧ ((∃ s R, src = .ok s ∧ openReader cfg ifs fuel (some filter) s = .ok R) → w.own.wrappers = [1]) ∧
      ((¬ ∃ s R, src = .ok s ∧ openReader cfg ifs fuel (some filter) s = .ok R) → w.own.wrappers = []) := by
  have key : ∀ (ss : List OwnStmt) (n : Nat), ReaderCalls ss → ({} : OwnProgram).run ss = w → Released w → tellings true ss = n →
      w.own.sink = 0 ∧ w.own.wrappers = List.replicate n 1 := by
    intro ss n h1 h2 h3 h4
    subst h2 h4
    exact ⟨((C102_sink ss h1).2 h3).1, C102_refuted ss h1 h3⟩
  have nil : ∀ {h : Opening}, ReaderCalls [.open moves h, .delSink, .delReader 0] := by
    intro h i es hm
    simp at hm
  unfold ownProgram at hw
  have hfail : ({} : OwnProgram).run [.open moves .failed, .delSink, .delReader 0] = w →
      w.own.sink = 0 ∧ w.own.wrappers = List.replicate 0 1 := by
    intro h
    refine key _ 0 nil h ?_ rfl
    subst h
    refine ⟨?_, ?_⟩ <;> simp [OwnProgram.run, OwnProgram.stmt, PyOwn.construct, moves_eq, livingReaders]
  cases src with
  | error e =>
    exact ⟨(hfail hw).1, (by rintro ⟨s, R, h, -⟩; cases h), fun _ => (hfail hw).2⟩
  | ok s =>
    cases ho : openReader cfg ifs fuel (some filter) s with
    | error e =>
      simp only [ho] at hw
      exact ⟨(hfail hw).1, (by rintro ⟨s, R, h, h2⟩; cases h; rw [ho] at h2; cases h2), fun _ => (hfail hw).2⟩
    | ok R =>
      simp only [ho] at hw
      suffices h : w.own.sink = 0 ∧ w.own.wrappers = List.replicate 1 1 from
        ⟨h.1, fun _ => h.2, fun h' => absurd ⟨s, R, rfl, ho⟩ h'⟩
      split at hw
      · have hw : ({} : OwnProgram).run [.open moves (.refused R.props), .delSink, .delReader 0] = w := hw
        refine key _ 1 nil hw ?_ rfl
        subst hw
        refine ⟨?_, ?_⟩ <;> simp [OwnProgram.run, OwnProgram.stmt, PyOwn.construct, moves_eq, livingReaders]
      · obtain ⟨rest, h1, -, h3, -⟩ := C08_protocol ho ops
        have ht : R.trace = [.setProperties R.props] := (openReader_spec ho).2.2
        have hw : ({} : OwnProgram).run [.open moves (.opened R.props), .calls 0 ((R.run ifs ops).2.trace.drop R.trace.length),
          .delSink, .delReader 0] = w := hw
        refine key _ 1 ?_ hw ?_ rfl
        · intro i es hm p hp
          simp only [List.mem_cons, List.not_mem_nil, reduceCtorEq, OwnStmt.calls.injEq, or_false, false_or] at hm
          obtain ⟨-, rfl⟩ := hm
          rw [h1, ht] at hp
          exact h3 p hp
        · subst hw
          refine ⟨?_, ?_⟩ <;> simp [OwnProgram.run, OwnProgram.stmt, PyOwn.construct, moves_eq, livingReaders]

/-! ## Cases -/

/-- Two readers with one sink at the same time; the first ends its data, the second does not, and a third is refused. The
variable of the sink is dropped before the second reader: that one keeps the sink alive. -/
example (p : Properties) (r : Row) : let ss : List OwnStmt := [.open 3 (.opened p), .open 0 (.opened p),
      .calls 0 [.pushRow 0 r, .endOfData], .open 2 (.refused p), .open 1 .failed, .delReader 0, .delSink]
    ReaderCalls ss ∧ ({} : OwnProgram).run ss = { own := { sink := 1, attr := some 2, wrappers := [1, 1, 2] }, var := false, readers := [none, some ⟨true⟩], owners := [some 0, some 1, none] } ∧
      ({} : OwnProgram).run (ss ++ [.delReader 1]) = { own := { sink := 0, attr := none, wrappers := [1, 1, 1] }, var := false, readers := [none, none], owners := [some 0, some 1, none] } := by
  refine ⟨fun i es h q hq => ?_, rfl, rfl⟩
  simp at h
  obtain ⟨-, rfl⟩ := h
  simp at hq

/-- The demonstration file. -/
example : (ownProgram Demo.cfg 10 Filter.acceptAll (.ok (IFStream.open Demo.file)) 3 (fun _ => false) [.readRow, .readAll]).own =
    { sink := 2, attr := none, wrappers := [1] } := by decide +kernel

end Sas.Props
