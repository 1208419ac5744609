import Verif.Model.PyLife
import Verif.Props.Reader

/-!
# C85: the properties a Python program holds
-/

namespace Sas.Props
open Sas Spec

variable {σ : Type} {S : Source σ}

/-- What may be seen of properties. -/
def ShowsOf (p : Properties) : Seen → Prop
  | .properties q => q = p
  | .columns n => n = p.columns.length
  | .column c => c ∈ p.columns

/-- The state of a program: everything that is reachable has the properties `p`; `got` says whether something may have
been obtained from the reader. -/
structure LifeOk (p : Properties) (got : Prop) (s : PyLife σ) : Prop where
  reader : ∀ R, s.reader = some R → R.Inv ∧ R.props = p
  copy : s.copy = p
  vars : ∀ v r, (v, r) ∈ s.vars → r.base = .fromReader → got

theorem LifeOk.target {p q : Properties} {got : Prop} {s : PyLife σ} (h : LifeOk p got s) {r : PyRef}
    (ht : s.target r = .ok q) : q = p := by
  unfold PyLife.target at ht
  split at ht
  · split at ht
    · rename_i R hR
      cases ht
      exact (h.reader R hR).2
    · cases ht
  · cases ht
    exact h.copy

theorem lookup_mem {l : List (Nat × PyRef)} {v : Nat} {r : PyRef} (h : l.lookup v = some r) : (v, r) ∈ l := by
  induction l with
  | nil => cases h
  | cons a l ih =>
    rw [List.lookup_cons] at h
    split at h
    · rename_i hv
      cases h
      have : v = a.1 := by simpa using hv
      simp [this]
    · exact List.mem_cons_of_mem _ (ih h)

theorem LifeOk.assign {p : Properties} {got : Prop} {s : PyLife σ} (h : LifeOk p got s) (v : Nat) {r : PyRef}
    (hr : r.base = .fromReader → got) : LifeOk p got (s.assign v r) := by
  refine ⟨h.reader, h.copy, fun w q hq hb => ?_⟩
  rcases List.mem_cons.mp hq with e | e
  · cases e
    exact hr hb
  · exact h.vars w q (List.mem_filter.mp e).1 hb

theorem var_mem {s : PyLife σ} {v : Nat} {r : PyRef} (h : s.var v = .ok r) : (v, r) ∈ s.vars := by
  unfold PyLife.var at h
  split at h
  · rename_i q hq
    cases h
    exact lookup_mem hq
  · cases h

/-- A step. -/
theorem LifeOk.step {p : Properties} {got : Prop} {s s' : PyLife σ} {st : LifeStmt} {seen : List Seen}
    (h : LifeOk p got s) (hst : s.step S st = .ok (s', seen)) :
    LifeOk p (got ∨ ∃ v, st = .properties v) s' ∧ (∀ x ∈ seen, ShowsOf p x) ∧
      (st ≠ .delReader → s'.reader.isSome = s.reader.isSome) := by
  have weak : ∀ {t : PyLife σ}, LifeOk p got t → LifeOk p (got ∨ ∃ v, st = .properties v) t :=
    fun ht => ⟨ht.reader, ht.copy, fun v r hm hb => .inl (ht.vars v r hm hb)⟩
  cases st with
  | call op =>
    simp only [PyLife.step] at hst
    split at hst
    · cases hst
    · rename_i R hR
      obtain ⟨hi, hp⟩ := h.reader R hR
      obtain ⟨hv, hs, -⟩ := Reader.step_inv (S := S) R hi op
      generalize R.step S op = y at *
      obtain ⟨r, R1⟩ := y
      cases r with
      | error e => cases hst
      | ok u =>
        cases hst
        refine ⟨weak ⟨fun R2 h2 => ?_, h.copy, h.vars⟩, by simp, fun _ => by simp [hR]⟩
        cases h2
        exact ⟨hv, hs.trans hp⟩
  | properties v =>
    simp only [PyLife.step] at hst
    split at hst
    · cases hst
      exact ⟨LifeOk.assign ⟨h.reader, h.copy, fun w r hm hb => .inl (h.vars w r hm hb)⟩ v
        (fun _ => .inr ⟨v, rfl⟩), by simp, fun _ => rfl⟩
    · cases hst
  | sinkProperties v =>
    simp only [PyLife.step] at hst
    split at hst
    · cases hst
      exact ⟨weak (h.assign v (fun hb => by cases hb)), by simp, fun _ => rfl⟩
    · cases hst
  | columns v w =>
    simp only [PyLife.step] at hst
    cases hw : s.var w with
    | error e => rw [hw] at hst; cases hst
    | ok r =>
      rw [hw] at hst
      simp only [bind, Except.bind] at hst
      split at hst
      · cases ht : s.target r with
        | error e => rw [ht] at hst; cases hst
        | ok q =>
          rw [ht] at hst
          cases hst
          exact ⟨weak (h.assign v (fun hb => h.vars w r (var_mem hw) hb)), by simp, fun _ => rfl⟩
      · cases hst
  | item v w i =>
    simp only [PyLife.step] at hst
    cases hw : s.var w with
    | error e => rw [hw] at hst; cases hst
    | ok r =>
      rw [hw] at hst
      simp only [bind, Except.bind] at hst
      split at hst
      · rename_i q
        cases ht : s.target (.columns q) with
        | error e => rw [ht] at hst; cases hst
        | ok p' =>
          rw [ht] at hst
          simp only at hst
          split at hst
          · cases hst
            exact ⟨weak (h.assign v (fun hb => h.vars w _ (var_mem hw) hb)), by simp, fun _ => rfl⟩
          · cases hst
      · cases hst
  | look v =>
    simp only [PyLife.step] at hst
    cases hw : s.var v with
    | error e => rw [hw] at hst; cases hst
    | ok r =>
      rw [hw] at hst
      simp only [bind, Except.bind] at hst
      cases ht : s.target r with
      | error e => rw [ht] at hst; cases hst
      | ok q =>
        rw [ht] at hst
        simp only at hst
        cases hl : r.look q with
        | error e => rw [hl] at hst; cases hst
        | ok x =>
          rw [hl] at hst
          cases hst
          refine ⟨weak h, ?_, fun _ => rfl⟩
          have hq := h.target ht
          subst hq
          intro y hy
          rw [List.mem_singleton.mp hy]
          cases r with
          | fromReader => cases hl; rfl
          | fromSink => cases hl; rfl
          | columns r => cases hl; rfl
          | column r i =>
            simp only [PyRef.look] at hl
            split at hl
            · rename_i c hc
              cases hl
              exact List.mem_of_getElem? hc
            · cases hl
  | del v =>
    simp only [PyLife.step] at hst
    cases hw : s.var v with
    | error e => rw [hw] at hst; cases hst
    | ok r =>
      rw [hw] at hst
      cases hst
      exact ⟨weak ⟨h.reader, h.copy, fun w q hm => h.vars w q (List.mem_filter.mp hm).1⟩, by simp, fun _ => rfl⟩
  | delReader =>
    cases hst
    exact ⟨weak ⟨fun R hR => (by cases hR), h.copy, h.vars⟩, by simp, fun hn => absurd rfl hn⟩
  | delSink =>
    cases hst
    exact ⟨weak ⟨h.reader, h.copy, h.vars⟩, by simp, fun _ => rfl⟩

/-- Following a pointer to something gone: it came from a reader, and there is no reader. -/
theorem LifeOk.dangling {p : Properties} {got : Prop} {s : PyLife σ} {st : LifeStmt}
    (h : LifeOk p got s) (hst : s.step S st = .error .dangling) : got ∧ s.reader = none := by
  have target : ∀ {v r}, s.var v = .ok r → s.target r = .error .dangling → got ∧ s.reader = none := by
    intro v r hv ht
    unfold PyLife.target at ht
    split at ht
    · rename_i hb
      split at ht
      · cases ht
      · rename_i hR
        exact ⟨h.vars v r (var_mem hv) hb, hR⟩
    · cases ht
  have var : ∀ v, s.var v ≠ .error .dangling := by
    intro v hv
    unfold PyLife.var at hv
    split at hv <;> cases hv
  cases st with
  | call op =>
    simp only [PyLife.step] at hst
    split at hst
    · cases hst
    · split at hst <;> cases hst
  | properties v =>
    simp only [PyLife.step] at hst
    split at hst <;> cases hst
  | sinkProperties v =>
    simp only [PyLife.step] at hst
    split at hst <;> cases hst
  | columns v w =>
    simp only [PyLife.step] at hst
    cases hw : s.var w with
    | error e => rw [hw] at hst; cases hst; exact absurd hw (var w)
    | ok r =>
      rw [hw] at hst
      simp only [bind, Except.bind] at hst
      split at hst
      · cases ht : s.target r with
        | error e => rw [ht] at hst; cases hst; exact target hw ht
        | ok q => rw [ht] at hst; cases hst
      · cases hst
  | item v w i =>
    simp only [PyLife.step] at hst
    cases hw : s.var w with
    | error e => rw [hw] at hst; cases hst; exact absurd hw (var w)
    | ok r =>
      rw [hw] at hst
      simp only [bind, Except.bind] at hst
      split at hst
      · rename_i q
        cases ht : s.target (.columns q) with
        | error e => rw [ht] at hst; cases hst; exact target hw ht
        | ok p' =>
          rw [ht] at hst
          simp only at hst
          split at hst <;> cases hst
      · cases hst
  | look v =>
    simp only [PyLife.step] at hst
    cases hw : s.var v with
    | error e => rw [hw] at hst; cases hst; exact absurd hw (var v)
    | ok r =>
      rw [hw] at hst
      simp only [bind, Except.bind] at hst
      cases ht : s.target r with
      | error e => rw [ht] at hst; cases hst; exact target hw ht
      | ok q =>
        rw [ht] at hst
        simp only at hst
        cases hl : r.look q with
        | ok x => rw [hl] at hst; cases hst
        | error e =>
          rw [hl] at hst
          cases hst
          unfold PyRef.look at hl
          split at hl
          · cases hl
          · split at hl <;> cases hl
          · cases hl
  | del v =>
    simp only [PyLife.step] at hst
    cases hw : s.var v with
    | error e => rw [hw] at hst; cases hst; exact absurd hw (var v)
    | ok r => rw [hw] at hst; cases hst
  | delReader => cases hst
  | delSink => cases hst

theorem life_run {p : Properties} : ∀ (prog : List LifeStmt) (got : Prop) (s : PyLife σ), LifeOk p got s →
    (∀ s' seen, s.run S prog = .ok (s', seen) → ∀ x ∈ seen, ShowsOf p x) ∧
    (s.run S prog = .error .dangling →
      (s.reader = none ∧ got) ∨ (got ∧ .delReader ∈ prog) ∨
      ∃ v before middle after, prog = before ++ .properties v :: middle ++ .delReader :: after)
  | [], got, s, h => by
    refine ⟨fun s' seen hr => ?_, fun hr => by cases hr⟩
    cases hr
    simp
  | st :: sts, got, s, h => by
    simp only [PyLife.run]
    cases hst : s.step S st with
    | error e =>
      refine ⟨fun s' seen hr => (by cases hr), fun hr => ?_⟩
      cases hr
      obtain ⟨h1, h2⟩ := h.dangling hst
      exact .inl ⟨h2, h1⟩
    | ok y =>
      obtain ⟨s1, a⟩ := y
      obtain ⟨k1, k2, k3⟩ := h.step hst
      obtain ⟨i1, i2⟩ := life_run sts _ s1 k1
      simp only [bind, Except.bind]
      cases hr : s1.run S sts with
      | error e =>
        refine ⟨fun s' seen hx => (by cases hx), fun hx => ?_⟩
        cases hx
        rcases i2 hr with ⟨n1, n2⟩ | ⟨n1, n2⟩ | ⟨v, b, m, c, n⟩
        · by_cases hd : st = .delReader
          · subst hd
            rcases n2 with g | ⟨v, g⟩
            · exact .inr (.inl ⟨g, by simp⟩)
            · cases g
          · have hn : s.reader = none := by
              have := k3 hd
              rw [n1] at this
              simpa using this.symm
            rcases n2 with g | ⟨v, g⟩
            · exact .inl ⟨hn, g⟩
            · subst g
              simp only [PyLife.step, hn] at hst
              cases hst
        · rcases n1 with g | ⟨v, g⟩
          · exact .inr (.inl ⟨g, by simp [n2]⟩)
          · obtain ⟨m, c, hm⟩ := List.append_of_mem n2
            exact .inr (.inr ⟨v, [], m, c, by simp [g, hm]⟩)
        · exact .inr (.inr ⟨v, st :: b, m, c, by simp [n]⟩)
      | ok z =>
        obtain ⟨s2, b⟩ := z
        refine ⟨fun s' seen hx => ?_, fun hx => by cases hx⟩
        cases hx
        intro x hx
        rcases List.mem_append.mp hx with hx | hx
        · exact k2 x hx
        · exact i1 _ _ hr x hx

/-- C85, partial. A Python program with a reader of any file: whatever it calls, whatever it deletes and in whatever
order, all it sees of properties and columns is what the reader had when it was opened; and it follows no pointer to
something that is gone unless it called `reader.properties()` and later let the reader die. So everything is well in a
program that keeps its reader, and in one that takes the properties from its sink. -/
theorem C85_alive_partial {cfg : Cfg} {fuel : Nat} {filter : Option Filter} {src : σ} {R : Reader σ}
    (h : openReader cfg S fuel filter src = .ok R) (prog : List LifeStmt) :
    (∀ s seen, (PyLife.start R).run S prog = .ok (s, seen) → ∀ x ∈ seen,
      match x with
      | .properties q => q = R.props
      | .columns n => n = R.props.columns.length
      | .column c => c ∈ R.props.columns) ∧
    ((PyLife.start R).run S prog = .error .dangling →
      ∃ v before middle after, prog = before ++ .properties v :: middle ++ .delReader :: after) := by
  have hok : LifeOk R.props False (PyLife.start R) :=
    ⟨fun R' hR => by cases hR; exact ⟨(openReader_spec h).1, rfl⟩, rfl, fun _ _ hm => by cases hm⟩
  obtain ⟨h1, h2⟩ := life_run (S := S) prog False _ hok
  refine ⟨fun s seen hr x hx => ?_, fun hr => ?_⟩
  · have := h1 s seen hr x hx
    cases x <;> exact this
  · rcases h2 hr with ⟨-, e⟩ | ⟨e, -⟩ | e
    · exact e.elim
    · exact e.elim
    · exact e

/-- A program that looks at a column of the sink's properties after everything else is gone. -/
example : ((PyLife.start Demo.reader).run ifs [.sinkProperties 0, .call .readRow, .columns 1 0, .item 2 1 1, .del 0, .del 1,
      .delReader, .delSink, .look 2]).isOk = true ∧
    ((PyLife.start Demo.reader).run ifs [.properties 0, .look 0, .columns 1 0, .item 2 1 1, .del 0, .look 2, .call .readAll,
      .look 1]).isOk = true := by
  decide +kernel

/-- C85 is false of the properties a reader returns, for every file: `Reader(filename, sink).properties().row_count`, the
columns and (if there is one) a column of such properties follow a pointer into the reader, which is gone. -/
theorem C85_dangling_refuted (R : Reader σ) :
    (PyLife.start R).run S [.properties 0, .delReader, .look 0] = .error .dangling ∧
    (PyLife.start R).run S [.properties 0, .columns 1 0, .delReader, .look 1] = .error .dangling ∧
    (R.props.columns ≠ [] →
      (PyLife.start R).run S [.properties 0, .columns 1 0, .item 2 1 0, .delReader, .look 2] = .error .dangling) := by
  refine ⟨rfl, rfl, fun h => ?_⟩
  have hl : 0 < R.props.columns.length := List.length_pos_iff.mpr h
  simp [PyLife.run, PyLife.step, PyLife.start, PyLife.assign, PyLife.var, PyLife.target, PyRef.base, hl, bind, Except.bind,
    pure, Except.pure, List.lookup]

/-! ## What a variable shows -/

/-- The statement gives the variable another value, or deletes it. -/
def Touches (v : Nat) : LifeStmt → Prop
  | .properties w | .sinkProperties w | .columns w _ | .item w _ _ | .del w => w = v
  | _ => False

theorem lookup_filter_ne {l : List (Nat × PyRef)} {v w : Nat} (h : w ≠ v) :
    (l.filter fun x => x.1 ≠ w).lookup v = l.lookup v := by
  induction l with
  | nil => rfl
  | cons a l ih =>
    obtain ⟨k, r⟩ := a
    by_cases hk : k = w
    · subst hk
      rw [List.filter_cons_of_neg (by simp), List.lookup_cons, ih]
      have : (v == k) = false := by simpa using fun e : v = k => h e.symm
      rw [this]
    · rw [List.filter_cons_of_pos (by simpa using hk), List.lookup_cons, List.lookup_cons, ih]

theorem assign_lookup (s : PyLife σ) (v : Nat) (r : PyRef) : (s.assign v r).vars.lookup v = some r := by
  unfold PyLife.assign
  rw [List.lookup_cons]
  simp

theorem assign_lookup_ne (s : PyLife σ) {v w : Nat} (r : PyRef) (h : w ≠ v) :
    (s.assign w r).vars.lookup v = s.vars.lookup v := by
  unfold PyLife.assign
  show List.lookup v (_ :: _) = _
  rw [List.lookup_cons]
  have : (v == w) = false := by simpa using fun e : v = w => h e.symm
  rw [this]
  exact lookup_filter_ne h

theorem step_keeps {s s' : PyLife σ} {st : LifeStmt} {seen : List Seen} (hst : s.step S st = .ok (s', seen)) {v : Nat}
    (hv : ¬ Touches v st) : s'.vars.lookup v = s.vars.lookup v := by
  cases st with
  | call op =>
    simp only [PyLife.step] at hst
    split at hst
    · cases hst
    · split at hst <;> cases hst
      rfl
  | properties w =>
    simp only [PyLife.step] at hst
    split at hst <;> cases hst
    exact assign_lookup_ne _ _ hv
  | sinkProperties w =>
    simp only [PyLife.step] at hst
    split at hst <;> cases hst
    exact assign_lookup_ne _ _ hv
  | columns w x =>
    simp only [PyLife.step, bind, Except.bind, pure, Except.pure] at hst
    split at hst
    · cases hst
    · split at hst
      · split at hst <;> cases hst
        exact assign_lookup_ne _ _ hv
      · cases hst
  | item w x i =>
    simp only [PyLife.step, bind, Except.bind, pure, Except.pure] at hst
    split at hst
    · cases hst
    · split at hst
      · split at hst
        · cases hst
        · split at hst <;> cases hst
          exact assign_lookup_ne _ _ hv
      · cases hst
  | look w =>
    simp only [PyLife.step, bind, Except.bind, pure, Except.pure] at hst
    split at hst
    · cases hst
    · split at hst
      · cases hst
      · split at hst <;> cases hst
        rfl
  | del w =>
    simp only [PyLife.step, bind, Except.bind, pure, Except.pure] at hst
    split at hst <;> cases hst
    exact lookup_filter_ne hv
  | delReader => cases hst; rfl
  | delSink => cases hst; rfl

theorem run_cons {s : PyLife σ} {st : LifeStmt} {sts : List LifeStmt} {s2 : PyLife σ} {seen : List Seen}
    (h : s.run S (st :: sts) = .ok (s2, seen)) :
    ∃ s1 a b, s.step S st = .ok (s1, a) ∧ s1.run S sts = .ok (s2, b) ∧ seen = a ++ b := by
  simp only [PyLife.run, bind, Except.bind, pure, Except.pure] at h
  split at h
  · cases h
  · rename_i x hx
    obtain ⟨s1, a⟩ := x
    dsimp only at h
    split at h
    · cases h
    · rename_i y hy
      obtain ⟨s2', b⟩ := y
      cases h
      exact ⟨s1, a, b, hx, hy, rfl⟩

theorem run_append : ∀ (p q : List LifeStmt) {s s2 : PyLife σ} {seen : List Seen}, s.run S (p ++ q) = .ok (s2, seen) →
    ∃ s1 a b, s.run S p = .ok (s1, a) ∧ s1.run S q = .ok (s2, b) ∧ seen = a ++ b
  | [], q, s, s2, seen, h => ⟨s, [], seen, rfl, h, rfl⟩
  | st :: p, q, s, s2, seen, h => by
    obtain ⟨s1, a, b, h1, h2, rfl⟩ := run_cons h
    obtain ⟨s3, c, d, h3, h4, rfl⟩ := run_append p q h2
    refine ⟨s3, a ++ c, d, ?_, h4, by simp⟩
    simp only [PyLife.run, bind, Except.bind, pure, Except.pure, h1, h3]

theorem run_ok {p : Properties} : ∀ (prog : List LifeStmt) (got : Prop) {s s' : PyLife σ} {seen : List Seen}, LifeOk p got s →
    s.run S prog = .ok (s', seen) → ∃ got', LifeOk p got' s'
  | [], got, s, s', seen, h, hr => by cases hr; exact ⟨got, h⟩
  | st :: sts, got, s, s', seen, h, hr => by
    obtain ⟨s1, a, b, h1, h2, rfl⟩ := run_cons hr
    exact run_ok sts _ (h.step h1).1 h2

theorem run_keeps {v : Nat} : ∀ (prog : List LifeStmt) {s s' : PyLife σ} {seen : List Seen}, s.run S prog = .ok (s', seen) →
    (∀ st ∈ prog, ¬ Touches v st) → s'.vars.lookup v = s.vars.lookup v
  | [], s, s', seen, h, _ => by cases h; rfl
  | st :: sts, s, s', seen, h, hv => by
    obtain ⟨s1, a, b, h1, h2, rfl⟩ := run_cons h
    rw [run_keeps sts h2 fun x hx => hv x (by simp [hx]), step_keeps h1 (hv st (by simp))]

/-- C85, partial, what is shown. Looking at a variable shows what was put there last: the properties, the columns, or the column of
this number, as they were when the file was opened, whatever the program did in between. Missing, as above: programs that look
at properties of a reader which is gone. -/
theorem C85_shows_partial {cfg : Cfg} {fuel : Nat} {filter : Option Filter} {src : σ} {R : Reader σ}
    (h : openReader cfg S fuel filter src = .ok R) (before middle : List LifeStmt) (st : LifeStmt) (v : Nat) (s : PyLife σ)
    (seen : List Seen) (hm : ∀ x ∈ middle, ¬ Touches v x)
    (hr : (PyLife.start R).run S (before ++ st :: (middle ++ [.look v])) = .ok (s, seen)) :
    (st = .properties v ∨ st = .sinkProperties v → seen.getLast? = some (.properties R.props)) ∧
    (∀ w, st = .columns v w → seen.getLast? = some (.columns R.props.columns.length)) ∧
    (∀ w i, st = .item v w i → ∃ c, R.props.columns[i]? = some c ∧ seen.getLast? = some (.column c)) := by
  have hok : LifeOk R.props False (PyLife.start R) :=
    ⟨fun R' hR => by cases hR; exact ⟨(openReader_spec h).1, rfl⟩, rfl, fun _ _ hm => by cases hm⟩
  obtain ⟨s1, a, b, h1, h2, rfl⟩ := run_append before _ hr
  obtain ⟨g1, k1⟩ := run_ok before _ hok h1
  obtain ⟨s2, c, d, h3, h4, rfl⟩ := run_cons h2
  obtain ⟨s3, e, f, h5, h6, rfl⟩ := run_append middle _ h4
  obtain ⟨g3, k3⟩ := run_ok middle _ (k1.step h3).1 h5
  have hl := run_keeps middle h5 hm
  have last : ∀ r, s2.vars.lookup v = some r → ∃ y, r.look R.props = .ok y ∧
      (a ++ (c ++ (e ++ f))).getLast? = some y := by
    intro r hv
    obtain ⟨s4, g, g', h7, h8, rfl⟩ := run_cons h6
    cases h8
    rw [hv] at hl
    simp only [PyLife.step, PyLife.var, hl, bind, Except.bind, pure, Except.pure] at h7
    split at h7
    · cases h7
    · rename_i q hq
      have := k3.target hq
      subst this
      split at h7
      · cases h7
      · rename_i y hy
        cases h7
        exact ⟨y, hy, by simp⟩
  refine ⟨?_, ?_, ?_⟩
  · rintro (rfl | rfl)
    · simp only [PyLife.step] at h3
      split at h3 <;> cases h3
      obtain ⟨y, hy, hz⟩ := last _ (assign_lookup _ _ _)
      cases hy
      exact hz
    · simp only [PyLife.step] at h3
      split at h3 <;> cases h3
      obtain ⟨y, hy, hz⟩ := last _ (assign_lookup _ _ _)
      cases hy
      exact hz
  · rintro w rfl
    simp only [PyLife.step, bind, Except.bind, pure, Except.pure] at h3
    split at h3
    · cases h3
    · split at h3
      · split at h3 <;> cases h3
        obtain ⟨y, hy, hz⟩ := last _ (assign_lookup _ _ _)
        cases hy
        exact hz
      · cases h3
  · rintro w i rfl
    simp only [PyLife.step, bind, Except.bind, pure, Except.pure] at h3
    split at h3
    · cases h3
    · split at h3
      · split at h3
        · cases h3
        · split at h3 <;> cases h3
          obtain ⟨y, hy, hz⟩ := last _ (assign_lookup _ _ _)
          simp only [PyRef.look] at hy
          split at hy
          · rename_i c' hc
            cases hy
            exact ⟨c', hc, hz⟩
          · cases hy
      · cases h3

/-- The second column of the sink's properties, looked at when nothing else is left. -/
example : ∃ s seen c, (PyLife.start Demo.reader).run ifs ([.sinkProperties 0, .columns 1 0] ++ .item 2 1 1 ::
      ([.del 0, .call .readRow, .delReader, .delSink] ++ [.look 2])) = .ok (s, seen) ∧
    Demo.reader.props.columns[1]? = some c ∧ seen.getLast? = some (.column c) := by
  cases hr : (PyLife.start Demo.reader).run ifs ([.sinkProperties 0, .columns 1 0] ++ .item 2 1 1 ::
      ([.del 0, .call .readRow, .delReader, .delSink] ++ [.look 2])) with
  | error e =>
    have : ((PyLife.start Demo.reader).run ifs ([.sinkProperties 0, .columns 1 0] ++ .item 2 1 1 ::
      ([.del 0, .call .readRow, .delReader, .delSink] ++ [.look 2]))).isOk = true := by decide +kernel
    rw [hr] at this
    cases this
  | ok x =>
    obtain ⟨s, seen⟩ := x
    obtain ⟨c, h1, h2⟩ := (C85_shows_partial Demo.opened_ok _ _ _ 2 s seen (by
      intro x hx; simp at hx; rcases hx with rfl | rfl | rfl | rfl <;> simp [Touches]) hr).2.2 1 1 rfl
    exact ⟨s, seen, c, rfl, h1, h2⟩

end Sas.Props
