import Verif.Spec.PyCounts
import Verif.Proofs.PyRefs
import Verif.Proofs.PyThrowing

/-! # Lemmas: the count of `None` in programs that catch exceptions -/

namespace Sas.Proofs

open Sas Spec

theorem missingCount_eq (l : List Cell) : missingCount l = l.countP Cell.missing := by
  induction l with
  | nil => rfl
  | cons c l ih =>
    rw [List.countP_cons, ← ih]
    unfold missingCount
    simp only [List.count_cons]
    cases c with
    | datetime t => cases t <;> simp [Cell.missing] <;> omega
    | date t => cases t <;> simp [Cell.missing] <;> omega
    | time t => cases t <;> simp [Cell.missing] <;> omega
    | _ => simp [Cell.missing]

/-- The interpreter when `own` of the references to `None` are held by lists, it had `n` references at the start. -/
structure Owes (imm : Bool) (n : Nat) (own : Nat) (h : PyCounts) : Prop where
  imm : h.immortal = imm
  immortal : h.immortal = true → h.aborted = false ∧ h.none = n
  alive : h.immortal = false → h.aborted = false → 1 ≤ h.none ∧ h.none + missingCount h.converted = n + own
  dead : h.immortal = false → h.aborted = true → n ≤ missingCount h.converted

variable {imm : Bool} {n own : Nat} {h : PyCounts}

theorem Owes.decref (o : Owes imm n own h) {v : PyVal} {k : Nat} (hk : own = k + nones [v]) : Owes imm n k (h.decref v) := by
  subst hk
  unfold PyCounts.decref
  by_cases hv : v = .time .none
  · subst hv
    have : nones [PyVal.time .none] = 1 := by decide
    rw [this] at o
    split
    · rename_i c
      obtain ⟨a1, a2⟩ := o.alive c.2.1 c.1
      split
      · exact ⟨o.imm, fun x => absurd (c.2.1.symm.trans x) (by simp), (fun _ x => Bool.noConfusion x), fun _ _ => by dsimp only; omega⟩
      · exact ⟨o.imm, fun x => absurd (c.2.1.symm.trans x) (by simp), fun _ x => by dsimp only; omega,
          fun _ x => absurd (c.1.symm.trans x) (by simp)⟩
    · rename_i c
      refine ⟨o.imm, o.immortal, fun x y => absurd ⟨y, x, rfl⟩ c, o.dead⟩
  · rw [if_neg (fun c => hv c.2.2)]
    have : nones [v] = 0 := by simp [nones, hv]
    rw [this] at o
    exact o

theorem Owes.release (vs : List PyVal) : ∀ {h : PyCounts} {k : Nat}, Owes imm n (k + nones vs) h → Owes imm n k (h.release vs) := by
  induction vs with
  | nil => intro h k o; exact o
  | cons v vs ih =>
    intro h k o
    unfold PyCounts.release
    rw [nones_cons] at o
    exact ih (o.decref (by omega))

theorem Owes.incref (o : Owes imm n own h) (v : PyVal) : ((h.incref v).decref v) = h := by
  unfold PyCounts.incref PyCounts.decref
  by_cases c : h.aborted = false ∧ h.immortal = false ∧ v = .time .none
  · rw [if_pos c, if_pos c]
    have := (o.alive c.2.1 c.1).1
    rw [if_neg (by dsimp only; omega)]
    simp
  · rw [if_neg c, if_neg c]

theorem Owes.convert (o : Owes imm n own h) {c : Cell} {v : PyVal} (hv : c.toPy = .ok v) :
    Owes imm n (own + nones [v]) (if h.aborted then h else { h with converted := h.converted ++ [c] }) := by
  have hn : nones [v] = if Cell.missing c then 1 else 0 := by
    have := missing_none hv
    unfold nones
    by_cases hm : v = .time .none
    · simp [hm, this.1 hm]
    · have hc : Cell.missing c = false := by
        rw [← Bool.not_eq_true]; exact fun x => hm (this.2 x)
      simp [hm, hc]
  by_cases ha : h.aborted = true
  · rw [if_pos ha]
    exact ⟨o.imm, o.immortal, fun _ x => absurd (ha.symm.trans x) (by simp), o.dead⟩
  · rw [if_neg ha]
    rw [Bool.not_eq_true] at ha
    refine ⟨o.imm, o.immortal, fun x y => ?_, fun _ x => absurd (ha.symm.trans x) (by simp)⟩
    obtain ⟨a1, a2⟩ := o.alive x y
    refine ⟨a1, ?_⟩
    dsimp only
    rw [missingCount_eq, List.countP_append, ← missingCount_eq, hn]
    simp only [List.countP_cons, List.countP_nil]
    omega

theorem Owes.append (o : Owes imm n own h) (c : Cell) :
    (∃ v, (h.append c).1 = .ok v ∧ Owes imm n (own + nones [v]) (h.append c).2) ∨
      ((∃ e, (h.append c).1 = .error e) ∧ Owes imm n own (h.append c).2) := by
  unfold PyCounts.append PyCounts.convert
  cases hv : c.toPy with
  | error e => exact .inr ⟨⟨e, rfl⟩, o⟩
  | ok v =>
    refine .inl ⟨v, rfl, ?_⟩
    have o1 := o.convert hv
    dsimp only
    rw [o1.incref, o1.incref]
    exact o1

theorem Owes.list (cs : List Cell) : ∀ {h : PyCounts} {own : Nat} (done : List PyVal), Owes imm n (own + nones done) h →
    (∃ vs, (h.list done cs).1 = .ok vs ∧ Owes imm n (own + nones vs) (h.list done cs).2) ∨
      ((∃ e, (h.list done cs).1 = .error e) ∧ Owes imm n own (h.list done cs).2) := by
  induction cs with
  | nil => intro h own done o; exact .inl ⟨done, rfl, o⟩
  | cons c cs ih =>
    intro h own done o
    unfold PyCounts.list
    rcases o.append c with ⟨v, h1, h2⟩ | ⟨⟨e, h1⟩, h2⟩
    · rcases hx : h.append c with ⟨r, h'⟩
      rw [hx] at h1 h2
      dsimp only at h1 h2
      subst h1
      exact ih (done ++ [v]) (by rw [nones_append]; rwa [Nat.add_assoc] at h2)
    · rcases hx : h.append c with ⟨r, h'⟩
      rw [hx] at h1 h2
      dsimp only at h1 h2
      subst h1
      exact .inr ⟨⟨e, rfl⟩, h2.release done⟩

theorem Owes.lists (ls : List (Option (List Byte) × List Cell)) : ∀ {h : PyCounts} {own : Nat} (done : List PyVal),
    Owes imm n (own + nones done) h →
    (∃ vs, (h.lists done ls).1 = .ok vs ∧ Owes imm n (own + nones vs) (h.lists done ls).2) ∨
      ((∃ e, (h.lists done ls).1 = .error e) ∧ Owes imm n own (h.lists done ls).2) := by
  induction ls with
  | nil => intro h own done o; exact .inl ⟨done, rfl, o⟩
  | cons l ls ih =>
    intro h own done o
    obtain ⟨k, cs⟩ := l
    unfold PyCounts.lists
    rcases Owes.list cs (own := own + nones done) [] (by simpa [nones] using o) with ⟨vs, h1, h2⟩ | ⟨⟨e, h1⟩, h2⟩
    · rcases hx : h.list [] cs with ⟨r, h'⟩
      rw [hx] at h1 h2
      dsimp only at h1 h2
      subst h1
      dsimp only
      split
      · exact ih (done ++ vs) (by rw [nones_append]; rwa [Nat.add_assoc] at h2)
      · exact .inr ⟨⟨_, rfl⟩, (h2.release vs).release done⟩
    · rcases hx : h.list [] cs with ⟨r, h'⟩
      rw [hx] at h1 h2
      dsimp only at h1 h2
      subst h1
      exact .inr ⟨⟨e, rfl⟩, h2.release done⟩

variable {σ κ : Type} {P : PyCode κ} {keep : κ → Event → Bool} {S : Source σ}

/-- A sink whose interpreter owes only what the object has kept. -/
def Settled (imm : Bool) (n : Nat) (s : PyOwner κ) : Prop := Owes imm n (nones s.kept) s.counts

theorem Settled.call {s : PyOwner κ} (o : Settled imm n s) (e : Event) : Settled imm n ((pyOwnerCode P keep).call s e).2 := by
  unfold pyOwnerCode
  dsimp only
  rcases Owes.lists (s.live.cpp.lists e) (own := nones s.kept) [] (show Owes imm n (nones s.kept + 0) s.counts from o) with ⟨vs, h1, h2⟩ | ⟨⟨x, h1⟩, h2⟩
  · rcases hx : s.counts.lists [] (s.live.cpp.lists e) with ⟨r, h'⟩
    rw [hx] at h1 h2
    dsimp only at h1 h2
    subst h1
    dsimp only
    split
    · unfold Settled
      dsimp only
      rw [nones_append]
      exact h2
    · exact h2.release vs
  · rcases hx : s.counts.lists [] (s.live.cpp.lists e) with ⟨r, h'⟩
    rw [hx] at h1 h2
    dsimp only at h1 h2
    subst h1
    exact h2

theorem Settled.calls (es : List Event) : ∀ {s : PyOwner κ}, Settled imm n s → Settled imm n (afterCalls (pyOwnerCode P keep) s es) := by
  induction es with
  | nil => intro s o; exact o
  | cons e es ih => intro s o; exact ih (o.call e)

theorem Owes.look (o : Owes imm n own h) (t : DateTime) : Owes imm n own (h.look t) := by
  unfold PyCounts.look PyCounts.convert
  cases hv : Cell.toPy (.datetime t) with
  | error e => exact o
  | ok v => exact (o.convert hv).decref rfl

theorem Settled.run (ss : List RefStmt) : ∀ {T : TReader σ (PyOwner κ)}, Settled imm n T.sink →
    Settled imm n (catchingRun P keep S T ss).sink := by
  induction ss with
  | nil => intro T o; exact o
  | cons x ss ih =>
    intro T o
    cases x with
    | call op =>
      obtain ⟨-, es, -, h3, -⟩ := step_like (K := pyOwnerCode P keep) (S := S) T op
      unfold catchingRun
      have o1 : Settled imm n (T.step (pyOwnerCode P keep) S op).2.sink := by rw [h3]; exact o.calls es
      rcases hx : T.step (pyOwnerCode P keep) S op with ⟨((e | x) | v), T1⟩
      · rw [hx] at o1
        cases e <;> first | exact ih o1 | exact o1
      · rw [hx] at o1; exact ih o1
      · rw [hx] at o1; exact ih o1
    | dateCreated => exact ih (T := { T with sink := _ }) (Owes.look o _)
    | dateModified => exact ih (T := { T with sink := _ }) (Owes.look o _)

/-! ## Where the cells that are converted come from -/

/-- Cells none of which is missing. -/
def Full (l : List Cell) : Prop := ∀ c ∈ l, Cell.missing c = false

/-- A sink that holds no missing values. -/
def FullSink (cols : List Column) : CppSink → Prop
  | .row st => ∀ c ∈ st.columns, c ∈ cols
  | .chunk st => (∀ g ∈ st.cols, g ∈ (Columns.ofColumns cols).grouped) ∧ ∀ l ∈ st.vals, Full l
  | .data st => (∀ g ∈ st.cols, g ∈ (Columns.ofColumns cols).grouped) ∧ ∀ l ∈ st.vals, Full l

/-- A call that brings no missing values. -/
def FullEvent (cols : List Column) : Event → Prop
  | .setProperties p => p.columns = cols
  | .pushRow i r => ∀ c ∈ cols, MissingAt c (i, r) = false
  | .endOfData => True

theorem pushValues_full {cols : List Column} {i : Nat} {r : Row} (hr : ∀ c ∈ cols, MissingAt c (i, r) = false) :
    ∀ {gs : List GroupedColumn} {vals vals' : List (List Cell)}, (∀ g ∈ gs, g ∈ (Columns.ofColumns cols).grouped) →
      (∀ l ∈ vals, Full l) → pushValues gs vals r.mem = .ok vals' → ∀ l ∈ vals', Full l := by
  intro gs
  induction gs with
  | nil => intro vals vals' _ _ h; simp only [pushValues, Except.ok.injEq] at h; subst h; simp
  | cons g gs ih =>
    intro vals vals' hg hv h
    cases vals with
    | nil => cases h
    | cons v vals =>
      unfold pushValues at h
      cases hx : g.2 g.1 r.mem with
      | error e => rw [hx] at h; cases h
      | ok x =>
        cases hy : pushValues gs vals r.mem with
        | error e => rw [hx, hy] at h; cases h
        | ok w =>
          rw [hx, hy] at h
          cases h
          intro l hl
          rcases List.mem_cons.1 hl with hl | hl
          · subst hl
            intro c hc
            rcases List.mem_append.1 hc with hc | hc
            · exact hv v (by simp) c hc
            · simp only [List.mem_singleton] at hc
              subst hc
              obtain ⟨g1, g2⟩ := grouped_value (hg g (by simp))
              have := hr g.1 (List.mem_filter.1 g1).1
              rwa [missingAt_eq (v := c) (by show g.1.value r.mem = _; rw [g2, hx]; rfl)] at this
          · exact ih (fun g h => hg g (List.mem_cons_of_mem _ h)) (fun l h => hv l (List.mem_cons_of_mem _ h)) hy l hl

theorem store_full {cols : List Column} {i : Nat} {r : Row} (hr : ∀ c ∈ cols, MissingAt c (i, r) = false) {st st' : PyChunk}
    (h : st.store i r = .ok st') (hs : FullSink cols (.chunk st)) : FullSink cols (.chunk st') := by
  unfold PyChunk.store at h
  cases hv : pushValues st.cols st.vals r.mem with
  | error e => rw [hv] at h; cases h
  | ok w =>
    rw [hv] at h
    cases h
    exact ⟨hs.1, pushValues_full hr hs.1 hs.2 hv⟩

theorem clear_full {cols : List Column} {st : PyChunk} (hs : FullSink cols (.chunk st)) : FullSink cols (.chunk st.clear) := by
  refine ⟨hs.1, fun l hl => ?_⟩
  obtain ⟨_, -, rfl⟩ := List.mem_map.1 hl
  intro c hc
  cases hc

theorem setProperties_full {cols : List Column} {p : Properties} (hp : p.columns = cols) {st : PyChunk} :
    FullSink cols (.chunk (st.setProperties p)) := by
  subst hp
  refine ⟨fun g hg => hg, fun l hl => ?_⟩
  obtain ⟨_, -, rfl⟩ := List.mem_map.1 hl
  intro c hc
  cases hc

theorem named_full {cols : List Column} {st : PyChunk} (hs : FullSink cols (.chunk st)) : ∀ l ∈ st.named, Full l.2 := by
  intro l hl
  exact hs.2 l.2 (List.of_mem_zip hl).2

theorem lists_full {cols : List Column} {s : CppSink} {e : Event} (hs : FullSink cols s) (he : FullEvent cols e) :
    ∀ l ∈ s.lists e, Full l.2 := by
  intro l hl
  cases s with
  | row st =>
    cases e with
    | pushRow i r =>
      unfold CppSink.lists at hl
      dsimp only at hl
      cases hx : rowList st.columns r.mem with
      | error e => rw [hx] at hl; cases hl
      | ok v =>
        rw [hx] at hl
        simp only [List.mem_singleton] at hl
        subst hl
        intro c hc
        obtain ⟨-, h2⟩ := rowList_missing (i := i) st.columns v hx
        obtain ⟨k, k1, k2⟩ := h2 c hc
        have := he k (hs k (List.mem_filter.1 k1).1)
        rwa [missingAt_eq (v := c) k2] at this
    | setProperties p => cases hl
    | endOfData => cases hl
  | chunk st =>
    cases e with
    | pushRow i r =>
      unfold CppSink.lists at hl
      dsimp only at hl
      cases hx : st.store i r with
      | error e => rw [hx] at hl; cases hl
      | ok st' =>
        rw [hx] at hl
        dsimp only at hl
        split at hl
        · exact named_full (store_full he hx hs) l hl
        · cases hl
    | setProperties p => cases hl
    | endOfData =>
      unfold CppSink.lists at hl
      dsimp only at hl
      split at hl
      · exact named_full hs l hl
      · cases hl
  | data st =>
    cases e with
    | pushRow i r => cases hl
    | setProperties p => cases hl
    | endOfData =>
      unfold CppSink.lists at hl
      dsimp only at hl
      split at hl
      · exact named_full (cols := cols) hs l hl
      · cases hl

theorem flush_full {cols : List Column} {s : PyLive κ} {st : PyChunk} (hs : FullSink cols (.chunk st)) :
    FullSink cols (s.flush P st).2.cpp := by
  unfold PyLive.flush
  split
  · rcases s.python P (.pushRows st.istart st.iend (dictOf st.cols st.vals [])) with ⟨(e | u), s1⟩
    · exact hs
    · exact clear_full hs
  · exact hs

theorem live_full {cols : List Column} {s : PyLive κ} {e : Event} (hs : FullSink cols s.cpp) (he : FullEvent cols e) :
    FullSink cols ((pySinkCode P).call s e).2.cpp := by
  unfold pySinkCode
  dsimp only
  cases hc : s.cpp with
  | row st =>
    rw [hc] at hs
    cases e with
    | setProperties p =>
      simp only [PyLive.rowCall]
      have hp := python_cpp (P := P) { s with cpp := .row { st with attr := true } } (.setProperties p)
      generalize ({ s with cpp := .row { st with attr := true } } : PyLive κ).python P (.setProperties p) = y at *
      obtain ⟨(e | u), s1⟩ := y
      · dsimp only at hp ⊢; rw [hp]; exact hs
      · exact fun c hc => (show p.columns = cols from he) ▸ hc
    | pushRow i r =>
      simp only [PyLive.rowCall]
      cases rowList st.columns r.mem with
      | error e => dsimp only; rw [hc]; exact hs
      | ok l => dsimp only; rw [python_cpp, hc]; exact hs
    | endOfData => exact hs
  | chunk st =>
    rw [hc] at hs
    cases e with
    | setProperties p =>
      simp only [PyLive.chunkCall]
      have hp := python_cpp (P := P) { s with cpp := .chunk { st with attr := true } } (.setProperties p)
      generalize ({ s with cpp := .chunk { st with attr := true } } : PyLive κ).python P (.setProperties p) = y at *
      obtain ⟨(e | u), s1⟩ := y
      · dsimp only at hp ⊢; rw [hp]; exact hs
      · exact setProperties_full he
    | pushRow i r =>
      simp only [PyLive.chunkCall]
      cases hx : st.store i r with
      | error e => dsimp only; rw [hc]; exact hs
      | ok st' =>
        dsimp only
        split
        · exact flush_full (store_full he hx hs)
        · exact store_full he hx hs
    | endOfData =>
      simp only [PyLive.chunkCall]
      split
      · exact flush_full (st := { st with attr := false }) hs
      · rw [hc]; exact hs
  | data st =>
    rw [hc] at hs
    cases e with
    | setProperties p =>
      simp only [PyLive.dataCall]
      have hp := python_cpp (P := P) { s with cpp := .data { st with size := p.md.rowCount, attr := true } } (.setProperties p)
      generalize ({ s with cpp := .data { st with size := p.md.rowCount, attr := true } } : PyLive κ).python P (.setProperties p) = y at *
      obtain ⟨(e | u), s1⟩ := y
      · dsimp only at hp ⊢; rw [hp]; exact hs
      · exact setProperties_full (cols := cols) he
    | pushRow i r =>
      simp only [PyLive.dataCall]
      cases hx : st.store i r with
      | error e => dsimp only; rw [hc]; exact hs
      | ok st' => exact store_full (cols := cols) he hx hs
    | endOfData =>
      simp only [PyLive.dataCall]
      split
      · split
        · rcases s.python P (.setData (dictOf st.cols st.vals [])) with ⟨(e | u), s1⟩
          · exact hs
          · exact clear_full (cols := cols) (st := { st with attr := false }) hs
        · exact hs
      · rw [hc]; exact hs

theorem decref_converted (h : PyCounts) (v : PyVal) : (h.decref v).converted = h.converted := by
  unfold PyCounts.decref; split
  · split <;> rfl
  · rfl

theorem incref_converted (h : PyCounts) (v : PyVal) : (h.incref v).converted = h.converted := by
  unfold PyCounts.incref; split <;> rfl

theorem release_converted : ∀ (vs : List PyVal) (h : PyCounts), (h.release vs).converted = h.converted
  | [], _ => rfl
  | v :: vs, h => by unfold PyCounts.release; rw [release_converted vs, decref_converted]

theorem convert_full {h : PyCounts} (hf : Full h.converted) {c : Cell} (hc : Cell.missing c = false) :
    Full (h.convert c).2.converted := by
  unfold PyCounts.convert
  cases c.toPy with
  | error e => exact hf
  | ok v =>
    dsimp only
    split
    · exact hf
    · intro x hx
      rcases List.mem_append.1 hx with hx | hx
      · exact hf x hx
      · simp only [List.mem_singleton] at hx; exact hx ▸ hc

theorem append_full {h : PyCounts} (hf : Full h.converted) {c : Cell} (hc : Cell.missing c = false) :
    Full (h.append c).2.converted := by
  unfold PyCounts.append
  have := convert_full hf hc
  generalize h.convert c = y at *
  obtain ⟨(e | v), h'⟩ := y
  · exact this
  · dsimp only at this ⊢
    rwa [decref_converted, incref_converted, decref_converted, incref_converted]

theorem list_full : ∀ (cs : List Cell) (done : List PyVal) {h : PyCounts}, Full h.converted → Full cs →
    Full (h.list done cs).2.converted
  | [], _, _, hf, _ => hf
  | c :: cs, done, h, hf, hc => by
    unfold PyCounts.list
    have := append_full hf (hc c (by simp))
    generalize h.append c = y at *
    obtain ⟨(e | v), h'⟩ := y
    · dsimp only; rw [release_converted]; exact this
    · exact list_full cs _ this fun x hx => hc x (List.mem_cons_of_mem _ hx)

theorem make_full : ∀ (ls : List (Option (List Byte) × List Cell)) (done : List PyVal) {h : PyCounts}, Full h.converted →
    (∀ l ∈ ls, Full l.2) → Full (h.lists done ls).2.converted
  | [], _, _, hf, _ => hf
  | (k, cs) :: ls, done, h, hf, hc => by
    unfold PyCounts.lists
    have := list_full cs [] hf (hc (k, cs) (by simp))
    generalize h.list [] cs = y at *
    obtain ⟨(e | v), h'⟩ := y
    · dsimp only; rw [release_converted]; exact this
    · dsimp only
      split
      · exact make_full ls _ this fun x hx => hc x (List.mem_cons_of_mem _ hx)
      · rw [release_converted, release_converted]; exact this

theorem call_full {cols : List Column} {s : PyOwner κ} {e : Event} (hs : FullSink cols s.live.cpp) (hf : Full s.counts.converted)
    (he : FullEvent cols e) : FullSink cols ((pyOwnerCode P keep).call s e).2.live.cpp ∧
      Full ((pyOwnerCode P keep).call s e).2.counts.converted := by
  have h1 := live_full (P := P) hs he
  have h2 := make_full _ [] hf (lists_full hs he)
  unfold pyOwnerCode
  dsimp only
  generalize s.counts.lists [] (s.live.cpp.lists e) = y at *
  obtain ⟨(x | vs), h'⟩ := y
  · exact ⟨h1, h2⟩
  · dsimp only
    split
    · exact ⟨h1, h2⟩
    · exact ⟨h1, by dsimp only; rw [release_converted]; exact h2⟩

theorem calls_full {cols : List Column} : ∀ (es : List Event) {s : PyOwner κ}, FullSink cols s.live.cpp → Full s.counts.converted →
    (∀ e ∈ es, FullEvent cols e) → FullSink cols (afterCalls (pyOwnerCode P keep) s es).live.cpp ∧
      Full (afterCalls (pyOwnerCode P keep) s es).counts.converted
  | [], _, hs, hf, _ => ⟨hs, hf⟩
  | e :: es, _, hs, hf, he => by
    obtain ⟨h1, h2⟩ := call_full (P := P) (keep := keep) hs hf (he e (by simp))
    exact calls_full es h1 h2 fun e h => he e (List.mem_cons_of_mem _ h)

theorem look_full {h : PyCounts} (hf : Full h.converted) {t : DateTime} (ht : t ≠ .notADateTime) : Full (h.look t).converted := by
  have := convert_full hf (c := .datetime t) (by cases t <;> first | rfl | exact absurd rfl ht)
  unfold PyCounts.look
  generalize h.convert (.datetime t) = y at *
  obtain ⟨(x | v), h'⟩ := y
  · exact this
  · dsimp only; rw [decref_converted]; exact this

/-- What a statement does to the reader: its trace grows by calls of the sink, its properties stay. -/
theorem catching_trace (ss : List RefStmt) : ∀ (T : TReader σ (PyOwner κ)),
    ∃ es, (catchingRun P keep S T ss).reader.trace = T.reader.trace ++ es := by
  induction ss with
  | nil => exact fun T => ⟨[], (List.append_nil _).symm⟩
  | cons x ss ih =>
    intro T
    cases x with
    | call op =>
      obtain ⟨-, es, h2, -, -⟩ := step_like (K := pyOwnerCode P keep) (S := S) T op
      unfold catchingRun
      rcases hx : T.step (pyOwnerCode P keep) S op with ⟨((e | x) | v), T1⟩ <;> rw [hx] at h2 <;> dsimp only at h2
      · cases e <;> dsimp only <;> first
          | exact ⟨es, h2⟩
          | (obtain ⟨es', h⟩ := ih T1; exact ⟨es ++ es', by rw [h, h2, List.append_assoc]⟩)
      · obtain ⟨es', h⟩ := ih T1; exact ⟨es ++ es', by dsimp only; rw [h, h2, List.append_assoc]⟩
      · obtain ⟨es', h⟩ := ih T1; exact ⟨es ++ es', by dsimp only; rw [h, h2, List.append_assoc]⟩
    | dateCreated => exact ih { T with sink := _ }
    | dateModified => exact ih { T with sink := _ }

end Sas.Proofs
