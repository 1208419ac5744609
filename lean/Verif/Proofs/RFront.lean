import Verif.Spec.RFront
import Verif.Proofs.RSinks
import Verif.Proofs.PyFront
import Verif.Props.RSinks

/-! # The R package -/

namespace Sas
open Spec

variable {unique : List (List Byte) → List (List Byte)}

/-! ## Sessions -/

theorem RSink.events_append (s : RSink) (a b : List Event) :
    s.events unique (a ++ b) = (do (← s.events unique a).events unique b) := by
  induction a generalizing s with
  | nil => rfl
  | cons e a ih =>
    simp only [List.cons_append, RSink.events, ih, bind_assoc]

theorem RSession.ops_ok {σ : Type} {S : Source σ} {kind : PyKind} : ∀ (ops : List Op) (s : RSession σ) (k : RSink),
    Reachable S s.reader → (RSink.new kind).events unique s.reader.trace = .ok s.sink →
    (∀ r ∈ (s.reader.run S ops).1, ∃ v, r = .ok v) →
    (RSink.new kind).events unique (s.reader.run S ops).2.trace = .ok k →
    s.ops unique S ops = .ok ⟨(s.reader.run S ops).2, k⟩ := by
  intro ops
  induction ops with
  | nil =>
    intro s k _ h1 _ h2
    have h2 : (RSink.new kind).events unique s.reader.trace = .ok k := h2
    rw [h1] at h2
    cases h2
    rfl
  | cons op ops ih =>
    intro s k hR h1 hres h2
    have hR1 : Reachable S (s.reader.step S op).2 := .called _ _ hR
    obtain ⟨rows, ht, -⟩ := Reader.step_trace (S := S) s.reader (Reachable.inv hR) op
    rw [List.append_assoc] at ht
    generalize hx : s.reader.step S op = x at ht hR1
    obtain ⟨r, R1⟩ := x
    rw [Reader.run, hx] at hres h2
    cases r with
    | error e => cases e <;> simp at hres
    | ok v =>
      simp only at hres h2 ht hR1
      obtain ⟨more, hm⟩ := run_prefix (S := S) ops R1 (Reachable.inv hR1)
      generalize pushEvents s.reader.rd.row rows ++ endEvents (signalsEnd op (.ok v)) = new at ht
      have hmid : ∃ k1, s.sink.events unique new = .ok k1 := by
        rw [hm, ht, RSink.events_append, RSink.events_append, h1] at h2
        simp only [bind, Except.bind] at h2
        cases hc : s.sink.events unique new with
        | error e => rw [hc] at h2; cases h2
        | ok k1 => exact ⟨_, rfl⟩
      obtain ⟨k1, hk1⟩ := hmid
      have hop : s.op unique S op = .ok ⟨R1, k1⟩ := by
        unfold RSession.op
        rw [hx]
        simp only [ht, List.drop_left, bind, Except.bind]
        rw [hk1]
        rfl
      have hh1 : (RSink.new kind).events unique R1.trace = .ok k1 := by
        rw [ht, RSink.events_append, h1]
        exact hk1
      rw [RSession.ops, hop]
      have := ih ⟨R1, k1⟩ k hR1 hh1 (fun r hr => hres r (List.mem_cons_of_mem _ hr)) h2
      rw [show (s.reader.run S (op :: ops)).2 = (R1.run S ops).2 by rw [Reader.run, hx]]
      exact this

/-! ## Whole data -/

theorem data_rows_events {unique : List (List Byte) → List (List Byte)} {o : RObj} : ∀ (rows : List (Nat × Row)) (st st' : RCols),
    runR RCols.dataStep st (rows.map fun r => .pushRow r.1 r.2) = .ok (st', []) →
    (RSink.mk o (.data st)).events unique (rows.map fun r => .pushRow r.1 r.2) = .ok (RSink.mk o (.data st')) := by
  intro rows
  induction rows with
  | nil => intro st st' h; cases h; rfl
  | cons x rows ih =>
    intro st st' h
    rw [List.map_cons, runR] at h
    simp only [RCols.dataStep] at h
    cases h1 : st.store x.1 x.2 with
    | error e => rw [h1] at h; cases h
    | ok st1 =>
      rw [h1] at h
      simp only [bind, Except.bind, pure, Except.pure] at h
      cases h2 : runR RCols.dataStep st1 (rows.map fun r => .pushRow r.1 r.2) with
      | error e => rw [h2] at h; cases h
      | ok y =>
        rw [h2] at h
        simp only [List.nil_append, Except.ok.injEq] at h
        rw [List.map_cons, RSink.events]
        have : (RSink.mk o (.data st)).event unique (.pushRow x.1 x.2) = .ok (RSink.mk o (.data st1)) := by
          unfold RSink.event
          simp only [RCols.dataStep, h1, bind, Except.bind, pure, Except.pure, PyM.ofRes, delivers]
          rfl
        rw [this]
        exact ih st1 st' (by rw [h2, ← h])

/-! ## Chunks -/

theorem writeAll_frame {idata : Nat} {mem : List Byte} : ∀ (gs : List GroupedColumn) (vs : List Nat) (h h' : RHeap),
    writeAll idata mem gs vs h = .ok h' → h'.length = h.length ∧ ∀ u, u ∉ vs → h'.get u = h.get u := by
  intro gs
  induction gs with
  | nil =>
    intro vs h h' hw
    cases vs <;> (simp only [writeAll, Except.ok.injEq] at hw; subst hw; exact ⟨rfl, fun _ _ => rfl⟩)
  | cons g gs ih =>
    intro vs h h' hw
    cases vs with
    | nil => cases hw
    | cons v vs =>
      unfold writeAll at hw
      cases h1 : g.2 g.1 mem with
      | error e => rw [h1] at hw; cases hw
      | ok c =>
        rw [h1] at hw
        simp only [bind, Except.bind] at hw
        cases h2 : c.toR with
        | error e => rw [h2] at hw; cases hw
        | ok x =>
          rw [h2] at hw
          simp only [RHeap.write] at hw
          split at hw
          · cases hw
          · rename_i h3 hh
            split at hh
            · simp only [Except.ok.injEq] at hh
              subst hh
              obtain ⟨i1, i2⟩ := ih vs _ h' hw
              refine ⟨by rw [i1, List.length_set], fun u hu => ?_⟩
              simp only [List.mem_cons, not_or] at hu
              rw [i2 u hu.2, RHeap.get_set_ne hu.1]
            · cases hh

theorem store_frame {st st' : RCols} {i : Nat} {r : Row} (h : st.store i r = .ok st') :
    st'.heap.length = st.heap.length ∧ st'.cols = st.cols ∧ st'.index = st.index ∧ st'.vecs = st.vecs ∧
      ∀ u, u ∉ st.index :: st.vecs → st'.heap.get u = st.heap.get u := by
  unfold RCols.store at h
  simp only [RHeap.write] at h
  split at h
  · simp only [bind, Except.bind] at h
    cases h2 : writeAll st.idata r.mem st.cols st.vecs
        (st.heap.set st.index ((st.heap.get st.index).set st.idata (.int (asInt i)))) with
    | error e => rw [h2] at h; cases h
    | ok h3 =>
      rw [h2] at h
      simp only [pure, Except.pure, Except.ok.injEq] at h
      subst h
      obtain ⟨i1, i2⟩ := writeAll_frame _ _ _ _ h2
      refine ⟨by rw [i1, List.length_set], rfl, rfl, rfl, fun u hu => ?_⟩
      simp only [List.mem_cons, not_or] at hu
      rw [i2 u hu.2, RHeap.get_set_ne hu.1]
  · cases h

/-- The vectors that are delivered. -/
theorem setValues_list {cols : List Column} {size ilast : Nat} {st : RCols} {rest : List (Nat × Row)}
    (h : RInv cols size ilast st rest) :
    (∃ k, st.setValues.heap = st.heap ++ k) ∧ st.setValues.list.length = st.cols.length ∧
      st.setValues.cols = st.cols ∧ ∀ v ∈ st.setValues.list, v < st.setValues.heap.length := by
  obtain ⟨k, f1, f2, f3, -⟩ := fit_spec (n := st.idata) (h.valid st.index (by simp))
  have hv : ∀ v ∈ st.vecs, v < (fit st.idata st.index st.heap).1.length := fun v hv => by
    rw [f1, List.length_append]
    have := h.valid v (by simp [hv])
    omega
  obtain ⟨k', g1, g2⟩ := fitAll_spec (n := st.idata) st.vecs _ hv
  refine ⟨⟨k ++ k', ?_⟩, ?_, rfl, ?_⟩
  · show (fitAll st.idata st.vecs (fit st.idata st.index st.heap).1).1 = _
    rw [g1, f1, List.append_assoc]
  · show (fitAll st.idata st.vecs (fit st.idata st.index st.heap).1).2.length = _
    rw [← g2.length_eq, h.len]
  · intro v hv
    obtain ⟨u, -, hu, -⟩ := forall₂_mem_right g2 hv
    exact hu

theorem zip_map_snd {α β γ : Type} (f : β → γ) : ∀ (as : List α) (bs : List β), bs.length = as.length →
    (as.zip bs).map (fun p => f p.2) = bs.map f := by
  intro as
  induction as with
  | nil => intro bs h; cases bs with
    | nil => rfl
    | cons b bs => simp at h
  | cons a as ih => intro bs h; cases bs with
    | nil => simp at h
    | cons b bs => simp [ih bs (by simpa using h)]

/-- The names of a frame. -/
def frameNames (unique : List (List Byte) → List (List Byte)) (cols : List Column) : List (List Byte) :=
  rFrameNames unique ((byType cols).map fun c => upToZero c.name)

/-- The values of the columns in these rows. -/
def RVectors (cols : List Column) (rows : List (Nat × Row)) (ls : List (List RVal)) : Prop :=
  List.Forall₂ (fun c l => List.Forall₂ (fun r x => ∃ v, c.value r.2.mem = .ok (some v) ∧ RShows v x) rows l)
    (byType cols) ls

theorem RVectors.append {cols : List Column} {a b : List (Nat × Row)} {xs ys : List (List RVal)} (h1 : RVectors cols a xs)
    (h2 : RVectors cols b ys) : RVectors cols (a ++ b) (List.zipWith (· ++ ·) xs ys) := by
  unfold RVectors at *
  generalize byType cols = cs at *
  induction h1 generalizing ys with
  | nil => cases h2; exact .nil
  | cons k1 _ ih => cases h2 with
    | cons k2 k3 => exact .cons (List.rel_append k1 k2) (ih k3)

theorem setValues_vectors {cols : List Column} {size ilast : Nat} {st : RCols} {rest : List (Nat × Row)}
    (h : RInv cols size ilast st rest) :
    RVectors cols rest (st.setValues.list.map st.setValues.heap.get) := by
  obtain ⟨-, h2, h3, -⟩ := setValues_list h
  have h1 := h.holds.2
  have e : st.setValues.list.map st.setValues.heap.get = st.setValues.rows.map Prod.snd := by
    unfold RCols.rows
    rw [List.map_map]
    exact (zip_map_snd st.setValues.heap.get st.setValues.cols st.setValues.list (by rw [h2, h3])).symm
  unfold RVectors
  rw [e, List.forall₂_map_right_iff]
  exact h1.imp fun _ _ h => h.2

/-- A frame, looked at. -/
theorem tableHolds_zip {names : List (List Byte)} {cols : List Column} {rows : List (Nat × Row)} {ls : List (List RVal)}
    (hn : names.length = (byType cols).length) (h : RVectors cols rows ls) : TableHolds names cols rows (names.zip ls) := by
  have hl : ls.length = names.length := by rw [hn]; exact h.length_eq.symm
  refine ⟨List.map_fst_zip (by omega), ?_⟩
  rw [List.map_snd_zip (by omega)]
  exact h

theorem tableHolds_bind {names : List (List Byte)} {cols : List Column} {a b : List (Nat × Row)} {t : RTable}
    {ls : List (List RVal)} (hn : names.length = (byType cols).length) (h1 : TableHolds names cols a t)
    (h2 : RVectors cols b ls) : TableHolds names cols (a ++ b) (rBind t (names.zip ls)) := by
  have hl : ls.length = names.length := by rw [hn]; exact h2.length_eq.symm
  have ht : t.length = names.length := by rw [← h1.1, List.length_map]
  have e1 : (rBind t (names.zip ls)).map Prod.fst = names := by
    rw [← h1.1]
    unfold rBind
    rw [List.map_zipWith]
    have : ∀ (t : RTable) (u : RTable), t.length = u.length → List.zipWith (fun x _ => x.1) t u = t.map Prod.fst := by
      intro t
      induction t with
      | nil => intro u _; rfl
      | cons a t ih => intro u h; cases u with
        | nil => simp at h
        | cons b u => simp [ih u (by simpa using h)]
    exact this _ _ (by rw [List.length_zip, List.length_map, ht, hl]; simp)
  refine ⟨e1, ?_⟩
  have e2 : (rBind t (names.zip ls)).map Prod.snd = List.zipWith (· ++ ·) (t.map Prod.snd) ls := by
    have h3 : ls = (names.zip ls).map Prod.snd := (List.map_snd_zip (by omega)).symm
    conv => rhs; rw [h3]
    unfold rBind
    rw [List.map_zipWith, List.zipWith_map]
  rw [e2]
  exact RVectors.append h1.2 h2

/-- The frame of a sink by chunks: the rows `done` are in it, the rows `rest` are waiting. -/
structure RFrame (unique : List (List Byte) → List (List Byte)) (cols : List Column) (size ilast : Nat) (o : RObj)
    (st : RCols) (done rest : List (Nat × Row)) : Prop where
  inv : RInv cols size ilast st rest
  last : ∀ x, rest.getLast? = some x → st.iend = x.1
  few : 0 < size → rest.length < size
  start : ∀ i, (∀ x ∈ done ++ rest, x.1 < i) → st.istart ≤ i
  df : (done = [] ∧ o.df = .null) ∨ (∃ t, o.df = .own t ∧ TableHolds (frameNames unique cols) cols done t) ∨
    ∃ vecs, o.df = .shared (frameNames unique cols) vecs ∧ (∀ v ∈ vecs, v < st.heap.length) ∧
      RVectors cols done (vecs.map st.heap.get) ∧ ((∀ v ∈ vecs, v ∉ st.index :: st.vecs) ∨ ilast ≤ st.istart)

theorem map_get_eq {h h' : RHeap} {vecs : List Nat} (hg : ∀ v ∈ vecs, h'.get v = h.get v) :
    vecs.map h'.get = vecs.map h.get := List.map_congr_left hg

theorem grouped_names {cols : List Column} {st : RCols} (h : st.cols = (Columns.ofColumns cols).grouped) :
    (st.cols.map fun g => cString g.1.name) = (byType cols).map fun c => upToZero c.name := by
  rw [← grouped_byType, h, List.map_map]
  rfl

theorem pushRows_df {cols : List Column} {size ilast : Nat} {o : RObj} {st s2 : RCols} {done rest : List (Nat × Row)}
    (hN : (frameNames unique cols).length = (byType cols).length)
    (hc : st.cols = (Columns.ofColumns cols).grouped) (hi : RInv cols size ilast st rest) (hr : rest ≠ [])
    (h2 : s2.cols = st.cols) (h3 : s2.list = st.setValues.list)
    (h4 : ∃ k, s2.heap = st.setValues.heap ++ k)
    (hdf : (done = [] ∧ o.df = .null) ∨ (∃ t, o.df = .own t ∧ TableHolds (frameNames unique cols) cols done t) ∨
      ∃ vecs, o.df = .shared (frameNames unique cols) vecs ∧ (∀ v ∈ vecs, v < st.heap.length) ∧
        RVectors cols done (vecs.map st.heap.get)) :
    (∃ t, (o.pushRows unique s2).df = .own t ∧ TableHolds (frameNames unique cols) cols (done ++ rest) t) ∨
      (done = [] ∧ (o.pushRows unique s2).df = .shared (frameNames unique cols) st.setValues.list ∧
        (∀ v ∈ st.setValues.list, v < st.setValues.heap.length) ∧
        RVectors cols rest (st.setValues.list.map s2.heap.get)) := by
  obtain ⟨⟨k1, v1⟩, v2, v3, v4⟩ := setValues_list hi
  obtain ⟨k, h4⟩ := h4
  have hvec : RVectors cols rest (st.setValues.list.map s2.heap.get) := by
    rw [map_get_eq (h := st.setValues.heap)]
    · exact setValues_vectors hi
    · intro v hv
      rw [h4]
      exact RHeap.get_append (v4 v hv)
  have hnames : rFrameNames unique (s2.cols.map fun g => cString g.1.name) = frameNames unique cols := by
    rw [h2, grouped_names hc]
    rfl
  unfold RObj.pushRows
  rcases hdf with ⟨d1, d2⟩ | ⟨t, d1, d2⟩ | ⟨vecs, d1, d2, d3⟩
  · right
    rw [d2]
    simp only [RDf.look, hnames, h3]
    exact ⟨d1, trivial, v4, hvec⟩
  · left
    rw [d1]
    simp only [RDf.look, hnames, h3]
    exact ⟨_, rfl, tableHolds_bind hN d2 hvec⟩
  · left
    rw [d1]
    simp only [RDf.look, hnames, h3]
    refine ⟨_, rfl, tableHolds_bind hN (tableHolds_zip hN ?_) hvec⟩
    rw [map_get_eq (h := st.heap)]
    · exact d3
    · intro v hv
      rw [h4, v1, List.append_assoc]
      exact RHeap.get_append (d2 v hv)

theorem RFrame.push {cols : List Column} {size ilast : Nat} {o : RObj} {st : RCols} {done rest : List (Nat × Row)}
    (hN : (frameNames unique cols).length = (byType cols).length) (h31 : ilast ≤ 2 ^ 31)
    (hsz : size = 0 ∨ ilast < 2 * size) (h : RFrame unique cols size ilast o st done rest) {i : Nat} {r : Row}
    (hr : RReadable cols [(i, r)]) (hlt : i < ilast) (habove : ∀ x ∈ done ++ rest, x.1 < i)
    (hsort : ((done ++ rest).map Prod.fst).Pairwise (· < ·)) :
    ∃ o' st' done' rest', (RSink.mk o (.chunk st)).event unique (.pushRow i r) = .ok (RSink.mk o' (.chunk st')) ∧
      RFrame unique cols size ilast o' st' done' rest' ∧ done' ++ rest' = done ++ rest ++ [(i, r)] ∧
      o'.properties = o.properties ∧ o'.columns = o.columns := by
  have hlow := h.start i habove
  obtain ⟨st1, s1, hi1, hst, -⟩ := h.inv.store (i := i) (r := r) hr hlt h31 hlow
    (fun x hx => habove x (by simp [hx])) h.few
  obtain ⟨f1, f2, f3, f4, f5⟩ := store_frame s1
  have hlast : ∀ x, (rest ++ [(i, r)]).getLast? = some x → ({ st1 with iend := i } : RCols).iend = x.1 := by
    intro x hx
    simp only [List.getLast?_append, List.getLast?_singleton, Option.some_or, Option.some.injEq] at hx
    rw [← hx]
  -- the frame after the row is stored
  have hdf : (done = [] ∧ o.df = .null) ∨ (∃ t, o.df = .own t ∧ TableHolds (frameNames unique cols) cols done t) ∨
      ∃ vecs, o.df = .shared (frameNames unique cols) vecs ∧ (∀ v ∈ vecs, v < st1.heap.length) ∧
        RVectors cols done (vecs.map st1.heap.get) ∧ (∀ v ∈ vecs, v ∉ st1.index :: st1.vecs) := by
    rcases h.df with d | d | ⟨vecs, d1, d2, d3, d4⟩
    · exact .inl d
    · exact .inr (.inl d)
    · rcases d4 with d4 | d4
      · refine .inr (.inr ⟨vecs, d1, by rw [f1]; exact d2, ?_, by rw [f3, f4]; exact d4⟩)
        rw [map_get_eq (h := st.heap)]
        · exact d3
        · exact fun v hv => f5 v (d4 v hv)
      · omega
  have habove' : ∀ {j : Nat}, (∀ x ∈ done ++ rest ++ [(i, r)], x.1 < j) → i < j := fun hj => hj (i, r) (by simp)
  by_cases hf : st1.idata = st1.size
  · have hlen : (rest ++ [(i, r)]).length = size := by
      rw [← hi1.idata, ← hi1.sizeEq]; exact hf
    have h0 : 0 < size := by rw [← hlen]; simp
    have hil : ilast < 2 * size := by omega
    have hre := hi1.reuse (i := i) (by simp) hlen
    have hnum : size ≤ i + 1 := by
      have hs' : ((rest ++ [(i, r)]).map Prod.fst).Pairwise (· < ·) := hi1.sorted
      have := sorted_length ((rest ++ [(i, r)]).map Prod.fst) 0 (i + 1) hs' (fun x hx => by
        obtain ⟨y, hy, rfl⟩ := List.mem_map.1 hx
        rcases List.mem_append.1 hy with hy | hy
        · have := habove y (by simp [hy]); omega
        · simp only [List.mem_singleton] at hy; subst hy; simp) (by omega)
      rw [List.length_map, hlen] at this
      omega
    obtain ⟨idx, rws, g1, -⟩ := hi1.flush (by simp) hlast
    replace g1 : RCols.flush { st1 with iend := i } = ({ (RCols.setValues { st1 with iend := i }) with
          idata := 0, istart := i + 1 }, [.pushRows idx rws]) := g1
    obtain ⟨⟨k1, v1⟩, v2, v3, v4⟩ := setValues_list hi1
    generalize hs2 : ({ (RCols.setValues { st1 with iend := i }) with idata := 0, istart := i + 1 } : RCols) = s at g1 hre
    have hsi : s.istart = i + 1 := by rw [← hs2]
    have hsl : s.list = (RCols.setValues { st1 with iend := i }).list := by rw [← hs2]
    have hsh : s.heap = (RCols.setValues { st1 with iend := i }).heap := by rw [← hs2]
    have hsc : s.cols = st1.cols := by rw [← hs2]; rfl
    by_cases hp : s.istart < s.ilast
    · -- new vectors
      let s2 := s.prepare (s.ilast - s.istart)
      have hev : (RSink.mk o (.chunk st)).event unique (.pushRow i r) =
          .ok (RSink.mk (o.pushRows unique s2) (.chunk s2)) := by
        have hstep : st.step (.pushRow i r) = .ok (s2, [.pushRows idx rws]) := by
          simp only [RCols.step, s1, bind, Except.bind]
          rw [if_pos hf, g1]
          simp only
          rw [if_pos ⟨by have := hre.ilastEq; have := hre.sizeEq; omega, hp⟩]
          rfl
        unfold RSink.event
        simp only [hstep, bind, Except.bind, pure, Except.pure, PyM.ofRes, delivers]
        rfl
      have hprep : RInv cols size ilast s2 [] := by
        refine RInv.prepare hre.sizeEq hre.ilastEq hre.cols hre.idata ?_ (.inr ?_)
        · intro _
          have := hre.ilastEq
          omega
        · have := hre.ilastEq
          omega
      have hfr := pushRows_df (unique := unique) (o := o) (s2 := s2) (done := done) hN hi1.cols hi1 (by simp) hsc hsl
        (by rw [← hsh]; exact ⟨_, rfl⟩) (by
          rcases hdf with d | d | ⟨vecs, d1, d2, d3, -⟩
          · exact .inl d
          · exact .inr (.inl d)
          · exact .inr (.inr ⟨vecs, d1, d2, d3⟩))
      refine ⟨_, _, done ++ (rest ++ [(i, r)]), [], hev, ⟨hprep, by simp, fun _ => by simpa using h0, ?_, ?_⟩, by simp, ?_, ?_⟩
      · intro j hj
        have : i < j := habove' (by simpa using hj)
        show s.istart ≤ j
        omega
      · rcases hfr with ⟨t, t1, t2⟩ | ⟨e1, e2, e3, e4⟩
        · exact .inr (.inl ⟨t, t1, t2⟩)
        · right; right
          refine ⟨_, e2, ?_, by rw [e1]; exact e4, .inl ?_⟩
          · intro v hv
            show v < (s.heap ++ _).length
            rw [List.length_append, hsh]
            have := e3 v hv
            omega
          · intro v hv hin
            have := e3 v hv
            rw [← hsh] at this
            simp only [s2, RCols.prepare, List.mem_cons, List.mem_range'_1] at hin
            omega
      · unfold RObj.pushRows; split <;> rfl
      · unfold RObj.pushRows; split <;> rfl
    · -- no row can follow
      have hev : (RSink.mk o (.chunk st)).event unique (.pushRow i r) =
          .ok (RSink.mk (o.pushRows unique s) (.chunk s)) := by
        have hstep : st.step (.pushRow i r) = .ok (s, [.pushRows idx rws]) := by
          simp only [RCols.step, s1, bind, Except.bind]
          rw [if_pos hf, g1]
          simp only
          rw [if_neg (fun hc => hp hc.2)]
          rfl
        unfold RSink.event
        simp only [hstep, bind, Except.bind, pure, Except.pure, PyM.ofRes, delivers]
        rfl
      have hfr := pushRows_df (unique := unique) (o := o) (s2 := s) (done := done) hN hi1.cols hi1 (by simp) hsc hsl
        ⟨[], by rw [hsh]; simp⟩ (by
          rcases hdf with d | d | ⟨vecs, d1, d2, d3, -⟩
          · exact .inl d
          · exact .inr (.inl d)
          · exact .inr (.inr ⟨vecs, d1, d2, d3⟩))
      refine ⟨_, _, done ++ (rest ++ [(i, r)]), [], hev, ⟨hre, by simp, fun _ => by simpa using h0, ?_, ?_⟩, by simp, ?_, ?_⟩
      · intro j hj
        have : i < j := habove' (by simpa using hj)
        omega
      · rcases hfr with ⟨t, t1, t2⟩ | ⟨e1, e2, e3, e4⟩
        · exact .inr (.inl ⟨t, t1, t2⟩)
        · right; right
          refine ⟨_, e2, by rw [hsh]; exact e3, by rw [e1]; exact e4, .inr ?_⟩
          have := hre.ilastEq
          omega
      · unfold RObj.pushRows; split <;> rfl
      · unfold RObj.pushRows; split <;> rfl
  · have hev : (RSink.mk o (.chunk st)).event unique (.pushRow i r) =
        .ok (RSink.mk o (.chunk { st1 with iend := i })) := by
      have hstep : st.step (.pushRow i r) = .ok ({ st1 with iend := i }, []) := by
        simp only [RCols.step, s1, bind, Except.bind]
        rw [if_neg hf]
        rfl
      unfold RSink.event
      simp only [hstep, bind, Except.bind, pure, Except.pure, PyM.ofRes, delivers]
      rfl
    refine ⟨_, _, done, rest ++ [(i, r)], hev, ⟨hi1, hlast, ?_, ?_, ?_⟩, by simp, rfl, rfl⟩
    · intro h0
      have h2 := h.few h0
      have h3 := hi1.idata
      have h4 := hi1.sizeEq
      simp only [List.length_append, List.length_singleton] at *
      omega
    · intro j hj
      have : i < j := habove' (by simpa using hj)
      show st1.istart ≤ j
      omega
    · rcases hdf with d | d | ⟨vecs, d1, d2, d3, d4⟩
      · exact .inl d
      · exact .inr (.inl d)
      · exact .inr (.inr ⟨vecs, d1, d2, d3, .inl d4⟩)

theorem RFrame.rows {cols : List Column} {size ilast : Nat}
    (hN : (frameNames unique cols).length = (byType cols).length) (h31 : ilast ≤ 2 ^ 31)
    (hsz : size = 0 ∨ ilast < 2 * size) : ∀ (rows : List (Nat × Row)) (o : RObj) (st : RCols) (done rest : List (Nat × Row)),
    RFrame unique cols size ilast o st done rest → RReadable cols rows → (∀ r ∈ rows, r.1 < ilast) →
    ((done ++ rest ++ rows).map Prod.fst).Pairwise (· < ·) →
    ∃ o' st' done' rest', (RSink.mk o (.chunk st)).events unique (rows.map fun r => .pushRow r.1 r.2) =
        .ok (RSink.mk o' (.chunk st')) ∧
      RFrame unique cols size ilast o' st' done' rest' ∧ done' ++ rest' = done ++ rest ++ rows ∧
      o'.properties = o.properties ∧ o'.columns = o.columns := by
  intro rows
  induction rows with
  | nil => intro o st done rest h _ _ _; exact ⟨o, st, done, rest, rfl, h, by simp, rfl, rfl⟩
  | cons x rows ih =>
    intro o st done rest h hr hlt hs
    obtain ⟨i, r⟩ := x
    have hs' := hs
    rw [List.map_append, List.pairwise_append] at hs'
    obtain ⟨o1, st1, done1, rest1, a1, a2, a3, a4, a5⟩ := h.push hN h31 hsz (i := i) (r := r)
      (fun c hc y hy => hr c hc y (by simp only [List.mem_singleton] at hy; simp [hy])) (hlt (i, r) (by simp))
      (fun x hx => hs'.2.2 x.1 (List.mem_map.2 ⟨x, hx, rfl⟩) i (by simp)) hs'.1
    obtain ⟨o2, st2, done2, rest2, b1, b2, b3, b4, b5⟩ := ih o1 st1 done1 rest1 a2
      (fun c hc y hy => hr c hc y (by simp [hy])) (fun y hy => hlt y (by simp [hy])) (by rw [a3]; simpa using hs)
    refine ⟨o2, st2, done2, rest2, ?_, b2, ?_, b4.trans a4, b5.trans a5⟩
    · rw [List.map_cons, RSink.events, a1]
      exact b1
    · rw [b3, a3]; simp

/-- The end of the data. -/
theorem RFrame.ends {cols : List Column} {size ilast : Nat}
    (hN : (frameNames unique cols).length = (byType cols).length) {o : RObj} {st : RCols} {done rest : List (Nat × Row)}
    (h : RFrame unique cols size ilast o st done rest) (n : Nat) (hne : done ++ rest ≠ []) :
    ∃ k t, (RSink.mk o (.chunk st)).events unique (List.replicate (n + 1) .endOfData) = .ok k ∧
      k.df = some t ∧ TableHolds (frameNames unique cols) cols (done ++ rest) t ∧
      k.obj.properties = o.properties ∧ k.obj.columns = o.columns := by
  have hnil : ∀ (n : Nat) (o : RObj) (st : RCols), st.idata = 0 →
      (RSink.mk o (.chunk st)).events unique (List.replicate n .endOfData) = .ok (RSink.mk o (.chunk st)) := by
    intro n
    induction n with
    | zero => intro o st _; rfl
    | succ n ih =>
      intro o st h0
      rw [List.replicate_succ, RSink.events]
      have hf : st.flush = (st, []) := by
        unfold RCols.flush
        rw [if_pos (.inr h0)]
      have : (RSink.mk o (.chunk st)).event unique .endOfData = .ok (RSink.mk o (.chunk st)) := by
        unfold RSink.event
        simp only [RCols.step, hf, bind, Except.bind, pure, Except.pure, PyM.ofRes, delivers]
        rfl
      rw [this]
      exact ih o st h0
  by_cases hr : rest = []
  · subst hr
    rw [List.append_nil] at hne ⊢
    refine ⟨RSink.mk o (.chunk st), ?_⟩
    rcases h.df with ⟨d1, -⟩ | ⟨t, d1, d2⟩ | ⟨vecs, d1, d2, d3, -⟩
    · exact absurd d1 hne
    · exact ⟨t, hnil _ o st (by rw [h.inv.idata]; rfl), by simp only [RSink.df, d1, RDf.look], d2, rfl, rfl⟩
    · exact ⟨_, hnil _ o st (by rw [h.inv.idata]; rfl), by simp only [RSink.df, d1, RDf.look], tableHolds_zip hN d3, rfl, rfl⟩
  · obtain ⟨idx, rws, g1, -⟩ := h.inv.flush hr h.last
    obtain ⟨⟨k1, v1⟩, v2, v3, v4⟩ := setValues_list h.inv
    generalize hs2 : ({ st.setValues with idata := 0, istart := st.iend + 1 } : RCols) = s at g1
    have hsl : s.list = st.setValues.list := by rw [← hs2]
    have hsh : s.heap = st.setValues.heap := by rw [← hs2]
    have hsc : s.cols = st.cols := by rw [← hs2]; rfl
    have hev : (RSink.mk o (.chunk st)).event unique .endOfData = .ok (RSink.mk (o.pushRows unique s) (.chunk s)) := by
      unfold RSink.event
      simp only [RCols.step, g1, bind, Except.bind, pure, Except.pure, PyM.ofRes, delivers]
      rfl
    have hfr := pushRows_df (unique := unique) (o := o) (s2 := s) (done := done) hN h.inv.cols h.inv hr hsc hsl
      ⟨[], by rw [hsh]; simp⟩ (by
        rcases h.df with d | d | ⟨vecs, d1, d2, d3, -⟩
        · exact .inl d
        · exact .inr (.inl d)
        · exact .inr (.inr ⟨vecs, d1, d2, d3⟩))
    have hrun : (RSink.mk o (.chunk st)).events unique (List.replicate (n + 1) .endOfData) =
        .ok (RSink.mk (o.pushRows unique s) (.chunk s)) := by
      rw [List.replicate_succ, RSink.events, hev]
      exact hnil n _ s (by rw [← hs2])
    have hp : (o.pushRows unique s).properties = o.properties ∧ (o.pushRows unique s).columns = o.columns := by
      unfold RObj.pushRows
      split <;> exact ⟨rfl, rfl⟩
    rcases hfr with ⟨t, t1, t2⟩ | ⟨e1, e2, e3, e4⟩
    · exact ⟨_, t, hrun, by simp only [RSink.df, t1, RDf.look], t2, hp⟩
    · subst e1
      exact ⟨_, _, hrun, by simp only [RSink.df, e2, RDf.look]; rfl, by simpa using tableHolds_zip hN e4, hp⟩

/-! ## Names -/

theorem makeName_self {n : List Byte} (h : SyntacticName n) : rMakeName n = n := by
  have hal : ∀ b : Byte, Letter b → rAlpha b = true := by
    intro b hb
    unfold Letter at hb
    simp only [rAlpha, Bool.or_eq_true, Bool.and_eq_true, decide_eq_true_eq]
    exact .inl hb
  have hpre : rPrefixed n = false := by
    rcases h.start with ⟨b, h1, h2⟩ | ⟨h1, h2⟩
    · match n, h1 with
      | b :: l, h1 =>
        simp only [List.head?_cons, Option.some.injEq] at h1
        subst h1
        have hb : b ≠ 46 := by
          rintro rfl
          unfold Letter at h2
          revert h2
          decide
        unfold rPrefixed
        split
        · rename_i heq; cases heq
        · rename_i heq
          simp only [List.cons.injEq] at heq
          exact absurd heq.1 hb
        · rename_i b' l' _ heq
          cases heq
          simp [hal b h2]
    · match n, h1 with
      | [b], h1 =>
        simp only [List.head?_cons, Option.some.injEq] at h1
        subst h1
        rfl
      | b :: c :: l, h1 =>
        simp only [List.head?_cons, Option.some.injEq] at h1
        subst h1
        have := h2 c rfl
        simp only [rPrefixed, rDigit, Bool.and_eq_false_iff, decide_eq_false_iff_not]
        omega
  have hmap : (n.map fun b => if rAlpha b || rDigit b || b = 46 || b = 95 then b else 46) = n := by
    conv => rhs; rw [← List.map_id n]
    refine List.map_congr_left fun b hb => ?_
    rw [if_pos]
    · rfl
    · rcases h.chars b hb with hc | hc | hc | hc
      · simp [hal b hc]
      · have : rDigit b = true := by simp only [rDigit, Bool.and_eq_true, decide_eq_true_eq]; exact hc
        simp [this]
      · simp [hc]
      · simp [hc]
  have hres : rReserved.contains n = false := by
    have : rReserved = reservedWords := rfl
    rw [this]
    simpa using h.free
  unfold rMakeName
  simp only [hpre, Bool.false_eq_true, if_false, hmap, hres]

theorem syntactic_noZero {n : List Byte} (h : SyntacticName n) : 0 ∉ n := by
  intro h0
  rcases h.chars 0 h0 with hc | hc | hc | hc
  · unfold Letter at hc; revert hc; decide
  · revert hc; decide
  · revert hc; decide
  · revert hc; decide

theorem upToZero_self {n : List Byte} (h : 0 ∉ n) : upToZero n = n := by
  unfold upToZero
  induction n with
  | nil => rfl
  | cons b l ih =>
    rw [List.mem_cons, not_or] at h
    rw [List.takeWhile_cons, if_pos (by simpa using fun h' => h.1 h'.symm), ih h.2]

theorem frameNames_self {cols : List Column} (h1 : ∀ c ∈ byType cols, SyntacticName c.name)
    (h2 : ((byType cols).map Column.name).Nodup) : frameNames unique cols = (byType cols).map Column.name := by
  have e1 : ((byType cols).map fun c => upToZero c.name) = (byType cols).map Column.name :=
    List.map_congr_left fun c hc => upToZero_self (syntactic_noZero (h1 c hc))
  have e2 : ((byType cols).map Column.name).map rMakeName = (byType cols).map Column.name := by
    rw [List.map_map]
    exact List.map_congr_left fun c hc => makeName_self (h1 c hc)
  unfold frameNames rFrameNames
  rw [e1]
  simp only [e2]
  rw [if_pos h2]

/-! ## The order of the columns -/

theorem types_perm {α : Type} (k : α → ColType) (l : List α) :
    ([ColType.number, .integer, .datetime, .date, .time, .string].flatMap fun t => l.filter fun x => k x = t).Perm
      (l.filter fun x => k x ≠ .unknown) := by
  classical
  have hc : ∀ (p : α → Bool) (a : α), (l.filter p).count a = if p a then l.count a else 0 := by
    intro p a
    split
    · rename_i h; exact List.count_filter h
    · rename_i h
      exact List.count_eq_zero.2 fun hm => h (List.mem_filter.1 hm).2
  rw [List.perm_iff_count]
  intro a
  simp only [List.flatMap_cons, List.flatMap_nil, List.append_nil, List.count_append, hc]
  cases k a <;> simp

theorem byType_perm (cols : List Column) : (byType cols).Perm (typed cols) := types_perm Column.type cols

end Sas
