import Verif.Spec.RChunks
import Verif.Proofs.RFront

/-! # R: the frame of a sink by chunks, for any number of rows -/

namespace Sas
open Spec

variable {unique : List (List Byte) → List (List Byte)}

/-! ## The rows shown -/

/-- The vectors of the first chunk are used for the second. -/
def Reused {α : Type} (size count : Nat) (rows : List (Nat × α)) : Prop :=
  ∃ last, rows[size - 1]? = some last ∧ last.1 + 1 + size ≤ count

theorem reused_append {α : Type} {size count : Nat} {a b : List (Nat × α)} (h0 : 0 < size) (h : size ≤ a.length) :
    Reused size count (a ++ b) ↔ Reused size count a := by
  unfold Reused
  rw [List.getElem?_append_left (by omega)]

theorem shown_not {α : Type} {size count : Nat} {rows : List (Nat × α)} (h : ¬ Reused size count rows) :
    shownRows size count rows = rows := by
  unfold shownRows
  split
  · rename_i last hl
    rw [if_neg (fun hc => h ⟨last, hl, hc.2⟩)]
  · rfl

theorem shown_reused {α : Type} {size count : Nat} {rows : List (Nat × α)} (h0 : 0 < size) (h : Reused size count rows) :
    shownRows size count rows =
      (rows.drop size).take size ++ (rows.take size).drop ((rows.drop size).take size).length ++ rows.drop size := by
  obtain ⟨last, h1, h2⟩ := h
  unfold shownRows
  rw [h1]
  simp only
  rw [if_pos ⟨h0, h2⟩]

theorem shown_short {α : Type} {size count : Nat} {rows : List (Nat × α)} (h : 0 < size → rows.length ≤ size) :
    shownRows size count rows = rows := by
  by_cases h0 : 0 < size
  · by_cases hr : Reused size count rows
    · rw [shown_reused h0 hr, List.drop_eq_nil_of_le (h h0), List.take_of_length_le (h h0)]
      simp
    · exact shown_not hr
  · unfold shownRows
    split
    · rw [if_neg (fun hc => h0 hc.1)]
    · rfl

theorem shown_append {α : Type} {size count : Nat} {a b : List (Nat × α)} (h0 : 0 < size) (h : size ≤ a.length)
    (ha : size + size ≤ a.length ∨ ¬ Reused size count a) :
    shownRows size count (a ++ b) = shownRows size count a ++ b := by
  by_cases hr : Reused size count a
  · have h2 : size + size ≤ a.length := ha.resolve_right (fun h => h hr)
    have e1 : (a ++ b).drop size = a.drop size ++ b := List.drop_append_of_le_length h
    have e2 : (a ++ b).take size = a.take size := List.take_append_of_le_length h
    have e3 : (a.drop size ++ b).take size = (a.drop size).take size :=
      List.take_append_of_le_length (by rw [List.length_drop]; omega)
    rw [shown_reused h0 ((reused_append h0 h).mpr hr), shown_reused h0 hr, e1, e2, e3]
    simp only [List.append_assoc]
  · rw [shown_not hr, shown_not (fun hc => hr ((reused_append h0 h).mp hc))]

theorem shown_second {α : Type} {size count : Nat} {a b : List (Nat × α)} (h0 : 0 < size) (h : a.length = size)
    (hr : Reused size count a) (hb : b.length ≤ size) : shownRows size count (a ++ b) = b ++ a.drop b.length ++ b := by
  rw [shown_reused h0 ((reused_append h0 (by omega)).mpr hr), List.drop_append_of_le_length (by omega),
    List.drop_eq_nil_of_le (by omega), List.nil_append, List.take_of_length_le hb, List.take_append_of_le_length (by omega),
    List.take_of_length_le (by omega)]

/-! ## The vectors -/

theorem writeAll_drop {idata : Nat} {mem : List Byte} : ∀ (gs : List GroupedColumn) (vs : List Nat) (h h' : RHeap),
    writeAll idata mem gs vs h = .ok h' → ∀ u, (h'.get u).drop (idata + 1) = (h.get u).drop (idata + 1) := by
  intro gs
  induction gs with
  | nil =>
    intro vs h h' hw
    cases vs <;> (simp only [writeAll, Except.ok.injEq] at hw; subst hw; exact fun _ => rfl)
  | cons g gs ih =>
    intro vs h h' hw
    cases vs with
    | nil => cases hw
    | cons v vs =>
      unfold writeAll at hw
      cases h1 : g.2 g.1 mem with
      | error e => rw [h1] at hw; cases hw
      | ok c =>
        rw [h1] at hw
        simp only [bind, Except.bind] at hw
        cases h2 : c.toR with
        | error e => rw [h2] at hw; cases hw
        | ok x =>
          rw [h2] at hw
          simp only at hw
          cases h3 : h.write v idata x with
          | error e => rw [h3] at hw; cases hw
          | ok h4 =>
            rw [h3] at hw
            intro u
            rw [ih vs _ h' hw u]
            exact write_drop h3 u
where
  write_drop {h h' : RHeap} {v i : Nat} {x : RVal} (hw : h.write v i x = .ok h') (u : Nat) :
      (h'.get u).drop (i + 1) = (h.get u).drop (i + 1) := by
    unfold RHeap.write at hw
    split at hw
    · simp only [Except.ok.injEq] at hw
      subst hw
      by_cases hu : u = v
      · subst hu
        by_cases hl : u < h.length
        · rw [RHeap.get_set_same hl, List.drop_set_of_lt (by omega)]
        · rw [List.set_eq_of_length_le (by omega)]
      · rw [RHeap.get_set_ne hu]
    · cases hw

theorem store_drop {st st' : RCols} {i : Nat} {r : Row} (h : st.store i r = .ok st') (u : Nat) :
    (st'.heap.get u).drop (st.idata + 1) = (st.heap.get u).drop (st.idata + 1) := by
  unfold RCols.store at h
  simp only [bind, Except.bind] at h
  cases h1 : st.heap.write st.index st.idata (.int (asInt i)) with
  | error e => rw [h1] at h; cases h
  | ok h2 =>
    rw [h1] at h
    simp only at h
    cases h3 : writeAll st.idata r.mem st.cols st.vecs h2 with
    | error e => rw [h3] at h; cases h
    | ok h4 =>
      rw [h3] at h
      simp only [pure, Except.pure, Except.ok.injEq] at h
      subst h
      rw [writeAll_drop _ _ _ _ h3 u]
      exact writeAll_drop.write_drop h1 u

theorem forall₂_maps {α β γ : Type} {P : α → β → Prop} {f : α → γ} {g : β → γ} (hfg : ∀ a b, P a b → g b = f a) {as : List α}
    {bs : List β} (h : List.Forall₂ P as bs) : bs.map g = as.map f := by
  induction h with
  | nil => rfl
  | cons h1 _ ih => rw [List.map_cons, List.map_cons, ih, hfg _ _ h1]

/-- The first elements of the vectors. -/
theorem taken_vectors {cols : List Column} {size ilast : Nat} {st : RCols} {rest : List (Nat × Row)}
    (h : RInv cols size ilast st rest) : RVectors cols rest (st.vecs.map fun v => (st.heap.get v).take rest.length) := by
  have hv := setValues_vectors h
  obtain ⟨k, f1, -⟩ := fit_spec (n := st.idata) (h.valid st.index (by simp))
  obtain ⟨k', -, g2⟩ := fitAll_spec (n := st.idata) st.vecs (fit st.idata st.index st.heap).1 (fun v hv => by
    rw [f1, List.length_append]
    have := h.valid v (by simp [hv])
    omega)
  have e : st.setValues.list.map st.setValues.heap.get =
      st.vecs.map fun v => ((fit st.idata st.index st.heap).1.get v).take st.idata :=
    forall₂_maps (fun a b hab => hab.2) g2
  rw [e, h.idata] at hv
  refine (congrArg (RVectors cols rest) (List.map_congr_left fun v hv' => ?_)).mp hv
  rw [← h.idata, f1, RHeap.get_append (h.valid v (by simp [hv']))]

theorem RVectors.drop {cols : List Column} {rows : List (Nat × Row)} {ls : List (List RVal)} (h : RVectors cols rows ls) (n : Nat) :
    RVectors cols (rows.drop n) (ls.map (·.drop n)) := by
  unfold RVectors at *
  rw [List.forall₂_map_right_iff]
  exact h.imp fun _ _ h => List.forall₂_drop n h

/-- The vectors: the rows waiting, and then what is left of other rows. -/
theorem whole_vectors {cols : List Column} {size ilast : Nat} {st : RCols} {rest tail : List (Nat × Row)}
    (h : RInv cols size ilast st rest) (ht : RVectors cols tail (st.vecs.map fun v => (st.heap.get v).drop rest.length)) :
    RVectors cols (rest ++ tail) (st.vecs.map st.heap.get) := by
  have := (taken_vectors h).append ht
  rw [List.zipWith_map, List.zipWith_self] at this
  simpa only [List.take_append_drop] using this

/-! ## The frame -/

/-- What the frame is: the rows `done` were delivered, the rows `rest` are waiting. -/
def DfIs (unique : List (List Byte) → List (List Byte)) (cols : List Column) (size ilast : Nat) (o : RObj) (st : RCols)
    (done rest : List (Nat × Row)) : Prop :=
  (done = [] ∧ o.df = .null) ∨
  (0 < size ∧ size ≤ done.length ∧
    ((∃ t, o.df = .own t ∧ TableHolds (frameNames unique cols) cols (shownRows size ilast done) t ∧
        (size + size ≤ done.length ∨ ¬ Reused size ilast done)) ∨
      (∃ vecs, o.df = .shared (frameNames unique cols) vecs ∧ (∀ v ∈ vecs, v < st.heap.length) ∧
        RVectors cols done (vecs.map st.heap.get) ∧ ((∀ v ∈ vecs, v ∉ st.index :: st.vecs) ∨ ilast ≤ st.istart) ∧
        ¬ Reused size ilast done) ∨
      (o.df = .shared (frameNames unique cols) st.vecs ∧ done.length = size ∧ Reused size ilast done ∧
        RVectors cols (done.drop rest.length) (st.vecs.map fun v => (st.heap.get v).drop rest.length))))

/-- What can be seen before the rows waiting are delivered. -/
theorem DfIs.now {cols : List Column} {size ilast : Nat} {o : RObj} {st : RCols} {done rest : List (Nat × Row)}
    (h : DfIs unique cols size ilast o st done rest) (hi : RInv cols size ilast st rest) (hl : 0 < size → rest.length ≤ size) :
    ∃ S, ((S = [] ∧ o.df = .null) ∨ (∃ t, o.df = .own t ∧ TableHolds (frameNames unique cols) cols S t) ∨
        ∃ vecs, o.df = .shared (frameNames unique cols) vecs ∧ (∀ v ∈ vecs, v < st.heap.length) ∧
          RVectors cols S (vecs.map st.heap.get)) ∧
      shownRows size ilast (done ++ rest) = S ++ rest ∧
      ((done = [] ∧ S = [] ∧ o.df = .null) ∨ (0 < size ∧ size ≤ done.length ∧ o.df ≠ .null)) := by
  rcases h with ⟨d1, d2⟩ | ⟨h0, hd, ⟨t, d1, d2, d3⟩ | ⟨vecs, d1, d2, d3, d4, d5⟩ | ⟨d1, d2, d3, d4⟩⟩
  · subst d1
    exact ⟨[], .inl ⟨rfl, d2⟩, shown_short hl, .inl ⟨rfl, rfl, d2⟩⟩
  · exact ⟨_, .inr (.inl ⟨t, d1, d2⟩), shown_append h0 hd d3, .inr ⟨h0, hd, by rw [d1]; simp⟩⟩
  · refine ⟨done, .inr (.inr ⟨vecs, d1, d2, d3⟩), ?_, .inr ⟨h0, hd, by rw [d1]; simp⟩⟩
    rw [shown_append h0 hd (.inr d5), shown_not d5]
  · exact ⟨rest ++ done.drop rest.length, .inr (.inr ⟨st.vecs, d1, fun v hv => hi.valid v (by simp [hv]), whole_vectors hi d4⟩),
      shown_second h0 d2 d3 (hl h0), .inr ⟨h0, hd, by rw [d1]; simp⟩⟩

/-- A sink by chunks and its frame. -/
structure RShown (unique : List (List Byte) → List (List Byte)) (cols : List Column) (size ilast : Nat) (o : RObj)
    (st : RCols) (done rest : List (Nat × Row)) : Prop where
  inv : RInv cols size ilast st rest
  last : ∀ x, rest.getLast? = some x → st.iend = x.1
  few : 0 < size → rest.length < size
  start : ∀ i, (∀ x ∈ done ++ rest, x.1 < i) → st.istart ≤ i
  df : DfIs unique cols size ilast o st done rest

theorem setValues_full {cols : List Column} {size ilast : Nat} {st : RCols} {rest : List (Nat × Row)}
    (h : RInv cols size ilast st rest) (hr : rest ≠ []) (hs : rest.length = size) : st.setValues = { st with list := st.vecs } := by
  obtain ⟨cap, c1, c2, c3, c4⟩ := h.cap
  have h0 : 0 < size := by rw [← hs]; exact List.length_pos_iff.2 hr
  have hc : cap = size := by have := c3 h0; omega
  have hd : st.idata = cap := by rw [h.idata, hs, hc]
  unfold RCols.setValues
  have f1 : fit st.idata st.index st.heap = (st.heap, st.index) := by
    unfold fit
    rw [if_neg (by simpa [hd] using c1 st.index (by simp))]
  rw [f1]
  simp only
  rw [fitAll_same st.vecs fun v hv => by rw [c1 v (by simp [hv]), hd]]

theorem RShown.push {cols : List Column} {size ilast : Nat} {o : RObj} {st : RCols} {done rest : List (Nat × Row)}
    (hN : (frameNames unique cols).length = (byType cols).length) (h31 : ilast ≤ 2 ^ 31)
    (h : RShown unique cols size ilast o st done rest) {i : Nat} {r : Row}
    (hr : RReadable cols [(i, r)]) (hlt : i < ilast) (habove : ∀ x ∈ done ++ rest, x.1 < i) :
    ∃ o' st' done' rest', (RSink.mk o (.chunk st)).event unique (.pushRow i r) = .ok (RSink.mk o' (.chunk st')) ∧
      RShown unique cols size ilast o' st' done' rest' ∧ done' ++ rest' = done ++ rest ++ [(i, r)] ∧
      o'.properties = o.properties ∧ o'.columns = o.columns := by
  have hlow := h.start i habove
  obtain ⟨st1, s1, hi1, hst, -⟩ := h.inv.store (i := i) (r := r) hr hlt h31 hlow
    (fun x hx => habove x (by simp [hx])) h.few
  obtain ⟨f1, f2, f3, f4, f5⟩ := store_frame s1
  have hlast : ∀ x, (rest ++ [(i, r)]).getLast? = some x → ({ st1 with iend := i } : RCols).iend = x.1 := by
    intro x hx
    simp only [List.getLast?_append, List.getLast?_singleton, Option.some_or, Option.some.injEq] at hx
    rw [← hx]
  -- the frame after the row is stored
  have hdf : DfIs unique cols size ilast o { st1 with iend := i } done (rest ++ [(i, r)]) := by
    rcases h.df with d | ⟨h0, hd, d | ⟨vecs, d1, d2, d3, d4, d5⟩ | ⟨d1, d2, d3, d4⟩⟩
    · exact .inl d
    · exact .inr ⟨h0, hd, .inl d⟩
    · rcases d4 with d4 | d4
      · refine .inr ⟨h0, hd, .inr (.inl ⟨vecs, d1, by rw [f1]; exact d2, ?_, .inl (by rw [f3, f4]; exact d4), d5⟩)⟩
        show RVectors cols done (vecs.map st1.heap.get)
        rw [map_get_eq (h := st.heap)]
        · exact d3
        · exact fun v hv => f5 v (d4 v hv)
      · omega
    · refine .inr ⟨h0, hd, .inr (.inr ⟨by rw [f4]; exact d1, d2, d3, ?_⟩)⟩
      have := d4.drop 1
      rw [List.map_map, List.drop_drop] at this
      rw [List.length_append, List.length_singleton, f4]
      refine (congrArg (RVectors cols _) (List.map_congr_left fun v _ => ?_)).mp this
      show ((st.heap.get v).drop rest.length).drop 1 = (st1.heap.get v).drop (rest.length + 1)
      rw [List.drop_drop, ← h.inv.idata, store_drop s1 v]
  have habove' : ∀ {j : Nat}, (∀ x ∈ done ++ rest ++ [(i, r)], x.1 < j) → i < j := fun hj => hj (i, r) (by simp)
  by_cases hf : st1.idata = st1.size
  · have hlen : (rest ++ [(i, r)]).length = size := by
      rw [← hi1.idata, ← hi1.sizeEq]; exact hf
    have h0 : 0 < size := by rw [← hlen]; simp
    have hre := hi1.reuse (i := i) (by simp) hlen
    have hfull := setValues_full hi1 (by simp) hlen
    obtain ⟨idx, rws, g1, -⟩ := hi1.flush (by simp) hlast
    replace g1 : RCols.flush { st1 with iend := i } = ({ (RCols.setValues { st1 with iend := i }) with
          idata := 0, istart := i + 1 }, [.pushRows idx rws]) := g1
    obtain ⟨S, n1, n2, n3⟩ := hdf.now hi1 (fun _ => by omega)
    generalize hs2 : ({ (RCols.setValues { st1 with iend := i }) with idata := 0, istart := i + 1 } : RCols) = s at g1 hre
    have hsi : s.istart = i + 1 := by rw [← hs2]
    have hsl : s.list = (RCols.setValues { st1 with iend := i }).list := by rw [← hs2]
    have hsh : s.heap = (RCols.setValues { st1 with iend := i }).heap := by rw [← hs2]
    have hsc : s.cols = st1.cols := by rw [← hs2]; rfl
    have hsv : s.vecs = st1.vecs := by rw [← hs2]; rfl
    have hlv : (RCols.setValues { st1 with iend := i }).list = st1.vecs := by rw [hfull]
    have hlastrow : (done ++ (rest ++ [(i, r)]) = rest ++ [(i, r)]) →
        (done ++ (rest ++ [(i, r)]))[size - 1]? = some (i, r) := by
      intro he
      rw [he, ← hlen, List.length_append, List.length_singleton, Nat.add_sub_cancel]
      simp
    have hreused : done = [] → (Reused size ilast (done ++ (rest ++ [(i, r)])) ↔ i + 1 + size ≤ ilast) := by
      intro hd
      have hx := hlastrow (by rw [hd]; rfl)
      constructor
      · rintro ⟨x, h1, h2⟩
        rw [hx] at h1
        cases h1
        exact h2
      · intro h2
        exact ⟨_, hx, h2⟩
    -- the frame after the delivery
    have hown : ∀ (s2 : RCols), s2.cols = st1.cols → s2.list = (RCols.setValues { st1 with iend := i }).list →
        (∃ k, s2.heap = (RCols.setValues { st1 with iend := i }).heap ++ k) →
        (∃ t, (o.pushRows unique s2).df = .own t ∧
          TableHolds (frameNames unique cols) cols (shownRows size ilast (done ++ (rest ++ [(i, r)]))) t ∧
          size + size ≤ (done ++ (rest ++ [(i, r)])).length) ∨
        (done = [] ∧ (o.pushRows unique s2).df = .shared (frameNames unique cols) st1.vecs ∧
          (∀ v ∈ st1.vecs, v < (RCols.setValues { st1 with iend := i }).heap.length) ∧
          RVectors cols (done ++ (rest ++ [(i, r)])) (st1.vecs.map s2.heap.get)) := by
      intro s2 c1 c2 c3
      rcases pushRows_df (unique := unique) (o := o) (s2 := s2) (done := S) hN hi1.cols hi1 (by simp) c1 c2 c3 n1 with
        ⟨t, t1, t2⟩ | ⟨-, e2, e3, e4⟩
      · rcases n3 with ⟨-, -, m3⟩ | ⟨m1, m2, -⟩
        · exfalso
          unfold RObj.pushRows at t1
          rw [m3] at t1
          simp [RDf.look] at t1
        · refine .inl ⟨t, t1, by rw [n2]; exact t2, ?_⟩
          rw [List.length_append, hlen]
          omega
      · rcases n3 with ⟨m1, -, -⟩ | ⟨m1, m2, m3⟩
        · rw [hlv] at e2 e3 e4
          refine .inr ⟨m1, e2, e3, ?_⟩
          rw [m1]
          exact e4
        · exfalso
          rcases n1 with ⟨-, q⟩ | ⟨t, q, -⟩ | ⟨vecs, q, -⟩
          · exact m3 q
          · unfold RObj.pushRows at e2
            rw [q] at e2
            simp [RDf.look] at e2
          · unfold RObj.pushRows at e2
            rw [q] at e2
            simp [RDf.look] at e2
    by_cases hp : s.istart + s.size > s.ilast ∧ s.istart < s.ilast
    · -- new vectors
      let s2 := s.prepare (s.ilast - s.istart)
      have hev : (RSink.mk o (.chunk st)).event unique (.pushRow i r) =
          .ok (RSink.mk (o.pushRows unique s2) (.chunk s2)) := by
        have hstep : st.step (.pushRow i r) = .ok (s2, [.pushRows idx rws]) := by
          simp only [RCols.step, s1, bind, Except.bind]
          rw [if_pos hf, g1]
          simp only
          rw [if_pos hp]
          rfl
        unfold RSink.event
        simp only [hstep, bind, Except.bind, pure, Except.pure, PyM.ofRes, delivers]
        rfl
      have e1 := hre.ilastEq
      have e2 := hre.sizeEq
      have hprep : RInv cols size ilast s2 [] := by
        refine RInv.prepare hre.sizeEq hre.ilastEq hre.cols hre.idata ?_ (.inr ?_)
        · intro _
          omega
        · omega
      refine ⟨_, _, done ++ (rest ++ [(i, r)]), [], hev, ⟨hprep, by simp, fun _ => by simpa using h0, ?_, ?_⟩, by simp, ?_, ?_⟩
      · intro j hj
        have : i < j := habove' (by simpa using hj)
        show s.istart ≤ j
        omega
      · right
        refine ⟨h0, by rw [List.length_append, hlen]; omega, ?_⟩
        rcases hown s2 hsc hsl (by rw [← hsh]; exact ⟨_, rfl⟩) with ⟨t, t1, t2, t3⟩ | ⟨m1, m2, m3, m4⟩
        · exact .inl ⟨t, t1, t2, .inl t3⟩
        · refine .inr (.inl ⟨_, m2, ?_, m4, .inl ?_, ?_⟩)
          · intro v hv
            show v < (s.heap ++ _).length
            rw [List.length_append, hsh]
            have := m3 v hv
            omega
          · intro v hv hin
            have := m3 v hv
            rw [← hsh] at this
            simp only [s2, RCols.prepare, List.mem_cons, List.mem_range'_1] at hin
            omega
          · rw [hreused m1]
            omega
      · unfold RObj.pushRows; split <;> rfl
      · unfold RObj.pushRows; split <;> rfl
    · -- the vectors are used again
      have hev : (RSink.mk o (.chunk st)).event unique (.pushRow i r) =
          .ok (RSink.mk (o.pushRows unique s) (.chunk s)) := by
        have hstep : st.step (.pushRow i r) = .ok (s, [.pushRows idx rws]) := by
          simp only [RCols.step, s1, bind, Except.bind]
          rw [if_pos hf, g1]
          simp only
          rw [if_neg hp]
          rfl
        unfold RSink.event
        simp only [hstep, bind, Except.bind, pure, Except.pure, PyM.ofRes, delivers]
        rfl
      have e1 := hre.ilastEq
      have e2 := hre.sizeEq
      refine ⟨_, _, done ++ (rest ++ [(i, r)]), [], hev, ⟨hre, by simp, fun _ => by simpa using h0, ?_, ?_⟩, by simp, ?_, ?_⟩
      · intro j hj
        have : i < j := habove' (by simpa using hj)
        omega
      · right
        refine ⟨h0, by rw [List.length_append, hlen]; omega, ?_⟩
        rcases hown s hsc hsl ⟨[], by rw [hsh]; simp⟩ with ⟨t, t1, t2, t3⟩ | ⟨m1, m2, m3, m4⟩
        · exact .inl ⟨t, t1, t2, .inl t3⟩
        · by_cases hroom : i + 1 + size ≤ ilast
          · refine .inr (.inr ⟨by rw [hsv]; exact m2, by rw [m1]; exact hlen, (hreused m1).mpr hroom, ?_⟩)
            rw [hsv]
            exact m4
          · refine .inr (.inl ⟨_, m2, by rw [hsh]; exact m3, m4, .inr ?_, by rw [hreused m1]; exact hroom⟩)
            omega
      · unfold RObj.pushRows; split <;> rfl
      · unfold RObj.pushRows; split <;> rfl
  · have hev : (RSink.mk o (.chunk st)).event unique (.pushRow i r) =
        .ok (RSink.mk o (.chunk { st1 with iend := i })) := by
      have hstep : st.step (.pushRow i r) = .ok ({ st1 with iend := i }, []) := by
        simp only [RCols.step, s1, bind, Except.bind]
        rw [if_neg hf]
        rfl
      unfold RSink.event
      simp only [hstep, bind, Except.bind, pure, Except.pure, PyM.ofRes, delivers]
      rfl
    refine ⟨_, _, done, rest ++ [(i, r)], hev, ⟨hi1, hlast, ?_, ?_, hdf⟩, by simp, rfl, rfl⟩
    · intro h0
      have h2 := h.few h0
      have h3 := hi1.idata
      have h4 := hi1.sizeEq
      simp only [List.length_append, List.length_singleton] at *
      omega
    · intro j hj
      have : i < j := habove' (by simpa using hj)
      show st1.istart ≤ j
      omega

theorem RShown.rows {cols : List Column} {size ilast : Nat}
    (hN : (frameNames unique cols).length = (byType cols).length) (h31 : ilast ≤ 2 ^ 31) :
    ∀ (rows : List (Nat × Row)) (o : RObj) (st : RCols) (done rest : List (Nat × Row)),
    RShown unique cols size ilast o st done rest → RReadable cols rows → (∀ r ∈ rows, r.1 < ilast) →
    ((done ++ rest ++ rows).map Prod.fst).Pairwise (· < ·) →
    ∃ o' st' done' rest', (RSink.mk o (.chunk st)).events unique (rows.map fun r => .pushRow r.1 r.2) =
        .ok (RSink.mk o' (.chunk st')) ∧
      RShown unique cols size ilast o' st' done' rest' ∧ done' ++ rest' = done ++ rest ++ rows ∧
      o'.properties = o.properties ∧ o'.columns = o.columns := by
  intro rows
  induction rows with
  | nil => intro o st done rest h _ _ _; exact ⟨o, st, done, rest, rfl, h, by simp, rfl, rfl⟩
  | cons x rows ih =>
    intro o st done rest h hr hlt hs
    obtain ⟨i, r⟩ := x
    have hs' := hs
    rw [List.map_append, List.pairwise_append] at hs'
    obtain ⟨o1, st1, done1, rest1, a1, a2, a3, a4, a5⟩ := h.push hN h31 (i := i) (r := r)
      (fun c hc y hy => hr c hc y (by simp only [List.mem_singleton] at hy; simp [hy])) (hlt (i, r) (by simp))
      (fun x hx => hs'.2.2 x.1 (List.mem_map.2 ⟨x, hx, rfl⟩) i (by simp))
    obtain ⟨o2, st2, done2, rest2, b1, b2, b3, b4, b5⟩ := ih o1 st1 done1 rest1 a2
      (fun c hc y hy => hr c hc y (by simp [hy])) (fun y hy => hlt y (by simp [hy])) (by rw [a3]; simpa using hs)
    refine ⟨o2, st2, done2, rest2, ?_, b2, ?_, b4.trans a4, b5.trans a5⟩
    · rw [List.map_cons, RSink.events, a1]
      exact b1
    · rw [b3, a3]; simp

/-- The end of the data. -/
theorem RShown.ends {cols : List Column} {size ilast : Nat}
    (hN : (frameNames unique cols).length = (byType cols).length) {o : RObj} {st : RCols} {done rest : List (Nat × Row)}
    (h : RShown unique cols size ilast o st done rest) (n : Nat) (hne : done ++ rest ≠ []) :
    ∃ k t, (RSink.mk o (.chunk st)).events unique (List.replicate (n + 1) .endOfData) = .ok k ∧
      k.df = some t ∧ TableHolds (frameNames unique cols) cols (shownRows size ilast (done ++ rest)) t := by
  have hnil : ∀ (n : Nat) (o : RObj) (st : RCols), st.idata = 0 →
      (RSink.mk o (.chunk st)).events unique (List.replicate n .endOfData) = .ok (RSink.mk o (.chunk st)) := by
    intro n
    induction n with
    | zero => intro o st _; rfl
    | succ n ih =>
      intro o st h0
      rw [List.replicate_succ, RSink.events]
      have hf : st.flush = (st, []) := by
        unfold RCols.flush
        rw [if_pos (.inr h0)]
      have : (RSink.mk o (.chunk st)).event unique .endOfData = .ok (RSink.mk o (.chunk st)) := by
        unfold RSink.event
        simp only [RCols.step, hf, bind, Except.bind, pure, Except.pure, PyM.ofRes, delivers]
        rfl
      rw [this]
      exact ih o st h0
  obtain ⟨S, n1, n2, -⟩ := h.df.now h.inv (fun h0 => (h.few h0).le)
  rw [n2]
  by_cases hr : rest = []
  · subst hr
    rw [List.append_nil]
    refine ⟨RSink.mk o (.chunk st), ?_⟩
    rcases n1 with ⟨d1, d2⟩ | ⟨t, d1, d2⟩ | ⟨vecs, d1, d2, d3⟩
    · exfalso
      rcases h.df with ⟨q, -⟩ | ⟨-, -, ⟨t, q, -⟩ | ⟨vecs, q, -⟩ | ⟨q, -⟩⟩
      · exact hne (by rw [q]; rfl)
      all_goals (rw [d2] at q; cases q)
    · exact ⟨t, hnil _ o st (by rw [h.inv.idata]; rfl), by simp only [RSink.df, d1, RDf.look], d2⟩
    · exact ⟨_, hnil _ o st (by rw [h.inv.idata]; rfl), by simp only [RSink.df, d1, RDf.look], tableHolds_zip hN d3⟩
  · obtain ⟨idx, rws, g1, -⟩ := h.inv.flush hr h.last
    generalize hs2 : ({ st.setValues with idata := 0, istart := st.iend + 1 } : RCols) = s at g1
    have hsl : s.list = st.setValues.list := by rw [← hs2]
    have hsh : s.heap = st.setValues.heap := by rw [← hs2]
    have hsc : s.cols = st.cols := by rw [← hs2]; rfl
    have hev : (RSink.mk o (.chunk st)).event unique .endOfData = .ok (RSink.mk (o.pushRows unique s) (.chunk s)) := by
      unfold RSink.event
      simp only [RCols.step, g1, bind, Except.bind, pure, Except.pure, PyM.ofRes, delivers]
      rfl
    have hfr := pushRows_df (unique := unique) (o := o) (s2 := s) (done := S) hN h.inv.cols h.inv hr hsc hsl
      ⟨[], by rw [hsh]; simp⟩ n1
    have hrun : (RSink.mk o (.chunk st)).events unique (List.replicate (n + 1) .endOfData) =
        .ok (RSink.mk (o.pushRows unique s) (.chunk s)) := by
      rw [List.replicate_succ, RSink.events, hev]
      exact hnil n _ s (by rw [← hs2])
    rcases hfr with ⟨t, t1, t2⟩ | ⟨e1, e2, e3, e4⟩
    · exact ⟨_, t, hrun, by simp only [RSink.df, t1, RDf.look], t2⟩
    · subst e1
      exact ⟨_, _, hrun, by simp only [RSink.df, e2, RDf.look]; rfl, by simpa using tableHolds_zip hN e4⟩

end Sas
