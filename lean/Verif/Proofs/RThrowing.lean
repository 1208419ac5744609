import Verif.Spec.RThrowing
import Verif.Proofs.RSinks
import Verif.Proofs.Throwing

/-! # R sinks whose functions raise errors -/

namespace Sas
open Spec

/-! ## The exceptions of a sink -/

/-- The exceptions thrown in these calls. -/
def thrown {τ ε : Type} (K : SinkCode τ ε) : τ → List Event → List ε
  | _, [] => []
  | k, e :: es =>
    match (K.call k e).1 with
    | .ok _ => thrown K (K.call k e).2 es
    | .error x => x :: thrown K (K.call k e).2 es

section
variable {σ τ ε : Type} {K : SinkCode τ ε} {S : Source σ}

theorem thrown_append : ∀ (a b : List Event) (k : τ), thrown K k (a ++ b) = thrown K k a ++ thrown K (afterCalls K k a) b := by
  intro a
  induction a with
  | nil => intro b k; rfl
  | cons e a ih =>
    intro b k
    rw [List.cons_append, thrown, thrown, ih]
    cases (K.call k e).1 <;> rfl

theorem thrown_quiet : ∀ (es : List Event) (k : τ), Quiet K k es → thrown K k es = [] := by
  intro es
  induction es with
  | nil => intro k _; rfl
  | cons e es ih =>
    intro k h
    rw [thrown, h.1]
    exact ih _ h.2

theorem thrown_one (k : τ) (e : Event) : thrown K k [e] = match (K.call k e).1 with | .ok _ => [] | .error x => [x] := by
  rw [thrown]
  cases (K.call k e).1 <;> rfl

theorem step_thrown (T : TReader σ τ) (op : Op) :
    ∃ es, (T.step K S op).2.reader.trace = T.reader.trace ++ es ∧ (T.step K S op).2.sink = afterCalls K T.sink es ∧
      sinkExceptions [(T.step K S op).1] = thrown K T.sink es := by
  obtain ⟨-, es, h2, h3, h4⟩ := step_like (K := K) (S := S) T op
  refine ⟨es, h2, h3, ?_⟩
  match (T.step K S op).1, h4 with
  | .ok v, h4 => rw [thrown_quiet es _ h4]; rfl
  | .error (.reader e), h4 => rw [thrown_quiet es _ h4]; rfl
  | .error (.sink x), h4 =>
    obtain ⟨b, e, rfl, h5, h6⟩ := h4
    rw [thrown_append, thrown_quiet b _ h5, thrown_one, h6]
    rfl

/-- What the caller gets of the exceptions of the sink: all of them, in order. -/
theorem run_thrown : ∀ (ops : List Op) (T : TReader σ τ),
    ∃ es, (T.run K S ops).2.reader.trace = T.reader.trace ++ es ∧ (T.run K S ops).2.sink = afterCalls K T.sink es ∧
      sinkExceptions (T.run K S ops).1 = thrown K T.sink es := by
  intro ops
  induction ops with
  | nil => intro T; exact ⟨[], (List.append_nil _).symm, rfl, rfl⟩
  | cons op ops ih =>
    intro T
    obtain ⟨es, h1, h2, h3⟩ := step_thrown (K := K) (S := S) T op
    have go : ∀ (res : TRes ε Ret) (T1 : TReader σ τ), T.step K S op = (res, T1) →
        ∃ es, (T1.run K S ops).2.reader.trace = T.reader.trace ++ es ∧ (T1.run K S ops).2.sink = afterCalls K T.sink es ∧
          sinkExceptions (res :: (T1.run K S ops).1) = thrown K T.sink es := by
      intro res T1 hx
      rw [hx] at h1 h2 h3
      obtain ⟨es2, g1, g2, g3⟩ := ih T1
      refine ⟨es ++ es2, by rw [g1, h1, List.append_assoc], by rw [g2, h2, afterCalls_append], ?_⟩
      rw [thrown_append, ← h3, show afterCalls K T.sink es = T1.sink from h2.symm, ← g3]
      unfold sinkExceptions
      rw [← List.filterMap_append]
      rfl
    have stop : ∀ (res : TRes ε Ret) (T1 : TReader σ τ), T.step K S op = (res, T1) →
        ∃ es, T1.reader.trace = T.reader.trace ++ es ∧ T1.sink = afterCalls K T.sink es ∧
          sinkExceptions [res] = thrown K T.sink es := by
      intro res T1 hx
      rw [hx] at h1 h2 h3
      exact ⟨es, h1, h2, h3⟩
    unfold TReader.run
    rcases hx : T.step K S op with ⟨((e | x) | v), T1⟩
    · cases e with
      | exn e => exact go _ _ hx
      | terminate => exact stop _ _ hx
      | ub => exact stop _ _ hx
      | fuel => exact stop _ _ hx
    · exact go _ _ hx
    · exact go _ _ hx

theorem mem_sinkExceptions {rs : List (TRes ε Ret)} {x : ε} : x ∈ sinkExceptions rs ↔ .error (.sink x) ∈ rs := by
  unfold sinkExceptions
  rw [List.mem_filterMap]
  constructor
  · rintro ⟨r, hr, hx⟩
    match r, hx with
    | .error (.sink y), hx => cases hx; exact hr
  · exact fun h => ⟨_, h, rfl⟩

end

/-! ## Storing a row -/

variable {κ : Type} {P : RCode κ}

theorem RHeap.write_ok {h : RHeap} {v i : Nat} {x : RVal} (hi : i < (h.get v).length) :
    h.write v i x = .ok (h.set v ((h.get v).set i x)) := by
  unfold RHeap.write
  rw [if_pos hi]

/-- Writing a row that may have values without a text. -/
theorem writeAllT_spec {idata : Nat} {mem : List Byte} : ∀ (gs : List GroupedColumn) (vs : List Nat) (h : RHeap),
    vs.length = gs.length → (∀ v ∈ vs, v < h.length) → (∀ v ∈ vs, idata < (h.get v).length) →
    (∀ g ∈ gs, ∃ c, g.2 g.1 mem = .ok c ∧ ((∃ x, c.toR = .ok x) ∨ ∃ e, c.toR = .error (.exn e))) →
    (writeAllT idata mem gs vs h).2.length = h.length ∧
    (∀ u, ((writeAllT idata mem gs vs h).2.get u).length = (h.get u).length ∧
      ((writeAllT idata mem gs vs h).2.get u).take idata = (h.get u).take idata) ∧
    (((writeAllT idata mem gs vs h).1 = .ok () ∧ writeAll idata mem gs vs h = .ok (writeAllT idata mem gs vs h).2 ∧
        ∀ g ∈ gs, ∃ c x, g.2 g.1 mem = .ok c ∧ c.toR = .ok x) ∨
      ((∃ e, (writeAllT idata mem gs vs h).1 = .error (.exn e)) ∧
        ∃ g ∈ gs, ∃ c e, g.2 g.1 mem = .ok c ∧ c.toR = .error e)) := by
  intro gs
  induction gs with
  | nil => intro vs h _ _ _ _; exact ⟨rfl, fun _ => ⟨rfl, rfl⟩, .inl ⟨rfl, rfl, by simp⟩⟩
  | cons g gs ih =>
    intro vs h hl hv hi hr
    cases vs with
    | nil => simp at hl
    | cons v vs =>
      obtain ⟨c, hc, hx | ⟨e, hx⟩⟩ := hr g (by simp)
      · obtain ⟨x, hx⟩ := hx
        have hw := RHeap.write_ok (x := x) (hi v (by simp))
        have hsame : ∀ u, (RHeap.get (h.set v ((h.get v).set idata x)) u).length = (h.get u).length ∧
            (RHeap.get (h.set v ((h.get v).set idata x)) u).take idata = (h.get u).take idata := by
          intro u
          by_cases hu : u = v
          · subst hu
            rw [RHeap.get_set_same (hv u (by simp))]
            exact ⟨List.length_set, List.take_set_of_le (Nat.le_refl _)⟩
          · rw [RHeap.get_set_ne hu]
            exact ⟨rfl, rfl⟩
        obtain ⟨i1, i2, i3⟩ := ih vs (h.set v ((h.get v).set idata x)) (by simpa using hl)
          (fun u hu => by simpa using hv u (by simp [hu]))
          (fun u hu => by rw [(hsame u).1]; exact hi u (by simp [hu]))
          (fun g hg => hr g (by simp [hg]))
        have e1 : writeAllT idata mem (g :: gs) (v :: vs) h = writeAllT idata mem gs vs (h.set v ((h.get v).set idata x)) := by
          rw [writeAllT]
          simp only [hc, hx, hw, bind, Except.bind]
        have e2 : writeAll idata mem (g :: gs) (v :: vs) h = writeAll idata mem gs vs (h.set v ((h.get v).set idata x)) := by
          rw [writeAll]
          simp only [hc, hx, hw, bind, Except.bind]
        rw [e1, e2]
        refine ⟨by rw [i1, List.length_set], fun u => ⟨(i2 u).1.trans (hsame u).1, (i2 u).2.trans (hsame u).2⟩, ?_⟩
        rcases i3 with ⟨i3, i4, i5⟩ | ⟨i3, g', hg', i4⟩
        · refine .inl ⟨i3, i4, fun g' hg' => ?_⟩
          rcases List.mem_cons.1 hg' with rfl | hg'
          · exact ⟨c, x, hc, hx⟩
          · exact i5 g' hg'
        · exact .inr ⟨i3, g', List.mem_cons_of_mem _ hg', i4⟩
      · have e1 : writeAllT idata mem (g :: gs) (v :: vs) h = (.error (.exn e), h) := by
          rw [writeAllT]
          simp only [hc, hx, bind, Except.bind]
        rw [e1]
        exact ⟨rfl, fun _ => ⟨rfl, rfl⟩, .inr ⟨⟨e, rfl⟩, g, by simp, c, _, hc, hx⟩⟩

/-- Storing a row is what it is in RSinks.lean, or it throws and the rows are those before. -/
theorem RInv.storeT {cols : List Column} {size ilast : Nat} {st : RCols} {rest : List (Nat × Row)}
    (h : RInv cols size ilast st rest) {i : Nat} {r : Row} (hr : RSafe cols [(i, r)]) (hi : i < ilast)
    (h31 : ilast ≤ 2 ^ 31) (hlow : st.istart ≤ i) (habove : ∀ x ∈ rest, x.1 < i)
    (hs : 0 < size → rest.length < size) :
    (InR cols r ∧ ∃ st', st.storeT i r = (.ok (), st') ∧ RInv cols size ilast { st' with iend := i } (rest ++ [(i, r)]) ∧
      st'.istart = st.istart ∧ st'.iend = st.iend) ∨
    (¬ InR cols r ∧ ∃ st' e, st.storeT i r = (.error (.exn e), st') ∧ RInv cols size ilast st' rest ∧
      st'.istart = st.istart ∧ st'.iend = st.iend) := by
  obtain ⟨cap, c1, c2, c3, c4⟩ := h.cap
  have hroom : st.idata < cap := by
    rw [h.idata]
    rcases c4 with ⟨h0, rfl⟩ | c4
    · exact hs h0
    · have := sorted_length (rest.map Prod.fst) st.istart i h.sorted
        (fun x hx => by obtain ⟨y, hy, rfl⟩ := List.mem_map.1 hx; exact ⟨h.low y hy, habove y hy⟩) hlow
      rw [List.length_map] at this
      omega
  have hidx : st.index < st.heap.length := h.valid _ (by simp)
  obtain ⟨h1, hw, hl1, hg1⟩ : ∃ h1, st.heap.write st.index st.idata (.int (asInt i)) = .ok h1 ∧ h1.length = st.heap.length ∧
      ∀ u, (RHeap.get h1 u).length = (st.heap.get u).length ∧ (RHeap.get h1 u).take st.idata = (st.heap.get u).take st.idata := by
    refine ⟨_, RHeap.write_ok (by rw [c1 _ (by simp)]; exact hroom), List.length_set, fun u => ?_⟩
    by_cases hu : u = st.index
    · subst hu
      rw [RHeap.get_set_same hidx]
      exact ⟨List.length_set, List.take_set_of_le (Nat.le_refl _)⟩
    · rw [RHeap.get_set_ne hu]
      exact ⟨rfl, rfl⟩
  obtain ⟨w1, w2, w3⟩ := writeAllT_spec (idata := st.idata) (mem := r.mem) st.cols st.vecs h1 h.len
    (fun v hv => by rw [hl1]; exact h.valid v (by simp [hv]))
    (fun v hv => by rw [(hg1 v).1, c1 v (by simp [hv])]; exact hroom)
    (fun g hg => by
      rw [h.cols] at hg
      obtain ⟨v, k1, k2⟩ := hr g.1 (grouped_value hg).1 (i, r) (by simp)
      refine ⟨v, grouped_read hg k1, ?_⟩
      rcases k2 with ⟨x, k2⟩ | k2
      · exact .inl ⟨x, toR_shows.2 k2⟩
      · exact .inr k2)
  rcases w3 with ⟨w3, w4, w5⟩ | ⟨⟨e, w3⟩, g, hg, c, e', w4, w5⟩
  · left
    have hin : InR cols r := by
      intro c hc
      obtain ⟨g, hg, rfl⟩ := typed_grouped hc
      obtain ⟨v, k1, -⟩ := hr g.1 hc (i, r) (by simp)
      obtain ⟨c, x, k3, k4⟩ := w5 g (by rw [h.cols]; exact hg)
      rw [grouped_read hg k1] at k3
      cases k3
      exact ⟨v, x, k1, toR_shows.1 k4⟩
    refine ⟨hin, ?_⟩
    obtain ⟨st', s1, s2, s3, s4⟩ := h.store (i := i) (r := r) (fun c hc y hy => by
      rw [List.mem_singleton.1 hy]; exact hin c hc) hi h31 hlow habove hs
    refine ⟨st', ?_, s2, s3, s4⟩
    unfold RCols.store at s1
    simp only [hw, w4, bind, Except.bind, pure, Except.pure] at s1
    cases s1
    unfold RCols.storeT
    rw [hw]
    dsimp only
    rw [show writeAllT st.idata r.mem st.cols st.vecs h1 = (.ok (), (writeAllT st.idata r.mem st.cols st.vecs h1).2) from
      Prod.ext w3 rfl]
  · right
    refine ⟨?_, { st with heap := (writeAllT st.idata r.mem st.cols st.vecs h1).2 }, e, ?_, ?_, rfl, rfl⟩
    · intro hin
      rw [h.cols] at hg
      obtain ⟨v, x, k1, k2⟩ := hin g.1 (grouped_value hg).1
      rw [grouped_read hg k1] at w4
      cases w4
      rw [toR_shows.2 k2] at w5
      cases w5
    · unfold RCols.storeT
      rw [hw]
      dsimp only
      rw [show writeAllT st.idata r.mem st.cols st.vecs h1 = (.error (.exn e), (writeAllT st.idata r.mem st.cols st.vecs h1).2) from
        Prod.ext w3 rfl]
    · have hgt : ∀ u, ((writeAllT st.idata r.mem st.cols st.vecs h1).2.get u).length = (st.heap.get u).length ∧
          ((writeAllT st.idata r.mem st.cols st.vecs h1).2.get u).take st.idata = (st.heap.get u).take st.idata :=
        fun u => ⟨(w2 u).1.trans (hg1 u).1, (w2 u).2.trans (hg1 u).2⟩
      refine ⟨h.sizeEq, h.ilastEq, h.cols, h.idata, h.len, ?_, h.nodup, ⟨cap, ?_, c2, c3, c4⟩, ?_, ?_, h.sorted, h.low⟩
      · intro v hv
        dsimp only
        rw [w1, hl1]
        exact h.valid v hv
      · intro v hv
        rw [(hgt v).1]
        exact c1 v hv
      · dsimp only
        rw [(hgt _).2]
        exact h.index
      · dsimp only
        simp only [(hgt _).2]
        exact h.stored

/-! ## Handing over -/

/-- A chunk that is handed over at the next `flush`. -/
structure RPending (cols : List Column) (st : RCols) (rest : List (Nat × Row)) : Prop where
  some : ¬ (st.istart > st.iend ∨ st.idata = 0)
  holds : RHolds cols rest (st.setValues.heap.get st.setValues.index) st.setValues.rows
  valid : ∀ v ∈ st.index :: st.vecs, v < st.heap.length

theorem fit_get {n v : Nat} {h : RHeap} (hv : v < h.length) : (fit n v h).1.get (fit n v h).2 = (h.get v).take n := by
  obtain ⟨-, -, -, h3, -⟩ := fit_spec (n := n) hv
  exact h3

theorem setValues_index (st : RCols) (hv : ∀ v ∈ st.index :: st.vecs, v < st.heap.length) :
    st.setValues.heap.get st.setValues.index = (st.heap.get st.index).take st.idata ∧
    (∃ k, st.setValues.heap = st.heap ++ k) ∧ st.setValues.index < st.setValues.heap.length := by
  obtain ⟨k, f1, f2, f3, -⟩ := fit_spec (n := st.idata) (hv st.index (by simp))
  have hv' : ∀ v ∈ st.vecs, v < (fit st.idata st.index st.heap).1.length := fun v hm => by
    rw [f1, List.length_append]
    have := hv v (by simp [hm])
    omega
  obtain ⟨k', g1, -⟩ := fitAll_spec (n := st.idata) st.vecs _ hv'
  refine ⟨?_, ⟨k ++ k', ?_⟩, ?_⟩
  · show (fitAll st.idata st.vecs (fit st.idata st.index st.heap).1).1.get (fit st.idata st.index st.heap).2 = _
    rw [g1, RHeap.get_append f2, f3]
  · show (fitAll st.idata st.vecs (fit st.idata st.index st.heap).1).1 = _
    rw [g1, f1, List.append_assoc]
  · show (fit st.idata st.index st.heap).2 < (fitAll st.idata st.vecs (fit st.idata st.index st.heap).1).1.length
    rw [g1, List.length_append]
    omega

theorem setValues_rows (st : RCols) (hv : ∀ v ∈ st.index :: st.vecs, v < st.heap.length) :
    st.setValues.rows = (st.cols.zip st.vecs).map fun (g, v) => (cString g.1.name, (st.heap.get v).take st.idata) := by
  obtain ⟨k, f1, f2, f3, -⟩ := fit_spec (n := st.idata) (hv st.index (by simp))
  have hv' : ∀ v ∈ st.vecs, v < (fit st.idata st.index st.heap).1.length := fun v hm => by
    rw [f1, List.length_append]
    have := hv v (by simp [hm])
    omega
  obtain ⟨k', g1, g2⟩ := fitAll_spec (n := st.idata) st.vecs _ hv'
  show (st.cols.zip (fitAll st.idata st.vecs (fit st.idata st.index st.heap).1).2).map
    (fun (g, v) => (cString g.1.name, (fitAll st.idata st.vecs (fit st.idata st.index st.heap).1).1.get v)) = _
  have key : ∀ (gs : List GroupedColumn) (us ws : List Nat), (∀ u ∈ us, u < st.heap.length) →
      List.Forall₂ (fun v w => w < (fitAll st.idata st.vecs (fit st.idata st.index st.heap).1).1.length ∧
        (fitAll st.idata st.vecs (fit st.idata st.index st.heap).1).1.get w =
          ((fit st.idata st.index st.heap).1.get v).take st.idata) us ws →
      (gs.zip ws).map (fun (g, v) => (cString g.1.name, (fitAll st.idata st.vecs (fit st.idata st.index st.heap).1).1.get v))
        = (gs.zip us).map fun (g, v) => (cString g.1.name, (st.heap.get v).take st.idata) := by
    intro gs us ws hu hf
    induction hf generalizing gs with
    | nil => cases gs <;> rfl
    | @cons a b as bs h1 h2 ih =>
      cases gs with
      | nil => rfl
      | cons g gs =>
        simp only [List.zip_cons_cons, List.map_cons]
        rw [ih gs fun u hu' => hu u (by simp [hu']), h1.2, f1, RHeap.get_append (hu a (by simp))]
  exact key _ _ _ (fun u hu => hv u (by simp [hu])) g2

/-- A chunk that was refused is the same at the next attempt. -/
theorem RPending.again {cols : List Column} {st : RCols} {rest : List (Nat × Row)} (h : RPending cols st rest) :
    RPending cols st.setValues rest := by
  obtain ⟨i1, ⟨k, i2⟩, i3⟩ := setValues_index st h.valid
  have hv : ∀ v ∈ st.setValues.index :: st.setValues.vecs, v < st.setValues.heap.length := by
    intro v hv
    rcases List.mem_cons.1 hv with rfl | hv
    · exact i3
    · rw [i2, List.length_append]
      have := h.valid v (List.mem_cons_of_mem _ hv)
      omega
  refine ⟨h.some, ?_, hv⟩
  have e1 : st.setValues.setValues.heap.get st.setValues.setValues.index = st.setValues.heap.get st.setValues.index := by
    rw [(setValues_index st.setValues hv).1, i1]
    show List.take st.idata (List.take st.idata _) = _
    rw [List.take_take, Nat.min_self]
  have e2 : st.setValues.setValues.rows = st.setValues.rows := by
    rw [setValues_rows _ hv, setValues_rows _ h.valid]
    show List.map _ (st.cols.zip st.vecs) = _
    refine List.map_congr_left fun x hx => ?_
    obtain ⟨g, v⟩ := x
    have hm : v ∈ st.vecs := (List.of_mem_zip hx).2
    show (cString g.1.name, List.take st.idata (st.setValues.heap.get v)) = _
    rw [i2, RHeap.get_append (h.valid v (List.mem_cons_of_mem _ hm))]
  rw [e1, e2]
  exact h.holds

/-! ## Chunks -/

theorem r_spec (s : RLive κ) (c : RCall) :
    (s.r P c).2.cpp = s.cpp ∧ (((s.r P c).1 = .ok () ∧ (s.r P c).2.taken = s.taken ++ [c]) ∨
      ((s.r P c).1 = .error .raised ∧ (s.r P c).2.taken = s.taken)) := by
  unfold RLive.r
  rcases P.call s.obj c with ⟨(- | -), k⟩
  · exact ⟨rfl, .inr ⟨rfl, rfl⟩⟩
  · exact ⟨rfl, .inl ⟨rfl, rfl⟩⟩

theorem rchunks_append (a b : List RCall) : rchunks (a ++ b) = rchunks a ++ rchunks b := by
  induction a with
  | nil => rfl
  | cons c a ih => cases c <;> simp [rchunks, ih]

theorem rdatas_append (a b : List RCall) : rdatas (a ++ b) = rdatas a ++ rdatas b := by
  induction a with
  | nil => rfl
  | cons c a ih => cases c <;> simp [rdatas, ih]

theorem rrows_append (a b : List RCall) : rrows (a ++ b) = rrows a ++ rrows b := by
  induction a with
  | nil => rfl
  | cons c a ih => cases c <;> simp [rrows, ih]

/-- The chunks that were taken are these groups of rows. -/
def RTaken (cols : List Column) (s : RLive κ) (parts : List (List (Nat × Row))) : Prop :=
  List.Forall₂ (fun c q => RHolds cols q c.1 c.2) (rchunks s.taken) parts

/-- `flush` with something to hand over: it is taken and the chunk begins anew, or it is refused. -/
theorem flush_pending {cols : List Column} {s : RLive κ} {st : RCols} {parts : List (List (Nat × Row))} {rest : List (Nat × Row)}
    (ht : RTaken cols s parts) (h : RPending cols st rest) :
    (∃ s', s.flush P st = (.ok (), s', { st.setValues with idata := 0, istart := st.iend + 1 }) ∧
      RTaken cols s' (parts ++ [rest])) ∨
    (∃ s', s.flush P st = (.error .raised, s', st.setValues) ∧ RTaken cols s' parts) := by
  unfold RLive.flush
  rw [if_neg h.some]
  dsimp only
  have hr := (r_spec (P := P) s (.pushRows (st.setValues.heap.get st.setValues.index) st.setValues.rows)).2
  generalize s.r P (.pushRows (st.setValues.heap.get st.setValues.index) st.setValues.rows) = y at *
  obtain ⟨res, s'⟩ := y
  rcases hr with ⟨h1, h2⟩ | ⟨h1, h2⟩
  · dsimp only at h1 h2
    subst h1
    refine .inl ⟨s', rfl, ?_⟩
    unfold RTaken
    rw [h2, rchunks_append]
    exact List.rel_append ht (.cons h.holds .nil)
  · dsimp only at h1 h2
    subst h1
    refine .inr ⟨s', rfl, ?_⟩
    unfold RTaken
    rw [h2]
    exact ht

/-- A sink that goes on: it has room for the rows from index `n` on. -/
structure RGo (cols : List Column) (size ilast n : Nat) (s : RLive κ) (parts : List (List (Nat × Row)))
    (rest : List (Nat × Row)) : Prop where
  inv : ∃ st, s.cpp = .chunk st ∧ RInv cols size ilast st rest ∧ (∀ x, rest.getLast? = some x → st.iend = x.1) ∧ st.istart ≤ n
  room : 0 < size → rest.length < size
  below : ∀ x ∈ rest, x.1 < n
  taken : RTaken cols s parts
  full : ∀ q ∈ parts, q ≠ [] ∧ q.length = size

/-- A sink whose full chunk was refused: it has no room. -/
structure RStuck (cols : List Column) (size : Nat) (s : RLive κ) (parts : List (List (Nat × Row)))
    (rest : List (Nat × Row)) : Prop where
  inv : ∃ st, s.cpp = .chunk st ∧ RPending cols st rest ∧ (st.heap.get st.index).length ≤ st.idata
  room : 0 < size ∧ rest.length = size
  taken : RTaken cols s parts
  full : ∀ q ∈ parts, q ≠ [] ∧ q.length = size

theorem RInv.pending {cols : List Column} {size ilast : Nat} {st : RCols} {rest : List (Nat × Row)}
    (h : RInv cols size ilast st rest) (hr : rest ≠ []) (hl : ∀ x, rest.getLast? = some x → st.iend = x.1) :
    RPending cols st rest := by
  refine ⟨?_, h.holds, h.valid⟩
  obtain ⟨x, hx⟩ : ∃ x, rest.getLast? = some x := ⟨_, List.getLast?_eq_some_getLast hr⟩
  have h1 := h.low x (List.mem_of_getLast? hx)
  have h2 := hl x hx
  have h3 : 0 < rest.length := List.length_pos_iff.2 hr
  rw [h.idata]
  omega

/-- One row. -/
theorem go_push {cols : List Column} {size ilast n : Nat} {s : RLive κ} {parts : List (List (Nat × Row))}
    {rest : List (Nat × Row)} (h31 : ilast ≤ 2 ^ 31) (h : RGo cols size ilast n s parts rest) {i : Nat} {r : Row} (hn : n ≤ i)
    (hi : i < ilast) (hr : RSafe cols [(i, r)]) :
    (InR cols r ∧
      ((((rSinkCode P).call s (.pushRow i r)).1 = .ok () ∧ ∃ parts' rest', parts'.flatten ++ rest' = parts.flatten ++ rest ++ [(i, r)] ∧
        RGo cols size ilast (i + 1) ((rSinkCode P).call s (.pushRow i r)).2 parts' rest') ∨
      (((rSinkCode P).call s (.pushRow i r)).1 = .error .raised ∧
        RStuck cols size ((rSinkCode P).call s (.pushRow i r)).2 parts (rest ++ [(i, r)])))) ∨
    (¬ InR cols r ∧ (∃ e, ((rSinkCode P).call s (.pushRow i r)).1 = .error (.cpp (.exn e))) ∧
      RGo cols size ilast (i + 1) ((rSinkCode P).call s (.pushRow i r)).2 parts rest) := by
  obtain ⟨st, hc, hinv, hlast, hlow⟩ := h.inv
  have hcall : (rSinkCode P).call s (.pushRow i r) = s.chunkCall P st (.pushRow i r) := by
    simp only [rSinkCode, hc]
  rw [hcall]
  simp only [RLive.chunkCall]
  rcases hinv.storeT hr hi h31 (by omega) (fun x hx => by have := h.below x hx; omega) h.room with
    ⟨hin, st1, h1, hi1, hst, -⟩ | ⟨hin, st1, e, h1, hi1, hst, hend⟩
  · left
    refine ⟨hin, ?_⟩
    rw [h1]
    dsimp only
    have hlast1 : ∀ x, (rest ++ [(i, r)]).getLast? = some x → ({ st1 with iend := i } : RCols).iend = x.1 := by
      intro x hx
      simp only [List.getLast?_append, List.getLast?_singleton, Option.some_or, Option.some.injEq] at hx
      rw [← hx]
    have hpend := hi1.pending (by simp) hlast1
    by_cases hf : st1.idata = st1.size
    · rw [if_pos hf]
      have hlen : (rest ++ [(i, r)]).length = size := by
        rw [← hi1.idata, ← hi1.sizeEq]; exact hf
      have h0 : 0 < size := by rw [← hlen]; simp
      have hre := hi1.reuse (i := i) (by simp) hlen
      rcases flush_pending (P := P) h.taken hpend with ⟨s', f1, f2⟩ | ⟨s', f1, f2⟩
      · left
        rw [f1]
        have hfull : ∀ q ∈ parts ++ [rest ++ [(i, r)]], q ≠ [] ∧ q.length = size := by
          intro q hq
          rcases List.mem_append.1 hq with hq | hq
          · exact h.full q hq
          · rw [List.mem_singleton.1 hq]
            exact ⟨by simp, hlen⟩
        have hflat : (parts ++ [rest ++ [(i, r)]]).flatten ++ [] = parts.flatten ++ rest ++ [(i, r)] := by simp
        dsimp only
        split
        · rename_i hcond
          refine ⟨rfl, _, [], hflat, ⟨⟨_, rfl, ?_, by simp, ?_⟩, fun h => by simpa using h, by simp, f2, hfull⟩⟩
          · refine RInv.prepare hre.sizeEq hre.ilastEq hre.cols hre.idata ?_ (.inr ?_)
            · intro _
              have h1 := hre.sizeEq
              have h2 := hre.ilastEq
              dsimp only at h1 h2 ⊢
              omega
            · have := hre.ilastEq
              dsimp only at this ⊢
              omega
          · exact Nat.le_refl _
        · exact ⟨rfl, _, [], hflat, ⟨⟨_, rfl, hre, by simp, Nat.le_refl _⟩, fun h => by simpa using h, by simp, f2, hfull⟩⟩
      · right
        rw [f1]
        refine ⟨rfl, ⟨_, rfl, hpend.again, ?_⟩, ⟨h0, hlen⟩, f2, h.full⟩
        rw [(setValues_index _ hpend.valid).1, List.length_take]
        exact Nat.min_le_left _ _
    · rw [if_neg hf]
      left
      refine ⟨rfl, parts, rest ++ [(i, r)], by simp, ⟨⟨_, rfl, hi1, hlast1, ?_⟩, ?_, ?_, h.taken, h.full⟩⟩
      · show st1.istart ≤ i + 1
        omega
      · intro h0
        have h2 := h.room h0
        have h3 := hi1.idata
        have h4 := hi1.sizeEq
        simp only [List.length_append, List.length_singleton] at *
        omega
      · intro x hx
        rcases List.mem_append.1 hx with hx | hx
        · have := h.below x hx
          omega
        · rw [List.mem_singleton.1 hx]
          exact Nat.lt_succ_self i
  · right
    refine ⟨hin, ⟨e, by rw [h1]⟩, ?_⟩
    rw [h1]
    refine ⟨⟨st1, rfl, hi1, fun x hx => by rw [hend]; exact hlast x hx, by omega⟩, h.room, fun x hx => ?_, h.taken, h.full⟩
    have := h.below x hx
    omega

/-- A row for a sink that has no room is written outside its vectors. -/
theorem stuck_push {cols : List Column} {size : Nat} {s : RLive κ} {parts : List (List (Nat × Row))} {rest : List (Nat × Row)}
    (h : RStuck cols size s parts rest) (i : Nat) (r : Row) :
    (rSinkCode P).call s (.pushRow i r) = (.error (.cpp .ub), s) := by
  obtain ⟨st, hc, hp, hl⟩ := h.inv
  have hcall : (rSinkCode P).call s (.pushRow i r) = s.chunkCall P st (.pushRow i r) := by
    simp only [rSinkCode, hc]
  rw [hcall]
  simp only [RLive.chunkCall, RCols.storeT, RHeap.write]
  rw [if_neg (by omega)]
  dsimp only
  rw [← hc]

theorem stuck_rows {cols : List Column} {size : Nat} {s : RLive κ} {parts : List (List (Nat × Row))} {rest : List (Nat × Row)}
    (h : RStuck cols size s parts rest) : ∀ rows : List (Nat × Row),
    afterCalls (rSinkCode P) s (rows.map fun r => .pushRow r.1 r.2) = s ∧
    (rows ≠ [] → .cpp .ub ∈ thrown (rSinkCode P) s (rows.map fun r => .pushRow r.1 r.2)) := by
  intro rows
  induction rows with
  | nil => exact ⟨rfl, fun h => absurd rfl h⟩
  | cons x rows ih =>
    have h1 := stuck_push (P := P) h x.1 x.2
    rw [List.map_cons]
    refine ⟨?_, fun _ => ?_⟩
    · show afterCalls (rSinkCode P) ((rSinkCode P).call s (.pushRow x.1 x.2)).2 _ = s
      rw [h1]
      exact ih.1
    · rw [thrown, h1]
      exact List.mem_cons_self

open Classical in
/-- Rows, from a sink that goes on. -/
theorem go_rows {cols : List Column} {size ilast : Nat} (h31 : ilast ≤ 2 ^ 31) :
    ∀ (rows : List (Nat × Row)) (n : Nat) (s : RLive κ) (parts : List (List (Nat × Row))) (rest : List (Nat × Row)),
      RGo cols size ilast n s parts rest → RSafe cols rows → (rows.map Prod.fst).Pairwise (· < ·) →
      (∀ r ∈ rows, n ≤ r.1 ∧ r.1 < ilast) →
      ∃ parts' rest',
        ((∃ n', RGo cols size ilast n' (afterCalls (rSinkCode P) s (rows.map fun r => .pushRow r.1 r.2)) parts' rest') ∧
            .cpp .ub ∉ thrown (rSinkCode P) s (rows.map fun r => .pushRow r.1 r.2) ∧
            .raised ∉ thrown (rSinkCode P) s (rows.map fun r => .pushRow r.1 r.2) ∨
          RStuck cols size (afterCalls (rSinkCode P) s (rows.map fun r => .pushRow r.1 r.2)) parts' rest' ∧
            .raised ∈ thrown (rSinkCode P) s (rows.map fun r => .pushRow r.1 r.2)) ∧
        (.cpp .ub ∉ thrown (rSinkCode P) s (rows.map fun r => .pushRow r.1 r.2) →
          parts'.flatten ++ rest' = parts.flatten ++ rest ++ rows.filter fun r => decide (InR cols r.2)) := by
  intro rows
  induction rows with
  | nil =>
    intro n s parts rest h _ _ _
    exact ⟨parts, rest, .inl ⟨⟨n, h⟩, by simp [thrown], by simp [thrown]⟩, fun _ => by simp⟩
  | cons x rows ih =>
    intro n s parts rest h hr hp hb
    obtain ⟨i, r⟩ := x
    have hbi := hb (i, r) (by simp)
    rw [List.map_cons, List.pairwise_cons] at hp
    have hb' : ∀ y ∈ rows, i + 1 ≤ y.1 ∧ y.1 < ilast := fun y hy =>
      ⟨hp.1 y.1 (List.mem_map.2 ⟨y, hy, rfl⟩), (hb y (by simp [hy])).2⟩
    have hr' : RSafe cols rows := fun c hc y hy => hr c hc y (by simp [hy])
    have hafter : afterCalls (rSinkCode P) s (((i, r) :: rows).map fun r => .pushRow r.1 r.2) =
        afterCalls (rSinkCode P) ((rSinkCode P).call s (.pushRow i r)).2 (rows.map fun r => .pushRow r.1 r.2) := rfl
    rw [hafter, List.map_cons, thrown]
    dsimp only
    rcases go_push (P := P) h31 h hbi.1 hbi.2 (r := r) (fun c hc y hy => hr c hc y (by
      rw [List.mem_singleton.1 hy]; simp)) with ⟨hin, ⟨h1, parts1, rest1, h2, h3⟩ | ⟨h1, h2⟩⟩ | ⟨hin, ⟨e, h1⟩, h2⟩
    · rw [h1]
      obtain ⟨parts2, rest2, k1, k2⟩ := ih (i + 1) _ parts1 rest1 h3 hr' hp.2 hb'
      refine ⟨parts2, rest2, k1, fun hub => ?_⟩
      rw [k2 hub, h2, List.filter_cons_of_pos (by simpa using hin)]
      simp
    · rw [h1]
      obtain ⟨k1, k2⟩ := stuck_rows (P := P) h2 rows
      refine ⟨parts, rest ++ [(i, r)], .inr ⟨by rw [k1]; exact h2, List.mem_cons_self⟩, fun hub => ?_⟩
      have hnil : rows = [] := by
        by_contra hne
        exact hub (List.mem_cons_of_mem _ (k2 hne))
      subst hnil
      rw [List.filter_cons_of_pos (by simpa using hin)]
      simp
    · rw [h1]
      obtain ⟨parts2, rest2, k1, k2⟩ := ih (i + 1) _ parts rest h2 hr' hp.2 hb'
      refine ⟨parts2, rest2, ?_, fun hub => ?_⟩
      · rcases k1 with ⟨k1, k3, k4⟩ | ⟨k1, k3⟩
        · exact .inl ⟨k1, by simpa using k3, by simpa using k4⟩
        · exact .inr ⟨k1, by simpa using k3⟩
      · rw [k2 (by simpa using hub), List.filter_cons_of_neg (by simpa using hin)]

/-- A sink that gets no more rows. -/
def RReady (cols : List Column) (s : RLive κ) (parts : List (List (Nat × Row))) (rest : List (Nat × Row)) : Prop :=
  RTaken cols s parts ∧ ∃ st, s.cpp = .chunk st ∧ ((rest = [] ∧ st.idata = 0) ∨ (rest ≠ [] ∧ RPending cols st rest))

theorem RGo.ready {cols : List Column} {size ilast n : Nat} {s : RLive κ} {parts : List (List (Nat × Row))}
    {rest : List (Nat × Row)} (h : RGo cols size ilast n s parts rest) : RReady cols s parts rest := by
  obtain ⟨st, hc, hi, hl, -⟩ := h.inv
  refine ⟨h.taken, st, hc, ?_⟩
  by_cases hr : rest = []
  · subst hr
    exact .inl ⟨rfl, hi.idata⟩
  · exact .inr ⟨hr, hi.pending hr hl⟩

theorem RStuck.ready {cols : List Column} {size : Nat} {s : RLive κ} {parts : List (List (Nat × Row))}
    {rest : List (Nat × Row)} (h : RStuck cols size s parts rest) : RReady cols s parts rest := by
  obtain ⟨st, hc, hi, -⟩ := h.inv
  refine ⟨h.taken, st, hc, .inr ⟨?_, hi⟩⟩
  have := h.room
  intro he
  rw [he] at this
  simp at this
  omega

theorem ready_end {cols : List Column} {s : RLive κ} {parts : List (List (Nat × Row))} {rest : List (Nat × Row)}
    (h : RReady cols s parts rest) :
    (((rSinkCode P).call s .endOfData).1 = .ok () ∧
      RReady cols ((rSinkCode P).call s .endOfData).2 (if rest = [] then parts else parts ++ [rest]) []) ∨
    (((rSinkCode P).call s .endOfData).1 = .error .raised ∧ RReady cols ((rSinkCode P).call s .endOfData).2 parts rest) := by
  obtain ⟨ht, st, hc, h⟩ := h
  have hcall : (rSinkCode P).call s .endOfData = ((s.flush P st).1, { (s.flush P st).2.1 with cpp := .chunk (s.flush P st).2.2 }) := by
    simp only [rSinkCode, hc, RLive.chunkCall]
  rw [hcall]
  rcases h with ⟨rfl, h0⟩ | ⟨hne, hp⟩
  · left
    have : s.flush P st = (.ok (), s, st) := by
      unfold RLive.flush
      rw [if_pos (.inr h0)]
    rw [this, if_pos rfl]
    exact ⟨rfl, ht, st, rfl, .inl ⟨rfl, h0⟩⟩
  · rcases flush_pending (P := P) ht hp with ⟨s', f1, f2⟩ | ⟨s', f1, f2⟩
    · left
      rw [f1, if_neg hne]
      exact ⟨rfl, f2, _, rfl, .inl ⟨rfl, rfl⟩⟩
    · right
      rw [f1]
      exact ⟨rfl, f2, _, rfl, .inr ⟨hne, hp.again⟩⟩

theorem ready_ends {cols : List Column} : ∀ (m : Nat) {s : RLive κ} {parts : List (List (Nat × Row))} {rest : List (Nat × Row)},
    RReady cols s parts rest →
    ∃ parts' rest', RReady cols (afterCalls (rSinkCode P) s (List.replicate m .endOfData)) parts' rest' ∧
      (parts' = parts ∧ rest' = rest ∨ parts' = parts ++ [rest] ∧ rest ≠ [] ∧ rest' = []) ∧
      .cpp .ub ∉ thrown (rSinkCode P) s (List.replicate m .endOfData) := by
  intro m
  induction m with
  | zero => intro s parts rest h; exact ⟨parts, rest, h, .inl ⟨rfl, rfl⟩, by simp [thrown]⟩
  | succ m ih =>
    intro s parts rest h
    have hafter : afterCalls (rSinkCode P) s (List.replicate (m + 1) .endOfData) =
        afterCalls (rSinkCode P) ((rSinkCode P).call s .endOfData).2 (List.replicate m .endOfData) := rfl
    rw [hafter, List.replicate_succ, thrown]
    rcases ready_end (P := P) h with ⟨h1, h2⟩ | ⟨h1, h2⟩
    · rw [h1]
      obtain ⟨parts', rest', g1, g2, g3⟩ := ih h2
      refine ⟨parts', rest', g1, ?_, g3⟩
      by_cases hr : rest = []
      · rw [if_pos hr] at g2
        rcases g2 with ⟨rfl, rfl⟩ | ⟨-, hne, -⟩
        · exact .inl ⟨rfl, hr.symm⟩
        · exact absurd rfl hne
      · rw [if_neg hr] at g2
        rcases g2 with ⟨rfl, rfl⟩ | ⟨-, hne, -⟩
        · exact .inr ⟨rfl, hr, rfl⟩
        · exact absurd rfl hne
    · rw [h1]
      obtain ⟨parts', rest', g1, g2, g3⟩ := ih h2
      exact ⟨parts', rest', g1, g2, by simpa using g3⟩

/-! ## Whole data -/

/-- A whole-data sink that goes on. -/
structure RDataGo (cols : List Column) (ilast n : Nat) (s : RLive κ) (rest : List (Nat × Row)) : Prop where
  inv : ∃ st, s.cpp = .data st ∧ RInv cols 0 ilast st rest ∧ st.istart = 0
  below : ∀ x ∈ rest, x.1 < n
  taken : rdatas s.taken = []

open Classical in
theorem data_rows {cols : List Column} {ilast : Nat} (h31 : ilast ≤ 2 ^ 31) :
    ∀ (rows : List (Nat × Row)) (n : Nat) (s : RLive κ) (rest : List (Nat × Row)),
      RDataGo cols ilast n s rest → RSafe cols rows → (rows.map Prod.fst).Pairwise (· < ·) →
      (∀ r ∈ rows, n ≤ r.1 ∧ r.1 < ilast) →
      (∃ n', RDataGo cols ilast n' (afterCalls (rSinkCode P) s (rows.map fun r => .pushRow r.1 r.2))
        (rest ++ rows.filter fun r => decide (InR cols r.2))) ∧
      .cpp .ub ∉ thrown (rSinkCode P) s (rows.map fun r => .pushRow r.1 r.2) := by
  intro rows
  induction rows with
  | nil => intro n s rest h _ _ _; exact ⟨⟨n, by simpa [afterCalls] using h⟩, by simp [thrown]⟩
  | cons x rows ih =>
    intro n s rest h hr hp hb
    obtain ⟨i, r⟩ := x
    have hbi := hb (i, r) (by simp)
    rw [List.map_cons, List.pairwise_cons] at hp
    have hb' : ∀ y ∈ rows, i + 1 ≤ y.1 ∧ y.1 < ilast := fun y hy =>
      ⟨hp.1 y.1 (List.mem_map.2 ⟨y, hy, rfl⟩), (hb y (by simp [hy])).2⟩
    have hr' : RSafe cols rows := fun c hc y hy => hr c hc y (by simp [hy])
    have hafter : afterCalls (rSinkCode P) s (((i, r) :: rows).map fun r => .pushRow r.1 r.2) =
        afterCalls (rSinkCode P) ((rSinkCode P).call s (.pushRow i r)).2 (rows.map fun r => .pushRow r.1 r.2) := rfl
    rw [hafter, List.map_cons, thrown]
    dsimp only
    obtain ⟨st, hc, hinv, h0⟩ := h.inv
    have hcall : (rSinkCode P).call s (.pushRow i r) = s.dataCall P st (.pushRow i r) := by
      simp only [rSinkCode, hc]
    rw [hcall]
    simp only [RLive.dataCall]
    rcases hinv.storeT (i := i) (r := r) (fun c hc y hy => hr c hc y (by
      rw [List.mem_singleton.1 hy]; simp)) hbi.2 h31 (by omega) (fun x hx => by have := h.below x hx; omega) (by simp) with
      ⟨hin, st1, h1, hi1, hst, -⟩ | ⟨hin, st1, e, h1, hi1, hst, hend⟩
    · rw [h1]
      have hi2 : RInv cols 0 ilast st1 (rest ++ [(i, r)]) := ⟨hi1.sizeEq, hi1.ilastEq, hi1.cols, hi1.idata, hi1.len,
        hi1.valid, hi1.nodup, hi1.cap, hi1.index, hi1.stored, hi1.sorted, hi1.low⟩
      have := ih (i + 1) { s with cpp := .data st1 } (rest ++ [(i, r)]) ⟨⟨st1, rfl, hi2, by omega⟩, fun x hx => by
        rcases List.mem_append.1 hx with hx | hx
        · have := h.below x hx; omega
        · rw [List.mem_singleton.1 hx]; exact Nat.lt_succ_self i, h.taken⟩ hr' hp.2 hb'
      rw [List.filter_cons_of_pos (by simpa using hin)]
      simpa using this
    · rw [h1]
      have := ih (i + 1) { s with cpp := .data st1 } rest ⟨⟨st1, rfl, hi1, by omega⟩, fun x hx => by
        have := h.below x hx; omega, h.taken⟩ hr' hp.2 hb'
      rw [List.filter_cons_of_neg (by simpa using hin)]
      simpa using this

/-- A whole-data sink that gets no more rows. -/
def RDataReady (cols : List Column) (s : RLive κ) (rest : List (Nat × Row)) : Prop :=
  (∀ d ∈ rdatas s.taken, RHolds cols rest d.1 d.2) ∧
    ∃ st, s.cpp = .data st ∧ ((rest = [] ∧ st.idata = 0) ∨ (rest ≠ [] ∧ RPending cols st rest))

theorem RDataGo.ready {cols : List Column} {ilast n : Nat} {s : RLive κ} {rest : List (Nat × Row)}
    (h : RDataGo cols ilast n s rest) : RDataReady cols s rest := by
  obtain ⟨st, hc, hi, h0⟩ := h.inv
  refine ⟨by rw [h.taken]; simp, st, hc, ?_⟩
  by_cases hr : rest = []
  · subst hr
    exact .inl ⟨rfl, hi.idata⟩
  · refine .inr ⟨hr, ?_, hi.holds, hi.valid⟩
    have := List.length_pos_iff.2 hr
    have := hi.idata
    omega

theorem data_ready_end {cols : List Column} {s : RLive κ} {rest : List (Nat × Row)} (h : RDataReady cols s rest) :
    RDataReady cols ((rSinkCode P).call s .endOfData).2 rest ∧
      ((((rSinkCode P).call s .endOfData).1 = .ok () ∧ (rest ≠ [] → rdatas ((rSinkCode P).call s .endOfData).2.taken ≠ [])) ∨
        ((rSinkCode P).call s .endOfData).1 = .error .raised) := by
  obtain ⟨ht, st, hc, h⟩ := h
  have hcall : (rSinkCode P).call s .endOfData = s.dataCall P st .endOfData := by
    simp only [rSinkCode, hc]
  rw [hcall]
  simp only [RLive.dataCall]
  rcases h with ⟨rfl, h0⟩ | ⟨hne, hp⟩
  · rw [if_pos h0]
    exact ⟨⟨ht, st, hc, .inl ⟨rfl, h0⟩⟩, .inl ⟨rfl, fun h => absurd rfl h⟩⟩
  · rw [if_neg fun h0 => hp.some (.inr h0)]
    have hr := r_spec (P := P) { s with cpp := .data st.setValues }
      (.setData (st.setValues.heap.get st.setValues.index) st.setValues.rows)
    generalize RLive.r P { s with cpp := .data st.setValues }
      (.setData (st.setValues.heap.get st.setValues.index) st.setValues.rows) = y at *
    obtain ⟨res, s'⟩ := y
    dsimp only at hr ⊢
    obtain ⟨hcpp, ⟨h1, h2⟩ | ⟨h1, h2⟩⟩ := hr
    · refine ⟨⟨?_, _, hcpp, .inr ⟨hne, hp.again⟩⟩, .inl ⟨h1, fun _ => by rw [h2, rdatas_append]; simp [rdatas]⟩⟩
      intro d hd
      rw [h2, rdatas_append] at hd
      rcases List.mem_append.1 hd with hd | hd
      · exact ht d hd
      · simp only [rdatas, List.mem_singleton] at hd
        subst hd
        exact hp.holds
    · exact ⟨⟨by rw [h2]; exact ht, _, hcpp, .inr ⟨hne, hp.again⟩⟩, .inr h1⟩

theorem data_ready_ends {cols : List Column} : ∀ (m : Nat) {s : RLive κ} {rest : List (Nat × Row)},
    RDataReady cols s rest →
    RDataReady cols (afterCalls (rSinkCode P) s (List.replicate m .endOfData)) rest ∧
      .cpp .ub ∉ thrown (rSinkCode P) s (List.replicate m .endOfData) := by
  intro m
  induction m with
  | zero => intro s rest h; exact ⟨h, by simp [thrown]⟩
  | succ m ih =>
    intro s rest h
    have hafter : afterCalls (rSinkCode P) s (List.replicate (m + 1) .endOfData) =
        afterCalls (rSinkCode P) ((rSinkCode P).call s .endOfData).2 (List.replicate m .endOfData) := rfl
    rw [hafter, List.replicate_succ, thrown]
    obtain ⟨h1, ⟨h2, -⟩ | h2⟩ := data_ready_end (P := P) h
    · rw [h2]
      exact ih h1
    · rw [h2]
      obtain ⟨g1, g2⟩ := ih h1
      exact ⟨g1, by simpa using g2⟩

/-! ## Rows -/

theorem toRRow_ok {v : Cell} {x : Option RVal} (h : v.toRRow = .ok x) : RRowShows v x := by
  have key : ∀ {v : Cell}, (∃ z, v.toR = .ok z) → v.toRRow = .ok x → RRowShows v x := by
    intro v ⟨z, hz⟩ h
    obtain ⟨y, h1, h2⟩ := toRRow_shows (toR_shows.1 hz)
    rw [h] at h1
    cases h1
    exact h2
  cases v with
  | str s => exact key ⟨_, rfl⟩ h
  | int s => exact key ⟨_, rfl⟩ h
  | num s => exact key ⟨_, rfl⟩ h
  | datetime t =>
    cases t with
    | notADateTime => exact key ⟨_, rfl⟩ h
    | «at» n =>
      refine key ?_ h
      cases hz : (Cell.datetime (.at n)).toR with
      | ok z => exact ⟨z, rfl⟩
      | error e => simp only [Cell.toRRow, hz] at h; cases h
  | date t =>
    cases t with
    | notADate => exact key ⟨_, rfl⟩ h
    | day n =>
      refine key ?_ h
      cases hz : (Cell.date (.day n)).toR with
      | ok z => exact ⟨z, rfl⟩
      | error e => simp only [Cell.toRRow, hz] at h; cases h
  | time t =>
    cases t with
    | notADateTime => exact key ⟨_, rfl⟩ h
    | us n =>
      refine key ?_ h
      cases hz : (Cell.time (.us n)).toR with
      | ok z => exact ⟨z, rfl⟩
      | error e => simp only [Cell.toRRow, hz] at h; cases h

theorem toRRow_error {v : Cell} {e : Stop} (h : v.toRRow = .error e) : v.toR = .error e := by
  cases v with
  | str s => cases h
  | int s => cases h
  | num s => cases h
  | datetime t =>
    cases t with
    | notADateTime => cases h
    | «at» n =>
      cases hz : (Cell.datetime (.at n)).toR with
      | ok z => simp only [Cell.toRRow, hz] at h; cases h
      | error e' => simp only [Cell.toRRow, hz] at h; cases h; rfl
  | date t =>
    cases t with
    | notADate => cases h
    | day n =>
      cases hz : (Cell.date (.day n)).toR with
      | ok z => simp only [Cell.toRRow, hz] at h; cases h
      | error e' => simp only [Cell.toRRow, hz] at h; cases h; rfl
  | time t =>
    cases t with
    | notADateTime => cases h
    | us n =>
      cases hz : (Cell.time (.us n)).toR with
      | ok z => simp only [Cell.toRRow, hz] at h; cases h
      | error e' => simp only [Cell.toRRow, hz] at h; cases h; rfl

theorem value_none {c : Column} {mem : List Byte} (h : c.value mem = .ok none) : c.type = .unknown := by
  unfold Column.value at h
  cases ht : c.type with
  | unknown => rfl
  | _ =>
    simp only [ht] at h
    revert h
    simp only [bind, Except.bind, pure, Except.pure]
    split <;> intro h <;> cases h

theorem setRowT_spec {mem : List Byte} : ∀ (cols : List Column) (row : List (Option RVal)),
    List.Forall₂ (fun c x => c.type = .unknown → x = none) cols row →
    List.Forall₂ (fun c x => c.type = .unknown → x = none) cols (setRowT cols row mem).2 ∧
      ((setRowT cols row mem).1 = .ok () → List.Forall₂ (fun c x => (c.type = .unknown ∧ x = none) ∨
        ∃ v, c.value mem = .ok (some v) ∧ RRowShows v x) cols (setRowT cols row mem).2) ∧
      ((∀ c ∈ typed cols, ∃ v, c.value mem = .ok (some v) ∧ ((∃ x, RShows v x) ∨ ∃ e, v.toR = .error (.exn e))) →
        (setRowT cols row mem).1 ≠ .error .ub) := by
  intro cols row h
  induction h with
  | nil => exact ⟨.nil, fun _ => .nil, fun _ => by simp [setRowT]⟩
  | @cons c x cols row h1 h2 ih =>
    obtain ⟨i1, i2, i3⟩ := ih
    have i3' : (∀ d ∈ typed (c :: cols), ∃ v, d.value mem = .ok (some v) ∧ ((∃ x, RShows v x) ∨ ∃ e, v.toR = .error (.exn e))) →
        (setRowT cols row mem).1 ≠ .error .ub := fun hr => i3 fun d hd => hr d (by
      unfold typed at hd ⊢
      rw [List.filter_cons]
      split
      · exact List.mem_cons_of_mem _ hd
      · exact hd)
    rw [setRowT]
    cases hv : c.value mem with
    | error e =>
      simp only [bind, Except.bind]
      refine ⟨.cons h1 h2, fun h => (nomatch h), fun hr => ?_⟩
      have hty : c.type ≠ .unknown := by
        intro hu
        rw [show c.value mem = .ok none by unfold Column.value; rw [hu]] at hv
        cases hv
      obtain ⟨v, k1, -⟩ := hr c (by unfold typed; rw [List.filter_cons_of_pos (by simp [hty])]; simp)
      rw [hv] at k1
      cases k1
    | ok o =>
      cases o with
      | none =>
        have hu := value_none hv
        simp only [bind, Except.bind, pure, Except.pure]
        exact ⟨.cons h1 i1, fun h => .cons (.inl ⟨hu, h1 hu⟩) (i2 h), i3'⟩
      | some v =>
        have hty : c.type ≠ .unknown := by
          intro hu
          rw [show c.value mem = .ok none by unfold Column.value; rw [hu]] at hv
          cases hv
        simp only [bind, Except.bind]
        cases hx : v.toRRow with
        | error e =>
          refine ⟨.cons h1 h2, fun h => (nomatch h), fun hr => ?_⟩
          obtain ⟨v', k1, k2⟩ := hr c (by unfold typed; rw [List.filter_cons_of_pos (by simp [hty])]; simp)
          rw [hv] at k1
          cases k1
          have := toRRow_error hx
          rcases k2 with ⟨z, k2⟩ | ⟨e', k2⟩
          · rw [toR_shows.2 k2] at this; cases this
          · rw [this] at k2; cases k2; simp
        | ok y =>
          exact ⟨.cons (fun h => absurd h hty) i1, fun h => .cons (.inr ⟨v, hv, toRRow_ok hx⟩) (i2 h), i3'⟩

/-- A row sink: every row is taken, or throws. -/
theorem row_events {cols : List Column} : ∀ (es : List Event) (s : RLive κ) (row : List (Option RVal)) (kept : List (Nat × Row)),
    (∀ p, .setProperties p ∉ es) → s.cpp = .row { columns := cols, row := row } →
    List.Forall₂ (fun c x => c.type = .unknown → x = none) cols row → RRowsAre cols (rrows s.taken) kept →
    ∃ new, List.Sublist new (pushes es) ∧
      RRowsAre cols (rrows (afterCalls (rSinkCode P) s es).taken) (kept ++ new) ∧
      (pushes es).length = new.length + (thrown (rSinkCode P) s es).length ∧
      (RSafe cols (pushes es) → .cpp .ub ∉ thrown (rSinkCode P) s es) := by
  intro es
  induction es with
  | nil => intro s row kept _ _ _ hk; exact ⟨[], .slnil, by simpa [afterCalls] using hk, rfl, fun _ => by simp [thrown]⟩
  | cons e es ih =>
    intro s row kept hp hc hrow hk
    have hp' : ∀ p, Event.setProperties p ∉ es := fun p h => hp p (by simp [h])
    have hafter : afterCalls (rSinkCode P) s (e :: es) = afterCalls (rSinkCode P) ((rSinkCode P).call s e).2 es := rfl
    rw [hafter, thrown]
    cases e with
    | setProperties p => exact absurd (by simp) (hp p)
    | endOfData =>
      have hcall : (rSinkCode P).call s .endOfData = (.ok (), s) := by simp only [rSinkCode, hc, RLive.rowCall]
      rw [hcall]
      exact ih s row kept hp' hc hrow hk
    | pushRow i r =>
      have hcall : (rSinkCode P).call s (.pushRow i r) = s.rowCall P { columns := cols, row := row } (.pushRow i r) := by
        simp only [rSinkCode, hc]
      rw [hcall]
      simp only [RLive.rowCall]
      obtain ⟨t1, t2, t3⟩ := setRowT_spec (mem := r.mem) cols row hrow
      have hsafe : RSafe cols ((i, r) :: pushes es) → RSafe cols (pushes es) ∧ (setRowT cols row r.mem).1 ≠ .error .ub :=
        fun h => ⟨fun c hc y hy => h c hc y (by simp [hy]), t3 fun c hc => h c hc (i, r) (by simp)⟩
      generalize setRowT cols row r.mem = y at *
      obtain ⟨(e | u), row'⟩ := y
      · dsimp only at *
        obtain ⟨new, g1, g2, g3, g4⟩ := ih { s with cpp := .row { columns := cols, row := row' } } row' kept hp' rfl t1 hk
        refine ⟨new, g1.cons _, g2, by simp [pushes, g3, Nat.add_assoc], fun h => ?_⟩
        obtain ⟨h1, h2⟩ := hsafe h
        have := g4 h1
        rw [List.mem_cons]
        rintro (h | h)
        · cases h; exact h2 rfl
        · exact this h
      · dsimp only at *
        have hr := r_spec (P := P) { s with cpp := .row { columns := cols, row := row' } } (.pushRow i row')
        generalize RLive.r P { s with cpp := .row { columns := cols, row := row' } } (.pushRow i row') = y at *
        obtain ⟨res, s'⟩ := y
        dsimp only at hr ⊢
        obtain ⟨hcpp, ⟨h1, h2⟩ | ⟨h1, h2⟩⟩ := hr
        · have hk' : RRowsAre cols (rrows s'.taken) (kept ++ [(i, r)]) := by
            rw [h2, rrows_append]
            exact List.rel_append hk (.cons ⟨rfl, t2 rfl⟩ .nil)
          obtain ⟨new, g1, g2, g3, g4⟩ := ih s' row' (kept ++ [(i, r)]) hp' hcpp t1 hk'
          rw [h1]
          exact ⟨(i, r) :: new, g1.cons_cons _, by simpa using g2, by simp [pushes, g3]; omega, fun h => g4 (hsafe h).1⟩
        · obtain ⟨new, g1, g2, g3, g4⟩ := ih s' row' kept hp' hcpp t1 (by rw [h2]; exact hk)
          rw [h1]
          exact ⟨new, g1.cons _, g2, by simp [pushes, g3, Nat.add_assoc], fun h => by simpa using g4 (hsafe h).1⟩

end Sas
