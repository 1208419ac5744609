import Verif.Proofs.PySinks

/-! # The R sinks -/

namespace Sas
open Spec

theorem toR_shows {c : Cell} {x : RVal} : c.toR = .ok x ↔ RShows c x := by
  cases c with
  | str s => simp [Cell.toR, RShows, cString, upToZero, eq_comm]
  | int s => simp [Cell.toR, RShows, eq_comm]
  | num s => simp [Cell.toR, RShows, eq_comm]
  | datetime t =>
    cases t with
    | notADateTime => simp [Cell.toR, RShows, eq_comm]
    | «at» n =>
      simp only [Cell.toR, RShows]
      generalize (DateTime.at n).toText = y
      cases y <;> simp [bind, Except.bind, pure, Except.pure, eq_comm]
  | date t =>
    cases t with
    | notADate => simp [Cell.toR, RShows, eq_comm]
    | day n =>
      simp only [Cell.toR, RShows]
      generalize (Date.day n).toText = y
      cases y <;> simp [bind, Except.bind, pure, Except.pure, eq_comm]
  | time t =>
    cases t with
    | notADateTime => simp [Cell.toR, RShows, eq_comm]
    | us n =>
      simp only [Cell.toR, RShows]
      generalize (Duration.us n).toText = y
      cases y <;> simp [bind, Except.bind, pure, Except.pure, eq_comm]

theorem asInt_small {n : Nat} (h : n < 2 ^ 31) : asInt n = n := by
  unfold asInt toSigned
  have : n % 2 ^ 32 = n := Nat.mod_eq_of_lt (by omega)
  rw [this]
  simp only [Nat.reduceSub]
  split <;> omega

/-! ## Heap -/

theorem RHeap.get_set_same {h : RHeap} {v : Nat} {l : List RVal} (hv : v < h.length) :
    RHeap.get (h.set v l) v = l := by
  simp [RHeap.get, hv]

theorem RHeap.get_set_ne {h : RHeap} {v u : Nat} {l : List RVal} (hv : u ≠ v) :
    RHeap.get (h.set v l) u = h.get u := by
  simp [RHeap.get, List.getD, List.getElem?_set_ne (Ne.symm hv)]

theorem RHeap.get_append {h k : RHeap} {v : Nat} (hv : v < h.length) :
    RHeap.get (h ++ k) v = h.get v := by
  simp [RHeap.get, List.getD, List.getElem?_append_left hv]

theorem writeAll_spec {idata : Nat} {mem : List Byte} : ∀ (gs : List GroupedColumn) (vs : List Nat) (h : RHeap),
    vs.length = gs.length → vs.Nodup → (∀ v ∈ vs, v < h.length) → (∀ v ∈ vs, idata < (h.get v).length) →
    (∀ g ∈ gs, ∃ c x, g.2 g.1 mem = .ok c ∧ c.toR = .ok x) →
    ∃ h', writeAll idata mem gs vs h = .ok h' ∧ h'.length = h.length ∧ (∀ u, u ∉ vs → h'.get u = h.get u) ∧
      List.Forall₂ (fun (g : GroupedColumn) v => ∃ c x, g.2 g.1 mem = .ok c ∧ c.toR = .ok x ∧
        h'.get v = (h.get v).set idata x) gs vs := by
  intro gs
  induction gs with
  | nil =>
    intro vs h hl _ _ _ _
    cases vs with
    | nil => exact ⟨h, rfl, rfl, fun _ _ => rfl, .nil⟩
    | cons v vs => simp at hl
  | cons g gs ih =>
    intro vs h hl hn hv hi hr
    cases vs with
    | nil => simp at hl
    | cons v vs =>
      obtain ⟨c, x, hc, hx⟩ := hr g (by simp)
      simp only [List.nodup_cons] at hn
      have hw : h.write v idata x = .ok (h.set v ((h.get v).set idata x)) := by
        unfold RHeap.write
        rw [if_pos (hi v (by simp))]
      have hne : ∀ u ∈ vs, u ≠ v := fun u hu he => hn.1 (he ▸ hu)
      obtain ⟨h', i1, i2, i3, i4⟩ := ih vs (h.set v ((h.get v).set idata x)) (by simpa using hl) hn.2
        (fun u hu => by simpa using hv u (by simp [hu]))
        (fun u hu => by rw [RHeap.get_set_ne (hne u hu)]; exact hi u (by simp [hu]))
        (fun g hg => hr g (by simp [hg]))
      refine ⟨h', ?_, by simpa using i2, ?_, .cons ⟨c, x, hc, hx, ?_⟩ ?_⟩
      · unfold writeAll
        simp only [hc, hx, hw, bind, Except.bind]
        exact i1
      · intro u hu
        simp only [List.mem_cons, not_or] at hu
        rw [i3 u hu.2, RHeap.get_set_ne hu.1]
      · rw [i3 v hn.1, RHeap.get_set_same (hv v (by simp))]
      · have : ∀ {gs : List GroupedColumn} {us : List Nat}, (∀ u ∈ us, u ≠ v) →
            List.Forall₂ (fun (g : GroupedColumn) w => ∃ c y, g.2 g.1 mem = .ok c ∧ c.toR = .ok y ∧
              h'.get w = (RHeap.get (h.set v ((h.get v).set idata x)) w).set idata y) gs us →
            List.Forall₂ (fun (g : GroupedColumn) w => ∃ c y, g.2 g.1 mem = .ok c ∧ c.toR = .ok y ∧
              h'.get w = (h.get w).set idata y) gs us := by
          intro gs us hne hf
          induction hf with
          | nil => exact .nil
          | @cons a b as bs h1 h2 ih =>
            refine .cons ?_ (ih fun u hu => hne u (by simp [hu]))
            obtain ⟨c, y, k1, k2, k3⟩ := h1
            refine ⟨c, y, k1, k2, ?_⟩
            rw [k3, RHeap.get_set_ne (hne b (by simp))]
        exact this hne i4

theorem fit_spec {n v : Nat} {h : RHeap} (hv : v < h.length) :
    ∃ k, (fit n v h).1 = h ++ k ∧ (fit n v h).2 < (fit n v h).1.length ∧
      (fit n v h).1.get (fit n v h).2 = (h.get v).take n ∧ ((h.get v).length = n → fit n v h = (h, v)) := by
  unfold fit
  split
  · rename_i hne
    refine ⟨[(h.get v).take n], rfl, by simp, ?_, fun he => absurd he hne⟩
    simp [RHeap.get, List.getD]
  · rename_i he
    have he : (h.get v).length = n := by simpa using he
    exact ⟨[], by simp, hv, by rw [← he, List.take_length], fun _ => rfl⟩

theorem fitAll_spec {n : Nat} : ∀ (vs : List Nat) (h : RHeap), (∀ v ∈ vs, v < h.length) →
    ∃ k, (fitAll n vs h).1 = h ++ k ∧ List.Forall₂ (fun v w => w < (fitAll n vs h).1.length ∧
      (fitAll n vs h).1.get w = (h.get v).take n) vs (fitAll n vs h).2 := by
  intro vs
  induction vs with
  | nil => intro h _; exact ⟨[], by simp [fitAll], .nil⟩
  | cons v vs ih =>
    intro h hv
    obtain ⟨k, h1, h2, h3, -⟩ := fit_spec (n := n) (hv v (by simp))
    have hv' : ∀ u ∈ vs, u < (fit n v h).1.length := fun u hu => by
      rw [h1, List.length_append]
      have := hv u (by simp [hu])
      omega
    obtain ⟨k', i1, i2⟩ := ih (fit n v h).1 hv'
    have e1 : (fitAll n (v :: vs) h).1 = (fitAll n vs (fit n v h).1).1 := rfl
    have e2 : (fitAll n (v :: vs) h).2 = (fit n v h).2 :: (fitAll n vs (fit n v h).1).2 := rfl
    rw [e1, e2]
    refine ⟨k ++ k', by rw [i1, h1, List.append_assoc], .cons ⟨?_, ?_⟩ ?_⟩
    · rw [i1, List.length_append]; omega
    · rw [i1, RHeap.get_append h2, h3]
    · have : ∀ {us ws : List Nat}, (∀ u ∈ us, u < h.length) →
          List.Forall₂ (fun v' w => w < (fitAll n vs (fit n v h).1).1.length ∧
            (fitAll n vs (fit n v h).1).1.get w = ((fit n v h).1.get v').take n) us ws →
          List.Forall₂ (fun v' w => w < (fitAll n vs (fit n v h).1).1.length ∧
            (fitAll n vs (fit n v h).1).1.get w = (h.get v').take n) us ws := by
        intro us ws hu hf
        induction hf with
        | nil => exact .nil
        | @cons a b as bs g1 g2 ih =>
          refine .cons ⟨g1.1, ?_⟩ (ih fun u hu' => hu u (by simp [hu']))
          rw [g1.2, h1, RHeap.get_append (hu a (by simp))]
      exact this (fun u hu => hv u (by simp [hu])) i2

theorem forall₂_mem_right {α β : Type} {P : α → β → Prop} {as : List α} {bs : List β}
    (h : List.Forall₂ P as bs) {b : β} (hb : b ∈ bs) : ∃ a, a ∈ as ∧ P a b := by
  induction h with
  | nil => cases hb
  | @cons a c as bs h1 h2 ih =>
    rcases List.mem_cons.1 hb with rfl | hb
    · exact ⟨a, by simp, h1⟩
    · obtain ⟨x, hx, hp⟩ := ih hb
      exact ⟨x, by simp [hx], hp⟩

/-! ## Invariant -/

/-- A vector's first elements are the values of a column in the rows `rest`. -/
def RStored (rest : List (Nat × Row)) (g : GroupedColumn) (l : List RVal) : Prop :=
  List.Forall₂ (fun r x => ∃ c, g.2 g.1 r.2.mem = .ok c ∧ c.toR = .ok x) rest l

/-- The state of a sink by columns that holds the rows `rest`, with room for more. -/
structure RInv (cols : List Column) (size ilast : Nat) (st : RCols) (rest : List (Nat × Row)) : Prop where
  sizeEq : st.size = size
  ilastEq : st.ilast = ilast
  cols : st.cols = (Columns.ofColumns cols).grouped
  idata : st.idata = rest.length
  len : st.vecs.length = st.cols.length
  valid : ∀ v ∈ st.index :: st.vecs, v < st.heap.length
  nodup : (st.index :: st.vecs).Nodup
  cap : ∃ cap, (∀ v ∈ st.index :: st.vecs, (st.heap.get v).length = cap) ∧ rest.length ≤ cap ∧
    (0 < size → cap ≤ size) ∧ ((0 < size ∧ cap = size) ∨ ilast ≤ st.istart + cap)
  index : (st.heap.get st.index).take st.idata = rest.map fun r => .int r.1
  stored : List.Forall₂ (fun g v => RStored rest g ((st.heap.get v).take st.idata)) st.cols st.vecs
  sorted : (rest.map Prod.fst).Pairwise (· < ·)
  low : ∀ r ∈ rest, st.istart ≤ r.1

theorem take_set_succ {α : Type} (l : List α) (n : Nat) (x : α) (h : n < l.length) :
    (l.set n x).take (n + 1) = l.take n ++ [x] := by
  rw [List.take_add_one, List.take_set_of_le (Nat.le_refl n)]
  simp [h]

theorem sorted_length : ∀ (l : List Nat) (a b : Nat), l.Pairwise (· < ·) → (∀ x ∈ l, a ≤ x ∧ x < b) → a ≤ b →
    a + l.length ≤ b := by
  intro l
  induction l with
  | nil => intro a b _ _ h; simpa using h
  | cons x l ih =>
    intro a b hp hx hab
    rw [List.pairwise_cons] at hp
    have h1 := hx x (by simp)
    have := ih (x + 1) b hp.2 (fun y hy => ⟨hp.1 y hy, (hx y (by simp [hy])).2⟩) h1.2
    simp only [List.length_cons]
    omega

theorem RInv.store {cols : List Column} {size ilast : Nat} {st : RCols} {rest : List (Nat × Row)}
    (h : RInv cols size ilast st rest) {i : Nat} {r : Row} (hr : RReadable cols [(i, r)]) (hi : i < ilast)
    (h31 : ilast ≤ 2 ^ 31) (hlow : st.istart ≤ i) (habove : ∀ x ∈ rest, x.1 < i)
    (hs : 0 < size → rest.length < size) :
    ∃ st', st.store i r = .ok st' ∧ RInv cols size ilast { st' with iend := i } (rest ++ [(i, r)]) ∧
      st'.istart = st.istart ∧ st'.iend = st.iend := by
  obtain ⟨cap, c1, c2, c3, c4⟩ := h.cap
  have hroom : st.idata < cap := by
    rw [h.idata]
    rcases c4 with ⟨h0, rfl⟩ | c4
    · exact hs h0
    · have := sorted_length (rest.map Prod.fst) st.istart i h.sorted
        (fun x hx => by obtain ⟨y, hy, rfl⟩ := List.mem_map.1 hx; exact ⟨h.low y hy, habove y hy⟩) hlow
      rw [List.length_map] at this
      omega
  have hidx : st.index < st.heap.length := h.valid _ (by simp)
  have hn := h.nodup
  rw [List.nodup_cons] at hn
  let h1 : RHeap := st.heap.set st.index ((st.heap.get st.index).set st.idata (.int i))
  have hw : st.heap.write st.index st.idata (.int (asInt i)) = .ok h1 := by
    unfold RHeap.write
    rw [if_pos (by rw [c1 _ (by simp)]; exact hroom), asInt_small (by omega)]
  have hne : ∀ v ∈ st.vecs, v ≠ st.index := fun v hv he => hn.1 (he ▸ hv)
  have hget1 : ∀ v ∈ st.vecs, RHeap.get h1 v = st.heap.get v := fun v hv => RHeap.get_set_ne (hne v hv)
  obtain ⟨h2, w1, w2, w3, w4⟩ := writeAll_spec (idata := st.idata) (mem := r.mem) st.cols st.vecs h1 h.len hn.2
    (fun v hv => by simpa [h1] using h.valid v (by simp [hv]))
    (fun v hv => by rw [hget1 v hv, c1 v (by simp [hv])]; exact hroom)
    (fun g hg => by
      rw [h.cols] at hg
      obtain ⟨v, x, k1, k2⟩ := hr g.1 (grouped_value hg).1 (i, r) (by simp)
      exact ⟨v, x, grouped_read hg k1, toR_shows.2 k2⟩)
  have hgi : h2.get st.index = (st.heap.get st.index).set st.idata (.int i) := by
    rw [w3 _ hn.1]
    exact RHeap.get_set_same hidx
  have hgv : List.Forall₂ (fun (g : GroupedColumn) v => ∃ c x, g.2 g.1 r.mem = .ok c ∧ c.toR = .ok x ∧
      h2.get v = (st.heap.get v).set st.idata x) st.cols st.vecs := by
    have : ∀ {gs : List GroupedColumn} {us : List Nat}, (∀ u ∈ us, u ∈ st.vecs) →
        List.Forall₂ (fun (g : GroupedColumn) v => ∃ c x, g.2 g.1 r.mem = .ok c ∧ c.toR = .ok x ∧
          h2.get v = (RHeap.get h1 v).set st.idata x) gs us →
        List.Forall₂ (fun (g : GroupedColumn) v => ∃ c x, g.2 g.1 r.mem = .ok c ∧ c.toR = .ok x ∧
          h2.get v = (st.heap.get v).set st.idata x) gs us := by
      intro gs us hu hf
      induction hf with
      | nil => exact .nil
      | @cons a b as bs g1 g2 ih =>
        obtain ⟨c, x, k1, k2, k3⟩ := g1
        exact .cons ⟨c, x, k1, k2, by rw [k3, hget1 b (hu b (by simp))]⟩ (ih fun u hu' => hu u (by simp [hu']))
    exact this (fun u hu => hu) w4
  have hlen : ∀ v ∈ st.index :: st.vecs, (h2.get v).length = cap := by
    intro v hv
    rcases List.mem_cons.1 hv with rfl | hv
    · rw [hgi, List.length_set, c1 _ (by simp)]
    · obtain ⟨g, -, c, x, -, -, k3⟩ := forall₂_mem_right hgv hv
      rw [k3, List.length_set, c1 v (by simp [hv])]
  refine ⟨{ st with heap := h2, idata := st.idata + 1 }, ?_, ?_, rfl, rfl⟩
  · unfold RCols.store
    simp only [hw, w1, bind, Except.bind, pure, Except.pure]
  · refine ⟨h.sizeEq, h.ilastEq, h.cols, by simp [h.idata], h.len, ?_, h.nodup, ?_, ?_, ?_, ?_, ?_⟩
    · intro v hv
      have := h.valid v hv
      simp only [w2, h1, List.length_set]
      exact this
    · refine ⟨cap, hlen, ?_, c3, c4⟩
      rw [List.length_append, List.length_singleton, ← h.idata]
      exact hroom
    · show (h2.get st.index).take (st.idata + 1) = _
      rw [hgi, take_set_succ _ _ _ (by rw [c1 _ (by simp)]; exact hroom), h.index]
      simp
    · show List.Forall₂ (fun g v => RStored (rest ++ [(i, r)]) g ((h2.get v).take (st.idata + 1))) st.cols st.vecs
      have : ∀ {gs : List GroupedColumn} {us : List Nat}, (∀ u ∈ us, u ∈ st.vecs) →
          List.Forall₂ (fun (g : GroupedColumn) v => ∃ c x, g.2 g.1 r.mem = .ok c ∧ c.toR = .ok x ∧
            h2.get v = (st.heap.get v).set st.idata x) gs us →
          List.Forall₂ (fun g v => RStored rest g ((st.heap.get v).take st.idata)) gs us →
          List.Forall₂ (fun g v => RStored (rest ++ [(i, r)]) g ((h2.get v).take (st.idata + 1))) gs us := by
        intro gs us hu hf hg
        induction hf with
        | nil => exact .nil
        | @cons a b as bs g1 g2 ih =>
          cases hg with
          | cons k1 k2 =>
            refine .cons ?_ (ih (fun u hu' => hu u (by simp [hu'])) k2)
            obtain ⟨c, x, m1, m2, m3⟩ := g1
            rw [m3, take_set_succ _ _ _ (by rw [c1 b (by simp [hu b])]; exact hroom)]
            exact List.rel_append k1 (.cons ⟨c, m1, m2⟩ .nil)
      exact this (fun u hu => hu) hgv h.stored
    · rw [List.map_append, List.pairwise_append]
      refine ⟨h.sorted, by simp, ?_⟩
      intro a ha b hb
      obtain ⟨y, hy, rfl⟩ := List.mem_map.1 ha
      simp only [List.map_cons, List.map_nil, List.mem_singleton] at hb
      subst hb
      exact habove y hy
    · intro x hx
      rcases List.mem_append.1 hx with hx | hx
      · exact h.low x hx
      · simp only [List.mem_singleton] at hx
        subst hx
        exact hlow

theorem fitAll_same {n : Nat} {h : RHeap} : ∀ (vs : List Nat), (∀ v ∈ vs, (h.get v).length = n) →
    fitAll n vs h = (h, vs) := by
  intro vs
  induction vs with
  | nil => intro _; rfl
  | cons v vs ih =>
    intro hv
    have h1 : fit n v h = (h, v) := by
      unfold fit
      rw [if_neg (by simpa using hv v (by simp))]
    simp only [fitAll, h1, ih fun u hu => hv u (by simp [hu])]

theorem getColumns_filter (cs : List Column) (t : ColType) : getColumns cs t = cs.filter fun c => c.type = t := by
  induction cs with
  | nil => rfl
  | cons a cs ih =>
    unfold getColumns
    by_cases h : a.type = t
    · rw [if_pos h, List.filter_cons_of_pos (by simp [h]), ih]
    · rw [if_neg h, List.filter_cons_of_neg (by simp [h]), ih]

theorem grouped_byType (cols : List Column) : (Columns.ofColumns cols).grouped.map Prod.fst = byType cols := by
  unfold Columns.grouped Columns.ofColumns byType
  simp [getColumns_filter, List.map_append, Function.comp_def]

/-- After `set_values` the index and the list hold the rows. -/
theorem RInv.holds {cols : List Column} {size ilast : Nat} {st : RCols} {rest : List (Nat × Row)}
    (h : RInv cols size ilast st rest) :
    RHolds cols rest (st.setValues.heap.get st.setValues.index) st.setValues.rows := by
  obtain ⟨k, f1, f2, f3, -⟩ := fit_spec (n := st.idata) (h.valid st.index (by simp))
  have hv : ∀ v ∈ st.vecs, v < (fit st.idata st.index st.heap).1.length := fun v hv => by
    rw [f1, List.length_append]
    have := h.valid v (by simp [hv])
    omega
  obtain ⟨k', g1, g2⟩ := fitAll_spec (n := st.idata) st.vecs _ hv
  constructor
  · show (fitAll st.idata st.vecs (fit st.idata st.index st.heap).1).1.get (fit st.idata st.index st.heap).2 = _
    rw [g1, RHeap.get_append f2, f3, h.index]
  · rw [← grouped_byType, ← h.cols, List.forall₂_map_left_iff]
    show List.Forall₂ _ st.cols ((st.cols.zip (fitAll st.idata st.vecs (fit st.idata st.index st.heap).1).2).map _)
    rw [List.forall₂_map_right_iff]
    have key : ∀ {gs : List GroupedColumn} {us ws : List Nat}, (∀ g ∈ gs, g ∈ (Columns.ofColumns cols).grouped) →
        (∀ u ∈ us, u ∈ st.vecs) →
        List.Forall₂ (fun g v => RStored rest g ((st.heap.get v).take st.idata)) gs us →
        List.Forall₂ (fun v w => w < (fitAll st.idata st.vecs (fit st.idata st.index st.heap).1).1.length ∧
          (fitAll st.idata st.vecs (fit st.idata st.index st.heap).1).1.get w =
            ((fit st.idata st.index st.heap).1.get v).take st.idata) us ws →
        List.Forall₂ (fun (c : GroupedColumn) (d : GroupedColumn × Nat) => cString d.1.1.name = upToZero c.1.name ∧
          List.Forall₂ (fun r x => ∃ v, c.1.value r.2.mem = .ok (some v) ∧ RShows v x) rest
            ((fitAll st.idata st.vecs (fit st.idata st.index st.heap).1).1.get d.2)) gs (gs.zip ws) := by
      intro gs us ws hg hu hf
      induction hf generalizing ws with
      | nil => intro hw; cases hw; exact .nil
      | @cons a b as bs h1 h2 ih =>
        intro hw
        cases hw with
        | @cons _ w _ ws k1 k2 =>
          refine .cons ⟨rfl, ?_⟩ (ih (fun g hg' => hg g (by simp [hg'])) (fun u hu' => hu u (by simp [hu'])) k2)
          show List.Forall₂ _ rest (RHeap.get _ w)
          rw [k1.2, f1, RHeap.get_append (h.valid b (by simp [hu b]))]
          refine h1.imp ?_
          rintro r x ⟨c, m1, m2⟩
          refine ⟨c, ?_, toR_shows.1 m2⟩
          rw [(grouped_value (hg a (by simp))).2, m1]
          rfl
    exact key (fun g hg => by rw [← h.cols]; exact hg) (fun u hu => hu) h.stored g2

theorem RInv.flush {cols : List Column} {size ilast : Nat} {st : RCols} {rest : List (Nat × Row)}
    (h : RInv cols size ilast st rest) (hr : rest ≠ []) (hl : ∀ x, rest.getLast? = some x → st.iend = x.1) :
    ∃ idx rows, st.flush = ({ st.setValues with idata := 0, istart := st.iend + 1 }, [.pushRows idx rows]) ∧
      RHolds cols rest idx rows := by
  refine ⟨_, _, ?_, h.holds⟩
  unfold RCols.flush
  rw [if_neg]
  · rfl
  · obtain ⟨x, hx⟩ : ∃ x, rest.getLast? = some x := ⟨_, List.getLast?_eq_some_getLast hr⟩
    have h1 := h.low x (List.mem_of_getLast? hx)
    have h2 := hl x hx
    have h3 : 0 < rest.length := List.length_pos_iff.2 hr
    rw [h.idata]
    omega

theorem RInv.flush_nil {cols : List Column} {size ilast : Nat} {st : RCols} (h : RInv cols size ilast st []) :
    st.flush = (st, []) := by
  unfold RCols.flush
  rw [if_pos]
  right
  rw [h.idata]
  rfl

/-- A full chunk is handed over without copying, and the vectors are used again. -/
theorem RInv.reuse {cols : List Column} {size ilast : Nat} {st : RCols} {rest : List (Nat × Row)} {i : Nat}
    (h : RInv cols size ilast st rest) (hr : rest ≠ []) (hs : rest.length = size) :
    RInv cols size ilast { st.setValues with idata := 0, istart := i + 1 } [] := by
  obtain ⟨cap, c1, c2, c3, c4⟩ := h.cap
  have h0 : 0 < size := by rw [← hs]; exact List.length_pos_iff.2 hr
  have hc : cap = size := by have := c3 h0; omega
  have hd : st.idata = cap := by rw [h.idata, hs, hc]
  have e : st.setValues = { st with list := st.vecs } := by
    unfold RCols.setValues
    have f1 : fit st.idata st.index st.heap = (st.heap, st.index) := by
      unfold fit
      rw [if_neg (by simpa [hd] using c1 st.index (by simp))]
    rw [f1]
    simp only
    rw [fitAll_same st.vecs fun v hv => by rw [c1 v (by simp [hv]), hd]]
  rw [e]
  refine ⟨h.sizeEq, h.ilastEq, h.cols, rfl, h.len, h.valid, h.nodup, ⟨cap, c1, by simp, c3, .inl ⟨h0, hc⟩⟩, ?_, ?_,
    by simp, by simp⟩
  · simp
  · show List.Forall₂ (fun g v => RStored [] g ((st.heap.get v).take 0)) st.cols st.vecs
    have : ∀ {gs : List GroupedColumn} {us : List Nat},
        List.Forall₂ (fun g v => RStored rest g ((st.heap.get v).take st.idata)) gs us →
        List.Forall₂ (fun g v => RStored [] g ((st.heap.get v).take 0)) gs us := by
      intro gs us hf
      induction hf with
      | nil => exact .nil
      | cons _ _ ih => exact .cons (by rw [List.take_zero]; exact .nil) ih
    exact this h.stored

/-- New vectors. -/
theorem RInv.prepare {cols : List Column} {size ilast n : Nat} {st : RCols} (h1 : st.size = size)
    (h2 : st.ilast = ilast) (h3 : st.cols = (Columns.ofColumns cols).grouped) (h4 : st.idata = 0)
    (h5 : 0 < size → n ≤ size) (h6 : (0 < size ∧ n = size) ∨ ilast ≤ st.istart + n) :
    RInv cols size ilast (st.prepare n) [] := by
  have hget : ∀ v ∈ (st.prepare n).index :: (st.prepare n).vecs,
      v < (st.prepare n).heap.length ∧ (st.prepare n).heap.get v = List.replicate n .fresh := by
    intro v hv
    simp only [RCols.prepare, List.mem_cons, List.mem_range'_1] at hv
    have hb : st.heap.length ≤ v ∧ v < st.heap.length + (st.cols.length + 1) := by omega
    constructor
    · simp only [RCols.prepare, List.length_append, List.length_replicate]; omega
    · simp only [RCols.prepare, RHeap.get, List.getD]
      rw [List.getElem?_append_right hb.1, List.getElem?_replicate, if_pos (by omega)]
      rfl
  refine ⟨h1, h2, h3, h4, by simp [RCols.prepare], fun v hv => (hget v hv).1, ?_, ⟨n, ?_, by simp, h5, h6⟩, ?_, ?_,
    by simp, by simp⟩
  · simp only [RCols.prepare, List.nodup_cons]
    refine ⟨?_, List.nodup_range'⟩
    rw [List.mem_range'_1]
    omega
  · intro v hv
    rw [(hget v hv).2, List.length_replicate]
  · show List.take st.idata _ = _
    rw [h4]
    rfl
  · have hd : (st.prepare n).idata = 0 := h4
    rw [hd]
    have : ∀ (gs : List GroupedColumn) (s : Nat) (hp : RHeap),
        List.Forall₂ (fun g v => RStored [] g ((hp.get v).take 0)) gs (List.range' s gs.length) := by
      intro gs
      induction gs with
      | nil => intro s hp; exact .nil
      | cons g gs ih =>
        intro s hp
        rw [List.length_cons, List.range'_succ]
        exact .cons (by rw [List.take_zero]; exact .nil) (ih (s + 1) hp)
    exact this _ _ _

theorem runR_cons {τ : Type} {step : τ → Event → Res (τ × List RCall)} {st st1 st2 : τ} {ev : Event}
    {evs : List Event} {o1 o2 : List RCall} (h1 : step st ev = .ok (st1, o1))
    (h2 : runR step st1 evs = .ok (st2, o2)) : runR step st (ev :: evs) = .ok (st2, o1 ++ o2) := by
  unfold runR
  rw [h1]
  show (do let (st, out') ← runR step st1 evs; return (st, o1 ++ out')) = _
  rw [h2]
  rfl

theorem runR_append {τ : Type} {step : τ → Event → Res (τ × List RCall)} {st1 st2 : τ}
    {b : List Event} {o2 : List RCall} : ∀ (a : List Event) (st : τ) (o1 : List RCall),
    runR step st a = .ok (st1, o1) → runR step st1 b = .ok (st2, o2) →
    runR step st (a ++ b) = .ok (st2, o1 ++ o2) := by
  intro a
  induction a with
  | nil =>
    intro st o1 h1 h2
    simp only [runR, Except.ok.injEq, Prod.mk.injEq] at h1
    rw [← h1.2, h1.1]
    simpa using h2
  | cons e a ih =>
    intro st o1 h1 h2
    unfold runR at h1
    cases hs : step st e with
    | error x => rw [hs] at h1; simp [bind, Except.bind] at h1
    | ok x =>
      obtain ⟨s, o⟩ := x
      rw [hs] at h1
      simp only [bind, Except.bind] at h1
      cases hr : runR step s a with
      | error x => rw [hr] at h1; simp at h1
      | ok y =>
        obtain ⟨s', o'⟩ := y
        rw [hr] at h1
        simp only [pure, Except.pure, Except.ok.injEq, Prod.mk.injEq] at h1
        obtain ⟨rfl, rfl⟩ := h1
        rw [List.cons_append, List.append_assoc]
        exact runR_cons hs (ih s o' hr h2)

/-- Delivered chunks against groups of rows. -/
def RChunks (cols : List Column) (out : List RCall) (parts : List (List (Nat × Row))) : Prop :=
  List.Forall₂ (fun c q => ∃ idx rows, c = .pushRows idx rows ∧ RHolds cols q idx rows) out parts

theorem rchunk_rows {cols : List Column} {size ilast : Nat} (h31 : ilast ≤ 2 ^ 31) :
    ∀ (rows : List (Nat × Row)) (st : RCols) (rest : List (Nat × Row)), RInv cols size ilast st rest →
      (∀ x, rest.getLast? = some x → st.iend = x.1) → (0 < size → rest.length < size) → RReadable cols rows →
      ((rest ++ rows).map Prod.fst).Pairwise (· < ·) → (∀ r ∈ rows, st.istart ≤ r.1 ∧ r.1 < ilast) →
      ∃ st' out parts rest', runR RCols.step st (rows.map fun r => .pushRow r.1 r.2) = .ok (st', out)
        ∧ RInv cols size ilast st' rest' ∧ (∀ x, rest'.getLast? = some x → st'.iend = x.1)
        ∧ parts.flatten ++ rest' = rest ++ rows ∧ RChunks cols out parts
        ∧ (∀ q ∈ parts, q ≠ [] ∧ q.length = size) ∧ (0 < size → rest'.length < size) := by
  intro rows
  induction rows with
  | nil =>
    intro st rest hi hl hs _ _ _
    exact ⟨st, [], [], rest, rfl, hi, hl, by simp, .nil, by simp, hs⟩
  | cons x rows ih =>
    intro st rest hi hl hs hread hp hb
    obtain ⟨i, r⟩ := x
    have hbi := hb (i, r) (by simp)
    have hp1 := hp
    rw [List.map_append, List.pairwise_append] at hp
    have habove : ∀ x ∈ rest, x.1 < i := fun x hx =>
      hp.2.2 x.1 (List.mem_map.2 ⟨x, hx, rfl⟩) i (by simp)
    have hgt : ∀ x ∈ rows, i < x.1 := by
      have := hp.2.1
      rw [List.map_cons, List.pairwise_cons] at this
      exact fun x hx => this.1 x.1 (List.mem_map.2 ⟨x, hx, rfl⟩)
    obtain ⟨st1, h1, hi1, hst, -⟩ := hi.store (i := i) (r := r)
      (fun c hc y hy => hread c hc y (by simp only [List.mem_singleton] at hy; simp [hy])) hbi.2 h31 hbi.1 habove hs
    have hread' : RReadable cols rows := fun c hc y hy => hread c hc y (by simp [hy])
    have hlast : ∀ x, (rest ++ [(i, r)]).getLast? = some x → ({ st1 with iend := i } : RCols).iend = x.1 := by
      intro x hx
      simp only [List.getLast?_append, List.getLast?_singleton, Option.some_or, Option.some.injEq] at hx
      rw [← hx]
    by_cases hf : st1.idata = st1.size
    · obtain ⟨idx, rws, f1, f2⟩ := hi1.flush (by simp) hlast
      have hlen : (rest ++ [(i, r)]).length = size := by
        rw [← hi1.idata, ← hi1.sizeEq]; exact hf
      have hre := hi1.reuse (i := i) (by simp) hlen
      have h0 : 0 < size := by rw [← hlen]; simp
      -- the state after the flush, with or without new vectors
      obtain ⟨st2, hstep, hi2, hst2⟩ : ∃ st2, st.step (.pushRow i r) = .ok (st2, [.pushRows idx rws])
          ∧ RInv cols size ilast st2 [] ∧ st2.istart = i + 1 := by
        have hstep : st.step (.pushRow i r) = (let s := (RCols.flush { st1 with iend := i });
            if s.1.istart + s.1.size > s.1.ilast ∧ s.1.istart < s.1.ilast then
              .ok (s.1.prepare (s.1.ilast - s.1.istart), s.2) else .ok (s.1, s.2)) := by
          simp only [RCols.step, h1, bind, Except.bind]
          rw [if_pos hf]
          rfl
        have f1' : RCols.flush { st1 with iend := i } = ({ (RCols.setValues { st1 with iend := i }) with
          idata := 0, istart := i + 1 }, [.pushRows idx rws]) := f1
        generalize hs2 : ({ (RCols.setValues { st1 with iend := i }) with idata := 0, istart := i + 1 } : RCols) = s at f1' hre
        have hsi : s.istart = i + 1 := by rw [← hs2]
        rw [f1'] at hstep
        simp only at hstep
        split at hstep
        · rename_i hc
          refine ⟨_, hstep, ?_, ?_⟩
          · refine RInv.prepare hre.sizeEq hre.ilastEq hre.cols hre.idata ?_ (.inr ?_)
            · intro _
              have := hre.sizeEq
              omega
            · have := hre.ilastEq
              omega
          · exact hsi
        · exact ⟨s, hstep, hre, hsi⟩
      obtain ⟨st', out, parts, rest', r1, r2, r3, r4, r5, r6, r7⟩ := ih st2 [] hi2 (by simp) (fun _ => by simpa using h0)
        hread' (by
          have := hp.2.1
          rw [List.map_cons, List.pairwise_cons] at this
          simpa using this.2)
        (fun y hy => ⟨by rw [hst2]; exact hgt y hy, (hb y (by simp [hy])).2⟩)
      refine ⟨st', [.pushRows idx rws] ++ out, (rest ++ [(i, r)]) :: parts, rest', runR_cons hstep r1, r2, r3, ?_,
        .cons ⟨idx, rws, rfl, f2⟩ r5, ?_, r7⟩
      · rw [List.flatten_cons, List.append_assoc, r4]; simp
      · intro q hq
        rcases List.mem_cons.1 hq with rfl | hq
        · exact ⟨by simp, hlen⟩
        · exact r6 q hq
    · have hstep : st.step (.pushRow i r) = .ok ({ st1 with iend := i }, []) := by
        simp only [RCols.step, h1, bind, Except.bind]
        rw [if_neg hf]
        rfl
      have hs' : 0 < size → (rest ++ [(i, r)]).length < size := by
        intro h0
        have h2 := hs h0
        have h3 := hi1.idata
        have h4 := hi1.sizeEq
        simp only [List.length_append, List.length_singleton] at *
        omega
      obtain ⟨st', out, parts, rest', r1, r2, r3, r4, r5, r6, r7⟩ := ih _ (rest ++ [(i, r)]) hi1 hlast hs' hread'
        (by simpa using hp1)
        (fun y hy => ⟨by show st1.istart ≤ y.1; rw [hst]; exact (hb y (by simp [hy])).1, (hb y (by simp [hy])).2⟩)
      exact ⟨st', [] ++ out, parts, rest', runR_cons hstep r1, r2, r3, by rw [r4]; simp, r5, r6, r7⟩

/-- End of data with nothing waiting does nothing. -/
theorem rchunk_ends_nil {st : RCols} (h : st.idata = 0) : ∀ n,
    runR RCols.step st (List.replicate n .endOfData) = .ok (st, []) := by
  intro n
  have hf : st.flush = (st, []) := by
    unfold RCols.flush
    rw [if_pos (.inr h)]
  induction n with
  | zero => rfl
  | succ n ih =>
    rw [List.replicate_succ]
    have := runR_cons (step := RCols.step) (st := st) (ev := .endOfData) (o1 := []) (by simp only [RCols.step, hf]) ih
    simpa using this

theorem rchunk_ends {cols : List Column} {size ilast : Nat} {st : RCols} {rest : List (Nat × Row)}
    (hi : RInv cols size ilast st rest) (hl : ∀ x, rest.getLast? = some x → st.iend = x.1) (n : Nat) :
    ∃ st' out parts rest', runR RCols.step st (List.replicate n .endOfData) = .ok (st', out)
      ∧ parts.flatten ++ rest' = rest ∧ RChunks cols out parts ∧ (∀ q ∈ parts, q = rest ∧ q ≠ [])
      ∧ parts.length ≤ 1 ∧ (0 < n → rest' = []) := by
  by_cases hr : rest = []
  · subst hr
    exact ⟨st, [], [], [], rchunk_ends_nil (by rw [hi.idata]; rfl) n, rfl, .nil, by simp, by simp, by simp⟩
  · cases n with
    | zero => exact ⟨st, [], [], rest, rfl, rfl, .nil, by simp, by simp, by simp⟩
    | succ n =>
      obtain ⟨idx, rws, f1, f2⟩ := hi.flush hr hl
      have hc : RChunks cols ([.pushRows idx rws] ++ []) [rest] := .cons ⟨idx, rws, rfl, f2⟩ .nil
      have hrun : runR RCols.step st (List.replicate (n + 1) .endOfData) =
          .ok ({ st.setValues with idata := 0, istart := st.iend + 1 }, [.pushRows idx rws] ++ []) :=
        runR_cons (by simp only [RCols.step, f1]) (rchunk_ends_nil rfl n)
      refine ⟨_, [.pushRows idx rws] ++ [], [rest], [], hrun, by simp, hc, ?_, by simp, by simp⟩
      intro q hq
      simp only [List.mem_singleton] at hq
      subst hq
      exact ⟨rfl, hr⟩

/-! ## Whole data -/

theorem rdata_rows {cols : List Column} {ilast : Nat} (h31 : ilast ≤ 2 ^ 31) :
    ∀ (rows : List (Nat × Row)) (st : RCols) (rest : List (Nat × Row)), RInv cols 0 ilast st rest →
      RReadable cols rows → ((rest ++ rows).map Prod.fst).Pairwise (· < ·) →
      (∀ r ∈ rows, st.istart ≤ r.1 ∧ r.1 < ilast) →
      ∃ st', runR RCols.dataStep st (rows.map fun r => .pushRow r.1 r.2) = .ok (st', [])
        ∧ RInv cols 0 ilast st' (rest ++ rows) := by
  intro rows
  induction rows with
  | nil => intro st rest hi _ _ _; exact ⟨st, rfl, by simpa using hi⟩
  | cons x rows ih =>
    intro st rest hi hread hp hb
    obtain ⟨i, r⟩ := x
    have hbi := hb (i, r) (by simp)
    have hp1 := hp
    rw [List.map_append, List.pairwise_append] at hp
    have habove : ∀ x ∈ rest, x.1 < i := fun x hx =>
      hp.2.2 x.1 (List.mem_map.2 ⟨x, hx, rfl⟩) i (by simp)
    obtain ⟨st1, h1, hi1, hst, -⟩ := hi.store (i := i) (r := r)
      (fun c hc y hy => hread c hc y (by simp only [List.mem_singleton] at hy; simp [hy])) hbi.2 h31 hbi.1 habove
      (by simp)
    have hi2 : RInv cols 0 ilast st1 (rest ++ [(i, r)]) := ⟨hi1.sizeEq, hi1.ilastEq, hi1.cols, hi1.idata, hi1.len,
      hi1.valid, hi1.nodup, hi1.cap, hi1.index, hi1.stored, hi1.sorted, hi1.low⟩
    have hstep : st.dataStep (.pushRow i r) = .ok (st1, []) := by
      simp only [RCols.dataStep, h1, bind, Except.bind]
      rfl
    obtain ⟨st', r1, r2⟩ := ih st1 _ hi2 (fun c hc y hy => hread c hc y (by simp [hy])) (by simpa using hp1)
      (fun y hy => ⟨by rw [hst]; exact (hb y (by simp [hy])).1, (hb y (by simp [hy])).2⟩)
    exact ⟨st', by simpa using runR_cons hstep r1, by simpa using r2⟩

/-! ## Rows -/

theorem isNan_iff (y : Num) : y.isNan = true ↔ NanNum y := by
  cases y with
  | ofInt i =>
    simp only [Num.isNan, NanNum, Bool.false_eq_true, false_iff]
    rintro ⟨b, hb, -⟩
    cases hb
  | bits b =>
    simp only [Num.isNan, NanNum]
    constructor
    · intro h
      refine ⟨b, rfl, ?_⟩
      unfold Dbl.ofBits at h
      simp only at h
      by_cases h1 : b / 2 ^ 52 % 2 ^ 11 = 2047
      · rw [if_pos h1] at h
        by_cases h2 : b % 2 ^ 52 = 0
        · rw [if_pos h2] at h; simp at h
        · exact ⟨h1, h2⟩
      · rw [if_neg h1] at h; simp at h
    · rintro ⟨b', hb, h1, h2⟩
      cases hb
      unfold Dbl.ofBits
      simp only
      rw [if_pos h1, if_neg h2]

theorem toRRow_shows {v : Cell} {z : RVal} (hz : RShows v z) : ∃ x, v.toRRow = .ok x ∧ RRowShows v x := by
  have hR := toR_shows.2 hz
  cases v with
  | str s => exact ⟨some z, by simp only [Cell.toRRow, hR]; rfl, .inr (.inr ⟨by simp, by simp, by simp, by simp, z, rfl, hz⟩)⟩
  | int s => exact ⟨some z, by simp only [Cell.toRRow, hR]; rfl, .inr (.inr ⟨by simp, by simp, by simp, by simp, z, rfl, hz⟩)⟩
  | num y =>
    by_cases hn : y.isNan = true
    · exact ⟨some .na, by simp only [Cell.toRRow, hn, if_true], .inl ⟨y, rfl, (isNan_iff y).1 hn, rfl⟩⟩
    · refine ⟨some (.num y), by simp only [Cell.toRRow, hn]; rfl, .inr (.inr ⟨?_, by simp, by simp, by simp, .num y, rfl, rfl⟩)⟩
      intro y' hy
      cases hy
      exact fun h => hn ((isNan_iff y).2 h)
  | datetime t =>
    cases t with
    | notADateTime => exact ⟨none, rfl, .inr (.inl ⟨.inl rfl, rfl⟩)⟩
    | «at» n => exact ⟨some z, by simp only [Cell.toRRow, hR]; rfl, .inr (.inr ⟨by simp, by simp, by simp, by simp, z, rfl, hz⟩)⟩
  | date t =>
    cases t with
    | notADate => exact ⟨none, rfl, .inr (.inl ⟨.inr (.inl rfl), rfl⟩)⟩
    | day n => exact ⟨some z, by simp only [Cell.toRRow, hR]; rfl, .inr (.inr ⟨by simp, by simp, by simp, by simp, z, rfl, hz⟩)⟩
  | time t =>
    cases t with
    | notADateTime => exact ⟨none, rfl, .inr (.inl ⟨.inr (.inr rfl), rfl⟩)⟩
    | us n => exact ⟨some z, by simp only [Cell.toRRow, hR]; rfl, .inr (.inr ⟨by simp, by simp, by simp, by simp, z, rfl, hz⟩)⟩

theorem setRow_spec {mem : List Byte} : ∀ (cols : List Column) (row : List (Option RVal)),
    List.Forall₂ (fun c x => c.type = .unknown → x = none) cols row →
    (∀ c ∈ typed cols, ∃ v x, c.value mem = .ok (some v) ∧ RShows v x) →
    ∃ row', setRow cols row mem = .ok row' ∧ List.Forall₂ (fun c x => c.type = .unknown → x = none) cols row' ∧
      List.Forall₂ (fun c x => (c.type = .unknown ∧ x = none) ∨
        ∃ v, c.value mem = .ok (some v) ∧ RRowShows v x) cols row' := by
  intro cols row h
  induction h with
  | nil => intro _; exact ⟨[], rfl, .nil, .nil⟩
  | @cons c x cols row h1 h2 ih =>
    intro hr
    obtain ⟨row', i1, i2, i3⟩ := ih fun c hc => hr c (by
      unfold typed at hc ⊢
      rw [List.filter_cons]
      split
      · exact List.mem_cons_of_mem _ hc
      · exact hc)
    by_cases hu : c.type = .unknown
    · have hv : c.value mem = .ok none := by unfold Column.value; rw [hu]
      refine ⟨x :: row', ?_, .cons h1 i2, .cons (.inl ⟨hu, h1 hu⟩) i3⟩
      unfold setRow
      simp only [hv, i1, bind, Except.bind, pure, Except.pure]
    · obtain ⟨v, z, k1, k2⟩ := hr c (by unfold typed; rw [List.filter_cons_of_pos (by simp [hu])]; simp)
      obtain ⟨y, y1, y2⟩ := toRRow_shows k2
      refine ⟨y :: row', ?_, .cons (fun h => absurd h hu) i2, .cons (.inr ⟨v, k1, y2⟩) i3⟩
      unfold setRow
      simp only [k1, y1, i1, bind, Except.bind, pure, Except.pure]

theorem rrow_run (cols : List Column) : ∀ (es : List Event), RReadable cols (pushes es) →
    (∀ p, .setProperties p ∉ es) → ∀ row, List.Forall₂ (fun c x => c.type = .unknown → x = none) cols row →
    ∃ st out, runR RRowSink.step { columns := cols, row := row } es = .ok (st, out)
      ∧ RRowsAre cols (rrows out) (pushes es) := by
  intro es
  induction es with
  | nil => intro _ _ row _; exact ⟨_, _, rfl, .nil⟩
  | cons e es ih =>
    intro hread hp row hrow
    have hp' : ∀ p, Event.setProperties p ∉ es := fun p h => hp p (by simp [h])
    cases e with
    | setProperties p => exact absurd (by simp) (hp p)
    | endOfData =>
      obtain ⟨st, out, h1, h2⟩ := ih hread hp' row hrow
      exact ⟨st, [] ++ out, runR_cons (st1 := { columns := cols, row := row }) rfl h1, h2⟩
    | pushRow i r =>
      obtain ⟨row', r1, r2, r3⟩ := setRow_spec (mem := r.mem) cols row hrow
        fun c hc => hread c hc (i, r) (by simp [pushes])
      obtain ⟨st, out, h1, h2⟩ := ih (fun c hc q hq => hread c hc q (by simp [pushes, hq])) hp' row' r2
      have hstep : RRowSink.step { columns := cols, row := row } (.pushRow i r)
          = .ok ({ columns := cols, row := row' }, [.pushRow i row']) := by
        simp only [RRowSink.step, r1, bind, Except.bind]
        rfl
      have hall : RRowsAre cols ((i, row') :: rrows out) ((i, r) :: pushes es) := .cons ⟨rfl, r3⟩ h2
      exact ⟨st, _, runR_cons hstep h1, hall⟩

end Sas
