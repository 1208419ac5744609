import Verif.Spec.Export
import Verif.Props.RFront
import Verif.Props.NumText

/-!
# C87: how a data set is stored does not matter
-/

namespace Sas.Props
open Sas Sas.Spec

/-! ## The text of a written data set -/

/-- What the csv sink writes for a value. -/
def valueCsv (x : Texts) : Value → Printed
  | .text t => sayRes ((Cell.str t).csvText x)
  | .integer i => sayRes ((Cell.int i).csvText x)
  | .number b => sayRes ((Cell.num (.bits b)).csvText x)
  | .datetime us => sayRes ((Cell.datetime (at1960 us)).csvText x)
  | .date n => sayRes ((Cell.date (day1960 n)).csvText x)
  | .time us => sayRes ((Cell.time (.us us)).csvText x)
  | .missing => say notADateTimeText

theorem csvCell_value (x : Texts) {c : Column} {mem : List Byte} {w : Cell} (h : c.value mem = .ok (some w)) :
    csvCell x mem c = sayRes (w.csvText x) := by
  unfold csvCell
  rw [h]
  rfl

theorem csvCell_gives (x : Texts) {c : Column} {mem : List Byte} {v : Value} (h : Gives c mem v) :
    csvCell x mem c = valueCsv x v := by
  cases v with
  | missing =>
    rcases h with ⟨h1, h2⟩ | ⟨h1, h2⟩ | ⟨h1, h2⟩
    · exact csvCell_value x (w := .datetime .notADateTime) (by unfold Column.value; rw [h1, h2]; rfl)
    · exact csvCell_value x (w := .date .notADate) (by unfold Column.value; rw [h1, h2]; rfl)
    · exact csvCell_value x (w := .time .notADateTime) (by unfold Column.value; rw [h1, h2]; rfl)
  | text t => exact csvCell_value x (by unfold Column.value; rw [h.1, h.2]; rfl)
  | integer t => exact csvCell_value x (by unfold Column.value; rw [h.1, h.2]; rfl)
  | number t => exact csvCell_value x (by unfold Column.value; rw [h.1, h.2]; rfl)
  | datetime t => exact csvCell_value x (by unfold Column.value; rw [h.1, h.2]; rfl)
  | date t => exact csvCell_value x (by unfold Column.value; rw [h.1, h.2]; rfl)
  | time t => exact csvCell_value x (by unfold Column.value; rw [h.1, h.2]; rfl)

theorem csv_rows (x : Texts) (cols : List Column) : ∀ (rws : List Row) (n : Nat),
    runText (csvStep x) cols (pushEvents n rws ++ [.endOfData]) =
      sayAll ((rws.map fun r => csvLine (cols.map (csvCell x r.mem))) ++ [sayAll [say []]]) := by
  intro rws
  induction rws with
  | nil => intro n; rfl
  | cons r rws ih =>
    intro n
    show (csvLine (cols.map (csvCell x r.mem))).andThen (runText (csvStep x) cols (pushEvents (n + 1) rws ++ [.endOfData])) = _
    rw [ih]
    rfl

/-- The text depends on names and values. -/
def textOfValues (x : Texts) (names : List (List Byte)) (rows : List (List Value)) : Printed :=
  (csvLine (names.map fun n => sayRes ((Cell.str n).csvText x))).andThen
    (sayAll ((rows.map fun r => csvLine (r.map (valueCsv x))) ++ [sayAll [say []]]))

theorem csv_written (x : Texts) (p : Properties) (rws : List Row) (rows : List (List Value))
    (h : List.Forall₂ (fun (r : Row) vs => List.Forall₂ (fun (c : Column) v => Gives c r.mem v) p.columns vs) rws rows) :
    csvText x (.setProperties p :: pushEvents 0 rws ++ [.endOfData]) =
      textOfValues x (p.columns.map Column.name) rows := by
  have : rws.map (fun r => csvLine (p.columns.map (csvCell x r.mem))) = rows.map fun r => csvLine (r.map (valueCsv x)) := by
    induction h with
    | nil => rfl
    | cons h1 h2 ih =>
      have : ∀ {cols : List Column} {vs : List Value} {r : Row}, List.Forall₂ (fun (c : Column) v => Gives c r.mem v) cols vs →
          cols.map (csvCell x r.mem) = vs.map (valueCsv x) := by
        intro cols vs r h
        induction h with
        | nil => rfl
        | cons g1 g2 ih => rw [List.map_cons, List.map_cons, ih, csvCell_gives x g1]
      rw [List.map_cons, List.map_cons, ih, this h1]
  unfold csvText textOfValues
  rw [List.cons_append, runText]
  show (csvLine _).andThen (runText (csvStep x) p.columns _) = _
  rw [csv_rows, this, List.map_map]
  rfl

/-- The selected entries of the rows. -/
theorem pick_rows {h : FileHeader} {d : DataSet} {values : List (List Value)} {js : List Nat} {rws : List Row}
    {cols : List Column} (hlen : rws.length = values.length)
    (hc : List.Forall₂ (fun (j : Nat) (col : Column) => ∃ c, d.columns[j]? = some c ∧ Reports col c ∧
        ∀ (k : Nat) (r : Row) (vs : List Value), rws[k]? = some r → values[k]? = some vs →
          ∃ v cell, vs[j]? = some v ∧ StoredAs h.endian c v cell ∧ Gives col r.mem v) js cols) :
    List.Forall₂ (fun (r : Row) vs => List.Forall₂ (fun (c : Column) v => Gives c r.mem v) cols vs) rws
      (values.map fun row => js.map fun j => row.getD j .missing) := by
  rw [List.forall₂_map_right_iff, List.forall₂_iff_get]
  refine ⟨hlen, fun k h1 h2 => ?_⟩
  simp only [List.get_eq_getElem]
  rw [List.forall₂_map_right_iff]
  refine (List.Forall₂.flip hc).imp fun col j hcj => ?_
  obtain ⟨c, -, -, g⟩ := hcj
  obtain ⟨v, cell, e1, -, e3⟩ := g k rws[k] values[k] (List.getElem?_eq_getElem h1) (List.getElem?_eq_getElem h2)
  rw [List.getD_eq_getElem?_getD, e1]
  exact e3

theorem pick_names {d : DataSet} {js : List Nat} {cols : List Column} {P : Nat → Column → ColumnDesc → Prop}
    (hc : List.Forall₂ (fun (j : Nat) (col : Column) => ∃ c, d.columns[j]? = some c ∧ Reports col c ∧ P j col c) js cols) :
    cols.map Column.name = js.map fun j => (d.columns.map ColumnDesc.name).getD j [] := by
  induction hc with
  | nil => rfl
  | cons h1 h2 ih =>
    obtain ⟨c, e1, e2, -⟩ := h1
    rw [List.map_cons, List.map_cons, ih, List.getD_eq_getElem?_getD, List.getElem?_map, e1, e2.name]
    rfl

/-- The csv text of a file that holds a data set, of the columns a filter wants. -/
theorem csv_of_written {cfg : Cfg} {fuel : Nat} {i e : List (List Byte)} {file : List Byte} {h : FileHeader}
    {d : DataSet} {R : Reader IFStream} (hopen : openReader cfg ifs fuel none (IFStream.open file) = .ok R)
    (hb : ReadsBack h d R) {values : List (List Value)} (hv : List.Forall₂ (RowHolds h.endian d.columns) d.rows values) :
    ∃ (R' : Reader IFStream) (js : List Nat), openReader cfg ifs fuel (some (Filter.includeExclude i e)) (IFStream.open file) = .ok R' ∧
      (R'.run ifs [.readAll]).1 = [.ok .unit] ∧
      js.Pairwise (· < ·) ∧ (∀ j, j ∈ js ↔ ∃ c, d.columns[j]? = some c ∧ Wanted i e c.name) ∧
      ∀ x, csvText x (R'.run ifs [.readAll]).2.trace =
        textOfValues x (js.map fun j => (d.columns.map ColumnDesc.name).getD j [])
          (values.map fun row => js.map fun j => row.getD j .missing) := by
  obtain ⟨R', rws, js, h1, -, -, h2, h3, h4, h5, h6, h7⟩ := written_filtered (i := i) (e := e) hopen hb hv
  refine ⟨R', js, h1, h2, h4, h5, fun x => ?_⟩
  rw [h3, csv_written x _ _ _ (pick_rows h6 h7), pick_names h7]

/-! ## Uniqueness -/

theorem sorted_unique : ∀ {as bs : List Nat}, as.Pairwise (· < ·) → bs.Pairwise (· < ·) → (∀ j, j ∈ as ↔ j ∈ bs) → as = bs := by
  intro as
  induction as with
  | nil =>
    intro bs _ _ h
    cases bs with
    | nil => rfl
    | cons b bs => exact absurd ((h b).mpr (by simp)) (by simp)
  | cons a as ih =>
    intro bs ha hb h
    cases bs with
    | nil => exact absurd ((h a).mp (by simp)) (by simp)
    | cons b bs =>
      rw [List.pairwise_cons] at ha hb
      have hab : a = b := by
        rcases List.mem_cons.mp ((h a).mp (by simp)) with e | e
        · exact e
        · rcases List.mem_cons.mp ((h b).mpr (by simp)) with e' | e'
          · exact e'.symm
          · have := ha.1 b e'
            have := hb.1 a e
            omega
      subst hab
      rw [ih ha.2 hb.2 fun j => ?_]
      have := h j
      rw [List.mem_cons, List.mem_cons] at this
      constructor
      · intro hj
        rcases this.mp (.inr hj) with e | e
        · subst e; exact absurd (ha.1 j hj) (by omega)
        · exact e
      · intro hj
        rcases this.mpr (.inr hj) with e | e
        · subst e; exact absurd (hb.1 j hj) (by omega)
        · exact e

theorem monthDays_pos (y m : Nat) : 28 ≤ monthDays y m := by
  unfold monthDays
  split <;> (try split) <;> omega

theorem realDate_tomorrow {x : Ymd} (h : RealDate x) : RealDate (tomorrow x) := by
  obtain ⟨h1, h2, h3, h4⟩ := h
  unfold tomorrow
  split
  · exact ⟨h1, h2, by simp, by simpa using (by omega)⟩
  · split
    · refine ⟨by simp, by simpa using (by omega), by simp, ?_⟩
      have := monthDays_pos x.year (x.month + 1)
      simpa using (by omega)
    · refine ⟨by simp, by simp, by simp, ?_⟩
      have := monthDays_pos (x.year + 1) 1
      simpa using (by omega)

theorem tomorrow_inj {x y : Ymd} (hx : RealDate x) (hy : RealDate y) (h : tomorrow x = tomorrow y) : x = y := by
  obtain ⟨yx, mx, dx⟩ := x
  obtain ⟨yy, my, dy⟩ := y
  obtain ⟨a1, a2, a3, a4⟩ := hx
  obtain ⟨b1, b2, b3, b4⟩ := hy
  simp only at a1 a2 a3 a4 b1 b2 b3 b4
  unfold tomorrow at h
  simp only at h
  have p1 := monthDays_pos yx mx
  have p2 := monthDays_pos yy my
  by_cases c1 : dx < monthDays yx mx <;> by_cases c2 : dy < monthDays yy my
  · rw [if_pos c1, if_pos c2] at h
    simp only [Ymd.mk.injEq] at h ⊢
    omega
  · rw [if_pos c1, if_neg c2] at h
    by_cases c3 : my < 12
    · rw [if_pos c3] at h
      simp only [Ymd.mk.injEq] at h
      omega
    · rw [if_neg c3] at h
      simp only [Ymd.mk.injEq] at h
      omega
  · rw [if_neg c1, if_pos c2] at h
    by_cases c3 : mx < 12
    · rw [if_pos c3] at h
      simp only [Ymd.mk.injEq] at h
      omega
    · rw [if_neg c3] at h
      simp only [Ymd.mk.injEq] at h
      omega
  · rw [if_neg c1, if_neg c2] at h
    have e1 : dx = monthDays yx mx := by omega
    have e2 : dy = monthDays yy my := by omega
    have key : yx = yy ∧ mx = my := by
      by_cases c3 : mx < 12 <;> by_cases c4 : my < 12
      · rw [if_pos c3, if_pos c4] at h
        simp only [Ymd.mk.injEq] at h
        omega
      · rw [if_pos c3, if_neg c4] at h
        simp only [Ymd.mk.injEq] at h
        omega
      · rw [if_neg c3, if_pos c4] at h
        simp only [Ymd.mk.injEq] at h
        omega
      · rw [if_neg c3, if_neg c4] at h
        simp only [Ymd.mk.injEq] at h
        omega
    obtain ⟨rfl, rfl⟩ := key
    rw [e1, e2]

theorem realDate_after {x : Ymd} (h : RealDate x) : ∀ n, RealDate (daysAfter n x)
  | 0 => h
  | n + 1 => realDate_tomorrow (realDate_after h n)

theorem daysAfter_inj {x y : Ymd} (hx : RealDate x) (hy : RealDate y) : ∀ n, daysAfter n x = daysAfter n y → x = y
  | 0, h => h
  | n + 1, h => daysAfter_inj hx hy n (tomorrow_inj (realDate_after hx n) (realDate_after hy n) h)

theorem isDay_unique {n : Int} {x y : Ymd} (hx : IsDay n x) (hy : IsDay n y) : x = y := by
  obtain ⟨x1, x2, x3⟩ := hx
  obtain ⟨y1, y2, y3⟩ := hy
  rcases Int.le_total 0 n with h | h
  · rw [x2 h, y2 h]
  · exact daysAfter_inj x1 y1 _ ((x3 h).trans (y3 h).symm)

theorem time_unique {h m s u h' m' s' u' : Nat} (a : IsTime h m s u) (b : IsTime h' m' s' u')
    (e : timeUs h m s u = timeUs h' m' s' u') : h = h' ∧ m = m' ∧ s = s' ∧ u = u' := by
  unfold IsTime at a b
  unfold timeUs at e
  omega

theorem pyMeans_unique {v : Value} {x y : PyVal} (hx : PyMeans v x) (hy : PyMeans v y) : x = y := by
  cases v with
  | datetime us =>
    obtain ⟨d, h, m, s, u, rfl, a1, a2, a3⟩ := hx
    obtain ⟨d', h', m', s', u', rfl, b1, b2, b3⟩ := hy
    obtain ⟨rfl, rfl, rfl, rfl⟩ := time_unique a2 b2 (by omega)
    rw [isDay_unique a1 b1]
  | date n =>
    obtain ⟨d, rfl, a⟩ := hx
    obtain ⟨d', rfl, b⟩ := hy
    rw [isDay_unique a b]
  | time us =>
    obtain ⟨h, m, s, u, rfl, a2, a3⟩ := hx
    obtain ⟨h', m', s', u', rfl, b2, b3⟩ := hy
    obtain ⟨rfl, rfl, rfl, rfl⟩ := time_unique a2 b2 (by omega)
    rfl
  | _ => exact Eq.trans hx (Eq.symm hy)

theorem rMeans_unique {v : Value} {x y : RVal} (hx : RMeans v x) (hy : RMeans v y) : x = y := by
  cases v with
  | datetime us =>
    obtain ⟨t, ⟨d, a1, rfl⟩, rfl⟩ := hx
    obtain ⟨t', ⟨d', b1, rfl⟩, rfl⟩ := hy
    rw [isDay_unique a1 b1]
  | date n =>
    obtain ⟨d, a, rfl⟩ := hx
    obtain ⟨d', b, rfl⟩ := hy
    rw [isDay_unique a b]
  | _ => exact Eq.trans hx (Eq.symm hy)

theorem forall₂_unique {α β : Type} {P Q : α → β → Prop} (hu : ∀ a b c, P a b → Q a c → b = c) :
    ∀ {as : List α} {bs cs : List β}, List.Forall₂ P as bs → List.Forall₂ Q as cs → bs = cs := by
  intro as
  induction as with
  | nil => intro bs cs h1 h2; cases h1; cases h2; rfl
  | cons a as ih =>
    intro bs cs h1 h2
    cases h1 with
    | cons p1 p2 =>
      cases h2 with
      | cons q1 q2 => rw [hu _ _ _ p1 q1, ih p2 q2]

/-- Chunk sizes are determined by the number of rows. -/
theorem sizes_unique {n : Nat} : ∀ {as bs : List Nat}, as.sum = bs.sum → (∀ k ∈ as, 0 < k ∧ (0 < n → k ≤ n)) →
    (∀ k ∈ bs, 0 < k ∧ (0 < n → k ≤ n)) → (∀ k ∈ as.dropLast, k = n) → (∀ k ∈ bs.dropLast, k = n) → as = bs := by
  intro as
  induction as with
  | nil =>
    intro bs h _ hb _ _
    cases bs with
    | nil => rfl
    | cons b bs => have := (hb b (by simp)).1; simp at h; omega
  | cons a as ih =>
    intro bs h ha hb da db
    cases bs with
    | nil => have := (ha a (by simp)).1; simp at h; omega
    | cons b bs =>
      have ha0 := ha a (by simp)
      have hb0 := hb b (by simp)
      simp only [List.sum_cons] at h
      have key : a = b := by
        cases as with
        | nil =>
          cases bs with
          | nil => simpa using h
          | cons b' bs =>
            have := db b (by simp)
            have := (hb b' (by simp)).1
            simp at h
            have := ha0.2 (by omega)
            omega
        | cons a' as =>
          have h1 := da a (by simp)
          cases bs with
          | nil =>
            have := (ha a' (by simp)).1
            simp at h
            have := hb0.2 (by omega)
            omega
          | cons b' bs => rw [h1, db b (by simp)]
      subst key
      have drop : ∀ {l : List Nat} {k : Nat}, k ∈ l.dropLast → k ∈ (a :: l).dropLast := by
        intro l k hk
        cases l with
        | nil => cases hk
        | cons => rw [List.dropLast_cons_cons]; exact List.mem_cons_of_mem _ hk
      rw [ih (bs := bs) (by omega) (fun k hk => ha k (by simp [hk])) (fun k hk => hb k (by simp [hk]))
        (fun k hk => da k (drop hk)) (fun k hk => db k (drop hk))]

theorem labels_unique {n : Nat} {as bs : List Nat} {kind : PyKind} (ha : LabelsAre n as kind) (hb : LabelsAre n bs kind) :
    as = bs := by
  cases kind with
  | chunk k =>
    obtain ⟨s, a1, a2, a3, rfl⟩ := ha
    obtain ⟨t, b1, b2, b3, rfl⟩ := hb
    rw [sizes_unique (a1.trans b1.symm) a2 b2 a3 b3]
  | _ => exact Eq.trans ha (Eq.symm hb)

/-! ## C87, CSV -/

theorem field_means {v : Value} {w : Cell} {c : Column} {d : ColumnDesc} {e : Endian} {mem cell t : List Byte}
    (hs : StoredAs e d v cell) (hg : Gives c mem v) (hw : c.value mem = .ok (some w)) (ht : CsvShows libTexts w t) :
    FieldMeans v t := by
  have at_inj : ∀ us us' : Int, at1960 us = at1960 us' → us = us' := by
    intro us us' h
    unfold at1960 at h
    injection h with h
    omega
  have get : ∀ w', c.value mem = .ok (some w') → w = w' := by
    intro w' h
    rw [hw] at h
    cases h
    rfl
  cases hs with
  | text s pad hn hp hl => cases get (.str s) (by unfold Column.value; rw [hg.1, hg.2]; rfl); exact ht
  | byte b hn hl => cases get (.int b.toNat) (by unfold Column.value; rw [hg.1, hg.2]; rfl); exact ht
  | short x hn hl h1 h2 => cases get (.int x) (by unfold Column.value; rw [hg.1, hg.2]; rfl); exact ht
  | number bits hty hb hz =>
    cases get (.num (.bits bits)) (by unfold Column.value; rw [hg.1, hg.2]; rfl)
    have hnan : IeeeNaN bits → NanNum (.bits bits) := by
      rintro ⟨sign, frac, h1, h2, h3, rfl⟩
      exact ⟨_, rfl, by omega, by omega⟩
    rcases ht with ⟨hn, ht⟩ | ⟨hn, ht⟩
    · refine ⟨fun _ => ht, fun x hx => ?_⟩
      exfalso
      obtain ⟨b', hb', e1, e2⟩ := hn
      cases hb'
      obtain ⟨sign, ex, frac, g1, g2, rfl, g3⟩ := hx
      have hex : ex ≤ 2046 := by rcases g3 with g3 | g3 <;> omega
      omega
    · refine ⟨fun hx => absurd (hnan hx) hn, fun x hx => ?_⟩
      obtain ⟨d, d1, d2, d3⟩ := C81_number bits x hx
      exact ⟨d, by rw [ht]; exact d1, d3, d2⟩
  | datetime us bits s hty hl hv hs hr =>
    cases get (.datetime (at1960 us)) (by unfold Column.value; rw [hg.1, hg.2]; rfl)
    rcases ht with ⟨h, -⟩ | ⟨us', y, h, h1, h2, -, h3⟩
    · cases h
    · rw [at_inj us us' h]
      exact ⟨y, isDay_of_ymd h1 h2, h3⟩
  | date n bits hty hl hv h1 h2 =>
    cases get (.date (day1960 n)) (by unfold Column.value; rw [hg.1, hg.2]; rfl)
    rcases ht with ⟨h, -⟩ | ⟨n', y, h, -, h4, -, h3⟩
    · cases h
    · exact ⟨y, isDay_of_ymd ⟨h1, h2⟩ h4, h3⟩
  | time us bits s hty hl hv hs h1 h2 =>
    cases get (.time (.us us)) (by unfold Column.value; rw [hg.1, hg.2]; rfl)
    rcases ht with ⟨h, -⟩ | ⟨n, h, -, h3⟩
    · cases h
    · injection h with h
      show t = isoTime us.toNat
      rw [h, h3]
      rfl
  | missing bits hty hl hv =>
    rcases hg with ⟨g1, g2⟩ | ⟨g1, g2⟩ | ⟨g1, g2⟩
    · cases get (.datetime .notADateTime) (by unfold Column.value; rw [g1, g2]; rfl)
      rcases ht with ⟨-, h⟩ | ⟨_, _, h, -⟩
      · exact h
      · cases h
    · cases get (.date .notADate) (by unfold Column.value; rw [g1, g2]; rfl)
      rcases ht with ⟨-, h⟩ | ⟨_, _, h, -⟩
      · exact h
      · cases h
    · cases get (.time .notADateTime) (by unfold Column.value; rw [g1, g2]; rfl)
      rcases ht with ⟨-, h⟩ | ⟨_, h, -⟩
      · exact h
      · cases h

theorem writable_of_gives {v : Value} {c : Column} {d : ColumnDesc} {e : Endian} {mem cell : List Byte}
    (hs : StoredAs e d v cell) (hg : Gives c mem v) (hq : Unquoted v) : ∃ w, c.value mem = .ok (some w) ∧ Writable w := by
  cases hs with
  | text s pad hn hp hl => exact ⟨.str s, by unfold Column.value; rw [hg.1, hg.2]; rfl, hq⟩
  | byte b hn hl => exact ⟨.int b.toNat, by unfold Column.value; rw [hg.1, hg.2]; rfl, trivial⟩
  | short x hn hl h1 h2 => exact ⟨.int x, by unfold Column.value; rw [hg.1, hg.2]; rfl, trivial⟩
  | number bits hty hb hz => exact ⟨.num (.bits bits), by unfold Column.value; rw [hg.1, hg.2]; rfl, trivial⟩
  | datetime us bits s hty hl hv hs hr =>
    refine ⟨.datetime (at1960 us), by unfold Column.value; rw [hg.1, hg.2]; rfl, .inr ⟨us, rfl, ?_⟩⟩
    unfold CalendarDay
    rw [abs_lt] at hr
    omega
  | date n bits hty hl hv h1 h2 =>
    exact ⟨.date (day1960 n), by unfold Column.value; rw [hg.1, hg.2]; rfl, .inr ⟨n, rfl, h1, h2⟩⟩
  | time us bits s hty hl hv hs h1 h2 =>
    refine ⟨.time (.us us), by unfold Column.value; rw [hg.1, hg.2]; rfl, .inr ⟨us.toNat, ?_, by omega⟩⟩
    rw [Int.toNat_of_nonneg h1]
  | missing bits hty hl hv =>
    rcases hg with ⟨g1, g2⟩ | ⟨g1, g2⟩ | ⟨g1, g2⟩
    · exact ⟨.datetime .notADateTime, by unfold Column.value; rw [g1, g2]; rfl, .inl rfl⟩
    · exact ⟨.date .notADate, by unfold Column.value; rw [g1, g2]; rfl, .inl rfl⟩
    · exact ⟨.time .notADateTime, by unfold Column.value; rw [g1, g2]; rfl, .inl rfl⟩

theorem mem_forall₂ {α β : Type} {P : α → β → Prop} {as : List α} {bs : List β} (h : List.Forall₂ P as bs) {b : β}
    (hb : b ∈ bs) : ∃ a ∈ as, P a b := by
  induction h with
  | nil => cases hb
  | cons h1 h2 ih =>
    rcases List.mem_cons.mp hb with rfl | hb
    · exact ⟨_, List.mem_cons_self, h1⟩
    · obtain ⟨a, ha, hp⟩ := ih hb
      exact ⟨a, List.mem_cons_of_mem _ ha, hp⟩

theorem pushes_events (rws : List Row) : ∀ n, pushes (pushEvents n rws ++ [.endOfData]) = pushes (pushEvents n rws) := by
  induction rws with
  | nil => intro n; rfl
  | cons r rws ih => intro n; simp [pushEvents, pushes, ih]

/-- **C87**, CSV, partial. A file that holds a data set, in any layout, becomes CSV: the records a CSV reader finds in
the text are the names of the columns asked for and, for each row, the values that are stored there. Missing, and false
(`C29_refuted`): names and texts with double quotes. At least one column is asked for. -/
theorem C87_csv_partial (cfg : Cfg) (fuel : Nat) (i e : List (List Byte)) (l : Layout) (d : DataSet) (hl : l.For d)
    (hr : l.Plain d ∨ l.Compressed d) (hm : Machine cfg l.header d) (hf : l.metaPages.length + l.rowPages.length < fuel)
    (values : List (List Value)) (hv : List.Forall₂ (RowHolds l.header.endian d.columns) d.rows values)
    (hsome : ∃ c ∈ d.columns, Wanted i e c.name) (hnames : ∀ c ∈ d.columns, Wanted i e c.name → 34 ∉ c.name)
    (htexts : ∀ row ∈ values, ∀ v ∈ row, Unquoted v) :
    ∃ R text records, openReader cfg ifs fuel (some (Filter.includeExclude i e)) (IFStream.open (l.write d)) = .ok R ∧
      csvText libTexts (R.run ifs [.readAll]).2.trace = (text, .ok ()) ∧ csvRecords text = some records ∧
      RecordsOf d.columns (Wanted i e) values records := by
  obtain ⟨R, h1, h2⟩ := readsBack hl hr hm hf
  obtain ⟨R', rws, js, o1, -, -, o4, o5, j1, j2, j3, j4⟩ := written_filtered (i := i) (e := e) h1 h2 hv
  have hrow : pushes (R'.run ifs [.readAll]).2.trace = (rws.zipIdx).map fun r => (r.2, r.1) := by
    rw [o5]
    show pushes (pushEvents 0 rws ++ [.endOfData]) = _
    rw [pushes_events]
    have : ∀ (rws : List Row) (n : Nat), pushes (pushEvents n rws) = (rws.zipIdx n).map fun r => (r.2, r.1) := by
      intro rws
      induction rws with
      | nil => intro n; rfl
      | cons r rws ih => intro n; simp [pushEvents, pushes, ih]
    exact this rws 0
  have hmem : ∀ r ∈ pushes (R'.run ifs [.readAll]).2.trace, ∃ (k : Nat) (row : List Value), rws[k]? = some r.2 ∧ values[k]? = some row ∧ row ∈ values := by
    intro r hr
    rw [hrow] at hr
    obtain ⟨⟨a, k⟩, ha, rfl⟩ := List.mem_map.mp hr
    have hk := List.mem_zipIdx_iff_getElem?.mp ha
    simp only at hk
    have hlt : k < values.length := by
      rw [← j3]
      exact (List.getElem?_eq_some_iff.mp hk).1
    exact ⟨k, values[k], hk, List.getElem?_eq_getElem hlt, List.getElem_mem hlt⟩
  obtain ⟨text, table, t1, t2, t3⟩ := C29_partial o1 [.readAll] libTexts Proofs.plain_fmtNumber
    (by
      intro hnil
      rw [hnil] at j4
      cases j4
      obtain ⟨c, hc, hw⟩ := hsome
      obtain ⟨j, hj⟩ := List.mem_iff_getElem?.mp hc
      exact absurd ((j2 j).mpr ⟨c, hj, hw⟩) (by simp))
    (by
      intro col hcol
      obtain ⟨j, hj, c, hc1, hc2, -⟩ := mem_forall₂ j4 hcol
      obtain ⟨c', hc', hw⟩ := (j2 j).mp hj
      rw [hc1] at hc'
      cases hc'
      rw [hc2.name]
      exact hnames c (List.mem_of_getElem? hc1) hw)
    (by
      intro r hr col hcol
      obtain ⟨k, row, k1, k2, k3⟩ := hmem r hr
      obtain ⟨j, hj, c, hc1, hc2, hc3⟩ := mem_forall₂ j4 (List.mem_of_mem_filter hcol)
      obtain ⟨v, cell, v1, v2, v3⟩ := hc3 k r.2 row k1 k2
      exact writable_of_gives v2 v3 (htexts row k3 v (List.mem_of_getElem? v1)))
  refine ⟨R', text, _, o1, t1, t2, js, _, table, j1, j2, rfl, ?_, ?_⟩
  · rw [List.forall₂_map_right_iff]
    refine j4.imp fun j col hj => ?_
    obtain ⟨c, hc1, hc2, -⟩ := hj
    exact ⟨c, hc1, hc2.name⟩
  · rw [hrow, List.forall₂_map_left_iff] at t3
    rw [List.forall₂_iff_get] at t3 ⊢
    obtain ⟨tl, tg⟩ := t3
    rw [List.length_zipIdx] at tl
    refine ⟨by omega, fun k k1 k2 => ?_⟩
    have := tg k (by rw [List.length_zipIdx]; omega) k2
    simp only [List.get_eq_getElem, List.getElem_zipIdx, Nat.zero_add] at this ⊢
    have hk1 : rws[k]? = some rws[k] := List.getElem?_eq_getElem _
    have hk2 : values[k]? = some values[k] := List.getElem?_eq_getElem k1
    have key : ∀ (js : List Nat) (cols : List Column) (fields : List (List Byte)),
        List.Forall₂ (fun (j : Nat) (col : Column) => ∃ c, d.columns[j]? = some c ∧ Reports col c ∧
          ∀ (k : Nat) (r : Row) (vs : List Value), rws[k]? = some r → values[k]? = some vs →
          ∃ v cell, vs[j]? = some v ∧ StoredAs l.header.endian c v cell ∧ Gives col r.mem v) js cols →
        CsvRow libTexts cols (k, rws[k]) fields →
        List.Forall₂ (fun j f => ∃ v, values[k][j]? = some v ∧ FieldMeans v f) js fields := by
      intro js cols fields a
      revert fields
      induction a with
      | nil => intro fields b; cases b; exact .nil
      | cons a1 a2 ih =>
        intro fields b
        cases b with
        | cons b1 b2 =>
          refine .cons ?_ (ih _ b2)
          obtain ⟨c, -, -, g⟩ := a1
          obtain ⟨v, cell, e1, e2, e3⟩ := g k _ _ hk1 hk2
          obtain ⟨w, -, w1, -⟩ := shows_of_gives e2 e3
          rcases b1 with ⟨u, -⟩ | ⟨w', w2, w3⟩
          · unfold Column.value at w1
            rw [u] at w1
            cases w1
          · exact ⟨v, e1, field_means e2 e3 w2 w3⟩
    exact key js _ _ j4 this

/-- The positions of the wanted columns depend on their names only. -/
theorem wanted_positions {d₁ d₂ : DataSet} {w : List Byte → Prop} (hnames : d₁.columns.map ColumnDesc.name = d₂.columns.map ColumnDesc.name)
    (j : Nat) : (∃ c, d₁.columns[j]? = some c ∧ w c.name) ↔ ∃ c, d₂.columns[j]? = some c ∧ w c.name := by
  have key : ∀ d : DataSet, (∃ c, d.columns[j]? = some c ∧ w c.name) ↔
      ∃ n, (d.columns.map ColumnDesc.name)[j]? = some n ∧ w n := by
    intro d
    rw [List.getElem?_map]
    constructor
    · rintro ⟨c, h1, h2⟩
      exact ⟨c.name, by rw [h1]; rfl, h2⟩
    · rintro ⟨n, h1, h2⟩
      cases hc : d.columns[j]? with
      | none => rw [hc] at h1; cases h1
      | some c => rw [hc] at h1; cases h1; exact ⟨c, rfl, h2⟩
  rw [key, key, hnames]

/-- **C87**, CSV. Two files with the same values under the same names have the same CSV text, byte by byte, whatever the
layouts: byte order, word size, header, page length, compression, places and widths of the cells. `x` gives the texts of
numbers; nothing is assumed about quotes. -/
theorem C87_layouts_csv (cfg : Cfg) (fuel : Nat) (i e : List (List Byte)) (l₁ l₂ : Layout) (d₁ d₂ : DataSet)
    (hl₁ : l₁.For d₁) (hr₁ : l₁.Plain d₁ ∨ l₁.Compressed d₁) (hm₁ : Machine cfg l₁.header d₁)
    (hf₁ : l₁.metaPages.length + l₁.rowPages.length < fuel)
    (hl₂ : l₂.For d₂) (hr₂ : l₂.Plain d₂ ∨ l₂.Compressed d₂) (hm₂ : Machine cfg l₂.header d₂)
    (hf₂ : l₂.metaPages.length + l₂.rowPages.length < fuel)
    (hnames : d₁.columns.map ColumnDesc.name = d₂.columns.map ColumnDesc.name) (values : List (List Value))
    (hv₁ : List.Forall₂ (RowHolds l₁.header.endian d₁.columns) d₁.rows values)
    (hv₂ : List.Forall₂ (RowHolds l₂.header.endian d₂.columns) d₂.rows values) :
    ∃ R₁ R₂, openReader cfg ifs fuel (some (Filter.includeExclude i e)) (IFStream.open (l₁.write d₁)) = .ok R₁ ∧
      openReader cfg ifs fuel (some (Filter.includeExclude i e)) (IFStream.open (l₂.write d₂)) = .ok R₂ ∧
      (R₁.run ifs [.readAll]).1 = [.ok .unit] ∧ (R₂.run ifs [.readAll]).1 = [.ok .unit] ∧
      ∀ x, csvText x (R₁.run ifs [.readAll]).2.trace = csvText x (R₂.run ifs [.readAll]).2.trace := by
  obtain ⟨R₁, a1, a2⟩ := readsBack hl₁ hr₁ hm₁ hf₁
  obtain ⟨R₂, b1, b2⟩ := readsBack hl₂ hr₂ hm₂ hf₂
  obtain ⟨S₁, js₁, a3, a4, a5, a6, a7⟩ := csv_of_written (i := i) (e := e) a1 a2 hv₁
  obtain ⟨S₂, js₂, b3, b4, b5, b6, b7⟩ := csv_of_written (i := i) (e := e) b1 b2 hv₂
  have hjs : js₁ = js₂ := sorted_unique a5 b5 fun j => (a6 j).trans ((wanted_positions hnames j).trans (b6 j).symm)
  subst hjs
  exact ⟨S₁, S₂, a3, b3, a4, b4, fun x => by rw [a7, b7, hnames]⟩

/-! ## C87, Python -/

theorem frame_unique {d₁ d₂ : DataSet} {w : List Byte → Prop} {values : List (List Value)} {f₁ f₂ : PyFrame}
    (hnames : d₁.columns.map ColumnDesc.name = d₂.columns.map ColumnDesc.name) (h₁ : DataFrameOf d₁.columns w values f₁)
    (h₂ : DataFrameOf d₂.columns w values f₂) (hi : f₁.index = f₂.index) : f₁ = f₂ := by
  obtain ⟨js₁, a1, a2, a3, a4⟩ := h₁
  obtain ⟨js₂, b1, b2, b3, b4⟩ := h₂
  have hjs : js₁ = js₂ := sorted_unique a1 b1 fun j => (a2 j).trans ((wanted_positions hnames j).trans (b2 j).symm)
  subst hjs
  have hn : f₁.names = f₂.names := by
    refine forall₂_unique ?_ a3 b3
    rintro j n n' ⟨c, e1, rfl⟩ ⟨c', e2, rfl⟩
    have := congrArg (·[j]?) hnames
    simp only [List.getElem?_map, e1, e2, Option.map_some, Option.some.injEq] at this
    exact this
  have hc : f₁.columns = f₂.columns := by
    refine forall₂_unique (fun j c c' h1 h2 => ?_) a4 b4
    refine forall₂_unique ?_ h1 h2
    rintro row x x' ⟨v, y, e1, rfl, e2⟩ ⟨v', y', e3, rfl, e4⟩
    rw [e1] at e3
    cases e3
    rw [pyMeans_unique e2 e4]
  obtain ⟨n₁, c₁, i₁⟩ := f₁
  obtain ⟨n₂, c₂, i₂⟩ := f₂
  simp only at hn hc hi
  subst hn hc hi
  rfl

/-- **C87**, Python. Two files with the same values under the same names give the same data frame, whatever the
layouts. Assumed as in `C63_layouts_partial`: there are rows, the names are distinct and those asked for are UTF-8. -/
theorem C87_layouts_python_partial (cfg : Cfg) (fuel : Nat) (fs : FileSystem) (name₁ name₂ : List Byte) (kind : PyKind)
    (incl excl : PyArg) (i e : List (List Byte)) (hi : ArgNames incl i) (he : ArgNames excl e)
    (hli : ∀ items, incl = .list items → items.length < 2 ^ 31)
    (hle : ∀ items, excl = .list items → items.length < 2 ^ 31) (l₁ l₂ : Layout) (d₁ d₂ : DataSet)
    (hl₁ : l₁.For d₁) (hr₁ : l₁.Plain d₁ ∨ l₁.Compressed d₁) (hm₁ : Machine cfg l₁.header d₁)
    (hf₁ : l₁.metaPages.length + l₁.rowPages.length < fuel)
    (hl₂ : l₂.For d₂) (hr₂ : l₂.Plain d₂ ∨ l₂.Compressed d₂) (hm₂ : Machine cfg l₂.header d₂)
    (hf₂ : l₂.metaPages.length + l₂.rowPages.length < fuel)
    (hfile₁ : fs.content name₁ = some (l₁.write d₁)) (hname₁ : 0 ∉ name₁)
    (hfile₂ : fs.content name₂ = some (l₂.write d₂)) (hname₂ : 0 ∉ name₂)
    (hnames : d₁.columns.map ColumnDesc.name = d₂.columns.map ColumnDesc.name) (values : List (List Value))
    (hv₁ : List.Forall₂ (RowHolds l₁.header.endian d₁.columns) d₁.rows values)
    (hv₂ : List.Forall₂ (RowHolds l₂.header.endian d₂.columns) d₂.rows values)
    (hne : values ≠ []) (hdist : (d₁.columns.map ColumnDesc.name).Nodup) (hsome : ∃ c ∈ d₁.columns, Wanted i e c.name)
    (hu : ∀ c ∈ d₁.columns, Wanted i e c.name → IsUtf8 c.name) :
    ∃ s₁ s₁' s₂ s₂' f, readSas cfg fuel fs name₁ kind incl excl = .ok s₁ ∧ s₁.df = .ok (some f, s₁') ∧
      readSas cfg fuel fs name₂ kind incl excl = .ok s₂ ∧ s₂.df = .ok (some f, s₂') := by
  have rows : ∀ {e : Endian} {d : DataSet}, List.Forall₂ (RowHolds e d.columns) d.rows values → d.rows ≠ [] := by
    intro e d h hd
    rw [hd] at h
    cases h
    exact hne rfl
  have names : ∀ n, n ∈ d₂.columns.map ColumnDesc.name → ∃ c ∈ d₁.columns, c.name = n := by
    intro n hn
    rw [← hnames] at hn
    obtain ⟨c, hc, h⟩ := List.mem_map.mp hn
    exact ⟨c, hc, h⟩
  obtain ⟨s₁, f₁, s₁', a1, a2, a3, a4⟩ := C63_layouts_partial cfg fuel fs name₁ kind incl excl i e hi he hli hle l₁ d₁ hl₁ hr₁
    hm₁ hf₁ hfile₁ hname₁ values hv₁ (rows hv₁) hdist hsome hu
  obtain ⟨s₂, f₂, s₂', b1, b2, b3, b4⟩ := C63_layouts_partial cfg fuel fs name₂ kind incl excl i e hi he hli hle l₂ d₂ hl₂ hr₂
    hm₂ hf₂ hfile₂ hname₂ values hv₂ (rows hv₂) (hnames ▸ hdist)
    (by
      obtain ⟨c, hc, hw⟩ := hsome
      have : c.name ∈ d₂.columns.map ColumnDesc.name := by rw [← hnames]; exact List.mem_map_of_mem hc
      obtain ⟨c', hc', h⟩ := List.mem_map.mp this
      exact ⟨c', hc', by rw [h]; exact hw⟩)
    (by
      intro c hc hw
      obtain ⟨c', hc', h⟩ := names c.name (List.mem_map_of_mem hc)
      rw [← h]
      exact hu c' hc' (by rw [h]; exact hw))
  have := frame_unique hnames a3 b3 (labels_unique a4 b4)
  subst this
  exact ⟨s₁, s₁', s₂, s₂', f₁, a1, a2, b1, b2⟩

/-! ## C87, R -/

theorem table_unique {d₁ d₂ : DataSet} {w : List Byte → Prop} {values : List (List Value)} {t₁ t₂ : RTable}
    (hnames : d₁.columns.map ColumnDesc.name = d₂.columns.map ColumnDesc.name) (h₁ : TableOf d₁.columns w values t₁)
    (h₂ : TableOf d₂.columns w values t₂) : t₁.Perm t₂ ∧
      ((∀ (j : Nat) (c : ColumnDesc), d₁.columns[j]? = some c → w c.name → ∃ row ∈ values, ∃ v, row[j]? = some v ∧ v ≠ .missing) →
        t₁ = t₂) := by
  obtain ⟨js₁, a1, a2, a0, a3⟩ := h₁
  obtain ⟨js₂, b1, b2, b0, b3⟩ := h₂
  have hjs : js₁.Perm js₂ := (List.perm_ext_iff_of_nodup a1 b1).mpr
    fun j => (a2 j).trans ((wanted_positions hnames j).trans (b2 j).symm)
  have same : ∀ {js : List Nat} {t t' : RTable},
      List.Forall₂ (fun j e => (∃ c, d₁.columns[j]? = some c ∧ e.1 = c.name) ∧
        List.Forall₂ (fun row x => ∃ v, row[j]? = some v ∧ RMeans v x) values e.2) js t →
      List.Forall₂ (fun j e => (∃ c, d₂.columns[j]? = some c ∧ e.1 = c.name) ∧
        List.Forall₂ (fun row x => ∃ v, row[j]? = some v ∧ RMeans v x) values e.2) js t' → t = t' := by
    intro js t t' h1 h2
    refine forall₂_unique ?_ h1 h2
    rintro j ⟨n, c⟩ ⟨n', c'⟩ ⟨⟨x, e1, rfl⟩, e2⟩ ⟨⟨x', e3, rfl⟩, e4⟩
    have hn := congrArg (·[j]?) hnames
    simp only [List.getElem?_map, e1, e3, Option.map_some, Option.some.injEq] at hn
    refine Prod.ext hn ?_
    refine forall₂_unique ?_ e2 e4
    rintro row y y' ⟨v, g1, g2⟩ ⟨v', g3, g4⟩
    rw [g1] at g3
    cases g3
    exact rMeans_unique g2 g4
  constructor
  · obtain ⟨t, h1, h2⟩ := List.perm_comp_forall₂ hjs.symm a3
    rw [← same h1 b3]
    exact h2.symm
  · intro hval
    have hrank : ∀ j ∈ js₁, ∃ row ∈ values, ∃ v n, row[j]? = some v ∧ v.rank = some n := by
      intro j hj
      obtain ⟨c, c1, c2⟩ := (a2 j).mp hj
      obtain ⟨row, r1, v, r2, r3⟩ := hval j c c1 c2
      cases v with
      | missing => exact absurd rfl r3
      | _ => exact ⟨row, r1, _, _, r2, rfl⟩
    have : js₁ = js₂ := by
      refine List.Perm.eq_of_pairwise ?_ a0 b0 hjs
      intro a b ha hb hab hba
      obtain ⟨row, r1, v, n, r2, r3⟩ := hrank a ha
      obtain ⟨row', r1', v', n', r2', r3'⟩ := hrank b (hjs.mem_iff.mpr hb)
      have h1 := hab row r1 row' r1' v v' n n' r2 r2' r3 r3'
      have h2 := hba row' r1' row r1 v' v n' n r2' r2 r3' r3
      omega
    subst this
    exact same a3 b3

/-- **C87**, R. Two files with the same values under the same names give data frames with the same columns, whatever the
layouts. Assumed as in `C68_layouts_partial`: there are rows, at most 2^31, texts and names are without zero bytes, and the
time stamps of the headers lie in the calendar. The columns are in the same order if each of them has a value that is not
missing. Missing, and false (`C87_r_order_refuted`): the order of the other columns. -/
theorem C87_layouts_r_partial (unique : List (List Byte) → List (List Byte)) (cfg : Cfg) (fuel : Nat) (fs : FileSystem)
    (name₁ name₂ : List Byte) (incl excl : RArg) (i e : List (List Byte)) (hi : RArgNames incl i) (he : RArgNames excl e)
    (hli : ∀ items, incl = .chr items → items.length < 2 ^ 31)
    (hle : ∀ items, excl = .chr items → items.length < 2 ^ 31) (l₁ l₂ : Layout) (d₁ d₂ : DataSet)
    (hl₁ : l₁.For d₁) (hr₁ : l₁.Plain d₁ ∨ l₁.Compressed d₁) (hm₁ : Machine cfg l₁.header d₁)
    (hf₁ : l₁.metaPages.length + l₁.rowPages.length < fuel)
    (hl₂ : l₂.For d₂) (hr₂ : l₂.Plain d₂ ∨ l₂.Compressed d₂) (hm₂ : Machine cfg l₂.header d₂)
    (hf₂ : l₂.metaPages.length + l₂.rowPages.length < fuel)
    (hfile₁ : fs.content name₁ = some (l₁.write d₁)) (hname₁ : 0 ∉ name₁)
    (hfile₂ : fs.content name₂ = some (l₂.write d₂)) (hname₂ : 0 ∉ name₂)
    (hc₁ : InCalendar l₁.header.created ∧ InCalendar l₁.header.modified)
    (hc₂ : InCalendar l₂.header.created ∧ InCalendar l₂.header.modified)
    (hnames : d₁.columns.map ColumnDesc.name = d₂.columns.map ColumnDesc.name) (values : List (List Value))
    (hv₁ : List.Forall₂ (RowHolds l₁.header.endian d₁.columns) d₁.rows values)
    (hv₂ : List.Forall₂ (RowHolds l₂.header.endian d₂.columns) d₂.rows values)
    (hne : values ≠ []) (h31 : values.length ≤ 2 ^ 31) (h0 : ∀ row ∈ values, ∀ t, Value.text t ∈ row → 0 ∉ t)
    (hz : ∀ c ∈ d₁.columns, Wanted i e c.name → 0 ∉ c.name) :
    ∃ k₁ t₁ k₂ t₂, rReadSas unique cfg fuel fs name₁ incl excl = .ok k₁ ∧ k₁.df = some t₁ ∧
      rReadSas unique cfg fuel fs name₂ incl excl = .ok k₂ ∧ k₂.df = some t₂ ∧ t₁.Perm t₂ ∧
      ((∀ (j : Nat) (c : ColumnDesc), d₁.columns[j]? = some c → Wanted i e c.name →
        ∃ row ∈ values, ∃ v, row[j]? = some v ∧ v ≠ .missing) → t₁ = t₂) := by
  have rows : ∀ {e : Endian} {d : DataSet}, List.Forall₂ (RowHolds e d.columns) d.rows values → d.rows ≠ [] := by
    intro e d h hd
    rw [hd] at h
    cases h
    exact hne rfl
  obtain ⟨k₁, t₁, a1, a2, a3⟩ := C68_layouts_partial unique cfg fuel fs name₁ incl excl i e hi he hli hle l₁ d₁ hl₁ hr₁
    hm₁ hf₁ hfile₁ hname₁ hc₁ values hv₁ (rows hv₁) (by rw [hv₁.length_eq]; exact h31) h0 hz
  obtain ⟨k₂, t₂, b1, b2, b3⟩ := C68_layouts_partial unique cfg fuel fs name₂ incl excl i e hi he hli hle l₂ d₂ hl₂ hr₂
    hm₂ hf₂ hfile₂ hname₂ hc₂ values hv₂ (rows hv₂) (by rw [hv₂.length_eq]; exact h31) h0
    (by
      intro c hc hw
      have : c.name ∈ d₁.columns.map ColumnDesc.name := by rw [hnames]; exact List.mem_map_of_mem hc
      obtain ⟨c', hc', h⟩ := List.mem_map.mp this
      rw [← h]
      exact hz c' hc' (by rw [h]; exact hw))
  exact ⟨k₁, t₁, k₂, t₂, a1, a2, b1, b2, table_unique hnames a3 b3⟩

/-! ## A data set -/

/-- A 32-bit little-endian file. -/
def demoSmall : FileHeader where
  wide := false
  padded := false
  endian := .little
  platform := .windows
  encoding := 62
  datasetName := ascii "PPL"
  fileType := ascii "DATA"
  created := 0
  modified := 0
  headerLength := 1024
  pageLength := 2048
  pageCount := 3
  sasRelease := ascii "9.0401M3"
  serverType := ascii "X64_ES08R2"
  osType := []
  osName := []

/-- `people` with other formats and labels, at other places of the row and with a number of which three bytes are stored. -/
def peopleSmall : DataSet where
  columns := [⟨ascii "weight", [], ascii "BEST", 10, 3, true⟩, ⟨ascii "name", ascii "first name", [], 0, 5, false⟩,
    ⟨ascii "age", [], [], 5, 2, true⟩, ⟨ascii "born", [], ascii "YYMMDD", 16, 8, true⟩]
  rowLength := 24
  rows := [ascii "ann  " ++ [42, 0] ++ [0, 0, 0] ++ [0, 0x50, 0x40] ++ [0, 0, 0] ++ encode .little 8 0x40c7700000000000,
    ascii "bob  " ++ [255, 255] ++ [0, 0, 0] ++ [0, 0xf0, 0xff] ++ [0, 0, 0] ++ encode .little 8 0x7ff8000000000000,
    [0, 0, 0, 0, 0] ++ [7, 0] ++ [0, 0, 0] ++ [0, 0x50, 0x40] ++ [0, 0, 0] ++ encode .little 8 0xc0c7700000000000]

/-- The rows of `people` and of `peopleSmall`. -/
def peopleRows : List (List Value) :=
  [[.number 0x4050000000000000, .text (ascii "ann"), .integer 42, .date 12000],
   [.number 0xfff0000000000000, .text (ascii "bob"), .integer (-1), .missing],
   [.number 0x4050000000000000, .text [], .integer 7, .date (-12000)]]

theorem demoSmall_writable : demoSmall.Writable where
  long := by decide
  datasetName := ⟨by decide, show ∀ b ∈ demoSmall.datasetName.head?, _ by decide,
    show ∀ b ∈ demoSmall.datasetName.getLast?, _ by decide +kernel⟩
  fileType := ⟨by decide, show ∀ b ∈ demoSmall.fileType.head?, _ by decide +kernel,
    show ∀ b ∈ demoSmall.fileType.getLast?, _ by decide +kernel⟩
  sasRelease := ⟨by decide, show ∀ b ∈ demoSmall.sasRelease.head?, _ by decide +kernel,
    show ∀ b ∈ demoSmall.sasRelease.getLast?, _ by decide +kernel⟩
  serverType := ⟨by decide, show ∀ b ∈ demoSmall.serverType.head?, _ by decide +kernel,
    show ∀ b ∈ demoSmall.serverType.getLast?, _ by decide +kernel⟩
  osType := ⟨by decide, show ∀ b ∈ demoSmall.osType.head?, _ by decide +kernel,
    show ∀ b ∈ demoSmall.osType.getLast?, _ by decide +kernel⟩
  osName := ⟨by decide, show ∀ b ∈ demoSmall.osName.head?, _ by decide +kernel,
    show ∀ b ∈ demoSmall.osName.getLast?, _ by decide +kernel⟩
  stamps := by
    obtain ⟨x, h1, h2, h3⟩ := inCalendar_zero
    exact ⟨.inr ⟨x, h1, by rw [abs_le]; constructor <;> linarith⟩, .inr ⟨x, h1, by rw [abs_le]; constructor <;> linarith⟩⟩
  sizes := by decide

theorem peopleSmall_columns : ∀ c ∈ peopleSmall.columns, c.Writable .bit32 := by
  have h : ∀ c ∈ peopleSmall.columns, ((∀ b ∈ c.name.head?, printable b ∧ ¬ white b) ∧
      (∀ b ∈ c.name.getLast?, printable b ∧ ¬ white b)) ∧ ((∀ b ∈ c.format.head?, printable b ∧ ¬ white b) ∧
      (∀ b ∈ c.format.getLast?, printable b ∧ ¬ white b)) ∧ ((∀ b ∈ c.label.head?, printable b ∧ ¬ white b) ∧
      (∀ b ∈ c.label.getLast?, printable b ∧ ¬ white b)) ∧ c.offset < 256 ^ word .bit32 ∧ c.length < 2 ^ 32 := by
    decide +kernel
  intro c hc
  obtain ⟨h1, h2, h3, h4⟩ := h c hc
  exact ⟨⟨h1.1, h1.2⟩, ⟨h2.1, h2.2⟩, ⟨h3.1, h3.2⟩, h4⟩

theorem peopleSmall_fits : peopleSmall.Fits demoSmall where
  header := demoSmall_writable
  columnsOk := peopleSmall_columns
  columns := by decide
  texts := by decide +kernel
  sizes := by decide
  rowLength := by decide +kernel
  page := by decide

theorem peopleSmall_machine : Machine Demo.cfg demoSmall peopleSmall where
  header := by decide
  page := by decide
  row := by decide
  columns := by decide
  loggable := fun h => by cases h

theorem peopleSmall_row0 : RowHolds .little peopleSmall.columns peopleSmall.rows[0]
    [.number 0x4050000000000000, .text (ascii "ann"), .integer 42, .date 12000] where
  count := rfl
  cells := by
    intro i c v h1 h2
    match i with
    | 0 =>
      cases h1; cases h2
      exact ⟨ascii "ann  " ++ [42, 0] ++ [0, 0, 0], _, [0, 0, 0] ++ encode .little 8 0x40c7700000000000, by decide +kernel, rfl,
        by decide +kernel, .number _ (columnType_of (e := .little) (by decide +kernel)) (by decide) (by decide)⟩
    | 1 =>
      cases h1; cases h2
      exact ⟨[], _, [42, 0] ++ [0, 0, 0] ++ [0, 0x50, 0x40] ++ [0, 0, 0] ++ encode .little 8 0x40c7700000000000, by decide +kernel, rfl,
        by decide +kernel, .text (ascii "ann") [0x20, 0x20] rfl (by decide)
          (show ∀ b ∈ (ascii "ann").getLast?, _ by decide +kernel)⟩
    | 2 =>
      cases h1; cases h2
      exact ⟨ascii "ann  ", _, [0, 0, 0] ++ [0, 0x50, 0x40] ++ [0, 0, 0] ++ encode .little 8 0x40c7700000000000,
        by decide +kernel, rfl, by decide +kernel, .short 42 rfl rfl (by decide) (by decide)⟩
    | 3 =>
      cases h1; cases h2
      refine ⟨ascii "ann  " ++ [42, 0] ++ [0, 0, 0] ++ [0, 0x50, 0x40] ++ [0, 0, 0], _, [], by decide +kernel, rfl,
        by decide +kernel, .date 12000 0x40c7700000000000 (columnType_of (e := .little) (by decide +kernel)) rfl
          ⟨0, 0x40c, 0x7700000000000, by decide, by decide, by decide, .inr ⟨by decide, by decide, ?_⟩⟩
          (by decide) (by decide)⟩
      norm_num

theorem peopleSmall_row1 : RowHolds .little peopleSmall.columns peopleSmall.rows[1]
    [.number 0xfff0000000000000, .text (ascii "bob"), .integer (-1), .missing] where
  count := rfl
  cells := by
    intro i c v h1 h2
    match i with
    | 0 =>
      cases h1; cases h2
      exact ⟨ascii "bob  " ++ [255, 255] ++ [0, 0, 0], _, [0, 0, 0] ++ encode .little 8 0x7ff8000000000000, by decide +kernel, rfl,
        by decide +kernel, .number _ (columnType_of (e := .little) (by decide +kernel)) (by decide) (by decide)⟩
    | 1 =>
      cases h1; cases h2
      exact ⟨[], _, [255, 255] ++ [0, 0, 0] ++ [0, 0xf0, 0xff] ++ [0, 0, 0] ++ encode .little 8 0x7ff8000000000000, by decide +kernel,
        rfl, by decide +kernel, .text (ascii "bob") [0x20, 0x20] rfl (by decide)
          (show ∀ b ∈ (ascii "bob").getLast?, _ by decide +kernel)⟩
    | 2 =>
      cases h1; cases h2
      exact ⟨ascii "bob  ", _, [0, 0, 0] ++ [0, 0xf0, 0xff] ++ [0, 0, 0] ++ encode .little 8 0x7ff8000000000000,
        by decide +kernel, rfl, by decide +kernel, .short (-1) rfl rfl (by decide) (by decide)⟩
    | 3 =>
      cases h1; cases h2
      exact ⟨ascii "bob  " ++ [255, 255] ++ [0, 0, 0] ++ [0, 0xf0, 0xff] ++ [0, 0, 0], _, [], by decide +kernel, rfl,
        by decide +kernel, .missing 0x7ff8000000000000 (.inr (.inl (columnType_of (e := .little) (by decide +kernel))))
          rfl ⟨0, 2 ^ 51, by decide, by decide, by decide, by decide⟩⟩

theorem peopleSmall_row2 : RowHolds .little peopleSmall.columns peopleSmall.rows[2]
    [.number 0x4050000000000000, .text [], .integer 7, .date (-12000)] where
  count := rfl
  cells := by
    intro i c v h1 h2
    match i with
    | 0 =>
      cases h1; cases h2
      exact ⟨[0, 0, 0, 0, 0] ++ [7, 0] ++ [0, 0, 0], _, [0, 0, 0] ++ encode .little 8 0xc0c7700000000000, by decide +kernel, rfl,
        by decide +kernel, .number _ (columnType_of (e := .little) (by decide +kernel)) (by decide) (by decide)⟩
    | 1 =>
      cases h1; cases h2
      exact ⟨[], _, [7, 0] ++ [0, 0, 0] ++ [0, 0x50, 0x40] ++ [0, 0, 0] ++ encode .little 8 0xc0c7700000000000, by decide +kernel, rfl,
        by decide +kernel, .text [] [0, 0, 0, 0, 0] rfl (by decide) (by simp)⟩
    | 2 =>
      cases h1; cases h2
      exact ⟨[0, 0, 0, 0, 0], _, [0, 0, 0] ++ [0, 0x50, 0x40] ++ [0, 0, 0] ++ encode .little 8 0xc0c7700000000000,
        by decide +kernel, rfl, by decide +kernel, .short 7 rfl rfl (by decide) (by decide)⟩
    | 3 =>
      cases h1; cases h2
      refine ⟨[0, 0, 0, 0, 0] ++ [7, 0] ++ [0, 0, 0] ++ [0, 0x50, 0x40] ++ [0, 0, 0], _, [], by decide +kernel, rfl,
        by decide +kernel, .date (-12000) 0xc0c7700000000000 (columnType_of (e := .little) (by decide +kernel)) rfl
          ⟨1, 0x40c, 0x7700000000000, by decide, by decide, by decide, .inr ⟨by decide, by decide, ?_⟩⟩
          (by decide) (by decide)⟩
      norm_num

theorem peopleSmall_values : List.Forall₂ (RowHolds .little peopleSmall.columns) peopleSmall.rows peopleRows :=
  .cons peopleSmall_row0 (.cons peopleSmall_row1 (.cons peopleSmall_row2 .nil))

theorem peopleSmall_rle : (Layout.rle demoSmall peopleSmall).For peopleSmall ∧ (Layout.rle demoSmall peopleSmall).Compressed peopleSmall :=
  rle_for peopleSmall_fits (by decide) (by decide) (by decide +kernel)

theorem people_packed : (Layout.packed demoDated people).For people ∧ (Layout.packed demoDated people).Plain people :=
  packed_for people_fits_dated

theorem small_names : people.columns.map ColumnDesc.name = peopleSmall.columns.map ColumnDesc.name := by decide +kernel

theorem peopleRows_texts : ∀ row ∈ peopleRows, ∀ t, Value.text t ∈ row → 0 ∉ t ∧ 34 ∉ t := by
  intro row hrow t ht
  simp only [peopleRows, List.mem_cons, List.not_mem_nil, or_false] at hrow
  rcases hrow with rfl | rfl | rfl <;> simp only [List.mem_cons, List.not_mem_nil, or_false, reduceCtorEq, false_or, Value.text.injEq] at ht <;>
    subst ht <;> decide +kernel

/-- C87 for the CSV of `peopleSmall`, compressed. -/
example : ∃ R text records, openReader Demo.cfg ifs 100 (some (Filter.includeExclude [] []))
      (IFStream.open ((Layout.rle demoSmall peopleSmall).write peopleSmall)) = .ok R ∧
    csvText libTexts (R.run ifs [.readAll]).2.trace = (text, .ok ()) ∧ csvRecords text = some records ∧
    RecordsOf peopleSmall.columns (Wanted [] []) peopleRows records :=
  C87_csv_partial Demo.cfg 100 [] [] _ _ peopleSmall_rle.1 (.inr peopleSmall_rle.2) peopleSmall_machine (by decide +kernel) _
    peopleSmall_values ⟨_, List.mem_cons_self, by simp [Wanted]⟩
    (fun c hc _ => (show ∀ c ∈ peopleSmall.columns, 34 ∉ c.name by decide +kernel) c hc)
    (fun row hrow v hv => by
      cases v with
      | text t => exact (peopleRows_texts row hrow t hv).2
      | _ => trivial)

/-- C87 for `people`, uncompressed, and `peopleSmall`, compressed: the CSV. -/
example : ∃ R₁ R₂, openReader Demo.cfg ifs 100 (some (Filter.includeExclude [] [ascii "age"]))
      (IFStream.open ((Layout.packed demoDated people).write people)) = .ok R₁ ∧
    openReader Demo.cfg ifs 100 (some (Filter.includeExclude [] [ascii "age"]))
      (IFStream.open ((Layout.rle demoSmall peopleSmall).write peopleSmall)) = .ok R₂ ∧
    (R₁.run ifs [.readAll]).1 = [.ok .unit] ∧ (R₂.run ifs [.readAll]).1 = [.ok .unit] ∧
    ∀ x, csvText x (R₁.run ifs [.readAll]).2.trace = csvText x (R₂.run ifs [.readAll]).2.trace :=
  C87_layouts_csv Demo.cfg 100 [] [ascii "age"] _ _ _ _ people_packed.1 (.inl people_packed.2) people_machine_dated (by decide +kernel)
    peopleSmall_rle.1 (.inr peopleSmall_rle.2) peopleSmall_machine (by decide +kernel) small_names _ people_values peopleSmall_values

/-- The two files. -/
def bothLayouts : FileSystem where
  content n := if n = ascii "a" then some ((Layout.packed demoDated people).write people)
    else if n = ascii "b" then some ((Layout.rle demoSmall peopleSmall).write peopleSmall) else none
  writable _ := false

theorem bothLayouts_a : bothLayouts.content (ascii "a") = some ((Layout.packed demoDated people).write people) := by
  simp only [bothLayouts, if_pos]

theorem bothLayouts_b : bothLayouts.content (ascii "b") = some ((Layout.rle demoSmall peopleSmall).write peopleSmall) := by
  have h : ascii "b" ≠ ascii "a" := by decide +kernel
  simp only [bothLayouts, if_neg h, if_pos]

/-- The data frames, in chunks of two rows. -/
example : ∃ s₁ s₁' s₂ s₂' f, readSas Demo.cfg 100 bothLayouts (ascii "a") (.chunk 2) = .ok s₁ ∧ s₁.df = .ok (some f, s₁') ∧
    readSas Demo.cfg 100 bothLayouts (ascii "b") (.chunk 2) = .ok s₂ ∧ s₂.df = .ok (some f, s₂') :=
  C87_layouts_python_partial Demo.cfg 100 bothLayouts (ascii "a") (ascii "b") (.chunk 2) .none .none [] [] rfl rfl
    (fun _ h => by cases h) (fun _ h => by cases h) _ _ _ _ people_packed.1 (.inl people_packed.2) people_machine_dated
    (by decide +kernel) peopleSmall_rle.1 (.inr peopleSmall_rle.2) peopleSmall_machine (by decide +kernel)
    bothLayouts_a (by decide) bothLayouts_b (by decide) small_names _ people_values peopleSmall_values
    (by decide) (by decide +kernel) ⟨_, List.mem_cons_self, by simp [Wanted]⟩
    (fun c hc _ => ByteArray.validateUTF8_eq_true_iff.mp ((show ∀ c ∈ people.columns, utf8Valid c.name = true by decide +kernel) c hc))

/-- The tables in R: no column of `people` has only missing values. -/
example : ∃ k₁ t₁ k₂, rReadSas unique Demo.cfg 100 bothLayouts (ascii "a") = .ok k₁ ∧ k₁.df = some t₁ ∧
    rReadSas unique Demo.cfg 100 bothLayouts (ascii "b") = .ok k₂ ∧ k₂.df = some t₁ := by
  obtain ⟨k₁, t₁, k₂, t₂, h1, h2, h3, h4, -, h5⟩ :=
    C87_layouts_r_partial unique Demo.cfg 100 bothLayouts (ascii "a") (ascii "b") .null .null [] [] rfl rfl
    (fun _ h => by cases h) (fun _ h => by cases h) _ _ _ _ people_packed.1 (.inl people_packed.2) people_machine_dated
    (by decide +kernel) peopleSmall_rle.1 (.inr peopleSmall_rle.2) peopleSmall_machine (by decide +kernel)
    bothLayouts_a (by decide) bothLayouts_b (by decide) ⟨inCalendar_zero, inCalendar_zero⟩
    ⟨inCalendar_zero, inCalendar_zero⟩ small_names _ people_values peopleSmall_values
    (by decide) (by decide) (fun row hrow t ht => (peopleRows_texts row hrow t ht).1)
    (fun c hc _ => (show ∀ c ∈ people.columns, 0 ∉ c.name by decide +kernel) c hc)
  refine ⟨k₁, t₁, k₂, h1, h2, h3, ?_⟩
  rw [h4, h5]
  intro j c hc _
  refine ⟨_, List.mem_cons_self, ?_⟩
  match j with
  | 0 => exact ⟨_, rfl, by simp⟩
  | 1 => exact ⟨_, rfl, by simp⟩
  | 2 => exact ⟨_, rfl, by simp⟩
  | 3 => exact ⟨_, rfl, by simp⟩
  | j + 4 => cases hc

/-- A time stamp and a date, both missing. -/
def lostStamps : DataSet where
  columns := [⟨ascii "a", [], ascii "DATETIME", 0, 8, true⟩, ⟨ascii "b", [], ascii "DATE", 8, 8, true⟩]
  rowLength := 16
  rows := [encode .little 8 0x7ff8000000000000 ++ encode .little 8 0x7ff8000000000000]

/-- A time of day and a date, both missing. -/
def lostTimes : DataSet where
  columns := [⟨ascii "a", [], ascii "TIME", 0, 8, true⟩, ⟨ascii "b", [], ascii "DATE", 8, 8, true⟩]
  rowLength := 16
  rows := [encode .little 8 0x7ff8000000000000 ++ encode .little 8 0x7ff8000000000000]

/-- The two files. -/
def twoKinds : FileSystem where
  content n := if n = ascii "a" then some ((Layout.packed demoSmall lostStamps).write lostStamps)
    else if n = ascii "b" then some ((Layout.packed demoSmall lostTimes).write lostTimes) else none
  writable _ := false

/-- **C87** is false in R of the order of columns that have no values: files with the same names and the same (missing)
values, of which one has a column of time stamps where the other one has times of day. -/
theorem C87_r_order_refuted :
    lostStamps.columns.map ColumnDesc.name = lostTimes.columns.map ColumnDesc.name ∧
    List.Forall₂ (RowHolds .little lostStamps.columns) lostStamps.rows [[.missing, .missing]] ∧
    List.Forall₂ (RowHolds .little lostTimes.columns) lostTimes.rows [[.missing, .missing]] ∧
    (rReadSas id Demo.cfg 100 twoKinds (ascii "a")).map RSink.df = .ok (some [(ascii "a", [.na]), (ascii "b", [.na])]) ∧
    (rReadSas id Demo.cfg 100 twoKinds (ascii "b")).map RSink.df = .ok (some [(ascii "b", [.na]), (ascii "a", [.na])]) := by
  have nan : IeeeNaN 0x7ff8000000000000 := ⟨0, 2 ^ 51, by decide, by decide, by decide, by decide⟩
  refine ⟨by decide +kernel, .cons ⟨rfl, ?_⟩ .nil, .cons ⟨rfl, ?_⟩ .nil, by decide +kernel, by decide +kernel⟩
  · intro i c v h1 h2
    match i with
    | 0 =>
      cases h1; cases h2
      exact ⟨[], _, encode .little 8 0x7ff8000000000000, by decide +kernel, rfl, by decide +kernel,
        .missing 0x7ff8000000000000 (.inl (columnType_of (e := .little) (by decide +kernel))) rfl nan⟩
    | 1 =>
      cases h1; cases h2
      exact ⟨encode .little 8 0x7ff8000000000000, _, [], by decide +kernel, by decide +kernel, by decide +kernel,
        .missing 0x7ff8000000000000 (.inr (.inl (columnType_of (e := .little) (by decide +kernel)))) rfl nan⟩
  · intro i c v h1 h2
    match i with
    | 0 =>
      cases h1; cases h2
      exact ⟨[], _, encode .little 8 0x7ff8000000000000, by decide +kernel, rfl, by decide +kernel,
        .missing 0x7ff8000000000000 (.inr (.inr (columnType_of (e := .little) (by decide +kernel)))) rfl nan⟩
    | 1 =>
      cases h1; cases h2
      exact ⟨encode .little 8 0x7ff8000000000000, _, [], by decide +kernel, by decide +kernel, by decide +kernel,
        .missing 0x7ff8000000000000 (.inr (.inl (columnType_of (e := .little) (by decide +kernel)))) rfl nan⟩

end Sas.Props
