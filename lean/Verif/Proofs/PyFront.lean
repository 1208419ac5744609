import Verif.Spec.PyFront
import Verif.Proofs.PySinks
import Verif.Proofs.Reader
import Verif.Props.PyTime

/-! # The Python package -/

namespace Sas
open Spec

theorem isDay_of_ymd {n : Int} {y : Ymd} (hc : CalendarDay n) (h : (day1960 n).ymd = .ok y) : IsDay n y := by
  obtain ⟨x, h1, h2, h3, h4⟩ := Props.C51_calendar n hc.1 hc.2
  rw [h1] at h
  cases h
  exact ⟨h2, h3, h4⟩

theorem py_instant {us : Int} (hc : CalendarDay (us / 86400000000)) :
    ∃ y, Cell.toPy (.datetime (at1960 us)) = .ok y ∧ PyInstant us y := by
  unfold CalendarDay at hc
  obtain ⟨x, h, m, s, u, h1, h2, h3, h4, -⟩ := Props.C38_datetime us (by omega) (by omega)
  refine ⟨.time (.datetime x h m s u), ?_, x, h, m, s, u, rfl, isDay_of_ymd hc h2, h3, h4⟩
  unfold Cell.toPy
  simp only [h1]
  rfl

theorem py_day {n : Int} (hc : CalendarDay n) : ∃ y, Cell.toPy (.date (day1960 n)) = .ok y ∧ PyDay n y := by
  obtain ⟨x, h1, h2, -⟩ := Props.C38_date n hc.1 hc.2
  refine ⟨.time (.date x), ?_, x, rfl, isDay_of_ymd hc h2⟩
  unfold Cell.toPy
  simp only [h1]
  rfl

theorem py_clock {n : Nat} (hn : n < 86400000000) : ∃ y, Cell.toPy (.time (.us n)) = .ok y ∧ PyClock n y := by
  obtain ⟨h, m, s, u, h1, h2, h3⟩ := Props.C38_time n hn
  refine ⟨.time (.time h m s u), ?_, h, m, s, u, rfl, h2, h3⟩
  unfold Cell.toPy
  simp only [h1]
  rfl

theorem toPy_of_shows {v : Cell} {y : PyVal} (h : PyShows v y) : ∃ y, v.toPy = .ok y ∧ PyShows v y := by
  cases v with
  | str s => exact ⟨_, rfl, rfl⟩
  | int i => exact ⟨_, rfl, rfl⟩
  | num x => exact ⟨_, rfl, rfl⟩
  | datetime t =>
    rcases h with ⟨rfl, rfl⟩ | ⟨us, rfl, hc, -⟩
    · exact ⟨_, rfl, .inl ⟨rfl, rfl⟩⟩
    · obtain ⟨y, h1, h2⟩ := py_instant hc
      exact ⟨y, h1, .inr ⟨us, rfl, hc, h2⟩⟩
  | date d =>
    rcases h with ⟨rfl, rfl⟩ | ⟨n, rfl, hc, -⟩
    · exact ⟨_, rfl, .inl ⟨rfl, rfl⟩⟩
    · obtain ⟨y, h1, h2⟩ := py_day hc
      exact ⟨y, h1, .inr ⟨n, rfl, hc, h2⟩⟩
  | time t =>
    rcases h with ⟨rfl, rfl⟩ | ⟨n, rfl, hn, -⟩
    · exact ⟨_, rfl, .inl ⟨rfl, rfl⟩⟩
    · obtain ⟨y, h1, h2⟩ := py_clock hn
      exact ⟨y, h1, .inr ⟨n, rfl, hn, h2⟩⟩

theorem cellsToPy_shows : ∀ {vs : List Cell}, (∀ v ∈ vs, ∃ y, PyShows v y) →
    ∃ ys, cellsToPy vs = .ok ys ∧ List.Forall₂ PyShows vs ys := by
  intro vs
  induction vs with
  | nil => intro _; exact ⟨[], rfl, .nil⟩
  | cons v vs ih =>
    intro h
    obtain ⟨y, hy⟩ := h v (by simp)
    obtain ⟨y, h1, h2⟩ := toPy_of_shows hy
    obtain ⟨ys, h3, h4⟩ := ih fun v hv => h v (by simp [hv])
    refine ⟨y :: ys, ?_, .cons h2 h4⟩
    unfold cellsToPy
    rw [h1, h3]
    rfl

/-! ## Dictionaries and frames -/

theorem dictOf_nodup : ∀ (gs : List GroupedColumn) (vals : List (List Cell)) (d : PyDict), (d.map Prod.fst).Nodup →
    ((dictOf gs vals d).map Prod.fst).Nodup := by
  have hset : ∀ (d : PyDict) k v, (d.map Prod.fst).Nodup → ((d.set k v).map Prod.fst).Nodup := by
    intro d k v
    induction d with
    | nil => intro _; simp [PyDict.set]
    | cons e d ih =>
      intro h
      unfold PyDict.set
      split
      · rename_i heq; subst heq; simpa using h
      · rename_i hne
        simp only [List.map_cons, List.nodup_cons] at h ⊢
        refine ⟨fun hm => ?_, ih h.2⟩
        rcases dict_keys_set _ _ _ _ hm with hm | hm
        · exact hne hm
        · exact h.1 hm
  intro gs
  induction gs with
  | nil => intro vals d h; exact h
  | cons g gs ih =>
    intro vals d h
    cases vals with
    | nil => exact h
    | cons v vals => exact ih vals _ (hset d _ v h)

theorem lookup_ne {β : Type} {d : List (List Byte × β)} {k k' : List Byte} {v : β} (h : k ≠ k') :
    ((k', v) :: d).lookup k = d.lookup k := by
  rw [List.lookup, show (k == k') = false by simpa using h]

theorem lookup_of_mem {β : Type} : ∀ {d : List (List Byte × β)} {k : List Byte} {v : β}, (d.map Prod.fst).Nodup → (k, v) ∈ d →
    d.lookup k = some v := by
  intro d
  induction d with
  | nil => intro k v _ h; simp at h
  | cons e d ih =>
    intro k v hn h
    obtain ⟨k', v'⟩ := e
    simp only [List.map_cons, List.nodup_cons] at hn
    rw [List.mem_cons] at h
    rcases h with h | h
    · cases h; simp
    · have hne : k ≠ k' := fun he => hn.1 (he ▸ List.mem_map_of_mem (f := Prod.fst) h)
      rw [lookup_ne hne]
      exact ih hn.2 h

theorem dictToPy_shows : ∀ {d : PyDict}, (∀ e ∈ d, ∀ v ∈ e.2, ∃ y, PyShows v y) →
    ∃ d', dictToPy d = .ok d' ∧ ∀ k, (d.lookup k = none → d'.lookup k = none) ∧
      ∀ vs, d.lookup k = some vs → ∃ ys, d'.lookup k = some ys ∧ List.Forall₂ PyShows vs ys := by
  intro d
  induction d with
  | nil => intro _; exact ⟨[], rfl, fun k => ⟨fun _ => rfl, by simp⟩⟩
  | cons e d ih =>
    intro h
    obtain ⟨k0, vs0⟩ := e
    obtain ⟨ys, h1, h2⟩ := cellsToPy_shows (h (k0, vs0) (by simp))
    obtain ⟨d', h3, h4⟩ := ih fun e he => h e (by simp [he])
    refine ⟨(k0, ys) :: d', ?_, fun k => ?_⟩
    · unfold dictToPy
      rw [h1, h3]
      rfl
    · by_cases hk : k = k0
      · subst hk
        refine ⟨by simp, fun vs hvs => ?_⟩
        simp at hvs
        subst hvs
        exact ⟨ys, by simp, h2⟩
      · rw [lookup_ne hk, lookup_ne hk]
        exact h4 k

theorem columnValues_shows {c : Column} {rows : List (Nat × Row)} {vs : List Cell} (h : ColumnValues c rows vs)
    (hr : ∀ r ∈ rows, ∃ v y, c.value r.2.mem = .ok (some v) ∧ PyShows v y) : ∀ v ∈ vs, ∃ y, PyShows v y := by
  intro v hv
  unfold ColumnValues at h
  have : Except.ok (some v) ∈ rows.map (fun r => c.value r.2.mem) := by
    rw [h]; exact List.mem_map_of_mem (f := fun v => (Except.ok (some v) : Res (Option Cell))) hv
  obtain ⟨r, hr1, hr2⟩ := List.mem_map.mp this
  obtain ⟨v', y, h1, h2⟩ := hr r hr1
  rw [hr2] at h1
  cases h1
  exact ⟨y, h2⟩

theorem column_entries {c : Column} : ∀ {rows : List (Nat × Row)} {vs : List Cell} {ys : List PyVal},
    ColumnValues c rows vs → List.Forall₂ PyShows vs ys → List.Forall₂ (EntryShows c) rows (ys.map some) := by
  intro rows
  induction rows with
  | nil =>
    intro vs ys h h2
    unfold ColumnValues at h
    cases vs with
    | nil => cases h2; exact .nil
    | cons v vs => simp at h
  | cons r rows ih =>
    intro vs ys h h2
    unfold ColumnValues at h
    cases vs with
    | nil => simp at h
    | cons v vs =>
      simp only [List.map_cons, List.cons.injEq] at h
      cases h2 with
      | cons g1 g2 => exact .cons (.inr ⟨v, _, h.1, g1, rfl⟩) (ih h.2 g2)

theorem forall₂_map_self {α β : Type} {R : α → β → Prop} {f : α → β} : ∀ {l : List α}, (∀ a ∈ l, R a (f a)) →
    List.Forall₂ R l (l.map f) := by
  intro l
  induction l with
  | nil => intro _; exact .nil
  | cons a l ih => intro h; exact .cons (h a (by simp)) (ih fun a ha => h a (by simp [ha]))

/-- The dictionary of stored rows becomes a frame with the columns in the order of the file. -/
theorem frame_of_stored {cols : List Column} (hn : (cols.map Column.name).Nodup)
    (ht : typed cols ≠ []) {rows : List (Nat × Row)} {vals : List (List Cell)}
    (h : Stored rows (Columns.ofColumns cols).grouped vals) (hr : PyReadable cols rows) :
    ∃ d f, dictToPy (dictOf (Columns.ofColumns cols).grouped vals []) = .ok d ∧
      frameOfDict d (cols.map Column.name) = .ok f ∧ FrameHolds cols rows f ∧ f.index = List.range rows.length := by
  have hnt : ((typed cols).map Column.name).Nodup := hn.sublist (List.Sublist.map _ List.filter_sublist)
  have hinj : ∀ c ∈ cols, ∀ c' ∈ cols, c.name = c'.name → c = c' := fun c hc c' hc' he =>
    List.inj_on_of_nodup_map hn hc hc' he
  obtain ⟨g1, g2⟩ := holds_of_stored hnt h
  have hkeys := dictOf_nodup (Columns.ofColumns cols).grouped vals [] (by simp)
  generalize dictOf (Columns.ofColumns cols).grouped vals [] = d0 at g1 g2 hkeys ⊢
  obtain ⟨d, h1, h2⟩ := dictToPy_shows (d := d0) fun e he v hv => by
    obtain ⟨k, vs⟩ := e
    obtain ⟨c, hc, rfl⟩ := g2 k (List.mem_map_of_mem (f := Prod.fst) he)
    obtain ⟨vs', hl, hcv⟩ := g1 c hc
    rw [lookup_of_mem hkeys he] at hl
    cases hl
    exact columnValues_shows hcv (hr c hc) v hv
  have hcol : ∀ c ∈ typed cols, ∃ ys : List PyVal, d.lookup c.name = some ys ∧ ys.length = rows.length ∧
      List.Forall₂ (EntryShows c) rows (ys.map some) := by
    intro c hc
    obtain ⟨vs, hl, hcv⟩ := g1 c hc
    obtain ⟨ys, k1, k2⟩ := (h2 c.name).2 vs hl
    have hlen : rows.length = vs.length := by
      have := congrArg List.length hcv
      simpa using this
    exact ⟨ys, k1, by rw [hlen, k2.length_eq], column_entries hcv k2⟩
  have hunk : ∀ c ∈ cols, c.type = .unknown → d.lookup c.name = none := by
    intro c hc hu
    refine (h2 c.name).1 ?_
    rw [List.lookup_eq_none_iff]
    intro e he
    simp only [bne_iff_ne, ne_eq, beq_iff_eq]
    intro heq
    obtain ⟨c', hc', hn'⟩ := g2 e.1 (List.mem_map_of_mem (f := Prod.fst) he)
    unfold typed at hc'
    simp only [List.mem_filter, decide_eq_true_eq] at hc'
    have := hinj c hc c' hc'.1 (by rw [hn', heq])
    rw [← this] at hc'
    exact hc'.2 hu
  have hfound : ∀ vs ∈ (cols.map Column.name).filterMap (fun k => d.lookup k), vs.length = rows.length := by
    intro vs hvs
    obtain ⟨k, hk, hl⟩ := List.mem_filterMap.mp hvs
    obtain ⟨c, hc, rfl⟩ := List.mem_map.mp hk
    by_cases hu : c.type = .unknown
    · rw [hunk c hc hu] at hl; cases hl
    · obtain ⟨ys, k1, k2, -⟩ := hcol c (by unfold typed; simp [hc, hu])
      rw [k1] at hl; cases hl; exact k2
  have hne : (cols.map Column.name).filterMap (fun k => d.lookup k) ≠ [] := by
    obtain ⟨c, cs, hcs⟩ := List.exists_cons_of_ne_nil ht
    have hc : c ∈ typed cols := by rw [hcs]; simp
    obtain ⟨ys, k1, -⟩ := hcol c hc
    have hc' : c ∈ cols := (List.mem_filter.mp hc).1
    exact List.ne_nil_of_mem (List.mem_filterMap.mpr ⟨c.name, List.mem_map_of_mem (f := Column.name) hc', k1⟩)
  have hhead : (((cols.map Column.name).filterMap (fun k => d.lookup k)).map List.length).headD 0 = rows.length := by
    obtain ⟨vs, l, hl⟩ := List.exists_cons_of_ne_nil hne
    rw [hl]
    exact hfound vs (by rw [hl]; simp)
  refine ⟨d, { names := cols.map Column.name, index := List.range rows.length
               columns := (cols.map Column.name).map fun k => match d.lookup k with
                | some vs => vs.map some
                | none => List.replicate rows.length none }, h1, ?_, ⟨rfl, ?_⟩, rfl⟩
  · unfold frameOfDict
    simp only [hhead]
    exact if_pos (List.all_eq_true.mpr fun vs hvs => by simpa using hfound vs hvs)
  · rw [List.map_map]
    refine forall₂_map_self fun c hc => ?_
    simp only [Function.comp_apply]
    by_cases hu : c.type = .unknown
    · rw [hunk c hc hu]
      simp only
      have : List.replicate rows.length (none : Option PyVal) = rows.map fun _ => none := by simp
      rw [this]
      exact forall₂_map_self fun r _ => .inl ⟨hu, rfl⟩
    · obtain ⟨ys, k1, -, k3⟩ := hcol c (by unfold typed; simp [hc, hu])
      rw [k1]
      exact k3

/-! ## Rows -/

/-- Python rows against the rows pushed. -/
def PyRowsAre (cols : List Column) (rows : List (Nat × Row)) (ls : List (List PyVal)) : Prop :=
  List.Forall₂ (fun r l => List.Forall₂ (fun c y => EntryShows c r (some y)) cols l) rows ls

theorem cells_entries {i : Nat} {r : Row} : ∀ {cols : List Column} {l : List Cell},
    cols.map (fun c => c.value r.mem) = l.map (fun v => .ok (some v)) →
    (∀ c ∈ cols, ∃ v y, c.value r.mem = .ok (some v) ∧ PyShows v y) →
    ∃ l', cellsToPy l = .ok l' ∧ List.Forall₂ (fun c y => EntryShows c (i, r) (some y)) cols l' := by
  intro cols
  induction cols with
  | nil =>
    intro l hv _
    cases l with
    | nil => exact ⟨[], rfl, .nil⟩
    | cons v l => simp at hv
  | cons c cols ih =>
    intro l hv hr
    cases l with
    | nil => simp at hv
    | cons v l =>
      simp only [List.map_cons, List.cons.injEq] at hv
      obtain ⟨v', y, h1, h2⟩ := hr c (by simp)
      rw [hv.1] at h1
      cases h1
      obtain ⟨y, h3, h4⟩ := toPy_of_shows h2
      obtain ⟨l', h5, h6⟩ := ih hv.2 fun c hc => hr c (by simp [hc])
      refine ⟨y :: l', ?_, .cons (.inr ⟨v, y, hv.1, h4, rfl⟩) h6⟩
      unfold cellsToPy
      rw [h3, h5]
      rfl

theorem rowList_shows {cols : List Column} {i : Nat} {r : Row} (ht : ∀ c ∈ cols, c.type ≠ .unknown)
    (hr : ∀ c ∈ typed cols, ∃ v y, c.value r.mem = .ok (some v) ∧ PyShows v y) :
    ∃ l l', rowList cols r.mem = .ok l ∧ cellsToPy l = .ok l' ∧
      List.Forall₂ (fun c y => EntryShows c (i, r) (some y)) cols l' := by
  obtain ⟨l, hl⟩ := rowList_ok cols r.mem fun c hc => by
    obtain ⟨v, y, h1, -⟩ := hr c hc
    exact ⟨v, h1⟩
  have hty : typed cols = cols := List.filter_eq_self.2 (by simpa using ht)
  have hv := rowList_typed cols r.mem l hl
  rw [hty] at hv hr
  obtain ⟨l', h1, h2⟩ := cells_entries (i := i) hv hr
  exact ⟨l, l', hl, h1, h2⟩

/-- Rows of Python objects become a frame. -/
theorem frame_of_rows {cols : List Column} {rows : List (Nat × Row)} {ls : List (List PyVal)}
    (h : PyRowsAre cols rows ls) : ∃ f, frameOfRecords ls (cols.map Column.name) = .ok f ∧ FrameHolds cols rows f ∧
      f.index = List.range rows.length := by
  have hlen : ∀ l ∈ ls, l.length = cols.length := by
    intro l hl
    obtain ⟨i, hi, rfl⟩ := List.mem_iff_getElem.mp hl
    have := (List.forall₂_iff_get.mp h).2 i (by rw [h.length_eq]; exact hi) hi
    simpa using this.length_eq.symm
  refine ⟨_, if_pos (List.all_eq_true.mpr fun l hl => by simpa using hlen l hl), ⟨rfl, ?_⟩, by rw [h.length_eq]⟩
  rw [List.length_map, List.forall₂_iff_get]
  refine ⟨by simp, fun i h1 h2 => ?_⟩
  simp only [List.get_eq_getElem, List.getElem_map, List.getElem_range]
  clear h2
  induction h with
  | nil => exact .nil
  | @cons r l rows ls g1 g2 ih =>
    refine .cons ?_ (ih fun l hl => hlen l (by simp [hl]))
    have hi : i < l.length := by rw [hlen l (by simp)]; exact h1
    show EntryShows _ _ l[i]?
    rw [List.getElem?_eq_getElem hi]
    exact (List.forall₂_iff_get.mp g1).2 i h1 hi

theorem frameHolds_append {cols : List Column} {a b : List (Nat × Row)} {f g : PyFrame} (h1 : FrameHolds cols a f)
    (h2 : FrameHolds cols b g) : FrameHolds cols (a ++ b) (f.append g) := by
  refine ⟨h1.1, ?_⟩
  have k1 := h1.2
  have k2 := h2.2
  unfold PyFrame.append
  simp only
  generalize f.columns = u at k1
  generalize g.columns = w at k2
  clear h1 h2
  induction k1 generalizing w with
  | nil => cases k2; exact .nil
  | cons p1 p2 ih =>
    cases k2 with
    | cons q1 q2 => exact .cons (List.rel_append p1 q1) (ih _ q2)

/-- A frame per part of the rows. -/
def PyParts (cols : List Column) (parts : List (List (Nat × Row))) (fs : List PyFrame) : Prop :=
  List.Forall₂ (fun q f => FrameHolds cols q f ∧ f.index = List.range q.length) parts fs

theorem concat_parts {cols : List Column} {q : List (Nat × Row)} {parts : List (List (Nat × Row))} {f : PyFrame}
    {fs : List PyFrame} (h1 : FrameHolds cols q f) (h : PyParts cols parts fs) :
    FrameHolds cols (q ++ parts.flatten) (fs.foldl PyFrame.append f) ∧
      (fs.foldl PyFrame.append f).index = f.index ++ parts.flatMap fun q => List.range q.length := by
  induction h generalizing q f with
  | nil => simpa using h1
  | cons g1 g2 ih =>
    obtain ⟨k1, k2⟩ := ih (frameHolds_append h1 g1.1)
    refine ⟨by simpa using k1, ?_⟩
    rw [List.foldl_cons, k2]
    simp only [PyFrame.append, g1.2, List.flatMap_cons, List.append_assoc]

/-! ## Sessions -/

variable {σ : Type}

theorem events_append (s : PySession σ) (a b : List Event) :
    s.events (a ++ b) = (do (← s.events a).events b) := by
  induction a generalizing s with
  | nil => rfl
  | cons e a ih =>
    simp only [List.cons_append, PySession.events, ih, bind_assoc]

theorem events_reader {s s' : PySession σ} {evs : List Event} (h : s.events evs = .ok s') :
    s'.reader = s.reader ∧ s'.alive = s.alive := by
  induction evs generalizing s with
  | nil => cases h; exact ⟨rfl, rfl⟩
  | cons e evs ih =>
    simp only [PySession.events] at h
    cases h1 : PyM.ofRes (s.cpp.step e) with
    | error e => rw [h1] at h; cases h
    | ok x =>
      rw [h1] at h
      simp only [bind, Except.bind] at h
      cases h2 : s.obj.calls x.2 with
      | error e => rw [h2] at h; cases h
      | ok o =>
        rw [h2] at h
        simp only at h
        obtain ⟨h3, h4⟩ := ih h
        exact ⟨h3, h4⟩

theorem events_with {s s' : PySession σ} {evs : List Event} (R : Reader σ) (h : s.events evs = .ok s') :
    ({ s with reader := R } : PySession σ).events evs = .ok { s' with reader := R } := by
  induction evs generalizing s with
  | nil => cases h; rfl
  | cons e evs ih =>
    simp only [PySession.events] at h ⊢
    cases h1 : PyM.ofRes (s.cpp.step e) with
    | error e => rw [h1] at h; cases h
    | ok x =>
      rw [h1] at h
      simp only [bind, Except.bind] at h ⊢
      cases h2 : s.obj.calls x.2 with
      | error e => rw [h2] at h; cases h
      | ok o =>
        rw [h2] at h
        simp only at h ⊢
        exact ih h

/-- The sizes of the parts of a chunk sink. -/
structure PartsOk (n : Nat) (parts : List (List (Nat × Row))) (rest : List (Nat × Row)) : Prop where
  size : ∀ q ∈ parts, q.length = n ∧ q ≠ []
  rest : 0 < n → rest.length < n

/-- A sink that has been given these rows, and not the end. -/
def Live (cols : List Column) (rows : List (Nat × Row)) (s : PySession σ) : Prop :=
  s.obj.columns = some (cols.map Column.name) ∧ s.obj.cached = none ∧ s.cpp.attr = true ∧
  match s.obj.kind with
  | .row => ∃ st, s.cpp = .row st ∧ st.columns = cols ∧ PyRowsAre cols rows s.obj.rows
  | .data => ∃ st size, s.cpp = .data st ∧ PyInv cols size st rows
  | .chunk n => ∃ st parts rest, s.cpp = .chunk st ∧ PyInv cols n st rest ∧ parts.flatten ++ rest = rows ∧
      PyParts cols parts s.obj.frames ∧ PartsOk n parts rest

/-- A sink that has been given these rows, and then the end. -/
def Ended (cols : List Column) (rows : List (Nat × Row)) (s : PySession σ) : Prop :=
  s.obj.columns = some (cols.map Column.name) ∧ s.cpp.attr = false ∧
  match s.obj.kind with
  | .row => s.obj.cached = none ∧ PyRowsAre cols rows s.obj.rows
  | .data => (rows = [] ∧ s.obj.cached = none) ∨
      ∃ f, s.obj.cached = some f ∧ FrameHolds cols rows f ∧ f.index = List.range rows.length
  | .chunk n => s.obj.cached = none ∧ ∃ parts, parts.flatten = rows ∧ PyParts cols parts s.obj.frames ∧
      (∀ q ∈ parts, q ≠ [] ∧ (0 < n → q.length ≤ n)) ∧ ∀ q ∈ parts.dropLast, q.length = n

theorem start_live {kind : PyKind} {R : Reader σ} {p : Properties}
    (hu : (p.columns.map Column.name).all utf8Valid = true) :
    ∃ s, ({ reader := R, cpp := CppSink.start kind, obj := { kind := kind } } : PySession σ).events [.setProperties p] = .ok s ∧
      s.obj.kind = kind ∧ s.reader = R ∧ s.alive = true ∧ Live p.columns [] s := by
  cases kind with
  | row =>
    refine ⟨{ reader := R, cpp := .row ⟨true, p.columns⟩
              obj := { kind := .row, columns := some (p.columns.map Column.name) } }, ?_, rfl, rfl, rfl, rfl, rfl, rfl,
            ⟨_, rfl, rfl, .nil⟩⟩
    simp [PySession.events, CppSink.start, CppSink.step, PyRowSink.step, PyM.ofRes, PyObj.calls, PyObj.call, hu,
      bind, Except.bind, pure, Except.pure]
  | data =>
    refine ⟨{ reader := R, cpp := .data (PyChunk.setProperties { size := p.md.rowCount } p)
              obj := { kind := .data, columns := some (p.columns.map Column.name) } }, ?_, rfl, rfl, rfl, rfl, rfl, rfl,
            ⟨_, p.md.rowCount, rfl, rfl, rfl, stored_nil _, rfl, by simp⟩⟩
    simp [PySession.events, CppSink.start, CppSink.step, PyChunk.dataStep, PyM.ofRes, PyObj.calls, PyObj.call, hu,
      bind, Except.bind, pure, Except.pure]
  | chunk n =>
    refine ⟨{ reader := R, cpp := .chunk (PyChunk.setProperties { size := n } p)
              obj := { kind := .chunk n, columns := some (p.columns.map Column.name) } }, ?_, rfl, rfl, rfl, rfl, rfl, rfl,
            ⟨_, [], [], rfl, ⟨rfl, rfl, stored_nil _, rfl, by simp⟩, rfl, .nil, ⟨by simp, fun h => by simpa using h⟩⟩⟩
    simp [PySession.events, CppSink.start, CppSink.step, PyChunk.step, PyM.ofRes, PyObj.calls, PyObj.call, hu,
      bind, Except.bind, pure, Except.pure]

theorem frame_calls_data {o : PyObj} {cols : List Column} (hk : o.kind = .data)
    (hc : o.columns = some (cols.map Column.name)) {d0 : PyDict} {d : PyLists} {f : PyFrame}
    (h1 : dictToPy d0 = .ok d) (h2 : frameOfDict d (cols.map Column.name) = .ok f) :
    o.calls [.setData d0] = .ok { o with cached := some f } := by
  simp only [PyObj.calls, PyObj.call, h1, PyObj.names, hc, hk, bind, Except.bind, pure, Except.pure, Option.getD_some,
    h2, if_true]

theorem frame_calls_chunk {o : PyObj} {cols : List Column} {n : Nat} (hk : o.kind = .chunk n)
    (hc : o.columns = some (cols.map Column.name)) {d0 : PyDict} {d : PyLists} {f : PyFrame} {i j : Nat}
    (h1 : dictToPy d0 = .ok d) (h2 : frameOfDict d (cols.map Column.name) = .ok f) :
    o.calls [.pushRows i j d0] = .ok { o with frames := o.frames ++ [f] } := by
  simp only [PyObj.calls, PyObj.call, h1, PyObj.names, hc, hk, bind, Except.bind, pure, Except.pure, Option.getD_some,
    h2]

theorem readable_last {cols : List Column} {rows : List (Nat × Row)} {x : Nat × Row} (h : PyReadable cols (rows ++ [x])) :
    ∀ c ∈ typed cols, ∃ v y, c.value x.2.mem = .ok (some v) ∧ PyShows v y := fun c hc => h c hc x (by simp)

theorem readable_sub {cols : List Column} {rows rows' : List (Nat × Row)} (h : PyReadable cols rows)
    (hs : ∀ r ∈ rows', r ∈ rows) : PyReadable cols rows' := fun c hc r hr => h c hc r (hs r hr)

theorem flush_frame {cols : List Column} (hg : (cols.map Column.name).Nodup ∧ typed cols ≠ []) {size : Nat}
    {st : PyChunk} {rest : List (Nat × Row)} (h : PyInv cols size st rest) (hr : PyReadable cols rest) :
    ∃ d f, dictToPy (dictOf st.cols st.vals []) = .ok d ∧ frameOfDict d (cols.map Column.name) = .ok f ∧
      FrameHolds cols rest f ∧ f.index = List.range rest.length := by
  have hst := h.stored
  rw [h.cols] at hst ⊢
  exact frame_of_stored hg.1 hg.2 hst hr

theorem flush_eq {cols : List Column} {size : Nat} {st : PyChunk} {rest : List (Nat × Row)} (h : PyInv cols size st rest)
    (hr : rest ≠ []) : st.flush = (st.clear, [.pushRows st.istart st.iend (dictOf st.cols st.vals [])]) := by
  unfold PyChunk.flush
  rw [if_pos]
  rw [h.idata]
  simpa using hr

theorem clear_inv {cols : List Column} {size : Nat} {st : PyChunk} {rest : List (Nat × Row)}
    (h : PyInv cols size st rest) : PyInv cols size st.clear [] :=
  ⟨h.size, h.cols, stored_clear h.stored, rfl, by simp⟩

theorem push_live {cols : List Column} {rows : List (Nat × Row)} {s : PySession σ} {i : Nat} {r : Row}
    (hg : GoodCols cols s.obj.kind) (hl : Live cols rows s) (hr : PyReadable cols (rows ++ [(i, r)])) :
    ∃ s', s.events [.pushRow i r] = .ok s' ∧ s'.obj.kind = s.obj.kind ∧ Live cols (rows ++ [(i, r)]) s' := by
  obtain ⟨R, alive, cpp, o⟩ := s
  obtain ⟨hc, hn, ha, hm⟩ := hl
  obtain ⟨kind, columns, orows, frames, cached⟩ := o
  dsimp only at hc hn ha hm hg
  subst hc hn
  cases kind with
  | row =>
    obtain ⟨st, rfl, rfl, hp⟩ := hm
    obtain ⟨l, l', h1, h2, h3⟩ := rowList_shows (i := i) hg.2 (readable_last hr)
    refine ⟨⟨R, alive, .row st, ⟨.row, some (st.columns.map Column.name), orows ++ [l'], frames, none⟩⟩, ?_, rfl, rfl, rfl, ha,
      st, rfl, rfl, List.rel_append hp (.cons h3 .nil)⟩
    simp [PySession.events, CppSink.step, PyRowSink.step, PyM.ofRes, PyObj.calls, PyObj.call, h1, h2,
      bind, Except.bind, pure, Except.pure]
  | data =>
    obtain ⟨st, size, rfl, hp⟩ := hm
    obtain ⟨st', h1, h2, -, h3⟩ := hp.store (i := i) (r := r) fun c hc => by
      obtain ⟨v, y, h, -⟩ := readable_last hr c hc
      exact ⟨v, h⟩
    refine ⟨⟨R, alive, .data st', ⟨.data, some (cols.map Column.name), orows, frames, none⟩⟩, ?_, rfl, rfl, rfl, h3.trans ha,
      st', size, rfl, h2⟩
    simp [PySession.events, CppSink.step, PyChunk.dataStep, PyM.ofRes, PyObj.calls, h1,
      bind, Except.bind, pure, Except.pure]
  | chunk n =>
    obtain ⟨st, parts, rest, rfl, hp, hrows, hparts, hok⟩ := hm
    subst hrows
    have hr1 : PyReadable cols (rest ++ [(i, r)]) := readable_sub hr fun x hx => by
      simp only [List.mem_append] at hx ⊢
      rcases hx with hx | hx
      · exact .inl (.inr hx)
      · exact .inr hx
    obtain ⟨st', h1, h2, -, h3⟩ := hp.store (i := i) (r := r) fun c hc => by
      obtain ⟨v, y, h, -⟩ := readable_last hr c hc
      exact ⟨v, h⟩
    by_cases hf : st'.idata = st'.size
    · obtain ⟨d, f, k1, k2, k3, k4⟩ := flush_frame hg h2 hr1
      have hlen : (rest ++ [(i, r)]).length = n := by rw [← h2.idata, hf, h2.size]
      refine ⟨⟨R, alive, .chunk st'.clear, ⟨.chunk n, some (cols.map Column.name), orows, frames ++ [f], none⟩⟩, ?_, rfl, rfl,
        rfl, h3.trans ha, st'.clear, parts ++ [rest ++ [(i, r)]], [], rfl, clear_inv h2, by simp,
        List.rel_append hparts (.cons ⟨k3, k4⟩ .nil), ⟨?_, fun h => by simpa using h⟩⟩
      · simp only [PySession.events, CppSink.step, PyChunk.step, h1, hf, if_true, flush_eq h2 (by simp), PyM.ofRes,
          bind, Except.bind, pure, Except.pure]
        rw [frame_calls_chunk (cols := cols) (n := n) rfl rfl k1 k2]
      · intro q hq
        rw [List.mem_append] at hq
        rcases hq with hq | hq
        · exact hok.size q hq
        · rw [List.mem_singleton] at hq
          subst hq
          exact ⟨hlen, by simp⟩
    · refine ⟨⟨R, alive, .chunk st', ⟨.chunk n, some (cols.map Column.name), orows, frames, none⟩⟩, ?_, rfl, rfl, rfl,
        h3.trans ha, st', parts, rest ++ [(i, r)], rfl, h2, by simp, hparts, hok.size, fun h0 => ?_⟩
      · simp [PySession.events, CppSink.step, PyChunk.step, h1, hf, PyM.ofRes, PyObj.calls,
          bind, Except.bind, pure, Except.pure]
      · have := hok.rest h0
        rw [h2.idata, h2.size] at hf
        simp only [List.length_append, List.length_cons, List.length_nil] at hf ⊢
        omega

theorem end_live {cols : List Column} {rows : List (Nat × Row)} {s : PySession σ}
    (hg : GoodCols cols s.obj.kind) (hl : Live cols rows s) (hr : PyReadable cols rows) :
    ∃ s', s.events [.endOfData] = .ok s' ∧ s'.obj.kind = s.obj.kind ∧ Ended cols rows s' := by
  obtain ⟨R, alive, cpp, o⟩ := s
  obtain ⟨hc, hn, ha, hm⟩ := hl
  obtain ⟨kind, columns, orows, frames, cached⟩ := o
  dsimp only at hc hn ha hm hg
  subst hc hn
  cases kind with
  | row =>
    obtain ⟨st, rfl, rfl, hp⟩ := hm
    have ha : st.attr = true := ha
    refine ⟨⟨R, alive, .row { st with attr := false }, ⟨.row, some (st.columns.map Column.name), orows, frames, none⟩⟩, ?_,
      rfl, rfl, rfl, rfl, hp⟩
    simp [PySession.events, CppSink.step, PyRowSink.step, delCppAttr, ha, PyM.ofRes, PyObj.calls,
      bind, Except.bind, pure, Except.pure]
  | data =>
    obtain ⟨st, size, rfl, hp⟩ := hm
    have ha : st.attr = true := ha
    by_cases h0 : rows = []
    · subst h0
      have hi : st.idata = 0 := hp.idata
      refine ⟨⟨R, alive, .data { st with attr := false }, ⟨.data, some (cols.map Column.name), orows, frames, none⟩⟩, ?_, rfl,
        rfl, rfl, .inl ⟨rfl, rfl⟩⟩
      simp [PySession.events, CppSink.step, PyChunk.dataStep, delCppAttr, ha, hi, PyM.ofRes, PyObj.calls,
        bind, Except.bind, pure, Except.pure]
    · have hi : st.idata ≠ 0 := by rw [hp.idata]; simpa using h0
      obtain ⟨d, f, k1, k2, k3, k4⟩ := flush_frame hg hp hr
      refine ⟨⟨R, alive, .data { st with attr := false }.clear, ⟨.data, some (cols.map Column.name), orows, frames, some f⟩⟩, ?_,
        rfl, rfl, rfl, .inr ⟨f, rfl, k3, k4⟩⟩
      simp only [PySession.events, CppSink.step, PyChunk.dataStep, delCppAttr, ha, if_true, if_pos hi, PyM.ofRes, List.nil_append,
        bind, Except.bind, pure, Except.pure]
      rw [frame_calls_data (cols := cols) rfl rfl k1 k2]
  | chunk n =>
    obtain ⟨st, parts, rest, rfl, hp, hrows, hparts, hok⟩ := hm
    have ha : st.attr = true := ha
    subst hrows
    have hp' : PyInv cols n { st with attr := false } rest := ⟨hp.size, hp.cols, hp.stored, hp.idata, hp.iend⟩
    by_cases h0 : rest = []
    · subst h0
      refine ⟨⟨R, alive, .chunk { st with attr := false }, ⟨.chunk n, some (cols.map Column.name), orows, frames, none⟩⟩, ?_, rfl,
        rfl, rfl, rfl, parts, by simp, hparts, fun q hq => ⟨(hok.size q hq).2, fun _ => (hok.size q hq).1.le⟩,
        fun q hq => (hok.size q (List.mem_of_mem_dropLast hq)).1⟩
      simp [PySession.events, CppSink.step, PyChunk.step, hp'.flush_nil, delCppAttr, ha, PyM.ofRes, PyObj.calls,
        bind, Except.bind, pure, Except.pure]
    · obtain ⟨d, f, k1, k2, k3, k4⟩ := flush_frame hg hp' (readable_sub hr fun x hx => by simp [hx])
      refine ⟨⟨R, alive, .chunk { st with attr := false }.clear, ⟨.chunk n, some (cols.map Column.name), orows, frames ++ [f], none⟩⟩,
        ?_, rfl, rfl, rfl, rfl, parts ++ [rest], by simp, List.rel_append hparts (.cons ⟨k3, k4⟩ .nil), ?_, ?_⟩
      · simp only [PySession.events, CppSink.step, PyChunk.step, flush_eq hp' h0, delCppAttr, ha, if_true, PyM.ofRes,
          List.nil_append, bind, Except.bind, pure, Except.pure]
        rw [frame_calls_chunk (cols := cols) (n := n) rfl rfl k1 k2]
      · intro q hq
        rw [List.mem_append, List.mem_singleton] at hq
        rcases hq with hq | rfl
        · exact ⟨(hok.size q hq).2, fun _ => (hok.size q hq).1.le⟩
        · exact ⟨h0, fun h => (hok.rest h).le⟩
      · rw [List.dropLast_concat]
        exact fun q hq => (hok.size q hq).1

/-- Rows, one after the other. -/
theorem pushes_live {cols : List Column} : ∀ (es : List Event) (rows : List (Nat × Row)) (s : PySession σ),
    GoodCols cols s.obj.kind → Live cols rows s → PyReadable cols (rows ++ pushes es) →
    (∀ p, Event.setProperties p ∉ es) → .endOfData ∉ es →
    ∃ s', s.events es = .ok s' ∧ s'.obj.kind = s.obj.kind ∧ Live cols (rows ++ pushes es) s' := by
  intro es
  induction es with
  | nil => intro rows s hg hl _ _ _; exact ⟨s, rfl, rfl, by simpa [pushes] using hl⟩
  | cons e es ih =>
    intro rows s hg hl hr hp he
    cases e with
    | setProperties p => exact absurd (by simp) (hp p)
    | endOfData => exact absurd (by simp) he
    | pushRow i r =>
      have hrows : rows ++ pushes (.pushRow i r :: es) = (rows ++ [(i, r)]) ++ pushes es := by simp [pushes]
      rw [hrows] at hr ⊢
      obtain ⟨s1, h1, h2, h3⟩ := push_live hg hl (readable_sub hr fun x hx => List.mem_append_left _ hx)
      obtain ⟨s2, h4, h5, h6⟩ := ih (rows ++ [(i, r)]) s1 (by rw [h2]; exact hg) h3 hr
        (fun p h => hp p (by simp [h])) (fun h => he (by simp [h]))
      refine ⟨s2, ?_, h5.trans h2, h6⟩
      rw [show Event.pushRow i r :: es = [.pushRow i r] ++ es from rfl, events_append, h1]
      exact h4

/-- The data frame of a sink that has been given everything. -/
theorem ended_df {cols : List Column} {rows : List (Nat × Row)} {s : PySession σ} (hl : Ended cols rows s)
    (h0 : s.obj.kind = .row ∨ rows ≠ []) : ∃ f s', s.df = .ok (some f, s') ∧ FrameHolds cols rows f ∧
      LabelsAre rows.length f.index s.obj.kind := by
  obtain ⟨R, alive, cpp, o⟩ := s
  obtain ⟨hc, ha, hm⟩ := hl
  obtain ⟨kind, columns, orows, frames, cached⟩ := o
  dsimp only at hc ha hm h0
  subst hc
  have hf : ∀ o, (⟨R, alive, cpp, o⟩ : PySession σ).flush = .ok ⟨R, alive, cpp, o⟩ := by
    intro o
    unfold PySession.flush
    simp only [ha]
    rfl
  cases kind with
  | row =>
    obtain ⟨rfl, hp⟩ := hm
    obtain ⟨f, h1, h2, h3⟩ := frame_of_rows hp
    refine ⟨f, ⟨R, alive, cpp, ⟨.row, some (cols.map Column.name), orows, frames, some f⟩⟩, ?_, h2, h3⟩
    simp only [PySession.df, hf, bind, Except.bind, PyObj.names, Option.getD_some, h1]
    rfl
  | data =>
    rcases hm with ⟨rfl, -⟩ | ⟨f, rfl, h2, h3⟩
    · simp at h0
    · exact ⟨f, _, rfl, h2, h3⟩
  | chunk n =>
    obtain ⟨rfl, parts, rfl, hp, h1, h2⟩ := hm
    cases hp with
    | nil => simp at h0
    | @cons q f parts fs g1 g2 =>
      obtain ⟨k1, k2⟩ := concat_parts g1.1 g2
      refine ⟨_, ⟨R, alive, cpp, ⟨.chunk n, some (cols.map Column.name), orows, f :: fs, some (fs.foldl PyFrame.append f)⟩⟩, ?_,
        by simpa using k1, (q :: parts).map List.length, by rw [List.length_flatten], ?_, ?_, ?_⟩
      rotate_left
      · intro k hk
        obtain ⟨q', hq, rfl⟩ := List.mem_map.mp hk
        exact ⟨List.length_pos_of_ne_nil (h1 q' hq).1, (h1 q' hq).2⟩
      · intro k hk
        rw [← List.map_dropLast] at hk
        obtain ⟨q', hq, rfl⟩ := List.mem_map.mp hk
        exact h2 q' hq
      · rw [k2, g1.2, List.map_cons, List.flatMap_cons, List.flatMap_map]
      · simp only [PySession.df, hf, bind, Except.bind, concatFrames]
        rfl

/-! ## Histories -/

theorem ofRes_ok {α : Type} {r : Res α} {a : α} (h : PyM.ofRes r = .ok a) : r = .ok a := by
  cases r with
  | error e => cases h
  | ok b => cases h; rfl

/-- The session is what the calls of its reader have made of a new one. -/
def History (kind : PyKind) (s : PySession σ) : Prop :=
  ({ reader := s.reader, alive := s.alive, cpp := .start kind, obj := { kind := kind } } : PySession σ).events
    s.reader.trace = .ok s

theorem op_history {S : Source σ} {kind : PyKind} {s s' : PySession σ} {op : Op} (hR : s.reader.Inv)
    (hh : History kind s) (h : s.op S op = .ok s') :
    (∃ v, s.reader.step S op = (.ok v, s'.reader)) ∧ s'.alive = s.alive ∧ History kind s' := by
  unfold PySession.op at h
  obtain ⟨rows, ht, -⟩ := Reader.step_trace (S := S) s.reader hR op
  generalize hx : s.reader.step S op = x at h ht
  obtain ⟨r, R'⟩ := x
  simp only [bind, Except.bind] at h ht
  rw [ht, List.append_assoc, List.drop_left] at h
  rw [List.append_assoc] at ht
  generalize pushEvents s.reader.rd.row rows ++ endEvents (signalsEnd op r) = new at h ht
  cases h1 : ({ s with reader := R' } : PySession σ).events new with
  | error e => rw [h1] at h; cases h
  | ok s1 =>
    rw [h1] at h
    simp only at h
    cases h2 : PyM.ofRes r with
    | error e => rw [h2] at h; cases h
    | ok v =>
      rw [h2] at h
      cases h
      obtain ⟨k1, k2⟩ := events_reader h1
      have k1 : s'.reader = R' := k1
      have k2 : s'.alive = s.alive := k2
      refine ⟨⟨v, by rw [ofRes_ok h2, k1]⟩, k2, ?_⟩
      unfold History at hh ⊢
      have := events_with R' hh
      rw [k1, k2, ht, events_append]
      show (do (← PySession.events _ _).events new) = _
      simp only at this
      rw [this]
      exact h1

theorem run_history {S : Source σ} {kind : PyKind} : ∀ (ops : List Op) (s s' : PySession σ) (fs : List (Option PyFrame)),
    Reachable S s.reader → History kind s → s.run S (ops.map .call) = .ok (fs, s') →
    s'.reader = (s.reader.run S ops).2 ∧ s'.alive = s.alive ∧ History kind s' := by
  intro ops
  induction ops with
  | nil =>
    intro s s' fs _ hh h
    cases h
    exact ⟨rfl, rfl, hh⟩
  | cons op ops ih =>
    intro s s' fs hR hh h
    simp only [List.map_cons, PySession.run] at h
    cases h1 : s.op S op with
    | error e => rw [h1] at h; cases h
    | ok s1 =>
      rw [h1] at h
      obtain ⟨⟨v, k1⟩, k2, k3⟩ := op_history (Reachable.inv hR) hh h1
      have hR' : Reachable S s1.reader := by
        have := Reachable.called s.reader op hR
        rwa [k1] at this
      obtain ⟨g1, g2, g3⟩ := ih s1 s' fs hR' k3 h
      refine ⟨?_, g2.trans k2, g3⟩
      rw [Reader.run, k1, g1]

theorem open_history {cfg : Cfg} {fuel : Nat} {fs : FileSystem} {name : List Byte} {kind : PyKind} {incl excl : PyArg}
    {s : PySession IFStream} (h : pyOpen cfg fuel fs name kind incl excl = .ok s) :
    ∃ f src, pyFilter incl excl = .ok f ∧ openFile fs (name.takeWhile (· ≠ 0)) = .ok src ∧
      openReader cfg ifs fuel (some f) src = .ok s.reader ∧ s.alive = true ∧ History kind s := by
  unfold pyOpen at h
  cases h1 : pyFilter incl excl with
  | error e => rw [h1] at h; cases h
  | ok f =>
    rw [h1] at h
    simp only [bind, Except.bind] at h
    cases h2 : openFile fs (name.takeWhile (· ≠ 0)) with
    | error e => rw [h2] at h; cases h
    | ok src =>
      rw [h2] at h
      simp only [PyM.ofRes] at h
      cases h3 : openReader cfg ifs fuel (some f) src with
      | error e => rw [h3] at h; cases h
      | ok R =>
        rw [h3] at h
        simp only at h
        obtain ⟨k1, k2⟩ := events_reader h
        have k1 : s.reader = R := k1
        have k2 : s.alive = true := k2
        refine ⟨f, src, rfl, rfl, by rw [k1]; exact h3, k2, ?_⟩
        unfold History
        rw [k1, k2]
        exact h

/-- A sink that has seen the calls of a reader, up to at most one end. -/
theorem trace_events {kind : PyKind} {R : Reader σ} {p : Properties} {es : List Event}
    (hu : (p.columns.map Column.name).all utf8Valid = true) (hp : ∀ q, Event.setProperties q ∉ es)
    (he : .endOfData ∉ es.dropLast) (hg : GoodCols p.columns kind) (hr : PyReadable p.columns (pushes es)) :
    ∃ s, ({ reader := R, cpp := CppSink.start kind, obj := { kind := kind } } : PySession σ).events
        (.setProperties p :: es) = .ok s ∧ s.obj.kind = kind ∧ s.alive = true ∧
      (.endOfData ∉ es → Live p.columns (pushes es) s) ∧ (.endOfData ∈ es → Ended p.columns (pushes es) s) := by
  obtain ⟨s0, h1, h2, -, h4, h5⟩ := start_live (R := R) (kind := kind) hu
  have hcons : ∀ es', (({ reader := R, cpp := CppSink.start kind, obj := { kind := kind } } : PySession σ).events
      (.setProperties p :: es')) = s0.events es' := by
    intro es'
    rw [← List.singleton_append, events_append, h1]
    rfl
  rw [hcons]
  by_cases hend : .endOfData ∈ es
  · have hne : es ≠ [] := by rintro rfl; cases hend
    have hes := List.dropLast_append_getLast hne
    have hl : es.getLast hne = .endOfData := by
      rw [← hes, List.mem_append] at hend
      rcases hend with h | h
      · exact absurd h he
      · exact (List.mem_singleton.mp h).symm
    rw [hl] at hes
    have hpush : pushes es = pushes es.dropLast := by
      conv => lhs; rw [← hes]
      rw [pushes_append]
      simp [pushes]
    obtain ⟨s1, k1, k2, k3⟩ := pushes_live es.dropLast [] s0 (by rw [h2]; exact hg) h5
      (by rw [List.nil_append, ← hpush]; exact hr) (fun q hq => hp q (List.dropLast_subset _ hq)) he
    rw [List.nil_append, ← hpush] at k3
    obtain ⟨s2, g1, g2, g3⟩ := end_live (by rw [k2, h2]; exact hg) k3 hr
    refine ⟨s2, ?_, by rw [g2, k2, h2], ?_, fun h => absurd hend h, fun _ => g3⟩
    · rw [← hes, events_append, k1]
      exact g1
    · rw [(events_reader g1).2, (events_reader k1).2, h4]
  · obtain ⟨s1, k1, k2, k3⟩ := pushes_live es [] s0 (by rw [h2]; exact hg) h5 (by rwa [List.nil_append]) hp hend
    exact ⟨s1, k1, by rw [k2, h2], by rw [(events_reader k1).2, h4], fun _ => k3,
      fun h => absurd h hend⟩

/-- `df` after that. -/
theorem trace_df {cols : List Column} {rows : List (Nat × Row)} {s : PySession σ} (ha : s.alive = true)
    (hg : GoodCols cols s.obj.kind) (hr : PyReadable cols rows) (hl : Live cols rows s ∨ Ended cols rows s)
    (h0 : s.obj.kind = .row ∨ rows ≠ []) : ∃ f s', s.df = .ok (some f, s') ∧ FrameHolds cols rows f ∧
      LabelsAre rows.length f.index s.obj.kind := by
  rcases hl with hl | hl
  · obtain ⟨s1, h1, h2, h3⟩ := end_live hg hl hr
    obtain ⟨f, s', k1, k2, k3⟩ := ended_df h3 (by rw [h2]; exact h0)
    refine ⟨f, s', ?_, k2, by rw [← h2]; exact k3⟩
    have hf : s1.flush = .ok s1 := by
      unfold PySession.flush
      rw [h3.2.1]
      rfl
    have hs : s.flush = .ok s1 := by
      unfold PySession.flush
      rw [hl.2.2.1, ha]
      exact h1
    rw [← k1]
    unfold PySession.df
    rw [hl.2.1]
    simp only [hs, bind, Except.bind]
    cases hc : s1.obj.cached with
    | none => simp only [hf, hc]
    | some g =>
      cases hk : s1.obj.kind with
      | data => simp only [hc]; rfl
      | row =>
        have := h3.2.2
        rw [hk] at this
        rw [hc] at this
        cases this.1
      | chunk n =>
        have := h3.2.2
        rw [hk] at this
        rw [hc] at this
        cases this.1
  · exact ended_df hl h0

theorem run_prefix {S : Source σ} (ops : List Op) (R : Reader σ) (h : R.Inv) :
    ∃ more, (R.run S ops).2.trace = R.trace ++ more := by
  have := Reader.run_induct (S := S) (P := fun R' => R'.Inv ∧ ∃ more, R'.trace = R.trace ++ more)
    (fun R' op h' => ⟨(Reader.step_inv R' h'.1 op).1, by
      obtain ⟨rows, h1, -⟩ := Reader.step_trace (S := S) R' h'.1 op
      obtain ⟨more, h2⟩ := h'.2
      rw [h1, h2, List.append_assoc, List.append_assoc]
      exact ⟨_, rfl⟩⟩) ops R ⟨h, [], by simp⟩
  exact this.2

/-- Calls whose results are fine, and whose effects the sink can take, are fine in Python. -/
theorem run_ok {S : Source σ} {kind : PyKind} : ∀ (ops : List Op) (s s' : PySession σ),
    Reachable S s.reader → History kind s → (∀ r ∈ (s.reader.run S ops).1, ∃ v, r = .ok v) →
    ({ reader := (s.reader.run S ops).2, alive := s.alive, cpp := .start kind, obj := { kind := kind } } :
      PySession σ).events (s.reader.run S ops).2.trace = .ok s' →
    s.run S (ops.map .call) = .ok ([], s') := by
  intro ops
  induction ops with
  | nil =>
    intro s s' _ hh _ h
    rw [show ({ reader := (s.reader.run S []).2, alive := s.alive, cpp := .start kind, obj := { kind := kind } } :
      PySession σ).events (s.reader.run S []).2.trace = .ok s from hh] at h
    cases h
    rfl
  | cons op ops ih =>
    intro s s' hR hh hres h
    have hR1 : Reachable S (s.reader.step S op).2 := .called _ _ hR
    obtain ⟨rows, ht, -⟩ := Reader.step_trace (S := S) s.reader (Reachable.inv hR) op
    rw [List.append_assoc] at ht
    generalize hx : s.reader.step S op = x at ht hR1
    obtain ⟨r, R1⟩ := x
    rw [Reader.run, hx] at hres h
    cases r with
    | error e => cases e <;> simp at hres
    | ok v =>
      simp only at hres h ht hR1
      obtain ⟨more, hm⟩ := run_prefix (S := S) ops R1 (Reachable.inv hR1)
      generalize pushEvents s.reader.rd.row rows ++ endEvents (signalsEnd op (.ok v)) = new at ht
      have hmid : ∃ s1, ({ s with reader := R1 } : PySession σ).events new = .ok s1 := by
        rw [hm, ht, events_append, events_append] at h
        rw [show ({ reader := (R1.run S ops).2, alive := s.alive, cpp := .start kind, obj := { kind := kind } } :
          PySession σ).events s.reader.trace = .ok { s with reader := (R1.run S ops).2 } from events_with _ hh] at h
        simp only [bind, Except.bind] at h
        cases hc : ({ s with reader := (R1.run S ops).2 } : PySession σ).events new with
        | error e => rw [hc] at h; cases h
        | ok s2 => exact ⟨_, events_with (s := { s with reader := (R1.run S ops).2 }) R1 hc⟩
      obtain ⟨s1, hs1⟩ := hmid
      obtain ⟨q1, q2⟩ := events_reader hs1
      dsimp only at q1 q2
      have hop : s.op S op = .ok s1 := by
        unfold PySession.op
        rw [hx]
        simp only [ht, List.drop_left, bind, Except.bind]
        rw [hs1]
        rfl
      have hh1 : History kind s1 := by
        unfold History
        rw [q1, q2, ht, events_append, show ({ reader := R1, alive := s.alive, cpp := .start kind, obj := { kind := kind } } :
          PySession σ).events s.reader.trace = .ok { s with reader := R1 } from events_with _ hh]
        exact hs1
      rw [List.map_cons, PySession.run, hop]
      refine ih s1 s' (by rw [q1]; exact hR1) hh1 (fun r hr => hres r ?_) ?_
      · rw [q1] at hr
        exact List.mem_cons_of_mem _ hr
      · rw [q1, q2]; exact h

end Sas
