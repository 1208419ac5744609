import Verif.Spec.Agree
import Verif.Props.Export
import Verif.Props.RChunks

/-!
# C105: the same data in Python, in R and in CSV
-/

namespace Sas.Props
open Sas Sas.Spec

theorem clockText_iso {h m s u : Nat} (ht : IsTime h m s u) {n : Int} (hn : timeUs h m s u = n) :
    isoTime n.toNat = clockText h m s u := by
  obtain ⟨h1, h2, h3, h4⟩ := ht
  unfold timeUs at hn
  have e : n.toNat = ((h * 60 + m) * 60 + s) * 1000000 + u := by omega
  have e1 : n.toNat / 3600000000 = h := by omega
  have e2 : n.toNat / 60000000 % 60 = m := by omega
  have e3 : n.toNat / 1000000 % 60 = s := by omega
  have e4 : n.toNat % 1000000 = u := by omega
  unfold isoTime clockText
  rw [e1, e2, e3, e4]

/-- A cell that has a Python object has an element of an R vector. -/
theorem r_of_py {w : Cell} {y : PyVal} (hy : PyShows w y) : ∃ x, RShows w x := by
  cases w with
  | str s => exact ⟨_, rfl⟩
  | int i => exact ⟨_, rfl⟩
  | num z => exact ⟨_, rfl⟩
  | datetime t =>
    rcases hy with ⟨rfl, -⟩ | ⟨us, rfl, hc, -⟩
    · exact ⟨_, .inl ⟨rfl, rfl⟩⟩
    · have hc' := hc
      unfold CalendarDay at hc'
      obtain ⟨d, -, h2⟩ := C52_text_partial.2.1 us (by omega) (by omega)
      exact ⟨_, .inr ⟨by unfold at1960; simp, _, h2, rfl⟩⟩
  | date t =>
    rcases hy with ⟨rfl, -⟩ | ⟨n, rfl, hc, -⟩
    · exact ⟨_, .inl ⟨rfl, rfl⟩⟩
    · obtain ⟨d, -, h2⟩ := C52_text_partial.1 n hc.1 hc.2
      exact ⟨_, .inr ⟨by unfold day1960; simp, _, h2, rfl⟩⟩
  | time t =>
    rcases hy with ⟨rfl, -⟩ | ⟨n, rfl, hn, -⟩
    · exact ⟨_, .inl ⟨rfl, rfl⟩⟩
    · exact ⟨_, .inr ⟨by simp, _, C52_text_partial.2.2 n hn, rfl⟩⟩

/-- What Python and R show for a cell is the same. -/
theorem same_of_shows {w : Cell} {y : PyVal} {x : RVal} (hy : PyShows w y) (hx : RShows w x) : SameValue y x := by
  cases w with
  | str s => cases hy; exact hx
  | int i => cases hy; exact hx
  | num z => cases hy; exact hx
  | datetime t =>
    rcases hy with ⟨rfl, rfl⟩ | ⟨us, rfl, hc, d, h, m, s, u, rfl, hd, ht, hu⟩
    · rcases hx with ⟨-, rfl⟩ | ⟨h, -⟩
      · rfl
      · exact absurd rfl h
    · rcases hx with ⟨h, -⟩ | ⟨-, s', h', rfl⟩
      · cases h
      · have hc' := hc
        unfold CalendarDay at hc'
        obtain ⟨d', h1, h2⟩ := C52_text_partial.2.1 us (by omega) (by omega)
        rw [h2] at h'
        cases h'
        rw [clockText_iso ht hu, isDay_unique (isDay_of_ymd hc h1) hd]
        rfl
  | date t =>
    rcases hy with ⟨rfl, rfl⟩ | ⟨n, rfl, hc, d, rfl, hd⟩
    · rcases hx with ⟨-, rfl⟩ | ⟨h, -⟩
      · rfl
      · exact absurd rfl h
    · rcases hx with ⟨h, -⟩ | ⟨-, s', h', rfl⟩
      · cases h
      · obtain ⟨d', h1, h2⟩ := C52_text_partial.1 n hc.1 hc.2
        rw [h2] at h'
        cases h'
        rw [isDay_unique (isDay_of_ymd hc h1) hd]
        rfl
  | time t =>
    rcases hy with ⟨rfl, rfl⟩ | ⟨n, rfl, hn, h, m, s, u, rfl, ht, hu⟩
    · rcases hx with ⟨-, rfl⟩ | ⟨h, -⟩
      · rfl
      · exact absurd rfl h
    · rcases hx with ⟨h, -⟩ | ⟨-, s', h', rfl⟩
      · cases h
      · rw [C52_text_partial.2.2 n hn] at h'
        cases h'
        have := clockText_iso ht hu
        rw [Int.toNat_natCast] at this
        rw [this]
        rfl

/-- What Python and R show for a value is the same. -/
theorem same_of_means {v : Value} {y : PyVal} {x : RVal} (hy : PyMeans v y) (hx : RMeans v x) (h0 : ∀ t, v = .text t → 0 ∉ t) :
    SameValue y x := by
  cases v with
  | text t =>
    cases hy
    rw [show x = .str t from hx]
    show RVal.str t = .str (upToZero t)
    rw [upToZero_self (h0 t rfl)]
  | integer i => cases hy; exact hx
  | number b => cases hy; exact hx
  | missing => cases hy; exact hx
  | datetime us =>
    obtain ⟨d, h, m, s, u, rfl, hd, ht, hu⟩ := hy
    obtain ⟨_, ⟨d', hd', rfl⟩, rfl⟩ := hx
    rw [clockText_iso ht hu, isDay_unique hd' hd]
    rfl
  | date n =>
    obtain ⟨d, rfl, hd⟩ := hy
    obtain ⟨d', hd', rfl⟩ := hx
    rw [isDay_unique hd' hd]
    rfl
  | time us =>
    obtain ⟨h, m, s, u, rfl, ht, hu⟩ := hy
    rw [show x = .str (isoTime us.toNat) from hx, clockText_iso ht hu]
    rfl

theorem forall₂_pair {α β γ : Type} {P : α → β → Prop} {Q : α → γ → Prop} {R : β → γ → Prop}
    (h : ∀ a b c, P a b → Q a c → R b c) : ∀ {as : List α} {bs : List β} {cs : List γ},
    List.Forall₂ P as bs → List.Forall₂ Q as cs → List.Forall₂ R bs cs := by
  intro as
  induction as with
  | nil => intro bs cs h1 h2; cases h1; cases h2; exact .nil
  | cons a as ih =>
    intro bs cs h1 h2
    cases h1 with
    | cons p1 p2 =>
      cases h2 with
      | cons q1 q2 => exact .cons (h _ _ _ p1 q1) (ih p2 q2)

theorem forall₂_at {α β : Type} {P : α → β → Prop} {as : List α} {bs : List β} (h : List.Forall₂ P as bs) {j : Nat} {a : α}
    (ha : as[j]? = some a) : ∃ b, bs[j]? = some b ∧ P a b := by
  obtain ⟨hlt, rfl⟩ := List.getElem?_eq_some_iff.mp ha
  have hlt' : j < bs.length := by rw [← h.length_eq]; exact hlt
  exact ⟨bs[j], List.getElem?_eq_getElem hlt', (List.forall₂_iff_get.mp h).2 j hlt hlt'⟩

/-- A frame and a table of the same rows. -/
theorem same_of_holds {cols : List Column} {rows : List (Nat × Row)} {f : PyFrame} {t : RTable} (hf : FrameHolds cols rows f)
    (ht : TableHolds ((byType cols).map fun c => upToZero c.name) cols rows t) : SameData f t := by
  obtain ⟨js, j1, j2, j3⟩ := filter_positions cols fun c => decide (c.type ≠ .unknown)
  obtain ⟨ks, k1, k2⟩ := List.perm_comp_forall₂ (byType_perm cols) j3.flip
  have hks : ks.Nodup := k2.nodup_iff.mpr (j1.imp Nat.ne_of_lt)
  obtain ⟨f1, f2⟩ := hf
  obtain ⟨t1, t2⟩ := ht
  refine ⟨ks, hks, fun j hj hn => ?_, ?_⟩
  · rw [f1, List.length_map] at hj
    obtain ⟨col, c1, c2⟩ := forall₂_at f2 (List.getElem?_eq_getElem hj)
    have hu : cols[j].type = .unknown := by
      by_contra h
      exact hn (k2.mem_iff.mpr ((j2 j).mpr ⟨_, List.getElem?_eq_getElem hj, by simpa using h⟩))
    refine ⟨col, c1, fun x hx => ?_⟩
    obtain ⟨r, -, h⟩ := mem_forall₂ c2 hx
    rcases h with ⟨-, h⟩ | ⟨v, y, h, -, -⟩
    · exact h
    · unfold Column.value at h
      rw [hu] at h
      cases h
  · have h3 : List.Forall₂ (fun c e => e.1 = upToZero c.name ∧
        List.Forall₂ (fun r x => ∃ v, c.value r.2.mem = .ok (some v) ∧ RShows v x) rows e.2) (byType cols) t := by
      rw [← List.forall₂_eq_eq_eq, List.forall₂_map_left_iff, List.forall₂_map_right_iff] at t1
      rw [List.forall₂_map_right_iff] at t2
      rw [List.forall₂_iff_get] at t1 t2 ⊢
      exact ⟨t2.1, fun i h h' => ⟨t1.2 i h' h, t2.2 i h h'⟩⟩
    refine forall₂_pair ?_ k1 h3
    rintro c j e hc ⟨h1, h2⟩
    obtain ⟨col, c1, c2⟩ := forall₂_at f2 hc
    refine ⟨c.name, col, by rw [f1, List.getElem?_map, show cols[j]? = some c from hc]; rfl, c1, h1, ?_⟩
    refine forall₂_pair ?_ c2 h2
    rintro r x y hx ⟨v, hv, hy⟩
    rcases hx with ⟨hu, -⟩ | ⟨v', p, hv', hp, rfl⟩
    · unfold Column.value at hv
      rw [hu] at hv
      cases hv
    · rw [hv] at hv'
      cases hv'
      exact ⟨p, rfl, same_of_shows hp hy⟩

/-- A frame and a table of the same data set. -/
theorem same_of_data {d₁ d₂ : DataSet} {w : List Byte → Prop} {values : List (List Value)} {f : PyFrame} {t : RTable}
    (hnames : d₁.columns.map ColumnDesc.name = d₂.columns.map ColumnDesc.name)
    (h0 : ∀ row ∈ values, ∀ t, Value.text t ∈ row → 0 ∉ t) (hz : ∀ c ∈ d₂.columns, w c.name → 0 ∉ c.name)
    (hf : DataFrameOf d₁.columns w values f) (ht : TableOf d₂.columns w values t) : SameData f t ∧ t.length = f.names.length := by
  obtain ⟨js, a1, a2, a3, a4⟩ := hf
  obtain ⟨ks, b1, b2, -, b3⟩ := ht
  have hat : ∀ (j : Nat) (c : ColumnDesc), d₂.columns[j]? = some c → ∃ c', d₁.columns[j]? = some c' ∧ c'.name = c.name := by
    intro j c hc
    have h : (d₂.columns.map ColumnDesc.name)[j]? = some c.name := by rw [List.getElem?_map, hc]; rfl
    rw [← hnames, List.getElem?_map, Option.map_eq_some_iff] at h
    exact h
  have hmem : ∀ j, j ∈ ks ↔ j ∈ js := fun j => (b2 j).trans ((wanted_positions hnames j).symm.trans (a2 j).symm)
  have hperm : ks.Perm js := (List.perm_ext_iff_of_nodup b1 (a1.imp Nat.ne_of_lt)).mpr hmem
  have hz' : ∀ row ∈ values, ∀ (j : Nat) v, row[j]? = some v → ∀ t, v = .text t → 0 ∉ t := by
    rintro row hrow j v hv t rfl
    exact h0 row hrow t (List.mem_of_getElem? hv)
  -- the places of the columns of the frame
  have hidx : List.Forall₂ (fun j i => js[i]? = some j) js (List.range js.length) := by
    rw [List.forall₂_iff_get]
    refine ⟨by simp, fun i h h' => ?_⟩
    simp
  obtain ⟨is, i1, i2⟩ := List.perm_comp_forall₂ hperm hidx
  refine ⟨⟨is, i2.nodup_iff.mpr List.nodup_range, fun i hi hn => ?_, ?_⟩, ?_⟩
  · refine absurd (i2.mem_iff.mpr (List.mem_range.mpr ?_)) hn
    rw [a3.length_eq]
    exact hi
  · refine forall₂_pair ?_ i1 b3
    rintro k i e hk ⟨⟨c, hc, he⟩, h2⟩
    obtain ⟨name, n1, c', n2, n3⟩ := forall₂_at a3 hk
    obtain ⟨col, c1, c2⟩ := forall₂_at a4 hk
    obtain ⟨c'', g1, g2⟩ := hat k c hc
    rw [n2] at g1
    cases g1
    have hw : w c.name := by
      obtain ⟨c₂, m1, m2⟩ := (b2 k).mp ((hmem k).mpr (List.mem_of_getElem? hk))
      rw [hc] at m1
      cases m1
      exact m2
    refine ⟨name, col, n1, c1, ?_, ?_⟩
    · rw [n3, g2, upToZero_self (hz c (List.mem_of_getElem? hc) hw)]
      exact he
    · have hall : List.Forall₂ (fun row x => ∃ v y, row ∈ values ∧ row[k]? = some v ∧ x = some y ∧ PyMeans v y) values col := by
        rw [List.forall₂_iff_get] at c2 ⊢
        refine ⟨c2.1, fun n h h' => ?_⟩
        obtain ⟨v, y, q1, q2, q3⟩ := c2.2 n h h'
        exact ⟨v, y, List.get_mem _ _, q1, q2, q3⟩
      refine forall₂_pair ?_ hall h2
      rintro row x y ⟨v, p, r0, r1, r2, r3⟩ ⟨v', s1, s2⟩
      rw [r1] at s1
      cases s1
      exact ⟨p, r2, same_of_means r3 s2 (hz' row r0 k v r1)⟩
  · rw [← b3.length_eq, ← a3.length_eq, hperm.length_eq]

theorem r_readable {cols : List Column} {rows : List (Nat × Row)} (h : PyReadable cols rows) : RReadable cols rows := by
  intro c hc r hr
  obtain ⟨v, y, h1, h2⟩ := h c hc r hr
  obtain ⟨x, hx⟩ := r_of_py h2
  exact ⟨v, x, h1, hx⟩

theorem end_only_last {cfg : Cfg} {fuel : Nat} {filter : Option Filter} {s : IFStream} {R : Reader IFStream}
    (h : openReader cfg ifs fuel filter s = .ok R) (ops : List Op) (hops : .endOfData ∉ ops)
    (he : ends (R.run ifs ops).2.trace = 1) : Event.endOfData ∉ (R.run ifs ops).2.trace.dropLast := by
  rw [C08_end_last h ops hops, he, List.replicate_one, List.dropLast_concat]
  intro h
  rcases List.mem_cons.mp h with h | h
  · cases h
  · obtain ⟨r, -, h⟩ := List.mem_map.mp h
    cases h

/-- **C105**, partial. Any file: a Python program and an R program that ask for the same columns and make the same calls, up to the
end of the data, see the same columns with the same values, row by row. The calls return, the cells can be read and have Python
objects, there are rows, at most 2^31, and R can read the dates of the header. Missing, and false: files that only one of the two can
open (`C105_only_python_refuted`, `C105_only_r_refuted`). -/
theorem C105_files_partial (unique : List (List Byte) → List (List Byte)) (cfg : Cfg) (fuel : Nat) (fs : FileSystem)
    (name : List Byte) (kind : PyKind) (incl excl : PyArg) (rincl rexcl : RArg) (i e : List (List Byte))
    (hi : ArgNames incl i) (he : ArgNames excl e) (hri : RArgNames rincl i) (hre : RArgNames rexcl e)
    (hli : i.length < 2 ^ 31) (hle : e.length < 2 ^ 31) (hname : 0 ∉ name)
    (file : List Byte) (hfile : fs.content name = some file) (R R' : Reader IFStream)
    (hopen : openReader cfg ifs fuel (some (Filter.includeExclude i e)) (IFStream.open file) = .ok R)
    (hu : ∀ c ∈ R.props.columns, IsUtf8 c.name) (hg : GoodCols R.props.columns kind)
    (h1 : InYears R.props.header.dateCreated) (h2 : InYears R.props.header.dateModified)
    (h31 : R.props.md.rowCount ≤ 2 ^ 31) (ops : List Op) (hops : .endOfData ∉ ops) (hR' : (R.run ifs ops).2 = R')
    (hres : ∀ r ∈ (R.run ifs ops).1, ∃ v, r = .ok v) (hend : ends R'.trace = 1)
    (hread : PyReadable R.props.columns (pushes R'.trace)) (hne : pushes R'.trace ≠ []) :
    ∃ s f s' k t, pyOpen cfg fuel fs name kind incl excl = .ok s ∧ s.run ifs (ops.map .call ++ [.df]) = .ok ([some f], s') ∧
      rProgram unique cfg fuel fs name .data rincl rexcl ops = .ok k ∧ k.sink.df = some t ∧ SameData f t := by
  have hcut : name.takeWhile (· ≠ 0) = name := upToZero_self hname
  have hof : openFile fs (name.takeWhile (· ≠ 0)) = .ok (IFStream.open file) := by
    unfold openFile
    rw [hcut, hfile]
  have hfil : pyFilter incl excl = .ok (Filter.includeExclude i e) := by
    unfold pyFilter
    rw [argNames_ok hi (fun items h => by subst h; rw [hi.length_eq]; exact hli),
      argNames_ok he (fun items h => by subst h; rw [he.length_eq]; exact hle)]
    rfl
  have hrfil : rFilter rincl rexcl = .ok (Filter.includeExclude i e) := by
    unfold rFilter
    rw [rArgNames_ok hri (fun items h => by subst h; rw [← show i = items from hri]; exact hli),
      rArgNames_ok hre (fun items h => by subst h; rw [← show e = items from hre]; exact hle)]
    rfl
  obtain ⟨s, f, s', a1, a2, a3, -⟩ := C64_df_partial cfg fuel fs name kind incl excl _ _ R R' hfil hof hopen hu hg ops hR' hres
    (by subst hR'; exact end_only_last hopen ops hops hend) hread (.inr hne)
  obtain ⟨k, t, b1, -, b2, b3⟩ := C68_data_partial unique cfg fuel fs name rincl rexcl _ _ R R' hrfil hof hopen h1 h2 h31 ops hops
    hR' hres hend (r_readable hread) hne
  exact ⟨s, f, s', k, t, a1, a2, b1, b2, same_of_holds a3 b3⟩

/-- **C105**, partial. A data set in two files, in any two layouts, on two machines: what `read_sas` shows in Python of the one is what
`read_sas` shows in R of the other. Assumed as in `C63_layouts_partial` and `C68_layouts_partial`. -/
theorem C105_layouts_partial (unique : List (List Byte) → List (List Byte)) (cfg₁ cfg₂ : Cfg) (fuel₁ fuel₂ : Nat)
    (fs₁ fs₂ : FileSystem) (name₁ name₂ : List Byte) (kind : PyKind) (incl excl : PyArg) (rincl rexcl : RArg)
    (i e : List (List Byte)) (hi : ArgNames incl i) (he : ArgNames excl e) (hri : RArgNames rincl i) (hre : RArgNames rexcl e)
    (hli : i.length < 2 ^ 31) (hle : e.length < 2 ^ 31) (l₁ l₂ : Layout) (d₁ d₂ : DataSet)
    (hl₁ : l₁.For d₁) (hr₁ : l₁.Plain d₁ ∨ l₁.Compressed d₁) (hm₁ : Machine cfg₁ l₁.header d₁)
    (hf₁ : l₁.metaPages.length + l₁.rowPages.length < fuel₁)
    (hl₂ : l₂.For d₂) (hr₂ : l₂.Plain d₂ ∨ l₂.Compressed d₂) (hm₂ : Machine cfg₂ l₂.header d₂)
    (hf₂ : l₂.metaPages.length + l₂.rowPages.length < fuel₂)
    (hfile₁ : fs₁.content name₁ = some (l₁.write d₁)) (hname₁ : 0 ∉ name₁)
    (hfile₂ : fs₂.content name₂ = some (l₂.write d₂)) (hname₂ : 0 ∉ name₂)
    (hc : InCalendar l₂.header.created ∧ InCalendar l₂.header.modified)
    (hnames : d₁.columns.map ColumnDesc.name = d₂.columns.map ColumnDesc.name) (values : List (List Value))
    (hv₁ : List.Forall₂ (RowHolds l₁.header.endian d₁.columns) d₁.rows values)
    (hv₂ : List.Forall₂ (RowHolds l₂.header.endian d₂.columns) d₂.rows values)
    (hne : values ≠ []) (h31 : values.length ≤ 2 ^ 31) (h0 : ∀ row ∈ values, ∀ t, Value.text t ∈ row → 0 ∉ t)
    (hdist : (d₁.columns.map ColumnDesc.name).Nodup) (hsome : ∃ c ∈ d₁.columns, Wanted i e c.name)
    (hu : ∀ c ∈ d₁.columns, Wanted i e c.name → IsUtf8 c.name) (hz : ∀ c ∈ d₂.columns, Wanted i e c.name → 0 ∉ c.name) :
    ∃ s f s' k t, readSas cfg₁ fuel₁ fs₁ name₁ kind incl excl = .ok s ∧ s.df = .ok (some f, s') ∧
      rReadSas unique cfg₂ fuel₂ fs₂ name₂ rincl rexcl = .ok k ∧ k.df = some t ∧ SameData f t ∧ t.length = f.names.length := by
  have rows : ∀ {e : Endian} {d : DataSet}, List.Forall₂ (RowHolds e d.columns) d.rows values → d.rows ≠ [] := by
    intro e d h hd
    rw [hd] at h
    cases h
    exact hne rfl
  obtain ⟨s, f, s', a1, a2, a3, -⟩ := C63_layouts_partial cfg₁ fuel₁ fs₁ name₁ kind incl excl i e hi he
    (fun items h => by subst h; rw [hi.length_eq]; exact hli) (fun items h => by subst h; rw [he.length_eq]; exact hle)
    l₁ d₁ hl₁ hr₁ hm₁ hf₁ hfile₁ hname₁ values hv₁ (rows hv₁) hdist hsome hu
  obtain ⟨k, t, b1, b2, b3⟩ := C68_layouts_partial unique cfg₂ fuel₂ fs₂ name₂ rincl rexcl i e hri hre
    (fun items h => by subst h; rw [← show i = items from hri]; exact hli)
    (fun items h => by subst h; rw [← show e = items from hre]; exact hle)
    l₂ d₂ hl₂ hr₂ hm₂ hf₂ hfile₂ hname₂ hc values hv₂ (rows hv₂) (by rw [hv₂.length_eq]; exact h31) h0 hz
  exact ⟨s, f, s', k, t, a1, a2, b1, b2, same_of_data hnames h0 hz a3 b3⟩

/-- **C105**, `SinkByChunk` of R, partial. As `C105_layouts_partial`, for an R program that reads the file with a `SinkByChunk`: fewer
rows than two chunks, or no chunks, and names that are names in R. Missing, and false: as in `C69_layouts_partial`. -/
theorem C105_chunks_partial (unique : List (List Byte) → List (List Byte)) (cfg₁ cfg₂ : Cfg) (fuel₁ fuel₂ : Nat)
    (fs₁ fs₂ : FileSystem) (name₁ name₂ : List Byte) (kind : PyKind) (size : Nat) (incl excl : PyArg) (rincl rexcl : RArg)
    (i e : List (List Byte)) (hi : ArgNames incl i) (he : ArgNames excl e) (hri : RArgNames rincl i) (hre : RArgNames rexcl e)
    (hli : i.length < 2 ^ 31) (hle : e.length < 2 ^ 31) (l₁ l₂ : Layout) (d₁ d₂ : DataSet)
    (hl₁ : l₁.For d₁) (hr₁ : l₁.Plain d₁ ∨ l₁.Compressed d₁) (hm₁ : Machine cfg₁ l₁.header d₁)
    (hf₁ : l₁.metaPages.length + l₁.rowPages.length < fuel₁)
    (hl₂ : l₂.For d₂) (hr₂ : l₂.Plain d₂ ∨ l₂.Compressed d₂) (hm₂ : Machine cfg₂ l₂.header d₂)
    (hf₂ : l₂.metaPages.length + l₂.rowPages.length < fuel₂)
    (hfile₁ : fs₁.content name₁ = some (l₁.write d₁)) (hname₁ : 0 ∉ name₁)
    (hfile₂ : fs₂.content name₂ = some (l₂.write d₂)) (hname₂ : 0 ∉ name₂)
    (hc : InCalendar l₂.header.created ∧ InCalendar l₂.header.modified)
    (hnames : d₁.columns.map ColumnDesc.name = d₂.columns.map ColumnDesc.name) (values : List (List Value))
    (hv₁ : List.Forall₂ (RowHolds l₁.header.endian d₁.columns) d₁.rows values)
    (hv₂ : List.Forall₂ (RowHolds l₂.header.endian d₂.columns) d₂.rows values)
    (hne : values ≠ []) (h31 : values.length ≤ 2 ^ 31) (h0 : ∀ row ∈ values, ∀ t, Value.text t ∈ row → 0 ∉ t)
    (hdist : (d₁.columns.map ColumnDesc.name).Nodup) (hsome : ∃ c ∈ d₁.columns, Wanted i e c.name)
    (hu : ∀ c ∈ d₁.columns, Wanted i e c.name → IsUtf8 c.name)
    (hsize : size = 0 ∨ values.length < 2 * size) (hn : ∀ c ∈ d₂.columns, Wanted i e c.name → SyntacticName c.name) :
    ∃ s f s' k t, readSas cfg₁ fuel₁ fs₁ name₁ kind incl excl = .ok s ∧ s.df = .ok (some f, s') ∧
      rProgram unique cfg₂ fuel₂ fs₂ name₂ (.chunk size) rincl rexcl [.readAll] = .ok k ∧ k.sink.df = some t ∧ SameData f t ∧
      t.length = f.names.length := by
  have rows : ∀ {e : Endian} {d : DataSet}, List.Forall₂ (RowHolds e d.columns) d.rows values → d.rows ≠ [] := by
    intro e d h hd
    rw [hd] at h
    cases h
    exact hne rfl
  obtain ⟨s, f, s', a1, a2, a3, -⟩ := C63_layouts_partial cfg₁ fuel₁ fs₁ name₁ kind incl excl i e hi he
    (fun items h => by subst h; rw [hi.length_eq]; exact hli) (fun items h => by subst h; rw [he.length_eq]; exact hle)
    l₁ d₁ hl₁ hr₁ hm₁ hf₁ hfile₁ hname₁ values hv₁ (rows hv₁) hdist hsome hu
  obtain ⟨k, t, b1, b2, b3⟩ := C69_layouts_partial unique cfg₂ fuel₂ fs₂ name₂ size rincl rexcl i e hri hre
    (fun items h => by subst h; rw [← show i = items from hri]; exact hli)
    (fun items h => by subst h; rw [← show e = items from hre]; exact hle)
    l₂ d₂ hl₂ hr₂ hm₂ hf₂ hfile₂ hname₂ hc values hv₂ (rows hv₂) (by rw [hv₂.length_eq]; exact h31) h0
    (by rw [hv₂.length_eq]; exact hsize) (hnames ▸ hdist) hn
  exact ⟨s, f, s', k, t, a1, a2, b1, b2, same_of_data hnames h0 (fun c hc hw => syntactic_noZero (hn c hc hw)) a3 b3⟩

/-! ## CSV -/

theorem field_of_means {v : Value} {y : PyVal} {f : List Byte} (hy : PyMeans v y) (hf : FieldMeans v f) : SameField y f := by
  cases v with
  | text t => cases hy; exact hf
  | integer i => cases hy; exact hf
  | number b => cases hy; exact ⟨b, rfl, hf⟩
  | missing => cases hy; exact hf
  | datetime us =>
    obtain ⟨d, h, m, s, u, rfl, hd, ht, hu⟩ := hy
    obtain ⟨d', hd', rfl⟩ := hf
    rw [clockText_iso ht hu, isDay_unique hd' hd]
    rfl
  | date n =>
    obtain ⟨d, rfl, hd⟩ := hy
    obtain ⟨d', hd', rfl⟩ := hf
    rw [isDay_unique hd' hd]
    rfl
  | time us =>
    obtain ⟨h, m, s, u, rfl, ht, hu⟩ := hy
    rw [show f = isoTime us.toNat from hf, clockText_iso ht hu]
    rfl

/-- A frame and the records of the same data set. -/
theorem records_of_data {d₁ d₂ : DataSet} {w : List Byte → Prop} {values : List (List Value)} {f : PyFrame}
    {records : List (List (List Byte))} (hnames : d₁.columns.map ColumnDesc.name = d₂.columns.map ColumnDesc.name)
    (hf : DataFrameOf d₁.columns w values f) (hr : RecordsOf d₂.columns w values records) : SameRecords f records := by
  obtain ⟨js, a1, a2, a3, a4⟩ := hf
  obtain ⟨ks, names, table, b1, b2, rfl, b3, b4⟩ := hr
  have hjs : ks = js := sorted_unique b1 a1 fun j => (b2 j).trans ((wanted_positions hnames j).symm.trans (a2 j).symm)
  subst hjs
  have hn : names = f.names := by
    refine forall₂_unique ?_ b3 a3
    rintro j x y ⟨c, h1, rfl⟩ ⟨c', h2, rfl⟩
    have e1 : (d₂.columns.map ColumnDesc.name)[j]? = some c.name := by rw [List.getElem?_map, h1]; rfl
    rw [← hnames, List.getElem?_map, h2] at e1
    exact (Option.some.inj e1).symm
  subst hn
  refine ⟨table, rfl, by rw [← a4.length_eq, ← a3.length_eq], fun r hr => ?_, fun j col hj => ?_⟩
  · obtain ⟨row, -, h⟩ := mem_forall₂ b4 hr
    rw [← h.length_eq, a3.length_eq]
  · obtain ⟨hlt, rfl⟩ := List.getElem?_eq_some_iff.mp hj
    have hlt' : j < ks.length := by rw [a4.length_eq]; exact hlt
    have hk : ks[j]? = some ks[j] := List.getElem?_eq_getElem hlt'
    obtain ⟨col, c1, c2⟩ := forall₂_at a4 hk
    rw [hj] at c1
    cases c1
    refine forall₂_pair ?_ c2 b4
    rintro row x r ⟨v, y, h1, h2, h3⟩ h4
    obtain ⟨fld, g1, v', g2, g3⟩ := forall₂_at h4 hk
    rw [h1] at g2
    cases g2
    exact ⟨y, fld, h2, g1, field_of_means h3 g3⟩

/-- **C105**, CSV, partial. A data set in two files, in any two layouts, on two machines: what `read_sas` shows in Python of the one
is what a CSV reader finds in the text made of the other. Assumed as in `C63_layouts_partial` and `C87_csv_partial`. -/
theorem C105_csv_partial (cfg₁ cfg₂ : Cfg) (fuel₁ fuel₂ : Nat) (fs : FileSystem) (name : List Byte) (kind : PyKind)
    (incl excl : PyArg) (i e : List (List Byte)) (hi : ArgNames incl i) (he : ArgNames excl e)
    (hli : i.length < 2 ^ 31) (hle : e.length < 2 ^ 31) (l₁ l₂ : Layout) (d₁ d₂ : DataSet)
    (hl₁ : l₁.For d₁) (hr₁ : l₁.Plain d₁ ∨ l₁.Compressed d₁) (hm₁ : Machine cfg₁ l₁.header d₁)
    (hf₁ : l₁.metaPages.length + l₁.rowPages.length < fuel₁)
    (hl₂ : l₂.For d₂) (hr₂ : l₂.Plain d₂ ∨ l₂.Compressed d₂) (hm₂ : Machine cfg₂ l₂.header d₂)
    (hf₂ : l₂.metaPages.length + l₂.rowPages.length < fuel₂) (hfile : fs.content name = some (l₁.write d₁)) (hname : 0 ∉ name)
    (hnames : d₁.columns.map ColumnDesc.name = d₂.columns.map ColumnDesc.name) (values : List (List Value))
    (hv₁ : List.Forall₂ (RowHolds l₁.header.endian d₁.columns) d₁.rows values)
    (hv₂ : List.Forall₂ (RowHolds l₂.header.endian d₂.columns) d₂.rows values) (hne : values ≠ [])
    (hdist : (d₁.columns.map ColumnDesc.name).Nodup) (hsome : ∃ c ∈ d₁.columns, Wanted i e c.name)
    (hu : ∀ c ∈ d₁.columns, Wanted i e c.name → IsUtf8 c.name) (hq : ∀ c ∈ d₂.columns, Wanted i e c.name → 34 ∉ c.name)
    (htexts : ∀ row ∈ values, ∀ v ∈ row, Unquoted v) :
    ∃ s f s' R text records, readSas cfg₁ fuel₁ fs name kind incl excl = .ok s ∧ s.df = .ok (some f, s') ∧
      openReader cfg₂ ifs fuel₂ (some (Filter.includeExclude i e)) (IFStream.open (l₂.write d₂)) = .ok R ∧
      csvText libTexts (R.run ifs [.readAll]).2.trace = (text, .ok ()) ∧ csvRecords text = some records ∧
      SameRecords f records := by
  have rows : ∀ {e : Endian} {d : DataSet}, List.Forall₂ (RowHolds e d.columns) d.rows values → d.rows ≠ [] := by
    intro e d h hd
    rw [hd] at h
    cases h
    exact hne rfl
  obtain ⟨s, f, s', a1, a2, a3, -⟩ := C63_layouts_partial cfg₁ fuel₁ fs name kind incl excl i e hi he
    (fun items h => by subst h; rw [hi.length_eq]; exact hli) (fun items h => by subst h; rw [he.length_eq]; exact hle)
    l₁ d₁ hl₁ hr₁ hm₁ hf₁ hfile hname values hv₁ (rows hv₁) hdist hsome hu
  have hsome₂ : ∃ c ∈ d₂.columns, Wanted i e c.name := by
    obtain ⟨c, hc, hw⟩ := hsome
    have : c.name ∈ d₂.columns.map ColumnDesc.name := by rw [← hnames]; exact List.mem_map_of_mem hc
    obtain ⟨c', hc', h⟩ := List.mem_map.mp this
    exact ⟨c', hc', by rw [h]; exact hw⟩
  obtain ⟨R, text, records, b1, b2, b3, b4⟩ := C87_csv_partial cfg₂ fuel₂ i e l₂ d₂ hl₂ hr₂ hm₂ hf₂ values hv₂ hsome₂ hq htexts
  exact ⟨s, f, s', R, text, records, a1, a2, b1, b2, b3, records_of_data hnames a3 b4⟩

/-! ## What does not hold -/

/-- **C105** is false of a file without a date of creation: Python shows it, R cannot open it. -/
theorem C105_only_python_refuted : demoProgram [(170, 0xF8), (171, 0x7F)] .data [.call .readAll, .df] = .ok [some (demoFrame 3)] ∧
    demoTable [(170, 0xF8), (171, 0x7F)] .data [.readAll] = .error (.cpp (.exn .outOfRange)) := by decide +kernel

/-- **C105** is false of a file with a name in Latin-1: R shows it, Python cannot open it. -/
theorem C105_only_r_refuted : demoProgram [(969, 0xC4)] .data [.call .readAll, .df] = .error .raised ∧
    demoTable [(969, 0xC4)] .data [.readAll] = .ok (some [demoRows[0], ([78, 0xC4, 77, 69], demoRows[1].2)]) := by decide +kernel

/-- **C105** is false of a file with two columns of one name: Python shows the values of the second twice, R shows both. -/
theorem C105_twins_refuted : demoProgram [(1018, 36), (1020, 2)] .data [.call .readAll, .df] =
      .ok [some { demoFrame 3 with
        names := [ascii "ID", ascii "ID"]
        columns := List.replicate 2 [some (.bytes (ascii "ann")), some (.bytes (ascii "bob")), some (.bytes (ascii "cy"))] }] ∧
    demoTable [(1018, 36), (1020, 2)] .data [.readAll] = .ok (some [demoRows[0], (ascii "ID", demoRows[1].2)]) := by decide +kernel

/-! ## Files -/

/-- The demonstration file opened for one of its columns. -/
def nameOnly : Reader IFStream :=
  Demo.get (openReader Demo.cfg ifs 10 (some (Filter.includeExclude [ascii "NAME"] [])) (IFStream.open Demo.file))

/-- The demonstration file, one column, two rows and then the rest. -/
example : ∃ s f s' k t, pyOpen Demo.cfg 10 (patchedFile []) (ascii "f") .row (.list [.bytes (ascii "NAME")]) .none = .ok s ∧
    s.run ifs ([Op.readRows 2, .readAll].map .call ++ [.df]) = .ok ([some f], s') ∧
    rProgram unique Demo.cfg 10 (patchedFile []) (ascii "f") .data (.chr [ascii "NAME"]) .null [.readRows 2, .readAll] = .ok k ∧
    k.sink.df = some t ∧ SameData f t := by
  refine C105_files_partial unique Demo.cfg 10 (patchedFile []) (ascii "f") .row (.list [.bytes (ascii "NAME")]) .none
    (.chr [ascii "NAME"]) .null [ascii "NAME"] [] (.cons (.inr rfl) .nil) rfl rfl rfl (by decide) (by decide) (by decide +kernel)
    Demo.file rfl nameOnly _ (Demo.get_ok (by decide +kernel)) (all_utf8_iff.mp (by decide +kernel))
    ⟨by decide +kernel, by decide +kernel⟩ ⟨0, by decide +kernel, by unfold CalendarDay; decide⟩
    ⟨0, by decide +kernel, by unfold CalendarDay; decide⟩ (by decide +kernel) [.readRows 2, .readAll] (by decide) rfl ?_
    (by decide +kernel) ?_ (by decide +kernel)
  · intro r hr
    have : ((nameOnly.run ifs [.readRows 2, .readAll]).1.all fun r => r.isOk) = true := by decide +kernel
    have := List.all_eq_true.mp this r hr
    cases r with
    | ok v => exact ⟨v, rfl⟩
    | error e => cases this
  · have : ∀ c ∈ typed nameOnly.props.columns, ∀ r ∈ pushes (nameOnly.run ifs [.readRows 2, .readAll]).2.trace,
        (match c.value r.2.mem with | .ok (some (.str _)) => true | _ => false) = true := by decide +kernel
    intro c hc r hr
    have h := this c hc r hr
    split at h
    · rename_i s hs; exact ⟨_, _, hs, rfl⟩
    · cases h

/-! ## A data set -/

/-- `people` in a big-endian file read by Python and in a small compressed little-endian file read by R. -/
example : ∃ s f s' k t, readSas Demo.cfg 100 bothLayouts (ascii "a") (.chunk 2) = .ok s ∧ s.df = .ok (some f, s') ∧
    rReadSas unique Demo.cfg 100 bothLayouts (ascii "b") = .ok k ∧ k.df = some t ∧ SameData f t ∧ t.length = f.names.length :=
  C105_layouts_partial unique Demo.cfg Demo.cfg 100 100 bothLayouts bothLayouts (ascii "a") (ascii "b") (.chunk 2) .none .none .null
    .null [] [] rfl rfl rfl rfl (by decide) (by decide) _ _ _ _ people_packed.1 (.inl people_packed.2) people_machine_dated
    (by decide +kernel) peopleSmall_rle.1 (.inr peopleSmall_rle.2) peopleSmall_machine (by decide +kernel)
    bothLayouts_a (by decide) bothLayouts_b (by decide) ⟨inCalendar_zero, inCalendar_zero⟩ small_names _ people_values
    peopleSmall_values (by decide) (by decide) (fun row hrow t ht => (peopleRows_texts row hrow t ht).1)
    (by decide +kernel) ⟨_, List.mem_cons_self, by simp [Wanted]⟩
    (fun c hc _ => ByteArray.validateUTF8_eq_true_iff.mp ((show ∀ c ∈ people.columns, utf8Valid c.name = true by decide +kernel) c hc))
    (fun c hc _ => (show ∀ c ∈ peopleSmall.columns, 0 ∉ c.name by decide +kernel) c hc)

/-- The same files; R reads in chunks of two rows, Python row by row. -/
example : ∃ s f s' k t, readSas Demo.cfg 100 bothLayouts (ascii "a") .row = .ok s ∧ s.df = .ok (some f, s') ∧
    rProgram unique Demo.cfg 100 bothLayouts (ascii "b") (.chunk 2) .null .null [.readAll] = .ok k ∧ k.sink.df = some t ∧
    SameData f t ∧ t.length = f.names.length :=
  C105_chunks_partial unique Demo.cfg Demo.cfg 100 100 bothLayouts bothLayouts (ascii "a") (ascii "b") .row 2 .none .none .null
    .null [] [] rfl rfl rfl rfl (by decide) (by decide) _ _ _ _ people_packed.1 (.inl people_packed.2) people_machine_dated
    (by decide +kernel) peopleSmall_rle.1 (.inr peopleSmall_rle.2) peopleSmall_machine (by decide +kernel)
    bothLayouts_a (by decide) bothLayouts_b (by decide) ⟨inCalendar_zero, inCalendar_zero⟩ small_names _ people_values
    peopleSmall_values (by decide) (by decide) (fun row hrow t ht => (peopleRows_texts row hrow t ht).1)
    (by decide +kernel) ⟨_, List.mem_cons_self, by simp [Wanted]⟩
    (fun c hc _ => ByteArray.validateUTF8_eq_true_iff.mp ((show ∀ c ∈ people.columns, utf8Valid c.name = true by decide +kernel) c hc))
    (.inr (by decide)) (fun c hc _ => people_syntactic (by rw [small_names]; exact List.mem_map_of_mem hc))

/-- The same files, Python and CSV, without the column `age`. -/
example : ∃ s f s' R text records, readSas Demo.cfg 100 bothLayouts (ascii "a") .data .none (.list [.str (ascii "age")]) = .ok s ∧
    s.df = .ok (some f, s') ∧ openReader Demo.cfg ifs 100 (some (Filter.includeExclude [] [ascii "age"]))
      (IFStream.open ((Layout.rle demoSmall peopleSmall).write peopleSmall)) = .ok R ∧
    csvText libTexts (R.run ifs [.readAll]).2.trace = (text, .ok ()) ∧ csvRecords text = some records ∧ SameRecords f records :=
  C105_csv_partial Demo.cfg Demo.cfg 100 100 bothLayouts (ascii "a") .data .none (.list [.str (ascii "age")]) [] [ascii "age"] rfl
    (.cons (.inl rfl) .nil) (by decide) (by decide) _ _ _ _ people_packed.1 (.inl people_packed.2) people_machine_dated
    (by decide +kernel) peopleSmall_rle.1 (.inr peopleSmall_rle.2) peopleSmall_machine (by decide +kernel)
    bothLayouts_a (by decide) small_names _ people_values peopleSmall_values (by decide) (by decide +kernel)
    ⟨people.columns[1], List.getElem_mem _, by unfold Wanted; decide +kernel⟩
    (fun c hc _ => ByteArray.validateUTF8_eq_true_iff.mp ((show ∀ c ∈ people.columns, utf8Valid c.name = true by decide +kernel) c hc))
    (fun c hc _ => (show ∀ c ∈ peopleSmall.columns, 34 ∉ c.name by decide +kernel) c hc)
    (fun row hrow v hv => by
      cases v with
      | text t => exact (peopleRows_texts row hrow t hv).2
      | _ => trivial)

/-- The same instant in both languages, and another one. -/
example : SameValue (.time (.datetime ⟨2016, 12, 26⟩ 20 14 36 493827)) (.str (ascii "2016-12-26 20:14:36.493827")) ∧
    ¬ SameValue (.time (.datetime ⟨2016, 12, 26⟩ 20 14 36 493827)) (.str (ascii "2016-12-26 20:14:36")) ∧
    ¬ SameValue (.time .none) (.str []) := by
  unfold SameValue
  decide +kernel

end Sas.Props
