import Verif.Proofs.RChunks
import Verif.Props.RFront

/-!
# C69: what R's `SinkByChunk` shows, exactly
-/

namespace Sas.Props
open Sas Sas.Spec

variable {unique : List (List Byte) → List (List Byte)}

/-- **C69**, exactly. A program opens a file with a `SinkByChunk` of any chunk size and reads to the end; `sink$df` then has the
reported columns, sorted by type and under their names, and the rows `shownRows` says: all that were read, in order, but with the rows
of the second chunk in the places of the first, when a whole chunk could follow the first one in the file. There is at least one row,
at most 2^31, and the names are distinct and names in R. -/
theorem C69_exact_partial (unique : List (List Byte) → List (List Byte)) (cfg : Cfg) (fuel : Nat) (fs : FileSystem)
    (name : List Byte) (size : Nat) (incl excl : RArg) (f : Filter) (src : IFStream) (R R' : Reader IFStream)
    (hfil : rFilter incl excl = .ok f) (hfile : openFile fs (name.takeWhile (· ≠ 0)) = .ok src)
    (hopen : openReader cfg ifs fuel (some f) src = .ok R)
    (h1 : InYears R.props.header.dateCreated) (h2 : InYears R.props.header.dateModified)
    (hnames : ∀ c ∈ R.props.columns, SyntacticName c.name) (hdist : (R.props.columns.map Column.name).Nodup)
    (h31 : R.props.md.rowCount ≤ 2 ^ 31) (ops : List Op) (hops : .endOfData ∉ ops) (hR' : (R.run ifs ops).2 = R')
    (hres : ∀ r ∈ (R.run ifs ops).1, ∃ v, r = .ok v) (hend : 0 < ends R'.trace)
    (hread : RReadable R.props.columns (pushes R'.trace)) (hne : pushes R'.trace ≠ []) :
    ∃ s t, rProgram unique cfg fuel fs name (.chunk size) incl excl ops = .ok s ∧ s.reader = R' ∧ s.sink.df = some t ∧
      TableHolds ((byType R.props.columns).map Column.name) R.props.columns
        (shownRows size R.props.md.rowCount (pushes R'.trace)) t := by
  subst hR'
  have ht := C08_end_last hopen ops hops
  obtain ⟨es, e1, -, -, e4, e5⟩ := C08_protocol hopen ops
  have hpush : pushes (R.run ifs ops).2.trace = pushes es := by rw [e1]; rfl
  rw [← hpush] at e4 e5
  generalize hrw : pushes (R.run ifs ops).2.trace = rows at *
  obtain ⟨n, hn⟩ : ∃ n, ends (R.run ifs ops).2.trace = n + 1 := ⟨_, (Nat.succ_pred_eq_of_pos hend).symm⟩
  rw [hn] at ht
  obtain ⟨l, w1, w2, w3⟩ := wrap_ok h1 h2
  have hsub : ∀ c ∈ byType R.props.columns, c ∈ R.props.columns := fun c hc =>
    List.mem_of_mem_filter ((byType_perm R.props.columns).mem_iff.mp hc)
  have hN := frameNames_self (unique := unique) (fun c hc => hnames c (hsub c hc))
    (((byType_perm R.props.columns).map Column.name).nodup_iff.mpr (hdist.sublist (List.Sublist.map _ List.filter_sublist)))
  have hframe : RShown unique R.props.columns size R.props.md.rowCount { kind := .chunk size, properties := some l }
      (RCols.setProperties { size := size } R.props) [] [] :=
    ⟨rstart size R.props, by simp, fun h => by simpa using h, fun i _ => by simp [RCols.setProperties, RCols.prepare],
      .inl ⟨rfl, rfl⟩⟩
  have hlen : (frameNames unique R.props.columns).length = (byType R.props.columns).length := by rw [hN, List.length_map]
  obtain ⟨o1, st1, d1, r1, a1, a2, a3, -, -⟩ := RShown.rows hlen h31 rows _ _ [] [] hframe hread
    (fun r hr => e5 r.1 (List.mem_map.2 ⟨r, hr, rfl⟩)) (by simpa using e4)
  rw [List.nil_append, List.nil_append] at a3
  obtain ⟨k, t, b1, b2, b3⟩ := a2.ends hlen n (by rw [a3]; exact hne)
  rw [a3, hN] at b3
  refine ⟨_, t, program_ok hfil hfile hopen (by simp) h1 h2 hres w1 w3 ht (k := k) ?_, rfl, b2, b3⟩
  refine (RSink.events_append _ _ _).trans ?_
  show (do (← (RSink.mk { kind := .chunk size, properties := some l }
    (.chunk (RCols.setProperties { size := size } R.props))).events unique _).events unique _) = _
  rw [a1]
  exact b1

/-- All rows of two or more chunks. -/
theorem shown_whole {α : Type} {size count : Nat} {rows : List (Nat × α)} (h0 : 0 < size) (h : 2 * size ≤ rows.length)
    (hcount : rows.length = count) (hnum : ∀ (k : Nat) r, rows[k]? = some r → r.1 = k) :
    shownRows size count rows = (rows.drop size).take size ++ rows.drop size := by
  have hk : size - 1 < rows.length := by omega
  have hr : Reused size count rows := ⟨rows[size - 1], List.getElem?_eq_getElem hk, by
    rw [hnum _ _ (List.getElem?_eq_getElem hk)]
    omega⟩
  have hl : ((rows.drop size).take size).length = size := by simp; omega
  have hd : (rows.take size).drop size = [] := List.drop_eq_nil_of_le (by simp)
  rw [shown_reused h0 hr, hl, hd, List.append_nil]

theorem tableHolds_rows {names : List (List Byte)} {cols : List Column} {a b : List (Nat × Row)} {t : RTable}
    (hab : a.map Prod.snd = b.map Prod.snd) (h : TableHolds names cols a t) : TableHolds names cols b t := by
  refine ⟨h.1, h.2.imp fun c l hl => ?_⟩
  have h' : List.Forall₂ (fun (r : Row) x => ∃ v, c.value r.mem = .ok (some v) ∧ RShows v x) (a.map Prod.snd) l := by
    rw [List.forall₂_map_left_iff]
    exact hl
  rw [hab, List.forall₂_map_left_iff] at h'
  exact h'

theorem pushes_number : ∀ (rs : List Row) (n k : Nat) (x : Nat × Row), (pushes (pushEvents n rs))[k]? = some x → x.1 = n + k := by
  intro rs
  induction rs with
  | nil => intro n k x h; simp [pushEvents, pushes] at h
  | cons r rs ih =>
    intro n k x h
    cases k with
    | zero =>
      simp [pushEvents, pushes] at h
      rw [← h]
      rfl
    | succ k =>
      have := ih (n + 1) k x (by simpa [pushEvents, pushes] using h)
      omega

/-- The place where the row shown in place `k` was. -/
theorem overlay_at {α : Type} {size k : Nat} {l : List α} (h : 2 * size ≤ l.length) :
    ((l.drop size).take size ++ l.drop size)[k]? = l[if k < size then size + k else k]? := by
  have hl : ((l.drop size).take size).length = size := by simp; omega
  split
  · rw [List.getElem?_append_left (by omega), List.getElem?_take_of_lt (by omega), List.getElem?_drop]
  · rw [List.getElem?_append_right (by omega), hl, List.getElem?_drop]
    congr 1
    omega

/-- **C69** is false of every data set with two chunks or more: a file that holds the data set, in any layout, read to the end with a
`SinkByChunk`, is shown with the rows of the second chunk in the places of the first. All else is right. -/
theorem C69_whole_refuted (unique : List (List Byte) → List (List Byte)) (cfg : Cfg) (fuel : Nat) (fs : FileSystem)
    (name : List Byte) (size : Nat) (incl excl : RArg) (i e : List (List Byte)) (hi : RArgNames incl i)
    (he : RArgNames excl e) (hli : ∀ items, incl = .chr items → items.length < 2 ^ 31)
    (hle : ∀ items, excl = .chr items → items.length < 2 ^ 31)
    (l : Layout) (d : DataSet) (hl : l.For d) (hr : l.Plain d ∨ l.Compressed d) (hm : Machine cfg l.header d)
    (hf : l.metaPages.length + l.rowPages.length < fuel)
    (hfile : fs.content name = some (l.write d)) (hname : 0 ∉ name)
    (hc : InCalendar l.header.created ∧ InCalendar l.header.modified)
    (values : List (List Value)) (hv : List.Forall₂ (RowHolds l.header.endian d.columns) d.rows values)
    (h31 : d.rows.length ≤ 2 ^ 31) (h0 : ∀ row ∈ values, ∀ t, Value.text t ∈ row → 0 ∉ t)
    (hs0 : 0 < size) (hsize : 2 * size ≤ d.rows.length) (hd : (d.columns.map ColumnDesc.name).Nodup)
    (hn : ∀ c ∈ d.columns, Wanted i e c.name → SyntacticName c.name) :
    ∃ s t, rProgram unique cfg fuel fs name (.chunk size) incl excl [.readAll] = .ok s ∧ s.sink.df = some t ∧
      TableOf d.columns (Wanted i e) ((values.drop size).take size ++ values.drop size) t := by
  obtain ⟨R, hopen, hb⟩ := readsBack hl hr hm hf
  have hne : d.rows ≠ [] := by
    rintro h
    rw [h] at hsize
    simp at hsize
    omega
  have hfil : rFilter incl excl = .ok (Filter.includeExclude i e) := by
    unfold rFilter
    rw [rArgNames_ok hi hli, rArgNames_ok he hle]
    rfl
  have hof : openFile fs (name.takeWhile (· ≠ 0)) = .ok (IFStream.open (l.write d)) := by
    have hcut : name.takeWhile (· ≠ 0) = name := upToZero_self hname
    unfold openFile
    rw [hcut, hfile]
  obtain ⟨R', rws, js, o1, o2, o3, o4, o5, j1, j2, j3, j4⟩ := written_filtered (i := i) (e := e) hopen hb hv
  have hlen : rws.length = d.rows.length := by rw [j3, hv.length_eq]
  have hrne : rws ≠ [] := by
    rintro rfl
    exact hne (List.eq_nil_of_length_eq_zero hlen.symm)
  have hpush : pushes (R'.run ifs [.readAll]).2.trace = pushes (pushEvents 0 rws) := by
    rw [o5]
    simp [pushes, pushes_append]
  have hends : ends (R'.run ifs [.readAll]).2.trace = 1 := by
    rw [o5]
    have hp : ∀ (rs : List Row) (k : Nat), ends (pushEvents k rs ++ [.endOfData]) = 1 := by
      intro rs
      induction rs with
      | nil => intro k; rfl
      | cons r rs ih => intro k; simpa [pushEvents, ends] using ih (k + 1)
    simpa [ends] using hp rws 0
  have hpne : pushes (R'.run ifs [.readAll]).2.trace ≠ [] := by
    rw [hpush]
    intro h
    have := pushes_pushEvents rws 0
    rw [h] at this
    exact hrne this.symm
  have hread : RReadable R'.props.columns (pushes (R'.run ifs [.readAll]).2.trace) := by
    intro col hcol r hr
    have hr' : r.2 ∈ rws := by
      rw [← pushes_pushEvents rws 0, ← hpush]
      exact List.mem_map_of_mem (f := Prod.snd) hr
    obtain ⟨k, hk⟩ := List.mem_iff_getElem?.mp hr'
    have hlt : k < values.length := by rw [← j3]; exact (List.getElem?_eq_some_iff.mp hk).1
    obtain ⟨j, -, c, -, -, hg⟩ := forall₂_mem_right j4 (List.mem_of_mem_filter hcol)
    obtain ⟨v, cell, m1, m2, m3⟩ := hg k _ _ hk (List.getElem?_eq_getElem hlt)
    obtain ⟨w, y, q1, q2, -⟩ := r_shows_of_gives m2
      (fun t ht => h0 _ (List.getElem_mem hlt) t (by rw [← ht]; exact List.mem_of_getElem? m1)) m3
    exact ⟨w, y, q1, q2⟩
  have hy1 : InYears R'.props.header.dateCreated := by rw [o2]; exact shows_inYears hc.1 hb.header.dateCreated
  have hy2 : InYears R'.props.header.dateModified := by rw [o2]; exact shows_inYears hc.2 hb.header.dateModified
  have hres : ∀ r ∈ (R'.run ifs [.readAll]).1, ∃ v, r = .ok v := by
    rw [o4]
    intro r hr
    exact ⟨_, List.mem_singleton.mp hr⟩
  have hrc : R'.props.md.rowCount = d.rows.length := by rw [o3, hb.rowCount]
  have hcols : ∀ col ∈ R'.props.columns, ∃ c ∈ d.columns, col.name = c.name ∧ Wanted i e c.name := by
    intro col hcol
    obtain ⟨j, hj, c, h1, h2, -⟩ := forall₂_mem_right j4 hcol
    obtain ⟨c', h3, h4⟩ := (j2 j).mp hj
    rw [h1] at h3
    cases h3
    exact ⟨c, List.mem_of_getElem? h1, h2.name, h4⟩
  have hdist : (R'.props.columns.map Column.name).Nodup := by
    have : List.Forall₂ (fun (j : Nat) n => ∃ c, d.columns[j]? = some c ∧ n = c.name) js (R'.props.columns.map Column.name) := by
      rw [List.forall₂_map_right_iff]
      exact j4.imp fun j col h => by obtain ⟨c, h1, h2, -⟩ := h; exact ⟨c, h1, h2.name⟩
    have hj : R'.props.columns.map Column.name = js.map fun j => ((d.columns.map ColumnDesc.name)[j]?).getD [] := by
      rw [← List.forall₂_eq_eq_eq, List.forall₂_map_right_iff]
      refine this.flip.imp fun n j h => ?_
      obtain ⟨c, h1, h2⟩ := h
      rw [List.getElem?_map, h1, h2]
      rfl
    rw [hj]
    refine List.Nodup.map_on (H := ?_) (d := ?_)
    · intro a ha b hb hab
      obtain ⟨ca, a1, -⟩ := (j2 a).mp ha
      obtain ⟨cb, b1, -⟩ := (j2 b).mp hb
      simp only [List.getElem?_map, a1, b1, Option.map_some, Option.getD_some] at hab
      have ha' : (d.columns.map ColumnDesc.name)[a]? = some ca.name := by rw [List.getElem?_map, a1]; rfl
      have hb' : (d.columns.map ColumnDesc.name)[b]? = some ca.name := by rw [List.getElem?_map, b1, hab]; rfl
      obtain ⟨la, -⟩ := List.getElem?_eq_some_iff.mp ha'
      exact (List.nodup_iff_getElem?_ne_getElem?.mp hd |> fun H => by
        rcases Nat.lt_trichotomy a b with hlt | heq | hgt
        · obtain ⟨lb, -⟩ := List.getElem?_eq_some_iff.mp hb'
          exact absurd (ha'.trans hb'.symm) (H a b hlt lb)
        · exact heq
        · exact absurd (hb'.trans ha'.symm) (H b a hgt la))
    · exact j1.imp Nat.ne_of_lt
  obtain ⟨s, t, g1, g2, g3, g4⟩ := C69_exact_partial unique cfg fuel fs name size incl excl _ _ R' _ hfil hof o1 hy1 hy2
    (fun col hcol => by
      obtain ⟨c, h1, h2, h3⟩ := hcols col hcol
      rw [h2]
      exact hn c h1 h3) hdist
    (by rw [hrc]; exact h31) [.readAll] (by simp) rfl hres (by rw [hends]; exact Nat.one_pos) hread hpne
  have hpl : (pushes (pushEvents 0 rws)).length = rws.length := by
    have := congrArg List.length (pushes_pushEvents rws 0)
    rwa [List.length_map] at this
  rw [hpush, hrc, shown_whole hs0 (by rw [hpl, hlen]; exact hsize) (by rw [hpl, hlen])
    (fun k r hr => by rw [pushes_number rws 0 k r hr]; omega)] at g4
  have hvl : 2 * size ≤ values.length := by rw [← j3, hlen]; exact hsize
  have hrl : 2 * size ≤ rws.length := by rw [hlen]; exact hsize
  have hmem : ∀ row ∈ (values.drop size).take size ++ values.drop size, row ∈ values := by
    intro row hrow
    rcases List.mem_append.mp hrow with h | h
    · exact List.mem_of_mem_drop (List.mem_of_mem_take h)
    · exact List.mem_of_mem_drop h
  refine ⟨s, t, g1, g3, tableOf_holds (e := l.header.endian) (rws := (rws.drop size).take size ++ rws.drop size) (cols := R'.props.columns) j1 j2
    (by simp [j3]) ?_ (j4.imp fun j col h => ?_) (fun row hrow => h0 row (hmem row hrow)) ?_⟩
  · intro h
    have := congrArg List.length h
    simp at this
    omega
  · obtain ⟨c, h1, h2, h3⟩ := h
    refine ⟨c, h1, h2, fun k r vs hk hvs => ?_⟩
    rw [overlay_at hrl] at hk
    rw [overlay_at hvl] at hvs
    exact h3 _ r vs hk hvs
  · refine tableHolds_rows ?_ g4
    rw [pushes_pushEvents, List.map_append, List.map_take, List.map_drop, pushes_pushEvents]

/-- Rows 0 to 4 in chunks of two: rows 2 and 3 are shown twice, rows 0 and 1 not at all. Fewer rows than two chunks are right, and so
are rows read after a skip that leaves less than a chunk. With a skip to the last row it is only row 0 that is lost. -/
example : (shownRows 2 5 [(0, 'a'), (1, 'b'), (2, 'c'), (3, 'd'), (4, 'e')]).map Prod.fst = [2, 3, 2, 3, 4] ∧
    (shownRows 2 3 [(0, 'a'), (1, 'b'), (2, 'c')]).map Prod.fst = [0, 1, 2] ∧
    (shownRows 2 5 [(2, 'c'), (3, 'd'), (4, 'e')]).map Prod.fst = [2, 3, 4] ∧
    (shownRows 2 5 [(0, 'a'), (1, 'b'), (4, 'e')]).map Prod.fst = [4, 1, 4] := by decide

/-- The demonstration file as it is opened by R without arguments. -/
def demoWhole : Reader IFStream :=
  Demo.get (openReader Demo.cfg ifs 10 (some (Filter.includeExclude [] [])) (IFStream.open Demo.file))

theorem demoWhole_names : ∀ c ∈ demoWhole.props.columns, SyntacticName c.name := by
  have hn : ∀ c ∈ demoWhole.props.columns, c.name = ascii "ID" ∨ c.name = ascii "NAME" := by decide +kernel
  intro c hc
  rcases hn c hc with h | h <;> rw [h]
  · exact ⟨by unfold Letter; decide +kernel, .inl ⟨73, by decide +kernel, by unfold Letter; decide⟩, by decide +kernel⟩
  · exact ⟨by unfold Letter; decide +kernel, .inl ⟨78, by decide +kernel, by unfold Letter; decide⟩, by decide +kernel⟩

/-- The demonstration file in chunks of one row: three rows, the second is shown for the first. -/
example : ∃ s t, rProgram unique Demo.cfg 10 (patchedFile []) (ascii "f") (.chunk 1) .null .null [.readAll] = .ok s ∧
    s.sink.df = some t ∧ TableHolds ((byType demoWhole.props.columns).map Column.name) demoWhole.props.columns
      (shownRows 1 3 (pushes (demoWhole.run ifs [.readAll]).2.trace)) t ∧
    (shownRows 1 3 (pushes (demoWhole.run ifs [.readAll]).2.trace)).map Prod.fst = [1, 1, 2] := by
  obtain ⟨s, t, h1, -, h2, h3⟩ := C69_exact_partial unique Demo.cfg 10 (patchedFile []) (ascii "f") 1 .null .null
    (Filter.includeExclude [] []) (IFStream.open Demo.file) demoWhole _ rfl rfl (Demo.get_ok (by decide +kernel))
    ⟨0, by decide +kernel, by unfold CalendarDay; decide⟩ ⟨0, by decide +kernel, by unfold CalendarDay; decide⟩
    demoWhole_names (by decide +kernel) (by decide +kernel) [.readAll] (by decide) rfl
    (by
      intro r hr
      have : ((demoWhole.run ifs [.readAll]).1.all fun r => r.isOk) = true := by decide +kernel
      have := List.all_eq_true.mp this r hr
      cases r with
      | ok v => exact ⟨v, rfl⟩
      | error e => cases this)
    (by decide +kernel)
    (by
      have : ∀ c ∈ typed demoWhole.props.columns, ∀ r ∈ pushes (demoWhole.run ifs [.readAll]).2.trace,
          (match c.value r.2.mem with | .ok (some (.str _)) => true | .ok (some (.num _)) => true | _ => false) = true := by
        decide +kernel
      intro c hc r hr
      have h := this c hc r hr
      split at h
      · rename_i s hs; exact ⟨_, _, hs, rfl⟩
      · rename_i s hs; exact ⟨_, _, hs, rfl⟩
      · cases h)
    (by decide +kernel)
  have hcnt : demoWhole.props.md.rowCount = 3 := by decide +kernel
  rw [hcnt] at h3
  exact ⟨s, t, h1, h2, h3, by decide +kernel⟩

/-- The names of the columns of `people` are names in R. -/
theorem people_syntactic {n : List Byte} (h : n ∈ people.columns.map ColumnDesc.name) : SyntacticName n := by
  have : ∀ n ∈ people.columns.map ColumnDesc.name, (∀ b ∈ n, (97 ≤ b.toNat ∧ b.toNat ≤ 122)) ∧ n ≠ [] ∧ n ∉ reservedWords := by
    decide +kernel
  obtain ⟨g1, g2, g3⟩ := this n h
  refine ⟨fun b hb => .inl (.inr (g1 b hb)), .inl ?_, g3⟩
  obtain ⟨b, l, hbl⟩ := List.exists_cons_of_ne_nil g2
  exact ⟨b, by rw [hbl]; rfl, .inr (g1 b (by rw [hbl]; exact List.mem_cons_self))⟩

/-- `people`, three rows, in chunks of one: Bob is shown for Ann. -/
example : ∃ s t, rProgram unique Demo.cfg 100 (onlyFile ((Layout.packed demoDated people).write people)) (ascii "p") (.chunk 1)
    .null .null [.readAll] = .ok s ∧ s.sink.df = some t ∧ TableOf people.columns (Wanted [] [])
      [[.number 0xfff0000000000000, .text (ascii "bob"), .integer (-1), .missing],
       [.number 0xfff0000000000000, .text (ascii "bob"), .integer (-1), .missing],
       [.number 0x4050000000000000, .text [], .integer 7, .date (-12000)]] t := by
  have hp : (Layout.packed demoDated people).For people ∧ (Layout.packed demoDated people).Plain people :=
    packed_for people_fits_dated
  obtain ⟨hp1, hp2⟩ := hp
  refine C69_whole_refuted unique Demo.cfg 100 _ (ascii "p") 1 .null .null [] [] rfl rfl (fun _ h => by cases h)
    (fun _ h => by cases h) _ people hp1 (.inl hp2) people_machine_dated (by decide +kernel) rfl (by decide)
    ⟨inCalendar_zero, inCalendar_zero⟩ _ people_values (by decide) ?_ (by decide) (by decide) (by decide +kernel)
    (fun c hc _ => people_syntactic (List.mem_map_of_mem hc))
  intro row hrow t ht
  simp only [List.mem_cons, List.not_mem_nil, or_false] at hrow
  rcases hrow with rfl | rfl | rfl <;> simp only [List.mem_cons, List.not_mem_nil, or_false, reduceCtorEq, false_or, Value.text.injEq] at ht <;>
    subst ht <;> decide +kernel

end Sas.Props
