import Verif.Proofs.PySinks
import Verif.Props.Reader

/-!
# Properties C30 (Python chunks), C32 (Python whole data), C49 (Python rows) and C54 (polling at the end)

The calls on a Python sink are a function of the calls the reader has made, its trace. The theorems are
about the traces of opened readers, for any source, column filter and history of calls. `Readable` (every
cell of the pushed rows can be read) is the subject of C24, C35 and C53.
-/

namespace Sas.Props
open Sas Spec

variable {σ : Type} {S : Source σ}

theorem chunk_start (cols : List Column) (size : Nat) (p : Properties) (hp : p.columns = cols) :
    PyInv cols size (PyChunk.setProperties { size := size } p) [] := by
  subst hp
  exact ⟨rfl, rfl, stored_nil _, rfl, by simp⟩

/-- The demonstration file with some bytes changed, read by a 64-bit release build. -/
def patched (l : List (Nat × Byte)) : Res (Reader IFStream) :=
  openReader Demo.cfg ifs 10 none (IFStream.open (l.foldl (fun f x => f.set x.1 x.2) Demo.file))

/-- The row count is zero. -/
def emptyReader : Reader IFStream := Demo.get (patched [(552, 0)])

/-- The first column is a number of ten bytes. -/
def unknownReader : Reader IFStream := Demo.get (patched [(1048, 10)])

/-- Both columns are called `ID`. -/
def twinReader : Reader IFStream := Demo.get (patched [(1018, 36), (1020, 2)])

theorem patched_reachable {l : List (Nat × Byte)} (h : (patched l).isOk = true) :
    Reachable ifs (Demo.get (patched l)) := .opened Demo.cfg 10 none _ _ (Demo.get_ok h)

theorem ok_of_match {α β : Type} {r : Res α} {f : α → β} {b d : β} (hd : d ≠ b)
    (h : (match r with | .ok a => f a | _ => d) = b) : ∃ a, r = .ok a ∧ f a = b := by
  cases r with
  | error e => exact absurd h hd
  | ok a => exact ⟨a, rfl, h⟩

/-- With consecutive indices every chunk starts where its first row is. -/
theorem chunks_starts {cols : List Column} : ∀ (cs : List (Nat × Nat × PyDict)) (parts : List (List (Nat × Row)))
    (rest : List (Nat × Row)) (start n : Nat), ChunksAre cols start cs parts → (∀ q ∈ parts, q ≠ []) →
    (parts.flatten ++ rest).map Prod.fst = List.range' start n →
    ∀ x ∈ cs.zip parts, x.2.head?.map Prod.fst = some x.1.1 := by
  intro cs
  induction cs with
  | nil => intro parts rest start n _ _ _ x hx; simp at hx
  | cons c cs ih =>
    intro parts rest start n h hne hi x hx
    obtain ⟨s, e, d⟩ := c
    cases parts with
    | nil => simp at hx
    | cons q parts =>
      obtain ⟨h1, h2, -, h4⟩ := h
      have hq : q ≠ [] := hne q (by simp)
      simp only [List.flatten_cons, List.append_assoc, List.map_append] at hi
      rw [List.zip_cons_cons] at hx
      have hlen : q.length ≤ n := by
        have := congrArg List.length hi
        simp only [List.length_append, List.length_map, List.length_range'] at this
        omega
      have hsplit : List.range' start n = List.range' start q.length ++ List.range' (start + q.length) (n - q.length) := by
        rw [List.range'_append_1, Nat.add_sub_cancel' hlen]
      rw [hsplit] at hi
      obtain ⟨i1, i2⟩ := List.append_inj hi (by simp)
      rcases List.mem_cons.1 hx with rfl | hx
      · cases q with
        | nil => exact absurd rfl hq
        | cons a q =>
          simp only [List.map_cons, List.length_cons, List.range'_succ, List.cons.injEq] at i1
          simp [i1.1, h1]
      · have he : e + 1 = start + q.length := by
          have h3 := congrArg List.getLast? i1
          rw [List.getLast?_map, h2, List.getLast?_range'] at h3
          have : 0 < q.length := List.length_pos_iff.2 hq
          rw [if_neg (by omega)] at h3
          simp only [Option.some.injEq] at h3
          omega
        rw [he] at h4
        refine ih parts rest (start + q.length) (n - q.length) h4 (fun q hq => hne q (by simp [hq])) ?_ x hx
        rw [← i2]
        simp

/-- C30, partial. The rows pushed by any history fall into consecutive groups, followed by the rows still
waiting: each chunk delivered to `push_rows` holds one group, column by column, and no chunk is empty.
Chunks have at most `chunk_size` rows, and exactly so many except for the last one when `end_of_data` comes
only at the end (which then leaves nothing waiting). The end index is that of the last row; the start index
is that of the first row if no row was skipped. Missing from the full statement, and false: the start index
after a skip (`C30_refuted`) and columns with equal names (`C30_names_refuted`). -/
theorem C30_chunks_partial {cfg : Cfg} {fuel : Nat} {filter : Option Filter} {s : σ} {R : Reader σ}
    (h : openReader cfg S fuel filter s = .ok R) (ops : List Op) (size : Nat)
    (hn : ((typed R.props.columns).map Column.name).Nodup)
    (hread : Readable R.props.columns (pushes (R.run S ops).2.trace)) :
    ∃ calls parts rest, pyChunkCalls size (R.run S ops).2.trace = .ok calls
      ∧ parts.flatten ++ rest = pushes (R.run S ops).2.trace
      ∧ ChunksAre R.props.columns 0 (chunks calls) parts
      ∧ (∀ q ∈ parts, q ≠ [] ∧ (0 < size → q.length ≤ size)) ∧ (0 < size → rest.length < size)
      ∧ ((R.run S ops).2.trace.getLast? = some .endOfData → rest = [])
      ∧ (.endOfData ∉ (R.run S ops).2.trace.dropLast → ∀ q ∈ parts.dropLast, q.length = size)
      ∧ ((pushes (R.run S ops).2.trace).map Prod.fst = List.range (pushes (R.run S ops).2.trace).length →
          ∀ x ∈ (chunks calls).zip parts, x.2.head?.map Prod.fst = some x.1.1) := by
  obtain ⟨es, h1, -, h2, -, -⟩ := C08_protocol h ops
  rw [h1] at hread ⊢
  simp only [pushes] at hread ⊢
  obtain ⟨st', out, parts, rest, r1, r2, r3, r4, r5, r6, r7, r8, r9⟩ :=
    chunk_run hn es _ [] (chunk_start _ size R.props rfl) (fun h => by simpa using h) hread h2
  simp only [List.nil_append] at r3
  refine ⟨[.setProperties R.props] ++ out, parts, rest, ?_, r3, by change ChunksAre _ 0 (chunks out) parts; exact r4, r5, r6, ?_, ?_, ?_⟩
  · unfold pyChunkCalls
    rw [runSink_cons (step := PyChunk.step) (st1 := PyChunk.setProperties { size := size } R.props)
      (o1 := [.setProperties R.props]) rfl r1]
    rfl
  · intro hl
    cases es with
    | nil => simp at hl
    | cons e es => exact r7 (by simpa using hl)
  · intro hd
    refine r8 ?_
    cases es with
    | nil => simp
    | cons e es => exact fun h => hd (by simp [h])
  · intro hi
    rw [← r3, List.range_eq_range'] at hi
    exact chunks_starts (cols := R.props.columns) _ parts rest 0 _ (by change ChunksAre _ 0 (chunks out) parts; exact r4) (fun q hq => (r5 q hq).1) hi

/-- The hypotheses are met: three rows in chunks of two. -/
example : ((typed Demo.reader.props.columns).map Column.name).Nodup ∧
    (match pyChunkCalls 2 (Demo.reader.run ifs [.readAll]).2.trace with
      | .ok calls => (chunks calls).map (fun x => (x.1, x.2.1)) | _ => []) = [(0, 1), (2, 2)] := by
  decide +kernel

/-- C30 is false after a skip: skipping the first of three rows and reading the others in chunks of two
delivers a chunk said to start at index 0 whose first row has index 1. -/
theorem C30_refuted : ∃ R : Reader IFStream, Reachable ifs R ∧
    ∃ calls, pyChunkCalls 2 (R.run ifs [.skip 1, .readAll]).2.trace = .ok calls ∧
      (chunks calls).map (fun x => (x.1, x.2.1)) = [(0, 2)] ∧
      (pushes (R.run ifs [.skip 1, .readAll]).2.trace).map Prod.fst = [1, 2] := by
  refine ⟨Demo.reader, Demo.reachable, ?_⟩
  have h : (match pyChunkCalls 2 (Demo.reader.run ifs [.skip 1, .readAll]).2.trace with
      | .ok calls => (chunks calls).map (fun x => (x.1, x.2.1)) | _ => []) = [(0, 2)] := by decide +kernel
  have h2 : (pushes (Demo.reader.run ifs [.skip 1, .readAll]).2.trace).map Prod.fst = [1, 2] := by
    decide +kernel
  generalize pyChunkCalls 2 (Demo.reader.run ifs [.skip 1, .readAll]).2.trace = x at *
  cases x with
  | error e => simp at h
  | ok calls => exact ⟨calls, rfl, h, h2⟩

/-- C30 is false of columns with equal names: the dictionary has one entry per name. Here both columns of a
file are called `ID` and the numbers are lost. -/
theorem C30_names_refuted : ∃ R : Reader IFStream, Reachable ifs R ∧ (typed R.props.columns).length = 2 ∧
    ∃ calls, pyChunkCalls 2 (R.run ifs [.readAll]).2.trace = .ok calls ∧
      (chunks calls).map (fun x => x.2.2.map fun y => (y.1, y.2))
        = [[(ascii "ID", [.str (ascii "ann"), .str (ascii "bob")])], [(ascii "ID", [.str (ascii "cy")])]] := by
  refine ⟨twinReader, patched_reachable (by decide +kernel), by decide +kernel, ?_⟩
  exact ok_of_match (d := []) (by simp) (by decide +kernel)

/-! ## C32 -/

/-- C32, partial (Python). A data set drained to its end, with at least one row, is delivered by exactly one
`set_data` call that holds all rows. Missing, and false (`C32_empty_refuted`): a data set without rows. -/
theorem C32_python_partial {cfg : Cfg} {fuel : Nat} {filter : Option Filter} {s : σ} {R : Reader σ}
    (h : openReader cfg S fuel filter s = .ok R) (ops : List Op)
    (hn : ((typed R.props.columns).map Column.name).Nodup)
    (hread : Readable R.props.columns (pushes (R.run S ops).2.trace))
    (hend : (R.run S ops).2.trace.getLast? = some .endOfData)
    (honce : .endOfData ∉ (R.run S ops).2.trace.dropLast) (hrows : pushes (R.run S ops).2.trace ≠ []) :
    ∃ calls d, pyDataCalls (R.run S ops).2.trace = .ok calls ∧ datas calls = [d]
      ∧ Holds R.props.columns (pushes (R.run S ops).2.trace) d := by
  obtain ⟨es, h1, -, h2, -, -⟩ := C08_protocol h ops
  rw [h1] at hread hend honce hrows ⊢
  simp only [pushes] at hread hrows ⊢
  have hstart := chunk_start R.props.columns R.props.md.rowCount R.props rfl
  obtain ⟨st', out, parts, rest, r1, r2, r3, r4, r5, r6, r7⟩ := data_run hn es _ [] hstart hread h2
  have hrest : rest = [] := by
    cases es with
    | nil => simp at hend
    | cons e es => exact r5 (by simpa using hend)
  have hlen : parts.length ≤ 1 := by
    refine r7 ?_
    cases es with
    | nil => simp
    | cons e es => exact fun h => honce (by simp [h])
  subst hrest
  simp only [List.append_nil, List.nil_append] at r3
  match parts, hlen with
  | [], _ => exact absurd r3.symm hrows
  | [q], _ =>
    simp only [List.flatten_cons, List.flatten_nil, List.append_nil] at r3
    subst r3
    cases hd : datas out with
    | nil => rw [hd] at r4; cases r4
    | cons d ds =>
      rw [hd] at r4
      cases r4 with
      | cons g1 g2 =>
        cases g2
        refine ⟨[.setProperties R.props] ++ out, d, ?_, by simpa [datas] using hd, g1.1⟩
        unfold pyDataCalls
        rw [runSink_cons (step := PyChunk.dataStep)
          (st1 := PyChunk.setProperties { size := R.props.md.rowCount } R.props)
          (o1 := [.setProperties R.props]) rfl r1]
        rfl

example : (Demo.reader.run ifs [.readAll]).2.trace.getLast? = some .endOfData
    ∧ .endOfData ∉ (Demo.reader.run ifs [.readAll]).2.trace.dropLast
    ∧ pushes (Demo.reader.run ifs [.readAll]).2.trace ≠ [] := by decide +kernel

/-- C32 is false of a data set without rows: the whole data set is read and `set_data` is never called. -/
theorem C32_empty_refuted : ∃ R : Reader IFStream, Reachable ifs R ∧
    ends (R.run ifs [.readAll]).2.trace = 1 ∧
    ∃ calls, pyDataCalls (R.run ifs [.readAll]).2.trace = .ok calls ∧ (datas calls).length = 0 := by
  refine ⟨emptyReader, patched_reachable (by decide +kernel), by decide +kernel, ?_⟩
  exact ok_of_match (d := 1) (by simp) (by decide +kernel)

/-! ## C49 -/

theorem row_run (cols : List Column) : ∀ (es : List Event), Readable cols (pushes es) →
    (∀ p, .setProperties p ∉ es) → ∀ attr, ∃ st out, runSink PyRowSink.step { attr := attr, columns := cols } es
      = .ok (st, out) ∧ RowsAre cols (rowCalls out) (pushes es) := by
  intro es
  induction es with
  | nil => intro _ _ attr; exact ⟨_, _, rfl, .nil⟩
  | cons e es ih =>
    intro hread hp attr
    cases e with
    | setProperties p => exact absurd (by simp) (hp p)
    | endOfData =>
      obtain ⟨st, out, h1, h2⟩ := ih hread (fun p h => hp p (by simp [h])) false
      refine ⟨st, delCppAttr attr ++ out, runSink_cons (st1 := { attr := false, columns := cols }) rfl h1, ?_⟩
      cases attr <;> exact h2
    | pushRow i r =>
      obtain ⟨st, out, h1, h2⟩ := ih (fun c hc q hq => hread c hc q (by simp [pushes, hq]))
        (fun p h => hp p (by simp [h])) attr
      obtain ⟨l, hl⟩ := rowList_ok cols r.mem fun c hc => hread c hc (i, r) (by simp [pushes])
      refine ⟨st, [.pushRow i l] ++ out,
        runSink_cons (st1 := { attr := attr, columns := cols }) ?_ h1, ?_⟩
      · simp only [PyRowSink.step, hl]
        rfl
      · exact .cons ⟨rfl, rowList_typed cols r.mem l hl⟩ h2

/-- C49, partial. Whatever the history, `push_row` is called once for every row, in order, with the index of
the row and the list of the values of the typed columns, in column order: one entry per column if all
columns have a type. Missing, and false (`C49_refuted`): columns of unknown type. -/
theorem C49_aligned_partial {cfg : Cfg} {fuel : Nat} {filter : Option Filter} {s : σ} {R : Reader σ}
    (h : openReader cfg S fuel filter s = .ok R) (ops : List Op)
    (hread : Readable R.props.columns (pushes (R.run S ops).2.trace)) :
    ∃ calls, pyRowCalls (R.run S ops).2.trace = .ok calls
      ∧ RowsAre R.props.columns (rowCalls calls) (pushes (R.run S ops).2.trace)
      ∧ ((∀ c ∈ R.props.columns, c.type ≠ .unknown) → typed R.props.columns = R.props.columns) := by
  obtain ⟨es, h1, -, h2, -, -⟩ := C08_protocol h ops
  rw [h1] at hread ⊢
  obtain ⟨st, out, r1, r2⟩ := row_run R.props.columns es hread h2 true
  refine ⟨[.setProperties R.props] ++ out, ?_, r2, fun ht => ?_⟩
  · unfold pyRowCalls
    rw [runSink_cons (step := PyRowSink.step) (st1 := { attr := true, columns := R.props.columns })
      (o1 := [.setProperties R.props]) rfl r1]
    rfl
  · exact List.filter_eq_self.2 (by simpa using ht)

/-- C49 is false with a column of unknown type: of a file whose columns are `ID` (a number of ten bytes)
and `NAME`, every row list has one entry, the name, which stands in the place of `ID`. -/
theorem C49_refuted : ∃ R : Reader IFStream, Reachable ifs R ∧
    R.props.columns.map Column.name = [ascii "ID", ascii "NAME"] ∧
    ∃ calls, pyRowCalls (R.run ifs [.readAll]).2.trace = .ok calls ∧
      rowCalls calls = [(0, [.str (ascii "ann")]), (1, [.str (ascii "bob")]), (2, [.str (ascii "cy")])] := by
  refine ⟨unknownReader, patched_reachable (by decide +kernel), by decide +kernel, ?_⟩
  exact ok_of_match (d := []) (by simp) (by decide +kernel)

/-- The hypothesis of `C49_aligned_partial` is met by the demonstration file. -/
example : (pushes (Demo.reader.run ifs [.readAll]).2.trace).all (fun r =>
    Demo.reader.props.columns.all fun c => match c.value r.2.mem with | .ok (some _) => true | _ => false)
      = true := by decide +kernel

/-! ## C54 -/

/-- C54, partial. The first `end_of_data` is harmless for every kind of Python sink; each further one
raises a Python error. Missing, and false (`C54_refuted`): polling a drained reader. -/
theorem C54_first_end_partial {cfg : Cfg} {fuel : Nat} {filter : Option Filter} {s : σ} {R : Reader σ}
    (h : openReader cfg S fuel filter s = .ok R) (ops : List Op) (size : Nat) (calls : List PyCall)
    (hc : pyRowCalls (R.run S ops).2.trace = .ok calls ∨ pyChunkCalls size (R.run S ops).2.trace = .ok calls
      ∨ pyDataCalls (R.run S ops).2.trace = .ok calls) :
    attributeErrors calls = ends (R.run S ops).2.trace - 1 := by
  obtain ⟨es, h1, -, h2, -, -⟩ := C08_protocol h ops
  rw [h1] at hc ⊢
  have key : ∀ {τ : Type} (attr : τ → Bool) (step : τ → Event → Res (τ × List PyCall)) (st st' : τ)
      (out : List PyCall), AttrStep attr step →
      runSink step st (.setProperties R.props :: es) = .ok (st', out) →
      attributeErrors out = ends es - 1 := by
    intro τ attr step st st' out ha hr
    obtain ⟨st1, o1, o2, g1, g2, rfl⟩ := runSink_inv hr
    obtain ⟨k1, k2⟩ := ha.props _ _ _ _ g1
    rw [attributeErrors_append, k2, ha.run es st1 st' o2 h2 g2, k1]
    simp
  have unpack : ∀ {τ : Type} {x : Res (τ × List PyCall)},
      (do let (_, out) ← x; return out) = .ok calls → ∃ st, x = .ok (st, calls) := by
    intro τ x hx
    cases x with
    | error e => simp [bind, Except.bind] at hx
    | ok y =>
      obtain ⟨st, o⟩ := y
      simp only [bind, Except.bind, pure, Except.pure, Except.ok.injEq] at hx
      exact ⟨st, by rw [hx]⟩
  rw [ends]
  rcases hc with hc | hc | hc
  · obtain ⟨st, hc⟩ := unpack hc
    exact key _ _ _ _ _ row_attr hc
  · obtain ⟨st, hc⟩ := unpack hc
    exact key _ _ _ _ _ chunk_attr hc
  · obtain ⟨st, hc⟩ := unpack hc
    exact key _ _ _ _ _ data_attr hc

/-- C54 is false: draining a reader and polling it once more raises a Python error. -/
theorem C54_refuted : ∃ R : Reader IFStream, Reachable ifs R ∧
    ∃ calls, pyRowCalls (R.run ifs [.readAll, .readRow]).2.trace = .ok calls ∧ attributeErrors calls = 1 := by
  refine ⟨Demo.reader, Demo.reachable, ?_⟩
  have h : (match pyRowCalls (Demo.reader.run ifs [.readAll, .readRow]).2.trace with
      | .ok calls => attributeErrors calls | _ => 0) = 1 := by decide +kernel
  generalize pyRowCalls (Demo.reader.run ifs [.readAll, .readRow]).2.trace = x at *
  cases x with
  | error e => simp at h
  | ok calls => exact ⟨calls, rfl, h⟩

end Sas.Props
