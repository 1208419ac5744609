import Verif.Proofs.RSinks
import Verif.Props.PySinks

/-!
# Properties C31 (R chunks), C32 (R whole data), C55 (what R keeps), C56 (R rows)
-/

namespace Sas.Props
open Sas Spec

variable {σ : Type} {S : Source σ}

/-- `set_properties`, then rows, then ends. -/
def EndLast (R Q : Reader σ) : Prop :=
  Q.trace = .setProperties R.props :: ((pushes Q.trace).map fun r => .pushRow r.1 r.2) ++ List.replicate (ends Q.trace) .endOfData

theorem map_pushEvents : ∀ (rows : List Row) (i : Nat),
    (pushes (pushEvents i rows)).map (fun r => Event.pushRow r.1 r.2) = pushEvents i rows := by
  intro rows
  induction rows with
  | nil => intro i; rfl
  | cons a rows ih => intro i; simp [pushEvents, pushes, ih]

/-- One call, which may also be `end_of_data`. -/
theorem endLast_step {R Q : Reader σ} (op : Op) (hi : Q.Inv) (hs : EndLast R Q) (he : ends Q.trace ≠ 0 → Q.Ended) :
    EndLast R (Q.step S op).2 ∧ (op ≠ .endOfData → ends (Q.step S op).2.trace ≠ 0 → (Q.step S op).2.Ended) := by
  obtain ⟨rows, t1, -⟩ := Reader.step_trace (S := S) Q hi op
  have hsig : op ≠ .endOfData → signalsEnd op (Q.step S op).1 = true → (Q.step S op).2.Ended := by
    intro hop h
    refine Reader.step_reportsEnd (S := S) Q hi op ?_
    cases op <;> simp_all [signalsEnd]
  have hp : pushes (Q.step S op).2.trace = pushes Q.trace ++ pushes (pushEvents Q.rd.row rows) := by
    rw [t1, pushes_append, pushes_append]
    cases signalsEnd op (Q.step S op).1 <;> simp [pushes, endEvents]
  have hn : ends (Q.step S op).2.trace = ends Q.trace + (signalsEnd op (Q.step S op).1).toNat := by
    rw [t1, ends_append, ends_append, ends_pushEvents]
    cases signalsEnd op (Q.step S op).1 <;> simp [ends, endEvents]
  have hrep : ∀ b : Bool, endEvents b = List.replicate b.toNat .endOfData := by
    intro b; cases b <;> rfl
  constructor
  · show (Q.step S op).2.trace = _
    rw [hp, hn, t1, hrep]
    by_cases h0 : ends Q.trace = 0
    · have hq : Q.trace = .setProperties R.props :: ((pushes Q.trace).map fun r => .pushRow r.1 r.2) := by
        have : Q.trace = _ := hs
        rw [h0] at this
        simpa using this
      rw [h0, List.map_append, map_pushEvents, Nat.zero_add]
      nth_rewrite 1 [hq]
      simp
    · have hend := he h0
      have hsame := (Reader.step_ended (S := S) Q hend op).2.2.2
      rw [hp] at hsame
      have hnil : pushes (pushEvents Q.rd.row rows) = [] := by simpa using hsame
      have hrows : pushEvents Q.rd.row rows = [] := by rw [← map_pushEvents, hnil]; rfl
      rw [hnil, hrows, List.append_nil, List.append_nil, List.replicate_add, ← List.append_assoc]
      congr 1
  · intro hop h
    by_cases h0 : ends Q.trace = 0
    · apply hsig hop
      rw [hn, h0] at h
      cases hb : signalsEnd op (Q.step S op).1 with
      | true => rfl
      | false => rw [hb] at h; simp at h
    · exact (Reader.step_ended (S := S) Q (he h0) op).2.1

theorem endLast_run {R : Reader σ} : ∀ (ops : List Op), .endOfData ∉ ops → ∀ Q : Reader σ, Q.Inv → EndLast R Q →
    (ends Q.trace ≠ 0 → Q.Ended) →
    EndLast R (Q.run S ops).2 ∧ (ends (Q.run S ops).2.trace ≠ 0 → (Q.run S ops).2.Ended) := by
  intro ops
  induction ops with
  | nil => intro _ Q _ hs he; exact ⟨hs, he⟩
  | cons op ops ih =>
    intro hops Q hi hs he
    have hop : op ≠ .endOfData := fun h => hops (by simp [h])
    obtain ⟨hi', -, -⟩ := Reader.step_inv (S := S) Q hi op
    obtain ⟨hs', he'⟩ := endLast_step (S := S) op hi hs he
    have := ih (fun h => hops (by simp [h])) (Q.step S op).2 hi' hs' (he' hop)
    have he' := he' hop
    rw [Reader.run_cons]
    generalize Q.step S op = x at *
    obtain ⟨res, Q1⟩ := x
    cases res with
    | ok v => exact this
    | error e => cases e with
      | exn e => exact this
      | terminate => exact ⟨hs', he'⟩
      | ub => exact ⟨hs', he'⟩
      | fuel => exact ⟨hs', he'⟩

theorem endLast_open {cfg : Cfg} {fuel : Nat} {filter : Option Filter} {s : σ} {R : Reader σ}
    (h : openReader cfg S fuel filter s = .ok R) (ops : List Op) (hops : .endOfData ∉ ops) :
    EndLast R (R.run S ops).2 ∧ (ends (R.run S ops).2.trace ≠ 0 → (R.run S ops).2.Ended) := by
  obtain ⟨h1, -, h3⟩ := openReader_spec h
  refine endLast_run ops hops R h1 ?_ ?_
  · show R.trace = _
    rw [h3]
    rfl
  · rw [h3]
    intro h
    exact absurd rfl h

/-- **C08**, the order of the calls at the end: if the caller does not call `end_of_data` themself, the sink
sees `set_properties`, then rows, then (as often as the end is reported) `end_of_data`. -/
theorem C08_end_last {cfg : Cfg} {fuel : Nat} {filter : Option Filter} {s : σ} {R : Reader σ}
    (h : openReader cfg S fuel filter s = .ok R) (ops : List Op) (hops : .endOfData ∉ ops) :
    (R.run S ops).2.trace = .setProperties R.props ::
      ((pushes (R.run S ops).2.trace).map fun r => .pushRow r.1 r.2) ++
      List.replicate (ends (R.run S ops).2.trace) .endOfData := (endLast_open h ops hops).1

example : ends (Demo.reader.run ifs [.readRows 2, .readAll, .readRow]).2.trace = 2 ∧
    (pushes (Demo.reader.run ifs [.readRows 2, .readAll, .readRow]).2.trace).length = 3 := by decide +kernel

/-! ## C31 -/

theorem rstart (size : Nat) (p : Properties) :
    RInv p.columns size p.md.rowCount (RCols.setProperties { size := size } p) [] := by
  unfold RCols.setProperties
  refine RInv.prepare rfl rfl rfl rfl ?_ ?_
  · intro h0
    simp only
    rw [if_pos (by omega)]
    exact Nat.min_le_left _ _
  · simp only
    split
    · by_cases h : size ≤ p.md.rowCount
      · exact .inl ⟨by omega, Nat.min_eq_left h⟩
      · right
        rw [Nat.min_eq_right (by omega)]
        omega
    · right; omega

theorem rchunks_of {cols : List Column} {out : List RCall} {parts : List (List (Nat × Row))}
    (h : RChunks cols out parts) :
    List.Forall₂ (fun c q => RHolds cols q c.1 c.2) (rchunks out) parts := by
  induction h with
  | nil => exact .nil
  | cons h1 _ ih =>
    obtain ⟨idx, rows, rfl, h2⟩ := h1
    exact .cons h2 ih

/-- C31, partial. For a history without an explicit `end_of_data`, the R chunk sink never writes outside its
vectors (the outcome is not undefined), and the rows fall into consecutive groups, followed by those still
waiting: each chunk delivered to `push_rows` holds one group, with its indices, and no chunk is empty.
Chunks have `chunk_size` rows; only the last can be shorter. After the end nothing is waiting. Missing, and
false: an `end_of_data` between rows (`C31_refuted`); row numbers that do not fit R's integers
(`C31_index_refuted`). -/
theorem C31_chunks_partial {cfg : Cfg} {fuel : Nat} {filter : Option Filter} {s : σ} {R : Reader σ}
    (h : openReader cfg S fuel filter s = .ok R) (ops : List Op) (hops : .endOfData ∉ ops) (size : Nat)
    (h31 : R.props.md.rowCount ≤ 2 ^ 31) (hread : RReadable R.props.columns (pushes (R.run S ops).2.trace)) :
    ∃ st calls parts rest, rChunkCalls size (R.run S ops).2.trace = .ok (st, calls)
      ∧ parts.flatten ++ rest = pushes (R.run S ops).2.trace
      ∧ List.Forall₂ (fun c q => RHolds R.props.columns q c.1 c.2) (rchunks calls) parts
      ∧ (∀ q ∈ parts, q ≠ [] ∧ (0 < size → q.length ≤ size)) ∧ (∀ q ∈ parts.dropLast, q.length = size)
      ∧ (0 < size → rest.length < size) ∧ (0 < ends (R.run S ops).2.trace → rest = []) := by
  have ht := C08_end_last h ops hops
  obtain ⟨es, h1, -, -, h4, h5⟩ := C08_protocol h ops
  have hpush : pushes (R.run S ops).2.trace = pushes es := by rw [h1]; rfl
  rw [← hpush] at h4 h5
  generalize pushes (R.run S ops).2.trace = rows at *
  generalize ends (R.run S ops).2.trace = n at *
  rw [ht]
  have hinv := rstart size R.props
  obtain ⟨st1, out1, parts1, rest1, a1, a2, a3, a4, a5, a6, a7⟩ := rchunk_rows h31 rows _ [] hinv (by simp)
    (fun h => by simpa using h) hread (by simpa using h4)
    (fun r hr => ⟨by simp [RCols.setProperties, RCols.prepare], h5 r.1 (List.mem_map.2 ⟨r, hr, rfl⟩)⟩)
  obtain ⟨st2, out2, parts2, rest2, b1, b2, b3, b4, b5, b6⟩ := rchunk_ends a2 a3 n
  have hrun := runR_append _ _ _ a1 b1
  have hall := runR_cons (step := RCols.step) (st := { size := size }) (ev := .setProperties R.props)
    (o1 := [.setProperties R.props]) rfl hrun
  have hlast : parts2 = [] ∨ parts2 = [rest1] := by
    match parts2, b5 with
    | [], _ => exact .inl rfl
    | [q], _ => exact .inr (by rw [(b4 q (by simp)).1])
  refine ⟨st2, _, parts1 ++ parts2, rest2, hall, ?_, ?_, ?_, ?_, ?_, b6⟩
  · rw [List.flatten_append, List.append_assoc, b2, a4]; rfl
  · show List.Forall₂ _ (rchunks (out1 ++ out2)) _
    exact rchunks_of (List.rel_append a5 b3)
  · intro q hq
    rcases List.mem_append.1 hq with hq | hq
    · exact ⟨(a6 q hq).1, fun _ => Nat.le_of_eq (a6 q hq).2⟩
    · obtain ⟨rfl, hne⟩ := b4 q hq
      exact ⟨hne, fun h0 => Nat.le_of_lt (a7 h0)⟩
  · intro q hq
    rcases hlast with rfl | rfl
    · rw [List.append_nil] at hq
      exact (a6 q (List.dropLast_subset _ hq)).2
    · rw [List.dropLast_concat] at hq
      exact (a6 q hq).2
  · intro h0
    rcases hlast with rfl | rfl
    · simp only [List.flatten_nil, List.nil_append] at b2
      rw [b2]
      exact a7 h0
    · have : rest2 = [] := by simpa using b2
      rw [this]
      exact h0

/-- The hypotheses are met: three rows in chunks of two. -/
example : (match rChunkCalls 2 (Demo.reader.run ifs [.readAll]).2.trace with
      | .ok (_, calls) => (rchunks calls).map (fun x => x.1) | _ => []) = [[.int 0, .int 1], [.int 2]] ∧
    Demo.reader.props.md.rowCount ≤ 2 ^ 31 ∧
    (pushes (Demo.reader.run ifs [.readAll]).2.trace).all (fun r => Demo.reader.props.columns.all fun c =>
      match c.value r.2.mem with
      | .ok (some v) => (match v.toR with | .ok _ => true | _ => false)
      | _ => false) = true := by
  decide +kernel

/-- C31 is false when `end_of_data` is called between rows: here after the first of three rows, in chunks
of two. The index vector is cut to one element and the second row of the next chunk is written behind it. -/
theorem C31_refuted : ∃ R : Reader IFStream, Reachable ifs R ∧
    rChunkCalls 2 (R.run ifs [.readRow, .endOfData, .readAll]).2.trace = .error .ub := by
  refine ⟨Demo.reader, Demo.reachable, ?_⟩
  have h : (match rChunkCalls 2 (Demo.reader.run ifs [.readRow, .endOfData, .readAll]).2.trace with
      | .error .ub => true | _ => false) = true := by decide +kernel
  generalize rChunkCalls 2 (Demo.reader.run ifs [.readRow, .endOfData, .readAll]).2.trace = x at *
  match x, h with
  | .error .ub, _ => rfl

/-- C31 is false of large indices: what is stored for row 2^31 is not its index. -/
theorem C31_index_refuted : asInt (2 ^ 31) = -2 ^ 31 := by decide

/-! ## C32 -/

/-- C32, partial (R). A data set drained to its end, with at least one row, is delivered by exactly one
`set_data` call that holds all rows and their indices. Missing, and false: a data set without rows
(`C32_R_empty_refuted`); reporting the end again (`C32_R_twice_refuted`), `end_of_data` between rows
(`C32_R_refuted`). -/
theorem C32_R_partial {cfg : Cfg} {fuel : Nat} {filter : Option Filter} {s : σ} {R : Reader σ}
    (h : openReader cfg S fuel filter s = .ok R) (ops : List Op) (hops : .endOfData ∉ ops)
    (h31 : R.props.md.rowCount ≤ 2 ^ 31) (hread : RReadable R.props.columns (pushes (R.run S ops).2.trace))
    (honce : ends (R.run S ops).2.trace = 1) (hrows : pushes (R.run S ops).2.trace ≠ []) :
    ∃ st calls idx rows, rDataCalls (R.run S ops).2.trace = .ok (st, calls) ∧ rdatas calls = [(idx, rows)]
      ∧ RHolds R.props.columns (pushes (R.run S ops).2.trace) idx rows := by
  have ht := C08_end_last h ops hops
  obtain ⟨es, h1, -, -, h4, h5⟩ := C08_protocol h ops
  have hpush : pushes (R.run S ops).2.trace = pushes es := by rw [h1]; rfl
  rw [← hpush] at h4 h5
  generalize pushes (R.run S ops).2.trace = rows at *
  rw [honce] at ht
  rw [ht]
  obtain ⟨st1, a1, a2⟩ := rdata_rows h31 rows _ [] (rstart 0 R.props) hread (by simpa using h4)
    (fun r hr => ⟨by simp [RCols.setProperties, RCols.prepare], h5 r.1 (List.mem_map.2 ⟨r, hr, rfl⟩)⟩)
  rw [List.nil_append] at a2
  have hstep : st1.dataStep .endOfData = .ok (st1.setValues,
      [.setData (st1.setValues.heap.get st1.setValues.index) st1.setValues.rows]) := by
    simp only [RCols.dataStep]
    rw [if_neg]
    rw [a2.idata]
    simpa using hrows
  have b1 : runR RCols.dataStep st1 (List.replicate 1 .endOfData) = .ok (st1.setValues,
      [.setData (st1.setValues.heap.get st1.setValues.index) st1.setValues.rows] ++ []) :=
    runR_cons hstep rfl
  have hrun := runR_append _ _ _ a1 b1
  have hall := runR_cons (step := RCols.dataStep) (st := { size := 0 }) (ev := .setProperties R.props)
    (o1 := [.setProperties R.props]) rfl hrun
  exact ⟨_, _, _, _, hall, rfl, a2.holds⟩

example : ends (Demo.reader.run ifs [.readAll]).2.trace = 1 ∧
    pushes (Demo.reader.run ifs [.readAll]).2.trace ≠ [] := by decide +kernel

/-- C32 is false of a data set without rows in R, too. -/
theorem C32_R_empty_refuted : ∃ R : Reader IFStream, Reachable ifs R ∧
    ends (R.run ifs [.readAll]).2.trace = 1 ∧
    ∃ x, rDataCalls (R.run ifs [.readAll]).2.trace = .ok x ∧ (rdatas x.2).length = 0 := by
  refine ⟨emptyReader, patched_reachable (by decide +kernel), by decide +kernel, ?_⟩
  exact ok_of_match (d := 1) (by simp) (by decide +kernel)

/-- C32 is false in R when a drained reader is polled again: `set_data` is called a second time. -/
theorem C32_R_twice_refuted : ∃ R : Reader IFStream, Reachable ifs R ∧
    ∃ x, rDataCalls (R.run ifs [.readAll, .readRow]).2.trace = .ok x ∧ (rdatas x.2).length = 2 := by
  refine ⟨Demo.reader, Demo.reachable, ?_⟩
  exact ok_of_match (d := 1) (by simp) (by decide +kernel)

/-- C32 is false in R when `end_of_data` is called between rows: the next row is written outside. -/
theorem C32_R_refuted : ∃ R : Reader IFStream, Reachable ifs R ∧
    rDataCalls (R.run ifs [.readRow, .endOfData, .readAll]).2.trace = .error .ub := by
  refine ⟨Demo.reader, Demo.reachable, ?_⟩
  have h : (match rDataCalls (Demo.reader.run ifs [.readRow, .endOfData, .readAll]).2.trace with
      | .error .ub => true | _ => false) = true := by decide +kernel
  generalize rDataCalls (Demo.reader.run ifs [.readRow, .endOfData, .readAll]).2.trace = x at *
  match x, h with
  | .error .ub, _ => rfl

/-! ## C55 -/

/-- C55, partial. What `push_rows` has received stays as it was until another row is pushed: the list, which
is the same R object in every call, and the index vector. Missing, and false: further rows (`C55_refuted`,
`C55_vectors_refuted`, `C55_row_refuted`). -/
theorem C55_until_push_partial (st st' : RCols) (idx : List RVal) (rows : List (List Byte × List RVal))
    (h : st.flush = (st', [.pushRows idx rows])) (n : Nat) :
    ∃ st'', runR RCols.step st' (List.replicate n .endOfData) = .ok (st'', [])
      ∧ st''.heap.get st''.index = idx ∧ st''.rows = rows := by
  unfold RCols.flush at h
  split at h
  · simp at h
  · simp only [Prod.mk.injEq, List.cons.injEq, RCall.pushRows.injEq, and_true] at h
    obtain ⟨rfl, rfl, rfl⟩ := h
    exact ⟨_, rchunk_ends_nil rfl n, rfl, rfl⟩

/-- The hypothesis is met: the flush at the end of the demonstration file. -/
example : (match rChunkCalls 2 (Demo.reader.run ifs [.readRow]).2.trace with
    | .ok (st, _) => (rchunks st.flush.2).length | _ => 0) = 1 := by decide +kernel

/-- C55 is false of the list: with chunks of one row, the list delivered for the first row has become that of
the last row when the file is read. -/
theorem C55_refuted : ∃ R : Reader IFStream, Reachable ifs R ∧
    ∃ x, rChunkCalls 1 (R.run ifs [.readAll]).2.trace = .ok x ∧
      ((rchunks x.2).map fun c => c.2.map fun e => (e.1, e.2)).head? =
        some [(ascii "ID", [.num (.bits (1023 * 2 ^ 52))]), (ascii "NAME", [.str (ascii "ann")])] ∧
      x.1.rows = [(ascii "ID", [.num (.bits (1025 * 2 ^ 52))]), (ascii "NAME", [.str (ascii "cy")])] := by
  refine ⟨Demo.reader, Demo.reachable, ?_⟩
  have h : (match rChunkCalls 1 (Demo.reader.run ifs [.readAll]).2.trace with
      | .ok x => (((rchunks x.2).map fun c => c.2.map fun e => (e.1, e.2)).head?, x.1.rows)
      | _ => (none, [])) = (some [(ascii "ID", [.num (.bits (1023 * 2 ^ 52))]), (ascii "NAME", [.str (ascii "ann")])],
        [(ascii "ID", [.num (.bits (1025 * 2 ^ 52))]), (ascii "NAME", [.str (ascii "cy")])]) := by decide +kernel
  generalize rChunkCalls 1 (Demo.reader.run ifs [.readAll]).2.trace = x at *
  cases x with
  | error e => simp at h
  | ok x =>
    simp only [Prod.mk.injEq] at h
    exact ⟨x, rfl, h.1, h.2⟩

/-- C55 is false of the vectors: a sink that keeps the vectors of the first chunk (`x.list`) sees them
overwritten by the next row. -/
theorem C55_vectors_refuted : ∃ (p : Properties) (a b : Row),
    ∃ x y : RCols × List RCall, rChunkCalls 1 [.setProperties p, .pushRow 0 a] = .ok x ∧
      rChunkCalls 1 [.setProperties p, .pushRow 0 a, .pushRow 1 b] = .ok y ∧
      x.1.list.map x.1.heap.get = [[.num (.bits (1023 * 2 ^ 52))], [.str (ascii "ann")]] ∧
      x.1.list.map y.1.heap.get = [[.num (.bits (1024 * 2 ^ 52))], [.str (ascii "bob")]] := by
  refine ⟨Demo.reader.props, ⟨Demo.row 0 "ann   ", 14⟩, ⟨Demo.row 1 "bob   ", 14⟩, ?_⟩
  have h : (match rChunkCalls 1 [.setProperties Demo.reader.props, .pushRow 0 ⟨Demo.row 0 "ann   ", 14⟩],
      rChunkCalls 1 [.setProperties Demo.reader.props, .pushRow 0 ⟨Demo.row 0 "ann   ", 14⟩,
        .pushRow 1 ⟨Demo.row 1 "bob   ", 14⟩] with
      | .ok x, .ok y => (x.1.list.map x.1.heap.get, x.1.list.map y.1.heap.get)
      | _, _ => ([], [])) = ([[.num (.bits (1023 * 2 ^ 52))], [.str (ascii "ann")]],
        [[.num (.bits (1024 * 2 ^ 52))], [.str (ascii "bob")]]) := by decide +kernel
  generalize rChunkCalls 1 [.setProperties Demo.reader.props, .pushRow 0 ⟨Demo.row 0 "ann   ", 14⟩] = x at *
  generalize rChunkCalls 1 [.setProperties Demo.reader.props, .pushRow 0 ⟨Demo.row 0 "ann   ", 14⟩,
        .pushRow 1 ⟨Demo.row 1 "bob   ", 14⟩] = y at *
  cases x with
  | error e => simp at h
  | ok x =>
    cases y with
    | error e => simp at h
    | ok y =>
      simp only [Prod.mk.injEq] at h
      exact ⟨x, y, rfl, rfl, h.1, h.2⟩

/-- C55 is false of rows: the list given to `push_row` is the same object for all rows. -/
theorem C55_row_refuted : ∃ R : Reader IFStream, Reachable ifs R ∧
    ∃ x, rRowCalls (R.run ifs [.readAll]).2.trace = .ok x ∧
      (rrows x.2).head? = some (0, [some (.num (.bits (1023 * 2 ^ 52))), some (.str (ascii "ann"))]) ∧
      x.1.row = [some (.num (.bits (1025 * 2 ^ 52))), some (.str (ascii "cy"))] := by
  refine ⟨Demo.reader, Demo.reachable, ?_⟩
  have h : (match rRowCalls (Demo.reader.run ifs [.readAll]).2.trace with
      | .ok x => ((rrows x.2).head?, x.1.row)
      | _ => (none, [])) = (some (0, [some (.num (.bits (1023 * 2 ^ 52))), some (.str (ascii "ann"))]),
        [some (.num (.bits (1025 * 2 ^ 52))), some (.str (ascii "cy"))]) := by decide +kernel
  generalize rRowCalls (Demo.reader.run ifs [.readAll]).2.trace = x at *
  cases x with
  | error e => simp at h
  | ok x =>
    simp only [Prod.mk.injEq] at h
    exact ⟨x, rfl, h.1, h.2⟩

/-! ## C56 -/

/-- C56. Whatever the history, `push_row` of an R sink is called once for every row, in order, with the index
of the row and a list of one element per column, in column order. -/
theorem C56_rows {cfg : Cfg} {fuel : Nat} {filter : Option Filter} {s : σ} {R : Reader σ}
    (h : openReader cfg S fuel filter s = .ok R) (ops : List Op)
    (hread : RReadable R.props.columns (pushes (R.run S ops).2.trace)) :
    ∃ st calls, rRowCalls (R.run S ops).2.trace = .ok (st, calls)
      ∧ RRowsAre R.props.columns (rrows calls) (pushes (R.run S ops).2.trace) := by
  obtain ⟨es, h1, -, h2, -, -⟩ := C08_protocol h ops
  rw [h1] at hread ⊢
  have h0 : List.Forall₂ (fun c x => c.type = .unknown → x = none) R.props.columns
      (R.props.columns.map fun _ => (none : Option RVal)) := by
    rw [List.forall₂_map_right_iff, List.forall₂_same]
    intro _ _ _
    rfl
  obtain ⟨st, out, r1, r2⟩ := rrow_run R.props.columns es hread h2 _ h0
  have hall := runR_cons (step := RRowSink.step) (st := {}) (ev := .setProperties R.props)
    (o1 := [.setProperties R.props]) rfl r1
  exact ⟨st, _, hall, r2⟩

/-- With a column of unknown type the list has a `NULL` in its place. -/
example : (match rRowCalls (unknownReader.run ifs [.readAll]).2.trace with
    | .ok x => (rrows x.2).map (fun y => y.2) | _ => []) =
    [[none, some (.str (ascii "ann"))], [none, some (.str (ascii "bob"))], [none, some (.str (ascii "cy"))]] := by
  decide +kernel

end Sas.Props
