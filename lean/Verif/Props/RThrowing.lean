import Verif.Proofs.RThrowing
import Verif.Props.PyThrowing
import Verif.Props.RSinks

/-!
# Property C86: R sinks whose functions raise errors

For every R object, whatever its functions do and whenever they raise an error, the program catching the errors and going
on with any calls of the reader.
-/

namespace Sas.Props

open Sas Spec

variable {σ κ : Type}

theorem opened_reader {τ ε : Type} {K : SinkCode τ ε} {cfg : Cfg} {S : Source σ} {fuel : Nat} {filter : Option Filter} {s : σ} {k : τ}
    {T : TReader σ τ} (h : openThrowing K cfg S fuel filter s k = .ok T) : openReader cfg S fuel filter s = .ok T.reader := by
  unfold openThrowing at h
  cases hR : openReader cfg S fuel filter s with
  | error e => rw [hR] at h; cases h
  | ok R =>
    rw [hR] at h
    dsimp only at h
    rcases hc : K.call k (.setProperties R.props) with ⟨(x | u), k'⟩
    · rw [hc] at h; cases h
    · rw [hc] at h
      cases h
      rfl

theorem explained_no_end {ε : Type} {ops ops' : List Op} {rs : List (TRes ε Ret)} {rs' : List (Res Ret)}
    (h : Explained ops rs ops' rs') (hr : .endOfData ∉ ops) : .endOfData ∉ ops' := by
  induction h with
  | nil ops => simp
  | ok op v h ih | reader op e h ih =>
    rw [List.mem_cons] at hr ⊢
    rintro (he | he)
    · exact hr (.inl he)
    · exact ih (fun h => hr (.inr h)) he
  | sink op op' x v hc h ih =>
    rw [List.mem_cons] at hr ⊢
    rintro (he | he)
    · cases hc with
      | whole => exact hr (.inl he)
      | rows => cases he
      | all => cases he
    · exact ih (fun h => hr (.inr h)) he

/-- The calls on a sink that throws, without an explicit `end_of_data`: rows, then ends; the rows are in order. -/
theorem throwing_shape {τ ε : Type} {K : SinkCode τ ε} {cfg : Cfg} {S : Source σ} {fuel : Nat} {filter : Option Filter} {s : σ} {k : τ}
    {T : TReader σ τ} (h : openThrowing K cfg S fuel filter s k = .ok T) (ops : List Op) (hops : .endOfData ∉ ops) :
    ∃ rows n, (T.run K S ops).2.reader.trace = T.reader.trace ++ (rows.map (fun r => .pushRow r.1 r.2) ++ List.replicate n .endOfData) ∧
      pushes (T.run K S ops).2.reader.trace = rows ∧
      (rows.map Prod.fst).Pairwise (· < ·) ∧ (∀ r ∈ rows, r.1 < T.reader.props.md.rowCount) ∧
      (T.run K S ops).2.sink = afterCalls K T.sink (rows.map (fun r => .pushRow r.1 r.2) ++ List.replicate n .endOfData) ∧
      sinkExceptions (T.run K S ops).1 = thrown K T.sink (rows.map (fun r => .pushRow r.1 r.2) ++ List.replicate n .endOfData) := by
  obtain ⟨ops', h1, h2, -⟩ := run_like (K := K) (S := S) ops T
  obtain ⟨es, t1, t2, t3⟩ := run_thrown (K := K) (S := S) ops T
  have hR := opened_reader h
  have hshape := C08_end_last hR ops' (explained_no_end h1 hops)
  obtain ⟨es', p1, -, -, p4, p5⟩ := C08_protocol hR ops'
  rw [h2] at hshape p1
  have htr : T.reader.trace = [.setProperties T.reader.props] := (openReader_spec hR).2.2
  have hpush : pushes (T.run K S ops).2.reader.trace = pushes es' := by rw [p1]; rfl
  have hes : es = (pushes (T.run K S ops).2.reader.trace).map (fun r => .pushRow r.1 r.2) ++
      List.replicate (ends (T.run K S ops).2.reader.trace) .endOfData := by
    have := t1.symm.trans hshape
    rw [htr] at this
    simpa using this
  rw [← hpush] at p4 p5
  refine ⟨_, ends (T.run K S ops).2.reader.trace, ?_, rfl, p4, fun r hr => p5 _ (List.mem_map.2 ⟨r, hr, rfl⟩), ?_, ?_⟩
  · rw [← hes]; exact t1
  · rw [← hes]; exact t2
  · rw [← hes]; exact t3

/-- One more call, which signals the end and returns: the calls before it, and the last one. -/
theorem throwing_end {τ ε : Type} {K : SinkCode τ ε} {cfg : Cfg} {S : Source σ} {fuel : Nat} {filter : Option Filter} {s : σ} {k : τ}
    {T : TReader σ τ} (h : openThrowing K cfg S fuel filter s k = .ok T) (ops : List Op) (hops : .endOfData ∉ ops) (op : Op)
    {T' : TReader σ τ} {v : Ret} (hT' : (T.run K S ops).2.step K S op = (.ok v, T')) (hs : signalsEnd op (.ok v) = true) :
    ∃ rows n, pushes T'.reader.trace = rows ∧
      (rows.map Prod.fst).Pairwise (· < ·) ∧ (∀ r ∈ rows, r.1 < T.reader.props.md.rowCount) ∧
      T'.sink = (K.call (afterCalls K T.sink (rows.map (fun r => .pushRow r.1 r.2) ++ List.replicate n .endOfData)) .endOfData).2 ∧
      (K.call (afterCalls K T.sink (rows.map (fun r => .pushRow r.1 r.2) ++ List.replicate n .endOfData)) .endOfData).1 = .ok () ∧
      thrown K T.sink (rows.map (fun r => .pushRow r.1 r.2) ++ List.replicate n .endOfData) = sinkExceptions (T.run K S ops).1 := by
  obtain ⟨es, t1, t2, t3⟩ := run_thrown (K := K) (S := S) ops T
  obtain ⟨ops', hexp, hr, -⟩ := run_like (K := K) (S := S) ops T
  have hR := opened_reader h
  have htr : T.reader.trace = [.setProperties T.reader.props] := (openReader_spec hR).2.2
  obtain ⟨hend, hended⟩ := endLast_open hR ops' (explained_no_end hexp hops)
  have hreach : Reachable S (T.run K S ops).2.reader := by
    rw [← hr]
    exact Sas.Reachable.run (opened_sink h).2.2 ops'
  rw [hr] at hend hended
  obtain ⟨g1, new, g2, g3, g4⟩ := step_like (K := K) (S := S) (T.run K S ops).2 op
  rw [hT'] at g1 g2 g3 g4
  dsimp only at g1 g2 g3 g4
  have hstep : (T.run K S ops).2.reader.step S op = (.ok v, T'.reader) := g1
  obtain ⟨rows, u1, -⟩ := Reader.step_trace (S := S) (T.run K S ops).2.reader (Sas.Reachable.inv hreach) op
  obtain ⟨hlast, -⟩ := endLast_step (S := S) op (Sas.Reachable.inv hreach) hend hended
  have hprot : ((pushes T'.reader.trace).map Prod.fst).Pairwise (· < ·) ∧
      ∀ i ∈ (pushes T'.reader.trace).map Prod.fst, i < T.reader.props.md.rowCount := by
    have ht : T'.reader.TraceOk := by
      have := (Sas.Reachable.traceOk hreach).step (S := S) op
      rw [hstep] at this
      exact this
    have hp : T'.reader.props = T.reader.props := by
      have h1 := (Reader.step_inv (S := S) _ (Sas.Reachable.inv hreach) op).2.1
      rw [hstep] at h1
      rw [h1, ← hr]
      exact Reader.run_props (S := S) ops' T.reader (openReader_spec hR).1
    refine ⟨ht.incr, fun i hi => Nat.lt_of_lt_of_le (ht.lt i hi) ?_⟩
    rw [← hp]
    exact ht.inv.row
  rw [hstep] at u1 hlast
  rw [hs] at u1
  dsimp only at u1 hlast
  have hnew : new = pushEvents (T.run K S ops).2.reader.rd.row rows ++ [.endOfData] := by
    rw [g2, List.append_assoc] at u1
    exact List.append_cancel_left u1
  have hq : Quiet K (T.run K S ops).2.sink new := g4
  unfold EndLast at hlast
  have hall : es ++ new = (pushes T'.reader.trace).map (fun r => .pushRow r.1 r.2) ++
      List.replicate (ends T'.reader.trace) .endOfData := by
    have h1 : T'.reader.trace = [.setProperties T.reader.props] ++ (es ++ new) := by
      rw [g2, t1, htr, List.append_assoc]
    have := h1.symm.trans hlast
    simpa using this
  obtain ⟨m, hm⟩ : ∃ m, ends T'.reader.trace = m + 1 := by
    cases hn : ends T'.reader.trace with
    | succ m => exact ⟨m, rfl⟩
    | zero =>
      rw [hn, hnew] at hall
      have : Event.endOfData ∈ (pushes T'.reader.trace).map (fun r => Event.pushRow r.1 r.2) ++ List.replicate 0 .endOfData := by
        rw [← hall]; simp
      simp at this
  have hsplit : es ++ pushEvents (T.run K S ops).2.reader.rd.row rows =
      (pushes T'.reader.trace).map (fun r => .pushRow r.1 r.2) ++ List.replicate m .endOfData := by
    rw [hm, List.replicate_succ', hnew, ← List.append_assoc, ← List.append_assoc] at hall
    exact List.append_inj_left' hall rfl
  rw [hnew, quiet_append] at hq
  refine ⟨_, m, rfl, hprot.1, fun r hr => hprot.2 _ (List.mem_map.2 ⟨r, hr, rfl⟩), ?_, ?_, ?_⟩
  · rw [← hsplit, g3, hnew, t2, ← afterCalls_append, ← List.append_assoc, afterCalls_append _ (es ++ _)]
    rfl
  · rw [← hsplit, afterCalls_append, ← t2]
    exact hq.2.1
  · rw [← hsplit, thrown_append, ← t3, ← t2, thrown_quiet _ _ hq.1, List.append_nil]

/-- A chunk sink at the start. -/
theorem r_opened_chunk {P : RCode κ} {cfg : Cfg} {S : Source σ} {fuel : Nat} {filter : Option Filter} {s : σ} {k : κ}
    {size : Nat} {T : TReader σ (RLive κ)}
    (h : openThrowing (rSinkCode P) cfg S fuel filter s { cpp := .chunk { size := size }, obj := k } = .ok T) :
    RGo T.reader.props.columns size T.reader.props.md.rowCount 0 T.sink [] [] := by
  obtain ⟨h1, -⟩ := opened_sink h
  simp only [rSinkCode, RLive.chunkCall] at h1
  have hp := (r_spec (P := P) { cpp := .chunk { size := size }, obj := k } (.setProperties T.reader.props)).2
  generalize RLive.r P { cpp := .chunk { size := size }, obj := k } (.setProperties T.reader.props) = y at h1 hp
  obtain ⟨(e | u), s1⟩ := y
  · cases h1
  · dsimp only at h1
    have h2 := (Prod.mk.injEq .. ▸ h1).2
    rcases hp with ⟨-, hp⟩ | ⟨hx, -⟩
    · rw [← h2]
      refine ⟨⟨_, rfl, rstart size T.reader.props, by simp, Nat.le_refl _⟩, fun h => by simpa using h, by simp, ?_, by simp⟩
      unfold RTaken
      rw [hp]
      exact .nil
    · cases hx

/-- A whole-data sink at the start. -/
theorem r_opened_data {P : RCode κ} {cfg : Cfg} {S : Source σ} {fuel : Nat} {filter : Option Filter} {s : σ} {k : κ}
    {T : TReader σ (RLive κ)}
    (h : openThrowing (rSinkCode P) cfg S fuel filter s { cpp := .data { size := 0 }, obj := k } = .ok T) :
    RDataGo T.reader.props.columns T.reader.props.md.rowCount 0 T.sink [] := by
  obtain ⟨h1, -⟩ := opened_sink h
  simp only [rSinkCode, RLive.dataCall] at h1
  have hp := (r_spec (P := P) { cpp := .data { size := 0 }, obj := k } (.setProperties T.reader.props)).2
  generalize RLive.r P { cpp := .data { size := 0 }, obj := k } (.setProperties T.reader.props) = y at h1 hp
  obtain ⟨(e | u), s1⟩ := y
  · cases h1
  · dsimp only at h1
    have h2 := (Prod.mk.injEq .. ▸ h1).2
    rcases hp with ⟨-, hp⟩ | ⟨hx, -⟩
    · rw [← h2]
      refine ⟨⟨_, rfl, rstart 0 T.reader.props, rfl⟩, by simp, ?_⟩
      show rdatas s1.taken = []
      rw [hp]
      rfl
    · cases hx

open Classical in
theorem r_chunks {P : RCode κ} {cols : List Column} {size ilast : Nat} (h31 : ilast ≤ 2 ^ 31) {s : RLive κ}
    (hgo : RGo cols size ilast 0 s [] []) {rows : List (Nat × Row)} {n : Nat} (hsafe : RSafe cols rows)
    (hp : (rows.map Prod.fst).Pairwise (· < ·)) (hb : ∀ r ∈ rows, r.1 < ilast)
    (hub : .cpp .ub ∉ thrown (rSinkCode P) s (rows.map (fun r => .pushRow r.1 r.2) ++ List.replicate n .endOfData)) :
    ∃ parts rest, parts.flatten ++ rest = rows.filter (fun r => decide (InR cols r.2)) ∧
      RReady cols (afterCalls (rSinkCode P) s (rows.map (fun r => .pushRow r.1 r.2) ++ List.replicate n .endOfData)) parts rest ∧
      (∀ q ∈ parts, q ≠ [] ∧ (0 < size → q.length ≤ size)) ∧ (∀ q ∈ parts.dropLast, q.length = size) ∧
      (0 < size → rest.length ≤ size) := by
  rw [thrown_append, List.mem_append, not_or] at hub
  obtain ⟨parts, rest, g1, g2⟩ := go_rows (P := P) h31 rows 0 s [] [] hgo hsafe hp (fun r hr => ⟨Nat.zero_le _, hb r hr⟩)
  have g2 := g2 hub.1
  rw [afterCalls_append]
  have hready : RReady cols (afterCalls (rSinkCode P) s (rows.map fun r => .pushRow r.1 r.2)) parts rest ∧
      (∀ q ∈ parts, q ≠ [] ∧ q.length = size) ∧ (0 < size → rest.length ≤ size) := by
    rcases g1 with ⟨⟨n', g1⟩, -⟩ | ⟨g1, -⟩
    · exact ⟨g1.ready, g1.full, fun h0 => Nat.le_of_lt (g1.room h0)⟩
    · exact ⟨g1.ready, g1.full, fun _ => Nat.le_of_eq g1.room.2⟩
  obtain ⟨hready, hfull, hlen⟩ := hready
  obtain ⟨parts', rest', k1, k2, -⟩ := ready_ends (P := P) n hready
  rcases k2 with ⟨rfl, rfl⟩ | ⟨rfl, hne, rfl⟩
  · refine ⟨parts', rest', by simpa using g2, k1, fun q hq => ⟨(hfull q hq).1, fun _ => Nat.le_of_eq (hfull q hq).2⟩,
      fun q hq => (hfull q (List.dropLast_subset _ hq)).2, hlen⟩
  · refine ⟨_, [], by simpa using g2, k1, ?_, ?_, by simp⟩
    · intro q hq
      rcases List.mem_append.1 hq with hq | hq
      · exact ⟨(hfull q hq).1, fun _ => Nat.le_of_eq (hfull q hq).2⟩
      · rw [List.mem_singleton.1 hq]
        exact ⟨hne, hlen⟩
    · rw [List.dropLast_concat]
      exact fun q hq => (hfull q hq).2

open Classical in
/-- **C86**, partial: chunks. In any history without an explicit `end_of_data`, the rows that can be shown in R fall into
consecutive groups: each chunk that `push_rows` has taken holds one group, with its indices; the rest is kept for the next
attempt. A row that cannot be shown takes no other row with it. Chunks have `chunk_size` rows; only the last can be shorter.
Missing, and false: rows after a chunk that was refused (`C86_next_row`, `C86_refuted`). -/
theorem C86_chunks_partial {P : RCode κ} {cfg : Cfg} {S : Source σ} {fuel : Nat} {filter : Option Filter} {s : σ} {k : κ}
    {size : Nat} {T : TReader σ (RLive κ)}
    (h : openThrowing (rSinkCode P) cfg S fuel filter s { cpp := .chunk { size := size }, obj := k } = .ok T) (ops : List Op)
    (hops : .endOfData ∉ ops) (h31 : T.reader.props.md.rowCount ≤ 2 ^ 31)
    (hsafe : RSafe T.reader.props.columns (pushes (T.run (rSinkCode P) S ops).2.reader.trace))
    (hub : .error (.sink (.cpp .ub)) ∉ (T.run (rSinkCode P) S ops).1) :
    ∃ parts rest,
      parts.flatten ++ rest = (pushes (T.run (rSinkCode P) S ops).2.reader.trace).filter
        (fun r => decide (InR T.reader.props.columns r.2)) ∧
      List.Forall₂ (fun c q => RHolds T.reader.props.columns q c.1 c.2) (rchunks (T.run (rSinkCode P) S ops).2.sink.taken) parts ∧
      (∀ q ∈ parts, q ≠ [] ∧ (0 < size → q.length ≤ size)) ∧ (∀ q ∈ parts.dropLast, q.length = size) ∧
      (0 < size → rest.length ≤ size) := by
  obtain ⟨rows, n, -, h2, h3, h4, h5, h6⟩ := throwing_shape h ops hops
  rw [← mem_sinkExceptions, h6] at hub
  rw [h2] at hsafe ⊢
  rw [h5]
  obtain ⟨parts, rest, g1, g2, g3⟩ := r_chunks (P := P) h31 (r_opened_chunk h) hsafe h3 h4 hub
  exact ⟨parts, rest, g1, g2.1, g3⟩

/-- **C86**, partial: nothing is written outside the vectors as long as no chunk is refused, whatever else fails. -/
theorem C86_safe_partial {P : RCode κ} {cfg : Cfg} {S : Source σ} {fuel : Nat} {filter : Option Filter} {s : σ} {k : κ}
    {size : Nat} {T : TReader σ (RLive κ)}
    (h : openThrowing (rSinkCode P) cfg S fuel filter s { cpp := .chunk { size := size }, obj := k } = .ok T) (ops : List Op)
    (hops : .endOfData ∉ ops) (h31 : T.reader.props.md.rowCount ≤ 2 ^ 31)
    (hsafe : RSafe T.reader.props.columns (pushes (T.run (rSinkCode P) S ops).2.reader.trace))
    (hr : .error (.sink .raised) ∉ (T.run (rSinkCode P) S ops).1) :
    .error (.sink (.cpp .ub)) ∉ (T.run (rSinkCode P) S ops).1 := by
  obtain ⟨rows, n, -, h2, h3, h4, h5, h6⟩ := throwing_shape h ops hops
  rw [← mem_sinkExceptions, h6, thrown_append, List.mem_append, not_or] at hr ⊢
  rw [h2] at hsafe
  obtain ⟨parts, rest, g1, -⟩ := go_rows (P := P) h31 rows 0 T.sink [] [] (r_opened_chunk h) hsafe h3
    (fun r hr => ⟨Nat.zero_le _, h4 r hr⟩)
  rcases g1 with ⟨⟨n', g1⟩, g2, -⟩ | ⟨-, g2⟩
  · obtain ⟨-, -, -, -, k3⟩ := ready_ends (P := P) n g1.ready
    exact ⟨g2, k3⟩
  · exact absurd g2 hr.1

open Classical in
/-- **C86**, partial: the end. A call that signals the end of the data and returns without an error: all rows that can be shown in R
were taken, also those of a chunk the object had refused before. Missing as in `C86_chunks_partial`. -/
theorem C86_end_partial {P : RCode κ} {cfg : Cfg} {S : Source σ} {fuel : Nat} {filter : Option Filter} {s : σ} {k : κ}
    {size : Nat} {T : TReader σ (RLive κ)}
    (h : openThrowing (rSinkCode P) cfg S fuel filter s { cpp := .chunk { size := size }, obj := k } = .ok T) (ops : List Op)
    (hops : .endOfData ∉ ops) (op : Op) {T' : TReader σ (RLive κ)} {v : Ret}
    (hT' : (T.run (rSinkCode P) S ops).2.step (rSinkCode P) S op = (.ok v, T')) (hs : signalsEnd op (.ok v) = true)
    (h31 : T.reader.props.md.rowCount ≤ 2 ^ 31)
    (hsafe : RSafe T.reader.props.columns (pushes T'.reader.trace))
    (hub : .error (.sink (.cpp .ub)) ∉ (T.run (rSinkCode P) S ops).1) :
    ∃ parts, parts.flatten = (pushes T'.reader.trace).filter (fun r => decide (InR T.reader.props.columns r.2)) ∧
      List.Forall₂ (fun c q => RHolds T.reader.props.columns q c.1 c.2) (rchunks T'.sink.taken) parts ∧
      (∀ q ∈ parts, q ≠ [] ∧ (0 < size → q.length ≤ size)) := by
  obtain ⟨rows, n, h2, h3, h4, h5, h6, h7⟩ := throwing_end h ops hops op hT' hs
  rw [← mem_sinkExceptions, ← h7] at hub
  rw [h2] at hsafe ⊢
  rw [h5]
  obtain ⟨parts, rest, g1, g2, g3, -, g5⟩ := r_chunks (P := P) h31 (r_opened_chunk h) hsafe h3 h4 hub
  rcases ready_end (P := P) g2 with ⟨-, k2⟩ | ⟨k1, -⟩
  · refine ⟨_, ?_, k2.1, ?_⟩
    · rw [← g1]
      split
      · rename_i hr; rw [hr, List.append_nil]
      · simp
    · split
      · exact g3
      · rename_i hr
        intro q hq
        rcases List.mem_append.1 hq with hq | hq
        · exact g3 q hq
        · rw [List.mem_singleton.1 hq]
          exact ⟨hr, g5⟩
  · rw [h6] at k1
    cases k1

open Classical in
/-- **C86**, partial: whole data. In any history without an explicit `end_of_data`, nothing is written outside the vectors, and
every `set_data` that was taken holds all rows that can be shown in R, with their indices, however often it was refused before.
A call that signals the end and returns has been such a call. Missing: no rows (C32). -/
theorem C86_data_partial {P : RCode κ} {cfg : Cfg} {S : Source σ} {fuel : Nat} {filter : Option Filter} {s : σ} {k : κ}
    {T : TReader σ (RLive κ)}
    (h : openThrowing (rSinkCode P) cfg S fuel filter s { cpp := .data { size := 0 }, obj := k } = .ok T) (ops : List Op)
    (hops : .endOfData ∉ ops) (h31 : T.reader.props.md.rowCount ≤ 2 ^ 31)
    (hsafe : RSafe T.reader.props.columns (pushes (T.run (rSinkCode P) S ops).2.reader.trace)) :
    .error (.sink (.cpp .ub)) ∉ (T.run (rSinkCode P) S ops).1 ∧
    (∀ d ∈ rdatas (T.run (rSinkCode P) S ops).2.sink.taken, RHolds T.reader.props.columns
      ((pushes (T.run (rSinkCode P) S ops).2.reader.trace).filter fun r => decide (InR T.reader.props.columns r.2)) d.1 d.2) := by
  obtain ⟨rows, n, -, h2, h3, h4, h5, h6⟩ := throwing_shape h ops hops
  rw [h2] at hsafe
  obtain ⟨⟨n', g1⟩, g2⟩ := data_rows (P := P) h31 rows 0 T.sink [] (r_opened_data h) hsafe h3 (fun r hr => ⟨Nat.zero_le _, h4 r hr⟩)
  obtain ⟨k1, k2⟩ := data_ready_ends (P := P) n g1.ready
  rw [← mem_sinkExceptions, h6, thrown_append, List.mem_append, not_or]
  refine ⟨⟨g2, k2⟩, ?_⟩
  rw [h5, h2, afterCalls_append]
  exact k1.1

open Classical in
/-- **C86**, partial: whole data at the end. A call that signals the end and returns without an error: `set_data` has taken all rows
that can be shown in R, if there are any. -/
theorem C86_data_end_partial {P : RCode κ} {cfg : Cfg} {S : Source σ} {fuel : Nat} {filter : Option Filter} {s : σ} {k : κ}
    {T : TReader σ (RLive κ)}
    (h : openThrowing (rSinkCode P) cfg S fuel filter s { cpp := .data { size := 0 }, obj := k } = .ok T) (ops : List Op)
    (hops : .endOfData ∉ ops) (op : Op) {T' : TReader σ (RLive κ)} {v : Ret}
    (hT' : (T.run (rSinkCode P) S ops).2.step (rSinkCode P) S op = (.ok v, T')) (hs : signalsEnd op (.ok v) = true)
    (h31 : T.reader.props.md.rowCount ≤ 2 ^ 31)
    (hsafe : RSafe T.reader.props.columns (pushes T'.reader.trace))
    (hrows : ((pushes T'.reader.trace).filter fun r => decide (InR T.reader.props.columns r.2)) ≠ []) :
    ∃ d ∈ rdatas T'.sink.taken, RHolds T.reader.props.columns
      ((pushes T'.reader.trace).filter fun r => decide (InR T.reader.props.columns r.2)) d.1 d.2 := by
  obtain ⟨rows, n, h2, h3, h4, h5, h6, -⟩ := throwing_end h ops hops op hT' hs
  rw [h2] at hsafe hrows ⊢
  obtain ⟨⟨n', g1⟩, g2⟩ := data_rows (P := P) h31 rows 0 T.sink [] (r_opened_data h) hsafe h3 (fun r hr => ⟨Nat.zero_le _, h4 r hr⟩)
  obtain ⟨k1, k2⟩ := data_ready_ends (P := P) n g1.ready
  rw [← afterCalls_append] at k1
  obtain ⟨m1, ⟨-, m2⟩ | m2⟩ := data_ready_end (P := P) k1
  · rw [← h5] at m1 m2
    obtain ⟨d, hd⟩ := List.exists_mem_of_ne_nil _ (m2 (by simpa using hrows))
    exact ⟨d, hd, by simpa using m1.1 d hd⟩
  · rw [h6] at m2
    cases m2

/-- **C86**: rows. Whatever the history, a row sink has taken, in order, some of the rows that were pushed, each with its index and
its values; exactly one is missing for every call that has ended in an error of the sink. Nothing is written outside the list. -/
theorem C86_rows {P : RCode κ} {cfg : Cfg} {S : Source σ} {fuel : Nat} {filter : Option Filter} {s : σ} {k : κ}
    {T : TReader σ (RLive κ)}
    (h : openThrowing (rSinkCode P) cfg S fuel filter s { cpp := .row {}, obj := k } = .ok T) (ops : List Op) :
    ∃ kept, List.Sublist kept (pushes (T.run (rSinkCode P) S ops).2.reader.trace) ∧
      RRowsAre T.reader.props.columns (rrows (T.run (rSinkCode P) S ops).2.sink.taken) kept ∧
      (pushes (T.run (rSinkCode P) S ops).2.reader.trace).length =
        kept.length + (sinkExceptions (T.run (rSinkCode P) S ops).1).length ∧
      (RSafe T.reader.props.columns (pushes (T.run (rSinkCode P) S ops).2.reader.trace) →
        .error (.sink (.cpp .ub)) ∉ (T.run (rSinkCode P) S ops).1) := by
  obtain ⟨hset, htr, -⟩ := opened_sink h
  obtain ⟨es, t1, t2, t3⟩ := run_thrown (K := rSinkCode P) (S := S) ops T
  obtain ⟨es', u1, -, -, u4⟩ := run_calls (rSinkCode P) h ops
  have hes : es' = es := by
    rw [t1, htr] at u1
    simpa using u1.symm
  subst hes
  have hpush : pushes (T.run (rSinkCode P) S ops).2.reader.trace = pushes es' := by rw [u1]; rfl
  simp only [rSinkCode, RLive.rowCall] at hset
  have hp := (r_spec (P := P) { cpp := .row {}, obj := k } (.setProperties T.reader.props)).2
  generalize RLive.r P { cpp := .row {}, obj := k } (.setProperties T.reader.props) = y at hset hp
  obtain ⟨(e | u), s1⟩ := y
  · cases hset
  · dsimp only at hset
    have h2 := (Prod.mk.injEq .. ▸ hset).2
    rcases hp with ⟨-, hp⟩ | ⟨hx, -⟩
    · have h0 : List.Forall₂ (fun c x => c.type = .unknown → x = none) T.reader.props.columns
          (T.reader.props.columns.map fun _ => (none : Option RVal)) := by
        rw [List.forall₂_map_right_iff, List.forall₂_same]
        intro _ _ _
        rfl
      obtain ⟨new, g1, g2, g3, g4⟩ := row_events (P := P) (cols := T.reader.props.columns) es' T.sink _ [] u4
        (by rw [← h2]) h0 (by
          rw [← h2]
          show RRowsAre _ (rrows s1.taken) []
          rw [hp]
          exact .nil)
      rw [hpush, t2, ← mem_sinkExceptions, t3]
      exact ⟨new, g1, g2, g3, g4⟩
    · cases hx

/-! ## What does not hold, and cases -/

theorem thrown_mem_last {τ ε : Type} {K : SinkCode τ ε} {k : τ} {b : List Event} {e : Event} {x : ε}
    (h : (K.call (afterCalls K k b) e).1 = .error x) : x ∈ thrown K k (b ++ [e]) := by
  rw [thrown_append, thrown_one, h]
  simp

/-- **C86** is false of every program that goes on after a chunk was refused: if `push_rows` has raised an error while the reader was
reading, and any row is read later, that row is written outside the vectors. -/
theorem C86_next_row {P : RCode κ} {cfg : Cfg} {S : Source σ} {fuel : Nat} {filter : Option Filter} {s : σ} {k : κ}
    {size : Nat} {T : TReader σ (RLive κ)}
    (h : openThrowing (rSinkCode P) cfg S fuel filter s { cpp := .chunk { size := size }, obj := k } = .ok T) (ops : List Op)
    (hops : .endOfData ∉ ops) (op : Op) (hop : op ≠ .endOfData) {T' : TReader σ (RLive κ)}
    (hT' : (T.run (rSinkCode P) S ops).2.step (rSinkCode P) S op = (.error (.sink .raised), T'))
    (h31 : T.reader.props.md.rowCount ≤ 2 ^ 31) (hsafe : RSafe T.reader.props.columns (pushes T'.reader.trace))
    (later : List Op) (hlater : .endOfData ∉ later)
    (hmore : pushes (T'.run (rSinkCode P) S later).2.reader.trace ≠ pushes T'.reader.trace) :
    .error (.sink (.cpp .ub)) ∈ (T'.run (rSinkCode P) S later).1 := by
  obtain ⟨es, t1, t2, -⟩ := run_thrown (K := rSinkCode P) (S := S) ops T
  obtain ⟨ops', hexp, hr, -⟩ := run_like (K := rSinkCode P) (S := S) ops T
  have hR := opened_reader h
  have htr : T.reader.trace = [.setProperties T.reader.props] := (openReader_spec hR).2.2
  obtain ⟨hend, hended⟩ := endLast_open hR ops' (explained_no_end hexp hops)
  have hreach : Reachable S (T.run (rSinkCode P) S ops).2.reader := by
    rw [← hr]
    exact Sas.Reachable.run (opened_sink h).2.2 ops'
  have hprops : (T.run (rSinkCode P) S ops).2.reader.props = T.reader.props := by
    rw [← hr]
    exact Reader.run_props (S := S) ops' T.reader (openReader_spec hR).1
  rw [hr] at hend hended
  obtain ⟨g1, new, g2, g3, g4⟩ := step_like (K := rSinkCode P) (S := S) (T.run (rSinkCode P) S ops).2 op
  rw [hT'] at g1 g2 g3 g4
  dsimp only at g1 g2 g3 g4
  obtain ⟨op', v, hcut, hstep⟩ := g1
  have hop' : op' ≠ .endOfData := by
    intro he
    subst he
    cases hcut
    exact hop rfl
  obtain ⟨hlast, hended'⟩ := endLast_step (S := S) op' (Sas.Reachable.inv hreach) hend hended
  have hended' := hended' hop'
  have ht : T'.reader.TraceOk := by
    have := (Sas.Reachable.traceOk hreach).step (S := S) op'
    rw [hstep] at this
    exact this
  have hp : T'.reader.props = T.reader.props := by
    have h1 := (Reader.step_inv (S := S) _ (Sas.Reachable.inv hreach) op').2.1
    rw [hstep] at h1
    rw [h1, hprops]
  rw [hstep] at hlast hended'
  dsimp only at hlast hended'
  -- later
  obtain ⟨es2, s1, -, s3⟩ := run_thrown (K := rSinkCode P) (S := S) later T'
  obtain ⟨later', hexp2, hr2, -⟩ := run_like (K := rSinkCode P) (S := S) later T'
  have h0 : ends T'.reader.trace = 0 := by
    by_contra hne
    apply hmore
    rw [← hr2]
    exact (Reader.run_ended (S := S) later' T'.reader (hended' hne)).2.2
  obtain ⟨hfin, -⟩ := endLast_run (S := S) later' (explained_no_end hexp2 hlater) T'.reader ht.inv hlast hended'
  rw [hr2] at hfin
  unfold EndLast at hlast hfin
  -- the sink is stuck
  have hsink : T'.sink = afterCalls (rSinkCode P) T.sink ((pushes T'.reader.trace).map fun r => .pushRow r.1 r.2) ∧
      RStop.raised ∈ thrown (rSinkCode P) T.sink ((pushes T'.reader.trace).map fun r => .pushRow r.1 r.2) := by
    have hall : es ++ new = (pushes T'.reader.trace).map fun r => Event.pushRow r.1 r.2 := by
      have h1 : T'.reader.trace = [.setProperties T.reader.props] ++ (es ++ new) := by
        rw [g2, t1, htr, List.append_assoc]
      have := h1.symm.trans hlast
      rw [h0] at this
      simpa using this
    rw [← hall]
    refine ⟨by rw [g3, t2, afterCalls_append], ?_⟩
    obtain ⟨b, e, rfl, -, q2⟩ := g4
    rw [← List.append_assoc]
    refine thrown_mem_last ?_
    rw [afterCalls_append, ← t2]
    exact q2
  obtain ⟨parts, rest, k1, -⟩ := go_rows (P := P) h31 (pushes T'.reader.trace) 0 T.sink [] [] (r_opened_chunk h) hsafe ht.incr
    (fun r hr => ⟨Nat.zero_le _, Nat.lt_of_lt_of_le (ht.lt r.1 (List.mem_map.2 ⟨r, hr, rfl⟩)) (by rw [← hp]; exact ht.inv.row)⟩)
  rw [← hsink.1] at k1
  rcases k1 with ⟨-, -, k1⟩ | ⟨k1, -⟩
  · exact absurd hsink.2 k1
  · -- the next call is a row
    have hes2 : ∃ (rows2 : List (Nat × Row)) (n : Nat), rows2 ≠ [] ∧ es2 = rows2.map (fun r => .pushRow r.1 r.2) ++ List.replicate n .endOfData := by
      have hp2 : pushes (T'.run (rSinkCode P) S later).2.reader.trace = pushes T'.reader.trace ++ pushes es2 := by
        rw [s1, pushes_append]
      refine ⟨pushes es2, ends (T'.run (rSinkCode P) S later).2.reader.trace, fun hnil => hmore (by rw [hp2, hnil, List.append_nil]), ?_⟩
      have h1 : (T'.run (rSinkCode P) S later).2.reader.trace =
          .setProperties T.reader.props :: ((pushes T'.reader.trace).map fun r => .pushRow r.1 r.2) ++ es2 := by
        rw [s1]
        conv_lhs => rw [hlast, h0]
        simp
      rw [hp2] at hfin
      have := h1.symm.trans hfin
      simpa using this
    obtain ⟨rows2, n, hne, rfl⟩ := hes2
    rw [← mem_sinkExceptions, s3, thrown_append]
    exact List.mem_append_left _ ((stuck_rows (P := P) k1 rows2).2 hne)

/-- An R object whose `push_rows`, `push_row` and `set_data` raise errors in those of the next calls in which its state says so. -/
def raises : RCode (List Bool) where
  call := fun l c => match c with
    | .setProperties _ => (true, l)
    | _ => (!(l.headD false), l.tail)

/-- The demonstration file with some bytes changed, opened for such an object. -/
def raising (l : List (Nat × Byte)) (cpp : RKind) (n : List Bool) : TReader IFStream (RLive (List Bool)) :=
  ⟨Demo.get (patched l), ((rSinkCode raises).call { cpp := cpp, obj := n } (.setProperties (Demo.get (patched l)).props)).2⟩

theorem raising_ok {l : List (Nat × Byte)} {cpp : RKind} {n : List Bool} (h1 : (patched l).isOk = true)
    (h2 : ((rSinkCode raises).call { cpp := cpp, obj := n } (.setProperties (Demo.get (patched l)).props)).1 = .ok ()) :
    openThrowing (rSinkCode raises) Demo.cfg ifs 10 none (IFStream.open (l.foldl (fun f x => f.set x.1 x.2) Demo.file))
      { cpp := cpp, obj := n } = .ok (raising l cpp n) :=
  openThrowing_ok (Demo.get_ok h1) h2

/-- What is checked in the cases: the errors of the sink, the indices of the rows that were pushed, and the indices of the chunks, of
the data and of the rows that were taken. -/
def toldR (l : List (Nat × Byte)) (cpp : RKind) (n : List Bool) (ops : List Op) :
    List RStop × List Nat × List (List RVal) × List (List RVal) × List Nat :=
  let r := (raising l cpp n).run (rSinkCode raises) ifs ops
  (sinkExceptions r.1, (pushes r.2.reader.trace).map Prod.fst, (rchunks r.2.sink.taken).map Prod.fst,
    (rdatas r.2.sink.taken).map Prod.fst, (rrows r.2.sink.taken).map Prod.fst)

/-- C86 is false: three rows, in chunks of one; the object raises an error at the first of them. The program catches it and goes on; the
second row is written outside the vectors. -/
theorem C86_refuted : ∃ T, openThrowing (rSinkCode raises) Demo.cfg ifs 10 none (IFStream.open Demo.file)
      { cpp := .chunk { size := 1 }, obj := [true] } = .ok T ∧
    sinkExceptions (T.run (rSinkCode raises) ifs [.readRow, .readRow]).1 = [.raised, .cpp .ub] :=
  ⟨_, raising_ok (l := []) (by decide +kernel) rfl, by decide +kernel⟩

/-- The hypotheses of the theorems: an object that raises an error at the last chunk and then takes it; one that raises an error at the
whole data, twice; one that refuses the second row; and a file with a date that has no text in its first row, whose other rows arrive. -/
example :
    toldR [] (.chunk { size := 2 }) [false, true] [.readAll, .readRow] =
      ([.raised], [0, 1, 2], [[.int 0, .int 1], [.int 2]], [], []) ∧
    toldR [] (.chunk { size := 3 }) [true] [.readAll, .readRow] =
      ([.raised], [0, 1, 2], [[.int 0, .int 1, .int 2]], [], []) ∧
    toldR [] (.data { size := 0 }) [true, true] [.readAll, .readRow, .readRow] =
      ([.raised, .raised], [0, 1, 2], [], [[.int 0, .int 1, .int 2]], []) ∧
    toldR [] (.row {}) [false, true] [.readAll, .readAll] = ([.raised], [0, 1, 2], [], [], [0, 2]) ∧
    (toldR early (.chunk { size := 1 }) [] [.readAll, .readAll]).2 = ([0, 1, 2], [[.int 1], [.int 2]], [], []) ∧
    (toldR early (.chunk { size := 1 }) [] [.readAll, .readAll]).1.length = 1 := by
  refine ⟨?_, ?_, ?_, ?_, ?_, ?_⟩ <;> decide +kernel

end Sas.Props
