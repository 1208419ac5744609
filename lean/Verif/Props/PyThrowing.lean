import Verif.Proofs.PyThrowing
import Verif.Props.Throwing
import Verif.Props.PySinks
import Verif.Spec.DateTime

/-!
# Property C73: Python sinks whose methods raise

For every Python object, whatever its methods do and whenever they raise, the program catching the exceptions and going
on with any calls of the reader.
-/

namespace Sas.Props

open Sas Spec

variable {σ κ : Type}

theorem opened_sink {τ ε : Type} {K : SinkCode τ ε} {cfg : Cfg} {S : Source σ} {fuel : Nat} {filter : Option Filter} {s : σ} {k : τ}
    {T : TReader σ τ} (h : openThrowing K cfg S fuel filter s k = .ok T) :
    K.call k (.setProperties T.reader.props) = (.ok (), T.sink) ∧ T.reader.trace = [.setProperties T.reader.props] ∧
      Reachable S T.reader := by
  unfold openThrowing at h
  cases hR : openReader cfg S fuel filter s with
  | error e => rw [hR] at h; cases h
  | ok R =>
    rw [hR] at h
    dsimp only at h
    rcases hc : K.call k (.setProperties R.props) with ⟨(x | u), k'⟩
    · rw [hc] at h; cases h
    · rw [hc] at h
      cases h
      exact ⟨hc, (openReader_spec hR).2.2, .opened _ _ _ _ _ hR⟩

theorem opened_chunk {P : PyCode κ} {cfg : Cfg} {S : Source σ} {fuel : Nat} {filter : Option Filter} {s : σ} {k : κ}
    {size : Nat} {T : TReader σ (PyLive κ)}
    (h : openThrowing (pySinkCode P) cfg S fuel filter s { cpp := .chunk { size := size }, obj := k } = .ok T) :
    ∃ st, ChunkLive T.reader.props.columns size T.sink st true [] [] [] := by
  obtain ⟨h1, -⟩ := opened_sink h
  simp only [pySinkCode, PyLive.chunkCall] at h1
  have hp := python_spec (P := P) { cpp := .chunk { size := size, attr := true }, obj := k } (.setProperties T.reader.props)
  generalize PyLive.python P { cpp := .chunk { size := size, attr := true }, obj := k } (.setProperties T.reader.props) = y at h1 hp
  obtain ⟨(e | u), s1⟩ := y
  · cases h1
  · dsimp only at h1
    have h2 := (Prod.mk.injEq .. ▸ h1).2
    rcases hp with ⟨-, -, hp⟩ | ⟨⟨x, hx⟩, -⟩
    · rw [← h2]
      dsimp only at hp
      have hc : chunks s1.taken = [] := by rw [hp]; rfl
      refine ⟨_, ⟨rfl, chunk_start _ size _ rfl, rfl, rfl, ?_, ?_, by simp, by simp⟩⟩
      · show 0 = nextStart 0 (chunks s1.taken)
        rw [hc]; rfl
      · show ChunksAre _ 0 (chunks s1.taken) []
        rw [hc]; trivial
    · cases hx

/-- The calls the sink has got after those at the start. -/
theorem run_calls {τ ε : Type} (K : SinkCode τ ε) {cfg : Cfg} {S : Source σ} {fuel : Nat} {filter : Option Filter} {s : σ} {k : τ}
    {T : TReader σ τ} (h : openThrowing K cfg S fuel filter s k = .ok T) (ops : List Op) :
    ∃ rest, (T.run K S ops).2.reader.trace = .setProperties T.reader.props :: rest ∧
      (T.run K S ops).2.reader.props = T.reader.props ∧ (T.run K S ops).2.sink = afterCalls K T.sink rest ∧
      ∀ p, Event.setProperties p ∉ rest := by
  obtain ⟨rest, h1, h2, h3, h4, -, -⟩ := C72_protocol K h ops
  refine ⟨rest, h1, h2, ?_, h4⟩
  rw [h3]
  show afterCalls K (K.call k (.setProperties T.reader.props)).2 rest = _
  rw [(opened_sink h).1]

theorem dropLast_cons_mem {e x : Event} {es : List Event} (h : x ∉ (e :: es).dropLast) : x ∉ es.dropLast := by
  cases es with
  | nil => simp
  | cons a es => exact fun hm => h (by rw [List.dropLast_cons₂]; exact List.mem_cons_of_mem _ hm)

theorem chunks_all {P : PyCode κ} {cfg : Cfg} {S : Source σ} {fuel : Nat} {filter : Option Filter} {s : σ} {k : κ}
    {size : Nat} {T : TReader σ (PyLive κ)}
    (h : openThrowing (pySinkCode P) cfg S fuel filter s { cpp := .chunk { size := size }, obj := k } = .ok T) (ops : List Op)
    (hn : ((typed T.reader.props.columns).map Column.name).Nodup)
    (hread : Readable T.reader.props.columns (pushes (T.run (pySinkCode P) S ops).2.reader.trace))
    (hone : .endOfData ∉ (T.run (pySinkCode P) S ops).2.reader.trace.dropLast) :
    ∃ parts rest, parts.flatten ++ rest = pushes (T.run (pySinkCode P) S ops).2.reader.trace ∧
      ChunksAre T.reader.props.columns 0 (chunks (T.run (pySinkCode P) S ops).2.sink.taken) parts ∧
      ∀ q ∈ parts, q ≠ [] ∧ (∀ r ∈ q, InPython T.reader.props.columns r.2) ∧
        ∀ c ∈ typed T.reader.props.columns, utf8Valid c.name = true := by
  obtain ⟨es, h1, -, h3, h4⟩ := run_calls (pySinkCode P) h ops
  obtain ⟨st, hl⟩ := opened_chunk h
  rw [h1] at hread hone ⊢
  rw [h3]
  obtain ⟨st', attr, parts, rest, g, -⟩ := live_run (P := P) hn es hl hread h4 (dropLast_cons_mem hone)
  exact ⟨parts, rest, g.rows, g.chunks, fun q hq => ⟨g.full q hq, g.python q hq⟩⟩

/-- **C73**, partial: chunks. After any history, the rows that were pushed are those of the chunks `push_rows` has taken,
each row once and in order, followed by rows the sink still keeps; a call that raises takes nothing away. The indices of the
chunks are as in C30. Missing: the number of rows of a chunk (`C73_size_refuted`), rows a Python object cannot be made of
(`C73_stuck`), and more than one `end_of_data` (C54). -/
theorem C73_chunks_partial {P : PyCode κ} {cfg : Cfg} {S : Source σ} {fuel : Nat} {filter : Option Filter} {s : σ} {k : κ}
    {size : Nat} {T : TReader σ (PyLive κ)}
    (h : openThrowing (pySinkCode P) cfg S fuel filter s { cpp := .chunk { size := size }, obj := k } = .ok T) (ops : List Op)
    (hn : ((typed T.reader.props.columns).map Column.name).Nodup)
    (hread : Readable T.reader.props.columns (pushes (T.run (pySinkCode P) S ops).2.reader.trace))
    (hone : .endOfData ∉ (T.run (pySinkCode P) S ops).2.reader.trace.dropLast) :
    ∃ parts rest, parts.flatten ++ rest = pushes (T.run (pySinkCode P) S ops).2.reader.trace ∧
      ChunksAre T.reader.props.columns 0 (chunks (T.run (pySinkCode P) S ops).2.sink.taken) parts ∧
      ∀ q ∈ parts, q ≠ [] := by
  obtain ⟨parts, rest, h1, h2, h3⟩ := chunks_all h ops hn hread hone
  exact ⟨parts, rest, h1, h2, fun q hq => (h3 q hq).1⟩

/-- The calls one more operation has made. -/
theorem step_calls {τ ε : Type} (K : SinkCode τ ε) {cfg : Cfg} {S : Source σ} {fuel : Nat} {filter : Option Filter} {s : σ} {k : τ}
    {T : TReader σ τ} (h : openThrowing K cfg S fuel filter s k = .ok T) (ops : List Op) (op : Op) {v : Ret}
    (hv : ((T.run K S ops).2.step K S op).1 = .ok v) (hs : signalsEnd op (.ok v) = true) :
    ∃ rest, ((T.run K S ops).2.step K S op).2.reader.trace = .setProperties T.reader.props :: rest ++ [.endOfData] ∧
      ((T.run K S ops).2.step K S op).2.sink = afterCalls K T.sink (rest ++ [.endOfData]) ∧
      (∀ p, Event.setProperties p ∉ rest) ∧ (K.call (afterCalls K T.sink rest) .endOfData).1 = .ok () := by
  obtain ⟨es, h1, -, h3, h4⟩ := run_calls K h ops
  obtain ⟨ops', -, hr, -⟩ := run_like (K := K) (S := S) ops T
  have hreach : Reachable S (T.run K S ops).2.reader := by
    rw [← hr]
    exact Sas.Reachable.run (opened_sink h).2.2 ops'
  generalize (T.run K S ops).2 = T1 at *
  obtain ⟨g1, new, g2, g3, g4⟩ := step_like (K := K) (S := S) T1 op
  rw [hv] at g1 g4
  obtain ⟨rows, t1, -⟩ := Reader.step_trace (S := S) T1.reader (Sas.Reachable.inv hreach) op
  rw [show T1.reader.step S op = (.ok v, (T1.step K S op).2.reader) from g1, hs] at t1
  dsimp only at t1
  have hnew : new = pushEvents T1.reader.rd.row rows ++ [.endOfData] := by
    rw [g2, List.append_assoc] at t1
    exact List.append_cancel_left t1
  subst hnew
  have hq : Quiet K T1.sink (pushEvents T1.reader.rd.row rows ++ [.endOfData]) := g4
  rw [quiet_append] at hq
  refine ⟨es ++ pushEvents T1.reader.rd.row rows, by rw [g2, h1]; simp, ?_, ?_, ?_⟩
  · rw [g3, h3, List.append_assoc, afterCalls_append T.sink es]
  · intro p hp
    rcases List.mem_append.1 hp with hp | hp
    · exact h4 p hp
    · exact setProperties_notMem_pushEvents _ _ _ hp
  · rw [afterCalls_append, ← h3]
    exact hq.2.1

/-- **C73**, partial: the end. A call that signals the end of the data and returns without an exception: all rows were taken, also
those of chunks the object had refused before. Missing as in `C73_chunks_partial`. -/
theorem C73_end_partial {P : PyCode κ} {cfg : Cfg} {S : Source σ} {fuel : Nat} {filter : Option Filter} {s : σ} {k : κ}
    {size : Nat} {T : TReader σ (PyLive κ)}
    (h : openThrowing (pySinkCode P) cfg S fuel filter s { cpp := .chunk { size := size }, obj := k } = .ok T) (ops : List Op)
    (op : Op) {T' : TReader σ (PyLive κ)} {v : Ret} (hT' : (T.run (pySinkCode P) S ops).2.step (pySinkCode P) S op = (.ok v, T'))
    (hs : signalsEnd op (.ok v) = true)
    (hn : ((typed T.reader.props.columns).map Column.name).Nodup)
    (hread : Readable T.reader.props.columns (pushes T'.reader.trace)) (hone : .endOfData ∉ T'.reader.trace.dropLast) :
    ∃ parts, parts.flatten = pushes T'.reader.trace ∧
      ChunksAre T.reader.props.columns 0 (chunks T'.sink.taken) parts ∧ ∀ q ∈ parts, q ≠ [] := by
  obtain ⟨es, h1, h2, h3, h4⟩ := step_calls (pySinkCode P) h ops op (v := v) (by rw [hT']) hs
  rw [hT'] at h1 h2
  dsimp only at h1 h2
  obtain ⟨st, hl⟩ := opened_chunk h
  rw [h1] at hread hone ⊢
  rw [h2]
  obtain ⟨st', attr, parts, rest, g1, g2⟩ := live_run (P := P) hn (es ++ [.endOfData]) hl
    (by simpa [pushes, pushes_append] using hread) (by simpa using h3) (dropLast_cons_mem (by simpa using hone))
  have := g2 es rfl h4
  subst this
  refine ⟨parts, ?_, g1.chunks, g1.full⟩
  have := g1.rows
  rw [List.append_nil] at this
  rw [this]
  rfl

/-- **C73**: a row that has no Python objects. Neither it nor any row after it is ever handed over, whatever the program does: the
chunks that were taken end before it. -/
theorem C73_stuck {P : PyCode κ} {cfg : Cfg} {S : Source σ} {fuel : Nat} {filter : Option Filter} {s : σ} {k : κ}
    {size : Nat} {T : TReader σ (PyLive κ)}
    (h : openThrowing (pySinkCode P) cfg S fuel filter s { cpp := .chunk { size := size }, obj := k } = .ok T) (ops : List Op)
    (hn : ((typed T.reader.props.columns).map Column.name).Nodup)
    (hread : Readable T.reader.props.columns (pushes (T.run (pySinkCode P) S ops).2.reader.trace))
    (hone : .endOfData ∉ (T.run (pySinkCode P) S ops).2.reader.trace.dropLast) (j : Nat) (r : Nat × Row)
    (hj : (pushes (T.run (pySinkCode P) S ops).2.reader.trace)[j]? = some r) (hbad : ¬ InPython T.reader.props.columns r.2) :
    ∃ parts, parts.flatten <+: pushes (T.run (pySinkCode P) S ops).2.reader.trace ∧
      ChunksAre T.reader.props.columns 0 (chunks (T.run (pySinkCode P) S ops).2.sink.taken) parts ∧
      parts.flatten.length ≤ j := by
  obtain ⟨parts, rest, h1, h2, h3⟩ := chunks_all h ops hn hread hone
  refine ⟨parts, ⟨rest, h1⟩, h2, ?_⟩
  by_contra hlt
  rw [not_le] at hlt
  rw [← h1, List.getElem?_append_left hlt] at hj
  obtain ⟨q, hq, hr⟩ := List.mem_flatten.1 (List.mem_of_getElem? hj)
  exact hbad ((h3 q hq).2.1 r hr)

/-- **C73**: a column whose name is not UTF-8. No chunk is ever handed over, whatever the program does. -/
theorem C73_names {P : PyCode κ} {cfg : Cfg} {S : Source σ} {fuel : Nat} {filter : Option Filter} {s : σ} {k : κ}
    {size : Nat} {T : TReader σ (PyLive κ)}
    (h : openThrowing (pySinkCode P) cfg S fuel filter s { cpp := .chunk { size := size }, obj := k } = .ok T) (ops : List Op)
    (hn : ((typed T.reader.props.columns).map Column.name).Nodup)
    (hread : Readable T.reader.props.columns (pushes (T.run (pySinkCode P) S ops).2.reader.trace))
    (hone : .endOfData ∉ (T.run (pySinkCode P) S ops).2.reader.trace.dropLast)
    (hbad : ∃ c ∈ typed T.reader.props.columns, utf8Valid c.name = false) :
    chunks (T.run (pySinkCode P) S ops).2.sink.taken = [] := by
  obtain ⟨parts, rest, h1, h2, h3⟩ := chunks_all h ops hn hread hone
  cases parts with
  | nil =>
    cases hc : chunks (T.run (pySinkCode P) S ops).2.sink.taken with
    | nil => rfl
    | cons c cs => rw [hc] at h2; exact h2.elim
  | cons q qs =>
    obtain ⟨c, hc, hb⟩ := hbad
    rw [(h3 q List.mem_cons_self).2.2 c hc] at hb
    cases hb

/-- **C73**, partial: whole data. Nothing is handed over before the end. A call that signals the end and returns has handed over all
rows, in one `set_data`; one that ends in an exception of the sink has handed over nothing. Missing: no rows (C32), and more
than one `end_of_data`. -/
theorem C73_data_partial {P : PyCode κ} {cfg : Cfg} {S : Source σ} {fuel : Nat} {filter : Option Filter} {s : σ} {k : κ}
    {T : TReader σ (PyLive κ)}
    (h : openThrowing (pySinkCode P) cfg S fuel filter s { cpp := .data { size := 0 }, obj := k } = .ok T) (ops : List Op)
    (hn : ((typed T.reader.props.columns).map Column.name).Nodup)
    (hread : Readable T.reader.props.columns (pushes (T.run (pySinkCode P) S ops).2.reader.trace))
    (hone : .endOfData ∉ (T.run (pySinkCode P) S ops).2.reader.trace.dropLast)
    (hrows : pushes (T.run (pySinkCode P) S ops).2.reader.trace ≠ []) :
    (datas (T.run (pySinkCode P) S ops).2.sink.taken = [] ∨
      ∃ d, datas (T.run (pySinkCode P) S ops).2.sink.taken = [d] ∧
        Holds T.reader.props.columns (pushes (T.run (pySinkCode P) S ops).2.reader.trace) d) ∧
    ((T.run (pySinkCode P) S ops).2.reader.trace.getLast? = some .endOfData →
      (∀ x, .error (.sink x) ∉ (T.run (pySinkCode P) S ops).1) →
      ∃ d, datas (T.run (pySinkCode P) S ops).2.sink.taken = [d]) := by
  obtain ⟨ops', -, -, es, h1, h3, hq⟩ := run_like (K := pySinkCode P) (S := S) ops T
  obtain ⟨es', h1', -, -, h4⟩ := run_calls (pySinkCode P) h ops
  obtain ⟨hset, htr, -⟩ := opened_sink h
  have hes : es' = es := by rw [h1, htr] at h1'; simpa using h1'.symm
  subst hes
  rw [h1'] at hread hone hrows ⊢
  have hlive : ∃ st, DataLive T.reader.props.columns T.reader.props.md.rowCount T.sink st [] := by
    simp only [pySinkCode, PyLive.dataCall] at hset
    have hp := python_spec (P := P) { cpp := .data { size := T.reader.props.md.rowCount, attr := true }, obj := k }
      (.setProperties T.reader.props)
    generalize PyLive.python P { cpp := .data { size := T.reader.props.md.rowCount, attr := true }, obj := k }
      (.setProperties T.reader.props) = y at hset hp
    obtain ⟨(e | u), s1⟩ := y
    · cases hset
    · dsimp only at hset
      have h2 := (Prod.mk.injEq .. ▸ hset).2
      rcases hp with ⟨-, -, hp⟩ | ⟨⟨x, hx⟩, -⟩
      · rw [← h2]
        dsimp only at hp
        refine ⟨_, ⟨rfl, chunk_start _ _ _ rfl, rfl, ?_⟩⟩
        show datas s1.taken = []
        rw [hp]; rfl
      · cases hx
  obtain ⟨st, hl⟩ := hlive
  have hone' := dropLast_cons_mem hone
  rw [h3]
  by_cases hlast : es'.getLast? = some .endOfData
  · obtain ⟨b, rfl⟩ := List.getLast?_eq_some_iff.1 hlast
    have hpush : pushes (.setProperties T.reader.props :: (b ++ [.endOfData])) = pushes b := by
      rw [show Event.setProperties T.reader.props :: (b ++ [.endOfData]) = [.setProperties T.reader.props] ++ b ++ [.endOfData] by simp,
        pushes_append, pushes_append]
      simp [pushes]
    rw [hpush] at hread hrows ⊢
    obtain ⟨st1, g⟩ := data_pushes (P := P) b hl hread (fun p hp => h4 p (by simp [hp])) (by simpa using hone')
    rw [List.nil_append] at g
    obtain ⟨g1, g2⟩ := data_end (P := P) hn g hrows
    rw [afterCalls_append]
    by_cases hok : ((pySinkCode P).call (afterCalls (pySinkCode P) T.sink b) .endOfData).1 = .ok ()
    · obtain ⟨d, d1, d2, -⟩ := g1 hok
      exact ⟨.inr ⟨d, d1, d2⟩, fun _ _ => ⟨d, d1⟩⟩
    · refine ⟨.inl (g2 hok), fun _ hx => absurd ?_ hok⟩
      have := hq hx
      rw [quiet_append] at this
      exact this.2.1
  · have he2 : Event.endOfData ∉ es' := by
      intro hm
      rcases List.eq_nil_or_concat es' with rfl | ⟨b, x, rfl⟩
      · cases hm
      · simp only [List.concat_eq_append] at *
        rcases List.mem_append.1 hm with hm | hm
        · exact hone' (by simpa using hm)
        · rw [← List.mem_singleton.1 hm] at hlast
          exact hlast (by simp)
    obtain ⟨st1, g⟩ := data_pushes (P := P) es' hl hread h4 he2
    refine ⟨.inl g.none, fun hlast' => absurd ?_ hlast⟩
    cases es' with
    | nil => cases hlast'
    | cons e es => rw [List.getLast?_cons_cons] at hlast'; exact hlast'

/-- **C73**: rows. A row sink has taken, in order, some of the rows that were pushed, each with its values; at most one is missing for
every call of the reader that has ended in an exception of the sink. -/
theorem C73_rows {P : PyCode κ} {cfg : Cfg} {S : Source σ} {fuel : Nat} {filter : Option Filter} {s : σ} {k : κ}
    {T : TReader σ (PyLive κ)}
    (h : openThrowing (pySinkCode P) cfg S fuel filter s { cpp := .row {}, obj := k } = .ok T) (ops : List Op)
    (hread : Readable T.reader.props.columns (pushes (T.run (pySinkCode P) S ops).2.reader.trace)) :
    ∃ kept, List.Sublist kept (pushes (T.run (pySinkCode P) S ops).2.reader.trace) ∧
      RowsAre T.reader.props.columns (rowCalls (T.run (pySinkCode P) S ops).2.sink.taken) kept ∧
      (pushes (T.run (pySinkCode P) S ops).2.reader.trace).length ≤ kept.length + sinkErrors (T.run (pySinkCode P) S ops).1 := by
  obtain ⟨hset, htr, -⟩ := opened_sink h
  have hlive : RowLive T.reader.props.columns T.sink [] := by
    simp only [pySinkCode, PyLive.rowCall] at hset
    have hp := python_spec (P := P) { cpp := .row { attr := true }, obj := k } (.setProperties T.reader.props)
    generalize PyLive.python P { cpp := .row { attr := true }, obj := k } (.setProperties T.reader.props) = y at hset hp
    obtain ⟨(e | u), s1⟩ := y
    · cases hset
    · dsimp only at hset
      have h2 := (Prod.mk.injEq .. ▸ hset).2
      rcases hp with ⟨-, -, hp⟩ | ⟨⟨x, hx⟩, -⟩
      · rw [← h2]
        dsimp only at hp
        refine ⟨⟨true, rfl⟩, ?_⟩
        show RowsAre _ (rowCalls s1.taken) []
        rw [hp]
        exact .nil
      · cases hx
  obtain ⟨es0, t1, -, -, t4⟩ := run_calls (pySinkCode P) h ops
  have hp0 : ∀ es, (T.run (pySinkCode P) S ops).2.reader.trace = T.reader.trace ++ es → ∀ p, Event.setProperties p ∉ es := by
    intro es he
    rw [t1, htr] at he
    simp only [List.cons_append, List.nil_append, List.cons.injEq, true_and] at he
    rw [← he]
    exact t4
  have hT0 : pushes T.reader.trace = [] := by rw [htr]; rfl
  suffices hgen : ∀ (ops : List Op) (T : TReader σ (PyLive κ)) (cols : List Column) (kept : List (Nat × Row)),
      RowLive cols T.sink kept →
      Readable cols (pushes (T.run (pySinkCode P) S ops).2.reader.trace) →
      (∀ es, (T.run (pySinkCode P) S ops).2.reader.trace = T.reader.trace ++ es → ∀ p, Event.setProperties p ∉ es) →
      ∃ new es, (T.run (pySinkCode P) S ops).2.reader.trace = T.reader.trace ++ es ∧ List.Sublist new (pushes es) ∧
        RowsAre cols (rowCalls (T.run (pySinkCode P) S ops).2.sink.taken) (kept ++ new) ∧
        (pushes es).length ≤ new.length + sinkErrors (T.run (pySinkCode P) S ops).1 by
    obtain ⟨new, es, g1, g2, g3, g4⟩ := hgen ops T _ [] hlive hread hp0
    have : pushes (T.run (pySinkCode P) S ops).2.reader.trace = pushes es := by
      rw [g1, pushes_append, hT0]; rfl
    rw [this]
    exact ⟨new, g2, g3, g4⟩
  clear hread hp0 t1 t4 hlive hset htr h ops hT0
  intro ops
  induction ops with
  | nil => intro T cols kept hl _ _; exact ⟨[], [], by simp [TReader.run], by simp, by simpa [TReader.run] using hl.rows, by simp [pushes]⟩
  | cons op ops ih =>
    intro T cols kept hl hread hp
    obtain ⟨es, h1, h2, h3⟩ := C72_call (pySinkCode P) S T op
    -- the calls of `op`
    have one : Readable cols (pushes es) → (∀ p, Event.setProperties p ∉ es) →
        ∃ new, List.Sublist new (pushes es) ∧ RowLive cols (T.step (pySinkCode P) S op).2.sink (kept ++ new) ∧
          (pushes es).length ≤ new.length + sinkErrors [(T.step (pySinkCode P) S op).1] := by
      intro hr hp
      rw [h2]
      have quiet : Quiet (pySinkCode P) T.sink es → ∃ new, List.Sublist new (pushes es) ∧
          RowLive cols (afterCalls (pySinkCode P) T.sink es) (kept ++ new) ∧
          (pushes es).length ≤ new.length + sinkErrors [(T.step (pySinkCode P) S op).1] :=
        fun hq => ⟨pushes es, .refl _, row_quiet es hl hp hr hq, Nat.le_add_right _ _⟩
      match hres : (T.step (pySinkCode P) S op).1, h3 with
      | .ok v, h3 => rw [hres] at quiet; exact quiet h3
      | .error (.reader e), h3 => rw [hres] at quiet; exact quiet h3
      | .error (.sink x), h3 =>
        obtain ⟨b, e, rfl, hq, -⟩ := h3
        rw [pushes_append] at hr ⊢
        have hb := row_quiet b hl (fun p hpb => hp p (by simp [hpb])) (fun c hc y hy => hr c hc y (List.mem_append_left _ hy)) hq
        obtain ⟨new, n1, n2, -⟩ := row_event (P := P) hb e (fun p hpe => hp p (by simp [hpe]))
          (fun c hc y hy => hr c hc y (List.mem_append_right _ hy))
        refine ⟨pushes b ++ new, (List.Sublist.refl _).append n1, ?_, ?_⟩
        · rw [afterCalls_append, ← List.append_assoc]
          exact n2
        · have : (pushes [e]).length ≤ 1 := by cases e <;> simp [pushes]
          have he : sinkErrors [(Except.error (.sink x) : TRes PyStop Ret)] = 1 := rfl
          rw [he]
          simp only [List.length_append]
          omega
    unfold TReader.run at hread hp ⊢
    have go : ∀ (res : TRes PyStop Ret) (T1 : TReader σ (PyLive κ)), T.step (pySinkCode P) S op = (res, T1) →
        Readable cols (pushes (T1.run (pySinkCode P) S ops).2.reader.trace) →
        (∀ es, (T1.run (pySinkCode P) S ops).2.reader.trace = T.reader.trace ++ es → ∀ p, Event.setProperties p ∉ es) →
        ∃ new es, (T1.run (pySinkCode P) S ops).2.reader.trace = T.reader.trace ++ es ∧ List.Sublist new (pushes es) ∧
          RowsAre cols (rowCalls (T1.run (pySinkCode P) S ops).2.sink.taken) (kept ++ new) ∧
          (pushes es).length ≤ new.length + sinkErrors (res :: (T1.run (pySinkCode P) S ops).1) := by
      intro res T1 hst hread hp
      rw [hst] at h1 one
      dsimp only at h1 one
      obtain ⟨ops', -, -, es2, r1, -, -⟩ := run_like (K := pySinkCode P) (S := S) ops T1
      have hall := hp (es ++ es2) (by rw [r1, h1, List.append_assoc])
      obtain ⟨new1, n1, n2, n3⟩ := one (fun c hc y hy => hread c hc y (by rw [r1, h1]; simp [pushes_append, hy]))
        (fun p hpe => hall p (by simp [hpe]))
      obtain ⟨new2, es2', m1, m2, m3, m4⟩ := ih T1 cols (kept ++ new1) n2 hread fun es' he' p hpe => by
        have : es' = es2 := by rw [r1] at he'; exact (List.append_cancel_left he').symm
        subst this
        exact hall p (by simp [hpe])
      have : es2' = es2 := by rw [r1] at m1; exact (List.append_cancel_left m1).symm
      subst this
      refine ⟨new1 ++ new2, es ++ es2', by rw [r1, h1, List.append_assoc], by rw [pushes_append]; exact n1.append m2,
        by rw [← List.append_assoc]; exact m3, ?_⟩
      have hsum : sinkErrors (res :: (T1.run (pySinkCode P) S ops).1) = sinkErrors [res] + sinkErrors (T1.run (pySinkCode P) S ops).1 := by
        unfold sinkErrors
        rw [← List.length_append, ← List.filter_append]
        rfl
      rw [pushes_append, hsum]
      simp only [List.length_append]
      omega
    have stop : ∀ (e : TStop PyStop) (T1 : TReader σ (PyLive κ)), T.step (pySinkCode P) S op = (.error e, T1) →
        Readable cols (pushes T1.reader.trace) →
        (∀ es, T1.reader.trace = T.reader.trace ++ es → ∀ p, Event.setProperties p ∉ es) →
        ∃ new es, T1.reader.trace = T.reader.trace ++ es ∧ List.Sublist new (pushes es) ∧
          RowsAre cols (rowCalls T1.sink.taken) (kept ++ new) ∧
          (pushes es).length ≤ new.length + sinkErrors [(.error e : TRes PyStop Ret)] := by
      intro e T1 hst hread hp
      rw [hst] at h1 one
      dsimp only at h1 one
      obtain ⟨new1, n1, n2, n3⟩ := one (fun c hc y hy => hread c hc y (by rw [h1]; simp [pushes_append, hy])) (hp es h1)
      exact ⟨new1, es, h1, n1, n2.rows, n3⟩
    rcases hst : T.step (pySinkCode P) S op with ⟨((e | x) | v), T1⟩
    · rw [hst] at hread hp
      cases e with
      | exn e => exact go _ T1 hst hread hp
      | terminate => exact stop _ T1 hst hread hp
      | ub => exact stop _ T1 hst hread hp
      | fuel => exact stop _ T1 hst hread hp
    · rw [hst] at hread hp
      exact go _ T1 hst hread hp
    · rw [hst] at hread hp
      exact go _ T1 hst hread hp

/-! ## What does not hold, and cases -/

theorem openThrowing_ok {τ ε : Type} {K : SinkCode τ ε} {cfg : Cfg} {S : Source σ} {fuel : Nat} {filter : Option Filter} {s : σ} {k : τ}
    {R : Reader σ} (h : openReader cfg S fuel filter s = .ok R) (hk : (K.call k (.setProperties R.props)).1 = .ok ()) :
    openThrowing K cfg S fuel filter s k = .ok ⟨R, (K.call k (.setProperties R.props)).2⟩ := by
  unfold openThrowing
  rw [h]
  dsimp only
  rcases hc : K.call k (.setProperties R.props) with ⟨(x | u), k'⟩
  · rw [hc] at hk; cases hk
  · rfl

/-- A Python object whose `push_rows`, `push_row` and `set_data` raise in the calls in which `n` says so. -/
def refuses (n : List Bool) : PyCode (List Bool) where
  call := fun l c => match c with
    | .setProperties _ => (true, l)
    | _ => (!(l.headD false), l.tail)

/-- The demonstration file with some bytes changed, opened for such an object. -/
def refusing (l : List (Nat × Byte)) (cpp : CppSink) (n : List Bool) : TReader IFStream (PyLive (List Bool)) :=
  ⟨Demo.get (patched l), ((pySinkCode (refuses n)).call { cpp := cpp, obj := n } (.setProperties (Demo.get (patched l)).props)).2⟩

theorem refusing_ok {l : List (Nat × Byte)} {cpp : CppSink} {n : List Bool} (h1 : (patched l).isOk = true)
    (h2 : ((pySinkCode (refuses n)).call { cpp := cpp, obj := n } (.setProperties (Demo.get (patched l)).props)).1 = .ok ()) :
    openThrowing (pySinkCode (refuses n)) Demo.cfg ifs 10 none (IFStream.open (l.foldl (fun f x => f.set x.1 x.2) Demo.file))
      { cpp := cpp, obj := n } = .ok (refusing l cpp n) :=
  openThrowing_ok (Demo.get_ok h1) h2

/-- What is checked in the cases: the results of the calls (an exception of the sink is `false`), the indices of the rows that
were pushed, and the indices of the chunks and rows that were taken. -/
def told (l : List (Nat × Byte)) (cpp : CppSink) (n : List Bool) (ops : List Op) :
    List Bool × List Nat × List (Nat × Nat) × List Nat × Nat :=
  let r := (refusing l cpp n).run (pySinkCode (refuses n)) ifs ops
  (r.1.map (fun x => match x with | .ok _ => true | _ => false), (pushes r.2.reader.trace).map Prod.fst,
    (chunks r.2.sink.taken).map (fun c => (c.1, c.2.1)), (rowCalls r.2.sink.taken).map Prod.fst, (datas r.2.sink.taken).length)

/-- C73 is false of the size of the chunks: `chunk_size` is 1 and the object raises in its first call. There are no more chunks until
the end, when it gets one of three rows. -/
theorem C73_size_refuted : ∃ T, openThrowing (pySinkCode (refuses [true])) Demo.cfg ifs 10 none (IFStream.open Demo.file)
      { cpp := .chunk { size := 1 }, obj := [true] } = .ok T ∧
    T = refusing [] (.chunk { size := 1 }) [true] ∧
    told [] (.chunk { size := 1 }) [true] [.readAll, .readAll] = ([false, true], [0, 1, 2], [(0, 2)], [], 0) :=
  ⟨_, refusing_ok (l := []) (by decide +kernel) rfl, rfl, by decide +kernel⟩

/-- The file whose first row has a date before the year 1400 (`earlyReader`). -/
def early : List (Nat × Byte) :=
  [(976, 68), (977, 65), (978, 84), (979, 69), (980, 84), (981, 73), (982, 77), (983, 69), (1114, 8), (1212, 0), (1213, 0), (1214, 0), (1215, 232), (1216, 118), (1217, 72), (1218, 55), (1219, 194)]

/-- C73 is false of rows that have no Python objects: a file with such a row at its start, read in chunks of one row by an object that
never raises. The program gets an exception for every row, and none of the rows. A row sink gets the other two. -/
theorem C73_stuck_refuted : (∃ T, openThrowing (pySinkCode (refuses [])) Demo.cfg ifs 10 none
      (IFStream.open (early.foldl (fun f x => f.set x.1 x.2) Demo.file)) { cpp := .chunk { size := 1 }, obj := [] } = .ok T ∧
      T = refusing early (.chunk { size := 1 }) []) ∧
    told early (.chunk { size := 1 }) [] [.readAll, .readAll] = ([false, false], [0, 1, 2], [], [], 0) ∧
    told early (.row {}) [] [.readAll, .readAll] = ([false, true], [0, 1, 2], [], [1, 2], 0) :=
  ⟨⟨_, refusing_ok (by decide +kernel) rfl, rfl⟩, by decide +kernel, by decide +kernel⟩

/-- The hypotheses of the theorems: an object that raises twice and then takes all rows; the end is signalled once. -/
example : ((typed Demo.reader.props.columns).map Column.name).Nodup ∧
    told [] (.chunk { size := 2 }) [true, true] [.readRow, .readAll] = ([true, false], [0, 1], [], [], 0) ∧
    told [] (.chunk { size := 2 }) [true, false] [.readRow, .readAll, .readRow, .readRow] =
      ([true, false, true, true], [0, 1, 2], [(0, 2)], [], 0) ∧
    Event.endOfData ∉ ((refusing [] (.chunk { size := 2 }) [true, false]).run (pySinkCode (refuses [true, false])) ifs
      [.readRow, .readAll, .readRow, .readRow]).2.reader.trace.dropLast ∧
    told [] (.row {}) [false, true] [.readAll, .readAll] = ([false, true], [0, 1, 2], [], [0, 2], 0) ∧
    told [] (.data { size := 0 }) [true] [.readAll] = ([false], [0, 1, 2], [], [], 0) ∧
    told [] (.data { size := 0 }) [] [.readAll] = ([true], [0, 1, 2], [], [], 1) := by
  refine ⟨by decide +kernel, by decide +kernel, by decide +kernel, by decide +kernel, by decide +kernel, by decide +kernel, by decide +kernel⟩

/-- The hypotheses of `C73_stuck`: the first row of that file. -/
example : ∃ r, (pushes ((refusing early (.chunk { size := 1 }) []).run (pySinkCode (refuses [])) ifs [.readAll]).2.reader.trace)[0]? =
    some r ∧ ¬ InPython (Demo.get (patched early)).props.columns r.2 := by
  obtain ⟨r, hr⟩ : ∃ r, (pushes ((refusing early (.chunk { size := 1 }) []).run (pySinkCode (refuses [])) ifs
      [.readAll]).2.reader.trace)[0]? = some r := Option.isSome_iff_exists.1 (by decide +kernel)
  refine ⟨r, hr, fun h => ?_⟩
  have hv : ((pushes ((refusing early (.chunk { size := 1 }) []).run (pySinkCode (refuses [])) ifs
      [.readAll]).2.reader.trace)[0]?.bind fun r => (typed (Demo.get (patched early)).props.columns).head?.map fun c =>
        decide (c.value r.2.mem = .ok (some (.datetime (at1960 (-100000000000000000)))))) = some true := by decide +kernel
  rw [hr] at hv
  cases hc : (typed (Demo.get (patched early)).props.columns).head? with
  | none => rw [hc] at hv; cases hv
  | some c =>
    rw [hc] at hv
    obtain ⟨x, hx⟩ := h c (List.mem_of_mem_head? hc) _ (of_decide_eq_true (by simpa using hv))
    have : (Cell.toPy (.datetime (at1960 (-100000000000000000)))).isOk = false := by decide +kernel
    rw [hx] at this
    cases this

/-- The hypotheses of `C73_names`: the name of a column is `NÉME` in Latin-1. -/
example : (patched [(969, 201)]).isOk = true ∧ (typed (Demo.get (patched [(969, 201)])).props.columns).any (fun c => !utf8Valid c.name) = true ∧
    told [(969, 201)] (.chunk { size := 1 }) [] [.readAll, .readAll] = ([false, false], [0, 1, 2], [], [], 0) := by
  refine ⟨by decide +kernel, by decide +kernel, by decide +kernel⟩

end Sas.Props
