import Verif.Spec.PyThrowing
import Verif.Proofs.PySinks
import Verif.Proofs.Throwing

/-! # Python sinks whose methods raise -/

namespace Sas
open Spec

variable {κ : Type} {P : PyCode κ}

/-- What a call of Python does to the sink. -/
theorem python_spec (s : PyLive κ) (c : PyCall) :
    ((s.python P c).1 = .ok () ∧ c.args = .ok () ∧ (s.python P c).2.taken = s.taken ++ [c]) ∨
      ((∃ e, (s.python P c).1 = .error e) ∧ (s.python P c).2.taken = s.taken) := by
  unfold PyLive.python
  cases ha : c.args with
  | error e => exact .inr ⟨⟨e, rfl⟩, rfl⟩
  | ok u =>
    dsimp only
    rcases P.call s.obj c with ⟨(- | -), k⟩
    · exact .inr ⟨⟨_, rfl⟩, rfl⟩
    · exact .inl ⟨rfl, rfl, rfl⟩

theorem python_cpp (s : PyLive κ) (c : PyCall) : (s.python P c).2.cpp = s.cpp := by
  unfold PyLive.python
  cases c.args with
  | error e => rfl
  | ok u =>
    dsimp only
    rcases P.call s.obj c with ⟨(- | -), k⟩ <;> rfl

/-- The start index of the chunk after these. -/
def nextStart (start : Nat) (cs : List (Nat × Nat × PyDict)) : Nat :=
  match cs.getLast? with
  | some c => c.2.1 + 1
  | none => start

theorem chunksAre_snoc {cols : List Column} : ∀ {cs : List (Nat × Nat × PyDict)} {qs : List (List (Nat × Row))} {start : Nat},
    ChunksAre cols start cs qs → ∀ {e : Nat} {d : PyDict} {q : List (Nat × Row)},
    q.getLast?.map Prod.fst = some e → Holds cols q d →
    ChunksAre cols start (cs ++ [(nextStart start cs, e, d)]) (qs ++ [q])
  | [], [], start, _, e, d, q, h1, h2 => ⟨rfl, h1, h2, trivial⟩
  | [], _ :: _, _, h, _, _, _, _, _ => h.elim
  | _ :: _, [], _, h, _, _, _, _, _ => h.elim
  | (s, e', d') :: cs, q' :: qs, start, h, e, d, q, h1, h2 => by
    obtain ⟨g1, g2, g3, g4⟩ := h
    refine ⟨g1, g2, g3, ?_⟩
    have := chunksAre_snoc g4 h1 h2
    have hn : nextStart start ((s, e', d') :: cs) = nextStart (e' + 1) cs := by
      cases cs with
      | nil => rfl
      | cons c cs =>
        unfold nextStart
        rw [List.getLast?_cons_cons, List.getLast?_eq_some_getLast (List.cons_ne_nil c cs)]
    rw [hn]
    exact this

/-- Cells that have become Python objects. -/
theorem cellsToPy_mem : ∀ {l : List Cell} {x : List PyVal}, cellsToPy l = .ok x → ∀ v ∈ l, ∃ y, v.toPy = .ok y := by
  intro l
  induction l with
  | nil => simp
  | cons c l ih =>
    intro x h v hv
    unfold cellsToPy at h
    cases hc : c.toPy with
    | error e => rw [hc] at h; cases h
    | ok y =>
      rw [hc] at h
      cases hl : cellsToPy l with
      | error e => rw [hl] at h; cases h
      | ok ys =>
        rcases List.mem_cons.1 hv with rfl | hv
        · exact ⟨y, hc⟩
        · exact ih hl v hv

theorem dictToPy_mem : ∀ {d : PyDict} {x : PyLists}, dictToPy d = .ok x → ∀ {k : List Byte} {vs : List Cell},
    d.lookup k = some vs → ∀ v ∈ vs, ∃ y, v.toPy = .ok y := by
  intro d
  induction d with
  | nil => simp
  | cons a d ih =>
    obtain ⟨k', cs⟩ := a
    intro x h k vs hk v hv
    unfold dictToPy at h
    cases hc : cellsToPy cs with
    | error e => rw [hc] at h; cases h
    | ok y =>
      rw [hc] at h
      cases hl : dictToPy d with
      | error e => rw [hl] at h; cases h
      | ok ys =>
        rw [List.lookup] at hk
        split at hk
        · cases hk
          exact cellsToPy_mem hc v hv
        · exact ih hl hk v hv

theorem dict_inPython {cols : List Column} {q : List (Nat × Row)} {d : PyDict} (h : Holds cols q d) {x : PyLists}
    (hd : dictToPy d = .ok x) : ∀ r ∈ q, InPython cols r.2 := by
  intro r hr c hc v hv
  obtain ⟨vs, h1, h2⟩ := h.1 c hc
  refine dictToPy_mem hd h1 v ?_
  have : c.value r.2.mem ∈ q.map fun r => c.value r.2.mem := List.mem_map.2 ⟨r, hr, rfl⟩
  rw [h2, hv] at this
  obtain ⟨w, hw, hw2⟩ := List.mem_map.1 this
  cases hw2
  exact hw

theorem lookup_mem : ∀ {d : PyDict} {k : List Byte} {vs : List Cell}, d.lookup k = some vs → (k, vs) ∈ d := by
  intro d
  induction d with
  | nil => simp
  | cons a d ih =>
    obtain ⟨k', cs⟩ := a
    intro k vs h
    rw [List.lookup] at h
    split at h
    · rename_i hk
      cases h
      rw [eq_of_beq hk]
      exact List.mem_cons_self
    · exact List.mem_cons_of_mem _ (ih h)

theorem args_dict {cols : List Column} {q : List (Nat × Row)} {d : PyDict} (hd : Holds cols q d)
    (h : (if d.all (fun e => utf8Valid e.1) then (do let _ ← dictToPy d : PyM Unit) else .error .raised)
    = .ok ()) : (∀ r ∈ q, InPython cols r.2) ∧ ∀ c ∈ typed cols, utf8Valid c.name = true := by
  split at h
  · rename_i hall
    cases hx : dictToPy d with
    | error e => rw [hx] at h; cases h
    | ok x =>
      refine ⟨dict_inPython hd hx, fun c hc => ?_⟩
      obtain ⟨vs, h1, -⟩ := hd.1 c hc
      exact List.all_eq_true.1 hall _ (lookup_mem h1)
  · cases h

/-- The state of a chunk sink: the rows it has handed over, in groups, and those it keeps. -/
structure ChunkLive (cols : List Column) (size : Nat) (s : PyLive κ) (st : PyChunk) (attr : Bool) (rows : List (Nat × Row))
    (parts : List (List (Nat × Row))) (rest : List (Nat × Row)) : Prop where
  cpp : s.cpp = .chunk st
  inv : PyInv cols size st rest
  attr : st.attr = attr
  rows : parts.flatten ++ rest = rows
  start : st.istart = nextStart 0 (chunks s.taken)
  chunks : ChunksAre cols 0 (chunks s.taken) parts
  full : ∀ q ∈ parts, q ≠ []
  python : ∀ q ∈ parts, (∀ r ∈ q, InPython cols r.2) ∧ ∀ c ∈ typed cols, utf8Valid c.name = true

theorem live_flush {cols : List Column} (hn : ((typed cols).map Column.name).Nodup) {size : Nat} {s : PyLive κ} {st st0 : PyChunk}
    {attr attr0 : Bool} {rows : List (Nat × Row)} {parts : List (List (Nat × Row))} {rest rows0 rest0 : List (Nat × Row)}
    (h : ChunkLive cols size s st0 attr0 rows0 parts rest0) (hi : PyInv cols size st rest) (ha : st.attr = attr)
    (hr : parts.flatten ++ rest = rows) (hs : st.istart = st0.istart) :
    ∃ st' parts' rest', ChunkLive cols size (s.flush P st).2 st' attr rows parts' rest' ∧
      ((s.flush P st).1 = .ok () → rest' = []) := by
  by_cases hne : rest = []
  · subst hne
    have : s.flush P st = (.ok (), { s with cpp := .chunk st }) := by
      unfold PyLive.flush
      rw [if_neg]
      rw [hi.idata]
      simp
    rw [this]
    exact ⟨st, parts, [], ⟨rfl, hi, ha, hr, by rw [hs]; exact h.start, h.chunks, h.full, h.python⟩, fun _ => rfl⟩
  · obtain ⟨e, d, h1, h2, h3, h4, h5⟩ := hi.flush hn hne
    have hid : st.idata ≠ 0 := by rw [hi.idata]; simpa using hne
    have hed : e = st.iend ∧ d = dictOf st.cols st.vals [] := by
      unfold PyChunk.flush at h1
      rw [if_pos hid] at h1
      simp only [Prod.mk.injEq, List.cons.injEq, PyCall.pushRows.injEq, and_true, true_and] at h1
      exact ⟨h1.1.symm, h1.2.symm⟩
    unfold PyLive.flush
    rw [if_pos hid, ← hed.1, ← hed.2]
    have hp := python_spec (P := P) s (.pushRows st.istart e d)
    generalize s.python P (.pushRows st.istart e d) = y at hp ⊢
    obtain ⟨res, s1⟩ := y
    rcases hp with ⟨hp1, hp2, hp3⟩ | ⟨⟨x, hp1⟩, hp2⟩
    · cases hp1
      dsimp only at hp3 ⊢
      have hc : Spec.chunks s1.taken = Spec.chunks s.taken ++ [(nextStart 0 (Spec.chunks s.taken), e, d)] := by
        rw [hp3, chunks_append, ← h.start, ← hs]
        rfl
      have hx := args_dict h4 hp2
      refine ⟨st.clear, parts ++ [rest], [], ⟨rfl, h2, ha, ?_, ?_, ?_, ?_, ?_⟩, fun _ => rfl⟩
      · rw [← hr]; simp
      · show st.clear.istart = nextStart 0 (Spec.chunks s1.taken)
        rw [hc, h5]
        simp [nextStart]
      · show ChunksAre cols 0 (Spec.chunks s1.taken) _
        rw [hc]
        exact chunksAre_snoc h.chunks h3 h4
      · intro q hq
        rcases List.mem_append.1 hq with hq | hq
        · exact h.full q hq
        · rw [List.mem_singleton.1 hq]; exact hne
      · intro q hq
        rcases List.mem_append.1 hq with hq | hq
        · exact h.python q hq
        · rw [List.mem_singleton.1 hq]; exact hx
    · cases hp1
      dsimp only at hp2 ⊢
      refine ⟨st, parts, rest, ⟨rfl, hi, ha, hr, ?_, ?_, h.full, h.python⟩, fun h => by cases h⟩
      · show st.istart = nextStart 0 (Spec.chunks s1.taken)
        rw [hp2, hs]; exact h.start
      · show ChunksAre cols 0 (Spec.chunks s1.taken) _
        rw [hp2]; exact h.chunks

theorem live_push {cols : List Column} (hn : ((typed cols).map Column.name).Nodup) {size : Nat} {s : PyLive κ} {st : PyChunk}
    {attr : Bool} {rows : List (Nat × Row)} {parts : List (List (Nat × Row))} {rest : List (Nat × Row)}
    (h : ChunkLive cols size s st attr rows parts rest) {i : Nat} {r : Row}
    (hr : ∀ c ∈ typed cols, ∃ v, c.value r.mem = .ok (some v)) :
    ∃ st' parts' rest', ChunkLive cols size ((pySinkCode P).call s (.pushRow i r)).2 st' attr (rows ++ [(i, r)]) parts' rest' := by
  obtain ⟨st1, h1, h2, h3, h4⟩ := h.inv.store (i := i) (r := r) hr
  have hcall : (pySinkCode P).call s (.pushRow i r) = if st1.idata = st1.size then s.flush P st1
      else (.ok (), { s with cpp := .chunk st1 }) := by
    simp only [pySinkCode, h.cpp, PyLive.chunkCall, h1]
  rw [hcall]
  have hrows : parts.flatten ++ (rest ++ [(i, r)]) = rows ++ [(i, r)] := by rw [← h.rows, List.append_assoc]
  split
  · obtain ⟨st', parts', rest', g, -⟩ := live_flush (P := P) hn h h2 (h4.trans h.attr) hrows h3
    exact ⟨st', parts', rest', g⟩
  · exact ⟨st1, parts, rest ++ [(i, r)], rfl, h2, h4.trans h.attr, hrows, h3.trans h.start, h.chunks, h.full, h.python⟩

theorem live_end {cols : List Column} (hn : ((typed cols).map Column.name).Nodup) {size : Nat} {s : PyLive κ} {st : PyChunk}
    {rows : List (Nat × Row)} {parts : List (List (Nat × Row))} {rest : List (Nat × Row)}
    (h : ChunkLive cols size s st true rows parts rest) :
    ∃ st' parts' rest', ChunkLive cols size ((pySinkCode P).call s .endOfData).2 st' false rows parts' rest' ∧
      (((pySinkCode P).call s .endOfData).1 = .ok () → rest' = []) := by
  have hcall : (pySinkCode P).call s .endOfData = s.flush P { st with attr := false } := by
    simp only [pySinkCode, h.cpp, PyLive.chunkCall, h.attr]
    rfl
  rw [hcall]
  exact live_flush hn h (st := { st with attr := false }) ⟨h.inv.size, h.inv.cols, h.inv.stored, h.inv.idata, h.inv.iend⟩ rfl
    h.rows rfl

/-- Rows pushed one after the other. -/
theorem live_pushes {cols : List Column} (hn : ((typed cols).map Column.name).Nodup) {size : Nat} :
    ∀ (es : List Event) {s : PyLive κ} {st : PyChunk} {rows : List (Nat × Row)} {parts : List (List (Nat × Row))}
      {rest : List (Nat × Row)}, ChunkLive cols size s st true rows parts rest → Readable cols (pushes es) →
      (∀ p, Event.setProperties p ∉ es) → .endOfData ∉ es →
      ∃ st' parts' rest', ChunkLive cols size (afterCalls (pySinkCode P) s es) st' true (rows ++ pushes es) parts' rest' := by
  intro es
  induction es with
  | nil => intro s st rows parts rest h _ _ _; exact ⟨st, parts, rest, by simpa [pushes, afterCalls] using h⟩
  | cons e es ih =>
    intro s st rows parts rest h hread hp he
    cases e with
    | setProperties p => exact absurd List.mem_cons_self (hp p)
    | endOfData => exact absurd List.mem_cons_self he
    | pushRow i r =>
      obtain ⟨st1, parts1, rest1, h1⟩ := live_push (P := P) hn h (i := i) (r := r) fun c hc => hread c hc (i, r) (by simp [pushes])
      obtain ⟨st', parts', rest', h2⟩ := ih h1 (fun c hc x hx => hread c hc x (by simp [pushes, hx]))
        (fun p hp' => hp p (List.mem_cons_of_mem _ hp')) (fun h => he (List.mem_cons_of_mem _ h))
      refine ⟨st', parts', rest', ?_⟩
      have : rows ++ pushes (.pushRow i r :: es) = rows ++ [(i, r)] ++ pushes es := by simp [pushes]
      rw [this]
      exact h2

/-- The same with an `end_of_data` at the end. -/
theorem live_run {cols : List Column} (hn : ((typed cols).map Column.name).Nodup) {size : Nat} (es : List Event) {s : PyLive κ}
    {st : PyChunk} (h : ChunkLive cols size s st true [] [] []) (hread : Readable cols (pushes es))
    (hp : ∀ p, Event.setProperties p ∉ es) (he : .endOfData ∉ es.dropLast) :
    ∃ st' attr parts rest, ChunkLive cols size (afterCalls (pySinkCode P) s es) st' attr (pushes es) parts rest ∧
      ∀ before, es = before ++ [.endOfData] →
        ((pySinkCode P).call (afterCalls (pySinkCode P) s before) .endOfData).1 = .ok () → rest = [] := by
  by_cases hl : es.getLast? = some .endOfData
  · obtain ⟨b, rfl⟩ := List.getLast?_eq_some_iff.1 hl
    have hpush : pushes (b ++ [.endOfData]) = pushes b := by rw [pushes_append]; simp [pushes]
    rw [hpush] at hread ⊢
    obtain ⟨st1, parts1, rest1, h1⟩ := live_pushes (P := P) hn b h hread (fun p hp' => hp p (by simp [hp'])) (by simpa using he)
    rw [List.nil_append] at h1
    obtain ⟨st', parts', rest', h2, h3⟩ := live_end (P := P) hn h1
    refine ⟨st', false, parts', rest', ?_, ?_⟩
    · rw [afterCalls_append]
      exact h2
    · intro b' hb
      have := List.append_cancel_right hb
      subst this
      exact h3
  · have he2 : Event.endOfData ∉ es := by
      intro hm
      rcases List.eq_nil_or_concat es with rfl | ⟨b, x, rfl⟩
      · cases hm
      · simp only [List.concat_eq_append] at *
        rcases List.mem_append.1 hm with hm | hm
        · exact he (by simpa using hm)
        · rw [← List.mem_singleton.1 hm] at hl
          exact hl (by simp)
    obtain ⟨st1, parts1, rest1, h1⟩ := live_pushes (P := P) hn es h hread hp he2
    rw [List.nil_append] at h1
    refine ⟨st1, true, parts1, rest1, h1, ?_⟩
    rintro b rfl
    exact absurd (by simp) hl

/-! ## Whole data -/

/-- The state of a whole-data sink before the end: it keeps all rows. -/
structure DataLive (cols : List Column) (size : Nat) (s : PyLive κ) (st : PyChunk) (rows : List (Nat × Row)) : Prop where
  cpp : s.cpp = .data st
  inv : PyInv cols size st rows
  attr : st.attr = true
  none : datas s.taken = []

theorem data_pushes {cols : List Column} {size : Nat} :
    ∀ (es : List Event) {s : PyLive κ} {st : PyChunk} {rows : List (Nat × Row)}, DataLive cols size s st rows →
      Readable cols (pushes es) → (∀ p, Event.setProperties p ∉ es) → .endOfData ∉ es →
      ∃ st', DataLive cols size (afterCalls (pySinkCode P) s es) st' (rows ++ pushes es) := by
  intro es
  induction es with
  | nil => intro s st rows h _ _ _; exact ⟨st, by simpa [pushes, afterCalls] using h⟩
  | cons e es ih =>
    intro s st rows h hread hp he
    cases e with
    | setProperties p => exact absurd List.mem_cons_self (hp p)
    | endOfData => exact absurd List.mem_cons_self he
    | pushRow i r =>
      obtain ⟨st1, h1, h2, h3, h4⟩ := h.inv.store (i := i) (r := r) fun c hc => hread c hc (i, r) (by simp [pushes])
      have hcall : (pySinkCode P).call s (.pushRow i r) = (.ok (), { s with cpp := .data st1 }) := by
        simp only [pySinkCode, h.cpp, PyLive.dataCall, h1]
      have : rows ++ pushes (.pushRow i r :: es) = rows ++ [(i, r)] ++ pushes es := by simp [pushes]
      rw [this]
      show ∃ st', DataLive cols size (afterCalls (pySinkCode P) ((pySinkCode P).call s (.pushRow i r)).2 es) st' _
      rw [hcall]
      exact ih ⟨rfl, h2, h4.trans h.attr, h.none⟩ (fun c hc x hx => hread c hc x (by simp [pushes, hx]))
        (fun p hp' => hp p (List.mem_cons_of_mem _ hp')) (fun h => he (List.mem_cons_of_mem _ h))

theorem data_end {cols : List Column} (hn : ((typed cols).map Column.name).Nodup) {size : Nat} {s : PyLive κ} {st : PyChunk}
    {rows : List (Nat × Row)} (h : DataLive cols size s st rows) (hr : rows ≠ []) :
    (((pySinkCode P).call s .endOfData).1 = .ok () → ∃ d, datas ((pySinkCode P).call s .endOfData).2.taken = [d] ∧
      Holds cols rows d ∧ (∀ r ∈ rows, InPython cols r.2) ∧ ∀ c ∈ typed cols, utf8Valid c.name = true) ∧
    (((pySinkCode P).call s .endOfData).1 ≠ .ok () → datas ((pySinkCode P).call s .endOfData).2.taken = []) := by
  have hid : st.idata ≠ 0 := by rw [h.inv.idata]; simpa using hr
  have hold : Holds cols rows (dictOf st.cols st.vals []) := by
    have := h.inv.stored
    rw [h.inv.cols] at this ⊢
    exact holds_of_stored hn this
  simp only [pySinkCode, h.cpp, PyLive.dataCall, h.attr, if_true, if_pos hid]
  generalize dictOf st.cols st.vals [] = d at hold
  have hp := python_spec (P := P) s (.setData d)
  generalize s.python P (.setData d) = y at hp ⊢
  obtain ⟨res, s1⟩ := y
  rcases hp with ⟨hp1, hp2, hp3⟩ | ⟨⟨x, hp1⟩, hp2⟩
  · cases hp1
    dsimp only at hp3 ⊢
    refine ⟨fun _ => ⟨d, ?_, hold, args_dict hold hp2⟩, fun h => absurd rfl h⟩
    rw [hp3, datas_append, h.none]
    rfl
  · cases hp1
    dsimp only at hp2 ⊢
    exact ⟨fun h => (by cases h), fun _ => (by rw [hp2]; exact h.none)⟩

/-! ## Rows -/

theorem rowCalls_append (a b : List PyCall) : rowCalls (a ++ b) = rowCalls a ++ rowCalls b := by
  induction a with
  | nil => rfl
  | cons x a ih => cases x <;> simp [rowCalls, ih]

/-- The state of a row sink: the rows `kept` were taken. -/
structure RowLive (cols : List Column) (s : PyLive κ) (kept : List (Nat × Row)) : Prop where
  cpp : ∃ attr, s.cpp = .row { attr := attr, columns := cols }
  rows : RowsAre cols (rowCalls s.taken) kept

theorem row_event {cols : List Column} {s : PyLive κ} {kept : List (Nat × Row)} (h : RowLive cols s kept) (e : Event)
    (hp : ∀ p, e ≠ .setProperties p) (hread : Readable cols (pushes [e])) :
    ∃ new, List.Sublist new (pushes [e]) ∧ RowLive cols ((pySinkCode P).call s e).2 (kept ++ new) ∧
      (((pySinkCode P).call s e).1 = .ok () → new = pushes [e]) := by
  obtain ⟨attr, hc⟩ := h.cpp
  cases e with
  | setProperties p => exact absurd rfl (hp p)
  | endOfData =>
    refine ⟨[], by simp [pushes], ⟨?_, ?_⟩, fun _ => rfl⟩
    · simp only [pySinkCode, hc, PyLive.rowCall]
      exact ⟨false, rfl⟩
    · simp only [pySinkCode, hc, PyLive.rowCall, List.append_nil]
      exact h.rows
  | pushRow i r =>
    obtain ⟨l, hl⟩ := rowList_ok cols r.mem fun c hc => hread c hc (i, r) (by simp [pushes])
    simp only [pySinkCode, hc, PyLive.rowCall, hl]
    have hcpp := python_cpp (P := P) s (.pushRow i l)
    rcases python_spec (P := P) s (.pushRow i l) with ⟨hp1, hp2, hp3⟩ | ⟨⟨x, hp1⟩, hp2⟩
    · refine ⟨[(i, r)], by simp [pushes], ⟨⟨attr, hcpp.trans hc⟩, ?_⟩, fun _ => by simp [pushes]⟩
      rw [hp3, rowCalls_append]
      exact List.rel_append h.rows (.cons ⟨rfl, rowList_typed cols r.mem l hl⟩ .nil)
    · refine ⟨[], by simp, ⟨⟨attr, hcpp.trans hc⟩, ?_⟩, fun h => by rw [hp1] at h; cases h⟩
      rw [hp2, List.append_nil]
      exact h.rows

/-- Calls none of which throws: all rows are taken. -/
theorem row_quiet {cols : List Column} : ∀ (es : List Event) {s : PyLive κ} {kept : List (Nat × Row)}, RowLive cols s kept →
    (∀ p, Event.setProperties p ∉ es) → Readable cols (pushes es) → Quiet (pySinkCode P) s es →
    RowLive cols (afterCalls (pySinkCode P) s es) (kept ++ pushes es) := by
  intro es
  induction es with
  | nil => intro s kept h _ _ _; simpa [afterCalls, pushes] using h
  | cons e es ih =>
    intro s kept h hp hread hq
    have hps : pushes (e :: es) = pushes [e] ++ pushes es := pushes_append [e] es
    rw [hps] at hread ⊢
    obtain ⟨new, -, h2, h3⟩ := row_event (P := P) h e (fun p hpe => hp p (by simp [hpe]))
      fun c hc x hx => hread c hc x (List.mem_append_left _ hx)
    rw [h3 hq.1] at h2
    have := ih h2 (fun p hpe => hp p (List.mem_cons_of_mem _ hpe)) (fun c hc x hx => hread c hc x (List.mem_append_right _ hx)) hq.2
    rw [List.append_assoc] at this
    exact this

end Sas
