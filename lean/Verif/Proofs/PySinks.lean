import Verif.Spec.Sinks
import Mathlib.Data.List.Forall2
import Mathlib.Data.List.Nodup

/-! # The Python sinks -/

namespace Sas
open Spec

theorem mem_getColumns {cs : List Column} {t : ColType} {c : Column} :
    c ∈ getColumns cs t ↔ c ∈ cs ∧ c.type = t := by
  induction cs with
  | nil => simp [getColumns]
  | cons a cs ih =>
    unfold getColumns
    split
    · rename_i h
      simp only [List.mem_cons, ih]
      constructor
      · rintro (rfl | ⟨h1, h2⟩)
        · exact ⟨.inl rfl, h⟩
        · exact ⟨.inr h1, h2⟩
      · rintro ⟨rfl | h1, h2⟩
        · exact .inl rfl
        · exact .inr ⟨h1, h2⟩
    · rename_i h
      rw [ih]
      simp only [List.mem_cons]
      constructor
      · rintro ⟨h1, h2⟩; exact ⟨.inr h1, h2⟩
      · rintro ⟨rfl | h1, h2⟩
        · exact absurd h2 h
        · exact ⟨h1, h2⟩

/-- A group reads its columns by the getter of their type. -/
theorem grouped_value {cols : List Column} {g : GroupedColumn} (h : g ∈ (Columns.ofColumns cols).grouped) :
    g.1 ∈ typed cols ∧ ∀ mem, g.1.value mem = (do return some (← g.2 g.1 mem)) := by
  unfold Columns.grouped Columns.ofColumns at h
  simp only [List.mem_append, List.mem_map] at h
  unfold typed
  rcases h with ((((h | h) | h) | h) | h) | h <;> obtain ⟨c, hc, rfl⟩ := h <;> rw [mem_getColumns] at hc <;>
    refine ⟨by simp [hc.1, hc.2], fun mem => ?_⟩ <;> unfold Column.value <;> simp only [hc.2] <;>
    simp only [bind_assoc, pure_bind]

theorem typed_grouped {cols : List Column} {c : Column} (h : c ∈ typed cols) :
    ∃ g ∈ (Columns.ofColumns cols).grouped, g.1 = c := by
  unfold typed at h
  simp only [List.mem_filter, decide_eq_true_eq] at h
  unfold Columns.grouped Columns.ofColumns
  simp only [List.mem_append, List.mem_map]
  cases ht : c.type with
  | unknown => exact absurd ht h.2
  | string => exact ⟨_, .inr ⟨c, mem_getColumns.2 ⟨h.1, ht⟩, rfl⟩, rfl⟩
  | integer => exact ⟨_, .inl (.inl (.inl (.inl (.inr ⟨c, mem_getColumns.2 ⟨h.1, ht⟩, rfl⟩)))), rfl⟩
  | number => exact ⟨_, .inl (.inl (.inl (.inl (.inl ⟨c, mem_getColumns.2 ⟨h.1, ht⟩, rfl⟩)))), rfl⟩
  | datetime => exact ⟨_, .inl (.inl (.inl (.inr ⟨c, mem_getColumns.2 ⟨h.1, ht⟩, rfl⟩))), rfl⟩
  | date => exact ⟨_, .inl (.inl (.inr ⟨c, mem_getColumns.2 ⟨h.1, ht⟩, rfl⟩)), rfl⟩
  | time => exact ⟨_, .inl (.inr ⟨c, mem_getColumns.2 ⟨h.1, ht⟩, rfl⟩), rfl⟩

/-- The getter of a group succeeds where the cell can be read. -/
theorem grouped_read {cols : List Column} {g : GroupedColumn} (h : g ∈ (Columns.ofColumns cols).grouped)
    {mem : List Byte} {v : Cell} (hv : g.1.value mem = .ok (some v)) : g.2 g.1 mem = .ok v := by
  rw [(grouped_value h).2] at hv
  cases hx : g.2 g.1 mem with
  | error e => rw [hx] at hv; simp [bind, Except.bind] at hv
  | ok x =>
    rw [hx] at hv
    simp only [bind, Except.bind, pure, Except.pure, Except.ok.injEq, Option.some.injEq] at hv
    rw [hv]

/-- The vectors hold the values of the rows `rows`. -/
def Stored (rows : List (Nat × Row)) (gs : List GroupedColumn) (vals : List (List Cell)) : Prop :=
  List.Forall₂ (fun g v => rows.map (fun r => g.2 g.1 r.2.mem) = v.map Except.ok) gs vals

theorem stored_nil (gs : List GroupedColumn) : Stored [] gs (gs.map fun _ => []) := by
  induction gs with
  | nil => exact .nil
  | cons g gs ih => exact .cons rfl ih

theorem stored_clear {rows : List (Nat × Row)} {gs : List GroupedColumn} {vals : List (List Cell)}
    (h : Stored rows gs vals) : Stored [] gs (vals.map fun _ => []) := by
  induction h with
  | nil => exact .nil
  | cons _ _ ih => exact .cons rfl ih

theorem pushValues_stored {rows : List (Nat × Row)} {i : Nat} {r : Row} {gs : List GroupedColumn} {vals : List (List Cell)}
    (h : Stored rows gs vals) (hr : ∀ g ∈ gs, ∃ v, g.2 g.1 r.mem = .ok v) :
    ∃ vals', pushValues gs vals r.mem = .ok vals' ∧ Stored (rows ++ [(i, r)]) gs vals' := by
  induction h with
  | nil => exact ⟨[], rfl, .nil⟩
  | @cons g v gs vals h1 h2 ih =>
    obtain ⟨x, hx⟩ := hr g (by simp)
    obtain ⟨vals', h3, h4⟩ := ih fun g hg => hr g (by simp [hg])
    refine ⟨(v ++ [x]) :: vals', ?_, .cons ?_ h4⟩
    · unfold pushValues
      rw [hx, h3]
      rfl
    · simp [h1, hx]

theorem dict_lookup_set (d : PyDict) (k : List Byte) (v : List Cell) (k' : List Byte) :
    (d.set k v).lookup k' = if k' = k then some v else d.lookup k' := by
  induction d with
  | nil =>
    unfold PyDict.set
    simp only [List.lookup]
    by_cases h : k' = k
    · simp [h]
    · simp [h, beq_eq_false_iff_ne.2 h]
  | cons a d ih =>
    obtain ⟨ka, va⟩ := a
    unfold PyDict.set
    split
    · rename_i h
      subst h
      simp only [List.lookup]
      by_cases h : k' = ka
      · simp [h]
      · simp [h, beq_eq_false_iff_ne.2 h]
    · rename_i h
      simp only [List.lookup, ih]
      by_cases h2 : k' = ka
      · subst h2
        simp [h]
      · rw [beq_eq_false_iff_ne.2 h2]

theorem dict_keys_set (d : PyDict) (k : List Byte) (v : List Cell) (k' : List Byte) :
    k' ∈ (d.set k v).map Prod.fst → k' = k ∨ k' ∈ d.map Prod.fst := by
  induction d with
  | nil => unfold PyDict.set; simp
  | cons a d ih =>
    obtain ⟨ka, va⟩ := a
    unfold PyDict.set
    split
    · simp only [List.map_cons, List.mem_cons]
      rintro (h | h)
      · exact .inl h
      · exact .inr (.inr h)
    · simp only [List.map_cons, List.mem_cons]
      rintro (h | h)
      · exact .inr (.inl h)
      · rcases ih h with h | h
        · exact .inl h
        · exact .inr (.inr h)

theorem dictOf_keys {rows : List (Nat × Row)} {gs : List GroupedColumn} {vals : List (List Cell)}
    (h : Stored rows gs vals) : ∀ (d : PyDict) (k : List Byte), k ∈ (dictOf gs vals d).map Prod.fst →
      k ∈ d.map Prod.fst ∨ ∃ g ∈ gs, g.1.name = k := by
  induction h with
  | nil => intro d k hk; exact .inl hk
  | @cons g v gs vals h1 h2 ih =>
    intro d k hk
    unfold dictOf at hk
    rcases ih _ k hk with h | ⟨g', hg, h⟩
    · rcases dict_keys_set _ _ _ _ h with h | h
      · exact .inr ⟨g, by simp, h.symm⟩
      · exact .inl h
    · exact .inr ⟨g', by simp [hg], h⟩

theorem dictOf_other {gs : List GroupedColumn} : ∀ (vals : List (List Cell)) (d : PyDict) (k : List Byte),
    (∀ g ∈ gs, g.1.name ≠ k) → (dictOf gs vals d).lookup k = d.lookup k := by
  induction gs with
  | nil => intro vals d k _; rfl
  | cons g gs ih =>
    intro vals d k h
    cases vals with
    | nil => rfl
    | cons v vals =>
      unfold dictOf
      rw [ih vals _ k fun g' hg => h g' (by simp [hg]), dict_lookup_set, if_neg]
      exact fun h2 => h g (by simp) h2.symm

theorem dictOf_lookup {rows : List (Nat × Row)} {gs : List GroupedColumn} {vals : List (List Cell)}
    (h : Stored rows gs vals) (hn : (gs.map fun g => g.1.name).Nodup) : ∀ (d : PyDict), ∀ g ∈ gs,
      ∃ v, (dictOf gs vals d).lookup g.1.name = some v
        ∧ rows.map (fun r => g.2 g.1 r.2.mem) = v.map Except.ok := by
  induction h with
  | nil => intro d g hg; cases hg
  | @cons g v gs vals h1 h2 ih =>
    intro d g' hg
    simp only [List.map_cons, List.nodup_cons, List.mem_map, not_exists, not_and] at hn
    rcases List.mem_cons.1 hg with rfl | hg
    · refine ⟨v, ?_, h1⟩
      unfold dictOf
      rw [dictOf_other vals _ _ hn.1, dict_lookup_set, if_pos rfl]
    · exact ih hn.2 _ g' hg

/-- Distinct column names give distinct names in the groups. -/
theorem grouped_nodup {cols : List Column} (h : ((typed cols).map Column.name).Nodup) :
    ((Columns.ofColumns cols).grouped.map fun g => g.1.name).Nodup := by
  have hinj : ∀ a ∈ typed cols, ∀ b ∈ typed cols, a.name = b.name → a = b := fun a ha b hb he =>
    List.inj_on_of_nodup_map h ha hb he
  have hsub : ∀ t, t ≠ .unknown → ((getColumns cols t).map Column.name).Nodup := by
    intro t ht
    have : getColumns cols t = (typed cols).filter fun c => c.type = t := by
      unfold typed
      rw [List.filter_filter]
      clear h hinj
      induction cols with
      | nil => rfl
      | cons a cols ih =>
        unfold getColumns
        by_cases h : a.type = t
        · rw [if_pos h, List.filter_cons_of_pos (by simp [h, ht]), ih]
        · rw [if_neg h, List.filter_cons_of_neg (by simp [h]), ih]
    rw [this]
    exact h.sublist (List.filter_sublist.map _)
  have hdisj : ∀ t u, t ≠ .unknown → u ≠ .unknown → t ≠ u →
      List.Disjoint ((getColumns cols t).map Column.name) ((getColumns cols u).map Column.name) := by
    intro t u ht hu htu k hk1 hk2
    obtain ⟨a, ha, rfl⟩ := List.mem_map.1 hk1
    obtain ⟨b, hb, hab⟩ := List.mem_map.1 hk2
    rw [mem_getColumns] at ha hb
    have := hinj b (by unfold typed; simp [hb.1, hb.2, hu]) a (by unfold typed; simp [ha.1, ha.2, ht]) hab
    exact htu (by rw [← ha.2, ← hb.2, this])
  unfold Columns.grouped Columns.ofColumns
  simp only [List.map_append, List.map_map, Function.comp_def]
  simp only [List.nodup_append', List.disjoint_append_left]
  refine ⟨⟨⟨⟨⟨hsub _ (by decide), hsub _ (by decide), ?_⟩, hsub _ (by decide), ?_, ?_⟩, hsub _ (by decide), ?_⟩,
    hsub _ (by decide), ?_⟩, hsub _ (by decide), ?_⟩
  all_goals (repeat' apply And.intro) <;> exact hdisj _ _ (by decide) (by decide) (by decide)

theorem holds_of_stored {cols : List Column} (hn : ((typed cols).map Column.name).Nodup)
    {rows : List (Nat × Row)} {vals : List (List Cell)}
    (h : Stored rows (Columns.ofColumns cols).grouped vals) :
    Holds cols rows (dictOf (Columns.ofColumns cols).grouped vals []) := by
  constructor
  · intro c hc
    obtain ⟨g, hg, rfl⟩ := typed_grouped hc
    obtain ⟨v, h1, h2⟩ := dictOf_lookup h (grouped_nodup hn) [] g hg
    refine ⟨v, h1, ?_⟩
    unfold ColumnValues
    have : rows.map (fun r => g.1.value r.2.mem)
        = (rows.map fun r => g.2 g.1 r.2.mem).map fun x => (do return some (← x)) := by
      rw [List.map_map]
      exact List.map_congr_left fun r _ => (grouped_value hg).2 r.2.mem
    rw [this, h2, List.map_map]
    rfl
  · intro k hk
    rcases dictOf_keys h [] k hk with h | ⟨g, hg, rfl⟩
    · simp at h
    · exact ⟨g.1, (grouped_value hg).1, rfl⟩

/-- The state of a chunk sink that holds the rows `rest`. -/
structure PyInv (cols : List Column) (size : Nat) (st : PyChunk) (rest : List (Nat × Row)) : Prop where
  size : st.size = size
  cols : st.cols = (Columns.ofColumns cols).grouped
  stored : Stored rest st.cols st.vals
  idata : st.idata = rest.length
  iend : ∀ x, rest.getLast? = some x → st.iend = x.1

theorem PyInv.store {cols : List Column} {size : Nat} {st : PyChunk} {rest : List (Nat × Row)}
    (h : PyInv cols size st rest) {i : Nat} {r : Row}
    (hr : ∀ c ∈ typed cols, ∃ v, c.value r.mem = .ok (some v)) :
    ∃ st', st.store i r = .ok st' ∧ PyInv cols size st' (rest ++ [(i, r)]) ∧ st'.istart = st.istart
      ∧ st'.attr = st.attr := by
  obtain ⟨vals', h1, h2⟩ := pushValues_stored (i := i) (r := r) h.stored fun g hg => by
    rw [h.cols] at hg
    obtain ⟨v, hv⟩ := hr g.1 (grouped_value hg).1
    exact ⟨v, grouped_read hg hv⟩
  refine ⟨{ st with vals := vals', iend := i, idata := st.idata + 1 }, ?_, ⟨h.size, h.cols, h2, ?_, ?_⟩, rfl, rfl⟩
  · unfold PyChunk.store
    rw [h1]
    rfl
  · simp [h.idata]
  · intro x hx
    simp only [List.getLast?_append, List.getLast?_singleton, Option.some_or, Option.some.injEq] at hx
    rw [← hx]

theorem PyInv.flush {cols : List Column} (hn : ((typed cols).map Column.name).Nodup) {size : Nat}
    {st : PyChunk} {rest : List (Nat × Row)} (h : PyInv cols size st rest) (hr : rest ≠ []) :
    ∃ e d, st.flush = (st.clear, [.pushRows st.istart e d]) ∧ PyInv cols size st.clear []
      ∧ rest.getLast?.map Prod.fst = some e ∧ Holds cols rest d ∧ st.clear.istart = e + 1 := by
  obtain ⟨x, hx⟩ : ∃ x, rest.getLast? = some x := ⟨_, List.getLast?_eq_some_getLast hr⟩
  refine ⟨st.iend, dictOf st.cols st.vals [], ?_, ⟨h.size, h.cols, stored_clear h.stored, rfl, by simp⟩, ?_, ?_, rfl⟩
  · unfold PyChunk.flush
    rw [if_pos]
    rw [h.idata]
    simpa using hr
  · rw [hx, h.iend x hx]; rfl
  · have := h.stored
    rw [h.cols] at this ⊢
    exact holds_of_stored hn this

theorem PyInv.flush_nil {cols : List Column} {size : Nat} {st : PyChunk} (h : PyInv cols size st []) :
    st.flush = (st, []) := by
  unfold PyChunk.flush
  rw [if_neg]
  rw [h.idata]
  simp

theorem chunks_append (a b : List PyCall) : chunks (a ++ b) = chunks a ++ chunks b := by
  induction a with
  | nil => rfl
  | cons x a ih => cases x <;> simp [chunks, ih]

theorem chunks_del (attr : Bool) : chunks (delCppAttr attr) = [] := by cases attr <;> rfl

theorem runSink_cons {τ : Type} {step : τ → Event → Res (τ × List PyCall)} {st st1 st2 : τ} {ev : Event}
    {evs : List Event} {o1 o2 : List PyCall} (h1 : step st ev = .ok (st1, o1))
    (h2 : runSink step st1 evs = .ok (st2, o2)) : runSink step st (ev :: evs) = .ok (st2, o1 ++ o2) := by
  unfold runSink
  rw [h1]
  show (do let (st, out') ← runSink step st1 evs; return (st, o1 ++ out')) = _
  rw [h2]
  rfl

theorem chunk_run {cols : List Column} (hn : ((typed cols).map Column.name).Nodup) {size : Nat} :
    ∀ (es : List Event) (st : PyChunk) (rest : List (Nat × Row)), PyInv cols size st rest →
      (0 < size → rest.length < size) → Readable cols (pushes es) → (∀ p, Event.setProperties p ∉ es) →
      ∃ st' out parts rest', runSink PyChunk.step st es = .ok (st', out)
        ∧ PyInv cols size st' rest' ∧ parts.flatten ++ rest' = rest ++ pushes es
        ∧ ChunksAre cols st.istart (chunks out) parts
        ∧ (∀ q ∈ parts, q ≠ [] ∧ (0 < size → q.length ≤ size)) ∧ (0 < size → rest'.length < size)
        ∧ (es.getLast? = some .endOfData → rest' = [])
        ∧ (.endOfData ∉ es.dropLast → ∀ q ∈ parts.dropLast, q.length = size)
        ∧ (.endOfData ∉ es → ∀ q ∈ parts, q.length = size) := by
  intro es
  induction es with
  | nil =>
    intro st rest hi hs _ _
    exact ⟨st, [], [], rest, rfl, hi, by simp [pushes], trivial, by simp, hs, by simp, by simp, by simp⟩
  | cons ev es ih =>
    intro st rest hi hs hread hnp
    have hnp' : ∀ p, Event.setProperties p ∉ es := fun p hp => hnp p (by simp [hp])
    cases ev with
    | setProperties p => exact absurd (by simp) (hnp p)
    | pushRow i r =>
      obtain ⟨st1, h1, hi1, hst, -⟩ := hi.store (i := i) (r := r) fun c hc => hread c hc (i, r) (by simp [pushes])
      have hread' : Readable cols (pushes es) := fun c hc x hx => hread c hc x (by simp [pushes, hx])
      have hstep : st.step (.pushRow i r) = .ok (if st1.idata = st1.size then st1.flush else (st1, [])) := by
        simp only [PyChunk.step, h1]
        rfl
      by_cases hf : st1.idata = st1.size
      · rw [if_pos hf] at hstep
        obtain ⟨e, d, h2, hi2, h3, h4, h5⟩ := hi1.flush hn (by simp)
        rw [h2] at hstep
        obtain ⟨st', out, parts, rest', r1, r2, r3, r4, r5, r6, r7, r8, r9⟩ :=
          ih st1.clear [] hi2 (fun h => by simpa using h) hread' hnp'
        have hlen : (rest ++ [(i, r)]).length = size := by rw [← hi1.idata, hf, hi1.size]
        refine ⟨st', _, (rest ++ [(i, r)]) :: parts, rest', runSink_cons hstep r1, r2, ?_, ?_, ?_, r6, ?_, ?_, ?_⟩
        · rw [List.flatten_cons, List.append_assoc, r3]
          simp [pushes]
        · rw [chunks_append]
          refine ⟨hst, h3, h4, ?_⟩
          rw [← h5]
          exact r4
        · intro q hq
          rcases List.mem_cons.1 hq with rfl | hq
          · exact ⟨by simp, fun _ => le_of_eq hlen⟩
          · exact r5 q hq
        · intro hl
          cases es with
          | nil => simp at hl
          | cons e2 es => exact r7 (by simpa using hl)
        · intro hd q hq
          cases parts with
          | nil => simp at hq
          | cons q2 parts =>
            rw [List.dropLast_cons_cons] at hq
            rcases List.mem_cons.1 hq with rfl | hq
            · exact hlen
            · refine r8 ?_ q hq
              cases es with
              | nil => simp
              | cons e2 es => exact fun h => hd (by simp [h])
        · intro hd q hq
          rcases List.mem_cons.1 hq with rfl | hq
          · exact hlen
          · exact r9 (fun h => hd (by simp [h])) q hq
      · rw [if_neg hf] at hstep
        have hlen : 0 < size → (rest ++ [(i, r)]).length < size := by
          intro h0
          have := hs h0
          rw [hi1.idata, hi1.size] at hf
          simp only [List.length_append, List.length_singleton] at *
          omega
        obtain ⟨st', out, parts, rest', r1, r2, r3, r4, r5, r6, r7, r8, r9⟩ :=
          ih st1 _ hi1 hlen hread' hnp'
        refine ⟨st', _, parts, rest', runSink_cons hstep r1, r2, ?_, ?_, r5, r6, ?_, ?_, ?_⟩
        · rw [r3]; simp [pushes]
        · rw [chunks_append, ← hst]; exact r4
        · intro hl
          cases es with
          | nil => simp at hl
          | cons e2 es => exact r7 (by simpa using hl)
        · intro hd
          refine r8 ?_
          cases es with
          | nil => simp
          | cons e2 es => exact fun h => hd (by simp [h])
        · exact fun hd => r9 fun h => hd (by simp [h])
    | endOfData =>
      have hread' : Readable cols (pushes es) := fun c hc x hx => hread c hc x (by simpa [pushes] using hx)
      have hi0 : PyInv cols size { st with attr := false } rest := ⟨hi.size, hi.cols, hi.stored, hi.idata, hi.iend⟩
      by_cases hr : rest = []
      · subst hr
        have hstep : st.step .endOfData = .ok ({ st with attr := false }, delCppAttr st.attr ++ []) := by
          simp only [PyChunk.step, hi0.flush_nil]
        obtain ⟨st', out, parts, rest', r1, r2, r3, r4, r5, r6, r7, r8, r9⟩ := ih _ [] hi0 hs hread' hnp'
        refine ⟨st', _, parts, rest', runSink_cons hstep r1, r2, ?_, ?_, r5, r6, ?_, ?_, ?_⟩
        · rw [r3]; simp [pushes]
        · rw [chunks_append, chunks_append, chunks_del]; exact r4
        · intro hl
          cases es with
          | nil =>
            simp only [pushes, List.append_nil] at r3
            exact (List.append_eq_nil_iff.1 r3).2
          | cons e2 es => exact r7 (by simpa using hl)
        · intro hd
          cases es with
          | nil => exact r8 (by simp)
          | cons e2 es => simp at hd
        · simp
      · obtain ⟨e, d, h2, hi2, h3, h4, h5⟩ := hi0.flush hn hr
        have hstep : st.step .endOfData = .ok (PyChunk.clear { st with attr := false },
            delCppAttr st.attr ++ [.pushRows st.istart e d]) := by
          simp only [PyChunk.step, h2]
        obtain ⟨st', out, parts, rest', r1, r2, r3, r4, r5, r6, r7, r8, r9⟩ :=
          ih _ [] hi2 (fun h => by simpa using h) hread' hnp'
        refine ⟨st', _, rest :: parts, rest', runSink_cons hstep r1, r2, ?_, ?_, ?_, r6, ?_, ?_, ?_⟩
        · rw [List.flatten_cons, List.append_assoc, r3]
          simp [pushes]
        · rw [chunks_append, chunks_append, chunks_del]
          refine ⟨rfl, h3, h4, ?_⟩
          rw [← h5]
          exact r4
        · intro q hq
          rcases List.mem_cons.1 hq with rfl | hq
          · exact ⟨hr, fun h => le_of_lt (hs h)⟩
          · exact r5 q hq
        · intro hl
          cases es with
          | nil =>
            simp only [pushes, List.append_nil] at r3
            exact (List.append_eq_nil_iff.1 r3).2
          | cons e2 es => exact r7 (by simpa using hl)
        · intro hd
          cases es with
          | nil =>
            have : parts = [] := by
              simp only [pushes, List.append_nil] at r3
              by_contra hne
              obtain ⟨q, hq⟩ := List.exists_mem_of_ne_nil _ hne
              have := (List.append_eq_nil_iff.1 r3).1
              rw [List.flatten_eq_nil_iff] at this
              exact (r5 q hq).1 (this q hq)
            subst this
            simp
          | cons e2 es => simp at hd
        · simp

/-! ## Whole data -/

theorem datas_append (a b : List PyCall) : datas (a ++ b) = datas a ++ datas b := by
  induction a with
  | nil => rfl
  | cons x a ih => cases x <;> simp [datas, ih]

theorem datas_del (attr : Bool) : datas (delCppAttr attr) = [] := by cases attr <;> rfl

theorem data_run {cols : List Column} (hn : ((typed cols).map Column.name).Nodup) {size : Nat} :
    ∀ (es : List Event) (st : PyChunk) (rest : List (Nat × Row)), PyInv cols size st rest →
      Readable cols (pushes es) → (∀ p, Event.setProperties p ∉ es) →
      ∃ st' out parts rest', runSink PyChunk.dataStep st es = .ok (st', out)
        ∧ PyInv cols size st' rest' ∧ parts.flatten ++ rest' = rest ++ pushes es
        ∧ List.Forall₂ (fun d q => Holds cols q d ∧ q ≠ []) (datas out) parts
        ∧ (es.getLast? = some .endOfData → rest' = [])
        ∧ (.endOfData ∉ es → parts = []) ∧ (.endOfData ∉ es.dropLast → parts.length ≤ 1) := by
  intro es
  induction es with
  | nil =>
    intro st rest hi _ _
    exact ⟨st, [], [], rest, rfl, hi, by simp [pushes], .nil, by simp, by simp, by simp⟩
  | cons ev es ih =>
    intro st rest hi hread hnp
    have hnp' : ∀ p, Event.setProperties p ∉ es := fun p hp => hnp p (by simp [hp])
    cases ev with
    | setProperties p => exact absurd (by simp) (hnp p)
    | pushRow i r =>
      obtain ⟨st1, h1, hi1, -, -⟩ := hi.store (i := i) (r := r) fun c hc => hread c hc (i, r) (by simp [pushes])
      have hread' : Readable cols (pushes es) := fun c hc x hx => hread c hc x (by simp [pushes, hx])
      have hstep : st.dataStep (.pushRow i r) = .ok (st1, []) := by
        simp only [PyChunk.dataStep, h1]
        rfl
      obtain ⟨st', out, parts, rest', r1, r2, r3, r4, r5, r6, r7⟩ := ih st1 _ hi1 hread' hnp'
      refine ⟨st', _, parts, rest', runSink_cons hstep r1, r2, ?_, r4, ?_, ?_, ?_⟩
      · rw [r3]; simp [pushes]
      · intro hl
        cases es with
        | nil => simp at hl
        | cons e2 es => exact r5 (by simpa using hl)
      · exact fun hd => r6 fun h => hd (by simp [h])
      · intro hd
        refine r7 ?_
        cases es with
        | nil => simp
        | cons e2 es => exact fun h => hd (by simp [h])
    | endOfData =>
      have hread' : Readable cols (pushes es) := fun c hc x hx => hread c hc x (by simpa [pushes] using hx)
      have hi0 : PyInv cols size { st with attr := false } rest := ⟨hi.size, hi.cols, hi.stored, hi.idata, hi.iend⟩
      by_cases hr : rest = []
      · subst hr
        have hstep : st.dataStep .endOfData = .ok ({ st with attr := false }, delCppAttr st.attr) := by
          simp only [PyChunk.dataStep]
          rw [if_neg]
          rw [hi.idata]
          simp
        obtain ⟨st', out, parts, rest', r1, r2, r3, r4, r5, r6, r7⟩ := ih _ [] hi0 hread' hnp'
        refine ⟨st', _, parts, rest', runSink_cons hstep r1, r2, ?_, ?_, ?_, ?_, ?_⟩
        · rw [r3]; simp [pushes]
        · rw [datas_append, datas_del]; exact r4
        · intro hl
          cases es with
          | nil =>
            simp only [pushes, List.append_nil] at r3
            exact (List.append_eq_nil_iff.1 r3).2
          | cons e2 es => exact r5 (by simpa using hl)
        · simp
        · intro hd
          cases es with
          | nil => exact r7 (by simp)
          | cons e2 es => simp at hd
      · obtain ⟨e, d, h2, hi2, h3, h4, h5⟩ := hi0.flush hn hr
        have hstep : st.dataStep .endOfData = .ok (PyChunk.clear { st with attr := false },
            delCppAttr st.attr ++ [.setData (dictOf st.cols st.vals [])]) := by
          simp only [PyChunk.dataStep]
          rw [if_pos]
          rw [hi.idata]
          simpa using hr
        have hd2 : Holds cols rest (dictOf st.cols st.vals []) := by
          have := hi.stored
          rw [hi.cols] at this ⊢
          exact holds_of_stored hn this
        obtain ⟨st', out, parts, rest', r1, r2, r3, r4, r5, r6, r7⟩ := ih _ [] hi2 hread' hnp'
        refine ⟨st', _, rest :: parts, rest', runSink_cons hstep r1, r2, ?_, ?_, ?_, ?_, ?_⟩
        · rw [List.flatten_cons, List.append_assoc, r3]
          simp [pushes]
        · rw [datas_append, datas_append, datas_del]
          exact .cons ⟨hd2, hr⟩ r4
        · intro hl
          cases es with
          | nil =>
            simp only [pushes, List.append_nil] at r3
            exact (List.append_eq_nil_iff.1 r3).2
          | cons e2 es => exact r5 (by simpa using hl)
        · simp
        · intro hd
          cases es with
          | nil =>
            have := r6 (by simp)
            simp [this]
          | cons e2 es => simp at hd

/-! ## Errors -/

theorem attributeErrors_append (a b : List PyCall) :
    attributeErrors (a ++ b) = attributeErrors a + attributeErrors b := by
  induction a with
  | nil => simp [attributeErrors]
  | cons x a ih => cases x <;> simp [attributeErrors, ih]; omega

theorem attributeErrors_del (attr : Bool) : attributeErrors (delCppAttr attr) = if attr then 0 else 1 := by
  cases attr <;> rfl

/-- What the three sinks have in common as far as the attribute is concerned. -/
structure AttrStep {τ : Type} (attr : τ → Bool) (step : τ → Event → Res (τ × List PyCall)) : Prop where
  push : ∀ st i r st' out, step st (.pushRow i r) = .ok (st', out) → attr st' = attr st ∧ attributeErrors out = 0
  ends : ∀ st st' out, step st .endOfData = .ok (st', out) →
    attr st' = false ∧ attributeErrors out = if attr st then 0 else 1
  props : ∀ st p st' out, step st (.setProperties p) = .ok (st', out) → attr st' = true ∧ attributeErrors out = 0

theorem runSink_inv {τ : Type} {step : τ → Event → Res (τ × List PyCall)} {st st2 : τ} {ev : Event}
    {evs : List Event} {o : List PyCall} (h : runSink step st (ev :: evs) = .ok (st2, o)) :
    ∃ st1 o1 o2, step st ev = .ok (st1, o1) ∧ runSink step st1 evs = .ok (st2, o2) ∧ o = o1 ++ o2 := by
  unfold runSink at h
  cases h1 : step st ev with
  | error e => rw [h1] at h; simp [bind, Except.bind] at h
  | ok x =>
    obtain ⟨st1, o1⟩ := x
    rw [h1] at h
    simp only [bind, Except.bind] at h
    cases h2 : runSink step st1 evs with
    | error e => rw [h2] at h; simp at h
    | ok y =>
      obtain ⟨st3, o3⟩ := y
      rw [h2] at h
      simp only [pure, Except.pure, Except.ok.injEq, Prod.mk.injEq] at h
      exact ⟨st1, o1, o3, rfl, by rw [h2, h.1], h.2.symm⟩

theorem AttrStep.run {τ : Type} {attr : τ → Bool} {step : τ → Event → Res (τ × List PyCall)}
    (h : AttrStep attr step) : ∀ (es : List Event) (st st' : τ) (out : List PyCall),
      (∀ p, Event.setProperties p ∉ es) → runSink step st es = .ok (st', out) →
      attributeErrors out = Spec.ends es - (if attr st then 1 else 0) := by
  intro es
  induction es with
  | nil =>
    intro st st' out _ hr
    simp only [runSink, Except.ok.injEq, Prod.mk.injEq] at hr
    rw [← hr.2]
    simp [attributeErrors, Spec.ends]
  | cons ev es ih =>
    intro st st' out hnp hr
    obtain ⟨st1, o1, o2, h1, h2, rfl⟩ := runSink_inv hr
    have hnp' : ∀ p, Event.setProperties p ∉ es := fun p hp => hnp p (by simp [hp])
    rw [attributeErrors_append, ih st1 st' o2 hnp' h2]
    cases ev with
    | setProperties p => exact absurd (by simp) (hnp p)
    | pushRow i r =>
      obtain ⟨g1, g2⟩ := h.push _ _ _ _ _ h1
      rw [g1, g2, Spec.ends]
      simp
    | endOfData =>
      obtain ⟨g1, g2⟩ := h.ends _ _ _ h1
      rw [g1, g2, Spec.ends]
      cases attr st <;> simp <;> omega

theorem row_attr : AttrStep PyRowSink.attr PyRowSink.step where
  push := by
    intro st i r st' out h
    simp only [PyRowSink.step] at h
    cases h1 : rowList st.columns r.mem with
    | error e => rw [h1] at h; simp [bind, Except.bind] at h
    | ok x =>
      rw [h1] at h
      simp only [bind, Except.bind, pure, Except.pure, Except.ok.injEq, Prod.mk.injEq] at h
      rw [← h.1, ← h.2]
      exact ⟨rfl, rfl⟩
  ends := by
    intro st st' out h
    simp only [PyRowSink.step, Except.ok.injEq, Prod.mk.injEq] at h
    rw [← h.1, ← h.2]
    exact ⟨rfl, attributeErrors_del _⟩
  props := by
    intro st p st' out h
    simp only [PyRowSink.step, Except.ok.injEq, Prod.mk.injEq] at h
    rw [← h.1, ← h.2]
    exact ⟨rfl, rfl⟩

theorem store_attr {st st' : PyChunk} {i : Nat} {r : Row} (h : st.store i r = .ok st') : st'.attr = st.attr := by
  unfold PyChunk.store at h
  cases h1 : pushValues st.cols st.vals r.mem with
  | error e => rw [h1] at h; simp [bind, Except.bind] at h
  | ok x =>
    rw [h1] at h
    simp only [bind, Except.bind, pure, Except.pure, Except.ok.injEq] at h
    rw [← h]

theorem flush_attr (st : PyChunk) : st.flush.1.attr = st.attr ∧ attributeErrors st.flush.2 = 0 := by
  unfold PyChunk.flush
  split <;> exact ⟨rfl, rfl⟩

theorem chunk_attr : AttrStep PyChunk.attr PyChunk.step where
  push := by
    intro st i r st' out h
    simp only [PyChunk.step] at h
    cases h1 : st.store i r with
    | error e => rw [h1] at h; simp [bind, Except.bind] at h
    | ok x =>
      rw [h1] at h
      simp only [bind, Except.bind, pure, Except.pure, Except.ok.injEq] at h
      rw [← store_attr h1]
      split at h
      · have := flush_attr x
        rw [h] at this
        exact this
      · simp only [Prod.mk.injEq] at h
        rw [← h.1, ← h.2]
        exact ⟨rfl, rfl⟩
  ends := by
    intro st st' out h
    simp only [PyChunk.step, Except.ok.injEq, Prod.mk.injEq] at h
    have := flush_attr { st with attr := false }
    rw [← h.1, ← h.2, attributeErrors_append, this.2, attributeErrors_del]
    exact ⟨this.1, by simp⟩
  props := by
    intro st p st' out h
    simp only [PyChunk.step, Except.ok.injEq, Prod.mk.injEq] at h
    rw [← h.1, ← h.2]
    exact ⟨rfl, rfl⟩

theorem data_attr : AttrStep PyChunk.attr PyChunk.dataStep where
  push := by
    intro st i r st' out h
    simp only [PyChunk.dataStep] at h
    cases h1 : st.store i r with
    | error e => rw [h1] at h; simp [bind, Except.bind] at h
    | ok x =>
      rw [h1] at h
      simp only [bind, Except.bind, pure, Except.pure, Except.ok.injEq, Prod.mk.injEq] at h
      rw [← h.1, ← h.2, store_attr h1]
      exact ⟨rfl, rfl⟩
  ends := by
    intro st st' out h
    simp only [PyChunk.dataStep] at h
    split at h
    · simp only [Except.ok.injEq, Prod.mk.injEq] at h
      rw [← h.1, ← h.2, attributeErrors_append, attributeErrors_del]
      exact ⟨rfl, by simp [attributeErrors]⟩
    · simp only [Except.ok.injEq, Prod.mk.injEq] at h
      rw [← h.1, ← h.2, attributeErrors_del]
      exact ⟨rfl, rfl⟩
  props := by
    intro st p st' out h
    simp only [PyChunk.dataStep, Except.ok.injEq, Prod.mk.injEq] at h
    rw [← h.1, ← h.2]
    exact ⟨rfl, rfl⟩

/-! ## Rows -/

theorem rowList_typed : ∀ (cols : List Column) (mem : List Byte) (l : List Cell), rowList cols mem = .ok l →
    (typed cols).map (fun c => c.value mem) = l.map fun v => .ok (some v) := by
  intro cols
  induction cols with
  | nil => intro mem l h; simp only [rowList, Except.ok.injEq] at h; subst h; rfl
  | cons c cols ih =>
    intro mem l h
    have hu : c.type = .unknown → c.value mem = .ok none := by
      intro h; unfold Column.value; rw [h]
    have hk : c.type ≠ .unknown → c.value mem ≠ .ok none := by
      intro h h2
      unfold Column.value at h2
      cases ht : c.type <;> rw [ht] at h2 <;> simp only at h2
      case unknown => exact h ht
      case string => cases hx : c.getString mem <;> rw [hx] at h2 <;> simp [bind, Except.bind, pure, Except.pure] at h2
      case integer => cases hx : c.getInteger mem <;> rw [hx] at h2 <;> simp [bind, Except.bind, pure, Except.pure] at h2
      case number => cases hx : c.getNumber mem <;> rw [hx] at h2 <;> simp [bind, Except.bind, pure, Except.pure] at h2
      case datetime => cases hx : c.getDatetime mem <;> rw [hx] at h2 <;> simp [bind, Except.bind, pure, Except.pure] at h2
      case date => cases hx : c.getDate mem <;> rw [hx] at h2 <;> simp [bind, Except.bind, pure, Except.pure] at h2
      case time => cases hx : c.getTime mem <;> rw [hx] at h2 <;> simp [bind, Except.bind, pure, Except.pure] at h2
    unfold rowList at h
    cases hv : c.value mem with
    | error e => rw [hv] at h; simp [bind, Except.bind] at h
    | ok o =>
      rw [hv] at h
      cases o with
      | none =>
        simp only [bind, Except.bind] at h
        have ht : c.type = .unknown := by by_contra hne; exact hk hne hv
        have e : typed (c :: cols) = typed cols := by
          unfold typed; rw [List.filter_cons_of_neg (by simp [ht])]
        rw [e]
        exact ih mem l h
      | some v =>
        have ht : c.type ≠ .unknown := by intro h1; rw [hu h1] at hv; simp at hv
        have e : typed (c :: cols) = c :: typed cols := by
          unfold typed; rw [List.filter_cons_of_pos (by simp [ht])]
        simp only [bind, Except.bind] at h
        cases hl : rowList cols mem with
        | error e => rw [hl] at h; simp at h
        | ok l' =>
          rw [hl] at h
          simp only [pure, Except.pure, Except.ok.injEq] at h
          subst h
          rw [e, List.map_cons, List.map_cons, hv, ih mem l' hl]

theorem rowList_ok : ∀ (cols : List Column) (mem : List Byte),
    (∀ c ∈ typed cols, ∃ v, c.value mem = .ok (some v)) → ∃ l, rowList cols mem = .ok l := by
  intro cols
  induction cols with
  | nil => intro mem _; exact ⟨[], rfl⟩
  | cons c cols ih =>
    intro mem h
    by_cases ht : c.type = .unknown
    · have e : typed (c :: cols) = typed cols := by
        unfold typed; rw [List.filter_cons_of_neg (by simp [ht])]
      rw [e] at h
      obtain ⟨l, hl⟩ := ih mem h
      have hu : c.value mem = .ok none := by unfold Column.value; rw [ht]
      refine ⟨l, ?_⟩
      unfold rowList
      rw [hu]
      exact hl
    · have e : typed (c :: cols) = c :: typed cols := by
        unfold typed; rw [List.filter_cons_of_pos (by simp [ht])]
      rw [e] at h
      obtain ⟨v, hv⟩ := h c (by simp)
      obtain ⟨l, hl⟩ := ih mem fun c' hc => h c' (by simp [hc])
      refine ⟨v :: l, ?_⟩
      unfold rowList
      rw [hv]
      simp only [bind, Except.bind, hl]
      rfl

end Sas
