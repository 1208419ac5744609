import Verif.Model.RReuse
import Verif.Props.RFront

/-!
# C84: R sinks that are used for several files
-/

namespace Sas.Props
open Sas Sas.Spec

variable {unique : List (List Byte) → List (List Byte)} {mix : List RVal → List RVal → List RVal}

/-! ## Whole data -/

/-- What has become of a sink object `old` when a new one would be `new` now, for whole data. -/
def rOver (old new : RObj) : RObj := { new with df := if new.df = .null then old.df else new.df }

theorem told_over (old o : RObj) (ev : Event) : (rOver old o).told ev = (rOver old ·) <$> o.told ev := by
  cases ev with
  | setProperties p =>
    simp only [RObj.told]
    cases PyM.ofRes (wrapProperties p) with
    | error e => rfl
    | ok l =>
      simp only [bind, Except.bind, RObj.setProperties, rOver]
      cases rDollar (RList.dollar l (ascii "metadata")) with
      | error e => rfl
      | ok m =>
        simp only
        obtain ⟨kind, pr, co, df⟩ := o
        cases kind with
        | row => cases rExtent m <;> rfl
        | chunk n => rfl
        | data => rfl
  | pushRow i r => rfl
  | endOfData => rfl

theorem event_over {old o : RObj} {st : RCols} {ev : Event} {k : RSink}
    (h : (RSink.mk o (.data st)).event unique ev = .ok k) :
    ∃ st', k.cpp = .data st' ∧ (RSink.mk (rOver old o) (.data st)).eventInto unique mix ev =
      .ok (RSink.mk (rOver old k.obj) (.data st')) := by
  unfold RSink.event at h
  unfold RSink.eventInto
  simp only at h ⊢
  rw [told_over]
  cases h1 : o.told ev with
  | error e => rw [h1] at h; cases h
  | ok o1 =>
    rw [h1] at h
    simp only [bind, Except.bind, Functor.map, Except.map] at h ⊢
    cases h2 : PyM.ofRes (st.dataStep ev) with
    | error e => rw [h2] at h; cases h
    | ok x =>
      obtain ⟨st', out⟩ := x
      rw [h2] at h
      simp only at h ⊢
      cases h
      refine ⟨st', rfl, ?_⟩
      cases delivers out <;> rfl

theorem events_over {old : RObj} : ∀ (evs : List Event) {o : RObj} {st : RCols} {k : RSink},
    (RSink.mk o (.data st)).events unique evs = .ok k →
    ∃ st', k.cpp = .data st' ∧ (RSink.mk (rOver old o) (.data st)).eventsInto unique mix evs =
      .ok (RSink.mk (rOver old k.obj) (.data st')) := by
  intro evs
  induction evs with
  | nil => intro o st k h; cases h; exact ⟨st, rfl, rfl⟩
  | cons ev evs ih =>
    intro o st k h
    rw [RSink.events] at h
    cases h1 : (RSink.mk o (.data st)).event unique ev with
    | error e => rw [h1] at h; cases h
    | ok k1 =>
      rw [h1] at h
      obtain ⟨st1, c1, e1⟩ := event_over (old := old) (mix := mix) h1
      obtain ⟨o1, c⟩ := k1
      cases c1
      obtain ⟨st', c2, e2⟩ := ih h
      exact ⟨st', c2, by rw [RSink.eventsInto, e1]; exact e2⟩

theorem ops_over {old : RObj} : ∀ (ops : List Op) {s s' : RSession IFStream} {st : RCols}, s.sink.cpp = .data st →
    s.ops unique ifs ops = .ok s' →
    ∃ st', s'.sink.cpp = .data st' ∧ (RSession.mk s.reader (RSink.mk (rOver old s.sink.obj) (.data st))).opsInto unique mix ifs ops =
      .ok ⟨s'.reader, RSink.mk (rOver old s'.sink.obj) (.data st')⟩ := by
  intro ops
  induction ops with
  | nil => intro s s' st hc h; cases h; exact ⟨st, hc, rfl⟩
  | cons op ops ih =>
    intro s s' st hc h
    rw [RSession.ops] at h
    cases h1 : s.op unique ifs op with
    | error e => rw [h1] at h; cases h
    | ok s1 =>
      rw [h1] at h
      replace h : s1.ops unique ifs ops = .ok s' := h
      unfold RSession.op at h1
      obtain ⟨R, k⟩ := s
      obtain ⟨o, c⟩ := k
      cases hc
      rw [RSession.opsInto]
      unfold RSession.opInto
      simp only at h1 ⊢
      generalize R.step ifs op = x at h1 ⊢
      obtain ⟨r, R1⟩ := x
      simp only [bind, Except.bind] at h1 ⊢
      cases h2 : (RSink.mk o (.data st)).events unique (R1.trace.drop R.trace.length) with
      | error e => rw [h2] at h1; cases h1
      | ok k1 =>
        rw [h2] at h1
        obtain ⟨st1, c1, e1⟩ := events_over (old := old) (mix := mix) _ h2
        rw [e1]
        simp only at h1 ⊢
        cases r with
        | error e => cases h1
        | ok v =>
          cases h1
          exact ih c1 h

theorem program_over {cfg : Cfg} {fuel : Nat} {fs : FileSystem} {name : List Byte} {incl excl : RArg} {ops : List Op}
    {s : RSession IFStream} (old : RObj) (hk : old.kind = .data)
    (h : rProgram unique cfg fuel fs name .data incl excl ops = .ok s) :
    ∃ s', rProgramInto unique mix cfg fuel fs name old incl excl ops = .ok s' ∧ s'.reader = s.reader ∧
      s'.sink.obj = rOver old s.sink.obj ∧ s'.sink.cpp = s.sink.cpp := by
  unfold rProgram at h
  cases h1 : rOpen unique cfg fuel fs name .data incl excl with
  | error e => rw [h1] at h; cases h
  | ok s0 =>
    rw [h1] at h
    replace h : s0.ops unique ifs ops = .ok s := h
    obtain ⟨f, src, o1, o2, o3, o4⟩ := rOpen_inv h1
    have ht := (r_opened (unique := unique) (kind := .data) o1 o2 o3).1
    have hget : ∃ st, s0.sink.cpp = .data st ∧ (RSink.around old).eventsInto unique mix s0.reader.trace =
        .ok (RSink.mk (rOver old s0.sink.obj) (.data st)) := by
      rw [ht] at o4 ⊢
      simp only [RSink.events, bind, Except.bind] at o4
      cases h2 : (RSink.new .data).event unique (.setProperties s0.reader.props) with
      | error e => rw [h2] at o4; cases o4
      | ok k =>
        rw [h2] at o4
        cases o4
        simp only [RSink.eventsInto, bind, Except.bind]
        unfold RSink.event at h2
        unfold RSink.eventInto RSink.around
        rw [hk]
        simp only [RSink.new, RObj.told] at h2 ⊢
        cases h3 : PyM.ofRes (wrapProperties s0.reader.props) with
        | error e => rw [h3] at h2; cases h2
        | ok l =>
          rw [h3] at h2
          simp only [bind, Except.bind, RObj.setProperties] at h2 ⊢
          rw [hk]
          cases h4 : rDollar (RList.dollar l (ascii "metadata")) with
          | error e => rw [h4] at h2; cases h2
          | ok m =>
            rw [h4] at h2
            simp only [RCols.dataStep, PyM.ofRes] at h2 ⊢
            have h2 := Except.ok.inj h2
            rw [← h2]
            refine ⟨_, rfl, ?_⟩
            obtain ⟨kind, pr, co, df⟩ := old
            cases hk
            rfl
    obtain ⟨st, c1, e1⟩ := hget
    obtain ⟨st', c2, e2⟩ := ops_over (old := old) (mix := mix) ops c1 h
    refine ⟨⟨s.reader, RSink.mk (rOver old s.sink.obj) (.data st')⟩, ?_, rfl, rfl, c2.symm⟩
    unfold rProgramInto rOpenInto
    rw [o1, o2]
    simp only [bind, Except.bind, PyM.ofRes]
    rw [o3]
    simp only
    rw [e1]
    exact e2

/-- C84, partial. A file with rows that is read into a used `SinkWholeData` of the R package: `df` is what a new sink has. -/
theorem C84_r_whole_partial {cfg : Cfg} {fuel : Nat} {fs : FileSystem} {name : List Byte} {incl excl : RArg} {ops : List Op}
    {s : RSession IFStream} {t : RTable} (old : RObj) (hk : old.kind = .data)
    (h : rProgram unique cfg fuel fs name .data incl excl ops = .ok s) (hd : s.sink.df = some t) :
    ∃ s', rProgramInto unique mix cfg fuel fs name old incl excl ops = .ok s' ∧ s'.sink.df = some t := by
  obtain ⟨s', h1, -, h2, h3⟩ := program_over (mix := mix) old hk h
  refine ⟨s', h1, ?_⟩
  have hn : s.sink.obj.df ≠ .null := by
    intro hn
    unfold RSink.df at hd
    rw [hn] at hd
    cases hc : s.sink.cpp <;> rw [hc] at hd <;> cases hd
  unfold RSink.df at hd ⊢
  rw [h2, h3, rOver, if_neg hn]
  exact hd

/-- C84 is false of `SinkWholeData` in R and a file without rows: `df` stays the one of the earlier file. -/
theorem C84_r_empty_refuted {cfg : Cfg} {fuel : Nat} {fs : FileSystem} {name : List Byte} {incl excl : RArg} {ops : List Op}
    {s : RSession IFStream} {t : RTable} (old : RObj) (hk : old.kind = .data) (ht : old.df = .own t)
    (h : rProgram unique cfg fuel fs name .data incl excl ops = .ok s) (hd : s.sink.df = none) :
    ∃ s', rProgramInto unique mix cfg fuel fs name old incl excl ops = .ok s' ∧ s'.sink.df = some t := by
  obtain ⟨s', h1, -, h2, h3⟩ := program_over (mix := mix) old hk h
  refine ⟨s', h1, ?_⟩
  have hn : s.sink.obj.df = .null := by
    unfold RSink.df at hd
    cases hx : s.sink.obj.df with
    | null => rfl
    | _ => rw [hx] at hd; cases hc : s.sink.cpp <;> rw [hc] at hd <;> cases hd
  unfold RSink.df
  rw [h2, rOver, if_pos hn, ht]
  cases s'.sink.cpp <;> rfl

/-! ## Chunks -/

/-- The values a vector for a column of this type has in R. -/
def RClass (t : ColType) (x : RVal) : Prop :=
  match t with
  | .number => ∃ n, x = .num n
  | .integer => ∃ i, x = .int i
  | _ => x = .na ∨ ∃ s, x = .str s

theorem value_class {c : Column} {mem : List Byte} {v : Cell} {x : RVal} (h : c.value mem = .ok (some v))
    (hx : RShows v x) : RClass c.type x := by
  have date : ∀ {p q : Prop} {f : Res (List Byte)}, (p ∧ x = .na) ∨ (q ∧ ∃ s, f = .ok s ∧ x = .str s) → x = .na ∨ ∃ s, x = .str s := by
    rintro p q f (⟨-, h⟩ | ⟨-, s, -, h⟩)
    · exact .inl h
    · exact .inr ⟨s, h⟩
  unfold Column.value at h
  unfold RClass
  cases ht : c.type with
  | string =>
    rw [ht] at h
    cases hg : c.getString mem with
    | error e => simp only [hg, bind, Except.bind] at h; cases h
    | ok y => simp only [hg, bind, Except.bind] at h; cases h; exact .inr ⟨_, hx⟩
  | integer =>
    rw [ht] at h
    cases hg : c.getInteger mem with
    | error e => simp only [hg, bind, Except.bind] at h; cases h
    | ok y => simp only [hg, bind, Except.bind] at h; cases h; exact ⟨_, hx⟩
  | number =>
    rw [ht] at h
    cases hg : c.getNumber mem with
    | error e => simp only [hg, bind, Except.bind] at h; cases h
    | ok y => simp only [hg, bind, Except.bind] at h; cases h; exact ⟨_, hx⟩
  | datetime =>
    rw [ht] at h
    cases hg : c.getDatetime mem with
    | error e => simp only [hg, bind, Except.bind] at h; cases h
    | ok y => simp only [hg, bind, Except.bind] at h; cases h; exact date hx
  | date =>
    rw [ht] at h
    cases hg : c.getDate mem with
    | error e => simp only [hg, bind, Except.bind] at h; cases h
    | ok y => simp only [hg, bind, Except.bind] at h; cases h; exact date hx
  | time =>
    rw [ht] at h
    cases hg : c.getTime mem with
    | error e => simp only [hg, bind, Except.bind] at h; cases h
    | ok y => simp only [hg, bind, Except.bind] at h; cases h; exact date hx
  | unknown => rw [ht] at h; cases h

/-- The vectors are what R has for columns of these types. -/
def RClasses (cs : List Column) (ls : List (List RVal)) : Prop :=
  List.Forall₂ (fun c l => ∀ x ∈ l, RClass c.type x) cs ls

theorem vectors_class {cols : List Column} {rows : List (Nat × Row)} {ls : List (List RVal)} (h : RVectors cols rows ls) :
    RClasses (byType cols) ls := by
  refine List.Forall₂.imp ?_ h
  clear h
  intro c l hl x hx
  induction hl with
  | nil => cases hx
  | cons k _ ih =>
    rcases List.mem_cons.mp hx with rfl | hx
    · obtain ⟨v, k1, k2⟩ := k
      exact value_class k1 k2
    · exact ih hx

theorem concat_class {t : ColType} {a b : List RVal} (ha : ∀ x ∈ a, RClass t x) (hb : ∀ x ∈ b, RClass t x) :
    rConcat mix a b = a ++ b := by
  have hall : ∀ x ∈ a ++ b, RClass t x := fun x hx => (List.mem_append.mp hx).elim (ha x) (hb x)
  unfold rConcat
  refine if_pos ?_
  have text : (∀ x ∈ a ++ b, x = .na ∨ ∃ s, x = .str s) → (a ++ b).all RVal.isText = true := by
    intro h
    rw [List.all_eq_true]
    intro x hx
    rcases h x hx with rfl | ⟨s, rfl⟩ <;> rfl
  cases t with
  | number =>
    refine .inr (.inr ?_)
    rw [List.all_eq_true]
    intro x hx
    obtain ⟨n, rfl⟩ := hall x hx
    rfl
  | integer =>
    refine .inr (.inl ?_)
    rw [List.all_eq_true]
    intro x hx
    obtain ⟨n, rfl⟩ := hall x hx
    rfl
  | _ => exact .inl (text hall)

theorem bind_frames {cs : List Column} {t u : RTable} (hn : t.map Prod.fst = u.map Prod.fst)
    (ht : RClasses cs (t.map Prod.snd)) (hu : RClasses cs (u.map Prod.snd)) : rBindFrames mix t u = .ok (rBind t u) := by
  have hl : t.length = u.length := by simpa using congrArg List.length hn
  unfold rBindFrames
  by_cases h1 : t = []
  · subst h1
    have : u = [] := List.length_eq_zero_iff.mp hl.symm
    subst this
    rfl
  · rw [if_neg h1]
    have h2 : u ≠ [] := by
      rintro rfl
      exact h1 (List.length_eq_zero_iff.mp hl)
    rw [if_neg h2, if_neg (fun h => h hl), if_pos hn]
    congr 1
    unfold rBind
    clear hn h1 h2
    unfold RClasses at ht hu
    induction t generalizing u cs with
    | nil => rfl
    | cons x t ih =>
      cases u with
      | nil => cases hl
      | cons y u =>
        cases ht with
        | cons a1 a2 => cases hu with
          | cons b1 b2 =>
            rw [List.zipWith_cons_cons, List.zipWith_cons_cons, concat_class a1 b1, ih a2 b2 (by simpa using hl)]

theorem rBind_assoc (a b c : RTable) : rBind (rBind a b) c = rBind a (rBind b c) := by
  unfold rBind
  induction a generalizing b c with
  | nil => rfl
  | cons x a ih =>
    cases b with
    | nil => rfl
    | cons y b =>
      cases c with
      | nil => rfl
      | cons z c => simp only [List.zipWith_cons_cons, List.append_assoc, ih]

theorem rBind_names {a b : RTable} (h : a.length = b.length) : (rBind a b).map Prod.fst = a.map Prod.fst := by
  unfold rBind
  induction a generalizing b with
  | nil => rfl
  | cons x a ih =>
    cases b with
    | nil => cases h
    | cons y b => simp only [List.zipWith_cons_cons, List.map_cons, ih (b := b) (by simpa using h)]

theorem rBind_class {cs : List Column} {a b : RTable} (ha : RClasses cs (a.map Prod.snd)) (hb : RClasses cs (b.map Prod.snd)) :
    RClasses cs ((rBind a b).map Prod.snd) := by
  unfold rBind
  unfold RClasses at *
  induction a generalizing b cs with
  | nil => exact ha
  | cons x a ih =>
    cases b with
    | nil => cases hb; cases ha
    | cons y b =>
      cases ha with
      | cons a1 a2 => cases hb with
        | cons b1 b2 =>
          refine .cons ?_ (ih a2 b2)
          intro z hz
          exact (List.mem_append.mp hz).elim (a1 z) (b1 z)

/-- The frame of a used sink by chunks: behind the rows of the table `t` there are the rows `done`; the rows `rest` are
waiting. -/
structure RUsed (unique : List (List Byte) → List (List Byte)) (cols : List Column) (size ilast : Nat) (t : RTable) (o : RObj)
    (st : RCols) (done rest : List (Nat × Row)) : Prop where
  inv : RInv cols size ilast st rest
  last : ∀ x, rest.getLast? = some x → st.iend = x.1
  few : 0 < size → rest.length < size
  start : ∀ i, (∀ x ∈ done ++ rest, x.1 < i) → st.istart ≤ i
  df : ∃ u, o.df = .own (rBind t u) ∧ TableHolds (frameNames unique cols) cols done u

theorem pushRows_used {cols : List Column} {size ilast : Nat} {o : RObj} {st s2 : RCols} {done rest : List (Nat × Row)}
    {t : RTable} (hN : (frameNames unique cols).length = (byType cols).length)
    (htn : t.map Prod.fst = frameNames unique cols) (htc : RClasses (byType cols) (t.map Prod.snd))
    (hc : st.cols = (Columns.ofColumns cols).grouped) (hi : RInv cols size ilast st rest)
    (h2 : s2.cols = st.cols) (h3 : s2.list = st.setValues.list) (h4 : ∃ k, s2.heap = st.setValues.heap ++ k)
    (hdf : ∃ u, o.df = .own (rBind t u) ∧ TableHolds (frameNames unique cols) cols done u) :
    ∃ u, o.pushRowsInto unique mix s2 = .ok { o with df := .own (rBind t u) } ∧
      TableHolds (frameNames unique cols) cols (done ++ rest) u := by
  obtain ⟨⟨k1, v1⟩, v2, v3, v4⟩ := setValues_list hi
  obtain ⟨k, h4⟩ := h4
  obtain ⟨u, d1, d2⟩ := hdf
  have hvec : RVectors cols rest (st.setValues.list.map s2.heap.get) := by
    rw [map_get_eq (h := st.setValues.heap)]
    · exact setValues_vectors hi
    · intro v hv
      rw [h4]
      exact RHeap.get_append (v4 v hv)
  have hnames : rFrameNames unique (s2.cols.map fun g => cString g.1.name) = frameNames unique cols := by
    rw [h2, grouped_names hc]
    rfl
  have hlen : t.length = u.length := by
    have a := congrArg List.length htn
    have b := congrArg List.length d2.1
    simp only [List.length_map] at a b
    omega
  have hz := tableHolds_zip hN hvec
  refine ⟨rBind u ((frameNames unique cols).zip (st.setValues.list.map s2.heap.get)), ?_, tableHolds_bind hN d2 hvec⟩
  unfold RObj.pushRowsInto
  rw [d1]
  simp only [RDf.look, hnames, h3]
  rw [bind_frames (cs := byType cols), rBind_assoc]
  · rfl
  · rw [rBind_names hlen, htn, hz.1]
  · exact rBind_class htc (vectors_class d2.2)
  · exact vectors_class hz.2

theorem RUsed.push {cols : List Column} {size ilast : Nat} {o : RObj} {st : RCols} {done rest : List (Nat × Row)} {t : RTable}
    (hN : (frameNames unique cols).length = (byType cols).length)
    (htn : t.map Prod.fst = frameNames unique cols) (htc : RClasses (byType cols) (t.map Prod.snd)) (h31 : ilast ≤ 2 ^ 31)
    (h : RUsed unique cols size ilast t o st done rest) {i : Nat} {r : Row}
    (hr : RReadable cols [(i, r)]) (hlt : i < ilast) (habove : ∀ x ∈ done ++ rest, x.1 < i) :
    ∃ o' st' done' rest', (RSink.mk o (.chunk st)).eventInto unique mix (.pushRow i r) = .ok (RSink.mk o' (.chunk st')) ∧
      RUsed unique cols size ilast t o' st' done' rest' ∧ done' ++ rest' = done ++ rest ++ [(i, r)] := by
  have hlow := h.start i habove
  obtain ⟨st1, s1, hi1, hst, -⟩ := h.inv.store (i := i) (r := r) hr hlt h31 hlow
    (fun x hx => habove x (by simp [hx])) h.few
  have hlast : ∀ x, (rest ++ [(i, r)]).getLast? = some x → ({ st1 with iend := i } : RCols).iend = x.1 := by
    intro x hx
    simp only [List.getLast?_append, List.getLast?_singleton, Option.some_or, Option.some.injEq] at hx
    rw [← hx]
  have habove' : ∀ {j : Nat}, (∀ x ∈ done ++ rest ++ [(i, r)], x.1 < j) → i < j := fun hj => hj (i, r) (by simp)
  by_cases hf : st1.idata = st1.size
  · have hlen : (rest ++ [(i, r)]).length = size := by
      rw [← hi1.idata, ← hi1.sizeEq]; exact hf
    have h0 : 0 < size := by rw [← hlen]; simp
    have hre := hi1.reuse (i := i) (by simp) hlen
    obtain ⟨idx, rws, g1, -⟩ := hi1.flush (by simp) hlast
    replace g1 : RCols.flush { st1 with iend := i } = ({ (RCols.setValues { st1 with iend := i }) with
          idata := 0, istart := i + 1 }, [.pushRows idx rws]) := g1
    generalize hs2 : ({ (RCols.setValues { st1 with iend := i }) with idata := 0, istart := i + 1 } : RCols) = s at g1 hre
    have hsi : s.istart = i + 1 := by rw [← hs2]
    have hsl : s.list = (RCols.setValues { st1 with iend := i }).list := by rw [← hs2]
    have hsh : s.heap = (RCols.setValues { st1 with iend := i }).heap := by rw [← hs2]
    have hsc : s.cols = st1.cols := by rw [← hs2]; rfl
    obtain ⟨s2, hstep, hi2, hsi2, hl2, hc2, hh2⟩ : ∃ s2, st.step (.pushRow i r) = .ok (s2, [.pushRows idx rws]) ∧
        RInv cols size ilast s2 [] ∧ s2.istart = i + 1 ∧ s2.list = s.list ∧ s2.cols = s.cols ∧ ∃ k, s2.heap = s.heap ++ k := by
      by_cases hp : s.istart + s.size > s.ilast ∧ s.istart < s.ilast
      · refine ⟨s.prepare (s.ilast - s.istart), ?_, ?_, hsi, rfl, rfl, ⟨_, rfl⟩⟩
        · simp only [RCols.step, s1, bind, Except.bind]
          rw [if_pos hf, g1]
          simp only
          rw [if_pos hp]
          rfl
        · refine RInv.prepare hre.sizeEq hre.ilastEq hre.cols hre.idata ?_ (.inr ?_)
          · intro _
            have := hre.sizeEq
            omega
          · have := hre.ilastEq
            omega
      · refine ⟨s, ?_, hre, hsi, rfl, rfl, ⟨[], by simp⟩⟩
        simp only [RCols.step, s1, bind, Except.bind]
        rw [if_pos hf, g1]
        simp only
        rw [if_neg hp]
        rfl
    obtain ⟨u, p1, p2⟩ := pushRows_used (unique := unique) (mix := mix) (o := o) (s2 := s2) (done := done) hN htn htc hi1.cols hi1
      (hc2.trans hsc) (hl2.trans hsl) (by rw [← hsh]; exact hh2) h.df
    refine ⟨{ o with df := .own (rBind t u) }, s2, done ++ (rest ++ [(i, r)]), [], ?_,
      ⟨hi2, by simp, fun _ => by simpa using h0, ?_, ⟨u, rfl, p2⟩⟩, by simp⟩
    · unfold RSink.eventInto
      simp only [RObj.told, hstep, bind, Except.bind, pure, Except.pure, PyM.ofRes, delivers, if_true, p1]
    · intro j hj
      have : i < j := habove' (by simpa using hj)
      omega
  · have hev : (RSink.mk o (.chunk st)).eventInto unique mix (.pushRow i r) =
        .ok (RSink.mk o (.chunk { st1 with iend := i })) := by
      have hstep : st.step (.pushRow i r) = .ok ({ st1 with iend := i }, []) := by
        simp only [RCols.step, s1, bind, Except.bind]
        rw [if_neg hf]
        rfl
      unfold RSink.eventInto
      simp only [RObj.told, hstep, bind, Except.bind, pure, Except.pure, PyM.ofRes, delivers, Bool.false_eq_true, if_false]
    refine ⟨_, _, done, rest ++ [(i, r)], hev, ⟨hi1, hlast, ?_, ?_, h.df⟩, by simp⟩
    · intro h0
      have h2 := h.few h0
      have h3 := hi1.idata
      have h4 := hi1.sizeEq
      simp only [List.length_append, List.length_singleton] at *
      omega
    · intro j hj
      have : i < j := habove' (by simpa using hj)
      show st1.istart ≤ j
      omega

theorem RUsed.rows {cols : List Column} {size ilast : Nat} {t : RTable}
    (hN : (frameNames unique cols).length = (byType cols).length)
    (htn : t.map Prod.fst = frameNames unique cols) (htc : RClasses (byType cols) (t.map Prod.snd)) (h31 : ilast ≤ 2 ^ 31) :
    ∀ (rows : List (Nat × Row)) (o : RObj) (st : RCols) (done rest : List (Nat × Row)),
    RUsed unique cols size ilast t o st done rest → RReadable cols rows → (∀ r ∈ rows, r.1 < ilast) →
    ((done ++ rest ++ rows).map Prod.fst).Pairwise (· < ·) →
    ∃ o' st' done' rest', (RSink.mk o (.chunk st)).eventsInto unique mix (rows.map fun r => .pushRow r.1 r.2) =
        .ok (RSink.mk o' (.chunk st')) ∧
      RUsed unique cols size ilast t o' st' done' rest' ∧ done' ++ rest' = done ++ rest ++ rows := by
  intro rows
  induction rows with
  | nil => intro o st done rest h _ _ _; exact ⟨o, st, done, rest, rfl, h, by simp⟩
  | cons x rows ih =>
    intro o st done rest h hr hlt hs
    obtain ⟨i, r⟩ := x
    have hs' := hs
    rw [List.map_append, List.pairwise_append] at hs'
    obtain ⟨o1, st1, done1, rest1, a1, a2, a3⟩ := h.push (mix := mix) hN htn htc h31 (i := i) (r := r)
      (fun c hc y hy => hr c hc y (by simp only [List.mem_singleton] at hy; simp [hy])) (hlt (i, r) (by simp))
      (fun x hx => hs'.2.2 x.1 (List.mem_map.2 ⟨x, hx, rfl⟩) i (by simp))
    obtain ⟨o2, st2, done2, rest2, b1, b2, b3⟩ := ih o1 st1 done1 rest1 a2
      (fun c hc y hy => hr c hc y (by simp [hy])) (fun y hy => hlt y (by simp [hy])) (by rw [a3]; simpa using hs)
    refine ⟨o2, st2, done2, rest2, ?_, b2, ?_⟩
    · rw [List.map_cons, RSink.eventsInto, a1]
      exact b1
    · rw [b3, a3]; simp

theorem RUsed.ends {cols : List Column} {size ilast : Nat} {t : RTable}
    (hN : (frameNames unique cols).length = (byType cols).length)
    (htn : t.map Prod.fst = frameNames unique cols) (htc : RClasses (byType cols) (t.map Prod.snd))
    {o : RObj} {st : RCols} {done rest : List (Nat × Row)}
    (h : RUsed unique cols size ilast t o st done rest) (n : Nat) :
    ∃ k u, (RSink.mk o (.chunk st)).eventsInto unique mix (List.replicate (n + 1) .endOfData) = .ok k ∧
      k.df = some (rBind t u) ∧ TableHolds (frameNames unique cols) cols (done ++ rest) u := by
  have hnil : ∀ (n : Nat) (o : RObj) (st : RCols), st.idata = 0 →
      (RSink.mk o (.chunk st)).eventsInto unique mix (List.replicate n .endOfData) = .ok (RSink.mk o (.chunk st)) := by
    intro n
    induction n with
    | zero => intro o st _; rfl
    | succ n ih =>
      intro o st h0
      rw [List.replicate_succ, RSink.eventsInto]
      have hf : st.flush = (st, []) := by
        unfold RCols.flush
        rw [if_pos (.inr h0)]
      have : (RSink.mk o (.chunk st)).eventInto unique mix .endOfData = .ok (RSink.mk o (.chunk st)) := by
        unfold RSink.eventInto
        simp only [RObj.told, RCols.step, hf, bind, Except.bind, pure, Except.pure, PyM.ofRes, delivers, Bool.false_eq_true,
          if_false]
      rw [this]
      exact ih o st h0
  by_cases hr : rest = []
  · subst hr
    rw [List.append_nil]
    obtain ⟨u, d1, d2⟩ := h.df
    exact ⟨_, u, hnil _ o st (by rw [h.inv.idata]; rfl), by simp only [RSink.df, d1, RDf.look], d2⟩
  · obtain ⟨idx, rws, g1, -⟩ := h.inv.flush hr h.last
    generalize hs2 : ({ st.setValues with idata := 0, istart := st.iend + 1 } : RCols) = s at g1
    have hsl : s.list = st.setValues.list := by rw [← hs2]
    have hsh : s.heap = st.setValues.heap := by rw [← hs2]
    have hsc : s.cols = st.cols := by rw [← hs2]; rfl
    obtain ⟨u, p1, p2⟩ := pushRows_used (unique := unique) (mix := mix) (o := o) (s2 := s) (done := done) hN htn htc h.inv.cols
      h.inv hsc hsl ⟨[], by rw [hsh]; simp⟩ h.df
    refine ⟨RSink.mk { o with df := .own (rBind t u) } (.chunk s), u, ?_, rfl, p2⟩
    rw [List.replicate_succ, RSink.eventsInto]
    have hev : (RSink.mk o (.chunk st)).eventInto unique mix .endOfData =
        .ok (RSink.mk { o with df := .own (rBind t u) } (.chunk s)) := by
      unfold RSink.eventInto
      simp only [RObj.told, RCols.step, g1, bind, Except.bind, pure, Except.pure, PyM.ofRes, delivers, if_true, p1]
    rw [hev]
    exact hnil n _ s (by rw [← hs2])

theorem RSink.eventsInto_append (s : RSink) (a b : List Event) :
    s.eventsInto unique mix (a ++ b) = (do (← s.eventsInto unique mix a).eventsInto unique mix b) := by
  induction a generalizing s with
  | nil => rfl
  | cons e a ih => simp only [List.cons_append, RSink.eventsInto, ih, bind_assoc]

theorem opsInto_ok {σ : Type} {S : Source σ} {k0 : RSink} : ∀ (ops : List Op) (s : RSession σ) (k : RSink),
    Reachable S s.reader → k0.eventsInto unique mix s.reader.trace = .ok s.sink →
    (∀ r ∈ (s.reader.run S ops).1, ∃ v, r = .ok v) →
    k0.eventsInto unique mix (s.reader.run S ops).2.trace = .ok k →
    s.opsInto unique mix S ops = .ok ⟨(s.reader.run S ops).2, k⟩ := by
  intro ops
  induction ops with
  | nil =>
    intro s k _ h1 _ h2
    have h2 : k0.eventsInto unique mix s.reader.trace = .ok k := h2
    rw [h1] at h2
    cases h2
    rfl
  | cons op ops ih =>
    intro s k hR h1 hres h2
    have hR1 : Reachable S (s.reader.step S op).2 := .called _ _ hR
    obtain ⟨rows, ht, -⟩ := Reader.step_trace (S := S) s.reader (Reachable.inv hR) op
    rw [List.append_assoc] at ht
    generalize hx : s.reader.step S op = x at ht hR1
    obtain ⟨r, R1⟩ := x
    rw [Reader.run, hx] at hres h2
    cases r with
    | error e => cases e <;> simp at hres
    | ok v =>
      simp only at hres h2 ht hR1
      obtain ⟨more, hm⟩ := run_prefix (S := S) ops R1 (Reachable.inv hR1)
      generalize pushEvents s.reader.rd.row rows ++ endEvents (signalsEnd op (.ok v)) = new at ht
      have hmid : ∃ k1, s.sink.eventsInto unique mix new = .ok k1 := by
        rw [hm, ht, RSink.eventsInto_append, RSink.eventsInto_append, h1] at h2
        simp only [bind, Except.bind] at h2
        cases hc : s.sink.eventsInto unique mix new with
        | error e => rw [hc] at h2; cases h2
        | ok k1 => exact ⟨_, rfl⟩
      obtain ⟨k1, hk1⟩ := hmid
      have hop : s.opInto unique mix S op = .ok ⟨R1, k1⟩ := by
        unfold RSession.opInto
        rw [hx]
        simp only [ht, List.drop_left, bind, Except.bind]
        rw [hk1]
        rfl
      have hh1 : k0.eventsInto unique mix R1.trace = .ok k1 := by
        rw [ht, RSink.eventsInto_append, h1]
        exact hk1
      rw [RSession.opsInto, hop]
      have := ih ⟨R1, k1⟩ k hR1 hh1 (fun r hr => hres r (List.mem_cons_of_mem _ hr)) h2
      rw [show (s.reader.run S (op :: ops)).2 = (R1.run S ops).2 by rw [Reader.run, hx]]
      exact this

/-- C84, partial. A program opens a file with a `SinkByChunk` of the R package that already has a frame, and reads to the
end. The frame then has the rows it had and behind them exactly the rows that were read, however many chunks there are. The
columns of the frame are those of the file, sorted by type and under their names, which are distinct and names in R. Other
columns are an error (`C84_r_columns_refuted`). -/
theorem C84_r_chunk_partial (unique : List (List Byte) → List (List Byte)) (mix : List RVal → List RVal → List RVal)
    (cfg : Cfg) (fuel : Nat) (fs : FileSystem) (name : List Byte) (size : Nat) (incl excl : RArg) (f : Filter)
    (src : IFStream) (R R' : Reader IFStream)
    (hfil : rFilter incl excl = .ok f) (hfile : openFile fs (name.takeWhile (· ≠ 0)) = .ok src)
    (hopen : openReader cfg ifs fuel (some f) src = .ok R)
    (h1 : InYears R.props.header.dateCreated) (h2 : InYears R.props.header.dateModified)
    (hnames : ∀ c ∈ R.props.columns, SyntacticName c.name) (hdist : (R.props.columns.map Column.name).Nodup)
    (h31 : R.props.md.rowCount ≤ 2 ^ 31)
    (ops : List Op) (hops : .endOfData ∉ ops) (hR' : (R.run ifs ops).2 = R')
    (hres : ∀ r ∈ (R.run ifs ops).1, ∃ v, r = .ok v) (hend : 0 < ends R'.trace)
    (hread : RReadable R.props.columns (pushes R'.trace))
    (old : RObj) (t : RTable) (hk : old.kind = .chunk size) (ht : old.df = .own t)
    (htn : t.map Prod.fst = (byType R.props.columns).map Column.name)
    (htc : RClasses (byType R.props.columns) (t.map Prod.snd)) :
    ∃ s u, rProgramInto unique mix cfg fuel fs name old incl excl ops = .ok s ∧ s.reader = R' ∧
      s.sink.df = some (List.zipWith (fun x y => (x.1, x.2 ++ y.2)) t u) ∧
      TableHolds ((byType R.props.columns).map Column.name) R.props.columns (pushes R'.trace) u := by
  subst hR'
  have hl := C08_end_last hopen ops hops
  obtain ⟨es, e1, -, -, e4, e5⟩ := C08_protocol hopen ops
  have hpush : pushes (R.run ifs ops).2.trace = pushes es := by rw [e1]; rfl
  rw [← hpush] at e4 e5
  generalize hrw : pushes (R.run ifs ops).2.trace = rows at *
  obtain ⟨n, hn⟩ : ∃ n, ends (R.run ifs ops).2.trace = n + 1 := ⟨_, (Nat.succ_pred_eq_of_pos hend).symm⟩
  rw [hn] at hl
  obtain ⟨l, w1, w2, w3⟩ := wrap_ok h1 h2
  have hsub : ∀ c ∈ byType R.props.columns, c ∈ R.props.columns := fun c hc =>
    List.mem_of_mem_filter ((byType_perm R.props.columns).mem_iff.mp hc)
  have hN := frameNames_self (unique := unique) (fun c hc => hnames c (hsub c hc))
    (((byType_perm R.props.columns).map Column.name).nodup_iff.mpr (hdist.sublist (List.Sublist.map _ List.filter_sublist)))
  have hlen : (frameNames unique R.props.columns).length = (byType R.props.columns).length := by rw [hN, List.length_map]
  rw [← hN] at htn
  -- the empty table
  let u0 : RTable := (frameNames unique R.props.columns).map fun x => (x, [])
  have hu0 : TableHolds (frameNames unique R.props.columns) R.props.columns [] u0 := by
    refine ⟨by simp [u0, Function.comp_def], ?_⟩
    have : ∀ (cs : List Column) (ns : List (List Byte)), ns.length = cs.length →
        List.Forall₂ (fun c l => List.Forall₂ (fun (r : Nat × Row) x => ∃ v, c.value r.2.mem = .ok (some v) ∧ RShows v x) [] l)
          cs ((ns.map fun x => (x, ([] : List RVal))).map Prod.snd) := by
      intro cs
      induction cs with
      | nil => intro ns h; rw [List.length_eq_zero_iff.mp h]; exact .nil
      | cons c cs ih =>
        intro ns h
        cases ns with
        | nil => cases h
        | cons x ns => exact .cons .nil (ih ns (by simpa using h))
    exact this _ _ hlen
  have hbt : rBind t u0 = t := by
    have hlt : t.length = u0.length := by simpa [u0] using congrArg List.length htn
    have : ∀ (t u : RTable), t.length = u.length → (∀ y ∈ u, y.2 = []) → rBind t u = t := by
      intro t
      induction t with
      | nil => intro u _ _; rfl
      | cons x t ih =>
        intro u h hu
        cases u with
        | nil => cases h
        | cons y u =>
          have hy := hu y (by simp)
          have := ih u (by simpa using h) fun z hz => hu z (by simp [hz])
          unfold rBind at this ⊢
          rw [List.zipWith_cons_cons, this, hy, List.append_nil]
    exact this t u0 hlt fun y hy => by obtain ⟨x, -, rfl⟩ := List.mem_map.mp hy; rfl
  have hused : RUsed unique R.props.columns size R.props.md.rowCount t { old with properties := some l, columns := none }
      (RCols.setProperties { size := size } R.props) [] [] :=
    ⟨rstart size R.props, by simp, fun h => by simpa using h, fun i _ => by simp [RCols.setProperties, RCols.prepare],
      ⟨u0, by rw [hbt]; exact ht, hu0⟩⟩
  obtain ⟨o1, st1, d1, r1, a1, a2, a3⟩ := RUsed.rows (mix := mix) hlen htn htc h31 rows _ _ [] [] hused hread
    (fun r hr => e5 r.1 (List.mem_map.2 ⟨r, hr, rfl⟩)) (by simpa using e4)
  rw [List.nil_append, List.nil_append] at a3
  obtain ⟨k, u, b1, b2, b3⟩ := a2.ends (mix := mix) hlen htn htc n
  rw [a3, hN] at b3
  have hopened : (RSink.around old).eventInto unique mix (.setProperties R.props) =
      .ok (RSink.mk { old with properties := some l, columns := none } (.chunk (RCols.setProperties { size := size } R.props))) := by
    unfold RSink.eventInto RSink.around
    simp only
    rw [told_set, w1, hk]
    simp only [RSink.new, PyM.ofRes, bind, Except.bind, RObj.setProperties, w3, rDollar, rNames, pure, Except.pure, hk]
    rfl
  have ho := (r_opened (unique := unique) (kind := old.kind) hfil hfile hopen).1
  have hevs : (RSink.around old).eventsInto unique mix (R.run ifs ops).2.trace = .ok k := by
    rw [hl, List.cons_append, RSink.eventsInto, hopened]
    refine (RSink.eventsInto_append _ _ _).trans ?_
    rw [a1]
    exact b1
  have hstart : (RSink.around old).eventsInto unique mix R.trace =
      .ok (RSink.mk { old with properties := some l, columns := none } (.chunk (RCols.setProperties { size := size } R.props))) := by
    rw [ho, RSink.eventsInto, hopened]
    rfl
  refine ⟨⟨(R.run ifs ops).2, k⟩, u, ?_, rfl, b2, b3⟩
  unfold rProgramInto rOpenInto
  rw [hfil, hfile]
  simp only [bind, Except.bind, PyM.ofRes]
  rw [hopen]
  simp only
  rw [hstart]
  exact opsInto_ok (k0 := RSink.around old) ops ⟨R, _⟩ k (.opened _ _ _ _ _ hopen) hstart hres hevs

/-- Files: the demo file, the same without its third row, and the same without rows. -/
def rThreeFiles : FileSystem :=
  ⟨fun n => if n = ascii "a" then some Demo.file else if n = ascii "b" then some (Demo.file.set 552 2)
    else if n = ascii "c" then some (Demo.file.set 552 0) else none, fun _ => false⟩

/-- Two files read into one sink, the second with the columns of `incl` only: the frame at the end. -/
def rTwice (kind : PyKind) (first second : List Byte) (incl : RArg) : PyM (Option RTable) := do
  let s ← rProgram id Demo.cfg 10 rThreeFiles first kind .null .null [.readAll]
  let s ← rProgramInto id (· ++ ·) Demo.cfg 10 rThreeFiles second s.sink.left incl .null [.readAll]
  return s.sink.df

/-- The hypotheses are met: five rows in chunks of two (three and two rows) and in chunks of one for the second file; the
second file only for whole data; and the first file only when the second one is empty. -/
example : rTwice (.chunk 2) (ascii "a") (ascii "b") .null =
      .ok (some [(ascii "ID", demoRows[0].2 ++ demoRows[0].2.take 2), (ascii "NAME", demoRows[1].2 ++ demoRows[1].2.take 2)]) ∧
    rTwice .data (ascii "a") (ascii "b") .null =
      .ok (some [(ascii "ID", demoRows[0].2.take 2), (ascii "NAME", demoRows[1].2.take 2)]) ∧
    rTwice (.chunk 2) (ascii "a") (ascii "c") .null = .ok (some demoRows) ∧
    rTwice .data (ascii "a") (ascii "c") .null = .ok (some demoRows) := by decide +kernel

theorem two_columns {l : List Column} {x y : List Byte} {s t : ColType} (h : l.map Column.name = [x, y])
    (h2 : l.map Column.type = [s, t]) : ∃ a b, l = [a, b] ∧ a.type = s ∧ b.type = t ∧ a.name = x ∧ b.name = y := by
  match l, h, h2 with
  | [a, b], h, h2 =>
    simp only [List.map_cons, List.map_nil, List.cons.injEq, and_true] at h h2
    exact ⟨a, b, rfl, h2.1, h2.2, h.1, h.2⟩

/-- `C84_r_chunk_partial` for the demo file in chunks of one row and a frame that has its rows already. -/
example (unique : List (List Byte) → List (List Byte)) (mix : List RVal → List RVal → List RVal) :
    ∃ s u, rProgramInto unique mix Demo.cfg 10 rThreeFiles (ascii "a") { kind := .chunk 1, df := .own demoRows } .null .null
        [.readAll] = .ok s ∧ s.sink.df = some (List.zipWith (fun x y => (x.1, x.2 ++ y.2)) demoRows u) ∧
      u.map Prod.fst = [ascii "ID", ascii "NAME"] := by
  have hopen := Demo.get_ok (r := openReader Demo.cfg ifs 10 (some Filter.acceptAll) (IFStream.open Demo.file)) (by decide +kernel)
  generalize hR : Demo.get (openReader Demo.cfg ifs 10 (some Filter.acceptAll) (IFStream.open Demo.file)) = R at hopen
  have hy : InYears (at1960 0) := ⟨0, rfl, by unfold CalendarDay; decide⟩
  have e1 : R.props.header.dateCreated = at1960 0 := by rw [← hR]; decide +kernel
  have e2 : R.props.header.dateModified = at1960 0 := by rw [← hR]; decide +kernel
  have hn : R.props.columns.map Column.name = [ascii "ID", ascii "NAME"] := by rw [← hR]; decide +kernel
  have hc : ∃ a b, R.props.columns = [a, b] ∧ a.type = .number ∧ b.type = .string ∧ a.name = ascii "ID" ∧ b.name = ascii "NAME" :=
    two_columns hn (by rw [← hR]; decide +kernel)
  obtain ⟨a, b, hc, ha, hb, na, nb⟩ := hc
  have hbt : byType R.props.columns = [a, b] := by rw [hc]; simp [byType, ha, hb]
  obtain ⟨s, u, g1, -, g3, g4⟩ := C84_r_chunk_partial unique mix Demo.cfg 10 rThreeFiles (ascii "a") 1 .null .null
    Filter.acceptAll (IFStream.open Demo.file) R (R.run ifs [.readAll]).2 rfl rfl hopen (by rw [e1]; exact hy) (by rw [e2]; exact hy)
    (by
      rw [hc]
      intro c h
      simp only [List.mem_cons, List.not_mem_nil, or_false] at h
      rcases h with rfl | rfl
      · rw [na]; exact ⟨by unfold Letter; decide, .inl ⟨73, by decide, by unfold Letter; decide⟩, by decide⟩
      · rw [nb]; exact ⟨by unfold Letter; decide, .inl ⟨78, by decide, by unfold Letter; decide⟩, by decide⟩)
    (by rw [hc]; simp only [List.map_cons, List.map_nil, na, nb]; decide)
    (by rw [← hR]; decide +kernel) [.readAll] (by decide) rfl
    (by
      have : ((R.run ifs [.readAll]).1.all fun r => r.isOk) = true := by rw [← hR]; decide +kernel
      intro r hr
      have := List.all_eq_true.mp this r hr
      cases r with
      | error e => cases this
      | ok v => exact ⟨v, rfl⟩)
    (by rw [← hR]; decide +kernel)
    (by
      have : ((typed R.props.columns).all fun c => (pushes (R.run ifs [.readAll]).2.trace).all fun r =>
          match c.value r.2.mem with
          | .ok (some (.num _)) | .ok (some (.str _)) => true
          | _ => false) = true := by rw [← hR]; decide +kernel
      intro c hc r hr
      have := List.all_eq_true.mp (List.all_eq_true.mp this c hc) r hr
      cases hv : c.value r.2.mem with
      | error e => rw [hv] at this; cases this
      | ok o =>
        rw [hv] at this
        cases o with
        | none => cases this
        | some v =>
          cases v with
          | num x => exact ⟨_, .num x, rfl, rfl⟩
          | str x => exact ⟨_, .str (upToZero x), rfl, rfl⟩
          | _ => cases this)
    { kind := .chunk 1, df := .own demoRows } demoRows rfl rfl (by rw [hbt, ← hc, hn]; rfl)
    (by
      rw [hbt]
      refine .cons ?_ (.cons ?_ .nil)
      · intro x hx
        rw [ha]
        simp only [List.mem_cons, List.not_mem_nil, or_false] at hx
        rcases hx with rfl | rfl | rfl <;> exact ⟨_, rfl⟩
      · intro x hx
        rw [hb]
        simp only [List.mem_cons, List.not_mem_nil, or_false] at hx
        rcases hx with rfl | rfl | rfl <;> exact .inr ⟨_, rfl⟩)
  exact ⟨s, u, g1, g3, g4.1.trans (by rw [hbt, ← hc, hn])⟩

/-- The rows of the first file in chunks of one are damaged by the first reader (`C69_chunks_refuted`); those of the
second file are not, although there are just as many. -/
example : ∃ u, rTwice (.chunk 1) (ascii "a") (ascii "a") .null = .ok (some (List.zipWith (fun x y => (x.1, x.2 ++ y.2)) u demoRows)) ∧
    demoTable [] (.chunk 1) [.readAll] = .ok (some u) ∧ u ≠ demoRows := by
  refine ⟨[(ascii "ID", [.num (.bits 0x4000000000000000), .num (.bits 0x4000000000000000), .num (.bits 0x4010000000000000)]),
      (ascii "NAME", [.str (ascii "bob"), .str (ascii "bob"), .str (ascii "cy")])], ?_, ?_, ?_⟩ <;> decide +kernel

/-- C84 is false of files with other columns: reading the second one into the same `SinkByChunk` is an error. -/
theorem C84_r_columns_refuted : rTwice (.chunk 2) (ascii "a") (ascii "b") (.chr [ascii "ID"]) = .error .raised ∧
    (rProgram id Demo.cfg 10 rThreeFiles (ascii "b") (.chunk 2) (.chr [ascii "ID"]) .null [.readAll]).map (·.sink.df) =
      .ok (some [(ascii "ID", demoRows[0].2.take 2)]) := by decide +kernel

end Sas.Props
