import Verif.Spec.PyRefs
import Verif.Proofs.PyFront
import Verif.Proofs.RFront

/-!
# Lemmas about the reference count of `None`
-/

namespace Sas

open Sas.Spec

/-- The number of `None`s. -/
def nones (vs : List PyVal) : Nat := vs.countP (· = .time .none)

/-- There is a reference to `None`. -/
def PyHeap.Ok (h : PyHeap) : Prop := 1 ≤ h.none

theorem lose_ok {h h' : PyHeap} {k : Nat} (hh : h.Ok) (e : lose h k = .ok h') : h'.Ok := by
  unfold lose at e
  unfold PyHeap.Ok at *
  split at e
  · cases e; exact hh
  · split at e
    · cases e; dsimp only; omega
    · cases e

theorem lose_zero {h : PyHeap} (hh : h.Ok) : lose h 0 = .ok h := by
  unfold lose
  unfold PyHeap.Ok at hh
  split
  · rfl
  · rw [if_pos (by omega)]; rfl

theorem lose_lose {h : PyHeap} (a b : Nat) : ((lose h a).bind fun h => lose h b) = lose h (a + b) := by
  unfold lose
  cases hi : h.immortal
  · by_cases h1 : a < h.none
    · simp only [h1, Except.bind, if_true, Bool.false_eq_true, if_false]
      by_cases h2 : a + b < h.none
      · rw [if_pos (by omega), if_pos h2, Nat.sub_sub]
      · rw [if_neg (by omega), if_neg h2]
    · simp only [h1, Except.bind, Bool.false_eq_true, if_false]
      rw [if_neg (by omega)]
  · simp [Except.bind, hi]

theorem decref_lose {h : PyHeap} (hh : h.Ok) (v : PyVal) : h.decref v = lose h (nones [v]) := by
  unfold PyHeap.decref
  unfold PyHeap.Ok at hh
  by_cases hv : v = .time .none
  · cases hi : h.immortal
    · simp only [hv, nones, lose, hi]
      by_cases h1 : h.none ≤ 1
      · simp [h1]
      · simp [h1]
    · simp [hv, lose, hi]
  · rw [if_neg (by tauto), show nones [v] = 0 by simp [nones, hv], lose_zero hh]

theorem nones_cons (v : PyVal) (vs : List PyVal) : nones (v :: vs) = nones [v] + nones vs := by
  unfold nones
  rw [show v :: vs = [v] ++ vs from rfl, List.countP_append]

theorem nones_append (a b : List PyVal) : nones (a ++ b) = nones a + nones b := by
  unfold nones
  rw [List.countP_append]

theorem release_lose : ∀ (vs : List PyVal) (h : PyHeap), h.Ok → h.release vs = lose h (nones vs) := by
  intro vs
  induction vs with
  | nil => intro h hh; exact (lose_zero hh).symm
  | cons v vs ih =>
    intro h hh
    unfold PyHeap.release
    rw [decref_lose hh, nones_cons v vs, ← lose_lose]
    cases e : lose h (nones [v]) with
    | error x => rfl
    | ok h' => exact ih h' (lose_ok hh e)

theorem incref_decref {h : PyHeap} (hh : h.Ok) (v : PyVal) : (h.incref v).decref v = .ok h := by
  unfold PyHeap.decref PyHeap.incref
  unfold PyHeap.Ok at hh
  by_cases hv : v = .time .none ∧ h.immortal = false
  · rw [if_pos hv]
    simp only [hv.1, hv.2]
    rw [if_pos (by simp), if_neg (by omega)]
    rcases h with ⟨a, b⟩
    simp only at hv
    rw [hv.2]
    rfl
  · rw [if_neg hv, if_neg hv]

theorem append_ok {h : PyHeap} (hh : h.Ok) {c : Cell} {v : PyVal} (hv : c.toPy = .ok v) : h.append c = .ok (h, v) := by
  unfold PyHeap.append
  rw [hv]
  simp only [bind, Except.bind, incref_decref hh, pure, Except.pure]

theorem list_ok {h : PyHeap} (hh : h.Ok) : ∀ {cs : List Cell} {vs : List PyVal},
    List.Forall₂ (fun c v => Cell.toPy c = .ok v) cs vs → h.list cs = .ok (h, vs)
  | [], [], _ => rfl
  | c :: cs, v :: vs, .cons h1 h2 => by
    unfold PyHeap.list
    rw [append_ok hh h1]
    simp only [bind, Except.bind, list_ok hh h2, pure, Except.pure]

theorem lists_ok {h : PyHeap} (hh : h.Ok) : ∀ {ls : List (List Cell)} {vss : List (List PyVal)},
    List.Forall₂ (List.Forall₂ fun c v => Cell.toPy c = .ok v) ls vss → h.lists ls = .ok (h, vss.flatten)
  | [], [], _ => rfl
  | l :: ls, vs :: vss, .cons h1 h2 => by
    unfold PyHeap.lists
    rw [list_ok hh h1]
    simp only [bind, Except.bind, lists_ok hh h2, pure, Except.pure, List.flatten_cons]

/-- A missing datetime, date or time. -/
def Cell.missing : Cell → Bool
  | .datetime .notADateTime => true
  | .date .notADate => true
  | .time .notADateTime => true
  | _ => false

theorem fromTime_ne {h m s u : Int} : PyTime.fromTime h m s u ≠ .ok .none := by
  unfold PyTime.fromTime
  split <;> simp

theorem fromDSU_ne {d s u : Int} : PyTime.fromDSU d s u ≠ .ok .none := by
  simp only [PyTime.fromDSU]
  split <;> simp

theorem fromDateAndTime_ne {y : Ymd} {h m s u : Int} : PyTime.fromDateAndTime y h m s u ≠ .ok .none := by
  unfold PyTime.fromDateAndTime
  split <;> simp

theorem duration_ne {n : Int} : (Duration.us n).toPython ≠ .ok .none := by
  simp only [Duration.toPython]
  split
  · exact fromTime_ne
  · exact fromDSU_ne

theorem bind_ymd_ne {f : Ymd → PyResult PyTime} (hf : ∀ y, f y ≠ .ok .none) (x : Res Ymd) :
    (x >>= fun y => pure (f y) : Res (PyResult PyTime)) ≠ .ok (.ok .none) := by
  cases x with
  | error _ => intro h; cases h
  | ok y =>
    intro h
    rw [show ((Except.ok y : Res Ymd) >>= fun y => pure (f y) : Res (PyResult PyTime)) = .ok (f y) from rfl] at h
    exact hf y (Except.ok.inj h)

theorem datetime_eq {us : Int} : (DateTime.at us).toPython = ((DateTime.at us).date >>= fun d => d.ymd >>= fun y =>
    pure (PyTime.fromDateAndTime y (DateTime.at us).timeOfDay.hours (DateTime.at us).timeOfDay.minutes
      (DateTime.at us).timeOfDay.seconds (DateTime.at us).timeOfDay.usecs)) := by
  rw [DateTime.toPython]

theorem ok_bind' {α β : Type} (a : α) (g : α → Res β) : (Except.ok a >>= g) = g a := rfl

theorem bind_date_ne {f : Ymd → PyResult PyTime} (hf : ∀ y, f y ≠ .ok .none) (x : Res Date) :
    (x >>= fun d => d.ymd >>= fun y => pure (f y) : Res (PyResult PyTime)) ≠ .ok (.ok .none) := by
  cases x with
  | error _ => intro h; cases h
  | ok d =>
    rw [ok_bind']
    exact bind_ymd_ne hf d.ymd

theorem datetime_ne {us : Int} : (DateTime.at us).toPython ≠ .ok (.ok .none) := by
  rw [datetime_eq]
  generalize (DateTime.at us).date = x
  generalize (DateTime.at us).timeOfDay = td
  exact bind_date_ne (fun y => fromDateAndTime_ne) x

theorem date_ne {n : Nat} : (Date.day n).toPython ≠ .ok (.ok .none) := by
  unfold Date.toPython
  exact bind_ymd_ne (fun y => by simp) _

theorem ofResult_none {x : PyResult PyTime} (h : PyM.ofResult x = .ok .none) : x = .ok .none := by
  cases x with
  | ok a => cases h; rfl
  | raised => cases h

theorem lift_none {x : Res (PyResult PyTime)}
    (h : (do return PyVal.time (← PyM.ofResult (← PyM.ofRes x)) : PyM PyVal) = .ok (.time .none)) : x = .ok (.ok .none) := by
  cases x with
  | error e => cases h
  | ok a =>
    cases a with
    | raised => cases h
    | ok t =>
      simp only [PyM.ofRes, PyM.ofResult, bind, Except.bind, pure, Except.pure, Except.ok.injEq, PyVal.time.injEq] at h
      rw [h]

theorem lift_time {x : PyResult PyTime}
    (h : (do return PyVal.time (← PyM.ofResult x) : PyM PyVal) = .ok (.time .none)) : x = .ok .none := by
  cases x with
  | raised => cases h
  | ok t =>
    simp only [PyM.ofResult, bind, Except.bind, pure, Except.pure, Except.ok.injEq, PyVal.time.injEq] at h
    rw [h]

theorem missing_none {c : Cell} {v : PyVal} (h : c.toPy = .ok v) : v = .time .none ↔ c.missing = true := by
  cases c with
  | str s => cases h; simp [Cell.missing]
  | int s => cases h; simp [Cell.missing]
  | num s => cases h; simp [Cell.missing]
  | datetime t =>
    cases t with
    | notADateTime => cases h; simp [Cell.missing]
    | «at» us =>
      simp only [Cell.missing, Bool.false_eq_true, iff_false]
      intro e
      rw [e] at h
      exact datetime_ne (lift_none h)
  | date d =>
    cases d with
    | notADate => cases h; simp [Cell.missing]
    | day n =>
      simp only [Cell.missing, Bool.false_eq_true, iff_false]
      intro e
      rw [e] at h
      exact date_ne (lift_none h)
  | time t =>
    cases t with
    | notADateTime => cases h; simp [Cell.missing]
    | us n =>
      simp only [Cell.missing, Bool.false_eq_true, iff_false]
      intro e
      rw [e] at h
      exact duration_ne (lift_time h)

theorem nones_missing : ∀ {cs : List Cell} {vs : List PyVal},
    List.Forall₂ (fun c v => Cell.toPy c = .ok v) cs vs → nones vs = cs.countP Cell.missing
  | [], [], _ => rfl
  | c :: cs, v :: vs, .cons h1 h2 => by
    rw [nones_cons, nones_missing h2, List.countP_cons]
    unfold nones
    rw [List.countP_singleton]
    have := missing_none h1
    by_cases hm : c.missing = true
    · rw [if_pos hm, if_pos (by simpa using this.2 hm)]; omega
    · rw [if_neg hm, if_neg (by simpa using fun h => hm (this.1 h))]; omega

theorem missingAt_eq {c : Column} {r : Nat × Row} {v : Cell} (h : c.value r.2.mem = .ok (some v)) :
    MissingAt c r = v.missing := by
  unfold MissingAt
  rw [h]
  cases v with
  | datetime t => cases t <;> rfl
  | date t => cases t <;> rfl
  | time t => cases t <;> rfl
  | _ => rfl

theorem missingAt_unknown {c : Column} {r : Nat × Row} (h : c.type = .unknown) : MissingAt c r = false := by
  unfold MissingAt Column.value
  rw [h]

/-! ## Counting by columns -/

theorem count_swap (p : Column → Nat × Row → Bool) (cols : List Column) : ∀ rows : List (Nat × Row),
    (cols.map fun c => rows.countP (p c)).sum = (rows.map fun r => cols.countP fun c => p c r).sum := by
  intro rows
  induction rows with
  | nil => simp
  | cons r rows ih =>
    rw [List.map_cons, List.sum_cons, ← ih]
    clear ih
    induction cols with
    | nil => rfl
    | cons c cols ih2 =>
      simp only [List.map_cons, List.sum_cons, List.countP_cons] at ih2 ⊢
      rw [ih2]
      omega

theorem missingCells_typed (cols : List Column) (rows : List (Nat × Row)) :
    missingCells cols rows = ((byType cols).map fun c => rows.countP (MissingAt c)).sum := by
  rw [count_swap]
  unfold missingCells
  congr 1
  apply List.map_congr_left
  intro r _
  rw [(byType_perm cols).countP_eq]
  unfold typed
  rw [List.countP_filter]
  apply List.countP_congr
  intro c _
  by_cases h : c.type = .unknown
  · simp [missingAt_unknown h]
  · simp [h]

theorem grouped_fst (cols : List Column) : (Columns.ofColumns cols).grouped.map Prod.fst = byType cols := by
  have h : ∀ t, getColumns cols t = cols.filter fun c => c.type = t := by
    intro t
    induction cols with
    | nil => rfl
    | cons c cols ih =>
      unfold getColumns
      by_cases hc : c.type = t <;> simp [hc, ih]
  unfold Columns.grouped Columns.ofColumns byType
  simp only [List.map_append, List.map_map, h, List.flatMap_cons, List.flatMap_nil, List.append_nil, List.append_assoc,
    Function.comp_def, List.map_id']

/-- The missing values in the vectors are those of the rows they hold. -/
theorem stored_missing {cols : List Column} {rest : List (Nat × Row)} {vals : List (List Cell)}
    (h : Stored rest (Columns.ofColumns cols).grouped vals) :
    (vals.map fun v => v.countP Cell.missing).sum = missingCells cols rest := by
  rw [missingCells_typed, ← grouped_fst, List.map_map]
  have hg : ∀ g ∈ (Columns.ofColumns cols).grouped, ∀ mem, g.1.value mem = (do return some (← g.2 g.1 mem)) :=
    fun g hg => (grouped_value hg).2
  generalize (Columns.ofColumns cols).grouped = gs at h hg
  congr 1
  induction h with
  | nil => rfl
  | @cons g v gs vals h1 h2 ih =>
    rw [List.map_cons, List.map_cons, ih fun g hm => hg g (List.mem_cons_of_mem _ hm)]
    congr 1
    have hv := hg g (by simp)
    clear ih hg h2
    rw [Function.comp_apply]
    induction rest generalizing v with
    | nil => cases v with
      | nil => rfl
      | cons _ _ => simp at h1
    | cons r rest ih =>
      cases v with
      | nil => simp at h1
      | cons x v =>
        simp only [List.map_cons, List.cons.injEq] at h1
        rw [List.countP_cons, List.countP_cons, ih h1.2]
        rw [missingAt_eq (v := x) (by rw [hv, h1.1]; rfl)]

theorem stored_convert {rest : List (Nat × Row)} {gs : List GroupedColumn} {vals : List (List Cell)}
    (h : Stored rest gs vals)
    (hc : ∀ g ∈ gs, ∀ r ∈ rest, ∀ v, g.2 g.1 r.2.mem = .ok v → ∃ y, v.toPy = .ok y) :
    ∃ vss, List.Forall₂ (List.Forall₂ fun c v => Cell.toPy c = .ok v) vals vss := by
  induction h with
  | nil => exact ⟨[], .nil⟩
  | @cons g v gs vals h1 h2 ih =>
    obtain ⟨vss, hvss⟩ := ih fun g hg => hc g (List.mem_cons_of_mem _ hg)
    have hx : ∀ c ∈ v, ∃ y, c.toPy = .ok y := by
      intro c hm
      have : (Except.ok c : Res Cell) ∈ v.map Except.ok := List.mem_map_of_mem hm
      rw [← h1] at this
      obtain ⟨r, hr, e⟩ := List.mem_map.1 this
      exact hc g (by simp) r hr c e
    have : ∃ vs, List.Forall₂ (fun c v => Cell.toPy c = .ok v) v vs := by
      clear h1
      induction v with
      | nil => exact ⟨[], .nil⟩
      | cons c v ihv =>
        obtain ⟨y, hy⟩ := hx c (by simp)
        obtain ⟨vs, hvs⟩ := ihv fun c hm => hx c (List.mem_cons_of_mem _ hm)
        exact ⟨y :: vs, .cons hy hvs⟩
    obtain ⟨vs, hvs⟩ := this
    exact ⟨vs :: vss, .cons hvs hvss⟩

theorem nones_flatten : ∀ {ls : List (List Cell)} {vss : List (List PyVal)},
    List.Forall₂ (List.Forall₂ fun c v => Cell.toPy c = .ok v) ls vss →
    nones vss.flatten = (ls.map fun v => v.countP Cell.missing).sum
  | [], [], _ => rfl
  | l :: ls, vs :: vss, .cons h1 h2 => by
    rw [List.flatten_cons, nones_append, nones_missing h1, nones_flatten h2]
    rfl

theorem missingCells_append (cols : List Column) (a b : List (Nat × Row)) :
    missingCells cols (a ++ b) = missingCells cols a + missingCells cols b := by
  unfold missingCells
  rw [List.map_append, List.sum_append]

/-- The entries of a row list. -/
theorem rowList_missing {i : Nat} {r : Row} : ∀ (cols : List Column) (l : List Cell), rowList cols r.mem = .ok l →
    l.countP Cell.missing = missingCells cols [(i, r)] ∧ ∀ v ∈ l, ∃ c ∈ typed cols, c.value r.mem = .ok (some v) := by
  intro cols
  induction cols with
  | nil => intro l h; simp only [rowList, Except.ok.injEq] at h; subst h; exact ⟨rfl, by simp⟩
  | cons c cols ih =>
    intro l h
    unfold rowList at h
    have hm : missingCells (c :: cols) [(i, r)] = missingCells cols [(i, r)] + if MissingAt c (i, r) then 1 else 0 := by
      unfold missingCells
      simp [List.countP_cons]
    have ht : ∀ {x : Column}, x ∈ typed cols → x ∈ typed (c :: cols) := by
      intro x hx
      unfold typed at *
      rw [List.mem_filter] at *
      exact ⟨List.mem_cons_of_mem _ hx.1, hx.2⟩
    cases hv : c.value r.mem with
    | error e => rw [hv] at h; cases h
    | ok v =>
      rw [hv] at h
      cases v with
      | none =>
        obtain ⟨h1, h2⟩ := ih l h
        refine ⟨?_, fun v hv => ?_⟩
        · rw [hm, h1, show MissingAt c (i, r) = false by unfold MissingAt; simp [hv]]
          simp
        · obtain ⟨c, hc, e⟩ := h2 v hv
          exact ⟨c, ht hc, e⟩
      | some v =>
        cases hl : rowList cols r.mem with
        | error e => rw [hl] at h; cases h
        | ok l' =>
          rw [hl] at h
          cases h
          obtain ⟨h1, h2⟩ := ih l' hl
          refine ⟨?_, fun w hw => ?_⟩
          · rw [hm, List.countP_cons, h1, missingAt_eq (r := (i, r)) hv]
          · rcases List.mem_cons.1 hw with rfl | hw
            · refine ⟨c, ?_, hv⟩
              unfold typed
              rw [List.mem_filter]
              refine ⟨by simp, ?_⟩
              by_contra hu
              have : c.type = .unknown := by simpa using hu
              unfold Column.value at hv
              rw [this] at hv
              cases hv
            · obtain ⟨c, hc, e⟩ := h2 w hw
              exact ⟨c, ht hc, e⟩

/-! ## A program -/

/-- The C++ sink holds these rows, which have not been made into Python lists yet. -/
def Pending (cols : List Column) (rest : List (Nat × Row)) : CppSink → Prop
  | .row st => st.columns = cols ∧ rest = []
  | .chunk st => ∃ n, PyInv cols n st rest
  | .data st => ∃ n, PyInv cols n st rest

/-- How many rows the C++ sink holds when it hands them over. -/
def CppSink.cap : CppSink → Option Nat
  | .row _ => some 1
  | .chunk st => some st.size
  | .data _ => none

/-- The rows that are held after one more. -/
def keepBack (cap : Option Nat) (l : List (Nat × Row)) : List (Nat × Row) := if some l.length = cap then [] else l

/-- The rows that are held after these. -/
def keptBack (cap : Option Nat) (rest rows : List (Nat × Row)) : List (Nat × Row) :=
  rows.foldl (fun l r => keepBack cap (l ++ [r])) rest

/-- Rows, and then perhaps the end; `attr` says whether the end is still to come. -/
def OneEnd : Bool → List Event → Prop
  | _, [] => True
  | attr, .pushRow _ _ :: es => attr = true ∧ OneEnd attr es
  | attr, .endOfData :: es => attr = true ∧ OneEnd false es
  | _, .setProperties _ :: _ => False

/-- Is the end still to come after these events? -/
def attrAfter (attr : Bool) (es : List Event) : Bool := attr && !es.contains .endOfData

/-- What a call of the reader does to the program. -/
theorem event_eq {s : RefSession σ} {ev : Event} {made : List (List Cell)} {cpp : CppSink} {out : List PyCall}
    {vss : List (List PyVal)} (h1 : s.cpp.made ev = .ok made) (h2 : s.cpp.step ev = .ok (cpp, out))
    (h3 : out.contains .attributeError = false)
    (h4 : List.Forall₂ (List.Forall₂ fun c v => Cell.toPy c = .ok v) made vss) :
    ∃ k vals, k + nones vals = (made.map fun v => v.countP Cell.missing).sum ∧
      ∀ h0 : PyHeap, h0.Ok → ({ s with heap := h0 } : RefSession σ).event ev =
        (lose h0 k).bind fun h => .ok { s with cpp := cpp, heap := h, kept := s.kept ++ vals } := by
  cases hk : s.keep with
  | true =>
    refine ⟨0, vss.flatten, by rw [Nat.zero_add, nones_flatten h4], fun h0 hh => ?_⟩
    unfold RefSession.event
    simp only
    rw [h1, h2, lose_zero hh]
    simp only [PyM.ofRes, bind, Except.bind, h3, Bool.false_eq_true, if_false, lists_ok hh h4, pure, Except.pure, if_true]
  | false =>
    refine ⟨(made.map fun v => v.countP Cell.missing).sum, [], rfl, fun h0 hh => ?_⟩
    unfold RefSession.event
    simp only
    rw [h1, h2]
    simp only [PyM.ofRes, bind, Except.bind, h3, Bool.false_eq_true, if_false, lists_ok hh h4, pure, Except.pure,
      release_lose _ _ hh, nones_flatten h4, List.append_nil]

theorem no_attributeError {l : List PyCall} (h : ∀ c ∈ l, c ≠ .attributeError) : l.contains .attributeError = false := by
  rw [← Bool.not_eq_true, List.contains_iff_mem]
  exact fun hm => h _ hm rfl

theorem pyInv_clear {cols : List Column} {size : Nat} {st : PyChunk} {rest : List (Nat × Row)}
    (h : PyInv cols size st rest) : PyInv cols size st.clear [] :=
  ⟨h.size, h.cols, stored_clear h.stored, rfl, by simp⟩

theorem convertible_readable {cols : List Column} {i : Nat} {r : Row} {rows : List (Nat × Row)}
    (h : Convertible cols rows) (hm : (i, r) ∈ rows) : ∀ c ∈ typed cols, ∃ v, c.value r.mem = .ok (some v) :=
  fun c hc => let ⟨v, _, e, _⟩ := h c hc (i, r) hm; ⟨v, e⟩

theorem pyInv_convert {cols : List Column} {size : Nat} {st : PyChunk} {rest : List (Nat × Row)}
    (h : PyInv cols size st rest) (hc : Convertible cols rest) :
    ∃ vss, List.Forall₂ (List.Forall₂ fun c v => Cell.toPy c = .ok v) st.vals vss := by
  refine stored_convert h.stored fun g hg r hr v hv => ?_
  rw [h.cols] at hg
  obtain ⟨w, y, h1, h2⟩ := hc g.1 (grouped_value hg).1 r hr
  rw [grouped_read hg h1] at hv
  cases hv
  exact ⟨y, h2⟩

theorem event_push {cols : List Column} {rest : List (Nat × Row)} {s : RefSession σ}
    (hp : Pending cols rest s.cpp) (i : Nat) (r : Row) (hc : Convertible cols (rest ++ [(i, r)])) :
    ∃ k vals cpp rest', k + nones vals + missingCells cols rest' = missingCells cols (rest ++ [(i, r)]) ∧
      Pending cols rest' cpp ∧ cpp.attr = s.cpp.attr ∧ Convertible cols rest' ∧
      (cpp.cap = s.cpp.cap ∧ rest' = keepBack s.cpp.cap (rest ++ [(i, r)])) ∧
      ∀ h0 : PyHeap, h0.Ok → ({ s with heap := h0 } : RefSession σ).event (.pushRow i r) =
        (lose h0 k).bind fun h => .ok { s with cpp := cpp, heap := h, kept := s.kept ++ vals } := by
  have hr := convertible_readable hc (i := i) (r := r) (by simp)
  generalize hcpp : s.cpp = cpp at hp
  cases cpp with
  | row st =>
    obtain ⟨rfl, rfl⟩ := hp
    obtain ⟨l, hl⟩ := rowList_ok st.columns r.mem hr
    obtain ⟨h1, h2⟩ := rowList_missing (i := i) _ _ hl
    have h3 : ∃ vs, List.Forall₂ (fun c v => Cell.toPy c = .ok v) l vs := by
      have : ∀ c ∈ l, ∃ y, c.toPy = .ok y := by
        intro v hv
        obtain ⟨c, hc1, e⟩ := h2 v hv
        obtain ⟨w, y, e1, e2⟩ := hc c hc1 (i, r) (by simp)
        rw [e] at e1
        cases e1
        exact ⟨y, e2⟩
      clear h1 h2 hl
      induction l with
      | nil => exact ⟨[], .nil⟩
      | cons c l ih =>
        obtain ⟨y, hy⟩ := this c (by simp)
        obtain ⟨vs, hvs⟩ := ih fun c hm => this c (List.mem_cons_of_mem _ hm)
        exact ⟨y :: vs, .cons hy hvs⟩
    obtain ⟨vs, hvs⟩ := h3
    obtain ⟨k, vals, e1, e2⟩ := event_eq (s := s) (ev := .pushRow i r) (made := [l]) (cpp := .row st)
      (out := [.pushRow i l]) (by rw [hcpp]; simp only [CppSink.made, hl]; rfl)
      (by rw [hcpp]; simp only [CppSink.step, PyRowSink.step, hl]; rfl) (no_attributeError (by simp)) (.cons hvs .nil)
    refine ⟨k, vals, .row st, [], ?_, ⟨rfl, rfl⟩, rfl, fun c _ r hr => by simp at hr, ⟨rfl, rfl⟩, by rw [hcpp] at e2; exact e2⟩
    rw [e1, List.nil_append, ← h1]
    rfl
  | data st =>
    obtain ⟨n, hp⟩ := hp
    obtain ⟨st', h1, h2, -, h3⟩ := hp.store (i := i) hr
    obtain ⟨k, vals, e1, e2⟩ := event_eq (s := s) (ev := .pushRow i r) (made := []) (cpp := .data st')
      (out := []) (by rw [hcpp]; rfl)
      (by rw [hcpp]; simp only [CppSink.step, PyChunk.dataStep, h1]; rfl) rfl .nil
    refine ⟨k, vals, .data st', _, ?_, ⟨n, h2⟩, h3, hc, ⟨rfl, rfl⟩, by rw [hcpp] at e2; exact e2⟩
    rw [e1]
    simp
  | chunk st =>
    obtain ⟨n, hp⟩ := hp
    obtain ⟨st', h1, h2, -, h3⟩ := hp.store (i := i) hr
    have hsz : st'.size = st.size := h2.size.trans hp.size.symm
    have hz : (CppSink.chunk st'.clear).cap = (CppSink.chunk st).cap := congrArg some hsz
    by_cases hs : st'.idata = st'.size
    · obtain ⟨vss, hvss⟩ := pyInv_convert h2 hc
      have hne : st'.idata ≠ 0 := by rw [h2.idata]; simp
      obtain ⟨k, vals, e1, e2⟩ := event_eq (s := s) (ev := .pushRow i r) (made := st'.vals) (cpp := .chunk st'.clear)
        (out := [.pushRows st'.istart st'.iend (dictOf st'.cols st'.vals [])])
        (by rw [hcpp]; simp only [CppSink.made, h1, bind, Except.bind, if_pos hs]; rfl)
        (by rw [hcpp]; simp only [CppSink.step, PyChunk.step, h1, bind, Except.bind, if_pos hs, PyChunk.flush, if_pos hne]; rfl)
        (no_attributeError (by simp)) hvss
      refine ⟨k, vals, .chunk st'.clear, [], ?_, ⟨n, pyInv_clear h2⟩, h3, fun c _ r hr => by simp at hr,
        ⟨hz, by rw [keepBack, CppSink.cap, if_pos (by rw [← h2.idata, hs, ← hsz])]⟩, by rw [hcpp] at e2; exact e2⟩
      have := h2.stored
      rw [h2.cols] at this
      rw [e1, stored_missing this]
      rfl
    · obtain ⟨k, vals, e1, e2⟩ := event_eq (s := s) (ev := .pushRow i r) (made := []) (cpp := .chunk st')
        (out := []) (by rw [hcpp]; simp only [CppSink.made, h1, bind, Except.bind, if_neg hs]; rfl)
        (by rw [hcpp]; simp only [CppSink.step, PyChunk.step, h1, bind, Except.bind, if_neg hs]; rfl) rfl .nil
      refine ⟨k, vals, .chunk st', _, ?_, ⟨n, h2⟩, h3, hc,
        ⟨congrArg some hsz, by rw [keepBack, CppSink.cap, if_neg (by rw [← h2.idata, ← hsz]; simpa using hs)]⟩,
        by rw [hcpp] at e2; exact e2⟩
      rw [e1]
      simp

theorem event_end {cols : List Column} {rest : List (Nat × Row)} {s : RefSession σ}
    (hp : Pending cols rest s.cpp) (ha : s.cpp.attr = true) (hc : Convertible cols rest) :
    ∃ k vals cpp, k + nones vals = missingCells cols rest ∧ Pending cols [] cpp ∧ cpp.attr = false ∧ cpp.cap = s.cpp.cap ∧
      ∀ h0 : PyHeap, h0.Ok → ({ s with heap := h0 } : RefSession σ).event .endOfData =
        (lose h0 k).bind fun h => .ok { s with cpp := cpp, heap := h, kept := s.kept ++ vals } := by
  generalize hcpp : s.cpp = cpp at hp ha
  cases cpp with
  | row st =>
    obtain ⟨rfl, rfl⟩ := hp
    have ha : st.attr = true := ha
    obtain ⟨k, vals, e1, e2⟩ := event_eq (s := s) (ev := .endOfData) (made := []) (cpp := .row { st with attr := false })
      (out := []) (by rw [hcpp]; rfl)
      (by rw [hcpp]; simp only [CppSink.step, PyRowSink.step, ha]; rfl) rfl .nil
    exact ⟨k, vals, .row { st with attr := false }, by rw [e1]; rfl, ⟨rfl, rfl⟩, rfl, rfl, by rw [hcpp] at e2; exact e2⟩
  | data st =>
    obtain ⟨n, hp⟩ := hp
    have ha : st.attr = true := ha
    by_cases hi : st.idata ≠ 0
    · obtain ⟨vss, hvss⟩ := pyInv_convert hp hc
      obtain ⟨k, vals, e1, e2⟩ := event_eq (s := s) (ev := .endOfData) (made := st.vals)
        (cpp := .data ({ st with attr := false } : PyChunk).clear)
        (out := [.setData (dictOf st.cols st.vals [])]) (by rw [hcpp]; simp only [CppSink.made, if_pos hi])
        (by rw [hcpp]; simp only [CppSink.step, PyChunk.dataStep, if_pos hi, ha]; rfl)
        (no_attributeError (by simp)) hvss
      have := hp.stored
      rw [hp.cols] at this
      exact ⟨k, vals, .data ({ st with attr := false } : PyChunk).clear, by rw [e1, stored_missing this],
        ⟨n, hp.size, hp.cols, stored_clear hp.stored, rfl, by simp⟩, rfl, rfl, by rw [hcpp] at e2; exact e2⟩
    · obtain ⟨k, vals, e1, e2⟩ := event_eq (s := s) (ev := .endOfData) (made := [])
        (cpp := .data ({ st with attr := false } : PyChunk)) (out := [])
        (by rw [hcpp]; simp only [CppSink.made, if_neg hi])
        (by rw [hcpp]; simp only [CppSink.step, PyChunk.dataStep, if_neg hi, ha]; rfl) rfl .nil
      have hnil : rest = [] := by
        have := hp.idata
        rw [not_not.1 hi] at this
        exact List.length_eq_zero_iff.1 this.symm
      subst hnil
      exact ⟨k, vals, .data { st with attr := false }, by rw [e1]; rfl, ⟨n, hp.size, hp.cols, hp.stored, hp.idata, by simp⟩, rfl, rfl, by rw [hcpp] at e2; exact e2⟩
  | chunk st =>
    obtain ⟨n, hp⟩ := hp
    have ha : st.attr = true := ha
    by_cases hi : st.idata ≠ 0
    · obtain ⟨vss, hvss⟩ := pyInv_convert hp hc
      obtain ⟨k, vals, e1, e2⟩ := event_eq (s := s) (ev := .endOfData) (made := st.vals)
        (cpp := .chunk ({ st with attr := false } : PyChunk).clear)
        (out := [.pushRows st.istart st.iend (dictOf st.cols st.vals [])])
        (by rw [hcpp]; simp only [CppSink.made, if_pos hi])
        (by rw [hcpp]; simp only [CppSink.step, PyChunk.step, PyChunk.flush, if_pos hi, ha]; rfl)
        (no_attributeError (by simp)) hvss
      have := hp.stored
      rw [hp.cols] at this
      exact ⟨k, vals, .chunk ({ st with attr := false } : PyChunk).clear, by rw [e1, stored_missing this],
        ⟨n, hp.size, hp.cols, stored_clear hp.stored, rfl, by simp⟩, rfl, rfl, by rw [hcpp] at e2; exact e2⟩
    · obtain ⟨k, vals, e1, e2⟩ := event_eq (s := s) (ev := .endOfData) (made := [])
        (cpp := .chunk ({ st with attr := false } : PyChunk)) (out := [])
        (by rw [hcpp]; simp only [CppSink.made, if_neg hi])
        (by rw [hcpp]; simp only [CppSink.step, PyChunk.step, PyChunk.flush, if_neg hi, ha]; rfl) rfl .nil
      have hnil : rest = [] := by
        have := hp.idata
        rw [not_not.1 hi] at this
        exact List.length_eq_zero_iff.1 this.symm
      subst hnil
      exact ⟨k, vals, .chunk { st with attr := false }, by rw [e1]; rfl, ⟨n, hp.size, hp.cols, hp.stored, hp.idata, by simp⟩, rfl, rfl, by rw [hcpp] at e2; exact e2⟩

/-- A program that does this to the interpreter: it loses `k` references, and goes on as `s`. -/
def Does (p : PyHeap → PyM (RefSession σ)) (k : Nat) (s : RefSession σ) : Prop :=
  ∀ h0 : PyHeap, h0.Ok → p h0 = (lose h0 k).bind fun h => .ok { s with heap := h }

theorem Does.bind {p : PyHeap → PyM (RefSession σ)} {k k' : Nat} {s s' : RefSession σ}
    {f : RefSession σ → PyM (RefSession σ)} (h : Does p k s) (h' : Does (fun h => f { s with heap := h }) k' s') :
    Does (fun h => (p h).bind f) (k + k') s' := by
  intro h0 hh
  dsimp only
  rw [h h0 hh, ← lose_lose]
  cases e : lose h0 k with
  | error x => rfl
  | ok h1 => exact h' h1 (lose_ok hh e)

theorem Does.ok {s : RefSession σ} : Does (fun h => .ok { s with heap := h }) 0 s := by
  intro h0 hh
  rw [lose_zero hh]
  rfl

theorem convertible_app {cols : List Column} {a b : List (Nat × Row)} (h : Convertible cols (a ++ b)) :
    Convertible cols a ∧ Convertible cols b :=
  ⟨fun c hc r hr => h c hc r (List.mem_append_left _ hr), fun c hc r hr => h c hc r (List.mem_append_right _ hr)⟩

theorem convertible_join {cols : List Column} {a b : List (Nat × Row)} (h1 : Convertible cols a)
    (h2 : Convertible cols b) : Convertible cols (a ++ b) := fun c hc r hr =>
  (List.mem_append.1 hr).elim (h1 c hc r) (h2 c hc r)

theorem events_pay {cols : List Column} : ∀ (es : List Event) (s : RefSession σ) (rest : List (Nat × Row)),
    OneEnd s.cpp.attr es → Pending cols rest s.cpp → (s.cpp.attr = false → rest = []) →
    Convertible cols (rest ++ pushes es) →
    ∃ k vals cpp rest', k + nones vals + missingCells cols rest' = missingCells cols (rest ++ pushes es) ∧
      Pending cols rest' cpp ∧ cpp.attr = attrAfter s.cpp.attr es ∧ Convertible cols rest' ∧
      (cpp.attr = false → rest' = []) ∧
      (cpp.cap = s.cpp.cap ∧ (.endOfData ∉ es → rest' = keptBack s.cpp.cap rest (pushes es))) ∧
      Does (fun h => ({ s with heap := h } : RefSession σ).events es) k { s with cpp := cpp, kept := s.kept ++ vals } := by
  intro es
  induction es with
  | nil =>
    intro s rest _ hp ha hc
    refine ⟨0, [], s.cpp, rest, ?_, hp, by simp [attrAfter], (convertible_app hc).1, ha, ⟨rfl, fun _ => rfl⟩, ?_⟩
    · simp [nones, pushes]
    · rw [List.append_nil]
      exact Does.ok
  | cons e es ih =>
    intro s rest ho hp ha hc
    cases e with
    | setProperties p => exact ho.elim
    | pushRow i r =>
      obtain ⟨ht, ho⟩ := ho
      have hc' : Convertible cols ((rest ++ [(i, r)]) ++ pushes es) := by
        rw [List.append_assoc]
        exact hc
      obtain ⟨k1, v1, cpp1, rest1, e1, e2, e3, e4, ⟨g1, g2⟩, e5⟩ := event_push hp i r (convertible_app hc').1
      obtain ⟨k2, v2, cpp2, rest2, f1, f2, f3, f4, f5, ⟨g3, g4⟩, f6⟩ := ih { s with cpp := cpp1, kept := s.kept ++ v1 } rest1
        (by rw [e3]; exact ho) e2 (fun h => by rw [e3, ht] at h; cases h) (convertible_join e4 (convertible_app hc').2)
      refine ⟨k1 + k2, v1 ++ v2, cpp2, rest2, ?_, f2, ?_, f4, f5, ⟨g3.trans g1, fun hn => ?_⟩, ?_⟩
      · rw [nones_append]
        rw [missingCells_append] at f1
        rw [show rest ++ pushes (.pushRow i r :: es) = (rest ++ [(i, r)]) ++ pushes es by simp [pushes],
          missingCells_append]
        omega
      · rw [f3, e3]
        simp [attrAfter]
      · rw [g4 fun h => hn (List.mem_cons_of_mem _ h), g2]
        dsimp only
        rw [g1]
        rfl
      · rw [← List.append_assoc]
        exact Does.bind (f := fun s => s.events es) (s := { s with cpp := cpp1, kept := s.kept ++ v1 }) e5 f6
    | endOfData =>
      obtain ⟨ht, ho⟩ := ho
      obtain ⟨k1, v1, cpp1, e1, e2, e3, g1, e5⟩ := event_end hp ht (convertible_app hc).1
      obtain ⟨k2, v2, cpp2, rest2, f1, f2, f3, f4, f5, ⟨g3, g4⟩, f6⟩ := ih { s with cpp := cpp1, kept := s.kept ++ v1 } []
        (by rw [e3]; exact ho) e2 (fun _ => rfl) (convertible_app hc).2
      refine ⟨k1 + k2, v1 ++ v2, cpp2, rest2, ?_, f2, ?_, f4, f5, ⟨g3.trans g1, fun hn => absurd (by simp) hn⟩, ?_⟩
      · rw [nones_append]
        rw [List.nil_append] at f1
        rw [show rest ++ pushes (.endOfData :: es) = rest ++ pushes es by simp [pushes], missingCells_append]
        omega
      · rw [f3, e3]
        simp [attrAfter]
      · rw [← List.append_assoc]
        exact Does.bind (f := fun s => s.events es) (s := { s with cpp := cpp1, kept := s.kept ++ v1 }) e5 f6

theorem oneEnd_append : ∀ (a b : List Event) (attr : Bool),
    OneEnd attr (a ++ b) ↔ OneEnd attr a ∧ OneEnd (attrAfter attr a) b := by
  intro a
  induction a with
  | nil => intro b attr; simp [OneEnd, attrAfter]
  | cons e a ih =>
    intro b attr
    cases e with
    | setProperties p => simp [OneEnd]
    | pushRow i r =>
      rw [List.cons_append, OneEnd, OneEnd, ih, and_assoc]
      simp [attrAfter]
    | endOfData =>
      rw [List.cons_append, OneEnd, OneEnd, ih, and_assoc]
      simp [attrAfter]

theorem attrAfter_append (a b : List Event) (attr : Bool) :
    attrAfter attr (a ++ b) = attrAfter (attrAfter attr a) b := by
  unfold attrAfter
  cases attr <;> simp

theorem look_pay {s : RefSession σ} {t : DateTime} (ht : ∃ y, Cell.toPy (.datetime t) = .ok y) :
    Does (fun h => ({ s with heap := h } : RefSession σ).look t) (if t = .notADateTime then 1 else 0) s := by
  obtain ⟨y, hy⟩ := ht
  intro h0 hh
  unfold RefSession.look
  simp only [hy, bind, Except.bind, decref_lose hh]
  have hk : nones [y] = if t = .notADateTime then 1 else 0 := by
    have := missing_none hy
    unfold nones
    rw [List.countP_singleton]
    cases t with
    | notADateTime => rw [if_pos rfl, if_pos (by simpa using this.2 rfl)]
    | «at» us =>
      have hne : y ≠ .time .none := fun h => by simpa [Cell.missing] using this.1 h
      simp [hne]
  rw [hk]
  cases lose h0 _ <;> rfl

theorem run_pay {S : Source σ} {cols : List Column} : ∀ (ss : List RefStmt) (s : RefSession σ)
    (rest : List (Nat × Row)) (more : List Event),
    Reachable S s.reader → (∀ r ∈ (s.reader.run S (calls ss)).1, ∃ v, r = .ok v) →
    (s.reader.run S (calls ss)).2.trace = s.reader.trace ++ more → OneEnd s.cpp.attr more →
    Pending cols rest s.cpp → (s.cpp.attr = false → rest = []) → Convertible cols (rest ++ pushes more) →
    (∃ y, Cell.toPy (.datetime s.reader.props.header.dateCreated) = .ok y) →
    (∃ y, Cell.toPy (.datetime s.reader.props.header.dateModified) = .ok y) →
    ∃ k vals cpp rest', k + nones vals + missingCells cols rest' =
        missingCells cols (rest ++ pushes more) + missingLooks s.reader.props ss ∧
      Pending cols rest' cpp ∧ cpp.attr = attrAfter s.cpp.attr more ∧ (cpp.attr = false → rest' = []) ∧
      (cpp.cap = s.cpp.cap ∧ (.endOfData ∉ more → rest' = keptBack s.cpp.cap rest (pushes more))) ∧
      Does (fun h => ({ s with heap := h } : RefSession σ).run S ss) k
        { s with reader := (s.reader.run S (calls ss)).2, cpp := cpp, kept := s.kept ++ vals } := by
  intro ss
  induction ss with
  | nil =>
    intro s rest more _ _ htr ho hp ha hc _ _
    have : more = [] := by
      rw [show (s.reader.run S (calls [])).2 = s.reader from rfl] at htr
      simpa using htr
    subst this
    refine ⟨0, [], s.cpp, rest, ?_, hp, by simp [attrAfter], ha, ⟨rfl, fun _ => rfl⟩, ?_⟩
    · simp [nones, pushes, missingLooks]
    · rw [List.append_nil]
      exact Does.ok
  | cons st ss ih =>
    intro s rest more hR hres htr ho hp ha hc hd1 hd2
    have key : ∀ (t : DateTime) (hl : (∃ y, Cell.toPy (.datetime t) = .ok y)),
        (∀ s' : RefSession σ, s'.reader = s.reader → s'.stmt S st = s'.look t) → calls (st :: ss) = calls ss →
        missingLooks s.reader.props (st :: ss) = (if t = .notADateTime then 1 else 0) + missingLooks s.reader.props ss →
        ∃ k vals cpp rest', k + nones vals + missingCells cols rest' =
          missingCells cols (rest ++ pushes more) + missingLooks s.reader.props (st :: ss) ∧
        Pending cols rest' cpp ∧ cpp.attr = attrAfter s.cpp.attr more ∧ (cpp.attr = false → rest' = []) ∧
      (cpp.cap = s.cpp.cap ∧ (.endOfData ∉ more → rest' = keptBack s.cpp.cap rest (pushes more))) ∧
        Does (fun h => ({ s with heap := h } : RefSession σ).run S (st :: ss)) k
          { s with reader := (s.reader.run S (calls (st :: ss))).2, cpp := cpp, kept := s.kept ++ vals } := by
      intro t hl hst hcalls hlook
      rw [hcalls] at hres htr ⊢
      obtain ⟨k, vals, cpp, rest', e1, e2, e3, e4, eg, e5⟩ := ih s rest more hR hres htr ho hp ha hc hd1 hd2
      refine ⟨(if t = .notADateTime then 1 else 0) + k, vals, cpp, rest', ?_, e2, e3, e4, eg, ?_⟩
      · rw [hlook]; omega
      · have := Does.bind (f := fun s => s.run S ss) (look_pay (s := s) hl) e5
        intro h0 hh
        have h2 := this h0 hh
        dsimp only at h2 ⊢
        rw [RefSession.run, hst { s with heap := h0 } rfl]
        exact h2
    cases st with
    | dateCreated =>
      refine key _ hd1 (fun s' h => by rw [RefSession.stmt, h]) rfl ?_
      unfold missingLooks
      rw [List.countP_cons, Nat.add_comm]
      simp
    | dateModified =>
      refine key _ hd2 (fun s' h => by rw [RefSession.stmt, h]) rfl ?_
      unfold missingLooks
      rw [List.countP_cons, Nat.add_comm]
      simp
    | call op =>
      have hR1 : Reachable S (s.reader.step S op).2 := .called _ _ hR
      obtain ⟨rows, ht, -⟩ := Reader.step_trace (S := S) s.reader (Reachable.inv hR) op
      have hpr : (s.reader.step S op).2.props = s.reader.props := (Reader.step_inv _ (Reachable.inv hR) op).2.1
      rw [List.append_assoc] at ht
      rw [show calls (.call op :: ss) = op :: calls ss from rfl] at hres htr ⊢
      generalize hx : s.reader.step S op = x at ht hR1 hpr
      obtain ⟨r, R1⟩ := x
      rw [Reader.run, hx] at hres htr
      simp only [Reader.run, hx]
      cases r with
      | error e => cases e <;> simp at hres
      | ok v =>
        simp only at hres htr ht hR1 hpr ⊢
        generalize pushEvents s.reader.rd.row rows ++ endEvents (signalsEnd op (.ok v)) = new at ht
        obtain ⟨more', hm⟩ := run_prefix (S := S) (calls ss) R1 (Reachable.inv hR1)
        have hmore : more = new ++ more' := by
          rw [hm, ht, List.append_assoc] at htr
          exact (List.append_cancel_left htr).symm
        subst hmore
        rw [oneEnd_append] at ho
        rw [pushes_append, ← List.append_assoc] at hc ⊢
        obtain ⟨k1, v1, cpp1, rest1, e1, e2, e3, e4, e5, ⟨g1, g2⟩, e6⟩ := events_pay new { s with reader := R1 } rest ho.1 hp ha
          (convertible_app hc).1
        obtain ⟨k2, v2, cpp2, rest2, f1, f2, f3, f4, ⟨g3, g4⟩, f5⟩ := ih { s with reader := R1, cpp := cpp1, kept := s.kept ++ v1 }
          rest1 more' hR1 (fun r hr => hres r (List.mem_cons_of_mem _ hr)) hm (by rw [e3]; exact ho.2) e2 e5
          (convertible_join e4 (convertible_app hc).2) (by rw [hpr]; exact hd1) (by rw [hpr]; exact hd2)
        refine ⟨k1 + k2, v1 ++ v2, cpp2, rest2, ?_, f2, ?_, f4, ⟨g3.trans g1, fun hn => ?_⟩, ?_⟩
        · rw [nones_append]
          dsimp only at f1
          rw [hpr] at f1
          rw [missingCells_append] at f1 ⊢
          rw [show missingLooks s.reader.props (.call op :: ss) = missingLooks s.reader.props ss by
            unfold missingLooks; rw [List.countP_cons]; simp]
          omega
        · rw [f3, e3, attrAfter_append]
        · rw [g4 fun h => hn (List.mem_append_right _ h), g2 fun h => hn (List.mem_append_left _ h)]
          dsimp only
          rw [g1]
          unfold keptBack
          rw [List.foldl_append]
        · rw [← List.append_assoc]
          have := Does.bind (f := fun s => s.run S ss) e6 f5
          intro h0 hh
          have h2 := this h0 hh
          dsimp only at h2 ⊢
          rw [← h2, RefSession.run, RefSession.stmt, hx]
          simp only [ht, List.drop_left, bind, Except.bind]
          cases ({ s with reader := R1, heap := h0 } : RefSession σ).events new <;> rfl

/-- What is held of rows one after the other: those after the last multiple of the size. -/
theorem keptBack_some (n : Nat) : ∀ rows : List (Nat × Row),
    keptBack (some n) [] rows = rows.drop (rows.length - rows.length % n) := by
  intro rows
  induction rows using List.reverseRecOn with
  | nil => rfl
  | append_singleton rows r ih =>
    unfold keptBack at ih ⊢
    rw [List.foldl_append, ih]
    simp only [List.foldl_cons, List.foldl_nil, keepBack, List.length_append, List.length_drop, List.length_singleton,
      Option.some.injEq]
    have hm : rows.length % n ≤ rows.length := Nat.mod_le _ _
    rw [show rows.length - (rows.length - rows.length % n) + 1 = rows.length % n + 1 by omega]
    by_cases h : rows.length % n + 1 = n
    · have : (rows.length + 1) % n = 0 := by
        rw [Nat.add_mod]
        by_cases h1 : n = 1
        · subst h1; simp [Nat.mod_one]
        · rw [Nat.mod_eq_of_lt (show 1 < n by omega), h, Nat.mod_self]
      rw [if_pos h, this, Nat.sub_zero, List.drop_eq_nil_of_le (by simp)]
    · have : (rows.length + 1) % n = rows.length % n + 1 := by
        by_cases h0 : n = 0
        · subst h0; simp
        · have := Nat.mod_lt rows.length (show n > 0 by omega)
          rw [Nat.add_mod, Nat.mod_eq_of_lt (show 1 < n by omega), Nat.mod_eq_of_lt (by omega)]
      rw [if_neg h, this, List.drop_append_of_le_length (by omega)]
      congr 2
      omega

theorem keptBack_none : ∀ rows rest : List (Nat × Row), keptBack none rest rows = rest ++ rows := by
  intro rows
  induction rows with
  | nil => simp [keptBack]
  | cons r rows ih =>
    intro rest
    unfold keptBack at ih ⊢
    rw [List.foldl_cons, ih]
    simp [keepBack]

end Sas
