import Verif.Spec.ColumnObjects
import Verif.Props.Several

/-!
# Property C97: columns as values
-/

namespace Sas.Props

open Sas Spec

/-- A formatter with `n` pointers to it. -/
def blockOf (cols : List Column) (b n : Nat) : Option FmtBlock :=
  if n = 0 then none else cols[b]?.map fun c => ⟨c.fmt, c.offset, c.length, n⟩

def HeapIs (cols : List Column) (h : FmtHeap) (n : Nat → Nat) : Prop := ∀ b, h b = blockOf cols b (n b)

def refersTo (b : Nat) (o : ColObj) : Bool := o.pimpl == some b

def refersTo? (b : Nat) : Option ColObj → Bool
  | some o => refersTo b o
  | none => false

/-- One, if this pointer refers to `b`. -/
def oneAt (p : Option Nat) (b : Nat) : Nat := if p = some b then 1 else 0

theorem share_ok {cols : List Column} {h : FmtHeap} {n : Nat → Nat} (hh : HeapIs cols h n) (p : Option Nat)
    (hp : ∀ b, p = some b → 0 < n b ∧ b < cols.length) :
    ∃ h', h.share p = .ok h' ∧ HeapIs cols h' fun b => n b + oneAt p b := by
  cases p with
  | none => exact ⟨h, rfl, fun b => by simpa [oneAt] using hh b⟩
  | some b =>
    obtain ⟨h1, h2⟩ := hp b rfl
    have hb := hh b
    unfold blockOf at hb
    rw [if_neg (by omega), List.getElem?_eq_getElem h2] at hb
    refine ⟨_, by simp only [FmtHeap.share, hb, Option.map_some]; rfl, fun x => ?_⟩
    unfold put
    by_cases hx : x = b
    · subst hx
      rw [if_pos rfl]
      simp [blockOf, oneAt, List.getElem?_eq_getElem h2]
    · rw [if_neg hx, hh x]
      have : ¬ b = x := fun e => hx e.symm
      simp [oneAt, this]

theorem release_ok {cols : List Column} {h : FmtHeap} {n : Nat → Nat} (hh : HeapIs cols h n) (p : Option Nat)
    (hp : ∀ b, p = some b → 0 < n b ∧ b < cols.length) :
    ∃ h', h.release p = .ok h' ∧ HeapIs cols h' fun b => n b - oneAt p b := by
  cases p with
  | none => exact ⟨h, rfl, fun b => by simpa [oneAt] using hh b⟩
  | some b =>
    obtain ⟨h1, h2⟩ := hp b rfl
    have hb := hh b
    unfold blockOf at hb
    rw [if_neg (by omega), List.getElem?_eq_getElem h2] at hb
    refine ⟨_, by simp only [FmtHeap.release, hb, Option.map_some]; rfl, fun x => ?_⟩
    unfold put
    by_cases hx : x = b
    · subst hx
      rw [if_pos rfl]
      by_cases h3 : n x = 1
      · simp [h3, blockOf, oneAt]
      · simp only [if_neg h3, blockOf, oneAt, if_true, List.getElem?_eq_getElem h2, Option.map_some]
        rw [if_neg (by omega)]
    · rw [if_neg hx, hh x]
      have : ¬ b = x := fun e => hx e.symm
      simp [oneAt, this]

theorem releaseAll_ok {cols : List Column} : ∀ (os : List ColObj) {h : FmtHeap} {n : Nat → Nat}, HeapIs cols h n →
    (∀ o ∈ os, ∀ b, o.pimpl = some b → b < cols.length) → (∀ b, os.countP (refersTo b) ≤ n b) →
    ∃ h', h.releaseAll os = .ok h' ∧ HeapIs cols h' fun b => n b - os.countP (refersTo b) := by
  intro os
  induction os with
  | nil => exact fun {h n} hh _ _ => ⟨h, rfl, by simpa using hh⟩
  | cons o os ih =>
    intro h n hh h1 h2
    have hc : ∀ b, (o :: os).countP (refersTo b) = os.countP (refersTo b) + oneAt o.pimpl b := by
      intro b
      rw [List.countP_cons]
      simp [refersTo, oneAt]
    obtain ⟨h', e1, e2⟩ := release_ok hh o.pimpl fun b hb => by
      refine ⟨?_, h1 o (List.mem_cons_self ..) b hb⟩
      have := h2 b
      rw [hc, hb] at this
      simp only [oneAt, if_true] at this
      omega
    obtain ⟨h'', e3, e4⟩ := ih e2 (fun o ho => h1 o (List.mem_cons_of_mem _ ho)) fun b => by
      have := h2 b
      rw [hc] at this
      omega
    refine ⟨h'', ?_, fun b => ?_⟩
    · simp only [FmtHeap.releaseAll, e1]
      exact e3
    · rw [e4 b]
      dsimp only
      rw [hc]
      congr 1
      omega

/-- What an object of the program stands for. -/
inductive Stands (cols : List Column) : Option ColObj → ColValue → Prop
  | gone : Stands cols none .gone
  | whole (b : Nat) (c : Column) (h : cols[b]? = some c) : Stands cols (some (c.object b)) (.whole c)
  | shell (c : Column) : Stands cols (some { c.object 0 with pimpl := none }) (.shell c)

structure AgreeC (s : ColProgram) (w : ColWorld) : Prop where
  own : s.own = if w.alive then some (w.cols.mapIdx fun i c => c.object i) else none
  len : s.objs.length = w.objs.length
  objs : ∀ (j : Nat) (o : Option ColObj) (v : ColValue), s.objs[j]? = some o → w.objs[j]? = some v → Stands w.cols o v
  heap : HeapIs w.cols s.heap fun b => (s.own.getD []).countP (refersTo b) + s.objs.countP (refersTo? b)

theorem own_count : ∀ (cols : List Column) (k b : Nat),
    (cols.mapIdx fun i c => c.object (i + k)).countP (refersTo b) = if k ≤ b ∧ b < k + cols.length then 1 else 0 := by
  intro cols
  induction cols with
  | nil =>
    intro k b
    rw [if_neg (by simp)]
    rfl
  | cons c cols ih =>
    intro k b
    have h1 : (fun i c => Column.object c (i + 1 + k)) = fun i c => Column.object c (i + (k + 1)) := by
      funext i c
      rw [Nat.add_assoc, Nat.add_comm 1 k]
    rw [List.mapIdx_cons, List.countP_cons]
    rw [h1, ih (k + 1) b]
    simp only [refersTo, Column.object, Nat.zero_add, beq_iff_eq, Option.some.injEq, List.length_cons]
    split <;> split <;> split <;> omega

theorem agree_start (cols : List Column) : AgreeC (ColProgram.start cols) ⟨cols, true, []⟩ := by
  refine ⟨rfl, rfl, fun j o v h => by simp [ColProgram.start] at h, fun b => ?_⟩
  simp only [ColProgram.start, Option.getD_some, List.countP_nil, Nat.add_zero]
  have := own_count cols 0 b
  simp only [Nat.add_zero, Nat.zero_le, true_and, Nat.zero_add] at this
  rw [this]
  unfold blockOf
  by_cases h : b < cols.length
  · simp [h]
  · simp [h]

theorem countP_pos {α : Type} {p : α → Bool} {l : List α} {j : Nat} {x : α} (h : l[j]? = some x) (hp : p x = true) :
    0 < l.countP p := List.countP_pos_iff.mpr ⟨x, List.mem_of_getElem? h, hp⟩

theorem countP_set {α : Type} (p : α → Bool) (y : α) : ∀ (l : List α) (j : Nat) (x : α), l[j]? = some x →
    (l.set j y).countP p + (if p x then 1 else 0) = l.countP p + (if p y then 1 else 0) := by
  intro l
  induction l with
  | nil => intro j x h; simp at h
  | cons a l ih =>
    intro j x h
    cases j with
    | zero =>
      simp only [List.getElem?_cons_zero, Option.some.injEq] at h
      subst h
      simp only [List.set_cons_zero, List.countP_cons]
      omega
    | succ j =>
      simp only [List.getElem?_cons_succ] at h
      simp only [List.set_cons_succ, List.countP_cons]
      have := ih j x h
      omega

theorem refersTo_at (o : ColObj) (b : Nat) : (if refersTo? b (some o) then 1 else 0) = oneAt o.pimpl b := by
  simp [refersTo?, refersTo, oneAt]

theorem get_append_one {α : Type} {l : List α} {y x : α} {j : Nat} (h : (l ++ [y])[j]? = some x) :
    l[j]? = some x ∨ (j = l.length ∧ x = y) := by
  by_cases hj : j < l.length
  · rw [List.getElem?_append_left hj] at h
    exact .inl h
  · rw [List.getElem?_append_right (by omega)] at h
    have : j - l.length = 0 := by
      by_contra hne
      rw [List.getElem?_eq_none (by simp; omega)] at h
      cases h
    rw [this] at h
    simp only [List.getElem?_cons_zero, Option.some.injEq] at h
    exact .inr ⟨by omega, h.symm⟩

theorem stands_append {cols : List Column} {l : List (Option ColObj)} {m : List ColValue} (hlen : l.length = m.length)
    (h : ∀ (j : Nat) (o : Option ColObj) (v : ColValue), l[j]? = some o → m[j]? = some v → Stands cols o v) {o' : Option ColObj} {v' : ColValue}
    (hn : Stands cols o' v') : ∀ (j : Nat) (o : Option ColObj) (v : ColValue), (l ++ [o'])[j]? = some o → (m ++ [v'])[j]? = some v → Stands cols o v := by
  intro j o v h1 h2
  rcases get_append_one h1 with h1 | ⟨e1, rfl⟩ <;> rcases get_append_one h2 with h2 | ⟨e2, rfl⟩
  · exact h j o v h1 h2
  · rw [List.getElem?_eq_none (by omega)] at h1; cases h1
  · rw [List.getElem?_eq_none (by omega)] at h2; cases h2
  · exact hn

theorem stands_set {cols : List Column} {l : List (Option ColObj)} {m : List ColValue}
    (h : ∀ (j : Nat) (o : Option ColObj) (v : ColValue), l[j]? = some o → m[j]? = some v → Stands cols o v) (k : Nat) {o' : Option ColObj} {v' : ColValue}
    (hn : Stands cols o' v') : ∀ (j : Nat) (o : Option ColObj) (v : ColValue), (l.set k o')[j]? = some o → (m.set k v')[j]? = some v → Stands cols o v := by
  intro j o v h1 h2
  rw [List.getElem?_set] at h1 h2
  by_cases hk : k = j
  · rw [if_pos hk] at h1 h2
    split at h1 <;> split at h2
    · cases h1; cases h2; exact hn
    · cases h2
    · cases h1
    · cases h1
  · rw [if_neg hk] at h1 h2
    exact h j o v h1 h2

/-- The objects of the two programs at one place. -/
theorem agree_at {s : ColProgram} {w : ColWorld} (h : AgreeC s w) (j : Nat) :
    (∃ c b, w.objs[j]? = some (.whole c) ∧ s.objs[j]? = some (some (c.object b)) ∧ w.cols[b]? = some c) ∨
    (∃ c, w.objs[j]? = some (.shell c) ∧ s.objs[j]? = some (some { c.object 0 with pimpl := none })) ∨
    ((∀ c, w.objs[j]? ≠ some (.whole c) ∧ w.objs[j]? ≠ some (.shell c)) ∧ ∀ o, s.objs[j]? ≠ some (some o)) := by
  by_cases hj : j < s.objs.length
  · have h1 := List.getElem?_eq_getElem hj
    have h2 := List.getElem?_eq_getElem (h.len ▸ hj : j < w.objs.length)
    have h3 := h.objs j _ _ h1 h2
    generalize s.objs[j] = o at h1 h3
    generalize w.objs[j]'(h.len ▸ hj) = v at h2 h3
    cases h3 with
    | gone => exact .inr (.inr ⟨fun c => by rw [h2]; simp, fun o => by rw [h1]; simp⟩)
    | whole b c hc => exact .inl ⟨c, b, h2, h1, hc⟩
    | shell c => exact .inr (.inl ⟨c, h2, h1⟩)
  · refine .inr (.inr ⟨fun c => ?_, fun o => ?_⟩)
    · rw [List.getElem?_eq_none (by have := h.len; omega)]; simp
    · rw [List.getElem?_eq_none (by omega)]; simp

/-- Results that agree. -/
inductive AgreeR : Res (ColOut × ColProgram) → Res (ColOut × ColWorld) → Prop
  | ok (o : ColOut) {s w} (h : AgreeC s w) : AgreeR (.ok (o, s)) (.ok (o, w))
  | error (e : Stop) : AgreeR (.error e) (.error e)

theorem copyOf_agree {s : ColProgram} {w : ColWorld} (h : AgreeC s w) {o : ColObj} {v : ColValue} (hn : Stands w.cols (some o) v)
    (hp : ∀ b, o.pimpl = some b → 0 < (s.own.getD []).countP (refersTo b) + s.objs.countP (refersTo? b)) :
    ∃ s', s.copyOf o = .ok s' ∧ AgreeC s' { w with objs := w.objs ++ [v] } := by
  have hb : ∀ b, o.pimpl = some b → b < w.cols.length := by
    intro b hb
    cases hn with
    | whole b' c hc =>
      simp only [Column.object, Option.some.injEq] at hb
      subst hb
      exact (List.getElem?_eq_some_iff.mp hc).1
    | shell c => cases hb
  obtain ⟨h', e1, e2⟩ := share_ok h.heap o.pimpl fun b e => ⟨hp b e, hb b e⟩
  refine ⟨{ s with objs := s.objs ++ [some o], heap := h' }, by simp only [ColProgram.copyOf, e1]; rfl, h.own, by simp [h.len],
    stands_append h.len h.objs hn, fun b => ?_⟩
  dsimp only
  rw [e2 b]
  simp only [List.countP_append, List.countP_cons, List.countP_nil, Nat.zero_add, refersTo_at, Nat.add_assoc]

theorem at_ok {s : ColProgram} {j : Nat} {o : ColObj} (h : s.objs[j]? = some (some o)) : s.at j = .ok o := by
  unfold ColProgram.at
  rw [h]

theorem at_ub {s : ColProgram} {j : Nat} (h : ∀ o, s.objs[j]? ≠ some (some o)) : s.at j = .error .ub := by
  unfold ColProgram.at
  split
  · exact absurd (by assumption) (h _)
  · rfl

theorem exec_agree {s : ColProgram} {w : ColWorld} (h : AgreeC s w) (cmd : ColCmd) : AgreeR (s.exec cmd) (w.exec cmd) := by
  cases cmd with
  | take i =>
    unfold ColProgram.exec ColWorld.exec ColProgram.column
    rw [h.own]
    cases ha : w.alive with
    | false => exact .error _
    | true =>
      simp only [if_true, List.getElem?_mapIdx]
      cases hc : w.cols[i]? with
      | none => exact .error _
      | some c =>
        obtain ⟨s', e1, e2⟩ := copyOf_agree h (.whole i c hc) fun b hb => by
          have := own_count w.cols 0 b
          simp only [Nat.add_zero, Nat.zero_le, true_and, Nat.zero_add] at this
          rw [h.own, ha, if_pos rfl, Option.getD_some, this]
          simp only [Column.object, Option.some.injEq] at hb
          subst hb
          rw [if_pos (List.getElem?_eq_some_iff.mp hc).1]
          omega
        simp only [Option.map_some]
        show AgreeR (do return (ColOut.done, ← s.copyOf (c.object i))) _
        rw [e1]
        rw [ha] at e2
        exact .ok _ e2
  | copy j =>
    unfold ColProgram.exec ColWorld.exec
    dsimp only
    rcases agree_at h j with ⟨c, b, h1, h2, hc⟩ | ⟨c, h1, h2⟩ | ⟨h1, h2⟩
    · rw [h1, at_ok h2]
      obtain ⟨s', e1, e2⟩ := copyOf_agree h (.whole b c hc) fun b' hb => by
        have := countP_pos (p := refersTo? b') h2 (by simpa [refersTo?, refersTo] using hb)
        omega
      show AgreeR (do return (ColOut.done, ← s.copyOf (c.object b))) _
      rw [e1]
      exact .ok _ e2
    · rw [h1, at_ok h2]
      obtain ⟨s', e1, e2⟩ := copyOf_agree h (.shell c) fun b' hb => by cases hb
      show AgreeR (do return (ColOut.done, ← s.copyOf { c.object 0 with pimpl := none })) _
      rw [e1]
      exact .ok _ e2
    · rw [at_ub h2]
      split
      · exact absurd (by assumption) (h1 _).1
      · exact absurd (by assumption) (h1 _).2
      · exact .error _
  | move j =>
    unfold ColProgram.exec ColWorld.exec
    dsimp only
    rcases agree_at h j with ⟨c, b, h1, h2, hc⟩ | ⟨c, h1, h2⟩ | ⟨h1, h2⟩
    · rw [h1, at_ok h2]
      refine .ok _ ⟨h.own, by simp [h.len], stands_append (by simp [h.len]) (stands_set h.objs j (.shell c)) (.whole b c hc), fun x => ?_⟩
      rw [h.heap x]
      have := countP_set (refersTo? x) (some { c.object b with pimpl := none }) s.objs j _ h2
      rw [refersTo_at] at this
      have hn : (if refersTo? x (some { c.object b with pimpl := none }) then 1 else 0) = 0 := by simp [refersTo?, refersTo]
      rw [hn] at this
      have h3 : (s.objs.set j (some { c.object b with pimpl := none }) ++ [some (c.object b)]).countP (refersTo? x) = s.objs.countP (refersTo? x) := by
        rw [List.countP_append, List.countP_cons, List.countP_nil, refersTo_at]
        omega
      show _ = blockOf w.cols x ((s.own.getD []).countP (refersTo x) + List.countP (refersTo? x) (s.objs.set j (some { c.object b with pimpl := none }) ++ [some (c.object b)]))
      rw [h3]
    · rw [h1, at_ok h2]
      have hset : s.objs.set j (some { ({ c.object 0 with pimpl := none } : ColObj) with pimpl := none }) = s.objs := by
        obtain ⟨hj, hv⟩ := List.getElem?_eq_some_iff.mp h2
        conv_rhs => rw [← List.set_getElem_self hj, hv]
      show AgreeR (.ok (_, { s with objs := s.objs.set j (some { ({ c.object 0 with pimpl := none } : ColObj) with pimpl := none }) ++ _ })) _
      rw [hset]
      refine .ok _ ⟨h.own, by simp [h.len], stands_append h.len h.objs (.shell c), fun x => ?_⟩
      rw [h.heap x]
      simp only [List.countP_append, List.countP_cons, List.countP_nil, Nat.zero_add, refersTo_at]
      rfl
    · rw [at_ub h2]
      split
      · exact absurd (by assumption) (h1 _).1
      · exact absurd (by assumption) (h1 _).2
      · exact .error _
  | drop j =>
    unfold ColProgram.exec ColWorld.exec
    dsimp only
    have key : ∀ o : ColObj, s.objs[j]? = some (some o) → (∀ b, o.pimpl = some b → b < w.cols.length) →
        AgreeR (do let o ← s.at j; return (ColOut.done, { s with objs := s.objs.set j none, heap := ← s.heap.release o.pimpl }))
          (.ok (.done, { w with objs := w.objs.set j .gone })) := by
      intro o h2 hb
      rw [at_ok h2]
      obtain ⟨h', e1, e2⟩ := release_ok h.heap o.pimpl fun b e => ⟨by
        have := countP_pos (p := refersTo? b) h2 (by simp [refersTo?, refersTo, e])
        omega, hb b e⟩
      show AgreeR (do return (ColOut.done, { s with objs := s.objs.set j none, heap := ← s.heap.release o.pimpl })) _
      rw [e1]
      refine .ok _ ⟨h.own, by simp [h.len], stands_set h.objs j .gone, fun x => ?_⟩
      simp only
      rw [e2 x]
      have := countP_set (refersTo? x) none s.objs j _ h2
      rw [refersTo_at] at this
      have hn : (if refersTo? x none then 1 else 0) = 0 := by simp [refersTo?]
      rw [hn] at this
      dsimp only
      congr 1
      omega
    rcases agree_at h j with ⟨c, b, h1, h2, hc⟩ | ⟨c, h1, h2⟩ | ⟨h1, h2⟩
    · rw [h1]
      exact key _ h2 fun b' hb => by
        simp only [Column.object, Option.some.injEq] at hb
        subst hb
        exact (List.getElem?_eq_some_iff.mp hc).1
    · rw [h1]
      exact key _ h2 fun b' hb => by cases hb
    · rw [at_ub h2]
      split
      · exact absurd (by assumption) (h1 _).1
      · exact absurd (by assumption) (h1 _).2
      · exact .error _
  | leave =>
    unfold ColProgram.exec ColWorld.exec
    dsimp only
    have ho := h.own
    cases ha : w.alive with
    | false =>
      rw [ha] at ho
      rw [ho]
      exact .error _
    | true =>
      rw [ha, if_pos rfl] at ho
      obtain ⟨h', e1, e2⟩ := releaseAll_ok (w.cols.mapIdx fun i c => c.object i) h.heap (fun o hm b hb => by
        obtain ⟨i, hi, rfl⟩ := List.mem_mapIdx.mp hm
        simp only [Column.object, Option.some.injEq] at hb
        omega) fun b => by rw [ho, Option.getD_some]; omega
      rw [ho]
      simp only [e1]
      refine .ok _ ⟨rfl, h.len, h.objs, fun x => ?_⟩
      dsimp only
      rw [e2 x, ho]
      simp
  | ask j a mem =>
    unfold ColProgram.exec ColWorld.exec
    dsimp only
    rcases agree_at h j with ⟨c, b, h1, h2, hc⟩ | ⟨c, h1, h2⟩ | ⟨h1, h2⟩
    · rw [h1, at_ok h2]
      have hb := h.heap b
      have hpos := countP_pos (p := refersTo? b) h2 (by simp [refersTo?, refersTo, Column.object])
      unfold blockOf at hb
      dsimp only at hb
      rw [if_neg (by omega), hc] at hb
      have : ColObj.ask s.heap (c.object b) a mem = c.answer mem a := by
        unfold ColObj.ask Column.object
        simp only [hb, Option.map_some]
      show AgreeR (do return (ColOut.answer (← ColObj.ask s.heap (c.object b) a mem), s)) _
      rw [this]
      show AgreeR _ ((c.answer mem a).map fun x => (ColOut.answer x, w))
      cases c.answer mem a with
      | ok x => exact .ok _ h
      | error e => exact .error _
    · rw [h1, at_ok h2]
      exact .error _
    · rw [at_ub h2]
      split
      · exact absurd (by assumption) (h1 _).1
      · exact .error _
  | look j =>
    unfold ColProgram.exec ColWorld.exec
    dsimp only
    rcases agree_at h j with ⟨c, b, h1, h2, hc⟩ | ⟨c, h1, h2⟩ | ⟨h1, h2⟩
    · rw [h1, at_ok h2]
      exact .ok _ h
    · rw [h1, at_ok h2]
      exact .ok _ h
    · rw [at_ub h2]
      split
      · exact absurd (by assumption) (h1 _).1
      · exact absurd (by assumption) (h1 _).2
      · exact .error _
  | same j k =>
    unfold ColProgram.exec ColWorld.exec
    dsimp only
    have key : ∀ i, (∃ c o, w.objs[i]?.bind ColValue.column? = some c ∧ s.at i = .ok o ∧ o.name = c.name) ∨
        (w.objs[i]?.bind ColValue.column? = none ∧ s.at i = .error .ub) := by
      intro i
      rcases agree_at h i with ⟨c, b, h1, h2, hc⟩ | ⟨c, h1, h2⟩ | ⟨h1, h2⟩
      · exact .inl ⟨c, _, by rw [h1]; rfl, at_ok h2, rfl⟩
      · exact .inl ⟨c, _, by rw [h1]; rfl, at_ok h2, rfl⟩
      · refine .inr ⟨?_, at_ub h2⟩
        cases hv : w.objs[i]? with
        | none => rfl
        | some v =>
          cases v with
          | gone => rfl
          | whole c => exact absurd hv (h1 c).1
          | shell c => exact absurd hv (h1 c).2
    rcases key j with ⟨c, o, h1, h2, h3⟩ | ⟨h1, h2⟩
    · rw [h1, h2]
      rcases key k with ⟨d, p, h4, h5, h6⟩ | ⟨h4, h5⟩
      · rw [h4]
        show AgreeR (do let p ← s.at k; return (ColOut.equal (o.name == p.name), s)) _
        rw [h5, h3]
        show AgreeR (.ok (ColOut.equal (c.name == p.name), s)) _
        rw [h6]
        exact .ok _ h
      · rw [h4]
        show AgreeR (do let p ← s.at k; return (ColOut.equal (o.name == p.name), s)) _
        rw [h5]
        exact .error _
    · rw [h1, h2]
      exact .error _

theorem run_agree : ∀ (cmds : List ColCmd) {s : ColProgram} {w : ColWorld}, AgreeC s w →
    (s.run cmds).1 = (w.run cmds).1 ∧ AgreeC (s.run cmds).2 (w.run cmds).2 := by
  intro cmds
  induction cmds with
  | nil => exact fun h => ⟨rfl, h⟩
  | cons cmd cmds ih =>
    intro s w h
    have := exec_agree h cmd
    unfold ColProgram.run ColWorld.run
    generalize s.exec cmd = x at this ⊢
    generalize w.exec cmd = y at this ⊢
    cases this with
    | ok o h' =>
      obtain ⟨h1, h2⟩ := ih h'
      exact ⟨by simp only [h1], h2⟩
    | error e =>
      cases e with
      | exn e =>
        obtain ⟨h1, h2⟩ := ih h
        exact ⟨by simp only [h1], h2⟩
      | _ => exact ⟨rfl, h⟩

/-- **C97**: columns are values. Whatever a program does with the columns of a reader, every statement gives what it gives if a copy
is the column itself: neither the end of the reader nor that of other columns matters. -/
theorem C97_values (cols : List Column) (cmds : List ColCmd) :
    ((ColProgram.start cols).run cmds).1 = (ColWorld.run ⟨cols, true, []⟩ cmds).1 :=
  (run_agree cmds (agree_start cols)).1

/-- C97: at any time the formatters that exist are those some living column refers to, and each knows how many do. So none is destroyed while
it is needed, and none is left when the columns are gone. -/
theorem C97_formatters (cols : List Column) (cmds : List ColCmd) (b : Nat) :
    let s := ((ColProgram.start cols).run cmds).2
    (∀ k, s.heap b = some k → k.uses = (living s).countP (fun o => o.pimpl == some b) ∧ 0 < k.uses) ∧
    (s.heap b = none ↔ ∀ o ∈ living s, o.pimpl ≠ some b) := by
  have h := (run_agree cmds (agree_start cols)).2
  generalize ((ColProgram.start cols).run cmds).2 = s at h ⊢
  generalize (ColWorld.run ⟨cols, true, []⟩ cmds).2 = w at h
  intro s'
  have hl : (living s').countP (refersTo b) = (s.own.getD []).countP (refersTo b) + s.objs.countP (refersTo? b) := by
    unfold living
    rw [List.countP_append, List.countP_filterMap]
    congr 1
    apply List.countP_congr
    intro o _
    cases o <;> simp [refersTo?]
  have hb := h.heap b
  simp only at hb
  rw [← hl] at hb
  have hz : (living s').countP (refersTo b) = 0 ↔ ∀ o ∈ living s', o.pimpl ≠ some b := by
    rw [List.countP_eq_zero]
    simp [refersTo]
  have hin : (living s').countP (refersTo b) ≠ 0 → b < w.cols.length := by
    intro hne
    obtain ⟨o, ho, hr⟩ := List.countP_pos_iff.mp (Nat.pos_of_ne_zero hne)
    have hp : o.pimpl = some b := by simpa [refersTo] using hr
    rcases List.mem_append.mp ho with ho | ho
    · have hown := h.own
      rw [show s'.own = s.own from rfl, hown] at ho
      cases ha : w.alive with
      | false => rw [ha] at ho; simp at ho
      | true =>
        rw [ha, if_pos rfl, Option.getD_some] at ho
        obtain ⟨i, hi, rfl⟩ := List.mem_mapIdx.mp ho
        simp only [Column.object, Option.some.injEq] at hp
        omega
    · obtain ⟨x, hx, rfl⟩ := List.mem_filterMap.mp ho
      obtain ⟨j, hj⟩ := List.getElem?_of_mem hx
      rcases agree_at h j with ⟨c, b', _, h2, hc⟩ | ⟨c, _, h2⟩ | ⟨_, h2⟩
      · rw [show s'.objs = s.objs from rfl, h2] at hj
        cases hj
        simp only [Column.object, Option.some.injEq] at hp
        subst hp
        exact (List.getElem?_eq_some_iff.mp hc).1
      · rw [show s'.objs = s.objs from rfl, h2] at hj
        cases hj
        cases hp
      · exact absurd hj (h2 _)
  unfold blockOf at hb
  constructor
  · intro k hk
    rw [show s'.heap = s.heap from rfl, hb] at hk
    split at hk
    · cases hk
    · rename_i hne
      rw [List.getElem?_eq_getElem (hin hne)] at hk
      simp only [Option.map_some, Option.some.injEq] at hk
      subst hk
      exact ⟨rfl, Nat.pos_of_ne_zero hne⟩
  · rw [← hz, show s'.heap = s.heap from rfl, hb]
    constructor
    · intro hn
      by_contra hne
      rw [if_neg hne, List.getElem?_eq_getElem (hin hne)] at hn
      cases hn
    · intro hz
      rw [if_pos hz]

/-- A statement that neither moves nor destroys an object leaves it. -/
theorem kept {w w' : ColWorld} {j : Nat} {v : ColValue} {cmd : ColCmd} {o : ColOut} (hv : w.objs[j]? = some v) (h1 : cmd ≠ .move j)
    (h2 : cmd ≠ .drop j) (h : w.exec cmd = .ok (o, w')) : w'.objs[j]? = some v := by
  have hj := (List.getElem?_eq_some_iff.mp hv).1
  unfold ColWorld.exec at h
  cases cmd with
  | take i =>
    dsimp only at h
    split at h
    · cases h; simp only; rw [List.getElem?_append_left hj]; exact hv
    · cases h
  | copy k =>
    dsimp only at h
    split at h
    · cases h; simp only; rw [List.getElem?_append_left hj]; exact hv
    · cases h; simp only; rw [List.getElem?_append_left hj]; exact hv
    · cases h
  | move k =>
    have hk : k ≠ j := fun e => h1 (by rw [e])
    dsimp only at h
    split at h
    · cases h; simp only; rw [List.getElem?_append_left (by simpa using hj), List.getElem?_set_ne hk]; exact hv
    · cases h; simp only; rw [List.getElem?_append_left hj]; exact hv
    · cases h
  | drop k =>
    have hk : k ≠ j := fun e => h2 (by rw [e])
    dsimp only at h
    split at h
    · cases h; simp only; rw [List.getElem?_set_ne hk]; exact hv
    · cases h; simp only; rw [List.getElem?_set_ne hk]; exact hv
    · cases h
  | leave =>
    dsimp only at h
    split at h
    · cases h; exact hv
    · cases h
  | ask k a mem =>
    dsimp only at h
    split at h
    · rename_i c _
      cases hc : c.answer mem a with
      | ok x => rw [hc] at h; cases h; exact hv
      | error e => rw [hc] at h; cases h
    · cases h
  | look k =>
    dsimp only at h
    split at h
    · cases h; exact hv
    · cases h; exact hv
    · cases h
  | same k l =>
    dsimp only at h
    split at h
    · cases h; exact hv
    · cases h

theorem kept_run {j : Nat} {c : Column} (a : ColAsk) (mem : List Byte) : ∀ (cmds : List ColCmd) {w : ColWorld},
    w.objs[j]? = some (.whole c) → (∀ cmd ∈ cmds, cmd ≠ .move j ∧ cmd ≠ .drop j) → ∀ r,
    (w.run (cmds ++ [.ask j a mem])).1[cmds.length]? = some r → r = (c.answer mem a).map ColOut.answer := by
  intro cmds
  induction cmds with
  | nil =>
    intro w hv _ r hr
    unfold ColWorld.run ColWorld.exec at hr
    simp only [List.nil_append, hv, List.length_nil] at hr
    cases hc : c.answer mem a with
    | ok x =>
      rw [hc] at hr
      cases hr
      rfl
    | error e =>
      rw [hc] at hr
      cases e <;> (cases hr; rfl)
  | cons cmd cmds ih =>
    intro w hv hm r hr
    obtain ⟨h1, h2⟩ := hm cmd (List.mem_cons_self ..)
    have hm' := fun c hc => hm c (List.mem_cons_of_mem _ hc)
    rw [List.cons_append] at hr
    unfold ColWorld.run at hr
    cases he : w.exec cmd with
    | ok x =>
      obtain ⟨o, w'⟩ := x
      rw [he] at hr
      exact ih (kept hv h1 h2 he) hm' r (by simpa using hr)
    | error e =>
      rw [he] at hr
      cases e with
      | exn e => exact ih hv hm' r (by simpa using hr)
      | _ => simp at hr

/-- **C97**: a column taken from a reader gives the cells it gave then, whatever the program has done in between - the reader may have been
destroyed - as long as it has neither moved from this column nor destroyed it. -/
theorem C97_outlives (cols : List Column) (i : Nat) (c : Column) (hc : cols[i]? = some c) (cmds : List ColCmd)
    (hm : ∀ cmd ∈ cmds, cmd ≠ .move 0 ∧ cmd ≠ .drop 0) (a : ColAsk) (mem : List Byte) (r : Res ColOut)
    (hr : ((ColProgram.start cols).run (.take i :: cmds ++ [.ask 0 a mem])).1[cmds.length + 1]? = some r) :
    r = (c.answer mem a).map ColOut.answer := by
  rw [C97_values] at hr
  refine kept_run a mem cmds (w := ⟨cols, true, [.whole c]⟩) rfl hm r ?_
  rw [List.cons_append] at hr
  unfold ColWorld.run ColWorld.exec at hr
  simpa [hc] using hr

/-- C97: a column that was moved from, for every column of every reader: its texts are still there, but to read a cell with
it is undefined behaviour (the pointer to its formatter is null). -/
theorem C97_moved (cols : List Column) (i : Nat) (c : Column) (hc : cols[i]? = some c) (a : ColAsk) (mem : List Byte) :
    ((ColProgram.start cols).run [.take i, .move 0, .look 0, .ask 0 a mem]).1 =
      [.ok .done, .ok .done, .ok (.fields c.name c.label c.format c.type), .error .ub] := by
  rw [C97_values]
  simp [ColWorld.run, ColWorld.exec, hc]

/-- C97: two columns are equal if they have the same name; their labels, formats, types and places do not matter. -/
theorem C97_equal (cols : List Column) (i k : Nat) (c d : Column) (hc : cols[i]? = some c) (hd : cols[k]? = some d) :
    ((ColProgram.start cols).run [.take i, .take k, .same 0 1]).1 = [.ok .done, .ok .done, .ok (.equal (decide (c.name = d.name)))] := by
  rw [C97_values]
  simp only [ColWorld.run, ColWorld.exec, hc, hd]
  simp [ColValue.column?]
  exact beq_eq_decide _ _

/-- Two columns with one name. -/
def twins : List Column := [⟨[97], [], [], .string, 0, 2⟩, ⟨[97], [98], [], .smallInt, 2, 1⟩]

/-- The program takes both columns and a copy, destroys the first one and the reader, and goes on: the copy still gives its cells, the last
formatter goes with the last column, and the two columns are equal although one holds texts and the other numbers. -/
example : ((ColProgram.start twins).run [.take 0, .take 1, .copy 0, .same 0 1, .drop 0, .leave, .ask 2 .string [72, 105, 7],
      .ask 1 .integer [72, 105, 7]]).1 =
      [.ok .done, .ok .done, .ok .done, .ok (.equal true), .ok .done, .ok .done, .ok (.answer (.str [72, 105])), .ok (.answer (.int 7))] ∧
    (((ColProgram.start twins).run [.take 0, .leave]).2.heap 1 = none) ∧
    (((ColProgram.start twins).run [.take 0, .leave]).2.heap 0 = some ⟨.string, 0, 2, 1⟩) ∧
    (((ColProgram.start twins).run [.take 0, .leave, .drop 0]).2.heap 0 = none) := by
  decide

/-- `C97_outlives` on a program that destroys the reader. -/
example : ∃ r, ((ColProgram.start twins).run (.take 0 :: [.copy 0, .drop 1, .leave] ++ [.ask 0 .string [72, 105, 7]])).1[4]? = some r ∧
    r = (twins[0].answer [72, 105, 7] .string).map ColOut.answer :=
  ⟨_, rfl, C97_outlives twins 0 _ rfl [.copy 0, .drop 1, .leave] (by simp) .string [72, 105, 7] _ rfl⟩

end Sas.Props
