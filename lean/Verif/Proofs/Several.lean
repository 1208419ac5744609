import Verif.Spec.Several
import Verif.Proofs.SourceThrowing

/-!
# Programs with several readers
-/

namespace Sas.Proofs
open Sas Sas.Spec

variable {σ : Type} {S : Source σ}

/-- The variables and the readers in them. -/
def holdsOf (w : Program σ) : Nat → Option Nat := fun v => (w.vars v).map Held.id

theorem holds_put (vars : Nat → Option (Held σ)) (v : Nat) (x : Option (Held σ)) :
    (fun u => (put vars v x u).map Held.id) = put (fun u => (vars u).map Held.id) v (x.map Held.id) := by
  funext u
  unfold put
  split <;> rfl

theorem put_same {α : Type} (f : Nat → α) (i : Nat) (a : α) : put f i a i = a := if_pos rfl

theorem put_other {α : Type} (f : Nat → α) {i j : Nat} (a : α) (h : j ≠ i) : put f i a j = f j := if_neg h

theorem step_trace (R : Reader σ) (op : Op) : R.trace <+: (R.step S op).2.trace := by
  cases op with
  | readRow => exact readRow_trace R
  | readRows n => exact readRows_trace n R
  | readAll => exact readAllLoop_trace (R.props.md.rowCount - R.rd.row + 1) R
  | skip n =>
    show _ <+: (R.skip S n).2.trace
    unfold Reader.skip
    generalize R.rd.skip R.env S R.props.md n = z
    obtain ⟨v, rd⟩ := z
    rcases v with e | (_ | _)
    · exact List.prefix_refl _
    · exact List.prefix_append _ _
    · exact List.prefix_refl _
  | readRowNoSink => exact List.prefix_refl _
  | endOfData => exact List.prefix_append _ _

theorem toldBy_append (k : Nat) (a b : List (Nat × Event)) : toldBy k (a ++ b) = toldBy k a ++ toldBy k b :=
  List.filterMap_append

theorem toldBy_tagged (k n : Nat) (es : List Event) : toldBy k (es.map fun e => (n, e)) = if n = k then es else [] := by
  unfold toldBy
  induction es with
  | nil => split <;> rfl
  | cons e es ih =>
    rw [List.map_cons, List.filterMap_cons, ih]
    by_cases h : n = k
    · simp [h]
    · simp [h]

/-- The invariant: one variable per reader, one reader per named source, references up to date, and the sources that are named
later as they were. -/
structure Inv (objs : Nat → σ) (w : Program σ) (cs : List (Cmd σ)) : Prop where
  one : ∀ v u h g, w.vars v = some h → w.vars u = some g → h.id = g.id → v = u
  old : ∀ v h, w.vars v = some h → h.id < w.count
  ref : ∀ v h i, w.vars v = some h → h.src = some i → w.objs i = some h.reader.rd.p.src
  sep : ∀ v u h g i, w.vars v = some h → w.vars u = some g → h.src = some i → g.src = some i → v = u
  free : ∀ v h i, w.vars v = some h → h.src = some i → i ∉ cs.filterMap namedIn
  fresh : ∀ i, i ∈ cs.filterMap namedIn → w.objs i = some (objs i)
  apart : Apart cs

theorem Inv.load {objs : Nat → σ} {w : Program σ} {cs : List (Cmd σ)} (hI : Inv objs w cs) {v : Nat} {h : Held σ}
    (hv : w.vars v = some h) : h.load w.objs = some h.reader := by
  unfold Held.load
  cases hs : h.src with
  | none => rfl
  | some i =>
    dsimp only
    rw [hI.ref v h i hv hs]
    rfl

/-- Where reader `k` is. -/
def Cur (w : Program σ) (k : Nat) : Option (Held σ) → Prop
  | none => ∀ v h, w.vars v = some h → h.id ≠ k
  | some h => h.id = k ∧ ∃ v, w.vars v = some h

/-- The rest of a program, for reader `k`: what it would be if there were no other reader. -/
def Alone (S : Source σ) (k : Nat) (cur : Option (Held σ)) (c : List (Op × Res Ret)) (told told' : Nat → List (Nat × Event)) : Prop :=
  match cur with
  | none => c = [] ∧ ∀ j, toldBy k (told' j) = toldBy k (told j)
  | some h => c.map Prod.snd = (h.reader.run S (c.map Prod.fst)).1 ∧
      ∃ extra, (h.reader.run S (c.map Prod.fst)).2.trace = h.reader.trace ++ extra ∧
        toldBy k (told' h.sink) = toldBy k (told h.sink) ++ extra ∧ ∀ j, j ≠ h.sink → toldBy k (told' j) = toldBy k (told j)

theorem Alone.lost {k : Nat} {c : List (Op × Res Ret)} {told told' : Nat → List (Nat × Event)} (h : Held σ)
    (ha : Alone S k none c told told') : Alone S k (some h) c told told' := by
  obtain ⟨rfl, h2⟩ := ha
  exact ⟨rfl, [], by simp [Reader.run], by rw [h2]; simp, fun j _ => h2 j⟩

/-- A statement by which the reader does not change and the sinks are not told anything by it. -/
theorem Alone.quiet {k : Nat} {cur : Option (Held σ)} {c : List (Op × Res Ret)} {told told₁ told' : Nat → List (Nat × Event)}
    (hq : ∀ j, toldBy k (told₁ j) = toldBy k (told j)) (ha : Alone S k cur c told₁ told') : Alone S k cur c told told' := by
  cases cur with
  | none => exact ⟨ha.1, fun j => (ha.2 j).trans (hq j)⟩
  | some h =>
    obtain ⟨h1, extra, h2, h3, h4⟩ := ha
    exact ⟨h1, extra, h2, by rw [h3, hq], fun j hj => (h4 j hj).trans (hq j)⟩

/-! ## One statement -/

/-- The name of a place. -/
def _root_.Sas.Given.name : Given σ → Option Nat
  | .own _ => none
  | .named i => some i

/-- What becomes of the sources. -/
def upd (objs : Nat → Option σ) (place : Given σ) (x : Option σ) : Nat → Option σ :=
  match place with
  | .own _ => objs
  | .named i => put objs i x

theorem upd_same {objs : Nat → Option σ} {place : Given σ} {x : Option σ} {i : Nat} (h : place.name = some i) :
    upd objs place x i = x := by
  cases place with
  | own s => cases h
  | named j =>
    cases h
    exact put_same _ _ _

theorem upd_other {objs : Nat → Option σ} {place : Given σ} {x : Option σ} {i : Nat} (h : place.name ≠ some i) :
    upd objs place x i = objs i := by
  cases place with
  | own s => rfl
  | named j => exact put_other _ _ fun he => h (by rw [he]; rfl)

theorem named_cons_make {v : Nat} {place : Given σ} {sink : Nat} {filter : Option Filter} {cs : List (Cmd σ)} {i : Nat}
    (h : place.name = some i) : (Cmd.make v place sink filter :: cs).filterMap namedIn = i :: cs.filterMap namedIn := by
  cases place with
  | own s => cases h
  | named j =>
    cases h
    rfl

theorem named_tail {c : Cmd σ} {cs : List (Cmd σ)} {i : Nat} (h : i ∈ cs.filterMap namedIn) : i ∈ (c :: cs).filterMap namedIn := by
  rw [List.filterMap_cons]
  cases namedIn c with
  | none => exact h
  | some j => exact List.mem_cons_of_mem _ h

theorem Apart.tail {c : Cmd σ} {cs : List (Cmd σ)} (h : Apart (c :: cs)) : Apart cs := by
  unfold Apart at *
  rw [List.filterMap_cons] at h
  cases hn : namedIn c with
  | none =>
    rw [hn] at h
    exact h
  | some j =>
    rw [hn] at h
    exact (List.nodup_cons.mp h).2

theorem make_eq {objs : Nat → σ} {cfg : Cfg} {fuel : Nat} {w : Program σ} {v : Nat} {place : Given σ} {sink : Nat}
    {filter : Option Filter} {cs : List (Cmd σ)} (hI : Inv objs w (.make v place sink filter :: cs)) :
    w.make cfg S fuel v place sink filter =
      match openReader cfg S fuel filter (sourceOf objs place) with
      | .error e => (.failed e, { w with objs := upd w.objs place none })
      | .ok R =>
        (.made, { w with vars := put w.vars v (some ⟨w.count, R, place.name, sink⟩)
                         objs := upd w.objs place (some R.rd.p.src)
                         told := put w.told sink (w.told sink ++ R.trace.map fun e => (w.count, e)) }) := by
  unfold Program.make
  cases place with
  | own s =>
    dsimp only [sourceOf]
    cases openReader cfg S fuel filter s <;> rfl
  | named i =>
    dsimp only [sourceOf]
    rw [hI.fresh i (by simp [namedIn])]
    dsimp only
    cases openReader cfg S fuel filter (objs i) <;> rfl

/-- The call among the statement, if it goes to reader `k`. -/
def nowOn (k : Nat) (holds : Nat → Option Nat) : Cmd σ → Outcome → List (Op × Res Ret)
  | .call v op, .returned r => if holds v = some k then [(op, r)] else []
  | _, _ => []

/-- The readers in the variables after the statement. -/
def holdsAfter (holds : Nat → Option Nat) (n : Nat) : Cmd σ → Outcome → Nat → Option Nat
  | .make v _ _ _, .made => put holds v (some n)
  | .move v u, _ => if v = u then holds else put (put holds v (holds u)) u none
  | .clear v, _ => put holds v none
  | _, _ => holds

theorem callsOn_cons (k : Nat) (holds : Nat → Option Nat) (n : Nat) (c : Cmd σ) (cs : List (Cmd σ)) (o : Outcome) (os : List Outcome) :
    callsOn k holds n (c :: cs) (o :: os) = nowOn k holds c o ++ callsOn k (holdsAfter holds n c o) (n + 1) cs os := by
  cases c with
  | make v place sink filter => cases o <;> simp [callsOn, nowOn, holdsAfter]
  | call v op =>
    cases o with
    | returned r =>
      simp only [callsOn, nowOn, holdsAfter]
      split <;> rfl
    | _ => simp [callsOn, nowOn, holdsAfter]
  | move v u => cases o <;> simp [callsOn, nowOn, holdsAfter]
  | clear v => cases o <;> simp [callsOn, nowOn, holdsAfter]

theorem callsOn_nil (k : Nat) (holds : Nat → Option Nat) (n : Nat) (cs : List (Cmd σ)) : callsOn k holds n cs [] = [] := by
  cases cs with
  | nil => rfl
  | cons c cs => cases c <;> rfl

/-- What one statement does. -/
structure Stepped (objs : Nat → σ) (S : Source σ) (w w₁ : Program σ) (c : Cmd σ) (cs : List (Cmd σ)) (o : Outcome) : Prop where
  inv : o.fatal = false → Inv objs w₁ cs
  holds : holdsOf w₁ = holdsAfter (holdsOf w) w.count c o
  count : w₁.count = w.count + 1
  alone : ∀ k cur, k ≠ w.count → Cur w k cur →
    (o.fatal = true → Alone S k cur (nowOn k (holdsOf w) c o) w.told w₁.told) ∧
    (o.fatal = false → ∃ cur₁, Cur w₁ k cur₁ ∧ ∀ c' told', Alone S k cur₁ c' w₁.told told' →
      Alone S k cur (nowOn k (holdsOf w) c o ++ c') w.told told')

theorem Alone.none_of {k : Nat} {told told' : Nat → List (Nat × Event)} {cur : Option (Held σ)}
    (h : ∀ j, toldBy k (told' j) = toldBy k (told j)) : Alone S k cur [] told told' := by
  cases cur with
  | none => exact ⟨rfl, h⟩
  | some g => exact Alone.lost g ⟨rfl, h⟩

theorem Cur.put {w w₁ : Program σ} {k v : Nat} {x : Option (Held σ)} {cur : Option (Held σ)} (hw : w₁.vars = put w.vars v x)
    (hone : ∀ v u h g, w.vars v = some h → w.vars u = some g → h.id = g.id → v = u)
    (hx : ∀ h, x = some h → h.id ≠ k) (hc : Cur w k cur) : Cur w₁ k cur ∨ Cur w₁ k none := by
  cases cur with
  | none =>
    left
    intro u g hg
    rw [hw] at hg
    by_cases hu : u = v
    · subst hu
      rw [put_same] at hg
      exact hx g hg
    · rw [put_other _ _ hu] at hg
      exact hc u g hg
  | some h =>
    obtain ⟨hk, u, hu⟩ := hc
    by_cases huv : u = v
    · right
      intro u' g hg he
      rw [hw] at hg
      by_cases hu' : u' = v
      · subst hu'
        rw [put_same] at hg
        exact hx g hg he
      · rw [put_other _ _ hu'] at hg
        exact hu' ((hone u' u g h hg hu (by rw [he, hk])).trans huv)
    · left
      exact ⟨hk, u, by rw [hw, put_other _ _ huv]; exact hu⟩

theorem Alone.carry {w w₁ : Program σ} {k : Nat} {cur : Option (Held σ)} (hc : Cur w₁ k cur ∨ Cur w₁ k none)
    (hq : ∀ j, toldBy k (w₁.told j) = toldBy k (w.told j)) :
    ∃ cur₁, Cur w₁ k cur₁ ∧ ∀ c' told', Alone S k cur₁ c' w₁.told told' → Alone S k cur ([] ++ c') w.told told' := by
  rcases hc with hc | hc
  · exact ⟨cur, hc, fun c' told' h => h.quiet hq⟩
  · refine ⟨none, hc, fun c' told' h => ?_⟩
    cases cur with
    | none => exact h.quiet hq
    | some g => exact Alone.lost g (h.quiet hq)

theorem told_put (k n sink : Nat) (told : Nat → List (Nat × Event)) (es : List Event) (h : n ≠ k) (j : Nat) :
    toldBy k (put told sink (told sink ++ es.map fun e => (n, e)) j) = toldBy k (told j) := by
  by_cases hj : j = sink
  · subst hj
    rw [put_same, toldBy_append, toldBy_tagged, if_neg h, List.append_nil]
  · rw [put_other _ _ hj]

theorem make_stepped {objs : Nat → σ} {cfg : Cfg} {fuel : Nat} {w : Program σ} {v : Nat} {place : Given σ} {sink : Nat}
    {filter : Option Filter} {cs : List (Cmd σ)} (hI : Inv objs w (.make v place sink filter :: cs)) :
    Stepped objs S w (w.step cfg S fuel (.make v place sink filter)).2 (.make v place sink filter) cs
      (w.step cfg S fuel (.make v place sink filter)).1 := by
  simp only [Program.step, make_eq hI]
  have hother : ∀ i, i ∈ cs.filterMap namedIn → place.name ≠ some i := by
    intro i hi he
    have := hI.apart
    unfold Apart at this
    rw [named_cons_make he] at this
    exact (List.nodup_cons.mp this).1 hi
  have hfree : ∀ u h i, w.vars u = some h → h.src = some i → place.name ≠ some i := by
    intro u h i hu hs he
    have := hI.free u h i hu hs
    rw [named_cons_make he] at this
    exact this (List.mem_cons_self ..)
  have hfree' : ∀ u h i, w.vars u = some h → h.src = some i → i ∉ cs.filterMap namedIn :=
    fun u h i hu hs hm => hI.free u h i hu hs (named_tail hm)
  cases ho : openReader cfg S fuel filter (sourceOf objs place) with
  | error e =>
    dsimp only
    refine ⟨fun _ => ?_, rfl, rfl, fun k cur _ hc => ⟨fun _ => ?_, fun _ => ?_⟩⟩
    · refine ⟨hI.one, fun u h hu => Nat.lt_succ_of_lt (hI.old u h hu), ?_, hI.sep, hfree', ?_, Apart.tail hI.apart⟩
      · intro u h i hu hs
        dsimp only
        rw [upd_other (hfree u h i hu hs)]
        exact hI.ref u h i hu hs
      · intro i hi
        dsimp only
        rw [upd_other (hother i hi)]
        exact hI.fresh i (named_tail hi)
    · exact Alone.none_of fun j => rfl
    · exact Alone.carry (w := w) (.inl (by cases cur <;> exact hc)) fun j => rfl
  | ok R =>
    dsimp only
    refine ⟨fun _ => ?_, ?_, rfl, fun k cur hk hc => ⟨fun h => (by cases h), fun _ => ?_⟩⟩
    · have hnew : ∀ u h, put w.vars v (some ⟨w.count, R, place.name, sink⟩) u = some h →
          (u = v ∧ h = ⟨w.count, R, place.name, sink⟩) ∨ (u ≠ v ∧ w.vars u = some h) := by
        intro u h hu
        by_cases huv : u = v
        · subst huv
          rw [put_same] at hu
          exact .inl ⟨rfl, (Option.some.inj hu).symm⟩
        · rw [put_other _ _ huv] at hu
          exact .inr ⟨huv, hu⟩
      refine ⟨?_, ?_, ?_, ?_, ?_, ?_, Apart.tail hI.apart⟩
      · intro u u' h g hu hu' he
        rcases hnew u h hu with ⟨rfl, rfl⟩ | ⟨h1, h2⟩ <;> rcases hnew u' g hu' with ⟨rfl, rfl⟩ | ⟨h3, h4⟩
        · rfl
        · have := hI.old u' g h4
          dsimp only at he
          omega
        · have := hI.old u h h2
          dsimp only at he
          omega
        · exact hI.one u u' h g h2 h4 he
      · intro u h hu
        rcases hnew u h hu with ⟨rfl, rfl⟩ | ⟨h1, h2⟩
        · exact Nat.lt_succ_self _
        · exact Nat.lt_succ_of_lt (hI.old u h h2)
      · intro u h i hu hs
        rcases hnew u h hu with ⟨rfl, rfl⟩ | ⟨h1, h2⟩
        · exact upd_same hs
        · dsimp only
          rw [upd_other (hfree u h i h2 hs)]
          exact hI.ref u h i h2 hs
      · intro u u' h g i hu hu' hs hs'
        rcases hnew u h hu with ⟨rfl, rfl⟩ | ⟨h1, h2⟩ <;> rcases hnew u' g hu' with ⟨rfl, rfl⟩ | ⟨h3, h4⟩
        · rfl
        · exact absurd hs (hfree u' g i h4 hs')
        · exact absurd hs' (hfree u h i h2 hs)
        · exact hI.sep u u' h g i h2 h4 hs hs'
      · intro u h i hu hs hm
        rcases hnew u h hu with ⟨rfl, rfl⟩ | ⟨h1, h2⟩
        · exact hother i hm hs
        · exact hfree' u h i h2 hs hm
      · intro i hi
        dsimp only
        rw [upd_other (hother i hi)]
        exact hI.fresh i (named_tail hi)
    · exact holds_put w.vars v _
    · refine Alone.carry (w := w) (Cur.put (v := v) rfl hI.one ?_ hc) ?_
      · intro h hh
        cases hh
        dsimp only
        omega
      · intro j
        exact told_put k w.count sink w.told R.trace (by omega) j

theorem call_stepped {objs : Nat → σ} {cfg : Cfg} {fuel : Nat} {w : Program σ} {v : Nat} {op : Op} {cs : List (Cmd σ)}
    (hI : Inv objs w (.call v op :: cs)) :
    Stepped objs S w (w.step cfg S fuel (.call v op)).2 (.call v op) cs (w.step cfg S fuel (.call v op)).1 := by
  have hnamed : (Cmd.call v op :: cs).filterMap namedIn = cs.filterMap namedIn := rfl
  simp only [Program.step, Program.call]
  cases hv : w.vars v with
  | none =>
    dsimp only
    refine ⟨fun _ => ?_, rfl, rfl, fun k cur _ hc => ?_⟩
    · exact ⟨hI.one, fun u h hu => Nat.lt_succ_of_lt (hI.old u h hu), hI.ref, hI.sep, hI.free, hI.fresh, Apart.tail hI.apart⟩
    · have hn : nowOn k (holdsOf w) (.call v op : Cmd σ) (.returned (ApiReader.step S none op).1) = [] := by
        unfold nowOn
        dsimp only
        rw [if_neg]
        simp [holdsOf, hv]
      rw [hn]
      exact ⟨fun _ => Alone.none_of fun j => rfl,
        fun _ => Alone.carry (w := w) (.inl (by cases cur <;> exact hc)) fun j => rfl⟩
  | some h =>
    dsimp only
    rw [hI.load hv]
    dsimp only
    obtain ⟨ex, hex⟩ := step_trace (S := S) h.reader op
    have hrun : ∀ ops, h.reader.run S (op :: ops) =
      match h.reader.step S op with
      | (.ok v, R) => (.ok v :: (R.run S ops).1, (R.run S ops).2)
      | (.error (.exn e), R) => (.error (.exn e) :: (R.run S ops).1, (R.run S ops).2)
      | (.error e, R) => ([.error e], R) := fun ops => Reader.run_cons _ _ _
    generalize h.reader.step S op = z at hex hrun
    obtain ⟨r, R'⟩ := z
    dsimp only at hex hrun
    have hdrop : R'.trace.drop h.reader.trace.length = ex := by rw [← hex, List.drop_left]
    rw [hdrop]
    have key : ∀ objs₁ : Nat → Option σ, (∀ i, h.src ≠ some i → objs₁ i = w.objs i) →
        (∀ i, h.src = some i → objs₁ i = some R'.rd.p.src) →
        Stepped objs S w
          { vars := put w.vars v (some { h with reader := R' }), objs := objs₁
            told := put w.told h.sink (w.told h.sink ++ ex.map fun e => (h.id, e)), count := w.count + 1 }
          (.call v op) cs (.returned r) := by
      intro objs₁ ho1 ho2
      have hnew : ∀ u g, put w.vars v (some { h with reader := R' }) u = some g →
          ∃ g₀, w.vars u = some g₀ ∧ g₀.id = g.id ∧ g₀.src = g.src ∧ ((u = v ∧ g = { h with reader := R' }) ∨ (u ≠ v ∧ g = g₀)) := by
        intro u g hu
        by_cases huv : u = v
        · subst huv
          rw [put_same] at hu
          cases hu
          exact ⟨h, hv, rfl, rfl, .inl ⟨rfl, rfl⟩⟩
        · rw [put_other _ _ huv] at hu
          exact ⟨g, hu, rfl, rfl, .inr ⟨huv, rfl⟩⟩
      refine ⟨fun _ => ?_, ?_, rfl, fun k cur hk hc => ?_⟩
      · refine ⟨?_, ?_, ?_, ?_, ?_, ?_, Apart.tail hI.apart⟩
        · intro u u' g g' hu hu' he
          obtain ⟨a, ha, ha1, -, -⟩ := hnew u g hu
          obtain ⟨b, hb, hb1, -, -⟩ := hnew u' g' hu'
          exact hI.one u u' a b ha hb (by rw [ha1, hb1, he])
        · intro u g hu
          obtain ⟨a, ha, ha1, -, -⟩ := hnew u g hu
          rw [← ha1]
          exact Nat.lt_succ_of_lt (hI.old u a ha)
        · intro u g i hu hs
          obtain ⟨a, ha, -, ha2, h3⟩ := hnew u g hu
          rcases h3 with ⟨rfl, rfl⟩ | ⟨h3, rfl⟩
          · exact ho2 i hs
          · dsimp only
            rw [ho1 i fun he => h3 (hI.sep u v g h i ha hv hs he)]
            exact hI.ref u g i ha hs
        · intro u u' g g' i hu hu' hs hs'
          obtain ⟨a, ha, -, ha2, -⟩ := hnew u g hu
          obtain ⟨b, hb, -, hb2, -⟩ := hnew u' g' hu'
          exact hI.sep u u' a b i ha hb (ha2.trans hs) (hb2.trans hs')
        · intro u g i hu hs
          obtain ⟨a, ha, -, ha2, -⟩ := hnew u g hu
          exact hI.free u a i ha (ha2.trans hs)
        · intro i hi
          dsimp only
          rw [ho1 i fun he => hI.free v h i hv he hi]
          exact hI.fresh i hi
      · show (fun u => (put w.vars v (some { h with reader := R' }) u).map Held.id) = holdsOf w
        rw [holds_put]
        funext u
        by_cases hu : u = v
        · subst hu
          rw [put_same]
          simp [holdsOf, hv]
        · rw [put_other _ _ hu]
          rfl
      · have hholds : holdsOf w v = some h.id := by simp [holdsOf, hv]
        by_cases hkid : h.id = k
        · have hcur : cur = some h := by
            cases cur with
            | none => exact absurd hkid (hc v h hv)
            | some g =>
              obtain ⟨hg, u, hu⟩ := hc
              have := hI.one u v g h hu hv (by rw [hg, hkid])
              subst this
              rw [hv] at hu
              rw [hu]
          subst hcur
          have hn : nowOn k (holdsOf w) (.call v op : Cmd σ) (.returned r) = [(op, r)] := by
            unfold nowOn
            dsimp only
            rw [if_pos (by rw [hholds, hkid])]
          rw [hn]
          have htold : toldBy k (put w.told h.sink (w.told h.sink ++ ex.map fun e => (h.id, e)) h.sink) =
              toldBy k (w.told h.sink) ++ ex := by
            rw [put_same, toldBy_append, toldBy_tagged, if_pos hkid]
          have hfin : ∀ e : Stop, r = .error e → (∀ x, e ≠ .exn x) →
              Alone S k (some h) [(op, r)] w.told (put w.told h.sink (w.told h.sink ++ ex.map fun e => (h.id, e))) := by
            intro e hr hne
            have h1 : h.reader.run S [op] = ([r], R') := by
              rw [hrun, hr]
              cases e with
              | exn x => exact absurd rfl (hne x)
              | terminate => rfl
              | ub => rfl
              | fuel => rfl
            refine ⟨by simp only [List.map_cons, List.map_nil, h1], ex, ?_, htold, fun j hj => by rw [put_other _ _ hj]⟩
            simp only [List.map_cons, List.map_nil, h1]
            exact hex.symm
          refine ⟨fun hf => ?_, fun hf => ?_⟩
          · rcases r with e | x
            · cases e with
              | exn x => cases hf
              | terminate => exact hfin _ rfl (fun _ h => by cases h)
              | ub => exact hfin _ rfl (fun _ h => by cases h)
              | fuel => exact hfin _ rfl (fun _ h => by cases h)
            · cases hf
          · refine ⟨some { h with reader := R' }, ⟨hkid, v, put_same _ _ _⟩, ?_⟩
            rintro c' told' ⟨a1, extra, a2, a3, a4⟩
            dsimp only at a1 a2 a3 a4
            have h1 : h.reader.run S (op :: c'.map Prod.fst) = (r :: (R'.run S (c'.map Prod.fst)).1, (R'.run S (c'.map Prod.fst)).2) := by
              rw [hrun]
              rcases r with e | x
              · cases e with
                | exn x => rfl
                | terminate => cases hf
                | ub => cases hf
                | fuel => cases hf
              · rfl
            refine ⟨?_, ex ++ extra, ?_, ?_, ?_⟩
            · simp only [List.cons_append, List.nil_append, List.map_cons, h1, a1]
            · simp only [List.cons_append, List.nil_append, List.map_cons, h1, a2, ← hex, List.append_assoc]
            · rw [a3, htold, List.append_assoc]
            · intro j hj
              rw [a4 j hj, put_other _ _ hj]
        · have hn : nowOn k (holdsOf w) (.call v op : Cmd σ) (.returned r) = [] := by
            unfold nowOn
            dsimp only
            rw [if_neg (by rw [hholds]; exact fun h => hkid (Option.some.inj h))]
          rw [hn]
          have hq := told_put k h.id h.sink w.told ex hkid
          refine ⟨fun _ => Alone.none_of hq, fun _ => Alone.carry (w := w) (Cur.put (v := v) rfl hI.one ?_ hc) hq⟩
          intro g hg
          cases hg
          exact hkid
    cases hs : h.src with
    | none =>
      rw [hs] at key
      exact key w.objs (fun _ _ => rfl) (fun i hi => by cases hi)
    | some i =>
      rw [hs] at key
      refine key (put w.objs i (some R'.rd.p.src)) (fun j hj => put_other _ _ fun he => hj (by rw [he])) fun j hj => ?_
      cases hj
      exact put_same _ _ _

theorem clear_stepped {objs : Nat → σ} {cfg : Cfg} {fuel : Nat} {w : Program σ} {v : Nat} {cs : List (Cmd σ)}
    (hI : Inv objs w (.clear v :: cs)) :
    Stepped objs S w (w.step cfg S fuel (.clear v)).2 (.clear v) cs (w.step cfg S fuel (.clear v)).1 := by
  simp only [Program.step]
  have hnew : ∀ u g, put w.vars v none u = some g → w.vars u = some g := by
    intro u g hu
    by_cases huv : u = v
    · subst huv
      rw [put_same] at hu
      cases hu
    · rwa [put_other _ _ huv] at hu
  refine ⟨fun _ => ?_, ?_, rfl, fun k cur hk hc => ⟨fun h => (by cases h), fun _ => ?_⟩⟩
  · exact ⟨fun u u' g g' hu hu' => hI.one u u' g g' (hnew u g hu) (hnew u' g' hu'),
      fun u g hu => Nat.lt_succ_of_lt (hI.old u g (hnew u g hu)), fun u g i hu => hI.ref u g i (hnew u g hu),
      fun u u' g g' i hu hu' => hI.sep u u' g g' i (hnew u g hu) (hnew u' g' hu'),
      fun u g i hu => hI.free u g i (hnew u g hu), hI.fresh, Apart.tail hI.apart⟩
  · exact holds_put w.vars v none
  · exact Alone.carry (w := w) (Cur.put (v := v) (x := none) rfl hI.one (fun h hh => by cases hh) hc) fun j => rfl

theorem move_stepped {objs : Nat → σ} {cfg : Cfg} {fuel : Nat} {w : Program σ} {v u : Nat} {cs : List (Cmd σ)}
    (hI : Inv objs w (.move v u :: cs)) :
    Stepped objs S w (w.step cfg S fuel (.move v u)).2 (.move v u) cs (w.step cfg S fuel (.move v u)).1 := by
  simp only [Program.step]
  by_cases hvu : v = u
  · simp only [if_pos hvu]
    refine ⟨fun _ => ?_, ?_, rfl, fun k cur hk hc => ⟨fun h => (by cases h), fun _ => ?_⟩⟩
    · exact ⟨hI.one, fun u h hu => Nat.lt_succ_of_lt (hI.old u h hu), hI.ref, hI.sep, hI.free, hI.fresh, Apart.tail hI.apart⟩
    · simp only [holdsAfter, if_pos hvu]
      rfl
    · exact Alone.carry (w := w) (.inl (by cases cur <;> exact hc)) fun j => rfl
  · simp only [if_neg hvu]
    have hnew : ∀ x g, put (put w.vars v (w.vars u)) u none x = some g →
        x ≠ u ∧ ((x = v ∧ w.vars u = some g) ∨ (x ≠ v ∧ w.vars x = some g)) := by
      intro x g hx
      by_cases hxu : x = u
      · subst hxu
        rw [put_same] at hx
        cases hx
      · rw [put_other _ _ hxu] at hx
        refine ⟨hxu, ?_⟩
        by_cases hxv : x = v
        · subst hxv
          rw [put_same] at hx
          exact .inl ⟨rfl, hx⟩
        · rw [put_other _ _ hxv] at hx
          exact .inr ⟨hxv, hx⟩
    have hfrom : ∀ x g, put (put w.vars v (w.vars u)) u none x = some g → ∃ y, w.vars y = some g := by
      intro x g hx
      rcases (hnew x g hx).2 with ⟨-, h⟩ | ⟨-, h⟩
      · exact ⟨u, h⟩
      · exact ⟨x, h⟩
    refine ⟨fun _ => ?_, ?_, rfl, fun k cur hk hc => ⟨fun h => (by cases h), fun _ => ?_⟩⟩
    · refine ⟨?_, ?_, ?_, ?_, ?_, hI.fresh, Apart.tail hI.apart⟩
      · intro x y g g' hx hy he
        obtain ⟨h1, h2⟩ := hnew x g hx
        obtain ⟨h3, h4⟩ := hnew y g' hy
        rcases h2 with ⟨rfl, h2⟩ | ⟨h2, h2'⟩ <;> rcases h4 with ⟨rfl, h4⟩ | ⟨h4, h4'⟩
        · rfl
        · exact absurd (hI.one u y g g' h2 h4' he).symm h3
        · exact absurd (hI.one x u g g' h2' h4 he) h1
        · exact hI.one x y g g' h2' h4' he
      · intro x g hx
        obtain ⟨y, hy⟩ := hfrom x g hx
        exact Nat.lt_succ_of_lt (hI.old y g hy)
      · intro x g i hx
        obtain ⟨y, hy⟩ := hfrom x g hx
        exact hI.ref y g i hy
      · intro x y g g' i hx hy hs hs'
        obtain ⟨h1, h2⟩ := hnew x g hx
        obtain ⟨h3, h4⟩ := hnew y g' hy
        rcases h2 with ⟨rfl, h2⟩ | ⟨h2, h2'⟩ <;> rcases h4 with ⟨rfl, h4⟩ | ⟨h4, h4'⟩
        · rfl
        · exact absurd (hI.sep u y g g' i h2 h4' hs hs').symm h3
        · exact absurd (hI.sep x u g g' i h2' h4 hs hs') h1
        · exact hI.sep x y g g' i h2' h4' hs hs'
      · intro x g i hx
        obtain ⟨y, hy⟩ := hfrom x g hx
        exact hI.free y g i hy
    · show (fun x => (put (put w.vars v (w.vars u)) u none x).map Held.id) = _
      rw [holds_put, holds_put]
      simp only [holdsAfter, if_neg hvu]
      rfl
    · refine Alone.carry (w := w) ?_ fun j => rfl
      cases cur with
      | none =>
        left
        intro x g hx
        obtain ⟨y, hy⟩ := hfrom x g hx
        exact hc y g hy
      | some h =>
        obtain ⟨hk', x, hx⟩ := hc
        by_cases hxu : x = u
        · subst hxu
          exact .inl ⟨hk', v, by dsimp only; rw [put_other _ _ hvu, put_same]; exact hx⟩
        · by_cases hxv : x = v
          · subst hxv
            right
            intro y g hy he
            obtain ⟨h1, h2⟩ := hnew y g hy
            rcases h2 with ⟨rfl, h2⟩ | ⟨h2, h2'⟩
            · exact hxu (hI.one _ _ h g hx h2 (by rw [he, hk']))
            · exact h2 (hI.one _ _ g h h2' hx (by rw [he, hk']))
          · exact .inl ⟨hk', x, by dsimp only; rw [put_other _ _ hxu, put_other _ _ hxv]; exact hx⟩

theorem stepped {objs : Nat → σ} {cfg : Cfg} {fuel : Nat} {w : Program σ} {c : Cmd σ} {cs : List (Cmd σ)} (hI : Inv objs w (c :: cs)) :
    Stepped objs S w (w.step cfg S fuel c).2 c cs (w.step cfg S fuel c).1 := by
  cases c with
  | make v place sink filter => exact make_stepped hI
  | call v op => exact call_stepped hI
  | move v u => exact move_stepped hI
  | clear v => exact clear_stepped hI

/-! ## The program -/

theorem run_cons_world (cfg : Cfg) (fuel : Nat) (w : Program σ) (c : Cmd σ) (cs : List (Cmd σ)) :
    w.run cfg S fuel (c :: cs) = if (w.step cfg S fuel c).1.fatal then ([(w.step cfg S fuel c).1], (w.step cfg S fuel c).2)
      else ((w.step cfg S fuel c).1 :: ((w.step cfg S fuel c).2.run cfg S fuel cs).1, ((w.step cfg S fuel c).2.run cfg S fuel cs).2) := rfl

theorem run_alone {objs : Nat → σ} {cfg : Cfg} {fuel : Nat} : ∀ (cs : List (Cmd σ)) (w : Program σ), Inv objs w cs →
    ∀ k cur, k < w.count → Cur w k cur →
    Alone S k cur (callsOn k (holdsOf w) w.count cs (w.run cfg S fuel cs).1) w.told (w.run cfg S fuel cs).2.told := by
  intro cs
  induction cs with
  | nil => exact fun w _ k cur _ _ => Alone.none_of fun j => rfl
  | cons c cs ih =>
    intro w hI k cur hk hc
    have hs := stepped (S := S) (cfg := cfg) (fuel := fuel) hI
    rw [run_cons_world]
    generalize w.step cfg S fuel c = z at hs
    obtain ⟨o, w₁⟩ := z
    dsimp only at hs ⊢
    obtain ⟨ha, hb⟩ := hs.alone k cur (by omega) hc
    cases hf : o.fatal with
    | true =>
      rw [if_pos rfl, callsOn_cons, callsOn_nil, List.append_nil]
      exact ha hf
    | false =>
      rw [if_neg (by simp), callsOn_cons, ← hs.holds, ← hs.count]
      obtain ⟨cur₁, h1, h2⟩ := hb hf
      exact h2 _ _ (ih w₁ (hs.inv hf) k cur₁ (by rw [hs.count]; omega) h1)

/-- The reader that a statement makes. -/
theorem run_made {objs : Nat → σ} {cfg : Cfg} {fuel : Nat} {v : Nat} {place : Given σ} {sink : Nat} {filter : Option Filter} :
    ∀ (n : Nat) (cs : List (Cmd σ)) (w : Program σ), Inv objs w cs → (∀ j, toldBy (w.count + n) (w.told j) = []) →
    cs[n]? = some (.make v place sink filter) → ∀ o, (w.run cfg S fuel cs).1[n]? = some o →
    match openReader cfg S fuel filter (sourceOf objs place) with
    | .error e => o = .failed e ∧ (∀ j, toldBy (w.count + n) ((w.run cfg S fuel cs).2.told j) = [])
    | .ok R => o = .made ∧
      (callsOn (w.count + n) (holdsOf w) w.count cs (w.run cfg S fuel cs).1).map Prod.snd =
        (R.run S ((callsOn (w.count + n) (holdsOf w) w.count cs (w.run cfg S fuel cs).1).map Prod.fst)).1 ∧
      toldBy (w.count + n) ((w.run cfg S fuel cs).2.told sink) =
        (R.run S ((callsOn (w.count + n) (holdsOf w) w.count cs (w.run cfg S fuel cs).1).map Prod.fst)).2.trace ∧
      ∀ j, j ≠ sink → toldBy (w.count + n) ((w.run cfg S fuel cs).2.told j) = [] := by
  intro n
  induction n with
  | zero =>
    intro cs w hI ht hcs o ho
    cases cs with
    | nil => cases hcs
    | cons c cs =>
      cases hcs
      rw [Nat.add_zero] at ht ⊢
      have hs := stepped (S := S) (cfg := cfg) (fuel := fuel) hI
      rw [run_cons_world] at ho ⊢
      simp only [Program.step, make_eq hI] at hs ho ⊢
      cases hr : openReader cfg S fuel filter (sourceOf objs place) with
      | error e =>
        rw [hr] at hs ho
        dsimp only at hs ho ⊢
        cases hf : (Outcome.failed e).fatal with
        | true =>
          rw [if_pos hf] at ho
          rw [if_pos rfl]
          exact ⟨(Option.some.inj ho).symm, ht⟩
        | false =>
          rw [if_neg (by simp [hf])] at ho
          rw [if_neg (by simp)]
          refine ⟨(Option.some.inj ho).symm, ?_⟩
          have := run_alone (S := S) (cfg := cfg) (fuel := fuel) cs _ (hs.inv hf) w.count none (by rw [hs.count]; omega) (fun v h hv he => by
            have := hI.old v h hv
            omega)
          intro j
          rw [this.2 j]
          exact ht j
      | ok R =>
        rw [hr] at hs ho
        dsimp only at hs ho ⊢
        rw [if_neg (by simp [Outcome.fatal])] at ho ⊢
        refine ⟨(Option.some.inj ho).symm, ?_⟩
        rw [callsOn_cons, ← hs.holds, ← hs.count]
        obtain ⟨a1, extra, a2, a3, a4⟩ := run_alone (S := S) (cfg := cfg) (fuel := fuel) cs _ (hs.inv rfl) w.count
          (some ⟨w.count, R, place.name, sink⟩) (by rw [hs.count]; omega) ⟨rfl, v, put_same _ _ _⟩
        dsimp only at a1 a2 a3 a4 ⊢
        simp only [nowOn, List.nil_append]
        refine ⟨a1, ?_, fun j hj => ?_⟩
        · rw [a3, a2, put_same, toldBy_append, toldBy_tagged, if_pos rfl, ht sink]
          rfl
        · rw [a4 j hj, put_other _ _ hj]
          exact ht j
  | succ n ih =>
    intro cs w hI ht hcs o ho
    cases cs with
    | nil => cases hcs
    | cons c cs =>
      have hs := stepped (S := S) (cfg := cfg) (fuel := fuel) hI
      rw [run_cons_world] at ho ⊢
      generalize w.step cfg S fuel c = z at hs ho
      obtain ⟨o₁, w₁⟩ := z
      dsimp only at hs ho ⊢
      obtain ⟨ha, hb⟩ := hs.alone (w.count + (n + 1)) none (by omega) fun v h hv he => by
        have := hI.old v h hv
        omega
      cases hf : o₁.fatal with
      | true =>
        rw [hf, if_pos rfl] at ho
        cases ho
      | false =>
        rw [hf, if_neg (by simp)] at ho
        rw [if_neg (by simp), callsOn_cons, ← hs.holds, ← hs.count]
        obtain ⟨cur₁, h1, h2⟩ := hb hf
        obtain ⟨h3, h4⟩ := h2 [] w₁.told (Alone.none_of fun j => rfl)
        rw [List.append_nil] at h3
        rw [h3, List.nil_append]
        have hk : w.count + (n + 1) = w₁.count + n := by rw [hs.count]; omega
        rw [hk] at h4 ht ⊢
        exact ih cs w₁ (hs.inv hf) (fun j => (h4 j).trans (ht j)) hcs o ho

theorem inv_start (objs : Nat → σ) {cs : List (Cmd σ)} (h : Apart cs) : Inv objs (Program.start objs) cs :=
  ⟨fun _ _ _ _ hv => (by cases hv), fun _ _ hv => (by cases hv), fun _ _ _ hv => (by cases hv), fun _ _ _ _ _ hv => (by cases hv),
    fun _ _ _ hv => (by cases hv), fun _ _ => rfl, h⟩

end Sas.Proofs
