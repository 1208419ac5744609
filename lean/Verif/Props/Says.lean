import Verif.Model.Says
import Verif.Spec.LogText
import Verif.Props.Header
import Verif.Props.Columns
import Verif.Props.PyFront
import Verif.Props.RFront

/-!
# Property C104: what the exception told when a reader cannot be made
-/

namespace Sas.Proofs

open Sas Spec Props

/-- Opening a reader on a source that is there never says that the file is not valid. -/
theorem openReader_valid (cfg : Cfg) (S : Source σ) (hS : S.Lawful) (fuel : Nat) (filter : Option Filter) (s : σ)
    (hmem : 288 ≤ cfg.maxAlloc) : openReader cfg S fuel filter s ≠ .error (.exn .notAValidFile) := by
  intro h
  cases hok : (S.read s 288).ok with
  | false => rw [C11_too_short cfg S hS fuel filter s hmem hok] at h; cases h
  | true =>
    have hr := readHeader_after cfg S hS s hmem hok
    rcases openReader_errs cfg S fuel filter s _ h with h' | h'
    · simp [BodyErr] at h'
    · by_cases hm : (S.read s 288).bytes.take 32 = magic
      · simpa [Crash] using hr.1 hm _ h'
      · rw [hr.2 hm] at h'; cases h'

/-- The exceptions with a name of their own. -/
theorem exceptionName_own {x : Exn} : exceptionName x ≠ [] ↔ x ≠ .outOfRange ∧ x ≠ .badAlloc ∧ x ≠ .formatError := by
  cases x <;> decide +kernel

theorem stopSays_own {x : Exn} (h : exceptionName x ≠ []) (hv : x ≠ .notAValidFile) (f : List Byte) :
    stopSays f (.exn x) = .text (exceptionName x) := by
  cases x with
  | headerTooShort => exact congrArg Told.text (show ascii "header_too_short" = _ by decide +kernel)
  | invalidMagicNumber => exact congrArg Told.text (show ascii "invalid_magic_number" = _ by decide +kernel)
  | cannotReadPage => exact congrArg Told.text (show ascii "cannot_read_page" = _ by decide +kernel)
  | cannotDecompress => exact congrArg Told.text (show ascii "cannot_decompress" = _ by decide +kernel)
  | notAValidFile => exact (hv rfl).elim
  | outOfRange => exact absurd rfl h
  | badAlloc => exact absurd rfl h
  | formatError => exact absurd rfl h

theorem stopSays_text {f : List Byte} {e : Stop} {t : List Byte} (h : stopSays f e = .text t) :
    ∃ x, e = .exn x ∧ exceptionName x ≠ [] := by
  cases e with
  | exn x => exact ⟨x, rfl, by rw [exceptionName_own]; cases x <;> first | decide | cases h⟩
  | terminate => cases h
  | ub => cases h
  | fuel => cases h

/-- A failure that has no text of the library. -/
def Untold (e : Stop) : Prop := ∀ f t, stopSays f e ≠ .text t

theorem untold_outOfRange : Untold (.exn .outOfRange) := by intro f t h; cases h
theorem untold_ub : Untold .ub := by intro f t h; cases h

theorem dateText_untold (d : DateTime) : Errs Untold d.toText := by
  unfold DateTime.toText
  refine Errs.bind (fun e he => ?_) fun x _ => Errs.bind (fun e he => ?_) fun y _ e he => ?_
  · cases d with
    | notADateTime => cases he
    | «at» t =>
      unfold DateTime.date at he
      dsimp only at he
      split at he <;> cases he
      exact untold_outOfRange
  · unfold Date.ymd at he
    dsimp only at he
    generalize ymdOfDayNumber _ = z at he
    split at he <;> cases he
    exact untold_outOfRange
  · unfold fromBuffer at he
    split at he <;> cases he
    exact untold_ub

theorem wrapProperties_untold (p : Properties) : Errs Untold (wrapProperties p) := by
  unfold wrapProperties
  exact Errs.bind (dateText_untold _) fun _ _ => Errs.bind (dateText_untold _) fun _ _ => Errs.ok _

/-- Opening, when the sink does not speak for the library. -/
theorem openSays_told (cfg : Cfg) (fuel : Nat) (fs : FileSystem) (name : List Byte) (f : Filter)
    (sink : Reader IFStream → Option Told) (hmem : 288 ≤ cfg.maxAlloc) (hname : 0 ∉ name)
    (hsink : ∀ src R, openReader cfg ifs fuel (some f) src = .ok R → ∀ t, sink R ≠ some (.text t)) :
    (openSays cfg fuel fs name f sink = some (.text (ascii "not_a_valid_file: [" ++ name ++ ascii "]")) ↔
      fs.content name = none) ∧
    ∀ data, fs.content name = some data →
      (data.length < 288 → openSays cfg fuel fs name f sink = some (.text (ascii "header_too_short"))) ∧
      (288 ≤ data.length →
        (openSays cfg fuel fs name f sink = some (.text (ascii "invalid_magic_number")) ↔ data.take 32 ≠ magic)) ∧
      ∀ t, openSays cfg fuel fs name f sink = some (.text t) ↔
        ∃ x, openReader cfg ifs fuel none (IFStream.open data) = .error (.exn x) ∧ exceptionName x ≠ [] ∧ t = exceptionName x := by
  have hn : name.takeWhile (· ≠ 0) = name := upToZero_self hname
  have key : ∀ data, fs.content name = some data → ∀ t, openSays cfg fuel fs name f sink = some (.text t) ↔
        ∃ x, openReader cfg ifs fuel none (IFStream.open data) = .error (.exn x) ∧ exceptionName x ≠ [] ∧ t = exceptionName x := by
    intro data hd t
    unfold openSays openFile
    rw [hn, hd]
    have hv := openReader_valid cfg ifs ifs_lawful fuel none (IFStream.open data) hmem
    dsimp only
    cases ho : openReader cfg ifs fuel none (IFStream.open data) with
    | error e =>
      rw [(C21_filter cfg ifs fuel _ f).1 e ho]
      constructor
      · intro h
        replace h : some (stopSays [] e) = some (.text t) := h
        obtain ⟨x, rfl, hx⟩ := stopSays_text (Option.some.inj h)
        have hxv : x ≠ .notAValidFile := by rintro rfl; exact hv ho
        rw [stopSays_own hx hxv] at h
        cases h
        exact ⟨x, rfl, hx, rfl⟩
      · rintro ⟨x, hx, hxn, rfl⟩
        cases hx
        have hxv : x ≠ .notAValidFile := by rintro rfl; exact hv ho
        exact congrArg some (stopSays_own hxn hxv _)
    | ok R =>
      obtain ⟨R', hR', -⟩ := (C21_filter cfg ifs fuel _ f).2 R ho
      rw [hR']
      constructor
      · intro h; exact absurd h (hsink _ _ hR' _)
      · rintro ⟨x, hx, -⟩; cases hx
  refine ⟨?_, fun data hd => ⟨fun hs => ?_, fun hl => ?_, key data hd⟩⟩
  · constructor
    · intro h
      cases hd : fs.content name with
      | none => rfl
      | some data =>
        obtain ⟨x, -, hx, ht⟩ := (key data hd _).mp h
        exfalso
        have : ∀ y : Exn, (exceptionName y).take 19 ≠ ascii "not_a_valid_file: [" := by intro y; cases y <;> decide +kernel
        apply this x
        rw [← ht, List.append_assoc]
        exact List.take_left' (by decide +kernel)
    · intro h
      unfold openSays openFile
      rw [hn, h]
      rfl
  · rw [key data hd]
    exact ⟨_, (C11_file cfg fuel none data hmem).1 hs, by decide +kernel, by decide +kernel⟩
  · rw [key data hd]
    rw [← (C11_file cfg fuel none data hmem).2 hl]
    constructor
    · rintro ⟨x, hx, -, ht⟩
      rw [hx]
      cases x <;> first | rfl | exact absurd ht (by decide +kernel)
    · intro h
      exact ⟨_, h, by decide +kernel, by decide +kernel⟩

theorem listSays_ok {a : PyArg} {names : List (List Byte)} (h : ArgNames a names) (c : List Byte) : listSays c a = none := by
  cases a with
  | none => rfl
  | other => exact h.elim
  | list items =>
    replace h : List.Forall₂ (fun i n => i = PyItem.str n ∨ i = .bytes n) items names := h
    have : PyItem.other ∉ items := by
      clear c
      induction h with
      | nil => simp
      | cons h1 _ ih => rcases h1 with rfl | rfl <;> simp [ih]
    show ite _ _ _ = _
    rw [if_neg fun hm => this (List.mem_of_mem_take hm)]

theorem listSays_other {items : List PyItem} (h : PyItem.other ∈ items) (hl : items.length < 2 ^ 31) (c : List Byte) :
    listSays c (.list items) = some (ascii "Element of " ++ c ++ ascii " argument is not a string") := by
  have ht : (toSigned 32 (items.length % 2 ^ 32)).toNat = items.length := by
    unfold toSigned
    rw [Nat.mod_eq_of_lt (by omega), if_pos (by omega)]
    exact Int.toNat_natCast _
  show ite (PyItem.other ∈ items.take (toSigned 32 (items.length % 2 ^ 32)).toNat) _ _ = _
  rw [ht, List.take_length, if_pos h]

/-- An argument is a list of names, not a list at all, or a list with something else in it. -/
theorem arg_cases (a : PyArg) : (∃ names, ArgNames a names) ∨ a = .other ∨ ∃ items, a = .list items ∧ PyItem.other ∈ items := by
  cases a with
  | none => exact .inl ⟨[], rfl⟩
  | other => exact .inr (.inl rfl)
  | list items =>
    by_cases h : PyItem.other ∈ items
    · exact .inr (.inr ⟨items, rfl, h⟩)
    · left
      show ∃ names, List.Forall₂ (fun i n => i = PyItem.str n ∨ i = .bytes n) items names
      induction items with
      | nil => exact ⟨[], .nil⟩
      | cons i items ih =>
        rw [List.mem_cons, not_or] at h
        obtain ⟨names, hn⟩ := ih h.2
        cases i with
        | str n => exact ⟨n :: names, .cons (.inl rfl) hn⟩
        | bytes n => exact ⟨n :: names, .cons (.inr rfl) hn⟩
        | other => exact absurd rfl h.1

theorem py_told {kind : PyKind} {cfg : Cfg} {fuel : Nat} {f : Option Filter} {src : IFStream} {R : Reader IFStream}
    (h : openReader cfg ifs fuel f src = .ok R) (t : List Byte) :
    sinkSays (({ reader := R, cpp := CppSink.start kind, obj := { kind := kind } } : PySession IFStream).events R.trace) ≠
      some (.text t) := by
  rw [(openReader_spec h).2.2]
  have hc : ∀ o : PyObj, (o.call (.setProperties R.props) = .error .raised) ∨ ∃ o', o.call (.setProperties R.props) = .ok o' := by
    intro o
    show ite _ _ _ = _ ∨ ∃ o', ite _ _ _ = _
    split
    · exact .inr ⟨_, rfl⟩
    · exact .inl rfl
  have hs : ∃ c, (CppSink.start kind).step (.setProperties R.props) = .ok (c, [.setProperties R.props]) := by
    cases kind <;> exact ⟨_, rfl⟩
  obtain ⟨c, hs⟩ := hs
  unfold PySession.events
  simp only [hs, PyM.ofRes, bind, Except.bind, PyObj.calls]
  rcases hc { kind := kind } with hc | ⟨o', hc⟩ <;> rw [hc]
  · intro h'; cases h'
  · intro h'; cases h' 

theorem r_told {unique : List (List Byte) → List (List Byte)} {kind : PyKind} {cfg : Cfg} {fuel : Nat} {f : Option Filter}
    {src : IFStream} {R : Reader IFStream} (h : openReader cfg ifs fuel f src = .ok R) (t : List Byte) :
    sinkSays ((RSink.new kind).events unique R.trace) ≠ some (.text t) := by
  rw [(openReader_spec h).2.2]
  have hm := wrapProperties_untold R.props
  have ht : ∀ o : RObj, (∃ e, o.told (.setProperties R.props) = .error e ∧ (e = .raised ∨ ∃ x, e = .cpp x ∧ Untold x)) ∨
      ∃ o', o.told (.setProperties R.props) = .ok o' := by
    intro o
    cases hw : wrapProperties R.props with
    | error e => exact .inl ⟨.cpp e, by show (do o.setProperties (← PyM.ofRes (wrapProperties R.props))) = _; rw [hw]; rfl, .inr ⟨e, rfl, hm e hw⟩⟩
    | ok l =>
      have : o.told (.setProperties R.props) = o.setProperties l := by
        show (do o.setProperties (← PyM.ofRes (wrapProperties R.props))) = _; rw [hw]; rfl
      rw [this]
      unfold RObj.setProperties
      dsimp only
      cases l.dollar (ascii "metadata") with
      | some i => exact .inl ⟨.raised, rfl, .inl rfl⟩
      | none =>
        by_cases hk : o.kind = .row
        · simp only [hk, if_true]
          exact .inl ⟨.raised, rfl, .inl rfl⟩
        · simp only [hk, if_false]
          exact .inr ⟨_, rfl⟩
  have hc : ∀ o, ∃ k, (match (RSink.new kind).cpp with
    | .row st => do
      let (st, _) ← PyM.ofRes (st.step (.setProperties R.props))
      return { obj := o, cpp := .row st }
    | .chunk st => do
      let (st, out) ← PyM.ofRes (st.step (.setProperties R.props))
      return { obj := if delivers out then o.pushRows unique st else o, cpp := .chunk st }
    | .data st => do
      let (st, out) ← PyM.ofRes (st.dataStep (.setProperties R.props))
      return { obj := if delivers out then { o with df := .list } else o, cpp := .data st } : PyM RSink) = .ok k := by
    intro o
    cases kind <;> exact ⟨_, rfl⟩
  unfold RSink.events RSink.event
  rcases ht (RSink.new kind).obj with ⟨e, ht, he⟩ | ⟨o', ht⟩
  · rw [ht]
    rcases he with rfl | ⟨x, rfl, hx⟩
    · intro h'; cases h'
    · intro h'; exact hx _ _ (Option.some.inj h')
  · rw [ht]
    obtain ⟨k, hk⟩ := hc o'
    intro h'
    rw [show (Except.ok o' >>= _ : PyM RSink) = .ok k from hk] at h'
    cases h' 

end Sas.Proofs

namespace Sas.Props

open Sas Spec Proofs

/-- Python, the file being opened after the lists are looked at, or being there. -/
theorem pyArgs_told (cfg : Cfg) (fuel : Nat) (fs : FileSystem) (name : List Byte) (kind : PyKind) (incl excl : PyArg)
    (hmem : 288 ≤ cfg.maxAlloc) (hname : 0 ∉ name)
    (hli : ∀ items, incl = .list items → items.length < 2 ^ 31) (hle : ∀ items, excl = .list items → items.length < 2 ^ 31) :
    let told := pyArgsSays cfg fuel fs name kind incl excl
    (told = none ↔ ∃ s, pyOpen cfg fuel fs name kind incl excl = .ok s) ∧
    (incl = .other → told = some (.text (ascii "include argument is not a list"))) ∧
    (∀ items, incl = .list items → .other ∈ items →
      told = some (.text (ascii "Element of include argument is not a string"))) ∧
    ∀ i, ArgNames incl i →
      (excl = .other → told = some (.text (ascii "exclude argument is not a list"))) ∧
      (∀ items, excl = .list items → .other ∈ items →
        told = some (.text (ascii "Element of exclude argument is not a string"))) ∧
      ∀ e, ArgNames excl e →
        (told = some (.text (ascii "not_a_valid_file: [" ++ name ++ ascii "]")) ↔ fs.content name = none) ∧
        ∀ data, fs.content name = some data →
          (data.length < 288 → told = some (.text (ascii "header_too_short"))) ∧
          (288 ≤ data.length → (told = some (.text (ascii "invalid_magic_number")) ↔ data.take 32 ≠ magic)) ∧
          ∀ t, told = some (.text t) ↔
            ∃ x, openReader cfg ifs fuel none (IFStream.open data) = .error (.exn x) ∧ exceptionName x ≠ [] ∧ t = exceptionName x := by
  intro told
  have good : ∀ i, ArgNames incl i → ∀ e, ArgNames excl e → pyFilter incl excl = .ok (Filter.includeExclude i e) := by
    intro i hi e he
    unfold pyFilter
    rw [argNames_ok hi hli, argNames_ok he hle]
    rfl
  have sayi : ∀ t, listSays (ascii "include") incl = some t → told = some (.text t) := by
    intro t h
    show pyArgsSays _ _ _ _ _ _ _ = _
    unfold pyArgsSays
    rw [h]
  have saye : ∀ i, ArgNames incl i → ∀ t, listSays (ascii "exclude") excl = some t → told = some (.text t) := by
    intro i hi t h
    show pyArgsSays _ _ _ _ _ _ _ = _
    unfold pyArgsSays
    rw [listSays_ok hi, h]
  have sayo : ∀ i, ArgNames incl i → ∀ e, ArgNames excl e → told = openSays cfg fuel fs name (Filter.includeExclude i e) fun R =>
      sinkSays (({ reader := R, cpp := CppSink.start kind, obj := { kind := kind } } : PySession IFStream).events R.trace) := by
    intro i hi e he
    show pyArgsSays _ _ _ _ _ _ _ = _
    unfold pyArgsSays
    rw [listSays_ok hi, listSays_ok he, good i hi e he]
  have oi : incl = .other → told = some (.text (ascii "include argument is not a list")) := by
    rintro rfl
    exact sayi _ (show some _ = some _ from congrArg some (by decide +kernel))
  have li : ∀ items, incl = .list items → .other ∈ items →
      told = some (.text (ascii "Element of include argument is not a string")) := by
    rintro items rfl hm
    rw [sayi _ (listSays_other hm (hli _ rfl) _)]
    exact congrArg (fun t => some (Told.text t)) (by decide +kernel)
  have oe : ∀ i, ArgNames incl i → excl = .other → told = some (.text (ascii "exclude argument is not a list")) := by
    rintro i hi rfl
    exact saye i hi _ (show some _ = some _ from congrArg some (by decide +kernel))
  have le : ∀ i, ArgNames incl i → ∀ items, excl = .list items → .other ∈ items →
      told = some (.text (ascii "Element of exclude argument is not a string")) := by
    rintro i hi items rfl hm
    rw [saye i hi _ (listSays_other hm (hle _ rfl) _)]
    exact congrArg (fun t => some (Told.text t)) (by decide +kernel)
  refine ⟨?_, oi, li, fun i hi => ⟨oe i hi, le i hi, fun e he => ?_⟩⟩
  · have bad : ∀ {t}, told = some t → (∀ f, pyFilter incl excl ≠ .ok f) →
        (told = none ↔ ∃ s, pyOpen cfg fuel fs name kind incl excl = .ok s) := by
      intro t ht hf
      rw [ht]
      refine ⟨fun h => (by cases h), fun ⟨s, hs⟩ => ?_⟩
      unfold pyOpen at hs
      cases hp : pyFilter incl excl with
      | ok f => exact absurd hp (hf f)
      | error x => rw [hp] at hs; cases hs
    have nots : ∀ (a : PyArg), (a = .other ∨ ∃ items, a = .list items ∧ PyItem.other ∈ items) → ∀ names, ¬ ArgNames a names := by
      rintro a (rfl | ⟨items, rfl, hm⟩) names hn
      · exact hn
      · replace hn : List.Forall₂ (fun i n => i = PyItem.str n ∨ i = .bytes n) items names := hn
        induction hn with
        | nil => cases hm
        | cons h1 _ ih => rcases h1 with rfl | rfl <;> simp at hm <;> exact ih hm
    have badi : (incl = .other ∨ ∃ items, incl = .list items ∧ PyItem.other ∈ items) → ∀ f, pyFilter incl excl ≠ .ok f := by
      intro h f hf
      unfold pyFilter at hf
      rw [argNames_bad (nots incl h) hli] at hf
      cases hf
    have bade : (excl = .other ∨ ∃ items, excl = .list items ∧ PyItem.other ∈ items) → ∀ i, ArgNames incl i →
        ∀ f, pyFilter incl excl ≠ .ok f := by
      intro h i hi f hf
      unfold pyFilter at hf
      rw [argNames_ok hi hli, argNames_bad (nots excl h) hle] at hf
      cases hf
    rcases arg_cases incl with ⟨i, hi⟩ | h | ⟨items, h, hm⟩
    · rcases arg_cases excl with ⟨e, he⟩ | h | ⟨items, h, hm⟩
      · rw [sayo i hi e he]
        unfold openSays pyOpen
        rw [good i hi e he]
        show _ ↔ ∃ s, (PyM.ofRes (openFile fs (name.takeWhile (· ≠ 0))) >>= fun src => PyM.ofRes (openReader cfg ifs fuel _ src) >>= fun R => _) = _
        cases openFile fs (name.takeWhile (· ≠ 0)) with
        | error x => exact ⟨fun h => (by cases h), fun ⟨s, hs⟩ => (by cases hs)⟩
        | ok src =>
          show _ ↔ ∃ s, (PyM.ofRes (openReader cfg ifs fuel _ src) >>= fun R => _) = _
          dsimp only
          cases openReader cfg ifs fuel (some (Filter.includeExclude i e)) src with
          | error x => exact ⟨fun h => (by cases h), fun ⟨s, hs⟩ => (by cases hs)⟩
          | ok R =>
            show _ ↔ ∃ s, PySession.events _ _ = _
            dsimp only
            generalize PySession.events _ _ = y
            cases y with
            | ok s => exact ⟨fun _ => ⟨s, rfl⟩, fun _ => rfl⟩
            | error x => cases x <;> exact ⟨fun h => (by cases h), fun ⟨s, hs⟩ => (by cases hs)⟩
      · exact bad (oe i hi h) (bade (.inl h) i hi)
      · exact bad (le i hi _ h hm) (bade (.inr ⟨_, h, hm⟩) i hi)
    · exact bad (oi h) (badi (.inl h))
    · exact bad (li _ h hm) (badi (.inr ⟨_, h, hm⟩))
  · rw [sayo i hi e he]
    exact openSays_told cfg fuel fs name _ _ hmem hname fun src R hR t => py_told hR t

/-- The same for R. -/
theorem rArgs_told (unique : List (List Byte) → List (List Byte)) (cfg : Cfg) (fuel : Nat) (fs : FileSystem) (name : List Byte)
    (kind : PyKind) (incl excl : RArg) (hmem : 288 ≤ cfg.maxAlloc) (hname : 0 ∉ name) :
    let told := rArgsSays unique cfg fuel fs name kind incl excl
    (told = none ↔ ∃ s, rOpen unique cfg fuel fs name kind incl excl = .ok s) ∧
    (incl = .other → told = some (.text (ascii "include argument is not a vector of character"))) ∧
    (incl ≠ .other → excl = .other → told = some (.text (ascii "exclude argument is not a vector of character"))) ∧
    (incl ≠ .other → excl ≠ .other →
      (told = some (.text (ascii "not_a_valid_file: [" ++ name ++ ascii "]")) ↔ fs.content name = none) ∧
      ∀ data, fs.content name = some data →
        (data.length < 288 → told = some (.text (ascii "header_too_short"))) ∧
        (288 ≤ data.length → (told = some (.text (ascii "invalid_magic_number")) ↔ data.take 32 ≠ magic)) ∧
        ∀ t, told = some (.text t) ↔
          ∃ x, openReader cfg ifs fuel none (IFStream.open data) = .error (.exn x) ∧ exceptionName x ≠ [] ∧ t = exceptionName x) := by
  intro told
  have fine : ∀ c (a : RArg), a ≠ .other → rListSays c a = none ∧ ∃ names, rListToSet a = .ok names := by
    intro c a ha
    cases a with
    | null => exact ⟨rfl, _, rfl⟩
    | chr items => exact ⟨rfl, _, rfl⟩
    | other => exact absurd rfl ha
  have oi : incl = .other → told = some (.text (ascii "include argument is not a vector of character")) := by
    rintro rfl
    show some (Told.text _) = some (Told.text _)
    exact congrArg (fun t => some (Told.text t)) (by decide +kernel)
  have oe : incl ≠ .other → excl = .other → told = some (.text (ascii "exclude argument is not a vector of character")) := by
    rintro hi rfl
    show rArgsSays _ _ _ _ _ _ _ _ = _
    unfold rArgsSays
    rw [(fine (ascii "include") incl hi).1]
    show some (Told.text _) = some (Told.text _)
    exact congrArg (fun t => some (Told.text t)) (by decide +kernel)
  have sayo : incl ≠ .other → excl ≠ .other → ∃ f, rFilter incl excl = .ok f ∧
      told = openSays cfg fuel fs name f fun R => sinkSays ((RSink.new kind).events unique R.trace) := by
    intro hi he
    obtain ⟨hi1, i, hi2⟩ := fine (ascii "include") incl hi
    obtain ⟨he1, e, he2⟩ := fine (ascii "exclude") excl he
    have hf : rFilter incl excl = .ok (Filter.includeExclude i e) := by unfold rFilter; rw [hi2, he2]; rfl
    refine ⟨_, hf, ?_⟩
    show rArgsSays _ _ _ _ _ _ _ _ = _
    unfold rArgsSays
    rw [hi1, he1, hf]
  refine ⟨?_, oi, oe, fun hi he => ?_⟩
  · have bad : ∀ {t x}, told = some t → rFilter incl excl = .error x →
        (told = none ↔ ∃ s, rOpen unique cfg fuel fs name kind incl excl = .ok s) := by
      intro t x ht hf
      rw [ht]
      refine ⟨fun h => (by cases h), fun ⟨s, hs⟩ => ?_⟩
      unfold rOpen at hs
      rw [hf] at hs
      cases hs
    by_cases hi : incl = .other
    · exact bad (oi hi) (by rw [hi]; rfl)
    · by_cases he : excl = .other
      · obtain ⟨-, i, hi2⟩ := fine [] incl hi
        exact bad (oe hi he) (by unfold rFilter; rw [hi2, he]; rfl)
      · obtain ⟨f, hf, ho⟩ := sayo hi he
        rw [ho]
        unfold openSays rOpen
        rw [hf]
        show _ ↔ ∃ s, (PyM.ofRes (openFile fs (name.takeWhile (· ≠ 0))) >>= fun src => PyM.ofRes (openReader cfg ifs fuel _ src) >>= fun R => _) = _
        cases openFile fs (name.takeWhile (· ≠ 0)) with
        | error x => exact ⟨fun h => (by cases h), fun ⟨s, hs⟩ => (by cases hs)⟩
        | ok src =>
          show _ ↔ ∃ s, (PyM.ofRes (openReader cfg ifs fuel _ src) >>= fun R => _) = _
          dsimp only
          cases openReader cfg ifs fuel (some f) src with
          | error x => exact ⟨fun h => (by cases h), fun ⟨s, hs⟩ => (by cases hs)⟩
          | ok R =>
            show _ ↔ ∃ s, ((RSink.new kind).events unique R.trace >>= fun k => _) = _
            dsimp only
            generalize (RSink.new kind).events unique R.trace = y
            cases y with
            | ok s => exact ⟨fun _ => ⟨_, rfl⟩, fun _ => rfl⟩
            | error x => cases x <;> exact ⟨fun h => (by cases h), fun ⟨s, hs⟩ => (by cases hs)⟩
  · obtain ⟨f, hf, ho⟩ := sayo hi he
    rw [ho]
    exact openSays_told cfg fuel fs name _ _ hmem hname fun src R hR t => r_told hR t

/-- **C104**, Python. Making a reader of a file with one of the sinks of the package, whatever the order in which C++ evaluates the
arguments. There is an exception exactly when there is no reader. An argument that is neither `None` nor a list of texts is named, unless
the file cannot be opened either and is opened first; then the file is named. With good arguments a file that cannot be
opened is named, a file shorter than 288 bytes is said to be too short, one that does not begin with the magic
number is said to have an invalid one, and in general the exception has the text `t` exactly when the library refuses the file with the
exception of the name `t`. -/
theorem C104_python (sourceFirst : Bool) (cfg : Cfg) (fuel : Nat) (fs : FileSystem) (name : List Byte) (kind : PyKind) (incl excl : PyArg)
    (hmem : 288 ≤ cfg.maxAlloc) (hname : 0 ∉ name)
    (hli : ∀ items, incl = .list items → items.length < 2 ^ 31) (hle : ∀ items, excl = .list items → items.length < 2 ^ 31) :
    let told := pyReaderSays sourceFirst cfg fuel fs name kind incl excl
    (told = none ↔ ∃ s, pyOpen cfg fuel fs name kind incl excl = .ok s) ∧
    (sourceFirst = true → fs.content name = none → told = some (.text (ascii "not_a_valid_file: [" ++ name ++ ascii "]"))) ∧
    (sourceFirst = false ∨ fs.content name ≠ none →
      (incl = .other → told = some (.text (ascii "include argument is not a list"))) ∧
      (∀ items, incl = .list items → .other ∈ items →
        told = some (.text (ascii "Element of include argument is not a string"))) ∧
      ∀ i, ArgNames incl i →
        (excl = .other → told = some (.text (ascii "exclude argument is not a list"))) ∧
        (∀ items, excl = .list items → .other ∈ items →
          told = some (.text (ascii "Element of exclude argument is not a string")))) ∧
    ∀ i e, ArgNames incl i → ArgNames excl e →
        (told = some (.text (ascii "not_a_valid_file: [" ++ name ++ ascii "]")) ↔ fs.content name = none) ∧
        ∀ data, fs.content name = some data →
          (data.length < 288 → told = some (.text (ascii "header_too_short"))) ∧
          (288 ≤ data.length → (told = some (.text (ascii "invalid_magic_number")) ↔ data.take 32 ≠ magic)) ∧
          ∀ t, told = some (.text t) ↔
            ∃ x, openReader cfg ifs fuel none (IFStream.open data) = .error (.exn x) ∧ exceptionName x ≠ [] ∧ t = exceptionName x := by
  intro told
  obtain ⟨h1, h2, h3, h4⟩ := pyArgs_told cfg fuel fs name kind incl excl hmem hname hli hle
  have hn : name.takeWhile (· ≠ 0) = name := upToZero_self hname
  have first : sourceFirst = true → fs.content name = none → told = some (.text (ascii "not_a_valid_file: [" ++ name ++ ascii "]")) := by
    rintro rfl hc
    show pyReaderSays _ _ _ _ _ _ _ _ = _
    unfold pyReaderSays openFile
    rw [hn, hc]
    rfl
  have other : sourceFirst = false ∨ fs.content name ≠ none → told = pyArgsSays cfg fuel fs name kind incl excl := by
    intro h
    show pyReaderSays _ _ _ _ _ _ _ _ = _
    unfold pyReaderSays openFile
    rw [hn]
    rcases h with rfl | h
    · rfl
    · obtain ⟨d, hd⟩ := Option.ne_none_iff_exists'.1 h
      rw [hd]
      cases sourceFirst <;> rfl
  by_cases h : sourceFirst = false ∨ fs.content name ≠ none
  · rw [other h]
    exact ⟨h1, fun hs hc => by rcases h with h | h <;> simp_all, fun _ => ⟨h2, h3, fun i hi => ⟨(h4 i hi).1, (h4 i hi).2.1⟩⟩,
      fun i e hi he => (h4 i hi).2.2 e he⟩
  · have hs : sourceFirst = true := by cases sourceFirst <;> simp_all
    have hc : fs.content name = none := by by_contra hc; exact h (.inr hc)
    have ht := first hs hc
    refine ⟨⟨fun hn' => (by rw [ht] at hn'; cases hn'), fun ⟨s, hs'⟩ => ?_⟩, first, fun h' => absurd h' h, fun i e hi he => ?_⟩
    · exfalso
      unfold pyOpen openFile at hs'
      rw [hn, hc] at hs'
      cases hp : pyFilter incl excl <;> rw [hp] at hs' <;> cases hs'
    · exact ⟨⟨fun _ => hc, fun _ => ht⟩, fun d hd => by rw [hc] at hd; cases hd⟩

/-- **C104**, R. The same for `sas_reader`, with other words for arguments that are not vectors of texts. -/
theorem C104_r (sourceFirst : Bool) (unique : List (List Byte) → List (List Byte)) (cfg : Cfg) (fuel : Nat) (fs : FileSystem)
    (name : List Byte) (kind : PyKind) (incl excl : RArg) (hmem : 288 ≤ cfg.maxAlloc) (hname : 0 ∉ name) :
    let told := rReaderSays sourceFirst unique cfg fuel fs name kind incl excl
    (told = none ↔ ∃ s, rOpen unique cfg fuel fs name kind incl excl = .ok s) ∧
    (sourceFirst = true → fs.content name = none → told = some (.text (ascii "not_a_valid_file: [" ++ name ++ ascii "]"))) ∧
    (sourceFirst = false ∨ fs.content name ≠ none →
      (incl = .other → told = some (.text (ascii "include argument is not a vector of character"))) ∧
      (incl ≠ .other → excl = .other → told = some (.text (ascii "exclude argument is not a vector of character")))) ∧
    (incl ≠ .other → excl ≠ .other →
      (told = some (.text (ascii "not_a_valid_file: [" ++ name ++ ascii "]")) ↔ fs.content name = none) ∧
      ∀ data, fs.content name = some data →
        (data.length < 288 → told = some (.text (ascii "header_too_short"))) ∧
        (288 ≤ data.length → (told = some (.text (ascii "invalid_magic_number")) ↔ data.take 32 ≠ magic)) ∧
        ∀ t, told = some (.text t) ↔
          ∃ x, openReader cfg ifs fuel none (IFStream.open data) = .error (.exn x) ∧ exceptionName x ≠ [] ∧ t = exceptionName x) := by
  intro told
  obtain ⟨h1, h2, h3, h4⟩ := rArgs_told unique cfg fuel fs name kind incl excl hmem hname
  have hn : name.takeWhile (· ≠ 0) = name := upToZero_self hname
  have first : sourceFirst = true → fs.content name = none → told = some (.text (ascii "not_a_valid_file: [" ++ name ++ ascii "]")) := by
    rintro rfl hc
    show rReaderSays _ _ _ _ _ _ _ _ _ = _
    unfold rReaderSays openFile
    rw [hn, hc]
    rfl
  have other : sourceFirst = false ∨ fs.content name ≠ none → told = rArgsSays unique cfg fuel fs name kind incl excl := by
    intro h
    show rReaderSays _ _ _ _ _ _ _ _ _ = _
    unfold rReaderSays openFile
    rw [hn]
    rcases h with rfl | h
    · rfl
    · obtain ⟨d, hd⟩ := Option.ne_none_iff_exists'.1 h
      rw [hd]
      cases sourceFirst <;> rfl
  by_cases h : sourceFirst = false ∨ fs.content name ≠ none
  · rw [other h]
    exact ⟨h1, fun hs hc => by rcases h with h | h <;> simp_all, fun _ => ⟨h2, h3⟩, h4⟩
  · have hs : sourceFirst = true := by cases sourceFirst <;> simp_all
    have hc : fs.content name = none := by by_contra hc; exact h (.inr hc)
    have ht := first hs hc
    refine ⟨⟨fun hn' => (by rw [ht] at hn'; cases hn'), fun ⟨s, hs'⟩ => ?_⟩, first, fun h' => absurd h' h, fun hi he => ?_⟩
    · exfalso
      unfold rOpen openFile at hs'
      rw [hn, hc] at hs'
      cases hp : rFilter incl excl <;> rw [hp] at hs' <;> cases hs'
    · exact ⟨⟨fun _ => hc, fun _ => ht⟩, fun d hd => by rw [hc] at hd; cases hd⟩

/-- A directory with a good file, a short one and one that is something else. -/
def saysFiles : FileSystem where
  content n := if n = ascii "a" then some Demo.file else if n = ascii "b" then some (magic ++ [1, 2]) else
    if n = ascii "c" then some (List.replicate 400 7) else none
  writable _ := false

example : pyReaderSays true Demo.cfg 10 saysFiles (ascii "d") .row .none .none = some (.text (ascii "not_a_valid_file: [d]")) ∧
    pyReaderSays true Demo.cfg 10 saysFiles (ascii "b") .row .none .none = some (.text (ascii "header_too_short")) ∧
    pyReaderSays true Demo.cfg 10 saysFiles (ascii "c") .row (.list [.str (ascii "x")]) .none =
      some (.text (ascii "invalid_magic_number")) ∧
    pyReaderSays true Demo.cfg 10 saysFiles (ascii "a") .row (.list [.str (ascii "x"), .other]) .other =
      some (.text (ascii "Element of include argument is not a string")) ∧
    pyReaderSays true Demo.cfg 10 saysFiles (ascii "d") .row .other .none = some (.text (ascii "not_a_valid_file: [d]")) ∧
    pyReaderSays false Demo.cfg 10 saysFiles (ascii "d") .row .other .none = some (.text (ascii "include argument is not a list")) ∧
    pyReaderSays true Demo.cfg 10 saysFiles (ascii "a") .row .none .none = none ∧
    rReaderSays false (fun l => l) Demo.cfg 10 saysFiles (ascii "d") .data .null (.chr []) = some (.text (ascii "not_a_valid_file: [d]")) := by
  decide +kernel

/-- **C104**, the texts. Nobody can take one of them for another: those without a file name are all different, and none of them is
that of a file which cannot be opened, whatever its name is. Two files have different texts. -/
theorem C104_distinct : ∀ fixed : List (List Byte),
    fixed = [ascii "include argument is not a list", ascii "exclude argument is not a list",
      ascii "Element of include argument is not a string", ascii "Element of exclude argument is not a string",
      ascii "include argument is not a vector of character", ascii "exclude argument is not a vector of character",
      exceptionName .headerTooShort, exceptionName .invalidMagicNumber, exceptionName .cannotReadPage,
      exceptionName .cannotDecompress] →
    fixed.Nodup ∧ (∀ name : List Byte, ascii "not_a_valid_file: [" ++ name ++ ascii "]" ∉ fixed) ∧
    ∀ a b : List Byte, ascii "not_a_valid_file: [" ++ a ++ ascii "]" = ascii "not_a_valid_file: [" ++ b ++ ascii "]" → a = b := by
  rintro fixed rfl
  refine ⟨by decide +kernel, fun name hm => ?_, fun a b h => ?_⟩
  · have h1 : (ascii "not_a_valid_file: [" ++ name ++ ascii "]").take 19 = ascii "not_a_valid_file: [" := by
      rw [List.append_assoc]
      exact List.take_left' (by decide +kernel)
    have h2 := List.mem_map_of_mem (f := List.take 19) hm
    rw [h1] at h2
    exact absurd h2 (by decide +kernel)
  · rw [List.append_assoc, List.append_assoc] at h
    exact List.append_cancel_right (List.append_cancel_left h)

end Sas.Props
