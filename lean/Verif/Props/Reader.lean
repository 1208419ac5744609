import Verif.Proofs.Reader
import Verif.Demo

/-!
# Properties of the reader: reading, skipping, positions, sink protocol (C02–C10, C36, C40)

`S` is an arbitrary data source, `R` an arbitrary reader state a user can reach on it (`Spec.Reachable`:
any file content, any build configuration, any earlier calls). `R.step S op` is one API call,
`R.run S ops` a history of calls, whose caller catches exceptions. `R.trace` is the list of the calls the
sink has received so far.
-/

namespace Sas.Props

open Sas Spec

variable {σ : Type} {S : Source σ}

/-! ## C02 -/

/-- **C02.** Two histories of `read_row`/`read_rows`/`read_all` calls started in the same state push the
same rows with the same indices: one is a prefix of the other. If the first one has been told that the
data ended, it has pushed everything the second one pushes. -/
theorem C02_granularity {R : Reader σ} (hR : Reachable S R) (h1 h2 : List Op)
    (hr1 : ∀ op ∈ h1, isRead op = true) (hr2 : ∀ op ∈ h2, isRead op = true) :
    (pushes (R.run S h1).2.trace <+: pushes (R.run S h2).2.trace ∨
      pushes (R.run S h2).2.trace <+: pushes (R.run S h1).2.trace) ∧
    ((∃ x ∈ h1.zip (R.run S h1).1, reportsEnd x.1 x.2 = true) →
      pushes (R.run S h2).2.trace <+: pushes (R.run S h1).2.trace) := by
  have hi := Reachable.inv hR
  obtain ⟨a, ha⟩ := Reader.run_iter (S := S) h1 R hr1
  obtain ⟨b, hb⟩ := Reader.run_iter (S := S) h2 R hr2
  have le : ∀ {x y : Nat}, x ≤ y →
      pushes (Reader.iter S x R).trace <+: pushes (Reader.iter S y R).trace := by
    intro x y hxy
    obtain ⟨d, rfl⟩ := Nat.exists_eq_add_of_le hxy
    rw [Reader.iter_add]
    exact Reader.iter_pushes_prefix d _ (Reader.iter_inv x R hi)
  refine ⟨?_, ?_⟩
  · rw [ha, hb]
    rcases Nat.le_total a b with h | h
    · exact .inl (le h)
    · exact .inr (le h)
  · intro hx
    have hend := Reader.run_reported (S := S) h1 R hi hx
    rw [ha] at hend
    rw [ha, hb]
    rcases Nat.le_total a b with h | h
    · obtain ⟨d, rfl⟩ := Nat.exists_eq_add_of_le h
      rw [Reader.iter_add, (Reader.iter_ended d _ hend).1]
      exact List.prefix_rfl
    · exact le h

/-- **C02**, as the user says it: once some call has reported the end, exactly the rows of one `read_all`
have been pushed; before that, a prefix of them. (`read_all` did not throw.) -/
theorem C02_readAll {R : Reader σ} (hR : Reachable S R) (h : List Op)
    (hr : ∀ op ∈ h, isRead op = true) (hall : (R.step S .readAll).1 = .ok .unit) :
    pushes (R.run S h).2.trace <+: pushes (R.step S .readAll).2.trace ∧
    ((∃ x ∈ h.zip (R.run S h).1, reportsEnd x.1 x.2 = true) →
      pushes (R.run S h).2.trace = pushes (R.step S .readAll).2.trace) := by
  have e1 : (R.run S [.readAll]).2 = (R.step S .readAll).2 := by
    rw [Reader.run_cons]
    generalize R.step S .readAll = x at *
    obtain ⟨res, R1⟩ := x
    simp only at hall
    subst hall
    rfl
  have e2 : (R.run S [.readAll]).1 = [.ok .unit] := by
    rw [Reader.run_cons]
    generalize R.step S .readAll = x at *
    obtain ⟨res, R1⟩ := x
    simp only at hall
    subst hall
    rfl
  have h12 := C02_granularity hR h [.readAll] hr (by simp [isRead])
  have h21 := C02_granularity hR [.readAll] h (by simp [isRead]) hr
  rw [e1] at h12 h21
  rw [e2] at h21
  have p1 := h21.2 (by simp [reportsEnd])
  exact ⟨p1, fun hx => List.IsPrefix.eq_of_length_le p1 (h12.2 hx).length_le⟩

/-- Non-vacuity: three rows read in two ways. -/
example : (Demo.reader.step ifs .readAll).1 = .ok .unit ∧
    (Demo.reader.run ifs [.readRow, .readRows 1, .readRow, .readRow]).1 =
      [.ok (.bool true), .ok (.bool true), .ok (.bool true), .ok (.bool false)] ∧
    (pushes (Demo.reader.run ifs [.readRow, .readRows 1, .readRow, .readRow]).2.trace).length = 3 := by
  decide +kernel

/-! ## C03 -/

/-- **C03.** If `n` reads whose result is ignored all deliver a row (or find a row they cannot
decompress), `skip(n)` returns true, and after it every later history returns the same results, calls the
sink in the same way and ends at the same index as after those `n` reads. -/
theorem C03_skip (R : Reader σ) (n : Nat)
    (hn : ∀ x ∈ (R.run S (List.replicate n .readRowNoSink)).1,
      (∃ row, x = .ok (.ptr (some row))) ∨ x = .error (.exn .cannotDecompress))
    (ops : List Op) :
    (R.step S (.skip n)).1 = .ok (.bool true) ∧
    (Reader.run S (R.step S (.skip n)).2 ops).1 =
      (Reader.run S (R.run S (List.replicate n .readRowNoSink)).2 ops).1 ∧
    (Reader.run S (R.step S (.skip n)).2 ops).2.trace =
      (Reader.run S (R.run S (List.replicate n .readRowNoSink)).2 ops).2.trace ∧
    (Reader.run S (R.step S (.skip n)).2 ops).2.currentRowIndex =
      (Reader.run S (R.run S (List.replicate n .readRowNoSink)).2 ops).2.currentRowIndex := by
  obtain ⟨h1, h2⟩ := Reader.skip_run (S := S) n R R (Reader.Sim.refl R) hn
  obtain ⟨h3, h4⟩ := Reader.run_sim (S := S) ops h2
  refine ⟨?_, h3, h4.2.2.2.symm, h4.2.2.1.row.symm⟩
  simp only [Reader.step, h1]
  rfl

/-- **C03**, composition: `skip(a)` returning true followed by `skip(b)` is `skip(a+b)`, in result and
state. -/
theorem C03_skip_add (R : Reader σ) (a b : Nat) (h : (R.step S (.skip a)).1 = .ok (.bool true)) :
    R.step S (.skip (a + b)) = Reader.step S (R.step S (.skip a)).2 (.skip b) := by
  simp only [Reader.step, Reader.skip] at h ⊢
  rw [RD.skip_add]
  generalize R.rd.skip R.env S R.props.md a = x at *
  obtain ⟨res, rd⟩ := x
  cases res with
  | error e => cases h
  | ok v => cases v with
    | false => cases h
    | true => rfl

/-- Non-vacuity: two rows can be read, skipping them leaves the third, with its index. -/
example : (∀ x ∈ (Demo.reader.run ifs (List.replicate 2 .readRowNoSink)).1,
      (match x with | .ok (.ptr (some _)) => true | _ => false) = true) ∧
    Demo.pushed (Demo.reader.run ifs [.skip 2, .readRow]).2 = [(2, Demo.row 2 "cy    ")] := by
  decide +kernel

/-! ## C04 -/

/-- **C04.** The index is 0 after construction. -/
theorem C04_open {cfg : Cfg} {fuel : Nat} {filter : Option Filter} {s : σ} {R : Reader σ}
    (h : openReader cfg S fuel filter s = .ok R) : R.currentRowIndex = 0 :=
  (openReader_spec h).2.1

/-- **C04.** The index never exceeds the announced number of rows and no history decreases it. -/
theorem C04_bounds {R : Reader σ} (hR : Reachable S R) (ops : List Op) :
    R.currentRowIndex ≤ (R.run S ops).2.currentRowIndex ∧
    (R.run S ops).2.currentRowIndex ≤ (R.run S ops).2.props.md.rowCount :=
  ⟨Reader.run_mono ops R (Reachable.inv hR), (Reachable.inv (Reachable.run hR ops)).row⟩

/-- **C04.** What each call does to the index. The reading calls add the number of rows they pushed, the
first of which carries the index the reader had before the call; `skip(n)` returning true adds `n`;
`read_row_no_sink` adds one for a row; `end_of_data` adds nothing. An exception adds one more exactly when
a row had to be given up because it could not be decompressed. -/
theorem C04_step {R : Reader σ} (hR : Reachable S R) (op : Op) :
    match op, (R.step S op).1 with
    | .readRow, .ok _ | .readRows _, .ok _ | .readAll, .ok _ =>
      ∃ rows, pushes (R.step S op).2.trace = pushes R.trace ++ pushes (pushEvents R.currentRowIndex rows) ∧
        (R.step S op).2.currentRowIndex = R.currentRowIndex + rows.length
    | .readRow, .error (.exn e) | .readRows _, .error (.exn e) | .readAll, .error (.exn e) =>
      ∃ rows, pushes (R.step S op).2.trace = pushes R.trace ++ pushes (pushEvents R.currentRowIndex rows) ∧
        (R.step S op).2.currentRowIndex = R.currentRowIndex + rows.length + lostRows e
    | .skip n, .ok (.bool true) => (R.step S op).2.currentRowIndex = R.currentRowIndex + n
    | .skip n, _ => R.currentRowIndex ≤ (R.step S op).2.currentRowIndex ∧
        (R.step S op).2.currentRowIndex < R.currentRowIndex + n
    | .readRowNoSink, .ok (.ptr (some _)) => (R.step S op).2.currentRowIndex = R.currentRowIndex + 1
    | .readRowNoSink, .ok _ => (R.step S op).2.currentRowIndex = R.currentRowIndex
    | .readRowNoSink, .error (.exn e) =>
        (R.step S op).2.currentRowIndex = R.currentRowIndex + lostRows e
    | .endOfData, _ => (R.step S op).2.currentRowIndex = R.currentRowIndex
    | _, _ => True := by
  have hi := Reachable.inv hR
  unfold Reader.currentRowIndex
  cases op with
  | readRow =>
    have hs := (Reader.readRow_spec (S := S) R hi).2.2.2
    simp only [Reader.step]
    generalize R.readRow S = x at *
    obtain ⟨res, R1⟩ := x
    cases res with
    | error e =>
      cases e with
      | exn e => exact ⟨[], by rw [hs.1]; simp [pushEvents, pushes], hs.2.2.2.1⟩
      | terminate => trivial
      | ub => trivial
      | fuel => trivial
    | ok b => cases b with
      | true =>
        obtain ⟨h1, row, h2⟩ := hs
        exact ⟨[row], by simp only at h2 ⊢; rw [h2, pushes_append]; rfl, h1⟩
      | false =>
        exact ⟨[], by simp only at hs ⊢; rw [hs.2.2, pushes_append]; rfl, hs.1⟩
  | readRows n =>
    obtain ⟨rows, hs⟩ := (Reader.readRows_spec (S := S) n R hi).2.2.2
    simp only [Reader.step]
    generalize R.readRows S n = x at *
    obtain ⟨res, R1⟩ := x
    cases res with
    | error e =>
      cases e with
      | exn e => exact ⟨rows, by rw [hs.1, pushes_append], hs.2.2.2.2.1⟩
      | terminate => trivial
      | ub => trivial
      | fuel => trivial
    | ok b => cases b with
      | true =>
        simp only at hs
        exact ⟨rows, by simp only; rw [hs.2.2, pushes_append], by simp only; omega⟩
      | false =>
        simp only at hs
        exact ⟨rows, by simp only; rw [hs.2.2.2, pushes_append, pushes_append]; simp [pushes], hs.1⟩
  | readAll =>
    obtain ⟨rows, hs⟩ :=
      (Reader.readAllLoop_spec (S := S) (R.props.md.rowCount - R.rd.row + 1) R hi).2.2.2
    simp only [Reader.step, Reader.readAll]
    generalize R.readAllLoop S (R.props.md.rowCount - R.rd.row + 1) = x at *
    obtain ⟨res, R1⟩ := x
    cases res with
    | error e =>
      cases e with
      | exn e => exact ⟨rows, by rw [hs.1, pushes_append], hs.2.2.2.1⟩
      | terminate => trivial
      | ub => trivial
      | fuel => trivial
    | ok b =>
      simp only at hs
      exact ⟨rows, by simp only; rw [hs.2.2, pushes_append, pushes_append]; simp [pushes], hs.1⟩
  | skip n =>
    have hs := (Reader.skip_spec (S := S) n R hi).2.2.2
    simp only [Reader.step]
    generalize R.skip S n = x at *
    obtain ⟨res, R1⟩ := x
    cases res with
    | error e => exact ⟨hs.2.1, hs.2.2.1⟩
    | ok b => cases b with
      | true => exact hs.1
      | false => exact ⟨hs.2.1, hs.2.2.1⟩
  | readRowNoSink =>
    have hs := (Reader.readRowNoSink_spec (S := S) R hi).2.2.2.2
    simp only [Reader.step]
    generalize R.readRowNoSink S = x at *
    obtain ⟨res, R1⟩ := x
    cases res with
    | error e =>
      cases e with
      | exn e => exact hs.2.2.1
      | terminate => trivial
      | ub => trivial
      | fuel => trivial
    | ok o => cases o with
      | none => exact hs.1
      | some r => exact hs
  | endOfData => rfl

/-- Non-vacuity: indices along a history with a malformed row. -/
example : (Demo.rleReader.run ifs [.readRow]).2.currentRowIndex = 1 ∧
    (Demo.rleReader.run ifs [.readRow, .readRow]).2.currentRowIndex = 2 ∧
    (Demo.rleReader.run ifs [.readRow, .readRow, .readRow, .readRow]).2.currentRowIndex = 3 ∧
    Demo.rleReader.props.md.rowCount = 3 := by decide +kernel

/-! ## C05 -/

/-- **C05.** After a call has reported the end, every later history answers "end" to every call, pushes
nothing and leaves the index where it is. (A request for zero rows is trivially satisfied:
`Spec.answerAtEnd`.) -/
theorem C05_end_final {R : Reader σ} (hR : Reachable S R) (op : Op)
    (he : reportsEnd op (R.step S op).1 = true) (later : List Op) :
    (Reader.run S (R.step S op).2 later).1 = later.map answerAtEnd ∧
    (Reader.run S (R.step S op).2 later).2.currentRowIndex = (R.step S op).2.currentRowIndex ∧
    pushes (Reader.run S (R.step S op).2 later).2.trace = pushes (R.step S op).2.trace := by
  have hend := Reader.step_reportsEnd (S := S) R (Reachable.inv hR) op he
  obtain ⟨h1, h2, h3⟩ := Reader.run_ended (S := S) later _ hend
  exact ⟨h1, by unfold Reader.currentRowIndex; rw [h2], h3⟩

/-- **C05**, for failures of the source: an exception other than `cannot_decompress` is final too. -/
theorem C05_after_exception {R : Reader σ} (hR : Reachable S R) (e : Exn) (hne : e ≠ .cannotDecompress)
    (he : (R.step S .readRow).1 = .error (.exn e)) (later : List Op) :
    (Reader.run S (R.step S .readRow).2 later).1 = later.map answerAtEnd ∧
    (Reader.run S (R.step S .readRow).2 later).2.currentRowIndex = R.currentRowIndex ∧
    pushes (Reader.run S (R.step S .readRow).2 later).2.trace = pushes R.trace := by
  have hs := (Reader.readRow_spec (S := S) R (Reachable.inv hR)).2.2.2
  simp only [Reader.step] at he ⊢
  generalize R.readRow S = x at *
  obtain ⟨res, R1⟩ := x
  cases res with
  | ok b => cases he
  | error e' =>
    have hee : e' = .exn e := by cases he; rfl
    subst hee
    simp only at hs ⊢
    have hz : lostRows e = 0 := by cases e <;> first | rfl | exact absurd rfl hne
    obtain ⟨h1, h2, h3⟩ := Reader.run_ended (S := S) later R1 (hs.2.2.2.2 hne)
    refine ⟨h1, ?_, by rw [h3, hs.1]⟩
    unfold Reader.currentRowIndex
    rw [h2]
    have := hs.2.2.2.1
    omega

/-- Non-vacuity: the end is reported after three rows; the source could not be read further is shown by
a file whose device fails. -/
example : reportsEnd .readRow ((Demo.reader.run ifs [.skip 3]).2.step ifs .readRow).1 = true ∧
    (Demo.reader.run ifs [.skip 3, .readRow, .readRows 2, .skip 0, .readRowNoSink, .readAll]).1 =
      [.ok (.bool true), .ok (.bool false), .ok (.bool false), .ok (.bool true), .ok (.ptr none),
       .ok .unit] := by decide +kernel

/-! ## C06 -/

/-- **C06.** `read_rows(n)` returns true exactly when it pushed `n` rows; when it returns false it pushed
fewer and then called `end_of_data`; it touches the sink in no other way. -/
theorem C06_readRows {R : Reader σ} (hR : Reachable S R) (n : Nat) :
    ∃ rows : List Row, rows.length ≤ n ∧
    match (R.step S (.readRows n)).1 with
    | .ok r => (r = .bool true ∨ r = .bool false) ∧ (r = .bool true ↔ rows.length = n) ∧
        (R.step S (.readRows n)).2.trace = R.trace ++ pushEvents R.currentRowIndex rows ++
          (if r = .bool true then [] else [.endOfData])
    | .error _ => rows.length < n ∧
        (R.step S (.readRows n)).2.trace = R.trace ++ pushEvents R.currentRowIndex rows := by
  obtain ⟨rows, hs⟩ := (Reader.readRows_spec (S := S) n R (Reachable.inv hR)).2.2.2
  refine ⟨rows, ?_⟩
  simp only [Reader.step, Reader.currentRowIndex]
  generalize R.readRows S n = x at *
  obtain ⟨res, R1⟩ := x
  cases res with
  | error e => exact ⟨Nat.le_of_lt hs.2.1, hs.2.1, hs.1⟩
  | ok b => cases b with
    | true =>
      simp only at hs
      exact ⟨Nat.le_of_eq hs.2.1, .inl rfl, ⟨fun _ => hs.2.1, fun _ => rfl⟩, by simp [hs.2.2]⟩
    | false =>
      simp only at hs
      exact ⟨Nat.le_of_lt hs.2.2.1, .inr rfl, ⟨fun h => (by cases h), fun h => (by omega)⟩,
        by simp [hs.2.2.2]⟩

/-- **C06**, for zero rows. -/
theorem C06_zero (R : Reader σ) : R.step S (.readRows 0) = (.ok (.bool true), R) := rfl

example : (Demo.reader.run ifs [.readRows 2, .readRows 2]).1 = [.ok (.bool true), .ok (.bool false)] := by
  decide +kernel

/-! ## C07 -/

/-- **C07.** `read_row_no_sink` and `read_row` started in the same state: the same row, the same failure,
the same state of the reader afterwards; the sink is not called. -/
theorem C07_no_sink (R : Reader σ) :
    (R.step S .readRowNoSink).2 = { (R.step S .readRow).2 with trace := R.trace } ∧
    match (R.step S .readRow).1 with
    | .ok (.bool true) => ∃ row, (R.step S .readRowNoSink).1 = .ok (.ptr (some row)) ∧
        (R.step S .readRow).2.trace = R.trace ++ [.pushRow R.currentRowIndex row]
    | .ok _ => (R.step S .readRowNoSink).1 = .ok (.ptr none)
    | .error e => (R.step S .readRowNoSink).1 = .error e := by
  simp only [Reader.step, Reader.readRow, Reader.readRowNoSink]
  generalize R.rd.readLine R.env S R.props.md = x at *
  obtain ⟨res, rd⟩ := x
  cases res with
  | error e => exact ⟨rfl, rfl⟩
  | ok o => cases o with
    | none => exact ⟨rfl, rfl⟩
    | some row => exact ⟨rfl, row, rfl, rfl⟩

/-- The value returned is a boolean, so that the three cases above are all there are. -/
theorem C07_cases (R : Reader σ) (r : Ret) (h : (R.step S .readRow).1 = .ok r) :
    r = .bool true ∨ r = .bool false := by
  simp only [Reader.step] at h
  generalize R.readRow S = x at *
  obtain ⟨res, R1⟩ := x
  cases res with
  | error e => cases h
  | ok b => cases h; cases b <;> simp

/-! ## C08 -/

/-- **C08.** Whatever the calls, the sink sees `set_properties` first and never again, with the
properties the reader reports, and the row indices it sees are strictly increasing and below the
announced number of rows. -/
theorem C08_protocol {cfg : Cfg} {fuel : Nat} {filter : Option Filter} {s : σ} {R : Reader σ}
    (h : openReader cfg S fuel filter s = .ok R) (ops : List Op) :
    ∃ rest, (R.run S ops).2.trace = .setProperties R.props :: rest ∧
      (R.run S ops).2.props = R.props ∧
      (∀ p, Event.setProperties p ∉ rest) ∧
      ((pushes rest).map Prod.fst).Pairwise (· < ·) ∧
      ∀ i ∈ (pushes rest).map Prod.fst, i < R.props.md.rowCount := by
  have hR : Reachable S R := .opened _ _ _ _ _ h
  have hp := Reader.run_props (S := S) ops R (Reachable.inv hR)
  have ht := Reachable.traceOk (Reachable.run hR ops)
  obtain ⟨rest, h1, h2⟩ := ht.head
  have h3 := ht.incr
  have h4 := ht.lt
  have h5 := ht.inv.row
  rw [h1] at h3 h4
  rw [hp] at h1 h5
  exact ⟨rest, h1, hp, h2, h3, fun i hi => Nat.lt_of_lt_of_le (h4 i hi) h5⟩

/-! ## C09 -/

/-- **C09**, what the code does: the sink receives one `end_of_data` for each call that reports the end
(other than `read_row_no_sink`) and for each explicit `end_of_data()`. -/
theorem C09_count {cfg : Cfg} {fuel : Nat} {filter : Option Filter} {s : σ} {R : Reader σ}
    (h : openReader cfg S fuel filter s = .ok R) (ops : List Op) :
    ends (R.run S ops).2.trace =
      ((ops.zip (R.run S ops).1).filter fun x => signalsEnd x.1 x.2).length := by
  have := Reader.run_ends (S := S) ops R (openReader_spec h).1
  rw [this, (openReader_spec h).2.2]
  simp [ends]

/-- **C09** is false as stated: draining the reader and polling it once more signals twice. -/
theorem C09_refuted : ∃ R : Reader IFStream, Reachable ifs R ∧
    ends (R.run ifs [.readAll, .readRow]).2.trace = 2 :=
  ⟨Demo.reader, Demo.reachable, by decide +kernel⟩

/-- **C09**, the part that holds: a history of reads and skips whose last call, and no earlier one,
reports the end makes exactly one `end_of_data` call. Missing for the full claim: polling again after the
end must not signal again. -/
theorem C09_once_partial {cfg : Cfg} {fuel : Nat} {filter : Option Filter} {s : σ} {R : Reader σ}
    (h : openReader cfg S fuel filter s = .ok R) (ops : List Op)
    (hops : ∀ op ∈ ops, op ≠ .endOfData ∧ op ≠ .readRowNoSink)
    (hone : ((ops.zip (R.run S ops).1).filter fun x => reportsEnd x.1 x.2).length = 1) :
    ends (R.run S ops).2.trace = 1 := by
  rw [C09_count h, ← hone]
  congr 1
  apply List.filter_congr
  intro x hx
  have := hops x.1 (List.of_mem_zip hx).1
  cases hop : x.1 <;> simp_all [signalsEnd]

example : ((([.readRows 2, .readAll] : List Op).zip (Demo.reader.run ifs [.readRows 2, .readAll]).1).filter
    fun x => reportsEnd x.1 x.2).length = 1 := by decide +kernel

/-! ## C10 -/

/-- **C10.** If `read_row` throws because the row cannot be decompressed, then `skip(1)` would have
succeeded there, and every later history behaves exactly as after that `skip(1)`: the bad row is used up
and the following rows keep their own indices. -/
theorem C10_resync {R : Reader σ} (hR : Reachable S R)
    (h : (R.step S .readRow).1 = .error (.exn .cannotDecompress)) :
    (R.step S .readRow).2.trace = R.trace ∧
    (R.step S .readRow).2.currentRowIndex = R.currentRowIndex + 1 ∧
    (R.step S (.skip 1)).1 = .ok (.bool true) ∧
    ∀ later, (Reader.run S (R.step S .readRow).2 later).1 =
        (Reader.run S (R.step S (.skip 1)).2 later).1 ∧
      (Reader.run S (R.step S .readRow).2 later).2.trace =
        (Reader.run S (R.step S (.skip 1)).2 later).2.trace ∧
      (Reader.run S (R.step S .readRow).2 later).2.currentRowIndex =
        (Reader.run S (R.step S (.skip 1)).2 later).2.currentRowIndex := by
  have hns : (R.step S .readRowNoSink).1 = .error (.exn .cannotDecompress) := by
    have := (C07_no_sink (S := S) R).2
    rw [h] at this
    exact this
  have hst := (C07_no_sink (S := S) R).1
  have htr : (R.step S .readRow).2.trace = R.trace := by
    have hs := (Reader.readRow_spec (S := S) R (Reachable.inv hR)).2.2.2
    simp only [Reader.step] at h ⊢
    generalize R.readRow S = x at *
    obtain ⟨res, R1⟩ := x
    cases res with
    | ok b => cases h
    | error e => exact hs.1
  have hst' : (R.step S .readRowNoSink).2 = (R.step S .readRow).2 := by rw [hst, ← htr]
  have hrun : R.run S (List.replicate 1 .readRowNoSink) =
      ([.error (.exn .cannotDecompress)], (R.step S .readRow).2) := by
    rw [List.replicate_succ, Reader.run_cons, ← hst']
    generalize R.step S .readRowNoSink = x at *
    obtain ⟨res, R1⟩ := x
    simp only at hns
    subst hns
    rfl
  have key := C03_skip (S := S) R 1 (by rw [hrun]; simp)
  rw [hrun] at key
  refine ⟨htr, ?_, (key []).1, fun later => ⟨(key later).2.1.symm, (key later).2.2.1.symm,
    (key later).2.2.2.symm⟩⟩
  have := C04_step hR .readRow
  rw [h] at this
  obtain ⟨rows, h1, h2⟩ := this
  rw [htr] at h1
  have h3 := congrArg List.length h1
  rw [List.length_append, length_pushes_pushEvents] at h3
  simp only [lostRows] at h2
  omega

/-- Non-vacuity: the second row of the RLE file is malformed, the third is delivered with its index. -/
example : ((Demo.rleReader.run ifs [.readRow]).2.step ifs .readRow).1 =
      .error (.exn .cannotDecompress) ∧
    Demo.pushed (Demo.rleReader.run ifs [.readRow, .readRow, .readRow]).2 =
      [(0, Demo.row 0 "ann   "), (2, Demo.row 2 "cy    ")] := by decide +kernel

/-! ## C36, C40 -/

/-- A history on a reader as the user holds it. -/
def apiRun (S : Source σ) : ApiReader σ → List Op → List (Res Ret) × ApiReader σ
  | R, [] => ([], R)
  | R, op :: ops =>
    let (r, R) := ApiReader.step S R op
    let (rs, R) := apiRun S R ops
    (r :: rs, R)

/-- **C36.** On a default-constructed or moved-from reader every history is harmless: no call throws, the
booleans are false, the pointers null, the index 0 and the properties empty. -/
theorem C36_inert (ops : List Op) :
    (apiRun S none ops).2 = none ∧ (apiRun S none ops).1 = ops.map (fun
      | .readRow | .readRows _ | .skip _ => .ok (.bool false)
      | .readAll | .endOfData => .ok .unit
      | .readRowNoSink => .ok (.ptr none)) ∧
    ApiReader.currentRowIndex (apiRun S none ops).2 = 0 ∧
    ApiReader.properties (apiRun S none ops).2 = none := by
  induction ops with
  | nil => exact ⟨rfl, rfl, rfl, rfl⟩
  | cons op ops ih =>
    obtain ⟨h1, h2, h3, h4⟩ := ih
    cases op <;>
      simp only [apiRun, ApiReader.step, h1, h2, List.map_cons] <;> exact ⟨trivial, trivial, rfl, rfl⟩

/-- **C40.** No call changes the properties. -/
theorem C40_properties {R : Reader σ} (hR : Reachable S R) (ops : List Op) :
    (R.run S ops).2.props = R.props :=
  Reader.run_props ops R (Reachable.inv hR)

end Sas.Props
