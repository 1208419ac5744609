import Verif.Model.Cli
import Verif.Proofs.TextSinks
import Verif.Proofs.Reader

/-!
# Lemmas about the print sink, the file-backed csv sink and the command line program
-/

namespace Sas
open Spec

/-! ## When writing succeeds -/

theorem andThen_ok {p q : Printed} : (p.andThen q).2 = .ok () ↔ p.2 = .ok () ∧ q.2 = .ok () := by
  obtain ⟨t, r⟩ := p
  cases r with
  | error e => simp [Printed.andThen]
  | ok u => simp [Printed.andThen]

theorem sayAll_ok {ps : List Printed} : (sayAll ps).2 = .ok () ↔ ∀ p ∈ ps, p.2 = .ok () := by
  induction ps with
  | nil => simp [sayAll, say]
  | cons p ps ih => simp [sayAll, andThen_ok, ih]

theorem sayRes_ok {r : Res (List Byte)} : (sayRes r).2 = .ok () ↔ ∃ t, r = .ok t := by
  cases r <;> simp [sayRes, say]

theorem csvElements_ok {ps : List Printed} : ∀ b, (csvElements b ps).2 = .ok () ↔ ∀ p ∈ ps, p.2 = .ok () := by
  induction ps with
  | nil => intro b; cases b <;> simp [csvElements, say]
  | cons p ps ih => intro b; cases b <;> simp [csvElements, andThen_ok, ih, say]

theorem csvLine_ok {ps : List Printed} : (csvLine ps).2 = .ok () ↔ ∀ p ∈ ps, p.2 = .ok () := by
  simp [csvLine, andThen_ok, csvElements_ok, say]

theorem csvLine_ne_nil {ps : List Printed} (h : (csvLine ps).2 = .ok ()) : (csvLine ps).1 ≠ [] := by
  have h1 := (andThen_ok.1 h).1
  unfold csvLine Printed.andThen
  rw [h1]
  simp [say]

theorem csvStep_header_ok (x : Texts) (cols : List Column) (p : Properties) :
    (csvStep x cols (.setProperties p)).1.2 = .ok () := by
  simp only [csvStep]
  rw [csvLine_ok]
  intro q hq
  rw [List.mem_map] at hq
  obtain ⟨c, -, rfl⟩ := hq
  rfl

theorem runText_ok {step : List Column → Event → Printed × List Column} {cols : List Column}
    (hstep : ∀ ev, (∀ p, ev ≠ .setProperties p) → (step cols ev).2 = cols) : ∀ {evs : List Event},
    (∀ p, Event.setProperties p ∉ evs) →
    ((runText step cols evs).2 = .ok () ↔ ∀ ev ∈ evs, (step cols ev).1.2 = .ok ()) := by
  intro evs
  induction evs with
  | nil => simp [runText, say]
  | cons ev evs ih =>
    intro hp
    rw [runText, andThen_ok, hstep ev (fun p h => hp p (by simp [h])), ih (fun p h => hp p (by simp [h]))]
    simp

theorem csvStep_cols (x : Texts) (cols : List Column) (ev : Event) (h : ∀ p, ev ≠ .setProperties p) :
    (csvStep x cols ev).2 = cols := by
  cases ev with
  | setProperties p => exact absurd rfl (h p)
  | pushRow i r => rfl
  | endOfData => rfl

theorem printStep_cols (x : Texts) (cols : List Column) (ev : Event) (h : ∀ p, ev ≠ .setProperties p) :
    (printStep x cols ev).2 = cols := by
  cases ev with
  | setProperties p => exact absurd rfl (h p)
  | pushRow i r => rfl
  | endOfData => rfl

theorem mem_pushes {i : Nat} {r : Row} : ∀ {evs : List Event}, Event.pushRow i r ∈ evs ↔ (i, r) ∈ pushes evs
  | [] => by simp [pushes]
  | ev :: evs => by
    have := mem_pushes (i := i) (r := r) (evs := evs)
    cases ev <;> simp [pushes, this]

/-! ## The print sink -/

theorem fmtBare_plain : ∀ {t : List Byte}, 123 ∉ t → 125 ∉ t → fmtBare t = .ok t
  | [], _, _ => by simp [fmtBare]
  | b :: t, h1, h2 => by
    simp only [List.mem_cons, not_or] at h1 h2
    have ih := fmtBare_plain (t := t) h1.2 h2.2
    have hb : ¬ (b = 123 ∨ b = 125) := by rintro (rfl | rfl); exact h1.1 rfl; exact h2.1 rfl
    unfold fmtBare
    split
    · rename_i u heq; cases heq; exact absurd rfl h1.1
    · rename_i u heq; cases heq; exact absurd rfl h2.1
    · rename_i b' u _ _ heq
      cases heq
      rw [if_neg hb, ih]
      rfl
    · rename_i heq; cases heq

/-- An opening brace that is not doubled. -/
theorem fmtBare_brace : ∀ {s u : List Byte}, 123 ∉ s → 125 ∉ s → u.head? ≠ some 123 →
    fmtBare (s ++ 123 :: u) = .error (.exn .formatError)
  | [], u, _, _, hu => by
    rw [List.nil_append]
    unfold fmtBare
    split
    · rename_i t heq; cases heq; exact absurd rfl hu
    · rename_i t heq; cases heq
    · rename_i b t _ _ heq; cases heq; rw [if_pos (.inl rfl)]
    · rename_i heq; cases heq
  | b :: s, u, h1, h2, hu => by
    simp only [List.mem_cons, not_or] at h1 h2
    have ih := fmtBare_brace (s := s) h1.2 h2.2 hu
    have hb : ¬ (b = 123 ∨ b = 125) := by rintro (rfl | rfl); exact h1.1 rfl; exact h2.1 rfl
    rw [List.cons_append]
    unfold fmtBare
    split
    · rename_i t heq; rw [List.cons.injEq] at heq; exact absurd heq.1.symm h1.1
    · rename_i t heq; rw [List.cons.injEq] at heq; exact absurd heq.1.symm h2.1
    · rename_i b' t _ _ heq
      cases heq
      rw [if_neg hb, ih]
      rfl
    · rename_i heq; cases heq

theorem labelled_eq (l : String) (t : List Byte) : labelled l t = ascii (l ++ ": ") ++ (t ++ [10]) := by
  unfold labelled ascii
  simp [String.toList_append]

theorem columnLines : ∀ (cols : List Column) (i : Nat),
    ∃ lines, ColumnLines i cols lines ∧
      sayAll (cols.mapIdx fun j c => printColumn (i + j) c) = say (unlines lines)
  | [], i => ⟨[], rfl, rfl⟩
  | c :: cols, i => by
    obtain ⟨rest, h1, h2⟩ := columnLines cols (i + 1)
    refine ⟨_, ⟨decimal i, rest, decimal_digits i, h1, rfl⟩, ?_⟩
    rw [List.mapIdx_cons, sayAll]
    have e : (cols.mapIdx fun j c => printColumn (i + (j + 1)) c)
        = cols.mapIdx fun j c => printColumn (i + 1 + j) c := by
      congr 1; funext j c; rw [show i + (j + 1) = i + 1 + j by omega]
    rw [e, h2]
    simp only [Nat.add_zero]
    have e2 : c.type.text = typeName c.type := by cases c.type <;> rfl
    simp only [printColumn, sayAll, say_say, labelled_eq, String.reduceAppend, unlines, List.flatMap_append,
      List.flatMap_cons, List.flatMap_nil, List.append_assoc, List.append_nil, e2]

theorem fileLines (x : Texts) (p : Properties)
    (h1 : p.header.dateCreated = .notADateTime ∨ ∃ us, p.header.dateCreated = at1960 us ∧ CalendarDay (us / 86400000000))
    (h2 : p.header.dateModified = .notADateTime ∨ ∃ us, p.header.dateModified = at1960 us ∧ CalendarDay (us / 86400000000)) :
    ∃ file columns, FileLines p file ∧ ColumnLines 0 p.columns columns ∧
      printProperties x p = say (unlines (file ++ columns ++ [ascii "Data:"])) := by
  obtain ⟨s1, a1, a2, -⟩ := boostText_stamp x h1
  obtain ⟨s2, b1, b2, -⟩ := boostText_stamp x h2
  obtain ⟨cs, c1, c2⟩ := columnLines p.columns 0
  simp only [Nat.zero_add] at c2
  refine ⟨_, cs, ⟨s1, s2, _, _, a2, b2, decimal_digits _, decimal_digits _, rfl⟩, c1, ?_⟩
  have c3 : sayAll (p.columns.mapIdx printColumn) = say (unlines cs) := c2
  unfold printProperties
  rw [c3, a1, b1]
  have e1 : p.header.format.text = formatName p.header.format := by cases p.header.format <;> rfl
  have e2 : p.header.endian.text = endianName p.header.endian := by cases p.header.endian <;> rfl
  have e3 : p.header.platform.text = platformName p.header.platform := by cases p.header.platform <;> rfl
  have e4 : p.md.compression.text = compressionName p.md.compression := by cases p.md.compression <;> rfl
  rw [e1, e2, e3, e4]
  have r1 : ∀ (l : String) (s : List Byte), (sayRes (do return labelled l (← (Except.ok s : Res (List Byte)))))
      = say (labelled l s) := fun _ _ => rfl
  rw [r1, r1]
  simp only [sayAll, say_say, labelled_eq, String.reduceAppend, unlines, List.flatMap_append, List.flatMap_cons,
    List.flatMap_nil, List.append_assoc, List.append_nil]

theorem printRow_text (x : Texts) (cols : List Column) (mem : List Byte)
    (h : ∀ c ∈ cols, ∃ t, c.toText x.fixed mem = .ok t) :
    ∃ texts, List.Forall₂ (fun c t => c.toText x.fixed mem = .ok t) cols texts ∧
      sayAll (cols.map fun c => sayRes (do return 44 :: (← c.toText x.fixed mem))) = say (texts.flatMap ([44] ++ ·)) := by
  induction cols with
  | nil => exact ⟨[], .nil, rfl⟩
  | cons c cols ih =>
    obtain ⟨ts, h1, h2⟩ := ih fun c hc => h c (by simp [hc])
    obtain ⟨t, ht⟩ := h c (by simp)
    refine ⟨t :: ts, .cons ht h1, ?_⟩
    rw [List.map_cons, sayAll, h2, ht]
    rfl

theorem print_run (x : Texts) (cols : List Column) : ∀ evs : List Event, (∀ p, Event.setProperties p ∉ evs) →
    (∀ r ∈ pushes evs, ∀ c ∈ cols, ∃ t, c.toText x.fixed r.2.mem = .ok t) →
    ∃ data, runText (printStep x) cols evs = say (unlines data) ∧
      List.Forall₂ (PrintedRow x cols) (pushes evs) data := by
  intro evs
  induction evs with
  | nil => intro _ _; exact ⟨[], rfl, .nil⟩
  | cons ev evs ih =>
    intro hp hr
    cases ev with
    | setProperties p => exact absurd (by simp) (hp p)
    | endOfData =>
      obtain ⟨d, h1, h2⟩ := ih (fun p h => hp p (by simp [h])) hr
      refine ⟨d, ?_, h2⟩
      rw [runText, show (printStep x cols .endOfData).2 = cols from rfl, h1]
      rfl
    | pushRow i r =>
      simp only [pushes, List.mem_cons, forall_eq_or_imp] at hr
      obtain ⟨d, h1, h2⟩ := ih (fun p h => hp p (by simp [h])) hr.2
      obtain ⟨ts, k1, k2⟩ := printRow_text x cols r.mem hr.1
      refine ⟨(decimal i ++ ts.flatMap ([44] ++ ·)) :: d, ?_, .cons ⟨_, ts, decimal_digits i, k1, rfl⟩ h2⟩
      rw [runText, show (printStep x cols (.pushRow i r)).2 = cols from rfl, h1]
      simp only [printStep]
      rw [k2]
      simp [say_say, unlines]

/-! ## The reading loop of the command line program -/

variable {σ : Type} {S : Source σ}

theorem printLoop_neg : ∀ (f : Nat) (n : Int) (R : Reader σ), n < 0 → printLoop S f n R = R.readAllLoop S f
  | 0, n, R, h => by rw [printLoop, if_neg (by omega)]; rfl
  | f + 1, n, R, h => by
    rw [printLoop, if_neg (by omega), Reader.readAllLoop]
    generalize R.readRow S = y
    obtain ⟨res, R1⟩ := y
    cases res with
    | error e => rfl
    | ok b =>
      cases b with
      | false => rfl
      | true =>
        simp only
        rw [if_neg (by omega)]
        exact printLoop_neg f n R1 h

theorem readAllLoop_prefix (f : Nat) (R : Reader σ) (h : R.Inv) :
    pushes R.trace <+: pushes (R.readAllLoop S f).2.trace := by
  obtain ⟨k, hk⟩ := Reader.readAllLoop_iter (S := S) f R
  rw [hk]
  exact Reader.iter_pushes_prefix k R h

theorem take_prefix {α : Type} {a b : List α} (h : a <+: b) : b.take a.length = a := by
  obtain ⟨t, rfl⟩ := h
  simp

/-- The rows of the limited loop are the first rows of the unlimited one, and it ends well if there are as
many, and like the unlimited one otherwise. -/
theorem printLoop_take : ∀ (f k : Nat) (R : Reader σ), R.Inv →
    pushes (printLoop S f k R).2.trace
      = (pushes (R.readAllLoop S f).2.trace).take ((pushes R.trace).length + k) ∧
    (printLoop S f k R).1 =
      if (pushes R.trace).length + k ≤ (pushes (R.readAllLoop S f).2.trace).length then .ok ()
      else (R.readAllLoop S f).1
  | 0, k, R, _ => by
    constructor
    · simp [printLoop, Reader.readAllLoop, List.take_of_length_le]
    · rw [printLoop, Reader.readAllLoop]
      by_cases h : k = 0
      · simp [h]
      · rw [if_neg (by omega)]
        simp only
        rw [if_neg (by omega)]
  | f + 1, 0, R, h => by
    have hp := readAllLoop_prefix (S := S) (f + 1) R h
    constructor
    · rw [printLoop, if_pos (by rfl)]
      exact (take_prefix hp).symm
    · rw [printLoop, if_pos (by rfl), if_pos]
      simpa using hp.length_le
  | f + 1, k + 1, R, h => by
    obtain ⟨h1, -, -, h2⟩ := Reader.readRow_spec (S := S) R h
    rw [printLoop, if_neg (by omega), Reader.readAllLoop]
    generalize R.readRow S = y at *
    obtain ⟨res, R1⟩ := y
    cases res with
    | error e =>
      simp only at h2 ⊢
      rw [h2.1]
      exact ⟨by rw [List.take_of_length_le (by omega)], by rw [if_neg (by omega)]⟩
    | ok b =>
      cases b with
      | false =>
        simp only at h2 ⊢
        rw [h2.2.2, pushes_append]
        simp only [pushes, List.append_nil]
        exact ⟨by rw [List.take_of_length_le (by omega)], by simp⟩
      | true =>
        simp only at h2 ⊢
        obtain ⟨-, row, ht⟩ := h2
        have hl : (pushes R1.trace).length = (pushes R.trace).length + 1 := by
          rw [ht, pushes_append]; simp [pushes]
        rw [if_pos (by omega), show ((k + 1 : Nat) : Int) - 1 = (k : Int) by omega]
        have ih := printLoop_take f k R1 h1
        rw [hl, show (pushes R.trace).length + 1 + k = (pushes R.trace).length + (k + 1) by omega] at ih
        exact ih

theorem printLoop_iter : ∀ (f : Nat) (n : Int) (R : Reader σ), ∃ k, (printLoop S f n R).2 = Reader.iter S k R
  | 0, n, R => ⟨0, rfl⟩
  | f + 1, n, R => by
    rw [printLoop]
    by_cases hn : n = 0
    · rw [if_pos hn]; exact ⟨0, rfl⟩
    · rw [if_neg hn]
      cases hy : R.readRow S with
      | mk res R1 =>
        cases res with
        | error e => exact ⟨1, by simp [Reader.iter, hy]⟩
        | ok b =>
          cases b with
          | false => exact ⟨1, by simp [Reader.iter, hy]⟩
          | true =>
            obtain ⟨k, hk⟩ := printLoop_iter f (if n > 0 then n - 1 else n) R1
            exact ⟨k + 1, by simp only [Reader.iter, hy]; exact hk⟩

theorem iter_trace : ∀ (k : Nat) (R : Reader σ), R.Inv →
    ∃ es, (Reader.iter S k R).trace = R.trace ++ es ∧ ∀ p, Event.setProperties p ∉ es
  | 0, R, _ => ⟨[], by simp [Reader.iter], by simp⟩
  | k + 1, R, h => by
    obtain ⟨h1, -, -, h2⟩ := Reader.readRow_spec (S := S) R h
    obtain ⟨es, h3, h4⟩ := iter_trace k _ h1
    rw [Reader.iter, h3]
    generalize R.readRow S = y at *
    obtain ⟨res, R1⟩ := y
    cases res with
    | error e => exact ⟨es, by rw [h2.1], h4⟩
    | ok b =>
      cases b with
      | false => exact ⟨[.endOfData] ++ es, by rw [h2.2.2]; simp, by simpa using h4⟩
      | true =>
        obtain ⟨-, row, ht⟩ := h2
        exact ⟨[.pushRow R.rd.row row] ++ es, by simp only at ht ⊢; rw [ht]; simp, by simpa using h4⟩

/-! ## Files -/

theorem put_put (fs : FileSystem) (name a b : List Byte) : (fs.put name a).put name b = fs.put name b := by
  unfold FileSystem.put
  congr 1
  funext n
  simp only
  split <;> rfl

theorem put_content (fs : FileSystem) (name a : List Byte) : (fs.put name a).content name = some a := by
  simp [FileSystem.put]

theorem put_other (fs : FileSystem) {name n : List Byte} (a : List Byte) (h : n ≠ name) :
    (fs.put name a).content n = fs.content n := by
  simp [FileSystem.put, h]

/-- A stream that goes nowhere: nothing changes. -/
theorem write_nowhere (w : World) (a : Nat) (t : List Byte) (h : ∀ name, w.streams a ≠ .file name) :
    w.write a t = .ok w ∨ (w.write a t = .error .ub ∧ t ≠ [] ∧ w.streams a = .destroyed) := by
  unfold World.write
  by_cases ht : t = []
  · exact .inl (if_pos ht)
  · rw [if_neg ht]
    cases hs : w.streams a with
    | destroyed => exact .inr ⟨rfl, ht, rfl⟩
    | closed => exact .inl rfl
    | file name => exact absurd hs (h name)

theorem run_nowhere (x : Texts) (s : CsvFile) : ∀ (evs : List Event) (cols : List Column) (w : World),
    (∀ name, w.streams s.os ≠ .file name) → (s.run x cols w evs).2.2 = w
  | [], _, _, _ => rfl
  | ev :: evs, cols, w, h => by
    rw [CsvFile.run]
    unfold CsvFile.step
    rcases write_nowhere w s.os (csvStep x cols ev).1.1 h with h1 | ⟨h1, -⟩
    · simp only [h1]
      generalize (csvStep x cols ev) = y
      obtain ⟨⟨t, r⟩, cols⟩ := y
      cases r with
      | error e => rfl
      | ok u => exact run_nowhere x s evs cols w h
    · simp only [h1]

/-- Writing through a destroyed stream: undefined at the first row, unless the row fails by itself. -/
theorem run_destroyed (x : Texts) (s : CsvFile) (cols : List Column) (w : World)
    (hs : w.streams s.os = .destroyed) : ∀ evs : List Event, (∀ p, Event.setProperties p ∉ evs) →
    (runText (csvStep x) cols evs).2 = .ok () → pushes evs ≠ [] → (s.run x cols w evs).1 = .error .ub := by
  intro evs
  induction evs with
  | nil => intro _ _ h; exact absurd rfl h
  | cons ev evs ih =>
    intro hp hok hne
    rw [runText, andThen_ok] at hok
    rw [CsvFile.run]
    cases ev with
    | setProperties p => exact absurd (by simp) (hp p)
    | endOfData => exact ih (fun p h => hp p (by simp [h])) hok.2 hne
    | pushRow i r =>
      have h1 : (csvStep x cols (.pushRow i r)).1.1 ≠ [] := csvLine_ne_nil hok.1
      have h2 : w.write s.os (csvStep x cols (.pushRow i r)).1.1 = .error .ub := by
        unfold World.write
        rw [if_neg h1, hs]
      unfold CsvFile.step
      simp only [h2]

theorem csvToFile_temporary (x : Texts) (name : List Byte) (evs : List Event) (w : World) :
    (csvToFile x .temporary name evs w).2.fs = (CsvFile.construct w 0 name).2.fs := by
  unfold csvToFile
  simp only [CsvFile.construct, CsvFile.moveTo]
  set w1 := (w.openStream 0 name).move 0 1 with hw1
  have h0 : w1.streams 0 = .closed := by simp [hw1, World.move, World.set]
  have hfs : w1.fs = (w.openStream 0 name).fs := rfl
  have h1 := run_nowhere x ⟨1, 0⟩ (evs.take 1) [] w1 (by intro n; show w1.streams 0 ≠ _; rw [h0]; simp)
  cases hr : CsvFile.run x ⟨1, 0⟩ [] w1 (evs.take 1) with
  | mk r rest =>
    obtain ⟨cols, w2⟩ := rest
    rw [hr] at h1
    simp only at h1
    subst h1
    cases r with
    | error e => exact hfs
    | ok u =>
      have h2 := run_nowhere x ⟨1, 0⟩ (evs.drop 1) cols (w1.set 0 .destroyed)
        (by intro n; show (w1.set 0 .destroyed).streams 0 ≠ _; simp [World.set])
      simp only
      rw [h2]
      exact hfs

theorem csvToFile_ub (x : Texts) (name : List Byte) (p : Properties) (evs : List Event) (w : World)
    (hp : ∀ p, Event.setProperties p ∉ evs) (hok : (csvText x (.setProperties p :: evs)).2 = .ok ())
    (hne : pushes evs ≠ []) : (csvToFile x .temporary name (.setProperties p :: evs) w).1 = .error .ub := by
  unfold csvToFile
  simp only [CsvFile.construct, CsvFile.moveTo, List.take_succ_cons, List.take_zero, List.drop_succ_cons, List.drop_zero]
  set w1 := (w.openStream 0 name).move 0 1 with hw1
  have h0 : w1.streams 0 = .closed := by simp [hw1, World.move, World.set]
  have h1 : CsvFile.run x ⟨1, 0⟩ [] w1 [.setProperties p] = (.ok (), p.columns, w1) := by
    rw [CsvFile.run]
    unfold CsvFile.step
    rcases write_nowhere w1 0 (csvStep x [] (.setProperties p)).1.1 (by intro n; rw [h0]; simp) with h | ⟨-, -, h⟩
    · simp only [h, csvStep_header_ok]
      rfl
    · rw [h0] at h; cases h
  rw [h1]
  unfold csvText at hok
  rw [runText, andThen_ok] at hok
  exact run_destroyed x ⟨1, 0⟩ p.columns _ (by simp [World.set]) evs hp hok.2 hne

/-- Writing through an open stream. -/
theorem run_open (x : Texts) (s : CsvFile) (name : List Byte) : ∀ (evs : List Event) (cols : List Column) (w : World)
    (old : List Byte), w.streams s.os = .file name → w.fs.content name = some old →
    (s.run x cols w evs).1 = (runText (csvStep x) cols evs).2 ∧
    (s.run x cols w evs).2.2.fs.content name = some (old ++ (runText (csvStep x) cols evs).1) ∧
    (∀ n, n ≠ name → (s.run x cols w evs).2.2.fs.content n = w.fs.content n)
  | [], cols, w, old, _, hc => ⟨rfl, by rw [CsvFile.run, runText]; simp [say, hc], fun _ _ => rfl⟩
  | ev :: evs, cols, w, old, hs, hc => by
    rw [CsvFile.run, runText]
    unfold CsvFile.step
    generalize hy : csvStep x cols ev = y
    obtain ⟨⟨t, r⟩, cols'⟩ := y
    have hw : ∃ w', w.write s.os t = .ok w' ∧ w'.streams = w.streams ∧ w'.fs.content name = some (old ++ t) ∧
        ∀ n, n ≠ name → w'.fs.content n = w.fs.content n := by
      unfold World.write
      by_cases ht : t = []
      · exact ⟨w, if_pos ht, rfl, by rw [hc, ht]; simp, fun _ _ => rfl⟩
      · rw [if_neg ht, hs]
        refine ⟨_, rfl, rfl, ?_, fun n hn => put_other _ _ hn⟩
        rw [hc]
        exact put_content _ _ _
    obtain ⟨w', k1, k2, k3, k4⟩ := hw
    simp only [k1]
    cases r with
    | error e => exact ⟨rfl, by simpa [Printed.andThen] using k3, k4⟩
    | ok u =>
      obtain ⟨i1, i2, i3⟩ := run_open x s name evs cols' w' (old ++ t) (by rw [k2, hs]) k3
      simp only [Printed.andThen]
      exact ⟨i1, by rw [i2, List.append_assoc], fun n hn => (i3 n hn).trans (k4 n hn)⟩

end Sas
