import Verif.Proofs.Log
import Verif.Props.Writer
import Verif.Props.Text
import Verif.DemoFiles

/-!
# C100: the messages of the library
-/

namespace Sas.Props

open Sas Spec Proofs

variable {σ : Type}

/-- C100, for the calls of a reader, whatever the source and however many calls came before: the messages that a call leaves behind
say how it ended. A call that returns is silent. -/
theorem C100_calls (S : Source σ) (R : Reader σ) (op : Op) : Honest (R.step S op).1 (R.stepLog S op) := step_log S R op

/-- C100, for histories: this holds for each call, so that the messages of a history announce exactly the exceptions of the library
that its calls were left by, in order. -/
theorem C100_histories (S : Source σ) (R : Reader σ) (ops : List Op) :
    List.Forall₂ Honest (R.run S ops).1 (R.runLog S ops) ∧
    announcedIn (R.runLog S ops).flatten = (R.run S ops).1.flatMap leftBy := by
  refine ⟨run_log S ops R, ?_⟩
  have h := run_log S ops R
  generalize (R.run S ops).1 = rs at *
  generalize R.runLog S ops = ms at *
  induction h with
  | nil => rfl
  | cons h _ ih =>
    rw [List.flatten_cons, List.flatMap_cons, ← ih, ← h.announced]
    simp [announcedIn]

/-- A row of the demonstration file cannot be decompressed: the calls before it and after it are silent. -/
example : (Demo.rleReader.run ifs [.readRow, .readRow, .readRow]).1 =
      [.ok (.bool true), .error (.exn .cannotDecompress), .ok (.bool true)] ∧
    Demo.rleReader.runLog ifs [.readRow, .readRow, .readRow] =
      [[], [.rowTooLong 0 17 14, .raised .cannotDecompress []], []] := by decide +kernel

/-- C100, for opening, whatever the source: an exception of the library is announced, once, in the last message, and no exception
is announced when there is none. -/
theorem C100_opening (cfg : Cfg) (S : Source σ) (fuel : Nat) (filter : Option Filter) (s : σ) :
    announcedIn (openLog cfg S fuel s) = leftBy (openReader cfg S fuel filter s) ∧
    ∀ e, openReader cfg S fuel filter s = .error (.exn e) → e ∈ ownExceptions →
      ∃ f, (openLog cfg S fuel s).getLast? = some (.raised e f) := by
  obtain ⟨a, ha, hm⟩ := open_log cfg S fuel filter s
  generalize openReader cfg S fuel filter s = r at *
  rw [hm]
  cases r with
  | ok R => simpa [Proofs.failure, leftBy] using ha.announced
  | error e =>
    have h := Honest.raise (α := Reader σ) e
    simp only [Proofs.failure]
    refine ⟨?_, fun x hx hmem => ?_⟩
    · rw [← h.announced]
      have := ha.announced
      unfold announcedIn at *
      rw [List.filterMap_append, this, List.nil_append]
    · obtain ⟨f, hf⟩ := h.last x hx hmem
      exact ⟨f, by rw [List.getLast?_append, hf]; rfl⟩

/-- A file that is too short. -/
example : openReader Demo.cfg ifs 10 none (IFStream.open (Demo.file.take 100)) = .error (.exn .headerTooShort) ∧
    openLog Demo.cfg ifs 10 (IFStream.open (Demo.file.take 100)) = [.raised .headerTooShort []] := by
  have h : openLog Demo.cfg ifs 10 (IFStream.open (Demo.file.take 100)) = [.raised .headerTooShort []] := by decide +kernel
  refine ⟨?_, h⟩
  have := (C100_opening Demo.cfg ifs 10 none (IFStream.open (Demo.file.take 100))).1
  rw [h] at this
  generalize openReader Demo.cfg ifs 10 none (IFStream.open (Demo.file.take 100)) = r at *
  rcases r with (e | _ | _ | _) | R
  · simp only [announcedIn, leftBy, List.filterMap_cons, List.filterMap_nil] at this
    split at this
    · cases this; rfl
    · cases this
  all_goals cases this

/-- C100, for files with fewer names, labels, formats or attributes than columns. They are refused with an exception of the
standard library, which nobody announces; but a message says that values are missing. Where there is such a message, it is true and
the file has been refused; and in a release build there is one whenever a file is refused in this way. -/
theorem C100_few (cfg : Cfg) (S : Source σ) (fuel : Nat) (filter : Option Filter) (s : σ) :
    (∀ n k w, .fewValues n k w ∈ openLog cfg S fuel s → k < n ∧ openReader cfg S fuel filter s = .error (.exn .outOfRange)) ∧
    (cfg.debug = false → openReader cfg S fuel filter s = .error (.exn .outOfRange) →
      ∃ n k w, .fewValues n k w ∈ openLog cfg S fuel s) := by
  obtain ⟨h1, h2, h3⟩ := open_few cfg S fuel filter s
  refine ⟨fun n k w h => ⟨h3 n k w h, h1 _ h rfl⟩, fun hd he => ?_⟩
  obtain ⟨m, hm, hf⟩ := h2 hd he
  cases m with
  | fewValues n k w => exact ⟨n, k, w, hm⟩
  | _ => cases hf

/-- The demonstration file with a column count of 3: names, formats and attributes are there for two columns only. -/
def fewFile : List Byte :=
  Demo.header 900 1 ++ Demo.page 900 0 0
    [(240, 384, 0, 0), (624, 12, 0, 0), (636, 72, 0, 0), (708, 36, 0, 0), (744, 44, 0, 0), (788, 52, 0, 0), (840, 52, 0, 0)]
    [(240, Demo.rowSize 14 3 0), (624, Demo.columnSize 3), (636, Demo.columnText (ascii "        ")),
     (708, Demo.columnNames), (744, Demo.columnAttrs), (788, Demo.formatLabel 48 4 0 0), (840, Demo.formatLabel 0 0 56 3)]

example : Demo.cfg.debug = false ∧
    (openReader Demo.cfg ifs 10 none (IFStream.open fewFile)).isOk = false ∧
    (openLog Demo.cfg ifs 10 (IFStream.open fewFile)).take 2 = [.columnCountMismatch, .fewValues 3 2 (ascii "name")] := by
  decide +kernel

/-- C100, the warnings for a well-formed file in which all columns are described: exactly these, in the order of the subheaders. -/
theorem C100_warnings {cfg : Cfg} {S : Source σ} {s : σ} {h : FileHeader} {pre : List (List Byte × PageContent)}
    {k : Option (List Byte × PageContent)} {post : List (List Byte)} {en : Ending} {all : List Sub} {c : Compression} {fuel : Nat}
    {ds : List ColumnDesc} (hw : WellFormed cfg S s h pre k post en all c fuel) (hd : Describes all ds) :
    openLog cfg S fuel s = saidOnPages h.fmt (decide (c ≠ .none)) [] (pre ++ k.toList) := openLog_layout hw hd

/-- Nothing is said about subheaders of which nothing is to be said, whatever the pages they are on. -/
theorem said_nothing (f : Format) (c : Bool) : ∀ (pages : List (List Byte × PageContent)) (ss : List Sub),
    (∀ a s b, usedOf (pages.map (·.2)) = a ++ s :: b → ∀ page p, saidAbout f c page (ss ++ a) p s = []) →
    saidOnPages f c ss pages = [] := by
  have one : ∀ (page : List Byte) (l : List (PageSub × Sub)) (ss : List Sub),
      (∀ a s b, l.map (·.2) = a ++ s :: b → ∀ p, saidAbout f c page (ss ++ a) p s = []) → saidOnPage f c page ss l = [] := by
    intro page l
    induction l with
    | nil => intro ss _; rfl
    | cons x l ih =>
      intro ss h
      obtain ⟨p, s⟩ := x
      unfold saidOnPage
      have h0 := h [] s (l.map (·.2)) rfl p
      rw [List.append_nil] at h0
      rw [h0, List.nil_append]
      refine ih (ss ++ [s]) fun a s' b hl p' => ?_
      have := h (s :: a) s' b (by rw [List.map_cons, hl]; rfl) p'
      simpa using this
  intro pages
  induction pages with
  | nil => intro ss _; rfl
  | cons pc pages ih =>
    intro ss h
    unfold saidOnPages
    have hu : pc.2.usedSubs.map (·.2) = pc.2.used := by
      unfold PageContent.usedSubs PageContent.used
      split <;> rfl
    rw [one pc.1 _ ss fun a s b hl p => h a s (b ++ usedOf (pages.map (·.2))) (by
      rw [hu] at hl; simp [usedOf, hl]) pc.1 p, List.nil_append]
    refine ih (ss ++ pc.2.used) fun a s b hl page p => ?_
    have := h (pc.2.used ++ a) s b (by rw [List.map_cons, usedOf, List.flatMap_cons, ← usedOf, hl]; simp) page p
    simpa using this

/-- C100, the files of an independent writer, in whatever byte order, word size, compression and arrangement: they are opened
without any message; and so is whatever call returns, by `C100_calls`. -/
theorem C100_written {l : Layout} {d : DataSet} (hl : l.For d) (hr : l.Plain d ∨ l.Compressed d) {cfg : Cfg} {fuel : Nat}
    (hmach : Machine cfg l.header d) (hfuel : l.metaPages.length < fuel) :
    openLog cfg ifs fuel (IFStream.open (l.write d)) = [] := by
  obtain ⟨ps, k, tail, n, hp, hlen, -, hn⟩ := pages_pointers hl hr
  have hrows : ∀ p ∈ l.rowPages, RowsOk l d p := by
    rcases hr with hr | hr
    · exact plain_rowsOk hl hr
    · exact packed_rowsOk hl hr
  have hw := written_wellFormed hl hp hrows ⟨hmach.header, hmach.page, hmach.row⟩ hmach.loggable hfuel hlen (pageLength_pos hl)
  rw [C100_warnings hw (describes_all hl n)]
  refine said_nothing _ _ _ _ fun a s b hs page p => ?_
  rw [List.map_append, show usedOf (List.map (·.2) (prePages l.header ps) ++ List.map (·.2) k.toList) =
    usedOf (List.map (·.2) (prePages l.header ps)) ++ usedOf (List.map (·.2) k.toList) by simp [usedOf],
    ← hw.fileMeta.all_eq] at hs
  rw [List.nil_append]
  have hgroups : ∀ (gs : List (List ColumnDesc)) (t : Nat), ∀ s ∈ groupsSubs l.header.endian t gs,
      (∀ m, s ≠ .columnSize m) ∧ s ≠ .ignored ∧ s ≠ .row := by
    intro gs
    induction gs with
    | nil => intro t s hs; cases hs
    | cons g gs ih =>
      intro t s hs
      unfold groupsSubs groupSubs at hs
      simp only [List.mem_append, List.mem_cons, List.not_mem_nil, or_false, List.mem_map] at hs
      rcases hs with ((rfl | rfl | rfl) | ⟨r, -, rfl⟩) | hs
      · simp
      · simp
      · simp
      · simp
      · exact ih _ s hs
  unfold allSubs describe at hs
  cases s with
  | columnSize m =>
    rcases a with _ | ⟨x, _ | ⟨y, a⟩⟩
    · simp at hs
    · simp only [List.cons_append, List.nil_append, List.cons.injEq, Sub.columnSize.injEq] at hs
      obtain ⟨h1, h2, -⟩ := hs
      have hsize := hl.sizes.2.2
      have hlt : d.columns.length < 2 ^ 64 := by
        revert hsize
        cases l.header.fmt <;> simp only [word] <;> omega
      subst h1 h2
      have hmod := Nat.mod_eq_of_lt hlt
      simp only [saidAbout, rowSizeOf, Nat.add_zero, hmod, if_true]
    · simp only [List.cons_append, List.nil_append, List.cons.injEq] at hs
      have hmem : Sub.columnSize m ∈ Sub.columnText (leadText l.header.endian l.compression) ::
          (groupsSubs l.header.endian 1 l.groups ++ List.replicate n .row) := by
        rw [hs.2.2]; simp
      simp only [List.mem_cons, reduceCtorEq, List.mem_append, List.mem_replicate, and_false, or_false, false_or] at hmem
      exact absurd rfl ((hgroups _ _ _ hmem).1 m)
  | ignored =>
    have hmem : Sub.ignored ∈ a ++ Sub.ignored :: b := by simp
    rw [← hs] at hmem
    simp only [List.mem_cons, reduceCtorEq, List.mem_append, List.mem_replicate, and_false, or_false, false_or,
      List.not_mem_nil] at hmem
    exact absurd rfl (hgroups _ _ _ hmem).2.1
  | row =>
    have hmem : Sub.row ∈ a ++ Sub.row :: b := by simp
    rw [← hs] at hmem
    simp only [List.mem_cons, reduceCtorEq, List.mem_append, List.mem_replicate, or_false, false_or, and_true,
      List.not_mem_nil] at hmem
    rcases hmem with h | h
    · exact absurd rfl (hgroups _ _ _ h).2.2
    · simp [saidAbout, hn h]
  | _ => rfl

/-- A data set of big-endian 64-bit files; and a file about which something is said. -/
example : openLog Demo.cfg ifs 100 (IFStream.open ((Layout.packed demoBig people).write people)) = [] ∧
    saidOnPages .bit32 false [] [([], ⟨0, 0, [(⟨0, 8, 0, 0⟩, .columnSize 3)]⟩)] = [.columnCountMismatch] := by
  obtain ⟨h1, h2⟩ := packed_for people_fits
  refine ⟨C100_written h1 (.inl h2) people_machine ?_, by decide +kernel⟩
  have h : (Layout.packed demoBig people).metaPages.length < 100 := by decide +kernel
  exact h

/-! ## The command line program -/

theorem printLoopLog_ok (S : Source σ) (f : Nat) : ∀ (n : Int) (R : Reader σ), (printLoop S f n R).1 = .ok () → printLoopLog S f n R = [] := by
  induction f with
  | zero => intro n R _; rfl
  | succ f ih =>
    intro n R h
    unfold printLoop at h
    unfold printLoopLog
    by_cases hn : n = 0
    · rw [if_pos hn]
    · rw [if_neg hn] at h ⊢
      have hl := readRow_log S R
      generalize R.readRow S = x at *
      rcases x with ⟨e | _ | _, R'⟩
      · cases h
      · rw [hl.silent rfl]; rfl
      · rw [hl.silent rfl]; exact ih _ _ h

theorem andThen_ok {a b : Printed} (h : (a.andThen b).2 = .ok ()) : b.2 = .ok () := by
  obtain ⟨t, r⟩ := a
  rcases r with e | u
  · simp [Printed.andThen] at h
  · simpa [Printed.andThen] using h

/-- C100, for the listing of the command line program, partial: the screen shows the warnings that opening the file gives (see
`C100_warnings`) and then the listing of `C34_print`; for files that are opened silently, only the listing. What is missing: that the
listing alone is written to the standard output for every file (see `C100_listing_refuted`). -/
theorem C100_listing_partial (cfg : Cfg) (x : Texts) (clock : Nat → List Byte) (fuel : Nat) (fs : FileSystem)
    (name data : List Byte) (n : Int) (hf : fs.content name = some data) (hok : (processPrint cfg x fuel fs name n).2 = .ok ()) :
    printScreen cfg x clock fuel fs name n =
      logLines clock 0 (openLog cfg ifs fuel (IFStream.open data)) ++ (processPrint cfg x fuel fs name n).1 ∧
    (openLog cfg ifs fuel (IFStream.open data) = [] →
      printScreen cfg x clock fuel fs name n = (processPrint cfg x fuel fs name n).1) := by
  have key : printScreen cfg x clock fuel fs name n =
      logLines clock 0 (openLog cfg ifs fuel (IFStream.open data)) ++ (processPrint cfg x fuel fs name n).1 := by
    unfold printScreen processPrintLog
    unfold processPrint at hok ⊢
    have ho : openFile fs name = .ok (IFStream.open data) := by unfold openFile; rw [hf]
    rw [ho] at hok ⊢
    simp only at hok ⊢
    generalize openReader cfg ifs fuel none (IFStream.open data) = r at *
    rcases r with e | R
    · cases hok
    · simp only at hok ⊢
      rw [hok]
      have := andThen_ok hok
      simp only at this
      rw [printLoopLog_ok _ _ _ _ this]
      simp [logLines]
  refine ⟨key, fun h => ?_⟩
  rw [key, h]
  rfl

/-- The demonstration file with one more subheader, of a kind that the library does not know. -/
def noisyFile : List Byte :=
  Demo.header 900 4 ++ Demo.metaPage 0 14 3 0 (ascii "        ") [(150, 9, 0, 0)] [(150, ascii "whatever!")] ++
  Demo.page 900 256 3 [] [(24, Demo.rows.flatten)]

/-- A directory with the two files. -/
def loggedFiles : FileSystem where
  content n := if n = ascii "a" then some Demo.file else if n = ascii "b" then some noisyFile else none
  writable _ := true

/-- The library reads both files to the end without failure; one is silent, the other is not. -/
example : (processPrint Demo.cfg someTexts 10 loggedFiles (ascii "a") (-1)).2 = .ok () ∧
    openLog Demo.cfg ifs 10 (IFStream.open Demo.file) = [] ∧
    (processPrint Demo.cfg someTexts 10 loggedFiles (ascii "b") (-1)).2 = .ok () ∧
    openLog Demo.cfg ifs 10 (IFStream.open noisyFile) = [.unknownSubheader] := by decide +kernel

/-- C100 is false of the standard output of the command line program: there are files whose listing is complete, but that are
announced by a warning on the same stream, whatever the clock says. -/
theorem C100_listing_refuted : ∃ (fs : FileSystem) (name : List Byte), ∀ clock,
    (processPrint Demo.cfg someTexts 10 fs name (-1)).2 = .ok () ∧
    (processPrint Demo.cfg someTexts 10 fs name (-1)).1 = (processPrint Demo.cfg someTexts 10 fs (ascii "a") (-1)).1 ∧
    printScreen Demo.cfg someTexts clock 10 fs name (-1) =
      ascii "[" ++ clock 0 ++ ascii "] [warning] Unknown subheader signature!\n" ++
        (processPrint Demo.cfg someTexts 10 fs name (-1)).1 := by
  have h0 : (processPrint Demo.cfg someTexts 10 loggedFiles (ascii "b") (-1)).2 = .ok () := by decide +kernel
  have h1 : (processPrint Demo.cfg someTexts 10 loggedFiles (ascii "b") (-1)).1 =
      (processPrint Demo.cfg someTexts 10 loggedFiles (ascii "a") (-1)).1 := by decide +kernel
  have hf : loggedFiles.content (ascii "b") = some noisyFile := by decide +kernel
  have hlog : openLog Demo.cfg ifs 10 (IFStream.open noisyFile) = [.unknownSubheader] := by decide +kernel
  have h2 : ascii "] [" ++ (Msg.unknownSubheader.level ++ (ascii "] " ++ (Msg.unknownSubheader.text ++ ascii "\n"))) =
      ascii "] [warning] Unknown subheader signature!\n" := by decide +kernel
  refine ⟨loggedFiles, ascii "b", fun clock => ⟨h0, h1, ?_⟩⟩
  have h := (C100_listing_partial Demo.cfg someTexts clock 10 loggedFiles (ascii "b") noisyFile (-1) hf h0).1
  rw [hlog] at h
  rw [← h2]
  generalize printScreen Demo.cfg someTexts clock 10 loggedFiles (ascii "b") (-1) = a at h ⊢
  generalize processPrint Demo.cfg someTexts 10 loggedFiles (ascii "b") (-1) = b at h ⊢
  rw [h]
  simp only [logLines, Msg.line, List.append_nil, List.append_assoc]

end Sas.Props
