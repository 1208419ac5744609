import Verif.Model.CliMain
import Verif.Props.Text

/-!
# C83: the command line program with several files
-/

namespace Sas.Props
open Sas Spec

/-- The loop over the files when all of them succeed, and when one fails. -/
theorem processFiles_spec {α : Type} (process : α → List Byte → Res Unit × α) (a : α) (before rest : List (List Byte))
    (step : α → List Byte → α) (h : ∀ f ∈ before, ∀ b, process b f = (.ok (), step b f)) :
    processFiles process a (before ++ rest) = processFiles process (before.foldl step a) rest := by
  induction before generalizing a with
  | nil => rfl
  | cons f fs ih =>
    rw [List.cons_append, processFiles, h f (by simp) a]
    simp only
    rw [ih (step a f) (fun g hg => h g (by simp [hg]))]
    rfl

theorem foldl_append_flatten (g : List Byte → List Byte) (fs : List (List Byte)) (out : List Byte) :
    fs.foldl (fun out f => out ++ g f) out = out ++ (fs.map g).flatten := by
  induction fs generalizing out with
  | nil => simp
  | cons f fs ih => simp [ih]

theorem runMain_print_one (cfg : Cfg) (x : Texts) (fuel : Nat) (sf : Bool) (fs : FileSystem) (n : Option Int) (f : List Byte) :
    runMain cfg x fuel sf fs (.print n [f]) =
      ⟨(processPrint cfg x fuel fs f (n.getD (-1))).2, (processPrint cfg x fuel fs f (n.getD (-1))).1, fs⟩ := by
  unfold runMain
  simp only [processFiles]
  generalize processPrint cfg x fuel fs f (n.getD (-1)) = y
  obtain ⟨out, r⟩ := y
  cases r <;> simp

theorem runMain_null_one (cfg : Cfg) (x : Texts) (fuel : Nat) (sf : Bool) (fs : FileSystem) (f : List Byte) :
    runMain cfg x fuel sf fs (.null [f]) = ⟨processNull cfg fuel fs f, [], fs⟩ := by
  unfold runMain
  simp only [processFiles]
  generalize processNull cfg fuel fs f = y
  cases y <;> simp

/-- C83, partial. `print` with several files that can all be printed: the output is what the files give one by one, in their
order, and the limit counts anew for each of them. With a file that fails the program ends with that failure: the
files before it are printed, its own output may have begun, and the files after it are not looked at. No file is
changed. -/
theorem C83_print_partial (cfg : Cfg) (x : Texts) (fuel : Nat) (sf : Bool) (fs : FileSystem) (n : Option Int) :
    (∀ files : List (List Byte), (∀ f ∈ files, (runMain cfg x fuel sf fs (.print n [f])).res = .ok ()) →
      (runMain cfg x fuel sf fs (.print n files)).res = .ok () ∧
      (runMain cfg x fuel sf fs (.print n files)).out =
        (files.map fun f => (runMain cfg x fuel sf fs (.print n [f])).out).flatten) ∧
    (∀ (before : List (List Byte)) (f : List Byte) (after : List (List Byte)) (e : Stop),
      (∀ g ∈ before, (runMain cfg x fuel sf fs (.print n [g])).res = .ok ()) →
      (runMain cfg x fuel sf fs (.print n [f])).res = .error e →
      (runMain cfg x fuel sf fs (.print n (before ++ f :: after))).res = .error e ∧
      (runMain cfg x fuel sf fs (.print n (before ++ f :: after))).out =
        (before.map fun f => (runMain cfg x fuel sf fs (.print n [f])).out).flatten ++
          (runMain cfg x fuel sf fs (.print n [f])).out) ∧
    ∀ files, (runMain cfg x fuel sf fs (.print n files)).fs = fs := by
  simp only [runMain_print_one]
  have key : ∀ (before rest : List (List Byte)), (∀ g ∈ before, (processPrint cfg x fuel fs g (n.getD (-1))).2 = .ok ()) →
      processFiles (fun out f => ((processPrint cfg x fuel fs f (n.getD (-1))).2,
        out ++ (processPrint cfg x fuel fs f (n.getD (-1))).1)) [] (before ++ rest) =
      processFiles (fun out f => ((processPrint cfg x fuel fs f (n.getD (-1))).2,
        out ++ (processPrint cfg x fuel fs f (n.getD (-1))).1))
        ((before.map fun f => (processPrint cfg x fuel fs f (n.getD (-1))).1).flatten) rest := by
    intro before rest hb
    rw [processFiles_spec _ [] before rest (fun out f => out ++ (processPrint cfg x fuel fs f (n.getD (-1))).1)
      (fun f hf b => by rw [hb f hf]), foldl_append_flatten]
    rfl
  refine ⟨fun files h => ?_, fun before f after e hb hf => ?_, fun _ => rfl⟩
  · have := key files [] h
    rw [List.append_nil] at this
    simp only [runMain]
    rw [this]
    exact ⟨rfl, rfl⟩
  · simp only [runMain, key before (f :: after) hb]
    rw [processFiles]
    simp only [hf]
    exact ⟨trivial, trivial⟩

/-- C83, partial. `null` reads the files in the same way, and writes nothing. -/
theorem C83_null_partial (cfg : Cfg) (x : Texts) (fuel : Nat) (sf : Bool) (fs : FileSystem) :
    (∀ files : List (List Byte), (∀ f ∈ files, (runMain cfg x fuel sf fs (.null [f])).res = .ok ()) →
      (runMain cfg x fuel sf fs (.null files)).res = .ok ()) ∧
    (∀ (before : List (List Byte)) (f : List Byte) (after : List (List Byte)) (e : Stop),
      (∀ g ∈ before, (runMain cfg x fuel sf fs (.null [g])).res = .ok ()) →
      (runMain cfg x fuel sf fs (.null [f])).res = .error e →
      (runMain cfg x fuel sf fs (.null (before ++ f :: after))).res = .error e) ∧
    ∀ files, (runMain cfg x fuel sf fs (.null files)).fs = fs ∧ (runMain cfg x fuel sf fs (.null files)).out = [] := by
  simp only [runMain_null_one]
  have key : ∀ (before rest : List (List Byte)), (∀ g ∈ before, processNull cfg fuel fs g = .ok ()) →
      processFiles (fun _ f => (processNull cfg fuel fs f, ())) () (before ++ rest) =
      processFiles (fun _ f => (processNull cfg fuel fs f, ())) () rest := by
    intro before rest hb
    rw [processFiles_spec _ () before rest (fun _ _ => ()) (fun f hf b => by rw [hb f hf])]
  refine ⟨fun files h => ?_, fun before f after e hb hf => ?_, fun _ => ⟨rfl, rfl⟩⟩
  · have := key files [] h
    rw [List.append_nil] at this
    simp only [runMain, this]
    rfl
  · simp only [runMain, key before (f :: after) hb]
    rw [processFiles]
    simp only [hf]

/-- C83, partial. `print` and `null` end without failure exactly when they do for each of the files. -/
theorem C83_success_partial (cfg : Cfg) (x : Texts) (fuel : Nat) (sf : Bool) (fs : FileSystem) (n : Option Int)
    (files : List (List Byte)) :
    ((runMain cfg x fuel sf fs (.print n files)).res = .ok () ↔
      ∀ f ∈ files, (runMain cfg x fuel sf fs (.print n [f])).res = .ok ()) ∧
    ((runMain cfg x fuel sf fs (.null files)).res = .ok () ↔
      ∀ f ∈ files, (runMain cfg x fuel sf fs (.null [f])).res = .ok ()) := by
  -- the first file that fails
  have first : ∀ (one : List Byte → Res Unit) (files : List (List Byte)), (∀ f ∈ files, one f = .ok ()) ∨
      ∃ before f after e, files = before ++ f :: after ∧ (∀ g ∈ before, one g = .ok ()) ∧ one f = .error e := by
    intro one files
    induction files with
    | nil => exact .inl (by simp)
    | cons f fs ih =>
      cases hf : one f with
      | error e => exact .inr ⟨[], f, fs, e, rfl, by simp, hf⟩
      | ok u =>
        rcases ih with h | ⟨b, g, a, e, h1, h2, h3⟩
        · exact .inl (by simpa using ⟨hf, h⟩)
        · exact .inr ⟨f :: b, g, a, e, by simp [h1], by simpa using ⟨hf, h2⟩, h3⟩
  obtain ⟨p1, p2, -⟩ := C83_print_partial cfg x fuel sf fs n
  obtain ⟨q1, q2, -⟩ := C83_null_partial cfg x fuel sf fs
  constructor
  · refine ⟨fun h => ?_, fun h => (p1 files h).1⟩
    rcases first (fun f => (runMain cfg x fuel sf fs (.print n [f])).res) files with h1 | ⟨b, g, a, e, h1, h2, h3⟩
    · exact h1
    · rw [h1, (p2 b g a e h2 h3).1] at h
      cases h
  · refine ⟨fun h => ?_, fun h => q1 files h⟩
    rcases first (fun f => (runMain cfg x fuel sf fs (.null [f])).res) files with h1 | ⟨b, g, a, e, h1, h2, h3⟩
    · exact h1
    · rw [h1, q2 b g a e h2 h3] at h
      cases h

/-- C83, partial. One file: `null` succeeds exactly when the file is there, is opened, all its rows are read, and every cell of
them has a value. A file that is not there, or that is not opened, fails with what the reader says, for `null` and for
`print`; and so does one whose reading fails after rows whose cells all have values, for `null`. -/
theorem C83_one_partial (cfg : Cfg) (x : Texts) (fuel : Nat) (sf : Bool) (fs : FileSystem) (f : List Byte) :
    ((runMain cfg x fuel sf fs (.null [f])).res = .ok () ↔ ∃ data R, fs.content f = some data ∧
      openReader cfg ifs fuel none (IFStream.open data) = .ok R ∧ (R.readAll ifs).1 = .ok () ∧
      ∀ r ∈ pushes (R.run ifs [.readAll]).2.trace, ∀ c ∈ R.props.columns, ∃ v, c.value r.2.mem = .ok v) ∧
    (fs.content f = none → (runMain cfg x fuel sf fs (.null [f])).res = .error (.exn .notAValidFile) ∧
      ∀ n, runMain cfg x fuel sf fs (.print n [f]) = ⟨.error (.exn .notAValidFile), [], fs⟩) ∧
    ∀ data, fs.content f = some data →
      (∀ e, openReader cfg ifs fuel none (IFStream.open data) = .error e →
        (runMain cfg x fuel sf fs (.null [f])).res = .error e ∧
        ∀ n, runMain cfg x fuel sf fs (.print n [f]) = ⟨.error e, [], fs⟩) ∧
      ∀ R, openReader cfg ifs fuel none (IFStream.open data) = .ok R →
        (∀ r ∈ pushes (R.run ifs [.readAll]).2.trace, ∀ c ∈ R.props.columns, ∃ v, c.value r.2.mem = .ok v) →
        (runMain cfg x fuel sf fs (.null [f])).res = (R.readAll ifs).1 := by
  simp only [runMain_null_one, runMain_print_one]
  have hopen : ∀ data, fs.content f = some data → ∀ R, openReader cfg ifs fuel none (IFStream.open data) = .ok R →
      processNull cfg fuel fs f = (nullRun [] (R.run ifs [.readAll]).2.trace >>= fun _ => (R.readAll ifs).1) := by
    intro data hd R hR
    have hrun : (R.run ifs [.readAll]).2 = (R.readAll ifs).2 := by
      rw [Reader.run_cons]
      simp only [Reader.step]
      generalize R.readAll ifs = y
      obtain ⟨r, R1⟩ := y
      rcases r with (_ | _ | _ | _) | _ <;> rfl
    unfold processNull openFile
    rw [hd, hrun]
    simp only [bind, Except.bind, hR]
  have hbad : ∀ data, fs.content f = some data → ∀ e, openReader cfg ifs fuel none (IFStream.open data) = .error e →
      processNull cfg fuel fs f = .error e ∧ ∀ n, processPrint cfg x fuel fs f n = ([], .error e) := by
    intro data hd e he
    unfold processNull processPrint openFile
    rw [hd]
    simp only [bind, Except.bind, he]
    exact ⟨trivial, fun _ => trivial⟩
  have hnone : fs.content f = none → processNull cfg fuel fs f = .error (.exn .notAValidFile) ∧
      ∀ n, processPrint cfg x fuel fs f n = ([], .error (.exn .notAValidFile)) := by
    intro hd
    unfold processNull processPrint openFile
    rw [hd]
    exact ⟨rfl, fun _ => rfl⟩
  refine ⟨⟨fun h => ?_, fun ⟨data, R, hd, hR, hall, hc⟩ => ?_⟩, fun hd => ?_, fun data hd => ⟨fun e he => ?_, fun R hR hc => ?_⟩⟩
  · cases hd : fs.content f with
    | none => rw [(hnone hd).1] at h; cases h
    | some data =>
      cases hR : openReader cfg ifs fuel none (IFStream.open data) with
      | error e => rw [(hbad data hd e hR).1] at h; cases h
      | ok R =>
        rw [hopen data hd R hR] at h
        cases hn : nullRun [] (R.run ifs [.readAll]).2.trace with
        | error e => rw [hn] at h; cases h
        | ok u =>
          rw [hn] at h
          exact ⟨data, R, rfl, hR, h, (C59_null hR _).1 hn⟩
  · rw [hopen data hd R hR, (C59_null hR _).2 hc]
    exact hall
  · obtain ⟨a, b⟩ := hnone hd
    exact ⟨a, fun n => by rw [b]⟩
  · obtain ⟨a, b⟩ := hbad data hd e he
    exact ⟨a, fun n => by rw [b]⟩
  · rw [hopen data hd R hR, (C59_null hR _).2 hc]
    rfl

/-- C83, partial. What `print` writes for files that can be read and printed (see C34): one listing after the other, each with
the first rows of its file. -/
theorem C83_listing_partial (cfg : Cfg) (x : Texts) (fuel : Nat) (sf : Bool) (fs : FileSystem) (n : Option Int)
    (files : List (List Byte)) (R : List Byte → Reader IFStream)
    (hf : ∀ f ∈ files, ∃ data, fs.content f = some data ∧
      openReader cfg ifs fuel none (IFStream.open data) = .ok (R f) ∧ ((R f).readAll ifs).1 = .ok ())
    (hd : ∀ f ∈ files, ∀ d ∈ [(R f).props.header.dateCreated, (R f).props.header.dateModified],
      d = .notADateTime ∨ ∃ us, d = at1960 us ∧ CalendarDay (us / 86400000000))
    (hnames : ∀ f ∈ files, ∀ c ∈ (R f).props.columns, 123 ∉ c.name ∧ 125 ∉ c.name)
    (hcells : ∀ f ∈ files, ∀ r ∈ pushes ((R f).run ifs [.readAll]).2.trace, ∀ c ∈ (R f).props.columns,
      ∃ t, c.toText x.fixed r.2.mem = .ok t) :
    ∃ listings : List (List (List Byte)),
      runMain cfg x fuel sf fs (.print n files) = ⟨.ok (), (listings.map unlines).flatten, fs⟩ ∧
      List.Forall₂ (fun f lines => Listing x (R f).props
        (match n with
          | some (.ofNat k) => (pushes ((R f).run ifs [.readAll]).2.trace).take k
          | _ => pushes ((R f).run ifs [.readAll]).2.trace) lines) files listings := by
  have one : ∀ f ∈ files, ∃ lines, processPrint cfg x fuel fs f (n.getD (-1)) = (unlines lines, .ok ()) ∧
      Listing x (R f).props
        (match n with
          | some (.ofNat k) => (pushes ((R f).run ifs [.readAll]).2.trace).take k
          | _ => pushes ((R f).run ifs [.readAll]).2.trace) lines := by
    intro f hm
    obtain ⟨data, d1, d2, d3⟩ := hf f hm
    obtain ⟨lines, l1, l2⟩ := C34_print cfg x fuel fs f data (n.getD (-1)) (R f) d1 d2 d3
      (hd f hm _ (by simp)) (hd f hm _ (by simp)) (hnames f hm) (hcells f hm)
    refine ⟨lines, l1, ?_⟩
    rcases n with _ | (k | k)
    · simpa using l2
    · have : ¬ ((some (Int.ofNat k)).getD (-1) < 0) := by simp
      rw [if_neg this] at l2
      simpa using l2
    · have : (some (Int.negSucc k)).getD (-1) < 0 := by simp [Int.negSucc_lt_zero]
      rw [if_pos this] at l2
      exact l2
  obtain ⟨listings, h1, h2⟩ : ∃ listings : List (List (List Byte)),
      (∀ f ∈ files, (processPrint cfg x fuel fs f (n.getD (-1))).2 = .ok ()) ∧
      (files.map fun f => (processPrint cfg x fuel fs f (n.getD (-1))).1) = listings.map unlines ∧
      List.Forall₂ (fun f lines => Listing x (R f).props
        (match n with
          | some (.ofNat k) => (pushes ((R f).run ifs [.readAll]).2.trace).take k
          | _ => pushes ((R f).run ifs [.readAll]).2.trace) lines) files listings := by
    clear hf hd hnames hcells
    induction files with
    | nil => exact ⟨[], by simp, by simp, .nil⟩
    | cons f fs' ih =>
      obtain ⟨ls, a1, a2, a3⟩ := ih (fun g hg => one g (by simp [hg]))
      obtain ⟨l, b1, b2⟩ := one f (by simp)
      exact ⟨l :: ls, by simpa [b1] using a1, by simp [b1, a2], .cons b2 a3⟩
  obtain ⟨p1, -, p3⟩ := C83_print_partial cfg x fuel sf fs n
  have := p1 files (fun f hm => by rw [runMain_print_one]; exact h1 f hm)
  simp only [runMain_print_one] at this
  rw [h2.1] at this
  refine ⟨listings, ?_, h2.2⟩
  have h3 := p3 files
  generalize runMain cfg x fuel sf fs (.print n files) = y at *
  obtain ⟨r, o, f⟩ := y
  simp only at this h3
  rw [this.1, this.2, h3]

/-- C83 is false of `csv`: whatever the files, when the first one exists and may be written, the program empties it,
fails, and does not look at the others: none of them is read or changed. -/
theorem C83_csv_refuted (cfg : Cfg) (x : Texts) (fuel : Nat) (sf : Bool) (fs : FileSystem) (f data : List Byte)
    (after : List (List Byte)) (hmem : 288 ≤ cfg.maxAlloc) (hf : fs.content f = some data)
    (hw : fs.writable f = true) :
    (runMain cfg x fuel sf fs (.csv (f :: after))).res = .error (.exn .headerTooShort) ∧
    (runMain cfg x fuel sf fs (.csv (f :: after))).fs.content f = some [] ∧
    ∀ g, g ≠ f → (runMain cfg x fuel sf fs (.csv (f :: after))).fs.content g = fs.content g := by
  obtain ⟨c1, c2, c3⟩ := C33_refuted cfg x fuel sf fs f data hmem hf hw
  simp only [runMain, processFiles]
  generalize processCsv cfg x fuel sf fs f = y at *
  obtain ⟨r, fs1⟩ := y
  simp only at c1 c2 c3
  subst c1
  exact ⟨rfl, c2, c3⟩

/-- A file system with two files that can be printed, one that cannot be opened, and one whose second row cannot be
read. -/
def someFiles : FileSystem :=
  ⟨fun n => if n = ascii "a" ∨ n = ascii "b" then some Demo.file else if n = ascii "c" then some [1, 2, 3]
    else if n = ascii "e" then some Demo.rleFile else none,
    fun _ => true⟩

/-- The hypotheses are met: two files, one row of each; a file that fails after one that does not. -/
example :
    (runMain Demo.cfg someTexts 10 true someFiles (.print (some 1) [ascii "a"])).res = .ok () ∧
    (runMain Demo.cfg someTexts 10 true someFiles (.print (some 1) [ascii "b"])).res = .ok () ∧
    (runMain Demo.cfg someTexts 10 true someFiles (.print (some 1) [ascii "c"])).res = .error (.exn .headerTooShort) ∧
    (runMain Demo.cfg someTexts 10 true someFiles (.null [ascii "d"])).res = .error (.exn .notAValidFile) ∧
    (runMain Demo.cfg someTexts 10 true someFiles (.print (some 1) [ascii "a", ascii "b"])).res = .ok () ∧
    (runMain Demo.cfg someTexts 10 true someFiles (.print (some 1) [ascii "a"])).out.length <
      (runMain Demo.cfg someTexts 10 true someFiles (.print none [ascii "a"])).out.length := by
  decide +kernel

example :
    (runMain Demo.cfg someTexts 10 true someFiles (.null [ascii "a"])).res = .ok () ∧
    (runMain Demo.cfg someTexts 10 true someFiles (.null [ascii "e"])).res = .error (.exn .cannotDecompress) ∧
    (runMain Demo.cfg someTexts 10 true someFiles (.print (some 1) [ascii "e"])).res = .ok () ∧
    (runMain Demo.cfg someTexts 10 true someFiles (.print (some 2) [ascii "e"])).res =
      .error (.exn .cannotDecompress) := by
  decide +kernel

end Sas.Props
