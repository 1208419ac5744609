import Verif.Proofs.Builds
import Verif.Props.Debug
import Verif.Props.Columns

/-!
# Properties: builds with and without checks
-/

namespace Sas.Props

open Sas Sas.Spec

/-! ## C82: a build with fewer checks gives the answers of a build with more checks -/

/-- C82. Of two builds of the library on the same machine let `c` be the one with more checks (a debug build, for example)
and `c'` the other one. Whatever the source, the filter and the bound on the pages: when the build with more checks
opens the source, so does the other one; both report the same properties, and they give the same answers to the same
calls, hand the same rows to their sinks and stand at the same row afterwards. When it fails with an exception or
otherwise, so does the other one. The exceptions are that it ends the program, in which case all its earlier answers
are those of the other build, and that it cannot print a date of the header for its log. -/
theorem C82_builds {σ : Type} (c' c : Cfg) (hc : ChecksLess c' c) (S : Source σ) (fuel : Nat) (filter : Option Filter)
    (s : σ) :
    (∃ R R', openReader c S fuel filter s = .ok R ∧ openReader c' S fuel filter s = .ok R' ∧ R'.props = R.props ∧
      ∀ ops,
        ((R'.run S ops).1 = (R.run S ops).1 ∧ (R'.run S ops).2.trace = (R.run S ops).2.trace ∧
          (R'.run S ops).2.currentRowIndex = (R.run S ops).2.currentRowIndex) ∨
        ∃ rs, (R.run S ops).1 = rs ++ [.error .terminate] ∧ rs <+: (R'.run S ops).1) ∨
    (∃ e, openReader c S fuel filter s = .error e ∧ openReader c' S fuel filter s = .error e) ∨
    openReader c S fuel filter s = .error .terminate ∨
    (openReader c S fuel filter s = .error (.exn .outOfRange) ∧
      ∀ R', openReader c' S fuel filter s = .ok R' →
        R'.props.header.dateCreated.toText = .error (.exn .outOfRange) ∨
        R'.props.header.dateModified.toText = .error (.exn .outOfRange)) := by
  rcases Builds.openReader_sim hc S fuel filter s with h | ⟨h, h'⟩ | h
  · exact .inr (.inr (.inl h))
  · exact .inr (.inr (.inr ⟨h, h'⟩))
  · cases ho : openReader c S fuel filter s with
    | error e =>
      rw [ho] at h
      exact .inr (.inl ⟨e, rfl, h⟩)
    | ok R =>
      rw [ho] at h
      refine .inl ⟨R, R.inBuild c', rfl, h, rfl, fun ops => ?_⟩
      rcases Builds.Reader.run_sim S ops (R := R) (c' := c') (by rw [Builds.openReader_cfg ho]; exact hc) with hr | hr
      · left
        rw [hr]
        exact ⟨rfl, rfl, rfl⟩
      · exact .inr hr

/-- C82, used to rely on a release build. Let a debug build open a 32-bit file that is not compressed and whose header
dates are within 139000 years of 1960 or missing, and let it answer a history of calls without ending the
program. Then the release build answers in the same way and stays inside its buffers. -/
theorem C82_vouches (c' c : Cfg) (hc : ChecksLess c' c) (hdebug : c.debug = true) (fuel : Nat) (filter : Option Filter)
    (data : List Byte) (fault : Option Nat) (h32 : data[32]? ≠ some 0x33) (hdates : ¬ WildDate data)
    (R : Reader IFStream) (hopen : openReader c ifs fuel filter { IFStream.open data with fault := fault } = .ok R)
    (hplain : R.props.md.compression = .none) (ops : List Op) (hends : .error .terminate ∉ (R.run ifs ops).1) :
    ∃ R', openReader c' ifs fuel filter { IFStream.open data with fault := fault } = .ok R' ∧
      R'.props = R.props ∧ (R'.run ifs ops).1 = (R.run ifs ops).1 ∧
      (R'.run ifs ops).2.trace = (R.run ifs ops).2.trace ∧ .error .ub ∉ (R'.run ifs ops).1 ∧
      ∀ i row, .pushRow i row ∈ (R'.run ifs ops).2.trace → row.len ≤ row.mem.length := by
  have hsafe := (C70_checked_partial c hdebug fuel filter data fault h32 hdates).2 R hopen hplain ops
  rcases C82_builds c' c hc ifs fuel filter { IFStream.open data with fault := fault } with
    ⟨Q, R', h1, h2, h3, h4⟩ | ⟨e, h, -⟩ | h | ⟨h, -⟩
  · rw [hopen] at h1
    cases h1
    refine ⟨R', h2, h3, ?_⟩
    rcases h4 ops with ⟨h5, h6, -⟩ | ⟨rs, h5, -⟩
    · refine ⟨h5, h6, ?_, ?_⟩
      · rw [h5]; exact hsafe.1
      · rw [h6]; exact hsafe.2.1
    · refine absurd ?_ hends
      rw [h5]
      exact List.mem_append.2 (.inr (List.mem_singleton.2 rfl))
  · rw [hopen] at h; cases h
  · rw [hopen] at h; cases h
  · rw [hopen] at h; cases h

/-- The release build and the debug build of the examples. -/
theorem demo_checksLess : ChecksLess Demo.cfg { Demo.cfg with debug := true, asserts := true } :=
  ⟨fun _ => rfl, fun _ => rfl, rfl, rfl, rfl⟩

/-- A file with three rows: both builds read them. -/
example : ∃ R R', openReader { Demo.cfg with debug := true, asserts := true } ifs 10 none (IFStream.open Demo.file) = .ok R ∧
    openReader Demo.cfg ifs 10 none (IFStream.open Demo.file) = .ok R' ∧
    (R'.run ifs [.readRow, .skip 1, .readAll]).1 = [.ok (.bool true), .ok (.bool true), .ok .unit] ∧
    .error .ub ∉ (R'.run ifs [.readRow, .skip 1, .readAll]).1 := by
  have h1 : openReader { Demo.cfg with debug := true, asserts := true } ifs 10 none (IFStream.open Demo.file) =
      .ok (Demo.get (openReader { Demo.cfg with debug := true, asserts := true } ifs 10 none (IFStream.open Demo.file))) :=
    Demo.get_ok (by decide +kernel)
  obtain ⟨R', h2, -, h3, -, h4, -⟩ := C82_vouches _ _ demo_checksLess rfl 10 none Demo.file none (by decide +kernel)
    (by
      rintro ⟨-, d, hd, hn⟩
      have : ∀ d ∈ announcedDates (Demo.file.take 288), d = 0 := by decide +kernel
      refine hn ?_
      rw [this d hd]
      exact .inr ⟨0, ⟨0, 0, 0, by omega, by norm_num, by norm_num, .inl ⟨rfl, by norm_num⟩⟩, by norm_num⟩)
    _ h1 (by decide +kernel) [.readRow, .skip 1, .readAll] (by decide +kernel)
  exact ⟨_, R', h1, h2, h3.trans (by decide +kernel), h4⟩

/-- A file on which the debug build ends the program at the second call, and the release build leaves its buffers:
the first answer is the same. -/
example : ∃ R R', openReader { Demo.cfg with debug := true } ifs 9 none (IFStream.open crowdedFile) = .ok R ∧
    openReader Demo.cfg ifs 9 none (IFStream.open crowdedFile) = .ok R' ∧
    (R.run ifs [.skip 62, .readRow]).1 = [.ok (.bool true)] ++ [.error .terminate] ∧
    [.ok (.bool true)] <+: (R'.run ifs [.skip 62, .readRow]).1 := by
  refine ⟨Demo.get (openReader { Demo.cfg with debug := true } ifs 9 none (IFStream.open crowdedFile)),
    Demo.get (openReader Demo.cfg ifs 9 none (IFStream.open crowdedFile)),
    Demo.get_ok (by decide +kernel), Demo.get_ok (by decide +kernel), by decide +kernel, ?_⟩
  have : (Reader.run ifs (Demo.get (openReader Demo.cfg ifs 9 none (IFStream.open crowdedFile))) [.skip 62, .readRow]).1
    = [.ok (.bool true), .error .ub] := by decide +kernel
  rw [this]
  exact ⟨[.error .ub], rfl⟩

/-- A file without a creation date: the debug build cannot print it. -/
example : openReader { Demo.cfg with debug := true } ifs 10 none (IFStream.open
      (writeAt (Demo.header 900 4) 164 (Demo.le 8 0xFFFFFE0000000000) ++ Demo.file.drop 288)) = .error (.exn .outOfRange) ∧
    ∃ R', openReader Demo.cfg ifs 10 none (IFStream.open
      (writeAt (Demo.header 900 4) 164 (Demo.le 8 0xFFFFFE0000000000) ++ Demo.file.drop 288)) = .ok R' ∧
      R'.props.header.dateCreated.toText = .error (.exn .outOfRange) :=
  ⟨C57_refuted _ rfl _ _ _ _ _ missingDate_layout (by decide +kernel)
      ⟨1, 0xFFFFFE0000000000 - 2 ^ 63 - 2047 * 2 ^ 52, by decide, by decide, by decide, by decide⟩,
    Demo.get (openReader Demo.cfg ifs 10 none (IFStream.open
      (writeAt (Demo.header 900 4) 164 (Demo.le 8 0xFFFFFE0000000000) ++ Demo.file.drop 288))),
    Demo.get_ok (by decide +kernel), by decide +kernel⟩

end Sas.Props
