import Verif.Proofs.DebugPages
import Verif.Props.Safety

/-!
# Properties: the bounds checks of debug builds
-/

namespace Sas.Props

open Sas Sas.Spec

/-! ## C70: a debug build stays inside its buffers -/

/-- A compressed 32-bit file whose only row is `41 00`. -/
def truncatedRleFile : List Byte :=
  Demo.header 900 1 ++ Demo.metaPage 0 14 1 0 (ascii "SASYZCRL") [(150, 2, 4, 1)] [(150, [0x41, 0x00])]

/-- A 32-bit file with rows of 4 bytes up to the end of the page, and a column of 8 bytes. -/
def narrowFile : List Byte :=
  Demo.header 900 2 ++ Demo.metaPage 0 4 219 0 (ascii "        ") [] [] ++ Demo.page 900 256 219 [] []

/-- C70 is false: a debug build leaves its buffers when it opens a 64-bit file whose subheader position and
length add up to more than 2^64; when it reads a row of a compressed file that ends in the middle of a
command; and when it reads a column that reaches beyond its row. -/
theorem C70_refuted :
    openReader Demo.cfgDebug ifs 9 none (IFStream.open wrapFile) = .error .ub ∧
    (∃ R, openReader Demo.cfgDebug ifs 9 none (IFStream.open truncatedRleFile) = .ok R ∧
      (R.run ifs [.readRow]).1 = [.error .ub]) ∧
    ∃ R, openReader Demo.cfgDebug ifs 9 none (IFStream.open narrowFile) = .ok R ∧
      ∃ i row c, .pushRow i row ∈ (R.run ifs [.skip 218, .readRow]).2.trace ∧ c ∈ R.props.columns ∧
        c.getNumber row.mem = .error .ub := by
  have he : ∀ {α : Type} (x : Res α) (e : Stop),
      (match x with | .error e' => decide (e' = e) | .ok _ => false) = true → x = .error e := by
    intro α x e h
    cases x with
    | ok a => cases h
    | error e' => rw [of_decide_eq_true h]
  refine ⟨he _ _ (by decide +kernel), ?_, ?_⟩
  · exact ⟨Demo.get (openReader Demo.cfgDebug ifs 9 none (IFStream.open truncatedRleFile)),
      Demo.get_ok (by decide +kernel), by decide +kernel⟩
  · refine ⟨Demo.get (openReader Demo.cfgDebug ifs 9 none (IFStream.open narrowFile)),
      Demo.get_ok (by decide +kernel), 218, ⟨[0, 0, 0, 0], 4⟩,
      ⟨ascii "ID", [], ascii "BEST", .double .little, 0, 8⟩, ?_, ?_, by decide +kernel⟩
    · decide +kernel
    · decide +kernel

/-- C70, for what the checks can do. Whatever the bytes of a 32-bit file and wherever its device fails, a
debug build does not leave its buffers when it opens the file, provided the dates in its header are within
139000 years of 1960 or missing. If the file is not compressed, neither does any later call, in any
history, and every row handed to the sink or to the caller lies in memory. What is missing are 64-bit
files, compressed rows and the columns, for which the claim is false. -/
theorem C70_checked_partial (cfg : Cfg) (hdebug : cfg.debug = true) (fuel : Nat) (filter : Option Filter)
    (data : List Byte) (fault : Option Nat) (h32 : data[32]? ≠ some 0x33) (hdates : ¬ WildDate data) :
    openReader cfg ifs fuel filter { IFStream.open data with fault := fault } ≠ .error .ub ∧
    ∀ R, openReader cfg ifs fuel filter { IFStream.open data with fault := fault } = .ok R →
      R.props.md.compression = .none → ∀ ops,
        .error .ub ∉ (R.run ifs ops).1 ∧
        (∀ i row, .pushRow i row ∈ (R.run ifs ops).2.trace → row.len ≤ row.mem.length) ∧
        (∀ row, .ok (.ptr (some row)) ∈ (R.run ifs ops).1 → row.len ≤ row.mem.length) := by
  have h := openReader_safe hdebug fuel filter data fault h32 hdates
  refine ⟨h.not_ub, fun R hR hc ops => ?_⟩
  rw [hR] at h
  obtain ⟨h1, h2⟩ := Reader.run_safe ifs_lawful ops (h hc)
  exact ⟨fun hm => (h1 _ hm).not_ub rfl, h2.rows, fun row hm => h1 _ hm row rfl⟩

/-- Two malformed 32-bit files on which a release build leaves its buffers: a debug build terminates the
process instead, as it does for a third one whose first subheader lies outside the page. -/
example :
    (openReader Demo.cfg ifs 9 none (IFStream.open shortHeaderFile) = .error .ub ∧
      openReader { Demo.cfg with debug := true } ifs 9 none (IFStream.open shortHeaderFile) ≠ .error .ub) ∧
    (∃ R, openReader Demo.cfg ifs 9 none (IFStream.open crowdedFile) = .ok R ∧
      (R.run ifs [.skip 62, .readRow]).1 = [.ok (.bool true), .error .ub]) ∧
    ∃ R, openReader { Demo.cfg with debug := true } ifs 9 none (IFStream.open crowdedFile) = .ok R ∧
      (R.run ifs [.skip 62, .readRow]).1 = [.ok (.bool true), .error .terminate] := by
  have hst : ∀ d : Nat, d = 0 → Stamp d := fun d hd =>
    .inr ⟨0, by subst hd; exact ⟨0, 0, 0, by omega, by norm_num, by norm_num, .inl ⟨rfl, by norm_num⟩⟩, by norm_num⟩
  refine ⟨⟨C25_refuted.2.1, (C70_checked_partial _ rfl 9 none shortHeaderFile none (by decide +kernel) ?_).1⟩,
    C25_refuted.2.2.2, ?_⟩
  · rintro ⟨-, d, hd, hn⟩
    have : ∀ d ∈ announcedDates (shortHeaderFile.take 288), d = 0 := by decide +kernel
    exact hn (hst d (this d hd))
  · exact ⟨Demo.get (openReader { Demo.cfg with debug := true } ifs 9 none (IFStream.open crowdedFile)),
      Demo.get_ok (by decide +kernel), by decide +kernel⟩

end Sas.Props
