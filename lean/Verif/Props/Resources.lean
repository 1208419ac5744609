import Verif.Proofs.Resources
import Verif.Proofs.Source
import Verif.Props.Sources
import Verif.Demo

/-!
# Properties C77 and C78: what reading costs the source and memory
-/

namespace Sas.Props

open Sas Spec

variable {σ : Type} {S : Source σ}

/-- **C77.** A source is read front to back in portions the header announces: 288 bytes, the rest of the header, and then
pages. This holds at every point of every history. At most one read fails, and it is the last one there will be: from then
on every call finds the end of the data. -/
theorem C77_reads {cfg : Cfg} {fuel : Nat} {filter : Option Filter} {s : σ} {R : Reader (σ × List (Nat × Bool))}
    (h : openReader cfg (logged S) fuel filter (s, []) = .ok R) :
    ∃ n, (288 + n) % 2 ^ 64 = R.props.header.headerLength ∧ ∀ ops, ∃ k,
      readsOf (R.run (logged S) ops).2 = [(288, true), (n, true)] ++ List.replicate k (R.props.header.pageLength, true) ∨
      (readsOf (R.run (logged S) ops).2 =
          [(288, true), (n, true)] ++ List.replicate k (R.props.header.pageLength, true) ++ [(R.props.header.pageLength, false)] ∧
        ∀ more, ((R.run (logged S) ops).2.run (logged S) more).1 = more.map answerAtEnd ∧
          readsOf ((R.run (logged S) ops).2.run (logged S) more).2 = readsOf (R.run (logged S) ops).2) := by
  obtain ⟨he, n, hn, h1⟩ := Proofs.open_noted h
  refine ⟨n, hn, fun ops => ?_⟩
  have hk : (R.run (logged S) ops).2.env.pageLength = R.props.header.pageLength := by
    rw [← he]
    exact congrArg Env.pageLength (Proofs.run_env ops R (openReader_spec h).1)
  have h2 := (Proofs.noted_kept (S := S) _).run ops h1
  unfold Proofs.OfReader Proofs.Noted at h2
  rw [hk] at h2
  rcases h2 with ⟨k, h2⟩ | ⟨⟨k, h2⟩, h3⟩
  · exact ⟨k, .inl h2⟩
  · refine ⟨k, .inr ⟨h2, fun more => ?_⟩⟩
    obtain ⟨g1, g2, -⟩ := Reader.run_ended (S := logged S) more (R.run (logged S) ops).2 (.inr h3)
    exact ⟨g1, by unfold readsOf; rw [g2]⟩

/-- **C77**, at the end: once the last row has been read, nothing more is asked of the source. -/
theorem C77_enough {cfg : Cfg} {fuel : Nat} {filter : Option Filter} {s : σ} {R : Reader (σ × List (Nat × Bool))}
    (h : openReader cfg (logged S) fuel filter (s, []) = .ok R) (ops : List Op)
    (hlast : (R.run (logged S) ops).2.currentRowIndex = R.props.md.rowCount) (more : List Op) :
    readsOf ((R.run (logged S) ops).2.run (logged S) more).2 = readsOf (R.run (logged S) ops).2 := by
  obtain ⟨hi, -, -⟩ := openReader_spec h
  have hp : (R.run (logged S) ops).2.props = R.props := Reader.run_props ops R hi
  obtain ⟨-, g2, -⟩ := Reader.run_ended (S := logged S) more (R.run (logged S) ops).2 (.inl (by rw [hp]; exact hlast))
  unfold readsOf
  rw [g2]

/-- **C77**: noting what is read changes nothing, so the two theorems above are about reading from `S` itself. -/
theorem C77_logged (hle : ∀ s n, (S.read s n).bytes.length ≤ n)
    (hhuge : ∀ s n, 2 ^ 63 ≤ n → (S.read s n).ok = false → (S.read s n).bytes = [])
    (cfg : Cfg) (fuel : Nat) (filter : Option Filter) (s : σ) :
    SameOutcome S (logged S) (openReader cfg S fuel filter s) (openReader cfg (logged S) fuel filter (s, [])) :=
  C75_source (Q := fun a b => b.1 = a)
    { fits₁ := hle
      fits₂ := fun b n => hle b.1 n
      huge₁ := hhuge
      huge₂ := fun b n => hhuge b.1 n
      eof := fun a b h => by subst h; rfl
      good := fun a b h n hok => by subst h; exact ⟨hok, rfl, rfl⟩
      fail := fun a b h n hok => by subst h; exact .inr ⟨hok, rfl⟩ } cfg fuel filter rfl

/-- A file meets what `C77_logged` asks of a source. -/
theorem C77_file (cfg : Cfg) (fuel : Nat) (filter : Option Filter) (s : IFStream) :
    SameOutcome ifs (logged ifs) (openReader cfg ifs fuel filter s) (openReader cfg (logged ifs) fuel filter (s, [])) :=
  C77_logged ifs_lawful.le (memory_agree.huge₁) cfg fuel filter s

/-- The reader of the demonstration file, with notes. -/
def loggedReader : Reader (IFStream × List (Nat × Bool)) :=
  match openReader Demo.cfg (logged ifs) 10 none (IFStream.open Demo.file, []) with
  | .ok R => R
  | .error _ => { env := Demo.reader.env, props := Demo.reader.props, trace := [],
                  rd := { p := ⟨(IFStream.open [], []), Demo.reader.rd.p.buf, Demo.reader.rd.p.hdr⟩, page := none, row := 0, dst := [] } }

theorem loggedReader_ok :
    openReader Demo.cfg (logged ifs) 10 none (IFStream.open Demo.file, []) = .ok loggedReader := by
  have h : (openReader Demo.cfg (logged ifs) 10 none (IFStream.open Demo.file, [])).isOk = true := by decide +kernel
  unfold loggedReader
  generalize openReader Demo.cfg (logged ifs) 10 none (IFStream.open Demo.file, []) = x at h
  cases x with
  | ok R => rfl
  | error e => cases h

/-- The demonstration file has a header of 288 bytes and pages of 900. The metadata and the first two rows need two of them,
the third row two more, since the one between is skipped. Nothing is asked for behind the last row. -/
example : readsOf loggedReader = [(288, true), (0, true), (900, true), (900, true)] ∧
    readsOf (loggedReader.run (logged ifs) [.readRow, .readRow]).2 = [(288, true), (0, true), (900, true), (900, true)] ∧
    readsOf (loggedReader.run (logged ifs) [.readAll, .readRow]).2 =
      [(288, true), (0, true), (900, true), (900, true), (900, true), (900, true)] ∧
    (loggedReader.run (logged ifs) [.readAll]).2.currentRowIndex = loggedReader.props.md.rowCount := by
  decide +kernel

/-- **C78.** Memory does not grow with what is read. At every point of every history a reader's buffers take no more bytes
than the header or a page and one row, and it holds no more pointers to rows than one page can have. The properties, which
give these bounds, stay what they were when the file was opened. -/
theorem C78_memory {cfg : Cfg} {fuel : Nat} {filter : Option Filter} {s : σ} {R : Reader σ}
    (h : openReader cfg S fuel filter s = .ok R) (ops : List Op) :
    blocks (R.run S ops).2 ≤ max 288 (max R.props.header.headerLength R.props.header.pageLength) + R.props.md.rowLength ∧
    rowPointers (R.run S ops).2 < 2 ^ 16 ∧ (R.run S ops).2.props = R.props := by
  obtain ⟨hi, -, -⟩ := openReader_spec h
  have hp : (R.run S ops).2.props = R.props := Reader.run_props ops R hi
  obtain ⟨-, h2, h3, h4⟩ := (Proofs.frugal_kept (S := S) _).run ops (Proofs.open_frugal h)
  refine ⟨?_, h4, hp⟩
  rw [hp] at h3
  exact Nat.add_le_add h2.1.2 h3

/-- The demonstration file takes the bytes of a page, and after its last row still does. -/
example : blocks Demo.reader = 900 ∧ blocks (Demo.reader.run ifs [.readAll]).2 = 900 ∧
    Demo.reader.props.header.pageLength = 900 ∧ (Demo.reader.run ifs [.readAll]).2.currentRowIndex = 3 := by
  decide +kernel

/-- One with compressed rows of 14 bytes: these come in addition, and there are pointers to rows. -/
example : blocks Demo.rleReader = 914 ∧ Demo.rleReader.props.md.rowLength = 14 ∧ rowPointers Demo.rleReader = 1 := by
  decide +kernel

end Sas.Props
