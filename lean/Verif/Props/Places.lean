import Verif.Proofs.Places
import Verif.Props.Resources
import Verif.Demo

/-!
# Property C79: what a pointer to a row is good for
-/

namespace Sas.Props

open Sas Spec

variable {σ : Type} {S : Source σ}

/-- What both ways to get a row share. -/
theorem C79_line {cfg : Cfg} {fuel : Nat} {filter : Option Filter} {s : σ} {R : Reader σ}
    (h : openReader cfg S fuel filter s = .ok R) (before : List Op) {row : Row} {R₁ : Reader σ}
    (henv : R₁.env = (R.run S before).2.env) (hprops : R₁.props = (R.run S before).2.props)
    (hline : (R.run S before).2.rd.readLine (R.run S before).2.env S (R.run S before).2.props.md = (.ok (some row), R₁.rd)) :
    ∃ pl, (R.run S before).2.nextPlace S = some pl ∧ R₁.behind pl = row.mem ∧
      ∀ after, ((R₁.run S after).2.behind pl).length = row.mem.length := by
  have hroom := (Proofs.room_kept (S := S) _).run before (Proofs.open_room h)
  generalize (R.run S before).2 = R' at hline henv hprops hroom ⊢
  have hroom₁ : Proofs.OfReader (Proofs.Room R.rd.p.buf.mem.length) R₁ := by
    have := (Proofs.room_kept (S := S) _).readLine R'.env R'.props.md hroom
    rw [hline] at this
    unfold Proofs.OfReader
    rw [henv, hprops]
    exact this
  obtain ⟨pl, h1, h2, -⟩ := Proofs.readLine_behind hline
  have hb : R₁.behind pl = row.mem := h2
  refine ⟨pl, h1, hb, fun after => ?_⟩
  rw [← hb]
  have g1 := (Proofs.room_kept (S := S) _).run after hroom₁
  have g2 := (Proofs.dst_kept (S := S) R₁.rd.dst.length).run after (R := R₁) rfl
  cases pl with
  | page off =>
    show (List.drop off _).length = (List.drop off _).length
    rw [List.length_drop, List.length_drop, g1.1, hroom₁.1]
  | scratch => exact g2

/-- **C79**, the block. Let a row come from `read_row_no_sink`, after any history. The pointer lies where `nextPlace` says,
its bytes are those of the row, and whatever is called afterwards, as long as the reader lives the pointer lies in the same
block: as much memory is behind it as there was. -/
theorem C79_block {cfg : Cfg} {fuel : Nat} {filter : Option Filter} {s : σ} {R : Reader σ}
    (h : openReader cfg S fuel filter s = .ok R) (before : List Op) {row : Row} {R₁ : Reader σ}
    (hrow : (R.run S before).2.step S .readRowNoSink = (.ok (.ptr (some row)), R₁)) :
    ∃ pl, (R.run S before).2.nextPlace S = some pl ∧ R₁.behind pl = row.mem ∧
      ∀ after, ((R₁.run S after).2.behind pl).length = row.mem.length := by
  have key : ∀ R' : Reader σ, R'.step S .readRowNoSink = (.ok (.ptr (some row)), R₁) →
      R₁.env = R'.env ∧ R₁.props = R'.props ∧ R'.rd.readLine R'.env S R'.props.md = (.ok (some row), R₁.rd) := by
    intro R' hrow
    have : (((R'.rd.readLine R'.env S R'.props.md).1.map Ret.ptr), { R' with rd := (R'.rd.readLine R'.env S R'.props.md).2 }) =
        (.ok (.ptr (some row)), R₁) := hrow
    generalize R'.rd.readLine R'.env S R'.props.md = x at this
    obtain ⟨(e | x), r⟩ := x
    · cases this
    · cases this
      exact ⟨rfl, rfl, rfl⟩
  obtain ⟨h1, h2, h3⟩ := key _ hrow
  exact C79_line h before h1 h2 h3

/-- **C79**, the block, for a row the sink gets from `read_row`. -/
theorem C79_sink {cfg : Cfg} {fuel : Nat} {filter : Option Filter} {s : σ} {R : Reader σ}
    (h : openReader cfg S fuel filter s = .ok R) (before : List Op) {R₁ : Reader σ}
    (hrow : (R.run S before).2.step S .readRow = (.ok (.bool true), R₁)) :
    ∃ row pl, R₁.trace = (R.run S before).2.trace ++ [.pushRow (R.run S before).2.currentRowIndex row] ∧
      (R.run S before).2.nextPlace S = some pl ∧ R₁.behind pl = row.mem ∧
      ∀ after, ((R₁.run S after).2.behind pl).length = row.mem.length := by
  have key : ∀ R' : Reader σ, R'.step S .readRow = (.ok (.bool true), R₁) →
      R₁.env = R'.env ∧ R₁.props = R'.props ∧ ∃ row, R₁.trace = R'.trace ++ [.pushRow R'.currentRowIndex row] ∧
        R'.rd.readLine R'.env S R'.props.md = (.ok (some row), R₁.rd) := by
    intro R' hrow
    have : (((R'.readRow S).1.map Ret.bool), (R'.readRow S).2) = (.ok (.bool true), R₁) := hrow
    unfold Reader.readRow at this
    generalize R'.rd.readLine R'.env S R'.props.md = x at this
    obtain ⟨(e | (_ | row)), r⟩ := x
    · cases this
    · cases this
    · cases this
      exact ⟨rfl, rfl, row, rfl, rfl⟩
  obtain ⟨h1, h2, row, h3, h4⟩ := key _ hrow
  obtain ⟨pl, g⟩ := C79_line h before h1 h2 h4
  exact ⟨row, pl, h3, g⟩

/-- **C79**, no allocation. Once a file is open no buffer is allocated, moved or freed: with an allocator that refuses
everything, all calls have the same results and make the same calls on the sink. -/
theorem C79_no_allocation {cfg : Cfg} {fuel : Nat} {filter : Option Filter} {s : σ} {R : Reader σ}
    (h : openReader cfg S fuel filter s = .ok R) (ops : List Op) :
    (Reader.run S { R with env := { R.env with cfg := { R.env.cfg with maxAlloc := 0 } } } ops).1 = (R.run S ops).1 ∧
    (Reader.run S { R with env := { R.env with cfg := { R.env.cfg with maxAlloc := 0 } } } ops).2.trace = (R.run S ops).2.trace := by
  have := Proofs.run_poor (S := S) ops (Proofs.open_room h)
  have h1 : Reader.run S { R with env := { R.env with cfg := { R.env.cfg with maxAlloc := 0 } } } ops =
    ((R.run S ops).1, Proofs.poorR (R.run S ops).2) := this
  rw [h1]
  exact ⟨rfl, rfl⟩

/-- **C79**, the bytes, as far as they stay. A row in the page buffer stays what it is until the source is read again; a
decompressed one until the next row is asked for: skipping does not touch it. -/
theorem C79_bytes_partial {cfg : Cfg} {fuel : Nat} {filter : Option Filter} {s : σ} {R : Reader (σ × List (Nat × Bool))}
    (h : openReader cfg (logged S) fuel filter (s, []) = .ok R) (before after : List Op) (pl : Place)
    (hpl : (∃ off, pl = .page off ∧ readsOf ((R.run (logged S) before).2.run (logged S) after).2 = readsOf (R.run (logged S) before).2) ∨
      (pl = .scratch ∧ ∀ op ∈ after, (∃ n, op = .skip n) ∨ op = .endOfData)) :
    ((R.run (logged S) before).2.run (logged S) after).2.behind pl = (R.run (logged S) before).2.behind pl := by
  have hroom := (Proofs.room_kept (S := logged S) _).run before (Proofs.open_room h)
  generalize (R.run (logged S) before).2 = R' at hroom hpl ⊢
  rcases hpl with ⟨off, rfl, hr⟩ | ⟨rfl, hs⟩
  · have hq := (Proofs.quiet_kept (S := S) R'.rd.p.src.2 R'.rd.p.buf.mem _).run after (R := R') ⟨hroom, Nat.le_refl _, fun _ => rfl⟩
    unfold readsOf at hr
    have hm := hq.2.2 (by rw [hr])
    show List.drop off _ = List.drop off _
    rw [hm]
  · exact Proofs.run_dst after hs

/-- The first row of the demonstration file is still there when the second one has been read. -/
example : (loggedReader.run (logged ifs) [.readRow]).2.nextPlace (logged ifs) = some (.page 38) ∧
    readsOf ((loggedReader.run (logged ifs) [.readRow]).2.run (logged ifs) [.readRowNoSink]).2 =
      readsOf (loggedReader.run (logged ifs) [.readRow]).2 := by
  decide +kernel

/-- A compressed row: it lies in the decompressor's buffer, and skipping the next one leaves it there. -/
example : Demo.rleReader.nextPlace ifs = some .scratch ∧
    (Demo.rleReader.step ifs .readRow).2.behind .scratch = Demo.row 0 "ann   " ∧
    ((Demo.rleReader.step ifs .readRow).2.run ifs [.skip 1]).2.behind .scratch = Demo.row 0 "ann   " := by
  decide +kernel

/-- **C79** is false of rows kept for longer: a pointer the reader has given out is overwritten by a later row. Here the first
text of a file of three rows, "ann", has become "cy" when the third one has been read. -/
theorem C79_refuted : ∃ (R R₁ : Reader IFStream) (row : Row) (pl : Place),
    openReader Demo.cfg ifs 10 none (IFStream.open Demo.file) = .ok R ∧
    R.step ifs .readRowNoSink = (.ok (.ptr (some row)), R₁) ∧ R.nextPlace ifs = some pl ∧
    (R₁.behind pl).take 14 = Demo.row 0 "ann   " ∧
    ((R₁.run ifs [.readAll]).2.behind pl).take 14 = Demo.row 2 "cy    " := by
  have hp : (match (Demo.reader.step ifs .readRowNoSink).1 with | .ok (.ptr (some _)) => true | _ => false) = true := by
    decide +kernel
  have ht : Demo.reader.nextPlace ifs = some (.page 24) ∧
      ((Demo.reader.step ifs .readRowNoSink).2.behind (.page 24)).take 14 = Demo.row 0 "ann   " ∧
      (((Demo.reader.step ifs .readRowNoSink).2.run ifs [.readAll]).2.behind (.page 24)).take 14 = Demo.row 2 "cy    " := by
    decide +kernel
  have ho : openReader Demo.cfg ifs 10 none (IFStream.open Demo.file) = .ok Demo.reader := Demo.opened_ok
  generalize Demo.reader = R at hp ht ho
  obtain ⟨h1, h2, h3⟩ := ht
  generalize hx : R.step ifs .readRowNoSink = x at hp h2 h3
  obtain ⟨res, R₁⟩ := x
  dsimp only at hp h2 h3
  obtain e | (_ | b | (_ | row)) := res
  · cases hp
  · cases hp
  · cases hp
  · cases hp
  · exact ⟨R, R₁, row, .page 24, ho, hx, h1, h2, h3⟩

end Sas.Props
