import Verif.Proofs.Rows
import Verif.DemoFiles
import Verif.Props.Columns
import Verif.Props.Compression

/-!
# Properties of the delivered rows: C01, C27, C28, C46, C47, C50
-/

namespace Sas.Props

open Sas Sas.Spec

variable {σ : Type}

/-! ## C01: every row is delivered once, in file order -/

/-- The row-size subheader in force is one of the file, or there is none. -/
theorem rowSizeOf_mem (all : List Sub) : ∀ d : RowSize,
    rowSizeOf d all = d ∨ Sub.rowSize (rowSizeOf d all) ∈ all := by
  induction all with
  | nil => intro d; left; rfl
  | cons s all ih =>
    intro d
    cases s with
    | rowSize r =>
      rcases ih r with h | h
      · right; simp only [rowSizeOf]; rw [h]; simp
      · right; simp only [rowSizeOf]; exact List.mem_cons_of_mem _ h
    | _ =>
      rcases ih d with h | h
      · left; simpa only [rowSizeOf] using h
      · right; simp only [rowSizeOf]; exact List.mem_cons_of_mem _ h

theorem rowLength_small {h : FileHeader} {pre : List (List Byte × PageContent)}
    {k : Option (List Byte × PageContent)} {all : List Sub} {c : Compression}
    (hm : FileMeta h pre k all c) : (rowSizeOf .none all).rowLength < 2 ^ 64 := by
  rcases rowSizeOf_mem all .none with h1 | h1
  · rw [h1]; decide
  · generalize rowSizeOf .none all = r at h1
    have key : ∀ pc : List Byte × PageContent, PageIs h.endian h.fmt pc.1 pc.2 →
        Sub.rowSize r ∈ pc.2.used → r.rowLength < 2 ^ 64 := by
      intro pc hpc hmem
      unfold PageContent.used at hmem
      split at hmem
      · rename_i hmeta
        obtain ⟨ps, hps, he⟩ := List.mem_map.mp hmem
        rw [List.mem_filter] at hps
        have hs := hpc.subs hmeta ps hps.1 hps.2
        rw [he] at hs
        have := hs.2.sizes.1
        cases hf : h.fmt <;> rw [hf] at this <;> simp only [word] at this <;> omega
      · cases hmem
    rw [hm.all_eq, List.mem_append] at h1
    unfold usedOf at h1
    rcases h1 with h1 | h1 <;> rw [List.mem_flatMap] at h1 <;> obtain ⟨x, hx, hx'⟩ := h1 <;>
      obtain ⟨pc, hpc, rfl⟩ := List.mem_map.mp hx
    · exact key pc (hm.pre_is pc hpc).1 hx'
    · exact key pc (hm.k_is pc (Option.mem_toList.mp hpc)).1 hx'

/-- What `read_all` does on a well-formed file: it pushes the stored rows up to the announced number, in
page order; then it signals the end, or throws when the source fails before. -/
theorem C01_readAll (cfg : Cfg) (S : Source σ) (s : σ) (h : FileHeader)
    (pre : List (List Byte × PageContent)) (k : Option (List Byte × PageContent))
    (tail : List (List Byte × PageOutline)) (en : Ending) (all : List Sub) (c : Compression) (fuel : Nat)
    (filter : Option Filter) (hw : WellFormed cfg S s h pre k (tail.map (·.1)) en all c fuel)
    (hrf : RowFile h pre k tail all c) (hfuel : tail.length < fuel) (rows : List (List Byte))
    (hrows : RowsOf c (rowSizeOf .none all).rowLength
      ((fileRows h all c (outlines pre k tail)).take (rowSizeOf .none all).rowCount) rows)
    (R : Reader σ) (hR : openReader cfg S fuel filter s = .ok R) :
    ∃ rws : List Row, rws.map Row.bytes = rows ∧
      if en = .endOfFile ∨
          (rowSizeOf .none all).rowCount ≤ (fileRows h all c (outlines pre k tail)).length then
        (R.step S .readAll).1 = .ok .unit ∧
        (R.step S .readAll).2.trace = .setProperties R.props :: pushEvents 0 rws ++ [.endOfData]
      else
        (R.step S .readAll).1 = .error (.exn .cannotReadPage) ∧
        (R.step S .readAll).2.trace = .setProperties R.props :: pushEvents 0 rws := by
  have hsmall := rowLength_small hw.fileMeta
  cases k with
  | some kp =>
    obtain ⟨pg, h1, h2, h3, h4, h5, h6, h7⟩ := openReader_left hw hrf hfuel hR
    have := Reader.readAllLoop_left (S := S) (R.props.md.rowCount - R.rd.row + 1) R pg kp.1 tail en rows h1 h2
      (by rw [h2.rowLength]; exact hsmall) h6 (by omega) (by omega)
      (by rw [h7, h2.rowCount, h2.rowLength, h4, h3, Nat.sub_zero]; exact hrows)
    obtain ⟨rws, g1, _, g3⟩ := this
    refine ⟨rws, g1, ?_⟩
    rw [h7, h2.rowCount, h4, h5, Nat.sub_zero] at g3
    simp only [Reader.step, Reader.readAll, h2.rowCount, h4, Nat.sub_zero]
    split
    · rename_i hc
      rw [if_pos hc] at g3
      rw [g3.1, g3.2]
      exact ⟨rfl, by simp⟩
    · rename_i hc
      rw [if_neg hc] at g3
      rw [g3.1, g3.2]
      exact ⟨rfl, by simp⟩
  | none =>
    obtain ⟨htail, rfl⟩ := hw.noRows rfl
    rw [List.map_eq_nil_iff] at htail
    subst htail
    obtain ⟨acc, b, s', hacc, hds, _, ho⟩ := openReader_eof hw
    obtain ⟨dst, hb⟩ := RD_build_eof (b := b) (s' := s') hw hacc hds
    rw [ho] at hR
    unfold finish at hR
    obtain ⟨cols, hc, hR⟩ := bind_ok_inv hR
    rw [hb, Res.ok_bind] at hR
    cases hR
    have hnil : fileRows h all c (outlines pre none []) = [] := by
      unfold fileRows outlines
      rw [List.append_nil, List.flatMap_eq_nil_iff]
      intro x hx
      obtain ⟨pc, hpc, rfl⟩ := List.mem_map.mp hx
      have hpc' : pc ∈ pre := by simpa using hpc
      exact stored_pre (hrf.pointers pc hpc) (hw.fileMeta.pre_is pc hpc').2 _ _
    rw [hnil, List.take_nil] at hrows
    refine ⟨[], hrows.nil_inv.symm, ?_⟩
    rw [if_pos (.inl rfl)]
    simp only [Reader.step, Reader.readAll, Reader.readAllLoop]
    rw [Reader.readRow_ended (S := S) _ (.inr rfl)]
    exact ⟨rfl, rfl⟩

/-- C01. On a well-formed file that works (or that holds all announced rows), `read_all` calls `push_row`
exactly once for each of the first `row_count` stored rows, in page order, with row index 0, 1, 2, ...
and the row's bytes, and then `end_of_data` exactly once. -/
theorem C01_rows (cfg : Cfg) (S : Source σ) (s : σ) (h : FileHeader)
    (pre : List (List Byte × PageContent)) (k : Option (List Byte × PageContent))
    (tail : List (List Byte × PageOutline)) (en : Ending) (all : List Sub) (c : Compression) (fuel : Nat)
    (filter : Option Filter) (hw : WellFormed cfg S s h pre k (tail.map (·.1)) en all c fuel)
    (hrf : RowFile h pre k tail all c) (hfuel : tail.length < fuel)
    (hen : en = .endOfFile ∨
      (rowSizeOf .none all).rowCount ≤ (fileRows h all c (outlines pre k tail)).length)
    (rows : List (List Byte))
    (hrows : RowsOf c (rowSizeOf .none all).rowLength
      ((fileRows h all c (outlines pre k tail)).take (rowSizeOf .none all).rowCount) rows)
    (R : Reader σ) (hR : openReader cfg S fuel filter s = .ok R) :
    (R.step S .readAll).1 = .ok .unit ∧
    ∃ rws : List Row, rws.map Row.bytes = rows ∧
      (R.step S .readAll).2.trace = .setProperties R.props :: pushEvents 0 rws ++ [.endOfData] := by
  obtain ⟨rws, g1, g2⟩ := C01_readAll cfg S s h pre k tail en all c fuel filter hw hrf hfuel rows hrows R hR
  rw [if_pos hen] at g2
  exact ⟨g2.1, rws, g1, g2.2⟩

/-- The rows of an uncompressed file all have the announced length. -/
theorem storedRows_length {e : Endian} {f : Format} {r : RowSize} {po : List Byte × PageOutline}
    (hp : RowPage e f false r po) : ∀ raw ∈ storedRows f false r po, raw.length = r.rowLength := by
  intro raw hraw
  unfold storedRows at hraw
  obtain ⟨ol, hol, rfl⟩ := List.mem_map.mp hraw
  have hin := hp.inside ol hol
  have hlen : ol.2 = r.rowLength := by
    unfold rowsAt at hol
    split at hol
    · simp at hol
    · split at hol
      · obtain ⟨i, _, rfl⟩ := List.mem_map.mp hol; rfl
      · split at hol
        · obtain ⟨i, _, rfl⟩ := List.mem_map.mp hol; rfl
        · cases hol
  rw [slice_length hin]
  exact hlen

/-- C01 for uncompressed files: the pushed rows are the stored bytes. -/
theorem C01_uncompressed (cfg : Cfg) (S : Source σ) (s : σ) (h : FileHeader)
    (pre : List (List Byte × PageContent)) (k : Option (List Byte × PageContent))
    (tail : List (List Byte × PageOutline)) (en : Ending) (all : List Sub) (fuel : Nat)
    (filter : Option Filter) (hw : WellFormed cfg S s h pre k (tail.map (·.1)) en all .none fuel)
    (hrf : RowFile h pre k tail all .none) (hfuel : tail.length < fuel)
    (hen : en = .endOfFile ∨
      (rowSizeOf .none all).rowCount ≤ (fileRows h all .none (outlines pre k tail)).length)
    (R : Reader σ) (hR : openReader cfg S fuel filter s = .ok R) :
    (R.step S .readAll).1 = .ok .unit ∧
    ∃ rws : List Row,
      rws.map Row.bytes = (fileRows h all .none (outlines pre k tail)).take (rowSizeOf .none all).rowCount ∧
      (R.step S .readAll).2.trace = .setProperties R.props :: pushEvents 0 rws ++ [.endOfData] := by
  refine C01_rows cfg S s h pre k tail en all .none fuel filter hw hrf hfuel hen _ ?_ R hR
  refine ⟨rfl, fun i raw row h1 h2 => ?_⟩
  rw [h1] at h2
  cases h2
  apply RowOf.plain
  have hmem := List.mem_of_mem_take (List.mem_of_getElem? h1)
  unfold fileRows outlines at hmem
  obtain ⟨po, hpo, hraw⟩ := List.mem_flatMap.mp hmem
  have hrp : RowPage h.endian h.fmt false (rowSizeOf .none all) po ∨
      storedRows h.fmt false (rowSizeOf .none all) po = [] := by
    rcases List.mem_append.mp hpo with hpo | hpo
    · obtain ⟨pc, hpc, rfl⟩ := List.mem_map.mp hpo
      rcases List.mem_append.mp hpc with hpre | hk
      · right
        exact stored_pre (c := .none) (hrf.pointers pc hpc) (hw.fileMeta.pre_is pc hpre).2 _ _
      · left
        exact hrf.first pc (Option.mem_toList.mp hk)
    · left
      exact hrf.later po hpo
  rcases hrp with hrp | hrp
  · exact Nat.le_of_eq (storedRows_length hrp raw hraw).symm
  · rw [show decide (Compression.none ≠ .none) = false from rfl, hrp] at hraw
    cases hraw

theorem _root_.Sas.Spec.Packed.rowOf {c : Compression} {n : Nat} {raw row : List Byte} (h : Packed c n raw row)
    (hn : n < 2 ^ 64) : RowOf c n raw row := by
  cases h with
  | plain _ h => exact .plain _ (by omega)
  | rle cs hc hv hs hfit hlast =>
    have h1 := C16_rle_roundtrip_partial cs hv (List.replicate n 0) (by simpa using hfit) hlast
    rw [C16_rle_behaviour cs hv (List.replicate n 0) (by simp; omega)] at h1
    injection h1 with h1
    rw [List.length_replicate] at h1
    rw [← h1]
    exact .rle cs hc hv hs (by omega)
  | rdc gs last out hc hwf hs ho hfit hlast =>
    let cfg : Cfg := ⟨false, false, 0, 0, fun _ => 0⟩
    have h1 := C17_rdc_roundtrip_partial cfg gs last hwf (List.replicate n 0) _ ho (by simpa using hfit)
      (by simpa using hn) hlast
    obtain ⟨kept, hk, h2⟩ := C17_rdc_behaviour cfg gs last hwf (List.replicate n 0) _ ho (by simp; omega)
      (by simpa using hn)
    rw [h2] at h1
    injection h1 with h1
    rw [List.length_replicate] at h1
    rw [← h1]
    exact .rdc gs last _ kept hc hwf.1 hwf.2 hs ho (by omega) hk

/-- C01 for compressed files: the pushed rows are the rows that were compressed. Missing: rows whose
compressed form ends with commands the decompressors do not execute (C16, C17). -/
theorem C01_compressed_partial (cfg : Cfg) (S : Source σ) (s : σ) (h : FileHeader)
    (pre : List (List Byte × PageContent)) (k : Option (List Byte × PageContent))
    (tail : List (List Byte × PageOutline)) (en : Ending) (all : List Sub) (c : Compression) (fuel : Nat)
    (filter : Option Filter) (hw : WellFormed cfg S s h pre k (tail.map (·.1)) en all c fuel)
    (hrf : RowFile h pre k tail all c) (hfuel : tail.length < fuel)
    (hen : en = .endOfFile ∨
      (rowSizeOf .none all).rowCount ≤ (fileRows h all c (outlines pre k tail)).length)
    (rows : List (List Byte))
    (hl : ((fileRows h all c (outlines pre k tail)).take (rowSizeOf .none all).rowCount).length = rows.length)
    (hp : ∀ (i : Nat) (raw row : List Byte),
      ((fileRows h all c (outlines pre k tail)).take (rowSizeOf .none all).rowCount)[i]? = some raw →
      rows[i]? = some row → Packed c (rowSizeOf .none all).rowLength raw row)
    (R : Reader σ) (hR : openReader cfg S fuel filter s = .ok R) :
    (R.step S .readAll).1 = .ok .unit ∧
    ∃ rws : List Row, rws.map Row.bytes = rows ∧
      (R.step S .readAll).2.trace = .setProperties R.props :: pushEvents 0 rws ++ [.endOfData] :=
  C01_rows cfg S s h pre k tail en all c fuel filter hw hrf hfuel hen rows
    ⟨hl, fun i raw row h1 h2 => (hp i raw row h1 h2).rowOf (rowLength_small hw.fileMeta)⟩ R hR

/-! The hypotheses are met by the demonstration files. -/

/-- The pages of `file` after its first data page. -/
def fileTail : List (List Byte × PageOutline) := (Demo.filePages.drop 2).map fun pc => (pc.1, pc.2.outline)

/-- The pages of `rleFile` after its first page. -/
def rleTail : List (List Byte × PageOutline) := (Demo.rlePages.drop 1).map fun pc => (pc.1, pc.2.outline)

instance {e : Endian} {f : Format} {z : Bool} {r : RowSize} {po : List Byte × PageOutline} :
    Decidable (RowPage e f z r po) :=
  decidable_of_iff (PageLayout e f po.1 po.2.type po.2.blocks po.2.ptrs ∧
    ∀ ol ∈ rowsAt f z r po.2.type po.2.blocks po.2.ptrs, ol.1 + ol.2 ≤ po.1.length)
    ⟨fun ⟨a, b⟩ => ⟨a, b⟩, fun ⟨a, b⟩ => ⟨a, b⟩⟩

instance {c : Compression} {p : PageContent} : Decidable (RowPointers c p) :=
  decidable_of_iff ((hasMeta p.type = true → ∀ ps ∈ p.subs, live ps.1 = true → rowPtr ps.1 = true →
      ps.2 = .row) ∧ (c ≠ .none → p.used.contains .row = true → p.type = 0))
    ⟨fun ⟨a, b⟩ => ⟨a, b⟩, fun ⟨a, b⟩ => ⟨a, b⟩⟩

theorem rowFile_intro {h : FileHeader} {pre : List (List Byte × PageContent)}
    {kp : List Byte × PageContent} {tail : List (List Byte × PageOutline)} {all : List Sub} {c : Compression}
    (h1 : ∀ pc ∈ pre ++ [kp], RowPointers c pc.2)
    (h2 : RowPage h.endian h.fmt (c ≠ .none) (rowSizeOf .none all) (kp.1, kp.2.outline))
    (h3 : ∀ po ∈ tail, RowPage h.endian h.fmt (c ≠ .none) (rowSizeOf .none all) po)
    (h4 : ∀ po ∈ tail, hasRows po.2.type = true →
      storedRows h.fmt (c ≠ .none) (rowSizeOf .none all) po ≠ []) : RowFile h pre (some kp) tail all c where
  pointers := h1
  first := by intro pc hpc; cases hpc; exact h2
  later := h3
  announced := h4

theorem file_rowFile : RowFile demoHeader (Demo.filePages.take 1) Demo.filePages[1]? fileTail Demo.fileSubs
    .none := rowFile_intro (kp := Demo.filePages[1]) (by decide +kernel) (by decide +kernel) (by decide +kernel)
      (by decide +kernel)

theorem rle_rowFile : RowFile Demo.rleHeader [] Demo.rlePages[0]? rleTail Demo.rleSubs .rle :=
  rowFile_intro (kp := Demo.rlePages[0]) (by decide +kernel) (by decide +kernel) (by decide +kernel)
    (by decide +kernel)

example : fileRows demoHeader Demo.fileSubs .none (outlines (Demo.filePages.take 1) Demo.filePages[1]? fileTail) =
    Demo.rows := by decide +kernel

example : (Demo.reader.step ifs .readAll).1 = .ok .unit ∧ ∃ rws : List Row, rws.map Row.bytes = Demo.rows ∧
    (Demo.reader.step ifs .readAll).2.trace =
      .setProperties Demo.reader.props :: pushEvents 0 rws ++ [.endOfData] := by
  have h := C01_uncompressed Demo.cfg ifs (IFStream.open Demo.file) demoHeader (Demo.filePages.take 1)
    Demo.filePages[1]? fileTail .endOfFile Demo.fileSubs 10 none Demo.file_wellFormed file_rowFile
    (by decide +kernel) (.inl rfl) Demo.reader Demo.opened_ok
  have e : (fileRows demoHeader Demo.fileSubs .none
      (outlines (Demo.filePages.take 1) Demo.filePages[1]? fileTail)).take
      (rowSizeOf .none Demo.fileSubs).rowCount = Demo.rows := by decide +kernel
  rwa [e] at h

/-- The pages of `packFile` after its first page. -/
def packTail : List (List Byte × PageOutline) := (Demo.packPages.drop 1).map fun pc => (pc.1, pc.2.outline)

theorem pack_rowFile : RowFile Demo.rleHeader [] Demo.packPages[0]? packTail Demo.packSubs .rle :=
  rowFile_intro (kp := Demo.packPages[0]) (by decide +kernel) (by decide +kernel) (by decide +kernel)
    (by decide +kernel)

theorem pack_raws : fileRows Demo.rleHeader Demo.packSubs .rle (outlines [] Demo.packPages[0]? packTail) =
    [Demo.packRow0, Demo.packRow2] := by decide +kernel

theorem pack_rows : ∀ (i : Nat) (raw row : List Byte), [Demo.packRow0, Demo.packRow2][i]? = some raw →
    [Demo.row 0 "ann   ", Demo.row 2 "cy    "][i]? = some row → Packed .rle 14 raw row := by
  have p0 : Packed .rle 14 Demo.packRow0 (Demo.row 0 "ann   ") := by
    have := Packed.rle (c := .rle) (n := 14)
      [.zero2 6, .copy1 ([0xF0, 0x3F] ++ ascii "ann"), .byte3 0x20 3] rfl (by decide +kernel) (by decide +kernel)
      (by decide +kernel) (fun n => by simp)
    have e1 : rleEncode [.zero2 6, .copy1 ([0xF0, 0x3F] ++ ascii "ann"), .byte3 0x20 3] = Demo.packRow0 := by
      decide +kernel
    have e2 : rleExpand [.zero2 6, .copy1 ([0xF0, 0x3F] ++ ascii "ann"), .byte3 0x20 3] =
      Demo.row 0 "ann   " := by decide +kernel
    rwa [e1, e2] at this
  have p2 : Packed .rle 14 Demo.packRow2 (Demo.row 2 "cy    ") := by
    have := Packed.rle (c := .rle) (n := 14)
      [.zero2 6, .copy1 ([0x10, 0x40] ++ ascii "cy"), .byte3 0x20 4] rfl (by decide +kernel) (by decide +kernel)
      (by decide +kernel) (fun n => by simp)
    have e1 : rleEncode [.zero2 6, .copy1 ([0x10, 0x40] ++ ascii "cy"), .byte3 0x20 4] = Demo.packRow2 := by
      decide +kernel
    have e2 : rleExpand [.zero2 6, .copy1 ([0x10, 0x40] ++ ascii "cy"), .byte3 0x20 4] =
      Demo.row 2 "cy    " := by decide +kernel
    rwa [e1, e2] at this
  intro i raw row h1 h2
  match i, h1, h2 with
  | 0, h1, h2 => cases h1; cases h2; exact p0
  | 1, h1, h2 => cases h1; cases h2; exact p2
  | i + 2, h1, _ => simp at h1

example : ∃ R, openReader Demo.cfg ifs 10 none (IFStream.open Demo.packFile) = .ok R ∧
    (R.step ifs .readAll).1 = .ok .unit ∧
    ∃ rws : List Row, rws.map Row.bytes = [Demo.row 0 "ann   ", Demo.row 2 "cy    "] ∧
      (R.step ifs .readAll).2.trace = .setProperties R.props :: pushEvents 0 rws ++ [.endOfData] := by
  refine ⟨_, Demo.get_ok (by decide +kernel), ?_⟩
  refine C01_compressed_partial Demo.cfg ifs _ Demo.rleHeader [] Demo.packPages[0]? packTail .endOfFile
    Demo.packSubs .rle 10 none Demo.pack_wellFormed pack_rowFile (by decide) (.inl rfl) _ ?_ ?_ _
    (Demo.get_ok (by decide +kernel))
  · rw [pack_raws]; decide +kernel
  · rw [pack_raws, show (rowSizeOf .none Demo.packSubs).rowCount = 2 by decide +kernel,
      show (rowSizeOf .none Demo.packSubs).rowLength = 14 by decide +kernel]
    exact pack_rows

/-! ## C27: truncation and failure are told apart -/

/-- C27, truncation. The file consists of complete pages and the beginning of a page: the rows of the
complete pages are delivered and the end is signalled as usual. -/
theorem C27_truncated (cfg : Cfg) (h : FileHeader) (hdr : List Byte) (hl : HeaderLayout h hdr)
    (pre : List (List Byte × PageContent)) (k : Option (List Byte × PageContent))
    (tail : List (List Byte × PageOutline)) (all : List Sub) (c : Compression) (fuel : Nat)
    (filter : Option Filter) (hm : FileMeta h pre k all c) (hrf : RowFile h pre k tail all c)
    (hsize : ∀ po ∈ outlines pre k tail, po.1.length = h.pageLength)
    (part : List Byte) (hpart : part.length < h.pageLength)
    (hmem : h.headerLength ≤ cfg.maxAlloc ∧ h.pageLength ≤ cfg.maxAlloc ∧
      (rowSizeOf .none all).rowLength ≤ cfg.maxAlloc) (hg : Loggable cfg h)
    (hfuel : pre.length < fuel ∧ tail.length < fuel) (hk : k = none → tail = [])
    (rows : List (List Byte))
    (hrows : RowsOf c (rowSizeOf .none all).rowLength
      ((fileRows h all c (outlines pre k tail)).take (rowSizeOf .none all).rowCount) rows)
    (R : Reader IFStream)
    (hR : openReader cfg ifs fuel filter
      (IFStream.open (hdr ++ (((outlines pre k tail).map (·.1)).flatten ++ part))) = .ok R) :
    (R.step ifs .readAll).1 = .ok .unit ∧
    ∃ rws : List Row, rws.map Row.bytes = rows ∧
      (R.step ifs .readAll).2.trace = .setProperties R.props :: pushEvents 0 rws ++ [.endOfData] := by
  have hp := ifs_presents hl ((outlines pre k tail).map (·.1)) (by
    intro p hp
    obtain ⟨po, hpo, rfl⟩ := List.mem_map.mp hp
    exact hsize po hpo) part hpart
  have e : (outlines pre k tail).map (·.1) =
      pre.map (·.1) ++ (k.toList.map (·.1) ++ (tail.map (·.1))) := by
    simp [outlines, List.map_append, List.append_assoc, Function.comp_def]
  refine C01_rows cfg ifs _ h pre k tail .endOfFile all c fuel filter
    ⟨by rw [← e]; exact hp, hm, hmem, hg, hfuel.1, fun hn => ⟨by rw [hk hn]; rfl, rfl⟩⟩ hrf hfuel.2 (.inl rfl) rows
    hrows R hR

/-- C27, failure while reading rows. The source fails, without being at its end, somewhere in the page
after the given ones: the rows of the given pages are delivered, `cannot_read_page` is thrown, and no end
is signalled. -/
theorem C27_failed (cfg : Cfg) (S : Source σ) (s : σ) (h : FileHeader)
    (pre : List (List Byte × PageContent)) (k : Option (List Byte × PageContent))
    (tail : List (List Byte × PageOutline)) (all : List Sub) (c : Compression) (fuel : Nat)
    (filter : Option Filter) (hw : WellFormed cfg S s h pre k (tail.map (·.1)) .ioError all c fuel)
    (hrf : RowFile h pre k tail all c) (hfuel : tail.length < fuel)
    (hmore : (fileRows h all c (outlines pre k tail)).length < (rowSizeOf .none all).rowCount)
    (rows : List (List Byte))
    (hrows : RowsOf c (rowSizeOf .none all).rowLength (fileRows h all c (outlines pre k tail)) rows)
    (R : Reader σ) (hR : openReader cfg S fuel filter s = .ok R) :
    (R.step S .readAll).1 = .error (.exn .cannotReadPage) ∧
    ∃ rws : List Row, rws.map Row.bytes = rows ∧
      (R.step S .readAll).2.trace = .setProperties R.props :: pushEvents 0 rws := by
  obtain ⟨rws, g1, g2⟩ := C01_readAll cfg S s h pre k tail .ioError all c fuel filter hw hrf hfuel rows
    (by rw [List.take_of_length_le (by omega)]; exact hrows) R hR
  rw [if_neg (by simp; omega)] at g2
  exact ⟨g2.1, rws, g1, g2.2⟩

/-- C27, failure while opening. The source fails before a page with rows has been read: the reader is not
constructed, `cannot_read_page` is thrown. -/
theorem C27_failed_open (cfg : Cfg) (S : Source σ) (s : σ) (h : FileHeader)
    (pre : List (List Byte × PageContent)) (all : List Sub) (c : Compression) (fuel : Nat)
    (filter : Option Filter) (hp : Presents S s h (pre.map (·.1)) .ioError) (hm : FileMeta h pre none all c)
    (hmem : h.headerLength ≤ cfg.maxAlloc ∧ h.pageLength ≤ cfg.maxAlloc) (hg : Loggable cfg h)
    (hfuel : pre.length < fuel) :
    openReader cfg S fuel filter s = .error (.exn .cannotReadPage) := by
  obtain ⟨bs, s1, s2, hl, r1, r2, hst⟩ := hp
  obtain ⟨b0, hb0, ho⟩ := openReader_of_meta (fuel := fuel) hl r1 r2 hmem.1 hg
  have hc := hm.compressedBy
  have e1 := metaLoop_fail (env := envOf cfg h fuel) (envOf_fits ⟨bs, hl⟩ hmem.2) all hm.room hm.rows pre
    ⟨s2, b0, PageHdr.reset⟩ fuel hb0.good hst (fun pc hpc => by rw [hc]; exact hm.pre_is pc hpc)
    (by rw [hm.all_eq]; simp [usedOf]) hfuel
  rw [ho, e1]
  rfl

/-- The first data page of `file` and 500 bytes of a second data page. -/
def cutFile : List Byte :=
  Demo.fileWith [] ((Demo.page 900 256 1 [] [(24, Demo.row 2 "cy    ")]).take 500)

example : Demo.pushed ((Demo.get (openReader Demo.cfg ifs 10 none (IFStream.open cutFile))).run ifs
    [.readAll]).2 = [(0, Demo.row 0 "ann   "), (1, Demo.row 1 "bob   ")] := by decide +kernel

theorem cut_rowFile : RowFile demoHeader (Demo.filePages.take 1) Demo.filePages[1]? [] Demo.fileSubs
    .none := rowFile_intro (kp := Demo.filePages[1]) (by decide +kernel) (by decide +kernel) (by decide +kernel)
      (by decide +kernel)

theorem two_rows : RowsOf .none (rowSizeOf .none Demo.fileSubs).rowLength (fileRows demoHeader Demo.fileSubs .none
    (outlines (Demo.filePages.take 1) Demo.filePages[1]? [])) [Demo.row 0 "ann   ", Demo.row 1 "bob   "] := by
  have e : fileRows demoHeader Demo.fileSubs .none (outlines (Demo.filePages.take 1) Demo.filePages[1]? []) =
    [Demo.row 0 "ann   ", Demo.row 1 "bob   "] := by decide +kernel
  rw [e]
  refine ⟨rfl, fun i raw row h1 h2 => ?_⟩
  rw [h1] at h2
  cases h2
  apply RowOf.plain
  have : ∀ r ∈ [Demo.row 0 "ann   ", Demo.row 1 "bob   "],
    (rowSizeOf .none Demo.fileSubs).rowLength ≤ r.length := by decide +kernel
  exact this _ (List.mem_of_getElem? h1)

example : (∃ R, openReader Demo.cfg ifs 10 none (IFStream.open cutFile) = .ok R ∧
    (R.step ifs .readAll).1 = .ok .unit) := by
  refine ⟨_, Demo.get_ok (by decide +kernel), ?_⟩
  refine (C27_truncated Demo.cfg demoHeader (Demo.header 900 4) demoHeader_layout (Demo.filePages.take 1)
    Demo.filePages[1]? [] Demo.fileSubs .none 10 none Demo.file_meta cut_rowFile (by decide +kernel)
    ((Demo.page 900 256 1 [] [(24, Demo.row 2 "cy    ")]).take 500) (by decide +kernel) (by decide +kernel)
    (fun h => by cases h) (by decide) (fun _ => rfl) [Demo.row 0 "ann   ", Demo.row 1 "bob   "] ?_ _ ?_).1
  · rw [List.take_of_length_le (by decide +kernel)]
    exact two_rows
  · have e : Demo.header 900 4 ++ (((outlines (Demo.filePages.take 1) Demo.filePages[1]? []).map (·.1)).flatten ++
      (Demo.page 900 256 1 [] [(24, Demo.row 2 "cy    ")]).take 500) = cutFile := by decide +kernel
    rw [e]
    exact Demo.get_ok (by decide +kernel)

/-- `file` on a disk that fails within its third page. -/
def failing : IFStream :=
  { IFStream.open (Demo.fileWith [] ((Demo.page 900 256 1 [] [(24, Demo.row 2 "cy    ")]))) with
    fault := some (288 + ((Demo.filePages.take 2).map (fun x => x.1) ++ ([] : List (List Byte))).flatten.length + 500) }

theorem failing_wellFormed : WellFormed Demo.cfg ifs failing demoHeader (Demo.filePages.take 1)
    Demo.filePages[1]? [] .ioError Demo.fileSubs .none 10 :=
  Demo.fileWith_wellFormed_fault (tail := []) (part := Demo.page 900 256 1 [] [(24, Demo.row 2 "cy    ")])
    (fun _ h => nomatch h) 500 (by decide) (by decide +kernel)

example : ∃ R, openReader Demo.cfg ifs 10 none failing = .ok R ∧
    (R.step ifs .readAll).1 = .error (.exn .cannotReadPage) := by
  refine ⟨_, Demo.get_ok (by decide +kernel), ?_⟩
  exact (C27_failed Demo.cfg ifs failing demoHeader (Demo.filePages.take 1) Demo.filePages[1]? [] Demo.fileSubs .none
    10 none failing_wellFormed cut_rowFile (by decide)
    (by decide +kernel) _ two_rows _ (Demo.get_ok (by decide +kernel))).1

/-! ## C47: where the rows of a page are -/

/-- An uncompressed page holds these rows: they follow each other, on a data page right after the page
header, on a mixed page after the subheader pointers at the next multiple of 8. Other pages hold none. -/
inductive HoldsRows (f : Format) (r : RowSize) : List Byte × PageOutline → List (List Byte) → Prop
  | data (head rest : List Byte) (rows : List (List Byte)) (ptrs : List PageSub)
      (hh : head.length = pageHead f + 8) (hr : ∀ row ∈ rows, row.length = r.rowLength) :
      HoldsRows f r (head ++ (rows.flatten ++ rest), ⟨256, rows.length, ptrs⟩) rows
  | mix (head rest : List Byte) (rows : List (List Byte)) (type blocks : Nat) (ptrs : List PageSub)
      (ht : type = 512 ∨ type = 640) (h8 : head.length % 8 = 0)
      (h1 : pageHead f + 8 + ptrs.length * (3 * word f) ≤ head.length)
      (h2 : head.length < pageHead f + 8 + ptrs.length * (3 * word f) + 8)
      (hn : rows.length = min r.rowCount r.mixCount) (hr : ∀ row ∈ rows, row.length = r.rowLength) :
      HoldsRows f r (head ++ (rows.flatten ++ rest), ⟨type, blocks, ptrs⟩) rows
  | other (page : List Byte) (type blocks : Nat) (ptrs : List PageSub)
      (ht : type ≠ 256 ∧ type ≠ 512 ∧ type ≠ 640) :
      HoldsRows f r (page, ⟨type, blocks, ptrs⟩) []

theorem slices_flatten (n : Nat) : ∀ (rows : List (List Byte)) (head rest : List Byte),
    (∀ row ∈ rows, row.length = n) →
    (List.range rows.length).map (fun i => slice (head ++ (rows.flatten ++ rest)) (head.length + i * n) n) =
      rows := by
  intro rows
  induction rows with
  | nil => intros; rfl
  | cons row rows ih =>
    intro head rest hr
    rw [List.length_cons, List.range_succ_eq_map, List.map_cons, List.map_map]
    have hrow := hr row List.mem_cons_self
    congr 1
    · simp only [Nat.zero_mul, Nat.add_zero, slice, List.flatten_cons, List.append_assoc]
      rw [List.drop_left, ← hrow, List.take_left]
    · have := ih (head ++ row) rest (fun r h => hr r (List.mem_cons_of_mem _ h))
      rw [List.length_append, hrow] at this
      refine Eq.trans ?_ this
      apply List.map_congr_left
      intro i _
      simp only [Function.comp, List.flatten_cons, List.append_assoc]
      congr 1
      rw [Nat.succ_mul]; omega

theorem HoldsRows.stored {f : Format} {r : RowSize} {po : List Byte × PageOutline} {rows : List (List Byte)}
    (h : HoldsRows f r po rows) : storedRows f false r po = rows := by
  cases h with
  | data head rest rows ptrs hh hr =>
    unfold storedRows rowsAt
    simp only [show ¬ (256 = 0) by decide, if_false, if_true, List.map_map]
    rw [← hh]
    exact slices_flatten r.rowLength rows head rest hr
  | mix head rest rows type blocks ptrs ht h8 h1 h2 hn hr =>
    have hro : roundUp8 (pageHead f + 8 + ptrs.length * (3 * word f)) = head.length := by
      unfold roundUp8; omega
    unfold storedRows rowsAt
    simp only [show ¬ (type = 0) by omega, show ¬ (type = 256) by omega, if_pos ht, if_false, List.map_map, hro]
    rw [← hn]
    exact slices_flatten r.rowLength rows head rest hr
  | other page type blocks ptrs ht =>
    unfold storedRows rowsAt
    simp [ht]

/-- The rows of several pages. -/
inductive HoldAll (f : Format) (r : RowSize) : List (List Byte × PageOutline) → List (List Byte) → Prop
  | nil : HoldAll f r [] []
  | cons {po : List Byte × PageOutline} {pos : List (List Byte × PageOutline)} {rows more : List (List Byte)}
      (h : HoldsRows f r po rows) (hs : HoldAll f r pos more) : HoldAll f r (po :: pos) (rows ++ more)

theorem HoldAll.stored {f : Format} {r : RowSize} {pos : List (List Byte × PageOutline)}
    {rows : List (List Byte)} (h : HoldAll f r pos rows) : pos.flatMap (storedRows f false r) = rows := by
  induction h with
  | nil => rfl
  | cons h _ ih => rw [List.flatMap_cons, h.stored, ih]

/-- C47. In an uncompressed file whose pages hold these rows, one after the other from the stated offset
on, exactly these rows are delivered. -/
theorem C47_rows (cfg : Cfg) (S : Source σ) (s : σ) (h : FileHeader)
    (pre : List (List Byte × PageContent)) (k : Option (List Byte × PageContent))
    (tail : List (List Byte × PageOutline)) (en : Ending) (all : List Sub) (fuel : Nat)
    (filter : Option Filter) (hw : WellFormed cfg S s h pre k (tail.map (·.1)) en all .none fuel)
    (hrf : RowFile h pre k tail all .none) (hfuel : tail.length < fuel) (rows : List (List Byte))
    (hrows : HoldAll h.fmt (rowSizeOf .none all) (outlines pre k tail) rows)
    (hen : en = .endOfFile ∨ (rowSizeOf .none all).rowCount ≤ rows.length)
    (R : Reader σ) (hR : openReader cfg S fuel filter s = .ok R) :
    (R.step S .readAll).1 = .ok .unit ∧
    ∃ rws : List Row, rws.map Row.bytes = rows.take (rowSizeOf .none all).rowCount ∧
      (R.step S .readAll).2.trace = .setProperties R.props :: pushEvents 0 rws ++ [.endOfData] := by
  have e : fileRows h all .none (outlines pre k tail) = rows := hrows.stored
  have := C01_uncompressed cfg S s h pre k tail en all fuel filter hw hrf hfuel (by rw [e]; exact hen) R hR
  rwa [e] at this

example : HoldsRows .bit32 ⟨14, 3, 2, 0, 0, 0, 4⟩
    (Demo.page 900 256 2 [] [(24, Demo.row 0 "ann   " ++ Demo.row 1 "bob   ")], ⟨256, 2, []⟩)
    [Demo.row 0 "ann   ", Demo.row 1 "bob   "] := by
  have := HoldsRows.data (f := .bit32) (r := ⟨14, 3, 2, 0, 0, 0, 4⟩)
    ((Demo.page 900 256 2 [] [(24, Demo.row 0 "ann   " ++ Demo.row 1 "bob   ")]).take 24)
    ((Demo.page 900 256 2 [] [(24, Demo.row 0 "ann   " ++ Demo.row 1 "bob   ")]).drop 52)
    [Demo.row 0 "ann   ", Demo.row 1 "bob   "] [] (by decide +kernel) (by decide +kernel)
  have e : (Demo.page 900 256 2 [] [(24, Demo.row 0 "ann   " ++ Demo.row 1 "bob   ")]).take 24 ++
    ([Demo.row 0 "ann   ", Demo.row 1 "bob   "].flatten ++
     (Demo.page 900 256 2 [] [(24, Demo.row 0 "ann   " ++ Demo.row 1 "bob   ")]).drop 52) =
    Demo.page 900 256 2 [] [(24, Demo.row 0 "ann   " ++ Demo.row 1 "bob   ")] := by decide +kernel
  rw [e] at this
  exact this

/-! ## C28: pages without rows -/

/-- C28, as far as it holds: when the first page with rows announces none, it contributes none, and the
rows of the following pages are delivered. Missing: a page that announces no rows after it, see
`C28_refuted`. -/
theorem C28_first_partial (cfg : Cfg) (S : Source σ) (s : σ) (h : FileHeader)
    (pre : List (List Byte × PageContent)) (kp : List Byte × PageContent)
    (tail : List (List Byte × PageOutline)) (en : Ending) (all : List Sub) (fuel : Nat)
    (filter : Option Filter) (hw : WellFormed cfg S s h pre (some kp) (tail.map (·.1)) en all .none fuel)
    (hrf : RowFile h pre (some kp) tail all .none) (hfuel : tail.length < fuel)
    (hzero : kp.2.type = 256 ∧ kp.2.blocks = 0 ∨
      (kp.2.type = 512 ∨ kp.2.type = 640) ∧ (rowSizeOf .none all).mixCount = 0)
    (hen : en = .endOfFile ∨ (rowSizeOf .none all).rowCount ≤ (fileRows h all .none tail).length)
    (R : Reader σ) (hR : openReader cfg S fuel filter s = .ok R) :
    (R.step S .readAll).1 = .ok .unit ∧
    ∃ rws : List Row,
      rws.map Row.bytes = (fileRows h all .none tail).take (rowSizeOf .none all).rowCount ∧
      (R.step S .readAll).2.trace = .setProperties R.props :: pushEvents 0 rws ++ [.endOfData] := by
  have hpre : pre.flatMap (fun pc => storedRows h.fmt false (rowSizeOf .none all) (pc.1, pc.2.outline)) = [] := by
    rw [List.flatMap_eq_nil_iff]
    intro pc hpc
    exact stored_pre (c := .none) (hrf.pointers pc (by simp [hpc])) (hw.fileMeta.pre_is pc hpc).2 _ _
  have hk : storedRows h.fmt false (rowSizeOf .none all) (kp.1, kp.2.outline) = [] := by
    unfold storedRows rowsAt PageContent.outline
    rcases hzero with ⟨h1, h2⟩ | ⟨h1, h2⟩
    · simp [h1, h2]
    · simp only [show ¬ (kp.2.type = 0) by omega, show ¬ (kp.2.type = 256) by omega, if_pos h1, if_false, h2]
      simp
  have e : fileRows h all .none (outlines pre (some kp) tail) = fileRows h all .none tail := by
    unfold fileRows outlines
    simp only [show decide (Compression.none ≠ .none) = false from rfl, Option.toList_some, List.map_append,
      List.map_cons, List.map_nil, List.flatMap_append, List.flatMap_map, List.flatMap_cons, List.flatMap_nil]
    rw [hpre, hk]
    simp
  have := C01_uncompressed cfg S s h pre (some kp) tail en all fuel filter hw hrf hfuel (by rw [e]; exact hen) R hR
  rwa [e] at this

/-- A file with a data page of two rows, a data page that announces none, and a data page of one row. -/
def gapFile : List Byte :=
  Demo.fileWith [Demo.page 900 256 0 [] [], Demo.page 900 256 1 [] [(24, Demo.row 2 "cy    ")]] []

/-- C28 is refuted: the page that announces no rows contributes a row (whatever bytes are where its first
row would be), in place of the row of the next page. -/
theorem C28_refuted :
    (∀ po ∈ [(Demo.page 900 256 0 [] [], (⟨256, 0, []⟩ : PageOutline)),
        (Demo.page 900 256 1 [] [(24, Demo.row 2 "cy    ")], ⟨256, 1, []⟩)],
      RowPage .little .bit32 false (rowSizeOf .none Demo.fileSubs) po) ∧
    fileRows demoHeader Demo.fileSubs .none (outlines (Demo.filePages.take 1) Demo.filePages[1]?
      [(Demo.page 900 256 0 [] [], ⟨256, 0, []⟩),
       (Demo.page 900 256 1 [] [(24, Demo.row 2 "cy    ")], ⟨256, 1, []⟩)]) = Demo.rows ∧
    WellFormed Demo.cfg ifs (IFStream.open gapFile) demoHeader (Demo.filePages.take 1) Demo.filePages[1]?
      [Demo.page 900 256 0 [] [], Demo.page 900 256 1 [] [(24, Demo.row 2 "cy    ")]] .endOfFile Demo.fileSubs
      .none 10 ∧
    ∃ R, openReader Demo.cfg ifs 10 none (IFStream.open gapFile) = .ok R ∧
      (R.step ifs .readAll).1 = .ok .unit ∧
      Demo.pushed (R.step ifs .readAll).2 =
        [(0, Demo.row 0 "ann   "), (1, Demo.row 1 "bob   "), (2, List.replicate 14 0)] :=
  ⟨by decide +kernel, by decide +kernel, Demo.fileWith_wellFormed (by decide +kernel) (by decide +kernel),
    _, Demo.get_ok (by decide +kernel), by decide +kernel, by decide +kernel⟩

/-! ## C50: the kind of a page -/

/-- Does a page of this type contribute rows? -/
def contributes (type : Nat) : Bool := type = 0 ∨ type = 256 ∨ type = 512 ∨ type = 640

/-- C50, rows. The rows delivered are those of the meta, data and mixed pages, whatever other pages are in
between. Missing: a compressed file whose first row pointers are on a page that is not a meta page, see
`C50_refuted`. -/
theorem C50_rows_partial (cfg : Cfg) (S : Source σ) (s : σ) (h : FileHeader)
    (pre : List (List Byte × PageContent)) (k : Option (List Byte × PageContent))
    (tail : List (List Byte × PageOutline)) (en : Ending) (all : List Sub) (c : Compression) (fuel : Nat)
    (filter : Option Filter) (hw : WellFormed cfg S s h pre k (tail.map (·.1)) en all c fuel)
    (hrf : RowFile h pre k tail all c) (hfuel : tail.length < fuel)
    (pages : List (List Byte × PageOutline))
    (hpages : pages = (outlines pre k tail).filter fun po => contributes po.2.type)
    (hen : en = .endOfFile ∨ (rowSizeOf .none all).rowCount ≤ (fileRows h all c pages).length)
    (rows : List (List Byte))
    (hrows : RowsOf c (rowSizeOf .none all).rowLength
      ((fileRows h all c pages).take (rowSizeOf .none all).rowCount) rows)
    (R : Reader σ) (hR : openReader cfg S fuel filter s = .ok R) :
    (R.step S .readAll).1 = .ok .unit ∧
    ∃ rws : List Row, rws.map Row.bytes = rows ∧
      (R.step S .readAll).2.trace = .setProperties R.props :: pushEvents 0 rws ++ [.endOfData] := by
  have key : ∀ l : List (List Byte × PageOutline),
      fileRows h all c (l.filter fun po => contributes po.2.type) = fileRows h all c l := by
    intro l
    unfold fileRows
    induction l with
    | nil => rfl
    | cons po l ih =>
      rw [List.filter_cons, List.flatMap_cons]
      split
      · rw [List.flatMap_cons, ih]
      · rename_i hn
        rw [ih]
        have : storedRows h.fmt (decide (c ≠ .none)) (rowSizeOf .none all) po = [] := by
          simp only [contributes, Bool.not_eq_true, decide_eq_false_iff_not, not_or] at hn
          unfold storedRows rowsAt
          simp only [hn, if_false, or_self, List.map_nil]
        rw [this, List.nil_append]
  rw [hpages, key] at hrows hen
  exact C01_rows cfg S s h pre k tail en all c fuel filter hw hrf hfuel hen rows hrows R hR

/-- `file` has a page of type 16384 between its data pages. -/
example : (outlines (Demo.filePages.take 1) Demo.filePages[1]? fileTail).map (·.2.type) = [0, 256, 16384, 256] ∧
    ((outlines (Demo.filePages.take 1) Demo.filePages[1]? fileTail).filter fun po =>
      contributes po.2.type).map (·.2.type) = [0, 256, 256] := by decide +kernel

/-- `rleFile` with its first page marked as an amd page (1024). -/
def amdFile : List Byte :=
  Demo.header 900 2 ++
  Demo.metaPage 1024 14 1 0 (ascii "SASYZCRL") [(150, 9, 4, 1)] [(150, Demo.rleRow0)]

/-- C50 is refuted: an amd page contributes a row when it is the first page with row pointers of a
compressed file; the same page after the first one does not. -/
theorem C50_refuted :
    (∃ R, openReader Demo.cfg ifs 10 none (IFStream.open amdFile) = .ok R ∧
      (R.step ifs .readAll).1 = .ok .unit ∧
      Demo.pushed (R.step ifs .readAll).2 = [(0, Demo.row 0 "ann   ")]) ∧
    (∃ R, openReader Demo.cfg ifs 10 none (IFStream.open (Demo.header 900 2 ++
        Demo.metaPage 0 14 3 0 (ascii "SASYZCRL") [(150, 9, 4, 1)] [(150, Demo.rleRow0)] ++
        Demo.metaPage 1024 14 3 0 (ascii "SASYZCRL") [(150, 9, 4, 1)] [(150, Demo.rleRow0)])) = .ok R ∧
      (R.step ifs .readAll).1 = .ok .unit ∧
      Demo.pushed (R.step ifs .readAll).2 = [(0, Demo.row 0 "ann   ")]) :=
  ⟨⟨_, Demo.get_ok (by decide +kernel), by decide +kernel, by decide +kernel⟩,
   ⟨_, Demo.get_ok (by decide +kernel), by decide +kernel, by decide +kernel⟩⟩

/-! ## C46: the rows of the first page of a compressed file -/

/-- C46, as far as it holds: the rows of the page on which the metadata ends are all delivered, before
those of the following pages, when none of them starts like a metadata subheader (`RowPointers`).
Missing: rows that do, see `C46_refuted`. -/
theorem C46_rows_partial (cfg : Cfg) (S : Source σ) (s : σ) (h : FileHeader)
    (pre : List (List Byte × PageContent)) (kp : List Byte × PageContent)
    (tail : List (List Byte × PageOutline)) (en : Ending) (all : List Sub) (c : Compression) (fuel : Nat)
    (filter : Option Filter) (hw : WellFormed cfg S s h pre (some kp) (tail.map (·.1)) en all c fuel)
    (hrf : RowFile h pre (some kp) tail all c) (hfuel : tail.length < fuel) (hc : c ≠ .none)
    (ht : kp.2.type = 0) (first more rows : List (List Byte))
    (hfirst : first = (kp.2.subs.filter fun ps => live ps.1 && rowPtr ps.1).map fun ps =>
      slice kp.1 ps.1.offset ps.1.length)
    (hmore : more = fileRows h all c tail)
    (hen : en = .endOfFile ∨ (rowSizeOf .none all).rowCount ≤ (first ++ more).length)
    (hrows : RowsOf c (rowSizeOf .none all).rowLength
      ((first ++ more).take (rowSizeOf .none all).rowCount) rows)
    (R : Reader σ) (hR : openReader cfg S fuel filter s = .ok R) :
    (R.step S .readAll).1 = .ok .unit ∧
    ∃ rws : List Row, rws.map Row.bytes = rows ∧
      (R.step S .readAll).2.trace = .setProperties R.props :: pushEvents 0 rws ++ [.endOfData] := by
  have hpre : pre.flatMap (fun pc => storedRows h.fmt (decide (c ≠ .none)) (rowSizeOf .none all)
      (pc.1, pc.2.outline)) = [] := by
    rw [List.flatMap_eq_nil_iff]
    intro pc hpc
    exact stored_pre (hrf.pointers pc (by simp [hpc])) (hw.fileMeta.pre_is pc hpc).2 _ _
  have hk : storedRows h.fmt (decide (c ≠ .none)) (rowSizeOf .none all) (kp.1, kp.2.outline) = first := by
    unfold storedRows rowsAt PageContent.outline
    simp only [ht, if_true, decide_eq_true hc, hfirst, List.map_map]
    induction kp.2.subs with
    | nil => rfl
    | cons ps l ih =>
      rw [List.map_cons]
      cases h1 : live ps.1 <;> cases h2 : rowPtr ps.1 <;> simp_all
  have e : fileRows h all c (outlines pre (some kp) tail) = first ++ more := by
    rw [hmore]
    unfold fileRows outlines
    simp only [Option.toList_some, List.map_append,
      List.map_cons, List.map_nil, List.flatMap_append, List.flatMap_map, List.flatMap_cons, List.flatMap_nil]
    rw [hpre, hk]
    simp
  exact C01_rows cfg S s h pre (some kp) tail en all c fuel filter hw hrf hfuel (by rw [e]; exact hen) rows
    (by rw [e]; exact hrows) R hR

/-- `packFile` meets the hypotheses: its first page has one row pointer. -/
example : ∃ R, openReader Demo.cfg ifs 10 none (IFStream.open Demo.packFile) = .ok R ∧
    (R.step ifs .readAll).1 = .ok .unit := by
  refine ⟨_, Demo.get_ok (by decide +kernel), ?_⟩
  refine (C46_rows_partial Demo.cfg ifs _ Demo.rleHeader [] Demo.packPages[0] packTail .endOfFile
    Demo.packSubs .rle 10 none Demo.pack_wellFormed pack_rowFile (by decide) (by decide) rfl
    [Demo.packRow0] [Demo.packRow2] [Demo.row 0 "ann   ", Demo.row 2 "cy    "] (by decide +kernel)
    (by decide +kernel) (.inl rfl) ?_ _ (Demo.get_ok (by decide +kernel))).1
  rw [show (rowSizeOf .none Demo.packSubs).rowCount = 2 by decide +kernel,
    show (rowSizeOf .none Demo.packSubs).rowLength = 14 by decide +kernel]
  exact ⟨rfl, fun i raw row h1 h2 => (pack_rows i raw row h1 h2).rowOf (by decide)⟩

/-- 67 zero bytes and "Hello, world!", RLE-compressed. Its first four bytes are those of a column-list
subheader. -/
def clashRow : List Byte := [0xFE, 0xFF, 0xFF, 0xFF, 0x8C] ++ ascii "Hello, world!"

/-- An RLE-compressed file of two rows, the first of which is `clashRow`. -/
def clashFile : List Byte :=
  Demo.header 900 1 ++
  Demo.metaPage 0 80 2 0 (ascii "SASYZCRL") [(150, 18, 4, 1), (170, 18, 4, 1)]
    [(150, clashRow), (170, [0xFD, 0xFE, 0xFF, 0xFF, 0x8D] ++ ascii "Hello, world!")]

/-- C46 is refuted: the row is a well-formed compressed row with a row pointer of its own, yet it is taken
for a subheader and lost; the other row is delivered as row 0. -/
theorem C46_refuted :
    rle clashRow (List.replicate 80 0) =
      (.ok (List.replicate 67 0 ++ ascii "Hello, world!"),
       List.replicate 67 0 ++ ascii "Hello, world!") ∧
    (∃ R, openReader Demo.cfg ifs 10 none (IFStream.open clashFile) = .ok R ∧
      R.props.md.rowCount = 2 ∧
      (R.step ifs .readAll).1 = .ok .unit ∧
      ((Demo.pushed (R.step ifs .readAll).2).map (·.1)) = [0]) :=
  ⟨by decide +kernel, _, Demo.get_ok (by decide +kernel), by decide +kernel, by decide +kernel, by decide +kernel⟩

end Sas.Props
