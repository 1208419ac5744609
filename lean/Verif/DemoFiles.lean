import Verif.Demo
import Verif.Spec.Columns
import Verif.Proofs.Files
import Verif.Proofs.Open
import Verif.Props.Header

/-!
# The demonstration files are well-formed

The layout predicates of Spec/File.lean are decidable, which lets the kernel check them on the files of
Demo.lean.
-/

namespace Sas.Demo

open Sas Spec Props

theorem forall_getElem? {α : Type} {l : List α} {P : Nat → α → Prop} :
    (∀ i a, l[i]? = some a → P i a) ↔ ∀ x ∈ l.zipIdx, P x.2 x.1 := by
  constructor
  · intro h x hx
    exact h x.2 x.1 (List.mem_zipIdx_iff_getElem?.mp hx)
  · intro h i a ha
    exact h (a, i) (List.mem_zipIdx_iff_getElem?.mpr ha)

instance {e : Endian} {f : Format} {page : List Byte} {o : Nat} {p : PageSub} :
    Decidable (PtrAt e f page o p) :=
  decidable_of_iff (slice page o (word f) = encode e (word f) p.offset ∧
    slice page (o + word f) (word f) = encode e (word f) p.length ∧
    page[o + 2 * word f]? = some p.comp ∧ page[o + 2 * word f + 1]? = some p.type ∧
    o + 3 * word f ≤ page.length ∧ p.offset + p.length ≤ page.length)
    ⟨fun ⟨a, b, c, d, e, f⟩ => ⟨a, b, c, d, e, f⟩, fun ⟨a, b, c, d, e, f⟩ => ⟨a, b, c, d, e, f⟩⟩

instance {α : Type} {l : List α} {P : Nat → α → Prop} [∀ i a, Decidable (P i a)] :
    Decidable (∀ i a, l[i]? = some a → P i a) := decidable_of_iff _ forall_getElem?.symm

instance {e : Endian} {f : Format} {page : List Byte} {type blocks : Nat} {ptrs : List PageSub} :
    Decidable (PageLayout e f page type blocks ptrs) :=
  decidable_of_iff (slice page (pageHead f) 2 = encode e 2 type ∧
    slice page (pageHead f + 2) 2 = encode e 2 blocks ∧
    slice page (pageHead f + 4) 2 = encode e 2 ptrs.length ∧
    (type < 2 ^ 16 ∧ blocks < 2 ^ 16 ∧ ptrs.length < 2 ^ 16) ∧
    pageHead f + 6 ≤ page.length ∧ page.length < 2 ^ 32 ∧
    (hasMeta type = true → ∀ i p, ptrs[i]? = some p → PtrAt e f page (pageHead f + 8 + i * (3 * word f)) p))
    ⟨fun ⟨a, b, c, d, e, f, g⟩ => ⟨a, b, c, d, e, f, g⟩, fun ⟨a, b, c, d, e, f, g⟩ => ⟨a, b, c, d, e, f, g⟩⟩

instance {e : Endian} {page : List Byte} {o : Nat} {r : TextRef} : Decidable (RefAt e page o r) :=
  decidable_of_iff (slice page o 2 = encode e 2 r.text ∧ slice page (o + 2) 2 = encode e 2 r.offset ∧
    slice page (o + 4) 2 = encode e 2 r.length ∧ o + 6 ≤ page.length ∧
    (r.text < 2 ^ 16 ∧ r.offset < 2 ^ 16 ∧ r.length < 2 ^ 16))
    ⟨fun ⟨a, b, c, d, e⟩ => ⟨a, b, c, d, e⟩, fun ⟨a, b, c, d, e⟩ => ⟨a, b, c, d, e⟩⟩

instance {e : Endian} {f : Format} {page : List Byte} {o : Nat} {a : Attr} : Decidable (AttrAt e f page o a) :=
  decidable_of_iff (slice page o (word f) = encode e (word f) a.offset ∧
    slice page (o + word f) 4 = encode e 4 a.length ∧
    (page[o + word f + 6]?).any (fun t => decide (t = 1 ↔ a.numeric = true)) = true ∧
    (a.offset < 256 ^ word f ∧ a.length < 2 ^ 32))
    (by
      have h : (page[o + word f + 6]?).any (fun t => decide (t = 1 ↔ a.numeric = true)) = true ↔
          ∃ t, page[o + word f + 6]? = some t ∧ (t = 1 ↔ a.numeric = true) := by
        cases page[o + word f + 6]? <;> simp only [Option.any_none, Option.any_some, decide_eq_true_eq, Bool.false_eq_true, reduceCtorEq, false_and, exists_false, Option.some.injEq, exists_eq_left']
      rw [h]
      exact ⟨fun ⟨a, b, c, d⟩ => ⟨a, b, c, d⟩, fun ⟨a, b, c, d⟩ => ⟨a, b, c, d⟩⟩)

instance {e : Endian} {f : Format} {page : List Byte} {o : Nat} {r : RowSize} :
    Decidable (RowSizeAt e f page o r) :=
  decidable_of_iff (slice page (o + 5 * word f) (word f) = encode e (word f) r.rowLength ∧
    slice page (o + 6 * word f) (word f) = encode e (word f) r.rowCount ∧
    slice page (o + 9 * word f) (word f) = encode e (word f) r.p1 ∧
    slice page (o + 10 * word f) (word f) = encode e (word f) r.p2 ∧
    slice page (o + 15 * word f) (word f) = encode e (word f) r.mixCount ∧
    slice page (o + lcsAt f) 2 = encode e 2 r.lcs ∧ slice page (o + lcsAt f + 24) 2 = encode e 2 r.lcp ∧
    o + lcsAt f + 28 ≤ page.length ∧
    (r.rowLength < 256 ^ word f ∧ r.rowCount < 256 ^ word f ∧ r.p1 < 256 ^ word f ∧
      r.p2 < 256 ^ word f ∧ r.mixCount < 256 ^ word f ∧ r.lcs < 2 ^ 16 ∧ r.lcp < 2 ^ 16))
    ⟨fun ⟨a, b, c, d, e, f, g, h, i⟩ => ⟨a, b, c, d, e, f, g, h, i⟩,
     fun ⟨a, b, c, d, e, f, g, h, i⟩ => ⟨a, b, c, d, e, f, g, h, i⟩⟩

/-- All signatures. -/
def sigs : List Sig :=
  [.rowSize, .columnSize, .counts, .columnText, .columnNames, .columnAttrs, .formatLabel, .columnList]

instance {P : Endian → Sig → Prop} [∀ e s, Decidable (P e s)] : Decidable (∀ e s, P e s) :=
  decidable_of_iff (∀ s ∈ sigs, P .little s ∧ P .big s) (by
    constructor
    · intro h e s
      have := h s (by cases s <;> decide)
      cases e
      · exact this.1
      · exact this.2
    · intro h s _
      exact ⟨h _ _, h _ _⟩)

instance {e : Endian} {f : Format} {page : List Byte} {p : PageSub} (s : Sub) :
    Decidable (SubLayout e f page p s) := by
  cases s <;> unfold SubLayout <;> infer_instance

instance {e : Endian} {f : Format} {page : List Byte} {c : PageContent} : Decidable (PageIs e f page c) :=
  decidable_of_iff (PageLayout e f page c.type c.blocks (c.subs.map (·.1)) ∧
    (hasMeta c.type = true → ∀ ps ∈ c.subs, live ps.1 = true → SubLayout e f page ps.1 ps.2))
    ⟨fun ⟨a, b⟩ => ⟨a, b⟩, fun ⟨a, b⟩ => ⟨a, b⟩⟩

instance {subs : List Sub} : Decidable (RoomForCreator subs) :=
  decidable_of_iff ((texts subs).head?.all (fun t => decide (36 ≤ t.length) && subs.all (fun s =>
    match s with
    | .rowSize r => decide (36 + r.lcp ≤ t.length ∧ 12 + r.lcs ≤ t.length)
    | _ => true)) = true) (by
    unfold RoomForCreator
    cases (texts subs).head? with
    | none => simp
    | some t =>
      simp only [Option.all_some, Bool.and_eq_true, decide_eq_true_eq, List.all_eq_true, Option.some.injEq]
      constructor
      · rintro ⟨h1, h2⟩ _ rfl
        refine ⟨h1, fun r hr => ?_⟩
        have := h2 _ hr
        simpa using this
      · intro h
        obtain ⟨h1, h2⟩ := h t rfl
        refine ⟨h1, fun s hs => ?_⟩
        cases s with
        | rowSize r => simpa using h2 r hs
        | _ => rfl)

instance {a b : List Byte} : Decidable (a <:+: b) := decidable_of_iff _ (containsSub_iff a b)

/-- The page contents of the metadata page of the demonstration files. -/
def metaContent (type rowLength rowCount mix : Nat) (compression : List Byte)
    (more : List (PageSub × Sub)) : PageContent :=
  ⟨type, 0,
    [(⟨240, 384, 0, 0⟩, .rowSize ⟨rowLength, rowCount, 2, 0, mix, 0, 4⟩),
     (⟨624, 12, 0, 0⟩, .columnSize 2),
     (⟨636, 72, 0, 0⟩, .columnText ((columnText compression).drop 4)),
     (⟨708, 36, 0, 0⟩, .columnNames [⟨0, 36, 2⟩, ⟨0, 40, 4⟩]),
     (⟨744, 44, 0, 0⟩, .columnAttrs [⟨0, 8, true⟩, ⟨8, 6, false⟩]),
     (⟨788, 52, 0, 0⟩, .formatLabel ⟨0, 48, 4⟩ ⟨0, 0, 0⟩),
     (⟨840, 52, 0, 0⟩, .formatLabel ⟨0, 0, 0⟩ ⟨0, 56, 3⟩)] ++ more⟩

/-- The pages of `file`. -/
def filePages : List (List Byte × PageContent) :=
  [(metaPage 0 14 3 0 (ascii "        ") [] [], metaContent 0 14 3 0 (ascii "        ") []),
   (page 900 256 2 [] [(24, row 0 "ann   " ++ row 1 "bob   ")], ⟨256, 2, []⟩),
   (page 900 16384 0 [] [], ⟨16384, 0, []⟩),
   (page 900 256 1 [] [(24, row 2 "cy    ")], ⟨256, 1, []⟩)]

/-- The pages of `rleFile`. -/
def rlePages : List (List Byte × PageContent) :=
  [(metaPage 0 14 3 0 (ascii "SASYZCRL") [(150, 9, 4, 1)] [(150, rleRow0)],
    metaContent 0 14 3 0 (ascii "SASYZCRL") [(⟨150, 9, 4, 1⟩, .row)]),
   (page 900 0 0 [(200, 3, 4, 1), (210, 8, 4, 1)] [(200, rleBad), (210, rleRow2)],
    ⟨0, 0, [(⟨200, 3, 4, 1⟩, .row), (⟨210, 8, 4, 1⟩, .row)]⟩)]

theorem filePages_is : ∀ pc ∈ filePages, PageIs .little .bit32 pc.1 pc.2 := by decide +kernel

theorem rlePages_is : ∀ pc ∈ rlePages, PageIs .little .bit32 pc.1 pc.2 := by decide +kernel

/-- The subheaders of `file`. -/
def fileSubs : List Sub := (metaContent 0 14 3 0 (ascii "        ") []).subs.map (·.2)

/-- The subheaders of `rleFile` on its first page. -/
def rleSubs : List Sub := (metaContent 0 14 3 0 (ascii "SASYZCRL") [(⟨150, 9, 4, 1⟩, .row)]).subs.map (·.2)

theorem file_eq : file = header 900 4 ++ ((filePages.map (·.1)).flatten ++ []) := by decide +kernel

theorem rleFile_eq : rleFile = header 900 2 ++ ((rlePages.map (·.1)).flatten ++ []) := by decide +kernel

/-- The header of `rleFile`. -/
def rleHeader : FileHeader := { demoHeader with pageCount := 2 }

theorem rleHeader_layout : HeaderLayout rleHeader (Demo.header 900 2) where
  length := by decide +kernel
  long := by decide +kernel
  magic := by decide +kernel
  wide := by decide +kernel
  padded := by decide +kernel
  endian := by decide +kernel
  unix := by decide +kernel
  windows := by decide +kernel
  encoding := by decide +kernel
  datasetName := TextField.intro (List.replicate 60 0) (by decide +kernel) (by decide +kernel)
    (by decide +kernel) (by decide +kernel)
  fileType := TextField.intro (List.replicate 4 0) (by decide +kernel) (by decide +kernel)
    (by decide +kernel) (by decide +kernel)
  created := by decide +kernel
  modified := by decide +kernel
  headerLength := by decide +kernel
  pageLength := by decide +kernel
  pageCount := by decide +kernel
  sasRelease := TextField.intro [] (by decide +kernel) (by decide +kernel)
    (by decide +kernel) (by decide +kernel)
  serverType := TextField.intro (List.replicate 6 0) (by decide +kernel) (by decide +kernel)
    (by decide +kernel) (by decide +kernel)
  osType := TextField.intro (List.replicate 16 0) (by decide +kernel) (by decide +kernel)
    (by decide +kernel) (by decide +kernel)
  osName := TextField.intro (List.replicate 11 0) (by decide +kernel) (by decide +kernel)
    (by decide +kernel) (by decide +kernel)
  stamps := ⟨stamp_zero, stamp_zero⟩
  sizes := by decide +kernel

theorem file_meta : FileMeta demoHeader (filePages.take 1) filePages[1]? fileSubs .none where
  all_eq := by decide +kernel
  compression := by
    have h : (texts fileSubs).head? = some ((columnText (ascii "        ")).drop 4) := by decide +kernel
    refine ⟨?_, ?_⟩ <;> rw [h] <;> simp only [Option.some.injEq, exists_eq_left'] <;> decide +kernel
  room := by decide +kernel
  rows := by decide +kernel
  pre_is := fun pc hpc => ⟨filePages_is pc (List.mem_of_mem_take hpc), by
    revert pc; decide +kernel⟩
  k_is := fun pc hpc => ⟨filePages_is pc (List.mem_of_getElem? hpc), by
    have : pc = (page 900 256 2 [] [(24, row 0 "ann   " ++ row 1 "bob   ")], ⟨256, 2, []⟩) := by
      simp [filePages] at hpc; exact hpc.symm
    subst this; decide +kernel⟩

theorem rle_meta : FileMeta rleHeader [] rlePages[0]? rleSubs .rle where
  all_eq := by decide +kernel
  compression := by
    have h : (texts rleSubs).head? = some ((columnText (ascii "SASYZCRL")).drop 4) := by decide +kernel
    refine ⟨?_, ?_⟩ <;> rw [h] <;> simp only [Option.some.injEq, exists_eq_left'] <;> decide +kernel
  room := by decide +kernel
  rows := by decide +kernel
  pre_is := by simp
  k_is := fun pc hpc => ⟨rlePages_is pc (List.mem_of_getElem? hpc), by
    have : pc = (metaPage 0 14 3 0 (ascii "SASYZCRL") [(150, 9, 4, 1)] [(150, rleRow0)],
        metaContent 0 14 3 0 (ascii "SASYZCRL") [(⟨150, 9, 4, 1⟩, .row)]) := by
      simp [rlePages] at hpc; exact hpc.symm
    subst this; decide +kernel⟩

theorem file_wellFormed : WellFormed cfg ifs (IFStream.open file) demoHeader (filePages.take 1)
    filePages[1]? ((filePages.drop 2).map (·.1)) .endOfFile fileSubs .none 10 where
  presents := by
    have h := ifs_presents demoHeader_layout (filePages.map (·.1)) (by decide +kernel) [] (by decide +kernel)
    rw [← file_eq] at h
    have e : (filePages.take 1).map (·.1) ++ (filePages[1]?.toList.map (·.1) ++ (filePages.drop 2).map (·.1)) =
      filePages.map (·.1) := by decide +kernel
    rw [e]
    exact h
  fileMeta := file_meta
  memory := by decide +kernel
  loggable := fun h => by cases h
  enough := by decide +kernel
  noRows := by decide +kernel

theorem rle_wellFormed : WellFormed cfg ifs (IFStream.open rleFile) rleHeader []
    rlePages[0]? ((rlePages.drop 1).map (·.1)) .endOfFile rleSubs .rle 10 where
  presents := by
    have h := ifs_presents rleHeader_layout (rlePages.map (·.1)) (by decide +kernel) [] (by decide +kernel)
    rw [← rleFile_eq] at h
    have e : ([] : List (List Byte × PageContent)).map (·.1) ++
      (rlePages[0]?.toList.map (·.1) ++ (rlePages.drop 1).map (·.1)) = rlePages.map (·.1) := by decide +kernel
    rw [e]
    exact h
  fileMeta := rle_meta
  memory := by decide +kernel
  loggable := fun h => by cases h
  enough := by decide +kernel
  noRows := by decide +kernel

/-- The row 1.0, "ann   " RLE-compressed: 6 zero bytes, copy 5, 3 times a blank. -/
def packRow0 : List Byte := [0xF4, 0x84, 0xF0, 0x3F] ++ ascii "ann" ++ [0xC0, 0x20]

/-- The row 4.0, "cy    " RLE-compressed. -/
def packRow2 : List Byte := [0xF4, 0x83, 0x10, 0x40] ++ ascii "cy" ++ [0xC1, 0x20]

/-- The pages of an RLE-compressed file of two rows. -/
def packPages : List (List Byte × PageContent) :=
  [(metaPage 0 14 2 0 (ascii "SASYZCRL") [(150, 9, 4, 1)] [(150, packRow0)],
    metaContent 0 14 2 0 (ascii "SASYZCRL") [(⟨150, 9, 4, 1⟩, .row)]),
   (page 900 0 0 [(210, 8, 4, 1)] [(210, packRow2)], ⟨0, 0, [(⟨210, 8, 4, 1⟩, .row)]⟩)]

/-- An RLE-compressed file of two rows. -/
def packFile : List Byte := header 900 2 ++ ((packPages.map (·.1)).flatten ++ [])

theorem packPages_is : ∀ pc ∈ packPages, PageIs .little .bit32 pc.1 pc.2 := by decide +kernel

/-- The subheaders of `packFile` on its first page. -/
def packSubs : List Sub := (metaContent 0 14 2 0 (ascii "SASYZCRL") [(⟨150, 9, 4, 1⟩, .row)]).subs.map (·.2)

theorem pack_meta : FileMeta rleHeader [] packPages[0]? packSubs .rle where
  all_eq := by decide +kernel
  compression := by
    have h : (texts packSubs).head? = some ((columnText (ascii "SASYZCRL")).drop 4) := by decide +kernel
    refine ⟨?_, ?_⟩ <;> rw [h] <;> simp only [Option.some.injEq, exists_eq_left'] <;> decide +kernel
  room := by decide +kernel
  rows := by decide +kernel
  pre_is := by simp
  k_is := fun pc hpc => ⟨packPages_is pc (List.mem_of_getElem? hpc), by
    have : pc = (metaPage 0 14 2 0 (ascii "SASYZCRL") [(150, 9, 4, 1)] [(150, packRow0)],
        metaContent 0 14 2 0 (ascii "SASYZCRL") [(⟨150, 9, 4, 1⟩, .row)]) := by
      simp [packPages] at hpc; exact hpc.symm
    subst this; decide +kernel⟩

theorem pack_wellFormed : WellFormed cfg ifs (IFStream.open packFile) rleHeader []
    packPages[0]? ((packPages.drop 1).map (·.1)) .endOfFile packSubs .rle 10 where
  presents := by
    have h := ifs_presents rleHeader_layout (packPages.map (·.1)) (by decide +kernel) [] (by decide +kernel)
    have e : ([] : List (List Byte × PageContent)).map (·.1) ++
      (packPages[0]?.toList.map (·.1) ++ (packPages.drop 1).map (·.1)) = packPages.map (·.1) := by decide +kernel
    rw [e]
    exact h
  fileMeta := pack_meta
  memory := by decide +kernel
  loggable := fun h => by cases h
  enough := by decide +kernel
  noRows := by decide +kernel

/-- The metadata page and the first data page of `file`, followed by other pages and an incomplete one. -/
def fileWith (tail : List (List Byte)) (part : List Byte) : List Byte :=
  header 900 4 ++ (((filePages.take 2).map (·.1) ++ tail).flatten ++ part)

theorem fileWith_wellFormed {tail : List (List Byte)} (ht : ∀ p ∈ tail, p.length = 900) {part : List Byte}
    (hp : part.length < 900) :
    WellFormed cfg ifs (IFStream.open (fileWith tail part)) demoHeader (filePages.take 1)
      filePages[1]? tail .endOfFile fileSubs .none 10 where
  presents := by
    have h2 : ∀ p ∈ (filePages.take 2).map (·.1), p.length = 900 := by decide +kernel
    have h := ifs_presents demoHeader_layout ((filePages.take 2).map (·.1) ++ tail) (fun p hm => by
      rcases List.mem_append.mp hm with h | h
      · exact h2 p h
      · exact ht p h) part hp
    have e : (filePages.take 1).map (·.1) ++ (filePages[1]?.toList.map (·.1) ++ tail) =
      (filePages.take 2).map (·.1) ++ tail := by
      rw [← List.append_assoc]
      congr 1
    rw [e]
    exact h
  fileMeta := file_meta
  memory := by decide +kernel
  loggable := fun h => by cases h
  enough := by decide +kernel
  noRows := by intro h; cases h

/-- The same, on a disk that fails after the given pages. -/
theorem fileWith_wellFormed_fault {tail : List (List Byte)} (ht : ∀ p ∈ tail, p.length = 900)
    {part : List Byte} (k : Nat) (hk : k < 900) (hk2 : k ≤ part.length) :
    WellFormed cfg ifs { IFStream.open (fileWith tail part) with
        fault := some (288 + ((filePages.take 2).map (·.1) ++ tail).flatten.length + k) } demoHeader
      (filePages.take 1) filePages[1]? tail .ioError fileSubs .none 10 where
  presents := by
    have h2 : ∀ p ∈ (filePages.take 2).map (·.1), p.length = 900 := by decide +kernel
    have hh : (header 900 4).length = 288 := by decide +kernel
    have h := ifs_presents_fault demoHeader_layout ((filePages.take 2).map (·.1) ++ tail) (fun p hm => by
      rcases List.mem_append.mp hm with h | h
      · exact h2 p h
      · exact ht p h) part (288 + ((filePages.take 2).map (·.1) ++ tail).flatten.length + k) (by omega)
      (by show _ < _ + 900; omega) (by omega)
    have e : (filePages.take 1).map (·.1) ++ (filePages[1]?.toList.map (·.1) ++ tail) =
      (filePages.take 2).map (·.1) ++ tail := by
      rw [← List.append_assoc]
      congr 1
    rw [e]
    exact h
  fileMeta := file_meta
  memory := by decide +kernel
  loggable := fun h => by cases h
  enough := by decide +kernel
  noRows := by intro h; cases h

end Sas.Demo
