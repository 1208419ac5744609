import Verif.Proofs.BoundsRows
import Verif.Props.Safety

/-!
# Properties: files whose positions and lengths stay inside their pages
-/

namespace Sas.Props

open Sas Sas.Spec

/-! ## Checking the hypotheses of C25 on concrete files -/

instance (f : Format) (page : List Byte) (o : Nat) (s : Sig) : Decidable (Marked f page o s) :=
  decidable_of_iff ((page.drop o).take (word f) = Sig.bytes .little f s ∨ (page.drop o).take (word f) = Sig.bytes .big f s)
    ⟨fun h => h.elim (fun h => ⟨_, h⟩) (fun h => ⟨_, h⟩), fun ⟨e, h⟩ => by cases e <;> simp [h]⟩

instance (e : Endian) (f : Format) (page : List Byte) : Decidable (PointersInside e f page) :=
  decidable_of_iff (pageHead f + 6 ≤ page.length ∧
      (hasMeta (pageType e f page) = true → pageHead f + 8 + pointerCount e f page * (3 * word f) ≤ page.length) ∧
      (hasMeta (pageType e f page) = true → ∀ i < pointerCount e f page,
        (pointer e f page i).offset + (pointer e f page i).length ≤ page.length))
    ⟨fun ⟨a, b, c⟩ => ⟨a, b, c⟩, fun ⟨a, b, c⟩ => ⟨a, b, c⟩⟩

instance (e : Endian) (f : Format) (c : Nat) (page : List Byte) (p : PageSub) : Decidable (SubInside e f c page p) :=
  decidable_of_iff (p.offset + word f ≤ page.length ∧
      (Marked f page p.offset .rowSize → p.offset + lcsAt f + 28 ≤ page.length ∧
        number e page (p.offset + lcsAt f) 2 ≤ c ∧ number e page (p.offset + lcsAt f + 24) 2 ≤ c) ∧
      (Marked f page p.offset .columnSize → p.offset + 2 * word f ≤ page.length) ∧
      (Marked f page p.offset .columnText → p.offset + word f + 36 + c ≤ page.length ∧
        p.offset + word f + number e page (p.offset + word f) 2 ≤ page.length) ∧
      (Marked f page p.offset .columnNames → word f + 12 ≤ p.offset + p.length) ∧
      (Marked f page p.offset .columnAttrs → word f + 12 ≤ p.offset + p.length) ∧
      (Marked f page p.offset .formatLabel → p.offset + 3 * word f + 34 ≤ page.length))
    ⟨fun ⟨a, b, c, d, e, f, g⟩ => ⟨a, b, c, d, e, f, g⟩, fun ⟨a, b, c, d, e, f, g⟩ => ⟨a, b, c, d, e, f, g⟩⟩

/-- The bytes of page `k`. -/
def pageBytes (data : List Byte) (k : Nat) : List Byte :=
  (data.drop (announcedHeaderLength (data.take 288) + k * announcedPageLength (data.take 288))).take
    (announcedPageLength (data.take 288))

theorem IsPage.bytes {data : List Byte} {k n : Nat} {page : List Byte} (h : IsPage data k page)
    (hn : data.length < announcedHeaderLength (data.take 288) + (n + 1) * announcedPageLength (data.take 288)) :
    k < n ∧ page = pageBytes data k := by
  refine ⟨?_, h.2⟩
  have h1 := h.1
  by_cases hk : k < n
  · exact hk
  · have : (n + 1) * announcedPageLength (data.take 288) ≤ (k + 1) * announcedPageLength (data.take 288) :=
      Nat.mul_le_mul_right _ (by omega)
    omega

/-- A file with `n` pages is inside when its pages are. -/
theorem fileInside_of (data : List Byte) (n creators : Nat) 
    (hn : data.length < announcedHeaderLength (data.take 288) + (n + 1) * announcedPageLength (data.take 288))
    (hp : ∀ k < n, PointersInside (announcedOrder (data.take 288)) (announcedFormat (data.take 288)) (pageBytes data k))
    (hs : ∀ k < n, hasMeta (pageType (announcedOrder (data.take 288)) (announcedFormat (data.take 288))
        (pageBytes data k)) = true →
      ∀ i < pointerCount (announcedOrder (data.take 288)) (announcedFormat (data.take 288)) (pageBytes data k),
      SubInside (announcedOrder (data.take 288)) (announcedFormat (data.take 288)) creators (pageBytes data k)
        (pointer (announcedOrder (data.take 288)) (announcedFormat (data.take 288)) (pageBytes data k) i)) :
    FileInside data creators := by
  refine ⟨fun k page h => ?_, fun k page h _ hm i hi _ => ?_⟩
  · obtain ⟨h1, rfl⟩ := IsPage.bytes h hn
    exact hp k h1
  · obtain ⟨h1, rfl⟩ := IsPage.bytes h hn
    exact hs k h1 hm i hi

/-- `Demo.file` with nonsense in its metadata: the second name refers to a text that does not exist, the first
column is said to start at 60000, and the announced number of rows is 77. Everything stays inside the pages. -/
def nonsenseFile : List Byte :=
  Demo.header 900 2 ++
  Demo.page 900 0 0
    [(240, 384, 0, 0), (624, 12, 0, 0), (636, 72, 0, 0), (708, 36, 0, 0), (744, 44, 0, 0), (788, 52, 0, 0), (840, 52, 0, 0)]
    [(240, Demo.rowSize 14 77 0), (624, Demo.columnSize 2), (636, Demo.columnText (ascii "        ")),
     (708, [0xFF, 0xFF, 0xFF, 0xFF] ++ Demo.le 8 0 ++ (Demo.le 2 0 ++ Demo.le 2 36 ++ Demo.le 2 2 ++ Demo.le 2 0) ++
       (Demo.le 2 9 ++ Demo.le 2 40 ++ Demo.le 2 4 ++ Demo.le 2 0) ++ Demo.le 8 0),
     (744, [0xFC, 0xFF, 0xFF, 0xFF] ++ Demo.le 8 0 ++ (Demo.le 4 60000 ++ Demo.le 4 8 ++ Demo.le 2 0 ++ [1, 0]) ++
       (Demo.le 4 8 ++ Demo.le 4 6 ++ Demo.le 2 0 ++ [2, 0]) ++ Demo.le 8 0),
     (788, Demo.formatLabel 48 4 0 0), (840, Demo.formatLabel 0 0 56 3)] ++
  Demo.page 900 256 2 [] [(24, Demo.row 0 "ann   " ++ Demo.row 1 "bob   ")]

theorem file_inside : FileInside Demo.file 4 :=
  fileInside_of _ 4 4 (by decide +kernel) (by decide +kernel) (by decide +kernel)

theorem rleFile_inside : FileInside Demo.rleFile 4 :=
  fileInside_of _ 2 4 (by decide +kernel) (by decide +kernel) (by decide +kernel)

theorem nonsenseFile_inside : FileInside nonsenseFile 4 :=
  fileInside_of _ 2 4 (by decide +kernel) (by decide +kernel) (by decide +kernel)

/-- A file of `n` pages without compression has its rows inside when its pages have. -/
theorem rowsInside_of (data : List Byte) (n : Nat) (md : Meta) (hc : md.compression = .none)
    (hn : data.length < announcedHeaderLength (data.take 288) + (n + 1) * announcedPageLength (data.take 288))
    (hd : ∀ k < n, pageType (announcedOrder (data.take 288)) (announcedFormat (data.take 288)) (pageBytes data k) = 256 →
      0 < pageBlocks (announcedOrder (data.take 288)) (announcedFormat (data.take 288)) (pageBytes data k) ∧
      pageHead (announcedFormat (data.take 288)) + 8 +
        pageBlocks (announcedOrder (data.take 288)) (announcedFormat (data.take 288)) (pageBytes data k) * md.rowLength ≤
        (pageBytes data k).length)
    (hm : ∀ k < n, pageType (announcedOrder (data.take 288)) (announcedFormat (data.take 288)) (pageBytes data k) ≠ 512 ∧
      pageType (announcedOrder (data.take 288)) (announcedFormat (data.take 288)) (pageBytes data k) ≠ 640) :
    ∀ k page, IsPage data k page → PageRowsInside (announcedOrder (data.take 288)) (announcedFormat (data.take 288))
      md.rowLength md.rowCount md.mixCount md.compression page := by
  intro k page h
  obtain ⟨h1, rfl⟩ := IsPage.bytes h hn
  refine ⟨hd k h1, fun h => ?_, fun _ i _ _ _ _ => ?_⟩
  · rcases h with h | h
    · exact absurd h (hm k h1).1
    · exact absurd h (hm k h1).2
  · rw [hc]
    trivial

/-- A file whose header announces no dates has no wild ones. -/
theorem not_wild (data : List Byte) (h : ∀ d ∈ announcedDates (data.take 288), d = 0) : ¬ WildDate data := by
  rintro ⟨-, d, hd, hn⟩
  exact hn (.inr ⟨0, by rw [h d hd]; exact ⟨0, 0, 0, by omega, by norm_num, by norm_num, .inl ⟨rfl, by norm_num⟩⟩,
    by norm_num⟩)

/-! ## C25: crashes have a cause that the file shows -/

/-- C25, for opening. A release build that crashes (terminates the process or leaves its buffers) when it opens a
byte string has met a header that reaches beyond its announced length, a date in the header that is infinite or
further than 139000 years from 1960, or a page on which a pointer, a subheader or a text does not fit. What is
missing are those files, for which the claim is false. -/
theorem C25_opening_partial (cfg : Cfg) (ha : cfg.asserts = false) (hd : cfg.debug = false)
    (hmem : 288 ≤ cfg.maxAlloc) (fuel : Nat) (filter : Option Filter) (data : List Byte)
    (h : openReader cfg ifs fuel filter (IFStream.open data) = .error .terminate ∨
      openReader cfg ifs fuel filter (IFStream.open data) = .error .ub) :
    HeaderOverrun data ∨ WildDate data ∨ ∀ creators, ¬ FileInside data creators := by
  by_cases ho : HeaderOverrun data
  · exact .inl ho
  by_cases hw : WildDate data
  · exact .inr (.inl hw)
  refine .inr (.inr fun creators hin => ?_)
  have hc := openReader_calm ha hd hmem fuel filter data ho hw hin
  rcases h with h | h <;> rw [h] at hc
  · exact hc (.inl rfl)
  · exact hc (.inr rfl)

/-- C25, for the calls after opening. If what the header, the pointers, the subheaders and the texts of a file say
stays inside its pages, and the rows do too, then no call of a release build crashes, in any history, and every row
handed to the sink or to the caller lies in memory. Nothing is assumed about the content: names, types, counts, texts
and rows may be anything, and pages may be missing. What is missing are the other files, for which the claim is
false. -/
theorem C25_calls_partial (cfg : Cfg) (ha : cfg.asserts = false) (hd : cfg.debug = false)
    (hmem : 288 ≤ cfg.maxAlloc) (fuel : Nat) (filter : Option Filter) (data : List Byte) (creators : Nat)
    (ho : ¬ HeaderOverrun data) (hw : ¬ WildDate data) (hin : FileInside data creators) (R : Reader IFStream)
    (hR : openReader cfg ifs fuel filter (IFStream.open data) = .ok R)
    (hrows : R.props.md.rowCount = 0 ∨ ∀ k page, IsPage data k page →
      PageRowsInside (announcedOrder (data.take 288)) (announcedFormat (data.take 288)) R.props.md.rowLength
        R.props.md.rowCount R.props.md.mixCount R.props.md.compression page) (ops : List Op) :
    .error .terminate ∉ (R.run ifs ops).1 ∧ .error .ub ∉ (R.run ifs ops).1 ∧
    (∀ i row, .pushRow i row ∈ (R.run ifs ops).2.trace → row.len ≤ row.mem.length) ∧
    (∀ row, .ok (.ptr (some row)) ∈ (R.run ifs ops).1 → row.len ≤ row.mem.length) := by
  have hc := openReader_calm ha hd hmem fuel filter data ho hw hin
  rw [hR] at hc
  obtain ⟨h1, h2⟩ := Reader.run_calm ops (hc hrows)
  exact ⟨fun hm => h1 _ hm (.inl rfl), fun hm => h1 _ hm (.inr rfl), h2.rows, fun row hm => h1 _ hm row rfl⟩

/-- `nonsenseFile` opens, and no history of calls crashes. -/
example : ∃ R, openReader Demo.cfg ifs 9 none (IFStream.open nonsenseFile) = .ok R ∧ R.props.md.rowCount = 77 ∧
    ∀ ops, .error .terminate ∉ (R.run ifs ops).1 ∧ .error .ub ∉ (R.run ifs ops).1 := by
  have hR : openReader Demo.cfg ifs 9 none (IFStream.open nonsenseFile) = .ok (Demo.get _) :=
    Demo.get_ok (by decide +kernel)
  refine ⟨_, hR, by decide +kernel, fun ops => ?_⟩
  have h := C25_calls_partial Demo.cfg rfl rfl (by decide +kernel) 9 none nonsenseFile 4 (by decide +kernel)
    (not_wild _ (by decide +kernel)) nonsenseFile_inside _ hR
    (.inr (rowsInside_of _ 2 _ (by decide +kernel) (by decide +kernel) (by decide +kernel) (by decide +kernel))) ops
  exact ⟨h.1, h.2.1⟩

/-- `Demo.file` too. -/
example (ops : List Op) :
    .error .terminate ∉ (Demo.reader.run ifs ops).1 ∧ .error .ub ∉ (Demo.reader.run ifs ops).1 := by
  have h := C25_calls_partial Demo.cfg rfl rfl (by decide +kernel) 10 none Demo.file 4 (by decide +kernel)
    (not_wild _ (by decide +kernel)) file_inside _ Demo.opened_ok
    (.inr (rowsInside_of _ 4 _ (by decide +kernel) (by decide +kernel) (by decide +kernel) (by decide +kernel))) ops
  exact ⟨h.1, h.2.1⟩

theorem rle_tail {bytes : List Byte} (h : (bytes.getD (bytes.length - 2) 0).toNat / 16 ≠ 4) :
    ∀ hi lo : Byte, [hi, lo] <:+ bytes → hi.toNat / 16 ≠ 4 := by
  rintro hi lo ⟨pre, rfl⟩
  simpa [List.getD_eq_getElem?_getD] using h

theorem rleRows_inside (k : Nat) (page : List Byte) (h : IsPage Demo.rleFile k page) :
    PageRowsInside (announcedOrder (Demo.rleFile.take 288)) (announcedFormat (Demo.rleFile.take 288))
      Demo.rleReader.props.md.rowLength Demo.rleReader.props.md.rowCount Demo.rleReader.props.md.mixCount
      Demo.rleReader.props.md.compression page := by
  obtain ⟨h1, rfl⟩ := IsPage.bytes (n := 2) h (by decide +kernel)
  clear h
  have hc : Demo.rleReader.props.md.compression = .rle := by decide +kernel
  refine ⟨?_, fun h => ?_, fun hm i hi h2 h3 h4 => ?_⟩
  · revert h1; revert k; decide +kernel
  · exfalso; revert h; revert h1; revert k; decide +kernel
  · rw [hc]
    refine rle_tail ?_
    clear h4
    revert h3
    revert h2
    revert hi
    revert i
    revert hm
    revert h1
    revert k
    decide +kernel

/-- And the compressed `Demo.rleFile`. -/
example (ops : List Op) :
    .error .terminate ∉ (Demo.rleReader.run ifs ops).1 ∧ .error .ub ∉ (Demo.rleReader.run ifs ops).1 := by
  have h := C25_calls_partial Demo.cfg rfl rfl (by decide +kernel) 10 none Demo.rleFile 4 (by decide +kernel)
    (not_wild _ (by decide +kernel)) rleFile_inside _ Demo.rleOpened_ok (.inr rleRows_inside) ops
  exact ⟨h.1, h.2.1⟩

/-- The crash of `outsideFile` is explained by its pointer. -/
example : ∀ creators, ¬ FileInside outsideFile creators := by
  rcases C25_opening_partial Demo.cfg rfl rfl (by decide +kernel) 9 none outsideFile (.inl C25_refuted.1) with h | h | h
  · exact absurd h (by decide +kernel)
  · exact absurd h (not_wild _ (by decide +kernel))
  · exact h

end Sas.Props
