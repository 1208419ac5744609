import Verif.Spec.Columns
import Verif.Spec.Compression

/-!
# The rows stored in the pages of a file
-/

namespace Sas.Spec

open Sas

/-- The outline of a page: its type, the number of rows announced and its subheader pointers. -/
structure PageOutline where
  type : Nat
  blocks : Nat
  ptrs : List PageSub

/-- The outline of a page whose content is known. -/
def PageContent.outline (c : PageContent) : PageOutline := ⟨c.type, c.blocks, c.subs.map (·.1)⟩

/-- The rows of a page as they are stored. -/
def storedRows (f : Format) (compressed : Bool) (r : RowSize) (page : List Byte × PageOutline) :
    List (List Byte) :=
  (rowsAt f compressed r page.2.type page.2.blocks page.2.ptrs).map fun ol => slice page.1 ol.1 ol.2

/-- The page has this outline, and its rows are inside the page. -/
structure RowPage (e : Endian) (f : Format) (compressed : Bool) (r : RowSize)
    (page : List Byte × PageOutline) : Prop where
  layout : PageLayout e f page.1 page.2.type page.2.blocks page.2.ptrs
  inside : ∀ ol ∈ rowsAt f compressed r page.2.type page.2.blocks page.2.ptrs, ol.1 + ol.2 ≤ page.1.length

/-- Row pointers and contents agree: in the pages up to the first one with rows, what a row pointer
points to does not happen to start like a subheader, and in compressed files only meta pages have row
pointers. -/
structure RowPointers (c : Compression) (p : PageContent) : Prop where
  rows : hasMeta p.type = true → ∀ ps ∈ p.subs, live ps.1 = true → rowPtr ps.1 = true → ps.2 = .row
  onMeta : c ≠ .none → p.used.contains .row = true → p.type = 0

/-- A file with its rows: the pages `pre` and `k` as in `FileMeta`, and the pages `tail` after them.
Pages after `k` that hold rows announce at least one. -/
structure RowFile (h : FileHeader) (pre : List (List Byte × PageContent))
    (k : Option (List Byte × PageContent)) (tail : List (List Byte × PageOutline)) (all : List Sub)
    (c : Compression) : Prop where
  pointers : ∀ pc ∈ pre ++ k.toList, RowPointers c pc.2
  first : ∀ pc, k = some pc → RowPage h.endian h.fmt (c ≠ .none) (rowSizeOf .none all) (pc.1, pc.2.outline)
  later : ∀ po ∈ tail, RowPage h.endian h.fmt (c ≠ .none) (rowSizeOf .none all) po
  announced : ∀ po ∈ tail, hasRows po.2.type = true →
    storedRows h.fmt (c ≠ .none) (rowSizeOf .none all) po ≠ []

/-- The pages of a file with their outlines, in order. -/
def outlines (pre : List (List Byte × PageContent)) (k : Option (List Byte × PageContent))
    (tail : List (List Byte × PageOutline)) : List (List Byte × PageOutline) :=
  (pre ++ k.toList).map (fun pc => (pc.1, pc.2.outline)) ++ tail

/-- The rows stored in a file, in page order. -/
def fileRows (h : FileHeader) (all : List Sub) (c : Compression) (pages : List (List Byte × PageOutline)) :
    List (List Byte) :=
  pages.flatMap (storedRows h.fmt (c ≠ .none) (rowSizeOf .none all))

/-- The row that is stored as `raw`: `raw` itself when it is as long as a row, else what the commands of
the compression produce (see C16 and C17 for commands at the end of a row that are not executed). -/
inductive RowOf (c : Compression) (n : Nat) : (raw row : List Byte) → Prop
  | plain (raw : List Byte) (h : n ≤ raw.length) : RowOf c n raw raw
  | rle (cs : List RleCmd) (hc : c = .rle) (hv : ∀ cmd ∈ cs, cmd.Valid) (hs : (rleEncode cs).length < n)
      (hfit : (rleExpand cs).length ≤ n) :
      RowOf c n (rleEncode cs)
        (rleExpand (rleKept cs) ++ List.replicate (n - (rleExpand (rleKept cs)).length) 0)
  | rdc (gs : List (List RdcTok)) (last : List RdcTok) (out kept : List Byte) (hc : c = .rdc)
      (hg : ∀ g ∈ gs, g.length = 16 ∧ ∀ t ∈ g, t.Valid)
      (hl : last ≠ [] ∧ last.length ≤ 16 ∧ ∀ t ∈ last, t.Valid) (hs : (rdcEncode gs last).length < n)
      (ho : rdcApply [] (gs.flatten ++ last) = some out) (hfit : out.length ≤ n)
      (hk : rdcApply [] (gs.flatten ++ rdcKeptLast last) = some kept) :
      RowOf c n (rdcEncode gs last) (kept ++ List.replicate (n - kept.length) 0)

/-- The rows that are stored as `raws`. -/
def RowsOf (c : Compression) (n : Nat) (raws rows : List (List Byte)) : Prop :=
  raws.length = rows.length ∧ ∀ (i : Nat) (raw row : List Byte), raws[i]? = some raw → rows[i]? = some row →
    RowOf c n raw row

/-- The rows of a compressed file for which the decompression is right (C16, C17): as long as a row, or
RLE commands that do not end with a one-byte `@` or blank, or RDC tokens whose last one is alone in its
group or occupies three bytes. -/
inductive Packed (c : Compression) (n : Nat) : (raw row : List Byte) → Prop
  | plain (raw : List Byte) (h : raw.length = n) : Packed c n raw raw
  | rle (cs : List RleCmd) (hc : c = .rle) (hv : ∀ cmd ∈ cs, cmd.Valid) (hs : (rleEncode cs).length < n)
      (hfit : (rleExpand cs).length = n)
      (hlast : ∀ n, cs.getLast? ≠ some (.at2 n) ∧ cs.getLast? ≠ some (.blank2 n)) :
      Packed c n (rleEncode cs) (rleExpand cs)
  | rdc (gs : List (List RdcTok)) (last : List RdcTok) (out : List Byte) (hc : c = .rdc)
      (hwf : RdcWellFormed gs last) (hs : (rdcEncode gs last).length < n)
      (ho : rdcApply [] (gs.flatten ++ last) = some out) (hfit : out.length = n)
      (hlast : last.length = 1 ∨ ∀ t, last.getLast? = some t → t.encode.length = 3) :
      Packed c n (rdcEncode gs last) out

end Sas.Spec
