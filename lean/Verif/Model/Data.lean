import Verif.Model.Metadata
import Verif.Model.Decompress

/-!
# src/data.hpp: going through the pages and the rows
-/

namespace Sas

/-- `PAGE::meta_type`, `PAGE::data_type`, `PAGE::mix_type` (src/data.hpp:31-86) without their
`current_row_on_page`. `mixP` keeps the already computed `row_count` (line 75). -/
inductive PageKind
  | metaP (subs : List (Nat × Nat))
  | dataP (blockCount offset rowLength : Nat)
  | mixP (rowCount offset rowLength : Nat)
deriving DecidableEq

/-- `PAGE::base` (src/data.hpp:19-29). -/
structure Page where
  kind : PageKind
  cur : Nat
deriving DecidableEq

/-- `next()` of the three page classes (src/data.hpp:39-41, 60-62, 81): "the page is used up". -/
def Page.next (p : Page) : Bool :=
  match p.kind with
  | .metaP subs => p.cur == subs.length
  | .dataP bc _ _ => p.cur == bc
  | .mixP rc _ _ => p.cur == rc

/-- `read_line()` of the three page classes (src/data.hpp:42-45, 63-66, 82-85): offset and length of
the current row. -/
def Page.readLine (p : Page) : Res (Nat × Nat) :=
  match p.kind with
  | .metaP subs =>
    match subs[p.cur]? with
    | some ol => .ok ol
    | none => .error .ub
  | .dataP _ off rl => .ok (w64 (off + rl * p.cur), rl)
  | .mixP _ off rl => .ok (w64 (off + rl * p.cur), rl)

/-- A row as handed to the sink: a pointer. `mem` is the memory from that pointer to the end of the
allocation, `len` the length of the row the library knows of
(`vals->data()`, src/reader-impl.hpp:87, 97; the length is that of src/data.hpp:188-199). -/
structure Row where
  mem : List Byte
  len : Nat
deriving DecidableEq

/-- The bytes of the row (the values of src/data.hpp:188-199). -/
def Row.bytes (r : Row) : List Byte := r.mem.take r.len

/-- `READ_DATA` (src/data.hpp:100-104): page state, current page, `current_row` and the decompressor's
destination buffer. -/
structure RD (σ : Type) where
  p : PState σ
  page : Option Page
  row : Nat
  dst : List Byte

/-- The part of `build_page` and `process_page_metadata` that looks at the page in the buffer
(src/data.hpp:201-229, 243-256). `none`: `build_page` returns `false` and leaves the page unset. -/
def buildPage (env : Env) (md : Meta) (b : Buf) (h : PageHdr) : Res (Option Page) :=
  if h.type = pageMeta then do
    let subs ← processSubs env b
      (fun (l : List (Nat × Nat)) s =>
        .ok (if isDataSub md.compression s then l ++ [(s.offset, s.length)] else l))
      h.subCount 0 []
    if subs.isEmpty then return none else return some ⟨.metaP subs, 0⟩
  else if h.type = pageData then
    .ok (some ⟨.dataP h.blockCount (env.format.pbo + 8) md.rowLength, 0⟩)
  else if isPageMix h.type then
    let offset := env.format.pbo + 8 + h.subCount * (3 * env.format.intSize)
    .ok (some ⟨.mixP (min md.rowCount md.mixCount) (offset + offset % 8) md.rowLength, 0⟩)
  else .ok none

/-- The loop of `read_next_page` (src/data.hpp:235-240), at most `fuel` pages; the caller has reset
`page`. -/
def nextPageLoop {σ : Type} (env : Env) (S : Source σ) (md : Meta) :
    (fuel : Nat) → RD σ → Res Bool × RD σ
  | 0, r => (.error .fuel, r)
  | n + 1, r =>
    match readPage env S r.p with
    | (.error e, p) => (.error e, { r with p := p })
    | (.ok false, p) => (.ok false, { r with p := p })
    | (.ok true, p) =>
      match buildPage env md p.buf p.hdr with
      | .error e => (.error e, { r with p := p })
      | .ok (some pg) => (.ok true, { r with p := p, page := some pg })
      | .ok none => nextPageLoop env S md n { r with p := p }

/-- `read_next_page` (src/data.hpp:231-241). -/
def readNextPage {σ : Type} (env : Env) (S : Source σ) (md : Meta) (r : RD σ) : Res Bool × RD σ :=
  nextPageLoop env S md env.fuel { r with page := none }

/-- `READ_DATA::next` (src/data.hpp:151-162). -/
def RD.next {σ : Type} (env : Env) (S : Source σ) (md : Meta) (r : RD σ) : Res Bool × RD σ :=
  if r.row = md.rowCount then (.ok false, r)
  else
    match r.page with
    | none => (.ok false, r)
    | some pg => if pg.next then readNextPage env S md r else (.ok true, r)

/-- `_read_line` (src/data.hpp:164-169). -/
def RD.takeLine {σ : Type} (r : RD σ) : Res (Nat × Nat) × RD σ :=
  match r.page with
  | none => (.error .ub, r)
  | some pg =>
    match pg.readLine with
    | .error e => (.error e, r)
    | .ok ol => (.ok ol, { r with row := r.row + 1, page := some { pg with cur := pg.cur + 1 } })

/-- `decompressor(values)` in `extract_row_values` (src/data.hpp:195) for the decompressor chosen by
`read_data` (src/sas7bdat-impl.hpp:145-156); `None` (src/decompressors.hpp:39-43) returns its argument,
a view into the page buffer. -/
def RD.decompress {σ : Type} (env : Env) (md : Meta) (r : RD σ) (mem src : List Byte) :
    Res Row × RD σ :=
  match md.compression with
  | .none => (.ok ⟨mem, src.length⟩, r)
  | .rle =>
    let (res, dst) := rle src r.dst
    (res.map fun row => ⟨row, row.length⟩, { r with dst := dst })
  | .rdc =>
    let (res, dst) := rdc env.cfg src r.dst
    (res.map fun row => ⟨row, row.length⟩, { r with dst := dst })

/-- `extract_row_values` (src/data.hpp:188-199). -/
def RD.extract {σ : Type} (env : Env) (md : Meta) (r : RD σ) (off len : Nat) : Res Row × RD σ :=
  match fmtAssert env.cfg (w64 (off + len) ≤ env.pageLength) with
  | .error e => (.error e, r)
  | .ok () =>
    match r.p.buf.rd env.cfg off len with
    | .error e => (.error e, r)
    | .ok values =>
      if len < md.rowLength then r.decompress env md (r.p.buf.mem.drop off) values
      else (.ok ⟨r.p.buf.mem.drop off, len⟩, r)

/-- `READ_DATA::read_line` (src/data.hpp:181-186); `none` is the empty optional. -/
def RD.readLine {σ : Type} (env : Env) (S : Source σ) (md : Meta) (r : RD σ) :
    Res (Option Row) × RD σ :=
  match r.next env S md with
  | (.error e, r) => (.error e, r)
  | (.ok false, r) => (.ok none, r)
  | (.ok true, r) =>
    match r.takeLine with
    | (.error e, r) => (.error e, r)
    | (.ok (off, len), r) =>
      match r.extract env md off len with
      | (.error e, r) => (.error e, r)
      | (.ok row, r) => (.ok (some row), r)

/-- `READ_DATA::skip` (src/data.hpp:171-179). -/
def RD.skip {σ : Type} (env : Env) (S : Source σ) (md : Meta) : (n : Nat) → RD σ → Res Bool × RD σ
  | 0, r => (.ok true, r)
  | n + 1, r =>
    match r.next env S md with
    | (.error e, r) => (.error e, r)
    | (.ok false, r) => (.ok false, r)
    | (.ok true, r) =>
      match r.takeLine with
      | (.error e, r) => (.error e, r)
      | (.ok _, r) => RD.skip env S md n r

/-- Construction of the decompressor chosen by `read_data` (src/sas7bdat-impl.hpp:141-160,
src/decompressors.hpp:50-52): its destination buffer. `None` has no buffer. -/
def buildDst (cfg : Cfg) (md : Meta) : Res (List Byte) :=
  match md.compression with
  | .none => .ok []
  | _ =>
    match Buf.alloc cfg md.rowLength with
    | .ok b => .ok b.mem
    | .error e => .error e

/-- `READ_DATA::build` and its constructor (src/data.hpp:114-145), preceded by the construction of the
decompressor. -/
def RD.build {σ : Type} (env : Env) (p : PState σ) (acc : Acc) : Res (RD σ) := do
  let dst ← buildDst env.cfg acc.md
  if acc.dataSubs.isEmpty then do
    let page ← buildPage env acc.md p.buf p.hdr
    return ⟨p, page, 0, dst⟩
  else return ⟨p, some ⟨.metaP acc.dataSubs, 0⟩, 0, dst⟩

end Sas
