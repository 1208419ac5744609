import Verif.Model.Reader

/-!
# Sources that throw

The data source is an object of the user (include/cppsas7bdat/reader.hpp:22-41), whose `read_bytes` may throw. The code of
the reader is the one of Buffer.lean, Header.lean, Page.lean, Metadata.lean, Data.lean and Reader.lean; no function on
the way is `noexcept`. Simplification: `eof` does not throw and does not change the source.
-/

namespace Sas

/-- A source: whether it is at its end, and what `read_bytes` does: the flag it returns or the exception it throws,
the bytes it has stored by then, and what has become of it (include/cppsas7bdat/reader.hpp:25-26). -/
structure SourceCode (σ ε : Type) where
  eof : σ → Bool
  read : σ → Nat → Except ε Bool × List Byte × σ

/-- Why a call does not return: as in Reader.lean, or an exception of the source
(no definition of the library: the ends of calls that reach include/cppsas7bdat/reader.hpp:36-38). -/
inductive XStop (ε : Type)
  | reader (s : Stop)
  | source (x : ε)
deriving DecidableEq

/-- A call that may throw (no definition of the library: the ends of calls that reach include/cppsas7bdat/reader.hpp:36-38). -/
abbrev XRes (ε α : Type) := Except (XStop ε) α

/-- A result of code that does not call the source
(no definition of the library: the ends of calls that reach include/cppsas7bdat/reader.hpp:36-38). -/
def XRes.of {ε α : Type} : Res α → XRes ε α
  | .ok a => .ok a
  | .error e => .error (.reader e)

variable {σ ε : Type}

/-- `MBUFFER::read_stream` (src/buffer.hpp:51-58): the buffer has been resized when the source throws. -/
def Buf.readStreamX (cfg : Cfg) (S : SourceCode σ ε) (b : Buf) (s : σ) (len off : Nat) : XRes ε Bool × Buf × σ :=
  match b.resize cfg (w64 (off + len)) with
  | .error e => (.error (.reader e), b, s)
  | .ok b' =>
    match S.read s len with
    | (r, bytes, s') =>
      if off + bytes.length ≤ b'.mem.length then
        match r with
        | .ok ok => (.ok ok, { b' with mem := writeAt b'.mem off bytes }, s')
        | .error x => (.error (.source x), { b' with mem := writeAt b'.mem off bytes }, s')
      else (.error (.reader .ub), b', s')

/-- `CHECK_HEADER` constructor (src/header.hpp:35-39). -/
def checkHeaderReadX (cfg : Cfg) (S : SourceCode σ ε) (s : σ) : XRes ε (Buf × σ) :=
  match Buf.readStreamX cfg S Buf.empty s 288 0 with
  | (.error e, _, _) => .error e
  | (.ok true, b, s') => .ok (b, s')
  | (.ok false, _, _) => .error (.reader (.exn .headerTooShort))

/-- `set_header_length_and_read` (src/header.hpp:86-103). -/
def setHeaderLengthAndReadX (cfg : Cfg) (S : SourceCode σ ε) (al : Align) (b : Buf) (s : σ) : XRes ε (Nat × Buf × σ) := do
  let hl ← XRes.of (b.getU32 cfg al.endian (196 + al.align1))
  XRes.of (fmtAssert cfg (288 ≤ hl))
  match Buf.readStreamX cfg S b s (sub64 hl 288) 288 with
  | (.error e, _, _) => .error e
  | (.ok true, b', s') => .ok (hl, b', s')
  | (.ok false, _, _) => .error (.reader (.exn .headerTooShort))

/-- `check_header` and `_read_header` (src/sas7bdat-impl.hpp:43-58, 112-127). -/
def readHeaderX (cfg : Cfg) (S : SourceCode σ ε) (s : σ) : XRes ε (Header × Buf × σ) := do
  let (b, s) ← checkHeaderReadX cfg S s
  XRes.of (checkMagic cfg b)
  let al ← XRes.of (setAligns cfg b)
  let (hl, b, s) ← setHeaderLengthAndReadX cfg S al b s
  let h ← XRes.of (setHeader cfg al hl b)
  XRes.of (logHeader cfg h)
  return (h, b, s)

/-- `read_page` (src/page.hpp:91-103): the header of the page has been reset when the source throws. -/
def readPageX (env : Env) (S : SourceCode σ ε) (p : PState σ) : XRes ε Bool × PState σ :=
  if S.eof p.src then (.ok false, { p with hdr := PageHdr.reset })
  else
    match Buf.readStreamX env.cfg S p.buf p.src env.pageLength 0 with
    | (.error e, b, s) => (.error e, ⟨s, b, PageHdr.reset⟩)
    | (.ok false, b, s) =>
      if S.eof s then (.ok false, ⟨s, b, PageHdr.reset⟩)
      else (.error (.reader (.exn .cannotReadPage)), ⟨s, b, PageHdr.reset⟩)
    | (.ok true, b, s) =>
      match getPageHeader env b with
      | .error e => (.error (.reader e), ⟨s, b, PageHdr.reset⟩)
      | .ok h => (.ok true, ⟨s, b, h⟩)

/-- The loop of `set_metadata` (src/metadata.hpp:137-140). -/
def metaLoopX (env : Env) (S : SourceCode σ ε) : (fuel : Nat) → PState σ → Acc → XRes ε (PState σ × Acc)
  | 0, _, _ => .error (.reader .fuel)
  | n + 1, p, acc =>
    match readPageX env S p with
    | (.error e, _) => .error e
    | (.ok false, p') => .ok (p', acc)
    | (.ok true, p') =>
      match processPage env p'.buf p'.hdr acc with
      | .error e => .error (.reader e)
      | .ok (acc', stop) => if stop then .ok (p', acc') else metaLoopX env S n p' acc'

/-- `Reader::Reader(source, sink, filter)` (src/reader.cpp:26-39, src/sas7bdat-impl.hpp:43-160,
src/reader-impl.hpp:23-26). -/
def openReaderX (cfg : Cfg) (S : SourceCode σ ε) (fuel : Nat) (filter : Option Filter) (s : σ) : XRes ε (Reader σ) := do
  let (h, b, s) ← readHeaderX cfg S s
  let env : Env := { cfg := cfg, endian := h.endian, format := h.format, pageLength := h.pageLength, fuel := fuel }
  let (p, acc) ← metaLoopX env S fuel ⟨s, b, PageHdr.reset⟩ {}
  let columns ← XRes.of (createColumns cfg h.endian acc filter)
  let rd ← XRes.of (RD.build env p acc)
  let props : Properties := { header := h, md := acc.md, columns := columns }
  return { env := env, props := props, rd := rd, trace := [.setProperties props] }

/-- The loop of `read_next_page` (src/data.hpp:235-240). -/
def nextPageLoopX (env : Env) (S : SourceCode σ ε) (md : Meta) : (fuel : Nat) → RD σ → XRes ε Bool × RD σ
  | 0, r => (.error (.reader .fuel), r)
  | n + 1, r =>
    match readPageX env S r.p with
    | (.error e, p) => (.error e, { r with p := p })
    | (.ok false, p) => (.ok false, { r with p := p })
    | (.ok true, p) =>
      match buildPage env md p.buf p.hdr with
      | .error e => (.error (.reader e), { r with p := p })
      | .ok (some pg) => (.ok true, { r with p := p, page := some pg })
      | .ok none => nextPageLoopX env S md n { r with p := p }

/-- `READ_DATA::next` (src/data.hpp:151-162) with `read_next_page` (src/data.hpp:231-241), which forgets the page
before it reads. -/
def RD.nextX (env : Env) (S : SourceCode σ ε) (md : Meta) (r : RD σ) : XRes ε Bool × RD σ :=
  if r.row = md.rowCount then (.ok false, r)
  else
    match r.page with
    | none => (.ok false, r)
    | some pg => if pg.next then nextPageLoopX env S md env.fuel { r with page := none } else (.ok true, r)

/-- `READ_DATA::read_line` (src/data.hpp:181-186). -/
def RD.readLineX (env : Env) (S : SourceCode σ ε) (md : Meta) (r : RD σ) : XRes ε (Option Row) × RD σ :=
  match r.nextX env S md with
  | (.error e, r) => (.error e, r)
  | (.ok false, r) => (.ok none, r)
  | (.ok true, r) =>
    match r.takeLine with
    | (.error e, r) => (.error (.reader e), r)
    | (.ok (off, len), r) =>
      match r.extract env md off len with
      | (.error e, r) => (.error (.reader e), r)
      | (.ok row, r) => (.ok (some row), r)

/-- `READ_DATA::skip` (src/data.hpp:171-179). -/
def RD.skipX (env : Env) (S : SourceCode σ ε) (md : Meta) : (n : Nat) → RD σ → XRes ε Bool × RD σ
  | 0, r => (.ok true, r)
  | n + 1, r =>
    match r.nextX env S md with
    | (.error e, r) => (.error e, r)
    | (.ok false, r) => (.ok false, r)
    | (.ok true, r) =>
      match r.takeLine with
      | (.error e, r) => (.error (.reader e), r)
      | (.ok _, r) => RD.skipX env S md n r

/-- `read_row` (src/reader-impl.hpp:90-99). -/
def Reader.readRowX (S : SourceCode σ ε) (R : Reader σ) : XRes ε Bool × Reader σ :=
  let rowIndex := R.currentRowIndex
  match R.rd.readLineX R.env S R.props.md with
  | (.error e, rd) => (.error e, { R with rd := rd })
  | (.ok none, rd) => (.ok false, { R with rd := rd }.endOfData)
  | (.ok (some row), rd) => (.ok true, { R with rd := rd }.emit (.pushRow rowIndex row))

/-- `skip` (src/reader-impl.hpp:78-83). -/
def Reader.skipX (S : SourceCode σ ε) (n : Nat) (R : Reader σ) : XRes ε Bool × Reader σ :=
  match R.rd.skipX R.env S R.props.md n with
  | (.error e, rd) => (.error e, { R with rd := rd })
  | (.ok true, rd) => (.ok true, { R with rd := rd })
  | (.ok false, rd) => (.ok false, { R with rd := rd }.endOfData)

/-- `read_rows` (src/reader-impl.hpp:45-49). -/
def Reader.readRowsX (S : SourceCode σ ε) : (n : Nat) → Reader σ → XRes ε Bool × Reader σ
  | 0, R => (.ok true, R)
  | n + 1, R =>
    match R.readRowX S with
    | (.error e, R) => (.error e, R)
    | (.ok false, R) => (.ok false, R)
    | (.ok true, R) => Reader.readRowsX S n R

/-- The loop of `read_all` (src/reader-impl.hpp:51-54), as `Reader.readAllLoop`. -/
def Reader.readAllLoopX (S : SourceCode σ ε) : (fuel : Nat) → Reader σ → XRes ε Unit × Reader σ
  | 0, R => (.error (.reader .fuel), R)
  | n + 1, R =>
    match R.readRowX S with
    | (.error e, R) => (.error e, R)
    | (.ok false, R) => (.ok (), R)
    | (.ok true, R) => Reader.readAllLoopX S n R

/-- One call (src/reader-impl.hpp:45-99). -/
def Reader.stepX (S : SourceCode σ ε) (R : Reader σ) : Op → XRes ε Ret × Reader σ
  | .readRow => let (r, R) := R.readRowX S; (r.map .bool, R)
  | .readRows n => let (r, R) := R.readRowsX S n; (r.map .bool, R)
  | .readAll => let (r, R) := Reader.readAllLoopX S (R.props.md.rowCount - R.rd.row + 1) R; (r.map fun _ => .unit, R)
  | .skip n => let (r, R) := R.skipX S n; (r.map .bool, R)
  | .readRowNoSink => let (r, rd) := R.rd.readLineX R.env S R.props.md; (r.map .ptr, { R with rd := rd })
  | .endOfData => (.ok .unit, R.endOfData)

/-- A history: the caller catches exceptions, also those of the source; nothing more happens after another error
(a program that uses include/cppsas7bdat/reader.hpp:129-137). -/
def Reader.runX (S : SourceCode σ ε) : Reader σ → List Op → List (XRes ε Ret) × Reader σ
  | R, [] => ([], R)
  | R, op :: ops =>
    match R.stepX S op with
    | (.ok v, R) => let (rs, R) := Reader.runX S R ops; (.ok v :: rs, R)
    | (.error (.source x), R) => let (rs, R) := Reader.runX S R ops; (.error (.source x) :: rs, R)
    | (.error (.reader (.exn e)), R) => let (rs, R) := Reader.runX S R ops; (.error (.reader (.exn e)) :: rs, R)
    | (.error e, R) => ([.error e], R)

end Sas
