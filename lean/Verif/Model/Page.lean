import Verif.Model.Header

/-!
# src/page.hpp and src/subheaders.hpp
-/

namespace Sas

/-- `PAGE_INVALID_TYPE` (src/page.hpp:18-19). -/
def pageInvalid : Nat := 65535
/-- `PAGE_META_TYPE` (src/page.hpp:20). -/
def pageMeta : Nat := 0
/-- `PAGE_DATA_TYPE` (src/page.hpp:21). -/
def pageData : Nat := 256
/-- `PAGE_MIX_TYPE1` (src/page.hpp:22). -/
def pageMix1 : Nat := 512
/-- `PAGE_MIX_TYPE2` (src/page.hpp:23). -/
def pageMix2 : Nat := 640
/-- `PAGE_AMD_TYPE` (src/page.hpp:24). -/
def pageAmd : Nat := 1024

/-- `is_page_mix` (src/page.hpp:27-29). -/
def isPageMix (t : Nat) : Bool := t == pageMix1 || t == pageMix2

/-- `is_page_meta_mix_amd` (src/page.hpp:31-34). -/
def isPageMetaMixAmd (t : Nat) : Bool := t == pageMeta || t == pageAmd || isPageMix t

/-- `is_page_data_mix` (src/page.hpp:36-38). -/
def isPageDataMix (t : Nat) : Bool := t == pageData || isPageMix t

/-- `PAGE_HEADER` (src/page.hpp:69-79). -/
structure PageHdr where
  type : Nat
  blockCount : Nat
  subCount : Nat
deriving DecidableEq

/-- `PAGE_HEADER::reset` (src/page.hpp:74-78). -/
def PageHdr.reset : PageHdr := ⟨pageInvalid, 0, 0⟩

/-- What stays fixed after the header phase: build configuration, template arguments and
`header->page_length`. `fuel` bounds the number of pages the two unbounded loops
(src/metadata.hpp:137, src/data.hpp:235) may visit in one call; exhausting it is the separate outcome
`Stop.fuel`. -/
structure Env where
  cfg : Cfg
  endian : Endian
  format : Format
  pageLength : Nat
  fuel : Nat

/-- The mutable part of `READ_PAGE` (src/page.hpp:66-79). -/
structure PState (σ : Type) where
  src : σ
  buf : Buf
  hdr : PageHdr

/-- `_get_page_header` (src/page.hpp:105-114). -/
def getPageHeader (env : Env) (b : Buf) : Res PageHdr := do
  let t ← b.getU16 env.cfg env.endian (env.format.pbo + 0)
  let bc ← b.getU16 env.cfg env.endian (env.format.pbo + 2)
  let sc ← b.getU16 env.cfg env.endian (env.format.pbo + 4)
  return ⟨t, bc, sc⟩

/-- `read_page` (src/page.hpp:91-103). -/
def readPage {σ : Type} (env : Env) (S : Source σ) (p : PState σ) : Res Bool × PState σ :=
  if S.eof p.src then (.ok false, { p with hdr := PageHdr.reset })
  else
    match Buf.readStream env.cfg S p.buf p.src env.pageLength 0 with
    | (.error e, b, s) => (.error e, ⟨s, b, PageHdr.reset⟩)
    | (.ok false, b, s) =>
      if S.eof s then (.ok false, ⟨s, b, PageHdr.reset⟩)
      else (.error (.exn .cannotReadPage), ⟨s, b, PageHdr.reset⟩)
    | (.ok true, b, s) =>
      match getPageHeader env b with
      | .error e => (.error e, ⟨s, b, PageHdr.reset⟩)
      | .ok h => (.ok true, ⟨s, b, h⟩)

/-- `PAGE_SUBHEADER` (src/subheaders.hpp:18-23). -/
structure PageSub where
  offset : Nat
  length : Nat
  comp : Byte
  type : Byte
deriving DecidableEq

/-- `subheader_size` (src/page.hpp:116-118). -/
def subheaderSize (f : Format) : Nat := 3 * f.intSize

/-- `_get_page_subheader` (src/page.hpp:138-149). -/
def getPageSubheader (env : Env) (b : Buf) (off : Nat) : Res PageSub := do
  b.assertCheck off (subheaderSize env.format)
  let o ← b.getUInt env.cfg env.endian env.format off
  let l ← b.getUInt env.cfg env.endian env.format (off + env.format.intSize)
  let c ← b.getByte env.cfg (off + env.format.intSize * 2)
  let t ← b.getByte env.cfg (off + env.format.intSize * 2 + 1)
  b.assertCheck o l
  return ⟨o, l, c, t⟩

/-- `process_page_subheaders` (src/page.hpp:120-136): `f` is `_process`, threaded through a state.
`k` subheader pointers remain, the next one being number `i`. -/
def processSubs {α : Type} (env : Env) (b : Buf) (f : α → PageSub → Res α) :
    (k i : Nat) → α → Res α
  | 0, _, a => .ok a
  | k + 1, i, a => do
    let s ← getPageSubheader env b (env.format.pbo + 8 + i * subheaderSize env.format)
    let a' ← if s.length = 0 then .ok a else if s.comp = 1 then .ok a else f a s
    processSubs env b f k (i + 1) a'

/-- `DataSubHeader::check` (src/subheaders.hpp:37-43). -/
def isDataSub (c : Compression) (s : PageSub) : Bool :=
  c != .none && (s.comp == 4 || s.comp == 0) && s.type == 1

end Sas
