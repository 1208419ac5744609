import Verif.Model.Reader

/-!
# Where the rows lie: src/data.hpp, src/decompressors.hpp

The sink and `read_row_no_sink` get a pointer. `Row` in Data.lean holds the bytes behind it at that moment; here is the
pointer itself.
-/

namespace Sas

/-- A pointer to a row: into the page buffer (`READ_PAGE::buf`, src/page.hpp:67), or to the start of the decompressor's
buffer (`DST_VALUES::buf`, src/decompressors.hpp:46). -/
inductive Place
  | page (off : Nat)
  | scratch
deriving DecidableEq

/-- The pointer `extract_row_values` returns (src/data.hpp:188-199). The decompressor `None` returns the view it was given
(src/decompressors.hpp:39-43), the other two one of their own buffer (src/decompressors.hpp:159, 266). -/
def rowPlace (md : Meta) (off len : Nat) : Place :=
  if len < md.rowLength then
    match md.compression with
    | .none => .page off
    | _ => .scratch
  else .page off

variable {σ : Type}

/-- The pointer the next call of `read_row` or `read_row_no_sink` hands out (src/data.hpp:181-186, src/reader-impl.hpp:85-99);
`none` if there is no row. -/
def Reader.nextPlace (S : Source σ) (R : Reader σ) : Option Place :=
  match R.rd.next R.env S R.props.md with
  | (.ok true, r) =>
    match r.takeLine with
    | (.ok (off, len), _) => some (rowPlace R.props.md off len)
    | _ => none
  | _ => none

/-- The memory from a pointer to the end of its block, as it is now (the pointer of src/reader-impl.hpp:87, 97). -/
def Reader.behind (R : Reader σ) : Place → List Byte
  | .page off => R.rd.p.buf.mem.drop off
  | .scratch => R.rd.dst

end Sas
