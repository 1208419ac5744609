import Verif.Model.Buffer

/-!
# include/cppsas7bdat/source/ifstream.hpp
-/

namespace Sas

/-- The `std::ifstream` inside `datasource::ifstream`
(include/cppsas7bdat/source/ifstream.hpp:17-18), opened on a regular file in binary mode. `failbit`
stands for `failbit | badbit`. `fault = some k`: the device reports an I/O error for any access to byte
`k` or later. -/
structure IFStream where
  data : List Byte
  pos : Nat
  eofbit : Bool
  failbit : Bool
  fault : Option Nat
deriving DecidableEq

/-- Freshly opened file (src/stream.cpp:15-25, include/cppsas7bdat/source/ifstream.hpp:20). -/
def IFStream.open (data : List Byte) : IFStream := ⟨data, 0, false, false, none⟩

/-- `ifstream::eof` (include/cppsas7bdat/source/ifstream.hpp:22). -/
def IFStream.eof (s : IFStream) : Bool := s.eofbit

/-- `std::istream::read` on a good stream whose device works (part of `ifstream::read_bytes`,
include/cppsas7bdat/source/ifstream.hpp:23-28). -/
def IFStream.readPlain (s : IFStream) (n : Nat) : ReadRes IFStream :=
  if s.pos + n ≤ s.data.length then
    ⟨{ s with pos := s.pos + n }, slice s.data s.pos n, true⟩
  else
    ⟨{ s with pos := s.data.length, eofbit := true, failbit := true },
      s.data.drop s.pos, false⟩

/-- `ifstream::read_bytes` (include/cppsas7bdat/source/ifstream.hpp:23-28), i.e. `is.read(p, n)`
followed by `is.good()`.

`std::istream::read`: if the stream is not good, `failbit` is set and nothing is read. Otherwise up to
`n` characters are stored and `eofbit|failbit` are set when fewer were available. A count of 2^63 or
more converts to a negative `std::streamsize`; `sgetn` then stores nothing and, its result being
different from `n`, `eofbit|failbit` are set. After a device error the bytes before it are
stored and `badbit` (not `eofbit`) is set. -/
def IFStream.read (s : IFStream) (n : Nat) : ReadRes IFStream :=
  if s.eofbit || s.failbit then ⟨{ s with failbit := true }, [], false⟩
  else if 2 ^ 63 ≤ n then ⟨{ s with eofbit := true, failbit := true }, [], false⟩
  else
    match s.fault with
    | some k =>
      if k < s.pos + n ∧ k ≤ s.data.length then
        ⟨{ s with pos := max s.pos k, failbit := true }, slice s.data s.pos (k - s.pos), false⟩
      else IFStream.readPlain s n
    | none => IFStream.readPlain s n

/-- The file source as a `Source` (include/cppsas7bdat/source/ifstream.hpp:17-28). -/
def ifs : Source IFStream := ⟨IFStream.eof, IFStream.read⟩

end Sas
