import Verif.Model.Reader

/-!
# Two builds of the library
-/

namespace Sas.Spec

open Sas

/-- Two builds that run on the same machine (the same memory, the same content of fresh memory), the first of which
checks no more than the second: a release build and a debug build, for example. -/
structure ChecksLess (c' c : Cfg) : Prop where
  debug : c'.debug = true → c.debug = true
  asserts : c'.asserts = true → c.asserts = true
  maxAlloc : c'.maxAlloc = c.maxAlloc
  maxCols : c'.maxCols = c.maxCols
  junk : c'.junk = c.junk

end Sas.Spec
