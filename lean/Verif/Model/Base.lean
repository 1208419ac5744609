/-!
# Basic vocabulary of the model

Bytes, outcomes, build configuration and 64-bit wrap-around arithmetic.
-/

namespace Sas

/-- `uint8_t` (include/cppsas7bdat/types.hpp, src/types.hpp:50 `using BYTE = uint8_t`). -/
abbrev Byte := UInt8

/-- The C++ exceptions that can reach a caller: the ones raised by src/exceptions.cpp:15-42
(`std::runtime_error`), `std::out_of_range` from `vals.at(icol)` (src/metadata.hpp:422),
`std::bad_alloc` from `operator new` (src/memory.hpp:26) and from `columns.reserve`
(src/metadata.hpp:414), `fmt::format_error` from `fmt::print` (include/cppsas7bdat/sink/print.hpp:70). -/
inductive Exn
  | headerTooShort
  | invalidMagicNumber
  | cannotReadPage
  | cannotDecompress
  | notAValidFile
  | outOfRange
  | badAlloc
  | formatError
deriving DecidableEq, Repr

/-- Why an operation does not return normally.
* `exn e`     : a C++ exception propagates to the caller;
* `terminate` : `std::terminate` (an exception leaving a `noexcept` function, or a failed
  `FMT_ASSERT` in a build where assertions are active);
* `ub`        : undefined behaviour (out-of-bounds access, overlapping `memcpy`, ...);
* `fuel`      : the iteration bound that makes a possibly endless loop definable was exhausted
(no definition of the library: the ends of the functions of src/*.hpp; exceptions are those of src/exceptions.cpp:15-42 and of the standard library). -/
inductive Stop
  | exn (e : Exn)
  | terminate
  | ub
  | fuel
deriving DecidableEq, Repr

/-- Outcome of an operation
(no definition of the library: the return, or not, of the functions of src/reader.cpp:22-72 and of what they call). -/
abbrev Res := Except Stop

instance instDecidableEqRes {α : Type} [DecidableEq α] : DecidableEq (Res α)
  | .ok a, .ok b => if h : a = b then isTrue (by rw [h]) else isFalse (by intro h'; cases h'; exact h rfl)
  | .error a, .error b => if h : a = b then isTrue (by rw [h]) else isFalse (by intro h'; cases h'; exact h rfl)
  | .ok _, .error _ => isFalse (by intro h; cases h)
  | .error _, .ok _ => isFalse (by intro h; cases h)

/-- The outcomes after which the C++ program can go on: a value or a catchable exception
(no definition of the library: the exceptions of src/exceptions.cpp:15-42 can be caught). -/
def Benign {α : Type} : Res α → Prop
  | .ok _ => True
  | .error (.exn _) => True
  | .error _ => False

/-- What depends on how and where the library is compiled.
* `debug`    : the `DEBUG` macro is defined (src/buffer.hpp:74, 86 bounds checks in `data`);
* `asserts`  : `NDEBUG` is not defined, so that `FMT_ASSERT` is active;
* `maxAlloc` : the largest allocation `operator new` satisfies (src/memory.hpp:26);
* `maxCols`  : the largest `columns.reserve` that succeeds (src/metadata.hpp:414);
* `junk`     : the content of freshly allocated, uninitialised memory. -/
structure Cfg where
  debug : Bool
  asserts : Bool
  maxAlloc : Nat
  maxCols : Nat
  junk : Nat → Byte

/-- `size_t` arithmetic wraps modulo 2^64 (x86-64 / any LP64 platform) (for the sums in src/buffer.hpp:55, 63). -/
def w64 (n : Nat) : Nat := n % 2 ^ 64

/-- `size_t` subtraction `a - b`, wrapping below zero (for the differences in src/header.hpp:86-103, src/metadata.hpp:330-331, 351-352 and src/decompressors.hpp:98-102). -/
def sub64 (a b : Nat) : Nat := (a + (2 ^ 64 - b % 2 ^ 64)) % 2 ^ 64

/-- `FMT_ASSERT(c, ..)`: nothing when `NDEBUG` is defined, otherwise
`fmt::detail::assert_fail`, which ends in `std::terminate` (src/header.hpp:83, 95, 106; src/data.hpp:191). -/
def fmtAssert (cfg : Cfg) (c : Bool) : Res Unit :=
  if cfg.asserts && !c then .error .terminate else .ok ()

/-- The `len` bytes of `l` from position `off` on (for `data` and `get_string` of src/buffer.hpp:71-78, 168-180). -/
def slice {α : Type} (l : List α) (off len : Nat) : List α := (l.drop off).take len

/-- Template parameter `Endian` of the readers (src/sas7bdat-impl.hpp:81-110 only instantiates
`big` and `little`). -/
inductive Endian
  | little
  | big
deriving DecidableEq, Repr

/-- `Format` (include/cppsas7bdat/types.hpp:31). -/
inductive Format
  | bit32
  | bit64
deriving DecidableEq, Repr

/-- `sizeof(integer_t)` (src/types.hpp:184-194, src/buffer.hpp:190). -/
def Format.intSize : Format → Nat
  | .bit32 => 4
  | .bit64 => 8

/-- `PAGE_CONSTANT::page_bit_offset` (src/page.hpp:47-53). -/
def Format.pbo : Format → Nat
  | .bit32 => 16
  | .bit64 => 32

/-- `Compression` (include/cppsas7bdat/types.hpp:33). -/
inductive Compression
  | none
  | rle
  | rdc
deriving DecidableEq, Repr

/-- `Platform` (include/cppsas7bdat/types.hpp:32). -/
inductive Platform
  | unknown
  | unix
  | windows
deriving DecidableEq, Repr

/-- ASCII text as bytes (the string literals of the C++ sources) (for those of src/metadata.hpp:18-37, 113-114, for example). -/
def ascii (s : String) : List Byte := s.toList.map fun c => UInt8.ofNat c.toNat

end Sas
