import Verif.Spec.Bounds
import Verif.Model.Log

/-!
# What the messages of the library mean

Nothing here refers to the functions of the model; its data types for messages, exceptions and results are used.
-/

namespace Sas.Spec

open Sas

/-- The exceptions that the library itself throws. (The others come from the standard library, boost and fmt.) -/
def ownExceptions : List Exn := [.headerTooShort, .invalidMagicNumber, .cannotReadPage, .cannotDecompress, .notAValidFile]

/-- The exceptions that messages announce, in order. -/
def announcedIn (ms : List Msg) : List Exn :=
  ms.filterMap fun m => match m with
    | .raised e _ => some e
    | _ => none

/-- The exception of the library itself that a call is left by, if it is. -/
def leftBy {α : Type} : Res α → List Exn
  | .error (.exn e) => if e ∈ ownExceptions then [e] else []
  | _ => []

/-- The messages that a call of the library leaves behind say how it ended: nothing is said when it returns or when somebody else
has thrown an exception; else the exception is announced, once, in the last message. -/
structure Honest {α : Type} (r : Res α) (ms : List Msg) : Prop where
  announced : announcedIn ms = leftBy r
  silent : leftBy r = [] → ms = []
  last : ∀ e, r = .error (.exn e) → e ∈ ownExceptions → ∃ f, ms.getLast? = some (.raised e f)

/-- A subheader of some kind starts at position `o` of the page, in whatever byte order. -/
def knownAt (f : Format) (page : List Byte) (o : Nat) : Bool :=
  [Sig.rowSize, .columnSize, .counts, .columnText, .columnNames, .columnAttrs, .formatLabel, .columnList].any fun s =>
    slice page o (word f) == s.bytes .little f || slice page o (word f) == s.bytes .big f

/-- What is said about a subheader, given those before it: that there are not as many columns as the row-size subheader
announces in its two numbers, and that it is neither a known subheader nor a row of a compressed file. -/
def saidAbout (f : Format) (compressed : Bool) (page : List Byte) (before : List Sub) (p : PageSub) : Sub → List Msg
  | .columnSize n =>
    if ((rowSizeOf .none before).p1 + (rowSizeOf .none before).p2) % 2 ^ 64 = n then [] else [.columnCountMismatch]
  | .ignored => if knownAt f page p.offset then [] else [.unknownSubheader]
  | .row => if compressed then [] else [.unknownSubheader]
  | _ => []

/-- What is said about the subheaders of a page, given those of the pages before it. -/
def saidOnPage (f : Format) (compressed : Bool) (page : List Byte) : (before : List Sub) → List (PageSub × Sub) → List Msg
  | _, [] => []
  | before, (p, s) :: rest =>
    saidAbout f compressed page before p s ++ saidOnPage f compressed page (before ++ [s]) rest

/-- The subheaders of a page that count, with their pointers. -/
def PageContent.usedSubs (c : PageContent) : List (PageSub × Sub) :=
  if hasMeta c.type then c.subs.filter fun ps => live ps.1 else []

/-- What is said about the subheaders of pages. -/
def saidOnPages (f : Format) (compressed : Bool) : (before : List Sub) → List (List Byte × PageContent) → List Msg
  | _, [] => []
  | before, pc :: rest =>
    saidOnPage f compressed pc.1 before pc.2.usedSubs ++ saidOnPages f compressed (before ++ pc.2.used) rest

end Sas.Spec
