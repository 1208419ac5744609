import Verif.Model.TextSinks
import Verif.Model.Throwing

/-!
# Streams that fail under the sinks that write text

The csv sink and the print sink (include/cppsas7bdat/sink/csv.hpp, print.hpp) write to a `std::ostream` with
`fmt::print`, which calls `std::ostream::write` and looks at nothing. Here the stream has a buffer and a device that
takes a limited number of bytes, as a disk does that is full. Simplifications: what a call of the sink writes arrives
at the stream as one piece; when it does not fit into the buffer, everything is sent to the device; a device that is full
stays full.
-/

namespace Sas

/-- A `std::ostream` and the device behind it (`os`, include/cppsas7bdat/sink/csv.hpp:22, include/cppsas7bdat/sink/print.hpp:19). -/
structure Out where
  /-- how many bytes the device still takes -/
  room : Nat
  /-- the size of the buffer -/
  cap : Nat
  /-- what the device holds -/
  device : List Byte
  /-- what is in the buffer -/
  pend : List Byte
  /-- `badbit` -/
  bad : Bool
  /-- `exceptions(badbit)` has been called; by default it has not -/
  throws : Bool

/-- The buffer is sent to the device, which takes what it has room for; `badbit` when that is not all
(`os`, include/cppsas7bdat/sink/csv.hpp:22, 86, include/cppsas7bdat/sink/print.hpp:19). -/
def Out.sync (o : Out) : Out :=
  { o with device := o.device ++ o.pend.take o.room, room := o.room - o.pend.length, pend := [],
           bad := o.bad || decide (o.room < o.pend.length) }

/-- `std::ostream::write`: a bad stream takes nothing. The answer says whether `std::ios_base::failure` is thrown, which is
so when `badbit` is set and exceptions are asked for. Nothing is called for an empty text
(`os`, include/cppsas7bdat/sink/csv.hpp:22, include/cppsas7bdat/sink/print.hpp:19). -/
def Out.write (o : Out) (t : List Byte) : Bool × Out :=
  if t = [] then (false, o)
  else if o.bad then (o.throws, o)
  else if o.pend.length + t.length ≤ o.cap then (false, { o with pend := o.pend ++ t })
  else
    let o := { o with pend := o.pend ++ t }.sync
    (o.bad && o.throws, o)

/-- The end of the stream's life: the buffer is sent to the device, and a failure is ignored
(`os`, include/cppsas7bdat/sink/csv.hpp:22, 86, include/cppsas7bdat/sink/print.hpp:19). -/
def Out.close (o : Out) : Out := o.sync

/-- Why a sink that writes text does not return (include/cppsas7bdat/sink/csv.hpp:28-72, include/cppsas7bdat/sink/print.hpp:64-83). -/
inductive TextStop
  /-- `std::ios_base::failure` -/
  | stream
  /-- the text could not be made -/
  | text (e : Stop)
deriving DecidableEq

/-- A sink that writes text: `os` and `columns` (include/cppsas7bdat/sink/csv.hpp:22-26, include/cppsas7bdat/sink/print.hpp:18-23). -/
structure TextSink where
  os : Out
  cols : List Column

/-- The calls on it (include/cppsas7bdat/sink/csv.hpp:28-72, include/cppsas7bdat/sink/print.hpp:64-83): `step` is `csvStep x` or `printStep x`. `end_of_data` does nothing
(include/cppsas7bdat/sink/csv.hpp:72, include/cppsas7bdat/sink/print.hpp:83); in particular it does not flush. -/
def textSink (step : List Column → Event → Printed × List Column) : SinkCode TextSink TextStop where
  call k ev :=
    match k.os.write (step k.cols ev).1.1 with
    | (true, os) => (.error .stream, ⟨os, (step k.cols ev).2⟩)
    | (false, os) =>
      (match (step k.cols ev).1.2 with
        | .ok () => .ok ()
        | .error e => .error (.text e), ⟨os, (step k.cols ev).2⟩)

end Sas
