import Verif.Model.PyOwn

/-! # What a program has of a sink -/

namespace Sas.Spec

/-- The number of readers that live. -/
def livingReaders (w : OwnProgram) : Nat := w.readers.countP Option.isSome

/-- The number of times the sink was told properties: once by each reader, also by one that was refused. A reader can only be
opened with the sink while there is a variable for it (`var`). -/
def tellings (var : Bool) : List OwnStmt → Nat
  | [] => 0
  | .open _ (.opened _) :: ss => (if var then 1 else 0) + tellings var ss
  | .open _ (.refused _) :: ss => (if var then 1 else 0) + tellings var ss
  | .delSink :: ss => tellings false ss
  | _ :: ss => tellings var ss

/-- Calls of readers, which tell the properties only when they are opened (C08). -/
def ReaderCalls (ss : List OwnStmt) : Prop :=
  ∀ i es, OwnStmt.calls i es ∈ ss → ∀ p, Event.setProperties p ∉ es

/-- The program has released everything. -/
def Released (w : OwnProgram) : Prop := w.var = false ∧ livingReaders w = 0

end Sas.Spec

namespace Sas.Spec

/-- The reader is there. -/
def OwnAlive (w : OwnProgram) (r : Nat) : Prop := ∃ s, w.readers[r]? = some (some s)

/-- The statement tells the sink nothing new and does not end the data of a reader that lives. -/
def QuietFor (w : OwnProgram) : OwnStmt → Prop
  | .open _ how => how = .failed
  | .calls r es => OwnAlive w r → .endOfData ∉ es
  | .ask => False
  | .delReader _ => True
  | .delSink => True

/-- All statements are quiet. -/
def AllQuiet (w : OwnProgram) : List OwnStmt → Prop
  | [] => True
  | s :: ss => QuietFor w s ∧ AllQuiet (w.stmt s) ss

/-- The last reader that has told the sink its properties is gone (dropped, or never made because the sink refused), and since
then nobody has ended the data of the sink. -/
def Abandoned (ss : List OwnStmt) : Prop :=
  ∃ a n how b, ss = a ++ .open n how :: b ∧ how ≠ .failed ∧ AllQuiet (({} : OwnProgram).run (a ++ [.open n how])) b ∧
    ((∃ p, how = .refused p) ∨ .delReader (({} : OwnProgram).run a).readers.length ∈ b)

end Sas.Spec
