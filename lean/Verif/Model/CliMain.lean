import Verif.Model.Cli

/-!
# The command line program as a whole: `main` of apps/cppsas7bdat-ci.cpp
-/

namespace Sas

/-- What the user asks for (apps/cppsas7bdat-ci.cpp:18-32), as docopt delivers it: the number of lines, if it is
given, and the files. Not modelled: help, version, and command lines docopt refuses (an `--nlines` that is not a
number is one of them). -/
inductive Command
  | print (nlines : Option Int) (files : List (List Byte))
  | csv (files : List (List Byte))
  | null (files : List (List Byte))

/-- What can be seen of a run: how it ends, what is on the standard output, and the files afterwards
(what apps/cppsas7bdat-ci.cpp:67-96 does). -/
structure Ran where
  res : Res Unit
  out : List Byte
  fs : FileSystem

/-- `main` (apps/cppsas7bdat-ci.cpp:67-96). An exception that leaves it ends the program. `sourceFirst` is as in
`processCsv`. Simplification: what has been printed reaches the standard output also when an exception ends the
program (the stream is unbuffered, or flushed). -/
def runMain (cfg : Cfg) (x : Texts) (fuel : Nat) (sourceFirst : Bool) (fs : FileSystem) : Command → Ran
  | .print nlines files =>
    let n := nlines.getD (-1)
    let (r, out) := processFiles (fun out f => ((processPrint cfg x fuel fs f n).2, out ++ (processPrint cfg x fuel fs f n).1))
      [] files
    ⟨r, out, fs⟩
  | .csv files =>
    let (r, fs) := processFiles (fun fs f => processCsv cfg x fuel sourceFirst fs f) fs files
    ⟨r, [], fs⟩
  | .null files =>
    let (r, _) := processFiles (fun _ f => (processNull cfg fuel fs f, ())) () files
    ⟨r, [], fs⟩

end Sas
