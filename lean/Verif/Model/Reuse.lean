import Verif.Model.PyFront

/-!
# Reading another file into a Python sink that has been used already

python/pycppsas7bdat/cpp/reader.cpp, read_sas.py, sink.py. PyFront.lean has the first file of a new sink.
-/

namespace Sas

/-- `Reader(filename, sink, include, exclude)` (python/pycppsas7bdat/cpp/reader.cpp:20-84) for a sink of sink.py in any
state. The reader makes a new C++ sink for it, and that one sets the attribute `_cpp` anew. -/
def pyOpenInto (cfg : Cfg) (fuel : Nat) (fs : FileSystem) (name : List Byte) (obj : PyObj) (incl excl : PyArg) :
    PyM (PySession IFStream) := do
  let f ← pyFilter incl excl
  let src ← PyM.ofRes (openFile fs (name.takeWhile (· ≠ 0)))
  let R ← PyM.ofRes (openReader cfg ifs fuel (some f) src)
  ({ reader := R, cpp := CppSink.start obj.kind, obj := obj } : PySession IFStream).events R.trace

/-- `read_sas(filename, sink, include, exclude)` (python/pycppsas7bdat/read_sas.py:9-13) for a sink of sink.py in any
state. -/
def readSasInto (cfg : Cfg) (fuel : Nat) (fs : FileSystem) (name : List Byte) (obj : PyObj) (incl excl : PyArg := .none) :
    PyM (PySession IFStream) := do
  let s ← pyOpenInto cfg fuel fs name obj incl excl
  return (← s.op ifs .readAll).drop

end Sas
