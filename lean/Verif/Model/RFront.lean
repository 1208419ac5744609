import Verif.Model.RSinks
import Verif.Model.PyFront
import Verif.Model.TextSinks

/-!
# The R package: arguments, properties, sink classes, `read_sas`

R/CPPSAS7BDAT/src/{reader,filter}.cpp, wrap_properties.hpp and R/CPPSAS7BDAT/R/*.R. An R program is modelled up
to its first error; the outcomes are those of Python programs (`PyM`): `raised` is an R error, `cpp` what happens
in C++ (Rcpp makes an R error of a C++ exception). R and Rcpp are modelled after their documentation. As in R, an
assignment does not copy a vector: a data frame made of a list of vectors shares them until R itself changes
them. Simplifications: the sink is an environment, as R6 objects are; chunk sizes are whole numbers (Args.lean has the others); the order in
which C++ evaluates the arguments of the reader's constructor is fixed; memory suffices.
-/

namespace Sas

/-! ## Arguments -/

/-- The arguments `include` and `exclude`: `NULL`, a character vector, something else. `NA` is the string "NA"
(R/CPPSAS7BDAT/R/read_sas.R:6, R/CPPSAS7BDAT/src/filter.cpp:14-20). -/
inductive RArg
  | null
  | chr (items : List (List Byte))
  | other
deriving DecidableEq

/-- `list_to_set` (R/CPPSAS7BDAT/src/filter.cpp:16-31). The size of the vector is kept in an `int`. -/
def rListToSet : RArg → PyM (List (List Byte))
  | .null => .ok []
  | .other => .error .raised
  | .chr items => .ok (items.take (toSigned 32 (items.length % 2 ^ 32)).toNat)

/-- `filter` (R/CPPSAS7BDAT/src/filter.cpp:14-37). -/
def rFilter (incl excl : RArg) : PyM Filter := do
  let i ← rListToSet incl
  let e ← rListToSet excl
  return Filter.includeExclude i e

/-- What `_build` looks at in the sink: which names it has; `chunkSize` is the value of `chunk_size`, `some none`
if that is not a single number (R/CPPSAS7BDAT/src/reader.cpp:31-41). -/
structure RAttrs where
  chunkSize : Option (Option Int) := none
  setProperties : Bool := false
  pushRows : Bool := false
  setData : Bool := false
  pushRow : Bool := false

/-- The choice in `_build` (R/CPPSAS7BDAT/src/reader.cpp:26-48). The conversion of a double to `size_t` is
undefined when it does not fit. -/
def rKind (a : RAttrs) : PyM PyKind :=
  match a.chunkSize, a.setProperties && a.pushRows with
  | some x, true =>
    match x with
    | some n => if 0 ≤ n ∧ n < 2 ^ 64 then .ok (.chunk n.toNat) else .error (.cpp .ub)
    | none => .error .raised
  | _, _ =>
    if a.setProperties && a.setData then .ok .data
    else if a.setProperties && a.pushRow then .ok .row
    else .error .raised

/-! ## Properties -/

/-- The elements of the list of properties (R/CPPSAS7BDAT/src/wrap_properties.hpp:60-107). -/
inductive RItem
  | text (t : List Byte)
  | num (n : Nat)
  /-- The named list of the columns: under the name of each its name, label, format and type. -/
  | columns (l : List (List Byte × List (List Byte × List Byte)))
deriving DecidableEq

/-- A named list (R/CPPSAS7BDAT/src/wrap_properties.hpp:60-107). -/
abbrev RList := List (List Byte × RItem)

/-- `wrap_properties` (R/CPPSAS7BDAT/src/wrap_properties.hpp:57-108). Numbers are doubles in R; the rounding of
those beyond 2^53 is left out. -/
def wrapProperties (p : Properties) : Res RList := do
  let created ← p.header.dateCreated.toText
  let modified ← p.header.dateModified.toText
  return [
    (ascii "endianness", .text p.header.endian.text), (ascii "platform", .text p.header.platform.text),
    (ascii "date_created", .text created), (ascii "date_modified", .text modified),
    (ascii "dataset_name", .text (cString p.header.datasetName)), (ascii "encoding", .text (ascii p.header.encoding)),
    (ascii "file_type", .text (cString p.header.fileType)), (ascii "sas_release", .text (cString p.header.sasRelease)),
    (ascii "sas_server_type", .text (cString p.header.serverType)), (ascii "os_type", .text (cString p.header.osType)),
    (ascii "os_name", .text (cString p.header.osName)), (ascii "header_length", .num p.header.headerLength),
    (ascii "page_length", .num p.header.pageLength), (ascii "page_count", .num p.header.pageCount),
    (ascii "compression", .text p.md.compression.text), (ascii "creator", .text (cString p.md.creator)),
    (ascii "creator_proc", .text (cString p.md.creatorProc)), (ascii "row_length", .num p.md.rowLength),
    (ascii "row_count", .num p.md.rowCount), (ascii "column_count", .num p.md.columnCount),
    (ascii "col_count_p1", .num p.md.p1), (ascii "col_count_p2", .num p.md.p2),
    (ascii "mix_page_row_count", .num p.md.mixCount), (ascii "lcs", .num p.md.lcs), (ascii "lcp", .num p.md.lcp),
    (ascii "columns", .columns (p.columns.map fun c => (cString c.name,
      [(ascii "name", cString c.name), (ascii "label", cString c.label), (ascii "format", cString c.format), (ascii "type", c.type.text)])))]

/-- `l$name` in R: the element with this name, else the only one whose name begins so, else `NULL`
(`properties$metadata$...`, R/CPPSAS7BDAT/R/sink.R:16-17, 39, 57). -/
def RList.dollar (l : RList) (name : List Byte) : Option RItem :=
  match l.lookup name with
  | some x => some x
  | none => match l.filter fun e => e.1.take name.length = name with
    | [e] => some e.2
    | _ => none

/-- `x$name` for an element: `NULL$name` is `NULL`; for a text or a number it is an error. Lists in lists are
not looked into: only `properties$metadata$...` is evaluated (`properties$metadata$...`, R/CPPSAS7BDAT/R/sink.R:16-17, 39, 57). -/
def rDollar : Option RItem → PyM (Option RItem)
  | none => .ok none
  | some _ => .error .raised

/-- `nrow` and `ncol` of `matrix`: a number; `NULL` is an error ("non-numeric matrix extent") (R/CPPSAS7BDAT/R/sink.R:17). -/
def rExtent : Option RItem → PyM Nat
  | some (.num n) => .ok n
  | _ => .error .raised

/-- `names(x)`: `NULL` for `NULL`, a text or a number (R/CPPSAS7BDAT/R/sink.R:16, 39, 57). -/
def rNames : Option RItem → Option (List (List Byte))
  | some (.columns l) => some (l.map Prod.fst)
  | _ => none

/-! ## Data frames -/

/-- A letter; outside ASCII every character is taken for one (in `as.data.frame(rows)`, R/CPPSAS7BDAT/R/sink.R:42). -/
def rAlpha (b : Byte) : Bool := (65 ≤ b.toNat && b.toNat ≤ 90) || (97 ≤ b.toNat && b.toNat ≤ 122) || 128 ≤ b.toNat

/-- A digit (in `as.data.frame(rows)`, R/CPPSAS7BDAT/R/sink.R:42). -/
def rDigit (b : Byte) : Bool := 48 ≤ b.toNat && b.toNat ≤ 57

/-- R's reserved words (in `as.data.frame(rows)`, R/CPPSAS7BDAT/R/sink.R:42). -/
def rReserved : List (List Byte) :=
  ["NULL", "NA", "TRUE", "FALSE", "Inf", "NaN", "NA_integer_", "NA_real_", "NA_character_", "NA_complex_", "function",
    "while", "repeat", "for", "if", "in", "else", "next", "break", "..."].map ascii

/-- Is the character `X` put before the name? (in `as.data.frame(rows)`, R/CPPSAS7BDAT/R/sink.R:42). -/
def rPrefixed : List Byte → Bool
  | [] => true
  | 46 :: b :: _ => rDigit b
  | b :: _ => !(rAlpha b || b = 46)

/-- `make.names(name)` (in `as.data.frame(rows)`, R/CPPSAS7BDAT/R/sink.R:42). -/
def rMakeName (name : List Byte) : List Byte :=
  let name := if rPrefixed name then 88 :: name else name
  let name := name.map fun b => if rAlpha b || rDigit b || b = 46 || b = 95 then b else 46
  if rReserved.contains name then name ++ [46] else name

/-- What a frame's columns are called: `make.names(names, unique = TRUE)`. What `make.unique` makes of names
that are not distinct is left open (in `as.data.frame(rows)`, R/CPPSAS7BDAT/R/sink.R:42). -/
def rFrameNames (unique : List (List Byte) → List (List Byte)) (names : List (List Byte)) : List (List Byte) :=
  let names := names.map rMakeName
  if names.Nodup then names else unique names

/-- A data frame or a named list, with the values it has when it is looked at (R/CPPSAS7BDAT/R/sink.R:42-44, 60). -/
abbrev RTable := List (List Byte × List RVal)

/-- What the field `df` refers to (R/CPPSAS7BDAT/R/sink.R:10, 30, 51). -/
inductive RDf
  /-- `NULL`. -/
  | null
  /-- The list `rows` of the C++ sink. -/
  | list
  /-- A frame that shares the vectors of the C++ sink. -/
  | shared (names : List (List Byte)) (vecs : List Nat)
  /-- A frame with vectors of its own. -/
  | own (table : RTable)
deriving DecidableEq

/-! ## sink.R -/

/-- `SinkByRow`, `SinkByChunk` and `SinkWholeData` (R/CPPSAS7BDAT/R/sink.R:8-63). The frame of `SinkByRow` is
left out: it is never made (see `RObj.setProperties`). -/
structure RObj where
  kind : PyKind
  properties : Option RList := none
  columns : Option (List (List Byte)) := none
  df : RDf := .null
deriving DecidableEq

/-- `set_properties` (R/CPPSAS7BDAT/R/sink.R:14-19, 37-40, 55-58). -/
def RObj.setProperties (o : RObj) (p : RList) : PyM RObj := do
  let metadata := p.dollar (ascii "metadata")
  let columns := rNames (← rDollar metadata)
  if o.kind = .row then
    let _ ← rExtent (← rDollar metadata)
    let _ ← rExtent (← rDollar metadata)
  return { o with properties := some p, columns := columns }

/-- `rbind(a, b)` for two frames with the same names: new vectors (R/CPPSAS7BDAT/R/sink.R:44). -/
def rBind (a b : RTable) : RTable := List.zipWith (fun x y => (x.1, x.2 ++ y.2)) a b

/-- What a frame or list holds now (R/CPPSAS7BDAT/R/sink.R:43-44, 60). -/
def RDf.look (st : RCols) : RDf → Option RTable
  | .null => none
  | .list => some st.rows
  | .shared names vecs => some (names.zip (vecs.map st.heap.get))
  | .own t => some t

/-- `push_rows` (R/CPPSAS7BDAT/R/sink.R:41-45); `st` is the C++ sink, whose list `rows` is the argument. -/
def RObj.pushRows (unique : List (List Byte) → List (List Byte)) (o : RObj) (st : RCols) : RObj :=
  let names := rFrameNames unique (st.cols.map fun g => cString g.1.name)
  match o.df.look st with
  | none => { o with df := .shared names st.list }
  | some t => { o with df := .own (rBind t (names.zip (st.list.map st.heap.get))) }

/-! ## A program -/

/-- The C++ side of a sink (R/CPPSAS7BDAT/src/sink.hpp:15, R/CPPSAS7BDAT/src/sink_chunk.hpp:16, R/CPPSAS7BDAT/src/sink_data.hpp:16). -/
inductive RCpp
  | row (st : RRowSink)
  | chunk (st : RCols)
  | data (st : RCols)

/-- A sink object of sink.R and its C++ side (R/CPPSAS7BDAT/R/sink.R:8-63, R/CPPSAS7BDAT/src/reader.cpp:31-47). -/
structure RSink where
  obj : RObj
  cpp : RCpp

/-- A new sink, as `_build` wraps it (R/CPPSAS7BDAT/src/reader.cpp:31-47). -/
def RSink.new (kind : PyKind) : RSink where
  obj := { kind := kind }
  cpp := match kind with
    | .row => .row {}
    | .chunk n => .chunk { size := n }
    | .data => .data { size := 0 }

/-- Is there a call of `push_rows` or `set_data` among these? (R/CPPSAS7BDAT/src/sink_chunk.hpp:42, R/CPPSAS7BDAT/src/sink_data.hpp:26). -/
def delivers : List RCall → Bool
  | [] => false
  | .pushRows _ _ :: _ => true
  | .setData _ _ :: _ => true
  | _ :: cs => delivers cs

/-- What the R object does when the reader calls `set_properties` (R/CPPSAS7BDAT/src/sink_base.hpp:22-26): it gets the
list of properties. -/
def RObj.told (o : RObj) : Event → PyM RObj
  | .setProperties p => do o.setProperties (← PyM.ofRes (wrapProperties p))
  | _ => .ok o

/-- A call of the reader on the sink. No two chunks are delivered in one call, and the state after the call still has
what was delivered. A sink row by row has no frame to put a row in
(R/CPPSAS7BDAT/src/sink.hpp:19-91, R/CPPSAS7BDAT/src/sink_chunk.hpp:22-45, R/CPPSAS7BDAT/src/sink_data.hpp:20-27 with R/CPPSAS7BDAT/R/sink.R:8-63). -/
def RSink.event (unique : List (List Byte) → List (List Byte)) (s : RSink) (ev : Event) : PyM RSink := do
  let obj ← s.obj.told ev
  match s.cpp with
  | .row st => do
    let (st, _) ← PyM.ofRes (st.step ev)
    return { obj := obj, cpp := .row st }
  | .chunk st => do
    let (st, out) ← PyM.ofRes (st.step ev)
    return { obj := if delivers out then obj.pushRows unique st else obj, cpp := .chunk st }
  | .data st => do
    let (st, out) ← PyM.ofRes (st.dataStep ev)
    return { obj := if delivers out then { obj with df := .list } else obj, cpp := .data st }

/-- The calls of the reader on the sink, one after the other
(R/CPPSAS7BDAT/src/sink.hpp:19-91, R/CPPSAS7BDAT/src/sink_chunk.hpp:22-45, R/CPPSAS7BDAT/src/sink_data.hpp:20-27 with R/CPPSAS7BDAT/R/sink.R:8-63). -/
def RSink.events (unique : List (List Byte) → List (List Byte)) : RSink → List Event → PyM RSink
  | s, [] => .ok s
  | s, ev :: evs => do (← s.event unique ev).events unique evs

/-- `sink$df` (R/CPPSAS7BDAT/R/sink.R:10, 30, 51). -/
def RSink.df (s : RSink) : Option RTable :=
  match s.cpp with
  | .row _ => s.obj.df.look { size := 0 }
  | .chunk st => s.obj.df.look st
  | .data st => s.obj.df.look st

/-- A reader and its sink (a program that uses R/CPPSAS7BDAT/R/reader.R:6-10 and R/CPPSAS7BDAT/src/reader.cpp:55-79). -/
structure RSession (σ : Type) where
  reader : Reader σ
  sink : RSink

variable {σ : Type}

/-- `sas_reader(filename, sink, include, exclude)` (R/CPPSAS7BDAT/R/reader.R:6-10, src/reader.cpp:22-53) for a sink
of sink.R that has not been used yet. The file name is passed on as a C string. -/
def rOpen (unique : List (List Byte) → List (List Byte)) (cfg : Cfg) (fuel : Nat) (fs : FileSystem)
    (name : List Byte) (kind : PyKind) (incl excl : RArg) : PyM (RSession IFStream) := do
  let f ← rFilter incl excl
  let src ← PyM.ofRes (openFile fs (name.takeWhile (· ≠ 0)))
  let R ← PyM.ofRes (openReader cfg ifs fuel (some f) src)
  return { reader := R, sink := ← (RSink.new kind).events unique R.trace }

/-- A method of the reader (R/CPPSAS7BDAT/src/reader.cpp:59-79). -/
def RSession.op (unique : List (List Byte) → List (List Byte)) (S : Source σ) (s : RSession σ) (op : Op) :
    PyM (RSession σ) := do
  let (r, R) := s.reader.step S op
  let sink ← s.sink.events unique (R.trace.drop s.reader.trace.length)
  let _ ← PyM.ofRes r
  return { reader := R, sink := sink }

/-- Methods one after the other (a program that uses R/CPPSAS7BDAT/R/reader.R:6-10 and R/CPPSAS7BDAT/src/reader.cpp:55-79). -/
def RSession.ops (unique : List (List Byte) → List (List Byte)) (S : Source σ) : RSession σ → List Op → PyM (RSession σ)
  | s, [] => .ok s
  | s, op :: ops => do (← s.op unique S op).ops unique S ops

/-- `properties()` of a reader (R/CPPSAS7BDAT/src/reader.cpp:55-57). -/
def RSession.properties (s : RSession σ) : PyM RList := PyM.ofRes (wrapProperties s.reader.props)

/-- A program that opens a file and then calls methods of the reader: the session at the end
(a program that uses R/CPPSAS7BDAT/R/reader.R:6-10 and R/CPPSAS7BDAT/src/reader.cpp:55-79). -/
def rProgram (unique : List (List Byte) → List (List Byte)) (cfg : Cfg) (fuel : Nat) (fs : FileSystem)
    (name : List Byte) (kind : PyKind) (incl excl : RArg) (ops : List Op) : PyM (RSession IFStream) := do
  (← rOpen unique cfg fuel fs name kind incl excl).ops unique ifs ops

/-- `read_sas(filename, include, exclude)` (R/CPPSAS7BDAT/R/read_sas.R:6-12): the sink. -/
def rReadSas (unique : List (List Byte) → List (List Byte)) (cfg : Cfg) (fuel : Nat) (fs : FileSystem)
    (name : List Byte) (incl excl : RArg := .null) : PyM RSink := do
  return (← rProgram unique cfg fuel fs name .data incl excl [.readAll]).sink

end Sas
