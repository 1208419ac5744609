import Verif.Model.Throwing

/-!
# Filters that are programs

The filter is an object of the user (include/cppsas7bdat/reader.hpp:70-87): it may remember what it was asked, answer
differently each time, and throw. `createLoop` of Metadata.lean is the same code for a filter that is a function of the
column.
-/

namespace Sas

/-- A filter (include/cppsas7bdat/reader.hpp:70-74): what it answers, and what has become of it. `accept` is `const`,
but the object may refer to others or have mutable members. -/
structure FilterCode (φ δ : Type) where
  ask : φ → Column → Except δ Bool × φ

/-- Why the constructor does not return: an error of the reader, or an exception of the filter or the sink (src/reader.cpp:26-39). -/
inductive FStop (δ ε : Type)
  | reader (s : Stop)
  | filter (x : δ)
  | sink (x : ε)
deriving DecidableEq

variable {σ τ φ δ ε : Type}

/-- The loop of `create_columns` (src/metadata.hpp:427-496) with the call of the filter (src/metadata.hpp:445-447). -/
def createAsking (F : FilterCode φ δ) (e : Endian) (acc : Acc) :
    (k icol : Nat) → List Column → φ → Except (FStop δ ε) (List Column) × φ
  | 0, _, cols, f => (.ok cols, f)
  | k + 1, icol, cols, f =>
    match buildColumn e acc icol with
    | .error x => (.error (.reader x), f)
    | .ok c =>
      match F.ask f c with
      | (.error x, f) => (.error (.filter x), f)
      | (.ok keep, f) => createAsking F e acc k (icol + 1) (if keep then cols ++ [c] else cols) f

/-- `create_columns` (src/metadata.hpp:411-497). -/
def createColumnsAsking (F : FilterCode φ δ) (cfg : Cfg) (e : Endian) (acc : Acc) (f : φ) :
    Except (FStop δ ε) (List Column) × φ :=
  if acc.md.columnCount ≤ cfg.maxCols then createAsking F e acc acc.md.columnCount 0 [] f
  else (.error (.reader (.exn .badAlloc)), f)

/-- `Reader::Reader(source, sink, filter)` (src/reader.cpp:26-39, src/sas7bdat-impl.hpp:43-160,
src/reader-impl.hpp:23-26): the reader, and what has become of the filter and the sink. -/
def openAsking (F : FilterCode φ δ) (K : SinkCode τ ε) (cfg : Cfg) (S : Source σ) (fuel : Nat) (s : σ) (f : φ) (k : τ) :
    Except (FStop δ ε) (TReader σ τ) × φ × τ :=
  match readHeader cfg S s with
  | .error x => (.error (.reader x), f, k)
  | .ok (h, b, s) =>
    let env : Env := { cfg := cfg, endian := h.endian, format := h.format, pageLength := h.pageLength, fuel := fuel }
    match metaLoop env S fuel ⟨s, b, PageHdr.reset⟩ {} with
    | .error x => (.error (.reader x), f, k)
    | .ok (p, acc) =>
      match createColumnsAsking F cfg h.endian acc f with
      | (.error x, f) => (.error x, f, k)
      | (.ok columns, f) =>
        match RD.build env p acc with
        | .error x => (.error (.reader x), f, k)
        | .ok rd =>
          let props : Properties := { header := h, md := acc.md, columns := columns }
          let R : Reader σ := { env := env, props := props, rd := rd, trace := [.setProperties props] }
          match K.call k (.setProperties props) with
          | (.ok (), k) => (.ok ⟨R, k⟩, f, k)
          | (.error x, k) => (.error (.sink x), f, k)

end Sas
