import Verif.Proofs.Several
import Verif.Props.SourceThrowing

/-!
# Property C95: several readers in one program
-/

namespace Sas.Props

open Sas Spec Proofs

variable {σ : Type}

/-- **C95**: whether a reader can be made, and why not, does not depend on what the program has done before, with other readers
or other files, as long as no two readers are made on one source. -/
theorem C95_open (cfg : Cfg) (S : Source σ) (fuel : Nat) (objs : Nat → σ) (cs : List (Cmd σ)) (hcs : Apart cs) (k v : Nat)
    (place : Given σ) (sink : Nat) (filter : Option Filter) (hk : cs[k]? = some (.make v place sink filter)) (o : Outcome)
    (ho : ((Program.start objs).run cfg S fuel cs).1[k]? = some o) :
    match openReader cfg S fuel filter (sourceOf objs place) with
    | .ok _ => o = .made
    | .error e => o = .failed e ∧ ∀ j, toldBy k (((Program.start objs).run cfg S fuel cs).2.told j) = [] := by
  have h := run_made (S := S) (cfg := cfg) (fuel := fuel) k cs (Program.start objs) (inv_start objs hcs) (fun j => rfl) hk o ho
  have hz : (Program.start objs).count + k = k := Nat.zero_add k
  rw [hz] at h
  cases hr : openReader cfg S fuel filter (sourceOf objs place) with
  | ok R =>
    rw [hr] at h
    exact h.1
  | error e =>
    rw [hr] at h
    exact h

/-- **C95**: several readers in one program do not disturb one another. Whatever statements the program is made of, in whatever
order, with readers moved between variables, each reader answers the calls that are made on it, and tells its sink, exactly what
it would if it were the only one and the other statements were not there. A sink shared by several readers is told by each of
them what that one would tell; a reader tells only its own sink. -/
theorem C95_alone (cfg : Cfg) (S : Source σ) (fuel : Nat) (objs : Nat → σ) (cs : List (Cmd σ)) (hcs : Apart cs) (k v : Nat)
    (place : Given σ) (sink : Nat) (filter : Option Filter) (hk : cs[k]? = some (.make v place sink filter))
    (ho : ((Program.start objs).run cfg S fuel cs).1[k]? = some .made) (calls : List (Op × Res Ret))
    (hc : calls = callsOn k (fun _ => none) 0 cs ((Program.start objs).run cfg S fuel cs).1) :
    ∃ R, openReader cfg S fuel filter (sourceOf objs place) = .ok R ∧
      calls.map Prod.snd = (R.run S (calls.map Prod.fst)).1 ∧
      toldBy k (((Program.start objs).run cfg S fuel cs).2.told sink) = (R.run S (calls.map Prod.fst)).2.trace ∧
      ∀ j, j ≠ sink → toldBy k (((Program.start objs).run cfg S fuel cs).2.told j) = [] := by
  have h := run_made (S := S) (cfg := cfg) (fuel := fuel) k cs (Program.start objs) (inv_start objs hcs) (fun j => rfl) hk _ ho
  have hz : (Program.start objs).count + k = k := Nat.zero_add k
  rw [hz] at h
  subst hc
  cases hr : openReader cfg S fuel filter (sourceOf objs place) with
  | ok R =>
    rw [hr] at h
    exact ⟨R, rfl, h.2⟩
  | error e =>
    rw [hr] at h
    cases h.1

/-- **C95**: a statement that does not make a reader and is not a call on one - a call on a variable that has never had a reader,
or whose reader has been moved away - does nothing that any reader or sink would notice. -/
theorem C95_empty (cfg : Cfg) (S : Source σ) (fuel : Nat) (w : Program σ) (v : Nat) (op : Op) (hv : w.vars v = none) :
    (w.step cfg S fuel (.call v op)).1 = .returned (.ok (match op with
      | .readRow | .skip _ | .readRows _ => .bool false
      | .readRowNoSink => .ptr none
      | .readAll | .endOfData => .unit)) ∧
    (w.step cfg S fuel (.call v op)).2.vars = w.vars ∧ (w.step cfg S fuel (.call v op)).2.objs = w.objs ∧
    (w.step cfg S fuel (.call v op)).2.told = w.told := by
  simp only [Program.step, Program.call, hv]
  cases op <;> simp [ApiReader.step]

/-! ## A program -/

/-- Two readers on copies of one file, one sink; the second one moves from variable 1 to variable 5. -/
def twoReaders : List (Cmd IFStream) :=
  [.make 0 (.named 0) 9 none, .call 0 .readRow, .make 1 (.own (IFStream.open Demo.file)) 9 none, .call 1 (.skip 1), .call 0 .readRow,
    .move 5 1, .call 1 .readRow, .call 5 .readRow, .call 0 .readAll, .call 5 .readAll]

def twoObjs : Nat → IFStream := fun _ => IFStream.open Demo.file

example : Apart twoReaders ∧
    ((Program.start twoObjs).run Demo.cfg ifs 10 twoReaders).1 =
      [.made, .returned (.ok (.bool true)), .made, .returned (.ok (.bool true)), .returned (.ok (.bool true)), .done,
       .returned (.ok (.bool false)), .returned (.ok (.bool true)), .returned (.ok .unit), .returned (.ok .unit)] := by
  constructor
  · unfold Apart
    decide
  · decide +kernel

example : (callsOn 2 (fun _ => none) 0 twoReaders ((Program.start twoObjs).run Demo.cfg ifs 10 twoReaders).1).map Prod.fst =
      [.skip 1, .readRow, .readAll] ∧
    toldBy 2 (((Program.start twoObjs).run Demo.cfg ifs 10 twoReaders).2.told 9) = (Demo.reader.run ifs [.skip 1, .readRow, .readAll]).2.trace ∧
    toldBy 0 (((Program.start twoObjs).run Demo.cfg ifs 10 twoReaders).2.told 9) = (Demo.reader.run ifs [.readRow, .readRow, .readAll]).2.trace := by
  have hA : Apart twoReaders := by
    unfold Apart
    decide
  have hc2 : (callsOn 2 (fun _ => none) 0 twoReaders ((Program.start twoObjs).run Demo.cfg ifs 10 twoReaders).1).map Prod.fst =
      [.skip 1, .readRow, .readAll] := by decide +kernel
  have hc0 : (callsOn 0 (fun _ => none) 0 twoReaders ((Program.start twoObjs).run Demo.cfg ifs 10 twoReaders).1).map Prod.fst =
      [.readRow, .readRow, .readAll] := by decide +kernel
  refine ⟨hc2, ?_, ?_⟩
  · obtain ⟨R, h1, -, h2, -⟩ := C95_alone Demo.cfg ifs 10 twoObjs twoReaders hA 2 1 (.own (IFStream.open Demo.file)) 9 none rfl
      (by decide +kernel) _ rfl
    have : R = Demo.reader := Except.ok.inj (h1.symm.trans Demo.opened_ok)
    rw [h2, hc2, this]
  · obtain ⟨R, h1, -, h2, -⟩ := C95_alone Demo.cfg ifs 10 twoObjs twoReaders hA 0 0 (.named 0) 9 none rfl
      (by decide +kernel) _ rfl
    have : R = Demo.reader := Except.ok.inj (h1.symm.trans Demo.opened_ok)
    rw [h2, hc0, this]

/-- **C95 does not hold for readers on one source**: a stream that is handed over by name to a second reader goes on where the
first one has left it; the second reader cannot be made although the file is in order. -/
theorem C95_shared_refuted :
    ∃ (cs : List (Cmd IFStream)) (objs : Nat → IFStream) (k : Nat) (e : Stop),
      cs[k]? = some (.make 1 (.named 0) 1 none) ∧ (openReader Demo.cfg ifs 10 none (sourceOf objs (.named 0))).isOk = true ∧
      ((Program.start objs).run Demo.cfg ifs 10 cs).1[k]? = some (.failed e) :=
  ⟨[.make 0 (.named 0) 0 none, .make 1 (.named 0) 1 none], twoObjs, 1, .exn .invalidMagicNumber, rfl, by decide +kernel, by decide +kernel⟩

/-- A stream with a file of which the last pages are missing, and after it a whole file. -/
def tandem : Nat → IFStream := fun _ => IFStream.open (Demo.file.take 2088 ++ Demo.file)

/-- Both files of the stream can be opened; then each reader reads what is left. -/
def inTandem : List (Cmd IFStream) :=
  [.make 0 (.named 0) 0 none, .make 1 (.named 0) 1 none, .call 0 .readAll, .call 1 .readAll]

/-- **C95 does not hold for readers on one source**: when two readers on one stream have both been made, the first one reads on
where the second has left the stream. It shows three rows, the last one a row of the second file; the second reader
shows two rows of its three. -/
theorem C95_taken_refuted :
    ((Program.start tandem).run Demo.cfg ifs 10 inTandem).1 = [.made, .made, .returned (.ok .unit), .returned (.ok .unit)] ∧
    (pushes (toldBy 0 (((Program.start tandem).run Demo.cfg ifs 10 inTandem).2.told 0))).map (·.2.bytes) = Demo.rows ∧
    (pushes (toldBy 1 (((Program.start tandem).run Demo.cfg ifs 10 inTandem).2.told 1))).map (·.2.bytes) = Demo.rows.take 2 := by
  decide +kernel

end Sas.Props
