import Verif.Spec.Log
import Verif.Proofs.OpenErrs
import Verif.Proofs.HeaderErrs
import Verif.Proofs.OpenLayout

/-!
# Lemmas about the messages of the library
-/

namespace Sas.Proofs

open Sas Spec

variable {σ α β : Type}

theorem ofLibrary_iff (e : Exn) : e.ofLibrary = true ↔ e ∈ ownExceptions := by
  cases e <;> simp [Exn.ofLibrary, ownExceptions]

/-- Failures that are no exceptions of the library itself. -/
def Foreign (e : Stop) : Prop := ∀ x, e = .exn x → x ∉ ownExceptions

theorem crash_foreign {e : Stop} (h : Crash e) : Foreign e := by
  rintro x rfl
  rcases h with h | h <;> cases h

theorem leftBy_foreign {e : Stop} (h : Foreign e) : leftBy (.error e : Res α) = [] := by
  cases e with
  | exn x => simp [leftBy, h x rfl]
  | _ => rfl

theorem raiseLog_foreign {e : Stop} (h : Foreign e) : raiseLog e = [] := by
  cases e with
  | exn x =>
    have := h x rfl
    rw [← ofLibrary_iff] at this
    simp [raiseLog, this]
  | _ => rfl

theorem _root_.Sas.Spec.Honest.ok (a : α) : Honest (.ok a : Res α) [] := ⟨rfl, fun _ => rfl, fun _ h => by cases h⟩

theorem _root_.Sas.Spec.Honest.foreign {e : Stop} (h : Foreign e) : Honest (.error e : Res α) [] :=
  ⟨(leftBy_foreign h).symm, fun _ => rfl, fun x hx hm => by cases hx; exact absurd hm (h x rfl)⟩

theorem _root_.Sas.Spec.Honest.raise (e : Stop) : Honest (.error e : Res α) (raiseLog e) := by
  by_cases h : Foreign e
  · rw [raiseLog_foreign h]; exact .foreign h
  · cases e with
    | exn x =>
      have hx : x ∈ ownExceptions := by
        by_contra hx
        exact h fun y hy => by cases hy; exact hx
      have hl := (ofLibrary_iff x).mpr hx
      refine ⟨by simp [raiseLog, hl, announcedIn, leftBy, hx], fun h0 => ?_, fun y hy _ => ?_⟩
      · simp [leftBy, hx] at h0
      · cases hy; exact ⟨[], by simp [raiseLog, hl]⟩
    | _ => exact absurd (fun y hy => by cases hy) h

/-- The messages say the same about another result that ends in the same way. -/
theorem _root_.Sas.Spec.Honest.cast {r : Res α} {r' : Res β} {ms : List Msg} (h : Honest r ms)
    (heq : ∀ e, r' = .error e ↔ r = .error e) : Honest r' ms := by
  have hl : leftBy r' = leftBy r := by
    cases r with
    | error e => rw [(heq e).mpr rfl]; cases e <;> rfl
    | ok a =>
      cases r' with
      | ok b => rfl
      | error e => have := (heq e).mp rfl; cases this
  exact ⟨by rw [hl]; exact h.announced, fun h0 => h.silent (by rw [← hl]; exact h0), fun e he hm => h.last e ((heq _).mp he) hm⟩

theorem _root_.Sas.Spec.Honest.map {r : Res α} {ms : List Msg} (f : α → β) (h : Honest r ms) : Honest (r.map f) ms := by
  refine h.cast fun e => ?_
  cases r <;> simp [Except.map]

/-! ## The decompressors -/

/-- The check of the room for `n` bytes, and what follows. -/
theorem checkLog_room {d : Dst} {n : Nat} (h : d.i + n ≤ d.mem.length) : d.checkLog n = [] := by
  unfold Dst.checkLog; rw [if_pos h]

theorem honest_noRoom {d : Dst} {n : Nat} (h : ¬ d.i + n ≤ d.mem.length) :
    Honest (.error (.exn .cannotDecompress) : Res α) (d.checkLog n) := by
  unfold Dst.checkLog; rw [if_neg h]
  refine ⟨by simp [announcedIn, leftBy, ownExceptions], fun h0 => ?_, fun e he _ => ?_⟩
  · simp [leftBy, ownExceptions] at h0
  · cases he; exact ⟨[], rfl⟩

theorem storeValue_log (d : Dst) (v : Byte) (n : Nat) : Honest (d.storeValue v n) (d.checkLog n) := by
  unfold Dst.storeValue
  split
  · rw [checkLog_room ‹_›]; exact .ok _
  · exact honest_noRoom ‹_›

theorem storeBytes_log (d : Dst) (bs : List Byte) : Honest (d.storeBytes bs) (d.checkLog bs.length) := by
  unfold Dst.storeBytes
  split
  · rw [checkLog_room ‹_›]; exact .ok _
  · exact honest_noRoom ‹_›

theorem storePattern_log (cfg : Cfg) (d : Dst) (ofs n : Nat) : Honest (d.storePattern cfg ofs n) (d.checkLog n) := by
  unfold Dst.storePattern
  split
  · rw [checkLog_room ‹_›]
    split
    · exact .foreign (fun _ h => by cases h)
    · split
      · exact .foreign (fun _ h => by cases h)
      · split
        · exact .foreign (fun _ h => by cases h)
        · exact .ok _
  · exact honest_noRoom ‹_›

theorem _root_.Sas.Spec.Honest.bind_ok {r : Res α} {ms : List Msg} {f : α → β} (h : Honest r ms) :
    Honest (r >>= fun a => (.ok (f a) : Res β)) ms := by
  refine h.cast fun e => ?_
  cases r <;> simp [bind, Except.bind]

theorem storeValues_log (src : List Byte) (d : Dst) (n : Nat) :
    Honest (rleStoreValues src d n) (d.checkLog (min n src.length)) := by
  have h := storeBytes_log d (src.take (min n src.length))
  rw [List.length_take, Nat.min_eq_left (Nat.min_le_right _ _)] at h
  exact h.bind_ok

theorem honest_ub : Honest (.error .ub : Res α) [] := .foreign (fun _ h => by cases h)

theorem honest_unknown (c o : Nat) : Honest (.error (.exn .cannotDecompress) : Res α)
    [.unknownCommand c o, .raised .cannotDecompress []] := by
  refine ⟨by simp [announcedIn, leftBy, ownExceptions], fun h0 => ?_, fun e he _ => ?_⟩
  · simp [leftBy, ownExceptions] at h0
  · cases he; exact ⟨[], rfl⟩

theorem rleStep_log (offset : Nat) (src : List Byte) (d : Dst) : Honest (rleStep src d) (rleStepLog offset src d) := by
  cases src with
  | nil => exact honest_ub
  | cons val src =>
    have hlt : val.toNat / 16 < 16 := by have := val.toNat_lt; omega
    unfold rleStep rleStepLog pop
    simp only [bind, Except.bind]
    generalize val.toNat / 16 = c at *
    generalize val.toNat % 16 = e at *
    have hc : c = 0 ∨ c = 1 ∨ c = 2 ∨ c = 3 ∨ c = 4 ∨ c = 5 ∨ c = 6 ∨ c = 7 ∨ c = 8 ∨ c = 9 ∨ c = 10 ∨ c = 11 ∨ c = 12 ∨ c = 13 ∨
        c = 14 ∨ c = 15 := by omega
    rcases hc with rfl | rfl | rfl | rfl | rfl | rfl | rfl | rfl | rfl | rfl | rfl | rfl | rfl | rfl | rfl | rfl <;>
      simp only [Nat.reduceEqDiff, if_true, if_false, or_false, or_true, false_or, true_or, reduceCtorEq, OfNat.ofNat_ne_zero, OfNat.zero_ne_ofNat, one_ne_zero, zero_ne_one, OfNat.ofNat_ne_one, OfNat.one_ne_ofNat]
    · cases src with
      | nil => exact honest_ub
      | cons b src => exact storeValues_log _ _ _
    · exact honest_unknown _ _
    · exact honest_unknown _ _
    · exact honest_unknown _ _
    · rcases src with _ | ⟨b, _ | ⟨v, src⟩⟩
      · exact honest_ub
      · exact honest_ub
      · exact (storeValue_log d v _).bind_ok
    · cases src with
      | nil => exact honest_ub
      | cons b src => exact (storeValue_log d _ _).bind_ok
    · cases src with
      | nil => exact honest_ub
      | cons b src => exact (storeValue_log d _ _).bind_ok
    · cases src with
      | nil => exact honest_ub
      | cons b src => exact (storeValue_log d _ _).bind_ok
    · exact storeValues_log _ _ _
    · exact storeValues_log _ _ _
    · exact storeValues_log _ _ _
    · exact storeValues_log _ _ _
    · cases src with
      | nil => exact honest_ub
      | cons b src => exact (storeValue_log d _ _).bind_ok
    · exact (storeValue_log d _ _).bind_ok
    · exact (storeValue_log d _ _).bind_ok
    · exact (storeValue_log d _ _).bind_ok

theorem rleLoop_log (total n : Nat) : ∀ (src : List Byte) (d : Dst), Honest (rleLoop n src d).1 (rleLog total n src d) := by
  induction n with
  | zero =>
    intro src d
    unfold rleLoop rleLog
    split
    · exact .foreign (fun _ h => by cases h)
    · exact .ok _
  | succ n ih =>
    intro src d
    unfold rleLoop rleLog
    by_cases hc : 2 ≤ src.length ∧ d.i < d.mem.length
    · rw [if_pos hc, if_pos hc]
      have h := rleStep_log (total - src.length) src d
      generalize rleStep src d = x at *
      rcases x with e | ⟨src', d'⟩
      · simp only [List.append_nil]
        exact h.cast fun e' => by simp
      · rw [h.silent rfl, List.nil_append]
        exact ih src' d'
    · rw [if_neg hc, if_neg hc]
      exact .ok _

theorem fill_ok (d : Dst) : ∃ d', d.fill = .ok d' := by
  unfold Dst.fill
  split
  · unfold Dst.storeValue
    rw [if_pos (by omega)]
    exact ⟨_, rfl⟩
  · exact ⟨_, rfl⟩

theorem rle_log (src dst : List Byte) : Honest (rle src dst).1 (rleLog src.length src.length src ⟨dst, 0⟩) := by
  have h := rleLoop_log src.length src.length src ⟨dst, 0⟩
  unfold rle
  generalize rleLoop src.length src ⟨dst, 0⟩ = x at *
  rcases x with ⟨e | u, d⟩
  · exact h.cast fun e' => by simp
  · obtain ⟨d', hd⟩ := fill_ok d
    simp only [hd]
    exact h.cast fun e' => by simp

theorem rdcToken_log (cfg : Cfg) (val : Byte) (src : List Byte) (d : Dst) : Honest (rdcToken cfg (val :: src) d)
    (let cmd := val.toNat / 16
     let cnt := val.toNat % 16
     if cmd = 0 then
       match src with
       | [] => []
       | _ :: _ => d.checkLog (cnt + 3)
     else if cmd = 1 then
       match src with
       | b :: _ :: _ => d.checkLog (cnt + (b.toNat * 16 + 19))
       | _ => []
     else if cmd = 2 then
       match src with
       | _ :: n :: _ => d.checkLog (n.toNat + 16)
       | _ => []
     else
       match src with
       | [] => []
       | _ :: _ => d.checkLog cmd) := by
  unfold rdcToken pop
  simp only [bind, Except.bind]
  generalize val.toNat / 16 = cmd
  generalize val.toNat % 16 = cnt
  by_cases h0 : cmd = 0
  · simp only [if_pos h0]
    cases src with
    | nil => exact honest_ub
    | cons v src => exact (storeValue_log d v _).bind_ok
  · simp only [if_neg h0]
    by_cases h1 : cmd = 1
    · simp only [if_pos h1]
      rcases src with _ | ⟨b, _ | ⟨v, src⟩⟩
      · exact honest_ub
      · exact honest_ub
      · exact (storeValue_log d v _).bind_ok
    · simp only [if_neg h1]
      by_cases h2 : cmd = 2
      · simp only [if_pos h2]
        rcases src with _ | ⟨b, _ | ⟨v, src⟩⟩
        · exact honest_ub
        · exact honest_ub
        · exact (storePattern_log cfg d _ _).bind_ok
      · simp only [if_neg h2]
        cases src with
        | nil => exact honest_ub
        | cons v src => exact (storePattern_log cfg d _ _).bind_ok

theorem rdcStep_log (cfg : Cfg) (c : Ctrl) (src : List Byte) (d : Dst) : Honest (rdcStep cfg c src d) (rdcStepLog c src d) := by
  unfold rdcStep rdcStepLog
  have hc : Errs Crash (rdcControl c src) := by
    unfold rdcControl
    refine Errs.ite ?_ (Errs.ok _)
    rcases src with _ | ⟨a, _ | ⟨b, src⟩⟩
    · exact Errs.err (.inr rfl)
    · exact Errs.err (.inr rfl)
    · exact Errs.ok _
  generalize rdcControl c src = x at *
  rcases x with e | ⟨c, src⟩
  · have h : Crash e := hc e rfl
    exact .foreign (crash_foreign h)
  · simp only [bind, Except.bind]
    cases src with
    | nil =>
      by_cases hs : c.isSet = true
      · simp only [if_pos hs]; exact honest_ub
      · simp only [if_neg hs]; exact honest_ub
    | cons val src =>
      by_cases hs : c.isSet = true
      · simp only [if_pos hs]
        exact (rdcToken_log cfg val src d).cast fun e => by
          generalize rdcToken cfg (val :: src) d = y
          rcases y with e' | y <;> simp [pure, Except.pure]
      · simp only [if_neg hs]
        exact (storeValue_log d val 1).bind_ok

theorem rdcLoop_log (cfg : Cfg) (n : Nat) : ∀ (c : Ctrl) (src : List Byte) (d : Dst),
    Honest (rdcLoop cfg n c src d).1 (rdcLog cfg n c src d) := by
  induction n with
  | zero =>
    intro c src d
    unfold rdcLoop rdcLog
    split
    · exact .foreign (fun _ h => by cases h)
    · exact .ok _
  | succ n ih =>
    intro c src d
    unfold rdcLoop rdcLog
    by_cases hc : 3 ≤ src.length ∧ d.i < d.mem.length
    · rw [if_pos hc, if_pos hc]
      have h := rdcStep_log cfg c src d
      generalize rdcStep cfg c src d = x at *
      rcases x with e | ⟨c', src', d'⟩
      · simp only [List.append_nil]
        exact h.cast fun e' => by simp
      · rw [h.silent rfl, List.nil_append]
        exact ih c' src' d'
    · rw [if_neg hc, if_neg hc]
      exact .ok _

theorem rdc_log (cfg : Cfg) (src dst : List Byte) :
    Honest (rdc cfg src dst).1 (rdcLog cfg src.length ⟨0, 0⟩ src ⟨dst, 0⟩) := by
  have h := rdcLoop_log cfg src.length ⟨0, 0⟩ src ⟨dst, 0⟩
  unfold rdc
  generalize rdcLoop cfg src.length ⟨0, 0⟩ src ⟨dst, 0⟩ = x at *
  rcases x with ⟨e | u, d⟩
  · exact h.cast fun e' => by simp
  · obtain ⟨d', hd⟩ := fill_ok d
    simp only [hd]
    exact h.cast fun e' => by simp

/-! ## Calls -/

theorem extract_log (env : Env) (md : Meta) (r : RD σ) (off len : Nat) :
    Honest (r.extract env md off len).1 (r.extractLog env md off len) := by
  unfold RD.extract RD.extractLog
  have h1 := fmtAssert_errs env.cfg (w64 (off + len) ≤ env.pageLength)
  generalize fmtAssert env.cfg (w64 (off + len) ≤ env.pageLength) = x at *
  rcases x with e | u
  · exact .foreign (crash_foreign (h1 e rfl))
  · have h2 := r.p.buf.rd_errs env.cfg off len
    simp only
    generalize r.p.buf.rd env.cfg off len = y at *
    rcases y with e | values
    · exact .foreign (crash_foreign (h2 e rfl))
    · simp only
      by_cases hl : len < md.rowLength
      · rw [if_pos hl, if_pos hl]
        unfold RD.decompress
        cases md.compression with
        | none => exact .ok _
        | rle => exact (rle_log values r.dst).map _
        | rdc => exact (rdc_log env.cfg values r.dst).map _
      · rw [if_neg hl, if_neg hl]
        exact .ok _

theorem takeLine_errs (r : RD σ) : Errs Crash r.takeLine.1 := by
  unfold RD.takeLine
  split
  · exact Errs.err (.inr rfl)
  · unfold Page.readLine
    split
    · rename_i h
      intro e' he
      split at h
      · split at h
        · cases h
        · cases h; cases he; exact .inr rfl
      · cases h
      · cases h
    · exact Errs.ok _

theorem readLine_log (env : Env) (S : Source σ) (md : Meta) (r : RD σ) :
    Honest (r.readLine env S md).1 (r.readLineLog env S md) := by
  unfold RD.readLine RD.readLineLog
  generalize r.next env S md = x
  rcases x with ⟨e | b, r⟩
  · exact .raise e
  · cases b
    · exact .ok _
    · simp only
      have h := takeLine_errs r
      generalize r.takeLine = y at *
      rcases y with ⟨e | ⟨off, len⟩, r⟩
      · exact .foreign (crash_foreign (h e rfl))
      · simp only
        have h := extract_log env md r off len
        generalize r.extract env md off len = z at *
        rcases z with ⟨e | row, r'⟩
        · exact h.cast fun e' => by simp
        · exact h.cast fun e' => by simp

theorem skip_log (env : Env) (S : Source σ) (md : Meta) (n : Nat) : ∀ r : RD σ,
    Honest (r.skip env S md n).1 (r.skipLog env S md n) := by
  induction n with
  | zero => intro r; exact .ok _
  | succ n ih =>
    intro r
    unfold RD.skip RD.skipLog
    generalize r.next env S md = x
    rcases x with ⟨e | b, r⟩
    · exact .raise e
    · cases b
      · exact .ok _
      · simp only
        have h := takeLine_errs r
        generalize r.takeLine = y at *
        rcases y with ⟨e | ol, r⟩
        · exact .foreign (crash_foreign (h e rfl))
        · exact ih r

theorem readRow_log (S : Source σ) (R : Reader σ) : Honest (R.readRow S).1 (R.readRowLog S) := by
  have h := readLine_log R.env S R.props.md R.rd
  unfold Reader.readRow Reader.readRowLog
  simp only
  generalize R.rd.readLine R.env S R.props.md = x at *
  rcases x with ⟨e | _ | row, rd⟩ <;> exact h.cast fun e' => by simp

theorem readRows_log (S : Source σ) (n : Nat) : ∀ R : Reader σ, Honest (R.readRows S n).1 (R.readRowsLog S n) := by
  induction n with
  | zero => intro R; exact .ok _
  | succ n ih =>
    intro R
    have h := readRow_log S R
    unfold Reader.readRows Reader.readRowsLog
    generalize R.readRow S = x at *
    rcases x with ⟨e | _ | _, R'⟩
    · simp only [List.append_nil]; exact h.cast fun e' => by simp
    · simp only [List.append_nil]; exact h.cast fun e' => by simp
    · rw [h.silent rfl, List.nil_append]; exact ih R'

theorem readAllLoop_log (S : Source σ) (n : Nat) : ∀ R : Reader σ, Honest (R.readAllLoop S n).1 (R.readRowsLog S n) := by
  induction n with
  | zero => intro R; exact .foreign (fun _ h => by cases h)
  | succ n ih =>
    intro R
    have h := readRow_log S R
    unfold Reader.readAllLoop Reader.readRowsLog
    generalize R.readRow S = x at *
    rcases x with ⟨e | _ | _, R'⟩
    · simp only [List.append_nil]; exact h.cast fun e' => by simp
    · simp only [List.append_nil]; exact h.cast fun e' => by simp
    · rw [h.silent rfl, List.nil_append]; exact ih R'

theorem step_log (S : Source σ) (R : Reader σ) (op : Op) : Honest (R.step S op).1 (R.stepLog S op) := by
  cases op with
  | readRow => exact (readRow_log S R).map _
  | readRows n => exact (readRows_log S n R).map _
  | readAll => exact (readAllLoop_log S (R.props.md.rowCount - R.rd.row + 1) R).map (fun _ => Ret.unit)
  | skip n =>
    have h := skip_log R.env S R.props.md n R.rd
    show Honest (Except.map Ret.bool (R.skip S n).1) _
    refine Honest.map _ ?_
    unfold Reader.skip
    generalize R.rd.skip R.env S R.props.md n = x at *
    show Honest _ (R.rd.skipLog R.env S R.props.md n)
    rcases x with ⟨e | _ | _, rd⟩ <;> exact h.cast fun e' => by simp
  | readRowNoSink => exact (readLine_log R.env S R.props.md R.rd).map _
  | endOfData => exact .ok _

theorem run_log (S : Source σ) (ops : List Op) : ∀ R : Reader σ,
    List.Forall₂ Honest (R.run S ops).1 (R.runLog S ops) := by
  induction ops with
  | nil => intro R; exact .nil
  | cons op ops ih =>
    intro R
    have h := step_log S R op
    unfold Reader.run Reader.runLog
    generalize R.step S op = x at *
    rcases x with ⟨(x | _ | _ | _) | v, R'⟩
    · exact .cons h (ih R')
    · exact .cons h .nil
    · exact .cons h .nil
    · exact .cons h .nil
    · exact .cons h (ih R')

/-! ## Opening -/

/-- Messages that remark on the content of a file. -/
def Remarks (ms : List Msg) : Prop := ∀ m ∈ ms, m = .unknownSubheader ∨ m = .columnCountMismatch ∨ ∃ n k w, m = .fewValues n k w

theorem Remarks.nil : Remarks [] := fun _ h => by cases h

theorem Remarks.append {a b : List Msg} (ha : Remarks a) (hb : Remarks b) : Remarks (a ++ b) := by
  intro m hm
  rcases List.mem_append.mp hm with h | h
  · exact ha m h
  · exact hb m h

theorem Remarks.announced {ms : List Msg} (h : Remarks ms) : announcedIn ms = [] := by
  unfold announcedIn
  rw [List.filterMap_eq_nil_iff]
  intro m hm
  rcases h m hm with rfl | rfl | ⟨n, k, w, rfl⟩ <;> rfl

theorem subheaderLog_remarks (env : Env) (b : Buf) (acc : Acc) (s : PageSub) : Remarks (subheaderLog env b acc s) := by
  unfold subheaderLog
  split
  · exact .nil
  · split
    · split
      · exact .nil
      · split
        · intro m hm; rw [List.mem_singleton.mp hm]; simp
        · exact .nil
    · split
      · exact .nil
      · intro m hm; rw [List.mem_singleton.mp hm]; simp
    · exact .nil

theorem subsLog_remarks (env : Env) (b : Buf) (k : Nat) : ∀ i acc, Remarks (subsLog env b k i acc) := by
  induction k with
  | zero => intro i acc; exact .nil
  | succ k ih =>
    intro i acc
    unfold subsLog
    split
    · exact .nil
    · split
      · exact ih _ _
      · refine (subheaderLog_remarks _ _ _ _).append ?_
        split
        · exact .nil
        · exact ih _ _

theorem pageLog_remarks (env : Env) (b : Buf) (h : PageHdr) (acc : Acc) : Remarks (pageLog env b h acc) := by
  unfold pageLog
  split
  · exact subsLog_remarks _ _ _ _ _
  · exact .nil

/-- The messages end with the announcement of the exception of the library itself, if there is one, and announce nothing else. -/
structure Tells (e : Option Stop) (ms : List Msg) : Prop where
  split : ∃ a, Remarks a ∧ ms = a ++ (match e with | some e => raiseLog e | none => [])

theorem Tells.none {ms : List Msg} (h : Remarks ms) : Tells none ms := ⟨ms, h, by simp⟩

theorem Tells.foreign {e : Stop} {ms : List Msg} (h : Remarks ms) (he : Foreign e) : Tells (some e) ms :=
  ⟨ms, h, by simp [raiseLog_foreign he]⟩

theorem Tells.prepend {e : Option Stop} {a ms : List Msg} (ha : Remarks a) (h : Tells e ms) : Tells e (a ++ ms) := by
  obtain ⟨b, hb, hm⟩ := h
  exact ⟨a ++ b, ha.append hb, by rw [hm, List.append_assoc]⟩

/-- How a result failed. -/
def failure : Res α → Option Stop
  | .ok _ => none
  | .error e => some e

theorem metaLoop_log (env : Env) (S : Source σ) (n : Nat) : ∀ (p : PState σ) (acc : Acc),
    Tells (failure (metaLoop env S n p acc)) (metaLog env S n p acc) := by
  induction n with
  | zero => intro p acc; exact .foreign .nil (fun _ h => by cases h)
  | succ n ih =>
    intro p acc
    unfold metaLoop metaLog
    generalize readPage env S p = x
    rcases x with ⟨e | _ | _, p'⟩
    · exact ⟨[], .nil, rfl⟩
    · exact .none .nil
    · simp only
      refine .prepend (pageLog_remarks _ _ _ _) ?_
      have he := processPage_errs env p'.buf p'.hdr acc
      generalize processPage env p'.buf p'.hdr acc = y at *
      rcases y with e | ⟨acc', stop⟩
      · exact .foreign .nil (crash_foreign (he e rfl))
      · simp only [bind, Except.bind]
        cases stop
        · exact ih p' acc'
        · exact .none .nil

theorem valuesLog_remarks (ncols icol : Nat) : ∀ l, Remarks (valuesLog ncols icol l) := by
  intro l
  induction l with
  | nil => exact .nil
  | cons x l ih =>
    obtain ⟨w, n⟩ := x
    unfold valuesLog
    refine Remarks.append ?_ ?_
    · split
      · intro m hm; rw [List.mem_singleton.mp hm]; simp
      · exact .nil
    · split
      · exact ih
      · exact .nil

theorem createLog_remarks (e : Endian) (acc : Acc) (k : Nat) : ∀ i, Remarks (createLog e acc k i) := by
  induction k with
  | zero => intro i; exact .nil
  | succ k ih =>
    intro i
    unfold createLog
    refine (valuesLog_remarks _ _ _).append ?_
    split
    · exact .nil
    · exact ih _

theorem createColumnsLog_remarks (cfg : Cfg) (e : Endian) (acc : Acc) : Remarks (createColumnsLog cfg e acc) := by
  unfold createColumnsLog
  split
  · exact createLog_remarks _ _ _ _
  · exact .nil

theorem open_log (cfg : Cfg) (S : Source σ) (fuel : Nat) (filter : Option Filter) (s : σ) :
    Tells (failure (openReader cfg S fuel filter s)) (openLog cfg S fuel s) := by
  unfold openReader openLog
  generalize readHeader cfg S s = x
  rcases x with e | ⟨h, b, s⟩
  · exact ⟨[], .nil, rfl⟩
  · simp only [bind, Except.bind]
    have hm := metaLoop_log { cfg := cfg, endian := h.endian, format := h.format, pageLength := h.pageLength, fuel := fuel } S fuel
      ⟨s, b, PageHdr.reset⟩ {}
    generalize metaLoop { cfg := cfg, endian := h.endian, format := h.format, pageLength := h.pageLength, fuel := fuel } S fuel
      ⟨s, b, PageHdr.reset⟩ {} = y at *
    rcases y with e | ⟨p, acc⟩
    · simpa [failure] using hm
    · obtain ⟨a, ha, hm⟩ := hm
      rw [hm]
      simp only [failure, List.append_nil]
      have hr := ha.append (createColumnsLog_remarks cfg h.endian acc)
      have h1 := createColumns_errs cfg h.endian acc filter
      generalize createColumns cfg h.endian acc filter = z at *
      rcases z with e | cols
      · refine .foreign hr ?_
        rintro y rfl
        rcases h1 _ rfl with h | h <;> cases h <;> decide
      · simp only
        have h2 := RD.build_errs { cfg := cfg, endian := h.endian, format := h.format, pageLength := h.pageLength, fuel := fuel } p acc
        generalize RD.build { cfg := cfg, endian := h.endian, format := h.format, pageLength := h.pageLength, fuel := fuel } p acc = w at *
        rcases w with e | rd
        · refine .foreign hr ?_
          rcases h2 _ rfl with h | h
          · rintro y rfl; cases h; decide
          · exact crash_foreign h
        · exact .none hr

/-! ## Opening well-formed files -/

variable {env : Env} {b : Buf} {page : List Byte} {S : Source σ}

theorem knownAt_iff (f : Format) (page : List Byte) (o : Nat) :
    knownAt f page o = true ↔ ∃ e s, slice page o (word f) = Sig.bytes e f s := by
  unfold knownAt
  rw [List.any_eq_true]
  constructor
  · rintro ⟨s, -, h⟩
    rw [Bool.or_eq_true, beq_iff_eq, beq_iff_eq] at h
    rcases h with h | h
    · exact ⟨_, s, h⟩
    · exact ⟨_, s, h⟩
  · rintro ⟨e, s, h⟩
    refine ⟨s, by cases s <;> simp, ?_⟩
    rw [Bool.or_eq_true, beq_iff_eq, beq_iff_eq]
    cases e
    · exact .inl h
    · exact .inr h

theorem _root_.Sas.AccIs.textRoom {all ss rest : List Sub} {acc : Acc} {s : Sub} (hroom : RoomForCreator all) (h : AccIs acc ss)
    (hall : all = ss ++ [s] ++ rest) : TextRoom acc s := by
  cases s with
  | columnText t =>
    intro h0
    rw [h.texts] at h0
    have hhead : (texts all).head? = some t := by
      rw [hall, texts_append, texts_append, h0]
      simp [texts]
    obtain ⟨g1, g2⟩ := hroom t hhead
    refine ⟨g1, ?_, ?_⟩
    · rcases h.lcp with h1 | ⟨r, hr, h1⟩
      · omega
      · rw [h1]; exact (g2 r (by rw [hall]; simp [hr])).1
    · rcases h.lcs with h1 | ⟨r, hr, h1⟩
      · omega
      · rw [h1]; exact (g2 r (by rw [hall]; simp [hr])).2
  | _ => trivial

theorem subheaderLog_layout (hb : b.Holds page) {p : PageSub} {all ss rest : List Sub} {acc : Acc} {s : Sub}
    (hin : p.offset + p.length ≤ page.length) (hrows : rowsAfterText false all = true)
    (h : SubLayout env.endian env.format page p s) (hacc : AccIs acc ss) (hall : all = ss ++ [s] ++ rest) :
    subheaderLog env b acc p = saidAbout env.format (compressedBy all) page ss p s := by
  have hw := word_pos env.format
  have hsig : ∀ (sg : Sig), slice page p.offset (word env.format) = sg.bytes env.endian env.format →
      p.offset + word env.format ≤ page.length →
      ∃ x, b.rd env.cfg p.offset env.format.intSize = .ok x ∧ classify env.format x = sg.kind := by
    intro sg hs hr
    refine ⟨sg.bytes env.endian env.format, ?_, ?_⟩
    · rw [hb.rd (by rw [← word_eq]; exact hr), ← word_eq, hs]
    · exact classify_sig _ _ _
  have hother : (∀ e s, slice page p.offset (word env.format) ≠ Sig.bytes e env.format s) →
      p.offset + word env.format ≤ page.length →
      ∃ x, b.rd env.cfg p.offset env.format.intSize = .ok x ∧ classify env.format x = .other := by
    intro hs hr
    exact ⟨_, by rw [hb.rd (by rw [← word_eq]; exact hr), ← word_eq], classify_other hs⟩
  unfold subheaderLog
  cases s with
  | rowSize r =>
    obtain ⟨h1, h2⟩ := h
    obtain ⟨x, e1, e2⟩ := hsig .rowSize h1 (by have := h2.room; have : 16 * word env.format ≤ lcsAt env.format := by { cases env.format <;> decide }; omega)
    rw [e1]; simp only [e2, Sig.kind, saidAbout]
  | columnSize n =>
    obtain ⟨h1, h2, h3, h4⟩ := h
    obtain ⟨x, e1, e2⟩ := hsig .columnSize h1 (by omega)
    rw [e1]; simp only [e2, Sig.kind]
    have e3 := hb.uint (cfg := env.cfg) h2 h3 (by omega)
    unfold processColumnSize
    rw [← word_eq, e3]
    simp only [bind, Except.bind, pure, Except.pure, saidAbout, hacc.p1, hacc.p2]
    unfold w64
    by_cases hn : ((rowSizeOf .none ss).p1 + (rowSizeOf .none ss).p2) % 2 ^ 64 = n
    · simp
    · simp
  | columnText t =>
    obtain ⟨h1, h2, h3, h4, h5, h6⟩ := h
    obtain ⟨x, e1, e2⟩ := hsig .columnText h1 (by omega)
    rw [e1]; simp only [e2, Sig.kind, saidAbout]
  | columnNames rs =>
    obtain ⟨h1, h2, h3, h4⟩ := h
    obtain ⟨x, e1, e2⟩ := hsig .columnNames h1 (by omega)
    rw [e1]; simp only [e2, Sig.kind, saidAbout]
  | columnAttrs as =>
    obtain ⟨h1, h2, h3, h4⟩ := h
    obtain ⟨x, e1, e2⟩ := hsig .columnAttrs h1 (by omega)
    rw [e1]; simp only [e2, Sig.kind, saidAbout]
  | formatLabel fr lr =>
    obtain ⟨h1, h2, h3⟩ := h
    have hr2 := h2.room
    obtain ⟨x, e1, e2⟩ := hsig .formatLabel h1 (by omega)
    rw [e1]; simp only [e2, Sig.kind, saidAbout]
  | ignored =>
    obtain ⟨h1, h2 | h2 | ⟨h2, h3⟩⟩ := h
    · obtain ⟨x, e1, e2⟩ := hsig .counts h2 (by omega)
      rw [e1]; simp only [e2, Sig.kind, saidAbout]
      rw [if_pos ((knownAt_iff _ _ _).mpr ⟨_, _, h2⟩)]
    · obtain ⟨x, e1, e2⟩ := hsig .columnList h2 (by omega)
      rw [e1]; simp only [e2, Sig.kind, saidAbout]
      rw [if_pos ((knownAt_iff _ _ _).mpr ⟨_, _, h2⟩)]
    · obtain ⟨x, e1, e2⟩ := hother h2 (by omega)
      rw [e1]; simp only [e2, saidAbout, isDataSub_eq, h3, Bool.and_false, Bool.false_eq_true, if_false]
      rw [if_neg]
      rw [knownAt_iff]
      rintro ⟨e, s, h⟩
      exact h2 e s h
  | row =>
    obtain ⟨h1, h2, h3⟩ := h
    obtain ⟨x, e1, e2⟩ := hother h2 (by omega)
    rw [e1]; simp only [e2, saidAbout, isDataSub_eq, h3, Bool.and_true]
    have hcomp : acc.md.compression = announcedBy (texts all) := by
      rw [hall, rowsAfterText_append, rowsAfterText_append] at hrows
      simp only [Bool.and_eq_true, rowsAfterText, Bool.false_or, bne_iff_ne, ne_eq] at hrows
      have hne : texts ss ≠ [] := by
        intro h0; rw [h0] at hrows; simp at hrows
      rw [hacc.compression, hall]
      unfold announcedBy
      rw [texts_append, texts_append, List.append_assoc, head?_append_left hne]
    rw [hcomp]
    rfl

theorem subsLog_layout (hb : b.Holds page) {c : PageContent} (hp : PageIs env.endian env.format page c)
    (hm : hasMeta c.type = true) (all : List Sub) (hroom : RoomForCreator all) (hrows : rowsAfterText false all = true)
    (rest : List Sub) : ∀ (k i : Nat) (acc : Acc) (ss : List Sub), i + k = c.subs.length → AccIs acc ss →
      all = ss ++ ((c.subs.drop i).filter fun ps => live ps.1).map (·.2) ++ rest →
      subsLog env b k i acc =
        saidOnPage env.format (compressedBy all) page ss ((c.subs.drop i).filter fun ps => live ps.1) := by
  have hl := hp.layout
  intro k
  induction k with
  | zero =>
    intro i acc ss h _ _
    rw [List.drop_of_length_le (by omega)]
    rfl
  | succ k ih =>
    intro i acc ss h hacc hall
    have hi : i < c.subs.length := by omega
    rw [List.drop_eq_getElem_cons hi] at hall ⊢
    have hptr := hl.ptrsAt hm i c.subs[i].1 (by rw [List.getElem?_map, List.getElem?_eq_getElem hi]; rfl)
    have hsub := hp.subs hm c.subs[i] (List.getElem_mem hi)
    generalize c.subs[i] = ps at *
    obtain ⟨p, s⟩ := ps
    unfold subsLog subheaderSize
    rw [← pageHead_eq, ← word_eq, getPageSubheader_at hb hl.small hptr]
    simp only
    have hlive : live p = true ↔ ¬ (p.length = 0 ∨ p.comp = 1) := by
      simp [live]
    by_cases h0 : p.length = 0 ∨ p.comp = 1
    · have hn : ¬ (fun ps : PageSub × Sub => live ps.1) (p, s) = true := by show ¬ live p = true; rw [hlive]; exact fun h => h h0
      rw [if_pos h0, List.filter_cons_of_neg (p := fun ps : PageSub × Sub => live ps.1) hn]
      rw [List.filter_cons_of_neg (p := fun ps : PageSub × Sub => live ps.1) hn] at hall
      exact ih (i + 1) acc ss (by omega) hacc hall
    · have hn : live p = true := by rw [hlive]; exact h0
      have hn' : (fun ps : PageSub × Sub => live ps.1) (p, s) = true := hn
      rw [if_neg h0, List.filter_cons_of_pos (p := fun ps : PageSub × Sub => live ps.1) hn']
      rw [List.filter_cons_of_pos (p := fun ps : PageSub × Sub => live ps.1) hn'] at hall
      have hall' : all = ss ++ [s] ++ (((c.subs.drop (i + 1)).filter fun ps => live ps.1).map (·.2) ++ rest) := by
        rw [hall]; simp
      rw [processSubheader_layout hb hl.small hptr.inside acc s (hsub hn) (hacc.textRoom hroom hall')]
      simp only
      rw [subheaderLog_layout hb hptr.inside hrows (hsub hn) hacc hall']
      rw [ih (i + 1) (applySub acc p s).1 (ss ++ [s]) (by omega) (hacc.step p s) (by rw [hall']; simp)]
      rfl

theorem pageLog_layout (hb : b.Holds page) {c : PageContent} (hp : PageIs env.endian env.format page c)
    (all : List Sub) (hroom : RoomForCreator all) (hrows : rowsAfterText false all = true)
    (acc : Acc) (ss rest : List Sub) (hacc : AccIs acc ss) (hall : all = ss ++ c.used ++ rest) :
    pageLog env b ⟨c.type, c.blocks, c.subs.length⟩ acc =
      saidOnPage env.format (compressedBy all) page ss c.usedSubs := by
  unfold pageLog PageContent.usedSubs
  rw [isPageMetaMixAmd_eq]
  by_cases hm : hasMeta c.type = true
  · rw [if_pos hm, if_pos hm]
    simpa using subsLog_layout hb hp hm all hroom hrows rest c.subs.length 0 acc ss (by simp) hacc (by
      rw [hall]; simp [PageContent.used, hm])
  · rw [if_neg hm, if_neg hm]
    rfl

theorem metaLog_pre (hfit : PageFits env) (all : List Sub)
    (hroom : RoomForCreator all) (hrows : rowsAfterText false all = true) :
    ∀ (pre : List (List Byte × PageContent)) (tail : List (List Byte)) (en : Ending) (p : PState σ)
      (acc : Acc) (ss rest : List Sub) (fuel : Nat),
      p.buf.Good → Stream S env.pageLength p.src (pre.map (·.1) ++ tail) en →
      (∀ pc ∈ pre, PageIs env.endian env.format pc.1 pc.2 ∧ pc.2.last (compressedBy all) = false) →
      AccIs acc ss → all = ss ++ usedOf (pre.map (·.2)) ++ rest →
      ∃ acc' p', metaLog env S (fuel + pre.length) p acc =
          saidOnPages env.format (compressedBy all) ss pre ++ metaLog env S fuel p' acc' ∧
        p'.buf.Good ∧ Stream S env.pageLength p'.src tail en ∧
        AccIs acc' (ss ++ usedOf (pre.map (·.2))) := by
  intro pre
  induction pre with
  | nil =>
    intro tail en p acc ss rest fuel hg hst _ hacc hall
    exact ⟨acc, p, rfl, hg, by simpa using hst, by simpa [usedOf] using hacc⟩
  | cons pc pre ih =>
    intro tail en p acc ss rest fuel hg hst hpages hacc hall
    obtain ⟨hpage, hlast⟩ := hpages pc (List.mem_cons_self ..)
    obtain ⟨b, s', e1, hb, hst'⟩ := readPage_page hfit hg hst hpage.layout
    have hall' : all = ss ++ pc.2.used ++ (usedOf (pre.map (·.2)) ++ rest) := by rw [hall]; simp [usedOf]
    obtain ⟨acc1, e2, hacc1, hd1⟩ := processPage_layout (env := env) hb hpage all hroom hrows acc ss _ hacc hall'
    obtain ⟨acc2, p2, e3, g1, g2, g3⟩ := ih tail en ⟨s', b, ⟨pc.2.type, pc.2.blocks, pc.2.subs.length⟩⟩ acc1
      (ss ++ pc.2.used) rest fuel hb.good hst'
      (fun q hq => hpages q (List.mem_cons_of_mem _ hq)) hacc1 (by rw [hall]; simp [usedOf])
    refine ⟨acc2, p2, ?_, g1, g2, by simpa [usedOf] using g3⟩
    rw [List.length_cons, ← Nat.add_assoc]
    conv => lhs; unfold metaLog
    rw [e1]
    simp only
    rw [e2]
    simp only
    rw [show pc.2.last (decide (announcedBy (texts all) ≠ .none)) = false from hlast]
    simp only [Bool.false_eq_true, if_false]
    rw [e3, pageLog_layout hb hpage all hroom hrows acc ss _ hacc hall']
    simp [saidOnPages]

theorem saidOnPages_append (f : Format) (c : Bool) : ∀ (a b : List (List Byte × PageContent)) (ss : List Sub),
    saidOnPages f c ss (a ++ b) = saidOnPages f c ss a ++ saidOnPages f c (ss ++ usedOf (a.map (·.2))) b := by
  intro a
  induction a with
  | nil => intro b ss; simp [saidOnPages, usedOf]
  | cons x a ih => intro b ss; simp [saidOnPages, ih, usedOf]

theorem metaLog_stop (hfit : PageFits env) (all : List Sub)
    (hroom : RoomForCreator all) (hrows : rowsAfterText false all = true)
    (pre : List (List Byte × PageContent)) (k : List Byte × PageContent) (post : List (List Byte))
    (en : Ending) (p : PState σ) (fuel : Nat) (hg : p.buf.Good)
    (hst : Stream S env.pageLength p.src (pre.map (·.1) ++ k.1 :: post) en)
    (hpre : ∀ pc ∈ pre, PageIs env.endian env.format pc.1 pc.2 ∧ pc.2.last (compressedBy all) = false)
    (hk : PageIs env.endian env.format k.1 k.2) (hlast : k.2.last (compressedBy all) = true)
    (hall : all = usedOf (pre.map (·.2)) ++ k.2.used) (hfuel : pre.length < fuel) :
    metaLog env S fuel p {} = saidOnPages env.format (compressedBy all) [] (pre ++ [k]) := by
  obtain ⟨n, rfl⟩ : ∃ n, fuel = n + 1 + pre.length := ⟨fuel - pre.length - 1, by omega⟩
  obtain ⟨acc1, p1, e1, g1, g2, g3⟩ := metaLog_pre hfit all hroom hrows pre (k.1 :: post) en p {} []
    k.2.used (n + 1) hg hst hpre AccIs.init (by simpa using hall)
  obtain ⟨b, s', e2, hb, hst'⟩ := readPage_page hfit g1 g2 hk.layout
  have hall' : all = [] ++ usedOf (pre.map (·.2)) ++ k.2.used ++ [] := by simpa using hall
  obtain ⟨acc, e3, hacc, hd⟩ := processPage_layout (env := env) hb hk all hroom hrows acc1 _ [] g3 hall'
  rw [e1, saidOnPages_append]
  congr 1
  unfold metaLog
  rw [e2]
  simp only
  rw [e3]
  simp only
  rw [show k.2.last (decide (announcedBy (texts all) ≠ .none)) = true from hlast,
    pageLog_layout hb hk all hroom hrows acc1 _ [] g3 hall']
  simp [saidOnPages]

theorem metaLog_eof (hfit : PageFits env) (all : List Sub)
    (hroom : RoomForCreator all) (hrows : rowsAfterText false all = true)
    (pre : List (List Byte × PageContent)) (p : PState σ) (fuel : Nat) (hg : p.buf.Good)
    (hst : Stream S env.pageLength p.src (pre.map (·.1)) .endOfFile)
    (hpre : ∀ pc ∈ pre, PageIs env.endian env.format pc.1 pc.2 ∧ pc.2.last (compressedBy all) = false)
    (hall : all = usedOf (pre.map (·.2))) (hfuel : pre.length < fuel) :
    metaLog env S fuel p {} = saidOnPages env.format (compressedBy all) [] pre := by
  obtain ⟨n, rfl⟩ : ∃ n, fuel = n + 1 + pre.length := ⟨fuel - pre.length - 1, by omega⟩
  obtain ⟨acc1, p1, e1, g1, g2, g3⟩ := metaLog_pre hfit all hroom hrows pre [] .endOfFile p {} []
    [] (n + 1) hg (by simpa using hst) hpre AccIs.init (by simpa using hall)
  obtain ⟨b, s', e2, hb, _⟩ := readPage_end hfit g1 g2
  rw [e1]
  unfold metaLog
  rw [e2, List.append_nil]

theorem valuesLog_enough (ncols icol : Nat) : ∀ l : List (List Byte × Nat), (∀ x ∈ l, ncols ≤ x.2) → valuesLog ncols icol l = [] := by
  intro l
  induction l with
  | nil => intro _; rfl
  | cons x l ih =>
    intro h
    obtain ⟨w, n⟩ := x
    have hn : ncols ≤ n := h _ (List.mem_cons_self ..)
    unfold valuesLog
    rw [if_neg (by omega), ih fun x hx => h x (List.mem_cons_of_mem _ hx)]
    simp

theorem createLog_enough (e : Endian) (acc : Acc) (h : ∀ x ∈ acc.lists, acc.md.columnCount ≤ x.2) (k : Nat) : ∀ i,
    createLog e acc k i = [] := by
  induction k with
  | zero => intro i; rfl
  | succ k ih =>
    intro i
    unfold createLog
    rw [valuesLog_enough _ _ _ h, List.nil_append]
    split
    · rfl
    · exact ih _

theorem describes_enough {acc : Acc} {all : List Sub} {ds : List ColumnDesc} (hacc : AccIs acc all) (hd : Describes all ds) :
    ∀ x ∈ acc.lists, acc.md.columnCount ≤ x.2 := by
  have hcnt : acc.md.columnCount = ds.length := by rw [hacc.columnCount, hd.count]
  rw [hcnt]
  have key : ∀ {α : Type} (l : List α), (∀ (i : Nat) (d : ColumnDesc), ds[i]? = some d → ∃ a, l[i]? = some a) → ds.length ≤ l.length := by
    intro α l h
    by_contra hlt
    obtain ⟨a, ha⟩ := h l.length ds[l.length] (List.getElem?_eq_getElem (by omega))
    simp at ha
  intro x hx
  simp only [Acc.lists, List.mem_cons, List.not_mem_nil, or_false] at hx
  rcases hx with rfl | rfl | rfl | rfl | rfl | rfl
  · simp only [hacc.names, List.length_map]
    exact key _ fun i d h => by obtain ⟨_, _, h, _⟩ := hd.name i d h; exact ⟨_, h⟩
  · simp only [hacc.labels, List.length_map]
    exact key _ fun i d h => by obtain ⟨_, _, h, _⟩ := hd.label i d h; exact ⟨_, h⟩
  · simp only [hacc.formats, List.length_map]
    exact key _ fun i d h => by obtain ⟨_, _, h, _⟩ := hd.format i d h; exact ⟨_, h⟩
  · simp only [hacc.offsets, List.length_map]
    exact key _ fun i d h => ⟨_, hd.attr i d h⟩
  · simp only [hacc.lengths, List.length_map]
    exact key _ fun i d h => ⟨_, hd.attr i d h⟩
  · simp only [hacc.types, List.length_map]
    exact key _ fun i d h => ⟨_, hd.attr i d h⟩

/-- Opening a well-formed file in which all columns are described. -/
theorem openLog_layout {cfg : Cfg} {s : σ} {h : FileHeader} {pre : List (List Byte × PageContent)}
    {k : Option (List Byte × PageContent)} {post : List (List Byte)} {en : Ending} {all : List Sub} {c : Compression} {fuel : Nat}
    {ds : List ColumnDesc} (hw : WellFormed cfg S s h pre k post en all c fuel) (hd : Describes all ds) :
    openLog cfg S fuel s = saidOnPages h.fmt (decide (c ≠ .none)) [] (pre ++ k.toList) := by
  obtain ⟨bs, s1, s2, hl, r1, r2, hst⟩ := hw.presents
  have hm := hw.fileMeta
  obtain ⟨b, e1, hb⟩ := readHeader_loggable (cfg := cfg) hl hw.memory.1 hw.loggable r1 r2
  have hc := hm.compressedBy
  unfold openLog
  rw [e1]
  show metaLog (envOf cfg h fuel) S fuel ⟨s2, b, PageHdr.reset⟩ {} ++
    (match metaLoop (envOf cfg h fuel) S fuel ⟨s2, b, PageHdr.reset⟩ {} with
      | .error _ => []
      | .ok (_, acc) => createColumnsLog cfg h.endian acc) = _
  have hcreate : ∀ acc, AccIs acc all → createColumnsLog cfg h.endian acc = [] := by
    intro acc hacc
    unfold createColumnsLog
    rw [createLog_enough _ _ (describes_enough hacc hd)]
    split <;> rfl
  have hfit := envOf_fits (cfg := cfg) (fuel := fuel) ⟨bs, hl⟩ hw.memory.2.1
  have hpre : ∀ pc ∈ pre, PageIs (envOf cfg h fuel).endian (envOf cfg h fuel).format pc.1 pc.2 ∧
      pc.2.last (compressedBy all) = false := fun pc hpc => by rw [hc]; exact hm.pre_is pc hpc
  cases hk : k with
  | some kp =>
    rw [hk] at hst
    obtain ⟨hk1, hk2⟩ := hm.k_is kp hk
    have hall : all = usedOf (pre.map (·.2)) ++ kp.2.used := by rw [hm.all_eq, hk]; simp [usedOf]
    rw [metaLog_stop hfit all hm.room hm.rows pre kp post en _ fuel hb.good hst hpre hk1 (by rw [hc]; exact hk2) hall hw.enough]
    obtain ⟨acc, b', s', e3, -, -, hacc, -⟩ := metaLoop_stop hfit all hm.room hm.rows pre kp post en
      ⟨s2, b, PageHdr.reset⟩ fuel hb.good hst hpre hk1 (by rw [hc]; exact hk2) hall hw.enough
    rw [e3, hc]
    simp only [hcreate acc hacc, List.append_nil]
    rfl
  | none =>
    obtain ⟨rfl, rfl⟩ := hw.noRows hk
    rw [hk] at hst
    have hall : all = usedOf (pre.map (·.2)) := by rw [hm.all_eq, hk]; simp [usedOf]
    have hst' : Stream S (envOf cfg h fuel).pageLength s2 (pre.map (·.1)) .endOfFile := by simpa [envOf] using hst
    rw [metaLog_eof hfit all hm.room hm.rows pre _ fuel hb.good hst' hpre hall hw.enough]
    obtain ⟨acc, b', s', e3, -, hacc, -⟩ := metaLoop_eof hfit all hm.room hm.rows pre
      ⟨s2, b, PageHdr.reset⟩ fuel hb.good hst' hpre hall hw.enough
    rw [e3, hc]
    simp only [hcreate acc hacc, List.append_nil]
    simp [envOf]

/-! ## Columns without values -/

/-- Something is said about the lists of values exactly when one of them is too short. -/
theorem valuesLog_short (ncols : Nat) (h0 : 0 < ncols) : ∀ l : List (List Byte × Nat), (∃ x ∈ l, x.2 < ncols) →
    ∃ n w, .fewValues ncols n w ∈ valuesLog ncols 0 l := by
  intro l
  induction l with
  | nil => rintro ⟨x, hx, -⟩; cases hx
  | cons x l ih =>
    rintro ⟨y, hy, hlt⟩
    obtain ⟨w, n⟩ := x
    unfold valuesLog
    by_cases hn : n < ncols
    · exact ⟨n, w, List.mem_append_left _ (by rw [if_pos (by omega)]; simp)⟩
    · have hy' : y ∈ l := by
        rcases List.mem_cons.mp hy with rfl | h
        · exact absurd hlt hn
        · exact h
      obtain ⟨n', w', h⟩ := ih ⟨y, hy', hlt⟩
      exact ⟨n', w', List.mem_append_right _ (by rw [if_pos (by omega)]; exact h)⟩

theorem createLog_short (e : Endian) (acc : Acc) (h0 : 0 < acc.md.columnCount) (h : ∃ x ∈ acc.lists, x.2 < acc.md.columnCount) :
    ∃ n w, .fewValues acc.md.columnCount n w ∈ createLog e acc acc.md.columnCount 0 := by
  obtain ⟨k, hk⟩ : ∃ k, acc.md.columnCount = k + 1 := ⟨acc.md.columnCount - 1, by omega⟩
  obtain ⟨n, w, hm⟩ := valuesLog_short _ h0 _ h
  refine ⟨n, w, ?_⟩
  rw [hk] at hm ⊢
  unfold createLog
  rw [hk]
  exact List.mem_append_left _ hm

theorem createColumns_enough {cfg : Cfg} {acc : Acc} (e : Endian) (filter : Option Filter) (hn : acc.md.columnCount ≤ cfg.maxCols)
    (h : ∀ x ∈ acc.lists, acc.md.columnCount ≤ x.2) : ∃ cols, createColumns cfg e acc filter = .ok cols := by
  simp only [Acc.lists, List.mem_cons, List.not_mem_nil, or_false, forall_eq_or_imp, forall_eq] at h
  obtain ⟨cs, hcs⟩ := allColumns_ok e acc acc.md.columnCount 0 (fun i hi => by
    exact buildColumn_total e (by omega))
  rw [createColumns_filter, createColumns_none, if_pos hn, hcs]
  exact ⟨_, rfl⟩

/-- The columns are refused exactly when something has been said about missing values. -/
theorem createColumns_few (cfg : Cfg) (e : Endian) (acc : Acc) (filter : Option Filter) :
    createColumns cfg e acc filter = .error (.exn .outOfRange) ↔ createColumnsLog cfg e acc ≠ [] := by
  unfold createColumnsLog
  by_cases hn : acc.md.columnCount ≤ cfg.maxCols
  · rw [if_pos hn]
    by_cases h : ∀ x ∈ acc.lists, acc.md.columnCount ≤ x.2
    · obtain ⟨cols, hc⟩ := createColumns_enough e filter hn h
      rw [hc, createLog_enough _ _ h]
      simp
    · have h' : ∃ x ∈ acc.lists, x.2 < acc.md.columnCount := by
        by_contra hx
        exact h fun x hx' => by
          by_contra hlt
          exact hx ⟨x, hx', by omega⟩
      have h0 : 0 < acc.md.columnCount := by obtain ⟨x, -, hlt⟩ := h'; omega
      obtain ⟨n, w, hm⟩ := createLog_short e acc h0 h'
      simp only [Acc.lists, List.mem_cons, List.not_mem_nil, or_false, exists_eq_or_imp, exists_eq_left] at h'
      rw [createColumns_short e filter hn (by omega)]
      exact ⟨fun _ => fun h => by rw [h] at hm; exact absurd hm List.not_mem_nil, fun _ => rfl⟩
  · rw [if_neg hn, createColumns_filter, createColumns_none, if_neg hn]
    simp [Except.map]

/-- What is said about the lists of values is true. -/
theorem valuesLog_true (ncols icol : Nat) : ∀ (l : List (List Byte × Nat)) m, m ∈ valuesLog ncols icol l →
    ∃ n w, m = .fewValues ncols n w ∧ (w, n) ∈ l ∧ n < ncols := by
  intro l
  induction l with
  | nil => intro m hm; cases hm
  | cons x l ih =>
    intro m hm
    obtain ⟨w, n⟩ := x
    unfold valuesLog at hm
    rcases List.mem_append.mp hm with h | h
    · split at h
      · rw [List.mem_singleton.mp h]; exact ⟨n, w, rfl, by simp, by omega⟩
      · cases h
    · split at h
      · obtain ⟨n', w', h1, h2, h3⟩ := ih m h
        exact ⟨n', w', h1, List.mem_cons_of_mem _ h2, h3⟩
      · cases h

theorem createLog_true (e : Endian) (acc : Acc) (k : Nat) : ∀ i m, m ∈ createLog e acc k i →
    ∃ n w, m = .fewValues acc.md.columnCount n w ∧ (w, n) ∈ acc.lists ∧ n < acc.md.columnCount := by
  induction k with
  | zero => intro i m hm; cases hm
  | succ k ih =>
    intro i m hm
    unfold createLog at hm
    rcases List.mem_append.mp hm with h | h
    · exact valuesLog_true _ _ _ m h
    · split at h
      · cases h
      · exact ih _ m h

/-- Messages about missing values. -/
def few : Msg → Bool
  | .fewValues _ _ _ => true
  | _ => false

theorem subsLog_few (env : Env) (b : Buf) (k : Nat) : ∀ i acc, ∀ m ∈ subsLog env b k i acc, few m = false := by
  have h1 : ∀ acc s, ∀ m ∈ subheaderLog env b acc s, few m = false := by
    intro acc s m hm
    unfold subheaderLog at hm
    split at hm
    · cases hm
    · split at hm
      · split at hm
        · cases hm
        · split at hm
          · rw [List.mem_singleton.mp hm]; rfl
          · cases hm
      · split at hm
        · cases hm
        · rw [List.mem_singleton.mp hm]; rfl
      · cases hm
  induction k with
  | zero => intro i acc m hm; cases hm
  | succ k ih =>
    intro i acc m hm
    unfold subsLog at hm
    split at hm
    · cases hm
    · split at hm
      · exact ih _ _ m hm
      · rcases List.mem_append.mp hm with h | h
        · exact h1 _ _ m h
        · split at h
          · cases h
          · exact ih _ _ m h

theorem raiseLog_few (e : Stop) : ∀ m ∈ raiseLog e, few m = false := by
  intro m hm
  unfold raiseLog at hm
  split at hm
  · split at hm
    · rw [List.mem_singleton.mp hm]; rfl
    · cases hm
  · cases hm

theorem metaLog_few (env : Env) (S : Source σ) (n : Nat) : ∀ p acc, ∀ m ∈ metaLog env S n p acc, few m = false := by
  induction n with
  | zero => intro p acc m hm; cases hm
  | succ n ih =>
    intro p acc m hm
    unfold metaLog at hm
    split at hm
    · exact raiseLog_few _ m hm
    · cases hm
    · rcases List.mem_append.mp hm with h | h
      · unfold pageLog at h
        split at h
        · exact subsLog_few _ _ _ _ _ m h
        · cases h
      · split at h
        · cases h
        · split at h
          · cases h
          · exact ih _ _ m h

/-- In a release build the header phase does not look at dates. -/
theorem readHeader_inRange (cfg : Cfg) (S : Source σ) (s : σ) (hd : cfg.debug = false) :
    readHeader cfg S s ≠ .error (.exn .outOfRange) := by
  have h1 : Errs (fun e => e ≠ .exn .outOfRange) (checkHeaderRead cfg S s) := by
    unfold checkHeaderRead
    have := Buf.readStream_errs cfg S Buf.empty s 288 0
    generalize Buf.readStream cfg S Buf.empty s 288 0 = y at *
    obtain ⟨r, b, s'⟩ := y
    cases r with
    | error e => exact Errs.err (by rcases this e rfl with h | h <;> simp [h])
    | ok v => cases v <;> first | exact Errs.ok _ | exact Errs.err (by simp)
  have h2 : ∀ b, Errs (fun e => e ≠ .exn .outOfRange) (checkMagic cfg b) := fun b =>
    Errs.bind ((b.rd_errs _ _ _).mono (by rintro e (h | h) <;> simp [h])) fun _ _ =>
      Errs.ite (Errs.ok _) (Errs.err (by simp))
  have h3 : ∀ h, Errs (fun e => e ≠ .exn .outOfRange) (logHeader cfg h) := fun h => by
    unfold logHeader
    rw [hd]
    exact Errs.ok _
  have : Errs (fun e => e ≠ .exn .outOfRange) (readHeader cfg S s) :=
    Errs.bind h1 fun _ _ => Errs.bind (h2 _) fun _ _ =>
      Errs.bind ((setAligns_errs _ _).mono (by rintro e (h | h) <;> simp [h])) fun _ _ =>
      Errs.bind ((setHeaderLengthAndRead_errs _ _ _ _ _).mono
        (by rintro e ((h | h) | h | h) <;> simp [h])) fun _ _ =>
      Errs.bind ((setHeader_errs _ _ _ _).mono (by rintro e (h | h) <;> simp [h])) fun _ _ =>
      Errs.bind (h3 _) fun _ _ => Errs.ok _
  exact fun he => this _ he rfl

theorem open_few (cfg : Cfg) (S : Source σ) (fuel : Nat) (filter : Option Filter) (s : σ) :
    (∀ m ∈ openLog cfg S fuel s, few m = true → openReader cfg S fuel filter s = .error (.exn .outOfRange)) ∧
    (cfg.debug = false → openReader cfg S fuel filter s = .error (.exn .outOfRange) → ∃ m ∈ openLog cfg S fuel s, few m = true) ∧
    (∀ n k w, .fewValues n k w ∈ openLog cfg S fuel s → k < n) := by
  unfold openReader openLog
  have hh : cfg.debug = false → readHeader cfg S s ≠ .error (.exn .outOfRange) := by
    intro hd
    exact readHeader_inRange cfg S s hd
  generalize readHeader cfg S s = x at *
  rcases x with e | ⟨hdr, b, s⟩
  · refine ⟨fun m hm hf => ?_, fun hd he => absurd (by cases he; rfl) (hh hd), fun n k w hm => ?_⟩
    · rw [raiseLog_few e m hm] at hf; cases hf
    · have := raiseLog_few e _ hm; cases this
  · simp only [bind, Except.bind]
    have hm := metaLog_few { cfg := cfg, endian := hdr.endian, format := hdr.format, pageLength := hdr.pageLength, fuel := fuel } S fuel
      ⟨s, b, PageHdr.reset⟩ {}
    have he := metaLoop_errs { cfg := cfg, endian := hdr.endian, format := hdr.format, pageLength := hdr.pageLength, fuel := fuel } S fuel
      ⟨s, b, PageHdr.reset⟩ {}
    generalize metaLog { cfg := cfg, endian := hdr.endian, format := hdr.format, pageLength := hdr.pageLength, fuel := fuel } S fuel
      ⟨s, b, PageHdr.reset⟩ {} = ms at *
    generalize metaLoop { cfg := cfg, endian := hdr.endian, format := hdr.format, pageLength := hdr.pageLength, fuel := fuel } S fuel
      ⟨s, b, PageHdr.reset⟩ {} = y at *
    rcases y with e | ⟨p, acc⟩
    · simp only [List.append_nil]
      refine ⟨fun m h hf => ?_, fun _ h => ?_, fun n k w h => ?_⟩
      · rw [hm m h] at hf; cases hf
      · cases h
        rcases he _ rfl with (h | h | h | h) | h <;> cases h
      · have := hm _ h; cases this
    · simp only
      have hiff := createColumns_few cfg hdr.endian acc filter
      have htrue : ∀ m ∈ createColumnsLog cfg hdr.endian acc, ∃ n w, m = .fewValues acc.md.columnCount n w ∧ n < acc.md.columnCount := by
        intro m hm
        unfold createColumnsLog at hm
        split at hm
        · obtain ⟨n, w, h1, -, h2⟩ := createLog_true _ _ _ _ m hm
          exact ⟨n, w, h1, h2⟩
        · cases hm
      generalize createColumnsLog cfg hdr.endian acc = ms2 at *
      refine ⟨fun m h hf => ?_, fun _ h => ?_, fun n k w h => ?_⟩
      · rcases List.mem_append.mp h with h | h
        · rw [hm m h] at hf; cases hf
        · rw [hiff.mpr (by rintro rfl; cases h)]
      · cases ms2 with
        | cons m rest =>
          obtain ⟨n, w, h1, -⟩ := htrue m (by simp)
          exact ⟨m, by simp, by rw [h1]; rfl⟩
        | nil =>
          exfalso
          have h2 := RD.build_errs { cfg := cfg, endian := hdr.endian, format := hdr.format, pageLength := hdr.pageLength, fuel := fuel } p acc
          generalize createColumns cfg hdr.endian acc filter = z at *
          rcases z with e | cols
          · cases h
            exact hiff.mp rfl rfl
          · simp only at h
            generalize RD.build { cfg := cfg, endian := hdr.endian, format := hdr.format, pageLength := hdr.pageLength, fuel := fuel } p acc = w at *
            rcases w with e | rd
            · cases h
              rcases h2 _ rfl with h | h | h <;> cases h
            · cases h
      · rcases List.mem_append.mp h with h | h
        · have := hm _ h; cases this
        · obtain ⟨n', w', h1, h2⟩ := htrue _ h
          cases h1
          exact h2

end Sas.Proofs
