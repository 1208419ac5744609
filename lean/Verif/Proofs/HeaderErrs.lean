import Verif.Proofs.Header
import Verif.Proofs.OpenErrs

/-! Which failures the header phase can produce. -/

namespace Sas

open Spec

variable {σ : Type}

theorem setAligns_errs (cfg : Cfg) (b : Buf) : Errs Crash (setAligns cfg b) :=
  Errs.bind (b.getByte_errs _ _) fun _ _ => Errs.bind (b.getByte_errs _ _) fun _ _ =>
    Errs.bind (b.getByte_errs _ _) fun _ _ => Errs.ok _

theorem Buf.readStream_false {cfg : Cfg} {S : Source σ} {b b' : Buf} {s s' : σ} {n o : Nat}
    (hr : Buf.readStream cfg S b s n o = (.ok false, b', s')) : (S.read s n).ok = false := by
  unfold Buf.readStream at hr
  split at hr
  · cases hr
  · simp only at hr
    split at hr
    · simp only [Prod.mk.injEq, Except.ok.injEq] at hr; exact hr.1
    · simp at hr

theorem setHeaderLengthAndRead_errs (cfg : Cfg) (S : Source σ) (al : Align) (b : Buf) (s : σ) :
    Errs (fun e => Crash e ∨ e = .exn .badAlloc ∨
      e = .exn .headerTooShort ∧ ∃ n, (S.read s n).ok = false) (setHeaderLengthAndRead cfg S al b s) := by
  unfold setHeaderLengthAndRead
  refine Errs.bind ((b.getU32_errs _ _ _).mono fun e h => .inl h) fun hl _ => ?_
  refine Errs.bind ((fmtAssert_errs _ _).mono fun e h => .inl h) fun _ _ => ?_
  generalize sub64 hl 288 = n
  have he := Buf.readStream_errs cfg S b s n 288
  have hok := fun b' s' => Buf.readStream_false (cfg := cfg) (S := S) (b := b) (b' := b') (s := s)
    (s' := s') (n := n) (o := 288)
  generalize Buf.readStream cfg S b s n 288 = y at *
  obtain ⟨r, b', s'⟩ := y
  cases r with
  | error e =>
    refine Errs.err ?_
    rcases he e rfl with h | h
    · exact .inr (.inl h)
    · exact .inl (.inr h)
  | ok v =>
    cases v with
    | true => exact Errs.ok _
    | false => exact Errs.err (.inr (.inr ⟨rfl, _, hok _ _ rfl⟩))

theorem datetimeFromEpoch_errs (x : Dbl) : Errs (· = .ub) (datetimeFromEpoch x) := by
  have h1 : ∀ n, Errs (· = .ub) (days32 n) := fun n => by unfold days32; exact Errs.ite (Errs.ok _) (Errs.err rfl)
  have h2 : ∀ n, Errs (· = .ub) (ticks64 n) := fun n => by unfold ticks64; exact Errs.ite (Errs.ok _) (Errs.err rfl)
  cases x with
  | nan => exact Errs.ok _
  | inf s => exact Errs.err rfl
  | fin q =>
    exact Errs.bind (h1 _) fun _ _ => Errs.bind (h2 _) fun _ _ => Errs.bind (h2 _) fun _ _ =>
      Errs.bind (h2 _) fun _ _ => Errs.ok _

theorem DateTime.toText_errs (x : DateTime) : Errs (fun e => Crash e ∨ e = .exn .outOfRange) x.toText := by
  refine Errs.bind ?_ fun d _ => Errs.bind ?_ fun y _ => ?_
  · cases x with
    | notADateTime => exact Errs.ok _
    | «at» t => exact Errs.ite (Errs.ok _) (Errs.err (.inr rfl))
  · exact Errs.ite (Errs.ok _) (Errs.err (.inr rfl))
  · exact Errs.ite (Errs.ok _) (Errs.err (.inl (.inr rfl)))

theorem logHeader_errs (cfg : Cfg) (h : Header) :
    Errs (fun e => Crash e ∨ e = .exn .outOfRange) (logHeader cfg h) :=
  Errs.ite (Errs.bind (DateTime.toText_errs _) fun _ _ => Errs.bind (DateTime.toText_errs _) fun _ _ => Errs.ok _)
    (Errs.ok _)

theorem setHeader_errs (cfg : Cfg) (al : Align) (hl : Nat) (b : Buf) :
    Errs Crash (setHeader cfg al hl b) := by
  have hs : ∀ o n, Errs Crash (b.getString cfg o n) := fun o n =>
    Errs.bind (b.rd_errs _ _ _) fun _ _ => Errs.ok _
  have hdbl : ∀ e o, Errs Crash (b.getDate cfg e o) := fun e o =>
    Errs.bind (Errs.bind (b.rd_errs _ _ _) fun _ _ => Errs.ok _) fun x _ =>
      (datetimeFromEpoch_errs _).mono fun _ h => .inr h
  have henc : ∀ x, Errs Crash (getEncoding x) := by
    intro x; rw [C37']; exact Errs.ok _
  unfold setHeader
  refine Errs.bind (fmtAssert_errs _ _) fun _ _ => Errs.bind (b.getByte_errs _ _) fun _ _ =>
    Errs.bind (b.getByte_errs _ _) fun x _ => Errs.bind (henc x) fun _ _ =>
    Errs.bind (hs _ _) fun _ _ => Errs.bind (hs _ _) fun _ _ => Errs.bind (hdbl _ _) fun _ _ =>
    Errs.bind (hdbl _ _) fun _ _ => Errs.bind (b.getU32_errs _ _ _) fun _ _ =>
    Errs.bind (b.getU32_errs _ _ _) fun _ _ => Errs.bind (hs _ _) fun _ _ =>
    Errs.bind (hs _ _) fun _ _ => Errs.bind (hs _ _) fun _ _ =>
    Errs.bind (b.getByte_errs _ _) fun _ _ => ?_
  exact Errs.ite (Errs.bind (hs _ _) fun _ _ => Errs.ok _)
    (Errs.bind (hs _ _) fun _ _ => Errs.ok _)

/-- What the header phase amounts to once 288 bytes have been delivered. -/
theorem readHeader_after (cfg : Cfg) (S : Source σ) (hS : S.Lawful) (s : σ) (hmem : 288 ≤ cfg.maxAlloc)
    (h : (S.read s 288).ok = true) :
    ((S.read s 288).bytes.take 32 = magic →
      Errs (fun e => (Crash e ∨ e = .exn .outOfRange) ∨ e = .exn .badAlloc ∨
        e = .exn .headerTooShort ∧ ∃ n, (S.read (S.read s 288).st n).ok = false) (readHeader cfg S s)) ∧
    ((S.read s 288).bytes.take 32 ≠ magic →
      readHeader cfg S s = .error (.exn .invalidMagicNumber)) := by
  obtain ⟨b, hb, hh⟩ := holds_288 (cfg := cfg) hmem h (hS.full s 288 h)
  have hlen : 32 ≤ (S.read s 288).bytes.length := by rw [hS.full s 288 h]; omega
  have hmg := checkMagic_ok (cfg := cfg) hh hlen
  generalize S.read s 288 = r at *
  unfold readHeader
  rw [hb, Res.ok_bind]
  simp only
  constructor
  · intro hm
    rw [if_pos hm] at hmg
    rw [hmg, Res.ok_bind]
    refine Errs.bind ((setAligns_errs _ _).mono fun e h => .inl (.inl h)) fun al _ => ?_
    refine Errs.bind ((setHeaderLengthAndRead_errs _ _ _ _ _).mono fun e h => h.imp .inl id) fun x _ => ?_
    exact Errs.bind ((setHeader_errs _ _ _ _).mono fun e h => .inl (.inl h)) fun _ _ =>
      Errs.bind ((logHeader_errs _ _).mono fun e h => .inl h) fun _ _ => Errs.ok _
  · intro hm
    rw [if_neg hm] at hmg
    rw [hmg]
    rfl

end Sas
