import Verif.Proofs.Data
import Verif.Proofs.RleSafe
import Verif.Proofs.RdcSafe

/-! Which failures each function can produce. -/

namespace Sas

variable {α β σ : Type}

/-- Every failure of `x` satisfies `P`. -/
def Errs (P : Stop → Prop) (x : Res α) : Prop := ∀ e, x = .error e → P e

theorem Errs.ok {P : Stop → Prop} (a : α) : Errs P (Except.ok a : Res α) := by intro e h; cases h

theorem Errs.err {P : Stop → Prop} {e : Stop} (h : P e) : Errs P (Except.error e : Res α) := by
  intro e' h'; cases h'; exact h

theorem Errs.bind {P : Stop → Prop} {x : Res α} {f : α → Res β} (hx : Errs P x)
    (hf : ∀ a, x = .ok a → Errs P (f a)) : Errs P (x >>= f) := by
  cases x with
  | error e => intro e' h; cases h; exact hx e rfl
  | ok a => exact hf a rfl

theorem Errs.mono {P Q : Stop → Prop} (hPQ : ∀ e, P e → Q e) {x : Res α} (h : Errs P x) : Errs Q x :=
  fun e he => hPQ e (h e he)

theorem Errs.ite {P : Stop → Prop} {c : Prop} [Decidable c] {x y : Res α} (hx : Errs P x)
    (hy : Errs P y) : Errs P (if c then x else y) := by
  split <;> assumption

/-- A crash rather than an exception. -/
def Crash (e : Stop) : Prop := e = .terminate ∨ e = .ub

theorem Buf.rd_errs (cfg : Cfg) (b : Buf) (o l : Nat) : Errs Crash (b.rd cfg o l) := by
  intro e h
  unfold Buf.rd at h
  split at h
  · cases h; exact .inl rfl
  · split at h
    · cases h
    · cases h; exact .inr rfl

theorem Buf.getByte_errs (cfg : Cfg) (b : Buf) (o : Nat) : Errs Crash (b.getByte cfg o) := by
  unfold Buf.getByte
  refine Errs.bind (b.rd_errs cfg o 1) fun a _ => ?_
  cases a with
  | nil => exact Errs.err (.inr rfl)
  | cons x xs => exact Errs.ok _

theorem Buf.getU16_errs (cfg : Cfg) (en : Endian) (b : Buf) (o : Nat) :
    Errs Crash (b.getU16 cfg en o) :=
  Errs.bind (b.rd_errs cfg o 2) fun _ _ => Errs.ok _

theorem Buf.getU32_errs (cfg : Cfg) (en : Endian) (b : Buf) (o : Nat) :
    Errs Crash (b.getU32 cfg en o) :=
  Errs.bind (b.rd_errs cfg o 4) fun _ _ => Errs.ok _

theorem Buf.getUInt_errs (cfg : Cfg) (en : Endian) (f : Format) (b : Buf) (o : Nat) :
    Errs Crash (b.getUInt cfg en f o) :=
  Errs.bind (b.rd_errs cfg o _) fun _ _ => Errs.ok _

theorem Buf.assertCheck_errs (b : Buf) (o l : Nat) : Errs Crash (b.assertCheck o l) := by
  unfold Buf.assertCheck
  exact Errs.ite (Errs.ok _) (Errs.err (.inl rfl))

theorem fmtAssert_errs (cfg : Cfg) (c : Bool) : Errs Crash (fmtAssert cfg c) := by
  unfold fmtAssert
  exact Errs.ite (Errs.err (.inl rfl)) (Errs.ok _)

theorem getPageHeader_errs (env : Env) (b : Buf) : Errs Crash (getPageHeader env b) :=
  Errs.bind (b.getU16_errs _ _ _) fun _ _ => Errs.bind (b.getU16_errs _ _ _) fun _ _ =>
    Errs.bind (b.getU16_errs _ _ _) fun _ _ => Errs.ok _

theorem getPageSubheader_errs (env : Env) (b : Buf) (o : Nat) : Errs Crash (getPageSubheader env b o) :=
  Errs.bind (b.assertCheck_errs _ _) fun _ _ => Errs.bind (b.getUInt_errs _ _ _ _) fun _ _ =>
    Errs.bind (b.getUInt_errs _ _ _ _) fun _ _ => Errs.bind (b.getByte_errs _ _) fun _ _ =>
    Errs.bind (b.getByte_errs _ _) fun _ _ => Errs.bind (b.assertCheck_errs _ _) fun _ _ => Errs.ok _

theorem processSubs_errs {P : Stop → Prop} (hP : ∀ e, Crash e → P e) (env : Env) (b : Buf)
    (f : α → PageSub → Res α) (hf : ∀ a s, Errs P (f a s)) (k : Nat) : ∀ (i : Nat) (a : α),
    Errs P (processSubs env b f k i a) := by
  induction k with
  | zero => intro i a; exact Errs.ok _
  | succ k ih =>
    intro i a
    refine Errs.bind ((getPageSubheader_errs _ _ _).mono hP) fun s _ => ?_
    exact Errs.ite (Errs.bind (Errs.ok _) fun a' _ => ih _ _)
      (Errs.ite (Errs.bind (Errs.ok _) fun a' _ => ih _ _) (Errs.bind (hf _ _) fun a' _ => ih _ _))

theorem buildPage_errs (env : Env) (md : Meta) (b : Buf) (h : PageHdr) :
    Errs Crash (buildPage env md b h) := by
  unfold buildPage
  refine Errs.ite ?_ (Errs.ite (Errs.ok _) (Errs.ite (Errs.ok _) (Errs.ok _)))
  refine Errs.bind (processSubs_errs (fun _ h => h) _ _ _ (fun _ _ => Errs.ok _) _ _ _) fun subs _ => ?_
  exact Errs.ite (Errs.ok _) (Errs.ok _)

theorem Buf.readStream_errs (cfg : Cfg) (S : Source σ) (b : Buf) (s : σ) (l o : Nat) :
    Errs (fun e => e = .exn .badAlloc ∨ e = .ub) (b.readStream cfg S s l o).1 := by
  unfold Buf.readStream
  unfold Buf.resize
  split
  · rename_i heq
    split at heq
    · split at heq
      · cases heq
      · cases heq; exact Errs.err (.inl rfl)
    · cases heq
  · simp only
    split
    · exact Errs.ok _
    · exact Errs.err (.inr rfl)

/-- The failures of reading a page. -/
def PageErr (e : Stop) : Prop :=
  e = .exn .badAlloc ∨ e = .exn .cannotReadPage ∨ e = .terminate ∨ e = .ub

theorem readPage_errs (env : Env) (S : Source σ) (p : PState σ) :
    Errs PageErr (readPage env S p).1 := by
  unfold readPage
  have h1 := Buf.readStream_errs env.cfg S p.buf p.src env.pageLength 0
  split
  · exact Errs.ok _
  · generalize Buf.readStream env.cfg S p.buf p.src env.pageLength 0 = x at *
    obtain ⟨r, b, s⟩ := x
    cases r with
    | error e =>
      refine Errs.err ?_
      rcases h1 e rfl with h | h
      · exact .inl h
      · exact .inr (.inr (.inr h))
    | ok v =>
      cases v with
      | false =>
        simp only
        split
        · exact Errs.ok _
        · exact Errs.err (.inr (.inl rfl))
      | true =>
        simp only
        have h2 := getPageHeader_errs env b
        cases hg : getPageHeader env b with
        | error e => exact Errs.err (.inr (.inr (h2 e hg)))
        | ok h => exact Errs.ok _

theorem nextPageLoop_errs (env : Env) (S : Source σ) (md : Meta) (n : Nat) : ∀ r : RD σ,
    Errs (fun e => PageErr e ∨ e = .fuel) (nextPageLoop env S md n r).1 := by
  induction n with
  | zero => intro r; exact Errs.err (.inr rfl)
  | succ n ih =>
    intro r
    unfold nextPageLoop
    have h1 := readPage_errs env S r.p
    generalize readPage env S r.p = x at *
    obtain ⟨res, p⟩ := x
    cases res with
    | error e => exact Errs.err (.inl (h1 e rfl))
    | ok b =>
      cases b with
      | false => exact Errs.ok _
      | true =>
        simp only
        have h2 := buildPage_errs env md p.buf p.hdr
        cases hb : buildPage env md p.buf p.hdr with
        | error e => exact Errs.err (.inl (.inr (.inr (h2 e hb))))
        | ok o =>
          cases o with
          | some pg => exact Errs.ok _
          | none => exact ih _

/-- Moving to the next row never fails with `cannot_decompress`. -/
theorem RD.advance_errs (env : Env) (S : Source σ) (md : Meta) (r : RD σ) :
    Errs (fun e => PageErr e ∨ e = .fuel) (r.advance env S md).1 := by
  have h1 : Errs (fun e => PageErr e ∨ e = .fuel) (r.next env S md).1 := by
    unfold RD.next
    split
    · exact Errs.ok _
    · split
      · exact Errs.ok _
      · split
        · exact nextPageLoop_errs env S md _ _
        · exact Errs.ok _
  unfold RD.advance
  generalize r.next env S md = x at *
  obtain ⟨res, r1⟩ := x
  cases res with
  | error e => exact Errs.err (h1 e rfl)
  | ok b =>
    cases b with
    | false => exact Errs.ok _
    | true =>
      have h2 : Errs Crash r1.takeLine.1 := by
        unfold RD.takeLine
        cases r1.page with
        | none => exact Errs.err (.inr rfl)
        | some pg =>
          have : Errs Crash pg.readLine := by
            unfold Page.readLine
            split
            · split
              · exact Errs.ok _
              · exact Errs.err (.inr rfl)
            · exact Errs.ok _
            · exact Errs.ok _
          simp only
          cases hl : pg.readLine with
          | error e => exact Errs.err (this e hl)
          | ok ol => exact Errs.ok _
      simp only
      generalize r1.takeLine = y at *
      obtain ⟨res2, r2⟩ := y
      cases res2 with
      | error e => exact Errs.err (.inl (.inr (.inr (h2 e rfl))))
      | ok ol => exact Errs.ok _

/-- Extracting the bytes of a row fails with `cannot_decompress` or crashes. -/
theorem RD.extract_errs (env : Env) (md : Meta) (r : RD σ) (off len : Nat) :
    Errs (fun e => e = .exn .cannotDecompress ∨ Crash e) (r.extract env md off len).1 := by
  unfold RD.extract
  have h1 := fmtAssert_errs env.cfg (w64 (off + len) ≤ env.pageLength)
  cases ha : fmtAssert env.cfg (w64 (off + len) ≤ env.pageLength) with
  | error e => exact Errs.err (.inr (h1 e ha))
  | ok u =>
    simp only
    have h2 := r.p.buf.rd_errs env.cfg off len
    cases hr : r.p.buf.rd env.cfg off len with
    | error e => exact Errs.err (.inr (h2 e hr))
    | ok v =>
      simp only
      split
      · unfold RD.decompress
        split
        · exact Errs.ok _
        · intro e he
          simp only at he
          cases hx : (rle v r.dst).1 with
          | ok a => rw [hx] at he; cases he
          | error e' =>
            rw [hx] at he
            have hee : e' = e := by cases he; rfl
            subst hee
            rcases rle_err _ _ _ hx with h | ⟨h, -⟩
            · exact .inl h
            · exact .inr (.inr h)
        · intro e he
          simp only at he
          cases hx : (rdc env.cfg v r.dst).1 with
          | ok a => rw [hx] at he; cases he
          | error e' =>
            rw [hx] at he
            have hee : e' = e := by cases he; rfl
            subst hee
            rcases rdc_err _ _ _ _ hx with h | h | ⟨h, -⟩
            · exact .inl h
            · exact .inr (.inr h)
            · exact .inr (.inl h)
      · exact Errs.ok _

/-- Reading a row always moves as skipping one row does; the results correspond. -/
theorem RD.readLine_skip (env : Env) (S : Source σ) (md : Meta) (r : RD σ) :
    RD.Sim (r.skip env S md 1).2 (r.readLine env S md).2 ∧
    (match (r.readLine env S md).1 with
     | .ok (some _) => (r.skip env S md 1).1 = .ok true
     | .ok none => (r.skip env S md 1).1 = .ok false
     | .error (.exn .cannotDecompress) => (r.skip env S md 1).1 = .ok true
     | .error (.exn e) => (r.skip env S md 1).1 = .error (.exn e)
     | .error e => (r.skip env S md 1).1 = .ok true ∨ (r.skip env S md 1).1 = .error e) := by
  rw [RD.readLine_eq, RD.skip_succ_eq]
  have he := RD.advance_errs env S md r
  generalize r.advance env S md = x at *
  obtain ⟨res, r1⟩ := x
  cases res with
  | error e =>
    refine ⟨RD.Sim.refl _, ?_⟩
    have := he e rfl
    simp only
    split <;> simp_all [PageErr]
  | ok o =>
    cases o with
    | none => exact ⟨RD.Sim.refl _, rfl⟩
    | some ol =>
      have hx := RD.extract_errs env md r1 ol.1 ol.2
      have hf := RD.extract_frame env md r1 ol.1 ol.2
      simp only [RD.skip]
      generalize r1.extract env md ol.1 ol.2 = y at *
      obtain ⟨res2, r2⟩ := y
      cases res2 with
      | ok row => exact ⟨hf, trivial⟩
      | error e =>
        refine ⟨hf, ?_⟩
        have := hx e rfl
        simp only
        split <;> simp_all [Crash]

end Sas
