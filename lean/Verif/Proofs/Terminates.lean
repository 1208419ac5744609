import Verif.Proofs.Reader
import Verif.Proofs.HeaderErrs
import Verif.Spec.Termination

/-! The page loops end on finite sources when pages are not empty. -/

namespace Sas

open Spec

variable {σ : Type} {S : Source σ} {left : σ → Nat}

theorem Buf.readStream_left (hF : Finite S left) (cfg : Cfg) (b : Buf) (s : σ) (n o : Nat) :
    left (Buf.readStream cfg S b s n o).2.2 ≤ left s ∧
    ((Buf.readStream cfg S b s n o).1 = .ok true →
      left (Buf.readStream cfg S b s n o).2.2 + n ≤ left s) := by
  unfold Buf.readStream
  split
  · exact ⟨Nat.le_refl _, fun h => by cases h⟩
  · simp only
    split
    · refine ⟨hF.mono s n, fun h => ?_⟩
      simp only [Except.ok.injEq] at h
      exact hF.less s n h
    · exact ⟨hF.mono s n, fun h => by cases h⟩

theorem readPage_left (hF : Finite S left) (env : Env) (p : PState σ) :
    left (readPage env S p).2.src ≤ left p.src ∧
    ((readPage env S p).1 = .ok true → left (readPage env S p).2.src + env.pageLength ≤ left p.src) := by
  unfold readPage
  split
  · exact ⟨Nat.le_refl _, fun h => by cases h⟩
  · have h1 := Buf.readStream_left hF env.cfg p.buf p.src env.pageLength 0
    generalize Buf.readStream env.cfg S p.buf p.src env.pageLength 0 = x at *
    obtain ⟨r, b, s⟩ := x
    obtain ⟨h1, h2⟩ := h1
    cases r with
    | error e => exact ⟨h1, fun h => by cases h⟩
    | ok v =>
      cases v with
      | false =>
        simp only
        split
        · exact ⟨h1, fun h => by cases h⟩
        · exact ⟨h1, fun h => by cases h⟩
      | true =>
        simp only
        split
        · exact ⟨h1, fun h => by cases h⟩
        · exact ⟨h1, fun _ => h2 rfl⟩

theorem metaLoop_ends (hF : Finite S left) (env : Env) (hL : 0 < env.pageLength) (n : Nat) :
    ∀ (p : PState σ) (acc : Acc), left p.src < n →
      metaLoop env S n p acc ≠ .error .fuel ∧
      (∀ p' acc', metaLoop env S n p acc = .ok (p', acc') → left p'.src ≤ left p.src) := by
  induction n with
  | zero => intro p acc h; omega
  | succ n ih =>
    intro p acc hn
    unfold metaLoop
    have h1 := readPage_errs env S p
    have h2 := readPage_left hF env p
    generalize readPage env S p = x at *
    obtain ⟨res, p'⟩ := x
    obtain ⟨h2, h3⟩ := h2
    cases res with
    | error e =>
      refine ⟨fun h => ?_, fun _ _ h => by cases h⟩
      cases h
      simpa [PageErr] using h1 _ rfl
    | ok b =>
      cases b with
      | false => exact ⟨(fun h => by cases h), fun _ _ h => by cases h; exact h2⟩
      | true =>
        have h3 := h3 rfl
        simp only at h2 h3 ⊢
        have h4 := processPage_errs env p'.buf p'.hdr acc
        cases hp : processPage env p'.buf p'.hdr acc with
        | error e =>
          refine ⟨fun h => ?_, fun _ _ h => by cases h⟩
          rw [hp] at h4
          cases h
          exact absurd rfl h4.notFuel
        | ok a =>
          obtain ⟨acc', stop⟩ := a
          rw [Res.ok_bind]
          cases stop with
          | true => exact ⟨(fun h => by cases h), fun _ _ h => by cases h; exact h2⟩
          | false =>
            obtain ⟨i1, i2⟩ := ih p' acc' (by omega)
            refine ⟨i1, fun p'' acc'' h => ?_⟩
            have := i2 p'' acc'' h
            omega

theorem nextPageLoop_ends (hF : Finite S left) (env : Env) (md : Meta) (hL : 0 < env.pageLength)
    (n : Nat) : ∀ r : RD σ, left r.p.src < n →
      (nextPageLoop env S md n r).1 ≠ .error .fuel ∧
      left (nextPageLoop env S md n r).2.p.src ≤ left r.p.src := by
  induction n with
  | zero => intro r h; omega
  | succ n ih =>
    intro r hn
    unfold nextPageLoop
    have h1 := readPage_errs env S r.p
    have h2 := readPage_left hF env r.p
    generalize readPage env S r.p = x at *
    obtain ⟨res, p'⟩ := x
    obtain ⟨h2, h3⟩ := h2
    cases res with
    | error e =>
      refine ⟨fun h => ?_, h2⟩
      cases h
      simpa [PageErr] using h1 _ rfl
    | ok b =>
      cases b with
      | false => exact ⟨(fun h => by cases h), h2⟩
      | true =>
        have h3 := h3 rfl
        simp only at h2 h3 ⊢
        have h4 := buildPage_errs env md p'.buf p'.hdr
        cases hp : buildPage env md p'.buf p'.hdr with
        | error e =>
          refine ⟨fun h => ?_, h2⟩
          rw [hp] at h4
          cases h
          exact absurd rfl h4.notFuel
        | ok o =>
          cases o with
          | some pg => exact ⟨(fun h => by cases h), h2⟩
          | none =>
            obtain ⟨i1, i2⟩ := ih { r with p := p' } (by simp only; omega)
            refine ⟨i1, Nat.le_trans i2 h2⟩

/-- What makes the page loops of a reader end. -/
structure Env.Enough (env : Env) (left : σ → Nat) (r : RD σ) : Prop where
  pos : 0 < env.pageLength
  fuel : left r.p.src < env.fuel

/-- A call on `READ_DATA` ends and keeps what makes the next one end. -/
def Ends {α : Type} (left : σ → Nat) (r : RD σ) (x : Res α × RD σ) : Prop :=
  x.1 ≠ .error .fuel ∧ left x.2.p.src ≤ left r.p.src

theorem Env.Enough.step {env : Env} {r r' : RD σ} (h : env.Enough left r)
    (hle : left r'.p.src ≤ left r.p.src) : env.Enough left r' :=
  ⟨h.pos, Nat.lt_of_le_of_lt hle h.fuel⟩

theorem RD.advance_ends (hF : Finite S left) (env : Env) (md : Meta) (r : RD σ)
    (h : env.Enough left r) : Ends left r (r.advance env S md) := by
  have hn : Ends left r (r.next env S md) := by
    unfold RD.next
    split
    · exact ⟨(fun h => by cases h), Nat.le_refl _⟩
    · split
      · exact ⟨(fun h => by cases h), Nat.le_refl _⟩
      · split
        · exact nextPageLoop_ends hF env md h.pos _ { r with page := none } h.fuel
        · exact ⟨(fun h => by cases h), Nat.le_refl _⟩
  unfold RD.advance
  generalize r.next env S md = x at *
  obtain ⟨res, r1⟩ := x
  obtain ⟨h1, h2⟩ := hn
  cases res with
  | error e => exact ⟨(fun he => h1 (by cases he; rfl)), h2⟩
  | ok b =>
    cases b with
    | false => exact ⟨(fun h => by cases h), h2⟩
    | true =>
      simp only at h2 ⊢
      unfold RD.takeLine
      cases r1.page with
      | none => exact ⟨(fun h => by cases h), h2⟩
      | some pg =>
        simp only
        cases hl : pg.readLine with
        | error e =>
          refine ⟨fun he => ?_, h2⟩
          cases he
          unfold Page.readLine at hl
          split at hl
          · split at hl <;> cases hl
          · cases hl
          · cases hl
        | ok ol => exact ⟨(fun h => by cases h), h2⟩

theorem RD.readLine_ends (hF : Finite S left) (env : Env) (md : Meta) (r : RD σ)
    (h : env.Enough left r) : Ends left r (r.readLine env S md) := by
  rw [RD.readLine_eq]
  have ha := RD.advance_ends hF env md r h
  generalize r.advance env S md = x at *
  obtain ⟨res, r1⟩ := x
  obtain ⟨h1, h2⟩ := ha
  cases res with
  | error e => exact ⟨(fun he => h1 (by cases he; rfl)), h2⟩
  | ok o =>
    cases o with
    | none => exact ⟨(fun h => by cases h), h2⟩
    | some ol =>
      have hx := RD.extract_errs env md r1 ol.1 ol.2
      have hf := RD.extract_frame env md r1 ol.1 ol.2
      simp only at h2 ⊢
      generalize r1.extract env md ol.1 ol.2 = y at *
      obtain ⟨res2, r2⟩ := y
      have hp : r2.p = r1.p := by have := congrArg RD.p hf.1; simpa using this
      cases res2 with
      | error e =>
        refine ⟨fun he => ?_, by simp only; rw [hp]; exact h2⟩
        cases he
        simpa [Crash] using hx _ rfl
      | ok row => exact ⟨(fun h => by cases h), by simp only; rw [hp]; exact h2⟩

theorem RD.skip_ends (hF : Finite S left) (env : Env) (md : Meta) (n : Nat) : ∀ r : RD σ,
    env.Enough left r → Ends left r (r.skip env S md n) := by
  induction n with
  | zero => intro r _; exact ⟨(fun h => by cases h), Nat.le_refl _⟩
  | succ n ih =>
    intro r h
    rw [RD.skip_succ_eq]
    have ha := RD.advance_ends hF env md r h
    generalize r.advance env S md = x at *
    obtain ⟨res, r1⟩ := x
    obtain ⟨h1, h2⟩ := ha
    cases res with
    | error e => exact ⟨(fun he => h1 (by cases he; rfl)), h2⟩
    | ok o =>
      cases o with
      | none => exact ⟨(fun h => by cases h), h2⟩
      | some ol =>
        obtain ⟨i1, i2⟩ := ih r1 (h.step h2)
        exact ⟨i1, Nat.le_trans i2 h2⟩

/-- The reader's calls end. -/
structure Reader.Enough (left : σ → Nat) (R : Reader σ) : Prop where
  enough : R.env.Enough left R.rd
  inv : R.Inv

/-- A call on a reader ends and keeps what makes the next one end. -/
def REnds {α : Type} (left : σ → Nat) (x : Res α × Reader σ) : Prop :=
  x.1 ≠ .error .fuel ∧ x.2.Enough left

theorem Reader.readRow_ends (hF : Finite S left) (R : Reader σ) (h : R.Enough left) :
    REnds left (R.readRow S) := by
  have hl := RD.readLine_ends hF R.env R.props.md R.rd h.enough
  have hi := (RD.readLine_spec R.env S R.props.md R.rd h.inv).1
  unfold Reader.readRow
  generalize R.rd.readLine R.env S R.props.md = x at *
  obtain ⟨res, r1⟩ := x
  obtain ⟨h1, h2⟩ := hl
  cases res with
  | error e => exact ⟨(fun he => h1 (by cases he; rfl)), ⟨h.enough.step h2, hi⟩⟩
  | ok o =>
    cases o with
    | none => exact ⟨(fun h => by cases h), ⟨h.enough.step h2, hi⟩⟩
    | some row => exact ⟨(fun h => by cases h), ⟨h.enough.step h2, hi⟩⟩

theorem Reader.readRows_ends (hF : Finite S left) (n : Nat) : ∀ R : Reader σ, R.Enough left →
    REnds left (R.readRows S n) := by
  induction n with
  | zero => intro R h; exact ⟨(fun h => by cases h), h⟩
  | succ n ih =>
    intro R h
    unfold Reader.readRows
    have hr := Reader.readRow_ends hF R h
    generalize R.readRow S = x at *
    obtain ⟨res, R1⟩ := x
    obtain ⟨h1, h2⟩ := hr
    cases res with
    | error e => exact ⟨(fun he => h1 (by cases he; rfl)), h2⟩
    | ok b =>
      cases b with
      | false => exact ⟨(fun h => by cases h), h2⟩
      | true => exact ih R1 h2

theorem Reader.readAll_ends (hF : Finite S left) (R : Reader σ) (h : R.Enough left) :
    REnds left (R.readAll S) := by
  have key : ∀ (n : Nat) (R : Reader σ), R.Enough left → R.props.md.rowCount - R.rd.row < n →
      REnds left (R.readAllLoop S n) := by
    intro n
    induction n with
    | zero => intro R h hn; omega
    | succ n ih =>
      intro R h hn
      unfold Reader.readAllLoop
      have hr := Reader.readRow_ends hF R h
      have hs := Reader.readRow_spec (S := S) R h.inv
      generalize R.readRow S = x at *
      obtain ⟨res, R1⟩ := x
      obtain ⟨h1, h2⟩ := hr
      cases res with
      | error e => exact ⟨(fun he => h1 (by cases he; rfl)), h2⟩
      | ok b =>
        cases b with
        | false => exact ⟨(fun h => by cases h), h2⟩
        | true =>
          refine ih R1 h2 ?_
          simp only at hs h2
          have hle : R1.rd.row ≤ R1.props.md.rowCount := h2.inv.row
          rw [hs.2.2.2.1]
          rw [hs.2.2.2.1] at hle
          rw [hs.2.1] at hle ⊢
          omega
  exact key _ R h (by omega)

theorem Reader.step_ends (hF : Finite S left) (R : Reader σ) (h : R.Enough left) (op : Op) :
    REnds left (R.step S op) := by
  have hmap : ∀ {α : Type} (x : Res α) (f : α → Ret), x ≠ .error .fuel → x.map f ≠ .error .fuel := by
    intro α x f hx he
    cases x with
    | ok a => cases he
    | error e => cases he; exact hx rfl
  cases op with
  | readRow =>
    have := Reader.readRow_ends hF R h
    exact ⟨hmap _ _ this.1, this.2⟩
  | readRows n =>
    have := Reader.readRows_ends hF n R h
    exact ⟨hmap _ _ this.1, this.2⟩
  | readAll =>
    have := Reader.readAll_ends hF R h
    exact ⟨hmap _ _ this.1, this.2⟩
  | skip n =>
    have hl := RD.skip_ends hF R.env R.props.md n R.rd h.enough
    have hi := (RD.skip_spec R.env S R.props.md n R.rd h.inv).1
    have : REnds left (R.skip S n) := by
      unfold Reader.skip
      generalize R.rd.skip R.env S R.props.md n = x at *
      obtain ⟨res, r1⟩ := x
      obtain ⟨h1, h2⟩ := hl
      cases res with
      | error e => exact ⟨(fun he => h1 (by cases he; rfl)), ⟨h.enough.step h2, hi⟩⟩
      | ok b =>
        cases b with
        | false => exact ⟨(fun h => by cases h), ⟨h.enough.step h2, hi⟩⟩
        | true => exact ⟨(fun h => by cases h), ⟨h.enough.step h2, hi⟩⟩
    exact ⟨hmap _ _ this.1, this.2⟩
  | readRowNoSink =>
    have hl := RD.readLine_ends hF R.env R.props.md R.rd h.enough
    have hi := (RD.readLine_spec R.env S R.props.md R.rd h.inv).1
    exact ⟨hmap _ _ hl.1, ⟨h.enough.step hl.2, hi⟩⟩
  | endOfData => exact ⟨(fun h => by cases h), ⟨h.enough, h.inv⟩⟩

theorem Reader.run_terminates (hF : Finite S left) (ops : List Op) : ∀ R : Reader σ, R.Enough left →
    .error .fuel ∉ (R.run S ops).1 := by
  induction ops with
  | nil => intro R _; simp [Reader.run]
  | cons op ops ih =>
    intro R h
    have hs := Reader.step_ends hF R h op
    unfold Reader.run
    generalize R.step S op = x at *
    obtain ⟨res, R1⟩ := x
    obtain ⟨h1, h2⟩ := hs
    have hi := ih R1 h2
    cases res with
    | ok v => simpa using hi
    | error e =>
      cases e with
      | exn e => simpa using hi
      | terminate => simp
      | ub => simp
      | fuel => exact absurd rfl h1

theorem natLE_foldl (bs : List Byte) :
    natLE bs = bs.reverse.foldl (fun n d => n * 256 + d.toNat) 0 := by
  induction bs with
  | nil => rfl
  | cons b bs ih => simp [natLE, ih]; omega

theorem getVal_foldl (e : Endian) (bs : List Byte) :
    getVal e bs = (if e = .little then bs.reverse else bs).foldl (fun n d => n * 256 + d.toNat) 0 := by
  cases e <;> simp [getVal, natLE_foldl]

theorem Buf.rd_inv {cfg : Cfg} {b : Buf} {o n : Nat} {v : List Byte} (h : b.rd cfg o n = .ok v) :
    v = slice b.mem o n ∧ o + n ≤ b.mem.length := by
  unfold Buf.rd at h
  split at h
  · cases h
  · split at h
    · cases h; exact ⟨rfl, by assumption⟩
    · cases h

theorem Buf.getByte_inv {cfg : Cfg} {b : Buf} {o : Nat} {v : Byte} (h : b.getByte cfg o = .ok v) :
    b.mem[o]? = some v := by
  obtain ⟨a, ha, h⟩ := bind_ok_inv h
  obtain ⟨h1, h2⟩ := Buf.rd_inv ha
  have h3 := List.getElem?_eq_getElem (l := b.mem) (i := o) (by omega)
  rw [slice_one h3] at h1
  subst h1
  cases h
  exact h3

theorem Buf.getU32_inv {cfg : Cfg} {e : Endian} {b : Buf} {o v : Nat} (h : b.getU32 cfg e o = .ok v) :
    v = getVal e (slice b.mem o 4) := by
  obtain ⟨a, ha, h⟩ := bind_ok_inv h
  obtain ⟨h1, h2⟩ := Buf.rd_inv ha
  subst h1
  cases h
  rfl

/-- Reading more bytes behind a good buffer leaves its first bytes alone. -/
theorem Buf.readStream_keeps {cfg : Cfg} {b b' : Buf} {s s' : σ} {len : Nat} {r : Res Bool}
    (hg : b.Good) (h : Buf.readStream cfg S b s len b.size = (r, b', s')) :
    b'.mem.take b.size = b.mem.take b.size ∧ (r = .ok true → s' = (S.read s len).st) := by
  have hin := hg.inside
  have hres : ∀ b1 n, b.resize cfg n = .ok b1 →
      b1.mem.take b.size = b.mem.take b.size ∧ b.size ≤ b1.mem.length := by
    intro b1 n hb
    unfold Buf.resize at hb
    split at hb
    · split at hb
      · cases hb
        simp only
        rw [List.take_append_of_le_length (by rw [List.length_take]; omega), List.take_take]
        simp only [Nat.min_self, List.length_append, List.length_take, true_and]
        omega
      · cases hb
    · cases hb; exact ⟨rfl, hin⟩
  unfold Buf.readStream at h
  split at h
  · cases h; exact ⟨rfl, fun h => by cases h⟩
  · rename_i b1 hb1
    obtain ⟨h1, h2⟩ := hres _ _ hb1
    simp only at h
    split at h
    · cases h
      refine ⟨?_, fun _ => rfl⟩
      simp only [writeAt]
      rw [List.append_assoc, List.take_append_of_le_length (by rw [List.length_take]; omega),
        List.take_take, Nat.min_self, h1]
    · cases h; exact ⟨h1, fun h => by cases h⟩

/-- What a successful header phase says about the source and the page length. -/
theorem readHeader_ok (hS : S.Lawful) {cfg : Cfg} {s s' : σ} {h : Header} {b : Buf}
    (hr : readHeader cfg S s = .ok (h, b, s')) :
    h.pageLength = announcedPageLength (S.read s 288).bytes ∧ (S.read s 288).ok = true ∧
    ∃ n, s' = (S.read (S.read s 288).st n).st := by
  unfold readHeader at hr
  obtain ⟨⟨b1, s1⟩, h1, hr⟩ := bind_ok_inv hr
  obtain ⟨-, h2, hr⟩ := bind_ok_inv hr
  obtain ⟨al, h3, hr⟩ := bind_ok_inv hr
  obtain ⟨⟨hl, b2, s2⟩, h4, hr⟩ := bind_ok_inv hr
  obtain ⟨h', h5, hr⟩ := bind_ok_inv hr
  obtain ⟨-, -, hr⟩ := bind_ok_inv hr
  cases hr
  -- the first 288 bytes
  have e1 : Buf.readStream cfg S Buf.empty s 288 0 = (.ok true, b1, s1) := by
    unfold checkHeaderRead at h1
    split at h1
    · cases h1
    · rename_i heq; cases h1; exact heq
    · cases h1
  obtain ⟨g, sz, ok, st, -, -⟩ := Buf.readStream_ok Buf.empty_good (by omega) (hS.full s 288) e1
  have hold := Buf.readStream_holds Buf.empty_good (by omega) (hS.full s 288) e1
  have hlen := hS.full s 288 ok
  have sz' : b1.size = 288 := by omega
  subst st
  -- the rest
  unfold setHeaderLengthAndRead at h4
  obtain ⟨hl', _, h4⟩ := bind_ok_inv h4
  obtain ⟨_, _, h4⟩ := bind_ok_inv h4
  have e2 : ∃ n, Buf.readStream cfg S b1 (S.read s 288).st n b1.size = (.ok true, b, s') := by
    rw [sz']
    refine ⟨sub64 hl' 288, ?_⟩
    split at h4
    · cases h4
    · rename_i heq; cases h4; exact heq
    · cases h4
  obtain ⟨n, e2⟩ := e2
  obtain ⟨k1, k2⟩ := Buf.readStream_keeps g e2
  refine ⟨?_, ok, n, k2 rfl⟩
  rw [sz'] at k1
  have hbytes : b1.mem.take 288 = (S.read s 288).bytes := by have := hold.eq; rwa [sz'] at this
  generalize (S.read s 288).bytes = bs at *
  -- what the two mode bytes say
  unfold setAligns at h3
  obtain ⟨x32, a1, h3⟩ := bind_ok_inv h3
  obtain ⟨x35, a2, h3⟩ := bind_ok_inv h3
  obtain ⟨x37, a3, h3⟩ := bind_ok_inv h3
  have m35 : bs[35]? = some x35 := by
    rw [← hbytes, List.getElem?_take, if_pos (by omega)]; exact Buf.getByte_inv a2
  have m37 : bs[37]? = some x37 := by
    rw [← hbytes, List.getElem?_take, if_pos (by omega)]; exact Buf.getByte_inv a3
  -- the page length
  have hpl : ∃ v, b.getU32 cfg al.endian (200 + al.align1) = .ok v ∧ h.pageLength = v := by
    unfold setHeader at h5
    obtain ⟨_, _, h5⟩ := bind_ok_inv h5
    obtain ⟨_, _, h5⟩ := bind_ok_inv h5
    obtain ⟨_, _, h5⟩ := bind_ok_inv h5
    obtain ⟨_, _, h5⟩ := bind_ok_inv h5
    obtain ⟨_, _, h5⟩ := bind_ok_inv h5
    obtain ⟨_, _, h5⟩ := bind_ok_inv h5
    obtain ⟨_, _, h5⟩ := bind_ok_inv h5
    obtain ⟨_, _, h5⟩ := bind_ok_inv h5
    obtain ⟨v, hv, h5⟩ := bind_ok_inv h5
    obtain ⟨_, _, h5⟩ := bind_ok_inv h5
    obtain ⟨_, _, h5⟩ := bind_ok_inv h5
    obtain ⟨_, _, h5⟩ := bind_ok_inv h5
    obtain ⟨_, _, h5⟩ := bind_ok_inv h5
    obtain ⟨nb, _, h5⟩ := bind_ok_inv h5
    refine ⟨v, hv, ?_⟩
    simp only at h5
    by_cases hn : nb ≠ 0
    · rw [if_pos hn] at h5
      obtain ⟨_, _, h5⟩ := bind_ok_inv h5
      cases h5; rfl
    · rw [if_neg hn] at h5
      obtain ⟨_, _, h5⟩ := bind_ok_inv h5
      cases h5; rfl
  obtain ⟨v, hv, hpl⟩ := hpl
  have hv := Buf.getU32_inv hv
  have ha1 : al.align1 = if x35 = 0x33 then 4 else 0 := by cases h3; rfl
  have hen : al.endian = if x37 = 1 then .little else .big := by cases h3; rfl
  have hle : al.align1 ≤ 4 := by rw [ha1]; split <;> omega
  have hsl : slice b.mem (200 + al.align1) 4 = slice bs (200 + al.align1) 4 := by
    rw [← slice_take (k := 288) (by omega), k1, hbytes]
  rw [hpl, hv, hsl, getVal_foldl]
  unfold announcedPageLength announcedNumber
  rw [m35, m37, ha1, hen]
  simp only [slice, Option.some.injEq]
  by_cases c1 : x35 = 0x33 <;> by_cases c2 : x37 = 1 <;> simp [c1, c2]

theorem ifs_finite : Finite ifs (fun s => s.data.length - s.pos) := by
  have hp : ∀ (s : IFStream) n, (s.readPlain n).st.data.length - (s.readPlain n).st.pos ≤
        s.data.length - s.pos ∧ ((s.readPlain n).ok = true →
        (s.readPlain n).st.data.length - (s.readPlain n).st.pos + n ≤ s.data.length - s.pos) := by
    intro s n
    unfold IFStream.readPlain
    split
    · simp only; omega
    · simp only; refine ⟨by omega, fun h => by cases h⟩
  have key : ∀ (s : IFStream) n, (s.read n).st.data.length - (s.read n).st.pos ≤
        s.data.length - s.pos ∧ ((s.read n).ok = true →
        (s.read n).st.data.length - (s.read n).st.pos + n ≤ s.data.length - s.pos) := by
    intro s n
    unfold IFStream.read
    split
    · exact ⟨Nat.le_refl _, fun h => by cases h⟩
    · split
      · exact ⟨Nat.le_refl _, fun h => by cases h⟩
      · split
        · split
          · simp only; exact ⟨by omega, fun h => by cases h⟩
          · exact hp s n
        · exact hp s n
  exact ⟨fun s n h => (key s n).2 h, fun s n => (key s n).1⟩

theorem readHeader_notFuel {cfg : Cfg} {s : σ} : readHeader cfg S s ≠ .error .fuel := by
  have h1 : Errs (fun e => e ≠ .fuel) (checkHeaderRead cfg S s) := by
    have := Buf.readStream_errs cfg S Buf.empty s 288 0
    unfold checkHeaderRead
    generalize Buf.readStream cfg S Buf.empty s 288 0 = y at *
    obtain ⟨r, b, s'⟩ := y
    cases r with
    | error e => exact Errs.err (by rcases this e rfl with h | h <;> simp [h])
    | ok v => cases v <;> first | exact Errs.ok _ | exact Errs.err (by simp)
  have h2 : ∀ b, Errs (fun e => e ≠ .fuel) (checkMagic cfg b) := fun b =>
    Errs.bind ((b.rd_errs _ _ _).mono (by rintro e (h | h) <;> simp [h])) fun _ _ =>
      Errs.ite (Errs.ok _) (Errs.err (by simp))
  have : Errs (fun e => e ≠ .fuel) (readHeader cfg S s) :=
    Errs.bind h1 fun _ _ => Errs.bind (h2 _) fun _ _ =>
      Errs.bind ((setAligns_errs _ _).mono (by rintro e (h | h) <;> simp [h])) fun _ _ =>
      Errs.bind ((setHeaderLengthAndRead_errs _ _ _ _ _).mono
        (by rintro e ((h | h) | h | h) <;> simp [h])) fun _ _ =>
      Errs.bind ((setHeader_errs _ _ _ _).mono (by rintro e (h | h) <;> simp [h])) fun _ _ =>
      Errs.bind ((logHeader_errs _ _).mono (by rintro e ((h | h) | h) <;> simp [h])) fun _ _ => Errs.ok _
  exact fun he => this _ he rfl

/-- Opening a finite source whose pages are not empty ends, and so does every later call. -/
theorem openReader_ends (hS : S.Lawful) (hF : Finite S left) (cfg : Cfg) (fuel : Nat)
    (filter : Option Filter) (s : σ) (hL : announcedPageLength (S.read s 288).bytes ≠ 0)
    (hfuel : left s < fuel) :
    openReader cfg S fuel filter s ≠ .error .fuel ∧
    ∀ R, openReader cfg S fuel filter s = .ok R → R.Enough left := by
  have hsp := fun R => openReader_spec (S := S) (cfg := cfg) (fuel := fuel) (filter := filter) (s := s) (R := R)
  have hH : readHeader cfg S s ≠ .error .fuel := readHeader_notFuel
  cases hr : readHeader cfg S s with
  | error e =>
    unfold openReader
    rw [hr]
    exact ⟨(fun he => hH (by cases he; exact hr)), fun R h => by cases h⟩
  | ok x =>
    obtain ⟨h, b, s'⟩ := x
    obtain ⟨e1, e2, n, e3⟩ := readHeader_ok hS hr
    have hs' : left s' ≤ left s := by
      rw [e3]; exact Nat.le_trans (hF.mono _ _) (hF.mono _ _)
    have hpos : 0 < h.pageLength := by rw [e1]; omega
    unfold openReader at hsp ⊢
    rw [hr, Res.ok_bind] at hsp ⊢
    simp only at hsp ⊢
    have hm := metaLoop_ends hF { cfg := cfg, endian := h.endian, format := h.format, pageLength := h.pageLength, fuel := fuel } hpos fuel ⟨s', b, PageHdr.reset⟩ {} (by simp only; omega)
    generalize metaLoop { cfg := cfg, endian := h.endian, format := h.format, pageLength := h.pageLength, fuel := fuel } S fuel ⟨s', b, PageHdr.reset⟩ {} = y at *
    obtain ⟨m1, m2⟩ := hm
    cases y with
    | error e => exact ⟨(fun he => m1 (by cases he; rfl)), fun R h => by cases h⟩
    | ok y =>
      obtain ⟨p, acc⟩ := y
      rw [Res.ok_bind] at hsp ⊢
      simp only at hsp ⊢
      have m2 := m2 p acc rfl
      have hc := createColumns_errs cfg h.endian acc filter
      generalize createColumns cfg h.endian acc filter = z at *
      cases z with
      | error e =>
        refine ⟨fun he => ?_, fun R h => by cases h⟩
        cases he
        simpa using hc _ rfl
      | ok cols =>
        rw [Res.ok_bind] at hsp ⊢
        have hb := RD.build_errs { cfg := cfg, endian := h.endian, format := h.format, pageLength := h.pageLength, fuel := fuel } p acc
        have hbp : ∀ rd, RD.build { cfg := cfg, endian := h.endian, format := h.format, pageLength := h.pageLength, fuel := fuel } p acc = .ok rd → rd.p = p := by
          intro rd hrd
          unfold RD.build at hrd
          obtain ⟨_, _, hrd⟩ := bind_ok_inv hrd
          split at hrd
          · obtain ⟨_, _, hrd⟩ := bind_ok_inv hrd
            cases hrd; rfl
          · cases hrd; rfl
        generalize RD.build { cfg := cfg, endian := h.endian, format := h.format, pageLength := h.pageLength, fuel := fuel } p acc = w at *
        cases w with
        | error e =>
          refine ⟨fun he => ?_, fun R h => by cases h⟩
          cases he
          simpa [Crash] using hb _ rfl
        | ok rd =>
          refine ⟨(fun he => by cases he), fun R hR => ⟨?_, (hsp R hR).1⟩⟩
          have hp := hbp rd rfl
          cases hR
          refine ⟨hpos, ?_⟩
          simp only
          rw [hp]
          simp only at m2
          omega

end Sas
