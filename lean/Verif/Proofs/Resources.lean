import Verif.Spec.Resources
import Verif.Proofs.Sources
import Verif.Proofs.Safety

/-! Invariants on the reads of a source and on the memory a reader holds. -/

namespace Sas.Proofs

open Sas Sas.Spec

variable {σ : Type} {S : Source σ}

/-! ## Invariants of what reads the rows are invariants of the reader -/

/-- The three things done with a page keep `P`. -/
structure Kept (S : Source σ) (P : Env → Meta → RD σ → Prop) : Prop where
  next : ∀ env md r, P env md r → P env md (r.next env S md).2
  take : ∀ env md r, P env md r → P env md r.takeLine.2
  extract : ∀ env md r off len, P env md r → P env md (r.extract env md off len).2

variable {P : Env → Meta → RD σ → Prop}

theorem Kept.readLine (hP : Kept S P) (env : Env) (md : Meta) {r : RD σ} (h : P env md r) : P env md (r.readLine env S md).2 := by
  unfold RD.readLine
  have h1 := hP.next env md r h
  generalize r.next env S md = x at h1 ⊢
  obtain ⟨(e | (_ | _)), r1⟩ := x
  · exact h1
  · exact h1
  · dsimp only at h1 ⊢
    have h2 := hP.take env md r1 h1
    generalize r1.takeLine = x at h2 ⊢
    obtain ⟨(e | ⟨off, len⟩), r2⟩ := x
    · exact h2
    · dsimp only at h2 ⊢
      have h3 := hP.extract env md r2 off len h2
      generalize r2.extract env md off len = x at h3 ⊢
      obtain ⟨(e | x), r3⟩ := x
      · exact h3
      · exact h3

theorem Kept.skip (hP : Kept S P) (env : Env) (md : Meta) : ∀ (n : Nat) {r : RD σ}, P env md r →
    P env md (r.skip env S md n).2 := by
  intro n
  induction n with
  | zero => exact fun h => h
  | succ n ih =>
    intro r h
    unfold RD.skip
    have h1 := hP.next env md r h
    generalize r.next env S md = x at h1 ⊢
    obtain ⟨(e | (_ | _)), r1⟩ := x
    · exact h1
    · exact h1
    · dsimp only at h1 ⊢
      have h2 := hP.take env md r1 h1
      generalize r1.takeLine = x at h2 ⊢
      obtain ⟨(e | ol), r2⟩ := x
      · exact h2
      · exact ih h2

/-- `P` holds of a reader. -/
def OfReader (P : Env → Meta → RD σ → Prop) (R : Reader σ) : Prop := P R.env R.props.md R.rd

theorem Kept.readRow (hP : Kept S P) {R : Reader σ} (h : OfReader P R) : OfReader P (R.readRow S).2 := by
  unfold Reader.readRow
  have h1 := hP.readLine R.env R.props.md h
  generalize R.rd.readLine R.env S R.props.md = x at h1 ⊢
  obtain ⟨(e | (_ | row)), r⟩ := x <;> exact h1

theorem Kept.readRows (hP : Kept S P) : ∀ (n : Nat) {R : Reader σ}, OfReader P R → OfReader P (R.readRows S n).2 := by
  intro n
  induction n with
  | zero => exact fun h => h
  | succ n ih =>
    intro R h
    unfold Reader.readRows
    have h1 := hP.readRow h
    generalize R.readRow S = x at h1 ⊢
    obtain ⟨(e | (_ | _)), R1⟩ := x
    · exact h1
    · exact h1
    · exact ih h1

theorem Kept.readAllLoop (hP : Kept S P) : ∀ (n : Nat) {R : Reader σ}, OfReader P R → OfReader P (R.readAllLoop S n).2 := by
  intro n
  induction n with
  | zero => exact fun h => h
  | succ n ih =>
    intro R h
    unfold Reader.readAllLoop
    have h1 := hP.readRow h
    generalize R.readRow S = x at h1 ⊢
    obtain ⟨(e | (_ | _)), R1⟩ := x
    · exact h1
    · exact h1
    · exact ih h1

theorem Kept.step (hP : Kept S P) {R : Reader σ} (h : OfReader P R) (op : Op) : OfReader P (R.step S op).2 := by
  cases op with
  | readRow => exact hP.readRow h
  | readRows n => exact hP.readRows n h
  | readAll =>
    have := hP.readAllLoop (R.props.md.rowCount - R.rd.row + 1) h
    exact this
  | skip n =>
    have := hP.skip R.env R.props.md n h
    show OfReader P (R.skip S n).2
    unfold Reader.skip
    generalize R.rd.skip R.env S R.props.md n = x at this ⊢
    obtain ⟨(e | (_ | _)), r⟩ := x <;> exact this
  | readRowNoSink =>
    have := hP.readLine R.env R.props.md h
    exact this
  | endOfData => exact h

theorem Kept.run (hP : Kept S P) (ops : List Op) {R : Reader σ} (h : OfReader P R) : OfReader P (R.run S ops).2 :=
  Reader.run_induct (P := OfReader P) (fun _ op h => hP.step h op) ops R h

theorem run_env (ops : List Op) (R : Reader σ) (h : R.Inv) : (R.run S ops).2.env = R.env :=
  (Reader.run_induct (S := S) (P := fun R' => R'.Inv ∧ R'.env = R.env)
    (fun R' op h' => ⟨(Reader.step_inv R' h'.1 op).1, (Reader.step_inv R' h'.1 op).2.2.trans h'.2⟩) ops R ⟨h, rfl⟩).2

/-! ## Reads -/

/-- All reads so far have succeeded; the ones after `base` were pages. -/
def AllRead (base : List (Nat × Bool)) (L : Nat) (l : List (Nat × Bool)) : Prop := ∃ k, l = base ++ List.replicate k (L, true)

/-- The same, and then a read of a page has failed. -/
def LastFailed (base : List (Nat × Bool)) (L : Nat) (l : List (Nat × Bool)) : Prop :=
  ∃ k, l = base ++ List.replicate k (L, true) ++ [(L, false)]

/-- What is noted by the time a reader reads rows. -/
def Noted (base : List (Nat × Bool)) (env : Env) (_ : Meta) (r : RD (σ × List (Nat × Bool))) : Prop :=
  AllRead base env.pageLength r.p.src.2 ∨ (LastFailed base env.pageLength r.p.src.2 ∧ r.page = none)

theorem AllRead.more {base l : List (Nat × Bool)} {L : Nat} (h : AllRead base L l) : AllRead base L (l ++ [(L, true)]) := by
  obtain ⟨k, rfl⟩ := h
  exact ⟨k + 1, by rw [List.append_assoc, ← List.replicate_succ']⟩

theorem AllRead.fail {base l : List (Nat × Bool)} {L : Nat} (h : AllRead base L l) : LastFailed base L (l ++ [(L, false)]) := by
  obtain ⟨k, rfl⟩ := h
  exact ⟨k, rfl⟩

theorem readStream_noted (cfg : Cfg) (b : Buf) (s : σ × List (Nat × Bool)) (len off : Nat) :
    ((Buf.readStream cfg (logged S) b s len off).2.2.2 = s.2 ∧ ∃ e, (Buf.readStream cfg (logged S) b s len off).1 = .error e) ∨
    ((Buf.readStream cfg (logged S) b s len off).2.2.2 = s.2 ++ [(len, true)] ∧
      (Buf.readStream cfg (logged S) b s len off).1 ≠ .ok false) ∨
    ((Buf.readStream cfg (logged S) b s len off).2.2.2 = s.2 ++ [(len, false)] ∧
      (Buf.readStream cfg (logged S) b s len off).1 ≠ .ok true) := by
  unfold Buf.readStream
  generalize w64 (off + len) = n
  cases b.resize cfg n with
  | error e => exact .inl ⟨rfl, e, rfl⟩
  | ok b' =>
    dsimp only
    have hr : ((logged S).read s len).st.2 = s.2 ++ [(len, ((logged S).read s len).ok)] := rfl
    generalize (logged S).read s len = r at hr ⊢
    obtain ⟨st, bytes, ok⟩ := r
    dsimp only at hr ⊢
    right
    cases ok with
    | true =>
      left
      split
      · exact ⟨hr, by simp⟩
      · exact ⟨hr, by simp⟩
    | false =>
      right
      split
      · exact ⟨hr, by simp⟩
      · exact ⟨hr, by simp⟩

theorem readPage_noted (env : Env) {base : List (Nat × Bool)} {p : PState (σ × List (Nat × Bool))}
    (h : AllRead base env.pageLength p.src.2) :
    AllRead base env.pageLength (readPage env (logged S) p).2.src.2 ∨
    (LastFailed base env.pageLength (readPage env (logged S) p).2.src.2 ∧
      (readPage env (logged S) p).1 ≠ .ok true ∧ (readPage env (logged S) p).2.hdr = PageHdr.reset) := by
  unfold readPage
  split
  · exact .inl h
  · have h1 := readStream_noted (S := S) env.cfg p.buf p.src env.pageLength 0
    generalize Buf.readStream env.cfg (logged S) p.buf p.src env.pageLength 0 = x at h1 ⊢
    obtain ⟨r, b, s⟩ := x
    dsimp only at h1
    rcases h1 with ⟨h1, e, rfl⟩ | ⟨h1, h2⟩ | ⟨h1, h2⟩
    · left
      show AllRead base env.pageLength s.2
      rw [h1]
      exact h
    · left
      have h3 : AllRead base env.pageLength s.2 := by rw [h1]; exact h.more
      rcases r with e | (_ | _)
      · exact h3
      · exact absurd rfl h2
      · dsimp only
        rcases getPageHeader env b with e | hd
        · exact h3
        · exact h3
    · right
      have h3 : LastFailed base env.pageLength s.2 := by rw [h1]; exact h.fail
      rcases r with e | (_ | _)
      · exact ⟨h3, by simp, rfl⟩
      · dsimp only
        cases (logged S).eof s
        · exact ⟨h3, by simp, rfl⟩
        · exact ⟨h3, by simp, rfl⟩
      · exact absurd rfl h2

theorem nextPageLoop_noted (env : Env) (md : Meta) {base : List (Nat × Bool)} : ∀ (n : Nat) (r : RD (σ × List (Nat × Bool))),
    AllRead base env.pageLength r.p.src.2 → r.page = none → Noted base env md (nextPageLoop env (logged S) md n r).2 := by
  intro n
  induction n with
  | zero => exact fun _ h _ => .inl h
  | succ n ih =>
    intro r h hn
    unfold nextPageLoop
    have h1 := readPage_noted (S := S) env h
    generalize readPage env (logged S) r.p = x at h1 ⊢
    obtain ⟨x, p⟩ := x
    dsimp only at h1
    rcases h1 with h1 | ⟨h1, h2, -⟩
    · rcases x with e | (_ | _)
      · exact .inl h1
      · exact .inl h1
      · dsimp only
        rcases buildPage env md p.buf p.hdr with e | (_ | pg)
        · exact .inl h1
        · exact ih _ h1 hn
        · exact .inl h1
    · rcases x with e | (_ | _)
      · exact .inr ⟨h1, hn⟩
      · exact .inr ⟨h1, hn⟩
      · exact absurd rfl h2

theorem noted_kept (base : List (Nat × Bool)) : Kept (logged S) (Noted base) where
  next env md r h := by
    unfold RD.next
    split
    · exact h
    · split
      · exact h
      · rename_i pg hpg
        split
        · rcases h with h | ⟨-, h⟩
          · exact nextPageLoop_noted env md _ _ h rfl
          · rw [hpg] at h; cases h
        · exact h
  take env md r h := by
    unfold RD.takeLine
    split
    · exact h
    · rename_i pg hpg
      split
      · exact h
      · rcases h with h | ⟨-, h⟩
        · exact .inl h
        · rw [hpg] at h; cases h
  extract env md r off len h := by
    rw [(RD.extract_frame env md r off len).1]
    exact h

theorem metaLoop_noted (env : Env) {base : List (Nat × Bool)} : ∀ (n : Nat) (p : PState (σ × List (Nat × Bool))) (acc : Acc)
    (p' : PState (σ × List (Nat × Bool))) (acc' : Acc), AllRead base env.pageLength p.src.2 → acc.dataSubs = [] →
    metaLoop env (logged S) n p acc = .ok (p', acc') →
    AllRead base env.pageLength p'.src.2 ∨
    (LastFailed base env.pageLength p'.src.2 ∧ p'.hdr = PageHdr.reset ∧ acc'.dataSubs = []) := by
  intro n
  induction n with
  | zero => intro _ _ _ _ _ _ h; cases h
  | succ n ih =>
    intro p acc p' acc' hp ha h
    unfold metaLoop at h
    have h1 := readPage_noted (S := S) env hp
    generalize readPage env (logged S) p = x at h1 h
    obtain ⟨x, q⟩ := x
    dsimp only at h1
    rcases x with e | (_ | _)
    · cases h
    · cases h
      rcases h1 with h1 | ⟨h1, -, h2⟩
      · exact .inl h1
      · exact .inr ⟨h1, h2, ha⟩
    · rcases h1 with h1 | ⟨-, h2, -⟩
      · dsimp only at h
        obtain ⟨⟨acc1, stop⟩, hpp, h⟩ := bind_ok_inv h
        cases stop with
        | true => cases h; exact .inl h1
        | false => exact ih q acc1 p' acc' h1 (page_dataSubs hpp ha) h
      · exact absurd rfl h2

theorem rd_len {cfg : Cfg} {b : Buf} {o n : Nat} {bs : List Byte} (h : b.rd cfg o n = .ok bs) : bs.length = n := by
  unfold Buf.rd at h
  split at h
  · cases h
  · split at h
    · cases h
      unfold slice
      rw [List.length_take, List.length_drop]
      omega
    · cases h

theorem getU32_lt {cfg : Cfg} {e : Endian} {b : Buf} {o n : Nat} (h : b.getU32 cfg e o = .ok n) : n < 2 ^ 32 := by
  obtain ⟨bs, h1, h2⟩ := bind_ok_inv h
  cases h2
  have := getVal_lt e bs
  rw [rd_len h1] at this
  exact this

theorem getU16_lt {cfg : Cfg} {e : Endian} {b : Buf} {o n : Nat} (h : b.getU16 cfg e o = .ok n) : n < 2 ^ 16 := by
  obtain ⟨bs, h1, h2⟩ := bind_ok_inv h
  cases h2
  have := getVal_lt e bs
  rw [rd_len h1] at this
  exact this

theorem setHeader_length {cfg : Cfg} {al : Align} {hl : Nat} {b : Buf} {h : Header} (hh : setHeader cfg al hl b = .ok h) :
    h.headerLength = hl := by
  unfold setHeader at hh
  obtain ⟨_, -, hh⟩ := bind_ok_inv hh
  obtain ⟨_, -, hh⟩ := bind_ok_inv hh
  obtain ⟨_, -, hh⟩ := bind_ok_inv hh
  obtain ⟨_, -, hh⟩ := bind_ok_inv hh
  obtain ⟨_, -, hh⟩ := bind_ok_inv hh
  obtain ⟨_, -, hh⟩ := bind_ok_inv hh
  obtain ⟨_, -, hh⟩ := bind_ok_inv hh
  obtain ⟨_, -, hh⟩ := bind_ok_inv hh
  obtain ⟨_, -, hh⟩ := bind_ok_inv hh
  obtain ⟨_, -, hh⟩ := bind_ok_inv hh
  obtain ⟨_, -, hh⟩ := bind_ok_inv hh
  obtain ⟨_, -, hh⟩ := bind_ok_inv hh
  obtain ⟨_, -, hh⟩ := bind_ok_inv hh
  obtain ⟨_, -, hh⟩ := bind_ok_inv hh
  dsimp only at hh
  split at hh
  · obtain ⟨_, -, hh⟩ := bind_ok_inv hh
    cases hh
    rfl
  · obtain ⟨_, -, hh⟩ := bind_ok_inv hh
    cases hh
    rfl

/-- The two reads of a header that has been read. -/
theorem readHeader_noted {cfg : Cfg} {s : σ} {h : Header} {b : Buf} {s' : σ × List (Nat × Bool)}
    (hr : readHeader cfg (logged S) (s, []) = .ok (h, b, s')) :
    ∃ n, (288 + n) % 2 ^ 64 = h.headerLength ∧ s'.2 = [(288, true), (n, true)] := by
  unfold readHeader at hr
  obtain ⟨⟨b1, s1⟩, h1, hr⟩ := bind_ok_inv hr
  obtain ⟨_, -, hr⟩ := bind_ok_inv hr
  obtain ⟨al, -, hr⟩ := bind_ok_inv hr
  obtain ⟨⟨hl, b2, s2⟩, h2, hr⟩ := bind_ok_inv hr
  obtain ⟨hd, h3, hr⟩ := bind_ok_inv hr
  obtain ⟨_, -, hr⟩ := bind_ok_inv hr
  cases hr
  have e1 : s1.2 = [(288, true)] := by
    unfold checkHeaderRead at h1
    have k := readStream_noted (S := S) cfg Buf.empty (s, []) 288 0
    generalize Buf.readStream cfg (logged S) Buf.empty (s, []) 288 0 = x at h1 k
    obtain ⟨r, b, t⟩ := x
    rcases r with e | (_ | _)
    · cases h1
    · cases h1
    · cases h1
      rcases k with ⟨-, e, k⟩ | ⟨k, -⟩ | ⟨-, k⟩
      · cases k
      · exact k
      · exact absurd rfl k
  unfold setHeaderLengthAndRead at h2
  obtain ⟨hl', g1, h2⟩ := bind_ok_inv h2
  obtain ⟨_, -, h2⟩ := bind_ok_inv h2
  have hlt := getU32_lt g1
  have hw : (288 + sub64 hl' 288) % 2 ^ 64 = hl' := by
    unfold sub64
    omega
  generalize sub64 hl' 288 = n at h2 hw
  have k := readStream_noted (S := S) cfg b1 s1 n 288
  generalize Buf.readStream cfg (logged S) b1 s1 n 288 = x at h2 k
  obtain ⟨r, b, t⟩ := x
  rcases r with e | (_ | _)
  · cases h2
  · cases h2
  · cases h2
    refine ⟨n, by rw [setHeader_length h3]; exact hw, ?_⟩
    rcases k with ⟨-, e, k⟩ | ⟨k, -⟩ | ⟨-, k⟩
    · cases k
    · rw [k, e1]
      rfl
    · exact absurd rfl k

theorem open_noted {cfg : Cfg} {fuel : Nat} {filter : Option Filter} {s : σ} {R : Reader (σ × List (Nat × Bool))}
    (h : openReader cfg (logged S) fuel filter (s, []) = .ok R) :
    R.env.pageLength = R.props.header.pageLength ∧
    ∃ n, (288 + n) % 2 ^ 64 = R.props.header.headerLength ∧ OfReader (Noted [(288, true), (n, true)]) R := by
  unfold openReader at h
  obtain ⟨⟨hd, b, s1⟩, h1, h⟩ := bind_ok_inv h
  dsimp only at h
  obtain ⟨⟨p, acc⟩, h2, h⟩ := bind_ok_inv h
  obtain ⟨columns, -, h⟩ := bind_ok_inv h
  obtain ⟨rd, h3, h⟩ := bind_ok_inv h
  cases h
  refine ⟨rfl, ?_⟩
  obtain ⟨n, hn, e1⟩ := readHeader_noted h1
  refine ⟨n, hn, ?_⟩
  rcases metaLoop_noted (base := [(288, true), (n, true)]) _ _ _ _ _ _ ⟨0, by rw [e1]; rfl⟩ rfl h2 with g | ⟨g1, g2, g3⟩
  · left
    unfold RD.build at h3
    obtain ⟨dst, -, h3⟩ := bind_ok_inv h3
    split at h3
    · obtain ⟨pg, -, h3⟩ := bind_ok_inv h3
      cases h3
      exact g
    · cases h3
      exact g
  · rw [build_dead g2 g3] at h3
    dsimp only at h3
    generalize buildDst cfg acc.md = x at h3
    cases x with
    | error e => cases h3
    | ok dst =>
      cases h3
      exact .inr ⟨g1, rfl⟩

/-! ## Memory -/

/-- A buffer of at most `M` bytes. -/
def Small (M : Nat) (b : Buf) : Prop := b.size ≤ b.mem.length ∧ b.mem.length ≤ M

theorem resize_small {cfg : Cfg} {M n : Nat} {b b' : Buf} (h : Small M b) (hn : n ≤ M) (hr : b.resize cfg n = .ok b') : Small M b' := by
  obtain ⟨h1, h2⟩ := h
  unfold Buf.resize at hr
  split at hr
  · split at hr
    · cases hr
      have : (List.take b.size b.mem ++ freshMem cfg b.size (n - b.size)).length = n := by
        rw [List.length_append, List.length_take, freshMem, List.length_map, List.length_range']
        omega
      exact ⟨Nat.le_of_eq this.symm, by rw [this]; exact hn⟩
    · cases hr
  · cases hr
    exact ⟨by dsimp only; omega, h2⟩

theorem readStream_small {cfg : Cfg} {M : Nat} {b : Buf} (h : Small M b) {len off : Nat} (hn : w64 (off + len) ≤ M) (s : σ) :
    Small M (Buf.readStream cfg S b s len off).2.1 := by
  unfold Buf.readStream
  cases hr : b.resize cfg (w64 (off + len)) with
  | error e => exact h
  | ok b' =>
    have h' := resize_small h hn hr
    dsimp only
    split
    · rename_i hle
      have := length_writeAt hle
      exact ⟨by dsimp only; rw [this]; exact h'.1, by dsimp only; rw [this]; exact h'.2⟩
    · exact h'

theorem getPageHeader_small {env : Env} {b : Buf} {hd : PageHdr} (h : getPageHeader env b = .ok hd) : hd.subCount < 2 ^ 16 := by
  unfold getPageHeader at h
  obtain ⟨_, -, h⟩ := bind_ok_inv h
  obtain ⟨_, -, h⟩ := bind_ok_inv h
  obtain ⟨n, hn, h⟩ := bind_ok_inv h
  cases h
  exact getU16_lt hn

/-- A page in a small buffer, with a number of subheaders that fits into 16 bits. -/
def SmallPage (M : Nat) (p : PState σ) : Prop := Small M p.buf ∧ p.hdr.subCount < 2 ^ 16

theorem readPage_small {env : Env} {M : Nat} (hM : env.pageLength ≤ M) {p : PState σ} (h : SmallPage M p) :
    SmallPage M (readPage env S p).2 := by
  have h0 : PageHdr.reset.subCount < 2 ^ 16 := by decide
  unfold readPage
  split
  · exact ⟨h.1, h0⟩
  · have h1 := readStream_small (S := S) (cfg := env.cfg) h.1 (len := env.pageLength) (off := 0)
      (Nat.le_trans (Nat.mod_le _ _) (by omega)) p.src
    generalize Buf.readStream env.cfg S p.buf p.src env.pageLength 0 = x at h1 ⊢
    obtain ⟨(e | (_ | _)), b, s⟩ := x
    · exact ⟨h1, h0⟩
    · dsimp only at h1 ⊢
      cases S.eof s
      · exact ⟨h1, h0⟩
      · exact ⟨h1, h0⟩
    · dsimp only at h1 ⊢
      cases hg : getPageHeader env b with
      | error e => exact ⟨h1, h0⟩
      | ok hd => exact ⟨h1, getPageHeader_small hg⟩

/-- The pointers of a page. -/
def ptrs : Option Page → Nat
  | some ⟨.metaP subs, _⟩ => subs.length
  | _ => 0

theorem rowSubs_small {env : Env} {b : Buf} {c : Compression} : ∀ (k i : Nat) (l l' : List (Nat × Nat)),
    processSubs env b (fun (l : List (Nat × Nat)) s => .ok (if isDataSub c s then l ++ [(s.offset, s.length)] else l)) k i l = .ok l' →
    l'.length ≤ l.length + k := by
  intro k
  induction k with
  | zero => intro i l l' h; cases h; exact Nat.le_refl _
  | succ k ih =>
    intro i l l' h
    unfold processSubs at h
    obtain ⟨s, -, h⟩ := bind_ok_inv h
    dsimp only at h
    split at h
    · have := ih _ _ _ h
      omega
    split at h
    · have := ih _ _ _ h
      omega
    · simp only [ok_bind''] at h
      have := ih _ _ _ h
      split at this
      · rw [List.length_append, List.length_singleton] at this
        omega
      · omega

theorem buildPage_small {env : Env} {md : Meta} {b : Buf} {hd : PageHdr} {pg : Option Page} (h : buildPage env md b hd = .ok pg) :
    ptrs pg ≤ hd.subCount := by
  unfold buildPage at h
  split at h
  · obtain ⟨subs, hs, h⟩ := bind_ok_inv h
    have := rowSubs_small _ _ _ _ hs
    rw [List.length_nil] at this
    split at h
    · cases h; exact Nat.zero_le _
    · cases h
      show subs.length ≤ _
      omega
  · split at h
    · cases h; exact Nat.zero_le _
    · split at h
      · cases h; exact Nat.zero_le _
      · cases h; exact Nat.zero_le _

/-- Memory for a page, a row and the pointers of a page. -/
def Frugal (M : Nat) (env : Env) (md : Meta) (r : RD σ) : Prop :=
  env.pageLength ≤ M ∧ SmallPage M r.p ∧ r.dst.length ≤ md.rowLength ∧ ptrs r.page < 2 ^ 16

theorem nextPageLoop_frugal {env : Env} {md : Meta} {M : Nat} : ∀ (n : Nat) (r : RD σ), Frugal M env md r →
    Frugal M env md (nextPageLoop env S md n r).2 := by
  intro n
  induction n with
  | zero => exact fun _ h => h
  | succ n ih =>
    intro r h
    unfold nextPageLoop
    have h1 := readPage_small (S := S) h.1 h.2.1
    generalize readPage env S r.p = x at h1 ⊢
    obtain ⟨(e | (_ | _)), p⟩ := x
    · exact ⟨h.1, h1, h.2.2⟩
    · exact ⟨h.1, h1, h.2.2⟩
    · dsimp only at h1 ⊢
      cases hb : buildPage env md p.buf p.hdr with
      | error e => exact ⟨h.1, h1, h.2.2⟩
      | ok pg =>
        cases pg with
        | none => exact ih _ ⟨h.1, h1, h.2.2⟩
        | some pg => exact ⟨h.1, h1, h.2.2.1, Nat.lt_of_le_of_lt (buildPage_small hb) h1.2⟩

theorem frugal_kept (M : Nat) : Kept S (Frugal M) where
  next env md r h := by
    unfold RD.next
    split
    · exact h
    · split
      · exact h
      · split
        · exact nextPageLoop_frugal _ _ ⟨h.1, h.2.1, h.2.2.1, Nat.two_pow_pos 16⟩
        · exact h
  take env md r h := by
    unfold RD.takeLine
    split
    · exact h
    · rename_i pg hpg
      split
      · exact h
      · refine ⟨h.1, h.2.1, h.2.2.1, ?_⟩
        have := h.2.2.2
        rw [hpg] at this
        obtain ⟨kind, cur⟩ := pg
        cases kind <;> exact this
  extract env md r off len h := by
    have hd := (RD.extract_frame env md r off len).2
    rw [(RD.extract_frame env md r off len).1]
    exact ⟨h.1, h.2.1, by dsimp only; rw [hd]; exact h.2.2.1, h.2.2.2⟩

theorem subheader_pointers {env : Env} {b : Buf} {acc acc' : Acc} {s : PageSub} {r : Bool}
    (h : processSubheader env b acc s = .ok (acc', r)) : acc'.dataSubs.length ≤ acc.dataSubs.length + 1 := by
  cases r with
  | false => rw [subheader_dataSubs h]; omega
  | true =>
    unfold processSubheader at h
    obtain ⟨sig, -, h⟩ := bind_ok_inv h
    cases hc : classify env.format sig with
    | rowSize => rw [hc] at h; obtain ⟨md, -, h⟩ := bind_ok_inv h; cases h
    | columnSize => rw [hc] at h; obtain ⟨md, -, h⟩ := bind_ok_inv h; cases h
    | counts => rw [hc] at h; cases h
    | columnText => rw [hc] at h; obtain ⟨a, ha, h⟩ := bind_ok_inv h; cases h
    | columnName => rw [hc] at h; obtain ⟨a, ha, h⟩ := bind_ok_inv h; cases h
    | columnAttributes => rw [hc] at h; obtain ⟨a, ha, h⟩ := bind_ok_inv h; cases h
    | formatAndLabel => rw [hc] at h; obtain ⟨a, ha, h⟩ := bind_ok_inv h; cases h
    | columnList => rw [hc] at h; cases h
    | other =>
      rw [hc] at h
      dsimp only at h
      split at h
      · cases h
        rw [List.length_append, List.length_singleton]
      · cases h

theorem subs_pointers {env : Env} {b : Buf} : ∀ (k i : Nat) (a a' : Acc × Bool),
    processSubs env b (fun (a : Acc × Bool) s => do
      let (acc', reached) ← processSubheader env b a.1 s
      return (acc', a.2 || reached)) k i a = .ok a' →
    a'.1.dataSubs.length ≤ a.1.dataSubs.length + k := by
  intro k
  induction k with
  | zero => intro i a a' h; cases h; exact Nat.le_refl _
  | succ k ih =>
    intro i a a' h
    unfold processSubs at h
    obtain ⟨s, -, h⟩ := bind_ok_inv h
    dsimp only at h
    split at h
    · have := ih _ _ _ h
      omega
    split at h
    · have := ih _ _ _ h
      omega
    · obtain ⟨a1, ha, h⟩ := bind_ok_inv h
      obtain ⟨⟨acc', r⟩, hp, ha⟩ := bind_ok_inv ha
      cases ha
      have h1 := ih _ _ _ h
      have h2 := subheader_pointers hp
      dsimp only at h1
      omega

theorem page_pointers {env : Env} {b : Buf} {hd : PageHdr} {acc acc' : Acc} {stop : Bool}
    (h : processPage env b hd acc = .ok (acc', stop)) : acc'.dataSubs.length ≤ acc.dataSubs.length + hd.subCount := by
  unfold processPage at h
  dsimp only at h
  split at h
  · obtain ⟨⟨a1, r⟩, hp, h⟩ := bind_ok_inv h
    simp only [pure, Except.pure, Except.ok.injEq, Prod.mk.injEq] at h
    rw [← h.1]
    exact subs_pointers _ _ _ _ hp
  · simp only [ok_bind'', pure, Except.pure, Except.ok.injEq, Prod.mk.injEq] at h
    rw [← h.1]
    omega

theorem metaLoop_frugal {env : Env} {M : Nat} (hM : env.pageLength ≤ M) : ∀ (n : Nat) (p : PState σ) (acc : Acc) (p' : PState σ)
    (acc' : Acc), SmallPage M p → acc.dataSubs = [] → metaLoop env S n p acc = .ok (p', acc') →
    SmallPage M p' ∧ acc'.dataSubs.length < 2 ^ 16 := by
  intro n
  induction n with
  | zero => intro _ _ _ _ _ _ h; cases h
  | succ n ih =>
    intro p acc p' acc' hp ha h
    unfold metaLoop at h
    have h1 := readPage_small (S := S) hM hp
    generalize readPage env S p = x at h1 h
    obtain ⟨(e | (_ | _)), q⟩ := x
    · cases h
    · cases h
      exact ⟨h1, by rw [ha]; decide⟩
    · dsimp only at h h1
      obtain ⟨⟨acc1, stop⟩, hpp, h⟩ := bind_ok_inv h
      cases stop with
      | true =>
        cases h
        refine ⟨h1, Nat.lt_of_le_of_lt (page_pointers hpp) ?_⟩
        rw [ha, List.length_nil, Nat.zero_add]
        exact h1.2
      | false => exact ih q acc1 p' acc' h1 (page_dataSubs hpp ha) h

theorem readHeader_small {cfg : Cfg} {s s' : σ} {h : Header} {b : Buf} (hr : readHeader cfg S s = .ok (h, b, s')) :
    Small (max 288 h.headerLength) b := by
  unfold readHeader at hr
  obtain ⟨⟨b1, s1⟩, h1, hr⟩ := bind_ok_inv hr
  obtain ⟨_, -, hr⟩ := bind_ok_inv hr
  obtain ⟨al, -, hr⟩ := bind_ok_inv hr
  obtain ⟨⟨hl, b2, s2⟩, h2, hr⟩ := bind_ok_inv hr
  obtain ⟨hd, h3, hr⟩ := bind_ok_inv hr
  obtain ⟨_, -, hr⟩ := bind_ok_inv hr
  cases hr
  have e1 : Small 288 b1 := by
    unfold checkHeaderRead at h1
    have k := readStream_small (S := S) (cfg := cfg) (M := 288) (b := Buf.empty) ⟨Nat.le_refl _, Nat.zero_le _⟩ (len := 288)
      (off := 0) (by decide) s
    generalize Buf.readStream cfg S Buf.empty s 288 0 = x at h1 k
    obtain ⟨(e | (_ | _)), b, t⟩ := x
    · cases h1
    · cases h1
    · cases h1
      exact k
  unfold setHeaderLengthAndRead at h2
  obtain ⟨hl', g1, h2⟩ := bind_ok_inv h2
  obtain ⟨_, -, h2⟩ := bind_ok_inv h2
  have hlt := getU32_lt g1
  have hw : w64 (288 + sub64 hl' 288) = hl' := by
    unfold w64 sub64
    omega
  generalize sub64 hl' 288 = n at h2 hw
  have k := readStream_small (S := S) (cfg := cfg) (M := max 288 hl') (b := b1)
    ⟨e1.1, Nat.le_trans e1.2 (Nat.le_max_left _ _)⟩ (len := n) (off := 288) (by rw [hw]; exact Nat.le_max_right _ _) s1
  generalize Buf.readStream cfg S b1 s1 n 288 = x at h2 k
  obtain ⟨(e | (_ | _)), b, t⟩ := x
  · cases h2
  · cases h2
  · cases h2
    rw [setHeader_length h3]
    exact k

theorem buildDst_small {cfg : Cfg} {md : Meta} {dst : List Byte} (h : buildDst cfg md = .ok dst) : dst.length ≤ md.rowLength := by
  have key : ∀ x : Res (List Byte), x = (match Buf.alloc cfg md.rowLength with | .ok b => .ok b.mem | .error e => .error e) →
      x = .ok dst → dst.length ≤ md.rowLength := by
    intro x hx h
    unfold Buf.alloc at hx
    split at hx
    · subst hx
      rename_i heq
      split at heq
      · cases heq
        cases h
        rw [freshMem, List.length_map, List.length_range']
      · cases heq
    · subst hx; cases h
  unfold buildDst at h
  cases hc : md.compression with
  | none => rw [hc] at h; cases h; exact Nat.zero_le _
  | rle => rw [hc] at h; exact key _ rfl h
  | rdc => rw [hc] at h; exact key _ rfl h

theorem open_frugal {cfg : Cfg} {fuel : Nat} {filter : Option Filter} {s : σ} {R : Reader σ}
    (h : openReader cfg S fuel filter s = .ok R) :
    OfReader (Frugal (max 288 (max R.props.header.headerLength R.props.header.pageLength))) R := by
  unfold openReader at h
  obtain ⟨⟨hd, b, s1⟩, h1, h⟩ := bind_ok_inv h
  dsimp only at h
  obtain ⟨⟨p, acc⟩, h2, h⟩ := bind_ok_inv h
  obtain ⟨columns, -, h⟩ := bind_ok_inv h
  obtain ⟨rd, h3, h⟩ := bind_ok_inv h
  cases h
  show Frugal (max 288 (max hd.headerLength hd.pageLength)) _ acc.md rd
  have hb := readHeader_small h1
  have hM : hd.pageLength ≤ max 288 (max hd.headerLength hd.pageLength) := by omega
  obtain ⟨g1, g2⟩ := metaLoop_frugal (M := max 288 (max hd.headerLength hd.pageLength)) hM _ _ _ _ _
    ⟨⟨hb.1, Nat.le_trans hb.2 (by omega)⟩, show 0 < 2 ^ 16 from Nat.two_pow_pos 16⟩ rfl h2
  unfold RD.build at h3
  obtain ⟨dst, h4, h3⟩ := bind_ok_inv h3
  have hd := buildDst_small h4
  split at h3
  · obtain ⟨pg, h5, h3⟩ := bind_ok_inv h3
    cases h3
    exact ⟨hM, g1, hd, Nat.lt_of_le_of_lt (buildPage_small h5) g1.2⟩
  · cases h3
    exact ⟨hM, g1, hd, g2⟩

end Sas.Proofs
