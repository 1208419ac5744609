import Verif.Model.Places
import Verif.Proofs.Resources

/-! What happens to the memory behind a row. -/

namespace Sas.Proofs

open Sas Sas.Spec

variable {σ : Type} {S : Source σ}

theorem rle_row {src dst row : List Byte} (h : (rle src dst).1 = .ok row) : (rle src dst).2 = row := by
  unfold rle at h ⊢
  generalize rleLoop src.length src ⟨dst, 0⟩ = x at h ⊢
  obtain ⟨(e | u), d⟩ := x
  · cases h
  · dsimp only at h ⊢
    cases hf : d.fill with
    | error e => rw [hf] at h; cases h
    | ok d' => rw [hf] at h; cases h; rfl

theorem rdc_row {cfg : Cfg} {src dst row : List Byte} (h : (rdc cfg src dst).1 = .ok row) : (rdc cfg src dst).2 = row := by
  unfold rdc at h ⊢
  generalize rdcLoop cfg src.length ⟨0, 0⟩ src ⟨dst, 0⟩ = x at h ⊢
  obtain ⟨(e | u), d⟩ := x
  · cases h
  · dsimp only at h ⊢
    cases hf : d.fill with
    | error e => rw [hf] at h; cases h
    | ok d' => rw [hf] at h; cases h; rfl

/-- The memory behind a pointer. -/
def behind (r : RD σ) : Place → List Byte
  | .page off => r.p.buf.mem.drop off
  | .scratch => r.dst

theorem extract_behind {env : Env} {md : Meta} {r r' : RD σ} {off len : Nat} {row : Row}
    (h : r.extract env md off len = (.ok row, r')) : behind r' (rowPlace md off len) = row.mem := by
  unfold RD.extract at h
  generalize fmtAssert env.cfg (w64 (off + len) ≤ env.pageLength) = x at h
  cases x with
  | error e => cases h
  | ok u =>
    dsimp only at h
    generalize r.p.buf.rd env.cfg off len = x at h
    cases x with
    | error e => cases h
    | ok values =>
      dsimp only at h
      unfold rowPlace
      by_cases hl : len < md.rowLength
      · rw [if_pos hl] at h ⊢
        unfold RD.decompress at h
        cases hc : md.compression with
        | none => rw [hc] at h; cases h; rfl
        | rle =>
          rw [hc] at h
          dsimp only at h
          have := @rle_row values r.dst
          generalize rle values r.dst = x at h this
          obtain ⟨(e | row'), d⟩ := x
          · cases h
          · cases h
            exact this rfl
        | rdc =>
          rw [hc] at h
          dsimp only at h
          have := @rdc_row env.cfg values r.dst
          generalize rdc env.cfg values r.dst = x at h this
          obtain ⟨(e | row'), d⟩ := x
          · cases h
          · cases h
            exact this rfl
      · rw [if_neg hl] at h ⊢
        cases h
        rfl

theorem readLine_behind {R : Reader σ} {row : Row} {r : RD σ} (h : R.rd.readLine R.env S R.props.md = (.ok (some row), r)) :
    ∃ pl, R.nextPlace S = some pl ∧ behind r pl = row.mem ∧ r.page ≠ none := by
  unfold RD.readLine at h
  unfold Reader.nextPlace
  generalize R.rd.next R.env S R.props.md = x at h ⊢
  obtain ⟨(e | (_ | _)), r1⟩ := x
  · cases h
  · cases h
  · dsimp only at h ⊢
    have hpg : ∀ ol r2, r1.takeLine = (.ok ol, r2) → r2.page ≠ none := by
      intro ol r2 ht
      unfold RD.takeLine at ht
      split at ht
      · cases ht
      · split at ht
        · cases ht
        · cases ht
          simp
    generalize r1.takeLine = x at h hpg ⊢
    obtain ⟨(e | ⟨off, len⟩), r2⟩ := x
    · cases h
    · dsimp only at h ⊢
      have hf := RD.extract_frame R.env R.props.md r2 off len
      have hb := @extract_behind σ R.env R.props.md r2
      generalize he : r2.extract R.env R.props.md off len = x at h hf
      obtain ⟨(e | row'), r3⟩ := x
      · cases h
      · cases h
        refine ⟨_, rfl, hb he, ?_⟩
        have hp : r.page = r2.page := (congrArg RD.page hf.1 :)
        rw [hp]
        exact hpg _ _ rfl

/-! ## No buffer is allocated any more -/

/-- The page buffer is as long as a page, and at most as long as its block, whose length is `M`. -/
def Roomy (M : Nat) (env : Env) (p : PState σ) : Prop :=
  p.buf.size = w64 env.pageLength ∧ p.buf.size ≤ p.buf.mem.length ∧ p.buf.mem.length = M

/-- The same environment, with an allocator that refuses everything. -/
def poor (env : Env) : Env := { env with cfg := { env.cfg with maxAlloc := 0 } }

theorem resize_roomy {cfg : Cfg} {b : Buf} {n : Nat} (h : b.size = n) : b.resize cfg n = .ok b := by
  unfold Buf.resize
  rw [if_neg (by omega), ← h]

theorem readPage_roomy {env : Env} {M : Nat} {p : PState σ} (h : Roomy M env p) : Roomy M env (readPage env S p).2 := by
  unfold readPage
  split
  · exact h
  · unfold Buf.readStream
    rw [Nat.zero_add, resize_roomy h.1]
    dsimp only
    by_cases hle : 0 + (S.read p.src env.pageLength).bytes.length ≤ p.buf.mem.length
    · rw [if_pos hle]
      have hm : ∀ st hd, Roomy M env (⟨st, ⟨writeAt p.buf.mem 0 (S.read p.src env.pageLength).bytes, p.buf.size⟩, hd⟩ : PState σ) := by
        intro st hd
        refine ⟨h.1, ?_, ?_⟩
        · dsimp only; rw [length_writeAt hle]; exact h.2.1
        · dsimp only; rw [length_writeAt hle]; exact h.2.2
      generalize (S.read p.src env.pageLength).ok = ok
      cases ok with
      | false =>
        dsimp only
        split
        · exact hm _ _
        · exact hm _ _
      | true =>
        dsimp only
        split
        · exact hm _ _
        · exact hm _ _
    · rw [if_neg hle]
      exact h

theorem getPageHeader_poor (env : Env) (b : Buf) : getPageHeader (poor env) b = getPageHeader env b := rfl

theorem readPage_poor {env : Env} {M : Nat} {p : PState σ} (h : Roomy M env p) : readPage (poor env) S p = readPage env S p := by
  unfold readPage Buf.readStream
  rw [Nat.zero_add, Nat.zero_add]
  rw [show (poor env).pageLength = env.pageLength from rfl, resize_roomy h.1, resize_roomy h.1]
  simp only [getPageHeader_poor]

theorem processSubs_poor {α : Type} (env : Env) (b : Buf) (f : α → PageSub → Res α) : ∀ (k i : Nat) (a : α),
    processSubs (poor env) b f k i a = processSubs env b f k i a := by
  intro k
  induction k with
  | zero => intro _ _; rfl
  | succ k ih =>
    intro i a
    unfold processSubs
    simp only [ih]
    rfl

theorem buildPage_poor (env : Env) (md : Meta) (b : Buf) (h : PageHdr) : buildPage (poor env) md b h = buildPage env md b h := by
  unfold buildPage
  rw [processSubs_poor]
  rfl

theorem nextPageLoop_poor {env : Env} {md : Meta} {M : Nat} : ∀ (n : Nat) (r : RD σ), Roomy M env r.p →
    nextPageLoop (poor env) S md n r = nextPageLoop env S md n r ∧ Roomy M env (nextPageLoop env S md n r).2.p := by
  intro n
  induction n with
  | zero => intro r h; exact ⟨rfl, h⟩
  | succ n ih =>
    intro r h
    unfold nextPageLoop
    rw [readPage_poor h]
    have h1 := readPage_roomy (S := S) h
    generalize readPage env S r.p = x at h1 ⊢
    obtain ⟨(e | (_ | _)), p⟩ := x
    · exact ⟨rfl, h1⟩
    · exact ⟨rfl, h1⟩
    · dsimp only at h1 ⊢
      rw [buildPage_poor]
      rcases buildPage env md p.buf p.hdr with e | (_ | pg)
      · exact ⟨rfl, h1⟩
      · exact ih _ h1
      · exact ⟨rfl, h1⟩

/-- As long as there is a page. -/
def Room (M : Nat) (env : Env) (_ : Meta) (r : RD σ) : Prop := r.p.buf.mem.length = M ∧ (r.page ≠ none → Roomy M env r.p)

theorem next_poor {env : Env} {md : Meta} {M : Nat} {r : RD σ} (h : Room M env md r) :
    r.next (poor env) S md = r.next env S md ∧ Room M env md (r.next env S md).2 := by
  unfold RD.next
  split
  · exact ⟨rfl, h⟩
  · split
    · exact ⟨rfl, h⟩
    · rename_i pg hpg
      split
      · obtain ⟨g1, g2⟩ := nextPageLoop_poor (S := S) (md := md) env.fuel { r with page := none } (h.2 (by rw [hpg]; simp))
        exact ⟨g1, g2.2.2, fun _ => g2⟩
      · exact ⟨rfl, h⟩

theorem takeLine_page (r : RD σ) : r.takeLine.2.p = r.p ∧ (r.page = none → r.takeLine.2.page = none) := by
  unfold RD.takeLine
  split
  · exact ⟨rfl, fun h => h⟩
  · rename_i pg hpg
    split
    · exact ⟨rfl, fun h => h⟩
    · exact ⟨rfl, fun h => by rw [hpg] at h; cases h⟩

theorem room_kept (M : Nat) : Kept S (Room M) where
  next env md r h := (next_poor h).2
  take env md r h := by
    obtain ⟨h1, h2⟩ := takeLine_page r
    unfold Room
    rw [h1]
    exact ⟨h.1, fun hn => h.2 fun hp => hn (h2 hp)⟩
  extract env md r off len h := by
    rw [(RD.extract_frame env md r off len).1]
    exact h

theorem readPage_ok {env : Env} {p q : PState σ} {ok : Bool} (hp : p.buf.size ≤ p.buf.mem.length)
    (h : readPage env S p = (.ok ok, q)) :
    if ok then Roomy q.buf.mem.length env q else q.hdr = PageHdr.reset := by
  unfold readPage at h
  split at h
  · cases h; rfl
  · unfold Buf.readStream at h
    rw [Nat.zero_add] at h
    cases hr : p.buf.resize env.cfg (w64 env.pageLength) with
    | error e => rw [hr] at h; cases h
    | ok b =>
      rw [hr] at h
      dsimp only at h
      have h1 : b.size = w64 env.pageLength := by
        unfold Buf.resize at hr
        split at hr
        · split at hr
          · cases hr; rfl
          · cases hr
        · cases hr; rfl
      have h2 : b.size ≤ b.mem.length :=
        (resize_small (M := max p.buf.mem.length (w64 env.pageLength)) ⟨hp, Nat.le_max_left _ _⟩ (Nat.le_max_right _ _) hr).1
      by_cases hle : 0 + (S.read p.src env.pageLength).bytes.length ≤ b.mem.length
      · rw [if_pos hle] at h
        generalize (S.read p.src env.pageLength).ok = k at h
        cases k with
        | false =>
          dsimp only at h
          split at h
          · cases h; rfl
          · cases h
        | true =>
          dsimp only at h
          split at h
          · cases h
          · cases h
            refine ⟨h1, ?_, rfl⟩
            dsimp only
            rw [length_writeAt hle]
            exact h2
      · rw [if_neg hle] at h
        cases h

theorem metaLoop_room {env : Env} : ∀ (n : Nat) (p : PState σ) (acc : Acc) (p' : PState σ) (acc' : Acc),
    p.buf.size ≤ p.buf.mem.length → acc.dataSubs = [] → metaLoop env S n p acc = .ok (p', acc') →
    Roomy p'.buf.mem.length env p' ∨ (acc'.dataSubs = [] ∧ p'.hdr = PageHdr.reset) := by
  intro n
  induction n with
  | zero => intro _ _ _ _ _ _ h; cases h
  | succ n ih =>
    intro p acc p' acc' hp ha h
    unfold metaLoop at h
    have h1 := @readPage_ok _ S env p
    generalize readPage env S p = x at h1 h
    obtain ⟨(e | (_ | _)), q⟩ := x
    · cases h
    · cases h
      exact .inr ⟨ha, h1 hp rfl⟩
    · have hq : Roomy q.buf.mem.length env q := h1 hp rfl
      dsimp only at h
      obtain ⟨⟨acc1, stop⟩, hpp, h⟩ := bind_ok_inv h
      cases stop with
      | true => cases h; exact .inl hq
      | false => exact ih q acc1 p' acc' hq.2.1 (page_dataSubs hpp ha) h

theorem open_room {cfg : Cfg} {fuel : Nat} {filter : Option Filter} {s : σ} {R : Reader σ}
    (h : openReader cfg S fuel filter s = .ok R) : OfReader (Room R.rd.p.buf.mem.length) R := by
  unfold openReader at h
  obtain ⟨⟨hd, b, s1⟩, h1, h⟩ := bind_ok_inv h
  dsimp only at h
  obtain ⟨⟨p, acc⟩, h2, h⟩ := bind_ok_inv h
  obtain ⟨columns, -, h⟩ := bind_ok_inv h
  obtain ⟨rd, h3, h⟩ := bind_ok_inv h
  cases h
  refine ⟨rfl, ?_⟩
  show rd.page ≠ none → Roomy rd.p.buf.mem.length _ rd.p
  rcases metaLoop_room _ _ _ _ _ (readHeader_small h1).1 rfl h2 with g | ⟨g2, g3⟩
  · intro _
    unfold RD.build at h3
    obtain ⟨dst, -, h3⟩ := bind_ok_inv h3
    split at h3
    · obtain ⟨pg, -, h3⟩ := bind_ok_inv h3
      cases h3
      exact g
    · cases h3
      exact g
  · rw [build_dead g3 g2] at h3
    dsimp only at h3
    generalize buildDst cfg acc.md = x at h3
    cases x with
    | error e => cases h3
    | ok dst =>
      cases h3
      intro hn
      exact absurd rfl hn

theorem rdcLoop_poor (cfg : Cfg) : ∀ (n : Nat) (c : Ctrl) (src : List Byte) (d : Dst),
    rdcLoop { cfg with maxAlloc := 0 } n c src d = rdcLoop cfg n c src d := by
  intro n
  induction n with
  | zero => intro _ _ _; rfl
  | succ n ih =>
    intro c src d
    unfold rdcLoop
    simp only [ih]
    rfl

theorem extract_poor (env : Env) (md : Meta) (r : RD σ) (off len : Nat) : r.extract (poor env) md off len = r.extract env md off len := by
  have h : ∀ src dst, rdc (poor env).cfg src dst = rdc env.cfg src dst := by
    intro src dst
    unfold rdc
    rw [show (poor env).cfg = { env.cfg with maxAlloc := 0 } from rfl, rdcLoop_poor]
  unfold RD.extract RD.decompress
  simp only [h]
  rfl

theorem readLine_poor {env : Env} {md : Meta} {M : Nat} {r : RD σ} (h : Room M env md r) :
    r.readLine (poor env) S md = r.readLine env S md := by
  unfold RD.readLine
  rw [(next_poor h).1]
  simp only [extract_poor]

theorem skip_poor {env : Env} {md : Meta} {M : Nat} : ∀ (n : Nat) {r : RD σ}, Room M env md r →
    r.skip (poor env) S md n = r.skip env S md n := by
  intro n
  induction n with
  | zero => intro _ _; rfl
  | succ n ih =>
    intro r h
    unfold RD.skip
    rw [(next_poor h).1]
    have h1 := (next_poor (S := S) h).2
    generalize r.next env S md = x at h1 ⊢
    obtain ⟨(e | (_ | _)), r1⟩ := x
    · rfl
    · rfl
    · dsimp only at h1 ⊢
      have h2 := (room_kept (S := S) M).take env md r1 h1
      generalize r1.takeLine = x at h2 ⊢
      obtain ⟨(e | ol), r2⟩ := x
      · rfl
      · exact ih h2

/-- The same reader, with an allocator that refuses everything. -/
def poorR (R : Reader σ) : Reader σ := { R with env := poor R.env }

theorem readRow_poor {M : Nat} {R : Reader σ} (h : OfReader (Room M) R) :
    (poorR R).readRow S = ((R.readRow S).1, poorR (R.readRow S).2) := by
  unfold Reader.readRow
  rw [show (poorR R).rd.readLine (poorR R).env S (poorR R).props.md = R.rd.readLine R.env S R.props.md from readLine_poor h]
  generalize R.rd.readLine R.env S R.props.md = x
  obtain ⟨(e | (_ | row)), r⟩ := x <;> rfl

theorem readRows_poor {M : Nat} : ∀ (n : Nat) {R : Reader σ}, OfReader (Room M) R →
    (poorR R).readRows S n = ((R.readRows S n).1, poorR (R.readRows S n).2) := by
  intro n
  induction n with
  | zero => intro _ _; rfl
  | succ n ih =>
    intro R h
    unfold Reader.readRows
    rw [readRow_poor h]
    have h1 := (room_kept (S := S) M).readRow h
    generalize R.readRow S = x at h1 ⊢
    obtain ⟨(e | (_ | _)), R1⟩ := x
    · rfl
    · rfl
    · exact ih h1

theorem readAllLoop_poor {M : Nat} : ∀ (n : Nat) {R : Reader σ}, OfReader (Room M) R →
    (poorR R).readAllLoop S n = ((R.readAllLoop S n).1, poorR (R.readAllLoop S n).2) := by
  intro n
  induction n with
  | zero => intro _ _; rfl
  | succ n ih =>
    intro R h
    unfold Reader.readAllLoop
    rw [readRow_poor h]
    have h1 := (room_kept (S := S) M).readRow h
    generalize R.readRow S = x at h1 ⊢
    obtain ⟨(e | (_ | _)), R1⟩ := x
    · rfl
    · rfl
    · exact ih h1

theorem step_poor {M : Nat} {R : Reader σ} (h : OfReader (Room M) R) (op : Op) :
    (poorR R).step S op = ((R.step S op).1, poorR (R.step S op).2) := by
  cases op with
  | readRow =>
    show ((((poorR R).readRow S).1.map Ret.bool), ((poorR R).readRow S).2) = _
    rw [readRow_poor h]
    rfl
  | readRows n =>
    show ((((poorR R).readRows S n).1.map Ret.bool), ((poorR R).readRows S n).2) = _
    rw [readRows_poor n h]
    rfl
  | readAll =>
    unfold Reader.step Reader.readAll
    rw [show (poorR R).props.md.rowCount - (poorR R).rd.row + 1 = R.props.md.rowCount - R.rd.row + 1 from rfl,
      readAllLoop_poor _ h]
  | skip n =>
    show ((((poorR R).skip S n).1.map Ret.bool), ((poorR R).skip S n).2) = (((R.skip S n).1.map Ret.bool), poorR (R.skip S n).2)
    unfold Reader.skip
    rw [show (poorR R).rd.skip (poorR R).env S (poorR R).props.md n = R.rd.skip R.env S R.props.md n from skip_poor n h]
    generalize R.rd.skip R.env S R.props.md n = x
    obtain ⟨(e | (_ | row)), r⟩ := x <;> rfl
  | readRowNoSink =>
    show ((((poorR R).readRowNoSink S).1.map Ret.ptr), ((poorR R).readRowNoSink S).2) = _
    unfold Reader.readRowNoSink
    rw [show (poorR R).rd.readLine (poorR R).env S (poorR R).props.md = R.rd.readLine R.env S R.props.md from readLine_poor h]
    rfl
  | endOfData => rfl

theorem run_poor {M : Nat} : ∀ (ops : List Op) {R : Reader σ}, OfReader (Room M) R →
    (poorR R).run S ops = ((R.run S ops).1, poorR (R.run S ops).2) := by
  intro ops
  induction ops with
  | nil => intro _ _; rfl
  | cons op ops ih =>
    intro R h
    rw [Reader.run_cons, Reader.run_cons, step_poor h]
    have h1 := (room_kept (S := S) M).step h op
    generalize R.step S op = x at h1 ⊢
    obtain ⟨(e | v), R1⟩ := x
    · cases e with
      | exn e => dsimp only at h1 ⊢; rw [ih h1]
      | terminate => rfl
      | ub => rfl
      | fuel => rfl
    · dsimp only at h1 ⊢
      rw [ih h1]

/-! ## Where nothing is read, nothing is overwritten -/

/-- As long as nothing more is noted, the page buffer holds `m`. -/
def Quiet (l : List (Nat × Bool)) (m : List Byte) (_ : Env) (_ : Meta) (r : RD (σ × List (Nat × Bool))) : Prop :=
  l.length ≤ r.p.src.2.length ∧ (r.p.src.2.length = l.length → r.p.buf.mem = m)

theorem readPage_quiet {env : Env} {l : List (Nat × Bool)} {m : List Byte} {M : Nat} {p : PState (σ × List (Nat × Bool))}
    (hroom : Roomy M env p) (h : l.length ≤ p.src.2.length ∧ (p.src.2.length = l.length → p.buf.mem = m)) :
    l.length ≤ (readPage env (logged S) p).2.src.2.length ∧
    ((readPage env (logged S) p).2.src.2.length = l.length → (readPage env (logged S) p).2.buf.mem = m) := by
  unfold readPage
  split
  · exact h
  · unfold Buf.readStream
    rw [Nat.zero_add, resize_roomy hroom.1]
    dsimp only
    have hr : ((logged S).read p.src env.pageLength).st.2.length = p.src.2.length + 1 := by
      show (p.src.2 ++ [_]).length = _
      rw [List.length_append, List.length_singleton]
    generalize (logged S).read p.src env.pageLength = x at hr
    obtain ⟨st, bytes, ok⟩ := x
    dsimp only at hr
    have key : ∀ b hd, l.length ≤ (⟨st, b, hd⟩ : PState (σ × List (Nat × Bool))).src.2.length ∧
        ((⟨st, b, hd⟩ : PState (σ × List (Nat × Bool))).src.2.length = l.length →
          (⟨st, b, hd⟩ : PState (σ × List (Nat × Bool))).buf.mem = m) := by
      intro b hd
      dsimp only
      exact ⟨by omega, fun hh => by omega⟩
    split
    · rename_i heq
      split at heq
      · cases heq
      · cases heq
        exact key _ _
    · rename_i heq
      split at heq
      · cases heq
        split
        · exact key _ _
        · exact key _ _
      · cases heq
    · rename_i heq
      split at heq
      · cases heq
        split
        · exact key _ _
        · exact key _ _
      · cases heq

theorem nextPageLoop_quiet {env : Env} {md : Meta} {l : List (Nat × Bool)} {m : List Byte} {M : Nat} :
    ∀ (n : Nat) (r : RD (σ × List (Nat × Bool))), Roomy M env r.p → Quiet l m env md r →
    Quiet l m env md (nextPageLoop env (logged S) md n r).2 := by
  intro n
  induction n with
  | zero => exact fun _ _ h => h
  | succ n ih =>
    intro r hr h
    unfold nextPageLoop
    have h1 := readPage_quiet (S := S) hr h
    have h2 := readPage_roomy (S := logged S) hr
    generalize readPage env (logged S) r.p = x at h1 h2 ⊢
    obtain ⟨(e | (_ | _)), p⟩ := x
    · exact h1
    · exact h1
    · dsimp only at h1 h2 ⊢
      rcases buildPage env md p.buf p.hdr with e | (_ | pg)
      · exact h1
      · exact ih _ h2 h1
      · exact h1

theorem quiet_kept (l : List (Nat × Bool)) (m : List Byte) (M : Nat) :
    Kept (logged S) (fun env md r => Room M env md r ∧ Quiet l m env md r) where
  next env md r h := by
    refine ⟨(room_kept M).next env md r h.1, ?_⟩
    unfold RD.next
    split
    · exact h.2
    · split
      · exact h.2
      · rename_i pg hpg
        split
        · exact nextPageLoop_quiet _ _ (h.1.2 (by rw [hpg]; simp)) h.2
        · exact h.2
  take env md r h := by
    refine ⟨(room_kept (S := logged S) M).take env md r h.1, ?_⟩
    unfold Quiet
    rw [(takeLine_page r).1]
    exact h.2
  extract env md r off len h := by
    refine ⟨(room_kept (S := logged S) M).extract env md r off len h.1, ?_⟩
    rw [(RD.extract_frame env md r off len).1]
    exact h.2

/-! ## Only decompressing changes the decompressor's buffer -/

theorem nextPageLoop_dst {env : Env} {md : Meta} : ∀ (n : Nat) (r : RD σ), (nextPageLoop env S md n r).2.dst = r.dst := by
  intro n
  induction n with
  | zero => exact fun _ => rfl
  | succ n ih =>
    intro r
    unfold nextPageLoop
    generalize readPage env S r.p = x
    obtain ⟨(e | (_ | _)), p⟩ := x
    · rfl
    · rfl
    · dsimp only
      rcases buildPage env md p.buf p.hdr with e | (_ | pg)
      · rfl
      · exact ih _
      · rfl

theorem next_dst {env : Env} {md : Meta} (r : RD σ) : (r.next env S md).2.dst = r.dst := by
  unfold RD.next
  split
  · rfl
  · split
    · rfl
    · split
      · exact nextPageLoop_dst _ _
      · rfl

theorem takeLine_dst (r : RD σ) : r.takeLine.2.dst = r.dst := by
  unfold RD.takeLine
  split
  · rfl
  · split <;> rfl

theorem skip_dst {env : Env} {md : Meta} : ∀ (n : Nat) (r : RD σ), (r.skip env S md n).2.dst = r.dst := by
  intro n
  induction n with
  | zero => exact fun _ => rfl
  | succ n ih =>
    intro r
    unfold RD.skip
    have h1 := next_dst (S := S) (env := env) (md := md) r
    generalize r.next env S md = x at h1 ⊢
    obtain ⟨(e | (_ | _)), r1⟩ := x
    · exact h1
    · exact h1
    · dsimp only at h1 ⊢
      have h2 := takeLine_dst r1
      generalize r1.takeLine = x at h2 ⊢
      obtain ⟨(e | ol), r2⟩ := x
      · exact h2.trans h1
      · exact (ih r2).trans (h2.trans h1)

theorem step_dst {R : Reader σ} {op : Op} (h : (∃ n, op = .skip n) ∨ op = .endOfData) : (R.step S op).2.rd.dst = R.rd.dst := by
  rcases h with ⟨n, rfl⟩ | rfl
  · show (R.skip S n).2.rd.dst = _
    have := skip_dst (S := S) (env := R.env) (md := R.props.md) n R.rd
    unfold Reader.skip
    generalize R.rd.skip R.env S R.props.md n = x at this ⊢
    obtain ⟨(e | (_ | _)), r⟩ := x <;> exact this
  · rfl

theorem run_dst : ∀ (ops : List Op) {R : Reader σ}, (∀ op ∈ ops, (∃ n, op = .skip n) ∨ op = .endOfData) →
    (R.run S ops).2.rd.dst = R.rd.dst := by
  intro ops
  induction ops with
  | nil => intro _ _; rfl
  | cons op ops ih =>
    intro R h
    rw [Reader.run_cons]
    have h1 := step_dst (S := S) (R := R) (h op List.mem_cons_self)
    generalize R.step S op = x at h1 ⊢
    obtain ⟨(e | v), R1⟩ := x
    · cases e with
      | exn e => exact (ih (fun o ho => h o (List.mem_cons_of_mem _ ho))).trans h1
      | terminate => exact h1
      | ub => exact h1
      | fuel => exact h1
    · exact (ih (fun o ho => h o (List.mem_cons_of_mem _ ho))).trans h1

theorem dst_kept (n : Nat) : Kept S (fun _ _ r => r.dst.length = n) where
  next env md r h := by rw [next_dst]; exact h
  take env md r h := by rw [takeLine_dst]; exact h
  extract env md r off len h := by rw [(RD.extract_frame env md r off len).2]; exact h

end Sas.Proofs
