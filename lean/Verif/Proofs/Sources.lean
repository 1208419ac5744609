import Verif.Spec.Sources
import Verif.Proofs.OpenErrs
import Verif.Proofs.Reader

/-!
# The reader on two sources that give the same bytes
-/

namespace Sas.Proofs
open Sas Sas.Spec

variable {σ₁ σ₂ : Type} {E : Prop} {S₁ : Source σ₁} {S₂ : Source σ₂} {Q : σ₁ → σ₂ → Prop}

/-! ## The buffer -/

theorem resize_inside {cfg : Cfg} {b b' : Buf} {n : Nat} (hb : b.size ≤ b.mem.length) (h : b.resize cfg n = .ok b') :
    b'.size = n ∧ n ≤ b'.mem.length ∧ b.size ≤ b'.mem.length := by
  unfold Buf.resize at h
  split at h
  · split at h
    · cases h
      refine ⟨rfl, ?_⟩
      simp only [freshMem, List.length_append, List.length_take, List.length_map, List.length_range']
      omega
    · cases h
  · cases h
    exact ⟨rfl, by dsimp only; omega, hb⟩

theorem length_writeAt {mem bs : List Byte} {off : Nat} (h : off + bs.length ≤ mem.length) :
    (writeAt mem off bs).length = mem.length := by
  simp only [writeAt, List.length_append, List.length_take, List.length_drop]
  omega

/-- What two reads into the same buffer do. -/
theorem readStream_agree (hA : Agree E S₁ S₂ Q) (cfg : Cfg) {b : Buf} (hb : b.size ≤ b.mem.length) {s₁ : σ₁} {s₂ : σ₂}
    (hQ : Q s₁ s₂) (len : Nat) {off : Nat} (ho : off < 2 ^ 63) (hs : off ≤ b.size) :
    (∃ r b' s₁' s₂', Buf.readStream cfg S₁ b s₁ len off = (r, b', s₁') ∧ Buf.readStream cfg S₂ b s₂ len off = (r, b', s₂') ∧
      r ≠ .ok false ∧ (r = .ok true → b'.size = w64 (off + len)) ∧ b'.size ≤ b'.mem.length ∧ Q s₁' s₂') ∨
    (∃ b₁ s₁', Buf.readStream cfg S₁ b s₁ len off = (.ok false, b₁, s₁') ∧
      (E ∨ ∃ b₂ s₂', Buf.readStream cfg S₂ b s₂ len off = (.ok false, b₂, s₂') ∧ S₁.eof s₁' = S₂.eof s₂')) := by
  unfold Buf.readStream
  cases hr : b.resize cfg (w64 (off + len)) with
  | error e => exact .inl ⟨_, _, _, _, rfl, rfl, (fun h => by cases h), (fun h => by cases h), hb, hQ⟩
  | ok b' =>
    obtain ⟨h1, h2, h3⟩ := resize_inside hb hr
    dsimp only
    cases hok : (S₁.read s₁ len).ok with
    | true =>
      obtain ⟨g1, g2, g3⟩ := hA.good _ _ hQ len hok
      rw [← g2]
      split
      · rename_i hle
        refine .inl ⟨.ok true, _, _, _, rfl, by rw [g1], (fun h => by cases h), (fun _ => h1), ?_, g3⟩
        dsimp only
        rw [length_writeAt hle]
        omega
      · exact .inl ⟨_, _, _, _, rfl, rfl, (fun h => by cases h), (fun h => by cases h), by omega, g3⟩
    | false =>
      have room : ∀ bs : List Byte, bs.length ≤ len → (2 ^ 63 ≤ len → bs = []) → off + bs.length ≤ b'.mem.length := by
        intro bs hk hk0
        by_cases hl : 2 ^ 63 ≤ len
        · rw [hk0 hl, List.length_nil]
          omega
        · have : w64 (off + len) = off + len := Nat.mod_eq_of_lt (by omega)
          omega
      rw [if_pos (room _ (hA.fits₁ _ _) fun hl => hA.huge₁ _ _ hl hok)]
      refine .inr ⟨_, _, rfl, ?_⟩
      rcases hA.fail _ _ hQ len hok with h | ⟨g1, g2⟩
      · exact .inl h
      · rw [if_pos (room _ (hA.fits₂ _ _) fun hl => hA.huge₂ _ _ hl g1), g1]
        exact .inr ⟨_, _, rfl, g2⟩

/-! ## Pages -/

/-- The same page state on two sources. -/
structure PRel (Q : σ₁ → σ₂ → Prop) (p₁ : PState σ₁) (p₂ : PState σ₂) : Prop where
  buf : p₁.buf = p₂.buf
  hdr : p₁.hdr = p₂.hdr
  src : Q p₁.src p₂.src
  inside : p₁.buf.size ≤ p₁.buf.mem.length

theorem readPage_agree (hA : Agree E S₁ S₂ Q) (env : Env) {p₁ : PState σ₁} {p₂ : PState σ₂} (h : PRel Q p₁ p₂) :
    ((readPage env S₁ p₁).1 = (readPage env S₂ p₂).1 ∧ PRel Q (readPage env S₁ p₁).2 (readPage env S₂ p₂).2) ∨
    ((readPage env S₁ p₁).1 ≠ .ok true ∧ (readPage env S₁ p₁).2.hdr = PageHdr.reset ∧
      (E ∨ ((readPage env S₂ p₂).1 = (readPage env S₁ p₁).1 ∧ (readPage env S₂ p₂).2.hdr = PageHdr.reset))) := by
  obtain ⟨s1, b, hd⟩ := p₁
  obtain ⟨s2, b2, hd2⟩ := p₂
  obtain ⟨h1, h2, h3, h4⟩ := h
  dsimp only at h1 h2 h3 h4
  subst h1 h2
  unfold readPage
  dsimp only
  rw [← hA.eof _ _ h3]
  cases he : S₁.eof s1 with
  | true => exact .inl ⟨rfl, rfl, rfl, h3, h4⟩
  | false =>
    simp only [Bool.false_eq_true, if_false]
    rcases readStream_agree hA env.cfg h4 h3 env.pageLength (off := 0) (by omega) (by omega) with
      ⟨r, b', s1', s2', g1, g2, g3, -, g4, g5⟩ | ⟨b1, s1', g1, g2⟩
    · rw [g1, g2]
      rcases r with e | (_ | _)
      · exact .inl ⟨rfl, rfl, rfl, g5, g4⟩
      · exact absurd rfl g3
      · left
        dsimp only
        cases getPageHeader env b' with
        | error e => exact ⟨rfl, rfl, rfl, g5, g4⟩
        | ok h => exact ⟨rfl, rfl, rfl, g5, g4⟩
    · rw [g1]
      dsimp only
      right
      refine ⟨?_, ?_, ?_⟩
      · split <;> exact fun h => by cases h
      · split <;> rfl
      · rcases g2 with h | ⟨b2, s2', g2, g3⟩
        · exact .inl h
        · right
          rw [g2]
          dsimp only
          rw [← g3]
          split <;> exact ⟨rfl, rfl⟩

/-! ## Rows -/

/-- The same state of reading on two sources, or one in which nothing more is read. -/
def RRel (Q : σ₁ → σ₂ → Prop) (r₁ : RD σ₁) (r₂ : RD σ₂) : Prop :=
  r₁.row = r₂.row ∧ ((r₁.page = none ∧ r₂.page = none) ∨ (r₁.page = r₂.page ∧ r₁.dst = r₂.dst ∧ PRel Q r₁.p r₂.p))

/-- The same outcome, or a read has failed on the first source. -/
def Same₂ (E : Prop) (Q : σ₁ → σ₂ → Prop) {α : Type} (x : α × RD σ₁) (y : α × RD σ₂) : Prop :=
  (x.1 = y.1 ∧ RRel Q x.2 y.2) ∨ (E ∧ x.2.page = none)

theorem nextPageLoop_agree (hA : Agree E S₁ S₂ Q) (env : Env) (md : Meta) : ∀ (n : Nat) (r₁ : RD σ₁) (r₂ : RD σ₂),
    r₁.row = r₂.row → r₁.page = none → r₂.page = none → r₁.dst = r₂.dst → PRel Q r₁.p r₂.p →
    Same₂ E Q (nextPageLoop env S₁ md n r₁) (nextPageLoop env S₂ md n r₂) := by
  intro n
  induction n with
  | zero => exact fun r₁ r₂ h1 h2 h3 h4 h5 => .inl ⟨rfl, h1, .inl ⟨h2, h3⟩⟩
  | succ n ih =>
    intro r₁ r₂ h1 h2 h3 h4 h5
    unfold nextPageLoop
    have := readPage_agree hA env h5
    generalize readPage env S₁ r₁.p = x at this
    generalize readPage env S₂ r₂.p = y at this
    obtain ⟨x1, p1⟩ := x
    obtain ⟨y1, p2⟩ := y
    dsimp only at this
    rcases this with ⟨rfl, hp⟩ | ⟨g1, g2, g3⟩
    · rcases x1 with e | (_ | _)
      · exact .inl ⟨rfl, h1, .inl ⟨h2, h3⟩⟩
      · exact .inl ⟨rfl, h1, .inl ⟨h2, h3⟩⟩
      · dsimp only
        rw [← hp.buf, ← hp.hdr]
        rcases buildPage env md p1.buf p1.hdr with e | (_ | pg)
        · exact .inl ⟨rfl, h1, .inl ⟨h2, h3⟩⟩
        · exact ih _ _ h1 h2 h3 h4 hp
        · exact .inl ⟨rfl, h1, .inr ⟨rfl, h4, hp⟩⟩
    · rcases g3 with g3 | ⟨rfl, -⟩
      · right
        rcases x1 with e | (_ | _)
        · exact ⟨g3, h2⟩
        · exact ⟨g3, h2⟩
        · exact absurd rfl g1
      · left
        rcases y1 with e | (_ | _)
        · exact ⟨rfl, h1, .inl ⟨h2, h3⟩⟩
        · exact ⟨rfl, h1, .inl ⟨h2, h3⟩⟩
        · exact absurd rfl g1

theorem next_agree (hA : Agree E S₁ S₂ Q) (env : Env) (md : Meta) {r₁ : RD σ₁} {r₂ : RD σ₂} (h : RRel Q r₁ r₂) :
    Same₂ E Q (r₁.next env S₁ md) (r₂.next env S₂ md) := by
  unfold RD.next
  rw [← h.1]
  split
  · exact .inl ⟨rfl, h⟩
  · rcases h.2 with ⟨h1, h2⟩ | ⟨h1, h2, h3⟩
    · rw [h1, h2]
      exact .inl ⟨rfl, h⟩
    · rw [← h1]
      cases hp : r₁.page with
      | none => exact .inl ⟨rfl, h⟩
      | some pg =>
        dsimp only
        split
        · exact nextPageLoop_agree hA env md _ _ _ h.1 rfl rfl h2 h3
        · exact .inl ⟨rfl, h⟩

/-- A row is taken: from a page that both have. -/
theorem takeLine_agree {r₁ : RD σ₁} {r₂ : RD σ₂} (h : RRel Q r₁ r₂) :
    r₁.takeLine.1 = r₂.takeLine.1 ∧ RRel Q r₁.takeLine.2 r₂.takeLine.2 ∧
    (∀ x, r₁.takeLine.1 = .ok x → r₁.takeLine.2.page = r₂.takeLine.2.page ∧ r₁.takeLine.2.dst = r₂.takeLine.2.dst ∧
      PRel Q r₁.takeLine.2.p r₂.takeLine.2.p) := by
  unfold RD.takeLine
  rcases h.2 with ⟨h1, h2⟩ | ⟨h1, h2, h3⟩
  · rw [h1, h2]
    exact ⟨rfl, h, fun x hx => by cases hx⟩
  · rw [← h1]
    cases hp : r₁.page with
    | none => exact ⟨rfl, h, fun x hx => by cases hx⟩
    | some pg =>
      dsimp only
      cases pg.readLine with
      | error e => exact ⟨rfl, h, fun x hx => by cases hx⟩
      | ok ol => exact ⟨rfl, ⟨by dsimp only; rw [h.1], .inr ⟨rfl, h2, h3⟩⟩, fun _ _ => ⟨rfl, h2, h3⟩⟩

theorem decompress_agree (env : Env) (md : Meta) (mem src : List Byte) {r₁ : RD σ₁} {r₂ : RD σ₂} (hr : r₁.row = r₂.row)
    (hp : r₁.page = r₂.page) (hd : r₁.dst = r₂.dst) (h : PRel Q r₁.p r₂.p) :
    (r₁.decompress env md mem src).1 = (r₂.decompress env md mem src).1 ∧
    RRel Q (r₁.decompress env md mem src).2 (r₂.decompress env md mem src).2 := by
  unfold RD.decompress
  rw [← hd]
  cases md.compression with
  | none => exact ⟨rfl, hr, .inr ⟨hp, hd, h⟩⟩
  | rle => exact ⟨rfl, hr, .inr ⟨hp, rfl, h⟩⟩
  | rdc => exact ⟨rfl, hr, .inr ⟨hp, rfl, h⟩⟩

theorem extract_agree (env : Env) (md : Meta) (off len : Nat) {r₁ : RD σ₁} {r₂ : RD σ₂} (hr : r₁.row = r₂.row)
    (hp : r₁.page = r₂.page) (hd : r₁.dst = r₂.dst) (h : PRel Q r₁.p r₂.p) :
    (r₁.extract env md off len).1 = (r₂.extract env md off len).1 ∧
    RRel Q (r₁.extract env md off len).2 (r₂.extract env md off len).2 := by
  unfold RD.extract
  rw [← h.buf]
  cases fmtAssert env.cfg (w64 (off + len) ≤ env.pageLength) with
  | error e => exact ⟨rfl, hr, .inr ⟨hp, hd, h⟩⟩
  | ok u =>
    cases r₁.p.buf.rd env.cfg off len with
    | error e => exact ⟨rfl, hr, .inr ⟨hp, hd, h⟩⟩
    | ok values =>
      dsimp only
      split
      · exact decompress_agree env md _ _ hr hp hd h
      · exact ⟨rfl, hr, .inr ⟨hp, hd, h⟩⟩

/-- Without a page nothing happens. -/
theorem next_dead (env : Env) (md : Meta) {r : RD σ₁} (h : r.page = none) : r.next env S₁ md = (.ok false, r) := by
  unfold RD.next
  rw [h]
  split <;> rfl

theorem readLine_dead (env : Env) (md : Meta) {r : RD σ₁} (h : r.page = none) : r.readLine env S₁ md = (.ok none, r) := by
  unfold RD.readLine
  rw [next_dead env md h]

theorem skip_dead (env : Env) (md : Meta) (n : Nat) {r : RD σ₁} (h : r.page = none) : (r.skip env S₁ md n).2 = r := by
  cases n with
  | zero => rfl
  | succ n =>
    unfold RD.skip
    rw [next_dead env md h]

theorem readLine_agree (hA : Agree E S₁ S₂ Q) (env : Env) (md : Meta) {r₁ : RD σ₁} {r₂ : RD σ₂} (h : RRel Q r₁ r₂) :
    Same₂ E Q (r₁.readLine env S₁ md) (r₂.readLine env S₂ md) := by
  unfold RD.readLine
  have hn := next_agree hA env md h
  generalize hx : r₁.next env S₁ md = x at hn
  generalize hy : r₂.next env S₂ md = y at hn
  obtain ⟨x1, r1⟩ := x
  obtain ⟨y1, r2⟩ := y
  rcases hn with ⟨g1, g2⟩ | ⟨g1, g2⟩
  · dsimp only at g1 g2
    subst g1
    rcases x1 with e | (_ | _)
    · exact .inl ⟨rfl, g2⟩
    · exact .inl ⟨rfl, g2⟩
    · dsimp only
      obtain ⟨t1, t2, t3⟩ := takeLine_agree g2
      generalize r1.takeLine = u at t1 t2 t3
      generalize r2.takeLine = v at t1 t2 t3
      obtain ⟨u1, r1⟩ := u
      obtain ⟨v1, r2⟩ := v
      dsimp only at t1 t2 t3
      subst t1
      rcases u1 with e | ⟨off, len⟩
      · exact .inl ⟨rfl, t2⟩
      · dsimp only
        obtain ⟨t4, t5, t6⟩ := t3 _ rfl
        obtain ⟨e1, e2⟩ := extract_agree env md off len t2.1 t4 t5 t6
        generalize r1.extract env md off len = u at e1 e2
        generalize r2.extract env md off len = v at e1 e2
        obtain ⟨u1, r1⟩ := u
        obtain ⟨v1, r2⟩ := v
        dsimp only at e1 e2
        subst e1
        rcases u1 with e | row
        · exact .inl ⟨rfl, e2⟩
        · exact .inl ⟨rfl, e2⟩
  · dsimp only at g2
    right
    refine ⟨g1, ?_⟩
    rcases x1 with e | (_ | _)
    · exact g2
    · exact g2
    · dsimp only
      unfold RD.takeLine
      rw [g2]
      exact g2

theorem skip_agree (hA : Agree E S₁ S₂ Q) (env : Env) (md : Meta) : ∀ (n : Nat) {r₁ : RD σ₁} {r₂ : RD σ₂}, RRel Q r₁ r₂ →
    Same₂ E Q (r₁.skip env S₁ md n) (r₂.skip env S₂ md n) := by
  intro n
  induction n with
  | zero => exact fun h => .inl ⟨rfl, h⟩
  | succ n ih =>
    intro r₁ r₂ h
    unfold RD.skip
    have hn := next_agree hA env md h
    generalize hx : r₁.next env S₁ md = x at hn
    generalize hy : r₂.next env S₂ md = y at hn
    obtain ⟨x1, r1⟩ := x
    obtain ⟨y1, r2⟩ := y
    rcases hn with ⟨g1, g2⟩ | ⟨g1, g2⟩
    · dsimp only at g1 g2
      subst g1
      rcases x1 with e | (_ | _)
      · exact .inl ⟨rfl, g2⟩
      · exact .inl ⟨rfl, g2⟩
      · dsimp only
        obtain ⟨t1, t2, -⟩ := takeLine_agree g2
        generalize r1.takeLine = u at t1 t2
        generalize r2.takeLine = v at t1 t2
        obtain ⟨u1, r1⟩ := u
        obtain ⟨v1, r2⟩ := v
        dsimp only at t1 t2
        subst t1
        rcases u1 with e | ol
        · exact .inl ⟨rfl, t2⟩
        · exact ih t2
    · dsimp only at g2
      right
      refine ⟨g1, ?_⟩
      rcases x1 with e | (_ | _)
      · exact g2
      · exact g2
      · dsimp only
        unfold RD.takeLine
        rw [g2]
        exact g2

/-! ## The reader -/

/-- The same reader on two sources. -/
structure ReRel (Q : σ₁ → σ₂ → Prop) (R₁ : Reader σ₁) (R₂ : Reader σ₂) : Prop where
  env : R₁.env = R₂.env
  props : R₁.props = R₂.props
  trace : R₁.trace = R₂.trace
  rd : RRel Q R₁.rd R₂.rd

/-- The same outcome of a call, or a read has failed on the first source. -/
def Same₃ (E : Prop) (Q : σ₁ → σ₂ → Prop) {α : Type} (x : α × Reader σ₁) (y : α × Reader σ₂) : Prop :=
  (x.1 = y.1 ∧ ReRel Q x.2 y.2) ∨ (E ∧ x.2.rd.page = none)

theorem readRow_dead {R : Reader σ₁} (h : R.rd.page = none) : (R.readRow S₁).2.rd.page = none := by
  unfold Reader.readRow
  rw [readLine_dead _ _ h]
  exact h

theorem readRow_agree (hA : Agree E S₁ S₂ Q) {R₁ : Reader σ₁} {R₂ : Reader σ₂} (h : ReRel Q R₁ R₂) :
    Same₃ E Q (R₁.readRow S₁) (R₂.readRow S₂) := by
  unfold Reader.readRow Reader.currentRowIndex
  have hl := readLine_agree hA R₁.env R₁.props.md h.rd
  rw [← h.env, ← h.props, ← h.rd.1]
  generalize R₁.rd.readLine R₁.env S₁ R₁.props.md = x at hl
  generalize R₂.rd.readLine R₁.env S₂ R₁.props.md = y at hl
  obtain ⟨x1, r1⟩ := x
  obtain ⟨y1, r2⟩ := y
  rcases hl with ⟨g1, g2⟩ | ⟨g1, g2⟩
  · dsimp only at g1 g2
    subst g1
    left
    rcases x1 with e | (_ | row)
    · exact ⟨rfl, rfl, rfl, h.trace, g2⟩
    · exact ⟨rfl, rfl, rfl, by simp only [Reader.endOfData, Reader.emit, h.trace], g2⟩
    · exact ⟨rfl, rfl, rfl, by simp only [Reader.emit, h.trace], g2⟩
  · right
    refine ⟨g1, ?_⟩
    rcases x1 with e | (_ | row) <;> exact g2

theorem readRows_dead : ∀ (n : Nat) {R : Reader σ₁}, R.rd.page = none → (R.readRows S₁ n).2.rd.page = none := by
  intro n
  induction n with
  | zero => exact fun h => h
  | succ n ih =>
    intro R h
    have h1 := readRow_dead (S₁ := S₁) h
    unfold Reader.readRows
    generalize R.readRow S₁ = x at h1
    obtain ⟨(e | (_ | _)), R'⟩ := x
    · exact h1
    · exact h1
    · exact ih h1

theorem readRows_agree (hA : Agree E S₁ S₂ Q) : ∀ (n : Nat) {R₁ : Reader σ₁} {R₂ : Reader σ₂}, ReRel Q R₁ R₂ →
    Same₃ E Q (R₁.readRows S₁ n) (R₂.readRows S₂ n) := by
  intro n
  induction n with
  | zero => exact fun h => .inl ⟨rfl, h⟩
  | succ n ih =>
    intro R₁ R₂ h
    have h1 := readRow_agree hA h
    unfold Reader.readRows
    generalize R₁.readRow S₁ = x at h1
    generalize R₂.readRow S₂ = y at h1
    obtain ⟨x1, R1⟩ := x
    obtain ⟨y1, R2⟩ := y
    rcases h1 with ⟨g1, g2⟩ | ⟨g1, g2⟩
    · dsimp only at g1 g2
      subst g1
      rcases x1 with e | (_ | _)
      · exact .inl ⟨rfl, g2⟩
      · exact .inl ⟨rfl, g2⟩
      · exact ih g2
    · right
      refine ⟨g1, ?_⟩
      rcases x1 with e | (_ | _)
      · exact g2
      · exact g2
      · exact readRows_dead n g2

theorem readAllLoop_dead : ∀ (n : Nat) {R : Reader σ₁}, R.rd.page = none → (R.readAllLoop S₁ n).2.rd.page = none := by
  intro n
  induction n with
  | zero => exact fun h => h
  | succ n ih =>
    intro R h
    have h1 := readRow_dead (S₁ := S₁) h
    unfold Reader.readAllLoop
    generalize R.readRow S₁ = x at h1
    obtain ⟨(e | (_ | _)), R'⟩ := x
    · exact h1
    · exact h1
    · exact ih h1

theorem readAllLoop_agree (hA : Agree E S₁ S₂ Q) : ∀ (n : Nat) {R₁ : Reader σ₁} {R₂ : Reader σ₂}, ReRel Q R₁ R₂ →
    Same₃ E Q (R₁.readAllLoop S₁ n) (R₂.readAllLoop S₂ n) := by
  intro n
  induction n with
  | zero => exact fun h => .inl ⟨rfl, h⟩
  | succ n ih =>
    intro R₁ R₂ h
    have h1 := readRow_agree hA h
    unfold Reader.readAllLoop
    generalize R₁.readRow S₁ = x at h1
    generalize R₂.readRow S₂ = y at h1
    obtain ⟨x1, R1⟩ := x
    obtain ⟨y1, R2⟩ := y
    rcases h1 with ⟨g1, g2⟩ | ⟨g1, g2⟩
    · dsimp only at g1 g2
      subst g1
      rcases x1 with e | (_ | _)
      · exact .inl ⟨rfl, g2⟩
      · exact .inl ⟨rfl, g2⟩
      · exact ih g2
    · right
      refine ⟨g1, ?_⟩
      rcases x1 with e | (_ | _)
      · exact g2
      · exact g2
      · exact readAllLoop_dead n g2

theorem readerSkip_agree (hA : Agree E S₁ S₂ Q) (n : Nat) {R₁ : Reader σ₁} {R₂ : Reader σ₂} (h : ReRel Q R₁ R₂) :
    Same₃ E Q (R₁.skip S₁ n) (R₂.skip S₂ n) := by
  unfold Reader.skip
  have hl := skip_agree hA R₁.env R₁.props.md n h.rd
  rw [← h.env, ← h.props]
  generalize R₁.rd.skip R₁.env S₁ R₁.props.md n = x at hl
  generalize R₂.rd.skip R₁.env S₂ R₁.props.md n = y at hl
  obtain ⟨x1, r1⟩ := x
  obtain ⟨y1, r2⟩ := y
  rcases hl with ⟨g1, g2⟩ | ⟨g1, g2⟩
  · dsimp only at g1 g2
    subst g1
    left
    rcases x1 with e | (_ | _)
    · exact ⟨rfl, rfl, rfl, h.trace, g2⟩
    · exact ⟨rfl, rfl, rfl, by simp only [Reader.endOfData, Reader.emit, h.trace], g2⟩
    · exact ⟨rfl, rfl, rfl, h.trace, g2⟩
  · right
    refine ⟨g1, ?_⟩
    rcases x1 with e | (_ | _) <;> exact g2

theorem step_dead {R : Reader σ₁} (h : R.rd.page = none) (op : Op) : (R.step S₁ op).2.rd.page = none := by
  cases op with
  | readRow => exact readRow_dead h
  | readRows n => exact readRows_dead n h
  | readAll =>
    have := readAllLoop_dead (S₁ := S₁) (R.props.md.rowCount - R.rd.row + 1) h
    exact this
  | skip n =>
    have := skip_dead (S₁ := S₁) R.env R.props.md n h
    show (R.skip S₁ n).2.rd.page = none
    unfold Reader.skip
    generalize R.rd.skip R.env S₁ R.props.md n = x at this
    obtain ⟨(e | (_ | _)), r⟩ := x <;> (dsimp only at this; subst this; exact h)
  | readRowNoSink =>
    show (R.rd.readLine R.env S₁ R.props.md).2.page = none
    rw [readLine_dead _ _ h]
    exact h
  | endOfData => exact h

theorem step_agree (hA : Agree E S₁ S₂ Q) {R₁ : Reader σ₁} {R₂ : Reader σ₂} (h : ReRel Q R₁ R₂) (op : Op) :
    Same₃ E Q (R₁.step S₁ op) (R₂.step S₂ op) := by
  have lift : ∀ {α : Type} (f : Res α → Res Ret) (x : Res α × Reader σ₁) (y : Res α × Reader σ₂), Same₃ E Q x y →
      Same₃ E Q (f x.1, x.2) (f y.1, y.2) := by
    intro α f x y h
    rcases h with ⟨h1, h2⟩ | h
    · exact .inl ⟨congrArg f h1, h2⟩
    · exact .inr h
  cases op with
  | readRow => exact lift (Except.map .bool) _ _ (readRow_agree hA h)
  | readRows n => exact lift (Except.map .bool) _ _ (readRows_agree hA n h)
  | readAll =>
    have e : R₂.readAll S₂ = R₂.readAllLoop S₂ (R₁.props.md.rowCount - R₁.rd.row + 1) := by
      rw [Reader.readAll, h.props, h.rd.1]
    have := lift (Except.map fun _ => .unit) _ _ (readAllLoop_agree hA (R₁.props.md.rowCount - R₁.rd.row + 1) h)
    rw [← e] at this
    exact this
  | skip n => exact lift (Except.map .bool) _ _ (readerSkip_agree hA n h)
  | readRowNoSink =>
    have hl := readLine_agree hA R₁.env R₁.props.md h.rd
    show Same₃ E Q ((R₁.rd.readLine R₁.env S₁ R₁.props.md).1.map Ret.ptr,
        { R₁ with rd := (R₁.rd.readLine R₁.env S₁ R₁.props.md).2 })
      ((R₂.rd.readLine R₂.env S₂ R₂.props.md).1.map Ret.ptr, { R₂ with rd := (R₂.rd.readLine R₂.env S₂ R₂.props.md).2 })
    rw [← h.env, ← h.props]
    rcases hl with ⟨g1, g2⟩ | ⟨g1, g2⟩
    · exact .inl ⟨congrArg (Except.map Ret.ptr) g1, rfl, rfl, h.trace, g2⟩
    · exact .inr ⟨g1, g2⟩
  | endOfData =>
    exact .inl ⟨rfl, h.env, h.props, by simp only [Reader.step, Reader.endOfData, Reader.emit, h.trace], h.rd⟩

theorem run_dead : ∀ (ops : List Op) {R : Reader σ₁}, R.rd.page = none → (R.run S₁ ops).2.rd.page = none := by
  intro ops
  induction ops with
  | nil => exact fun h => h
  | cons op ops ih =>
    intro R h
    have h1 := step_dead (S₁ := S₁) h op
    unfold Reader.run
    generalize R.step S₁ op = x at h1
    obtain ⟨(e | v), R'⟩ := x
    · cases e with
      | exn e => exact ih h1
      | terminate => exact h1
      | ub => exact h1
      | fuel => exact h1
    · exact ih h1

theorem run_agree (hA : Agree E S₁ S₂ Q) : ∀ (ops : List Op) {R₁ : Reader σ₁} {R₂ : Reader σ₂}, ReRel Q R₁ R₂ →
    Same₃ E Q (R₁.run S₁ ops) (R₂.run S₂ ops) := by
  intro ops
  induction ops with
  | nil => exact fun h => .inl ⟨rfl, h⟩
  | cons op ops ih =>
    intro R₁ R₂ h
    have h1 := step_agree hA h op
    unfold Reader.run
    generalize R₁.step S₁ op = x at h1
    generalize R₂.step S₂ op = y at h1
    obtain ⟨x1, R1⟩ := x
    obtain ⟨y1, R2⟩ := y
    rcases h1 with ⟨g1, g2⟩ | ⟨g1, g2⟩
    · dsimp only at g1 g2
      subst g1
      have h2 := ih g2
      rcases x1 with e | v
      · cases e with
        | exn e =>
          rcases h2 with ⟨k1, k2⟩ | h2
          · exact .inl ⟨by dsimp only; rw [k1], k2⟩
          · exact .inr h2
        | terminate => exact .inl ⟨rfl, g2⟩
        | ub => exact .inl ⟨rfl, g2⟩
        | fuel => exact .inl ⟨rfl, g2⟩
      · rcases h2 with ⟨k1, k2⟩ | h2
        · exact .inl ⟨by dsimp only; rw [k1], k2⟩
        · exact .inr h2
    · right
      refine ⟨g1, ?_⟩
      rcases x1 with e | v
      · cases e with
        | exn e => exact run_dead ops g2
        | terminate => exact g2
        | ub => exact g2
        | fuel => exact g2
      · exact run_dead ops g2

/-! ## Opening -/

theorem ok_bind'' {α β : Type} (a : α) (g : α → Res β) : ((.ok a : Res α) >>= g) = g a := rfl


theorem checkHeaderRead_agree (hA : Agree E S₁ S₂ Q) (cfg : Cfg) {s₁ : σ₁} {s₂ : σ₂} (hQ : Q s₁ s₂) :
    match checkHeaderRead cfg S₁ s₁ with
    | .ok (b, s₁') => ∃ s₂', checkHeaderRead cfg S₂ s₂ = .ok (b, s₂') ∧ Q s₁' s₂' ∧ b.size = 288 ∧ b.size ≤ b.mem.length
    | .error e => E ∨ checkHeaderRead cfg S₂ s₂ = .error e := by
  unfold checkHeaderRead
  rcases readStream_agree hA cfg (b := Buf.empty) (by simp [Buf.empty]) hQ 288 (off := 0) (by omega) (by omega) with
    ⟨r, b', s1', s2', g1, g2, g3, gs, g4, g5⟩ | ⟨b1, s1', g1, g2⟩
  · rw [g1, g2]
    rcases r with e | (_ | _)
    · exact .inr rfl
    · exact absurd rfl g3
    · exact ⟨s2', rfl, g5, gs rfl, g4⟩
  · rw [g1]
    rcases g2 with h | ⟨b2, s2', g2, -⟩
    · exact .inl h
    · rw [g2]
      exact .inr rfl

theorem headerRest_agree (hA : Agree E S₁ S₂ Q) (cfg : Cfg) (al : Align) {b : Buf} (hb : b.size ≤ b.mem.length)
    (h288 : 288 ≤ b.size) {s₁ : σ₁} {s₂ : σ₂} (hQ : Q s₁ s₂) :
    match setHeaderLengthAndRead cfg S₁ al b s₁ with
    | .ok (hl, b', s₁') => ∃ s₂', setHeaderLengthAndRead cfg S₂ al b s₂ = .ok (hl, b', s₂') ∧ Q s₁' s₂' ∧ b'.size ≤ b'.mem.length
    | .error e => E ∨ setHeaderLengthAndRead cfg S₂ al b s₂ = .error e := by
  unfold setHeaderLengthAndRead
  obtain ⟨k, hk⟩ : ∃ k : Nat, k = 288 := ⟨_, rfl⟩
  simp only [← hk] at h288 ⊢
  have hk' : k < 2 ^ 63 := by omega
  clear hk
  cases b.getU32 cfg al.endian (196 + al.align1) with
  | error e => exact .inr rfl
  | ok hl =>
    simp only [ok_bind'']
    cases fmtAssert cfg (k ≤ hl) with
    | error e => exact .inr rfl
    | ok u =>
      simp only [ok_bind'']
      rcases readStream_agree hA cfg hb hQ (sub64 hl k) hk' h288 with
        ⟨r, b', s1', s2', g1, g2, g3, gs, g4, g5⟩ | ⟨b1, s1', g1, g2⟩
      · rw [g1, g2]
        rcases r with e | (_ | _)
        · exact .inr rfl
        · exact absurd rfl g3
        · exact ⟨s2', rfl, g5, g4⟩
      · rw [g1]
        rcases g2 with h | ⟨b2, s2', g2, -⟩
        · exact .inl h
        · rw [g2]
          exact .inr rfl

theorem readHeader_agree (hA : Agree E S₁ S₂ Q) (cfg : Cfg) {s₁ : σ₁} {s₂ : σ₂} (hQ : Q s₁ s₂) :
    match readHeader cfg S₁ s₁ with
    | .ok (h, b, s₁') => ∃ s₂', readHeader cfg S₂ s₂ = .ok (h, b, s₂') ∧ Q s₁' s₂' ∧ b.size ≤ b.mem.length
    | .error e => E ∨ readHeader cfg S₂ s₂ = .error e := by
  unfold readHeader
  have h1 := checkHeaderRead_agree hA cfg hQ
  generalize checkHeaderRead cfg S₁ s₁ = x at h1
  rcases x with e | ⟨b, s1⟩
  · rcases h1 with h1 | h1
    · exact .inl h1
    · rw [h1]
      exact .inr rfl
  · obtain ⟨s2, g1, g2, g3, g4⟩ := h1
    rw [g1]
    simp only [ok_bind'']
    cases checkMagic cfg b with
    | error e => exact .inr rfl
    | ok u =>
      simp only [ok_bind'']
      cases setAligns cfg b with
      | error e => exact .inr rfl
      | ok al =>
        simp only [ok_bind'']
        have h2 := headerRest_agree hA cfg al g4 (Nat.le_of_eq g3.symm) g2
        generalize setHeaderLengthAndRead cfg S₁ al b s1 = x at h2
        rcases x with e | ⟨hl, b', s1'⟩
        · rcases h2 with h2 | h2
          · exact .inl h2
          · rw [h2]
            exact .inr rfl
        · obtain ⟨s2', k1, k2, k3⟩ := h2
          rw [k1]
          simp only [ok_bind'']
          cases setHeader cfg al hl b' with
          | error e => exact .inr rfl
          | ok h =>
            simp only [ok_bind'']
            cases logHeader cfg h with
            | error e => exact .inr rfl
            | ok u => exact ⟨s2', rfl, k2, k3⟩

theorem columnText_dataSubs {env : Env} {b : Buf} {acc acc' : Acc} {o : Nat} (h : processColumnText env b acc o = .ok acc') :
    acc'.dataSubs = acc.dataSubs := by
  unfold processColumnText at h
  obtain ⟨len, -, h⟩ := bind_ok_inv h
  obtain ⟨text, -, h⟩ := bind_ok_inv h
  dsimp only at h
  split at h
  · obtain ⟨c, -, h⟩ := bind_ok_inv h
    generalize (if containsSub rleLiteral text = true then { acc.md with compression := .rle }
      else if containsSub rdcLiteral text = true then { acc.md with compression := .rdc } else acc.md) = md at h
    split at h
    · obtain ⟨_, -, h⟩ := bind_ok_inv h
      cases h
      rfl
    · split at h
      · obtain ⟨_, -, h⟩ := bind_ok_inv h
        cases h
        rfl
      · split at h
        · obtain ⟨_, -, h⟩ := bind_ok_inv h
          cases h
          rfl
        · cases h
          rfl
  · cases h
    rfl

/-- A subheader that does not end the metadata adds no row. -/
theorem subheader_dataSubs {env : Env} {b : Buf} {acc acc' : Acc} {s : PageSub}
    (h : processSubheader env b acc s = .ok (acc', false)) : acc'.dataSubs = acc.dataSubs := by
  unfold processSubheader at h
  obtain ⟨sig, -, h⟩ := bind_ok_inv h
  cases hc : classify env.format sig with
  | rowSize => rw [hc] at h; obtain ⟨md, -, h⟩ := bind_ok_inv h; cases h; rfl
  | columnSize => rw [hc] at h; obtain ⟨md, -, h⟩ := bind_ok_inv h; cases h; rfl
  | counts => rw [hc] at h; cases h; rfl
  | columnText => rw [hc] at h; obtain ⟨a, ha, h⟩ := bind_ok_inv h; cases h; exact columnText_dataSubs ha
  | columnName =>
    rw [hc] at h; obtain ⟨a, ha, h⟩ := bind_ok_inv h; cases h
    unfold processColumnName at ha
    obtain ⟨n, -, ha⟩ := bind_ok_inv ha; cases ha; rfl
  | columnAttributes =>
    rw [hc] at h; obtain ⟨a, ha, h⟩ := bind_ok_inv h; cases h
    unfold processColumnAttributes at ha
    obtain ⟨n, -, ha⟩ := bind_ok_inv ha; cases ha; rfl
  | formatAndLabel =>
    rw [hc] at h; obtain ⟨a, ha, h⟩ := bind_ok_inv h; cases h
    unfold processFormatAndLabel at ha
    dsimp only at ha
    obtain ⟨_, -, ha⟩ := bind_ok_inv ha
    obtain ⟨_, -, ha⟩ := bind_ok_inv ha
    obtain ⟨_, -, ha⟩ := bind_ok_inv ha
    obtain ⟨_, -, ha⟩ := bind_ok_inv ha
    obtain ⟨_, -, ha⟩ := bind_ok_inv ha
    obtain ⟨_, -, ha⟩ := bind_ok_inv ha
    obtain ⟨_, -, ha⟩ := bind_ok_inv ha
    cases ha; rfl
  | columnList => rw [hc] at h; cases h; rfl
  | other =>
    rw [hc] at h
    dsimp only at h
    split at h
    · cases h
    · cases h; rfl

theorem subs_dataSubs {env : Env} {b : Buf} : ∀ (k i : Nat) (a a' : Acc × Bool),
    processSubs env b (fun (a : Acc × Bool) s => do
      let (acc', reached) ← processSubheader env b a.1 s
      return (acc', a.2 || reached)) k i a = .ok a' →
    (a.2 = false → a.1.dataSubs = []) → a'.2 = false → a'.1.dataSubs = [] := by
  intro k
  induction k with
  | zero => intro i a a' h h1 h2; cases h; exact h1 h2
  | succ k ih =>
    intro i a a' h h1 h2
    unfold processSubs at h
    obtain ⟨s, -, h⟩ := bind_ok_inv h
    dsimp only at h
    split at h
    · exact ih _ _ _ h h1 h2
    split at h
    · exact ih _ _ _ h h1 h2
    · obtain ⟨a1, ha, h⟩ := bind_ok_inv h
      refine ih _ _ _ h ?_ h2
      intro h3
      obtain ⟨⟨acc', r⟩, hp, ha⟩ := bind_ok_inv ha
      cases ha
      simp only [Bool.or_eq_false_iff] at h3
      obtain ⟨h4, h5⟩ := h3
      subst h5
      dsimp only
      rw [subheader_dataSubs hp]
      exact h1 h4

theorem page_dataSubs {env : Env} {b : Buf} {hd : PageHdr} {acc acc' : Acc} (h : processPage env b hd acc = .ok (acc', false))
    (ha : acc.dataSubs = []) : acc'.dataSubs = [] := by
  unfold processPage at h
  dsimp only at h
  split at h
  · obtain ⟨⟨a1, r⟩, hp, h⟩ := bind_ok_inv h
    simp only [pure, Except.pure, Except.ok.injEq, Prod.mk.injEq, Bool.or_eq_false_iff] at h
    obtain ⟨rfl, -, rfl⟩ := h
    exact subs_dataSubs _ _ _ _ hp (fun _ => ha) rfl
  · simp only [ok_bind'', pure, Except.pure, Except.ok.injEq, Prod.mk.injEq] at h
    rw [← h.1]
    exact ha

/-- The metadata on two sources: the same error; the same state; the end of both sources; or the first one has failed. -/
theorem metaLoop_agree (hA : Agree E S₁ S₂ Q) (env : Env) : ∀ (n : Nat) (p₁ : PState σ₁) (p₂ : PState σ₂) (acc : Acc),
    PRel Q p₁ p₂ → acc.dataSubs = [] →
    match metaLoop env S₁ n p₁ acc with
    | .error e => E ∨ metaLoop env S₂ n p₂ acc = .error e
    | .ok (p₁', acc') => (∃ p₂', metaLoop env S₂ n p₂ acc = .ok (p₂', acc') ∧ PRel Q p₁' p₂') ∨
        (p₁'.hdr = PageHdr.reset ∧ acc'.dataSubs = [] ∧
          (E ∨ ∃ p₂', metaLoop env S₂ n p₂ acc = .ok (p₂', acc') ∧ p₂'.hdr = PageHdr.reset)) := by
  intro n
  induction n with
  | zero => exact fun _ _ _ _ _ => .inr rfl
  | succ n ih =>
    intro p₁ p₂ acc hp ha
    unfold metaLoop
    have h1 := readPage_agree hA env hp
    generalize readPage env S₁ p₁ = x at h1
    generalize readPage env S₂ p₂ = y at h1
    obtain ⟨x1, q1⟩ := x
    obtain ⟨y1, q2⟩ := y
    dsimp only at h1
    rcases h1 with ⟨rfl, g⟩ | ⟨g1, g2, g3⟩
    · rcases x1 with e | (_ | _)
      · exact .inr rfl
      · exact .inl ⟨q2, rfl, g⟩
      · dsimp only
        rw [← g.buf, ← g.hdr]
        rcases hpp : processPage env q1.buf q1.hdr acc with e | ⟨acc', stop⟩
        · exact .inr rfl
        · simp only [ok_bind'']
          cases stop with
          | true => exact .inl ⟨q2, rfl, g⟩
          | false => exact ih q1 q2 acc' g (page_dataSubs hpp ha)
    · rcases g3 with g3 | ⟨rfl, g4⟩
      · rcases x1 with e | (_ | _)
        · exact .inl g3
        · exact .inr ⟨g2, ha, .inl g3⟩
        · exact absurd rfl g1
      · rcases y1 with e | (_ | _)
        · exact .inr rfl
        · exact .inr ⟨g2, ha, .inr ⟨q2, rfl, g4⟩⟩
        · exact absurd rfl g1

theorem build_dead {σ : Type} {env : Env} {p : PState σ} {acc : Acc} (hp : p.hdr = PageHdr.reset) (ha : acc.dataSubs = []) :
    RD.build env p acc = (buildDst env.cfg acc.md).map fun dst => ⟨p, none, 0, dst⟩ := by
  have : buildPage env acc.md p.buf p.hdr = .ok none := by
    rw [hp]
    rfl
  unfold RD.build
  cases buildDst env.cfg acc.md with
  | error e => rfl
  | ok dst =>
    simp only [ok_bind'', ha, List.isEmpty_nil, if_true, this]
    rfl

/-- Opening on two sources. -/
theorem open_agree (hA : Agree E S₁ S₂ Q) (cfg : Cfg) (fuel : Nat) (filter : Option Filter) {s₁ : σ₁} {s₂ : σ₂} (hQ : Q s₁ s₂) :
    match openReader cfg S₁ fuel filter s₁ with
    | .error e => E ∨ openReader cfg S₂ fuel filter s₂ = .error e
    | .ok R₁ => (∃ R₂, openReader cfg S₂ fuel filter s₂ = .ok R₂ ∧ ReRel Q R₁ R₂) ∨ (E ∧ R₁.rd.page = none) := by
  unfold openReader
  have h1 := readHeader_agree hA cfg hQ
  generalize readHeader cfg S₁ s₁ = x at h1
  rcases x with e | ⟨h, b, s1⟩
  · rcases h1 with h1 | h1
    · exact .inl h1
    · rw [h1]
      exact .inr rfl
  · obtain ⟨s2, g1, g2, g3⟩ := h1
    rw [g1]
    simp only [ok_bind'']
    have h2 := metaLoop_agree hA { cfg := cfg, endian := h.endian, format := h.format, pageLength := h.pageLength, fuel := fuel }
      fuel ⟨s1, b, PageHdr.reset⟩ ⟨s2, b, PageHdr.reset⟩ {} ⟨rfl, rfl, g2, g3⟩ rfl
    generalize metaLoop { cfg := cfg, endian := h.endian, format := h.format, pageLength := h.pageLength, fuel := fuel }
      S₁ fuel ⟨s1, b, PageHdr.reset⟩ {} = x at h2
    rcases x with e | ⟨p1, acc⟩
    · rcases h2 with h2 | h2
      · exact .inl h2
      · rw [h2]
        exact .inr rfl
    · rcases h2 with ⟨p2, k1, k2⟩ | ⟨k1, k2, k3⟩
      · rw [k1]
        simp only [ok_bind'']
        cases createColumns cfg h.endian acc filter with
        | error e => exact .inr rfl
        | ok columns =>
          simp only [ok_bind'']
          unfold RD.build
          cases buildDst cfg acc.md with
          | error e => exact .inr rfl
          | ok dst =>
            simp only [ok_bind'']
            cases acc.dataSubs.isEmpty
            case true =>
              simp only [if_true]
              rw [← k2.buf, ← k2.hdr]
              cases buildPage { cfg := cfg, endian := h.endian, format := h.format, pageLength := h.pageLength, fuel := fuel }
                acc.md p1.buf p1.hdr with
              | error e => exact .inr rfl
              | ok page => exact .inl ⟨_, rfl, rfl, rfl, rfl, rfl, .inr ⟨rfl, rfl, k2⟩⟩
            case false => exact .inl ⟨_, rfl, rfl, rfl, rfl, rfl, .inr ⟨rfl, rfl, k2⟩⟩
      · simp only [ok_bind'']
        rcases k3 with k3 | ⟨p2, k4, k5⟩
        · cases createColumns cfg h.endian acc filter with
          | error e => exact .inl k3
          | ok columns =>
            simp only [ok_bind'']
            rw [build_dead k1 k2]
            cases buildDst cfg acc.md with
            | error e => exact .inl k3
            | ok dst => exact .inr ⟨k3, rfl⟩
        · rw [k4]
          simp only [ok_bind'']
          cases createColumns cfg h.endian acc filter with
          | error e => exact .inr rfl
          | ok columns =>
            simp only [ok_bind'']
            rw [build_dead k1 k2, build_dead k5 k2]
            cases buildDst cfg acc.md with
            | error e => exact .inr rfl
            | ok dst => exact .inl ⟨_, rfl, rfl, rfl, rfl, rfl, .inl ⟨rfl, rfl⟩⟩

/-! ## The end of the source before the last row -/

/-- A reader that has used up its source has not read its last row. -/
def Starved (md : Meta) (r : RD σ₁) : Prop := r.page = none → r.row ≠ md.rowCount

theorem nextPageLoop_row (env : Env) (md : Meta) : ∀ (n : Nat) (r : RD σ₁), (nextPageLoop env S₁ md n r).2.row = r.row := by
  intro n
  induction n with
  | zero => exact fun _ => rfl
  | succ n ih =>
    intro r
    unfold nextPageLoop
    rcases readPage env S₁ r.p with ⟨(e | (_ | _)), p⟩
    · rfl
    · rfl
    · dsimp only
      rcases buildPage env md p.buf p.hdr with e | (_ | pg)
      · rfl
      · exact ih _
      · rfl

theorem next_starved (env : Env) {md : Meta} {r : RD σ₁} (h : Starved md r) : Starved md (r.next env S₁ md).2 := by
  unfold RD.next
  split
  · exact h
  · rename_i hne
    split
    · exact h
    · split
      · intro _
        rw [readNextPage, nextPageLoop_row]
        exact hne
      · exact h

theorem takeLine_starved {md : Meta} {r : RD σ₁} (h : Starved md r) : Starved md r.takeLine.2 := by
  unfold RD.takeLine
  split
  · exact h
  · split
    · exact h
    · intro h'
      cases h'

theorem extract_starved (env : Env) {md : Meta} (off len : Nat) {r : RD σ₁} (h : Starved md r) :
    Starved md (r.extract env md off len).2 := by
  have hd : ∀ mem src, Starved md (r.decompress env md mem src).2 := by
    intro mem src
    unfold RD.decompress
    split
    · exact h
    · exact h
    · exact h
  unfold RD.extract
  split
  · exact h
  · split
    · exact h
    · split
      · exact hd _ _
      · exact h

theorem readLine_starved (env : Env) {md : Meta} {r : RD σ₁} (h : Starved md r) : Starved md (r.readLine env S₁ md).2 := by
  unfold RD.readLine
  have h1 := next_starved (S₁ := S₁) env h
  generalize r.next env S₁ md = x at h1 ⊢
  rcases x with ⟨(e | (_ | _)), r1⟩
  · exact h1
  · exact h1
  · dsimp only at h1 ⊢
    have h2 := takeLine_starved h1
    generalize r1.takeLine = x at h2 ⊢
    rcases x with ⟨(e | ⟨off, len⟩), r2⟩
    · exact h2
    · dsimp only at h2 ⊢
      have h3 := extract_starved env off len h2
      generalize r2.extract env md off len = x at h3 ⊢
      rcases x with ⟨(e | x), r3⟩
      · exact h3
      · exact h3

theorem skip_starved (env : Env) {md : Meta} : ∀ (n : Nat) {r : RD σ₁}, Starved md r → Starved md (r.skip env S₁ md n).2 := by
  intro n
  induction n with
  | zero => exact fun h => h
  | succ n ih =>
    intro r h
    unfold RD.skip
    have h1 := next_starved (S₁ := S₁) env h
    generalize r.next env S₁ md = x at h1 ⊢
    rcases x with ⟨(e | (_ | _)), r1⟩
    · exact h1
    · exact h1
    · dsimp only at h1 ⊢
      have h2 := takeLine_starved h1
      generalize r1.takeLine = x at h2 ⊢
      rcases x with ⟨(e | ol), r2⟩
      · exact h2
      · exact ih h2

theorem readRow_starved {R : Reader σ₁} (h : Starved R.props.md R.rd) :
    Starved (R.readRow S₁).2.props.md (R.readRow S₁).2.rd := by
  unfold Reader.readRow
  have h1 := readLine_starved (S₁ := S₁) R.env h
  generalize R.rd.readLine R.env S₁ R.props.md = x at h1 ⊢
  rcases x with ⟨(e | (_ | row)), r⟩ <;> exact h1

theorem readRows_starved : ∀ (n : Nat) {R : Reader σ₁}, Starved R.props.md R.rd →
    Starved (R.readRows S₁ n).2.props.md (R.readRows S₁ n).2.rd := by
  intro n
  induction n with
  | zero => exact fun h => h
  | succ n ih =>
    intro R h
    unfold Reader.readRows
    have h1 := readRow_starved (S₁ := S₁) h
    generalize R.readRow S₁ = x at h1 ⊢
    rcases x with ⟨(e | (_ | _)), R1⟩
    · exact h1
    · exact h1
    · exact ih h1

theorem readAllLoop_starved : ∀ (n : Nat) {R : Reader σ₁}, Starved R.props.md R.rd →
    Starved (R.readAllLoop S₁ n).2.props.md (R.readAllLoop S₁ n).2.rd := by
  intro n
  induction n with
  | zero => exact fun h => h
  | succ n ih =>
    intro R h
    unfold Reader.readAllLoop
    have h1 := readRow_starved (S₁ := S₁) h
    generalize R.readRow S₁ = x at h1 ⊢
    rcases x with ⟨(e | (_ | _)), R1⟩
    · exact h1
    · exact h1
    · exact ih h1

theorem step_starved {R : Reader σ₁} (h : Starved R.props.md R.rd) (op : Op) :
    Starved (R.step S₁ op).2.props.md (R.step S₁ op).2.rd := by
  cases op with
  | readRow => exact readRow_starved h
  | readRows n => exact readRows_starved n h
  | readAll =>
    have := readAllLoop_starved (S₁ := S₁) (R.props.md.rowCount - R.rd.row + 1) h
    exact this
  | skip n =>
    have := skip_starved (S₁ := S₁) R.env n h
    show Starved (R.skip S₁ n).2.props.md (R.skip S₁ n).2.rd
    unfold Reader.skip
    generalize R.rd.skip R.env S₁ R.props.md n = x at this ⊢
    rcases x with ⟨(e | (_ | _)), r⟩ <;> exact this
  | readRowNoSink =>
    have := readLine_starved (S₁ := S₁) R.env h
    exact this
  | endOfData => exact h

theorem run_starved (ops : List Op) {R : Reader σ₁} (h : Starved R.props.md R.rd) :
    Starved (R.run S₁ ops).2.props.md (R.run S₁ ops).2.rd :=
  Reader.run_induct (P := fun R => Starved R.props.md R.rd) (fun _ op h => step_starved h op) ops R h

end Sas.Proofs
