import Verif.Model.Reader
import Verif.Proofs.Rdc

/-! Frame and progress lemmas for `READ_DATA`, on an arbitrary data source. -/

namespace Sas

variable {σ : Type} (env : Env) (S : Source σ) (md : Meta)

/-- The page can deliver its current row. -/
def Page.Ready (pg : Page) : Prop :=
  match pg.kind with
  | .metaP subs => pg.cur < subs.length
  | _ => True

/-- The page position is inside the page or just after it. -/
def Page.Ok (pg : Page) : Prop :=
  match pg.kind with
  | .metaP subs => pg.cur ≤ subs.length
  | _ => True

theorem Page.Ready.readLine {pg : Page} (h : pg.Ready) : ∃ ol, pg.readLine = .ok ol := by
  unfold Page.Ready at h; unfold Page.readLine
  cases hk : pg.kind with
  | metaP subs =>
    simp only [hk] at h ⊢
    rw [List.getElem?_eq_getElem h]
    exact ⟨_, rfl⟩
  | dataP a b c => exact ⟨_, rfl⟩
  | mixP a b c => exact ⟨_, rfl⟩

theorem Page.Ready.next {pg : Page} (h : pg.Ready) : ({ pg with cur := pg.cur + 1 } : Page).Ok := by
  unfold Page.Ready at h; unfold Page.Ok
  cases hk : pg.kind <;> simp only [hk] at h ⊢
  exact h

theorem Page.Ok.ready {pg : Page} (h : pg.Ok) (hn : pg.next = false) : pg.Ready := by
  unfold Page.Ok at h; unfold Page.next at hn; unfold Page.Ready
  cases hk : pg.kind with
  | metaP subs =>
    simp only [hk] at h hn ⊢
    have : pg.cur ≠ subs.length := by simpa using hn
    omega
  | dataP a b c => trivial
  | mixP a b c => trivial

theorem buildPage_ready {b : Buf} {h : PageHdr} {pg : Page}
    (hb : buildPage env md b h = .ok (some pg)) : pg.Ready ∧ pg.cur = 0 := by
  unfold buildPage at hb
  split at hb
  · simp only [bind, Except.bind, pure, Except.pure] at hb
    split at hb
    · cases hb
    · rename_i subs _
      split at hb
      · cases hb
      · rename_i hne
        simp only [Except.ok.injEq, Option.some.injEq] at hb
        subst hb
        refine ⟨?_, rfl⟩
        unfold Page.Ready
        simp only
        cases subs with
        | nil => simp at hne
        | cons a l => simp
  · split at hb
    · simp only [Except.ok.injEq, Option.some.injEq] at hb
      subst hb; exact ⟨trivial, rfl⟩
    · split at hb
      · simp only [Except.ok.injEq, Option.some.injEq] at hb
        subst hb; exact ⟨trivial, rfl⟩
      · cases hb

/-- What `read_next_page` leaves behind. -/
theorem nextPageLoop_spec (n : Nat) : ∀ r : RD σ,
    (nextPageLoop env S md n r).2.row = r.row ∧ (nextPageLoop env S md n r).2.dst = r.dst ∧
    (if (nextPageLoop env S md n r).1 = .ok true then
      ∃ pg, (nextPageLoop env S md n r).2.page = some pg ∧ pg.Ready
     else (nextPageLoop env S md n r).2.page = r.page) := by
  induction n with
  | zero => intro r; exact ⟨rfl, rfl, by simp [nextPageLoop]⟩
  | succ n ih =>
    intro r
    unfold nextPageLoop
    cases hr : readPage env S r.p with
    | mk x p =>
      cases x with
      | error e => exact ⟨rfl, rfl, by simp⟩
      | ok b =>
        cases b with
        | false => exact ⟨rfl, rfl, by simp⟩
        | true =>
          simp only
          cases hb : buildPage env md p.buf p.hdr with
          | error e => exact ⟨rfl, rfl, by simp⟩
          | ok o =>
            cases o with
            | none => exact ih { r with p := p }
            | some pg =>
              exact ⟨rfl, rfl, by simpa using (buildPage_ready env md hb).1⟩

/-- The state in which no further row will be delivered. -/
def RD.Ended (r : RD σ) : Prop := r.row = md.rowCount ∨ r.page = none

/-- Invariant of `READ_DATA`. -/
structure RD.Inv (r : RD σ) : Prop where
  row : r.row ≤ md.rowCount
  page : ∀ pg, r.page = some pg → pg.Ok

theorem RD.next_spec (r : RD σ) (h : r.Inv md) :
    (r.next env S md).2.row = r.row ∧ (r.next env S md).2.dst = r.dst ∧
    (r.next env S md).2.Inv md ∧
    (if (r.next env S md).1 = .ok true then
      r.row < md.rowCount ∧ ∃ pg, (r.next env S md).2.page = some pg ∧ pg.Ready
     else (r.next env S md).2.Ended md) := by
  unfold RD.next
  by_cases hr : r.row = md.rowCount
  · rw [if_pos hr]; exact ⟨rfl, rfl, h, by simp [RD.Ended, hr]⟩
  · rw [if_neg hr]
    have hlt : r.row < md.rowCount := by have := h.row; omega
    cases hp : r.page with
    | none => exact ⟨rfl, rfl, h, by simp [RD.Ended, hp]⟩
    | some pg =>
      simp only
      cases hn : pg.next with
      | false =>
        refine ⟨rfl, rfl, h, ?_⟩
        simp only [Bool.false_eq_true, if_false, if_true]
        exact ⟨hlt, pg, hp, (h.page pg hp).ready hn⟩
      | true =>
        simp only [if_true]
        unfold readNextPage
        obtain ⟨h1, h2, h3⟩ := nextPageLoop_spec env S md env.fuel { r with page := none }
        generalize nextPageLoop env S md env.fuel { r with page := none } = x at *
        obtain ⟨res, r'⟩ := x
        simp only at h1 h2 h3 ⊢
        refine ⟨h1, h2, ⟨by omega, ?_⟩, ?_⟩
        · intro pg' hpg
          split at h3
          · obtain ⟨pg'', h4, h5⟩ := h3
            rw [h4] at hpg
            cases hpg
            unfold Page.Ready at h5; unfold Page.Ok
            cases hk : pg'.kind <;> simp only [hk] at h5 ⊢
            omega
          · rw [h3] at hpg; cases hpg
        · split at h3
          · rename_i hres; rw [if_pos hres]; exact ⟨hlt, h3⟩
          · rename_i hres; rw [if_neg hres]; exact Or.inr h3

theorem RD.next_ended (r : RD σ) (h : r.Ended md) : r.next env S md = (.ok false, r) := by
  unfold RD.next
  rcases h with h | h
  · rw [if_pos h]
  · by_cases hr : r.row = md.rowCount
    · rw [if_pos hr]
    · rw [if_neg hr, h]

/-- `next` and `_read_line` together: the way both `read_line` and `skip` move forward. -/
def RD.advance (r : RD σ) : Res (Option (Nat × Nat)) × RD σ :=
  match r.next env S md with
  | (.error e, r) => (.error e, r)
  | (.ok false, r) => (.ok none, r)
  | (.ok true, r) =>
    match r.takeLine with
    | (.error e, r) => (.error e, r)
    | (.ok ol, r) => (.ok (some ol), r)

theorem RD.readLine_eq (r : RD σ) : r.readLine env S md =
    match r.advance env S md with
    | (.error e, r) => (.error e, r)
    | (.ok none, r) => (.ok none, r)
    | (.ok (some ol), r) =>
      match r.extract env md ol.1 ol.2 with
      | (.error e, r) => (.error e, r)
      | (.ok row, r) => (.ok (some row), r) := by
  unfold RD.readLine RD.advance
  cases r.next env S md with
  | mk x r1 =>
    cases x with
    | error e => rfl
    | ok b =>
      cases b with
      | false => rfl
      | true =>
        simp only
        cases r1.takeLine with
        | mk y r2 =>
          cases y with
          | error e => rfl
          | ok ol => rfl

theorem RD.skip_succ_eq (n : Nat) (r : RD σ) : r.skip env S md (n + 1) =
    match r.advance env S md with
    | (.error e, r) => (.error e, r)
    | (.ok none, r) => (.ok false, r)
    | (.ok (some _), r) => r.skip env S md n := by
  rw [RD.skip]
  unfold RD.advance
  cases r.next env S md with
  | mk x r1 =>
    cases x with
    | error e => rfl
    | ok b =>
      cases b with
      | false => rfl
      | true =>
        simp only
        cases r1.takeLine with
        | mk y r2 =>
          cases y with
          | error e => rfl
          | ok ol => rfl

/-- The three outcomes of an advance. -/
theorem RD.advance_spec (r : RD σ) (h : r.Inv md) :
    (r.advance env S md).2.dst = r.dst ∧ (r.advance env S md).2.Inv md ∧
    (match (r.advance env S md).1 with
     | .ok (some _) => (r.advance env S md).2.row = r.row + 1
     | _ => (r.advance env S md).2.row = r.row ∧ (r.advance env S md).2.Ended md) := by
  obtain ⟨h1, h2, h3, h4⟩ := RD.next_spec env S md r h
  unfold RD.advance
  generalize r.next env S md = x at *
  obtain ⟨res, r1⟩ := x
  simp only at h1 h2 h3 h4 ⊢
  cases res with
  | error e =>
    rw [if_neg (by simp)] at h4
    exact ⟨h2, h3, h1, h4⟩
  | ok b =>
    cases b with
    | false =>
      rw [if_neg (by simp)] at h4
      exact ⟨h2, h3, h1, h4⟩
    | true =>
      rw [if_pos rfl] at h4
      obtain ⟨hlt, pg, hpg, hrdy⟩ := h4
      obtain ⟨ol, hol⟩ := hrdy.readLine
      simp only [RD.takeLine, hpg, hol]
      refine ⟨h2, ⟨by simp only; omega, ?_⟩, by omega⟩
      intro pg' hp
      simp only [Option.some.injEq] at hp
      subst hp
      exact hrdy.next

/-- A successful advance needs a row to be left. -/
theorem RD.advance_lt (r : RD σ) (h : r.Inv md) {ol : Nat × Nat} {r' : RD σ}
    (ha : r.advance env S md = (.ok (some ol), r')) : r.row < md.rowCount := by
  have h1 := RD.advance_spec env S md r h
  rw [ha] at h1
  have h2 := h1.2.1.row
  have h3 := h1.2.2
  simp only at h2 h3
  omega

theorem RD.advance_ended (r : RD σ) (h : r.Ended md) : r.advance env S md = (.ok none, r) := by
  unfold RD.advance
  rw [RD.next_ended env S md r h]

theorem RD.skip_ended (n : Nat) (r : RD σ) (h : r.Ended md) :
    r.skip env S md (n + 1) = (.ok false, r) := by
  rw [RD.skip_succ_eq, RD.advance_ended env S md r h]

theorem RD.readLine_ended (r : RD σ) (h : r.Ended md) : r.readLine env S md = (.ok none, r) := by
  rw [RD.readLine_eq, RD.advance_ended env S md r h]

/-- Extracting the row values only touches the decompressor's buffer. -/
theorem RD.extract_frame (r : RD σ) (off len : Nat) :
    (r.extract env md off len).2 = { r with dst := (r.extract env md off len).2.dst } ∧
    (r.extract env md off len).2.dst.length = r.dst.length := by
  unfold RD.extract
  cases fmtAssert env.cfg (w64 (off + len) ≤ env.pageLength) with
  | error e => exact ⟨rfl, rfl⟩
  | ok u =>
    simp only
    cases r.p.buf.rd env.cfg off len with
    | error e => exact ⟨rfl, rfl⟩
    | ok values =>
      simp only
      split
      · unfold RD.decompress
        cases md.compression with
        | none => exact ⟨rfl, rfl⟩
        | rle => exact ⟨rfl, (rle_sim values (dst := r.dst) rfl).2.2⟩
        | rdc => exact ⟨rfl, (rdc_sim env.cfg values (dst := r.dst) rfl).2.2⟩
      · exact ⟨rfl, rfl⟩

/-- Equal up to what earlier rows left in the decompressor's buffer. -/
def RD.Sim (r r' : RD σ) : Prop := r' = { r with dst := r'.dst } ∧ r'.dst.length = r.dst.length

theorem RD.Sim.refl (r : RD σ) : RD.Sim r r := ⟨rfl, rfl⟩

theorem RD.Sim.symm {r r' : RD σ} (h : RD.Sim r r') : RD.Sim r' r := by
  obtain ⟨h1, h2⟩ := h
  refine ⟨?_, h2.symm⟩
  rw [h1]

theorem RD.Sim.trans {r r' r'' : RD σ} (h : RD.Sim r r') (h' : RD.Sim r' r'') : RD.Sim r r'' := by
  obtain ⟨h1, h2⟩ := h
  obtain ⟨h3, h4⟩ := h'
  refine ⟨?_, h4.trans h2⟩
  rw [h3, h1]

/-- The outcome of extracting the row values does not depend on what is in the decompressor's buffer. -/
theorem RD.extract_sim {r r' : RD σ} (h : RD.Sim r r') (off len : Nat) :
    (r.extract env md off len).1 = (r'.extract env md off len).1 := by
  obtain ⟨h1, h2⟩ := h
  rw [h1]
  unfold RD.extract
  cases fmtAssert env.cfg (w64 (off + len) ≤ env.pageLength) with
  | error e => rfl
  | ok u =>
    simp only
    cases r.p.buf.rd env.cfg off len with
    | error e => rfl
    | ok values =>
      simp only
      split
      · unfold RD.decompress
        cases md.compression with
        | none => rfl
        | rle => simp only [(rle_sim values h2.symm).1]
        | rdc => simp only [(rdc_sim env.cfg values h2.symm).1]
      · rfl

theorem RD.extract_sim_state {r r' : RD σ} (h : RD.Sim r r') (off len off' len' : Nat) :
    RD.Sim (r.extract env md off len).2 (r'.extract env md off' len').2 := by
  have a := RD.extract_frame env md r off len
  have b := RD.extract_frame env md r' off' len'
  have ha : RD.Sim r (r.extract env md off len).2 := a
  have hb : RD.Sim r' (r'.extract env md off' len').2 := b
  exact (ha.symm.trans h).trans hb

theorem nextPageLoop_dst (n : Nat) : ∀ (r : RD σ) (d : List Byte),
    nextPageLoop env S md n { r with dst := d } =
      ((nextPageLoop env S md n r).1, { (nextPageLoop env S md n r).2 with dst := d }) := by
  induction n with
  | zero => intro r d; rfl
  | succ n ih =>
    intro r d
    unfold nextPageLoop
    cases hr : readPage env S r.p with
    | mk x p =>
      cases x with
      | error e => simp
      | ok b =>
        cases b with
        | false => simp
        | true =>
          simp only
          cases hb : buildPage env md p.buf p.hdr with
          | error e => simp
          | ok o =>
            cases o with
            | none => exact ih { r with p := p } d
            | some pg => simp

theorem RD.next_dst (r : RD σ) (d : List Byte) :
    ({ r with dst := d } : RD σ).next env S md =
      ((r.next env S md).1, { (r.next env S md).2 with dst := d }) := by
  obtain ⟨p, page, row, d0⟩ := r
  unfold RD.next
  simp only
  split
  · rfl
  · cases page with
    | none => rfl
    | some pg =>
      simp only
      split
      · unfold readNextPage
        exact nextPageLoop_dst env S md env.fuel ⟨p, none, row, d0⟩ d
      · rfl

theorem RD.takeLine_dst (r : RD σ) (d : List Byte) :
    ({ r with dst := d } : RD σ).takeLine = (r.takeLine.1, { r.takeLine.2 with dst := d }) := by
  obtain ⟨p, page, row, d0⟩ := r
  unfold RD.takeLine
  cases page with
  | none => rfl
  | some pg =>
    simp only
    cases pg.readLine with
    | error e => rfl
    | ok ol => rfl

theorem RD.advance_dst (r : RD σ) (d : List Byte) :
    ({ r with dst := d } : RD σ).advance env S md =
      ((r.advance env S md).1, { (r.advance env S md).2 with dst := d }) := by
  unfold RD.advance
  rw [RD.next_dst]
  cases r.next env S md with
  | mk x r1 =>
    cases x with
    | error e => rfl
    | ok b =>
      cases b with
      | false => rfl
      | true =>
        simp only
        rw [RD.takeLine_dst]
        cases r1.takeLine with
        | mk y r2 =>
          cases y with
          | error e => rfl
          | ok ol => rfl

theorem nextPageLoop_keep_dst (n : Nat) (r : RD σ) : (nextPageLoop env S md n r).2.dst = r.dst :=
  (nextPageLoop_spec env S md n r).2.1

theorem RD.next_keep_dst (r : RD σ) : (r.next env S md).2.dst = r.dst := by
  have := RD.next_dst env S md r r.dst
  unfold RD.next
  split
  · rfl
  · cases hp : r.page with
    | none => rfl
    | some pg =>
      simp only
      split
      · exact nextPageLoop_keep_dst env S md env.fuel { r with page := none }
      · rfl

theorem RD.takeLine_keep_dst (r : RD σ) : r.takeLine.2.dst = r.dst := by
  unfold RD.takeLine
  cases r.page with
  | none => rfl
  | some pg =>
    simp only
    cases pg.readLine with
    | error e => rfl
    | ok ol => rfl

theorem RD.advance_keep_dst (r : RD σ) : (r.advance env S md).2.dst = r.dst := by
  unfold RD.advance
  have h := RD.next_keep_dst env S md r
  cases hn : r.next env S md with
  | mk x r1 =>
    rw [hn] at h
    cases x with
    | error e => exact h
    | ok b =>
      cases b with
      | false => exact h
      | true =>
        simp only
        have h' := RD.takeLine_keep_dst r1
        cases ht : r1.takeLine with
        | mk y r2 =>
          rw [ht] at h'
          cases y with
          | error e => exact h'.trans h
          | ok ol => exact h'.trans h

theorem RD.advance_sim {r r' : RD σ} (h : RD.Sim r r') :
    (r.advance env S md).1 = (r'.advance env S md).1 ∧
    RD.Sim (r.advance env S md).2 (r'.advance env S md).2 := by
  obtain ⟨h1, h2⟩ := h
  have e : r'.advance env S md =
      ((r.advance env S md).1, { (r.advance env S md).2 with dst := r'.dst }) := by
    conv => lhs; rw [h1]
    exact RD.advance_dst env S md r r'.dst
  rw [e]
  refine ⟨rfl, rfl, ?_⟩
  simp only [RD.advance_keep_dst]
  exact h2

theorem RD.readLine_sim {r r' : RD σ} (h : RD.Sim r r') :
    (r.readLine env S md).1 = (r'.readLine env S md).1 ∧
    RD.Sim (r.readLine env S md).2 (r'.readLine env S md).2 := by
  rw [RD.readLine_eq, RD.readLine_eq]
  obtain ⟨h1, h2⟩ := RD.advance_sim env S md h
  cases ha : r.advance env S md with
  | mk x r1 =>
    cases hb : r'.advance env S md with
    | mk y r1' =>
      rw [ha, hb] at h1 h2
      simp only at h1 h2
      subst h1
      cases x with
      | error e => exact ⟨rfl, h2⟩
      | ok o =>
        cases o with
        | none => exact ⟨rfl, h2⟩
        | some ol =>
          simp only
          have h3 := RD.extract_sim env md h2 ol.1 ol.2
          have h4 := RD.extract_sim_state env md h2 ol.1 ol.2 ol.1 ol.2
          cases hc : r1.extract env md ol.1 ol.2 with
          | mk z r2 =>
            cases hd : r1'.extract env md ol.1 ol.2 with
            | mk w r2' =>
              rw [hc, hd] at h3 h4
              simp only at h3 h4
              subst h3
              cases z with
              | error e => exact ⟨rfl, h4⟩
              | ok row => exact ⟨rfl, h4⟩

theorem RD.skip_sim (n : Nat) : ∀ {r r' : RD σ}, RD.Sim r r' →
    (r.skip env S md n).1 = (r'.skip env S md n).1 ∧
    RD.Sim (r.skip env S md n).2 (r'.skip env S md n).2 := by
  induction n with
  | zero => intro r r' h; exact ⟨rfl, h⟩
  | succ n ih =>
    intro r r' h
    rw [RD.skip_succ_eq, RD.skip_succ_eq]
    obtain ⟨h1, h2⟩ := RD.advance_sim env S md h
    cases ha : r.advance env S md with
    | mk x r1 =>
      cases hb : r'.advance env S md with
      | mk y r1' =>
        rw [ha, hb] at h1 h2
        simp only at h1 h2
        subst h1
        cases x with
        | error e => exact ⟨rfl, h2⟩
        | ok o =>
          cases o with
          | none => exact ⟨rfl, h2⟩
          | some ol => exact ih h2

/-- Outcomes of `read_line`. -/
theorem RD.readLine_spec (r : RD σ) (h : r.Inv md) :
    (r.readLine env S md).2.Inv md ∧
    (match (r.readLine env S md).1 with
     | .ok (some _) => (r.readLine env S md).2.row = r.row + 1
     | .ok none => (r.readLine env S md).2.row = r.row ∧ (r.readLine env S md).2.Ended md
     | .error _ => ((r.readLine env S md).2.row = r.row ∧ (r.readLine env S md).2.Ended md) ∨
        (r.readLine env S md).2.row = r.row + 1) := by
  obtain ⟨-, h2, h3⟩ := RD.advance_spec env S md r h
  rw [RD.readLine_eq]
  generalize r.advance env S md = x at *
  obtain ⟨res, r1⟩ := x
  simp only at h2 h3 ⊢
  cases res with
  | error e => exact ⟨h2, Or.inl h3⟩
  | ok o =>
    cases o with
    | none => exact ⟨h2, h3⟩
    | some ol =>
      simp only at h3 ⊢
      have hf := (RD.extract_frame env md r1 ol.1 ol.2).1
      generalize r1.extract env md ol.1 ol.2 = y at *
      obtain ⟨res2, r2⟩ := y
      simp only at hf
      have hinv : r2.Inv md := by
        rw [hf]; exact ⟨h2.row, h2.page⟩
      have hrow : r2.row = r.row + 1 := by rw [hf]; exact h3
      cases res2 with
      | error e => exact ⟨hinv, Or.inr hrow⟩
      | ok row => exact ⟨hinv, hrow⟩

theorem RD.skip_spec (n : Nat) : ∀ (r : RD σ), r.Inv md →
    (r.skip env S md n).2.Inv md ∧
    (match (r.skip env S md n).1 with
     | .ok true => (r.skip env S md n).2.row = r.row + n
     | _ => r.row ≤ (r.skip env S md n).2.row ∧ (r.skip env S md n).2.row < r.row + n ∧
        (r.skip env S md n).2.Ended md) := by
  induction n with
  | zero => intro r h; exact ⟨h, rfl⟩
  | succ n ih =>
    intro r h
    obtain ⟨-, h2, h3⟩ := RD.advance_spec env S md r h
    rw [RD.skip_succ_eq]
    generalize r.advance env S md = x at *
    obtain ⟨res, r1⟩ := x
    simp only at h2 h3 ⊢
    cases res with
    | error e => exact ⟨h2, by simp only; omega, by simp only; omega, h3.2⟩
    | ok o =>
      cases o with
      | none => exact ⟨h2, by simp only; omega, by simp only; omega, h3.2⟩
      | some ol =>
        simp only at h3 ⊢
        obtain ⟨h4, h5⟩ := ih r1 h2
        refine ⟨h4, ?_⟩
        generalize r1.skip env S md n = y at *
        obtain ⟨res2, r2⟩ := y
        cases res2 with
        | error e => simp only at h5 ⊢; exact ⟨by omega, by omega, h5.2.2⟩
        | ok b =>
          cases b with
          | false => simp only at h5 ⊢; exact ⟨by omega, by omega, h5.2.2⟩
          | true => simp only at h5 ⊢; omega

theorem RD.build_inv {p : PState σ} {acc : Acc} {r : RD σ} (h : RD.build env p acc = .ok r) :
    r.Inv acc.md ∧ r.row = 0 := by
  unfold RD.build at h
  simp only [bind, Except.bind, pure, Except.pure] at h
  split at h
  · cases h
  · split at h
    · split at h
      · cases h
      · rename_i page hb
        simp only [Except.ok.injEq] at h
        subst h
        refine ⟨⟨Nat.zero_le _, ?_⟩, rfl⟩
        intro pg hp
        simp only at hp
        subst hp
        have := (buildPage_ready env acc.md hb).1
        unfold Page.Ready at this; unfold Page.Ok
        cases hk : pg.kind <;> simp only [hk] at this ⊢
        omega
    · simp only [Except.ok.injEq] at h
      subst h
      refine ⟨⟨Nat.zero_le _, ?_⟩, rfl⟩
      intro pg hp
      simp only [Option.some.injEq] at hp
      subst hp
      simp [Page.Ok]

end Sas
