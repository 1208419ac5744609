import Verif.Proofs.Debug

/-! The bounds checks of a debug build on the pages of 32-bit files. -/

namespace Sas

open Spec

variable {σ : Type}

/-- A buffer between two operations. -/
structure BufOk (b : Buf) : Prop where
  good : b.Good
  size : b.size ≤ 2 ^ 32

/-- A page header. -/
def HdrOk (h : PageHdr) : Prop := h.blockCount < 2 ^ 16 ∧ h.subCount < 2 ^ 16

/-- The numbers of a 32-bit file. -/
structure MdOk (md : Meta) : Prop where
  rowLength : md.rowLength < 2 ^ 32
  rowCount : md.rowCount < 2 ^ 32
  lcs : md.lcs < 2 ^ 16
  lcp : md.lcp < 2 ^ 16

/-- Positions and lengths of subheaders. -/
def SubsOk (subs : List (Nat × Nat)) : Prop := ∀ ol ∈ subs, ol.1 < 2 ^ 32 ∧ ol.2 < 2 ^ 32

structure AccOk (acc : Acc) : Prop where
  md : MdOk acc.md
  subs : SubsOk acc.dataSubs

theorem SubsOk.snoc {subs : List (Nat × Nat)} (h : SubsOk subs) {o l : Nat} (ho : o < 2 ^ 32) (hl : l < 2 ^ 32) :
    SubsOk (subs ++ [(o, l)]) := by
  intro ol hol
  rcases List.mem_append.mp hol with h' | h'
  · exact h _ h'
  · rw [List.mem_singleton] at h'
    subst h'
    exact ⟨ho, hl⟩

section

variable {env : Env} (hd : env.cfg.debug = true) (hf : env.format = .bit32)
include hd hf

theorem getPageHeader_safe {b : Buf} (hb : BufOk b) : Safe HdrOk (getPageHeader env b) := by
  have hp : env.format.pbo = 16 := by rw [hf]; rfl
  unfold getPageHeader
  rw [hp]
  refine Safe.bind (Buf.getU16_safe hd hb.good (by omega)) fun _ _ =>
    Safe.bind (Buf.getU16_safe hd hb.good (by omega)) fun bc hbc =>
    Safe.bind (Buf.getU16_safe hd hb.good (by omega)) fun sc hsc => ⟨hbc.2, hsc.2⟩

theorem readPage_safe {S : Source σ} (hS : S.Lawful) (hL : env.pageLength < 2 ^ 32) {p : PState σ}
    (hb : BufOk p.buf) :
    (readPage env S p).1 ≠ .error .ub ∧ BufOk (readPage env S p).2.buf ∧ HdrOk (readPage env S p).2.hdr := by
  have hr : HdrOk PageHdr.reset := ⟨by decide, by decide⟩
  unfold readPage
  split
  · exact ⟨(fun h => by cases h), hb, hr⟩
  obtain ⟨h1, h2, h3⟩ := Buf.readStream_safe hS env.cfg hb.good p.src (len := env.pageLength) (off := 0) (by omega)
  have hbs := hb.size
  generalize Buf.readStream env.cfg S p.buf p.src env.pageLength 0 = y at *
  obtain ⟨r, b, s⟩ := y
  simp only at h1 h2 h3
  have hb' : BufOk b := ⟨h2, by omega⟩
  cases r with
  | error e => exact ⟨h1, hb', hr⟩
  | ok v =>
    cases v with
    | false =>
      simp only
      split
      · exact ⟨(fun h => by cases h), hb', hr⟩
      · exact ⟨(fun h => by cases h), hb', hr⟩
    | true =>
      have h4 := getPageHeader_safe hd hf hb'
      simp only
      generalize getPageHeader env b = z at *
      cases z with
      | error e => exact ⟨(fun h => by cases h; exact h4 rfl), hb', hr⟩
      | ok h => exact ⟨(fun h => by cases h), hb', h4⟩

theorem getPageSubheader_safe {b : Buf} (hb : BufOk b) {off : Nat} (ho : off < 2 ^ 33) :
    Safe (fun s => s.offset < 2 ^ 32 ∧ s.length < 2 ^ 32) (getPageSubheader env b off) := by
  have hi : env.format.intSize = 4 := by rw [hf]; rfl
  unfold getPageSubheader
  rw [hi]
  refine Safe.bind (Buf.assertCheck_safe _ _ _) fun _ _ =>
    Safe.bind (Buf.getUInt_safe hd hb.good hf (by omega)) fun o h1 =>
    Safe.bind (Buf.getUInt_safe hd hb.good hf (by omega)) fun l h2 =>
    Safe.bind (Buf.getByte_safe hd hb.good (by omega)) fun _ _ =>
    Safe.bind (Buf.getByte_safe hd hb.good (by omega)) fun _ _ =>
    Safe.bind (Buf.assertCheck_safe _ _ _) fun _ _ => ⟨h1.2, h2.2⟩

theorem processSubs_safe {α : Type} {P : α → Prop} {b : Buf} (hb : BufOk b) {f : α → PageSub → Res α}
    (hstep : ∀ a s, P a → s.offset < 2 ^ 32 → s.length < 2 ^ 32 → Safe P (f a s)) :
    ∀ (k i : Nat) (a : α), i + k ≤ 2 ^ 16 → P a → Safe P (processSubs env b f k i a)
  | 0, _, _, _, ha => ha
  | k + 1, i, a, hk, ha => by
    have hi : subheaderSize env.format = 12 := by rw [hf]; rfl
    have hp : env.format.pbo = 16 := by rw [hf]; rfl
    unfold processSubs
    rw [hi, hp]
    refine Safe.bind (getPageSubheader_safe hd hf hb (by omega)) fun s hs => ?_
    have ih := fun a' ha' => processSubs_safe hb hstep k (i + 1) a' (by omega) ha'
    exact Safe.ite (fun _ => ih a ha) fun _ => Safe.ite (fun _ => ih a ha) fun _ =>
      Safe.bind (hstep a s ha hs.1 hs.2) fun a' ha' => ih a' ha'

theorem processRowSize_safe {b : Buf} (hb : BufOk b) {md : Meta} {o : Nat} (ho : o < 2 ^ 32) :
    Safe MdOk (processRowSize env b md o) := by
  have hi : env.format.intSize = 4 := by rw [hf]; rfl
  have h1 : lcpOffset env.format = 378 := by rw [hf]; rfl
  have h2 : lcsOffset env.format = 354 := by rw [hf]; rfl
  unfold processRowSize
  rw [hi, h1, h2]
  exact Safe.bind (Buf.assertCheck_safe _ _ _) fun _ _ =>
    Safe.bind (Buf.getU16_safe hd hb.good (by omega)) fun _ k1 =>
    Safe.bind (Buf.getU16_safe hd hb.good (by omega)) fun _ k2 =>
    Safe.bind (Buf.getUInt_safe hd hb.good hf (by omega)) fun _ k3 =>
    Safe.bind (Buf.getUInt_safe hd hb.good hf (by omega)) fun _ k4 =>
    Safe.bind (Buf.getUInt_safe hd hb.good hf (by omega)) fun _ _ =>
    Safe.bind (Buf.getUInt_safe hd hb.good hf (by omega)) fun _ _ =>
    Safe.bind (Buf.getUInt_safe hd hb.good hf (by omega)) fun _ _ => ⟨k3.2, k4.2, k1.2, k2.2⟩

theorem processColumnSize_safe {b : Buf} (hb : BufOk b) {md : Meta} (hm : MdOk md) {o : Nat} (ho : o < 2 ^ 32) :
    Safe MdOk (processColumnSize env b md o) := by
  have hi : env.format.intSize = 4 := by rw [hf]; rfl
  unfold processColumnSize
  rw [hi]
  exact Safe.bind (Buf.getUInt_safe hd hb.good hf (by omega)) fun _ _ => ⟨hm.1, hm.2, hm.3, hm.4⟩

theorem processColumnText_safe {b : Buf} (hb : BufOk b) {acc : Acc} (ha : AccOk acc) {o : Nat} (ho : o < 2 ^ 32) :
    Safe AccOk (processColumnText env b acc o) := by
  have hi : env.format.intSize = 4 := by rw [hf]; rfl
  have hco : compressionOffset env.format = 16 := by rw [hf]; rfl
  unfold processColumnText
  rw [hi, hco]
  refine Safe.bind (Buf.getU16_safe hd hb.good (by omega)) fun len hlen =>
    Safe.bind (P := fun _ => True) ((Buf.rd_safe hd hb.good (by omega)).mono fun _ _ => trivial) fun text _ => ?_
  refine Safe.ite (fun _ => ?_) fun _ => ⟨ha.md, ha.subs⟩
  refine Safe.bind (Buf.getString_safe hd hb.good (by omega)) fun compression _ => ?_
  generalize hmd : (if containsSub rleLiteral text then { acc.md with compression := Compression.rle }
              else if containsSub rdcLiteral text then { acc.md with compression := Compression.rdc }
              else acc.md) = md
  have hm : MdOk md := by
    rw [← hmd]
    obtain ⟨m1, m2, m3, m4⟩ := ha.md
    split
    · exact ⟨m1, m2, m3, m4⟩
    · split
      · exact ⟨m1, m2, m3, m4⟩
      · exact ⟨m1, m2, m3, m4⟩
  obtain ⟨m1, m2, m3, m4⟩ := hm
  refine Safe.ite (fun _ => ?_) fun _ => Safe.ite (fun _ => ?_) fun _ => Safe.ite (fun _ => ?_) fun _ => ?_
  · exact Safe.bind (Buf.getString_safe hd hb.good (by omega)) fun _ _ => ⟨⟨m1, m2, by simp, m4⟩, ha.subs⟩
  · exact Safe.bind (Buf.getString_safe hd hb.good (by omega)) fun _ _ => ⟨⟨m1, m2, m3, m4⟩, ha.subs⟩
  · exact Safe.bind (Buf.getString_safe hd hb.good (by omega)) fun _ _ => ⟨⟨m1, m2, m3, by simp⟩, ha.subs⟩
  · exact ⟨⟨m1, m2, m3, m4⟩, ha.subs⟩

omit hf in
theorem nameLoop_safe {b : Buf} (hb : BufOk b) (texts : List (List Byte)) (offMax : Nat) :
    ∀ (fuel off : Nat) (names : List (List Byte)), off < 2 ^ 33 →
      Safe (fun _ => True) (nameLoop env b texts offMax fuel off names)
  | 0, _, _, _ => Stop.noConfusion
  | n + 1, off, names, ho => by
    have hs := hb.size
    unfold nameLoop
    refine Safe.ite (fun _ => ?_) fun _ => trivial
    refine Safe.bind (Buf.getU16_safe hd hb.good (by omega)) fun _ k1 =>
      Safe.bind (Buf.getU16_safe hd hb.good (by omega)) fun _ _ =>
      Safe.bind (Buf.getU16_safe hd hb.good (by omega)) fun _ _ => nameLoop_safe hb texts offMax n _ _ (by omega)

theorem attrLoop_safe {b : Buf} (hb : BufOk b) (offMax : Nat) :
    ∀ (fuel off : Nat) (x : List Nat × List Nat × List Bool), off < 2 ^ 33 →
      Safe (fun _ => True) (attrLoop env b offMax fuel off x)
  | 0, _, _, _ => Stop.noConfusion
  | n + 1, off, (os, ls, ts), ho => by
    have hs := hb.size
    have hi : env.format.intSize = 4 := by rw [hf]; rfl
    unfold attrLoop
    rw [hi]
    refine Safe.ite (fun _ => ?_) fun _ => trivial
    refine Safe.bind (Buf.getUInt_safe hd hb.good hf (by omega)) fun _ k1 =>
      Safe.bind (Buf.getU32_safe hd hb.good (by omega)) fun _ _ =>
      Safe.bind (Buf.getByte_safe hd hb.good (by omega)) fun _ _ => attrLoop_safe hb offMax n _ _ (by omega)

theorem processFormatAndLabel_safe {b : Buf} (hb : BufOk b) {acc : Acc} (ha : AccOk acc) {o : Nat} (ho : o < 2 ^ 32) :
    Safe AccOk (processFormatAndLabel env b acc o) := by
  have hi : env.format.intSize = 4 := by rw [hf]; rfl
  unfold processFormatAndLabel
  rw [hi]
  exact Safe.bind (Buf.assertCheck_safe _ _ _) fun _ _ =>
    Safe.bind (Buf.getU16_safe hd hb.good (by omega)) fun _ _ =>
    Safe.bind (Buf.getU16_safe hd hb.good (by omega)) fun _ _ =>
    Safe.bind (Buf.getU16_safe hd hb.good (by omega)) fun _ _ =>
    Safe.bind (Buf.getU16_safe hd hb.good (by omega)) fun _ _ =>
    Safe.bind (Buf.getU16_safe hd hb.good (by omega)) fun _ _ =>
    Safe.bind (Buf.getU16_safe hd hb.good (by omega)) fun _ _ => ⟨ha.md, ha.subs⟩

theorem processSubheader_safe {b : Buf} (hb : BufOk b) {acc : Acc} (ha : AccOk acc) {s : PageSub}
    (ho : s.offset < 2 ^ 32) (hl : s.length < 2 ^ 32) :
    Safe (fun x => AccOk x.1) (processSubheader env b acc s) := by
  have hi : env.format.intSize = 4 := by rw [hf]; rfl
  unfold processSubheader
  refine Safe.bind (Buf.rd_safe hd hb.good (by omega)) fun sig _ => ?_
  cases classify env.format sig with
  | rowSize => exact Safe.bind (processRowSize_safe hd hf hb ho) fun _ h => ⟨h, ha.subs⟩
  | columnSize => exact Safe.bind (processColumnSize_safe hd hf hb ha.md ho) fun _ h => ⟨h, ha.subs⟩
  | counts => exact ha
  | columnText => exact Safe.bind (processColumnText_safe hd hf hb ha ho) fun _ h => h
  | columnName =>
    unfold processColumnName
    refine Safe.bind (P := AccOk) (Safe.bind (nameLoop_safe hd hb _ _ _ _ _ (by omega)) fun _ _ => ⟨ha.md, ha.subs⟩)
      fun _ h => h
  | columnAttributes =>
    unfold processColumnAttributes
    refine Safe.bind (P := AccOk) (Safe.bind (attrLoop_safe hd hf hb _ _ _ _ (by omega)) fun _ _ => ⟨ha.md, ha.subs⟩)
      fun _ h => h
  | formatAndLabel => exact Safe.bind (processFormatAndLabel_safe hd hf hb ha ho) fun _ h => h
  | columnList => exact ha
  | other => exact Safe.ite (fun _ => ⟨ha.md, ha.subs.snoc ho hl⟩) fun _ => ha

theorem processPage_safe {b : Buf} (hb : BufOk b) {h : PageHdr} (hh : HdrOk h) {acc : Acc} (ha : AccOk acc) :
    Safe (fun x => AccOk x.1) (processPage env b h acc) := by
  unfold processPage
  have hk : Safe (fun x => AccOk x.1) (processPageMetadata env b h.subCount acc) := by
    unfold processPageMetadata
    refine processSubs_safe (P := fun (x : Acc × Bool) => AccOk x.1) hd hf hb (fun a s h1 h2 h3 => ?_) _ _ _
      (by have := hh.2; omega) ha
    exact Safe.bind (processSubheader_safe hd hf hb h1 h2 h3) fun x hx => hx
  exact Safe.ite (fun _ => Safe.bind hk fun x hx => hx) fun _ => ha

theorem metaLoop_safe {S : Source σ} (hS : S.Lawful) (hL : env.pageLength < 2 ^ 32) :
    ∀ (n : Nat) (p : PState σ) (acc : Acc), BufOk p.buf → HdrOk p.hdr → AccOk acc →
      Safe (fun x => BufOk x.1.buf ∧ HdrOk x.1.hdr ∧ AccOk x.2) (metaLoop env S n p acc)
  | 0, _, _, _, _, _ => Stop.noConfusion
  | n + 1, p, acc, hb, _, ha => by
    unfold metaLoop
    obtain ⟨h1, h2, h3⟩ := readPage_safe hd hf hS hL hb
    generalize readPage env S p = y at *
    obtain ⟨r, p'⟩ := y
    cases r with
    | error e => exact fun h => h1 (by rw [h])
    | ok v =>
      cases v with
      | false => exact ⟨h2, h3, ha⟩
      | true =>
        refine Safe.bind (processPage_safe hd hf h2 h3 ha) fun x hx => ?_
        exact Safe.ite (fun _ => ⟨h2, h3, hx⟩) fun _ => metaLoop_safe hS hL n _ _ h2 h3 hx

/-! ### The rows -/

/-- A page on which `row` rows at most have been read. -/
def PageOk (row : Nat) (pg : Page) : Prop :=
  pg.cur ≤ row ∧
  match pg.kind with
  | .metaP subs => SubsOk subs ∧ subs ≠ [] ∧ pg.cur ≤ subs.length
  | .dataP _ off rl => off < 2 ^ 24 ∧ rl < 2 ^ 32
  | .mixP _ off rl => off < 2 ^ 24 ∧ rl < 2 ^ 32

theorem buildPage_safe {b : Buf} (hb : BufOk b) {h : PageHdr} (hh : HdrOk h) {md : Meta} (hm : MdOk md) (row : Nat) :
    Safe (fun x => ∀ pg, x = some pg → PageOk row pg ∧ pg.cur = 0) (buildPage env md b h) := by
  have hi : env.format.intSize = 4 := by rw [hf]; rfl
  have hp : env.format.pbo = 16 := by rw [hf]; rfl
  have h1 := hh.2
  unfold buildPage
  rw [hi, hp]
  refine Safe.ite (fun _ => ?_) fun _ => Safe.ite (fun _ => ?_) fun _ => Safe.ite (fun _ => ?_) fun _ => ?_
  · refine Safe.bind (P := SubsOk) ?_ fun subs hs => ?_
    · refine processSubs_safe hd hf hb (fun a s h1 h2 h3 => ?_) _ _ _ (by omega) (by intro ol h; cases h)
      show SubsOk _
      split
      · exact h1.snoc h2 h3
      · exact h1
    · refine Safe.ite (fun _ => by intro pg h; cases h) fun hne => ?_
      intro pg h
      cases h
      exact ⟨⟨Nat.zero_le _, hs, (by rintro rfl; exact hne rfl), Nat.zero_le _⟩, rfl⟩
  · intro pg h
    cases h
    exact ⟨⟨Nat.zero_le _, by simp, hm.rowLength⟩, rfl⟩
  · intro pg h
    cases h
    exact ⟨⟨Nat.zero_le _, by omega, hm.rowLength⟩, rfl⟩
  · intro pg h
    cases h

/-- The state of the data reader between two operations. -/
structure RdOk (md : Meta) (r : RD σ) : Prop where
  buf : BufOk r.p.buf
  hdr : HdrOk r.p.hdr
  page : ∀ pg, r.page = some pg → PageOk r.row pg
  row : r.row ≤ md.rowCount

theorem nextPageLoop_safe {S : Source σ} (hS : S.Lawful) (hL : env.pageLength < 2 ^ 32) {md : Meta} (hm : MdOk md) :
    ∀ (n : Nat) (r : RD σ), RdOk md r → r.page = none →
      (nextPageLoop env S md n r).1 ≠ .error .ub ∧ RdOk md (nextPageLoop env S md n r).2 ∧
      (nextPageLoop env S md n r).2.row = r.row ∧
      ((nextPageLoop env S md n r).1 = .ok true → ∃ pg, (nextPageLoop env S md n r).2.page = some pg ∧ pg.cur = 0)
  | 0, r, hr, _ => ⟨(fun h => by cases h), hr, rfl, (fun h => by cases h)⟩
  | n + 1, r, hr, hpg => by
    obtain ⟨h1, h2, h3⟩ := readPage_safe hd hf hS hL hr.buf
    unfold nextPageLoop
    generalize readPage env S r.p = y at *
    obtain ⟨v, p⟩ := y
    have hr' : RdOk md { r with p := p } := ⟨h2, h3, hr.page, hr.row⟩
    cases v with
    | error e => exact ⟨(fun h => by cases h; exact h1 rfl), hr', rfl, (fun h => by cases h)⟩
    | ok v =>
      cases v with
      | false => exact ⟨(fun h => by cases h), hr', rfl, (fun h => by cases h)⟩
      | true =>
        simp only
        have h4 := buildPage_safe hd hf h2 h3 hm r.row
        simp only at h4
        generalize buildPage env md p.buf p.hdr = z at *
        cases z with
        | error e => exact ⟨(fun h => by cases h; exact h4 rfl), hr', rfl, (fun h => by cases h)⟩
        | ok w =>
          cases w with
          | some pg =>
            obtain ⟨k1, k2⟩ := h4 pg rfl
            exact ⟨(fun h => by cases h), ⟨h2, h3, (fun pg' h => by cases h; exact k1), hr.row⟩, rfl, fun _ => ⟨pg, rfl, k2⟩⟩
          | none => exact nextPageLoop_safe hS hL hm n { r with p := p } hr' hpg

theorem RD.next_safe {S : Source σ} (hS : S.Lawful) (hL : env.pageLength < 2 ^ 32) {md : Meta} (hm : MdOk md)
    {r : RD σ} (hr : RdOk md r) :
    (r.next env S md).1 ≠ .error .ub ∧ RdOk md (r.next env S md).2 ∧
    ((r.next env S md).1 = .ok true → (r.next env S md).2.row < md.rowCount ∧
      ∃ pg, (r.next env S md).2.page = some pg ∧ ∀ subs, pg.kind = .metaP subs → pg.cur < subs.length) := by
  unfold RD.next
  split
  · exact ⟨(fun h => by cases h), hr, (fun h => by cases h)⟩
  rename_i hne
  have hlt : r.row < md.rowCount := by have := hr.row; omega
  split
  · exact ⟨(fun h => by cases h), hr, (fun h => by cases h)⟩
  rename_i pg hpg
  split
  · unfold readNextPage
    obtain ⟨h1, h2, h3, h4⟩ := nextPageLoop_safe hd hf hS hL hm env.fuel { r with page := none }
      ⟨hr.buf, hr.hdr, (fun pg h => by cases h), hr.row⟩ rfl
    refine ⟨h1, h2, fun h => ⟨by rw [h3]; exact hlt, ?_⟩⟩
    obtain ⟨pg', hpg', hcur⟩ := h4 h
    refine ⟨pg', hpg', fun subs hk => ?_⟩
    have := (h2.page pg' hpg').2
    rw [hk] at this
    have := List.length_pos_iff.mpr this.2.1
    omega
  · rename_i hnext
    refine ⟨(fun h => by cases h), hr, fun _ => ⟨hlt, pg, hpg, fun subs hk => ?_⟩⟩
    have := (hr.page pg hpg).2
    rw [hk] at this
    unfold Page.next at hnext
    rw [hk] at hnext
    simp only [beq_iff_eq] at hnext
    have := this.2.2
    omega

omit hd hf in
theorem RD.takeLine_safe {md : Meta} (hm : MdOk md) {r : RD σ} (hr : RdOk md r) (hlt : r.row < md.rowCount)
    {pg : Page} (hpg : r.page = some pg) (hmeta : ∀ subs, pg.kind = .metaP subs → pg.cur < subs.length) :
    Safe (fun ol => ol.1 + ol.2 < 2 ^ 64) r.takeLine.1 ∧ RdOk md r.takeLine.2 := by
  have hok := hr.page pg hpg
  have hrc := hm.rowCount
  have hcur : pg.cur < 2 ^ 32 := by have := hok.1; omega
  have hsum : ∀ off rl, off < 2 ^ 24 → rl < 2 ^ 32 → w64 (off + rl * pg.cur) + rl < 2 ^ 64 := by
    intro off rl h1 h2
    have h3 : rl * pg.cur ≤ (2 ^ 32 - 1) * (2 ^ 32 - 1) := Nat.mul_le_mul (by omega) (by omega)
    generalize rl * pg.cur = m at *
    have : w64 (off + m) = off + m := Nat.mod_eq_of_lt (by omega)
    omega
  unfold RD.takeLine
  rw [hpg]
  simp only
  have hnew : ∀ pg' : Page, pg'.cur = pg.cur + 1 → pg'.kind = pg.kind →
      RdOk md { r with row := r.row + 1, page := some pg' } := by
    intro pg' h1 h2
    refine ⟨hr.buf, hr.hdr, fun pg'' h => ?_, hlt⟩
    cases h
    refine ⟨by rw [h1]; have := hok.1; simp only; omega, ?_⟩
    have h3 := hok.2
    rw [h2]
    cases hk : pg.kind with
    | metaP subs =>
      rw [hk] at h3
      exact ⟨h3.1, h3.2.1, by rw [h1]; exact hmeta subs hk⟩
    | dataP bc off rl => rw [hk] at h3; exact h3
    | mixP rc off rl => rw [hk] at h3; exact h3
  have h3 := hok.2
  cases hk : pg.kind with
  | metaP subs =>
    rw [hk] at h3
    have hl := hmeta subs hk
    have hget : subs[pg.cur]? = some subs[pg.cur] := List.getElem?_eq_getElem hl
    have : pg.readLine = .ok subs[pg.cur] := by
      unfold Page.readLine
      rw [hk]
      simp only
      rw [hget]
    rw [this]
    have hs := h3.1 _ (List.getElem_mem hl)
    exact ⟨by show _ < _; omega, hnew _ rfl hk.symm⟩
  | dataP bc off rl =>
    rw [hk] at h3
    have : pg.readLine = .ok (w64 (off + rl * pg.cur), rl) := by
      unfold Page.readLine; rw [hk]
    rw [this]
    exact ⟨hsum off rl h3.1 h3.2, hnew _ rfl hk.symm⟩
  | mixP rc off rl =>
    rw [hk] at h3
    have : pg.readLine = .ok (w64 (off + rl * pg.cur), rl) := by
      unfold Page.readLine; rw [hk]
    rw [this]
    exact ⟨hsum off rl h3.1 h3.2, hnew _ rfl hk.symm⟩

omit hf in
theorem RD.extract_safe {md : Meta} (hc : md.compression = .none) {r : RD σ} (hr : RdOk md r) {off len : Nat}
    (h : off + len < 2 ^ 64) :
    Safe (fun row => row.len ≤ row.mem.length) (r.extract env md off len).1 ∧ (r.extract env md off len).2 = r := by
  unfold RD.extract
  have h1 := fmtAssert_safe env.cfg (w64 (off + len) ≤ env.pageLength)
  generalize fmtAssert env.cfg (w64 (off + len) ≤ env.pageLength) = y at *
  cases y with
  | error e => exact ⟨h1, rfl⟩
  | ok u =>
    have h2 := Buf.rd_safe hd hr.buf.good h
    have hin := hr.buf.good.inside
    simp only
    generalize r.p.buf.rd env.cfg off len = z at *
    cases z with
    | error e => exact ⟨h2, rfl⟩
    | ok vs =>
      obtain ⟨h3, h4⟩ := h2
      simp only
      split
      · unfold RD.decompress
        rw [hc]
        refine ⟨?_, rfl⟩
        show vs.length ≤ (List.drop off r.p.buf.mem).length
        rw [List.length_drop]; omega
      · refine ⟨?_, rfl⟩
        show len ≤ (List.drop off r.p.buf.mem).length
        rw [List.length_drop]; omega

theorem RD.readLine_safe {S : Source σ} (hS : S.Lawful) (hL : env.pageLength < 2 ^ 32) {md : Meta} (hm : MdOk md)
    (hc : md.compression = .none) {r : RD σ} (hr : RdOk md r) :
    Safe (fun x => ∀ row, x = some row → row.len ≤ row.mem.length) (r.readLine env S md).1 ∧
    RdOk md (r.readLine env S md).2 := by
  obtain ⟨h1, h2, h3⟩ := RD.next_safe hd hf hS hL hm hr
  unfold RD.readLine
  generalize r.next env S md = y at *
  obtain ⟨v, r'⟩ := y
  cases v with
  | error e => exact ⟨(fun h => h1 (by rw [h])), h2⟩
  | ok v =>
    cases v with
    | false => exact ⟨(fun row h => by cases h), h2⟩
    | true =>
      obtain ⟨hlt, pg, hpg, hmeta⟩ := h3 rfl
      obtain ⟨k1, k2⟩ := RD.takeLine_safe hm h2 hlt hpg hmeta
      simp only at k1 k2 ⊢
      generalize r'.takeLine = z at *
      obtain ⟨w, r''⟩ := z
      cases w with
      | error e => exact ⟨k1, k2⟩
      | ok ol =>
        obtain ⟨j1, j2⟩ := RD.extract_safe hd hc k2 (off := ol.1) (len := ol.2) k1
        simp only at j1 j2 k2 ⊢
        generalize r''.extract env md ol.1 ol.2 = x at *
        obtain ⟨q, r3⟩ := x
        simp only at j2
        subst j2
        cases q with
        | error e => exact ⟨j1, k2⟩
        | ok row => exact ⟨(fun row' h => by cases h; exact j1), k2⟩

theorem RD.skip_safe {S : Source σ} (hS : S.Lawful) (hL : env.pageLength < 2 ^ 32) {md : Meta} (hm : MdOk md) :
    ∀ (n : Nat) (r : RD σ), RdOk md r →
      (RD.skip env S md n r).1 ≠ .error .ub ∧ RdOk md (RD.skip env S md n r).2
  | 0, r, hr => ⟨(fun h => by cases h), hr⟩
  | n + 1, r, hr => by
    obtain ⟨h1, h2, h3⟩ := RD.next_safe hd hf hS hL hm hr
    unfold RD.skip
    generalize r.next env S md = y at *
    obtain ⟨v, r'⟩ := y
    cases v with
    | error e => exact ⟨(fun h => by cases h; exact h1 rfl), h2⟩
    | ok v =>
      cases v with
      | false => exact ⟨(fun h => by cases h), h2⟩
      | true =>
        obtain ⟨hlt, pg, hpg, hmeta⟩ := h3 rfl
        obtain ⟨k1, k2⟩ := RD.takeLine_safe hm h2 hlt hpg hmeta
        simp only at k1 k2 ⊢
        generalize r'.takeLine = z at *
        obtain ⟨w, r''⟩ := z
        cases w with
        | error e => exact ⟨(fun h => by cases h; exact k1 rfl), k2⟩
        | ok ol => exact RD.skip_safe hS hL hm n r'' k2

end

/-! ### The reader -/

/-- The state of a reader between two calls; every row handed over lies in memory. -/
structure ReaderOk (R : Reader σ) : Prop where
  debug : R.env.cfg.debug = true
  format : R.env.format = .bit32
  pageLength : R.env.pageLength < 2 ^ 32
  md : MdOk R.props.md
  compression : R.props.md.compression = .none
  rd : RdOk R.props.md R.rd
  rows : ∀ i row, .pushRow i row ∈ R.trace → row.len ≤ row.mem.length

theorem ReaderOk.emit {R : Reader σ} (h : ReaderOk R) {e : Event}
    (he : ∀ i row, e = .pushRow i row → row.len ≤ row.mem.length) : ReaderOk (R.emit e) := by
  refine ⟨h.debug, h.format, h.pageLength, h.md, h.compression, h.rd, fun i row hm => ?_⟩
  rcases List.mem_append.mp hm with h' | h'
  · exact h.rows i row h'
  · exact he i row (List.mem_singleton.mp h').symm

theorem ReaderOk.withRd {R : Reader σ} (h : ReaderOk R) {r : RD σ} (hr : RdOk R.props.md r) :
    ReaderOk { R with rd := r } :=
  ⟨h.debug, h.format, h.pageLength, h.md, h.compression, hr, h.rows⟩

variable {S : Source σ} (hS : S.Lawful)
include hS

theorem Reader.readRow_safe {R : Reader σ} (h : ReaderOk R) :
    (R.readRow S).1 ≠ .error .ub ∧ ReaderOk (R.readRow S).2 := by
  obtain ⟨h1, h2⟩ := RD.readLine_safe h.debug h.format hS h.pageLength h.md h.compression h.rd
  unfold Reader.readRow
  generalize R.rd.readLine R.env S R.props.md = y at *
  obtain ⟨v, r⟩ := y
  have h3 := h.withRd h2
  cases v with
  | error e => exact ⟨(fun h => by cases h; exact h1 rfl), h3⟩
  | ok v =>
    cases v with
    | none => exact ⟨(fun h => by cases h), h3.emit (fun i row h => by cases h)⟩
    | some row => exact ⟨(fun h => by cases h), h3.emit (fun i row' h => by cases h; exact h1 row rfl)⟩

theorem Reader.readRows_safe : ∀ (n : Nat) {R : Reader σ}, ReaderOk R →
    (R.readRows S n).1 ≠ .error .ub ∧ ReaderOk (R.readRows S n).2
  | 0, R, h => ⟨(fun h => by cases h), h⟩
  | n + 1, R, h => by
    obtain ⟨h1, h2⟩ := Reader.readRow_safe hS h
    unfold Reader.readRows
    generalize R.readRow S = y at *
    obtain ⟨v, r⟩ := y
    cases v with
    | error e => exact ⟨(fun h => by cases h; exact h1 rfl), h2⟩
    | ok v =>
      cases v with
      | false => exact ⟨(fun h => by cases h), h2⟩
      | true => exact Reader.readRows_safe n h2

theorem Reader.readAllLoop_safe : ∀ (n : Nat) {R : Reader σ}, ReaderOk R →
    (Reader.readAllLoop S n R).1 ≠ .error .ub ∧ ReaderOk (Reader.readAllLoop S n R).2
  | 0, R, h => ⟨(fun h => by cases h), h⟩
  | n + 1, R, h => by
    obtain ⟨h1, h2⟩ := Reader.readRow_safe hS h
    unfold Reader.readAllLoop
    generalize R.readRow S = y at *
    obtain ⟨v, r⟩ := y
    cases v with
    | error e => exact ⟨(fun h => by cases h; exact h1 rfl), h2⟩
    | ok v =>
      cases v with
      | false => exact ⟨(fun h => by cases h), h2⟩
      | true => exact Reader.readAllLoop_safe n h2

theorem Reader.step_safe {R : Reader σ} (h : ReaderOk R) (op : Op) :
    Safe (fun v => ∀ row, v = .ptr (some row) → row.len ≤ row.mem.length) (R.step S op).1 ∧ ReaderOk (R.step S op).2 := by
  cases op with
  | readRow =>
    obtain ⟨h1, h2⟩ := Reader.readRow_safe hS h
    simp only [Reader.step]
    generalize R.readRow S = y at *
    obtain ⟨v, r⟩ := y
    cases v with
    | error e => exact ⟨(fun h => h1 (by rw [h])), h2⟩
    | ok v => exact ⟨(fun row h => by cases h), h2⟩
  | readRows n =>
    obtain ⟨h1, h2⟩ := Reader.readRows_safe hS n h
    simp only [Reader.step]
    generalize R.readRows S n = y at *
    obtain ⟨v, r⟩ := y
    cases v with
    | error e => exact ⟨(fun h => h1 (by rw [h])), h2⟩
    | ok v => exact ⟨(fun row h => by cases h), h2⟩
  | readAll =>
    obtain ⟨h1, h2⟩ := Reader.readAllLoop_safe hS (R.props.md.rowCount - R.rd.row + 1) h
    simp only [Reader.step, Reader.readAll]
    generalize Reader.readAllLoop S (R.props.md.rowCount - R.rd.row + 1) R = y at *
    obtain ⟨v, r⟩ := y
    cases v with
    | error e => exact ⟨(fun h => h1 (by rw [h])), h2⟩
    | ok v => exact ⟨(fun row h => by cases h), h2⟩
  | skip n =>
    obtain ⟨h1, h2⟩ := RD.skip_safe h.debug h.format hS h.pageLength h.md n R.rd h.rd
    simp only [Reader.step, Reader.skip]
    generalize R.rd.skip R.env S R.props.md n = y at *
    obtain ⟨v, r⟩ := y
    have h3 := h.withRd h2
    cases v with
    | error e => exact ⟨(fun h => h1 (by rw [h])), h3⟩
    | ok v =>
      cases v with
      | false => exact ⟨(fun row h => by cases h), h3.emit (fun i row h => by cases h)⟩
      | true => exact ⟨(fun row h => by cases h), h3⟩
  | readRowNoSink =>
    obtain ⟨h1, h2⟩ := RD.readLine_safe h.debug h.format hS h.pageLength h.md h.compression h.rd
    simp only [Reader.step, Reader.readRowNoSink]
    generalize R.rd.readLine R.env S R.props.md = y at *
    obtain ⟨v, r⟩ := y
    have h3 := h.withRd h2
    cases v with
    | error e => exact ⟨h1, h3⟩
    | ok v => exact ⟨(fun row h => by cases h; exact h1 row rfl), h3⟩
  | endOfData => exact ⟨(fun row h => by cases h), h.emit (fun i row h => by cases h)⟩

theorem Reader.run_safe : ∀ (ops : List Op) {R : Reader σ}, ReaderOk R →
    (∀ v ∈ (R.run S ops).1, Safe (fun v => ∀ row, v = .ptr (some row) → row.len ≤ row.mem.length) v) ∧
    ReaderOk (R.run S ops).2
  | [], R, h => ⟨(fun v hv => by cases hv), h⟩
  | op :: ops, R, h => by
    obtain ⟨h1, h2⟩ := Reader.step_safe hS h op
    unfold Reader.run
    generalize R.step S op = y at *
    obtain ⟨v, r⟩ := y
    obtain ⟨k1, k2⟩ := Reader.run_safe ops h2
    simp only at k1 k2
    cases v with
    | ok v =>
      refine ⟨fun v' hv => ?_, k2⟩
      rcases List.mem_cons.mp hv with rfl | hv
      · exact h1
      · exact k1 _ hv
    | error e =>
      cases e with
      | exn x =>
        refine ⟨fun v' hv => ?_, k2⟩
        rcases List.mem_cons.mp hv with rfl | hv
        · exact h1
        · exact k1 _ hv
      | terminate =>
        refine ⟨fun v' hv => ?_, h2⟩
        rw [List.mem_singleton.mp hv]
        exact Stop.noConfusion
      | ub => exact absurd rfl h1
      | fuel =>
        refine ⟨fun v' hv => ?_, h2⟩
        rw [List.mem_singleton.mp hv]
        exact Stop.noConfusion

omit hS in
/-- Opening a 32-bit file in a debug build. -/
theorem openReader_safe {cfg : Cfg} (hd : cfg.debug = true) (fuel : Nat) (filter : Option Filter) (data : List Byte)
    (fault : Option Nat) (h32 : data[32]? ≠ some 0x33) (hw : ¬ WildDate data) :
    Safe (fun R => R.props.md.compression = .none → ReaderOk R)
      (openReader cfg ifs fuel filter { IFStream.open data with fault := fault }) := by
  unfold openReader
  refine Safe.bind (readHeader_safe hd data fault h32 hw) fun x hx => ?_
  obtain ⟨h, b, s⟩ := x
  obtain ⟨hf, hL, hg, hsz⟩ := hx
  simp only at hf hL hg hsz ⊢
  generalize hen : ({ cfg := cfg, endian := h.endian, format := h.format
                      pageLength := h.pageLength, fuel := fuel } : Env) = env
  have e1 : env.cfg.debug = true := by rw [← hen]; exact hd
  have e2 : env.format = .bit32 := by rw [← hen]; exact hf
  have e3 : env.pageLength < 2 ^ 32 := by rw [← hen]; exact hL
  refine Safe.bind (metaLoop_safe e1 e2 ifs_lawful e3 fuel _ _ ⟨hg, hsz⟩
    ⟨(by decide : PageHdr.reset.blockCount < 2 ^ 16), (by decide : PageHdr.reset.subCount < 2 ^ 16)⟩
    ⟨⟨by decide, by decide, by decide, by decide⟩, fun ol h => by cases h⟩) fun x hx => ?_
  obtain ⟨p, acc⟩ := x
  obtain ⟨hb, hh, ha⟩ := hx
  simp only at hb hh ha ⊢
  refine Safe.bind (P := fun _ => True) ?_ fun cols _ => ?_
  · have := createColumns_errs cfg h.endian acc filter
    generalize createColumns cfg h.endian acc filter = z at *
    cases z with
    | ok c => trivial
    | error e =>
      intro he
      rcases this _ rfl with h' | h' <;> rw [he] at h' <;> cases h'
  refine Safe.bind (P := fun r => RdOk acc.md r) ?_ fun r hr hc => ?_
  · unfold RD.build
    refine Safe.bind (P := fun _ => True) ?_ fun dst _ => ?_
    · unfold buildDst Buf.alloc
      split
      · trivial
      · split
        · trivial
        · rename_i hx
          split at hx
          · cases hx
          · cases hx; exact Stop.noConfusion
    · refine Safe.ite (fun _ => ?_) fun hne => ?_
      · refine Safe.bind (buildPage_safe e1 e2 hb hh ha.md 0) fun pg hpg => ?_
        exact ⟨hb, hh, (fun pg' h => (hpg pg' h).1), Nat.zero_le _⟩
      · refine ⟨hb, hh, (fun pg' h => ?_), Nat.zero_le _⟩
        cases h
        exact ⟨Nat.zero_le _, ha.subs, (by intro h; rw [h] at hne; exact hne rfl), Nat.zero_le _⟩
  · refine ⟨e1, e2, e3, ha.md, hc, hr, fun i row hm => ?_⟩
    have := List.mem_singleton.mp hm
    cases this

end Sas
