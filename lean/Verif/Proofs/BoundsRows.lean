import Verif.Proofs.Bounds

/-! Files whose positions and lengths stay inside their pages: pages, rows and calls. -/

namespace Sas

open Spec

/-- The file source in front of page `k`, or at the end. -/
def AtPage (data : List Byte) (k : Nat) (s : IFStream) : Prop :=
  s.data = data ∧ s.fault = none ∧ (s.failbit = true ∨
    s.pos = announcedHeaderLength (data.take 288) + k * announcedPageLength (data.take 288))

/-- The environment that the header of the file announces. -/
structure EnvOf (data : List Byte) (env : Env) : Prop where
  endian : env.endian = announcedOrder (data.take 288)
  format : env.format = announcedFormat (data.take 288)
  pageLength : env.pageLength = announcedPageLength (data.take 288)

theorem EnvOf.small {data : List Byte} {env : Env} (he : EnvOf data env) : env.pageLength < 2 ^ 32 := by
  rw [he.pageLength]
  exact announcedNumber_lt _ _

theorem AtPage.read {data : List Byte} {k : Nat} {s : IFStream} (h : AtPage data k s) {L : Nat}
    (hL : L = announcedPageLength (data.take 288)) (hL' : L < 2 ^ 32) :
    ((ifs.read s L).ok = true → IsPage data k (ifs.read s L).bytes ∧ AtPage data (k + 1) (ifs.read s L).st) ∧
    ((ifs.read s L).ok = false → ∀ j, AtPage data j (ifs.read s L).st) := by
  obtain ⟨h1, h2, h3⟩ := h
  subst h1
  show ((s.read L).ok = true → _) ∧ ((s.read L).ok = false → _)
  show ((s.read L).ok = true → IsPage s.data k (s.read L).bytes ∧ AtPage s.data (k + 1) (s.read L).st) ∧
    ((s.read L).ok = false → ∀ j, AtPage s.data j (s.read L).st)
  unfold IFStream.read
  split
  · exact ⟨(fun h => by cases h), fun _ j => ⟨rfl, h2, .inl rfl⟩⟩
  · rename_i hflags
    rw [Bool.or_eq_true, not_or] at hflags
    have h3 := h3.resolve_left hflags.2
    rw [if_neg (by omega), h2]
    simp only
    unfold IFStream.readPlain
    split
    · rename_i hle
      refine ⟨fun _ => ⟨⟨?_, ?_⟩, rfl, h2, .inr ?_⟩, fun h => by cases h⟩
      · rw [← hL, Nat.succ_mul, ← Nat.add_assoc]
        rw [h3, ← hL] at hle
        exact hle
      · rw [← hL] at h3 ⊢
        rw [← h3]
        rfl
      · simp only
        rw [h3, ← hL, Nat.succ_mul, Nat.add_assoc]
    · exact ⟨(fun h => by cases h), fun _ j => ⟨rfl, h2, .inl rfl⟩⟩

/-- The state after a page has been read. -/
def PageRead (data : List Byte) (env : Env) (k : Nat) (page : List Byte) (p : PState IFStream) : Prop :=
  IsPage data k page ∧ p.buf.Holds page ∧
  p.hdr = ⟨pageType env.endian env.format page, pageBlocks env.endian env.format page,
    pointerCount env.endian env.format page⟩ ∧ AtPage data (k + 1) p.src

/-- The outcome of reading a page. -/
def PageOutcome (data : List Byte) (env : Env) (k : Nat) : Res Bool × PState IFStream → Prop
  | (.error e, p) => ¬ Crash e ∧ p.buf.Good ∧ ∃ j, AtPage data j p.src
  | (.ok false, p) => p.buf.Good ∧ (∃ j, AtPage data j p.src) ∧ p.hdr = PageHdr.reset
  | (.ok true, p) => ∃ page, PageRead data env k page p

section

variable {data : List Byte} {env : Env} (he : EnvOf data env)
  (hpi : ∀ k page, IsPage data k page → PointersInside env.endian env.format page)
include he hpi

theorem readPage_calm {k : Nat} {p : PState IFStream} (hs : AtPage data k p.src) (hg : p.buf.Good) :
    PageOutcome data env k (readPage env ifs p) := by
  have hsm := he.small
  unfold readPage
  split
  · exact ⟨hg, ⟨k, hs⟩, rfl⟩
  obtain ⟨r1, r2⟩ := hs.read he.pageLength hsm
  have hok := fun b' s' => Buf.readStream_ok (cfg := env.cfg) (S := ifs) (b := p.buf) (b' := b') (s := p.src) (s' := s')
    (len := env.pageLength) (off := 0) hg (by omega) (ifs_lawful.full _ _)
  have hho := fun b' s' => Buf.readStream_holds (cfg := env.cfg) (S := ifs) (b := p.buf) (b' := b') (s := p.src) (s' := s')
    (len := env.pageLength) hg (by omega) (ifs_lawful.full _ _)
  obtain ⟨n1, n2, -⟩ := Buf.readStream_safe ifs_lawful env.cfg hg p.src (len := env.pageLength) (off := 0) (by omega)
  have herr := Buf.readStream_errs env.cfg ifs p.buf p.src env.pageLength 0
  have hst : ∃ j, AtPage data j (Buf.readStream env.cfg ifs p.buf p.src env.pageLength 0).2.2 := by
    unfold Buf.readStream
    split
    · exact ⟨k, hs⟩
    · simp only
      have : ∃ j, AtPage data j (ifs.read p.src env.pageLength).st := by
        cases hk : (ifs.read p.src env.pageLength).ok with
        | true => exact ⟨_, (r1 hk).2⟩
        | false => exact ⟨k, r2 hk k⟩
      split <;> exact this
  generalize Buf.readStream env.cfg ifs p.buf p.src env.pageLength 0 = y at *
  obtain ⟨r, b, s⟩ := y
  cases r with
  | error e =>
    refine ⟨?_, n2, hst⟩
    rcases herr e rfl with h | h
    · rw [h]; exact not_crash_exn _
    · exact absurd (by rw [h]) n1
  | ok v =>
    cases v with
    | false =>
      simp only
      split
      · exact ⟨n2, hst, rfl⟩
      · exact ⟨not_crash_exn _, n2, hst⟩
    | true =>
      obtain ⟨-, -, k1, k2, -⟩ := hok b s rfl
      obtain ⟨q1, q2⟩ := r1 k1
      have hh := hho b s rfl
      rw [← k2] at q2
      simp only
      rw [getPageHeader_inside hh (hpi _ _ q1)]
      exact ⟨_, q1, hh, rfl, q2⟩

/-- Where the metadata end: at the end of the file, or at a page whose rows are described. -/
def MetaEnd (data : List Byte) (env : Env) (p : PState IFStream) (acc : Acc) : Prop :=
  (p.buf.Good ∧ (∃ j, AtPage data j p.src) ∧ p.hdr = PageHdr.reset ∧ acc.dataSubs = []) ∨
  ∃ k page, PageRead data env k page p ∧ RowSubs env.endian env.format page acc.dataSubs ∧
    (acc.dataSubs ≠ [] → hasMeta (pageType env.endian env.format page) = true)

theorem metaLoop_calm {creators : Nat}
    (hsi : ∀ k page, IsPage data k page →
      (∀ j < k, ∀ before, IsPage data j before → hasRows (pageType env.endian env.format before) = false) →
      hasMeta (pageType env.endian env.format page) = true → ∀ i < pointerCount env.endian env.format page,
      live (pointer env.endian env.format page i) = true →
      SubInside env.endian env.format creators page (pointer env.endian env.format page i)) :
    ∀ (n k : Nat) (p : PState IFStream) (acc : Acc), AtPage data k p.src → p.buf.Good →
      MdIn creators acc.md → acc.dataSubs = [] →
      (∀ j < k, ∀ before, IsPage data j before → hasRows (pageType env.endian env.format before) = false) →
      Calm (fun x => MdIn creators x.2.md ∧ MetaEnd data env x.1 x.2) (metaLoop env ifs n p acc)
  | 0, _, _, _, _, _, _, _, _ => not_crash_fuel
  | n + 1, k, p, acc, hs, hg, hmd, hno, hbefore => by
    have h1 := readPage_calm he hpi hs hg
    unfold metaLoop
    generalize readPage env ifs p = y at *
    obtain ⟨r, p'⟩ := y
    cases r with
    | error e => exact h1.1
    | ok v =>
      cases v with
      | false => exact ⟨hmd, .inl ⟨h1.1, h1.2.1, h1.2.2, hno⟩⟩
      | true =>
        obtain ⟨page, hpage, hh, hhdr, hsrc⟩ := h1
        simp only
        rw [hhdr]
        refine Calm.bind (processPage_calm hh hmd hno (hpi _ _ hpage) (hsi k page hpage hbefore)) fun x hx => ?_
        refine Calm.ite (fun _ => ⟨hx.1, .inr ⟨k, page, ⟨hpage, hh, hhdr, hsrc⟩, hx.2.1, hx.2.2.1⟩⟩) fun hstop => ?_
        obtain ⟨hx1, hx2⟩ := hx.2.2.2 (Bool.eq_false_iff.mpr hstop)
        refine metaLoop_calm hsi n (k + 1) _ _ hsrc hh.good hx.1 hx1 fun j hj before hbf => ?_
        rcases Nat.lt_succ_iff_lt_or_eq.mp hj with hj | rfl
        · exact hbefore j hj before hbf
        · rw [hbf.2, ← hpage.2]
          exact hx2

/-! ### The rows -/

/-- The current page, with its rows inside. -/
def CurIn (data : List Byte) (env : Env) (md : Meta) (b : Buf) (pg : Page) : Prop :=
  ∃ k page, IsPage data k page ∧ b.Holds page ∧
  match pg.kind with
  | .metaP subs => subs ≠ [] ∧ pg.cur ≤ subs.length ∧ RowSubs env.endian env.format page subs ∧
      hasMeta (pageType env.endian env.format page) = true
  | .dataP n off rl => 0 < n ∧ pg.cur ≤ n ∧ rl = md.rowLength ∧ off + n * rl ≤ page.length
  | .mixP n off rl => 0 < n ∧ pg.cur ≤ n ∧ rl = md.rowLength ∧ off + n * rl ≤ page.length

omit he hpi in
theorem mixOffset (f : Format) (n : Nat) :
    f.pbo + 8 + n * (3 * f.intSize) + (f.pbo + 8 + n * (3 * f.intSize)) % 8 =
      roundUp8 (pageHead f + 8 + n * (3 * word f)) := by
  unfold roundUp8
  cases f <;> simp only [pageHead, word, Format.pbo, Format.intSize] <;> omega

omit he in
theorem buildPage_noCrash {md : Meta} {k : Nat} {page : List Byte} {p : PState IFStream}
    (hp : PageRead data env k page p) :
    Calm (fun _ => True) (buildPage env md p.buf p.hdr) := by
  obtain ⟨h1, h2, h3, -⟩ := hp
  rw [h3]
  unfold buildPage
  refine Calm.ite (fun ht => ?_) fun _ => Calm.ite (fun _ => trivial) fun _ => Calm.ite (fun _ => trivial) fun _ => trivial
  have hm : hasMeta (pageType env.endian env.format page) = true := by
    simp only at ht
    rw [ht]
    rfl
  refine Calm.bind (P := fun _ => True) (processSubs_calm h2 (hpi _ _ h1) hm (fun _ _ _ _ _ => ?_) _ 0 _ (by simp) trivial)
    fun _ _ => Calm.ite (fun _ => trivial) fun _ => trivial
  trivial

omit he in
theorem buildPage_calm {md : Meta} (hrc : md.rowCount ≠ 0)
    (hrow : ∀ k page, IsPage data k page →
      PageRowsInside env.endian env.format md.rowLength md.rowCount md.mixCount md.compression page)
    {k : Nat} {page : List Byte} {p : PState IFStream} (hp : PageRead data env k page p) :
    Calm (fun x => ∀ pg, x = some pg → CurIn data env md p.buf pg ∧ pg.cur = 0) (buildPage env md p.buf p.hdr) := by
  obtain ⟨h1, h2, h3, -⟩ := hp
  rw [h3]
  unfold buildPage
  have hr := hrow k page h1
  refine Calm.ite (fun ht => ?_) fun _ => Calm.ite (fun ht => ?_) fun _ => Calm.ite (fun ht => ?_) fun _ => ?_
  · have hm : hasMeta (pageType env.endian env.format page) = true := by
      simp only at ht
      rw [ht]
      rfl
    refine Calm.bind (processSubs_calm (P := RowSubs env.endian env.format page) h2 (hpi _ _ h1) hm
      (fun a i ha hi hl => ?_) _ 0 _ (by simp) (by intro ol h; cases h)) fun subs hs => ?_
    · show RowSubs _ _ _ _
      split
      · exact ha.snoc hi hl ‹_›
      · exact ha
    · refine Calm.ite (fun _ => by intro pg h; cases h) fun hne => ?_
      intro pg h
      cases h
      exact ⟨⟨k, page, h1, h2, (by rintro rfl; exact hne rfl), Nat.zero_le _, hs, hm⟩, rfl⟩
  · obtain ⟨q1, q2⟩ := hr.data ht
    intro pg h
    cases h
    refine ⟨⟨k, page, h1, h2, q1, Nat.zero_le _, rfl, ?_⟩, rfl⟩
    rw [← pageHead_eq]
    exact q2
  · obtain ⟨q1, q2⟩ := hr.mix (by simpa [isPageMix, pageMix1, pageMix2] using ht)
    intro pg h
    cases h
    refine ⟨⟨k, page, h1, h2, by omega, Nat.zero_le _, rfl, ?_⟩, rfl⟩
    rw [mixOffset]
    exact q2
  · intro pg h
    cases h

/-- The state of the data reader between two operations. -/
def RdIn (data : List Byte) (env : Env) (md : Meta) (r : RD IFStream) : Prop :=
  md.rowCount ≠ 0 → r.p.buf.Good ∧ (∃ j, AtPage data j r.p.src) ∧
    (∀ pg, r.page = some pg → CurIn data env md r.p.buf pg) ∧ (md.compression ≠ .none → r.dst.length = md.rowLength)

section rows

variable {md : Meta}
  (hrow : md.rowCount ≠ 0 → ∀ k page, IsPage data k page →
    PageRowsInside env.endian env.format md.rowLength md.rowCount md.mixCount md.compression page)
include hrow

theorem nextPageLoop_calm (hrc : md.rowCount ≠ 0) :
    ∀ (n : Nat) (r : RD IFStream), RdIn data env md r → r.page = none →
      Calm (fun _ => True) (nextPageLoop env ifs md n r).1 ∧ RdIn data env md (nextPageLoop env ifs md n r).2 ∧
      ((nextPageLoop env ifs md n r).1 = .ok true → ∃ pg, (nextPageLoop env ifs md n r).2.page = some pg ∧ pg.cur = 0)
  | 0, r, hr, _ => ⟨not_crash_fuel, hr, (fun h => by cases h)⟩
  | n + 1, r, hr, hpg => by
    obtain ⟨h1, ⟨k, h2⟩, -, h4⟩ := hr hrc
    have h5 := readPage_calm he hpi h2 h1
    unfold nextPageLoop
    generalize readPage env ifs r.p = y at *
    obtain ⟨v, p⟩ := y
    have hnone : ∀ pg, r.page = some pg → CurIn data env md p.buf pg := fun pg h => by rw [hpg] at h; cases h
    cases v with
    | error e => exact ⟨h5.1, fun _ => ⟨h5.2.1, h5.2.2, hnone, h4⟩, (fun h => by cases h)⟩
    | ok v =>
      cases v with
      | false => exact ⟨trivial, fun _ => ⟨h5.1, h5.2.1, hnone, h4⟩, (fun h => by cases h)⟩
      | true =>
        obtain ⟨page, hp⟩ := h5
        have hr' : RdIn data env md { r with p := p } := fun _ => ⟨hp.2.1.good, ⟨_, hp.2.2.2⟩, hnone, h4⟩
        simp only
        have h6 := buildPage_calm hpi hrc (hrow hrc) hp
        generalize buildPage env md p.buf p.hdr = z at *
        cases z with
        | error e => exact ⟨h6, hr', (fun h => by cases h)⟩
        | ok w =>
          cases w with
          | some pg =>
            obtain ⟨k1, k2⟩ := h6 pg rfl
            exact ⟨trivial, fun _ => ⟨hp.2.1.good, ⟨_, hp.2.2.2⟩, (fun pg' h => by cases h; exact k1), h4⟩,
              fun _ => ⟨pg, rfl, k2⟩⟩
          | none => exact nextPageLoop_calm hrc n { r with p := p } hr' hpg

/-- There is a row left on the page. -/
def RowLeft (pg : Page) : Prop :=
  match pg.kind with
  | .metaP subs => pg.cur < subs.length
  | .dataP n _ _ => pg.cur < n
  | .mixP n _ _ => pg.cur < n

theorem RD.next_calm {r : RD IFStream} (hr : RdIn data env md r) (hz : md.rowCount = 0 → r.row = 0) :
    Calm (fun _ => True) (r.next env ifs md).1 ∧ RdIn data env md (r.next env ifs md).2 ∧
    (md.rowCount = 0 → (r.next env ifs md).2.row = 0) ∧
    ((r.next env ifs md).1 = .ok true → md.rowCount ≠ 0 ∧ ∃ pg, (r.next env ifs md).2.page = some pg ∧ RowLeft pg) := by
  unfold RD.next
  split
  · exact ⟨trivial, hr, hz, (fun h => by cases h)⟩
  rename_i hne
  have hrc : md.rowCount ≠ 0 := fun h => hne (by rw [hz h, h])
  split
  · exact ⟨trivial, hr, hz, (fun h => by cases h)⟩
  rename_i pg hpg
  split
  · unfold readNextPage
    obtain ⟨q1, q2, q3, q4⟩ := hr hrc
    obtain ⟨h1, h2, h4⟩ := nextPageLoop_calm he hpi hrow hrc env.fuel { r with page := none }
      (fun _ => ⟨q1, q2, (fun pg h => by cases h), q4⟩) rfl
    refine ⟨h1, h2, fun h => absurd h hrc, fun h => ⟨hrc, ?_⟩⟩
    obtain ⟨pg', hpg', hcur⟩ := h4 h
    refine ⟨pg', hpg', ?_⟩
    obtain ⟨k, page, -, -, hk⟩ := (h2 hrc).2.2.1 pg' hpg'
    unfold RowLeft
    cases hkind : pg'.kind with
    | metaP subs =>
      rw [hkind] at hk
      simp only
      rw [hcur]
      exact List.length_pos_iff.mpr hk.1
    | dataP n off rl => rw [hkind] at hk; simp only; rw [hcur]; exact hk.1
    | mixP n off rl => rw [hkind] at hk; simp only; rw [hcur]; exact hk.1
  · rename_i hnext
    refine ⟨trivial, hr, hz, fun _ => ⟨hrc, pg, hpg, ?_⟩⟩
    obtain ⟨k, page, -, -, hk⟩ := (hr hrc).2.2.1 pg hpg
    unfold Page.next at hnext
    unfold RowLeft
    cases hkind : pg.kind with
    | metaP subs =>
      rw [hkind] at hk hnext
      simp only [beq_iff_eq] at hnext ⊢
      have := hk.2.1
      omega
    | dataP n off rl =>
      rw [hkind] at hk hnext
      simp only [beq_iff_eq] at hnext ⊢
      have := hk.2.1
      omega
    | mixP n off rl =>
      rw [hkind] at hk hnext
      simp only [beq_iff_eq] at hnext ⊢
      have := hk.2.1
      omega

/-- A row inside the page in the buffer; a compressed one can be unpacked. -/
def LineIn (env : Env) (md : Meta) (b : Buf) (ol : Nat × Nat) : Prop :=
  ∃ page, b.Holds page ∧ page.length ≤ env.pageLength ∧ ol.1 + ol.2 ≤ page.length ∧
    (ol.2 < md.rowLength → Unpackable md.rowLength (slice page ol.1 ol.2) md.compression)

theorem RD.takeLine_calm {r : RD IFStream} (hr : RdIn data env md r) (hrc : md.rowCount ≠ 0)
    {pg : Page} (hpg : r.page = some pg) (hleft : RowLeft pg) :
    Calm (LineIn env md r.p.buf) r.takeLine.1 ∧ RdIn data env md r.takeLine.2 ∧ r.takeLine.2.p = r.p := by
  obtain ⟨q1, q2, q3, q4⟩ := hr hrc
  obtain ⟨k, page, hpage, hh, hk⟩ := q3 pg hpg
  have hsm := he.small
  have hlen : page.length ≤ env.pageLength := by
    rw [hpage.2, List.length_take, he.pageLength]
    omega
  have hnew : ∀ pg' : Page, pg'.cur = pg.cur + 1 → pg'.kind = pg.kind →
      RdIn data env md { r with row := r.row + 1, page := some pg' } := by
    intro pg' e1 e2 _
    refine ⟨q1, q2, fun pg'' h => ?_, q4⟩
    cases h
    refine ⟨k, page, hpage, hh, ?_⟩
    unfold RowLeft at hleft
    rw [e1, e2]
    cases hkind : pg.kind with
    | metaP subs => rw [hkind] at hk hleft; exact ⟨hk.1, hleft, hk.2.2⟩
    | dataP n off rl => rw [hkind] at hk hleft; exact ⟨hk.1, hleft, hk.2.2⟩
    | mixP n off rl => rw [hkind] at hk hleft; exact ⟨hk.1, hleft, hk.2.2⟩
  have hfix : ∀ n off rl, pg.cur < n → rl = md.rowLength → off + n * rl ≤ page.length →
      LineIn env md r.p.buf (w64 (off + rl * pg.cur), rl) := by
    intro n off rl hlt hrl hroom
    have h1 : (pg.cur + 1) * rl ≤ n * rl := Nat.mul_le_mul_right _ hlt
    rw [Nat.succ_mul] at h1
    rw [Nat.mul_comm rl]
    have hw : w64 (off + pg.cur * rl) = off + pg.cur * rl := Nat.mod_eq_of_lt (by omega)
    refine ⟨page, hh, hlen, ?_, fun h => ?_⟩
    · simp only
      rw [hw]
      omega
    · simp only at h
      omega
  unfold RD.takeLine RowLeft at *
  rw [hpg]
  simp only
  cases hkind : pg.kind with
  | metaP subs =>
    rw [hkind] at hk hleft
    simp only at hleft
    have hget : subs[pg.cur]? = some subs[pg.cur] := List.getElem?_eq_getElem hleft
    have : pg.readLine = .ok subs[pg.cur] := by
      unfold Page.readLine
      rw [hkind]
      simp only
      rw [hget]
    rw [this]
    obtain ⟨i, hi, hl, hrp, heq⟩ := hk.2.2.1 _ (List.getElem_mem hleft)
    refine ⟨?_, hnew _ rfl hkind.symm, rfl⟩
    show LineIn env md r.p.buf subs[pg.cur]
    rw [heq]
    exact ⟨page, hh, hlen, (hpi _ _ hpage).targets hk.2.2.2 i hi,
      fun hs => (hrow hrc _ _ hpage).packed hk.2.2.2 i hi hl hrp hs⟩
  | dataP n off rl =>
    rw [hkind] at hk hleft
    have : pg.readLine = .ok (w64 (off + rl * pg.cur), rl) := by
      unfold Page.readLine; rw [hkind]
    rw [this]
    exact ⟨hfix n off rl hleft hk.2.2.1 hk.2.2.2, hnew _ rfl hkind.symm, rfl⟩
  | mixP n off rl =>
    rw [hkind] at hk hleft
    have : pg.readLine = .ok (w64 (off + rl * pg.cur), rl) := by
      unfold Page.readLine; rw [hkind]
    rw [this]
    exact ⟨hfix n off rl hleft hk.2.2.1 hk.2.2.2, hnew _ rfl hkind.symm, rfl⟩

omit hpi hrow in
theorem RD.extract_calm {creators : Nat} (hmd : MdIn creators md) {r : RD IFStream} (hr : RdIn data env md r) (hrc : md.rowCount ≠ 0)
    {off len : Nat} (h : LineIn env md r.p.buf (off, len)) :
    Calm (fun row => row.len ≤ row.mem.length) (r.extract env md off len).1 ∧
    RdIn data env md (r.extract env md off len).2 := by
  obtain ⟨page, hh, hlen, hroom, hun⟩ := h
  simp only at hroom hun
  have hle : off + len ≤ env.pageLength := by omega
  have hsm := he.small
  have hin := hh.good.inside
  have hsz := hh.size
  have hw : w64 (off + len) = off + len := Nat.mod_eq_of_lt (by omega)
  unfold RD.extract
  have hfa : fmtAssert env.cfg (w64 (off + len) ≤ env.pageLength) = .ok () := by
    unfold fmtAssert
    rw [hw, decide_eq_true hle]
    simp
  rw [hfa, hh.rd hroom]
  simp only
  have hslice : (slice page off len).length = len := slice_length hroom
  split
  · rename_i hshort
    have hun := hun hshort
    obtain ⟨q1, q2, q3, q4⟩ := hr hrc
    unfold RD.decompress
    cases hc : md.compression with
    | none =>
      refine ⟨?_, hr⟩
      show (slice page off len).length ≤ (List.drop off r.p.buf.mem).length
      rw [List.length_drop, hslice]; omega
    | rle =>
      rw [hc] at hun
      have hs := rle_sim (slice page off len) (dst := r.dst) (dst' := r.dst) rfl
      have herr := rle_err (slice page off len) r.dst
      simp only
      generalize rle (slice page off len) r.dst = z at *
      obtain ⟨res, dst⟩ := z
      refine ⟨?_, fun _ => ⟨q1, q2, q3, fun hn => ?_⟩⟩
      · cases res with
        | error e =>
          rcases herr e rfl with h | ⟨-, hi, lo, h1, h2⟩
          · subst h; exact not_crash_exn _
          · exact absurd h2 (hun hi lo h1)
        | ok row => exact Nat.le_refl row.length
      · rw [← q4 hn]; exact hs.2.2
    | rdc =>
      rw [hc] at hun
      obtain ⟨gs, last, out, u1, u2, u3, u4⟩ := hun
      have hdl := q4 (by rw [hc]; exact Compression.noConfusion)
      have hrl := hmd.rowLength
      obtain ⟨kept, -, hx⟩ := rdc_exact env.cfg gs last u2.1 u2.2 r.dst out u3 (by omega) (by omega)
      rw [← u1] at hx
      have hs := rdc_sim env.cfg (slice page off len) (dst := r.dst) (dst' := r.dst) rfl
      simp only
      generalize rdc env.cfg (slice page off len) r.dst = z at *
      obtain ⟨res, dst⟩ := z
      simp only at hx
      subst hx
      refine ⟨Nat.le_refl (List.length _), fun _ => ⟨q1, q2, q3, fun hn => ?_⟩⟩
      rw [← q4 hn]; exact hs.2.2
  · refine ⟨?_, hr⟩
    show len ≤ (List.drop off r.p.buf.mem).length
    rw [List.length_drop]; omega

theorem RD.readLine_calm {creators : Nat} (hmd : MdIn creators md) {r : RD IFStream} (hr : RdIn data env md r)
    (hz : md.rowCount = 0 → r.row = 0) :
    Calm (fun x => ∀ row, x = some row → row.len ≤ row.mem.length) (r.readLine env ifs md).1 ∧
    RdIn data env md (r.readLine env ifs md).2 ∧ (md.rowCount = 0 → (r.readLine env ifs md).2.row = 0) := by
  obtain ⟨h1, h2, h0, h3⟩ := RD.next_calm he hpi hrow hr hz
  unfold RD.readLine
  generalize r.next env ifs md = y at *
  obtain ⟨v, r'⟩ := y
  cases v with
  | error e => exact ⟨h1, h2, h0⟩
  | ok v =>
    cases v with
    | false => exact ⟨(fun row h => by cases h), h2, h0⟩
    | true =>
      obtain ⟨hrc, pg, hpg, hleft⟩ := h3 rfl
      obtain ⟨k1, k2, k3⟩ := RD.takeLine_calm he hpi hrow h2 hrc hpg hleft
      simp only at k1 k2 k3 ⊢
      generalize r'.takeLine = z at *
      obtain ⟨w, r''⟩ := z
      simp only at k3
      rw [← k3] at k1
      cases w with
      | error e => exact ⟨k1, k2, fun h => absurd h hrc⟩
      | ok ol =>
        obtain ⟨j1, j2⟩ := RD.extract_calm he hmd k2 hrc (off := ol.1) (len := ol.2) k1
        simp only at j1 j2 k2 ⊢
        generalize r''.extract env md ol.1 ol.2 = x at *
        obtain ⟨q, r3⟩ := x
        cases q with
        | error e => exact ⟨j1, j2, fun h => absurd h hrc⟩
        | ok row => exact ⟨(fun row' h => by cases h; exact j1), j2, fun h => absurd h hrc⟩

theorem RD.skip_calm : ∀ (n : Nat) (r : RD IFStream), RdIn data env md r → (md.rowCount = 0 → r.row = 0) →
    Calm (fun _ => True) (RD.skip env ifs md n r).1 ∧ RdIn data env md (RD.skip env ifs md n r).2 ∧
    (md.rowCount = 0 → (RD.skip env ifs md n r).2.row = 0)
  | 0, r, hr, hz => ⟨trivial, hr, hz⟩
  | n + 1, r, hr, hz => by
    obtain ⟨h1, h2, h0, h3⟩ := RD.next_calm he hpi hrow hr hz
    unfold RD.skip
    generalize r.next env ifs md = y at *
    obtain ⟨v, r'⟩ := y
    cases v with
    | error e => exact ⟨h1, h2, h0⟩
    | ok v =>
      cases v with
      | false => exact ⟨trivial, h2, h0⟩
      | true =>
        obtain ⟨hrc, pg, hpg, hleft⟩ := h3 rfl
        obtain ⟨k1, k2, -⟩ := RD.takeLine_calm he hpi hrow h2 hrc hpg hleft
        simp only at k1 k2 ⊢
        generalize r'.takeLine = z at *
        obtain ⟨w, r''⟩ := z
        cases w with
        | error e => exact ⟨k1, k2, fun h => absurd h hrc⟩
        | ok ol => exact RD.skip_calm n r'' k2 fun h => absurd h hrc

end rows

end

/-! ### The reader -/

/-- The state of a reader between two calls; every row handed over lies in memory. -/
structure ReaderIn (data : List Byte) (creators : Nat) (R : Reader IFStream) : Prop where
  env : EnvOf data R.env
  pages : ∀ k page, IsPage data k page → PointersInside R.env.endian R.env.format page
  rowsIn : R.props.md.rowCount ≠ 0 → ∀ k page, IsPage data k page → PageRowsInside R.env.endian R.env.format R.props.md.rowLength
    R.props.md.rowCount R.props.md.mixCount R.props.md.compression page
  md : MdIn creators R.props.md
  rd : RdIn data R.env R.props.md R.rd
  zero : R.props.md.rowCount = 0 → R.rd.row = 0
  rows : ∀ i row, .pushRow i row ∈ R.trace → row.len ≤ row.mem.length

theorem ReaderIn.emit {data : List Byte} {creators : Nat} {R : Reader IFStream} (h : ReaderIn data creators R) {e : Event}
    (he : ∀ i row, e = .pushRow i row → row.len ≤ row.mem.length) : ReaderIn data creators (R.emit e) := by
  refine ⟨h.env, h.pages, h.rowsIn, h.md, h.rd, h.zero, fun i row hm => ?_⟩
  rcases List.mem_append.mp hm with h' | h'
  · exact h.rows i row h'
  · exact he i row (List.mem_singleton.mp h').symm

theorem ReaderIn.withRd {data : List Byte} {creators : Nat} {R : Reader IFStream} (h : ReaderIn data creators R)
    {r : RD IFStream} (hr : RdIn data R.env R.props.md r) (hz : R.props.md.rowCount = 0 → r.row = 0) :
    ReaderIn data creators { R with rd := r } :=
  ⟨h.env, h.pages, h.rowsIn, h.md, hr, hz, h.rows⟩

section

variable {data : List Byte} {creators : Nat}

theorem Reader.readRow_calm {R : Reader IFStream} (h : ReaderIn data creators R) :
    Calm (fun _ => True) (R.readRow ifs).1 ∧ ReaderIn data creators (R.readRow ifs).2 := by
  obtain ⟨h1, h2, h0⟩ := RD.readLine_calm h.env h.pages h.rowsIn h.md h.rd h.zero
  unfold Reader.readRow
  generalize R.rd.readLine R.env ifs R.props.md = y at *
  obtain ⟨v, r⟩ := y
  have h3 := h.withRd h2 h0
  cases v with
  | error e => exact ⟨h1, h3⟩
  | ok v =>
    cases v with
    | none => exact ⟨trivial, h3.emit (fun i row h => by cases h)⟩
    | some row => exact ⟨trivial, h3.emit (fun i row' h => by cases h; exact h1 row rfl)⟩

theorem Reader.readRows_calm : ∀ (n : Nat) {R : Reader IFStream}, ReaderIn data creators R →
    Calm (fun _ => True) (R.readRows ifs n).1 ∧ ReaderIn data creators (R.readRows ifs n).2
  | 0, R, h => ⟨trivial, h⟩
  | n + 1, R, h => by
    obtain ⟨h1, h2⟩ := Reader.readRow_calm h
    unfold Reader.readRows
    generalize R.readRow ifs = y at *
    obtain ⟨v, r⟩ := y
    cases v with
    | error e => exact ⟨h1, h2⟩
    | ok v =>
      cases v with
      | false => exact ⟨trivial, h2⟩
      | true => exact Reader.readRows_calm n h2

theorem Reader.readAllLoop_calm : ∀ (n : Nat) {R : Reader IFStream}, ReaderIn data creators R →
    Calm (fun _ => True) (Reader.readAllLoop ifs n R).1 ∧ ReaderIn data creators (Reader.readAllLoop ifs n R).2
  | 0, R, h => ⟨not_crash_fuel, h⟩
  | n + 1, R, h => by
    obtain ⟨h1, h2⟩ := Reader.readRow_calm h
    unfold Reader.readAllLoop
    generalize R.readRow ifs = y at *
    obtain ⟨v, r⟩ := y
    cases v with
    | error e => exact ⟨h1, h2⟩
    | ok v =>
      cases v with
      | false => exact ⟨trivial, h2⟩
      | true => exact Reader.readAllLoop_calm n h2

theorem Reader.step_calm {R : Reader IFStream} (h : ReaderIn data creators R) (op : Op) :
    Calm (fun v => ∀ row, v = .ptr (some row) → row.len ≤ row.mem.length) (R.step ifs op).1 ∧
    ReaderIn data creators (R.step ifs op).2 := by
  cases op with
  | readRow =>
    obtain ⟨h1, h2⟩ := Reader.readRow_calm h
    simp only [Reader.step]
    generalize R.readRow ifs = y at *
    obtain ⟨v, r⟩ := y
    cases v with
    | error e => exact ⟨h1, h2⟩
    | ok v => exact ⟨(fun row h => by cases h), h2⟩
  | readRows n =>
    obtain ⟨h1, h2⟩ := Reader.readRows_calm n h
    simp only [Reader.step]
    generalize R.readRows ifs n = y at *
    obtain ⟨v, r⟩ := y
    cases v with
    | error e => exact ⟨h1, h2⟩
    | ok v => exact ⟨(fun row h => by cases h), h2⟩
  | readAll =>
    obtain ⟨h1, h2⟩ := Reader.readAllLoop_calm (R.props.md.rowCount - R.rd.row + 1) h
    simp only [Reader.step, Reader.readAll]
    generalize Reader.readAllLoop ifs (R.props.md.rowCount - R.rd.row + 1) R = y at *
    obtain ⟨v, r⟩ := y
    cases v with
    | error e => exact ⟨h1, h2⟩
    | ok v => exact ⟨(fun row h => by cases h), h2⟩
  | skip n =>
    obtain ⟨h1, h2, h0⟩ := RD.skip_calm h.env h.pages h.rowsIn n R.rd h.rd h.zero
    simp only [Reader.step, Reader.skip]
    generalize R.rd.skip R.env ifs R.props.md n = y at *
    obtain ⟨v, r⟩ := y
    have h3 := h.withRd h2 h0
    cases v with
    | error e => exact ⟨h1, h3⟩
    | ok v =>
      cases v with
      | false => exact ⟨(fun row h => by cases h), h3.emit (fun i row h => by cases h)⟩
      | true => exact ⟨(fun row h => by cases h), h3⟩
  | readRowNoSink =>
    obtain ⟨h1, h2, h0⟩ := RD.readLine_calm h.env h.pages h.rowsIn h.md h.rd h.zero
    simp only [Reader.step, Reader.readRowNoSink]
    generalize R.rd.readLine R.env ifs R.props.md = y at *
    obtain ⟨v, r⟩ := y
    have h3 := h.withRd h2 h0
    cases v with
    | error e => exact ⟨h1, h3⟩
    | ok v => exact ⟨(fun row h => by cases h; exact h1 row rfl), h3⟩
  | endOfData => exact ⟨(fun row h => by cases h), h.emit (fun i row h => by cases h)⟩

theorem Reader.run_calm : ∀ (ops : List Op) {R : Reader IFStream}, ReaderIn data creators R →
    (∀ v ∈ (R.run ifs ops).1, Calm (fun v => ∀ row, v = .ptr (some row) → row.len ≤ row.mem.length) v) ∧
    ReaderIn data creators (R.run ifs ops).2
  | [], R, h => ⟨(fun v hv => by cases hv), h⟩
  | op :: ops, R, h => by
    obtain ⟨h1, h2⟩ := Reader.step_calm h op
    unfold Reader.run
    generalize R.step ifs op = y at *
    obtain ⟨v, r⟩ := y
    obtain ⟨k1, k2⟩ := Reader.run_calm ops h2
    simp only at k1 k2
    cases v with
    | ok v =>
      refine ⟨fun v' hv => ?_, k2⟩
      rcases List.mem_cons.mp hv with rfl | hv
      · exact h1
      · exact k1 _ hv
    | error e =>
      cases e with
      | exn x =>
        refine ⟨fun v' hv => ?_, k2⟩
        rcases List.mem_cons.mp hv with rfl | hv
        · exact h1
        · exact k1 _ hv
      | terminate => exact absurd (.inl rfl) h1
      | ub => exact absurd (.inr rfl) h1
      | fuel =>
        refine ⟨fun v' hv => ?_, h2⟩
        rw [List.mem_singleton.mp hv]
        exact not_crash_fuel

end

/-- What the header phase says about byte order and word size. -/
theorem readHeader_order {cfg : Cfg} {data : List Byte} {h : Header} {b : Buf} {s' : IFStream}
    (hr : readHeader cfg ifs (IFStream.open data) = .ok (h, b, s')) :
    h.endian = announcedOrder (data.take 288) ∧ h.format = announcedFormat (data.take 288) := by
  unfold readHeader at hr
  obtain ⟨⟨b1, s1⟩, h1, hr⟩ := bind_ok_inv hr
  obtain ⟨-, h2, hr⟩ := bind_ok_inv hr
  obtain ⟨al, h3, hr⟩ := bind_ok_inv hr
  obtain ⟨⟨hl, b2, s2⟩, h4, hr⟩ := bind_ok_inv hr
  obtain ⟨h', h5, hr⟩ := bind_ok_inv hr
  obtain ⟨-, -, hr⟩ := bind_ok_inv hr
  cases hr
  have e1 : Buf.readStream cfg ifs Buf.empty (IFStream.open data) 288 0 = (.ok true, b1, s1) := by
    unfold checkHeaderRead at h1
    split at h1
    · cases h1
    · rename_i heq; cases h1; exact heq
    · cases h1
  obtain ⟨-, -, ok, -, -, -⟩ := Buf.readStream_ok Buf.empty_good (by omega) (ifs_lawful.full _ 288) e1
  have hold := Buf.readStream_holds Buf.empty_good (by omega) (ifs_lawful.full _ 288) e1
  obtain ⟨t1, t2⟩ := ifs_read_true ok
  rw [t1] at hold
  simp only [IFStream.open, Nat.zero_add] at hold t2
  rw [slice_zero] at hold
  rw [setAligns_any hold (by rw [List.length_take]; omega)] at h3
  have hal : h.endian = al.endian ∧ h.format = al.format := by
    unfold setHeader at h5
    obtain ⟨_, _, h5⟩ := bind_ok_inv h5
    obtain ⟨_, _, h5⟩ := bind_ok_inv h5
    obtain ⟨_, _, h5⟩ := bind_ok_inv h5
    obtain ⟨_, _, h5⟩ := bind_ok_inv h5
    obtain ⟨_, _, h5⟩ := bind_ok_inv h5
    obtain ⟨_, _, h5⟩ := bind_ok_inv h5
    obtain ⟨_, _, h5⟩ := bind_ok_inv h5
    obtain ⟨_, _, h5⟩ := bind_ok_inv h5
    obtain ⟨v, hv, h5⟩ := bind_ok_inv h5
    obtain ⟨_, _, h5⟩ := bind_ok_inv h5
    obtain ⟨_, _, h5⟩ := bind_ok_inv h5
    obtain ⟨_, _, h5⟩ := bind_ok_inv h5
    obtain ⟨_, _, h5⟩ := bind_ok_inv h5
    obtain ⟨nb, _, h5⟩ := bind_ok_inv h5
    simp only at h5
    by_cases hn : nb ≠ 0
    · rw [if_pos hn] at h5
      obtain ⟨_, _, h5⟩ := bind_ok_inv h5
      cases h5; exact ⟨rfl, rfl⟩
    · rw [if_neg hn] at h5
      obtain ⟨_, _, h5⟩ := bind_ok_inv h5
      cases h5; exact ⟨rfl, rfl⟩
  rw [hal.1, hal.2]
  cases h3
  exact ⟨rfl, rfl⟩

theorem buildDst_calm (cfg : Cfg) (md : Meta) :
    Calm (fun dst => md.compression ≠ .none → dst.length = md.rowLength) (buildDst cfg md) := by
  unfold buildDst Buf.alloc
  split
  · rename_i h; exact fun hn => absurd h hn
  · split
    · rename_i hx
      split at hx
      · cases hx
        intro _
        simp
      · cases hx
    · rename_i hx
      split at hx
      · cases hx
      · cases hx; exact not_crash_exn _

/-- Opening a file that stays inside its pages. -/
theorem openReader_calm {cfg : Cfg} (ha : cfg.asserts = false) (hd : cfg.debug = false)
    (hmem : 288 ≤ cfg.maxAlloc) (fuel : Nat) (filter : Option Filter) (data : List Byte) {creators : Nat}
    (ho : ¬ HeaderOverrun data) (hw : ¬ WildDate data) (hin : FileInside data creators) :
    Calm (fun R => (R.props.md.rowCount = 0 ∨ ∀ k page, IsPage data k page →
        PageRowsInside (announcedOrder (data.take 288)) (announcedFormat (data.take 288)) R.props.md.rowLength
          R.props.md.rowCount R.props.md.mixCount R.props.md.compression page) → ReaderIn data creators R)
      (openReader cfg ifs fuel filter (IFStream.open data)) := by
  unfold openReader
  obtain ⟨-, k1, -, k2⟩ := readHeader_file ha hd hmem data
  refine Calm.bind (P := fun x => readHeader cfg ifs (IFStream.open data) = .ok x) ?_ fun x hx => ?_
  · cases hr : readHeader cfg ifs (IFStream.open data) with
    | error e => exact k1 ho hw e hr
    | ok x => rfl
  obtain ⟨h, b, s⟩ := x
  obtain ⟨e1, hg, hle⟩ := k2 h b s hx
  obtain ⟨e2, e3, -⟩ := readHeader_ok ifs_lawful hx
  obtain ⟨e4, e5⟩ := readHeader_order hx
  obtain ⟨t1, -⟩ := ifs_read_true e3
  rw [t1] at e2
  simp only [IFStream.open] at e2
  rw [slice_zero] at e2
  simp only
  generalize hen : ({ cfg := cfg, endian := h.endian, format := h.format
                      pageLength := h.pageLength, fuel := fuel } : Env) = env
  have he : EnvOf data env := by rw [← hen]; exact ⟨e4, e5, e2⟩
  have hpi : ∀ k page, IsPage data k page → PointersInside env.endian env.format page := by
    rw [he.endian, he.format]; exact hin.pointers
  refine Calm.bind (metaLoop_calm he hpi (creators := creators) (by rw [he.endian, he.format]; exact hin.subs)
    fuel 0 ⟨s, b, PageHdr.reset⟩ {} ?_ hg ⟨Nat.zero_le _, Nat.zero_le _, by decide⟩ rfl (fun j hj => by omega)) fun x hx => ?_
  · rw [e1]
    exact ⟨rfl, rfl, .inr (by simp)⟩
  obtain ⟨p, acc⟩ := x
  obtain ⟨hmd, hend⟩ := hx
  simp only at hmd hend ⊢
  refine Calm.bind (P := fun _ => True) ?_ fun cols _ => ?_
  · have := createColumns_errs cfg h.endian acc filter
    generalize createColumns cfg h.endian acc filter = z at *
    cases z with
    | ok c => trivial
    | error e => rcases this _ rfl with h' | h' <;> rw [h'] <;> exact not_crash_exn _
  refine Calm.bind (P := fun r => r.row = 0 ∧ ((acc.md.rowCount = 0 ∨ ∀ k page, IsPage data k page →
      PageRowsInside env.endian env.format acc.md.rowLength
          acc.md.rowCount acc.md.mixCount acc.md.compression page) → RdIn data env acc.md r)) ?_ fun r hr hrows => ?_
  · unfold RD.build
    refine Calm.bind (buildDst_calm _ _) fun dst hdst => ?_
    refine Calm.ite (fun hempty => ?_) fun hne => ?_
    · have hg' : p.buf.Good := by
        rcases hend with h | ⟨k, page, h, -⟩
        · exact h.1
        · exact h.2.1.good
      have hs' : ∃ j, AtPage data j p.src := by
        rcases hend with h | ⟨k, page, h, -⟩
        · exact h.2.1
        · exact ⟨_, h.2.2.2⟩
      refine Calm.bind (P := fun x => (acc.md.rowCount = 0 ∨ ∀ k page, IsPage data k page →
          PageRowsInside env.endian env.format acc.md.rowLength
            acc.md.rowCount acc.md.mixCount acc.md.compression page) → acc.md.rowCount ≠ 0 →
          ∀ pg, x = some pg → CurIn data env acc.md p.buf pg) ?_ fun pg hpg =>
        ⟨rfl, fun hr hrc => ⟨hg', hs', hpg hr hrc, hdst⟩⟩
      rcases hend with h | ⟨k, page, h, -⟩
      · rw [h.2.2.1]
        have : buildPage env acc.md p.buf PageHdr.reset = .ok none := rfl
        rw [this]
        intro _ _ pg hpg
        cases hpg
      · have c1 := buildPage_noCrash hpi (md := acc.md) h
        have c2 := fun hrc hr => buildPage_calm hpi (md := acc.md) hrc hr h
        generalize buildPage env acc.md p.buf p.hdr = z at *
        cases z with
        | error e => exact c1
        | ok x =>
          intro hr hrc pg hpg
          exact (c2 hrc (hr.resolve_left hrc) pg hpg).1
    · refine ⟨rfl, fun _ _ => ?_⟩
      have hne' : acc.dataSubs ≠ [] := by intro h; rw [h] at hne; exact hne rfl
      rcases hend with h | ⟨k, page, h, hsub, hm⟩
      · exact absurd h.2.2.2 hne'
      · refine ⟨h.2.1.good, ⟨_, h.2.2.2⟩, fun pg hpg => ?_, hdst⟩
        cases hpg
        exact ⟨k, page, h.1, h.2.1, hne', Nat.zero_le _, hsub, hm hne'⟩
  · have hrows' := hrows
    rw [← he.endian, ← he.format] at hrows'
    refine ⟨he, hpi, hrows'.resolve_left, hmd, hr.2 hrows', fun _ => hr.1, fun i row hm => ?_⟩
    have := List.mem_singleton.mp hm
    cases this

end Sas
