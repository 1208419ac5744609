import Verif.Spec.Rows
import Verif.Proofs.OpenLayout

/-!
# Reading the rows of a well-formed file
-/

namespace Sas

open Spec

variable {σ : Type} {S : Source σ} {env : Env} {md : Meta}

theorem Page.next_iff {pg : Page} : pg.next = true ↔ pg.cur = pg.rows.length := by
  unfold Page.next Page.rows
  cases pg.kind <;> simp

theorem Page.readLine_get {pg : Page} {ol : Nat × Nat} (h : pg.rows[pg.cur]? = some ol)
    (hb : ol.1 + ol.2 < 2 ^ 64) : pg.readLine = .ok ol := by
  unfold Page.readLine
  unfold Page.rows at h
  cases hk : pg.kind with
  | metaP subs =>
    simp only [hk] at h ⊢
    rw [h]
  | dataP n o l =>
    simp only [hk] at h ⊢
    obtain ⟨hlt, hval⟩ := List.getElem?_eq_some_iff.mp h
    simp at hval
    subst hval
    rw [w64, Nat.mod_eq_of_lt (by simp at hb; omega)]
  | mixP n o l =>
    simp only [hk] at h ⊢
    obtain ⟨hlt, hval⟩ := List.getElem?_eq_some_iff.mp h
    simp at hval
    subst hval
    rw [w64, Nat.mod_eq_of_lt (by simp at hb; omega)]

/-- The rows of a page as they are stored. -/
def rawsOf (page : List Byte) (ols : List (Nat × Nat)) : List (List Byte) :=
  ols.map fun ol => slice page ol.1 ol.2

/-- The pages after the current one, and how the source ends. -/
structure Tail (env : Env) (S : Source σ) (md : Meta) (rs : RowSize) (s : σ)
    (tail : List (List Byte × PageOutline)) (en : Ending) : Prop where
  stream : Stream S env.pageLength s (tail.map (·.1)) en
  pages : ∀ po ∈ tail, RowPage env.endian env.format (decide (md.compression ≠ .none)) rs po
  rows : ∀ po ∈ tail, hasRows po.2.type = true →
    storedRows env.format (decide (md.compression ≠ .none)) rs po ≠ []

/-- What is still to be read: the rows `raws`, as they are stored; then the source ends with `en`. -/
structure Left (env : Env) (S : Source σ) (md : Meta) (rs : RowSize) (r : RD σ) (pg : Page)
    (page : List Byte) (tail : List (List Byte × PageOutline)) (en : Ending) : Prop where
  current : r.page = some pg
  holds : r.p.buf.Holds page
  len : page.length = env.pageLength
  cur : pg.cur ≤ pg.rows.length
  inside : ∀ ol ∈ pg.rows, ol.1 + ol.2 ≤ page.length
  fuel : tail.length < env.fuel
  after : Tail env S md rs r.p.src tail en
  dst : md.compression ≠ .none → r.dst.length = md.rowLength

/-- The rows that are left, as they are stored. -/
def leftRows (env : Env) (md : Meta) (rs : RowSize) (pg : Page) (page : List Byte)
    (tail : List (List Byte × PageOutline)) : List (List Byte) :=
  rawsOf page (pg.rows.drop pg.cur) ++
    tail.flatMap (storedRows env.format (decide (md.compression ≠ .none)) rs)

/-- The metadata agrees with the row-size subheader. -/
structure SizesAre (md : Meta) (rs : RowSize) : Prop where
  rowLength : md.rowLength = rs.rowLength
  rowCount : md.rowCount = rs.rowCount
  mixCount : md.mixCount = rs.mixCount

theorem Spec.Stream.head_length {L : Nat} {s : σ} {page : List Byte} {ps : List (List Byte)} {en : Ending}
    (h : Stream S L s (page :: ps) en) : page.length = L := by
  cases h with
  | page _ _ _ _ _ hl _ => exact hl

/-- Reading the next page with rows: the first page of the tail with rows becomes the current one. -/
theorem nextPageLoop_tail (hfit : PageFits env) {rs : RowSize} (hsz : SizesAre md rs) :
    ∀ (tail : List (List Byte × PageOutline)) (en : Ending) (r : RD σ) (fuel : Nat),
      r.p.buf.Good → Tail env S md rs r.p.src tail en → tail.length < fuel →
      (∃ pg page tail', (nextPageLoop env S md fuel r).1 = .ok true ∧
        (nextPageLoop env S md fuel r).2.row = r.row ∧ (nextPageLoop env S md fuel r).2.dst = r.dst ∧
        (nextPageLoop env S md fuel r).2.page = some pg ∧ pg.cur = 0 ∧ pg.rows ≠ [] ∧
        (nextPageLoop env S md fuel r).2.p.buf.Holds page ∧ page.length = env.pageLength ∧
        (∀ ol ∈ pg.rows, ol.1 + ol.2 ≤ page.length) ∧
        Tail env S md rs (nextPageLoop env S md fuel r).2.p.src tail' en ∧ tail'.length ≤ tail.length ∧
        tail.flatMap (storedRows env.format (decide (md.compression ≠ .none)) rs) =
          leftRows env md rs pg page tail') ∨
      ((nextPageLoop env S md fuel r).1 =
          (if en = .endOfFile then .ok false else .error (.exn .cannotReadPage)) ∧
        (nextPageLoop env S md fuel r).2.row = r.row ∧ (nextPageLoop env S md fuel r).2.dst = r.dst ∧
        (nextPageLoop env S md fuel r).2.page = r.page ∧
        tail.flatMap (storedRows env.format (decide (md.compression ≠ .none)) rs) = []) := by
  intro tail
  induction tail with
  | nil =>
    intro en r fuel hg ht hf
    right
    obtain ⟨n, rfl⟩ : ∃ n, fuel = n + 1 := ⟨fuel - 1, by simp at hf; omega⟩
    have hst := ht.stream
    unfold nextPageLoop
    cases en with
    | endOfFile =>
      obtain ⟨b, s', e, _⟩ := readPage_end hfit hg hst
      rw [e]
      simp
    | ioError =>
      obtain ⟨p', e⟩ := readPage_fail hfit hg hst
      rw [e]
      simp
  | cons po tail ih =>
    intro en r fuel hg ht hf
    obtain ⟨n, rfl⟩ : ∃ n, fuel = n + 1 := ⟨fuel - 1, by simp at hf; omega⟩
    have hpo := ht.pages po (List.mem_cons_self ..)
    have hst : Stream S env.pageLength r.p.src (po.1 :: tail.map (·.1)) en := ht.stream
    have hlen : po.1.length = env.pageLength := by
      exact hst.head_length
    obtain ⟨b, s', e1, hb, hst'⟩ := readPage_outline hfit hg hst hpo.layout
    obtain ⟨o, e2, ho1, ho2⟩ := buildPage_layout (env := env) (md := md) (r := rs) hb hpo.layout
      hsz.rowLength hsz.rowCount hsz.mixCount
    have ht' : Tail env S md rs s' tail en :=
      ⟨hst', fun q hq => ht.pages q (List.mem_cons_of_mem _ hq),
        fun q hq => ht.rows q (List.mem_cons_of_mem _ hq)⟩
    unfold nextPageLoop
    rw [e1]
    simp only
    rw [e2]
    cases o with
    | some pg =>
      obtain ⟨g1, g2, g3⟩ := ho1 pg rfl
      left
      refine ⟨pg, po.1, tail, rfl, rfl, rfl, rfl, g1, ?_, hb, hlen, ?_, ht', by simp, ?_⟩
      · intro hnil
        by_cases t0 : po.2.type = 0
        · exact g3 t0 hnil
        · by_cases hr : hasRows po.2.type = true
          · apply ht.rows po (List.mem_cons_self ..) hr
            unfold storedRows
            rw [← g2, hnil]
            rfl
          · exfalso
            unfold buildPage at e2
            simp only [pageMeta, t0, if_false] at e2
            simp only [hasRows, decide_eq_true_eq, not_or] at hr
            simp [pageData, isPageMix, pageMix1, pageMix2, hr.1, hr.2.1, hr.2.2] at e2
      · rw [g2]; exact hpo.inside
      · unfold leftRows rawsOf
        rw [g1, List.drop_zero, g2, List.flatMap_cons]
        rfl
    | none =>
      obtain ⟨g1, g2⟩ := ho2 rfl
      simp only
      have hnil : storedRows env.format (decide (md.compression ≠ .none)) rs po = [] := by
        unfold storedRows; rw [g2]; rfl
      rw [List.flatMap_cons, hnil, List.nil_append]
      have := ih en { r with p := ⟨s', b, ⟨po.2.type, po.2.blocks, po.2.ptrs.length⟩⟩ } n hb.good ht'
        (by simp at hf; omega)
      rcases this with ⟨pg, page, tail', h1, h2, h3, h4, h5, h6, h7, h8, h9, h10, h11, h12⟩ | h
      · left
        exact ⟨pg, page, tail', h1, h2, h3, h4, h5, h6, h7, h8, h9, h10, by simp; omega, h12⟩
      · right; exact h

/-- Moving to the next row when there is one. -/
theorem Left.advance_some (hfit : PageFits env) {rs : RowSize} (hsz : SizesAre md rs) {r : RD σ} {pg : Page}
    {page : List Byte} {tail : List (List Byte × PageOutline)} {en : Ending}
    (h : Left env S md rs r pg page tail en) (hrow : r.row < md.rowCount) {raw : List Byte}
    {raws : List (List Byte)} (hr : leftRows env md rs pg page tail = raw :: raws) :
    ∃ ol r1 pg' page' tail', r.advance env S md = (.ok (some ol), r1) ∧ r1.row = r.row + 1 ∧
      Left env S md rs r1 pg' page' tail' en ∧ leftRows env md rs pg' page' tail' = raws ∧
      ol.1 + ol.2 ≤ page'.length ∧ raw = slice page' ol.1 ol.2 := by
  -- one step inside a page
  have key : ∀ (r : RD σ) (pg : Page) (page : List Byte) (tail : List (List Byte × PageOutline)),
      Left env S md rs r pg page tail en → leftRows env md rs pg page tail = raw :: raws →
      pg.cur < pg.rows.length →
      ∃ ol r1 pg' page' tail', r.takeLine = (.ok ol, r1) ∧ r1.row = r.row + 1 ∧
        Left env S md rs r1 pg' page' tail' en ∧ leftRows env md rs pg' page' tail' = raws ∧
        ol.1 + ol.2 ≤ page'.length ∧ raw = slice page' ol.1 ol.2 := by
    intro r pg page tail h hr hcur
    have hfs := hfit.small
    have hget : pg.rows[pg.cur]? = some pg.rows[pg.cur] := by simp [hcur]
    have hin := h.inside _ (List.getElem_mem hcur)
    have hl := h.len
    have e := Page.readLine_get hget (by omega)
    unfold leftRows rawsOf at hr
    rw [List.drop_eq_getElem_cons hcur, List.map_cons, List.cons_append, List.cons.injEq] at hr
    refine ⟨pg.rows[pg.cur], { r with row := r.row + 1, page := some { pg with cur := pg.cur + 1 } },
      { pg with cur := pg.cur + 1 }, page, tail, ?_, rfl, ?_, hr.2, hin, hr.1.symm⟩
    · unfold RD.takeLine
      rw [h.current]
      simp only
      rw [e]
    · exact ⟨rfl, h.holds, h.len, hcur, h.inside, h.fuel, h.after, h.dst⟩
  unfold RD.advance RD.next
  rw [if_neg (by omega), h.current]
  simp only
  by_cases hcur : pg.cur = pg.rows.length
  · rw [if_pos (Page.next_iff.mpr hcur)]
    unfold readNextPage
    have ht := nextPageLoop_tail hfit hsz tail en { r with page := none } env.fuel h.holds.good h.after h.fuel
    have hr' : tail.flatMap (storedRows env.format (decide (md.compression ≠ .none)) rs) = raw :: raws := by
      rw [← hr]
      unfold leftRows rawsOf
      rw [hcur]
      simp
    rcases ht with ⟨pg', page', tail', h1, h2, h3, h4, h5, h6, h7, h8, h9, h10, h11, h12⟩ | ⟨_, _, _, _, h5⟩
    · have hf := h.fuel
      have hleft : Left env S md rs (nextPageLoop env S md env.fuel { r with page := none }).2 pg' page' tail' en :=
        ⟨h4, h7, h8, by omega, h9, by omega, h10, by rw [h3]; exact h.dst⟩
      obtain ⟨ol, r1, pg2, page2, tail2, e1, e2, e3⟩ := key _ pg' page' tail' hleft (by rw [← h12, hr'])
        (by rw [h5]; exact List.length_pos_iff.mpr h6)
      refine ⟨ol, r1, pg2, page2, tail2, ?_, by rw [e2, h2], e3⟩
      generalize nextPageLoop env S md env.fuel { r with page := none } = x at h1 e1
      obtain ⟨x1, x2⟩ := x
      simp only at h1 e1
      subst h1
      simp only
      rw [e1]
    · rw [h5] at hr'; cases hr'
  · rw [if_neg (by rw [Page.next_iff]; exact hcur)]
    simp only
    have := h.cur
    obtain ⟨ol, r1, pg2, page2, tail2, e1, e2⟩ := key r pg page tail h hr (by omega)
    refine ⟨ol, r1, pg2, page2, tail2, ?_, e2⟩
    rw [e1]

/-- Asking for a row when there is none left. -/
theorem Left.advance_none (hfit : PageFits env) {rs : RowSize} (hsz : SizesAre md rs) {r : RD σ} {pg : Page}
    {page : List Byte} {tail : List (List Byte × PageOutline)} {en : Ending}
    (h : Left env S md rs r pg page tail en) (hrow : r.row < md.rowCount)
    (hr : leftRows env md rs pg page tail = []) :
    ∃ r1, r.advance env S md =
        ((if en = .endOfFile then .ok none else .error (.exn .cannotReadPage)), r1) ∧
      r1.row = r.row ∧ r1.page = none := by
  unfold leftRows rawsOf at hr
  rw [List.append_eq_nil_iff, List.map_eq_nil_iff, List.drop_eq_nil_iff] at hr
  have := h.cur
  have hcur : pg.cur = pg.rows.length := by omega
  unfold RD.advance RD.next
  rw [if_neg (by omega), h.current]
  simp only
  rw [if_pos (Page.next_iff.mpr hcur)]
  unfold readNextPage
  have ht := nextPageLoop_tail hfit hsz tail en { r with page := none } env.fuel h.holds.good h.after h.fuel
  rcases ht with ⟨pg', page', tail', h1, h2, h3, h4, h5, h6, h7, h8, h9, h10, h11, h12⟩ | ⟨h1, h2, h3, h4, h5⟩
  · rw [hr.2] at h12
    exfalso
    unfold leftRows rawsOf at h12
    rw [eq_comm, List.append_eq_nil_iff, List.map_eq_nil_iff, List.drop_eq_nil_iff, h5] at h12
    exact h6 (List.length_eq_zero_iff.mp (by omega))
  · refine ⟨(nextPageLoop env S md env.fuel { r with page := none }).2, ?_, h2, h4⟩
    generalize nextPageLoop env S md env.fuel { r with page := none } = x at h1
    obtain ⟨x1, x2⟩ := x
    simp only at h1
    subst h1
    by_cases hen : en = .endOfFile <;> simp [hen]

/-- Extracting a row that is inside the page. -/
theorem RD.extract_row (hfit : PageFits env) {r : RD σ} {page : List Byte} (hb : r.p.buf.Holds page)
    (hl : page.length = env.pageLength) (hd : md.compression ≠ .none → r.dst.length = md.rowLength)
    (hrl : md.rowLength < 2 ^ 64)
    {ol : Nat × Nat} (hin : ol.1 + ol.2 ≤ page.length) {row : List Byte}
    (hrow : RowOf md.compression md.rowLength (slice page ol.1 ol.2) row) :
    ∃ rw r1, r.extract env md ol.1 ol.2 = (.ok rw, r1) ∧ rw.bytes = row := by
  have hfs := hfit.small
  have hlen : (slice page ol.1 ol.2).length = ol.2 := by rw [slice_length]; omega
  unfold RD.extract
  have e1 : fmtAssert env.cfg (w64 (ol.1 + ol.2) ≤ env.pageLength) = .ok () := by
    unfold fmtAssert
    rw [w64, Nat.mod_eq_of_lt (by omega)]
    simp [← hl, hin]
  rw [e1]
  simp only
  rw [hb.rd hin]
  simp only
  generalize hv : slice page ol.1 ol.2 = values at hrow hlen
  cases hrow with
  | plain values h =>
    rw [if_neg (by omega)]
    refine ⟨_, _, rfl, ?_⟩
    show (r.p.buf.mem.drop ol.1).take ol.2 = row
    rw [← hv, ← hb.slice hin]
    rfl
  | rle cs hc hval hs hfit' =>
    rw [if_pos (by omega)]
    unfold RD.decompress
    have hd' := hd (by rw [hc]; simp)
    rw [hc]
    have e2 := rle_exact cs hval r.dst (by omega)
    rw [hd'] at e2
    generalize rle (rleEncode cs) r.dst = x at e2
    obtain ⟨x1, x2⟩ := x
    simp only at e2
    subst e2
    exact ⟨_, _, rfl, List.take_length⟩
  | rdc gs last out kept hc hg hlast hs ho hfit' hk =>
    rw [if_pos (by omega)]
    unfold RD.decompress
    have hd' := hd (by rw [hc]; simp)
    rw [hc]
    obtain ⟨kept', h1, e2⟩ := rdc_exact env.cfg gs last hg hlast r.dst out ho (by omega) (by omega)
    rw [hk] at h1
    cases h1
    rw [hd'] at e2
    generalize rdc env.cfg (rdcEncode gs last) r.dst = x at e2
    obtain ⟨x1, x2⟩ := x
    simp only at e2
    subst e2
    exact ⟨_, _, rfl, List.take_length⟩

/-- Reading a row. -/
theorem Left.readLine_some (hfit : PageFits env) {rs : RowSize} (hsz : SizesAre md rs)
    (hrl : md.rowLength < 2 ^ 64) {r : RD σ} {pg : Page}
    {page : List Byte} {tail : List (List Byte × PageOutline)} {en : Ending}
    (h : Left env S md rs r pg page tail en) (hrow : r.row < md.rowCount) {raw row : List Byte}
    {raws : List (List Byte)} (hr : leftRows env md rs pg page tail = raw :: raws)
    (hro : RowOf md.compression md.rowLength raw row) :
    ∃ rw r1 pg' page' tail', r.readLine env S md = (.ok (some rw), r1) ∧ rw.bytes = row ∧
      r1.row = r.row + 1 ∧ Left env S md rs r1 pg' page' tail' en ∧
      leftRows env md rs pg' page' tail' = raws := by
  obtain ⟨ol, r1, pg', page', tail', e1, e2, e3, e4, e5, e6⟩ := h.advance_some hfit hsz hrow hr
  subst e6
  obtain ⟨rw, r2, g1, g2⟩ := RD.extract_row hfit e3.holds e3.len e3.dst hrl e5 hro
  have hfr := RD.extract_frame env md r1 ol.1 ol.2
  rw [g1] at hfr
  simp only at hfr
  refine ⟨rw, r2, pg', page', tail', ?_, g2, ?_, ?_, e4⟩
  · rw [RD.readLine_eq, e1]
    simp only
    rw [g1]
  · rw [hfr.1]; exact e2
  · rw [hfr.1]
    exact ⟨e3.current, e3.holds, e3.len, e3.cur, e3.inside, e3.fuel, e3.after,
      fun hc => by show r2.dst.length = _; rw [hfr.2]; exact e3.dst hc⟩

theorem Left.readLine_none (hfit : PageFits env) {rs : RowSize} (hsz : SizesAre md rs) {r : RD σ} {pg : Page}
    {page : List Byte} {tail : List (List Byte × PageOutline)} {en : Ending}
    (h : Left env S md rs r pg page tail en) (hrow : r.row < md.rowCount)
    (hr : leftRows env md rs pg page tail = []) :
    ∃ r1, r.readLine env S md =
        ((if en = .endOfFile then .ok none else .error (.exn .cannotReadPage)), r1) ∧
      r1.row = r.row ∧ r1.page = none := by
  obtain ⟨r1, e1, e2⟩ := h.advance_none hfit hsz hrow hr
  refine ⟨r1, ?_, e2⟩
  rw [RD.readLine_eq, e1]
  by_cases hen : en = .endOfFile <;> simp [hen]

theorem Spec.RowsOf.cons_inv {c : Compression} {n : Nat} {raw : List Byte} {raws rows : List (List Byte)}
    (h : RowsOf c n (raw :: raws) rows) :
    ∃ row rows', rows = row :: rows' ∧ RowOf c n raw row ∧ RowsOf c n raws rows' := by
  cases rows with
  | nil => simp [RowsOf] at h
  | cons row rows' =>
    exact ⟨row, rows', rfl, h.2 0 raw row rfl rfl, by simpa using h.1,
      fun i a b h1 h2 => h.2 (i + 1) a b (by simpa using h1) (by simpa using h2)⟩

theorem Spec.RowsOf.nil_inv {c : Compression} {n : Nat} {rows : List (List Byte)}
    (h : RowsOf c n [] rows) : rows = [] := List.length_eq_zero_iff.mp (by simpa using h.1.symm)

/-- `read_all` pushes the rows that are left, up to the announced number. -/
theorem Reader.readAllLoop_left {rs : RowSize} :
    ∀ (fuel : Nat) (R : Reader σ) (pg : Page) (page : List Byte) (tail : List (List Byte × PageOutline))
      (en : Ending) (rows : List (List Byte)),
      PageFits R.env → SizesAre R.props.md rs → R.props.md.rowLength < 2 ^ 64 →
      Left R.env S R.props.md rs R.rd pg page tail en → R.rd.row ≤ R.props.md.rowCount →
      R.props.md.rowCount - R.rd.row < fuel →
      RowsOf R.props.md.compression R.props.md.rowLength
        ((leftRows R.env R.props.md rs pg page tail).take (R.props.md.rowCount - R.rd.row)) rows →
      ∃ rws : List Row, rws.map Row.bytes = rows ∧
        (R.readAllLoop S fuel).2.rd.row = R.rd.row + rws.length ∧
        (if en = .endOfFile ∨ R.props.md.rowCount - R.rd.row ≤ (leftRows R.env R.props.md rs pg page tail).length then
          (R.readAllLoop S fuel).1 = .ok () ∧
          (R.readAllLoop S fuel).2.trace = R.trace ++ pushEvents R.rd.row rws ++ [.endOfData]
        else (R.readAllLoop S fuel).1 = .error (.exn .cannotReadPage) ∧
          (R.readAllLoop S fuel).2.trace = R.trace ++ pushEvents R.rd.row rws) := by
  intro fuel
  induction fuel with
  | zero => intro R pg page tail en rows _ _ _ _ _ hf; omega
  | succ n ih =>
    intro R pg page tail en rows hfit hsz hrl hleft hle hf hrows
    by_cases hend : R.rd.row = R.props.md.rowCount
    · -- all announced rows have been read
      have e := Reader.readRow_ended (S := S) R (.inl hend)
      rw [show R.props.md.rowCount - R.rd.row = 0 by omega, List.take_zero] at hrows
      refine ⟨[], hrows.nil_inv.symm, ?_, ?_⟩
      · unfold Reader.readAllLoop
        rw [e]
        rfl
      · rw [if_pos (by right; omega)]
        unfold Reader.readAllLoop
        rw [e]
        simp [Reader.endOfData, Reader.emit, pushEvents]
    · have hlt : R.rd.row < R.props.md.rowCount := by omega
      obtain ⟨m, hm⟩ : ∃ m, R.props.md.rowCount - R.rd.row = m + 1 :=
        ⟨R.props.md.rowCount - R.rd.row - 1, by omega⟩
      cases hl : leftRows R.env R.props.md rs pg page tail with
      | nil =>
        rw [hl, List.take_nil] at hrows
        obtain ⟨r1, e1, e2, e3⟩ := hleft.readLine_none hfit hsz hlt hl
        refine ⟨[], hrows.nil_inv.symm, ?_⟩
        unfold Reader.readAllLoop Reader.readRow
        rw [e1]
        by_cases hen : en = .endOfFile
        · simp [hen, Reader.endOfData, Reader.emit, pushEvents, e2]
        · simp [hen, hm, pushEvents, e2]
      | cons raw raws =>
        rw [hl, hm, List.take_succ_cons] at hrows
        obtain ⟨row, rows', rfl, hro, hrows'⟩ := hrows.cons_inv
        obtain ⟨rw1, r1, pg', page', tail', e1, e2, e3, e4, e5⟩ := hleft.readLine_some hfit hsz hrl hlt hl hro
        let R1 : Reader σ := ({ R with rd := r1 } : Reader σ).emit (.pushRow R.rd.row rw1)
        have e6 : R.readRow S = (.ok true, R1) := by
          unfold Reader.readRow
          rw [e1]
          rfl
        obtain ⟨rws, g1, g2, g3⟩ := ih R1 pg' page' tail' en rows' hfit hsz hrl e4
          (by show r1.row ≤ R.props.md.rowCount; omega) (by show R.props.md.rowCount - r1.row < n; omega) (by
            show RowsOf _ _ ((leftRows R.env R.props.md rs pg' page' tail').take (R.props.md.rowCount - r1.row)) _
            rw [e5, show R.props.md.rowCount - r1.row = m by omega]
            exact hrows')
        refine ⟨rw1 :: rws, by simp [e2, g1], ?_, ?_⟩
        · unfold Reader.readAllLoop
          rw [e6]
          simp only
          rw [g2]
          show r1.row + rws.length = _
          rw [e3]
          simp; omega
        · have hx : R1.trace ++ pushEvents R1.rd.row rws = R.trace ++ pushEvents R.rd.row (rw1 :: rws) := by
            show R.trace ++ [.pushRow R.rd.row rw1] ++ pushEvents r1.row rws = _
            rw [e3]
            simp [pushEvents]
          rw [← hx]
          have hiff : (en = .endOfFile ∨ R1.props.md.rowCount - R1.rd.row ≤
              (leftRows R1.env R1.props.md rs pg' page' tail').length) ↔
              (en = .endOfFile ∨ R.props.md.rowCount - R.rd.row ≤ (raw :: raws).length) := by
            have : (leftRows R1.env R1.props.md rs pg' page' tail').length = raws.length := by
              rw [← e5]; rfl
            rw [this, List.length_cons]
            show (_ ∨ R.props.md.rowCount - r1.row ≤ _) ↔ _
            rw [e3, hm]
            constructor <;> rintro (h | h) <;> first | exact .inl h | (right; omega)
          have hloop : R.readAllLoop S (n + 1) = R1.readAllLoop S n := by
            conv => lhs; unfold Reader.readAllLoop
            rw [e6]
          rw [hloop]
          by_cases hc : en = .endOfFile ∨ R.props.md.rowCount - R.rd.row ≤ (raw :: raws).length
          · rw [if_pos hc]; rw [if_pos (hiff.mpr hc)] at g3; exact g3
          · rw [if_neg hc]; rw [if_neg (fun h => hc (hiff.mp h))] at g3; exact g3

/-! ## The reader of a well-formed file -/

section file

variable {cfg : Cfg} {s : σ} {h : FileHeader}
  {pre : List (List Byte × PageContent)} {k : Option (List Byte × PageContent)}
  {tail : List (List Byte × PageOutline)} {en : Ending} {all : List Sub} {c : Compression} {fuel : Nat}

/-- The pages before the first one with rows hold none. -/
theorem stored_pre {p : List Byte × PageContent} (hp : RowPointers c p.2)
    (hlast : p.2.last (decide (c ≠ .none)) = false) (f : Format) (r : RowSize) :
    storedRows f (decide (c ≠ .none)) r (p.1, p.2.outline) = [] := by
  unfold PageContent.last at hlast
  rw [Bool.or_eq_false_iff] at hlast
  have hnr := hlast.1
  simp only [hasRows, decide_eq_false_iff_not, not_or] at hnr
  unfold storedRows rowsAt PageContent.outline
  simp only [hnr.1, hnr.2.1, hnr.2.2, if_false, or_self]
  by_cases t0 : p.2.type = 0
  · simp only [t0, if_true]
    by_cases hc : c = .none
    · simp [hc]
    · simp only [ne_eq, hc, not_false_eq_true, decide_true, if_true]
      have hm : hasMeta p.2.type = true := by simp [hasMeta, t0]
      have h2 := hlast.2
      simp only [ne_eq, hc, not_false_eq_true, decide_true, Bool.true_and] at h2
      rw [List.map_eq_nil_iff, List.map_eq_nil_iff, List.filter_eq_nil_iff]
      intro q hq hrow
      rw [List.mem_filter, List.mem_map] at hq
      obtain ⟨⟨ps, hps, rfl⟩, hl⟩ := hq
      have := hp.rows hm ps hps hl hrow
      have hmem : Sub.row ∈ p.2.used := by
        unfold PageContent.used
        rw [if_pos hm]
        exact List.mem_map.mpr ⟨ps, List.mem_filter.mpr ⟨hps, hl⟩, this⟩
      rw [List.contains_iff_mem.mpr hmem] at h2
      cases h2
  · simp only [t0, if_false]
    rfl

/-- The rows of the first page with rows. -/
theorem firstRows_eq {p : List Byte × PageContent} (hp : RowPointers c p.2) {e : Endian} {f : Format}
    (hpi : PageIs e f p.1 p.2) (r : RowSize) :
    firstRows f c r p.2 = rowsAt f (decide (c ≠ .none)) r p.2.type p.2.blocks (p.2.subs.map (·.1)) := by
  unfold firstRows
  split
  · rename_i hcr
    have hmem : p.2.used.contains .row = true := by
      rw [PageContent.used_eq, List.contains_iff_mem]
      have := hcr.2
      unfold rowPtrs at this
      rw [ne_eq, List.map_eq_nil_iff, List.filter_eq_nil_iff] at this
      simp only [Classical.not_forall, Classical.not_not] at this
      obtain ⟨ps, hps, h⟩ := this
      exact List.mem_map.mpr ⟨ps, hps, by simpa using h⟩
    have t0 := hp.onMeta hcr.1 hmem
    have hm : hasMeta p.2.type = true := by simp [hasMeta, t0]
    unfold rowsAt
    simp only [t0, if_true, ne_eq, hcr.1, not_false_eq_true, decide_true]
    have hu : p.2.usedPtrs = p.2.subs.filter fun ps => live ps.1 := by
      simp [PageContent.usedPtrs, hm]
    unfold rowPtrs
    rw [hu]
    have hmap : (p.2.subs.map (·.1)).filter live = (p.2.subs.filter fun ps => live ps.1).map (·.1) := by
      rw [List.filter_map]; rfl
    rw [hmap, List.filter_map, List.map_map]
    have hf : (p.2.subs.filter fun ps => live ps.1).filter (fun ps => decide (ps.2 = .row)) =
        (p.2.subs.filter fun ps => live ps.1).filter (rowPtr ∘ fun x => x.1) := by
      apply List.filter_congr
      intro ps hps
      rw [List.mem_filter] at hps
      by_cases hrow : ps.2 = .row
      · have hsl := hpi.subs hm ps hps.1 hps.2
        rw [hrow] at hsl
        simp only [SubLayout] at hsl
        simp [hrow, hsl.2.2]
      · simp only [hrow, decide_false, Function.comp]
        cases hrp : rowPtr ps.1 with
        | false => rfl
        | true => exact absurd (hp.rows hm ps hps.1 hps.2 hrp) hrow
    rw [← hf]
    rfl
  · rfl

/-- A reader opened on a well-formed file with rows has all of them before it. -/
theorem openReader_left {kp : List Byte × PageContent}
    (hw : WellFormed cfg S s h pre (some kp) (tail.map (·.1)) en all c fuel)
    (hrf : RowFile h pre (some kp) tail all c) (hfuel : tail.length < fuel) {filter : Option Filter}
    {R : Reader σ} (hR : openReader cfg S fuel filter s = .ok R) :
    ∃ pg, PageFits R.env ∧ SizesAre R.props.md (rowSizeOf .none all) ∧ R.props.md.compression = c ∧
      R.rd.row = 0 ∧ R.trace = [.setProperties R.props] ∧
      Left R.env S R.props.md (rowSizeOf .none all) R.rd pg kp.1 tail en ∧
      leftRows R.env R.props.md (rowSizeOf .none all) pg kp.1 tail =
        fileRows h all c (outlines pre (some kp) tail) := by
  obtain ⟨acc, b, s', hacc, hds, hb, hst, ho⟩ := openReader_stop hw
  obtain ⟨pg, dst, hbuild, hcur, hrows, hdst⟩ := RD_build_stop (s' := s') hw hacc hds hb
  rw [ho] at hR
  unfold finish at hR
  obtain ⟨cols, hc, hR⟩ := bind_ok_inv hR
  rw [hbuild, Res.ok_bind] at hR
  cases hR
  have hcomp : acc.md.compression = c := by rw [hacc.compression, hw.fileMeta.announced]
  have hk := hw.fileMeta.k_is kp rfl
  have hpp := hrf.pointers kp (by simp)
  have hfirst := hrf.first kp rfl
  obtain ⟨bs, s1, s2, hl, r1, r2, hstr⟩ := hw.presents
  have hrows' := hrows.trans (firstRows_eq hpp hk.1 (rowSizeOf .none all))
  have hlen : kp.1.length = h.pageLength := by
    have : ∀ (l : List (List Byte)) (s : σ) (x : List Byte) (m : List (List Byte)),
        Stream S h.pageLength s (l ++ x :: m) en → x.length = h.pageLength := by
      intro l
      induction l with
      | nil => intro s x m h; exact h.head_length
      | cons y l ih =>
        intro s x m h
        rw [List.cons_append] at h
        cases h with
        | page _ _ _ _ _ _ rest => exact ih _ _ _ rest
    exact this _ _ _ _ hstr
  refine ⟨pg, envOf_fits ⟨bs, hl⟩ hw.memory.2.1, ⟨hacc.rowLength, hacc.rowCount, hacc.mixCount⟩, hcomp, rfl, rfl,
    ?_, ?_⟩
  · refine ⟨rfl, hb, hlen, by omega, ?_, hfuel, ⟨hst, ?_, ?_⟩, ?_⟩
    · rw [hrows']; exact hfirst.inside
    · simp only [hcomp]; exact hrf.later
    · simp only [hcomp]; exact hrf.announced
    · simp only [hcomp, hacc.rowLength]; exact hdst
  · unfold leftRows fileRows outlines rawsOf
    simp only [hcomp]
    rw [hcur, List.drop_zero, hrows', List.flatMap_append, List.map_append, List.flatMap_append]
    have hpre : (pre.map fun pc => (pc.1, pc.2.outline)).flatMap
        (storedRows h.fmt (decide (c ≠ .none)) (rowSizeOf .none all)) = [] := by
      rw [List.flatMap_eq_nil_iff]
      intro x hx
      obtain ⟨pc, hpc, rfl⟩ := List.mem_map.mp hx
      exact stored_pre (hrf.pointers pc (by simp [hpc])) (hw.fileMeta.pre_is pc hpc).2 _ _
    rw [hpre, List.nil_append]
    simp [storedRows, PageContent.outline, envOf]

end file

end Sas
