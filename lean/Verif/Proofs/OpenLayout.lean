import Verif.Proofs.Open
import Verif.Proofs.Filter

/-!
# Opening a well-formed file
-/

namespace Sas

open Spec

variable {σ : Type} {S : Source σ} {cfg : Cfg} {s : σ} {h : FileHeader}
  {pre : List (List Byte × PageContent)} {k : Option (List Byte × PageContent)}
  {post : List (List Byte)} {en : Ending} {all : List Sub} {c : Compression} {fuel : Nat}

/-- The environment of a reader on a file with header `h`. -/
def envOf (cfg : Cfg) (h : FileHeader) (fuel : Nat) : Env := ⟨cfg, h.endian, h.fmt, h.pageLength, fuel⟩

/-- The end of the construction of a reader. -/
def finish (cfg : Cfg) (h : FileHeader) (fuel : Nat) (acc : Acc) (p : PState σ) (filter : Option Filter) :
    Res (Reader σ) := do
  let columns ← createColumns cfg h.endian acc filter
  let rd ← RD.build (envOf cfg h fuel) p acc
  let props : Properties := { header := h.reported, md := acc.md, columns := columns }
  return { env := envOf cfg h fuel, props := props, rd := rd, trace := [.setProperties props] }

theorem openReader_of_meta {bs : List Byte} {s1 s2 : σ} (hl : HeaderLayout h bs)
    (r1 : S.read s 288 = ⟨s1, bs.take 288, true⟩)
    (r2 : S.read s1 (h.headerLength - 288) = ⟨s2, bs.drop 288, true⟩)
    (hmem : h.headerLength ≤ cfg.maxAlloc) (hg : Loggable cfg h) :
    ∃ b, b.Holds bs ∧ ∀ filter, openReader cfg S fuel filter s =
      (metaLoop (envOf cfg h fuel) S fuel ⟨s2, b, PageHdr.reset⟩ {} >>= fun pacc =>
        finish cfg h fuel pacc.2 pacc.1 filter) := by
  obtain ⟨b, e1, hb⟩ := readHeader_loggable (cfg := cfg) hl hmem hg r1 r2
  refine ⟨b, hb, fun filter => ?_⟩
  unfold openReader
  rw [e1, Res.ok_bind]
  rfl

theorem envOf_fits (hl : ∃ bs, HeaderLayout h bs) (hmem : h.pageLength ≤ cfg.maxAlloc) :
    PageFits (envOf cfg h fuel) := by
  obtain ⟨bs, hl⟩ := hl
  obtain ⟨_, _, _, h4, _⟩ := hl.sizes
  exact ⟨h4, hmem⟩

theorem Spec.FileMeta.announced (hm : FileMeta h pre k all c) : announcedBy (texts all) = c :=
  IsCompression.unique (announcedBy_isCompression _) hm.compression

theorem Spec.FileMeta.compressedBy (hm : FileMeta h pre k all c) :
    Sas.compressedBy all = decide (c ≠ .none) := by
  unfold Sas.compressedBy
  rw [hm.announced]

/-- Opening a well-formed file that has a page with rows. -/
theorem openReader_stop {kp : List Byte × PageContent}
    (hw : WellFormed cfg S s h pre (some kp) post en all c fuel) :
    ∃ acc b s', AccIs acc all ∧ acc.dataSubs = (if c ≠ .none then rowPtrs kp.2.usedPtrs else []) ∧
      b.Holds kp.1 ∧ Stream S h.pageLength s' post en ∧
      ∀ filter, openReader cfg S fuel filter s =
        finish cfg h fuel acc ⟨s', b, ⟨kp.2.type, kp.2.blocks, kp.2.subs.length⟩⟩ filter := by
  obtain ⟨bs, s1, s2, hl, r1, r2, hst⟩ := hw.presents
  have hm := hw.fileMeta
  obtain ⟨b0, hb0, ho⟩ := openReader_of_meta (fuel := fuel) hl r1 r2 hw.memory.1 hw.loggable
  have hc := hm.compressedBy
  obtain ⟨hk1, hk2⟩ := hm.k_is kp rfl
  obtain ⟨acc, b, s', e1, hb, hst', hacc, hd⟩ := metaLoop_stop (env := envOf cfg h fuel)
    (envOf_fits ⟨bs, hl⟩ hw.memory.2.1) all hm.room hm.rows pre kp post en ⟨s2, b0, PageHdr.reset⟩ fuel
    hb0.good hst (fun pc hpc => by rw [hc]; exact hm.pre_is pc hpc) hk1 (by rw [hc]; exact hk2)
    (by rw [hm.all_eq]; simp [usedOf]) hw.enough
  refine ⟨acc, b, s', hacc, ?_, hb, hst', fun filter => ?_⟩
  · rw [hd, hc]
    by_cases hn : c = .none <;> simp [hn]
  · rw [ho, e1, Res.ok_bind]

/-- Opening a well-formed file that has no page with rows. -/
theorem openReader_eof (hw : WellFormed cfg S s h pre none post en all c fuel) :
    ∃ acc b s', AccIs acc all ∧ acc.dataSubs = [] ∧ b.Good ∧
      ∀ filter, openReader cfg S fuel filter s = finish cfg h fuel acc ⟨s', b, PageHdr.reset⟩ filter := by
  obtain ⟨bs, s1, s2, hl, r1, r2, hst⟩ := hw.presents
  obtain ⟨rfl, rfl⟩ := hw.noRows rfl
  have hm := hw.fileMeta
  obtain ⟨b0, hb0, ho⟩ := openReader_of_meta (fuel := fuel) hl r1 r2 hw.memory.1 hw.loggable
  have hc := hm.compressedBy
  obtain ⟨acc, b, s', e1, hb, hacc, hd⟩ := metaLoop_eof (env := envOf cfg h fuel)
    (envOf_fits ⟨bs, hl⟩ hw.memory.2.1) all hm.room hm.rows pre ⟨s2, b0, PageHdr.reset⟩ fuel
    hb0.good (by rw [List.append_nil] at hst; simpa [envOf] using hst) (fun pc hpc => by rw [hc]; exact hm.pre_is pc hpc)
    (by rw [hm.all_eq]; simp [usedOf]) hw.enough
  exact ⟨acc, b, s', hacc, hd, hb, fun filter => by rw [ho, e1, Res.ok_bind]⟩

/-! ## The first page with rows -/

/-- The rows of a page object: offset and length of each. -/
def Page.rows (pg : Page) : List (Nat × Nat) :=
  match pg.kind with
  | .metaP subs => subs
  | .dataP n o l => (List.range n).map fun i => (o + l * i, l)
  | .mixP n o l => (List.range n).map fun i => (o + l * i, l)

theorem foldlM_filterMap {α β : Type} (p : α → Bool) (g : α → β) : ∀ (l : List α) (a : List β),
    l.foldlM (m := Res) (fun (acc : List β) x => .ok (if p x then acc ++ [g x] else acc)) a =
      .ok (a ++ (l.filter p).map g) := by
  intro l
  induction l with
  | nil => intro a; simp; rfl
  | cons x l ih =>
    intro a
    rw [List.foldlM_cons, Res.ok_bind, ih]
    cases hp : p x <;> simp [hp]

theorem round8 (f : Format) (n : Nat) :
    f.pbo + 8 + n * (3 * f.intSize) + (f.pbo + 8 + n * (3 * f.intSize)) % 8 =
      roundUp8 (pageHead f + 8 + n * (3 * word f)) := by
  unfold roundUp8
  cases f <;> simp only [Format.pbo, Format.intSize, pageHead, word] <;> omega

theorem isDataSub_fun (c : Compression) :
    isDataSub c = fun p => decide (c ≠ .none) && rowPtr p := by
  funext p; exact isDataSub_eq c p

theorem buildPage_layout {env : Env} {md : Meta} {b : Buf} {page : List Byte} {type blocks : Nat}
    {ptrs : List PageSub} {r : RowSize} (hb : b.Holds page)
    (hl : PageLayout env.endian env.format page type blocks ptrs)
    (h1 : md.rowLength = r.rowLength) (h2 : md.rowCount = r.rowCount) (h3 : md.mixCount = r.mixCount) :
    ∃ o, buildPage env md b ⟨type, blocks, ptrs.length⟩ = .ok o ∧
      (∀ pg, o = some pg → pg.cur = 0 ∧
        pg.rows = rowsAt env.format (decide (md.compression ≠ .none)) r type blocks ptrs ∧
        (type = 0 → pg.rows ≠ [])) ∧
      (o = none → hasRows type = false ∧
        rowsAt env.format (decide (md.compression ≠ .none)) r type blocks ptrs = []) := by
  unfold buildPage rowsAt
  simp only [pageMeta, pageData, isPageMix, pageMix1, pageMix2]
  by_cases t0 : type = 0
  · have hm : hasMeta type = true := by simp [hasMeta, t0]
    subst t0
    simp only [if_true]
    rw [processSubs_layout hb hl hm _ _ 0 [] (by simp), List.drop_zero,
      foldlM_filterMap (isDataSub md.compression) (fun s => (s.offset, s.length)), Res.ok_bind]
    simp only [List.nil_append]
    rw [isDataSub_fun]
    by_cases hc : md.compression = .none
    · refine ⟨none, ?_, by simp, fun _ => ⟨by simp [hasRows], by simp [hc]⟩⟩
      simp [hc]; rfl
    · simp only [ne_eq, hc, not_false_eq_true, decide_true, Bool.true_and, if_true]
      generalize ((ptrs.filter live).filter fun p => rowPtr p).map (fun s => (s.offset, s.length)) = l
      cases l with
      | nil => exact ⟨none, rfl, by simp, fun _ => ⟨by simp [hasRows], rfl⟩⟩
      | cons x l =>
        refine ⟨_, rfl, ?_, by simp⟩
        rintro pg ⟨⟩
        exact ⟨rfl, rfl, fun _ => by simp [Page.rows]⟩
  simp only [t0, if_false]
  by_cases t1 : type = 256
  · simp only [t1, if_true]
    refine ⟨_, rfl, ?_, by simp⟩
    rintro pg ⟨⟩
    refine ⟨rfl, ?_, fun h => h.elim⟩
    simp only [Page.rows, pageHead_eq, h1, Nat.mul_comm]
  simp only [t1, if_false]
  by_cases t2 : type = 512 ∨ type = 640
  · have t2' : (type == 512 || type == 640) = true := by simpa using t2
    simp only [t2, t2', if_true]
    refine ⟨_, rfl, ?_, by simp⟩
    rintro pg ⟨⟩
    refine ⟨rfl, ?_, fun h => h.elim⟩
    simp only [Page.rows, round8, h1, h2, h3, Nat.mul_comm r.rowLength]
  · have t2' : ¬ (type == 512 || type == 640) = true := by simpa using t2
    simp only [t2, t2', if_false]
    exact ⟨none, rfl, by simp, fun _ => ⟨by simp [hasRows]; omega, trivial⟩⟩

theorem buildDst_ok {md : Meta} (h : md.rowLength ≤ cfg.maxAlloc) :
    ∃ dst, buildDst cfg md = .ok dst ∧ (md.compression ≠ .none → dst.length = md.rowLength) := by
  unfold buildDst
  cases hc : md.compression with
  | none => exact ⟨[], rfl, by simp⟩
  | rle =>
    simp only [Buf.alloc, if_pos h]
    exact ⟨_, rfl, by simp [freshMem]⟩
  | rdc =>
    simp only [Buf.alloc, if_pos h]
    exact ⟨_, rfl, by simp [freshMem]⟩

/-- The rows of the first page with rows: those with pointers if there are any (in compressed files),
else those of `rowsAt`. -/
def firstRows (f : Format) (c : Compression) (r : RowSize) (kp : PageContent) : List (Nat × Nat) :=
  if c ≠ .none ∧ rowPtrs kp.usedPtrs ≠ [] then rowPtrs kp.usedPtrs
  else rowsAt f (decide (c ≠ .none)) r kp.type kp.blocks (kp.subs.map (·.1))

theorem RD_build_stop {acc : Acc} {b : Buf} {s' : σ} {kp : List Byte × PageContent}
    (hw : WellFormed cfg S s h pre (some kp) post en all c fuel) (hacc : AccIs acc all)
    (hd : acc.dataSubs = (if c ≠ .none then rowPtrs kp.2.usedPtrs else [])) (hb : b.Holds kp.1) :
    ∃ pg dst, RD.build (envOf cfg h fuel) (⟨s', b, ⟨kp.2.type, kp.2.blocks, kp.2.subs.length⟩⟩ : PState σ) acc =
        .ok ⟨⟨s', b, ⟨kp.2.type, kp.2.blocks, kp.2.subs.length⟩⟩, some pg, 0, dst⟩ ∧
      pg.cur = 0 ∧ pg.rows = firstRows h.fmt c (rowSizeOf .none all) kp.2 ∧
      (c ≠ .none → dst.length = (rowSizeOf .none all).rowLength) := by
  have hm := hw.fileMeta
  have hcomp : acc.md.compression = c := by rw [hacc.compression, hm.announced]
  obtain ⟨dst, e1, hdst⟩ := buildDst_ok (cfg := cfg) (md := acc.md)
    (by rw [hacc.rowLength]; exact hw.memory.2.2)
  rw [hacc.rowLength, hcomp] at hdst
  unfold RD.build firstRows
  rw [show (envOf cfg h fuel).cfg = cfg from rfl, e1, Res.ok_bind]
  obtain ⟨hk1, hk2⟩ := hm.k_is kp rfl
  by_cases hcr : c ≠ .none ∧ rowPtrs kp.2.usedPtrs ≠ []
  · rw [if_pos hcr]
    rw [if_pos hcr.1] at hd
    have : acc.dataSubs.isEmpty = false := by
      rw [hd]; simpa using hcr.2
    rw [this]
    exact ⟨_, dst, rfl, rfl, hd, hdst⟩
  · rw [if_neg hcr]
    have hnil : acc.dataSubs = [] := by
      rw [hd]
      split
      · rename_i hc
        by_cases hr : rowPtrs kp.2.usedPtrs = []
        · exact hr
        · exact absurd ⟨hc, hr⟩ hcr
      · rfl
    rw [hnil]
    obtain ⟨o, e2, ho1, ho2⟩ := buildPage_layout (env := envOf cfg h fuel) (md := acc.md)
      (r := rowSizeOf .none all) hb hk1.layout hacc.rowLength hacc.rowCount hacc.mixCount
    simp only [List.isEmpty_nil, if_true]
    rw [show kp.2.subs.length = (kp.2.subs.map (·.1)).length by simp, e2, Res.ok_bind]
    cases o with
    | none =>
      exfalso
      obtain ⟨g1, g2⟩ := ho2 rfl
      unfold PageContent.last at hk2
      rw [g1, Bool.false_or, Bool.and_eq_true, decide_eq_true_iff] at hk2
      apply hcr
      refine ⟨hk2.1, fun hnil => ?_⟩
      have hk3 := hk2.2
      rw [PageContent.used_eq, List.contains_iff_mem, List.mem_map] at hk3
      obtain ⟨ps, hps, hps2⟩ := hk3
      unfold rowPtrs at hnil
      rw [List.map_eq_nil_iff, List.filter_eq_nil_iff] at hnil
      exact hnil ps hps (by simpa using hps2)
    | some pg =>
      obtain ⟨g1, g2, _⟩ := ho1 pg rfl
      rw [hcomp] at g2
      exact ⟨pg, dst, rfl, g1, g2, hdst⟩

theorem RD_build_eof {acc : Acc} {b : Buf} {s' : σ}
    (hw : WellFormed cfg S s h pre none post en all c fuel) (hacc : AccIs acc all)
    (hd : acc.dataSubs = []) :
    ∃ dst, RD.build (envOf cfg h fuel) (⟨s', b, PageHdr.reset⟩ : PState σ) acc =
      .ok ⟨⟨s', b, PageHdr.reset⟩, none, 0, dst⟩ := by
  obtain ⟨dst, e1, hdst⟩ := buildDst_ok (cfg := cfg) (md := acc.md)
    (by rw [hacc.rowLength]; exact hw.memory.2.2)
  unfold RD.build
  rw [show (envOf cfg h fuel).cfg = cfg from rfl, e1, Res.ok_bind, hd]
  exact ⟨dst, rfl⟩

/-! ## The columns -/

theorem at?_ok {α : Type} {l : List α} {i : Nat} {a : α} (h : l[i]? = some a) : at? l i = .ok a := by
  unfold at?; rw [h]

theorem buildColumn_describes {acc : Acc} {ds : List ColumnDesc} (e : Endian) (hacc : AccIs acc all)
    (hd : Describes all ds) {i : Nat} {d : ColumnDesc} (hi : ds[i]? = some d) :
    ∃ col, buildColumn e acc i = .ok col ∧ Reports col d ∧
      col.fmt = chooseFormatter e d.numeric d.format d.length := by
  obtain ⟨ts1, r1, n1, n2⟩ := hd.name i d hi
  obtain ⟨ts2, r2, l1, l2⟩ := hd.label i d hi
  obtain ⟨ts3, r3, f1, f2⟩ := hd.format i d hi
  have ha := hd.attr i d hi
  have e1 : at? acc.names i = .ok d.name := at?_ok (by
    rw [hacc.names, List.getElem?_map, n1]; simp [resolve_refersTo n2])
  have e2 : at? acc.labels i = .ok d.label := at?_ok (by
    rw [hacc.labels, List.getElem?_map, l1]; simp [resolve_refersTo l2])
  have e3 : at? acc.formats i = .ok d.format := at?_ok (by
    rw [hacc.formats, List.getElem?_map, f1]; simp [resolve_refersTo f2])
  have e4 : at? acc.offsets i = .ok d.offset := at?_ok (by rw [hacc.offsets, List.getElem?_map, ha]; rfl)
  have e5 : at? acc.lengths i = .ok d.length := at?_ok (by rw [hacc.lengths, List.getElem?_map, ha]; rfl)
  have e6 : at? acc.types i = .ok d.numeric := at?_ok (by rw [hacc.types, List.getElem?_map, ha]; rfl)
  unfold buildColumn
  simp only [e1, e2, e3, e4, e5, e6, Res.ok_bind]
  exact ⟨_, rfl, ⟨rfl, rfl, rfl, rfl, rfl, chooseFormatter_type ..⟩, rfl⟩

theorem createColumns_describes {acc : Acc} {ds : List ColumnDesc} (e : Endian) (hacc : AccIs acc all)
    (hd : Describes all ds) (hn : ds.length ≤ cfg.maxCols) :
    ∃ cols, createColumns cfg e acc none = .ok cols ∧ cols.length = ds.length ∧
      ∀ (i : Nat) (col : Column) (d : ColumnDesc), cols[i]? = some col → ds[i]? = some d →
        Reports col d ∧ col.fmt = chooseFormatter e d.numeric d.format d.length := by
  have hcnt : acc.md.columnCount = ds.length := by rw [hacc.columnCount, hd.count]
  rw [createColumns_none, hcnt, if_pos hn]
  obtain ⟨cs, hcs⟩ := allColumns_ok e acc ds.length 0 (fun i hi => by
    obtain ⟨col, hcol, _⟩ := buildColumn_describes e hacc hd (i := i) (d := ds[i]) (by simp [hi])
    exact ⟨col, by rwa [Nat.zero_add]⟩)
  refine ⟨cs, hcs, allColumns_length _ _ _ _ _ hcs, fun i col d h1 h2 => ?_⟩
  have := allColumns_get _ _ _ _ _ hcs i col h1
  rw [Nat.zero_add] at this
  obtain ⟨col', hcol', hr⟩ := buildColumn_describes e hacc hd h2
  rw [this] at hcol'
  cases hcol'
  exact hr

/-- A list of the metadata is too short for the number of columns. -/
theorem buildColumn_short {acc : Acc} (e : Endian) {i : Nat}
    (h : acc.names.length ≤ i ∨ acc.labels.length ≤ i ∨ acc.formats.length ≤ i ∨ acc.offsets.length ≤ i ∨
      acc.lengths.length ≤ i ∨ acc.types.length ≤ i) :
    buildColumn e acc i = .error (.exn .outOfRange) := by
  unfold buildColumn
  have hat : ∀ {α : Type} (l : List α), at? l i = .error (.exn .outOfRange) ∨ (i < l.length ∧ ∃ a, at? l i = .ok a) := by
    intro α l
    unfold at?
    cases hl : l[i]? with
    | none => exact .inl rfl
    | some a => exact .inr ⟨(List.getElem?_eq_some_iff.mp hl).1, a, rfl⟩
  rcases hat acc.names with e1 | ⟨h1, a1, e1⟩
  · rw [e1]; rfl
  rcases hat acc.labels with e2 | ⟨h2, a2, e2⟩
  · rw [e1, Res.ok_bind, e2]; rfl
  rcases hat acc.formats with e3 | ⟨h3, a3, e3⟩
  · rw [e1, Res.ok_bind, e2, Res.ok_bind, e3]; rfl
  rcases hat acc.offsets with e4 | ⟨h4, a4, e4⟩
  · rw [e1, Res.ok_bind, e2, Res.ok_bind, e3, Res.ok_bind, e4]; rfl
  rcases hat acc.lengths with e5 | ⟨h5, a5, e5⟩
  · rw [e1, Res.ok_bind, e2, Res.ok_bind, e3, Res.ok_bind, e4, Res.ok_bind, e5]; rfl
  rcases hat acc.types with e6 | ⟨h6, a6, e6⟩
  · rw [e1, Res.ok_bind, e2, Res.ok_bind, e3, Res.ok_bind, e4, Res.ok_bind, e5, Res.ok_bind, e6]; rfl
  omega

theorem buildColumn_total {acc : Acc} (e : Endian) {i : Nat}
    (h : i < acc.names.length ∧ i < acc.labels.length ∧ i < acc.formats.length ∧ i < acc.offsets.length ∧
      i < acc.lengths.length ∧ i < acc.types.length) : ∃ col, buildColumn e acc i = .ok col := by
  have hat : ∀ {α : Type} (l : List α), i < l.length → ∃ a, at? l i = .ok a := by
    intro α l hl
    exact ⟨l[i], at?_ok (by simp [hl])⟩
  obtain ⟨a1, e1⟩ := hat _ h.1
  obtain ⟨a2, e2⟩ := hat _ h.2.1
  obtain ⟨a3, e3⟩ := hat _ h.2.2.1
  obtain ⟨a4, e4⟩ := hat _ h.2.2.2.1
  obtain ⟨a5, e5⟩ := hat _ h.2.2.2.2.1
  obtain ⟨a6, e6⟩ := hat _ h.2.2.2.2.2
  unfold buildColumn
  simp only [e1, e2, e3, e4, e5, e6, Res.ok_bind]
  exact ⟨_, rfl⟩

theorem createColumns_short {acc : Acc} (e : Endian) (filter : Option Filter)
    (hn : acc.md.columnCount ≤ cfg.maxCols)
    (h : acc.names.length < acc.md.columnCount ∨ acc.labels.length < acc.md.columnCount ∨
      acc.formats.length < acc.md.columnCount ∨ acc.offsets.length < acc.md.columnCount ∨
      acc.lengths.length < acc.md.columnCount ∨ acc.types.length < acc.md.columnCount) :
    createColumns cfg e acc filter = .error (.exn .outOfRange) := by
  rw [createColumns_filter, createColumns_none, if_pos hn]
  let m := min acc.names.length (min acc.labels.length (min acc.formats.length (min acc.offsets.length
    (min acc.lengths.length acc.types.length))))
  rw [allColumns_error e acc acc.md.columnCount 0 m (.exn .outOfRange) (by omega)
    (fun j hj => buildColumn_total e (by omega))
    (buildColumn_short e (by omega))]
  rfl

end Sas
