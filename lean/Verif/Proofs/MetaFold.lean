import Verif.Proofs.Meta

/-!
# The state of the metadata phase after a sequence of subheaders
-/

namespace Sas

open Spec

/-- The compression announced by the first of these texts. -/
def announcedBy (ts : List (List Byte)) : Compression :=
  match ts.head? with
  | none => .none
  | some t => announced t

/-- What is kept of who has made the file. -/
structure Made where
  lcs : Nat
  lcp : Nat
  creator : List Byte
  proc : List Byte

/-- The part of the metadata that says who has made the file. -/
def Meta.made (md : Meta) : Made := ⟨md.lcs, md.lcp, md.creator, md.creatorProc⟩

/-- What the first column text says. -/
def Made.text (m : Made) (t : List Byte) : Made :=
  if getStringTrim (slice t 12 8) = [] then { m with lcs := 0, proc := getStringTrim (slice t 28 m.lcp) }
  else if getStringTrim (slice t 12 8) = rleLiteral then { m with proc := getStringTrim (slice t 36 m.lcp) }
  else if 0 < m.lcs then { m with lcp := 0, creator := getStringTrim (slice t 12 m.lcs) }
  else m

/-- What subheaders say. -/
def madeOf : (seen : Bool) → Made → List Sub → Made
  | _, m, [] => m
  | seen, m, .rowSize r :: ss => madeOf seen { m with lcs := r.lcs, lcp := r.lcp } ss
  | seen, m, .columnText t :: ss => madeOf true (if seen then m else m.text t) ss
  | seen, m, _ :: ss => madeOf seen m ss

theorem madeOf_append (a b : List Sub) : ∀ seen m, madeOf seen m (a ++ b) =
    madeOf (seen || !(texts a).isEmpty) (madeOf seen m a) b := by
  induction a with
  | nil => intro seen m; simp [madeOf, texts]
  | cons s a ih => intro seen m; cases s <;> simp [madeOf, texts, ih]

theorem firstText_made (md : Meta) (t : List Byte) : (firstText md t).made = md.made.text t := by
  unfold firstText Made.text Meta.made
  simp only []
  have hm : ∀ c : Compression, ({ md with compression := c } : Meta).made = md.made := fun _ => rfl
  generalize hmd : (if containsSub rleLiteral t = true then { md with compression := .rle }
          else if containsSub rdcLiteral t = true then { md with compression := .rdc }
          else md : Meta) = md'
  have hp : md'.lcp = md.lcp ∧ md'.lcs = md.lcs ∧ md'.creator = md.creator ∧ md'.creatorProc = md.creatorProc := by
    rw [← hmd]; split <;> (try split) <;> exact ⟨rfl, rfl, rfl, rfl⟩
  obtain ⟨h1, h2, h3, h4⟩ := hp
  rw [← h1, ← h2, ← h3, ← h4]
  split
  · rfl
  · split
    · rfl
    · split <;> rfl

/-- The state reached after the subheaders `ss`. -/
structure AccIs (acc : Acc) (ss : List Sub) : Prop where
  texts : acc.texts = texts ss
  names : acc.names = (nameRefs [] ss).map resolve
  formats : acc.formats = (formatRefs [] ss).map resolve
  labels : acc.labels = (labelRefs [] ss).map resolve
  offsets : acc.offsets = (attrs ss).map Attr.offset
  lengths : acc.lengths = (attrs ss).map Attr.length
  types : acc.types = (attrs ss).map Attr.numeric
  rowLength : acc.md.rowLength = (rowSizeOf .none ss).rowLength
  rowCount : acc.md.rowCount = (rowSizeOf .none ss).rowCount
  p1 : acc.md.p1 = (rowSizeOf .none ss).p1
  p2 : acc.md.p2 = (rowSizeOf .none ss).p2
  mixCount : acc.md.mixCount = (rowSizeOf .none ss).mixCount
  columnCount : acc.md.columnCount = columnCountOf 0 ss
  compression : acc.md.compression = announcedBy (Spec.texts ss)
  lcs : acc.md.lcs = 0 ∨ ∃ r, Sub.rowSize r ∈ ss ∧ acc.md.lcs = r.lcs
  lcp : acc.md.lcp = 0 ∨ ∃ r, Sub.rowSize r ∈ ss ∧ acc.md.lcp = r.lcp
  made : acc.md.made = madeOf false ⟨0, 0, [], []⟩ ss

theorem texts_append (a b : List Sub) : texts (a ++ b) = texts a ++ texts b := by
  induction a with
  | nil => rfl
  | cons s a ih => cases s <;> simp [texts, ih]

theorem attrs_append (a b : List Sub) : attrs (a ++ b) = attrs a ++ attrs b := by
  induction a with
  | nil => rfl
  | cons s a ih => cases s <;> simp [attrs, ih]

theorem nameRefs_append (a b : List Sub) : ∀ ts, nameRefs ts (a ++ b) =
    nameRefs ts a ++ nameRefs (ts ++ texts a) b := by
  induction a with
  | nil => intro ts; simp [nameRefs, texts]
  | cons s a ih => intro ts; cases s <;> simp [nameRefs, texts, ih]

theorem formatRefs_append (a b : List Sub) : ∀ ts, formatRefs ts (a ++ b) =
    formatRefs ts a ++ formatRefs (ts ++ texts a) b := by
  induction a with
  | nil => intro ts; simp [formatRefs, texts]
  | cons s a ih => intro ts; cases s <;> simp [formatRefs, texts, ih]

theorem labelRefs_append (a b : List Sub) : ∀ ts, labelRefs ts (a ++ b) =
    labelRefs ts a ++ labelRefs (ts ++ texts a) b := by
  induction a with
  | nil => intro ts; simp [labelRefs, texts]
  | cons s a ih => intro ts; cases s <;> simp [labelRefs, texts, ih]

theorem rowSizeOf_append (a b : List Sub) : ∀ d, rowSizeOf d (a ++ b) = rowSizeOf (rowSizeOf d a) b := by
  induction a with
  | nil => intro d; rfl
  | cons s a ih => intro d; cases s <;> simp [rowSizeOf, ih]

theorem columnCountOf_append (a b : List Sub) : ∀ d,
    columnCountOf d (a ++ b) = columnCountOf (columnCountOf d a) b := by
  induction a with
  | nil => intro d; rfl
  | cons s a ih => intro d; cases s <;> simp [columnCountOf, ih]

theorem AccIs.init : AccIs {} [] :=
  ⟨rfl, rfl, rfl, rfl, rfl, rfl, rfl, rfl, rfl, rfl, rfl, rfl, rfl, rfl, .inl rfl, .inl rfl, rfl⟩

theorem firstText_keep (md : Meta) (t : List Byte) :
    (firstText md t).rowLength = md.rowLength ∧ (firstText md t).rowCount = md.rowCount ∧
    (firstText md t).p1 = md.p1 ∧ (firstText md t).p2 = md.p2 ∧
    (firstText md t).mixCount = md.mixCount ∧ (firstText md t).columnCount = md.columnCount ∧
    ((firstText md t).lcs = 0 ∨ (firstText md t).lcs = md.lcs) ∧
    ((firstText md t).lcp = 0 ∨ (firstText md t).lcp = md.lcp) ∧
    (md.compression = .none → (firstText md t).compression = announced t) := by
  unfold firstText announced
  by_cases h1 : containsSub rleLiteral t = true <;> by_cases h2 : containsSub rdcLiteral t = true <;>
  by_cases h3 : getStringTrim (slice t 12 8) = [] <;>
  by_cases h4 : getStringTrim (slice t 12 8) = rleLiteral <;>
  by_cases h5 : 0 < md.lcs <;>
  simp only [h1, h2, h3, h4, h5, if_true, if_false, Bool.false_eq_true, true_or, or_true, and_self,
    implies_true, true_and] <;> (try exact id) <;> (try (split <;> simp))

theorem AccIs.step {acc : Acc} {ss : List Sub} (h : AccIs acc ss) (p : PageSub) (s : Sub) :
    AccIs (applySub acc p s).1 (ss ++ [s]) := by
  have up : ∀ {n : Nat} {g : RowSize → Nat}, (n = 0 ∨ ∃ r, Sub.rowSize r ∈ ss ∧ n = g r) →
      (n = 0 ∨ ∃ r, Sub.rowSize r ∈ ss ++ [s] ∧ n = g r) := by
    intro n g hn
    rcases hn with hn | ⟨r, hr, hn⟩
    · exact .inl hn
    · exact .inr ⟨r, List.mem_append_left _ hr, hn⟩
  cases s with
  | rowSize r =>
    constructor <;> simp only [applySub, texts_append, nameRefs_append, formatRefs_append,
      labelRefs_append, attrs_append, rowSizeOf_append, columnCountOf_append]
    any_goals simp [Spec.texts, nameRefs, formatRefs, labelRefs, attrs, rowSizeOf, columnCountOf,
      h.texts, h.names, h.formats, h.labels, h.offsets, h.lengths, h.types, h.columnCount, h.compression]
    rw [madeOf_append, ← h.made]; rfl
  | columnText t =>
    obtain ⟨k1, k2, k3, k4, k5, k6, k7, k8, k9⟩ := firstText_keep acc.md t
    have hmd : ∀ {α : Type} (g : Meta → α), g (firstText acc.md t) = g acc.md →
        g (if acc.texts = [] then firstText acc.md t else acc.md) = g acc.md := by
      intro α g hg; split <;> simp [hg]
    constructor <;> simp only [applySub, texts_append, nameRefs_append, formatRefs_append,
      labelRefs_append, attrs_append, rowSizeOf_append, columnCountOf_append]
    any_goals simp [Spec.texts, nameRefs, formatRefs, labelRefs, attrs,
      h.texts, h.names, h.formats, h.labels, h.offsets, h.lengths, h.types]
    · rw [← h.texts, hmd Meta.rowLength k1, h.rowLength]; rfl
    · rw [← h.texts, hmd Meta.rowCount k2, h.rowCount]; rfl
    · rw [← h.texts, hmd Meta.p1 k3, h.p1]; rfl
    · rw [← h.texts, hmd Meta.p2 k4, h.p2]; rfl
    · rw [← h.texts, hmd Meta.mixCount k5, h.mixCount]; rfl
    · rw [← h.texts, hmd Meta.columnCount k6, h.columnCount]; rfl
    · have hc := h.compression
      cases ht : Spec.texts ss with
      | nil =>
        rw [ht] at hc
        simp only [if_true, List.nil_append]
        exact k9 hc
      | cons a l =>
        rw [ht] at hc
        simpa [announcedBy] using hc
    · split
      · rcases k7 with k | k
        · exact .inl k
        · rw [k]; simpa using up h.lcs
      · simpa using up h.lcs
    · split
      · rcases k8 with k | k
        · exact .inl k
        · rw [k]; simpa using up h.lcp
      · simpa using up h.lcp
    · rw [madeOf_append, ← h.made]
      cases ht : Spec.texts ss with
      | nil =>
        rw [if_pos rfl, firstText_made]
        rfl
      | cons a l =>
        rw [if_neg (by simp)]
        rfl
  | row =>
    have e1 : (applySub acc p .row).1 = { acc with dataSubs := (applySub acc p .row).1.dataSubs } := by
      simp only [applySub]; split <;> rfl
    rw [e1]
    constructor <;> simp only [texts_append, nameRefs_append, formatRefs_append,
      labelRefs_append, attrs_append, rowSizeOf_append, columnCountOf_append]
    any_goals simp [Spec.texts, nameRefs, formatRefs, labelRefs, attrs, rowSizeOf, columnCountOf,
      h.texts, h.names, h.formats, h.labels, h.offsets, h.lengths, h.types, h.columnCount, h.compression,
      h.rowLength, h.rowCount, h.p1, h.p2, h.mixCount]
    · simpa using up h.lcs
    · simpa using up h.lcp
    · rw [madeOf_append, ← h.made]; rfl
  | _ =>
    constructor <;> simp only [applySub, texts_append, nameRefs_append, formatRefs_append,
      labelRefs_append, attrs_append, rowSizeOf_append, columnCountOf_append]
    any_goals simp [Spec.texts, nameRefs, formatRefs, labelRefs, attrs, rowSizeOf, columnCountOf,
      h.texts, h.names, h.formats, h.labels, h.offsets, h.lengths, h.types, h.columnCount, h.compression,
      h.rowLength, h.rowCount, h.p1, h.p2, h.mixCount]
    · simpa using up h.lcs
    · simpa using up h.lcp
    · rw [madeOf_append, ← h.made]; rfl

/-! ## A page -/

variable {env : Env} {b : Buf} {page : List Byte}

/-- The pointers to rows among the subheaders of a page. -/
def rowPtrs (pss : List (PageSub × Sub)) : List (Nat × Nat) :=
  (pss.filter fun ps => ps.2 == .row).map fun ps => (ps.1.offset, ps.1.length)

theorem head?_append_left {α : Type} {a b : List α} (h : a ≠ []) : (a ++ b).head? = a.head? := by
  cases a with
  | nil => exact absurd rfl h
  | cons x a => rfl

theorem rowsAfterText_append (a b : List Sub) : ∀ seen, rowsAfterText seen (a ++ b) =
    (rowsAfterText seen a && rowsAfterText (seen || (texts a).length != 0) b) := by
  induction a with
  | nil => intro seen; simp [rowsAfterText, texts]
  | cons s a ih =>
    intro seen
    cases s <;> simp [rowsAfterText, texts, ih, Bool.and_assoc]

/-- The step of `process_page_metadata`. -/
def metaStep (env : Env) (b : Buf) (a : Acc × Bool) (s : PageSub) : Res (Acc × Bool) := do
  let (acc', reached) ← processSubheader env b a.1 s
  return (acc', a.2 || reached)

theorem foldSubs_layout (hb : b.Holds page) (hsmall : page.length < 2 ^ 32) (all : List Sub)
    (hroom : RoomForCreator all) (hrows : rowsAfterText false all = true) :
    ∀ (pss : List (PageSub × Sub)) (acc : Acc) (reached : Bool) (ss rest : List Sub),
      AccIs acc ss → all = ss ++ pss.map (·.2) ++ rest →
      (∀ ps ∈ pss, ps.1.offset + ps.1.length ≤ page.length ∧
        SubLayout env.endian env.format page ps.1 ps.2) →
      ∃ acc', (pss.map (·.1)).foldlM (metaStep env b) (acc, reached) =
          .ok (acc', reached || (decide (announcedBy (texts all) ≠ .none) && (pss.map (·.2)).contains .row)) ∧
        AccIs acc' (ss ++ pss.map (·.2)) ∧
        acc'.dataSubs = acc.dataSubs ++
          (if announcedBy (texts all) ≠ .none then rowPtrs pss else []) := by
  intro pss
  induction pss with
  | nil =>
    intro acc reached ss rest h _ _
    refine ⟨acc, ?_, by simpa using h, ?_⟩
    · simp; rfl
    · simp [rowPtrs]
  | cons ps pss ih =>
    intro acc reached ss rest h hall hl
    obtain ⟨p, s⟩ := ps
    obtain ⟨hin, hsub⟩ := hl (p, s) (List.mem_cons_self ..)
    have hroom' : TextRoom acc s := by
      cases s with
      | columnText t =>
        intro h0
        rw [h.texts] at h0
        have hhead : (texts all).head? = some t := by
          rw [hall, texts_append, texts_append, h0]
          simp [texts]
        obtain ⟨g1, g2⟩ := hroom t hhead
        refine ⟨g1, ?_, ?_⟩
        · rcases h.lcp with h1 | ⟨r, hr, h1⟩
          · omega
          · rw [h1]; exact (g2 r (by rw [hall]; simp [hr])).1
        · rcases h.lcs with h1 | ⟨r, hr, h1⟩
          · omega
          · rw [h1]; exact (g2 r (by rw [hall]; simp [hr])).2
      | _ => trivial
    have hps := processSubheader_layout (env := env) hb hsmall hin acc s hsub hroom'
    have hcomp : s = .row → acc.md.compression = announcedBy (texts all) := by
      intro hs
      subst hs
      rw [hall, rowsAfterText_append, rowsAfterText_append] at hrows
      simp only [List.map_cons, Bool.and_eq_true, rowsAfterText, Bool.false_or, bne_iff_ne, ne_eq] at hrows
      have hne : texts ss ≠ [] := by
        intro h0; rw [h0] at hrows; simp at hrows
      rw [h.compression, hall]
      unfold announcedBy
      rw [texts_append, texts_append, List.append_assoc, head?_append_left hne]
    obtain ⟨acc', e1, e2, e3⟩ := ih (applySub acc p s).1 (reached || (applySub acc p s).2) (ss ++ [s]) rest
      (h.step p s) (by rw [hall]; simp) (fun ps hps => hl ps (List.mem_cons_of_mem _ hps))
    refine ⟨acc', ?_, by simpa using e2, ?_⟩
    · rw [List.map_cons, List.foldlM_cons]
      have : metaStep env b (acc, reached) p =
          .ok ((applySub acc p s).1, reached || (applySub acc p s).2) := by
        unfold metaStep
        rw [hps]
        rfl
      rw [this, Res.ok_bind, e1]
      congr 2
      rw [Bool.or_assoc]
      congr 1
      by_cases hs : s = .row
      · subst hs
        simp only [applySub, hcomp rfl]
        by_cases hc : announcedBy (texts all) = .none
        · simp [hc]
        · simp [hc]
      · have h1 : (applySub acc p s).2 = false := by
          cases s <;> simp [applySub] at hs ⊢
        rw [h1, Bool.false_or]
        have h2 : (List.map (fun x : PageSub × Sub => x.2) ((p, s) :: pss)).contains .row =
            (List.map (fun x => x.2) pss).contains .row := by
          rw [List.map_cons, List.contains_cons]
          have : (Sub.row == s) = false := by simpa using fun h => hs h.symm
          rw [this, Bool.false_or]
        rw [← h2]
    · rw [e3]
      by_cases hs : s = .row
      · subst hs
        simp only [applySub, hcomp rfl]
        by_cases hc : announcedBy (texts all) = .none
        · simp [hc]
        · simp [hc, rowPtrs]
      · have h1 : (applySub acc p s).1.dataSubs = acc.dataSubs := by
          cases s <;> simp [applySub] at hs ⊢
        have h2 : rowPtrs ((p, s) :: pss) = rowPtrs pss := by
          unfold rowPtrs
          rw [List.filter_cons_of_neg (by simpa using hs)]
        rw [h1, h2]

theorem isPageMetaMixAmd_eq (t : Nat) : isPageMetaMixAmd t = hasMeta t := by
  unfold isPageMetaMixAmd isPageMix hasMeta pageMeta pageAmd pageMix1 pageMix2
  simp only [Bool.decide_or, Bool.or_assoc]
  rfl

theorem isPageDataMix_eq (t : Nat) : isPageDataMix t = hasRows t := by
  unfold isPageDataMix isPageMix hasRows pageData pageMix1 pageMix2
  simp only [Bool.decide_or]
  rfl

/-- The used subheaders with their pointers. -/
def Spec.PageContent.usedPtrs (c : PageContent) : List (PageSub × Sub) :=
  if hasMeta c.type then c.subs.filter fun ps => live ps.1 else []

theorem PageContent.used_eq (c : PageContent) : c.used = c.usedPtrs.map (·.2) := by
  unfold PageContent.used PageContent.usedPtrs
  split <;> rfl

theorem processPage_layout (hb : b.Holds page) {c : PageContent}
    (hp : PageIs env.endian env.format page c) (all : List Sub)
    (hroom : RoomForCreator all) (hrows : rowsAfterText false all = true) (acc : Acc)
    (ss rest : List Sub) (h : AccIs acc ss) (hall : all = ss ++ c.used ++ rest) :
    ∃ acc', processPage env b ⟨c.type, c.blocks, c.subs.length⟩ acc =
        .ok (acc', c.last (decide (announcedBy (texts all) ≠ .none))) ∧
      AccIs acc' (ss ++ c.used) ∧
      acc'.dataSubs = acc.dataSubs ++ (if announcedBy (texts all) ≠ .none then rowPtrs c.usedPtrs else []) := by
  unfold processPage PageContent.last
  rw [isPageMetaMixAmd_eq, isPageDataMix_eq]
  cases hm : hasMeta c.type with
  | false =>
    have h1 : c.usedPtrs = [] := by simp [PageContent.usedPtrs, hm]
    have h2 : c.used = [] := by simp [PageContent.used, hm]
    refine ⟨acc, ?_, by simpa [h2] using h, by simp [h1, rowPtrs]⟩
    simp only [h2, Bool.false_eq_true, if_false, Res.ok_bind]
    show Except.ok (acc, hasRows c.type || false) = _
    simp
  | true =>
    have h1 : c.usedPtrs = c.subs.filter fun ps => live ps.1 := by simp [PageContent.usedPtrs, hm]
    have hlay := hp.layout
    obtain ⟨acc', e1, e2, e3⟩ := foldSubs_layout (env := env) hb hlay.small all hroom hrows c.usedPtrs acc
      false ss rest h (by rw [← PageContent.used_eq]; exact hall) (by
        intro ps hps
        rw [h1, List.mem_filter] at hps
        refine ⟨?_, hp.subs hm ps hps.1 hps.2⟩
        obtain ⟨i, hi⟩ := List.getElem?_of_mem hps.1
        exact (hlay.ptrsAt hm i ps.1 (by rw [List.getElem?_map, hi]; rfl)).inside)
    rw [← PageContent.used_eq] at e1 e2
    refine ⟨acc', ?_, e2, e3⟩
    simp only [if_true]
    have hproc : processPageMetadata env b c.subs.length acc =
        (c.usedPtrs.map (·.1)).foldlM (metaStep env b) (acc, false) := by
      show processSubs env b (metaStep env b) _ 0 _ = _
      rw [processSubs_layout hb hlay hm (metaStep env b) _ 0 (acc, false) (by simp), List.drop_zero, h1,
        List.filter_map]
      rfl
    rw [hproc, e1, Res.ok_bind]
    simp only [Bool.false_or]
    rfl

end Sas
