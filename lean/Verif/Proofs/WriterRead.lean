import Verif.Proofs.WriterPages
import Verif.Proofs.Rows

/-!
# A written file is well formed
-/

namespace Sas

open Spec

/-! ## Rows among the subheaders change nothing -/

theorem texts_rows (n : Nat) : ∀ ss : List Sub, texts (ss ++ List.replicate n .row) = texts ss := by
  intro ss
  induction ss with
  | nil => induction n with
    | zero => rfl
    | succ n ih => rw [List.replicate_succ]; exact ih
  | cons s ss ih => cases s <;> simp only [List.cons_append, texts, ih]

theorem nameRefs_rows (n : Nat) : ∀ (ss : List Sub) (ts : List (List Byte)),
    nameRefs ts (ss ++ List.replicate n .row) = nameRefs ts ss := by
  intro ss
  induction ss with
  | nil => intro ts; induction n with
    | zero => rfl
    | succ n ih => rw [List.replicate_succ]; exact ih
  | cons s ss ih => intro ts; cases s <;> simp only [List.cons_append, nameRefs, ih]

theorem formatRefs_rows (n : Nat) : ∀ (ss : List Sub) (ts : List (List Byte)),
    formatRefs ts (ss ++ List.replicate n .row) = formatRefs ts ss := by
  intro ss
  induction ss with
  | nil => intro ts; induction n with
    | zero => rfl
    | succ n ih => rw [List.replicate_succ]; exact ih
  | cons s ss ih => intro ts; cases s <;> simp only [List.cons_append, formatRefs, ih]

theorem labelRefs_rows (n : Nat) : ∀ (ss : List Sub) (ts : List (List Byte)),
    labelRefs ts (ss ++ List.replicate n .row) = labelRefs ts ss := by
  intro ss
  induction ss with
  | nil => intro ts; induction n with
    | zero => rfl
    | succ n ih => rw [List.replicate_succ]; exact ih
  | cons s ss ih => intro ts; cases s <;> simp only [List.cons_append, labelRefs, ih]

theorem attrs_rows (n : Nat) : ∀ ss : List Sub, attrs (ss ++ List.replicate n .row) = attrs ss := by
  intro ss
  induction ss with
  | nil => induction n with
    | zero => rfl
    | succ n ih => rw [List.replicate_succ]; exact ih
  | cons s ss ih => cases s <;> simp only [List.cons_append, attrs, ih]

theorem rowSizeOf_rows (n : Nat) : ∀ (ss : List Sub) (d : RowSize),
    rowSizeOf d (ss ++ List.replicate n .row) = rowSizeOf d ss := by
  intro ss
  induction ss with
  | nil => intro ts; induction n with
    | zero => rfl
    | succ n ih => rw [List.replicate_succ]; exact ih
  | cons s ss ih => intro ts; cases s <;> simp only [List.cons_append, rowSizeOf, ih]

theorem columnCountOf_rows (n : Nat) : ∀ (ss : List Sub) (d : Nat),
    columnCountOf d (ss ++ List.replicate n .row) = columnCountOf d ss := by
  intro ss
  induction ss with
  | nil => intro ts; induction n with
    | zero => rfl
    | succ n ih => rw [List.replicate_succ]; exact ih
  | cons s ss ih => intro ts; cases s <;> simp only [List.cons_append, columnCountOf, ih]

theorem rowsAfterText_true : ∀ ss : List Sub, rowsAfterText true ss = true := by
  intro ss
  induction ss with
  | nil => rfl
  | cons s ss ih => cases s <;> simp only [rowsAfterText, ih, Bool.and_self]

/-- The subheaders of the file up to its first page with rows. -/
def allSubs (l : Layout) (d : DataSet) (n : Nat) : List Sub := describe l d ++ List.replicate n .row

theorem describes_all {l : Layout} {d : DataSet} (hl : l.For d) (n : Nat) : Describes (allSubs l d n) d.columns := by
  have h := describes_written hl
  unfold allSubs
  refine ⟨?_, ?_, ?_, ?_, ?_⟩
  · rw [columnCountOf_rows]; exact h.count
  · rw [nameRefs_rows]; exact h.name
  · rw [labelRefs_rows]; exact h.label
  · rw [formatRefs_rows]; exact h.format
  · rw [attrs_rows]; exact h.attr

theorem rowSizeOf_groups (e : Endian) (r : RowSize) : ∀ (gs : List (List ColumnDesc)) (t : Nat),
    rowSizeOf r (groupsSubs e t gs) = r := by
  intro gs
  induction gs with
  | nil => intro t; rfl
  | cons g gs ih =>
    intro t
    rw [groupsSubs, groupSubs, List.append_assoc]
    simp only [List.cons_append, List.nil_append, rowSizeOf]
    have hf : ∀ (rs : List (TextRef × TextRef × TextRef)) (rest : List Sub),
        rowSizeOf r ((rs.map fun r => Sub.formatLabel r.2.1 r.2.2) ++ rest) = rowSizeOf r rest := by
      intro rs rest
      induction rs with
      | nil => rfl
      | cons r rs ih => exact ih
    rw [hf, ih]

/-- The row-size subheader. -/
def sizeOf (l : Layout) (d : DataSet) : RowSize :=
  ⟨d.rowLength, d.rows.length, d.columns.length, 0, l.mix.length, 0, 0⟩

theorem rowSize_all (l : Layout) (d : DataSet) (n : Nat) : rowSizeOf .none (allSubs l d n) = sizeOf l d := by
  unfold allSubs
  rw [rowSizeOf_rows]
  exact rowSizeOf_groups _ _ _ _

theorem texts_all (l : Layout) (d : DataSet) (n : Nat) :
    (texts (allSubs l d n)).head? = some (leadText l.header.endian l.compression) := by
  unfold allSubs
  rw [texts_rows]
  rfl

theorem no_rowSize_groups (e : Endian) (r : RowSize) : ∀ (gs : List (List ColumnDesc)) (t : Nat),
    Sub.rowSize r ∉ groupsSubs e t gs := by
  intro gs
  induction gs with
  | nil => intro t h; simp [groupsSubs] at h
  | cons g gs ih =>
    intro t h
    rw [groupsSubs, List.mem_append] at h
    rcases h with h | h
    · simp [groupSubs] at h
    · exact ih _ h

theorem compression_all (l : Layout) (d : DataSet) (n : Nat) :
    IsCompression (texts (allSubs l d n)) l.compression := by
  have key : ∀ (e : Endian) (c : Compression), (c = .rle ↔ rleMarker <:+: leadText e c) ∧
      (c = .rdc ↔ rdcMarker <:+: leadText e c ∧ ¬ rleMarker <:+: leadText e c) := by
    intro e c
    cases e <;> cases c <;> decide +kernel
  obtain ⟨h1, h2⟩ := key l.header.endian l.compression
  constructor
  · rw [texts_all]; simpa using h1
  · rw [texts_all]; simpa using h2

theorem room_all (l : Layout) (d : DataSet) (n : Nat) : RoomForCreator (allSubs l d n) := by
  intro t ht
  rw [texts_all, Option.some.injEq] at ht
  subst ht
  rw [leadText_length]
  refine ⟨Nat.le_refl _, fun r hr => ?_⟩
  have : r = sizeOf l d := by
    unfold allSubs describe at hr
    simp only [List.mem_append, List.mem_cons, List.not_mem_nil, or_false, List.mem_replicate] at hr
    rcases hr with ((h | h | h) | h) | h
    · exact Sub.rowSize.inj h
    · cases h
    · cases h
    · exact (no_rowSize_groups _ _ _ _ h).elim
    · cases h.2
  subst this
  simp [sizeOf]

theorem rowsAfterText_all (l : Layout) (d : DataSet) (n : Nat) : rowsAfterText false (allSubs l d n) = true := by
  unfold allSubs describe
  simp only [List.cons_append, List.nil_append, rowsAfterText]
  exact rowsAfterText_true _

/-! ## The pages -/

/-- Pages that only hold metadata. -/
def prePages (h : FileHeader) (ps : List (List Sub)) : List (List Byte × PageContent) :=
  ps.map fun p => (writeMeta h [] p, metaContent h [] p)

/-- Pages of rows. -/
def rowTail (h : FileHeader) (c : Compression) (n : Nat) (ps : List (List (List Byte))) :
    List (List Byte × PageOutline) :=
  ps.map fun p => (writeRows h c n p, rowsOutline h c n p)

theorem writeMetas_nil (h : FileHeader) : ∀ ps : List (List Sub), writeMetas h [] ps = ps.map (writeMeta h []) := by
  intro ps
  induction ps with
  | nil => rfl
  | cons p ps ih =>
    cases ps with
    | nil => rfl
    | cons q ps => rw [writeMetas, ih]; rfl

theorem writeMetas_snoc (h : FileHeader) (mix : List (List Byte)) (last : List Sub) : ∀ ps : List (List Sub),
    writeMetas h mix (ps ++ [last]) = ps.map (writeMeta h []) ++ [writeMeta h mix last] := by
  intro ps
  induction ps with
  | nil => rfl
  | cons p ps ih =>
    cases ps with
    | nil => rfl
    | cons q ps => simp only [List.cons_append, writeMetas] at ih ⊢; rw [ih]; rfl

theorem usedOf_pre {h : FileHeader} {ps : List (List Sub)} (hok : ∀ p ∈ ps, ∀ s ∈ p, SubOk h.endian h.fmt s) :
    usedOf ((prePages h ps).map (·.2)) = ps.flatten := by
  unfold usedOf prePages
  rw [List.map_map, List.flatMap_map]
  induction ps with
  | nil => rfl
  | cons p ps ih =>
    rw [List.flatMap_cons, List.flatten_cons, ih (fun q hq => hok q (by simp [hq]))]
    congr 1
    exact metaContent_used (hok p (by simp))

/-- What has to be known about the pages of a written file: the metadata pages without rows, the first page with
rows, and the pages after it. -/
structure Pages (l : Layout) (d : DataSet) (ps : List (List Sub)) (k : Option (List Byte × PageContent))
    (tail : List (List (List Byte))) (n : Nat) : Prop where
  preMem : ∀ p ∈ ps, p ∈ l.metaPages
  tailMem : ∀ p ∈ tail, p ∈ l.rowPages
  all_eq : allSubs l d n = ps.flatten ++ usedOf (k.toList.map (·.2))
  k_is : ∀ pc, k = some pc → PageIs l.header.endian l.header.fmt pc.1 pc.2 ∧ pc.2.last (l.compression ≠ .none) = true
  k_ptrs : ∀ pc, k = some pc → RowPointers l.compression pc.2
  k_row : ∀ pc, k = some pc → RowPage l.header.endian l.header.fmt (l.compression ≠ .none) (sizeOf l d)
    (pc.1, pc.2.outline)
  k_length : ∀ pc, k = some pc → pc.1.length = l.header.pageLength
  k_none : k = none → tail = []
  pages_eq : (writeMetas l.header l.mix l.metaPages) ++ l.rowPages.map (writeRows l.header l.compression d.rowLength) =
    ps.map (writeMeta l.header []) ++ (k.toList.map (·.1) ++ tail.map (writeRows l.header l.compression d.rowLength))
  rows_eq : (k.toList.flatMap fun pc => storedRows l.header.fmt (l.compression ≠ .none) (sizeOf l d)
    (pc.1, pc.2.outline)) ++ tail.flatten = l.mix ++ l.rowPages.flatten

/-- What has to be known about a page of rows. -/
structure RowsOk (l : Layout) (d : DataSet) (p : List (List Byte)) : Prop where
  row : RowPage l.header.endian l.header.fmt (l.compression ≠ .none) (sizeOf l d)
    (writeRows l.header l.compression d.rowLength p, rowsOutline l.header l.compression d.rowLength p)
  stored : storedRows l.header.fmt (l.compression ≠ .none) (sizeOf l d)
    (writeRows l.header l.compression d.rowLength p, rowsOutline l.header l.compression d.rowLength p) = p
  ne : p ≠ []
  length : (writeRows l.header l.compression d.rowLength p).length = l.header.pageLength

section
variable {l : Layout} {d : DataSet}

theorem metaPages_ok (hl : l.For d) : ∀ p ∈ l.metaPages, ∀ s ∈ p, SubOk l.header.endian l.header.fmt s := by
  intro p hp s hs
  refine describe_ok hl s ?_
  rw [← hl.subs]
  exact List.mem_flatten.mpr ⟨p, hp, hs⟩

variable {ps : List (List Sub)} {k : Option (List Byte × PageContent)} {tail : List (List (List Byte))} {n : Nat}

theorem written_wellFormed (hl : l.For d) (hp : Pages l d ps k tail n) (hr : ∀ p ∈ l.rowPages, RowsOk l d p) 
    {cfg : Cfg} {fuel : Nat} (hmem : l.header.headerLength ≤ cfg.maxAlloc ∧ l.header.pageLength ≤ cfg.maxAlloc ∧
      d.rowLength ≤ cfg.maxAlloc) (hlog : Loggable cfg l.header) (hfuel : l.metaPages.length < fuel)
    (hlen : ps.length ≤ l.metaPages.length) (hpos : 0 < l.header.pageLength) :
    WellFormed cfg ifs (IFStream.open (l.write d)) l.header (prePages l.header ps) k
      ((rowTail l.header l.compression d.rowLength tail).map (·.1)) .endOfFile (allSubs l d n) l.compression fuel := by
  have hok : ∀ p ∈ ps, ∀ s ∈ p, SubOk l.header.endian l.header.fmt s :=
    fun p h => metaPages_ok hl p (hp.preMem p h)
  have hL : l.header.pageLength < 2 ^ 32 := hl.header.sizes.2.2.2.1
  have hpages : (prePages l.header ps).map (·.1) ++ (k.toList.map (·.1) ++
      (rowTail l.header l.compression d.rowLength tail).map (·.1)) =
      (writeMetas l.header l.mix l.metaPages) ++ l.rowPages.map (writeRows l.header l.compression d.rowLength) := by
    rw [hp.pages_eq]
    simp [prePages, rowTail, Function.comp_def]
  have hwrite : l.write d = writeHeader l.header ++ (((prePages l.header ps).map (·.1) ++ (k.toList.map (·.1) ++
      (rowTail l.header l.compression d.rowLength tail).map (·.1))).flatten ++ []) := by
    rw [hpages, List.append_nil, List.flatten_append]
    rfl
  refine ⟨?_, ⟨?_, compression_all l d n, room_all l d n, rowsAfterText_all l d n, ?_, hp.k_is⟩, ?_, hlog, ?_, ?_⟩
  · rw [hwrite]
    refine ifs_presents (writeHeader_layout hl.header) _ ?_ [] hpos
    intro x hx
    simp only [prePages, rowTail, List.map_map, Function.comp_def, List.mem_append, List.mem_map] at hx
    rcases hx with ⟨p, h, rfl⟩ | ⟨pc, h, rfl⟩ | ⟨p, h, rfl⟩
    · exact writePage_length (hl.metaFits p (hp.preMem p h)).2
    · exact hp.k_length pc (Option.mem_toList.mp h)
    · exact (hr p (hp.tailMem p h)).length
  · rw [usedOf_pre hok]
    exact hp.all_eq
  · intro pc hpc
    obtain ⟨p, h, rfl⟩ := List.mem_map.mp hpc
    have hf := hl.metaFits p (hp.preMem p h)
    exact ⟨meta_is (hok p h) hL hf.1 (by decide) hf.2, by rw [metaContent_last (hok p h)]; rfl⟩
  · rw [rowSize_all]
    exact hmem
  · rw [prePages, List.length_map]
    omega
  · intro hk
    rw [hp.k_none hk]
    exact ⟨rfl, rfl⟩

theorem written_rowFile (hl : l.For d) (hp : Pages l d ps k tail n) (hr : ∀ p ∈ l.rowPages, RowsOk l d p) :
    RowFile l.header (prePages l.header ps) k (rowTail l.header l.compression d.rowLength tail) (allSubs l d n)
      l.compression where
  pointers := by
    intro pc hpc
    rcases List.mem_append.mp hpc with hpc | hpc
    · obtain ⟨p, h, rfl⟩ := List.mem_map.mp hpc
      exact meta_pointers (metaPages_ok hl p (hp.preMem p h)) _
    · exact hp.k_ptrs pc (Option.mem_toList.mp hpc)
  first := by
    rw [rowSize_all]
    exact hp.k_row
  later := by
    rw [rowSize_all]
    intro po hpo
    obtain ⟨p, h, rfl⟩ := List.mem_map.mp hpo
    exact (hr p (hp.tailMem p h)).row
  announced := by
    rw [rowSize_all]
    intro po hpo _
    obtain ⟨p, h, rfl⟩ := List.mem_map.mp hpo
    have := hr p (hp.tailMem p h)
    rw [this.stored]
    exact this.ne

theorem written_rows (hl : l.For d) (hp : Pages l d ps k tail n) (hr : ∀ p ∈ l.rowPages, RowsOk l d p) :
    fileRows l.header (allSubs l d n) l.compression
      (outlines (prePages l.header ps) k (rowTail l.header l.compression d.rowLength tail)) =
    l.mix ++ l.rowPages.flatten := by
  unfold fileRows outlines
  rw [rowSize_all, List.map_append, List.append_assoc, List.flatMap_append]
  have h1 : ((prePages l.header ps).map (fun pc => (pc.1, pc.2.outline))).flatMap
      (storedRows l.header.fmt (l.compression ≠ .none) (sizeOf l d)) = [] := by
    rw [List.flatMap_eq_nil_iff]
    intro po hpo
    obtain ⟨pc, hpc, rfl⟩ := List.mem_map.mp hpo
    obtain ⟨p, h, rfl⟩ := List.mem_map.mp hpc
    have hok := metaPages_ok hl p (hp.preMem p h)
    exact stored_pre (meta_pointers hok _) (by rw [metaContent_last hok]; rfl) _ _
  have h2 : (rowTail l.header l.compression d.rowLength tail).flatMap
      (storedRows l.header.fmt (l.compression ≠ .none) (sizeOf l d)) = tail.flatten := by
    have : ∀ t : List (List (List Byte)), (∀ p ∈ t, p ∈ l.rowPages) →
        (rowTail l.header l.compression d.rowLength t).flatMap
        (storedRows l.header.fmt (l.compression ≠ .none) (sizeOf l d)) = t.flatten := by
      intro t
      induction t with
      | nil => intro _; rfl
      | cons p t ih =>
        intro ht
        rw [rowTail, List.map_cons, List.flatMap_cons, List.flatten_cons, (hr p (ht p (by simp))).stored]
        congr 1
        exact ih (fun q hq => ht q (by simp [hq]))
    exact this tail hp.tailMem
  rw [h1, List.nil_append, List.flatMap_append, h2, ← hp.rows_eq, List.flatMap_map]

/-! ## The three forms of a file -/

theorem writeMeta_length {h : FileHeader} {rows : List (List Byte)} {subs : List Sub}
    (hu : pageUsed h.fmt rows.flatten (subs.map (subItem h.endian h.fmt)) ≤ h.pageLength) :
    (writeMeta h rows subs).length = h.pageLength := writePage_length hu

/-- No rows at all. -/
theorem pages_empty (hl : l.For d) (hm : l.mix = []) (hr : l.rowPages = []) :
    Pages l d l.metaPages none [] 0 where
  preMem p h := h
  tailMem p h := by cases h
  all_eq := by rw [hl.subs]; simp [allSubs, usedOf]
  k_is pc h := by cases h
  k_ptrs pc h := by cases h
  k_row pc h := by cases h
  k_length pc h := by cases h
  k_none _ := rfl
  pages_eq := by rw [hm, writeMetas_nil, hr]; simp
  rows_eq := by rw [hm, hr]; rfl

/-- A mix page. -/
theorem pages_mix (hl : l.For d) (hm : l.mix ≠ []) (hlen : ∀ r ∈ l.mix, r.length = d.rowLength) 
    {ps : List (List Sub)} {last : List Sub} (hps : l.metaPages = ps ++ [last]) :
    Pages l d ps (some (writeMeta l.header l.mix last, metaContent l.header l.mix last)) l.rowPages 0 := by
  have hlast : last ∈ l.metaPages := by rw [hps]; simp
  have hok := metaPages_ok hl last hlast
  have hf := hl.metaFits last hlast
  have hx := hl.mixFits last (by rw [hps]; simp)
  have hL : l.header.pageLength < 2 ^ 32 := hl.header.sizes.2.2.2.1
  have his := meta_is hok hL hf.1 hx.1 hx.2
  have hmin : min (sizeOf l d).rowCount (sizeOf l d).mixCount = l.mix.length := by
    have := hl.count
    rw [List.length_append] at this
    exact Nat.min_eq_right (by simp only [sizeOf]; omega)
  exact {
    preMem := fun p h => by rw [hps]; simp [h]
    tailMem := fun p h => h
    all_eq := by
      have := hl.subs
      rw [hps, List.flatten_append, List.flatten_singleton] at this
      simp only [allSubs, List.replicate_zero, List.append_nil, ← this, Option.toList_some, List.map_cons, List.map_nil,
        usedOf, List.flatMap_cons, List.flatMap_nil, metaContent_used hok]
    k_is := by
      rintro pc ⟨rfl⟩
      exact ⟨his, by rw [metaContent_last hok]; simpa using hm⟩
    k_ptrs := by
      rintro pc ⟨rfl⟩
      exact meta_pointers hok _
    k_row := by
      rintro pc ⟨rfl⟩
      exact rowPage_mix _ hm hx.2 hmin hlen his
    k_length := by
      rintro pc ⟨rfl⟩
      exact writeMeta_length hx.2
    k_none := fun h => by cases h
    pages_eq := by rw [hps, writeMetas_snoc]; simp
    rows_eq := by
      simp only [Option.toList_some, List.flatMap_cons, List.flatMap_nil, List.append_nil]
      rw [stored_mix _ hm hx.2 hmin hlen] }

/-- The first page with rows is a page of rows. -/
theorem pages_rows (hl : l.For d) (hm : l.mix = []) {p : List (List Byte)} {ps : List (List (List Byte))}
    (hps : l.rowPages = p :: ps) (hp : RowsOk l d p)
    (his : PageIs l.header.endian l.header.fmt (writeRows l.header l.compression d.rowLength p)
      (rowsContent l.header l.compression d.rowLength p))
    (hused : l.compression ≠ .none → (rowsContent l.header l.compression d.rowLength p).used =
      List.replicate p.length .row) :
    Pages l d l.metaPages (some (writeRows l.header l.compression d.rowLength p,
      rowsContent l.header l.compression d.rowLength p)) ps (if l.compression = .none then 0 else p.length) where
  preMem p h := h
  tailMem q h := by rw [hps]; simp [h]
  all_eq := by
    rw [hl.subs, allSubs]
    congr 1
    simp only [Option.toList_some, List.map_cons, List.map_nil, usedOf, List.flatMap_cons, List.flatMap_nil, List.append_nil]
    by_cases hc : l.compression = .none
    · rw [hc]; simp [rowsContent, PageContent.used]
    · rw [hused hc, if_neg hc]
  k_is := by
    rintro pc ⟨rfl⟩
    refine ⟨his, ?_⟩
    unfold PageContent.last
    by_cases hc : l.compression = .none
    · rw [hc]; simp [rowsContent, hasRows]
    · rw [hused hc]
      obtain ⟨x, xs, rfl⟩ := List.exists_cons_of_ne_nil hp.ne
      simp [hc, List.replicate_succ]
  k_ptrs := by
    rintro pc ⟨rfl⟩
    refine ⟨fun _ x hx _ _ => ?_, fun hc _ => ?_⟩
    · unfold rowsContent at hx
      split at hx
      · cases hx
      · obtain ⟨q, _, rfl⟩ := List.mem_map.mp hx
        rfl
    · simp [rowsContent, hc]
  k_row := by
    rintro pc ⟨rfl⟩
    rw [rowsContent_outline]
    exact hp.row
  k_length := by
    rintro pc ⟨rfl⟩
    exact hp.length
  k_none h := by cases h
  pages_eq := by rw [hm, writeMetas_nil, hps]; simp
  rows_eq := by
    simp only [Option.toList_some, List.flatMap_cons, List.flatMap_nil, List.append_nil]
    rw [rowsContent_outline, hp.stored, hm, hps]
    simp

end

end Sas
