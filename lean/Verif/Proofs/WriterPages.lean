import Verif.Proofs.WriterFile

/-!
# Written pages
-/

namespace Sas

open Spec

/-! ## The subheaders can be written -/

theorem refsFrom_ok {t o : Nat} {g : List ColumnDesc} (ht : t < 2 ^ 16)
    (ho : o + (g.flatMap ColumnDesc.text).length < 2 ^ 16) :
    ∀ r ∈ refsFrom t o g, RefOk r.1 ∧ RefOk r.2.1 ∧ RefOk r.2.2 := by
  intro r hr
  obtain ⟨i, hi⟩ := List.mem_iff_getElem?.mp hr
  have hlt : i < g.length := by
    have := (List.getElem?_eq_some_iff.mp hi).1
    rwa [refsFrom_length] at this
  obtain ⟨rn, rf, rl, h1, h2, h3, h4, h5, _⟩ := refsFrom_get t g o i g[i] (List.getElem?_eq_getElem hlt)
  rw [hi, Option.some.injEq] at h1
  subst h1
  dsimp only
  unfold RefOk
  have a := h5 rn (by simp)
  have b := h5 rf (by simp)
  have c := h5 rl (by simp)
  exact ⟨⟨by omega, by omega, by omega⟩, ⟨by omega, by omega, by omega⟩, ⟨by omega, by omega, by omega⟩⟩

theorem textOf_ok {e : Endian} {f : Format} {body : List Byte} (h : 2 + body.length < 2 ^ 16) :
    SubOk e f (.columnText (textOf e body)) := by
  have hl : (textOf e body).length = 2 + body.length := by simp [textOf]
  refine ⟨by rw [hl]; exact h, by omega, ?_⟩
  rw [hl, textOf, List.take_left' (by simp)]

theorem groupSubs_ok {e : Endian} {f : Format} {t : Nat} {g : List ColumnDesc} (ht : t < 2 ^ 16)
    (hg : 2 + (g.flatMap ColumnDesc.text).length < 2 ^ 16) (hc : ∀ c ∈ g, c.Writable f) :
    ∀ s ∈ groupSubs e t g, SubOk e f s := by
  intro s hs
  have hr := refsFrom_ok (o := 2) ht hg
  simp only [groupSubs, List.mem_append, List.mem_cons, List.not_mem_nil, or_false, List.mem_map] at hs
  rcases hs with (rfl | rfl | rfl) | ⟨r, hr', rfl⟩
  · exact textOf_ok hg
  · intro r hr'
    obtain ⟨x, hx, rfl⟩ := List.mem_map.mp hr'
    exact (hr x hx).1
  · intro a ha
    obtain ⟨x, hx, rfl⟩ := List.mem_map.mp ha
    exact (hc x hx).sizes
  · exact ⟨(hr r hr').2.1, (hr r hr').2.2⟩

theorem groupsSubs_ok {e : Endian} {f : Format} : ∀ (gs : List (List ColumnDesc)) (t : Nat),
    t + gs.length ≤ 2 ^ 16 → (∀ g ∈ gs, 2 + (g.flatMap ColumnDesc.text).length < 2 ^ 16) →
    (∀ g ∈ gs, ∀ c ∈ g, c.Writable f) → ∀ s ∈ groupsSubs e t gs, SubOk e f s := by
  intro gs
  induction gs with
  | nil => intro t _ _ _ s hs; simp [groupsSubs] at hs
  | cons g gs ih =>
    intro t ht hg hc s hs
    rw [List.length_cons] at ht
    rw [groupsSubs, List.mem_append] at hs
    rcases hs with hs | hs
    · exact groupSubs_ok (by omega) (hg g (by simp)) (hc g (by simp)) s hs
    · exact ih (t + 1) (by omega) (fun g h => hg g (by simp [h])) (fun g h => hc g (by simp [h])) s hs

theorem marker_length (c : Compression) : (marker c).length = 8 := by
  cases c
  · rfl
  · unfold marker; decide +kernel
  · unfold marker; decide +kernel

theorem leadText_length (e : Endian) (c : Compression) : (leadText e c).length = 36 := by
  simp only [leadText, textOf, List.length_append, encode_length, List.length_replicate, marker_length]

theorem describe_ok {l : Layout} {d : DataSet} (hl : l.For d) :
    ∀ s ∈ describe l d, SubOk l.header.endian l.header.fmt s := by
  intro s hs
  have hsz := hl.sizes
  have hmix : l.mix.length ≤ d.rows.length := by
    have := hl.count
    rw [List.length_append] at this
    omega
  have hpos : 0 < 256 ^ word l.header.fmt := Nat.pow_pos (by omega)
  simp only [describe, List.mem_append, List.mem_cons, List.not_mem_nil, or_false] at hs
  rcases hs with (rfl | rfl | rfl) | hs
  · refine ⟨hsz.1, hsz.2.1, hsz.2.2, hpos, Nat.lt_of_le_of_lt hmix hsz.2.1, Nat.two_pow_pos 16, Nat.two_pow_pos 16⟩
  · exact hsz.2.2
  · have h36 := leadText_length l.header.endian l.compression
    unfold leadText at h36 ⊢
    apply textOf_ok
    rw [textOf, List.length_append, encode_length] at h36
    omega
  · refine groupsSubs_ok l.groups 1 (by have := hl.groups; omega) hl.texts (fun g hg c hc => ?_) s hs
    refine hl.columnsOk c ?_
    rw [← hl.columns]
    exact List.mem_flatten.mpr ⟨g, hg, hc⟩

/-! ## Pages -/

/-- Subheaders have bytes. -/
theorem bytes_pos {e : Endian} {f : Format} {s : Sub} (h : SubOk e f s) : (s.bytes e f).length ≠ 0 := by
  have := word_ge f
  cases s with
  | ignored => exact h.elim
  | row => exact h.elim
  | _ => simp only [Sub.bytes, List.length_append, sig_length]; omega

/-- The content of a page with subheaders and rows. -/
def metaContent (h : FileHeader) (rows : List (List Byte)) (subs : List Sub) : PageContent where
  type := if rows = [] then 0 else 512
  blocks := if rows = [] then 0 else rows.length
  subs := (pointers (rowsStart h.fmt subs.length + rows.flatten.length) (subs.map (subItem h.endian h.fmt))).zip subs

theorem pointers_comp_type : ∀ (items : List Item) (o : Nat), ∀ p ∈ pointers o items,
    ∃ it ∈ items, p.comp = it.comp ∧ p.type = it.type ∧ p.length = it.bytes.length := by
  intro items o p hp
  obtain ⟨i, hi⟩ := List.mem_iff_getElem?.mp hp
  obtain ⟨it, h1, h2, h3, h4, _⟩ := pointers_get _ _ _ _ hi
  exact ⟨it, List.mem_of_getElem? h1, h3, h4, h2⟩

section Meta
variable {h : FileHeader} {rows : List (List Byte)} {subs : List Sub}

theorem metaContent_ptrs : (metaContent h rows subs).subs.map (·.1) =
    pointers (rowsStart h.fmt (subs.map (subItem h.endian h.fmt)).length + rows.flatten.length)
      (subs.map (subItem h.endian h.fmt)) := by
  unfold metaContent
  rw [List.length_map]
  exact List.map_fst_zip (by rw [pointers_length, List.length_map])

theorem metaContent_subs : (metaContent h rows subs).subs.map (·.2) = subs := by
  unfold metaContent
  exact List.map_snd_zip (by rw [pointers_length, List.length_map])

theorem metaContent_hasMeta : hasMeta (metaContent h rows subs).type = true := by
  unfold metaContent
  dsimp only
  split <;> decide

theorem metaContent_live (hok : ∀ s ∈ subs, SubOk h.endian h.fmt s) :
    ∀ ps ∈ (metaContent h rows subs).subs, live ps.1 = true ∧ rowPtr ps.1 = false := by
  intro ps hps
  have h1 : ps.1 ∈ (metaContent h rows subs).subs.map (·.1) := List.mem_map_of_mem hps
  rw [metaContent_ptrs] at h1
  obtain ⟨it, hit, hc, ht, hlen⟩ := pointers_comp_type _ _ _ h1
  obtain ⟨s, hs, rfl⟩ := List.mem_map.mp hit
  have := bytes_pos (hok s hs)
  simp only [subItem] at hc ht hlen
  constructor
  · simp [live, hlen, hc, List.length_eq_zero_iff] at this ⊢
    exact this
  · simp [rowPtr, ht]

theorem metaContent_used (hok : ∀ s ∈ subs, SubOk h.endian h.fmt s) : (metaContent h rows subs).used = subs := by
  unfold PageContent.used
  rw [metaContent_hasMeta, if_pos rfl, List.filter_eq_self.mpr (fun ps hps => (metaContent_live hok ps hps).1),
    metaContent_subs]

theorem no_row (hok : ∀ s ∈ subs, SubOk h.endian h.fmt s) : subs.contains .row = false := by
  rw [List.contains_eq_any_beq, List.any_eq_false]
  intro s hs he
  have he : s = .row := (by simpa using he : Sub.row = s).symm
  subst he
  exact hok _ hs

theorem metaContent_last (hok : ∀ s ∈ subs, SubOk h.endian h.fmt s) (z : Bool) :
    (metaContent h rows subs).last z = decide (rows ≠ []) := by
  unfold PageContent.last
  rw [metaContent_used hok, no_row hok, Bool.and_false, Bool.or_false]
  unfold metaContent
  by_cases hr : rows = []
  · simp [hr, hasRows]
  · simp [hr, hasRows]

theorem meta_is (hok : ∀ s ∈ subs, SubOk h.endian h.fmt s) (hL : h.pageLength < 2 ^ 32)
    (hs : subs.length < 2 ^ 16) (hr : rows.length < 2 ^ 16)
    (hu : pageUsed h.fmt rows.flatten (subs.map (subItem h.endian h.fmt)) ≤ h.pageLength) :
    PageIs h.endian h.fmt (writeMeta h rows subs) (metaContent h rows subs) where
  layout := by
    rw [metaContent_ptrs]
    exact writePage_layout hu hL (by split <;> decide) (by split <;> omega) (by rw [List.length_map]; exact hs)
  subs := by
    intro _ ps hps _
    obtain ⟨i, hi⟩ := List.mem_iff_getElem?.mp hps
    have h1 : ((metaContent h rows subs).subs.map (·.1))[i]? = some ps.1 := by rw [List.getElem?_map, hi]; rfl
    have h2 : ((metaContent h rows subs).subs.map (·.2))[i]? = some ps.2 := by rw [List.getElem?_map, hi]; rfl
    rw [metaContent_ptrs] at h1
    rw [metaContent_subs] at h2
    obtain ⟨it, g1, g2, _, _, g5, g6⟩ := writePage_item (e := h.endian) (type := if rows = [] then 0 else 512)
      (blocks := if rows = [] then 0 else rows.length) hu h1
    rw [List.getElem?_map, h2, Option.map_some, Option.some.injEq] at g1
    subst g1
    exact subLayout ps.2 (hok _ (List.mem_of_getElem? h2)) g2
      (by rw [writeMeta, writePage_length hu]; exact g5) g6

theorem meta_pointers (hok : ∀ s ∈ subs, SubOk h.endian h.fmt s) (c : Compression) :
    RowPointers c (metaContent h rows subs) where
  rows _ ps hps _ hr := by rw [(metaContent_live hok ps hps).2] at hr; cases hr
  onMeta _ hr := by rw [metaContent_used hok, no_row hok] at hr; cases hr

end Meta

/-! ### Rows -/

theorem rowsAt_mix {f : Format} {z : Bool} {r : RowSize} {n : Nat} {ptrs : List PageSub} :
    rowsAt f z r 512 n ptrs = (List.range (min r.rowCount r.mixCount)).map fun i =>
      (rowsStart f ptrs.length + i * r.rowLength, r.rowLength) := by
  unfold rowsAt rowsStart
  simp

theorem stored_mix {h : FileHeader} {rows : List (List Byte)} {subs : List Sub} {r : RowSize} (z : Bool)
    (hr : rows ≠ []) (hu : pageUsed h.fmt rows.flatten (subs.map (subItem h.endian h.fmt)) ≤ h.pageLength)
    (hn : min r.rowCount r.mixCount = rows.length) (hk : ∀ x ∈ rows, x.length = r.rowLength) :
    storedRows h.fmt z r (writeMeta h rows subs, (metaContent h rows subs).outline) = rows := by
  have ht : (metaContent h rows subs).type = 512 := by simp [metaContent, hr]
  unfold storedRows PageContent.outline
  simp only [ht, rowsAt_mix, hn, List.map_map, metaContent_ptrs, pointers_length]
  exact writePage_rows hu hk

theorem flatten_length {rows : List (List Byte)} {k : Nat} (hk : ∀ x ∈ rows, x.length = k) :
    rows.flatten.length = rows.length * k := by
  have := flatMap_length_slots (g := id) (k := k) rows hk
  rwa [List.flatMap_id] at this

theorem rowPage_mix {h : FileHeader} {rows : List (List Byte)} {subs : List Sub} {r : RowSize} (z : Bool)
    (hr : rows ≠ []) (hu : pageUsed h.fmt rows.flatten (subs.map (subItem h.endian h.fmt)) ≤ h.pageLength)
    (hn : min r.rowCount r.mixCount = rows.length) (hk : ∀ x ∈ rows, x.length = r.rowLength)
    (hp : PageIs h.endian h.fmt (writeMeta h rows subs) (metaContent h rows subs)) :
    RowPage h.endian h.fmt z r (writeMeta h rows subs, (metaContent h rows subs).outline) where
  layout := hp.layout
  inside := by
    have ht : (metaContent h rows subs).type = 512 := by simp [metaContent, hr]
    unfold PageContent.outline
    simp only [ht, rowsAt_mix, hn, metaContent_ptrs, pointers_length, List.mem_map, List.mem_range]
    rintro _ ⟨i, hi, rfl⟩
    rw [writeMeta, writePage_length hu]
    unfold pageUsed at hu
    rw [flatten_length hk] at hu
    have := Nat.mul_le_mul_right r.rowLength (show i + 1 ≤ rows.length from hi)
    rw [Nat.add_mul, Nat.one_mul] at this
    dsimp only
    omega

/-- The outline of a page of rows. -/
def rowsOutline (h : FileHeader) (c : Compression) (n : Nat) (raws : List (List Byte)) : PageOutline :=
  if c = .none then ⟨256, raws.length, []⟩
  else ⟨0, 0, pointers (rowsStart h.fmt raws.length) (raws.map (rowItem n))⟩

/-- The content of a page of rows. -/
def rowsContent (h : FileHeader) (c : Compression) (n : Nat) (raws : List (List Byte)) : PageContent :=
  if c = .none then ⟨256, raws.length, []⟩
  else ⟨0, 0, (pointers (rowsStart h.fmt raws.length) (raws.map (rowItem n))).map fun p => (p, .row)⟩

theorem rowsContent_outline (h : FileHeader) (c : Compression) (n : Nat) (raws : List (List Byte)) :
    (rowsContent h c n raws).outline = rowsOutline h c n raws := by
  unfold rowsContent rowsOutline PageContent.outline
  split
  · rfl
  · simp [Function.comp_def]

section Plain
variable {h : FileHeader} {n : Nat} {raws : List (List Byte)}

theorem writeRows_plain : writeRows h .none n raws =
    writePage h.endian h.fmt h.pageLength 256 raws.length raws.flatten [] := rfl

theorem rowsStart_zero (f : Format) : rowsStart f 0 = pageHead f + 8 := by cases f <;> rfl

theorem plain_layout (hL : h.pageLength < 2 ^ 32) (hn : raws.length < 2 ^ 16)
    (hu : pageUsed h.fmt raws.flatten [] ≤ h.pageLength) :
    PageLayout h.endian h.fmt (writeRows h .none n raws) 256 raws.length [] :=
  writePage_layout hu hL (by decide) hn (by decide)

theorem plain_stored {r : RowSize} (hu : pageUsed h.fmt raws.flatten [] ≤ h.pageLength)
    (hk : ∀ x ∈ raws, x.length = r.rowLength) :
    storedRows h.fmt false r (writeRows h .none n raws, rowsOutline h .none n raws) = raws := by
  have := writePage_rows (e := h.endian) (type := 256) (blocks := raws.length) hu hk
  rw [List.length_nil, rowsStart_zero] at this
  simp only [storedRows, rowsOutline, rowsAt, if_true, show ¬ (256 : Nat) = 0 by decide, if_false, List.map_map]
  exact this

theorem plain_rowPage {r : RowSize} (hL : h.pageLength < 2 ^ 32) (hn : raws.length < 2 ^ 16)
    (hu : pageUsed h.fmt raws.flatten [] ≤ h.pageLength) (hk : ∀ x ∈ raws, x.length = r.rowLength) :
    RowPage h.endian h.fmt false r (writeRows h .none n raws, rowsOutline h .none n raws) where
  layout := plain_layout (n := n) hL hn hu
  inside := by
    simp only [rowsOutline, rowsAt, if_true, show ¬ (256 : Nat) = 0 by decide, if_false, List.mem_map, List.mem_range]
    rintro _ ⟨i, hi, rfl⟩
    rw [writeRows_plain, writePage_length hu]
    unfold pageUsed at hu
    rw [flatten_length hk, List.length_nil, rowsStart_zero] at hu
    have := Nat.mul_le_mul_right r.rowLength (show i + 1 ≤ raws.length from hi)
    rw [Nat.add_mul, Nat.one_mul] at this
    dsimp only
    omega

theorem plain_is (hL : h.pageLength < 2 ^ 32) (hn : raws.length < 2 ^ 16)
    (hu : pageUsed h.fmt raws.flatten [] ≤ h.pageLength) :
    PageIs h.endian h.fmt (writeRows h .none n raws) (rowsContent h .none n raws) where
  layout := plain_layout (n := n) hL hn hu
  subs _ ps hps := by cases hps

end Plain

section Compressed
variable {h : FileHeader} {c : Compression} {n : Nat} {raws : List (List Byte)}

theorem writeRows_packed (hc : c ≠ .none) : writeRows h c n raws =
    writePage h.endian h.fmt h.pageLength 0 0 [] (raws.map (rowItem n)) := by
  rw [writeRows, if_neg hc]

theorem packed_layout (hc : c ≠ .none) (hL : h.pageLength < 2 ^ 32) (hn : raws.length < 2 ^ 16)
    (hu : pageUsed h.fmt [] (raws.map (rowItem n)) ≤ h.pageLength) :
    PageLayout h.endian h.fmt (writeRows h c n raws) 0 0
      (pointers (rowsStart h.fmt raws.length) (raws.map (rowItem n))) := by
  have := writePage_layout (e := h.endian) (type := 0) (blocks := 0) hu hL (by decide) (by decide)
    (by rw [List.length_map]; exact hn)
  rw [List.length_map, List.length_nil, Nat.add_zero] at this
  rw [writeRows_packed hc]
  exact this

theorem packed_live (hne : ∀ raw ∈ raws, raw ≠ []) (o : Nat) :
    ∀ p ∈ pointers o (raws.map (rowItem n)), live p = true ∧ rowPtr p = true := by
  intro p hp
  obtain ⟨it, hit, hc, ht, hl⟩ := pointers_comp_type _ _ _ hp
  obtain ⟨raw, hraw, rfl⟩ := List.mem_map.mp hit
  simp only [rowItem] at hc ht hl
  have := hne raw hraw
  by_cases hlt : raw.length < n
  · simp only [hlt, if_true] at hc
    simp [live, rowPtr, hc, ht, hl, this]
  · simp only [hlt, if_false] at hc
    simp [live, rowPtr, hc, ht, hl, this]

theorem packed_rowsAt (hne : ∀ raw ∈ raws, raw ≠ []) (r : RowSize) (o : Nat) :
    rowsAt h.fmt true r 0 0 (pointers o (raws.map (rowItem n))) =
      (pointers o (raws.map (rowItem n))).map fun p => (p.offset, p.length) := by
  have hl := packed_live (n := n) hne o
  unfold rowsAt
  simp only [if_true]
  rw [List.filter_eq_self.mpr (fun p hp => (hl p hp).1), List.filter_eq_self.mpr (fun p hp => (hl p hp).2)]

theorem packed_stored {r : RowSize} (hc : c ≠ .none) (hne : ∀ raw ∈ raws, raw ≠ [])
    (hu : pageUsed h.fmt [] (raws.map (rowItem n)) ≤ h.pageLength) :
    storedRows h.fmt true r (writeRows h c n raws, rowsOutline h c n raws) = raws := by
  unfold storedRows rowsOutline
  simp only [if_neg hc]
  rw [packed_rowsAt hne]
  apply List.ext_getElem?
  intro i
  simp only [List.getElem?_map]
  cases hi : (pointers (rowsStart h.fmt raws.length) (raws.map (rowItem n)))[i]? with
  | none =>
    rw [List.getElem?_eq_none_iff, pointers_length, List.length_map] at hi
    rw [List.getElem?_eq_none hi]
    rfl
  | some p =>
    have hi' := hi
    obtain ⟨it, g1, g2, _, _, g5, g6⟩ := writePage_item (e := h.endian) (type := 0) (blocks := 0) hu
      (p := p) (i := i) (by rw [List.length_map, List.length_nil, Nat.add_zero]; exact hi)
    rw [List.getElem?_map] at g1
    cases hr : raws[i]? with
    | none => rw [hr] at g1; cases g1
    | some raw =>
      rw [hr, Option.map_some, Option.some.injEq] at g1
      subst g1
      have := g6 0 raw.length (by simp [rowItem])
      rw [Nat.add_zero] at this
      rw [Option.map_some, Option.map_some, Option.some.injEq, writeRows_packed hc]
      dsimp only
      rw [g2]
      show slice _ p.offset raw.length = raw
      rw [this]
      exact slice_all (Nat.le_refl _)

theorem packed_rowPage {r : RowSize} (hc : c ≠ .none) (hne : ∀ raw ∈ raws, raw ≠ []) (hL : h.pageLength < 2 ^ 32)
    (hn : raws.length < 2 ^ 16) (hu : pageUsed h.fmt [] (raws.map (rowItem n)) ≤ h.pageLength) :
    RowPage h.endian h.fmt true r (writeRows h c n raws, rowsOutline h c n raws) where
  layout := by
    unfold rowsOutline
    rw [if_neg hc]
    exact packed_layout hc hL hn hu
  inside := by
    unfold rowsOutline
    simp only [if_neg hc]
    rw [packed_rowsAt hne]
    intro ol hol
    obtain ⟨p, hp, rfl⟩ := List.mem_map.mp hol
    obtain ⟨i, hi⟩ := List.mem_iff_getElem?.mp hp
    obtain ⟨it, g1, g2, _, _, g5, g6⟩ := writePage_item (e := h.endian) (type := 0) (blocks := 0) hu
      (p := p) (i := i) (by rw [List.length_map, List.length_nil, Nat.add_zero]; exact hi)
    rw [writeRows_packed hc, writePage_length hu]
    exact g5

/-- What comes from a pointer on. -/
theorem pointers_from : ∀ (items : List Item) (o i : Nat) (p : PageSub), (pointers o items)[i]? = some p →
    ∀ (front rest : List Byte), front.length = o → ∀ n,
      slice (front ++ (items.flatMap (·.bytes) ++ rest)) p.offset n =
        ((items.drop i).flatMap (·.bytes) ++ rest).take n := by
  intro items
  induction items with
  | nil => intro o i p h; simp [pointers] at h
  | cons it items ih =>
    intro o i p h front rest hf n
    rw [pointers] at h
    cases i with
    | zero =>
      simp only [List.getElem?_cons_zero, Option.some.injEq] at h
      subst h
      subst hf
      simp [slice]
    | succ i =>
      rw [List.getElem?_cons_succ] at h
      have := ih _ i p h (front ++ it.bytes) rest (by rw [List.length_append, hf]) n
      rw [List.drop_succ_cons, ← this]
      simp [List.flatMap_cons]

theorem take_zeros (x : List Byte) {n m k : Nat} (h1 : n ≤ m) (h2 : n ≤ k) :
    (x ++ zeros m).take n = (x ++ zeros k).take n := by
  rw [List.take_append, List.take_append, zeros, zeros, List.take_replicate, List.take_replicate,
    Nat.min_eq_left (by omega), Nat.min_eq_left (by omega)]

theorem packed_is (hc : c ≠ .none) (hne : ∀ raw ∈ raws, raw ≠ []) (hL : h.pageLength < 2 ^ 32)
    (hn : raws.length < 2 ^ 16) (hu : pageUsed h.fmt [] (raws.map (rowItem n)) + 8 ≤ h.pageLength)
    (hfirst : ∀ rs, rs <:+ raws → rs ≠ [] → ∀ e s,
      (rs.flatten ++ zeros 8).take (word h.fmt) ≠ Sig.bytes e h.fmt s) :
    PageIs h.endian h.fmt (writeRows h c n raws) (rowsContent h c n raws) where
  layout := by
    have := packed_layout (n := n) hc hL hn (by omega)
    unfold rowsContent
    simp only [if_neg hc, List.map_map, Function.comp_def, List.map_id']
    exact this
  subs := by
    unfold rowsContent
    simp only [if_neg hc]
    intro _ ps hps _
    obtain ⟨p, hp, rfl⟩ := List.mem_map.mp hps
    obtain ⟨i, hi⟩ := List.mem_iff_getElem?.mp hp
    have hi' : i < raws.length := by
      have := (List.getElem?_eq_some_iff.mp hi).1
      rwa [pointers_length, List.length_map] at this
    obtain ⟨it, g1, g2, _, _, g5, g6, _⟩ := pointers_get _ _ _ _ hi
    have hw : word h.fmt ≤ 8 := by cases h.fmt <;> decide
    have hu' : pageUsed h.fmt [] (raws.map (rowItem n)) =
        rowsStart h.fmt raws.length + ((raws.map (rowItem n)).flatMap (·.bytes)).length := by
      simp [pageUsed]
    refine ⟨?_, ?_, (packed_live hne _ p hp).2⟩
    · rw [writeRows_packed hc, writePage_length (by omega)]
      dsimp only
      omega
    · intro e' s
      obtain ⟨front, hf, hs⟩ := writePage_split (e := h.endian) (f := h.fmt) (L := h.pageLength) (type := 0) (blocks := 0)
        (rows := []) (items := raws.map (rowItem n)) (by omega)
      rw [List.length_map] at hf
      rw [writeRows_packed hc, hs, List.nil_append]
      dsimp only
      rw [pointers_from _ _ i p hi front _ hf, take_zeros _ (m := h.pageLength - _) (k := 8) (by omega) hw,
        ← List.map_drop]
      have hb : ((raws.drop i).map (rowItem n)).flatMap (·.bytes) = (raws.drop i).flatten := by
        rw [List.flatMap_map]
        exact List.flatMap_id
      rw [hb]
      refine hfirst _ (List.drop_suffix i raws) ?_ e' s
      intro h0
      rw [List.drop_eq_nil_iff] at h0
      omega

theorem packed_used (hc : c ≠ .none) (hne : ∀ raw ∈ raws, raw ≠ []) :
    (rowsContent h c n raws).used = List.replicate raws.length .row := by
  unfold rowsContent PageContent.used
  simp only [if_neg hc]
  rw [show hasMeta 0 = true from rfl, if_pos rfl, List.filter_eq_self.mpr]
  · rw [List.map_map]
    rw [List.eq_replicate_iff]
    refine ⟨by rw [List.length_map, pointers_length, List.length_map], ?_⟩
    intro b hb
    obtain ⟨p, _, rfl⟩ := List.mem_map.mp hb
    rfl
  · intro ps hps
    obtain ⟨p, hp, rfl⟩ := List.mem_map.mp hps
    exact (packed_live hne _ p hp).1

end Compressed

end Sas
