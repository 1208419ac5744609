import Verif.Spec.Bounds
import Verif.Proofs.Debug
import Verif.Proofs.Meta
import Verif.Proofs.OpenErrs

/-! Files whose positions and lengths stay inside their pages: no call crashes. -/

namespace Sas

open Spec

variable {α β : Type}

/-- No crash, and the result, if any, satisfies `P`. -/
def Calm (P : α → Prop) : Res α → Prop
  | .ok a => P a
  | .error e => ¬ Crash e

theorem Calm.bind {P : α → Prop} {Q : β → Prop} {x : Res α} {f : α → Res β} (hx : Calm P x)
    (hf : ∀ a, P a → Calm Q (f a)) : Calm Q (x >>= f) := by
  cases x with
  | error e => exact hx
  | ok a => exact hf a hx

theorem Calm.mono {P Q : α → Prop} {x : Res α} (hx : Calm P x) (h : ∀ a, P a → Q a) : Calm Q x := by
  cases x with
  | error e => exact hx
  | ok a => exact h a hx

theorem Calm.ite {c : Prop} [Decidable c] {P : α → Prop} {x y : Res α} (hx : c → Calm P x) (hy : ¬ c → Calm P y) :
    Calm P (if c then x else y) := by
  split
  · exact hx ‹_›
  · exact hy ‹_›

theorem not_crash_exn (e : Exn) : ¬ Crash (.exn e) := by
  rintro (h | h) <;> cases h

theorem not_crash_fuel : ¬ Crash .fuel := by
  rintro (h | h) <;> cases h

theorem getVal_number (e : Endian) (page : List Byte) (o n : Nat) : getVal e (slice page o n) = number e page o n := by
  rw [getVal_foldl]
  unfold number slice
  cases e <;> rfl

theorem getD_getElem? {page : List Byte} {o : Nat} (h : o < page.length) : page[o]? = some (page.getD o 0) := by
  simp [List.getD, h]

/-! ### What is read of a page -/

section page

variable {env : Env} {b : Buf} {page : List Byte} (hb : b.Holds page)
include hb

theorem getU16_number {o : Nat} (h : o + 2 ≤ page.length) :
    b.getU16 env.cfg env.endian o = .ok (number env.endian page o 2) := by
  rw [hb.getU16 h, getVal_number]

theorem getUInt_number {o : Nat} (h : o + word env.format ≤ page.length) :
    b.getUInt env.cfg env.endian env.format o = .ok (number env.endian page o (word env.format)) := by
  rw [hb.getUInt (by rw [← word_eq]; exact h), ← word_eq, getVal_number]

theorem getUInt_calm {o : Nat} (h : o + word env.format ≤ page.length) :
    Calm (fun n => n < 2 ^ 64) (b.getUInt env.cfg env.endian env.format o) := by
  rw [hb.getUInt (by rw [← word_eq]; exact h)]
  refine Nat.lt_of_lt_of_le (getVal_lt _ _) ?_
  have : (slice page o env.format.intSize).length ≤ 8 := by
    unfold slice
    rw [List.length_take]
    have := word_pos env.format
    rw [word_eq] at this
    omega
  exact Nat.pow_le_pow_right (by omega) this

theorem getU32_calm {o : Nat} (h : o + 4 ≤ page.length) : Calm (fun _ => True) (b.getU32 env.cfg env.endian o) := by
  rw [hb.getU32 h]; trivial

theorem getByte_calm {o : Nat} (h : o + 1 ≤ page.length) : Calm (fun _ => True) (b.getByte env.cfg o) := by
  rw [hb.getByte (getD_getElem? (by omega))]; trivial

theorem getString_calm {o n : Nat} (h : o + n ≤ page.length) : Calm (fun _ => True) (b.getString env.cfg o n) := by
  rw [hb.getString h]; trivial

theorem getPageHeader_inside (hp : PointersInside env.endian env.format page) :
    getPageHeader env b = .ok ⟨pageType env.endian env.format page, pageBlocks env.endian env.format page,
      pointerCount env.endian env.format page⟩ := by
  have := hp.head
  unfold getPageHeader
  rw [← pageHead_eq, getU16_number hb (by omega), getU16_number hb (by omega), getU16_number hb (by omega)]
  rfl

theorem getPageSubheader_inside (hp : PointersInside env.endian env.format page)
    (hm : hasMeta (pageType env.endian env.format page) = true) {i : Nat}
    (hi : i < pointerCount env.endian env.format page) :
    getPageSubheader env b (pageHead env.format + 8 + i * (3 * word env.format)) =
      .ok (pointer env.endian env.format page i) := by
  have h1 := hp.table hm
  have h2 := hp.targets hm i hi
  have h3 : (i + 1) * (3 * word env.format) ≤ pointerCount env.endian env.format page * (3 * word env.format) :=
    Nat.mul_le_mul_right _ hi
  rw [Nat.succ_mul] at h3
  unfold getPageSubheader subheaderSize
  rw [← word_eq]
  obtain ⟨o, ho⟩ : ∃ o, pageHead env.format + 8 + i * (3 * word env.format) = o := ⟨_, rfl⟩
  have hw := word_pos env.format
  have hroom : o + 3 * word env.format ≤ page.length := by omega
  unfold pointer at h2 ⊢
  simp only [ho] at h2 ⊢
  rw [hb.assertCheck hroom, Res.ok_bind, getUInt_number hb (by omega), Res.ok_bind, getUInt_number hb (by omega),
    Res.ok_bind, Nat.mul_comm (word env.format) 2, hb.getByte (getD_getElem? (by omega)), Res.ok_bind,
    hb.getByte (getD_getElem? (by omega)), Res.ok_bind, hb.assertCheck h2]
  rfl

/-- Going through the subheaders of a page. -/
theorem processSubs_calm {P : α → Prop} (hp : PointersInside env.endian env.format page)
    (hm : hasMeta (pageType env.endian env.format page) = true) {f : α → PageSub → Res α}
    (hstep : ∀ a i, P a → i < pointerCount env.endian env.format page →
      live (pointer env.endian env.format page i) = true →
      Calm P (f a (pointer env.endian env.format page i))) :
    ∀ (k i : Nat) (a : α), i + k ≤ pointerCount env.endian env.format page → P a →
      Calm P (processSubs env b f k i a)
  | 0, _, _, _, ha => ha
  | k + 1, i, a, hk, ha => by
    unfold processSubs subheaderSize
    rw [← word_eq, ← pageHead_eq, getPageSubheader_inside hb hp hm (by omega), Res.ok_bind]
    have ih := fun a' ha' => processSubs_calm hp hm hstep k (i + 1) a' (by omega) ha'
    refine Calm.ite (fun _ => ih a ha) fun h0 => Calm.ite (fun _ => ih a ha) fun h1 =>
      Calm.bind (hstep a i ha (by omega) ?_) fun a' ha' => ih a' ha'
    simp [live, h0, h1]

/-- The offsets and lengths of rows that pointers of a page point to. -/
def RowSubs (e : Endian) (f : Format) (page : List Byte) (subs : List (Nat × Nat)) : Prop :=
  ∀ ol ∈ subs, ∃ i < pointerCount e f page, live (pointer e f page i) = true ∧ rowPtr (pointer e f page i) = true ∧
    ol = ((pointer e f page i).offset, (pointer e f page i).length)

omit hb in
theorem RowSubs.snoc {e : Endian} {f : Format} {subs : List (Nat × Nat)} (h : RowSubs e f page subs) {i : Nat}
    (hi : i < pointerCount e f page) (hl : live (pointer e f page i) = true) {c : Compression}
    (hr : isDataSub c (pointer e f page i) = true) :
    RowSubs e f page (subs ++ [((pointer e f page i).offset, (pointer e f page i).length)]) := by
  intro ol hol
  rcases List.mem_append.mp hol with h' | h'
  · exact h _ h'
  · refine ⟨i, hi, hl, ?_, List.mem_singleton.mp h'⟩
    unfold isDataSub at hr
    simp only [Bool.and_eq_true, Bool.or_eq_true, beq_iff_eq] at hr
    unfold rowPtr
    simp only [decide_eq_true_eq]
    exact ⟨hr.1.2.symm, hr.2⟩

/-! ### The subheaders -/

/-- What the metadata say about lengths. -/
structure MdIn (creators : Nat) (md : Meta) : Prop where
  lcs : md.lcs ≤ creators
  lcp : md.lcp ≤ creators
  rowLength : md.rowLength < 2 ^ 64

omit hb in
theorem lcsOffset_eq (f : Format) : lcsOffset f = lcsAt f ∧ lcpOffset f = lcsAt f + 24 ∧ 16 * word f ≤ lcsAt f := by
  cases f <;> decide

omit hb in
theorem compressionOffset_le (f : Format) : compressionOffset f = word f + 12 := by cases f <;> rfl

theorem processRowSize_calm {creators : Nat} {md : Meta} {o : Nat} (h : o + lcsAt env.format + 28 ≤ page.length)
    (h1 : number env.endian page (o + lcsAt env.format) 2 ≤ creators)
    (h2 : number env.endian page (o + lcsAt env.format + 24) 2 ≤ creators) :
    Calm (MdIn creators) (processRowSize env b md o) := by
  obtain ⟨e1, e2, e3⟩ := lcsOffset_eq env.format
  unfold processRowSize
  rw [e1, e2, ← word_eq, hb.assertCheck (by omega), Res.ok_bind, getU16_number hb (by omega), Res.ok_bind,
    getU16_number hb (by omega), Res.ok_bind]
  rw [← Nat.add_assoc]
  exact Calm.bind (getUInt_calm hb (by omega)) fun _ k => Calm.bind (getUInt_calm hb (by omega)) fun _ _ =>
    Calm.bind (getUInt_calm hb (by omega)) fun _ _ => Calm.bind (getUInt_calm hb (by omega)) fun _ _ =>
    Calm.bind (getUInt_calm hb (by omega)) fun _ _ => ⟨h1, h2, k⟩

theorem processColumnSize_calm {creators : Nat} {md : Meta} (hmd : MdIn creators md) {o : Nat}
    (h : o + 2 * word env.format ≤ page.length) : Calm (MdIn creators) (processColumnSize env b md o) := by
  unfold processColumnSize
  rw [← word_eq]
  exact Calm.bind (getUInt_calm hb (by omega)) fun _ _ => ⟨hmd.1, hmd.2, hmd.3⟩

theorem processColumnText_calm {creators : Nat} {acc : Acc} (hmd : MdIn creators acc.md) {o : Nat}
    (h1 : o + word env.format + 36 + creators ≤ page.length)
    (h2 : o + word env.format + number env.endian page (o + word env.format) 2 ≤ page.length) :
    Calm (fun a => MdIn creators a.md ∧ a.dataSubs = acc.dataSubs) (processColumnText env b acc o) := by
  unfold processColumnText
  rw [compressionOffset_le, ← word_eq, getU16_number hb (by omega), Res.ok_bind]
  unfold Buf.getStringUntrim
  rw [hb.rd h2, Res.ok_bind]
  generalize slice page _ _ = text
  refine Calm.ite (fun _ => ?_) fun _ => ⟨hmd, rfl⟩
  refine Calm.bind (getString_calm hb (by omega)) fun compression _ => ?_
  generalize hx : (if containsSub rleLiteral text then { acc.md with compression := Compression.rle }
              else if containsSub rdcLiteral text then { acc.md with compression := Compression.rdc }
              else acc.md) = md
  have hm : MdIn creators md := by
    rw [← hx]
    obtain ⟨m1, m2, m3⟩ := hmd
    split
    · exact ⟨m1, m2, m3⟩
    · split
      · exact ⟨m1, m2, m3⟩
      · exact ⟨m1, m2, m3⟩
  obtain ⟨m1, m2, m3⟩ := hm
  refine Calm.ite (fun _ => ?_) fun _ => Calm.ite (fun _ => ?_) fun _ => Calm.ite (fun _ => ?_) fun _ => ?_
  · exact Calm.bind (getString_calm hb (by omega)) fun _ _ => ⟨⟨Nat.zero_le _, m2, m3⟩, rfl⟩
  · exact Calm.bind (getString_calm hb (by omega)) fun _ _ => ⟨⟨m1, m2, m3⟩, rfl⟩
  · exact Calm.bind (getString_calm hb (by omega)) fun _ _ => ⟨⟨m1, Nat.zero_le _, m3⟩, rfl⟩
  · exact ⟨⟨m1, m2, m3⟩, rfl⟩

theorem nameLoop_calm (texts : List (List Byte)) {offMax : Nat} (h : offMax + 12 ≤ page.length) :
    ∀ (fuel off : Nat) (names : List (List Byte)), Calm (fun _ => True) (nameLoop env b texts offMax fuel off names)
  | 0, _, _ => not_crash_fuel
  | n + 1, off, names => by
    unfold nameLoop
    refine Calm.ite (fun hle => ?_) fun _ => trivial
    rw [getU16_number hb (by omega), Res.ok_bind, getU16_number hb (by omega), Res.ok_bind,
      getU16_number hb (by omega), Res.ok_bind]
    exact nameLoop_calm texts h n _ _

theorem attrLoop_calm {offMax : Nat} (h : offMax + 12 + word env.format ≤ page.length) :
    ∀ (fuel off : Nat) (x : List Nat × List Nat × List Bool), Calm (fun _ => True) (attrLoop env b offMax fuel off x)
  | 0, _, _ => not_crash_fuel
  | n + 1, off, (os, ls, ts) => by
    unfold attrLoop
    rw [← word_eq]
    exact Calm.ite (fun _ => Calm.bind (getUInt_calm hb (by omega)) fun _ _ =>
      Calm.bind (getU32_calm hb (by omega)) fun _ _ => Calm.bind (getByte_calm hb (by omega)) fun _ _ =>
      attrLoop_calm h n _ _) fun _ => trivial

theorem processFormatAndLabel_calm {creators : Nat} {acc : Acc} (hmd : MdIn creators acc.md) {o : Nat}
    (h : o + 3 * word env.format + 34 ≤ page.length) :
    Calm (fun a => MdIn creators a.md ∧ a.dataSubs = acc.dataSubs) (processFormatAndLabel env b acc o) := by
  unfold processFormatAndLabel
  rw [← word_eq]
  simp only
  rw [hb.assertCheck (by omega), Res.ok_bind, getU16_number hb (by omega), Res.ok_bind, getU16_number hb (by omega),
    Res.ok_bind, getU16_number hb (by omega), Res.ok_bind, getU16_number hb (by omega), Res.ok_bind,
    getU16_number hb (by omega), Res.ok_bind, getU16_number hb (by omega)]
  exact ⟨hmd, rfl⟩

omit hb in
theorem Sig.kind_inj {s t : Sig} (h : s.kind = t.kind) : s = t := by
  cases s <;> cases t <;> first | rfl | cases h

omit hb in
/-- A subheader that is classified as one of the known kinds has a mark of that kind. -/
theorem classify_marked {f : Format} {o : Nat} {s : Sig} (h : classify f (slice page o (word f)) = s.kind) :
    Marked f page o s := by
  by_cases hex : ∃ e t, slice page o (word f) = Sig.bytes e f t
  · obtain ⟨e, t, ht⟩ := hex
    rw [ht, classify_sig] at h
    rw [Sig.kind_inj h] at ht
    exact ⟨e, ht⟩
  · rw [classify_other (fun e t ht => hex ⟨e, t, ht⟩)] at h
    cases s <;> cases h

theorem offsetMax_room {f : Format} {p : PageSub} (h : word f + 12 ≤ p.offset + p.length)
    (h' : p.offset + p.length ≤ page.length) : offsetMax f p + 12 + word f ≤ page.length := by
  have := hb.good.small
  rw [hb.size] at this
  unfold offsetMax sub64
  rw [← word_eq]
  omega

theorem processSubheader_calm {creators : Nat} {acc : Acc} (hmd : MdIn creators acc.md)
    (hs : RowSubs env.endian env.format page acc.dataSubs) {i : Nat}
    (hi : i < pointerCount env.endian env.format page)
    (hl : live (pointer env.endian env.format page i) = true)
    (ht : (pointer env.endian env.format page i).offset + (pointer env.endian env.format page i).length ≤ page.length)
    (hin : SubInside env.endian env.format creators page (pointer env.endian env.format page i)) :
    Calm (fun x => MdIn creators x.1.md ∧ RowSubs env.endian env.format page x.1.dataSubs ∧
        (x.2 = false → x.1.dataSubs = acc.dataSubs))
      (processSubheader env b acc (pointer env.endian env.format page i)) := by
  unfold processSubheader
  rw [hb.rd (by rw [← word_eq]; exact hin.mark), ← word_eq, Res.ok_bind]
  have hsn := fun c => hs.snoc hi hl (c := c)
  generalize pointer env.endian env.format page i = p at *
  have hmark := fun s => classify_marked (page := page) (f := env.format) (o := p.offset) (s := s)
  generalize classify env.format (slice page p.offset (word env.format)) = kind at *
  cases kind with
  | rowSize =>
    obtain ⟨h1, h2, h3⟩ := hin.rowSize (hmark .rowSize rfl)
    exact Calm.bind (processRowSize_calm hb h1 h2 h3) fun _ h => ⟨h, hs, fun _ => rfl⟩
  | columnSize =>
    exact Calm.bind (processColumnSize_calm hb hmd (hin.columnSize (hmark .columnSize rfl)))
      fun _ h => ⟨h, hs, fun _ => rfl⟩
  | counts => exact ⟨hmd, hs, fun _ => rfl⟩
  | columnText =>
    obtain ⟨h1, h2⟩ := hin.columnText (hmark .columnText rfl)
    exact Calm.bind (processColumnText_calm hb hmd h1 h2) fun _ h => ⟨h.1, by rw [h.2]; exact hs, fun _ => h.2⟩
  | columnName =>
    unfold processColumnName
    have := offsetMax_room hb (hin.columnNames (hmark .columnNames rfl)) ht
    exact Calm.bind (P := fun a => MdIn creators a.md ∧ a.dataSubs = acc.dataSubs)
      (Calm.bind (nameLoop_calm hb _ (by omega) _ _ _) fun _ _ => ⟨hmd, rfl⟩)
      fun _ h => ⟨h.1, by rw [h.2]; exact hs, fun _ => h.2⟩
  | columnAttributes =>
    unfold processColumnAttributes
    have := offsetMax_room hb (hin.columnAttrs (hmark .columnAttrs rfl)) ht
    exact Calm.bind (P := fun a => MdIn creators a.md ∧ a.dataSubs = acc.dataSubs)
      (Calm.bind (attrLoop_calm hb (by omega) _ _ _) fun _ _ => ⟨hmd, rfl⟩)
      fun _ h => ⟨h.1, by rw [h.2]; exact hs, fun _ => h.2⟩
  | formatAndLabel =>
    exact Calm.bind (processFormatAndLabel_calm hb hmd (hin.formatLabel (hmark .formatLabel rfl)))
      fun _ h => ⟨h.1, by rw [h.2]; exact hs, fun _ => h.2⟩
  | columnList => exact ⟨hmd, hs, fun _ => rfl⟩
  | other =>
    exact Calm.ite (fun hd => ⟨hmd, hsn _ hd, fun h => by cases h⟩) fun _ => ⟨hmd, hs, fun _ => rfl⟩

omit hb in
theorem isPageMetaMixAmd_eq (t : Nat) : isPageMetaMixAmd t = hasMeta t := by
  unfold isPageMetaMixAmd isPageMix hasMeta pageMeta pageAmd pageMix1 pageMix2
  by_cases h1 : t = 0 <;> by_cases h2 : t = 1024 <;> by_cases h3 : t = 512 <;> by_cases h4 : t = 640 <;> simp [*]

omit hb in
theorem isPageDataMix_eq (t : Nat) : isPageDataMix t = hasRows t := by
  unfold isPageDataMix isPageMix hasRows pageData pageMix1 pageMix2
  by_cases h2 : t = 256 <;> by_cases h3 : t = 512 <;> by_cases h4 : t = 640 <;> simp [*]

/-- One page of the metadata. -/
theorem processPage_calm {creators : Nat} {acc : Acc} (hmd : MdIn creators acc.md) (hno : acc.dataSubs = [])
    (hp : PointersInside env.endian env.format page)
    (hin : hasMeta (pageType env.endian env.format page) = true → ∀ i < pointerCount env.endian env.format page,
      live (pointer env.endian env.format page i) = true →
      SubInside env.endian env.format creators page (pointer env.endian env.format page i)) :
    Calm (fun x => MdIn creators x.1.md ∧ RowSubs env.endian env.format page x.1.dataSubs ∧
        (x.1.dataSubs ≠ [] → hasMeta (pageType env.endian env.format page) = true) ∧
        (x.2 = false → x.1.dataSubs = [] ∧ hasRows (pageType env.endian env.format page) = false))
      (processPage env b ⟨pageType env.endian env.format page, pageBlocks env.endian env.format page,
        pointerCount env.endian env.format page⟩ acc) := by
  unfold processPage
  have hs0 : RowSubs env.endian env.format page acc.dataSubs := by rw [hno]; intro ol h; cases h
  have hfin : ∀ r : Bool, (isPageDataMix (pageType env.endian env.format page) || r) = false →
      hasRows (pageType env.endian env.format page) = false ∧ r = false := by
    intro r h
    rw [Bool.or_eq_false_iff, isPageDataMix_eq] at h
    exact h
  refine Calm.ite (fun hm => Calm.bind (P := fun (x : Acc × Bool) => MdIn creators x.1.md ∧
    RowSubs env.endian env.format page x.1.dataSubs ∧ (x.2 = false → x.1.dataSubs = [])) ?_ fun x hx => ?_) fun _ => ?_
  · rw [isPageMetaMixAmd_eq] at hm
    unfold processPageMetadata
    refine processSubs_calm hb hp hm (fun a i ha hi hl => ?_) _ 0 (acc, false) (by simp) ⟨hmd, hs0, fun _ => hno⟩
    refine Calm.bind (processSubheader_calm hb ha.1 ha.2.1 hi hl (hp.targets hm i hi) (hin hm i hi hl)) fun x hx => ?_
    refine ⟨hx.1, hx.2.1, fun h => ?_⟩
    have h : (a.2 || x.2) = false := h
    rw [Bool.or_eq_false_iff] at h
    rw [hx.2.2 h.2, ha.2.2 h.1]
  · rw [isPageMetaMixAmd_eq] at hm
    exact ⟨hx.1, hx.2.1, fun _ => hm, fun h => ⟨hx.2.2 (hfin _ h).2, (hfin _ h).1⟩⟩
  · exact ⟨hmd, hs0, fun h => absurd hno h, fun h => ⟨hno, (hfin _ h).1⟩⟩

end page

end Sas
