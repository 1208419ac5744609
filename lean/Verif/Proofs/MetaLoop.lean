import Verif.Spec.Columns
import Verif.Proofs.MetaFold
import Verif.Proofs.Source

/-!
# The metadata phase over a stream of pages
-/

namespace Sas

open Spec

variable {σ : Type} {S : Source σ} {env : Env}

/-- Memory suffices for a page. -/
structure PageFits (env : Env) : Prop where
  small : env.pageLength < 2 ^ 32
  alloc : env.pageLength ≤ env.cfg.maxAlloc

theorem readPage_outline (hfit : PageFits env) {p : PState σ} (hg : p.buf.Good)
    {ps : List (List Byte)} {page : List Byte} {e : Ending}
    (hs : Stream S env.pageLength p.src (page :: ps) e) {type blocks : Nat} {ptrs : List PageSub}
    (hp : PageLayout env.endian env.format page type blocks ptrs) :
    ∃ b s', readPage env S p = (.ok true, ⟨s', b, ⟨type, blocks, ptrs.length⟩⟩) ∧
      b.Holds page ∧ Stream S env.pageLength s' ps e := by
  have h1 := hfit.small
  have h2 := hfit.alloc
  cases hs with
  | page _ _ _ heof hr hl rest =>
    obtain ⟨b, hb⟩ := Buf.readStream_succ (cfg := env.cfg) (S := S) (s := p.src) (off := 0) hg
      (by omega) (.inl (by omega)) hr hl
    have hh := Buf.readStream_holds hg (by omega) (fun _ => hl) hb
    refine ⟨b, (S.read p.src env.pageLength).st, ?_, hh, rest⟩
    unfold readPage
    rw [heof, hb]
    simp only [Bool.false_eq_true, if_false]
    rw [getPageHeader_layout hh hp]

theorem readPage_page (hfit : PageFits env) {p : PState σ} (hg : p.buf.Good)
    {ps : List (List Byte)} {page : List Byte} {e : Ending}
    (hs : Stream S env.pageLength p.src (page :: ps) e) {c : PageContent}
    (hp : PageLayout env.endian env.format page c.type c.blocks (c.subs.map (·.1))) :
    ∃ b s', readPage env S p = (.ok true, ⟨s', b, ⟨c.type, c.blocks, c.subs.length⟩⟩) ∧
      b.Holds page ∧ Stream S env.pageLength s' ps e := by
  simpa using readPage_outline hfit hg hs hp

theorem readPage_end (hfit : PageFits env) {p : PState σ} (hg : p.buf.Good)
    (hs : Stream S env.pageLength p.src [] .endOfFile) :
    ∃ b s', readPage env S p = (.ok false, ⟨s', b, PageHdr.reset⟩) ∧ b.Good ∧
      S.eof s' = true := by
  have h1 := hfit.small
  have h2 := hfit.alloc
  cases hs with
  | eof _ heof =>
    refine ⟨p.buf, p.src, ?_, hg, heof⟩
    unfold readPage
    rw [heof]
    rfl
  | truncated _ heof hr hl he =>
    obtain ⟨b, hb, hgood⟩ := Buf.readStream_fail (cfg := env.cfg) (S := S) (s := p.src) (off := 0) hg
      (by omega) (.inl (by omega)) hr hl
    refine ⟨b, (S.read p.src env.pageLength).st, ?_, hgood, he⟩
    unfold readPage
    rw [heof, hb]
    simp [he]

theorem readPage_fail (hfit : PageFits env) {p : PState σ} (hg : p.buf.Good)
    (hs : Stream S env.pageLength p.src [] .ioError) :
    ∃ p', readPage env S p = (.error (.exn .cannotReadPage), p') := by
  have h1 := hfit.small
  have h2 := hfit.alloc
  cases hs with
  | failed _ heof hr hl he =>
    obtain ⟨b, hb, hgood⟩ := Buf.readStream_fail (cfg := env.cfg) (S := S) (s := p.src) (off := 0) hg
      (by omega) (.inl (by omega)) hr hl
    unfold readPage
    rw [heof, hb]
    simp [he]

/-- Is the file compressed, given its subheaders? -/
def compressedBy (all : List Sub) : Bool := decide (announcedBy (texts all) ≠ .none)

/-- A page on which the metadata does not end does not add rows. -/
theorem no_rowPtrs {c : PageContent} {all : List Sub} (h : c.last (compressedBy all) = false) :
    (if announcedBy (texts all) ≠ .none then rowPtrs c.usedPtrs else []) = [] := by
  unfold PageContent.last compressedBy at h
  simp only [Bool.or_eq_false_iff, Bool.and_eq_false_iff] at h
  split
  · rename_i hc
    rcases h.2 with h1 | h1
    · rw [decide_eq_true hc] at h1; cases h1
    · rw [PageContent.used_eq] at h1
      unfold rowPtrs
      rw [List.map_eq_nil_iff, List.filter_eq_nil_iff]
      intro ps hps hrow
      have hrow' : ps.2 = .row := by simpa using hrow
      have : (List.map (fun x => x.2) c.usedPtrs).contains Sub.row = true := by
        rw [List.contains_iff_mem]
        exact List.mem_map.mpr ⟨ps, hps, hrow'⟩
      rw [this] at h1; cases h1
  · rfl

/-- The metadata phase passes over pages on which the metadata does not end. -/
theorem metaLoop_pre (hfit : PageFits env) (all : List Sub)
    (hroom : RoomForCreator all) (hrows : rowsAfterText false all = true) :
    ∀ (pre : List (List Byte × PageContent)) (tail : List (List Byte)) (en : Ending) (p : PState σ)
      (acc : Acc) (ss rest : List Sub) (fuel : Nat),
      p.buf.Good → Stream S env.pageLength p.src (pre.map (·.1) ++ tail) en →
      (∀ pc ∈ pre, PageIs env.endian env.format pc.1 pc.2 ∧ pc.2.last (compressedBy all) = false) →
      AccIs acc ss → all = ss ++ usedOf (pre.map (·.2)) ++ rest →
      ∃ acc' p', metaLoop env S (fuel + pre.length) p acc = metaLoop env S fuel p' acc' ∧
        p'.buf.Good ∧ Stream S env.pageLength p'.src tail en ∧
        AccIs acc' (ss ++ usedOf (pre.map (·.2))) ∧ acc'.dataSubs = acc.dataSubs := by
  intro pre
  induction pre with
  | nil =>
    intro tail en p acc ss rest fuel hg hst _ hacc hall
    exact ⟨acc, p, rfl, hg, by simpa using hst, by simpa [usedOf] using hacc, rfl⟩
  | cons pc pre ih =>
    intro tail en p acc ss rest fuel hg hst hpages hacc hall
    obtain ⟨hpage, hlast⟩ := hpages pc (List.mem_cons_self ..)
    obtain ⟨b, s', e1, hb, hst'⟩ := readPage_page hfit hg hst hpage.layout
    obtain ⟨acc1, e2, hacc1, hd1⟩ := processPage_layout (env := env) hb hpage all hroom hrows acc ss
      (usedOf (pre.map (·.2)) ++ rest) hacc (by rw [hall]; simp [usedOf])
    obtain ⟨acc2, p2, e3, g1, g2, g3, g4⟩ := ih tail en ⟨s', b, ⟨pc.2.type, pc.2.blocks, pc.2.subs.length⟩⟩ acc1
      (ss ++ pc.2.used) rest fuel hb.good hst'
      (fun q hq => hpages q (List.mem_cons_of_mem _ hq)) hacc1 (by rw [hall]; simp [usedOf])
    refine ⟨acc2, p2, ?_, g1, g2, by simpa [usedOf] using g3, ?_⟩
    · rw [List.length_cons, ← Nat.add_assoc]
      conv => lhs; unfold metaLoop
      rw [e1]
      simp only
      rw [e2, Res.ok_bind]
      simp only
      rw [show pc.2.last (decide (announcedBy (texts all) ≠ .none)) = false from hlast]
      simpa using e3
    · rw [g4, hd1, no_rowPtrs hlast, List.append_nil]

/-- The metadata phase stops at the first page that holds rows. -/
theorem metaLoop_stop (hfit : PageFits env) (all : List Sub)
    (hroom : RoomForCreator all) (hrows : rowsAfterText false all = true)
    (pre : List (List Byte × PageContent)) (k : List Byte × PageContent) (post : List (List Byte))
    (en : Ending) (p : PState σ) (fuel : Nat) (hg : p.buf.Good)
    (hst : Stream S env.pageLength p.src (pre.map (·.1) ++ k.1 :: post) en)
    (hpre : ∀ pc ∈ pre, PageIs env.endian env.format pc.1 pc.2 ∧ pc.2.last (compressedBy all) = false)
    (hk : PageIs env.endian env.format k.1 k.2) (hlast : k.2.last (compressedBy all) = true)
    (hall : all = usedOf (pre.map (·.2)) ++ k.2.used) (hfuel : pre.length < fuel) :
    ∃ acc b s', metaLoop env S fuel p {} = .ok (⟨s', b, ⟨k.2.type, k.2.blocks, k.2.subs.length⟩⟩, acc) ∧
      b.Holds k.1 ∧ Stream S env.pageLength s' post en ∧ AccIs acc all ∧
      acc.dataSubs = if compressedBy all then rowPtrs k.2.usedPtrs else [] := by
  obtain ⟨n, rfl⟩ : ∃ n, fuel = n + 1 + pre.length := ⟨fuel - pre.length - 1, by omega⟩
  obtain ⟨acc1, p1, e1, g1, g2, g3, g4⟩ := metaLoop_pre hfit all hroom hrows pre (k.1 :: post) en p {} []
    k.2.used (n + 1) hg hst hpre AccIs.init (by simpa using hall)
  obtain ⟨b, s', e2, hb, hst'⟩ := readPage_page hfit g1 g2 hk.layout
  obtain ⟨acc, e3, hacc, hd⟩ := processPage_layout (env := env) hb hk all hroom hrows acc1 _ []
    g3 (by simpa using hall)
  refine ⟨acc, b, s', ?_, hb, hst', by rw [hall]; simpa using hacc, ?_⟩
  · rw [e1]
    unfold metaLoop
    rw [e2]
    simp only
    rw [e3, Res.ok_bind]
    simp only
    rw [show k.2.last (decide (announcedBy (texts all) ≠ .none)) = true from hlast]
    rfl
  · rw [hd, g4]
    unfold compressedBy
    by_cases hc : announcedBy (texts all) = .none <;> simp [hc]

/-- A file whose pages never hold rows: the metadata phase ends with the file. -/
theorem metaLoop_eof (hfit : PageFits env) (all : List Sub)
    (hroom : RoomForCreator all) (hrows : rowsAfterText false all = true)
    (pre : List (List Byte × PageContent)) (p : PState σ) (fuel : Nat) (hg : p.buf.Good)
    (hst : Stream S env.pageLength p.src (pre.map (·.1)) .endOfFile)
    (hpre : ∀ pc ∈ pre, PageIs env.endian env.format pc.1 pc.2 ∧ pc.2.last (compressedBy all) = false)
    (hall : all = usedOf (pre.map (·.2))) (hfuel : pre.length < fuel) :
    ∃ acc b s', metaLoop env S fuel p {} = .ok (⟨s', b, PageHdr.reset⟩, acc) ∧
      b.Good ∧ AccIs acc all ∧ acc.dataSubs = [] := by
  obtain ⟨n, rfl⟩ : ∃ n, fuel = n + 1 + pre.length := ⟨fuel - pre.length - 1, by omega⟩
  obtain ⟨acc1, p1, e1, g1, g2, g3, g4⟩ := metaLoop_pre hfit all hroom hrows pre [] .endOfFile p {} []
    [] (n + 1) hg (by simpa using hst) hpre AccIs.init (by simpa using hall)
  obtain ⟨b, s', e2, hb, _⟩ := readPage_end hfit g1 g2
  refine ⟨acc1, b, s', ?_, hb, by rw [hall]; simpa using g3, g4⟩
  rw [e1]
  unfold metaLoop
  rw [e2]

/-- A source that fails during the metadata phase. -/
theorem metaLoop_fail (hfit : PageFits env) (all : List Sub)
    (hroom : RoomForCreator all) (hrows : rowsAfterText false all = true)
    (pre : List (List Byte × PageContent)) (p : PState σ) (fuel : Nat) (hg : p.buf.Good)
    (hst : Stream S env.pageLength p.src (pre.map (·.1)) .ioError)
    (hpre : ∀ pc ∈ pre, PageIs env.endian env.format pc.1 pc.2 ∧ pc.2.last (compressedBy all) = false)
    (hall : all = usedOf (pre.map (·.2))) (hfuel : pre.length < fuel) :
    metaLoop env S fuel p {} = .error (.exn .cannotReadPage) := by
  obtain ⟨n, rfl⟩ : ∃ n, fuel = n + 1 + pre.length := ⟨fuel - pre.length - 1, by omega⟩
  obtain ⟨acc1, p1, e1, g1, g2, g3, g4⟩ := metaLoop_pre hfit all hroom hrows pre [] .ioError p {} []
    [] (n + 1) hg (by simpa using hst) hpre AccIs.init (by simpa using hall)
  obtain ⟨p', e2⟩ := readPage_fail hfit g1 g2
  rw [e1]
  unfold metaLoop
  rw [e2]

end Sas
