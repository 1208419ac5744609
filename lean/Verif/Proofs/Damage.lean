import Verif.Spec.Damage
import Verif.Proofs.BoundsRows
import Verif.Proofs.Sources

/-!
# The reader on a file and on a damaged copy
-/

namespace Sas.Proofs
open Sas Sas.Spec

/-- The same stream on another file. -/
def beside (file' : List Byte) (s : IFStream) : IFStream := { s with data := file' }

/-- What a stream on the other file does. -/
theorem read_beside {file' : List Byte} {s : IFStream} (hl : file'.length = s.data.length) (hf : s.fault = none) (n : Nat) :
    (ifs.read (beside file' s) n).ok = (ifs.read s n).ok ∧
    (ifs.read (beside file' s) n).st = beside file' (ifs.read s n).st ∧
    (slice file' s.pos n = slice s.data s.pos n ∨ 2 ^ 63 ≤ n → (ifs.read (beside file' s) n).bytes = (ifs.read s n).bytes) := by
  show (IFStream.read (beside file' s) n).ok = (IFStream.read s n).ok ∧
    (IFStream.read (beside file' s) n).st = beside file' (IFStream.read s n).st ∧
    (_ → (IFStream.read (beside file' s) n).bytes = (IFStream.read s n).bytes)
  unfold IFStream.read
  have e1 : (beside file' s).eofbit = s.eofbit := rfl
  have e2 : (beside file' s).failbit = s.failbit := rfl
  have e3 : (beside file' s).fault = none := hf
  rw [e1, e2, e3, hf]
  split
  · exact ⟨rfl, rfl, fun _ => rfl⟩
  · split
    · exact ⟨rfl, rfl, fun _ => rfl⟩
    · rename_i hn
      dsimp only
      unfold IFStream.readPlain
      have e4 : (beside file' s).pos = s.pos := rfl
      have e5 : (beside file' s).data = file' := rfl
      rw [e4, e5, hl]
      split
      · refine ⟨rfl, rfl, fun h => ?_⟩
        exact h.resolve_right hn
      · rename_i hs
        refine ⟨rfl, rfl, fun h => ?_⟩
        have h := h.resolve_right hn
        unfold slice at h
        rwa [List.take_of_length_le (by rw [List.length_drop]; omega),
          List.take_of_length_le (by rw [List.length_drop]; omega)] at h

/-- Reading the same bytes on both files. -/
theorem readStream_beside {file' : List Byte} {s : IFStream} (hl : file'.length = s.data.length) (hf : s.fault = none)
    (cfg : Cfg) (b : Buf) (n off : Nat) (h : slice file' s.pos n = slice s.data s.pos n ∨ 2 ^ 63 ≤ n) :
    Buf.readStream cfg ifs b (beside file' s) n off =
      ((Buf.readStream cfg ifs b s n off).1, (Buf.readStream cfg ifs b s n off).2.1,
        beside file' (Buf.readStream cfg ifs b s n off).2.2) := by
  obtain ⟨h1, h2, h3⟩ := read_beside hl hf n
  have h3 := h3 h
  unfold Buf.readStream
  cases b.resize cfg (w64 (off + n)) with
  | error e => rfl
  | ok b' =>
    dsimp only
    rw [h1, h2, h3]
    split <;> rfl

theorem readStream_flag {σ : Type} {S : Source σ} {cfg : Cfg} {b b' : Buf} {s s' : σ} {n off : Nat} {v : Bool}
    (h : Buf.readStream cfg S b s n off = (.ok v, b', s')) : (S.read s n).ok = v ∧ s' = (S.read s n).st := by
  unfold Buf.readStream at h
  cases hr : b.resize cfg (w64 (off + n)) with
  | error e => rw [hr] at h; cases h
  | ok b1 =>
    rw [hr] at h
    dsimp only at h
    split at h
    · cases h; exact ⟨rfl, rfl⟩
    · cases h

section

variable {file file' : List Byte} (hd : Damaged file file')
include hd

theorem Damaged.start : file'.take 288 = file.take 288 := by
  have := congrArg (List.take 288) hd.header
  rwa [List.take_take, List.take_take, Nat.min_eq_left (Nat.le_max_left _ _)] at this

theorem Damaged.slices {o n : Nat} (h : o + n ≤ max 288 (announcedHeaderLength (file.take 288))) :
    slice file' o n = slice file o n := by
  rw [← slice_take h, hd.header, slice_take h]

theorem Damaged.at {k : Nat} {s : IFStream} (h : AtPage file k s) : AtPage file' k (beside file' s) := by
  obtain ⟨h1, h2, h3⟩ := h
  refine ⟨rfl, h2, ?_⟩
  rw [Damaged.start hd]
  exact h3

theorem checkHeaderRead_damaged (cfg : Cfg) :
    match checkHeaderRead cfg ifs (IFStream.open file) with
    | .error e => checkHeaderRead cfg ifs (IFStream.open file') = .error e
    | .ok (b, s) => checkHeaderRead cfg ifs (IFStream.open file') = .ok (b, beside file' s) ∧
        b.Holds (file.take 288) ∧ 288 ≤ file.length ∧ s = ⟨file, 288, false, false, none⟩ := by
  have e := readStream_beside (s := IFStream.open file) hd.length rfl cfg Buf.empty 288 0
    (.inl (Damaged.slices hd (by show 0 + 288 ≤ _; omega)))
  have e' : IFStream.open file' = beside file' (IFStream.open file) := rfl
  unfold checkHeaderRead
  rw [e', e]
  have hok := fun b' s' => Buf.readStream_ok (cfg := cfg) (S := ifs) (b := Buf.empty) (b' := b') (s := IFStream.open file)
    (s' := s') (len := 288) (off := 0) Buf.empty_good (by omega) (ifs_lawful.full _ 288)
  have hho := fun b' s' => Buf.readStream_holds (cfg := cfg) (S := ifs) (b := Buf.empty) (b' := b') (s := IFStream.open file)
    (s' := s') (len := 288) Buf.empty_good (by omega) (ifs_lawful.full _ 288)
  generalize Buf.readStream cfg ifs Buf.empty (IFStream.open file) 288 0 = x at *
  obtain ⟨(e | (_ | _)), b, s⟩ := x
  · rfl
  · rfl
  · dsimp only
    obtain ⟨-, -, k1, k2, -, -⟩ := hok _ _ rfl
    have hold := hho _ _ rfl
    obtain ⟨t1, t2⟩ := ifs_read_true k1
    rw [t1] at hold
    simp only [IFStream.open, Nat.zero_add] at hold t2
    rw [slice_zero] at hold
    refine ⟨rfl, hold, t2, ?_⟩
    rw [k2, IFStream.open, ifs_read_ok (by omega) (by omega)]

theorem headerRest_damaged (cfg : Cfg) {al : Align} {b : Buf} (hb : b.Holds (file.take 288)) (hl : 288 ≤ file.length)
    (hal : setAligns cfg b = .ok al) :
    match setHeaderLengthAndRead cfg ifs al b ⟨file, 288, false, false, none⟩ with
    | .error e => setHeaderLengthAndRead cfg ifs al b (beside file' ⟨file, 288, false, false, none⟩) = .error e
    | .ok (n, b', s) => setHeaderLengthAndRead cfg ifs al b (beside file' ⟨file, 288, false, false, none⟩) =
          .ok (n, b', beside file' s) ∧ b'.Good ∧ AtPage file 0 s := by
  have hl288 : (file.take 288).length = 288 := by rw [List.length_take]; omega
  rw [setAligns_any hb hl288] at hal
  have ha1 : al.align1 = if (file.take 288)[35]? = some 0x33 then 4 else 0 := by cases hal; rfl
  have hen : al.endian = if (file.take 288)[37]? = some 1 then .little else .big := by cases hal; rfl
  have hal1 : al.align1 ≤ 4 := by rw [ha1]; split <;> omega
  have hu : b.getU32 cfg al.endian (196 + al.align1) = .ok (announcedHeaderLength (file.take 288)) := by
    rw [hb.getU32 (by omega), hen, ha1, getVal_announcedNumber]
    rfl
  have hlt : announcedHeaderLength (file.take 288) < 2 ^ 32 := announcedNumber_lt _ _
  have hsub : ∀ hl : Nat, hl < 2 ^ 32 → (288 ≤ hl ∧ sub64 hl 288 = hl - 288) ∨ 2 ^ 63 ≤ sub64 hl 288 := by
    intro hl h
    unfold sub64
    omega
  have hsl : slice file' 288 (sub64 (announcedHeaderLength (file.take 288)) 288) =
      slice file 288 (sub64 (announcedHeaderLength (file.take 288)) 288) ∨
      2 ^ 63 ≤ sub64 (announcedHeaderLength (file.take 288)) 288 := by
    rcases hsub _ hlt with ⟨h1, h2⟩ | h
    · rw [h2]
      exact .inl (Damaged.slices hd (by omega))
    · exact .inr h
  have e := readStream_beside (s := ⟨file, 288, false, false, none⟩) hd.length rfl cfg b
    (sub64 (announcedHeaderLength (file.take 288)) 288) 288 hsl
  have hok := fun b' s' => readStream_flag (cfg := cfg) (S := ifs) (b := b) (b' := b') (s := ⟨file, 288, false, false, none⟩)
    (s' := s') (n := sub64 (announcedHeaderLength (file.take 288)) 288) (off := 288) (v := true)
  have hgood : (ifs.read ⟨file, 288, false, false, none⟩ (sub64 (announcedHeaderLength (file.take 288)) 288)).ok = true →
      (Buf.readStream cfg ifs b ⟨file, 288, false, false, none⟩
        (sub64 (announcedHeaderLength (file.take 288)) 288) 288).2.1.Good := by
    intro h
    rcases hsub _ hlt with ⟨h1, h2⟩ | hbig
    · exact (Buf.readStream_safe ifs_lawful cfg hb.good _ (by omega)).2.1
    · rw [ifs_read_huge hbig] at h
      cases h
  have hat : (ifs.read ⟨file, 288, false, false, none⟩ (sub64 (announcedHeaderLength (file.take 288)) 288)).ok = true →
      AtPage file 0 (ifs.read ⟨file, 288, false, false, none⟩ (sub64 (announcedHeaderLength (file.take 288)) 288)).st := by
    intro h
    rcases hsub _ hlt with ⟨h1, h2⟩ | hbig
    · rw [h2] at h ⊢
      obtain ⟨t1, t2⟩ := ifs_read_true h
      dsimp only at t2
      rw [ifs_read_ok (by omega) (by omega)]
      refine ⟨rfl, rfl, .inr ?_⟩
      dsimp only
      omega
    · rw [ifs_read_huge hbig] at h
      cases h
  unfold setHeaderLengthAndRead
  rw [hu]
  simp only [ok_bind'']
  rw [e]
  generalize Buf.readStream cfg ifs b ⟨file, 288, false, false, none⟩
    (sub64 (announcedHeaderLength (file.take 288)) 288) 288 = x at *
  generalize ifs.read ⟨file, 288, false, false, none⟩ (sub64 (announcedHeaderLength (file.take 288)) 288) = y at *
  generalize fmtAssert cfg (288 ≤ announcedHeaderLength (file.take 288)) = z
  rcases z with e | u
  · exact rfl
  · obtain ⟨(e | (_ | _)), b', s⟩ := x
    · exact rfl
    · exact rfl
    · obtain ⟨k1, k2⟩ := hok _ _ rfl
      refine ⟨rfl, hgood k1, ?_⟩
      rw [k2]
      exact hat k1

/-- The header of both files. -/
theorem readHeader_damaged (cfg : Cfg) :
    match readHeader cfg ifs (IFStream.open file) with
    | .error e => readHeader cfg ifs (IFStream.open file') = .error e
    | .ok (h, b, s) => readHeader cfg ifs (IFStream.open file') = .ok (h, b, beside file' s) ∧ b.Good ∧ AtPage file 0 s := by
  unfold readHeader
  have h1 := checkHeaderRead_damaged hd cfg
  generalize checkHeaderRead cfg ifs (IFStream.open file) = x at h1
  rcases x with e | ⟨b, s⟩
  · dsimp only at h1
    rw [h1]
    exact rfl
  · obtain ⟨g1, g2, g3, g4⟩ := h1
    rw [g1]
    simp only [ok_bind'']
    cases checkMagic cfg b with
    | error e => exact rfl
    | ok u =>
      simp only [ok_bind'']
      cases hal : setAligns cfg b with
      | error e => exact rfl
      | ok al =>
        simp only [ok_bind'']
        have h2 := headerRest_damaged hd cfg g2 g3 hal
        rw [g4]
        generalize setHeaderLengthAndRead cfg ifs al b ⟨file, 288, false, false, none⟩ = x at h2
        rcases x with e | ⟨hl, b', s'⟩
        · dsimp only at h2
          rw [h2]
          exact rfl
        · obtain ⟨k1, k2, k3⟩ := h2
          rw [k1]
          simp only [ok_bind'']
          cases setHeader cfg al hl b' with
          | error e => exact rfl
          | ok h =>
            simp only [ok_bind'']
            cases logHeader cfg h with
            | error e => exact rfl
            | ok u => exact ⟨rfl, k2, k3⟩

/-! ## Pages -/

/-- The buffer of both readers before a page is read: the same, or filled with a page each. -/
def PreBuf (n : Nat) (b b' : Buf) : Prop :=
  b.size ≤ b.mem.length ∧ (b = b' ∨ ∃ page page' rest : List Byte, page.length = n ∧ page'.length = n ∧
    b = ⟨page ++ rest, n⟩ ∧ b' = ⟨page' ++ rest, n⟩)

/-- Both readers have read page `k`. -/
structure PTwin (file file' : List Byte) (env : Env) (k : Nat) (page page' rest : List Byte) (p p' : PState IFStream) : Prop where
  isPage : IsPage file k page
  isPage' : IsPage file' k page'
  len : page.length = env.pageLength
  len' : page'.length = env.pageLength
  buf : p.buf = ⟨page ++ rest, env.pageLength⟩
  buf' : p'.buf = ⟨page' ++ rest, env.pageLength⟩
  hdr : p'.hdr = p.hdr
  src : p'.src = beside file' p.src
  at_ : AtPage file (k + 1) p.src
  data : page' = page ∨ (p.hdr.type = 256 ∧ p.hdr.blockCount = pageBlocks env.endian env.format page ∧
    pageType env.endian env.format page = 256)

omit hd in
theorem readStream_pages {n : Nat} (hn : n < 2 ^ 32) (cfg : Cfg) {b b' : Buf} (h : PreBuf n b b') {s : IFStream}
    (hl : file'.length = s.data.length) (hf : s.fault = none) :
    (∃ e, (Buf.readStream cfg ifs b s n 0).1 = .error e ∧ (Buf.readStream cfg ifs b' (beside file' s) n 0).1 = .error e) ∨
    ((Buf.readStream cfg ifs b s n 0).1 = .ok false ∧ (Buf.readStream cfg ifs b' (beside file' s) n 0).1 = .ok false ∧
      (Buf.readStream cfg ifs b' (beside file' s) n 0).2.2 = beside file' (Buf.readStream cfg ifs b s n 0).2.2) ∨
    (∃ rest, (ifs.read s n).ok = true ∧
      Buf.readStream cfg ifs b s n 0 = (.ok true, ⟨(ifs.read s n).bytes ++ rest, n⟩, (ifs.read s n).st) ∧
      Buf.readStream cfg ifs b' (beside file' s) n 0 =
        (.ok true, ⟨(ifs.read (beside file' s) n).bytes ++ rest, n⟩, beside file' (ifs.read s n).st)) := by
  obtain ⟨r1, r2, -⟩ := read_beside hl hf n
  have hw : w64 (0 + n) = n := by unfold w64; omega
  have key : (∃ e, b.resize cfg n = .error e ∧ b'.resize cfg n = .error e) ∨
      (∃ m m' : List Byte, b.resize cfg n = .ok ⟨m, n⟩ ∧ b'.resize cfg n = .ok ⟨m', n⟩ ∧ n ≤ m.length ∧ n ≤ m'.length ∧
        m.drop n = m'.drop n) := by
    obtain ⟨h0, h | ⟨page, page', rest, h1, h2, h3, h4⟩⟩ := h
    · subst h
      cases hr : b.resize cfg n with
      | error e => exact .inl ⟨e, rfl, rfl⟩
      | ok b1 =>
        obtain ⟨g1, g2, -⟩ := resize_inside h0 hr
        obtain ⟨m, z⟩ := b1
        dsimp only at g1 g2
        subst g1
        exact .inr ⟨m, m, rfl, rfl, g2, g2, rfl⟩
    · right
      refine ⟨page ++ rest, page' ++ rest, ?_, ?_, ?_, ?_, ?_⟩
      · rw [h3]; unfold Buf.resize; rw [if_neg (by dsimp only; omega)]
      · rw [h4]; unfold Buf.resize; rw [if_neg (by dsimp only; omega)]
      · rw [List.length_append]; omega
      · rw [List.length_append]; omega
      · rw [List.drop_left' h1, List.drop_left' h2]
  unfold Buf.readStream
  rw [hw]
  rcases key with ⟨e, k1, k2⟩ | ⟨m, m', k1, k2, k3, k4, k5⟩
  · rw [k1, k2]
    exact .inl ⟨e, rfl, rfl⟩
  · right
    rw [k1, k2]
    dsimp only
    have l1 := ifs_lawful.le s n
    have l2 := ifs_lawful.le (beside file' s) n
    rw [if_pos (by omega), if_pos (by omega), r1, r2]
    cases hok : (ifs.read s n).ok with
    | false => exact .inl ⟨rfl, rfl, rfl⟩
    | true =>
      right
      have f1 := ifs_lawful.full _ _ hok
      have f2 := ifs_lawful.full _ _ (r1.trans hok)
      refine ⟨m.drop n, rfl, ?_, ?_⟩
      · simp only [writeAt, List.take_zero, List.nil_append, f1, Nat.zero_add]
      · simp only [writeAt, List.take_zero, List.nil_append, f2, Nat.zero_add, k5]

omit hd in
/-- Two buffers with the same start. -/
theorem rd_start {cfg : Cfg} {m m' : List Byte} {z n off len : Nat} (hlen : m.length = m'.length) (ht : m.take n = m'.take n)
    (h : off + len ≤ n) : (⟨m, z⟩ : Buf).rd cfg off len = (⟨m', z⟩ : Buf).rd cfg off len := by
  unfold Buf.rd Buf.check
  dsimp only
  rw [hlen, ← slice_take h, ht, slice_take h]

omit hd in
theorem IsPage.long {k : Nat} {page : List Byte} (h : IsPage file k page) : page.length = announcedPageLength (file.take 288) := by
  obtain ⟨h1, h2⟩ := h
  rw [h2, List.length_take, List.length_drop]
  rw [Nat.succ_mul] at h1
  omega

omit hd in
theorem number_start {e : Endian} {page page' : List Byte} {o n m : Nat} (h : page'.take m = page.take m) (hm : o + n ≤ m) :
    number e page' o n = number e page o n := by
  have : (page'.drop o).take n = (page.drop o).take n := by
    have := congrArg (fun l => slice l o n) h
    rwa [slice_take hm, slice_take hm] at this
  unfold number
  rw [this]

omit hd in
theorem getPageHeader_long {env : Env} {page rest : List Byte} (hl : page.length = env.pageLength) (h64 : env.pageLength < 2 ^ 32)
    (h : pageHead env.format + 6 ≤ env.pageLength) :
    getPageHeader env ⟨page ++ rest, env.pageLength⟩ = .ok ⟨pageType env.endian env.format page,
      pageBlocks env.endian env.format page, pointerCount env.endian env.format page⟩ := by
  have hh : (⟨page ++ rest, env.pageLength⟩ : Buf).Holds page :=
    ⟨⟨by dsimp only; rw [List.length_append]; omega, by dsimp only; omega⟩, List.take_left' hl⟩
  unfold getPageHeader
  rw [← pageHead_eq, getU16_number hh (by omega), getU16_number hh (by omega), getU16_number hh (by omega)]
  rfl

theorem readPage_damaged {env : Env} (he : EnvOf file env) {k : Nat} {p p' : PState IFStream} (hb : PreBuf env.pageLength p.buf p'.buf)
    (hs : p'.src = beside file' p.src) (ha : AtPage file k p.src) :
    (readPage env ifs p').1 = (readPage env ifs p).1 ∧
    ((readPage env ifs p).1 = .ok true → ∃ page page' rest,
      PTwin file file' env k page page' rest (readPage env ifs p).2 (readPage env ifs p').2) ∧
    ((readPage env ifs p).1 ≠ .ok true → (readPage env ifs p).2.hdr = PageHdr.reset ∧
      (readPage env ifs p').2.hdr = PageHdr.reset) := by
  obtain ⟨s, b, hdr⟩ := p
  obtain ⟨s', b', hdr'⟩ := p'
  dsimp only at hb hs ha
  subst hs
  have hsm := he.small
  have hlen : file'.length = s.data.length := by rw [ha.1]; exact hd.length
  unfold readPage
  dsimp only
  have e1 : ifs.eof (beside file' s) = ifs.eof s := rfl
  rw [e1]
  split
  · exact ⟨rfl, (fun h => by cases h), fun _ => ⟨rfl, rfl⟩⟩
  rcases readStream_pages hsm env.cfg hb hlen ha.2.1 with ⟨e, g1, g2⟩ | ⟨g1, g2, g3⟩ | ⟨rest, g1, g2, g3⟩
  · generalize Buf.readStream env.cfg ifs b s env.pageLength 0 = x at *
    generalize Buf.readStream env.cfg ifs b' (beside file' s) env.pageLength 0 = y at *
    obtain ⟨x1, x2, x3⟩ := x
    obtain ⟨y1, y2, y3⟩ := y
    dsimp only at g1 g2
    subst g1 g2
    exact ⟨rfl, (fun h => by cases h), fun _ => ⟨rfl, rfl⟩⟩
  · generalize Buf.readStream env.cfg ifs b s env.pageLength 0 = x at *
    generalize Buf.readStream env.cfg ifs b' (beside file' s) env.pageLength 0 = y at *
    obtain ⟨x1, x2, x3⟩ := x
    obtain ⟨y1, y2, y3⟩ := y
    dsimp only at g1 g2 g3
    subst g1 g2 g3
    dsimp only
    have e2 : ifs.eof (beside file' x3) = ifs.eof x3 := rfl
    rw [e2]
    split
    · exact ⟨rfl, (fun h => by cases h), fun _ => ⟨rfl, rfl⟩⟩
    · exact ⟨rfl, (fun h => by cases h), fun _ => ⟨rfl, rfl⟩⟩
  · obtain ⟨r1, r2, -⟩ := read_beside hlen ha.2.1 env.pageLength
    obtain ⟨q1, q2⟩ := (ha.read he.pageLength hsm).1 g1
    have hst := Damaged.start hd
    obtain ⟨q3, -⟩ := ((Damaged.at hd ha).read (L := env.pageLength) (by rw [hst]; exact he.pageLength) hsm).1 (r1.trans g1)
    rw [g2, g3]
    dsimp only
    generalize (ifs.read s env.pageLength).bytes = page at *
    generalize (ifs.read (beside file' s) env.pageLength).bytes = page' at *
    generalize (ifs.read s env.pageLength).st = t at *
    have l1 : page.length = env.pageLength := by rw [IsPage.long q1, he.pageLength]
    have l2 : page'.length = env.pageLength := by rw [IsPage.long q3, hst, he.pageLength]
    have hpage := hd.pages k page page' q1 q3
    rw [← he.endian, ← he.format] at hpage
    have hcase : page' = page ∨ (pageHead env.format + 8 < env.pageLength ∧ pageType env.endian env.format page = 256 ∧
        page'.take (pageHead env.format + 8) = page.take (pageHead env.format + 8)) := by
      rcases hpage with h | ⟨h1, h2⟩
      · exact .inl h
      · by_cases hc : pageHead env.format + 8 < env.pageLength
        · exact .inr ⟨hc, h1, h2⟩
        · rw [List.take_of_length_le (by omega), List.take_of_length_le (by omega)] at h2
          exact .inl h2
    rcases hcase with h | ⟨h1, h2, h3⟩
    · subst h
      cases hh : getPageHeader env ⟨page' ++ rest, env.pageLength⟩ with
      | error e => exact ⟨rfl, (fun h => by cases h), fun _ => ⟨rfl, rfl⟩⟩
      | ok h => exact ⟨rfl, fun _ => ⟨page', page', rest, q1, q3, l1, l2, rfl, rfl, rfl, rfl, q2, .inl rfl⟩,
          fun h => absurd rfl h⟩
    · rw [getPageHeader_long l1 hsm (by omega), getPageHeader_long l2 hsm (by omega)]
      dsimp only
      refine ⟨rfl, fun _ => ⟨page, page', rest, q1, q3, l1, l2, rfl, rfl, ?_, rfl, q2, .inr ⟨h2, rfl, h2⟩⟩, fun h => absurd rfl h⟩
      dsimp only
      unfold pageType pageBlocks pointerCount
      rw [number_start h3 (by omega), number_start h3 (by omega), number_start h3 (by omega)]

omit hd in
theorem PTwin.pre {env : Env} {k : Nat} {page page' rest : List Byte} {p p' : PState IFStream}
    (h : PTwin file file' env k page page' rest p p') : PreBuf env.pageLength p.buf p'.buf := by
  refine ⟨?_, .inr ⟨page, page', rest, h.len, h.len', h.buf, h.buf'⟩⟩
  rw [h.buf]
  dsimp only
  rw [List.length_append, h.len]
  omega

omit hd in
theorem PTwin.same {env : Env} {k : Nat} {page rest : List Byte} {p p' : PState IFStream}
    (h : PTwin file file' env k page page rest p p') : p'.buf = p.buf := by
  rw [h.buf, h.buf']

/-! ## Metadata -/

theorem metaLoop_damaged {env : Env} (he : EnvOf file env) : ∀ (n k : Nat) (p p' : PState IFStream) (acc : Acc),
    PreBuf env.pageLength p.buf p'.buf → p'.src = beside file' p.src → AtPage file k p.src → acc.dataSubs = [] →
    match metaLoop env ifs n p acc with
    | .error e => metaLoop env ifs n p' acc = .error e
    | .ok (q, acc') => ∃ q', metaLoop env ifs n p' acc = .ok (q', acc') ∧
        ((q.hdr = PageHdr.reset ∧ q'.hdr = PageHdr.reset ∧ acc'.dataSubs = []) ∨
         ∃ k page page' rest, PTwin file file' env k page page' rest q q' ∧ (page' = page ∨ acc'.dataSubs = [])) := by
  intro n
  induction n with
  | zero => exact fun _ _ _ _ _ _ _ _ => rfl
  | succ n ih =>
    intro k p p' acc h1 h2 h3 h4
    obtain ⟨g1, g2, g3⟩ := readPage_damaged hd he h1 h2 h3
    unfold metaLoop
    generalize readPage env ifs p = x at *
    generalize readPage env ifs p' = y at *
    obtain ⟨x1, q⟩ := x
    obtain ⟨y1, q'⟩ := y
    dsimp only at g1 g2 g3
    subst g1
    rcases y1 with e | (_ | _)
    · exact rfl
    · obtain ⟨g4, g5⟩ := g3 (fun h => by cases h)
      exact ⟨q', rfl, .inl ⟨g4, g5, h4⟩⟩
    · obtain ⟨page, page', rest, t⟩ := g2 rfl
      dsimp only
      have hpp : processPage env q'.buf q'.hdr acc = processPage env q.buf q.hdr acc := by
        rw [t.hdr]
        rcases t.data with h | ⟨h, -, -⟩
        · subst h
          rw [t.same]
        · unfold processPage
          have : isPageMetaMixAmd q.hdr.type = false := by rw [h]; rfl
          rw [this]
          rfl
      rw [hpp]
      rcases hx : processPage env q.buf q.hdr acc with e | ⟨acc', stop⟩
      · exact rfl
      · simp only [ok_bind'']
        cases stop with
        | true =>
          refine ⟨q', rfl, .inr ⟨k, page, page', rest, t, ?_⟩⟩
          rcases t.data with h | ⟨h, -, -⟩
          · exact .inl h
          · right
            unfold processPage at hx
            have : isPageMetaMixAmd q.hdr.type = false := by rw [h]; rfl
            rw [this] at hx
            simp only [Bool.false_eq_true, if_false, ok_bind'', pure, Except.pure, Except.ok.injEq, Prod.mk.injEq] at hx
            rw [← hx.1]
            exact h4
        | false => exact ih (k + 1) q q' acc' t.pre t.src t.at_ (page_dataSubs hx h4)

/-! ## Rows -/

/-- Both readers stand on page `k`. -/
structure Live (file file' : List Byte) (env : Env) (md : Meta) (k : Nat) (r r' : RD IFStream) : Prop where
  twin : ∃ page page' rest, PTwin file file' env k page page' rest r.p r'.p ∧
    (page' = page ∨ ∃ cur, r.page = some ⟨.dataP (pageBlocks env.endian env.format page) (env.format.pbo + 8) md.rowLength, cur⟩ ∧
      (0 < pageBlocks env.endian env.format page → cur ≤ pageBlocks env.endian env.format page) ∧
      pageType env.endian env.format page = 256)

/-- The same state of both readers, up to the content of data pages; or nothing more is read. The places are behind the readers. -/
structure DRel (file file' : List Byte) (env : Env) (md : Meta) (ps : List Place) (r r' : RD IFStream) : Prop where
  row : r'.row = r.row
  dst : r'.dst = r.dst
  page : r'.page = r.page
  front : ∀ pg, r.page = some pg → ∃ k, Live file file' env md k r r' ∧ ∀ p ∈ ps, p.Before (k, pg.cur)

theorem nextPageLoop_damaged {env : Env} (he : EnvOf file env) (md : Meta) {ps : List Place} :
    ∀ (n k : Nat) (r r' : RD IFStream), r'.row = r.row → r'.dst = r.dst → r.page = none → r'.page = none →
    PreBuf env.pageLength r.p.buf r'.p.buf → r'.p.src = beside file' r.p.src → AtPage file k r.p.src → (∀ p ∈ ps, p.1 < k) →
    (nextPageLoop env ifs md n r').1 = (nextPageLoop env ifs md n r).1 ∧
    DRel file file' env md ps (nextPageLoop env ifs md n r).2 (nextPageLoop env ifs md n r').2 ∧
    ((nextPageLoop env ifs md n r).1 = .ok true → ∃ kind, (nextPageLoop env ifs md n r).2.page = some ⟨kind, 0⟩) := by
  intro n
  induction n with
  | zero =>
    intro k r r' h1 h2 h3 h4 h5 h6 h7 h8
    exact ⟨rfl, ⟨h1, h2, h4.trans h3.symm, fun pg h => by rw [show (nextPageLoop env ifs md 0 r).2 = r from rfl, h3] at h; cases h⟩,
      fun h => by cases h⟩
  | succ n ih =>
    intro k r r' h1 h2 h3 h4 h5 h6 h7 h8
    obtain ⟨g1, g2, g3⟩ := readPage_damaged hd he h5 h6 h7
    unfold nextPageLoop
    generalize readPage env ifs r.p = x at *
    generalize readPage env ifs r'.p = y at *
    obtain ⟨x1, q⟩ := x
    obtain ⟨y1, q'⟩ := y
    dsimp only at g1 g2 g3
    subst g1
    have dead : ∀ q q' : PState IFStream, DRel file file' env md ps { r with p := q } { r' with p := q' } := fun q q' =>
      ⟨h1, h2, h4.trans h3.symm, fun pg h => by dsimp only at h; rw [h3] at h; cases h⟩
    rcases y1 with e | (_ | _)
    · exact ⟨rfl, dead _ _, fun h => by cases h⟩
    · exact ⟨rfl, dead _ _, fun h => by cases h⟩
    · obtain ⟨page, page', rest, t⟩ := g2 rfl
      dsimp only
      have hbp : buildPage env md q'.buf q'.hdr = buildPage env md q.buf q.hdr := by
        rw [t.hdr]
        rcases t.data with h | ⟨h, -, -⟩
        · subst h
          rw [t.same]
        · unfold buildPage
          rw [h]
          rfl
      rw [hbp]
      rcases hx : buildPage env md q.buf q.hdr with e | (_ | pg)
      · exact ⟨rfl, dead _ _, fun h => by cases h⟩
      · exact ih (k + 1) _ _ h1 h2 h3 h4 t.pre t.src t.at_ (fun p hp => Nat.lt_succ_of_lt (h8 p hp))
      · have hcur : pg.cur = 0 := by
          unfold buildPage at hx
          split at hx
          · obtain ⟨subs, -, hx⟩ := bind_ok_inv hx
            split at hx
            · cases hx
            · cases hx; rfl
          · split at hx
            · cases hx; rfl
            · split at hx
              · cases hx; rfl
              · cases hx
        obtain ⟨kind, cur⟩ := pg
        dsimp only at hcur
        subst hcur
        refine ⟨rfl, ⟨h1, h2, rfl, fun pg' h => ?_⟩, fun _ => ⟨kind, rfl⟩⟩
        dsimp only at h
        cases h
        refine ⟨k, ⟨page, page', rest, t, ?_⟩, fun p hp => .inl (h8 p hp)⟩
        rcases t.data with h | ⟨h, h', h''⟩
        · exact .inl h
        · right
          refine ⟨0, ?_, fun _ => Nat.zero_le _, h''⟩
          unfold buildPage at hx
          rw [h] at hx
          rw [← h']
          exact hx ▸ rfl

/-- The page is not used up. -/
def Unused (r : RD IFStream) : Prop :=
  ∃ pg, r.page = some pg ∧ ∀ bc o n, pg.kind = .dataP bc o n → 0 < bc → pg.cur ≠ bc

theorem next_damaged {env : Env} (he : EnvOf file env) (md : Meta) {ps : List Place} {r r' : RD IFStream}
    (h : DRel file file' env md ps r r') :
    (r'.next env ifs md).1 = (r.next env ifs md).1 ∧ DRel file file' env md ps (r.next env ifs md).2 (r'.next env ifs md).2 ∧
    ((r.next env ifs md).1 = .ok true → Unused (r.next env ifs md).2) := by
  unfold RD.next
  rw [h.row, h.page]
  split
  · exact ⟨rfl, h, fun h => by cases h⟩
  · cases hp : r.page with
    | none => exact ⟨rfl, h, fun h => by cases h⟩
    | some pg =>
      dsimp only
      split
      · obtain ⟨k, ⟨page, page', rest, t, -⟩, hk⟩ := h.front pg hp
        obtain ⟨g1, g2, g3⟩ := nextPageLoop_damaged hd he md (ps := ps) env.fuel (k + 1) { r with page := none } { r' with page := none }
          h.row h.dst rfl rfl t.pre t.src t.at_ (fun p hp => by
            rcases hk p hp with h | ⟨h, -⟩
            · exact Nat.lt_succ_of_lt h
            · dsimp only at h; omega)
        refine ⟨g1, g2, fun h => ?_⟩
        obtain ⟨kind, hk⟩ := g3 h
        exact ⟨_, hk, fun bc o n _ hbc => by dsimp only; omega⟩
      · rename_i hn
        refine ⟨rfl, h, fun _ => ⟨pg, hp, fun bc o n hk _ hc => hn ?_⟩⟩
        unfold Page.next
        rw [hk]
        simp only [hc, beq_self_eq_true]

/-- What is known once a row has been taken: the page is the same, or the row is one of a data page. -/
def Taken (file file' : List Byte) (env : Env) (md : Meta) (ps : List Place) (off len : Nat) (r r' : RD IFStream) : Prop :=
  ∃ k page page' rest, PTwin file file' env k page page' rest r.p r'.p ∧
    (page' = page ∨ ∃ cur kind, len = md.rowLength ∧ off = w64 (env.format.pbo + 8 + md.rowLength * cur) ∧
      pageType env.endian env.format page = 256 ∧
      (0 < pageBlocks env.endian env.format page → cur < pageBlocks env.endian env.format page) ∧
      (∀ p ∈ ps, p.Before (k, cur)) ∧ r.page = some ⟨kind, cur + 1⟩ ∧ Live file file' env md k r r')

omit hd in
theorem takeLine_damaged {env : Env} {md : Meta} {ps : List Place} {r r' : RD IFStream}
    (h : DRel file file' env md ps r r') (hu : Unused r) :
    r'.takeLine.1 = r.takeLine.1 ∧ DRel file file' env md ps r.takeLine.2 r'.takeLine.2 ∧
    ∀ off len, r.takeLine.1 = .ok (off, len) → Taken file file' env md ps off len r.takeLine.2 r'.takeLine.2 := by
  obtain ⟨pg, hp, hu⟩ := hu
  unfold RD.takeLine
  rw [h.page, hp]
  dsimp only
  rcases hr : pg.readLine with e | ⟨off, len⟩
  · exact ⟨rfl, h, fun _ _ h => by cases h⟩
  · dsimp only
    obtain ⟨k, ⟨page, page', rest, t, hd⟩, hk⟩ := h.front pg hp
    have hlive : Live file file' env md k { r with row := r.row + 1, page := some { pg with cur := pg.cur + 1 } }
        { r' with row := r'.row + 1, page := some { pg with cur := pg.cur + 1 } } := by
      refine ⟨page, page', rest, t, ?_⟩
      rcases hd with hd | ⟨cur, h1, h2, h3⟩
      · exact .inl hd
      · right
        rw [h1] at hp
        cases hp
        refine ⟨cur + 1, rfl, fun hb => ?_, h3⟩
        have := hu _ _ _ rfl hb
        have := h2 hb
        dsimp only at *
        omega
    refine ⟨rfl, ⟨by dsimp only; rw [h.row], h.dst, rfl, fun pg' hp' => ?_⟩, fun off' len' he => ?_⟩
    · dsimp only at hp'
      cases hp'
      refine ⟨k, hlive, fun p hp => ?_⟩
      rcases hk p hp with h | ⟨h, h'⟩
      · exact .inl h
      · exact .inr ⟨h, by dsimp only at *; omega⟩
    · cases he
      refine ⟨k, page, page', rest, t, ?_⟩
      rcases hd with hd | ⟨cur, h1, h2, h3⟩
      · exact .inl hd
      · right
        rw [h1] at hp
        cases hp
        cases hr
        refine ⟨cur, _, rfl, rfl, h3, fun hb => ?_, hk, rfl, hlive⟩
        have := hu _ _ _ rfl hb
        have := h2 hb
        dsimp only at *
        omega

omit hd in
theorem DRel.dst_same {env : Env} {md : Meta} {ps : List Place} {r r' : RD IFStream} (h : DRel file file' env md ps r r')
    (dst : List Byte) : DRel file file' env md ps { r with dst := dst } { r' with dst := dst } :=
  ⟨h.row, rfl, h.page, fun pg hp => by
    obtain ⟨k, ⟨hl⟩, hk⟩ := h.front pg hp
    exact ⟨k, ⟨hl⟩, hk⟩⟩

/-- The same outcome, or two rows from the same place behind those already used. -/
def SameRow (file file' : List Byte) (env : Env) (md : Meta) (ps : List Place) {α : Type} (f : Row → α)
    (x y : Res α × RD IFStream) : Prop :=
  (y.1 = x.1 ∧ DRel file file' env md ps x.2 y.2) ∨
  ∃ pl row row', x.1 = .ok (f row) ∧ y.1 = .ok (f row') ∧ RowsAt file file' md.rowLength pl row row' ∧
    (∀ p ∈ ps, p.Before pl) ∧ DRel file file' env md (ps ++ [pl]) x.2 y.2

omit hd in
theorem extract_damaged {env : Env} (he : EnvOf file env) {md : Meta} {ps : List Place} {r r' : RD IFStream} {off len : Nat}
    (h : DRel file file' env md ps r r') (ht : Taken file file' env md ps off len r r') :
    SameRow file file' env md ps id (r.extract env md off len) (r'.extract env md off len) := by
  obtain ⟨k, page, page', rest, t, hc⟩ := ht
  unfold RD.extract
  cases fmtAssert env.cfg (w64 (off + len) ≤ env.pageLength) with
  | error e => exact .inl ⟨rfl, h⟩
  | ok u =>
    dsimp only
    rcases hc with hc | ⟨cur, kind, h1, h2, h3, h4, h5, h6, h7⟩
    · subst hc
      rw [t.same]
      cases r.p.buf.rd env.cfg off len with
      | error e => exact .inl ⟨rfl, h⟩
      | ok values =>
        dsimp only
        split
        · left
          unfold RD.decompress
          rw [h.dst]
          cases md.compression with
          | none => exact ⟨rfl, h⟩
          | rle => exact ⟨rfl, h.dst_same _⟩
          | rdc => exact ⟨rfl, h.dst_same _⟩
        · exact .inl ⟨rfl, h⟩
    · rw [t.buf, t.buf']
      unfold Buf.rd Buf.check
      dsimp only
      have hl : (page' ++ rest).length = (page ++ rest).length := by
        rw [List.length_append, List.length_append, t.len, t.len']
      rw [hl]
      by_cases c1 : (env.cfg.debug && !decide (w64 (off + len) ≤ env.pageLength)) = true
      · simp only [if_pos c1]
        exact .inl ⟨rfl, h⟩
      · simp only [if_neg c1]
        by_cases c2 : off + len ≤ (page ++ rest).length
        · simp only [if_pos c2]
          rw [if_neg (by omega), if_neg (by omega)]
          refine .inr ⟨(k, cur), _, _, rfl, rfl, ⟨⟨h1, h1⟩, page, page', rest, t.isPage, t.isPage', ?_, ?_, ?_, ?_⟩, h5, ?_⟩
          · rw [← he.endian, ← he.format]; exact h3
          · rw [← he.endian, ← he.format]; exact h4
          · rw [← he.format, rowStart, pageHead_eq, h2]; rfl
          · rw [← he.format, rowStart, pageHead_eq, h2]; rfl
          · refine ⟨h.row, h.dst, h.page, fun pg hp => ?_⟩
            rw [h6] at hp
            cases hp
            refine ⟨k, h7, fun p hp => ?_⟩
            rw [List.mem_append, List.mem_singleton] at hp
            rcases hp with hp | hp
            · rcases h5 p hp with h | ⟨h, h'⟩
              · exact .inl h
              · exact .inr ⟨h, by dsimp only at *; omega⟩
            · rw [hp]
              exact .inr ⟨rfl, Nat.lt_succ_self _⟩
        · simp only [if_neg c2]
          exact .inl ⟨rfl, h⟩

theorem readLine_damaged {env : Env} (he : EnvOf file env) {md : Meta} {ps : List Place} {r r' : RD IFStream}
    (h : DRel file file' env md ps r r') : SameRow file file' env md ps some (r.readLine env ifs md) (r'.readLine env ifs md) := by
  unfold RD.readLine
  obtain ⟨g1, g2, g3⟩ := next_damaged hd he md h
  generalize r.next env ifs md = x at *
  generalize r'.next env ifs md = y at *
  obtain ⟨x1, r1⟩ := x
  obtain ⟨y1, r1'⟩ := y
  dsimp only at g1 g2 g3
  subst g1
  rcases y1 with e | (_ | _)
  · exact .inl ⟨rfl, g2⟩
  · exact .inl ⟨rfl, g2⟩
  · dsimp only
    obtain ⟨t1, t2, t3⟩ := takeLine_damaged g2 (g3 rfl)
    generalize r1.takeLine = x at *
    generalize r1'.takeLine = y at *
    obtain ⟨x1, r2⟩ := x
    obtain ⟨y1, r2'⟩ := y
    dsimp only at t1 t2 t3
    subst t1
    rcases y1 with e | ⟨off, len⟩
    · exact .inl ⟨rfl, t2⟩
    · dsimp only
      have := extract_damaged he t2 (t3 off len rfl)
      generalize r2.extract env md off len = x at *
      generalize r2'.extract env md off len = y at *
      obtain ⟨x1, r3⟩ := x
      obtain ⟨y1, r3'⟩ := y
      rcases this with ⟨u1, u2⟩ | ⟨pl, row, row', u1, u2, u3⟩
      · dsimp only at u1 u2
        subst u1
        rcases y1 with e | row
        · exact .inl ⟨rfl, u2⟩
        · exact .inl ⟨rfl, u2⟩
      · dsimp only at u1 u2 u3
        subst u1 u2
        exact .inr ⟨pl, row, row', rfl, rfl, u3⟩

theorem skip_damaged {env : Env} (he : EnvOf file env) {md : Meta} {ps : List Place} : ∀ (n : Nat) {r r' : RD IFStream},
    DRel file file' env md ps r r' → (r'.skip env ifs md n).1 = (r.skip env ifs md n).1 ∧
      DRel file file' env md ps (r.skip env ifs md n).2 (r'.skip env ifs md n).2 := by
  intro n
  induction n with
  | zero => exact fun h => ⟨rfl, h⟩
  | succ n ih =>
    intro r r' h
    unfold RD.skip
    obtain ⟨g1, g2, g3⟩ := next_damaged hd he md h
    generalize r.next env ifs md = x at *
    generalize r'.next env ifs md = y at *
    obtain ⟨x1, r1⟩ := x
    obtain ⟨y1, r1'⟩ := y
    dsimp only at g1 g2 g3
    subst g1
    rcases y1 with e | (_ | _)
    · exact ⟨rfl, g2⟩
    · exact ⟨rfl, g2⟩
    · dsimp only
      obtain ⟨t1, t2, -⟩ := takeLine_damaged g2 (g3 rfl)
      generalize r1.takeLine = x at *
      generalize r1'.takeLine = y at *
      obtain ⟨x1, r2⟩ := x
      obtain ⟨y1, r2'⟩ := y
      dsimp only at t1 t2
      subst t1
      rcases y1 with e | ol
      · exact ⟨rfl, t2⟩
      · exact ih t2

/-! ## The reader -/

/-- The two readers and what they have told their sinks. -/
structure DRead (file file' : List Byte) (ps : List Place) (R R' : Reader IFStream) : Prop where
  env : R'.env = R.env
  props : R'.props = R.props
  order : EnvOf file R.env
  trace : Twins file file' R.props.md.rowLength ps R.trace R'.trace
  rd : DRel file file' R.env R.props.md ps R.rd R'.rd

theorem readRow_damaged {ps : List Place} {R R' : Reader IFStream} (h : DRead file file' ps R R') :
    (R'.readRow ifs).1 = (R.readRow ifs).1 ∧ (R.readRow ifs).2.props = R.props ∧
    ∃ ps', DRead file file' ps' (R.readRow ifs).2 (R'.readRow ifs).2 := by
  have hl := readLine_damaged hd h.order h.rd
  unfold Reader.readRow Reader.currentRowIndex
  rw [h.env, h.props, h.rd.row]
  generalize R.rd.readLine R.env ifs R.props.md = x at hl
  generalize R'.rd.readLine R.env ifs R.props.md = y at hl
  obtain ⟨x1, r1⟩ := x
  obtain ⟨y1, r1'⟩ := y
  rcases hl with ⟨g1, g2⟩ | ⟨pl, row, row', g1, g2, g3, g4, g5⟩
  · dsimp only at g1 g2
    subst g1
    rcases y1 with e | (_ | row)
    · exact ⟨rfl, rfl, ps, rfl, rfl, h.order, h.trace, g2⟩
    · exact ⟨rfl, rfl, ps, rfl, rfl, h.order, .same _ h.trace, g2⟩
    · exact ⟨rfl, rfl, ps, rfl, rfl, h.order, .same _ h.trace, g2⟩
  · dsimp only at g1 g2 g3 g4 g5
    subst g1 g2
    exact ⟨rfl, rfl, ps ++ [pl], rfl, rfl, h.order, .row _ pl row row' h.trace g4 g3, g5⟩

theorem readRows_damaged : ∀ (n : Nat) {ps : List Place} {R R' : Reader IFStream}, DRead file file' ps R R' →
    (R'.readRows ifs n).1 = (R.readRows ifs n).1 ∧ (R.readRows ifs n).2.props = R.props ∧
    ∃ ps', DRead file file' ps' (R.readRows ifs n).2 (R'.readRows ifs n).2 := by
  intro n
  induction n with
  | zero => exact fun h => ⟨rfl, rfl, _, h⟩
  | succ n ih =>
    intro ps R R' h
    obtain ⟨h1, h2, ps', h3⟩ := readRow_damaged hd h
    unfold Reader.readRows
    generalize R.readRow ifs = x at *
    generalize R'.readRow ifs = y at *
    obtain ⟨x1, R1⟩ := x
    obtain ⟨y1, R1'⟩ := y
    dsimp only at h1 h2 h3
    subst h1
    rcases y1 with e | (_ | _)
    · exact ⟨rfl, h2, ps', h3⟩
    · exact ⟨rfl, h2, ps', h3⟩
    · obtain ⟨k1, k2, k3⟩ := ih h3
      exact ⟨k1, k2.trans h2, k3⟩

theorem readAllLoop_damaged : ∀ (n : Nat) {ps : List Place} {R R' : Reader IFStream}, DRead file file' ps R R' →
    (R'.readAllLoop ifs n).1 = (R.readAllLoop ifs n).1 ∧ (R.readAllLoop ifs n).2.props = R.props ∧
    ∃ ps', DRead file file' ps' (R.readAllLoop ifs n).2 (R'.readAllLoop ifs n).2 := by
  intro n
  induction n with
  | zero => exact fun h => ⟨rfl, rfl, _, h⟩
  | succ n ih =>
    intro ps R R' h
    obtain ⟨h1, h2, ps', h3⟩ := readRow_damaged hd h
    unfold Reader.readAllLoop
    generalize R.readRow ifs = x at *
    generalize R'.readRow ifs = y at *
    obtain ⟨x1, R1⟩ := x
    obtain ⟨y1, R1'⟩ := y
    dsimp only at h1 h2 h3
    subst h1
    rcases y1 with e | (_ | _)
    · exact ⟨rfl, h2, ps', h3⟩
    · exact ⟨rfl, h2, ps', h3⟩
    · obtain ⟨k1, k2, k3⟩ := ih h3
      exact ⟨k1, k2.trans h2, k3⟩

theorem step_damaged {ps : List Place} {R R' : Reader IFStream} (h : DRead file file' ps R R') (op : Op) :
    SameRet file file' R.props.md.rowLength (R.step ifs op).1 (R'.step ifs op).1 ∧ (R.step ifs op).2.props = R.props ∧
    ∃ ps', DRead file file' ps' (R.step ifs op).2 (R'.step ifs op).2 := by
  have lift : ∀ {α : Type} (f : Res α → Res Ret) (x y : Res α), y = x →
      SameRet file file' R.props.md.rowLength (f x) (f y) := by
    intro α f x y h
    rw [h]
    exact .same _
  cases op with
  | readRow =>
    obtain ⟨h1, h2, h3⟩ := readRow_damaged hd h
    exact ⟨lift (Except.map .bool) _ _ h1, h2, h3⟩
  | readRows n =>
    obtain ⟨h1, h2, h3⟩ := readRows_damaged hd n h
    exact ⟨lift (Except.map .bool) _ _ h1, h2, h3⟩
  | readAll =>
    have e : R'.readAll ifs = R'.readAllLoop ifs (R.props.md.rowCount - R.rd.row + 1) := by
      rw [Reader.readAll, h.props, h.rd.row]
    obtain ⟨h1, h2, h3⟩ := readAllLoop_damaged hd (R.props.md.rowCount - R.rd.row + 1) h
    rw [← e] at h1 h3
    exact ⟨lift (Except.map fun _ => .unit) _ _ h1, h2, h3⟩
  | skip n =>
    have hl := skip_damaged hd h.order n h.rd
    show SameRet file file' R.props.md.rowLength ((R.skip ifs n).1.map .bool) ((R'.skip ifs n).1.map .bool) ∧
      (R.skip ifs n).2.props = R.props ∧ ∃ ps', DRead file file' ps' (R.skip ifs n).2 (R'.skip ifs n).2
    unfold Reader.skip
    rw [h.env, h.props]
    generalize R.rd.skip R.env ifs R.props.md n = x at hl
    generalize R'.rd.skip R.env ifs R.props.md n = y at hl
    obtain ⟨x1, r1⟩ := x
    obtain ⟨y1, r1'⟩ := y
    dsimp only at hl
    obtain ⟨g1, g2⟩ := hl
    subst g1
    rcases y1 with e | (_ | _)
    · exact ⟨.same _, rfl, ps, rfl, rfl, h.order, h.trace, g2⟩
    · exact ⟨.same _, rfl, ps, rfl, rfl, h.order, .same _ h.trace, g2⟩
    · exact ⟨.same _, rfl, ps, rfl, rfl, h.order, h.trace, g2⟩
  | readRowNoSink =>
    have hl := readLine_damaged hd h.order h.rd
    show SameRet file file' R.props.md.rowLength ((R.rd.readLine R.env ifs R.props.md).1.map Ret.ptr)
        ((R'.rd.readLine R'.env ifs R'.props.md).1.map Ret.ptr) ∧
      R.props = R.props ∧ ∃ ps', DRead file file' ps' { R with rd := (R.rd.readLine R.env ifs R.props.md).2 }
        { R' with rd := (R'.rd.readLine R'.env ifs R'.props.md).2 }
    rw [h.env, h.props]
    rcases hl with ⟨g1, g2⟩ | ⟨pl, row, row', g1, g2, g3, g4, g5⟩
    · exact ⟨lift (Except.map Ret.ptr) _ _ g1, rfl, ps, rfl, rfl, h.order, h.trace, g2⟩
    · rw [g1, g2]
      refine ⟨.row pl row row' g3, rfl, ps, rfl, rfl, h.order, h.trace, ?_⟩
      refine ⟨g5.row, g5.dst, g5.page, fun pg hp => ?_⟩
      obtain ⟨k, k1, k2⟩ := g5.front pg hp
      exact ⟨k, k1, fun p hp => k2 p (List.mem_append_left _ hp)⟩
  | endOfData =>
    exact ⟨.same _, rfl, ps, h.env, h.props, h.order, .same _ h.trace, h.rd⟩

theorem run_damaged : ∀ (ops : List Op) {ps : List Place} {R R' : Reader IFStream}, DRead file file' ps R R' →
    List.Forall₂ (SameRet file file' R.props.md.rowLength) (R.run ifs ops).1 (R'.run ifs ops).1 ∧
    (R.run ifs ops).2.props = R.props ∧ ∃ ps', DRead file file' ps' (R.run ifs ops).2 (R'.run ifs ops).2 := by
  intro ops
  induction ops with
  | nil => exact fun h => ⟨.nil, rfl, _, h⟩
  | cons op ops ih =>
    intro ps R R' h
    obtain ⟨h1, h2, ps', h3⟩ := step_damaged hd h op
    rw [Reader.run_cons, Reader.run_cons]
    generalize R.step ifs op = x at *
    generalize R'.step ifs op = y at *
    obtain ⟨x1, R1⟩ := x
    obtain ⟨y1, R1'⟩ := y
    dsimp only at h1 h2 h3
    obtain ⟨k1, k2, k3⟩ := ih h3
    rw [h2] at k1 k2
    cases h1 with
    | same =>
      rcases x1 with e | v
      · cases e with
        | exn e => exact ⟨.cons (.same _) k1, k2, k3⟩
        | terminate => exact ⟨.cons (.same _) .nil, h2, ps', h3⟩
        | ub => exact ⟨.cons (.same _) .nil, h2, ps', h3⟩
        | fuel => exact ⟨.cons (.same _) .nil, h2, ps', h3⟩
      · exact ⟨.cons (.same _) k1, k2, k3⟩
    | row pl r r' hr => exact ⟨.cons (.row pl r r' hr) k1, k2, k3⟩

/-- Opening both files. -/
theorem open_damaged (cfg : Cfg) (fuel : Nat) (filter : Option Filter) :
    match openReader cfg ifs fuel filter (IFStream.open file) with
    | .error e => openReader cfg ifs fuel filter (IFStream.open file') = .error e
    | .ok R => ∃ R', openReader cfg ifs fuel filter (IFStream.open file') = .ok R' ∧ DRead file file' [] R R' := by
  unfold openReader
  have h1 := readHeader_damaged hd cfg
  have ho := fun h b s' => readHeader_order (cfg := cfg) (data := file) (h := h) (b := b) (s' := s')
  have hp := fun h b s' => readHeader_ok ifs_lawful (cfg := cfg) (s := IFStream.open file) (h := h) (b := b) (s' := s')
  generalize readHeader cfg ifs (IFStream.open file) = x at *
  rcases x with e | ⟨h, b, s⟩
  · dsimp only at h1
    rw [h1]
    exact rfl
  · obtain ⟨g1, g2, g3⟩ := h1
    obtain ⟨o1, o2⟩ := ho _ _ _ rfl
    obtain ⟨o3, o4, -⟩ := hp _ _ _ rfl
    obtain ⟨t1, -⟩ := ifs_read_true o4
    rw [t1] at o3
    simp only [IFStream.open] at o3
    rw [slice_zero] at o3
    rw [g1]
    simp only [ok_bind'']
    generalize hen : ({ cfg := cfg, endian := h.endian, format := h.format
                        pageLength := h.pageLength, fuel := fuel } : Env) = env
    have he : EnvOf file env := by rw [← hen]; exact ⟨o1, o2, o3⟩
    have hcfg : env.cfg = cfg := by rw [← hen]
    have h2 := metaLoop_damaged hd he fuel 0 ⟨s, b, PageHdr.reset⟩ ⟨beside file' s, b, PageHdr.reset⟩ {}
      ⟨g2.inside, .inl rfl⟩ rfl g3 rfl
    generalize metaLoop env ifs fuel ⟨s, b, PageHdr.reset⟩ {} = x at *
    rcases x with e | ⟨p, acc⟩
    · dsimp only at h2
      rw [h2]
      exact rfl
    · obtain ⟨p', k1, k2⟩ := h2
      rw [k1]
      simp only [ok_bind'']
      cases createColumns cfg h.endian acc filter with
      | error e => exact rfl
      | ok columns =>
        simp only [ok_bind'']
        have first : ∀ (pr : Properties), Twins file file' pr.md.rowLength [] [.setProperties pr] [.setProperties pr] :=
          fun pr => .same (t := []) (t' := []) _ .nil
        rcases k2 with ⟨k2, k3, k4⟩ | ⟨k, page, page', rest, t, hk⟩
        · rw [build_dead k2 k4, build_dead k3 k4]
          cases buildDst env.cfg acc.md with
          | error e => exact rfl
          | ok dst =>
            exact ⟨_, rfl, rfl, rfl, he, first _, rfl, rfl, rfl, fun pg h => by cases h⟩
        · unfold RD.build
          cases buildDst env.cfg acc.md with
          | error e => exact rfl
          | ok dst =>
            simp only [ok_bind'']
            cases hs : acc.dataSubs.isEmpty
            case true =>
              simp only [if_true]
              have hbp : buildPage env acc.md p'.buf p'.hdr = buildPage env acc.md p.buf p.hdr := by
                rw [t.hdr]
                rcases t.data with h | ⟨h, -, -⟩
                · subst h
                  rw [t.same]
                · unfold buildPage
                  rw [h]
                  rfl
              rw [hbp]
              rcases hx : buildPage env acc.md p.buf p.hdr with e | pg
              · exact rfl
              · refine ⟨_, rfl, rfl, rfl, he, first _, rfl, rfl, rfl, fun pg' h => ⟨k, ⟨page, page', rest, t, ?_⟩, fun _ h => by cases h⟩⟩
                rcases t.data with h | ⟨h, h', h''⟩
                · exact .inl h
                · right
                  refine ⟨0, ?_, fun _ => Nat.zero_le _, h''⟩
                  unfold buildPage at hx
                  rw [h] at hx
                  cases hx
                  rw [← h']
            case false =>
              refine ⟨_, rfl, rfl, rfl, he, first _, rfl, rfl, rfl, fun pg' h => ⟨k, ⟨page, page', rest, t, ?_⟩, fun _ h => by cases h⟩⟩
              rcases hk with h | h
              · exact .inl h
              · rw [h] at hs
                cases hs

end

end Sas.Proofs
