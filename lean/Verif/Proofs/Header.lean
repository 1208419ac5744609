import Verif.Proofs.Buffer
import Verif.Proofs.Values
import Verif.Model.Reader
import Verif.Spec.Header
import Verif.Proofs.DateText

/-!
# Lemmas about the header phase
-/

namespace Sas

open Spec

theorem Res.ok_bind {α β : Type} (a : α) (f : α → Res β) : ((.ok a : Res α) >>= f) = f a := rfl

theorem C37' (b : Byte) :
    getEncoding b = .ok ((encodingNames.lookup b.toNat).getD "WINDOWS-1252") := by
  have h : ∀ i : Fin 256, getEncoding (UInt8.ofNat i.val) =
        .ok ((encodingNames.lookup i.val).getD "WINDOWS-1252") := by decide +kernel
  have := h ⟨b.toNat, b.toNat_lt⟩
  simpa using this

theorem trimLen_append (p : Byte → Bool) (text pad : List Byte) (hp : ∀ b ∈ pad, p b = true)
    (hl : ∀ b, text.getLast? = some b → p b = false) :
    trimLen p (text ++ pad) (text ++ pad).length = text.length := by
  obtain ⟨removed, h1, h2, h3⟩ := trim_split p (text ++ pad)
  have hle := trimLen_le p (text ++ pad) (text ++ pad).length
  generalize trimLen p (text ++ pad) (text ++ pad).length = k at *
  by_cases hk : k ≤ text.length
  · by_cases hk' : k = text.length
    · exact hk'
    · exfalso
      rcases List.eq_nil_or_concat text with ht | ⟨t, x, ht⟩
      · subst ht; simp at hk; exact hk' (by simpa using hk)
      · have hx := hl x (by rw [ht]; simp)
        have hmem : x ∈ removed := by
          have hd : removed = (text ++ pad).drop k := by
            have := List.take_append_drop k (text ++ pad)
            exact List.append_cancel_left (h1.symm.trans this.symm)
          rw [hd, List.drop_append_of_le_length hk]
          apply List.mem_append_left
          rw [ht] at hk hk' ⊢
          simp only [List.concat_eq_append, List.length_append, List.length_singleton] at hk hk' ⊢
          rw [List.drop_append_of_le_length (by omega)]
          simp
        rw [h2 x hmem] at hx
        cases hx
  · exfalso
    have hx : ∃ x, ((text ++ pad).take k).getLast? = some x ∧ x ∈ pad := by
      have hlt : k - 1 < (text ++ pad).length := by omega
      refine ⟨(text ++ pad)[k - 1], ?_, ?_⟩
      · rw [List.getLast?_eq_getElem?, List.length_take, List.getElem?_take]
        have : min k (text ++ pad).length = k := by omega
        rw [this, if_pos (by omega)]
        exact List.getElem?_eq_getElem hlt
      · rw [List.getElem_append_right (by omega)]
        exact List.getElem_mem _
    obtain ⟨x, hx1, hx2⟩ := hx
    have := h3 x hx1
    rw [hp x hx2] at this
    cases this

theorem getStringTrim_field {field text : List Byte} (h : TextField field text) :
    getStringTrim field = text := by
  obtain ⟨⟨p, rfl, hp⟩, hfirst, hlast⟩ := h
  have hp' : ∀ b ∈ p, (fun b => !isPrint b || isSpace b) b = true := by
    intro b hb
    simp only [Bool.or_eq_true, Bool.not_eq_true', isSpace_iff]
    rcases hp b hb with h | h
    · left; rw [← Bool.not_eq_true, isPrint_iff]; exact h
    · right; exact h
  cases text with
  | nil =>
    simp only [List.nil_append]
    have hs : ∀ b ∈ skipSpace p, (fun b => !isPrint b || isSpace b) b = true := by
      obtain ⟨lead, h1, -, -⟩ := skipSpace_split p
      intro b hb
      apply hp'
      rw [h1]; exact List.mem_append_right _ hb
    have := trimLen_append (fun b => !isPrint b || isSpace b) [] (skipSpace p) hs (by simp)
    simp only [List.nil_append, List.length_nil] at this
    unfold getStringTrim
    simp only [this, List.take_zero]
  | cons x t =>
    have hx : isSpace x = false := (isSpace_false x).mpr (hfirst x rfl)
    have hsk : skipSpace (x :: t ++ p) = x :: t ++ p := by
      simp [skipSpace, hx]
    unfold getStringTrim
    simp only [hsk]
    rw [trimLen_append _ _ _ hp' ?_]
    · rw [List.take_append_of_le_length (by simp)]
      exact List.take_of_length_le (by simp)
    · intro b hb
      obtain ⟨h1, h2⟩ := hlast b hb
      simp [(isPrint_iff b).mpr h1, (isSpace_false b).mpr h2]

theorem holds_288 {σ : Type} {cfg : Cfg} {S : Source σ} {s : σ} (hmax : 288 ≤ cfg.maxAlloc)
    (hok : (S.read s 288).ok = true) (hlen : (S.read s 288).bytes.length = 288) :
    ∃ b, checkHeaderRead cfg S s = .ok (b, (S.read s 288).st) ∧ b.Holds (S.read s 288).bytes := by
  obtain ⟨b, hb⟩ := Buf.readStream_succ (cfg := cfg) (S := S) (b := Buf.empty) (s := s) (len := 288)
    (off := 0) Buf.empty_good (by omega) (.inl (by omega)) hok hlen
  refine ⟨b, ?_, Buf.readStream_holds Buf.empty_good (by omega) (fun _ => hlen) hb⟩
  unfold checkHeaderRead
  rw [hb]

theorem magic_eq : Spec.magic = magicNumber := by decide

theorem checkMagic_ok {cfg : Cfg} {b : Buf} {bs : List Byte} (hb : b.Holds bs) (hl : 32 ≤ bs.length) :
    checkMagic cfg b = if bs.take 32 = Spec.magic then .ok () else .error (.exn .invalidMagicNumber) := by
  unfold checkMagic
  rw [hb.rd (by omega), slice_zero, magic_eq]
  rfl

theorem setAligns_layout {cfg : Cfg} {b : Buf} {bs : List Byte} {h : FileHeader} {k : Nat}
    (hk : 288 ≤ k) (hb : b.Holds (bs.take k)) (hl : HeaderLayout h bs) :
    setAligns cfg b = .ok { align1 := h.a1, align2 := if h.wide then 4 else 0
                            format := if h.wide then .bit64 else .bit32, endian := h.endian } := by
  have hlen : 288 ≤ bs.length := by rw [hl.length]; have := hl.long; omega
  have hget : ∀ i, i < 288 → ∃ x, bs[i]? = some x := fun i hi =>
    ⟨bs[i], List.getElem?_eq_getElem (by omega)⟩
  obtain ⟨x32, h32⟩ := hget 32 (by omega)
  obtain ⟨x35, h35⟩ := hget 35 (by omega)
  obtain ⟨x37, h37⟩ := hget 37 (by omega)
  have t : ∀ i x, i < 288 → bs[i]? = some x → (bs.take k)[i]? = some x := by
    intro i x hi hx
    rw [List.getElem?_take, if_pos (by omega)]; exact hx
  unfold setAligns
  rw [hb.getByte (t 32 x32 (by omega) h32), hb.getByte (t 35 x35 (by omega) h35),
    hb.getByte (t 37 x37 (by omega) h37)]
  have e1 := hl.wide
  have e2 := hl.padded
  have e3 := hl.endian
  rw [h32] at e1; rw [h35] at e2; rw [h37] at e3
  simp only [Option.some.injEq] at e1 e2 e3
  show Except.ok _ = Except.ok _
  congr 1
  rcases hw : h.wide <;> rcases hp : h.padded <;> rcases he : h.endian <;>
    simp [hw, hp, he, FileHeader.a1] at e1 e2 e3 ⊢ <;> simp [e1, e2, e3]

theorem fmtAssert_ok {cfg : Cfg} {c : Bool} (h : c = true) : fmtAssert cfg c = .ok () := by
  simp [fmtAssert, h]

/-- The conversion of a stored time stamp. -/
theorem stamp_shows {bits : Nat} (h : Stamp bits) :
    ∃ t, datetimeFromEpoch (Dbl.ofBits bits) = .ok t ∧ Shows bits t := by
  rcases h with h | ⟨x, h, hr⟩
  · exact ⟨_, by rw [ofBits_nan h]; rfl, .inl ⟨h, rfl⟩⟩
  · obtain ⟨h1, h2⟩ := ofBits_value h
    obtain ⟨us, h3, h4⟩ := datetimeFromEpoch_near h2 hr
    refine ⟨_, by rw [h1]; exact h3, .inr ⟨x, us, h, rfl, h4, fun j hj => ?_⟩⟩
    rw [hj] at h4
    exact int_eq_of_abs_lt (lt_of_le_of_lt h4 (by norm_num))

/-- The instant the library computes for a stored time stamp. -/
def stampOf (bits : Nat) : DateTime :=
  match datetimeFromEpoch (Dbl.ofBits bits) with
  | .ok t => t
  | .error _ => .notADateTime

theorem stampOf_ok {bits : Nat} (h : Stamp bits) :
    datetimeFromEpoch (Dbl.ofBits bits) = .ok (stampOf bits) := by
  obtain ⟨t, ht, -⟩ := stamp_shows h
  unfold stampOf
  rw [ht]

theorem stampOf_shows {bits : Nat} (h : Stamp bits) : Shows bits (stampOf bits) := by
  obtain ⟨t, ht, hs⟩ := stamp_shows h
  have : stampOf bits = t := by unfold stampOf; rw [ht]
  rw [this]
  exact hs

theorem stampOf_text {bits : Nat} (h : InCalendar bits) : ∃ s, (stampOf bits).toText = .ok s := by
  obtain ⟨x, hx, h1, h2⟩ := h
  obtain ⟨hb, hd⟩ := ofBits_value hx
  obtain ⟨t, s, ht, hs⟩ := inCalendar_text hd h1 h2
  have : stampOf bits = t := by unfold stampOf; rw [hb, ht]
  exact ⟨s, by rw [this]; exact hs⟩

/-- The header the library reports for a header with content `h`. -/
def _root_.Sas.Spec.FileHeader.reported (h : FileHeader) : Header where
  format := if h.wide then .bit64 else .bit32
  endian := h.endian
  platform := h.platform
  encoding := (encodingNames.lookup h.encoding.toNat).getD "WINDOWS-1252"
  datasetName := h.datasetName
  fileType := h.fileType
  dateCreated := stampOf h.created
  dateModified := stampOf h.modified
  headerLength := h.headerLength
  pageLength := h.pageLength
  pageCount := h.pageCount
  sasRelease := h.sasRelease
  serverType := h.serverType
  osType := h.osType
  osName := h.osName

theorem reportedAs {h : FileHeader} {bs : List Byte} (hl : HeaderLayout h bs) : ReportedAs h h.reported :=
  ⟨rfl, rfl, rfl, rfl, rfl, rfl, stampOf_shows hl.stamps.1, stampOf_shows hl.stamps.2, rfl, rfl, rfl, rfl, rfl,
    rfl, rfl⟩

theorem logHeader_ok {cfg : Cfg} {h : FileHeader} (hg : Loggable cfg h) : logHeader cfg h.reported = .ok () := by
  unfold logHeader
  split
  · rename_i hd
    obtain ⟨h1, h2⟩ := hg hd
    obtain ⟨s1, e1⟩ := stampOf_text h1
    obtain ⟨s2, e2⟩ := stampOf_text h2
    show (do let _ ← (stampOf h.created).toText; let _ ← (stampOf h.modified).toText; return ()) = _
    rw [e1, e2]
    rfl
  · rfl

theorem Buf.Holds.getDate {cfg : Cfg} {e : Endian} {b : Buf} {bs : List Byte} {off bits : Nat} (hb : b.Holds bs)
    (hl : off + 8 ≤ bs.length) (hv : Sas.slice bs off 8 = encode e 8 bits) (hs : bits < 2 ^ 64) (hst : Stamp bits) :
    b.getDate cfg e off = .ok (stampOf bits) := by
  unfold Buf.getDate
  rw [hb.getDouble hl, hv, getVal_encode, Nat.mod_eq_of_lt (by omega)]
  exact stampOf_ok hst

theorem setHeader_layout {cfg : Cfg} {b : Buf} {bs : List Byte} {h : FileHeader} {al : Align}
    (hb : b.Holds bs) (hl : HeaderLayout h bs) (ha1 : al.align1 = h.a1) (ha2 : al.total = h.a2)
    (hf : al.format = if h.wide then .bit64 else .bit32) (he : al.endian = h.endian) :
    setHeader cfg al h.headerLength b = .ok h.reported := by
  have hlen := hl.length
  have hlong := hl.long
  have ha : h.a1 ≤ h.a2 := by unfold FileHeader.a2; omega
  obtain ⟨s1, s2, s3, s4, s5⟩ := hl.sizes
  obtain ⟨x39, h39⟩ : ∃ x, bs[39]? = some x := ⟨bs[39], List.getElem?_eq_getElem (by omega)⟩
  obtain ⟨xn, hn⟩ : ∃ x, bs[272 + h.a2]? = some x :=
    ⟨bs[272 + h.a2], List.getElem?_eq_getElem (by omega)⟩
  have henc := (C37' h.encoding)
  unfold setHeader
  rw [fmtAssert_ok (by rw [hb.size, ha2]; simp; omega), ha1, ha2, he, hf]
  rw [hb.getByte h39, hb.getByte hl.encoding, hb.getString (by omega), hb.getString (by omega),
    hb.getDate (by omega) hl.created s1 hl.stamps.1, hb.getDate (by omega) hl.modified s2 hl.stamps.2,
    hb.getU32 (by omega), hb.getU32 (by omega),
    hb.getString (by omega), hb.getString (by omega), hb.getString (by omega), hb.getByte hn,
    hb.getString (by omega), hb.getString (by omega)]
  rw [getStringTrim_field hl.datasetName, getStringTrim_field hl.fileType,
    hl.pageLength, hl.pageCount, getStringTrim_field hl.sasRelease, getStringTrim_field hl.serverType,
    getStringTrim_field hl.osType]
  simp only [getVal_encode]
  rw [Nat.mod_eq_of_lt (by omega), Nat.mod_eq_of_lt (by omega)]
  have hosn := hl.osName
  have e1 := hl.unix
  have e2 := hl.windows
  rw [h39] at e1 e2
  simp only [Option.some.injEq] at e1 e2
  have hplat : (if x39 = 0x31 then Platform.unix else if x39 = 0x32 then .windows else .unknown) =
      h.platform := by
    rcases hp : h.platform <;> simp [hp] at e1 e2 <;> simp [e1, e2]
  rw [hn] at hosn
  simp only [Option.some.injEq] at hosn
  show (do let enc ← getEncoding h.encoding; _) = _
  rw [henc]
  by_cases hz : xn = 0
  · rw [if_pos hz] at hosn
    have := getStringTrim_field hosn
    subst hz
    show Except.ok _ = Except.ok _
    rw [this, hplat]
    rfl
  · rw [if_neg hz] at hosn
    have := getStringTrim_field hosn
    simp only [Res.ok_bind, ne_eq, hz, not_false_eq_true, if_true]
    rw [this, hplat]
    rfl

/-- The whole header phase on a header with the given content. -/
theorem readHeader_layout {σ : Type} {cfg : Cfg} {S : Source σ} {s s1 s2 : σ} {h : FileHeader}
    {bs : List Byte} (hl : HeaderLayout h bs) (hmax : h.headerLength ≤ cfg.maxAlloc)
    (r1 : S.read s 288 = ⟨s1, bs.take 288, true⟩)
    (r2 : S.read s1 (h.headerLength - 288) = ⟨s2, bs.drop 288, true⟩) :
    ∃ b, readHeader cfg S s = (do logHeader cfg h.reported; return (h.reported, b, s2)) ∧ b.Holds bs := by
  have hlen := hl.length
  have hlong := hl.long
  have ha : h.a1 ≤ h.a2 := by unfold FileHeader.a2; omega
  obtain ⟨-, -, s3, -, -⟩ := hl.sizes
  have hl288 : (bs.take 288).length = 288 := by rw [List.length_take]; omega
  obtain ⟨b1, hb1, hh1⟩ := holds_288 (cfg := cfg) (S := S) (s := s) (by omega) (by rw [r1])
    (by rw [r1]; exact hl288)
  rw [r1] at hb1 hh1
  simp only at hb1 hh1
  have hd : (S.read s1 (h.headerLength - 288)).bytes.length = h.headerLength - 288 := by
    rw [r2]; simp; omega
  have hoff : (288 : Nat) = (bs.take 288).length := hl288.symm
  obtain ⟨b2, hb2⟩ := Buf.readStream_succ (cfg := cfg) (S := S) (b := b1) (s := s1)
    (len := h.headerLength - 288) (off := 288) hh1.good (by omega) (.inl (by omega)) (by rw [r2]) hd
  have hh2 : b2.Holds bs := by
    have := Buf.readStream_holds_append (cfg := cfg) (S := S) (s := s1) (len := h.headerLength - 288)
      (b' := b2) (s' := s2) hh1 (by rw [hl288]; omega) (fun _ => hd) (by rw [hl288, hb2, r2])
    rw [r2] at this
    simpa using this
  refine ⟨b2, ?_, hh2⟩
  unfold readHeader
  rw [hb1]
  show (do checkMagic cfg b1; _) = _
  rw [checkMagic_ok hh1 (by omega), List.take_take, if_pos (by exact hl.magic)]
  show (do let al ← setAligns cfg b1; _) = _
  rw [setAligns_layout (Nat.le_refl _) hh1 hl]
  have hhl : setHeaderLengthAndRead cfg S
      { align1 := h.a1, align2 := if h.wide then 4 else 0
        format := if h.wide then .bit64 else .bit32, endian := h.endian } b1 s1 =
      .ok (h.headerLength, b2, s2) := by
    have ha1 : h.a1 ≤ 4 := by unfold FileHeader.a1; split <;> omega
    unfold setHeaderLengthAndRead
    simp only
    rw [hh1.getU32 (by omega), slice_take (by omega), hl.headerLength, getVal_encode,
      Nat.mod_eq_of_lt (by omega)]
    rw [Res.ok_bind, fmtAssert_ok (by simp; omega), Res.ok_bind]
    have hsub : sub64 h.headerLength 288 = h.headerLength - 288 := by
      unfold sub64; omega
    rw [hsub, hb2, r2]
  show (do let x ← setHeaderLengthAndRead cfg S _ b1 s1; _) = _
  rw [hhl]
  show (do let x ← setHeader cfg _ _ _; _) = _
  rw [setHeader_layout hh2 hl rfl rfl rfl rfl]
  rfl

theorem readHeader_loggable {σ : Type} {cfg : Cfg} {S : Source σ} {s s1 s2 : σ} {h : FileHeader}
    {bs : List Byte} (hl : HeaderLayout h bs) (hmax : h.headerLength ≤ cfg.maxAlloc) (hg : Loggable cfg h)
    (r1 : S.read s 288 = ⟨s1, bs.take 288, true⟩)
    (r2 : S.read s1 (h.headerLength - 288) = ⟨s2, bs.drop 288, true⟩) :
    ∃ b, readHeader cfg S s = .ok (h.reported, b, s2) ∧ b.Holds bs := by
  obtain ⟨b, h1, h2⟩ := readHeader_layout (cfg := cfg) hl hmax r1 r2
  rw [logHeader_ok hg] at h1
  exact ⟨b, h1, h2⟩

end Sas
