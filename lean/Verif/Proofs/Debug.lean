import Verif.Proofs.Safety

/-! The bounds checks of a debug build on 32-bit files. -/

namespace Sas

open Spec

variable {α β σ : Type}

/-- No undefined behaviour, and the result, if any, satisfies `P`. -/
def Safe (P : α → Prop) : Res α → Prop
  | .ok a => P a
  | .error e => e ≠ .ub

theorem Safe.bind {P : α → Prop} {Q : β → Prop} {x : Res α} {f : α → Res β} (hx : Safe P x)
    (hf : ∀ a, P a → Safe Q (f a)) : Safe Q (x >>= f) := by
  cases x with
  | error e => exact hx
  | ok a => exact hf a hx

theorem Safe.mono {P Q : α → Prop} {x : Res α} (hx : Safe P x) (h : ∀ a, P a → Q a) : Safe Q x := by
  cases x with
  | error e => exact hx
  | ok a => exact h a hx

theorem Safe.ite {c : Prop} [Decidable c] {P : α → Prop} {x y : Res α} (hx : c → Safe P x) (hy : ¬ c → Safe P y) :
    Safe P (if c then x else y) := by
  split
  · exact hx ‹_›
  · exact hy ‹_›

theorem Safe.not_ub {P : α → Prop} {x : Res α} (h : Safe P x) : x ≠ .error .ub := by
  rintro rfl
  exact h rfl

theorem fmtAssert_safe (cfg : Cfg) (c : Bool) : Safe (fun _ => True) (fmtAssert cfg c) := by
  unfold fmtAssert
  split
  · exact Stop.noConfusion
  · trivial

section reads

variable {cfg : Cfg} (hd : cfg.debug = true) {b : Buf} (hg : b.Good)
include hd hg

theorem Buf.rd_safe {o n : Nat} (h : o + n < 2 ^ 64) :
    Safe (fun bs => o + n ≤ b.size ∧ bs.length = n) (b.rd cfg o n) := by
  unfold Buf.rd
  have hw : w64 (o + n) = o + n := Nat.mod_eq_of_lt h
  rw [hd, Bool.true_and, Buf.check, hw]
  by_cases hc : o + n ≤ b.size
  · have := hg.inside
    rw [decide_eq_true hc, Bool.not_true, if_neg Bool.false_ne_true, if_pos (by omega)]
    refine ⟨hc, ?_⟩
    unfold slice
    rw [List.length_take, List.length_drop]
    omega
  · rw [decide_eq_false hc, Bool.not_false, if_pos rfl]
    exact Stop.noConfusion

theorem Buf.getByte_safe {o : Nat} (h : o + 1 < 2 ^ 64) :
    Safe (fun _ => o + 1 ≤ b.size) (b.getByte cfg o) := by
  unfold Buf.getByte
  refine Safe.bind (Buf.rd_safe hd hg h) fun bs hbs => ?_
  cases bs with
  | nil => simp at hbs
  | cons x xs => exact hbs.1

theorem Buf.getU16_safe {e : Endian} {o : Nat} (h : o + 2 < 2 ^ 64) :
    Safe (fun n => o + 2 ≤ b.size ∧ n < 2 ^ 16) (b.getU16 cfg e o) := by
  refine Safe.bind (Buf.rd_safe hd hg h) fun bs hbs => ⟨hbs.1, ?_⟩
  have := getVal_lt e bs
  rw [hbs.2] at this
  exact this

theorem Buf.getU32_safe {e : Endian} {o : Nat} (h : o + 4 < 2 ^ 64) :
    Safe (fun n => o + 4 ≤ b.size ∧ n < 2 ^ 32) (b.getU32 cfg e o) := by
  refine Safe.bind (Buf.rd_safe hd hg h) fun bs hbs => ⟨hbs.1, ?_⟩
  have := getVal_lt e bs
  rw [hbs.2] at this
  exact this

theorem Buf.getUInt_safe {e : Endian} {f : Format} (hf : f = .bit32) {o : Nat} (h : o + 4 < 2 ^ 64) :
    Safe (fun n => o + 4 ≤ b.size ∧ n < 2 ^ 32) (b.getUInt cfg e f o) := by
  subst hf
  exact Buf.getU32_safe hd hg h

theorem Buf.getString_safe {o n : Nat} (h : o + n < 2 ^ 64) :
    Safe (fun _ => o + n ≤ b.size) (b.getString cfg o n) :=
  Safe.bind (Buf.rd_safe hd hg h) fun _ hbs => hbs.1

end reads

theorem Buf.assertCheck_safe (b : Buf) (o n : Nat) : Safe (fun _ => True) (b.assertCheck o n) := by
  unfold Buf.assertCheck
  split
  · trivial
  · exact Stop.noConfusion

/-! ### The header -/

theorem padded_length {w n k : Nat} (h : n < 10 ^ k) (hk : 0 < k) : (padded w n).length ≤ max w k := by
  have := decimal_len k n hk h
  unfold padded
  rw [List.length_append, List.length_replicate]
  omega

theorem paddedInt_length {w k : Nat} {n : Int} (h : n.natAbs < 10 ^ k) (hk : 0 < k) (hw : w ≤ k) :
    (paddedInt w n).length ≤ k + 1 := by
  unfold paddedInt
  split
  · have := padded_length (w := w - 1) h hk
    rw [List.length_cons]
    omega
  · have := padded_length (w := w) h hk
    omega

theorem inRange_text {x : Ymd} (h : x.inRange = true) : x.text.length ≤ 10 := by
  unfold Ymd.inRange at h
  simp only [Bool.and_eq_true, decide_eq_true_eq] at h
  have h1 := padded_length (w := 4) (n := x.year) (k := 4) (by omega) (by omega)
  have h2 := padded_length (w := 2) (n := x.month) (k := 2) (by omega) (by omega)
  have h3 := padded_length (w := 2) (n := x.day) (k := 2) (by omega) (by omega)
  unfold Ymd.text
  simp only [List.length_append, List.length_cons, List.length_nil]
  omega

theorem natAbs_tmod_lt (n : Int) {k : Nat} (m : Int) (hm : m = k) (hk : 0 < k) : (n.tmod m).natAbs < k := by
  rw [Int.natAbs_tmod, hm]
  exact Nat.mod_lt _ (by simpa using hk)

theorem timeOfDay_text (t : Int) : (Duration.us (t.tmod usPerDay)).text.length ≤ 19 := by
  obtain ⟨n, hn⟩ : ∃ n, t.tmod usPerDay = n := ⟨_, rfl⟩
  have hb : n.natAbs < 86400000000 := by rw [← hn]; exact natAbs_tmod_lt t (k := 86400000000) _ rfl (by omega)
  rw [hn]
  have hh : (toSigned 32 ((n.tdiv 3600000000 % 2 ^ 32).toNat)).natAbs < 10 ^ 2 := by
    have h1 : (n.tdiv 3600000000).natAbs < 24 := by
      rw [Int.natAbs_tdiv]
      show n.natAbs / 3600000000 < 24
      omega
    unfold toSigned
    split <;> omega
  have hm := natAbs_tmod_lt (n.tdiv 60000000) (k := 60) 60 rfl (by omega)
  have hs := natAbs_tmod_lt (n.tdiv 1000000) (k := 60) 60 rfl (by omega)
  have hf := natAbs_tmod_lt n (k := 1000000) 1000000 rfl (by omega)
  have h1 := paddedInt_length (w := 2) (k := 2) hh (by omega) (by omega)
  have h2 := paddedInt_length (w := 2) (k := 2) (n := (n.tdiv 60000000).tmod 60) (by omega) (by omega) (by omega)
  have h3 := paddedInt_length (w := 2) (k := 2) (n := (n.tdiv 1000000).tmod 60) (by omega) (by omega) (by omega)
  have h4 := paddedInt_length (w := 6) (k := 6) (n := n.tmod 1000000) (by omega) (by omega) (by omega)
  unfold Duration.text Duration.ticks
  simp only
  split <;> simp only [List.length_append, List.length_cons, List.length_nil] <;> omega

/-- The text of an instant always fits the buffer of `to_string`. -/
theorem DateTime.toText_safe (x : DateTime) : Safe (fun _ => True) x.toText := by
  cases x with
  | notADateTime =>
    have : DateTime.notADateTime.toText = .error (.exn .outOfRange) := by decide +kernel
    rw [this]
    exact Stop.noConfusion
  | «at» t =>
    unfold DateTime.toText
    refine Safe.bind (P := fun _ => True) ?_ fun d _ => Safe.bind (P := fun x => x.inRange = true) ?_ fun x hx => ?_
    · exact Safe.ite (fun _ => trivial) (fun _ => Stop.noConfusion)
    · exact Safe.ite (fun h => h) (fun _ => Stop.noConfusion)
    · have h1 := inRange_text hx
      have h2 := timeOfDay_text t
      unfold fromBuffer
      rw [if_pos]
      · trivial
      · simp only [DateTime.timeOfDay, List.length_append, List.length_cons, List.length_nil]
        omega

theorem logHeader_safe (cfg : Cfg) (h : Header) : Safe (fun _ => True) (logHeader cfg h) :=
  Safe.ite (fun _ => Safe.bind (DateTime.toText_safe _) fun _ _ => Safe.bind (DateTime.toText_safe _) fun _ _ => trivial)
    (fun _ => trivial)

theorem ifs_read_true {s : IFStream} {n : Nat} (h : (ifs.read s n).ok = true) :
    (ifs.read s n).bytes = slice s.data s.pos n ∧ s.pos + n ≤ s.data.length := by
  have hp : ∀ s : IFStream, (s.readPlain n).ok = true →
      (s.readPlain n).bytes = slice s.data s.pos n ∧ s.pos + n ≤ s.data.length := by
    intro s h
    unfold IFStream.readPlain at h ⊢
    by_cases hc : s.pos + n ≤ s.data.length
    · rw [if_pos hc] at h ⊢
      exact ⟨rfl, hc⟩
    · rw [if_neg hc] at h
      cases h
  revert h
  show (s.read n).ok = true → (s.read n).bytes = _ ∧ _
  unfold IFStream.read
  split
  · intro h; cases h
  · split
    · intro h; cases h
    · split
      · split
        · intro h; cases h
        · exact hp s
      · exact hp s

theorem ifs_read_none (s : IFStream) {n : Nat} (h : 2 ^ 63 ≤ n) :
    (ifs.read s n).bytes = [] ∧ (ifs.read s n).ok = false := by
  show (s.read n).bytes = [] ∧ (s.read n).ok = false
  unfold IFStream.read
  split
  · exact ⟨rfl, rfl⟩
  · exact ⟨rfl, rfl⟩

/-- Reading into a buffer from a source that keeps its contract. -/
theorem Buf.readStream_safe {S : Source σ} (hS : S.Lawful) (cfg : Cfg) {b : Buf} (hg : b.Good) (s : σ) {len off : Nat}
    (h : off + len < 2 ^ 64) :
    (Buf.readStream cfg S b s len off).1 ≠ .error .ub ∧ (Buf.readStream cfg S b s len off).2.1.Good ∧
    (Buf.readStream cfg S b s len off).2.1.size ≤ max b.size (off + len) := by
  have hw : w64 (off + len) = off + len := Nat.mod_eq_of_lt h
  unfold Buf.readStream
  rw [hw]
  cases hr : b.resize cfg (off + len) with
  | error e =>
    refine ⟨?_, hg, by simp only; omega⟩
    unfold Buf.resize at hr
    split at hr
    · split at hr
      · cases hr
      · cases hr; intro h; cases h
    · cases hr
  | ok b1 =>
    obtain ⟨g1, g2, -⟩ := Buf.resize_good hg h hr
    have hin := g1.inside
    have hle := hS.le s len
    simp only
    rw [if_pos (by omega)]
    refine ⟨(fun h => by cases h), ⟨?_, g1.small⟩, by simp only; omega⟩
    simp only
    rw [writeAt_length (by omega)]
    exact hin

/-- `set_header` in a debug build. -/
theorem setHeader_safe {cfg : Cfg} (hd : cfg.debug = true) {al : Align} {hl : Nat} {b : Buf} {bs : List Byte}
    (hb : b.Holds bs) (hlen : 288 ≤ bs.length) (h1 : al.align1 ≤ 4) (h2 : al.total ≤ 8)
    (k1 : Stamp (getVal al.endian (slice bs (164 + al.align1) 8)))
    (k2 : Stamp (getVal al.endian (slice bs (172 + al.align1) 8))) :
    Safe (fun h => h.format = al.format ∧ h.pageLength < 2 ^ 32) (setHeader cfg al hl b) := by
  have hg := hb.good
  have hs : ∀ o n, o + n < 2 ^ 64 → Safe (fun _ => True) (b.getString cfg o n) := fun o n h =>
    (Buf.getString_safe hd hg h).mono fun _ _ => trivial
  have hdt : ∀ o, o + 8 ≤ 288 → Stamp (getVal al.endian (slice bs o 8)) →
      Safe (fun _ => True) (b.getDate cfg al.endian o) := by
    intro o ho hst
    unfold Buf.getDate
    rw [hb.getDouble (by omega), Res.ok_bind]
    obtain ⟨t, ht, -⟩ := stamp_shows hst
    rw [ht]
    trivial
  unfold setHeader
  refine Safe.bind (fmtAssert_safe _ _) fun _ _ => Safe.bind (Buf.getByte_safe hd hg (by omega)) fun _ _ =>
    Safe.bind (Buf.getByte_safe hd hg (by omega)) fun x _ => Safe.bind (P := fun _ => True) (by rw [C37']; trivial) fun _ _ =>
    Safe.bind (hs _ _ (by omega)) fun _ _ => Safe.bind (hs _ _ (by omega)) fun _ _ =>
    Safe.bind (hdt _ (by omega) k1) fun _ _ => Safe.bind (hdt _ (by omega) k2) fun _ _ =>
    Safe.bind (Buf.getU32_safe hd hg (by omega)) fun pl hpl =>
    Safe.bind (Buf.getU32_safe hd hg (by omega)) fun _ _ => Safe.bind (hs _ _ (by omega)) fun _ _ =>
    Safe.bind (hs _ _ (by omega)) fun _ _ => Safe.bind (hs _ _ (by omega)) fun _ _ =>
    Safe.bind (Buf.getByte_safe hd hg (by omega)) fun _ _ => ?_
  exact Safe.ite (fun _ => Safe.bind (hs _ _ (by omega)) fun _ _ => ⟨rfl, hpl.2⟩)
    (fun _ => Safe.bind (hs _ _ (by omega)) fun _ _ => ⟨rfl, hpl.2⟩)

theorem sub64_short {n : Nat} (h : n < 288) : 2 ^ 63 ≤ sub64 n 288 ∧ w64 (288 + sub64 n 288) = n := by
  unfold sub64 w64
  omega

theorem sub64_long {n : Nat} (h : 288 ≤ n) (h' : n < 2 ^ 32) : sub64 n 288 = n - 288 := by
  unfold sub64
  omega

/-- A header that announces less than 288 bytes. -/
theorem headerRead_short (cfg : Cfg) {b : Buf} {bs : List Byte} (hh : b.Holds bs) (hlen : bs.length = 288)
    (s : IFStream) {hl n : Nat} (hshort : hl < 288) (hbig : 2 ^ 63 ≤ n) (hw : w64 (288 + n) = hl) :
    ∃ b' s', Buf.readStream cfg ifs b s n 288 = (.ok false, b', s') := by
  have hsize := hh.size
  have hin := hh.good.inside
  obtain ⟨r1, r2⟩ := ifs_read_none s hbig
  unfold Buf.readStream
  rw [hw]
  unfold Buf.resize
  rw [if_neg (by omega)]
  simp only
  rw [r1, r2, if_pos (by rw [List.length_nil]; omega)]
  exact ⟨_, _, rfl⟩

/-- A header that announces at least 288 bytes. -/
theorem headerRead_long (cfg : Cfg) {b : Buf} {bs : List Byte} (hh : b.Holds bs) (hlen : bs.length = 288)
    (s : IFStream) {n : Nat} (hn : 288 + n < 2 ^ 32) :
    (Buf.readStream cfg ifs b s n 288).1 ≠ .error .ub ∧
    ∀ b' s', Buf.readStream cfg ifs b s n 288 = (.ok true, b', s') →
      ∃ rest, b'.Holds (bs ++ rest) ∧ b'.size ≤ 2 ^ 32 := by
  have hsize := hh.size
  obtain ⟨h1, -, h2⟩ := Buf.readStream_safe ifs_lawful cfg hh.good s (len := n) (off := 288) (by omega)
  refine ⟨h1, fun b' s' h => ⟨(ifs.read s n).bytes, ?_, ?_⟩⟩
  · exact Buf.readStream_holds_append (cfg := cfg) (S := ifs) (b' := b') (s' := s')
      (s := s) (len := n) hh (by omega) (fun h => ifs_lawful.full _ _ h) (by rw [hlen]; exact h)
  · rw [h] at h2
    simp only at h2
    omega

/-- The rest of the header is read into the buffer. -/
theorem headerRead_safe (cfg : Cfg) {b : Buf} {bs : List Byte} (hh : b.Holds bs) (hlen : bs.length = 288)
    (s : IFStream) {hl n : Nat} (hhl : hl < 2 ^ 32) (hn : sub64 hl 288 = n) :
    (Buf.readStream cfg ifs b s n 288).1 ≠ .error .ub ∧
    ∀ b' s', Buf.readStream cfg ifs b s n 288 = (.ok true, b', s') →
      ∃ rest, b'.Holds (bs ++ rest) ∧ b'.size ≤ 2 ^ 32 := by
  rcases Nat.lt_or_ge hl 288 with hshort | hshort
  · obtain ⟨hbig, hw⟩ := sub64_short hshort
    rw [hn] at hbig hw
    obtain ⟨b', s', h⟩ := headerRead_short cfg hh hlen s hshort hbig hw
    rw [h]
    exact ⟨(fun h => by cases h), fun b' s' h => by cases h⟩
  · rw [sub64_long hshort hhl] at hn
    exact headerRead_long cfg hh hlen s (by omega)

/-- The header phase of a debug build on a 32-bit file. -/
theorem readHeader_safe {cfg : Cfg} (hd : cfg.debug = true) (data : List Byte) (fault : Option Nat)
    (h32 : data[32]? ≠ some 0x33) (hw : ¬ WildDate data) :
    Safe (fun x => x.1.format = .bit32 ∧ x.1.pageLength < 2 ^ 32 ∧ x.2.1.Good ∧ x.2.1.size ≤ 2 ^ 32)
      (readHeader cfg ifs { IFStream.open data with fault := fault }) := by
  unfold readHeader
  refine Safe.bind (P := fun x => x.1.Holds (data.take 288) ∧ 288 ≤ data.length) ?_ fun x hx => ?_
  · unfold checkHeaderRead
    have h1 := Buf.readStream_safe ifs_lawful cfg Buf.empty_good { IFStream.open data with fault := fault }
      (len := 288) (off := 0) (by omega)
    generalize hr : Buf.readStream cfg ifs Buf.empty { IFStream.open data with fault := fault } 288 0 = y at *
    obtain ⟨r, b, s⟩ := y
    cases r with
    | error e => exact fun h => h1.1 (by rw [h])
    | ok v =>
      cases v with
      | false => exact Stop.noConfusion
      | true =>
        have h2 := Buf.readStream_ok Buf.empty_good (by omega) (ifs_lawful.full _ _) hr
        have h3 := Buf.readStream_holds Buf.empty_good (by omega) (ifs_lawful.full _ _) hr
        have h4 := ifs_read_true h2.2.2.1
        rw [h4.1] at h3
        simp only [IFStream.open, Nat.zero_add] at h3 h4
        rw [slice_zero] at h3
        exact ⟨h3, h4.2⟩
  obtain ⟨b, s⟩ := x
  obtain ⟨hh, hlen⟩ := hx
  simp only at hh ⊢
  have hl288 : (data.take 288).length = 288 := by rw [List.length_take]; omega
  rw [checkMagic_ok hh (by omega)]
  by_cases hm : (data.take 288).take 32 = magic
  swap
  · rw [if_neg hm]; exact Stop.noConfusion
  rw [if_pos hm, Res.ok_bind, setAligns_any hh hl288, Res.ok_bind]
  have e32 : (data.take 288)[32]? ≠ some 0x33 := by rwa [List.getElem?_take, if_pos (by omega)]
  have em : data.take 32 = (data.take 288).take 32 := by rw [List.take_take]; rfl
  simp only [if_neg e32]
  generalize hal : ({ align2 := _, format := _, align1 := _, endian := _ } : Align) = al
  have ha1 : al.align1 = if (data.take 288)[35]? = some 0x33 then 4 else 0 := by rw [← hal]
  have hen : al.endian = if (data.take 288)[37]? = some 1 then .little else .big := by rw [← hal]
  have hfm : al.format = .bit32 := by rw [← hal]
  have hal1 : al.align1 ≤ 4 := by rw [ha1]; split <;> omega
  have hal0 : al.total = al.align1 := by rw [← hal]; rfl
  have hsize : b.size = 288 := by rw [hh.size, hl288]
  have hst : ∀ d ∈ announcedDates (data.take 288), Stamp d := fun d hd' =>
    Classical.byContradiction fun hn => hw ⟨by rw [em]; exact hm, d, hd', hn⟩
  refine Safe.bind (P := fun x => ∃ rest, x.2.1.Holds (data.take 288 ++ rest) ∧ x.2.1.size ≤ 2 ^ 32) ?_ fun x hx => ?_
  · unfold setHeaderLengthAndRead
    refine Safe.bind (Buf.getU32_safe hd hh.good (by omega)) fun hl hhl =>
      Safe.bind (fmtAssert_safe _ _) fun _ _ => ?_
    replace hhl := hhl.2
    generalize hn : sub64 hl 288 = n
    have key := headerRead_safe cfg hh hl288 s hhl hn
    generalize Buf.readStream cfg ifs b s n 288 = y at *
    obtain ⟨r, b', s'⟩ := y
    cases r with
    | error e => exact fun h => key.1 (by rw [h])
    | ok v =>
      cases v with
      | false => exact Stop.noConfusion
      | true => exact key.2 _ _ rfl
  obtain ⟨hl, b', s'⟩ := x
  obtain ⟨rest, hh', hsz⟩ := hx
  simp only at hh' hsz ⊢
  have hdt : ∀ o, o + 12 ≤ 288 → getVal al.endian (slice (data.take 288 ++ rest) (o + al.align1) 8) =
      announcedNumber o 8 (data.take 288) := by
    intro o ho
    rw [← slice_take (k := 288) (l := data.take 288 ++ rest) (by omega),
      List.take_append_of_le_length (by omega), List.take_of_length_le (by omega), hen, ha1, getVal_announcedNumber]
  refine Safe.bind (setHeader_safe hd hh' (by rw [List.length_append]; omega) hal1 (by omega) ?_ ?_) fun h hp =>
    Safe.bind (logHeader_safe _ _) fun _ _ => ⟨by rw [hp.1, hfm], hp.2, hh'.good, hsz⟩
  · rw [hdt 164 (by omega)]; exact hst _ (by simp [announcedDates])
  · rw [hdt 172 (by omega)]; exact hst _ (by simp [announcedDates])

end Sas
