import Verif.Proofs.Terminates
import Verif.Proofs.Files

/-! When the header phase of a release build crashes. -/

namespace Sas

open Spec

/-- `set_aligns_endianness` on any 288 bytes. -/
theorem setAligns_any {cfg : Cfg} {b : Buf} {bs : List Byte} (hb : b.Holds bs) (hlen : bs.length = 288) :
    setAligns cfg b = .ok { align2 := if bs[32]? = some 0x33 then 4 else 0
                            format := if bs[32]? = some 0x33 then .bit64 else .bit32
                            align1 := if bs[35]? = some 0x33 then 4 else 0
                            endian := if bs[37]? = some 1 then .little else .big } := by
  have hget : ∀ i, i < 288 → ∃ x, bs[i]? = some x := fun i hi =>
    ⟨bs[i], List.getElem?_eq_getElem (by omega)⟩
  obtain ⟨x32, h32⟩ := hget 32 (by omega)
  obtain ⟨x35, h35⟩ := hget 35 (by omega)
  obtain ⟨x37, h37⟩ := hget 37 (by omega)
  unfold setAligns
  rw [hb.getByte h32, hb.getByte h35, hb.getByte h37, h32, h35, h37]
  simp only [Option.some.injEq]
  rfl

theorem getVal_announcedNumber {bs : List Byte} {o w : Nat} :
    getVal (if bs[37]? = some 1 then .little else .big)
      (slice bs (o + if bs[35]? = some 0x33 then 4 else 0) w) = announcedNumber o w bs := by
  rw [getVal_foldl]
  unfold announcedNumber slice
  by_cases c1 : bs[35]? = some 0x33 <;> by_cases c2 : bs[37]? = some 1 <;> simp [c1, c2]

/-- `set_header` in a release build on a buffer of at least 288 bytes. -/
theorem setHeader_any {cfg : Cfg} (ha : cfg.asserts = false) (hd : cfg.debug = false) {al : Align} {hl : Nat}
    {b : Buf} {bs : List Byte} (hb : b.Holds bs) (hlen : 288 ≤ bs.length) (h1 : al.align1 ≤ 4) (h2 : al.total ≤ 8) 
    (hex : b.mem.length = bs.length) :
    (bs.length < 288 + al.total ∧ bs[272 + al.total]? ≠ some 0 → setHeader cfg al hl b = .error .ub) ∧
    (¬ (bs.length < 288 + al.total ∧ bs[272 + al.total]? ≠ some 0) →
      Stamp (getVal al.endian (slice bs (164 + al.align1) 8)) →
      Stamp (getVal al.endian (slice bs (172 + al.align1) 8)) → ∃ h, setHeader cfg al hl b = .ok h) ∧
    ((∃ s, Dbl.ofBits (getVal al.endian (slice bs (164 + al.align1) 8)) = .inf s) ∨
      (∃ s, Dbl.ofBits (getVal al.endian (slice bs (172 + al.align1) 8)) = .inf s) →
      setHeader cfg al hl b = .error .ub) := by
  obtain ⟨x39, h39⟩ : ∃ x, bs[39]? = some x := ⟨bs[39], List.getElem?_eq_getElem (by omega)⟩
  obtain ⟨x70, h70⟩ : ∃ x, bs[70]? = some x := ⟨bs[70], List.getElem?_eq_getElem (by omega)⟩
  obtain ⟨xn, hn⟩ : ∃ x, bs[272 + al.total]? = some x :=
    ⟨bs[272 + al.total], List.getElem?_eq_getElem (by omega)⟩
  have hfa : ∀ c, fmtAssert cfg c = .ok () := by intro c; simp [fmtAssert, ha]
  unfold setHeader
  rw [hfa]
  rw [hb.getByte h39, hb.getByte h70, hb.getString (by omega), hb.getString (by omega),
    hb.getU32 (by omega), hb.getU32 (by omega),
    hb.getString (by omega), hb.getString (by omega), hb.getString (by omega), hb.getByte hn, hn]
  simp only [Res.ok_bind, C37']
  unfold Buf.getDate
  rw [hb.getDouble (by omega), hb.getDouble (by omega), Res.ok_bind, Res.ok_bind]
  have g1 := datetimeFromEpoch_errs (Dbl.ofBits (getVal al.endian (slice bs (164 + al.align1) 8)))
  have g2 := datetimeFromEpoch_errs (Dbl.ofBits (getVal al.endian (slice bs (172 + al.align1) 8)))
  have i1 : ∀ s, datetimeFromEpoch (.inf s) = .error .ub := fun _ => rfl
  have k1 := fun h => stamp_shows (bits := getVal al.endian (slice bs (164 + al.align1) 8)) h
  have k2 := fun h => stamp_shows (bits := getVal al.endian (slice bs (172 + al.align1) 8)) h
  generalize getVal al.endian (slice bs (164 + al.align1) 8) = d1 at *
  generalize getVal al.endian (slice bs (172 + al.align1) 8) = d2 at *
  cases hd1 : datetimeFromEpoch (Dbl.ofBits d1) with
  | error e =>
    cases g1 _ hd1
    refine ⟨fun _ => rfl, fun _ h _ => ?_, fun _ => rfl⟩
    obtain ⟨t, ht, -⟩ := k1 h
    rw [hd1] at ht
    cases ht
  | ok t1 =>
  cases hd2 : datetimeFromEpoch (Dbl.ofBits d2) with
  | error e =>
    cases g2 _ hd2
    refine ⟨fun _ => rfl, fun _ _ h => ?_, fun _ => rfl⟩
    obtain ⟨t, ht, -⟩ := k2 h
    rw [hd2] at ht
    cases ht
  | ok t2 =>
  simp only [Res.ok_bind]
  refine ⟨?_, ?_, ?_⟩
  · rintro ⟨h3, h4⟩
    have hz : xn ≠ 0 := fun h => h4 (by rw [h])
    rw [if_pos hz]
    have : b.getString cfg (272 + al.total) 16 = .error .ub := by
      unfold Buf.getString Buf.rd
      rw [hd, Bool.false_and, if_neg (by simp), if_neg (by omega)]
      rfl
    rw [this]
    rfl
  · intro h3 _ _
    by_cases hz : xn = 0
    · rw [if_neg (by simpa using hz), hb.getString (by omega)]
      exact ⟨_, rfl⟩
    · rw [if_pos hz, hb.getString (by
        by_cases h : bs.length < 288 + al.total
        · exact absurd ⟨h, by simpa using hz⟩ h3
        · omega)]
      exact ⟨_, rfl⟩
  · rintro (⟨s, hs⟩ | ⟨s, hs⟩)
    · rw [hs, i1] at hd1; cases hd1
    · rw [hs, i1] at hd2; cases hd2

theorem Buf.readStream_exact {σ : Type} {cfg : Cfg} {S : Source σ} {b b' : Buf} {s s' : σ} {len : Nat}
    (hg : b.mem.length = b.size) (hsum : b.size + len < 2 ^ 64)
    (h : Buf.readStream cfg S b s len b.size = (.ok true, b', s')) : b'.mem.length = b.size + len := by
  unfold Buf.readStream at h
  have hw : w64 (b.size + len) = b.size + len := Nat.mod_eq_of_lt hsum
  rw [hw] at h
  split at h
  · cases h
  · rename_i b1 hb1
    have h1 : b1.mem.length = b.size + len := by
      unfold Buf.resize at hb1
      split at hb1
      · split at hb1
        · cases hb1
          simp only [List.length_append, List.length_take, freshMem_length]
          omega
        · cases hb1
      · cases hb1; simp only; omega
    simp only at h
    split at h
    · simp only [Prod.mk.injEq] at h
      obtain ⟨_, h2, _⟩ := h
      subst h2
      simp only [writeAt, List.length_append, List.length_take, List.length_drop]
      omega
    · cases h

theorem natLE_lt (bs : List Byte) : natLE bs < 256 ^ bs.length := by
  induction bs with
  | nil => simp [natLE]
  | cons b bs ih =>
    have := b.toNat_lt
    simp only [natLE, List.length_cons, Nat.pow_succ]
    omega

theorem getVal_lt (e : Endian) (bs : List Byte) : getVal e bs < 256 ^ bs.length := by
  cases e with
  | little => exact natLE_lt bs
  | big => have := natLE_lt bs.reverse; rwa [List.length_reverse] at this

theorem announcedNumber_lt (o : Nat) (bs : List Byte) : announcedNumber o 4 bs < 2 ^ 32 := by
  rw [← getVal_announcedNumber]
  refine Nat.lt_of_lt_of_le (getVal_lt _ _) ?_
  have h5 : (slice bs (o + if bs[35]? = some 0x33 then 4 else 0) 4).length ≤ 4 := by
    unfold slice; rw [List.length_take]; omega
  have := Nat.pow_le_pow_right (n := 256) (by omega) h5
  omega

theorem ifs_read_huge {data : List Byte} {pos n : Nat} (h : 2 ^ 63 ≤ n) :
    ifs.read ⟨data, pos, false, false, none⟩ n = ⟨⟨data, pos, true, true, none⟩, [], false⟩ := by
  simp only [ifs, IFStream.read, Bool.or_self, Bool.false_eq_true, if_false]
  rw [if_pos h]

/-- The header phase of a release build on a file that works. -/
theorem readHeader_file {cfg : Cfg} (ha : cfg.asserts = false) (hd : cfg.debug = false)
    (hmem : 288 ≤ cfg.maxAlloc) (data : List Byte) :
    (HeaderOverrun data → announcedHeaderLength (data.take 288) ≤ cfg.maxAlloc →
      readHeader cfg ifs (IFStream.open data) = .error .ub) ∧
    (¬ HeaderOverrun data → ¬ WildDate data → ∀ e, readHeader cfg ifs (IFStream.open data) = .error e → ¬ Crash e) ∧
    (data.take 32 = magic → 288 ≤ announcedHeaderLength (data.take 288) →
      announcedHeaderLength (data.take 288) ≤ data.length → announcedHeaderLength (data.take 288) ≤ cfg.maxAlloc →
      (∃ d ∈ announcedDates (data.take 288), ∃ s, Dbl.ofBits d = .inf s) →
      readHeader cfg ifs (IFStream.open data) = .error .ub) ∧
    (∀ h b s', readHeader cfg ifs (IFStream.open data) = .ok (h, b, s') →
      s' = ⟨data, announcedHeaderLength (data.take 288), false, false, none⟩ ∧ b.Good ∧
      announcedHeaderLength (data.take 288) ≤ data.length) := by
  by_cases hlen : data.length < 288
  · have hr : readHeader cfg ifs (IFStream.open data) = .error (.exn .headerTooShort) := by
      have h := ifs_read_short (data := data) (pos := 0) (n := 288) (by omega) (by omega) (by omega)
      obtain ⟨b, hb, -⟩ := Buf.readStream_fail (cfg := cfg) (S := ifs) (b := Buf.empty)
        (s := IFStream.open data) (len := 288)
        (off := 0) Buf.empty_good (by omega) (.inl (by omega)) (by rw [IFStream.open, h]) (ifs_lawful.le _ 288)
      have : checkHeaderRead cfg ifs (IFStream.open data) = .error (.exn .headerTooShort) := by
        unfold checkHeaderRead; rw [hb]
      unfold readHeader
      rw [this]
      rfl
    refine ⟨fun ho => ?_, fun _ _ e he => ?_, fun _ h1 h2 => by omega, fun h b s' h' => by rw [hr] at h'; cases h'⟩
    · obtain ⟨_, h1, h2, _⟩ := ho
      omega
    · rw [hr] at he; cases he; simp [Crash]
  · have hr := ifs_read_ok (data := data) (pos := 0) (n := 288) (by omega) (by omega)
    rw [slice_zero] at hr
    have hl288 : (data.take 288).length = 288 := by rw [List.length_take]; omega
    have e32 : data[32]? = (data.take 288)[32]? := by rw [List.getElem?_take, if_pos (by omega)]
    have e35 : data[35]? = (data.take 288)[35]? := by rw [List.getElem?_take, if_pos (by omega)]
    have em : data.take 32 = (data.take 288).take 32 := by rw [List.take_take]; rfl
    unfold HeaderOverrun WildDate
    rw [e32, e35, em]
    obtain ⟨b1, hb1⟩ := Buf.readStream_succ (cfg := cfg) (S := ifs) (b := Buf.empty)
      (s := IFStream.open data) (len := 288)
      (off := 0) Buf.empty_good (by omega) (.inl (by omega)) (by rw [IFStream.open, hr])
      (by rw [IFStream.open, hr]; exact hl288)
    have hh1 := Buf.readStream_holds Buf.empty_good (by omega) (fun h => ifs_lawful.full _ _ h) hb1
    have hx1 : b1.mem.length = 0 + 288 :=
      Buf.readStream_exact (b := Buf.empty) rfl (by simp [Buf.empty]) hb1
    rw [IFStream.open, hr] at hb1 hh1
    simp only at hb1 hh1
    have hc : checkHeaderRead cfg ifs (IFStream.open data) =
        .ok (b1, ⟨data, 288, false, false, none⟩) := by
      unfold checkHeaderRead; rw [IFStream.open, hb1]
    unfold readHeader
    rw [hc, Res.ok_bind]
    simp only
    rw [checkMagic_ok hh1 (by omega)]
    by_cases hm : (data.take 288).take 32 = magic
    · rw [if_pos hm, Res.ok_bind, setAligns_any hh1 hl288, Res.ok_bind]
      generalize hal : ({ align2 := _, format := _, align1 := _, endian := _ } : Align) = al
      have ha1 : al.align1 = if (data.take 288)[35]? = some 0x33 then 4 else 0 := by rw [← hal]
      have hen : al.endian = if (data.take 288)[37]? = some 1 then .little else .big := by rw [← hal]
      have hat : al.total = (if (data.take 288)[35]? = some 0x33 then 4 else 0) +
          (if (data.take 288)[32]? = some 0x33 then 4 else 0) := by rw [← hal]; rfl
      have hal1 : al.align1 ≤ 4 := by rw [ha1]; split <;> omega
      have halt : al.total ≤ 8 := by rw [hat]; split <;> split <;> omega
      rw [← hat]
      have hu : ∀ o, o + al.align1 + 4 ≤ 288 →
          b1.getU32 cfg al.endian (o + al.align1) = .ok (announcedNumber o 4 (data.take 288)) := by
        intro o ho
        rw [hh1.getU32 (by omega), hen, ha1, getVal_announcedNumber]
      have hlt : announcedHeaderLength (data.take 288) < 2 ^ 32 := announcedNumber_lt _ _
      unfold setHeaderLengthAndRead
      rw [hu 196 (by omega)]
      have hfa : ∀ c, fmtAssert cfg c = .ok () := by intro c; simp [fmtAssert, ha]
      rw [Res.ok_bind, hfa, Res.ok_bind]
      show _ ∧ _ ∧ _ ∧ _
      rw [show announcedNumber 196 4 (data.take 288) = announcedHeaderLength (data.take 288) from rfl]
      generalize hhl : announcedHeaderLength (data.take 288) = hl at *
      have hb1s : b1.size = 288 := by rw [hh1.size, hl288]
      by_cases hshort : hl < 288
      · obtain ⟨n, hn⟩ : ∃ n, sub64 hl 288 = n := ⟨_, rfl⟩
        have hbig : 2 ^ 63 ≤ n := by rw [← hn]; unfold sub64; omega
        have hw : w64 (288 + n) = hl := by rw [← hn]; unfold sub64 w64; omega
        rw [hn]
        have hrs : Buf.readStream cfg ifs b1 ⟨data, 288, false, false, none⟩ n 288 =
            (.ok false, { b1 with size := hl, mem := writeAt b1.mem 288 [] }, ⟨data, 288, true, true, none⟩) := by
          unfold Buf.readStream
          have hrz : b1.resize cfg hl = .ok { b1 with size := hl } := by
            unfold Buf.resize; rw [if_neg (by omega)]
          rw [hw, hrz, ifs_read_huge hbig]
          simp only [List.length_nil, Nat.add_zero]
          rw [if_pos (by omega)]
        rw [hrs]
        refine ⟨fun ho => by omega, fun _ _ e he => ?_, fun _ h1 h2 => by omega, fun h b s' h' => by cases h'⟩
        cases he; simp [Crash]
      · have hsub : sub64 hl 288 = hl - 288 := by unfold sub64; omega
        rw [hsub]
        by_cases hall : 288 + (hl - 288) ≤ cfg.maxAlloc ∨ 288 + (hl - 288) ≤ b1.size
        · by_cases hfile : data.length < hl
          · obtain ⟨b2, hb2, -⟩ := Buf.readStream_fail (cfg := cfg) (S := ifs) (b := b1)
              (s := ⟨data, 288, false, false, none⟩) (len := hl - 288) (off := 288) hh1.good (by omega) hall
              (by rw [ifs_read_short (by omega) (by omega) (by omega)]) (ifs_lawful.le _ _)
            rw [hb2]
            refine ⟨fun ho => by omega, fun _ _ e he => ?_, fun _ h1 h2 => by omega, fun h b s' h' => by cases h'⟩
            cases he; simp [Crash]
          · have hread := ifs_read_ok (data := data) (pos := 288) (n := hl - 288) (by omega) (by omega)
            obtain ⟨b2, hb2⟩ := Buf.readStream_succ (cfg := cfg) (S := ifs) (b := b1)
              (s := ⟨data, 288, false, false, none⟩) (len := hl - 288) (off := 288) hh1.good (by omega) hall
              (by rw [hread]) (ifs_lawful.full _ _ (by rw [hread]))
            have hh2 := Buf.readStream_holds_append (cfg := cfg) (S := ifs) (b' := b2)
              (s := ⟨data, 288, false, false, none⟩) (len := hl - 288) hh1 (by rw [hl288]; omega)
              (fun h => ifs_lawful.full _ _ h) (by rw [hl288]; exact hb2)
            have hx2 : b2.mem.length = b1.size + (hl - 288) :=
              Buf.readStream_exact (by omega) (by omega)
                (by rw [hb1s]; exact hb2)
            have hbs : data.take 288 ++ (ifs.read ⟨data, 288, false, false, none⟩ (hl - 288)).bytes =
                data.take hl := by
              rw [hread]
              simp only [slice]
              rw [← List.take_add, Nat.add_sub_cancel' (by omega)]
            rw [hbs] at hh2
            have hlhl : (data.take hl).length = hl := by rw [List.length_take]; omega
            rw [hb2]
            simp only [Res.ok_bind]
            have en : (data.take hl)[272 + al.total]? = data[272 + al.total]? := by
              rw [List.getElem?_take, if_pos (by omega)]
            have hdt : ∀ o, o + 12 ≤ 288 → getVal al.endian (slice (data.take hl) (o + al.align1) 8) =
                announcedNumber o 8 (data.take 288) := by
              intro o ho
              rw [← slice_take (k := 288) (l := data.take hl) (by omega), List.take_take,
                Nat.min_eq_left (by omega), hen, ha1, getVal_announcedNumber]
            obtain ⟨k1, k2, k3⟩ := setHeader_any (cfg := cfg) ha hd (al := al) (hl := hl) hh2 (by omega) hal1 halt
              (by omega)
            rw [hlhl, en] at k1 k2
            rw [hdt 164 (by omega), hdt 172 (by omega)] at k2 k3
            refine ⟨fun ho _ => ?_, fun ho hw e he => ?_, fun _ _ _ _ hi => ?_, fun h b s' h' => ?_⟩
            · rw [k1 ⟨ho.2.2.2.1, ho.2.2.2.2⟩]; rfl
            · have hst : ∀ d ∈ announcedDates (data.take 288), Stamp d := fun d hd' =>
                Classical.byContradiction fun hn => hw ⟨hm, d, hd', hn⟩
              obtain ⟨h, hh⟩ := k2 (fun hk => ho ⟨hm, by omega, by omega, hk.1, hk.2⟩)
                (hst _ (by simp [announcedDates])) (hst _ (by simp [announcedDates]))
              rw [hh, Res.ok_bind] at he
              unfold logHeader at he
              rw [hd] at he
              cases he
            · rw [k3 (by simpa [announcedDates] using hi)]
              rfl
            · obtain ⟨h0, hh0, h'⟩ := bind_ok_inv h'
              obtain ⟨-, -, h'⟩ := bind_ok_inv h'
              cases h'
              rw [hread]
              exact ⟨by simp only; rw [Nat.add_sub_cancel' (by omega)], hh2.good, by omega⟩
        · have hrs : (Buf.readStream cfg ifs b1 ⟨data, 288, false, false, none⟩ (hl - 288) 288) =
              (.error (.exn .badAlloc), b1, ⟨data, 288, false, false, none⟩) := by
            unfold Buf.readStream
            have hw : w64 (288 + (hl - 288)) = hl := by unfold w64; omega
            have hrz : b1.resize cfg hl = .error (.exn .badAlloc) := by
              unfold Buf.resize; rw [if_pos (by omega), if_neg (by omega)]
            rw [hw, hrz]
          rw [hrs]
          refine ⟨fun ho hma => by omega, fun _ _ e he => ?_, fun _ h1 h2 h3 => by omega, fun h b s' h' => by cases h'⟩
          cases he; simp [Crash]
    · rw [if_neg hm]
      refine ⟨fun ho => absurd ho.1 hm, fun _ _ e he => ?_, fun h => absurd h hm, fun h b s' h' => by cases h'⟩
      cases he; simp [Crash]

end Sas
