import Verif.Proofs.Terminates
import Verif.Proofs.Files
import Verif.DemoFiles

/-!
# Properties: opening and reading come to an end
-/

namespace Sas.Props

open Sas Sas.Spec

variable {σ : Type}

/-! ## C26: termination

`Stop.fuel` is the outcome of a page loop that is still running after `fuel` pages. A call terminates
when there is an amount of fuel with which that outcome is not reached. -/

/-- C26, for pages that are not empty. From any source that can deliver `left s` more bytes, opening and
then every history of calls terminate: no page loop runs more than `left s + 1` times. What is missing
is the case of files that announce a page length of 0, for which the claim is false
(`C26_refuted`). -/
theorem C26_terminates_partial (cfg : Cfg) (S : Source σ) (left : σ → Nat) (hS : S.Lawful)
    (hF : Finite S left) (filter : Option Filter) (s : σ)
    (hL : announcedPageLength (S.read s 288).bytes ≠ 0) (fuel : Nat) (hfuel : left s < fuel) :
    openReader cfg S fuel filter s ≠ .error .fuel ∧
    ∀ R, openReader cfg S fuel filter s = .ok R → ∀ ops, .error .fuel ∉ (R.run S ops).1 := by
  obtain ⟨h1, h2⟩ := openReader_ends hS hF cfg fuel filter s hL hfuel
  exact ⟨h1, fun R hR ops => Reader.run_terminates hF ops R (h2 R hR)⟩

/-- C26 for files: every byte string that does not announce a page length of 0, whether it is a SAS file
or not, on a device that works or fails anywhere. -/
theorem C26_file_partial (cfg : Cfg) (filter : Option Filter) (data : List Byte) (fault : Option Nat)
    (hL : announcedPageLength (data.take 288) ≠ 0) (fuel : Nat) (hfuel : data.length < fuel) :
    openReader cfg ifs fuel filter { IFStream.open data with fault := fault } ≠ .error .fuel ∧
    ∀ R, openReader cfg ifs fuel filter { IFStream.open data with fault := fault } = .ok R →
      ∀ ops, .error .fuel ∉ (R.run ifs ops).1 := by
  by_cases hok : (ifs.read { IFStream.open data with fault := fault } 288).ok = true
  · refine C26_terminates_partial cfg ifs _ ifs_lawful ifs_finite filter _ ?_ fuel (by simpa [IFStream.open] using hfuel)
    have : (ifs.read { IFStream.open data with fault := fault } 288).bytes = data.take 288 := by
      have hp : ∀ s : IFStream, s.pos = 0 → (s.readPlain 288).ok = true →
          (s.readPlain 288).bytes = s.data.take 288 := by
        intro s h0 h1
        unfold IFStream.readPlain at h1 ⊢
        rw [h0] at h1 ⊢
        split at h1
        · rw [if_pos (by assumption)]; exact slice_zero
        · cases h1
      simp only [ifs, IFStream.open, IFStream.read, Bool.or_self, Bool.false_eq_true, if_false] at hok ⊢
      rw [if_neg (by decide)] at hok ⊢
      cases fault with
      | none => exact hp _ rfl hok
      | some k =>
        simp only at hok ⊢
        split at hok
        · cases hok
        · rename_i hc; rw [if_neg hc]; exact hp _ rfl hok
    rw [this]
    exact hL
  · have : ∀ e, openReader cfg ifs fuel filter { IFStream.open data with fault := fault } ≠ .ok e := by
      intro R hR
      unfold openReader at hR
      obtain ⟨⟨h, b, s'⟩, hr, -⟩ := bind_ok_inv hR
      exact hok (readHeader_ok ifs_lawful hr).2.1
    refine ⟨fun he => ?_, fun R hR => absurd hR (this R)⟩
    unfold openReader at he
    cases hr : readHeader cfg ifs { IFStream.open data with fault := fault } with
    | error e => rw [hr] at he; cases he; exact readHeader_notFuel hr
    | ok x => obtain ⟨h, b, s'⟩ := x; exact hok (readHeader_ok ifs_lawful hr).2.1

/-- The demonstration file: it announces pages of 900 bytes, and opening it and calling the reader ends. -/
example : openReader Demo.cfg ifs 5000 none (IFStream.open Demo.file) ≠ .error .fuel ∧
    ∀ R, openReader Demo.cfg ifs 5000 none (IFStream.open Demo.file) = .ok R →
      ∀ ops, .error .fuel ∉ (R.run ifs ops).1 :=
  C26_file_partial Demo.cfg none Demo.file none (by decide +kernel) 5000 (by decide +kernel)
example : announcedPageLength (Demo.file.take 288) = 900 := by decide +kernel
example : ∃ R, openReader Demo.cfg ifs 5000 none (IFStream.open Demo.file) = .ok R := by
  have : (openReader Demo.cfg ifs 5000 none (IFStream.open Demo.file)).toOption.isSome = true := by
    decide +kernel
  cases h : openReader Demo.cfg ifs 5000 none (IFStream.open Demo.file) with
  | ok R => exact ⟨R, rfl⟩
  | error e => rw [h] at this; cases this

/-- One turn of the page loop of a release build on empty pages: nothing changes. -/
theorem readPage_empty {env : Env} (hd : env.cfg.debug = false) (hL : env.pageLength = 0) {data : List Byte}
    {pos : Nat} (hpos : pos ≤ data.length) {b : Buf} {bs : List Byte} (hb : b.mem.take 288 = bs)
    (hlen : bs.length = 288) (hdr : PageHdr) :
    ∃ b' h', readPage env ifs ⟨⟨data, pos, false, false, none⟩, b, hdr⟩ =
        (.ok true, ⟨⟨data, pos, false, false, none⟩, b', h'⟩) ∧ b'.mem.take 288 = bs ∧
      h'.type = getVal env.endian (slice bs env.format.pbo 2) := by
  have hmem : 288 ≤ b.mem.length := by
    have := congrArg List.length hb
    rw [List.length_take, hlen] at this; omega
  have hrd : ∀ o, o + 2 ≤ 288 → (⟨b.mem, 0⟩ : Buf).rd env.cfg o 2 = .ok (slice bs o 2) := by
    intro o ho
    unfold Buf.rd
    rw [hd, Bool.false_and, if_neg (by simp), if_pos (by simp only; omega), ← hb, slice_take ho]
  have hpbo : env.format.pbo + 4 + 2 ≤ 288 := by unfold Format.pbo; split <;> omega
  have hrs : Buf.readStream env.cfg ifs b ⟨data, pos, false, false, none⟩ env.pageLength 0 =
      (.ok true, ⟨b.mem, 0⟩, ⟨data, pos, false, false, none⟩) := by
    unfold Buf.readStream
    rw [hL]
    have hr : b.resize env.cfg (w64 (0 + 0)) = .ok ⟨b.mem, 0⟩ := by
      unfold Buf.resize
      rw [show w64 (0 + 0) = 0 from rfl, if_neg (by omega)]
    rw [hr, ifs_read_ok (by omega) (by decide)]
    simp [writeAt, slice]
  refine ⟨⟨b.mem, 0⟩, ⟨getVal env.endian (slice bs env.format.pbo 2),
    getVal env.endian (slice bs (env.format.pbo + 2) 2), getVal env.endian (slice bs (env.format.pbo + 4) 2)⟩,
    ?_, hb, rfl⟩
  unfold readPage
  rw [hrs]
  have hph : getPageHeader env ⟨b.mem, 0⟩ = .ok ⟨getVal env.endian (slice bs env.format.pbo 2),
    getVal env.endian (slice bs (env.format.pbo + 2) 2), getVal env.endian (slice bs (env.format.pbo + 4) 2)⟩ := by
    unfold getPageHeader Buf.getU16
    rw [Nat.add_zero, hrd _ (by omega), hrd _ (by omega), hrd _ (by omega)]
    rfl
  simp only [hph, ifs, IFStream.eof]
  rfl

/-- C26 is false: in a release build, opening any file with a regular header that announces pages of
length 0 never ends, however many turns (`fuel`) the page loop is given. -/
theorem C26_refuted (cfg : Cfg) (hd : cfg.debug = false) (filter : Option Filter) (h : FileHeader)
    (bs rest : List Byte) (hl : HeaderLayout h bs) (hmem : h.headerLength ≤ cfg.maxAlloc)
    (hL : h.pageLength = 0) (fuel : Nat) :
    openReader cfg ifs fuel filter (IFStream.open (bs ++ rest)) = .error .fuel := by
  have hlong := hl.long
  have hlen := hl.length
  obtain ⟨-, -, s3, -, -⟩ := hl.sizes
  have r1 : ifs.read (IFStream.open (bs ++ rest)) 288 =
      ⟨⟨bs ++ rest, 288, false, false, none⟩, bs.take 288, true⟩ := by
    rw [IFStream.open, ifs_read_ok (by rw [List.length_append]; omega) (by omega), slice_zero_append (by omega)]
  have r2 : ifs.read ⟨bs ++ rest, 288, false, false, none⟩ (h.headerLength - 288) =
      ⟨⟨bs ++ rest, bs.length, false, false, none⟩, bs.drop 288, true⟩ := by
    rw [ifs_read_ok (by rw [List.length_append]; omega) (by omega),
      slice_mid_append (by omega) (by omega), show 288 + (h.headerLength - 288) = bs.length by omega]
  obtain ⟨b, hb, hold⟩ := readHeader_loggable (cfg := cfg) hl hmem (fun h => by rw [hd] at h; cases h) r1 r2
  unfold openReader
  rw [hb, Res.ok_bind]
  simp only
  generalize he : ({ cfg := cfg, endian := h.reported.endian, format := h.reported.format
                     pageLength := h.reported.pageLength, fuel := fuel } : Env) = env
  have ed : env.cfg.debug = false := by rw [← he]; exact hd
  have eL : env.pageLength = 0 := by rw [← he]; exact hL
  have ef : env.format = if h.wide then .bit64 else .bit32 := by rw [← he]; rfl
  -- what the page loop takes for the type of the page is never the type of a page
  have hty : ∀ t, t = getVal env.endian (slice (bs.take 288) env.format.pbo 2) →
      isPageMetaMixAmd t = false ∧ isPageDataMix t = false := by
    intro t ht
    have hx : ∃ x y : Byte, x.toNat ∉ [0, 1, 2, 4] ∧ x.toNat ≠ 128 ∧ 
        slice (bs.take 288) env.format.pbo 2 = [x, y] := by
      rw [ef]
      cases hw : h.wide with
      | true =>
        have h32 := hl.wide.mpr hw
        refine ⟨0x33, bs[33], by decide, by decide, ?_⟩
        have hlt : 32 < bs.length := by omega
        have h32' : bs[32] = 0x33 := by
          rw [List.getElem?_eq_getElem hlt] at h32; simpa using h32
        show slice (bs.take 288) 32 2 = _
        rw [slice_take (by omega)]
        unfold slice
        rw [List.drop_eq_getElem_cons hlt, List.drop_eq_getElem_cons (by omega), h32']
        rfl
      | false =>
        refine ⟨0xb3, 0x14, by decide, by decide, ?_⟩
        show slice (bs.take 288) 16 2 = _
        rw [slice_take (by omega), ← slice_take (k := 32) (by omega), hl.magic]
        decide +kernel
    obtain ⟨x, y, hx1, hx2, hx3⟩ := hx
    have hxl := x.toNat_lt
    have hyl := y.toNat_lt
    have hv : t % 256 = x.toNat ∨ t / 256 = x.toNat := by
      rw [ht, hx3]
      cases env.endian <;> simp [getVal, natLE] <;> omega
    have hne : t ≠ 0 ∧ t ≠ 256 ∧ t ≠ 512 ∧ t ≠ 640 ∧ t ≠ 1024 := by
      simp only [List.mem_cons, List.not_mem_nil, or_false, not_or] at hx1
      omega
    simp [isPageMetaMixAmd, isPageDataMix, isPageMix, pageMeta, pageAmd, pageData, pageMix1, pageMix2, hne]
  have key : ∀ (n : Nat) (b : Buf) (hdr : PageHdr) (acc : Acc), b.mem.take 288 = bs.take 288 →
      metaLoop env ifs n ⟨⟨bs ++ rest, bs.length, false, false, none⟩, b, hdr⟩ acc = .error .fuel := by
    intro n
    induction n with
    | zero => intro b hdr acc _; rfl
    | succ n ih =>
      intro b hdr acc hmb
      obtain ⟨b', h', e1, e2, e3⟩ := readPage_empty (env := env) ed eL
          (data := bs ++ rest) (pos := bs.length) (by rw [List.length_append]; omega) hmb
          (by rw [List.length_take]; omega) hdr
      obtain ⟨t1, t2⟩ := hty _ e3
      have hpp : processPage env b' h' acc = .ok (acc, false) := by
        unfold processPage
        rw [t1, t2]
        rfl
      unfold metaLoop
      rw [e1]
      simp only
      rw [hpp, Res.ok_bind]
      exact ih b' h' acc e2
  have hfirst : b.mem.take 288 = bs.take 288 := by
    have h1 := congrArg (List.take 288) hold.eq
    rw [List.take_take, hold.size, Nat.min_eq_left (by omega)] at h1
    exact h1
  rw [key fuel b PageHdr.reset {} hfirst]
  rfl

/-- The header of a file that announces pages of length 0. -/
def emptyPagesHeader : FileHeader := { demoHeader with pageLength := 0 }

theorem emptyPagesHeader_layout : HeaderLayout emptyPagesHeader (Demo.header 0 4) where
  length := by decide +kernel
  long := by decide +kernel
  magic := by decide +kernel
  wide := by decide +kernel
  padded := by decide +kernel
  endian := by decide +kernel
  unix := by decide +kernel
  windows := by decide +kernel
  encoding := by decide +kernel
  datasetName := TextField.intro (List.replicate 60 0) (by decide +kernel) (by decide +kernel)
    (by decide +kernel) (by decide +kernel)
  fileType := TextField.intro (List.replicate 4 0) (by decide +kernel) (by decide +kernel)
    (by decide +kernel) (by decide +kernel)
  created := by decide +kernel
  modified := by decide +kernel
  headerLength := by decide +kernel
  pageLength := by decide +kernel
  pageCount := by decide +kernel
  sasRelease := TextField.intro [] (by decide +kernel) (by decide +kernel)
    (by decide +kernel) (by decide +kernel)
  serverType := TextField.intro (List.replicate 6 0) (by decide +kernel) (by decide +kernel)
    (by decide +kernel) (by decide +kernel)
  osType := TextField.intro (List.replicate 16 0) (by decide +kernel) (by decide +kernel)
    (by decide +kernel) (by decide +kernel)
  osName := TextField.intro (List.replicate 11 0) (by decide +kernel) (by decide +kernel)
    (by decide +kernel) (by decide +kernel)
  stamps := ⟨stamp_zero, stamp_zero⟩
  sizes := by decide +kernel

example (fuel : Nat) (rest : List Byte) :
    openReader Demo.cfg ifs fuel none (IFStream.open (Demo.header 0 4 ++ rest)) = .error .fuel :=
  C26_refuted Demo.cfg rfl none emptyPagesHeader _ rest emptyPagesHeader_layout (by decide +kernel) rfl fuel

end Sas.Props
