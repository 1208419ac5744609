import Verif.Proofs.Safety
import Verif.DemoFiles

/-!
# Properties: what malformed files do
-/

namespace Sas.Props

open Sas Sas.Spec

/-! ## C25: malformed files and exceptions -/

/-- A file whose only page points to a subheader outside the page. -/
def outsideFile : List Byte := Demo.header 900 1 ++ Demo.page 900 0 0 [(890, 100, 0, 0)] []

/-- A padded file whose header has only 288 bytes although its last text, which is not empty, is 16 bytes
long and starts at 276. -/
def shortHeaderFile : List Byte :=
  Demo.place 288 0 [(0, magicNumber), (32, [0x22]), (35, [0x33]), (37, [0x01]), (200, Demo.le 4 288),
    (204, Demo.le 4 900), (276, [0x4C])]

/-- A 64-bit file with one subheader whose offset and length add up to 2^64 + 8, which the bounds check
takes for 8. -/
def wrapFile : List Byte :=
  Demo.place 296 0 [(0, magicNumber), (32, [0x33]), (35, [0x22]), (37, [0x01]), (196, Demo.le 4 296),
    (200, Demo.le 4 900), (204, Demo.le 4 1)] ++
  Demo.place 900 0 [(32, Demo.le 2 0 ++ Demo.le 2 0 ++ Demo.le 2 1 ++ Demo.le 2 0 ++
    Demo.le 8 (2 ^ 64 - 8) ++ Demo.le 8 16)]

/-- A file whose data page claims 100 rows of 14 bytes but has room for 62. -/
def crowdedFile : List Byte :=
  Demo.header 900 2 ++ Demo.metaPage 0 14 100 0 (ascii "        ") [] [] ++ Demo.page 900 256 100 [] []

/-- C25 is false. Opening a malformed file can terminate the process and can read outside the buffers,
both in a release build; the bounds checks of a debug build do not prevent the latter; and a file that
opens can make a later call read outside the buffers. -/
theorem C25_refuted :
    openReader Demo.cfg ifs 9 none (IFStream.open outsideFile) = .error .terminate ∧
    openReader Demo.cfg ifs 9 none (IFStream.open shortHeaderFile) = .error .ub ∧
    openReader { Demo.cfg with debug := true } ifs 9 none (IFStream.open wrapFile) = .error .ub ∧
    ∃ R, openReader Demo.cfg ifs 9 none (IFStream.open crowdedFile) = .ok R ∧
      (R.run ifs [.skip 62, .readRow]).1 = [.ok (.bool true), .error .ub] := by
  have he : ∀ {α : Type} (x : Res α) (e : Stop), 
      (match x with | .error e' => decide (e' = e) | .ok _ => false) = true → x = .error e := by
    intro α x e h
    cases x with
    | ok a => cases h
    | error e' => rw [of_decide_eq_true h]
  refine ⟨he _ _ (by decide +kernel), he _ _ (by decide +kernel), he _ _ (by decide +kernel), ?_⟩
  refine ⟨Demo.get (openReader Demo.cfg ifs 9 none (IFStream.open crowdedFile)), Demo.get_ok (by decide +kernel),
    by decide +kernel⟩

/-- C25, for what comes before the pages. A release build that crashes (terminates the process or leaves
its buffers) when it opens a byte string has met a header that reaches beyond its announced length, a
date in the header that is infinite or further than 139000 years from 1960, or a complete first page. What is missing are malformed pages, for which the claim is false. -/
theorem C25_before_pages_partial (cfg : Cfg) (ha : cfg.asserts = false) (hd : cfg.debug = false)
    (hmem : 288 ≤ cfg.maxAlloc) (fuel : Nat) (filter : Option Filter) (data : List Byte)
    (h : openReader cfg ifs fuel filter (IFStream.open data) = .error .terminate ∨
      openReader cfg ifs fuel filter (IFStream.open data) = .error .ub) :
    HeaderOverrun data ∨ WildDate data ∨
    announcedHeaderLength (data.take 288) + announcedPageLength (data.take 288) ≤ data.length := by
  by_cases ho : HeaderOverrun data
  · exact .inl ho
  by_cases hwd : WildDate data
  · exact .inr (.inl hwd)
  right
  right
  obtain ⟨-, k1, -, k2⟩ := readHeader_file ha hd hmem data
  have hc : ∃ e, openReader cfg ifs fuel filter (IFStream.open data) = .error e ∧ Crash e := by
    rcases h with h | h
    · exact ⟨_, h, .inl rfl⟩
    · exact ⟨_, h, .inr rfl⟩
  obtain ⟨e, he, hcr⟩ := hc
  clear h
  have hpl := fun h b s' => readHeader_ok (h := h) (b := b) (s' := s') ifs_lawful (cfg := cfg) (s := IFStream.open data)
  cases hr : readHeader cfg ifs (IFStream.open data) with
  | error e' =>
    unfold openReader at he
    rw [hr] at he
    cases he
    exact absurd hcr (k1 ho hwd _ hr)
  | ok x =>
    obtain ⟨h, b, s'⟩ := x
    obtain ⟨e1, hb, hle⟩ := k2 h b s' hr
    obtain ⟨e2, e3, -⟩ := hpl h b s' hr
    have hlen : 288 ≤ data.length := by
      by_cases hlt : data.length < 288
      · rw [IFStream.open, ifs_read_short (by omega) (by omega) (by omega)] at e3
        cases e3
      · omega
    rw [IFStream.open, ifs_read_ok (by omega) (by omega), slice_zero] at e2
    simp only at e2
    by_cases hfull : announcedHeaderLength (data.take 288) + announcedPageLength (data.take 288) ≤ data.length
    · exact hfull
    exfalso
    subst e1
    rw [← e2] at hfull
    have hps : h.pageLength < 2 ^ 32 := by
      rw [e2]
      exact announcedNumber_lt _ _
    generalize announcedHeaderLength (data.take 288) = hl at *
    unfold openReader at he
    rw [hr, Res.ok_bind] at he
    simp only at he
    generalize hen : ({ cfg := cfg, endian := h.endian, format := h.format
                        pageLength := h.pageLength, fuel := fuel } : Env) = env at he
    have enL : env.pageLength = h.pageLength := by rw [← hen]
    have hcase : metaLoop env ifs fuel ⟨⟨data, hl, false, false, none⟩, b, PageHdr.reset⟩ {} = .error .fuel ∨
        metaLoop env ifs fuel ⟨⟨data, hl, false, false, none⟩, b, PageHdr.reset⟩ {} = .error (.exn .badAlloc) ∨
        ∃ p, metaLoop env ifs fuel ⟨⟨data, hl, false, false, none⟩, b, PageHdr.reset⟩ {} = .ok (p, {}) ∧
          p.hdr = PageHdr.reset := by
      cases fuel with
      | zero => exact .inl rfl
      | succ n =>
        right
        unfold metaLoop
        have hread := ifs_read_short (data := data) (pos := hl) (n := h.pageLength) hle (by omega) (by omega)
        by_cases hall : 0 + h.pageLength ≤ env.cfg.maxAlloc ∨ 0 + h.pageLength ≤ b.size
        · obtain ⟨b2, hb2, -⟩ := Buf.readStream_fail (cfg := env.cfg) (S := ifs) (b := b)
            (s := ⟨data, hl, false, false, none⟩) (len := h.pageLength) (off := 0) hb (by omega) hall
            (by rw [hread]) (ifs_lawful.le _ _)
          right
          have hrp : readPage env ifs ⟨⟨data, hl, false, false, none⟩, b, PageHdr.reset⟩ =
              (.ok false, ⟨⟨data, data.length, true, true, none⟩, b2, PageHdr.reset⟩) := by
            unfold readPage
            simp only
            rw [enL, hb2, hread]
            rfl
          rw [hrp]
          exact ⟨_, rfl, rfl⟩
        · left
          have hrp : readPage env ifs ⟨⟨data, hl, false, false, none⟩, b, PageHdr.reset⟩ =
              (.error (.exn .badAlloc), ⟨⟨data, hl, false, false, none⟩, b, PageHdr.reset⟩) := by
            unfold readPage Buf.readStream
            have hw : w64 (0 + h.pageLength) = h.pageLength := by unfold w64; omega
            have hrz : b.resize env.cfg h.pageLength = .error (.exn .badAlloc) := by
              unfold Buf.resize; rw [if_pos (by omega), if_neg (by omega)]
            simp only
            rw [enL, hw, hrz]
            rfl
          rw [hrp]
    rcases hcase with hm | hm | ⟨p, hm, hp⟩
    · rw [hm] at he; cases he; simp [Crash] at hcr
    · rw [hm] at he; cases he; simp [Crash] at hcr
    · rw [hm, Res.ok_bind] at he
      simp only at he
      have hcc := createColumns_errs cfg h.endian {} filter
      cases hcol : createColumns cfg h.endian {} filter with
      | error e' =>
        rw [hcol] at he
        cases he
        rcases hcc _ hcol with h' | h' <;> subst h' <;> simp [Crash] at hcr
      | ok cols =>
        rw [hcol, Res.ok_bind] at he
        have hbd : RD.build env p {} = .ok ⟨p, none, 0, []⟩ := by
          unfold RD.build
          rw [hp]
          rfl
        rw [hbd] at he
        cases he

instance (data : List Byte) : Decidable (HeaderOverrun data) := by unfold HeaderOverrun; infer_instance

/-- The malformed files above: one has a header that reaches too far and no page, the other a page. -/
example : HeaderOverrun shortHeaderFile ∧ ¬ announcedHeaderLength (shortHeaderFile.take 288) +
    announcedPageLength (shortHeaderFile.take 288) ≤ shortHeaderFile.length := by decide +kernel
example : ¬ HeaderOverrun outsideFile ∧ announcedHeaderLength (outsideFile.take 288) +
    announcedPageLength (outsideFile.take 288) ≤ outsideFile.length := by decide +kernel

/-- C25: the headers that reach beyond their announced length do make a release build leave its buffers,
all of them, provided the header can be allocated. -/
theorem C25_overrun_refuted (cfg : Cfg) (ha : cfg.asserts = false) (hd : cfg.debug = false)
    (hmem : 288 ≤ cfg.maxAlloc) (fuel : Nat) (filter : Option Filter) (data : List Byte)
    (ho : HeaderOverrun data) (hfit : announcedHeaderLength (data.take 288) ≤ cfg.maxAlloc) :
    openReader cfg ifs fuel filter (IFStream.open data) = .error .ub := by
  unfold openReader
  rw [(readHeader_file ha hd hmem data).1 ho hfit]
  rfl

example : openReader Demo.cfg ifs 9 none (IFStream.open (shortHeaderFile ++ List.replicate 2000 7)) =
    .error .ub :=
  C25_overrun_refuted _ rfl rfl (by decide +kernel) _ _ _ (by decide +kernel) (by decide +kernel)

/-- C25: an infinite date of creation or modification makes a release build compute with an unspecified value
(`std::lround` of NaN), in every file whose announced header is there. -/
theorem C25_infinite_date_refuted (cfg : Cfg) (ha : cfg.asserts = false) (hd : cfg.debug = false)
    (hmem : 288 ≤ cfg.maxAlloc) (fuel : Nat) (filter : Option Filter) (data : List Byte)
    (hm : data.take 32 = magic) (h1 : 288 ≤ announcedHeaderLength (data.take 288))
    (h2 : announcedHeaderLength (data.take 288) ≤ data.length)
    (hfit : announcedHeaderLength (data.take 288) ≤ cfg.maxAlloc)
    (d : Nat) (hmd : d ∈ announcedDates (data.take 288)) (hinf : IeeeInf d) :
    openReader cfg ifs fuel filter (IFStream.open data) = .error .ub := by
  unfold openReader
  rw [(readHeader_file ha hd hmem data).2.2.1 hm h1 h2 hfit ⟨d, hmd, ofBits_inf hinf⟩]
  rfl

/-- A header with an infinite date of creation. -/
def infiniteDateFile : List Byte :=
  Demo.place 288 0 [(0, magicNumber), (32, [0x22]), (35, [0x22]), (37, [0x01]), (164, Demo.le 8 (2047 * 2 ^ 52)),
    (196, Demo.le 4 288), (200, Demo.le 4 900)]

example : openReader Demo.cfg ifs 9 none (IFStream.open infiniteDateFile) = .error .ub :=
  C25_infinite_date_refuted _ rfl rfl (by decide +kernel) _ _ _ (by decide +kernel) (by decide +kernel)
    (by decide +kernel) (by decide +kernel) (2047 * 2 ^ 52) (by decide +kernel) ⟨0, by decide, by decide⟩

end Sas.Props
