import Verif.Proofs.Header
import Verif.Proofs.HeaderErrs
import Verif.Proofs.Source
import Verif.Demo

/-!
# Properties of the header and of the page buffer: C11, C12, C42
-/

namespace Sas.Props

open Sas Sas.Spec

variable {σ : Type}

/-! ## C11: header acceptance -/

/-- C11. A source that cannot deliver 288 bytes is rejected with `header_too_short`. -/
theorem C11_too_short (cfg : Cfg) (S : Source σ) (hS : S.Lawful) (fuel : Nat) (filter : Option Filter)
    (s : σ) (hmem : 288 ≤ cfg.maxAlloc) (h : (S.read s 288).ok = false) :
    openReader cfg S fuel filter s = .error (.exn .headerTooShort) := by
  obtain ⟨b, hb, -⟩ := Buf.readStream_fail (cfg := cfg) (S := S) (b := Buf.empty) (s := s) (len := 288)
    (off := 0) Buf.empty_good (by omega) (.inl (by omega)) h (hS.le s 288)
  have : checkHeaderRead cfg S s = .error (.exn .headerTooShort) := by
    unfold checkHeaderRead; rw [hb]
  unfold openReader readHeader
  rw [this]
  rfl

/-- C11. A source is rejected with `invalid_magic_number` exactly when it delivers 288 bytes that do not
start with the magic number. -/
theorem C11_magic (cfg : Cfg) (S : Source σ) (hS : S.Lawful) (fuel : Nat) (filter : Option Filter)
    (s : σ) (hmem : 288 ≤ cfg.maxAlloc) :
    openReader cfg S fuel filter s = .error (.exn .invalidMagicNumber) ↔
      (S.read s 288).ok = true ∧ (S.read s 288).bytes.take 32 ≠ magic := by
  constructor
  · intro h
    cases hok : (S.read s 288).ok with
    | false => rw [C11_too_short cfg S hS fuel filter s hmem hok] at h; cases h
    | true =>
      refine ⟨rfl, fun hm => ?_⟩
      have hr := readHeader_after cfg S hS s hmem hok
      replace hr := hr.1 hm
      rcases openReader_errs cfg S fuel filter s _ h with h' | h'
      · simp [BodyErr] at h'
      · simpa [Crash] using hr _ h'
  · rintro ⟨hok, hm⟩
    have hr := readHeader_after cfg S hS s hmem hok
    replace hr := hr.2 hm
    unfold openReader
    rw [hr]
    rfl

/-- C11. `header_too_short` is only reported when the source could not deliver: either the first 288
bytes, or the rest of a header that does start with the magic number. -/
theorem C11_short_only (cfg : Cfg) (S : Source σ) (hS : S.Lawful) (fuel : Nat) (filter : Option Filter)
    (s : σ) (hmem : 288 ≤ cfg.maxAlloc)
    (h : openReader cfg S fuel filter s = .error (.exn .headerTooShort)) :
    (S.read s 288).ok = false ∨
    (S.read s 288).bytes.take 32 = magic ∧ ∃ n, (S.read (S.read s 288).st n).ok = false := by
  cases hok : (S.read s 288).ok with
  | false => exact .inl rfl
  | true =>
    right
    by_cases hm : (S.read s 288).bytes.take 32 = magic
    · refine ⟨hm, ?_⟩
      have hr := readHeader_after cfg S hS s hmem hok
      replace hr := hr.1 hm
      rcases openReader_errs cfg S fuel filter s _ h with h' | h'
      · simp [BodyErr] at h'
      · simpa [Crash] using hr _ h'
    · rw [(C11_magic cfg S hS fuel filter s hmem).mpr ⟨hok, hm⟩] at h
      cases h

/-- C11 for files: fewer than 288 bytes are rejected as too short, anything else is rejected for its magic
number exactly when its first 32 bytes are not the magic number. -/
theorem C11_file (cfg : Cfg) (fuel : Nat) (filter : Option Filter) (data : List Byte)
    (hmem : 288 ≤ cfg.maxAlloc) :
    (data.length < 288 →
      openReader cfg ifs fuel filter (IFStream.open data) = .error (.exn .headerTooShort)) ∧
    (288 ≤ data.length →
      (openReader cfg ifs fuel filter (IFStream.open data) = .error (.exn .invalidMagicNumber) ↔
        data.take 32 ≠ magic)) := by
  constructor
  · intro h
    refine C11_too_short cfg ifs ifs_lawful fuel filter _ hmem ?_
    rw [IFStream.open, ifs_read_short (by omega) (by omega) (by omega)]
  · intro h
    rw [C11_magic cfg ifs ifs_lawful fuel filter _ hmem, IFStream.open,
      ifs_read_ok (by omega) (by omega), slice_zero, List.take_take]
    simp

example : openReader Demo.cfg ifs 9 none (IFStream.open (magic ++ List.replicate 255 0)) =
    .error (.exn .headerTooShort) := (C11_file _ _ _ _ (by decide +kernel)).1 (by decide +kernel)
example : openReader Demo.cfg ifs 9 none (IFStream.open (List.replicate 300 0)) =
    .error (.exn .invalidMagicNumber) := by
  refine ((C11_file _ _ _ _ (by decide +kernel)).2 (by decide +kernel)).mpr (by decide +kernel)

/-! ## C12: header fields -/

/-- C12. A header laid out as documented, in any of the eight combinations of byte order, word size and
padding, is reported by `properties()` field by field. The bytes of the header are delivered in two
reads: the first 288 and the rest of the announced length. -/
theorem C12_fields (cfg : Cfg) (S : Source σ) (fuel : Nat) (filter : Option Filter) (s s1 s2 : σ)
    (h : FileHeader) (bs : List Byte) (hl : HeaderLayout h bs) (hmem : h.headerLength ≤ cfg.maxAlloc)
    (r1 : S.read s 288 = ⟨s1, bs.take 288, true⟩)
    (r2 : S.read s1 (h.headerLength - 288) = ⟨s2, bs.drop 288, true⟩)
    (R : Reader σ) (hR : openReader cfg S fuel filter s = .ok R) :
    ReportedAs h R.props.header := by
  obtain ⟨b, hb, -⟩ := readHeader_layout (cfg := cfg) hl hmem r1 r2
  unfold openReader at hR
  obtain ⟨w, hw, hR⟩ := bind_ok_inv hR
  rw [hb] at hw
  obtain ⟨-, -, hw⟩ := bind_ok_inv hw
  cases hw
  obtain ⟨x, -, hR⟩ := bind_ok_inv hR
  obtain ⟨y, -, hR⟩ := bind_ok_inv hR
  obtain ⟨z, -, hR⟩ := bind_ok_inv hR
  cases hR
  exact reportedAs hl

/-- C12 for files: a file that starts with a header laid out as documented is not rejected as too short or
for its magic number, and if it opens, its header is reported field by field. -/
theorem C12_file (cfg : Cfg) (fuel : Nat) (filter : Option Filter) (h : FileHeader)
    (bs rest : List Byte) (hl : HeaderLayout h bs) (hmem : h.headerLength ≤ cfg.maxAlloc) :
    (∀ R, openReader cfg ifs fuel filter (IFStream.open (bs ++ rest)) = .ok R →
      ReportedAs h R.props.header) ∧
    (∀ e, openReader cfg ifs fuel filter (IFStream.open (bs ++ rest)) = .error e →
      e ≠ .exn .headerTooShort ∧ e ≠ .exn .invalidMagicNumber) := by
  have hlong := hl.long
  have hlen := hl.length
  obtain ⟨-, -, s3, -, -⟩ := hl.sizes
  have r1 : ifs.read (IFStream.open (bs ++ rest)) 288 =
      ⟨⟨bs ++ rest, 0 + 288, false, false, none⟩, bs.take 288, true⟩ := by
    rw [IFStream.open, ifs_read_ok (by simp; omega) (by omega), slice_append_left (by omega), slice_zero]
  have r2 : ifs.read ⟨bs ++ rest, 0 + 288, false, false, none⟩ (h.headerLength - 288) =
      ⟨⟨bs ++ rest, 0 + 288 + (h.headerLength - 288), false, false, none⟩, bs.drop 288, true⟩ := by
    have hd : slice bs (0 + 288) (h.headerLength - 288) = bs.drop 288 := by
      unfold slice
      rw [Nat.zero_add]
      exact List.take_of_length_le (by rw [List.length_drop]; omega)
    rw [ifs_read_ok (by simp; omega) (by omega), slice_append_left (by omega), hd]
  constructor
  · intro R hR
    exact C12_fields cfg ifs fuel filter _ _ _ h bs hl hmem r1 r2 R hR
  · intro e he
    obtain ⟨b, hb, -⟩ := readHeader_layout (cfg := cfg) hl hmem r1 r2
    rcases openReader_errs cfg ifs fuel filter _ e he with h' | h'
    · constructor <;> (intro h''; rw [h''] at h'; simp [BodyErr] at h')
    · rw [hb] at h'
      have := (logHeader_errs cfg h.reported).bind (f := fun _ => (Except.ok (h.reported, b, _))) (fun _ _ => Errs.ok _) _ h'
      constructor <;> (intro h''; rw [h''] at this; simp [Crash] at this)

/-- The content of the header of the demonstration file. -/
def demoHeader : FileHeader where
  wide := false
  padded := false
  endian := .little
  platform := .unix
  encoding := 20
  datasetName := ascii "DEMO"
  fileType := ascii "DATA"
  created := 0
  modified := 0
  headerLength := 288
  pageLength := 900
  pageCount := 4
  sasRelease := ascii "9.0401M1"
  serverType := ascii "XYZ_SERVER"
  osType := []
  osName := ascii "Linux"

instance (b : Byte) : Decidable (white b) := by unfold white; infer_instance
instance (b : Byte) : Decidable (printable b) := by unfold printable; infer_instance

theorem TextField.intro {field text : List Byte} (p : List Byte) (h1 : field = text ++ p)
    (h2 : p.all (fun b => decide (¬ printable b ∨ white b)) = true)
    (h3 : text.head?.all (fun b => decide (¬ white b)) = true)
    (h4 : text.getLast?.all (fun b => decide (printable b ∧ ¬ white b)) = true) : TextField field text := by
  refine ⟨⟨p, h1, ?_⟩, ?_, ?_⟩
  · intro b hb
    exact of_decide_eq_true (List.all_eq_true.mp h2 b hb)
  · intro b hb
    rw [hb] at h3
    exact of_decide_eq_true h3
  · intro b hb
    rw [hb] at h4
    exact of_decide_eq_true h4

theorem stamp_zero : Stamp 0 :=
  .inr ⟨0, ⟨0, 0, 0, by norm_num, by norm_num, by norm_num, .inl ⟨rfl, by norm_num⟩⟩, by norm_num⟩

/-- The demonstration header is laid out as documented. -/
theorem demoHeader_layout : HeaderLayout demoHeader (Demo.header 900 4) where
  length := by decide +kernel
  long := by decide +kernel
  magic := by decide +kernel
  wide := by decide +kernel
  padded := by decide +kernel
  endian := by decide +kernel
  unix := by decide +kernel
  windows := by decide +kernel
  encoding := by decide +kernel
  datasetName := TextField.intro (List.replicate 60 0) (by decide +kernel) (by decide +kernel)
    (by decide +kernel) (by decide +kernel)
  fileType := TextField.intro (List.replicate 4 0) (by decide +kernel) (by decide +kernel)
    (by decide +kernel) (by decide +kernel)
  created := by decide +kernel
  modified := by decide +kernel
  headerLength := by decide +kernel
  pageLength := by decide +kernel
  pageCount := by decide +kernel
  sasRelease := TextField.intro [] (by decide +kernel) (by decide +kernel)
    (by decide +kernel) (by decide +kernel)
  serverType := TextField.intro (List.replicate 6 0) (by decide +kernel) (by decide +kernel)
    (by decide +kernel) (by decide +kernel)
  osType := TextField.intro (List.replicate 16 0) (by decide +kernel) (by decide +kernel)
    (by decide +kernel) (by decide +kernel)
  osName := TextField.intro (List.replicate 11 0) (by decide +kernel) (by decide +kernel)
    (by decide +kernel) (by decide +kernel)
  stamps := ⟨stamp_zero, stamp_zero⟩
  sizes := by decide +kernel

example : ReportedAs demoHeader Demo.reader.props.header := by
  have hs : Demo.file = Demo.header 900 4 ++ (Demo.file.drop 288) := by decide +kernel
  refine (C12_file Demo.cfg 10 none demoHeader _ (Demo.file.drop 288) demoHeader_layout
    (by decide +kernel)).1 Demo.reader ?_
  rw [← hs]
  exact Demo.opened_ok

/-! ## C42: buffer growth keeps the bytes already read -/

/-- The two operations on the page buffer. -/
inductive BufOp (σ : Type)
  | resize (n : Nat)
  | read (s : σ) (len off : Nat)

/-- The buffer after an operation that does not fail (a failed one leaves it as it was). -/
def BufOp.apply (cfg : Cfg) (S : Source σ) (b : Buf) : BufOp σ → Buf
  | .resize n => match b.resize cfg n with
    | .ok b' => b'
    | .error _ => b
  | .read s len off => match b.readStream cfg S s len off with
    | (.ok _, b', _) => b'
    | (.error _, _, _) => b

/-- The sizes of an operation fit in `size_t`. -/
def BufOp.fits : BufOp σ → Prop
  | .resize n => n < 2 ^ 64
  | .read _ len off => off + len < 2 ^ 64

/-- C42. Resizing keeps the bytes: the buffer has the new size, and its content up to the smaller of the
two sizes is what it was. This holds for every buffer obtained by a sequence of resizes and reads. -/
theorem C42_resize (cfg : Cfg) (S : Source σ) (ops : List (BufOp σ)) (hops : ∀ op ∈ ops, op.fits)
    (n : Nat) (hn : n < 2 ^ 64) (b' : Buf) :
    let b := ops.foldl (BufOp.apply cfg S) Buf.empty
    b.resize cfg n = .ok b' →
      b'.size = n ∧ n ≤ b'.mem.length ∧
      b'.mem.take (min b.size n) = b.mem.take (min b.size n) ∧ b.size ≤ b.mem.length := by
  intro b h
  have hgood : b.Good := by
    suffices ∀ b0 : Buf, b0.Good → (ops.foldl (BufOp.apply cfg S) b0).Good from this _ Buf.empty_good
    clear h b
    induction ops with
    | nil => intro b0 h; exact h
    | cons op ops ih =>
      intro b0 h0
      refine ih (fun o ho => hops o (List.mem_cons_of_mem _ ho)) _ ?_
      have hf := hops op (List.mem_cons_self ..)
      cases op with
      | resize n =>
        simp only [BufOp.apply]
        cases hr : b0.resize cfg n with
        | ok b1 => exact (Buf.resize_good h0 hf hr).1
        | error e => exact h0
      | read s len off =>
        simp only [BufOp.apply]
        unfold Buf.readStream
        have hw : w64 (off + len) = off + len := Nat.mod_eq_of_lt hf
        rw [hw]
        cases hr : b0.resize cfg (off + len) with
        | error e => exact h0
        | ok b1 =>
          obtain ⟨g1, g2, -⟩ := Buf.resize_good h0 hf hr
          simp only
          split
          · rename_i heq
            split at heq
            · rename_i hle
              simp only [Prod.mk.injEq] at heq
              obtain ⟨-, rfl, -⟩ := heq
              exact ⟨by simp only [writeAt_length hle]; exact g1.inside, g1.small⟩
            · simp at heq
          · exact h0
  obtain ⟨g1, g2, g3⟩ := Buf.resize_good hgood hn h
  exact ⟨g2, by rw [← g2]; exact g1.inside, g3, hgood.inside⟩

/-- C42. A page read successfully is exactly what the source delivered, whatever the buffer held before. -/
theorem C42_page (env : Env) (S : Source σ) (hS : S.Lawful) (p p' : PState σ)
    (hb : p.buf.size ≤ p.buf.mem.length ∧ p.buf.size < 2 ^ 64) (hlen : env.pageLength < 2 ^ 64)
    (h : readPage env S p = (.ok true, p')) :
    p'.buf.mem.take env.pageLength = (S.read p.src env.pageLength).bytes ∧
    p'.buf.size = env.pageLength ∧ (S.read p.src env.pageLength).ok = true ∧
    p'.src = (S.read p.src env.pageLength).st := by
  unfold readPage at h
  split at h
  · simp at h
  · have hk := fun (b' : Buf) (s' : σ) (hr : Buf.readStream env.cfg S p.buf p.src env.pageLength 0 =
      (.ok true, b', s')) => Buf.readStream_ok (cfg := env.cfg) (S := S) (s := p.src)
        (len := env.pageLength) (off := 0) ⟨hb.1, hb.2⟩ (by omega) (hS.full _ _) hr
    generalize Buf.readStream env.cfg S p.buf p.src env.pageLength 0 = y at *
    obtain ⟨r, b1, s1⟩ := y
    cases r with
    | error e => simp at h
    | ok v =>
      cases v with
      | false => simp only at h; split at h <;> simp at h
      | true =>
        simp only at h
        obtain ⟨-, k2, k3, k4, k5, -⟩ := hk b1 s1 rfl
        cases hg : getPageHeader env b1 with
        | error e => rw [hg] at h; simp at h
        | ok hd =>
          rw [hg] at h
          simp only [Prod.mk.injEq, true_and] at h
          subst h
          exact ⟨by rw [← slice_zero]; exact k5, by simpa using k2, k3, k4⟩

example : (Buf.mk [1, 2, 3, 4] 4).resize Demo.cfg 6 = .ok ⟨[1, 2, 3, 4, 0xAA, 0xAA], 6⟩ := by decide
example : (Buf.mk [1, 2, 3, 4] 4).resize Demo.cfg 2 = .ok ⟨[1, 2, 3, 4], 2⟩ := by decide

end Sas.Props
