import Verif.Spec.Builds
import Verif.Proofs.Debug

/-! A build with fewer checks does what a build with more checks does, unless that one stops. -/

namespace Sas.Builds

open Spec

variable {α β σ : Type}

/-- The first outcome is the end of the program, or the second one. -/
def Sim (x y : Res α) : Prop := x = .error .terminate ∨ x = y

theorem Sim.refl (x : Res α) : Sim x x := .inr rfl

theorem Sim.bind {x y : Res α} {f g : α → Res β} (hx : Sim x y) (hf : ∀ a, Sim (f a) (g a)) :
    Sim (x >>= f) (y >>= g) := by
  rcases hx with h | h
  · rw [h]; exact .inl rfl
  · rw [h]
    cases y with
    | error e => exact .inr rfl
    | ok a => exact hf a

theorem Sim.ite {c : Prop} [Decidable c] {x y x' y' : Res α} (hx : Sim x y) (hy : Sim x' y') :
    Sim (if c then x else x') (if c then y else y') := by
  split
  · exact hx
  · exact hy

/-- The same for outcomes with a state that belongs to them. -/
def SimS {τ : Type} (x y : Res α × τ) : Prop := x.1 = .error .terminate ∨ x = y

theorem SimS.refl {τ : Type} (x : Res α × τ) : SimS x x := .inr rfl

section

variable {c' c : Cfg} (hc : ChecksLess c' c)
include hc

theorem fmtAssert_sim (b : Bool) : Sim (fmtAssert c b) (fmtAssert c' b) := by
  unfold fmtAssert
  cases h : c'.asserts
  · cases h' : c.asserts <;> cases b <;> simp [Sim]
  · rw [hc.asserts h]; exact .refl _

theorem freshMem_same (i n : Nat) : freshMem c i n = freshMem c' i n := by
  unfold freshMem
  rw [hc.junk]

theorem Buf.alloc_same (n : Nat) : Buf.alloc c n = Buf.alloc c' n := by
  unfold Buf.alloc
  rw [hc.maxAlloc, freshMem_same hc]

theorem Buf.resize_same (b : Buf) (n : Nat) : b.resize c n = b.resize c' n := by
  unfold Buf.resize
  rw [hc.maxAlloc, freshMem_same hc]

theorem Buf.readStream_same (S : Source σ) (b : Buf) (s : σ) (len off : Nat) :
    Buf.readStream c S b s len off = Buf.readStream c' S b s len off := by
  unfold Buf.readStream
  rw [Buf.resize_same hc]

theorem Buf.rd_sim (b : Buf) (o n : Nat) : Sim (b.rd c o n) (b.rd c' o n) := by
  unfold Buf.rd
  cases h : c'.debug
  · cases h' : c.debug
    · exact .refl _
    · cases b.check o n
      · exact .inl rfl
      · exact .refl _
  · rw [hc.debug h]; exact .refl _

theorem Buf.getByte_sim (b : Buf) (o : Nat) : Sim (b.getByte c o) (b.getByte c' o) :=
  (Buf.rd_sim hc b o 1).bind fun _ => .refl _

theorem Buf.getU16_sim (e : Endian) (b : Buf) (o : Nat) : Sim (b.getU16 c e o) (b.getU16 c' e o) :=
  (Buf.rd_sim hc b o 2).bind fun _ => .refl _

theorem Buf.getU32_sim (e : Endian) (b : Buf) (o : Nat) : Sim (b.getU32 c e o) (b.getU32 c' e o) :=
  (Buf.rd_sim hc b o 4).bind fun _ => .refl _

theorem Buf.getUInt_sim (e : Endian) (f : Format) (b : Buf) (o : Nat) :
    Sim (b.getUInt c e f o) (b.getUInt c' e f o) :=
  (Buf.rd_sim hc b o f.intSize).bind fun _ => .refl _

theorem Buf.getDouble_sim (e : Endian) (b : Buf) (o : Nat) : Sim (b.getDouble c e o) (b.getDouble c' e o) :=
  (Buf.rd_sim hc b o 8).bind fun _ => .refl _

theorem Buf.getString_sim (b : Buf) (o n : Nat) : Sim (b.getString c o n) (b.getString c' o n) :=
  (Buf.rd_sim hc b o n).bind fun _ => .refl _

theorem Buf.getStringUntrim_sim (b : Buf) (o n : Nat) : Sim (b.getStringUntrim c o n) (b.getStringUntrim c' o n) :=
  Buf.rd_sim hc b o n

theorem Buf.getDate_sim (e : Endian) (b : Buf) (o : Nat) : Sim (b.getDate c e o) (b.getDate c' e o) :=
  (Buf.getDouble_sim hc e b o).bind fun _ => .refl _

/-! ## The header -/

theorem checkHeaderRead_same (S : Source σ) (s : σ) : checkHeaderRead c S s = checkHeaderRead c' S s := by
  unfold checkHeaderRead
  rw [Buf.readStream_same hc]

theorem checkMagic_sim (b : Buf) : Sim (checkMagic c b) (checkMagic c' b) :=
  (Buf.rd_sim hc b 0 32).bind fun _ => .refl _

theorem setAligns_sim (b : Buf) : Sim (setAligns c b) (setAligns c' b) :=
  (Buf.getByte_sim hc b 32).bind fun _ => (Buf.getByte_sim hc b 35).bind fun _ =>
    (Buf.getByte_sim hc b 37).bind fun _ => .refl _

theorem setHeaderLengthAndRead_sim (S : Source σ) (al : Align) (b : Buf) (s : σ) :
    Sim (setHeaderLengthAndRead c S al b s) (setHeaderLengthAndRead c' S al b s) := by
  unfold setHeaderLengthAndRead
  refine (Buf.getU32_sim hc _ b _).bind fun hl => (fmtAssert_sim hc _).bind fun _ => ?_
  rw [Buf.readStream_same hc]
  exact .refl _

theorem setHeader_sim (al : Align) (hl : Nat) (b : Buf) : Sim (setHeader c al hl b) (setHeader c' al hl b) := by
  unfold setHeader
  refine (fmtAssert_sim hc _).bind fun _ => ?_
  refine (Buf.getByte_sim hc b _).bind fun _ => ?_
  refine (Buf.getByte_sim hc b _).bind fun _ => (Sim.refl _).bind fun _ => ?_
  refine (Buf.getString_sim hc b _ _).bind fun _ => ?_
  refine (Buf.getString_sim hc b _ _).bind fun _ => ?_
  refine (Buf.getDate_sim hc _ b _).bind fun _ => ?_
  refine (Buf.getDate_sim hc _ b _).bind fun _ => ?_
  refine (Buf.getU32_sim hc _ b _).bind fun _ => ?_
  refine (Buf.getU32_sim hc _ b _).bind fun _ => ?_
  refine (Buf.getString_sim hc b _ _).bind fun _ => ?_
  refine (Buf.getString_sim hc b _ _).bind fun _ => ?_
  refine (Buf.getString_sim hc b _ _).bind fun _ => ?_
  refine (Buf.getByte_sim hc b _).bind fun _ => ?_
  dsimp only
  split
  · exact (Buf.getString_sim hc b _ _).bind fun _ => .refl _
  · exact (Buf.getString_sim hc b _ _).bind fun _ => .refl _

end

section

variable {c' : Cfg} {env : Env} (hc : ChecksLess c' env.cfg)
include hc

set_option quotPrecheck false in
local notation "env'" => (Env.mk c' (Env.endian env) (Env.format env) (Env.pageLength env) (Env.fuel env))

/-! ## Pages -/

theorem getPageHeader_sim (b : Buf) : Sim (getPageHeader env b) (getPageHeader env' b) :=
  (Buf.getU16_sim hc _ b _).bind fun _ => (Buf.getU16_sim hc _ b _).bind fun _ =>
    (Buf.getU16_sim hc _ b _).bind fun _ => .refl _

theorem readPage_sim (S : Source σ) (p : PState σ) : SimS (readPage env S p) (readPage env' S p) := by
  unfold readPage
  dsimp only
  rw [Buf.readStream_same hc]
  split
  · exact .refl _
  · split
    · exact .refl _
    · exact .refl _
    · rcases getPageHeader_sim hc ‹Buf› with h | h
      · rw [h]; exact .inl rfl
      · rw [h]; exact .refl _

theorem getPageSubheader_sim (b : Buf) (off : Nat) :
    Sim (getPageSubheader env b off) (getPageSubheader env' b off) :=
  (Sim.refl _).bind fun _ => (Buf.getUInt_sim hc _ _ b _).bind fun _ => (Buf.getUInt_sim hc _ _ b _).bind fun _ =>
    (Buf.getByte_sim hc b _).bind fun _ => (Buf.getByte_sim hc b _).bind fun _ => .refl _

theorem processSubs_sim (b : Buf) {f g : α → PageSub → Res α} (hf : ∀ a s, Sim (f a s) (g a s)) :
    ∀ (k i : Nat) (a : α), Sim (processSubs env b f k i a) (processSubs env' b g k i a)
  | 0, _, _ => .refl _
  | k + 1, i, a => by
    rw [processSubs, processSubs]
    refine (getPageSubheader_sim hc b _).bind fun s => ?_
    have hk := fun a' => processSubs_sim b hf k (i + 1) a'
    exact Sim.ite ((Sim.refl _).bind hk) (Sim.ite ((Sim.refl _).bind hk) ((hf a s).bind hk))

/-! ## The metadata -/

theorem processRowSize_sim (b : Buf) (md : Meta) (o : Nat) :
    Sim (processRowSize env b md o) (processRowSize env' b md o) := by
  unfold processRowSize
  refine (Sim.refl _).bind fun _ => ?_
  refine (Buf.getU16_sim hc _ b _).bind fun _ => (Buf.getU16_sim hc _ b _).bind fun _ => ?_
  refine (Buf.getUInt_sim hc _ _ b _).bind fun _ => (Buf.getUInt_sim hc _ _ b _).bind fun _ => ?_
  refine (Buf.getUInt_sim hc _ _ b _).bind fun _ => (Buf.getUInt_sim hc _ _ b _).bind fun _ => ?_
  exact (Buf.getUInt_sim hc _ _ b _).bind fun _ => .refl _

theorem processColumnSize_sim (b : Buf) (md : Meta) (o : Nat) :
    Sim (processColumnSize env b md o) (processColumnSize env' b md o) :=
  (Buf.getUInt_sim hc _ _ b _).bind fun _ => .refl _

theorem processColumnText_sim (b : Buf) (acc : Acc) (o : Nat) :
    Sim (processColumnText env b acc o) (processColumnText env' b acc o) := by
  unfold processColumnText
  refine (Buf.getU16_sim hc _ b _).bind fun _ => (Buf.getStringUntrim_sim hc b _ _).bind fun _ => ?_
  dsimp only
  refine Sim.ite ?_ (.refl _)
  refine (Buf.getString_sim hc b _ _).bind fun _ => ?_
  refine Sim.ite ?_ (Sim.ite ?_ (Sim.ite ?_ (.refl _)))
  all_goals exact (Buf.getString_sim hc b _ _).bind fun _ => .refl _

theorem nameLoop_sim (b : Buf) (texts : List (List Byte)) (offMax : Nat) : ∀ (n off : Nat) (names : List (List Byte)),
    Sim (nameLoop env b texts offMax n off names) (nameLoop env' b texts offMax n off names)
  | 0, _, _ => .refl _
  | n + 1, off, names => by
    rw [nameLoop, nameLoop]
    refine Sim.ite ?_ (.refl _)
    refine (Buf.getU16_sim hc _ b _).bind fun _ => (Buf.getU16_sim hc _ b _).bind fun _ => ?_
    exact (Buf.getU16_sim hc _ b _).bind fun _ => nameLoop_sim b texts offMax n _ _

theorem attrLoop_sim (b : Buf) (offMax : Nat) : ∀ (n off : Nat) (x : List Nat × List Nat × List Bool),
    Sim (attrLoop env b offMax n off x) (attrLoop env' b offMax n off x)
  | 0, _, _ => .refl _
  | n + 1, off, (os, ls, ts) => by
    rw [attrLoop, attrLoop]
    refine Sim.ite ?_ (.refl _)
    refine (Buf.getUInt_sim hc _ _ b _).bind fun _ => (Buf.getU32_sim hc _ b _).bind fun _ => ?_
    exact (Buf.getByte_sim hc b _).bind fun _ => attrLoop_sim b offMax n _ _

theorem processFormatAndLabel_sim (b : Buf) (acc : Acc) (o : Nat) :
    Sim (processFormatAndLabel env b acc o) (processFormatAndLabel env' b acc o) := by
  unfold processFormatAndLabel
  refine (Sim.refl _).bind fun _ => ?_
  refine (Buf.getU16_sim hc _ b _).bind fun _ => (Buf.getU16_sim hc _ b _).bind fun _ => ?_
  refine (Buf.getU16_sim hc _ b _).bind fun _ => (Buf.getU16_sim hc _ b _).bind fun _ => ?_
  exact (Buf.getU16_sim hc _ b _).bind fun _ => (Buf.getU16_sim hc _ b _).bind fun _ => .refl _

theorem processSubheader_sim (b : Buf) (acc : Acc) (s : PageSub) :
    Sim (processSubheader env b acc s) (processSubheader env' b acc s) := by
  unfold processSubheader
  refine (Buf.rd_sim hc b _ _).bind fun sig => ?_
  dsimp only
  cases classify env.format sig with
  | rowSize => exact (processRowSize_sim hc b _ _).bind fun _ => .refl _
  | columnSize => exact (processColumnSize_sim hc b _ _).bind fun _ => .refl _
  | counts => exact .refl _
  | columnText => exact (processColumnText_sim hc b _ _).bind fun _ => .refl _
  | columnName => exact ((nameLoop_sim hc b _ _ _ _ _).bind fun _ => .refl _).bind fun _ => .refl _
  | columnAttributes => exact ((attrLoop_sim hc b _ _ _ _).bind fun _ => .refl _).bind fun _ => .refl _
  | formatAndLabel => exact (processFormatAndLabel_sim hc b _ _).bind fun _ => .refl _
  | columnList => exact .refl _
  | other => exact .refl _

theorem processPage_sim (b : Buf) (h : PageHdr) (acc : Acc) :
    Sim (processPage env b h acc) (processPage env' b h acc) := by
  unfold processPage
  have hp : Sim (processPageMetadata env b h.subCount acc) (processPageMetadata env' b h.subCount acc) := by
    unfold processPageMetadata
    refine processSubs_sim hc b ?_ _ _ _
    intro a s
    exact Sim.bind (processSubheader_sim hc b a.1 s) fun x => Sim.refl _
  dsimp only
  exact Sim.ite (hp.bind fun _ => .refl _) (.refl _)

theorem metaLoop_sim (S : Source σ) : ∀ (n : Nat) (p : PState σ) (acc : Acc),
    Sim (metaLoop env S n p acc) (metaLoop env' S n p acc)
  | 0, _, _ => .refl _
  | n + 1, p, acc => by
    rw [metaLoop, metaLoop]
    rcases readPage_sim hc S p with h | h
    · generalize readPage env S p = x at h ⊢
      obtain ⟨r, p'⟩ := x
      cases h
      exact .inl rfl
    · rw [← h]
      split
      · exact .refl _
      · exact .refl _
      · refine (processPage_sim hc _ _ _).bind fun a => Sim.ite (.refl _) (metaLoop_sim S n _ _)

/-! ## Rows -/

theorem buildPage_sim (md : Meta) (b : Buf) (h : PageHdr) : Sim (buildPage env md b h) (buildPage env' md b h) := by
  unfold buildPage
  refine Sim.ite ?_ (.refl _)
  exact (processSubs_sim hc b (fun _ _ => .refl _) _ _ _).bind fun _ => .refl _

theorem nextPageLoop_sim (S : Source σ) (md : Meta) : ∀ (n : Nat) (r : RD σ),
    SimS (nextPageLoop env S md n r) (nextPageLoop env' S md n r)
  | 0, _ => .refl _
  | n + 1, r => by
    rw [nextPageLoop, nextPageLoop]
    rcases readPage_sim hc S r.p with h | h
    · generalize readPage env S r.p = x at h ⊢
      obtain ⟨r, p'⟩ := x
      cases h
      exact .inl rfl
    · rw [← h]
      split
      · exact .refl _
      · exact .refl _
      · rename_i p' _
        rcases buildPage_sim hc md p'.buf p'.hdr with h | h
        · rw [h]; exact .inl rfl
        · rw [← h]
          split
          · exact .refl _
          · exact .refl _
          · exact nextPageLoop_sim S md n _

theorem RD.next_sim (S : Source σ) (md : Meta) (r : RD σ) : SimS (r.next env S md) (r.next env' S md) := by
  unfold RD.next
  split
  · exact .refl _
  · split
    · exact .refl _
    · split
      · exact nextPageLoop_sim hc S md _ _
      · exact .refl _

theorem Dst.storePattern_sim (d : Dst) (ofs n : Nat) : Sim (d.storePattern env.cfg ofs n) (d.storePattern c' ofs n) := by
  unfold Dst.storePattern
  refine Sim.ite ?_ (.refl _)
  cases h : c'.debug
  · cases h' : env.cfg.debug
    · exact .refl _
    · cases decide (w64 (sub64 d.i ofs + n) ≤ d.mem.length)
      · exact .inl rfl
      · exact .refl _
  · rw [hc.debug h]; exact .refl _

theorem rdcToken_sim (src : List Byte) (d : Dst) : Sim (rdcToken env.cfg src d) (rdcToken c' src d) := by
  unfold rdcToken
  refine (Sim.refl _).bind fun x => ?_
  obtain ⟨v, src⟩ := x
  dsimp only
  refine Sim.ite (.refl _) (Sim.ite (.refl _) (Sim.ite ?_ ?_))
  · exact (Sim.refl _).bind fun _ => (Sim.refl _).bind fun _ => (Dst.storePattern_sim hc d _ _).bind fun _ => .refl _
  · exact (Sim.refl _).bind fun _ => (Dst.storePattern_sim hc d _ _).bind fun _ => .refl _

theorem rdcStep_sim (k : Ctrl) (src : List Byte) (d : Dst) : Sim (rdcStep env.cfg k src d) (rdcStep c' k src d) := by
  unfold rdcStep
  refine (Sim.refl _).bind fun x => ?_
  obtain ⟨k, src⟩ := x
  dsimp only
  exact Sim.ite ((rdcToken_sim hc src d).bind fun _ => .refl _) (.refl _)

theorem rdcLoop_sim : ∀ (n : Nat) (k : Ctrl) (src : List Byte) (d : Dst),
    SimS (rdcLoop env.cfg n k src d) (rdcLoop c' n k src d)
  | 0, _, _, _ => .refl _
  | n + 1, k, src, d => by
    rw [rdcLoop, rdcLoop]
    split
    · rcases rdcStep_sim hc k src d with h | h
      · rw [h]; exact .inl rfl
      · rw [h]
        split
        · exact rdcLoop_sim n _ _ _
        · exact .refl _
    · exact .refl _

theorem rdc_sim (src dst : List Byte) : SimS (rdc env.cfg src dst) (rdc c' src dst) := by
  unfold rdc
  rcases rdcLoop_sim hc src.length ⟨0, 0⟩ src ⟨dst, 0⟩ with h | h
  · generalize rdcLoop env.cfg src.length ⟨0, 0⟩ src ⟨dst, 0⟩ = x at h ⊢
    obtain ⟨r, d⟩ := x
    cases h
    exact .inl rfl
  · rw [h]; exact .refl _

theorem RD.decompress_sim (md : Meta) (r : RD σ) (mem src : List Byte) :
    SimS (r.decompress env md mem src) (r.decompress env' md mem src) := by
  unfold RD.decompress
  split
  · exact .refl _
  · exact .refl _
  · rcases rdc_sim hc src r.dst with h | h
    · left
      dsimp only
      rw [h]
      rfl
    · right
      dsimp only
      rw [h]

theorem RD.extract_sim (md : Meta) (r : RD σ) (off len : Nat) :
    SimS (r.extract env md off len) (r.extract env' md off len) := by
  unfold RD.extract
  dsimp only
  rcases fmtAssert_sim hc (w64 (off + len) ≤ env.pageLength) with h | h
  · rw [h]; exact .inl rfl
  · rw [← h]
    split
    · exact .refl _
    · rcases Buf.rd_sim hc r.p.buf off len with h | h
      · rw [h]; exact .inl rfl
      · rw [← h]
        split
        · exact .refl _
        · split
          · exact RD.decompress_sim hc md r _ _
          · exact .refl _

theorem RD.readLine_sim (S : Source σ) (md : Meta) (r : RD σ) :
    SimS (r.readLine env S md) (r.readLine env' S md) := by
  unfold RD.readLine
  rcases RD.next_sim hc S md r with h | h
  · generalize r.next env S md = x at h ⊢
    obtain ⟨q, r'⟩ := x
    cases h
    exact .inl rfl
  · rw [h]
    split
    · exact .refl _
    · exact .refl _
    · split
      · exact .refl _
      · rename_i off len r'' _
        rcases RD.extract_sim hc md r'' off len with h | h
        · generalize r''.extract env md off len = x at h ⊢
          obtain ⟨q, r'⟩ := x
          cases h
          exact .inl rfl
        · rw [h]; exact .refl _

theorem RD.skip_sim (S : Source σ) (md : Meta) : ∀ (n : Nat) (r : RD σ),
    SimS (r.skip env S md n) (r.skip env' S md n)
  | 0, _ => .refl _
  | n + 1, r => by
    rw [RD.skip, RD.skip]
    rcases RD.next_sim hc S md r with h | h
    · generalize r.next env S md = x at h ⊢
      obtain ⟨q, r'⟩ := x
      cases h
      exact .inl rfl
    · rw [h]
      split
      · exact .refl _
      · exact .refl _
      · split
        · exact .refl _
        · exact RD.skip_sim S md n _

theorem RD.build_sim (p : PState σ) (acc : Acc) : Sim (RD.build env p acc) (RD.build env' p acc) := by
  unfold RD.build buildDst
  refine Sim.bind ?_ fun dst => Sim.ite ?_ (.refl _)
  · rw [Buf.alloc_same hc]; exact .refl _
  · exact (buildPage_sim hc _ _ _).bind fun _ => .refl _

end

/-! ## The reader -/

/-- The reader of another build. -/
def _root_.Sas.Reader.inBuild (R : Reader σ) (c' : Cfg) : Reader σ := { R with env := { R.env with cfg := c' } }

section

variable {c' : Cfg}

/-- A call in the other build. -/
def StepSim (x : Res α × Reader σ) (y : Res α × Reader σ) (c' : Cfg) : Prop :=
  x.1 = .error .terminate ∨ y = (x.1, x.2.inBuild c')

theorem Reader.readRow_sim (S : Source σ) {R : Reader σ} (hc : ChecksLess c' R.env.cfg) :
    StepSim (R.readRow S) ((R.inBuild c').readRow S) c' := by
  have h := RD.readLine_sim hc S R.props.md R.rd
  unfold Reader.readRow
  change StepSim _ (match R.rd.readLine { R.env with cfg := c' } S R.props.md with
    | (.error e, rd) => (.error e, { R.inBuild c' with rd := rd })
    | (.ok none, rd) => (.ok false, { R.inBuild c' with rd := rd }.endOfData)
    | (.ok (some row), rd) => (.ok true, { R.inBuild c' with rd := rd }.emit (.pushRow R.currentRowIndex row))) c'
  rcases h with h | h
  · generalize R.rd.readLine R.env S R.props.md = x at h ⊢
    obtain ⟨q, r⟩ := x
    cases h
    exact .inl rfl
  · rw [← h]
    generalize R.rd.readLine R.env S R.props.md = x
    obtain ⟨q, r⟩ := x
    rcases q with e | _ | row <;> exact .inr rfl

theorem Reader.readRow_env (S : Source σ) (R : Reader σ) : (R.readRow S).2.env = R.env := by
  unfold Reader.readRow
  dsimp only
  split <;> rfl

theorem Reader.readRows_sim (S : Source σ) : ∀ (n : Nat) {R : Reader σ}, ChecksLess c' R.env.cfg →
    StepSim (Reader.readRows S n R) (Reader.readRows S n (R.inBuild c')) c'
  | 0, _, _ => .inr rfl
  | n + 1, R, hc => by
    rw [Reader.readRows, Reader.readRows]
    have he := Reader.readRow_env S R
    rcases Reader.readRow_sim S hc with h | h
    · generalize R.readRow S = x at h ⊢
      obtain ⟨q, r⟩ := x
      cases h
      exact .inl rfl
    · rw [h]
      generalize R.readRow S = x at he ⊢
      obtain ⟨q, r⟩ := x
      rcases q with e | _ | _
      · exact .inr rfl
      · exact .inr rfl
      · exact Reader.readRows_sim S n (by rw [he]; exact hc)

theorem Reader.readAllLoop_sim (S : Source σ) : ∀ (n : Nat) {R : Reader σ}, ChecksLess c' R.env.cfg →
    StepSim (Reader.readAllLoop S n R) (Reader.readAllLoop S n (R.inBuild c')) c'
  | 0, _, _ => .inr rfl
  | n + 1, R, hc => by
    rw [Reader.readAllLoop, Reader.readAllLoop]
    have he := Reader.readRow_env S R
    rcases Reader.readRow_sim S hc with h | h
    · generalize R.readRow S = x at h ⊢
      obtain ⟨q, r⟩ := x
      cases h
      exact .inl rfl
    · rw [h]
      generalize R.readRow S = x at he ⊢
      obtain ⟨q, r⟩ := x
      rcases q with e | _ | _
      · exact .inr rfl
      · exact .inr rfl
      · exact Reader.readAllLoop_sim S n (by rw [he]; exact hc)

theorem Reader.skip_sim (S : Source σ) (n : Nat) {R : Reader σ} (hc : ChecksLess c' R.env.cfg) :
    StepSim (R.skip S n) ((R.inBuild c').skip S n) c' := by
  have h := RD.skip_sim hc S R.props.md n R.rd
  unfold Reader.skip
  change StepSim _ (match R.rd.skip { R.env with cfg := c' } S R.props.md n with
    | (.error e, rd) => (.error e, { R.inBuild c' with rd := rd })
    | (.ok true, rd) => (.ok true, { R.inBuild c' with rd := rd })
    | (.ok false, rd) => (.ok false, { R.inBuild c' with rd := rd }.endOfData)) c'
  rcases h with h | h
  · generalize R.rd.skip R.env S R.props.md n = x at h ⊢
    obtain ⟨q, r⟩ := x
    cases h
    exact .inl rfl
  · rw [← h]
    generalize R.rd.skip R.env S R.props.md n = x
    obtain ⟨q, r⟩ := x
    rcases q with e | _ | _ <;> exact .inr rfl

theorem Reader.readRowNoSink_sim (S : Source σ) {R : Reader σ} (hc : ChecksLess c' R.env.cfg) :
    StepSim (R.readRowNoSink S) ((R.inBuild c').readRowNoSink S) c' := by
  have h := RD.readLine_sim hc S R.props.md R.rd
  unfold Reader.readRowNoSink
  change StepSim _ (match R.rd.readLine { R.env with cfg := c' } S R.props.md with
    | (res, rd) => (res, { R.inBuild c' with rd := rd })) c'
  rcases h with h | h
  · exact .inl h
  · rw [← h]
    exact .inr rfl

theorem StepSim.map {x y : Res α × Reader σ} (h : StepSim x y c') (f : α → β) :
    StepSim (x.1.map f, x.2) (y.1.map f, y.2) c' := by
  rcases h with h | h
  · exact .inl (by rw [h]; rfl)
  · exact .inr (by rw [h])

theorem Reader.step_sim (S : Source σ) {R : Reader σ} (hc : ChecksLess c' R.env.cfg) (op : Op) :
    StepSim (R.step S op) ((R.inBuild c').step S op) c' := by
  cases op with
  | readRow => exact (Reader.readRow_sim S hc).map _
  | readRows n => exact (Reader.readRows_sim S n hc).map _
  | readAll => exact (Reader.readAllLoop_sim S (R.props.md.rowCount - R.rd.row + 1) hc).map _
  | skip n => exact (Reader.skip_sim S n hc).map _
  | readRowNoSink => exact (Reader.readRowNoSink_sim S hc).map _
  | endOfData => exact .inr rfl

theorem Reader.step_env (S : Source σ) (R : Reader σ) (op : Op) : (R.step S op).2.env = R.env := by
  have hrows : ∀ (n : Nat) (R : Reader σ), (Reader.readRows S n R).2.env = R.env := by
    intro n
    induction n with
    | zero => intro R; rfl
    | succ n ih =>
      intro R
      have he := Reader.readRow_env S R
      rw [Reader.readRows]
      generalize R.readRow S = x at he ⊢
      obtain ⟨q, r⟩ := x
      rcases q with e | _ | _
      · exact he
      · exact he
      · exact (ih r).trans he
  have hall : ∀ (n : Nat) (R : Reader σ), (Reader.readAllLoop S n R).2.env = R.env := by
    intro n
    induction n with
    | zero => intro R; rfl
    | succ n ih =>
      intro R
      have he := Reader.readRow_env S R
      rw [Reader.readAllLoop]
      generalize R.readRow S = x at he ⊢
      obtain ⟨q, r⟩ := x
      rcases q with e | _ | _
      · exact he
      · exact he
      · exact (ih r).trans he
  cases op with
  | readRow => exact Reader.readRow_env S R
  | readRows n => exact hrows n R
  | readAll => exact hall (R.props.md.rowCount - R.rd.row + 1) R
  | skip n =>
    show (R.skip S n).2.env = R.env
    unfold Reader.skip
    split <;> rfl
  | readRowNoSink => rfl
  | endOfData => rfl

/-- A history in the other build. -/
theorem Reader.run_sim (S : Source σ) : ∀ (ops : List Op) {R : Reader σ}, ChecksLess c' R.env.cfg →
    ((R.inBuild c').run S ops = ((R.run S ops).1, (R.run S ops).2.inBuild c')) ∨
    ∃ rs, (R.run S ops).1 = rs ++ [.error .terminate] ∧ rs <+: ((R.inBuild c').run S ops).1
  | [], _, _ => .inl rfl
  | op :: ops, R, hc => by
    have he := Reader.step_env S R op
    rw [Reader.run, Reader.run]
    rcases Reader.step_sim S hc op with h | h
    · right
      generalize R.step S op = x at h ⊢
      obtain ⟨q, r⟩ := x
      cases h
      exact ⟨[], rfl, List.nil_prefix⟩
    · rw [h]
      generalize R.step S op = x at he ⊢
      obtain ⟨q, r⟩ := x
      have ih := Reader.run_sim S ops (R := r) (by rw [he]; exact hc)
      rcases q with (e | _ | _ | _) | v
      · rcases ih with ih | ⟨rs, h1, h2⟩
        · left
          dsimp only
          rw [ih]
        · right
          refine ⟨.error (.exn e) :: rs, ?_, ?_⟩
          · dsimp only
            rw [h1]
            rfl
          · exact List.cons_prefix_cons.2 ⟨rfl, h2⟩
      · exact .inl rfl
      · exact .inl rfl
      · exact .inl rfl
      · rcases ih with ih | ⟨rs, h1, h2⟩
        · left
          dsimp only
          rw [ih]
        · right
          refine ⟨.ok v :: rs, ?_, ?_⟩
          · dsimp only
            rw [h1]
            rfl
          · exact List.cons_prefix_cons.2 ⟨rfl, h2⟩

end

/-! ## Opening -/

/-- A text, an `out_of_range` or a text that does not fit. -/
def Mild : Res α → Prop
  | .ok _ => True
  | .error e => e = .exn .outOfRange ∨ e = .ub

theorem Mild.bind {x : Res α} {f : α → Res β} (hx : Mild x) (hf : ∀ a, Mild (f a)) : Mild (x >>= f) := by
  cases x with
  | error e => exact hx
  | ok a => exact hf a

theorem toText_cases (x : DateTime) : (∃ t, x.toText = .ok t) ∨ x.toText = .error (.exn .outOfRange) := by
  have hs := DateTime.toText_safe x
  have hm : Mild x.toText := by
    unfold DateTime.toText
    refine Mild.bind ?_ fun d => Mild.bind ?_ fun y => ?_
    · cases x with
      | notADateTime => trivial
      | «at» t =>
        unfold DateTime.date
        dsimp only
        split
        · trivial
        · exact .inl rfl
    · unfold Date.ymd
      dsimp only
      generalize (ymdOfDayNumber _) = z
      split
      · trivial
      · exact .inl rfl
    · unfold fromBuffer
      split
      · trivial
      · exact .inr rfl
  generalize x.toText = r at hs hm
  cases r with
  | ok t => exact .inl ⟨t, rfl⟩
  | error e =>
    rcases hm with rfl | rfl
    · exact .inr rfl
    · exact absurd rfl hs

/-- The date has no text. -/
def Textless (h : Header) : Prop :=
  h.dateCreated.toText = .error (.exn .outOfRange) ∨ h.dateModified.toText = .error (.exn .outOfRange)

/-- The header phase: as before, or an error of the log message. -/
def HeaderSim (x y : Res (Header × α)) : Prop :=
  x = .error .terminate ∨ (x = .error (.exn .outOfRange) ∧ ∃ v, y = .ok v ∧ Textless v.1) ∨ x = y

theorem Sim.header {x y : Res β} {f g : β → Res (Header × α)} (hx : Sim x y) (hf : ∀ a, HeaderSim (f a) (g a)) :
    HeaderSim (x >>= f) (y >>= g) := by
  rcases hx with h | h
  · rw [h]; exact .inl rfl
  · rw [h]
    cases y with
    | error e => exact .inr (.inr rfl)
    | ok a => exact hf a

section

variable {c' c : Cfg} (hc : ChecksLess c' c)
include hc

theorem logHeader_sim (h : Header) (a : α) :
    HeaderSim (logHeader c h >>= fun _ => pure (h, a)) (logHeader c' h >>= fun _ => pure (h, a)) := by
  unfold logHeader
  cases h1 : c'.debug
  · cases h2 : c.debug
    · exact .inr (.inr rfl)
    · rcases toText_cases h.dateCreated with ⟨t, ht⟩ | ht
      · rcases toText_cases h.dateModified with ⟨u, hu⟩ | hu
        · rw [ht, hu]; exact .inr (.inr rfl)
        · refine .inr (.inl ⟨?_, (h, a), rfl, .inr hu⟩)
          rw [ht, hu]; rfl
      · refine .inr (.inl ⟨?_, (h, a), rfl, .inl ht⟩)
        rw [ht]; rfl
  · rw [hc.debug h1]; exact .inr (.inr rfl)

theorem readHeader_sim (S : Source σ) (s : σ) : HeaderSim (readHeader c S s) (readHeader c' S s) := by
  unfold readHeader
  rw [checkHeaderRead_same hc]
  refine (Sim.refl _).header fun _ => (checkMagic_sim hc _).header fun _ => ?_
  refine (setAligns_sim hc _).header fun _ => (setHeaderLengthAndRead_sim hc S _ _ _).header fun _ => ?_
  exact (setHeader_sim hc _ _ _).header fun h => logHeader_sim hc h _

theorem createColumns_same (e : Endian) (acc : Acc) (filter : Option Filter) :
    createColumns c e acc filter = createColumns c' e acc filter := by
  unfold createColumns
  rw [hc.maxCols]

end

/-- What follows the header phase. -/
def opened (cfg : Cfg) (S : Source σ) (fuel : Nat) (filter : Option Filter) (x : Header × Buf × σ) :
    Res (Reader σ) := do
  let env : Env := { cfg := cfg, endian := x.1.endian, format := x.1.format, pageLength := x.1.pageLength
                     fuel := fuel }
  let (p, acc) ← metaLoop env S fuel ⟨x.2.2, x.2.1, PageHdr.reset⟩ {}
  let columns ← createColumns cfg x.1.endian acc filter
  let rd ← RD.build env p acc
  let props : Properties := { header := x.1, md := acc.md, columns := columns }
  return { env := env, props := props, rd := rd, trace := [.setProperties props] }

theorem opened_header {cfg : Cfg} {S : Source σ} {fuel : Nat} {filter : Option Filter} {x : Header × Buf × σ}
    {R : Reader σ} (h : opened cfg S fuel filter x = .ok R) : R.props.header = x.1 := by
  have hb : ∀ {α : Type} {x : Res α} {f : α → Res (Reader σ)}, (x >>= f) = .ok R → ∃ a, f a = .ok R := by
    intro α x f h
    cases x with
    | error e => cases h
    | ok a => exact ⟨a, h⟩
  unfold opened at h
  obtain ⟨⟨p, acc⟩, h⟩ := hb h
  obtain ⟨cols, h⟩ := hb h
  obtain ⟨rd, h⟩ := hb h
  cases h
  rfl

section

variable {c' c : Cfg} (hc : ChecksLess c' c)
include hc

theorem openReader_sim (S : Source σ) (fuel : Nat) (filter : Option Filter) (s : σ) :
    openReader c S fuel filter s = .error .terminate ∨
    (openReader c S fuel filter s = .error (.exn .outOfRange) ∧
      ∀ R', openReader c' S fuel filter s = .ok R' → Textless R'.props.header) ∨
    openReader c' S fuel filter s = (openReader c S fuel filter s).map fun R => R.inBuild c' := by
  have hsim : ∀ x y : Res (Header × Buf × σ), Sim x y →
      Sim ((x >>= opened c S fuel filter).map fun R => R.inBuild c') (y >>= opened c' S fuel filter) := by
    intro x y hxy
    have hm : ∀ {α : Type} (x : Res α) (f : α → Res (Reader σ)) (g : Reader σ → Reader σ),
        (x >>= f).map g = x >>= fun a => (f a).map g := by
      intro α x f g
      cases x <;> rfl
    rw [hm]
    refine hxy.bind fun h => ?_
    obtain ⟨h, b, s⟩ := h
    unfold opened
    dsimp only
    rw [hm]
    refine (metaLoop_sim (env := ⟨c, h.endian, h.format, h.pageLength, fuel⟩) hc S fuel _ _).bind fun p => ?_
    obtain ⟨p, acc⟩ := p
    dsimp only
    rw [hm, createColumns_same hc]
    refine (Sim.refl _).bind fun cols => ?_
    rw [hm]
    exact (RD.build_sim (env := ⟨c, h.endian, h.format, h.pageLength, fuel⟩) hc p acc).bind fun rd => .refl _
  have hread := readHeader_sim hc S s
  change (readHeader c S s >>= opened c S fuel filter) = _ ∨ ((readHeader c S s >>= opened c S fuel filter) = _ ∧
    ∀ R', (readHeader c' S s >>= opened c' S fuel filter) = .ok R' → _) ∨
    (readHeader c' S s >>= opened c' S fuel filter) =
      (readHeader c S s >>= opened c S fuel filter).map fun R => R.inBuild c'
  rcases hread with h | ⟨h, v, hv, ht⟩ | h
  · rw [h]; exact .inl rfl
  · refine .inr (.inl ⟨by rw [h]; rfl, fun R' hR => ?_⟩)
    rw [hv] at hR
    obtain ⟨h, b, s⟩ := v
    have := opened_header (x := (h, b, s)) hR
    rw [this]
    exact ht
  · rcases hsim _ _ (.inr h) with h | h
    · left
      generalize (readHeader c S s >>= opened c S fuel filter) = z at h ⊢
      cases z with
      | error e => cases h; rfl
      | ok R => cases h
    · exact .inr (.inr h.symm)

end

theorem openReader_cfg {cfg : Cfg} {S : Source σ} {fuel : Nat} {filter : Option Filter} {s : σ} {R : Reader σ}
    (h : openReader cfg S fuel filter s = .ok R) : R.env.cfg = cfg := by
  have hb : ∀ {α : Type} {x : Res α} {f : α → Res (Reader σ)}, (x >>= f) = .ok R → ∃ a, f a = .ok R := by
    intro α x f h
    cases x with
    | error e => cases h
    | ok a => exact ⟨a, h⟩
  unfold openReader at h
  obtain ⟨⟨hd, b, s⟩, h⟩ := hb h
  obtain ⟨⟨p, acc⟩, h⟩ := hb h
  obtain ⟨cols, h⟩ := hb h
  obtain ⟨rd, h⟩ := hb h
  cases h
  rfl

end Sas.Builds
