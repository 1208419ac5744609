import Verif.Props.Log
import Verif.Proofs.RleSafe
import Verif.Proofs.Rdc
import Verif.Proofs.Places
import Verif.Proofs.BoundsRows

/-!
# Property C100: why a row cannot be decompressed
-/

namespace Sas.Proofs

open Sas Spec

variable {σ : Type} {S : Source σ}

/-- What is said when bytes are decompressed to `size` bytes: nothing, or why it is impossible and then that it is. -/
def Reason (size : Nat) (src : List Byte) (ms : List Msg) : Prop :=
  ms = [] ∨
  (∃ i n, i < size ∧ size < i + n ∧ ms = [.rowTooLong i n size, .raised .cannotDecompress []]) ∨
  ∃ o b, src[o]? = some b ∧ (b.toNat / 16 = 1 ∨ b.toNat / 16 = 2 ∨ b.toNat / 16 = 3) ∧
    ms = [.unknownCommand (b.toNat / 16) o, .raised .cannotDecompress []]

theorem checkLog_reason {d : Dst} {src : List Byte} (h : d.i < d.mem.length) (n : Nat) :
    Reason d.mem.length src (d.checkLog n) := by
  unfold Dst.checkLog
  split
  · exact .inl rfl
  · exact .inr (.inl ⟨_, _, h, by omega, rfl⟩)

theorem rleStepLog_reason {d : Dst} {values src : List Byte} {offset : Nat} (h : d.i < d.mem.length)
    (hv : ∀ b, src.head? = some b → values[offset]? = some b) :
    Reason d.mem.length values (rleStepLog offset src d) := by
  unfold rleStepLog
  cases src with
  | nil => exact .inl rfl
  | cons val src =>
    have hlt : val.toNat / 16 < 16 := by have := val.toNat_lt; omega
    have hval := hv val rfl
    dsimp only
    split
    · split
      · exact .inl rfl
      · exact checkLog_reason h _
    · split
      · split
        · exact checkLog_reason h _
        · exact .inl rfl
      · split
        · split
          · exact .inl rfl
          · exact checkLog_reason h _
        · split
          · exact checkLog_reason h _
          · split
            · exact checkLog_reason h _
            · split
              · exact checkLog_reason h _
              · split
                · exact checkLog_reason h _
                · split
                  · split
                    · exact .inl rfl
                    · exact checkLog_reason h _
                  · split
                    · exact checkLog_reason h _
                    · exact .inr (.inr ⟨offset, val, hval, by omega, rfl⟩)

theorem rleLog_reason {size : Nat} {values : List Byte} : ∀ (n : Nat) (src : List Byte) (d : Dst) (out : List Byte),
    d.Has size out → src <:+ values → Reason size values (rleLog values.length n src d)
  | 0, _, _, _, _, _ => .inl rfl
  | n + 1, src, d, out, hd, hs => by
    unfold rleLog
    split
    · rename_i hc
      have hstep := rleStep_log (values.length - src.length) src d
      have hr := rleStepLog_reason (values := values) (src := src) (offset := values.length - src.length) hc.2 (by
        intro b hb
        obtain ⟨pre, rfl⟩ := hs
        rw [List.length_append, Nat.add_sub_cancel, List.getElem?_append_right (Nat.le_refl _), Nat.sub_self]
        rw [← hb, List.head?_eq_getElem?])
      rw [hd.len] at hr
      have hok := rleStep_stepOk src hc.1 d
      have hsim := rleStep_sim hd hd src
      generalize rleStep src d = x at *
      rcases x with e | ⟨src', d'⟩
      · simpa using hr
      · rw [hstep.silent rfl, List.nil_append]
        cases hsim with
        | ok _ _ _ out' h1 _ => exact rleLog_reason n src' d' out' h1 (hok.1.trans hs)
    · exact .inl rfl

/-- As above without unknown commands. -/
def TooLong (size : Nat) (ms : List Msg) : Prop :=
  ms = [] ∨ ∃ i n, i < size ∧ size < i + n ∧ ms = [.rowTooLong i n size, .raised .cannotDecompress []]

theorem checkLog_tooLong {d : Dst} (h : d.i < d.mem.length) (n : Nat) : TooLong d.mem.length (d.checkLog n) := by
  unfold Dst.checkLog
  split
  · exact .inl rfl
  · exact .inr ⟨_, _, h, by omega, rfl⟩

theorem rdcStepLog_tooLong {d : Dst} (h : d.i < d.mem.length) (c : Ctrl) (src : List Byte) :
    TooLong d.mem.length (rdcStepLog c src d) := by
  unfold rdcStepLog
  cases rdcControl c src with
  | error e => exact .inl rfl
  | ok x =>
    obtain ⟨c, src⟩ := x
    cases src with
    | nil => exact .inl rfl
    | cons val src =>
      dsimp only
      split
      · split
        · split
          · exact .inl rfl
          · exact checkLog_tooLong h _
        · split
          · split
            · exact checkLog_tooLong h _
            · exact .inl rfl
          · split
            · split
              · exact checkLog_tooLong h _
              · exact .inl rfl
            · split
              · exact .inl rfl
              · exact checkLog_tooLong h _
      · exact checkLog_tooLong h _

theorem rdcLog_tooLong {cfg : Cfg} {size : Nat} : ∀ (n : Nat) (c : Ctrl) (src : List Byte) (d : Dst) (out : List Byte),
    d.Has size out → TooLong size (rdcLog cfg n c src d)
  | 0, _, _, _, _, _ => .inl rfl
  | n + 1, c, src, d, out, hd => by
    unfold rdcLog
    split
    · rename_i hc
      have hstep := rdcStep_log cfg c src d
      have hr := rdcStepLog_tooLong hc.2 c src
      rw [hd.len] at hr
      have hsim := Sas.rdcStep_sim cfg hd hd c src
      generalize rdcStep cfg c src d = x at *
      rcases x with e | ⟨c', src', d'⟩
      · simpa using hr
      · rw [hstep.silent rfl, List.nil_append]
        cases hsim with
        | ok _ _ _ _ out' h1 _ => exact rdcLog_tooLong n c' src' d' out' h1
    · exact .inl rfl

/-- What a call says. -/
def CallReason (size : Nat) (comp : Compression) (ms : List Msg) : Prop :=
  (∀ f, .raised .cannotDecompress f ∉ ms) ∨
  ∃ m, ms = [m, .raised .cannotDecompress []] ∧
    ((∃ i n, m = .rowTooLong i n size ∧ i < size ∧ size < i + n) ∨
      comp = .rle ∧ ∃ c o, m = .unknownCommand c o ∧ (c = 1 ∨ c = 2 ∨ c = 3))

theorem CallReason.nil {size : Nat} {comp : Compression} : CallReason size comp [] := .inl (by simp)

theorem extractLog_reason {env : Env} {md : Meta} {r : RD σ} {off len : Nat}
    (hd : md.compression ≠ .none → r.dst.length = md.rowLength) :
    CallReason md.rowLength md.compression (r.extractLog env md off len) := by
  unfold RD.extractLog
  split
  · exact .nil
  · split
    · exact .nil
    · rename_i values _
      split
      · split
        · exact .nil
        · rename_i hc
          have hl := hd (by rw [hc]; decide)
          have h := rleLog_reason (size := r.dst.length) values.length values ⟨r.dst, 0⟩ [] (Dst.has_init r.dst) (List.suffix_refl _)
          rw [hl] at h
          rcases h with h | ⟨i, n, h1, h2, h3⟩ | ⟨o, b, -, h2, h3⟩
          · rw [h]; exact .nil
          · exact .inr ⟨_, h3, .inl ⟨i, n, rfl, h1, h2⟩⟩
          · exact .inr ⟨_, h3, .inr ⟨hc, _, _, rfl, h2⟩⟩
        · rename_i hc
          have hl := hd (by rw [hc]; decide)
          have h := rdcLog_tooLong (cfg := env.cfg) (size := r.dst.length) values.length ⟨0, 0⟩ values ⟨r.dst, 0⟩ [] (Dst.has_init r.dst)
          rw [hl] at h
          rcases h with h | ⟨i, n, h1, h2, h3⟩
          · rw [h]; exact .nil
          · exact .inr ⟨_, h3, .inl ⟨i, n, rfl, h1, h2⟩⟩
      · exact .nil

/-- The failures of advancing are not those of a decompressor. -/
theorem next_notDecompress (env : Env) (md : Meta) (r : RD σ) : (r.next env S md).1 ≠ .error (.exn .cannotDecompress) := by
  have : Errs (fun e => PageErr e ∨ e = .fuel) (r.next env S md).1 := by
    unfold RD.next
    split
    · exact Errs.ok _
    · split
      · exact Errs.ok _
      · split
        · exact nextPageLoop_errs env S md _ _
        · exact Errs.ok _
  intro h
  simpa [PageErr] using this _ h

theorem raiseLog_reason {size : Nat} {comp : Compression} {e : Stop} (h : e ≠ .exn .cannotDecompress) :
    CallReason size comp (raiseLog e) := by
  left
  intro f hm
  unfold raiseLog at hm
  split at hm
  · split at hm
    · cases List.mem_singleton.1 hm; exact h rfl
    · cases hm
  · cases hm

theorem readLineLog_reason {env : Env} {md : Meta} {r : RD σ} (hd : md.compression ≠ .none → r.dst.length = md.rowLength) :
    CallReason md.rowLength md.compression (r.readLineLog env S md) := by
  unfold RD.readLineLog
  have h1 := next_notDecompress (S := S) env md r
  have h2 := next_dst (S := S) (env := env) (md := md) r
  generalize r.next env S md = x at *
  rcases x with ⟨e | _ | _, r1⟩
  · exact raiseLog_reason fun h => h1 (by rw [h])
  · exact .nil
  · dsimp only
    have h3 := takeLine_dst r1
    generalize r1.takeLine = y at *
    rcases y with ⟨e | ⟨off, len⟩, r2⟩
    · exact .nil
    · exact extractLog_reason fun hc => by
        show r2.dst.length = _
        rw [show r2.dst = r1.dst from h3, show r1.dst = r.dst from h2]
        exact hd hc

theorem skipLog_reason {env : Env} {md : Meta} {size : Nat} {comp : Compression} : ∀ (n : Nat) (r : RD σ),
    CallReason size comp (r.skipLog env S md n)
  | 0, _ => .nil
  | n + 1, r => by
    unfold RD.skipLog
    have h1 := next_notDecompress (S := S) env md r
    generalize r.next env S md = x at *
    rcases x with ⟨e | _ | _, r1⟩
    · exact raiseLog_reason fun h => h1 (by rw [h])
    · exact .nil
    · dsimp only
      generalize r1.takeLine = y
      rcases y with ⟨e | ol, r2⟩
      · exact .nil
      · exact skipLog_reason n r2

/-- The decompressor's buffer has the length of a row. -/
def RowRoom (_ : Env) (md : Meta) (r : RD σ) : Prop := md.compression ≠ .none → r.dst.length = md.rowLength

theorem rowRoom_kept : Kept S (RowRoom (σ := σ)) where
  next env md r h := by intro hc; rw [next_dst]; exact h hc
  take env md r h := by intro hc; rw [takeLine_dst]; exact h hc
  extract env md r off len h := by intro hc; rw [(RD.extract_frame env md r off len).2]; exact h hc

theorem open_rowRoom {cfg : Cfg} {fuel : Nat} {filter : Option Filter} {s : σ} {R : Reader σ}
    (h : openReader cfg S fuel filter s = .ok R) : OfReader RowRoom R := by
  unfold openReader at h
  simp only [bind, Except.bind, pure, Except.pure] at h
  split at h
  · cases h
  · split at h
    · cases h
    · rename_i acc _
      split at h
      · cases h
      · split at h
        · cases h
        · rename_i rd hrd
          cases h
          show RowRoom _ _ rd
          unfold RD.build at hrd
          simp only [bind, Except.bind, pure, Except.pure] at hrd
          have hd := buildDst_calm cfg acc.2.md
          split at hrd
          · cases hrd
          · rename_i dst hdst
            rw [hdst] at hd
            split at hrd
            · split at hrd <;> cases hrd
              exact hd
            · cases hrd
              exact hd

theorem readRow_md (R : Reader σ) : (R.readRow S).2.props = R.props := by
  unfold Reader.readRow
  generalize R.rd.readLine R.env S R.props.md = x
  rcases x with ⟨e | _ | row, r⟩ <;> rfl

theorem readRowsLog_reason : ∀ (n : Nat) {R : Reader σ}, OfReader RowRoom R →
    CallReason R.props.md.rowLength R.props.md.compression (R.readRowsLog S n)
  | 0, _, _ => .nil
  | n + 1, R, h => by
    unfold Reader.readRowsLog
    have h0 : CallReason R.props.md.rowLength R.props.md.compression (R.readRowLog S) := readLineLog_reason h
    have h1 := readRow_log S R
    have h2 := rowRoom_kept.readRow h (S := S)
    have h3 := readRow_md (S := S) R
    generalize R.readRow S = x at *
    rcases x with ⟨e | _ | _, R'⟩
    · simpa using h0
    · simpa using h0
    · rw [h1.silent rfl, List.nil_append]
      have := readRowsLog_reason n h2
      rwa [show R'.props = R.props from h3] at this

/-! ## Missing values -/

/-- Opening a well-formed file, whether its columns are described or not. -/
theorem openLog_acc {cfg : Cfg} {s : σ} {h : FileHeader} {pre : List (List Byte × PageContent)}
    {k : Option (List Byte × PageContent)} {post : List (List Byte)} {en : Ending} {all : List Sub} {c : Compression} {fuel : Nat}
    (hw : WellFormed cfg S s h pre k post en all c fuel) :
    ∃ acc, AccIs acc all ∧
      openLog cfg S fuel s = saidOnPages h.fmt (decide (c ≠ .none)) [] (pre ++ k.toList) ++ createColumnsLog cfg h.endian acc := by
  obtain ⟨bs, s1, s2, hl, r1, r2, hst⟩ := hw.presents
  have hm := hw.fileMeta
  obtain ⟨b, e1, hb⟩ := readHeader_loggable (cfg := cfg) hl hw.memory.1 hw.loggable r1 r2
  have hc := hm.compressedBy
  unfold openLog
  rw [e1]
  show ∃ acc, AccIs acc all ∧ metaLog (envOf cfg h fuel) S fuel ⟨s2, b, PageHdr.reset⟩ {} ++
    (match metaLoop (envOf cfg h fuel) S fuel ⟨s2, b, PageHdr.reset⟩ {} with
      | .error _ => []
      | .ok (_, acc) => createColumnsLog cfg h.endian acc) = _
  have hfit := envOf_fits (cfg := cfg) (fuel := fuel) ⟨bs, hl⟩ hw.memory.2.1
  have hpre : ∀ pc ∈ pre, PageIs (envOf cfg h fuel).endian (envOf cfg h fuel).format pc.1 pc.2 ∧
      pc.2.last (compressedBy all) = false := fun pc hpc => by rw [hc]; exact hm.pre_is pc hpc
  cases hk : k with
  | some kp =>
    rw [hk] at hst
    obtain ⟨hk1, hk2⟩ := hm.k_is kp hk
    have hall : all = usedOf (pre.map (·.2)) ++ kp.2.used := by rw [hm.all_eq, hk]; simp [usedOf]
    rw [metaLog_stop hfit all hm.room hm.rows pre kp post en _ fuel hb.good hst hpre hk1 (by rw [hc]; exact hk2) hall hw.enough]
    obtain ⟨acc, b', s', e3, -, -, hacc, -⟩ := metaLoop_stop hfit all hm.room hm.rows pre kp post en
      ⟨s2, b, PageHdr.reset⟩ fuel hb.good hst hpre hk1 (by rw [hc]; exact hk2) hall hw.enough
    rw [e3, hc]
    exact ⟨acc, hacc, rfl⟩
  | none =>
    obtain ⟨rfl, rfl⟩ := hw.noRows hk
    rw [hk] at hst
    have hall : all = usedOf (pre.map (·.2)) := by rw [hm.all_eq, hk]; simp [usedOf]
    have hst' : Stream S (envOf cfg h fuel).pageLength s2 (pre.map (·.1)) .endOfFile := by simpa [envOf] using hst
    rw [metaLog_eof hfit all hm.room hm.rows pre _ fuel hb.good hst' hpre hall hw.enough]
    obtain ⟨acc, b', s', e3, -, hacc, -⟩ := metaLoop_eof hfit all hm.room hm.rows pre
      ⟨s2, b, PageHdr.reset⟩ fuel hb.good hst' hpre hall hw.enough
    rw [e3, hc]
    exact ⟨acc, hacc, by simp [envOf]⟩

theorem said_few (f : Format) (c : Bool) : ∀ (pages : List (List Byte × PageContent)) (ss : List Sub) n k w,
    .fewValues n k w ∉ saidOnPages f c ss pages := by
  have about : ∀ (page : List Byte) (ss : List Sub) (p : PageSub) (s : Sub) n k w, Msg.fewValues n k w ∉ saidAbout f c page ss p s := by
    intro page ss p s n k w h
    cases s <;> simp only [saidAbout] at h
    all_goals first | (cases h; done) | (split at h <;> simp at h)
  have one : ∀ (page : List Byte) (l : List (PageSub × Sub)) (ss : List Sub) n k w,
      Msg.fewValues n k w ∉ saidOnPage f c page ss l := by
    intro page l
    induction l with
    | nil => intro ss n k w h; cases h
    | cons x l ih =>
      intro ss n k w h
      obtain ⟨p, s⟩ := x
      unfold saidOnPage at h
      rcases List.mem_append.1 h with h | h
      · exact about _ _ _ _ _ _ _ h
      · exact ih _ _ _ _ h
  intro pages
  induction pages with
  | nil => intro ss n k w h; cases h
  | cons pc pages ih =>
    intro ss n k w h
    unfold saidOnPages at h
    rcases List.mem_append.1 h with h | h
    · exact one _ _ _ _ _ _ h
    · exact ih _ _ _ _ h

theorem valuesLog_all (ncols : Nat) : ∀ l : List (List Byte × Nat), (∀ x ∈ l, 0 < x.2) → ∀ w k, (w, k) ∈ l → k < ncols →
    .fewValues ncols k w ∈ valuesLog ncols 0 l
  | [], _, _, _, h, _ => by cases h
  | (w', k') :: l, hl, w, k, h, hk => by
    unfold valuesLog
    rcases List.mem_cons.1 h with h | h
    · cases h
      rw [if_pos (by omega)]
      simp
    · refine List.mem_append_right _ ?_
      rw [if_pos (hl (w', k') (by simp))]
      exact valuesLog_all ncols l (fun x hx => hl x (by simp [hx])) w k h hk

end Sas.Proofs

namespace Sas.Props

open Sas Spec Proofs

variable {σ : Type} {S : Source σ}

/-- C100, the reasons, for the decompressors. When compressed bytes cannot be decompressed, it is said why and then that it is so. The
reason is true: so many bytes at this position do not fit in the row, or the byte at this position of the compressed bytes is an
unknown command (1, 2 or 3 in its upper half, RLE only). -/
theorem C100_decompress (cfg : Cfg) (src dst : List Byte) :
    ((rle src dst).1 = .error (.exn .cannotDecompress) →
      ∃ m, rleLog src.length src.length src ⟨dst, 0⟩ = [m, .raised .cannotDecompress []] ∧
        ((∃ i n, m = .rowTooLong i n dst.length ∧ i < dst.length ∧ dst.length < i + n) ∨
          ∃ o b, m = .unknownCommand (b.toNat / 16) o ∧ src[o]? = some b ∧ b.toNat / 16 ∈ [1, 2, 3])) ∧
    ((rdc cfg src dst).1 = .error (.exn .cannotDecompress) →
      ∃ i n, rdcLog cfg src.length ⟨0, 0⟩ src ⟨dst, 0⟩ = [.rowTooLong i n dst.length, .raised .cannotDecompress []] ∧
        i < dst.length ∧ dst.length < i + n) := by
  constructor
  · intro h
    have hl := rle_log src dst
    have hr := rleLog_reason src.length src ⟨dst, 0⟩ [] (Dst.has_init dst) (List.suffix_refl src)
    obtain ⟨f, hf⟩ := hl.last _ h (by decide)
    rcases hr with hr | ⟨i, n, h1, h2, h3⟩ | ⟨o, b, h1, h2, h3⟩
    · rw [hr] at hf; cases hf
    · exact ⟨_, h3, .inl ⟨i, n, rfl, h1, h2⟩⟩
    · exact ⟨_, h3, .inr ⟨o, b, rfl, h1, by simpa using h2⟩⟩
  · intro h
    have hl := rdc_log cfg src dst
    have hr := rdcLog_tooLong (cfg := cfg) src.length ⟨0, 0⟩ src ⟨dst, 0⟩ [] (Dst.has_init dst)
    obtain ⟨f, hf⟩ := hl.last _ h (by decide)
    rcases hr with hr | ⟨i, n, h1, h2, h3⟩
    · rw [hr] at hf; cases hf
    · exact ⟨i, n, h3, h1, h2⟩

/-- C100, the reasons, for the calls of a reader of any source and after any history: a call that is left by `cannot_decompress` writes two
messages, the reason and the exception. The reason is that bytes do not fit in a row, with its length, or, for RLE files, a command
that does not exist. -/
theorem C100_reasons {cfg : Cfg} {fuel : Nat} {filter : Option Filter} {s : σ} {R₀ R : Reader σ} {ops : List Op} {op : Op}
    (ho : openReader cfg S fuel filter s = .ok R₀) (hR : R = (R₀.run S ops).2)
    (h : (R.step S op).1 = .error (.exn .cannotDecompress)) :
    ∃ m, R.stepLog S op = [m, .raised .cannotDecompress []] ∧
      ((∃ i n, m = .rowTooLong i n R.props.md.rowLength ∧ i < R.props.md.rowLength ∧ R.props.md.rowLength < i + n) ∨
        R.props.md.compression = .rle ∧ ∃ c o, m = .unknownCommand c o ∧ c ∈ [1, 2, 3]) := by
  have hroom : OfReader RowRoom R := hR ▸ rowRoom_kept.run ops (open_rowRoom ho)
  have key : CallReason R.props.md.rowLength R.props.md.compression (R.stepLog S op) := by
    cases op with
    | readRow => exact readLineLog_reason hroom
    | readRows n => exact readRowsLog_reason n hroom
    | readAll => exact readRowsLog_reason _ hroom
    | skip n => exact skipLog_reason n _
    | readRowNoSink => exact readLineLog_reason hroom
    | endOfData => exact .nil
  have hlast := (step_log S R op).last _ h (by decide)
  rcases key with key | ⟨m, h1, h2⟩
  · obtain ⟨f, hf⟩ := hlast
    exact absurd (List.mem_of_getLast? hf) (key f)
  · refine ⟨m, h1, ?_⟩
    rcases h2 with h2 | ⟨hc, c, o, rfl, h2⟩
    · exact .inl h2
    · exact .inr ⟨hc, c, o, rfl, by simpa using h2⟩

/-- The second row of the demonstration file has too many bytes; the same bytes with an unknown command. -/
example : (Demo.rleReader.step ifs .readAll).1 = .error (.exn .cannotDecompress) ∧
    Demo.rleReader.stepLog ifs .readAll = [.rowTooLong 0 17 14, .raised .cannotDecompress []] ∧
    (rle [0x80, 7, 0x2F, 1] [0, 0, 0, 0]).1 = .error (.exn .cannotDecompress) ∧
    rleLog 4 4 [0x80, 7, 0x2F, 1] ⟨[0, 0, 0, 0], 0⟩ = [.unknownCommand 2 2, .raised .cannotDecompress []] := by decide +kernel

/-- The kinds of values of columns by their names, and how many there are in the subheaders. -/
def valueCounts (all : List Sub) : List (List Byte × Nat) :=
  [(ascii "name", (nameRefs [] all).length), (ascii "label", (labelRefs [] all).length), (ascii "format", (formatRefs [] all).length),
   (ascii "data_offset", (attrs all).length), (ascii "data_length", (attrs all).length), (ascii "data_type", (attrs all).length)]

/-- C100, missing values. In a well-formed file with any subheaders, a message about missing values is true: the number of columns is that
of the last column-size subheader, and there are so many values of the kind it names, which is not enough. And when there are values
of all kinds, each kind of which there are not enough is named. -/
theorem C100_missing {cfg : Cfg} {s : σ} {h : FileHeader} {pre : List (List Byte × PageContent)}
    {k : Option (List Byte × PageContent)} {post : List (List Byte)} {en : Ending} {all : List Sub} {c : Compression} {fuel : Nat}
    (hw : WellFormed cfg S s h pre k post en all c fuel) :
    (∀ n v w, .fewValues n v w ∈ openLog cfg S fuel s → n = columnCountOf 0 all ∧ (w, v) ∈ valueCounts all ∧ v < n) ∧
    (columnCountOf 0 all ≤ cfg.maxCols → (∀ x ∈ valueCounts all, 0 < x.2) → ∀ w v, (w, v) ∈ valueCounts all →
      v < columnCountOf 0 all → .fewValues (columnCountOf 0 all) v w ∈ openLog cfg S fuel s) := by
  obtain ⟨acc, hacc, hlog⟩ := openLog_acc hw
  have hlists : acc.lists = valueCounts all := by
    unfold Acc.lists valueCounts
    rw [hacc.names, hacc.labels, hacc.formats, hacc.offsets, hacc.lengths, hacc.types]
    simp only [List.length_map]
  rw [hlog]
  refine ⟨fun n v w hm => ?_, fun hc hall w v hm hv => ?_⟩
  · rcases List.mem_append.1 hm with hm | hm
    · exact absurd hm (said_few _ _ _ _ _ _ _)
    · unfold createColumnsLog at hm
      split at hm
      · obtain ⟨n', w', h1, h2, h3⟩ := createLog_true _ _ _ _ _ hm
        cases h1
        rw [hlists] at h2
        exact ⟨hacc.columnCount, h2, h3⟩
      · cases hm
  · refine List.mem_append_right _ ?_
    unfold createColumnsLog
    rw [hacc.columnCount, if_pos hc]
    obtain ⟨j, hj⟩ : ∃ j, columnCountOf 0 all = j + 1 := ⟨columnCountOf 0 all - 1, by omega⟩
    rw [hj]
    unfold createLog
    refine List.mem_append_left _ ?_
    rw [hacc.columnCount, hlists, hj]
    rw [hj] at hv
    exact valuesLog_all _ _ hall w v hm hv

/-- What is on the metadata page of the demonstration file with a column count of 3. -/
def fewContent : PageContent :=
  ⟨0, 0,
    [(⟨240, 384, 0, 0⟩, .rowSize ⟨14, 3, 2, 0, 0, 0, 4⟩),
     (⟨624, 12, 0, 0⟩, .columnSize 3),
     (⟨636, 72, 0, 0⟩, .columnText ((Demo.columnText (ascii "        ")).drop 4)),
     (⟨708, 36, 0, 0⟩, .columnNames [⟨0, 36, 2⟩, ⟨0, 40, 4⟩]),
     (⟨744, 44, 0, 0⟩, .columnAttrs [⟨0, 8, true⟩, ⟨8, 6, false⟩]),
     (⟨788, 52, 0, 0⟩, .formatLabel ⟨0, 48, 4⟩ ⟨0, 0, 0⟩),
     (⟨840, 52, 0, 0⟩, .formatLabel ⟨0, 0, 0⟩ ⟨0, 56, 3⟩)]⟩

/-- The pages of the demonstration file with a column count of 3. -/
def fewPages : List (List Byte × PageContent) :=
  (Demo.page 900 0 0
    [(240, 384, 0, 0), (624, 12, 0, 0), (636, 72, 0, 0), (708, 36, 0, 0), (744, 44, 0, 0), (788, 52, 0, 0), (840, 52, 0, 0)]
    [(240, Demo.rowSize 14 3 0), (624, Demo.columnSize 3), (636, Demo.columnText (ascii "        ")),
     (708, Demo.columnNames), (744, Demo.columnAttrs), (788, Demo.formatLabel 48 4 0 0), (840, Demo.formatLabel 0 0 56 3)],
   fewContent) :: Demo.filePages.drop 1

/-- Its subheaders. -/
def fewSubs : List Sub := fewContent.subs.map (·.2)

theorem fewPages_is : ∀ pc ∈ fewPages, PageIs .little .bit32 pc.1 pc.2 := by decide +kernel

theorem few_wellFormed : WellFormed Demo.cfg ifs (IFStream.open (Demo.header 900 4 ++ ((fewPages.map (·.1)).flatten ++ []))) demoHeader
    (fewPages.take 1) fewPages[1]? ((fewPages.drop 2).map (·.1)) .endOfFile fewSubs .none 10 where
  presents := by
    have h := ifs_presents demoHeader_layout (fewPages.map (·.1)) (by decide +kernel) [] (by decide +kernel)
    have e : (fewPages.take 1).map (·.1) ++ (fewPages[1]?.toList.map (·.1) ++ (fewPages.drop 2).map (·.1)) =
      fewPages.map (·.1) := by decide +kernel
    rw [e]
    exact h
  fileMeta :=
    { all_eq := by decide +kernel
      compression := by
        have h : (texts fewSubs).head? = some ((Demo.columnText (ascii "        ")).drop 4) := by decide +kernel
        refine ⟨?_, ?_⟩ <;> rw [h] <;> simp only [Option.some.injEq, exists_eq_left'] <;> decide +kernel
      room := by decide +kernel
      rows := by decide +kernel
      pre_is := fun pc hpc => ⟨fewPages_is pc (List.mem_of_mem_take hpc), by revert pc; decide +kernel⟩
      k_is := fun pc hpc => ⟨fewPages_is pc (List.mem_of_getElem? hpc), by
        have : pc = (Demo.page 900 256 2 [] [(24, Demo.row 0 "ann   " ++ Demo.row 1 "bob   ")], ⟨256, 2, []⟩) := by
          simp [fewPages, Demo.filePages] at hpc; exact hpc.symm
        subst this; decide +kernel⟩ }
  memory := by decide +kernel
  loggable := fun h => by cases h
  enough := by decide +kernel
  noRows := by decide +kernel

/-- There are two names for three columns, and this is said. -/
example : .fewValues 3 2 (ascii "name") ∈
    openLog Demo.cfg ifs 10 (IFStream.open (Demo.header 900 4 ++ ((fewPages.map (·.1)).flatten ++ []))) :=
  (C100_missing few_wellFormed).2 (by decide +kernel) (by decide +kernel) _ 2 (by decide +kernel) (by decide +kernel)

end Sas.Props
