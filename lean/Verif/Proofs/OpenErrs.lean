import Verif.Proofs.Errs
import Verif.Model.Reader

/-! Which failures opening a file can produce. -/

namespace Sas

variable {α β σ : Type}

theorem Errs.notFuel {x : Res α} (h : Errs Crash x) : x ≠ .error .fuel := by
  intro he
  rcases h _ he with h | h <;> cases h

theorem Buf.rd_bound {cfg : Cfg} {b : Buf} {o n : Nat} {v : List Byte} (h : b.rd cfg o n = .ok v) :
    o + n ≤ b.mem.length := by
  unfold Buf.rd at h
  split at h
  · cases h
  · split at h
    · assumption
    · cases h

theorem bind_ok_inv {x : Res α} {f : α → Res β} {c : β} (h : (x >>= f) = .ok c) :
    ∃ a, x = .ok a ∧ f a = .ok c := by
  cases x with
  | error e => cases h
  | ok a => exact ⟨a, rfl, h⟩

theorem Buf.getU16_bound {cfg : Cfg} {e : Endian} {b : Buf} {o v : Nat} (h : b.getU16 cfg e o = .ok v) :
    o + 2 ≤ b.mem.length := by
  obtain ⟨a, ha, -⟩ := bind_ok_inv h
  exact Buf.rd_bound ha

theorem Buf.getByte_bound {cfg : Cfg} {b : Buf} {o : Nat} {v : Byte} (h : b.getByte cfg o = .ok v) :
    o + 1 ≤ b.mem.length := by
  obtain ⟨a, ha, -⟩ := bind_ok_inv h
  exact Buf.rd_bound ha

theorem nameLoop_errs (env : Env) (b : Buf) (texts : List (List Byte)) (offMax n : Nat) :
    ∀ (off : Nat) (names : List (List Byte)), 1 ≤ n → b.mem.length + 3 ≤ off + 8 * n →
      Errs Crash (nameLoop env b texts offMax n off names) := by
  induction n with
  | zero => intro off names h; omega
  | succ n ih =>
    intro off names _ hn
    unfold nameLoop
    refine Errs.ite ?_ (Errs.ok _)
    refine Errs.bind (b.getU16_errs _ _ _) fun _ _ => Errs.bind (b.getU16_errs _ _ _) fun _ _ =>
      Errs.bind (b.getU16_errs _ _ _) fun v hv => ?_
    have := Buf.getU16_bound hv
    exact ih _ _ (by omega) (by omega)

theorem attrLoop_errs (env : Env) (b : Buf) (offMax n : Nat) :
    ∀ (off : Nat) (a : List Nat × List Nat × List Bool), 1 ≤ n → b.mem.length + 2 ≤ off + 12 * n →
      Errs Crash (attrLoop env b offMax n off a) := by
  induction n with
  | zero => intro off a h; omega
  | succ n ih =>
    rintro off ⟨os, ls, ts⟩ _ hn
    unfold attrLoop
    refine Errs.ite ?_ (Errs.ok _)
    refine Errs.bind (b.getUInt_errs _ _ _ _) fun _ _ => Errs.bind (b.getU32_errs _ _ _) fun _ _ =>
      Errs.bind (b.getByte_errs _ _) fun v hv => ?_
    have := Buf.getByte_bound hv
    have hi : 4 ≤ env.format.intSize := by unfold Format.intSize; split <;> omega
    exact ih _ _ (by omega) (by omega)

theorem processColumnText_errs (env : Env) (b : Buf) (acc : Acc) (o : Nat) :
    Errs Crash (processColumnText env b acc o) := by
  have hs : ∀ o n, Errs Crash (b.getString env.cfg o n) := fun o n =>
    Errs.bind (b.rd_errs _ _ _) fun _ _ => Errs.ok _
  unfold processColumnText
  refine Errs.bind (b.getU16_errs _ _ _) fun _ _ => Errs.bind (b.rd_errs _ _ _) fun _ _ => ?_
  refine Errs.ite ?_ (Errs.ok _)
  refine Errs.bind (hs _ _) fun _ _ => ?_
  refine Errs.ite (Errs.bind (hs _ _) fun _ _ => Errs.ok _) (Errs.ite
    (Errs.bind (hs _ _) fun _ _ => Errs.ok _) (Errs.ite
    (Errs.bind (hs _ _) fun _ _ => Errs.ok _)
    (Errs.bind (Errs.ok _) fun _ _ => Errs.ok _)))

theorem processSubheader_errs (env : Env) (b : Buf) (acc : Acc) (s : PageSub) :
    Errs Crash (processSubheader env b acc s) := by
  have hi : env.format.intSize = 4 ∨ env.format.intSize = 8 := by
    unfold Format.intSize; split <;> simp
  unfold processSubheader
  refine Errs.bind (b.rd_errs _ _ _) fun sig hsig => ?_
  split
  · refine Errs.bind ?_ fun _ _ => Errs.ok _
    unfold processRowSize
    exact Errs.bind (b.assertCheck_errs _ _) fun _ _ => Errs.bind (b.getU16_errs _ _ _) fun _ _ =>
      Errs.bind (b.getU16_errs _ _ _) fun _ _ => Errs.bind (b.getUInt_errs _ _ _ _) fun _ _ =>
      Errs.bind (b.getUInt_errs _ _ _ _) fun _ _ => Errs.bind (b.getUInt_errs _ _ _ _) fun _ _ =>
      Errs.bind (b.getUInt_errs _ _ _ _) fun _ _ => Errs.bind (b.getUInt_errs _ _ _ _) fun _ _ =>
      Errs.ok _
  · refine Errs.bind ?_ fun _ _ => Errs.ok _
    exact Errs.bind (b.getUInt_errs _ _ _ _) fun _ _ => Errs.ok _
  · exact Errs.ok _
  · exact Errs.bind (processColumnText_errs _ _ _ _) fun _ _ => Errs.ok _
  · refine Errs.bind ?_ fun _ _ => Errs.ok _
    exact Errs.bind (nameLoop_errs _ _ _ _ _ _ _ (by omega) (by omega)) fun _ _ => Errs.ok _
  · refine Errs.bind ?_ fun _ _ => Errs.ok _
    exact Errs.bind (attrLoop_errs _ _ _ _ _ _ (by omega) (by omega)) fun _ _ => Errs.ok _
  · refine Errs.bind ?_ fun _ _ => Errs.ok _
    unfold processFormatAndLabel
    exact Errs.bind (b.assertCheck_errs _ _) fun _ _ => Errs.bind (b.getU16_errs _ _ _) fun _ _ =>
      Errs.bind (b.getU16_errs _ _ _) fun _ _ => Errs.bind (b.getU16_errs _ _ _) fun _ _ =>
      Errs.bind (b.getU16_errs _ _ _) fun _ _ => Errs.bind (b.getU16_errs _ _ _) fun _ _ =>
      Errs.bind (b.getU16_errs _ _ _) fun _ _ => Errs.ok _
  · exact Errs.ok _
  · exact Errs.ite (Errs.ok _) (Errs.ok _)

theorem processPage_errs (env : Env) (b : Buf) (h : PageHdr) (acc : Acc) :
    Errs Crash (processPage env b h acc) := by
  unfold processPage
  refine Errs.ite (Errs.bind ?_ fun _ _ => Errs.ok _) (Errs.bind (Errs.ok _) fun _ _ => Errs.ok _)
  refine processSubs_errs (fun _ h => h) _ _ _ (fun a s => ?_) _ _ _
  exact Errs.bind (processSubheader_errs _ _ _ _) fun _ _ => Errs.ok _

theorem metaLoop_errs (env : Env) (S : Source σ) (n : Nat) : ∀ (p : PState σ) (acc : Acc),
    Errs (fun e => PageErr e ∨ e = .fuel) (metaLoop env S n p acc) := by
  induction n with
  | zero => intro p acc; exact Errs.err (.inr rfl)
  | succ n ih =>
    intro p acc
    unfold metaLoop
    have h1 := readPage_errs env S p
    generalize readPage env S p = x at *
    obtain ⟨res, p'⟩ := x
    cases res with
    | error e => exact Errs.err (.inl (h1 e rfl))
    | ok b =>
      cases b with
      | false => exact Errs.ok _
      | true =>
        refine Errs.bind ((processPage_errs _ _ _ _).mono fun e h => .inl (.inr (.inr h))) ?_
        intro a _
        exact Errs.ite (Errs.ok _) (ih _ _)

theorem at?_errs {l : List α} {i : Nat} : Errs (fun e => e = .exn .outOfRange) (at? l i) := by
  unfold at?
  split
  · exact Errs.ok _
  · exact Errs.err rfl

theorem createLoop_errs (e : Endian) (acc : Acc) (filter : Option Filter) (k : Nat) :
    ∀ (i : Nat) (cols : List Column), Errs (fun e => e = .exn .outOfRange) (createLoop e acc filter k i cols) := by
  induction k with
  | zero => intro i cols; exact Errs.ok _
  | succ k ih =>
    intro i cols
    unfold createLoop
    refine Errs.bind ?_ fun c _ => ih _ _
    unfold buildColumn
    exact Errs.bind at?_errs fun _ _ => Errs.bind at?_errs fun _ _ => Errs.bind at?_errs fun _ _ =>
      Errs.bind at?_errs fun _ _ => Errs.bind at?_errs fun _ _ => Errs.bind at?_errs fun _ _ => Errs.ok _

theorem createColumns_errs (cfg : Cfg) (e : Endian) (acc : Acc) (filter : Option Filter) :
    Errs (fun e => e = .exn .outOfRange ∨ e = .exn .badAlloc) (createColumns cfg e acc filter) := by
  unfold createColumns
  exact Errs.ite ((createLoop_errs _ _ _ _ _ _).mono fun _ h => .inl h) (Errs.err (.inr rfl))

theorem RD.build_errs (env : Env) (p : PState σ) (acc : Acc) :
    Errs (fun e => e = .exn .badAlloc ∨ Crash e) (RD.build env p acc) := by
  unfold RD.build
  refine Errs.bind ?_ fun _ _ => Errs.ite (Errs.bind ?_ fun _ _ => Errs.ok _) (Errs.ok _)
  · intro e he
    unfold buildDst at he
    split at he
    · cases he
    · unfold Buf.alloc at he
      split at he
      · cases he
      · rename_i heq
        split at heq
        · cases heq
        · cases heq; cases he; exact .inl rfl
  · exact (buildPage_errs _ _ _ _).mono fun _ h => .inr h

/-- The failures after the header phase. -/
def BodyErr (e : Stop) : Prop :=
  e = .exn .badAlloc ∨ e = .exn .cannotReadPage ∨ e = .exn .outOfRange ∨ e = .terminate ∨ e = .ub ∨ e = .fuel

/-- Opening is the header phase, then a phase with other failures. -/
theorem openReader_errs (cfg : Cfg) (S : Source σ) (fuel : Nat) (filter : Option Filter) (s : σ) :
    Errs (fun e => BodyErr e ∨ readHeader cfg S s = .error e) (openReader cfg S fuel filter s) := by
  unfold openReader
  refine Errs.bind (fun e he => .inr he) fun x hx => ?_
  obtain ⟨h, b, s'⟩ := x
  have c1 : ∀ e, (PageErr e ∨ e = .fuel) → BodyErr e ∨ readHeader cfg S s = .error e := by
    rintro e ((h | h | h | h) | h) <;> simp [BodyErr, h]
  have c2 : ∀ e, (e = .exn .outOfRange ∨ e = .exn .badAlloc) → BodyErr e ∨ readHeader cfg S s = .error e := by
    rintro e (h | h) <;> simp [BodyErr, h]
  have c3 : ∀ e, (e = .exn .badAlloc ∨ Crash e) → BodyErr e ∨ readHeader cfg S s = .error e := by
    rintro e (h | h | h) <;> simp [BodyErr, h]
  exact Errs.bind ((metaLoop_errs _ _ _ _ _).mono c1) fun y hy =>
    Errs.bind ((createColumns_errs _ _ _ _).mono c2) fun z hz =>
      Errs.bind ((RD.build_errs _ _ _).mono c3) fun _ _ => Errs.ok _

end Sas
