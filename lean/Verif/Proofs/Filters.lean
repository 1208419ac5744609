import Verif.Spec.Filters
import Verif.Proofs.Filter

/-!
# Filters that are programs
-/

namespace Sas

open Spec

variable {σ τ φ δ ε : Type}

/-- The filter is asked about all these columns. -/
def askAll (F : FilterCode φ δ) : φ → List Column → Except δ (List Column) × φ
  | f, [] => (.ok [], f)
  | f, c :: cs =>
    match F.ask f c with
    | (.error x, f) => (.error x, f)
    | (.ok b, f) =>
      match askAll F f cs with
      | (.error x, f) => (.error x, f)
      | (.ok l, f) => (.ok (if b then c :: l else l), f)

theorem askAll_ok (F : FilterCode φ δ) : ∀ (cs : List Column) (f f' : φ) (l : List Column),
    askAll F f cs = (.ok l, f') ↔ ∃ a, a.map (fun x => x.1) = cs ∧ Answers F f a f' ∧ l = accepted a := by
  intro cs
  induction cs with
  | nil =>
    intro f f' l
    constructor
    · intro h
      cases h
      exact ⟨[], rfl, .nil _, rfl⟩
    · rintro ⟨a, ha, h, rfl⟩
      rw [List.map_eq_nil_iff] at ha
      subst ha
      cases h
      rfl
  | cons c cs ih =>
    intro f f' l
    rw [askAll]
    constructor
    · intro h
      generalize hx : F.ask f c = x at h
      obtain ⟨r, f1⟩ := x
      cases r with
      | error x => cases h
      | ok b =>
        simp only at h
        generalize hy : askAll F f1 cs = y at h
        obtain ⟨r, f2⟩ := y
        cases r with
        | error x => cases h
        | ok l' =>
          cases h
          obtain ⟨a, h1, h2, rfl⟩ := (ih _ _ _).1 hy
          refine ⟨(c, b) :: a, by rw [List.map_cons, h1], .cons hx h2, ?_⟩
          cases b <;> simp [accepted]
    · rintro ⟨a, ha, h, rfl⟩
      cases h with
      | nil => cases ha
      | cons hc hl =>
        rename_i f1 c' b a
        rw [List.map_cons, List.cons.injEq] at ha
        obtain ⟨h1, h2⟩ := ha
        dsimp only at h1
        subst h1
        rw [hc]
        simp only
        rw [(ih _ _ _).2 ⟨a, h2, hl, rfl⟩]
        cases b <;> simp [accepted]

theorem askAll_error (F : FilterCode φ δ) : ∀ (cs : List Column) (f f' : φ) (x : δ),
    askAll F f cs = (.error x, f') ↔ ThrowsAt F f cs x f' := by
  intro cs
  induction cs with
  | nil =>
    intro f f' x
    constructor
    · intro h; cases h
    · rintro ⟨b, c, a, f1, h, -⟩
      simp at h
  | cons c cs ih =>
    intro f f' x
    rw [askAll]
    constructor
    · intro h
      generalize hx : F.ask f c = y at h
      obtain ⟨r, f1⟩ := y
      cases r with
      | error x =>
        cases h
        exact ⟨[], c, cs, f, rfl, .nil _, hx⟩
      | ok b =>
        simp only at h
        generalize hy : askAll F f1 cs = y at h
        obtain ⟨r, f2⟩ := y
        cases r with
        | ok l => cases h
        | error x' =>
          cases h
          obtain ⟨before, c', after, f3, h1, h2, h3⟩ := (ih _ _ _).1 hy
          exact ⟨(c, b) :: before, c', after, f3, by rw [h1]; rfl, .cons hx h2, h3⟩
    · rintro ⟨before, c', after, f3, h1, h2, h3⟩
      cases h2 with
      | nil =>
        simp only [List.map_nil, List.nil_append, List.cons.injEq] at h1
        rw [h1.1, h3]
      | cons hc hl =>
        rename_i f1 c'' b a
        simp only [List.map_cons, List.cons_append, List.cons.injEq] at h1
        obtain ⟨rfl, h1⟩ := h1
        rw [hc]
        simp only
        rw [(ih _ _ _).2 ⟨a, c', after, f3, h1, hl, h3⟩]

/-- The columns can be built. -/
theorem createAsking_ok (F : FilterCode φ δ) (e : Endian) (acc : Acc) : ∀ (k icol : Nat) (cs cols : List Column) (f : φ),
    allColumns e acc k icol = .ok cs → createAsking (ε := ε) F e acc k icol cols f =
      match askAll F f cs with
      | (.error x, f) => (.error (.filter x), f)
      | (.ok l, f) => (.ok (cols ++ l), f) := by
  intro k
  induction k with
  | zero =>
    intro icol cs cols f h
    cases h
    simp [createAsking, askAll]
  | succ k ih =>
    intro icol cs cols f h
    unfold allColumns at h
    rw [createAsking]
    cases hb : buildColumn e acc icol with
    | error x => rw [hb] at h; cases h
    | ok c =>
      rw [hb] at h
      simp only at h ⊢
      cases ha : allColumns e acc k (icol + 1) with
      | error x => rw [ha] at h; cases h
      | ok cs' =>
        rw [ha] at h
        cases h
        rw [askAll]
        generalize F.ask f c = y
        obtain ⟨r, f1⟩ := y
        cases r with
        | error x => rfl
        | ok b =>
          simp only
          rw [ih _ _ _ _ ha]
          generalize askAll F f1 cs' = z
          obtain ⟨r, f2⟩ := z
          cases r with
          | error x => rfl
          | ok l => cases b <;> simp

/-- A column cannot be built: the filter has been asked about those before it. -/
theorem createAsking_error (F : FilterCode φ δ) (e : Endian) (acc : Acc) :
    ∀ (k icol : Nat) (x : Stop) (cols : List Column) (f : φ), allColumns e acc k icol = .error x →
      ∃ cs, createAsking (ε := ε) F e acc k icol cols f =
        match askAll F f cs with
        | (.error x, f) => (.error (.filter x), f)
        | (.ok _, f) => (.error (.reader x), f) := by
  intro k
  induction k with
  | zero => intro icol x cols f h; cases h
  | succ k ih =>
    intro icol x cols f h
    unfold allColumns at h
    rw [createAsking]
    cases hb : buildColumn e acc icol with
    | error y =>
      rw [hb] at h
      cases h
      exact ⟨[], rfl⟩
    | ok c =>
      rw [hb] at h
      simp only at h ⊢
      cases ha : allColumns e acc k (icol + 1) with
      | ok cs' => rw [ha] at h; cases h
      | error y =>
        rw [ha] at h
        cases h
        generalize hf : F.ask f c = y
        obtain ⟨r, f1⟩ := y
        cases r with
        | error d =>
          refine ⟨[c], ?_⟩
          rw [askAll, hf]
        | ok b =>
          simp only
          obtain ⟨cs, h⟩ := ih _ _ (if b then cols ++ [c] else cols) f1 ha
          refine ⟨c :: cs, ?_⟩
          rw [h, askAll, hf]
          simp only
          generalize askAll F f1 cs = z
          obtain ⟨r, f2⟩ := z
          cases r <;> rfl

/-- A file that can be opened. -/
theorem openAsking_ok (F : FilterCode φ δ) (K : SinkCode τ ε) {cfg : Cfg} {S : Source σ} {fuel : Nat} {s : σ} {R : Reader σ}
    (hR : openReader cfg S fuel none s = .ok R) (f : φ) (k : τ) :
    openAsking F K cfg S fuel s f k =
      match askAll F f R.props.columns with
      | (.error x, f) => (.error (.filter x), f, k)
      | (.ok l, f) =>
        match K.call k (.setProperties { R.props with columns := l }) with
        | (.ok (), k) => (.ok ⟨R.withCols l, k⟩, f, k)
        | (.error x, k) => (.error (.sink x), f, k) := by
  unfold openReader at hR
  unfold openAsking
  cases hh : readHeader cfg S s with
  | error x => rw [hh] at hR; cases hR
  | ok hbs =>
    obtain ⟨h, b, s1⟩ := hbs
    rw [hh] at hR
    simp only [Res.ok_bind] at hR ⊢
    cases hm : metaLoop { cfg := cfg, endian := h.endian, format := h.format, pageLength := h.pageLength, fuel := fuel } S fuel
        ⟨s1, b, PageHdr.reset⟩ {} with
    | error x => rw [hm] at hR; cases hR
    | ok pacc =>
      obtain ⟨p, acc⟩ := pacc
      rw [hm] at hR
      simp only [Res.ok_bind, createColumns_none] at hR ⊢
      unfold createColumnsAsking
      by_cases hn : acc.md.columnCount ≤ cfg.maxCols
      · rw [if_pos hn] at hR ⊢
        cases ha : allColumns h.endian acc acc.md.columnCount 0 with
        | error x => rw [ha] at hR; cases hR
        | ok cs =>
          rw [ha] at hR
          simp only [Res.ok_bind] at hR
          cases hr : RD.build { cfg := cfg, endian := h.endian, format := h.format, pageLength := h.pageLength, fuel := fuel } p acc with
          | error x => rw [hr] at hR; cases hR
          | ok rd =>
            rw [hr] at hR
            cases hR
            rw [createAsking_ok F _ _ _ _ _ _ _ ha]
            simp only
            generalize askAll F f cs = z
            obtain ⟨r, f2⟩ := z
            cases r with
            | error x => rfl
            | ok l =>
              simp only [List.nil_append]
              simp only [Reader.withCols, List.map_cons, List.map_nil, Event.withCols]
              generalize K.call k _ = q
              obtain ⟨q, k'⟩ := q
              cases q <;> rfl
      · rw [if_neg hn] at hR
        cases hR

/-- A file that cannot be opened. -/
theorem openAsking_error (F : FilterCode φ δ) (K : SinkCode τ ε) {cfg : Cfg} {S : Source σ} {fuel : Nat} {s : σ} {e : Stop}
    (hR : openReader cfg S fuel none s = .error e) (f : φ) (k : τ) :
    ∃ cs, openAsking F K cfg S fuel s f k =
      match askAll F f cs with
      | (.error x, f) => (.error (.filter x), f, k)
      | (.ok _, f) => (.error (.reader e), f, k) := by
  unfold openReader at hR
  unfold openAsking
  cases hh : readHeader cfg S s with
  | error x => rw [hh] at hR; cases hR; exact ⟨[], rfl⟩
  | ok hbs =>
    obtain ⟨h, b, s1⟩ := hbs
    rw [hh] at hR
    simp only [Res.ok_bind] at hR ⊢
    cases hm : metaLoop { cfg := cfg, endian := h.endian, format := h.format, pageLength := h.pageLength, fuel := fuel } S fuel
        ⟨s1, b, PageHdr.reset⟩ {} with
    | error x => rw [hm] at hR; cases hR; exact ⟨[], rfl⟩
    | ok pacc =>
      obtain ⟨p, acc⟩ := pacc
      rw [hm] at hR
      simp only [Res.ok_bind, createColumns_none] at hR ⊢
      unfold createColumnsAsking
      by_cases hn : acc.md.columnCount ≤ cfg.maxCols
      · rw [if_pos hn] at hR ⊢
        cases ha : allColumns h.endian acc acc.md.columnCount 0 with
        | error x =>
          rw [ha] at hR
          cases hR
          obtain ⟨cs, hcs⟩ := createAsking_error (ε := ε) F h.endian acc _ 0 _ [] f ha
          refine ⟨cs, ?_⟩
          rw [hcs]
          generalize askAll F f cs = z
          obtain ⟨r, f2⟩ := z
          cases r <;> rfl
        | ok cs =>
          rw [ha] at hR
          simp only [Res.ok_bind] at hR
          cases hr : RD.build { cfg := cfg, endian := h.endian, format := h.format, pageLength := h.pageLength, fuel := fuel } p acc with
          | ok rd => rw [hr] at hR; cases hR
          | error x =>
            rw [hr] at hR
            cases hR
            refine ⟨cs, ?_⟩
            rw [createAsking_ok F _ _ _ _ _ _ _ ha]
            generalize askAll F f cs = z
            obtain ⟨r, f2⟩ := z
            cases r with
            | error x => rfl
            | ok l =>
              rfl
      · rw [if_neg hn] at hR ⊢
        cases hR
        exact ⟨[], rfl⟩

end Sas
