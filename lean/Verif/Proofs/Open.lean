import Verif.Proofs.MetaLoop

/-!
# Opening a file laid out as specified
-/

namespace Sas

open Spec

/-! ## Texts, compression, types -/

theorem columnTextSubstr_eq (ts : List (List Byte)) (r : TextRef) :
    resolve (ts, r) = match referenced ts r with
      | [] => []
      | b :: cell => if isPrint b then getStringTrim (b :: cell) else [] := by
  unfold resolve columnTextSubstr referenced
  cases ht : ts[r.text]? with
  | none => rfl
  | some t =>
    simp only
    have : slice t (min r.offset t.length) (min r.length (t.length - min r.offset t.length)) =
        (t.drop r.offset).take r.length := by
      unfold slice
      by_cases h : r.offset ≤ t.length
      · rw [Nat.min_eq_left h]
        by_cases h2 : r.length ≤ t.length - r.offset
        · rw [Nat.min_eq_left h2]
        · rw [Nat.min_eq_right (by omega), List.take_of_length_le (by simp),
            List.take_of_length_le (by simp; omega)]
      · rw [Nat.min_eq_right (a := r.offset) (by omega), List.drop_of_length_le (Nat.le_refl _),
          List.drop_of_length_le (by omega)]
        simp
    rw [this]
    cases (t.drop r.offset).take r.length <;> rfl

theorem skipSpace_append_blanks (lead rest : List Byte) (h : ∀ b ∈ lead, b = 0x20) :
    skipSpace (lead ++ rest) = skipSpace rest := by
  induction lead with
  | nil => rfl
  | cons x l ih =>
    have hx := h x (List.mem_cons_self ..)
    subst hx
    simp only [List.cons_append, skipSpace]
    rw [if_pos (by decide)]
    exact ih fun b hb => h b (List.mem_cons_of_mem _ hb)

theorem resolve_refersTo {ts : List (List Byte)} {r : TextRef} {text : List Byte}
    (h : RefersTo ts r text) : resolve (ts, r) = text := by
  obtain ⟨⟨lead, pad, hc, hlead, hpad⟩, hfirst, hlast⟩ := h
  rw [columnTextSubstr_eq, hc]
  have htrim : getStringTrim (lead ++ text ++ pad) = text := by
    have hf : TextField (text ++ pad) text :=
      ⟨⟨pad, rfl, hpad⟩, fun b hb => (hfirst b hb).2, hlast⟩
    have h1 := getStringTrim_field hf
    unfold getStringTrim at h1 ⊢
    rw [List.append_assoc, skipSpace_append_blanks _ _ hlead]
    exact h1
  cases hl : lead ++ text ++ pad with
  | nil =>
    have : text = [] := by
      simp only [List.append_eq_nil_iff] at hl
      exact hl.1.2
    simp [this]
  | cons x cell =>
    rw [hl] at htrim
    simp only [htrim]
    split
    · rfl
    · rename_i hx
      cases lead with
      | cons y l =>
        have hy := hlead y (List.mem_cons_self ..)
        simp only [List.cons_append, List.cons.injEq] at hl
        rw [← hl.1, hy] at hx
        exact absurd (by decide) hx
      | nil =>
        cases text with
        | nil => rfl
        | cons y t =>
          have hy := (hfirst y rfl).1
          simp only [List.nil_append, List.cons_append, List.cons.injEq] at hl
          rw [← hl.1, isPrint_iff] at hx
          exact absurd hy hx

theorem containsSub_iff (pat : List Byte) : ∀ l, containsSub pat l = true ↔ pat <:+: l := by
  intro l
  induction l with
  | nil => cases pat <;> simp [containsSub]
  | cons x l ih =>
    simp only [containsSub, Bool.or_eq_true, ih, List.isPrefixOf_iff_prefix]
    constructor
    · rintro (h | h)
      · exact h.isInfix
      · obtain ⟨a, b, h⟩ := h
        exact ⟨x :: a, b, by simp [← h]⟩
    · rintro ⟨a, b, h⟩
      cases a with
      | nil => left; exact ⟨b, by simpa using h⟩
      | cons y a =>
        right
        simp only [List.cons_append, List.cons.injEq] at h
        exact ⟨a, b, h.2⟩

theorem rleMarker_eq : rleMarker = rleLiteral := by decide +kernel
theorem rdcMarker_eq : rdcMarker = rdcLiteral := by decide +kernel

theorem announcedBy_isCompression (ts : List (List Byte)) : IsCompression ts (announcedBy ts) := by
  unfold announcedBy
  cases h : ts.head? with
  | none => constructor <;> simp [h]
  | some t =>
    constructor
    · rw [rleMarker_eq]
      simp only [h, announced, Option.some.injEq, exists_eq_left']
      rw [← containsSub_iff]
      by_cases h1 : containsSub rleLiteral t = true
      · simp [h1]
      · by_cases h2 : containsSub rdcLiteral t = true <;> simp [h1, h2]
    · rw [rleMarker_eq, rdcMarker_eq]
      simp only [h, announced, Option.some.injEq, exists_eq_left']
      rw [← containsSub_iff, ← containsSub_iff]
      by_cases h1 : containsSub rleLiteral t = true
      · simp [h1]
      · by_cases h2 : containsSub rdcLiteral t = true <;> simp [h1, h2]

theorem IsCompression.unique {ts : List (List Byte)} {c c' : Compression} (h : IsCompression ts c)
    (h' : IsCompression ts c') : c = c' := by
  have h1 := h.rle.trans h'.rle.symm
  have h2 := h.rdc.trans h'.rdc.symm
  cases c <;> cases c' <;> simp_all

theorem matchColumnFormat_iff (l : List String) (f : List Byte) :
    matchColumnFormat l f = true ↔ ∃ g ∈ l, f = ascii g := by
  simp [matchColumnFormat]

theorem oneOf_iff {l l' : List String} {f : List Byte}
    (h : (l.map ascii).all (fun x => (l'.map textBytes).contains x) = true)
    (h' : (l'.map textBytes).all (fun x => (l.map ascii).contains x) = true) :
    matchColumnFormat l f = true ↔ oneOf l' f := by
  rw [matchColumnFormat_iff]
  simp only [List.all_eq_true, List.contains_iff_mem] at h h'
  unfold oneOf
  constructor
  · rintro ⟨g, hg, rfl⟩
    obtain ⟨n, hn, hn'⟩ := List.mem_map.mp (h _ (List.mem_map.mpr ⟨g, hg, rfl⟩))
    exact ⟨n, hn, hn'.symm⟩
  · rintro ⟨g, hg, rfl⟩
    obtain ⟨n, hn, hn'⟩ := List.mem_map.mp (h' _ (List.mem_map.mpr ⟨g, hg, rfl⟩))
    exact ⟨n, hn, hn'.symm⟩

theorem datetime_iff (f : List Byte) : matchColumnFormat datetimeFormats f = true ↔ oneOf datetimeNames f :=
  oneOf_iff (by decide +kernel) (by decide +kernel)
theorem date_iff (f : List Byte) : matchColumnFormat dateFormats f = true ↔ oneOf dateNames f :=
  oneOf_iff (by decide +kernel) (by decide +kernel)
theorem time_iff (f : List Byte) : matchColumnFormat timeFormats f = true ↔ oneOf timeNames f :=
  oneOf_iff (by decide +kernel) (by decide +kernel)

theorem chooseFormatter_type (e : Endian) (num : Bool) (format : List Byte) (length : Nat) :
    (chooseFormatter e num format length).type = columnType num format length := by
  unfold chooseFormatter columnType
  cases num
  · rfl
  · simp only [Bool.not_true, Bool.false_eq_true, if_false, Bool.true_eq_false]
    by_cases h1 : length = 1
    · simp [h1, Formatter.type]
    by_cases h2 : length = 2
    · simp [h2, Formatter.type]
    simp only [h1, h2, if_false, or_self]
    by_cases d1 : matchColumnFormat datetimeFormats format = true
    · rw [if_pos d1, if_pos ((datetime_iff _).mp d1)]; rfl
    rw [if_neg d1, if_neg (fun h => d1 ((datetime_iff _).mpr h))]
    by_cases d2 : matchColumnFormat dateFormats format = true
    · rw [if_pos d2, if_pos ((date_iff _).mp d2)]; rfl
    rw [if_neg d2, if_neg (fun h => d2 ((date_iff _).mpr h))]
    by_cases d3 : matchColumnFormat timeFormats format = true
    · rw [if_pos d3, if_pos ((time_iff _).mp d3)]; rfl
    rw [if_neg d3, if_neg (fun h => d3 ((time_iff _).mpr h))]
    by_cases h3 : 3 ≤ length ∧ length ≤ 8
    · rw [if_pos h3]
      have : length = 3 ∨ length = 4 ∨ length = 5 ∨ length = 6 ∨ length = 7 ∨ length = 8 := by omega
      rcases this with h | h | h | h | h | h <;> simp [h, Formatter.type]
    · rw [if_neg h3]
      have g3 : length ≠ 3 := by omega
      have g4 : length ≠ 4 := by omega
      have g5 : length ≠ 5 := by omega
      have g6 : length ≠ 6 := by omega
      have g7 : length ≠ 7 := by omega
      have g8 : length ≠ 8 := by omega
      simp [g3, g4, g5, g6, g7, g8, Formatter.type]

end Sas
