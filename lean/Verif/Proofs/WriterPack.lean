import Verif.Proofs.WriterPages

/-!
# Every data set has a layout
-/

namespace Sas

open Spec

theorem pack_flatten {α : Type} (fits : List α → Bool) : ∀ xs : List α, (pack fits xs).flatten = xs := by
  intro xs
  induction xs with
  | nil => rfl
  | cons x xs ih =>
    rw [pack]
    split
    · rename_i h
      rw [h] at ih
      rw [← ih]; rfl
    · rename_i p ps h
      rw [h] at ih
      split <;> rw [← ih] <;> rfl

theorem pack_fits {α : Type} (fits : List α → Bool) : ∀ xs : List α, (∀ x ∈ xs, fits [x] = true) →
    ∀ p ∈ pack fits xs, p ≠ [] ∧ fits p = true := by
  intro xs
  induction xs with
  | nil => intro _ p h; cases h
  | cons x xs ih =>
    intro hx p hp
    have hx' := hx x (by simp)
    have ih := ih (fun y hy => hx y (by simp [hy]))
    rw [pack] at hp
    split at hp
    · simp only [List.mem_cons, List.not_mem_nil, or_false] at hp
      subst hp
      exact ⟨by simp, hx'⟩
    · rename_i q qs h
      rw [h] at ih
      split at hp
      · rename_i hf
        rcases List.mem_cons.mp hp with rfl | hp
        · exact ⟨by simp, hf⟩
        · exact ih p (by simp [hp])
      · rcases List.mem_cons.mp hp with rfl | hp
        · exact ⟨by simp, hx'⟩
        · exact ih p hp

theorem pack_length {α : Type} (fits : List α → Bool) : ∀ xs : List α, (pack fits xs).length ≤ xs.length := by
  intro xs
  induction xs with
  | nil => exact Nat.le_refl _
  | cons x xs ih =>
    rw [pack]
    split
    · simp
    · rename_i p ps h
      rw [h] at ih
      split <;> simp at ih ⊢ <;> omega

theorem subsFit_one {h : FileHeader} {s : Sub} (hs : 64 + (s.bytes h.endian h.fmt).length ≤ h.pageLength) :
    subsFit h [s] = true := by
  have : rowsStart h.fmt 1 ≤ 64 := by cases h.fmt <;> decide
  simp [subsFit, pageUsed, subItem]
  omega

theorem bytes_text_independent (e : Endian) (f : Format) (t t' : Nat) (g : List ColumnDesc) :
    ∀ s ∈ groupSubs e t g, ∃ s' ∈ groupSubs e t' g, (s.bytes e f).length = (s'.bytes e f).length := by
  intro s hs
  simp only [groupSubs, List.mem_append, List.mem_cons, List.not_mem_nil, or_false, List.mem_map] at hs
  have hnames : ∀ rs : List TextRef, (Sub.bytes e f (.columnNames rs)).length = 2 * word f + 12 + 8 * rs.length := by
    intro rs
    have hslot : ∀ r ∈ rs, ((fun r => TextRef.bytes e r ++ zeros 2) r).length = 8 := fun r _ => by simp
    simp only [Sub.bytes, List.length_append, sig_length, zeros_length, flatMap_length_slots rs hslot]
    omega
  have hfl : ∀ a b : TextRef, (Sub.bytes e f (.formatLabel a b)).length = 3 * word f + 34 := by
    intro a b
    simp only [Sub.bytes, List.length_append, sig_length, zeros_length, ref_length]
    omega
  rcases hs with (rfl | rfl | rfl) | ⟨r, hr, rfl⟩
  · exact ⟨_, by rw [groupSubs]; simp, rfl⟩
  · exact ⟨.columnNames ((refsFrom t' 2 g).map (·.1)), by rw [groupSubs]; simp, by
      rw [hnames, hnames, List.length_map, List.length_map, refsFrom_length, refsFrom_length]⟩
  · exact ⟨_, by rw [groupSubs]; simp, rfl⟩
  · have : refsFrom t' 2 g ≠ [] := by
      intro h0
      have h1 := refsFrom_length t' g 2
      rw [h0] at h1
      have h2 := refsFrom_length t g 2
      have h3 := List.length_pos_of_mem hr
      simp at h1
      omega
    obtain ⟨r', rs', h'⟩ := List.exists_cons_of_ne_nil this
    exact ⟨.formatLabel r'.2.1 r'.2.2, by rw [groupSubs, h']; simp, by rw [hfl, hfl]⟩

theorem subsFit_length {h : FileHeader} {s s' : Sub}
    (hl : (s.bytes h.endian h.fmt).length = (s'.bytes h.endian h.fmt).length) : subsFit h [s] = subsFit h [s'] := by
  simp [subsFit, pageUsed, subItem, hl]

theorem group_one_fits {h : FileHeader} {c : ColumnDesc} (hp : 774 ≤ h.pageLength)
    (h1 : 2 + c.text.length < 2 ^ 16) (h2 : 74 + c.text.length ≤ h.pageLength) : groupFits h [c] = true := by
  have hw : word h.fmt ≤ 8 := by cases h.fmt <;> decide
  simp only [groupFits, List.flatMap_cons, List.flatMap_nil, List.append_nil, h1, true_and, decide_eq_true_eq]
  intro s hs
  apply subsFit_one
  simp only [groupSubs, refsFrom, List.mem_append, List.mem_cons, List.not_mem_nil, or_false, List.map_cons,
    List.map_nil, List.flatMap_cons, List.flatMap_nil, List.append_nil] at hs
  rcases hs with (rfl | rfl | rfl) | rfl
  · simp only [Sub.bytes, textOf, List.length_append, sig_length, encode_length]; omega
  · simp only [Sub.bytes, List.flatMap_cons, List.flatMap_nil, List.length_append, List.length_nil, sig_length,
      ref_length, zeros_length]; omega
  · simp only [Sub.bytes, List.flatMap_cons, List.flatMap_nil, List.length_append, List.length_nil, sig_length,
      attr_length, zeros_length]; omega
  · simp only [Sub.bytes, List.length_append, sig_length, ref_length, zeros_length]; omega

theorem describe_fits {h : FileHeader} {d : DataSet} {l : Layout} (hh : l.header = h) (hp : 774 ≤ h.pageLength)
    (hg : ∀ g ∈ l.groups, groupFits h g = true) : ∀ s ∈ describe l d, subsFit h [s] = true := by
  subst hh
  have hw : word l.header.fmt ≤ 8 := by cases l.header.fmt <;> decide
  have hlc : lcsAt l.header.fmt ≤ 682 ∧ 16 * word l.header.fmt ≤ lcsAt l.header.fmt := by cases l.header.fmt <;> decide
  intro s hs
  simp only [describe, List.mem_append, List.mem_cons, List.not_mem_nil, or_false] at hs
  rcases hs with (rfl | rfl | rfl) | hs
  · apply subsFit_one
    simp only [Sub.bytes, List.length_append, sig_length, zeros_length, encode_length]
    omega
  · apply subsFit_one
    simp only [Sub.bytes, List.length_append, sig_length, encode_length]
    omega
  · apply subsFit_one
    simp only [Sub.bytes, List.length_append, sig_length, leadText_length]
    omega
  · have : ∀ (gs : List (List ColumnDesc)) (t : Nat), (∀ g ∈ gs, groupFits l.header g = true) →
        s ∈ groupsSubs l.header.endian t gs → subsFit l.header [s] = true := by
      intro gs
      induction gs with
      | nil => intro t _ h; cases h
      | cons g gs ih =>
        intro t hg hs
        rw [groupsSubs, List.mem_append] at hs
        rcases hs with hs | hs
        · obtain ⟨s', hs', hl⟩ := bytes_text_independent l.header.endian l.header.fmt t 0 g s hs
          rw [subsFit_length hl]
          have := hg g (by simp)
          simp only [groupFits, decide_eq_true_eq] at this
          exact this.2 s' hs'
        · exact ih (t + 1) (fun g h => hg g (by simp [h])) hs
    exact this l.groups 1 hg hs

theorem filled_for {h : FileHeader} {c : Compression} {d : DataSet} {rp : List (List (List Byte))} (hd : d.Fits h)
    (hc : rp.flatten.length = d.rows.length) : (Layout.filled h c d rp).For d := by
  have hgroups : ∀ g ∈ (Layout.filled h c d rp).groups, groupFits h g = true := fun g hg =>
    (pack_fits _ d.columns (fun c hc => group_one_fits hd.page.1 (hd.texts c hc).1 (hd.texts c hc).2) g hg).2
  have hsubs : ∀ p ∈ (Layout.filled h c d rp).metaPages, p ≠ [] ∧ subsFit h p = true := fun p hp =>
    pack_fits _ _ (describe_fits rfl hd.page.1 (fun g hg => hgroups g hg)) p hp
  have hpow : 2 ^ 16 - 1 ≤ 256 ^ word h.fmt := by cases h.fmt <;> decide
  refine ⟨hd.header, pack_flatten _ _, hd.columnsOk, fun g hg => ?_, ?_, pack_flatten _ _, ?_, ⟨hd.sizes.1, hd.sizes.2, ?_⟩,
    fun p hp => ?_, fun p hp => ?_⟩
  · have := hgroups g hg
    simp only [groupFits, decide_eq_true_eq] at this
    exact this.1
  · exact Nat.lt_of_le_of_lt (pack_length _ _) hd.columns
  · show ([] ++ rp.flatten).length = _
    rw [List.nil_append, hc]
  · exact Nat.lt_of_lt_of_le hd.columns hpow
  · have := (hsubs p hp).2
    simp only [subsFit, decide_eq_true_eq] at this
    exact this
  · have := (hsubs p (List.mem_of_getLast? hp)).2
    simp only [subsFit, decide_eq_true_eq] at this
    exact ⟨Nat.two_pow_pos 16, this.2⟩

theorem packed_for {h : FileHeader} {d : DataSet} (hd : d.Fits h) :
    (Layout.packed h d).For d ∧ (Layout.packed h d).Plain d := by
  have hrows : ∀ p ∈ pack (rowsFit h) d.rows, p ≠ [] ∧ rowsFit h p = true := by
    refine fun p hp => pack_fits _ d.rows (fun r hr => ?_) p hp
    have h1 := hd.rowLength r hr
    have h2 := hd.page.2
    have h3 : rowsStart h.fmt 0 ≤ 40 := by cases h.fmt <;> decide
    simp [rowsFit, pageUsed]
    omega
  refine ⟨filled_for hd (by rw [pack_flatten]), ⟨rfl, pack_flatten _ _, hd.rowLength, fun p hp => ?_⟩⟩
  have := hrows p hp
  simp only [rowsFit, decide_eq_true_eq] at this
  exact this

/-! ## RLE -/

theorem rlePush_expand (b : Byte) (cs : List RleCmd) : rleExpand (rlePush b cs) = b :: rleExpand cs := by
  unfold rlePush
  split
  · split
    · rename_i h
      obtain ⟨rfl, _⟩ := h
      simp [rleExpand, RleCmd.expand, List.replicate_succ]
    · simp [rleExpand, RleCmd.expand]
  · split
    · rename_i h
      obtain ⟨rfl, rfl⟩ := h
      simp [rleExpand, RleCmd.expand, List.replicate_succ]
    · simp [rleExpand, RleCmd.expand]
  · split
    · rename_i h
      obtain ⟨rfl, rfl⟩ := h
      simp [rleExpand, RleCmd.expand, List.replicate_succ]
    · split <;> simp [rleExpand, RleCmd.expand]
  · split <;> simp [rleExpand, RleCmd.expand]
  · simp [rleExpand, RleCmd.expand]

theorem rleCmds_expand (row : List Byte) : rleExpand (rleCmds row) = row := by
  induction row with
  | nil => rfl
  | cons b row ih => rw [rleCmds, List.foldr_cons, rlePush_expand]; exact congrArg _ ih

/-- A command the compressor uses. -/
def RleUsed (c : RleCmd) : Prop := c.Valid ∧ ((∃ bs, c = .copy1 bs) ∨ ∃ b n, c = .byte3 b n)

theorem rlePush_used (b : Byte) (cs : List RleCmd) (h : ∀ c ∈ cs, RleUsed c) : ∀ c ∈ rlePush b cs, RleUsed c := by
  have hcopy : ∀ bs : List Byte, 1 ≤ bs.length → bs.length ≤ 16 → RleUsed (.copy1 bs) := fun bs h1 h2 =>
    ⟨⟨h1, h2⟩, .inl ⟨bs, rfl⟩⟩
  have hrun : ∀ (x : Byte) n, 3 ≤ n → n ≤ 18 → RleUsed (.byte3 x n) := fun x n h1 h2 =>
    ⟨⟨h1, h2⟩, .inr ⟨x, n, rfl⟩⟩
  unfold rlePush
  split
  · rename_i x n cs'
    have h0 := (h (.byte3 x n) (by simp)).1
    simp only [RleCmd.Valid] at h0
    have hr : ∀ c ∈ cs', RleUsed c := fun c hc => h c (by simp [hc])
    split
    · intro c hc
      rcases List.mem_cons.mp hc with rfl | hc
      · exact hrun _ _ (by omega) (by omega)
      · exact hr c hc
    · intro c hc
      rcases List.mem_cons.mp hc with rfl | hc
      · exact hcopy _ (by simp) (by simp)
      · exact h c hc
  · rename_i x y cs'
    have hr : ∀ c ∈ cs', RleUsed c := fun c hc => h c (by simp [hc])
    split
    · intro c hc
      rcases List.mem_cons.mp hc with rfl | hc
      · exact hrun _ _ (by omega) (by omega)
      · exact hr c hc
    · intro c hc
      rcases List.mem_cons.mp hc with rfl | hc
      · exact hcopy _ (by simp) (by simp)
      · exact hr c hc
  · rename_i x y bs cs' hne
    have h0 := (h (.copy1 (x :: y :: bs)) (by simp)).1
    simp only [RleCmd.Valid, List.length_cons] at h0
    have hr : ∀ c ∈ cs', RleUsed c := fun c hc => h c (by simp [hc])
    have hpos : 1 ≤ bs.length := by
      cases bs with
      | nil => exact (hne rfl).elim
      | cons _ _ => simp
    split
    · intro c hc
      rcases List.mem_cons.mp hc with rfl | hc
      · exact hrun _ _ (by omega) (by omega)
      · rcases List.mem_cons.mp hc with rfl | hc
        · exact hcopy _ hpos (by omega)
        · exact hr c hc
    · split
      · intro c hc
        rcases List.mem_cons.mp hc with rfl | hc
        · exact hcopy _ (by simp) (by simp; omega)
        · exact hr c hc
      · intro c hc
        rcases List.mem_cons.mp hc with rfl | hc
        · exact hcopy _ (by simp) (by simp)
        · exact h c hc
  · rename_i bs cs' _ _
    have hr : ∀ c ∈ cs', RleUsed c := fun c hc => h c (by simp [hc])
    split
    · intro c hc
      rcases List.mem_cons.mp hc with rfl | hc
      · exact hcopy _ (by simp) (by simp; omega)
      · exact hr c hc
    · intro c hc
      rcases List.mem_cons.mp hc with rfl | hc
      · exact hcopy _ (by simp) (by simp)
      · exact h c hc
  · intro c hc
    rcases List.mem_cons.mp hc with rfl | hc
    · exact hcopy _ (by simp) (by simp)
    · exact h c hc

theorem rleCmds_used (row : List Byte) : ∀ c ∈ rleCmds row, RleUsed c := by
  induction row with
  | nil => intro c h; cases h
  | cons b row ih => rw [rleCmds, List.foldr_cons]; exact rlePush_used b _ ih

theorem rleStore_packed {n : Nat} {row : List Byte} (h : row.length = n) : Packed .rle n (rleStore row) row := by
  unfold rleStore
  split
  · rename_i hlt
    have := Packed.rle (c := .rle) (n := n) (rleCmds row) rfl (fun c hc => (rleCmds_used row c hc).1) (by omega)
      (by rw [rleCmds_expand, h]) (fun m => by
        constructor <;>
        · intro hl
          rcases (rleCmds_used row _ (List.mem_of_getLast? hl)).2 with ⟨bs, e⟩ | ⟨b, k, e⟩ <;> cases e)
    rwa [rleCmds_expand] at this
  · exact .plain _ h

theorem rleStore_length (row : List Byte) : (rleStore row).length ≤ row.length := by
  unfold rleStore
  split <;> omega

theorem rle_for {h : FileHeader} {d : DataSet} (hd : d.Fits h) (h0 : 0 < d.rowLength)
    (hroom : 80 + d.rowLength ≤ h.pageLength)
    (hs : ∀ row ∈ d.rows, ¬ LooksLikeSubheader h.fmt (rleStore row)) :
    (Layout.rle h d).For d ∧ (Layout.rle h d).Compressed d := by
  have hrows : ∀ p ∈ pack (itemsFit h d.rowLength) (d.rows.map rleStore), p ≠ [] ∧ itemsFit h d.rowLength p = true := by
    refine fun p hp => pack_fits _ _ (fun r hr => ?_) p hp
    obtain ⟨row, hrow, rfl⟩ := List.mem_map.mp hr
    have h1 := hd.rowLength row hrow
    have h2 := rleStore_length row
    have h3 : rowsStart h.fmt 1 ≤ 64 := by cases h.fmt <;> decide
    simp [itemsFit, pageUsed, rowItem]
    omega
  refine ⟨filled_for hd (by rw [pack_flatten, List.length_map]), ⟨by show Compression.rle ≠ .none; decide, rfl, ?_, h0, fun p hp => ?_, ?_⟩⟩
  · intro i raw row g1 g2
    have g1' : (pack (itemsFit h d.rowLength) (d.rows.map rleStore)).flatten[i]? = some raw := g1
    rw [pack_flatten, List.getElem?_map, g2, Option.map_some, Option.some.injEq] at g1'
    subst g1'
    exact rleStore_packed (hd.rowLength row (List.mem_of_getElem? g2))
  · have := hrows p hp
    simp only [itemsFit, decide_eq_true_eq] at this
    exact this
  · intro p hp raws hsuf hne e s heq
    obtain ⟨r, rs, rfl⟩ := List.exists_cons_of_ne_nil hne
    have hp' : p ∈ pack (itemsFit h d.rowLength) (d.rows.map rleStore) := List.mem_of_head? hp
    have hr : r ∈ d.rows.map rleStore := by
      rw [← pack_flatten (itemsFit h d.rowLength) (d.rows.map rleStore)]
      exact List.mem_flatten.mpr ⟨p, hp', hsuf.subset (by simp)⟩
    obtain ⟨row, hrow, rfl⟩ := List.mem_map.mp hr
    refine hs row hrow ⟨e, s, ?_⟩
    have heq' : ((rleStore row :: rs).flatten ++ zeros 8).take (word h.fmt) = Sig.bytes e h.fmt s := heq
    rw [← heq', List.flatten_cons, List.append_assoc, List.take_append]
    exact List.prefix_append _ _

end Sas
