import Verif.Proofs.WriterSubs

/-!
# Written files
-/

namespace Sas

open Spec

/-! ## References -/

theorem refsFrom_length (t : Nat) : ∀ (g : List ColumnDesc) (o : Nat), (refsFrom t o g).length = g.length := by
  intro g
  induction g with
  | nil => intro o; rfl
  | cons d g ih => intro o; simp [refsFrom, ih]

theorem drop_take_mid {a b c : List Byte} {o n : Nat} (ho : o = a.length) (hn : n = b.length) :
    ((a ++ (b ++ c)).drop o).take n = b := by
  subst ho hn; simp

theorem refsFrom_get (t : Nat) : ∀ (g : List ColumnDesc) (o i : Nat) (d : ColumnDesc), g[i]? = some d →
    ∃ rn rf rl, (refsFrom t o g)[i]? = some (rn, rf, rl) ∧ rn.text = t ∧ rf.text = t ∧ rl.text = t ∧
      (∀ r ∈ [rn, rf, rl], r.offset + r.length ≤ o + (g.flatMap ColumnDesc.text).length) ∧
      ∀ (front : List Byte), front.length = o →
        ((front ++ g.flatMap ColumnDesc.text).drop rn.offset).take rn.length = d.name ∧
        ((front ++ g.flatMap ColumnDesc.text).drop rf.offset).take rf.length = d.format ∧
        ((front ++ g.flatMap ColumnDesc.text).drop rl.offset).take rl.length = d.label := by
  intro g
  induction g with
  | nil => intro o i d h; simp at h
  | cons c g ih =>
    intro o i d h
    cases i with
    | zero =>
      simp only [List.getElem?_cons_zero, Option.some.injEq] at h
      subst h
      refine ⟨_, _, _, rfl, rfl, rfl, rfl, ?_, fun front hf => ⟨?_, ?_, ?_⟩⟩
      · intro r hr
        simp only [List.mem_cons, List.not_mem_nil, or_false] at hr
        rw [List.flatMap_cons, List.length_append]
        simp only [ColumnDesc.text, List.length_append]
        rcases hr with rfl | rfl | rfl <;> dsimp only <;> omega
      · have : front ++ (c :: g).flatMap ColumnDesc.text =
            front ++ (c.name ++ (c.format ++ (c.label ++ g.flatMap ColumnDesc.text))) := by simp [ColumnDesc.text]
        rw [this]
        exact drop_take_mid hf.symm rfl
      · have : front ++ (c :: g).flatMap ColumnDesc.text =
            (front ++ c.name) ++ (c.format ++ (c.label ++ g.flatMap ColumnDesc.text)) := by simp [ColumnDesc.text]
        rw [this]
        exact drop_take_mid (by simp [hf]) rfl
      · have : front ++ (c :: g).flatMap ColumnDesc.text =
            (front ++ (c.name ++ c.format)) ++ (c.label ++ g.flatMap ColumnDesc.text) := by simp [ColumnDesc.text]
        rw [this]
        exact drop_take_mid (by simp [hf, Nat.add_assoc]) rfl
    | succ i =>
      rw [List.getElem?_cons_succ] at h
      obtain ⟨rn, rf, rl, h1, h2, h3, h4, h5, h6⟩ := ih (o + c.text.length) i d h
      refine ⟨rn, rf, rl, ?_, h2, h3, h4, fun r hr => ?_, fun front hf => ?_⟩
      · rw [refsFrom, List.getElem?_cons_succ]; exact h1
      · have := h5 r hr
        rw [List.flatMap_cons, List.length_append]
        omega
      · have := h6 (front ++ c.text) (by rw [List.length_append, hf])
        rw [List.flatMap_cons, ← List.append_assoc]
        exact this

/-- A written reference. -/
theorem refersTo_written {ts : List (List Byte)} {T text : List Byte} {r : TextRef} (ht : r.text = ts.length)
    (hr : (T.drop r.offset).take r.length = text) (hc : ColumnText text) : RefersTo (ts ++ [T]) r text where
  cell := ⟨[], [], by
    unfold referenced
    rw [ht, List.getElem?_append_right (Nat.le_refl _), Nat.sub_self]
    simp [hr], by simp, by simp⟩
  first := hc.first
  last := hc.last

/-! ## What the subheaders of the groups say -/

variable {e : Endian}

theorem nameRefs_formats (ts : List (List Byte)) (rest : List Sub) : ∀ (l : List (TextRef × TextRef × TextRef)),
    nameRefs ts ((l.map fun r => Sub.formatLabel r.2.1 r.2.2) ++ rest) = nameRefs ts rest
  | [] => rfl
  | _ :: l => nameRefs_formats ts rest l

theorem formatRefs_formats (ts : List (List Byte)) (rest : List Sub) : ∀ (l : List (TextRef × TextRef × TextRef)),
    formatRefs ts ((l.map fun r => Sub.formatLabel r.2.1 r.2.2) ++ rest) =
      (l.map fun r => (ts, r.2.1)) ++ formatRefs ts rest
  | [] => rfl
  | _ :: l => by
    simp only [List.map_cons, List.cons_append, formatRefs]
    rw [formatRefs_formats ts rest l]

theorem labelRefs_formats (ts : List (List Byte)) (rest : List Sub) : ∀ (l : List (TextRef × TextRef × TextRef)),
    labelRefs ts ((l.map fun r => Sub.formatLabel r.2.1 r.2.2) ++ rest) =
      (l.map fun r => (ts, r.2.2)) ++ labelRefs ts rest
  | [] => rfl
  | _ :: l => by
    simp only [List.map_cons, List.cons_append, labelRefs]
    rw [labelRefs_formats ts rest l]

theorem attrs_formats (rest : List Sub) : ∀ (l : List (TextRef × TextRef × TextRef)),
    attrs ((l.map fun r => Sub.formatLabel r.2.1 r.2.2) ++ rest) = attrs rest
  | [] => rfl
  | _ :: l => attrs_formats rest l

/-- The text of a group. -/
def groupText (e : Endian) (g : List ColumnDesc) : List Byte := textOf e (g.flatMap ColumnDesc.text)

theorem nameRefs_group (ts : List (List Byte)) (t : Nat) (g : List ColumnDesc) (rest : List Sub) :
    nameRefs ts (groupSubs e t g ++ rest) =
      ((refsFrom t 2 g).map fun r => (ts ++ [groupText e g], r.1)) ++ nameRefs (ts ++ [groupText e g]) rest := by
  rw [groupSubs, List.append_assoc]
  simp only [List.cons_append, List.nil_append, nameRefs, List.map_map, nameRefs_formats]
  rfl

theorem formatRefs_group (ts : List (List Byte)) (t : Nat) (g : List ColumnDesc) (rest : List Sub) :
    formatRefs ts (groupSubs e t g ++ rest) =
      ((refsFrom t 2 g).map fun r => (ts ++ [groupText e g], r.2.1)) ++ formatRefs (ts ++ [groupText e g]) rest := by
  rw [groupSubs, List.append_assoc]
  simp only [List.cons_append, List.nil_append, formatRefs, formatRefs_formats]
  rfl

theorem labelRefs_group (ts : List (List Byte)) (t : Nat) (g : List ColumnDesc) (rest : List Sub) :
    labelRefs ts (groupSubs e t g ++ rest) =
      ((refsFrom t 2 g).map fun r => (ts ++ [groupText e g], r.2.2)) ++ labelRefs (ts ++ [groupText e g]) rest := by
  rw [groupSubs, List.append_assoc]
  simp only [List.cons_append, List.nil_append, labelRefs, labelRefs_formats]
  rfl

theorem attrs_group (t : Nat) (g : List ColumnDesc) (rest : List Sub) :
    attrs (groupSubs e t g ++ rest) = (g.map fun d => ⟨d.offset, d.length, d.numeric⟩) ++ attrs rest := by
  rw [groupSubs, List.append_assoc]
  simp only [List.cons_append, List.nil_append, attrs, attrs_formats]

theorem attrs_groups : ∀ (gs : List (List ColumnDesc)) (t : Nat),
    attrs (groupsSubs e t gs) = gs.flatten.map fun d => ⟨d.offset, d.length, d.numeric⟩
  | [], _ => rfl
  | g :: gs, t => by
    rw [groupsSubs, attrs_group, attrs_groups gs (t + 1), List.flatten_cons, List.map_append]

/-- References found by position. -/
theorem refs_groups (refs : List (List Byte) → List Sub → List (List (List Byte) × TextRef))
    (pick : TextRef × TextRef × TextRef → TextRef) (text : ColumnDesc → List Byte)
    (hgroup : ∀ ts t g rest, refs ts (groupSubs e t g ++ rest) =
      ((refsFrom t 2 g).map fun r => (ts ++ [groupText e g], pick r)) ++ refs (ts ++ [groupText e g]) rest)
    (hpick : ∀ (t : Nat) (g : List ColumnDesc) (i : Nat) (d : ColumnDesc), g[i]? = some d →
      ∃ r, (refsFrom t 2 g)[i]? = some r ∧ (pick r).text = t ∧
        ((groupText e g).drop (pick r).offset).take (pick r).length = text d) :
    ∀ (gs : List (List ColumnDesc)) (ts : List (List Byte)) (i : Nat) (d : ColumnDesc),
      gs.flatten[i]? = some d → ColumnText (text d) →
      ∃ ts' r, (refs ts (groupsSubs e ts.length gs))[i]? = some (ts', r) ∧ RefersTo ts' r (text d) := by
  intro gs
  induction gs with
  | nil => intro ts i d h; simp at h
  | cons g gs ih =>
    intro ts i d h hc
    rw [List.flatten_cons] at h
    rw [groupsSubs, hgroup]
    have hlen : ((refsFrom ts.length 2 g).map fun r => (ts ++ [groupText e g], pick r)).length = g.length := by
      rw [List.length_map, refsFrom_length]
    by_cases hi : i < g.length
    · rw [List.getElem?_append_left hi] at h
      obtain ⟨r, h1, h2, h3⟩ := hpick ts.length g i d h
      refine ⟨ts ++ [groupText e g], pick r, ?_, refersTo_written h2 h3 hc⟩
      rw [List.getElem?_append_left (by omega), List.getElem?_map, h1]
      rfl
    · rw [List.getElem?_append_right (by omega)] at h
      obtain ⟨ts', r, h1, h2⟩ := ih (ts ++ [groupText e g]) (i - g.length) d h hc
      refine ⟨ts', r, ?_, h2⟩
      rw [List.getElem?_append_right (by omega), hlen]
      rw [List.length_append, List.length_singleton] at h1
      exact h1

theorem groupText_front (g : List ColumnDesc) :
    groupText e g = encode e 2 (2 + (g.flatMap ColumnDesc.text).length) ++ g.flatMap ColumnDesc.text := rfl

theorem describes_written {l : Layout} {d : DataSet} (hl : l.For d) : Describes (describe l d) d.columns := by
  have pickOk : ∀ (t : Nat) (g : List ColumnDesc) (i : Nat) (c : ColumnDesc), g[i]? = some c →
      ∃ r, (refsFrom t 2 g)[i]? = some r ∧ (r.1.text = t ∧
        ((groupText l.header.endian g).drop r.1.offset).take r.1.length = c.name) ∧ (r.2.1.text = t ∧
        ((groupText l.header.endian g).drop r.2.1.offset).take r.2.1.length = c.format) ∧ (r.2.2.text = t ∧
        ((groupText l.header.endian g).drop r.2.2.offset).take r.2.2.length = c.label) := by
    intro t g i c h
    obtain ⟨rn, rf, rl, h1, h2, h3, h4, _, h6⟩ := refsFrom_get t g 2 i c h
    obtain ⟨a, b, c⟩ := h6 (encode l.header.endian 2 (2 + (g.flatMap ColumnDesc.text).length)) (by simp)
    exact ⟨_, h1, ⟨h2, a⟩, ⟨h3, b⟩, ⟨h4, c⟩⟩
  have ok : ∀ (i : Nat) (c : ColumnDesc), d.columns[i]? = some c → c.Writable l.header.fmt :=
    fun i c h => hl.columnsOk c (List.mem_of_getElem? h)
  refine ⟨?_, fun i c h => ?_, fun i c h => ?_, fun i c h => ?_, fun i c h => ?_⟩
  · have : ∀ (gs : List (List ColumnDesc)) (t n : Nat), columnCountOf n (groupsSubs l.header.endian t gs) = n := by
      intro gs
      induction gs with
      | nil => intro t n; rfl
      | cons g gs ih =>
        intro t n
        rw [groupsSubs, groupSubs, List.append_assoc]
        simp only [List.cons_append, List.nil_append, columnCountOf]
        have hf : ∀ (rs : List (TextRef × TextRef × TextRef)) (rest : List Sub),
            columnCountOf n ((rs.map fun r => Sub.formatLabel r.2.1 r.2.2) ++ rest) = columnCountOf n rest := by
          intro rs rest
          induction rs with
          | nil => rfl
          | cons r rs ih => exact ih
        rw [hf, ih]
    exact this l.groups 1 d.columns.length
  · have := refs_groups (e := l.header.endian) nameRefs (·.1) ColumnDesc.name nameRefs_group
      (fun t g i c h => by
        obtain ⟨r, h1, h2, _, _⟩ := pickOk t g i c h
        exact ⟨r, h1, h2⟩) l.groups [leadText l.header.endian l.compression] i c (by rw [hl.columns]; exact h) (ok i c h).name
    exact this
  · have := refs_groups (e := l.header.endian) labelRefs (·.2.2) ColumnDesc.label labelRefs_group
      (fun t g i c h => by
        obtain ⟨r, h1, _, _, h2⟩ := pickOk t g i c h
        exact ⟨r, h1, h2⟩) l.groups [leadText l.header.endian l.compression] i c (by rw [hl.columns]; exact h) (ok i c h).label
    exact this
  · have := refs_groups (e := l.header.endian) formatRefs (·.2.1) ColumnDesc.format formatRefs_group
      (fun t g i c h => by
        obtain ⟨r, h1, _, h2, _⟩ := pickOk t g i c h
        exact ⟨r, h1, h2⟩) l.groups [leadText l.header.endian l.compression] i c (by rw [hl.columns]; exact h) (ok i c h).format
    exact this
  · have : attrs (describe l d) = attrs (groupsSubs l.header.endian 1 l.groups) := rfl
    rw [this, attrs_groups, hl.columns, List.getElem?_map, h]
    rfl

end Sas
