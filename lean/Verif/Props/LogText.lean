import Verif.Spec.LogText
import Verif.Props.Log
import Verif.Proofs.NumText

/-!
# Property C100: how the messages of the library are to be read
-/

namespace Sas.Proofs

open Sas Spec

theorem numbersIn_none {t : List Byte} (h : ∀ b ∈ t, isDigit b = false) : numbersIn t = [] := by
  have : (t.dropWhile fun b => !isDigit b) = [] := by
    induction t with
    | nil => rfl
    | cons b t ih =>
      rw [List.dropWhile_cons_of_pos (by rw [h b (by simp)]; rfl)]
      exact ih fun c hc => h c (List.mem_cons_of_mem _ hc)
  unfold numbersIn
  split
  · rfl
  · rename_i h'; rw [this] at h'; cases h'

theorem numbersIn_step {a ds r : List Byte} (ha : ∀ b ∈ a, isDigit b = false) (hd : ∀ b ∈ ds, isDigit b = true) (hn : ds ≠ [])
    (hr : ∀ b, r.head? = some b → isDigit b = false) : numbersIn (a ++ (ds ++ r)) = digitsValue ds :: numbersIn r := by
  obtain ⟨d, ds', rfl⟩ := List.exists_cons_of_ne_nil hn
  have h1 : ((a ++ ((d :: ds') ++ r)).dropWhile fun b => !isDigit b) = d :: (ds' ++ r) := by
    rw [List.dropWhile_append_of_pos (fun b hb => by rw [ha b hb]; rfl)]
    rw [List.cons_append, List.dropWhile_cons_of_neg]
    rw [hd d (by simp)]; simp
  have hr2 : r.takeWhile isDigit = [] ∧ r.dropWhile isDigit = r := by
    cases r with
    | nil => exact ⟨rfl, rfl⟩
    | cons b r => have := hr b rfl; simp [this]
  have hd' : ∀ b ∈ ds', isDigit b = true := fun b hb => hd b (by simp [hb])
  have h2 : (ds' ++ r).takeWhile isDigit = ds' ∧ (ds' ++ r).dropWhile isDigit = r := by
    rw [List.takeWhile_append_of_pos hd', List.dropWhile_append_of_pos hd', hr2.1, hr2.2]
    simp
  rw [numbersIn]
  split
  · rename_i h'; rw [h1] at h'; cases h'
  · rename_i b rest h'
    rw [h1] at h'
    cases h'
    rw [h2.1, h2.2]

theorem numbersIn_decimal {a r : List Byte} (n : Nat) (ha : ∀ b ∈ a, isDigit b = false)
    (hr : ∀ b, r.head? = some b → isDigit b = false) : numbersIn (a ++ (decimal n ++ r)) = n :: numbersIn r := by
  rw [numbersIn_step ha (decimal_isDigit n) (decimal_ne n) hr, digits_decimal]

end Sas.Proofs

namespace Sas.Props

open Sas Spec Proofs

variable {σ : Type}

/-- C100, the texts. An exception of the library is announced by its name, a file that is not there by its name as well. The message
about missing values has the number of columns first and then the number of values; the message about a row that is too long has its
three numbers in their order; the message about an unknown command has the command and where it is. -/
theorem C100_texts :
    (∀ e ∈ ownExceptions, ∀ f, (Msg.raised e f).text =
      exceptionName e ++ if e = .notAValidFile then ascii ": [" ++ f ++ ascii "]" else []) ∧
    (∀ n k w, (∀ b ∈ w, isDigit b = false) → numbersIn (Msg.fewValues n k w).text = [n, k] ∧ w <:+: (Msg.fewValues n k w).text) ∧
    (∀ i n size, numbersIn (Msg.rowTooLong i n size).text = [i, n, size]) ∧
    (∀ command offset, command < 10 → numbersIn (Msg.unknownCommand command offset).text = [0, command, offset]) := by
  refine ⟨?_, ?_, ?_, ?_⟩
  · intro e he f
    simp only [ownExceptions, List.mem_cons, List.not_mem_nil, or_false] at he
    rcases he with rfl | rfl | rfl | rfl | rfl
    · show ascii "header_too_short" = _; rw [if_neg (by decide), List.append_nil]; decide +kernel
    · show ascii "invalid_magic_number" = _; rw [if_neg (by decide), List.append_nil]; decide +kernel
    · show ascii "cannot_read_page" = _; rw [if_neg (by decide), List.append_nil]; decide +kernel
    · show ascii "cannot_decompress" = _; rw [if_neg (by decide), List.append_nil]; decide +kernel
    · show ascii "not_a_valid_file: [" ++ f ++ ascii "]" = _
      rw [if_pos rfl, ← List.append_assoc, ← List.append_assoc]
      have : ascii "not_a_valid_file: [" = exceptionName .notAValidFile ++ ascii ": [" := by decide +kernel
      rw [this]
  · intro n k w hw
    have h1 : ∀ b ∈ ascii "Mismatch between the expected number of columns (", isDigit b = false := by decide +kernel
    have h2 : ∀ b ∈ ascii ") and the number (", isDigit b = false := by decide +kernel
    have h3 : ∀ b ∈ ascii ") of '", isDigit b = false := by decide +kernel
    have h4 : ∀ b ∈ ascii "' values!\n", isDigit b = false := by decide +kernel
    have g2 : ∀ (x : List Byte) b, (ascii ") and the number (" ++ x).head? = some b → isDigit b = false := by
      intro x b h
      rw [List.head?_append_of_ne_nil _ (by decide +kernel)] at h
      exact h2 b (List.mem_of_head? h)
    have g3 : ∀ (x : List Byte) b, (ascii ") of '" ++ x).head? = some b → isDigit b = false := by
      intro x b h
      rw [List.head?_append_of_ne_nil _ (by decide +kernel)] at h
      exact h3 b (List.mem_of_head? h)
    constructor
    · unfold Msg.text
      simp only [List.append_assoc]
      rw [numbersIn_decimal n h1 (g2 _), numbersIn_decimal k h2 (g3 _), numbersIn_none]
      intro b hb
      simp only [List.mem_append] at hb
      rcases hb with h | h | h
      · exact h3 b h
      · exact hw b h
      · exact h4 b h
    · exact ⟨_, ascii "' values!\n", rfl⟩
  · intro i n size
    have h1 : ∀ b ∈ ascii "Invalid dst length: ", isDigit b = false := by decide +kernel
    have h2 : ∀ b ∈ ascii "+", isDigit b = false := by decide +kernel
    have h3 : ∀ b ∈ ascii ">", isDigit b = false := by decide +kernel
    have h4 : ∀ b ∈ ascii "\n", isDigit b = false := by decide +kernel
    have g2 : ∀ (x : List Byte) b, (ascii "+" ++ x).head? = some b → isDigit b = false := by
      intro x b h
      rw [List.head?_append_of_ne_nil _ (by decide +kernel)] at h
      exact h2 b (List.mem_of_head? h)
    have g3 : ∀ (x : List Byte) b, (ascii ">" ++ x).head? = some b → isDigit b = false := by
      intro x b h
      rw [List.head?_append_of_ne_nil _ (by decide +kernel)] at h
      exact h3 b (List.mem_of_head? h)
    unfold Msg.text
    simp only [List.append_assoc]
    rw [numbersIn_decimal i h1 (g2 _), numbersIn_decimal n h2 (g3 _),
      numbersIn_decimal size h3 fun b h => h4 b (List.mem_of_head? h), numbersIn_none h4]
  · intro command offset hc
    have h1 : ∀ b ∈ ascii "Invalid command: ", isDigit b = false := by decide +kernel
    have h2 : ∀ b ∈ ascii " at offset ", isDigit b = false := by decide +kernel
    have h4 : ∀ b ∈ ascii "\n", isDigit b = false := by decide +kernel
    have hx : hexDigit command = decimal 0 ++ (ascii "X" ++ decimal command) := by
      have : ∀ c < 10, hexDigit c = decimal 0 ++ (ascii "X" ++ decimal c) := by decide +kernel
      exact this command hc
    have gx : ∀ b ∈ ascii "X", isDigit b = false := by decide +kernel
    have g1 : ∀ (x : List Byte) b, (ascii "X" ++ x).head? = some b → isDigit b = false := by
      intro x b h
      rw [List.head?_append_of_ne_nil _ (by decide +kernel)] at h
      exact gx b (List.mem_of_head? h)
    have g2 : ∀ (x : List Byte) b, (ascii " at offset " ++ x).head? = some b → isDigit b = false := by
      intro x b h
      rw [List.head?_append_of_ne_nil _ (by decide +kernel)] at h
      exact h2 b (List.mem_of_head? h)
    unfold Msg.text
    dsimp only
    rw [hx]
    simp only [List.append_assoc]
    rw [numbersIn_decimal 0 h1 (g1 _), numbersIn_decimal command gx (g2 _),
      numbersIn_decimal offset h2 fun b h => h4 b (List.mem_of_head? h), numbersIn_none h4]

/-- C100, the levels. A critical message means that an exception of the library has left the call, and there is one whenever this
happens; a file that is opened gives warnings only; an informational message means that it is refused for lack of values. -/
theorem C100_levels (cfg : Cfg) (S : Source σ) (fuel : Nat) (filter : Option Filter) (s : σ) (R : Reader σ) (op : Op) :
    ((∃ m ∈ openLog cfg S fuel s, m.level = ascii "critical") ↔ leftBy (openReader cfg S fuel filter s) ≠ []) ∧
    ((∃ m ∈ R.stepLog S op, m.level = ascii "critical") ↔ leftBy (R.step S op).1 ≠ []) ∧
    ((∃ r, openReader cfg S fuel filter s = .ok r) → ∀ m ∈ openLog cfg S fuel s, m.level = ascii "warning") ∧
    ((∃ m ∈ openLog cfg S fuel s, m.level = ascii "info") → openReader cfg S fuel filter s = .error (.exn .outOfRange)) ∧
    (cfg.debug = false → openReader cfg S fuel filter s = .error (.exn .outOfRange) →
      ∃ m ∈ openLog cfg S fuel s, m.level = ascii "info") := by
  have hwc : ascii "warning" ≠ ascii "critical" := by decide +kernel
  have hic : ascii "info" ≠ ascii "critical" := by decide +kernel
  have hiw : ascii "warning" ≠ ascii "info" := by decide +kernel
  have hraise : ∀ {α : Type} (r : Res α), leftBy r ≠ [] → ∃ e, r = .error (.exn e) ∧ e ∈ ownExceptions := by
    intro α r h
    unfold leftBy at h
    split at h
    · rename_i e
      split at h
      · exact ⟨e, rfl, by assumption⟩
      · exact absurd rfl h
    · exact absurd rfl h
  obtain ⟨few1, few2⟩ := C100_few cfg S fuel filter s
  obtain ⟨o1, o2⟩ := C100_opening cfg S fuel filter s
  obtain ⟨a, ha, hm⟩ := open_log cfg S fuel filter s
  have hraised : ∀ m ∈ openLog cfg S fuel s, (m = .unknownSubheader ∨ m = .columnCountMismatch ∨ ∃ n k w, m = .fewValues n k w) ∨
      ∃ e f, m = .raised e f := by
    intro m h
    rw [hm] at h
    rcases List.mem_append.1 h with h | h
    · exact .inl (ha m h)
    · right
      split at h
      · rename_i e he
        unfold raiseLog at h
        split at h
        · split at h
          · exact ⟨_, _, List.mem_singleton.1 h⟩
          · cases h
        · cases h
      · cases h
  refine ⟨⟨?_, ?_⟩, ⟨?_, ?_⟩, ?_, ?_, ?_⟩
  · rintro ⟨m, h1, h2⟩
    rcases hraised m h1 with (rfl | rfl | ⟨n, k, w, rfl⟩) | ⟨e, f, rfl⟩
    · exact absurd h2 hwc
    · exact absurd h2 hwc
    · exact absurd h2 hic
    · rw [← o1]
      intro h
      have : e ∈ announcedIn (openLog cfg S fuel s) := List.mem_filterMap.2 ⟨_, h1, rfl⟩
      rw [h] at this
      cases this
  · intro h
    obtain ⟨e, he, hmem⟩ := hraise _ h
    obtain ⟨f, hf⟩ := o2 e he hmem
    exact ⟨_, List.mem_of_getLast? hf, rfl⟩
  · rintro ⟨m, h1, -⟩ h
    rw [(C100_calls S R op).silent h] at h1
    cases h1
  · intro h
    obtain ⟨e, he, hmem⟩ := hraise _ h
    obtain ⟨f, hf⟩ := (C100_calls S R op).last e he hmem
    exact ⟨_, List.mem_of_getLast? hf, rfl⟩
  · rintro ⟨r, hr⟩ m h1
    rcases hraised m h1 with (rfl | rfl | ⟨n, k, w, rfl⟩) | ⟨e, f, rfl⟩
    · rfl
    · rfl
    · have := (few1 n k w h1).2
      rw [hr] at this
      cases this
    · exfalso
      have : e ∈ announcedIn (openLog cfg S fuel s) := List.mem_filterMap.2 ⟨_, h1, rfl⟩
      rw [o1, hr] at this
      cases this
  · rintro ⟨m, h1, h2⟩
    rcases hraised m h1 with (rfl | rfl | ⟨n, k, w, rfl⟩) | ⟨e, f, rfl⟩
    · exact absurd h2 hiw
    · exact absurd h2 hiw
    · exact (few1 n k w h1).2
    · exact absurd h2.symm hic
  · intro hd he
    obtain ⟨n, k, w, h⟩ := few2 hd he
    exact ⟨_, h, rfl⟩

/-- C100, the lines: each message is a line of its own that begins with the time of this message and its level, in order. -/
theorem C100_lines (clock : Nat → List Byte) (ms : List Msg) : logLines clock 0 ms =
    ms.zipIdx.flatMap fun x => ascii "[" ++ clock x.2 ++ ascii "] [" ++ x.1.level ++ ascii "] " ++ x.1.text ++ ascii "\n" := by
  have : ∀ k, logLines clock k ms = (ms.zipIdx k).flatMap fun x =>
      ascii "[" ++ clock x.2 ++ ascii "] [" ++ x.1.level ++ ascii "] " ++ x.1.text ++ ascii "\n" := by
    induction ms with
    | nil => intro k; rfl
    | cons m ms ih =>
      intro k
      unfold logLines Msg.line
      rw [ih (k + 1), List.zipIdx_cons, List.flatMap_cons]
  exact this 0

example (clock : Nat → List Byte) : logLines clock 0 [.unknownSubheader, .raised .cannotReadPage []] =
    ascii "[" ++ clock 0 ++ ascii "] [warning] Unknown subheader signature!\n[" ++ clock 1 ++ ascii "] [critical] cannot_read_page\n" := by
  have h1 : ascii "] [warning] Unknown subheader signature!\n[" =
      ascii "] [" ++ (Msg.unknownSubheader.level ++ (ascii "] " ++ (Msg.unknownSubheader.text ++ (ascii "\n" ++ ascii "[")))) := by
    decide +kernel
  have h2 : ascii "] [critical] cannot_read_page\n" = ascii "] [" ++ ((Msg.raised .cannotReadPage []).level ++
      (ascii "] " ++ ((Msg.raised .cannotReadPage []).text ++ ascii "\n"))) := by decide +kernel
  rw [C100_lines, h1, h2]
  simp

/-- The messages of two demonstration files: one of each kind. -/
example : ((openLog Demo.cfg ifs 10 (IFStream.open fewFile)).take 2).map Msg.level = [ascii "warning", ascii "info"] ∧
    (Demo.rleReader.runLog ifs [.readRow, .readRow]).flatten.map Msg.level = [ascii "critical", ascii "critical"] := by
  decide +kernel

example : numbersIn (ascii "a 10+7>0 b") = [10, 7, 0] := by decide +kernel

end Sas.Props
