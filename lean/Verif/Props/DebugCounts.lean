import Verif.Lemmas.DebugTextCounts
import Verif.Props.DebugScreen
/-
C119: the numbers in debug messages add up.
-/
set_option linter.unusedSimpArgs false

namespace Kolombos
open Spec

/-- C119 in binary mode: whatever is read, and however reading ends, the numbers on the screen with `-DD` agree with each other. -/
theorem C119_counts_partial (fuel : Nat) (s : Settings) (hm : s.readMode.1 = .binary) (hd : 2 ≤ s.debug) (src : Debug.Source)
    (hn : ∀ name k, src = .file name k → ∀ c ∈ name, isControlChar c = false) (term wide : Nat → Int) (hp : PosCols s term)
    (opened : Option Err) (io : List IoStep) :
    CountsAdd s 0 0 0 (screenTexts (stdoutOf s.debug (Debug.byteIoRun fuel s src term wide opened io).evs)) := by
  have hs : src.Plain := by
    cases src with
    | stdin => trivial
    | file name k => exact hn name k rfl
  rw [screenTexts_stdout (Debug.byteIoRun_lines fuel s hs (fun _ => hp) wide opened io)]
  exact Debug.byteIoRun_counted hd hm fuel hs hp wide opened io

/-- Seven bytes in two chunks, four columns. -/
def countsCase : List IoStep := [.data [0x1b, 0x5b, 0x33, 0x31, 0x6d], .data [0x61, 0x62]]

example : (screenTexts (stdoutOf 2 (Debug.byteIoRun 9 { debug := 2, binary := true, columns := some 4 } .stdin (fun _ => 80) (fun _ => 30) none countsCase).evs)).filter
      (fun t => parsedMark.isPrefixOf t || queueMark.isPrefixOf t || takenMark.isPrefixOf t || "  0x0000│ ".toList.isPrefixOf t || "  0x0004│ ".toList.isPrefixOf t) =
    [ "  parser│Parsing segment: len 5\n".toList, "chainbuf│Buffer state: len 5+78\n".toList, "chainbuf│Detached 4 data byte(s)\n".toList,
      "chainbuf│Buffer state: len 1+20\n".toList, "  0x0000│ 1b 5b 33 31 │▯[31\n".toList, "  0x0000│ 1b 5b 33 31 │ǝ[31\n".toList,
      "chainbuf│Buffer state: len 1+20\n".toList, "  parser│Parsing segment: len 2\n".toList, "chainbuf│Buffer state: len 3+47\n".toList,
      "  parser│Parsing segment: len 0\n".toList, "chainbuf│Buffer state: len 3+47\n".toList, "chainbuf│Detached 3 data byte(s)\n".toList,
      "chainbuf│Buffer state: len 0+0\n".toList, "  0x0004│ 6d 61 62    │mab\n".toList, "  0x0004│ 6d 61 62    │mab\n".toList,
      "chainbuf│Buffer state: len 0+0\n".toList, "chainbuf│Buffer state: len 0+0\n".toList] := by decide +kernel

/-! ### Text mode -/

theorem digits_first {m n : Nat} {x y : Str} (hx : ∀ c ∈ x.head?, c.isDigit = false) (hy : ∀ c ∈ y.head?, c.isDigit = false)
    (h : Nat.toDigits 10 m ++ x = Nat.toDigits 10 n ++ y) : m = n := by
  have key : ∀ (n : Nat) (x : Str), (∀ c ∈ x.head?, c.isDigit = false) → (Nat.toDigits 10 n ++ x).takeWhile Char.isDigit = Nat.toDigits 10 n := by
    intro n x hx
    rw [List.takeWhile_append_of_pos (l₁ := Nat.toDigits 10 n) (p := Char.isDigit) fun c hc => dec_digit (n := n) hc]
    cases x with
    | nil => simp
    | cons c x =>
      have := hx c (by simp)
      simp [this]
  have := congrArg (List.takeWhile Char.isDigit) h
  rw [key m x hx, key n y hy] at this
  exact dec_inj this

theorem mark_ne {a b x y : Str} (h : ¬ a <+: b) (h' : ¬ b <+: a) : a ++ x ≠ b ++ y := by
  intro e
  rcases List.prefix_or_prefix_of_prefix (List.prefix_append a x) (e ▸ List.prefix_append b y) with h1 | h1
  · exact h h1
  · exact h' h1

theorem counts_skips {s : Settings} {w : Nat} {us r : List Str} (hu : ∀ u ∈ us, NoCount u) : ∀ {t o : Nat}, t = 0 → CountsAdd s w t o (us ++ r) →
    ∃ o', CountsAdd s w 0 o' r := by
  induction us with
  | nil => rintro t o rfl h; exact ⟨o, h⟩
  | cons u us ih =>
    intro t o ht h
    have hc := hu u (by simp)
    have ih := @ih fun u hm => hu u (by simp [hm])
    rw [List.cons_append] at h
    cases h with
    | parsed n rest _ _ => exact absurd ⟨_, (List.append_assoc _ _ _).symm⟩ hc.1
    | queue rest _ => exact absurd ⟨_, by simp only [List.append_assoc]; rfl⟩ hc.2.1
    | taken n _ => exact absurd ⟨_, (List.append_assoc _ _ _).symm⟩ hc.2.2
    | row bytes rest _ hr => exact ih rfl hr
    | other _ _ hr => exact ih ht hr

theorem counts_parsed {s : Settings} {w t o n : Nat} {rest : Str} {r : List Str} (hn : ∀ c ∈ rest.head?, c.isDigit = false)
    {u : Str} (e : u = parsedMark ++ Nat.toDigits 10 n ++ rest) (h : CountsAdd s w t o (u :: r)) : CountsAdd s (w + n) 0 o r := by
  have hp : parsedMark <+: u := ⟨_, by rw [e, List.append_assoc]⟩
  cases h with
  | parsed n' rest' hr' hr =>
    rw [List.append_assoc, List.append_assoc] at e
    have := digits_first (by
      rcases hr' with rfl | ⟨x, rfl⟩
      · intro c hc; cases hc; decide
      · intro c hc; cases hc; decide) hn (List.append_cancel_left e)
    rw [← this]
    exact hr
  | queue rest' _ =>
    rw [List.append_assoc, List.append_assoc, List.append_assoc] at e
    exact absurd e (mark_ne (by decide) (by decide))
  | taken n' _ =>
    rw [List.append_assoc, List.append_assoc] at e
    exact absurd e (mark_ne (by decide) (by decide))
  | row bytes rest' _ _ =>
    rw [List.append_assoc] at hp
    exact absurd hp (noCount_offset s o _).1
  | other _ h _ => exact absurd hp h.1

theorem counts_queue {s : Settings} {w t o n : Nat} {rest : Str} {r : List Str} {u : Str} (e : u = queueMark ++ Nat.toDigits 10 n ++ '+' :: rest)
    (h : CountsAdd s w t o (u :: r)) : n = w := by
  have hp : queueMark <+: u := ⟨_, by rw [e, List.append_assoc]⟩
  cases h with
  | parsed n' rest' hr' hr =>
    rw [List.append_assoc, List.append_assoc] at e
    exact absurd e (mark_ne (by decide) (by decide))
  | queue rest' _ =>
    rw [List.append_assoc, List.append_assoc, List.append_assoc] at e
    exact (digits_first (by intro c hc; cases hc; decide) (by intro c hc; cases hc; decide) (List.append_cancel_left e)).symm
  | taken n' _ =>
    rw [List.append_assoc, List.append_assoc] at e
    exact absurd e (mark_ne (by decide) (by decide))
  | row bytes rest' _ _ =>
    rw [List.append_assoc] at hp
    exact absurd hp (noCount_offset s o _).2.1
  | other _ h _ => exact absurd hp h.2.1

/-- C119 in text mode, for input of which the queue has all bytes: without details there must be no ESC (unless escape sequences are
ignored), with details no control characters. -/
theorem C119_text_partial (fuel : Nat) (s : Settings) (hm : s.readMode.1 = .text) (hd : 2 ≤ s.debug) (src : Debug.Source)
    (hn : ∀ name k, src = .file name k → ∀ c ∈ name, isControlChar c = false) (term wide : Nat → Int)
    (opened : Option Err) (io : List IoStep) (hio : ∀ raw, .data raw ∈ io → DumpsAll s [raw]) :
    CountsAdd s 0 0 0 (screenTexts (stdoutOf s.debug (Debug.byteIoRun fuel s src term wide opened io).evs)) := by
  have hs : src.Plain := by
    cases src with
    | stdin => trivial
    | file name k => exact hn name k rfl
  rw [screenTexts_stdout (Debug.byteIoRun_lines fuel s hs (fun h => by rw [hm] at h; cases h) (term := term) wide opened io)]
  exact Debug.byteIoRun_textCounted hd hm fuel hs term wide opened io hio

/-- A colour and two lines in two chunks, with details. -/
def countsText : List IoStep := [.data [0x1b, 0x5b, 0x33, 0x31, 0x6d, 0x61], .data [0x0a, 0x62]]

example : (∀ raw, IoStep.data raw ∈ countsText → DumpsAll { debug := 2, text := true, marker := 2 } [raw]) ∧
    (screenTexts (stdoutOf 2 (Debug.byteIoRun 9 { debug := 2, text := true, marker := 2 } .stdin (fun _ => 80) (fun _ => 30) none countsText).evs)).filter
      (fun t => parsedMark.isPrefixOf t || queueMark.isPrefixOf t || takenMark.isPrefixOf t || "  0x0000│ ".toList.isPrefixOf t || "  0x0007│ ".toList.isPrefixOf t) =
    [ "  parser│Parsing segment: len 6\n".toList, "chainbuf│Buffer state: len 6+159\n".toList, "  parser│Parsing segment: len 2\n".toList,
      "chainbuf│Buffer state: len 8+201\n".toList, "chainbuf│Detached 7 data byte(s)\n".toList, "chainbuf│Buffer state: len 1+27\n".toList,
      "  0x0000│ 1b 5b 33 31 6d 61 0a\n".toList, "chainbuf│Buffer state: len 1+27\n".toList, "  parser│Parsing segment: len 0\n".toList,
      "chainbuf│Buffer state: len 1+27\n".toList, "chainbuf│Detached 1 data byte(s)\n".toList, "chainbuf│Buffer state: len 0+0\n".toList,
      "  0x0007│ 62\n".toList, "chainbuf│Buffer state: len 0+0\n".toList] := by
  constructor
  · intro raw h
    simp only [countsText, List.mem_cons, IoStep.data.injEq, List.not_mem_nil, or_false] at h
    rcases h with rfl | rfl <;> exact ⟨fun h => absurd h (by decide), fun _ => by decide⟩
  · decide +kernel

/-- C119 in text mode is not met: five bytes of an escape sequence are parsed, and the queue is said to hold one. -/
theorem C119_negation : ¬ ∀ (fuel : Nat) (s : Settings), 2 ≤ s.debug → ∀ (src : Debug.Source),
    (∀ name k, src = .file name k → ∀ c ∈ name, isControlChar c = false) → ∀ (term wide : Nat → Int), PosCols s term →
    ∀ (opened : Option Err) (io : List IoStep),
    CountsAdd s 0 0 0 (screenTexts (stdoutOf s.debug (Debug.byteIoRun fuel s src term wide opened io).evs)) := by
  intro h
  have h := h 9 { debug := 2, columns := some 8 } (by decide) .stdin (by intro name k e; cases e) (fun _ => 80) (fun _ => 30) (fun k off => by show (0 : Int) < 8; decide) none [.data [0x1b, 0x5b, 0x33, 0x31, 0x6d]]
  obtain ⟨r, e⟩ : ∃ r, screenTexts (stdoutOf 2 (Debug.byteIoRun 9 { debug := 2, columns := some 8 } .stdin (fun _ => 80) (fun _ => 30) none [.data [0x1b, 0x5b, 0x33, 0x31, 0x6d]]).evs) =
      ["────────┬─────────────────────\n".toList, "  reader│Reading from stdin\n".toList, "  reader│Read buffer: size 128\n".toList,
        "  0x0000│Read chunk #0: len 5\n".toList, " parsbuf│Buffer state: len 5\n".toList] ++
      "  parser│Parsing segment: len 5\n".toList ::
      (["  0x0000│Match group #02: Seg <E>: len 5 -> len 1\n".toList, " parsbuf│Buffer state: len 0\n".toList, "  txtfmt│Requested line\n".toList,
        "chainbuf│Responsing with WaitRequest\n".toList] ++ "chainbuf│Buffer state: len 1+46\n".toList :: r) :=
    ⟨(screenTexts (stdoutOf 2 (Debug.byteIoRun 9 { debug := 2, columns := some 8 } .stdin (fun _ => 80) (fun _ => 30) none [.data [0x1b, 0x5b, 0x33, 0x31, 0x6d]]).evs)).drop 11, by
      decide +kernel⟩
  simp only at h
  rw [e] at h
  obtain ⟨o1, h1⟩ := counts_skips (by unfold NoCount; decide +kernel) rfl h
  have h2 := counts_parsed (n := 5) (rest := ['\n']) (by intro c hc; cases hc; decide) (by decide +kernel) h1
  obtain ⟨o2, h3⟩ := counts_skips (by unfold NoCount; decide +kernel) rfl h2
  have := counts_queue (n := 1) (rest := "46\n".toList) (by decide +kernel) h3
  omega

end Kolombos
