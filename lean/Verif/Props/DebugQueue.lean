import Verif.Lemmas.DebugCounts
import Verif.Spec.DebugQueue
/-
C124: the contents of the queue in debug messages.
-/
set_option linter.unusedSimpArgs false

namespace Kolombos
open Spec

theorem assemble_inner (q : Sgr) (h : q ≠ []) : (q.assemble.drop 2).dropLast = paramText q := by
  unfold Sgr.assemble paramText
  rw [if_neg (by simpa using h)]
  simp

theorem seqWord_eq (q : Sgr) : Debug.previewSgr q.assemble = seqWord q := by
  rw [previewSgr_assemble]
  unfold seqWord
  by_cases h : q = []
  · rw [if_pos h, if_pos h]
  · rw [if_neg h, if_neg h, assemble_inner q h]
    rfl

theorem hexPair_pad (b : Byte) : hexPad 2 b.toNat = hexPair b := by
  have : ∀ n : Fin 256, hexPad 2 n.1 = [hexDigit (n.1 / 16), hexDigit (n.1 % 16)] := by decide +kernel
  exact this ⟨b.toNat, b.toNat_lt⟩

theorem says_sentence (a : Style) : ∀ (l m : List Str), List.Forall₂ (Says a) l m → Says a (join [' '] l) (sentence m) := by
  intro l m h
  induction h with
  | nil => exact Says.nil a
  | cons h1 h2 ih =>
    cases h2 with
    | nil => exact h1
    | cons h3 h4 =>
      refine ((h1.append (Says.plain a (t := [' ']) (by decide))).append ih).cast ?_
      simp [sentence]

theorem previewElement_words (c : List Chainable) :
    List.Forall₂ (Says (applySgr [90] {})) (c.flatMap Debug.previewElement) (queueWords c) := by
  induction c with
  | nil => exact .nil
  | cons x c ih =>
    have seq : ∀ q : Sgr, Says (applySgr [90] {}) (span [3] (Debug.previewSgr q.assemble)) (seqWord q) := fun q =>
      (Says.span (Says.plain _ (previewSgr_plain q)) (by decide)).cast (seqWord_eq q)
    rw [List.flatMap_cons]
    cases x with
    | seg g =>
      refine List.rel_append ?_ ih
      show List.Forall₂ _ (g.raw.map fun b => hexPad 2 b.toNat) (g.raw.map hexPair)
      generalize g.raw = r
      induction r with
      | nil => exact .nil
      | cons b r ihr => exact .cons ((Says.plain _ (hexPad_plain _ _)).cast (hexPair_pad b)) ihr
    | start q => exact .cons (seq q) ih
    | stop q => exact .cons (seq q) ih
    | oneUse q => exact .cons (seq q) ih

theorem active_words (a : Style) (l : List Sgr) :
    List.Forall₂ (Says a) (l.map fun q => Debug.previewSgr q.assemble) (l.map seqWord) := by
  induction l with
  | nil => exact .nil
  | cons q l ih => exact .cons ((Says.plain _ (previewSgr_plain q)).cast (seqWord_eq q)) ih

theorem waiting_length (b : SegmentBuffer) : b.dataLen = (waiting b.chain).length := by
  unfold SegmentBuffer.dataLen
  induction b.chain with
  | nil => rfl
  | cons x c ih =>
    cases x <;> simp [waiting, Chainable.dataLen, Segment.dataLen, ih]

theorem seqChars_sum (c : List Chainable) : ((c.filterMap Debug.refOf).map fun q => q.assemble.length).sum = seqChars c := by
  induction c with
  | nil => rfl
  | cons x c ih => cases x <;> simp [seqChars, Debug.refOf, List.filterMap_cons, ← ih]

/-- C124: what a message about the queue says with -DDD and -DDDD, for every state of the queue. -/
theorem C124_message (s : Settings) (b : SegmentBuffer) (hd : 3 ≤ s.debug) :
    ∃ u : Str, Debug.bufferState s b = .dbg 2 u ∧
      visible u = "chainbuf│Buffer state: len ".toList ++ Nat.toDigits 10 (waiting b.chain).length ++ "+".toList ++ Nat.toDigits 10 (seqChars b.chain) ++
        (if 4 ≤ s.debug then ": [".toList ++ sentence (queueWords b.chain) ++ "]. Active SGR buffer state: [".toList ++ sentence (b.active.map seqWord) ++ "]\n".toList
         else ": [".toList ++ sentence (queueWords (b.chain.take 5)) ++ (if 5 < b.chain.length then "..]\n".toList else "]\n".toList)) := by
  have hp : ∀ k, PlainStr ('+' :: dec k) := by
    intro k c hc
    rcases List.mem_cons.1 hc with rfl | hc
    · decide
    · exact dec_plain _ c hc
  have h0 : ∀ k, Says {} ("len ".toList ++ Debug.bold (dec b.dataLen) ++ span [3] ('+' :: dec k)) ("len ".toList ++ dec b.dataLen ++ '+' :: dec k) := fun k =>
    ((Says.plain {} (t := "len ".toList) (by decide)).append (Says.span (Says.plain _ (dec_plain _)) (by decide))).append
      (Says.span (Says.plain _ (hp k)) (by decide))
  have hw : ∀ (c : List Chainable) (more : Str), PlainStr more →
      Says {} ([':', ' '] ++ span [90] (['['] ++ join [' '] (c.flatMap Debug.previewElement) ++ more ++ [']']))
        ([':', ' '] ++ (['['] ++ sentence (queueWords c) ++ more ++ [']'])) := fun c more hm =>
    (Says.plain {} (by decide)).append (Says.span ((((Says.plain _ (by decide)).append (says_sentence _ _ _ (previewElement_words c))).append
      (Says.plain _ hm)).append (Says.plain _ (by decide))) (by decide))
  have ha : Says {} (". Active SGR buffer state: ".toList ++ span [90] (['['] ++ join [' '] (b.active.map fun q => Debug.previewSgr q.assemble) ++ [']']))
      (". Active SGR buffer state: ".toList ++ (['['] ++ sentence (b.active.map seqWord) ++ [']'])) :=
    (Says.plain {} (by decide)).append (Says.span (((Says.plain _ (by decide)).append (says_sentence _ _ _ (active_words _ b.active))).append
      (Says.plain _ (by decide))) (by decide))
  by_cases h4 : 4 ≤ s.debug
  · have e : Debug.preview s b = "len ".toList ++ Debug.bold (dec b.dataLen) ++ span [3] ('+' :: dec (seqChars b.chain)) ++
        ([':', ' '] ++ span [90] (['['] ++ join [' '] (b.chain.flatMap Debug.previewElement) ++ [] ++ [']'])) ++
        (". Active SGR buffer state: ".toList ++ span [90] (['['] ++ join [' '] (b.active.map fun q => Debug.previewSgr q.assemble) ++ [']'])) := by
      unfold Debug.preview
      simp only
      rw [seqChars_sum]
      rw [if_pos hd, if_pos h4, if_pos h4, if_neg (c := s.debug < 4 ∧ b.chain.length > 5) (fun h => absurd h.1 (by omega))]
    have h := ((h0 (seqChars b.chain)).append (hw b.chain [] (by intro c hc; cases hc))).append ha
    rw [← e] at h
    obtain ⟨u, e1, e2⟩ := Debug.chainbuf_says s 2 ((Says.plain {} (t := "Buffer state: ".toList) (by decide)).append h)
    refine ⟨u, (by unfold Debug.bufferState; exact e1), ?_⟩
    rw [e2, if_pos h4, ← waiting_length]
    simp [dec, List.append_assoc]
  · have e : Debug.preview s b = "len ".toList ++ Debug.bold (dec b.dataLen) ++ span [3] ('+' :: dec (seqChars b.chain)) ++
        ([':', ' '] ++ span [90] (['['] ++ join [' '] ((b.chain.take 5).flatMap Debug.previewElement) ++ (if 5 < b.chain.length then ['.', '.'] else []) ++ [']'])) := by
      unfold Debug.preview
      simp only
      rw [seqChars_sum]
      rw [if_pos hd, if_neg h4, if_neg h4, List.append_nil]
      by_cases h5 : 5 < b.chain.length
      · rw [if_pos ⟨by omega, h5⟩, if_pos h5]
      · rw [if_neg (fun h => h5 h.2), if_neg h5]
    have h := (h0 (seqChars b.chain)).append
      (hw (b.chain.take 5) (if 5 < b.chain.length then ['.', '.'] else []) (by split <;> decide))
    rw [← e] at h
    obtain ⟨u, e1, e2⟩ := Debug.chainbuf_says s 2 ((Says.plain {} (t := "Buffer state: ".toList) (by decide)).append h)
    refine ⟨u, (by unfold Debug.bufferState; exact e1), ?_⟩
    rw [e2, if_neg h4, ← waiting_length]
    by_cases h5 : 5 < b.chain.length
    · rw [if_pos h5, if_pos h5]
      simp [dec, List.append_assoc]
    · rw [if_neg h5, if_neg h5]
      simp [dec, List.append_assoc]

theorem seqWord_len (q : Sgr) : seqWord q = [] ∨ 3 ≤ (seqWord q).length := by
  unfold seqWord
  by_cases h : q = []
  · rw [if_pos h]; exact .inl rfl
  · rw [if_neg h]
    refine .inr ?_
    simp only [List.length_append]
    have : "[ǝ".toList.length = 2 := by decide
    have : "]".toList.length = 1 := by decide
    omega

theorem figure_pair (b : Byte) : 16 * figure (hexDigit (b.toNat / 16)) + figure (hexDigit (b.toNat % 16)) = b.toNat := by
  have : ∀ n : Fin 256, 16 * figure (hexDigit (n.1 / 16)) + figure (hexDigit (n.1 % 16)) = n.1 := by decide +kernel
  exact this ⟨b.toNat, b.toNat_lt⟩

/-- C124: the bytes in the queue can be read from these words. -/
theorem C124_read (c : List Chainable) : readWords (queueWords c) = (waiting c).map UInt8.toNat := by
  have seq : ∀ (q : Sgr) (r : List Str), readWords (seqWord q :: r) = readWords r := by
    intro q r
    unfold readWords
    rw [List.filterMap_cons]
    rcases seqWord_len q with h | h
    · rw [h]
    · match hq : seqWord q, h with
      | _ :: _ :: _ :: _, _ => rfl
  induction c with
  | nil => rfl
  | cons x c ih =>
    cases x with
    | seg g =>
      show readWords (g.raw.map hexPair ++ queueWords c) = ((g.raw ++ waiting c).map UInt8.toNat)
      rw [List.map_append, ← ih]
      unfold readWords
      rw [List.filterMap_append]
      refine congrArg (· ++ _) ?_
      induction g.raw with
      | nil => rfl
      | cons b r ihr =>
        rw [List.map_cons, List.map_cons, List.filterMap_cons, ihr]
        show (16 * figure (hexDigit (b.toNat / 16)) + figure (hexDigit (b.toNat % 16))) :: _ = _
        rw [figure_pair]
    | start q => exact (seq q _).trans ih
    | stop q => exact (seq q _).trans ih
    | oneUse q => exact (seq q _).trans ih

/-- A queue with a red byte, a sequence that is over, and five further pieces. -/
def someQueue : SegmentBuffer :=
  { chain := [.start [31], .seg ⟨[31], ['a'], [0x1b, 0xff], ['x', 'y']⟩, .stop [31], .seg ⟨[], ['b'], [0x0a], ['z']⟩, .oneUse [0], .seg ⟨[], ['b'], [0x7e], ['z']⟩], active := [[1]] }

example : (match Debug.bufferState { debug := 4 } someQueue with | .dbg _ u => visible u | _ => []) =
    "chainbuf│Buffer state: len 4+13: [[ǝ31] 1b ff [ǝ31] 0a [ǝ] 7e]. Active SGR buffer state: [[ǝ1]]\n".toList := by decide +kernel

example : (match Debug.bufferState { debug := 3 } someQueue with | .dbg _ u => visible u | _ => []) =
    "chainbuf│Buffer state: len 4+13: [[ǝ31] 1b ff [ǝ31] 0a [ǝ]..]\n".toList ∧
    readWords (queueWords someQueue.chain) = [0x1b, 0xff, 0x0a, 0x7e] := by decide +kernel

end Kolombos
