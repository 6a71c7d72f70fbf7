import Mathlib.Data.List.Forall2
import Verif.Lemmas.Lexer
/-
`parse` attaches the segments of the pieces of the specification.
-/
set_option linter.unusedSimpArgs false

namespace Kolombos
open Spec

theorem escPiece_append (s : Bytes) : (escPiece s).2.1 ++ (escPiece s).2.2 = 0x1b :: s := by
  cases s with
  | nil => rfl
  | cons c t =>
    simp only [escPiece]
    cases hct : (if c = 0x5b then csiTail t else none) with
    | some q =>
      obtain ⟨ps, is, f, r⟩ := q
      split at hct
      · rename_i h; subst h
        have := (csiTail_append hct).1
        simp [this]
      · cases hct
    | none =>
      cases hn : nfTail (c :: t) with
      | some q =>
        obtain ⟨is, f, r⟩ := q
        have := (nfTail_append hn).1
        simp [this]
      | none =>
        simp only []
        repeat' split
        all_goals rfl

theorem escPiece_ne_nil (s : Bytes) : (escPiece s).2.1 ≠ [] := by
  unfold escPiece
  repeat' split
  all_goals simp

theorem run_append (k : Kind) (p : Byte → Bool) (b : Byte) (s : Bytes) :
    (run k p b s).2.1 ++ (run k p b s).2.2 = b :: s := by simp [run]

/-- The kinds whose pieces are runs of bytes, with their class. -/
def runClass : Kind → Option (Byte → Bool)
  | .binary => some isHigh | .null => some (· == 0x00) | .backspace => some (· == 0x08)
  | .tab => some (· == 0x09) | .vertTab => some (· == 0x0b) | .formFeed => some (· == 0x0c)
  | .carrReturn => some (· == 0x0d) | .space => some (· == 0x20) | .delete => some (· == 0x7f)
  | .ctrl => some isCtrl | .printable => some isPrintable
  | _ => none

theorem printable_of (b : Byte) (hH : ¬ isHigh b = true) (h0 : b ≠ 0) (h8 : b ≠ 8) (h9 : b ≠ 9)
    (ha : b ≠ 0xa) (hb : b ≠ 0xb) (hc : b ≠ 0xc) (hd : b ≠ 0xd) (h20 : b ≠ 0x20) (h7f : b ≠ 0x7f)
    (h1b : b ≠ 0x1b) (hctrl : ¬ isCtrl b = true) : isPrintable b = true := by
  have := b.toNat_lt
  have t : ∀ n : Nat, n < 256 → b ≠ UInt8.ofNat n → b.toNat ≠ n :=
    fun n h h' e => h' ((byte_eq_iff b n h).2 e)
  have t1 := t 0 (by decide) (by assumption)
  have t2 := t 8 (by decide) (by assumption)
  have t3 := t 9 (by decide) (by assumption)
  have t4 := t 10 (by decide) (by assumption)
  have t5 := t 11 (by decide) (by assumption)
  have t6 := t 12 (by decide) (by assumption)
  have t7 := t 13 (by decide) (by assumption)
  have t8 := t 0x20 (by decide) (by assumption)
  have t9 := t 0x7f (by decide) (by assumption)
  have t10 := t 0x1b (by decide) (by assumption)
  simp [isCtrl, isHigh, between] at hctrl hH
  simp [isPrintable, between]
  omega

/-- Case analysis on the first piece. -/
theorem piece_cases {P : Kind × Bytes × Bytes → Prop} (b : Byte) (s : Bytes)
    (hutf8 : isHigh b = true → utf8Len (b :: s) ≠ 0 →
      P (.utf8, (b :: s).take (utf8Len (b :: s)), (b :: s).drop (utf8Len (b :: s))))
    (hesc : b = 0x1b → P (escPiece s)) (hnl : b = 0x0a → P (.newline, [b], s))
    (hrun : ∀ k p, runClass k = some p → p b = true → (k = .binary → utf8Len (b :: s) = 0) →
      P (run k p b s)) : P (piece b s) := by
  unfold piece
  by_cases hH : isHigh b = true
  · rw [if_pos hH]
    by_cases hU : utf8Len (b :: s) = 0
    · rw [if_pos hU]; exact hrun .binary _ rfl hH fun _ => hU
    · rw [if_neg hU]; exact hutf8 hH hU
  rw [if_neg hH]
  by_cases h1b : b = 0x1b
  · rw [if_pos h1b]; exact hesc h1b
  rw [if_neg h1b]
  by_cases h0 : b = 0
  · rw [if_pos h0]; exact hrun .null _ rfl (by simp [h0]) (by simp)
  rw [if_neg h0]
  by_cases h8 : b = 8
  · rw [if_pos h8]; exact hrun .backspace _ rfl (by simp [h8]) (by simp)
  rw [if_neg h8]
  by_cases h9 : b = 9
  · rw [if_pos h9]; exact hrun .tab _ rfl (by simp [h9]) (by simp)
  rw [if_neg h9]
  by_cases ha : b = 0xa
  · rw [if_pos ha]; exact hnl ha
  rw [if_neg ha]
  by_cases hb : b = 0xb
  · rw [if_pos hb]; exact hrun .vertTab _ rfl (by simp [hb]) (by simp)
  rw [if_neg hb]
  by_cases hc : b = 0xc
  · rw [if_pos hc]; exact hrun .formFeed _ rfl (by simp [hc]) (by simp)
  rw [if_neg hc]
  by_cases hd : b = 0xd
  · rw [if_pos hd]; exact hrun .carrReturn _ rfl (by simp [hd]) (by simp)
  rw [if_neg hd]
  by_cases h20 : b = 0x20
  · rw [if_pos h20]; exact hrun .space _ rfl (by simp [h20]) (by simp)
  rw [if_neg h20]
  by_cases h7f : b = 0x7f
  · rw [if_pos h7f]; exact hrun .delete _ rfl (by simp [h7f]) (by simp)
  rw [if_neg h7f]
  by_cases hctrl : isCtrl b = true
  · rw [if_pos hctrl]; exact hrun .ctrl _ rfl hctrl (by simp)
  rw [if_neg hctrl]
  exact hrun .printable _ rfl (printable_of b hH h0 h8 h9 ha hb hc hd h20 h7f h1b hctrl) (by simp)

theorem piece_append (b : Byte) (s : Bytes) : (piece b s).2.1 ++ (piece b s).2.2 = b :: s := by
  apply piece_cases (P := fun q => q.2.1 ++ q.2.2 = b :: s)
  · intro _ _; simp
  · rintro rfl; exact escPiece_append s
  · intro _; rfl
  · intro k p _ _ _; exact run_append k p b s

theorem piece_ne_nil (b : Byte) (s : Bytes) : (piece b s).2.1 ≠ [] := by
  apply piece_cases (P := fun q => q.2.1 ≠ [])
  · intro _ h; simp [h]
  · rintro rfl; exact escPiece_ne_nil s
  · intro _; simp
  · intro k p _ _ _; simp [run]

theorem piece_rest_lt (b : Byte) (s : Bytes) : (piece b s).2.2.length < (b :: s).length := by
  have h := congrArg List.length (piece_append b s)
  have h2 := List.length_pos_iff.2 (piece_ne_nil b s)
  simp only [List.length_append] at h
  omega

theorem piecesAux_eq (n : Nat) (s : Bytes) (h : s.length ≤ n) : piecesAux n s = piecesAux s.length s := by
  suffices ∀ (l n m : Nat) (s : Bytes), s.length ≤ l → s.length ≤ n → s.length ≤ m →
      piecesAux n s = piecesAux m s from this _ _ _ s (Nat.le_refl _) h (Nat.le_refl _)
  clear h s n
  intro l
  induction l with
  | zero =>
    intro n m s hl _ _
    have : s = [] := List.length_eq_zero_iff.1 (by omega)
    subst this
    cases n <;> cases m <;> rfl
  | succ l ih =>
    intro n m s hl hn hm
    cases s with
    | nil => cases n <;> cases m <;> rfl
    | cons b s =>
      have hr := piece_rest_lt b s
      simp only [List.length_cons] at *
      obtain ⟨n, rfl⟩ : ∃ k, n = k + 1 := ⟨n - 1, by omega⟩
      obtain ⟨m, rfl⟩ : ∃ k, m = k + 1 := ⟨m - 1, by omega⟩
      simp only [piecesAux]
      rw [ih n m _ (by omega) (by omega) (by omega)]

theorem pieces_nil : pieces [] = [] := rfl

theorem pieces_cons (b : Byte) (s : Bytes) :
    pieces (b :: s) = ((piece b s).1, (piece b s).2.1) :: pieces (piece b s).2.2 := by
  have hr := piece_rest_lt b s
  simp only [List.length_cons] at hr
  simp only [pieces, List.length_cons, piecesAux]
  rw [piecesAux_eq s.length _ (by omega)]

/-- Induction over the pieces of an input. -/
theorem pieces_induction {P : Bytes → Prop} (h0 : P [])
    (h1 : ∀ b s, P (piece b s).2.2 → P (b :: s)) (s : Bytes) : P s := by
  suffices ∀ n s, s.length ≤ n → P s from this _ s (Nat.le_refl _)
  intro n
  induction n with
  | zero => intro s h; rw [List.length_eq_zero_iff.1 (by omega : s.length = 0)]; exact h0
  | succ n ih =>
    intro s h
    cases s with
    | nil => exact h0
    | cons b s =>
      have := piece_rest_lt b s
      exact h1 b s (ih _ (by omega))

theorem pieces_flatten (s : Bytes) : ((pieces s).map Prod.snd).flatten = s := by
  induction s using pieces_induction with
  | h0 => rfl
  | h1 b s ih => rw [pieces_cons]; simp [ih, piece_append]

theorem pieces_ne_nil (s : Bytes) : ∀ q ∈ pieces s, q.2 ≠ [] := by
  induction s using pieces_induction with
  | h0 => simp [pieces_nil]
  | h1 b s ih =>
    rw [pieces_cons]
    intro q hq
    rcases List.mem_cons.1 hq with rfl | hq
    · exact piece_ne_nil b s
    · exact ih q hq

theorem first_fSeparator (b : Byte) (s : Bytes) :
    ∃ caps, fSeparator.first (b :: s) = some (⟨(piece b s).2.1, caps⟩, (piece b s).2.2) ∧
      Good (piece b s).1 (piece b s).2.1 caps := by
  obtain ⟨caps, h, hg⟩ := hd_fSeparator b s
  refine ⟨caps, ?_, hg⟩
  rw [hd] at h
  rw [Re.first, h]
  simp only [Option.map_some]
  have : (b :: s).take ((b :: s).length - (piece b s).2.2.length) = (piece b s).2.1 := by
    rw [← piece_append b s]
    exact take_sub_append _ _
  rw [this]

/-- An item of the scan is the match of a piece. -/
def ItemOf (it : Item Byte) (q : Kind × Bytes) : Prop :=
  ∃ caps, it = .matched ⟨q.2, caps⟩ ∧ Good q.1 q.2 caps

theorem scanAux_pieces (n : Nat) (s : Bytes) (h : s.length ≤ n) :
    List.Forall₂ ItemOf (fSeparator.scanAux n s) (pieces s) := by
  induction n generalizing s with
  | zero =>
    rw [List.length_eq_zero_iff.1 (by omega : s.length = 0)]
    exact .nil
  | succ n ih =>
    cases s with
    | nil => exact .nil
    | cons b s =>
      obtain ⟨caps, hf, hg⟩ := first_fSeparator b s
      have hr := piece_rest_lt b s
      rw [pieces_cons, Re.scanAux]
      simp only [hf, hr, if_true]
      simp only [List.length_cons] at *
      exact .cons ⟨caps, rfl, hg⟩ (ih _ (by omega))

/-- The scan of the code finds exactly the pieces. -/
theorem scan_pieces (s : Bytes) : List.Forall₂ ItemOf (fSeparator.scan s) (pieces s) :=
  scanAux_pieces _ s (Nat.le_refl _)

/-- The template for a kind of piece. -/
def Registry.tpl (reg : Registry) : Kind → Template
  | .utf8 => reg.utf8Seq | .binary => reg.binaryData | .reset => reg.escapeSeqSgr0
  | .sgr => reg.escapeSeqSgr | .csi => reg.escapeSeqCsi | .nF => reg.escapeSeqNf
  | .fp => reg.escapeSeqFp | .fe => reg.escapeSeqFe | .fs => reg.escapeSeqFs
  | .ctrl => reg.controlChar | .null => reg.controlCharNull
  | .backspace => reg.controlCharBackspace | .esc => reg.controlCharEscape
  | .delete => reg.controlCharDelete | .tab => reg.whitespaceTab
  | .newline => reg.whitespaceNewline | .vertTab => reg.whitespaceVertTab
  | .formFeed => reg.whitespaceFormFeed | .carrReturn => reg.whitespaceCarrReturn
  | .space => reg.whitespaceSpace | .printable => reg.printableChar

/-- Template resolution for a piece. -/
def resolvePiece (reg : Registry) (k : Kind) (p : Bytes) : Except Err Template :=
  if k = .sgr then
    match setDetails (csiParams p) with
    | .error e => .error e
    | .ok d => .ok { reg.escapeSeqSgr with sgr := d }
  else .ok (reg.tpl k)

/-- The segments of a piece. -/
def pieceSegments (reg : Registry) (s : Settings) (k : Kind) (p : Bytes) : Except Err (List Segment) :=
  match resolvePiece reg k p with
  | .error e => .error e
  | .ok t => t.substitute s p

/-- The segments of a list of pieces. -/
def piecesSegments (reg : Registry) (s : Settings) : List (Kind × Bytes) → Except Err (List Segment)
  | [] => .ok []
  | q :: qs =>
    match pieceSegments reg s q.1 q.2 with
    | .error e => .error e
    | .ok gs =>
      match piecesSegments reg s qs with
      | .error e => .error e
      | .ok hs => .ok (gs ++ hs)

theorem resolveMatch_good {reg : Registry} {k : Kind} {p : Bytes} {caps : Caps Byte}
    (h : Good k p caps) : resolveMatch reg ⟨p, caps⟩ (groupIdx k) = resolvePiece reg k p := by
  have hc : groupIdx k = 2 → resolveCsi reg ⟨p, caps⟩ = resolvePiece reg k p := by
    intro e
    obtain ⟨h6, f, h8, hk⟩ := h.csi e
    unfold resolveCsi
    rw [h6, h8]
    simp only [Option.getD_some, Option.some.injEq, List.cons.injEq, and_true]
    rw [hk]
    simp only [csiKind, resolvePiece]
    by_cases hm : f = 0x6d
    · by_cases h0 : csiParams p = [] ∨ csiParams p = [0x30]
      · simp [hm, h0, Registry.tpl]
      · simp only [hm, h0, if_true, if_false]
        cases setDetails (csiParams p) <;> rfl
    · simp [hm, Registry.tpl]
  cases k <;> first | exact hc rfl | rfl

theorem matchSegments_good {reg : Registry} {s : Settings} {k : Kind} {p : Bytes} {caps : Caps Byte}
    (h : Good k p caps) : matchSegments reg s ⟨p, caps⟩ = pieceSegments reg s k p := by
  unfold matchSegments pieceSegments
  rw [h.prim]
  simp only [h.grp, Option.getD_some, resolveMatch_good h]
  cases resolvePiece reg k p <;> rfl

theorem attach_nil (b : SegmentBuffer) : b.attach [] = b := by
  simp [SegmentBuffer.attach]

theorem attach_append (b : SegmentBuffer) (gs hs : List Segment) :
    b.attach (gs ++ hs) = (b.attach gs).attach hs := by
  simp [SegmentBuffer.attach]

theorem subItems_pieces {reg : Registry} {s : Settings} {its : List (Item Byte)}
    {qs : List (Kind × Bytes)} (h : List.Forall₂ ItemOf its qs) (buf : SegmentBuffer) :
    subItems reg s its buf = match piecesSegments reg s qs with
      | .error e => .error e
      | .ok gs => .ok ([], buf.attach gs) := by
  induction h generalizing buf with
  | nil => simp [subItems, piecesSegments, attach_nil]
  | cons hi _ ih =>
    obtain ⟨caps, rfl, hg⟩ := hi
    simp only [subItems, piecesSegments, matchSegments_good hg]
    cases pieceSegments reg s _ _ with
    | error e => rfl
    | ok gs =>
      simp only [ih]
      cases piecesSegments reg s _ with
      | error e => rfl
      | ok hs => simp [attach_append]

/-- `parse` in terms of the pieces of the specification. -/
theorem parse_eq (reg : Registry) (s : Settings) (pb : ParserBuffer) (buf : SegmentBuffer) :
    parse reg s pb buf = match piecesSegments reg s (pieces pb.raw) with
      | .error e => .error e
      | .ok gs => .ok ({ pb with raw := [] }, buf.attach gs) := by
  unfold parse
  rw [subItems_pieces (scan_pieces pb.raw)]
  cases piecesSegments reg s (pieces pb.raw) with
  | error e => rfl
  | ok gs => simp [ParserBuffer.cropRaw]

end Kolombos
