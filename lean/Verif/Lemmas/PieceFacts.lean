import Verif.Lemmas.Pieces
import Verif.Lemmas.Utf8
/-
Facts about the pieces of the specification.
-/
set_option linter.unusedSimpArgs false

namespace Kolombos
open Spec

/-- The pieces after some pieces are the pieces of the remaining bytes. -/
theorem pieces_suffix {raw : Bytes} {A B : List (Kind × Bytes)} (h : pieces raw = A ++ B) :
    B = pieces ((B.map Prod.snd).flatten) := by
  induction A generalizing raw with
  | nil => rw [List.nil_append] at h; rw [← h, pieces_flatten]
  | cons a A ih =>
    cases raw with
    | nil => simp [pieces_nil] at h
    | cons b s =>
      rw [pieces_cons, List.cons_append] at h
      exact ih (List.cons.inj h).2

/-- Case analysis on the first piece, for any position. -/
theorem pieces_head {raw : Bytes} {q : Kind × Bytes} {B : List (Kind × Bytes)} (h : pieces raw = q :: B) :
    ∃ b s, raw = b :: s ∧ q = ((piece b s).1, (piece b s).2.1) ∧ B = pieces (piece b s).2.2 := by
  cases raw with
  | nil => simp [pieces_nil] at h
  | cons b s =>
    rw [pieces_cons] at h
    exact ⟨b, s, rfl, (List.cons.inj h).1.symm, (List.cons.inj h).2.symm⟩

theorem pieces_mem {raw : Bytes} {q : Kind × Bytes} (h : q ∈ pieces raw) :
    ∃ b s, q = ((piece b s).1, (piece b s).2.1) := by
  obtain ⟨A, B, h⟩ := List.append_of_mem h
  have := pieces_suffix h
  obtain ⟨b, s, -, h, -⟩ := pieces_head this.symm
  exact ⟨b, s, h⟩

theorem isHigh_iff {b : Byte} : isHigh b = true ↔ 0x80 ≤ b.toNat := by
  have := b.toNat_lt
  simp [isHigh, between]; omega

/-- A byte below 0x80. -/
def isLow (b : Byte) : Bool := !isHigh b

theorem isLow_iff {b : Byte} : isLow b = true ↔ b.toNat < 0x80 := by
  rw [isLow, Bool.not_eq_true', ← Bool.not_eq_true, isHigh_iff]; omega

theorem between_low {lo hi : Nat} {b : Byte} (hb : between lo hi b = true) (h : hi < 0x80 := by decide) :
    isLow b = true := by
  rw [isLow_iff]; simp [between] at hb; omega

theorem takeWhile_all {p : Byte → Bool} (s : Bytes) : ∀ b ∈ s.takeWhile p, p b = true := by
  induction s with
  | nil => simp
  | cons a s ih =>
    intro b hb
    by_cases h : p a = true
    · rw [List.takeWhile_cons_of_pos h] at hb
      rcases List.mem_cons.1 hb with rfl | hb
      · exact h
      · exact ih b hb
    · rw [List.takeWhile_cons_of_neg h] at hb; simp at hb

/-- What `csiTail` finds. -/
theorem csiTail_spec {s ps is : Bytes} {f : Byte} {r : Bytes} (h : csiTail s = some (ps, is, f, r)) :
    s = ps ++ is ++ f :: r ∧ (∀ b ∈ ps, isParam b = true) ∧ (∀ b ∈ is, isInter b = true) ∧ isFinal f = true := by
  simp only [csiTail] at h
  split at h
  · rename_i f' r' hd
    split at h
    · rename_i hf
      simp only [Option.some.injEq, Prod.mk.injEq] at h
      obtain ⟨rfl, rfl, rfl, rfl⟩ := h
      refine ⟨?_, takeWhile_all _, takeWhile_all _, hf⟩
      rw [List.append_assoc, ← hd, List.takeWhile_append_dropWhile, List.takeWhile_append_dropWhile]
    · cases h
  · cases h

theorem takeWhile_append_of_all {p : Byte → Bool} {a : Bytes} {f : Byte} {r : Bytes} (h : ∀ b ∈ a, p b = true)
    (hf : p f = false) : (a ++ f :: r).takeWhile p = a ∧ (a ++ f :: r).dropWhile p = f :: r := by
  induction a with
  | nil => simp [hf]
  | cons b a ih =>
    have hb := h b (by simp)
    have := ih fun b hb => h b (by simp [hb])
    simp [hb, this]

theorem disjoint_of {lo hi lo' hi' : Nat} {b : Byte} (h : between lo hi b = true) (hd : hi < lo' ∨ hi' < lo) :
    between lo' hi' b = false := by
  simp [between] at *; omega

/-- `csiTail` finds the form if there is one. -/
theorem csiTail_complete {ps is : Bytes} {f : Byte} {r : Bytes} (h1 : ∀ b ∈ ps, isParam b = true)
    (h2 : ∀ b ∈ is, isInter b = true) (h3 : isFinal f = true) :
    csiTail (ps ++ is ++ f :: r) = some (ps, is, f, r) := by
  have e1 : isInter f = false := disjoint_of h3 (by decide)
  have e2 := takeWhile_append_of_all (r := r) h2 e1
  have : (ps ++ is ++ f :: r).takeWhile isParam = ps ∧ (ps ++ is ++ f :: r).dropWhile isParam = is ++ f :: r := by
    cases is with
    | nil => exact (by simpa using takeWhile_append_of_all (r := r) h1 (disjoint_of h3 (by decide)))
    | cons i is =>
      have : isParam i = false := disjoint_of (h2 i (by simp)) (by decide)
      simpa using takeWhile_append_of_all (r := is ++ f :: r) h1 this
  simp only [csiTail, this, e2, h3, if_true]

theorem nfTail_spec {s is : Bytes} {f : Byte} {r : Bytes} (h : nfTail s = some (is, f, r)) :
    s = is ++ f :: r ∧ is ≠ [] ∧ (∀ b ∈ is, isInter b = true) ∧ isFinalNF f = true := by
  simp only [nfTail] at h
  split at h
  · rename_i f' r' hd
    split at h
    · rename_i hf
      simp only [Bool.and_eq_true, decide_eq_true_eq] at hf
      simp only [Option.some.injEq, Prod.mk.injEq] at h
      obtain ⟨rfl, rfl, rfl⟩ := h
      refine ⟨?_, hf.2, takeWhile_all _, hf.1⟩
      rw [← hd, List.takeWhile_append_dropWhile]
    · cases h
  · cases h

theorem nfTail_complete {is : Bytes} {f : Byte} {r : Bytes} (h1 : is ≠ [])
    (h2 : ∀ b ∈ is, isInter b = true) (h3 : isFinalNF f = true) :
    nfTail (is ++ f :: r) = some (is, f, r) := by
  have e1 : isInter f = false := disjoint_of h3 (by decide)
  have e2 := takeWhile_append_of_all (r := r) h2 e1
  simp only [nfTail, e2, h3]
  simp [h1]

/-- The kinds of escape sequences. -/
def isEscKind (k : Kind) : Bool := kindIsEsc k
where kindIsEsc : Kind → Bool
  | .reset => true | .sgr => true | .csi => true | .nF => true | .fp => true | .fe => true | .fs => true
  | _ => false

theorem csiKind_cases (ps : Bytes) (f : Byte) : csiKind ps f = .reset ∨ csiKind ps f = .sgr ∨ csiKind ps f = .csi := by
  unfold csiKind
  split
  · split
    · exact .inl rfl
    · exact .inr (.inl rfl)
  · exact .inr (.inr rfl)

/-- Case analysis on what follows an ESC. -/
theorem escPiece_cases (s : Bytes) :
    (∃ t ps is f r, s = 0x5b :: t ∧ csiTail t = some (ps, is, f, r) ∧
      escPiece s = (csiKind ps f, 0x1b :: 0x5b :: (ps ++ is ++ [f]), r)) ∨
    ((∀ t, s = 0x5b :: t → csiTail t = none) ∧ ∃ is f r, nfTail s = some (is, f, r) ∧
      escPiece s = (.nF, 0x1b :: (is ++ [f]), r)) ∨
    ((∀ t, s = 0x5b :: t → csiTail t = none) ∧ nfTail s = none ∧ ∃ c t, s = c :: t ∧ between 0x30 0x7e c = true ∧
      escPiece s = ((if between 0x30 0x3f c then .fp else if between 0x40 0x5f c then .fe else .fs), [0x1b, c], t)) ∨
    ((∀ t, s = 0x5b :: t → csiTail t = none) ∧ nfTail s = none ∧ (∀ c t, s = c :: t → between 0x30 0x7e c = false) ∧
      escPiece s = (.esc, [0x1b], s)) := by
  cases s with
  | nil => exact .inr (.inr (.inr ⟨by simp, rfl, by simp, rfl⟩))
  | cons c t =>
    cases hct : (if c = 0x5b then csiTail t else none) with
    | some q =>
      obtain ⟨ps, is, f, r⟩ := q
      split at hct
      · rename_i h; subst h
        exact .inl ⟨t, ps, is, f, r, rfl, hct, by simp [escPiece, hct]⟩
      · cases hct
    | none =>
      have hno : ∀ u, c :: t = 0x5b :: u → csiTail u = none := by
        intro u hu
        obtain ⟨rfl, rfl⟩ := List.cons.inj hu
        simpa using hct
      refine .inr ?_
      cases hn : nfTail (c :: t) with
      | some q =>
        obtain ⟨is, f, r⟩ := q
        exact .inl ⟨hno, is, f, r, rfl, by simp only [escPiece, hct, hn]⟩
      | none =>
        refine .inr ?_
        by_cases h1 : between 0x30 0x3f c = true
        · exact .inl ⟨hno, rfl, c, t, rfl, by simp [between] at *; omega, by
            simp only [escPiece, hct, hn, h1, if_true]⟩
        by_cases h2 : between 0x40 0x5f c = true
        · exact .inl ⟨hno, rfl, c, t, rfl, by simp [between] at *; omega, by
            simp only [escPiece, hct, hn, h1, h2, if_true, if_false]; rfl⟩
        by_cases h3 : between 0x60 0x7e c = true
        · exact .inl ⟨hno, rfl, c, t, rfl, by simp [between] at *; omega, by
            simp only [escPiece, hct, hn, h1, h2, h3, if_true, if_false]; rfl⟩
        · refine .inr ⟨hno, rfl, ?_, by simp only [escPiece, hct, hn, h1, h2, h3, if_false]; rfl⟩
          intro c' t' e
          obtain ⟨rfl, rfl⟩ := List.cons.inj e
          simp [between] at *; omega

theorem esc_isLow : isLow 0x1b = true := by decide

/-- Escape sequences consist of 7-bit bytes. -/
theorem escPiece_low (s : Bytes) : ∀ b ∈ (escPiece s).2.1, isLow b = true := by
  rcases escPiece_cases s with ⟨t, ps, is, f, r, -, h, e⟩ | ⟨-, is, f, r, h, e⟩ | ⟨-, -, c, t, -, h, e⟩ | ⟨-, -, -, e⟩
  · obtain ⟨-, h1, h2, h3⟩ := csiTail_spec h
    rw [e]
    intro b hb
    simp only [List.mem_cons, List.mem_append, List.not_mem_nil, or_false] at hb
    rcases hb with rfl | rfl | (hb | hb) | rfl
    · decide
    · decide
    · exact between_low (h1 _ hb)
    · exact between_low (h2 _ hb)
    · exact between_low h3
  · obtain ⟨-, -, h1, h2⟩ := nfTail_spec h
    rw [e]
    intro b hb
    simp only [List.mem_cons, List.mem_append, List.not_mem_nil, or_false] at hb
    rcases hb with rfl | hb | rfl
    · decide
    · exact between_low (h1 _ hb)
    · exact between_low h2
  · rw [e]
    intro b hb
    simp only [List.mem_cons, List.not_mem_nil, or_false] at hb
    rcases hb with rfl | rfl
    · decide
    · exact between_low h
  · rw [e]; intro b hb; simp at hb; subst hb; decide

theorem escPiece_kind (s : Bytes) : isEscKind (escPiece s).1 = true ∨ (escPiece s).1 = .esc := by
  rcases escPiece_cases s with ⟨t, ps, is, f, r, -, h, e⟩ | ⟨-, is, f, r, h, e⟩ | ⟨-, -, c, t, -, h, e⟩ | ⟨-, -, -, e⟩
  · rw [e]; left
    rcases csiKind_cases ps f with h | h | h <;> simp only [h] <;> rfl
  · rw [e]; exact .inl rfl
  · rw [e]; left; simp only; split
    · rfl
    · split <;> rfl
  · rw [e]; exact .inr rfl

theorem runClass_low {k : Kind} {p : Byte → Bool} (h : runClass k = some p) (hk : k ≠ .binary) {b : Byte}
    (hb : p b = true) : isLow b = true := by
  have e : ∀ n, n < 0x80 → b = UInt8.ofNat n → isLow b = true := by
    rintro n hn rfl; rw [isLow_iff, toNat_ofNat_lt (by omega)]; exact hn
  cases k <;> simp only [runClass, Option.some.injEq, reduceCtorEq] at h <;> subst h
  case binary => exact absurd rfl hk
  case ctrl => simp [isCtrl, between] at hb; rw [isLow_iff]; omega
  case printable => exact between_low hb
  all_goals simp only [beq_iff_eq] at hb; exact e _ (by decide) hb

/-- Pieces that are neither UTF-8 nor binary data consist of 7-bit bytes. -/
theorem piece_low (b : Byte) (s : Bytes) (h1 : (piece b s).1 ≠ .utf8) (h2 : (piece b s).1 ≠ .binary) :
    ∀ c ∈ (piece b s).2.1, isLow c = true := by
  revert h1 h2
  apply piece_cases (P := fun q => q.1 ≠ .utf8 → q.1 ≠ .binary → ∀ c ∈ q.2.1, isLow c = true)
  · intro _ _ h; exact absurd rfl h
  · intro _ _ _; exact escPiece_low s
  · rintro rfl _ _ c hc; simp at hc; subst hc; decide
  · intro k p hk hb _ _ hkb c hc
    rcases List.mem_cons.1 hc with rfl | hc
    · exact runClass_low hk hkb hb
    · exact runClass_low hk hkb (takeWhile_all s c hc)

/-- Binary pieces consist of high bytes. -/
theorem piece_binary (b : Byte) (s : Bytes) (h : (piece b s).1 = .binary) :
    utf8Len (b :: s) = 0 ∧ isHigh b = true ∧ piece b s = run .binary isHigh b s := by
  revert h
  apply piece_cases (P := fun q => q.1 = .binary → utf8Len (b :: s) = 0 ∧ isHigh b = true ∧ q = run .binary isHigh b s)
  · intro _ _ h; cases h
  · intro _ h
    rcases escPiece_kind s with h' | h'
    · rw [h] at h'; cases h'
    · rw [h] at h'; cases h'
  · intro _ h; cases h
  · intro k p hk hb hu h
    change k = _ at h
    subst h
    simp only [runClass, Option.some.injEq] at hk
    subst hk
    exact ⟨hu rfl, hb, rfl⟩

/-- UTF-8 pieces are encoded characters. -/
theorem piece_utf8 (b : Byte) (s : Bytes) (h : (piece b s).1 = .utf8) :
    isHigh b = true ∧ ∃ c : Char, 0x80 ≤ c.toNat ∧ (piece b s).2.1 = enc c := by
  revert h
  apply piece_cases (P := fun q => q.1 = .utf8 → isHigh b = true ∧ ∃ c : Char, 0x80 ≤ c.toNat ∧ q.2.1 = enc c)
  · intro hb hu _
    exact ⟨hb, enc_of_utf8Len _ hu⟩
  · intro _ h
    rcases escPiece_kind s with h' | h'
    · rw [h] at h'; cases h'
    · rw [h] at h'; cases h'
  · intro _ h; cases h
  · intro k p hk hb hu h
    change k = _ at h
    subst h
    cases hk

/-- A character at the beginning is a piece. -/
theorem pieces_enc (c : Char) (h : 0x80 ≤ c.toNat) (r : Bytes) :
    pieces (enc c ++ r) = (.utf8, enc c) :: pieces r := by
  have hl := utf8Len_enc c h r
  have hh := enc_high c h
  obtain ⟨b, t, e⟩ := List.exists_cons_of_ne_nil (enc_ne_nil c)
  have hb : isHigh b = true := hh b (by rw [e]; simp)
  have hne : (enc c).length ≠ 0 := by rw [e]; simp
  have hp : piece b (t ++ r) = (.utf8, enc c, r) := by
    have hc : b :: (t ++ r) = enc c ++ r := by rw [e]; rfl
    unfold piece
    rw [if_pos hb, hc, hl, if_neg hne]
    simp
  rw [e, List.cons_append, pieces_cons, hp, e]

/-- A 7-bit piece of valid UTF-8 text is the encoding of ASCII characters. -/
theorem low_prefix_enc (p r : Bytes) (l : List Char) (hp : ∀ b ∈ p, isLow b = true)
    (h : p ++ r = l.flatMap enc) :
    ∃ l1 l2, l = l1 ++ l2 ∧ (∀ c ∈ l1, c.toNat < 0x80) ∧ p = l1.flatMap enc ∧ r = l2.flatMap enc := by
  induction p generalizing l with
  | nil => exact ⟨[], l, rfl, by simp, rfl, h⟩
  | cons b p ih =>
    cases l with
    | nil => simp at h
    | cons c l =>
      rw [List.flatMap_cons] at h
      by_cases hc : c.toNat < 0x80
      · rw [enc1 c hc, List.cons_append, List.cons_append, List.nil_append] at h
        obtain ⟨hb, h⟩ := List.cons.inj h
        obtain ⟨l1, l2, rfl, h1, rfl, h3⟩ := ih l (fun b hb => hp b (by simp [hb])) h
        refine ⟨c :: l1, l2, rfl, ?_, ?_, h3⟩
        · intro d hd; rcases List.mem_cons.1 hd with rfl | hd
          · exact hc
          · exact h1 d hd
        · rw [List.flatMap_cons, enc1 c hc, hb]; rfl
      · have hh := enc_high c (by omega)
        obtain ⟨b', t, e⟩ := List.exists_cons_of_ne_nil (enc_ne_nil c)
        rw [e, List.cons_append, List.cons_append] at h
        have := (List.cons.inj h).1
        have h1 := hh b' (by rw [e]; simp)
        have h2 := hp b (by simp)
        rw [this, isLow, h1] at h2
        cases h2

/-- The pieces of valid UTF-8 text. -/
theorem pieces_text (l : List Char) :
    (∀ q ∈ pieces (l.flatMap enc), q.1 ≠ .binary) ∧
    ((pieces (l.flatMap enc)).filter fun q => q.1 = .utf8) =
      (l.filter fun c => 0x80 ≤ c.toNat).map fun c => (.utf8, enc c) := by
  generalize hs : l.flatMap enc = s
  induction s using pieces_induction generalizing l with
  | h0 =>
    have : l = [] := by
      cases l with
      | nil => rfl
      | cons c l =>
        rw [List.flatMap_cons] at hs
        exact absurd (List.append_eq_nil_iff.1 hs).1 (enc_ne_nil c)
    subst this
    simp [pieces_nil]
  | h1 b s ih =>
    cases l with
    | nil => simp at hs
    | cons c l =>
      by_cases hc : 0x80 ≤ c.toNat
      · rw [List.flatMap_cons] at hs
        have hp := pieces_enc c hc (l.flatMap enc)
        rw [hs, pieces_cons] at hp
        obtain ⟨hp1, hp2⟩ := List.cons.inj hp
        have hr : (piece b s).2.2 = l.flatMap enc := by
          have e := piece_append b s
          rw [(Prod.mk.inj hp1).2, ← hs] at e
          exact List.append_cancel_left e
        obtain ⟨i1, i2⟩ := ih l hr.symm
        rw [pieces_cons, hp1]
        constructor
        · intro q hq
          rcases List.mem_cons.1 hq with rfl | hq
          · simp
          · exact i1 q hq
        · rw [List.filter_cons_of_pos (by simp), i2, List.filter_cons_of_pos (by simp [hc])]
          rfl
      · have hb : isHigh b = false := by
          rw [List.flatMap_cons, enc1 c (by omega)] at hs
          have := (List.cons.inj hs).1
          rw [← this, ← Bool.not_eq_true, isHigh_iff, toNat_ofNat_lt (by omega)]
          omega
        have h1 : (piece b s).1 ≠ .utf8 := fun h => by
          have := (piece_utf8 b s h).1; rw [hb] at this; cases this
        have h2 : (piece b s).1 ≠ .binary := fun h => by
          have := (piece_binary b s h).2.1; rw [hb] at this; cases this
        have hlow := piece_low b s h1 h2
        have e := piece_append b s
        rw [← hs] at e
        obtain ⟨l1, l2, hl, hl1, -, hr⟩ := low_prefix_enc _ _ _ hlow e
        obtain ⟨i1, i2⟩ := ih l2 hr.symm
        rw [pieces_cons, hl]
        constructor
        · intro q hq
          rcases List.mem_cons.1 hq with rfl | hq
          · exact h2
          · exact i1 q hq
        · rw [List.filter_cons_of_neg (by simpa using h1), i2, List.filter_append]
          rw [show (l1.filter fun c => decide (0x80 ≤ c.toNat)) = [] from
            List.filter_eq_nil_iff.2 fun c hc => by simpa using hl1 c hc]
          rfl

/-! ### Cutting the input -/

theorem takeWhile_prefix {p : Byte → Bool} {a b : Bytes} (h : ∃ x y, a.dropWhile p = x :: y) :
    (a ++ b).takeWhile p = a.takeWhile p ∧ (a ++ b).dropWhile p = a.dropWhile p ++ b := by
  induction a with
  | nil => simp at h
  | cons c a ih =>
    by_cases hc : p c = true
    · simp only [List.cons_append, List.takeWhile_cons_of_pos hc, List.dropWhile_cons_of_pos hc] at h ⊢
      have := ih h
      simp [this]
    · simp [List.takeWhile_cons_of_neg hc, List.dropWhile_cons_of_neg hc]

theorem csiTail_mono {a b ps is : Bytes} {f : Byte} {r : Bytes} (h : csiTail a = some (ps, is, f, r)) :
    csiTail (a ++ b) = some (ps, is, f, r ++ b) := by
  obtain ⟨rfl, h1, h2, h3⟩ := csiTail_spec h
  simpa using csiTail_complete (r := r ++ b) h1 h2 h3

theorem nfTail_mono {a b is : Bytes} {f : Byte} {r : Bytes} (h : nfTail a = some (is, f, r)) :
    nfTail (a ++ b) = some (is, f, r ++ b) := by
  obtain ⟨rfl, h1, h2, h3⟩ := nfTail_spec h
  simpa using nfTail_complete (r := r ++ b) h1 h2 h3

theorem utf8Len_le' (s : Bytes) : utf8Len s ≤ s.length := utf8Len_le s

theorem utf8Len_append {a b : Bytes} (h : utf8Len a ≠ 0) : utf8Len (a ++ b) = utf8Len a := by
  obtain ⟨c, hc, e⟩ := enc_of_utf8Len a h
  have hl := utf8Len_le' a
  have e2 : a = enc c ++ a.drop (utf8Len a) := by rw [← e, List.take_append_drop]
  have l2 := utf8Len_enc c hc (a.drop (utf8Len a) ++ b)
  have l3 := utf8Len_enc c hc (a.drop (utf8Len a))
  rw [← List.append_assoc, ← e2] at l2
  rw [← e2] at l3
  rw [l2, l3]

theorem prefix_of_len {t x p r : Bytes} (h : t ++ x = p ++ r) (hl : p.length ≤ t.length) :
    ∃ r', t = p ++ r' ∧ r = r' ++ x := by
  refine ⟨t.drop p.length, ?_, ?_⟩
  · have := congrArg (List.take p.length) h
    rw [List.take_append_of_le_length hl, List.take_left'] at this
    · exact (by rw [← congrArg (· ++ t.drop p.length) this]; exact (List.take_append_drop _ _).symm)
    · rfl
  · have := congrArg (List.drop p.length) h
    rw [List.drop_append_of_le_length hl, List.drop_left'] at this
    · exact this.symm
    · rfl

theorem takeWhile_of_all {p : Byte → Bool} {a : Bytes} (h : ∀ b ∈ a, p b = true) :
    a.takeWhile p = a ∧ a.dropWhile p = [] := by
  induction a with
  | nil => exact ⟨rfl, rfl⟩
  | cons b a ih =>
    have := ih fun b hb => h b (by simp [hb])
    simp [h b (by simp), this]

theorem run_mono {k : Kind} {p : Byte → Bool} {b : Byte} {s x : Bytes}
    (hl : (run k p b (s ++ x)).2.1.length ≤ (b :: s).length) :
    run k p b (s ++ x) = ((run k p b s).1, (run k p b s).2.1, (run k p b s).2.2 ++ x) := by
  simp only [run, List.length_cons] at hl ⊢
  obtain ⟨r', e1, e2⟩ := prefix_of_len (r := (s ++ x).dropWhile p) (p := (s ++ x).takeWhile p) (t := s) (x := x)
    (by rw [List.takeWhile_append_dropWhile]) (by omega)
  have hall := takeWhile_all (p := p) (s ++ x)
  have : s.takeWhile p = (s ++ x).takeWhile p ∧ s.dropWhile p = r' := by
    generalize (s ++ x).takeWhile p = a at *
    cases r' with
    | nil =>
      rw [List.append_nil] at e1; subst e1
      exact takeWhile_of_all hall
    | cons c r' =>
      have hc : p c = false := by
        have := List.head?_dropWhile_not p (s ++ x)
        rw [e2] at this
        simpa using this
      rw [e1]
      exact takeWhile_append_of_all hall hc
  rw [this.1, this.2, e2]

theorem csiTail_none_append {t x : Bytes} (h : csiTail t = none) {ps is : Bytes} {f : Byte} {r : Bytes}
    (h' : csiTail (t ++ x) = some (ps, is, f, r)) : t.length < (ps ++ is ++ [f]).length := by
  obtain ⟨e, h1, h2, h3⟩ := csiTail_spec h'
  refine Nat.lt_of_not_le fun hl => ?_
  obtain ⟨r', e1, -⟩ := prefix_of_len (p := ps ++ is ++ [f]) (r := r) (t := t) (x := x) (by simpa using e) hl
  rw [e1] at h
  have := csiTail_complete (r := r') h1 h2 h3
  rw [show ps ++ is ++ [f] ++ r' = ps ++ is ++ f :: r' by simp, this] at h
  cases h

theorem nfTail_none_append {t x : Bytes} (h : nfTail t = none) {is : Bytes} {f : Byte} {r : Bytes}
    (h' : nfTail (t ++ x) = some (is, f, r)) : t.length < (is ++ [f]).length := by
  obtain ⟨e, h1, h2, h3⟩ := nfTail_spec h'
  refine Nat.lt_of_not_le fun hl => ?_
  obtain ⟨r', e1, -⟩ := prefix_of_len (p := is ++ [f]) (r := r) (t := t) (x := x) (by simpa using e) hl
  rw [e1] at h
  have := nfTail_complete (r := r') h1 h2 h3
  rw [show is ++ [f] ++ r' = is ++ f :: r' by simp, this] at h
  cases h

theorem nfTail_first {s is : Bytes} {f : Byte} {r : Bytes} (h : nfTail s = some (is, f, r)) :
    ∃ c t, s = c :: t ∧ isInter c = true := by
  obtain ⟨rfl, h1, h2, h3⟩ := nfTail_spec h
  cases is with
  | nil => exact absurd rfl h1
  | cons c is => exact ⟨c, _, rfl, h2 c (by simp)⟩

theorem escPiece_mono {s x : Bytes} (hl : (escPiece (s ++ x)).2.1.length ≤ (0x1b :: s).length) :
    escPiece (s ++ x) = ((escPiece s).1, (escPiece s).2.1, (escPiece s).2.2 ++ x) := by
  simp only [List.length_cons] at hl
  rcases escPiece_cases (s ++ x) with ⟨t', ps, is, f, r, h1, h2, e⟩ | ⟨hno, is, f, r, h2, e⟩ |
    ⟨hno, hnf, c, t', h1, h2, e⟩ | ⟨hno, hnf, hc, e⟩
  · rw [e] at hl ⊢
    cases s with
    | nil => simp at hl
    | cons c t =>
      rw [List.cons_append] at h1
      obtain ⟨rfl, rfl⟩ := List.cons.inj h1
      rcases escPiece_cases (0x5b :: t) with ⟨t2, ps', is', f', r', h1', h2', e'⟩ | ⟨hno', -⟩ | ⟨hno', -⟩ | ⟨hno', -⟩
      · obtain ⟨-, rfl⟩ := List.cons.inj h1'
        rw [csiTail_mono h2'] at h2
        simp only [Option.some.injEq, Prod.mk.injEq] at h2
        obtain ⟨rfl, rfl, rfl, rfl⟩ := h2
        rw [e']
      all_goals
        have := csiTail_none_append (hno' t rfl) h2
        simp at hl this; omega
  · rw [e] at hl ⊢
    rcases escPiece_cases s with ⟨t2, ps', is', f', r', h1', h2', e'⟩ | ⟨hno', is', f', r', h2', e'⟩ | ⟨-, hnf, -⟩ | ⟨-, hnf, -⟩
    · obtain ⟨c, u, hc, hi⟩ := nfTail_first h2
      rw [h1'] at hc
      rw [← (List.cons.inj hc).1] at hi
      exact absurd hi (by decide)
    · rw [nfTail_mono h2'] at h2
      simp only [Option.some.injEq, Prod.mk.injEq] at h2
      obtain ⟨rfl, rfl, rfl⟩ := h2
      rw [e']
    all_goals
      have := nfTail_none_append hnf h2
      simp at hl this; omega
  · rw [e] at hl ⊢
    cases s with
    | nil => simp at hl
    | cons c' t =>
      rw [List.cons_append] at h1
      obtain ⟨rfl, rfl⟩ := List.cons.inj h1
      rcases escPiece_cases (c' :: t) with ⟨t2, ps', is', f', r', h1', h2', e'⟩ | ⟨hno', is', f', r', h2', e'⟩ |
        ⟨-, -, c2, t2, h1', -, e'⟩ | ⟨-, -, hc', -⟩
      · have h3 := csiTail_mono (b := x) h2'
        obtain ⟨rfl, rfl⟩ := List.cons.inj h1'
        rw [hno _ (List.cons_append ..)] at h3; cases h3
      · have h3 := nfTail_mono (b := x) h2'
        rw [hnf] at h3; cases h3
      · obtain ⟨rfl, rfl⟩ := List.cons.inj h1'
        rw [e']
      · rw [hc' _ _ rfl] at h2; cases h2
  · rw [e]
    rcases escPiece_cases s with ⟨t2, ps', is', f', r', h1', h2', e'⟩ | ⟨hno', is', f', r', h2', e'⟩ |
        ⟨-, -, c2, t2, h1', h2', e'⟩ | ⟨-, -, hc', e'⟩
    · have h3 := csiTail_mono (b := x) h2'
      subst h1'
      rw [hno _ (List.cons_append ..)] at h3; cases h3
    · have h3 := nfTail_mono (b := x) h2'
      rw [hnf] at h3; cases h3
    · subst h1'; rw [hc _ _ (List.cons_append ..)] at h2'; cases h2'
    · rw [e']

/-- A piece that ends before a cut is found without what follows the cut. -/
theorem piece_mono {b : Byte} {s x : Bytes} (hl : (piece b (s ++ x)).2.1.length ≤ (b :: s).length) :
    piece b (s ++ x) = ((piece b s).1, (piece b s).2.1, (piece b s).2.2 ++ x) := by
  unfold piece at hl ⊢
  by_cases hH : isHigh b = true
  · rw [if_pos hH] at hl ⊢
    rw [if_pos hH]
    by_cases hU : utf8Len (b :: (s ++ x)) = 0
    · rw [if_pos hU] at hl ⊢
      have hU' : utf8Len (b :: s) = 0 := by
        refine Decidable.byContradiction fun hn => ?_
        have := utf8Len_append (b := x) hn
        rw [List.cons_append, hU] at this
        exact hn this.symm
      rw [if_pos hU']
      exact run_mono hl
    · rw [if_neg hU] at hl ⊢
      have hU' : utf8Len (b :: s) = utf8Len (b :: (s ++ x)) := by
        obtain ⟨c, hc, e⟩ := enc_of_utf8Len _ hU
        have hll := utf8Len_le' (b :: (s ++ x))
        rw [List.length_take, Nat.min_eq_left hll] at hl
        have e2 : b :: s = enc c ++ (b :: s).drop (utf8Len (b :: (s ++ x))) := by
          rw [← List.cons_append] at e hl ⊢
          rw [← e, List.take_append_of_le_length hl, List.take_append_drop]
        rw [e2, utf8Len_enc c hc, ← e, List.length_take, Nat.min_eq_left hll]
      rw [hU', if_neg hU]
      have hll := utf8Len_le' (b :: s)
      rw [hU'] at hll
      rw [← List.cons_append] at hll ⊢
      rw [List.take_append_of_le_length hll, List.drop_append_of_le_length hll]
  rw [if_neg hH] at hl ⊢
  rw [if_neg hH]
  by_cases h1b : b = 0x1b
  · subst h1b; rw [if_pos rfl] at hl ⊢; rw [if_pos rfl]; exact escPiece_mono hl
  rw [if_neg h1b] at hl ⊢
  rw [if_neg h1b]
  by_cases h0 : b = 0
  · rw [if_pos h0] at hl ⊢; rw [if_pos h0]; exact run_mono hl
  rw [if_neg h0] at hl ⊢; rw [if_neg h0]
  by_cases h8 : b = 8
  · rw [if_pos h8] at hl ⊢; rw [if_pos h8]; exact run_mono hl
  rw [if_neg h8] at hl ⊢; rw [if_neg h8]
  by_cases h9 : b = 9
  · rw [if_pos h9] at hl ⊢; rw [if_pos h9]; exact run_mono hl
  rw [if_neg h9] at hl ⊢; rw [if_neg h9]
  by_cases ha : b = 0xa
  · rw [if_pos ha]; rw [if_pos ha]
  rw [if_neg ha] at hl ⊢; rw [if_neg ha]
  by_cases hb : b = 0xb
  · rw [if_pos hb] at hl ⊢; rw [if_pos hb]; exact run_mono hl
  rw [if_neg hb] at hl ⊢; rw [if_neg hb]
  by_cases hc : b = 0xc
  · rw [if_pos hc] at hl ⊢; rw [if_pos hc]; exact run_mono hl
  rw [if_neg hc] at hl ⊢; rw [if_neg hc]
  by_cases hd : b = 0xd
  · rw [if_pos hd] at hl ⊢; rw [if_pos hd]; exact run_mono hl
  rw [if_neg hd] at hl ⊢; rw [if_neg hd]
  by_cases h20 : b = 0x20
  · rw [if_pos h20] at hl ⊢; rw [if_pos h20]; exact run_mono hl
  rw [if_neg h20] at hl ⊢; rw [if_neg h20]
  by_cases h7f : b = 0x7f
  · rw [if_pos h7f] at hl ⊢; rw [if_pos h7f]; exact run_mono hl
  rw [if_neg h7f] at hl ⊢; rw [if_neg h7f]
  by_cases hctrl : isCtrl b = true
  · rw [if_pos hctrl] at hl ⊢; rw [if_pos hctrl]; exact run_mono hl
  rw [if_neg hctrl] at hl ⊢; rw [if_neg hctrl]
  exact run_mono hl

/-- If a piece boundary falls on the cut, both sides are divided on their own. -/
theorem pieces_cut {a b : Bytes} {A B : List (Kind × Bytes)} (h : pieces (a ++ b) = A ++ B)
    (ha : (A.map Prod.snd).flatten = a) : A = pieces a ∧ B = pieces b := by
  have hB : B = pieces b := by
    have h1 := pieces_suffix h
    have h2 := congrArg (fun l => (l.map Prod.snd).flatten) h
    simp only [pieces_flatten, List.map_append, List.flatten_append, ha] at h2
    rw [h1, ← List.append_cancel_left h2]
  refine ⟨?_, hB⟩
  subst hB
  induction A generalizing a with
  | nil => simp at ha; subst ha; rfl
  | cons q A ih =>
    cases a with
    | nil =>
      have := pieces_ne_nil (([] : Bytes) ++ b) q (by rw [h]; simp)
      simp at ha
      exact absurd ha.1 this
    | cons c a =>
      rw [List.cons_append, pieces_cons, List.cons_append] at h
      obtain ⟨hq, h'⟩ := List.cons.inj h
      subst hq
      simp only [List.map_cons, List.flatten_cons] at ha
      have hm := piece_mono (b := c) (s := a) (x := b) (by rw [← ha]; simp)
      rw [hm] at h' ha ⊢
      rw [pieces_cons]
      simp only at h' ha ⊢
      rw [← ih (List.append_cancel_left (ha.trans (piece_append c a).symm)) h']

/-- A boundary at the cut. -/
theorem pieces_append_of {a b : Bytes} (h : ∃ A B, pieces (a ++ b) = A ++ B ∧ (A.map Prod.snd).flatten = a) :
    pieces (a ++ b) = pieces a ++ pieces b := by
  obtain ⟨A, B, h1, h2⟩ := h
  obtain ⟨rfl, rfl⟩ := pieces_cut h1 h2
  exact h1

theorem piece_homogeneous (b : Byte) (s : Bytes) :
    ∀ x ∈ (piece b s).2.1, ∀ y ∈ (piece b s).2.1, isHigh x = isHigh y := by
  intro x hx y hy
  by_cases h1 : (piece b s).1 = .utf8
  · obtain ⟨-, c, hc, e⟩ := piece_utf8 b s h1
    rw [e] at hx hy
    rw [enc_high c hc x hx, enc_high c hc y hy]
  by_cases h2 : (piece b s).1 = .binary
  · obtain ⟨-, hb, e⟩ := piece_binary b s h2
    rw [e] at hx hy
    have : ∀ z ∈ (run .binary isHigh b s).2.1, isHigh z = true := by
      intro z hz
      rcases List.mem_cons.1 hz with rfl | hz
      · exact hb
      · exact takeWhile_all s z hz
    rw [this x hx, this y hy]
  · have h := piece_low b s h1 h2
    have hx := h x hx
    have hy := h y hy
    simp only [isLow, Bool.not_eq_true'] at hx hy
    rw [hx, hy]

/-- Between a 7-bit and an 8-bit byte there is always a boundary. -/
theorem pieces_mixed {a b : Bytes} (h : ∀ x ∈ a.getLast?, ∀ y ∈ b.head?, isHigh x ≠ isHigh y) :
    pieces (a ++ b) = pieces a ++ pieces b := by
  apply pieces_append_of
  generalize hs : a ++ b = s
  induction s using pieces_induction generalizing a with
  | h0 =>
    have := List.append_eq_nil_iff.1 hs
    exact ⟨[], [], rfl, by simp [this]⟩
  | h1 c s ih =>
    cases b with
    | nil => exact ⟨pieces (c :: s), [], by simp, by rw [pieces_flatten]; simpa using hs.symm⟩
    | cons y b =>
      by_cases ha : a = []
      · exact ⟨[], pieces (c :: s), rfl, by simp [ha]⟩
      have hp := piece_append c s
      rw [← hs] at hp
      by_cases hl : (piece c s).2.1.length ≤ a.length
      · obtain ⟨r', e1, e2⟩ := prefix_of_len hp.symm hl
        obtain ⟨A, B, h1, h2⟩ := ih (a := r') (by
          intro x hx
          refine h x ?_
          rw [e1, List.getLast?_append]
          rw [Option.mem_def] at hx ⊢
          rw [hx]; rfl) e2.symm
        refine ⟨((piece c s).1, (piece c s).2.1) :: A, B, ?_, ?_⟩
        · rw [pieces_cons, h1]; rfl
        · simp only [List.map_cons, List.flatten_cons, h2, ← e1]
      · exfalso
        obtain ⟨r', e1, e2⟩ := prefix_of_len hp (by omega)
        cases r' with
        | nil => rw [List.append_nil] at e1; rw [e1] at hl; omega
        | cons z r' =>
          rw [List.cons_append] at e2
          obtain ⟨rfl, -⟩ := List.cons.inj e2
          have hx := List.getLast?_eq_some_getLast ha
          have hm := List.getLast_mem ha
          have := piece_homogeneous c s (a.getLast ha) (by rw [e1]; simp [hm]) y (by rw [e1]; simp)
          exact h _ hx y rfl this

/-- Valid UTF-8 without ASCII in front. -/
theorem pieces_highText (l : List Char) (hl : ∀ c ∈ l, 0x80 ≤ c.toNat) (r : Bytes) :
    pieces (l.flatMap enc ++ r) = l.map (fun c => (.utf8, enc c)) ++ pieces r := by
  induction l with
  | nil => rfl
  | cons c l ih =>
    rw [List.flatMap_cons, List.append_assoc, pieces_enc c (hl c (by simp)), ih fun d hd => hl d (by simp [hd])]
    rfl

/-- A run of high bytes that is not valid UTF-8 swallows what follows. -/
theorem pieces_badHigh {h : Bytes} (hh : ∀ b ∈ h, isHigh b = true) (hv : ¬ ∃ l : List Char, h = l.flatMap enc)
    (c : Char) (hc : 0x80 ≤ c.toNat) (post : Bytes) :
    ∃ (l : List Char) (g : Bytes), h = l.flatMap enc ++ g ∧ g ≠ [] ∧ (∀ c ∈ l, 0x80 ≤ c.toNat) ∧
      pieces (h ++ enc c ++ post) = l.map (fun c => (.utf8, enc c)) ++
        (.binary, g ++ enc c ++ post.takeWhile isHigh) :: pieces (post.dropWhile isHigh) := by
  generalize hn : h.length = n
  induction n using Nat.strongRecOn generalizing h with
  | ind n ih =>
    cases h with
    | nil => exact absurd ⟨[], rfl⟩ hv
    | cons b h =>
      by_cases hu : utf8Len (b :: h) = 0
      · refine ⟨[], b :: h, rfl, by simp, by simp, ?_⟩
        have hb := hh b (by simp)
        have hall : ∀ x ∈ h ++ enc c, isHigh x = true := by
          intro x hx
          rcases List.mem_append.1 hx with hx | hx
          · exact hh x (by simp [hx])
          · exact enc_high c hc x hx
        have hu' : utf8Len (b :: (h ++ enc c ++ post)) = 0 := by
          refine Decidable.byContradiction fun hne => ?_
          -- the sequence would end inside the character
          obtain ⟨d, hd, e⟩ := enc_of_utf8Len _ hne
          have hle := utf8Len_le' (b :: (h ++ enc c ++ post))
          by_cases hl : utf8Len (b :: (h ++ enc c ++ post)) ≤ (b :: h).length
          · have e2 : b :: h = enc d ++ (b :: h).drop (utf8Len (b :: (h ++ enc c ++ post))) := by
              rw [← e, List.append_assoc, ← List.cons_append] at *
              rw [List.take_append_of_le_length hl, List.take_append_drop]
            have := utf8Len_enc d hd ((b :: h).drop (utf8Len (b :: (h ++ enc c ++ post))))
            rw [← e2, hu] at this
            exact enc_ne_nil d (List.length_eq_zero_iff.1 this.symm)
          · -- then the first byte of the character is a continuation byte of `d`
            obtain ⟨bc, tc, ec, hbc, -⟩ := enc_shape c hc
            obtain ⟨bd, td, ed, -, htd⟩ := enc_shape d hd
            have hm : bc ∈ td := by
              generalize utf8Len (b :: (h ++ enc c ++ post)) = N at e hl
              obtain ⟨m, hm⟩ : ∃ m, N - (b :: h).length = m + 1 := ⟨N - (b :: h).length - 1, by omega⟩
              rw [List.append_assoc, ← List.cons_append, List.take_append, List.take_of_length_le (by omega), ec,
                List.cons_append, List.cons_append, hm, List.take_succ_cons, ed] at e
              rw [← (List.cons.inj e).2]; simp
            have := htd _ hm
            omega
        have ht : (h ++ enc c ++ post).takeWhile isHigh = h ++ enc c ++ post.takeWhile isHigh ∧
            (h ++ enc c ++ post).dropWhile isHigh = post.dropWhile isHigh := by
          generalize h ++ enc c = a at hall
          clear hu' hu ih hn hv hh
          induction a with
          | nil => exact ⟨rfl, rfl⟩
          | cons z a ih =>
            have := ih fun x hx => hall x (by simp [hx])
            simp [hall z (by simp), this]
        rw [List.cons_append, List.cons_append, pieces_cons]
        have : piece b (h ++ enc c ++ post) = run .binary isHigh b (h ++ enc c ++ post) := by
          unfold piece; rw [if_pos hb, if_pos hu']
        rw [this, run, ht.1, ht.2]
        simp
      · obtain ⟨d, hd, e⟩ := enc_of_utf8Len _ hu
        have e2 : b :: h = enc d ++ (b :: h).drop (utf8Len (b :: h)) := by rw [← e, List.take_append_drop]
        generalize (b :: h).drop (utf8Len (b :: h)) = g at e2
        have hpos := List.length_pos_iff.2 (enc_ne_nil d)
        have hlen := congrArg List.length e2
        rw [List.length_append] at hlen
        obtain ⟨l, g', e3, hg', hl, hp⟩ := ih g.length (by omega) (h := g)
          (fun x hx => hh x (by rw [e2]; simp [hx]))
          (by rintro ⟨l, rfl⟩; exact hv ⟨d :: l, by rw [e2, List.flatMap_cons]⟩) rfl
        refine ⟨d :: l, g', by rw [e2, e3, List.flatMap_cons, List.append_assoc], hg', ?_, ?_⟩
        · intro x hx
          rcases List.mem_cons.1 hx with rfl | hx
          · exact hd
          · exact hl x hx
        · rw [e2, List.append_assoc, List.append_assoc, pieces_enc d hd, ← List.append_assoc, hp]
          rfl

end Kolombos
