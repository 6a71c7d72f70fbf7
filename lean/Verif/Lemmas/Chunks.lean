import Verif.Spec.Chunks
import Verif.Lemmas.Ink
import Verif.Lemmas.Controls
/-
The display of an input does not depend on safe cuts.
-/
set_option linter.unusedSimpArgs false

namespace Kolombos
open Spec

/-- Pieces before the cut of `a` are the same without what follows. -/
theorem pieces_prefix {a x : Bytes} {A C : List (Kind × Bytes)} {u : Bytes} (h : pieces (a ++ x) = A ++ C)
    (ha : (A.map Prod.snd).flatten ++ u = a) : pieces a = A ++ pieces u := by
  induction A generalizing a with
  | nil => simp at ha; subst ha; rfl
  | cons q A ih =>
    cases a with
    | nil =>
      have := pieces_ne_nil (([] : Bytes) ++ x) q (by rw [h]; simp)
      simp at ha
      exact absurd ha.1 this
    | cons c a =>
      rw [List.cons_append, pieces_cons, List.cons_append] at h
      obtain ⟨hq, h'⟩ := List.cons.inj h
      subst hq
      simp only [List.map_cons, List.flatten_cons, List.append_assoc] at ha
      have hm := piece_mono (b := c) (s := a) (x := x) (by rw [← ha]; simp)
      rw [hm] at h' ha ⊢
      rw [pieces_cons]
      simp only at h' ha ⊢
      rw [ih (a := (piece c a).2.2) h' (List.append_cancel_left (ha.trans (piece_append c a).symm))]
      rfl

theorem divisible_class {k : Kind} (h : Divisible k = true) : ∃ p, runClass k = some p := by
  cases k <;> first | (cases h; done) | exact ⟨_, rfl⟩

/-- A byte of the class of a run other than of 8-bit bytes begins such a run. -/
theorem piece_divisible {k : Kind} {p : Byte → Bool} (hk : Divisible k = true) (hp : runClass k = some p) {b : Byte} (hb : p b = true) (s : Bytes) :
    piece b s = run k p b s := by
  have hlow : ¬ isHigh b = true := by
    cases k <;> first | (cases hk; done) | skip
    all_goals
      cases hp
      simp only [beq_iff_eq, isCtrl, isPrintable, isHigh, between, Bool.or_eq_true, decide_eq_true_eq] at hb ⊢
      first
        | omega
        | (subst hb; decide)
  unfold piece
  rw [if_neg hlow]
  cases k <;> first | (cases hk; done) | skip
  case ctrl =>
    cases hp
    have h := hb
    simp only [isCtrl, between, Bool.or_eq_true, decide_eq_true_eq] at h
    have t : ∀ n : Nat, n < 256 → b = UInt8.ofNat n → b.toNat = n := fun n h h' => (byte_eq_iff b n h).1 h'
    rw [if_neg fun e => by have := t 0x1b (by decide) e; omega, if_neg fun e => by have := t 0x00 (by decide) e; omega, if_neg fun e => by have := t 0x08 (by decide) e; omega,
      if_neg fun e => by have := t 0x09 (by decide) e; omega, if_neg fun e => by have := t 0x0a (by decide) e; omega, if_neg fun e => by have := t 0x0b (by decide) e; omega,
      if_neg fun e => by have := t 0x0c (by decide) e; omega, if_neg fun e => by have := t 0x0d (by decide) e; omega, if_neg fun e => by have := t 0x20 (by decide) e; omega,
      if_neg fun e => by have := t 0x7f (by decide) e; omega, if_pos hb]
  case printable =>
    cases hp
    have h := hb
    simp only [isPrintable, between, decide_eq_true_eq] at h
    have t : ∀ n : Nat, n < 256 → b = UInt8.ofNat n → b.toNat = n := fun n h h' => (byte_eq_iff b n h).1 h'
    rw [if_neg fun e => by have := t 0x1b (by decide) e; omega, if_neg fun e => by have := t 0x00 (by decide) e; omega, if_neg fun e => by have := t 0x08 (by decide) e; omega,
      if_neg fun e => by have := t 0x09 (by decide) e; omega, if_neg fun e => by have := t 0x0a (by decide) e; omega, if_neg fun e => by have := t 0x0b (by decide) e; omega,
      if_neg fun e => by have := t 0x0c (by decide) e; omega, if_neg fun e => by have := t 0x0d (by decide) e; omega, if_neg fun e => by have := t 0x20 (by decide) e; omega,
      if_neg fun e => by have := t 0x7f (by decide) e; omega, if_neg]
    simp only [isCtrl, between, Bool.or_eq_true, decide_eq_true_eq]
    omega
  all_goals
    cases hp
    simp only [beq_iff_eq] at hb
    subst hb
    rfl

theorem takeWhile_full {p : Byte → Bool} {u : Bytes} (h : ∀ b ∈ u, p b = true) (r : Bytes) :
    (u ++ r).takeWhile p = u ++ r.takeWhile p ∧ (u ++ r).dropWhile p = r.dropWhile p := by
  induction u with
  | nil => exact ⟨rfl, rfl⟩
  | cons b u ih =>
    have := ih fun b hb => h b (by simp [hb])
    simp [List.takeWhile_cons, List.dropWhile_cons, h b (by simp), this.1, this.2]

/-- A cut within a run. -/
theorem pieces_divided {u b : Bytes} {k : Kind} {v : Bytes} {B : List (Kind × Bytes)} (hk : Divisible k = true) (hu : u ≠ []) (hv : v ≠ [])
    (h : pieces (u ++ b) = (k, u ++ v) :: B) : pieces u = [(k, u)] ∧ pieces b = (k, v) :: B := by
  obtain ⟨p, hp⟩ := divisible_class hk
  have hall : ∀ x ∈ u ++ v, p x = true := (pieces_wf (q := (k, u ++ v)) (raw := u ++ b) (by rw [h]; simp)).run_all hp
  have hpu : ∀ x ∈ u, p x = true := fun x hx => hall x (by simp [hx])
  have hpv : ∀ x ∈ v, p x = true := fun x hx => hall x (by simp [hx])
  cases u with
  | nil => exact absurd rfl hu
  | cons c u =>
    have hc := hpu c (by simp)
    have hpu' : ∀ x ∈ u, p x = true := fun x hx => hpu x (by simp [hx])
    rw [List.cons_append, pieces_cons, piece_divisible hk hp hc] at h
    obtain ⟨h1, h2⟩ := List.cons.inj h
    simp only [run, Prod.mk.injEq, true_and] at h1 h2
    have htw := takeWhile_full hpu' b
    rw [htw.1] at h1
    rw [htw.2] at h2
    have e : b.takeWhile p = v := by simpa using h1
    have eb : b = v ++ b.dropWhile p := by rw [← e]; simp
    constructor
    · rw [pieces_cons, piece_divisible hk hp hc]
      have h0 := takeWhile_full hpu' []
      simp only [List.append_nil, List.takeWhile_nil, List.dropWhile_nil] at h0
      simp only [run, h0.1, h0.2, pieces_nil]
    · cases v with
      | nil => exact absurd rfl hv
      | cons d v =>
        rw [eb, List.cons_append, pieces_cons, piece_divisible hk hp (hpv d (by simp))]
        have hpv' : ∀ x ∈ v, p x = true := fun x hx => hpv x (by simp [hx])
        have h0 := takeWhile_full hpv' (b.dropWhile p)
        have h3 : (b.dropWhile p).takeWhile p = [] := by
          cases hd : b.dropWhile p with
          | nil => rfl
          | cons y r =>
            have := List.head_dropWhile_not p (l := b) (by rw [hd]; simp)
            simp only [hd, List.head_cons] at this
            simp [this]
        have h4 : (b.dropWhile p).dropWhile p = b.dropWhile p := by
          have := List.takeWhile_append_dropWhile (p := p) (l := b.dropWhile p)
          rw [h3, List.nil_append] at this
          exact this
        simp only [run, h0.1, h0.2, h3, h4, List.append_nil]
        rw [h2]

/-- Pieces that differ in the division of runs only. -/
inductive Redivided : List (Kind × Bytes) → List (Kind × Bytes) → Prop
  | refl (qs) : Redivided qs qs
  | cut (A B k u v) : Divisible k = true → u ≠ [] → v ≠ [] → Redivided (A ++ (k, u ++ v) :: B) (A ++ (k, u) :: (k, v) :: B)
  | trans {a b c} : Redivided a b → Redivided b c → Redivided a c

theorem Redivided.append_left {a b : List (Kind × Bytes)} (C : List (Kind × Bytes)) (h : Redivided a b) : Redivided (C ++ a) (C ++ b) := by
  induction h with
  | refl => exact .refl _
  | cut A B k u v h1 h2 h3 =>
    have := Redivided.cut (C ++ A) B k u v h1 h2 h3
    simpa using this
  | trans _ _ h1 h2 => exact h1.trans h2

theorem safe_cut {a b : Bytes} (h : SafeCut a b) : Redivided (pieces (a ++ b)) (pieces a ++ pieces b) := by
  obtain ⟨A, B, ⟨h1, h2⟩ | ⟨k, u, v, hk, hu, hv, h1, h2⟩⟩ := h
  · obtain ⟨rfl, rfl⟩ := pieces_cut h1 h2
    rw [h1]; exact .refl _
  · have e1 := pieces_prefix h1 h2
    have e2 : pieces (u ++ b) = (k, u ++ v) :: B := by
      have := (pieces_cut (a := (A.map Prod.snd).flatten) (b := u ++ b) (A := A) (B := (k, u ++ v) :: B) (by rw [← h1, ← h2]; simp) rfl).2
      exact this.symm
    obtain ⟨e3, e4⟩ := pieces_divided hk hu hv e2
    rw [h1, e1, e3, e4]
    have := Redivided.cut A B k u v hk hu hv
    simpa using this

/-- The pieces of safe chunks. -/
theorem safe_chunks {cs : List Bytes} (h : SafeChunks cs) : Redivided (pieces cs.flatten) (chunkPieces cs) := by
  induction cs with
  | nil => exact .refl _
  | cons c cs ih =>
    have := ih h.2
    exact (safe_cut h.1).trans (this.append_left _)

/-! ### Display -/

theorem inStyle_flatMap (st : Style) (p : Bytes) (f : Byte → Str) : inStyle st (p.flatMap f) = p.flatMap fun b => inStyle st (f b) := by
  unfold inStyle; rw [List.map_flatMap]

/-- Each character of a run is displayed on its own, in text mode... -/
theorem textInk_divided (s : Settings) {k : Kind} (hk : Divisible k = true) (u v : Bytes) :
    textInk s (k, u ++ v) = textInk s (k, u) ++ textInk s (k, v) := by
  unfold textInk
  simp only
  have hn : k ≠ .newline := by rintro rfl; cases hk
  split
  · simp [hn, inStyle]
  · cases k <;> first | (cases hk; done) | (simp [*, textGlyphs, inStyle, asciiChars])

/-- ... and in binary mode. -/
theorem binInk_divided (s : Settings) {k : Kind} (hk : Divisible k = true) (u v : Bytes) :
    binInk s (k, u ++ v) = binInk s (k, u) ++ binInk s (k, v) := by
  unfold binInk
  simp only
  split
  · simp [inStyle]
  · cases k <;> first | (cases hk; done) | (simp [*, binGlyphs, inStyle, asciiChars])

theorem Redivided.binInk_eq {a b : List (Kind × Bytes)} (h : Redivided a b) (s : Settings) : a.flatMap (binInk s) = b.flatMap (binInk s) := by
  induction h with
  | refl => rfl
  | cut A B k u v hk hu hv => simp [binInk_divided s hk]
  | trans _ _ h1 h2 => exact h1.trans h2

theorem bad_divisible {k : Kind} (hk : Divisible k = true) (p : Bytes) : badPiece (k, p) = false := by
  cases k <;> first | (cases hk; done) | rfl

theorem Redivided.bad_eq {a b : List (Kind × Bytes)} (h : Redivided a b) : a.any badPiece = b.any badPiece := by
  induction h with
  | refl => rfl
  | cut A B k u v hk hu hv => simp [bad_divisible hk]
  | trans _ _ h1 h2 => exact h1.trans h2

/-- Two parts of a line that look the same. -/
def SameLine (disp : Kind × Bytes → List (Char × Style)) (s : Settings) (l l' : List (Kind × Bytes)) : Prop :=
  l.flatMap disp = l'.flatMap disp ∧ (l = [] ↔ l' = []) ∧ lostAt s l = lostAt s l'

theorem SameLine.cons {disp : Kind × Bytes → List (Char × Style)} {s : Settings} {l l' : List (Kind × Bytes)} (h : SameLine disp s l l') (q : Kind × Bytes) :
    SameLine disp s (q :: l) (q :: l') := by
  obtain ⟨h1, h2, h3⟩ := h
  refine ⟨by simp [h1], by simp, ?_⟩
  cases l with
  | nil => rw [h2.1 rfl]
  | cons x l =>
    cases l' with
    | nil => exact absurd (h2.2 rfl) (by simp)
    | cons y l' =>
      unfold lostAt at h3 ⊢
      rw [List.getLast?_cons_cons, List.getLast?_cons_cons]
      exact h3

/-- Lines that look the same. -/
def SameLines (disp : Kind × Bytes → List (Char × Style)) (s : Settings) (x y : List (List (Kind × Bytes)) × List (Kind × Bytes)) : Prop :=
  List.Forall₂ (SameLine disp s) x.1 y.1 ∧ SameLine disp s x.2 y.2

theorem SameLine.refl (disp : Kind × Bytes → List (Char × Style)) (s : Settings) (l : List (Kind × Bytes)) : SameLine disp s l l :=
  ⟨rfl, Iff.rfl, rfl⟩

theorem SameLines.refl (disp : Kind × Bytes → List (Char × Style)) (s : Settings) (x : List (List (Kind × Bytes)) × List (Kind × Bytes)) : SameLines disp s x x := by
  refine ⟨?_, SameLine.refl ..⟩
  induction x.1 with
  | nil => exact .nil
  | cons l L ih => exact .cons (SameLine.refl ..) ih

theorem sameLines_cons {disp : Kind × Bytes → List (Char × Style)} {s : Settings} {a b : List (Kind × Bytes)}
    (h : SameLines disp s (pieceLines a) (pieceLines b)) (q : Kind × Bytes) : SameLines disp s (pieceLines (q :: a)) (pieceLines (q :: b)) := by
  rw [pieceLines, pieceLines]
  obtain ⟨h1, h2⟩ := h
  generalize pieceLines a = x at h1 h2
  generalize pieceLines b = y at h1 h2
  split
  · exact ⟨.cons (SameLine.refl ..) h1, h2⟩
  · obtain ⟨L, r⟩ := x
    obtain ⟨L', r'⟩ := y
    simp only at h1 h2 ⊢
    cases h1 with
    | nil => exact ⟨.nil, h2.cons q⟩
    | cons hl hL => exact ⟨.cons (hl.cons q) hL, h2⟩

theorem sameLines_cut (s : Settings) {k : Kind} (hk : Divisible k = true) (u v : Bytes) (B : List (Kind × Bytes)) :
    SameLines (textInk s) s (pieceLines ((k, u ++ v) :: B)) (pieceLines ((k, u) :: (k, v) :: B)) := by
  have hn : k ≠ .newline := by rintro rfl; cases hk
  have hsame : ∀ l, SameLine (textInk s) s ((k, u ++ v) :: l) ((k, u) :: (k, v) :: l) := by
    intro l
    refine ⟨by simp [textInk_divided s hk], by simp, ?_⟩
    unfold lostAt
    rw [List.getLast?_cons_cons]
    cases l with
    | nil => rfl
    | cons x l => rw [List.getLast?_cons_cons, List.getLast?_cons_cons]
  rw [pieceLines, pieceLines, pieceLines]
  simp only [if_neg hn]
  generalize pieceLines B = x
  obtain ⟨L, r⟩ := x
  cases L with
  | nil => exact ⟨.nil, hsame r⟩
  | cons l L =>
    refine ⟨.cons (hsame l) ?_, SameLine.refl ..⟩
    induction L with
    | nil => exact .nil
    | cons l L ih => exact .cons (SameLine.refl ..) ih

theorem SameLines.ink_eq {s : Settings} {a b : List (Kind × Bytes)} (h : SameLines (textInk s) s (pieceLines a) (pieceLines b)) :
    inkLines (labelInk s) (textInk s) (lostAt s) a = inkLines (labelInk s) (textInk s) (lostAt s) b := by
  obtain ⟨h1, h2, h3, h4⟩ := h
  unfold inkLines
  have e1 : (pieceLines a).1.map (fun l => l.flatMap (textInk s)) = (pieceLines b).1.map (fun l => l.flatMap (textInk s)) := by
    generalize (pieceLines a).1 = L at h1
    generalize (pieceLines b).1 = L' at h1
    induction h1 with
    | nil => rfl
    | cons hl _ ih => simp only [List.map_cons, ih, hl.1]
  simp only [e1, h2, h4]
  congr 2
  by_cases hr : (pieceLines a).2 = []
  · rw [if_pos hr, if_pos (h3.1 hr)]
  · rw [if_neg hr, if_neg fun e => hr (h3.2 e)]

theorem Redivided.ink_eq {a b : List (Kind × Bytes)} (h : Redivided a b) (s : Settings) :
    inkLines (labelInk s) (textInk s) (lostAt s) a = inkLines (labelInk s) (textInk s) (lostAt s) b := by
  induction h with
  | refl => rfl
  | cut A B k u v hk hu hv =>
    apply SameLines.ink_eq
    induction A with
    | nil => exact sameLines_cut s hk u v B
    | cons q A ih => exact sameLines_cons ih q
  | trans _ _ h1 h2 => exact h1.trans h2

/-! ### Safe cuts -/

/-- A position in a list of pieces is between two of them or inside one. -/
theorem position {qs : List (Kind × Bytes)} {a b : Bytes} (h : (qs.map Prod.snd).flatten = a ++ b) :
    ∃ A B, (qs = A ++ B ∧ (A.map Prod.snd).flatten = a) ∨
      ∃ k u v, u ≠ [] ∧ v ≠ [] ∧ qs = A ++ (k, u ++ v) :: B ∧ (A.map Prod.snd).flatten ++ u = a := by
  induction qs generalizing a with
  | nil =>
    simp at h
    exact ⟨[], [], .inl ⟨rfl, by simp [h.1]⟩⟩
  | cons q qs ih =>
    simp only [List.map_cons, List.flatten_cons] at h
    by_cases ha : a = []
    · exact ⟨[], q :: qs, .inl ⟨rfl, by simp [ha]⟩⟩
    rcases List.append_eq_append_iff.1 h with ⟨a', h1, h2⟩ | ⟨c', h1, h2⟩
    · obtain ⟨A, B, h⟩ := ih h2
      refine ⟨q :: A, B, ?_⟩
      rcases h with ⟨e1, e2⟩ | ⟨k, u, v, hu, hv, e1, e2⟩
      · exact .inl ⟨by simp [e1], by simp [e2, h1]⟩
      · exact .inr ⟨k, u, v, hu, hv, by simp [e1], by simp [e2, h1]⟩
    · by_cases hc : c' = []
      · refine ⟨[q], qs, .inl ⟨rfl, ?_⟩⟩
        simp [h1, hc]
      · exact ⟨[], qs, .inr ⟨q.1, a, c', ha, hc, by rw [← h1]; rfl, by simp⟩⟩

/-- After a line feed it is safe to cut. -/
theorem safe_lf {a : Bytes} (h : a.getLast? = some 0x0a) (b : Bytes) : SafeCut a b := by
  obtain ⟨A, B, h1 | ⟨k, u, v, hu, hv, e1, e2⟩⟩ := position (pieces_flatten (a ++ b))
  · exact ⟨A, B, .inl h1⟩
  · exfalso
    have hw := pieces_wf (q := (k, u ++ v)) (raw := a ++ b) (by rw [e1]; simp)
    have hm : (0x0a : Byte) ∈ u := by
      rw [← e2, List.getLast?_append_of_ne_nil _ hu] at h
      exact List.mem_of_getLast? h
    have hk : k = .newline := hw.lf (by simp [hm])
    subst hk
    have := congrArg List.length hw.newline_eq
    simp only [List.length_append, List.length_singleton] at this
    have := List.length_pos_iff.2 hu
    have := List.length_pos_iff.2 hv
    omega

/-- Without escape characters and 8-bit bytes it is safe to cut anywhere. -/
theorem safe_ascii {a b : Bytes} (h : ∀ x ∈ a ++ b, x ≠ 0x1b ∧ x.toNat < 0x80) : SafeCut a b := by
  obtain ⟨A, B, h1 | ⟨k, u, v, hu, hv, e1, e2⟩⟩ := position (pieces_flatten (a ++ b))
  · exact ⟨A, B, .inl h1⟩
  · refine ⟨A, B, .inr ⟨k, u, v, ?_, hu, hv, e1, e2⟩⟩
    have hin : (k, u ++ v) ∈ pieces (a ++ b) := by rw [e1]; simp
    have hw := pieces_wf hin
    have hb : ∀ x ∈ u ++ v, x ≠ 0x1b ∧ x.toNat < 0x80 := fun x hx => h x ((pieces_infix hin).mem hx)
    simp only at hw
    have hlu := List.length_pos_iff.2 hu
    have hlv := List.length_pos_iff.2 hv
    generalize hp : u ++ v = p at hw hb
    have hlen : 2 ≤ p.length := by rw [← hp, List.length_append]; omega
    cases hw with
    | utf8 c hc =>
      exfalso
      have hne := enc_ne_nil c
      cases hE : enc c with
      | nil => exact hne hE
      | cons x r =>
        have h1 := enc_high c hc x (by rw [hE]; simp)
        have h2 := (hb x (by rw [hE]; simp)).2
        simp [isHigh, between] at h1
        omega
    | esc => simp at hlen
    | newline => simp at hlen
    | run hr hne hall =>
      cases k <;> first | rfl | (cases hr; done) | skip
      exfalso
      cases hr
      cases p with
      | nil => exact hne rfl
      | cons x r =>
        have h1 := hall x (by simp)
        have h2 := (hb x (by simp)).2
        simp [isHigh, between] at h1
        omega
    | csi _ _ _ _ => exact absurd rfl (hb 0x1b (by simp)).1
    | seq _ _ _ _ => exact absurd rfl (hb 0x1b (by simp)).1

end Kolombos
