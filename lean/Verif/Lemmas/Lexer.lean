import Verif.Lemmas.LexUtf8
/-
The regular expression finds the pieces of the specification.
-/
set_option linter.unusedSimpArgs false

namespace Kolombos
open Spec

/-- The preferred match of a pattern. -/
def hd (r : Re Byte) (s : Bytes) : Option (Bytes × Caps Byte) := (r.run s []).head?

theorem hd_alt (r q : Re Byte) (s : Bytes) : hd (.alt r q) s = (hd r s).or (hd q s) := by
  simp [hd, Re.run, List.head?_append]

theorem hd_cls_none (n : Nat) (p : Byte → Bool) (r : Re Byte) (b : Byte) (s : Bytes) (h : p b = false) :
    hd (.grp n (.seq (.cls p) r)) (b :: s) = none := by
  simp [hd, Re.run, h]

theorem take_sub_append {α : Type} (p r : List α) : (p ++ r).take ((p ++ r).length - r.length) = p := by
  simp

theorem hd_plus (n : Nat) (p : Byte → Bool) (b : Byte) (s : Bytes) (h : p b = true) :
    hd (.grp n (.plus (.cls p))) (b :: s) =
      some (s.dropWhile p, [(n, b :: s.takeWhile p)]) := by
  have e : b :: s = (b :: s.takeWhile p) ++ s.dropWhile p := by simp
  have h1 : (Re.plus (.cls p)).run (b :: s) [] = (Re.star (.cls p)).run s [] := by
    simp [Re.plus, Re.run, h]
  rw [hd, Re.run, h1, star_cls_run_cons]
  simp only [List.map_cons, List.head?_cons, Option.some.injEq, Prod.mk.injEq, List.cons.injEq, and_true, true_and]
  conv => lhs; rw [e]
  exact take_sub_append _ _

theorem hd_plus_none (n : Nat) (p : Byte → Bool) (b : Byte) (s : Bytes) (h : p b = false) :
    hd (.grp n (.plus (.cls p))) (b :: s) = none := by
  simp [hd, Re.plus, Re.run, h]

theorem hd_one (n : Nat) (p : Byte → Bool) (b : Byte) (s : Bytes) :
    hd (.grp n (.cls p)) (b :: s) = if p b then some (s, [(n, [b])]) else none := by
  simp only [hd, Re.run]
  split
  · simp
  · simp

theorem hd_two (n m k : Nat) (p q : Byte → Bool) (b : Byte) (s : Bytes) :
    hd (.grp n (.seq (.grp m (.cls p)) (.grp k (.cls q)))) (b :: s) =
      if p b then
        s.head?.bind fun c => if q c then some (s.tail, [(n, [b, c]), (k, [c]), (m, [b])]) else none
      else none := by
  cases s with
  | nil => simp only [hd, Re.run]; split <;> simp [Re.run]
  | cons c t =>
    simp only [hd, Re.run]
    by_cases h1 : p b = true <;> by_cases h2 : q c = true <;> simp [h1, h2, Re.run]
    rw [show t.length + 1 + 1 - t.length = 2 by omega]; rfl

theorem isParam_not {a : Byte} (h : isParam a = true) : isInter a = false ∧ isFinal a = false := by
  simp [isParam, isInter, isFinal, between] at *; omega

theorem isInter_not {a : Byte} (h : isInter a = true) : isFinal a = false ∧ isFinalNF a = false := by
  simp [isFinalNF, isInter, isFinal, between] at *; omega

theorem grp_cls_run (n : Nat) (p : Byte → Bool) (s : Bytes) (c : Caps Byte) :
    (Re.grp n (.cls p)).run s c = match s with
      | a :: t => if p a then [(t, (n, [a]) :: c)] else []
      | [] => [] := by
  cases s with
  | nil => simp [Re.run]
  | cons a t => simp only [Re.run]; split <;> simp

theorem csi_run (t : Bytes) (c : Caps Byte) :
    (seqL [.grp 6 (.star (cr 0x30 0x3f)), .grp 7 (.star (cr 0x20 0x2f)), .grp 8 (cr 0x40 0x7e)] :
      Re Byte).run t c =
    match csiTail t with
    | some (ps, is, f, r) => [(r, (8, [f]) :: (7, is) :: (6, ps) :: c)]
    | none => [] := by
  have e1 : cr 0x30 0x3f = .cls isParam := by simp only [cr, inRng_eq_between]; rfl
  have e2 : cr 0x20 0x2f = .cls isInter := by simp only [cr, inRng_eq_between]; rfl
  have e3 : cr 0x40 0x7e = .cls isFinal := by simp only [cr, inRng_eq_between]; rfl
  simp only [seqL, e1, e2, e3]
  have k2 : ∀ s c, ((Re.grp 7 (.star (.cls isInter))).seq (Re.grp 8 (.cls isFinal))).run s c =
      (Re.grp 8 (.cls isFinal)).run (s.dropWhile isInter) ((7, s.takeWhile isInter) :: c) := by
    intro s c
    rw [Re.run, grp_star_cls_flatMap 7 isInter s c (fun r => (Re.grp 8 (.cls isFinal)).run r.1 r.2)]
    intro a t c h
    simp [grp_cls_run, isInter_not h]
  rw [Re.run, grp_star_cls_flatMap 6 isParam t c
    (fun r => ((Re.grp 7 (.star (.cls isInter))).seq (Re.grp 8 (.cls isFinal))).run r.1 r.2)]
  · simp only [k2, grp_cls_run, csiTail]
    cases (t.dropWhile isParam).dropWhile isInter with
    | nil => rfl
    | cons f r => by_cases h : isFinal f = true <;> simp [h]
  · intro a t c h
    simp [k2, grp_cls_run, isParam_not h]

theorem nf_run (t : Bytes) (c : Caps Byte) :
    (seqL [.grp 12 (.star (cr 0x20 0x2f)), .grp 13 (cr 0x30 0x7e)] : Re Byte).run t c =
    match t.dropWhile isInter with
    | f :: r => if isFinalNF f then [(r, (13, [f]) :: (12, t.takeWhile isInter) :: c)] else []
    | [] => [] := by
  have e2 : cr 0x20 0x2f = .cls isInter := by simp only [cr, inRng_eq_between]; rfl
  have e3 : cr 0x30 0x7e = .cls isFinalNF := by simp only [cr, inRng_eq_between]; rfl
  simp only [seqL, e2, e3]
  rw [Re.run, grp_star_cls_flatMap 12 isInter t c (fun r => (Re.grp 13 (.cls isFinalNF)).run r.1 r.2)]
  · simp only [grp_cls_run]
    cases t.dropWhile isInter <;> rfl
  · intro a t c h
    simp [grp_cls_run, isInter_not h]

theorem csiTail_append {t ps is r : Bytes} {f : Byte} (h : csiTail t = some (ps, is, f, r)) :
    t = ps ++ is ++ [f] ++ r ∧ ps = t.takeWhile isParam ∧ (∀ b ∈ ps, isParam b) ∧ (∀ b ∈ is, isInter b) ∧ isFinal f := by
  simp only [csiTail] at h
  split at h
  · rename_i f' r' e
    split at h
    · rename_i hf
      simp only [Option.some.injEq, Prod.mk.injEq] at h
      obtain ⟨rfl, rfl, rfl, rfl⟩ := h
      refine ⟨?_, rfl, ?_, ?_, hf⟩
      · have h1 := List.takeWhile_append_dropWhile (p := isParam) (l := t)
        have h2 := List.takeWhile_append_dropWhile (p := isInter) (l := t.dropWhile isParam)
        rw [e] at h2
        rw [← h2] at h1
        simp [h1]
      · intro b hb; exact (List.all_takeWhile (p := isParam) |> List.all_eq_true.1) b hb
      · intro b hb; exact (List.all_takeWhile (p := isInter) |> List.all_eq_true.1) b hb
    · cases h
  · cases h

theorem lit_eq (n : Nat) : lit n = .cls (between n n) := by
  simp only [lit, beq_eq_between]

theorem cr_eq (lo hi : Nat) : cr lo hi = .cls (between lo hi) := by
  simp only [cr, inRng_eq_between]

/-- The CSI alternative. -/
theorem hd_csi (b : Byte) (s : Bytes) :
    hd (.grp 3 (seqL [.grp 4 (lit 0x1b), .grp 5 (lit 0x5b), .grp 6 (.star (cr 0x30 0x3f)),
                .grp 7 (.star (cr 0x20 0x2f)), .grp 8 (cr 0x40 0x7e)])) (b :: s) =
    if b = 0x1b then
      match s with
      | [] => none
      | c :: t =>
        match (if c = 0x5b then csiTail t else none) with
        | some (ps, is, f, r) =>
          some (r, [(3, 0x1b :: 0x5b :: (ps ++ is ++ [f])), (8, [f]), (7, is), (6, ps), (5, [0x5b]), (4, [0x1b])])
        | none => none
    else none := by
  have e1b : b = 0x1b ↔ _ := eq_iff_between b 0x1b (by decide)
  have h2 : ∀ t c, (seqL [.grp 6 (.star (cr 0x30 0x3f)),
                .grp 7 (.star (cr 0x20 0x2f)), .grp 8 (cr 0x40 0x7e)] : Re Byte).run t c = _ := csi_run
  simp only [hd]
  rw [Re.run]
  rw [show (seqL [.grp 4 (lit 0x1b), .grp 5 (lit 0x5b), .grp 6 (.star (cr 0x30 0x3f)),
                .grp 7 (.star (cr 0x20 0x2f)), .grp 8 (cr 0x40 0x7e)] : Re Byte) =
      .seq (.grp 4 (lit 0x1b)) (.seq (.grp 5 (lit 0x5b)) (seqL [.grp 6 (.star (cr 0x30 0x3f)),
                .grp 7 (.star (cr 0x20 0x2f)), .grp 8 (cr 0x40 0x7e)])) from rfl]
  rw [Re.run, lit_eq, lit_eq, grp_cls_run]
  by_cases hb : b = 0x1b
  · have hb' := e1b.1 hb
    subst hb
    simp only [hb', if_true, List.flatMap_cons, List.flatMap_nil, List.append_nil]
    rw [Re.run, grp_cls_run]
    cases s with
    | nil => simp
    | cons c t =>
      have e5b : c = 0x5b ↔ _ := eq_iff_between c 0x5b (by decide)
      by_cases hc : c = 0x5b
      · have hc' := e5b.1 hc
        subst hc
        simp only [hc', if_true, List.flatMap_cons, List.flatMap_nil, List.append_nil, h2]
        cases hct : csiTail t with
        | none => simp
        | some q =>
          obtain ⟨ps, is, f, r⟩ := q
          have := (csiTail_append hct).1
          simp [this]
          rw [show ps.length + (is.length + (r.length + 1)) + 1 + 1 - r.length = ps.length + is.length + 3 by omega]
          simp [List.take_succ_cons, List.take_append]
          rw [List.take_of_length_le (by omega), List.take_of_length_le (by omega)]
          rw [show ps.length + is.length + 1 - ps.length - is.length = 1 by omega]
          simp
      · have hc' : ¬ between 0x5b 0x5b c = true := fun h => hc (e5b.2 h)
        simp [hc', hc]
  · have hb' : ¬ between 0x1b 0x1b b = true := fun h => hb (e1b.2 h)
    simp [hb', hb]

theorem nfTail_append {t is r : Bytes} {f : Byte} (h : nfTail t = some (is, f, r)) :
    t = is ++ [f] ++ r ∧ is ≠ [] ∧ (∀ b ∈ is, isInter b) ∧ isFinalNF f := by
  simp only [nfTail] at h
  split at h
  · rename_i f' r' e
    split at h
    · rename_i hf
      simp only [Option.some.injEq, Prod.mk.injEq] at h
      simp only [Bool.and_eq_true, decide_eq_true_eq] at hf
      obtain ⟨rfl, rfl, rfl⟩ := h
      refine ⟨?_, hf.2, ?_, hf.1⟩
      · have h1 := List.takeWhile_append_dropWhile (p := isInter) (l := t)
        rw [e] at h1
        simp [h1]
      · intro b hb; exact (List.all_takeWhile (p := isInter) |> List.all_eq_true.1) b hb
    · cases h
  · cases h

/-- The nF alternative. -/
theorem hd_nf (b : Byte) (s : Bytes) :
    hd (.grp 9 (seqL [.grp 10 (lit 0x1b), .grp 11 (cr 0x20 0x2f), .grp 12 (.star (cr 0x20 0x2f)),
                .grp 13 (cr 0x30 0x7e)])) (b :: s) =
    if b = 0x1b then
      match nfTail s with
      | some (is, f, r) =>
          some (r, [(9, 0x1b :: (is ++ [f])), (13, [f]), (12, is.tail), (11, is.take 1), (10, [0x1b])])
      | none => none
    else none := by
  have e1b : b = 0x1b ↔ _ := eq_iff_between b 0x1b (by decide)
  have h2 : ∀ t c, (seqL [.grp 12 (.star (cr 0x20 0x2f)), .grp 13 (cr 0x30 0x7e)] : Re Byte).run t c = _ := nf_run
  simp only [hd]
  rw [Re.run]
  rw [show (seqL [.grp 10 (lit 0x1b), .grp 11 (cr 0x20 0x2f), .grp 12 (.star (cr 0x20 0x2f)),
                .grp 13 (cr 0x30 0x7e)] : Re Byte) =
      .seq (.grp 10 (lit 0x1b)) (.seq (.grp 11 (cr 0x20 0x2f))
        (seqL [.grp 12 (.star (cr 0x20 0x2f)), .grp 13 (cr 0x30 0x7e)])) from rfl]
  rw [Re.run, lit_eq, grp_cls_run]
  by_cases hb : b = 0x1b
  · have hb' := e1b.1 hb
    subst hb
    simp only [hb', if_true, List.flatMap_cons, List.flatMap_nil, List.append_nil]
    rw [Re.run, cr_eq 0x20 0x2f, show between 0x20 0x2f = isInter from rfl, grp_cls_run]
    cases s with
    | nil => simp [nfTail]
    | cons i t =>
      by_cases hi : isInter i = true
      · have h2' := h2 t
        rw [cr_eq 0x20 0x2f, show between 0x20 0x2f = isInter from rfl] at h2'
        simp only [hi, if_true, List.flatMap_cons, List.flatMap_nil, List.append_nil, h2']
        simp only [nfTail, List.takeWhile_cons_of_pos hi, List.dropWhile_cons_of_pos hi]
        cases hd : t.dropWhile isInter with
        | nil => simp
        | cons f r =>
          by_cases hf : isFinalNF f = true
          · have h1 := List.takeWhile_append_dropWhile (p := isInter) (l := t)
            rw [hd] at h1
            simp only [hf, if_true]
            simp
            clear h2 h2' hd
            generalize t.takeWhile isInter = w at *
            subst h1
            rw [show (w ++ f :: r).length + 1 + 1 - r.length = w.length + 3 by simp; omega]
            simp [List.take_succ_cons, List.take_append]
            rw [List.take_of_length_le (by omega)]
          · simp [hf]
      · simp [hi, nfTail]
  · have hb' : ¬ between 0x1b 0x1b b = true := fun h => hb (e1b.2 h)
    simp [hb', hb]

/-- The number of the capture group of a kind, minus one. -/
def groupIdx : Kind → Nat
  | .utf8 => 0 | .binary => 1 | .reset => 2 | .sgr => 2 | .csi => 2 | .nF => 8 | .fp => 13
  | .fe => 16 | .fs => 19 | .ctrl => 22 | .null => 23 | .backspace => 24 | .esc => 25
  | .delete => 26 | .tab => 27 | .newline => 28 | .vertTab => 29 | .formFeed => 30
  | .carrReturn => 31 | .space => 32 | .printable => 33

/-- What the code reads off a match. -/
structure Good (k : Kind) (p : Bytes) (caps : Caps Byte) : Prop where
  prim : primaryMgroup ⟨p, caps⟩ = .ok (groupIdx k)
  grp : (⟨p, caps⟩ : Match Byte).group (groupIdx k + 1) = some p
  csi : groupIdx k = 2 → (⟨p, caps⟩ : Match Byte).group 6 = some (csiParams p) ∧
    ∃ f, (⟨p, caps⟩ : Match Byte).group 8 = some [f] ∧ k = csiKind (csiParams p) f

theorem hd_plus' (n : Nat) (p : Byte → Bool) (b : Byte) (s : Bytes) :
    hd (.grp n (.plus (.cls p))) (b :: s) =
      if p b then some (s.dropWhile p, [(n, b :: s.takeWhile p)]) else none := by
  by_cases h : p b = true
  · simp [hd_plus n p b s h, h]
  · simp [hd_plus_none n p b s (by simpa using h), h]

theorem hd_utf8 (s : Bytes) :
    hd (.grp 1 reUtf8) s = if utf8Len s = 0 then none else
      some (s.drop (utf8Len s), [(1, s.take (s.length - (s.drop (utf8Len s)).length))]) := by
  rw [hd, Re.run, reUtf8_run]; split <;> simp

theorem utf8Len_le (s : Bytes) : utf8Len s ≤ s.length := by
  unfold utf8Len
  repeat' split
  all_goals simp_all <;> omega

theorem hd_utf8' (s : Bytes) :
    hd (.grp 1 reUtf8) s = if utf8Len s = 0 then none else
      some (s.drop (utf8Len s), [(1, s.take (utf8Len s))]) := by
  rw [hd_utf8]
  have := utf8Len_le s
  split
  · rfl
  · rw [List.length_drop, show s.length - (s.length - utf8Len s) = utf8Len s by omega]

theorem primary_single (n : Nat) (p : Bytes) (h : p ≠ []) :
    primaryMgroup ⟨p, [(n, p)]⟩ = .ok (n - 1) := by
  simp [primaryMgroup, h]

theorem good_single (k : Kind) (p : Bytes) (h : p ≠ []) (hk : groupIdx k ≠ 2) :
    Good k p [(groupIdx k + 1, p)] :=
  ⟨by rw [primary_single _ _ h, Nat.add_sub_cancel], by simp [Match.group], fun e => absurd e hk⟩

theorem fSeparator_eq : fSeparator = altL [
  .grp 1 reUtf8,
  .grp 2 (.plus (.cls isHigh)),
  .grp 3 (seqL [.grp 4 (lit 0x1b), .grp 5 (lit 0x5b), .grp 6 (.star (cr 0x30 0x3f)),
                .grp 7 (.star (cr 0x20 0x2f)), .grp 8 (cr 0x40 0x7e)]),
  .grp 9 (seqL [.grp 10 (lit 0x1b), .grp 11 (cr 0x20 0x2f), .grp 12 (.star (cr 0x20 0x2f)),
                .grp 13 (cr 0x30 0x7e)]),
  .grp 14 (.seq (.grp 15 (.cls (· == 0x1b))) (.grp 16 (.cls (between 0x30 0x3f)))),
  .grp 17 (.seq (.grp 18 (.cls (· == 0x1b))) (.grp 19 (.cls (between 0x40 0x5f)))),
  .grp 20 (.seq (.grp 21 (.cls (· == 0x1b))) (.grp 22 (.cls (between 0x60 0x7e)))),
  .grp 23 (.plus (.cls isCtrl)),
  .grp 24 (.plus (.cls (· == 0x00))),
  .grp 25 (.plus (.cls (· == 0x08))),
  .grp 26 (.cls (· == 0x1b)),
  .grp 27 (.plus (.cls (· == 0x7f))),
  .grp 28 (.plus (.cls (· == 0x09))),
  .grp 29 (.cls (· == 0x0a)),
  .grp 30 (.plus (.cls (· == 0x0b))),
  .grp 31 (.plus (.cls (· == 0x0c))),
  .grp 32 (.plus (.cls (· == 0x0d))),
  .grp 33 (.plus (.cls (· == 0x20))),
  .grp 34 (.plus (.cls isPrintable))] := by
  have l : ∀ n, n < 256 → lit n = .cls (· == UInt8.ofNat n) := by
    intro n h
    rw [lit]; congr 1; funext b
    rw [Bool.eq_iff_iff, beq_iff_eq, beq_iff_eq, byte_eq_iff b n h]
  unfold fSeparator
  rw [cr_eq 0x80 0xff, show between 0x80 0xff = isHigh from rfl, cr_eq 0x21 0x7e,
    show between 0x21 0x7e = isPrintable from rfl, l 0x00 (by decide), l 0x08 (by decide),
    l 0x7f (by decide), l 0x09 (by decide), l 0x0a (by decide), l 0x0b (by decide), l 0x0c (by decide),
    l 0x0d (by decide), l 0x20 (by decide)]
  rw [show seqL [.grp 15 (lit 0x1b), .grp 16 (cr 0x30 0x3f)] =
      (.seq (.grp 15 (.cls (· == 0x1b))) (.grp 16 (.cls (between 0x30 0x3f))) : Re Byte) by
      rw [l _ (by decide), cr_eq]; rfl]
  rw [show seqL [.grp 18 (lit 0x1b), .grp 19 (cr 0x40 0x5f)] =
      (.seq (.grp 18 (.cls (· == 0x1b))) (.grp 19 (.cls (between 0x40 0x5f))) : Re Byte) by
      rw [l _ (by decide), cr_eq]; rfl]
  rw [show seqL [.grp 21 (lit 0x1b), .grp 22 (cr 0x60 0x7e)] =
      (.seq (.grp 21 (.cls (· == 0x1b))) (.grp 22 (.cls (between 0x60 0x7e))) : Re Byte) by
      rw [l _ (by decide), cr_eq]; rfl]
  rw [show (.grp 26 (lit 0x1b) : Re Byte) = .grp 26 (.cls (· == 0x1b)) by rw [l _ (by decide)]; rfl]
  rw [show (fun b => inRng 0x01 0x07 b || inRng 0x0e 0x1a b || inRng 0x1c 0x1f b) = isCtrl by
    rw [inRng_eq_between]; rfl]
  rfl

theorem good_two (k : Kind) (b c : Byte) (n : Nat) (hk : groupIdx k = n) (h3 : 3 ≤ n) :
    Good k [b, c] [(n + 1, [b, c]), (n + 3, [c]), (n + 2, [b])] := by
  subst hk
  refine ⟨?_, by simp [Match.group], fun e => absurd e (by omega)⟩
  simp [primaryMgroup, List.min?, Nat.min_def]

theorem takeWhile_append_stop {α : Type} (p : α → Bool) (l r : List α) (h : ∀ a ∈ l, p a = true)
    (hr : ∀ a t, r = a :: t → p a = false) : (l ++ r).takeWhile p = l := by
  rw [List.takeWhile_append_of_pos h]
  cases r with
  | nil => simp
  | cons a t => simp [hr a t rfl]

theorem csiParams_eq {ps is : Bytes} {f : Byte} (hp : ∀ b ∈ ps, isParam b = true)
    (hi : ∀ b ∈ is, isInter b = true) (hf : isFinal f = true) :
    csiParams (0x1b :: 0x5b :: (ps ++ is ++ [f])) = ps := by
  simp only [csiParams, List.drop_succ_cons, List.drop_zero, List.append_assoc]
  apply takeWhile_append_stop _ _ _ hp
  intro a t e
  have : a ∈ is ++ [f] := by rw [e]; simp
  rcases List.mem_append.1 this with h | h
  · have := hi a h
    simp [isInter, isParam, between] at *; omega
  · have : a = f := by simpa using h
    subst this
    simp [isFinal, isParam, between] at *; omega

theorem good_csi {t ps is r : Bytes} {f : Byte} (h : csiTail t = some (ps, is, f, r)) :
    Good (csiKind ps f) (0x1b :: 0x5b :: (ps ++ is ++ [f]))
      [(3, 0x1b :: 0x5b :: (ps ++ is ++ [f])), (8, [f]), (7, is), (6, ps), (5, [0x5b]), (4, [0x1b])] := by
  obtain ⟨-, -, hp, hi, hf⟩ := csiTail_append h
  have hk : groupIdx (csiKind ps f) = 2 := by simp only [csiKind]; split <;> (try split) <;> rfl
  refine ⟨?_, ?_, ?_⟩
  · rw [hk]
    by_cases h1 : is = [] <;> by_cases h2 : ps = [] <;>
      simp [primaryMgroup, List.min?, Nat.min_def, h1, h2]
  · rw [hk]; simp [Match.group]
  · intro _
    rw [csiParams_eq hp hi hf]
    exact ⟨by simp [Match.group], f, by simp [Match.group], rfl⟩

theorem good_nf {t is r : Bytes} {f : Byte} (_h : nfTail t = some (is, f, r)) :
    Good .nF (0x1b :: (is ++ [f]))
      [(9, 0x1b :: (is ++ [f])), (13, [f]), (12, is.tail), (11, is.take 1), (10, [0x1b])] := by
  refine ⟨?_, by simp [Match.group, groupIdx], fun e => absurd e (by decide)⟩
  by_cases h1 : is.tail = [] <;> by_cases h2 : is.take 1 = [] <;>
      simp [primaryMgroup, List.min?, Nat.min_def, h1, h2, groupIdx]

theorem hd_fSeparator (b : Byte) (s : Bytes) :
    ∃ caps, hd fSeparator (b :: s) = some ((piece b s).2.2, caps) ∧
      Good (piece b s).1 (piece b s).2.1 caps := by
  rw [fSeparator_eq]
  simp only [altL, hd_alt, hd_plus', hd_one, hd_two, hd_csi, hd_nf, hd_utf8']
  by_cases hH : isHigh b = true
  · simp only [piece, hH, if_true]
    by_cases hU : utf8Len (b :: s) = 0
    · simp only [hU, if_true, run, Option.none_or, Option.some_or]
      exact ⟨_, rfl, good_single .binary _ (by simp) (by decide)⟩
    · simp only [hU, if_false, Option.some_or]
      refine ⟨_, rfl, good_single .utf8 _ ?_ (by decide)⟩
      have : 0 < utf8Len (b :: s) := by omega
      intro h
      have := congrArg List.length h
      simp at this
      omega
  have hU : utf8Len (b :: s) = 0 := by
    have h1 : b.toNat < 0x80 := by
      have := b.toNat_lt
      simp [isHigh, between] at hH; omega
    cases s with
    | nil => rfl
    | cons c s =>
      have e : ∀ lo hi, 0x80 ≤ lo → between lo hi b = false := by
        intro lo hi h; simp [between]; omega
      simp [utf8Len, e]
  simp only [hH, hU, if_true, if_false, Option.none_or, Bool.false_eq_true]
  by_cases hE : b = 0x1b
  · subst hE
    have c1 : isCtrl 0x1b = false := by decide
    have c2 : isPrintable 0x1b = false := by decide
    simp only [piece, hH, if_true, if_false, Bool.false_eq_true, beq_self_eq_true, c1, c2]
    cases s with
    | nil =>
      simp only [nfTail, escPiece, List.takeWhile_nil, List.dropWhile_nil, List.head?_nil, Option.bind_none,
        Option.none_or, Option.some_or]
      exact ⟨_, rfl, good_single .esc _ (by simp) (by decide)⟩
    | cons c t =>
      simp only [escPiece]
      cases hct : (if c = 0x5b then csiTail t else none) with
      | some q =>
        obtain ⟨ps, is, f, r⟩ := q
        simp only [Option.some_or]
        exact ⟨_, rfl, good_csi (by
          split at hct
          · exact hct
          · cases hct)⟩
      | none =>
        simp only [Option.none_or]
        cases hn : nfTail (c :: t) with
        | some q =>
          obtain ⟨is, f, r⟩ := q
          simp only [Option.some_or]
          exact ⟨_, rfl, good_nf hn⟩
        | none =>
          simp only [Option.none_or, List.head?_cons, Option.bind_some, List.tail_cons]
          by_cases h1 : between 0x30 0x3f c = true
          · simp only [h1, if_true, Option.some_or]
            exact ⟨_, rfl, good_two .fp _ _ 13 rfl (by omega)⟩
          simp only [h1, if_false, Option.none_or, Bool.false_eq_true]
          by_cases h2 : between 0x40 0x5f c = true
          · simp only [h2, if_true, Option.some_or]
            exact ⟨_, rfl, good_two .fe _ _ 16 rfl (by omega)⟩
          simp only [h2, if_false, Option.none_or, Bool.false_eq_true]
          by_cases h3 : between 0x60 0x7e c = true
          · simp only [h3, if_true, Option.some_or]
            exact ⟨_, rfl, good_two .fs _ _ 19 rfl (by omega)⟩
          have z1 : ((0x1b : Byte) == 0) = false := by decide
          have z2 : ((0x1b : Byte) == 8) = false := by decide
          simp only [h3, z1, z2, if_false, Option.none_or, Bool.false_eq_true, Option.some_or]
          exact ⟨_, rfl, good_single .esc _ (by simp) (by decide)⟩
  · have hE' : (b == 0x1b) = false := by simpa using hE
    have hn : isCtrl b = true → b ≠ 0 ∧ b ≠ 8 ∧ b ≠ 0x7f ∧ b ≠ 9 ∧ b ≠ 0xa ∧ b ≠ 0xb ∧ b ≠ 0xc ∧ b ≠ 0xd ∧ b ≠ 0x20 := by
      intro h
      refine ⟨?_, ?_, ?_, ?_, ?_, ?_, ?_, ?_, ?_⟩ <;> (rintro rfl; revert h; decide)
    simp only [piece, hH, hE, hE', if_false, Option.none_or, Bool.false_eq_true, beq_iff_eq]
    by_cases hc : isCtrl b = true
    · obtain ⟨h0, h1, h2, h3, h4, h5, h6, h7, h8⟩ := hn hc
      simp only [hc, h0, h1, h2, h3, h4, h5, h6, h7, h8, if_true, if_false, Option.some_or, run]
      exact ⟨_, rfl, good_single .ctrl _ (by simp [run]) (by decide)⟩
    simp only [hc, if_false, Option.none_or, Bool.false_eq_true]
    by_cases h : b = 0
    · subst h; exact ⟨_, rfl, good_single .null _ (by simp [run]) (by decide)⟩
    simp only [h, if_false, Option.none_or, Bool.false_eq_true]
    by_cases h : b = 8
    · subst h; exact ⟨_, rfl, good_single .backspace _ (by simp [run]) (by decide)⟩
    simp only [h, if_false, Option.none_or, Bool.false_eq_true]
    by_cases h : b = 0x7f
    · subst h; exact ⟨_, rfl, good_single .delete _ (by simp [run]) (by decide)⟩
    simp only [h, if_false, Option.none_or, Bool.false_eq_true]
    by_cases h : b = 9
    · subst h; exact ⟨_, rfl, good_single .tab _ (by simp [run]) (by decide)⟩
    simp only [h, if_false, Option.none_or, Bool.false_eq_true]
    by_cases h : b = 0xa
    · subst h; exact ⟨_, rfl, good_single .newline _ (by simp [run]) (by decide)⟩
    simp only [h, if_false, Option.none_or, Bool.false_eq_true]
    by_cases h : b = 0xb
    · subst h; exact ⟨_, rfl, good_single .vertTab _ (by simp [run]) (by decide)⟩
    simp only [h, if_false, Option.none_or, Bool.false_eq_true]
    by_cases h : b = 0xc
    · subst h; exact ⟨_, rfl, good_single .formFeed _ (by simp [run]) (by decide)⟩
    simp only [h, if_false, Option.none_or, Bool.false_eq_true]
    by_cases h : b = 0xd
    · subst h; exact ⟨_, rfl, good_single .carrReturn _ (by simp [run]) (by decide)⟩
    simp only [h, if_false, Option.none_or, Bool.false_eq_true]
    by_cases h : b = 0x20
    · subst h; exact ⟨_, rfl, good_single .space _ (by simp [run]) (by decide)⟩
    simp only [h, if_false, Option.none_or, Bool.false_eq_true]
    have hp : isPrintable b = true := by
      have := b.toNat_lt
      have t : ∀ n : Nat, n < 256 → b ≠ UInt8.ofNat n → b.toNat ≠ n :=
        fun n h h' e => h' ((byte_eq_iff b n h).2 e)
      have t1 := t 0 (by decide) (by assumption)
      have t2 := t 8 (by decide) (by assumption)
      have t3 := t 9 (by decide) (by assumption)
      have t4 := t 10 (by decide) (by assumption)
      have t5 := t 11 (by decide) (by assumption)
      have t6 := t 12 (by decide) (by assumption)
      have t7 := t 13 (by decide) (by assumption)
      have t8 := t 0x20 (by decide) (by assumption)
      have t9 := t 0x7f (by decide) (by assumption)
      have t10 := t 0x1b (by decide) (by assumption)
      simp [isCtrl, isHigh, between] at hc hH
      simp [isPrintable, between]
      omega
    simp only [hp, if_true, run]
    exact ⟨_, rfl, good_single .printable _ (by simp [run]) (by decide)⟩

end Kolombos
