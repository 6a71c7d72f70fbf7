import Verif.Model.Filter
import Verif.Spec.Filter
import Verif.Lemmas.Regex
/-
String filters.
-/
set_option linter.unusedSimpArgs false

namespace Kolombos
open Spec

/-! ### Substitution in general -/

theorem scanAux_fuel {α : Type} (r : Re α) : ∀ (n m : Nat) (s : List α), s.length ≤ n → s.length ≤ m → r.scanAux n s = r.scanAux m s := by
  intro n
  induction n with
  | zero =>
    intro m s h1 h2
    have : s = [] := List.length_eq_zero_iff.1 (by omega)
    subst this
    cases m <;> rfl
  | succ n ih =>
    intro m s h1 h2
    cases s with
    | nil => cases m <;> rfl
    | cons a s =>
      cases m with
      | zero => simp at h2
      | succ m =>
        simp only [List.length_cons] at h1 h2
        rw [Re.scanAux, Re.scanAux]
        cases hf : r.first (a :: s) with
        | none => simp only; rw [ih m s (by omega) (by omega)]
        | some x =>
          obtain ⟨mt, rest⟩ := x
          simp only
          split
          · rename_i hl
            simp only [List.length_cons] at hl
            rw [ih m rest (by omega) (by omega)]
          · rw [ih m s (by omega) (by omega)]

theorem sub_nil {α : Type} (r : Re α) (f : Match α → List α) : r.sub f [] = [] := rfl

theorem sub_none {α : Type} (r : Re α) (f : Match α → List α) (a : α) (s : List α) (h : r.first (a :: s) = none) :
    r.sub f (a :: s) = a :: r.sub f s := by
  unfold Re.sub Re.scan
  rw [List.length_cons, Re.scanAux, h]
  simp

theorem sub_some {α : Type} (r : Re α) (f : Match α → List α) (s : List α) {m : Match α} {rest : List α} (h : r.first s = some (m, rest))
    (hl : rest.length < s.length) : r.sub f s = f m ++ r.sub f rest := by
  cases s with
  | nil => simp at hl
  | cons a s =>
    unfold Re.sub Re.scan
    rw [List.length_cons, Re.scanAux, h]
    simp only
    rw [if_pos hl, List.flatMap_cons, scanAux_fuel r s.length rest.length rest (by simp only [List.length_cons] at hl; omega) (Nat.le_refl _)]

theorem starRun_grp {α β : Type} (g : Nat) (p : α → Bool) : ∀ (n : Nat) (s : List α) (c : Caps α) (k : List α × Caps α → List β),
    s.length ≤ n → (∀ a t c, p a = true → k (a :: t, c) = []) →
    (starRun (fun s c => (Re.grp g (.cls p)).run s c) n s c).flatMap k = k (s.dropWhile p, (s.takeWhile p).reverse.map (fun a => (g, [a])) ++ c) := by
  intro n
  induction n with
  | zero =>
    intro s c k hl hk
    have : s = [] := List.length_eq_zero_iff.1 (by omega)
    subst this
    simp [starRun]
  | succ n ih =>
    intro s c k hl hk
    cases s with
    | nil => simp [starRun, Re.run]
    | cons a s =>
      rw [starRun]
      simp only [Re.run]
      by_cases hp : p a = true
      · simp only [hp, if_true, List.map_cons, List.map_nil, List.flatMap_cons, List.flatMap_nil, List.append_nil, List.length_cons,
          Nat.lt_succ_self, List.flatMap_append, hk a s c hp]
        have e : (a :: s).take (s.length + 1 - s.length) = [a] := by
          rw [show s.length + 1 - s.length = 1 by omega]; rfl
        rw [e]
        have := ih s ((g, [a]) :: c) k (by simpa using hl) hk
        rw [show (fun (s : List α) (c : Caps α) => List.map (fun r : List α × Caps α => (r.1, (g, List.take (s.length - r.1.length) s) :: r.2)) ((Re.cls p).run s c)) =
          (fun s c => (Re.grp g (.cls p)).run s c) from rfl, this]
        simp [hp]
      · simp [hp]

/-- A pattern for control sequences with the given parameter and final characters. -/
def seqRe (p f : Char → Bool) : Re Char :=
  .seq (.grp 1 (.cls (· == '\x1b'))) (.seq (.grp 2 (.cls (· == '['))) (.seq (.grp 3 (.star (.grp 4 (.cls p)))) (.grp 5 (.cls f))))

theorem seqRe_other (p f : Char → Bool) {a : Char} (s : Str) (h : a ≠ '\x1b') : (seqRe p f).first (a :: s) = none := by
  simp [Re.first, seqRe, Re.run, h]

theorem seqRe_esc {p f : Char → Bool} (hd : ∀ c, p c = true → f c = false) (s : Str) :
    (seqRe p f).run ('\x1b' :: '[' :: s) [] =
      match s.dropWhile p with
      | [] => []
      | x :: rest => if f x then [(rest, (5, [x]) :: (3, s.takeWhile p) :: ((s.takeWhile p).reverse.map (fun a => (4, [a])) ++ [(2, ['[']), (1, ['\x1b'])]))] else [] := by
  unfold seqRe
  have e1 : ('\x1b' :: '[' :: s).take (('\x1b' :: '[' :: s).length - ('[' :: s).length) = ['\x1b'] := by
    simp only [List.length_cons]
    rw [show s.length + 1 + 1 - (s.length + 1) = 1 by omega]; rfl
  have e2 : ('[' :: s).take (('[' :: s).length - s.length) = ['['] := by
    simp only [List.length_cons]
    rw [show s.length + 1 - s.length = 1 by omega]; rfl
  simp only [Re.run, beq_self_eq_true, if_true, List.map_cons, List.map_nil, List.flatMap_cons, List.flatMap_nil, List.append_nil, e1, e2]
  rw [List.flatMap_map]
  have h := starRun_grp 4 p s.length s [(2, ['[']), (1, ['\x1b'])]
    (fun r : Str × Caps Char => (Re.grp 5 (.cls f)).run r.1 ((3, s.take (s.length - r.1.length)) :: r.2)) (Nat.le_refl _) ?_
  · simp only [Re.run] at h
    rw [h, take_length_dropWhile]
    cases hx : s.dropWhile p with
    | nil => rfl
    | cons x rest =>
      simp only
      rw [Re.run]
      by_cases hf : f x = true
      · simp only [hf, if_true, List.map_cons, List.map_nil]
        have e : (x :: rest).take ((x :: rest).length - rest.length) = [x] := by
          simp only [List.length_cons]
          rw [show rest.length + 1 - rest.length = 1 by omega]; rfl
        rw [e]
      · simp [hf]
  · intro a t c hp
    simp [Re.run, hd a hp]

theorem takeWhile_params {p : Char → Bool} {ps s : Str} (h : ∀ c ∈ ps, p c = true) {x : Char} (hx : p x = false) :
    (ps ++ x :: s).takeWhile p = ps ∧ (ps ++ x :: s).dropWhile p = x :: s := by
  induction ps with
  | nil => simp [hx]
  | cons a ps ih =>
    have ha := h a (by simp)
    have := ih (fun c hc => h c (by simp [hc]))
    simp [ha, this]

/-- A sequence of the pattern is found, with its groups. -/
theorem seqRe_first {p f : Char → Bool} (hd : ∀ c, p c = true → f c = false) {ps : Str} {x : Char} (s : Str) (hp : ∀ c ∈ ps, p c = true) (hx : f x = true) :
    ∃ m, (seqRe p f).first ('\x1b' :: '[' :: (ps ++ x :: s)) = some (m, s) ∧ ∀ n, (if n = 0 then m.text else (m.group n).getD []) = seqPart ps x n := by
  have hpx : p x = false := by
    cases h : p x with
    | false => rfl
    | true => rw [hd x h] at hx; cases hx
  obtain ⟨t1, t2⟩ := takeWhile_params (s := s) hp hpx
  have hr := seqRe_esc hd (ps ++ x :: s)
  rw [t1, t2] at hr
  simp only [hx, if_true] at hr
  unfold Re.first
  rw [hr]
  refine ⟨_, rfl, ?_⟩
  intro n
  by_cases n0 : n = 0
  · subst n0
    simp only [if_true, seqPart, Bit.written]
    have e1 : '\x1b' :: '[' :: (ps ++ x :: s) = ('\x1b' :: '[' :: (ps ++ [x])) ++ s := by simp
    rw [e1, List.length_append, Nat.add_sub_cancel, List.take_left]
  rw [if_neg n0]
  unfold Match.group
  simp only
  have h4 : ∀ (l : Str) (r : Caps Char), n ≠ 4 → ((l.map fun a => (4, [a])) ++ r).find? (fun g => decide (g.1 = n)) = r.find? (fun g => decide (g.1 = n)) := by
    intro l r hn
    rw [List.find?_append, List.find?_eq_none.2 _, Option.none_or]
    intro x hx
    obtain ⟨a, _, rfl⟩ := List.mem_map.1 hx
    simp
    omega
  by_cases n4 : n = 4
  · subst n4
    rw [List.find?_cons, List.find?_cons]
    simp only [seqPart]
    rw [List.getLast?_eq_head?_reverse]
    cases ps.reverse with
    | nil => rfl
    | cons a l => simp
  · rw [List.find?_cons, List.find?_cons, h4 _ _ n4, List.find?_cons, List.find?_cons]
    clear h4
    rcases n with _ | _ | _ | _ | _ | _ | n
    · exact absurd rfl n0
    · rfl
    · rfl
    · rfl
    · exact absurd rfl n4
    · rfl
    · have e : ∀ k, k < 6 → decide (k = n + 6) = false := fun k hk => decide_eq_false (by omega)
      rw [e 5 (by omega), e 3 (by omega), e 2 (by omega), e 1 (by omega)]
      rfl

/-! ### C77: control sequences -/

theorem sgrRegexp_eq : sgrRegexp = seqRe (fun c => c.isDigit || c == ';') (· == 'm') := rfl

/-- The parameter characters. -/
def csiParam (c : Char) : Bool := c.isDigit || c == ';' || c == ':' || c == '<' || c == '=' || c == '>' || c == '?'

theorem csiRegexp_eq : csiRegexp = seqRe csiParam (fun c => c == '@' || c.isAlpha) := rfl

theorem char_le_iff (a b : Char) : a ≤ b ↔ a.toNat ≤ b.toNat := Iff.rfl

theorem isDigit_iff (c : Char) : c.isDigit = true ↔ 48 ≤ c.toNat ∧ c.toNat ≤ 57 := by
  unfold Char.isDigit
  simp only [Bool.and_eq_true, decide_eq_true_eq]
  exact Iff.rfl

theorem isAlpha_iff (c : Char) : c.isAlpha = true ↔ (65 ≤ c.toNat ∧ c.toNat ≤ 90) ∨ (97 ≤ c.toNat ∧ c.toNat ≤ 122) := by
  unfold Char.isAlpha Char.isUpper Char.isLower
  simp only [Bool.or_eq_true, Bool.and_eq_true, decide_eq_true_eq]
  exact Iff.rfl

theorem char_eq_iff (a b : Char) : a = b ↔ a.toNat = b.toNat := ⟨fun h => by rw [h], fun h => Char.ext (UInt32.toNat_inj.1 h)⟩

theorem csiParam_iff (c : Char) : csiParam c = true ↔ 0x30 ≤ c.toNat ∧ c.toNat ≤ 0x3f := by
  unfold csiParam
  simp only [Bool.or_eq_true, beq_iff_eq, isDigit_iff, char_eq_iff]
  have e : ';'.toNat = 59 ∧ ':'.toNat = 58 ∧ '<'.toNat = 60 ∧ '='.toNat = 61 ∧ '>'.toNat = 62 ∧ '?'.toNat = 63 := by decide
  omega

theorem csiFinal_iff (c : Char) : (c == '@' || c.isAlpha) = true ↔ (c = '@' ∨ ('A' ≤ c ∧ c ≤ 'Z') ∨ ('a' ≤ c ∧ c ≤ 'z')) := by
  simp only [Bool.or_eq_true, beq_iff_eq, isAlpha_iff, char_le_iff, char_eq_iff]
  have e : 'A'.toNat = 65 ∧ 'Z'.toNat = 90 ∧ 'a'.toNat = 97 ∧ 'z'.toNat = 122 := by decide
  omega

theorem sub_text (p f : Char → Bool) (g : Match Char → Str) (t s : Str) (h : '\x1b' ∉ t) : (seqRe p f).sub g (t ++ s) = t ++ (seqRe p f).sub g s := by
  induction t with
  | nil => rfl
  | cons a t ih =>
    rw [List.cons_append, sub_none _ _ _ _ (seqRe_other p f _ (fun e => h (by simp [e]))), ih (fun hm => h (by simp [hm]))]
    rfl

/-- What a replacement yields for a sequence. -/
def filled (t : List TplItem) (ps : Str) (f : Char) : Str :=
  t.flatMap fun
    | .lit c => [c]
    | .ref n => seqPart ps f n

theorem expandTpl_filled {t : List TplItem} {m : Match Char} {ps : Str} {x : Char} (h : ∀ n, (if n = 0 then m.text else (m.group n).getD []) = seqPart ps x n) :
    expandTpl t m = filled t ps x := by
  unfold expandTpl filled
  congr 1
  funext i
  cases i with
  | lit c => rfl
  | ref n => exact h n

/-- Every control sequence is replaced, and the text between them is kept. -/
theorem C77_csi (t : List TplItem) (bits : List Bit) (h : ∀ b ∈ bits, b.Usual) :
    replaceCsi t (bits.flatMap Bit.written) = bits.flatMap fun
      | .text s => s
      | .csi ps f => filled t ps f := by
  unfold replaceCsi
  rw [csiRegexp_eq]
  induction bits with
  | nil => rfl
  | cons b bits ih =>
    have ih := ih (fun b hb => h b (by simp [hb]))
    have hb := h b (by simp)
    rw [List.flatMap_cons, List.flatMap_cons]
    cases b with
    | text s => rw [Bit.written, sub_text _ _ _ _ _ hb, ih]
    | csi ps f =>
      have hd : ∀ c, csiParam c = true → (c == '@' || c.isAlpha) = false := by
        intro c hc
        rw [csiParam_iff] at hc
        have : ¬ (c == '@' || c.isAlpha) = true := by
          simp only [Bool.or_eq_true, beq_iff_eq, isAlpha_iff, char_eq_iff]
          have e : '@'.toNat = 64 := by decide
          omega
        simpa using this
      obtain ⟨m, h1, h2⟩ := seqRe_first hd (ps := ps) (x := f) (bits.flatMap Bit.written) (fun c hc => (csiParam_iff c).2 (hb.1 c hc)) ((csiFinal_iff f).2 hb.2)
      have e : Bit.written (.csi ps f) ++ bits.flatMap Bit.written = '\x1b' :: '[' :: (ps ++ f :: bits.flatMap Bit.written) := by
        simp [Bit.written]
      rw [e, sub_some _ _ _ h1 (by simp; omega), ih, expandTpl_filled h2]

example : replaceCsi [.lit '<', .ref 3, .ref 5, .lit '>'] "a\x1b[1;4mb\x1b[?25hc".toList = "a<1;4m>b<?25h>c".toList ∧
    replaceCsi [] "a\x1b[1;4mb\x1b[?25hc".toList = "abc".toList ∧
    ∀ b ∈ [Bit.text "a".toList, .csi "1;4".toList 'm', .csi "?25".toList 'h'], b.Usual := by
  refine ⟨by decide, by decide, ?_⟩
  intro b hb
  simp only [List.mem_cons, List.not_mem_nil, or_false] at hb
  rcases hb with rfl | rfl | rfl
  · unfold Bit.Usual; decide
  · exact ⟨by decide, by decide⟩
  · exact ⟨by decide, by decide⟩

theorem sgrParam_iff (c : Char) : (c.isDigit || c == ';') = true ↔ ('0' ≤ c ∧ c ≤ '9') ∨ c = ';' := by
  simp only [Bool.or_eq_true, beq_iff_eq, isDigit_iff, char_le_iff, char_eq_iff]
  have e : '0'.toNat = 48 ∧ '9'.toNat = 57 := by decide
  omega

theorem sgr_hd (c : Char) (hc : (c.isDigit || c == ';') = true) : (c == 'm') = false := by
  have : ¬ c = 'm' := by rintro rfl; exact absurd hc (by decide)
  simpa using this

/-- A sequence of another kind is not found. -/
theorem sgr_other {ps : Str} {f : Char} (s : Str) (hu : (Bit.csi ps f).Usual) (hn : ¬ (Bit.csi ps f).IsSgr) :
    sgrRegexp.first ('\x1b' :: '[' :: (ps ++ f :: s)) = none := by
  obtain ⟨hp, hf⟩ := hu
  rw [sgrRegexp_eq]
  unfold Re.first
  rw [seqRe_esc sgr_hd]
  have key : ∀ (q : Str), (∀ c ∈ q, 0x30 ≤ c.toNat ∧ c.toNat ≤ 0x3f) → ¬ (f = 'm' ∧ ∀ c ∈ q, ('0' ≤ c ∧ c ≤ '9') ∨ c = ';') →
      ∃ x r, (q ++ f :: s).dropWhile (fun c => c.isDigit || c == ';') = x :: r ∧ x ≠ 'm' := by
    intro q
    induction q with
    | nil =>
      intro _ h
      have hfm : f ≠ 'm' := fun e => h ⟨e, by simp⟩
      have hnp : ¬ (f.isDigit || f == ';') = true := by
        rw [sgrParam_iff]
        simp only [char_le_iff, char_eq_iff] at hf ⊢
        have e : '0'.toNat = 48 ∧ '9'.toNat = 57 ∧ ';'.toNat = 59 ∧ '@'.toNat = 64 ∧ 'A'.toNat = 65 ∧ 'Z'.toNat = 90 ∧ 'a'.toNat = 97 ∧ 'z'.toNat = 122 := by decide
        omega
      refine ⟨f, s, ?_, hfm⟩
      rw [List.nil_append, List.dropWhile_cons, if_neg hnp]
    | cons a q ih =>
      intro h1 h2
      by_cases ha : (a.isDigit || a == ';') = true
      · have ha' := (sgrParam_iff a).1 ha
        obtain ⟨x, r, e1, e2⟩ := ih (fun c hc => h1 c (by simp [hc])) (fun h => h2 ⟨h.1, by
          intro c hc
          rcases List.mem_cons.1 hc with rfl | hc
          · exact ha'
          · exact h.2 c hc⟩)
        refine ⟨x, r, ?_, e2⟩
        rw [List.cons_append, List.dropWhile_cons, if_pos ha, e1]
      · refine ⟨a, q ++ f :: s, ?_, ?_⟩
        · rw [List.cons_append, List.dropWhile_cons, if_neg ha]
        · rintro rfl
          exact absurd (h1 'm' (by simp)) (by decide)
  obtain ⟨x, r, e1, e2⟩ := key ps hp hn
  rw [e1]
  simp [e2]

open Classical in
/-- Sequences for colours and attributes are replaced; other control sequences and the text between them are kept. -/
theorem C77_sgr (t : List TplItem) (bits : List Bit) (h : ∀ b ∈ bits, b.Usual) :
    replaceSgr t (bits.flatMap Bit.written) = bits.flatMap fun
      | .text s => s
      | .csi ps f => if (Bit.csi ps f).IsSgr then filled t ps f else (Bit.csi ps f).written := by
  unfold replaceSgr
  induction bits with
  | nil => rfl
  | cons b bits ih =>
    have ih := ih (fun b hb => h b (by simp [hb]))
    have hb := h b (by simp)
    rw [List.flatMap_cons, List.flatMap_cons]
    cases b with
    | text s => rw [Bit.written, sgrRegexp_eq, sub_text _ _ _ _ _ hb, ← sgrRegexp_eq, ih]
    | csi ps f =>
      have e : Bit.written (.csi ps f) ++ bits.flatMap Bit.written = '\x1b' :: '[' :: (ps ++ f :: bits.flatMap Bit.written) := by
        simp [Bit.written]
      by_cases hs : (Bit.csi ps f).IsSgr
      · simp only [hs, if_true]
        obtain ⟨hf, hps⟩ := hs
        subst hf
        obtain ⟨m, h1, h2⟩ := seqRe_first sgr_hd (ps := ps) (x := 'm') (bits.flatMap Bit.written) (fun c hc => (sgrParam_iff c).2 (hps c hc)) (by decide)
        rw [← sgrRegexp_eq] at h1
        rw [e, sub_some _ _ _ h1 (by simp; omega), ih, expandTpl_filled h2]
      · simp only [hs, if_false]
        have e' : Bit.written (.csi ps f) ++ bits.flatMap Bit.written = '\x1b' :: (('[' :: (ps ++ [f])) ++ bits.flatMap Bit.written) := by
          simp [Bit.written]
        have hno : '\x1b' ∉ '[' :: (ps ++ [f]) := by
          simp only [List.mem_cons, List.mem_append, List.not_mem_nil, or_false, not_or]
          refine ⟨by decide, ?_, ?_⟩
          · intro hc; exact absurd (hb.1 _ hc) (by decide)
          · intro hc; subst hc; exact absurd hb.2 (by decide)
        have hfirst := sgr_other (bits.flatMap Bit.written) hb hs
        rw [← e, e'] at hfirst
        rw [e', sub_none _ _ _ _ hfirst, sgrRegexp_eq, sub_text _ _ _ _ _ hno, ← sgrRegexp_eq, ih]
        simp [Bit.written]

/-- The example in the documentation: escape characters made visible. -/
example : replaceSgr [.lit 'E', .ref 2, .ref 3, .ref 5] "\x1b[31mtest\x1b[39m".toList = "E[31mtestE[39m".toList := by decide

/-- Not all control sequences are found: the key code of Delete is kept. -/
theorem C78_negation : ¬ ∀ s, IsControlSequence s → replaceCsi [] s = [] := by
  intro h
  have := h "\x1b[3~".toList ⟨['3'], [], '~', rfl, by decide, by decide, by decide, by decide⟩
  exact absurd this (by decide)

/-- What a filter leaves may be a sequence again. -/
theorem C78_again : ¬ ∀ s, replaceCsi [] (replaceCsi [] s) = replaceCsi [] s := by
  intro h
  exact absurd (h "\x1b\x1b[m[m".toList) (by decide)

/-- No escape character is left of usual sequences. -/
theorem C78_partial (bits : List Bit) (h : ∀ b ∈ bits, b.Usual) : '\x1b' ∉ replaceCsi [] (bits.flatMap Bit.written) ∧
    replaceCsi [] (replaceCsi [] (bits.flatMap Bit.written)) = replaceCsi [] (bits.flatMap Bit.written) := by
  have h1 : '\x1b' ∉ replaceCsi [] (bits.flatMap Bit.written) := by
    rw [C77_csi [] bits h]
    intro hm
    obtain ⟨b, hb, hm⟩ := List.mem_flatMap.1 hm
    cases b with
    | text s => exact h _ hb hm
    | csi ps f => simp [filled] at hm
  refine ⟨h1, ?_⟩
  have := sub_text csiParam (fun c => c == '@' || c.isAlpha) (expandTpl []) _ [] h1
  rw [List.append_nil, sub_nil, List.append_nil, ← csiRegexp_eq] at this
  exact this

/-! ### C79: whitespace and bytes -/

theorem pySpace_iff (c : Char) : isPySpace c = true ↔ IsWhitespace c := by
  unfold IsWhitespace
  simp only [List.mem_cons, List.not_mem_nil, or_false, char_eq_iff]
  unfold isPySpace
  simp only [Bool.or_eq_true, Bool.and_eq_true, decide_eq_true_eq, beq_iff_eq]
  have e : [' ', '\t', '\n', '\x0b', '\x0c', '\r', '\x1c', '\x1d', '\x1e', '\x1f', '\u0085', '\u00a0', '\u1680', '\u2000', '\u2001',
    '\u2002', '\u2003', '\u2004', '\u2005', '\u2006', '\u2007', '\u2008', '\u2009', '\u200a', '\u2028', '\u2029', '\u202f',
    '\u205f', '\u3000'].map Char.toNat = [32, 9, 10, 11, 12, 13, 28, 29, 30, 31, 0x85, 0xa0, 0x1680, 0x2000, 0x2001, 0x2002, 0x2003, 0x2004,
      0x2005, 0x2006, 0x2007, 0x2008, 0x2009, 0x200a, 0x2028, 0x2029, 0x202f, 0x205f, 0x3000] := by decide
  simp only [List.map_cons, List.map_nil, List.cons.injEq, and_true] at e
  omega

end Kolombos
