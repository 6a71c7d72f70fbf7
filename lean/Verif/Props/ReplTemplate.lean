import Mathlib.Data.List.TakeWhile
import Verif.Props.Filter
import Verif.Lemmas.Sgr
import Verif.Model.ReplTemplate
import Verif.Spec.ReplTemplate
/-
C77: sequences in any text.
C79: replacements without backslashes.
C111: replacements as strings.
-/
set_option linter.unusedSimpArgs false
namespace Kolombos
open Spec

/-! ### C77: any text -/

/-- A sequence is found exactly if one is there. -/
theorem seqRe_none_iff {p f : Char → Bool} (hd : ∀ c, p c = true → f c = false) (s : Str) :
    (seqRe p f).first s = none ↔ ¬ ∃ ps x, ((∀ c ∈ ps, p c = true) ∧ f x = true) ∧ Bit.written (.csi ps x) <+: s := by
  constructor
  · rintro h ⟨ps, x, ⟨h1, h2⟩, t, rfl⟩
    obtain ⟨m, hm, -⟩ := seqRe_first hd t h1 h2
    have e : Bit.written (.csi ps x) ++ t = '\x1b' :: '[' :: (ps ++ x :: t) := by simp [Bit.written]
    rw [e, hm] at h
    cases h
  · intro h
    cases s with
    | nil => simp [Re.first, seqRe, Re.run]
    | cons a s =>
      by_cases ha : a = '\x1b'
      · subst ha
        cases s with
        | nil => simp [Re.first, seqRe, Re.run]
        | cons b s =>
          by_cases hb : b = '['
          · subst hb
            unfold Re.first
            rw [seqRe_esc hd]
            cases hdw : s.dropWhile p with
            | nil => rfl
            | cons x rest =>
              by_cases hx : f x = true
              · refine absurd ⟨s.takeWhile p, x, ⟨fun c hc => List.mem_takeWhile_imp hc, hx⟩, rest, ?_⟩ h
                have := List.takeWhile_append_dropWhile (p := p) (l := s)
                rw [hdw] at this
                simp only [Bit.written, List.cons_append, List.append_assoc, List.nil_append]
                rw [this]
              · simp [hx]
          · simp [Re.first, seqRe, Re.run, hb]
      · exact seqRe_other p f _ ha

theorem sub_leftmost {p f : Char → Bool} (hd : ∀ c, p c = true → f c = false) (t : List TplItem) {Seq : Str → Char → Prop}
    (hs : ∀ ps x, Seq ps x ↔ (∀ c ∈ ps, p c = true) ∧ f x = true) : ∀ (bits : List Bit), Leftmost Seq bits →
    (seqRe p f).sub (expandTpl t) (bits.flatMap Bit.written) = bits.flatMap fun
      | .text s => s
      | .csi ps f => filled t ps f := by
  intro bits
  induction bits with
  | nil => intro _; rfl
  | cons b bits ih =>
    intro h
    cases b with
    | text s =>
      obtain ⟨⟨c, rfl, hn⟩, hr⟩ := h
      have hf : (seqRe p f).first (c :: bits.flatMap Bit.written) = none := by
        rw [seqRe_none_iff hd]
        rintro ⟨ps, x, h1, h2⟩
        exact hn ⟨ps, x, (hs ps x).2 h1, h2⟩
      have ih := ih hr
      rw [List.flatMap_cons, List.flatMap_cons]
      show (seqRe p f).sub _ (c :: bits.flatMap Bit.written) = _
      rw [sub_none _ _ _ _ hf, ih]
      rfl
    | csi ps x =>
      obtain ⟨h1, hr⟩ := h
      obtain ⟨h1, h2⟩ := (hs ps x).1 h1
      obtain ⟨m, m1, m2⟩ := seqRe_first hd (bits.flatMap Bit.written) h1 h2
      have e : Bit.written (.csi ps x) ++ bits.flatMap Bit.written = '\x1b' :: '[' :: (ps ++ x :: bits.flatMap Bit.written) := by
        simp [Bit.written]
      rw [List.flatMap_cons, List.flatMap_cons, e, sub_some _ _ _ m1 (by simp; omega), ih hr, expandTpl_filled m2]

/-- Every text has its sequences, found from left to right. -/
theorem leftmost_exists (Seq : Str → Char → Prop) : ∀ (n : Nat) (s : Str), s.length ≤ n → ∃ bits, Leftmost Seq bits ∧ bits.flatMap Bit.written = s := by
  intro n
  induction n with
  | zero =>
    intro s h
    exact ⟨[], trivial, (List.length_eq_zero_iff.1 (by omega)).symm⟩
  | succ n ih =>
    intro s h
    cases s with
    | nil => exact ⟨[], trivial, rfl⟩
    | cons c s =>
      rcases Classical.em (∃ ps f, Seq ps f ∧ Bit.written (.csi ps f) <+: c :: s) with ⟨ps, f, h1, t, ht⟩ | hn
      · obtain ⟨bits, b1, b2⟩ := ih t (by
          have := congrArg List.length ht
          simp only [Bit.written, List.length_append, List.length_cons] at this h
          omega)
        exact ⟨.csi ps f :: bits, ⟨h1, b1⟩, by rw [List.flatMap_cons, b2, ht]⟩
      · obtain ⟨bits, b1, b2⟩ := ih s (by simp only [List.length_cons] at h; omega)
        exact ⟨.text [c] :: bits, ⟨⟨c, rfl, by rw [b2]; exact hn⟩, b1⟩, by rw [List.flatMap_cons, b2]; rfl⟩

theorem csi_hd (c : Char) (hc : csiParam c = true) : (c == '@' || c.isAlpha) = false := by
  rw [csiParam_iff] at hc
  have : ¬ (c == '@' || c.isAlpha) = true := by
    simp only [Bool.or_eq_true, beq_iff_eq, isAlpha_iff, char_eq_iff]
    have e : '@'.toNat = 64 := by decide
    omega
  simpa using this

theorem csiSeq_iff (ps : Str) (x : Char) : CsiSeq ps x ↔ (∀ c ∈ ps, csiParam c = true) ∧ (x == '@' || x.isAlpha) = true := by
  unfold CsiSeq Bit.Usual
  rw [csiFinal_iff]
  simp only [csiParam_iff]

theorem sgrSeq_iff (ps : Str) (x : Char) : SgrSeq ps x ↔ (∀ c ∈ ps, (c.isDigit || c == ';') = true) ∧ (x == 'm') = true := by
  unfold SgrSeq Bit.IsSgr
  simp only [sgrParam_iff, beq_iff_eq]
  exact And.comm

/-- C77: in any text the sequences are found from left to right, each is replaced, and all other characters are kept. -/
theorem C77_csi_any (s : Str) : (∃ bits, Leftmost CsiSeq bits ∧ bits.flatMap Bit.written = s) ∧
    ∀ bits, Leftmost CsiSeq bits → bits.flatMap Bit.written = s → ∀ t, replaceCsi t s = bits.flatMap fun
      | .text s => s
      | .csi ps f => filled t ps f := by
  refine ⟨leftmost_exists CsiSeq _ s (le_refl _), ?_⟩
  rintro bits hb rfl t
  unfold replaceCsi
  rw [csiRegexp_eq]
  exact sub_leftmost csi_hd t csiSeq_iff bits hb

theorem C77_sgr_any (s : Str) : (∃ bits, Leftmost SgrSeq bits ∧ bits.flatMap Bit.written = s) ∧
    ∀ bits, Leftmost SgrSeq bits → bits.flatMap Bit.written = s → ∀ t, replaceSgr t s = bits.flatMap fun
      | .text s => s
      | .csi ps f => filled t ps f := by
  refine ⟨leftmost_exists SgrSeq _ s (le_refl _), ?_⟩
  rintro bits hb rfl t
  unfold replaceSgr
  rw [sgrRegexp_eq]
  exact sub_leftmost sgr_hd t sgrSeq_iff bits hb

/-- C78: an escape character is left exactly if there is one that begins no usual sequence. -/
theorem C78_exact_partial (s : Str) (bits : List Bit) (hb : Leftmost CsiSeq bits) (hs : bits.flatMap Bit.written = s) :
    '\x1b' ∈ replaceCsi [] s ↔ Bit.text ['\x1b'] ∈ bits := by
  rw [(C77_csi_any s).2 bits hb hs [], List.mem_flatMap]
  constructor
  · rintro ⟨b, h1, h2⟩
    cases b with
    | csi ps f => simp [filled] at h2
    | text u =>
      have : ∀ (l : List Bit), Leftmost CsiSeq l → Bit.text u ∈ l → ∃ c, u = [c] := by
        intro l
        induction l with
        | nil => intro _ h; cases h
        | cons a l ih =>
          intro hl hm
          cases a with
          | csi ps f =>
            rcases List.mem_cons.1 hm with hm | hm
            · cases hm
            · exact ih hl.2 hm
          | text w =>
            rcases List.mem_cons.1 hm with hm | hm
            · cases hm
              obtain ⟨⟨c, h, -⟩, -⟩ := hl
              exact ⟨c, h⟩
            · exact ih hl.2 hm
      obtain ⟨c, rfl⟩ := this bits hb h1
      simp only [List.mem_singleton] at h2
      subst h2
      exact h1
  · intro h
    exact ⟨_, h, by simp⟩

/-- The escape character within a sequence. -/
example : Leftmost CsiSeq [.text ['\x1b'], .csi [] 'm', .text ['['], .text ['m']] ∧ replaceCsi [] "\x1b\x1b[m[m".toList = "\x1b[m".toList := by
  refine ⟨⟨⟨_, rfl, ?_⟩, ⟨?_, by decide⟩, ⟨_, rfl, ?_⟩, ⟨_, rfl, ?_⟩, trivial⟩, by decide⟩
  · rintro ⟨ps, f, -, t, ht⟩
    simp [Bit.written] at ht
  · intro c hc; cases hc
  · rintro ⟨ps, f, -, t, ht⟩
    simp [Bit.written] at ht
  · rintro ⟨ps, f, -, t, ht⟩
    simp [Bit.written] at ht

/-! ### C111 -/

theorem tplTokens_plain {c : Char} (h : c ≠ '\\') (s : Str) : tplTokens (c :: s) = (tplTokens s).map (.chr c :: ·) := by
  rw [tplTokens.eq_def]
  simp only [h, if_false]

theorem tplTokens_esc (c : Char) (s : Str) : tplTokens ('\\' :: c :: s) = (tplTokens s).map (.esc c :: ·) := by
  rw [tplTokens.eq_def]
  simp

theorem tplTokens_text : ∀ (l : Str), '\\' ∉ l → ∀ s, tplTokens (l ++ s) = (tplTokens s).map (l.map TplTok.chr ++ ·) := by
  intro l
  induction l with
  | nil => intro _ s; simp
  | cons a l ih =>
    intro h s
    rw [List.cons_append, tplTokens_plain (fun e => h (by simp [e])), ih (fun hm => h (by simp [hm])), Option.map_map]
    congr 1

theorem dec_single {n : Nat} (h : n ≤ 9) : dec n = [Char.ofNat (48 + n)] := by
  have : ∀ n ∈ List.range 10, dec n = [Char.ofNat (48 + n)] := by decide
  exact this n (by simp; omega)

/-- A digit. -/
def digitChar (n : Nat) : Char := Char.ofNat (48 + n)

/-- The tokens of a part. -/
def Spec.Repl.tokens : Repl → List TplTok
  | .char c => [.chr c]
  | .part n => [.esc (digitChar n)]
  | .named n => .esc 'g' :: .chr '<' :: ((dec n).map TplTok.chr ++ [.chr '>'])
  | .backslash => [.esc '\\']
  | .newline => [.esc 'n']
  | .tab => [.esc 't']
  | .control l _ => [.esc l]
  | .octal a b c => [.esc (digitChar a), .chr (digitChar b), .chr (digitChar c)]
  | .octalDigit n => [.esc '0', .chr (digitChar n)]
  | .null => [.esc '0']
  | .kept c => [.esc c]

/-- The items of a part. -/
def Spec.Repl.items : Repl → List TplItem
  | .char c => [.lit c]
  | .part n => [.ref n]
  | .named n => [.ref n]
  | .backslash => [.lit '\\']
  | .newline => [.lit '\n']
  | .tab => [.lit '\t']
  | .control _ c => [.lit c]
  | .octal a b c => [.lit (Char.ofNat (64 * a + 8 * b + c))]
  | .octalDigit n => [.lit (Char.ofNat n)]
  | .null => [.lit '\x00']
  | .kept c => [.lit '\\', .lit c]

theorem digitChar_facts {n : Nat} (h : n ≤ 9) : digitChar n ≠ '\\' ∧ digitChar n ≠ 'g' ∧ (digitChar n).isDigit = true ∧ tplDigit (digitChar n) = n ∧
    (digitChar n = '0' ↔ n = 0) ∧ (tplOct (digitChar n) = true ↔ n ≤ 7) := by
  have : ∀ n ∈ List.range 10, digitChar n ≠ '\\' ∧ digitChar n ≠ 'g' ∧ (digitChar n).isDigit = true ∧ tplDigit (digitChar n) = n ∧
    (digitChar n = '0' ↔ n = 0) ∧ (tplOct (digitChar n) = true ↔ n ≤ 7) := by decide
  exact this n (by simp; omega)

theorem dec_digitChar {n : Nat} (h : n ≤ 9) : dec n = [digitChar n] := dec_single h

theorem tokens_one {groups : Nat} {x : Repl} (hx : x.Ok groups) (s : Str) : tplTokens (x.written ++ s) = (tplTokens s).map (x.tokens ++ ·) := by
  cases x with
  | char c => exact tplTokens_plain hx s
  | part n =>
    have : Repl.written (.part n) = ['\\', digitChar n] := by
      show '\\' :: dec n = _
      rw [dec_digitChar hx.2.1]
    rw [this]
    exact tplTokens_esc _ s
  | named n =>
    have e : Repl.written (.named n) ++ s = '\\' :: 'g' :: (('<' :: dec n ++ ['>']) ++ s) := by
      simp [Repl.written]
    have hb : '\\' ∉ '<' :: dec n ++ ['>'] := by
      simp only [List.cons_append, List.mem_cons, List.mem_append, List.not_mem_nil, or_false, not_or]
      refine ⟨by decide, ?_, by decide⟩
      intro h
      exact absurd (dec_digit h) (by decide)
    rw [e, tplTokens_esc, tplTokens_text _ hb, Option.map_map]
    congr 1
    funext t
    simp [Repl.tokens]
  | octal a b c =>
    obtain ⟨h1, h2, h3⟩ := hx
    have : Repl.written (.octal a b c) ++ s = '\\' :: digitChar a :: ([digitChar b, digitChar c] ++ s) := by
      show '\\' :: (dec a ++ dec b ++ dec c) ++ s = _
      rw [dec_digitChar (by omega : a ≤ 9), dec_digitChar (by omega : b ≤ 9), dec_digitChar (by omega : c ≤ 9)]
      rfl
    rw [this, tplTokens_esc, tplTokens_text _ (by
      simp only [List.mem_cons, List.not_mem_nil, or_false, not_or]
      exact ⟨(digitChar_facts (by omega : b ≤ 9)).1.symm, (digitChar_facts (by omega : c ≤ 9)).1.symm⟩), Option.map_map]
    rfl
  | octalDigit n =>
    have h9 : n ≤ 9 := Nat.le_trans hx (by decide)
    have : Repl.written (.octalDigit n) ++ s = '\\' :: '0' :: ([digitChar n] ++ s) := by
      show '\\' :: '0' :: dec n ++ s = _
      rw [dec_digitChar h9]
      rfl
    rw [this, tplTokens_esc, tplTokens_text _ (by
      simp only [List.mem_cons, List.not_mem_nil, or_false]
      exact (digitChar_facts h9).1.symm), Option.map_map]
    rfl
  | backslash => exact tplTokens_esc _ s
  | newline => exact tplTokens_esc _ s
  | tab => exact tplTokens_esc _ s
  | control l c => exact tplTokens_esc _ s
  | null => exact tplTokens_esc _ s
  | kept c => exact tplTokens_esc _ s

theorem tokens_written (groups : Nat) : ∀ (l : List Repl) (s : Str), Repl.Fine groups l →
    tplTokens (l.flatMap Repl.written ++ s) = (tplTokens s).map (l.flatMap Repl.tokens ++ ·) := by
  intro l s
  induction l with
  | nil => intro _; simp
  | cons x l ih =>
    intro hf
    rw [List.flatMap_cons, List.append_assoc, tokens_one hf.1, ih hf.2.2, Option.map_map]
    congr 1
    funext t
    simp

theorem tplUntil_text : ∀ (l : Str), '>' ∉ l → ∀ r, tplUntil (l.map TplTok.chr ++ .chr '>' :: r) = some (l, r) := by
  intro l
  induction l with
  | nil => intro _ r; rfl
  | cons a l ih =>
    intro h r
    have ha : a ≠ '>' := fun e => h (by simp [e])
    rw [List.map_cons, List.cons_append, tplUntil.eq_def]
    simp only [ha, if_false]
    rw [ih (fun hm => h (by simp [hm]))]
    rfl

theorem tplEsc_named {toInt : Str → Option Int} (hi : ∀ n : Nat, toInt (dec n) = some (n : Int)) {groups n : Nat} (r : List TplTok) :
    tplEsc toInt groups 'g' (.chr '<' :: ((dec n).map TplTok.chr ++ .chr '>' :: r)) = if groups < n then none else some ([.ref n], r) := by
  unfold tplEsc
  rw [if_pos rfl]
  have hb : '>' ∉ dec n := fun h => absurd (dec_digit h) (by decide)
  simp only
  rw [tplUntil_text _ hb]
  simp only [dec_ne_nil, if_false, hi]
  have : ¬ ((n : Int) < 0) := by omega
  simp only [this, if_false, Int.toNat_natCast, tplGroup]
  split <;> rfl

/-- A digit does not follow. -/
def NoDigitNext (r : List TplTok) : Prop := ∀ c r', r = .chr c :: r' → c.isDigit = false

theorem tplEsc_part (toInt : Str → Option Int) {groups n : Nat} (h1 : 1 ≤ n) (h9 : n ≤ 9) {r : List TplTok} (hr : NoDigitNext r) :
    tplEsc toInt groups (digitChar n) r = if groups < n then none else some ([.ref n], r) := by
  obtain ⟨-, e1, e3, e4, e0, -⟩ := digitChar_facts h9
  have e2 : digitChar n ≠ '0' := fun h => by have := e0.1 h; omega
  unfold tplEsc
  rw [if_neg e1, if_neg e2, if_pos e3, e4]
  cases r with
  | nil => simp only [tplGroup]; split <;> rfl
  | cons x r =>
    cases x with
    | esc c => simp only [tplGroup]; split <;> rfl
    | chr c =>
      have := hr c r rfl
      simp only [this, Bool.false_eq_true, if_false, tplGroup]
      split <;> rfl

/-- No octal digit follows. -/
def NoOctNext (r : List TplTok) : Prop := ∀ c r', r = .chr c :: r' → tplOct c = false

theorem tplOct_iff (c : Char) : tplOct c = true ↔ '0' ≤ c ∧ c ≤ '7' := by
  unfold tplOct
  simp only [Bool.and_eq_true, decide_eq_true_eq]
  rfl

theorem tplEsc_null (toInt : Str → Option Int) (groups : Nat) {r : List TplTok} (hr : NoOctNext r) :
    tplEsc toInt groups '0' r = some ([.lit '\x00'], r) := by
  unfold tplEsc
  rw [if_neg (by decide), if_pos rfl]
  cases r with
  | nil => rfl
  | cons x r =>
    cases x with
    | esc c => rfl
    | chr c => simp only [hr c r rfl, Bool.false_eq_true, if_false]

theorem tplEsc_octalDigit (toInt : Str → Option Int) (groups : Nat) {n : Nat} (hn : n ≤ 7) {r : List TplTok} (hr : NoOctNext r) :
    tplEsc toInt groups '0' (.chr (digitChar n) :: r) = some ([.lit (Char.ofNat n)], r) := by
  obtain ⟨-, -, -, e4, -, e6⟩ := digitChar_facts (by omega : n ≤ 9)
  unfold tplEsc
  rw [if_neg (by decide), if_pos rfl]
  simp only [e6.2 hn, if_true, e4]
  cases r with
  | nil => rfl
  | cons x r =>
    cases x with
    | esc c => rfl
    | chr c => simp only [hr c r rfl, Bool.false_eq_true, if_false]

theorem tplEsc_octal (toInt : Str → Option Int) (groups : Nat) {a b c : Nat} (ha : a ≤ 7) (hb : b ≤ 7) (hc : c ≤ 7) (r : List TplTok) :
    tplEsc toInt groups (digitChar a) (.chr (digitChar b) :: .chr (digitChar c) :: r) =
      if 255 < 64 * a + 8 * b + c then none else some ([.lit (Char.ofNat (64 * a + 8 * b + c))], r) := by
  obtain ⟨-, a2, a3, a4, a5, a6⟩ := digitChar_facts (by omega : a ≤ 9)
  obtain ⟨-, -, b3, b4, -, b6⟩ := digitChar_facts (by omega : b ≤ 9)
  obtain ⟨-, -, c3, c4, -, c6⟩ := digitChar_facts (by omega : c ≤ 9)
  unfold tplEsc
  rw [if_neg a2]
  by_cases h0 : a = 0
  · subst h0
    rw [if_pos (a5.2 rfl)]
    simp only [b6.2 hb, c6.2 hc, if_true, b4, c4, Nat.mul_zero, Nat.zero_add]
    rw [if_neg (by omega)]
  · rw [if_neg (fun h => h0 (a5.1 h)), if_pos a3]
    simp only [a6.2 ha, b3, b6.2 hb, c6.2 hc, if_true, a4, b4, c4, Bool.and_self]

theorem tplEsc_two (toInt : Str → Option Int) (groups : Nat) {a b : Nat} (h1 : 1 ≤ a) (ha : a ≤ 9) (hb : b ≤ 9) {r : List TplTok}
    (hr : a ≤ 7 → b ≤ 7 → NoOctNext r) :
    tplEsc toInt groups (digitChar a) (.chr (digitChar b) :: r) = if groups < 10 * a + b then none else some ([.ref (10 * a + b)], r) := by
  obtain ⟨-, a2, a3, a4, a5, a6⟩ := digitChar_facts ha
  obtain ⟨-, -, b3, b4, -, b6⟩ := digitChar_facts hb
  have e2 : digitChar a ≠ '0' := fun h => by have := a5.1 h; omega
  unfold tplEsc
  rw [if_neg a2, if_neg e2, if_pos a3]
  simp only [b3, if_true, a4, b4]
  have last : (tplGroup groups (10 * a + b)).map (·, r) = if groups < 10 * a + b then none else some ([TplItem.ref (10 * a + b)], r) := by
    unfold tplGroup
    split <;> rfl
  cases r with
  | nil => exact last
  | cons x r =>
    cases x with
    | esc c => exact last
    | chr c =>
      simp only
      have : (tplOct (digitChar a) && tplOct (digitChar b) && tplOct c) = false := by
        by_cases h : a ≤ 7 ∧ b ≤ 7
        · rw [hr h.1 h.2 c r rfl, Bool.and_false]
        · cases hoa : tplOct (digitChar a)
          · rfl
          · cases hob : tplOct (digitChar b)
            · rfl
            · exact absurd ⟨a6.1 hoa, b6.1 hob⟩ h
      rw [this]
      exact last

theorem tplEsc_control (toInt : Str → Option Int) (groups : Nat) {l c : Char} (h : Repl.Ok groups (.control l c)) (r : List TplTok) :
    tplEsc toInt groups l r = some ([.lit c], r) := by
  have h : (l, c) ∈ [('a', '\x07'), ('b', '\x08'), ('f', '\x0c'), ('r', '\x0d'), ('v', '\x0b')] := h
  simp only [List.mem_cons, List.not_mem_nil, or_false, Prod.mk.injEq] at h
  rcases h with ⟨rfl, rfl⟩ | ⟨rfl, rfl⟩ | ⟨rfl, rfl⟩ | ⟨rfl, rfl⟩ | ⟨rfl, rfl⟩ <;> rfl

theorem tplEsc_kept (toInt : Str → Option Int) (groups : Nat) {c : Char} (h : Repl.Ok groups (.kept c)) (r : List TplTok) :
    tplEsc toInt groups c r = some ([.lit '\\', .lit c], r) := by
  obtain ⟨h1, h2, h3⟩ := h
  have ne : ∀ x : Char, x.isAlpha = true → c ≠ x := by
    rintro x hx rfl
    rw [h1] at hx
    cases hx
  have h0 : c ≠ '0' := by
    rintro rfl
    exact absurd h2 (by decide)
  unfold tplEsc tplEscape
  simp [ne 'g' (by decide), ne 'a' (by decide), ne 'b' (by decide), ne 'f' (by decide), ne 'n' (by decide), ne 'r' (by decide), ne 't' (by decide),
    ne 'v' (by decide), h0, h1, h2, h3]

theorem tokens_next {P : Char → Prop} {l : List Repl} (h : ∀ c r', l = .char c :: r' → P c) {ts : List TplTok} (ht : ∀ c r', ts = .chr c :: r' → P c) :
    ∀ c r', l.flatMap Repl.tokens ++ ts = .chr c :: r' → P c := by
  cases l with
  | nil => exact ht
  | cons x l =>
    intro c r' e
    cases x with
    | char d =>
      have := h d l rfl
      simp only [List.flatMap_cons, Repl.tokens, List.cons_append, List.nil_append, List.cons.injEq, TplTok.chr.injEq] at e
      rw [← e.1]
      exact this
    | _ => simp [List.flatMap_cons, Repl.tokens] at e

theorem noOct_of_noDigit {ts : List TplTok} (h : NoDigitNext ts) : NoOctNext ts := by
  intro c r' e
  have h1 := h c r' e
  have : ¬ tplOct c = true := by
    intro ho
    unfold tplOct at ho
    simp only [Bool.and_eq_true, decide_eq_true_eq] at ho
    have : c.isDigit = true := by
      rw [isDigit_iff]
      omega
    rw [h1] at this
    cases this
  simpa using this

theorem oct_false {c : Char} (h : ¬ ('0' ≤ c ∧ c ≤ '7')) : tplOct c = false := by
  have : ¬ tplOct c = true := fun ho => h ((tplOct_iff c).1 ho)
  simpa using this

theorem parse_fine {toInt : Str → Option Int} (hi : ∀ n : Nat, toInt (dec n) = some (n : Int)) (groups : Nat) {ts : List TplTok} (ht : NoDigitNext ts) :
    ∀ (l : List Repl), Repl.Fine groups l → ∀ n, (l.flatMap Repl.tokens ++ ts).length ≤ n →
    ∃ m, ts.length ≤ m ∧ tplParse toInt groups n (l.flatMap Repl.tokens ++ ts) = (tplParse toInt groups m ts).map (l.flatMap Repl.items ++ ·) := by
  intro l
  induction l with
  | nil => intro _ n hn; exact ⟨n, by simpa using hn, by simp⟩
  | cons x l ih =>
    intro hf n hn
    obtain ⟨hx, hd, hl⟩ := hf
    have step : ∀ {c : Char} {rest : List TplTok} {k : Nat}, tplEsc toInt groups c rest = some (x.items, l.flatMap Repl.tokens ++ ts) →
        (l.flatMap Repl.tokens ++ ts).length ≤ k →
        ∃ m, ts.length ≤ m ∧ tplParse toInt groups (k + 1) (.esc c :: rest) = (tplParse toInt groups m ts).map ((x :: l).flatMap Repl.items ++ ·) := by
      intro c rest k h hk
      obtain ⟨m, hm, e⟩ := ih hl k hk
      refine ⟨m, hm, ?_⟩
      rw [tplParse.eq_def]
      simp only [h, e, Option.map_map]
      congr 1
      funext t
      simp
    rw [List.flatMap_cons, List.append_assoc, List.length_append] at hn
    rw [List.flatMap_cons, List.append_assoc]
    cases n with
    | zero =>
      exfalso
      have : 0 < x.tokens.length := by cases x <;> simp [Repl.tokens]
      omega
    | succ n =>
      have hn' : (l.flatMap Repl.tokens ++ ts).length ≤ n := by
        have : 0 < x.tokens.length := by cases x <;> simp [Repl.tokens]
        omega
      cases x with
      | char c =>
        obtain ⟨m, hm, e⟩ := ih hl n hn'
        refine ⟨m, hm, ?_⟩
        show tplParse toInt groups (n + 1) (.chr c :: (l.flatMap Repl.tokens ++ ts)) = _
        rw [tplParse.eq_def]
        simp only [e, Option.map_map]
        rfl
      | part k =>
        obtain ⟨h1, h9, hg⟩ := hx
        refine step (c := digitChar k) ?_ hn'
        show tplEsc toInt groups _ (l.flatMap Repl.tokens ++ ts) = _
        rw [tplEsc_part toInt h1 h9 (tokens_next (P := fun c => c.isDigit = false) hd ht), if_neg (by omega)]
        rfl
      | named k =>
        refine step (c := 'g') ?_ hn'
        have := tplEsc_named hi (groups := groups) (n := k) (l.flatMap Repl.tokens ++ ts)
        rw [if_neg (by have : k ≤ groups := hx; omega)] at this
        rw [← show _ = some (Repl.items (.named k), l.flatMap Repl.tokens ++ ts) from this]
        simp
      | backslash => exact step (c := '\\') rfl hn'
      | newline => exact step (c := 'n') rfl hn'
      | tab => exact step (c := 't') rfl hn'
      | control k c => exact step (c := k) (tplEsc_control toInt groups hx _) hn'
      | octal a b c =>
        refine step (c := digitChar a) ?_ hn'
        obtain ⟨h1, h2, h3⟩ := hx
        show tplEsc toInt groups _ (.chr (digitChar b) :: .chr (digitChar c) :: (l.flatMap Repl.tokens ++ ts)) = _
        rw [tplEsc_octal toInt groups (by omega) h2 h3, if_neg (by omega)]
        rfl
      | octalDigit k =>
        refine step (c := '0') ?_ hn'
        exact tplEsc_octalDigit toInt groups hx (tokens_next (P := fun c => tplOct c = false) (fun c r' e => oct_false (hd c r' e)) (noOct_of_noDigit ht))
      | null =>
        refine step (c := '0') ?_ hn'
        exact tplEsc_null toInt groups (tokens_next (P := fun c => tplOct c = false) (fun c r' e => oct_false (hd c r' e)) (noOct_of_noDigit ht))
      | kept c => exact step (c := c) (tplEsc_kept toInt groups hx _) hn'

/-- A well-formed replacement is understood. -/
theorem parse_written {toInt : Str → Option Int} (hi : ∀ n : Nat, toInt (dec n) = some (n : Int)) (groups : Nat) (l : List Repl) (hl : Repl.Fine groups l) :
    parseTemplate toInt groups (l.flatMap Repl.written) = some (l.flatMap Repl.items) := by
  have := tokens_written groups l [] hl
  rw [List.append_nil, show tplTokens [] = some [] from rfl, Option.map_some, List.append_nil] at this
  unfold parseTemplate
  rw [this]
  obtain ⟨m, -, e⟩ := parse_fine hi groups (ts := []) (by intro c r' h; cases h) l hl (l.flatMap Repl.tokens).length (by simp)
  rw [List.append_nil] at e
  show tplParse toInt groups _ _ = _
  rw [e]
  cases m <;> simp [tplParse]

theorem filled_meaning (l : List Repl) (ps : Str) (f : Char) : filled (l.flatMap Repl.items) ps f = l.flatMap (Repl.meaning (seqPart ps f)) := by
  unfold filled
  rw [List.flatMap_assoc]
  congr 1
  funext x
  cases x <;> simp [Repl.items, Repl.meaning]

/-- C111: each sequence is replaced by what the replacement stands for, everything else is kept. -/
theorem C111_csi {toInt : Str → Option Int} (hi : ∀ n : Nat, toInt (dec n) = some (n : Int)) (l : List Repl) (hl : Repl.Fine 5 l)
    (bits : List Bit) (hb : Leftmost CsiSeq bits) :
    ReplaceCSI toInt (l.flatMap Repl.written) (bits.flatMap Bit.written) = some (bits.flatMap fun
      | .text s => s
      | .csi ps f => l.flatMap (Repl.meaning (seqPart ps f))) := by
  unfold ReplaceCSI
  rw [parse_written hi 5 l hl, Option.map_some, (C77_csi_any _).2 bits hb rfl]
  simp only [filled_meaning]

theorem C111_sgr {toInt : Str → Option Int} (hi : ∀ n : Nat, toInt (dec n) = some (n : Int)) (l : List Repl) (hl : Repl.Fine 5 l)
    (bits : List Bit) (hb : Leftmost SgrSeq bits) :
    ReplaceSGR toInt (l.flatMap Repl.written) (bits.flatMap Bit.written) = some (bits.flatMap fun
      | .text s => s
      | .csi ps f => l.flatMap (Repl.meaning (seqPart ps f))) := by
  unfold ReplaceSGR
  rw [parse_written hi 5 l hl, Option.map_some, (C77_sgr_any _).2 bits hb rfl]
  simp only [filled_meaning]

theorem parse_then {toInt : Str → Option Int} (hi : ∀ n : Nat, toInt (dec n) = some (n : Int)) (groups : Nat) (l : List Repl) (hl : Repl.Fine groups l)
    {rest : Str} (hr : ∀ ts, tplTokens rest = some ts → NoDigitNext ts ∧ ∀ m, tplParse toInt groups m ts = none) :
    parseTemplate toInt groups (l.flatMap Repl.written ++ rest) = none := by
  unfold parseTemplate
  rw [tokens_written groups l rest hl]
  cases ht : tplTokens rest with
  | none => rfl
  | some ts =>
    obtain ⟨h1, h2⟩ := hr ts ht
    obtain ⟨m, -, e⟩ := parse_fine hi groups h1 l hl _ (le_refl _)
    show tplParse toInt groups _ _ = none
    rw [e, h2 m]
    rfl

theorem tplParse_esc_none {toInt : Str → Option Int} {groups : Nat} {c : Char} {r : List TplTok} (h : tplEsc toInt groups c r = none) (m : Nat) :
    tplParse toInt groups m (.esc c :: r) = none := by
  cases m with
  | zero => rfl
  | succ m => rw [tplParse.eq_def]; simp only [h]

theorem tokens_head {P : Char → Prop} {s : Str} {ts : List TplTok} (h : tplTokens s = some ts) (hd : ∀ c ∈ s.head?, P c) :
    ∀ c r', ts = .chr c :: r' → P c := by
  intro c r' e
  subst e
  cases s with
  | nil => cases h
  | cons a s =>
    by_cases ha : a = '\\'
    · subst ha
      cases s with
      | nil => cases h
      | cons b s =>
        rw [tplTokens_esc, Option.map_eq_some_iff] at h
        obtain ⟨_, _, h⟩ := h
        cases h
    · rw [tplTokens_plain ha, Option.map_eq_some_iff] at h
      obtain ⟨_, _, h⟩ := h
      simp only [List.cons.injEq, TplTok.chr.injEq] at h
      rw [← h.1]
      exact hd a rfl

/-- Errors in replacements. -/
theorem parse_bad {toInt : Str → Option Int} (hi : ∀ n : Nat, toInt (dec n) = some (n : Int)) (groups : Nat) (l : List Repl) (hl : Repl.Fine groups l)
    (rest : Str) (hb : BadRepl groups rest) : parseTemplate toInt groups (l.flatMap Repl.written ++ rest) = none := by
  refine parse_then hi groups l hl fun ts ht => ?_
  cases hb with
  | last => cases ht
  | part n s h9 hg hd =>
    rw [dec_digitChar h9] at ht
    rw [show '\\' :: ([digitChar n] ++ s) = '\\' :: digitChar n :: s from rfl, tplTokens_esc, Option.map_eq_some_iff] at ht
    obtain ⟨r, hr, rfl⟩ := ht
    refine ⟨(by intro c r' e; cases e), tplParse_esc_none ?_⟩
    rw [tplEsc_part toInt (by omega) h9 (tokens_head (P := fun c => c.isDigit = false) hr hd), if_pos hg]
  | two a b s h1 ha hb hg hd =>
    rw [dec_digitChar ha, dec_digitChar hb] at ht
    rw [show '\\' :: ([digitChar a] ++ [digitChar b] ++ s) = '\\' :: digitChar a :: digitChar b :: s from rfl, tplTokens_esc,
      tplTokens_plain (digitChar_facts hb).1, Option.map_map, Option.map_eq_some_iff] at ht
    obtain ⟨r, hr, rfl⟩ := ht
    refine ⟨(by intro c r' e; cases e), tplParse_esc_none ?_⟩
    rw [tplEsc_two toInt groups h1 ha hb (fun h7 h8 => tokens_head (P := fun c => tplOct c = false) hr fun c hc => oct_false (hd h7 h8 c hc)), if_pos hg]
  | octal a b c s h4 ha hb hc =>
    rw [dec_digitChar (by omega : a ≤ 9), dec_digitChar (by omega : b ≤ 9), dec_digitChar (by omega : c ≤ 9)] at ht
    rw [show '\\' :: ([digitChar a] ++ [digitChar b] ++ [digitChar c] ++ s) = '\\' :: digitChar a :: digitChar b :: digitChar c :: s from rfl, tplTokens_esc,
      tplTokens_plain (digitChar_facts (by omega : b ≤ 9)).1, tplTokens_plain (digitChar_facts (by omega : c ≤ 9)).1, Option.map_map, Option.map_map,
      Option.map_eq_some_iff] at ht
    obtain ⟨r, hr, rfl⟩ := ht
    refine ⟨(by intro c r' e; cases e), tplParse_esc_none ?_⟩
    have := tplEsc_octal toInt groups ha hb hc r
    rw [if_pos (by omega)] at this
    exact this
  | named n s hg =>
    have e : '\\' :: 'g' :: '<' :: (dec n ++ '>' :: s) = '\\' :: 'g' :: (('<' :: dec n ++ ['>']) ++ s) := by simp
    have hb : '\\' ∉ '<' :: dec n ++ ['>'] := by
      simp only [List.cons_append, List.mem_cons, List.mem_append, List.not_mem_nil, or_false, not_or]
      refine ⟨by decide, ?_, by decide⟩
      intro h
      exact absurd (dec_digit h) (by decide)
    rw [e, tplTokens_esc, tplTokens_text _ hb, Option.map_map, Option.map_eq_some_iff] at ht
    obtain ⟨r, hr, rfl⟩ := ht
    refine ⟨(by intro c r' e; cases e), tplParse_esc_none ?_⟩
    have := tplEsc_named hi (groups := groups) (n := n) r
    rw [if_pos hg] at this
    rw [← this]
    simp
  | letter c s hc hn =>
    rw [tplTokens_esc, Option.map_eq_some_iff] at ht
    obtain ⟨r, hr, rfl⟩ := ht
    refine ⟨(by intro c r' e; cases e), tplParse_esc_none ?_⟩
    simp only [List.mem_cons, List.not_mem_nil, or_false, not_or] at hn
    have hd : c.isDigit = false := by
      have : ¬ c.isDigit = true := by
        rw [isDigit_iff]
        rw [isAlpha_iff] at hc
        omega
      simpa using this
    have h0 : c ≠ '0' := by rintro rfl; exact absurd hc (by decide)
    have hb : c ≠ '\\' := by rintro rfl; exact absurd hc (by decide)
    unfold tplEsc tplEscape
    simp [hn, hd, h0, hb, hc]

/-- C111: such a replacement is refused, even if there is nothing to replace. -/
theorem C111_refused {toInt : Str → Option Int} (hi : ∀ n : Nat, toInt (dec n) = some (n : Int)) (l : List Repl) (rest : Str) :
    (Repl.Fine 5 l → BadRepl 5 rest → ∀ s, ReplaceSGR toInt (l.flatMap Repl.written ++ rest) s = none ∧ ReplaceCSI toInt (l.flatMap Repl.written ++ rest) s = none) ∧
    (Repl.Fine 0 l → BadRepl 0 rest → ∀ repl : Bytes, (repl.map fun b => Char.ofNat b.toNat) = l.flatMap Repl.written ++ rest →
      ∀ s, ReplaceNonAsciiBytes toInt repl s = none) := by
  refine ⟨fun hl hb s => ?_, fun hl hb repl hr s => ?_⟩
  · unfold ReplaceSGR ReplaceCSI
    rw [parse_bad hi 5 l hl rest hb]
    exact ⟨rfl, rfl⟩
  · unfold ReplaceNonAsciiBytes
    rw [hr, parse_bad hi 0 l hl rest hb]
    rfl

/-! ### Whitespace and bytes -/

theorem repl_snoc {groups : Nat} (hg : 1 ≤ groups) : ∀ (l : List Repl), Repl.Fine groups l → Repl.Fine groups (l ++ [.part 1]) := by
  intro l
  induction l with
  | nil => intro _; exact ⟨⟨by decide, by decide, hg⟩, (by intro c r' h; cases h), trivial⟩
  | cons x l ih =>
    rintro ⟨h1, h2, h3⟩
    refine ⟨h1, ?_, ih h3⟩
    intro c r' e
    cases l with
    | nil => cases e
    | cons y l =>
      have e' : y :: (l ++ [Repl.part 1]) = Repl.char c :: r' := e
      injection e' with e1 e2
      exact h2 c l (by rw [e1])

theorem expand_meaning (l : List Repl) (m : Match Char) : expandTpl (l.flatMap Repl.items) m =
    l.flatMap (Repl.meaning fun n => if n = 0 then m.text else (m.group n).getD []) := by
  unfold expandTpl
  rw [List.flatMap_assoc]
  congr 1
  funext x
  cases x <;> simp [Repl.items, Repl.meaning]

/-- C111: every whitespace character is replaced, a line feed is kept after its replacement; part 0 is the character, part 1 the line feed. -/
theorem C111_space {toInt : Str → Option Int} (hi : ∀ n : Nat, toInt (dec n) = some (n : Int)) (l : List Repl) (hl : Repl.Fine 1 l) (s : Str) :
    VisualuzeWhitespace toInt (l.flatMap Repl.written) s = some (s.flatMap fun c =>
      if c = '\n' then l.flatMap (Repl.meaning fun _ => ['\n']) ++ ['\n']
      else if IsWhitespace c then l.flatMap (Repl.meaning fun n => if n = 0 then [c] else []) else [c]) := by
  unfold VisualuzeWhitespace
  have e : l.flatMap Repl.written ++ ['\\', '1'] = (l ++ [Repl.part 1]).flatMap Repl.written := by
    rw [List.flatMap_append]
    rfl
  rw [e, parse_written hi 1 _ (repl_snoc (by decide) l hl), Option.map_some]
  congr 1
  have hm : ∀ l : List Repl, Repl.Fine 1 l → l.flatMap (Repl.meaning fun n => if n = 0 then ['\n'] else if n = 1 then ['\n'] else []) =
      l.flatMap (Repl.meaning fun _ => ['\n']) := by
    intro l
    induction l with
    | nil => intro _; rfl
    | cons x l ih =>
      intro h
      obtain ⟨h1, -, h3⟩ := h
      rw [List.flatMap_cons, List.flatMap_cons, ih h3]
      cases x with
      | part n =>
        have h1 : 1 ≤ n ∧ n ≤ 9 ∧ n ≤ 1 := h1
        have : n = 1 := by omega
        subst this
        rfl
      | named n =>
        have h1 : n ≤ 1 := h1
        have : n = 0 ∨ n = 1 := by omega
        rcases this with rfl | rfl <;> rfl
      | _ => rfl
  have hg : ∀ (n : Nat), (Match.group (⟨['\n'], [(1, ['\n'])]⟩ : Match Char) n).getD [] = if n = 1 then ['\n'] else [] := by
    intro n
    unfold Match.group
    by_cases h : n = 1
    · subst h; rfl
    · have : ¬ 1 = n := fun h' => h h'.symm
      simp [h, this]
  induction s with
  | nil => rfl
  | cons a s ih =>
    rw [List.flatMap_cons]
    have e : (a :: s).take ((a :: s).length - s.length) = [a] := by
      simp only [List.length_cons]
      rw [show s.length + 1 - s.length = 1 by omega]; rfl
    by_cases h1 : a = '\n'
    · subst h1
      have : whitespaceRegexp.first ('\n' :: s) = some (⟨['\n'], [(1, ['\n'])]⟩, s) := by
        simp only [whitespaceRegexp, Re.first, Re.run, beq_self_eq_true, if_true, List.map_cons, List.map_nil, e, List.cons_append, List.head?_cons, Option.map_some]
      rw [sub_some _ _ _ this (by simp), ih, if_pos rfl, expand_meaning, List.flatMap_append]
      simp only [hg]
      rw [hm l hl]
      rfl
    · rw [if_neg h1]
      by_cases h2 : isPySpace a = true
      · have : whitespaceRegexp.first (a :: s) = some (⟨[a], []⟩, s) := by
          simp [whitespaceRegexp, Re.first, Re.run, h1, h2]
        rw [sub_some _ _ _ this (by simp), ih, if_pos ((pySpace_iff a).1 h2), expand_meaning, List.flatMap_append]
        simp [Match.group, Repl.meaning]
      · have : whitespaceRegexp.first (a :: s) = none := by
          simp [whitespaceRegexp, Re.first, Re.run, h1, h2]
        rw [sub_none _ _ _ _ this, ih, if_neg (fun h => h2 ((pySpace_iff a).2 h))]
        rfl

theorem chars_fine {groups : Nat} (r : Str) : '\\' ∉ r → Repl.Fine groups (r.map Repl.char) := by
  induction r with
  | nil => intro _; trivial
  | cons a r ih => intro h; exact ⟨fun e => h (by simp [e]), fun _ _ _ => trivial, ih fun hm => h (by simp [hm])⟩

theorem chars_flatMap (f : Repl → Str) (hf : ∀ c, f (.char c) = [c]) (r : Str) : (r.map Repl.char).flatMap f = r := by
  induction r with
  | nil => rfl
  | cons a r ih => rw [List.map_cons, List.flatMap_cons, ih, hf]; rfl

/-- C79: whitespace is replaced by a text without backslashes as it is. -/
theorem C79_whitespace_partial {toInt : Str → Option Int} (hi : ∀ n : Nat, toInt (dec n) = some (n : Int)) (repl : Str) (hr : '\\' ∉ repl) (s : Str) :
    VisualuzeWhitespace toInt repl s = some (s.flatMap fun c => if c = '\n' then repl ++ ['\n'] else if IsWhitespace c then repl else [c]) := by
  have := C111_space hi (repl.map Repl.char) (chars_fine repl hr) s
  rw [chars_flatMap Repl.written (fun _ => rfl)] at this
  rw [this]
  simp only [chars_flatMap (Repl.meaning _) (fun _ => rfl)]

example : VisualuzeWhitespace (fun _ => none) "·".toList "1. D\n2.\tL ".toList = some "1.·D·\n2.·L·".toList := by decide +kernel

/-- C79: with a backslash as the replacement line feeds are lost. -/
theorem C79_negation : ¬ ∀ (toInt : Str → Option Int) (repl s out : Str), VisualuzeWhitespace toInt repl s = some out → '\n' ∈ s → '\n' ∈ out := by
  intro h
  have := h (fun _ => none) ['\\'] "a\nb".toList "a\\1b".toList (by decide) (by decide)
  revert this
  decide

theorem byte_char (b : Byte) : UInt8.ofNat (Char.ofNat b.toNat).toNat = b := by
  have h : b.toNat < 256 := b.toNat_lt
  have hv : Nat.isValidChar b.toNat := Or.inl (by omega)
  show UInt8.ofNat (Char.ofNat b.toNat).toNat = b
  rw [Char.ofNat, dif_pos hv]
  show UInt8.ofNat (Char.ofNatAux b.toNat hv).toNat = b
  have : (Char.ofNatAux b.toNat hv).toNat = b.toNat := rfl
  rw [this]
  exact UInt8.ofNat_toNat

/-- C111: the bytes from 128 on are replaced; part 0 is the byte. -/
theorem C111_bytes {toInt : Str → Option Int} (hi : ∀ n : Nat, toInt (dec n) = some (n : Int)) (l : List Repl) (hl : Repl.Fine 0 l) (repl : Bytes)
    (hr : (repl.map fun b => Char.ofNat b.toNat) = l.flatMap Repl.written) (s : Bytes) :
    ReplaceNonAsciiBytes toInt repl s = some (s.flatMap fun b =>
      if b.toNat < 128 then [b] else (l.flatMap (Repl.meaning fun _ => [Char.ofNat b.toNat])).map fun c => UInt8.ofNat c.toNat) := by
  unfold ReplaceNonAsciiBytes
  rw [hr, parse_written hi 0 l hl, Option.map_some]
  congr 1
  have hm : ∀ (b : Byte) (l : List Repl), Repl.Fine 0 l → expandBytes (l.flatMap Repl.items) ⟨[b], []⟩ =
      (l.flatMap (Repl.meaning fun _ => [Char.ofNat b.toNat])).map fun c => UInt8.ofNat c.toNat := by
    intro b l
    unfold expandBytes
    induction l with
    | nil => intro _; rfl
    | cons x l ih =>
      intro h
      obtain ⟨h1, -, h3⟩ := h
      rw [List.flatMap_cons, List.flatMap_append, List.flatMap_cons, List.map_append, ih h3]
      congr 1
      cases x with
      | part n =>
        have h1 : 1 ≤ n ∧ n ≤ 9 ∧ n ≤ 0 := h1
        omega
      | named n =>
        have : n = 0 := Nat.le_zero.1 h1
        subst this
        simp [Repl.items, Repl.meaning, byte_char b]
      | _ => simp [Repl.items, Repl.meaning]
  induction s with
  | nil => rfl
  | cons b s ih =>
    rw [List.flatMap_cons]
    by_cases h : b.toNat < 128
    · rw [if_pos h, sub_none, ih]
      · rfl
      · have : ¬ 128 ≤ b.toNat := by omega
        simp [Re.first, Re.run, this]
    · rw [if_neg h]
      have h255 : b.toNat ≤ 255 := by have := b.toNat_lt; omega
      have : (Re.cls fun b : Byte => 0x80 ≤ b.toNat && b.toNat ≤ 0xff : Re Byte).first (b :: s) = some (⟨[b], []⟩, s) := by
        have h1 : 128 ≤ b.toNat := by omega
        simp [Re.first, Re.run, h1, h255]
      rw [sub_some _ _ _ this (by simp), ih, hm b l hl]

/-- C79: bytes are replaced by bytes without backslashes as they are. -/
theorem C79_bytes_partial {toInt : Str → Option Int} (hi : ∀ n : Nat, toInt (dec n) = some (n : Int)) (repl : Bytes) (hr : 0x5c ∉ repl) (s : Bytes) :
    ReplaceNonAsciiBytes toInt repl s = some (s.flatMap fun b => if b.toNat < 128 then [b] else repl) := by
  have hn : '\\' ∉ repl.map fun b => Char.ofNat b.toNat := by
    intro h
    obtain ⟨b, h1, h2⟩ := List.mem_map.1 h
    have := byte_char b
    rw [h2] at this
    have h3 : b = 0x5c := by rw [← this]; rfl
    rw [h3] at h1
    exact hr h1
  have := C111_bytes hi ((repl.map fun b => Char.ofNat b.toNat).map Repl.char) (chars_fine _ hn) repl (by rw [chars_flatMap _ fun _ => rfl]) s
  rw [this]
  simp only [chars_flatMap (Repl.meaning _) (fun _ => rfl)]
  simp only [List.map_map]
  have e : ((fun c : Char => UInt8.ofNat c.toNat) ∘ fun b : Byte => Char.ofNat b.toNat) = id := by
    funext b
    exact byte_char b
  rw [e, List.map_id]

example : ReplaceNonAsciiBytes (fun _ => none) [63] [65, 0xd0, 0x94, 127, 128] = some [65, 63, 63, 127, 63] := by decide +kernel

/-- C79: filters are applied in their order: the whitespace of a text can be shown after its sequences have been removed. -/
theorem C79_filters_partial {toInt : Str → Option Int} (hi : ∀ n : Nat, toInt (dec n) = some (n : Int)) (repl : Str) (hr : '\\' ∉ repl)
    (bits : List Bit) (h : Leftmost CsiSeq bits) :
    applyFilters (bits.flatMap Bit.written) [ReplaceCSI toInt [], VisualuzeWhitespace toInt repl] =
      some ((bits.flatMap fun | .text s => s | .csi _ _ => []).flatMap fun c =>
        if c = '\n' then repl ++ ['\n'] else if IsWhitespace c then repl else [c]) := by
  unfold applyFilters
  have := C111_csi hi [] trivial bits h
  simp only [List.flatMap_nil] at this
  simp only [List.foldl_cons, List.foldl_nil, Option.bind_some]
  rw [this, Option.bind_some, C79_whitespace_partial hi repl hr]

example : applyFilters "\x1b[1ma\x1b[m b".toList [ReplaceCSI (fun _ => none) [], VisualuzeWhitespace (fun _ => none) "·".toList] = some "a·b".toList ∧
    applyFilters "\x1b[1ma".toList [ReplaceCSI (fun _ => none) "\\".toList, VisualuzeWhitespace (fun _ => none) "·".toList] = none := by decide +kernel

/-- A decimal number. -/
def exampleInt (s : Str) : Option Int := if s = ['0'] then some 0 else if s = ['3'] then some 3 else none

/-- The example of the documentation, and other ways to write replacements. -/
example : ReplaceSGR exampleInt "E\\2\\3\\5".toList "\x1b[31mtest\x1b[39m".toList = some "E[31mtestE[39m".toList ∧
    ReplaceCSI exampleInt "<\\g<3>\\\\\\t\\g<0>>".toList "a\x1b[?25h".toList = some "a<?25\\\t\x1b[?25h>".toList ∧
    ReplaceSGR exampleInt "\\6".toList "no sequence".toList = none ∧ ReplaceSGR exampleInt "\\101\\0\\.".toList "\x1b[m".toList = some "A\x00\\.".toList ∧
    ReplaceNonAsciiBytes exampleInt [0x3f, 0x5c, 0x67, 0x3c, 0x30, 0x3e] [0x41, 0xff] = some [0x41, 0x3f, 0xff] := by decide +kernel

example : Repl.Fine 5 [.char 'E', .part 2, .part 3, .part 5] ∧ [Repl.char 'E', .part 2, .part 3, .part 5].flatMap Repl.written = "E\\2\\3\\5".toList ∧
    BadRepl 5 "\\6.".toList := by
  refine ⟨?_, by decide, BadRepl.part 6 ['.'] (by decide) (by decide) (by decide)⟩
  refine ⟨show 'E' ≠ '\\' by decide, ?_, ⟨by decide, by decide, by decide⟩, ?_, ⟨by decide, by decide, by decide⟩, ?_,
    ⟨by decide, by decide, by decide⟩, ?_, trivial⟩ <;> (intro c r' h; cases h)

/-- Octal numbers: the digit 8 ends them. -/
example : Repl.Fine 5 [.octal 1 0 1, .octalDigit 7, .char '8', .null, .char '9', .kept '.', .control 'r' '\r'] ∧
    [Repl.octal 1 0 1, .octalDigit 7, .char '8', .null, .char '9', .kept '.', .control 'r' '\r'].flatMap Repl.written = "\\101\\078\\09\\.\\r".toList ∧
    [Repl.octal 1 0 1, .octalDigit 7, .char '8', .null, .char '9', .kept '.', .control 'r' '\r'].flatMap (Repl.meaning fun _ => []) =
      "A\x078\x009\\.\r".toList ∧
    BadRepl 5 "\\18x".toList ∧ BadRepl 5 "\\400".toList := by
  refine ⟨?_, by decide, by decide, BadRepl.two 1 8 ['x'] (by decide) (by decide) (by decide) (by decide) (by decide),
    BadRepl.octal 4 0 0 [] (by decide) (by decide) (by decide) (by decide)⟩
  refine ⟨⟨by decide, by decide, by decide⟩, ?_, show 7 ≤ 7 by decide, ?_, show '8' ≠ '\\' by decide, ?_, trivial, ?_, show '9' ≠ '\\' by decide, ?_,
    ⟨by decide, by decide, by decide⟩, ?_, ?_, ?_, trivial⟩
  · intro c r' h; cases h
  · intro c r' h; cases h; show ¬ ('0' ≤ '8' ∧ '8' ≤ '7'); decide
  · intro c r' h; cases h
  · intro c r' h; cases h; show ¬ ('0' ≤ '9' ∧ '9' ≤ '7'); decide
  · intro c r' h; cases h
  · intro c r' h; cases h
  · show ('r', '\r') ∈ _; decide
  · intro c r' h; cases h

end Kolombos
