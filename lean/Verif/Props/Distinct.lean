import Verif.Props.Display
import Verif.Props.Binary
/-
C113: different inputs look different.
-/
set_option linter.unusedSimpArgs false

namespace Kolombos
open Spec

/-! ### Lines with labels -/

/-- A displayed line: no line feed except at the end. -/
def IsInkLine (l : List (Char × Style)) : Prop := ∃ x, l = x ++ [('\n', ({} : Style))] ∧ ∀ c ∈ x, c.1 ≠ '\n'

theorem inkLine_split {x y r r' : List (Char × Style)} (hx : ∀ c ∈ x, c.1 ≠ '\n') (hy : ∀ c ∈ y, c.1 ≠ '\n')
    (h : x ++ ('\n', ({} : Style)) :: r = y ++ ('\n', ({} : Style)) :: r') : x = y ∧ r = r' := by
  induction x generalizing y with
  | nil =>
    cases y with
    | nil => simpa using h
    | cons c y => simp at h; exact absurd (by rw [← h.1]) (hy c (by simp))
  | cons a x ih =>
    cases y with
    | nil => simp at h; exact absurd (by rw [h.1]) (hx a (by simp))
    | cons c y =>
      simp only [List.cons_append, List.cons.injEq] at h
      obtain ⟨e1, e2⟩ := ih (fun c hc => hx c (by simp [hc])) (fun c hc => hy c (by simp [hc])) h.2
      exact ⟨by rw [h.1, e1], e2⟩

/-- Labelled lines can be read back. -/
theorem labelled_inj {L L' : List (List (Char × Style))} (lab : Nat → List (Char × Style)) (h : ∀ l ∈ L, IsInkLine l) (h' : ∀ l ∈ L', IsInkLine l)
    (e : (L.mapIdx fun i l => lab i ++ l).flatten = (L'.mapIdx fun i l => lab i ++ l).flatten) : L = L' := by
  induction L generalizing L' lab with
  | nil =>
    cases L' with
    | nil => rfl
    | cons l L' =>
      obtain ⟨x, rfl, -⟩ := h' l (by simp)
      simp [List.mapIdx_cons] at e
  | cons l L ih =>
    obtain ⟨x, rfl, hx⟩ := h l (by simp)
    cases L' with
    | nil => simp [List.mapIdx_cons] at e
    | cons l' L' =>
      obtain ⟨y, rfl, hy⟩ := h' l' (by simp)
      simp only [List.mapIdx_cons, List.flatten_cons, List.append_assoc, List.append_cancel_left_eq, List.cons_append, List.nil_append] at e
      obtain ⟨e1, e2⟩ := inkLine_split hx hy e
      rw [e1, ih (fun i => lab (i + 1)) (fun l hl => h l (by simp [hl])) (fun l hl => h' l (by simp [hl])) e2]

/-! ### Reading a display -/

/-- The style of separators. -/
def sepInk : Style := { fg := .indexed 255 }

/-- The bytes a character stands for; `tail` are the underlined characters after it.
`none` is a byte whose value is not displayed. -/
def headBytes (s : Settings) (c : Char) (st : Style) (tail : Str) : List (Option Byte) :=
  if c = '\n' ∨ c = '\t' then []
  else if st = kindInk s .utf8 ∧ tail = [] then (enc c).map some
  else if c.toNat < 128 then [some (UInt8.ofNat c.toNat)]
  else if c = 'Ḇ' then [none]
  else if c = 'Ɐ' then
    [(List.range 256).find? (fun n => tail = [hexDigit (n / 16), hexDigit (n % 16)]) |>.map UInt8.ofNat]
  else if c = '⇥' then [some 0x09] else if c = '↵' then [some 0x0a] else if c = '⤓' then [some 0x0b]
  else if c = '↡' then [some 0x0c] else if c = '⇤' then [some 0x0d] else if c = '␣' ∨ c = '·' then [some 0x20]
  else if c = 'Ø' then [some 0x00] else if c = '←' then [some 0x08] else if c = '→' then [some 0x7f]
  else if c = '∌' then [some 0x1b]
  else some 0x1b :: tail.map fun d => some (UInt8.ofNat d.toNat)

/-- Reading from the end: the underlined characters seen, and the bytes after them. -/
def readStep (s : Settings) (x : Char × Style) (a : Str × List (Option Byte)) : Str × List (Option Byte) :=
  if x = ('⢸', sepInk) ∨ x = ('⡇', sepInk) then a
  else if x.2.underline ≠ 0 then (x.1 :: a.1, a.2)
  else ([], headBytes s x.1 x.2 a.1 ++ a.2)

/-- The bytes of a display. -/
def readInk (s : Settings) (x : List (Char × Style)) : List (Option Byte) := (x.foldr (readStep s) ([], [])).2

/-- The bytes of pieces as far as they are displayed. -/
def shownBytes (qs : List (Kind × Bytes)) : List (Option Byte) :=
  qs.flatMap fun q => q.2.map fun b => if q.1 = .binary then none else some b

theorem kindInk_noUnder (s : Settings) (k : Kind) : (kindInk s k).underline = 0 := by
  unfold kindInk
  split
  · rfl
  · split <;> cases k <;> rfl

theorem kindInk_sep (s : Settings) (k : Kind) : kindInk s k ≠ sepInk := by
  unfold kindInk
  split
  · decide
  · split <;> cases k <;> decide

theorem kindInk_utf8 {s : Settings} (hi : ∀ c, s.ignore c = false) {k : Kind} (hk : k ≠ .utf8) : kindInk s k ≠ kindInk s .utf8 := by
  unfold kindInk
  simp only [hi, Bool.false_eq_true, if_false]
  split <;> split <;> cases k <;> first | exact absurd rfl hk | decide

theorem copy_under_eq (st : Style) (i : SgrItem) : (i.copy st).underline = st.underline := by
  cases i <;> unfold SgrItem.copy <;> simp only <;> repeat' split
  all_goals rfl

theorem copied_under_eq (p : Bytes) (st : Style) : (copied p st).underline = st.underline := by
  unfold copied
  generalize sgrItems (numbers (csiParams p)) = l
  induction l generalizing st with
  | nil => rfl
  | cons i l ih => rw [List.foldl_cons, ih, copy_under_eq]

theorem fold_plain (s : Settings) {st : Style} (hu : st.underline = 0) (hs : st ≠ sepInk) (t : Str) (out : List (Option Byte)) :
    (inStyle st t).foldr (readStep s) ([], out) = ([], (t.flatMap fun c => headBytes s c st []) ++ out) := by
  induction t with
  | nil => rfl
  | cons c t ih =>
    rw [inStyle, List.map_cons, List.foldr_cons]
    rw [inStyle] at ih
    rw [ih]
    unfold readStep
    rw [if_neg (by rintro (h | h) <;> exact hs (Prod.mk.inj h).2), if_neg (by simpa using hu)]
    simp

theorem fold_under (s : Settings) {st : Style} (hu : st.underline ≠ 0) (t : Str) (a : Str × List (Option Byte)) :
    (inStyle st t).foldr (readStep s) a = (t ++ a.1, a.2) := by
  induction t with
  | nil => rfl
  | cons c t ih =>
    rw [inStyle, List.map_cons, List.foldr_cons]
    rw [inStyle] at ih
    rw [ih]
    unfold readStep
    rw [if_neg (by rintro (h | h) <;> exact hu (by rw [(Prod.mk.inj h).2]; rfl)), if_pos hu]
    rfl

theorem step_sep (s : Settings) (c : Char) (hc : c = '⢸' ∨ c = '⡇') (a : Str × List (Option Byte)) :
    readStep s (c, { fg := .indexed 255 }) a = a := by
  unfold readStep
  rw [if_pos (by rcases hc with rfl | rfl <;> simp [sepInk])]

theorem step_head (s : Settings) {c : Char} {st : Style} (h1 : c ≠ '⢸') (h2 : c ≠ '⡇') (hu : st.underline = 0) (a : Str × List (Option Byte)) :
    readStep s (c, st) a = ([], headBytes s c st a.1 ++ a.2) := by
  unfold readStep
  rw [if_neg (by rintro (h | h)
                 · exact h1 (Prod.mk.inj h).1
                 · exact h2 (Prod.mk.inj h).1), if_neg (by simpa using hu)]

theorem ascii_back {b : Byte} (h : b.toNat < 128) : (Char.ofNat b.toNat).toNat = b.toNat := by
  have : ∀ n : Nat, n < 128 → (Char.ofNat n).toNat = n := by decide +kernel
  exact this _ h

theorem head_ascii (s : Settings) {st : Style} (hst : st ≠ kindInk s .utf8) {b : Byte} (h : isPrintable b = true) :
    headBytes s (Char.ofNat b.toNat) st [] = [some b] := by
  simp only [isPrintable, between, decide_eq_true_eq] at h
  have hb := ascii_back (b := b) (by omega)
  unfold headBytes
  have e : ∀ c : Char, Char.ofNat b.toNat = c → b.toNat = c.toNat := fun c h => by rw [← h, hb]
  rw [if_neg (by rintro (h' | h')
                 · have := e _ h'; simp at this; omega
                 · have := e _ h'; simp at this; omega),
    if_neg (by simp [hst]), hb, if_pos (by omega)]
  simp

theorem hex_back : ∀ n < 256, (List.range 256).find? (fun m => decide ([hexDigit (n / 16), hexDigit (n % 16)] = [hexDigit (m / 16), hexDigit (m % 16)])) = some n := by
  decide +kernel

theorem head_ctrl (s : Settings) (st : Style) (b : Byte) :
    headBytes s 'Ɐ' st [hexDigit (b.toNat / 16), hexDigit (b.toNat % 16)] = [some b] := by
  unfold headBytes
  rw [if_neg (by decide), if_neg (by simp), if_neg (by decide), if_neg (by decide), if_pos rfl, hex_back _ b.toNat_lt]
  simp

theorem head_esc (s : Settings) (st : Style) {k : Kind} (hk : isEscKind k = true) {t : Bytes} (ht : t ≠ []) (hb : ∀ b ∈ t, between 0x20 0x7e b = true) :
    headBytes s (symbol k) st (asciiChars t) = (0x1b :: t).map some := by
  have hne : asciiChars t ≠ [] := by simpa [asciiChars] using ht
  have key : ∀ c : Char, (128 ≤ c.toNat ∧ c ∉ ['\n', '\t', 'Ḇ', 'Ɐ', '⇥', '↵', '⤓', '↡', '⇤', '␣', '·', 'Ø', '←', '→', '∌']) →
      headBytes s c st (asciiChars t) = some 0x1b :: (asciiChars t).map fun d => some (UInt8.ofNat d.toNat) := by
    intro c ⟨h1, h2⟩
    simp only [List.mem_cons, List.not_mem_nil, or_false, not_or] at h2
    have h3 : ¬ c.toNat < 128 := by omega
    unfold headBytes
    simp only [h2, hne, h3, and_false, or_self, if_false]
  rw [key]
  · simp only [List.map_cons, asciiChars, List.map_map, List.cons.injEq, true_and]
    apply List.map_congr_left
    intro b hm
    have := hb b hm
    simp only [between, decide_eq_true_eq] at this
    simp only [Function.comp]
    rw [ascii_back (by omega)]
    simp
  · cases k <;> first | (cases hk; done) | decide

theorem fold_ctrl {s : Settings} (hl : level s = 2) (p : Bytes) (out : List (Option Byte)) :
    (p.flatMap fun b => ('Ɐ', kindInk s .ctrl) ::
      inStyle { fg := .basic 31, bg := .indexed 16, underline := 1 } (ctrlDetail (level s) b)).foldr (readStep s) ([], out) = ([], p.map some ++ out) := by
  induction p with
  | nil => rfl
  | cons b p ih =>
    simp only [List.flatMap_cons, List.foldr_append, List.foldr_cons]
    rw [ih, fold_under s (by decide), step_head s (by decide) (by decide) (kindInk_noUnder s _)]
    simp only [ctrlDetail, hl, List.append_nil]
    have := head_ctrl s (kindInk s .ctrl) b
    simp at this ⊢
    rw [this]; rfl

/-- What appears for a piece can be read. -/
theorem fold_piece {s : Settings} (hm : 2 ≤ s.marker) (hi : ∀ c, s.ignore c = false) {q : Kind × Bytes} (hw : Wf q.1 q.2) (out : List (Option Byte)) :
    (textInk s q).foldr (readStep s) ([], out) = ([], (q.2.map fun b => if q.1 = .binary then none else some b) ++ out) := by
  obtain ⟨k, p⟩ := q
  simp only at hw
  have hl : level s = 2 := by
    unfold level; rw [if_neg (by omega), if_neg (by omega)]
  unfold textInk
  simp only [hi, Bool.false_eq_true, if_false]
  -- runs of one byte displayed by one symbol
  have hrun : ∀ (k : Kind) (f : Byte → Str) (g : Byte → Option Byte), k ≠ .utf8 →
      (∀ b ∈ p, (f b).flatMap (fun c => headBytes s c (kindInk s k) []) = [g b]) →
      (inStyle (kindInk s k) (p.flatMap f)).foldr (readStep s) ([], out) = ([], p.map g ++ out) := by
    intro k f g hk hf
    rw [fold_plain s (kindInk_noUnder s k) (kindInk_sep s k), List.flatMap_assoc]
    congr 2
    have : ∀ l : Bytes, (∀ b ∈ l, (f b).flatMap (fun c => headBytes s c (kindInk s k) []) = [g b]) →
        (l.flatMap fun b => (f b).flatMap (fun c => headBytes s c (kindInk s k) [])) = l.map g := by
      intro l
      induction l with
      | nil => intro _; rfl
      | cons b l ih =>
        intro h
        rw [List.flatMap_cons, h b (by simp), ih fun b hb => h b (by simp [hb])]
        rfl
    exact this p hf
  have hmap : ∀ (c : Byte → Char), (p.map c) = p.flatMap fun b => [c b] := by
    intro c
    clear hrun hw
    induction p with
    | nil => rfl
    | cons b p ih => rw [List.map_cons, List.flatMap_cons, ih]; rfl
  have hesc : ∀ k, isEscKind k = true → Wf k p →
      ((if enclosed s then
        ('⢸', { fg := .indexed 255 }) :: (symbol k, markerInk s k p) :: (escDetailInk s k p ++ [('⡇', { fg := .indexed 255 })])
        else (symbol k, markerInk s k p) :: escDetailInk s k p) : List (Char × Style)).foldr (readStep s) ([], out) = ([], p.map some ++ out) := by
    intro k hk hw
    obtain ⟨t, rfl, h1, h2⟩ := hw.esc_form hk
    have hd : escDetailInk s k (0x1b :: t) = inStyle (escInk s k (0x1b :: t)) (asciiChars t) := by
      unfold escDetailInk escDetail
      rw [if_neg (by rw [hl]; simp), hl]
      rfl
    have hu : (escInk s k (0x1b :: t)).underline ≠ 0 := by
      unfold escInk
      split
      · split
        · rw [copied_under_eq]; decide
        · decide
      · simp
    have hmu : (markerInk s k (0x1b :: t)).underline = 0 := by
      unfold markerInk
      split
      · rw [copied_under_eq]
      · exact kindInk_noUnder s k
    have hc : symbol k ≠ '⢸' ∧ symbol k ≠ '⡇' := by cases k <;> decide
    have key : ((symbol k, markerInk s k (0x1b :: t)) :: escDetailInk s k (0x1b :: t)).foldr (readStep s) ([], out) = ([], (0x1b :: t).map some ++ out) := by
      rw [List.foldr_cons, hd, fold_under s hu, step_head s hc.1 hc.2 hmu]
      simp only [List.append_nil]
      rw [head_esc s _ hk h1 h2]
    split
    · have e : ([('⡇', { fg := .indexed 255 })] : List (Char × Style)).foldr (readStep s) ([], out) = ([], out) := step_sep s _ (.inr rfl) _
      rw [List.foldr_cons, step_sep s _ (.inl rfl), ← List.cons_append, List.foldr_append, e]
      exact key
    · exact key
  have hone : ∀ (k : Kind) (b0 : Byte), k ≠ .utf8 → k ≠ .binary → (∀ b ∈ p, b = b0) →
      headBytes s (symbol k) (kindInk s k) [] = [some b0] →
      (inStyle (kindInk s k) (p.map fun _ => symbol k)).foldr (readStep s) ([], out) = ([], p.map some ++ out) := by
    intro k b0 h1 h2 h3 h4
    rw [hmap]
    refine hrun k _ _ h1 fun b hb => ?_
    rw [h3 b hb]
    simpa using h4
  have hsym : ∀ (k : Kind) (b0 : Byte), k ≠ .utf8 → (kindInk s k ≠ kindInk s .utf8 → headBytes s (symbol k) (kindInk s k) [] = [some b0]) →
      headBytes s (symbol k) (kindInk s k) [] = [some b0] := fun k b0 h h' => h' (kindInk_utf8 hi h)
  have hall : ∀ (k : Kind) (b0 : Byte), Wf k p → runClass k = some (· == b0) → ∀ b ∈ p, b = b0 := by
    intro k b0 hw hr b hb
    simpa using hw.run_all hr b hb
  cases k with
  | newline =>
    have := hw.newline_eq
    subst this
    have hn := kindInk_utf8 hi (k := .newline) (by decide)
    simp only [List.foldr_cons, List.foldr_nil]
    rw [step_head s (c := '\n') (st := {}) (by decide) (by decide) rfl, step_head s (by decide) (by decide) (kindInk_noUnder s _)]
    have e1 : headBytes s '\n' ({} : Style) [] = [] := by simp [headBytes]
    have e2 : headBytes s '↵' (kindInk s .newline) [] = [some 0x0a] := by
      unfold headBytes; simp only [hn, false_and, if_false]; decide
    simp only [e1, List.nil_append, e2]; rfl
  | ctrl =>
    simp only [reduceCtorEq, if_false]
    exact fold_ctrl hl p out
  | reset => simpa using hesc _ rfl hw
  | sgr => simpa using hesc _ rfl hw
  | csi => simpa using hesc _ rfl hw
  | nF => simpa using hesc _ rfl hw
  | fp => simpa using hesc _ rfl hw
  | fe => simpa using hesc _ rfl hw
  | fs => simpa using hesc _ rfl hw
  | utf8 =>
    obtain ⟨c, h1, rfl⟩ := hw.utf8_eq
    have : textGlyphs s .utf8 (enc c) = [c] := by
      unfold textGlyphs; simp only [hi, Bool.false_eq_true, if_false]; exact utf8Char_enc c h1
    simp only [this]
    rw [fold_plain s (kindInk_noUnder s _) (kindInk_sep s _)]
    have : headBytes s c (kindInk s .utf8) [] = (enc c).map some := by
      unfold headBytes
      rw [if_neg (by rintro (rfl | rfl) <;> exact absurd h1 (by decide)), if_pos ⟨rfl, rfl⟩]
    simp [this]
  | printable =>
    have e : textGlyphs s .printable p = p.flatMap fun b => [Char.ofNat b.toNat] := by
      rw [← hmap]; unfold textGlyphs; simp only [hi, Bool.false_eq_true, if_false]; rfl
    simp only [e, reduceCtorEq, if_false]
    refine hrun .printable _ _ (by decide) fun b hb => ?_
    simpa using head_ascii s (kindInk_utf8 hi (by decide)) (hw.run_all rfl b hb)
  | binary =>
    have e : textGlyphs s .binary p = p.flatMap fun b => [symbol .binary] := by
      rw [← hmap]; unfold textGlyphs; simp only [hi, Bool.false_eq_true, if_false]
    simp only [e, if_true]
    refine hrun .binary _ _ (by decide) fun b hb => ?_
    have hn := kindInk_utf8 hi (k := .binary) (by decide)
    unfold headBytes; simp only [hn, false_and, if_false, List.flatMap_cons]; decide
  | tab =>
    have e : textGlyphs s .tab p = p.flatMap fun b => [symbol .tab, '\t'] := by
      unfold textGlyphs; simp only [hi, Bool.false_eq_true, if_false]
    simp only [e, reduceCtorEq, if_false]
    refine hrun .tab _ _ (by decide) fun b hb => ?_
    rw [hall .tab 0x09 hw rfl b hb]
    have hn := kindInk_utf8 hi (k := .tab) (by decide)
    unfold headBytes; simp only [hn, false_and, if_false, List.flatMap_cons]; decide
  | space =>
    have e : textGlyphs s .space p = p.flatMap fun b => [if s.focus .whitespace then '·' else symbol .space] := by
      rw [← hmap]; unfold textGlyphs; simp only [hi, Bool.false_eq_true, if_false]
    simp only [e, reduceCtorEq, if_false]
    refine hrun .space _ _ (by decide) fun b hb => ?_
    rw [hall .space 0x20 hw rfl b hb]
    have hn := kindInk_utf8 hi (k := .space) (by decide)
    by_cases hf : s.focus .whitespace = true
    · rw [if_pos hf]; unfold headBytes; simp only [hn, false_and, if_false, List.flatMap_cons]; decide
    · rw [if_neg hf]; unfold headBytes; simp only [hn, false_and, if_false, List.flatMap_cons]; decide
  | vertTab =>
    have hn := kindInk_utf8 hi (k := .vertTab) (by decide)
    have e : textGlyphs s .vertTab p = p.map fun _ => symbol .vertTab := by
      unfold textGlyphs; simp only [hi, Bool.false_eq_true, if_false]
    simp only [e, reduceCtorEq, if_false]
    exact hone .vertTab 0x0b (by decide) (by decide) (hall _ _ hw rfl) (by unfold headBytes; simp only [hn, false_and, if_false]; decide)
  | formFeed =>
    have hn := kindInk_utf8 hi (k := .formFeed) (by decide)
    have e : textGlyphs s .formFeed p = p.map fun _ => symbol .formFeed := by
      unfold textGlyphs; simp only [hi, Bool.false_eq_true, if_false]
    simp only [e, reduceCtorEq, if_false]
    exact hone .formFeed 0x0c (by decide) (by decide) (hall _ _ hw rfl) (by unfold headBytes; simp only [hn, false_and, if_false]; decide)
  | carrReturn =>
    have hn := kindInk_utf8 hi (k := .carrReturn) (by decide)
    have e : textGlyphs s .carrReturn p = p.map fun _ => symbol .carrReturn := by
      unfold textGlyphs; simp only [hi, Bool.false_eq_true, if_false]
    simp only [e, reduceCtorEq, if_false]
    exact hone .carrReturn 0x0d (by decide) (by decide) (hall _ _ hw rfl) (by unfold headBytes; simp only [hn, false_and, if_false]; decide)
  | null =>
    have hn := kindInk_utf8 hi (k := .null) (by decide)
    have e : textGlyphs s .null p = p.map fun _ => symbol .null := by
      unfold textGlyphs; simp only [hi, Bool.false_eq_true, if_false]
    simp only [e, reduceCtorEq, if_false]
    exact hone .null 0x00 (by decide) (by decide) (hall _ _ hw rfl) (by unfold headBytes; simp only [hn, false_and, if_false]; decide)
  | backspace =>
    have hn := kindInk_utf8 hi (k := .backspace) (by decide)
    have e : textGlyphs s .backspace p = p.map fun _ => symbol .backspace := by
      unfold textGlyphs; simp only [hi, Bool.false_eq_true, if_false]
    simp only [e, reduceCtorEq, if_false]
    exact hone .backspace 0x08 (by decide) (by decide) (hall _ _ hw rfl) (by unfold headBytes; simp only [hn, false_and, if_false]; decide)
  | delete =>
    have hn := kindInk_utf8 hi (k := .delete) (by decide)
    have e : textGlyphs s .delete p = p.map fun _ => symbol .delete := by
      unfold textGlyphs; simp only [hi, Bool.false_eq_true, if_false]
    simp only [e, reduceCtorEq, if_false]
    exact hone .delete 0x7f (by decide) (by decide) (hall _ _ hw rfl) (by unfold headBytes; simp only [hn, false_and, if_false]; decide)
  | esc =>
    have hn := kindInk_utf8 hi (k := .esc) (by decide)
    have hp : p = [0x1b] := by
      generalize hk : Kind.esc = k at hw
      cases hw with
      | newline => cases hk
      | utf8 => cases hk
      | esc => rfl
      | run h => subst hk; cases h
      | csi e => subst hk; rename_i ps is f _ _ _; have := csiKind_isEsc ps f; rw [← e] at this; cases this
      | seq h => subst hk; cases h
    have e : textGlyphs s .esc p = p.map fun _ => symbol .esc := by
      unfold textGlyphs; simp only [hi, Bool.false_eq_true, if_false]
    simp only [e, reduceCtorEq, if_false]
    exact hone .esc 0x1b (by decide) (by decide) (by simp [hp]) (by unfold headBytes; simp only [hn, false_and, if_false]; decide)

theorem fold_pieces {s : Settings} (hm : 2 ≤ s.marker) (hi : ∀ c, s.ignore c = false) {qs : List (Kind × Bytes)} (hg : GoodPieces qs) (out : List (Option Byte)) :
    (qs.flatMap (textInk s)).foldr (readStep s) ([], out) = ([], shownBytes qs ++ out) := by
  induction qs with
  | nil => rfl
  | cons q qs ih =>
    rw [List.flatMap_cons, List.foldr_append, ih fun q hq => hg q (by simp [hq]), fold_piece hm hi (hg q (by simp)).1]
    simp [shownBytes]

/-- The bytes that can be read from a display in text mode with all details: not those displayed as
`Ḇ`, and not a control character at the very end. -/
def knownBytes (qs : List (Kind × Bytes)) : List (Option Byte) :=
  match qs.getLast? with
  | some (.ctrl, _) => (shownBytes qs).dropLast ++ [none]
  | _ => shownBytes qs

/-- What is lost at the end of an incomplete line. -/
theorem fold_rest {s : Settings} (hm : 2 ≤ s.marker) (hi : ∀ c, s.ignore c = false) {qs : List (Kind × Bytes)} (hg : GoodPieces qs) :
    ((qs.flatMap (textInk s)).take ((qs.flatMap (textInk s)).length - lostAt s qs)).foldr (readStep s) ([], []) = ([], knownBytes qs) := by
  have hl : level s = 2 := by
    unfold level; rw [if_neg (by omega), if_neg (by omega)]
  have h0 : ∀ l : List (Char × Style), l.take (l.length - 0) = l := by intro l; simp
  rcases List.eq_nil_or_concat qs with rfl | ⟨init, ⟨k, p⟩, rfl⟩
  · rfl
  rw [List.concat_eq_append] at hg ⊢
  have hw := hg (k, p) (by simp)
  have hgi : GoodPieces init := fun q hq => hg q (by simp [hq])
  have hlast : (init ++ [(k, p)]).getLast? = some (k, p) := by simp
  unfold lostAt knownBytes
  rw [hlast]
  dsimp only
  have plain : textLost s k = 0 → k ≠ .ctrl →
      (((init ++ [(k, p)]).flatMap (textInk s)).take (((init ++ [(k, p)]).flatMap (textInk s)).length - textLost s k)).foldr (readStep s) ([], []) =
        ([], shownBytes (init ++ [(k, p)])) := by
    intro h _
    rw [h, h0, fold_pieces hm hi hg]; simp
  have hesc : isEscKind k = true → (∀ (t : textLost s k = if enclosed s then 1 else 0), textInk s (k, p) = (if enclosed s then
        ('⢸', { fg := .indexed 255 }) :: (symbol k, markerInk s k p) :: (escDetailInk s k p ++ [('⡇', { fg := .indexed 255 })])
      else (symbol k, markerInk s k p) :: escDetailInk s k p) →
      (((init ++ [(k, p)]).flatMap (textInk s)).take (((init ++ [(k, p)]).flatMap (textInk s)).length - textLost s k)).foldr (readStep s) ([], []) =
        ([], shownBytes (init ++ [(k, p)]))) := by
    intro hk t e
    by_cases he : enclosed s = true
    · rw [if_pos he] at t e
      have e2 : (init ++ [(k, p)]).flatMap (textInk s) =
          (init.flatMap (textInk s) ++ ('⢸', { fg := .indexed 255 }) :: (symbol k, markerInk s k p) :: escDetailInk s k p) ++ [('⡇', { fg := .indexed 255 })] := by
        simp [e]
      have e3 := fold_pieces hm hi hg []
      rw [e2] at e3
      rw [e2, t, List.length_append, List.length_singleton, Nat.add_sub_cancel, List.take_left' rfl]
      have e1 : ([('⡇', { fg := .indexed 255 })] : List (Char × Style)).foldr (readStep s) ([], []) = ([], []) := step_sep s _ (.inr rfl) _
      rw [List.foldr_append, e1] at e3
      rw [e3]; simp
    · rw [if_neg he] at t
      exact plain t (by rintro rfl; cases hk)
  have tl : ∀ f : Nat, textLost s k = f → textLost s k = f := fun _ h => h
  cases k with
  | ctrl =>
    rcases List.eq_nil_or_concat p with rfl | ⟨p0, b, rfl⟩
    · exact absurd rfl hw.1.ne_nil
    rw [List.concat_eq_append] at hg hw hlast plain hesc ⊢
    have t : textLost s .ctrl = 2 := by
      unfold textLost; simp only [hi, Bool.false_eq_true, if_false, hl]
    have e : ∀ p, textInk s (.ctrl, p) = p.flatMap fun b =>
        ('Ɐ', kindInk s .ctrl) :: inStyle { fg := .basic 31, bg := .indexed 16, underline := 1 } (ctrlDetail (level s) b) := by
      intro p; unfold textInk; simp only [hi, Bool.false_eq_true, if_false]
    have e2 : (init ++ [(Kind.ctrl, p0 ++ [b])]).flatMap (textInk s) =
        (init.flatMap (textInk s) ++ textInk s (.ctrl, p0) ++ [('Ɐ', kindInk s .ctrl)]) ++
          inStyle { fg := .basic 31, bg := .indexed 16, underline := 1 } (ctrlDetail (level s) b) := by
      simp [e]
    have e3 : (inStyle { fg := .basic 31, bg := .indexed 16, underline := 1 } (ctrlDetail (level s) b)).length = 2 := by
      simp [inStyle, ctrlDetail, hl]
    have hn := kindInk_utf8 hi (k := .ctrl) (by decide)
    have e4 : ([('Ɐ', kindInk s .ctrl)] : List (Char × Style)).foldr (readStep s) ([], []) = ([], [none]) := by
      rw [List.foldr_cons, List.foldr_nil, step_head s (by decide) (by decide) (kindInk_noUnder s _)]
      unfold headBytes; simp only [hn, false_and, if_false]; decide
    rw [e2, t, List.length_append, e3, Nat.add_sub_cancel, List.take_left' rfl, List.foldr_append, List.foldr_append, e4, e, fold_ctrl hl,
      fold_pieces hm hi hgi]
    simp [shownBytes, ← List.append_assoc]
  | reset => exact hesc rfl (by unfold textLost; simp only [hi, Bool.false_eq_true, if_false]) (by unfold textInk; simp only [hi, Bool.false_eq_true, if_false])
  | sgr => exact hesc rfl (by unfold textLost; simp only [hi, Bool.false_eq_true, if_false]) (by unfold textInk; simp only [hi, Bool.false_eq_true, if_false])
  | csi => exact hesc rfl (by unfold textLost; simp only [hi, Bool.false_eq_true, if_false]) (by unfold textInk; simp only [hi, Bool.false_eq_true, if_false])
  | nF => exact hesc rfl (by unfold textLost; simp only [hi, Bool.false_eq_true, if_false]) (by unfold textInk; simp only [hi, Bool.false_eq_true, if_false])
  | fp => exact hesc rfl (by unfold textLost; simp only [hi, Bool.false_eq_true, if_false]) (by unfold textInk; simp only [hi, Bool.false_eq_true, if_false])
  | fe => exact hesc rfl (by unfold textLost; simp only [hi, Bool.false_eq_true, if_false]) (by unfold textInk; simp only [hi, Bool.false_eq_true, if_false])
  | fs => exact hesc rfl (by unfold textLost; simp only [hi, Bool.false_eq_true, if_false]) (by unfold textInk; simp only [hi, Bool.false_eq_true, if_false])
  | _ => exact plain (by unfold textLost; simp only [hi, Bool.false_eq_true, if_false]) (by decide)

/-- The lines of a display without their labels. -/
def inkBodies (s : Settings) (qs : List (Kind × Bytes)) : List (List (Char × Style)) :=
  (pieceLines qs).1.map (fun l => l.flatMap (textInk s)) ++
    (if (pieceLines qs).2 = [] then [] else [((pieceLines qs).2.flatMap (textInk s)).take
      (((pieceLines qs).2.flatMap (textInk s)).length - lostAt s (pieceLines qs).2) ++ [('\n', ({} : Style))]])

theorem textInk_noNl {s : Settings} (hr : s.readMode.1 = .text) {q : Kind × Bytes} (hw : Wf q.1 q.2 ∧ badPiece q = false) (hq : q.1 ≠ .newline) :
    ∀ c ∈ textInk s q, c.1 ≠ '\n' := by
  intro c hc e
  have h := textInk_fst s q (fun h => absurd h hq)
  rw [if_neg hq, List.append_nil] at h
  have : c.1 ∈ (textInk s q).map Prod.fst := List.mem_map.2 ⟨c, hc, rfl⟩
  rw [h, e] at this
  exact glyphs_noNl hr hw.1 hw.2 this

theorem flatInk_noNl {s : Settings} (hr : s.readMode.1 = .text) {qs : List (Kind × Bytes)} (hg : GoodPieces qs) (hq : ∀ q ∈ qs, q.1 ≠ .newline) :
    ∀ c ∈ qs.flatMap (textInk s), c.1 ≠ '\n' := by
  intro c hc
  obtain ⟨q, h1, h2⟩ := List.mem_flatMap.1 hc
  exact textInk_noNl hr (hg q h1) (hq q h1) c h2

theorem inkBodies_lines {s : Settings} (hr : s.readMode.1 = .text) (hi : ∀ c, s.ignore c = false) {qs : List (Kind × Bytes)} (hg : GoodPieces qs) :
    ∀ l ∈ inkBodies s qs, IsInkLine l := by
  obtain ⟨g1, g2⟩ := pieceLines_good hg
  obtain ⟨-, h2, h3⟩ := pieceLines_spec qs
  intro l hl
  rcases List.mem_append.1 hl with hl | hl
  · obtain ⟨l', hl', rfl⟩ := List.mem_map.1 hl
    obtain ⟨x, ⟨k, p⟩, rfl, h4, h5⟩ := h2 l' hl'
    simp only at h5
    subst h5
    have hp := (g1 _ hl' (.newline, p) (by simp)).1.newline_eq
    simp only at hp
    subst hp
    refine ⟨x.flatMap (textInk s) ++ [('↵', kindInk s .newline)], ?_, ?_⟩
    · have : textInk s (.newline, [0x0a]) = [('↵', kindInk s .newline), ('\n', ({} : Style))] := by
        unfold textInk; simp only [hi, Bool.false_eq_true, if_false]
      simp [this]
    · intro c hc
      rcases List.mem_append.1 hc with hc | hc
      · exact flatInk_noNl hr (fun q hq => g1 _ hl' q (by simp [hq])) h4 c hc
      · rw [List.mem_singleton.1 hc]; exact (by decide : '↵' ≠ '\n')
  · split at hl
    · cases hl
    · rw [List.mem_singleton.1 hl]
      exact ⟨_, rfl, fun c hc => flatInk_noNl hr g2 h3 c (List.mem_of_mem_take hc)⟩

theorem readInk_bodies {s : Settings} (hm : 2 ≤ s.marker) (hi : ∀ c, s.ignore c = false) {qs : List (Kind × Bytes)} (hg : GoodPieces qs) :
    readInk s (inkBodies s qs).flatten = knownBytes qs := by
  obtain ⟨g1, g2⟩ := pieceLines_good hg
  obtain ⟨h1, h2, -⟩ := pieceLines_spec qs
  have hfl : ((pieceLines qs).1.map (fun l => l.flatMap (textInk s))).flatten = ((pieceLines qs).1.flatten).flatMap (textInk s) := by
    generalize (pieceLines qs).1 = L
    induction L with
    | nil => rfl
    | cons l L ih => simp [ih]
  have gf : GoodPieces (pieceLines qs).1.flatten := by
    intro q hq
    obtain ⟨l, hl, hq⟩ := List.mem_flatten.1 hq
    exact g1 l hl q hq
  unfold readInk inkBodies
  by_cases hre : (pieceLines qs).2 = []
  · rw [if_pos hre, List.append_nil, hfl, fold_pieces hm hi gf]
    rw [hre, List.append_nil] at h1
    rw [← h1, List.append_nil]
    have : ∀ p, qs.getLast? ≠ some (.ctrl, p) := by
      intro p hp
      rw [h1] at hp
      rcases List.eq_nil_or_concat (pieceLines qs).1 with h | ⟨a, l, h⟩
      · rw [h] at hp; cases hp
      · obtain ⟨x, q, rfl, -, h4⟩ := h2 l (by rw [h]; simp)
        rw [h] at hp
        simp at hp
        rw [hp] at h4; cases h4
    unfold knownBytes
    split
    · rename_i p h; exact absurd h (this _)
    · rfl
  · rw [if_neg hre, List.flatten_append, hfl, List.foldr_append]
    have e1 : ([('\n', ({} : Style))] : List (Char × Style)).foldr (readStep s) ([], []) = ([], []) := by
      rw [List.foldr_cons, List.foldr_nil, step_head s (by decide) (by decide) rfl]
      simp [headBytes]
    rw [List.flatten_cons, List.flatten_nil, List.append_nil, List.foldr_append, e1, fold_rest hm hi g2, fold_pieces hm hi gf]
    have hs : shownBytes qs = shownBytes (pieceLines qs).1.flatten ++ shownBytes (pieceLines qs).2 := by
      conv => lhs; rw [h1]
      simp [shownBytes]
    have hla : qs.getLast? = (pieceLines qs).2.getLast? := by
      conv => lhs; rw [h1]
      exact List.getLast?_append_of_ne_nil _ hre
    unfold knownBytes
    rw [hla]
    split
    · rename_i p h
      have hne : shownBytes (pieceLines qs).2 ≠ [] := by
        have hmem := List.mem_of_getLast? h
        have := (g2 _ hmem).1.ne_nil
        simp only at this
        intro e
        unfold shownBytes at e
        rw [List.flatMap_eq_nil_iff] at e
        exact this (by simpa using e _ hmem)
      rw [hs, List.dropLast_append_of_ne_nil hne]
      simp
    · rw [hs]

/-! ### C113 -/

/-- C113, text mode with all details: displays that look the same show the same bytes, except for bytes
displayed as `Ḇ` and for a control character at the very end. -/
theorem C113_text (s : Settings) (hm : s.readMode.1 = .text) (hl : 2 ≤ s.marker) (hi : ∀ c, s.ignore c = false)
    (es es' : List ReadEvent) (hco : Complete es) (hr : Readable es) (hco' : Complete es') (hr' : Readable es')
    (term term' : Nat → Int) (fuel fuel' : Nat) (hf : 4 * (delivered es).length < fuel) (hf' : 4 * (delivered es').length < fuel')
    (h : appears (session fuel s term es).out = appears (session fuel' s term' es').out) :
    knownBytes (chunkPieces (es.map (·.data))) = knownBytes (chunkPieces (es'.map (·.data))) := by
  obtain ⟨out, st, h1, h2⟩ := C51_text s hm es hco hr term fuel hf
  obtain ⟨out', st', h1', h2'⟩ := C51_text s hm es' hco' hr' term' fuel' hf'
  rw [h1, h1', h2, h2'] at h
  have hg := runPieces_good hr
  have hg' := runPieces_good hr'
  have := labelled_inj (fun i => labelInk s (i + 1)) (inkBodies_lines hm hi hg) (inkBodies_lines hm hi hg') h
  exact (readInk_bodies hl hi hg).symm.trans (this ▸ readInk_bodies hl hi hg')

theorem shownBytes_some {qs : List (Kind × Bytes)} (h : none ∉ shownBytes qs) : shownBytes qs = (bytesOf qs).map some := by
  induction qs with
  | nil => rfl
  | cons q qs ih =>
    simp only [shownBytes, List.flatMap_cons, List.mem_append, not_or] at h
    have e : (q.2.map fun b => if q.1 = .binary then none else some b) = q.2.map some := by
      apply List.map_congr_left
      intro b hb
      by_cases hq : q.1 = .binary
      · exact absurd (List.mem_map.2 ⟨b, hb, by rw [if_pos hq]⟩) h.1
      · rw [if_neg hq]
    have := ih h.2
    simp only [shownBytes] at this ⊢
    rw [List.flatMap_cons, e, this]
    simp [bytesOf]

/-- C113, text mode: a display without `Ḇ`, of an input that does not end with a control character, belongs to no
other input. -/
theorem C113_unique_partial (s : Settings) (hm : s.readMode.1 = .text) (hl : 2 ≤ s.marker) (hi : ∀ c, s.ignore c = false)
    (es es' : List ReadEvent) (hco : Complete es) (hr : Readable es) (hco' : Complete es') (hr' : Readable es')
    (hb : ∀ q ∈ chunkPieces (es.map (·.data)), q.1 ≠ .binary) (hc : ∀ b, (delivered es).getLast? = some b → isCtrl b = false)
    (term term' : Nat → Int) (fuel fuel' : Nat) (hf : 4 * (delivered es).length < fuel) (hf' : 4 * (delivered es').length < fuel')
    (h : appears (session fuel s term es).out = appears (session fuel' s term' es').out) : delivered es = delivered es' := by
  have key := C113_text s hm hl hi es es' hco hr hco' hr' term term' fuel fuel' hf hf' h
  have hg := runPieces_good hr
  have hn : none ∉ shownBytes (runPieces es) := by
    intro hm
    obtain ⟨q, hq, hm⟩ := List.mem_flatMap.1 hm
    simp only [hb q hq, if_false] at hm
    simp at hm
  have hk : knownBytes (runPieces es) = shownBytes (runPieces es) := by
    unfold knownBytes
    split
    · rename_i p hp
      exfalso
      have hw := (hg _ (List.mem_of_getLast? hp)).1
      simp only at hw
      rcases List.eq_nil_or_concat p with rfl | ⟨p0, b, rfl⟩
      · exact hw.ne_nil rfl
      rw [List.concat_eq_append] at hp hw
      have hl : (delivered es).getLast? = some b := by
        rw [← runPieces_bytes]
        obtain ⟨a, ha⟩ := List.getLast?_eq_some_iff.1 hp
        rw [ha]
        simp [bytesOf]
      have := hw.run_all (q := isCtrl) rfl b (by simp)
      rw [hc b hl] at this; cases this
    · rfl
  have hk' : none ∉ knownBytes (runPieces es') := by
    show none ∉ knownBytes (chunkPieces (es'.map (·.data)))
    rw [← key]
    show none ∉ knownBytes (runPieces es)
    rw [hk]; exact hn
  have hs' : knownBytes (runPieces es') = shownBytes (runPieces es') := by
    unfold knownBytes at hk' ⊢
    split
    · rename_i p hp; rw [hp] at hk'; simp at hk'
    · rfl
  have e1 := shownBytes_some hn
  have e2 := shownBytes_some (hs' ▸ hk')
  rw [runPieces_bytes] at e1 e2
  have : (delivered es).map some = (delivered es').map some := by
    rw [← e1, ← e2, ← hk, ← hs']; exact key
  exact (List.map_inj_right fun _ _ h => Option.some.inj h).1 this

/-- C113, binary mode: the same characters, the same bytes, whatever the settings for colours, details and classes, and
even if the number of columns differs. -/
theorem C113_binary (s : Settings) (hm : s.readMode.1 = .binary) (term term' : Nat → Int) (c c' : Nat) (hc : 0 < c) (hc' : 0 < c')
    (hcols : ∀ k off, BinaryFormatter.curCols s (term k) off = c) (hcols' : ∀ k off, BinaryFormatter.curCols s (term' k) off = c')
    (es es' : List ReadEvent) (hco : Complete es) (hr : Readable es) (hco' : Complete es') (hr' : Readable es')
    (fuel fuel' : Nat) (hf : (delivered es).length < fuel) (hf' : (delivered es').length < fuel')
    (h : visible (session fuel s term es).out = visible (session fuel' s term' es').out) : delivered es = delivered es' := by
  obtain ⟨out, st, h1, h2⟩ := C18_hex s hm term c hc hcols es hco hr fuel hf
  obtain ⟨out', st', h1', h2'⟩ := C18_hex s hm term' c' hc' hcols' es' hco' hr' fuel' hf'
  rw [h1, h1'] at h
  simp only at h
  rw [← h2, ← h2', h]

/-- One chunk and the end of the input. -/
def wholeChunk (raw : Bytes) : List ReadEvent := [⟨raw, 0, false⟩, ⟨[], raw.length, true⟩]

theorem wholeChunk_complete (raw : Bytes) : Complete (wholeChunk raw) := ⟨[⟨raw, 0, false⟩], ⟨[], raw.length, true⟩, rfl, rfl, by simp⟩

theorem wholeChunk_readable {raw : Bytes} (h : (pieces raw).any badPiece = false) : Readable (wholeChunk raw) := by
  intro e he
  simp only [wholeChunk, List.mem_cons, List.not_mem_nil, or_false] at he
  rw [bad_dec]
  rcases he with rfl | rfl
  · simpa using h
  · exact (by decide : (pieces []).any badPiece = false)

/-- C113, negation: a control character at the very end is displayed without its code, whatever the details. -/
theorem C113_negation : ¬ ∀ (s : Settings) (es es' : List ReadEvent) (term : Nat → Int) (fuel : Nat), s.readMode.1 = .text → 2 ≤ s.marker →
    (∀ c, s.ignore c = false) → Complete es → Readable es → Complete es' → Readable es' →
    (∀ q ∈ chunkPieces (es.map (·.data)), q.1 ≠ .binary) → 4 * (delivered es).length < fuel → 4 * (delivered es').length < fuel →
    appears (session fuel s term es).out = appears (session fuel s term es').out → delivered es = delivered es' := by
  intro h
  have := h { marker := 2 } (wholeChunk [0x61, 0x01]) (wholeChunk [0x61, 0x02]) (fun _ => 80) 20 rfl (by decide) (by intro c; rfl)
    (wholeChunk_complete _) (wholeChunk_readable (by decide)) (wholeChunk_complete _) (wholeChunk_readable (by decide))
    (by decide) (by decide) (by decide) (by decide +kernel)
  exact absurd this (by decide)

/-- C113, negation for fewer details: `ESC [ 1 ; m` and `ESC [ 1 m` look the same with `-m`, although the first resets everything. -/
theorem C113_negation_brief : ¬ ∀ (s : Settings) (es es' : List ReadEvent) (term : Nat → Int) (fuel : Nat), s.readMode.1 = .text → 1 ≤ s.marker →
    (∀ c, s.ignore c = false) → Complete es → Readable es → Complete es' → Readable es' →
    (∀ q ∈ chunkPieces (es.map (·.data)), q.1 ≠ .binary) → (∀ b, (delivered es).getLast? = some b → isCtrl b = false) →
    4 * (delivered es).length < fuel → 4 * (delivered es').length < fuel →
    appears (session fuel s term es).out = appears (session fuel s term es').out → delivered es = delivered es' := by
  intro h
  have := h { marker := 1 } (wholeChunk [0x1b, 0x5b, 0x31, 0x3b, 0x6d, 0x61, 0x0a]) (wholeChunk [0x1b, 0x5b, 0x31, 0x6d, 0x61, 0x0a]) (fun _ => 80) 40 rfl (by decide) (by intro c; rfl)
    (wholeChunk_complete _) (wholeChunk_readable (by decide)) (wholeChunk_complete _) (wholeChunk_readable (by decide))
    (by decide) (by intro b hb; cases hb; decide) (by decide) (by decide) (by decide +kernel)
  exact absurd this (by decide)

/-! ### Concrete cases -/

/-- Characters alone do not suffice: NUL and the letter `Ø` differ only in their colour. -/
example : visible (session 20 { marker := 2 } (fun _ => 80) (wholeChunk [0x00, 0x0a])).out =
      visible (session 20 { marker := 2 } (fun _ => 80) (wholeChunk [0xc3, 0x98, 0x0a])).out ∧
    appears (session 20 { marker := 2 } (fun _ => 80) (wholeChunk [0x00, 0x0a])).out ≠
      appears (session 20 { marker := 2 } (fun _ => 80) (wholeChunk [0xc3, 0x98, 0x0a])).out := by decide +kernel

/-- Bytes displayed as `Ḇ` look the same. -/
example : appears (session 20 { marker := 2 } (fun _ => 80) (wholeChunk [0xff, 0x0a])).out =
    appears (session 20 { marker := 2 } (fun _ => 80) (wholeChunk [0xfe, 0x0a])).out := by decide +kernel

/-- Control characters, a sequence with details, a character that is also a symbol, several lines. -/
def exampleDistinct : List ReadEvent :=
  [⟨[0x01, 0x02, 0x1b, 0x5b, 0x31, 0x3b, 0x6d, 0x0a, 0xc3, 0x98], 0, false⟩, ⟨[0x00, 0x09, 0x20, 0x1b, 0x63], 10, false⟩, ⟨[], 15, true⟩]

example (es' : List ReadEvent) (hco' : Complete es') (hr' : Readable es') (fuel' : Nat) (hf' : 4 * (delivered es').length < fuel')
    (h : appears (session 99 { marker := 2 } (fun _ => 80) exampleDistinct).out = appears (session fuel' { marker := 2 } (fun _ => 80) es').out) :
    delivered es' = [0x01, 0x02, 0x1b, 0x5b, 0x31, 0x3b, 0x6d, 0x0a, 0xc3, 0x98, 0x00, 0x09, 0x20, 0x1b, 0x63] := by
  refine (C113_unique_partial { marker := 2 } rfl (by decide) (fun _ => rfl) exampleDistinct es' ⟨exampleDistinct.take 2, ⟨[], 15, true⟩, rfl, rfl, by simp [exampleDistinct]⟩ ?_ hco' hr'
    (by decide) (by intro b hb; cases hb; decide) _ _ 99 fuel' (by decide) hf' h).symm
  intro e he
  simp only [exampleDistinct, List.mem_cons, List.not_mem_nil, or_false] at he
  rw [bad_dec]
  rcases he with rfl | rfl | rfl <;> decide

/-- Two ways of dividing the same input look the same here, and with binary data only the number of bytes is known. -/
example : knownBytes (chunkPieces (exampleDistinct.map (·.data))) = (delivered exampleDistinct).map some ∧
    knownBytes (pieces [0x61, 0xff, 0x02, 0x01]) = [some 0x61, none, some 0x02, none] := by decide +kernel

end Kolombos
