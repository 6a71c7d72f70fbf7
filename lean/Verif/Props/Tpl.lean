import Verif.Model.Es7sTpl
import Verif.Spec.Tpl
import Verif.Props.Filter
import Verif.Props.Ansi
import Verif.Lemmas.Params
/-
C86: what becomes of a template.
-/
set_option linter.unusedSimpArgs false

namespace Kolombos
open Spec

/-! ### Scanning in general -/

theorem scan_none {α : Type} (r : Re α) (a : α) (s : List α) (h : r.first (a :: s) = none) :
    r.scan (a :: s) = .copied a :: r.scan s := by
  unfold Re.scan
  rw [List.length_cons, Re.scanAux, h]

theorem scan_some {α : Type} (r : Re α) (s : List α) {m : Match α} {rest : List α} (h : r.first s = some (m, rest))
    (hl : rest.length < s.length) : r.scan s = .matched m :: r.scan rest := by
  cases s with
  | nil => simp at hl
  | cons a s =>
    unfold Re.scan
    rw [List.length_cons, Re.scanAux, h]
    simp only
    rw [if_pos hl, scanAux_fuel r s.length rest.length rest (by simp only [List.length_cons] at hl; omega) (Nat.le_refl _)]

/-- Patterns that begin with a certain character and an opening brace. -/
def braced (x : Char) (r : Re Char) : Re Char := .seq (.cls (· == x)) (.seq (.cls (· == '{')) r)

theorem braced_other {x a : Char} (r : Re Char) (s : Str) (h : a ≠ x) : (braced x r).first (a :: s) = none := by
  simp [Re.first, braced, Re.run, h]

theorem braced_brace {x a : Char} (r : Re Char) (s : Str) (h : s.head? ≠ some '{') : (braced x r).first (a :: s) = none := by
  cases s with
  | nil => by_cases e : a = x <;> simp [Re.first, braced, Re.run, e]
  | cons b s =>
    have hb : b ≠ '{' := fun e => h (by simp [e])
    by_cases e : a = x <;> simp [Re.first, braced, Re.run, e, hb]

theorem scan_copy_other {x : Char} (r : Re Char) (t s : Str) (h : x ∉ t) :
    (braced x r).scan (t ++ s) = t.map .copied ++ (braced x r).scan s := by
  induction t with
  | nil => rfl
  | cons a t ih =>
    simp only [List.mem_cons, not_or] at h
    rw [List.cons_append, scan_none _ _ _ (braced_other r _ (fun e => h.1 e.symm)), ih h.2]
    rfl

theorem scan_copy_text {x : Char} (r : Re Char) (t s : Str) (h : ¬ [x, '{'] <:+: t) (hs : s.head? ≠ some '{') :
    (braced x r).scan (t ++ s) = t.map .copied ++ (braced x r).scan s := by
  induction t with
  | nil => rfl
  | cons a t ih =>
    rw [List.cons_append, scan_none, ih (fun e => h (e.trans (List.suffix_cons a t).isInfix))]
    · rfl
    · by_cases e : a = x
      · apply braced_brace
        cases t with
        | nil => simpa using hs
        | cons b t =>
          simp only [List.cons_append, List.head?_cons, ne_eq, Option.some.injEq]
          rintro rfl
          exact h ⟨[], t, by simp [e]⟩
      · exact braced_other r _ e

/-- All of `u` is taken if something follows. -/
theorem star_head {α β : Type} (p : α → Bool) (u v : List α) (c : Caps α) (k : List α × Caps α → List β) {x : β}
    (hu : ∀ a ∈ u, p a = true) (hv : ∀ a t, v = a :: t → p a = false) (hk : (k (v, c)).head? = some x) :
    (((Re.star (.cls p)).run (u ++ v) c).flatMap k).head? = some x := by
  have e1 : (u ++ v).dropWhile p = v := by
    rw [List.dropWhile_append_of_pos hu]
    cases v with
    | nil => rfl
    | cons a t => rw [List.dropWhile_cons, hv a t rfl]; rfl
  obtain ⟨l, hl⟩ : ∃ l, (Re.star (.cls p)).run (u ++ v) c = (v, c) :: l := by
    have := star_cls_run_cons p (u ++ v) c
    rw [e1] at this
    exact ⟨_, this⟩
  rw [hl, List.flatMap_cons, List.head?_append, hk]
  rfl

/-- A reluctant repetition goes on until what follows matches. -/
theorem lazy_head {α β : Type} (p : α → Bool) (v : List α) (c : Caps α) (k : List α × Caps α → List β) {x : β}
    (hk : (k (v, c)).head? = some x) : ∀ (u : List α) (n : Nat), u.length ≤ n → (∀ a ∈ u, p a = true) →
      (∀ a b, u = a ++ b → b ≠ [] → k (b ++ v, c) = []) →
      ((lazyRun (fun s c => (Re.cls p).run s c) n (u ++ v) c).flatMap k).head? = some x := by
  intro u
  induction u with
  | nil =>
    intro n _ _ _
    cases n with
    | zero => simp [lazyRun, hk]
    | succ n => simp [lazyRun, List.head?_append, hk]
  | cons a u ih =>
    intro n hn hp hs
    cases n with
    | zero => simp at hn
    | succ n =>
      have h1 : k (a :: u ++ v, c) = [] := hs [] (a :: u) rfl (by simp)
      rw [List.cons_append] at h1
      simp only [List.cons_append, lazyRun, Re.run, hp a (by simp), if_true, List.flatMap_cons, List.flatMap_nil, List.append_nil,
        List.length_cons, Nat.lt_succ_self, h1, List.nil_append]
      exact ih n (by simpa using hn) (fun b hb => hp b (by simp [hb])) (fun x y e hy => hs (a :: x) y (by simp [e]) hy)

/-! ### Classes of characters -/

theorem wordChar_iff (c : Char) : IsWordChar c ↔ (c.isAlphanum || c == '_') = true := by
  unfold IsWordChar
  simp only [Char.isAlphanum, Bool.or_eq_true, isAlpha_iff, isDigit_iff, beq_iff_eq, char_le_iff]
  have e : 'a'.toNat = 97 ∧ 'z'.toNat = 122 ∧ 'A'.toNat = 65 ∧ 'Z'.toNat = 90 ∧ '0'.toNat = 48 ∧ '9'.toNat = 57 := by decide
  obtain ⟨e1, e2, e3, e4, e5, e6⟩ := e
  rw [e1, e2, e3, e4, e5, e6]
  constructor
  · rintro (h | h | h | h)
    · exact .inl (.inl (.inr h))
    · exact .inl (.inl (.inl h))
    · exact .inl (.inr h)
    · exact .inr h
  · rintro (((h | h) | h) | h)
    · exact .inr (.inl h)
    · exact .inl h
    · exact .inr (.inr (.inl h))
    · exact .inr (.inr (.inr h))

theorem wordChar_ascii {c : Char} (h : IsWordChar c) : c.toNat < 128 := by
  unfold IsWordChar at h
  simp only [char_le_iff] at h
  have e : 'z'.toNat = 122 ∧ 'Z'.toNat = 90 ∧ '9'.toNat = 57 := by decide
  rcases h with h | h | h | h
  · omega
  · omega
  · omega
  · subst h; decide

theorem wordChar_word (tbl : CharTable) {c : Char} (h : IsWordChar c) : tbl.word c = true := by
  rw [tbl.word_ascii c (wordChar_ascii h)]
  exact (wordChar_iff c).1 h

theorem wordChar_not_space {c : Char} (h : IsWordChar c) : isPySpace c = false := by
  cases e : isPySpace c with
  | false => rfl
  | true =>
    have := CharTable.ascii.word_space c e
    rw [wordChar_word CharTable.ascii h] at this
    exact absurd this (by simp)

theorem space_iff (c : Char) : IsWhitespace c ↔ isPySpace c = true := (pySpace_iff c).symm

theorem not_space_punct : ∀ c ∈ [';', '}', '{', '#', '^', ':'], isPySpace c = false := by decide

theorem not_word_brace (tbl : CharTable) : tbl.word '}' = false := by rw [tbl.word_ascii _ (by decide)]; decide

theorem not_wordChar_punct : ∀ c ∈ [';', '}', '{', '#', '^', ':'], ¬ IsWordChar c := by decide

/-! ### The three patterns -/

theorem take_prefix {α : Type} (p r : List α) : (p ++ r).take ((p ++ r).length - r.length) = p := by simp

theorem first_of_head {r : Re Char} {s : Str} {x : Str × Caps Char} (h : (r.run s []).head? = some x) :
    r.first s = some (⟨s.take (s.length - x.1.length), x.2⟩, x.1) := by
  simp [Re.first, h]

theorem braced_run (x : Char) (r : Re Char) (s : Str) (c : Caps Char) : (braced x r).run (x :: '{' :: s) c = r.run s c := by
  simp [braced, Re.run]

theorem blanks_close (r rest : Str) (c : Caps Char) (hr : ∀ a ∈ r, isPySpace a = true) :
    ((Re.seq (.star (.cls isPySpace)) (.cls (· == '}'))).run (r ++ '}' :: rest) c).head? = some (rest, c) := by
  rw [Re.run]
  refine star_head isPySpace r ('}' :: rest) c _ hr ?_ (by simp [Re.run])
  intro a t e
  injection e with e _
  subst e
  decide

theorem group_run (w : Char → Bool) (q : Re Char) (ps v : Str) (c : Caps Char) {x : Str × Caps Char} (hp : ∀ a ∈ ps, w a = true)
    (hv : ∀ a t, v = a :: t → w a = false) (hq : (q.run v ((1, ps) :: c)).head? = some x) :
    ((Re.seq (.grp 1 (.star (.cls w))) q).run (ps ++ v) c).head? = some x := by
  rw [Re.run, Re.run, List.flatMap_map]
  refine star_head w ps v c _ hp hv ?_
  simp only
  rw [take_prefix]
  exact hq

theorem ends_ok {w : Char → Bool} {r rest : Str} (hr : ∀ a ∈ r, isPySpace a = true) (hw : ∀ c, isPySpace c = true → w c = false)
    (hb : w '}' = false) : ∀ a t, r ++ '}' :: rest = a :: t → w a = false := by
  intro a t e
  cases r with
  | nil => injection e with e _; subst e; exact hb
  | cons b r =>
    injection e with e _
    subst e
    exact hw b (hr b (by simp))

theorem fmt_first (tbl : CharTable) (l ps r rest : Str) (hl : ∀ a ∈ l, isPySpace a = true) (hr : ∀ a ∈ r, isPySpace a = true)
    (hp : ∀ a ∈ ps, IsWordChar a ∨ a = ';') :
    (fmtRegexp tbl).first ('^' :: '{' :: l ++ ps ++ r ++ '}' :: rest) =
      some (⟨'^' :: '{' :: l ++ ps ++ r ++ ['}'], [(1, ps)]⟩, rest) := by
  have key : ∀ l r : Str, (∀ a ∈ l, isPySpace a = true) → (∀ a ∈ r, isPySpace a = true) → (ps = [] → r = []) →
      ((fmtRegexp tbl).run ('^' :: '{' :: (l ++ (ps ++ (r ++ '}' :: rest)))) []).head? = some (rest, [(1, ps)]) := by
    intro l r hl hr hn
    rw [show fmtRegexp tbl = braced '^' (.seq (.star (.cls isPySpace))
      (.seq (.grp 1 (.star (.cls fun c => tbl.word c || c == ';'))) (.seq (.star (.cls isPySpace)) (.cls (· == '}'))))) from rfl, braced_run, Re.run]
    refine star_head isPySpace l _ [] _ hl ?_ ?_
    · intro a t e
      cases ps with
      | nil =>
        rw [hn rfl] at e
        injection e with e _
        subst e; decide
      | cons b ps =>
        injection e with e _
        subst e
        rcases hp b (by simp) with h | h
        · exact wordChar_not_space h
        · subst h; decide
    · refine group_run _ _ ps (r ++ '}' :: rest) [] ?_ ?_ (blanks_close r rest _ hr)
      · intro a ha
        rcases hp a ha with h | h
        · simp [wordChar_word tbl h]
        · simp [h]
      · refine ends_ok hr ?_ (by simp [not_word_brace])
        intro c hc
        simp only [tbl.word_space c hc, Bool.false_or, beq_eq_false_iff_ne]
        intro e
        subst e
        exact absurd hc (by decide)
  have h : ((fmtRegexp tbl).run ('^' :: '{' :: l ++ ps ++ r ++ '}' :: rest) []).head? = some (rest, [(1, ps)]) := by
    by_cases e : ps = []
    · have := key (l ++ r) [] (by
        intro a ha
        rcases List.mem_append.1 ha with h | h
        · exact hl a h
        · exact hr a h) (by simp) (fun _ => rfl)
      simpa [e] using this
    · have := key l r hl hr (fun h => absurd h e)
      simpa using this
  rw [first_of_head h]
  simp only [Option.some.injEq, Prod.mk.injEq, Match.mk.injEq, and_true]
  have := take_prefix ('^' :: '{' :: l ++ ps ++ r ++ ['}']) rest
  simpa using this

theorem var_first (tbl : CharTable) (l name r rest : Str) (hl : ∀ a ∈ l, isPySpace a = true) (hr : ∀ a ∈ r, isPySpace a = true)
    (hn : name ≠ []) (hp : ∀ a ∈ name, IsWordChar a) :
    (varRegexp tbl).first (':' :: '{' :: l ++ name ++ r ++ '}' :: rest) =
      some (⟨':' :: '{' :: l ++ name ++ r ++ ['}'], [(1, name)]⟩, rest) := by
  have h : ((varRegexp tbl).run (':' :: '{' :: (l ++ (name ++ (r ++ '}' :: rest)))) []).head? = some (rest, [(1, name)]) := by
    rw [show varRegexp tbl = braced ':' (.seq (.star (.cls isPySpace))
      (.seq (.grp 1 (.plus (.cls tbl.word))) (.seq (.star (.cls isPySpace)) (.cls (· == '}'))))) from rfl, braced_run, Re.run]
    cases name with
    | nil => exact absurd rfl hn
    | cons b name =>
      refine star_head isPySpace l _ [] _ hl ?_ ?_
      · intro a t e
        injection e with e _
        subst e
        exact wordChar_not_space (hp b (by simp))
      · have hb : tbl.word b = true := wordChar_word tbl (hp b (by simp))
        simp only [Re.run, Re.plus, List.cons_append, hb, if_true, List.flatMap_cons, List.flatMap_nil, List.append_nil]
        rw [List.flatMap_map]
        refine star_head tbl.word name (r ++ '}' :: rest) [] _ (fun a ha => wordChar_word tbl (hp a (by simp [ha])))
          (ends_ok hr tbl.word_space (not_word_brace tbl)) ?_
        simp only
        have := take_prefix (b :: name) (r ++ '}' :: rest)
        rw [List.cons_append] at this
        rw [this]
        exact blanks_close r rest _ hr
  rw [first_of_head (x := (rest, [(1, name)])) (by simpa using h)]
  simp only [Option.some.injEq, Prod.mk.injEq, Match.mk.injEq, and_true]
  have := take_prefix (':' :: '{' :: l ++ name ++ r ++ ['}']) rest
  simpa using this

theorem close_run (s : Str) (c : Caps Char) :
    (Re.seq (.cls (· == '{')) (.seq (.cls (· == '}')) (.cls (· == '#')))).run s c = match s with
      | '{' :: '}' :: '#' :: t => [(t, c)]
      | _ => [] := by
  split
  · rfl
  · rename_i h
    rcases s with _ | ⟨a, s⟩
    · rfl
    · by_cases ha : a = '{'
      · subst ha
        rcases s with _ | ⟨b, s⟩
        · rfl
        · by_cases hb : b = '}'
          · subst hb
            rcases s with _ | ⟨d, s⟩
            · rfl
            · by_cases hd : d = '#'
              · subst hd; exact absurd rfl (h s)
              · simp [Re.run, hd]
          · simp [Re.run, hb]
      · simp [Re.run, ha]

theorem comment_first (s rest : Str) (hn : '\n' ∉ s) (he : ¬ ['{', '}', '#'] <:+: s ++ ['{', '}']) :
    ∃ m, commentRegexp.first ('#' :: '{' :: '}' :: s ++ ['{', '}', '#'] ++ rest) = some (m, rest) := by
  have h : ∃ c, (commentRegexp.run ('#' :: '{' :: '}' :: (s ++ '{' :: '}' :: '#' :: rest)) []).head? = some (rest, c) := by
    refine ⟨[(1, s)], ?_⟩
    rw [show commentRegexp = braced '#' (.seq (.cls (· == '}')) (.seq (.grp 1 (.lazy (.cls (· != '\n'))))
      (.seq (.cls (· == '{')) (.seq (.cls (· == '}')) (.cls (· == '#')))))) from rfl, braced_run]
    rw [Re.run]
    simp only [show ∀ c, (Re.cls (· == '}')).run ('}' :: (s ++ '{' :: '}' :: '#' :: rest)) c = [((s ++ '{' :: '}' :: '#' :: rest), c)] from fun c => rfl,
      List.flatMap_cons, List.flatMap_nil, List.append_nil]
    rw [Re.run, Re.run, Re.run, List.flatMap_map]
    refine lazy_head _ ('{' :: '}' :: '#' :: rest) [] _ ?_ s _ (by simp) ?_ ?_
    · simp only [close_run, take_prefix, List.head?_cons]
    · intro a ha
      simp only [bne_iff_ne, ne_eq]
      exact fun e => hn (e ▸ ha)
    · intro a b e hb
      simp only [close_run]
      split
      · rename_i t ht
        exfalso
        apply he
        rw [e]
        rcases b with _ | ⟨b0, b⟩
        · exact absurd rfl hb
        · refine ⟨a, ?_⟩
          rcases b with _ | ⟨b1, b⟩
          · simp only [List.cons_append, List.nil_append] at ht
            injection ht with h1 h2
            injection h2 with h2 h3
            exact absurd h2 (by decide)
          · simp only [List.cons_append, List.nil_append] at ht
            injection ht with h1 h2
            injection h2 with h2 h3
            subst h1 h2
            rcases b with _ | ⟨b2, b⟩
            · injection h3 with h3 h4
              exact absurd h3 (by decide)
            · injection h3 with h3 h4
              subst h3
              exact ⟨b ++ ['{', '}'], by simp⟩
      · rfl
  obtain ⟨c, h⟩ := h
  refine ⟨_, first_of_head (x := (rest, c)) ?_⟩
  simpa using h

/-! ### The callbacks -/

theorem tplItems_copied (f : Match Char → Except AnsiErr (Str × List TplWarning)) (t : Str) (is : List (Item Char)) {s : Str}
    {w : List TplWarning} (h : tplItems f is = .ok (s, w)) : tplItems f (t.map .copied ++ is) = .ok (t ++ s, w) := by
  induction t with
  | nil => simpa using h
  | cons a t ih => rw [List.map_cons, List.cons_append, tplItems, ih]; rfl

theorem tplItems_matched (f : Match Char → Except AnsiErr (Str × List TplWarning)) (m : Match Char) (is : List (Item Char)) {s t : Str}
    {w1 w2 : List TplWarning} (h1 : f m = .ok (t, w1)) (h2 : tplItems f is = .ok (s, w2)) :
    tplItems f (.matched m :: is) = .ok (t ++ s, w1 ++ w2) := by
  rw [tplItems, h1]
  simp only
  rw [h2]

theorem split_intercalate : ∀ items : List Str, items ≠ [] → (∀ w ∈ items, ';' ∉ w) → splitOn ';' (List.intercalate [';'] items) = items
  | [], h, _ => absurd rfl h
  | [w], _, h => by
    have hw : ∀ c ∈ w, (decide (c ≠ ';')) = true := fun c hc => by
      simp only [decide_eq_true_eq]; exact fun e => h w (by simp) (e ▸ hc)
    rw [splitOn_eq]
    have e : List.intercalate [';'] [w] = w := by simp [List.intercalate, List.intersperse]
    have e1 := List.takeWhile_append_of_pos (l₂ := []) hw
    have e2 := List.dropWhile_append_of_pos (l₂ := []) hw
    simp only [List.append_nil, List.takeWhile_nil, List.dropWhile_nil] at e1 e2
    rw [e, e1, e2]
  | w :: v :: items, _, h => by
    have hw : ∀ c ∈ w, (decide (c ≠ ';')) = true := fun c hc => by
      simp only [decide_eq_true_eq]; exact fun e => h w (by simp) (e ▸ hc)
    have e : List.intercalate [';'] (w :: v :: items) = w ++ ';' :: List.intercalate [';'] (v :: items) := by
      simp [List.intercalate, List.intersperse]
    rw [splitOn_eq, e, List.takeWhile_append_of_pos hw, List.dropWhile_append_of_pos hw]
    simp only [List.takeWhile_cons, List.dropWhile_cons]
    simp only [ne_eq, not_true_eq_false, decide_false, Bool.false_eq_true, if_false, List.append_nil]
    rw [split_intercalate (v :: items) (by simp) (fun x hx => h x (by simp at hx ⊢; exact .inr hx))]

theorem intercalate_nil : ∀ items : List Str, items ≠ [] → items ≠ [[]] → (List.intercalate [';'] items).length ≠ 0
  | [], h, _ => absurd rfl h
  | [w], _, h => by
    have e : List.intercalate [';'] [w] = w := by simp [List.intercalate, List.intersperse]
    rw [e]
    intro hl
    exact h (by rw [List.length_eq_zero_iff.1 hl])
  | w :: v :: items, _, _ => by
    have e : List.intercalate [';'] (w :: v :: items) = w ++ ';' :: List.intercalate [';'] (v :: items) := by
      simp [List.intercalate, List.intersperse]
    rw [e]
    simp

theorem mem_intercalate {items : List Str} {c : Char} : c ∈ List.intercalate [';'] items → (∃ w ∈ items, c ∈ w) ∨ c = ';' := by
  match items with
  | [] => simp [List.intercalate]
  | [w] => simp [List.intercalate, List.intersperse]; exact fun h => .inl h
  | w :: v :: items =>
    have e : List.intercalate [';'] (w :: v :: items) = w ++ ';' :: List.intercalate [';'] (v :: items) := by
      simp [List.intercalate, List.intersperse]
    rw [e]
    intro h
    rcases List.mem_append.1 h with h | h
    · exact .inl ⟨w, by simp, h⟩
    · rcases List.mem_cons.1 h with h | h
      · exact .inr h
      · rcases mem_intercalate h with ⟨x, hx, hc⟩ | h
        · exact .inl ⟨x, by simp at hx ⊢; exact .inr hx, hc⟩
        · exact .inr h

theorem tryInt_item (tbl : CharTable) (w : Str) (h : ∀ c ∈ w, IsWordChar c) : tryInt tbl w = itemArg w := by
  have hd : ∀ c ∈ w, ((tbl.digit c).isSome = true ↔ '0' ≤ c ∧ c ≤ '9') := by
    intro c hc
    rw [tbl.digit_ascii c (wordChar_ascii (h c hc))]
    have e : '0'.toNat = 48 ∧ '9'.toNat = 57 := by decide
    rw [char_le_iff, char_le_iff, e.1, e.2, ← isDigit_iff]
    split <;> simp_all
  have hv : ∀ (v : Str) (n : Nat), (∀ c ∈ v, '0' ≤ c ∧ c ≤ '9') → (∀ c ∈ v, IsWordChar c) →
      v.foldl (fun n c => n * 10 + (tbl.digit c).getD 0) n = v.foldl (fun n c => n * 10 + (c.toNat - 48)) n := by
    intro v
    induction v with
    | nil => intros; rfl
    | cons a v ih =>
      intro n h1 h2
      have ha : a.isDigit = true := by
        rw [isDigit_iff]
        have := h1 a (by simp)
        have e : '0'.toNat = 48 ∧ '9'.toNat = 57 := by decide
        rw [char_le_iff, char_le_iff, e.1, e.2] at this
        exact this
      rw [List.foldl_cons, List.foldl_cons, tbl.digit_ascii a (wordChar_ascii (h2 a (by simp))), if_pos ha]
      exact ih _ (fun c hc => h1 c (by simp [hc])) (fun c hc => h2 c (by simp [hc]))
  unfold tryInt itemArg
  by_cases hw : w ≠ [] ∧ ∀ c ∈ w, '0' ≤ c ∧ c ≤ '9'
  · rw [if_pos hw, if_pos ⟨hw.1, List.all_eq_true.2 fun c hc => (hd c hc).2 (hw.2 c hc)⟩]
    unfold digitsValue decimal
    rw [hv w 0 hw.2 h]
  · rw [if_neg hw, if_neg]
    rintro ⟨h1, h2⟩
    exact hw ⟨h1, fun c hc => (hd c hc).1 (List.all_eq_true.1 h2 c hc)⟩

theorem collect_key {args : List SgrArg} {e : AnsiErr} (h : ∀ a ∈ args, ∀ e, a.params = .error e → e = .key)
    (he : collectParams args = .error e) : e = .key := by
  induction args with
  | nil => cases he
  | cons a args ih =>
    rw [collectParams] at he
    cases h1 : a.params with
    | error e1 =>
      rw [h1] at he
      injection he with he
      exact he ▸ h a (by simp) e1 h1
    | ok ps =>
      rw [h1] at he
      simp only at he
      cases h2 : collectParams args with
      | error e2 =>
        rw [h2] at he
        injection he with he
        exact ih (fun a ha => h a (by simp [ha])) (by rw [h2, he])
      | ok r => rw [h2] at he; cases he

theorem item_key {w : Str} (hw : ∀ c ∈ w, IsWordChar c) (hl : ∀ k ∈ listNames, lower w ≠ k.toList) (e : AnsiErr)
    (h : (itemArg w).params = .error e) : e = .key := by
  unfold itemArg at h
  split at h
  · cases h
  · unfold SgrArg.params at h
    simp only [find_intCodes] at h
    rw [find_none_of_lower listCodeTable listNames w (fun c hc => wordChar_ascii (hw c hc)) hl (by decide +kernel)] at h
    cases h1 : intCodeTable.find? (fun e => e.1.toList == pyUpper w) with
    | some x => rw [h1] at h; cases h
    | none => rw [h1] at h; injection h with h; exact h.symm

theorem resolve_format (tbl : CharTable) {l r : Str} {items : List Str} (h : (TplPart.format l items r).Fine) (text : Str) :
    resolveFmt tbl ⟨text, [(1, List.intercalate [';'] items)]⟩ =
      .ok ((formatSequence items).getD text, (if formatSequence items = none then [List.intercalate [';'] items] else []).map .format) := by
  obtain ⟨_, _, hn, hw, hk⟩ := h
  unfold resolveFmt
  simp only [Match.group, List.find?_cons, decide_true, Option.map_some, Option.getD_some]
  by_cases he : items = []
  · subst he
    rfl
  · rw [if_neg (intercalate_nil items he hn), split_intercalate items he (fun w hws hc => absurd (hw w hws ';' hc) (by decide)),
      List.map_congr_left (fun w hws => tryInt_item tbl w (hw w hws))]
    unfold formatSequence
    rw [if_neg he]
    cases hm : mkSgr (items.map itemArg) with
    | ok s => rfl
    | error e =>
      have : e = .key := by
        unfold mkSgr at hm
        cases hc : collectParams (items.map itemArg) with
        | ok ps => rw [hc] at hm; cases hm
        | error e1 =>
          rw [hc] at hm
          injection hm with hm
          subst hm
          refine collect_key ?_ hc
          intro a ha e ea
          obtain ⟨w, hws, rfl⟩ := List.mem_map.1 ha
          exact item_key (hw w hws) (hk w hws) e ea
      subst this
      rfl

theorem find_lookup (vars : List (Str × Str)) (name : Str) : (vars.find? fun e => e.1 == name).map Prod.snd = vars.lookup name := by
  induction vars with
  | nil => rfl
  | cons v vars ih =>
    obtain ⟨a, b⟩ := v
    rw [List.find?_cons, List.lookup_cons]
    by_cases h : a = name
    · subst h; simp
    · have h1 : (a == name) = false := by simpa using h
      have h2 : (name == a) = false := by simpa using fun e => h e.symm
      simp only [h1, h2]
      exact ih

theorem resolve_variable (vars : List (Str × Str)) (name text : Str) :
    resolveVar vars ⟨text, [(1, name)]⟩ =
      .ok ((vars.lookup name).getD text, (if vars.lookup name = none then [name] else []).map .variable) := by
  unfold resolveVar
  simp only [Match.group, List.find?_cons, decide_true, Option.map_some, Option.getD_some]
  rw [← find_lookup]
  cases h : vars.find? fun e => e.1 == name with
  | none => simp
  | some e => simp

/-! ### The three filters -/

/-- Without comments. -/
def uncommented : TplPart → Str
  | .comment _ => []
  | p => p.written

/-- With the formats replaced. -/
def formatted : TplPart → Str
  | .comment _ => []
  | .format l items r => (formatSequence items).getD (TplPart.format l items r).written
  | p => p.written

theorem flatMap_head {parts : List TplPart} (f : TplPart → Str) (h : ∀ p ∈ parts, (f p).head? ≠ some '{') :
    (parts.flatMap f).head? ≠ some '{' := by
  induction parts with
  | nil => simp
  | cons p parts ih =>
    rw [List.flatMap_cons, List.head?_append]
    cases hp : (f p).head? with
    | none => exact ih fun q hq => h q (by simp [hq])
    | some c =>
      intro e
      exact h p (by simp) (hp.trans e)

theorem text_head {s : Str} (h : '{' ∉ s) : s.head? ≠ some '{' := by
  intro e
  exact h (List.mem_of_head? e)

theorem sequence_start {items : List Str} {s : Str} (h : formatSequence items = some s) : ':' ∉ s ∧ '{' ∉ s := by
  unfold formatSequence at h
  split at h
  · injection h with h; subst h; decide
  · cases hm : mkSgr (items.map itemArg) with
    | error e => rw [hm] at h; cases h
    | ok q =>
      rw [hm] at h
      injection h with h
      subst h
      have key : ∀ c ∈ Sgr.assemble q, c = '\x1b' ∨ c = '[' ∨ isSgrParam c = true ∨ c = 'm' := by
        intro c hc
        unfold Sgr.assemble at hc
        split at hc
        · simp at hc
        · simp only [List.mem_cons, List.mem_append, List.not_mem_nil, or_false] at hc
          rcases hc with h | h | h | h
          · exact .inl h
          · exact .inr (.inl h)
          · exact .inr (.inr (.inl (join_sgrParam _ c h)))
          · exact .inr (.inr (.inr h))
      constructor
      · intro hc; have := key _ hc; revert this; decide
      · intro hc; have := key _ hc; revert this; decide

theorem written_head {p : TplPart} (h : p.Fine) : p.written.head? ≠ some '{' := by
  cases p with
  | text s => exact h.1
  | comment s => simp [TplPart.written]
  | format l items r => simp [TplPart.written]
  | «variable» l name r => simp [TplPart.written]

theorem uncommented_head {p : TplPart} (h : p.Fine) : (uncommented p).head? ≠ some '{' := by
  cases p with
  | comment s => simp [uncommented]
  | text s => exact written_head h
  | format l items r => exact written_head h
  | «variable» l name r => exact written_head h

theorem formatted_head {p : TplPart} (h : p.Fine) : (formatted p).head? ≠ some '{' := by
  cases p with
  | comment s => simp [formatted]
  | text s => exact written_head h
  | format l items r =>
    cases hf : formatSequence items with
    | none => rw [show formatted (.format l items r) = (TplPart.format l items r).written by simp [formatted, hf]]; exact written_head h
    | some s => rw [show formatted (.format l items r) = s by simp [formatted, hf]]; exact text_head (sequence_start hf).2
  | «variable» l name r => exact written_head h

theorem not_mem_format {l r : Str} {items : List Str} (h : (TplPart.format l items r).Fine) {x : Char} (hx : x ∈ ['#', ':']) :
    x ∉ (TplPart.format l items r).written := by
  obtain ⟨h1, h2, _, h4, _⟩ := h
  have hs : ∀ x ∈ ['#', ':'], ¬ IsWhitespace x ∧ ¬ IsWordChar x ∧ x ≠ '^' ∧ x ≠ '{' ∧ x ≠ '}' ∧ x ≠ ';' := by decide
  obtain ⟨a1, a2, a3, a4, a5, a6⟩ := hs x hx
  simp only [TplPart.written, List.mem_cons, List.mem_append, List.cons_append, List.not_mem_nil, or_false, not_or]
  refine ⟨a3, a4, ⟨⟨fun h => a1 (h1 x h), fun h => ?_⟩, fun h => a1 (h2 x h)⟩, a5⟩
  rcases mem_intercalate h with ⟨w, hw, hc⟩ | h
  · exact a2 (h4 w hw x hc)
  · exact a6 h

theorem not_mem_variable {l name r : Str} (h : (TplPart.variable l name r).Fine) {x : Char} (hx : x ∈ ['#', '^']) :
    x ∉ (TplPart.variable l name r).written := by
  obtain ⟨h1, h2, _, h4⟩ := h
  have hs : ∀ x ∈ ['#', '^'], ¬ IsWhitespace x ∧ ¬ IsWordChar x ∧ x ≠ ':' ∧ x ≠ '{' ∧ x ≠ '}' := by decide
  obtain ⟨a1, a2, a3, a4, a5⟩ := hs x hx
  simp only [TplPart.written, List.mem_cons, List.mem_append, List.cons_append, List.not_mem_nil, or_false, not_or]
  exact ⟨a3, a4, ⟨⟨fun h => a1 (h1 x h), fun h => a2 (h4 x h)⟩, fun h => a1 (h2 x h)⟩, a5⟩

/-- The rest of a pattern that begins with a character and a brace. -/
def bracedRest : Re Char → Re Char
  | .seq _ (.seq _ r) => r
  | r => r

theorem comment_braced : commentRegexp = braced '#' (bracedRest commentRegexp) := rfl
theorem fmt_braced (tbl : CharTable) : fmtRegexp tbl = braced '^' (bracedRest (fmtRegexp tbl)) := rfl
theorem var_braced (tbl : CharTable) : varRegexp tbl = braced ':' (bracedRest (varRegexp tbl)) := rfl

theorem comments_removed (parts : List TplPart) (h : ∀ p ∈ parts, p.Fine) :
    commentRegexp.sub (fun _ => []) (parts.flatMap TplPart.written) = parts.flatMap uncommented := by
  have copied : ∀ (F : Item Char → Str) (_ : ∀ a, F (.copied a) = [a]) (t : Str), (t.map Item.copied).flatMap F = t := by
    intro F hF t
    induction t with
    | nil => rfl
    | cons a t ih => rw [List.map_cons, List.flatMap_cons, ih, hF]; rfl
  unfold Re.sub
  induction parts with
  | nil => rfl
  | cons p parts ih =>
    have hp := h p (by simp)
    have ih := ih fun q hq => h q (by simp [hq])
    have hh := flatMap_head TplPart.written (parts := parts) fun q hq => written_head (h q (by simp [hq]))
    rw [List.flatMap_cons, List.flatMap_cons]
    cases p with
    | text s =>
      have : commentRegexp.scan (s ++ parts.flatMap TplPart.written) = s.map .copied ++ commentRegexp.scan (parts.flatMap TplPart.written) := by
        rw [comment_braced]; exact scan_copy_text _ _ _ (hp.2 '#' (by simp)) hh
      rw [show (TplPart.text s).written = s from rfl, this, List.flatMap_append, ih, copied _ (fun _ => rfl)]
      rfl
    | comment s =>
      obtain ⟨m, hm⟩ := comment_first s (parts.flatMap TplPart.written) hp.1 hp.2
      rw [show (TplPart.comment s).written = '#' :: '{' :: '}' :: s ++ ['{', '}', '#'] from rfl]
      rw [scan_some _ _ hm (by simp; omega), List.flatMap_cons, ih]
      rfl
    | format l items r =>
      have : commentRegexp.scan ((TplPart.format l items r).written ++ parts.flatMap TplPart.written) =
          (TplPart.format l items r).written.map .copied ++ commentRegexp.scan (parts.flatMap TplPart.written) := by
        rw [comment_braced]; exact scan_copy_other _ _ _ (not_mem_format hp (by simp))
      rw [this, List.flatMap_append, ih, copied _ (fun _ => rfl)]
      rfl
    | «variable» l name r =>
      have : commentRegexp.scan ((TplPart.variable l name r).written ++ parts.flatMap TplPart.written) =
          (TplPart.variable l name r).written.map .copied ++ commentRegexp.scan (parts.flatMap TplPart.written) := by
        rw [comment_braced]; exact scan_copy_other _ _ _ (not_mem_variable hp (by simp))
      rw [this, List.flatMap_append, ih, copied _ (fun _ => rfl)]
      rfl

theorem formats_replaced (tbl : CharTable) (parts : List TplPart) (h : ∀ p ∈ parts, p.Fine) :
    tplItems (resolveFmt tbl) ((fmtRegexp tbl).scan (parts.flatMap uncommented)) =
      .ok (parts.flatMap formatted, (parts.flatMap TplPart.unknownFormats).map .format) := by
  induction parts with
  | nil => rfl
  | cons p parts ih =>
    have hp := h p (by simp)
    have ih := ih fun q hq => h q (by simp [hq])
    have hh := flatMap_head uncommented (parts := parts) fun q hq => uncommented_head (h q (by simp [hq]))
    rw [List.flatMap_cons, List.flatMap_cons, List.flatMap_cons, List.map_append]
    cases p with
    | text s =>
      have : (fmtRegexp tbl).scan (s ++ parts.flatMap uncommented) = s.map .copied ++ (fmtRegexp tbl).scan (parts.flatMap uncommented) := by
        rw [fmt_braced]; exact scan_copy_text _ _ _ (hp.2 '^' (by simp)) hh
      rw [show uncommented (TplPart.text s) = s from rfl, this, tplItems_copied _ _ _ ih]
      rfl
    | comment s => exact ih
    | format l items r =>
      have hf := fmt_first tbl l (List.intercalate [';'] items) r (parts.flatMap uncommented)
        (fun a ha => (space_iff a).1 (hp.1 a ha)) (fun a ha => (space_iff a).1 (hp.2.1 a ha)) (fun a ha => by
          rcases mem_intercalate ha with ⟨w, hw, hc⟩ | h
          · exact .inl (hp.2.2.2.1 w hw a hc)
          · exact .inr h)
      rw [show uncommented (TplPart.format l items r) ++ parts.flatMap uncommented =
        '^' :: '{' :: l ++ List.intercalate [';'] items ++ r ++ '}' :: parts.flatMap uncommented by simp [uncommented, TplPart.written]]
      rw [scan_some _ _ hf (by simp; omega), tplItems_matched _ _ _ (resolve_format tbl hp _) ih]
      rfl
    | «variable» l name r =>
      have : (fmtRegexp tbl).scan ((TplPart.variable l name r).written ++ parts.flatMap uncommented) =
          (TplPart.variable l name r).written.map .copied ++ (fmtRegexp tbl).scan (parts.flatMap uncommented) := by
        rw [fmt_braced]; exact scan_copy_other _ _ _ (not_mem_variable hp (by simp))
      rw [show uncommented (TplPart.variable l name r) = (TplPart.variable l name r).written from rfl, this, tplItems_copied _ _ _ ih]
      rfl

theorem variables_replaced (tbl : CharTable) (vars : List (Str × Str)) (parts : List TplPart) (h : ∀ p ∈ parts, p.Fine) :
    tplItems (resolveVar vars) ((varRegexp tbl).scan (parts.flatMap formatted)) =
      .ok (parts.flatMap (TplPart.shown vars), (parts.flatMap (TplPart.unknownVariables vars)).map .variable) := by
  induction parts with
  | nil => rfl
  | cons p parts ih =>
    have hp := h p (by simp)
    have ih := ih fun q hq => h q (by simp [hq])
    have hh := flatMap_head formatted (parts := parts) fun q hq => formatted_head (h q (by simp [hq]))
    rw [List.flatMap_cons, List.flatMap_cons, List.flatMap_cons, List.map_append]
    cases p with
    | text s =>
      have : (varRegexp tbl).scan (s ++ parts.flatMap formatted) = s.map .copied ++ (varRegexp tbl).scan (parts.flatMap formatted) := by
        rw [var_braced]; exact scan_copy_text _ _ _ (hp.2 ':' (by simp)) hh
      rw [show formatted (TplPart.text s) = s from rfl, this, tplItems_copied _ _ _ ih]
      rfl
    | comment s => exact ih
    | format l items r =>
      have hc : ':' ∉ formatted (TplPart.format l items r) := by
        cases hf : formatSequence items with
        | none => rw [show formatted (.format l items r) = (TplPart.format l items r).written by simp [formatted, hf]]; exact not_mem_format hp (by simp)
        | some s => rw [show formatted (.format l items r) = s by simp [formatted, hf]]; exact (sequence_start hf).1
      have : (varRegexp tbl).scan (formatted (TplPart.format l items r) ++ parts.flatMap formatted) =
          (formatted (TplPart.format l items r)).map .copied ++ (varRegexp tbl).scan (parts.flatMap formatted) := by
        rw [var_braced]; exact scan_copy_other _ _ _ hc
      rw [this, tplItems_copied _ _ _ ih]
      rfl
    | «variable» l name r =>
      have hf := var_first tbl l name r (parts.flatMap formatted)
        (fun a ha => (space_iff a).1 (hp.1 a ha)) (fun a ha => (space_iff a).1 (hp.2.1 a ha)) hp.2.2.1 hp.2.2.2
      rw [show formatted (TplPart.variable l name r) ++ parts.flatMap formatted =
        ':' :: '{' :: l ++ name ++ r ++ '}' :: parts.flatMap formatted by simp [formatted, TplPart.written]]
      rw [scan_some _ _ hf (by simp; omega), tplItems_matched _ _ _ (resolve_variable vars name _) ih]
      rfl

/-- C86: in a template made of text, comments on one line, formats that name no list, and variables,
the text is kept, comments vanish, formats become the sequence of their items, variables their value (which is not
read again); what is not known stays as it is written and is reported.  The variables given are kept for
the next template; without (or with no) variables those of the last template apply. -/
theorem C86_template_partial (tbl : CharTable) (old : List (Str × Str)) (new : Option (List (Str × Str))) (parts : List TplPart)
    (h : ∀ p ∈ parts, p.Fine) :
    let vars := if new = none ∨ new = some [] then old else new.getD []
    substituteTpl tbl old (parts.flatMap TplPart.written) new =
      (.ok (parts.flatMap (TplPart.shown vars),
        (parts.flatMap TplPart.unknownFormats).map .format ++ (parts.flatMap (TplPart.unknownVariables vars)).map .variable), vars) := by
  intro vars
  have hs : ∀ inp, substituteTpl tbl old inp new = (applyTpl tbl vars inp, vars) := by
    intro inp
    show _ = (applyTpl tbl (if new = none ∨ new = some [] then old else new.getD []) inp, if new = none ∨ new = some [] then old else new.getD [])
    cases new with
    | none => simp [substituteTpl]
    | some v => cases v <;> simp [substituteTpl]
  rw [hs]
  unfold applyTpl
  simp only [comments_removed parts h, formats_replaced tbl parts h, variables_replaced tbl vars parts h]

/-- Each kind of part, known and unknown. -/
example : let parts := [TplPart.text "a ^ {b: }".toList, .comment " :{x} ".toList, .format " ".toList ["bold".toList, "38".toList, "5".toList, "88".toList] [],
      .format [] [] [], .format [] ["purple".toList] " ".toList, .variable [] "x".toList "  ".toList, .variable [] "y".toList []]
    (∀ p ∈ parts, p.Fine) ∧
      parts.flatMap TplPart.written = "a ^ {b: }#{} :{x} {}#^{ bold;38;5;88}^{}^{purple }:{x  }:{y}".toList ∧
      parts.flatMap (TplPart.shown [("x".toList, ":{y}".toList)]) = "a ^ {b: }\x1b[1;38;5;88m\x1b[m^{purple }:{y}:{y}".toList ∧
      parts.flatMap TplPart.unknownFormats = ["purple".toList] ∧
      parts.flatMap (TplPart.unknownVariables [("x".toList, ":{y}".toList)]) = ["y".toList] := by
  decide +kernel

/-- C86 fails: a format that names a list of codes ends the processing of the template. -/
theorem C86_negation : ¬ ∀ (tbl : CharTable) (vars : List (Str × Str)) (template : Str),
    ∃ out, (substituteTpl tbl vars template none).1 = .ok out := by
  intro h
  have key : (match (substituteTpl CharTable.ascii [] "^{list_colors}".toList none).1 with | .ok _ => true | .error _ => false) = false := by
    decide +kernel
  obtain ⟨out, ho⟩ := h CharTable.ascii [] "^{list_colors}".toList
  rw [ho] at key
  exact absurd key (by simp)

/-- C86 fails: a comment of more than one line is not removed. -/
theorem C86_negation_lines : ¬ ∀ (tbl : CharTable) (vars : List (Str × Str)) (s : Str), '{' ∉ s →
    ∃ w, (substituteTpl tbl vars (TplPart.comment s).written none).1 = .ok ([], w) := by
  intro h
  have key : (match (substituteTpl CharTable.ascii [] (TplPart.comment "a\nb".toList).written none).1 with
      | .ok (s, _) => decide (s = (TplPart.comment "a\nb".toList).written) | .error _ => false) = true := by
    decide +kernel
  obtain ⟨w, ho⟩ := h CharTable.ascii [] "a\nb".toList (by decide)
  rw [ho] at key
  have key : decide (([] : Str) = (TplPart.comment "a\nb".toList).written) = true := key
  exact absurd key (by decide)

end Kolombos
