import Verif.Lemmas.HelpPage
import Verif.Lemmas.Lines
import Verif.Props.Filter
import Verif.Spec.HelpPage
/-
The words on the lines of the help page.
-/
set_option linter.unusedSimpArgs false
namespace Kolombos
open Spec

/-! ### Words -/

theorem parts_ne_nil : ∀ s, parts s ≠ []
  | [] => by simp [parts]
  | c :: r => by
    rw [parts]
    split
    · simp
    · split <;> simp

theorem parts_append {c : Char} (hc : IsWhitespace c) (b : Str) : ∀ a, parts (a ++ c :: b) = parts a ++ parts b
  | [] => by simp [parts, hc]
  | d :: a => by
    rw [List.cons_append, parts, parts, parts_append hc b a]
    by_cases hd : IsWhitespace d
    · simp [hd]
    · simp only [hd, if_false]
      obtain ⟨h, t, e⟩ := List.exists_cons_of_ne_nil (parts_ne_nil a)
      rw [e]
      simp

theorem words_append {c : Char} (hc : IsWhitespace c) (a b : Str) : words (a ++ c :: b) = words a ++ words b := by
  rw [words, parts_append hc, List.filter_append]
  rfl

theorem words_cons {c : Char} (hc : IsWhitespace c) (b : Str) : words (c :: b) = words b := by
  have := words_append hc [] b
  simpa [words, parts] using this

theorem ws_blank : IsWhitespace ' ' := by decide
theorem ws_lf : IsWhitespace '\n' := by decide

theorem words_blanks (k : Nat) (s : Str) : words (List.replicate k ' ' ++ s) = words s := by
  induction k with
  | zero => rfl
  | succ k ih => rw [List.replicate_succ, List.cons_append, words_cons ws_blank, ih]

theorem words_nil : words [] = [] := by simp [words, parts]

/-- A word is one word. -/
theorem words_plain {x : Str} (h : IsPlainWord x) : words x = [x] := by
  have : ∀ x : Str, (∀ c ∈ x, isPySpace c = false) → parts x = [x] := by
    intro x
    induction x with
    | nil => intro _; rfl
    | cons c x ih =>
      intro h
      have hc : ¬ IsWhitespace c := fun e => by
        have := (pySpace_iff c).2 e
        rw [h c (by simp)] at this
        cases this
      rw [parts, if_neg hc, ih fun d hd => h d (by simp [hd])]
  rw [words, this x h.2]
  simp [h.1]

theorem words_join : ∀ {g : List Str}, (∀ x ∈ g, IsPlainWord x) → words (join [' '] g) = g
  | [], _ => words_nil
  | [x], h => by rw [join]; exact words_plain (h x (by simp))
  | x :: y :: r, h => by
    rw [join, List.append_assoc, List.cons_append, List.nil_append, words_append ws_blank, words_plain (h x (by simp)),
      words_join fun z hz => h z (List.mem_cons_of_mem _ hz)]
    rfl

/-! ### Colours -/

/-- Whether a text ends inside a colour sequence. -/
def inColour : Bool → Str → Bool
  | b, [] => b
  | true, c :: r => if c = 'm' then inColour false r else inColour true r
  | false, c :: r => if c = '\x1b' then inColour true r else inColour false r

theorem uncoloured_append : ∀ (a : Str) (b : Bool) (s : Str),
    uncoloured b (a ++ s) = uncoloured b a ++ uncoloured (inColour b a) s
  | [], b, s => by cases b <;> simp [uncoloured, inColour]
  | c :: a, true, s => by
    rw [List.cons_append, uncoloured, uncoloured, inColour]
    split <;> rw [uncoloured_append]
  | c :: a, false, s => by
    rw [List.cons_append, uncoloured, uncoloured, inColour]
    split <;> rw [uncoloured_append]
    simp

theorem inColour_append : ∀ (a : Str) (b : Bool) (s : Str), inColour b (a ++ s) = inColour (inColour b a) s
  | [], b, s => by cases b <;> simp [inColour]
  | c :: a, true, s => by
    rw [List.cons_append, inColour, inColour]
    split <;> rw [inColour_append]
  | c :: a, false, s => by
    rw [List.cons_append, inColour, inColour]
    split <;> rw [inColour_append]

theorem uncoloured_length : ∀ (s : Str) (b : Bool), (uncoloured b s).length ≤ s.length
  | [], b => by cases b <;> simp [uncoloured]
  | c :: r, true => by
    rw [uncoloured]
    have h1 := uncoloured_length r false
    have h2 := uncoloured_length r true
    split <;> simp <;> omega
  | c :: r, false => by
    rw [uncoloured]
    have h1 := uncoloured_length r false
    have h2 := uncoloured_length r true
    split <;> simp <;> omega

theorem uncoloured_plain : ∀ {s : Str}, '\x1b' ∉ s → uncoloured false s = s ∧ inColour false s = false
  | [], _ => by simp [uncoloured, inColour]
  | c :: r, h => by
    have hc : c ≠ '\x1b' := fun e => h (by simp [e])
    have := uncoloured_plain (s := r) fun e => h (by simp [e])
    simp [uncoloured, inColour, hc, this]

/-- The words of a text, colons at their ends left out. -/
def bareWords (s : Str) : List Str := (shownWords s).map noColon

theorem bareWords_append {c : Char} (hc : IsWhitespace c) {a : Str} (ha : inColour false a = false) (b : Str) :
    bareWords (a ++ c :: b) = bareWords a ++ bareWords b := by
  have hce : c ≠ '\x1b' := by
    rintro rfl
    revert hc
    decide
  rw [bareWords, shownWords, uncoloured_append, ha, uncoloured, if_neg hce, words_append hc, List.map_append]
  rfl

theorem bareWords_nil : bareWords [] = [] := by simp [bareWords, shownWords, uncoloured, words_nil]

theorem bareWords_cons {c : Char} (hc : IsWhitespace c) (b : Str) : bareWords (c :: b) = bareWords b := by
  have := bareWords_append hc (a := []) rfl b
  rw [bareWords_nil] at this
  simpa using this

theorem bareWords_blanks (k : Nat) (s : Str) : bareWords (List.replicate k ' ' ++ s) = bareWords s := by
  induction k with
  | zero => rfl
  | succ k ih => rw [List.replicate_succ, List.cons_append, bareWords_cons ws_blank, ih]

theorem bareWords_join : ∀ {g : List Str}, (∀ x ∈ g, inColour false x = false) →
    bareWords (join [' '] g) = g.flatMap bareWords ∧ inColour false (join [' '] g) = false
  | [], _ => ⟨bareWords_nil, rfl⟩
  | [x], h => by rw [join]; exact ⟨by simp, h x (by simp)⟩
  | x :: y :: r, h => by
    obtain ⟨h1, h2⟩ := bareWords_join (g := y :: r) fun z hz => h z (List.mem_cons_of_mem _ hz)
    rw [join, List.append_assoc, List.cons_append, List.nil_append, bareWords_append ws_blank (h x (by simp)), h1,
      inColour_append, h x (by simp), inColour, if_neg (by decide)]
    exact ⟨by simp, h2⟩

theorem bareWords_unl : ∀ {L : List Str}, (∀ l ∈ L, inColour false l = false) → bareWords (unl L) = L.flatMap bareWords
  | [], _ => bareWords_nil
  | l :: L, h => by
    rw [unl_cons, bareWords_append ws_lf (h l (by simp)), bareWords_unl fun x hx => h x (List.mem_cons_of_mem _ hx)]
    simp

/-! ### The colon at the end of a line of words -/

theorem dropEndColon_append (p : Str) {x : Str} (hx : x ≠ []) : dropEndColon (p ++ x) = p ++ dropEndColon x := by
  unfold dropEndColon
  rw [List.getLast?_append_of_ne_nil _ hx, List.dropLast_append_of_ne_nil hx]
  split <;> rfl

theorem join_snoc : ∀ (a : List Str), ∃ q : Str, ∀ x, join [' '] (a ++ [x]) = q ++ x
  | [] => ⟨[], fun x => by simp [join]⟩
  | y :: a => by
    obtain ⟨q, hq⟩ := join_snoc a
    refine ⟨y ++ ' ' :: q, fun x => ?_⟩
    obtain ⟨z, r, e⟩ := List.exists_cons_of_ne_nil (l := a ++ [x]) (by simp)
    rw [List.cons_append, e, join, ← e, hq]
    simp

theorem dropEndColon_join (p : Str) {g : List Str} (hg : g ≠ []) (h : ∀ x ∈ g, x ≠ []) :
    ∃ a x, g = a ++ [x] ∧ dropEndColon (p ++ join [' '] g) = p ++ join [' '] (a ++ [dropEndColon x]) := by
  refine ⟨g.dropLast, g.getLast hg, (List.dropLast_concat_getLast hg).symm, ?_⟩
  obtain ⟨q, hq⟩ := join_snoc g.dropLast
  have e := hq (g.getLast hg)
  rw [List.dropLast_concat_getLast hg] at e
  rw [e, hq, ← List.append_assoc, dropEndColon_append _ (h _ (List.getLast_mem hg)), List.append_assoc]

/-- What the proofs need to know of a word. -/
def checkWord (x : Str) : Bool :=
  !inColour false x && !inColour false (dropEndColon x) && decide (bareWords (dropEndColon x) = bareWords x)

/-- What the proofs need to know of a line that does not depend on the width. -/
def checkLine (l : Str) : Bool :=
  !inColour false (dropEndColon l) && decide (bareWords (dropEndColon l) = bareWords l)

/-- A line of words. -/
theorem bareWords_line (p : Str) (hp : inColour false p = false) {g : List Str} (hg : g ≠ []) (hne : ∀ x ∈ g, x ≠ [])
    (h : ∀ x ∈ g, checkWord x = true) :
    bareWords (dropEndColon (p ++ [' '] ++ join [' '] g)) = bareWords p ++ g.flatMap bareWords ∧
    inColour false (dropEndColon (p ++ [' '] ++ join [' '] g)) = false := by
  obtain ⟨a, x, rfl, e⟩ := dropEndColon_join (p ++ [' ']) hg hne
  have h' : ∀ y ∈ a ++ [x], inColour false y = false ∧ inColour false (dropEndColon y) = false ∧
      bareWords (dropEndColon y) = bareWords y := by
    intro y hy
    have := h y hy
    simp only [checkWord, Bool.and_eq_true, Bool.not_eq_true', decide_eq_true_eq] at this
    exact ⟨this.1.1, this.1.2, this.2⟩
  have hin : ∀ y ∈ a ++ [dropEndColon x], inColour false y = false := by
    intro y hy
    rcases List.mem_append.1 hy with hy | hy
    · exact (h' y (by simp [hy])).1
    · simp only [List.mem_singleton] at hy
      subst hy
      exact (h' x (by simp)).2.1
  obtain ⟨j1, j2⟩ := bareWords_join hin
  rw [e, List.append_assoc, List.cons_append, List.nil_append]
  constructor
  · rw [bareWords_append ws_blank hp, j1]
    simp [(h' x (by simp)).2.2]
  · rw [inColour_append, hp, inColour, if_neg (by decide), j2]

/-! ### The words of the page -/

theorem words_checked : (helpGroups.all fun g => checkLine (formatHeader g.1 ++ [':']) &&
    g.2.all fun e => (entryWords true e).all checkWord && (entryWords false e).all checkWord) = true := by decide +kernel

theorem lines_checked : (headLines.all checkLine && (endLines true true).all checkLine && (endLines true false).all checkLine &&
    (endLines false true).all checkLine && (endLines false false).all checkLine) = true := by decide +kernel

theorem word_checked {g : Str × List HelpEntry} (hg : g ∈ helpGroups) {e : HelpEntry} (he : e ∈ g.2) (tty : Bool) :
    ∀ x ∈ entryWords tty e, checkWord x = true := by
  have h := List.all_eq_true.1 words_checked g hg
  simp only [Bool.and_eq_true] at h
  have h := List.all_eq_true.1 h.2 e he
  simp only [Bool.and_eq_true] at h
  cases tty
  · exact List.all_eq_true.1 h.2
  · exact List.all_eq_true.1 h.1

theorem end_checked (tty remarks : Bool) : (endLines tty remarks).all checkLine = true := by
  have h := lines_checked
  simp only [Bool.and_eq_true] at h
  obtain ⟨⟨⟨⟨_, h1⟩, h2⟩, h3⟩, h4⟩ := h
  cases tty <;> cases remarks
  · exact h4
  · exact h3
  · exact h2
  · exact h1

theorem head_checked : headLines.all checkLine = true := by
  have h := lines_checked
  simp only [Bool.and_eq_true] at h
  exact h.1.1.1.1

/-- Lines whose words are kept. -/
def Kept (L : List Str) (ws : List Str) : Prop :=
  (∀ l ∈ L, inColour false (dropEndColon l) = false) ∧ (L.map dropEndColon).flatMap bareWords = ws

theorem Kept.append {A B ws vs : List Str} (h1 : Kept A ws) (h2 : Kept B vs) : Kept (A ++ B) (ws ++ vs) := by
  refine ⟨?_, by rw [List.map_append, List.flatMap_append, h1.2, h2.2]⟩
  intro l hl
  rcases List.mem_append.1 hl with h | h
  · exact h1.1 l h
  · exact h2.1 l h

theorem Kept.flatMap {α : Type} (f : α → List Str) (w : α → List Str) : ∀ {l : List α},
    (∀ e ∈ l, Kept (f e) (w e)) → Kept (l.flatMap f) (l.flatMap w)
  | [], _ => ⟨by simp, by simp⟩
  | e :: l, h => by
    rw [List.flatMap_cons, List.flatMap_cons]
    exact (h e (by simp)).append (Kept.flatMap f w fun x hx => h x (List.mem_cons_of_mem _ hx))

theorem Kept.of_check {L : List Str} (h : L.all checkLine = true) : Kept L (L.flatMap bareWords) := by
  have h' : ∀ l ∈ L, inColour false (dropEndColon l) = false ∧ bareWords (dropEndColon l) = bareWords l := by
    intro l hl
    have := List.all_eq_true.1 h l hl
    simpa [checkLine] using this
  refine ⟨fun l hl => (h' l hl).1, ?_⟩
  rw [List.flatMap_map]
  clear h
  induction L with
  | nil => rfl
  | cons l L ih =>
    rw [List.flatMap_cons, List.flatMap_cons, (h' l (by simp)).2, ih fun x hx => h' x (List.mem_cons_of_mem _ hx)]

/-- The words about an entry. -/
theorem entryLines_kept {tty : Bool} {w : Nat} (hw : 20 ≤ w) {g : Str × List HelpEntry} (hg : g ∈ helpGroups)
    {e : HelpEntry} (he : e ∈ g.2) :
    Kept (entryLines (helpPosition w) (invocation e) (entryGroups tty w e))
      (bareWords (invocation e) ++ (entryWords tty e).flatMap bareWords) := by
  obtain ⟨h1, h2, h3, _⟩ := entryGroups_ok hw (entry_ok hg he tty)
  have hpos := helpPosition_ge w
  have hcheck := word_checked hg he tty
  have hplain : ∀ x ∈ entryWords tty e, x ≠ [] := by
    have := entry_ok hg he tty
    simp only [checkEntry, Bool.and_eq_true, decide_eq_true_eq] at this
    intro x hx
    exact (okWord_plain (okWords_mem this.1.1.2 x hx)).1
  have hi := invocation_ok hg he
  simp only [checkInvocation, Bool.and_eq_true, Bool.not_eq_true', decide_eq_true_eq] at hi
  obtain ⟨⟨⟨⟨⟨_, i2⟩, _⟩, i4⟩, _⟩, _⟩ := hi
  have i2' : ':' ∉ invocation e := by simpa using i2
  have i4' : '\x1b' ∉ invocation e := by simpa using i4
  rw [← h1] at hcheck hplain ⊢
  generalize hp : helpPosition w = pos at *
  generalize entryGroups tty w e = gs at *
  generalize invocation e = v at *
  have hrest : ∀ gs : List (List Str), (∀ g ∈ gs, g ≠ [] ∧ ∀ x ∈ g, x ≠ [] ∧ checkWord x = true) →
      Kept (gs.map fun g => List.replicate pos ' ' ++ join [' '] g) (gs.flatten.flatMap bareWords) := by
    intro gs hgs
    have e1 : ∀ g : List Str, List.replicate pos ' ' ++ join [' '] g = List.replicate (pos - 1) ' ' ++ [' '] ++ join [' '] g := by
      intro g
      obtain ⟨k, rfl⟩ : ∃ k, pos = k + 1 := ⟨pos - 1, by omega⟩
      simp [List.replicate_succ']
    have hb : inColour false (List.replicate (pos - 1) ' ') = false := (uncoloured_plain (by simp [List.mem_replicate])).2
    have hbw : bareWords (List.replicate (pos - 1) ' ') = [] := by
      have := bareWords_blanks (pos - 1) []
      rw [bareWords_nil] at this
      simpa using this
    induction gs with
    | nil => exact ⟨by simp, by simp⟩
    | cons g gs ih =>
      have hg := hgs g (by simp)
      obtain ⟨l1, l2⟩ := bareWords_line (List.replicate (pos - 1) ' ') hb hg.1 (fun x hx => (hg.2 x hx).1) fun x hx => (hg.2 x hx).2
      have : Kept [List.replicate pos ' ' ++ join [' '] g] (g.flatMap bareWords) := by
        rw [e1]
        refine ⟨?_, ?_⟩
        · simp only [List.mem_singleton, forall_eq]
          exact l2
        · rw [hbw] at l1
          simpa using l1
      have h := this.append (ih fun x hx => hgs x (List.mem_cons_of_mem _ hx))
      simpa using h
  have hall : ∀ g ∈ gs, g ≠ [] ∧ ∀ x ∈ g, x ≠ [] ∧ checkWord x = true := by
    intro g hg
    exact ⟨(h3 g hg).1, fun x hx => ⟨hplain x (List.mem_flatten.2 ⟨g, hg, hx⟩), hcheck x (List.mem_flatten.2 ⟨g, hg, hx⟩)⟩⟩
  obtain ⟨f, fs, rfl⟩ := List.exists_cons_of_ne_nil h2
  have hv := (uncoloured_plain i4').2
  rw [entryLines]
  by_cases hfit : v.length ≤ pos - 2 - 2
  · simp only [hfit, if_true]
    have hf := hall f (by simp)
    have hpre : [' ', ' '] ++ ljust (pos - 2 - 2) ' ' v ++ [' ', ' '] ++ join [' '] f =
        ([' ', ' '] ++ v ++ [' '] ++ List.replicate (pos - 2 - 2 - v.length) ' ') ++ [' '] ++ join [' '] f := by
      have : List.replicate (pos - 2 - 2 - v.length) ' ' ++ [' '] = ' ' :: List.replicate (pos - 2 - 2 - v.length) ' ' := by
        rw [← List.replicate_succ', List.replicate_succ]
      simp only [ljust, List.append_assoc]
      rw [show ([' ', ' '] : Str) ++ join [' '] f = [' '] ++ ([' '] ++ join [' '] f) from rfl,
        ← List.append_assoc (List.replicate _ ' ') [' '], this]
      simp
    have hp : inColour false ([' ', ' '] ++ v ++ [' '] ++ List.replicate (pos - 2 - 2 - v.length) ' ') = false := by
      refine (uncoloured_plain ?_).2
      simp [List.mem_replicate, i4']
    have hpw : bareWords ([' ', ' '] ++ v ++ [' '] ++ List.replicate (pos - 2 - 2 - v.length) ' ') = bareWords v := by
      have := bareWords_append ws_blank hv (List.replicate (pos - 2 - 2 - v.length) ' ')
      have hb := bareWords_blanks (pos - 2 - 2 - v.length) []
      rw [bareWords_nil, List.append_nil] at hb
      rw [hb, List.append_nil] at this
      rw [← this]
      show bareWords (' ' :: ' ' :: v ++ [' '] ++ _) = _
      rw [List.cons_append, List.cons_append, List.cons_append, List.cons_append, bareWords_cons ws_blank, bareWords_cons ws_blank]
      simp
    obtain ⟨l1, l2⟩ := bareWords_line _ hp hf.1 (fun x hx => (hf.2 x hx).1) fun x hx => (hf.2 x hx).2
    have h1 : Kept [[' ', ' '] ++ ljust (pos - 2 - 2) ' ' v ++ [' ', ' '] ++ join [' '] f] (bareWords v ++ f.flatMap bareWords) := by
      rw [hpre]
      refine ⟨?_, ?_⟩
      · simp only [List.mem_singleton, forall_eq]
        exact l2
      · rw [hpw] at l1
        simpa using l1
    have h := h1.append (hrest fs fun x hx => hall x (List.mem_cons_of_mem _ hx))
    simpa using h
  · simp only [hfit, if_false]
    have hd : dropEndColon ([' ', ' '] ++ v) = [' ', ' '] ++ v := by
      unfold dropEndColon
      rw [if_neg]
      intro h
      have := List.mem_of_getLast? h
      simp [i2'] at this
    have h1 : Kept [[' ', ' '] ++ v] (bareWords v) := by
      refine ⟨?_, ?_⟩
      · simp only [List.mem_singleton, forall_eq]
        rw [hd]
        exact (uncoloured_plain (by simp [i4'])).2
      · rw [List.map_singleton, List.flatMap_singleton, hd]
        show bareWords (' ' :: ' ' :: v) = _
        rw [bareWords_cons ws_blank, bareWords_cons ws_blank]
    exact h1.append (hrest (f :: fs) hall)

/-- The words of the page. -/
def pageWords (tty remarks : Bool) : List Str :=
  headLines.flatMap bareWords ++
    helpGroups.flatMap (fun g => bareWords (formatHeader g.1 ++ [':']) ++
      g.2.flatMap fun e => bareWords (invocation e) ++ (entryWords tty e).flatMap bareWords) ++
    (endLines tty remarks).flatMap bareWords

theorem pageLines_kept {tty : Bool} {w : Nat} (hw : 20 ≤ w) (remarks : Bool) :
    Kept (pageLines tty w remarks) (pageWords tty remarks) := by
  unfold pageLines pageWords
  refine (Kept.append (Kept.of_check head_checked) ?_).append (Kept.of_check (end_checked tty remarks))
  refine Kept.flatMap _ _ fun g hg => ?_
  have ht := List.all_eq_true.1 words_checked g hg
  simp only [Bool.and_eq_true] at ht
  have h0 : Kept [[], formatHeader g.1 ++ [':']] (bareWords (formatHeader g.1 ++ [':'])) := by
    have := Kept.of_check (L := [[], formatHeader g.1 ++ [':']]) (by
      simp only [List.all_cons, List.all_nil, Bool.and_true, Bool.and_eq_true]
      exact ⟨by decide, ht.1⟩)
    rw [List.flatMap_cons, List.flatMap_singleton, bareWords_nil] at this
    exact this
  have h1 := Kept.flatMap (fun e => entryLines (helpPosition w) (invocation e) (entryGroups tty w e))
    (fun e => bareWords (invocation e) ++ (entryWords tty e).flatMap bareWords) (l := g.2) fun e he => entryLines_kept hw hg he
  exact h0.append h1

theorem formatHelp_words (tty : Bool) {c : Nat} (hc : 22 ≤ c) (remarks : Bool) :
    bareWords (formatHelp tty c (if remarks then some (join ['\n'] (helpEpilog tty)) else none)) = pageWords tty remarks := by
  obtain ⟨k1, k2⟩ := pageLines_kept (tty := tty) (w := c - 2) (by omega) remarks
  rw [formatHelp_lines tty hc, bareWords_unl, k2]
  intro l hl
  obtain ⟨m, hm, rfl⟩ := List.mem_map.1 hl
  exact k1 m hm

theorem pageWords_tty (tty : Bool) : pageWords tty true = pageWords false true := by
  cases tty
  · rfl
  · decide +kernel

end Kolombos
