import Verif.Lemmas.Wrap
import Verif.Lemmas.HelpColons
/-
The lines of the help page.
-/
set_option linter.unusedSimpArgs false
namespace Kolombos

/-! ### Words with colons -/

/-- A word in which a colon can only be the last character, after others. -/
def okWord (x : Str) : Bool := !x.isEmpty && !x.dropLast.contains ':' && x != [':'] && x.all fun c => !isPySpace c

/-- A colon at the end. -/
def endsColon (x : Str) : Bool := x.getLast? == some ':'

/-- The words of a text: after a word with a colon another word follows, which does not begin with an
escape character. -/
def okWords : List Str → Bool
  | [] => true
  | [x] => okWord x && !endsColon x
  | x :: y :: r => okWord x && (!endsColon x || y.head? != some '\x1b') && okWords (y :: r)

/-- The same for some of the words. -/
def okSome : List Str → Bool
  | [] => true
  | [x] => okWord x
  | x :: y :: r => okWord x && (!endsColon x || y.head? != some '\x1b') && okSome (y :: r)

theorem okWords_append : ∀ (g : List Str) (ws : List Str), okWords (g ++ ws) = true →
    okSome g = true ∧ okWords ws = true ∧
      ∀ x, g.getLast? = some x → endsColon x = true → ∃ y, ws.head? = some y ∧ y.head? ≠ some '\x1b'
  | [], ws, h => ⟨rfl, h, by simp⟩
  | [x], [], h => by
    simp only [List.append_nil, okWords, Bool.and_eq_true, Bool.not_eq_true'] at h
    refine ⟨h.1, rfl, ?_⟩
    intro y hy hc
    simp at hy
    subst hy
    rw [h.2] at hc
    cases hc
  | [x], y :: r, h => by
    simp only [List.cons_append, List.nil_append, okWords, Bool.and_eq_true, Bool.or_eq_true, Bool.not_eq_true', bne_iff_ne] at h
    refine ⟨h.1.1, h.2, ?_⟩
    intro z hz hc
    simp at hz
    subst hz
    rcases h.1.2 with h | h
    · rw [h] at hc; cases hc
    · exact ⟨y, rfl, h⟩
  | x :: y :: r, ws, h => by
    simp only [List.cons_append, okWords, Bool.and_eq_true] at h
    obtain ⟨h1, h2, h3⟩ := okWords_append (y :: r) ws (by simpa using h.2)
    refine ⟨by simp only [okSome, Bool.and_eq_true]; exact ⟨h.1, h1⟩, h2, ?_⟩
    intro z hz
    rw [List.getLast?_cons_cons] at hz
    exact h3 z hz

theorem okWord_plain {x : Str} (h : okWord x = true) : IsPlainWord x := by
  simp only [okWord, Bool.and_eq_true] at h
  refine ⟨by simpa using h.1.1.1, fun c hc => ?_⟩
  have := List.all_eq_true.1 h.2 c hc
  simpa using this

theorem okSome_mem : ∀ {g : List Str}, okSome g = true → ∀ x ∈ g, okWord x = true
  | [x], h, y, hy => by simp at hy; subst hy; exact h
  | x :: y :: r, h, z, hz => by
    simp only [okSome, Bool.and_eq_true] at h
    rcases List.mem_cons.1 hz with rfl | hz
    · exact h.1.1
    · exact okSome_mem h.2 z hz

/-- The word without its last character has no colon. -/
theorem okWord_split {x : Str} (h : okWord x = true) :
    (':' ∉ x ∧ endsColon x = false) ∨ ∃ a, a ≠ [] ∧ x = a ++ [':'] ∧ ':' ∉ a ∧ endsColon x = true := by
  simp only [okWord, Bool.and_eq_true, Bool.not_eq_true', bne_iff_ne] at h
  obtain ⟨⟨⟨h1, h2⟩, h3⟩, _⟩ := h
  have hne : x ≠ [] := by simpa using h1
  have hd : ':' ∉ x.dropLast := by simpa using h2
  have hx := List.dropLast_append_getLast hne
  by_cases hl : x.getLast hne = ':'
  · right
    refine ⟨x.dropLast, fun e => h3 ?_, ?_, hd, ?_⟩
    · rw [e, hl] at hx; simpa using hx.symm
    · rw [hl] at hx; exact hx.symm
    · simp [endsColon, List.getLast?_eq_some_getLast hne, hl]
  · left
    refine ⟨?_, ?_⟩
    · rw [← hx]
      simp only [List.mem_append, List.mem_singleton, not_or]
      exact ⟨hd, fun e => hl e.symm⟩
    · simp [endsColon, List.getLast?_eq_some_getLast hne, hl]

/-! ### Lines made of words -/

theorem okLine_skip : ∀ (p : Str) (b : Bool) (s : Str), ':' ∉ p → p ≠ [] →
    okLine b (p ++ s) = okLine (p.getLast?.any isPySpace) s
  | [c], b, s, h, _ => by
    have hc : c ≠ ':' := fun e => h (by simp [e])
    simp [okLine, hc]
  | c :: d :: p, b, s, h, _ => by
    have hc : c ≠ ':' := fun e => h (by simp [e])
    rw [List.cons_append, okLine, if_neg hc, okLine_skip (d :: p) _ s (fun hm => h (List.mem_cons_of_mem _ hm)) (by simp),
      List.getLast?_cons_cons]

theorem plain_last {x : Str} (h : IsPlainWord x) : x.getLast?.any isPySpace = false := by
  rw [List.getLast?_eq_some_getLast h.1]
  simp [h.2 _ (List.getLast_mem h.1)]

theorem goesOn_plain {x : Str} (h : IsPlainWord x) (hh : x.head? ≠ some '\x1b') (s : Str) : goesOn (x ++ s) = true := by
  obtain ⟨c, r, rfl⟩ := List.exists_cons_of_ne_nil h.1
  have := h.2 c (by simp)
  simp only [List.head?_cons, ne_eq, Option.some.injEq] at hh
  simp [goesOn, List.dropWhile_cons, this, hh]

theorem goesOn_blanks (n : Nat) (s : Str) : goesOn (List.replicate n ' ' ++ s) = goesOn s := by
  induction n with
  | zero => rfl
  | succ n ih =>
    rw [List.replicate_succ, List.cons_append]
    rw [← ih]
    unfold goesOn
    rw [List.dropWhile_cons, if_pos (by decide)]

theorem join_head {y : Str} {r : List Str} : ∃ s, join [' '] (y :: r) = y ++ s := by
  cases r with
  | nil => exact ⟨[], by simp [join]⟩
  | cons z r => exact ⟨' ' :: join [' '] (z :: r), by simp [join]⟩

/-- A line of words. -/
theorem okLine_join : ∀ {g : List Str}, okSome g = true → ∀ b, okLine b (join [' '] g) = true
  | [], _, _ => rfl
  | [x], h, b => by
    have hp := okWord_plain h
    simp only [join]
    rcases okWord_split h with ⟨h1, _⟩ | ⟨a, ha, hx, hca, _⟩
    · rw [← List.append_nil x, okLine_skip x b [] h1 hp.1, okLine]
    · have hla : a.getLast?.any isPySpace = false := by
        rw [List.getLast?_eq_some_getLast ha]
        simp only [Option.any_some]
        exact hp.2 _ (by rw [hx]; exact List.mem_append_left _ (List.getLast_mem ha))
      rw [hx, okLine_skip a b _ hca ha, hla]
      rfl
  | x :: y :: r, h, b => by
    simp only [okSome, Bool.and_eq_true, Bool.or_eq_true, Bool.not_eq_true', bne_iff_ne] at h
    obtain ⟨⟨hx, hy⟩, hr⟩ := h
    have hp := okWord_plain hx
    have hyp := okWord_plain (okSome_mem hr y (by simp))
    have ih := okLine_join hr
    rw [join, List.append_assoc]
    rcases okWord_split hx with ⟨h1, _⟩ | ⟨a, ha, hxa, hca, he⟩
    · rw [okLine_skip x b _ h1 hp.1, List.cons_append, okLine, if_neg (by decide)]
      exact ih _
    · have hla : a.getLast?.any isPySpace = false := by
        rw [List.getLast?_eq_some_getLast ha]
        simp only [Option.any_some]
        exact hp.2 _ (by rw [hxa]; exact List.mem_append_left _ (List.getLast_mem ha))
      have hyh : y.head? ≠ some '\x1b' := by
        rcases hy with hy | hy
        · rw [he] at hy; cases hy
        · exact hy
      have hgo : goesOn (' ' :: join [' '] (y :: r)) = true := by
        obtain ⟨s, hs⟩ := join_head (y := y) (r := r)
        rw [hs]
        exact (goesOn_blanks 1 _).trans (goesOn_plain hyp hyh s)
      rw [hxa, List.append_assoc, okLine_skip a b _ hca ha, hla, List.cons_append, okLine, if_pos rfl]
      simp only [List.nil_append, List.cons_append]
      rw [hgo, okLine, if_neg (by decide), ih]
      simp

theorem join_last : ∀ {g : List Str}, g ≠ [] → (∀ x ∈ g, x ≠ []) → ∃ x, g.getLast? = some x ∧ (join [' '] g).getLast? = x.getLast?
  | [x], _, _ => ⟨x, rfl, rfl⟩
  | x :: y :: r, _, h => by
    obtain ⟨z, h1, h2⟩ := join_last (g := y :: r) (by simp) (fun w hw => h w (List.mem_cons_of_mem _ hw))
    refine ⟨z, by rw [List.getLast?_cons_cons, h1], ?_⟩
    rw [join, List.getLast?_append_of_ne_nil, h2]
    obtain ⟨s, hs⟩ := join_head (y := y) (r := r)
    rw [hs]
    simp [h y (by simp)]

theorem join_ne_nil {g : List Str} (h : g ≠ []) (hx : ∀ x ∈ g, x ≠ []) : join [' '] g ≠ [] := by
  obtain ⟨y, r, rfl⟩ := List.exists_cons_of_ne_nil h
  obtain ⟨s, hs⟩ := join_head (y := y) (r := r)
  rw [hs]
  simp [hx y (by simp)]

theorem mem_joinBlank {c : Char} : ∀ {g : List Str}, c ∈ join [' '] g → c = ' ' ∨ ∃ x ∈ g, c ∈ x
  | [x], h => .inr ⟨x, by simp, h⟩
  | x :: y :: r, h => by
    rw [join] at h
    simp only [List.mem_append, List.mem_singleton] at h
    rcases h with (h | h) | h
    · exact .inr ⟨x, by simp, h⟩
    · exact .inl h
    · rcases mem_joinBlank h with h | ⟨z, hz, h⟩
      · exact .inl h
      · exact .inr ⟨z, List.mem_cons_of_mem _ hz, h⟩

theorem join_lf {g : List Str} (h : ∀ x ∈ g, IsPlainWord x) : '\n' ∉ join [' '] g := by
  intro hm
  rcases mem_joinBlank hm with h' | ⟨x, hx, h'⟩
  · cases h'
  · have := (h x hx).2 _ h'
    rw [isPySpace_lf] at this
    cases this

/-- Lines that are followed by others. -/
theorem okLines_append : ∀ {A B : List Str}, okLines A = true → (∀ l, A.getLast? = some l → l.getLast? ≠ some ':') →
    okLines B = true → okLines (A ++ B) = true
  | [], B, _, _, hB => hB
  | [l], B, hA, hl, hB => by
    simp only [okLines, Bool.and_eq_true] at hA
    simp only [List.cons_append, List.nil_append, okLines, Bool.and_eq_true]
    refine ⟨⟨hA.1.1, ?_⟩, hB⟩
    simp [okNext, hl l rfl]
  | l :: m :: A, B, hA, hl, hB => by
    rw [okLines] at hA
    simp only [Bool.and_eq_true] at hA
    have ih := okLines_append (A := m :: A) (B := B) hA.2 (fun x hx => hl x (by rw [List.getLast?_cons_cons]; exact hx)) hB
    rw [List.cons_append, okLines]
    simp only [Bool.and_eq_true]
    refine ⟨⟨hA.1.1, ?_⟩, ih⟩
    exact hA.1.2

/-- The lines of wrapped words, with blanks before them. -/
theorem okLines_groups (pos : Nat) : ∀ (gs : List (List Str)), (∀ g ∈ gs, g ≠ []) → okWords gs.flatten = true →
    okLines (gs.map fun g => List.replicate pos ' ' ++ join [' '] g) = true ∧
    ∀ l, (gs.map fun g => List.replicate pos ' ' ++ join [' '] g).getLast? = some l → l.getLast? ≠ some ':'
  | [], _, _ => ⟨rfl, by simp⟩
  | g :: gs, hne, h => by
    rw [List.flatten_cons] at h
    obtain ⟨h1, h2, h3⟩ := okWords_append g gs.flatten h
    obtain ⟨i1, i2⟩ := okLines_groups pos gs (fun x hx => hne x (List.mem_cons_of_mem _ hx)) h2
    have hg := hne g (by simp)
    have hw := okSome_mem h1
    have hwn : ∀ x ∈ g, x ≠ [] := fun x hx => (okWord_plain (hw x hx)).1
    obtain ⟨z, hz, hzl⟩ := join_last hg hwn
    have hjn := join_ne_nil hg hwn
    have hlast : (List.replicate pos ' ' ++ join [' '] g).getLast? = z.getLast? := by
      rw [List.getLast?_append_of_ne_nil _ hjn, hzl]
    have hcol : z.getLast? = some ':' → ∃ y, gs.flatten.head? = some y ∧ y.head? ≠ some '\x1b' :=
      fun e => h3 z hz (by simp [endsColon, e])
    have hline : okLine true (List.replicate pos ' ' ++ join [' '] g) = true := by
      cases pos with
      | zero => exact okLine_join h1 _
      | succ n =>
        rw [okLine_skip _ _ _ (by simp [List.mem_replicate]) (by simp)]
        exact okLine_join h1 _
    have hlf : '\n' ∉ List.replicate pos ' ' ++ join [' '] g := by
      simp only [List.mem_append, List.mem_replicate, not_or]
      exact ⟨by simp, join_lf fun x hx => okWord_plain (hw x hx)⟩
    refine ⟨?_, ?_⟩
    · rw [List.map_cons, okLines]
      simp only [Bool.and_eq_true]
      refine ⟨⟨⟨hline, by simpa using hlf⟩, ?_⟩, i1⟩
      unfold okNext
      rw [hlast]
      split
      · rename_i hc
        obtain ⟨y, hy, hye⟩ := hcol hc
        cases gs with
        | nil => simp at hy
        | cons g' gs =>
          have hg' := hne g' (by simp)
          obtain ⟨y', r', rfl⟩ := List.exists_cons_of_ne_nil hg'
          simp only [List.flatten_cons, List.cons_append, List.head?_cons, Option.some.injEq] at hy
          subst hy
          have hyp : IsPlainWord y' := by
            rw [List.flatten_cons] at h2
            exact okWord_plain (okSome_mem (okWords_append _ _ h2).1 y' (by simp))
          obtain ⟨s, hs⟩ := join_head (y := y') (r := r')
          show goesOn (List.replicate pos ' ' ++ join [' '] (y' :: r')) = true
          rw [goesOn_blanks, hs]
          exact goesOn_plain hyp hye s
      · rfl
    · intro l hl
      cases gs with
      | nil =>
        simp only [List.map_cons, List.map_nil, List.getLast?_singleton, Option.some.injEq] at hl
        subst hl
        rw [hlast]
        intro e
        obtain ⟨y, hy, _⟩ := hcol e
        simp at hy
      | cons g' gs =>
        rw [List.map_cons, List.map_cons, List.getLast?_cons_cons] at hl
        exact i2 l (by rw [List.map_cons]; exact hl)

/-! ### Splitting at blanks -/

theorem splitOn_word {x : Str} (h : ' ' ∉ x) : splitOn ' ' x = [x] := by
  induction x with
  | nil => rfl
  | cons c x ih =>
    have hc : c ≠ ' ' := fun e => h (by simp [e])
    rw [splitOn, if_neg hc, ih fun hm => h (by simp [hm])]

theorem splitOn_cons {x : Str} (h : ' ' ∉ x) (s : Str) : splitOn ' ' (x ++ ' ' :: s) = x :: splitOn ' ' s := by
  induction x with
  | nil => simp [splitOn]
  | cons c x ih =>
    have hc : c ≠ ' ' := fun e => h (by simp [e])
    rw [List.cons_append, splitOn, if_neg hc, ih fun hm => h (by simp [hm])]

theorem splitOn_join : ∀ {g : List Str}, g ≠ [] → (∀ x ∈ g, ' ' ∉ x) → splitOn ' ' (join [' '] g) = g
  | [x], _, h => splitOn_word (h x (by simp))
  | x :: y :: r, _, h => by
    rw [join, List.append_assoc, List.cons_append, List.nil_append, splitOn_cons (h x (by simp)),
      splitOn_join (by simp) fun z hz => h z (List.mem_cons_of_mem _ hz)]

theorem plain_blank {x : Str} (h : IsPlainWord x) : ' ' ∉ x := fun hm => by
  have := h.2 _ hm
  exact absurd this (by decide)

end Kolombos
