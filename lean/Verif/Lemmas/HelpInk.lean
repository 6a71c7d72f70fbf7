import Verif.Lemmas.HelpWords
/-
Whatever the width, no printed character of the help page is lost.
-/
set_option linter.unusedSimpArgs false
namespace Kolombos
open Spec

theorem inked_append (a b : Str) : inked (a ++ b) = inked a ++ inked b := by simp [inked]

theorem inked_nil : inked [] = [] := rfl

theorem inked_of_blank {s : Str} (h : ∀ c ∈ s, isPySpace c = true) : inked s = [] := by
  rw [inked, List.filter_eq_nil_iff]
  intro c hc
  have := (pySpace_iff c).1 (h c hc)
  simp [this]

theorem inked_cons_blank {c : Char} (h : isPySpace c = true) (s : Str) : inked (c :: s) = inked s := by
  unfold inked
  rw [List.filter_cons, if_neg (by simp [(pySpace_iff c).1 h])]

theorem inked_colon (s : Str) : inked (':' :: s) = inked s := by
  unfold inked
  rw [List.filter_cons, if_neg (by simp)]

theorem inked_blanks (k : Nat) : inked (List.replicate k ' ') = [] := by
  apply inked_of_blank
  intro c hc
  rw [List.mem_replicate] at hc
  rw [hc.2]
  decide

theorem inked_takeDrop (p : Char → Bool) (s : Str) : inked (s.takeWhile p) ++ inked (s.dropWhile p) = inked s := by
  rw [← inked_append, List.takeWhile_append_dropWhile]

theorem inked_dropBlanks (s : Str) : inked (s.dropWhile isPySpace) = inked s := by
  have := inked_takeDrop isPySpace s
  rw [inked_of_blank (fun c hc => List.all_eq_true.1 (List.all_takeWhile (p := isPySpace)) c hc)] at this
  simpa using this

/-! ### Colons -/

theorem inked_colonHere {s g rest : Str} (h : colonHere s = some (g, rest)) : inked s = inked g ++ inked rest := by
  rw [← inked_dropBlanks s]
  unfold colonHere at h
  split at h
  · rename_i r hr
    rw [hr, inked_colon, ← inked_dropBlanks r]
    simp only [] at h
    split at h
    · rename_i e
      simp only [Option.some.injEq, Prod.mk.injEq] at h
      rw [e, ← h.1, ← h.2]
      rfl
    · rename_i q e
      simp only [Option.some.injEq, Prod.mk.injEq] at h
      rw [e, ← h.1, ← h.2, ← inked_append]
      rfl
    · split at h
      · simp only [Option.some.injEq, Prod.mk.injEq] at h
        rw [← h.1, ← h.2, inked_append, inked_of_blank (s := ['\n']) (by decide)]
        rw [inked_of_blank (s := List.reverse _)]
        · simp
        · intro c hc
          rw [List.mem_reverse] at hc
          have := List.takeWhile_subset _ hc
          rw [List.mem_reverse] at this
          exact List.all_eq_true.1 (List.all_takeWhile (p := isPySpace)) c this
      · cases h
  · cases h

theorem inked_headerColon {s g rest : Str} (h : headerColon s = some (g, rest)) : inked s = inked g ++ inked rest := by
  unfold headerColon at h
  split at h
  · rename_i k _
    split at h
    · rename_i g' rest' e
      simp only [Option.some.injEq, Prod.mk.injEq] at h
      rw [← h.1, ← h.2, inked_append, List.append_assoc, ← inked_colonHere e, ← inked_append, List.take_append_drop]
    · exact inked_colonHere h
  · exact inked_colonHere h

theorem inked_removeColons : ∀ (n : Nat) (s : Str), inked (removeColons n s) = inked s
  | 0, _ => rfl
  | _ + 1, [] => rfl
  | n + 1, c :: r => by
    rw [removeColons]
    split
    · rename_i g rest e
      rw [inked_append, inked_removeColons n rest, ← inked_headerColon e]
    · have h1 := inked_append [c] (removeColons n r)
      have h2 := inked_append [c] r
      rw [inked_removeColons n r, ← h2] at h1
      exact h1

/-! ### Line breaks -/

theorem inked_squeezeBreaks : ∀ (s : Str) (k : Nat), inked (squeezeBreaks k s) = inked s
  | [], _ => rfl
  | c :: r, k => by
    rw [squeezeBreaks]
    by_cases hc : c = '\n'
    · subst hc
      rw [if_pos rfl, inked_cons_blank (by decide)]
      split
      · exact inked_squeezeBreaks r _
      · rw [inked_cons_blank (by decide)]
        exact inked_squeezeBreaks r _
    · rw [if_neg hc]
      have h1 := inked_append [c] (squeezeBreaks 0 r)
      have h2 := inked_append [c] r
      rw [inked_squeezeBreaks r 0, ← h2] at h1
      exact h1

theorem lf_blank {p : Str} (h : ∀ c ∈ p, (c == '\n') = true) : inked p = [] := by
  apply inked_of_blank
  intro c hc
  have := h c hc
  simp only [beq_iff_eq] at this
  rw [this]
  decide

theorem inked_rstripLf (s : Str) : inked (rstripLf s) = inked s := by
  have h : s = rstripLf s ++ (s.reverse.takeWhile (· == '\n')).reverse := by
    rw [rstripLf, ← List.reverse_append, List.takeWhile_append_dropWhile, List.reverse_reverse]
  have hb : inked ((s.reverse.takeWhile (· == '\n')).reverse) = [] := by
    apply lf_blank
    intro c hc
    rw [List.mem_reverse] at hc
    exact List.all_eq_true.1 (List.all_takeWhile (p := (· == '\n'))) c hc
  calc inked (rstripLf s) = inked (rstripLf s) ++ inked ((s.reverse.takeWhile (· == '\n')).reverse) := by rw [hb, List.append_nil]
    _ = inked s := by rw [← inked_append, ← h]

theorem inked_finishHelp (s : Str) : inked (finishHelp s) = inked s := by
  unfold finishHelp
  split
  · rename_i h
    rw [h]
  · rw [inked_append, inked_of_blank (s := ['\n']) (by decide), List.append_nil]
    have h := inked_takeDrop (· == '\n') (rstripLf (squeezeBreaks 0 s))
    rw [lf_blank (fun c hc => List.all_eq_true.1 (List.all_takeWhile (p := (· == '\n'))) c hc), List.nil_append,
      inked_rstripLf, inked_squeezeBreaks] at h
    exact h

/-! ### Wrapping -/

theorem fillLine_flat (w : Nat) : ∀ (chs : List Str) (len : Nat),
    (fillLine w len chs).1 ++ (fillLine w len chs).2 = chs ∧
      ((fillLine w len chs).1 = [] → ∀ ch, chs.head? = some ch → w < len + ch.length)
  | [], _ => by simp [fillLine]
  | ch :: chs, len => by
    rw [fillLine]
    by_cases h : len + ch.length ≤ w
    · simp only [h, if_true]
      exact ⟨by simp [(fillLine_flat w chs _).1], by simp⟩
    · simp only [h, if_false]
      refine ⟨rfl, ?_⟩
      intro _ x hx
      simp only [List.head?_cons, Option.some.injEq] at hx
      subst hx
      omega

theorem fillLine_sum (w : Nat) : ∀ (chs : List Str) (len : Nat), len ≤ w →
    len + ((fillLine w len chs).1.map List.length).sum ≤ w
  | [], len, h => by simpa [fillLine] using h
  | ch :: chs, len, h => by
    rw [fillLine]
    by_cases h' : len + ch.length ≤ w
    · simp only [h', if_true, List.map_cons, List.sum_cons]
      have := fillLine_sum w chs _ h'
      omega
    · simpa [h'] using h

theorem longWordEnd_le (left : Nat) (ch : Str) : longWordEnd left ch ≤ left := by
  unfold longWordEnd
  split
  · split
    · rename_i h e
      split
      · simp only [rfindHyphen] at e
        split at e
        · rename_i hlt
          simp only [Option.some.injEq] at e
          have : (ch.take left).length ≤ left := by simp
          omega
        · cases e
      · exact Nat.le_refl _
    · exact Nat.le_refl _
  · exact Nat.le_refl _

theorem longWordEnd_pos {left : Nat} (h : 1 ≤ left) (ch : Str) : 1 ≤ longWordEnd left ch := by
  unfold longWordEnd
  split
  · split
    · split
      · omega
      · exact h
    · exact h
  · exact h

/-- The number of characters. -/
def charCount (chs : List Str) : Nat := (chs.map List.length).sum

theorem charCount_append (a b : List Str) : charCount (a ++ b) = charCount a + charCount b := by simp [charCount]

theorem charCount_pos {chs : List Str} (h : ∀ x ∈ chs, x ≠ []) (hne : chs ≠ []) : 1 ≤ charCount chs := by
  obtain ⟨x, r, rfl⟩ := List.exists_cons_of_ne_nil hne
  have := h x (by simp)
  have : x.length ≠ 0 := by simpa using this
  simp only [charCount, List.map_cons, List.sum_cons]
  omega

theorem inked_dropBlankChunk (line : List Str) :
    inked (if line.getLast?.any isBlankChunk then line.dropLast else line).flatten = inked line.flatten := by
  split
  · rename_i h
    by_cases hne : line = []
    · subst hne; rfl
    · rw [List.getLast?_eq_some_getLast hne] at h
      simp only [Option.any_some, isBlankChunk] at h
      conv => rhs; rw [← List.dropLast_concat_getLast hne]
      rw [List.flatten_append, inked_append]
      rw [inked_of_blank (s := ([line.getLast hne] : List Str).flatten) (by simpa using h), List.append_nil]
  · rfl

/-- A pass of the outer loop takes some characters and loses only blanks. -/
theorem pass_ink {w : Nat} (hw : 1 ≤ w) {cs : List Str} (h : ∀ x ∈ cs, x ≠ []) :
    let g := finishLine w (fillLine w 0 cs).1 (fillLine w 0 cs).2
    inked g.1.flatten ++ inked g.2.flatten = inked cs.flatten ∧ (∀ x ∈ g.2, x ≠ []) ∧ charCount g.2 ≤ charCount cs ∧
      (cs ≠ [] → charCount g.2 < charCount cs) := by
  obtain ⟨f1, f2⟩ := fillLine_flat w cs 0
  have f3 := fillLine_sum w cs 0 (by omega)
  generalize hline : (fillLine w 0 cs).1 = line at *
  generalize hrest : (fillLine w 0 cs).2 = rest at *
  subst f1
  have hr : ∀ x ∈ rest, x ≠ [] := fun x hx => h x (by simp [hx])
  have hl : ∀ x ∈ line, x ≠ [] := fun x hx => h x (by simp [hx])
  unfold finishLine
  simp only []
  match rest with
  | [] =>
    simp only []
    refine ⟨?_, by simp, by simp [charCount], ?_⟩
    · rw [inked_dropBlankChunk]
      simp [inked_nil]
    · intro hne
      have := charCount_pos h hne
      simp only [charCount, List.map_nil, List.sum_nil]
      exact this
  | ch :: chs =>
    simp only []
    by_cases hlong : ch.length > w
    · simp only [hlong, if_true]
      have hw1 : ¬ w < 1 := by omega
      simp only [hw1, if_false]
      have hle := longWordEnd_le (w - (line.map List.length).sum) ch
      refine ⟨?_, ?_, ?_, ?_⟩
      · rw [inked_dropBlankChunk]
        simp only [List.flatten_append, List.flatten_cons, List.flatten_nil, List.append_nil, inked_append]
        rw [List.append_assoc, ← List.append_assoc (inked (ch.take _)), ← inked_append (ch.take _), List.take_append_drop]
      · intro x hx
        rcases List.mem_cons.1 hx with rfl | hx
        · intro e
          have := congrArg List.length e
          simp only [List.length_drop, List.length_nil] at this
          omega
        · exact hr x (by simp [hx])
      · rw [charCount_append]
        simp only [charCount, List.map_cons, List.sum_cons, List.length_drop]
        omega
      · intro _
        by_cases hz : line = []
        · subst hz
          have := longWordEnd_pos (left := w - (([] : List Str).map List.length).sum) (by simpa using hw) ch
          rw [charCount_append]
          simp only [charCount, List.map_cons, List.sum_cons, List.length_drop]
          omega
        · have := charCount_pos hl hz
          simp only [charCount] at this
          rw [charCount_append]
          simp only [charCount, List.map_cons, List.sum_cons, List.length_drop]
          omega
    · simp only [hlong, if_false]
      refine ⟨?_, hr, ?_, ?_⟩
      · rw [inked_dropBlankChunk, ← inked_append, List.flatten_append]
      · simp only [charCount_append]; omega
      · intro _
        have hz : line ≠ [] := by
          intro e
          have := f2 e ch (by simp [e])
          omega
        have := charCount_pos hl hz
        simp only [charCount_append]; omega

theorem inked_wrapChunks {w : Nat} (hw : 1 ≤ w) : ∀ (n : Nat) (chs : List Str) (begun : Bool),
    (∀ x ∈ chs, x ≠ []) → charCount chs < n → (wrapChunks w n begun chs).flatMap inked = inked chs.flatten
  | 0, _, _, _, h => by omega
  | n + 1, [], begun, _, _ => by simp [wrapChunks, inked_nil]
  | n + 1, ch :: chs, begun, hne, hn => by
    rw [wrapChunks]
    have hch : 1 ≤ ch.length := by
      have := hne ch (by simp)
      cases ch with
      | nil => exact absurd rfl this
      | cons _ _ => simp
    have hcs : ∃ cs, (if isBlankChunk ch && begun then chs else ch :: chs) = cs ∧ (∀ x ∈ cs, x ≠ []) ∧
        inked cs.flatten = inked (ch :: chs).flatten ∧
        (cs = [] ∨ charCount cs ≤ charCount (ch :: chs)) ∧ (cs = [] → chs = []) := by
      by_cases hb : (isBlankChunk ch && begun) = true
      · refine ⟨chs, by rw [if_pos hb], fun x hx => hne x (by simp [hx]), ?_, ?_, id⟩
        · simp only [Bool.and_eq_true] at hb
          rw [List.flatten_cons, inked_append, inked_of_blank (fun c hc => List.all_eq_true.1 hb.1 c hc), List.nil_append]
        · right
          simp [charCount]
      · exact ⟨ch :: chs, by rw [if_neg hb], hne, rfl, .inr (Nat.le_refl _), by simp⟩
    obtain ⟨cs, e, c1, c2, c3, c4⟩ := hcs
    obtain ⟨p1, p2, p3, p4⟩ := pass_ink hw c1
    simp only [e]
    generalize finishLine w (fillLine w 0 cs).1 (fillLine w 0 cs).2 = g at *
    have hlt : charCount g.2 < n := by
      by_cases hz : cs = []
      · subst hz
        have : charCount ([] : List Str) = 0 := rfl
        rw [this] at p3
        have : charCount (ch :: chs) = ch.length + charCount chs := by simp [charCount]
        omega
      · have := p4 hz
        rcases c3 with c3 | c3
        · exact absurd c3 hz
        · omega
    rw [← c2, ← p1]
    split
    · rename_i hg
      rw [inked_wrapChunks hw n g.2 begun p2 hlt, hg]
      simp [inked_nil]
    · rw [List.flatMap_cons, inked_wrapChunks hw n g.2 true p2 hlt]

/-! ### The page -/

theorem join_splitOn : ∀ s : Str, join [' '] (splitOn ' ' s) = s
  | [] => rfl
  | c :: s => by
    have ih := join_splitOn s
    have hne : splitOn ' ' s ≠ [] := by
      cases s with
      | nil => simp [splitOn]
      | cons d s =>
        rw [splitOn]
        split
        · simp
        · split <;> simp
    obtain ⟨x, r, hs⟩ := List.exists_cons_of_ne_nil hne
    rw [splitOn]
    by_cases hc : c = ' '
    · simp only [hc, if_true]
      rw [hs, join, ← hs, ih]
      rfl
    · simp only [hc, if_false]
      rw [hs] at ih ⊢
      simp only []
      cases r with
      | nil =>
        rw [join] at ih ⊢
        rw [ih]
      | cons y r =>
        rw [join] at ih ⊢
        rw [← ih]
        simp

theorem mem_inter : ∀ {ws : List Str}, (∀ x ∈ ws, x ≠ []) → ∀ x ∈ inter ws, x ≠ []
  | [], _, x, hx => by simp [inter] at hx
  | [y], h, x, hx => by
    simp only [inter, List.mem_singleton] at hx
    subst hx
    exact h _ (by simp)
  | y :: z :: r, h, x, hx => by
    rw [inter] at hx
    rcases List.mem_cons.1 hx with rfl | hx
    · exact h _ (by simp)
    rcases List.mem_cons.1 hx with rfl | hx
    · simp
    · exact mem_inter (fun a ha => h a (List.mem_cons_of_mem _ ha)) x hx


theorem inked_wrap (tty : Bool) (w : Nat) {e : HelpEntry} (he : checkEntry tty e = true) :
    (textWrap (max (w - helpPosition w) 11) (entryText tty e)).flatMap inked = inked (entryText tty e) := by
  simp only [checkEntry, Bool.and_eq_true, decide_eq_true_eq] at he
  obtain ⟨⟨⟨⟨h1, h2⟩, h3⟩, h4⟩, _⟩ := he
  have hj : (inter (entryWords tty e)).flatten = entryText tty e := by
    rw [flatten_inter]
    exact join_splitOn _
  have hne : ∀ x ∈ inter (entryWords tty e), x ≠ [] := by
    exact mem_inter fun x hx => (okWord_plain (okWords_mem h3 x hx)).1
  rw [textWrap, h1, inked_wrapChunks (by omega) _ _ _ hne, hj]
  have : charCount (inter (entryWords tty e)) = (entryText tty e).length := by
    rw [charCount, ← List.length_flatten, hj]
  omega

theorem inked_formatAction (tty : Bool) (w : Nat) {e : HelpEntry} (he : checkEntry tty e = true) :
    inked (formatAction tty w e) = inked (invocation e) ++ inked (entryText tty e) := by
  rw [← inked_wrap tty w he]
  unfold formatAction
  simp only []
  have h4 : splitHelpLines (max (w - helpPosition w) 11)
      (expandPercent ['0'] (renRuns tty e.help).length (renRuns tty e.help)) =
        textWrap (max (w - helpPosition w) 11) (entryText tty e) := rfl
  rw [h4]
  have hfirst : inked (if (invocation e).length ≤ helpPosition w - 2 - 2
      then [' ', ' '] ++ ljust (helpPosition w - 2 - 2) ' ' (invocation e) ++ [' ', ' ']
      else [' ', ' '] ++ invocation e ++ ['\n'] ++ List.replicate (helpPosition w) ' ') = inked (invocation e) := by
    have h2 : inked [' ', ' '] = [] := by decide
    have h3 : inked ['\n'] = [] := by decide
    split <;> simp only [ljust, inked_append, inked_blanks, h2, h3, List.nil_append, List.append_nil]
  generalize textWrap (max (w - helpPosition w) 11) (entryText tty e) = lines
  cases lines with
  | nil => simpa using hfirst
  | cons l ls =>
    simp only [inked_append, hfirst]
    rw [List.flatMap_cons, inked_of_blank (s := ['\n']) (by decide), List.append_nil, List.append_assoc]
    congr 2
    induction ls with
    | nil => rfl
    | cons m ms ih =>
      rw [List.map_cons, List.flatten_cons, List.flatMap_cons, inked_append, ih, inked_append, inked_append, inked_blanks,
        inked_of_blank (s := ['\n']) (by decide)]
      simp

/-- What is printed, whatever the width. -/
def pageInk (tty : Bool) (epilog : Option Str) : Str :=
  inked (formatUsage ++ formatHelpText 0 helpDescription) ++
    (helpGroups.flatMap fun g => inked (formatHeader g.1) ++
      g.2.flatMap fun e => inked (invocation e) ++ inked (entryText tty e)) ++ inked (endingHelp tty epilog)

theorem inked_formatHelp (tty : Bool) (c : Nat) (epilog : Option Str) : inked (formatHelp tty c epilog) = pageInk tty epilog := by
  unfold formatHelp
  simp only []
  rw [inked_removeColons, inked_append, mainHelp, inked_finishHelp, inked_append, pageInk]
  have : ∀ gs : List (Str × List HelpEntry), (∀ g ∈ gs, g ∈ helpGroups) →
      inked (gs.map fun g => formatSection g.1 ((g.2.map (formatAction tty (c - 2))).flatten)).flatten =
        gs.flatMap fun g => inked (formatHeader g.1) ++
          g.2.flatMap fun e => inked (invocation e) ++ inked (entryText tty e) := by
    intro gs
    induction gs with
    | nil => intro _; rfl
    | cons g gs ih =>
      intro h
      rw [List.map_cons, List.flatten_cons, inked_append, ih fun x hx => h x (List.mem_cons_of_mem _ hx), List.flatMap_cons]
      congr 1
      have hg := h g (by simp)
      have hes : ∀ es : List HelpEntry, (∀ e ∈ es, e ∈ g.2) → inked (es.map (formatAction tty (c - 2))).flatten =
          es.flatMap fun e => inked (invocation e) ++ inked (entryText tty e) := by
        intro es
        induction es with
        | nil => intro _; rfl
        | cons e es ih =>
          intro h
          rw [List.map_cons, List.flatten_cons, inked_append, ih fun x hx => h x (List.mem_cons_of_mem _ hx),
            List.flatMap_cons, inked_formatAction tty _ (entry_ok hg (h e (by simp)) tty)]
      have ht := List.all_eq_true.1 titles_ok g hg
      simp only [Bool.and_eq_true] at ht
      have hne : g.2 ≠ [] := by simpa using ht.2
      obtain ⟨e, es, hee⟩ := List.exists_cons_of_ne_nil hne
      have hitems : (g.2.map (formatAction tty (c - 2))).flatten ≠ [] := by
        intro e0
        have h0 := hes g.2 fun _ h => h
        rw [e0, hee, List.flatMap_cons] at h0
        have hi := invocation_ok hg (e := e) (by rw [hee]; simp)
        simp only [checkInvocation, Bool.and_eq_true, Bool.not_eq_true', decide_eq_true_eq] at hi
        obtain ⟨⟨⟨⟨⟨i1, i2⟩, _⟩, _⟩, _⟩, i6⟩ := hi
        have i1' : invocation e ≠ [] := by simpa using i1
        obtain ⟨x, r, hx⟩ := List.exists_cons_of_ne_nil i1'
        rw [hx] at h0 i2 i6
        have hxs : ¬ IsWhitespace x := fun hw => by
          have := (pySpace_iff x).2 hw
          simp [this] at i6
        have hxc : x ≠ ':' := by
          rintro rfl
          simp at i2
        simp [inked, hxs, hxc] at h0
      rw [formatSection, if_neg hitems, ← hes g.2 fun _ h => h]
      simp only [inked_append]
      rw [inked_of_blank (s := ['\n']) (by decide), show inked [':', '\n'] = [] by decide]
      simp
  rw [this helpGroups fun _ h => h]

end Kolombos
