import Verif.Lemmas.HelpLines
/-
The help page is made of lines.
-/
set_option linter.unusedSimpArgs false
namespace Kolombos

/-! ### The explanations -/

/-- The explanation of an entry before it is divided into lines. -/
def entryText (tty : Bool) (e : HelpEntry) : Str :=
  pyStrip (squeezeBlanks false (expandPercent ['0'] (renRuns tty e.help).length (renRuns tty e.help)))

/-- Its words. -/
def entryWords (tty : Bool) (e : HelpEntry) : List Str := splitOn ' ' (entryText tty e)

/-- What the proofs need to know of an entry. -/
def checkEntry (tty : Bool) (e : HelpEntry) : Bool :=
  let t := entryText tty e
  let ws := entryWords tty e
  decide (splitChunks t.length [] t = inter ws) && !ws.isEmpty && okWords ws && ws.all (fun x => x.length ≤ 16) &&
    decide (t.length ≤ 97)

/-- What the proofs need to know of the left column. -/
def checkInvocation (e : HelpEntry) : Bool :=
  let v := invocation e
  !v.isEmpty && !v.contains ':' && !v.contains '\n' && !v.contains '\x1b' && decide (v.length ≤ 22) && v.head?.any fun c => !isPySpace c

theorem entries_ok : (helpGroups.all fun g => g.2.all fun e => checkEntry true e && checkEntry false e && checkInvocation e) = true := by
  decide +kernel

theorem entry_ok {g : Str × List HelpEntry} (hg : g ∈ helpGroups) {e : HelpEntry} (he : e ∈ g.2) (tty : Bool) :
    checkEntry tty e = true := by
  have h := List.all_eq_true.1 (List.all_eq_true.1 entries_ok g hg) e he
  simp only [Bool.and_eq_true] at h
  cases tty
  · exact h.1.2
  · exact h.1.1

theorem invocation_ok {g : Str × List HelpEntry} (hg : g ∈ helpGroups) {e : HelpEntry} (he : e ∈ g.2) :
    checkInvocation e = true := by
  have h := List.all_eq_true.1 (List.all_eq_true.1 entries_ok g hg) e he
  simp only [Bool.and_eq_true] at h
  exact h.2

theorem okWords_mem : ∀ {ws : List Str}, okWords ws = true → ∀ x ∈ ws, okWord x = true := by
  intro ws h x hx
  have := okWords_append ws [] (by simpa using h)
  exact okSome_mem this.1 x hx

/-- The column of the explanations. -/
theorem helpPosition_eq (w : Nat) : helpPosition w = min 26 (min 30 (max (w - 20) 4)) := by
  have : ((helpGroups.flatMap Prod.snd).map fun e => (invocation e).length + 2).foldl max 0 = 24 := by decide +kernel
  unfold helpPosition
  simp only [this]

theorem helpPosition_ge (w : Nat) : 4 ≤ helpPosition w := by
  rw [helpPosition_eq]; omega

theorem helpWidth_ge {w : Nat} (h : 20 ≤ w) : 16 ≤ max (w - helpPosition w) 11 := by
  rw [helpPosition_eq]; omega

/-- The words of an explanation, line by line. -/
def entryGroups (tty : Bool) (w : Nat) (e : HelpEntry) : List (List Str) :=
  (textWrap (max (w - helpPosition w) 11) (entryText tty e)).map (splitOn ' ')

theorem entryGroups_ok {tty : Bool} {w : Nat} (hw : 20 ≤ w) {e : HelpEntry} (he : checkEntry tty e = true) :
    (entryGroups tty w e).flatten = entryWords tty e ∧ entryGroups tty w e ≠ [] ∧
    (∀ g ∈ entryGroups tty w e, g ≠ [] ∧ (join [' '] g).length ≤ max (w - helpPosition w) 11) ∧
    textWrap (max (w - helpPosition w) 11) (entryText tty e) = (entryGroups tty w e).map (join [' ']) := by
  simp only [checkEntry, Bool.and_eq_true, decide_eq_true_eq] at he
  obtain ⟨⟨⟨⟨h1, h2⟩, h3⟩, h4⟩, _⟩ := he
  have h16 := helpWidth_ge hw
  have hwords : ∀ x ∈ entryWords tty e, IsPlainWord x ∧ x.length ≤ max (w - helpPosition w) 11 := by
    intro x hx
    refine ⟨okWord_plain (okWords_mem h3 x hx), ?_⟩
    have := List.all_eq_true.1 h4 x hx
    simp only [decide_eq_true_eq] at this
    omega
  have hlen : (entryWords tty e).length < 2 * (entryText tty e).length + 2 := by
    have : ∀ s : Str, (splitOn ' ' s).length ≤ s.length + 1 := by
      intro s
      induction s with
      | nil => simp [splitOn]
      | cons c s ih =>
        rw [splitOn]
        split
        · simpa using ih
        · split
          · simp
          · rename_i h t e
            rw [e] at ih
            simp at ih ⊢
            omega
    have := this (entryText tty e)
    unfold entryWords
    omega
  obtain ⟨gs, g1, g2, g3, _⟩ := wrapChunks_inter (w := max (w - helpPosition w) 11) (by omega)
    (2 * (entryText tty e).length + 2) (entryWords tty e) false hwords hlen
  have hwrap : textWrap (max (w - helpPosition w) 11) (entryText tty e) = gs.map (join [' ']) := by
    rw [textWrap, h1, g3]
  have hgs : entryGroups tty w e = gs := by
    rw [entryGroups, hwrap, List.map_map]
    rw [List.map_congr_left (g := id)]
    · simp
    · intro g hg
      have hsub : ∀ x ∈ g, x ∈ entryWords tty e := fun x hx => by
        rw [← g1]; exact List.mem_flatten.2 ⟨g, hg, hx⟩
      exact splitOn_join (g2 g hg).1 fun x hx => plain_blank (hwords x (hsub x hx)).1
  rw [hgs]
  refine ⟨g1, ?_, g2, hwrap⟩
  intro e'
  rw [e'] at g1
  simp only [List.flatten_nil] at g1
  rw [← g1] at h2
  simp at h2

/-- The lines about an entry, for the words of its explanation. -/
def entryLines (pos : Nat) (inv : Str) : List (List Str) → List Str
  | [] => []
  | g :: gs =>
    if inv.length ≤ pos - 2 - 2 then
      ([' ', ' '] ++ ljust (pos - 2 - 2) ' ' inv ++ [' ', ' '] ++ join [' '] g) ::
        gs.map fun g => List.replicate pos ' ' ++ join [' '] g
    else ([' ', ' '] ++ inv) :: (g :: gs).map fun g => List.replicate pos ' ' ++ join [' '] g

theorem formatAction_lines {tty : Bool} {w : Nat} (hw : 20 ≤ w) {e : HelpEntry} (he : checkEntry tty e = true) :
    formatAction tty w e = unl (entryLines (helpPosition w) (invocation e) (entryGroups tty w e)) := by
  obtain ⟨_, h2, _, h4⟩ := entryGroups_ok hw he
  unfold formatAction
  simp only []
  have h4' : splitHelpLines (max (w - helpPosition w) 11)
      (expandPercent ['0'] (renRuns tty e.help).length (renRuns tty e.help)) = (entryGroups tty w e).map (join [' ']) := h4
  rw [h4']
  obtain ⟨g, gs, hg⟩ := List.exists_cons_of_ne_nil h2
  rw [hg, List.map_cons, entryLines]
  by_cases hfit : (invocation e).length ≤ helpPosition w - 2 - 2
  · simp only [hfit, if_true]
    simp [unl, List.flatMap_map, List.flatMap, List.map_map, Function.comp_def]
  · simp only [hfit, if_false]
    simp [unl, List.flatMap_map, List.flatMap, List.map_map, Function.comp_def]

/-! ### Sections -/

/-- No empty lines. -/
def Filled (L : List Str) : Prop := ∀ l ∈ L, l ≠ [] ∧ '\n' ∉ l

theorem squeezeBreaks_line {l : Str} (hlf : '\n' ∉ l) (hne : l ≠ []) (k : Nat) (s : Str) :
    squeezeBreaks k (l ++ '\n' :: s) = l ++ '\n' :: squeezeBreaks 1 s := by
  induction l generalizing k with
  | nil => exact absurd rfl hne
  | cons c l ih =>
    have hc : c ≠ '\n' := fun e => hlf (by simp [e])
    rw [List.cons_append, squeezeBreaks, if_neg hc]
    cases l with
    | nil => simp [squeezeBreaks]
    | cons d l =>
      rw [ih (fun h => hlf (List.mem_cons_of_mem _ h)) (by simp)]
      rfl

theorem squeezeBreaks_unl {L : List Str} (h : Filled L) (hne : L ≠ []) (k : Nat) (s : Str) :
    squeezeBreaks k (unl L ++ s) = unl L ++ squeezeBreaks 1 s := by
  induction L generalizing k with
  | nil => exact absurd rfl hne
  | cons l L ih =>
    have hl := h l (by simp)
    rw [unl_cons, List.append_assoc, List.cons_append, squeezeBreaks_line hl.2 hl.1]
    cases L with
    | nil => simp [unl]
    | cons m M =>
      rw [ih (fun x hx => h x (List.mem_cons_of_mem _ hx)) (by simp)]
      simp

/-- The sections after an empty line. -/
theorem squeezeBreaks_sections : ∀ (Bs : List (List Str)) (k : Nat), (∀ B ∈ Bs, Filled B ∧ B ≠ []) →
    squeezeBreaks (k + 2) (Bs.flatMap fun B => '\n' :: (unl B ++ ['\n'])) = Bs.flatMap fun B => unl B ++ ['\n']
  | [], k, _ => by simp [squeezeBreaks]
  | B :: Bs, k, h => by
    have hB := h B (by simp)
    rw [List.flatMap_cons, List.flatMap_cons, List.cons_append, squeezeBreaks, if_pos rfl, if_pos (by omega),
      List.append_assoc, squeezeBreaks_unl hB.1 hB.2, List.cons_append, squeezeBreaks, if_pos rfl, if_neg (by omega),
      List.nil_append, squeezeBreaks_sections Bs 0 fun x hx => h x (List.mem_cons_of_mem _ hx)]
    simp

theorem rstripLf_append {x : Str} {c : Char} (hc : c ≠ '\n') (n : Nat) :
    rstripLf (x ++ [c] ++ List.replicate n '\n') = x ++ [c] := by
  unfold rstripLf
  rw [List.reverse_append, List.reverse_replicate, List.dropWhile_append_of_pos (by simp [List.mem_replicate])]
  simp [List.dropWhile_cons, hc]

/-- The page from filled blocks, the first of which begins at once. -/
theorem finishHelp_blocks {H : List Str} {Bs : List (List Str)}
    (hH : ∀ s, squeezeBreaks 0 (unl H ++ s) = unl H ++ squeezeBreaks 1 s)
    (hHn : ∃ l L, H = l :: L ∧ l ≠ [] ∧ '\n' ∉ l)
    (hBs : ∀ B ∈ Bs, Filled B ∧ B ≠ []) (hn : Bs ≠ []) :
    finishHelp (unl H ++ Bs.flatMap fun B => '\n' :: (unl B ++ ['\n'])) = unl (H ++ Bs.flatMap fun B => [] :: B) := by
  have hne : unl H ++ (Bs.flatMap fun B => '\n' :: (unl B ++ ['\n'])) ≠ [] := by
    obtain ⟨l, L, rfl, _⟩ := hHn
    simp [unl]
  have hsq : squeezeBreaks 0 (unl H ++ Bs.flatMap fun B => '\n' :: (unl B ++ ['\n'])) =
      unl H ++ '\n' :: (Bs.flatMap fun B => unl B ++ ['\n']) := by
    rw [hH]
    obtain ⟨B, Bs', rfl⟩ := List.exists_cons_of_ne_nil hn
    have hB := hBs B (by simp)
    rw [List.flatMap_cons, List.flatMap_cons, List.cons_append, squeezeBreaks, if_pos rfl, if_neg (by omega),
      List.append_assoc, squeezeBreaks_unl hB.1 hB.2, List.cons_append, squeezeBreaks, if_pos rfl, if_neg (by omega),
      List.nil_append, squeezeBreaks_sections Bs' 0 fun x hx => hBs x (List.mem_cons_of_mem _ hx)]
    simp
  -- the last line of the last block
  obtain ⟨Bs', Bl, rfl⟩ : ∃ Bs' Bl, Bs = Bs' ++ [Bl] := ⟨_, _, (List.dropLast_append_getLast hn).symm⟩
  have hBl := hBs Bl (by simp)
  obtain ⟨Bl', ll, rfl⟩ : ∃ a b, Bl = a ++ [b] := ⟨_, _, (List.dropLast_append_getLast hBl.2).symm⟩
  have hll := hBl.1 ll (by simp)
  obtain ⟨lx, c, rfl⟩ : ∃ a b, ll = a ++ [b] := ⟨_, _, (List.dropLast_append_getLast hll.1).symm⟩
  have hc : c ≠ '\n' := fun e => hll.2 (by simp [e])
  unfold finishHelp
  rw [if_neg hne, hsq]
  have hshape : unl H ++ '\n' :: ((Bs' ++ [Bl' ++ [lx ++ [c]]]).flatMap fun B => unl B ++ ['\n']) =
      (unl H ++ '\n' :: (Bs'.flatMap fun B => unl B ++ ['\n']) ++ unl Bl' ++ lx) ++ [c] ++ List.replicate 2 '\n' := by
    simp [List.flatMap_append, unl_append, unl]
  rw [hshape, rstripLf_append hc]
  have hfirst : ∀ s : Str, (unl H ++ s).dropWhile (· == '\n') = unl H ++ s := by
    intro s
    obtain ⟨l, L, rfl, hl⟩ := hHn
    obtain ⟨d, l', rfl⟩ := List.exists_cons_of_ne_nil hl.1
    have hd : d ≠ '\n' := fun e => hl.2 (by simp [e])
    rw [unl_cons]
    simp [List.dropWhile_cons, hd]
  rw [List.append_assoc (unl H), List.append_assoc (unl H), List.append_assoc (unl H), hfirst]
  have hmid : ∀ Bs : List (List Str), ('\n' :: Bs.flatMap fun B => unl B ++ ['\n']) =
      (unl (Bs.flatMap fun B => [] :: B)) ++ ['\n'] := by
    intro Bs
    induction Bs with
    | nil => simp [unl]
    | cons B Bs ih =>
      rw [List.flatMap_cons, List.flatMap_cons, List.cons_append, unl_cons, unl_append, List.append_assoc,
        List.cons_append, List.nil_append, ih]
      simp
  have hm := hmid Bs'
  rw [List.flatMap_append, unl_append, unl_append]
  simp only [List.flatMap_cons, List.flatMap_nil, List.append_nil]
  rw [unl_cons, unl_append, unl_cons]
  rw [hm]
  simp [unl]

/-! ### The page -/

/-- The first lines: usage and description. -/
def headLines : List Str := (splitOn '\n' (formatUsage ++ formatHelpText 0 helpDescription)).dropLast

/-- The last lines: remarks and examples. -/
def endLines (tty : Bool) (remarks : Bool) : List Str :=
  (splitOn '\n' (endingHelp tty (if remarks then some (join ['\n'] (helpEpilog tty)) else none))).dropLast

/-- The lines of a group of options. -/
def groupLines (tty : Bool) (w : Nat) (g : Str × List HelpEntry) : List Str :=
  (formatHeader g.1 ++ [':']) ::
    g.2.flatMap fun e => entryLines (helpPosition w) (invocation e) (entryGroups tty w e)

/-- All lines, before colons are removed. -/
def pageLines (tty : Bool) (w : Nat) (remarks : Bool) : List Str :=
  headLines ++ (helpGroups.flatMap fun g => [] :: groupLines tty w g) ++ endLines tty remarks

/-- The parts of the page that do not depend on the width are lines, and their colons are harmless. -/
def checkFixed (tty : Bool) : Bool :=
  decide (endingHelp tty (some (join ['\n'] (helpEpilog tty))) = unl (endLines tty true)) &&
  decide (endingHelp tty none = unl (endLines tty false)) &&
  okLines (endLines tty true) && okLines (endLines tty false)

theorem fixed_ok (tty : Bool) : checkFixed tty = true := by
  cases tty <;> decide +kernel

theorem head_unl : formatUsage ++ formatHelpText 0 helpDescription = unl headLines := by decide +kernel

/-- The first lines in two parts. -/
theorem head_parts : headLines = headLines.take 5 ++ [] :: headLines.drop 6 ∧
    (headLines.take 5).all (fun l => !l.isEmpty && !l.contains '\n') = true ∧
    (headLines.drop 6).all (fun l => !l.isEmpty && !l.contains '\n') = true ∧
    headLines.take 5 ≠ [] ∧ headLines.drop 6 ≠ [] ∧ okLines headLines = true ∧
    (headLines.getLast?.all fun l => l.getLast? != some ':') = true := by decide +kernel

theorem filled_of_all {L : List Str} (h : L.all (fun l => !l.isEmpty && !l.contains '\n') = true) : Filled L := by
  intro l hl
  have := List.all_eq_true.1 h l hl
  simp only [Bool.and_eq_true] at this
  exact ⟨by simpa using this.1, by simpa using this.2⟩

theorem head_squeeze (s : Str) : squeezeBreaks 0 (unl headLines ++ s) = unl headLines ++ squeezeBreaks 1 s := by
  obtain ⟨h1, h2, h3, h4, h5, _⟩ := head_parts
  rw [h1]
  rw [unl_append, List.append_assoc, squeezeBreaks_unl (filled_of_all h2) h4, unl_cons, List.nil_append, List.cons_append,
    squeezeBreaks, if_pos rfl, if_neg (by omega), squeezeBreaks_unl (filled_of_all h3) h5]
  simp

theorem head_first : ∃ l L, headLines = l :: L ∧ l ≠ [] ∧ '\n' ∉ l := by
  obtain ⟨h1, h2, h3, h4, h5, _⟩ := head_parts
  obtain ⟨l, L, h⟩ := List.exists_cons_of_ne_nil h4
  rw [h] at h1
  refine ⟨l, L ++ [] :: headLines.drop 6, h1, ?_⟩
  exact filled_of_all h2 l (by rw [h]; simp)

/-- The titles. -/
theorem titles_ok : (helpGroups.all fun g =>
    let l := formatHeader g.1 ++ [':']
    !l.contains '\n' && okLine true l && !g.2.isEmpty) = true := by decide +kernel

/-- The lines about an entry. -/
theorem entryLines_ok {tty : Bool} {w : Nat} (hw : 20 ≤ w) {e : HelpEntry} (he : checkEntry tty e = true)
    (hi : checkInvocation e = true) :
    okLines (entryLines (helpPosition w) (invocation e) (entryGroups tty w e)) = true ∧
    Filled (entryLines (helpPosition w) (invocation e) (entryGroups tty w e)) ∧
    (∀ l, (entryLines (helpPosition w) (invocation e) (entryGroups tty w e)).getLast? = some l → l.getLast? ≠ some ':') ∧
    ∃ l L, entryLines (helpPosition w) (invocation e) (entryGroups tty w e) = l :: L ∧ goesOn l = true := by
  obtain ⟨h1, h2, h3, _⟩ := entryGroups_ok hw he
  have hpos := helpPosition_ge w
  generalize hp : helpPosition w = pos at *
  generalize entryGroups tty w e = gs at *
  simp only [checkEntry, Bool.and_eq_true, decide_eq_true_eq] at he
  obtain ⟨⟨⟨⟨_, _⟩, hok⟩, _⟩, _⟩ := he
  rw [← h1] at hok
  simp only [checkInvocation, Bool.and_eq_true, Bool.not_eq_true', decide_eq_true_eq] at hi
  obtain ⟨⟨⟨⟨⟨i1, i2⟩, i3⟩, i4⟩, i5⟩, i6⟩ := hi
  have i1' : invocation e ≠ [] := by simpa using i1
  have i2' : ':' ∉ invocation e := by simpa using i2
  have i3' : '\n' ∉ invocation e := by simpa using i3
  have i4' : '\x1b' ∉ invocation e := by simpa using i4
  obtain ⟨ic, ir, hinv⟩ := List.exists_cons_of_ne_nil i1'
  have hic : isPySpace ic = false := by rw [hinv] at i6; simpa using i6
  have hice : ic ≠ '\x1b' := fun h => i4' (by rw [hinv, h]; simp)
  have hgo : ∀ s, goesOn (' ' :: ' ' :: (invocation e ++ s)) = true := by
    intro s
    rw [hinv]
    unfold goesOn
    rw [List.dropWhile_cons, if_pos (by decide), List.dropWhile_cons, if_pos (by decide), List.cons_append,
      List.dropWhile_cons, if_neg (by simp [hic])]
    simpa using hice
  generalize invocation e = v at *
  obtain ⟨g, gs, rfl⟩ := List.exists_cons_of_ne_nil h2
  obtain ⟨b1, b2⟩ := okLines_groups pos (g :: gs) (fun x hx => (h3 x hx).1) hok
  rw [List.flatten_cons] at hok
  obtain ⟨o1, o2, o3⟩ := okWords_append g gs.flatten hok
  obtain ⟨c1, c2⟩ := okLines_groups pos gs (fun x hx => (h3 x (List.mem_cons_of_mem _ hx)).1) o2
  have hfill : Filled ((g :: gs).map fun g => List.replicate pos ' ' ++ join [' '] g) := by
    intro l hl
    obtain ⟨g', hg', rfl⟩ := List.mem_map.1 hl
    have hsub : ∀ x ∈ g', IsPlainWord x := by
      intro x hx
      exact okWord_plain (okWords_mem hok x (by rw [← List.flatten_cons]; exact List.mem_flatten.2 ⟨g', hg', hx⟩))
    refine ⟨?_, ?_⟩
    · have := join_ne_nil (h3 g' hg').1 fun x hx => (hsub x hx).1
      simp [this]
    · simp only [List.mem_append, List.mem_replicate, not_or]
      exact ⟨by simp, join_lf hsub⟩
  rw [entryLines]
  by_cases hfit : v.length ≤ pos - 2 - 2
  · simp only [hfit, if_true]
    have hpre : [' ', ' '] ++ ljust (pos - 2 - 2) ' ' v ++ [' ', ' '] ++ join [' '] g =
        ([' ', ' '] ++ v ++ List.replicate (pos - 2 - 2 - v.length) ' ' ++ [' ', ' ']) ++ join [' '] g := by
      simp [ljust]
    have hcol : ':' ∉ [' ', ' '] ++ v ++ List.replicate (pos - 2 - 2 - v.length) ' ' ++ [' ', ' '] := by
      simp [List.mem_replicate, i2']
    have hb := hfill (List.replicate pos ' ' ++ join [' '] g) (by simp)
    have hjn : join [' '] g ≠ [] := by
      apply join_ne_nil (h3 g (by simp)).1
      intro x hx
      exact (okWord_plain (okSome_mem o1 x hx)).1
    rw [hpre]
    -- the first line ends like the one with blanks only before it
    have hlast : ∀ p : Str, (p ++ join [' '] g).getLast? = (List.replicate pos ' ' ++ join [' '] g).getLast? := by
      intro p
      rw [List.getLast?_append_of_ne_nil _ hjn, List.getLast?_append_of_ne_nil _ hjn]
    refine ⟨?_, ?_, ?_, ?_⟩
    · rw [List.map_cons, okLines] at b1
      simp only [Bool.and_eq_true] at b1
      rw [okLines]
      simp only [Bool.and_eq_true]
      refine ⟨⟨⟨?_, ?_⟩, ?_⟩, b1.2⟩
      · rw [okLine_skip _ _ _ hcol (by simp)]
        exact okLine_join o1 _
      · have h5 : '\n' ∉ join [' '] g := fun h => hb.2 (by simp [h])
        simp [List.mem_replicate, i3', h5]
      · have := b1.1.2
        unfold okNext at this ⊢
        rw [hlast]
        exact this
    · intro l hl
      rcases List.mem_cons.1 hl with rfl | hl
      · refine ⟨by simp, ?_⟩
        have h5 : '\n' ∉ join [' '] g := fun h => hb.2 (by simp [h])
        simp [List.mem_replicate, i3', h5]
      · exact hfill l (by simp only [List.map_cons]; exact List.mem_cons_of_mem _ hl)
    · intro l hl
      cases gs with
      | nil =>
        simp only [List.map_nil, List.getLast?_singleton, Option.some.injEq] at hl
        subst hl
        rw [hlast]
        exact b2 _ rfl
      | cons g' gs =>
        rw [List.map_cons, List.getLast?_cons_cons] at hl
        exact c2 l (by rw [List.map_cons]; exact hl)
    · refine ⟨_, _, rfl, ?_⟩
      simpa using hgo _
  · simp only [hfit, if_false]
    refine ⟨?_, ?_, ?_, ?_⟩
    · rw [okLines]
      simp only [Bool.and_eq_true]
      have hv : ([' ', ' '] ++ v).getLast? ≠ some ':' := by
        intro h
        have := List.mem_of_getLast? h
        simp [i2'] at this
      refine ⟨⟨⟨?_, ?_⟩, ?_⟩, b1⟩
      · rw [← List.append_nil ([' ', ' '] ++ v), okLine_skip _ _ _ (by simp [i2']) (by simp), okLine]
      · simp [i3']
      · unfold okNext
        split
        · rename_i h
          exact absurd (by simpa using h) hv
        · rfl
    · intro l hl
      rcases List.mem_cons.1 hl with rfl | hl
      · exact ⟨by simp, by simp [i3']⟩
      · exact hfill l hl
    · intro l hl
      rw [List.map_cons, List.getLast?_cons_cons] at hl
      exact b2 l (by rw [List.map_cons]; exact hl)
    · refine ⟨_, _, rfl, ?_⟩
      have := hgo []
      simpa using this

/-- Some blocks of lines. -/
theorem okLines_flatMap {α : Type} (f : α → List Str) : ∀ (l : List α),
    (∀ e ∈ l, okLines (f e) = true ∧ ∀ x, (f e).getLast? = some x → x.getLast? ≠ some ':') →
    okLines (l.flatMap f) = true ∧ ∀ x, (l.flatMap f).getLast? = some x → x.getLast? ≠ some ':'
  | [], _ => ⟨rfl, by simp⟩
  | e :: l, h => by
    obtain ⟨i1, i2⟩ := okLines_flatMap f l fun x hx => h x (List.mem_cons_of_mem _ hx)
    have he := h e (by simp)
    rw [List.flatMap_cons]
    refine ⟨okLines_append he.1 he.2 i1, ?_⟩
    intro x hx
    by_cases hn : l.flatMap f = []
    · rw [hn, List.append_nil] at hx
      exact he.2 x hx
    · rw [List.getLast?_append_of_ne_nil _ hn] at hx
      exact i2 x hx

/-- The lines of a group. -/
theorem groupLines_ok {tty : Bool} {w : Nat} (hw : 20 ≤ w) {g : Str × List HelpEntry} (hg : g ∈ helpGroups) :
    okLines (groupLines tty w g) = true ∧ Filled (groupLines tty w g) ∧
    (∀ x, (groupLines tty w g).getLast? = some x → x.getLast? ≠ some ':') ∧
    formatSection g.1 ((g.2.map (formatAction tty w)).flatten) = '\n' :: (unl (groupLines tty w g) ++ ['\n']) := by
  have ht := List.all_eq_true.1 titles_ok g hg
  simp only [Bool.and_eq_true] at ht
  obtain ⟨⟨t1, t2⟩, t3⟩ := ht
  have hne : g.2 ≠ [] := by simpa using t3
  have hent : ∀ e ∈ g.2, _ := fun e he => entryLines_ok hw (entry_ok hg he tty) (invocation_ok hg he)
  obtain ⟨f1, f2⟩ := okLines_flatMap (fun e => entryLines (helpPosition w) (invocation e) (entryGroups tty w e)) g.2
    fun e he => ⟨(hent e he).1, (hent e he).2.2.1⟩
  obtain ⟨e, es, hes⟩ := List.exists_cons_of_ne_nil hne
  obtain ⟨l, L, hl, hgo⟩ := (hent e (by rw [hes]; simp)).2.2.2
  have hfirst : ∃ M, (g.2.flatMap fun e => entryLines (helpPosition w) (invocation e) (entryGroups tty w e)) = l :: M := by
    rw [hes, List.flatMap_cons, hl]
    exact ⟨_, rfl⟩
  obtain ⟨M, hM⟩ := hfirst
  refine ⟨?_, ?_, ?_, ?_⟩
  · rw [groupLines, okLines]
    simp only [Bool.and_eq_true]
    refine ⟨⟨⟨t2, t1⟩, ?_⟩, f1⟩
    unfold okNext
    rw [hM]
    split
    · exact hgo
    · rfl
  · intro x hx
    rcases List.mem_cons.1 hx with rfl | hx
    · exact ⟨by simp, by simpa using t1⟩
    · obtain ⟨e', he', hx⟩ := List.mem_flatMap.1 hx
      exact (hent e' he').2.1 x hx
  · intro x hx
    rw [groupLines, hM, List.getLast?_cons_cons, ← hM] at hx
    exact f2 x hx
  · have hitems : (g.2.map (formatAction tty w)).flatten =
        unl (g.2.flatMap fun e => entryLines (helpPosition w) (invocation e) (entryGroups tty w e)) := by
      have : ∀ es : List HelpEntry, (∀ e ∈ es, e ∈ g.2) → (es.map (formatAction tty w)).flatten =
          unl (es.flatMap fun e => entryLines (helpPosition w) (invocation e) (entryGroups tty w e)) := by
        intro es
        induction es with
        | nil => intro _; rfl
        | cons e es ih =>
          intro h
          rw [List.map_cons, List.flatten_cons, List.flatMap_cons, unl_append,
            ih fun x hx => h x (List.mem_cons_of_mem _ hx),
            formatAction_lines hw (entry_ok hg (h e (by simp)) tty)]
      exact this g.2 fun _ h => h
    rw [hitems, formatSection, if_neg]
    · rw [groupLines, unl_cons]
      simp
    · rw [hM, unl_cons]
      simp

/-- The page before colons are removed. -/
theorem rawHelp_lines {tty : Bool} {w : Nat} (hw : 20 ≤ w) :
    mainHelp tty w = unl (headLines ++ (helpGroups.flatMap fun g => [] :: groupLines tty w g)) := by
  have hs : ∀ gs : List (Str × List HelpEntry), (∀ g ∈ gs, g ∈ helpGroups) →
      (gs.map fun g => formatSection g.1 ((g.2.map (formatAction tty w)).flatten)).flatten =
        (gs.map (groupLines tty w)).flatMap fun B => '\n' :: (unl B ++ ['\n']) := by
    intro gs
    induction gs with
    | nil => intro _; rfl
    | cons g gs ih =>
      intro h
      rw [List.map_cons, List.flatten_cons, List.map_cons, List.flatMap_cons,
        ih fun x hx => h x (List.mem_cons_of_mem _ hx), (groupLines_ok hw (h g (by simp))).2.2.2]
  unfold mainHelp
  rw [hs helpGroups fun _ h => h, head_unl, finishHelp_blocks head_squeeze head_first]
  · rw [List.flatMap_map]
  · intro B hB
    obtain ⟨g, hg, rfl⟩ := List.mem_map.1 hB
    refine ⟨(groupLines_ok hw hg).2.1, by simp [groupLines]⟩
  · simp [helpGroups]

theorem ending_lines (tty remarks : Bool) :
    endingHelp tty (if remarks then some (join ['\n'] (helpEpilog tty)) else none) = unl (endLines tty remarks) ∧
    okLines (endLines tty remarks) = true := by
  have h := fixed_ok tty
  simp only [checkFixed, Bool.and_eq_true, decide_eq_true_eq] at h
  cases remarks
  · exact ⟨h.1.1.2, h.2⟩
  · exact ⟨h.1.1.1, h.1.2⟩

theorem pageLines_ok {tty : Bool} {w : Nat} (hw : 20 ≤ w) (remarks : Bool) : okLines (pageLines tty w remarks) = true := by
  obtain ⟨_, _, _, _, _, h6, h7⟩ := head_parts
  have hm := okLines_flatMap (fun g => [] :: groupLines tty w g) helpGroups (by
    intro g hg
    obtain ⟨g1, _, g3, _⟩ := groupLines_ok (tty := tty) hw hg
    refine ⟨by simp [okLines, okLine, okNext, g1], ?_⟩
    intro x hx
    rw [groupLines, List.getLast?_cons_cons, ← groupLines] at hx
    exact g3 x hx)
  have hh : ∀ l, headLines.getLast? = some l → l.getLast? ≠ some ':' := by
    intro l hl
    rw [hl] at h7
    simpa using h7
  rw [pageLines, List.append_assoc]
  refine okLines_append h6 hh ?_
  exact okLines_append hm.1 hm.2 (ending_lines tty remarks).2

/-- The page. -/
theorem formatHelp_lines (tty : Bool) {c : Nat} (hc : 22 ≤ c) (remarks : Bool) :
    formatHelp tty c (if remarks then some (join ['\n'] (helpEpilog tty)) else none) =
      unl ((pageLines tty (c - 2) remarks).map dropEndColon) := by
  unfold formatHelp
  simp only []
  rw [rawHelp_lines (by omega), (ending_lines tty remarks).1, ← unl_append]
  exact removeColons_unl (pageLines_ok (by omega) remarks) (Nat.le_refl _)

end Kolombos
