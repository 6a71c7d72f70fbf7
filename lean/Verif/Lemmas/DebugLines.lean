import Verif.Lemmas.DebugErase
import Verif.Lemmas.BinRun
import Verif.Lemmas.TextView
import Verif.Spec.Debug
/-
Every write is one line.
-/
set_option linter.unusedSimpArgs false

namespace Kolombos
open Spec

/-! ### Texts without control characters -/

/-- The text shows no control characters and leaves the style as it was. -/
def FineIn (a : Style) (t : Str) : Prop := ∃ v, Shows a t a v ∧ ∀ x ∈ v, isControlChar x.1 = false

namespace FineIn

theorem nil (a : Style) : FineIn a [] := ⟨[], .nil _, by simp⟩

theorem text (a : Style) {t : Str} (h : ∀ c ∈ t, isControlChar c = false) : FineIn a t := by
  refine ⟨_, Shows.text a (plain_noEsc h), ?_⟩
  intro x hx
  obtain ⟨c, hc, rfl⟩ := List.mem_map.1 hx
  exact h c hc

theorem append {a : Style} {t u : Str} (h : FineIn a t) (h' : FineIn a u) : FineIn a (t ++ u) := by
  obtain ⟨v, h1, h2⟩ := h
  obtain ⟨w, h3, h4⟩ := h'
  refine ⟨v ++ w, h1.append h3, ?_⟩
  intro x hx
  rcases List.mem_append.1 hx with hx | hx
  · exact h2 x hx
  · exact h4 x hx

theorem flatMap {α : Type} {a : Style} {f : α → Str} {l : List α} (h : ∀ x ∈ l, FineIn a (f x)) : FineIn a (l.flatMap f) := by
  induction l with
  | nil => exact .nil a
  | cons x l ih =>
    rw [List.flatMap_cons]
    exact (h x (by simp)).append (ih fun y hy => h y (by simp [hy]))

theorem join {a : Style} {sep : Str} {l : List Str} (hs : FineIn a sep) (h : ∀ x ∈ l, FineIn a x) : FineIn a (Kolombos.join sep l) := by
  induction l with
  | nil => exact .nil a
  | cons x l ih =>
    cases l with
    | nil => exact h x (by simp)
    | cons y l =>
      exact ((h x (by simp)).append hs).append (ih fun z hz => h z (by simp [hz]))

/-- A span. -/
theorem span {a : Style} {o : Sgr} {t : Str} (h : FineIn (applySgr o a) t) (ho : applySgr (Sgr.closing o) (applySgr o a) = a) :
    FineIn a (Kolombos.span o t) := by
  obtain ⟨v, h1, h2⟩ := h
  have h3 := Shows.sgr (applySgr o a) (Sgr.closing o)
  rw [ho] at h3
  refine ⟨v, ?_, h2⟩
  have := ((Shows.sgr a o).append h1).append h3
  simpa [Kolombos.span] using this

end FineIn

/-- The write is one line: no line feed but the last character, no style left. -/
def OneLine (t : Str) : Prop := ∃ v st, Shows {} t {} (v ++ [('\n', st)]) ∧ ∀ x ∈ v, x.1 ≠ '\n'

theorem FineIn.line {t : Str} (h : FineIn {} t) : OneLine (t ++ ['\n']) := by
  obtain ⟨v, h1, h2⟩ := h
  refine ⟨v, {}, h1.append (Shows.text {} (s := ['\n']) (by decide)), ?_⟩
  intro x hx e
  have := h2 x hx
  rw [e] at this
  exact absurd this (by decide)

/-! ### SGR sequences in square brackets -/

theorem starRun_params (ps r : Str) (h : ∀ c ∈ ps, isSgrParam c = true) (n : Nat) (c : Caps Char) (hn : (ps ++ 'm' :: r).length ≤ n) :
    ∃ c' tl, starRun (fun s c => (Re.grp 4 (.cls fun c => c.isDigit || c == ';')).run s c) n (ps ++ 'm' :: r) c = ('m' :: r, c') :: tl := by
  induction ps generalizing n c with
  | nil =>
    cases n with
    | zero => simp at hn
    | succ n => exact ⟨c, [], by simp [starRun, Re.run]⟩
  | cons p ps ih =>
    have hp : (p.isDigit || p == ';') = true := h p (by simp)
    cases n with
    | zero => simp at hn
    | succ n =>
      obtain ⟨c', tl, e⟩ := ih (fun c hc => h c (by simp [hc])) n ((4, [p]) :: c) (by simpa using hn)
      refine ⟨c', tl ++ [(p :: ps ++ 'm' :: r, c)], ?_⟩
      rw [starRun]
      have e1 : (Re.grp 4 (.cls fun c => c.isDigit || c == ';')).run (p :: ps ++ 'm' :: r) c = [(ps ++ 'm' :: r, (4, [p]) :: c)] := by
        simp only [List.cons_append, Re.run, hp, if_true, List.map_cons, List.map_nil, List.length_cons]
        rw [show (ps ++ 'm' :: r).length + 1 - (ps ++ 'm' :: r).length = 1 by omega]
        rfl
      rw [e1]
      simp only [List.flatMap_cons, List.flatMap_nil, List.append_nil]
      rw [if_pos (by simp), e]
      rfl

/-- The match of an SGR sequence. -/
theorem sgr_first_caps (ps r : Str) (h : ∀ c ∈ ps, isSgrParam c = true) :
    ∃ m, sgrRegexp.first ('\x1b' :: '[' :: (ps ++ 'm' :: r)) = some (m, r) ∧ m.group 3 = some ps := by
  obtain ⟨c', tl, e⟩ := starRun_params ps r h (ps ++ 'm' :: r).length [(2, ['[']), (1, ['\x1b'])] (Nat.le_refl _)
  have hr : ∃ tl', sgrRegexp.run ('\x1b' :: '[' :: (ps ++ 'm' :: r)) [] = (r, (5, ['m']) :: (3, ps) :: c') :: tl' := by
    have e1 : (Re.grp 1 (.cls (· == '\x1b'))).run ('\x1b' :: '[' :: (ps ++ 'm' :: r)) [] = [('[' :: (ps ++ 'm' :: r), [(1, ['\x1b'])])] := by
      simp [Re.run, show (ps.length + (r.length + 1) + 1 + 1) - (ps.length + (r.length + 1) + 1) = 1 by omega]
    have e2 : (Re.grp 2 (.cls (· == '['))).run ('[' :: (ps ++ 'm' :: r)) [(1, ['\x1b'])] = [(ps ++ 'm' :: r, [(2, ['[']), (1, ['\x1b'])])] := by
      simp [Re.run, show (ps.length + (r.length + 1) + 1) - (ps.length + (r.length + 1)) = 1 by omega]
    unfold sgrRegexp
    rw [Re.run, e1]
    simp only [List.flatMap_cons, List.flatMap_nil, List.append_nil]
    rw [Re.run, e2]
    simp only [List.flatMap_cons, List.flatMap_nil, List.append_nil]
    rw [Re.run]
    have e3 : (Re.grp 3 (.star (.grp 4 (.cls fun c => c.isDigit || c == ';')))).run (ps ++ 'm' :: r) [(2, ['[']), (1, ['\x1b'])] =
        ('m' :: r, (3, ps) :: c') :: tl.map fun x => (x.1, (3, (ps ++ 'm' :: r).take ((ps ++ 'm' :: r).length - x.1.length)) :: x.2) := by
      rw [Re.run, Re.run, e, List.map_cons]
      congr 1
      simp only [Prod.mk.injEq, List.cons.injEq, true_and, and_true]
      rw [show (ps ++ 'm' :: r).length - ('m' :: r).length = ps.length by simp, List.take_left]
    rw [e3, List.flatMap_cons]
    have e4 : (Re.grp 5 (.cls (· == 'm'))).run ('m' :: r) ((3, ps) :: c') = [(r, (5, ['m']) :: (3, ps) :: c')] := by
      simp [Re.run, show r.length + 1 - r.length = 1 by omega]
    rw [e4]
    exact ⟨_, rfl⟩
  obtain ⟨tl', e'⟩ := hr
  refine ⟨⟨('\x1b' :: '[' :: (ps ++ 'm' :: r)).take (('\x1b' :: '[' :: (ps ++ 'm' :: r)).length - r.length), (5, ['m']) :: (3, ps) :: c'⟩, ?_, ?_⟩
  · unfold Re.first; rw [e']; rfl
  · rfl

/-- The parameters of a sequence, as they are written. -/
def paramText (q : Sgr) : Str := Kolombos.join [';'] ((if q = [0] then [] else q).map dec)

/-- A sequence in square brackets. -/
theorem previewSgr_assemble (q : Sgr) :
    Debug.previewSgr q.assemble = if q = [] then [] else ['[', 'ǝ'] ++ paramText q ++ [']'] := by
  unfold Sgr.assemble
  by_cases hq : q = []
  · subst hq; rfl
  · rw [if_neg (by simpa using hq), if_neg hq]
    simp only
    have hp := join_sgrParam (if q = [0] then [] else q)
    show Debug.previewSgr ('\x1b' :: '[' :: (paramText q ++ ['m'])) = _
    generalize hP : paramText q = ps
    have hp' : ∀ c ∈ ps, isSgrParam c = true := by rw [← hP]; exact hp
    obtain ⟨m, e1, e2⟩ := sgr_first_caps ps [] hp'
    unfold Debug.previewSgr Re.sub Re.scan
    rw [show ('\x1b' :: '[' :: (ps ++ ['m'])).length = (ps.length + 2) + 1 by simp, Re.scanAux, e1]
    simp only
    rw [if_pos (by simp), show ps.length + 2 = ps.length + 1 + 1 from rfl, Re.scanAux]
    simp only [List.flatMap_cons, List.flatMap_nil, List.append_nil, e2, Option.getD_some]

theorem param_plain {c : Char} (h : isSgrParam c = true) : isControlChar c = false := by
  unfold isSgrParam at h
  rcases Bool.or_eq_true _ _ ▸ h with h | h
  · exact isDigit_plain h
  · rw [eq_of_beq h]; decide

theorem previewSgr_plain (q : Sgr) : ∀ c ∈ Debug.previewSgr q.assemble, isControlChar c = false := by
  rw [previewSgr_assemble]
  split
  · simp
  · intro c hc
    simp only [List.mem_append, List.mem_cons, List.not_mem_nil, or_false] at hc
    rcases hc with ((rfl | rfl) | hc) | rfl
    · decide
    · decide
    · exact param_plain (join_sgrParam _ c hc)
    · decide

/-! ### Prefixes -/

theorem dim0x_append' (a t : Str) (h : 'x' ∉ a) (ht : t.head? ≠ some 'x') : Console.dim0x (a ++ t) = a ++ Console.dim0x t := by
  induction a with
  | nil => rfl
  | cons c a ih =>
    have := ih fun hm => h (by simp [hm])
    rw [List.cons_append, Console.dim0x.eq_def]
    split
    · rename_i e
      obtain ⟨-, e⟩ := List.cons.inj e
      exfalso
      cases a with
      | nil => rw [List.nil_append] at e; rw [e] at ht; exact ht rfl
      | cons d a =>
        have := (List.cons.inj e).1
        exact h (by simp [this])
    · rename_i x y _ e
      obtain ⟨rfl, rfl⟩ := List.cons.inj e
      rw [this]; rfl
    · rename_i e; cases e

theorem replicate_plain (k : Nat) : ∀ c ∈ List.replicate k ' ', isControlChar c = false := by
  intro c hc
  rw [(List.mem_replicate.1 hc).2]; decide

theorem separator_fine (s : Settings) : FineIn {} (Console.separator s) := by
  unfold Console.separator
  split
  · exact FineIn.span (FineIn.text _ (by decide)) (by decide)
  · exact FineIn.span (FineIn.text _ (by decide)) (by decide)

theorem separator_noX (s : Settings) : 'x' ∉ Console.separator s := by
  unfold Console.separator; split <;> decide

/-- A prefix with an offset. -/
theorem offsetPrefix_fine (s : Settings) (off color : Nat) (hc : color ∈ [32, 33, 35, 36, 90]) :
    FineIn {} (Console.formatPrefixWithOffset s off [color, 40]) := by
  have hax : 'x' ∉ Sgr.assemble [color, 40] := by
    have : ∀ c ∈ [32, 33, 35, 36, 90], 'x' ∉ Sgr.assemble [c, 40] := by decide
    exact this color hc
  have hcx : 'x' ∉ Sgr.assemble (Sgr.closing [color, 40]) := by
    have : ∀ c ∈ [32, 33, 35, 36, 90], 'x' ∉ Sgr.assemble (Sgr.closing [c, 40]) := by decide
    exact this color hc
  have hst : applySgr (Sgr.closing [color, 40]) (applySgr [color, 40] {}) = {} := by
    have : ∀ c ∈ [32, 33, 35, 36, 90], applySgr (Sgr.closing [c, 40]) (applySgr [c, 40] {}) = {} := by decide
    exact this color hc
  have hdim : applySgr (Sgr.closing [2]) (applySgr [2] (applySgr [color, 40] {})) = applySgr [color, 40] {} := by
    have : ∀ c ∈ [32, 33, 35, 36, 90], applySgr (Sgr.closing [2]) (applySgr [2] (applySgr [c, 40] {})) = applySgr [c, 40] {} := by decide
    exact this color hc
  unfold Console.formatPrefixWithOffset Console.formatPrefix
  have hspx : ∀ k, 'x' ∉ List.replicate k ' ' := fun k hm => absurd (List.mem_replicate.1 hm).2 (by decide)
  cases hd : s.decimalOffsets with
  | true =>
    have hlab : Console.offsetLabel s off = dec off := by unfold Console.offsetLabel; rw [if_pos hd]
    rw [hlab]
    have hp : ∀ c ∈ rjust 8 ' ' ((dec off).take 8), isControlChar c = false :=
      rjust_plain (by decide) fun c hc => dec_plain off c (List.mem_of_mem_take hc)
    rw [dim0x_noX]
    · exact (FineIn.span (FineIn.text _ hp) hst).append (separator_fine s)
    · simp only [span, rjust, List.mem_append, not_or]
      exact ⟨⟨⟨hax, hspx _, fun hm => dec_noX off 'x' (.inl rfl) (List.mem_of_mem_take hm)⟩, hcx⟩, separator_noX s⟩
  | false =>
    obtain ⟨w, hlab⟩ : ∃ w, Console.offsetLabel s off = '0' :: 'x' :: hexPad w off := by
      unfold Console.offsetLabel; rw [if_neg (by simp [hd])]; exact ⟨_, rfl⟩
    rw [hlab]
    simp only [List.take_succ_cons]
    generalize hD : (hexPad w off).take 6 = D
    have hx : 'x' ∉ D := by
      rw [← hD]; intro hm
      obtain ⟨d, h, e⟩ := hexPad_digits _ _ _ (List.mem_of_mem_take hm)
      exact hexDigit_ne_x d h e.symm
    have hp : ∀ c ∈ D, isControlChar c = false := by
      rw [← hD]; intro c hm
      exact hexPad_plain _ _ c (List.mem_of_mem_take hm)
    generalize hK : 8 - ('0' :: 'x' :: D).length = K
    have e : span [color, 40] (rjust 8 ' ' ('0' :: 'x' :: D)) ++ Console.separator s =
        (Sgr.assemble [color, 40] ++ List.replicate K ' ') ++ ('0' :: 'x' :: (D ++ (Sgr.assemble (Sgr.closing [color, 40]) ++ Console.separator s))) := by
      simp only [span, rjust, hK, List.append_assoc, List.cons_append]
    have e' : Console.dim0x (span [color, 40] (rjust 8 ' ' ('0' :: 'x' :: D)) ++ Console.separator s) =
        span [color, 40] (List.replicate K ' ' ++ span [2] ['0', 'x'] ++ D) ++ Console.separator s := by
      rw [e, dim0x_append', dim0x_0x, dim0x_noX]
      · simp [span]
      · simp only [List.mem_append, not_or]
        exact ⟨hx, hcx, separator_noX s⟩
      · simp only [List.mem_append, not_or]
        exact ⟨hax, hspx _⟩
      · simp
    rw [e']
    refine (FineIn.span (((FineIn.text _ (replicate_plain K)).append ?_).append (FineIn.text _ hp)) hst).append (separator_fine s)
    exact FineIn.span (FineIn.text _ (by decide)) hdim

/-- A prefix with a key that has no `x`. -/
theorem keyPrefix_fine (s : Settings) (k : Str) (hp : ∀ c ∈ k, isControlChar c = false) (hx : 'x' ∉ k) :
    FineIn {} (Console.formatPrefix s k [90, 40]) := by
  unfold Console.formatPrefix
  rw [dim0x_noX]
  · refine (FineIn.span (FineIn.text _ ?_) (by decide)).append (separator_fine s)
    exact rjust_plain (by decide) fun c hc => hp c (List.mem_of_mem_take hc)
  · simp only [span, rjust, List.mem_append, not_or]
    refine ⟨⟨⟨by decide, fun hm => absurd (List.mem_replicate.1 hm).2 (by decide), fun hm => hx (List.mem_of_mem_take hm)⟩, by decide⟩, separator_noX s⟩

theorem txtPrefix_fine (s : Settings) : FineIn {} (Console.formatPrefix s ['t', 'x', 't', 'f', 'm', 't'] [90, 40]) := by
  unfold Console.formatPrefix
  have e : span [90, 40] (rjust 8 ' ' (['t', 'x', 't', 'f', 'm', 't'].take 8)) ++ Console.separator s =
      (Sgr.assemble [90, 40] ++ [' ', ' ']) ++ ('t' :: 'x' :: (['t', 'f', 'm', 't'] ++ Sgr.assemble (Sgr.closing [90, 40]) ++ Console.separator s)) := by
    simp [span, rjust]
  have e' : Console.dim0x (span [90, 40] (rjust 8 ' ' (['t', 'x', 't', 'f', 'm', 't'].take 8)) ++ Console.separator s) =
      span [90, 40] (rjust 8 ' ' (['t', 'x', 't', 'f', 'm', 't'].take 8)) ++ Console.separator s := by
    rw [e, dim0x_append' _ _ (by decide) (by simp)]
    have h2 : Console.dim0x ('t' :: 'x' :: (['t', 'f', 'm', 't'] ++ Sgr.assemble (Sgr.closing [90, 40]) ++ Console.separator s)) =
        't' :: 'x' :: Console.dim0x (['t', 'f', 'm', 't'] ++ Sgr.assemble (Sgr.closing [90, 40]) ++ Console.separator s) := by
      rw [Console.dim0x.eq_2 _ _ (by intro r h; cases h), Console.dim0x.eq_2 _ _ (by intro r h; cases h)]
    rw [h2, dim0x_noX]
    simp only [List.mem_append, not_or]
    exact ⟨⟨by decide, by decide⟩, separator_noX s⟩
  rw [e']
  exact (FineIn.span (FineIn.text _ (by decide)) (by decide)).append (separator_fine s)

end Kolombos
