import Verif.Model.SettingsTable
import Verif.Spec.SettingsTable
import Verif.Lemmas.DebugEvents
/-
The table of settings on a terminal.
-/
set_option linter.unusedSimpArgs false

namespace Kolombos
open Spec

theorem Shows.spanIn {a : Style} {o : Sgr} {t : Str} {v : List (Char × Style)} (h : Shows (applySgr o a) t (applySgr o a) v)
    (ho : applySgr (Sgr.closing o) (applySgr o a) = a) : Shows a (Kolombos.span o t) a v := by
  have h3 := Shows.sgr (applySgr o a) (Sgr.closing o)
  rw [ho] at h3
  have := ((Shows.sgr a o).append h).append h3
  simpa [Kolombos.span] using this

theorem Shows.spanText {o : Sgr} {t : Str} (ht : '\x1b' ∉ t) (st : Style) (hst : applySgr o {} = st)
    (ho : applySgr (Sgr.closing o) (applySgr o {}) = {}) : Shows {} (Kolombos.span o t) {} (inStyle st t) := by
  subst hst
  exact .spanIn (.text _ ht) ho

theorem debug_separator {s : Settings} (h : s.debug > 0) : Shows {} (Console.separator s) {} (inStyle grey ['│']) := by
  unfold Console.separator
  rw [if_pos h]
  exact .spanText (by decide) _ (by decide) (by decide)

theorem noEsc_append {a b : Str} (h : '\x1b' ∉ a) (h' : '\x1b' ∉ b) : '\x1b' ∉ a ++ b := by
  simp [h, h']

theorem noEsc_replicate (n : Nat) {c : Char} (h : c ≠ '\x1b') : '\x1b' ∉ List.replicate n c := by
  intro hm
  exact h (List.eq_of_mem_replicate hm).symm

theorem noEsc_alignRight (w : Nat) {t : Str} (h : '\x1b' ∉ t) : '\x1b' ∉ alignRight w t :=
  noEsc_append (noEsc_replicate _ (by decide)) h

/-- A value and its default, as an entry shows them. -/
structure Agrees (e : Entry) (n : Str) (app d : PyVal) : Prop where
  name : e.name.toList = n
  value : e.value = app.str'
  dflt : e.dflt = d.str'
  changed : e.changed = true ↔ app ≠ d
  plain : '\x1b' ∉ n ∧ '\x1b' ∉ app.str' ∧ '\x1b' ∉ d.str'

theorem tableRow_shows {s : Settings} (hs : s.debug > 0) (w : Nat) {name : Str} (derived : Bool) {app dflt : PyVal} {e : Entry}
    (h : Agrees e name app dflt) : Shows {} (tableRow s w name derived app dflt ++ ['\n']) {} (e.row w derived) := by
  obtain ⟨h1, h2, h3, h4, h5, h6, h7⟩ := h
  have hn : '\x1b' ∉ rjust w ' ' name := noEsc_alignRight w h5
  unfold tableRow Entry.row
  by_cases hc : app = dflt
  · have hf : e.changed = false := by
      cases hb : e.changed
      · rfl
      · exact absurd hc (h4.1 hb)
    have hv : e.value = dflt.str' := by rw [h2, hc]
    simp only [hc, ne_eq, not_true_eq_false, if_false, hf, Bool.false_eq_true, h1, hv, ↓reduceIte]
    refine Shows.append (Shows.append (Shows.append ?_ (debug_separator hs)) (.spanText h7 _ (by decide) (by decide))) (.text {} (by decide))
    cases derived
    · exact .spanText hn _ (by decide) (by decide)
    · exact .spanText hn _ (by decide) (by decide)
  · have hf : e.changed = true := h4.2 hc
    simp only [hc, ne_eq, not_false_eq_true, if_true, hf, h1, h2, h3, ↓reduceIte]
    refine Shows.append (Shows.append (Shows.append ?_ (debug_separator hs)) (Shows.append (Shows.append (.spanText h6 _ (by decide) (by decide)) (.text {} (by decide)))
      (.spanText (noEsc_append (noEsc_append (by decide) h7) (by decide)) _ (by decide) (by decide)))) (.text {} (by decide))
    cases derived
    · exact .spanText hn _ (by decide) (by decide)
    · exact .spanText hn _ (by decide) (by decide)

theorem pyRepeat_dash (n : Int) : pyRepeat ['─'] n = List.replicate n.toNat '─' := by
  unfold pyRepeat
  generalize n.toNat = k
  induction k with
  | zero => rfl
  | succ k ih => rw [List.replicate_succ, List.flatten_cons, ih]; rfl

/-- A line of dashes with two parts on black. -/
theorem dashes_shows {s : Settings} (hs : s.debug > 0) (a b : Str) (c : Char) (ha : '\x1b' ∉ a) (hb : '\x1b' ∉ b) (hc : '\x1b' ∉ [c]) (width : Int) :
    Shows {} (Debug.formatSeparator s (span [40] a ++ (span [40] b ++ [c]) ++
        pyRepeat ['─'] (width - (stripSgr (span [40] a ++ (span [40] b ++ [c]))).length)) ++ ['\n']) {}
      (inStyle { fg := .basic 90, bg := .basic 40 } (a ++ b) ++ inStyle grey [c]
        ++ inStyle grey (List.replicate (width - (a.length + b.length + 1 : Nat)).toNat '─') ++ inStyle {} ['\n']) := by
  have hlen : (stripSgr (span [40] a ++ (span [40] b ++ [c]))).length = a.length + b.length + 1 := by
    have h : Shows {} (span [40] a ++ (span [40] b ++ [c])) {} (inStyle _ a ++ (inStyle _ b ++ inStyle {} [c])) :=
      .append (.spanText ha _ rfl (by decide)) (.append (.spanText hb _ rfl (by decide)) (.text {} hc))
    rw [h.strip]
    simp [inStyle]; omega
  rw [hlen, pyRepeat_dash]
  unfold Debug.formatSeparator
  rw [if_pos hs]
  refine Shows.append (Shows.spanIn ?_ (by decide)) (.text {} (by decide))
  have e : ∀ t, '\x1b' ∉ t → Shows (applySgr [90] {}) (span [40] t) (applySgr [90] {}) (inStyle { fg := .basic 90, bg := .basic 40 } t) := by
    intro t ht
    exact .spanIn (.text _ ht) (by decide)
  rw [inStyle_append]
  have := ((e a ha).append ((e b hb).append (.text _ hc))).append (.text (applySgr [90] {}) (noEsc_replicate (width - (a.length + b.length + 1 : Nat)).toNat (c := '─') (by decide)))
  rw [show applySgr [90] ({} : Spec.Style) = grey from by decide] at this ⊢
  simpa only [List.append_assoc] using this

theorem separatorLine_eq (s : Settings) (prefixLen : Nat) (width : Int) (o c : Bool) :
    separatorLineWith s prefixLen width false false false o c = Debug.separatorLine s width (if c then '┴' else if o then '┬' else '┼') := by
  unfold separatorLineWith Debug.separatorLine
  cases o <;> cases c <;> simp

end Kolombos
