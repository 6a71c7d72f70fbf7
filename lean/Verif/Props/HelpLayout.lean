/-
C122: the layout of the help page.
-/
import Verif.Spec.HelpLayout
import Verif.Props.HelpPage

set_option linter.unusedSimpArgs false
set_option linter.constructorNameAsVariable false

namespace Kolombos
open Spec

instance (a b : Str) : Decidable (Follows a b) := by unfold Follows; infer_instance

instance decWellSet : (l : List Str) → Decidable (WellSet l)
  | [] => .isTrue trivial
  | [_] => .isTrue trivial
  | a :: b :: r => @instDecidableAnd _ _ _ (decWellSet (b :: r))

/-- Lines that are well set, begin with an empty line, and end with an indented one. -/
structure SetBlock (l : List Str) : Prop where
  well : WellSet l
  first : ∃ f r, l = f :: r ∧ isBlankLine f = true
  last : ∃ i e, l = i ++ [e] ∧ isIndented e = true

theorem wellSet_append : ∀ {x y : List Str}, WellSet x → WellSet y → (∀ a b i r, x = i ++ [a] → y = b :: r → Follows a b) → WellSet (x ++ y)
  | [], y, _, hy, _ => hy
  | [a], [], _, _, _ => trivial
  | [a], b :: r, _, hy, h => ⟨h a b [] r rfl rfl, hy⟩
  | a :: b :: r, y, hx, hy, h => ⟨hx.1, wellSet_append (x := b :: r) hx.2 hy fun c d i s e1 e2 => h c d (a :: i) s (by rw [e1]; rfl) e2⟩

theorem indented_noHeading {l : Str} (h : isIndented l = true) : isHeading l = false := by
  unfold isIndented at h
  obtain ⟨r, rfl⟩ := List.isPrefixOf_iff_prefix.1 h
  rfl

theorem follows_blank {a b : Str} (ha : isIndented a = true) (hb : isBlankLine b = true) : Follows a b :=
  ⟨fun h => absurd h (by rw [indented_noHeading ha]; decide), .inr (.inl hb)⟩

theorem setBlock_append {x y : List Str} (hx : SetBlock x) (hy : SetBlock y) : SetBlock (x ++ y) := by
  obtain ⟨f, r, rfl, hf⟩ := hx.first
  obtain ⟨i, e, hi, he⟩ := hx.last
  obtain ⟨f', r', e1, hf'⟩ := hy.first
  obtain ⟨i', e', e2, he'⟩ := hy.last
  refine ⟨wellSet_append hx.well hy.well ?_, ⟨f, r ++ y, rfl, hf⟩, ⟨f :: r ++ i', e', by rw [e2, List.append_assoc], he'⟩⟩
  intro a b j s h1 h2
  rw [hi] at h1
  rw [e1] at h2
  cases h2
  obtain ⟨-, h1⟩ := List.append_inj' h1 rfl
  cases h1
  exact follows_blank he hf'

theorem setBlock_flatMap {α : Type} (f : α → List Str) : ∀ (l : List α), l ≠ [] → (∀ x ∈ l, SetBlock (f x)) → SetBlock (l.flatMap f)
  | [], h, _ => absurd rfl h
  | [x], _, h => by simpa using h x (by simp)
  | x :: y :: l, _, h => by
    rw [List.flatMap_cons]
    exact setBlock_append (h x (by simp)) (setBlock_flatMap f (y :: l) (by simp) fun z hz => h z (by simp [hz]))

theorem wellSet_indented {a : Str} : ∀ {l : List Str}, (∀ x ∈ l, isIndented x = true) → WellSet (a :: l)
  | [], _ => trivial
  | b :: r, h => ⟨⟨fun _ => h b (by simp), .inl (h b (by simp))⟩, wellSet_indented fun x hx => h x (by simp [hx])⟩

theorem indented_noColon {r : Str} : isIndented (dropEndColon (' ' :: ' ' :: r)) = true := by
  unfold dropEndColon
  split
  · next h =>
    cases r with
    | nil => cases h
    | cons c r => rfl
  · rfl

theorem entryLines_indented {w : Nat} (inv : Str) (gs : List (List Str)) {l : Str}
    (h : l ∈ entryLines (helpPosition w) inv gs) : isIndented (dropEndColon l) = true := by
  have hpos := helpPosition_ge w
  have hrep : ∀ x : Str, isIndented (dropEndColon (List.replicate (helpPosition w) ' ' ++ x)) = true := by
    intro x
    obtain ⟨n, hn⟩ : ∃ n, helpPosition w = n + 2 := ⟨helpPosition w - 2, by omega⟩
    rw [hn, List.replicate_succ, List.replicate_succ]
    exact indented_noColon
  cases gs with
  | nil => cases h
  | cons g gs =>
    rw [entryLines] at h
    by_cases hf : inv.length ≤ helpPosition w - 2 - 2
    · rw [if_pos hf] at h
      rcases List.mem_cons.1 h with rfl | h
      · exact indented_noColon
      · obtain ⟨x, -, rfl⟩ := List.mem_map.1 h
        exact hrep _
    · rw [if_neg hf] at h
      rcases List.mem_cons.1 h with rfl | h
      · exact indented_noColon
      · obtain ⟨x, -, rfl⟩ := List.mem_map.1 h
        exact hrep _

/-- What the proof needs to know of the headings of the groups. -/
theorem groups_headed : (helpGroups.all fun g => !g.2.isEmpty) = true ∧
    helpGroups.map (fun g => dropEndColon (formatHeader g.1 ++ [':'])) =
      ((headings.drop 1).dropLast).map (fun t => "\x1b[1m".toList ++ t.toList ++ "\x1b[22m".toList) := by decide +kernel

theorem helpGroups_some : helpGroups ≠ [] := by
  intro h
  have : helpGroups.length = 6 := by decide +kernel
  rw [h] at this
  cases this

theorem groupLines_set (tty : Bool) {w : Nat} (hw : 20 ≤ w) {g : Str × List HelpEntry} (hg : g ∈ helpGroups) :
    SetBlock ((([] : Str) :: groupLines tty w g).map dropEndColon) ∧
      ((([] : Str) :: groupLines tty w g).map dropEndColon).filter isHeading = [dropEndColon (formatHeader g.1 ++ [':'])] := by
  have hhead : isHeading (dropEndColon (formatHeader g.1 ++ [':'])) = true := by
    have : dropEndColon (formatHeader g.1 ++ [':']) ∈ helpGroups.map (fun g => dropEndColon (formatHeader g.1 ++ [':'])) := List.mem_map.2 ⟨g, hg, rfl⟩
    rw [groups_headed.2] at this
    obtain ⟨t, -, e⟩ := List.mem_map.1 this
    rw [← e]
    rfl
  have hall : ∀ l ∈ (g.2.flatMap fun e => entryLines (helpPosition w) (invocation e) (entryGroups tty w e)).map dropEndColon, isIndented l = true := by
    intro l hl
    obtain ⟨m, hm, rfl⟩ := List.mem_map.1 hl
    obtain ⟨e, -, hm⟩ := List.mem_flatMap.1 hm
    exact entryLines_indented _ _ hm
  have hne : (g.2.flatMap fun e => entryLines (helpPosition w) (invocation e) (entryGroups tty w e)).map dropEndColon ≠ [] := by
    have h1 := List.all_eq_true.1 groups_headed.1 g hg
    cases h2 : g.2 with
    | nil => rw [h2] at h1; cases h1
    | cons e es =>
      obtain ⟨_, h3, _, _⟩ := entryGroups_ok hw (entry_ok hg (e := e) (by rw [h2]; simp) tty)
      obtain ⟨f, fs, hf⟩ := List.exists_cons_of_ne_nil h3
      rw [List.flatMap_cons, hf, entryLines]
      split <;> simp
  unfold groupLines
  rw [List.map_cons, List.map_cons]
  generalize (g.2.flatMap fun e => entryLines (helpPosition w) (invocation e) (entryGroups tty w e)).map dropEndColon = L at hall hne
  generalize dropEndColon (formatHeader g.1 ++ [':']) = t at hhead ⊢
  refine ⟨⟨⟨⟨?_, .inr (.inr ⟨?_, rfl⟩)⟩, wellSet_indented hall⟩, ⟨_, _, rfl, rfl⟩, ?_⟩, ?_⟩
  · intro h; cases h
  · obtain ⟨r, rfl⟩ := List.isPrefixOf_iff_prefix.1 (hhead : "\x1b[1m".toList.isPrefixOf t = true)
    simp
  · obtain ⟨i, e, rfl⟩ : ∃ i e, L = i ++ [e] := ⟨L.dropLast, L.getLast hne, (List.dropLast_append_getLast hne).symm⟩
    exact ⟨_ :: t :: i, e, rfl, hall e (by simp)⟩
  · rw [List.filter_cons, if_neg (by decide), List.filter_cons, if_pos hhead, List.filter_eq_nil_iff.2 fun l hl => by rw [indented_noHeading (hall l hl)]; decide]

/-- What the proof needs to know of the other lines. -/
theorem fixed_set (tty : Bool) :
    (WellSet (headLines.map dropEndColon) ∧ isHeading ((headLines.map dropEndColon).getLast?.getD "\x1b[1m".toList) = false ∧
      headLines.head?.map dropEndColon = some "\x1b[1mUSAGE\x1b[22m".toList ∧
      (headLines.map dropEndColon).filter isHeading = ["\x1b[1mUSAGE\x1b[22m".toList]) ∧
    WellSet ((endLines tty true).map dropEndColon) ∧ (((endLines tty true).map dropEndColon).head?.all isBlankLine) = true ∧
      ((endLines tty true).map dropEndColon).filter isHeading = ["\x1b[1mEXAMPLES\x1b[22m".toList] := by
  cases tty <;> decide +kernel

/-- Lines before, between and after that fit together. -/
theorem wellSet_page {x y z : List Str} (hx : WellSet x) (hx' : isHeading (x.getLast?.getD "\x1b[1m".toList) = false)
    (hy : SetBlock y) (hz : WellSet z) (hz' : z.head?.all isBlankLine = true) : WellSet (x ++ y ++ z) := by
  refine wellSet_append (wellSet_append hx hy.well ?_) hz ?_
  · intro a b i r e1 e2
    obtain ⟨f, r', e3, hf⟩ := hy.first
    rw [e2] at e3
    cases e3
    rw [e1] at hx'
    simp only [List.getLast?_append, List.getLast?_singleton, Option.some_or, Option.getD_some] at hx'
    exact ⟨fun h => absurd h (by rw [hx']; decide), .inr (.inl hf)⟩
  · intro a b i r e1 e2
    obtain ⟨j, e, e3, he⟩ := hy.last
    rw [e3, ← List.append_assoc] at e1
    obtain ⟨-, e1⟩ := List.append_inj' e1 rfl
    cases e1
    rw [e2] at hz'
    exact follows_blank he hz'

theorem head_page {x y z : List Str} {f : Str} {g : Str → Str} (h : x.head?.map g = some f) (hf : isHeading f = true) :
    (x.map g ++ y ++ z).head?.any isHeading = true := by
  cases x with
  | nil => cases h
  | cons a x =>
    simp only [List.head?_cons, Option.map_some, Option.some.injEq] at h
    simp only [List.map_cons, List.cons_append, List.head?_cons, Option.any_some, h, hf]

/-- C122.  Whatever the width of the terminal, the page begins with a heading, after every heading there is an
indented line, and every line that is not indented, such as a heading or a remark, comes after an empty line. -/
theorem C122_layout (t : Bool) {c : Nat} (h : 22 ≤ c) :
    WellSet (linesOf (helpPage t c)) ∧ (linesOf (helpPage t c)).head?.any isHeading = true := by
  obtain ⟨⟨h1, h2, h3, -⟩, h4, h5, -⟩ := fixed_set t
  have hw : 20 ≤ c - 2 := by omega
  have hmid : SetBlock ((helpGroups.flatMap fun g => [] :: groupLines t (c - 2) g).map dropEndColon) := by
    rw [List.map_flatMap]
    exact setBlock_flatMap _ _ helpGroups_some fun g hg => (groupLines_set t hw hg).1
  rw [helpPage_linesOf t h]
  unfold pageLines
  rw [List.map_append, List.map_append]
  generalize (helpGroups.flatMap fun g => [] :: groupLines t (c - 2) g).map dropEndColon = y at hmid ⊢
  generalize (endLines t true).map dropEndColon = z at h4 h5 ⊢
  generalize headLines = x at h1 h2 h3 ⊢
  exact ⟨wellSet_page h1 h2 hmid h4 h5, head_page h3 (by decide +kernel)⟩

/-- C122.  The headings are the same for every terminal, in the same order. -/
theorem C122_headings (t : Bool) {c : Nat} (h : 22 ≤ c) :
    (linesOf (helpPage t c)).filter isHeading = headings.map fun x => "\x1b[1m".toList ++ x.toList ++ "\x1b[22m".toList := by
  obtain ⟨⟨-, -, -, h1⟩, -, -, h2⟩ := fixed_set t
  have hw : 20 ≤ c - 2 := by omega
  rw [helpPage_linesOf t h]
  unfold pageLines
  rw [List.map_append, List.map_append, List.filter_append, List.filter_append, h1, h2]
  have hmid : ((helpGroups.flatMap fun g => [] :: groupLines t (c - 2) g).map dropEndColon).filter isHeading =
      helpGroups.map fun g => dropEndColon (formatHeader g.1 ++ [':']) := by
    rw [List.map_flatMap, List.filter_flatMap, ← List.flatMap_pure_eq_map]
    refine List.flatMap_congr fun g hg => ?_
    exact (groupLines_set t hw hg).2
  rw [hmid, groups_headed.2]
  decide +kernel

example : (linesOf (helpPage false 60)).length = 93 ∧ ((linesOf (helpPage false 60)).filter isHeading).length = 8 ∧
    ((linesOf (helpPage false 60)).filter isIndented).length = 68 := by decide +kernel

example : ¬ WellSet ["\x1b[1mEXAMPLES\x1b[22m".toList, "Read file".toList] ∧ ¬ WellSet ["  -h, --help".toList, "Mandatory".toList] := by decide +kernel

end Kolombos
