/-
C81, C82: texts rendered as HTML; C83: texts rendered for debugging.
-/
import Verif.Lemmas.Html
import Verif.Props.Filter
import Verif.Props.Render

set_option linter.unusedSimpArgs false

namespace Kolombos
open Spec

theorem htmlStyles_names (s : PStyle) : (htmlStyles s).map Prod.fst = ["color".toList, "background-color".toList,
    "font-weight".toList, "font-style".toList, "text-decoration".toList, "border".toList, "filter".toList] := by
  unfold htmlStyles
  cases truthy s.inversed <;> rfl

theorem htmlColor_eq {c : PColor} (h : c.Known) :
    (match c.hex with | none => [] | some h => ['#' :: hexPad 6 h] : List Str) = cssOf c := by
  unfold cssOf
  cases c with
  | rgb x =>
    cases x with
    | none => rfl
    | some v => simp only [PColor.hex, Option.map_some, Option.toList_some, cssColor_eq (h v rfl)]
  | ix256 x =>
    simp only [PColor.hex]
    cases hx : x.hex with
    | none => rfl
    | some v => simp only [Option.map_some, Option.toList_some, cssColor_eq (h v hx).1]
  | ix16 x =>
    simp only [PColor.hex]
    cases hx : x.hex with
    | none => rfl
    | some v => simp only [Option.map_some, Option.toList_some, cssColor_eq (h v hx).1]

theorem htmlStyles_eq {s : PStyle} (h : s.Known) : htmlStyles s = [
    ("color".toList, if truthy s.inversed then cssOf s.bg else cssOf s.fg),
    ("background-color".toList, if truthy s.inversed then cssOf s.fg else cssOf s.bg),
    ("font-weight".toList, if truthy s.bold then ["700".toList] else []),
    ("font-style".toList, if truthy s.italic then ["italic".toList] else []),
    ("text-decoration".toList, (htmlStyles s).getD 4 ([], []) |>.2),
    ("border".toList, if truthy s.blink then ["1px".toList, "dotted".toList] else []),
    ("filter".toList, if truthy s.dim then ["saturate(0.5)".toList, "brightness(0.75)".toList] else [])] := by
  rw [← htmlColor_eq h.1, ← htmlColor_eq h.2]
  unfold htmlStyles
  cases truthy s.inversed <;> cases truthy s.bold <;> cases truthy s.italic <;> cases truthy s.blink <;> cases truthy s.dim <;> rfl

/-- The decorations in the order in which they are added. -/
def decorations (x d o u : Bool) : List Str :=
  let l := if x then setAdd [] "line-through".toList else []
  let l := if d then setAdd (setAdd l "underline".toList) "double".toList else l
  let l := if o then setAdd l "overline".toList else l
  if u then setAdd l "underline".toList else l

theorem decorations_perm : ∀ x d o u : Bool, (decorations x d o u).Perm
    ((if x then ["line-through".toList] else []) ++ (if u || d then ["underline".toList] else [])
    ++ (if d then ["double".toList] else []) ++ (if o then ["overline".toList] else [])) := by
  decide +kernel

theorem decorations_clean : ∀ x d o u : Bool, ∀ w ∈ decorations x d o u, CleanWord w := by
  decide +kernel

theorem html_decoration (s : PStyle) : ((htmlStyles s).getD 4 ([], [])).2 =
    decorations (truthy s.crosslined) (truthy s.doubleUnderlined) (truthy s.overlined) (truthy s.underlined) := by
  unfold htmlStyles
  cases truthy s.inversed <;> rfl

theorem cssOf_clean (c : PColor) : ∀ w ∈ cssOf c, CleanWord w := by
  intro w hw
  unfold cssOf at hw
  cases hc : c.hex with
  | none => rw [hc] at hw; simp at hw
  | some h =>
    rw [hc] at hw
    simp only [Option.map_some, Option.toList_some, List.mem_singleton] at hw
    subst hw
    refine ⟨by simp [cssColor], ?_⟩
    have : ∀ d : Fin 16, d.1.digitChar ≠ ' ' ∧ d.1.digitChar ≠ ':' ∧ d.1.digitChar ≠ ';' ∧ d.1.digitChar ≠ '"' := by decide
    have hd : ∀ n : Nat, (n % 16).digitChar ≠ ' ' ∧ (n % 16).digitChar ≠ ':' ∧ (n % 16).digitChar ≠ ';' ∧ (n % 16).digitChar ≠ '"' :=
      fun n => this ⟨n % 16, Nat.mod_lt _ (by decide)⟩
    intro k hk
    simp only [cssColor, List.mem_cons, List.map_cons, List.map_nil, List.not_mem_nil, or_false] at hk
    rcases hk with rfl | rfl | rfl | rfl | rfl | rfl | rfl
    · decide
    all_goals exact hd _

/-- The entries of the dictionary are clean. -/
theorem htmlStyles_clean {s : PStyle} (h : s.Known) : ∀ e ∈ htmlStyles s, CleanDecl e := by
  rw [htmlStyles_eq h, html_decoration]
  have opt : ∀ (b : Bool) (l : List Str), (∀ w ∈ l, CleanWord w) → ∀ w ∈ (if b then l else []), CleanWord w := by
    intro b l hl
    cases b
    · simp
    · exact hl
  have opt2 : ∀ (b : Bool) (c d : PColor), ∀ w ∈ (if b then cssOf c else cssOf d), CleanWord w := by
    intro b c d
    cases b
    · exact cssOf_clean d
    · exact cssOf_clean c
  have nm : ∀ p : CssProp, CleanWord p.name := by intro p; cases p <;> decide
  intro e he
  simp only [List.mem_cons, List.not_mem_nil, or_false] at he
  rcases he with rfl | rfl | rfl | rfl | rfl | rfl | rfl
  · exact ⟨nm .color, opt2 _ _ _⟩
  · exact ⟨nm .background, opt2 _ _ _⟩
  · exact ⟨nm .weight, opt _ _ (by decide)⟩
  · exact ⟨nm .slant, opt _ _ (by decide)⟩
  · exact ⟨nm .decoration, decorations_clean _ _ _ _⟩
  · exact ⟨nm .border, opt _ _ (by decide)⟩
  · exact ⟨nm .filter, opt _ _ (by decide)⟩

theorem htmlStyles_wanted {s : PStyle} (h : s.Known) (p : CssProp) : (lookupD (htmlStyles s) p.name).Perm (wanted s p) := by
  rw [htmlStyles_eq h, html_decoration]
  cases p with
  | color => simp only [truthy_eq, decide_eq_true_eq]; exact .refl _
  | background => simp only [truthy_eq, decide_eq_true_eq]; exact .refl _
  | weight => simp only [truthy_eq, decide_eq_true_eq]; exact .refl _
  | slant => simp only [truthy_eq, decide_eq_true_eq]; exact .refl _
  | decoration =>
    have := decorations_perm (truthy s.crosslined) (truthy s.doubleUnderlined) (truthy s.overlined) (truthy s.underlined)
    refine List.Perm.trans (l₂ := decorations (truthy s.crosslined) (truthy s.doubleUnderlined) (truthy s.overlined) (truthy s.underlined)) ?_ (this.trans ?_)
    · exact .refl _
    · simp only [truthy_eq, Bool.or_eq_true, decide_eq_true_eq, wanted]
      exact .refl _
  | border => simp only [truthy_eq, decide_eq_true_eq]; exact .refl _
  | filter => simp only [truthy_eq, decide_eq_true_eq]; exact .refl _

theorem names_eq (s : PStyle) : (htmlStyles s).map Prod.fst =
    [CssProp.color, .background, .weight, .slant, .decoration, .border, .filter].map CssProp.name := htmlStyles_names s

/-- The value of the attribute `style`. -/
def htmlStyleText (order : List Str → List Str) (s : PStyle) : Str :=
  join "; ".toList (((htmlStyles s).filter fun e => decide (e.2.length > 0)).map fun e =>
    e.1 ++ ": ".toList ++ join [' '] (order e.2))

theorem htmlStyleText_decls {order : List Str → List Str} (ho : ∀ l, (order l).Perm l) {s : PStyle} (h : s.Known) :
    cssDecls (htmlStyleText order s) = (((htmlStyles s).filter fun e => decide (e.2.length > 0)).map fun e => (e.1, order e.2)) ∧
    '"' ∉ htmlStyleText order s := by
  have e : htmlStyleText order s = join "; ".toList ((((htmlStyles s).filter fun e => decide (e.2.length > 0)).map fun e => (e.1, order e.2)).map declText) := by
    unfold htmlStyleText
    rw [List.map_map]
    rfl
  have clean : ∀ e ∈ (((htmlStyles s).filter fun e => decide (e.2.length > 0)).map fun e => (e.1, order e.2)), CleanDecl e := by
    intro x hx
    obtain ⟨y, hy, rfl⟩ := List.mem_map.1 hx
    have := htmlStyles_clean h y (List.mem_filter.1 hy).1
    exact ⟨this.1, fun w hw => this.2 w ((ho _).mem_iff.1 hw)⟩
  rw [e]
  refine ⟨cssDecls_join clean, ?_⟩
  intro hm
  rcases mem_join hm with hm | ⟨w, hw, hm⟩
  · exact absurd hm (by decide)
  · obtain ⟨y, hy, rfl⟩ := List.mem_map.1 hw
    exact (declText_mem (clean y hy) hm).2 rfl

theorem html_declares {order : List Str → List Str} (ho : ∀ l, (order l).Perm l) {s : PStyle} (h : s.Known) :
    Declares (htmlStyleText order s) s := by
  have e := (htmlStyleText_decls ho h).1
  have hn : ((htmlStyles s).map Prod.fst).Nodup := by rw [htmlStyles_names]; decide
  refine ⟨?_, ?_, ?_⟩
  · rw [e, List.map_map]
    have : (Prod.fst ∘ fun e : Str × List Str => (e.1, order e.2)) = Prod.fst := rfl
    rw [this]
    exact hn.sublist (List.Sublist.map _ List.filter_sublist)
  · intro p
    have : declared (htmlStyleText order s) p = lookupD (((htmlStyles s).filter fun e => decide (e.2.length > 0)).map fun e => (e.1, order e.2)) p.name := by
      unfold declared lookupD
      rw [e]
    rw [this]
    exact (lookupD_ordered ho hn _).trans (htmlStyles_wanted h p)
  · intro x hx
    rw [e] at hx
    obtain ⟨y, hy, rfl⟩ := List.mem_map.1 hx
    have hm : y.1 ∈ (htmlStyles s).map Prod.fst := List.mem_map.2 ⟨y, (List.mem_filter.1 hy).1, rfl⟩
    rw [names_eq] at hm
    obtain ⟨p, -, hp⟩ := List.mem_map.1 hm
    exact ⟨p, hp.symm⟩

/-- The attribute `class`. -/
def classText : Option Str → Str
  | none => []
  | some c => " class=\"".toList ++ c ++ "\"".toList

theorem html_comp {t t' t'' : Html} {a b : Str} {o o' : List (Char × Str)} (h : Html.run t a = (t', o)) (h' : Html.run t' b = (t'', o')) :
    Html.run t (a ++ b) = (t'', o ++ o') := by
  rw [html_append, h]
  show ((Html.run t' b).1, o ++ (Html.run t' b).2) = _
  rw [h']

theorem html_quote {t : Str} {st : List Str} (h : (t ++ ['"']).head? = some 's') :
    Html.run ⟨.tag t true, st⟩ ['"', '>'] = (⟨.text, styleOf (t ++ ['"']) :: st⟩, []) := by
  have h' : (t ++ ['"']).head? ≠ some '/' := by rw [h]; decide
  have e : Html.run ⟨.tag t true, st⟩ ['"', '>'] =
    (⟨.text, if (t ++ ['"']).head? = some '/' then st.tail else styleOf (t ++ ['"']) :: st⟩, []) := rfl
  rw [e, if_neg h']

theorem style_alone {v : Str} (hv : '"' ∉ v) : styleOf (("span style=\"".toList ++ v) ++ ['"']) = v := by
  have e : ("span style=\"".toList ++ v) ++ ['"'] = "span style=".toList ++ '"' :: (v ++ '"' :: []) := by simp
  rw [e]
  unfold styleOf
  rw [cut_sep _ (by decide), cut_sep _ hv]
  have q : quoted ("span style=".toList :: v :: cut '"' []) = [("span style=".toList, v)] := rfl
  rw [q, List.find?_cons_of_pos (by rfl)]

theorem style_classed {c v : Str} (hc : '"' ∉ c) (hv : '"' ∉ v) :
    styleOf (((("span class=\"".toList ++ c) ++ "\" style=\"".toList) ++ v) ++ ['"']) = v := by
  have e : ((("span class=\"".toList ++ c) ++ "\" style=\"".toList) ++ v) ++ ['"'] =
      "span class=".toList ++ '"' :: (c ++ '"' :: (" style=".toList ++ '"' :: (v ++ '"' :: []))) := by simp
  rw [e]
  unfold styleOf
  rw [cut_sep _ (by decide), cut_sep _ hc, cut_sep _ (by decide), cut_sep _ hv]
  have q : quoted ("span class=".toList :: c :: " style=".toList :: v :: cut '"' []) =
    [("span class=".toList, c), (" style=".toList, v)] := rfl
  rw [q, List.find?_cons_of_neg (by show ¬ " style=".toList.isSuffixOf "span class=".toList = true; decide), List.find?_cons_of_pos (by rfl)]

theorem html_between (t : Str) : Html.run ⟨.tag t true, []⟩ "\" style=\"".toList = (⟨.tag (t ++ "\" style=\"".toList) true, []⟩, []) := by
  have e : "\" style=\"".toList = ['"', ' ', 's', 't', 'y', 'l', 'e', '=', '"'] := rfl
  rw [e]
  simp [Html.run, Html.step]

theorem html_close (v : Str) : Html.run ⟨.text, [v]⟩ "</span>".toList = (⟨.text, []⟩, []) := by
  have e : "</span>".toList = ['<', '/', 's', 'p', 'a', 'n', '>'] := rfl
  rw [e]
  simp [Html.run, Html.step]

theorem html_open1 : Html.run {} "<span style=\"".toList = (⟨.tag "span style=\"".toList true, []⟩, []) := by decide +kernel

theorem html_open2 : Html.run {} "<span class=\"".toList = (⟨.tag "span class=\"".toList true, []⟩, []) := by decide +kernel

theorem plain_shape {A B AB Q : Str} {q : Str} (ha : AB = A ++ B) (hb : Q = q) (v t c : Str) :
    A ++ [] ++ B ++ v ++ Q ++ t ++ c = AB ++ (v ++ (q ++ (t ++ c))) := by
  subst ha; subst hb; simp

theorem class_shape {A B AB K D DB Q q : Str} (ha : AB = A ++ K) (hd : DB = D ++ B) (hb : Q = q) (n v t c : Str) :
    A ++ (K ++ n ++ D) ++ B ++ v ++ Q ++ t ++ c = AB ++ (n ++ (DB ++ (v ++ (q ++ (t ++ c))))) := by
  subst ha; subst hd; subst hb; simp

/-- Reading a span. -/
theorem html_span (cls : Option Str) (v text : Str) (hv : '"' ∉ v) (hc : ∀ c, cls = some c → '"' ∉ c) (h1 : '<' ∉ text) (h2 : '&' ∉ text) :
    Html.run {} ("<span".toList ++ classText cls ++ " style=\"".toList ++ v ++ "\">".toList ++ text ++ "</span>".toList) =
      ({}, text.map fun c => (c, v)) := by
  have body := html_comp (html_text [v] text h1 h2) (html_close v)
  cases cls with
  | none =>
    have e := plain_shape (A := "<span".toList) (B := " style=\"".toList) (AB := "<span style=\"".toList)
      (Q := "\">".toList) (q := ['"', '>']) (by decide +kernel) (by decide +kernel) v text "</span>".toList
    unfold classText
    rw [e]
    have hd : (("span style=\"".toList ++ v) ++ ['"']).head? = some 's' := by
      have e : "span style=\"".toList = 's' :: "pan style=\"".toList := by decide +kernel
      rw [e]; rfl
    have s3 := html_quote (st := []) hd
    rw [style_alone hv] at s3
    have := html_comp html_open1 (html_comp (html_tag _ v true [] hv (by intro h; cases h)) (html_comp s3 body))
    rw [this]
    simp
  | some c =>
    have hc := hc c rfl
    have e := class_shape (A := "<span".toList) (K := " class=\"".toList) (D := "\"".toList) (DB := "\" style=\"".toList) (B := " style=\"".toList) (AB := "<span class=\"".toList)
      (Q := "\">".toList) (q := ['"', '>']) (by decide +kernel) (by decide +kernel) (by decide +kernel) c v text "</span>".toList
    unfold classText
    rw [e]
    have hd : (((("span class=\"".toList ++ c) ++ "\" style=\"".toList) ++ v) ++ ['"']).head? = some 's' := by
      have e : "span class=\"".toList = 's' :: "pan class=\"".toList := by decide +kernel
      rw [e]; rfl
    have s3 := html_quote (st := []) hd
    rw [style_classed hc hv] at s3
    have := html_comp html_open2 (html_comp (html_tag _ c true [] hc (by intro h; cases h)) (html_comp (html_between _)
      (html_comp (html_tag _ v true [] hv (by intro h; cases h)) (html_comp s3 body))))
    rw [this]
    simp

/-- A text without markup appears as it is, each character with the
declarations of the style, in whatever order sets are iterated. -/
theorem C81_shown_partial (order : List Str → List Str) (ho : ∀ l, (order l).Perm l) (text : Str) (s : PStyle) (hs : s.Known)
    (h1 : '<' ∉ text) (h2 : '&' ∉ text) (hc : ∀ c, s.className = some c → '"' ∉ c) :
    ∃ v, Html.run {} (htmlRender order text s) = ({}, text.map fun c => (c, v)) ∧ Declares v s :=
  ⟨htmlStyleText order s, html_span s.className _ text (htmlStyleText_decls ho hs).2 hc h1 h2, html_declares ho hs⟩

/-- Two runs of words in any order, in a style with a class. -/
example : htmlRender List.reverse "a b".toList
      { bold := some true, dim := some true, fg := .rgb (some 0x0180ff), className := some "x y".toList } =
    "<span class=\"x y\" style=\"color: #0180ff; font-weight: 700; filter: brightness(0.75) saturate(0.5)\">a b</span>".toList := by
  decide +kernel

theorem noColors_known {s : PStyle} (hf : s.fg = .rgb none := by rfl) (hb : s.bg = .rgb none := by rfl) : s.Known := by
  constructor
  · rw [hf]; intro v h; cases h
  · rw [hb]; intro v h; cases h

/-- Characters that have a meaning in HTML are not escaped. -/
theorem C81_negation : ¬ ∀ (order : List Str → List Str) (text : Str) (s : PStyle), (∀ l, (order l).Perm l) → s.Known →
    (∀ c, s.className = some c → '"' ∉ c) → (Html.run {} (htmlRender order text s)).2.map Prod.fst = text := by
  intro h
  have := h id "a<b>c".toList {} (fun l => .refl l) noColors_known (by intro c hc; cases hc)
  exact absurd this (by decide +kernel)

/-- A class with a quotation mark is not escaped either: it can bring a style of
its own. -/
theorem C81_negation_class : ¬ ∀ (order : List Str → List Str) (text : Str) (s : PStyle), (∀ l, (order l).Perm l) → s.Known →
    '<' ∉ text → '&' ∉ text → ∃ v, Html.run {} (htmlRender order text s) = ({}, text.map fun c => (c, v)) ∧ Declares v s := by
  intro h
  obtain ⟨v, h1, h2⟩ := h id "a".toList { className := some "\" style=\"color: red".toList } (fun l => .refl l) noColors_known
    (by decide) (by decide)
  have e : Html.run {} (htmlRender id "a".toList { className := some "\" style=\"color: red".toList }) =
      ({}, [('a', "color: red".toList)]) := by decide +kernel
  rw [e] at h1
  have hv : v = "color: red".toList := by
    have := congrArg Prod.snd h1
    simp at this
    simpa using this.symm
  have := h2.words .color
  rw [hv] at this
  have l := this.length_eq
  exact absurd l (by decide +kernel)

theorem cssColor_inj_aux : ∀ a < 16, ∀ b < 16, Nat.digitChar a = Nat.digitChar b → a = b := by decide

theorem cssColor_inj {a b : Nat} (ha : a < 16777216) (hb : b < 16777216) (h : cssColor a = cssColor b) : a = b := by
  simp only [cssColor, List.map_cons, List.map_nil, List.cons.injEq, true_and, and_true] at h
  obtain ⟨h0, h1, h2, h3, h4, h5⟩ := h
  have m : ∀ n : Nat, n % 16 < 16 := fun n => Nat.mod_lt _ (by decide)
  have h0 := cssColor_inj_aux _ (m _) _ (m _) h0
  have h1 := cssColor_inj_aux _ (m _) _ (m _) h1
  have h2 := cssColor_inj_aux _ (m _) _ (m _) h2
  have h3 := cssColor_inj_aux _ (m _) _ (m _) h3
  have h4 := cssColor_inj_aux _ (m _) _ (m _) h4
  have h5 := cssColor_inj_aux _ (m _) _ (m _) h5
  omega

theorem known_lt {c : PColor} (h : c.Known) {v : Nat} (e : c.hex = some v) : v < 16777216 := by
  cases c with
  | rgb x => exact h v e
  | ix256 c => exact (h v e).1
  | ix16 c => exact (h v e).1

theorem cssOf_inj {c d : PColor} (hc : c.Known) (hd : d.Known) (h : cssOf c = cssOf d) : c.hex = d.hex := by
  unfold cssOf at h
  cases e1 : c.hex with
  | none =>
    cases e2 : d.hex with
    | none => rfl
    | some b => rw [e1, e2] at h; cases h
  | some a =>
    cases e2 : d.hex with
    | none => rw [e1, e2] at h; cases h
    | some b =>
      rw [e1, e2] at h
      simp only [Option.map_some, Option.toList, List.cons.injEq, and_true] at h
      rw [cssColor_inj (known_lt hc e1) (known_lt hd e2) h]

/-- Swapped colours are seen in HTML, if they differ: the text has another
colour than without the swap, and another background. -/
theorem C82_inverse_partial (order : List Str → List Str) (ho : ∀ l, (order l).Perm l) (text : Str) (s : PStyle) (hs : s.Known)
    (h1 : '<' ∉ text) (h2 : '&' ∉ text) (hc : ∀ c, s.className = some c → '"' ∉ c) (hi : s.inversed = some true)
    (hx : s.fg.hex ≠ s.bg.hex) :
    ∃ v w, Html.run {} (htmlRender order text s) = ({}, text.map fun c => (c, v))
      ∧ Html.run {} (htmlRender order text { s with inversed := none }) = ({}, text.map fun c => (c, w))
      ∧ declared v .color = declared w .background ∧ declared v .background = declared w .color
      ∧ declared v .color ≠ declared w .color ∧ declared v .background ≠ declared w .background := by
  obtain ⟨v, a1, d1⟩ := C81_shown_partial order ho text s hs h1 h2 hc
  obtain ⟨w, a2, d2⟩ := C81_shown_partial order ho text { s with inversed := none } hs h1 h2 hc
  have short : ∀ {l : List Str} {c : PColor}, l.Perm (cssOf c) → l = cssOf c := by
    intro l c h
    unfold cssOf at h ⊢
    cases e : c.hex with
    | none => rw [e] at h; exact List.perm_nil.1 h
    | some x => rw [e] at h; exact List.perm_singleton.1 h
  have v1 := d1.words .color
  have v2 := d1.words .background
  have w1 := d2.words .color
  have w2 := d2.words .background
  simp only [wanted, hi, if_true] at v1 v2
  have ne : ¬ ((none : Option Bool) = some true) := by simp
  simp only [wanted, if_neg ne] at w1 w2
  have v1 := short v1
  have v2 := short v2
  have w1 := short w1
  have w2 := short w2
  refine ⟨v, w, a1, a2, by rw [v1, w2], by rw [v2, w1], ?_, ?_⟩
  · rw [v1, w1]; exact fun h => hx (cssOf_inj hs.2 hs.1 h).symm
  · rw [v2, w2]; exact fun h => hx (cssOf_inj hs.1 hs.2 h)

/-- C82, exactly: the markup of an inversed text is that of the text without the swap if and only if
the two colours are the same (or both missing). -/
theorem C82_exact_partial (order : List Str → List Str) (ho : ∀ l, (order l).Perm l) (text : Str) (s : PStyle) (hs : s.Known)
    (h0 : text ≠ []) (h1 : '<' ∉ text) (h2 : '&' ∉ text) (hc : ∀ c, s.className = some c → '"' ∉ c) (hi : s.inversed = some true) :
    htmlRender order text s = htmlRender order text { s with inversed := none } ↔ s.fg.hex = s.bg.hex := by
  constructor
  · intro e
    refine Classical.byContradiction fun hx => ?_
    obtain ⟨v, w, a1, a2, -, -, a3, -⟩ := C82_inverse_partial order ho text s hs h1 h2 hc hi hx
    rw [e, a2] at a1
    cases text with
    | nil => exact h0 rfl
    | cons c l =>
      simp only [List.map_cons, Prod.mk.injEq, List.cons.injEq, true_and] at a1
      exact a3 (by rw [a1.1])
  · intro hx
    have : ∀ (x : PStyle), x.className = s.className → htmlStyles s = htmlStyles x → htmlRender order text s = htmlRender order text x := by
      intro x hx hy
      unfold htmlRender
      rw [hx, hy]
    refine this _ rfl ?_
    have t1 : truthy s.inversed = true := by rw [hi]; rfl
    have t2 : truthy (none : Option Bool) = false := rfl
    unfold htmlStyles
    simp only [t1, t2, if_true, if_false, Bool.false_eq_true, hx]

/-- The hypotheses are met, on both sides. -/
example : htmlRender id "a".toList { inversed := some true, fg := .rgb (some 1), bg := .rgb (some 1) }
      = htmlRender id "a".toList { fg := .rgb (some 1), bg := .rgb (some 1) }
    ∧ htmlRender id "a".toList { inversed := some true, fg := .rgb (some 1) } ≠ htmlRender id "a".toList { fg := .rgb (some 1) } := by
  decide +kernel

/-- Without colours there is nothing to swap, and the text looks as if it were
not inversed. -/
theorem C82_negation : ¬ ∀ (order : List Str → List Str) (text : Str) (s : PStyle), (∀ l, (order l).Perm l) → s.Known →
    text ≠ [] → s.inversed = some true → htmlRender order text s ≠ htmlRender order text { s with inversed := none } := by
  intro h
  exact h id "a".toList { inversed := some true } (fun l => .refl l) noColors_known (by decide) rfl (by decide +kernel)

end Kolombos
