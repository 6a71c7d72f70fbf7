/-
C61 (styles and their ancestors), C62 (equal styles), C63 (texts as values),
C64 (values shown by texts).
-/
import Verif.Spec.Style
import Verif.Props.Render

set_option linter.unusedSimpArgs false

namespace Kolombos

theorem nearestSet_snoc {α : Type} (l : List (Option α)) (x : Option α) :
    nearestSet (l ++ [x]) = match x with | some a => some a | none => nearestSet l := by
  simp only [nearestSet, List.reverse_append, List.reverse_cons, List.reverse_nil, List.nil_append,
    List.singleton_append, List.findSome?_cons, id]
  cases x <;> rfl

theorem nearestSet_cons {α : Type} (x : Option α) (l : List (Option α)) :
    nearestSet (x :: l) = match nearestSet l with | some a => some a | none => x := by
  simp only [nearestSet, List.reverse_cons, List.findSome?_append]
  cases l.reverse.findSome? id <;> cases x <;> rfl

theorem cloneAttr_eq {α : Type} (own inherit : Option α) :
    cloneAttr own inherit = match own with | some a => some a | none => inherit := by
  cases own <;> cases inherit <;> rfl

/-- One attribute through a chain. -/
theorem chain_attr {α : Type} (get : PStyle → Option α) (arg : StyleArgs → Option α)
    (step : ∀ a s, get (newStyle (some s) a) = cloneAttr (arg a) (get s))
    (as : List StyleArgs) (s : PStyle) :
    get (styleChain as s) = nearestSet (get s :: as.map arg) := by
  induction as generalizing s with
  | nil => cases h : get s <;> simp [styleChain, nearestSet, h]
  | cons a as ih =>
    rw [styleChain, ih, step, List.map_cons, nearestSet_cons, nearestSet_cons, nearestSet_cons, cloneAttr_eq]
    cases nearestSet (as.map arg) <;> rfl

/-- A colour through a chain. -/
theorem chain_color (get : PStyle → PColor) (arg : StyleArgs → Option PColor)
    (step : ∀ a s, get (newStyle (some s) a) = (arg a).getD (get s))
    (as : List StyleArgs) (s : PStyle) :
    get (styleChain as s) = (nearestSet (as.map arg)).getD (get s) := by
  induction as generalizing s with
  | nil => rfl
  | cons a as ih =>
    rw [styleChain, ih, step, List.map_cons, nearestSet_cons]
    cases nearestSet (as.map arg) <;> rfl

/-- C61.  A style with any number of ancestors has every property from the
nearest of them (itself included) that sets it, colours included; a property set
to `False` counts as set. -/
theorem C61_inherit (first : StyleArgs) (as : List StyleArgs) :
    let s := styleChain as (newStyle none first)
    let all := first :: as
    s.blink = nearestSet (all.map (·.blink)) ∧ s.bold = nearestSet (all.map (·.bold))
    ∧ s.crosslined = nearestSet (all.map (·.crosslined)) ∧ s.dim = nearestSet (all.map (·.dim))
    ∧ s.doubleUnderlined = nearestSet (all.map (·.doubleUnderlined))
    ∧ s.inversed = nearestSet (all.map (·.inversed)) ∧ s.italic = nearestSet (all.map (·.italic))
    ∧ s.overlined = nearestSet (all.map (·.overlined))
    ∧ s.underlined = nearestSet (all.map (·.underlined))
    ∧ s.className = nearestSet (all.map (·.className))
    ∧ s.fg = (nearestSet (all.map (·.fg))).getD (.rgb none)
    ∧ s.bg = (nearestSet (all.map (·.bg))).getD (.rgb none) := by
  have col : ∀ (x : Option PColor) (l : List (Option PColor)),
      (nearestSet l).getD (x.getD noopRgb) = (nearestSet (x :: l)).getD (.rgb none) := by
    intro x l
    rw [nearestSet_cons]
    cases nearestSet l <;> cases x <;> rfl
  refine ⟨?_, ?_, ?_, ?_, ?_, ?_, ?_, ?_, ?_, ?_, ?_, ?_⟩
  · exact chain_attr PStyle.blink StyleArgs.blink (fun _ _ => rfl) as _
  · exact chain_attr PStyle.bold StyleArgs.bold (fun _ _ => rfl) as _
  · exact chain_attr PStyle.crosslined StyleArgs.crosslined (fun _ _ => rfl) as _
  · exact chain_attr PStyle.dim StyleArgs.dim (fun _ _ => rfl) as _
  · exact chain_attr PStyle.doubleUnderlined StyleArgs.doubleUnderlined (fun _ _ => rfl) as _
  · exact chain_attr PStyle.inversed StyleArgs.inversed (fun _ _ => rfl) as _
  · exact chain_attr PStyle.italic StyleArgs.italic (fun _ _ => rfl) as _
  · exact chain_attr PStyle.overlined StyleArgs.overlined (fun _ _ => rfl) as _
  · exact chain_attr PStyle.underlined StyleArgs.underlined (fun _ _ => rfl) as _
  · exact chain_attr PStyle.className StyleArgs.className (fun _ _ => rfl) as _
  · refine (chain_color PStyle.fg StyleArgs.fg (fun a s => ?_) as _).trans (col first.fg _)
    simp only [newStyle, StyleArgs.cloneFrom, cloneAttr_eq]
    cases a.fg <;> rfl
  · refine (chain_color PStyle.bg StyleArgs.bg (fun a s => ?_) as _).trans (col first.bg _)
    simp only [newStyle, StyleArgs.cloneFrom, cloneAttr_eq]
    cases a.bg <;> rfl

example :
    styleChain [{ bold := some false, fg := some (.rgb (some 5)) }, { dim := some true }]
        (newStyle none { bold := some true, bg := some (.rgb (some 7)), italic := some true })
      = { fg := .rgb (some 5), bg := .rgb (some 7), bold := some false, dim := some true,
          italic := some true } := by decide

/-- C61.  The foreground picked for a background is readable: at least one
channel differs by 90 or more.  Nothing else changes, and without a background
colour nothing changes at all. -/
theorem C61_autopick (s : PStyle) :
    (s.bg.hex = none → s.autopickFg = some s)
    ∧ ∀ h, s.bg.hex = some h → h < 16777216 → ∃ f, s.autopickFg = some { s with fg := .rgb (some f) }
      ∧ f < 16777216
      ∧ (90 ≤ ((redOf f : Int) - redOf h).natAbs ∨ 90 ≤ ((greenOf f : Int) - greenOf h).natAbs
        ∨ 90 ≤ ((blueOf f : Int) - blueOf h).natAbs) := by
  constructor
  · intro h
    simp [PStyle.autopickFg, h]
  · intro h hb hh
    obtain ⟨hu, sa, v, e, -, -, -, -, -, -, hv, -⟩ := C53_ranges_partial h
    have top : redOf h ≤ topOf h ∧ greenOf h ≤ topOf h ∧ blueOf h ≤ topOf h
        ∧ (topOf h = redOf h ∨ topOf h = greenOf h ∨ topOf h = blueOf h) := by
      unfold topOf; omega
    simp only [PStyle.autopickFg, hb, e]
    by_cases hc : v ≥ 45 / 100
    · have t : 115 ≤ topOf h := by
        have : (114 : Rat) < topOf h := by rw [← hv]; linarith
        exact_mod_cast this
      refine ⟨0x0a0a0a, by rw [if_pos hc], by decide, ?_⟩
      have e1 : redOf 0x0a0a0a = 10 := by decide
      have e2 : greenOf 0x0a0a0a = 10 := by decide
      have e3 : blueOf 0x0a0a0a = 10 := by decide
      rw [e1, e2, e3]
      omega
    · have t : topOf h < 115 := by
        have : (topOf h : Rat) < 115 := by rw [← hv]; linarith
        exact_mod_cast this
      refine ⟨0xcccccc, by rw [if_neg hc], by decide, ?_⟩
      have e1 : redOf 0xcccccc = 204 := by decide
      have e2 : greenOf 0xcccccc = 204 := by decide
      have e3 : blueOf 0xcccccc = 204 := by decide
      rw [e1, e2, e3]
      omega

example : (PStyle.autopickFg { bg := .rgb (some 0xffcc00), bold := some true }).map (·.fg)
      = some (.rgb (some 0x0a0a0a))
    ∧ (PStyle.autopickFg { bg := .ix256 ⟨some 0x5f0000, some 52, none⟩ }).map (·.fg)
      = some (.rgb (some 0xcccccc)) := by decide +kernel

theorem z_assemble (q : Sgr) : 'z' ∉ q.assemble := by
  have key : ∀ l : List Nat, 'z' ∉ ('\x1b' :: '[' :: (join [';'] (l.map dec) ++ ['m'])) := by
    intro l h
    simp only [List.mem_cons, List.mem_append, List.not_mem_nil, or_false] at h
    rcases h with h | h | h | h
    · revert h; decide
    · revert h; decide
    · have := join_sgrParam l _ h
      revert this; decide
    · revert h; decide
  unfold Sgr.assemble
  split
  · simp
  · exact key _

/-- A known colour is rendered as it is on a terminal with all colours. -/
theorem known_color {p : Palettes} {c : PColor} (hc : c.Known) (bg : Bool) :
    ∃ q, renderColor ⟨some true, false, false, true⟩ p c bg = some (q, p) := by
  unfold renderColor
  cases hx : c.hex with
  | none => exact ⟨[], rfl⟩
  | some h =>
    have hal : RenderConfig.sgrAllowed ⟨some true, false, false, true⟩ = true := rfl
    simp only [hal, Bool.not_true, Bool.false_eq_true, if_false]
    cases c with
    | rgb hex =>
      simp only [PColor.hex] at hx
      subst hx
      have v : ∀ n, n < 256 → validExtended n = true := by
        intro n hn; simp [validExtended]; omega
      have v1 := v (redOf h) (Nat.mod_lt _ (by decide))
      have v2 := v (greenOf h) (Nat.mod_lt _ (by decide))
      have v3 := v (blueOf h) (Nat.mod_lt _ (by decide))
      simp [rgbToSgr, hexToRgb_eq, initColorRgb, v1, v2, v3]
    | ix256 c =>
      simp only [PColor.hex] at hx
      obtain ⟨-, hk⟩ := hc h hx
      obtain ⟨n, h1, h2, h3⟩ := colorCode_256 bg hk hx
      simp [h2]
    | ix16 c =>
      simp only [PColor.hex] at hx
      obtain ⟨-, hk⟩ := hc h hx
      obtain ⟨n, h1, h2, h3⟩ := colorCode_basic bg hk
      simp [h2]

/-- C62.  Styles that compare equal are rendered differently: the attributes do
not take part in the comparison. -/
theorem C62_negation :
    ¬ ∀ a b : PStyle, a.eq b = true → ∀ cfg p text, sgrRender cfg p text a = sgrRender cfg p text b := by
  intro h
  have := h {} { bold := some true } (by decide) ⟨some true, false, false, true⟩ {} ['a']
  revert this
  decide

/-- C62.  The colours of styles that compare equal are the same, so they are
rendered the same if their attributes are. -/
theorem C62_partial (a b : PStyle) (h : a.eq b = true)
    (ha : SameLook a b)
    (cfg : RenderConfig) (p : Palettes) (text : Str) :
    sgrRender cfg p text a = sgrRender cfg p text b := by
  simp only [PStyle.eq, Bool.and_eq_true, beq_iff_eq] at h
  have t : ∀ x y : Option Bool, (x = some true ↔ y = some true) → truthy x = truthy y := by
    intro x y e
    rw [truthy_eq, truthy_eq]
    simp only [e]
  have h1 := t _ _ ha.blink
  have h2 := t _ _ ha.bold
  have h3 := t _ _ ha.crosslined
  have h4 := t _ _ ha.dim
  have h5 := t _ _ ha.doubleUnderlined
  have h6 := t _ _ ha.inversed
  have h7 := t _ _ ha.italic
  have h8 := t _ _ ha.overlined
  have h9 := t _ _ ha.underlined
  simp only [sgrRender, openingSgr, renderAttributes, attributeSgrs, h.1, h.2, h1, h2, h3, h4, h5,
    h6, h7, h8, h9]

/-- C62, exactly: styles that compare equal are rendered the same, with all settings, if and only if
they have the same attributes. -/
theorem C62_exact_partial (a b : PStyle) (h : a.eq b = true) (hk : a.Known) :
    (∀ cfg p text, sgrRender cfg p text a = sgrRender cfg p text b) ↔ SameLook a b := by
  refine ⟨fun hr => ?_, fun ha cfg p text => C62_partial a b h ha cfg p text⟩
  have hr := hr ⟨some true, false, false, true⟩ {} ['z']
  simp only [PStyle.eq, Bool.and_eq_true, beq_iff_eq] at h
  obtain ⟨f, hf⟩ := known_color (p := {}) hk.1 false
  obtain ⟨g, hg⟩ := known_color (p := {}) hk.2 true
  have hop : ∀ s : PStyle, s.fg = a.fg → s.bg = a.bg → sgrRender ⟨some true, false, false, true⟩ {} ['z'] s
      = some ((Sgr.assemble (renderAttributes ⟨some true, false, false, true⟩ s ++ f ++ g) ++ 'z' ::
        (Sgr.closing (renderAttributes ⟨some true, false, false, true⟩ s ++ f ++ g)).assemble), {}) := by
    intro s h1 h2
    simp only [sgrRender, openingSgr, h1, h2, hf, hg, Sgr.add]
    have : splitLines ['z'] = [['z']] := by decide
    rw [this]
    simp [span]
  rw [hop a rfl rfl, hop b h.1.symm h.2.symm] at hr
  simp only [Option.some.injEq, Prod.mk.injEq, and_true] at hr
  have e := assemble_inj (sgr_split_at (z_assemble _) (z_assemble _) hr).1
  rw [List.append_cancel_right_eq, List.append_cancel_right_eq] at e
  have t : ∀ s : PStyle, ∀ n, n ∈ renderAttributes ⟨some true, false, false, true⟩ s ↔
      (s.blink = some true ∧ n = 5) ∨ (s.bold = some true ∧ n = 1) ∨ (s.crosslined = some true ∧ n = 9) ∨ (s.dim = some true ∧ n = 2)
      ∨ (s.doubleUnderlined = some true ∧ n = 21) ∨ (s.inversed = some true ∧ n = 7) ∨ (s.italic = some true ∧ n = 3)
      ∨ (s.overlined = some true ∧ n = 53) ∨ (s.underlined = some true ∧ n = 4) := by
    intro s n
    have hfl : ∀ (l : List Sgr) (i : Sgr), l.foldl Sgr.add i = i ++ l.flatten := by
      intro l
      induction l with
      | nil => intro i; simp
      | cons x l ih => intro i; rw [List.foldl_cons, ih]; simp [Sgr.add]
    have hone : ∀ (x : Option Bool) (m : Nat), n ∈ (if truthy x = true then [[m]] else [] : List Sgr).flatten ↔ x = some true ∧ n = m := by
      intro x m
      rw [truthy_eq]
      by_cases hx : x = some true <;> simp [hx]
    have hal : RenderConfig.sgrAllowed ⟨some true, false, false, true⟩ = true := rfl
    simp only [renderAttributes, attributeSgrs, hal, Bool.not_true, Bool.false_eq_true, if_false, hfl, List.nil_append, List.flatten_append,
      List.mem_append, hone, or_assoc]
  have key := fun n => (t a n).symm.trans ((by rw [e]) : _ ↔ _) |>.trans (t b n)
  constructor
  · simpa using key 5
  · simpa using key 1
  · simpa using key 9
  · simpa using key 2
  · simpa using key 21
  · simpa using key 7
  · simpa using key 3
  · simpa using key 53
  · simpa using key 4

example : PStyle.eq { fg := .rgb (some 1), bold := some false } { fg := .rgb (some 1) } = true
    ∧ SameLook { fg := .rgb (some 1), bold := some false } { fg := .rgb (some 1) } :=
  ⟨by decide, by constructor <;> decide⟩

/-! ### texts -/

/-- The objects represent the values. -/
structure TextRep (h : TextHeap) (v : List (List TextRun)) : Prop where
  size : h.texts.length = v.length
  bound : ∀ t, ∀ r ∈ h.refs t, r < h.runs.length
  same : ∀ t, h.content t = v.getD t []

theorem content_append (h : TextHeap) (x : List TextRun) (l : List Nat)
    (b : ∀ r ∈ l, r < h.runs.length) :
    l.filterMap (fun r => (h.runs ++ x)[r]?) = l.filterMap (fun r => h.runs[r]?) := by
  induction l with
  | nil => rfl
  | cons r l ih =>
    have := b r (by simp)
    rw [List.filterMap_cons, List.filterMap_cons, List.getElem?_append_left this,
      ih (fun r hr => b r (by simp [hr]))]

theorem getD_set (l : List (List Nat)) (t u : Nat) (x : List Nat) (h : t < l.length) :
    (l.set t x).getD u [] = if u = t then x else l.getD u [] := by
  simp only [List.getD_eq_getElem?_getD, List.getElem?_set]
  by_cases e : t = u
  · subst e; simp [h]
  · have e' : ¬ u = t := fun h => e h.symm
    simp [e, e']

theorem getD_modify (l : List (List TextRun)) (t u : Nat) (f : List TextRun → List TextRun)
    (h : t < l.length) :
    (l.modify t f).getD u [] = if u = t then f (l.getD u []) else l.getD u [] := by
  simp only [List.getD_eq_getElem?_getD, List.getElem?_modify]
  by_cases e : t = u
  · subst e; simp [h]
  · have e' : ¬ u = t := fun h => e h.symm
    simp [e, e']

theorem runString_str (s : Str) : runString (.str s) = s := by
  simp only [runString]
  split
  · rename_i h; rw [h]
  · rfl

/-- A text gets a new run, the others keep theirs. -/
theorem rep_set {h : TextHeap} {v : List (List TextRun)} (i : TextRep h v) {t : Nat}
    (ht : t < v.length) (x : List TextRun) (refs : List Nat) (f : List TextRun → List TextRun)
    (hb : ∀ r ∈ refs, r < (h.runs ++ x).length)
    (hc : refs.filterMap (fun r => (h.runs ++ x)[r]?) = f (v.getD t [])) :
    TextRep { runs := h.runs ++ x, texts := h.texts.set t refs } (v.modify t f) := by
  have ht' : t < h.texts.length := by rw [i.size]; exact ht
  refine ⟨by simp [i.size], fun u r hr => ?_, fun u => ?_⟩
  · simp only [TextHeap.refs] at hr
    rw [getD_set _ _ _ _ ht'] at hr
    split at hr
    · exact hb r hr
    · have := i.bound u r hr
      simp only [List.length_append]
      omega
  · simp only [TextHeap.content, TextHeap.refs]
    rw [getD_set _ _ _ _ ht', getD_modify _ _ _ _ ht]
    split
    · rename_i e; subst e; exact hc
    · exact (content_append h x _ (i.bound u)).trans (i.same u)

theorem rep_step {h : TextHeap} {v : List (List TextRun)} (i : TextRep h v) (o : TextOp)
    (ops : List TextOp) (hu : InUse v.length (o :: ops)) (hf : ∀ t f, o = .format t f → f = id) :
    TextRep (h.step o) (valueStep v o) := by
  have new : ∀ r : TextRun, (h.runs ++ [r])[h.runs.length]? = some r := by intro r; simp
  have app : ∀ u x, (h.refs u).filterMap (fun r => (h.runs ++ x)[r]?) = v.getD u [] := by
    intro u x
    rw [content_append h x _ (i.bound u)]
    exact i.same u
  cases o with
  | new s style =>
    simp only [TextHeap.step, valueStep, runString_str]
    refine ⟨by simp [i.size], fun t r hr => ?_, fun t => ?_⟩
    · simp only [TextHeap.refs, List.getD_eq_getElem?_getD, List.getElem?_append] at hr
      split at hr
      · have := i.bound t r (by simp only [TextHeap.refs, List.getD_eq_getElem?_getD]; exact hr)
        simp only [List.length_append]
        omega
      · cases hk : t - h.texts.length <;> rw [hk] at hr <;> simp at hr
        subst hr; simp
    · simp only [TextHeap.content, TextHeap.refs, List.getD_eq_getElem?_getD]
      by_cases hl : t < v.length
      · have := app t [⟨s, style⟩]
        simp only [TextHeap.refs, List.getD_eq_getElem?_getD] at this
        rw [List.getElem?_append_left hl, List.getElem?_append_left (by rw [i.size]; exact hl)]
        exact this
      · rw [List.getElem?_append_right (by have := i.size; omega),
          List.getElem?_append_right (by have := i.size; omega), i.size]
        cases hk : t - v.length <;> simp [new]
  | appendStr t s =>
    simp only [TextHeap.step, valueStep, runString_str]
    refine rep_set i hu.1 [⟨s, none⟩] _ _ ?_ ?_
    · intro r hr
      simp only [List.mem_append, List.mem_singleton] at hr
      simp only [List.length_append, List.length_singleton]
      rcases hr with hr | rfl
      · have := i.bound t r hr; omega
      · omega
    · rw [List.filterMap_append, app]
      simp [new]
  | appendText t u =>
    simp only [TextHeap.step, valueStep]
    have := rep_set i hu.1 [] (h.refs t ++ h.refs u) (· ++ v.getD u []) ?_ ?_
    · simpa using this
    · intro r hr
      rw [List.append_nil]
      rcases List.mem_append.mp hr with hr | hr
      · exact i.bound t r hr
      · exact i.bound u r hr
    · rw [List.filterMap_append, app, app]
  | prependStr t s =>
    simp only [TextHeap.step, valueStep, runString_str]
    refine rep_set i hu.1 [⟨s, none⟩] _ _ ?_ ?_
    · intro r hr
      simp only [List.length_append, List.length_singleton]
      rcases List.mem_cons.mp hr with rfl | hr
      · omega
      · have := i.bound t r hr; omega
    · rw [List.filterMap_cons, app]
      simp [new]
  | prependText t u =>
    simp only [TextHeap.step, valueStep]
    have := rep_set i hu.1 [] (h.refs u ++ h.refs t) (v.getD u [] ++ ·) ?_ ?_
    · simpa using this
    · intro r hr
      rw [List.append_nil]
      rcases List.mem_append.mp hr with hr | hr
      · exact i.bound u r hr
      · exact i.bound t r hr
    · rw [List.filterMap_append, app, app]
  | format t f =>
    have := hf t f rfl
    subst this
    have e : valueStep v (.format t id) = v := by
      simp only [valueStep]
      refine List.ext_getElem? fun u => ?_
      rw [List.getElem?_modify]
      by_cases e : t = u
      · simp only [e, if_true]
        cases v[u]? with
        | none => rfl
        | some l =>
          match l with
          | [] => rfl
          | [r] => rfl
          | _ :: _ :: _ => rfl
      · simp [e]
    rw [e]
    have : h.step (.format t id) = h := by
      simp only [TextHeap.step]
      match hr : h.refs t with
      | [] => rfl
      | _ :: _ :: _ => rfl
      | [r] =>
        simp only
        cases hx : h.runs[r]? with
        | none => rfl
        | some run =>
          simp only [id]
          have : h.runs.set r run = h.runs := by
            refine List.ext_getElem? fun k => ?_
            rw [List.getElem?_set]
            by_cases e : r = k
            · subst e
              obtain ⟨lt, e⟩ := List.getElem?_eq_some_iff.mp hx
              simp [lt, e]
            · simp [e]
          show (⟨h.runs.set r run, h.texts⟩ : TextHeap) = h
          rw [this]
    rw [this]
    exact i

theorem inUse_tail {n : Nat} {o : TextOp} {ops : List TextOp} (v : List (List TextRun))
    (hn : v.length = n) (h : InUse n (o :: ops)) : InUse (valueStep v o).length ops := by
  subst hn
  cases o with
  | new => simpa [valueStep, InUse] using h
  | appendStr => simpa [valueStep] using h.2
  | appendText => simpa [valueStep] using h.2.2
  | prependStr => simpa [valueStep] using h.2
  | prependText => simpa [valueStep] using h.2.2
  | format => simpa [valueStep] using h.2

theorem rep_run (ops : List TextOp) {h : TextHeap} {v : List (List TextRun)} (i : TextRep h v)
    (hu : InUse v.length ops) (hf : PlainFormat ops) :
    TextRep (ops.foldl TextHeap.step h) (ops.foldl valueStep v) := by
  induction ops generalizing h v with
  | nil => exact i
  | cons o ops ih =>
    refine ih (rep_step i o ops hu (fun t f e => hf t f (by simp [e]))) (inUse_tail v rfl hu) ?_
    exact fun t f e => hf t f (by simp [e])

theorem rep_init : TextRep {} [] :=
  ⟨rfl, fun t r hr => by simp [TextHeap.refs] at hr, fun t => by simp [TextHeap.content, TextHeap.refs]⟩

/-- C63.  After any history of creating, appending, prepending and formatting
without a specification, every text consists of what was put into it, in order,
each piece with its own style: `raw` returns the characters, `len` their number,
and rendering treats it as these pieces.  Nothing done to other texts is
visible. -/
theorem C63_values_partial (ops : List TextOp) (hu : InUse 0 ops) (hf : PlainFormat ops) (t : Nat) :
    let h := ops.foldl TextHeap.step {}
    let runs := (ops.foldl valueStep []).getD t []
    h.raw t = (runs.map TextRun.string).flatten
    ∧ h.len t = (h.raw t).length
    ∧ ∀ cfg p, h.render cfg p t = renderText cfg p runs := by
  have i := (rep_run ops rep_init hu hf).same t
  refine ⟨?_, ?_, fun cfg p => ?_⟩
  · simp only [TextHeap.raw, i]
  · simp only [TextHeap.raw, TextHeap.len, List.length_flatten, List.map_map]
    rfl
  · simp only [TextHeap.render, i]

example :
    let ops : List TextOp := [.new ['a'] none, .new ['b'] (some { bold := some true }),
      .appendText 0 1, .prependText 1 0, .appendText 1 1, .format 0 id, .prependStr 0 ['c', 'd']]
    InUse 0 ops ∧ ((ops.foldl TextHeap.step {}).raw 0 = "cdab".toList)
      ∧ (ops.foldl TextHeap.step {}).raw 1 = "abbabb".toList := by
  refine ⟨by simp [InUse], by decide, by decide⟩

/-- C63.  The sum of two texts consists of both, the left one first, each piece
with its own style; no other text than the left one changes. -/
theorem C63_sum_partial (h : TextHeap) (t u : Nat) (ht : t < h.texts.length) :
    (h.add t u).1.raw (h.add t u).2 = h.raw t ++ h.raw u
    ∧ (∀ cfg p, (h.add t u).1.render cfg p (h.add t u).2 = renderText cfg p (h.content t ++ h.content u))
    ∧ ∀ v, v ≠ t → (h.add t u).1.raw v = h.raw v ∧ ∀ cfg p, (h.add t u).1.render cfg p v = h.render cfg p v := by
  have hc : (h.add t u).1.content (h.add t u).2 = h.content t ++ h.content u := by
    simp [TextHeap.add, TextHeap.step, TextHeap.content, TextHeap.refs, ht]
  have ho : ∀ v, v ≠ t → (h.add t u).1.content v = h.content v := by
    intro v hv
    simp [TextHeap.add, TextHeap.step, TextHeap.content, TextHeap.refs, List.getElem?_set_ne (Ne.symm hv)]
  refine ⟨?_, fun cfg p => ?_, fun v hv => ⟨?_, fun cfg p => ?_⟩⟩
  · simp [TextHeap.raw, hc]
  · simp [TextHeap.render, hc]
  · simp [TextHeap.raw, ho v hv]
  · simp [TextHeap.render, ho v hv]

example :
    let h := [TextOp.new ['a'] none, .new ['b'] (some { bold := some true }), .new ['c'] none].foldl TextHeap.step {}
    1 < h.texts.length ∧ (h.add 1 0).1.raw 1 = ['b', 'a'] ∧ (h.add 1 0).1.raw 2 = ['c'] := by decide

/-- C63.  A sum changes its left operand. -/
theorem C63_negation :
    ¬ ∀ (h : TextHeap) (t u : Nat), (h.add t u).1.raw t = h.raw t
      ∧ (h.add t u).1.raw (h.add t u).2 = h.raw t ++ h.raw u := by
  intro h
  have := (h ([TextOp.new ['a'] none, .new ['b'] none].foldl TextHeap.step {}) 0 1).1
  revert this
  decide

/-- C63.  Formatting a text with a width changes it, and with it the texts that
it was appended to. -/
theorem C63_negation_format :
    ¬ ∀ (ops : List TextOp), InUse 0 ops → ∀ t, (ops.foldl TextHeap.step {}).raw t
      = (((ops.foldl valueStep []).getD t []).map TextRun.string).flatten := by
  intro h
  have := h [.new ['a'] none, .new ['b'] none, .appendText 1 0, .format 0 (fun s => s ++ ['-'])]
    (by simp [InUse]) 1
  revert this
  decide

theorem pyStrInt_eq (n : Int) : pyStrInt n = (toString n).toList := by
  cases n with
  | ofNat m =>
    show _ = (Int.repr (Int.ofNat m)).toList
    simp [Int.repr, pyStrInt, dec, Nat.repr]
  | negSucc m =>
    show _ = (Int.repr (Int.negSucc m)).toList
    simp [Int.repr, pyStrInt, dec, Nat.repr]

/-- C64.  Zero is not shown. -/
theorem C64_negation : ¬ ∀ n : Int, runString (.int n) = (toString n).toList := by
  intro h
  have := h 0
  rw [← pyStrInt_eq] at this
  revert this
  decide

/-- C64.  All other integers and all strings are shown as they are written. -/
theorem C64_partial :
    (∀ n : Int, n ≠ 0 → runString (.int n) = (toString n).toList)
    ∧ (∀ s : Str, runString (.str s) = s) := by
  refine ⟨fun n h => ?_, runString_str⟩
  rw [← pyStrInt_eq]
  simp [runString, h]

example : runString (.int (-120)) = "-120".toList ∧ runString (.int 0) = [] := by decide

end Kolombos
