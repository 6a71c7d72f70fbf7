import Verif.Model.Ansi
import Verif.Spec.Names
import Verif.Props.Sgr
/-
C84, C85: sequences and spans made from names, codes and sequences.
-/
set_option linter.unusedSimpArgs false
namespace Kolombos
open Spec

/-! ### upper and lower case -/

theorem lt128_cases {P : Char → Prop} [DecidablePred P] (h : ∀ n : Fin 128, P (Char.ofNat n.1)) (c : Char) (hc : c.toNat < 128) : P c := by
  have := h ⟨c.toNat, hc⟩
  simpa [Char.ofNat_toNat] using this

theorem lower_cons (c : Char) (s : Str) : lower (c :: s) = lower [c] ++ lower s := rfl

theorem pyUpper_cons (c : Char) (s : Str) : pyUpper (c :: s) = upperChar c ++ pyUpper s := rfl

theorem upper_lower1 (c : Char) : pyUpper (lower [c]) = upperChar c := by
  by_cases hc : c.toNat < 128
  · exact lt128_cases (P := fun c => pyUpper (lower [c]) = upperChar c) (by decide +kernel) c hc
  · have : ¬ ('A' ≤ c ∧ c ≤ 'Z') := by
      rintro ⟨-, h⟩
      have : c.toNat ≤ 90 := h
      omega
    simp [lower, this, pyUpper]

theorem pyUpper_append (a b : Str) : pyUpper (a ++ b) = pyUpper a ++ pyUpper b := by simp [pyUpper]

theorem lower_append (a b : Str) : lower (a ++ b) = lower a ++ lower b := by simp [lower]

/-- Upper case does not depend on the case. -/
theorem upper_lower (s : Str) : pyUpper (lower s) = pyUpper s := by
  induction s with
  | nil => rfl
  | cons c s ih => rw [lower_cons, pyUpper_append, ih, pyUpper_cons, upper_lower1]

theorem lower_upper (s : Str) (h : ∀ c ∈ s, c.toNat < 128) : lower (pyUpper s) = lower s := by
  induction s with
  | nil => rfl
  | cons c s ih =>
    rw [lower_cons, pyUpper_cons, lower_append, ih fun d hd => h d (by simp [hd])]
    congr 1
    exact lt128_cases (P := fun c => lower (upperChar c) = lower [c]) (by decide +kernel) c (h c (by simp))

/-! ### names -/

theorem find_intCodes (name : Str) :
    registryResolve intCodes name =
      match intCodeTable.find? (fun e => e.1.toList == pyUpper name) with
      | some e => .ok (.int e.2)
      | none =>
        match listCodeTable.find? (fun e => e.1.toList == pyUpper name) with
        | some e => .ok (.list e.2)
        | none => .error .key := by
  unfold registryResolve intCodes
  rw [List.find?_append, List.find?_map, List.find?_map]
  cases h1 : intCodeTable.find? (fun e => e.1.toList == pyUpper name) with
  | some e =>
    have : List.find? ((fun e : String × CodeVal => e.1.toList == pyUpper name) ∘ fun e : String × Nat => (e.1, CodeVal.int e.2)) intCodeTable = some e := h1
    rw [this]; rfl
  | none =>
    have : List.find? ((fun e : String × CodeVal => e.1.toList == pyUpper name) ∘ fun e : String × Nat => (e.1, CodeVal.int e.2)) intCodeTable = none := h1
    rw [this]
    cases h2 : listCodeTable.find? (fun e => e.1.toList == pyUpper name) with
    | some e =>
      have : List.find? ((fun e : String × CodeVal => e.1.toList == pyUpper name) ∘ fun e : String × List Nat => (e.1, CodeVal.list e.2)) listCodeTable = some e := h2
      rw [this]; rfl
    | none =>
      have : List.find? ((fun e : String × CodeVal => e.1.toList == pyUpper name) ∘ fun e : String × List Nat => (e.1, CodeVal.list e.2)) listCodeTable = none := h2
      rw [this]; rfl

/-- The number found under a name in a table of numbers. -/
def lookupNat (table : List (String × Nat)) (name : Str) : Option Nat :=
  (table.find? fun e => e.1.toList == pyUpper name).map Prod.snd

theorem lookupNat_lower (table : List (String × Nat)) {name k : Str} (h : lower name = k) : lookupNat table name = lookupNat table k := by
  unfold lookupNat
  rw [← h, upper_lower]

theorem name_params {name : Str} {n : Nat} (h : lookupNat intCodeTable name = some n) : (SgrArg.name name).params = .ok [(n : Int)] := by
  unfold lookupNat at h
  unfold SgrArg.params
  simp only [find_intCodes]
  cases h1 : intCodeTable.find? (fun e => e.1.toList == pyUpper name) with
  | none => rw [h1] at h; simp at h
  | some e =>
    rw [h1] at h
    simp only [Option.map_some, Option.some.injEq] at h
    simp [h]

/-- A name, its code in the table, and what the code does. -/
def Coded (table : List (String × Nat)) (e : String × (Style → Style)) : Prop :=
  ∃ n, lookupNat table e.1.toList = some n ∧ n ≠ 38 ∧ n ≠ 48 ∧ ∀ st, applyOne n st = e.2 st

theorem coded_attributes (table : List (String × Nat))
    (h : (["bold", "dim", "italic", "underlined", "double_underlined", "blink_slow", "blink_fast", "inversed", "hidden", "crosslined", "overlined"]).map
      (fun k => lookupNat table k.toList) = [some 1, some 2, some 3, some 4, some 21, some 5, some 6, some 7, some 8, some 9, some 53]) :
    ∀ e ∈ attributeNames, Coded table e := by
  simp only [List.map_cons, List.map_nil, List.cons.injEq, and_true] at h
  obtain ⟨h1, h2, h3, h4, h5, h6, h7, h8, h9, h10, h11⟩ := h
  intro e he
  simp only [attributeNames, List.mem_cons, List.not_mem_nil, or_false] at he
  rcases he with rfl | rfl | rfl | rfl | rfl | rfl | rfl | rfl | rfl | rfl | rfl
  · exact ⟨_, h1, by decide, by decide, fun _ => rfl⟩
  · exact ⟨_, h2, by decide, by decide, fun _ => rfl⟩
  · exact ⟨_, h3, by decide, by decide, fun _ => rfl⟩
  · exact ⟨_, h4, by decide, by decide, fun _ => rfl⟩
  · exact ⟨_, h5, by decide, by decide, fun _ => rfl⟩
  · exact ⟨_, h6, by decide, by decide, fun _ => rfl⟩
  · exact ⟨_, h7, by decide, by decide, fun _ => rfl⟩
  · exact ⟨_, h8, by decide, by decide, fun _ => rfl⟩
  · exact ⟨_, h9, by decide, by decide, fun _ => rfl⟩
  · exact ⟨_, h10, by decide, by decide, fun _ => rfl⟩
  · exact ⟨_, h11, by decide, by decide, fun _ => rfl⟩

theorem coded_endings (table : List (String × Nat))
    (h : (["reset", "bold_dim_off", "italic_off", "underlined_off", "blink_off", "inversed_off", "hidden_off", "crosslined_off", "overlined_off", "color_off", "bg_color_off"]).map
      (fun k => lookupNat table k.toList) = [some 0, some 22, some 23, some 24, some 25, some 27, some 28, some 29, some 55, some 39, some 49]) :
    ∀ e ∈ endingNames, Coded table e := by
  simp only [List.map_cons, List.map_nil, List.cons.injEq, and_true] at h
  obtain ⟨h1, h2, h3, h4, h5, h6, h7, h8, h9, h10, h11⟩ := h
  intro e he
  simp only [endingNames, List.mem_cons, List.not_mem_nil, or_false] at he
  rcases he with rfl | rfl | rfl | rfl | rfl | rfl | rfl | rfl | rfl | rfl | rfl
  · exact ⟨_, h1, by decide, by decide, fun _ => rfl⟩
  · exact ⟨_, h2, by decide, by decide, fun _ => rfl⟩
  · exact ⟨_, h3, by decide, by decide, fun _ => rfl⟩
  · exact ⟨_, h4, by decide, by decide, fun _ => rfl⟩
  · exact ⟨_, h5, by decide, by decide, fun _ => rfl⟩
  · exact ⟨_, h6, by decide, by decide, fun _ => rfl⟩
  · exact ⟨_, h7, by decide, by decide, fun _ => rfl⟩
  · exact ⟨_, h8, by decide, by decide, fun _ => rfl⟩
  · exact ⟨_, h9, by decide, by decide, fun _ => rfl⟩
  · exact ⟨_, h10, by decide, by decide, fun _ => rfl⟩
  · exact ⟨_, h11, by decide, by decide, fun _ => rfl⟩

theorem applyOne_named_fg {n : Nat} (h : (30 ≤ n ∧ n ≤ 37) ∨ (90 ≤ n ∧ n ≤ 97)) (st : Style) : applyOne n st = { st with fg := .basic n } := by
  unfold applyOne
  iterate 22 rw [if_neg (by omega)]
  rw [if_pos h]

theorem applyOne_named_bg {n : Nat} (h : (40 ≤ n ∧ n ≤ 47) ∨ (100 ≤ n ∧ n ≤ 107)) (st : Style) : applyOne n st = { st with bg := .basic n } := by
  unfold applyOne
  iterate 23 rw [if_neg (by omega)]
  rw [if_pos h]

theorem coded_colours (table : List (String × Nat))
    (h1 : ∀ e ∈ basicNames.zipIdx, e.2 < 8 ∧ lookupNat table e.1.toList = some (30 + e.2))
    (h2 : ∀ e ∈ brightNames.zipIdx, e.2 < 8 ∧ lookupNat table e.1.toList = some (90 + e.2))
    (h3 : ∀ e ∈ basicNames.zipIdx, e.2 < 8 ∧ lookupNat table ("bg_" ++ e.1).toList = some (40 + e.2))
    (h4 : ∀ e ∈ brightNames.zipIdx, e.2 < 8 ∧ lookupNat table ("bg_" ++ e.1).toList = some (100 + e.2)) :
    ∀ e ∈ colourNames, Coded table e := by
  intro e he
  simp only [colourNames, List.mem_append, List.mem_map] at he
  rcases he with ((⟨x, hx, rfl⟩ | ⟨x, hx, rfl⟩) | ⟨x, hx, rfl⟩) | ⟨x, hx, rfl⟩
  · obtain ⟨a, b⟩ := h1 x hx
    exact ⟨_, b, by omega, by omega, applyOne_named_fg (by omega)⟩
  · obtain ⟨a, b⟩ := h2 x hx
    exact ⟨_, b, by omega, by omega, applyOne_named_fg (by omega)⟩
  · obtain ⟨a, b⟩ := h3 x hx
    exact ⟨_, b, by omega, by omega, applyOne_named_bg (by omega)⟩
  · obtain ⟨a, b⟩ := h4 x hx
    exact ⟨_, b, by omega, by omega, applyOne_named_bg (by omega)⟩

theorem coded_intCodes : ∀ e ∈ allNames, Coded intCodeTable e := by
  intro e he
  simp only [allNames, styleNames, List.mem_append] at he
  rcases he with (h | h) | h
  · exact coded_attributes _ (by decide +kernel) e h
  · exact coded_colours _ (by decide +kernel) (by decide +kernel) (by decide +kernel) (by decide +kernel) e h
  · exact coded_endings _ (by decide +kernel) e h

theorem coded_seqs : ∀ e ∈ allNames, Coded seqTable e := by
  intro e he
  simp only [allNames, styleNames, List.mem_append] at he
  rcases he with (h | h) | h
  · exact coded_attributes _ (by decide +kernel) e h
  · exact coded_colours _ (by decide +kernel) (by decide +kernel) (by decide +kernel) (by decide +kernel) e h
  · exact coded_endings _ (by decide +kernel) e h

theorem coded_spans : ∀ e ∈ styleNames, Coded spanTable e := by
  intro e he
  simp only [styleNames, List.mem_append] at he
  rcases he with h | h
  · exact coded_attributes _ (by decide +kernel) e h
  · exact coded_colours _ (by decide +kernel) (by decide +kernel) (by decide +kernel) (by decide +kernel) e h

/-! ### lists of codes -/

theorem applySgr_plain {n : Nat} (h1 : n ≠ 38) (h2 : n ≠ 48) (r : List Nat) (st : Style) : applySgr (n :: r) st = applySgr r (applyOne n st) := by
  rw [applySgr.eq_def]
  simp only
  rw [if_neg (by omega)]

theorem codes_append {a b : Sgr} {ga gb : List Group} (ha : Codes a ga) (hb : Codes b gb) : Codes (a ++ b) (ga ++ gb) := by
  induction ha with
  | nil => exact hb
  | style h _ ih => rw [List.append_assoc]; exact .style h ih
  | other h _ ih => exact .other h ih

theorem applySgr_codes_append {a : Sgr} {ga : List Group} (ha : Codes a ga) (b : Sgr) (st : Style) :
    applySgr (a ++ b) st = applySgr b (applySgr a st) := by
  induction ha generalizing st with
  | nil => rfl
  | style hc _ ih =>
    obtain ⟨st', e, _⟩ := applySgr_code hc st
    rw [List.append_assoc, e, e, ih]
  | other h _ ih =>
    obtain ⟨h1, h2, -⟩ := h
    rw [List.cons_append, applySgr_plain h1 h2, applySgr_plain h1 h2, ih]

theorem codes_single {n : Nat} (h1 : n ≠ 38) (h2 : n ≠ 48) : ∃ gs, Codes [n] gs := by
  by_cases h : ∃ g, StyleCode [n] g
  · obtain ⟨g, h⟩ := h
    exact ⟨[g], .style h .nil⟩
  · exact ⟨[], .other ⟨h1, h2, fun g hg => h ⟨g, hg⟩⟩ .nil⟩

theorem applySgr_single {n : Nat} (h1 : n ≠ 38) (h2 : n ≠ 48) (st : Style) : applySgr [n] st = applyOne n st :=
  applySgr_plain h1 h2 [] st

/-! ### C84 -/

/-- What an argument of a sequence or span asks for: a name of a style; a code that stands
for itself; a number below zero, taken for a reset; a sequence without incomplete colours. -/
inductive Means : SgrArg → (Style → Style) → Prop
  | name {s f} : Named allNames s f → Means (.name s) f
  | code {n : Nat} : n ≠ 38 → n ≠ 48 → Means (.code n) (applyOne n)
  | negative {i : Int} : i < 0 → Means (.code i) fun _ => {}
  | seq {s gs} : Codes s gs → Means (.seq s) (applySgr s)

/-- The arguments, in order. -/
inductive MeansAll : List SgrArg → List (Style → Style) → Prop
  | nil : MeansAll [] []
  | cons {a f as fs} : Means a f → MeansAll as fs → MeansAll (a :: as) (f :: fs)

theorem means_params {a : SgrArg} {f : Style → Style} (h : Means a f) :
    ∃ ps ns gs, a.params = .ok ps ∧ (ps.map fun p => (max 0 p).toNat) = ns ∧ Codes ns gs ∧ ∀ st, applySgr ns st = f st := by
  cases h with
  | name h =>
    obtain ⟨e, he, hl, rfl⟩ := h
    obtain ⟨n, h1, h2, h3, h4⟩ := coded_intCodes e he
    obtain ⟨gs, hg⟩ := codes_single h2 h3
    refine ⟨[(n : Int)], [n], gs, name_params ?_, by simp, hg, fun st => ?_⟩
    · rw [lookupNat_lower _ hl, h1]
    · rw [applySgr_single h2 h3, h4]
  | code h1 h2 =>
    rename_i n
    obtain ⟨gs, hg⟩ := codes_single h1 h2
    exact ⟨[(n : Int)], [n], gs, rfl, by simp, hg, fun st => applySgr_single h1 h2 st⟩
  | negative h =>
    rename_i i
    obtain ⟨gs, hg⟩ := codes_single (n := 0) (by decide) (by decide)
    refine ⟨[i], [0], gs, rfl, ?_, hg, fun st => rfl⟩
    have : max 0 i = 0 := by omega
    simp [this]
  | seq h =>
    rename_i s gs
    refine ⟨_, s, gs, rfl, ?_, h, fun st => rfl⟩
    rw [List.map_map]
    conv => rhs; rw [← List.map_id s]
    apply List.map_congr_left
    intro n _
    simp

theorem collect_means {args : List SgrArg} {fs : List (Style → Style)} (h : MeansAll args fs) :
    ∃ ps ns gs, collectParams args = .ok ps ∧ (ps.map fun p => (max 0 p).toNat) = ns ∧ Codes ns gs ∧
      ∀ st, applySgr ns st = fs.foldl (fun st f => f st) st := by
  induction h with
  | nil => exact ⟨[], [], [], rfl, rfl, .nil, fun _ => rfl⟩
  | cons ha _ ih =>
    obtain ⟨p1, n1, g1, a1, a2, a3, a4⟩ := means_params ha
    obtain ⟨p2, n2, g2, b1, b2, b3, b4⟩ := ih
    refine ⟨p1 ++ p2, n1 ++ n2, g1 ++ g2, ?_, ?_, codes_append a3 b3, fun st => ?_⟩
    · rw [collectParams, a1]; simp only []; rw [b1]
    · rw [List.map_append, a2, b2]
    · rw [applySgr_codes_append a3, a4, b4]; rfl

theorem wrap_shown (ps : Sgr) {gs : List Group} (h : Codes ps gs) (st : Style) (text : Str) (ht : '\x1b' ∉ text) :
    ∃ st', Term.run ⟨.ground, st⟩ ((⟨ps, Sgr.closing ps⟩ : SpanObj).wrap (some text)) =
      (⟨.ground, st'⟩, text.map fun c => (c, applySgr ps st)) ∧ (st = {} → st' = {}) := by
  refine ⟨applySgr (Sgr.closing ps) (applySgr ps st), ?_, ?_⟩
  · unfold SpanObj.wrap
    simp only
    rw [List.append_assoc, term_append, term_assemble, term_append, term_text _ _ ht, term_assemble]
    simp
  · rintro rfl
    exact (C42_codes h).2

/-- C84: a span of named styles, codes and sequences: the text appears once, character by
character, with all of the styles applied in the given order, whatever the terminal's style;
and a terminal with default attributes is left with default attributes.  The names are known in
upper and lower case. -/
theorem C84_span {args : List SgrArg} {fs : List (Style → Style)} (h : MeansAll args fs) (text : Str) (ht : '\x1b' ∉ text) :
    ∃ sp, mkSpan args = .ok sp ∧ ∀ st, ∃ st', Term.run ⟨.ground, st⟩ (sp.wrap (some text)) =
      (⟨.ground, st'⟩, text.map fun c => (c, fs.foldl (fun st f => f st) st)) ∧ (st = {} → st' = {}) := by
  obtain ⟨ps, ns, gs, h1, h2, h3, h4⟩ := collect_means h
  have e : mkSgr args = .ok ns := by unfold mkSgr; rw [h1]; simp only; rw [h2]
  refine ⟨⟨ns, Sgr.closing ns⟩, ?_, fun st => ?_⟩
  · unfold mkSpan
    rw [e]
    simp only
    split
    · rename_i hl
      have : args = [] := List.length_eq_zero_iff.1 hl
      subst this
      have : ns = [] := by
        rw [← h2]
        have : ps = [] := by simpa [collectParams] using h1.symm
        rw [this]; rfl
      subst this
      rfl
    · rfl
  · obtain ⟨st', a, b⟩ := wrap_shown ns h3 st text ht
    exact ⟨st', by rw [a, h4], b⟩

example : MeansAll [.name "Red".toList, .code 4, .name "BOLD".toList, .seq [48, 5, 17], .code (-3), .name "bg_hi_cyan".toList]
    [fun st => { st with fg := .basic 31 }, applyOne 4, fun st => { st with bold := true }, applySgr [48, 5, 17], fun _ => {}, fun st => { st with bg := .basic 106 }] :=
  .cons (.name ⟨("red", _), by simp [allNames, styleNames, colourNames, basicNames], by decide, rfl⟩)
    (.cons (.code (by decide) (by decide))
      (.cons (.name ⟨("bold", _), by simp [allNames, styleNames, attributeNames], by decide, rfl⟩)
        (.cons (.seq (.style (.bgIndexed 17) .nil))
          (.cons (.negative (by decide))
            (.cons (.name ⟨("bg_" ++ "hi_cyan", _), by simp [allNames, styleNames, colourNames, brightNames], by decide, rfl⟩) .nil)))))

theorem collect_append_error {good : List SgrArg} {fs : List (Style → Style)} (h : MeansAll good fs) {bad : SgrArg} {e : AnsiErr}
    (hb : bad.params = .error e) (rest : List SgrArg) : collectParams (good ++ bad :: rest) = .error e := by
  induction h with
  | nil => rw [List.nil_append, collectParams, hb]
  | cons ha _ ih =>
    obtain ⟨p1, _, _, a1, _⟩ := means_params ha
    rw [List.cons_append, collectParams, a1]
    simp only
    rw [ih]

theorem find_none_of_lower {α : Type} (table : List (String × α)) (names : List String) (name : Str) (ha : ∀ c ∈ name, c.toNat < 128)
    (hn : ∀ k ∈ names, lower name ≠ k.toList) (ht : ∀ e ∈ table, ∃ k ∈ names, lower e.1.toList = k.toList) :
    table.find? (fun e => e.1.toList == pyUpper name) = none := by
  rw [List.find?_eq_none]
  intro e he
  simp only [beq_iff_eq]
  intro h
  obtain ⟨k, hk, hl⟩ := ht e he
  rw [h, lower_upper _ ha] at hl
  exact hn k hk hl

/-- The documented names. -/
def knownNames : List String := allNames.map Prod.fst ++ otherNames

/-- C84: the first argument that is none of these decides the exception: a name that is not
known raises `KeyError`, the name of a list `ValueError`, anything that is neither a string nor
a number nor a sequence `TypeError`. -/
theorem C84_refused {good : List SgrArg} {fs : List (Style → Style)} (h : MeansAll good fs) (rest : List SgrArg) :
    (∀ name : Str, (∀ c ∈ name, c.toNat < 128) → (∀ k ∈ knownNames ++ listNames, lower name ≠ k.toList) →
      mkSpan (good ++ .name name :: rest) = .error .key) ∧
    (∀ name : Str, (∃ k ∈ listNames, lower name = k.toList) → mkSpan (good ++ .name name :: rest) = .error .value) ∧
    mkSpan (good ++ .other :: rest) = .error .type := by
  have step : ∀ (bad : SgrArg) (e : AnsiErr), bad.params = .error e → mkSpan (good ++ bad :: rest) = .error e := by
    intro bad e hb
    unfold mkSpan mkSgr
    rw [collect_append_error h hb]
  refine ⟨fun name ha hn => step _ _ ?_, ?_, step _ _ rfl⟩
  · unfold SgrArg.params
    simp only [find_intCodes]
    rw [find_none_of_lower intCodeTable knownNames name ha (fun k hk => hn k (by simp [hk])) (by decide +kernel),
      find_none_of_lower listCodeTable listNames name ha (fun k hk => hn k (by simp [hk])) (by decide +kernel)]
  · rintro name ⟨k, hk, hl⟩
    apply step
    unfold SgrArg.params
    simp only [find_intCodes]
    have e : pyUpper name = pyUpper k.toList := by rw [← hl, upper_lower]
    rw [e]
    have all : ∀ k ∈ listNames, (intCodeTable.find? fun e => e.1.toList == pyUpper k.toList) = none ∧
        (listCodeTable.find? fun e => e.1.toList == pyUpper k.toList).isSome = true := by decide +kernel
    obtain ⟨a, b⟩ := all k hk
    rw [a]
    simp only
    obtain ⟨x, hx⟩ := Option.isSome_iff_exists.1 b
    rw [hx]

example : (∀ c ∈ "purple".toList, c.toNat < 128) ∧ (∀ k ∈ knownNames ++ listNames, lower "purple".toList ≠ k.toList) ∧
    ∃ k ∈ listNames, lower "List_Colors".toList = k.toList := by decide +kernel

theorem mkSgr_code (n : Nat) : mkSgr [.code n] = .ok [n] := by
  simp [mkSgr, collectParams, SgrArg.params]

theorem registry_lookup {table : List (String × Nat)} {name : Str} {n : Nat} (h : lookupNat table name = some n) :
    registryResolve table name = .ok n := by
  unfold lookupNat at h
  unfold registryResolve
  cases h1 : table.find? (fun e => e.1.toList == pyUpper name) with
  | none => rw [h1] at h; simp at h
  | some e =>
    rw [h1] at h
    simp only [Option.map_some, Option.some.injEq] at h
    simp [h]

/-- C84: the preset sequences and spans looked up by name, in upper or lower case, do what the
name says. -/
theorem C84_presets (name : Str) (f : Style → Style) :
    (Named allNames name f → ∃ s, seqsResolve name = .ok s ∧ ∀ st, Term.run ⟨.ground, st⟩ s.assemble = (⟨.ground, f st⟩, [])) ∧
    (Named styleNames name f → ∀ text, '\x1b' ∉ text → ∃ sp, spansResolve name = .ok sp ∧
      ∀ st, ∃ st', Term.run ⟨.ground, st⟩ (sp.wrap (some text)) = (⟨.ground, st'⟩, text.map fun c => (c, f st)) ∧ (st = {} → st' = {})) := by
  constructor
  · rintro ⟨e, he, hl, rfl⟩
    obtain ⟨n, h1, h2, h3, h4⟩ := coded_seqs e he
    refine ⟨[n], ?_, fun st => ?_⟩
    · unfold seqsResolve
      rw [registry_lookup (n := n) (by rw [lookupNat_lower _ hl, h1])]
      exact mkSgr_code n
    · rw [term_assemble, applySgr_single h2 h3, h4]
  · rintro ⟨e, he, hl, rfl⟩ text ht
    obtain ⟨n, h1, h2, h3, h4⟩ := coded_spans e he
    obtain ⟨gs, hg⟩ := codes_single h2 h3
    refine ⟨⟨[n], Sgr.closing [n]⟩, ?_, fun st => ?_⟩
    · unfold spansResolve
      rw [registry_lookup (n := n) (by rw [lookupNat_lower _ hl, h1])]
      simp only
      unfold mkSpan
      rw [mkSgr_code]
      rfl
    · obtain ⟨st', a, b⟩ := wrap_shown [n] hg st text ht
      exact ⟨st', by rw [a]; simp only [applySgr_single h2 h3, h4], b⟩

/-! ### C85 -/

/-- C85 (as documented): a span with explicit sequences writes the opening sequence, the text and the
closing sequence, or a reset at the end if asked to.  It does not: sequences given explicitly
are dropped. -/
theorem C85_negation :
    ¬ ∀ (o c : Sgr) (hard : Bool) (text : Str),
      (explicitSpan (some o) (some c) hard).wrap (some text) = o.assemble ++ text ++ (if hard then "\x1b[m".toList else c.assemble) := by
  intro h
  exact absurd (h [31] [39] false ['x']) (by decide)

/-- C85: what holds: no exception and no garbling; the text is written as it is, whatever the
sequences, followed by the reset if asked to.  Missing: the sequences themselves; with sequences that are
absent or empty this is the documented behaviour. -/
theorem C85_text_partial (o c : Option Sgr) (hard : Bool) (text : Str) :
    (explicitSpan o c hard).wrap (some text) = text ++ (if hard then "\x1b[m".toList else []) := by
  have e : ∀ x : Option Sgr, optArg x = [] := by
    intro x
    cases x <;> rfl
  unfold explicitSpan SpanObj.wrap
  simp only [e]
  cases hard
  · simp [Sgr.assemble]
  · show [] ++ text ++ Sgr.assemble [0] = _
    rw [List.nil_append]
    rfl

/-- C85: after a span with `hard_reset_after` the terminal has default attributes. -/
theorem C85_reset_partial (o c : Option Sgr) (text : Str) (ht : '\x1b' ∉ text) (st : Style) :
    (Term.run ⟨.ground, st⟩ ((explicitSpan o c true).wrap (some text))).1 = {} := by
  rw [C85_text_partial, if_pos rfl, term_append, term_text _ _ ht]
  rfl

example : (explicitSpan (some [31]) none true).wrap (some "ab".toList) = "ab\x1b[m".toList := by decide

end Kolombos
