import Verif.Lemmas.Sgr
/-
C41–C43: SGR sequences.
-/
set_option linter.unusedSimpArgs false

namespace Kolombos
open Spec

/-! ### C41 -/

/-- C41: the assembled string determines the parameters. -/
theorem C41_assemble (a b : Sgr) : a.assemble = b.assemble ↔ a = b :=
  ⟨assemble_inj, fun h => h ▸ rfl⟩

/-- C41: the empty sequence, and only it, is the empty string. -/
theorem C41_noop (a : Sgr) : a.assemble = [] ↔ a = [] :=
  C41_assemble a []

/-- C41: `==` and `hash` agree with the parameters. -/
theorem C41_eq (a b : Sgr) : (Sgr.eq a b = true ↔ a = b) ∧ (Sgr.eq a b = true ↔ a.assemble = b.assemble) :=
  ⟨by simp [Sgr.eq], by rw [C41_assemble]; simp [Sgr.eq]⟩

theorem fold256_inj : ∀ (a b : Str) (m n : Nat), (∀ c ∈ a, c.toNat < 256) → (∀ c ∈ b, c.toNat < 256) →
    a.length = b.length →
    a.foldl (fun n c => n * 256 + c.toNat) m = b.foldl (fun n c => n * 256 + c.toNat) n → m = n ∧ a = b := by
  intro a
  induction a with
  | nil =>
    intro b m n _ _ hl h
    have : b = [] := List.length_eq_zero_iff.1 hl.symm
    subst this
    exact ⟨h, rfl⟩
  | cons c a ih =>
    intro b m n ha hb hl h
    cases b with
    | nil => simp at hl
    | cons d b =>
      simp only [List.foldl_cons] at h
      obtain ⟨h1, h2⟩ := ih b _ _ (fun x hx => ha x (by simp [hx])) (fun x hx => hb x (by simp [hx])) (by simpa using hl) h
      have hc := ha c (by simp)
      have hd := hb d (by simp)
      have e : c.toNat = d.toNat := by omega
      exact ⟨by omega, by rw [h2, Char.toNat_inj.1 e]⟩

theorem fold256_bound : ∀ (a : Str) (m : Nat), (∀ c ∈ a, c.toNat < 256) →
    m * 256 ^ a.length ≤ a.foldl (fun n c => n * 256 + c.toNat) m ∧
    a.foldl (fun n c => n * 256 + c.toNat) m < (m + 1) * 256 ^ a.length := by
  intro a
  induction a with
  | nil => intro m _; simp
  | cons c a ih =>
    intro m h
    have hc := h c (by simp)
    obtain ⟨h1, h2⟩ := ih (m * 256 + c.toNat) (fun x hx => h x (by simp [hx]))
    simp only [List.foldl_cons, List.length_cons, Nat.pow_succ]
    have e1 : m * (256 ^ a.length * 256) = (m * 256) * 256 ^ a.length := by
      rw [Nat.mul_comm (256 ^ a.length), Nat.mul_assoc]
    have e2 : (m + 1) * (256 ^ a.length * 256) = ((m + 1) * 256) * 256 ^ a.length := by
      rw [Nat.mul_comm (256 ^ a.length), Nat.mul_assoc]
    rw [e1, e2]
    exact ⟨Nat.le_trans (Nat.mul_le_mul_right _ (by omega)) h1, Nat.lt_of_lt_of_le h2 (Nat.mul_le_mul_right _ (by omega))⟩

theorem assemble_low (a : Sgr) : ∀ c ∈ a.assemble, c.toNat < 256 := by
  intro c hc
  unfold Sgr.assemble at hc
  split at hc
  · simp at hc
  · simp only [List.mem_cons, List.mem_append, List.not_mem_nil, or_false] at hc
    rcases hc with rfl | rfl | hc | rfl
    · decide
    · decide
    · have := join_sgrParam _ c hc
      simp only [isSgrParam, Bool.or_eq_true, beq_iff_eq] at this
      rcases this with h | rfl
      · simp only [Char.isDigit, Bool.and_eq_true, decide_eq_true_eq] at h
        have := h.2
        have : c.toNat ≤ 57 := this
        omega
      · decide
    · decide

theorem assemble_head (a : Sgr) : a.assemble = [] ∨ ∃ t, a.assemble = '\x1b' :: t := by
  unfold Sgr.assemble
  split
  · exact .inl rfl
  · exact .inr ⟨_, rfl⟩

/-- Number of characters of an assembled sequence, from its hash. -/
theorem hash_bounds (t : Str) (h : ∀ c ∈ t, c.toNat < 256) :
    27 * 256 ^ t.length ≤ ('\x1b' :: t).foldl (fun n c => n * 256 + c.toNat) 0 ∧
    ('\x1b' :: t).foldl (fun n c => n * 256 + c.toNat) 0 < 28 * 256 ^ t.length := by
  simp only [List.foldl_cons, Nat.zero_mul, Nat.zero_add]
  exact fold256_bound t 27 h

/-- C41: `hash` (the number that `__hash__` returns) distinguishes all sequences. -/
theorem C41_hash (a b : Sgr) : a.hash = b.hash ↔ a = b := by
  refine ⟨fun h => ?_, fun h => h ▸ rfl⟩
  apply assemble_inj
  unfold Sgr.hash at h
  have ha := assemble_low a
  have hb := assemble_low b
  rcases assemble_head a with ea | ⟨s, ea⟩ <;> rcases assemble_head b with eb | ⟨t, eb⟩ <;> rw [ea, eb] at h <;> rw [ea] at ha <;> rw [eb] at hb
  · rw [ea, eb]
  · have := (hash_bounds t (fun c hc => hb c (by simp [hc]))).1
    have hp : 0 < 256 ^ t.length := Nat.pow_pos (by decide)
    rw [← h] at this
    simp only [List.foldl_nil] at this
    omega
  · have := (hash_bounds s (fun c hc => ha c (by simp [hc]))).1
    have hp : 0 < 256 ^ s.length := Nat.pow_pos (by decide)
    rw [h] at this
    simp only [List.foldl_nil] at this
    omega
  · have hs := hash_bounds s (fun c hc => ha c (by simp [hc]))
    have ht := hash_bounds t (fun c hc => hb c (by simp [hc]))
    have key : ∀ m n : Nat, m < n → 28 * 256 ^ m ≤ 27 * 256 ^ n := by
      intro m n hmn
      have : 256 ^ (m + 1) ≤ 256 ^ n := Nat.pow_le_pow_right (by decide) hmn
      rw [Nat.pow_succ] at this
      have hp : 0 < 256 ^ m := Nat.pow_pos (by decide)
      omega
    have hl : s.length = t.length := by
      rcases Nat.lt_trichotomy s.length t.length with hlt | heq | hgt
      · have := key _ _ hlt; omega
      · exact heq
      · have := key _ _ hgt; omega
    rw [ea, eb]
    exact (fold256_inj _ _ 0 0 ha hb (by simp [hl]) h).2

/-- C41: addition is associative, the empty sequence is neutral, and
summands can be cancelled (its effect on a terminal: `C42_add`). -/
theorem C41_add (a b c : Sgr) :
    Sgr.add (Sgr.add a b) c = Sgr.add a (Sgr.add b c) ∧ Sgr.add a [] = a ∧ Sgr.add [] a = a ∧
    (Sgr.add a b = Sgr.add a c ↔ b = c) ∧ (Sgr.add a c = Sgr.add b c ↔ a = b) := by
  unfold Sgr.add
  exact ⟨List.append_assoc a b c, List.append_nil a, rfl, List.append_cancel_left_eq a b c ▸ Iff.rfl, List.append_cancel_right_eq a c b ▸ Iff.rfl⟩

example : Sgr.assemble [38, 5, 208] = "\x1b[38;5;208m".toList ∧ Sgr.assemble [0] = "\x1b[m".toList ∧
    Sgr.assemble [0, 0] = "\x1b[0;0m".toList ∧ Sgr.hash [1] ≠ Sgr.hash [11] := by decide

/-! ### C42 -/

/-- Attributes that are switched off together. -/
inductive Group where
  | intensity | italic | underline | blink | inverse | hidden | crossed | overlined | fg | bg
  deriving DecidableEq

/-- Two styles agree on a group. -/
def sameOn : Group → Style → Style → Prop
  | .intensity, a, b => a.bold = b.bold ∧ a.dim = b.dim
  | .italic, a, b => a.italic = b.italic
  | .underline, a, b => a.underline = b.underline
  | .blink, a, b => a.blink = b.blink
  | .inverse, a, b => a.inverse = b.inverse
  | .hidden, a, b => a.hidden = b.hidden
  | .crossed, a, b => a.crossed = b.crossed
  | .overlined, a, b => a.overlined = b.overlined
  | .fg, a, b => a.fg = b.fg
  | .bg, a, b => a.bg = b.bg

theorem sameOn_refl (g : Group) (a : Style) : sameOn g a a := by cases g <;> simp [sameOn]

theorem sameOn_trans {g : Group} {a b c : Style} (h : sameOn g a b) (h' : sameOn g b c) : sameOn g a c := by
  cases g <;> simp_all [sameOn]

/-- Styles that agree on all groups are equal. -/
theorem sameOn_all {a b : Style} (h : ∀ g, sameOn g a b) : a = b := by
  obtain ⟨h1, h2⟩ := h .intensity
  have := h .italic; have := h .underline; have := h .blink; have := h .inverse; have := h .hidden
  have := h .crossed; have := h .overlined; have := h .fg; have := h .bg
  cases a; cases b
  simp_all [sameOn]

/-- A code that switches something on: which parameters, and which group. -/
inductive StyleCode : List Nat → Group → Prop
  | intensity (n) : n = 1 ∨ n = 2 → StyleCode [n] .intensity
  | italic : StyleCode [3] .italic
  | underline (n) : n = 4 ∨ n = 21 → StyleCode [n] .underline
  | blink (n) : n = 5 ∨ n = 6 → StyleCode [n] .blink
  | inverse : StyleCode [7] .inverse
  | hidden : StyleCode [8] .hidden
  | crossed : StyleCode [9] .crossed
  | overlined : StyleCode [53] .overlined
  | fg (n) : (30 ≤ n ∧ n ≤ 37) ∨ (90 ≤ n ∧ n ≤ 97) → StyleCode [n] .fg
  | bg (n) : (40 ≤ n ∧ n ≤ 47) ∨ (100 ≤ n ∧ n ≤ 107) → StyleCode [n] .bg
  | fgIndexed (n) : StyleCode [38, 5, n] .fg
  | bgIndexed (n) : StyleCode [48, 5, n] .bg
  | fgRgb (r g b) : StyleCode [38, 2, r, g, b] .fg
  | bgRgb (r g b) : StyleCode [48, 2, r, g, b] .bg

/-- Parameters made of style codes, with the groups they touch. -/
inductive Styles : Sgr → List Group → Prop
  | nil : Styles [] []
  | cons {p g ps gs} : StyleCode p g → Styles ps gs → Styles (p ++ ps) (g :: gs)

/-- The code that ends a group. -/
def offCode : Group → Nat
  | .intensity => 22 | .italic => 23 | .underline => 24 | .blink => 25 | .inverse => 27
  | .hidden => 28 | .crossed => 29 | .overlined => 55 | .fg => 39 | .bg => 49

theorem complexDef_none {p : Nat} {ps : List Nat} (h1 : p ≠ 38) (h2 : p ≠ 48) : Sgr.complexDef (p :: ps) = none := by
  unfold Sgr.complexDef
  split <;> simp_all

theorem findComplex_none {p : Nat} {ps : List Nat} (h1 : p ≠ 38) (h2 : p ≠ 48) : Sgr.findComplex (p :: ps) = none := by
  unfold Sgr.findComplex
  rw [List.findSome?_eq_none_iff]
  intro n hn
  have : 1 ≤ n := by simp [List.mem_range'_1] at hn; omega
  obtain ⟨m, rfl⟩ : ∃ m, n = m + 1 := ⟨n - 1, by omega⟩
  rw [List.take_succ_cons, complexDef_none h1 h2]; rfl

theorem findComplex_two {a b c : Nat} {ps : List Nat} {d : Nat × Nat} (h : Sgr.complexDef [a, b] = some d) :
    Sgr.findComplex (a :: b :: c :: ps) = some (2, d.1, d.2) := by
  unfold Sgr.findComplex
  obtain ⟨k, hk⟩ : ∃ k, min (a :: b :: c :: ps).length 6 - 1 = k + 2 :=
    ⟨min (a :: b :: c :: ps).length 6 - 3, by simp only [List.length_cons]; omega⟩
  have h1 : Sgr.complexDef [a] = none := by unfold Sgr.complexDef; split <;> simp_all
  rw [hk, List.range'_succ, List.range'_succ]
  simp [h1, h]

theorem closingAux_code {p : List Nat} {g : Group} (h : StyleCode p g) (ps : List Nat) (n : Nat)
    (hn : (p ++ ps).length ≤ n) :
    ∃ m, ps.length ≤ m ∧ Sgr.closingAux n (p ++ ps) = offCode g :: Sgr.closingAux m ps := by
  have hne : n ≠ 0 := by
    rintro rfl
    cases h <;> simp at hn
  obtain ⟨m, rfl⟩ := Nat.exists_eq_succ_of_ne_zero hne
  refine ⟨m, ?_, ?_⟩
  · cases h <;> simp only [List.cons_append, List.nil_append, List.length_cons] at hn <;> omega
  have simple : ∀ q : Nat, q ≠ 38 → q ≠ 48 → ∀ b, Sgr.breaker q = some b →
      Sgr.closingAux (m + 1) ([q] ++ ps) = b :: Sgr.closingAux m ps := by
    intro q h1 h2 b hb
    simp only [List.cons_append, List.nil_append, Sgr.closingAux, findComplex_none h1 h2, hb]
  cases h with
  | intensity q hq => exact simple q (by omega) (by omega) 22 (by rcases hq with rfl | rfl <;> rfl)
  | italic => exact simple _ (by omega) (by omega) _ rfl
  | underline q hq => exact simple q (by omega) (by omega) 24 (by rcases hq with rfl | rfl <;> rfl)
  | blink q hq => exact simple q (by omega) (by omega) 25 (by rcases hq with rfl | rfl <;> rfl)
  | inverse => exact simple _ (by omega) (by omega) _ rfl
  | hidden => exact simple _ (by omega) (by omega) _ rfl
  | crossed => exact simple _ (by omega) (by omega) _ rfl
  | overlined => exact simple _ (by omega) (by omega) _ rfl
  | fg q hq =>
    refine simple q (by omega) (by omega) 39 ?_
    unfold Sgr.breaker
    repeat rw [if_neg (by omega)]
    rw [if_pos (by omega)]
  | bg q hq =>
    refine simple q (by omega) (by omega) 49 ?_
    unfold Sgr.breaker
    repeat rw [if_neg (by omega)]
    rw [if_pos (by omega)]
  | fgIndexed q =>
    simp only [List.cons_append, List.nil_append, Sgr.closingAux, findComplex_two (a := 38) (b := 5) (d := (1, 39)) rfl]; rfl
  | bgIndexed q =>
    simp only [List.cons_append, List.nil_append, Sgr.closingAux, findComplex_two (a := 48) (b := 5) (d := (1, 49)) rfl]; rfl
  | fgRgb r g b =>
    simp only [List.cons_append, List.nil_append, Sgr.closingAux, findComplex_two (a := 38) (b := 2) (d := (3, 39)) rfl]; rfl
  | bgRgb r g b =>
    simp only [List.cons_append, List.nil_append, Sgr.closingAux, findComplex_two (a := 48) (b := 2) (d := (3, 49)) rfl]; rfl

theorem closingAux_styles {ps : Sgr} {gs : List Group} (h : Styles ps gs) (n : Nat) (hn : ps.length ≤ n) :
    Sgr.closingAux n ps = gs.map offCode := by
  induction h generalizing n with
  | nil => cases n <;> rfl
  | cons hc _ ih =>
    obtain ⟨m, hm, e⟩ := closingAux_code hc _ n hn
    rw [e, ih m hm]; rfl

theorem applySgr_simple {q : Nat} {ps : List Nat} {st : Style} (h1 : q ≠ 38) (h2 : q ≠ 48) :
    applySgr (q :: ps) st = applySgr ps (applyOne q st) := by
  rw [applySgr.eq_def]
  simp only [h1, h2, or_self, if_false]

/-- Switching a group off. -/
theorem applySgr_off (g : Group) (r : List Nat) (st : Style) :
    applySgr (offCode g :: r) st = applySgr r (applyOne (offCode g) st) := by
  cases g <;> exact applySgr_simple (by decide) (by decide)

theorem applyOne_off_same (g : Group) (st : Style) : sameOn g (applyOne (offCode g) st) {} := by
  cases g <;> simp [offCode, applyOne, sameOn]

theorem applyOne_off_other {g g' : Group} (h : g' ≠ g) (st : Style) : sameOn g' (applyOne (offCode g) st) st := by
  cases g <;> cases g' <;> first | exact absurd rfl h | simp [offCode, applyOne, sameOn]

theorem applySgr_offs (gs : List Group) (st : Style) (g : Group) :
    (g ∈ gs → sameOn g (applySgr (gs.map offCode) st) {}) ∧
    (g ∉ gs → sameOn g (applySgr (gs.map offCode) st) st) := by
  induction gs generalizing st with
  | nil => exact ⟨fun h => by simp at h, fun _ => sameOn_refl g st⟩
  | cons a gs ih =>
    rw [List.map_cons, applySgr_off]
    obtain ⟨i1, i2⟩ := ih (applyOne (offCode a) st)
    constructor
    · intro h
      by_cases hg : g ∈ gs
      · exact i1 hg
      · have : g = a := by simpa [hg] using h
        subst this
        exact sameOn_trans (i2 hg) (applyOne_off_same g st)
    · intro h
      simp only [List.mem_cons, not_or] at h
      exact sameOn_trans (i2 h.2) (applyOne_off_other h.1 st)

theorem applySgr_code {p : List Nat} {g : Group} (h : StyleCode p g) (st : Style) :
    ∃ st', (∀ ps, applySgr (p ++ ps) st = applySgr ps st') ∧ ∀ g', g' ≠ g → sameOn g' st' st := by
  have simple : ∀ q : Nat, q ≠ 38 → q ≠ 48 → ∀ ps, applySgr ([q] ++ ps) st = applySgr ps (applyOne q st) := by
    intro q h1 h2 ps
    exact applySgr_simple h1 h2
  cases h with
  | fgIndexed q => exact ⟨{ st with fg := .indexed q }, by simp [applySgr, setColor], by intro g' h; cases g' <;> first | exact absurd rfl h | rfl | exact ⟨rfl, rfl⟩⟩
  | bgIndexed q => exact ⟨{ st with bg := .indexed q }, by simp [applySgr, setColor], by intro g' h; cases g' <;> first | exact absurd rfl h | rfl | exact ⟨rfl, rfl⟩⟩
  | fgRgb r g b => exact ⟨{ st with fg := .rgb r g b }, by simp [applySgr, setColor], by intro g' h; cases g' <;> first | exact absurd rfl h | rfl | exact ⟨rfl, rfl⟩⟩
  | bgRgb r g b => exact ⟨{ st with bg := .rgb r g b }, by simp [applySgr, setColor], by intro g' h; cases g' <;> first | exact absurd rfl h | rfl | exact ⟨rfl, rfl⟩⟩
  | fg q hq =>
    refine ⟨_, simple q (by omega) (by omega), ?_⟩
    have : applyOne q st = { st with fg := .basic q } := by
      unfold applyOne
      repeat rw [if_neg (by omega)]
      rw [if_pos (by omega)]
    rw [this]; intro g' h; cases g' <;> first | exact absurd rfl h | rfl | exact ⟨rfl, rfl⟩
  | bg q hq =>
    refine ⟨_, simple q (by omega) (by omega), ?_⟩
    have : applyOne q st = { st with bg := .basic q } := by
      unfold applyOne
      repeat rw [if_neg (by omega)]
      rw [if_pos (by omega)]
    rw [this]; intro g' h; cases g' <;> first | exact absurd rfl h | rfl | exact ⟨rfl, rfl⟩
  | intensity q hq => rcases hq with rfl | rfl <;> exact ⟨_, simple _ (by omega) (by omega), by intro g' h; cases g' <;> first | exact absurd rfl h | rfl | exact ⟨rfl, rfl⟩⟩
  | underline q hq => rcases hq with rfl | rfl <;> exact ⟨_, simple _ (by omega) (by omega), by intro g' h; cases g' <;> first | exact absurd rfl h | rfl | exact ⟨rfl, rfl⟩⟩
  | blink q hq => rcases hq with rfl | rfl <;> exact ⟨_, simple _ (by omega) (by omega), by intro g' h; cases g' <;> first | exact absurd rfl h | rfl | exact ⟨rfl, rfl⟩⟩
  | italic => exact ⟨_, simple _ (by omega) (by omega), by intro g' h; cases g' <;> first | exact absurd rfl h | rfl | exact ⟨rfl, rfl⟩⟩
  | inverse => exact ⟨_, simple _ (by omega) (by omega), by intro g' h; cases g' <;> first | exact absurd rfl h | rfl | exact ⟨rfl, rfl⟩⟩
  | hidden => exact ⟨_, simple _ (by omega) (by omega), by intro g' h; cases g' <;> first | exact absurd rfl h | rfl | exact ⟨rfl, rfl⟩⟩
  | crossed => exact ⟨_, simple _ (by omega) (by omega), by intro g' h; cases g' <;> first | exact absurd rfl h | rfl | exact ⟨rfl, rfl⟩⟩
  | overlined => exact ⟨_, simple _ (by omega) (by omega), by intro g' h; cases g' <;> first | exact absurd rfl h | rfl | exact ⟨rfl, rfl⟩⟩

theorem applySgr_styles {ps : Sgr} {gs : List Group} (h : Styles ps gs) (st : Style) (g : Group) (hg : g ∉ gs) :
    sameOn g (applySgr ps st) st := by
  induction h generalizing st with
  | nil => exact sameOn_refl g st
  | cons hc _ ih =>
    simp only [List.mem_cons, not_or] at hg
    obtain ⟨st', e, hs⟩ := applySgr_code hc st
    rw [e]
    exact sameOn_trans (ih st' hg.2) (hs g hg.1)

/-- C42: a sum of sequences acts like its summands one after the other. -/
theorem C42_add {a : Sgr} {gs : List Group} (h : Styles a gs) (b : Sgr) (st : Style) :
    applySgr (Sgr.add a b) st = applySgr b (applySgr a st) := by
  unfold Sgr.add
  induction h generalizing st with
  | nil => rfl
  | cons hc _ ih =>
    obtain ⟨st', e, _⟩ := applySgr_code hc st
    rw [List.append_assoc, e, e, ih]

/-- C42: the closing sequence, on any terminal state, puts the groups that the
opening touches to default and leaves all others alone. -/
theorem C42_closing {ps : Sgr} {gs : List Group} (h : Styles ps gs) (st : Style) (g : Group) :
    (g ∈ gs → sameOn g (applySgr (Sgr.closing ps) st) {}) ∧
    (g ∉ gs → sameOn g (applySgr (Sgr.closing ps) st) st) := by
  unfold Sgr.closing
  rw [closingAux_styles h _ (Nat.le_refl _)]
  exact applySgr_offs gs st g

/-- C42: text wrapped in a span, on a terminal in any style: the text appears
once, character by character, in the opening's style; afterwards the terminal
has the touched groups at default and the others as before the span. -/
theorem C42_span {ps : Sgr} {gs : List Group} (h : Styles ps gs) (st : Style) (text : Str) (ht : '\x1b' ∉ text) :
    ∃ st', Term.run ⟨.ground, st⟩ (span ps text) = (⟨.ground, st'⟩, text.map fun c => (c, applySgr ps st)) ∧
      ∀ g, (g ∈ gs → sameOn g st' {}) ∧ (g ∉ gs → sameOn g st' st) := by
  refine ⟨applySgr (Sgr.closing ps) (applySgr ps st), ?_, fun g => ⟨fun hg => ?_, fun hg => ?_⟩⟩
  · unfold span
    rw [List.append_assoc, term_append, term_assemble, term_append, term_text _ _ ht, term_assemble]
    simp
  · exact (C42_closing h _ g).1 hg
  · exact sameOn_trans ((C42_closing h _ g).2 hg) (applySgr_styles h st g hg)

/-- C42: on a terminal with default attributes a span leaves default attributes. -/
theorem C42_default {ps : Sgr} {gs : List Group} (h : Styles ps gs) (text : Str) (ht : '\x1b' ∉ text) :
    (Term.run {} (span ps text)).1 = {} := by
  obtain ⟨st', e, hs⟩ := C42_span h {} text ht
  have : st' = {} := sameOn_all fun g => by
    by_cases hg : g ∈ gs
    · exact (hs g).1 hg
    · exact (hs g).2 hg
  show (Term.run ⟨.ground, {}⟩ (span ps text)).1 = _
  rw [e, this]

example : Styles [38, 5, 1, 4, 48, 2, 7, 8, 9, 1] [.fg, .underline, .bg, .intensity] ∧
    Sgr.closing [38, 5, 1, 4, 48, 2, 7, 8, 9, 1] = [39, 24, 49, 22] :=
  ⟨.cons (.fgIndexed 1) (.cons (.underline 4 (by decide)) (.cons (.bgRgb 7 8 9) (.cons (.intensity 1 (by decide)) .nil))), by decide⟩

/-- Any other single code: a reset, a code that switches something off, or one
without a meaning. -/
def OtherCode (n : Nat) : Prop := n ≠ 38 ∧ n ≠ 48 ∧ ∀ g, ¬ StyleCode [n] g

/-- Parameters made of style codes and other codes, with the groups that the
style codes touch: all parameter lists but those with an incomplete extended
colour. -/
inductive Codes : Sgr → List Group → Prop
  | nil : Codes [] []
  | style {p g ps gs} : StyleCode p g → Codes ps gs → Codes (p ++ ps) (g :: gs)
  | other {n ps gs} : OtherCode n → Codes ps gs → Codes (n :: ps) gs

theorem breaker_other {n : Nat} (h : OtherCode n) : Sgr.breaker n = none := by
  obtain ⟨h1, h2, h3⟩ := h
  unfold Sgr.breaker
  have a1 : ¬ (n = 1 ∨ n = 2) := fun h => h3 _ (.intensity n h)
  have a2 : ¬ n = 3 := by rintro rfl; exact h3 _ .italic
  have a3 : ¬ (n = 4 ∨ n = 21) := fun h => h3 _ (.underline n h)
  have a4 : ¬ (n = 5 ∨ n = 6) := fun h => h3 _ (.blink n h)
  have a5 : ¬ n = 7 := by rintro rfl; exact h3 _ .inverse
  have a6 : ¬ n = 8 := by rintro rfl; exact h3 _ .hidden
  have a7 : ¬ n = 9 := by rintro rfl; exact h3 _ .crossed
  have a8 : ¬ n = 53 := by rintro rfl; exact h3 _ .overlined
  have a9 : ¬ ((30 ≤ n ∧ n ≤ 37) ∨ (90 ≤ n ∧ n ≤ 97)) := fun h => h3 _ (.fg n h)
  have a10 : ¬ ((40 ≤ n ∧ n ≤ 47) ∨ (100 ≤ n ∧ n ≤ 107)) := fun h => h3 _ (.bg n h)
  repeat rw [if_neg (by omega)]

/-- On every group, another code changes nothing or restores the default. -/
theorem applyOne_other {n : Nat} (h : OtherCode n) (st : Style) (g : Group) :
    sameOn g (applyOne n st) st ∨ sameOn g (applyOne n st) {} := by
  obtain ⟨h1, h2, h3⟩ := h
  have a1 : ¬ (n = 1 ∨ n = 2) := fun h => h3 _ (.intensity n h)
  have a2 : ¬ n = 3 := by rintro rfl; exact h3 _ .italic
  have a3 : ¬ (n = 4 ∨ n = 21) := fun h => h3 _ (.underline n h)
  have a4 : ¬ (n = 5 ∨ n = 6) := fun h => h3 _ (.blink n h)
  have a5 : ¬ n = 7 := by rintro rfl; exact h3 _ .inverse
  have a6 : ¬ n = 8 := by rintro rfl; exact h3 _ .hidden
  have a7 : ¬ n = 9 := by rintro rfl; exact h3 _ .crossed
  have a8 : ¬ n = 53 := by rintro rfl; exact h3 _ .overlined
  have a9 : ¬ ((30 ≤ n ∧ n ≤ 37) ∨ (90 ≤ n ∧ n ≤ 97)) := fun h => h3 _ (.fg n h)
  have a10 : ¬ ((40 ≤ n ∧ n ≤ 47) ∨ (100 ≤ n ∧ n ≤ 107)) := fun h => h3 _ (.bg n h)
  by_cases hoff : ∃ g', n = offCode g'
  · obtain ⟨g', rfl⟩ := hoff
    by_cases hg : g = g'
    · subst hg; exact Or.inr (applyOne_off_same g st)
    · exact Or.inl (applyOne_off_other hg st)
  · by_cases h0 : n = 0
    · subst h0; exact Or.inr (sameOn_refl g _)
    · have b1 : n ≠ 22 := fun h => hoff ⟨.intensity, h⟩
      have b2 : n ≠ 23 := fun h => hoff ⟨.italic, h⟩
      have b3 : n ≠ 24 := fun h => hoff ⟨.underline, h⟩
      have b4 : n ≠ 25 := fun h => hoff ⟨.blink, h⟩
      have b5 : n ≠ 27 := fun h => hoff ⟨.inverse, h⟩
      have b6 : n ≠ 28 := fun h => hoff ⟨.hidden, h⟩
      have b7 : n ≠ 29 := fun h => hoff ⟨.crossed, h⟩
      have b8 : n ≠ 55 := fun h => hoff ⟨.overlined, h⟩
      have b9 : n ≠ 39 := fun h => hoff ⟨.fg, h⟩
      have b10 : n ≠ 49 := fun h => hoff ⟨.bg, h⟩
      have : applyOne n st = st := by
        unfold applyOne
        repeat rw [if_neg (by omega)]
      rw [this]
      exact Or.inl (sameOn_refl g st)

theorem closingAux_codes {ps : Sgr} {gs : List Group} (h : Codes ps gs) (n : Nat) (hn : ps.length ≤ n) :
    Sgr.closingAux n ps = gs.map offCode := by
  induction h generalizing n with
  | nil => cases n <;> rfl
  | style hc _ ih =>
    obtain ⟨m, hm, e⟩ := closingAux_code hc _ n hn
    rw [e, ih m hm]; rfl
  | other ho _ ih =>
    cases n with
    | zero => simp at hn
    | succ n =>
      simp only [Sgr.closingAux, findComplex_none ho.1 ho.2.1, breaker_other ho]
      exact ih n (by simpa using hn)

/-- Groups without style codes that have their default keep it. -/
theorem applySgr_codes {ps : Sgr} {gs : List Group} (h : Codes ps gs) (st : Style) (g : Group)
    (hg : g ∉ gs) (hd : sameOn g st {}) : sameOn g (applySgr ps st) {} := by
  induction h generalizing st with
  | nil => exact hd
  | style hc _ ih =>
    simp only [List.mem_cons, not_or] at hg
    obtain ⟨st', e, hs⟩ := applySgr_code hc st
    rw [e]
    exact ih st' hg.2 (sameOn_trans (hs g hg.1) hd)
  | other ho _ ih =>
    rw [applySgr_simple ho.1 ho.2.1]
    refine ih _ hg ?_
    rcases applyOne_other ho st g with h' | h'
    · exact sameOn_trans h' hd
    · exact h'

/-- C42, also for sequences with resets, codes that switch something off and
unknown codes: the closing sequence puts exactly the groups of the style codes
to default, and an opening and its closing leave a default terminal at
default. -/
theorem C42_codes {ps : Sgr} {gs : List Group} (h : Codes ps gs) :
    (∀ st g, (g ∈ gs → sameOn g (applySgr (Sgr.closing ps) st) {}) ∧
      (g ∉ gs → sameOn g (applySgr (Sgr.closing ps) st) st)) ∧
    applySgr (Sgr.closing ps) (applySgr ps {}) = {} := by
  have e : Sgr.closing ps = gs.map offCode := closingAux_codes h _ (Nat.le_refl _)
  rw [e]
  refine ⟨fun st g => applySgr_offs gs st g, sameOn_all fun g => ?_⟩
  by_cases hg : g ∈ gs
  · exact (applySgr_offs gs _ g).1 hg
  · exact sameOn_trans ((applySgr_offs gs _ g).2 hg) (applySgr_codes h {} g hg (sameOn_refl g _))

example : Codes [0, 31, 99, 22, 1] [.fg, .intensity] ∧ Sgr.closing [0, 31, 99, 22, 1] = [39, 22] := by
  have o : ∀ n, n = 0 ∨ n = 99 ∨ n = 22 → OtherCode n := by
    intro n hn
    refine ⟨by omega, by omega, fun g hg => ?_⟩
    cases hg <;> omega
  exact ⟨.other (o 0 (by simp)) (.style (.fg 31 (by decide)) (.other (o 99 (by simp))
    (.other (o 22 (by simp)) (.style (.intensity 1 (by decide)) .nil)))), by decide⟩

/-! ### C43 -/

theorem Spec.Plain.tail {p : Part} {ps : List Part} (h : Plain (p :: ps)) : Plain ps :=
  ⟨fun s hs => h.texts s (by simp [hs]), fun s hs => h.params s (by simp [hs])⟩

theorem stripSgr_sgr {t : Str} (h : ∀ c ∈ t, ('0' ≤ c ∧ c ≤ '9') ∨ c = ';') (s : Str) :
    stripSgr ('\x1b' :: '[' :: (t ++ ['m']) ++ s) = stripSgr s := by
  rw [List.cons_append, stripSgr_cons]
  have : sgrTail ('\x1b' :: (('[' :: (t ++ ['m'])) ++ s)) = some s := by
    unfold sgrTail
    simp only [List.append_assoc, List.cons_append, List.nil_append]
    rw [sgr_dropWhile (fun c hc => ?_) (by decide)]
    · rfl
    · rcases h c hc with h | rfl
      · simp only [isSgrParam, Char.isDigit, Bool.or_eq_true, Bool.and_eq_true, decide_eq_true_eq]
        exact .inl ⟨h.1, h.2⟩
      · decide
  rw [this]

theorem term_params {t : Str} (h : ∀ c ∈ t, ('0' ≤ c ∧ c ≤ '9') ∨ c = ';') (st : Style) (ps : List Nat) (cur : Nat) :
    ∃ qs, Term.run ⟨.csi ps cur, st⟩ (t ++ ['m']) = (⟨.ground, applySgr qs st⟩, []) := by
  induction t generalizing ps cur with
  | nil => exact ⟨ps ++ [cur], rfl⟩
  | cons c t ih =>
    have ih := ih fun c hc => h c (by simp [hc])
    rcases h c (by simp) with hc | rfl
    · obtain ⟨qs, e⟩ := ih ps (cur * 10 + (c.toNat - 48))
      exact ⟨qs, by simp [Term.run, Term.step, hc, e]⟩
    · obtain ⟨qs, e⟩ := ih (ps ++ [cur]) 0
      refine ⟨qs, ?_⟩
      rw [List.cons_append, Term.run]
      show ((Term.run ⟨.csi (ps ++ [cur]) 0, st⟩ _).1, [] ++ (Term.run ⟨.csi (ps ++ [cur]) 0, st⟩ _).2) = _
      rw [e]
      rfl

theorem term_sgr {t : Str} (h : ∀ c ∈ t, ('0' ≤ c ∧ c ≤ '9') ∨ c = ';') (st : Style) :
    ∃ st', Term.run ⟨.ground, st⟩ ('\x1b' :: '[' :: (t ++ ['m'])) = (⟨.ground, st'⟩, []) := by
  obtain ⟨qs, e⟩ := term_params h st [] 0
  refine ⟨applySgr qs st, ?_⟩
  rw [← e]
  simp [Term.run, Term.step]

theorem stripSgr_parts (ps : List Part) (h : Plain ps) (s : Str) :
    stripSgr (ps.flatMap Part.written ++ s) = ps.flatMap Part.visible ++ stripSgr s := by
  induction ps with
  | nil => rfl
  | cons p ps ih =>
    have ih := ih h.tail
    rw [List.flatMap_cons, List.flatMap_cons, List.append_assoc, List.append_assoc]
    cases p with
    | text t => rw [Part.written, Part.visible, stripSgr_text _ _ (h.texts t (by simp)), ih]
    | sgr q => rw [Part.written, Part.visible, stripSgr_sgr (h.params q (by simp)), ih]; rfl

/-- C43: removal leaves exactly the texts. -/
theorem C43_strip (ps : List Part) (h : Plain ps) :
    stripSgr (ps.flatMap Part.written) = ps.flatMap Part.visible := by
  have := stripSgr_parts ps h []
  simpa [stripSgr_nil] using this

/-- C43: what is removed is invisible: the characters that appear on a terminal are those left. -/
theorem C43_appears (ps : List Part) (h : Plain ps) :
    visible (ps.flatMap Part.written) = stripSgr (ps.flatMap Part.written) := by
  rw [C43_strip ps h]
  unfold visible appears
  have : ∀ st, (Term.run ⟨.ground, st⟩ (ps.flatMap Part.written)).2.map Prod.fst = ps.flatMap Part.visible := by
    induction ps with
    | nil => intro st; rfl
    | cons p ps ih =>
      intro st
      have ih := ih h.tail
      rw [List.flatMap_cons, List.flatMap_cons, term_append]
      cases p with
      | text t =>
        rw [Part.written, Part.visible, term_text _ _ (h.texts t (by simp))]
        simp only [List.map_append, ih, List.map_map]
        congr 1
        exact List.map_id t
      | sgr q =>
        obtain ⟨st', e⟩ := term_sgr (h.params q (by simp)) st
        rw [Part.written, Part.visible, e]
        simp only [List.map_append, ih]; rfl
  exact this {}

theorem pyRepeat_single (f : Char) (n : Int) : pyRepeat [f] n = List.replicate n.toNat f := by
  unfold pyRepeat
  induction n.toNat with
  | zero => rfl
  | succ k ih => rw [List.replicate_succ, List.flatten_cons, ih]; rfl

theorem stripSgr_fill (f : Char) (hf : f ≠ '\x1b') (n : Nat) (s : Str) :
    stripSgr (List.replicate n f ++ s) = List.replicate n f ++ stripSgr s :=
  stripSgr_text _ _ (fun hm => hf (List.eq_of_mem_replicate hm).symm)

/-- C43: padding adds fill characters on the stated side(s) only, until the
visible width is reached; nothing is cut. -/
theorem C43_pad (ps : List Part) (h : Plain ps) (width : Int) (f : Char) (hf : f ≠ '\x1b') :
    let s := ps.flatMap Part.written
    let v := ps.flatMap Part.visible
    ∃ a b c : Nat, (stripSgr (ljustSgr s width f) = v ++ List.replicate a f) ∧
      (stripSgr (rjustSgr s width f) = List.replicate a f ++ v) ∧
      (stripSgr (centerSgr s width f) = List.replicate b f ++ v ++ List.replicate c f) ∧
      ((v.length + a : Nat) : Int) = max width v.length ∧ b + c = a ∧ c ≤ b ∧ b ≤ c + 1 := by
  intro s v
  have hv : stripSgr s = v := C43_strip ps h
  have hr : ∀ n, stripSgr (s ++ List.replicate n f) = v ++ List.replicate n f := by
    intro n
    have := stripSgr_fill f hf n []
    rw [List.append_nil, stripSgr_nil, List.append_nil] at this
    rw [stripSgr_parts ps h, this]
  obtain ⟨a, ha⟩ : ∃ a : Nat, max 0 (width - (v.length : Int)) = a := ⟨(max 0 (width - (v.length : Int))).toNat, by omega⟩
  refine ⟨a, a - a / 2, a / 2, ?_, ?_, ?_, by omega, by omega, by omega, by omega⟩
  · unfold ljustSgr
    rw [hv, ha, pyRepeat_single, hr]; rfl
  · unfold rjustSgr
    rw [hv, ha, pyRepeat_single, stripSgr_fill f hf, hv]; rfl
  · unfold centerSgr
    simp only [hv, ha, pyRepeat_single]
    split
    · have : a = 0 := by omega
      subst this
      simp [hv]
    · have e1 : ((a : Int) / 2).toNat = a / 2 := by omega
      have e2 : ((a : Int) - (a : Int) / 2).toNat = a - a / 2 := by omega
      rw [e1, e2, List.append_assoc, stripSgr_fill f hf, hr, List.append_assoc]

example : Plain [.sgr "1;38;5;;03".toList, .text "ab".toList, .sgr [], .text "[1m".toList] ∧
    stripSgr "\x1b[1mab\x1b[m[1m".toList = "ab[1m".toList ∧
    centerSgr "\x1b[1mab\x1b[m".toList 5 '.' = "..\x1b[1mab\x1b[m.".toList := by
  refine ⟨⟨?_, ?_⟩, by decide, by decide⟩
  · intro s hs
    simp at hs
    rcases hs with rfl | rfl <;> decide
  · intro s hs
    simp at hs
    rcases hs with rfl | rfl <;> decide

end Kolombos
