import Verif.Spec.Color
import Mathlib.Data.List.Induction

set_option linter.unusedSimpArgs false

namespace Kolombos

theorem hexToRgb_eq (h : Nat) : hexToRgb h = (redOf h, greenOf h, blueOf h) := by
  unfold hexToRgb redOf greenOf blueOf
  refine Prod.ext ?_ (Prod.ext ?_ ?_)
  · show (h &&& 0xff0000) >>> 16 = _
    rw [Nat.shiftRight_and_distrib, Nat.shiftRight_eq_div_pow]
    exact Nat.and_two_pow_sub_one_eq_mod _ 8
  · show (h &&& 0xff00) >>> 8 = _
    rw [Nat.shiftRight_and_distrib, Nat.shiftRight_eq_div_pow]
    exact Nat.and_two_pow_sub_one_eq_mod _ 8
  · exact Nat.and_two_pow_sub_one_eq_mod _ 8

theorem distanceSq_eq (a b : Nat) : distanceSq a b = rgbGap a b := by
  unfold distanceSq rgbGap
  simp only [hexToRgb_eq, Int.pow_succ, Int.pow_zero, Int.one_mul]

theorem rgbGap_self (h : Nat) : rgbGap h h = 0 := by simp [rgbGap]

theorem sq_nonneg' (x : Int) : 0 ≤ x * x := by
  rcases Int.le_total 0 x with h | h
  · exact Int.mul_nonneg h h
  · have := Int.mul_nonneg (Int.neg_nonneg_of_nonpos h) (Int.neg_nonneg_of_nonpos h)
    simpa using this

theorem sq_eq_zero' {x : Int} (h : x * x = 0) : x = 0 := by
  rcases Int.mul_eq_zero.mp h with h | h <;> exact h

theorem rgbGap_nonneg (a b : Nat) : 0 ≤ rgbGap a b := by
  unfold rgbGap
  have := sq_nonneg' ((redOf a : Int) - redOf b)
  have := sq_nonneg' ((greenOf a : Int) - greenOf b)
  have := sq_nonneg' ((blueOf a : Int) - blueOf b)
  omega

/-- Distinct 24-bit colours have a distance. -/
theorem rgbGap_eq_zero {a b : Nat} (ha : a < 16777216) (hb : b < 16777216)
    (h : rgbGap a b ≤ 0) : a = b := by
  unfold rgbGap at h
  have h1 := sq_nonneg' ((redOf a : Int) - redOf b)
  have h2 := sq_nonneg' ((greenOf a : Int) - greenOf b)
  have h3 := sq_nonneg' ((blueOf a : Int) - blueOf b)
  have e1 := sq_eq_zero' (x := (redOf a : Int) - redOf b) (by omega)
  have e2 := sq_eq_zero' (x := (greenOf a : Int) - greenOf b) (by omega)
  have e3 := sq_eq_zero' (x := (blueOf a : Int) - blueOf b) (by omega)
  unfold redOf greenOf blueOf at *
  omega

/-! ### nearest entries -/

theorem nearest_mem {l : List (Nat × IxColor)} {h : Nat} {e : Nat × IxColor}
    (n : Nearest l h e) : e ∈ l := by
  obtain ⟨b, a, rfl, -, -⟩ := n
  simp

theorem nearest_le {l : List (Nat × IxColor)} {h : Nat} {e : Nat × IxColor}
    (n : Nearest l h e) : ∀ d ∈ l, rgbGap e.1 h ≤ rgbGap d.1 h := by
  obtain ⟨b, a, rfl, h1, h2⟩ := n
  intro d hd
  rcases List.mem_append.mp hd with hd | hd
  · exact Int.le_of_lt (h1 d hd)
  · rcases List.mem_cons.mp hd with rfl | hd
    · exact Int.le_refl _
    · exact h2 d hd

theorem nearest_snoc {l : List (Nat × IxColor)} {h : Nat} {x e : Nat × IxColor} :
    Nearest (l ++ [x]) h e ↔
      (Nearest l h e ∧ rgbGap e.1 h ≤ rgbGap x.1 h)
        ∨ (e = x ∧ ∀ d ∈ l, rgbGap x.1 h < rgbGap d.1 h) := by
  constructor
  · rintro ⟨b, a, heq, h1, h2⟩
    rcases List.eq_nil_or_concat a with rfl | ⟨a', y, rfl⟩
    · right
      have := List.append_inj' heq rfl
      obtain ⟨rfl, he⟩ := this
      simp at he
      subst he
      exact ⟨rfl, h1⟩
    · left
      have heq' : l ++ [x] = (b ++ e :: a') ++ [y] := by simpa using heq
      obtain ⟨rfl, hy⟩ := List.append_inj' heq' rfl
      simp at hy
      subst hy
      exact ⟨⟨b, a', rfl, h1, fun d hd => h2 d (by simp [hd])⟩, h2 x (by simp)⟩
  · rintro (⟨⟨b, a, rfl, h1, h2⟩, h3⟩ | ⟨rfl, h1⟩)
    · refine ⟨b, a ++ [x], by simp, h1, fun d hd => ?_⟩
      rcases List.mem_append.mp hd with hd | hd
      · exact h2 d hd
      · simp at hd; subst hd; exact h3
    · exact ⟨l, [], rfl, h1, by simp⟩

theorem nearest_unique {l : List (Nat × IxColor)} {h : Nat} {e e' : Nat × IxColor}
    (n : Nearest l h e) (n' : Nearest l h e') : e = e' := by
  induction l using List.reverseRecOn with
  | nil => obtain ⟨b, a, heq, -⟩ := n; simp at heq
  | append_singleton l x ih =>
    rcases nearest_snoc.mp n with ⟨m, g⟩ | ⟨rfl, g⟩
    · rcases nearest_snoc.mp n' with ⟨m', g'⟩ | ⟨rfl, g'⟩
      · exact ih m m'
      · have := g' e (nearest_mem m); omega
    · rcases nearest_snoc.mp n' with ⟨m', g'⟩ | ⟨rfl, g'⟩
      · have := g e' (nearest_mem m'); omega
      · rfl

theorem insertBy_head {α : Type} (key : α → Int) (x : α) (l : List α) :
    (insertBy key x l).head? = some (match l with
      | [] => x
      | y :: _ => if key x ≤ key y then x else y) := by
  cases l with
  | nil => rfl
  | cons y ys => simp only [insertBy]; split <;> rfl

theorem sortedBy_ne {α : Type} (key : α → Int) (x : α) (l : List α) :
    sortedBy key (x :: l) ≠ [] := by
  intro h
  have := insertBy_head key x (sortedBy key l)
  simp only [sortedBy] at h
  rw [h] at this
  simp at this

/-- The entry that sorting puts first is the nearest one. -/
theorem sort_head (h : Nat) (l : List (Nat × IxColor)) :
    ∀ x, (sortedBy (fun r => r.2) (l.map (fun e => (e.2, distanceSq e.1 h)))).head? = some x →
      ∃ k, Nearest l h (k, x.1) ∧ x.2 = rgbGap k h := by
  induction l with
  | nil => intro x hx; simp [sortedBy] at hx
  | cons a l ih =>
    intro x hx
    simp only [List.map_cons, sortedBy] at hx
    rw [insertBy_head] at hx
    cases hl : sortedBy (fun r : IxColor × Int => r.2)
        (l.map (fun e => (e.2, distanceSq e.1 h))) with
    | nil =>
      rw [hl] at hx
      simp at hx
      subst hx
      cases l with
      | nil => exact ⟨a.1, ⟨[], [], rfl, by simp, by simp⟩, distanceSq_eq _ _⟩
      | cons b l => exact absurd hl (sortedBy_ne _ _ _)
    | cons y ys =>
      obtain ⟨k, n, hk⟩ := ih y (by rw [hl]; rfl)
      rw [hl] at hx
      simp only [distanceSq_eq, Option.some.injEq] at hx
      by_cases hle : rgbGap a.1 h ≤ y.2
      · rw [if_pos hle] at hx
        subst hx
        refine ⟨a.1, ⟨[], l, rfl, by simp, fun d hd => ?_⟩, rfl⟩
        have := nearest_le n d hd
        simp only at this ⊢
        omega
      · rw [if_neg hle] at hx
        subst hx
        obtain ⟨b, c, rfl, h1, h2⟩ := n
        refine ⟨k, ⟨a :: b, c, rfl, fun d hd => ?_, h2⟩, hk⟩
        rcases List.mem_cons.mp hd with rfl | hd
        · simp only; omega
        · exact h1 d hd

theorem approximate_one (a : Approximator) (h : Nat) (hne : a.table ≠ []) :
    ∃ e, Nearest a.table h e ∧ a.approximate h 1 = some [e.2] := by
  unfold Approximator.approximate
  simp only [List.length_map]
  have : a.table.length ≠ 0 := by simpa using hne
  rw [if_neg this]
  cases hs : sortedBy (fun r : IxColor × Int => r.2)
      (a.table.map (fun e => (e.2, distanceSq e.1 h))) with
  | nil =>
    cases ht : a.table with
    | nil => exact absurd ht hne
    | cons b l => rw [ht] at hs; exact absurd hs (sortedBy_ne _ _ _)
  | cons x xs =>
    obtain ⟨k, n, -⟩ := sort_head h a.table x (by rw [hs]; rfl)
    exact ⟨(k, x.1), n, by simp⟩

/-! ### dictionaries -/

theorem dictGet_some {d : List (Nat × IxColor)} {k : Nat} {c : IxColor}
    (h : dictGet d k = some c) : (k, c) ∈ d := by
  unfold dictGet at h
  cases hf : d.find? (fun e => e.1 == k) with
  | none => rw [hf] at h; simp at h
  | some e =>
    rw [hf] at h
    simp at h
    have h1 := List.mem_of_find?_eq_some hf
    have h2 := List.find?_some hf
    simp at h2
    obtain ⟨k', c'⟩ := e
    simp at h h2
    subst h h2
    exact h1

theorem dictGet_none {d : List (Nat × IxColor)} {k : Nat} (h : dictGet d k = none) :
    ∀ e ∈ d, e.1 ≠ k := by
  unfold dictGet at h
  simp [Option.map_eq_none_iff, List.find?_eq_none] at h
  intro e he hk
  exact h e.1 e.2 he hk

theorem mem_dictSet {d : List (Nat × IxColor)} {k : Nat} {c : IxColor} {e : Nat × IxColor}
    (h : e ∈ dictSet d k c) : e ∈ d ∨ e = (k, c) := by
  unfold dictSet at h
  split at h
  · obtain ⟨x, hx, rfl⟩ := List.mem_map.mp h
    by_cases hk : (x.1 == k) = true
    · rw [if_pos hk]; exact Or.inr rfl
    · rw [if_neg hk]; exact Or.inl hx
  · rcases List.mem_append.mp h with h | h
    · exact Or.inl h
    · exact Or.inr (by simpa using h)

/-! ### histories -/

theorem created_snoc_search (ops : List ColorOp) (h : Nat) :
    created (ops ++ [.search h]) = created ops := by
  induction ops with
  | nil => rfl
  | cons o ops ih =>
    cases o with
    | search g => simpa [created] using ih
    | create c => simp only [List.cons_append, created, ih]

theorem created_append (a b : List ColorOp) : created (a ++ b) = created a ++ created b := by
  induction a with
  | nil => rfl
  | cons o a ih =>
    cases o with
    | search g => simpa [created] using ih
    | create c =>
      simp only [List.cons_append, created, ih]
      split <;> simp

/-- What holds of the object after any history: the table has the colours of
the history as far as searching is concerned, and cached answers are right. -/
structure ColorInv (reg : List (Nat × IxColor)) (a : Approximator) : Prop where
  keys : ∀ e ∈ a.table, e ∈ reg
  same : ∀ e ∈ reg, ∃ c, (e.1, c) ∈ a.table
  near : ∀ h e, Nearest a.table h e ↔ Nearest reg h e
  empty : a.table = [] → a.cache = []
  once : ∀ k c c', (k, c) ∈ a.table → (k, c') ∈ a.table → c = c'
  cached : ∀ k c, (k, c) ∈ a.cache → k < 16777216 → ∃ g, Nearest a.table k (g, c)

theorem inv_init : ColorInv [] {} := by
  refine ⟨by simp, by simp, fun _ _ => Iff.rfl, fun _ => rfl, by simp, by simp⟩

theorem inv_add {reg : List (Nat × IxColor)} {a : Approximator} (i : ColorInv reg a)
    (c : IxColor) :
    ColorInv (reg ++ created [.create c]) (a.addToMap c) := by
  unfold Approximator.addToMap
  cases hc : c.hex with
  | none => simpa [created, hc] using i
  | some h =>
    simp only [created, hc]
    by_cases hin : (dictGet a.table h).isSome = true
    · rw [if_pos hin]
      obtain ⟨c', hc'⟩ := Option.isSome_iff_exists.mp hin
      have hmem := dictGet_some hc'
      refine ⟨fun e he => List.mem_append.mpr (Or.inl (i.keys e he)), ?_, ?_, i.empty, i.once,
        i.cached⟩
      · intro e he
        rcases List.mem_append.mp he with he | he
        · exact i.same e he
        · simp at he; subst he; exact ⟨c', hmem⟩
      · intro k e
        rw [i.near, nearest_snoc]
        constructor
        · intro n
          exact Or.inl ⟨n, nearest_le n (h, c') (i.keys _ hmem)⟩
        · rintro (⟨n, -⟩ | ⟨-, n⟩)
          · exact n
          · have := n (h, c') (i.keys _ hmem)
            exact absurd this (Int.lt_irrefl _)
    · rw [if_neg hin]
      have hnone : dictGet a.table h = none := by simpa using hin
      have hset : dictSet a.table h c = a.table ++ [(h, c)] := by
        unfold dictSet; rw [if_neg hin]
      simp only [hset]
      refine ⟨?_, ?_, ?_, by simp, ?_, by simp⟩
      · intro e he
        rcases List.mem_append.mp he with he | he
        · exact List.mem_append.mpr (Or.inl (i.keys e he))
        · exact List.mem_append.mpr (Or.inr he)
      · intro e he
        rcases List.mem_append.mp he with he | he
        · obtain ⟨c', h'⟩ := i.same e he
          exact ⟨c', List.mem_append.mpr (Or.inl h')⟩
        · simp at he; subst he; exact ⟨c, by simp⟩
      · intro k e
        rw [nearest_snoc, nearest_snoc, i.near]
        constructor
        · rintro (n | ⟨rfl, n⟩)
          · exact Or.inl n
          · refine Or.inr ⟨rfl, fun d hd => ?_⟩
            obtain ⟨c', h'⟩ := i.same d hd
            exact n (d.1, c') h'
        · rintro (n | ⟨rfl, n⟩)
          · exact Or.inl n
          · exact Or.inr ⟨rfl, fun d hd => n d (i.keys d hd)⟩
      · intro k c1 c2 h1 h2
        have nk := dictGet_none hnone
        rcases List.mem_append.mp h1 with m1 | m1
        · rcases List.mem_append.mp h2 with m2 | m2
          · exact i.once k c1 c2 m1 m2
          · simp at m2; obtain ⟨rfl, rfl⟩ := m2
            exact absurd rfl (nk (k, c1) m1)
        · simp at m1; obtain ⟨rfl, rfl⟩ := m1
          rcases List.mem_append.mp h2 with m2 | m2
          · exact absurd rfl (nk (k, c2) m2)
          · simp at m2; exact m2.symm

/-- A registered 24-bit colour is the nearest one to itself. -/
theorem nearest_self {a : Approximator} (w : ∀ e ∈ a.table, e.1 < 16777216)
    (once : ∀ k c c', (k, c) ∈ a.table → (k, c') ∈ a.table → c = c')
    {k : Nat} {c : IxColor} (h : (k, c) ∈ a.table) : ∃ g, Nearest a.table k (g, c) := by
  obtain ⟨⟨k', c'⟩, n, -⟩ := approximate_one a k (List.ne_nil_of_mem h)
  have hle := nearest_le n _ h
  simp only [rgbGap_self] at hle
  have := rgbGap_eq_zero (w _ (nearest_mem n)) (w _ h) hle
  simp only at this
  subst this
  have := once _ _ _ h (nearest_mem n)
  subst this
  exact ⟨_, n⟩

theorem inv_find {reg : List (Nat × IxColor)} {a : Approximator} (i : ColorInv reg a)
    (w : ∀ e ∈ reg, e.1 < 16777216) (h : Nat) :
    ∃ c a', a.findClosest h = some (c, a') ∧ ColorInv reg a' ∧ a'.table = a.table
      ∧ (reg = [] → c = noopColor)
      ∧ (reg ≠ [] → h < 16777216 → ∃ g, Nearest reg h (g, c)) := by
  have w' : ∀ e ∈ a.table, e.1 < 16777216 := fun e he => w e (i.keys e he)
  have hreg : a.table = [] → reg = [] := by
    intro ht
    cases reg with
    | nil => rfl
    | cons e r => obtain ⟨c, hc⟩ := i.same e (by simp); rw [ht] at hc; simp at hc
  unfold Approximator.findClosest
  cases hg : dictGet a.cache h with
  | some c =>
    refine ⟨c, a, rfl, i, rfl, ?_, ?_⟩
    · intro hr
      have : a.table = [] := by
        cases ht : a.table with
        | nil => rfl
        | cons e r => have := i.keys e (by rw [ht]; simp); rw [hr] at this; simp at this
      rw [i.empty this] at hg
      simp [dictGet] at hg
    · intro _ hh
      obtain ⟨g, n⟩ := i.cached h c (dictGet_some hg) hh
      exact ⟨g, (i.near _ _).mp n⟩
  | none =>
    simp only
    have j : ∀ b : Approximator,
        b = (if a.cache.length = 0 then { a with cache := a.table } else a) →
        b.table = a.table ∧ ColorInv reg b ∧ (b.cache.length = 0 → a.table = []) := by
      intro b hb
      by_cases hz : a.cache.length = 0
      · rw [if_pos hz] at hb
        subst hb
        refine ⟨rfl, ⟨i.keys, i.same, i.near, fun ht => ht, i.once, ?_⟩, by simp⟩
        intro k c hk _
        exact nearest_self w' i.once hk
      · rw [if_neg hz] at hb
        subst hb
        exact ⟨rfl, i, fun hz' => absurd hz' hz⟩
    generalize hb : (if a.cache.length = 0 then { a with cache := a.table } else a) = b
    obtain ⟨ht, ib, hz⟩ := j b hb.symm
    by_cases hl : b.cache.length = 0
    · rw [if_pos hl]
      have := hreg (hz hl)
      exact ⟨noopColor, b, rfl, ib, ht, fun _ => rfl, fun hne => absurd this hne⟩
    · rw [if_neg hl]
      have hne : b.table ≠ [] := by
        intro hbt
        have := ib.empty hbt
        rw [this] at hl
        simp at hl
      obtain ⟨e, n, he⟩ := approximate_one b h hne
      rw [he]
      refine ⟨e.2, _, rfl, ⟨ib.keys, ib.same, ib.near, fun h' => absurd h' hne, ib.once, ?_⟩,
        ht, ?_, ?_⟩
      · intro k c hk hk24
        rcases mem_dictSet hk with hk | hk
        · exact ib.cached k c hk hk24
        · injection hk with h1 h2
          subst h1 h2
          exact ⟨e.1, n⟩
      · intro hr
        have := ib.keys e (nearest_mem n)
        rw [hr] at this
        simp at this
      · intro _ _
        exact ⟨e.1, (ib.near _ _).mp n⟩

theorem colorRun_inv (ops : List ColorOp) {reg : List (Nat × IxColor)} {a : Approximator}
    (i : ColorInv reg a) (w : ∀ e ∈ reg ++ created ops, e.1 < 16777216) :
    ∃ a', colorRun a ops = some a' ∧ ColorInv (reg ++ created ops) a' := by
  induction ops generalizing reg a with
  | nil => exact ⟨a, rfl, by simpa [created] using i⟩
  | cons o ops ih =>
    cases o with
    | create c =>
      have e : created (ColorOp.create c :: ops) = created [.create c] ++ created ops :=
        created_append [.create c] ops
      rw [e, ← List.append_assoc] at w ⊢
      exact ih (inv_add i c) w
    | search h =>
      obtain ⟨c, a', h1, h2, -⟩ := inv_find i
        (fun e he => w e (List.mem_append.mpr (Or.inl he))) h
      simp only [colorRun, h1]
      exact ih h2 w

end Kolombos
