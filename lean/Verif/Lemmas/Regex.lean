import Verif.Model.Parser
/-
Facts about the backtracking matcher.
-/
namespace Kolombos

variable {α : Type}

theorem starRun_cls (p : α → Bool) (n : Nat) (s : List α) (c : Caps α) (h : s.length ≤ n) :
    starRun (fun s c => (Re.cls p).run s c) n s c =
      ((List.range ((s.takeWhile p).length + 1)).reverse.map fun i => (s.drop i, c)) := by
  induction n generalizing s with
  | zero =>
    cases s with
    | nil => simp [starRun]
    | cons a s => simp at h
  | succ n ih =>
    cases s with
    | nil => simp [starRun, Re.run]
    | cons a s =>
      by_cases hp : p a = true
      · have := ih s (by simpa using h)
        simp only [starRun, Re.run, hp, if_true, List.flatMap_cons, List.flatMap_nil, List.append_nil,
          List.length_cons, Nat.lt_succ_self, this, List.takeWhile_cons_of_pos]
        rw [List.range_succ_eq_map (n := (s.takeWhile p).length + 1)]
        simp [Function.comp_def]
      · simp [starRun, Re.run, hp]

theorem star_cls_run (p : α → Bool) (s : List α) (c : Caps α) :
    (Re.star (.cls p)).run s c =
      ((List.range ((s.takeWhile p).length + 1)).reverse.map fun i => (s.drop i, c)) := by
  simp only [Re.run]
  exact starRun_cls p _ s c (Nat.le_refl _)

theorem drop_takeWhile_length (p : α → Bool) (s : List α) :
    s.drop (s.takeWhile p).length = s.dropWhile p := by
  induction s with
  | nil => simp
  | cons a s ih => by_cases h : p a = true <;> simp [h, ih]

theorem take_takeWhile_length (p : α → Bool) (s : List α) :
    s.take (s.takeWhile p).length = s.takeWhile p := by
  induction s with
  | nil => simp
  | cons a s ih => by_cases h : p a = true <;> simp [h, ih]

theorem drop_lt_takeWhile (p : α → Bool) (s : List α) (i : Nat) (h : i < (s.takeWhile p).length) :
    ∃ a t, s.drop i = a :: t ∧ p a = true := by
  induction s generalizing i with
  | nil => simp at h
  | cons a s ih =>
    by_cases hp : p a = true
    · cases i with
      | zero => exact ⟨a, s, by simp, hp⟩
      | succ i => simp [hp] at h; simpa using ih i h
    · simp [hp] at h

/-- The preferred match of `p*` takes all of the run. -/
theorem star_cls_run_cons (p : α → Bool) (s : List α) (c : Caps α) :
    (Re.star (.cls p)).run s c = (s.dropWhile p, c) ::
      ((List.range (s.takeWhile p).length).reverse.map fun i => (s.drop i, c)) := by
  rw [star_cls_run, List.range_succ]
  simp [drop_takeWhile_length]

/-- If what follows `p*` cannot start with a `p`, backtracking is of no use. -/
theorem star_cls_flatMap {β : Type} (p : α → Bool) (s : List α) (c : Caps α)
    (k : List α × Caps α → List β)
    (hk : ∀ a t, p a = true → k (a :: t, c) = []) :
    ((Re.star (.cls p)).run s c).flatMap k = k (s.dropWhile p, c) := by
  rw [star_cls_run_cons, List.flatMap_cons]
  rw [List.flatMap_eq_nil_iff.2 _, List.append_nil]
  intro x hx
  simp only [List.mem_map, List.mem_reverse, List.mem_range] at hx
  obtain ⟨i, hi, rfl⟩ := hx
  obtain ⟨a, t, h1, h2⟩ := drop_lt_takeWhile p s i hi
  simp only [h1]
  exact hk a t h2

theorem take_length_dropWhile (p : α → Bool) (s : List α) :
    s.take (s.length - (s.dropWhile p).length) = s.takeWhile p := by
  have h : s.length = (s.takeWhile p).length + (s.dropWhile p).length := by
    have := congrArg List.length (List.takeWhile_append_dropWhile (p := p) (l := s))
    simp only [List.length_append] at this
    exact this.symm
  rw [h, Nat.add_sub_cancel, take_takeWhile_length]

/-- The same for a captured repetition. -/
theorem grp_star_cls_flatMap {β : Type} (n : Nat) (p : α → Bool) (s : List α) (c : Caps α)
    (k : List α × Caps α → List β)
    (hk : ∀ a t c, p a = true → k (a :: t, c) = []) :
    ((Re.grp n (.star (.cls p))).run s c).flatMap k = k (s.dropWhile p, (n, s.takeWhile p) :: c) := by
  rw [Re.run, List.flatMap_map, star_cls_flatMap p s c (fun r => k (r.1, (n, _) :: r.2))]
  · simp only [take_length_dropWhile]
  · intro a t h; exact hk a t _ h

end Kolombos
