/-
C48: distributing values over a line.
-/
import Verif.Model.Pad

set_option linter.unusedSimpArgs false

namespace Kolombos

/-- `n` spaces. -/
def blanks (n : Nat) : Str := List.replicate n ' '

/-- The values in order, each but the last followed by the corresponding number
of spaces. -/
def spaced : List Str → List Nat → Str
  | [], _ => []
  | [v], _ => v
  | v :: vs, n :: ns => v ++ blanks n ++ spaced vs ns
  | v :: vs, [] => v ++ spaced vs []

/-- The values as they are laid out: with an empty one for each padded side. -/
def padded (values : List Str) (before after : Bool) : List Str :=
  (if before then [[]] else []) ++ values ++ (if after then [[]] else [])

/-- The total length of the values. -/
def textLen : List Str → Nat
  | [] => 0
  | v :: vs => v.length + textLen vs

theorem textLen_eq (l : List Str) : (l.map List.length).sum = textLen l := by
  induction l with
  | nil => rfl
  | cons v vs ih => simp [textLen, ih]

theorem pyRepeat_blanks (n : Int) : pyRepeat [' '] n = blanks n.toNat := by
  unfold pyRepeat blanks
  generalize n.toNat = k
  induction k with
  | zero => rfl
  | succ k ih => rw [List.replicate_succ, List.flatten_cons, ih]; rfl

/-- The loop on two or more values: the spaces are all used, every gap has the
rounded down or the rounded up share. -/
theorem padLoop_spaced (v : Str) (vs : List Str) (g s : Nat) (hg : g = vs.length)
    (hs : g ≤ s) (h1 : 1 ≤ g) :
    ∃ ns : List Nat, ns.length = g ∧ ns.sum = s ∧ (∀ n ∈ ns, s / g ≤ n ∧ n ≤ (s + g - 1) / g)
      ∧ padLoop (v :: vs) g s = spaced (v :: vs) ns := by
  induction vs generalizing v g s with
  | nil => simp at hg; omega
  | cons w ws ih =>
    have hz : ¬ ((g : Int) = 0) := by omega
    have hgap : ((s : Int) / (g : Int)) = ((s / g : Nat) : Int) := by simp
    have hle : s / g ≤ s := Nat.div_le_self _ _
    have hmul : s / g * g ≤ s := Nat.div_mul_le_self s g
    unfold padLoop
    simp only [if_neg hz, hgap]
    rw [pyRepeat_blanks]
    simp only [Int.toNat_natCast]
    rw [show (g : Int) - 1 = ((g - 1 : Nat) : Int) by omega,
      show (s : Int) - ((s / g : Nat) : Int) = ((s - s / g : Nat) : Int) by omega]
    by_cases hg1 : g = 1
    · have hws : ws = [] := by
        simp at hg; exact List.length_eq_zero_iff.mp (by omega)
      subst hws hg1
      refine ⟨[s], rfl, by simp, by simp, ?_⟩
      simp [padLoop, spaced, pyRepeat_blanks, blanks]
    · have hge : 1 ≤ s / g := Nat.div_pos hs (by omega)
      have hs' : g - 1 ≤ s - s / g := by
        have : g - 1 ≤ (s / g) * (g - 1) := Nat.le_mul_of_pos_left _ hge
        have e : (s / g) * (g - 1) = s / g * g - s / g := by
          rw [Nat.mul_sub]; omega
        omega
      obtain ⟨ns, l1, l2, l3, l4⟩ := ih w (g - 1) (s - s / g) (by simp at hg; omega) hs' (by omega)
      rw [l4]
      refine ⟨s / g :: ns, by simp [l1]; omega, by simp [l2]; omega, ?_, ?_⟩
      · obtain ⟨q, r, hq, hr, he⟩ : ∃ q r, s / g = q ∧ r < g ∧ s = q * g + r :=
          ⟨s / g, s % g, rfl, Nat.mod_lt _ (by omega), by
            have := Nat.div_add_mod s g; rw [Nat.mul_comm] at this; exact this.symm⟩
        rw [hq] at l3 ⊢
        have hP : q * g = q * (g - 1) + q := by
          obtain ⟨k, rfl⟩ : ∃ k, g = k + 1 := ⟨g - 1, by omega⟩
          simp [Nat.mul_add]
        have h1' : (q + 1) * (g - 1) = q * (g - 1) + (g - 1) := by rw [Nat.add_mul]; omega
        have h2' : (q + 2) * (g - 1) = q * (g - 1) + 2 * (g - 1) := by rw [Nat.add_mul]
        have hlow : q ≤ (s - q) / (g - 1) := by
          rw [Nat.le_div_iff_mul_le (by omega)]
          omega
        have hup : (s - q + (g - 1) - 1) / (g - 1) ≤ (s + g - 1) / g := by
          by_cases h0 : r = 0
          · have a1 : (s - q + (g - 1) - 1) / (g - 1) < q + 1 := by
              rw [Nat.div_lt_iff_lt_mul (by omega)]; omega
            have a2 : q ≤ (s + g - 1) / g := by
              rw [Nat.le_div_iff_mul_le (by omega)]; omega
            omega
          · have a1 : (s - q + (g - 1) - 1) / (g - 1) < q + 2 := by
              rw [Nat.div_lt_iff_lt_mul (by omega)]; omega
            have a2 : q + 1 ≤ (s + g - 1) / g := by
              rw [Nat.le_div_iff_mul_le (by omega), Nat.add_mul]; omega
            omega
        intro n hn
        rcases List.mem_cons.mp hn with rfl | hn
        · refine ⟨Nat.le_refl _, ?_⟩
          rw [Nat.le_div_iff_mul_le (by omega)]; omega
        · have := l3 n hn
          omega
      · cases ns with
        | nil => simp at l1; omega
        | cons n ns => simp [spaced]

theorem spaced_length (vs : List Str) (ns : List Nat) (h : ns.length + 1 = vs.length) :
    (spaced vs ns).length = textLen vs + ns.sum := by
  induction vs generalizing ns with
  | nil => simp at h
  | cons v vs ih =>
    cases vs with
    | nil => simp at h; subst h; simp [spaced, textLen]
    | cons w ws =>
      cases ns with
      | nil => simp at h
      | cons n ns =>
        simp only [spaced, List.length_append, textLen, List.sum_cons, blanks,
          List.length_replicate]
        rw [ih ns (by simpa using h)]
        simp only [textLen]
        omega

theorem distributePadded_eq (values : List Str) (maxLen : Int) (before after : Bool) :
    distributePadded values maxLen before after
      = if maxLen - textLen (padded values before after)
            < ((padded values before after).length : Int) - 1 then .error .valueError
        else .ok (padLoop (padded values before after)
          (((padded values before after).length : Int) - 1)
          (maxLen - textLen (padded values before after))) := by
  have e : (if after then (if before then [] :: values else values) ++ [[]]
      else (if before then [] :: values else values)) = padded values before after := by
    unfold padded; cases before <;> cases after <;> simp
  unfold distributePadded
  simp only [e, textLen_eq]

/-- C48.  The call succeeds exactly if the width has room for all characters
and one space per gap.  Padding a side counts as one more gap there. -/
theorem C48_fits (values : List Str) (maxLen : Int) (before after : Bool) (hne : values ≠ []) :
    (∃ r, distributePadded values maxLen before after = .ok r)
      ↔ (textLen values + (values.length - 1) + before.toNat + after.toNat : Nat) ≤ maxLen := by
  have hl : 1 ≤ values.length := List.length_pos_iff.mpr hne
  have h1 : (padded values before after).length = values.length + before.toNat + after.toNat := by
    unfold padded; cases before <;> cases after <;> simp <;> omega
  have h2 : textLen (padded values before after) = textLen values := by
    rw [← textLen_eq, ← textLen_eq]
    unfold padded; cases before <;> cases after <;> simp
  rw [distributePadded_eq, h1, h2]
  constructor
  · rintro ⟨r, hr⟩
    split at hr
    · simp at hr
    · omega
  · intro h
    rw [if_neg (by omega)]
    exact ⟨_, rfl⟩

/-- C48.  The result has exactly the asked width and consists of the values in
order with at least one space between neighbours; the gaps differ by at most
one space.  A padded side counts as an empty value. -/
theorem C48_layout (values : List Str) (maxLen : Int) (before after : Bool) (r : Str)
    (h2 : 2 ≤ (padded values before after).length)
    (h : distributePadded values maxLen before after = .ok r) :
    (r.length : Int) = maxLen ∧ ∃ ns : List Nat, ∃ q : Nat,
      r = spaced (padded values before after) ns
      ∧ ns.length + 1 = (padded values before after).length
      ∧ ∀ n ∈ ns, 1 ≤ n ∧ q ≤ n ∧ n ≤ q + 1 := by
  rw [distributePadded_eq] at h
  split at h
  · simp at h
  · rename_i hn
    generalize padded values before after = l at *
    cases l with
    | nil => simp at h2
    | cons v vs =>
      obtain ⟨g, hg⟩ : ∃ g, g = vs.length := ⟨_, rfl⟩
      obtain ⟨s, hs⟩ : ∃ s : Nat, (s : Int) = maxLen - textLen (v :: vs) :=
        ⟨(maxLen - textLen (v :: vs)).toNat, by simp at h2 hn; omega⟩
      simp only [List.length_cons] at h hn h2
      rw [← hs] at h hn
      rw [show ((vs.length + 1 : Nat) : Int) - 1 = (g : Int) by omega] at h hn
      obtain ⟨ns, l1, l2, l3, l4⟩ := padLoop_spaced v vs g s hg (by omega) (by omega)
      rw [l4] at h
      injection h with h
      subst h
      have hlen := spaced_length (v :: vs) ns (by simp; omega)
      refine ⟨by rw [hlen]; omega, ns, s / g, rfl, by simp; omega, fun n hn => ?_⟩
      obtain ⟨a, b⟩ := l3 n hn
      have c1 : 1 ≤ s / g := Nat.div_pos (by omega) (by omega)
      have c2 : (s + g - 1) / g ≤ s / g + 1 := by
        have : (s + g - 1) / g ≤ (s + g) / g := Nat.div_le_div_right (by omega)
        rw [Nat.add_div_right _ (by omega)] at this
        exact this
      omega

/-- C48.  A single value without padded sides is followed by all the spaces. -/
theorem C48_single (v : Str) (maxLen : Int) (r : Str)
    (h : distributePadded [v] maxLen false false = .ok r) :
    (r.length : Int) = maxLen ∧ r = v ++ blanks (maxLen.toNat - v.length) := by
  rw [distributePadded_eq] at h
  split at h
  · simp at h
  · rename_i hn
    simp [padded, textLen] at h hn
    subst h
    simp only [padLoop, if_true, pyRepeat_blanks, List.append_nil, blanks, List.length_append,
      List.length_replicate, Int.ediv_one]
    refine ⟨by omega, ?_⟩
    rw [show (maxLen - (v.length : Int)).toNat = maxLen.toNat - v.length by omega]

example : distributePadded ["ab".toList, "c".toList, "de".toList] 12 false false
    = .ok "ab   c    de".toList := by rfl

example : distributePadded ["ab".toList, "c".toList] 9 true true = .ok "  ab  c  ".toList := by
  rfl

example : distributePadded ["ab".toList, "c".toList] 3 false false = .error .valueError := by
  rfl

end Kolombos
