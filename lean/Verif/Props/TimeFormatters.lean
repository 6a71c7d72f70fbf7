/-
C121 (own formatters of time intervals).
-/
import Verif.Spec.TimeFormatters
import Verif.Props.TimeDelta

set_option linter.unusedSimpArgs false

namespace Kolombos
open Spec

/-- The dictionary: for every length the last formatter of this length. -/
structure RegOf (fs : List TimeFormatter) (reg : List (Nat × TimeFormatter)) : Prop where
  keys : ∀ k, k ∈ reg.map (·.1) ↔ ∃ g ∈ fs, g.maxLen = some k
  get : ∀ k f, (k, f) ∈ reg → f.maxLen = some k ∧ ∃ a b, fs = a ++ f :: b ∧ ∀ g ∈ b, g.maxLen ≠ some k

theorem regOf_step {fs : List TimeFormatter} {reg : List (Nat × TimeFormatter)} (h : RegOf fs reg) (f : TimeFormatter) (n : Nat)
    (hn : f.maxLen = some n) : ∃ reg', registerTime reg f = some reg' ∧ RegOf (fs ++ [f]) reg' := by
  have hold : ∀ k g, (k, g) ∈ reg → k ≠ n → g.maxLen = some k ∧ ∃ a b, fs ++ [f] = a ++ g :: b ∧ ∀ x ∈ b, x.maxLen ≠ some k := by
    intro k g hk hne
    obtain ⟨h1, a, b, h2, h3⟩ := h.get k g hk
    refine ⟨h1, a, b ++ [f], by simp [h2], fun x hx => ?_⟩
    rcases List.mem_append.mp hx with hx | hx
    · exact h3 x hx
    · rw [List.mem_singleton.mp hx, hn]
      exact fun e => hne (Option.some.inj e).symm
  have hnew : f.maxLen = some n ∧ ∃ a b, fs ++ [f] = a ++ f :: b ∧ ∀ x ∈ b, x.maxLen ≠ some n :=
    ⟨hn, fs, [], by simp, by simp⟩
  unfold registerTime
  rw [hn]
  simp only
  by_cases ha : reg.any (fun e => e.1 == n) = true
  · rw [if_pos ha]
    refine ⟨_, rfl, fun k => ?_, fun k g hk => ?_⟩
    · have hk : ((reg.map fun e => if e.1 == n then (n, f) else e).map (·.1)) = reg.map (·.1) := by
        rw [List.map_map]
        refine List.map_congr_left fun e _ => ?_
        simp only [Function.comp]
        by_cases he : e.1 = n <;> simp [he]
      rw [hk, h.keys]
      constructor
      · rintro ⟨g, hg, e⟩
        exact ⟨g, by simp [hg], e⟩
      · rintro ⟨g, hg, e⟩
        rcases List.mem_append.mp hg with hg | hg
        · exact ⟨g, hg, e⟩
        · rw [List.mem_singleton.mp hg, hn] at e
          cases e
          rw [List.any_eq_true] at ha
          obtain ⟨x, hx, hxn⟩ := ha
          refine (h.keys n).mp ?_
          rw [List.mem_map]
          exact ⟨x, hx, by simpa using hxn⟩
    · rw [List.mem_map] at hk
      obtain ⟨e, he, hk⟩ := hk
      by_cases hen : e.1 = n
      · simp only [hen, beq_self_eq_true, if_true] at hk
        cases hk
        exact hnew
      · rw [if_neg (by simpa using hen)] at hk
        subst hk
        exact hold k g he hen
  · rw [if_neg ha]
    have hnk : n ∉ reg.map (·.1) := by
      intro hm
      rw [List.mem_map] at hm
      obtain ⟨e, he, h'⟩ := hm
      exact ha (List.any_eq_true.mpr ⟨e, he, by simpa using h'⟩)
    refine ⟨_, rfl, fun k => ?_, fun k g hk => ?_⟩
    · rw [List.map_append, List.mem_append, h.keys]
      simp only [List.map_cons, List.map_nil, List.mem_singleton, List.mem_append]
      constructor
      · rintro (⟨g, hg, e⟩ | rfl)
        · exact ⟨g, .inl hg, e⟩
        · exact ⟨f, .inr rfl, hn⟩
      · rintro ⟨g, hg | rfl, e⟩
        · exact .inl ⟨g, hg, e⟩
        · rw [hn] at e
          exact .inr (Option.some.inj e).symm
    · rw [List.mem_append, List.mem_singleton] at hk
      rcases hk with hk | hk
      · refine hold k g hk fun e => hnk ?_
        rw [List.mem_map]
        exact ⟨_, hk, e⟩
      · cases hk
        exact hnew

theorem regOf_all (more : List TimeFormatter) {fs : List TimeFormatter} {reg : List (Nat × TimeFormatter)} (h : RegOf fs reg)
    (hm : ∀ f ∈ more, f.maxLen ≠ none) : ∃ reg', more.foldlM registerTime reg = some reg' ∧ RegOf (fs ++ more) reg' := by
  induction more generalizing fs reg with
  | nil => exact ⟨reg, rfl, by simpa using h⟩
  | cons f more ih =>
    cases hf : f.maxLen with
    | none => exact absurd hf (hm f (by simp))
    | some n =>
      obtain ⟨r, e1, h1⟩ := regOf_step h f n hf
      obtain ⟨r', e2, h2⟩ := ih h1 fun g hg => hm g (by simp [hg])
      refine ⟨r', ?_, by simpa using h2⟩
      rw [List.foldlM_cons, e1]
      exact e2

theorem maxNat_spec (l : List Nat) : (maxNat? l = none ∧ l = []) ∨ ∃ k, maxNat? l = some k ∧ k ∈ l ∧ ∀ m ∈ l, m ≤ k := by
  induction l with
  | nil => exact .inl ⟨rfl, rfl⟩
  | cons n l ih =>
    refine .inr ?_
    unfold maxNat?
    rcases ih with ⟨h, rfl⟩ | ⟨k, h, h1, h2⟩
    · rw [h]
      exact ⟨n, rfl, by simp, by simp⟩
    · rw [h]
      refine ⟨max n k, rfl, ?_, fun m hm => ?_⟩
      · rcases Nat.le_total n k with h' | h'
        · rw [Nat.max_eq_right h']
          exact List.mem_cons_of_mem _ h1
        · rw [Nat.max_eq_left h']
          exact List.mem_cons_self
      · rcases List.mem_cons.mp hm with rfl | hm
        · exact Nat.le_max_left _ _
        · exact Nat.le_trans (h2 m hm) (Nat.le_max_right _ _)

theorem timeByLen_some {reg : List (Nat × TimeFormatter)} {k : Nat} (h : k ∈ reg.map (·.1)) :
    ∃ f, timeByLen reg (k : Int) = some (k, f) ∧ (k, f) ∈ reg := by
  unfold timeByLen
  cases hf : reg.find? (fun e => decide ((e.1 : Int) = (k : Int))) with
  | none =>
    rw [List.find?_eq_none] at hf
    rw [List.mem_map] at h
    obtain ⟨e, he, rfl⟩ := h
    exact absurd (by simp) (hf e he)
  | some e =>
    have hm := List.mem_of_find?_eq_some hf
    have hp := List.find?_some hf
    have : e.1 = k := by
      have := of_decide_eq_true hp
      omega
    subst this
    exact ⟨e.2, rfl, hm⟩

/-- C121.  After any formatters have been registered, a time interval is written
by the one with the greatest length that is allowed, the last one of these; if
there is none, it is an error.  Formatters of other lengths do not matter. -/
theorem C121_choice (more : List TimeFormatter) (hm : ∀ f ∈ more, f.maxLen ≠ none) (seconds : Rat) (maxLen : Option Int) :
    let fs := [timeFormatter3, timeFormatter4, timeFormatter6, timeFormatter10] ++ more
    (∃ f k, Picked fs (Allowed maxLen) f k ∧ formatTimeDeltaAfter more seconds maxLen = .ok (f.format k seconds))
    ∨ ((∀ f ∈ fs, ∀ k, f.maxLen = some k → ¬ Allowed maxLen k) ∧ formatTimeDeltaAfter more seconds maxLen = .error .valueError) := by
  intro fs
  have h0 : RegOf [] [] := ⟨fun k => by simp, fun k f h => by simp at h⟩
  have hp : ∀ f ∈ [timeFormatter3, timeFormatter4, timeFormatter6, timeFormatter10], f.maxLen ≠ none := by decide +kernel
  obtain ⟨reg, e1, h1⟩ := regOf_all _ h0 hp
  obtain ⟨reg', e2, h2⟩ := regOf_all more h1 hm
  have e1' : timeRegistry = some reg := e1
  have hf : List.nil ++ [timeFormatter3, timeFormatter4, timeFormatter6, timeFormatter10] ++ more = fs := rfl
  rw [hf] at h2
  unfold formatTimeDeltaAfter formatTimeDeltaIn
  rw [e1', Option.bind_some, e2]
  simp only
  have pick : ∀ k f, (k, f) ∈ reg' → Allowed maxLen k → (∀ m ∈ reg'.map (·.1), Allowed maxLen m → m ≤ k) →
      Picked fs (Allowed maxLen) f k := by
    intro k f hk ha hl
    obtain ⟨g1, g2⟩ := h2.get k f hk
    exact ⟨⟨g1, ha⟩, fun g hg m hgm ham => hl m ((h2.keys m).mpr ⟨g, hg, hgm⟩) ham, g2⟩
  cases maxLen with
  | none =>
    have hall : ∀ k, Allowed none k := fun k n h => by cases h
    unfold timeLongest
    rcases maxNat_spec (reg'.map (·.1)) with ⟨h, he⟩ | ⟨k, h, hk, hl⟩
    · exfalso
      have : 3 ∈ reg'.map (·.1) := (h2.keys 3).mpr ⟨timeFormatter3, by simp [fs], by decide +kernel⟩
      rw [he] at this
      exact absurd this (by simp)
    · obtain ⟨f, hb, hmem⟩ := timeByLen_some hk
      rw [h]
      simp only
      rw [hb]
      exact .inl ⟨f, k, pick k f hmem (hall k) fun m hm _ => hl m hm, rfl⟩
  | some n =>
    have hall : ∀ k : Nat, Allowed (some n) k ↔ (k : Int) ≤ n := fun k => ⟨fun h => h n rfl, fun h m e => by cases e; exact h⟩
    unfold timeMatching
    cases hb : timeByLen reg' n with
    | some e =>
      have hmem := List.mem_of_find?_eq_some (hb : reg'.find? _ = some e)
      have hen : (e.1 : Int) = n := by
        have := List.find?_some (hb : reg'.find? (fun x => decide ((x.1 : Int) = n)) = some e)
        exact of_decide_eq_true this
      simp only [hb]
      refine .inl ⟨e.2, e.1, pick e.1 e.2 hmem ((hall _).mpr (by omega)) fun m _ h => ?_, rfl⟩
      have := (hall m).mp h
      omega
    | none =>
      simp only [hb]
      rcases maxNat_spec ((reg'.map (·.1)).filter (fun (k : Nat) => decide ((k : Int) ≤ n))) with ⟨h, he⟩ | ⟨k, h, hk, hl⟩
      · rw [h]
        refine .inr ⟨fun f hf k hfk ha => ?_, rfl⟩
        have hk : k ∈ reg'.map (·.1) := (h2.keys k).mpr ⟨f, hf, hfk⟩
        have : k ∈ (reg'.map (·.1)).filter (fun (k : Nat) => decide ((k : Int) ≤ n)) :=
          List.mem_filter.mpr ⟨hk, decide_eq_true ((hall k).mp ha)⟩
        rw [he] at this
        exact absurd this (by simp)
      · rw [h]
        simp only
        obtain ⟨hk, hkn⟩ := List.mem_filter.mp hk
        obtain ⟨f, hb', hmem⟩ := timeByLen_some hk
        rw [hb']
        refine .inl ⟨f, k, pick k f hmem ((hall k).mpr (of_decide_eq_true hkn)) fun m hm ha => ?_, rfl⟩
        exact hl m (List.mem_filter.mpr ⟨hm, decide_eq_true ((hall m).mp ha)⟩)

theorem maxLenLoop_attained (f : TimeFormatter) (us : List TimeUnit) (coef : Rat) (n k : Nat) (h : maxLenLoop f us coef n = some k) :
    n ≤ k ∧ (k = n ∨ ∃ seconds r, f.formatRaw seconds = some r ∧ r.length = k) := by
  induction us generalizing coef n with
  | nil =>
    cases h
    exact ⟨Nat.le_refl _, .inl rfl⟩
  | cons u us ih =>
    unfold maxLenLoop at h
    simp only at h
    split at h
    · exact ih _ _ h
    · split at h
      · cases h
      · next r hr =>
        obtain ⟨h1, h2⟩ := ih _ _ h
        refine ⟨Nat.le_trans (Nat.le_max_left _ _) h1, ?_⟩
        rcases h2 with h2 | h2
        · rcases Nat.le_total n r.length with h' | h'
          · exact .inr ⟨_, r, hr, by rw [h2, Nat.max_eq_right h']⟩
          · exact .inl (by rw [h2, Nat.max_eq_left h'])
        · exact .inr h2

/-- C121.  No smaller number than `max_len` would do: there is an interval that
is written with this many characters. -/
theorem C121_attained_partial (f : TimeFormatter) (k : Nat) (h : f.maxLen = some k) (hk : 0 < k) :
    ∃ seconds, (f.format k seconds).length = k := by
  obtain ⟨_, h2⟩ := maxLenLoop_attained f f.units 1 0 k h
  rcases h2 with h2 | ⟨s, r, hr, hl⟩
  · omega
  · refine ⟨s, ?_⟩
    unfold TimeFormatter.format
    rw [hr]
    exact hl

/-- A formatter of whole hours up to ten. -/
def tenHours : TimeFormatter where
  units := [⟨"h".toList, none, none, none, some 10⟩]
  allowNegative := false

/-- C121.  Texts can be longer than `max_len`, and than the length asked for. -/
theorem C121_negation :
    ¬ ∀ (f : TimeFormatter) (k : Nat), f.maxLen = some k → ∀ seconds, (f.format k seconds).length ≤ k := by
  intro h
  have := h tenHours 2 (by decide +kernel) 10
  revert this
  decide +kernel

theorem C121_negation_asked :
    ¬ ∀ (more : List TimeFormatter), (∀ f ∈ more, f.maxLen ≠ none) → ∀ (seconds : Rat) (n : Int) (r : Str),
      formatTimeDeltaAfter more seconds (some n) = .ok r → (r.length : Int) ≤ n := by
  intro h
  have := h [tenHours] (by decide +kernel) 10 2 "10h".toList (by decide +kernel)
  revert this
  decide

/-- C121.  Some formatters cannot be created: the check for an overflow uses a
length that is not known yet. -/
theorem C121_negation_created : ¬ ∀ f : TimeFormatter, f.maxLen ≠ none := by
  intro h
  exact h ⟨[⟨"s".toList, some 60, none, none, some 5⟩], false, [], [], []⟩ (by decide +kernel)

example : (timeFormatter6.maxLen = some 6 ∧ 0 < 6) ∧ tenHours.maxLen = some 2 := by decide +kernel

example := C121_choice [tenHours, { tenHours with allowNegative := true }, { timeFormatter4 with unitSeparator := [] }]
  (by decide +kernel) 10 (some 3)

end Kolombos
