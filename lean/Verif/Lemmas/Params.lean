import Verif.Spec.Params
import Verif.Lemmas.SegFacts
/-
When the parameters of an SGR sequence cannot be read.
-/
set_option linter.unusedSimpArgs false

namespace Kolombos
open Spec

theorem splitOn_eq (c : Char) (s : Str) :
    splitOn c s = s.takeWhile (· ≠ c) :: (match s.dropWhile (· ≠ c) with
      | [] => []
      | _ :: r => splitOn c r) := by
  induction s with
  | nil => rfl
  | cons a s ih =>
    rw [splitOn]
    by_cases h : a = c
    · rw [if_pos h]; simp [h]
    · rw [if_neg h, ih]; simp [h]

/-- The parts of a string between separators. -/
theorem mem_splitOn (c : Char) : ∀ (n : Nat) (s x : Str), s.length ≤ n →
    (x ∈ splitOn c s ↔ ∃ a b, s = a ++ x ++ b ∧ c ∉ x ∧ (a = [] ∨ a.getLast? = some c) ∧ (b = [] ∨ b.head? = some c)) := by
  intro n
  induction n with
  | zero =>
    intro s x h
    have : s = [] := List.length_eq_zero_iff.1 (by omega)
    subst this
    simp only [splitOn, List.mem_singleton]
    constructor
    · rintro rfl; exact ⟨[], [], rfl, by simp, .inl rfl, .inl rfl⟩
    · rintro ⟨a, b, e, -⟩; simp at e; exact e.2.1
  | succ n ih =>
    intro s x hn
    rw [splitOn_eq]
    have hc : s.takeWhile (· ≠ c) ++ s.dropWhile (· ≠ c) = s := List.takeWhile_append_dropWhile
    have hnc : c ∉ s.takeWhile (· ≠ c) := by
      intro h
      have : ∀ s : Str, ∀ b ∈ s.takeWhile (· ≠ c), b ≠ c := by
        intro s
        induction s with
        | nil => simp
        | cons a s ih =>
          intro b hb
          by_cases h : a = c
          · simp [h] at hb
          · simp [h] at hb
            rcases hb with rfl | hb
            · exact h
            · exact ih b (by simpa using hb)
      exact this s c h rfl
    have hd : s.dropWhile (· ≠ c) = [] ∨ ∃ r, s.dropWhile (· ≠ c) = c :: r := by
      clear hn hc hnc
      induction s with
      | nil => exact .inl rfl
      | cons a s ih =>
        by_cases h : a = c
        · right; exact ⟨s, by simp [h]⟩
        · simpa [h] using ih
    generalize s.takeWhile (· ≠ c) = t at hc hnc
    rcases hd with e | ⟨r, e⟩ <;> rw [e] at hc ⊢
    · simp only [List.mem_singleton]
      rw [List.append_nil] at hc
      subst hc
      constructor
      · rintro rfl; exact ⟨[], [], by simp, hnc, .inl rfl, .inl rfl⟩
      · rintro ⟨a, b, e, h1, h2, h3⟩
        rw [e] at hnc
        have ha : a = [] := by
          rcases h2 with h2 | h2
          · exact h2
          · exact absurd (by simp [List.mem_of_getLast? h2]) hnc
        have hb : b = [] := by
          rcases h3 with h3 | h3
          · exact h3
          · exact absurd (by simp [List.mem_of_head? h3]) hnc
        rw [e, ha, hb]; simp
    · simp only [List.mem_cons]
      rw [ih r x (by rw [← hc] at hn; simp at hn; omega)]
      constructor
      · rintro (rfl | ⟨a, b, rfl, h1, h2, h3⟩)
        · exact ⟨[], c :: r, by simp [hc], hnc, .inl rfl, .inr rfl⟩
        · refine ⟨t ++ c :: a, b, by rw [← hc]; simp, h1, .inr ?_, h3⟩
          rcases h2 with rfl | h2
          · simp
          · rw [List.getLast?_append, List.getLast?_cons, h2]; rfl
      · rintro ⟨a, b, e', h1, h2, h3⟩
        rcases h2 with rfl | h2
        · left
          rw [← hc, List.nil_append] at e'
          -- both parts end before the first separator
          rcases h3 with rfl | h3
          · rw [List.append_nil] at e'
            exact absurd (by rw [← e']; simp) h1
          · cases b with
            | nil => cases h3
            | cons y b =>
              simp at h3; subst h3
              have aux : ∀ t x : Str, y ∉ t → y ∉ x → t ++ y :: r = x ++ y :: b → x = t := by
                intro t
                induction t with
                | nil =>
                  intro x _ hx e
                  cases x with
                  | nil => rfl
                  | cons z x => simp at e; exact absurd e.1 (by simp at hx; exact hx.1)
                | cons w t ih =>
                  intro x ht hx e
                  cases x with
                  | nil => simp at e; exact absurd e.1.symm (by simp at ht; exact ht.1)
                  | cons z x =>
                    simp at e ht hx
                    rw [e.1, ih x ht.2 hx.2 e.2]
              exact aux t x hnc h1 e'
        · right
          -- the first separator is in `a`
          have ha : t ++ [c] <+: a := by
            have hp : t ++ [c] <+: s := by rw [← hc]; exact ⟨r, by simp⟩
            have hp' : a <+: s := ⟨x ++ b, by rw [e']; simp⟩
            rcases List.prefix_or_prefix_of_prefix hp hp' with h | h
            · exact h
            · obtain ⟨z, hz⟩ := h
              rcases List.eq_nil_or_concat z with rfl | ⟨z', y, rfl⟩
              · rw [List.append_nil] at hz; rw [hz]; exact List.prefix_refl _
              · exfalso
                rw [List.concat_eq_append, ← List.append_assoc] at hz
                have := List.append_inj_left' hz rfl
                apply hnc
                rw [← this]
                simp [List.mem_of_getLast? h2]
          obtain ⟨a', rfl⟩ := ha
          refine ⟨a', b, ?_, h1, ?_, h3⟩
          · rw [← hc] at e'
            simp at e'
            rw [e']; simp
          · cases a' with
            | nil => exact .inl rfl
            | cons z a' =>
              right
              rw [List.getLast?_append] at h2
              rw [List.getLast?_cons] at h2 ⊢
              simpa using h2

theorem parsePcodes_err_iff (ps : List Str) :
    (∃ e, parsePcodes ps = .error e) ↔ ∃ p ∈ ps, p ≠ [] ∧ ∃ e, pyInt ((splitOn ':' p).headD []) = .error e := by
  induction ps with
  | nil => simp [parsePcodes]
  | cons p ps ih =>
    rw [parsePcodes]
    by_cases h : p = []
    · rw [if_pos h, ih]
      constructor
      · rintro ⟨q, h1, h2⟩; exact ⟨q, by simp [h1], h2⟩
      · rintro ⟨q, h1, h2⟩
        rcases List.mem_cons.1 h1 with rfl | h1
        · exact absurd h h2.1
        · exact ⟨q, h1, h2⟩
    · rw [if_neg h]
      cases hp : pyInt ((splitOn ':' p).headD []) with
      | error e => exact iff_of_true ⟨e, rfl⟩ ⟨p, by simp, h, e, hp⟩
      | ok n =>
        simp only
        refine Iff.trans ?_ (ih.trans ?_)
        · cases parsePcodes ps <;> simp
        constructor
        · rintro ⟨q, h1, h2⟩; exact ⟨q, by simp [h1], h2⟩
        · rintro ⟨q, h1, h2, e, h3⟩
          rcases List.mem_cons.1 h1 with rfl | h1
          · rw [hp] at h3; cases h3
          · exact ⟨q, h1, h2, e, h3⟩

/-- ASCII text of bytes. -/
def asciiText (p : Bytes) : Str := p.map fun b => chr b.toNat

theorem asciiText_inj {a b : Byte} (ha : a.toNat < 128) (hb : b.toNat < 128) (h : chr a.toNat = chr b.toNat) : a = b := by
  have h' := congrArg Char.toNat h
  rw [chr_toNat (.inl (by omega)), chr_toNat (.inl (by omega))] at h'
  exact UInt8.toNat_inj.1 h'

theorem decodeAscii_text {p : Bytes} (h : ∀ b ∈ p, b.toNat < 128) : decodeAscii p = asciiText p := by
  unfold decodeAscii
  rw [List.filter_eq_self.2]
  · rfl
  · intro b hb; simpa using h b hb

theorem chr_eq_iff {b c : Byte} (hb : b.toNat < 128) (hc : c.toNat < 128) : chr b.toNat = chr c.toNat ↔ b = c :=
  ⟨asciiText_inj hb hc, fun h => by rw [h]⟩

theorem mem_asciiText {p : Bytes} (h : ∀ b ∈ p, b.toNat < 128) {c : Byte} (hc : c.toNat < 128) :
    chr c.toNat ∈ asciiText p ↔ c ∈ p := by
  unfold asciiText
  rw [List.mem_map]
  constructor
  · rintro ⟨b, hb, e⟩; rw [← asciiText_inj (h b hb) hc e]; exact hb
  · intro hm; exact ⟨c, hm, rfl⟩

theorem getLast_asciiText {p : Bytes} (h : ∀ b ∈ p, b.toNat < 128) {c : Byte} (hc : c.toNat < 128) :
    (asciiText p).getLast? = some (chr c.toNat) ↔ p.getLast? = some c := by
  unfold asciiText
  rw [List.getLast?_map]
  cases hp : p.getLast? with
  | none => simp
  | some b => simp only [Option.map_some, Option.some.injEq]; exact chr_eq_iff (h b (List.mem_of_getLast? hp)) hc

theorem head_asciiText {p : Bytes} (h : ∀ b ∈ p, b.toNat < 128) {c : Byte} (hc : c.toNat < 128) :
    (asciiText p).head? = some (chr c.toNat) ↔ p.head? = some c := by
  unfold asciiText
  rw [List.head?_map]
  cases hp : p.head? with
  | none => simp
  | some b => simp only [Option.map_some, Option.some.injEq]; exact chr_eq_iff (h b (List.mem_of_head? hp)) hc

/-- The parts between semicolons. -/
theorem mem_splitOn_field {ps : Bytes} (h : ∀ b ∈ ps, b.toNat < 128) (x : Str) :
    x ∈ splitOn ';' (asciiText ps) ↔ ∃ q, IsField ps q ∧ x = asciiText q := by
  rw [mem_splitOn ';' _ _ _ (Nat.le_refl _)]
  have e3b : (';' : Char) = chr (0x3b : Byte).toNat := by decide
  have l3b : (0x3b : Byte).toNat < 128 := by decide
  constructor
  · rintro ⟨a, b, e, h1, h2, h3⟩
    obtain ⟨y, b', rfl, e1, rfl⟩ := List.map_eq_append_iff.1 (show List.map _ ps = _ from e)
    obtain ⟨a', q, rfl, rfl, rfl⟩ := List.map_eq_append_iff.1 e1
    have ha : ∀ b ∈ a', b.toNat < 128 := fun b hb => h b (by simp [hb])
    have hq : ∀ b ∈ q, b.toNat < 128 := fun b hb => h b (by simp [hb])
    have hb : ∀ b ∈ b', b.toNat < 128 := fun b hb => h b (by simp [hb])
    refine ⟨q, ⟨a', b', rfl, ?_, ?_, ?_⟩, rfl⟩
    · intro hm; apply h1; rw [e3b]; exact (mem_asciiText hq l3b).2 hm
    · rcases h2 with h2 | h2
      · left; simpa using h2
      · right; rw [e3b] at h2; exact (getLast_asciiText ha l3b).1 h2
    · rcases h3 with h3 | h3
      · left; simpa using h3
      · right; rw [e3b] at h3; exact (head_asciiText hb l3b).1 h3
  · rintro ⟨q, ⟨a, b, rfl, h1, h2, h3⟩, rfl⟩
    have ha : ∀ b ∈ a, b.toNat < 128 := fun b hb => h b (by simp [hb])
    have hq : ∀ b ∈ q, b.toNat < 128 := fun b hb => h b (by simp [hb])
    have hb : ∀ x ∈ b, x.toNat < 128 := fun b hb => h b (by simp [hb])
    refine ⟨asciiText a, asciiText b, by simp [asciiText], ?_, ?_, ?_⟩
    · intro hm; apply h1; rw [e3b] at hm; exact (mem_asciiText hq l3b).1 hm
    · rcases h2 with h2 | h2
      · left; simp [asciiText, h2]
      · right; rw [e3b]; exact (getLast_asciiText ha l3b).2 h2
    · rcases h3 with h3 | h3
      · left; simp [asciiText, h3]
      · right; rw [e3b]; exact (head_asciiText hb l3b).2 h3

theorem isDigit_chr {b : Byte} (hb : b.toNat < 128) : (chr b.toNat).isDigit = true ↔ Rng 0x30 0x39 b := by
  have key : ∀ n : Fin 128, (chr n.1).isDigit = true ↔ 0x30 ≤ n.1 ∧ n.1 ≤ 0x39 := by decide
  exact key ⟨b.toNat, hb⟩

theorem pyInt_field {q : Bytes} (h : ∀ b ∈ q, b.toNat < 128) :
    (∃ e, pyInt ((splitOn ':' (asciiText q)).headD []) = .error e) ↔ ¬ IsNumberField q := by
  have e3a : (':' : Char) = chr (0x3a : Byte).toNat := by decide
  have l3a : (0x3a : Byte).toNat < 128 := by decide
  rw [splitOn_eq]
  simp only [List.headD_cons]
  have ht : (asciiText q).takeWhile (· ≠ ':') = asciiText (q.takeWhile (· ≠ 0x3a)) := by
    clear * - h e3a l3a
    induction q with
    | nil => rfl
    | cons b q ih =>
      have hb := h b (by simp)
      have := ih fun b hb => h b (by simp [hb])
      have hiff := chr_eq_iff hb l3a
      rw [← e3a] at hiff
      unfold asciiText at this ⊢
      rw [List.map_cons, List.takeWhile_cons, List.takeWhile_cons]
      by_cases hc : b = 0x3a
      · rw [if_neg (by simpa using hiff.2 hc), if_neg (by simpa using hc)]; rfl
      · rw [if_pos (by simpa using fun h => hc (hiff.1 h)), if_pos (by simpa using hc), List.map_cons, this]
  rw [ht]
  generalize hd : q.takeWhile (· ≠ 0x3a) = d
  have hdm : ∀ b ∈ d, b ∈ q := by intro b hb; rw [← hd] at hb; exact (List.takeWhile_prefix _).subset hb
  have hall : (asciiText d).all Char.isDigit = true ↔ ∀ b ∈ d, Rng 0x30 0x39 b := by
    unfold asciiText
    rw [List.all_map, List.all_eq_true]
    constructor
    · intro hx b hb; exact (isDigit_chr (h b (hdm b hb))).1 (hx b hb)
    · intro hx b hb; exact (isDigit_chr (h b (hdm b hb))).2 (hx b hb)
  have hnum : IsNumberField q ↔ d ≠ [] ∧ ∀ b ∈ d, Rng 0x30 0x39 b := by
    constructor
    · rintro ⟨d', r, rfl, h1, h2, h3⟩
      have hnc : ∀ b ∈ d', b ≠ 0x3a := by
        rintro b hb rfl
        have := h2 _ hb
        exact absurd this (by unfold Rng; decide)
      have e : d = d' := by
        rw [← hd, List.takeWhile_append_of_pos (fun b hb => by simpa using hnc b hb)]
        rcases h3 with rfl | h3
        · simp
        · cases r with
          | nil => cases h3
          | cons y r => simp at h3; subst h3; simp
      rw [e]; exact ⟨h1, h2⟩
    · rintro ⟨h1, h2⟩
      refine ⟨d, q.dropWhile (· ≠ 0x3a), ?_, h1, h2, ?_⟩
      · rw [← hd, List.takeWhile_append_dropWhile]
      · clear * -
        induction q with
        | nil => exact .inl rfl
        | cons b q ih =>
          by_cases hc : b = 0x3a
          · right; simp [hc]
          · simpa [hc] using ih
  rw [hnum]
  unfold pyInt
  by_cases hx : asciiText d ≠ [] ∧ (asciiText d).all Char.isDigit = true
  · rw [if_pos hx]
    refine iff_of_false (by simp) ?_
    rw [not_not]
    exact ⟨by rintro rfl; exact hx.1 rfl, hall.1 hx.2⟩
  · rw [if_neg hx]
    refine iff_of_true ⟨_, rfl⟩ ?_
    rintro ⟨h1, h2⟩
    exact hx ⟨by simpa [asciiText] using h1, hall.2 h2⟩

/-- Reading the parameters fails exactly for bad parameters. -/
theorem setDetails_err_iff {ps : Bytes} (h : ∀ b ∈ ps, b.toNat < 128) : (∃ e, setDetails ps = .error e) ↔ BadParams ps := by
  have : (∃ e, setDetails ps = .error e) ↔ ∃ e, parsePcodes (splitOn ';' (asciiText ps)) = .error e := by
    unfold setDetails
    rw [decodeAscii_text h]
    cases parsePcodes (splitOn ';' (asciiText ps)) <;> simp
  rw [this, parsePcodes_err_iff]
  unfold BadParams
  have hf : ∀ q, IsField ps q → ∀ b ∈ q, b.toNat < 128 := by
    rintro q ⟨a, b, rfl, -⟩ x hx
    exact h x (by simp [hx])
  constructor
  · rintro ⟨x, hx, hne, he⟩
    obtain ⟨q, hq, rfl⟩ := (mem_splitOn_field h x).1 hx
    exact ⟨q, hq, by rintro rfl; exact hne rfl, (pyInt_field (hf q hq)).1 he⟩
  · rintro ⟨q, hq, hne, he⟩
    exact ⟨asciiText q, (mem_splitOn_field h _).2 ⟨q, hq, rfl⟩, by simpa [asciiText] using hne, (pyInt_field (hf q hq)).2 he⟩

end Kolombos
