import Verif.Lemmas.LexUtf8
/-
UTF-8: the byte table of the specification, Lean's encoder and CPython's decoder.
-/
set_option linter.unusedSimpArgs false

namespace Kolombos
open Spec

/-- Lean's UTF-8 encoding of a character. -/
abbrev enc (c : Char) : Bytes := String.utf8EncodeChar c

theorem char_valid (c : Char) : c.toNat < 0xd800 ∨ (0xdfff < c.toNat ∧ c.toNat < 0x110000) := c.valid

theorem enc1 (c : Char) (h : c.toNat < 0x80) : enc c = [UInt8.ofNat c.toNat] := by
  have : c.val.toNat ≤ 0x7f := by change c.toNat ≤ _; omega
  simp only [enc, String.utf8EncodeChar, this, if_true]; rfl

theorem enc2 (c : Char) (h : 0x80 ≤ c.toNat) (h2 : c.toNat < 0x800) :
    enc c = [UInt8.ofNat (c.toNat / 64 + 0xc0), UInt8.ofNat (c.toNat % 64 + 0x80)] := by
  have h1 : ¬ c.val.toNat ≤ 0x7f := by change ¬ c.toNat ≤ _; omega
  have h2' : c.val.toNat ≤ 0x7ff := by change c.toNat ≤ _; omega
  simp only [enc, String.utf8EncodeChar, h1, h2', if_true, if_false]
  have e : c.toNat / 64 % 32 = c.toNat / 64 := Nat.mod_eq_of_lt (by omega)
  change [UInt8.ofNat (c.toNat / 64 % 32 + 0xc0), _] = _
  rw [e]; rfl

theorem enc3 (c : Char) (h : 0x800 ≤ c.toNat) (h2 : c.toNat < 0x10000) :
    enc c = [UInt8.ofNat (c.toNat / 4096 + 0xe0), UInt8.ofNat (c.toNat / 64 % 64 + 0x80),
      UInt8.ofNat (c.toNat % 64 + 0x80)] := by
  have h1 : ¬ c.val.toNat ≤ 0x7f := by change ¬ c.toNat ≤ _; omega
  have h2' : ¬ c.val.toNat ≤ 0x7ff := by change ¬ c.toNat ≤ _; omega
  have h3 : c.val.toNat ≤ 0xffff := by change c.toNat ≤ _; omega
  simp only [enc, String.utf8EncodeChar, h1, h2', h3, if_true, if_false]
  have e : c.toNat / 4096 % 16 = c.toNat / 4096 := Nat.mod_eq_of_lt (by omega)
  change [UInt8.ofNat (c.toNat / 4096 % 16 + 0xe0), _, _] = _
  rw [e]; rfl

theorem enc4 (c : Char) (h : 0x10000 ≤ c.toNat) :
    enc c = [UInt8.ofNat (c.toNat / 262144 + 0xf0), UInt8.ofNat (c.toNat / 4096 % 64 + 0x80),
      UInt8.ofNat (c.toNat / 64 % 64 + 0x80), UInt8.ofNat (c.toNat % 64 + 0x80)] := by
  have hv := char_valid c
  have h1 : ¬ c.val.toNat ≤ 0x7f := by change ¬ c.toNat ≤ _; omega
  have h2' : ¬ c.val.toNat ≤ 0x7ff := by change ¬ c.toNat ≤ _; omega
  have h3 : ¬ c.val.toNat ≤ 0xffff := by change ¬ c.toNat ≤ _; omega
  simp only [enc, String.utf8EncodeChar, h1, h2', h3, if_true, if_false]
  have e : c.toNat / 262144 % 8 = c.toNat / 262144 := Nat.mod_eq_of_lt (by omega)
  change [UInt8.ofNat (c.toNat / 262144 % 8 + 0xf0), _, _, _] = _
  rw [e]; rfl

theorem toNat_ofNat_lt {n : Nat} (h : n < 256) : (UInt8.ofNat n).toNat = n := by
  simp [Nat.mod_eq_of_lt h]

theorem between_ofNat {lo hi n : Nat} (h : n < 256) :
    between lo hi (UInt8.ofNat n) = decide (lo ≤ n ∧ n ≤ hi) := by
  rw [between, toNat_ofNat_lt h]

theorem ofNat_eq_iff {n m : Nat} (h : n < 256) (hm : m < 256) : UInt8.ofNat n = UInt8.ofNat m ↔ n = m := by
  rw [byte_eq_iff _ _ hm, toNat_ofNat_lt h]

theorem isCont_ofNat {n : Nat} (h : n < 64) : Spec.isCont (UInt8.ofNat (n + 0x80)) = true := by
  rw [Spec.isCont, between_ofNat (by omega)]; simp <;> omega

/-- The table recognises every encoded character. -/
theorem utf8Len_enc (c : Char) (h : 0x80 ≤ c.toNat) (r : Bytes) :
    utf8Len (enc c ++ r) = (enc c).length := by
  have hv := char_valid c
  generalize hn : c.toNat = n at *
  have m64 : n % 64 < 64 := Nat.mod_lt _ (by decide)
  have m64' : n / 64 % 64 < 64 := Nat.mod_lt _ (by decide)
  have m64'' : n / 4096 % 64 < 64 := Nat.mod_lt _ (by decide)
  by_cases h2 : n < 0x800
  · have b1 : between 0xc2 0xdf (UInt8.ofNat (n / 64 + 0xc0)) = true := by
      rw [between_ofNat (by omega)]; simp <;> omega
    rw [enc2 c (by omega) (by omega), hn]
    simp only [utf8Len, List.cons_append, List.nil_append]
    rw [if_pos b1, if_pos (isCont_ofNat m64)]; rfl
  by_cases h3 : n < 0x10000
  · have b0 : between 0xc2 0xdf (UInt8.ofNat (n / 4096 + 0xe0)) = false := by
      rw [between_ofNat (by omega)]; simp <;> omega
    have b1 : between 0xe0 0xef (UInt8.ofNat (n / 4096 + 0xe0)) = true := by
      rw [between_ofNat (by omega)]; simp <;> omega
    have e0 : UInt8.ofNat (n / 4096 + 0xe0) = 0xe0 ↔ _ := ofNat_eq_iff (by omega) (by decide : 0xe0 < 256)
    have ed : UInt8.ofNat (n / 4096 + 0xe0) = 0xed ↔ _ := ofNat_eq_iff (by omega) (by decide : 0xed < 256)
    rw [enc3 c (by omega) (by omega), hn]
    simp only [utf8Len, b0, b1, if_true, if_false, List.cons_append, List.nil_append, Bool.false_eq_true, e0, ed]
    have key : (if n / 4096 + 0xe0 = 0xe0 then between 0xa0 0xbf (UInt8.ofNat (n / 64 % 64 + 0x80))
        else if n / 4096 + 0xe0 = 0xed then between 0x80 0x9f (UInt8.ofNat (n / 64 % 64 + 0x80))
        else Spec.isCont (UInt8.ofNat (n / 64 % 64 + 0x80))) = true := by
      split
      · rw [between_ofNat (by omega)]; simp <;> omega
      · split
        · rw [between_ofNat (by omega)]; simp <;> omega
        · exact isCont_ofNat m64'
    rw [if_pos key, if_pos (isCont_ofNat m64)]; rfl
  · have b0 : between 0xc2 0xdf (UInt8.ofNat (n / 262144 + 0xf0)) = false := by
      rw [between_ofNat (by omega)]; simp <;> omega
    have b1 : between 0xe0 0xef (UInt8.ofNat (n / 262144 + 0xf0)) = false := by
      rw [between_ofNat (by omega)]; simp <;> omega
    have b2 : between 0xf0 0xf4 (UInt8.ofNat (n / 262144 + 0xf0)) = true := by
      rw [between_ofNat (by omega)]; simp <;> omega
    have e0 : UInt8.ofNat (n / 262144 + 0xf0) = 0xf0 ↔ _ := ofNat_eq_iff (by omega) (by decide : 0xf0 < 256)
    have e4 : UInt8.ofNat (n / 262144 + 0xf0) = 0xf4 ↔ _ := ofNat_eq_iff (by omega) (by decide : 0xf4 < 256)
    rw [enc4 c (by omega), hn]
    simp only [utf8Len, b0, b1, b2, if_true, if_false, List.cons_append, List.nil_append, Bool.false_eq_true, e0, e4]
    have key : (if n / 262144 + 0xf0 = 0xf0 then between 0x90 0xbf (UInt8.ofNat (n / 4096 % 64 + 0x80))
        else if n / 262144 + 0xf0 = 0xf4 then between 0x80 0x8f (UInt8.ofNat (n / 4096 % 64 + 0x80))
        else Spec.isCont (UInt8.ofNat (n / 4096 % 64 + 0x80))) = true := by
      split
      · rw [between_ofNat (by omega)]; simp <;> omega
      · split
        · rw [between_ofNat (by omega)]; simp <;> omega
        · exact isCont_ofNat m64''
    rw [if_pos key, isCont_ofNat m64, isCont_ofNat m64']; rfl

theorem chr_toNat {n : Nat} (h : n < 0xd800 ∨ (0xdfff < n ∧ n < 0x110000)) : (chr n).toNat = n := by
  have hv : n.isValidChar := h
  simp [chr, Char.ofNat, hv, Char.ofNatAux, Char.toNat]

/-- The table recognises only encoded characters. -/
theorem enc_of_utf8Len (s : Bytes) (h : utf8Len s ≠ 0) :
    ∃ c : Char, 0x80 ≤ c.toNat ∧ s.take (utf8Len s) = enc c := by
  have mk : ∀ (x : Byte) (n : Nat), x.toNat = n → UInt8.ofNat n = x := by
    rintro x n rfl; simp
  rcases s with _ | ⟨b, _ | ⟨c, s⟩⟩
  · simp [utf8Len] at h
  · simp [utf8Len] at h
  have hb := b.toNat_lt
  have hc := c.toNat_lt
  have e0 : b = 0xe0 ↔ _ := byte_eq_iff b 0xe0 (by decide)
  have ed : b = 0xed ↔ _ := byte_eq_iff b 0xed (by decide)
  have f0 : b = 0xf0 ↔ _ := byte_eq_iff b 0xf0 (by decide)
  have f4 : b = 0xf4 ↔ _ := byte_eq_iff b 0xf4 (by decide)
  have bt : ∀ {lo hi : Nat} {x : Byte}, between lo hi x = true ↔ lo ≤ x.toNat ∧ x.toNat ≤ hi := by
    intro lo hi x; simp [between]
  simp only [utf8Len] at h ⊢
  by_cases h2 : between 0xc2 0xdf b = true
  · rw [if_pos h2] at h ⊢
    by_cases hc2 : Spec.isCont c = true
    · rw [if_pos hc2]
      have h2 := bt.1 h2
      have hc2 := bt.1 hc2
      refine ⟨chr ((b.toNat - 0xc0) * 64 + (c.toNat - 0x80)), ?_⟩
      have hn := chr_toNat (n := (b.toNat - 0xc0) * 64 + (c.toNat - 0x80)) (by omega)
      rw [enc2 _ (by omega) (by omega), hn]
      refine ⟨by omega, ?_⟩
      rw [mk b _ (by omega), mk c _ (by omega)]; rfl
    · rw [if_neg hc2] at h; simp at h
  rw [if_neg h2] at h ⊢
  by_cases h3 : between 0xe0 0xef b = true
  · rw [if_pos h3] at h ⊢
    by_cases hc2 : (if b = 0xe0 then between 0xa0 0xbf c else if b = 0xed then between 0x80 0x9f c
        else Spec.isCont c) = true
    · rw [if_pos hc2] at h ⊢
      have hcc : (b.toNat = 0xe0 → 0xa0 ≤ c.toNat) ∧ (b.toNat = 0xed → c.toNat ≤ 0x9f) ∧
          0x80 ≤ c.toNat ∧ c.toNat ≤ 0xbf := by
        split at hc2
        · rename_i e; rw [e0] at e; have := bt.1 hc2; omega
        · rename_i e; rw [e0] at e
          split at hc2
          · rename_i e; rw [ed] at e; have := bt.1 hc2; omega
          · rename_i e; rw [ed] at e; have := bt.1 hc2; omega
      rcases s with _ | ⟨d, s⟩
      · simp at h
      have hd := d.toNat_lt
      simp only at h ⊢
      by_cases hd2 : Spec.isCont d = true
      · rw [if_pos hd2]
        have h3 := bt.1 h3
        have hd2 := bt.1 hd2
        have hn := chr_toNat (n := (b.toNat - 0xe0) * 4096 + (c.toNat - 0x80) * 64 + (d.toNat - 0x80)) (by omega)
        refine ⟨chr ((b.toNat - 0xe0) * 4096 + (c.toNat - 0x80) * 64 + (d.toNat - 0x80)), by omega, ?_⟩
        rw [enc3 _ (by omega) (by omega), hn]
        rw [mk b _ (by omega), mk c _ (by omega), mk d _ (by omega)]; rfl
      · rw [if_neg hd2] at h; simp at h
    · rw [if_neg hc2] at h; simp at h
  rw [if_neg h3] at h ⊢
  by_cases h4 : between 0xf0 0xf4 b = true
  · rw [if_pos h4] at h ⊢
    by_cases hc2 : (if b = 0xf0 then between 0x90 0xbf c else if b = 0xf4 then between 0x80 0x8f c
        else Spec.isCont c) = true
    · rw [if_pos hc2] at h ⊢
      have hcc : (b.toNat = 0xf0 → 0x90 ≤ c.toNat) ∧ (b.toNat = 0xf4 → c.toNat ≤ 0x8f) ∧
          0x80 ≤ c.toNat ∧ c.toNat ≤ 0xbf := by
        split at hc2
        · rename_i e; rw [f0] at e; have := bt.1 hc2; omega
        · rename_i e; rw [f0] at e
          split at hc2
          · rename_i e; rw [f4] at e; have := bt.1 hc2; omega
          · rename_i e; rw [f4] at e; have := bt.1 hc2; omega
      rcases s with _ | ⟨d, _ | ⟨x, s⟩⟩
      · simp at h
      · simp at h
      have hd := d.toNat_lt
      have hx := x.toNat_lt
      simp only at h ⊢
      by_cases hd2 : (Spec.isCont d && Spec.isCont x) = true
      · rw [if_pos hd2]
        have h4 := bt.1 h4
        rw [Bool.and_eq_true] at hd2
        have hx2 := bt.1 hd2.2
        have hd2 := bt.1 hd2.1
        have hn := chr_toNat (n := (b.toNat - 0xf0) * 262144 + (c.toNat - 0x80) * 4096 +
          (d.toNat - 0x80) * 64 + (x.toNat - 0x80)) (by omega)
        refine ⟨chr ((b.toNat - 0xf0) * 262144 + (c.toNat - 0x80) * 4096 +
            (d.toNat - 0x80) * 64 + (x.toNat - 0x80)), by omega, ?_⟩
        rw [enc4 _ (by omega), hn]
        rw [mk b _ (by omega), mk c _ (by omega), mk d _ (by omega), mk x _ (by omega)]; rfl
      · rw [if_neg hd2] at h; simp at h
    · rw [if_neg hc2] at h; simp at h
  rw [if_neg h4] at h
  simp at h

theorem inRng_ofNat {lo hi n : Nat} (h : n < 256) :
    inRng lo hi (UInt8.ofNat n) = decide (lo ≤ n ∧ n ≤ hi) := by
  rw [inRng_eq_between, between_ofNat h]

theorem chr_of_toNat (c : Char) : chr c.toNat = c := Char.ofNat_toNat c

theorem isCont_ofNat' {n : Nat} (h : n < 64) : Kolombos.isCont (UInt8.ofNat (n + 0x80)) = true := by
  rw [Kolombos.isCont, inRng_eq_between]; exact isCont_ofNat h

/-- CPython's decoder inverts Lean's encoder. -/
theorem decodeStep_enc (c : Char) (r : Bytes) :
    ∃ b t, enc c = b :: t ∧ decodeStep b (t ++ r) = (c, r) := by
  have hv := char_valid c
  by_cases h1 : c.toNat < 0x80
  · refine ⟨_, _, enc1 c h1, ?_⟩
    have e : (UInt8.ofNat c.toNat).toNat = c.toNat := toNat_ofNat_lt (by omega)
    simp only [decodeStep, e, h1, if_true, List.nil_append, chr_of_toNat]
  by_cases h2 : c.toNat < 0x800
  · refine ⟨_, _, enc2 c (by omega) h2, ?_⟩
    have m64 : c.toNat % 64 < 64 := Nat.mod_lt _ (by decide)
    have e : (UInt8.ofNat (c.toNat / 64 + 0xc0)).toNat = c.toNat / 64 + 0xc0 := toNat_ofNat_lt (by omega)
    have e' : (UInt8.ofNat (c.toNat % 64 + 0x80)).toNat = c.toNat % 64 + 0x80 := toNat_ofNat_lt (by omega)
    have l : leadInfo (UInt8.ofNat (c.toNat / 64 + 0xc0)) = some (0x80, 0xbf, 0) := by
      simp only [leadInfo, e]; rw [if_pos (by omega)]
    simp only [decodeStep, e, e', l, List.cons_append, List.nil_append]
    rw [if_neg (by omega), if_neg (by rw [inRng_ofNat (by omega)]; simp <;> omega), if_pos trivial]
    rw [show (c.toNat / 64 + 0xc0 - 0xc0) * 64 + (c.toNat % 64 + 0x80 - 0x80) = c.toNat by omega, chr_of_toNat]
  by_cases h3 : c.toNat < 0x10000
  · refine ⟨_, _, enc3 c (by omega) h3, ?_⟩
    have m64 : c.toNat % 64 < 64 := Nat.mod_lt _ (by decide)
    have m64' : c.toNat / 64 % 64 < 64 := Nat.mod_lt _ (by decide)
    have e : (UInt8.ofNat (c.toNat / 4096 + 0xe0)).toNat = c.toNat / 4096 + 0xe0 := toNat_ofNat_lt (by omega)
    have e' : (UInt8.ofNat (c.toNat / 64 % 64 + 0x80)).toNat = c.toNat / 64 % 64 + 0x80 := toNat_ofNat_lt (by omega)
    have e'' : (UInt8.ofNat (c.toNat % 64 + 0x80)).toNat = c.toNat % 64 + 0x80 := toNat_ofNat_lt (by omega)
    obtain ⟨lo, hi, l, hr⟩ : ∃ lo hi, leadInfo (UInt8.ofNat (c.toNat / 4096 + 0xe0)) = some (lo, hi, 1) ∧
        inRng lo hi (UInt8.ofNat (c.toNat / 64 % 64 + 0x80)) = true := by
      simp only [leadInfo, e]
      rw [if_neg (by omega)]
      split
      · exact ⟨_, _, rfl, by rw [inRng_ofNat (by omega)]; simp <;> omega⟩
      · split
        · exact ⟨_, _, rfl, by rw [inRng_ofNat (by omega)]; simp <;> omega⟩
        · rw [if_pos (by omega)]
          exact ⟨_, _, rfl, by rw [inRng_ofNat (by omega)]; simp <;> omega⟩
    simp only [decodeStep, e, e', e'', l, List.cons_append, List.nil_append]
    rw [if_neg (by omega), if_neg (by rw [hr]; decide), if_neg (by decide), if_neg (by rw [isCont_ofNat' m64]; decide),
      if_pos trivial]
    rw [show (c.toNat / 4096 + 0xe0 - 0xe0) * 4096 + (c.toNat / 64 % 64 + 0x80 - 0x80) * 64 +
      (c.toNat % 64 + 0x80 - 0x80) = c.toNat by omega, chr_of_toNat]
  · refine ⟨_, _, enc4 c (by omega), ?_⟩
    have m64 : c.toNat % 64 < 64 := Nat.mod_lt _ (by decide)
    have m64' : c.toNat / 64 % 64 < 64 := Nat.mod_lt _ (by decide)
    have m64'' : c.toNat / 4096 % 64 < 64 := Nat.mod_lt _ (by decide)
    have e : (UInt8.ofNat (c.toNat / 262144 + 0xf0)).toNat = c.toNat / 262144 + 0xf0 := toNat_ofNat_lt (by omega)
    have e' : (UInt8.ofNat (c.toNat / 4096 % 64 + 0x80)).toNat = c.toNat / 4096 % 64 + 0x80 := toNat_ofNat_lt (by omega)
    have e'' : (UInt8.ofNat (c.toNat / 64 % 64 + 0x80)).toNat = c.toNat / 64 % 64 + 0x80 := toNat_ofNat_lt (by omega)
    have e3 : (UInt8.ofNat (c.toNat % 64 + 0x80)).toNat = c.toNat % 64 + 0x80 := toNat_ofNat_lt (by omega)
    obtain ⟨lo, hi, l, hr⟩ : ∃ lo hi, leadInfo (UInt8.ofNat (c.toNat / 262144 + 0xf0)) = some (lo, hi, 2) ∧
        inRng lo hi (UInt8.ofNat (c.toNat / 4096 % 64 + 0x80)) = true := by
      simp only [leadInfo, e]
      rw [if_neg (by omega), if_neg (by omega), if_neg (by omega), if_neg (by omega)]
      split
      · exact ⟨_, _, rfl, by rw [inRng_ofNat (by omega)]; simp <;> omega⟩
      · split
        · exact ⟨_, _, rfl, by rw [inRng_ofNat (by omega)]; simp <;> omega⟩
        · rw [if_pos (by omega)]
          exact ⟨_, _, rfl, by rw [inRng_ofNat (by omega)]; simp <;> omega⟩
    simp only [decodeStep, e, e', e'', e3, l, List.cons_append, List.nil_append]
    rw [if_neg (by omega), if_neg (by rw [hr]; decide), if_neg (by decide), if_neg (by rw [isCont_ofNat' m64']; decide),
      if_neg (by decide), if_neg (by rw [isCont_ofNat' m64]; decide)]
    rw [show (c.toNat / 262144 + 0xf0 - 0xf0) * 262144 + (c.toNat / 4096 % 64 + 0x80 - 0x80) * 4096 +
      (c.toNat / 64 % 64 + 0x80 - 0x80) * 64 + (c.toNat % 64 + 0x80 - 0x80) = c.toNat by omega, chr_of_toNat]

theorem decodeUtf8_enc (c : Char) : decodeUtf8 (enc c) = [c] := by
  obtain ⟨b, t, h, hd⟩ := decodeStep_enc c []
  rw [List.append_nil] at hd
  rw [decodeUtf8, h, List.length_cons, decodeUtf8Aux, hd]
  simp only []
  cases t.length <;> rfl

theorem enc_ne_nil (c : Char) : enc c ≠ [] := String.utf8EncodeChar_ne_nil

/-- The bytes of a non-ASCII character have the high bit set. -/
theorem enc_high (c : Char) (h : 0x80 ≤ c.toNat) : ∀ b ∈ enc c, isHigh b = true := by
  have hv := char_valid c
  have hh : ∀ n : Nat, 0x80 ≤ n → n < 256 → isHigh (UInt8.ofNat n) = true := by
    intro n h1 h2; rw [isHigh, between_ofNat h2]; simp <;> omega
  have m64 : c.toNat % 64 < 64 := Nat.mod_lt _ (by decide)
  have m64' : c.toNat / 64 % 64 < 64 := Nat.mod_lt _ (by decide)
  have m64'' : c.toNat / 4096 % 64 < 64 := Nat.mod_lt _ (by decide)
  by_cases h2 : c.toNat < 0x800
  · rw [enc2 c h h2]; simp only [List.mem_cons, List.not_mem_nil, or_false, forall_eq_or_imp, forall_eq]
    exact ⟨hh _ (by omega) (by omega), hh _ (by omega) (by omega)⟩
  by_cases h3 : c.toNat < 0x10000
  · rw [enc3 c (by omega) h3]; simp only [List.mem_cons, List.not_mem_nil, or_false, forall_eq_or_imp, forall_eq]
    exact ⟨hh _ (by omega) (by omega), hh _ (by omega) (by omega), hh _ (by omega) (by omega)⟩
  · rw [enc4 c (by omega)]; simp only [List.mem_cons, List.not_mem_nil, or_false, forall_eq_or_imp, forall_eq]
    exact ⟨hh _ (by omega) (by omega), hh _ (by omega) (by omega), hh _ (by omega) (by omega),
      hh _ (by omega) (by omega)⟩

/-- Only the first byte of an encoded character is not a continuation byte. -/
theorem enc_shape (c : Char) (h : 0x80 ≤ c.toNat) :
    ∃ b t, enc c = b :: t ∧ 0xc0 ≤ b.toNat ∧ ∀ x ∈ t, x.toNat < 0xc0 := by
  have hv := char_valid c
  have m64 : c.toNat % 64 < 64 := Nat.mod_lt _ (by decide)
  have m64' : c.toNat / 64 % 64 < 64 := Nat.mod_lt _ (by decide)
  have m64'' : c.toNat / 4096 % 64 < 64 := Nat.mod_lt _ (by decide)
  have hx : ∀ n : Nat, n < 64 → (UInt8.ofNat (n + 0x80)).toNat < 0xc0 := by
    intro n hn; rw [toNat_ofNat_lt (by omega)]; omega
  by_cases h2 : c.toNat < 0x800
  · refine ⟨_, _, enc2 c h h2, by rw [toNat_ofNat_lt (by omega)]; omega, ?_⟩
    simp only [List.mem_cons, List.not_mem_nil, or_false, forall_eq]
    exact hx _ m64
  by_cases h3 : c.toNat < 0x10000
  · refine ⟨_, _, enc3 c (by omega) h3, by rw [toNat_ofNat_lt (by omega)]; omega, ?_⟩
    simp only [List.mem_cons, List.not_mem_nil, or_false, forall_eq_or_imp, forall_eq]
    exact ⟨hx _ m64', hx _ m64⟩
  · refine ⟨_, _, enc4 c (by omega), by rw [toNat_ofNat_lt (by omega)]; omega, ?_⟩
    simp only [List.mem_cons, List.not_mem_nil, or_false, forall_eq_or_imp, forall_eq]
    exact ⟨hx _ m64'', hx _ m64', hx _ m64⟩

end Kolombos
