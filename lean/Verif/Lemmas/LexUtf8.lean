import Verif.Spec.Pieces
import Verif.Lemmas.Regex
/-
The UTF-8 alternative of the regular expression.
-/
namespace Kolombos
open Spec

theorem inRng_eq_between : inRng = between := by
  funext lo hi b; simp [inRng, between]

theorem byte_eq_iff (b : Byte) (n : Nat) (h : n < 256) : b = UInt8.ofNat n ↔ b.toNat = n := by
  constructor
  · rintro rfl; simp [Nat.mod_eq_of_lt h]
  · rintro rfl; simp

theorem between_iff (lo hi : Nat) (b : Byte) : between lo hi b = true ↔ lo ≤ b.toNat ∧ b.toNat ≤ hi := by
  simp [between]

theorem cls_seq_nil (p : Byte → Bool) (r : Re Byte) (c : Caps Byte) :
    (Re.seq (.cls p) r).run [] c = [] := by simp [Re.run]

theorem cls_seq_cons (p : Byte → Bool) (r : Re Byte) (b : Byte) (s : Bytes) (c : Caps Byte) :
    (Re.seq (.cls p) r).run (b :: s) c = if p b then r.run s c else [] := by
  simp only [Re.run]; split <;> simp

theorem cls_cons (p : Byte → Bool) (b : Byte) (s : Bytes) (c : Caps Byte) :
    (Re.cls p).run (b :: s) c = if p b then [(s, c)] else [] := rfl

theorem cls_nil (p : Byte → Bool) (c : Caps Byte) : (Re.cls p).run [] c = [] := rfl

theorem alt_run (r q : Re Byte) (s : Bytes) (c : Caps Byte) :
    (Re.alt r q).run s c = r.run s c ++ q.run s c := rfl

theorem ite_nil_append {β : Type} (P : Bool) (x y : List β) (h : P = true → y = []) :
    (if P = true then x else []) ++ y = if P = true then x else y := by
  split
  · rename_i hp; simp [h hp]
  · rfl

theorem beq_eq_between (b : Byte) (n : Nat) : (b.toNat == n) = between n n b := by
  rw [Bool.eq_iff_iff, between_iff, beq_iff_eq]; omega

theorem eq_iff_between (b : Byte) (n : Nat) (h : n < 256) :
    b = UInt8.ofNat n ↔ between n n b = true := by
  rw [byte_eq_iff b n h, between_iff]; omega

theorem reUtf8_run (s : Bytes) (c : Caps Byte) :
    reUtf8.run s c = if utf8Len s = 0 then [] else [(s.drop (utf8Len s), c)] := by
  have e0 : ∀ b : Byte, b = 0xe0 ↔ _ := fun b => eq_iff_between b 0xe0 (by decide)
  have ed : ∀ b : Byte, b = 0xed ↔ _ := fun b => eq_iff_between b 0xed (by decide)
  have f0 : ∀ b : Byte, b = 0xf0 ↔ _ := fun b => eq_iff_between b 0xf0 (by decide)
  have f4 : ∀ b : Byte, b = 0xf4 ↔ _ := fun b => eq_iff_between b 0xf4 (by decide)
  rcases s with _ | ⟨b, s⟩
  · simp [reUtf8, altL, seqL, cr, lit, utf8Len, alt_run, cls_seq_nil]
  simp only [reUtf8, altL, seqL, cr, lit, alt_run, cls_seq_cons, inRng_eq_between, beq_eq_between]
  have hb := b.toNat_lt
  have hlt : ∀ lo hi, b.toNat < lo → between lo hi b = false := by
    intro lo hi h; simp [between]; omega
  have hgt : ∀ lo hi, hi < b.toNat → between lo hi b = false := by
    intro lo hi h; simp [between]; omega
  have hin : ∀ lo hi, lo ≤ b.toNat → b.toNat ≤ hi → between lo hi b = true := by
    intro lo hi h h'; simp [between]; omega
  have cases : b.toNat < 0xc2 ∨ (0xc2 ≤ b.toNat ∧ b.toNat ≤ 0xdf) ∨ b.toNat = 0xe0 ∨
    (0xe1 ≤ b.toNat ∧ b.toNat ≤ 0xec) ∨ b.toNat = 0xed ∨ b.toNat = 0xee ∨ b.toNat = 0xef ∨
    b.toNat = 0xf0 ∨ (0xf1 ≤ b.toNat ∧ b.toNat ≤ 0xf3) ∨ b.toNat = 0xf4 ∨ 0xf4 < b.toNat := by omega
  rcases s with _ | ⟨b1, s⟩
  · rcases cases with h | h | h | h | h | h | h | h | h | h | h <;>
    simp [utf8Len, cls_seq_nil, cls_nil]
  rcases cases with h | h | h | h | h | h | h | h | h | h | h
  all_goals
    simp (discharger := omega) only [utf8Len, e0, ed, f0, f4, hlt, hgt, hin, if_true, if_false, Bool.false_eq_true,
      List.append_nil, List.nil_append, Bool.or_false, Bool.or_true,
      cls_seq_cons, cls_cons, Spec.isCont]
  all_goals
    clear hlt hgt hin e0 ed f0 f4 hb
    rcases s with _ | ⟨b2, _ | ⟨b3, s⟩⟩ <;>
    try simp only [cls_seq_cons, cls_cons, cls_seq_nil, cls_nil, Bool.and_eq_true]
  all_goals clear h
  all_goals (repeat' split)
  all_goals first | rfl | simp_all

end Kolombos
