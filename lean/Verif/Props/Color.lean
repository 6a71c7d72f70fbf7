/-
C47 (nearest colours), C52 (channels), C53 (HSV).
-/
import Verif.Lemmas.Color
import Mathlib.Tactic.Linarith
import Mathlib.Tactic.FieldSimp
import Mathlib.Tactic.NormNum
import Mathlib.Tactic.Positivity
import Mathlib.Tactic.Ring

set_option linter.unusedSimpArgs false

namespace Kolombos

/-- C47.  After any history of colour creations and searches no operation has
failed, and the next search for a 24-bit colour returns the nearest colour
created so far, the earliest one if there are several; without any created
colour it returns the empty one. -/
theorem C47_nearest (ops : List ColorOp) (w : Is24Bit ops) (h : Nat) (hh : h < 16777216) :
    ∃ a c a', colorRun {} ops = some a ∧ a.findClosest h = some (c, a')
      ∧ (created ops = [] → c = noopColor)
      ∧ (created ops ≠ [] → ∃ g, Nearest (created ops) h (g, c)) := by
  obtain ⟨a, ha, i⟩ := colorRun_inv ops inv_init (by simpa [Is24Bit] using w)
  simp only [List.nil_append] at i
  obtain ⟨c, a', h1, -, -, h2, h3⟩ := inv_find i w h
  exact ⟨a, c, a', ha, h1, h2, fun hne => h3 hne hh⟩

/-- The creations of a history, without its searches. -/
def creations (ops : List ColorOp) : List ColorOp :=
  ops.filter (fun o => match o with | .create _ => true | .search _ => false)

theorem created_creations (ops : List ColorOp) : created (creations ops) = created ops := by
  induction ops with
  | nil => rfl
  | cons o ops ih =>
    cases o with
    | search h => simpa [creations, created] using ih
    | create c =>
      simp only [creations, List.filter_cons, if_true, created] at ih ⊢
      rw [ih]

/-- C47.  Earlier searches do not change the answer: it is the one that an
object with the same colours gives to its first search, when nothing is
cached. -/
theorem C47_cacheless (ops : List ColorOp) (w : Is24Bit ops) (h : Nat) (hh : h < 16777216) :
    ∃ a b c a' b', colorRun {} ops = some a ∧ colorRun {} (creations ops) = some b
      ∧ a.findClosest h = some (c, a') ∧ b.findClosest h = some (c, b') := by
  obtain ⟨a, c, a', h1, h2, h3, h4⟩ := C47_nearest ops w h hh
  obtain ⟨b, d, b', g1, g2, g3, g4⟩ := C47_nearest (creations ops)
    (by unfold Is24Bit; rw [created_creations]; exact w) h hh
  rw [created_creations] at g3 g4
  have : c = d := by
    by_cases hc : created ops = []
    · rw [h3 hc, g3 hc]
    · obtain ⟨x, hx⟩ := h4 hc
      obtain ⟨y, hy⟩ := g4 hc
      exact (Prod.mk.inj (nearest_unique hx hy)).2
  subst this
  exact ⟨a, b, c, a', b', h1, g1, h2, g2⟩

/-- Grey is nearer to dark grey than to white, also after a search that was
cached before the dark grey existed. -/
example :
    ((colorRun {} [.create ⟨some 0xffffff, some 15, none⟩, .search 0x808080, .search 0x404040,
        .create ⟨some 0x303030, some 8, none⟩, .create ⟨some 0x303030, some 9, none⟩, .search 0x404040]).bind
      (fun a => a.findClosest 0x404040)).map (·.1) = some ⟨some 0x303030, some 8, none⟩ := by decide +kernel

/-- Why the values are 24-bit: the next value has the channels of black, and the
cached table and the search disagree about it. -/
example :
    ((colorRun {} [.create ⟨some 0, some 0, none⟩, .create ⟨some 0x1000000, some 1, none⟩]).bind
      (fun a => a.findClosest 0x1000000)).map (·.1) = some ⟨some 0, some 0, none⟩
    ∧ ((colorRun {} [.create ⟨some 0, some 0, none⟩, .create ⟨some 0x1000000, some 1, none⟩, .search 5]).bind
      (fun a => a.findClosest 0x1000000)).map (·.1) = some ⟨some 0x1000000, some 1, none⟩ := by decide +kernel

/-! ### C52 -/

/-- C52.  Splitting a 24-bit colour into its channels and joining them gives the
colour, and the channels are bytes. -/
theorem C52_split (h : Nat) (hh : h < 16777216) :
    ∃ r g b, hexToRgb h = (r, g, b) ∧ r < 256 ∧ g < 256 ∧ b < 256 ∧ rgbToHex r g b = h := by
  refine ⟨_, _, _, hexToRgb_eq h, Nat.mod_lt _ (by decide), Nat.mod_lt _ (by decide),
    Nat.mod_lt _ (by decide), ?_⟩
  unfold rgbToHex redOf greenOf blueOf
  rw [Nat.shiftLeft_eq, Nat.shiftLeft_eq]
  omega

/-- C52.  Joining three bytes and splitting the result gives the bytes. -/
theorem C52_join (r g b : Nat) (hr : r < 256) (hg : g < 256) (hb : b < 256) :
    hexToRgb (rgbToHex r g b) = (r, g, b) ∧ rgbToHex r g b < 16777216 := by
  rw [hexToRgb_eq]
  unfold rgbToHex redOf greenOf blueOf
  rw [Nat.shiftLeft_eq, Nat.shiftLeft_eq]
  refine ⟨Prod.ext ?_ (Prod.ext ?_ ?_), ?_⟩ <;> (try simp only) <;> omega

example : hexToRgb 0x80ff01 = (128, 255, 1) ∧ rgbToHex 128 255 1 = 0x80ff01 := by decide

/-! ### C53 -/

/-- The largest and the smallest channel. -/
def topOf (h : Nat) : Nat := max (max (redOf h) (greenOf h)) (blueOf h)
def lowOf (h : Nat) : Nat := min (min (redOf h) (greenOf h)) (blueOf h)

/-- The angle of a hue is taken within the sector of the largest channel. -/
theorem hue_part {x y c : Rat} (hc : 0 < c) (h1 : x - y ≤ c) (h2 : y - x ≤ c) :
    -1 ≤ (x - y) / c ∧ (x - y) / c ≤ 1 := by
  constructor
  · rw [le_div_iff₀ hc]; linarith
  · rw [div_le_iff₀ hc]; linarith

/-- C53.  The HSV channels of every colour exist (the branch reported as
impossible is), the hue is at least 0 and below 360 (the documentation says 359, see below), saturation and value are
within [0; 1]; the value is the largest channel and the saturation is the part
of it by which the largest channel exceeds the smallest. -/
theorem C53_ranges_partial (x : Nat) :
    ∃ h s v, hexToHsv x = some (h, s, v) ∧ 0 ≤ h ∧ h < 360 ∧ 0 ≤ s ∧ s ≤ 1 ∧ 0 ≤ v ∧ v ≤ 1
      ∧ v * 255 = topOf x ∧ s * topOf x = topOf x - lowOf x := by
  unfold hexToHsv
  rw [hexToRgb_eq]
  have hr : redOf x < 256 := Nat.mod_lt _ (by decide)
  have hg : greenOf x < 256 := Nat.mod_lt _ (by decide)
  have hb : blueOf x < 256 := Nat.mod_lt _ (by decide)
  unfold topOf lowOf
  generalize redOf x = r at *
  generalize greenOf x = g at *
  generalize blueOf x = b at *
  have r0 : (0 : Rat) ≤ r := by positivity
  have g0 : (0 : Rat) ≤ g := by positivity
  have b0 : (0 : Rat) ≤ b := by positivity
  have r1 : (r : Rat) ≤ 255 := by exact_mod_cast Nat.le_of_lt_succ hr
  have g1 : (g : Rat) ≤ 255 := by exact_mod_cast Nat.le_of_lt_succ hg
  have b1 : (b : Rat) ≤ 255 := by exact_mod_cast Nat.le_of_lt_succ hb
  push_cast
  have key : ∀ v m : Rat, v = max (max ((r : Rat) / 255) (g / 255)) (b / 255) →
      m = min (min ((r : Rat) / 255) (g / 255)) (b / 255) →
      (r : Rat) / 255 ≤ v ∧ (g : Rat) / 255 ≤ v ∧ (b : Rat) / 255 ≤ v
      ∧ m ≤ (r : Rat) / 255 ∧ m ≤ (g : Rat) / 255 ∧ m ≤ (b : Rat) / 255
      ∧ (v = (r : Rat) / 255 ∨ v = (g : Rat) / 255 ∨ v = (b : Rat) / 255)
      ∧ (v * 255 = max (max (r : Rat) g) b) ∧ m * 255 = min (min (r : Rat) g) b := by
    intro v m hv hm
    subst hv hm
    refine ⟨le_trans (le_max_left _ _) (le_max_left _ _),
      le_trans (le_max_right _ _) (le_max_left _ _), le_max_right _ _,
      le_trans (min_le_left _ _) (min_le_left _ _),
      le_trans (min_le_left _ _) (min_le_right _ _), min_le_right _ _, ?_, ?_, ?_⟩
    · rcases max_choice (max ((r : Rat) / 255) (g / 255)) (b / 255) with h | h
      · rcases max_choice ((r : Rat) / 255) (g / 255) with h' | h'
        · exact Or.inl (h.trans h')
        · exact Or.inr (Or.inl (h.trans h'))
      · exact Or.inr (Or.inr h)
    · rw [max_mul_of_nonneg _ _ (by norm_num), max_mul_of_nonneg _ _ (by norm_num)]
      simp
    · rw [min_mul_of_nonneg _ _ (by norm_num), min_mul_of_nonneg _ _ (by norm_num)]
      simp
  generalize hv : max (max ((r : Rat) / 255) (g / 255)) (b / 255) = v
  generalize hm : min (min ((r : Rat) / 255) (g / 255)) (b / 255) = m
  obtain ⟨k1, k2, k3, k4, k5, k6, k7, k8, k9⟩ := key v m hv.symm hm.symm
  rw [← k8, ← k9]
  have q1 : (0 : Rat) ≤ (r : Rat) / 255 ∧ (r : Rat) / 255 ≤ 1 :=
    ⟨by positivity, by rw [div_le_iff₀ (by norm_num)]; linarith⟩
  have q2 : (0 : Rat) ≤ (g : Rat) / 255 ∧ (g : Rat) / 255 ≤ 1 :=
    ⟨by positivity, by rw [div_le_iff₀ (by norm_num)]; linarith⟩
  have q3 : (0 : Rat) ≤ (b : Rat) / 255 ∧ (b : Rat) / 255 ≤ 1 :=
    ⟨by positivity, by rw [div_le_iff₀ (by norm_num)]; linarith⟩
  have m0 : 0 ≤ m := by
    rw [← hm]; exact le_min (le_min q1.1 q2.1) q3.1
  clear hv hm key k8 k9 r0 g0 b0 r1 g1 b1 hr hg hb
  generalize (r : Rat) / 255 = rn at *
  generalize (g : Rat) / 255 = gn at *
  generalize (b : Rat) / 255 = bn at *
  have v0 : 0 ≤ v := by linarith [q1.1]
  have v1 : v ≤ 1 := by rcases k7 with h | h | h <;> (rw [h]; first | exact q1.2 | exact q2.2 | exact q3.2)
  have hs : ∀ s, s = (if v = 0 then 0 else (v - m) / v) →
      0 ≤ s ∧ s ≤ 1 ∧ s * (v * 255) = v * 255 - m * 255 := by
    intro s hs
    subst hs
    by_cases hz : v = 0
    · rw [if_pos hz]
      have : m = 0 := by linarith
      subst this; subst hz; norm_num
    · rw [if_neg hz]
      have hv : 0 < v := lt_of_le_of_ne v0 (Ne.symm hz)
      refine ⟨div_nonneg (by linarith) v0, ?_, ?_⟩
      · rw [div_le_iff₀ hv]; linarith
      · field_simp
  generalize hse : (if v = 0 then 0 else (v - m) / v) = s
  obtain ⟨s1, s2, s3⟩ := hs s hse.symm
  have fin : ∀ h : Rat, -60 ≤ h → h < 360 →
      ∃ h' s' v', (some ((if h < 0 then h + 360 else h), s, v) : Option (Rat × Rat × Rat))
        = some (h', s', v') ∧ 0 ≤ h' ∧ h' < 360 ∧ 0 ≤ s' ∧ s' ≤ 1 ∧ 0 ≤ v' ∧ v' ≤ 1
        ∧ v' * 255 = v * 255 ∧ s' * (v * 255) = v * 255 - m * 255 := by
    intro h l u
    refine ⟨_, s, v, rfl, ?_, ?_, s1, s2, v0, v1, rfl, s3⟩ <;> split <;> linarith
  by_cases hc : v - m = 0
  · simp only [hc, if_true]
    exact fin 0 (by norm_num) (by norm_num)
  · have hc0 : 0 < v - m := lt_of_le_of_ne (by linarith) (Ne.symm hc)
    simp only [if_neg hc]
    by_cases c1 : v = rn
    · obtain ⟨p1, p2⟩ := hue_part (x := gn) (y := bn) hc0 (by linarith) (by linarith)
      simp only [if_pos c1]
      exact fin _ (by linarith) (by linarith)
    · by_cases c2 : v = gn
      · obtain ⟨p1, p2⟩ := hue_part (x := bn) (y := rn) hc0 (by linarith) (by linarith)
        simp only [if_neg c1, if_pos c2]
        exact fin _ (by linarith) (by linarith)
      · have c3 : v = bn := by
          rcases k7 with h | h | h
          · exact absurd h c1
          · exact absurd h c2
          · exact h
        obtain ⟨p1, p2⟩ := hue_part (x := rn) (y := gn) hc0 (by linarith) (by linarith)
        simp only [if_neg c1, if_neg c2, if_pos c3]
        exact fin _ (by linarith) (by linarith)

/-- The ramp of the conversion to RGB. -/
theorem ramp_cases (k : Rat) :
    (0 ≤ k → k ≤ 1 → max 0 (min (min k (4 - k)) 1) = k)
    ∧ (1 ≤ k → k ≤ 3 → max 0 (min (min k (4 - k)) 1) = 1)
    ∧ (3 ≤ k → k ≤ 4 → max 0 (min (min k (4 - k)) 1) = 4 - k)
    ∧ (4 ≤ k → max 0 (min (min k (4 - k)) 1) = 0) := by
  refine ⟨fun h1 h2 => ?_, fun h1 h2 => ?_, fun h1 h2 => ?_, fun h1 => ?_⟩
  · rw [min_eq_left (by linarith : k ≤ 4 - k), min_eq_left h2, max_eq_right h1]
  · rw [min_eq_right (le_min h1 (by linarith)), max_eq_right (by norm_num)]
  · rw [min_eq_right (by linarith : 4 - k ≤ k), min_eq_left (by linarith), max_eq_right (by linarith)]
  · exact max_eq_left (le_trans (min_le_left _ _) (le_trans (min_le_right _ _) (by linarith)))

/-- One channel, by the position of its angle. -/
theorem channel_cases {n h s v c : Rat} (hs : v * s = c) (h0 : 0 ≤ n + h / 60) :
    ∃ k, ((n + h / 60 < 6 ∧ k = n + h / 60) ∨ (6 ≤ n + h / 60 ∧ k = n + h / 60 - 6)) ∧
    ((0 ≤ k ∧ k ≤ 1 ∧ channelOfHsv n h s v = v - c * k) ∨
     (1 ≤ k ∧ k ≤ 3 ∧ channelOfHsv n h s v = v - c) ∨
     (3 ≤ k ∧ k ≤ 4 ∧ channelOfHsv n h s v = v - c * (4 - k)) ∨
     (4 ≤ k ∧ channelOfHsv n h s v = v)) := by
  have key : ∀ k, channelOfHsv n h s v = v - c * max 0 (min (min k (4 - k)) 1) → 0 ≤ k →
      ((0 ≤ k ∧ k ≤ 1 ∧ channelOfHsv n h s v = v - c * k) ∨
       (1 ≤ k ∧ k ≤ 3 ∧ channelOfHsv n h s v = v - c) ∨
       (3 ≤ k ∧ k ≤ 4 ∧ channelOfHsv n h s v = v - c * (4 - k)) ∨
       (4 ≤ k ∧ channelOfHsv n h s v = v)) := by
    intro k hk k0
    obtain ⟨r1, r2, r3, r4⟩ := ramp_cases k
    rw [hk]
    rcases le_total k 1 with a | a
    · exact Or.inl ⟨k0, a, by rw [r1 k0 a]⟩
    · rcases le_total k 3 with b | b
      · exact Or.inr (Or.inl ⟨a, b, by rw [r2 a b, mul_one]⟩)
      · rcases le_total k 4 with d | d
        · exact Or.inr (Or.inr (Or.inl ⟨b, d, by rw [r3 b d]⟩))
        · exact Or.inr (Or.inr (Or.inr ⟨d, by rw [r4 d, mul_zero, sub_zero]⟩))
  by_cases hq : n + h / 60 < 6
  · exact ⟨_, Or.inl ⟨hq, rfl⟩, key _ (by unfold channelOfHsv; simp only [if_pos hq, hs]) h0⟩
  · exact ⟨_, Or.inr ⟨not_lt.1 hq, rfl⟩,
      key _ (by unfold channelOfHsv; simp only [if_neg hq, hs]) (by linarith [not_lt.1 hq])⟩

/-- The conversion back within one sector: `a` is its number, `t` the position in it. -/
theorem sector_back {h s v c t a : Rat} (hs : v * s = c) (hc : 0 < c) (t1 : -1 ≤ t) (t2 : t ≤ 1)
    (ha : (a = 0 ∧ ((0 ≤ t ∧ h = 60 * t) ∨ (t < 0 ∧ h = 60 * t + 360))) ∨
      (a = 2 ∧ h = 60 * (2 + t)) ∨ (a = 4 ∧ h = 60 * (4 + t))) (n : Rat)
    (hn : n = 5 ∨ n = 3 ∨ n = 1) :
    channelOfHsv n h s v =
      if n + a = 5 ∨ n + a = 11 then v
      else if (n + a = 3 ∨ n + a = 9) then (if 0 ≤ t then v - c + c * t else v - c)
      else (if 0 ≤ t then v - c else v - c - c * t) := by
  have w : 0 ≤ n + h / 60 := by
    rcases ha with ⟨-, ⟨_, e⟩ | ⟨_, e⟩⟩ | ⟨-, e⟩ | ⟨-, e⟩ <;> rcases hn with e' | e' | e' <;>
      rw [e, e'] <;> linarith
  obtain ⟨k, hk, hv⟩ := channel_cases hs w
  have c1 : 0 ≤ c * (1 - t) := mul_nonneg hc.le (by linarith)
  have c2 : 0 ≤ c * (1 + t) := mul_nonneg hc.le (by linarith)
  rcases ha with ⟨e0, ⟨t0, e⟩ | ⟨t0, e⟩⟩ | ⟨e0, e⟩ | ⟨e0, e⟩ <;> rcases hn with e' | e' | e' <;>
    subst e0 e e' <;> norm_num <;>
    rcases hk with ⟨k1, k2⟩ | ⟨k1, k2⟩ <;> subst k2 <;>
    rcases hv with ⟨v1, v2, v3⟩ | ⟨v1, v2, v3⟩ | ⟨v1, v2, v3⟩ | ⟨v1, v3⟩ <;>
    first
    | (exfalso; linarith)
    | (rw [v3]; done)
    | (rw [v3]; split <;> first | (exfalso; linarith) | linarith | nlinarith)
    | (rw [v3]; first | linarith | nlinarith)

/-- C53.  The channels describe the colour: the usual conversion back to RGB
gives red, green and blue of the colour. -/
theorem C53_faithful (x : Nat) (h s v : Rat) (e : hexToHsv x = some (h, s, v)) :
    channelOfHsv 5 h s v * 255 = redOf x ∧ channelOfHsv 3 h s v * 255 = greenOf x
      ∧ channelOfHsv 1 h s v * 255 = blueOf x := by
  unfold hexToHsv at e
  rw [hexToRgb_eq] at e
  suffices H : ∀ rn gn bn : Rat, 0 ≤ rn → 0 ≤ gn → 0 ≤ bn →
      (match (if max (max rn gn) bn - min (min rn gn) bn = 0 then some 0
        else if max (max rn gn) bn = rn then some (60 * (0 + (gn - bn) / (max (max rn gn) bn - min (min rn gn) bn)))
        else if max (max rn gn) bn = gn then some (60 * (2 + (bn - rn) / (max (max rn gn) bn - min (min rn gn) bn)))
        else if max (max rn gn) bn = bn then some (60 * (4 + (rn - gn) / (max (max rn gn) bn - min (min rn gn) bn)))
        else none : Option Rat) with
      | none => none
      | some h => some (if h < 0 then h + 360 else h,
          if max (max rn gn) bn = 0 then 0 else (max (max rn gn) bn - min (min rn gn) bn) / max (max rn gn) bn,
          max (max rn gn) bn)) = some (h, s, v) →
      channelOfHsv 5 h s v = rn ∧ channelOfHsv 3 h s v = gn ∧ channelOfHsv 1 h s v = bn by
    obtain ⟨a, b, c⟩ := H ((redOf x : Rat) / 255) ((greenOf x : Rat) / 255) ((blueOf x : Rat) / 255)
      (by positivity) (by positivity) (by positivity) e
    rw [a, b, c]
    refine ⟨?_, ?_, ?_⟩ <;> field_simp
  clear e
  intro rn gn bn r0 g0 b0 e
  have k1 : rn ≤ max (max rn gn) bn := le_trans (le_max_left _ _) (le_max_left _ _)
  have k2 : gn ≤ max (max rn gn) bn := le_trans (le_max_right _ _) (le_max_left _ _)
  have k3 : bn ≤ max (max rn gn) bn := le_max_right _ _
  have k4 : min (min rn gn) bn ≤ rn := le_trans (min_le_left _ _) (min_le_left _ _)
  have k5 : min (min rn gn) bn ≤ gn := le_trans (min_le_left _ _) (min_le_right _ _)
  have k6 : min (min rn gn) bn ≤ bn := min_le_right _ _
  have k8 : min (min rn gn) bn = rn ∨ min (min rn gn) bn = gn ∨ min (min rn gn) bn = bn := by
    rcases min_choice (min rn gn) bn with h | h
    · rcases min_choice rn gn with h' | h'
      · exact Or.inl (h.trans h')
      · exact Or.inr (Or.inl (h.trans h'))
    · exact Or.inr (Or.inr h)
  have m0 : 0 ≤ min (min rn gn) bn := le_min (le_min r0 g0) b0
  generalize max (max rn gn) bn = w at *
  generalize min (min rn gn) bn = m at *
  have ss : w * (if w = 0 then 0 else (w - m) / w) = w - m := by
    by_cases hz : w = 0
    · rw [if_pos hz]; linarith
    · rw [if_neg hz]; field_simp
  generalize (if w = 0 then 0 else (w - m) / w) = s' at *
  by_cases hc : w - m = 0
  · simp only [if_pos hc, lt_self_iff_false, if_false, Option.some.injEq, Prod.mk.injEq] at e
    obtain ⟨e1, e2, e3⟩ := e
    subst e1 e2 e3
    have : ∀ n, channelOfHsv n 0 s' w = w := by
      intro n; unfold channelOfHsv; simp only [ss, hc]; ring
    rw [this, this, this]
    refine ⟨?_, ?_, ?_⟩ <;> linarith
  · have hc0 : 0 < w - m := lt_of_le_of_ne (by linarith) (Ne.symm hc)
    simp only [if_neg hc] at e
    have pos : ∀ a b : Rat, (w - m) * ((a - b) / (w - m)) = a - b := by intro a b; field_simp
    have sgn : ∀ a b : Rat, (0 ≤ (a - b) / (w - m) → b ≤ a) ∧ ((a - b) / (w - m) < 0 → a < b) := by
      intro a b
      constructor
      · intro h; have := mul_nonneg hc0.le h; rw [pos] at this; linarith
      · intro h; have := mul_neg_of_pos_of_neg hc0 h; rw [pos] at this; linarith
    by_cases c1 : w = rn
    · obtain ⟨p1, p2⟩ := hue_part (x := gn) (y := bn) hc0 (by linarith) (by linarith)
      have p3 := pos gn bn
      obtain ⟨p4, p5⟩ := sgn gn bn
      simp only [if_pos c1, Option.some.injEq, Prod.mk.injEq, zero_add] at e
      generalize (gn - bn) / (w - m) = t at *
      obtain ⟨e1, e2, e3⟩ := e
      subst e2 e3
      have B := sector_back (h := h) (a := 0) ss hc0 p1 p2 (Or.inl ⟨rfl, by
        rcases lt_or_ge t 0 with q | q
        · right; rw [if_pos (by linarith)] at e1; exact ⟨q, e1.symm⟩
        · left; rw [if_neg (by linarith)] at e1; exact ⟨q, e1.symm⟩⟩)
      rw [B 5 (by simp), B 3 (by simp), B 1 (by simp)]
      norm_num
      rcases lt_or_ge t 0 with q | q
      · have := p5 q
        rw [if_neg (not_le.2 q), if_neg (not_le.2 q)]
        refine ⟨c1, ?_, ?_⟩ <;> rcases k8 with h | h | h <;> linarith
      · have := p4 q
        rw [if_pos q, if_pos q]
        refine ⟨c1, ?_, ?_⟩ <;> rcases k8 with h | h | h <;> linarith
    · by_cases c2 : w = gn
      · obtain ⟨p1, p2⟩ := hue_part (x := bn) (y := rn) hc0 (by linarith) (by linarith)
        have p3 := pos bn rn
        obtain ⟨p4, p5⟩ := sgn bn rn
        simp only [if_neg c1, if_pos c2, Option.some.injEq, Prod.mk.injEq] at e
        generalize (bn - rn) / (w - m) = t at *
        obtain ⟨e1, e2, e3⟩ := e
        subst e2 e3
        rw [if_neg (by linarith)] at e1
        have B := sector_back (h := h) (a := 2) ss hc0 p1 p2 (Or.inr (Or.inl ⟨rfl, e1.symm⟩))
        rw [B 5 (by simp), B 3 (by simp), B 1 (by simp)]
        norm_num
        rcases lt_or_ge t 0 with q | q
        · have := p5 q
          rw [if_neg (not_le.2 q), if_neg (not_le.2 q)]
          refine ⟨?_, c2, ?_⟩ <;> rcases k8 with h | h | h <;> linarith
        · have := p4 q
          rw [if_pos q, if_pos q]
          refine ⟨?_, c2, ?_⟩ <;> rcases k8 with h | h | h <;> linarith
      · by_cases c3 : w = bn
        · obtain ⟨p1, p2⟩ := hue_part (x := rn) (y := gn) hc0 (by linarith) (by linarith)
          have p3 := pos rn gn
          obtain ⟨p4, p5⟩ := sgn rn gn
          simp only [if_neg c1, if_neg c2, if_pos c3, Option.some.injEq, Prod.mk.injEq] at e
          generalize (rn - gn) / (w - m) = t at *
          obtain ⟨e1, e2, e3⟩ := e
          subst e2 e3
          rw [if_neg (by linarith)] at e1
          have B := sector_back (h := h) (a := 4) ss hc0 p1 p2 (Or.inr (Or.inr ⟨rfl, e1.symm⟩))
          rw [B 5 (by simp), B 3 (by simp), B 1 (by simp)]
          norm_num
          rcases lt_or_ge t 0 with q | q
          · have := p5 q
            rw [if_neg (not_le.2 q), if_neg (not_le.2 q)]
            refine ⟨?_, ?_, c3⟩ <;> rcases k8 with h | h | h <;> linarith
          · have := p4 q
            rw [if_pos q, if_pos q]
            refine ⟨?_, ?_, c3⟩ <;> rcases k8 with h | h | h <;> linarith
        · simp only [if_neg c1, if_neg c2, if_neg c3] at e
          cases e

example : hexToHsv 0x804000 = some (30, 1, 128 / 255) ∧
    channelOfHsv 5 30 1 (128 / 255) * 255 = 128 ∧ channelOfHsv 3 30 1 (128 / 255) * 255 = 64 ∧
    channelOfHsv 1 30 1 (128 / 255) * 255 = 0 := by decide +kernel

/-- C53.  Different colours have different channels. -/
theorem C53_injective (x y : Nat) (hx : x < 16777216) (hy : y < 16777216)
    (e : hexToHsv x = hexToHsv y) : x = y := by
  obtain ⟨h, s, v, ex, -⟩ := C53_ranges_partial x
  obtain ⟨a1, a2, a3⟩ := C53_faithful x h s v ex
  obtain ⟨b1, b2, b3⟩ := C53_faithful y h s v (e ▸ ex)
  have c1 : redOf x = redOf y := by exact_mod_cast a1.symm.trans b1
  have c2 : greenOf x = greenOf y := by exact_mod_cast a2.symm.trans b2
  have c3 : blueOf x = blueOf y := by exact_mod_cast a3.symm.trans b3
  unfold redOf at c1; unfold greenOf at c2; unfold blueOf at c3
  omega

/-- C53.  The documented upper bound 359 of the hue is not kept: the hue of
`0xff0001` is 359 and 13/17. -/
theorem C53_negation :
    ¬ ∀ x h s v, x < 16777216 → hexToHsv x = some (h, s, v) → h ≤ 359 := by
  intro hall
  have := hall 0xff0001 (6116 / 17) 1 1 (by decide) (by decide +kernel)
  norm_num at this

end Kolombos
