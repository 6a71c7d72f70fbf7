import Verif.Model.Sgr
import Verif.Spec.Terminal
import Verif.Lemmas.Regex
/-
SGR sequences: assembly, the terminal's reading of it, removal.
-/
set_option linter.unusedSimpArgs false

namespace Kolombos
open Spec

/-! ### Terminal -/

theorem term_append (t : Term) (a b : Str) :
    t.run (a ++ b) = (((t.run a).1.run b).1, (t.run a).2 ++ ((t.run a).1.run b).2) := by
  induction a generalizing t with
  | nil => simp [Term.run]
  | cons c a ih => simp only [List.cons_append, Term.run, ih, List.append_assoc]

theorem term_csi_digits (st : Style) (ps : List Nat) (l : Str) (h : ∀ c ∈ l, c.isDigit = true) (cur : Nat) :
    Term.run ⟨.csi ps cur, st⟩ l = (⟨.csi ps (Nat.ofDigitChars 10 l cur), st⟩, []) := by
  induction l generalizing cur with
  | nil => simp [Term.run]
  | cons c l ih =>
    have hc := h c (by simp)
    have hd : '0' ≤ c ∧ c ≤ '9' := by
      simp [Char.isDigit] at hc
      exact hc
    rw [Term.run]
    simp only [Term.step, hd, and_self, if_true]
    rw [ih (fun x hx => h x (by simp [hx])), Nat.ofDigitChars_cons]
    have : '0'.toNat = 48 := rfl
    rw [this, Nat.mul_comm]
    simp

theorem dec_digit {n : Nat} {c : Char} (h : c ∈ dec n) : c.isDigit = true :=
  Nat.isDigit_of_mem_toDigits (by decide) (by decide) h

theorem term_csi_dec (st : Style) (ps : List Nat) (n : Nat) :
    Term.run ⟨.csi ps 0, st⟩ (dec n) = (⟨.csi ps n, st⟩, []) := by
  rw [term_csi_digits st ps _ (fun c hc => dec_digit hc), dec, Nat.ofDigitChars_ten_toDigits]

theorem term_csi_join (st : Style) (ps : List Nat) (l : List Nat) (h : l ≠ []) :
    Term.run ⟨.csi ps 0, st⟩ (join [';'] (l.map dec) ++ ['m']) = (⟨.ground, applySgr (ps ++ l) st⟩, []) := by
  induction l generalizing ps with
  | nil => exact absurd rfl h
  | cons n l ih =>
    cases l with
    | nil =>
      simp only [List.map_cons, List.map_nil, join]
      rw [term_append, term_csi_dec]
      simp [Term.run, Term.step]
    | cons m l =>
      simp only [List.map_cons, join] at ih ⊢
      rw [List.append_assoc, List.append_assoc, term_append, term_csi_dec, term_append]
      have : Term.run ⟨.csi ps n, st⟩ [';'] = (⟨.csi (ps ++ [n]) 0, st⟩, []) := by
        simp [Term.run, Term.step]
      rw [this]
      simp only
      rw [ih (ps ++ [n]) (by simp)]
      simp

/-- The terminal reads an assembled sequence as its parameters. -/
theorem term_assemble (st : Style) (s : Sgr) :
    Term.run ⟨.ground, st⟩ s.assemble = (⟨.ground, applySgr s st⟩, []) := by
  unfold Sgr.assemble
  by_cases h0 : s.length = 0
  · rw [if_pos h0, List.length_eq_zero_iff.1 h0]; rfl
  rw [if_neg h0]
  have hs : s ≠ [] := fun h => h0 (by simp [h])
  have e : ∀ l : Str, Term.run ⟨.ground, st⟩ ('\x1b' :: '[' :: l) = Term.run ⟨.csi [] 0, st⟩ l := by
    intro l
    simp [Term.run, Term.step]
  simp only [e]
  by_cases h1 : s = [0]
  · subst h1
    simp [Term.run, Term.step, join, applySgr, applyOne]
  · rw [if_neg h1, term_csi_join st [] s hs]; rfl

/-- Text without ESC appears as it is. -/
theorem term_text (st : Style) (s : Str) (h : '\x1b' ∉ s) :
    Term.run ⟨.ground, st⟩ s = (⟨.ground, st⟩, s.map fun c => (c, st)) := by
  induction s with
  | nil => rfl
  | cons c s ih =>
    have hc : c ≠ '\x1b' := fun e => h (by simp [e])
    rw [Term.run]
    simp only [Term.step, hc, if_false]
    rw [ih (fun hm => h (by simp [hm]))]
    rfl

/-! ### Removal -/

/-- The pattern without its groups. -/
def Re.bare {α : Type} : Re α → Re α
  | .eps => .eps
  | .cls p => .cls p
  | .seq a b => .seq a.bare b.bare
  | .alt a b => .alt a.bare b.bare
  | .star a => .star a.bare
  | .lazy a => .lazy a.bare
  | .grp _ a => a.bare

theorem starRun_fst {α : Type} {f g : List α → Caps α → List (List α × Caps α)}
    (h : ∀ s c c', (f s c).map Prod.fst = (g s c').map Prod.fst) (n : Nat) (s : List α) (c c' : Caps α) :
    (starRun f n s c).map Prod.fst = (starRun g n s c').map Prod.fst := by
  induction n generalizing s c c' with
  | zero => rfl
  | succ n ih =>
    simp only [starRun, List.map_append, List.map_flatMap, List.map_cons, List.map_nil]
    congr 1
    have key : ∀ (u v : List (List α × Caps α)), u.map Prod.fst = v.map Prod.fst →
        (u.flatMap fun r => (if r.1.length < s.length then starRun f n r.1 r.2 else []).map Prod.fst) =
        (v.flatMap fun r => (if r.1.length < s.length then starRun g n r.1 r.2 else []).map Prod.fst) := by
      intro u
      induction u with
      | nil => intro v hv; simp at hv; simp [hv]
      | cons a u ihu =>
        intro v hv
        cases v with
        | nil => simp at hv
        | cons b v =>
          simp only [List.map_cons, List.cons.injEq] at hv
          simp only [List.flatMap_cons, hv.1, ihu v hv.2]
          congr 1
          split
          · exact ih _ _ _
          · rfl
    exact key _ _ (h s c c')

theorem lazyRun_fst {α : Type} {f g : List α → Caps α → List (List α × Caps α)}
    (h : ∀ s c c', (f s c).map Prod.fst = (g s c').map Prod.fst) (n : Nat) (s : List α) (c c' : Caps α) :
    (lazyRun f n s c).map Prod.fst = (lazyRun g n s c').map Prod.fst := by
  induction n generalizing s c c' with
  | zero => rfl
  | succ n ih =>
    simp only [lazyRun, List.map_flatMap, List.map_cons]
    congr 1
    have key : ∀ (u v : List (List α × Caps α)), u.map Prod.fst = v.map Prod.fst →
        (u.flatMap fun r => (if r.1.length < s.length then lazyRun f n r.1 r.2 else []).map Prod.fst) =
        (v.flatMap fun r => (if r.1.length < s.length then lazyRun g n r.1 r.2 else []).map Prod.fst) := by
      intro u
      induction u with
      | nil => intro v hv; simp at hv; simp [hv]
      | cons a u ihu =>
        intro v hv
        cases v with
        | nil => simp at hv
        | cons b v =>
          simp only [List.map_cons, List.cons.injEq] at hv
          simp only [List.flatMap_cons, hv.1, ihu v hv.2]
          congr 1
          split
          · exact ih _ _ _
          · rfl
    exact key _ _ (h s c c')

theorem flatMap_fst {α : Type} {u v : List (List α × Caps α)} {F G : List α × Caps α → List (List α × Caps α)}
    (h : u.map Prod.fst = v.map Prod.fst)
    (hFG : ∀ s c c', (F (s, c)).map Prod.fst = (G (s, c')).map Prod.fst) :
    (u.flatMap F).map Prod.fst = (v.flatMap G).map Prod.fst := by
  induction u generalizing v with
  | nil => simp at h; simp [h]
  | cons a u ih =>
    cases v with
    | nil => simp at h
    | cons b v =>
      simp only [List.map_cons, List.cons.injEq] at h
      simp only [List.flatMap_cons, List.map_append, ih h.2]
      congr 1
      obtain ⟨a1, a2⟩ := a
      obtain ⟨b1, b2⟩ := b
      simp only at h
      rw [h.1]; exact hFG _ _ _

/-- Groups do not influence what is matched. -/
theorem run_bare {α : Type} (r : Re α) (s : List α) (c c' : Caps α) :
    (r.run s c).map Prod.fst = (r.bare.run s c').map Prod.fst := by
  induction r generalizing s c c' with
  | eps => rfl
  | cls p => cases s with
    | nil => rfl
    | cons a s => simp only [Re.bare, Re.run]; split <;> rfl
  | seq a b iha ihb =>
    simp only [Re.bare, Re.run]
    exact flatMap_fst (iha s c c') (fun s c c' => ihb s c c')
  | alt a b iha ihb =>
    simp only [Re.bare, Re.run, List.map_append, iha s c c', ihb s c c']
  | star a ih =>
    simp only [Re.bare, Re.run]
    exact starRun_fst ih _ s c c'
  | lazy a ih =>
    simp only [Re.bare, Re.run]
    exact lazyRun_fst ih _ s c c'
  | grp n a ih =>
    simp only [Re.bare, Re.run, List.map_map]
    rw [← ih s c c']
    rfl

/-- Parameter characters of an SGR sequence. -/
def isSgrParam (c : Char) : Bool := c.isDigit || c == ';'

/-- What follows the SGR sequence at the beginning of a text. -/
def sgrTail : Str → Option Str
  | '\x1b' :: '[' :: t =>
    match t.dropWhile isSgrParam with
    | 'm' :: r => some r
    | _ => none
  | _ => none

theorem sgr_rests (s : Str) :
    (sgrRegexp.run s []).map Prod.fst = (sgrTail s).toList := by
  rw [run_bare _ _ _ []]
  have hb : sgrRegexp.bare = .seq (.cls (· == '\x1b')) (.seq (.cls (· == '[')) (.seq (.star (.cls isSgrParam)) (.cls (· == 'm')))) := rfl
  rw [hb]
  cases s with
  | nil => rfl
  | cons a s =>
    rw [Re.run, Re.run]
    by_cases ha : a = '\x1b'
    · subst ha
      simp only [beq_self_eq_true, if_true, List.flatMap_cons, List.flatMap_nil, List.append_nil]
      cases s with
      | nil => rfl
      | cons b s =>
        rw [Re.run, Re.run]
        by_cases hb : b = '['
        · subst hb
          simp only [beq_self_eq_true, if_true, List.flatMap_cons, List.flatMap_nil, List.append_nil]
          rw [Re.run, star_cls_flatMap]
          · simp only [sgrTail]
            generalize s.dropWhile isSgrParam = x
            cases x with
            | nil => rfl
            | cons d x =>
              by_cases hd : d = 'm'
              · subst hd; rfl
              · simp [Re.run, hd]
          · intro a t h
            have : a ≠ 'm' := by rintro rfl; exact absurd h (by decide)
            simp [Re.run, this]
        · simp [hb, sgrTail]
    · simp [ha, sgrTail]

theorem sgrTail_length {s r : Str} (h : sgrTail s = some r) : r.length < s.length := by
  unfold sgrTail at h
  split at h
  · rename_i t
    split at h
    · rename_i r' hr
      cases h
      have := (List.dropWhile_suffix isSgrParam (l := t)).length_le
      rw [hr] at this
      simp at this ⊢; omega
    · cases h
  · cases h

theorem sgr_first (s : Str) : (sgrRegexp.first s).map Prod.snd = sgrTail s := by
  unfold Re.first
  have := sgr_rests s
  cases hr : sgrRegexp.run s [] with
  | nil => rw [hr] at this; cases h : sgrTail s <;> simp [h] at this ⊢
  | cons x xs =>
    rw [hr] at this
    cases h : sgrTail s with
    | none => rw [h] at this; simp at this
    | some y => rw [h] at this; simp at this ⊢; exact this.1

/-- `re.sub` with the empty replacement. -/
def strip : Nat → Str → Str
  | 0, _ => []
  | _ + 1, [] => []
  | n + 1, c :: s =>
    match sgrTail (c :: s) with
    | some r => strip n r
    | none => c :: strip n s

theorem scanAux_strip (n : Nat) (s : Str) :
    (sgrRegexp.scanAux n s).flatMap (fun | .copied a => [a] | .matched _ => []) = strip n s := by
  induction n generalizing s with
  | zero => rfl
  | succ n ih =>
    cases s with
    | nil => rfl
    | cons c s =>
      rw [Re.scanAux, strip]
      have hf := sgr_first (c :: s)
      cases hm : sgrRegexp.first (c :: s) with
      | none =>
        rw [hm] at hf
        rw [← hf]
        simp only [Option.map_none, List.flatMap_cons, ih]; rfl
      | some x =>
        obtain ⟨m, rest⟩ := x
        rw [hm] at hf
        simp only [Option.map_some] at hf
        rw [← hf]
        simp only
        rw [if_pos (sgrTail_length hf.symm)]
        simp only [List.flatMap_cons, ih, List.nil_append]

theorem strip_mono (n m : Nat) (s : Str) (hn : s.length ≤ n) (hm : s.length ≤ m) : strip n s = strip m s := by
  induction n generalizing m s with
  | zero =>
    have : s = [] := List.length_eq_zero_iff.1 (by omega)
    subst this
    cases m <;> rfl
  | succ n ih =>
    cases s with
    | nil => cases m <;> rfl
    | cons c s =>
      cases m with
      | zero => simp at hm
      | succ m =>
        simp only [List.length_cons] at hn hm
        rw [strip, strip]
        cases h : sgrTail (c :: s) with
        | none => simp only; rw [ih m s (by omega) (by omega)]
        | some r =>
          have := sgrTail_length h
          simp only [List.length_cons] at this
          simp only
          rw [ih m r (by omega) (by omega)]

theorem stripSgr_eq (s : Str) : stripSgr s = strip s.length s := by
  rw [← scanAux_strip]
  unfold stripSgr Re.sub Re.scan
  congr 1
  funext x
  cases x <;> rfl

theorem stripSgr_nil : stripSgr [] = [] := rfl

theorem stripSgr_cons (c : Char) (s : Str) :
    stripSgr (c :: s) = match sgrTail (c :: s) with
      | some r => stripSgr r
      | none => c :: stripSgr s := by
  rw [stripSgr_eq, List.length_cons, strip]
  cases h : sgrTail (c :: s) with
  | none => simp only [stripSgr_eq]
  | some r =>
    have := sgrTail_length h
    simp only [List.length_cons] at this
    simp only [stripSgr_eq]
    exact strip_mono _ _ _ (by omega) (Nat.le_refl _)

theorem sgrTail_of_ne {c : Char} {s : Str} (h : c ≠ '\x1b') : sgrTail (c :: s) = none := by
  unfold sgrTail
  split
  · rename_i heq; exact absurd (List.cons.inj heq).1 h
  · rfl

theorem stripSgr_text (a s : Str) (h : '\x1b' ∉ a) : stripSgr (a ++ s) = a ++ stripSgr s := by
  induction a with
  | nil => rfl
  | cons c a ih =>
    have hc : c ≠ '\x1b' := fun e => h (by simp [e])
    rw [List.cons_append, stripSgr_cons, sgrTail_of_ne hc]
    simp only
    rw [ih (fun hm => h (by simp [hm]))]
    rfl

theorem join_sgrParam (l : List Nat) : ∀ c ∈ join [';'] (l.map dec), isSgrParam c = true := by
  induction l with
  | nil => simp [join]
  | cons n l ih =>
    cases l with
    | nil =>
      intro c hc
      simp only [List.map_cons, List.map_nil, join] at hc
      simp [isSgrParam, dec_digit hc]
    | cons m l =>
      intro c hc
      simp only [List.map_cons, join, List.mem_append, List.mem_singleton] at hc ih
      rcases hc with (hc | rfl) | hc
      · simp [isSgrParam, dec_digit hc]
      · rfl
      · exact ih c hc

theorem sgr_dropWhile {α : Type} {p : α → Bool} {a : List α} {b : α} {r : List α} (h : ∀ x ∈ a, p x = true)
    (hb : p b = false) : (a ++ b :: r).dropWhile p = b :: r := by
  induction a with
  | nil => simp [hb]
  | cons c a ih => simp [h c (by simp), ih (fun x hx => h x (by simp [hx]))]

theorem stripSgr_assemble (q : Sgr) (s : Str) : stripSgr (q.assemble ++ s) = stripSgr s := by
  unfold Sgr.assemble
  split
  · rfl
  · simp only [List.cons_append]
    rw [stripSgr_cons]
    have : ∀ l : List Nat, sgrTail ('\x1b' :: '[' :: (join [';'] (l.map dec) ++ ['m'] ++ s)) = some s := by
      intro l
      unfold sgrTail
      simp only [List.append_assoc, List.cons_append, List.nil_append]
      rw [sgr_dropWhile (join_sgrParam l) (by decide)]
      rfl
    rw [this]

/-! ### Assembly -/

theorem dec_inj {m n : Nat} (h : dec m = dec n) : m = n := by
  have := congrArg (fun l => Nat.ofDigitChars 10 l 0) h
  simpa [dec, Nat.ofDigitChars_ten_toDigits] using this

theorem dec_ne_nil (n : Nat) : dec n ≠ [] := Nat.toDigits_ne_nil

theorem sgr_split_at {a b x y : Str} {c : Char} (ha : c ∉ a) (hb : c ∉ b) (h : a ++ c :: x = b ++ c :: y) :
    a = b ∧ x = y := by
  induction a generalizing b with
  | nil =>
    cases b with
    | nil => simp at h; exact ⟨rfl, h⟩
    | cons d b => simp at h; exact absurd (by simp [h.1]) hb
  | cons d a ih =>
    cases b with
    | nil => simp at h; exact absurd (by simp [h.1]) ha
    | cons e b =>
      simp only [List.cons_append, List.cons.injEq] at h
      obtain ⟨h1, h2⟩ := ih (fun hm => ha (by simp [hm])) (fun hm => hb (by simp [hm])) h.2
      exact ⟨by rw [h.1, h1], h2⟩

theorem not_sep_dec (n : Nat) : ';' ∉ dec n := fun h => by
  have := dec_digit h
  exact absurd this (by decide)

theorem join_dec_inj {l m : List Nat} (hl : l ≠ []) (hm : m ≠ [])
    (h : join [';'] (l.map dec) = join [';'] (m.map dec)) : l = m := by
  induction l generalizing m with
  | nil => exact absurd rfl hl
  | cons a l ih =>
    cases m with
    | nil => exact absurd rfl hm
    | cons b m =>
      cases l with
      | nil =>
        cases m with
        | nil => simp only [List.map_cons, List.map_nil, join] at h; rw [dec_inj h]
        | cons c m =>
          simp only [List.map_cons, List.map_nil, join] at h
          exact absurd (by rw [h]; simp) (not_sep_dec a)
      | cons c l =>
        cases m with
        | nil =>
          simp only [List.map_cons, List.map_nil, join] at h
          exact absurd (by rw [← h]; simp) (not_sep_dec b)
        | cons d m =>
          simp only [List.map_cons, join, List.append_assoc, List.cons_append, List.nil_append] at h ih
          obtain ⟨h1, h2⟩ := sgr_split_at (not_sep_dec a) (not_sep_dec b) h
          rw [dec_inj h1, ih (m := d :: m) (by simp) (by simp) h2]

theorem assemble_inj {a b : Sgr} (h : a.assemble = b.assemble) : a = b := by
  unfold Sgr.assemble at h
  by_cases ha : a.length = 0
  · by_cases hb : b.length = 0
    · rw [List.length_eq_zero_iff.1 ha, List.length_eq_zero_iff.1 hb]
    · rw [if_pos ha, if_neg hb] at h; simp at h
  · by_cases hb : b.length = 0
    · rw [if_neg ha, if_pos hb] at h; simp at h
    · rw [if_neg ha, if_neg hb] at h
      have ha' : a ≠ [] := fun e => ha (by simp [e])
      have hb' : b ≠ [] := fun e => hb (by simp [e])
      simp only [List.cons.injEq, true_and, List.append_cancel_right_eq] at h
      have ne : ∀ l : List Nat, l ≠ [] → join [';'] (l.map dec) ≠ [] := by
        intro l hl
        cases l with
        | nil => exact absurd rfl hl
        | cons n l => cases l <;> simp [join, dec_ne_nil]
      by_cases h1 : a = [0]
      · by_cases h2 : b = [0]
        · rw [h1, h2]
        · rw [if_pos h1, if_neg h2] at h; exact absurd h.symm (ne b hb')
      · by_cases h2 : b = [0]
        · rw [if_neg h1, if_pos h2] at h; exact absurd h (ne a ha')
        · rw [if_neg h1, if_neg h2] at h; exact join_dec_inj ha' hb' h

end Kolombos
