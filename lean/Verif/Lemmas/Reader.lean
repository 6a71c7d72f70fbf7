import Verif.Spec.Reader
/-
The reader as a list of calls of its callback.
-/
set_option linter.unusedSimpArgs false

namespace Kolombos
open Reader


/-- All calls of the callback, and the error of a failed read. -/
def readEvents (mb ml : Option Int) : List IoStep → Nat → Nat → List ReadEvent × Option Err
  | [], offset, _ => ([⟨[], offset, true⟩], none)
  | .raise e :: _, _, _ => ([], some e)
  | .data raw :: rest, offset, lines =>
    if raw = [] then ([⟨[], offset, true⟩], none)
    else
      let r := limitLines ml raw lines
      if bytesExceeded mb offset r.1.length then
        ([⟨pyTake (mb.getD 0 - offset) r.1, offset, true⟩], none)
      else
        let offset' := offset + r.1.length
        if limitReached mb ml offset' r.2 then ([⟨r.1, offset, false⟩, ⟨[], offset', true⟩], none)
        else
          let t := readEvents mb ml rest offset' r.2
          (⟨r.1, offset, false⟩ :: t.1, t.2)

theorem bind_pure {α : Type} (r : Run α) : r.bind .pure = r := by
  cases r with
  | mk out res => cases res <;> simp [Run.bind, Run.pure]

theorem pure_bind {α β : Type} (a : α) (f : α → Run β) : (Run.pure a).bind f = f a := by
  simp [Run.bind, Run.pure]

theorem bind_assoc {α β γ : Type} (r : Run α) (f : α → Run β) (g : β → Run γ) :
    (r.bind f).bind g = r.bind fun a => (f a).bind g := by
  obtain ⟨out, res⟩ := r
  cases res with
  | ok a =>
    simp only [Run.bind]
    generalize f a = x
    obtain ⟨out', res'⟩ := x
    cases res' <;> simp
  | err e => simp [Run.bind]
  | timeout => simp [Run.bind]

theorem playAll_cons {σ : Type} (cb : σ → Bytes → Nat → Bool → Run σ) (e : ReadEvent) (es : List ReadEvent)
    (x : Option Err) (st : σ) :
    playAll cb (e :: es, x) st = (cb st e.data e.offset e.finish).bind fun st' => playAll cb (es, x) st' := by
  simp [playAll, playEvents, bind_assoc]

theorem playAll_nil {σ : Type} (cb : σ → Bytes → Nat → Bool → Run σ) (st : σ) :
    playAll cb ([], none) st = .pure st := by simp [playAll, playEvents, pure_bind]

theorem loop_play {σ : Type} (mb ml : Option Int) (cb : σ → Bytes → Nat → Bool → Run σ) (io : List IoStep)
    (offset lines : Nat) (st : σ) :
    loop mb ml cb io offset lines st = playAll cb (readEvents mb ml io offset lines) st := by
  have one : ∀ e : ReadEvent, playAll cb ([e], none) st = cb st e.data e.offset e.finish := by
    intro e
    rw [playAll_cons]
    simp only [playAll_nil]
    exact bind_pure _
  induction io generalizing offset lines st with
  | nil => rw [loop, readEvents, one]
  | cons s io ih =>
    cases s with
    | raise e => rw [loop, readEvents]; simp [playAll, playEvents, pure_bind, Run.fail]
    | data raw =>
      rw [loop, readEvents]
      by_cases h0 : raw = []
      · rw [if_pos h0, if_pos h0, one]
      · rw [if_neg h0, if_neg h0]
        simp only
        by_cases h1 : bytesExceeded mb offset (limitLines ml raw lines).1.length = true
        · rw [if_pos h1, if_pos h1, one]
        · rw [if_neg h1, if_neg h1]
          by_cases h2 : limitReached mb ml (offset + (limitLines ml raw lines).1.length) (limitLines ml raw lines).2 = true
          · rw [if_pos h2, playAll_cons]
            congr 1
            funext st'
            rw [if_pos h2, playAll_cons]
            simp only [playAll_nil]
            exact (bind_pure _).symm
          · rw [if_neg h2, playAll_cons]
            congr 1
            funext st'
            rw [if_neg h2]
            apply ih
            intro e
            rw [playAll_cons]
            simp only [playAll_nil]
            exact bind_pure _

theorem playEvents_record (es : List ReadEvent) (l : List ReadEvent) :
    playEvents record es l = .pure (l ++ es) := by
  induction es generalizing l with
  | nil => simp [playEvents]
  | cons e es ih => rw [playEvents, record, pure_bind, ih]; simp

theorem loop_record (mb ml : Option Int) (io : List IoStep) (offset lines : Nat) (l : List ReadEvent) :
    loop mb ml record io offset lines l =
      match (readEvents mb ml io offset lines).2 with
      | none => .pure (l ++ (readEvents mb ml io offset lines).1)
      | some e => .fail e := by
  rw [loop_play, playAll, playEvents_record, pure_bind]
  cases (readEvents mb ml io offset lines).2 <;> rfl

theorem readEvents_noRaise {mb ml : Option Int} {io : List IoStep} (h : NoRaise io) (offset lines : Nat) :
    (readEvents mb ml io offset lines).2 = none := by
  induction io generalizing offset lines with
  | nil => rfl
  | cons s io ih =>
    have h' : NoRaise io := fun e he => h e (by simp [he])
    cases s with
    | raise e => exact absurd (by simp) (h e)
    | data raw =>
      rw [readEvents]
      split
      · rfl
      · simp only
        split
        · rfl
        · split
          · rfl
          · exact ih h' _ _

/-- The offsets are the numbers of bytes delivered before; only the last call
(if no read failed) is marked as the end. -/
structure EvShape (offset : Nat) (t : List ReadEvent × Option Err) : Prop where
  off : ∀ a e b, t.1 = a ++ e :: b → e.offset = offset + (a.flatMap ReadEvent.data).length
  last : t.2 = none → ∃ a e, t.1 = a ++ [e] ∧ e.finish = true ∧ ∀ x ∈ a, x.finish = false
  failed : t.2 ≠ none → ∀ x ∈ t.1, x.finish = false

theorem EvShape.one (offset : Nat) (d : Bytes) : EvShape offset ([⟨d, offset, true⟩], none) := by
  refine ⟨?_, fun _ => ⟨[], _, rfl, rfl, by simp⟩, by simp⟩
  intro a e b h
  cases a with
  | nil => simp at h; simp [← h.1]
  | cons x a => simp at h

theorem EvShape.step {offset : Nat} {d : Bytes} {t : List ReadEvent × Option Err} (h : EvShape (offset + d.length) t) :
    EvShape offset (⟨d, offset, false⟩ :: t.1, t.2) := by
  obtain ⟨h1, h2, h3⟩ := h
  refine ⟨?_, ?_, ?_⟩
  · intro a e b h
    cases a with
    | nil => simp at h; simp [← h.1]
    | cons x a =>
      simp only [List.cons_append, List.cons.injEq] at h
      rw [h1 a e b h.2, ← h.1]
      simp; omega
  · intro hn
    obtain ⟨a, e, k1, k2, k3⟩ := h2 hn
    refine ⟨_ :: a, e, by simp only [k1]; rfl, k2, ?_⟩
    intro x hx
    rcases List.mem_cons.1 hx with rfl | hx
    · rfl
    · exact k3 x hx
  · intro hn x hx
    rcases List.mem_cons.1 hx with rfl | hx
    · rfl
    · exact h3 hn x hx

theorem readEvents_shape (mb ml : Option Int) (io : List IoStep) (offset lines : Nat) :
    EvShape offset (readEvents mb ml io offset lines) := by
  induction io generalizing offset lines with
  | nil => exact EvShape.one _ []
  | cons s io ih =>
    cases s with
    | raise e => rw [readEvents]; exact ⟨by simp, by simp, by simp⟩
    | data raw =>
      rw [readEvents]
      by_cases h0 : raw = []
      · rw [if_pos h0]; exact EvShape.one _ []
      · rw [if_neg h0]
        simp only
        by_cases h1 : bytesExceeded mb offset (limitLines ml raw lines).1.length = true
        · rw [if_pos h1]; exact EvShape.one _ _
        · rw [if_neg h1]
          by_cases h2 : limitReached mb ml (offset + (limitLines ml raw lines).1.length) (limitLines ml raw lines).2 = true
          · rw [if_pos h2]; exact (EvShape.one _ _).step
          · rw [if_neg h2]; exact (ih _ _).step

/-! ### Limits -/

theorem cropLines_append (m : Nat) (a b : Bytes) (k : Nat) (hk : k < m) :
    (m ≤ (cropLines m a k).2 → cropLines m (a ++ b) k = cropLines m a k) ∧
    ((cropLines m a k).2 < m → (cropLines m a k).1 = a ∧
      cropLines m (a ++ b) k = (a ++ (cropLines m b (cropLines m a k).2).1, (cropLines m b (cropLines m a k).2).2)) := by
  induction a generalizing k with
  | nil =>
    refine ⟨fun h => ?_, fun _ => ?_⟩
    · simp [cropLines] at h; omega
    · simp [cropLines]
  | cons c a ih =>
    rw [List.cons_append, cropLines, cropLines]
    by_cases hc : c = 0x0a
    · rw [if_pos hc, if_pos hc]
      by_cases hm : ((k + 1 : Nat) : Int) ≥ m
      · rw [if_pos hm, if_pos hm]
        refine ⟨fun _ => rfl, fun h => ?_⟩
        simp only at h; omega
      · rw [if_neg hm, if_neg hm]
        obtain ⟨h1, h2⟩ := ih (k + 1) (by omega)
        refine ⟨fun h => ?_, fun h => ?_⟩
        · simp only at h; simp only [h1 h]
        · simp only at h
          obtain ⟨e1, e2⟩ := h2 h
          simp only [e1, e2, List.cons_append, and_self]
    · rw [if_neg hc, if_neg hc]
      obtain ⟨h1, h2⟩ := ih k hk
      refine ⟨fun h => ?_, fun h => ?_⟩
      · simp only at h; simp only [h1 h]
      · simp only at h
        obtain ⟨e1, e2⟩ := h2 h
        simp only [e1, e2, List.cons_append, and_self]

theorem cropLines_spec (m : Nat) (s : Bytes) (k : Nat) (hk : k < m) :
    ((cropLines m s k).1 = s ∧ k + s.count 0x0a < m) ∨
    ((cropLines m s k).1 ++ [0x0a] <+: s ∧ k + (cropLines m s k).1.count 0x0a + 1 = m) := by
  induction s generalizing k with
  | nil => left; simp [cropLines, hk]
  | cons c s ih =>
    rw [cropLines]
    by_cases hc : c = 0x0a
    · subst hc
      rw [if_pos rfl]
      by_cases hm : ((k + 1 : Nat) : Int) ≥ m
      · rw [if_pos hm]; right; simp; omega
      · rw [if_neg hm]
        rcases ih (k + 1) (by omega) with ⟨h1, h2⟩ | ⟨h1, h2⟩
        · left; simp only [h1, List.count_cons_self]; exact ⟨trivial, by omega⟩
        · right
          simp only [List.count_cons_self, List.cons_append]
          exact ⟨by simpa using h1, by omega⟩
    · rw [if_neg hc]
      rcases ih k hk with ⟨h1, h2⟩ | ⟨h1, h2⟩
      · left; simp only [h1]; rw [List.count_cons_of_ne hc]; exact ⟨trivial, h2⟩
      · right
        simp only [List.cons_append]
        rw [List.count_cons_of_ne hc]
        exact ⟨by simpa using h1, h2⟩

theorem beforeLf_unique {n : Nat} {s p q : Bytes} (hp : BeforeLf n s p) (hq : BeforeLf n s q) : p = q := by
  have aux : ∀ {p q : Bytes}, p ++ [0x0a] <+: s → p.count 0x0a + 1 = n → q ++ [0x0a] <+: s → q.count 0x0a + 1 = n →
      p.length ≤ q.length → p = q := by
    intro p q h1 h2 h3 h4 hl
    have hpre : p <+: q := List.prefix_of_prefix_length_le ((List.prefix_append p _).trans h1)
      ((List.prefix_append q _).trans h3) hl
    obtain ⟨t, rfl⟩ := hpre
    cases t with
    | nil => simp
    | cons c t =>
      exfalso
      have : p ++ [0x0a] <+: p ++ c :: t ++ [0x0a] :=
        List.prefix_of_prefix_length_le h1 h3 (by simp)
      rw [List.append_assoc, List.prefix_append_right_inj] at this
      obtain ⟨r, hr⟩ := this
      simp at hr
      rw [← hr.1, List.count_append, List.count_cons_self] at h4
      omega
  rcases hp with ⟨rfl, hp⟩ | ⟨hp1, hp2⟩ <;> rcases hq with ⟨h, hq⟩ | ⟨hq1, hq2⟩
  · exact h.symm
  · exfalso
    have := hq1.sublist.count_le 0x0a
    simp at this; omega
  · exfalso
    have := hp1.sublist.count_le 0x0a
    rw [← h] at this
    simp at this; omega
  · rcases Nat.le_total p.length q.length with hl | hl
    · exact aux hp1 hp2 hq1 hq2 hl
    · exact (aux hq1 hq2 hp1 hp2 hl).symm

/-- The part under the line limit when `k` line feeds came before. -/
def linesF (ml : Option Nat) (k : Nat) (s : Bytes) : Bytes :=
  match limit ml with
  | some m => (cropLines m s k).1
  | none => s

/-- The part under the byte limit when `k` bytes came before. -/
def bytesF (mb : Option Nat) (k : Nat) (s : Bytes) : Bytes :=
  match limit mb with
  | some n => s.take (n - k)
  | none => s

theorem limitLines_eq (ml : Option Nat) (s : Bytes) (k : Nat) :
    limitLines (optInt ml) s k = match limit ml with
      | some m => cropLines m s k
      | none => (s, k) := by
  cases ml with
  | none => rfl
  | some n =>
    cases n with
    | zero => rfl
    | succ n =>
      simp only [optInt, Option.map_some, limitLines, limit]
      rw [if_pos (by simp; omega)]
      rfl

theorem bytesExceeded_eq (mb : Option Nat) (o l : Nat) :
    bytesExceeded (optInt mb) o l = match limit mb with
      | some n => decide (n < o + l)
      | none => false := by
  cases mb with
  | none => rfl
  | some n =>
    cases n with
    | zero => rfl
    | succ n =>
      simp only [optInt, Option.map_some, bytesExceeded, limit]
      have h1 : Int.ofNat (n + 1) ≠ 0 := by simp; omega
      have h2 : (((o + l : Nat) : Int) > Int.ofNat (n + 1)) ↔ (n + 1 < o + l) := by
        simp only [Int.ofNat_eq_natCast, gt_iff_lt, Int.ofNat_lt]
      simp only [h1, h2, ne_eq, not_false_eq_true, decide_true, Bool.true_and]

theorem limitReached_eq (mb ml : Option Nat) (o k : Nat) :
    limitReached (optInt mb) (optInt ml) o k =
      ((match limit mb with | some n => decide (n ≤ o) | none => false) ||
       (match limit ml with | some n => decide (n ≤ k) | none => false)) := by
  have key : ∀ (x : Option Nat) (j : Nat), (match optInt x with
      | some n => decide (n ≠ 0) && decide ((j : Int) ≥ n) | none => false) =
      (match limit x with | some n => decide (n ≤ j) | none => false) := by
    intro x j
    cases x with
    | none => rfl
    | some n =>
      cases n with
      | zero => rfl
      | succ n =>
        simp only [optInt, Option.map_some, limit]
        have h1 : Int.ofNat (n + 1) ≠ 0 := by simp; omega
        have h2 : ((j : Int) ≥ Int.ofNat (n + 1)) ↔ (n + 1 ≤ j) := by
          simp only [Int.ofNat_eq_natCast, ge_iff_le, Int.ofNat_le]
        simp only [h1, h2, ne_eq, not_false_eq_true, decide_true, Bool.true_and]
  exact congr (congrArg or (key mb o)) (key ml k)

theorem limit_pos {o : Option Nat} {n : Nat} (h : limit o = some n) : 0 < n := by
  cases o with
  | none => cases h
  | some m => cases m with
    | zero => cases h
    | succ m => cases h; omega

theorem limit_getD {o : Option Nat} {n : Nat} (h : limit o = some n) : (optInt o).getD 0 = n := by
  cases o with
  | none => cases h
  | some m => cases m with
    | zero => cases h
    | succ m => cases h; rfl

theorem limitLines_nil (ml : Option Nat) (k : Nat) : linesF ml k [] = [] := by
  unfold linesF; split <;> rfl

/-- Reading delivers the input cut by the two limits. -/
theorem readEvents_data (mb ml : Option Nat) (io : List IoStep) (hio : NoRaise io) (offset lines : Nat)
    (hb : ∀ n, limit mb = some n → offset < n) (hl : ∀ m, limit ml = some m → lines < m) :
    (readEvents (optInt mb) (optInt ml) io offset lines).1.flatMap ReadEvent.data =
      bytesF mb offset (linesF ml lines (contentOf io)) := by
  have bnil : bytesF mb offset [] = [] := by unfold bytesF; split <;> simp
  induction io generalizing offset lines with
  | nil => simp [readEvents, contentOf, limitLines_nil, bnil]
  | cons s io ih =>
    have hio' : NoRaise io := fun e he => hio e (by simp [he])
    cases s with
    | raise e => exact absurd (by simp) (hio e)
    | data raw =>
      rw [readEvents]
      by_cases h0 : raw = []
      · subst h0
        simp [contentOf, limitLines_nil, bnil]
      rw [if_neg h0]
      have hco : contentOf (.data raw :: io) = raw ++ contentOf io := by
        cases raw with
        | nil => exact absurd rfl h0
        | cons b s => rfl
      rw [hco, limitLines_eq]
      -- the lines of this chunk
      have hlines : ∃ raw' lines' full, (match limit ml with | some m => cropLines m raw lines | none => (raw, lines)) = (raw', lines') ∧
          (full = true → raw' = raw ∧ (∀ m, limit ml = some m → lines' < m) ∧
            linesF ml lines (raw ++ contentOf io) = raw ++ linesF ml lines' (contentOf io)) ∧
          (full = false → (∃ m, limit ml = some m ∧ m ≤ lines') ∧ linesF ml lines (raw ++ contentOf io) = raw') := by
        unfold linesF
        cases hm : limit ml with
        | none => exact ⟨raw, lines, true, rfl, by simp, by simp⟩
        | some m =>
          obtain ⟨k1, k2⟩ := cropLines_append m raw (contentOf io) lines (hl m hm)
          by_cases hr : (cropLines m raw lines).2 < m
          · obtain ⟨k3, k4⟩ := k2 hr
            refine ⟨_, _, true, rfl, fun _ => ⟨k3, ?_, ?_⟩, by simp⟩
            · intro m' hm'; cases hm'; exact hr
            · simp only [k4]
          · refine ⟨_, _, false, rfl, by simp, fun _ => ⟨⟨m, rfl, by omega⟩, ?_⟩⟩
            simp only [k1 (by omega)]
      obtain ⟨raw', lines', full, e0, e1, e2⟩ := hlines
      rw [e0]
      simp only [bytesExceeded_eq, limitReached_eq]
      cases hmb : limit mb with
      | none =>
        have hbF : ∀ k s, bytesF mb k s = s := by intro k s; unfold bytesF; rw [hmb]
        simp only [hbF, Bool.false_eq_true, if_false, Bool.false_or]
        cases full with
        | true =>
          obtain ⟨e3, e4, e5⟩ := e1 rfl
          have : (match limit ml with | some n => decide (n ≤ lines') | none => false) = false := by
            split
            · rename_i n hn; have := e4 n hn; simp; omega
            · rfl
          rw [this]
          simp only [Bool.false_eq_true, if_false, List.flatMap_cons]
          rw [ih hio' _ _ (by simp [hmb]) e4 (hbF _ _), e5, e3, hbF]
        | false =>
          obtain ⟨⟨m, e3, e4⟩, e5⟩ := e2 rfl
          rw [e3]
          simp [e4, e5]
      | some n =>
        have hbF : ∀ k s, bytesF mb k s = s.take (n - k) := by intro k s; unfold bytesF; rw [hmb]
        have hn := hb n hmb
        simp only [hbF, decide_eq_true_eq]
        by_cases hx : n < offset + raw'.length
        · rw [if_pos hx, limit_getD hmb]
          have e : (n : Int) - offset = ((n - offset : Nat) : Int) := by omega
          have et : pyTake ((n : Int) - offset) raw' = raw'.take (n - offset) := by rw [e]; simp [pyTake]
          simp only [List.flatMap_cons, List.flatMap_nil, List.append_nil]
          rw [et]
          cases full with
          | true =>
            obtain ⟨e3, e4, e5⟩ := e1 rfl
            rw [e5, e3, List.take_append_of_le_length (by rw [← e3]; omega)]
          | false => rw [(e2 rfl).2]
        · rw [if_neg hx]
          cases full with
          | true =>
            obtain ⟨e3, e4, e5⟩ := e1 rfl
            have hL : (match limit ml with | some n => decide (n ≤ lines') | none => false) = false := by
              split
              · rename_i n hn; have := e4 n hn; simp; omega
              · rfl
            rw [hL, Bool.or_false]
            subst e3
            by_cases hr : n ≤ offset + raw'.length
            · rw [if_pos (decide_eq_true hr), e5]
              simp only [List.flatMap_cons, List.flatMap_nil, List.append_nil]
              rw [List.take_append_of_le_length (by omega), List.take_of_length_le (by omega)]
            · rw [if_neg (by simpa using hr)]
              simp only [List.flatMap_cons]
              have hnil : bytesF mb (offset + raw'.length) [] = [] := by rw [hbF]; simp
              rw [ih hio' _ _ (by intro n' hn'; rw [hmb] at hn'; cases hn'; omega) e4 hnil, e5, hbF,
                List.take_append, List.take_of_length_le (l := raw') (by omega)]
              congr 2
              omega
          | false =>
            obtain ⟨⟨m, e3, e4⟩, e5⟩ := e2 rfl
            rw [e3]
            simp only [decide_eq_true e4, Bool.or_true, if_true, List.flatMap_cons, List.flatMap_nil, List.append_nil]
            rw [e5, List.take_of_length_le (by omega)]

end Kolombos
