import Verif.Lemmas.SegFacts
import Verif.Lemmas.Buffer
import Verif.Lemmas.Reader
/-
The text formatter on a queue of segments.
-/
set_option linter.unusedSimpArgs false

namespace Kolombos
open Spec

/-- The number of raw bytes of some segments. -/
def total (gs : List Segment) : Nat := (gs.flatMap Segment.raw).length

theorem total_nil : total [] = 0 := rfl

theorem total_cons (g : Segment) (gs : List Segment) : total (g :: gs) = g.dataLen + total gs := by
  simp [total, Segment.dataLen]

theorem total_append (a b : List Segment) : total (a ++ b) = total a + total b := by
  simp [total]

/-- `lineAvail` on segments. -/
def segAvail : List Segment → Nat × Bool
  | [] => (0, false)
  | g :: gs => if g.isNewline then (g.dataLen, true) else (g.dataLen + (segAvail gs).1, (segAvail gs).2)

theorem lineAvail_attach (gs : List Segment) : SegmentBuffer.lineAvail (gs.flatMap SegmentBuffer.attachOne) = segAvail gs := by
  induction gs with
  | nil => rfl
  | cons g gs ih =>
    rw [List.flatMap_cons, attachOne_eq, segAvail]
    by_cases hs : styled g = true
    · rw [if_pos hs]
      simp only [List.cons_append, List.nil_append, SegmentBuffer.lineAvail, Chainable.isNewline, Chainable.dataLen,
        Bool.false_eq_true, if_false, Nat.zero_add, ih]
    · rw [if_neg hs]
      simp only [List.cons_append, List.nil_append, SegmentBuffer.lineAvail, Chainable.isNewline, Chainable.dataLen, ih]

/-- Detaching exactly the bytes of some segments, the last of which is not empty. -/
theorem qDetach_sum (as bs : List Segment) (h : as = [] ∨ ∃ x g, as = x ++ [g] ∧ g.raw ≠ []) :
    qDetach (total as : Int) (as ++ bs) = .ok (as, bs, false) := by
  induction as with
  | nil => cases bs <;> simp [qDetach, total_nil]
  | cons a as ih =>
    have h' : as = [] ∨ ∃ x g, as = x ++ [g] ∧ g.raw ≠ [] := by
      rcases h with h | ⟨x, g, e, hg⟩
      · cases h
      · cases x with
        | nil => simp at e; exact .inl e.2
        | cons b x => simp at e; exact .inr ⟨x, g, e.2, hg⟩
    have hpos : total (a :: as) ≠ 0 := by
      rcases h with h | ⟨x, g, e, hg⟩
      · cases h
      · rw [e, total_append, total_cons]
        have := List.length_pos_iff.2 hg
        simp [Segment.dataLen]; intro _; rw [← List.length_eq_zero_iff]; omega
    rw [List.cons_append, qDetach, if_neg (by omega), total_cons, if_pos (by omega)]
    have : (((a.dataLen + total as : Nat) : Int) - (a.dataLen : Int)) = (total as : Int) := by omega
    rw [this, ih h']

/-- No newline among the segments. -/
def NoNl (gs : List Segment) : Prop := ∀ g ∈ gs, g.isNewline = false

/-- Newline segments are not empty. -/
def NlNe (gs : List Segment) : Prop := ∀ g ∈ gs, g.isNewline = true → g.raw ≠ []

theorem segAvail_nl {x : List Segment} {g : Segment} (hx : NoNl x) (hg : g.isNewline = true) (r : List Segment) :
    segAvail (x ++ g :: r) = (total (x ++ [g]), true) := by
  induction x with
  | nil => simp [segAvail, hg, total_cons, total_nil]
  | cons a x ih =>
    have := hx a (by simp)
    rw [List.cons_append, segAvail, if_neg (by simp [this]), ih fun b hb => hx b (by simp [hb])]
    simp [total_cons]

theorem segAvail_none {x : List Segment} (hx : NoNl x) : segAvail x = (total x, false) := by
  induction x with
  | nil => rfl
  | cons a x ih =>
    have := hx a (by simp)
    rw [segAvail, if_neg (by simp [this]), ih fun b hb => hx b (by simp [hb])]
    simp [total_cons]

/-- A printed line. -/
def lineText (s : Settings) (n : Nat) (os : List Segment) : Str :=
  let final := os.flatMap (fmtBlock segProcessed)
  Console.linePrefix s n ++ final ++ (if TextFormatter.endsWithNewline (stripSgr final) then [] else ['\n'])

theorem line_eq {s : Settings} {n : Nat} {out : List Chainable} {os : List Segment} (h : OutRel out os) :
    TextFormatter.line s n out = lineText s n os := by
  unfold TextFormatter.line lineText
  rw [h.fmt segProcessed (by intro g _ h; exact h)]

/-- `detach_line` on the queue: the next line is `as`. -/
theorem detachLine_take {b : SegmentBuffer} {as bs : List Segment} (h : Rep b false (as ++ bs)) (force : Bool)
    (ha : ∃ x g, as = x ++ [g] ∧ g.raw ≠ []) (hav : (segAvail (as ++ bs)).1 = total as)
    (hf : (segAvail (as ++ bs)).2 = true ∨ force = true) :
    ∃ out b', b.detachLine force = .ok (.ok out, b') ∧ Rep b' false bs ∧ b'.lastLen = total as ∧ OutRel out as := by
  have hq := qDetach_sum as bs (.inr ha)
  have hd := detach_rep h (total as : Int)
  have hne : total as ≠ 0 := by
    obtain ⟨x, g, e, hg⟩ := ha
    have := List.length_pos_iff.2 hg
    rw [e, total_append, total_cons]
    simp [Segment.dataLen]; intro _; rw [← List.length_eq_zero_iff]; omega
  have hgs : as ++ bs ≠ [] := by
    obtain ⟨x, g, e, hg⟩ := ha
    rw [e]; simp
  have e : qDetachO (total as : Int) false (as ++ bs) = qDetach (total as : Int) (as ++ bs) := by
    unfold qDetachO; cases as ++ bs <;> rfl
  rw [e, hq] at hd
  simp only at hd
  obtain ⟨out, b', e1, e2, e3, e4⟩ := hd
  refine ⟨out, b', ?_, e2, ?_, e4⟩
  · unfold SegmentBuffer.detachLine
    simp only
    have hc : b.chain = (as ++ bs).flatMap SegmentBuffer.attachOne := by rw [h.chain, chainOf_false]
    rw [hc, lineAvail_attach, if_neg (by rw [hav]; exact hne), if_pos hf, hav, e1]
  · rw [e3 hgs]; rfl

/-- `detach_line` on an incomplete line. -/
theorem detachLine_rest {b : SegmentBuffer} {gs : List Segment} (h : Rep b false gs) (force : Bool)
    (hn : NoNl gs) (hf : total gs = 0 ∨ force = false) :
    b.detachLine force = .ok (.eof, b) ∨ b.detachLine force = .ok (.wait, b) := by
  have hc : b.chain = gs.flatMap SegmentBuffer.attachOne := by rw [h.chain, chainOf_false]
  unfold SegmentBuffer.detachLine
  simp only
  rw [hc, lineAvail_attach, segAvail_none hn]
  by_cases h0 : total gs = 0
  · left; rw [if_pos h0]
  · right
    rcases hf with hf | hf
    · exact absurd hf h0
    · subst hf
      rw [if_neg h0, if_neg (by simp)]

/-- A list of complete lines. -/
def Lines (ls : List (List Segment)) : Prop :=
  ∀ l ∈ ls, ∃ x g, l = x ++ [g] ∧ NoNl x ∧ g.isNewline = true

/-- Printed lines, from a line number on. -/
def linesText (s : Settings) (n : Nat) : List (List Segment) → Str
  | [] => []
  | l :: ls => lineText s n l ++ linesText s (n + 1) ls

theorem linesText_append (s : Settings) (n : Nat) (a b : List (List Segment)) :
    linesText s n (a ++ b) = linesText s n a ++ linesText s (n + a.length) b := by
  induction a generalizing n with
  | nil => simp [linesText]
  | cons l a ih => simp [linesText, ih, Nat.add_assoc, Nat.add_comm 1]

theorem NlNe.append_left {a b : List Segment} (h : NlNe (a ++ b)) : NlNe a := fun g hg => h g (by simp [hg])
theorem NlNe.append_right {a b : List Segment} (h : NlNe (a ++ b)) : NlNe b := fun g hg => h g (by simp [hg])

/-- The loop of the text formatter on complete lines. -/
theorem textLoop_lines (s : Settings) (closed : Bool) (ls : List (List Segment)) (rest : List Segment) (hl : Lines ls)
    (hne : NlNe (ls.flatten ++ rest)) (b : SegmentBuffer) (h : Rep b false (ls.flatten ++ rest)) (fuel offset n : Nat) :
    ∃ b', Rep b' false rest ∧
      (ls.length ≤ fuel → TextFormatter.format s closed fuel b offset n =
        .write (linesText s n ls) (TextFormatter.format s closed (fuel - ls.length) b' (offset + total ls.flatten) (n + ls.length))) ∧
      (fuel < ls.length → (TextFormatter.format s closed fuel b offset n).res = .timeout) := by
  induction ls generalizing b fuel offset n with
  | nil =>
    refine ⟨b, h, ?_, fun h => by simp at h⟩
    intro _
    simp [linesText, total_nil, Run.write]
  | cons l ls ih =>
    obtain ⟨x, g, rfl, hx, hg⟩ := hl l (by simp)
    have h1 : Rep b false ((x ++ [g]) ++ (ls.flatten ++ rest)) := by simpa using h
    have hne1 : NlNe ((x ++ [g]) ++ (ls.flatten ++ rest)) := by simpa using hne
    have hgr : g.raw ≠ [] := hne1 g (by simp) hg
    have hav : segAvail ((x ++ [g]) ++ (ls.flatten ++ rest)) = (total (x ++ [g]), true) := by
      rw [List.append_assoc]; exact segAvail_nl hx hg _
    obtain ⟨out, b1, e1, e2, e3, e4⟩ := detachLine_take h1 closed ⟨x, g, rfl, hgr⟩ (by rw [hav]) (.inl (by rw [hav]))
    cases fuel with
    | zero =>
      obtain ⟨b', i1, -, -⟩ := ih (fun l hl' => hl l (by simp [hl'])) hne1.append_right b1 e2 0 offset n
      refine ⟨b', i1, fun h => by simp at h, fun _ => rfl⟩
    | succ fuel =>
      obtain ⟨b', i1, i2, i3⟩ := ih (fun l hl' => hl l (by simp [hl'])) hne1.append_right b1 e2 fuel (offset + total (x ++ [g])) (n + 1)
      refine ⟨b', i1, ?_, ?_⟩
      · intro hle
        rw [TextFormatter.format, e1]
        simp only
        rw [e3, i2 (by simpa using hle), line_eq e4]
        simp only [linesText, List.length_cons, List.flatten_cons, total_append, Run.write, List.append_assoc]
        rw [Nat.add_sub_add_right, show offset + (total x + total [g]) + total ls.flatten = offset + (total x + (total [g] + total ls.flatten)) by omega,
          show n + 1 + ls.length = n + (ls.length + 1) by omega]
      · intro hlt
        rw [TextFormatter.format, e1]
        simp only [Run.write]
        rw [e3]
        exact i3 (by simpa using hlt)

/-- Splitting segments into complete lines and a rest. -/
theorem lines_split (gs : List Segment) : ∃ ls rest, Lines ls ∧ NoNl rest ∧ gs = ls.flatten ++ rest := by
  have : ∀ n, ∀ gs : List Segment, gs.length ≤ n → ∃ ls rest, Lines ls ∧ NoNl rest ∧ gs = ls.flatten ++ rest := by
    intro n
    induction n with
    | zero =>
      intro gs h
      have : gs = [] := List.length_eq_zero_iff.1 (by omega)
      subst this
      exact ⟨[], [], by simp [Lines], by simp [NoNl], rfl⟩
    | succ n ih =>
      intro gs h
      by_cases hn : NoNl gs
      · exact ⟨[], gs, by simp [Lines], hn, rfl⟩
      · have : ∃ x g r, gs = x ++ g :: r ∧ NoNl x ∧ g.isNewline = true := by
          clear ih h
          induction gs with
          | nil => exact absurd (by simp [NoNl]) hn
          | cons a gs ihg =>
            cases ha : a.isNewline with
            | true => exact ⟨[], a, gs, rfl, by simp [NoNl], ha⟩
            | false =>
              obtain ⟨x, g, r, rfl, h1, h2⟩ := ihg (by
                intro h; apply hn; intro b hb
                rcases List.mem_cons.1 hb with rfl | hb
                · exact ha
                · exact h b hb)
              refine ⟨a :: x, g, r, rfl, ?_, h2⟩
              intro b hb
              rcases List.mem_cons.1 hb with rfl | hb
              · exact ha
              · exact h1 b hb
        obtain ⟨x, g, r, rfl, hx, hg⟩ := this
        obtain ⟨ls, rest, h1, h2, e⟩ := ih r (by simp at h; omega)
        refine ⟨(x ++ [g]) :: ls, rest, ?_, h2, ?_⟩
        · intro l hl
          rcases List.mem_cons.1 hl with rfl | hl
          · exact ⟨x, g, rfl, hx, hg⟩
          · exact h1 l hl
        · rw [List.flatten_cons, e]; simp
  exact this gs.length gs (Nat.le_refl _)

/-- Splitting an incomplete line before its trailing empty segments. -/
theorem rest_split (gs : List Segment) : ∃ as bs, gs = as ++ bs ∧ (∀ g ∈ bs, g.raw = []) ∧
    (as = [] ∨ ∃ x g, as = x ++ [g] ∧ g.raw ≠ []) := by
  induction gs with
  | nil => exact ⟨[], [], rfl, by simp, .inl rfl⟩
  | cons g gs ih =>
    obtain ⟨as, bs, rfl, h1, h2⟩ := ih
    rcases h2 with rfl | ⟨x, y, rfl, hy⟩
    · by_cases hg : g.raw = []
      · refine ⟨[], g :: bs, rfl, ?_, .inl rfl⟩
        intro z hz
        rcases List.mem_cons.1 hz with rfl | hz
        · exact hg
        · exact h1 z hz
      · exact ⟨[g], bs, rfl, h1, .inr ⟨[], g, rfl, hg⟩⟩
    · exact ⟨g :: (x ++ [y]), bs, rfl, h1, .inr ⟨g :: x, y, rfl, hy⟩⟩

theorem total_zero {bs : List Segment} (h : ∀ g ∈ bs, g.raw = []) : total bs = 0 := by
  induction bs with
  | nil => rfl
  | cons b bs ih => rw [total_cons, ih fun g hg => h g (by simp [hg])]; simp [Segment.dataLen, h b (by simp)]

/-- The loop of the text formatter on an incomplete line. -/
theorem textLoop_rest (s : Settings) (closed : Bool) (as bs : List Segment) (hn : NoNl (as ++ bs))
    (hb : ∀ g ∈ bs, g.raw = []) (ha : as = [] ∨ ∃ x g, as = x ++ [g] ∧ g.raw ≠ [])
    (b : SegmentBuffer) (h : Rep b false (as ++ bs)) (fuel offset n : Nat) :
    if closed = true ∧ as ≠ [] then
      ∃ b', Rep b' false bs ∧
        TextFormatter.format s closed (fuel + 2) b offset n = ⟨lineText s n as, .ok (b', offset + total as, n + 1)⟩
    else TextFormatter.format s closed (fuel + 1) b offset n = ⟨[], .ok (b, offset, n)⟩ := by
  have hstop : ∀ (b : SegmentBuffer) (gs : List Segment) (offset n : Nat), Rep b false gs → NoNl gs → (total gs = 0 ∨ closed = false) →
      TextFormatter.format s closed (fuel + 1) b offset n = ⟨[], .ok (b, offset, n)⟩ := by
    intro b gs offset n h hn hf
    rw [TextFormatter.format]
    rcases detachLine_rest h closed hn hf with e | e <;> rw [e] <;> rfl
  split
  · rename_i hc
    obtain ⟨hc, hne⟩ := hc
    have ha' : ∃ x g, as = x ++ [g] ∧ g.raw ≠ [] := ha.resolve_left hne
    have hav : segAvail (as ++ bs) = (total as, false) := by
      rw [segAvail_none hn, total_append, total_zero hb]; rfl
    obtain ⟨out, b1, e1, e2, e3, e4⟩ := detachLine_take h closed ha' (by rw [hav]) (.inr hc)
    refine ⟨b1, e2, ?_⟩
    rw [TextFormatter.format, e1]
    simp only
    rw [e3, line_eq e4, hstop b1 bs _ _ e2 (fun g hg => hn g (by simp [hg])) (.inl (total_zero hb))]
    simp [Run.write]
  · rename_i hc
    refine hstop b (as ++ bs) offset n h hn ?_
    cases closed with
    | false => exact .inr rfl
    | true =>
      have : as = [] := Classical.byContradiction fun h => hc ⟨rfl, h⟩
      subst this
      exact .inl (total_zero hb)

/-- The lines printed by one call. -/
def printed (closed : Bool) (ls : List (List Segment)) (as : List Segment) : List (List Segment) :=
  if closed = true ∧ as ≠ [] then ls ++ [as] else ls

/-- How a queue is cut into complete lines, an incomplete line and trailing empty segments. -/
structure Cut (gs : List Segment) (ls : List (List Segment)) (as bs : List Segment) : Prop where
  eq : gs = ls.flatten ++ (as ++ bs)
  lines : Lines ls
  noNl : NoNl (as ++ bs)
  empty : ∀ g ∈ bs, g.raw = []
  last : as = [] ∨ ∃ x g, as = x ++ [g] ∧ g.raw ≠ []

theorem cut_exists (gs : List Segment) : ∃ ls as bs, Cut gs ls as bs := by
  obtain ⟨ls, rest, h1, h2, e⟩ := lines_split gs
  obtain ⟨as, bs, rfl, h3, h4⟩ := rest_split rest
  exact ⟨ls, as, bs, e, h1, h2, h3, h4⟩

/-- One call of the text formatter: the complete lines, and the incomplete line if
the input has ended.  With fewer rounds than lines the loop is cut off. -/
theorem textFormat_eq (s : Settings) (closed : Bool) {gs : List Segment} (hne : NlNe gs)
    {b : SegmentBuffer} (h : Rep b false gs) {ls : List (List Segment)} {as bs : List Segment} (hc : Cut gs ls as bs)
    (fuel offset n : Nat) :
    ((printed closed ls as).length < fuel →
      ∃ b', Rep b' false (if closed = true then bs else as ++ bs) ∧
        TextFormatter.format s closed fuel b offset n =
          ⟨linesText s n (printed closed ls as),
            .ok (b', offset + total (printed closed ls as).flatten, n + (printed closed ls as).length)⟩) ∧
    (fuel ≤ (printed closed ls as).length → (TextFormatter.format s closed fuel b offset n).res = .timeout) := by
  obtain ⟨rfl, h1, h2, h3, h4⟩ := hc
  obtain ⟨b1, hr1, hf1, hf2⟩ := textLoop_lines s closed ls (as ++ bs) h1 hne b h fuel offset n
  unfold printed
  by_cases hc : closed = true ∧ as ≠ []
  · rw [if_pos hc]
    rw [List.length_append, List.length_singleton]
    constructor
    · intro hf
      have := textLoop_rest s closed as bs h2 h3 h4 b1 hr1 (fuel - ls.length - 2) (offset + total ls.flatten) (n + ls.length)
      rw [if_pos hc] at this
      obtain ⟨b2, hr2, e2⟩ := this
      refine ⟨b2, by rw [if_pos hc.1]; exact hr2, ?_⟩
      rw [hf1 (by omega), show fuel - ls.length = fuel - ls.length - 2 + 2 by omega, e2, linesText_append]
      simp [Run.write, linesText, total_append, Nat.add_assoc]
    · intro hf
      by_cases hlt : fuel < ls.length
      · exact hf2 hlt
      · rw [hf1 (by omega)]
        have ha' : ∃ x g, as = x ++ [g] ∧ g.raw ≠ [] := h4.resolve_left hc.2
        have hav : segAvail (as ++ bs) = (total as, false) := by
          rw [segAvail_none h2, total_append, total_zero h3]; rfl
        obtain ⟨out, b2, e1, -, -, -⟩ := detachLine_take hr1 closed ha' (by rw [hav]) (.inr hc.1)
        simp only [Run.write]
        rcases (show fuel - ls.length = 0 ∨ fuel - ls.length = 1 by omega) with e | e
        · rw [e]; rfl
        · rw [e, TextFormatter.format, e1]; rfl
  · rw [if_neg hc]
    constructor
    · intro hf
      have := textLoop_rest s closed as bs h2 h3 h4 b1 hr1 (fuel - ls.length - 1) (offset + total ls.flatten) (n + ls.length)
      rw [if_neg hc] at this
      refine ⟨b1, ?_, ?_⟩
      · cases closed with
        | false => exact hr1
        | true =>
          have : as = [] := Classical.byContradiction fun h => hc ⟨rfl, h⟩
          subst this; exact hr1
      · rw [hf1 (by omega), show fuel - ls.length = fuel - ls.length - 1 + 1 by omega, this]
        simp [Run.write]
    · intro hf
      by_cases hlt : fuel < ls.length
      · exact hf2 hlt
      · rw [hf1 (by omega), show fuel - ls.length = 0 by omega]
        rfl

end Kolombos
