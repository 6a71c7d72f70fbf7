import Verif.Model.Segment
/-
The segment buffer as a queue of segments: the chain of a buffer is always the
chain of a list of segments, of which at most the first one is "open" (its
beginning was detached before).
-/
set_option linter.unusedSimpArgs false

namespace Kolombos

/-- `attach` wraps the segment in references. -/
def styled (g : Segment) : Bool :=
  !decide (g.opening.length = 0 ∨ (g.opening ≠ [] ∧ ∀ p ∈ g.opening, p = 0))

theorem attachOne_eq (g : Segment) : SegmentBuffer.attachOne g =
    if styled g then [.start g.opening, .seg g, .stop g.opening, .oneUse (Sgr.closing g.opening)] else [.seg g] := by
  unfold SegmentBuffer.attachOne styled
  by_cases h : g.opening.length = 0 ∨ (g.opening ≠ [] ∧ ∀ p ∈ g.opening, p = 0)
  · rw [if_pos h, decide_eq_true h]; rfl
  · rw [if_neg h, decide_eq_false h]; rfl

/-- The chain of a queue of segments; `o`: the first one is open. -/
def chainOf (o : Bool) (gs : List Segment) : List Chainable :=
  match o, gs with
  | true, g :: gs =>
    .seg g :: .stop g.opening :: .oneUse (Sgr.closing g.opening) :: gs.flatMap SegmentBuffer.attachOne
  | _, gs => gs.flatMap SegmentBuffer.attachOne

/-- The active sequences. -/
def activeOf (o : Bool) (gs : List Segment) : List Sgr :=
  match o, gs with
  | true, g :: _ => [g.opening]
  | _, _ => []

/-- The buffer `b` holds the queue `gs`. -/
structure Rep (b : SegmentBuffer) (o : Bool) (gs : List Segment) : Prop where
  chain : b.chain = chainOf o gs
  active : b.active = activeOf o gs
  first : o = true → ∃ g r, gs = g :: r ∧ styled g = true

/-- Detaching from a queue of segments: detached, remaining, open. -/
def qDetach (req : Int) : List Segment → Except Err (List Segment × List Segment × Bool)
  | [] => .ok ([], [], false)
  | g :: gs =>
    if req = 0 then .ok ([], g :: gs, false)
    else if (g.dataLen : Int) ≤ req then
      match qDetach (req - g.dataLen) gs with
      | .error e => .error e
      | .ok (os, rs, o) => .ok (g :: os, rs, o)
    else match g.split req with
      | .error e => .error e
      | .ok (l, r) => .ok ([l], r :: gs, styled r)

/-- Detaching when the first segment may be open. -/
def qDetachO (req : Int) (o : Bool) (gs : List Segment) : Except Err (List Segment × List Segment × Bool) :=
  match o, gs with
  | true, g :: gs => if req = 0 then .ok ([{ g with raw := [], processed := [] }], g :: gs, true)
    else qDetach req (g :: gs)
  | _, gs => qDetach req gs

/-- The elements by which a whole segment is detached. -/
def outBlock (g : Segment) : List Chainable :=
  if styled g then [.start g.opening, .seg g, .oneUse (Sgr.closing g.opening)] else [.seg g]

/-- The same for an open segment. -/
def openBlock (g : Segment) : List Chainable :=
  [.oneUse g.opening, .seg g, .oneUse (Sgr.closing g.opening)]

theorem split_ok {g l r : Segment} {n : Int} (h : g.split n = .ok (l, r)) :
    l = { g with raw := pyTake n g.raw, processed := pyTake n g.processed } ∧
    r = { g with raw := pyDrop n g.raw, processed := pyDrop n g.processed } ∧
    g.raw.length = g.processed.length := by
  unfold Segment.split at h
  split at h
  · cases h
  · rename_i hc
    simp only [Except.ok.injEq, Prod.mk.injEq] at h
    simp [Segment.isConsistent] at hc
    exact ⟨h.1.symm, h.2.symm, hc⟩

theorem split_err {g : Segment} {n : Int} {e : Err} (h : g.split n = .error e) :
    e = .bufferError ∧ g.raw.length ≠ g.processed.length := by
  unfold Segment.split at h
  split at h
  · rename_i hc
    simp [Segment.isConsistent] at hc
    cases h; exact ⟨rfl, hc⟩
  · cases h

theorem styled_split {g l r : Segment} {n : Int} (h : g.split n = .ok (l, r)) :
    styled l = styled g ∧ styled r = styled g ∧ l.opening = g.opening ∧ r.opening = g.opening := by
  obtain ⟨rfl, rfl, -⟩ := split_ok h
  exact ⟨rfl, rfl, rfl, rfl⟩

theorem chainOf_false (gs : List Segment) : chainOf false gs = gs.flatMap SegmentBuffer.attachOne := by
  cases gs <;> rfl

theorem activeOf_false (gs : List Segment) : activeOf false gs = [] := by cases gs <;> rfl

/-- The loop on a queue without open segment. -/
theorem loop_idle (gs : List Segment) (req : Int) :
    match qDetach req gs with
    | .error e => SegmentBuffer.detachLoop (gs.flatMap SegmentBuffer.attachOne) req [] = .error e
    | .ok (os, rs, o) => ∃ out, SegmentBuffer.detachLoop (gs.flatMap SegmentBuffer.attachOne) req [] =
        .ok (out, chainOf o rs, activeOf o rs) ∧
        out ++ (activeOf o rs).map (fun s => Chainable.oneUse (Sgr.closing s)) = os.flatMap outBlock ∧
        (o = true → ∃ g r, rs = g :: r ∧ styled g = true) := by
  induction gs generalizing req with
  | nil => exact ⟨[], rfl, rfl, by simp⟩
  | cons g gs ih =>
    rw [List.flatMap_cons]
    unfold qDetach
    by_cases h0 : req = 0
    · rw [if_pos h0]
      refine ⟨[], ?_, rfl, by simp⟩
      rw [attachOne_eq, chainOf_false, List.flatMap_cons, attachOne_eq]
      by_cases hs : styled g = true
      · rw [if_pos hs]
        simp only [List.cons_append, SegmentBuffer.detachLoop, h0, if_true]
        rfl
      · rw [if_neg hs]
        simp only [List.cons_append, SegmentBuffer.detachLoop, h0, if_true]
        rfl
    rw [if_neg h0]
    by_cases hl : (g.dataLen : Int) ≤ req
    · rw [if_pos hl]
      have := ih (req - g.dataLen)
      cases hq : qDetach (req - g.dataLen) gs with
      | error e =>
        rw [hq] at this
        simp only at this ⊢
        rw [attachOne_eq]
        by_cases hs : styled g = true
        · rw [if_pos hs]
          simp only [List.cons_append, List.nil_append, SegmentBuffer.detachLoop, h0, hl, if_true, if_false,
            List.mem_singleton, List.erase_cons_head, this]
        · rw [if_neg hs]
          simp only [List.cons_append, List.nil_append, SegmentBuffer.detachLoop, h0, hl, if_true, if_false, this]
      | ok x =>
        obtain ⟨os, rs, o⟩ := x
        rw [hq] at this
        simp only at this ⊢
        obtain ⟨out, e1, e2, e3⟩ := this
        rw [attachOne_eq]
        by_cases hs : styled g = true
        · refine ⟨.start g.opening :: .seg g :: .oneUse (Sgr.closing g.opening) :: out, ?_, ?_, e3⟩
          · rw [if_pos hs]
            simp only [List.cons_append, List.nil_append, SegmentBuffer.detachLoop, h0, hl, if_true, if_false,
              List.mem_singleton, List.erase_cons_head, e1]
          · rw [List.flatMap_cons, ← e2, outBlock, if_pos hs]; rfl
        · refine ⟨.seg g :: out, ?_, ?_, e3⟩
          · rw [if_neg hs]
            simp only [List.cons_append, List.nil_append, SegmentBuffer.detachLoop, h0, hl, if_true, if_false, e1]
          · rw [List.flatMap_cons, ← e2, outBlock, if_neg hs]; rfl
    · rw [if_neg hl]
      cases hq : g.split req with
      | error e =>
        simp only
        rw [attachOne_eq]
        by_cases hs : styled g = true
        · rw [if_pos hs]
          simp only [List.cons_append, List.nil_append, SegmentBuffer.detachLoop, h0, hl, if_true, if_false, hq]
        · rw [if_neg hs]
          simp only [List.cons_append, List.nil_append, SegmentBuffer.detachLoop, h0, hl, if_true, if_false, hq]
      | ok x =>
        obtain ⟨l, r⟩ := x
        obtain ⟨s1, s2, s3, s4⟩ := styled_split hq
        simp only
        rw [attachOne_eq]
        by_cases hs : styled g = true
        · refine ⟨[.start g.opening, .seg l], ?_, ?_, ?_⟩
          · rw [if_pos hs, s2, hs]
            simp only [List.cons_append, List.nil_append, SegmentBuffer.detachLoop, h0, hl, if_true, if_false, hq,
              chainOf, activeOf, s4]
          · rw [s2, hs, activeOf, List.flatMap_cons, outBlock, s1, hs, s3, s4]; rfl
          · intro _; exact ⟨r, gs, rfl, by rw [s2, hs]⟩
        · have hs' : styled g = false := by simpa using hs
          refine ⟨[.seg l], ?_, ?_, ?_⟩
          · rw [if_neg hs, s2, hs', chainOf_false, activeOf_false, List.flatMap_cons, attachOne_eq r, s2, if_neg hs]
            simp only [List.cons_append, List.nil_append, SegmentBuffer.detachLoop, h0, hl, if_true, if_false, hq]
          · rw [s2, hs', activeOf_false, List.flatMap_cons, outBlock, s1, if_neg hs]; rfl
          · rw [s2]; intro h; exact absurd h hs

/-- The raw bytes of a chain. -/
def rawOf (l : List Chainable) : Bytes := l.flatMap fun
  | .seg g => g.raw
  | _ => []

/-- A segment between its opening and its closing sequence. -/
def fmtBlock (f : Segment → Str) (g : Segment) : Str :=
  if styled g then g.opening.assemble ++ (f g ++ (Sgr.closing g.opening).assemble) else f g

/-- A detached chain displays the segments `os`. -/
structure OutRel (out : List Chainable) (os : List Segment) : Prop where
  raw : rawOf out = os.flatMap Segment.raw
  fmt : ∀ f : Segment → Str, (∀ g, g.raw = [] → g.processed = [] → f g = []) →
    SegmentBuffer.format f out = os.flatMap (fmtBlock f)
  empty : out = [] ↔ os = []

theorem rawOf_append (a b : List Chainable) : rawOf (a ++ b) = rawOf a ++ rawOf b := by
  simp [rawOf]

theorem format_append (f : Segment → Str) (a b : List Chainable) :
    SegmentBuffer.format f (a ++ b) = SegmentBuffer.format f a ++ SegmentBuffer.format f b := by
  simp [SegmentBuffer.format]

theorem OutRel.blocks (os : List Segment) : OutRel (os.flatMap outBlock) os := by
  induction os with
  | nil => exact ⟨rfl, fun _ _ => rfl, by simp⟩
  | cons g os ih =>
    obtain ⟨h1, h2, -⟩ := ih
    refine ⟨?_, ?_, ?_⟩
    · rw [List.flatMap_cons, List.flatMap_cons, rawOf_append, h1]
      congr 1
      unfold outBlock; cases styled g <;> simp [rawOf]
    · intro f hf
      rw [List.flatMap_cons, List.flatMap_cons, format_append, h2 f hf]
      congr 1
      unfold outBlock fmtBlock; cases styled g <;> simp [SegmentBuffer.format]
    · rw [List.flatMap_cons]
      unfold outBlock; cases styled g <;> simp

theorem OutRel.open {g : Segment} (hs : styled g = true) (os : List Segment) :
    OutRel (openBlock g ++ os.flatMap outBlock) (g :: os) := by
  obtain ⟨h1, h2, -⟩ := OutRel.blocks os
  refine ⟨?_, ?_, ?_⟩
  · rw [List.flatMap_cons, rawOf_append, h1]; simp [rawOf, openBlock]
  · intro f hf
    rw [List.flatMap_cons, format_append, h2 f hf]
    congr 1
    simp [SegmentBuffer.format, openBlock, fmtBlock, hs]
  · simp [openBlock]

theorem rawOf_length (l : List Chainable) : (l.map Chainable.dataLen).sum = (rawOf l).length := by
  induction l with
  | nil => rfl
  | cons a l ih =>
    rw [List.map_cons, List.sum_cons, ih]
    cases a <;> simp [rawOf, Chainable.dataLen, Segment.dataLen]

/-- `_detach` on the queue. -/
theorem detach_rep {b : SegmentBuffer} {o : Bool} {gs : List Segment} (h : Rep b o gs) (req : Int) :
    match qDetachO req o gs with
    | .error e => b.detach req = .error e
    | .ok (os, rs, o') => ∃ out b', b.detach req = .ok (out, b') ∧ Rep b' o' rs ∧
        (gs ≠ [] → b'.lastLen = (os.flatMap Segment.raw).length) ∧ OutRel out os := by
  obtain ⟨hc, ha, hf⟩ := h
  cases o with
  | false =>
    rw [chainOf_false] at hc
    rw [activeOf_false] at ha
    have hl := loop_idle gs req
    have e : qDetachO req false gs = qDetach req gs := by cases gs <;> rfl
    rw [e]
    by_cases hgs : gs = []
    · subst hgs
      refine ⟨[], b, ?_, ⟨hc, ha, by simp⟩, by simp, ⟨rfl, fun _ _ => rfl, by simp⟩⟩
      simp [SegmentBuffer.detach, hc]
    · have hne : b.chain.length ≠ 0 := by
        obtain ⟨g, r, rfl⟩ := List.exists_cons_of_ne_nil hgs
        rw [hc, List.flatMap_cons, attachOne_eq]
        cases styled g <;> simp
      cases hq : qDetach req gs with
      | error e =>
        rw [hq] at hl
        simp only at hl ⊢
        unfold SegmentBuffer.detach
        rw [if_neg hne, hc, ha, hl]
      | ok x =>
        obtain ⟨os, rs, o'⟩ := x
        rw [hq] at hl
        simp only at hl ⊢
        obtain ⟨out, e1, e2, e3⟩ := hl
        have : b.detach req = .ok (os.flatMap outBlock, { chain := chainOf o' rs, active := activeOf o' rs, lastLen := ((os.flatMap outBlock).map Chainable.dataLen).sum }) := by
          unfold SegmentBuffer.detach
          rw [if_neg hne, hc, ha, e1]
          simp only [List.map_nil, List.nil_append, e2]
        refine ⟨_, _, this, ⟨rfl, rfl, e3⟩, fun _ => ?_, OutRel.blocks os⟩
        rw [rawOf_length, (OutRel.blocks os).raw]
  | true =>
    obtain ⟨g, r, rfl, hs⟩ := hf rfl
    have hc : b.chain = .seg g :: .stop g.opening :: .oneUse (Sgr.closing g.opening) ::
      r.flatMap SegmentBuffer.attachOne := hc
    have ha : b.active = [g.opening] := ha
    have hne : b.chain.length ≠ 0 := by rw [hc]; simp
    unfold qDetachO
    by_cases h0 : req = 0
    · simp only [h0, if_true]
      have : b.detach 0 = .ok ([.oneUse g.opening, .oneUse (Sgr.closing g.opening)], { chain := chainOf true (g :: r), active := activeOf true (g :: r), lastLen := 0 }) := by
        unfold SegmentBuffer.detach
        rw [if_neg hne, hc, ha]
        simp [SegmentBuffer.detachLoop, Chainable.dataLen, chainOf, activeOf]
      refine ⟨_, _, this, ⟨rfl, rfl, fun _ => ⟨g, r, rfl, hs⟩⟩, fun _ => by simp, ⟨by simp [rawOf], ?_, by simp⟩⟩
      intro f hf'
      have e : styled { g with raw := [], processed := [] } = true := hs
      simp only [List.flatMap_cons, List.flatMap_nil, List.append_nil, fmtBlock, e, if_true]
      rw [hf' _ rfl rfl]
      simp [SegmentBuffer.format]
    · simp only [h0, if_false]
      unfold qDetach
      rw [if_neg h0]
      by_cases hl : (g.dataLen : Int) ≤ req
      · rw [if_pos hl]
        have hli := loop_idle r (req - g.dataLen)
        cases hq : qDetach (req - g.dataLen) r with
        | error e =>
          rw [hq] at hli
          simp only at hli ⊢
          unfold SegmentBuffer.detach
          rw [if_neg hne, hc, ha]
          simp only [SegmentBuffer.detachLoop, h0, hl, if_true, if_false, List.mem_singleton,
            List.erase_cons_head, hli]
        | ok x =>
          obtain ⟨os, rs, o'⟩ := x
          rw [hq] at hli
          simp only at hli ⊢
          obtain ⟨out, e1, e2, e3⟩ := hli
          have : b.detach req = .ok (openBlock g ++ os.flatMap outBlock, { chain := chainOf o' rs, active := activeOf o' rs, lastLen := ((openBlock g ++ os.flatMap outBlock).map Chainable.dataLen).sum }) := by
            unfold SegmentBuffer.detach
            rw [if_neg hne, hc, ha]
            simp only [SegmentBuffer.detachLoop, h0, hl, if_true, if_false, List.mem_singleton,
              List.erase_cons_head, e1, List.map_cons, List.map_nil, List.cons_append, List.nil_append, e2, openBlock]
          refine ⟨_, _, this, ⟨rfl, rfl, e3⟩, fun _ => ?_, OutRel.open hs os⟩
          rw [rawOf_length, (OutRel.open hs os).raw]
      · rw [if_neg hl]
        cases hq : g.split req with
        | error e =>
          simp only
          unfold SegmentBuffer.detach
          rw [if_neg hne, hc, ha]
          simp only [SegmentBuffer.detachLoop, h0, hl, if_true, if_false, hq]
        | ok x =>
          obtain ⟨l, r'⟩ := x
          obtain ⟨s1, s2, s3, s4⟩ := styled_split hq
          simp only
          have : b.detach req = .ok (openBlock l ++ [].flatMap outBlock, { chain := chainOf true (r' :: r), active := activeOf true (r' :: r), lastLen := ((openBlock l ++ [].flatMap outBlock).map Chainable.dataLen).sum }) := by
            unfold SegmentBuffer.detach
            rw [if_neg hne, hc, ha]
            simp only [SegmentBuffer.detachLoop, h0, hl, if_true, if_false, hq, openBlock, List.map_cons,
              List.map_nil, List.cons_append, List.nil_append, List.flatMap_nil, chainOf, activeOf, s3, s4]
          rw [s2, hs]
          refine ⟨_, _, this, ⟨rfl, rfl, fun _ => ⟨r', r, rfl, by rw [s2, hs]⟩⟩, fun _ => ?_, OutRel.open (by rw [s1, hs]) []⟩
          rw [rawOf_length, (OutRel.open (by rw [s1, hs]) []).raw]

theorem Rep.nil : Rep {} false [] := ⟨rfl, rfl, by simp⟩

theorem Rep.attach {b : SegmentBuffer} {o : Bool} {gs : List Segment} (h : Rep b o gs) (hs : List Segment) :
    Rep (b.attach hs) o (gs ++ hs) := by
  obtain ⟨hc, ha, hf⟩ := h
  cases o with
  | false =>
    refine ⟨?_, ?_, by simp⟩
    · simp [SegmentBuffer.attach, hc, chainOf_false]
    · simpa [SegmentBuffer.attach, activeOf_false] using ha
  | true =>
    obtain ⟨g, r, rfl, hs'⟩ := hf rfl
    exact ⟨by simp [SegmentBuffer.attach, hc, chainOf], by simpa [SegmentBuffer.attach, activeOf] using ha,
      fun _ => ⟨g, r ++ hs, rfl, hs'⟩⟩

theorem rawOf_attach (gs : List Segment) :
    rawOf (gs.flatMap SegmentBuffer.attachOne) = gs.flatMap Segment.raw := by
  induction gs with
  | nil => rfl
  | cons g gs ih =>
    rw [List.flatMap_cons, List.flatMap_cons, rawOf_append, ih, attachOne_eq]
    congr 1
    cases styled g <;> simp [rawOf]

theorem rawOf_chainOf (o : Bool) (gs : List Segment) : rawOf (chainOf o gs) = gs.flatMap Segment.raw := by
  cases o with
  | false => rw [chainOf_false, rawOf_attach]
  | true =>
    cases gs with
    | nil => rfl
    | cons g gs =>
      have := rawOf_attach gs
      simp [chainOf, rawOf] at this ⊢
      exact this

theorem Rep.raw {b : SegmentBuffer} {o : Bool} {gs : List Segment} (h : Rep b o gs) :
    rawOf b.chain = gs.flatMap Segment.raw := by rw [h.chain, rawOf_chainOf]

theorem Rep.dataLen {b : SegmentBuffer} {o : Bool} {gs : List Segment} (h : Rep b o gs) :
    b.dataLen = (gs.flatMap Segment.raw).length := by
  rw [SegmentBuffer.dataLen, rawOf_length, h.raw]

theorem pyTake_pyDrop {α : Type} (n : Int) (s : List α) : pyTake n s ++ pyDrop n s = s := by
  unfold pyTake pyDrop; split <;> simp

theorem pyTake_nat {α : Type} (n : Nat) (s : List α) : pyTake (n : Int) s = s.take n := by
  simp [pyTake]

theorem pyDrop_nat {α : Type} (n : Nat) (s : List α) : pyDrop (n : Int) s = s.drop n := by
  simp [pyDrop]

/-- Every segment has as many displayed characters as bytes. -/
def AllConsistent (gs : List Segment) : Prop := ∀ g ∈ gs, g.raw.length = g.processed.length

theorem split_consistent {g l r : Segment} {n : Int} (h : g.split n = .ok (l, r)) :
    l.raw.length = l.processed.length ∧ r.raw.length = r.processed.length := by
  obtain ⟨rfl, rfl, hc⟩ := split_ok h
  constructor
  · simp only [pyTake]; split <;> simp [hc]
  · simp only [pyDrop]; split <;> simp [hc]

theorem qDetach_raw {gs os rs : List Segment} {o : Bool} {req : Int} (h : qDetach req gs = .ok (os, rs, o)) :
    os.flatMap Segment.raw ++ rs.flatMap Segment.raw = gs.flatMap Segment.raw ∧
    (AllConsistent gs → AllConsistent os ∧ AllConsistent rs) := by
  induction gs generalizing req os rs o with
  | nil => simp [qDetach] at h; obtain ⟨rfl, rfl, -⟩ := h; simp [AllConsistent]
  | cons g gs ih =>
    unfold qDetach at h
    split at h
    · simp only [Except.ok.injEq, Prod.mk.injEq] at h
      obtain ⟨rfl, rfl, -⟩ := h
      simp [AllConsistent]
    · split at h
      · split at h
        · cases h
        · rename_i os' rs' o' hq
          simp only [Except.ok.injEq, Prod.mk.injEq] at h
          obtain ⟨rfl, rfl, -⟩ := h
          obtain ⟨h1, h2⟩ := ih hq
          refine ⟨by simp [← h1], fun hc => ?_⟩
          have := h2 fun x hx => hc x (by simp [hx])
          refine ⟨fun x hx => ?_, this.2⟩
          rcases List.mem_cons.1 hx with rfl | hx
          · exact hc _ (by simp)
          · exact this.1 x hx
      · split at h
        · cases h
        · rename_i l r hq
          simp only [Except.ok.injEq, Prod.mk.injEq] at h
          obtain ⟨rfl, rfl, -⟩ := h
          have hcc := split_consistent hq
          obtain ⟨rfl, rfl, -⟩ := split_ok hq
          refine ⟨?_, fun hc => ⟨?_, ?_⟩⟩
          · simp only [List.flatMap_cons, List.flatMap_nil, List.append_nil, ← List.append_assoc, pyTake_pyDrop]
          · intro x hx; rw [List.mem_singleton.1 hx]; exact hcc.1
          · intro x hx
            rcases List.mem_cons.1 hx with rfl | hx
            · exact hcc.2
            · exact hc x (by simp [hx])

theorem qDetachO_raw {gs os rs : List Segment} {o o' : Bool} {req : Int}
    (h : qDetachO req o gs = .ok (os, rs, o')) :
    os.flatMap Segment.raw ++ rs.flatMap Segment.raw = gs.flatMap Segment.raw ∧
    (AllConsistent gs → AllConsistent os ∧ AllConsistent rs) := by
  unfold qDetachO at h
  split at h
  · split at h
    · simp only [Except.ok.injEq, Prod.mk.injEq] at h
      obtain ⟨rfl, rfl, -⟩ := h
      refine ⟨by simp, fun hc => ⟨?_, hc⟩⟩
      intro x hx; rw [List.mem_singleton.1 hx]; rfl
    · exact qDetach_raw h
  · exact qDetach_raw h

theorem qDetach_err {gs : List Segment} {req : Int} {e : Err} (h : qDetach req gs = .error e) :
    e = .bufferError ∧ ∃ g ∈ gs, g.raw.length ≠ g.processed.length := by
  induction gs generalizing req with
  | nil => simp [qDetach] at h
  | cons g gs ih =>
    unfold qDetach at h
    split at h
    · cases h
    · split at h
      · split at h
        · rename_i e' hq
          cases h
          obtain ⟨h1, g', h2, h3⟩ := ih hq
          exact ⟨h1, g', by simp [h2], h3⟩
        · cases h
      · split at h
        · rename_i e' hq
          cases h
          obtain ⟨h1, h2⟩ := split_err hq
          exact ⟨h1, g, by simp, h2⟩
        · cases h

theorem qDetachO_err {gs : List Segment} {o : Bool} {req : Int} {e : Err} (h : qDetachO req o gs = .error e) :
    e = .bufferError ∧ ∃ g ∈ gs, g.raw.length ≠ g.processed.length := by
  unfold qDetachO at h
  split at h
  · split at h
    · cases h
    · exact qDetach_err h
  · exact qDetach_err h

/-- Detaching `n ≥ 0` bytes from the queue takes the first `n` bytes. -/
theorem qDetach_take {gs os rs : List Segment} {o : Bool} {n : Nat}
    (h : qDetach (n : Int) gs = .ok (os, rs, o)) :
    os.flatMap Segment.raw = (gs.flatMap Segment.raw).take n := by
  induction gs generalizing n os rs o with
  | nil => simp [qDetach] at h; obtain ⟨rfl, rfl, -⟩ := h; simp
  | cons g gs ih =>
    unfold qDetach at h
    split at h
    · rename_i h0
      have : n = 0 := by omega
      simp only [Except.ok.injEq, Prod.mk.injEq] at h
      obtain ⟨rfl, rfl, -⟩ := h
      simp [this]
    · split at h
      · rename_i hl
        unfold Segment.dataLen at *
        split at h
        · cases h
        · rename_i os' rs' o' hq
          simp only [Except.ok.injEq, Prod.mk.injEq] at h
          obtain ⟨rfl, rfl, -⟩ := h
          have e : (n : Int) - g.raw.length = ((n - g.raw.length : Nat) : Int) := by omega
          rw [e] at hq
          rw [List.flatMap_cons, List.flatMap_cons, ih hq, List.take_append, List.take_of_length_le (l := g.raw) (by omega)]
      · rename_i hl
        unfold Segment.dataLen at hl
        split at h
        · cases h
        · rename_i l r hq
          simp only [Except.ok.injEq, Prod.mk.injEq] at h
          obtain ⟨rfl, rfl, -⟩ := h
          obtain ⟨rfl, rfl, -⟩ := split_ok hq
          simp only [List.flatMap_cons, List.flatMap_nil, List.append_nil, pyTake_nat]
          rw [List.take_append_of_le_length (by omega)]

theorem qDetachO_take {gs os rs : List Segment} {o o' : Bool} {n : Nat}
    (h : qDetachO (n : Int) o gs = .ok (os, rs, o')) :
    os.flatMap Segment.raw = (gs.flatMap Segment.raw).take n := by
  unfold qDetachO at h
  split at h
  · split at h
    · rename_i h0
      have : n = 0 := by omega
      simp only [Except.ok.injEq, Prod.mk.injEq] at h
      obtain ⟨rfl, rfl, -⟩ := h
      simp [this]
    · exact qDetach_take h
  · exact qDetach_take h

/-- Nothing at all is detached only if nothing was requested or there is nothing. -/
theorem qDetachO_nil {gs os rs : List Segment} {o o' : Bool} {req : Int}
    (h : qDetachO req o gs = .ok (os, rs, o')) : os = [] ↔ gs = [] ∨ (req = 0 ∧ o = false) := by
  have key : ∀ gs, qDetach req gs = .ok (os, rs, o') → (os = [] ↔ gs = [] ∨ req = 0) := by
    intro gs h
    cases gs with
    | nil => simp [qDetach] at h; simp [h.1]
    | cons g gs =>
      unfold qDetach at h
      split at h
      · rename_i h0
        simp only [Except.ok.injEq, Prod.mk.injEq] at h
        simp [h0, h.1]
      · rename_i h0
        split at h
        · split at h
          · cases h
          · simp only [Except.ok.injEq, Prod.mk.injEq] at h
            rw [← h.1]; simp [h0]
        · split at h
          · cases h
          · simp only [Except.ok.injEq, Prod.mk.injEq] at h
            rw [← h.1]; simp [h0]
  unfold qDetachO at h
  split at h
  · split at h
    · simp only [Except.ok.injEq, Prod.mk.injEq] at h
      rw [← h.1]; simp
    · rename_i h0
      have := key _ h
      rw [this]; simp [h0]
  · rename_i hno
    have := key _ h
    rw [this]
    cases o with
    | false => simp
    | true =>
      cases gs with
      | nil => simp
      | cons g gs => exact absurd rfl (hno g gs rfl)

end Kolombos
