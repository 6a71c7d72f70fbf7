import Verif.Lemmas.Buffer
import Verif.Model.Parser
/-
C10 - C12, C15, C44, C45: the segment buffer and the parser buffer.
-/
set_option linter.unusedSimpArgs false

namespace Kolombos

/-- One call of the segment buffer. -/
inductive BufOp where
  | attach (gs : List Segment)
  | bytes (n : Int) (force : Bool)
  | line (force : Bool)

/-- The elements an answer hands out. -/
def Detached.elems : Detached → List Chainable
  | .ok out => out
  | _ => []

/-- The effect of one call: the elements handed out and the buffer afterwards. -/
def BufOp.step (b : SegmentBuffer) : BufOp → Except Err (List Chainable × SegmentBuffer)
  | .attach gs => .ok ([], b.attach gs)
  | .bytes n force => (b.detachBytes n force).map fun r => (r.1.elems, r.2)
  | .line force => (b.detachLine force).map fun r => (r.1.elems, r.2)

/-- A history of calls: all elements handed out, in order, and the buffer afterwards. -/
def BufOp.history (b : SegmentBuffer) : List BufOp → Except Err (List Chainable × SegmentBuffer)
  | [] => .ok ([], b)
  | op :: ops =>
    match op.step b with
    | .error e => .error e
    | .ok (out, b') =>
      match BufOp.history b' ops with
      | .error e => .error e
      | .ok (out', b'') => .ok (out ++ out', b'')

/-- The segments given to the buffer in a history. -/
def BufOp.given : List BufOp → List Segment
  | [] => []
  | .attach gs :: ops => gs ++ given ops
  | _ :: ops => given ops

/-- The raw bytes of the segments among some elements. -/
def rawBytes : List Chainable → Bytes
  | [] => []
  | .seg g :: r => g.raw ++ rawBytes r
  | _ :: r => rawBytes r

theorem rawBytes_eq (l : List Chainable) : rawBytes l = rawOf l := by
  induction l with
  | nil => rfl
  | cons a l ih => cases a <;> simp [rawBytes, rawOf, ih]

theorem detachBytes_rep {b : SegmentBuffer} {o : Bool} {gs : List Segment} (h : Rep b o gs) (n : Int) (force : Bool) :
    match b.detachBytes n force with
    | .error e => e = .bufferError ∧ ¬AllConsistent gs
    | .ok (d, b') => ∃ o' os rs, Rep b' o' rs ∧ OutRel d.elems os ∧
        os.flatMap Segment.raw ++ rs.flatMap Segment.raw = gs.flatMap Segment.raw ∧
        (AllConsistent gs → AllConsistent rs) := by
  unfold SegmentBuffer.detachBytes
  by_cases hf : (b.dataLen : Int) ≥ n ∨ force = true
  · rw [if_pos hf]
    have hd := detach_rep h n
    cases hq : qDetachO n o gs with
    | error e =>
      rw [hq] at hd; simp only at hd; rw [hd]
      obtain ⟨h1, g, h2, h3⟩ := qDetachO_err hq
      exact ⟨h1, fun hc => h3 (hc g h2)⟩
    | ok x =>
      obtain ⟨os, rs, o'⟩ := x
      rw [hq] at hd; simp only at hd
      obtain ⟨out, b', e1, e2, -, e4⟩ := hd
      rw [e1]
      obtain ⟨h1, h2⟩ := qDetachO_raw hq
      simp only
      by_cases hlen : out.length = 0
      · rw [if_pos hlen]
        have : os = [] := e4.empty.1 (List.length_eq_zero_iff.1 hlen)
        subst this
        exact ⟨o', [], rs, e2, ⟨rfl, fun _ _ => rfl, by simp [Detached.elems]⟩, h1, fun hc => (h2 hc).2⟩
      · rw [if_neg hlen]
        exact ⟨o', os, rs, e2, e4, h1, fun hc => (h2 hc).2⟩
  · rw [if_neg hf]
    exact ⟨o, [], gs, h, ⟨rfl, fun _ _ => rfl, by simp [Detached.elems]⟩, rfl, id⟩

theorem detachLine_rep {b : SegmentBuffer} {o : Bool} {gs : List Segment} (h : Rep b o gs) (force : Bool) :
    match b.detachLine force with
    | .error e => e = .bufferError ∧ ¬AllConsistent gs
    | .ok (d, b') => ∃ o' os rs, Rep b' o' rs ∧ OutRel d.elems os ∧
        os.flatMap Segment.raw ++ rs.flatMap Segment.raw = gs.flatMap Segment.raw ∧
        (AllConsistent gs → AllConsistent rs) := by
  unfold SegmentBuffer.detachLine
  generalize SegmentBuffer.lineAvail b.chain = r
  simp only
  by_cases h0 : r.1 = 0
  · rw [if_pos h0]
    exact ⟨o, [], gs, h, ⟨rfl, fun _ _ => rfl, by simp [Detached.elems]⟩, rfl, id⟩
  rw [if_neg h0]
  by_cases h1 : r.2 = true ∨ force = true
  · rw [if_pos h1]
    have hd := detach_rep h (r.1 : Int)
    cases hq : qDetachO (r.1 : Int) o gs with
    | error e =>
      rw [hq] at hd; simp only at hd; rw [hd]
      obtain ⟨h1, g, h2, h3⟩ := qDetachO_err hq
      exact ⟨h1, fun hc => h3 (hc g h2)⟩
    | ok x =>
      obtain ⟨os, rs, o'⟩ := x
      rw [hq] at hd; simp only at hd
      obtain ⟨out, b', e1, e2, -, e4⟩ := hd
      rw [e1]
      obtain ⟨h1, h2⟩ := qDetachO_raw hq
      exact ⟨o', os, rs, e2, e4, h1, fun hc => (h2 hc).2⟩
  · rw [if_neg h1]
    exact ⟨o, [], gs, h, ⟨rfl, fun _ _ => rfl, by simp [Detached.elems]⟩, rfl, id⟩

theorem step_rep {b : SegmentBuffer} {o : Bool} {gs : List Segment} (h : Rep b o gs) (op : BufOp) :
    match op.step b with
    | .error e => e = .bufferError ∧ ¬AllConsistent gs
    | .ok (out, b') => ∃ o' rs, Rep b' o' rs ∧
        rawOf out ++ rs.flatMap Segment.raw = gs.flatMap Segment.raw ++ (BufOp.given [op]).flatMap Segment.raw ∧
        (AllConsistent (gs ++ BufOp.given [op]) → AllConsistent rs) := by
  cases op with
  | attach hs => exact ⟨o, gs ++ hs, h.attach hs, by simp [rawOf, BufOp.given], by simp [BufOp.given]⟩
  | bytes n force =>
    have := detachBytes_rep h n force
    simp only [BufOp.step]
    cases hq : b.detachBytes n force with
    | error e => rw [hq] at this; simp only [Except.map]; exact this
    | ok x =>
      rw [hq] at this
      simp only [Except.map]
      obtain ⟨o', os, rs, h1, h2, h3, h4⟩ := this
      exact ⟨o', rs, h1, by rw [h2.raw, h3]; simp [BufOp.given], by simpa [BufOp.given] using h4⟩
  | line force =>
    have := detachLine_rep h force
    simp only [BufOp.step]
    cases hq : b.detachLine force with
    | error e => rw [hq] at this; simp only [Except.map]; exact this
    | ok x =>
      rw [hq] at this
      simp only [Except.map]
      obtain ⟨o', os, rs, h1, h2, h3, h4⟩ := this
      exact ⟨o', rs, h1, by rw [h2.raw, h3]; simp [BufOp.given], by simpa [BufOp.given] using h4⟩

theorem given_cons (op : BufOp) (ops : List BufOp) :
    BufOp.given (op :: ops) = BufOp.given [op] ++ BufOp.given ops := by
  cases op <;> simp [BufOp.given]

theorem history_rep {b : SegmentBuffer} {o : Bool} {gs : List Segment} (h : Rep b o gs) (ops : List BufOp) :
    match BufOp.history b ops with
    | .error e => e = .bufferError ∧ ¬AllConsistent (gs ++ BufOp.given ops)
    | .ok (out, b') => ∃ o' rs, Rep b' o' rs ∧
        rawOf out ++ rs.flatMap Segment.raw = gs.flatMap Segment.raw ++ (BufOp.given ops).flatMap Segment.raw ∧
        (AllConsistent (gs ++ BufOp.given ops) → AllConsistent rs) := by
  induction ops generalizing b o gs with
  | nil => exact ⟨o, gs, h, by simp [rawOf, BufOp.given], by simp [BufOp.given]⟩
  | cons op ops ih =>
    unfold BufOp.history
    have hs := step_rep h op
    have hg := given_cons op ops
    cases hq : op.step b with
    | error e =>
      rw [hq] at hs
      exact ⟨hs.1, fun hc => hs.2 fun g hg => hc g (by simp [hg])⟩
    | ok x =>
      obtain ⟨out, b'⟩ := x
      rw [hq] at hs
      obtain ⟨o', rs, h1, h2, h3⟩ := hs
      have hi := ih h1
      simp only
      cases hq2 : BufOp.history b' ops with
      | error e =>
        rw [hq2] at hi
        refine ⟨hi.1, fun hc => hi.2 fun g hg' => ?_⟩
        rcases List.mem_append.1 hg' with hg' | hg'
        · exact h3 (fun x hx => hc x (by rw [hg]; simp at hx ⊢; rcases hx with hx | hx <;> simp [hx])) g hg'
        · exact hc g (by rw [hg]; simp [hg'])
      | ok y =>
        obtain ⟨out', b''⟩ := y
        rw [hq2] at hi
        obtain ⟨o'', rs', k1, k2, k3⟩ := hi
        refine ⟨o'', rs', k1, ?_, fun hc => k3 fun g hg' => ?_⟩
        · rw [rawOf_append, List.append_assoc, k2, ← List.append_assoc, h2, hg]; simp
        · rcases List.mem_append.1 hg' with hg' | hg'
          · exact h3 (fun x hx => hc x (by rw [hg]; simp at hx ⊢; rcases hx with hx | hx <;> simp [hx])) g hg'
          · exact hc g (by rw [hg]; simp [hg'])

/-! ### C10 -/

/-- C10: whatever calls are made, the bytes handed out followed by the bytes
still held are the bytes given, in order. -/
theorem C10_queue (ops : List BufOp) (out : List Chainable) (b : SegmentBuffer)
    (h : BufOp.history {} ops = .ok (out, b)) :
    rawBytes out ++ rawBytes b.chain = (BufOp.given ops).flatMap Segment.raw := by
  have := history_rep Rep.nil ops
  rw [h] at this
  obtain ⟨o, rs, h1, h2, -⟩ := this
  rw [rawBytes_eq, rawBytes_eq, h1.raw, h2]; simp

/-- C10: a history fails only by the refused split of a segment whose
displayed characters do not correspond to its bytes. -/
theorem C10_no_error (ops : List BufOp) (e : Err) (h : BufOp.history {} ops = .error e) :
    e = .bufferError ∧ ∃ g ∈ BufOp.given ops, g.raw.length ≠ g.processed.length := by
  have := history_rep Rep.nil ops
  rw [h] at this
  refine ⟨this.1, ?_⟩
  have h2 := this.2
  simp only [List.nil_append, AllConsistent] at h2
  refine Classical.byContradiction fun hc => ?_
  exact h2 fun g hg => Classical.byContradiction fun hn => hc ⟨g, hg, hn⟩

/-- Two segments, the second of which is cut, read with one more segment between. -/
def exampleOps : List BufOp :=
  [.attach [⟨[], [], [65, 66], ['A', 'B']⟩, ⟨[34], ['C'], [1, 2, 3], ['a', 'b', 'c']⟩],
   .bytes 3 false, .attach [⟨[31, 1], [], [10], ['\n']⟩], .bytes 9 false, .line false, .bytes (-2) true]

example : ∃ out b, BufOp.history {} exampleOps = .ok (out, b) ∧ rawBytes out = [65, 66, 1, 2, 3, 10] ∧
    rawBytes b.chain = [] ∧ out.length = 10 := by
  refine ⟨_, _, rfl, ?_, ?_, ?_⟩ <;> decide

example : BufOp.history {} [.attach [⟨[], [], [65, 66], ['A']⟩], .bytes 1 false] = .error .bufferError := rfl

/-! ### C11 -/

/-- C11: `detach_bytes n` on any reachable buffer.  Enough data or `force`: the
first `min n available` bytes are handed out and their number is reported;
`EOFError` only if that is nothing; otherwise `WaitRequest`, nothing changed. -/
theorem C11_detach_bytes (ops : List BufOp) (before : List Chainable) (b : SegmentBuffer)
    (h : BufOp.history {} ops = .ok (before, b)) (n : Nat) (force : Bool)
    (hc : ∀ g ∈ BufOp.given ops, g.raw.length = g.processed.length) :
    if n ≤ (rawBytes b.chain).length ∨ force = true then
      (∃ out b', b.detachBytes n force = .ok (.ok out, b') ∧ rawBytes out = (rawBytes b.chain).take n ∧
        rawBytes b'.chain = (rawBytes b.chain).drop n ∧
        b'.lastLen = min n (rawBytes b.chain).length) ∨
      (∃ b', b.detachBytes n force = .ok (.eof, b') ∧ min n (rawBytes b.chain).length = 0 ∧
        rawBytes b'.chain = rawBytes b.chain)
    else b.detachBytes n force = .ok (.wait, b) := by
  have hh := history_rep Rep.nil ops
  rw [h] at hh
  obtain ⟨o, gs, hr, -, h3⟩ := hh
  have hcon : AllConsistent gs := h3 (by simpa [AllConsistent] using hc)
  have hraw : rawBytes b.chain = gs.flatMap Segment.raw := by rw [rawBytes_eq, hr.raw]
  have hcond : ((b.dataLen : Int) ≥ n ∨ force = true) ↔ (n ≤ (rawBytes b.chain).length ∨ force = true) := by
    rw [hr.dataLen, hraw, ge_iff_le, Int.ofNat_le]
  unfold SegmentBuffer.detachBytes
  by_cases hf : n ≤ (rawBytes b.chain).length ∨ force = true
  · rw [if_pos hf, if_pos (hcond.2 hf)]
    have hd := detach_rep hr n
    cases hq : qDetachO n o gs with
    | error e =>
      obtain ⟨-, g, h2, h3⟩ := qDetachO_err hq
      exact absurd (hcon g h2) h3
    | ok x =>
      obtain ⟨os, rs, o'⟩ := x
      rw [hq] at hd
      obtain ⟨out, b', e1, e2, e3, e4⟩ := hd
      have ht := qDetachO_take hq
      have hs := (qDetachO_raw hq).1
      have hdrop : rs.flatMap Segment.raw = (gs.flatMap Segment.raw).drop n := by
        rw [ht] at hs
        exact List.append_cancel_left (hs.trans (List.take_append_drop n _).symm)
      rw [e1]
      by_cases hl : out.length = 0
      · right
        have ho : os = [] := e4.empty.1 (List.length_eq_zero_iff.1 hl)
        refine ⟨b', by simp only [hl, if_true], ?_, ?_⟩
        · rw [hraw, ← List.length_take, ← ht, ho]; rfl
        · rw [rawBytes_eq, e2.raw, hraw, ← hs, ho]; rfl
      · left
        refine ⟨out, b', by simp only [hl, if_false], ?_, ?_, ?_⟩
        · rw [rawBytes_eq, e4.raw, ht, hraw]
        · rw [rawBytes_eq, e2.raw, hdrop, hraw]
        · have hne : gs ≠ [] := by
            intro hg
            have := (qDetachO_nil hq).2 (Or.inl hg)
            exact hl (by rw [e4.empty.2 this]; rfl)
          rw [e3 hne, ht, List.length_take, hraw]
  · rw [if_neg hf, if_neg (fun hh => hf (hcond.1 hh))]

example : ∃ b, BufOp.history {} [.attach [⟨[34], [], [1, 2, 3], ['a', 'b', 'c']⟩]] = .ok ([], b) ∧
    b.detachBytes 4 false = .ok (.wait, b) ∧ (∃ out b', b.detachBytes 4 true = .ok (.ok out, b') ∧ b'.lastLen = 3) ∧
    (∃ out b', b.detachBytes 2 false = .ok (.ok out, b') ∧ rawBytes out = [1, 2] ∧ rawBytes b'.chain = [3]) :=
  ⟨_, rfl, rfl, ⟨_, _, rfl, rfl⟩, ⟨_, _, rfl, rfl, rfl⟩⟩

/-! ### C12 -/

/-- C12: splitting. -/
theorem C12_split (g : Segment) (n : Nat) :
    if g.raw.length = g.processed.length then
      ∃ l r, g.split n = .ok (l, r) ∧ l.raw ++ r.raw = g.raw ∧ l.processed ++ r.processed = g.processed ∧
        l.raw.length = min n g.raw.length ∧ r.raw.length = g.raw.length - n ∧
        l.raw.length = l.processed.length ∧ r.raw.length = r.processed.length ∧
        l.opening = g.opening ∧ r.opening = g.opening ∧ l.typeLabel = g.typeLabel ∧ r.typeLabel = g.typeLabel
    else g.split n = .error .bufferError := by
  by_cases h : g.raw.length = g.processed.length
  · rw [if_pos h]
    have hs : g.split n = .ok ({ g with raw := pyTake n g.raw, processed := pyTake n g.processed },
        { g with raw := pyDrop n g.raw, processed := pyDrop n g.processed }) := by
      simp [Segment.split, Segment.isConsistent, h]
    refine ⟨_, _, hs, pyTake_pyDrop (n : Int) g.raw, pyTake_pyDrop (n : Int) g.processed, ?_, ?_, ?_, ?_, rfl, rfl, rfl, rfl⟩
    · simp [pyTake_nat]
    · simp [pyDrop_nat]
    · exact (split_consistent hs).1
    · exact (split_consistent hs).2
  · rw [if_neg h]; simp [Segment.split, Segment.isConsistent, h]

example : (⟨[1], ['t'], [1, 2, 3], ['a', 'b', 'c']⟩ : Segment).split 2 =
    .ok (⟨[1], ['t'], [1, 2], ['a', 'b']⟩, ⟨[1], ['t'], [3], ['c']⟩) := rfl
example : (⟨[1], ['t'], [1, 2, 3], ['a', 'b']⟩ : Segment).split 2 = .error .bufferError := rfl

/-! ### C15 -/

/-- C15: after any history at most one style is active, and no history fails
with the `ValueError` of removing a style that is not active. -/
theorem C15_active (ops : List BufOp) :
    BufOp.history {} ops ≠ .error .valueError ∧
    ∀ out b, BufOp.history {} ops = .ok (out, b) → b.active.length ≤ 1 := by
  have hh := history_rep Rep.nil ops
  constructor
  · intro h
    rw [h] at hh
    exact absurd hh.1 (by decide)
  · intro out b h
    rw [h] at hh
    obtain ⟨o, rs, hr, -⟩ := hh
    rw [hr.active]
    unfold activeOf
    split <;> simp

example : ∃ out b, BufOp.history {} [.attach [⟨[34], [], [1, 2, 3], ['a', 'b', 'c']⟩], .bytes 2 false] = .ok (out, b) ∧
    b.active = [[34]] := ⟨_, _, rfl, rfl⟩

/-! ### C44 -/

/-- `a` occurs in `s` at offset `k`. -/
def OccursAt {α : Type} (a s : List α) (k : Nat) : Prop := ∃ p q, s = p ++ a ++ q ∧ p.length = k

theorem findSub_none {α : Type} [DecidableEq α] {a s : List α} (h : findSub a s = none) (k : Nat) :
    ¬OccursAt a s k := by
  induction s generalizing k with
  | nil =>
    rintro ⟨p, q, h1, -⟩
    unfold findSub at h
    split at h
    · cases h
    · rename_i hn
      have := congrArg List.length h1
      simp at this
      exact hn (by simpa using List.length_eq_zero_iff.1 (by omega : a.length = 0))
  | cons c s ih =>
    unfold findSub at h
    split at h
    · cases h
    · rename_i hp
      rintro ⟨p, q, h1, h2⟩
      cases p with
      | nil =>
        apply hp
        rw [h1]
        simp
      | cons d p =>
        simp only [List.cons_append, List.cons.injEq] at h1
        exact ih (by simpa using h) p.length ⟨p, q, h1.2, rfl⟩

theorem findSub_some {α : Type} [DecidableEq α] {a s : List α} {k : Nat} (h : findSub a s = some k) :
    OccursAt a s k ∧ ∀ j < k, ¬OccursAt a s j := by
  induction s generalizing k with
  | nil =>
    unfold findSub at h
    split at h
    · rename_i he
      cases h; subst he
      exact ⟨⟨[], [], rfl, rfl⟩, by omega⟩
    · cases h
  | cons c s ih =>
    unfold findSub at h
    split at h
    · rename_i hp
      cases h
      obtain ⟨t, ht⟩ := List.isPrefixOf_iff_prefix.1 hp
      exact ⟨⟨[], t, by simpa using ht.symm, rfl⟩, by omega⟩
    · rename_i hp
      obtain ⟨k', h1, rfl⟩ := Option.map_eq_some_iff.1 h
      obtain ⟨⟨p, q, e1, e2⟩, h2⟩ := ih h1
      refine ⟨⟨c :: p, q, by simp [e1], by simp [e2]⟩, ?_⟩
      rintro j hj ⟨p', q', e3, e4⟩
      cases p' with
      | nil =>
        apply hp
        rw [e3]
        simp
      | cons d p' =>
        simp only [List.cons_append, List.cons.injEq] at e3
        simp only [List.length_cons] at e4
        exact h2 p'.length (by omega) ⟨p', q', e3.2, rfl⟩

/-- C44 as stated is false: the *first* occurrence of the rest is searched. -/
theorem C44_negation : ¬∀ (b : ParserBuffer) (rest : Bytes), rest <:+ b.raw →
    ∃ b', b.cropRaw rest = .ok b' ∧ b'.raw = rest := by
  intro h
  obtain ⟨b', h1, h2⟩ := h ⟨[97, 98, 97], false⟩ [97] ⟨[97, 98], rfl⟩
  have : (ParserBuffer.cropRaw ⟨[97, 98, 97], false⟩ [97]) = .ok ⟨[97, 98, 97], false⟩ := rfl
  rw [this] at h1
  cases h1
  exact absurd h2 (by decide)

/-- C44, what holds: cropping fails exactly when the rest does not occur; else
the buffer is cut before its first occurrence.  For a suffix the result is the
rest exactly when it occurs nowhere earlier.  (Full claim: always.) -/
theorem C44_partial (b : ParserBuffer) (rest : Bytes) :
    (b.cropRaw rest = .error .runtimeError ↔ rest ≠ [] ∧ ∀ k, ¬OccursAt rest b.raw k) ∧
    (∀ e, b.cropRaw rest = .error e → e = .runtimeError) ∧
    (∀ b', b.cropRaw rest = .ok b' → b'.closed = b.closed ∧ rest <+: b'.raw ∧ b'.raw <:+ b.raw) ∧
    (rest <:+ b.raw → ∃ b', b.cropRaw rest = .ok b' ∧
      (b'.raw = rest ↔ rest = [] ∨ ∀ k < b.raw.length - rest.length, ¬OccursAt rest b.raw k)) := by
  unfold ParserBuffer.cropRaw
  by_cases h0 : rest.length = 0
  · have hr := List.length_eq_zero_iff.1 h0
    subst hr
    refine ⟨by simp, by simp, ?_, ?_⟩
    · intro b' h; simp at h; subst h; simp
    · intro _; exact ⟨_, if_pos rfl, by simp⟩
  · have hne : rest ≠ [] := fun h => h0 (by simp [h])
    rw [if_neg h0]
    cases hf : findSub rest b.raw with
    | none =>
      have hn := findSub_none hf
      refine ⟨by simp [hne, hn], by simp, by simp, ?_⟩
      rintro ⟨p, hp⟩
      exact absurd ⟨p, [], by simp [hp], rfl⟩ (hn p.length)
    | some k =>
      obtain ⟨⟨p, q, h1, h2⟩, h3⟩ := findSub_some hf
      have hd : b.raw.drop k = rest ++ q := by rw [h1, ← h2]; simp
      refine ⟨?_, by simp, ?_, ?_⟩
      · constructor
        · intro h; cases h
        · rintro ⟨-, h⟩; exact absurd ⟨p, q, h1, h2⟩ (h k)
      · intro b' h
        simp only [Except.ok.injEq] at h
        subst h
        exact ⟨rfl, ⟨q, hd.symm⟩, List.drop_suffix _ _⟩
      · rintro ⟨p', hp'⟩
        refine ⟨_, rfl, ?_⟩
        have hl : b.raw.length = p'.length + rest.length := by rw [← hp']; simp
        have hl2 : b.raw.length = k + rest.length + q.length := by rw [h1]; simp; omega
        have : (b.raw.drop k = rest) ↔ q = [] := by rw [hd]; simp
        simp only [this, hne, false_or]
        constructor
        · rintro rfl j hj
          simp at hl2
          exact h3 j (by omega)
        · intro hk
          refine Classical.byContradiction fun hq => ?_
          have : 0 < q.length := List.length_pos_iff.2 hq
          exact hk k (by omega) ⟨p, q, h1, h2⟩

example : (ParserBuffer.cropRaw ⟨[1, 2, 3, 4], false⟩ [3, 4]) = .ok ⟨[3, 4], false⟩ := rfl
example : (ParserBuffer.cropRaw ⟨[1, 2, 3, 4], false⟩ [4, 3]) = .error .runtimeError := rfl

/-! ### C45 -/

/-- The sequence a reference refers to. -/
def refOf : Chainable → Option Sgr
  | .seg _ => none
  | .start s => some s
  | .stop s => some s
  | .oneUse s => some s

/-- C45 as stated is false: a reference equals every other reference. -/
theorem C45_negation : ¬∀ (a b : Chainable) (s t : Sgr), refOf a = some s → refOf b = some t →
    (a.refEq b = some true ↔ s = t) := by
  intro h
  have := (h (.start [31]) (.start [32]) [31] [32] rfl rfl).1 rfl
  exact absurd this (by decide)

/-- C45, what holds: references to equal sequences compare equal (full claim:
and only these; in fact any two references compare equal). -/
theorem C45_partial (a b : Chainable) (s t : Sgr) (ha : refOf a = some s) (hb : refOf b = some t) :
    (s = t → a.refEq b = some true) ∧ a.refEq b = some true := by
  have : a.refEq b = some true := by
    cases a <;> cases b <;> simp [refOf] at ha hb <;> simp [Chainable.refEq, Sgr.eq]
  exact ⟨fun _ => this, this⟩

example : refOf (.oneUse [1, 31]) = some [1, 31] ∧ (Chainable.oneUse [1, 31]).refEq (.stop [1, 31]) = some true :=
  ⟨rfl, rfl⟩

end Kolombos
