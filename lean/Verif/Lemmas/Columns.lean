import Verif.Lemmas.BinView
/-
The binary formatter with a number of columns that is not positive.
-/
set_option linter.unusedSimpArgs false

namespace Kolombos
open Spec

theorem qDetach_neg {gs os rs : List Segment} {o : Bool} {req : Int} (hr : req < 0) (hg : gs ≠ [])
    (h : qDetach req gs = .ok (os, rs, o)) : os ≠ [] ∧ rs ≠ [] := by
  cases gs with
  | nil => exact absurd rfl hg
  | cons g gs =>
    unfold qDetach at h
    rw [if_neg (by omega), if_neg (by simp only [Segment.dataLen]; omega)] at h
    split at h
    · cases h
    · simp only [Except.ok.injEq, Prod.mk.injEq] at h
      rw [← h.1, ← h.2.1]; simp

theorem qDetachO_neg {gs os rs : List Segment} {o o' : Bool} {req : Int} (hr : req < 0) (hg : gs ≠ [])
    (h : qDetachO req o gs = .ok (os, rs, o')) : os ≠ [] ∧ rs ≠ [] := by
  unfold qDetachO at h
  split at h
  · rw [if_neg (by omega)] at h
    exact qDetach_neg hr hg h
  · exact qDetach_neg hr hg h

/-- One step of the loop that detaches something. -/
theorem loop_step {s : Settings} {cols req : Int} {closed : Bool} {b : SegmentBuffer} {o : Bool} {gs : List Segment}
    (h : Rep b o gs) (hc : AllConsistent gs) (hr : req ≤ 0) (hne : gs ≠ []) (ho : req = 0 → o = true) :
    ∃ out b' o' rs, Rep b' o' rs ∧ AllConsistent rs ∧ rs ≠ [] ∧ (req = 0 → o' = true) ∧
      ∀ fuel off, BinaryFormatter.loop s cols req closed (fuel + 1) b off =
        .write (BinaryFormatter.row s cols off b'.lastLen out)
          (BinaryFormatter.loop s cols req closed fuel b' (off + b'.lastLen)) := by
  have hd := detach_rep h req
  cases hq : qDetachO req o gs with
  | error e' =>
    obtain ⟨-, g, hg, hx⟩ := qDetachO_err hq
    exact absurd (hc g hg) hx
  | ok x =>
    obtain ⟨os, rs, o'⟩ := x
    rw [hq] at hd
    simp only at hd
    obtain ⟨out, b', e1, e2, -, e4⟩ := hd
    have hos : os ≠ [] := by
      intro hx
      rcases (qDetachO_nil hq).1 hx with h1 | ⟨h1, h2⟩
      · exact hne h1
      · rw [ho h1] at h2; cases h2
    have hout : out ≠ [] := fun hx => hos (e4.empty.1 hx)
    have hrs : rs ≠ [] ∧ (req = 0 → o' = true) := by
      by_cases h0 : req = 0
      · have := ho h0
        subst this h0
        cases gs with
        | nil => exact absurd rfl hne
        | cons g gs =>
          simp only [qDetachO, if_true, Except.ok.injEq, Prod.mk.injEq] at hq
          rw [← hq.2.1, ← hq.2.2]; simp
      · exact ⟨(qDetachO_neg (by omega) hne hq).2, fun hx => absurd hx h0⟩
    refine ⟨out, b', o', rs, e2, ((qDetachO_raw hq).2 hc).2, hrs.1, hrs.2, fun fuel off => ?_⟩
    rw [BinaryFormatter.loop]
    unfold SegmentBuffer.detachBytes
    rw [if_pos (.inl (by omega)), e1]
    simp only
    rw [if_neg (by simpa using hout)]

/-- With a negative request, or with an open sequence and an empty request, the loop
goes on forever. -/
theorem loop_forever {s : Settings} {cols req : Int} {closed : Bool} (hr : req ≤ 0) (fuel : Nat) :
    ∀ {b : SegmentBuffer} {o : Bool} {gs : List Segment} (off : Nat), Rep b o gs → AllConsistent gs → gs ≠ [] →
      (req = 0 → o = true) → (BinaryFormatter.loop s cols req closed fuel b off).res = .timeout := by
  induction fuel with
  | zero => intros; rfl
  | succ fuel ih =>
    intro b o gs off h hc hne ho
    obtain ⟨out, b', o', rs, h1, h2, h3, h4, h5⟩ := loop_step (s := s) (cols := cols) (closed := closed) h hc hr hne ho
    rw [h5]
    exact ih _ h1 h2 h3 h4

/-- If nothing is open and nothing is requested, or there is nothing, the loop ends
at once. -/
theorem loop_ends {s : Settings} {cols req : Int} {closed : Bool} {b : SegmentBuffer} {gs : List Segment}
    (h : Rep b false gs) (h0 : gs = [] ∨ req = 0) (off fuel : Nat) :
    ∃ b', Rep b' false gs ∧ BinaryFormatter.loop s cols req closed (fuel + 1) b off = .pure (b', off) := by
  have hd := detach_rep h req
  have hq : qDetachO req false gs = .ok ([], gs, false) := by
    unfold qDetachO
    rcases h0 with rfl | rfl
    · rfl
    · cases gs <;> simp [qDetach]
  rw [hq] at hd
  simp only at hd
  obtain ⟨out, b', e1, e2, -, e4⟩ := hd
  have hout : out = [] := e4.empty.2 rfl
  rw [BinaryFormatter.loop]
  unfold SegmentBuffer.detachBytes
  by_cases hx : (b.dataLen : Int) ≥ req ∨ closed = true
  · rw [if_pos hx, e1]
    simp only
    rw [if_pos (by simp [hout])]
    exact ⟨b', e2, rfl⟩
  · rw [if_neg hx]
    exact ⟨b, h, rfl⟩

theorem req_le {closed : Bool} {n : Nat} {cols : Int} (h : cols ≤ 0) :
    (if closed then min (n : Int) cols else cols) = cols := by
  split
  · rw [Int.min_def]; split <;> omega
  · rfl

theorem Run.bind_timeout {α β : Type} {r : Run α} {f : α → Run β} (h : r.res = .timeout) : (r.bind f).res = .timeout := by
  obtain ⟨o, res⟩ := r
  simp only at h
  subst h
  rfl

theorem chain_nil {b : SegmentBuffer} {o : Bool} {gs : List Segment} (h : Rep b o gs) : b.chain = [] ↔ gs = [] := by
  rw [h.chain]
  cases gs with
  | nil => cases o <;> simp [chainOf]
  | cons g gs =>
    cases o with
    | true => simp [chainOf]
    | false =>
      rw [chainOf_false, List.flatMap_cons, attachOne_eq]
      split <;> simp

theorem active_nil {b : SegmentBuffer} {o : Bool} {gs : List Segment} (h : Rep b o gs) : b.active = [] ↔ o = false := by
  rw [h.active]
  cases o with
  | false => simp [activeOf_false]
  | true =>
    obtain ⟨g, r, rfl, -⟩ := h.first rfl
    simp [activeOf]

theorem chunkSegs_nil {s : Settings} (hm : s.readMode.1 = .binary) (raw : Bytes) : chunkSegs s raw = [] ↔ raw = [] := by
  constructor
  · intro h
    have := chunkSegs_raw hm raw
    rw [h] at this
    simpa using this.symm
  · rintro rfl
    have hf := chunkSegs_fit hm []
    have := chunkSegs_raw hm []
    cases hc : chunkSegs s [] with
    | nil => rfl
    | cons g gs =>
      rw [hc] at this hf
      simp only [List.flatMap_cons, List.append_eq_nil_iff] at this
      exact absurd this.1 (hf g (by simp)).ne

/-- One chunk with a number of columns that is not positive. -/
theorem binStep_nonpos {s : Settings} (hm : s.readMode.1 = .binary) {st : State} {H : List Cell} (h : BinHold st H) (raw : Bytes)
    (hb : (pieces raw).any badPiece = false) (off : Nat) (fin : Bool) (term : Nat → Int)
    (hcols : BinaryFormatter.curCols s (term st.calls) st.offset ≤ 0) :
    (((st.buf.chain = [] ∧ raw = []) ∨ (BinaryFormatter.curCols s (term st.calls) st.offset = 0 ∧ st.buf.active = [])) →
      ∀ fuel, ∃ st', processChunk (fuel + 1) (Config.create s) term st raw off fin =
        ⟨if fin = true ∧ s.printOffsets = true then Console.formatTotalSize s st.offset ++ ['\n'] else [], .ok st'⟩ ∧
        (∃ H', BinHold st' H') ∧ st'.offset = st.offset ∧ st'.calls = st.calls + 1 ∧ st'.buf.active = []) ∧
    (¬ ((st.buf.chain = [] ∧ raw = []) ∨ (BinaryFormatter.curCols s (term st.calls) st.offset = 0 ∧ st.buf.active = [])) →
      ∀ fuel, (processChunk fuel (Config.create s) term st raw off fin).res = .timeout) := by
  obtain ⟨o, gs, h1, h2, h3⟩ := h.held
  have hq := h1.attach (chunkSegs s raw)
  have hf : ∀ g ∈ gs ++ chunkSegs s raw, Fit g := by
    intro g hg
    rcases List.mem_append.1 hg with hg | hg
    · exact h2 g hg
    · exact chunkSegs_fit hm raw g hg
  have hgs : gs ++ chunkSegs s raw = [] ↔ st.buf.chain = [] ∧ raw = [] := by
    rw [List.append_eq_nil_iff, chain_nil h1, chunkSegs_nil hm]
  have hact := active_nil h1
  have htot : ∀ n, Console.formatTotalSize s.readMode.2 n = Console.formatTotalSize s n := by
    obtain ⟨a, b, e⟩ := readMode_eq s; rw [e]; intro n; rfl
  have hpo : s.readMode.2.printOffsets = s.printOffsets := by
    obtain ⟨a, b, e⟩ := readMode_eq s; rw [e]; rfl
  constructor
  · intro hcase fuel
    have ho : o = false := by
      rcases hcase with hc | ⟨-, hc⟩
      · cases o with
        | false => rfl
        | true => 
          obtain ⟨g, r, e, -⟩ := h1.first rfl
          rw [(chain_nil h1).1 hc.1] at e; cases e
      · exact hact.1 hc
    subst ho
    have h0 : gs ++ chunkSegs s raw = [] ∨ BinaryFormatter.curCols s (term st.calls) st.offset = 0 := by
      rcases hcase with hc | ⟨hc, -⟩
      · exact .inl (hgs.2 hc)
      · exact .inr hc
    rw [processChunk_eq _ s term st raw off fin h.parser, if_neg (by simp [hb]), formatStep_binary hm]
    simp only [BinaryFormatter.format, readMode_curCols]
    rw [req_le hcols]
    obtain ⟨b', e1, e2⟩ := loop_ends (s := s.readMode.2) (cols := BinaryFormatter.curCols s (term st.calls) st.offset) (closed := fin) hq h0 st.offset fuel
    rw [e2]
    refine ⟨{ pb := ⟨[], fin⟩, buf := b', offset := st.offset, lineNum := st.lineNum, calls := st.calls + 1 }, ?_,
      ⟨_, rfl, _, _, e1, hf, rfl⟩, rfl, rfl, (active_nil e1).2 rfl⟩
    rw [pure_bind, htot, hpo]
    by_cases hx : fin = true ∧ s.printOffsets = true
    · rw [if_pos hx, if_pos hx]; simp [Run.write, Run.pure, Run.bind]
    · rw [if_neg hx, if_neg hx]; rfl
  · intro hcase fuel
    rw [processChunk_eq _ s term st raw off fin h.parser, if_neg (by simp [hb]), formatStep_binary hm]
    simp only [BinaryFormatter.format, readMode_curCols]
    rw [req_le hcols]
    refine Run.bind_timeout (Run.bind_timeout (loop_forever hcols fuel st.offset hq (fun g hg => (hf g hg).len) ?_ ?_))
    · intro hx; exact hcase (.inl (hgs.1 hx))
    · intro hx
      cases o with
      | true => rfl
      | false => exact absurd (.inr ⟨hx, hact.2 rfl⟩) hcase

/-- Reached states hold bytes, whatever the number of columns. -/
theorem binHold_reached {s : Settings} (hm : s.readMode.1 = .binary) {fuel : Nat} {term : Nat → Int} (es : List ReadEvent)
    {st st' : State} {H : List Cell} {out : Str} (h : BinHold st H)
    (he : playEvents (processChunk fuel (Config.create s) term) es st = ⟨out, .ok st'⟩) : ∃ H', BinHold st' H' := by
  induction es generalizing st H out with
  | nil => 
    simp only [playEvents, Run.pure, Run.mk.injEq, Res.ok.injEq] at he
    rw [← he.2]; exact ⟨H, h⟩
  | cons x es ih =>
    obtain ⟨o1, st1, o2, f1, f2, -⟩ := bind_ok he
    have hb : (pieces x.data).any badPiece = false := by
      cases hb : (pieces x.data).any badPiece with
      | false => rfl
      | true =>
        rw [processChunk_eq _ s term st _ _ _ h.parser, if_pos hb] at f1
        simp [Run.fail] at f1
    by_cases hc : BinaryFormatter.curCols s (term st.calls) st.offset ≤ 0
    · obtain ⟨k1, k2⟩ := binStep_nonpos hm h x.data hb x.offset x.finish term hc
      by_cases hcase : ((st.buf.chain = [] ∧ x.data = []) ∨ (BinaryFormatter.curCols s (term st.calls) st.offset = 0 ∧ st.buf.active = []))
      · cases fuel with
        | zero =>
          rw [processChunk_eq _ s term st _ _ _ h.parser, if_neg (by simp [hb]), formatStep_binary hm] at f1
          simp [BinaryFormatter.format, BinaryFormatter.loop, Run.bind] at f1
        | succ fuel =>
          obtain ⟨st2, e1, ⟨H', e2⟩, -⟩ := k1 hcase fuel
          rw [e1] at f1
          simp only [Run.mk.injEq, Res.ok.injEq] at f1
          rw [f1.2] at e2
          exact ih e2 f2
      · have := k2 hcase fuel
        rw [f1] at this
        simp at this
    · obtain ⟨c, hcc⟩ : ∃ c : Nat, BinaryFormatter.curCols s (term st.calls) st.offset = c :=
        ⟨(BinaryFormatter.curCols s (term st.calls) st.offset).toNat, by omega⟩
      obtain ⟨k1, k2⟩ := binStep hm h x.data hb x.offset x.finish term (c := c) (by omega) hcc fuel _ _ rfl rfl
      by_cases hfu : rowCount x.finish c (H ++ chunkCells s x.data).length < fuel
      · obtain ⟨out2, st2, e1, e2, -⟩ := k1 hfu
        rw [e1] at f1
        simp only [Run.mk.injEq, Res.ok.injEq] at f1
        rw [f1.2] at e2
        exact ih e2 f2
      · have := k2 (by omega)
        rw [f1] at this
        simp at this

/-- The length of the prefix, with its codes. -/
theorem prefix_length (s : Settings) (off : Nat) :
    (Console.formatPrefixWithOffset s off []).length = if s.decimalOffsets then 19 else 28 := by
  have hsx : 'x' ∉ Console.separator s := by
    unfold Console.separator; split <;> decide
  have hsl : (Console.separator s).length = 11 := by
    unfold Console.separator; split <;> rfl
  unfold Console.formatPrefixWithOffset Console.formatPrefix
  have hspan : ∀ t : Str, span [] t = t := by intro t; simp [span, Sgr.assemble, Sgr.closing, Sgr.closingAux]
  rw [hspan]
  cases hd : s.decimalOffsets with
  | true =>
    have hlab : Console.offsetLabel s off = dec off := by unfold Console.offsetLabel; rw [if_pos hd]
    rw [hlab]
    have hx : 'x' ∉ (dec off).take 8 := fun hm => dec_noX off 'x' (.inl rfl) (List.mem_of_mem_take hm)
    rw [dim0x_noX]
    · rw [List.length_append, rjust_length (by rw [List.length_take]; omega), hsl]; rfl
    · simp only [rjust, List.mem_append, not_or]
      exact ⟨⟨fun hm => absurd (List.mem_replicate.1 hm).2 (by decide), hx⟩, hsx⟩
  | false =>
    obtain ⟨w, hlab⟩ : ∃ w, Console.offsetLabel s off = '0' :: 'x' :: hexPad w off := by
      unfold Console.offsetLabel; rw [if_neg (by simp [hd])]; exact ⟨_, rfl⟩
    rw [hlab]
    simp only [List.take_succ_cons, Bool.false_eq_true, if_false]
    have hlen : ((hexPad w off).take 6).length ≤ 6 := by rw [List.length_take]; omega
    have hx : 'x' ∉ (hexPad w off).take 6 := by
      intro hm
      obtain ⟨d, h, e⟩ := hexPad_digits _ _ _ (List.mem_of_mem_take hm)
      exact hexDigit_ne_x d h e.symm
    generalize (hexPad w off).take 6 = D at *
    have e : rjust 8 ' ' ('0' :: 'x' :: D) ++ Console.separator s =
        List.replicate (6 - D.length) ' ' ++ ('0' :: 'x' :: (D ++ Console.separator s)) := by
      simp only [rjust, List.append_assoc, List.cons_append, List.length_cons]
      congr 2; omega
    rw [e, dim0x_append, dim0x_0x, dim0x_noX]
    · have : (span [2] ['0', 'x']).length = 11 := by decide
      simp only [List.length_append, List.length_replicate, this, hsl]
      omega
    · simp only [List.mem_append, not_or]; exact ⟨hx, hsx⟩
    · intro hm; exact absurd (List.mem_replicate.1 hm).2 (by decide)

end Kolombos
