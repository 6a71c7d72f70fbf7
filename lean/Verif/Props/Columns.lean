import Verif.Lemmas.Columns
/-
C23, C24: the number of columns in binary mode.
-/
set_option linter.unusedSimpArgs false

namespace Kolombos
open Spec

/-! ### C24 -/

/-- The width of a full row of `c` columns, as C17 describes it: prefix of 9
characters if there are offsets, three characters per byte, a blank, a separator and one
character per byte. -/
def rowWidth (s : Settings) (c : Int) : Int := (if offsetsShown s then 9 else 0) + 3 * c + 2 + c

/-- C24, first part: the automatic number of columns is a multiple of 4, and a row
fits into the terminal unless it is negative. -/
theorem C24_fits_partial (s : Settings) (hs : s.columns = none) (term : Int) (off : Nat) (c : Int)
    (hc : BinaryFormatter.curCols s term off = c) : (4 ∣ c) ∧ (0 ≤ c → rowWidth s c ≤ term) := by
  unfold BinaryFormatter.curCols at hc
  rw [hs] at hc
  simp only [BinaryFormatter.computeCols, prefix_length, terminalWidth] at hc
  subst hc
  refine ⟨⟨_, Int.mul_comm _ _⟩, ?_⟩
  unfold rowWidth
  rw [printOffsets_eq]
  cases s.decimalOffsets <;> cases s.printOffsets <;> simp <;> omega

/-- C24, exact: the automatic number of columns is positive exactly for
terminals of at least 48 columns (39 with decimal offsets). It does not depend on
the offset. -/
theorem C24_positive_partial (s : Settings) (hs : s.columns = none) (term : Int) (off : Nat) :
    0 < BinaryFormatter.curCols s term off ↔ (if s.decimalOffsets then 39 else 48) ≤ term := by
  unfold BinaryFormatter.curCols
  rw [hs]
  simp only [BinaryFormatter.computeCols, prefix_length, terminalWidth]
  cases s.decimalOffsets <;> simp <;> omega

/-- Between 31 and 47 columns (22 and 38) it is 0, below that negative. -/
theorem C24_narrow_partial (s : Settings) (hs : s.columns = none) (term : Int) (off : Nat) :
    (BinaryFormatter.curCols s term off = 0 ↔
      (if s.decimalOffsets then 22 else 31) ≤ term ∧ term < (if s.decimalOffsets then 39 else 48)) ∧
    (BinaryFormatter.curCols s term off < 0 ↔ term < (if s.decimalOffsets then 22 else 31)) := by
  unfold BinaryFormatter.curCols
  rw [hs]
  simp only [BinaryFormatter.computeCols, prefix_length, terminalWidth]
  cases s.decimalOffsets <;> simp <;> omega

/-- C24 is false: a terminal of 40 columns gives 0 columns, one of 20 columns a
negative number. -/
theorem C24_negation : ¬ ∀ (s : Settings) (term : Int) (off : Nat), s.columns = none → 0 < term →
    0 < BinaryFormatter.curCols s term off := by
  intro h
  have h1 := h {} 40 0 rfl (by decide)
  rw [C24_positive_partial {} rfl 40 0] at h1
  exact absurd h1 (by decide)

/-- Not vacuous: on a terminal of 80 columns there are 8 columns in a row of 43
characters, with decimal offsets 12 in one of 59. -/
example : BinaryFormatter.curCols {} 80 5 = 8 ∧ rowWidth {} 8 = 43 ∧
    BinaryFormatter.curCols { decimalOffsets := true } 80 5 = 12 ∧ rowWidth { decimalOffsets := true } 12 = 59 := by
  decide

/-! ### C23 -/

/-- C23, exact: after any chunks, formatting the next readable chunk in binary mode
terminates if and only if the number of columns is positive, or there is nothing to
display, or the number of columns is 0 and no styled sequence has been cut
by the end of the last row. -/
theorem C23_terminates_partial (s : Settings) (hm : s.readMode.1 = .binary) (term : Nat → Int) (fuel₀ : Nat) (es : List ReadEvent)
    (out : Str) (st : State) (h : session fuel₀ s term es = ⟨out, .ok st⟩) (raw : Bytes) (hr : ¬ BadChunk raw) (off : Nat) (fin : Bool) :
    (∃ fuel, (processChunk fuel (Config.create s) term st raw off fin).res ≠ .timeout) ↔
      (0 < BinaryFormatter.curCols s (term st.calls) st.offset ∨
       (st.buf.chain = [] ∧ raw = []) ∨
       (BinaryFormatter.curCols s (term st.calls) st.offset = 0 ∧ st.buf.active = [])) := by
  obtain ⟨H, hH⟩ := binHold_reached hm es BinHold.start h
  have hb : (pieces raw).any badPiece = false := by
    cases hb : (pieces raw).any badPiece with
    | false => rfl
    | true => exact absurd ((anyBad_iff _).1 hb) hr
  by_cases hc : BinaryFormatter.curCols s (term st.calls) st.offset ≤ 0
  · obtain ⟨k1, k2⟩ := binStep_nonpos hm hH raw hb off fin term hc
    constructor
    · rintro ⟨fuel, hf⟩
      refine Classical.byContradiction fun hx => hf (k2 (fun hy => hx (.inr hy)) fuel)
    · intro hx
      rcases hx with hx | hx
      · omega
      · obtain ⟨st', e, -⟩ := k1 hx 0
        exact ⟨1, by rw [e]; simp⟩
  · obtain ⟨c, hcc⟩ : ∃ c : Nat, BinaryFormatter.curCols s (term st.calls) st.offset = c :=
      ⟨(BinaryFormatter.curCols s (term st.calls) st.offset).toNat, by omega⟩
    refine ⟨fun _ => .inl (by omega), fun _ => ?_⟩
    have hpos : 0 < c := by omega
    obtain ⟨k1, -⟩ := binStep hm hH raw hb off fin term hpos hcc (rowCount fin c (H ++ chunkCells s raw).length + 1) _ _ rfl rfl
    obtain ⟨o2, st2, e, -⟩ := k1 (Nat.lt_succ_self _)
    exact ⟨_, by rw [e]; simp⟩

/-- C23 is false: with `-w -1`, or automatically on a terminal of 20 columns, the
input `a` is formatted forever. -/
theorem C23_negation : ¬ ∀ (s : Settings) (term : Nat → Int) (es : List ReadEvent), Complete es → Readable es →
    s.readMode.1 = .binary → ∃ fuel, (session fuel s term es).res ≠ .timeout := by
  intro h
  have hbad : ¬ BadChunk [97] := by
    intro h
    have := (anyBad_iff [97]).2 h
    exact absurd this (by decide)
  obtain ⟨fuel, hf⟩ := h { binary := true } (fun _ => 20) [⟨[97], 0, true⟩] ⟨[], ⟨[97], 0, true⟩, rfl, rfl, by simp⟩
    (by intro e he; simp only [List.mem_singleton] at he; subst he; exact hbad) (by decide)
  have h0 : session 0 { binary := true } (fun _ => 20) [] = ⟨[], .ok {}⟩ := rfl
  have := (C23_terminates_partial { binary := true } (by decide) (fun _ => 20) 0 [] _ _ h0 [97] hbad 0 true).1 ⟨fuel, by
    intro hx; apply hf; exact Run.bind_timeout hx⟩
  have hcols := (C24_narrow_partial { binary := true } rfl 20 0).2.2 (by decide)
  rcases this with h1 | ⟨-, h1⟩ | ⟨h1, -⟩
  · have h1' : 0 < BinaryFormatter.curCols { binary := true } 20 0 := h1
    omega
  · cases h1
  · have h1' : BinaryFormatter.curCols { binary := true } 20 0 = 0 := h1
    omega

/-- With 0 columns (`-w 0`, or a terminal of 31 to 47 columns) a complete input, whatever it is,
is processed to the end, but nothing of it is displayed and the size reported is 0. -/
theorem C23_zero_partial (s : Settings) (hm : s.readMode.1 = .binary) (term : Nat → Int) (es : List ReadEvent) (hco : Complete es)
    (hr : Readable es) (hcols : ∀ k off, BinaryFormatter.curCols s (term k) off = 0) (fuel : Nat) :
    (session (fuel + 1) s term es).out = (if offsetsShown s then Console.formatTotalSize s 0 ++ ['\n'] else []) ∧
    ∃ st, (session (fuel + 1) s term es).res = .ok st := by
  simp only [printOffsets_eq]
  obtain ⟨a, e, rfl, he, ha⟩ := hco
  have step : ∀ (st : State) H raw, BinHold st H → st.buf.active = [] → st.offset = 0 → ¬ BadChunk raw → ∀ off fin,
      ∃ st' H', processChunk (fuel + 1) (Config.create s) term st raw off fin =
        ⟨if fin = true ∧ s.printOffsets = true then Console.formatTotalSize s 0 ++ ['\n'] else [], .ok st'⟩ ∧
        BinHold st' H' ∧ st'.offset = 0 ∧ st'.buf.active = [] := by
    intro st H raw hH hact h0 hbad off fin
    have hb : (pieces raw).any badPiece = false := by
      cases hb : (pieces raw).any badPiece with
      | false => rfl
      | true => exact absurd ((anyBad_iff _).1 hb) hbad
    have hc := hcols st.calls st.offset
    obtain ⟨st', e1, ⟨H', e2⟩, e3, -, e5⟩ := (binStep_nonpos hm hH raw hb off fin term (by omega)).1 (.inr ⟨hc, hact⟩) fuel
    rw [h0] at e1
    exact ⟨st', H', e1, e2, by rw [e3, h0], e5⟩
  have run : ∀ (l : List ReadEvent) (st : State) H, BinHold st H → st.buf.active = [] → st.offset = 0 →
      (∀ x ∈ l, x.finish = false ∧ ¬ BadChunk x.data) →
      ∃ st' H', playEvents (processChunk (fuel + 1) (Config.create s) term) l st = ⟨[], .ok st'⟩ ∧
        BinHold st' H' ∧ st'.offset = 0 ∧ st'.buf.active = [] := by
    intro l
    induction l with
    | nil => intro st H h1 h2 h3 _; exact ⟨st, H, rfl, h1, h3, h2⟩
    | cons x l ih =>
      intro st H h1 h2 h3 hl
      obtain ⟨st1, H1, f1, f2, f3, f4⟩ := step st H x.data h1 h2 h3 (hl x (by simp)).2 x.offset x.finish
      obtain ⟨st2, H2, g1, g2, g3, g4⟩ := ih st1 H1 f2 f4 f3 fun y hy => hl y (by simp [hy])
      refine ⟨st2, H2, ?_, g2, g3, g4⟩
      rw [playEvents, f1, (hl x (by simp)).1]
      simp only [Run.bind, g1]
      simp
  obtain ⟨st1, H1, f1, f2, f3, f4⟩ := run a {} [] BinHold.start rfl rfl fun x hx => ⟨ha x hx, hr x (by simp [hx])⟩
  obtain ⟨st2, H2, g1, g2, -⟩ := step st1 H1 e.data f2 f4 f3 (hr e (by simp)) e.offset e.finish
  rw [session, playEvents_snoc, f1]
  simp only [Run.bind, g1]
  simp only [he]
  exact ⟨by simp, st2, rfl⟩

/-- Not vacuous: on a terminal of 40 columns the two bytes `ab` give the single line `  0x0000│`. -/
example : visible (session 5 { binary := true } (fun _ => 40) [⟨[97, 98], 0, false⟩, ⟨[], 2, true⟩]).out = "  0x0000│\n".toList := by
  decide +kernel

/-- Not vacuous: two chunks with 4 columns, after which `C23_terminates_partial` applies to a
third; the second leaves a cut sequence (`ESC[31m` cut after 4 bytes). -/
example : ∃ out st, session 9 { binary := true, columns := some 4 } (fun _ => 80) [⟨[97], 0, false⟩, ⟨[0x1b, 0x5b, 0x33, 0x31, 0x6d], 1, false⟩] =
    ⟨out, .ok st⟩ ∧ st.offset = 4 ∧ st.buf.active ≠ [] := by
  refine ⟨_, _, rfl, ?_⟩
  decide +kernel

end Kolombos
