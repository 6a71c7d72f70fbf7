import Verif.Lemmas.BinFmt
/-
Rows printed by the binary formatter.
-/
set_option linter.unusedSimpArgs false

namespace Kolombos
open Spec

/-! ### Groups of elements -/

theorem slices_zero {α : Type} (c : Nat) (l : List α) : slices c 0 l = [] := rfl

theorem slices_succ {α : Type} (c m : Nat) (l : List α) : slices c (m + 1) l = l.take c :: slices c m (l.drop c) := by
  unfold slices
  rw [List.range_succ_eq_map, List.map_cons, List.map_map]
  congr 1
  · simp [slice]
  · apply List.map_congr_left
    intro i _
    simp only [Function.comp_def, slice, List.drop_drop]
    rw [show c + i * c = (i + 1) * c by rw [Nat.add_mul]; omega]

theorem slices_length {α : Type} (c m : Nat) (l : List α) : (slices c m l).length = m := by simp [slices]

theorem slices_flatten {α : Type} (c m : Nat) (l : List α) : (slices c m l).flatten = l.take (m * c) := by
  induction m generalizing l with
  | zero => simp [slices_zero]
  | succ m ih =>
    rw [slices_succ, List.flatten_cons, ih, show (m + 1) * c = c + m * c by rw [Nat.add_mul]; omega, List.take_add]

/-! ### Rows -/

/-- The prefix of a row as it appears. -/
def offLayout (s : Settings) (off : Nat) : List (Char × Style) :=
  if s.printOffsets then prefixLayout s 32 off else []

/-- The separator of a row as it appears. -/
def midLayout (s : Settings) : List (Char × Style) :=
  if s.printOffsets then sepLayout s else inStyle {} [' ']

theorem shows_offset (s : Settings) (off : Nat) : Shows {} (Console.offsetPrefix s off) {} (offLayout s off) := by
  unfold Console.offsetPrefix offLayout
  split
  · exact shows_prefix s 32 off (.inl rfl)
  · exact .nil _

theorem pyRepeat_blank (n : Int) : pyRepeat [' ', ' ', ' '] n = List.replicate (3 * n.toNat) ' ' := by
  unfold pyRepeat
  generalize n.toNat = k
  induction k with
  | zero => rfl
  | succ k ih => rw [List.replicate_succ, List.flatten_cons, ih, Nat.mul_succ, Nat.add_comm, List.replicate_add]; rfl

theorem segRawToHex_nil (g : Segment) (h : g.raw = []) : segRawToHex g = [] := by simp [segRawToHex, h]

/-- One row. -/
theorem shows_row (s : Settings) (c off : Nat) {out : List Chainable} {os : List Segment} (h : OutRel out os)
    (hf : ∀ g ∈ os, Fit g) :
    Shows {} (BinaryFormatter.row s (c : Int) off (total os) out) {} (rowLayout (offLayout s off) (midLayout s) c (queueCells os)) := by
  unfold BinaryFormatter.row rowLayout
  rw [h.fmt segRawToHex (fun g h _ => segRawToHex_nil g h), h.fmt segProcessed (fun g _ h => h), pyRepeat_blank]
  have hx : Shows {} (os.flatMap (fmtBlock segRawToHex)) {} ((queueCells os).flatMap Cell.hex) := by
    have := shows_flatMap (os := os) (f := fmtBlock segRawToHex) (v := fun g => (cellsOf g).flatMap Cell.hex) fun g hg => shows_hex (hf g hg)
    have e : (queueCells os).flatMap Cell.hex = os.flatMap fun g => (cellsOf g).flatMap Cell.hex := by
      unfold queueCells; rw [List.flatMap_assoc]
    rw [e]; exact this
  have hc : Shows {} (os.flatMap (fmtBlock segProcessed)) {} ((queueCells os).map Cell.shown) := by
    have := shows_flatMap (os := os) (f := fmtBlock segProcessed) (v := fun g => (cellsOf g).map Cell.shown) fun g hg => shows_chars (hf g hg)
    have e : (queueCells os).map Cell.shown = os.flatMap fun g => (cellsOf g).map Cell.shown := by
      unfold queueCells; rw [List.map_flatMap]
    rw [e]; exact this
  have hm : Shows {} (if s.printOffsets then Console.separator s else [' ']) {} (midLayout s) := by
    unfold midLayout
    split
    · exact shows_separator s
    · exact Shows.text _ (by decide)
  have hb : ∀ k, '\x1b' ∉ List.replicate k ' ' := fun k hm => absurd (List.mem_replicate.1 hm).2 (by decide)
  have e : ((c : Int) - (total os : Nat)).toNat = c - (queueCells os).length := by
    rw [queueCells_length hf]; omega
  rw [e]
  have := (((((((shows_offset s off).append hx).append (Shows.text {} (hb (3 * (c - (queueCells os).length))))).append
    (Shows.text {} (s := [' ']) (by decide))).append hm).append hc).append (Shows.text {} (s := ['\n']) (by decide)))
  simpa only [List.append_assoc] using this

/-- Detaching the bytes of a row. -/
theorem detachBytes_row {b : SegmentBuffer} {o : Bool} {gs : List Segment} (h : Rep b o gs) (hf : ∀ g ∈ gs, Fit g)
    {r : Nat} (hr : 0 < r) {force : Bool} (hne : gs ≠ []) (hle : r ≤ total gs ∨ force = true) :
    ∃ out b' os rs o', b.detachBytes (r : Int) force = .ok (.ok out, b') ∧ Rep b' o' rs ∧ (∀ g ∈ rs, Fit g) ∧
      (∀ g ∈ os, Fit g) ∧ OutRel out os ∧ b'.lastLen = total os ∧
      queueCells os = (queueCells gs).take r ∧ queueCells rs = (queueCells gs).drop r := by
  obtain ⟨os, rs, o', e, h1, h2, h3, h4⟩ := qDetach_cells hf r
  have hq : qDetachO (r : Int) o gs = .ok (os, rs, o') := by
    unfold qDetachO
    cases o with
    | false => exact e
    | true =>
      cases gs with
      | nil => exact e
      | cons g gs => simp only; rw [if_neg (by omega)]; exact e
  have hd := detach_rep h (r : Int)
  rw [hq] at hd
  simp only at hd
  obtain ⟨out, b', e1, e2, e3, e4⟩ := hd
  have hos : os ≠ [] := by
    rintro rfl
    have h0 := congrArg List.length h3
    rw [List.length_take, queueCells_length hf] at h0
    have : 0 < total gs := by
      obtain ⟨g, gs', rfl⟩ := List.exists_cons_of_ne_nil hne
      rw [total_cons]
      have := List.length_pos_iff.2 (hf g (by simp)).ne
      unfold Segment.dataLen; omega
    simp [queueCells] at h0
    omega
  refine ⟨out, b', os, rs, o', ?_, e2, h2, h1, e4, e3 hne, h3, h4⟩
  unfold SegmentBuffer.detachBytes
  rw [if_pos, e1]
  · simp only
    rw [if_neg]
    rw [List.length_eq_zero_iff, e4.empty]; exact hos
  · rcases hle with h' | h'
    · left; rw [h.dataLen]; unfold total at h'; omega
    · exact .inr h'

theorem detachBytes_wait {b : SegmentBuffer} {o : Bool} {gs : List Segment} (h : Rep b o gs)
    {r : Nat} (hlt : total gs < r) : b.detachBytes (r : Int) false = .ok (.wait, b) := by
  unfold SegmentBuffer.detachBytes
  rw [if_neg]
  rw [h.dataLen]
  rintro (h' | h')
  · unfold total at hlt; omega
  · cases h'

theorem detachBytes_eof {b : SegmentBuffer} {o : Bool} (h : Rep b o []) (r : Int) :
    b.detachBytes r true = .ok (.eof, b) := by
  have hc : b.chain = [] := by rw [h.chain]; cases o <;> rfl
  unfold SegmentBuffer.detachBytes
  rw [if_pos (.inr rfl)]
  simp [SegmentBuffer.detach, hc]

/-- The number of rows of `r` bytes that `n` bytes give. -/
def rowCount (closed : Bool) (r n : Nat) : Nat := if closed then (n + r - 1) / r else n / r

theorem rowCount_zero {closed : Bool} {r n : Nat} (hr : 0 < r) (h : if closed then n = 0 else n < r) : rowCount closed r n = 0 := by
  unfold rowCount
  cases closed with
  | true => simp at h; subst h; simp; omega
  | false => simp at h; simp; omega

theorem rowCount_succ {closed : Bool} {r n : Nat} (hr : 0 < r) (h : ¬ if closed then n = 0 else n < r) :
    rowCount closed r n = rowCount closed r (n - r) + 1 := by
  unfold rowCount
  cases closed with
  | true =>
    simp at h
    simp only [if_true]
    by_cases hn : r ≤ n
    · rw [show n + r - 1 = (n - r + r - 1) + r by omega, Nat.add_div_right _ hr]
    · rw [show n - r = 0 by omega, show n + r - 1 = (n - 1) + r by omega, Nat.add_div_right _ hr,
        Nat.div_eq_of_lt (by omega), Nat.div_eq_of_lt (by omega)]
  | false =>
    simp at h
    simp only [Bool.false_eq_true, if_false]
    conv => lhs; rw [show n = (n - r) + r by omega, Nat.add_div_right _ hr]

/-- The loop of the binary formatter: rows of `r` bytes. -/
theorem binLoop_eq (s : Settings) (c r : Nat) (hr : 0 < r) (closed : Bool) (n : Nat) :
    ∀ (gs : List Segment) (o : Bool) (b : SegmentBuffer) (off fuel : Nat), total gs = n → Rep b o gs → (∀ g ∈ gs, Fit g) →
    (rowCount closed r n < fuel →
      ∃ out b' o' rs, BinaryFormatter.loop s c r closed fuel b off =
          ⟨out, .ok (b', off + ((queueCells gs).take (rowCount closed r n * r)).length)⟩ ∧
        Rep b' o' rs ∧ (∀ g ∈ rs, Fit g) ∧ queueCells rs = (queueCells gs).drop (rowCount closed r n * r) ∧
        Shows {} out {} (rowsLayout (offLayout s) (midLayout s) off ((slices r (rowCount closed r n) (queueCells gs)).map fun x => (c, x)))) ∧
    (fuel ≤ rowCount closed r n → (BinaryFormatter.loop s c r closed fuel b off).res = .timeout) := by
  induction n using Nat.strongRecOn with
  | ind n ih =>
    intro gs o b off fuel hn h hf
    by_cases hend : if closed then n = 0 else n < r
    · rw [rowCount_zero hr hend]
      constructor
      · intro hfu
        refine ⟨[], b, o, gs, ?_, h, hf, by simp, ?_⟩
        · cases fuel with
          | zero => omega
          | succ fuel =>
            rw [BinaryFormatter.loop]
            cases closed with
            | false =>
              simp at hend
              rw [detachBytes_wait h (by omega)]
              simp [Run.pure]
            | true =>
              simp at hend
              have : gs = [] := by
                cases gs with
                | nil => rfl
                | cons g gs =>
                  have := List.length_pos_iff.2 (hf g (by simp)).ne
                  rw [total_cons, Segment.dataLen] at hn; omega
              subst this
              rw [detachBytes_eof h]
              simp [Run.pure]
        · exact .nil _
      · intro hfu
        have : fuel = 0 := by omega
        subst this; rfl
    · have hne : gs ≠ [] := by
        rintro rfl
        rw [total_nil] at hn
        apply hend; rw [← hn]; cases closed <;> simp [hr]
      have hpos : 0 < n := by cases closed <;> simp at hend <;> omega
      obtain ⟨out, b', os, rs, o', e1, e2, e3, e4, e5, e6, e7, e8⟩ := detachBytes_row h hf hr (force := closed) hne
        (by cases closed with | true => exact .inr rfl | false => simp at hend; left; omega)
      rw [rowCount_succ hr hend]
      have hrs : total rs = n - r := by
        rw [← queueCells_length e3, e8, List.length_drop, queueCells_length hf, hn]
      cases fuel with
      | zero => exact ⟨fun h => by omega, fun _ => rfl⟩
      | succ fuel =>
        obtain ⟨i1, i2⟩ := ih (n - r) (by omega) rs o' b' (off + total os) fuel hrs e2 e3
        constructor
        · intro hfu
          obtain ⟨out2, b2, o2, rs2, j1, j2, j3, j4, j5⟩ := i1 (by omega)
          refine ⟨BinaryFormatter.row s c off (total os) out ++ out2, b2, o2, rs2, ?_, j2, j3, ?_, ?_⟩
          · rw [BinaryFormatter.loop, e1]
            simp only
            rw [e6, j1]
            simp only [Run.write, Run.mk.injEq, true_and, Res.ok.injEq, Prod.mk.injEq]
            rw [e8, ← queueCells_length e4, e7]
            rw [Nat.add_mul, Nat.one_mul, Nat.add_comm _ r, List.take_add, List.length_append, Nat.add_assoc]
          · rw [j4, e8, List.drop_drop]; congr 1; rw [Nat.add_mul]; omega
          · rw [slices_succ, List.map_cons, rowsLayout]
            have hrow := shows_row s c off e5 e4
            rw [e7] at hrow
            rw [e8, ← queueCells_length e4, e7] at j5
            exact hrow.append j5
        · intro hfu
          rw [BinaryFormatter.loop, e1]
          simp only [Run.write]
          rw [e6]
          exact i2 (by omega)

/-- The line with the total size, as it appears. -/
def totalLayout (s : Settings) (closed : Bool) (off : Nat) : List (Char × Style) :=
  if closed ∧ s.printOffsets then prefixLayout s 36 off ++ inStyle {} ['\n'] else []

/-- One call of the binary formatter with a positive number of columns. -/
theorem binFormat_eq (s : Settings) {c : Nat} (hc : 0 < c) (closed : Bool) {gs : List Segment} {o : Bool} {b : SegmentBuffer}
    (h : Rep b o gs) (hf : ∀ g ∈ gs, Fit g) (off fuel : Nat) (term : Int) (hcols : BinaryFormatter.curCols s term off = c) :
    (rowCount closed c (total gs) < fuel →
      ∃ out b' o' rs, BinaryFormatter.format fuel s term closed b off =
          ⟨out, .ok (b', off + ((queueCells gs).take (rowCount closed c (total gs) * c)).length)⟩ ∧
        Rep b' o' rs ∧ (∀ g ∈ rs, Fit g) ∧ queueCells rs = (queueCells gs).drop (rowCount closed c (total gs) * c) ∧
        Shows {} out {}
          (rowsLayout (offLayout s) (midLayout s) off ((slices c (rowCount closed c (total gs)) (queueCells gs)).map fun x => (c, x)) ++
           totalLayout s closed (off + ((queueCells gs).take (rowCount closed c (total gs) * c)).length))) ∧
    (fuel ≤ rowCount closed c (total gs) → (BinaryFormatter.format fuel s term closed b off).res = .timeout) := by
  -- the loop
  have key : ∀ req : Int, req = (if closed then min (b.dataLen : Int) c else c) →
      (rowCount closed c (total gs) < fuel →
        ∃ out b' o' rs, BinaryFormatter.loop s c req closed fuel b off =
          ⟨out, .ok (b', off + ((queueCells gs).take (rowCount closed c (total gs) * c)).length)⟩ ∧
        Rep b' o' rs ∧ (∀ g ∈ rs, Fit g) ∧ queueCells rs = (queueCells gs).drop (rowCount closed c (total gs) * c) ∧
        Shows {} out {}
          (rowsLayout (offLayout s) (midLayout s) off ((slices c (rowCount closed c (total gs)) (queueCells gs)).map fun x => (c, x)))) ∧
      (fuel ≤ rowCount closed c (total gs) → (BinaryFormatter.loop s c req closed fuel b off).res = .timeout) := by
    intro req hreq
    have hlen : b.dataLen = total gs := h.dataLen
    by_cases hsmall : closed = true ∧ total gs < c
    · obtain ⟨hcl, hlt⟩ := hsmall
      subst hcl
      have e : req = (total gs : Nat) := by rw [hreq, if_pos rfl, hlen]; omega
      subst e
      by_cases h0 : total gs = 0
      · have : gs = [] := by
          cases gs with
          | nil => rfl
          | cons g gs =>
            have := List.length_pos_iff.2 (hf g (by simp)).ne
            rw [total_cons, Segment.dataLen] at h0; omega
        subst this
        have hz : rowCount true c (total []) = 0 := rowCount_zero hc (by simp [total_nil])
        rw [hz]
        constructor
        · intro hfu
          refine ⟨[], b, o, [], ?_, h, by simp, by simp [queueCells], .nil _⟩
          cases fuel with
          | zero => omega
          | succ fuel =>
            rw [BinaryFormatter.loop, detachBytes_eof h]
            simp [Run.pure, queueCells]
        · intro hfu
          have : fuel = 0 := by omega
          subst this; rfl
      · have h1 : ∀ r, 0 < r → total gs ≤ r → rowCount true r (total gs) = 1 := by
          intro r hr hle
          rw [rowCount_succ hr (by simpa using h0), rowCount_zero hr (by simp; omega)]
        obtain ⟨i1, i2⟩ := binLoop_eq s c (total gs) (by omega) true (total gs) gs o b off fuel rfl h hf
        rw [h1 _ (by omega) (Nat.le_refl _)] at i1 i2
        rw [h1 c hc (by omega)]
        have hl := queueCells_length hf
        have et : (queueCells gs).take c = queueCells gs := List.take_of_length_le (by omega)
        have et' : (queueCells gs).take (total gs) = queueCells gs := List.take_of_length_le (by omega)
        have ed : (queueCells gs).drop c = [] := List.drop_of_length_le (by omega)
        have ed' : (queueCells gs).drop (total gs) = [] := List.drop_of_length_le (by omega)
        simp only [slices_succ, slices_zero, Nat.one_mul, et, et', ed, ed'] at i1 i2 ⊢
        exact ⟨i1, i2⟩
    · have e : req = (c : Nat) := by
        rw [hreq]
        cases closed with
        | false => rfl
        | true => simp at hsmall; rw [if_pos rfl, hlen]; omega
      subst e
      exact binLoop_eq s c c hc closed (total gs) gs o b off fuel rfl h hf
  unfold BinaryFormatter.format
  simp only
  rw [hcols]
  obtain ⟨k1, k2⟩ := key _ rfl
  constructor
  · intro hfu
    obtain ⟨out, b', o', rs, e1, e2, e3, e4, e5⟩ := k1 hfu
    rw [e1]
    simp only [Run.bind]
    unfold totalLayout
    by_cases ht : closed = true ∧ s.printOffsets = true
    · rw [if_pos ht, if_pos ht]
      refine ⟨_, b', o', rs, rfl, e2, e3, e4, ?_⟩
      simp only [Run.write, Run.pure, List.append_nil]
      exact e5.append ((shows_prefix s 36 _ (.inr rfl)).append (Shows.text {} (s := ['\n']) (by decide)))
    · rw [if_neg ht, if_neg ht]
      refine ⟨_, b', o', rs, rfl, e2, e3, e4, ?_⟩
      simpa [Run.pure] using e5
  · intro hfu
    have := k2 hfu
    generalize hx : BinaryFormatter.loop s c _ closed fuel b off = x at this ⊢
    obtain ⟨xo, xr⟩ := x
    simp only at this
    subst this
    rfl

end Kolombos
