import Verif.Lemmas.Session
import Verif.Spec.Session
/-
Runs in binary mode.
-/
set_option linter.unusedSimpArgs false

namespace Kolombos
open Spec

theorem fit_of_binSeg {k : Kind} {g : Segment} (h : BinSeg k g) (hs : Stylish g.opening) : Fit g := by
  refine ⟨h.ne, h.len, ?_, hs⟩
  intro hm
  have := (h.chars _ hm (by decide)).2
  exact absurd this (by decide)

theorem chunkSegs_fit {s : Settings} (hm : s.readMode.1 = .binary) (raw : Bytes) : ∀ g ∈ chunkSegs s raw, Fit g := by
  intro g hg
  obtain ⟨k, hk⟩ := chunkSegs_binary hm raw g hg
  exact fit_of_binSeg hk (chunkSegs_stylish s raw g hg)

/-- The bytes of a chunk as they are displayed in binary mode. -/
def chunkCells (s : Settings) (raw : Bytes) : List Cell := queueCells (chunkSegs s raw)

theorem chunkCells_byte {s : Settings} (hm : s.readMode.1 = .binary) (raw : Bytes) : (chunkCells s raw).map Cell.byte = raw := by
  unfold chunkCells
  rw [queueCells_byte (chunkSegs_fit hm raw), chunkSegs_raw hm]

/-- Between two chunks the bytes `H` are held back. -/
structure BinHold (st : State) (H : List Cell) : Prop where
  parser : st.pb.raw = []
  held : ∃ o gs, Rep st.buf o gs ∧ (∀ g ∈ gs, Fit g) ∧ queueCells gs = H

theorem BinHold.start : BinHold {} [] := ⟨rfl, false, [], .nil, by simp, rfl⟩

theorem rowCount_le (closed : Bool) {c : Nat} (hc : 0 < c) (n : Nat) : rowCount closed c n ≤ n := by
  unfold rowCount
  split
  · cases n with
    | zero => rw [Nat.div_eq_of_lt (by omega)]; exact Nat.le_refl _
    | succ n =>
      rw [show n + 1 + c - 1 = n + c by omega, Nat.add_div_right _ hc]
      exact Nat.succ_le_succ (Nat.div_le_self _ _)
  · exact Nat.div_le_self _ _

/-- One chunk in binary mode. -/
theorem binStep {s : Settings} (hm : s.readMode.1 = .binary) {st : State} {H : List Cell} (h : BinHold st H) (raw : Bytes)
    (hb : (pieces raw).any badPiece = false) (off : Nat) (fin : Bool) (term : Nat → Int) {c : Nat} (hc : 0 < c)
    (hcols : BinaryFormatter.curCols s (term st.calls) st.offset = c) (fuel : Nat) :
    ∀ A n, A = H ++ chunkCells s raw → n = rowCount fin c A.length →
    (n < fuel → ∃ out st', processChunk fuel (Config.create s) term st raw off fin = ⟨out, .ok st'⟩ ∧
      BinHold st' (A.drop (n * c)) ∧ st'.offset = st.offset + (A.take (n * c)).length ∧ st'.calls = st.calls + 1 ∧
      Shows {} out {} (rowsLayout (offLayout s) (midLayout s) st.offset ((slices c n A).map fun x => (c, x)) ++
        totalLayout s fin st'.offset)) ∧
    (fuel ≤ n → (processChunk fuel (Config.create s) term st raw off fin).res = .timeout) := by
  rintro A n rfl rfl
  obtain ⟨o, gs, h1, h2, rfl⟩ := h.held
  rw [processChunk_eq fuel s term st raw off fin h.parser, if_neg (by simp [hb]), formatStep_binary hm]
  have hf : ∀ g ∈ gs ++ chunkSegs s raw, Fit g := by
    intro g hg
    rcases List.mem_append.1 hg with hg | hg
    · exact h2 g hg
    · exact chunkSegs_fit hm raw g hg
  have hA : queueCells gs ++ chunkCells s raw = queueCells (gs ++ chunkSegs s raw) := by
    rw [queueCells_append]; rfl
  rw [hA]
  have hlen := queueCells_length hf
  rw [hlen]
  obtain ⟨k1, k2⟩ := binFormat_eq s.readMode.2 hc fin (h1.attach (chunkSegs s raw)) hf st.offset fuel (term st.calls)
    (by rw [readMode_curCols]; exact hcols)
  rw [readMode_offLayout, readMode_midLayout, readMode_totalLayout] at k1
  refine ⟨fun hfu => ?_, fun hfu => ?_⟩
  · obtain ⟨out, b', o', rs, e1, e2, e3, e4, e5⟩ := k1 hfu
    refine ⟨out, { pb := ⟨[], fin⟩, buf := b', offset := _, lineNum := st.lineNum, calls := st.calls + 1 }, ?_,
      ⟨rfl, o', rs, e2, e3, e4⟩, rfl, rfl, e5⟩
    simp only
    rw [e1]
    simp only [Run.bind, Run.pure, List.append_nil]
  · have := k2 hfu
    simp only
    generalize BinaryFormatter.format fuel s.readMode.2 (term st.calls) fin (st.buf.attach (chunkSegs s raw)) st.offset = r at *
    obtain ⟨out, res⟩ := r
    simp only at this
    subst this
    rfl

/-! ### Rows -/

theorem rowsLayout_append (pref : Nat → List (Char × Style)) (sep : List (Char × Style)) (off : Nat) (a b : List Row) :
    rowsLayout pref sep off (a ++ b) = rowsLayout pref sep off a ++ rowsLayout pref sep (off + (rowCells a).length) b := by
  induction a generalizing off with
  | nil => simp [rowsLayout, rowCells]
  | cons r a ih =>
    rw [List.cons_append, rowsLayout, rowsLayout, ih, List.append_assoc]
    simp only [rowCells, List.flatMap_cons, List.length_append, Nat.add_assoc]

theorem rowCells_map (c : Nat) (l : List (List Cell)) : rowCells (l.map fun x => (c, x)) = l.flatten := by
  simp [rowCells, List.flatMap, List.map_map, Function.comp_def]

theorem rowCells_append (a b : List Row) : rowCells (a ++ b) = rowCells a ++ rowCells b := by simp [rowCells]

/-- A row without blank cells. -/
def FullRow (r : Row) : Prop := 0 < r.1 ∧ r.2.length = r.1

theorem slices_full {α : Type} {c m : Nat} {l : List α} (h : m * c ≤ l.length) : ∀ x ∈ slices c m l, x.length = c := by
  induction m generalizing l with
  | zero => intro x hx; simp [slices_zero] at hx
  | succ m ih =>
    intro x hx
    rw [Nat.succ_mul] at h
    rw [slices_succ] at hx
    rcases List.mem_cons.1 hx with rfl | hx
    · rw [List.length_take]; omega
    · exact ih (by rw [List.length_drop]; omega) x hx

theorem slices_snoc {α : Type} (c m : Nat) (l : List α) : slices c (m + 1) l = slices c m l ++ [slice c m l] := by
  simp [slices, List.range_succ]

/-- All rows but the last one are full. -/
def Rows (rows : List Row) : Prop :=
  ∃ a b, rows = a ++ b ∧ (∀ r ∈ a, FullRow r) ∧ (b = [] ∨ ∃ r, b = [r] ∧ 0 < r.2.length ∧ r.2.length ≤ r.1)

/-- The groups of a final call. -/
theorem slices_final {α : Type} {c : Nat} (hc : 0 < c) (l : List α) :
    ∃ a b, slices c (rowCount true c l.length) l = a ++ b ∧ (∀ x ∈ a, x.length = c) ∧
      (b = [] ∨ ∃ x, b = [x] ∧ 0 < x.length ∧ x.length ≤ c) := by
  by_cases h0 : l.length = 0
  · rw [rowCount_zero hc (by simpa using h0)]
    exact ⟨[], [], rfl, by simp, .inl rfl⟩
  · obtain ⟨m, hm⟩ : ∃ m, rowCount true c l.length = m + 1 := ⟨_, rowCount_succ hc (by simpa using h0)⟩
    rw [hm, slices_snoc]
    have h1 : (l.length + c - 1) / c = m + 1 := hm
    have h2 := Nat.div_mul_le_self (l.length + c - 1) c
    have h3 := Nat.lt_div_mul_add (a := l.length + c - 1) hc
    rw [h1, Nat.add_mul, Nat.one_mul] at h2 h3
    refine ⟨_, _, rfl, slices_full (by omega), .inr ⟨_, rfl, ?_, ?_⟩⟩
    · simp only [slice, List.length_take, List.length_drop]; omega
    · simp only [slice, List.length_take, List.length_drop]; omega

theorem rowCount_closed_all {c : Nat} (hc : 0 < c) (n : Nat) : n ≤ rowCount true c n * c := by
  have h3 := Nat.lt_div_mul_add (a := n + c - 1) hc
  have : rowCount true c n = (n + c - 1) / c := rfl
  rw [this]; omega

theorem rowCount_open {c : Nat} (hc : 0 < c) (n : Nat) : rowCount false c n * c ≤ n ∧ n - rowCount false c n * c < c := by
  have h2 := Nat.div_mul_le_self n c
  have h3 := Nat.lt_div_mul_add (a := n) hc
  have : rowCount false c n = n / c := rfl
  rw [this]; omega

theorem PosCols.get {s : Settings} {term : Nat → Int} (h : PosCols s term) (k off : Nat) :
    ∃ c : Nat, 0 < c ∧ BinaryFormatter.curCols s (term k) off = c :=
  ⟨(BinaryFormatter.curCols s (term k) off).toNat, by have := h k off; omega, by have := h k off; omega⟩

/-- All bytes of some chunks as they are displayed. -/
def allCells (s : Settings) (es : List ReadEvent) : List Cell := es.flatMap fun e => chunkCells s e.data

/-- A run of chunks before the end of the input. -/
theorem binRun_open {s : Settings} (hm : s.readMode.1 = .binary) {term : Nat → Int} (hp : PosCols s term) (es : List ReadEvent)
    (hes : ∀ e ∈ es, e.finish = false ∧ (pieces e.data).any badPiece = false) {st : State} {H : List Cell} (h : BinHold st H)
    {fuel : Nat} (hf : H.length + (allCells s es).length < fuel) :
    ∃ out st' rows H', playEvents (processChunk fuel (Config.create s) term) es st = ⟨out, .ok st'⟩ ∧
      BinHold st' H' ∧ rowCells rows ++ H' = H ++ allCells s es ∧ st'.offset = st.offset + (rowCells rows).length ∧
      st'.calls = st.calls + es.length ∧ (∀ r ∈ rows, FullRow r) ∧
      Shows {} out {} (rowsLayout (offLayout s) (midLayout s) st.offset rows) ∧
      (es ≠ [] → ∃ off, ∀ c : Nat, BinaryFormatter.curCols s (term (st.calls + es.length - 1)) off = c → H'.length < c) ∧
      (∀ c : Nat, (∀ k off, BinaryFormatter.curCols s (term k) off = c) → ∀ r ∈ rows, r.1 = c) := by
  induction es generalizing st H with
  | nil => exact ⟨[], st, [], H, rfl, h, by simp [rowCells, allCells], by simp [rowCells], rfl, by simp, .nil _, by simp, by simp⟩
  | cons e es ih =>
    obtain ⟨c, hc, hcols⟩ := hp.get st.calls st.offset
    obtain ⟨hfin, hb⟩ := hes e (by simp)
    have hA : allCells s (e :: es) = chunkCells s e.data ++ allCells s es := rfl
    rw [hA, List.length_append] at hf
    obtain ⟨k1, -⟩ := binStep hm h e.data hb e.offset e.finish term hc hcols fuel _ _ rfl rfl
    rw [hfin] at k1
    generalize hAA : H ++ chunkCells s e.data = A at k1
    have hAl : A.length = H.length + (chunkCells s e.data).length := by rw [← hAA, List.length_append]
    have hn := rowCount_open hc A.length
    obtain ⟨out1, st1, e1, e2, e3, e4, e5⟩ := k1 (by have := rowCount_le false hc A.length; omega)
    generalize hN : rowCount false c A.length = n at *
    have hroom : (A.drop (n * c)).length + (allCells s es).length < fuel := by rw [List.length_drop]; omega
    obtain ⟨out2, st2, rows, H', j1, j2, j3, j4, j5, j6, j7, j8, j9⟩ := ih (fun e he => hes e (by simp [he])) e2 hroom
    have hrc : rowCells ((slices c n A).map fun x => (c, x)) = A.take (n * c) := by rw [rowCells_map, slices_flatten]
    refine ⟨out1 ++ out2, st2, (slices c n A).map (fun x => (c, x)) ++ rows, H', ?_, j2, ?_, ?_, ?_, ?_, ?_, ?_, ?_⟩
    · rw [playEvents, hfin, e1]
      simp only [Run.bind]
      rw [j1]
    · rw [rowCells_append, hrc, List.append_assoc, j3, ← List.append_assoc, List.take_append_drop, hA, ← List.append_assoc, hAA]
    · rw [j4, e3, rowCells_append, hrc, List.length_append]; omega
    · rw [j5, e4, List.length_cons]; omega
    · intro r hr
      rcases List.mem_append.1 hr with hr | hr
      · obtain ⟨x, hx, rfl⟩ := List.mem_map.1 hr
        exact ⟨hc, slices_full hn.1 x hx⟩
      · exact j6 r hr
    · rw [rowsLayout_append, hrc]
      have : totalLayout s false st1.offset = [] := by unfold totalLayout; rw [if_neg (by simp)]
      rw [this, List.append_nil] at e5
      rw [e3] at j7
      exact e5.append j7
    · intro _
      by_cases hes' : es = []
      · subst hes'
        simp [playEvents, Run.pure] at j1
        have hlen := congrArg List.length j3
        simp only [allCells, List.flatMap_nil, List.append_nil, List.length_append, List.length_drop] at hlen
        refine ⟨st.offset, ?_⟩
        intro c' hc'
        have : (c' : Int) = c := by rw [← hc', ← hcols]; rfl
        omega
      · obtain ⟨off, ho⟩ := j8 hes'
        refine ⟨off, ?_⟩
        rw [e4] at ho
        rw [List.length_cons, show st.calls + (es.length + 1) - 1 = st.calls + 1 + es.length - 1 by omega]
        exact ho
    · intro c' hc' r hr
      rcases List.mem_append.1 hr with hr | hr
      · obtain ⟨x, hx, rfl⟩ := List.mem_map.1 hr
        have := hc' st.calls st.offset
        simp only; omega
      · exact j9 c' hc' r hr

/-- A whole run: chunks, then the end of the input. -/
theorem binRun_all {s : Settings} (hm : s.readMode.1 = .binary) {term : Nat → Int} (hp : PosCols s term) (es : List ReadEvent)
    (hes : ∀ e ∈ es, e.finish = false ∧ (pieces e.data).any badPiece = false) (e : ReadEvent) (he : e.finish = true)
    (heb : (pieces e.data).any badPiece = false) {fuel : Nat} (hf : (allCells s (es ++ [e])).length < fuel) :
    ∃ out st' rows, playEvents (processChunk fuel (Config.create s) term) (es ++ [e]) {} = ⟨out, .ok st'⟩ ∧
      BinHold st' [] ∧ rowCells rows = allCells s (es ++ [e]) ∧ st'.offset = (allCells s (es ++ [e])).length ∧
      Rows rows ∧
      Shows {} out {} (rowsLayout (offLayout s) (midLayout s) 0 rows ++ totalLayout s true (allCells s (es ++ [e])).length) ∧
      (∀ c : Nat, (∀ k off, BinaryFormatter.curCols s (term k) off = c) → ∀ r ∈ rows, r.1 = c) := by
  have hsplit : allCells s (es ++ [e]) = allCells s es ++ chunkCells s e.data := by simp [allCells]
  rw [hsplit, List.length_append] at hf
  obtain ⟨out1, st1, rows, H, e1, e2, e3, e4, e5, e6, e7, -, e9⟩ := binRun_open hm hp es hes BinHold.start (fuel := fuel) (by simp; omega)
  rw [List.nil_append] at e3
  obtain ⟨c, hc, hcols⟩ := hp.get st1.calls st1.offset
  obtain ⟨k1, -⟩ := binStep hm e2 e.data heb e.offset e.finish term hc hcols fuel _ _ rfl rfl
  rw [he] at k1
  generalize hAA : H ++ chunkCells s e.data = A at k1
  have hall := rowCount_closed_all hc A.length
  have h3 := congrArg List.length e3
  rw [List.length_append] at h3
  have hAl : A.length = H.length + (chunkCells s e.data).length := by rw [← hAA, List.length_append]
  obtain ⟨out2, st2, f1, f2, f3, f4, f5⟩ := k1 (by have := rowCount_le true hc A.length; omega)
  obtain ⟨sa, sb, s1, s2, s3⟩ := slices_final hc A
  generalize hN : rowCount true c A.length = n at *
  have hrc : rowCells ((slices c n A).map fun x => (c, x)) = A := by
    rw [rowCells_map, slices_flatten, List.take_of_length_le hall]
  have hoff : st2.offset = (allCells s (es ++ [e])).length := by
    rw [f3, e4, hsplit, ← e3, List.take_of_length_le hall, List.length_append, List.length_append, hAl]
    show 0 + _ + _ = _
    omega
  refine ⟨out1 ++ out2, st2, rows ++ (slices c n A).map (fun x => (c, x)), ?_, ?_, ?_, hoff, ?_, ?_, ?_⟩
  · have : ∀ (es : List ReadEvent) (st : State), playEvents (processChunk fuel (Config.create s) term) (es ++ [e]) st =
        (playEvents (processChunk fuel (Config.create s) term) es st).bind fun st' => processChunk fuel (Config.create s) term st' e.data e.offset e.finish := by
      intro es
      induction es with
      | nil =>
        intro st
        rw [List.nil_append, playEvents, playEvents, pure_bind]
        exact bind_pure _
      | cons x es ih =>
        intro st
        rw [List.cons_append, playEvents, playEvents, bind_assoc]
        simp only [ih]
    rw [this, e1]
    simp only [Run.bind]
    rw [he, f1]
  · rw [List.drop_of_length_le hall] at f2; exact f2
  · rw [rowCells_append, hrc, hsplit, ← e3, ← hAA, List.append_assoc]
  · refine ⟨rows ++ sa.map (fun x => (c, x)), sb.map (fun x => (c, x)), ?_, ?_, ?_⟩
    · rw [s1, List.map_append, List.append_assoc]
    · intro r hr
      rcases List.mem_append.1 hr with hr | hr
      · exact e6 r hr
      · obtain ⟨x, hx, rfl⟩ := List.mem_map.1 hr
        exact ⟨hc, s2 x hx⟩
    · rcases s3 with rfl | ⟨x, rfl, h1, h2⟩
      · exact .inl rfl
      · exact .inr ⟨_, rfl, h1, h2⟩
  · rw [rowsLayout_append]
    rw [hoff, e4] at f5
    have := e7.append f5
    simpa only [List.append_assoc] using this
  · intro c' hc' r hr
    rcases List.mem_append.1 hr with hr | hr
    · exact e9 c' hc' r hr
    · obtain ⟨x, hx, rfl⟩ := List.mem_map.1 hr
      have := hc' st1.calls st1.offset
      simp only; omega

/-- Rows of the same number of columns are determined by the bytes. -/
theorem rows_const {c : Nat} (hc : 0 < c) {rows : List Row} (h : Rows rows) (hr : ∀ r ∈ rows, r.1 = c) :
    rows = (slices c (((rowCells rows).length + c - 1) / c) (rowCells rows)).map fun x => (c, x) := by
  obtain ⟨a, b, rfl, ha, hb⟩ := h
  induction a with
  | nil =>
    rcases hb with rfl | ⟨r, rfl, h1, h2⟩
    · simp only [List.nil_append, rowCells, List.flatMap_nil, List.length_nil, Nat.zero_add]
      rw [Nat.div_eq_of_lt (by omega)]; rfl
    · obtain ⟨x, y⟩ := r
      have := hr (x, y) (by simp)
      simp only at this h1 h2
      subst this
      simp only [List.nil_append, rowCells, List.flatMap_cons, List.flatMap_nil, List.append_nil]
      rw [show y.length + x - 1 = (y.length - 1) + x by omega, Nat.add_div_right _ hc, Nat.div_eq_of_lt (by omega),
        slices_succ, slices_zero, List.take_of_length_le h2]
      rfl
  | cons r a ih =>
    have i := ih (fun r hr' => hr r (by simp only [List.cons_append, List.mem_cons]; exact .inr hr')) (fun r hr' => ha r (by simp [hr']))
    obtain ⟨x, y⟩ := r
    have h1 := hr (x, y) (by simp)
    obtain ⟨-, h2⟩ := ha (x, y) (by simp)
    simp only at h1 h2
    subst h1
    rw [List.cons_append]
    have : rowCells ((x, y) :: (a ++ b)) = y ++ rowCells (a ++ b) := rfl
    rw [this, List.length_append, show y.length + (rowCells (a ++ b)).length + x - 1 = ((rowCells (a ++ b)).length + x - 1) + x by omega,
      Nat.add_div_right _ hc, slices_succ, List.map_cons, List.take_left' h2, List.drop_left' h2, ← i]

end Kolombos
