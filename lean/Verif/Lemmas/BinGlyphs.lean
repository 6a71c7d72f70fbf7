import Verif.Lemmas.TextView
/-
The characters of binary mode.
-/
set_option linter.unusedSimpArgs false

namespace Kolombos
open Spec

theorem kindText_symbol_binary (k : Kind) {d : DisplayMode} (hd : d ≠ .ignored) (hk : k ≠ .printable) (hu : k ≠ .utf8) (hb : k ≠ .binary) :
    kindText k d .binary = [if k = .space ∧ d = .focused then '·' else symbol k] := by
  cases d
  · cases k <;> first | rfl | exact absurd rfl hk | exact absurd rfl hu | exact absurd rfl hb
  · cases k <;> first | rfl | exact absurd rfl hk | exact absurd rfl hu | exact absurd rfl hb
  · exact absurd rfl hd

theorem kindText_binary_box {d : DisplayMode} (hd : d ≠ .ignored) : kindText .binary d .binary = ['▯'] := by
  cases d
  · rfl
  · rfl
  · exact absurd rfl hd

/-- The characters of a piece in binary mode. -/
theorem segsOf_binGlyphs {s : Settings} (hr : s.readMode.1 = .binary) {q : Kind × Bytes} (hw : Wf q.1 q.2) :
    (segsOf s q).flatMap Segment.processed = binGlyphs s q.1 q.2 := by
  obtain ⟨k, p⟩ := q
  simp only at hw ⊢
  have hig := displayOf_ignored s k
  have hd := details_binary hr
  unfold segsOf segmentsOf
  simp only
  by_cases he : isEscKind k = true ∧ displayOf s k ≠ .ignored
  · rw [if_pos he]
    unfold escSegments
    rw [if_neg (by rw [hr]; simp)]
    unfold escBody
    obtain ⟨t, rfl, hne, ht⟩ := hw.esc_form he.1
    rw [if_neg (by rw [hd]; simp), if_neg (by rw [hd]; simp), hr]
    have hsym : kindText k (displayOf s k) .binary = [symbol k] := by
      rw [kindText_symbol_binary k he.2 (by rintro rfl; cases he.1) (by rintro rfl; cases he.1) (by rintro rfl; cases he.1),
        if_neg (by rintro ⟨rfl, -⟩; cases he.1)]
    rw [hsym]
    simp only [List.take_succ_cons, List.take_zero, List.drop_succ_cons, List.drop_zero, List.flatMap_cons, List.flatMap_nil, List.append_nil]
    rw [decodeAscii_eq ht]
    unfold binGlyphs
    rw [if_neg fun h => he.2 (hig.2 h)]
    have := he.1
    cases k <;> first | (cases this; done) | rfl
  · rw [if_neg he, if_neg (by rw [hd]; simp)]
    simp only [List.flatMap_cons, List.flatMap_nil, List.append_nil]
    unfold pieceText binGlyphs
    by_cases hi : displayOf s k = .ignored
    · rw [if_pos hi, if_neg (by rw [hr]; simp), if_pos (hig.1 hi)]
    · rw [if_neg hi, if_neg fun h => hi (hig.2 h)]
      have hni : s.ignore (classOfKind k) = false := by
        cases h : s.ignore (classOfKind k) with
        | false => rfl
        | true => exact absurd (hig.2 h) hi
      have hesc : isEscKind k = false := by
        cases h : isEscKind k with
        | false => rfl
        | true => exact absurd ⟨h, hi⟩ he
      have hk := kindText_symbol_binary k hi
      cases k with
      | newline => rw [hw.newline_eq]; simp only [hr]; rfl
      | printable => rfl
      | utf8 =>
        obtain ⟨c, hc, rfl⟩ := hw.utf8_eq
        simp only [hr, reduceCtorEq, if_false]
        rw [decodeUtf8_enc, utf8Char_enc c hc]
        cases hdec : s.decode with
        | none => rfl
        | some b => cases b <;> rfl
      | binary => simp only [hr]; rw [kindText_binary_box hi, flatMap_single]
      | space =>
        have hfo := displayOf_focused s .space hni
        simp only [hr]
        rw [hk (by simp) (by simp) (by simp), hfo]
        have : s.focus (classOfKind .space) = s.focus .whitespace := rfl
        rw [this]
        cases s.focus .whitespace <;> simp [flatMap_single]
      | reset => cases hesc
      | sgr => cases hesc
      | csi => cases hesc
      | nF => cases hesc
      | fp => cases hesc
      | fe => cases hesc
      | fs => cases hesc
      | _ => simp only [hr]; rw [hk (by simp) (by simp) (by simp)]; simp [flatMap_single]

theorem cellsOf_char {g : Segment} (h : g.raw.length = g.processed.length) : (cellsOf g).map Cell.char = g.processed := by
  unfold cellsOf
  rw [List.map_map]
  show (g.raw.zip g.processed).map Prod.snd = _
  exact List.map_snd_zip (by omega)

/-- The characters of the cells of a run. -/
theorem allCells_char {s : Settings} (hm : s.readMode.1 = .binary) (es : List ReadEvent) :
    (allCells s es).map Cell.char = (runPieces es).flatMap fun q => binGlyphs s q.1 q.2 := by
  have hseg : ∀ gs : List Segment, (∀ g ∈ gs, ∃ k, BinSeg k g) → (queueCells gs).map Cell.char = gs.flatMap Segment.processed := by
    intro gs
    induction gs with
    | nil => intro _; rfl
    | cons g gs ih =>
      intro h
      obtain ⟨k, hk⟩ := h g (by simp)
      rw [queueCells_cons, List.map_append, cellsOf_char hk.len, ih fun g hg => h g (by simp [hg])]
      rfl
  have hch : ∀ raw, (chunkCells s raw).map Cell.char = (pieces raw).flatMap fun q => binGlyphs s q.1 q.2 := by
    intro raw
    unfold chunkCells
    rw [hseg _ (chunkSegs_binary hm raw)]
    unfold chunkSegs
    have : ∀ qs : List (Kind × Bytes), (∀ q ∈ qs, Wf q.1 q.2) →
        (qs.flatMap (segsOf s)).flatMap Segment.processed = qs.flatMap fun q => binGlyphs s q.1 q.2 := by
      intro qs
      induction qs with
      | nil => intro _; rfl
      | cons q qs ih =>
        intro hw
        rw [List.flatMap_cons, List.flatMap_append, ih fun q hq => hw q (by simp [hq]), segsOf_binGlyphs hm (hw q (by simp))]
        rfl
    exact this _ fun q hq => pieces_wf hq
  unfold allCells runPieces chunkPieces
  induction es with
  | nil => rfl
  | cons e es ih => simp only [List.flatMap_cons, List.map_append, List.map_cons, List.flatMap_append, hch, ih]

end Kolombos
