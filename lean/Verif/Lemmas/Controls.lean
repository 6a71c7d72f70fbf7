import Verif.Lemmas.BinGlyphs
/-
Which control characters are printed.
-/
set_option linter.unusedSimpArgs false

namespace Kolombos
open Spec

/-! ### Pieces -/

theorem Wf.tab_mem {k : Kind} {p : Bytes} (h : Wf k p) (hk : k = .tab) : (0x09 : Byte) ∈ p := by
  cases h with
  | utf8 => cases hk
  | esc => cases hk
  | newline => cases hk
  | run hr hne hall =>
    subst hk
    cases hr
    cases p with
    | nil => exact absurd rfl hne
    | cons b p =>
      have := hall b (by simp)
      have e : b = 0x09 := by simpa using this
      rw [e]; simp
  | csi h =>
    rw [hk] at h
    unfold csiKind at h
    exfalso
    revert h
    repeat' split
    all_goals simp
  | seq h => subst hk; cases h

/-- A C1 control character and its encoding. -/
theorem enc_c1 {c : Char} (h : isControlChar c = true) (h' : 0x80 ≤ c.toNat) :
    c.toNat ≤ 0x9f ∧ enc c = [0xc2, UInt8.ofNat c.toNat] := by
  have hle : c.toNat ≤ 0x9f := by
    unfold isControlChar at h
    simp only [Bool.or_eq_true, Bool.and_eq_true, decide_eq_true_eq] at h
    omega
  refine ⟨hle, ?_⟩
  rw [enc2 c h' (by omega)]
  generalize c.toNat = n at *
  have key : ∀ m : Fin 32, [UInt8.ofNat ((m.1 + 0x80) / 64 + 0xc0), UInt8.ofNat ((m.1 + 0x80) % 64 + 0x80)] = [0xc2, UInt8.ofNat (m.1 + 0x80)] := by decide
  have := key ⟨n - 0x80, by omega⟩
  simpa [Nat.sub_add_cancel h'] using this

/-- Control characters in the glyphs of a piece in text mode. -/
theorem textGlyphs_ctrl {s : Settings} (hr : s.readMode.1 = .text) {q : Kind × Bytes} (hw : Wf q.1 q.2) (hb : badPiece q = false) {c : Char}
    (hc : c ∈ textGlyphs s q.1 q.2) (hct : isControlChar c = true) :
    (c = '\t' ∧ (0x09 : Byte) ∈ q.2) ∨ (0x80 ≤ c.toNat ∧ c.toNat ≤ 0x9f ∧ q.2 = [0xc2, UInt8.ofNat c.toNat]) := by
  have hnl := glyphs_noNl hr hw hb
  obtain ⟨-, -, -, -, -, -, h, -⟩ := segsOf_glyphs hr hw hb
  have hmem : c ∈ plainOf (segsOf s q) := by rw [h]; simp [hc]
  obtain ⟨g, hg, hmem⟩ := List.mem_flatMap.1 hmem
  rcases (segsOf_text hr hw g hg).chars _ hmem hct with ⟨-, rfl⟩ | ⟨hk, rfl⟩ | ⟨hk, h80⟩
  · exact absurd hc hnl
  · left
    obtain ⟨k, p⟩ := q
    exact ⟨rfl, hw.tab_mem hk⟩
  · right
    obtain ⟨k, p⟩ := q
    simp only at hk hw hc
    subst hk
    obtain ⟨x, hx, rfl⟩ := hw.utf8_eq
    unfold textGlyphs at hc
    split at hc
    · obtain ⟨-, -, rfl⟩ := List.mem_map.1 hc
      exact absurd hct (by decide)
    · simp only at hc
      rw [utf8Char_enc x hx] at hc
      rw [List.mem_singleton.1 hc] at hct h80 ⊢
      exact ⟨h80, enc_c1 hct h80⟩

/-- ... and in binary mode. -/
theorem binGlyphs_ctrl {s : Settings} (hr : s.readMode.1 = .binary) {q : Kind × Bytes} (hw : Wf q.1 q.2) {c : Char}
    (hc : c ∈ binGlyphs s q.1 q.2) (hct : isControlChar c = true) :
    0x80 ≤ c.toNat ∧ c.toNat ≤ 0x9f ∧ q.2 = [0xc2, UInt8.ofNat c.toNat] := by
  have hc' := hc
  rw [← segsOf_binGlyphs hr hw] at hc'
  obtain ⟨g, hg, hmem⟩ := List.mem_flatMap.1 hc'
  obtain ⟨hk, h80⟩ := ((segmentsOf_binary hr hw).1 g hg).chars _ hmem hct
  obtain ⟨k, p⟩ := q
  simp only at hk hw hc
  subst hk
  obtain ⟨x, hx, rfl⟩ := hw.utf8_eq
  unfold binGlyphs at hc
  split at hc
  · obtain ⟨-, -, rfl⟩ := List.mem_map.1 hc
    exact absurd hct (by decide)
  · simp only at hc
    split at hc
    · rcases List.mem_append.1 hc with hc | hc
      · rw [(List.mem_replicate.1 hc).2] at hct
        exact absurd hct (by decide)
      · rw [utf8Char_enc x hx] at hc
        rw [List.mem_singleton.1 hc] at hct h80 ⊢
        exact ⟨h80, enc_c1 hct h80⟩
    · obtain ⟨-, -, rfl⟩ := List.mem_map.1 hc
      exact absurd hct (by decide)

theorem pieces_infix {raw : Bytes} {q : Kind × Bytes} (h : q ∈ pieces raw) : q.2 <:+: raw := by
  have := pieces_flatten raw
  rw [← this]
  exact List.infix_of_mem_flatten (List.mem_map_of_mem h)

theorem runPieces_mem {es : List ReadEvent} {q : Kind × Bytes} (h : q ∈ runPieces es) : ∃ e ∈ es, q ∈ pieces e.data := by
  obtain ⟨c, hc, hq⟩ := List.mem_flatMap.1 h
  obtain ⟨e, he, rfl⟩ := List.mem_map.1 hc
  exact ⟨e, he, hq⟩

/-! ### Rows -/

theorem hexDigit_plain (n : Nat) : isControlChar (hexDigit n) = false := by
  unfold hexDigit
  by_cases h : n < 16
  · have : ∀ m : Fin 16, isControlChar (['0', '1', '2', '3', '4', '5', '6', '7', '8', '9', 'a', 'b', 'c', 'd', 'e', 'f'].getD m.1 ' ') = false := by decide
    exact this ⟨n, h⟩
  · rw [List.getD_eq_getElem?_getD, List.getElem?_eq_none (by simp; omega)]
    decide

theorem hexText_plain (cells : List Cell) : ∀ c ∈ (cells.flatMap Cell.hex).map Prod.fst, isControlChar c = false := by
  intro c hc
  obtain ⟨x, hx, rfl⟩ := List.mem_map.1 hc
  obtain ⟨y, -, hy⟩ := List.mem_flatMap.1 hx
  simp only [Cell.hex, inStyle, List.map_cons, List.map_nil, List.mem_cons, List.not_mem_nil, or_false] at hy
  rcases hy with rfl | rfl | rfl
  · exact (by decide : isControlChar ' ' = false)
  · exact hexDigit_plain _
  · exact hexDigit_plain _

theorem offsetLabel_plain (s : Settings) (off : Nat) : ∀ c ∈ Console.offsetLabel s off, isControlChar c = false := by
  intro c hc
  unfold Console.offsetLabel at hc
  split at hc
  · exact dec_plain _ c hc
  · simp only [List.mem_cons] at hc
    rcases hc with rfl | rfl | hc
    · decide
    · decide
    · exact hexPad_plain _ _ c hc

theorem prefixText_plain (s : Settings) (color off : Nat) : ∀ c ∈ (prefixLayout s color off).map Prod.fst, isControlChar c = false := by
  rw [prefixLayout_text]
  intro c h
  rcases List.mem_append.1 h with h | h
  · exact rjust_plain (by decide) (fun c hc => offsetLabel_plain s off c (List.mem_of_mem_take hc)) c h
  · rw [List.mem_singleton.1 h]; decide

theorem prefText_plain (s : Settings) (off : Nat) : ∀ c ∈ prefText s off, isControlChar c = false := by
  unfold prefText offLayout
  split
  · exact prefixText_plain s 32 off
  · simp

theorem rowLine_ctrl {s : Settings} {c off : Nat} {cells : List Cell} {x : Char} (h : x ∈ rowLine s c off cells) (hx : isControlChar x = true) :
    ∃ y ∈ cells, y.char = x := by
  have no : ∀ {P : Prop}, isControlChar x = false → P := fun e => by rw [hx] at e; cases e
  unfold rowLine at h
  rcases List.mem_append.1 h with h | h
  · rcases List.mem_append.1 h with h | h
    · exact no (prefText_plain _ _ _ h)
    · rcases List.mem_append.1 h with h | h
      · exact no (hexText_plain _ _ h)
      · exact no (by rw [(List.mem_replicate.1 h).2]; decide)
  · rcases List.mem_cons.1 h with h | h
    · exact no (by rw [h]; decide)
    · rcases List.mem_cons.1 h with h | h
      · exact no (by rw [h]; unfold sepChar; split <;> decide)
      · exact List.mem_map.1 h

theorem rowsLayout_ctrl {s : Settings} {rows : List Row} (off : Nat) {x : Char}
    (h : x ∈ (rowsLayout (offLayout s) (midLayout s) off rows).map Prod.fst) (hx : isControlChar x = true) :
    x = '\n' ∨ ∃ y ∈ rowCells rows, y.char = x := by
  induction rows generalizing off with
  | nil => simp [rowsLayout] at h
  | cons r rows ih =>
    rw [rowsLayout, List.map_append, rowLayout_text] at h
    have hc : rowCells (r :: rows) = r.2 ++ rowCells rows := rfl
    rcases List.mem_append.1 h with h | h
    · rcases List.mem_append.1 h with h | h
      · obtain ⟨y, hy, e⟩ := rowLine_ctrl h hx
        exact .inr ⟨y, by rw [hc]; simp [hy], e⟩
      · exact .inl (List.mem_singleton.1 h)
    · rcases ih _ h with h | ⟨y, hy, e⟩
      · exact .inl h
      · exact .inr ⟨y, by rw [hc]; simp [hy], e⟩

theorem totalLayout_ctrl {s : Settings} {closed : Bool} {n : Nat} {x : Char} (h : x ∈ (totalLayout s closed n).map Prod.fst)
    (hx : isControlChar x = true) : x = '\n' := by
  unfold totalLayout at h
  split at h
  · rw [List.map_append, inStyle_fst] at h
    rcases List.mem_append.1 h with h | h
    · have := prefixText_plain s 36 n x h
      rw [hx] at this; cases this
    · exact List.mem_singleton.1 h
  · simp at h

/-! ### Inputs that cannot be read to the end -/

theorem bad_dec (e : ReadEvent) : ¬ BadChunk e.data ↔ (pieces e.data).any badPiece = false := by
  rw [← anyBad_iff]
  simp

/-- What is printed is what is printed for the chunks before the first one that
cannot be displayed. -/
theorem session_readable (s : Settings) (es : List ReadEvent) (h : Complete es ∨ Unfinished es) :
    ∃ a, a <+: es ∧ (Complete a ∨ Unfinished a) ∧ Readable a ∧
      ∀ fuel term out st, session fuel s term a = ⟨out, .ok st⟩ → (session fuel s term es).out = out := by
  have hsplit := (List.takeWhile_append_dropWhile (p := fun e : ReadEvent => !(pieces e.data).any badPiece) (l := es))
  have hread : Readable (es.takeWhile fun e => !(pieces e.data).any badPiece) := by
    intro e he
    have := List.all_eq_true.1 (List.all_takeWhile (p := fun e : ReadEvent => !(pieces e.data).any badPiece) (l := es)) e he
    rw [bad_dec]
    simpa using this
  generalize hA : es.takeWhile (fun e => !(pieces e.data).any badPiece) = A at *
  cases hB : es.dropWhile (fun e => !(pieces e.data).any badPiece) with
  | nil =>
    rw [hB, List.append_nil] at hsplit
    subst hsplit
    exact ⟨A, List.prefix_rfl, h, hread, fun fuel term out st e => by rw [e]⟩
  | cons b B =>
    rw [hB] at hsplit
    subst hsplit
    have hb : (pieces b.data).any badPiece = true := by
      have := List.head?_dropWhile_not (fun e : ReadEvent => !(pieces e.data).any badPiece) (A ++ b :: B)
      rw [hB] at this
      simpa using this
    refine ⟨A, List.prefix_append _ _, ?_, hread, ?_⟩
    · right
      rcases h with ⟨a, e, h1, h2, h3⟩ | hu
      · intro x hx
        apply h3
        have hlen := congrArg List.length h1
        have : A <+: a := by
          have p1 : A <+: a ++ [e] := by rw [← h1]; exact List.prefix_append _ _
          have p2 : a <+: a ++ [e] := List.prefix_append _ _
          exact List.prefix_of_prefix_length_le p1 p2 (by simp at hlen; omega)
        exact this.subset hx
      · intro x hx
        exact hu x (by simp [hx])
    · intro fuel term out st e
      have hbad := (C09_errors s fuel term A out st e b.data b.offset b.finish)
      obtain ⟨e1, he1⟩ := hbad.1.2 ((anyBad_iff _).1 hb)
      have he2 := (hbad.2 e1 he1).2
      unfold session at e ⊢
      have happ : ∀ (l : List ReadEvent) (st0 : State), playEvents (processChunk fuel (Config.create s) term) (l ++ b :: B) st0 =
          (playEvents (processChunk fuel (Config.create s) term) l st0).bind fun st' => playEvents (processChunk fuel (Config.create s) term) (b :: B) st' := by
        intro l
        induction l with
        | nil => intro st0; rw [List.nil_append]; rfl
        | cons x l ih =>
          intro st0
          rw [List.cons_append, playEvents.eq_2, playEvents.eq_2, bind_assoc]
          simp only [ih]
      rw [happ, e]
      simp only [playEvents]
      simp only [Run.bind]
      generalize processChunk fuel (Config.create s) term st b.data b.offset b.finish = r at *
      obtain ⟨o, res⟩ := r
      simp only at he1 he2
      subst he1 he2
      simp [Run.bind]

end Kolombos
