import Verif.Lemmas.Chunks
import Verif.Props.Display
/-
C40: how the input is cut into chunks.
-/
set_option linter.unusedSimpArgs false

namespace Kolombos
open Spec

/-- Chunks that can be displayed, whatever the safe cuts. -/
theorem readable_of_safe {es es' : List ReadEvent} (h1 : SafeChunks (es.map (·.data))) (h2 : SafeChunks (es'.map (·.data)))
    (hd : delivered es' = delivered es) (hr : Readable es) : Readable es' := by
  have hany : ∀ es : List ReadEvent, Readable es ↔ (runPieces es).any badPiece = false := by
    intro es
    unfold Readable runPieces chunkPieces
    constructor
    · intro h
      rw [List.any_eq_false]
      intro q hq
      obtain ⟨c, hc, hq⟩ := List.mem_flatMap.1 hq
      obtain ⟨e, he, rfl⟩ := List.mem_map.1 hc
      have := (bad_dec e).1 (h e he)
      rw [List.any_eq_false] at this
      exact this q hq
    · intro h e he
      rw [bad_dec, List.any_eq_false]
      intro q hq
      rw [List.any_eq_false] at h
      exact h q (List.mem_flatMap.2 ⟨e.data, List.mem_map.2 ⟨e, he, rfl⟩, hq⟩)
  rw [hany] at hr ⊢
  have e1 := (safe_chunks h1).bad_eq
  have e2 := (safe_chunks h2).bad_eq
  have hf : ∀ es : List ReadEvent, (es.map (·.data)).flatten = delivered es := fun _ => rfl
  rw [hf] at e1 e2
  unfold runPieces at hr ⊢
  rw [← e2, hd, e1]
  exact hr

/-- C40, what is true in text mode: if no cut falls into an escape sequence, a UTF-8 sequence or a run of other
8-bit bytes, the same appears on the terminal, characters and colours. -/
theorem C40_text_partial (s : Settings) (hm : s.readMode.1 = .text) (es es' : List ReadEvent) (hco : Complete es) (hco' : Complete es')
    (hr : Readable es) (hd : delivered es' = delivered es) (h1 : SafeChunks (es.map (·.data))) (h2 : SafeChunks (es'.map (·.data)))
    (term term' : Nat → Int) (fuel : Nat) (hf : 4 * (delivered es).length < fuel) :
    ∃ out st out' st', session fuel s term es = ⟨out, .ok st⟩ ∧ session fuel s term' es' = ⟨out', .ok st'⟩ ∧ appears out' = appears out := by
  obtain ⟨out, st, e1, e2⟩ := C51_text s hm es hco hr term fuel hf
  obtain ⟨out', st', e3, e4⟩ := C51_text s hm es' hco' (readable_of_safe h1 h2 hd hr) term' fuel (by rw [hd]; exact hf)
  refine ⟨out, st, out', st', e1, e3, ?_⟩
  have hf : ∀ es : List ReadEvent, (es.map (·.data)).flatten = delivered es := fun _ => rfl
  have r1 := (safe_chunks h1).ink_eq s
  have r2 := (safe_chunks h2).ink_eq s
  rw [hf] at r1 r2
  rw [e2, e4, ← r1, ← r2, hd]

theorem cells_eq {x y : List Cell} (h1 : x.map Cell.byte = y.map Cell.byte) (h2 : x.map Cell.shown = y.map Cell.shown) : x = y := by
  induction x generalizing y with
  | nil => cases y with
    | nil => rfl
    | cons _ _ => cases h1
  | cons a x ih =>
    cases y with
    | nil => cases h1
    | cons b y =>
      simp only [List.map_cons, List.cons.injEq] at h1 h2
      obtain ⟨a1, a2, a3⟩ := a
      obtain ⟨b1, b2, b3⟩ := b
      simp only [Cell.shown, Prod.mk.injEq] at h1 h2
      obtain ⟨rfl, h1⟩ := h1
      obtain ⟨⟨rfl, rfl⟩, h2⟩ := h2
      rw [ih h1 h2]

/-- C40, what is true in binary mode, with a number of columns that does not change. -/
theorem C40_binary_partial (s : Settings) (hm : s.readMode.1 = .binary) (es es' : List ReadEvent) (hco : Complete es) (hco' : Complete es')
    (hr : Readable es) (hd : delivered es' = delivered es) (h1 : SafeChunks (es.map (·.data))) (h2 : SafeChunks (es'.map (·.data)))
    (term term' : Nat → Int) (c : Nat) (hc : 0 < c) (hcols : ∀ k off, BinaryFormatter.curCols s (term k) off = c)
    (hcols' : ∀ k off, BinaryFormatter.curCols s (term' k) off = c) (fuel : Nat) (hf : (delivered es).length < fuel) :
    ∃ out st out' st', session fuel s term es = ⟨out, .ok st⟩ ∧ session fuel s term' es' = ⟨out', .ok st'⟩ ∧ appears out' = appears out := by
  have hr' := readable_of_safe h1 h2 hd hr
  obtain ⟨out, st, e1, -, e2⟩ := binComplete hm hc hcols hco hr hf
  obtain ⟨out', st', e3, -, e4⟩ := binComplete hm hc hcols' hco' hr' (fuel := fuel) (by rw [hd]; exact hf)
  refine ⟨out, st, out', st', e1, e3, ?_⟩
  have hf : ∀ es : List ReadEvent, (es.map (·.data)).flatten = delivered es := fun _ => rfl
  have r1 := (safe_chunks h1).binInk_eq s
  have r2 := (safe_chunks h2).binInk_eq s
  rw [hf] at r1 r2
  have hcells : allCells s es' = allCells s es := by
    apply cells_eq
    · rw [allCells_byte hm, allCells_byte hm, hd]
    · rw [allCells_shown hm hr, allCells_shown hm hr']
      unfold runPieces
      rw [← r1, ← r2, hd]
  rw [e2.appears, e4.appears, hcells, hd]

theorem safeChunks_ascii {cs : List Bytes} (h : ∀ x ∈ cs.flatten, x ≠ 0x1b ∧ x.toNat < 0x80) : SafeChunks cs := by
  induction cs with
  | nil => trivial
  | cons c cs ih =>
    rw [List.flatten_cons] at h
    exact ⟨safe_ascii h, ih fun x hx => h x (by simp [hx])⟩

theorem safe_nil_right (a : Bytes) : SafeCut a [] := ⟨pieces a, [], .inl ⟨by simp, pieces_flatten a⟩⟩

theorem safeChunks_lines {cs : List Bytes} (h : ∀ c ∈ cs.dropLast, c.getLast? = some 0x0a) : SafeChunks cs := by
  induction cs with
  | nil => trivial
  | cons c cs ih =>
    cases cs with
    | nil => exact ⟨safe_nil_right c, trivial⟩
    | cons d cs =>
      rw [List.dropLast_cons₂] at h
      exact ⟨safe_lf (h c (by simp)) _, ih fun x hx => h x (by simp [hx])⟩

/-- C40 for 7-bit input without escape characters: the buffer size is irrelevant. -/
theorem C40_ascii_partial (s : Settings) (hm : s.readMode.1 = .text) (es es' : List ReadEvent) (hco : Complete es) (hco' : Complete es')
    (hd : delivered es' = delivered es) (ha : ∀ x ∈ delivered es, x ≠ 0x1b ∧ x.toNat < 0x80)
    (term term' : Nat → Int) (fuel : Nat) (hf : 4 * (delivered es).length < fuel) :
    ∃ out st out' st', session fuel s term es = ⟨out, .ok st⟩ ∧ session fuel s term' es' = ⟨out', .ok st'⟩ ∧ appears out' = appears out := by
  have hfl : ∀ es : List ReadEvent, (es.map (·.data)).flatten = delivered es := fun _ => rfl
  refine C40_text_partial s hm es es' hco hco' ?_ hd (safeChunks_ascii (by rw [hfl]; exact ha)) (safeChunks_ascii (by rw [hfl, hd]; exact ha)) term term' fuel hf
  rintro e he ⟨q, hq, ps, ⟨is, hp, -⟩, -⟩
  have hsub : (0x1b : Byte) ∈ e.data := by
    exact (pieces_infix hq).mem (by rw [hp]; simp)
  exact (ha 0x1b (List.mem_flatMap.2 ⟨e, he, hsub⟩)).1 rfl

/-- C40 if every chunk but the last ends with a line feed. -/
theorem C40_lines_partial (s : Settings) (hm : s.readMode.1 = .text) (es es' : List ReadEvent) (hco : Complete es) (hco' : Complete es')
    (hr : Readable es) (hd : delivered es' = delivered es) (h1 : ∀ c ∈ (es.map (·.data)).dropLast, c.getLast? = some 0x0a)
    (h2 : ∀ c ∈ (es'.map (·.data)).dropLast, c.getLast? = some 0x0a)
    (term term' : Nat → Int) (fuel : Nat) (hf : 4 * (delivered es).length < fuel) :
    ∃ out st out' st', session fuel s term es = ⟨out, .ok st⟩ ∧ session fuel s term' es' = ⟨out', .ok st'⟩ ∧ appears out' = appears out :=
  C40_text_partial s hm es es' hco hco' hr hd (safeChunks_lines h1) (safeChunks_lines h2) term term' fuel hf

/-- `ESC [ m` in one chunk ... -/
def oneChunk : List ReadEvent := [⟨[0x1b, 0x5b, 0x6d, 0x0a], 0, false⟩, ⟨[], 4, true⟩]
/-- ... and in two. -/
def twoChunks : List ReadEvent := [⟨[0x1b], 0, false⟩, ⟨[0x5b, 0x6d, 0x0a], 1, false⟩, ⟨[], 4, true⟩]

/-- C40 is false: a sequence cut in two is not recognised. -/
theorem C40_negation : ¬ ∀ (s : Settings) (term : Nat → Int) (es es' : List ReadEvent) (fuel : Nat), Complete es → Complete es' →
    Readable es → Readable es' → delivered es' = delivered es → 4 * (delivered es).length < fuel →
    visible (session fuel s term es').out = visible (session fuel s term es).out := by
  intro h
  have := h {} (fun _ => 80) oneChunk twoChunks 99 ⟨[⟨[0x1b, 0x5b, 0x6d, 0x0a], 0, false⟩], ⟨[], 4, true⟩, rfl, rfl, by simp⟩
    ⟨[⟨[0x1b], 0, false⟩, ⟨[0x5b, 0x6d, 0x0a], 1, false⟩], ⟨[], 4, true⟩, rfl, rfl, by simp⟩
    (by
      intro e he
      simp only [oneChunk, List.mem_cons, List.not_mem_nil, or_false] at he
      rw [bad_dec]
      rcases he with rfl | rfl <;> decide)
    (by
      intro e he
      simp only [twoChunks, List.mem_cons, List.not_mem_nil, or_false] at he
      rw [bad_dec]
      rcases he with rfl | rfl | rfl <;> decide) rfl (by decide)
  exact absurd this (by decide +kernel)

/-- Safe cuts: within a word, before an escape sequence, after it. -/
example : SafeChunks [[0x61, 0x62], [0x63, 0x20], [0x1b, 0x5b, 0x6d], [0xc3, 0xa9]] := by
  refine ⟨⟨[], [(.space, [0x20]), (.reset, [0x1b, 0x5b, 0x6d]), (.utf8, [0xc3, 0xa9])], .inr ⟨.printable, [0x61, 0x62], [0x63], by decide +kernel⟩⟩,
    ⟨[(.printable, [0x63]), (.space, [0x20])], [(.reset, [0x1b, 0x5b, 0x6d]), (.utf8, [0xc3, 0xa9])], .inl (by decide +kernel)⟩,
    ⟨[(.reset, [0x1b, 0x5b, 0x6d])], [(.utf8, [0xc3, 0xa9])], .inl (by decide +kernel)⟩, safe_nil_right _, trivial⟩

end Kolombos
