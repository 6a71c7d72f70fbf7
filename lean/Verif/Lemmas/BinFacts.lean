import Verif.Lemmas.SegFacts
/-
The segments of binary mode.
-/
set_option linter.unusedSimpArgs false

namespace Kolombos
open Spec

/-- A segment of binary mode: not empty, one character per byte, no control characters
but decoded C1 controls. -/
structure BinSeg (k : Kind) (g : Segment) : Prop where
  ne : g.raw ≠ []
  len : g.raw.length = g.processed.length
  chars : ∀ c ∈ g.processed, isControlChar c = true → k = .utf8 ∧ 0x80 ≤ c.toNat

theorem kindText_binary (k : Kind) (d : DisplayMode) (h : k ≠ .printable ∨ d = .ignored) :
    ∃ c, kindText k d .binary = [c] ∧ isControlChar c = false := by
  cases d <;> cases k <;> first
    | exact ⟨_, rfl, by decide⟩
    | simp at h

theorem decodeAscii_eq {p : Bytes} (h : ∀ b ∈ p, between 0x20 0x7e b = true) :
    decodeAscii p = p.map fun b => chr b.toNat := by
  unfold decodeAscii
  rw [List.filter_eq_self.2]
  · rfl
  · intro b hb
    have := h b hb
    simp [between] at this
    simp; omega

theorem enc_length_le (c : Char) : 1 ≤ (enc c).length := List.length_pos_iff.2 (enc_ne_nil c)

theorem pieceText_binary {s : Settings} {k : Kind} {p : Bytes} (hr : s.readMode.1 = .binary) (hw : Wf k p) :
    (pieceText s k p).length = p.length ∧ ∀ c ∈ pieceText s k p, isControlChar c = true → k = .utf8 ∧ 0x80 ≤ c.toNat := by
  have hx : isControlChar '×' = false := by decide
  have hmap : ∀ c, isControlChar c = false → ((p.map fun _ => c).length = p.length ∧ ∀ x ∈ p.map fun _ => c, isControlChar x = true → k = .utf8 ∧ 0x80 ≤ x.toNat) := by
    intro c hc
    refine ⟨by simp, ?_⟩
    intro x hx hx'
    simp at hx
    rw [hx.2, hc] at hx'; cases hx'
  have hgen : k ≠ .printable → ((p.flatMap fun _ => kindText k (displayOf s k) s.readMode.1).length = p.length ∧ ∀ x ∈ (p.flatMap fun _ => kindText k (displayOf s k) s.readMode.1), isControlChar x = true → k = .utf8 ∧ 0x80 ≤ x.toNat) := by
    intro hk
    obtain ⟨c, e, hc⟩ := kindText_binary k (displayOf s k) (.inl hk)
    rw [hr, e, flatMap_single]
    exact hmap c hc
  unfold pieceText
  by_cases hi : displayOf s k = .ignored
  · rw [if_pos hi, if_neg (by rw [hr]; simp)]
    exact hmap _ hx
  · rw [if_neg hi]
    cases k with
    | printable =>
      have hall := hw.run_all (q := isPrintable) rfl
      refine ⟨by simp, ?_⟩
      intro c hc hcc
      obtain ⟨b, hb, rfl⟩ := List.mem_map.1 hc
      rw [ascii_plain] at hcc
      · cases hcc
      · exact between_mono (hall b hb) (by decide) (by decide)
    | newline =>
      have := hw.newline_eq
      subst this
      simp only [hr, reduceCtorEq, if_false]
      refine ⟨rfl, ?_⟩
      intro c hc hcc
      rw [List.mem_singleton.1 hc] at hcc
      exact absurd hcc (by decide)
    | utf8 =>
      obtain ⟨c, hc, rfl⟩ := hw.utf8_eq
      simp only [hr, reduceCtorEq, if_false, decodeUtf8_enc]
      cases hd : s.decode.getD false with
      | true =>
        simp only [if_true]
        refine ⟨?_, ?_⟩
        · have := enc_length_le c
          rw [List.length_append, List.length_replicate, List.length_singleton]; omega
        · intro x hx hxx
          rcases List.mem_append.1 hx with hx | hx
          · rw [(List.mem_replicate.1 hx).2] at hxx
            exact absurd hxx (by decide)
          · rw [List.mem_singleton.1 hx]; exact ⟨by trivial, hc⟩
      | false =>
        simp only [Bool.false_eq_true, if_false]
        have := hmap '▯' (by decide)
        simpa using this
    | _ => exact hgen (by simp)

theorem segmentsOf_binary {s : Settings} {k : Kind} {p : Bytes} {q : SgrDetails} (hr : s.readMode.1 = .binary) (hw : Wf k p) :
    (∀ g ∈ segmentsOf s k p q, BinSeg k g) ∧ (segmentsOf s k p q).flatMap Segment.raw = p := by
  have hd := details_binary hr
  unfold segmentsOf
  by_cases he : isEscKind k = true ∧ displayOf s k ≠ .ignored
  · rw [if_pos he]
    unfold escSegments
    rw [if_neg (by rw [hr]; simp)]
    unfold escBody
    obtain ⟨t, rfl, hne, ht⟩ := hw.esc_form he.1
    rw [if_neg (by rw [hd]; simp), if_neg (by rw [hd]; simp), hr]
    obtain ⟨c, e, hc⟩ := kindText_binary k (displayOf s k) (.inl (by rintro rfl; cases he.1))
    rw [e]
    refine ⟨?_, by simp⟩
    intro g hg
    rcases List.mem_cons.1 hg with rfl | hg
    · refine ⟨by simp, by simp, ?_⟩
      intro x hx hxx
      simp at hx
      rw [hx, hc] at hxx; cases hxx
    · rw [List.mem_singleton.1 hg]
      refine ⟨by simpa using hne, ?_, ?_⟩
      · simp [decodeAscii_eq ht]
      · intro x hx hxx
        simp only [List.drop_succ_cons, List.drop_zero] at hx
        rw [decodeAscii_eq ht] at hx
        obtain ⟨b, hb, rfl⟩ := List.mem_map.1 hx
        rw [ascii_plain (ht b hb)] at hxx; cases hxx
  · rw [if_neg he, if_neg (by rw [hd]; simp)]
    obtain ⟨h1, h2⟩ := pieceText_binary hr hw
    refine ⟨?_, by simp⟩
    intro g hg
    rw [List.mem_singleton.1 hg]
    exact ⟨hw.ne_nil, h1.symm, h2⟩

theorem chunkSegs_raw {s : Settings} (hr : s.readMode.1 = .binary) (raw : Bytes) : (chunkSegs s raw).flatMap Segment.raw = raw := by
  have : ∀ qs : List (Kind × Bytes), (∀ q ∈ qs, Wf q.1 q.2) → (qs.flatMap (segsOf s)).flatMap Segment.raw = (qs.map Prod.snd).flatten := by
    intro qs
    induction qs with
    | nil => intro _; rfl
    | cons q qs ih =>
      intro hw
      rw [List.flatMap_cons, List.flatMap_append, ih fun q hq => hw q (by simp [hq])]
      unfold segsOf
      rw [(segmentsOf_binary hr (hw q (by simp))).2]
      simp
  unfold chunkSegs
  rw [this _ fun q hq => pieces_wf hq, pieces_flatten]

theorem chunkSegs_binary {s : Settings} (hr : s.readMode.1 = .binary) (raw : Bytes) :
    ∀ g ∈ chunkSegs s raw, ∃ k, BinSeg k g := by
  intro g hg
  obtain ⟨q, hq, hg⟩ := List.mem_flatMap.1 hg
  exact ⟨q.1, (segmentsOf_binary hr (pieces_wf hq)).1 g hg⟩

end Kolombos
