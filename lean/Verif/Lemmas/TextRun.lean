import Verif.Lemmas.Session
/-
Runs in text mode.
-/
set_option linter.unusedSimpArgs false

namespace Kolombos
open Spec

/-- Between two chunks the segments `H` are held back. -/
structure TextHold (st : State) (H : List Segment) : Prop where
  parser : st.pb.raw = []
  rep : Rep st.buf false H
  segs : ∀ g ∈ H, ∃ k, TextSeg k g

theorem TextHold.start : TextHold {} [] := ⟨rfl, .nil, by simp⟩

theorem readMode_linesText (s : Settings) (n : Nat) (ls : List (List Segment)) : linesText s.readMode.2 n ls = linesText s n ls := by
  induction ls generalizing n with
  | nil => rfl
  | cons l ls ih =>
    rw [linesText, linesText, ih]
    unfold lineText
    rw [readMode_linePrefix]

theorem lines_length {ls : List (List Segment)} (h : Lines ls) : ls.length ≤ ls.flatten.length := by
  induction ls with
  | nil => simp
  | cons l ls ih =>
    obtain ⟨x, g, rfl, -⟩ := h l (by simp)
    have := ih fun l hl => h l (by simp [hl])
    simp only [List.length_cons, List.flatten_cons, List.length_append]
    omega

theorem printed_length (closed : Bool) {gs : List Segment} {ls : List (List Segment)} {as bs : List Segment} (h : Cut gs ls as bs) :
    (printed closed ls as).length ≤ gs.length := by
  have := lines_length h.lines
  rw [h.eq]
  unfold printed
  split
  · rename_i hc
    have := List.length_pos_iff.2 hc.2
    simp only [List.length_append, List.length_singleton]; omega
  · simp only [List.length_append]; omega

/-- One chunk in text mode. -/
theorem textStep {s : Settings} (hm : s.readMode.1 = .text) {st : State} {H : List Segment} (h : TextHold st H) (raw : Bytes)
    (hb : (pieces raw).any badPiece = false) (off : Nat) (fin : Bool) (term : Nat → Int)
    {ls : List (List Segment)} {as bs : List Segment} (hc : Cut (H ++ chunkSegs s raw) ls as bs) (fuel : Nat) :
    ((printed fin ls as).length < fuel → ∃ st', processChunk fuel (Config.create s) term st raw off fin =
        ⟨linesText s st.lineNum (printed fin ls as), .ok st'⟩ ∧
      TextHold st' (if fin = true then bs else as ++ bs) ∧ st'.lineNum = st.lineNum + (printed fin ls as).length ∧
      st'.offset = st.offset + total (printed fin ls as).flatten) ∧
    (fuel ≤ (printed fin ls as).length → (processChunk fuel (Config.create s) term st raw off fin).res = .timeout) := by
  rw [processChunk_eq fuel s term st raw off fin h.parser, if_neg (by simp [hb]), formatStep_text hm]
  have hseg : ∀ g ∈ H ++ chunkSegs s raw, ∃ k, TextSeg k g := by
    intro g hg
    rcases List.mem_append.1 hg with hg | hg
    · exact h.segs g hg
    · exact chunkSegs_text hm raw g hg
  obtain ⟨k1, k2⟩ := textFormat_eq s.readMode.2 fin (nlNe_of_text hseg) (h.rep.attach (chunkSegs s raw)) hc fuel st.offset st.lineNum
  refine ⟨fun hfu => ?_, fun hfu => ?_⟩
  · obtain ⟨b', e1, e2⟩ := k1 hfu
    refine ⟨{ pb := ⟨[], fin⟩, buf := b', offset := st.offset + total (printed fin ls as).flatten, lineNum := st.lineNum + (printed fin ls as).length, calls := st.calls + 1 }, ?_, ⟨rfl, e1, ?_⟩, rfl, rfl⟩
    · simp only
      rw [e2, readMode_linesText]
      simp only [Run.bind, Run.pure, List.append_nil]
    · intro g hg
      apply hseg
      rw [hc.eq]
      split at hg
      · simp [hg]
      · simp only [List.mem_append]; exact .inr (List.mem_append.1 hg)
  · have := k2 hfu
    simp only
    generalize TextFormatter.format s.readMode.2 fin fuel (st.buf.attach (chunkSegs s raw)) st.offset st.lineNum = r at *
    obtain ⟨out, res⟩ := r
    simp only at this
    subst this
    rfl

/-- The segments of some chunks. -/
def allSegs (s : Settings) (es : List ReadEvent) : List Segment := es.flatMap fun e => chunkSegs s e.data

theorem Lines.append {a b : List (List Segment)} (h : Lines a) (h' : Lines b) : Lines (a ++ b) := by
  intro l hl
  rcases List.mem_append.1 hl with hl | hl
  · exact h l hl
  · exact h' l hl

/-- A run of chunks before the end of the input. -/
theorem textRun_open {s : Settings} (hm : s.readMode.1 = .text) {term : Nat → Int} (es : List ReadEvent)
    (hes : ∀ e ∈ es, e.finish = false ∧ (pieces e.data).any badPiece = false) {st : State} {H : List Segment} (h : TextHold st H)
    (hH : NoNl H) {fuel : Nat} (hf : H.length + (allSegs s es).length < fuel) :
    ∃ st' Ls H', playEvents (processChunk fuel (Config.create s) term) es st = ⟨linesText s st.lineNum Ls, .ok st'⟩ ∧
      TextHold st' H' ∧ NoNl H' ∧ Lines Ls ∧ Ls.flatten ++ H' = H ++ allSegs s es ∧ st'.lineNum = st.lineNum + Ls.length ∧
      st'.offset = st.offset + total Ls.flatten := by
  induction es generalizing st H with
  | nil => exact ⟨st, [], H, rfl, h, hH, by simp [Lines], by simp [allSegs], rfl, rfl⟩
  | cons e es ih =>
    obtain ⟨hfin, hb⟩ := hes e (by simp)
    have hA : allSegs s (e :: es) = chunkSegs s e.data ++ allSegs s es := rfl
    rw [hA, List.length_append] at hf
    obtain ⟨ls, as, bs, hc⟩ := cut_exists (H ++ chunkSegs s e.data)
    obtain ⟨k1, -⟩ := textStep hm h e.data hb e.offset e.finish term hc fuel
    have hl := printed_length e.finish hc
    rw [List.length_append] at hl
    rw [hfin] at k1 hl
    obtain ⟨st1, e1, e2, e3, e4⟩ := k1 (by omega)
    have hp : printed false ls as = ls := by unfold printed; rw [if_neg (by simp)]
    rw [hp] at e1 e3 e4
    rw [if_neg (by simp)] at e2
    have hlen := congrArg List.length hc.eq
    simp only [List.length_append] at hlen
    obtain ⟨st2, Ls, H', j1, j2, j3, j4, j5, j6, j7⟩ := ih (fun e he => hes e (by simp [he])) e2 hc.noNl (by simp only [List.length_append]; omega)
    refine ⟨st2, ls ++ Ls, H', ?_, j2, j3, hc.lines.append j4, ?_, ?_, ?_⟩
    · rw [playEvents, hfin, e1]
      simp only [Run.bind]
      rw [j1, linesText_append, e3]
    · rw [List.flatten_append, List.append_assoc, j5, hA, ← List.append_assoc H, hc.eq]
      simp only [List.append_assoc]
    · rw [j6, e3, List.length_append]; omega
    · rw [j7, e4, List.flatten_append, total_append]; omega

theorem playEvents_snoc {σ : Type} (cb : σ → Bytes → Nat → Bool → Run σ) (es : List ReadEvent) (e : ReadEvent) (st : σ) :
    playEvents cb (es ++ [e]) st = (playEvents cb es st).bind fun st' => cb st' e.data e.offset e.finish := by
  induction es generalizing st with
  | nil =>
    rw [List.nil_append, playEvents, playEvents, pure_bind]
    exact bind_pure _
  | cons x es ih =>
    rw [List.cons_append, playEvents, playEvents, bind_assoc]
    simp only [ih]

theorem playEvents_append {σ : Type} (cb : σ → Bytes → Nat → Bool → Run σ) (es fs : List ReadEvent) (st : σ) :
    playEvents cb (es ++ fs) st = (playEvents cb es st).bind fun st' => playEvents cb fs st' := by
  induction es generalizing st with
  | nil => rw [List.nil_append, playEvents, pure_bind]
  | cons x es ih =>
    rw [List.cons_append, playEvents, playEvents, bind_assoc]
    simp only [ih]

/-- A whole run: chunks, then the end of the input. -/
theorem textRun_all {s : Settings} (hm : s.readMode.1 = .text) {term : Nat → Int} (es : List ReadEvent)
    (hes : ∀ e ∈ es, e.finish = false ∧ (pieces e.data).any badPiece = false) (e : ReadEvent) (he : e.finish = true)
    (heb : (pieces e.data).any badPiece = false) {fuel : Nat} (hf : (allSegs s (es ++ [e])).length < fuel) :
    ∃ st' Ls as bs, Cut (allSegs s (es ++ [e])) Ls as bs ∧
      playEvents (processChunk fuel (Config.create s) term) (es ++ [e]) {} = ⟨linesText s 1 (printed true Ls as), .ok st'⟩ ∧
      TextHold st' bs ∧ st'.offset = total (allSegs s (es ++ [e])) := by
  have hsplit : allSegs s (es ++ [e]) = allSegs s es ++ chunkSegs s e.data := by simp [allSegs]
  rw [hsplit, List.length_append] at hf
  obtain ⟨st1, Ls, H, e1, e2, e3, e4, e5, e6, e7⟩ := textRun_open hm (term := term) es hes TextHold.start (by simp [NoNl]) (fuel := fuel) (by simp; omega)
  rw [List.nil_append] at e5
  obtain ⟨ls, as, bs, hc⟩ := cut_exists (H ++ chunkSegs s e.data)
  obtain ⟨k1, -⟩ := textStep hm e2 e.data heb e.offset e.finish term hc fuel
  have hl := printed_length e.finish hc
  have h5 := congrArg List.length e5
  rw [List.length_append] at hl h5
  obtain ⟨st2, f1, f2, f3, f4⟩ := k1 (by omega)
  rw [he] at f1 f2 f3 f4
  have hcut : Cut (allSegs s (es ++ [e])) (Ls ++ ls) as bs := by
    refine ⟨?_, e4.append hc.lines, hc.noNl, hc.empty, hc.last⟩
    rw [hsplit, ← e5, List.append_assoc, hc.eq, List.flatten_append, List.append_assoc]
  have hpr : printed true (Ls ++ ls) as = Ls ++ printed true ls as := by
    unfold printed; split <;> simp
  refine ⟨st2, Ls ++ ls, as, bs, hcut, ?_, ?_, ?_⟩
  · rw [playEvents_snoc, e1]
    simp only [Run.bind]
    rw [he, f1, hpr, linesText_append, e6]
  · exact f2
  · rw [f4, e7, hcut.eq]
    show 0 + _ + _ = _
    have h1 : total (printed true ls as).flatten = total ls.flatten + total as := by
      unfold printed
      split
      · simp [total_append]
      · rename_i hn
        have : as = [] := Classical.byContradiction fun h => hn ⟨rfl, h⟩
        simp [this, total_nil]
    rw [h1]
    simp only [List.flatten_append, total_append, total_zero hc.empty]
    omega

end Kolombos
