import Verif.Lemmas.BinRun
import Verif.Lemmas.TextRun
import Verif.Spec.Session
import Verif.Props.Reader
/-
C08, C09: which inputs make the application fail.
-/
set_option linter.unusedSimpArgs false

namespace Kolombos
open Spec

/-! ### C09 -/

/-- C09: in every state the application can reach, for every setting, processing
a chunk raises an exception if and only if the chunk contains an SGR sequence with
a parameter that is not a number; the exception is `ValueError`, and nothing of the
chunk is printed. -/
theorem C09_errors (s : Settings) (fuel : Nat) (term : Nat → Int) (es : List ReadEvent) (out : Str) (st : State)
    (h : session fuel s term es = ⟨out, .ok st⟩) (raw : Bytes) (off : Nat) (fin : Bool) :
    ((∃ e, (processChunk fuel (Config.create s) term st raw off fin).res = .err e) ↔ BadChunk raw) ∧
    ∀ e, (processChunk fuel (Config.create s) term st raw off fin).res = .err e →
      e = .valueError ∧ (processChunk fuel (Config.create s) term st raw off fin).out = [] := by
  have hs := safe_reached es (Safe.start s) h
  obtain ⟨h1, h2⟩ := processChunk_fine hs fuel term raw off fin
  have hb := anyBad_iff raw
  cases hbad : (pieces raw).any badPiece with
  | true =>
    rw [h1 hbad]
    refine ⟨⟨fun _ => hb.1 hbad, fun _ => ⟨_, rfl⟩⟩, ?_⟩
    intro e he
    simp [Run.fail] at he
    exact ⟨he.symm, rfl⟩
  | false =>
    have hn := (h2 hbad).noErr
    refine ⟨⟨fun hx => absurd hx hn, fun hx => ?_⟩, fun e he => absurd ⟨e, he⟩ hn⟩
    rw [hb.2 hx] at hbad; cases hbad

/-- Not vacuous: after the chunk `a` in text mode, `ESC[?1m` fails and `ESC[1m` does not. -/
example : (∃ out st, session 9 {} (fun _ => 80) [⟨[97], 0, false⟩] = ⟨out, .ok st⟩) ∧
    BadChunk [0x1b, 0x5b, 0x3f, 0x31, 0x6d] ∧ ¬ BadChunk [0x1b, 0x5b, 0x31, 0x6d] := by
  refine ⟨⟨_, _, rfl⟩, ?_, ?_⟩
  · exact (anyBad_iff _).1 (by decide)
  · intro h
    have := (anyBad_iff [0x1b, 0x5b, 0x31, 0x6d]).2 h
    exact absurd this (by decide)

theorem session_err {s : Settings} {fuel : Nat} {term : Nat → Int} (es : List ReadEvent) {st : State} (h : Safe s st) {e : Err}
    (he : (playEvents (processChunk fuel (Config.create s) term) es st).res = .err e) :
    e = .valueError ∧ ∃ x ∈ es, BadChunk x.data := by
  induction es generalizing st with
  | nil => simp [playEvents, Run.pure] at he
  | cons x es ih =>
    rw [playEvents] at he
    obtain ⟨h1, h2⟩ := processChunk_fine h fuel term x.data x.offset x.finish
    cases hbad : (pieces x.data).any badPiece with
    | true =>
      rw [h1 hbad] at he
      simp [Run.fail, Run.bind] at he
      exact ⟨he.symm, x, by simp, (anyBad_iff _).1 hbad⟩
    | false =>
      have hf := h2 hbad
      unfold Run.Fine at hf
      generalize processChunk fuel (Config.create s) term st x.data x.offset x.finish = r at *
      obtain ⟨o, res⟩ := r
      cases res with
      | ok st1 =>
        simp only [Run.bind] at he
        obtain ⟨i1, y, hy, i2⟩ := ih hf he
        exact ⟨i1, y, by simp [hy], i2⟩
      | err e' => exact hf.elim
      | timeout => simp [Run.bind] at he

theorem session_ok {s : Settings} {fuel : Nat} {term : Nat → Int} (es : List ReadEvent) {st st' : State} (h : Safe s st) 
    (he : (playEvents (processChunk fuel (Config.create s) term) es st).res = .ok st') : ∀ x ∈ es, ¬ BadChunk x.data := by
  induction es generalizing st with
  | nil => simp
  | cons x es ih =>
    have hr : playEvents (processChunk fuel (Config.create s) term) (x :: es) st =
      ⟨(playEvents (processChunk fuel (Config.create s) term) (x :: es) st).out, .ok st'⟩ := by rw [← he]
    obtain ⟨o1, st1, o2, f1, f2, -⟩ := bind_ok hr
    obtain ⟨h1, h2⟩ := processChunk_fine h fuel term x.data x.offset x.finish
    cases hbad : (pieces x.data).any badPiece with
    | true => rw [h1 hbad] at f1; simp [Run.fail] at f1
    | false =>
      have hf := h2 hbad
      rw [f1] at hf
      intro y hy
      rcases List.mem_cons.1 hy with rfl | hy
      · intro hb
        rw [(anyBad_iff _).2 hb] at hbad; cases hbad
      · exact ih hf (by rw [f2]) y hy

/-- C09 for whole runs of the process: if the input can be opened and read, status 1
means that one of the chunks read has such an SGR sequence; and status 0
means that none has. -/
theorem C09_status (fuel : Nat) (s : Settings) (term : Nat → Int) (io : List IoStep) (legend version : Str)
    (hio : NoRaise io) (hl : s.legend = false ∧ s.version = false) :
    ∃ evs, Reader.loop (effectiveSettings s).maxBytes (effectiveSettings s).maxLines record io 0 0 [] = .pure evs ∧
      ((appRun fuel s term none io legend version).status = some 1 → ∃ e ∈ evs, BadChunk e.data) ∧
      ((appRun fuel s term none io legend version).status = some 0 → Readable evs) := by
  obtain ⟨-, h⟩ := C46_status fuel s term none io legend version
  obtain ⟨h1, h0, -⟩ := h hl
  obtain ⟨a, b, hset⟩ := readMode_eq (effectiveSettings s)
  have hcs : (Config.create (effectiveSettings s)).settings = (effectiveSettings s).readMode.2 := config_settings _
  have hmb : (Config.create (effectiveSettings s)).settings.maxBytes = (effectiveSettings s).maxBytes := by rw [hcs, hset]
  have hml : (Config.create (effectiveSettings s)).settings.maxLines = (effectiveSettings s).maxLines := by rw [hcs, hset]
  rw [hmb, hml] at h1 h0
  generalize (effectiveSettings s) = t at *
  have hrec := loop_record t.maxBytes t.maxLines io 0 0 []
  rw [readEvents_noRaise hio] at hrec
  refine ⟨_, hrec, ?_, ?_⟩
  · intro hx
    rcases h1.1 hx with h' | ⟨e, he, -⟩
    · exact absurd rfl h'
    · rw [loop_play, playAll, readEvents_noRaise hio] at he
      simp only [bind_pure] at he
      exact (session_err _ (Safe.start t) he).2
  · intro hx
    obtain ⟨-, h'⟩ := h0.1 hx
    rcases h' with ⟨st, he⟩ | he
    all_goals
      rw [loop_play, playAll, readEvents_noRaise hio] at he
      simp only [bind_pure] at he
    · exact session_ok _ (Safe.start t) he
    · exact absurd (session_err _ (Safe.start t) he).1 (by decide)


/-! ### C08 -/

theorem readable_any {es : List ReadEvent} (h : Readable es) : ∀ e ∈ es, (pieces e.data).any badPiece = false := by
  intro e he
  cases hb : (pieces e.data).any badPiece with
  | false => rfl
  | true => exact absurd ((anyBad_iff _).1 hb) (h e he)

/-- Every complete input without such SGR sequences is processed to the end, in
text mode, and in binary mode if the number of columns is positive. -/
theorem session_ends (s : Settings) (term : Nat → Int) (es : List ReadEvent) (hc : Complete es) (hr : Readable es)
    (hm : s.readMode.1 = .text ∨ PosCols s term) :
    ∃ N, ∀ fuel, N ≤ fuel → ∃ st, (session fuel s term es).res = .ok st := by
  obtain ⟨a, e, rfl, he, ha⟩ := hc
  have hb := readable_any hr
  cases hmode : s.readMode.1 with
  | text =>
    refine ⟨(allSegs s (a ++ [e])).length + 1, fun fuel hf => ?_⟩
    obtain ⟨st, Ls, as, bs, -, h2, -⟩ := textRun_all hmode (term := term) a (fun x hx => ⟨ha x hx, hb x (by simp [hx])⟩) e he (hb e (by simp)) (fuel := fuel) (by omega)
    exact ⟨st, by rw [session, h2]⟩
  | binary =>
    have hp : PosCols s term := by
      rcases hm with h | h
      · rw [hmode] at h; cases h
      · exact h
    refine ⟨(allCells s (a ++ [e])).length + 1, fun fuel hf => ?_⟩
    obtain ⟨out, st, rows, h2, -⟩ := binRun_all hmode hp a (fun x hx => ⟨ha x hx, hb x (by simp [hx])⟩) e he (hb e (by simp)) (fuel := fuel) (by omega)
    exact ⟨st, by rw [session, h2]⟩

/-- C08 is false: the input `ESC[?1m` (a private-mode sequence some programs send)
makes the application exit with status 1, with default settings, whatever the fuel. -/
theorem C08_negation : ¬ ∀ (s : Settings) (term : Nat → Int) (io : List IoStep), NoRaise io →
    (s.readMode.1 = .text ∨ PosCols s term) →
    ∃ N, ∀ fuel, N ≤ fuel → (appRun fuel s term none io [] []).status = some 0 := by
  intro h
  obtain ⟨N, hN⟩ := h {} (fun _ => 80) [.data [0x1b, 0x5b, 0x3f, 0x31, 0x6d]] (by intro e; simp) (.inl (by decide))
  obtain ⟨evs, h1, -, h3⟩ := C09_status N {} (fun _ => 80) [.data [0x1b, 0x5b, 0x3f, 0x31, 0x6d]] [] [] (by intro e; simp) ⟨rfl, rfl⟩
  have hr := h3 (hN N (Nat.le_refl _))
  have he : evs = [⟨[0x1b, 0x5b, 0x3f, 0x31, 0x6d], 0, false⟩, ⟨[], 5, true⟩] := by
    have : Reader.loop (effectiveSettings {}).maxBytes (effectiveSettings {}).maxLines record [.data [0x1b, 0x5b, 0x3f, 0x31, 0x6d]] 0 0 [] =
      .pure [⟨[0x1b, 0x5b, 0x3f, 0x31, 0x6d], 0, false⟩, ⟨[], 5, true⟩] := rfl
    rw [this] at h1
    simp [Run.pure] at h1
    exact h1.symm
  subst he
  have := readable_any hr ⟨[0x1b, 0x5b, 0x3f, 0x31, 0x6d], 0, false⟩ (by simp)
  exact absurd this (by decide)

/-- C08, as far as it is true: if the input can be opened and read and no SGR
sequence of it has a parameter that is not a number, then the process ends with
status 0, in text mode always, in binary mode if the number of columns is positive
(for other numbers see C23). -/
theorem C08_status_partial (s : Settings) (term : Nat → Int) (io : List IoStep) (legend version : Str) (hio : NoRaise io)
    (hm : (effectiveSettings s).readMode.1 = .text ∨ PosCols (effectiveSettings s) term)
    (hr : ∀ evs, Reader.loop (effectiveSettings s).maxBytes (effectiveSettings s).maxLines record io 0 0 [] = .pure evs →
      Readable evs) :
    ∃ N, ∀ fuel, N ≤ fuel → (appRun fuel s term none io legend version).status = some 0 := by
  have hrec := loop_record (effectiveSettings s).maxBytes (effectiveSettings s).maxLines io 0 0 []
  rw [readEvents_noRaise hio] at hrec
  have hread := hr _ hrec
  rw [List.nil_append] at hread
  have hcomp : Complete (readEvents (effectiveSettings s).maxBytes (effectiveSettings s).maxLines io 0 0).1 :=
    (readEvents_shape _ _ io 0 0).last (readEvents_noRaise hio 0 0)
  obtain ⟨N, hN⟩ := session_ends _ term _ hcomp hread hm
  refine ⟨N, fun fuel hf => ?_⟩
  obtain ⟨st, hst⟩ := hN fuel hf
  obtain ⟨h1, h2⟩ := C46_status fuel s term none io legend version
  by_cases hlv : s.legend = true ∨ s.version = true
  · exact h1 hlv
  · obtain ⟨-, h0, -⟩ := h2 (by simpa using hlv)
    refine h0.2 ⟨rfl, .inl ⟨st, ?_⟩⟩
    obtain ⟨a, b, hset⟩ := readMode_eq (effectiveSettings s)
    have hcs : (Config.create (effectiveSettings s)).settings = (effectiveSettings s).readMode.2 := config_settings _
    have hmb : (Config.create (effectiveSettings s)).settings.maxBytes = (effectiveSettings s).maxBytes := by rw [hcs, hset]
    have hml : (Config.create (effectiveSettings s)).settings.maxLines = (effectiveSettings s).maxLines := by rw [hcs, hset]
    rw [hmb, hml, loop_play, playAll, readEvents_noRaise hio]
    simp only [bind_pure]
    exact hst

/-- Not vacuous: `a ESC[1m` in two chunks, text mode; 8 columns, binary mode. -/
example : (effectiveSettings {}).readMode.1 = .text ∧ PosCols { binary := true, columns := some 8 } (fun _ => 0) ∧
    Readable [⟨[97], 0, false⟩, ⟨[0x1b, 0x5b, 0x31, 0x6d], 1, false⟩, ⟨[], 5, true⟩] := by
  refine ⟨rfl, fun _ _ => (by show (0 : Int) < 8; decide), ?_⟩
  intro e he hb
  have := (anyBad_iff _).2 hb
  simp only [List.mem_cons, List.not_mem_nil, or_false] at he
  rcases he with rfl | rfl | rfl <;> exact absurd this (by decide)

end Kolombos
