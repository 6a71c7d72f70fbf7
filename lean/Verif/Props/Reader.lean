import Verif.Lemmas.Reader
/-
C36 - C39, C46: the reader and the exit status.
-/
set_option linter.unusedSimpArgs false

namespace Kolombos
open Reader

/-! ### C36, C37 -/

theorem delivered_eq (l : List ReadEvent) : delivered l = l.flatMap ReadEvent.data := by
  simp [delivered, List.flatMap]

/-- C36 and C37 together: whatever the chunks are, the data delivered is the
shorter one of the two parts of the input allowed by the limits (one is a prefix
of the other). -/
theorem C37_limits (mb ml : Option Nat) (io : List IoStep) (hio : NoRaise io) (pB pL : Bytes)
    (hB : UnderBytes mb (contentOf io) pB) (hL : UnderLines ml (contentOf io) pL) :
    ∃ evs, loop (optInt mb) (optInt ml) record io 0 0 [] = .pure evs ∧
      delivered evs = if pB.length ≤ pL.length then pB else pL := by
  refine ⟨(readEvents (optInt mb) (optInt ml) io 0 0).1, ?_, ?_⟩
  · rw [loop_record, readEvents_noRaise hio]; rfl
  rw [delivered_eq, readEvents_data mb ml io hio 0 0 (fun n h => limit_pos h) (fun n h => limit_pos h)]
  have hl : linesF ml 0 (contentOf io) = pL := by
    unfold linesF; unfold UnderLines at hL
    cases h : limit ml with
    | none => rw [h] at hL; exact hL.symm
    | some m =>
      rw [h] at hL
      simp only at hL ⊢
      refine beforeLf_unique (n := m) ?_ hL
      rcases cropLines_spec m (contentOf io) 0 (limit_pos h) with ⟨h1, h2⟩ | ⟨h1, h2⟩
      · left; rw [h1]; exact ⟨rfl, by omega⟩
      · right; exact ⟨h1, by omega⟩
  have hpre : pL <+: contentOf io := by
    unfold UnderLines at hL
    split at hL
    · rcases hL with ⟨h, -⟩ | ⟨h, -⟩
      · rw [h]; exact List.prefix_rfl
      · exact (List.prefix_append pL _).trans h
    · rw [hL]; exact List.prefix_rfl
  rw [hl]
  unfold bytesF; unfold UnderBytes at hB
  cases h : limit mb with
  | none =>
    rw [h] at hB
    simp only at hB ⊢
    subst hB
    split
    · exact hpre.eq_of_length_le (by assumption)
    · rfl
  | some n =>
    rw [h] at hB
    simp only [Nat.sub_zero] at hB ⊢
    subst hB
    obtain ⟨t, ht⟩ := hpre
    rw [← ht]
    simp only [List.length_take, List.length_append]
    by_cases hn : n ≤ pL.length
    · rw [if_pos (by omega), List.take_append_of_le_length hn]
    · rw [List.take_of_length_le (l := pL) (by omega)]
      split
      · rename_i hc
        have : t = [] := List.length_eq_zero_iff.1 (by omega)
        subst this
        rw [List.append_nil, List.take_of_length_le (by omega)]
      · rfl

/-- C36: a byte limit alone. -/
theorem C36_max_bytes (n : Nat) (hn : 0 < n) (io : List IoStep) (hio : NoRaise io) :
    ∃ evs, loop (some n) none record io 0 0 [] = .pure evs ∧ delivered evs = (contentOf io).take n := by
  obtain ⟨m, rfl⟩ : ∃ m, n = m + 1 := ⟨n - 1, by omega⟩
  obtain ⟨evs, h1, h2⟩ := C37_limits (some (m + 1)) none io hio ((contentOf io).take (m + 1)) (contentOf io) rfl rfl
  exact ⟨evs, h1, by rw [h2, if_pos (List.length_take_le' _ _)]⟩

/-- C37: a line limit alone. -/
theorem C37_max_lines (n : Nat) (hn : 0 < n) (io : List IoStep) (hio : NoRaise io) :
    ∃ evs, loop none (some n) record io 0 0 [] = .pure evs ∧ BeforeLf n (contentOf io) (delivered evs) := by
  obtain ⟨m, rfl⟩ : ∃ m, n = m + 1 := ⟨n - 1, by omega⟩
  have hp : BeforeLf (m + 1) (contentOf io) (cropLines (m + 1 : Nat) (contentOf io) 0).1 := by
    rcases cropLines_spec (m + 1) (contentOf io) 0 (by omega) with ⟨h1, h2⟩ | ⟨h1, h2⟩
    · left; rw [h1]; exact ⟨rfl, by omega⟩
    · right; exact ⟨h1, by omega⟩
  obtain ⟨evs, h1, h2⟩ := C37_limits none (some (m + 1)) io hio (contentOf io) _ rfl hp
  refine ⟨evs, h1, ?_⟩
  have : delivered evs = (cropLines (m + 1 : Nat) (contentOf io) 0).1 := by
    rw [h2]
    split
    · have hpre : (cropLines (m + 1 : Nat) (contentOf io) 0).1 <+: contentOf io := by
        rcases hp with ⟨h, -⟩ | ⟨h, -⟩
        · rw [h]; exact List.prefix_rfl
        · exact (List.prefix_append _ _).trans h
      exact (hpre.eq_of_length_le (by assumption)).symm
    · rfl
  rw [this]; exact hp

/-- `a\nb\nc` in chunks of 1, 3 and 1 bytes, at most 2 lines / 4 bytes. -/
def exampleIo : List IoStep := [.data [97], .data [10, 98, 10], .data [99]]

example : NoRaise exampleIo ∧ contentOf exampleIo = [97, 10, 98, 10, 99] ∧
    BeforeLf 2 (contentOf exampleIo) [97, 10, 98] ∧
    loop none (some 2) record exampleIo 0 0 [] = .pure [⟨[97], 0, false⟩, ⟨[10, 98], 1, false⟩, ⟨[], 3, true⟩] ∧
    loop (some 4) none record exampleIo 0 0 [] =
      .pure [⟨[97], 0, false⟩, ⟨[10, 98, 10], 1, false⟩, ⟨[], 4, true⟩] ∧
    loop (some 3) none record exampleIo 0 0 [] = .pure [⟨[97], 0, false⟩, ⟨[10, 98], 1, true⟩] := by
  refine ⟨?_, rfl, Or.inr ⟨⟨[99], rfl⟩, rfl⟩, rfl, rfl, rfl⟩
  intro e; simp [exampleIo]

/-! ### C38 -/

theorem readEvents_all (io : List IoStep) (offset lines : Nat) :
    (readEvents none none io offset lines).1.flatMap ReadEvent.data = contentOf io := by
  induction io generalizing offset lines with
  | nil => rfl
  | cons s io ih =>
    cases s with
    | raise e => rfl
    | data raw =>
      cases raw with
      | nil => rfl
      | cons b s =>
        rw [readEvents, if_neg (by simp)]
        simp only [limitLines, bytesExceeded, limitReached, Bool.false_eq_true, if_false, Bool.or_self, List.flatMap_cons]
        rw [ih]; rfl

/-- C38: for every input and limit there is one list of calls that any callback
receives (until it fails), followed by the exception if a read fails; the offsets
are the numbers of bytes delivered before; the last call and only that one is
marked as the end (none is if a read fails); without limits everything read is
delivered. -/
theorem C38_delivery (mb ml : Option Int) (io : List IoStep) :
    ∃ (evs : List ReadEvent) (err : Option Err),
      (∀ (σ : Type) (cb : σ → Bytes → Nat → Bool → Run σ) (st : σ),
        loop mb ml cb io 0 0 st = playAll cb (evs, err) st) ∧
      (∀ a e b, evs = a ++ e :: b → e.offset = (delivered a).length) ∧
      (err = none → ∃ a e, evs = a ++ [e] ∧ e.finish = true ∧ ∀ x ∈ a, x.finish = false) ∧
      (err ≠ none → ∀ x ∈ evs, x.finish = false) ∧
      (NoRaise io → err = none) ∧
      (mb = none → ml = none → delivered evs = contentOf io) := by
  refine ⟨(readEvents mb ml io 0 0).1, (readEvents mb ml io 0 0).2, ?_, ?_, ?_, ?_, ?_, ?_⟩
  · intro σ cb st; exact loop_play mb ml cb io 0 0 st
  · intro a e b h
    rw [(readEvents_shape mb ml io 0 0).off a e b h, delivered_eq]; omega
  · exact (readEvents_shape mb ml io 0 0).last
  · exact (readEvents_shape mb ml io 0 0).failed
  · intro h; exact readEvents_noRaise h 0 0
  · rintro rfl rfl; rw [delivered_eq, readEvents_all]

theorem contentOf_fileStepsAux (n : Nat) (hn : 0 < n) (k : Nat) (s : Bytes) (h : s.length ≤ k) :
    contentOf (fileStepsAux n k s) = s := by
  induction k generalizing s with
  | zero => rw [List.length_eq_zero_iff.1 (Nat.le_zero.1 h)]; rfl
  | succ k ih =>
    cases s with
    | nil => rfl
    | cons b s =>
      obtain ⟨m, rfl⟩ : ∃ m, n = m + 1 := ⟨n - 1, by omega⟩
      simp only [fileStepsAux, List.take_succ_cons, contentOf, List.drop_succ_cons]
      rw [ih _ (by simp at h ⊢; omega)]
      simp

/-- C38: a file read with any chunk size is delivered completely (the chunk
size is never 0: `--buffer 0` stands for the default). -/
theorem C38_file (buffer : Option Int) (debug : Nat) (s : Bytes) :
    ∃ evs, loop none none record (fileSteps (chunkSize buffer debug) s) 0 0 [] = .pure evs ∧
      delivered evs = s := by
  have hsz : chunkSize buffer debug ≠ 0 := by
    unfold chunkSize
    split
    · split
      · assumption
      · split <;> simp
    · split <;> simp
  have haux : ∀ n k t e, IoStep.raise e ∉ fileStepsAux n k t := by
    intro n k t e
    induction k generalizing t with
    | zero => simp [fileStepsAux]
    | succ k ih => cases t <;> simp [fileStepsAux, ih]
  have hc : contentOf (fileSteps (chunkSize buffer debug) s) = s := by
    unfold fileSteps
    split
    · cases s <;> simp [contentOf]
    · exact contentOf_fileStepsAux _ (by omega) _ _ (Nat.le_refl _)
  have hn : NoRaise (fileSteps (chunkSize buffer debug) s) := by
    intro e
    unfold fileSteps
    split
    · split <;> simp
    · exact haux _ _ _ _
  refine ⟨(readEvents none none (fileSteps (chunkSize buffer debug) s) 0 0).1, ?_, ?_⟩
  · rw [loop_record, readEvents_noRaise hn]; rfl
  · rw [delivered_eq, readEvents_all, hc]

example : fileSteps (chunkSize (some 2) 0) [1, 2, 3] = [.data [1, 2], .data [3]] ∧
    fileSteps (chunkSize (some (-1)) 0) [1, 2, 3] = [.data [1, 2, 3]] ∧ chunkSize (some 0) 1 = 128 := by decide

/-! ### C39 -/

/-- C39: once the input is open it is closed at the end, however the calls of
`playAll` (C38) end, unless a call of the callback does not return.  Only
`KeyboardInterrupt` is swallowed. -/
theorem C39_close {σ : Type} (mb ml : Option Int) (cb : σ → Bytes → Nat → Bool → Run σ) (io : List IoStep) (st : σ) :
    ∃ (evs : List ReadEvent) (err : Option Err),
      (∀ st', loop mb ml record io 0 0 [] = .pure st' → evs = st' ∧ err = none) ∧
      (Reader.read none mb ml cb io st).out = (playAll cb (evs, err) st).out ∧
      match (playAll cb (evs, err) st).res with
      | .ok st' => (Reader.read none mb ml cb io st).res = .ok (some st') ∧ (Reader.read none mb ml cb io st).closed = true
      | .err e => (Reader.read none mb ml cb io st).closed = true ∧
          (Reader.read none mb ml cb io st).res = if e = .keyboardInterrupt then .ok none else .err e
      | .timeout => (Reader.read none mb ml cb io st).res = .timeout := by
  refine ⟨(readEvents mb ml io 0 0).1, (readEvents mb ml io 0 0).2, ?_, ?_⟩
  · intro st' h
    rw [loop_record] at h
    cases he : (readEvents mb ml io 0 0).2 with
    | none =>
      rw [he] at h
      simp [Run.pure] at h
      exact ⟨h, rfl⟩
    | some e => rw [he] at h; simp [Run.pure, Run.fail] at h
  have := loop_play mb ml cb io 0 0 st
  unfold Reader.read
  simp only
  rw [this]
  generalize playAll cb (readEvents mb ml io 0 0) st = r
  obtain ⟨out, res⟩ := r
  cases res with
  | ok a => exact ⟨rfl, rfl, rfl⟩
  | err e => cases e <;> exact ⟨rfl, rfl, rfl⟩
  | timeout => exact ⟨rfl, rfl⟩

/-- A callback that fails at the second call. -/
def failingCb (n : Nat) (_ : Bytes) (_ : Nat) (_ : Bool) : Run Nat :=
  if n = 1 then .fail .valueError else .pure (n + 1)

example : (Reader.read none none none failingCb exampleIo 0).closed = true ∧
    (Reader.read none none none failingCb exampleIo 0).res = .err .valueError ∧
    (Reader.read none none none failingCb [.data [1], .raise .keyboardInterrupt] 0).res = .ok none ∧
    (Reader.read none none none failingCb [.raise .osError] 0).res = .err .osError := by decide

/-! ### C46 -/

/-- The settings with which the input is processed. -/
def effectiveSettings (s : Settings) : Settings :=
  if (debugSettings s).demo then demoSettings (debugSettings s) else debugSettings s

/-- C46: with neither `--legend` nor `--version` the exit status is 1 exactly if
the input cannot be opened or an error (not an interruption) occurs while reading
or processing; it is 0 exactly if the run ends normally or is interrupted; there
is none exactly if the run does not end.  With `--legend` or `--version` it is 0. -/
theorem C46_status (fuel : Nat) (s : Settings) (term : Nat → Int) (opened : Option Err)
    (io : List IoStep) (legend version : Str) :
    let r := loop (Config.create (effectiveSettings s)).settings.maxBytes (Config.create (effectiveSettings s)).settings.maxLines
      (processChunk fuel (Config.create (effectiveSettings s)) term) io 0 0 {}
    let x := (appRun fuel s term opened io legend version).status
    ((s.legend = true ∨ s.version = true) → x = some 0) ∧
    ((s.legend = false ∧ s.version = false) →
      (x = some 1 ↔ opened ≠ none ∨ ∃ e, r.res = .err e ∧ e ≠ .keyboardInterrupt) ∧
      (x = some 0 ↔ opened = none ∧ ((∃ st, r.res = .ok st) ∨ r.res = .err .keyboardInterrupt)) ∧
      (x = none ↔ opened = none ∧ r.res = .timeout)) := by
  have hleg : (debugSettings s).legend = s.legend := by
    unfold debugSettings Settings.readMode; repeat' split
    all_goals rfl
  have hver : (debugSettings s).version = s.version := by
    unfold debugSettings Settings.readMode; repeat' split
    all_goals rfl
  simp only
  refine ⟨?_, ?_⟩
  · intro h
    unfold appRun Runner.create
    simp only [hleg, hver]
    cases hl : s.legend with
    | true => rfl
    | false =>
      rw [hl] at h
      have : s.version = true := by simpa using h
      rw [this]; rfl
  rintro ⟨hl, hv⟩
  unfold appRun Runner.create effectiveSettings byteIoRun
  simp only [hleg, hver, hl, hv]
  cases hd : (debugSettings s).demo with
  | true =>
    simp only [Bool.false_eq_true, if_false, if_true]
    cases opened with
    | some e => simp [Reader.read]
    | none =>
      simp only [Reader.read]
      generalize loop _ _ _ io 0 0 ({} : State) = r
      obtain ⟨out, res⟩ := r
      cases res with
      | ok a => simp
      | err e => cases e <;> simp
      | timeout => simp
  | false =>
    simp only [Bool.false_eq_true, if_false, if_true]
    cases opened with
    | some e => simp [Reader.read]
    | none =>
      simp only [Reader.read]
      generalize loop _ _ _ io 0 0 ({} : State) = r
      obtain ⟨out, res⟩ := r
      cases res with
      | ok a => simp
      | err e => cases e <;> simp
      | timeout => simp

example : (appRun 9 {} (fun _ => 80) none [.data [65], .raise .keyboardInterrupt] [] []).status = some 0 ∧
    (appRun 9 {} (fun _ => 80) none [.data [65], .raise .osError] [] []).status = some 1 ∧
    (appRun 9 {} (fun _ => 80) none [.data [65]] [] []).status = some 0 ∧
    (appRun 9 {} (fun _ => 80) (some .osError) [.data [65]] [] []).status = some 1 := by decide +kernel

end Kolombos
