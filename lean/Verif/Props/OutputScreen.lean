import Verif.Lemmas.OutputLines
/-
C100, C101, C102: encodings of the output, interruption, and the separator.
-/
set_option linter.unusedSimpArgs false

namespace Kolombos
open Spec Debug

/-- A terminal with 80 columns and no files. -/
def sampleWorld (stdin : List IoStep) : World :=
  ⟨stdin, fun _ => .error .osError, [0x64, 0x0a], fun _ => 80, [], ['1'], ['2'], []⟩

def sampleDetails : Debug.Details := ⟨fun _ => 80, fun _ _ => [], fun _ => [], fun _ => true⟩

def ascii (c : Char) : Bool := c.toNat < 128

/-! ### C100: encodings -/

theorem takeWhile_fails {enc : Char → Bool} {n k : Nat} {ts : List Str} {t : Str} {e : Err} (h : FailsAt (encoded enc) n ts k t e) :
    ts.takeWhile (·.all enc) = ts.take k := by
  induction ts generalizing n k with
  | nil => exact absurd h.lt (by simp)
  | cons u ts ih =>
    cases k with
    | zero =>
      obtain ⟨rfl, h2⟩ := h.cons_zero
      have : u.all enc = false := by
        unfold encoded at h2
        cases hu : u.all enc with
        | false => rfl
        | true => rw [hu] at h2; cases h2
      rw [List.takeWhile_cons_of_neg (by rw [this]; simp)]
      rfl
    | succ k =>
      obtain ⟨h1, h2⟩ := h.cons_succ
      have : u.all enc = true := by
        unfold encoded at h1
        cases hu : u.all enc with
        | true => rfl
        | false => rw [hu] at h1; cases h1
      rw [List.takeWhile_cons_of_pos (p := fun x : Str => x.all enc) this, ih h2]
      rfl

/-- C100: with an output that knows some characters only the program prints its texts up to the first one that has another
character, and nothing else: not even the report of the error; the status is 1. -/
theorem C100_encoding (enc : Char → Bool) (fuel : Nat) (d : Debug.Details) (demoName : Str) (w : World) (s : Settings) (name : Option Str)
    (hl : s.legend = false) (hv : s.version = false) (hdm : s.demo = false) :
    let full := programOn takesAll fuel d demoName w s name
    let real := programOn (encoded enc) fuel d demoName w s name
    real.1.written = full.1.written.takeWhile (·.all enc) ∧
    real.2 = if full.1.written.all (·.all enc) then full.2 else some 1 := by
  intro full real
  have hr : Runner.create (debugSettings s) = .byteIo := by
    have : ∀ f : Settings → Bool, (∀ s : Settings, f s.readMode.2 = f s) → f (debugSettings s) = f s := by
      intro f hf
      unfold debugSettings
      split
      · exact hf s
      · rfl
    have e1 := this Settings.legend (fun s => by obtain ⟨a, b, e⟩ := readMode_eq s; rw [e])
    have e2 := this Settings.version (fun s => by obtain ⟨a, b, e⟩ := readMode_eq s; rw [e])
    have e3 := this Settings.demo (fun s => by obtain ⟨a, b, e⟩ := readMode_eq s; rw [e])
    unfold Runner.create
    simp [e1, e2, e3, hl, hv, hdm]
  rcases passes_or_fails (encoded enc) 0 full.1.written with h | ⟨k, t, e, h⟩
  · have ha : ∀ t ∈ full.1.written, t.all enc = true := by
      intro t ht
      obtain ⟨i, hi⟩ := List.mem_iff_getElem?.1 ht
      have := h i t hi
      unfold encoded at this
      cases hu : t.all enc with
      | true => rfl
      | false => rw [hu] at this; cases this
    have hall : full.1.written.all (·.all enc) = true := List.all_eq_true.2 ha
    have hreal : real = full := C100_usual _ _ _ _ _ _ _ h
    rw [hreal, hall, if_pos rfl]
    refine ⟨?_, rfl⟩
    have : ∀ l : List Str, (∀ t ∈ l, t.all enc = true) → l = l.takeWhile (·.all enc) := by
      intro l hl
      induction l with
      | nil => rfl
      | cons a l ih => rw [List.takeWhile_cons_of_pos (p := fun x : Str => x.all enc) (hl a (by simp)), ← ih fun t ht => hl t (by simp [ht])]
    exact this _ ha
  · have hv : e = .valueError ∧ t.all enc = false := by
      have := h.raised
      unfold encoded at this
      cases hu : t.all enc with
      | true => rw [hu] at this; cases this
      | false => rw [hu] at this; cases this; exact ⟨rfl, rfl⟩
    obtain ⟨rfl, ht⟩ := hv
    have hall : full.1.written.all (·.all enc) = false := by
      refine Bool.eq_false_iff.2 fun hh => ?_
      have := List.all_eq_true.1 hh t (List.mem_of_getElem? h.text)
      rw [ht] at this
      cases this
    rw [hall, takeWhile_fails h]
    simp only [Bool.false_eq_true, if_false]
    have hf : full.1.written = appTexts fuel d s name (Debug.source d demoName s name) w.term (w.open s name).1 (w.open s name).2
        (legendPrints w.legend) (versionPrints w.version w.pytermor) := by
      show (programOn takesAll fuel d demoName w s name).1.written = _
      unfold programOn
      rw [app_pass (dev := takesAll) _ _ _ _ _ _ _ _ _ _ (Passes.ok _ _)]
      simp [Out.add]
    rw [hf] at h ⊢
    show (programOn (encoded enc) fuel d demoName w s name).1.written = _ ∧ (programOn (encoded enc) fuel d demoName w s name).2 = _
    unfold programOn
    rcases app_fail _ _ _ _ _ _ _ _ _ _ h (by simp) with ⟨p, hp, e1⟩ | ⟨e1, e2⟩
    · rw [e1]
      have hp : p = some t := hp.resolve_right fun hh => hh.2 hr
      subst hp
      have := handle_stuck (dev := encoded enc) d s (e := .valueError) (e' := .valueError) (by simp)
        (o := ({} : Out).broken (appTexts fuel d s name (Debug.source d demoName s name) w.term (w.open s name).1 (w.open s name).2
          (legendPrints w.legend) (versionPrints w.version w.pytermor)) k (some t)) (t := t) rfl (by unfold encoded; rw [ht]; rfl)
      exact ⟨this.1, this.2⟩
    · exact ⟨e1, e2⟩

/-- C100: the claim that an error of the output is reported as other errors are, by a hint on the output, is false: an output that
knows the characters of the hint, but not all of the display. -/
theorem C100_negation : ¬ ∀ (enc : Char → Bool) (fuel : Nat) (d : Debug.Details) (demoName : Str) (w : World) (s : Settings) (name : Option Str),
    errorHint.all enc = true → (programOn (encoded enc) fuel d demoName w s name).2 = some 1 →
    errorHint ∈ (programOn (encoded enc) fuel d demoName w s name).1.written := by
  intro h
  have := h ascii 9 sampleDetails [] (sampleWorld [.data [0x61]]) {} none (by decide +kernel) (by decide +kernel)
  revert this
  decide +kernel

/-! ### C101: interruption -/

theorem interrupted_at {ts : List Str} {n k : Nat} (hn : n ≤ k) (hk : k < n + ts.length) :
    ∃ t, FailsAt (interruptAt k) n ts (k - n) t .keyboardInterrupt := by
  have hlt : k - n < ts.length := by omega
  refine ⟨ts[k - n], List.getElem?_eq_getElem hlt, ?_, ?_⟩
  · unfold interruptAt
    rw [if_pos (by omega)]
  · intro i u hi _
    unfold interruptAt
    rw [if_neg (by omega)]

theorem exit_later {k : Nat} {o : Out} (ho : k < o.calls) (code : Nat) : exitOn (interruptAt k) code o = (o.add [['\n']], some code) :=
  exit_pass code (by unfold interruptAt; rw [if_neg (by omega)])

/-- C101: if the program is interrupted while it displays the input, before the line number `k` (from 0) of the display, exactly
the `k` lines before it have been displayed, whole; then the program ends as usual, with the status 0. -/
theorem C101_interrupt (fuel : Nat) (d : Debug.Details) (demoName : Str) (hdn : ∀ c ∈ demoName, isControlChar c = false) (w : World)
    (s : Settings) (name : Option Str) (hd : s.debug = 0) (hl : s.legend = false) (hv : s.version = false) (ho : (w.open s name).1 = none)
    (hs : ∀ f, name = some f → f ≠ [] → f ≠ ['-'] → d.seekable f = true) (hn : ∀ f, name = some f → ∀ c ∈ f, isControlChar c = false)
    (hp : (effectiveSettings s).readMode.1 = .binary → PosCols (effectiveSettings s) w.term) :
    let display := (byteIoRun fuel (effectiveSettings s) w.term none (w.open s name).2).out
    ∀ k, k < (screenLines (appears display)).length →
      (programOn (interruptAt k) fuel d demoName w s name).2 = some 0 ∧
      ∃ shown : Str, shown <+: display ∧ screenLines (appears shown) = (screenLines (appears display)).take k ∧
        (programOn (interruptAt k) fuel d demoName w s name).1.written.flatten = shown ++ (if s.demo then demoHint else []) ++ ['\n'] := by
  intro display k hk
  have hsrc := source_seekable hs demoName s
  have hpl : (Debug.source d demoName s name).Plain := source_plain hdn hn
  unfold programOn appOn
  rw [ho]
  generalize Debug.source d demoName s name = src at hsrc hpl ⊢
  generalize hio : (w.open s name).2 = io
  rw [settingsEvents_quiet hd, debugSettings_quiet hd]
  have he : effectiveSettings s = if s.demo then demoSettings s else s := by
    unfold effectiveSettings; rw [debugSettings_quiet hd]
  -- the texts of the display
  have key : ∀ c : Settings, effectiveSettings s = c → c.debug = 0 →
      let ts := byteIoTexts fuel c src w.term (fun k => d.wide (k + 2)) none io
      (∀ t ∈ ts, OneLine t) ∧ ts.flatten = display := by
    intro c hc hcd ts
    subst hc
    have h1 := Debug.byteIoRun_lines fuel (effectiveSettings s) hpl hp (fun k => d.wide (k + 2)) none io
    have h2 : ts = printsOf 0 (Debug.byteIoRun fuel (effectiveSettings s) src w.term (fun k => d.wide (k + 2)) none io).evs := by
      show byteIoTexts _ _ _ _ _ _ _ = _
      rw [byteIoTexts_eq, hcd]
    rw [h2]
    refine ⟨fun t ht => mem_printsOf_quiet h1 ht, ?_⟩
    rw [printsOf_flatten, C65_quiet _ _ _ _ _ _ _ hsrc]
    show _ = (byteIoRun fuel (effectiveSettings s) w.term none (w.open s name).2).out
    rw [hio]
  have take : ∀ ts : List Str, (∀ t ∈ ts, OneLine t) → ts.flatten = display →
      k < ts.length ∧ (ts.take k).flatten <+: display ∧ screenLines (appears (ts.take k).flatten) = (screenLines (appears display)).take k := by
    intro ts h1 h2
    have e1 : ∀ us : List Str, (∀ t ∈ us, OneLine t) → screenLines (appears us.flatten) = us.map appears := by
      intro us hus
      obtain ⟨a1, a2⟩ := shows_writes hus
      rw [a1.appears, a2]
      rfl
    have e2 := e1 ts h1
    rw [h2] at e2
    rw [e2, List.length_map] at hk
    refine ⟨hk, ?_, ?_⟩
    · rw [← h2]
      exact ⟨(ts.drop k).flatten, by rw [← List.flatten_append, List.take_append_drop]⟩
    · rw [e1 _ fun t ht => h1 t (List.mem_of_mem_take ht), e2, List.map_take]
  simp only [printsOf, List.map_nil, List.filter_nil, Out.writes]
  unfold runnerOn Runner.create
  simp only [hl, hv, Bool.false_eq_true, if_false]
  cases hdm : s.demo with
  | false =>
    rw [hdm] at he
    simp only [Bool.false_eq_true, if_false] at he ⊢
    obtain ⟨k1, k2⟩ := key s he hd
    obtain ⟨t1, t2, t3⟩ := take _ k1 k2
    obtain ⟨t, ht⟩ := interrupted_at (ts := byteIoTexts fuel s src w.term (fun k => d.wide (k + 2)) none io) (n := 0) (Nat.zero_le k) (by omega)
    rw [byteIoOn_interrupted (o := {}) fuel s src w.term (fun k => d.wide (k + 2)) none io ht, byteIoHead_quiet hd, if_pos ⟨rfl, Nat.zero_le _⟩]
    simp only
    rw [exit_later (by simp [Out.broken])]
    refine ⟨rfl, _, t2, t3, ?_⟩
    simp [Out.add, Out.broken]
  | true =>
    rw [hdm] at he
    simp only [if_true] at he ⊢
    have hdd : (demoSettings s).debug = 0 := by rw [demoSettings_debug, hd]
    obtain ⟨k1, k2⟩ := key (demoSettings s) he hdd
    obtain ⟨t1, t2, t3⟩ := take _ k1 k2
    obtain ⟨t, ht⟩ := interrupted_at (ts := byteIoTexts fuel (demoSettings s) src w.term (fun k => d.wide (k + 2)) none io) (n := 0) (Nat.zero_le k) (by omega)
    rw [byteIoOn_interrupted (o := {}) fuel (demoSettings s) src w.term (fun k => d.wide (k + 2)) none io ht, byteIoHead_quiet hdd, if_pos ⟨rfl, Nat.zero_le _⟩]
    simp only
    rw [Out.prints_pass (ts := [demoHint]) (by
      rw [Passes.cons]
      exact ⟨by unfold interruptAt; rw [if_neg (by simp [Out.broken])], .nil _ _⟩)]
    simp only
    rw [exit_later (by simp [Out.broken, Out.add]; omega)]
    refine ⟨rfl, _, t2, t3, ?_⟩
    simp [Out.add, Out.broken]

/-! ### C102: the separator -/

/-- C102: if the encoding of the output does not know the separator `│`, and line numbers (text mode) or offsets (binary mode) are
shown, no line of the display is printed, and the status is 1. -/
theorem C102_separator (enc : Char → Bool) (henc : enc '│' = false) (fuel : Nat) (d : Debug.Details) (demoName : Str)
    (hdn : ∀ c ∈ demoName, isControlChar c = false) (w : World) (s : Settings) (name : Option Str)
    (hd : s.debug = 0) (hl : s.legend = false) (hv : s.version = false) (hdm : s.demo = false) (ho : (w.open s name).1 = none)
    (hs : ∀ f, name = some f → f ≠ [] → f ≠ ['-'] → d.seekable f = true) (hn : ∀ f, name = some f → ∀ c ∈ f, isControlChar c = false)
    (hnum : Numbered s) (hne : (byteIoRun fuel s w.term none (w.open s name).2).out ≠ []) :
    (programOn (encoded enc) fuel d demoName w s name).1.written = [] ∧ (programOn (encoded enc) fuel d demoName w s name).2 = some 1 := by
  obtain ⟨h1, h2⟩ := C100_encoding enc fuel d demoName w s name hl hv hdm
  have hf : (programOn takesAll fuel d demoName w s name).1.written = appTexts fuel d s name (Debug.source d demoName s name) w.term (w.open s name).1 (w.open s name).2
      (legendPrints w.legend) (versionPrints w.version w.pytermor) := by
    unfold programOn
    rw [app_pass (dev := takesAll) _ _ _ _ _ _ _ _ _ _ (Passes.ok _ _)]
    simp [Out.add]
  have hsrc := source_seekable hs demoName s
  have hpl : (Debug.source d demoName s name).Plain := source_plain hdn hn
  have hr : Runner.create s = .byteIo := by unfold Runner.create; simp [hl, hv, hdm]
  unfold appTexts at hf
  rw [ho, settingsEvents_quiet hd, debugSettings_quiet hd] at hf
  simp only [printsOf, List.map_nil, List.filter_nil, List.nil_append] at hf
  unfold runnerTexts at hf
  rw [hr] at hf
  simp only at hf
  generalize Debug.source d demoName s name = src at hsrc hpl hf
  generalize (w.open s name).2 = io at hne hf
  have e : byteIoTexts fuel s src w.term (fun k => d.wide (k + 2)) none io =
      printsOf 0 (Debug.byteIoRun fuel s src w.term (fun k => d.wide (k + 2)) none io).evs := by rw [byteIoTexts_eq, hd]
  have hsep : ∀ t ∈ byteIoTexts fuel s src w.term (fun k => d.wide (k + 2)) none io, '│' ∈ t := by
    intro t ht
    rw [e] at ht
    exact mem_printsOf_quiet (byteIoRun_separator fuel hnum hpl w.term _ none io) ht
  have hne' : byteIoTexts fuel s src w.term (fun k => d.wide (k + 2)) none io ≠ [] := by
    intro hh
    rw [e] at hh
    have := printsOf_flatten 0 (Debug.byteIoRun fuel s src w.term (fun k => d.wide (k + 2)) none io).evs
    rw [hh, C65_quiet _ _ _ _ _ _ _ hsrc] at this
    exact hne this.symm
  cases ht : byteIoTexts fuel s src w.term (fun k => d.wide (k + 2)) none io with
  | nil => exact absurd ht hne'
  | cons t ts =>
    have hb : t.all enc = false := by
      have := hsep t (by rw [ht]; simp)
      refine Bool.eq_false_iff.2 fun hh => ?_
      have := List.all_eq_true.1 hh _ this
      rw [henc] at this
      cases this
    rw [ht] at hf
    rw [hf] at h1 h2
    refine ⟨?_, ?_⟩
    · rw [h1, List.cons_append, List.takeWhile_cons_of_neg (by rw [hb]; simp)]
    · rw [h2, if_neg]
      intro hh
      have := List.all_eq_true.1 hh t (by simp)
      rw [hb] at this
      cases this

/-- C102: the claim that an input of ASCII characters is displayed on every output that knows these characters is false. -/
theorem C102_negation : ¬ ∀ (enc : Char → Bool) (fuel : Nat) (d : Debug.Details) (demoName : Str) (w : World) (s : Settings) (data : Bytes),
    (∀ c : Char, c.toNat < 128 → enc c = true) → w.stdin = [.data data] → (∀ b ∈ data, b.toNat < 128) → s.debug = 0 →
    (programOn takesAll fuel d demoName w s none).2 = some 0 → (programOn (encoded enc) fuel d demoName w s none).2 = some 0 := by
  intro h
  have := h ascii 9 sampleDetails [] (sampleWorld [.data [0x61]]) {} [0x61] (by intro c hc; simpa [ascii] using hc) rfl (by decide) rfl (by decide +kernel)
  revert this
  decide +kernel

/-- C102: if the output knows every character of the output of the program, the program runs as usual. -/
theorem C102_known_partial (enc : Char → Bool) (fuel : Nat) (d : Debug.Details) (demoName : Str) (w : World) (args : List Arg) (s : Settings) (name : Option Str)
    (hp : parseArgs args = .run s name) (ho : (w.open s name).1 ≠ some .keyboardInterrupt)
    (henc : (Debug.program fuel d demoName w args).out.all enc = true) :
    (programOn (encoded enc) fuel d demoName w s name).1.written.flatten = (Debug.program fuel d demoName w args).out ∧
    (programOn (encoded enc) fuel d demoName w s name).2 = (Debug.program fuel d demoName w args).status := by
  obtain ⟨h1, h2⟩ := C100_same fuel d demoName w args s name hp ho
  rw [C100_usual]
  · exact ⟨h1, h2⟩
  · intro i t ht
    unfold encoded
    rw [if_pos]
    refine List.all_eq_true.2 fun c hc => List.all_eq_true.1 henc c ?_
    rw [← h1]
    exact List.mem_flatten.2 ⟨t, List.mem_of_getElem? ht, hc⟩

/-! ### Examples -/

/-- C100: two lines, the second of which has a character unknown to the output. -/
example :
    let s : Settings := { noLineNumbers := true }
    let w := sampleWorld [.data [0x61, 0x62, 0x0a, 0xc3, 0xa9]]
    let full := programOn takesAll 9 sampleDetails [] w s none
    let real := programOn (encoded fun c => c.toNat < 128 || c == '↵') 9 sampleDetails [] w s none
    full.1.written.length = 3 ∧ full.2 = some 0 ∧ real.1.written = full.1.written.take 1 ∧ real.2 = some 1 := by decide +kernel

/-- C100: an output that fails once: the text is printed by the handler of the error, followed by the hint. -/
example :
    let w := sampleWorld [.data [0x61, 0x0a, 0x62]]
    let full := programOn takesAll 9 sampleDetails [] w {} none
    let dev : Device := fun k _ => if k = 1 then some .osError else none
    let real := programOn dev 9 sampleDetails [] w {} none
    FailsAt dev 0 full.1.written 1 (full.1.written[1]?.getD []) .osError ∧
    real.1.written = full.1.written.take 1 ++ [full.1.written[1]?.getD [], errorHint, ['\n']] ∧ real.2 = some 1 := by
  refine ⟨⟨by decide +kernel, by decide +kernel, ?_⟩, by decide +kernel, by decide +kernel⟩
  intro i u hi hu
  obtain rfl : i = 0 := by omega
  rfl

/-- C100: everything is written before the end of the pipe is closed. -/
example : Passes (fun k _ => if k < 3 then none else some .osError) 0
    ((programOn takesAll 9 sampleDetails [] (sampleWorld [.data [0x61, 0x0a, 0x62]]) {} none).1.written.take 3) ∧
    (programOn takesAll 9 sampleDetails [] (sampleWorld [.data [0x61, 0x0a, 0x62]]) {} none).1.written.length = 3 := by
  refine ⟨?_, by decide +kernel⟩
  intro i t ht
  have := (List.getElem?_eq_some_iff.1 ht).1
  rw [List.length_take] at this
  simp only
  rw [if_pos (by omega)]

/-- C101: two lines, interrupted before the second. -/
example :
    let w := sampleWorld [.data [0x61, 0x0a, 0x62]]
    let full := programOn takesAll 9 sampleDetails [] w {} none
    (screenLines (appears (byteIoRun 9 {} w.term none w.stdin).out)).length = 2 ∧
    (programOn (interruptAt 1) 9 sampleDetails [] w {} none).1.written = full.1.written.take 1 ++ [['\n']] ∧
    (programOn (interruptAt 1) 9 sampleDetails [] w {} none).2 = some 0 := by decide +kernel

/-- C101: with debug messages, before the input is read. -/
example : (programOn (interruptAt 0) 9 sampleDetails [] (sampleWorld [.data [0x61]]) { debug := 1 } none).2 = some 130 := by decide +kernel

/-- C102: a line with the separator. -/
example : Numbered {} ∧ (byteIoRun 9 {} (fun _ => 80) none [.data [0x61]]).out ≠ [] ∧ ascii '│' = false := by
  refine ⟨⟨by decide, by decide⟩, by decide +kernel, by decide⟩

/-- C102: without line numbers ASCII is enough. -/
example : (programOn (encoded ascii) 9 sampleDetails [] (sampleWorld [.data [0x61, 0x62]]) { noLineNumbers := true } none).2 = some 0 ∧
    ((Debug.program 9 sampleDetails [] (sampleWorld [.data [0x61, 0x62]]) [.flag .noLineNumbers]).out.all ascii) = true := by decide +kernel

end Kolombos
