import Verif.Props.HelpPage
import Verif.Props.Spelling
import Verif.Lemmas.Insert
import Verif.Spec.HelpClaims
/-
C96 - C99: what the help page tells about the options is so.
-/
set_option linter.unusedSimpArgs false
namespace Kolombos
open Spec

theorem pageWordsOf_eq (t : Bool) {c : Nat} (h : 22 ≤ c) : pageWordsOf (helpPage t c) = pageWordsOf (helpPage false 125) :=
  C91_words_partial t false h (by omega)

theorem pageHas_wide (t : Bool) {c : Nat} (h : 22 ≤ c) (x : Str) : PageHas (helpPage t c) x ↔ PageHas (helpPage false 125) x := by
  unfold PageHas
  rw [pageWordsOf_eq t h]

theorem defaultOnPage_wide (t : Bool) {c : Nat} (h : 22 ≤ c) (x : String) : defaultOnPage (helpPage t c) x = defaultOnPage (helpPage false 125) x := by
  unfold defaultOnPage saidAbout
  rw [pageWordsOf_eq t h]

theorem defaults_checked : defaultOnPage (helpPage false 125) "buffer" = some "4096".toList ∧
    defaultOnPage (helpPage false 125) "marker" = some "0".toList ∧ defaultOnPage (helpPage false 125) "max-lines" = none ∧
    defaultOnPage (helpPage false 125) "max-bytes" = none ∧ defaultOnPage (helpPage false 125) "columns" = some "auto".toList := by decide +kernel

instance (page x : Str) : Decidable (PageHas page x) := by unfold PageHas; infer_instance

/-! ### One more option -/

theorem open_congr {w : World} {s s' : Settings} (hd : s'.demo = s.demo)
    (hc : Reader.chunkSize s'.buffer s'.debug = Reader.chunkSize s.buffer s.debug) (name : Option Str) : w.open s' name = w.open s name := by
  unfold World.open
  rw [hd, hc]

theorem insert_flag {fuel : Nat} {w : World} {pre post : List Arg} (f : Flag) (hf : f ≠ .demo)
    (hex : ∀ b ∈ pre ++ post, ¬ Excludes (.flag f) b)
    (h : ∀ s, Asked (pre ++ post) s → ∃ m, Agree m (effectiveSettings s) (effectiveSettings (s.setFlag f)) ∧
      Runner.create (s.setFlag f) = Runner.create s) :
    program fuel w (pre ++ .flag f :: post) = program fuel w (pre ++ post) := by
  refine program_insert (by simp) (by simp) (by simp) hex fun s s' hs hs' name => ?_
  obtain rfl : s' = s.setFlag f := settings_ext hs' (asked_insert_flag hs f)
  obtain ⟨m, h1, h2⟩ := h s hs
  rw [open_congr (s := s) (by cases f <;> first | rfl | exact absurd rfl hf) (by cases f <;> rfl)]
  exact appRun_agree h1 h2 ..

theorem insert_int {fuel : Nat} {w : World} {pre post : List Arg} (p : IntOpt) (v : Int)
    (h : ∀ s, Asked (pre ++ post) s → ∃ m, Agree m (effectiveSettings s) (effectiveSettings (s.setInt ((lastInt p post).getD v) p)) ∧
      Runner.create (s.setInt ((lastInt p post).getD v) p) = Runner.create s ∧
      Reader.chunkSize (s.setInt ((lastInt p post).getD v) p).buffer s.debug = Reader.chunkSize s.buffer s.debug) :
    program fuel w (pre ++ .int p (some v) :: post) = program fuel w (pre ++ post) := by
  refine program_insert (by simp) (by simp) (by simp) (fun b _ g => ?_) fun s s' hs hs' name => ?_
  · have := g.clash.1
    simp [Kolombos.clash, Arg.group] at this
  obtain rfl := settings_ext hs' (asked_insert_int hs p v)
  obtain ⟨m, h1, h2, h3⟩ := h s hs
  rw [open_congr (s := s) (by cases p <;> rfl) (by
    have : (s.setInt ((lastInt p post).getD v) p).debug = s.debug := by cases p <;> rfl
    rw [this]; exact h3)]
  exact appRun_agree h1 h2 ..

theorem displayedIn_eq {args : List Arg} {s : Settings} (h : Asked args s) : runMode s = displayedIn args := by
  unfold runMode displayedIn
  simp only [h.binary, h.text, h.demo, h.debug]


/-! ### C96 -/

/-- C96: the default values on the page are those of the program: a number given for an option which is the
default that the page tells changes nothing (if no other number is given for the option).  That debugging
changes the default of `--buffer` is told in the remarks, see below. -/
theorem C96_default (t : Bool) {c : Nat} (hc : 22 ≤ c) {o : IntOpt} {v : Nat} (hv : defaultOnPage (helpPage t c) (numberName o).2 = some (Nat.toDigits 10 v))
    (fuel : Nat) (w : World) {pre post : List Arg} (hn : ∀ x, Arg.int o x ∉ pre ++ post) (hdb : o = .buffer → Arg.debug ∉ pre ++ post) :
    program fuel w (pre ++ .int o (some v) :: post) = program fuel w (pre ++ post) := by
  rw [defaultOnPage_wide t hc] at hv
  obtain ⟨d1, d2, d3, d4, d5⟩ := defaults_checked
  have hl : lastInt o (pre ++ post) = none := lastInt_none hn
  have hp : lastInt o post = none := lastInt_none fun x hx => hn x (by simp [hx])
  refine insert_int o v fun s hs => ?_
  rw [hp, Option.getD_none]
  have key : ∀ {n : Nat} {x : String}, some x.toList = some (Nat.toDigits 10 v) → x.toList = Nat.toDigits 10 n → v = n := by
    intro n x h1 h2
    rw [h2] at h1
    exact (dec_inj (Option.some.inj h1)).symm
  cases o with
  | buffer =>
    obtain rfl : v = 4096 := key (d1.symm.trans hv) (by decide +kernel)
    refine ⟨_, effective_agree hs.mode hs.mode rfl ⟨rfl, rfl, rfl, rfl, rfl, rfl⟩ (fun _ => ⟨rfl, rfl, rfl⟩) fun _ => ⟨rfl, rfl, rfl, rfl⟩, rfl, ?_⟩
    have h0 : s.debug = 0 := by rw [hs.debug]; exact List.count_eq_zero.2 (hdb rfl)
    rw [h0, hs.buffer, hl]
    rfl
  | marker =>
    obtain rfl : v = 0 := key (d2.symm.trans hv) (by decide +kernel)
    have h0 : s.marker = 0 := by rw [hs.marker, hl]; rfl
    exact ⟨_, effective_agree hs.mode hs.mode rfl ⟨rfl, rfl, rfl, rfl, rfl, rfl⟩ (fun _ => ⟨h0.symm, rfl, rfl⟩) fun _ => ⟨rfl, rfl, rfl, rfl⟩, rfl, rfl⟩
  | maxLines => exact absurd (d3.symm.trans hv) (by simp)
  | maxBytes => exact absurd (d4.symm.trans hv) (by simp)
  | columns =>
    have h1 := Option.some.inj (d5.symm.trans hv)
    have h2 : 'a' ∈ dec v := by
      show 'a' ∈ Nat.toDigits 10 v
      rw [← h1]
      decide
    exact absurd (dec_digit h2) (by decide)

/-- The values told: 4096 bytes for `--buffer` and 0 for `--marker`; no number for `--columns`. -/
theorem C96_told (t : Bool) {c : Nat} (hc : 22 ≤ c) :
    defaultOnPage (helpPage t c) "buffer" = some "4096".toList ∧ defaultOnPage (helpPage t c) "marker" = some "0".toList ∧
    defaultOnPage (helpPage t c) "columns" = some "auto".toList := by
  rw [defaultOnPage_wide t hc, defaultOnPage_wide t hc, defaultOnPage_wide t hc]
  exact ⟨defaults_checked.1, defaults_checked.2.1, defaults_checked.2.2.2.2⟩

/-- The remark about debugging: `--buffer` then has another default. -/
theorem C96_debug (t : Bool) {c : Nat} (hc : 22 ≤ c) : ∃ v : Nat,
    PageHas (helpPage t c) (chars% "debug mode sets --buffer setting to " ++ Nat.toDigits 10 v ++ chars% " bytes") ∧
    ∀ (fuel : Nat) (w : World) {pre post : List Arg}, (∀ x, Arg.int .buffer x ∉ pre ++ post) → Arg.debug ∈ pre ++ post →
      program fuel w (pre ++ .int .buffer (some v) :: post) = program fuel w (pre ++ post) := by
  refine ⟨128, (pageHas_wide t hc _).2 (by decide +kernel), fun fuel w pre post hn hdb => insert_int _ _ fun s hs => ?_⟩
  have hl : lastInt .buffer (pre ++ post) = none := lastInt_none hn
  have hp : lastInt .buffer post = none := lastInt_none fun x hx => hn x (by simp [hx])
  rw [hp, Option.getD_none]
  refine ⟨_, effective_agree hs.mode hs.mode rfl ⟨rfl, rfl, rfl, rfl, rfl, rfl⟩ (fun _ => ⟨rfl, rfl, rfl⟩) fun _ => ⟨rfl, rfl, rfl, rfl⟩, rfl, ?_⟩
  have h0 : s.debug > 0 := by rw [hs.debug]; exact List.count_pos_iff.2 hdb
  rw [hs.buffer, hl]
  show Reader.chunkSize (some 128) s.debug = Reader.chunkSize none s.debug
  simp [Reader.chunkSize, h0]

/-- The default of the mode. -/
theorem C96_text (t : Bool) {c : Nat} (hc : 22 ≤ c) :
    PageHas (helpPage t c) (chars% "-t, --text open file in text mode [this is a default]") ∧
    ∀ (fuel : Nat) (w : World) {pre post : List Arg}, Arg.flag .demo ∉ pre ++ post → (∀ b ∈ pre ++ post, ¬ Excludes (.flag .text) b) →
      program fuel w (pre ++ .flag .text :: post) = program fuel w (pre ++ post) := by
  refine ⟨(pageHas_wide t hc _).2 (by decide +kernel), fun fuel w pre post hd hex => insert_flag .text (by simp) hex fun s hs => ?_⟩
  have hb : s.binary = false := by
    cases h : s.binary with
    | false => rfl
    | true => exact absurd .textBinary (hex _ (hs.binary.1 h))
  have hd : s.demo = false := by
    cases h : s.demo with
    | false => rfl
    | true => exact absurd (hs.demo.1 h) hd
  refine ⟨_, effective_agree hs.mode hs.mode ?_ ⟨rfl, rfl, rfl, rfl, rfl, rfl⟩ (fun _ => ⟨rfl, rfl, rfl⟩) fun _ => ⟨rfl, rfl, rfl, rfl⟩, rfl⟩
  simp [runMode, Settings.setFlag, hb, hd]

/-! ### C97 -/

theorem optionsUnder_wide (t : Bool) {c : Nat} (h : 22 ≤ c) (x : Str) : optionsUnder (helpPage t c) x = optionsUnder (helpPage false 125) x := by
  unfold optionsUnder
  rw [pageWordsOf_eq t h]

theorem under_checked : optionsUnder (helpPage false 125) (titleOf .text) = ["--marker".toList, "--no-separators".toList, "--no-line-numbers".toList] ∧
    optionsUnder (helpPage false 125) (titleOf .binary) =
      ["--columns".toList, "--decode".toList, "--decimal-offsets".toList, "--no-offsets".toList] := by decide +kernel

/-- The options for a mode are those that the page lists under the title of the mode. -/
theorem C97_listed (t : Bool) {c : Nat} (hc : 22 ≤ c) (m : ReadMode) (a : Arg) (ha : ∀ o, a ≠ .int o none) :
    OptionOf m a ↔ longNameOf a ∈ optionsUnder (helpPage t c) (titleOf m) := by
  rw [optionsUnder_wide t hc]
  obtain ⟨h1, h2⟩ := under_checked
  constructor
  · intro h
    cases h <;> simp only [h1, h2, longNameOf] <;> decide
  · intro h
    cases m with
    | text =>
      rw [h1] at h
      cases a with
      | int o v =>
        cases v with
        | none => exact absurd rfl (ha o)
        | some v => cases o <;> first | exact .marker v | exact absurd h (by simp only [longNameOf]; decide)
      | flag f =>
        cases f with
        | noSeparators => exact .noSeparators
        | noLineNumbers => exact .noLineNumbers
        | focus c => cases c <;> exact absurd h (by decide)
        | ignore c => cases c <;> exact absurd h (by decide)
        | _ => exact absurd h (by decide)
      | file n => exact absurd h (by simp only [longNameOf, switchName]; decide)
      | _ => exact absurd h (by decide)
    | binary =>
      rw [h2] at h
      cases a with
      | int o v =>
        cases v with
        | none => exact absurd rfl (ha o)
        | some v => cases o <;> first | exact .columns v | exact absurd h (by simp only [longNameOf]; decide)
      | flag f =>
        cases f with
        | decode => exact .decode
        | decimalOffsets => exact .decimalOffsets
        | noOffsets => exact .noOffsets
        | focus c => cases c <;> exact absurd h (by decide)
        | ignore c => cases c <;> exact absurd h (by decide)
        | _ => exact absurd h (by decide)
      | file n => exact absurd h (by simp only [longNameOf, switchName]; decide)
      | _ => exact absurd h (by decide)

/-- C97: an option that the page lists for one of the modes changes nothing in the other mode (unless there is
an option which excludes it). -/
theorem C97_other {m : ReadMode} {a : Arg} (ha : OptionOf m a) (fuel : Nat) (w : World) {pre post : List Arg}
    (hm : displayedIn (pre ++ post) ≠ m) (hex : ∀ b ∈ pre ++ post, ¬ Excludes a b) :
    program fuel w (pre ++ a :: post) = program fuel w (pre ++ post) := by
  cases ha with
  | marker v =>
    refine insert_int _ v fun s hs => ?_
    exact ⟨_, effective_agree hs.mode hs.mode rfl ⟨rfl, rfl, rfl, rfl, rfl, rfl⟩ (fun e => absurd ((displayedIn_eq hs).symm.trans e) hm)
      fun _ => ⟨rfl, rfl, rfl, rfl⟩, rfl, rfl⟩
  | columns v =>
    refine insert_int _ v fun s hs => ?_
    exact ⟨_, effective_agree hs.mode hs.mode rfl ⟨rfl, rfl, rfl, rfl, rfl, rfl⟩ (fun _ => ⟨rfl, rfl, rfl⟩)
      (fun e => absurd ((displayedIn_eq hs).symm.trans e) hm), rfl, rfl⟩
  | noSeparators =>
    refine insert_flag _ (by simp) hex fun s hs => ?_
    exact ⟨_, effective_agree hs.mode hs.mode rfl ⟨rfl, rfl, rfl, rfl, rfl, rfl⟩ (fun e => absurd ((displayedIn_eq hs).symm.trans e) hm)
      fun _ => ⟨rfl, rfl, rfl, rfl⟩, rfl⟩
  | noLineNumbers =>
    refine insert_flag _ (by simp) hex fun s hs => ?_
    exact ⟨_, effective_agree hs.mode hs.mode rfl ⟨rfl, rfl, rfl, rfl, rfl, rfl⟩ (fun e => absurd ((displayedIn_eq hs).symm.trans e) hm)
      fun _ => ⟨rfl, rfl, rfl, rfl⟩, rfl⟩
  | decode =>
    refine insert_flag _ (by simp) hex fun s hs => ?_
    exact ⟨_, effective_agree hs.mode hs.mode rfl ⟨rfl, rfl, rfl, rfl, rfl, rfl⟩ (fun _ => ⟨rfl, rfl, rfl⟩)
      (fun e => absurd ((displayedIn_eq hs).symm.trans e) hm), rfl⟩
  | decimalOffsets =>
    refine insert_flag _ (by simp) hex fun s hs => ?_
    exact ⟨_, effective_agree hs.mode hs.mode rfl ⟨rfl, rfl, rfl, rfl, rfl, rfl⟩ (fun _ => ⟨rfl, rfl, rfl⟩)
      (fun e => absurd ((displayedIn_eq hs).symm.trans e) hm), rfl⟩
  | noOffsets =>
    refine insert_flag _ (by simp) hex fun s hs => ?_
    exact ⟨_, effective_agree hs.mode hs.mode rfl ⟨rfl, rfl, rfl, rfl, rfl, rfl⟩ (fun _ => ⟨rfl, rfl, rfl⟩)
      (fun e => absurd ((displayedIn_eq hs).symm.trans e) hm), rfl⟩

/-- The remark about `--marker` on the page. -/
theorem C97_marker (t : Bool) {c : Nat} (hc : 22 ≤ c) :
    PageHas (helpPage t c) (chars% "Binary mode disables --marker setting,") ∧
    ∀ (v : Int) (fuel : Nat) (w : World) {pre post : List Arg}, Arg.flag .binary ∈ pre ++ post →
      program fuel w (pre ++ .int .marker (some v) :: post) = program fuel w (pre ++ post) := by
  refine ⟨(pageHas_wide t hc _).2 (by decide +kernel), fun v fuel w pre post hb => ?_⟩
  refine C97_other (.marker v) fuel w ?_ ?_
  · unfold displayedIn
    rw [if_pos hb]
    simp
  · intro b _ g
    have := g.clash.1
    simp [Kolombos.clash, Arg.group] at this

/-! ### C98 -/

/-- The program has been asked to show examples: `-b` (or `-t`) is given, or there are fewer than four `-D`. -/
theorem demo_binary {s : Settings} (hd : s.demo = true) (ht : s.text = false) (h4 : s.debug < 4) : runMode s = .binary := by
  simp [runMode, hd, ht, h4]

/-- C98: what the page says about the demonstration, `implies -b, -d and -w16 (can be overriden)`: these options
change nothing if `--demo` is given, unless another mode or another number of columns is asked for; but there must be fewer
than four `-D`. -/
theorem C98_demo_partial (t : Bool) {c : Nat} (hc : 22 ≤ c) :
    PageHas (helpPage t c) (chars% "Demo mode effectively fixes <filename> to a preset path for the current run, as well as implies -b, -d and -w16 (can be overriden).") ∧
    ∀ (fuel : Nat) (w : World) {pre post : List Arg}, Arg.flag .demo ∈ pre ++ post →
      ((pre ++ post).count .debug < 4 → (∀ b ∈ pre ++ post, ¬ Excludes (.flag .binary) b) →
        program fuel w (pre ++ .flag .binary :: post) = program fuel w (pre ++ post)) ∧
      program fuel w (pre ++ .flag .decode :: post) = program fuel w (pre ++ post) ∧
      ((∀ x, Arg.int .columns x ∉ pre ++ post) →
        program fuel w (pre ++ .int .columns (some 16) :: post) = program fuel w (pre ++ post)) := by
  refine ⟨(pageHas_wide t hc _).2 (by decide +kernel), fun fuel w pre post hd => ⟨fun h4 hex => ?_, ?_, fun hn => ?_⟩⟩
  · refine insert_flag _ (by simp) hex fun s hs => ?_
    have ht : s.text = false := by
      cases h : s.text with
      | false => rfl
      | true => exact absurd (Excludes.symm .textBinary) (hex _ (hs.text.1 h))
    have hm := demo_binary (hs.demo.2 hd) ht (by rw [hs.debug]; exact h4)
    exact ⟨_, effective_agree hs.mode hs.mode (by rw [hm]; simp [runMode, Settings.setFlag]) ⟨rfl, rfl, rfl, rfl, rfl, rfl⟩ (fun _ => ⟨rfl, rfl, rfl⟩)
      fun _ => ⟨rfl, rfl, rfl, rfl⟩, rfl⟩
  · refine insert_flag _ (by simp) ?_ fun s hs => ?_
    · intro b _ g
      have := g.clash.1
      simp [Kolombos.clash, Arg.group, Flag.group] at this
    · refine ⟨_, effective_agree hs.mode hs.mode rfl ⟨rfl, rfl, rfl, rfl, rfl, rfl⟩ (fun _ => ⟨rfl, rfl, rfl⟩) fun _ => ⟨rfl, ?_, rfl, rfl⟩, rfl⟩
      have : s.decode.getD true = true := by rw [hs.decode]; split <;> rfl
      show (if s.demo = true then some ((some true).getD true) else some true) = _
      rw [if_pos (hs.demo.2 hd), if_pos (hs.demo.2 hd), this]
      rfl
  · have hl : lastInt .columns (pre ++ post) = none := lastInt_none hn
    have hp : lastInt .columns post = none := lastInt_none fun x hx => hn x (by simp [hx])
    refine insert_int _ _ fun s hs => ?_
    rw [hp, Option.getD_none]
    refine ⟨_, effective_agree hs.mode hs.mode rfl ⟨rfl, rfl, rfl, rfl, rfl, rfl⟩ (fun _ => ⟨rfl, rfl, rfl⟩) fun _ => ⟨?_, rfl, rfl, rfl⟩, rfl, rfl⟩
    show (if s.demo = true then some ((some (16 : Int)).getD 16) else some 16) = _
    rw [if_pos (hs.demo.2 hd), if_pos (hs.demo.2 hd), hs.columns, hl]
    rfl

/-- Whatever `--demo` shows, it does not depend on the file system and the standard input. -/
theorem C98_preset (fuel : Nat) (w : World) {args : List Arg} (hd : Arg.flag .demo ∈ args) (stdin : List IoStep) (file : Str → Except Err Bytes) :
    program fuel { w with stdin := stdin, file := file } args = program fuel w args := by
  unfold program
  by_cases hh : Arg.help ∈ args
  · obtain ⟨p, q, rfl, hp⟩ := first_help hh
    have h1 := C55_help p q hp
    by_cases hf : (∀ o, Arg.int o none ∉ p) ∧ ∀ a ∈ p, ∀ b ∈ p, ¬ Excludes a b
    · rw [h1.1 hf]
    · rw [h1.2 hf]
  · by_cases hw : WellFormed args
    · obtain ⟨s, e1, e2⟩ := (C55_settings _ hh).1 hw
      have : s.demo = true := e2.demo.2 hd
      rw [e1]
      simp only [World.open, this, if_true]
    · rw [(C55_settings _ hh).2 hw]

/-- A world in which the bundled file has one letter. -/
def letterWorld : World :=
  { stdin := [], file := fun _ => .error .osError, demo := [0x41], term := fun _ => 80, legend := [], version := [], pytermor := [], help := [] }

/-- With four `-D` the demonstration is in text mode, so `-b` is not implied. -/
theorem C98_negation : ¬ ∀ (fuel : Nat) (w : World) (pre post : List Arg), Arg.flag .demo ∈ pre ++ post →
    (∀ b ∈ pre ++ post, ¬ Excludes (.flag .binary) b) →
    program fuel w (pre ++ .flag .binary :: post) = program fuel w (pre ++ post) := by
  intro h
  have h1 := h 5 letterWorld [.flag .demo, .debug, .debug, .debug, .debug] [] (by simp) (by
    intro b hb g
    have := g.clash.1
    revert hb
    simp only [List.append_nil, List.mem_cons, List.not_mem_nil, or_false]
    rintro (rfl | rfl | rfl | rfl | rfl) <;> revert this <;> decide)
  have h2 : (program 5 letterWorld ([.flag .demo, .debug, .debug, .debug, .debug] ++ .flag .binary :: [])).out ≠
      (program 5 letterWorld ([.flag .demo, .debug, .debug, .debug, .debug] ++ [])).out := by decide +kernel
  exact h2 (congrArg Exit.out h1)

/-- The page says that a file is ignored if `--demo` is present; but the program refuses this. -/
theorem C98_negation_file (t : Bool) {c : Nat} (hc : 22 ≤ c) :
    PageHas (helpPage t c) (chars% "<file> file to read from; if empty or \"-\", read stdin instead; ignored if --demo is present") ∧
    ¬ ∀ (fuel : Nat) (w : World) (pre post : List Arg) (n : Str), Arg.flag .demo ∈ pre ++ post →
      program fuel w (pre ++ .file n :: post) = program fuel w (pre ++ post) := by
  refine ⟨(pageHas_wide t hc _).2 (by decide +kernel), fun h => ?_⟩
  have h1 := h 5 letterWorld [.flag .demo] [] ['f'] (by simp)
  have h2 : (program 5 letterWorld ([.flag .demo] ++ .file ['f'] :: [])).status ≠ (program 5 letterWorld ([.flag .demo] ++ [])).status := by
    decide +kernel
  exact h2 (congrArg Exit.status h1)

/-! ### C99 -/

/-- The command on a line. -/
def commandOn (l : Str) : Option (List Str) :=
  match words (uncoloured false l) with
  | [] => none
  | p :: r => if p = ['k', 'o', 'l', 'o', 'm', 'b', 'o', 's'] ∧ ∀ w ∈ r, '<' ∉ w ∧ '[' ∉ w then some r else none

theorem commandsOn_eq (page : Str) : commandsOn page = (linesOf page).filterMap commandOn := by
  unfold commandsOn
  rw [List.filterMap_map]
  rfl

theorem commandOn_none {l : Str} (h : ['k', 'o', 'l', 'o', 'm', 'b', 'o', 's'] ∉ bareWords l) : commandOn l = none := by
  unfold commandOn
  cases hw : words (uncoloured false l) with
  | nil => rfl
  | cons p r =>
    refine if_neg fun hp => h ?_
    unfold bareWords shownWords
    rw [hw, hp.1]
    exact List.mem_cons.2 (.inl (by decide))

theorem groups_kept {tty : Bool} {w : Nat} (hw : 20 ≤ w) :
    Kept (helpGroups.flatMap fun g => [] :: groupLines tty w g)
      (helpGroups.flatMap fun g => bareWords (formatHeader g.1 ++ [':']) ++
        g.2.flatMap fun e => bareWords (invocation e) ++ (entryWords tty e).flatMap bareWords) := by
  refine Kept.flatMap _ _ fun g hg => ?_
  have ht := List.all_eq_true.1 words_checked g hg
  simp only [Bool.and_eq_true] at ht
  have h0 : Kept [[], formatHeader g.1 ++ [':']] (bareWords (formatHeader g.1 ++ [':'])) := by
    have := Kept.of_check (L := [[], formatHeader g.1 ++ [':']]) (by
      simp only [List.all_cons, List.all_nil, Bool.and_true, Bool.and_eq_true]
      exact ⟨by decide, ht.1⟩)
    rw [List.flatMap_cons, List.flatMap_singleton, bareWords_nil] at this
    exact this
  have h1 := Kept.flatMap (fun e => entryLines (helpPosition w) (invocation e) (entryGroups tty w e))
    (fun e => bareWords (invocation e) ++ (entryWords tty e).flatMap bareWords) (l := g.2) fun e he => entryLines_kept hw hg he
  exact h0.append h1

/-- The name of the program is not among the words about the options. -/
theorem noName_checked (tty : Bool) : ['k', 'o', 'l', 'o', 'm', 'b', 'o', 's'] ∉ (helpGroups.flatMap fun g => bareWords (formatHeader g.1 ++ [':']) ++
    g.2.flatMap fun e => bareWords (invocation e) ++ (entryWords tty e).flatMap bareWords) := by
  cases tty <;> decide +kernel

theorem fixed_commands (tty : Bool) :
    (headLines.map dropEndColon).filterMap commandOn ++ ((endLines tty true).map dropEndColon).filterMap commandOn =
      documented.map fun x => x.2.1.map String.toList := by
  cases tty <;> decide +kernel

/-- C99: the commands on the page are these. -/
theorem C99_commands (t : Bool) {c : Nat} (hc : 22 ≤ c) : commandsOn (helpPage t c) = documented.map fun x => x.2.1.map String.toList := by
  rw [commandsOn_eq, helpPage_linesOf t hc]
  unfold pageLines
  have hk := groups_kept (tty := t) (w := c - 2) (by omega)
  have h0 : (((helpGroups.flatMap fun g => [] :: groupLines t (c - 2) g)).map dropEndColon).filterMap commandOn = [] := by
    rw [List.filterMap_eq_nil_iff]
    intro l hl
    refine commandOn_none fun hm => noName_checked t ?_
    rw [← hk.2]
    exact List.mem_flatMap.2 ⟨l, hl, hm⟩
  rw [List.map_append, List.map_append, List.filterMap_append, List.filterMap_append, h0, List.append_nil]
  exact fixed_commands t

theorem documented_wellFormed : ∀ x ∈ documented, WellFormed x.2.2 := by
  have hall : ∀ x ∈ documented, (∀ a ∈ x.2.2, ∀ b ∈ x.2.2, clash a b = false) ∧ (fileNames x.2.2).length ≤ 1 ∧
      ∀ o ∈ [IntOpt.buffer, .maxLines, .maxBytes, .marker, .columns], Arg.int o none ∉ x.2.2 := by decide +kernel
  intro x hx
  obtain ⟨h1, h2, h3⟩ := hall x hx
  refine ⟨fun o => h3 o (by cases o <;> simp), fun a ha b hb g => ?_, h2⟩
  have := g.clash.1
  rw [h1 a ha b hb] at this
  cases this

theorem documented_spelled {digit : Char → Bool} {toInt : Str → Option Int} (hi : ∀ n : Nat, toInt (Nat.toDigits 10 n) = some n) :
    ∀ x ∈ documented, Spelled digit toInt (x.2.1.map String.toList) x.2.2 := by
  have n2 : toInt ['2'] = some 2 := hi 2
  have n32 : toInt ['3', '2'] = some 32 := hi 32
  have n128 : toInt ['1', '2', '8'] = some 128 := hi 128
  have hl : Spelled digit toInt ["--legend".toList] [.flag .legend] :=
    .long "legend".toList (.flag .legend) ⟨by decide, by decide +kernel⟩ (by decide) .nil
  intro x hx
  simp only [documented, List.mem_cons, List.not_mem_nil, or_false] at hx
  rcases hx with rfl | rfl | rfl | rfl | rfl | rfl | rfl | rfl
  · exact hl
  · exact .long "version".toList (.flag .version) ⟨by decide, by decide +kernel⟩ (by decide) .nil
  · exact .long "help".toList .help ⟨by decide, by decide +kernel⟩ (by decide) .nil
  · refine .long "focus-esc".toList (.flag (.focus .escapeSeq)) ⟨by decide, by decide +kernel⟩ (by decide) ?_
    rw [← n2]
    exact .lettersValue [] [] .marker '2' [] trivial (.file "file.txt".toList (.inl (by decide)) .nil)
  · refine .long "binary".toList (.flag .binary) ⟨by decide, by decide +kernel⟩ (by decide) ?_
    exact .letters "USP".toList [.flag (.ignore .utf8Seq), .flag (.ignore .whitespace), .flag (.ignore .printableChar)] ⟨rfl, rfl, rfl, trivial⟩ (by decide)
      (.file "file.bin".toList (.inl (by decide)) .nil)
  · refine .long "binary".toList (.flag .binary) ⟨by decide, by decide +kernel⟩ (by decide) ?_
    refine .long "focus-control".toList (.flag (.focus .controlChar)) ⟨by decide, by decide +kernel⟩ (by decide) ?_
    rw [← n128]
    exact .lettersValue [] [] .maxBytes '1' ['2', '8'] trivial .nil
  · rw [← n32]
    refine .lettersValue [] [] .columns '3' ['2'] trivial ?_
    refine .long "decimal-offsets".toList (.flag .decimalOffsets) ⟨by decide, by decide +kernel⟩ (by decide) ?_
    exact .long "demo".toList (.flag .demo) ⟨by decide, by decide +kernel⟩ (by decide) .nil
  · exact hl

/-- The program accepts each of them and does what it says. -/
theorem C99_accepted {digit : Char → Bool} (hd : Figures digit) {toInt : Str → Option Int} (hi : ∀ n : Nat, toInt (Nat.toDigits 10 n) = some n)
    (fuel : Nat) (w : World) {said : String} {ws : List String} {as : List Arg} (h : (said, ws, as) ∈ documented) :
    WellFormed as ∧ programOf digit toInt fuel w (ws.map String.toList) = program fuel w as :=
  ⟨documented_wellFormed _ h, C90_program hd (documented_spelled hi _ h) fuel w⟩

theorem said_checked : (documented.all fun x =>
    decide (PageHas (helpPage false 125) (x.1.toList ++ ' ' :: join [' '] (("kolombos" :: x.2.1).map String.toList)) ∧
      ("text mode".toList <:+: x.1.toList → displayedIn x.2.2 = .text) ∧ ("binary mode".toList <:+: x.1.toList → displayedIn x.2.2 = .binary))) = true := by
  decide +kernel

/-- What the page says above the command, the command itself; and the mode that it says is the one used. -/
theorem C99_said (t : Bool) {c : Nat} (hc : 22 ≤ c) {said : String} {ws : List String} {as : List Arg} (h : (said, ws, as) ∈ documented) :
    PageHas (helpPage t c) (said.toList ++ ' ' :: join [' '] (("kolombos" :: ws).map String.toList)) ∧
    ("text mode".toList <:+: said.toList → displayedIn as = .text) ∧ ("binary mode".toList <:+: said.toList → displayedIn as = .binary) := by
  rw [pageHas_wide t hc]
  have := List.all_eq_true.1 said_checked _ h
  simp only [decide_eq_true_eq] at this
  exact this

/-! ### Examples -/

/-- The number is the one on the page, given together with `--binary`. -/
example (fuel : Nat) (w : World) : program fuel w [.flag .binary, .int .buffer (some 4096), .file ['f']] = program fuel w [.flag .binary, .file ['f']] :=
  C96_default true (c := 80) (by omega) (o := .buffer) (v := 4096) ((C96_told true (by omega)).1.trans (by decide +kernel)) fuel w (pre := [.flag .binary]) (post := [.file ['f']])
    (by simp) (by simp)

example (fuel : Nat) (w : World) : program fuel w [.flag .noSeparators, .flag .binary, .int .marker (some 2), .int .marker (some 1), .file ['f']] =
    program fuel w [.flag .noSeparators, .flag .binary, .int .marker (some 1), .file ['f']] :=
  C97_other (.marker 2) fuel w (pre := [.flag .noSeparators, .flag .binary]) (post := [.int .marker (some 1), .file ['f']]) (by decide)
    fun b _ g => by
      have := g.clash.1
      simp [Kolombos.clash, Arg.group] at this

/-- The option matters in its own mode. -/
example : (program 5 letterWorld [.flag .demo]).out ≠ (program 5 letterWorld [.flag .demo, .flag .noOffsets]).out ∧
    (program 5 letterWorld [.flag .demo, .flag .text]).out ≠ (program 5 letterWorld [.flag .demo, .flag .text, .flag .noLineNumbers]).out ∧
    (program 5 letterWorld [.flag .demo, .flag .text]).out = (program 5 letterWorld [.flag .demo, .flag .text, .flag .noOffsets]).out := by
  decide +kernel

example : PageHas (helpPage true 80) (chars% "kolombos -w32 --decimal-offsets --demo") := by
  rw [pageHas_wide _ (by omega)]
  decide +kernel

/-- Numbers read digit by digit meet the condition. -/
example (fuel : Nat) (w : World) :
    programOf asciiDigit (fun s => (readDigits 10 0 s).map Int.ofNat) fuel w ["-w32".toList, "--decimal-offsets".toList, "--demo".toList] =
      program fuel w [.int .columns (some 32), .flag .decimalOffsets, .flag .demo] :=
  (C99_accepted asciiDigit_figures (fun n => by simp [readDigits_toDigits]) fuel w (said := "Show demo in binary mode, 32 bytes per line, with decimal offsets")
    (ws := ["-w32", "--decimal-offsets", "--demo"]) (by simp [documented])).2

end Kolombos
