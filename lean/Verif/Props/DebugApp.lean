import Verif.Props.SettingsTable
/-
C88, C89: the whole program with its debug output.
-/
set_option linter.unusedSimpArgs false

namespace Kolombos
open Spec

/-! ### The command line -/

/-- The program goes on only for a well-formed command line without `--help`, with the settings it
asks for. -/
theorem parsed_run {args : List Arg} {s : Settings} {f : Option Str} (h : parseArgs args = .run s f) :
    .help ∉ args ∧ WellFormed args ∧ Asked args s ∧ f = (fileNames args).head? := by
  have hh : .help ∉ args := by
    intro hm
    obtain ⟨pre, post, rfl, hp⟩ := List.eq_append_cons_of_mem hm
    have := C55_help pre post hp
    by_cases hc : (∀ o, Arg.int o none ∉ pre) ∧ (∀ a ∈ pre, ∀ b ∈ pre, ¬ Excludes a b)
    · rw [this.1 hc] at h; cases h
    · rw [this.2 hc] at h; cases h
  obtain ⟨h1, h2⟩ := C55_settings args hh
  by_cases hw : WellFormed args
  · obtain ⟨t, e1, e2⟩ := h1 hw
    rw [e1] at h
    cases h
    exact ⟨hh, hw, e2, rfl⟩
  · rw [h2 hw] at h; cases h

/-! ### C88: the table comes first -/

theorem appRun_table (fuel : Nat) (d : Debug.Details) (s : Settings) (file : Option Str) (src : Debug.Source) (term : Nat → Int) (opened : Option Err)
    (io : List IoStep) (legend version : Str) :
    ∃ evs, (Debug.appRun fuel d s file src term opened io legend version).1 = settingsEvents s file d.methodRepr d.wide ++ evs := by
  unfold Debug.appRun
  simp only
  split
  · exact ⟨_, rfl⟩
  · exact ⟨_, rfl⟩
  · split
    · exact ⟨_, List.append_assoc _ _ _⟩
    · exact ⟨_, List.append_assoc _ _ _⟩
    · exact ⟨_, rfl⟩
  · split
    · exact ⟨_, List.append_assoc _ _ _⟩
    · exact ⟨_, List.append_assoc _ _ _⟩
    · exact ⟨_, rfl⟩

theorem stdoutOf_append (debug : Nat) (a b : List Ev) : stdoutOf debug (a ++ b) = stdoutOf debug a ++ stdoutOf debug b := by
  simp [stdoutOf]

theorem appears_append {a : Str} {v : List (Char × Spec.Style)} (h : Shows {} a {} v) (b : Str) : appears (a ++ b) = v ++ appears b := by
  show (Term.run ⟨.ground, {}⟩ (a ++ b)).2 = _
  rw [term_append, h.run]
  rfl

/-- C88 for the program: with `-DDD` the first thing on the screen is the table of the settings that the
command line asks for. -/
theorem C88_program (fuel : Nat) (d : Debug.Details) (demoName : Str) (w : World) (args : List Arg) (hw : WellFormed args) (hh : .help ∉ args)
    (s : Settings) (hs : Asked args s) (hd : args.count .debug = 3) (hf : ∀ f ∈ fileNames args, '\x1b' ∉ f) :
    ∃ rest, appears (Debug.program fuel d demoName w args).out = tableView s (fileNames args).head? (d.wide 0) (d.wide 1) ++ appears rest := by
  obtain ⟨t, e1, e2⟩ := (C55_settings args hh).1 hw
  have := settings_ext e2 hs
  subst this
  unfold Debug.program
  rw [e1]
  simp only
  obtain ⟨evs, he⟩ := appRun_table fuel d t (fileNames args).head? (Debug.source d demoName t (fileNames args).head?) w.term
    (w.open t (fileNames args).head?).1 (w.open t (fileNames args).head?).2 (legendText w.legend) (versionText w.version w.pytermor)
  rw [he, stdoutOf_append, settings_stdout]
  exact ⟨_, appears_append (table_shows (hs.debug.trans hd) (fun f e => hf f (List.mem_of_mem_head? (by rw [e]; rfl))) _ _) _⟩

/-- C88 for the program, `-D` four times or more. -/
theorem C88_program_derived (fuel : Nat) (d : Debug.Details) (demoName : Str) (w : World) (args : List Arg) (hw : WellFormed args) (hh : .help ∉ args)
    (s : Settings) (hs : Asked args s) (hd : args.count .debug ≥ 4) (hf : ∀ f ∈ fileNames args, '\x1b' ∉ f) (hr : ∀ t f, '\x1b' ∉ d.methodRepr t f) :
    ∃ a b rest, appears (Debug.program fuel d demoName w args).out = fullTableView s (fileNames args).head? a b (d.wide 0) (d.wide 1) ++ appears rest := by
  obtain ⟨t, e1, e2⟩ := (C55_settings args hh).1 hw
  have := settings_ext e2 hs
  subst this
  unfold Debug.program
  rw [e1]
  simp only
  obtain ⟨evs, he⟩ := appRun_table fuel d t (fileNames args).head? (Debug.source d demoName t (fileNames args).head?) w.term
    (w.open t (fileNames args).head?).1 (w.open t (fileNames args).head?).2 (legendText w.legend) (versionText w.version w.pytermor)
  rw [he, stdoutOf_append, settings_stdout]
  exact ⟨_, _, _, appears_append (fullTable_shows (by rw [hs.debug]; exact hd) hs.mode (fun f e => hf f (List.mem_of_mem_head? (by rw [e]; rfl))) hr _) _⟩

/-! ### C89: the program with and without messages -/

theorem source_seekable {d : Debug.Details} {name : Option Str} (h : ∀ n, name = some n → n ≠ [] → n ≠ ['-'] → d.seekable n = true)
    (demoName : Str) (s : Settings) : ∀ n, Debug.source d demoName s name ≠ .file n false := by
  intro n
  unfold Debug.source
  split
  · simp
  · cases name with
    | none => simp
    | some m =>
      simp only
      by_cases hm : m = [] ∨ m = ['-']
      · rw [if_pos hm]; simp
      · rw [if_neg hm]
        rw [not_or] at hm
        rw [h m rfl hm.1 hm.2]; simp

theorem args_seekable {d : Debug.Details} {args : List Arg} (hk : ∀ n ∈ fileNames args, n ≠ [] → n ≠ ['-'] → d.seekable n = true) :
    ∀ n, (fileNames args).head? = some n → n ≠ [] → n ≠ ['-'] → d.seekable n = true :=
  fun n e => hk n (List.mem_of_mem_head? (by rw [e]; rfl))

theorem debugAppRun_status (fuel : Nat) (d : Debug.Details) (s : Settings) (file : Option Str) (src : Debug.Source) (hk : ∀ n, src ≠ .file n false)
    (term : Nat → Int) (opened : Option Err) (io : List IoStep) (legend version : Str) :
    (Debug.appRun fuel d s file src term opened io legend version).2 = (appRun fuel s term opened io legend version).status := by
  unfold Debug.appRun appRun
  simp only
  cases Runner.create (debugSettings s) with
  | legend => rfl
  | version => rfl
  | demo =>
    simp only
    rw [(Debug.byteIoRun_erases fuel _ src hk term _ opened io).2]
    cases (byteIoRun fuel (demoSettings (debugSettings s)) term opened io).res <;> rfl
  | byteIo =>
    simp only
    rw [(Debug.byteIoRun_erases fuel _ src hk term _ opened io).2]
    cases (byteIoRun fuel (debugSettings s) term opened io).res <;> rfl

/-- C89: the messages do not change how the program ends. -/
theorem C89_status (fuel : Nat) (d : Debug.Details) (demoName : Str) (w : World) (args : List Arg)
    (hk : ∀ n ∈ fileNames args, n ≠ [] → n ≠ ['-'] → d.seekable n = true) :
    (Debug.program fuel d demoName w args).status = (program fuel w args).status := by
  unfold Debug.program program
  cases hp : parseArgs args with
  | help => rfl
  | usage => rfl
  | run s name =>
    obtain ⟨-, -, -, rfl⟩ := parsed_run hp
    exact debugAppRun_status _ _ _ _ _ (source_seekable (args_seekable hk) _ _) _ _ _ _ _

/-- C89: without `-D` there are no messages, whatever the command line is. -/
theorem C89_quiet (fuel : Nat) (d : Debug.Details) (demoName : Str) (w : World) (args : List Arg)
    (hk : ∀ n ∈ fileNames args, n ≠ [] → n ≠ ['-'] → d.seekable n = true) (hd : .debug ∉ args) :
    Debug.program fuel d demoName w args = program fuel w args := by
  have hst := C89_status fuel d demoName w args hk
  have hout : (Debug.program fuel d demoName w args).out = (program fuel w args).out := by
    unfold Debug.program program
    cases hp : parseArgs args with
    | help => rfl
    | usage => rfl
    | run s name =>
      have hdeb : s.debug = 0 := by
        rw [(parsed_run hp).2.2.1.debug, List.count_eq_zero]; exact hd
      have hk' := source_seekable (name := name) (by rw [(parsed_run hp).2.2.2]; exact args_seekable hk) demoName s
      have hds : debugSettings s = s := by unfold debugSettings; rw [if_neg (by omega)]
      simp only
      generalize Debug.source d demoName s name = src at hk'
      generalize (w.open s name).1 = opened
      generalize (w.open s name).2 = io
      unfold Debug.appRun appRun settingsEvents settingsTable
      simp only [hds, hdeb]
      rw [if_neg (by omega)]
      simp only [List.map_nil, List.nil_append]
      have one : ∀ t : Str, stdoutOf 0 [.out t] = t := by intro t; simp [stdoutOf, Ev.printed]
      have two : ∀ t u : Str, stdoutOf 0 [.out t, .out u] = t ++ u := by intro t u; simp [stdoutOf, Ev.printed]
      have oe : ∀ t, Debug.onException s t = errorHint := by intro t; unfold Debug.onException; rw [if_neg (by omega)]
      cases Runner.create s with
      | legend => exact two _ _
      | version => exact two _ _
      | demo =>
        simp only
        rw [← C65_quiet fuel (demoSettings s) src w.term (fun k => d.wide (k + 2)) opened io hk', ← (Debug.byteIoRun_erases fuel _ src hk' w.term (fun k => d.wide (k + 2)) opened io).2]
        cases (Debug.byteIoRun fuel (demoSettings s) src w.term (fun k => d.wide (k + 2)) opened io).res <;>
          simp only [stdoutOf_append, two, oe, List.append_assoc]
      | byteIo =>
        simp only
        rw [← C65_quiet fuel s src w.term (fun k => d.wide (k + 2)) opened io hk', ← (Debug.byteIoRun_erases fuel _ src hk' w.term (fun k => d.wide (k + 2)) opened io).2]
        cases (Debug.byteIoRun fuel s src w.term (fun k => d.wide (k + 2)) opened io).res <;>
          simp only [stdoutOf_append, one, two, oe, List.append_assoc]
  revert hst hout
  cases Debug.program fuel d demoName w args
  cases program fuel w args
  simp only
  rintro rfl rfl
  rfl

/-! #### The display among the messages -/

theorem screenLines_ends (st : Style) (r : List (Char × Style)) : ∀ v : List (Char × Style),
    screenLines (v ++ ('\n', st) :: r) = screenLines (v ++ [('\n', st)]) ++ screenLines r := by
  intro v
  induction v with
  | nil => simp [screenLines]
  | cons x v ih =>
    rw [List.cons_append, List.cons_append, screenLines, screenLines]
    by_cases hx : x.1 = '\n'
    · rw [if_pos hx, if_pos hx, ih]; rfl
    · rw [if_neg hx, if_neg hx, ih]
      cases h : screenLines (v ++ [('\n', st)]) with
      | nil =>
        exfalso
        cases v with
        | nil => simp [screenLines] at h
        | cons y v =>
          rw [List.cons_append, screenLines] at h
          split at h
          · cases h
          · split at h <;> cases h
      | cons l ls => rfl

/-- Some text of whole lines, which leaves no style. -/
def WholeLines (t : Str) : Prop := ∃ v, Shows {} t {} v ∧ (v = [] ∨ ∃ u st, v = u ++ [('\n', st)])

theorem WholeLines.append_lines {t : Str} (h : WholeLines t) (u : Str) :
    screenLines (appears (t ++ u)) = screenLines (appears t) ++ screenLines (appears u) := by
  obtain ⟨v, h1, h2⟩ := h
  rw [appears_append h1, h1.appears]
  rcases h2 with rfl | ⟨w, st, rfl⟩
  · rfl
  · rw [List.append_assoc]
    exact screenLines_ends st _ w

theorem WholeLines.writes {l : List Str} (h : ∀ t ∈ l, OneLine t) : WholeLines l.flatten := by
  induction l with
  | nil => exact ⟨[], .nil _, .inl rfl⟩
  | cons t l ih =>
    obtain ⟨v, st, h1, -⟩ := h t (by simp)
    obtain ⟨w, g1, g2⟩ := ih fun t ht => h t (by simp [ht])
    refine ⟨_, h1.append g1, .inr ?_⟩
    rcases g2 with rfl | ⟨u, st', rfl⟩
    · exact ⟨v, st, by simp⟩
    · exact ⟨v ++ [('\n', st)] ++ u, st', by simp⟩

theorem table_whole {args : List Arg} {s : Settings} (hs : Asked args s) {file : Option Str} (hf : ∀ f, file = some f → '\x1b' ∉ f)
    {d : Debug.Details} (hr : ∀ t f, '\x1b' ∉ d.methodRepr t f) :
    WholeLines (stdoutOf s.debug (settingsEvents s file d.methodRepr d.wide)) := by
  rw [settings_stdout]
  by_cases h3 : s.debug < 3
  · refine ⟨[], ?_, .inl rfl⟩
    unfold settingsTable
    rw [if_neg (by omega)]
    exact .nil _
  · by_cases h4 : s.debug = 3
    · refine ⟨_, table_shows h4 hf _ _, .inr ⟨?_, ?_, ?_⟩⟩
      rotate_left 2
      · unfold tableView bottomLine
        rw [← List.append_assoc, show inStyle {} ['\n'] = [('\n', {})] from rfl]
    · refine ⟨_, fullTable_shows (by omega) hs.mode hf hr _, .inr ⟨?_, ?_, ?_⟩⟩
      rotate_left 2
      · unfold fullTableView bottomLine
        rw [← List.append_assoc, show inStyle {} ['\n'] = [('\n', {})] from rfl]

/-- The two outputs, part by part. -/
theorem outputs (fuel : Nat) (d : Debug.Details) (hr : ∀ t f, '\x1b' ∉ d.methodRepr t f)
    (demoName : Str) (hdn : ∀ c ∈ demoName, isControlChar c = false) (w : World) (args : List Arg)
    (hk : ∀ n ∈ fileNames args, n ≠ [] → n ≠ ['-'] → d.seekable n = true)
    (hn : ∀ f ∈ fileNames args, ∀ c ∈ f, isControlChar c = false)
    (hp : ∀ s, Asked args s → (effectiveSettings s).readMode.1 = .binary → PosCols (effectiveSettings s) w.term) :
    ∃ display shown tail tail', (program fuel w args).out = display ++ tail ∧
      (screenLines (appears display)).Sublist (screenLines (appears shown)) ∧
      WholeLines display ∧ WholeLines shown ∧
      (Debug.program fuel d demoName w args).out = shown ++ tail' ∧
      ((program fuel w args).status ≠ some 1 → tail' = tail) ∧
      ((program fuel w args).status = some 1 → tail = errorHint ++ ['\n'] ∧
        (.debug ∈ args → ∃ e, tail' = span [31] (d.trace e) ++ ['\n', '\n'])) := by
  have empty : WholeLines [] := ⟨[], .nil _, .inl rfl⟩
  unfold Debug.program program
  cases hparse : parseArgs args with
  | help => exact ⟨[], [], _, _, rfl, .refl _, empty, empty, rfl, fun _ => rfl, fun h => absurd h (by simp)⟩
  | usage => exact ⟨[], [], _, _, rfl, .refl _, empty, empty, rfl, fun _ => rfl, fun h => absurd h (by simp)⟩
  | run s name =>
    obtain ⟨-, -, hs, rfl⟩ := parsed_run hparse
    have hname : ∀ f, (fileNames args).head? = some f → ∀ c ∈ f, isControlChar c = false := fun f e =>
      hn f (List.mem_of_mem_head? (by rw [e]; rfl))
    have ht := table_whole (d := d) hs (fun f e => plain_noEsc (hname f e)) hr
    have hk' := source_seekable (args_seekable hk) demoName s
    have hpl : (Debug.source d demoName s (fileNames args).head?).Plain := by
      unfold Debug.source
      split
      · exact hdn
      · cases hh : (fileNames args).head? with
        | none => trivial
        | some f =>
          simp only
          split
          · trivial
          · exact hname f hh
    simp only
    generalize Debug.source d demoName s (fileNames args).head? = src at hk' hpl
    generalize (w.open s (fileNames args).head?).1 = opened
    generalize (w.open s (fileNames args).head?).2 = io
    have hp' := hp s hs
    unfold effectiveSettings at hp'
    have run : ∀ c : Settings, (c.readMode.1 = .binary → PosCols c w.term) →
        let E := stdoutOf s.debug (Debug.byteIoRun fuel c src w.term (fun k => d.wide (k + 2)) opened io).evs
        WholeLines (byteIoRun fuel c w.term opened io).out ∧
        WholeLines (stdoutOf s.debug (settingsEvents s (fileNames args).head? d.methodRepr d.wide) ++ E) ∧
        (screenLines (appears (byteIoRun fuel c w.term opened io).out)).Sublist
          (screenLines (appears (stdoutOf s.debug (settingsEvents s (fileNames args).head? d.methodRepr d.wide) ++ E))) := by
      intro c hc E
      have hl := Debug.byteIoRun_lines fuel c hpl hc (fun k => d.wide (k + 2)) opened io
      have h1 := printedTexts_oneLine (debug := s.debug) hl
      have h2 := fun t ht => h1 t ((outTexts_sublist s.debug _).subset ht)
      have hsub := display_sublist hl s.debug
      rw [(Debug.byteIoRun_erases fuel c src hk' w.term (fun k => d.wide (k + 2)) opened io).1] at hsub
      have w1 := WholeLines.writes h2
      rw [← outsOf_flatten, (Debug.byteIoRun_erases fuel c src hk' w.term (fun k => d.wide (k + 2)) opened io).1] at w1
      have w2 := WholeLines.writes h1
      rw [← stdoutOf_flatten] at w2
      refine ⟨w1, ?_, ?_⟩
      · obtain ⟨v, a1, a2⟩ := ht
        obtain ⟨u, b1, b2⟩ := w2
        refine ⟨_, a1.append b1, ?_⟩
        rcases b2 with rfl | ⟨x, st, rfl⟩
        · rw [List.append_nil]; exact a2
        · exact .inr ⟨v ++ x, st, by simp⟩
      · rw [ht.append_lines]
        exact hsub.trans (List.sublist_append_right _ _)
    have trace : .debug ∈ args → ∀ e, Debug.onException (debugSettings s) (d.trace e) ++ ['\n'] = span [31] (d.trace e) ++ ['\n', '\n'] := by
      intro hd e
      have h0 : (debugSettings s).debug > 0 := by
        have : (debugSettings s).debug = s.debug := by unfold debugSettings; split <;> [(unfold Settings.readMode; split <;> [rfl; (split <;> rfl)]); rfl]
        rw [this, hs.debug]
        exact List.count_pos_iff.2 hd
      unfold Debug.onException
      rw [if_pos h0]
      simp
    unfold Debug.appRun appRun
    simp only
    have two : ∀ t u : Str, stdoutOf s.debug [.out t, .out u] = t ++ u := by intro t u; simp [stdoutOf, Ev.printed]
    have one : ∀ t : Str, stdoutOf s.debug [.out t] = t := by intro t; simp [stdoutOf, Ev.printed]
    cases hrun : Runner.create (debugSettings s) with
    | legend =>
      simp only [stdoutOf_append, two]
      exact ⟨[], _, _, _, rfl, List.nil_sublist _, empty, ht, rfl, fun _ => rfl, fun h => absurd h (by simp)⟩
    | version =>
      simp only [stdoutOf_append, two]
      exact ⟨[], _, _, _, rfl, List.nil_sublist _, empty, ht, rfl, fun _ => rfl, fun h => absurd h (by simp)⟩
    | demo =>
      have hdemo : (debugSettings s).demo = true := by
        unfold Runner.create at hrun
        split at hrun
        · cases hrun
        · split at hrun
          · cases hrun
          · split at hrun
            · assumption
            · cases hrun
      rw [if_pos hdemo] at hp'
      obtain ⟨r1, r2, r3⟩ := run _ hp'
      simp only
      rw [← (Debug.byteIoRun_erases fuel _ src hk' w.term (fun k => d.wide (k + 2)) opened io).2]
      cases (Debug.byteIoRun fuel (demoSettings (debugSettings s)) src w.term (fun k => d.wide (k + 2)) opened io).res with
      | ok a =>
        simp only [stdoutOf_append, two]
        exact ⟨_, _, demoHint ++ ['\n'], _, List.append_assoc _ _ _, r3, r1, r2, rfl, fun _ => rfl, fun h => absurd h (by simp)⟩
      | err e =>
        simp only [stdoutOf_append, two]
        exact ⟨_, _, errorHint ++ ['\n'], _, List.append_assoc _ _ _, r3, r1, r2, rfl, fun h => absurd rfl h, fun _ => ⟨rfl, fun hd => ⟨e, trace hd e⟩⟩⟩
      | timeout =>
        simp only [stdoutOf_append]
        exact ⟨_, _, [], [], (List.append_nil _).symm, r3, r1, r2, (List.append_nil _).symm, fun _ => rfl, fun h => absurd h (by simp)⟩
    | byteIo =>
      have hdemo : ¬ (debugSettings s).demo = true := by
        unfold Runner.create at hrun
        split at hrun
        · cases hrun
        · split at hrun
          · cases hrun
          · split at hrun
            · cases hrun
            · assumption
      rw [if_neg hdemo] at hp'
      obtain ⟨r1, r2, r3⟩ := run _ hp'
      simp only
      rw [← (Debug.byteIoRun_erases fuel _ src hk' w.term (fun k => d.wide (k + 2)) opened io).2]
      cases (Debug.byteIoRun fuel (debugSettings s) src w.term (fun k => d.wide (k + 2)) opened io).res with
      | ok a =>
        simp only [stdoutOf_append, one]
        exact ⟨_, _, ['\n'], _, rfl, r3, r1, r2, rfl, fun _ => rfl, fun h => absurd h (by simp)⟩
      | err e =>
        simp only [stdoutOf_append, two]
        exact ⟨_, _, errorHint ++ ['\n'], _, List.append_assoc _ _ _, r3, r1, r2, rfl, fun h => absurd rfl h, fun _ => ⟨rfl, fun hd => ⟨e, trace hd e⟩⟩⟩
      | timeout =>
        simp only [stdoutOf_append]
        exact ⟨_, _, [], [], (List.append_nil _).symm, r3, r1, r2, (List.append_nil _).symm, fun _ => rfl, fun h => absurd h (by simp)⟩

/-- C89: unless the program fails, every line it shows without the messages is there with them, whole,
in its colours and in its order.  (Names without control characters; in binary mode there is room for
at least one column.) -/
theorem C89_display (fuel : Nat) (d : Debug.Details) (hr : ∀ t f, '\x1b' ∉ d.methodRepr t f)
    (demoName : Str) (hdn : ∀ c ∈ demoName, isControlChar c = false) (w : World) (args : List Arg)
    (hk : ∀ n ∈ fileNames args, n ≠ [] → n ≠ ['-'] → d.seekable n = true)
    (hn : ∀ f ∈ fileNames args, ∀ c ∈ f, isControlChar c = false)
    (hp : ∀ s, Asked args s → (effectiveSettings s).readMode.1 = .binary → PosCols (effectiveSettings s) w.term)
    (hst : (program fuel w args).status ≠ some 1) :
    (screenLines (appears (program fuel w args).out)).Sublist (screenLines (appears (Debug.program fuel d demoName w args).out)) := by
  obtain ⟨a, b, t, t', e1, e2, w1, w2, e3, e4, -⟩ := outputs fuel d hr demoName hdn w args hk hn hp
  rw [e1, e3, e4 hst, w1.append_lines, w2.append_lines]
  exact e2.append (.refl _)

/-- C89: if the program fails, the lines it has shown so far are there; only the hint to use `-D` is
replaced. -/
theorem C89_failure (fuel : Nat) (d : Debug.Details) (hr : ∀ t f, '\x1b' ∉ d.methodRepr t f)
    (demoName : Str) (hdn : ∀ c ∈ demoName, isControlChar c = false) (w : World) (args : List Arg)
    (hk : ∀ n ∈ fileNames args, n ≠ [] → n ≠ ['-'] → d.seekable n = true)
    (hn : ∀ f ∈ fileNames args, ∀ c ∈ f, isControlChar c = false)
    (hp : ∀ s, Asked args s → (effectiveSettings s).readMode.1 = .binary → PosCols (effectiveSettings s) w.term)
    (hst : (program fuel w args).status = some 1) :
    ∃ shown hint, (program fuel w args).out = shown ++ hint ∧ visible hint = "Run the app with '--debug' argument to see the details\n\n".toList ∧
      (screenLines (appears shown)).Sublist (screenLines (appears (Debug.program fuel d demoName w args).out)) := by
  obtain ⟨a, b, t, t', e1, e2, w1, w2, e3, -, e5⟩ := outputs fuel d hr demoName hdn w args hk hn hp
  refine ⟨a, _, by rw [e1, (e5 hst).1], by decide +kernel, ?_⟩
  rw [e3, w2.append_lines]
  exact e2.trans (List.sublist_append_left _ _)

/-- C89: with `-D` a program that fails shows, after the lines it has shown so far, the traceback of the
error in red and two line breaks, and nothing else. -/
theorem C89_trace (fuel : Nat) (d : Debug.Details) (hr : ∀ t f, '\x1b' ∉ d.methodRepr t f) (htr : ∀ e, '\x1b' ∉ d.trace e)
    (demoName : Str) (hdn : ∀ c ∈ demoName, isControlChar c = false) (w : World) (args : List Arg)
    (hk : ∀ n ∈ fileNames args, n ≠ [] → n ≠ ['-'] → d.seekable n = true)
    (hn : ∀ f ∈ fileNames args, ∀ c ∈ f, isControlChar c = false)
    (hp : ∀ s, Asked args s → (effectiveSettings s).readMode.1 = .binary → PosCols (effectiveSettings s) w.term)
    (hst : (program fuel w args).status = some 1) (hd : .debug ∈ args) :
    ∃ shown shown' hint report e, (program fuel w args).out = shown ++ hint ∧
      visible hint = "Run the app with '--debug' argument to see the details\n\n".toList ∧
      (Debug.program fuel d demoName w args).out = shown' ++ report ∧
      (screenLines (appears shown)).Sublist (screenLines (appears shown')) ∧
      appears (Debug.program fuel d demoName w args).out =
        appears shown' ++ inStyle { fg := .basic 31 } (d.trace e) ++ inStyle {} ['\n', '\n'] := by
  obtain ⟨a, b, t, t', e1, e2, w1, w2, e3, -, e5⟩ := outputs fuel d hr demoName hdn w args hk hn hp
  obtain ⟨e, he⟩ := (e5 hst).2 hd
  refine ⟨a, b, _, t', e, by rw [e1, (e5 hst).1], by decide +kernel, e3, e2, ?_⟩
  have hs : Shows {} (span [31] (d.trace e) ++ ['\n', '\n']) {} _ :=
    (Shows.spanText (htr e) { fg := .basic 31 } (by decide) (by decide)).append (.text _ (by decide))
  obtain ⟨v, w3, -⟩ := w2
  rw [e3, he, appears_append w3, w3.appears, hs.appears, List.append_assoc]

/-- A world with one file, `a b`, and a terminal of 80 columns. -/
def debugWorld : World :=
  { stdin := [], file := fun n => if n = "a b".toList then .ok [0x61, 0x01, 0x0a, 0x62] else .error .osError, demo := [], term := fun _ => 80,
    legend := [], version := "1.5".toList, pytermor := "2.1".toList, help := [] }

/-- Terminal columns, no method, no traceback, seekable files. -/
def debugDetails : Debug.Details := { wide := fun _ => 30, methodRepr := fun _ _ => "m".toList, trace := fun _ => "t".toList, seekable := fun _ => true }

/-- `kolombos -DDD 'a b'`: the table has 35 lines, two lines of the display and the blank line at the end are
among the messages that follow; a file that is missing gives status 1; the hypotheses hold. -/
example :
    let args := [Arg.debug, .debug, .debug, .file "a b".toList]
    (program 9 debugWorld args).status = some 0 ∧
    (screenLines (appears (program 9 debugWorld args).out)).length = 3 ∧
    (screenLines (appears (Debug.program 9 debugDetails [] debugWorld args).out)).length > 40 ∧
    ((screenLines (appears (Debug.program 9 debugDetails [] debugWorld args).out))[10]?.map fun l => l.map Prod.fst) =
      some "           filename│a b [None]\n".toList ∧
    (program 9 debugWorld [Arg.debug, .file "b".toList]).status = some 1 ∧
    (Debug.program 9 debugDetails [] debugWorld [Arg.debug, .file "b".toList]).status = some 1 ∧
    (∀ n ∈ fileNames args, n ≠ [] → n ≠ ['-'] → debugDetails.seekable n = true) ∧ (∀ f ∈ fileNames args, ∀ c ∈ f, isControlChar c = false) ∧
    WellFormed args ∧ args.count .debug = 3 := by
  refine ⟨by decide +kernel, by decide +kernel, by decide +kernel, by decide +kernel, by decide +kernel, by decide +kernel, fun _ _ _ _ => rfl, by decide +kernel, ⟨by intro o; cases o <;> decide, ?_, by decide⟩, by decide⟩
  have hall : ∀ a ∈ [Arg.debug, .debug, .debug, .file "a b".toList], ∀ b ∈ [Arg.debug, .debug, .debug, .file "a b".toList], clash a b = false := by decide
  intro a ha b hb he
  have := he.clash.1
  rw [hall a ha b hb] at this
  exact absurd this (by simp)

/-- The hypothesis on the columns holds in text mode. -/
example : ∀ s, Asked [Arg.debug, .file "a b".toList] s → (effectiveSettings s).readMode.1 = .binary → PosCols (effectiveSettings s) debugWorld.term := by
  intro s hs
  have h1 : s.debug = 1 := hs.debug
  have h2 : ¬ s.demo = true := by rw [hs.demo]; decide
  have h3 : ¬ s.binary = true := by rw [hs.binary]; decide
  have h4 : debugSettings s = s := by unfold debugSettings; rw [if_neg (by omega)]
  have h5 : ¬ s.text = true := by rw [hs.text]; decide
  unfold effectiveSettings
  rw [h4, if_neg h2]
  unfold Settings.readMode
  rw [if_neg h3, if_neg h5, hs.mode]
  intro h
  cases h

/-- C89 without the condition on the file names fails: a name with an SGR sequence in it colours the
lines that follow. -/
theorem C89_negation_name : ¬ ∀ (fuel : Nat) (d : Debug.Details) (demoName : Str) (w : World) (args : List Arg),
    (∀ n ∈ fileNames args, n ≠ [] → n ≠ ['-'] → d.seekable n = true) → (∀ t f, '\x1b' ∉ d.methodRepr t f) → (∀ c ∈ demoName, isControlChar c = false) →
    (∀ s, Asked args s → (effectiveSettings s).readMode.1 = .binary → PosCols (effectiveSettings s) w.term) →
    (program fuel w args).status ≠ some 1 →
    (screenLines (appears (program fuel w args).out)).Sublist (screenLines (appears (Debug.program fuel d demoName w args).out)) := by
  intro h
  have := h 9 debugDetails [] { debugWorld with file := fun _ => .ok [0x61, 0x0a] } [Arg.debug, .file "\x1b[4m".toList] (fun _ _ _ _ => rfl)
    (fun _ _ => show '\x1b' ∉ "m".toList from by decide) (by simp) ?_ (by decide +kernel)
  · have e : ((screenLines (appears (program 9 { debugWorld with file := fun _ => .ok [0x61, 0x0a] } [Arg.debug, .file "\x1b[4m".toList]).out)).all fun l =>
        (screenLines (appears (Debug.program 9 debugDetails [] { debugWorld with file := fun _ => .ok [0x61, 0x0a] } [Arg.debug, .file "\x1b[4m".toList]).out)).contains l)
        = false := by decide +kernel
    rw [List.all_eq_true.2 fun l hl => List.contains_iff_mem.2 (this.subset hl)] at e
    exact absurd e (by decide)
  · intro s hs
    have h1 : s.debug = 1 := hs.debug
    have h2 : ¬ s.demo = true := by rw [hs.demo]; decide
    have h3 : ¬ s.binary = true := by rw [hs.binary]; decide
    have h4 : debugSettings s = s := by unfold debugSettings; rw [if_neg (by omega)]
    have h5 : ¬ s.text = true := by rw [hs.text]; decide
    unfold effectiveSettings
    rw [h4, if_neg h2]
    unfold Settings.readMode
    rw [if_neg h3, if_neg h5, hs.mode]
    intro h
    cases h

end Kolombos
