import Verif.Props.Args
import Verif.Lemmas.Agree
/-
Command lines with one more option.
-/
set_option linter.unusedSimpArgs false
namespace Kolombos
open Spec

theorem lastInt_append (o : IntOpt) (l l' : List Arg) : lastInt o (l ++ l') = (lastInt o l').or (lastInt o l) := by
  induction l with
  | nil => rw [List.nil_append, show lastInt o [] = none from rfl]; cases lastInt o l' <;> rfl
  | cons a l ih =>
    rw [List.cons_append, lastInt.eq_def o (a :: (l ++ l')), lastInt.eq_def o (a :: l)]
    simp only [ih]
    cases lastInt o l' <;> cases lastInt o l <;> simp

theorem asked_congr {l l' : List Arg} {s : Settings} (hm : ∀ f, Arg.flag f ∈ l ↔ Arg.flag f ∈ l') (hc : l.count .debug = l'.count .debug)
    (hi : ∀ o, lastInt o l = lastInt o l') (h : Asked l s) : Asked l' s := by
  obtain ⟨h1, h2, h3, h4, h5, h6, h7, h8, h9, h10, h11, h12, h13, h14, h15, h16, h17, h18, h19, h20⟩ := h
  simp only [hm, hc, hi] at *
  exact ⟨h1, h2, h3, h4, h5, h6, h7, h8, h9, h10, h11, h12, h13, h14, h15, h16, h17, h18, h19, h20⟩

theorem asked_insert_flag {pre post : List Arg} {s : Settings} (h : Asked (pre ++ post) s) (f : Flag) :
    Asked (pre ++ .flag f :: post) (s.setFlag f) := by
  refine asked_congr (fun a => ?_) ?_ (fun o => ?_) (asked_flag h f)
  · simp only [List.mem_append, List.mem_cons, List.not_mem_nil, or_false]
    constructor
    · rintro ((h | h) | h)
      · exact .inl h
      · exact .inr (.inr h)
      · exact .inr (.inl h)
    · rintro (h | h | h)
      · exact .inl (.inl h)
      · exact .inr h
      · exact .inl (.inr h)
  · simp [List.count_cons, List.count_append]
  · rw [lastInt_append, lastInt_append, lastInt_append]
    have e1 : lastInt o [.flag f] = none := rfl
    have e2 : lastInt o (.flag f :: post) = lastInt o post := by rw [lastInt.eq_def]; simp only; cases lastInt o post <;> rfl
    rw [e1, e2]
    rfl

theorem lastInt_none {o : IntOpt} {l : List Arg} (h : ∀ v, Arg.int o v ∉ l) : lastInt o l = none := by
  cases hl : lastInt o l with
  | none => rfl
  | some v => exact absurd (lastInt_mem l hl) (h _)

theorem asked_insert_int {pre post : List Arg} {s : Settings} (h : Asked (pre ++ post) s) (p : IntOpt) (v : Int) :
    Asked (pre ++ .int p (some v) :: post) (s.setInt ((lastInt p post).getD v) p) := by
  refine asked_congr (fun f => ?_) ?_ (fun o => ?_) (asked_int h p ((lastInt p post).getD v))
  · simp
  · simp [List.count_cons, List.count_append]
  · rw [lastInt_append, lastInt_append, lastInt_append, lastInt_cons_int, lastInt_cons_int, show lastInt o [] = none from rfl]
    simp only
    by_cases hp : p = o
    · subst hp
      cases lastInt p post <;> simp
    · simp only [hp, if_false]
      cases lastInt o post <;> rfl

theorem excludes_self (a : Arg) : ¬ Excludes a a := by
  intro h
  have := h.clash.1
  rw [clash_self] at this
  cases this

theorem fine_insert {pre post : List Arg} {a : Arg} (hni : ∀ o, a ≠ .int o none) (hex : ∀ b ∈ pre ++ post, ¬ Excludes a b) :
    ((∀ o, Arg.int o none ∉ pre ++ a :: post) ∧ ∀ x ∈ pre ++ a :: post, ∀ y ∈ pre ++ a :: post, ¬ Excludes x y) ↔
    ((∀ o, Arg.int o none ∉ pre ++ post) ∧ ∀ x ∈ pre ++ post, ∀ y ∈ pre ++ post, ¬ Excludes x y) := by
  have hmem : ∀ x, x ∈ pre ++ a :: post ↔ x = a ∨ x ∈ pre ++ post := by
    intro x
    simp only [List.mem_append, List.mem_cons]
    constructor
    · rintro (h | h | h)
      · exact .inr (.inl h)
      · exact .inl h
      · exact .inr (.inr h)
    · rintro (h | h | h)
      · exact .inr (.inl h)
      · exact .inl h
      · exact .inr (.inr h)
  constructor
  · rintro ⟨h1, h2⟩
    exact ⟨fun o ho => h1 o ((hmem _).2 (.inr ho)), fun x hx y hy => h2 x ((hmem _).2 (.inr hx)) y ((hmem _).2 (.inr hy))⟩
  · rintro ⟨h1, h2⟩
    refine ⟨fun o ho => ?_, fun x hx y hy => ?_⟩
    · rcases (hmem _).1 ho with h | h
      · exact hni o h.symm
      · exact h1 o h
    · rcases (hmem _).1 hx with ex | hx'
      · rcases (hmem _).1 hy with ey | hy'
        · rw [ex, ey]; exact excludes_self _
        · rw [ex]; exact hex y hy'
      · rcases (hmem _).1 hy with ey | hy'
        · rw [ey]; exact fun g => hex x hx' g.symm
        · exact h2 x hx' y hy'

theorem first_help {l : List Arg} (h : Arg.help ∈ l) : ∃ p q, l = p ++ .help :: q ∧ Arg.help ∉ p := by
  induction l with
  | nil => cases h
  | cons a l ih =>
    by_cases ha : a = .help
    · exact ⟨[], l, by rw [ha]; rfl, by simp⟩
    · have : Arg.help ∈ l := by
        rcases List.mem_cons.1 h with h | h
        · exact absurd h.symm ha
        · exact h
      obtain ⟨p, q, rfl, hp⟩ := ih this
      exact ⟨a :: p, q, rfl, by simp [hp, Ne.symm ha]⟩

/-- What a command line with one more option does, if the option sets nothing that matters. -/
theorem program_insert {fuel : Nat} {w : World} {pre post : List Arg} {a : Arg} (hnh : a ≠ .help) (hni : ∀ o, a ≠ .int o none) (hnf : ∀ n, a ≠ .file n)
    (hex : ∀ b ∈ pre ++ post, ¬ Excludes a b)
    (hrun : ∀ s s', Asked (pre ++ post) s → Asked (pre ++ a :: post) s' → ∀ name,
      appRun fuel s' w.term (w.open s' name).1 (w.open s' name).2 (legendText w.legend) (versionText w.version w.pytermor) =
      appRun fuel s w.term (w.open s name).1 (w.open s name).2 (legendText w.legend) (versionText w.version w.pytermor)) :
    program fuel w (pre ++ a :: post) = program fuel w (pre ++ post) := by
  by_cases hpre : Arg.help ∈ pre
  · obtain ⟨p, q, rfl, hp⟩ := first_help hpre
    unfold program
    have h1 := C55_help p (q ++ a :: post) hp
    have h2 := C55_help p (q ++ post) hp
    simp only [List.append_assoc, List.cons_append]
    by_cases hf : (∀ o, Arg.int o none ∉ p) ∧ ∀ a ∈ p, ∀ b ∈ p, ¬ Excludes a b
    · rw [h1.1 hf, h2.1 hf]
    · rw [h1.2 hf, h2.2 hf]
  · by_cases hpost : Arg.help ∈ post
    · obtain ⟨p, q, rfl, hp⟩ := first_help hpost
      unfold program
      have h1 := C55_help (pre ++ a :: p) q (by simp [hpre, hp, Ne.symm hnh])
      have h2 := C55_help (pre ++ p) q (by simp [hpre, hp])
      have hf := fine_insert (pre := pre) (post := p) hni fun b hb => hex b (by
        rcases List.mem_append.1 hb with h | h
        · simp [h]
        · simp [h])
      simp only [List.append_assoc, List.cons_append] at h1 h2
      by_cases hg : (∀ o, Arg.int o none ∉ pre ++ p) ∧ ∀ a ∈ pre ++ p, ∀ b ∈ pre ++ p, ¬ Excludes a b
      · rw [h1.1 (hf.2 hg), h2.1 hg]
      · rw [h1.2 fun g => hg (hf.1 g), h2.2 hg]
    · have hh : Arg.help ∉ pre ++ post := by simp [hpre, hpost]
      have hh' : Arg.help ∉ pre ++ a :: post := by simp [hpre, hpost, Ne.symm hnh]
      have hfiles : fileNames (pre ++ a :: post) = fileNames (pre ++ post) := by
        unfold fileNames
        rw [List.filterMap_append, List.filterMap_append, List.filterMap_cons]
        cases a with
        | file n => exact absurd rfl (hnf n)
        | _ => rfl
      have hf := fine_insert (pre := pre) (post := post) hni hex
      have hw : WellFormed (pre ++ a :: post) ↔ WellFormed (pre ++ post) := by
        constructor
        · rintro ⟨h1, h2, h3⟩
          have := hf.1 ⟨h1, h2⟩
          exact ⟨this.1, this.2, by rw [← hfiles]; exact h3⟩
        · rintro ⟨h1, h2, h3⟩
          have := hf.2 ⟨h1, h2⟩
          exact ⟨this.1, this.2, by rw [hfiles]; exact h3⟩
      unfold program
      by_cases hg : WellFormed (pre ++ post)
      · obtain ⟨s, e1, e2⟩ := (C55_settings _ hh).1 hg
        obtain ⟨s', e1', e2'⟩ := (C55_settings _ hh').1 (hw.2 hg)
        rw [e1, e1', hfiles]
        exact hrun s s' e2 e2' _
      · rw [(C55_settings _ hh).2 hg, (C55_settings _ hh').2 fun g => hg (hw.1 g)]

/-- The mode in which the settings of a command line display the input. -/
def runMode (s : Settings) : ReadMode :=
  if s.binary then .binary else if s.text then .text else if s.demo ∧ s.debug < 4 then .binary else .text

theorem effective_fields (s : Settings) (hd : s.defaultReadMode = .text) :
    let r := effectiveSettings s
    r.readMode.1 = runMode s ∧
    r.debug = s.debug ∧ r.focus = s.focus ∧ r.ignore = s.ignore ∧ r.colorMarkers = s.colorMarkers ∧ r.maxBytes = s.maxBytes ∧
    r.maxLines = s.maxLines ∧ r.marker = s.marker ∧ r.noSeparators = s.noSeparators ∧ r.noLineNumbers = s.noLineNumbers ∧
    r.columns = (if s.demo then some (s.columns.getD 16) else s.columns) ∧
    r.decode = (if s.demo then some (s.decode.getD true) else s.decode) ∧ r.decimalOffsets = s.decimalOffsets ∧ r.noOffsets = s.noOffsets := by
  obtain ⟨binary, buffer, columns, dof, debug, decode, focus, ignore, legend, marker, mb, ml, cm, nl, ns, no, text, version, demo, drm⟩ := s
  simp only at hd
  subst hd
  unfold effectiveSettings debugSettings demoSettings Settings.setDefaultReadMode runMode
  by_cases h4 : debug ≥ 4
  · have h4' : ¬ debug < 4 := by omega
    cases binary <;> cases text <;> cases demo <;> cases columns <;> cases decode <;> simp [Settings.readMode, h4, h4']
  · have h4' : debug < 4 := by omega
    cases binary <;> cases text <;> cases demo <;> cases columns <;> cases decode <;> simp [Settings.readMode, h4, h4']

theorem effective_agree {s s' : Settings} (hd : s.defaultReadMode = .text) (hd' : s'.defaultReadMode = .text) (hm : runMode s' = runMode s)
    (hg : s'.debug = s.debug ∧ s'.focus = s.focus ∧ s'.ignore = s.ignore ∧ s'.colorMarkers = s.colorMarkers ∧ s'.maxBytes = s.maxBytes ∧
      s'.maxLines = s.maxLines)
    (ht : runMode s = .text → s'.marker = s.marker ∧ s'.noSeparators = s.noSeparators ∧ s'.noLineNumbers = s.noLineNumbers)
    (hb : runMode s = .binary → (if s'.demo then some (s'.columns.getD 16) else s'.columns) = (if s.demo then some (s.columns.getD 16) else s.columns) ∧
      (if s'.demo then some (s'.decode.getD true) else s'.decode) = (if s.demo then some (s.decode.getD true) else s.decode) ∧
      s'.decimalOffsets = s.decimalOffsets ∧ s'.noOffsets = s.noOffsets) :
    Agree (runMode s) (effectiveSettings s) (effectiveSettings s') := by
  obtain ⟨a0, a1, a2, a3, a4, a5, a6, a7, a8, a9, a10, a11, a12, a13⟩ := effective_fields s hd
  obtain ⟨b0, b1, b2, b3, b4, b5, b6, b7, b8, b9, b10, b11, b12, b13⟩ := effective_fields s' hd'
  obtain ⟨g1, g2, g3, g4, g5, g6⟩ := hg
  exact ⟨a0, by rw [b0, hm], by rw [a1, b1, g1], by rw [a2, b2, g2], by rw [a3, b3, g3], by rw [a4, b4, g4], by rw [a5, b5, g5],
    by rw [a6, b6, g6], fun e => by rw [a7, b7, (ht e).1], fun e => by rw [a8, b8, (ht e).2.1], fun e => by rw [a9, b9, (ht e).2.2],
    fun e => by rw [a10, b10, (hb e).1], fun e => by rw [a11, b11, (hb e).2.1], fun e => by rw [a12, b12, (hb e).2.2.1],
    fun e => by rw [a13, b13, (hb e).2.2.2]⟩

theorem debugSettings_runner (s : Settings) : Runner.create (debugSettings s) = Runner.create s := by
  unfold debugSettings
  split
  · unfold Settings.readMode
    split
    · rfl
    · split <;> rfl
  · rfl

theorem runner_effective (s : Settings) :
    (Runner.create s = .demo → effectiveSettings s = demoSettings (debugSettings s)) ∧
    (Runner.create s = .byteIo → effectiveSettings s = debugSettings s) := by
  have hd : (debugSettings s).demo = s.demo := by
    unfold debugSettings
    split
    · unfold Settings.readMode
      split
      · rfl
      · split <;> rfl
    · rfl
  unfold Runner.create effectiveSettings
  rw [hd]
  cases s.legend <;> cases s.version <;> cases s.demo <;> simp

/-- The program does the same with settings that agree. -/
theorem appRun_agree {m : ReadMode} {s s' : Settings} (h : Agree m (effectiveSettings s) (effectiveSettings s'))
    (hr : Runner.create s' = Runner.create s) (fuel : Nat) (term : Nat → Int) (opened : Option Err) (io : List IoStep) (legend version : Str) :
    appRun fuel s' term opened io legend version = appRun fuel s term opened io legend version := by
  have e := byteIoRun_agree h fuel term opened io
  have r1 := runner_effective s
  have r2 := runner_effective s'
  unfold appRun
  simp only [debugSettings_runner, hr]
  rw [hr] at r2
  cases hc : Runner.create s with
  | legend => rfl
  | version => rfl
  | demo => rw [r1.1 hc, r2.1 hc] at e; simp only [e]
  | byteIo => rw [r1.2 hc, r2.2 hc] at e; simp only [e]

end Kolombos
