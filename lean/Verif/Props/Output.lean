import Verif.Lemmas.Output
import Verif.Props.DebugApp
import Verif.Lemmas.DebugReport
/-
C100, C101: the program if `print` fails or is interrupted.
-/
set_option linter.unusedSimpArgs false

namespace Kolombos
open Spec

/-! ### What is written stays written -/

theorem print_mono (dev : Device) (o : Out) (t : Str) : o.written <+: (o.print dev t).1.written := by
  unfold Out.print
  cases dev o.calls t with
  | none => exact List.prefix_append _ _
  | some e => exact List.prefix_rfl

theorem prints_mono (dev : Device) (ts : List Str) (o : Out) : o.written <+: (o.prints dev ts).1.written := by
  induction ts generalizing o with
  | nil => exact List.prefix_rfl
  | cons t ts ih =>
    rw [Out.prints]
    have h := print_mono dev o t
    revert h
    rcases o.print dev t with ⟨o', _ | e⟩ <;> intro h
    · exact h.trans (ih o')
    · exact h

namespace Debug

theorem exit_mono (dev : Device) (code : Nat) (o : Out) : o.written <+: (exitOn dev code o).1.written := by
  unfold exitOn
  have h := print_mono dev o ['\n']
  revert h
  rcases o.print dev ['\n'] with ⟨o', _ | e⟩ <;> exact id

theorem handle_mono (dev : Device) (d : Details) (s : Settings) (e : Err) (o : Out) : o.written <+: (handleOn dev d s e o).1.written := by
  by_cases he : e = .keyboardInterrupt
  · unfold handleOn; rw [if_pos he]; exact List.prefix_rfl
  · have h : ∃ t, o.pending = none ∨ o.pending = some t := by
      cases hp : o.pending with
      | none => exact ⟨[], .inl rfl⟩
      | some t => exact ⟨t, .inr rfl⟩
    obtain ⟨t, hp⟩ := h
    obtain ⟨tail, -, h2, -⟩ := handle_tail dev d s he hp
    rw [h2]
    exact List.prefix_append _ _

theorem end_mono (dev : Device) (d : Details) (s : Settings) (r : Out × Res Unit) : r.1.written <+: (endOn dev d s r).1.written := by
  obtain ⟨o, r⟩ := r
  cases r with
  | ok u => exact exit_mono _ _ _
  | err e => exact handle_mono _ _ _ _ _
  | timeout => exact List.prefix_rfl

/-! ### Interruption -/

/-- The texts before the `try` block of `Reader.read`. -/
def byteIoHead (s : Settings) (src : Source) (wide : Nat → Int) : List Str :=
  printsOf s.debug (reinitEvents s wide) ++
    printsOf s.debug (openingEvents (Config.create s).settings src (Reader.chunkSize (Config.create s).settings.buffer (Config.create s).settings.debug))

theorem byteIoOn_interrupted {dev : Device} (fuel : Nat) (s : Settings) (src : Source) (term wide : Nat → Int) (opened : Option Err) (io : List IoStep) {o : Out}
    {k : Nat} {t : Str} (h : FailsAt dev o.calls (byteIoTexts fuel s src term wide opened io) k t .keyboardInterrupt) :
    byteIoOn dev fuel s src term wide opened io o =
      (o.broken (byteIoTexts fuel s src term wide opened io) k (some t),
        if opened = none ∧ (byteIoHead s src wide).length ≤ k then .ok () else .err .keyboardInterrupt) := by
  unfold byteIoOn
  unfold byteIoTexts at h ⊢
  unfold byteIoHead
  rw [List.length_append]
  simp only
  rcases h.append with ⟨hk, h1⟩ | ⟨j, rfl, h1, h2⟩
  · rw [Out.writes_fail h1, Out.broken_left _ _ _ hk, if_neg (by omega)]
  · rw [Out.writes_pass h1]
    simp only
    cases opened with
    | some e' => exact absurd h2.lt (by simp)
    | none =>
      simp only at h2 ⊢
      rw [← Out.broken_add]
      generalize ho : o.add (printsOf s.debug (reinitEvents s wide)) = o1
      have hc : o1.calls = o.calls + (printsOf s.debug (reinitEvents s wide)).length := by rw [← ho]; rfl
      rw [← hc] at h2
      rcases h2.append with ⟨hk, h3⟩ | ⟨i, rfl, h3, h4⟩
      · rw [Out.writes_fail h3, Out.broken_left _ _ _ hk, if_neg (by omega)]
      · rw [Out.writes_pass h3]
        simp only
        rw [Out.writes_fail (show FailsAt dev (o1.add _).calls _ i t .keyboardInterrupt from h4), ← Out.broken_add, if_pos ⟨trivial, by omega⟩]
        simp only [if_true]

/-- Whatever is raised, the texts before it are written. -/
theorem runnerOn_mono {dev : Device} (fuel : Nat) (d : Details) (s : Settings) (src : Source) (term : Nat → Int) (opened : Option Err)
    (io : List IoStep) (legend version : List Str) {o : Out} {k : Nat} {t : Str} {e : Err}
    (h : FailsAt dev o.calls (runnerTexts fuel d s src term opened io legend version) k t e) :
    o.written ++ (runnerTexts fuel d s src term opened io legend version).take k <+: (runnerOn dev fuel d s src term opened io legend version o).1.written := by
  by_cases he : e = .keyboardInterrupt
  · subst he
    unfold runnerTexts at h ⊢
    unfold runnerOn
    simp only
    cases hr : Runner.create s with
    | legend => rw [hr] at h; simp only at h ⊢; rw [Out.prints_fail h]; exact List.prefix_rfl
    | version => rw [hr] at h; simp only at h ⊢; rw [Out.prints_fail h]; exact List.prefix_rfl
    | byteIo => rw [hr] at h; simp only at h ⊢; rw [byteIoOn_interrupted _ _ _ _ _ _ _ h]; exact List.prefix_rfl
    | demo =>
      rw [hr] at h
      simp only at h ⊢
      rcases h.append with ⟨hk, h1⟩ | ⟨j, rfl, h1, h2⟩
      · rw [byteIoOn_interrupted _ _ _ _ _ _ _ h1, List.take_append_of_le_length (by omega)]
        split
        · rename_i hh
          simp only [Prod.mk.injEq] at hh
          obtain ⟨rfl, -⟩ := hh
          have := prints_mono dev [demoHint] (o.broken (byteIoTexts fuel (demoSettings s) src term (fun k => d.wide (k + 2)) opened io) k (some t))
          revert this
          rcases Out.prints dev [demoHint] _ with ⟨o', _ | e⟩ <;> exact id
        · exact List.prefix_rfl
      · rw [byteIoOn_pass _ _ _ _ _ _ _ h1]
        cases hr : byteIoEnd fuel (demoSettings s) src term (fun k => d.wide (k + 2)) opened io with
        | ok u =>
          rw [hr] at h2
          simp only at h2 ⊢
          rw [Out.prints_fail (show FailsAt dev (o.add _).calls _ j t _ from h2)]
          simp only
          rw [Out.broken_add]
          exact List.prefix_rfl
        | err e' => rw [hr] at h2; exact absurd h2.lt (by simp)
        | timeout => rw [hr] at h2; exact absurd h2.lt (by simp)
  · obtain ⟨p, -, e1⟩ := (runner_prints fuel d s src term opened io legend version).fail dev o k t e h he
    rw [e1]
    exact List.prefix_rfl

/-- Whatever is raised, the texts before it are written. -/
theorem appOn_mono {dev : Device} (fuel : Nat) (d : Details) (s : Settings) (file : Option Str) (src : Source) (term : Nat → Int) (opened : Option Err)
    (io : List IoStep) (legend version : List Str) {k : Nat} {t : Str} {e : Err}
    (h : FailsAt dev 0 (appTexts fuel d s file src term opened io legend version) k t e) :
    (appTexts fuel d s file src term opened io legend version).take k <+: (appOn dev fuel d s file src term opened io legend version).1.written := by
  unfold appTexts at h ⊢
  unfold appOn
  rcases h.append with ⟨hk, h1⟩ | ⟨j, rfl, h1, h2⟩
  · rw [Out.writes_fail (show FailsAt dev ({} : Out).calls _ k t e from h1), List.take_append_of_le_length (by omega)]
    have := handle_mono dev d s e (({} : Out).broken (printsOf s.debug (settingsEvents s file d.methodRepr d.wide)) k (some t))
    exact this
  · rw [Out.writes_pass (show Passes dev ({} : Out).calls _ from h1)]
    simp only
    rw [Nat.zero_add] at h2
    generalize hT : printsOf s.debug (settingsEvents s file d.methodRepr d.wide) = T at h1 h2 ⊢
    have hc : (({} : Out).add T).calls = T.length := Nat.zero_add _
    show _ <+: (endOn dev d s (runnerOn dev fuel d (debugSettings s) src term opened io legend version (({} : Out).add T))).1.written
    rw [List.take_length_add_append]
    rcases h2.append with ⟨hk, h3⟩ | ⟨i, rfl, h3, h4⟩
    · rw [List.take_append_of_le_length (by omega)]
      exact (runnerOn_mono (o := ({} : Out).add T) fuel d (debugSettings s) src term opened io legend version (by rw [hc]; exact h3)).trans (end_mono dev d s _)
    · rw [List.take_length_add_append]
      have hr := (runner_prints fuel d (debugSettings s) src term opened io legend version).pass dev (({} : Out).add T) (by rw [hc]; exact h3)
      rw [hr, Out.add_add]
      generalize runnerTexts fuel d (debugSettings s) src term opened io legend version = R at h3 h4 ⊢
      have hc2 : (({} : Out).add (T ++ R)).calls = T.length + R.length := by simp [Out.add]
      generalize runnerEnd fuel d (debugSettings s) src term opened io = res at h4 ⊢
      rw [← List.append_assoc]
      cases res with
      | timeout => exact absurd h4.lt (by simp [lastTexts])
      | ok u =>
        have hi : i = 0 := by have := h4.lt; simp [lastTexts] at this; exact this
        subst hi
        rw [List.take_zero, List.append_nil]
        exact end_mono dev d s (({} : Out).add (T ++ R), .ok u)
      | err e' =>
        unfold lastTexts at h4 ⊢
        simp only at h4 ⊢
        by_cases hk : e' = .keyboardInterrupt
        · rw [if_pos hk] at h4; exact absurd h4.lt (by simp)
        · simp only [if_neg hk] at h4 ⊢
          cases i with
          | zero => rw [List.take_zero, List.append_nil]; exact end_mono dev d s (({} : Out).add (T ++ R), .err e')
          | succ i =>
            obtain ⟨h5, h6⟩ := h4.cons_succ
            have hi : i = 0 := by have := h6.lt; simp at this; exact this
            subst hi
            unfold endOn handleOn
            simp only [if_neg hk]
            have hpn : (({} : Out).add (T ++ R)).pending = none := rfl
            rw [hpn]
            simp only
            rw [Out.print_ok (show dev (Out.add {} (T ++ R)).calls _ = none by rw [hc2]; exact h5)]
            simp only
            have := exit_mono dev 1 ((({} : Out).add (T ++ R)).add [onException s (d.trace e')])
            exact this

/-! ### The output that takes everything -/

theorem printsOf_flatten (debug : Nat) (evs : List Ev) : (printsOf debug evs).flatten = stdoutOf debug evs := by
  unfold printsOf stdoutOf
  induction evs with
  | nil => rfl
  | cons e evs ih =>
    rw [List.map_cons, List.flatMap_cons]
    by_cases h : Ev.printed debug e = []
    · rw [List.filter_cons_of_neg (by simp [h]), ih, h]; rfl
    · rw [List.filter_cons_of_pos (by simp [h]), List.flatten_cons, ih]

theorem byteIoRun_parts (fuel : Nat) (s : Settings) (src : Source) (term wide : Nat → Int) (opened : Option Err) (io : List IoStep) :
    stdoutOf s.debug (byteIoRun fuel s src term wide opened io).evs = (byteIoTexts fuel s src term wide opened io).flatten ∧
    (opened ≠ some .keyboardInterrupt → (match (byteIoRun fuel s src term wide opened io).res with
      | .ok _ => .ok ()
      | .err e => .err e
      | .timeout => .timeout) = byteIoEnd fuel s src term wide opened io) := by
  unfold byteIoRun byteIoTexts byteIoEnd Debug.read
  cases opened with
  | some e =>
    refine ⟨?_, fun _ => rfl⟩
    simp only [Trace.log, Trace.fail, List.append_nil, printsOf_flatten]
    rfl
  | none =>
    simp only [Trace.log, List.flatten_append, printsOf_flatten]
    refine ⟨?_, fun _ => ?_⟩
    · have := Debug.read_evs (Config.create s).settings src (Reader.chunkSize (Config.create s).settings.buffer (Config.create s).settings.debug)
        (Config.create s).settings.maxBytes (Config.create s).settings.maxLines (processChunk fuel (Config.create s) term wide) io ({} : State)
      unfold Debug.read at this
      simp only [Trace.log] at this
      rw [stdoutOf_append, this, stdoutOf_append]
      rfl
    · unfold readingTrace
      simp only
      cases (readLoop (Config.create s).settings src (Config.create s).settings.maxBytes (Config.create s).settings.maxLines
        (processChunk fuel (Config.create s) term wide) io 0 0 0 0 ({} : State)).res with
      | ok st => rfl
      | timeout => rfl
      | err e => cases e <;> rfl

theorem debugSettings_debug (s : Settings) : (debugSettings s).debug = s.debug := by
  unfold debugSettings
  split
  · exact Debug.readMode_debug s
  · rfl

theorem demoSettings_debug (s : Settings) : (demoSettings s).debug = s.debug := by
  unfold demoSettings
  simp only
  repeat' split
  all_goals rfl

end Debug

open Debug

/-! ### C100: errors of the output -/

/-- The model with an output that may fail is the program of C89 if the output takes everything. -/
theorem C100_same (fuel : Nat) (d : Debug.Details) (demoName : Str) (w : World) (args : List Arg) (s : Settings) (name : Option Str)
    (hp : parseArgs args = .run s name) (ho : (w.open s name).1 ≠ some .keyboardInterrupt) :
    (programOn takesAll fuel d demoName w s name).1.written.flatten = (Debug.program fuel d demoName w args).out ∧
    (programOn takesAll fuel d demoName w s name).2 = (Debug.program fuel d demoName w args).status := by
  unfold programOn Debug.program
  rw [hp]
  simp only
  rw [app_pass _ _ _ _ _ _ _ _ _ _ (Passes.ok _ _)]
  simp only [Out.add, List.nil_append]
  generalize Debug.source d demoName s name = src
  generalize (w.open s name).2 = io
  generalize (w.open s name).1 = opened at ho ⊢
  unfold appTexts Debug.appRun runnerTexts runnerEnd
  have hv : ∀ a b, (versionPrints a b).flatten = versionText a b := by intro a b; simp [versionPrints, versionText]
  have hl : ∀ a, (legendPrints a).flatten = legendText a := fun _ => rfl
  have hout : ∀ t, stdoutOf s.debug [.out t] = t := by intro t; simp [stdoutOf, Ev.printed]
  have hout2 : ∀ t u, stdoutOf s.debug [.out t, .out u] = t ++ u := by intro t u; simp [stdoutOf, Ev.printed]
  rw [List.flatten_append, List.flatten_append, printsOf_flatten]
  simp only
  cases Runner.create (debugSettings s) with
  | legend =>
    refine ⟨?_, rfl⟩
    simp only [stdoutOf_append, hout2, lastTexts, hl]
    simp
  | version =>
    refine ⟨?_, rfl⟩
    simp only [stdoutOf_append, hout2, lastTexts, hv]
    simp
  | byteIo =>
    simp only
    obtain ⟨h1, h2⟩ := byteIoRun_parts fuel (debugSettings s) src w.term (fun k => d.wide (k + 2)) opened io
    rw [debugSettings_debug] at h1
    rw [← h1, ← h2 ho]
    have hne : (Debug.byteIoRun fuel (debugSettings s) src w.term (fun k => d.wide (k + 2)) opened io).res ≠ .err .keyboardInterrupt := by
      intro h
      have h3 := h2 ho
      rw [h] at h3
      unfold byteIoEnd at h3
      cases opened with
      | some e => simp only [Res.err.injEq] at h3; exact ho (by rw [← h3])
      | none =>
        simp only at h3
        split at h3
        · cases h3
        · rename_i e' _
          by_cases hk : e' = .keyboardInterrupt
          · rw [if_pos hk] at h3; cases h3
          · rw [if_neg hk] at h3; simp only [Res.err.injEq] at h3; exact hk h3.symm
        · cases h3
    cases hr : (Debug.byteIoRun fuel (debugSettings s) src w.term (fun k => d.wide (k + 2)) opened io).res with
    | ok st =>
      refine ⟨?_, rfl⟩
      simp only [stdoutOf_append, hout, lastTexts, List.append_assoc]
      simp
    | err e =>
      have he : e ≠ .keyboardInterrupt := fun h => hne (by rw [hr, h])
      simp only [lastStatus, if_neg he, lastTexts, stdoutOf_append, hout2, List.append_assoc]
      refine ⟨?_, trivial⟩
      unfold onException
      rw [debugSettings_debug]
      simp
    | timeout =>
      refine ⟨?_, rfl⟩
      simp only [stdoutOf_append, hout, lastTexts]
      simp
  | demo =>
    simp only
    obtain ⟨h1, h2⟩ := byteIoRun_parts fuel (demoSettings (debugSettings s)) src w.term (fun k => d.wide (k + 2)) opened io
    rw [demoSettings_debug, debugSettings_debug] at h1
    rw [List.flatten_append, ← h1, ← h2 ho]
    have hne : (Debug.byteIoRun fuel (demoSettings (debugSettings s)) src w.term (fun k => d.wide (k + 2)) opened io).res ≠ .err .keyboardInterrupt := by
      intro h
      have h3 := h2 ho
      rw [h] at h3
      unfold byteIoEnd at h3
      cases opened with
      | some e => simp only [Res.err.injEq] at h3; exact ho (by rw [← h3])
      | none =>
        simp only at h3
        split at h3
        · cases h3
        · rename_i e' _
          by_cases hk : e' = .keyboardInterrupt
          · rw [if_pos hk] at h3; cases h3
          · rw [if_neg hk] at h3; simp only [Res.err.injEq] at h3; exact hk h3.symm
        · cases h3
    cases hr : (Debug.byteIoRun fuel (demoSettings (debugSettings s)) src w.term (fun k => d.wide (k + 2)) opened io).res with
    | ok st =>
      refine ⟨?_, rfl⟩
      simp only [stdoutOf_append, hout2, lastTexts, List.append_assoc]
      simp
    | err e =>
      have he : e ≠ .keyboardInterrupt := fun h => hne (by rw [hr, h])
      simp only [lastStatus, if_neg he, lastTexts, stdoutOf_append, hout2, List.append_assoc]
      refine ⟨?_, trivial⟩
      unfold onException
      rw [debugSettings_debug]
      simp
    | timeout =>
      refine ⟨?_, rfl⟩
      simp only [stdoutOf_append, hout, lastTexts]
      simp

/-- C100: whatever `print` does, the texts before the first one that cannot be written are written, in their order. -/
theorem C100_prefix (dev : Device) (fuel : Nat) (d : Debug.Details) (demoName : Str) (w : World) (s : Settings) (name : Option Str) (n : Nat)
    (h : Passes dev 0 ((programOn takesAll fuel d demoName w s name).1.written.take n)) :
    (programOn takesAll fuel d demoName w s name).1.written.take n <+: (programOn dev fuel d demoName w s name).1.written := by
  unfold programOn at h ⊢
  rw [app_pass (dev := takesAll) _ _ _ _ _ _ _ _ _ _ (Passes.ok _ _)] at h ⊢
  simp only [Out.add, List.nil_append] at h ⊢
  rcases passes_or_fails dev 0 (appTexts fuel d s name (Debug.source d demoName s name) w.term (w.open s name).1 (w.open s name).2
    (legendPrints w.legend) (versionPrints w.version w.pytermor)) with hp | ⟨k, t, e, hf⟩
  · rw [app_pass _ _ _ _ _ _ _ _ _ _ hp]
    simp only [Out.add, List.nil_append]
    exact List.take_prefix _ _
  · refine List.IsPrefix.trans ?_ (appOn_mono _ _ _ _ _ _ _ _ _ _ hf)
    have hk : n ≤ k := by
      refine Classical.byContradiction fun hn => ?_
      have := h k t (by rw [List.getElem?_take_of_lt (by omega)]; exact hf.text)
      rw [hf.raised] at this
      cases this
    exact List.take_prefix_take_left hk

/-- C100: if the output takes everything that the program wants to print, the program runs as usual. -/
theorem C100_usual (dev : Device) (fuel : Nat) (d : Debug.Details) (demoName : Str) (w : World) (s : Settings) (name : Option Str)
    (h : Passes dev 0 (programOn takesAll fuel d demoName w s name).1.written) :
    programOn dev fuel d demoName w s name = programOn takesAll fuel d demoName w s name := by
  unfold programOn at h ⊢
  rw [app_pass (dev := takesAll) _ _ _ _ _ _ _ _ _ _ (Passes.ok _ _)] at h ⊢
  simp only [Out.add, List.nil_append] at h
  rw [app_pass _ _ _ _ _ _ _ _ _ _ h]

/-- C100: if a text cannot be written, the status is not 0, and after the texts before it there is at most this text, the
report of the error and an empty line. -/
theorem C100_failure_partial (dev : Device) (fuel : Nat) (d : Debug.Details) (demoName : Str) (w : World) (s : Settings) (name : Option Str)
    {k : Nat} {t : Str} {e : Err} (h : FailsAt dev 0 (programOn takesAll fuel d demoName w s name).1.written k t e) (he : e ≠ .keyboardInterrupt) :
    ∃ tail : List Str, tail.Sublist [t, Debug.onException s (d.trace e), ['\n']] ∧
      (programOn dev fuel d demoName w s name).1.written = (programOn takesAll fuel d demoName w s name).1.written.take k ++ tail ∧
      ((programOn dev fuel d demoName w s name).2 = some 1 ∨
        (programOn dev fuel d demoName w s name).2 = some 130 ∧ ∃ j u, dev j u = some .keyboardInterrupt) := by
  unfold programOn at h ⊢
  rw [app_pass (dev := takesAll) _ _ _ _ _ _ _ _ _ _ (Passes.ok _ _)] at h ⊢
  simp only [Out.add, List.nil_append] at h ⊢
  rcases app_fail _ _ _ _ _ _ _ _ _ _ h he with ⟨p, hp, e1⟩ | ⟨e1, e2⟩
  · rw [e1]
    have hp' : (({} : Out).broken (appTexts fuel d s name (Debug.source d demoName s name) w.term (w.open s name).1 (w.open s name).2
      (legendPrints w.legend) (versionPrints w.version w.pytermor)) k p).pending = none ∨ (({} : Out).broken (appTexts fuel d s name
      (Debug.source d demoName s name) w.term (w.open s name).1 (w.open s name).2
      (legendPrints w.legend) (versionPrints w.version w.pytermor)) k p).pending = some t := (hp.imp id fun x => x.1).symm
    exact handle_tail dev d s he hp'
  · exact ⟨[], List.nil_sublist _, by rw [e1, List.append_nil], .inl e2⟩

end Kolombos
