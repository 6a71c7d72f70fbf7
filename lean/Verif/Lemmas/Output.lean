import Verif.Spec.Output
import Verif.Lemmas.DebugRows
/-
Calls of `print` that may fail.
-/
set_option linter.unusedSimpArgs false

namespace Kolombos

open Spec

theorem Spec.Passes.ok (n : Nat) (ts : List Str) : Passes takesAll n ts := fun _ _ _ => rfl

theorem Spec.Passes.nil (dev : Device) (n : Nat) : Passes dev n [] := by intro i t h; simp at h

theorem Spec.Passes.cons {dev : Device} {n : Nat} {t : Str} {ts : List Str} : Passes dev n (t :: ts) ↔ dev n t = none ∧ Passes dev (n + 1) ts := by
  constructor
  · intro h
    refine ⟨h 0 t rfl, fun i u hu => ?_⟩
    have := h (i + 1) u (by simpa using hu)
    rwa [show n + (i + 1) = n + 1 + i by omega] at this
  · rintro ⟨h1, h2⟩ i u hu
    cases i with
    | zero => simp only [List.getElem?_cons_zero, Option.some.injEq] at hu; subst hu; exact h1
    | succ i =>
      rw [show n + (i + 1) = n + 1 + i by omega]
      exact h2 i u (by simpa using hu)

theorem Spec.Passes.append {dev : Device} {n : Nat} {ts us : List Str} : Passes dev n (ts ++ us) ↔ Passes dev n ts ∧ Passes dev (n + ts.length) us := by
  induction ts generalizing n with
  | nil => simp [Passes.nil]
  | cons t ts ih =>
    rw [List.cons_append, Passes.cons, Passes.cons, ih, and_assoc, List.length_cons, show n + (ts.length + 1) = n + 1 + ts.length by omega]

/-- Either everything is written or there is a first text that is not. -/
theorem passes_or_fails (dev : Device) (n : Nat) (ts : List Str) : Passes dev n ts ∨ ∃ k t e, FailsAt dev n ts k t e := by
  induction ts generalizing n with
  | nil => exact .inl (.nil dev n)
  | cons t ts ih =>
    cases hd : dev n t with
    | some e => exact .inr ⟨0, t, e, rfl, hd, by intro i u hi; omega⟩
    | none =>
      rcases ih (n + 1) with h | ⟨k, u, e, h⟩
      · exact .inl (Passes.cons.2 ⟨hd, h⟩)
      · refine .inr ⟨k + 1, u, e, by simpa using h.text, ?_, ?_⟩
        · rw [show n + (k + 1) = n + 1 + k by omega]; exact h.raised
        · intro i v hi hv
          cases i with
          | zero => simp only [List.getElem?_cons_zero, Option.some.injEq] at hv; subst hv; exact hd
          | succ i =>
            rw [show n + (i + 1) = n + 1 + i by omega]
            exact h.before i v (by omega) (by simpa using hv)

theorem Spec.FailsAt.lt {dev : Device} {n k : Nat} {ts : List Str} {t : Str} {e : Err} (h : FailsAt dev n ts k t e) : k < ts.length := by
  have := h.text
  exact (List.getElem?_eq_some_iff.1 this).1

theorem Spec.FailsAt.cons_zero {dev : Device} {n : Nat} {u : Str} {ts : List Str} {t : Str} {e : Err} (h : FailsAt dev n (u :: ts) 0 t e) :
    u = t ∧ dev n t = some e := by
  have := h.text
  simp only [List.getElem?_cons_zero, Option.some.injEq] at this
  exact ⟨this, h.raised⟩

theorem Spec.FailsAt.cons_succ {dev : Device} {n k : Nat} {u : Str} {ts : List Str} {t : Str} {e : Err} (h : FailsAt dev n (u :: ts) (k + 1) t e) :
    dev n u = none ∧ FailsAt dev (n + 1) ts k t e := by
  refine ⟨h.before 0 u (by omega) rfl, by simpa using h.text, ?_, ?_⟩
  · rw [show n + 1 + k = n + (k + 1) by omega]; exact h.raised
  · intro i v hi hv
    rw [show n + 1 + i = n + (i + 1) by omega]
    exact h.before (i + 1) v (by omega) (by simpa using hv)

/-- A failure in the first or in the second part. -/
theorem Spec.FailsAt.append {dev : Device} {n k : Nat} {ts us : List Str} {t : Str} {e : Err} (h : FailsAt dev n (ts ++ us) k t e) :
    (k < ts.length ∧ FailsAt dev n ts k t e) ∨
    (∃ j, k = ts.length + j ∧ Passes dev n ts ∧ FailsAt dev (n + ts.length) us j t e) := by
  by_cases hk : k < ts.length
  · refine .inl ⟨hk, ?_, h.raised, ?_⟩
    · rw [← h.text, List.getElem?_append_left hk]
    · intro i u hi hu
      exact h.before i u hi (by rw [List.getElem?_append_left (by omega)]; exact hu)
  · refine .inr ⟨k - ts.length, by omega, ?_, ?_, ?_, ?_⟩
    · intro i u hu
      have hi := (List.getElem?_eq_some_iff.1 hu).1
      exact h.before i u (by omega) (by rw [List.getElem?_append_left hi]; exact hu)
    · rw [← h.text, List.getElem?_append_right (by omega)]
    · rw [show n + ts.length + (k - ts.length) = n + k by omega]; exact h.raised
    · intro i u hi hu
      rw [show n + ts.length + i = n + (ts.length + i) by omega]
      exact h.before (ts.length + i) u (by omega) (by rw [List.getElem?_append_right (by omega), show ts.length + i - ts.length = i by omega]; exact hu)

namespace Out

/-- After some texts. -/
def add (o : Out) (ts : List Str) : Out := { o with calls := o.calls + ts.length, written := o.written ++ ts }

/-- After some texts, one of which was not written. -/
def broken (o : Out) (ts : List Str) (k : Nat) (p : Option Str) : Out := ⟨o.calls + k + 1, o.written ++ ts.take k, p⟩

theorem add_nil (o : Out) : o.add [] = o := by simp [add]

theorem add_add (o : Out) (ts us : List Str) : (o.add ts).add us = o.add (ts ++ us) := by simp [add, Nat.add_assoc]

theorem broken_add (o : Out) (ts us : List Str) (k : Nat) (p : Option Str) : (o.add ts).broken us k p = o.broken (ts ++ us) (ts.length + k) p := by
  simp [add, broken, Nat.add_assoc, List.take_append, List.take_of_length_le]

theorem broken_left (o : Out) (ts us : List Str) {k : Nat} (hk : k < ts.length) (p : Option Str) : o.broken (ts ++ us) k p = o.broken ts k p := by
  simp [broken, List.take_append_of_le_length (Nat.le_of_lt hk)]

theorem print_ok {dev : Device} {o : Out} {t : Str} (h : dev o.calls t = none) : o.print dev t = (o.add [t], none) := by
  simp [print, h, add]

theorem print_err {dev : Device} {o : Out} {t : Str} {e : Err} (h : dev o.calls t = some e) : o.print dev t = (o.broken [t] 0 o.pending, some e) := by
  simp [print, h, broken]

theorem writes_pass {dev : Device} {ts : List Str} {o : Out} (h : Passes dev o.calls ts) : o.writes dev ts = (o.add ts, none) := by
  induction ts generalizing o with
  | nil => rw [add_nil]; rfl
  | cons t ts ih =>
    obtain ⟨h1, h2⟩ := Passes.cons.1 h
    rw [writes, print_ok h1]
    simp only
    rw [ih (o := o.add [t]) h2, add_add]
    rfl

theorem writes_fail {dev : Device} {ts : List Str} {o : Out} {k : Nat} {t : Str} {e : Err} (h : FailsAt dev o.calls ts k t e) :
    o.writes dev ts = (o.broken ts k (some t), some e) := by
  induction ts generalizing o k with
  | nil => exact absurd h.lt (by simp)
  | cons u ts ih =>
    cases k with
    | zero =>
      obtain ⟨rfl, h2⟩ := h.cons_zero
      rw [writes, print_err h2]
      simp [broken]
    | succ k =>
      obtain ⟨h1, h2⟩ := h.cons_succ
      rw [writes, print_ok h1]
      simp only
      rw [ih (o := o.add [u]) h2, broken_add]
      simp [Nat.add_comm]

theorem prints_pass {dev : Device} {ts : List Str} {o : Out} (h : Passes dev o.calls ts) : o.prints dev ts = (o.add ts, none) := by
  induction ts generalizing o with
  | nil => rw [add_nil]; rfl
  | cons t ts ih =>
    obtain ⟨h1, h2⟩ := Passes.cons.1 h
    rw [prints, print_ok h1]
    simp only
    rw [ih (o := o.add [t]) h2, add_add]
    rfl

theorem prints_fail {dev : Device} {ts : List Str} {o : Out} {k : Nat} {t : Str} {e : Err} (h : FailsAt dev o.calls ts k t e) :
    o.prints dev ts = (o.broken ts k o.pending, some e) := by
  induction ts generalizing o k with
  | nil => exact absurd h.lt (by simp)
  | cons u ts ih =>
    cases k with
    | zero =>
      obtain ⟨rfl, h2⟩ := h.cons_zero
      rw [prints, print_err h2]
      simp [broken]
    | succ k =>
      obtain ⟨h1, h2⟩ := h.cons_succ
      rw [prints, print_ok h1]
      simp only
      rw [ih (o := o.add [u]) h2, broken_add]
      simp [Nat.add_comm, add]

end Out

namespace Debug

/-- A part of the program prints the texts `ts` and ends with `res`; if a text is not written, it ends with
the exception, and the text is left in a buffer (always if `buffered`). -/
structure Prints (buffered : Prop) (P : Device → Out → Out × Res Unit) (ts : List Str) (res : Res Unit) : Prop where
  pass : ∀ dev o, Passes dev o.calls ts → P dev o = (o.add ts, res)
  fail : ∀ dev o k t e, FailsAt dev o.calls ts k t e → e ≠ .keyboardInterrupt →
    ∃ p, (p = some t ∨ p = o.pending ∧ ¬ buffered) ∧ P dev o = (o.broken ts k p, .err e)

/-- The texts that the runner for input prints, until it ends. -/
def byteIoTexts (fuel : Nat) (s : Settings) (src : Source) (term wide : Nat → Int) (opened : Option Err) (io : List IoStep) : List Str :=
  printsOf s.debug (reinitEvents s wide) ++
  match opened with
  | some _ => []
  | none =>
    printsOf s.debug (openingEvents (Config.create s).settings src (Reader.chunkSize (Config.create s).settings.buffer (Config.create s).settings.debug))
      ++ printsOf s.debug (readingTrace fuel s src term wide io).evs

/-- How it ends. -/
def byteIoEnd (fuel : Nat) (s : Settings) (src : Source) (term wide : Nat → Int) (opened : Option Err) (io : List IoStep) : Res Unit :=
  match opened with
  | some e => .err e
  | none => match (readingTrace fuel s src term wide io).res with
    | .ok _ => .ok ()
    | .err e => if e = .keyboardInterrupt then .ok () else .err e
    | .timeout => .timeout

/-- All writes of the runner for input are to buffers. -/
theorem byteIoOn_fail {dev : Device} (fuel : Nat) (s : Settings) (src : Source) (term wide : Nat → Int) (opened : Option Err) (io : List IoStep) {o : Out}
    {k : Nat} {t : Str} {e : Err} (h : FailsAt dev o.calls (byteIoTexts fuel s src term wide opened io) k t e) (he : e ≠ .keyboardInterrupt) :
    byteIoOn dev fuel s src term wide opened io o = (o.broken (byteIoTexts fuel s src term wide opened io) k (some t), .err e) := by
  unfold byteIoOn
  unfold byteIoTexts at h ⊢
  simp only
  rcases h.append with ⟨hk, h1⟩ | ⟨j, rfl, h1, h2⟩
  · rw [Out.writes_fail h1, Out.broken_left _ _ _ hk]
  · rw [Out.writes_pass h1]
    simp only
    cases opened with
    | some e' => exact absurd h2.lt (by simp)
    | none =>
      simp only at h2 ⊢
      rw [← Out.broken_add]
      generalize ho : o.add (printsOf s.debug (reinitEvents s wide)) = o1
      have hc : o1.calls = o.calls + (printsOf s.debug (reinitEvents s wide)).length := by rw [← ho]; rfl
      rw [← hc] at h2
      rcases h2.append with ⟨hk, h3⟩ | ⟨i, rfl, h3, h4⟩
      · rw [Out.writes_fail h3, Out.broken_left _ _ _ hk]
      · rw [Out.writes_pass h3]
        simp only
        rw [Out.writes_fail (show FailsAt dev (o1.add _).calls _ i t e from h4), ← Out.broken_add]
        simp only [if_neg he]

theorem byteIoOn_pass {dev : Device} (fuel : Nat) (s : Settings) (src : Source) (term wide : Nat → Int) (opened : Option Err) (io : List IoStep) {o : Out}
    (h : Passes dev o.calls (byteIoTexts fuel s src term wide opened io)) :
    byteIoOn dev fuel s src term wide opened io o = (o.add (byteIoTexts fuel s src term wide opened io), byteIoEnd fuel s src term wide opened io) := by
  unfold byteIoOn byteIoEnd
  unfold byteIoTexts at h ⊢
  simp only
  obtain ⟨h1, h2⟩ := Passes.append.1 h
  rw [Out.writes_pass h1]
  simp only
  cases opened with
  | some e' => simp only [List.append_nil]
  | none =>
    simp only at h2 ⊢
    rw [← Out.add_add]
    generalize ho : o.add (printsOf s.debug (reinitEvents s wide)) = o1
    have hc : o1.calls = o.calls + (printsOf s.debug (reinitEvents s wide)).length := by rw [← ho]; rfl
    rw [← hc] at h2
    obtain ⟨h3, h4⟩ := Passes.append.1 h2
    rw [Out.writes_pass h3]
    simp only
    rw [Out.writes_pass (show Passes dev (o1.add _).calls _ from h4), Out.add_add]
    simp only
    cases (readingTrace fuel s src term wide io).res <;> rfl

theorem byteIo_prints (fuel : Nat) (s : Settings) (src : Source) (term wide : Nat → Int) (opened : Option Err) (io : List IoStep) :
    Prints True (fun dev o => byteIoOn dev fuel s src term wide opened io o) (byteIoTexts fuel s src term wide opened io) (byteIoEnd fuel s src term wide opened io) :=
  ⟨fun _ _ h => byteIoOn_pass fuel s src term wide opened io h,
   fun _ _ _ t _ h he => ⟨some t, .inl rfl, byteIoOn_fail fuel s src term wide opened io h he⟩⟩

/-- The texts of a runner. -/
def runnerTexts (fuel : Nat) (d : Details) (s : Settings) (src : Source) (term : Nat → Int) (opened : Option Err)
    (io : List IoStep) (legend version : List Str) : List Str :=
  match Runner.create s with
  | .legend => legend
  | .version => version
  | .demo => byteIoTexts fuel (demoSettings s) src term (fun k => d.wide (k + 2)) opened io
      ++ (match byteIoEnd fuel (demoSettings s) src term (fun k => d.wide (k + 2)) opened io with
        | .ok _ => [demoHint]
        | _ => [])
  | .byteIo => byteIoTexts fuel s src term (fun k => d.wide (k + 2)) opened io

/-- How a runner ends. -/
def runnerEnd (fuel : Nat) (d : Details) (s : Settings) (src : Source) (term : Nat → Int) (opened : Option Err)
    (io : List IoStep) : Res Unit :=
  match Runner.create s with
  | .legend => .ok ()
  | .version => .ok ()
  | .demo => byteIoEnd fuel (demoSettings s) src term (fun k => d.wide (k + 2)) opened io
  | .byteIo => byteIoEnd fuel s src term (fun k => d.wide (k + 2)) opened io

theorem runner_prints (fuel : Nat) (d : Details) (s : Settings) (src : Source) (term : Nat → Int) (opened : Option Err)
    (io : List IoStep) (legend version : List Str) :
    Prints (Runner.create s = .byteIo) (fun dev o => runnerOn dev fuel d s src term opened io legend version o) (runnerTexts fuel d s src term opened io legend version)
      (runnerEnd fuel d s src term opened io) := by
  unfold runnerOn runnerTexts runnerEnd
  simp only
  cases Runner.create s with
  | legend =>
    refine ⟨fun dev o h => ?_, fun dev o k t e h he => ⟨o.pending, .inr ⟨rfl, by simp⟩, ?_⟩⟩
    · simp only at h ⊢; rw [Out.prints_pass h]
    · simp only at h ⊢; rw [Out.prints_fail h]
  | version =>
    refine ⟨fun dev o h => ?_, fun dev o k t e h he => ⟨o.pending, .inr ⟨rfl, by simp⟩, ?_⟩⟩
    · simp only at h ⊢; rw [Out.prints_pass h]
    · simp only at h ⊢; rw [Out.prints_fail h]
  | byteIo =>
    have h := byteIo_prints fuel s src term (fun k => d.wide (k + 2)) opened io
    exact ⟨h.pass, fun dev o k t e hf he => by
      obtain ⟨p, hp, e1⟩ := h.fail dev o k t e hf he
      exact ⟨p, hp.imp id fun x => ⟨x.1, fun _ => x.2 trivial⟩, e1⟩⟩
  | demo =>
    simp only
    refine ⟨fun dev o h => ?_, fun dev o k t e h he => ?_⟩
    · obtain ⟨h1, h2⟩ := Passes.append.1 h
      rw [byteIoOn_pass _ _ _ _ _ _ _ h1]
      cases hr : byteIoEnd fuel (demoSettings s) src term (fun k => d.wide (k + 2)) opened io with
      | ok u =>
        rw [hr] at h2
        simp only at h2 ⊢
        rw [Out.prints_pass (show Passes dev (o.add _).calls _ from h2), Out.add_add]
      | err e => simp only [List.append_nil]
      | timeout => simp only [List.append_nil]
    · rcases h.append with ⟨hk, h1⟩ | ⟨j, rfl, h1, h2⟩
      · rw [byteIoOn_fail _ _ _ _ _ _ _ h1 he]
        exact ⟨some t, .inl rfl, by simp only; rw [Out.broken_left _ _ _ hk]⟩
      · rw [byteIoOn_pass _ _ _ _ _ _ _ h1]
        cases hr : byteIoEnd fuel (demoSettings s) src term (fun k => d.wide (k + 2)) opened io with
        | ok u =>
          rw [hr] at h2
          simp only at h2 ⊢
          rw [Out.prints_fail (show FailsAt dev (o.add _).calls _ j t e from h2)]
          exact ⟨o.pending, .inr ⟨rfl, by simp⟩, by simp only; rw [Out.broken_add]; rfl⟩
        | err e' => rw [hr] at h2; exact absurd h2.lt (by simp)
        | timeout => rw [hr] at h2; exact absurd h2.lt (by simp)

/-- The last texts. -/
def lastTexts (d : Details) (s : Settings) : Res Unit → List Str
  | .ok _ => [['\n']]
  | .err e => if e = .keyboardInterrupt then [] else [onException s (d.trace e), ['\n']]
  | .timeout => []

/-- The exit status, if everything is written. -/
def lastStatus : Res Unit → Option Nat
  | .ok _ => some 0
  | .err e => if e = .keyboardInterrupt then some 130 else some 1
  | .timeout => none

/-- The end of the program. -/
def endOn (dev : Device) (d : Details) (s : Settings) (r : Out × Res Unit) : Out × Option Nat :=
  match r with
  | (o, .ok _) => exitOn dev 0 o
  | (o, .err e) => handleOn dev d s e o
  | (o, .timeout) => (o, none)

theorem exit_pass {dev : Device} {o : Out} (code : Nat) (h : dev o.calls ['\n'] = none) : exitOn dev code o = (o.add [['\n']], some code) := by
  unfold exitOn
  rw [Out.print_ok h]

theorem exit_fail {dev : Device} {o : Out} (code : Nat) {e : Err} (h : dev o.calls ['\n'] = some e) :
    exitOn dev code o = (o.broken [['\n']] 0 o.pending, some (uncaught e)) := by
  unfold exitOn
  rw [Out.print_err h]

theorem end_pass {dev : Device} (d : Details) (s : Settings) {o : Out} (hp : o.pending = none) (res : Res Unit)
    (h : Passes dev o.calls (lastTexts d s res)) : endOn dev d s (o, res) = (o.add (lastTexts d s res), lastStatus res) := by
  unfold endOn lastTexts lastStatus
  cases res with
  | ok u => exact exit_pass 0 (Passes.cons.1 h).1
  | timeout => simp only [Out.add_nil]
  | err e =>
    simp only
    unfold lastTexts at h
    simp only at h
    unfold handleOn
    by_cases he : e = .keyboardInterrupt
    · simp only [if_pos he, Out.add_nil]
    · simp only [if_neg he] at h ⊢
      obtain ⟨h1, h2⟩ := Passes.cons.1 h
      rw [hp]
      simp only
      rw [Out.print_ok h1]
      simp only
      rw [exit_pass 1 (show dev (o.add [onException s (d.trace e)]).calls _ = none from (Passes.cons.1 h2).1), Out.add_add]
      rfl

/-- What is printed after an exception. -/
theorem handle_tail (dev : Device) (d : Details) (s : Settings) {e : Err} (he : e ≠ .keyboardInterrupt) {o : Out} {t : Str}
    (hp : o.pending = none ∨ o.pending = some t) :
    ∃ tail : List Str, tail.Sublist [t, onException s (d.trace e), ['\n']] ∧ (handleOn dev d s e o).1.written = o.written ++ tail ∧
      ((handleOn dev d s e o).2 = some 1 ∨ (handleOn dev d s e o).2 = some 130 ∧ ∃ j u, dev j u = some .keyboardInterrupt) := by
  have hu : ∀ (j : Nat) (u : Str) (e' : Err), dev j u = some e' → some (uncaught e') = some 1 ∨ some (uncaught e') = some 130 ∧ ∃ j u, dev j u = some .keyboardInterrupt := by
    intro j u e' h
    unfold uncaught
    by_cases hk : e' = .keyboardInterrupt
    · subst hk; exact .inr ⟨by simp, j, u, h⟩
    · rw [if_neg hk]; exact .inl rfl
  have last : ∀ o : Out, ∃ tail : List Str, tail.Sublist [['\n']] ∧ (exitOn dev 1 o).1.written = o.written ++ tail ∧
      ((exitOn dev 1 o).2 = some 1 ∨ (exitOn dev 1 o).2 = some 130 ∧ ∃ j u, dev j u = some .keyboardInterrupt) := by
    intro o
    cases h : dev o.calls ['\n'] with
    | none => rw [exit_pass 1 h]; exact ⟨[['\n']], List.Sublist.refl _, rfl, .inl rfl⟩
    | some e' => rw [exit_fail 1 h]; exact ⟨[], List.nil_sublist _, by simp [Out.broken], hu _ _ _ h⟩
  have rest : ∀ o : Out, ∃ tail : List Str, tail.Sublist [onException s (d.trace e), ['\n']] ∧
      (match o.print dev (onException s (d.trace e)) with
        | (o, some e) => (o, some (uncaught e))
        | (o, none) => exitOn dev 1 o : Out × Option Nat).1.written = o.written ++ tail ∧
      ((match o.print dev (onException s (d.trace e)) with
        | (o, some e) => (o, some (uncaught e))
        | (o, none) => exitOn dev 1 o : Out × Option Nat).2 = some 1 ∨
       (match o.print dev (onException s (d.trace e)) with
        | (o, some e) => (o, some (uncaught e))
        | (o, none) => exitOn dev 1 o : Out × Option Nat).2 = some 130 ∧ ∃ j u, dev j u = some .keyboardInterrupt) := by
    intro o
    cases h : dev o.calls (onException s (d.trace e)) with
    | none =>
      rw [Out.print_ok h]
      simp only
      obtain ⟨tail, h1, h2, h3⟩ := last (o.add [onException s (d.trace e)])
      exact ⟨onException s (d.trace e) :: tail, h1.cons_cons _, by rw [h2]; simp [Out.add], h3⟩
    | some e' =>
      rw [Out.print_err h]
      exact ⟨[], List.nil_sublist _, by simp [Out.broken], hu _ _ _ h⟩
  unfold handleOn
  simp only [if_neg he]
  rcases hp with hp | hp
  · rw [hp]
    simp only
    obtain ⟨tail, h1, h2, h3⟩ := rest o
    exact ⟨tail, h1.cons _, h2, h3⟩
  · rw [hp]
    simp only
    cases h : dev o.calls t with
    | none =>
      rw [Out.print_ok h]
      simp only
      obtain ⟨tail, h1, h2, h3⟩ := rest { o.add [t] with pending := none }
      exact ⟨t :: tail, h1.cons_cons _, h2.trans (by simp [Out.add]), h3⟩
    | some e' =>
      rw [Out.print_err h]
      exact ⟨[], List.nil_sublist _, by simp [Out.broken], hu _ _ _ h⟩

/-- If the text in the buffer still cannot be printed, nothing is printed after an exception. -/
theorem handle_stuck {dev : Device} (d : Details) (s : Settings) {e e' : Err} (he : e ≠ .keyboardInterrupt) {o : Out} {t : Str} (hp : o.pending = some t)
    (h : dev o.calls t = some e') : (handleOn dev d s e o).1.written = o.written ∧ (handleOn dev d s e o).2 = some (uncaught e') := by
  unfold handleOn
  simp only [if_neg he]
  rw [hp]
  simp only
  rw [Out.print_err h]
  exact ⟨by simp [Out.broken], rfl⟩

/-- All texts of a run. -/
def appTexts (fuel : Nat) (d : Details) (s : Settings) (file : Option Str) (src : Source) (term : Nat → Int) (opened : Option Err)
    (io : List IoStep) (legend version : List Str) : List Str :=
  printsOf s.debug (settingsEvents s file d.methodRepr d.wide)
    ++ (runnerTexts fuel d (debugSettings s) src term opened io legend version
    ++ lastTexts d s (runnerEnd fuel d (debugSettings s) src term opened io))

theorem app_pass {dev : Device} (fuel : Nat) (d : Details) (s : Settings) (file : Option Str) (src : Source) (term : Nat → Int) (opened : Option Err)
    (io : List IoStep) (legend version : List Str) (h : Passes dev 0 (appTexts fuel d s file src term opened io legend version)) :
    appOn dev fuel d s file src term opened io legend version =
      (({} : Out).add (appTexts fuel d s file src term opened io legend version), lastStatus (runnerEnd fuel d (debugSettings s) src term opened io)) := by
  unfold appTexts at h ⊢
  obtain ⟨h1, h2⟩ := Passes.append.1 h
  obtain ⟨h2, h3⟩ := Passes.append.1 h2
  unfold appOn
  rw [Out.writes_pass (show Passes dev ({} : Out).calls _ from h1)]
  simp only
  rw [(runner_prints fuel d (debugSettings s) src term opened io legend version).pass dev _ (show Passes dev (Out.add {} _).calls _ from h2)]
  have h4 := end_pass (dev := dev) d s (o := (({} : Out).add (printsOf s.debug (settingsEvents s file d.methodRepr d.wide))).add
    (runnerTexts fuel d (debugSettings s) src term opened io legend version)) rfl (runnerEnd fuel d (debugSettings s) src term opened io) h3
  rw [Out.add_add, Out.add_add] at h4
  rw [Out.add_add, ← List.append_assoc, ← h4]
  rfl

/-- The settings table and the runner: the texts before the end. -/
theorem app_fail {dev : Device} (fuel : Nat) (d : Details) (s : Settings) (file : Option Str) (src : Source) (term : Nat → Int) (opened : Option Err)
    (io : List IoStep) (legend version : List Str) {k : Nat} {t : Str} {e : Err}
    (h : FailsAt dev 0 (appTexts fuel d s file src term opened io legend version) k t e) (he : e ≠ .keyboardInterrupt) :
    (∃ p, (p = some t ∨ p = none ∧ Runner.create (debugSettings s) ≠ .byteIo) ∧ appOn dev fuel d s file src term opened io legend version =
      handleOn dev d s e (({} : Out).broken (appTexts fuel d s file src term opened io legend version) k p)) ∨
    ((appOn dev fuel d s file src term opened io legend version).1.written = (appTexts fuel d s file src term opened io legend version).take k ∧
      (appOn dev fuel d s file src term opened io legend version).2 = some 1) := by
  have hu : uncaught e = 1 := by unfold uncaught; rw [if_neg he]
  have hr := runner_prints fuel d (debugSettings s) src term opened io legend version
  unfold appTexts at h ⊢
  unfold appOn
  rcases h.append with ⟨hk, h1⟩ | ⟨j, rfl, h1, h2⟩
  · rw [Out.writes_fail (show FailsAt dev ({} : Out).calls _ k t e from h1)]
    refine .inl ⟨some t, .inl rfl, ?_⟩
    simp only
    rw [Out.broken_left _ _ _ hk]
  · rw [Out.writes_pass (show Passes dev ({} : Out).calls _ from h1)]
    simp only
    rw [Nat.zero_add] at h2
    generalize hT : printsOf s.debug (settingsEvents s file d.methodRepr d.wide) = T at h1 h2 ⊢
    have hc : (({} : Out).add T).calls = T.length := Nat.zero_add _
    rcases h2.append with ⟨hk, h3⟩ | ⟨i, rfl, h3, h4⟩
    · obtain ⟨p, hp, e1⟩ := hr.fail dev (({} : Out).add T) j t e (by rw [hc]; exact h3) he
      rw [e1]
      refine .inl ⟨p, hp, ?_⟩
      simp only
      rw [Out.broken_add, ← List.append_assoc, Out.broken_left _ (T ++ _) _ (by rw [List.length_append]; omega)]
    · rw [hr.pass dev (({} : Out).add T) (by rw [hc]; exact h3), Out.add_add]
      generalize runnerTexts fuel d (debugSettings s) src term opened io legend version = R at h3 h4 ⊢
      have hw : ∀ n, List.take (T.length + (R.length + n)) (T ++ (R ++ lastTexts d s (runnerEnd fuel d (debugSettings s) src term opened io))) =
          T ++ R ++ (lastTexts d s (runnerEnd fuel d (debugSettings s) src term opened io)).take n := by
        intro n
        rw [← List.append_assoc, ← Nat.add_assoc, ← List.length_append, List.take_length_add_append]
      rw [hw]
      have hc2 : (({} : Out).add (T ++ R)).calls = T.length + R.length := by simp [Out.add]
      generalize runnerEnd fuel d (debugSettings s) src term opened io = res at h4 ⊢ hw
      refine .inr ?_
      cases res with
      | timeout => exact absurd h4.lt (by simp [lastTexts])
      | ok u =>
        have hi : i = 0 := by have := h4.lt; simp [lastTexts] at this; exact this
        subst hi
        obtain ⟨rfl, h5⟩ := h4.cons_zero
        simp only
        rw [exit_fail 0 (show dev (Out.add {} (T ++ R)).calls _ = some e by rw [hc2]; exact h5), hu]
        exact ⟨by simp [Out.broken, Out.add], rfl⟩
      | err e' =>
        simp only
        unfold lastTexts at h4 ⊢
        unfold handleOn
        simp only at h4 ⊢
        by_cases hk : e' = .keyboardInterrupt
        · rw [if_pos hk] at h4; exact absurd h4.lt (by simp)
        · simp only [if_neg hk] at h4 ⊢
          have hpn : (({} : Out).add (T ++ R)).pending = none := rfl
          rw [hpn]
          simp only
          cases i with
          | zero =>
            obtain ⟨rfl, h5⟩ := h4.cons_zero
            rw [Out.print_err (show dev (Out.add {} (T ++ R)).calls _ = some e by rw [hc2]; exact h5)]
            simp only
            rw [hu]
            exact ⟨by simp [Out.broken, Out.add], rfl⟩
          | succ i =>
            obtain ⟨h5, h6⟩ := h4.cons_succ
            have hi : i = 0 := by have := h6.lt; simp at this; exact this
            subst hi
            obtain ⟨rfl, h7⟩ := h6.cons_zero
            rw [Out.print_ok (show dev (Out.add {} (T ++ R)).calls _ = none by rw [hc2]; exact h5)]
            simp only
            rw [exit_fail 1 (show dev ((Out.add {} (T ++ R)).add [onException s (d.trace e')]).calls _ = some e by
              simp only [Out.add, List.length_singleton, Nat.zero_add, List.length_append]; exact h7), hu]
            exact ⟨by simp [Out.broken, Out.add], rfl⟩

end Debug

end Kolombos
