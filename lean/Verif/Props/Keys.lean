import Verif.Spec.Keys
import Verif.Lemmas.Columns
import Verif.Lemmas.Agree
/-
C105: waiting for a key.  C106: the width of the terminal.
-/
set_option linter.unusedSimpArgs false

namespace Kolombos
open Spec

/-! ### C106 -/

/-- C106, first part: the width that the program computes, for every terminal that has a width. -/
theorem C106_width (toInt : Str → Option Int) (z : Bool) (e : Surroundings) (hs : ∀ l, e.stdout ≠ some (0, l)) (W : Int) :
    (getTerminalSize toInt z e).1 = W ↔ IsWidth toInt e W := by
  have key : ∀ c, WidthAsked toInt e c ↔ (0 < c ∧ envInt toInt e.varColumns = c) := by
    intro c
    unfold WidthAsked envInt
    cases h : e.varColumns with
    | none => simp; omega
    | some t =>
      cases h2 : toInt t with
      | none => simp [h2]; omega
      | some d => simp [h2]
  unfold IsWidth getTerminalSize
  simp only [key]
  generalize envInt toInt e.varColumns = c
  generalize envInt toInt e.varLines = l
  by_cases hc : c ≤ 0
  · have hno : ∀ x : Int, ¬ (0 < x ∧ c = x) := by intro x; omega
    simp only [hc, hno, true_or, if_true, not_false_eq_true, implies_true, true_and, false_or]
    cases hx : e.stdout with
    | none =>
      simp
      omega
    | some p =>
      obtain ⟨a, b⟩ := p
      have ha : a ≠ 0 := by intro h0; exact hs b (by rw [hx, h0])
      have : ¬ (z = true ∧ a = 0) := fun h => ha h.2
      simp only [Option.getD_some, this, if_false, reduceCtorEq, false_and, or_false, Option.some.injEq, Prod.mk.injEq]
      constructor
      · intro h; exact ⟨a, b, ⟨rfl, rfl⟩, h⟩
      · rintro ⟨x, y, ⟨h1, -⟩, h2⟩; rw [h1]; exact h2
  · have h1 : (if c ≤ 0 ∨ l ≤ 0 then
      ((if c ≤ 0 then (if z = true ∧ (e.stdout.getD (80, 24)).1 = 0 then (80 : Int) else (e.stdout.getD (80, 24)).1) else c),
       if l ≤ 0 then (if z = true ∧ (e.stdout.getD (80, 24)).2 = 0 then (24 : Int) else (e.stdout.getD (80, 24)).2) else l)
      else (c, l)).1 = c := by
      by_cases hl : l ≤ 0 <;> simp [hc, hl]
    rw [h1]
    constructor
    · intro h; exact .inl ⟨by omega, h⟩
    · rintro (h | h)
      · exact h.2
      · exact absurd ⟨by omega, rfl⟩ (h.1 c)

/-- C106, second part: output that does not go to a terminal depends on `COLUMNS` only. -/
theorem C106_redirected (toInt : Str → Option Int) (z : Bool) (e : Surroundings) (hs : e.stdout = none) (hc : ∀ c, ¬ WidthAsked toInt e c) :
    (getTerminalSize toInt z e).1 = 80 :=
  (C106_width toInt z e (by simp [hs]) 80).2 (.inr ⟨hc, .inr ⟨hs, rfl⟩⟩)

/-- `--columns` with the value `v`. -/
def setColumns (s : Settings) (v : Option Int) : Settings := { s with columns := v }

theorem readMode_setColumns (s : Settings) (v : Option Int) : (setColumns s v).readMode = (s.readMode.1, setColumns s.readMode.2 v) := by
  unfold Settings.readMode setColumns
  cases h1 : s.binary <;> cases h2 : s.text <;> simp [h1, h2]

theorem template_setColumns (kind : TplKind) (cc : CharClass) (o : PartialOverride Mode Sgr) (l : PartialOverride Mode Str) (s : Settings) (v : Option Int) :
    (Template.create kind cc o l (setColumns s v)).1 = (Template.create kind cc o l s).1 := by
  unfold Template.create
  simp only [readMode_setColumns]
  rfl

/-- The templates do not depend on the number of columns. -/
theorem registry_setColumns (s : Settings) (v : Option Int) : (Registry.create (setColumns s v)).1 = (Registry.create s).1 := by
  simp only [Registry.create, create_snd, readMode_setColumns, readMode_idem, template_setColumns]

/-- The parser does not look at the number of columns. -/
theorem subItems_setColumns (reg : Registry) (s : Settings) (v : Option Int) (items : List (Item Byte)) :
    ∀ buf, subItems reg (setColumns s v) items buf = subItems reg s items buf := by
  induction items with
  | nil => intro buf; rfl
  | cons i items ih =>
    intro buf
    cases i with
    | copied b => simp only [subItems, ih]
    | matched m =>
      have : matchSegments reg (setColumns s v) m = matchSegments reg s m := rfl
      simp only [subItems, this, ih]

/-- Neither does the printing of the rows. -/
theorem binLoop_setColumns (s : Settings) (v : Option Int) (cols req : Int) (closed : Bool) (n : Nat) :
    ∀ buf off, BinaryFormatter.loop (setColumns s v) cols req closed n buf off = BinaryFormatter.loop s cols req closed n buf off := by
  induction n with
  | zero => intro buf off; rfl
  | succ n ih =>
    intro buf off
    have : ∀ a b c d, BinaryFormatter.row (setColumns s v) a b c d = BinaryFormatter.row s a b c d := fun _ _ _ _ => rfl
    simp only [BinaryFormatter.loop, this, ih]

/-- On a terminal that keeps its width, the automatic number of columns is the same in every step. -/
theorem processChunk_setColumns (fuel : Nat) (s : Settings) (hm : s.readMode.1 = .binary) (hc : s.columns = none) (term : Nat → Int) (W : Int)
    (hW : ∀ k, term k = W) :
    processChunk fuel (Config.create (setColumns s (some (autoColumns s.decimalOffsets W)))) term = processChunk fuel (Config.create s) term := by
  funext st raw off fin
  rw [config_parts, config_parts, registry_setColumns, readMode_setColumns, hm]
  obtain ⟨-, -, -, -, -, -, -, -, -, c1, -, c2, -⟩ := readMode_fields s
  generalize s.readMode.2 = q at c1 c2 ⊢
  generalize hv : some (autoColumns s.decimalOffsets W) = v
  have hp : ∀ pb buf, parse (Registry.create s).1 (setColumns q v) pb buf = parse (Registry.create s).1 q pb buf := by
    intro pb buf
    unfold parse
    rw [subItems_setColumns]
  have hcur : ∀ k off, BinaryFormatter.curCols (setColumns q v) (term k) off = BinaryFormatter.curCols q (term k) off := by
    intro k off
    unfold BinaryFormatter.curCols
    rw [c1, hc]
    subst hv
    simp only [setColumns, BinaryFormatter.computeCols, prefix_length, terminalWidth, hW, c2, autoColumns]
    cases s.decimalOffsets <;> simp <;> omega
  have hf : ∀ k c b o, BinaryFormatter.format fuel (setColumns q v) (term k) c b o = BinaryFormatter.format fuel q (term k) c b o := by
    intro k c b o
    unfold BinaryFormatter.format
    rw [hcur]
    simp only [binLoop_setColumns]
    rfl
  unfold processChunk formatStep
  simp only [hp, hf]

/-- C106, third part: in binary mode without `--columns`, on a terminal of any width that does not change,
the program does what it does with `--columns` and the number of bytes computed from the width. -/
theorem C106_columns (fuel : Nat) (s : Settings) (hm : s.readMode.1 = .binary) (hc : s.columns = none) (hd : s.demo = false)
    (term : Nat → Int) (W : Int) (hW : ∀ k, term k = W) (opened : Option Err) (io : List IoStep) (legend version : Str) :
    appRun fuel s term opened io legend version =
      appRun fuel { s with columns := some (autoColumns s.decimalOffsets W) } term opened io legend version := by
  show _ = appRun fuel (setColumns s (some (autoColumns s.decimalOffsets W))) term opened io legend version
  have hds : ∀ v, debugSettings (setColumns s v) = setColumns (debugSettings s) v := by
    intro v
    unfold debugSettings
    rw [readMode_setColumns]
    by_cases h1 : s.debug ≥ 4
    · simp only [h1, if_true, setColumns]
    · simp only [h1, if_false, setColumns]
  have kept : (debugSettings s).readMode.1 = .binary ∧ (debugSettings s).columns = none ∧ (debugSettings s).demo = false ∧
      (debugSettings s).decimalOffsets = s.decimalOffsets := by
    unfold debugSettings
    by_cases h1 : s.debug ≥ 4
    · simp only [h1, if_true]
      revert hm
      unfold Settings.readMode
      cases h2 : s.binary <;> cases h3 : s.text <;> cases h4 : s.defaultReadMode <;> simp [h2, h3, h4, hc, hd]
    · simp only [h1, if_false]
      exact ⟨hm, hc, hd, trivial⟩
  unfold appRun
  simp only [hds]
  generalize debugSettings s = q at kept
  obtain ⟨k1, k2, k3, k4⟩ := kept
  rw [← k4]
  have hb : byteIoRun fuel (setColumns q (some (autoColumns q.decimalOffsets W))) term opened io = byteIoRun fuel q term opened io := by
    have hp := processChunk_setColumns fuel q k1 k2 term W hW
    unfold byteIoRun
    simp only [hp]
    rw [config_parts, config_parts, readMode_setColumns]
    rfl
  have hr : Runner.create (setColumns q (some (autoColumns q.decimalOffsets W))) = Runner.create q := rfl
  rw [hr]
  unfold Runner.create
  rw [k3]
  cases q.legend
  · cases q.version
    · simp only [Bool.false_eq_true, if_false, hb]
    · rfl
  · rfl

/-- One more option at the end of an accepted command line. -/
theorem parseLoop_columns (v : Int) (as : List Arg) : ∀ (seen : List Arg) (s : Settings) (file : Option Str) (extra : Bool) (s' : Settings) (name : Option Str),
    parseLoop as seen s file extra = .run s' name →
    parseLoop (as ++ [.int .columns (some v)]) seen s file extra = .run { s' with columns := some v } name := by
  induction as with
  | nil =>
    intro seen s file extra s' name h
    simp only [parseLoop] at h
    cases extra
    · simp at h
      obtain ⟨rfl, rfl⟩ := h
      rfl
    · simp at h
  | cons a as ih =>
    intro seen s file extra s' name h
    rw [List.cons_append]
    cases a with
    | file n =>
      simp only [parseLoop] at h ⊢
      cases file with
      | some f => exact ih _ _ _ _ _ _ h
      | none =>
        simp only at h ⊢
        split at h
        · cases h
        · rename_i hcf; rw [if_neg hcf]; exact ih _ _ _ _ _ _ h
    | flag f =>
      simp only [parseLoop] at h ⊢
      split at h
      · cases h
      · rename_i hcf; rw [if_neg hcf]; exact ih _ _ _ _ _ _ h
    | int o x =>
      cases x with
      | none => simp [parseLoop] at h
      | some x => simp only [parseLoop] at h ⊢; exact ih _ _ _ _ _ _ h
    | debug => simp only [parseLoop] at h ⊢; exact ih _ _ _ _ _ _ h
    | help => simp [parseLoop] at h

/-- C106 for the program: reading a file in binary mode without `--columns`, with surroundings that give a
width of `W` all the time, the program prints what it prints with `--columns` and this number. -/
theorem C106_program (fuel : Nat) (w : World) (toInt : Str → Option Int) (z : Bool) (around : Nat → Surroundings) (W : Int)
    (hterm : ∀ k l, (around k).stdout ≠ some (0, l)) (hW : ∀ k, IsWidth toInt (around k) W)
    (args : List Arg) (s : Settings) (name : Option Str) (hp : parseArgs args = .run s name)
    (hm : s.readMode.1 = .binary) (hc : s.columns = none) (hd : s.demo = false) :
    program fuel (w.inside toInt z around) args =
      program fuel (w.inside toInt z around) (args ++ [.int .columns (some (autoColumns s.decimalOffsets W))]) := by
  have hp' : parseArgs (args ++ [.int .columns (some (autoColumns s.decimalOffsets W))]) =
      .run { s with columns := some (autoColumns s.decimalOffsets W) } name := parseLoop_columns _ _ _ _ _ _ _ _ hp
  unfold program
  rw [hp, hp']
  have ho : (w.inside toInt z around).open { s with columns := some (autoColumns s.decimalOffsets W) } name =
      (w.inside toInt z around).open s name := rfl
  simp only [ho]
  exact C106_columns fuel s hm hc hd _ W (fun k => (C106_width toInt z (around k) (hterm k) W).2 (hW k)) _ _ _ _

/-- C106 for output into a file or a pipe with `COLUMNS` not set: 8 bytes in a row, 12 with decimal offsets. -/
theorem C106_pipe (fuel : Nat) (w : World) (toInt : Str → Option Int) (z : Bool) (around : Nat → Surroundings)
    (hterm : ∀ k, (around k).stdout = none) (hv : ∀ k, (around k).varColumns = none)
    (args : List Arg) (s : Settings) (name : Option Str) (hp : parseArgs args = .run s name)
    (hm : s.readMode.1 = .binary) (hc : s.columns = none) (hd : s.demo = false) :
    program fuel (w.inside toInt z around) args =
      program fuel (w.inside toInt z around) (args ++ [.int .columns (some (if s.decimalOffsets then 12 else 8))]) := by
  have := C106_program fuel w toInt z around 80 (fun k l => by simp [hterm k])
    (fun k => .inr ⟨fun c h => by obtain ⟨-, t, h1, -⟩ := h; simp [hv k] at h1, .inr ⟨hterm k, rfl⟩⟩) args s name hp hm hc hd
  rw [this]
  cases s.decimalOffsets <;> rfl

/-- Earlier versions of python take a width of 0 as it is, so that there is no row at all. -/
example : (getTerminalSize (fun _ => none) false ⟨none, none, some (0, 0)⟩).1 = 0 ∧ autoColumns false 0 = -8 ∧
    (getTerminalSize (fun _ => none) true ⟨none, none, some (0, 0)⟩).1 = 80 := by decide

/-- Not vacuous: `kolombos -b file` with `COLUMNS=120` gives 20 bytes in a row. -/
example : parseArgs [.flag .binary, .file ['f']] = .run { binary := true } (some ['f']) ∧
    IsWidth (fun _ => some 120) ⟨some ['1', '2', '0'], none, some (100, 24)⟩ 120 ∧ autoColumns false 120 = 20 :=
  ⟨rfl, .inl ⟨by decide, _, rfl, rfl⟩, by decide⟩

/-! ### C105 -/

/-- C105, first part: after the call the terminal has the attributes it had before, however waiting ends and
whatever other programs do, provided that the terminal accepts them. -/
theorem C105_restored (k : Keyboard) (w : Waiting) (hr : w.reset = none) : (waitKey k w).kb.attrs = k.attrs := by
  unfold waitKey
  cases ha : k.attrs with
  | none => simp [ha]
  | some old =>
    simp only
    cases w.set with
    | some e => simp [ha]
    | none => simp [hr]

/-- C105, second part: while the program waits, line editing and echo are off and nothing else is changed. -/
theorem C105_during (k : Keyboard) (w : Waiting) (a b : TermAttrs) (ha : k.attrs = some a) (hd : (waitKey k w).during = some b) : OneKeyMode a b := by
  have hb : b = a.single := by
    unfold waitKey at hd
    rw [ha] at hd
    simp only at hd
    cases hs : w.set with
    | some e => rw [hs] at hd; cases hd
    | none =>
      rw [hs] at hd
      cases hr : w.reset <;> rw [hr] at hd <;> exact (Option.some.inj hd).symm
  subst hb
  refine ⟨rfl, rfl, rfl, rfl, rfl, rfl, ?_, ?_, ?_⟩
  · simp [TermAttrs.single, icanon, echo]
  · simp [TermAttrs.single, icanon, echo]
  · intro i h1 h3
    by_cases hi : i < 32
    · have : ∀ j : Fin 32, j.val ≠ 1 → j.val ≠ 3 → (~~~icanon).getLsbD j.val = true ∧ (~~~echo).getLsbD j.val = true := by decide
      obtain ⟨g1, g2⟩ := this ⟨i, hi⟩ h1 h3
      simp only [TermAttrs.single, BitVec.getLsbD_and, g1, g2, Bool.and_true]
    · simp [TermAttrs.single, BitVec.getLsbD_of_ge _ _ (Nat.le_of_not_lt hi)]

/-- C105, third part: input that is not from a terminal is an exception, and nothing happens. -/
theorem C105_no_terminal (k : Keyboard) (w : Waiting) (ha : k.attrs = none) : (waitKey k w).kb = k ∧ (waitKey k w).res = .error .osError := by
  unfold waitKey
  rw [ha]
  exact ⟨rfl, rfl⟩

/-- C105, fourth part: an exception of the read is passed on, after the terminal is restored; only for an `IOError`
the result is `None` instead. -/
theorem C105_exception (k : Keyboard) (w : Waiting) (a : TermAttrs) (ha : k.attrs = some a) (h1 : w.set = none) (h2 : w.reset = none) (e : Err)
    (he : w.keys = .error e) :
    (waitKey k w).kb.attrs = some a ∧ (e = .osError → (waitKey k w).res = .ok none) ∧ (e ≠ .osError → (waitKey k w).res = .error e) := by
  unfold waitKey
  rw [ha, h1, he, h2]
  cases e <;> exact ⟨rfl, by first | (intro _; rfl) | (intro h; cases h), by first | (intro _; rfl) | (intro h; exact absurd rfl h)⟩

/-- C105, fifth part: otherwise the result is the first character there is: one kept from an earlier call, else one typed
before the call, else the first one typed during the call.  If it was none kept, all further ones are kept for
the next calls; if it was, those that are typed are lost. -/
theorem C105_result (k : Keyboard) (w : Waiting) (a : TermAttrs) (ha : k.attrs = some a) (h1 : w.set = none) (h2 : w.reset = none)
    (keys : Str) (he : w.keys = .ok keys) :
    (waitKey k w).res = .ok (some ((k.ahead ++ k.typed ++ keys).take 1)) ∧
    (waitKey k w).kb = ⟨some a, [], if k.ahead = [] then (k.typed ++ keys).drop 1 else k.ahead.drop 1⟩ := by
  unfold waitKey
  rw [ha, h1, he, h2]
  unfold Keyboard.read1
  cases hk : k.ahead with
  | cons c r => simp [hk]
  | nil =>
    cases ht : k.typed ++ keys with
    | nil =>
      simp [hk, ht]
    | cons c r => simp [hk, ht]

/-- C105, last part, as far as it is true: keys that send one character each and are pressed one after the other are
returned one by one, each by the call that waits for it. -/
theorem C105_keys_partial (a : TermAttrs) (cs : List Char) :
    waitKeys ⟨some a, [], []⟩ (cs.map fun c => { keys := .ok [c] }) = (⟨some a, [], []⟩, cs.map fun c => .ok (some [c])) := by
  induction cs with
  | nil => rfl
  | cons c cs ih =>
    simp only [List.map_cons, waitKeys]
    have : (waitKey ⟨some a, [], []⟩ { keys := .ok [c] }) = ⟨⟨some a, [], []⟩, .ok (some [c]), some a.single⟩ := rfl
    rw [this]
    simp only [ih]

/-- C105 is false for other keys: the first call returns a part of what the cursor key sends, and the next call
does not wait for a key, whatever is pressed then. -/
theorem C105_negation : ¬ ∀ (a : TermAttrs) (k₁ k₂ : Str), k₁ ≠ [] → k₂ ≠ [] →
    (waitKeys ⟨some a, [], []⟩ [{ keys := .ok k₁ }, { keys := .ok k₂ }]).2[1]? = some (.ok (some (k₂.take 1))) := by
  intro h
  have := h ⟨0, 0, 0, 0, 0, 0, []⟩ ['\x1b', '[', 'A'] ['x'] (by decide) (by decide)
  have e : (waitKeys ⟨some ⟨0, 0, 0, 0, 0, 0, []⟩, [], []⟩ [{ keys := .ok ['\x1b', '[', 'A'] }, { keys := .ok ['x'] }]).2[1]? =
      some (.ok (some ['['])) := rfl
  rw [e] at this
  simp at this

/-- It is false, too, for keys pressed before the call: they are returned instead. -/
theorem C105_negation_early : ¬ ∀ (a : TermAttrs) (early : Str) (c : Char),
    (waitKey ⟨some a, early, []⟩ { keys := .ok [c] }).res = .ok (some [c]) := by
  intro h
  have := h ⟨0, 0, 0, 0, 0, 0, []⟩ ['q'] 'x'
  have e : (waitKey ⟨some ⟨0, 0, 0, 0, 0, 0, []⟩, ['q'], []⟩ { keys := .ok ['x'] }).res = .ok (some ['q']) := rfl
  rw [e] at this
  simp at this

/-- Not vacuous: an interruption by the user while other programs have changed the attributes. -/
example : let a : TermAttrs := ⟨0x500, 5, 0xbf, 0x8a3b, 15, 15, [[3]]⟩
    let o := waitKey ⟨some a, ['q'], []⟩ { keys := .error .keyboardInterrupt, changed := some ⟨0, 0, 0, 0, 0, 0, []⟩ }
    o.kb = ⟨some a, [], []⟩ ∧ o.res = .error .keyboardInterrupt ∧ o.during.map TermAttrs.lflag = some 0x8a31 := ⟨rfl, rfl, rfl⟩

end Kolombos
