import Verif.Lemmas.Registry
import Verif.Props.Reader
/-
C34, C35: read mode and override tables.
-/
set_option linter.unusedSimpArgs false

namespace Kolombos

/-! ### C34 -/

/-- The answers of `n` queries of the read mode. -/
def readModes : Nat → Settings → List ReadMode
  | 0, _ => []
  | n + 1, s => s.readMode.1 :: readModes n s.readMode.2

/-- The read mode that the flags ask for. -/
def wantedMode (s : Settings) : ReadMode :=
  if s.binary then .binary
  else if s.text then .text
  else if s.demo then .binary
  else .text

/-- C34: any number of queries gives the same answer. -/
theorem C34_stable (s : Settings) (n : Nat) : readModes n s = List.replicate n s.readMode.1 := by
  induction n generalizing s with
  | zero => rfl
  | succ n ih =>
    rw [readModes, ih, List.replicate_succ]
    have : s.readMode.2.readMode.1 = s.readMode.1 := by
      unfold Settings.readMode
      cases hb : s.binary <;> cases ht : s.text <;> cases hd : s.defaultReadMode <;> simp [hb, ht, hd]
    rw [this]

/-- The read mode with which input is processed. -/
def usedMode (s : Settings) : ReadMode := (Config.create (effectiveSettings s)).mode

theorem create_mode (s : Settings) : (Config.create s).mode = s.readMode.1 := by
  unfold Config.create
  simp only [create_readMode]
  unfold Settings.readMode
  cases hb : s.binary <;> cases ht : s.text <;> cases hd : s.defaultReadMode <;> simp [hb, ht, hd]

/-- C34 as stated is false: with `-DDDD --demo` the debug output asks for the
read mode before the demo sets its default. -/
theorem C34_negation : ¬∀ s : Settings, s.defaultReadMode = .text → usedMode s = wantedMode s := by
  intro h
  have := h { demo := true, debug := 4 } rfl
  revert this
  decide

/-- C34, what holds: the mode is the wanted one unless all of these hold: demo,
neither `-b` nor `-t`, debug level 4 or more (full claim: always; then it is
text instead of binary). -/
theorem C34_partial (s : Settings) (h : s.defaultReadMode = .text) :
    usedMode s = if s.demo = true ∧ s.binary = false ∧ s.text = false ∧ 4 ≤ s.debug then .text
      else wantedMode s := by
  unfold usedMode
  rw [create_mode]
  unfold effectiveSettings demoSettings debugSettings wantedMode Settings.setDefaultReadMode Settings.readMode
  by_cases hdb : s.debug ≥ 4
  · cases hb : s.binary <;> cases ht : s.text <;> cases hd : s.demo <;> cases hdc : s.decode <;>
      cases hc : s.columns <;> simp [hb, ht, hd, h, hdb, hdc, hc]
  · cases hb : s.binary <;> cases ht : s.text <;> cases hd : s.demo <;> cases hdc : s.decode <;>
      cases hc : s.columns <;> simp [hb, ht, hd, h, hdb, hdc, hc]

example : usedMode { demo := true, debug := 3 } = .binary ∧ usedMode { demo := true, debug := 5 } = .text ∧
    usedMode { text := true, demo := true } = .text ∧ usedMode {} = .text := by decide

/-! ### C35 -/

variable {K V : Type} [DecidableEq K]

/-- A table after a history of `set` calls. -/
def PartialOverride.after (d : V) (hist : List (K × V)) : PartialOverride K V :=
  hist.foldl (fun p e => p.set e.1 e.2) ⟨d, []⟩

/-- The value set last for a key. -/
def lastSet (hist : List (K × V)) (k : K) : Option V :=
  ((hist.filter fun e => e.1 = k).getLast?).map Prod.snd

theorem after_override (d : V) (hist l : List (K × V)) :
    (hist.foldl (fun p e => p.set e.1 e.2) (⟨d, l⟩ : PartialOverride K V)) = ⟨d, hist.reverse ++ l⟩ := by
  induction hist generalizing l with
  | nil => rfl
  | cons e hist ih => rw [List.foldl_cons, PartialOverride.set, ih]; simp

theorem lookup_lastSet (hist : List (K × V)) (k : K) :
    PartialOverride.lookup hist.reverse k = lastSet hist k := by
  unfold PartialOverride.lookup lastSet
  rw [← List.head?_filter, ← List.head?_reverse, List.filter_reverse]

/-- C35: the value of the first key that was set, else the default. -/
theorem C35_get (d : V) (hist : List (K × V)) (keys : List K) :
    (PartialOverride.after d hist).get keys = (keys.findSome? (lastSet hist)).getD d := by
  unfold PartialOverride.after
  rw [after_override, List.append_nil]
  induction keys with
  | nil => rfl
  | cons k ks ih =>
    rw [PartialOverride.get]
    simp only [lookup_lastSet, List.findSome?_cons]
    cases lastSet hist k with
    | none => exact ih
    | some v => rfl

/-- C35: `set` decides the answer for its key and for no other. -/
theorem C35_set (p : PartialOverride K V) (k : K) (v : V) (keys : List K) :
    (p.set k v).get (k :: keys) = v ∧ (k ∉ keys → (p.set k v).get keys = p.get keys) ∧
    (p.set k v).hasKey k = true := by
  refine ⟨?_, ?_, ?_⟩
  · simp [PartialOverride.get, PartialOverride.set, PartialOverride.lookup]
  · intro h
    induction keys with
    | nil => rfl
    | cons a ks ih =>
      have ha : ¬k = a := fun e => h (by simp [e])
      rw [PartialOverride.get, PartialOverride.get, ih (fun hm => h (by simp [hm]))]
      have : PartialOverride.lookup (p.set k v).override a = PartialOverride.lookup p.override a := by
        simp [PartialOverride.lookup, PartialOverride.set, ha]
      rw [this]
  · simp [PartialOverride.hasKey, PartialOverride.set, PartialOverride.lookup]

example : (PartialOverride.after 0 [(Mode.read .text, 1), (.display .focused, 2), (.read .text, 3)]).get
    [.display .ignored, .read .text, .display .focused] = 3 ∧
    (PartialOverride.after 0 [(Mode.read .text, 1)]).get [.read .binary] = 0 := by decide

end Kolombos
