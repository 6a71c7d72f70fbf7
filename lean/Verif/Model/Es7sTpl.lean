import Verif.Model.Ansi
import Verif.Model.Filter
/-
dev/es7s_tpl_processor.py: the template language in which the legend is written.

Simplifications: the values of variables are given as the strings `str()` makes of them;
warnings are values; the words and digits of `\w` and `\d` outside ASCII are a parameter.
-/
namespace Kolombos

/-- What `\w` and `\d` accept (python's `re` on `str`), and the value `int()` gives to a digit. -/
structure CharTable where
  word : Char → Bool
  digit : Char → Option Nat
  word_ascii : ∀ c, c.toNat < 128 → word c = (c.isAlphanum || c == '_')
  digit_ascii : ∀ c, c.toNat < 128 → digit c = if c.isDigit then some (c.toNat - 48) else none
  word_space : ∀ c, isPySpace c = true → word c = false

/-- Only the words and digits of ASCII. -/
def CharTable.ascii : CharTable where
  word c := c.isAlphanum || c == '_'
  digit c := if c.isDigit then some (c.toNat - 48) else none
  word_ascii _ _ := rfl
  digit_ascii _ _ := rfl
  word_space c h := by
    have h95 : ∀ c : Char, (c == '_') = true → c.toNat = 95 := fun c h => by rw [eq_of_beq h]; rfl
    cases e : (c.isAlphanum || c == '_') with
    | false => rfl
    | true =>
      simp only [Bool.or_eq_true, Char.isAlphanum, Char.isAlpha, Char.isUpper, Char.isLower, Char.isDigit, Bool.and_eq_true, decide_eq_true_eq,
        UInt32.le_iff_toNat_le, ge_iff_le] at e
      simp only [isPySpace, Bool.or_eq_true, Bool.and_eq_true, decide_eq_true_eq, beq_iff_eq] at h
      have e' : (65 ≤ c.toNat ∧ c.toNat ≤ 90) ∨ (97 ≤ c.toNat ∧ c.toNat ≤ 122) ∨ (48 ≤ c.toNat ∧ c.toNat ≤ 57) ∨ c.toNat = 95 := by
        rcases e with ((e | e) | e) | e
        · exact .inl e
        · exact .inr (.inl e)
        · exact .inr (.inr (.inl e))
        · exact .inr (.inr (.inr (h95 c e)))
      omega

/-- `#{}(.*?){}#` (dev/es7s_tpl_processor.py:26). -/
def commentRegexp : Re Char :=
  .seq (.cls (· == '#')) (.seq (.cls (· == '{')) (.seq (.cls (· == '}'))
    (.seq (.grp 1 (.lazy (.cls (· != '\n'))))
      (.seq (.cls (· == '{')) (.seq (.cls (· == '}')) (.cls (· == '#')))))))

/-- `\^{\s*([\w;]*)\s*}` (dev/es7s_tpl_processor.py:27). -/
def fmtRegexp (tbl : CharTable) : Re Char :=
  .seq (.cls (· == '^')) (.seq (.cls (· == '{')) (.seq (.star (.cls isPySpace))
    (.seq (.grp 1 (.star (.cls fun c => tbl.word c || c == ';')))
      (.seq (.star (.cls isPySpace)) (.cls (· == '}'))))))

/-- `:{\s*(\w+)\s*}` (dev/es7s_tpl_processor.py:28). -/
def varRegexp (tbl : CharTable) : Re Char :=
  .seq (.cls (· == ':')) (.seq (.cls (· == '{')) (.seq (.star (.cls isPySpace))
    (.seq (.grp 1 (.plus (.cls tbl.word)))
      (.seq (.star (.cls isPySpace)) (.cls (· == '}'))))))

/-- `Console.warn` in the processor (dev/es7s_tpl_processor.py:44, 50). -/
inductive TplWarning where
  | format (params : Str)
  | variable (name : Str)
  deriving DecidableEq

/-- `pattern.sub(callback, s)` for a callback that can warn and raise. -/
def tplItems (f : Match Char → Except AnsiErr (Str × List TplWarning)) : List (Item Char) → Except AnsiErr (Str × List TplWarning)
  | [] => .ok ([], [])
  | .copied a :: is =>
    match tplItems f is with
    | .error e => .error e
    | .ok (s, w) => .ok (a :: s, w)
  | .matched m :: is =>
    match f m with
    | .error e => .error e
    | .ok (t, w1) =>
      match tplItems f is with
      | .error e => .error e
      | .ok (s, w2) => .ok (t ++ s, w1 ++ w2)

/-- The value of decimal digits (`int(p)`). -/
def digitsValue (tbl : CharTable) (p : Str) : Nat := p.foldl (fun n c => n * 10 + (tbl.digit c).getD 0) 0

/-- `_try_int` (dev/es7s_tpl_processor.py:54-57). -/
def tryInt (tbl : CharTable) (p : Str) : SgrArg :=
  if p ≠ [] ∧ p.all (fun c => (tbl.digit c).isSome) then .code (digitsValue tbl p) else .name p

/-- `_resolve_fmt_match` (dev/es7s_tpl_processor.py:35-45). -/
def resolveFmt (tbl : CharTable) (m : Match Char) : Except AnsiErr (Str × List TplWarning) :=
  let params := (m.group 1).getD []
  if params.length = 0 then .ok (Sgr.assemble [0], [])
  else
    match mkSgr ((splitOn ';' params).map (tryInt tbl)) with
    | .ok s => .ok (s.assemble, [])
    | .error .key => .ok (m.text, [.format params])
    | .error e => .error e

/-- `_resolve_var_match` (dev/es7s_tpl_processor.py:47-52). -/
def resolveVar (vars : List (Str × Str)) (m : Match Char) : Except AnsiErr (Str × List TplWarning) :=
  let var := (m.group 1).getD []
  match vars.find? fun e => e.1 == var with
  | none => .ok (m.text, [.variable var])
  | some e => .ok (e.2, [])

/-- The filters of the processor, one after the other (dev/es7s_tpl_processor.py:22-29, 33). -/
def applyTpl (tbl : CharTable) (vars : List (Str × Str)) (inp : Str) : Except AnsiErr (Str × List TplWarning) :=
  let s := commentRegexp.sub (fun _ => []) inp
  match tplItems (resolveFmt tbl) ((fmtRegexp tbl).scan s) with
  | .error e => .error e
  | .ok (s, w1) =>
    match tplItems (resolveVar vars) ((varRegexp tbl).scan s) with
    | .error e => .error e
    | .ok (s, w2) => .ok (s, w1 ++ w2)

/-- `Es7sTemplateProcessor.substitute` (dev/es7s_tpl_processor.py:30-33): the state is the dictionary of
variables, replaced if a new one is given and not empty. -/
def substituteTpl (tbl : CharTable) (old : List (Str × Str)) (inp : Str) (new : Option (List (Str × Str))) :
    Except AnsiErr (Str × List TplWarning) × List (Str × Str) :=
  let vars := match new with
    | some v => if v.length = 0 then old else v
    | none => old
  (applyTpl tbl vars inp, vars)

end Kolombos
