import Verif.Lemmas.SettingsTable
import Verif.Props.Debug
/-
C88: the table of settings.
-/
set_option linter.unusedSimpArgs false

namespace Kolombos
open Spec

/-! ### The attributes -/

/-- The `n`-th attribute of the constructor. -/
def ownAttr (n : Nat) : Attr :=
  ((ownAttrs.map fun e => (⟨e.1.toList, false, fun o => (e.2 o, o)⟩ : Attr))[n]?).getD ⟨[], false, fun o => (.none, o)⟩

/-- The `n`-th of the other attributes. -/
def derivedAttr (n : Nat) : Attr :=
  ((derivedAttrs.map fun e => (⟨e.1.toList, true, e.2⟩ : Attr))[n]?).getD ⟨[], false, fun o => (.none, o)⟩

/-- The alphabetical order. -/
def ownOrder : List Nat :=
  [0, 1, 24, 2, 4, 3, 5, 31, 6, 11, 7, 8, 12, 9, 10, 19, 17, 13, 14, 18, 15, 16, 20, 21, 22, 23, 25, 27, 26, 28, 29, 30]

theorem tableAttrs_own : tableAttrs false = ownOrder.map ownAttr := by with_unfolding_all rfl

theorem tableAttrs_all : tableAttrs true = ownOrder.map ownAttr ++ [7, 8, 5, 6, 3, 4, 0, 1].map derivedAttr := by with_unfolding_all rfl

/-! ### The rows -/

theorem figures_eq (n : Int) : figures n = Debug.intStr n := by
  unfold Debug.intStr dec
  cases n with
  | ofNat n => rw [if_neg (by simp)]; rfl
  | negSucc n => rw [if_pos (by omega)]; rfl

theorem intStr_noEsc (n : Int) : '\x1b' ∉ Debug.intStr n := plain_noEsc (intStr_plain n)

theorem agrees_bool (name : String) (b : Bool) (h : '\x1b' ∉ name.toList) : Agrees (yesNo name b) name.toList (.bool b) (.bool false) := by
  refine ⟨rfl, ?_, rfl, ?_, h, ?_, ?_⟩ <;> cases b <;> simp [yesNo, PyVal.str']

theorem agrees_opt (name : String) (v : Option Int) (h : '\x1b' ∉ name.toList) : Agrees (maybe name v) name.toList (.ofInt? v) .none := by
  cases v with
  | none => exact ⟨rfl, rfl, rfl, by simp [maybe, PyVal.ofInt?], h, by simp [PyVal.ofInt?, PyVal.str'], by simp [PyVal.str']⟩
  | some n => exact ⟨rfl, figures_eq n, rfl, by simp [maybe, PyVal.ofInt?], h, intStr_noEsc n, by simp [PyVal.str']⟩

theorem agrees_int (name : String) (n : Int) (h : '\x1b' ∉ name.toList) :
    Agrees ⟨name, figures n, "0".toList, n != 0⟩ name.toList (.int n) (.int 0) :=
  ⟨rfl, figures_eq n, rfl, by simp, h, intStr_noEsc n, by decide⟩

/-- The entries are those of the attributes. -/
def MatchAll (app dflt : SettingsObj) : List Attr → List Entry → Prop
  | [], [] => True
  | a :: as, e :: es => Agrees e a.name (a.get app).1 (a.get dflt).1 ∧ MatchAll app dflt as es
  | _, _ => False

theorem own_match (app : SettingsObj) (id : Nat) (m : Settings → Option Str → Str) (hf : ∀ f, app.filename = some f → '\x1b' ∉ f) :
    MatchAll app ⟨id, {}, none, m⟩ (ownOrder.map ownAttr) (entries app.settings app.filename) := by
  refine ⟨agrees_bool _ _ (by decide), agrees_opt _ _ (by decide), agrees_bool _ _ (by decide), agrees_opt _ _ (by decide), ?debug,
    agrees_bool _ _ (by decide), ?decode, agrees_bool _ _ (by decide), ?file,
    agrees_bool _ _ (by decide), agrees_bool _ _ (by decide), agrees_bool _ _ (by decide), agrees_bool _ _ (by decide), agrees_bool _ _ (by decide), agrees_bool _ _ (by decide),
    agrees_bool _ _ (by decide),
    agrees_bool _ _ (by decide), agrees_bool _ _ (by decide), agrees_bool _ _ (by decide), agrees_bool _ _ (by decide), agrees_bool _ _ (by decide), agrees_bool _ _ (by decide),
    agrees_bool _ _ (by decide), agrees_int _ _ (by decide), agrees_opt _ _ (by decide), agrees_opt _ _ (by decide),
    agrees_bool _ _ (by decide), agrees_bool _ _ (by decide), agrees_bool _ _ (by decide), agrees_bool _ _ (by decide), agrees_bool _ _ (by decide), agrees_bool _ _ (by decide), trivial⟩
  case debug =>
    have := agrees_int "debug" app.settings.debug (by decide)
    rw [show ((app.settings.debug : Int) != 0) = (app.settings.debug != 0) from by simp [bne, Bool.beq_eq_decide_eq]] at this
    exact this
  case decode =>
    show Agrees (match app.settings.decode with | some b => _ | none => _) "decode".toList (match app.settings.decode with | some b => PyVal.bool b | none => PyVal.none) .none
    cases app.settings.decode with
    | none => exact ⟨rfl, rfl, rfl, by simp, by decide, by decide, by decide⟩
    | some b => exact ⟨rfl, rfl, rfl, by simp, by decide, by cases b <;> decide, by decide⟩
  case file =>
    show Agrees (match app.filename with | some f => _ | none => _) "filename".toList (match app.filename with | some f => PyVal.str f | none => PyVal.none) .none
    cases h : app.filename with
    | none => exact ⟨rfl, rfl, rfl, by simp, by decide, by decide, by decide⟩
    | some f => exact ⟨rfl, rfl, rfl, by simp, by decide, hf f h, by decide⟩

/-- Reading the attribute leaves the object as it is, and the attribute is (or is not) derived. -/
def Steady (derived : Bool) (a : Attr) : Prop := a.derived = derived ∧ ∀ o, (a.get o).2 = o

theorem own_steady : ∀ a ∈ ownOrder.map ownAttr, Steady false a := by
  simp only [ownOrder, List.map_cons, List.map_nil, List.mem_cons, List.not_mem_nil, or_false, forall_eq_or_imp, forall_eq]
  refine ⟨?_, ?_, ?_, ?_, ?_, ?_, ?_, ?_, ?_, ?_, ?_, ?_, ?_, ?_, ?_, ?_, ?_, ?_, ?_, ?_, ?_, ?_, ?_, ?_, ?_, ?_, ?_, ?_, ?_, ?_, ?_, ?_⟩ <;> exact ⟨rfl, fun _ => rfl⟩

theorem rows_shows {s : Settings} (hs : s.debug > 0) (w : Nat) (derived : Bool) {app dflt : SettingsObj} : ∀ {as : List Attr} {es : List Entry},
    (∀ a ∈ as, Steady derived a) → MatchAll app dflt as es → ∀ rest,
    ∃ t, (tableRows s w (as ++ rest) app dflt).1 = t ++ (tableRows s w rest app dflt).1 ∧
      (tableRows s w (as ++ rest) app dflt).2 = (tableRows s w rest app dflt).2 ∧
      Shows {} (t.flatMap fun l => l ++ ['\n']) {} (es.flatMap (Entry.row w derived)) := by
  intro as
  induction as with
  | nil =>
    intro es _ h rest
    cases es with
    | nil => exact ⟨[], rfl, rfl, .nil _⟩
    | cons e es => exact h.elim
  | cons a as ih =>
    intro es hst h rest
    cases es with
    | nil => exact h.elim
    | cons e es =>
      obtain ⟨h1, h2⟩ := h
      obtain ⟨t, e1, e2, e3⟩ := ih (fun b hb => hst b (by simp [hb])) h2 rest
      obtain ⟨hd, hg⟩ := hst a (by simp)
      refine ⟨tableRow s w a.name a.derived (a.get app).1 (a.get dflt).1 :: t, ?_, ?_, ?_⟩
      · simp only [List.cons_append, tableRows, hg, e1]
      · simp only [List.cons_append, tableRows, hg, e2]
      · rw [List.flatMap_cons, List.flatMap_cons, hd]
        exact (tableRow_shows hs w derived h1).append e3

/-! ### The lines around the rows -/

theorem topLine_shows {s : Settings} (hs : s.debug > 0) (n : Nat) (hn : 9 ≤ n) (width : Int) :
    Shows {} (separatorLineWith s n width true false false false false ++ ['\n']) {} (topLine n width) := by
  have h := dashes_shows hs (List.replicate 8 '─' ++ ['─']) (List.replicate (n - 9) '─') '┬' (by decide) (noEsc_replicate _ (by decide)) (by decide) width
  have e : List.replicate 8 '─' ++ ['─'] ++ List.replicate (n - 9) '─' = List.replicate n '─' := by
    rw [show List.replicate 8 '─' ++ ['─'] = List.replicate 9 '─' from rfl, ← List.replicate_add, show 9 + (n - 9) = n from by omega]
  rw [e, show ((List.replicate 8 '─' ++ ['─']).length + (List.replicate (n - 9) '─').length + 1 : Nat) = n + 1 from by simp; omega] at h
  unfold separatorLineWith topLine
  simp only [if_true, if_false, Bool.false_eq_true, true_or, and_true]
  rw [if_pos (by omega), show (n : Int) - 8 - 1 = ((n - 9 : Nat) : Int) from by omega, pyRepeat_dash, Int.toNat_natCast]
  exact h

theorem bottomLine_shows {s : Settings} (hs : s.debug > 0) (n : Nat) (hn : 9 ≤ n) (width : Int) :
    Shows {} (separatorLineWith s n width false false true true false ++ ['\n']) {} (bottomLine n width) := by
  have h := dashes_shows hs (List.replicate 8 '─' ++ ['┬']) (List.replicate (n - 9) '─') '┴' (by decide) (noEsc_replicate _ (by decide)) (by decide) width
  rw [show ((List.replicate 8 '─' ++ ['┬']).length + (List.replicate (n - 9) '─').length + 1 : Nat) = n + 1 from by simp; omega] at h
  unfold separatorLineWith bottomLine
  simp only [if_true, if_false, Bool.false_eq_true, true_or, or_true, and_true, or_self]
  rw [if_pos (by omega), show (n : Int) - 8 - 1 = ((n - 9 : Nat) : Int) from by omega, pyRepeat_dash, Int.toNat_natCast]
  exact h

/-! ### C88 -/

/-- What `Console.debug_settings` writes. -/
theorem settings_stdout (s : Settings) (file : Option Str) (m : Settings → Option Str → Str) (wide : Nat → Int) :
    stdoutOf s.debug (settingsEvents s file m wide) = (settingsTable s file m wide).flatMap fun l => l ++ ['\n'] := by
  unfold settingsEvents stdoutOf
  rw [List.flatMap_map]
  unfold settingsTable
  split
  · rename_i h
    congr 1
    funext l
    simp only [Ev.printed]
    rw [if_neg (by omega)]
  · rfl

theorem table_shows {s : Settings} (hd : s.debug = 3) {file : Option Str} (hf : ∀ f, file = some f → '\x1b' ∉ f)
    (m : Settings → Option Str → Str) (wide : Nat → Int) :
    Shows {} ((settingsTable s file m wide).flatMap fun l => l ++ ['\n']) {} (tableView s file (wide 0) (wide 1)) := by
  have hs : s.debug > 0 := by omega
  unfold settingsTable
  rw [if_pos (by omega), show decide (s.debug ≥ 4) = false from by simp; omega]
  simp only [Bool.false_eq_true, if_false, List.append_nil]
  rw [tableAttrs_own, show maxAttrLen (ownOrder.map ownAttr) = 19 from by decide +kernel]
  obtain ⟨t, e1, -, e3⟩ := rows_shows hs 19 false own_steady (own_match ⟨1, s, file, m⟩ 0 m hf) []
  rw [List.append_nil] at e1
  rw [e1]
  simp only [tableRows, List.append_nil, List.flatMap_append, List.flatMap_cons, List.flatMap_nil]
  unfold tableView
  refine ((Shows.append (topLine_shows hs 19 (by omega) _) (Shows.append (Shows.append ?_ (debug_separator hs)) (.text {} (by decide)))).append e3).append
    (bottomLine_shows hs 19 (by omega) _)
  rw [show tableHeader 19 false = "SETTINGS           ".toList from by decide +kernel]
  exact .spanText (by decide) _ (by decide) (by decide)

/-- C88 for `-DDD`: the table lists all settings in alphabetical order with their values; names and
values of those that are not the defaults are highlighted, and the default is in brackets. -/
theorem C88_table (s : Settings) (hd : s.debug = 3) (file : Option Str) (hf : ∀ f, file = some f → '\x1b' ∉ f)
    (m : Settings → Option Str → Str) (wide : Nat → Int) :
    appears (stdoutOf s.debug (settingsEvents s file m wide)) = tableView s file (wide 0) (wide 1) := by
  rw [settings_stdout]
  exact (table_shows hd hf m wide).appears

/-- A changed setting and a file: the two highlighted rows. -/
example :
    let s : Settings := { debug := 3, marker := -2 }
    (∀ f, some "a b".toList = some f → '\x1b' ∉ f) ∧
    (screenLines (tableView s (some "a b".toList) 40 30)).length = 35 ∧
    ((screenLines (tableView s (some "a b".toList) 40 30))[10]?.map fun l => l.map Prod.fst) = some "           filename│a b [None]\n".toList ∧
    ((screenLines (tableView s (some "a b".toList) 40 30))[25]?.map fun l => l.map Prod.fst) = some "             marker│-2 [0]\n".toList ∧
    ((screenLines (tableView s (some "a b".toList) 40 30))[25]?.bind fun l => l[0]?.map fun x => x.2.bold) = some true ∧
    ((screenLines (tableView s (some "a b".toList) 40 30))[26]?.bind fun l => l[0]?.map fun x => x.2.bold) = some false := by
  refine ⟨?_, by decide +kernel⟩
  rintro f ⟨⟩
  decide

theorem derived_match {s : Settings} (hd : s.debug ≥ 4) (file : Option Str) (m : Settings → Option Str → Str) :
    MatchAll ⟨1, s, file, m⟩ ⟨0, {}, none, m⟩ ([7, 8, 5, 6, 3, 4].map derivedAttr) ((derivedEntries s [] []).take 6) := by
  have h3 : ∀ name : String, '\x1b' ∉ name.toList → ∀ n, n ≤ 4 → 0 < n →
      Agrees ⟨name, "True".toList, "False".toList, true⟩ name.toList (.bool (s.debug ≥ n)) (.bool (({} : Settings).debug ≥ n)) := by
    intro name hn n h h0
    have e1 : decide (s.debug ≥ n) = true := by simp; omega
    have e2 : decide (({} : Settings).debug ≥ n) = false := by simp; omega
    rw [e1, e2]
    exact ⟨rfl, rfl, rfl, by simp, hn, by simp [PyVal.str'], by simp [PyVal.str']⟩
  refine ⟨h3 "debug_buffer_contents" (by decide) 3 (by decide) (by decide), h3 "debug_buffer_contents_full" (by decide) 4 (by decide) (by decide),
    h3 "debug_settings" (by decide) 3 (by decide) (by decide), h3 "debug_settings_derived" (by decide) 4 (by decide) (by decide), ?_, ?_, trivial⟩
  · show Agrees _ "effective_marker_details".toList (.enum s.markerDetails.str') (.enum ({} : Settings).markerDetails.str')
    unfold Settings.markerDetails
    simp only [Bool.false_eq_true, if_false, Int.le_refl, if_true]
    by_cases hb : s.binary = true
    · simp only [hb, if_true, Bool.true_or]
      exact ⟨rfl, rfl, rfl, by simp; decide, by decide, by decide, by decide⟩
    · simp only [hb, if_false, Bool.false_eq_true, Bool.false_or]
      by_cases h0 : s.marker ≤ 0
      · rw [if_pos h0, if_neg (by omega), if_neg (by omega)]
        refine ⟨rfl, rfl, rfl, by simp; omega, by decide, by decide, by decide⟩
      · rw [if_neg h0]
        by_cases h1 : s.marker = 1
        · rw [if_pos h1, if_neg (by omega), if_pos h1]
          refine ⟨rfl, rfl, rfl, ?_, by decide, by decide, by decide⟩
          simp only [h1]; decide
        · rw [if_pos (show s.marker ≥ 2 by omega), if_neg h1]
          refine ⟨rfl, rfl, rfl, ?_, by decide, by decide, by decide⟩
          simp only [decide_eq_true_eq]
          exact ⟨fun _ => by decide, fun _ => by omega⟩
  · show Agrees _ "effective_print_offsets".toList (.bool s.printOffsets) (.bool ({} : Settings).printOffsets)
    have e : s.printOffsets = true := by unfold Settings.printOffsets; rw [if_pos (by omega)]
    rw [e]
    exact ⟨rfl, rfl, rfl, by simp; decide, by decide, by decide, by decide⟩

theorem derived_steady : ∀ a ∈ [7, 8, 5, 6, 3, 4].map derivedAttr, Steady true a := by
  simp only [List.map_cons, List.map_nil, List.mem_cons, List.not_mem_nil, or_false, forall_eq_or_imp, forall_eq]
  refine ⟨?_, ?_, ?_, ?_, ?_, ?_⟩ <;> exact ⟨rfl, fun _ => rfl⟩

theorem class_agrees (s : Settings) (name : String) (c : CharClass) (hn : '\x1b' ∉ name.toList) {t u : Settings} (ht : t.displayMode c = s.displayMode c)
    (hu : u.displayMode c = .default) :
    Agrees (classEntry s name c) name.toList (.enum (t.displayMode c).str') (.enum (u.displayMode c).str') := by
  rw [ht, hu]
  unfold classEntry Settings.displayMode
  cases s.ignore c <;> cases s.focus c <;> simp only [if_true, if_false, Bool.false_eq_true] <;>
    exact ⟨rfl, rfl, rfl, by simp <;> decide, hn, by decide, by decide⟩

theorem fullHeader_shows : Shows {} (span (Sgr.add [40] [1]) (tableHeader 29 true)) {}
    (inStyle { bold := true, bg := .basic 40 } "SETTINGS [".toList ++ inStyle { bold := true, italic := true, bg := .basic 40 } "DERIVED".toList
        ++ inStyle { bold := true, bg := .basic 40 } "]           ".toList) := by
  rw [show tableHeader 29 true = "SETTINGS [".toList ++ Sgr.assemble [3] ++ "DERIVED".toList ++ Sgr.assemble [23] ++ "]           ".toList from by decide +kernel]
  refine .spanIn ?_ (by decide)
  have k := ((((Shows.text (applySgr [40, 1] {}) (s := "SETTINGS [".toList) (by decide)).append (.sgr _ [3])).append (.text _ (s := "DERIVED".toList) (by decide))).append (.sgr _ [23])).append (.text _ (s := "]           ".toList) (by decide))
  simp only [List.append_nil] at k
  exact k

theorem fullTable_shows {s : Settings} (hd : s.debug ≥ 4) (hm : s.defaultReadMode = .text) {file : Option Str} (hf : ∀ f, file = some f → '\x1b' ∉ f)
    {m : Settings → Option Str → Str} (hr : ∀ t f, '\x1b' ∉ m t f) (wide : Nat → Int) :
    Shows {} ((settingsTable s file m wide).flatMap fun l => l ++ ['\n']) {}
      (fullTableView s file (m s.readMode.2 file) (m ({} : Settings).readMode.2 none) (wide 0) (wide 1)) := by
  have hs : s.debug > 0 := by omega
  unfold settingsTable
  rw [if_pos (by omega), show decide (s.debug ≥ 4) = true from by simp; omega]
  simp only [if_true]
  rw [tableAttrs_all, show maxAttrLen (ownOrder.map ownAttr ++ [7, 8, 5, 6, 3, 4, 0, 1].map derivedAttr) = 29 from by decide +kernel]
  obtain ⟨t, e1, e2, e3⟩ := rows_shows hs 29 false own_steady (own_match ⟨1, s, file, m⟩ 0 m hf) ([7, 8, 5, 6, 3, 4, 0, 1].map derivedAttr)
  rw [show ([7, 8, 5, 6, 3, 4, 0, 1].map derivedAttr) = [7, 8, 5, 6, 3, 4].map derivedAttr ++ [derivedAttr 0, derivedAttr 1] from rfl] at e1 e2 ⊢
  obtain ⟨u, f1, f2, f3⟩ := rows_shows hs 29 true derived_steady (derived_match hd file m) [derivedAttr 0, derivedAttr 1]
  rw [e1, e2, f1, f2]
  have g1 : Agrees ((derivedEntries s (m s.readMode.2 file) (m ({} : Settings).readMode.2 none)).getD 6 (yesNo "" false)) "read_mode".toList
      (.enum s.readMode.1.str') (.enum ({} : Settings).readMode.1.str') := by
    show Agrees (if s.binary then _ else _) _ _ _
    unfold Settings.readMode
    by_cases hb : s.binary = true
    · simp only [hb, if_true]
      exact ⟨rfl, rfl, rfl, by simp; decide, by decide, by decide, by decide⟩
    · simp only [hb, if_false, Bool.false_eq_true, hm]
      by_cases ht : s.text = true
      · simp only [ht, if_true]
        exact ⟨rfl, rfl, rfl, ⟨(fun h => nomatch h), fun h => absurd rfl h⟩, by decide, by decide, by decide⟩
      · simp only [ht, if_false, Bool.false_eq_true]
        exact ⟨rfl, rfl, rfl, ⟨(fun h => nomatch h), fun h => absurd rfl h⟩, by decide, by decide, by decide⟩
  have g2 : Agrees ((derivedEntries s (m s.readMode.2 file) (m ({} : Settings).readMode.2 none)).getD 7 (yesNo "" false)) "set_default_read_mode".toList
      (.method 1 (m s.readMode.2 file)) (.method 0 (m ({} : Settings).readMode.2 none)) :=
    ⟨rfl, rfl, rfl, ⟨fun _ h => absurd (PyVal.method.inj h).1 (by decide), fun _ => rfl⟩, by decide, hr _ _, hr _ _⟩
  have r : ∀ {a b : Str} {v : List (Char × Spec.Style)}, Shows {} (a ++ ['\n']) {} v → Shows {} ((fun l => l ++ ['\n']) a) {} v := fun h => h
  have hc : ∀ (name : String) (c : CharClass), c.str' = name.toList → '\x1b' ∉ name.toList →
      Shows {} (tableRow s 29 c.str' true (.enum (s.readMode.2.displayMode c).str') (.enum ((({} : Settings).readMode.2).displayMode c).str') ++ ['\n']) {}
        ((classEntry s name c).row 29 true) := by
    intro name c h1 h2
    rw [h1]
    refine tableRow_shows hs 29 true (class_agrees s name c h2 (readMode_displayMode s c) ?_)
    rw [readMode_displayMode]; rfl
  have e7 : (derivedEntries s (m s.readMode.2 file) (m ({} : Settings).readMode.2 none)).flatMap (Entry.row 29 true) =
      ((derivedEntries s [] []).take 6).flatMap (Entry.row 29 true) ++
      (((derivedEntries s (m s.readMode.2 file) (m ({} : Settings).readMode.2 none)).getD 6 (yesNo "" false)).row 29 true ++
      (((derivedEntries s (m s.readMode.2 file) (m ({} : Settings).readMode.2 none)).getD 7 (yesNo "" false)).row 29 true ++
      ((classEntry s "CharClass.CONTROL_CHAR" .controlChar).row 29 true ++
      ((classEntry s "CharClass.ESCAPE_SEQ" .escapeSeq).row 29 true ++
      ((classEntry s "CharClass.WHITESPACE" .whitespace).row 29 true ++
      ((classEntry s "CharClass.UTF_8_SEQ" .utf8Seq).row 29 true ++
      ((classEntry s "CharClass.BINARY_DATA" .binaryData).row 29 true ++
      (classEntry s "CharClass.PRINTABLE_CHAR" .printableChar).row 29 true))))))) := by
    simp only [derivedEntries, List.take_succ_cons, List.take_zero, List.flatMap_cons, List.flatMap_nil, List.append_nil, List.append_assoc]
    rfl
  unfold fullTableView
  rw [e7]
  have hrest : (tableRows s 29 [derivedAttr 0, derivedAttr 1] ⟨1, s, file, m⟩ ⟨0, {}, none, m⟩) =
      ([tableRow s 29 "read_mode".toList true (.enum s.readMode.1.str') (.enum ({} : Settings).readMode.1.str'),
        tableRow s 29 "set_default_read_mode".toList true (.method 1 (m s.readMode.2 file)) (.method 0 (m ({} : Settings).readMode.2 none))],
        ⟨1, s.readMode.2, file, m⟩, ⟨0, ({} : Settings).readMode.2, none, m⟩) := rfl
  rw [hrest]
  simp only [CharClass.all', List.map_cons, List.map_nil, List.flatMap_append, List.flatMap_cons, List.flatMap_nil, List.append_nil, List.cons_append, List.nil_append]
  have key := ((((Shows.append (topLine_shows hs 29 (by omega) (wide 0)) (Shows.append (Shows.append fullHeader_shows (debug_separator hs)) (.text {} (s := ['\n']) (by decide)))).append e3).append
    (f3.append ((tableRow_shows hs 29 true g1).append ((tableRow_shows hs 29 true g2).append ((hc "CharClass.CONTROL_CHAR" .controlChar rfl (by decide)).append ((hc "CharClass.ESCAPE_SEQ" .escapeSeq rfl (by decide)).append
      ((hc "CharClass.WHITESPACE" .whitespace rfl (by decide)).append ((hc "CharClass.UTF_8_SEQ" .utf8Seq rfl (by decide)).append ((hc "CharClass.BINARY_DATA" .binaryData rfl (by decide)).append (hc "CharClass.PRINTABLE_CHAR" .printableChar rfl (by decide))))))))))).append
    (bottomLine_shows hs 29 (by omega) (wide 1)))
  simp only [List.append_assoc] at key ⊢
  exact key

/-- C88 for `-D` four times or more: in addition what follows from the settings, in italics. -/
theorem C88_derived (s : Settings) (hd : s.debug ≥ 4) (hm : s.defaultReadMode = .text) (file : Option Str) (hf : ∀ f, file = some f → '\x1b' ∉ f)
    (m : Settings → Option Str → Str) (hr : ∀ t f, '\x1b' ∉ m t f) (wide : Nat → Int) :
    ∃ a b, appears (stdoutOf s.debug (settingsEvents s file m wide)) = fullTableView s file a b (wide 0) (wide 1) := by
  rw [settings_stdout]
  exact ⟨_, _, (fullTable_shows hd hm hf hr wide).appears⟩

/-- C88 without `-DDD` no table is printed. -/
theorem C88_none (s : Settings) (hd : s.debug < 3) (file : Option Str) (m : Settings → Option Str → Str) (wide : Nat → Int) :
    stdoutOf s.debug (settingsEvents s file m wide) = [] := by
  rw [settings_stdout]
  unfold settingsTable
  rw [if_neg (by omega)]
  rfl

end Kolombos
