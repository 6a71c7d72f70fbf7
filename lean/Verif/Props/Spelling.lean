import Verif.Lemmas.Spelling
import Verif.Model.ArgStrings
/-
C90: what the words of a command line stand for.
-/
set_option linter.unusedSimpArgs false

namespace Kolombos
open Spec

/-! ### The main loop -/

theorem consume_opt (toInt : Str → Option Int) {w : Str} {t : OptTuple} {a : Opt} (ha : t.action = some a) {toks : List Tok}
    (h : ∀ next, consumeOptional toInt next a t = (toks, false)) (r : List (Str × ArgClass)) (taken : Bool) :
    consume toInt ((w, .opt t) :: r) taken = toks ++ consume toInt r taken := by
  rw [consume.eq_def]
  simp only [ha]
  split <;> simp [h]

theorem consume_next (toInt : Str → Option Int) {w v : Str} {t : OptTuple} {a : Opt} (ha : t.action = some a) {toks : List Tok}
    (h : consumeOptional toInt (some v) a t = (toks, true)) (q : List (Str × ArgClass)) (taken : Bool) :
    consume toInt ((w, .opt t) :: (v, .arg) :: q) taken = toks ++ consume toInt q taken := by
  rw [consume.eq_def]
  simp [ha, h]

/-- The rest of the command line does the same. -/
def Same (T : List Tok) (as : List Arg) (file : Option Str) : Prop :=
  ∀ seen s extra, runToks T seen s file extra = parseLoop as seen s file extra

def Arg.isFile : Arg → Bool
  | .file _ => true
  | _ => false

theorem same_cons {T : List Tok} {as : List Arg} {file : Option Str} (h : Same T as file) {a : Arg} (ha : a.isFile = false) :
    Same (.arg a :: T) (a :: as) file := by
  intro seen s extra
  cases a with
  | file v => cases ha
  | flag f => simp only [runToks, parseLoop, h _ _ _]
  | int o v => cases v <;> simp only [runToks, parseLoop, h _ _ _]
  | debug => simp only [runToks, parseLoop, h _ _ _]
  | help => rfl

theorem same_append {T : List Tok} {as : List Arg} {file : Option Str} (h : Same T as file) : ∀ {l : List Arg}, (∀ a ∈ l, a.isFile = false) →
    Same (l.map .arg ++ T) (l ++ as) file
  | [], _ => h
  | a :: l, hl => same_cons (same_append h fun b hb => hl b (List.mem_cons_of_mem _ hb)) (hl a List.mem_cons_self)

theorem switch_isFile {a : Arg} (h : a.opt.switch = some a) : a.isFile = false := by
  cases a with
  | file v => cases h
  | _ => rfl

theorem letters_isFile : ∀ {cs : Str} {l : List Arg}, Letters cs l → ∀ a ∈ l, a.isFile = false
  | [], [], _, _, h => by simp at h
  | _ :: _, [], h, _, _ => h.elim
  | [], _ :: _, h, _, _ => h.elim
  | c :: cs, a :: l, h, b, hb => by
    rcases List.mem_cons.1 hb with rfl | hb
    · exact switch_isFile (switch_letter h.1).2.2
    · exact letters_isFile h.2 b hb

/-- Letters, then anything. -/
theorem letters_word (digit : Char → Bool) (toInt : Str → Option Int) {cs : Str} {l : List Arg} (hl : Letters cs l) {c : Char} (hc : c ∈ shortNames) {b : Opt}
    (hb : findOpt ['-', c] = some b) (r : Str) :
    ∃ (t : OptTuple) (a : Opt), parseOptional digit ('-' :: cs ++ c :: r) = some (.opt t) ∧ t.action = some a ∧
      ∀ next, consumeOptional toInt next a t = takeWord toInt next b r (l.map .arg) := by
  cases cs with
  | nil =>
    cases l with
    | nil =>
      obtain ⟨t, h1, h2, h3⟩ := short_word digit toInt hc hb r
      exact ⟨t, b, h1, h2, h3⟩
    | cons a l => exact hl.elim
  | cons d cs =>
    cases l with
    | nil => exact hl.elim
    | cons a l =>
      obtain ⟨g1, g2, g3⟩ := switch_letter hl.1
      obtain ⟨t, h1, h2, h3⟩ := short_word digit toInt g1 g2 (cs ++ c :: r)
      exact ⟨t, a.opt, h1, h2, fun next => by rw [h3, takeWord_letters toInt next hl.2 g3 hc hb]; simp⟩

theorem letters_only (digit : Char → Bool) (toInt : Str → Option Int) {cs : Str} {l : List Arg} (hl : Letters cs l) (hne : cs ≠ []) :
    ∃ (t : OptTuple) (a : Opt), parseOptional digit ('-' :: cs) = some (.opt t) ∧ t.action = some a ∧
      ∀ next, consumeOptional toInt next a t = (l.map .arg, false) := by
  cases cs with
  | nil => exact absurd rfl hne
  | cons d cs =>
    cases l with
    | nil => exact hl.elim
    | cons a l =>
      obtain ⟨g1, g2, g3⟩ := switch_letter hl.1
      obtain ⟨t, h1, h2, h3⟩ := short_word digit toInt g1 g2 cs
      exact ⟨t, a.opt, h1, h2, fun next => by rw [h3, takeWord_all toInt next hl.2 g3]; simp⟩

/-- `--` is no option with letters. -/
theorem letters_ne {cs : Str} {l : List Arg} (hl : Letters cs l) {r : Str} (hr : r.head? ≠ some '-') : '-' :: cs ++ r ≠ ['-', '-'] := by
  intro h
  cases cs with
  | nil =>
    simp only [List.cons_append, List.nil_append, List.cons.injEq, true_and] at h
    rw [h] at hr
    exact hr rfl
  | cons d cs =>
    cases l with
    | nil => exact hl.elim
    | cons a l =>
      have := (short_plain d (switch_letter hl.1).1).1
      simp only [List.cons_append, List.cons.injEq, true_and] at h
      exact this h.1

theorem consume_args (toInt : Str → Option Int) : ∀ (vs : List Str) {f : Str},
    Same (consume toInt (vs.map fun v => (v, .arg)) true) (vs.map .file) (some f)
  | [], _ => fun _ _ _ => rfl
  | v :: vs, f => fun seen s extra => by
    have := consume_args toInt vs (f := f) seen s true
    simp only [List.map_cons]
    rw [consume.eq_def]
    simpa [runToks, parseLoop] using this

/-- What the induction carries. -/
def Reads (toInt : Str → Option Int) (l : List (Str × ArgClass)) (as : List Arg) : Prop :=
  (∀ file : Option Str, Same (consume toInt l file.isSome) as file) ∧
  ∀ x q, l = (x, .dashes) :: q → ∀ f, Same (consume toInt q true) as (some f)

theorem reads_opt {toInt : Str → Option Int} {w : Str} {t : OptTuple} {a : Opt} (ha : t.action = some a) {l : List Arg} (hl : ∀ b ∈ l, b.isFile = false)
    (h : ∀ next, consumeOptional toInt next a t = (l.map .arg, false)) {r : List (Str × ArgClass)} {as : List Arg} (hr : Reads toInt r as) :
    Reads toInt ((w, .opt t) :: r) (l ++ as) := by
  refine ⟨fun file => ?_, fun x q hq => nomatch hq⟩
  rw [consume_opt toInt ha h]
  exact same_append (hr.1 file) hl

theorem reads_next {toInt : Str → Option Int} {w v : Str} {t : OptTuple} {a : Opt} (ha : t.action = some a) {l : List Arg} (hl : ∀ b ∈ l, b.isFile = false)
    (h : consumeOptional toInt (some v) a t = (l.map .arg, true)) {r : List (Str × ArgClass)} {as : List Arg} (hr : Reads toInt r as) :
    Reads toInt ((w, .opt t) :: (v, .arg) :: r) (l ++ as) := by
  refine ⟨fun file => ?_, fun x q hq => nomatch hq⟩
  rw [consume_next toInt ha h]
  exact same_append (hr.1 file) hl

theorem reads_file {toInt : Str → Option Int} {v : Str} {r : List (Str × ArgClass)} {as : List Arg} (hr : Reads toInt r as) :
    Reads toInt ((v, .arg) :: r) (.file v :: as) := by
  refine ⟨fun file seen s extra => ?_, fun x q hq => nomatch hq⟩
  cases file with
  | some f =>
    have := hr.1 (some f) seen s true
    rw [consume.eq_def]
    simpa [runToks, parseLoop] using this
  | none =>
    rw [consume.eq_def]
    simp only [Option.isSome_none, Bool.false_eq_true, if_false]
    split
    · rename_i x q
      simp only [runToks, parseLoop]
      rw [hr.2 x q rfl v]
    · simp only [runToks, parseLoop]
      rw [← hr.1 (some v)]
      rfl

theorem classify_cons {digit : Char → Bool} {w : Str} {c : ArgClass} (hw : w ≠ ['-', '-']) (hc : parseOptional digit w = some c) {ws : List Str}
    {l : List (Str × ArgClass)} (hl : classify digit ws = some l) : classify digit (w :: ws) = some ((w, c) :: l) := by
  rw [classify, if_neg hw, hc, hl]
  rfl

theorem classify_spelled {digit : Char → Bool} (hd : Figures digit) {toInt : Str → Option Int} {ws : List Str} {as : List Arg} (h : Spelled digit toInt ws as) :
    ∃ l, classify digit ws = some l ∧ Reads toInt l as := by
  induction h with
  | nil => exact ⟨[], rfl, fun file seen s extra => rfl, fun x q hq => nomatch hq⟩
  | @long w a ws as hm hw _ ih =>
    obtain ⟨l, h1, h2⟩ := ih
    have hne : (switchName a).2 ≠ "" := by
      intro e
      have := hm.1
      rw [e] at this
      exact hw (List.prefix_nil.1 this)
    obtain ⟨g1, g2, g3⟩ := switch_long hne
    have hp := parse_long digit hw g1 g2 hm [] (.inl rfl)
    rw [List.append_nil] at hp
    refine ⟨_, classify_cons (by simpa using hw) hp h1, ?_⟩
    refine reads_opt (l := [a]) rfl (by simpa using switch_isFile g3) (fun next => ?_) h2
    exact takeWord_last toInt next g3 []
  | @longValue w o v ws as hm hw _ ih =>
    obtain ⟨l, h1, h2⟩ := ih
    obtain ⟨g1, g2⟩ := number_long o
    have hp := parse_long digit hw g1 g2 hm ('=' :: v) (.inr ⟨v, rfl⟩)
    refine ⟨_, classify_cons (by simp [hw]) hp h1, ?_⟩
    refine reads_opt (l := [.int o (toInt v)]) rfl (by simp [Arg.isFile]) (fun next => ?_) h2
    unfold consumeOptional
    simp only
    rw [takeExplicit.eq_def]
    rfl
  | @longNext w o v ws as hm hw hv _ ih =>
    obtain ⟨l, h1, h2⟩ := ih
    obtain ⟨g1, g2⟩ := number_long o
    have hp := parse_long digit hw g1 g2 hm [] (.inl rfl)
    rw [List.append_nil] at hp
    obtain ⟨v1, v2⟩ := parse_argument hd hv
    refine ⟨_, classify_cons (by simpa using hw) hp (classify_cons v2 v1 h1), ?_⟩
    exact reads_next (l := [.int o (toInt v)]) rfl (by simp [Arg.isFile]) rfl h2
  | @letters cs l ws as hl hne _ ih =>
    obtain ⟨q, h1, h2⟩ := ih
    obtain ⟨t, a, g1, g2, g3⟩ := letters_only digit toInt hl hne
    have := letters_ne hl (r := []) (by simp)
    rw [List.append_nil] at this
    exact ⟨_, classify_cons this g1 h1, reads_opt g2 (letters_isFile hl) g3 h2⟩
  | @lettersValue cs l o c v ws as hl _ ih =>
    obtain ⟨q, h1, h2⟩ := ih
    obtain ⟨e1, e2⟩ := number_letter o
    obtain ⟨t, a, g1, g2, g3⟩ := letters_word digit toInt hl e1 e2 (c :: v)
    refine ⟨_, classify_cons (letters_ne hl ?_) g1 h1, ?_⟩
    · simpa using (short_plain _ e1).1
    · have := reads_opt (w := '-' :: cs ++ (numberName o).1 :: c :: v) (l := l ++ [.int o (toInt (if c = '=' then v else c :: v))]) g2 ?_ (fun next => ?_) h2
      · simpa using this
      · intro b hb
        rcases List.mem_append.1 hb with hb | hb
        · exact letters_isFile hl b hb
        · rw [List.mem_singleton.1 hb]; rfl
      · rw [g3, takeWord_number]
        simp
  | @lettersNext cs l o v ws as hl hv _ ih =>
    obtain ⟨q, h1, h2⟩ := ih
    obtain ⟨e1, e2⟩ := number_letter o
    obtain ⟨v1, v2⟩ := parse_argument hd hv
    obtain ⟨t, a, g1, g2, g3⟩ := letters_word digit toInt hl e1 e2 []
    refine ⟨_, classify_cons (letters_ne hl ?_) g1 (classify_cons v2 v1 h1), ?_⟩
    · simpa using (short_plain _ e1).1
    · have := reads_next (w := '-' :: cs ++ [(numberName o).1]) (v := v) (l := l ++ [.int o (toInt v)]) g2 ?_ ?_ h2
      · simpa using this
      · intro b hb
        rcases List.mem_append.1 hb with hb | hb
        · exact letters_isFile hl b hb
        · rw [List.mem_singleton.1 hb]; rfl
      · rw [g3]
        simp [takeWord, takeNext]
  | @file v ws as hv _ ih =>
    obtain ⟨q, h1, h2⟩ := ih
    obtain ⟨v1, v2⟩ := parse_argument hd hv
    exact ⟨_, classify_cons v2 v1 h1, reads_file h2⟩
  | files v vs =>
    refine ⟨(['-', '-'], .dashes) :: (v :: vs).map (fun t => (t, .arg)), by rw [classify, if_pos rfl], fun file seen s extra => ?_, ?_⟩
    · cases file with
      | none =>
        rw [consume.eq_def]
        simp only [Option.isSome_none, Bool.false_eq_true, if_false, List.map_cons, runToks, parseLoop]
        rw [consume_args toInt vs]
      | some f =>
        rw [consume.eq_def]
        simp only [Option.isSome_some, if_true, runToks]
        rw [consume_args toInt (v :: vs)]
        rfl
    · intro x q hq f
      obtain ⟨-, rfl⟩ := List.cons.inj hq
      exact consume_args toInt (v :: vs)

/-- **C90**: a command line means what its words stand for: long names may be cut short as long as they
are clear, short ones may be put together, and a number may follow at once, after `=` or as the next word. -/
theorem C90_spelling {digit : Char → Bool} (hd : Figures digit) {toInt : Str → Option Int} {ws : List Str} {as : List Arg} (h : Spelled digit toInt ws as) :
    parseStrings digit toInt ws = parseArgs as := by
  obtain ⟨l, h1, h2⟩ := classify_spelled hd h
  unfold parseStrings parseArgs
  rw [h1]
  exact h2.1 none [] {} false

/-! ### What is accepted -/

/-- There are only events of options and file names. -/
def AllArgs (T : List Tok) : Prop := ∀ t ∈ T, ∃ a, t = .arg a

theorem allArgs_append {S T : List Tok} : AllArgs (S ++ T) ↔ AllArgs S ∧ AllArgs T := by
  constructor
  · exact fun h => ⟨fun t ht => h t (List.mem_append_left _ ht), fun t ht => h t (List.mem_append_right _ ht)⟩
  · rintro ⟨h1, h2⟩ t ht
    rcases List.mem_append.1 ht with ht | ht
    · exact h1 t ht
    · exact h2 t ht

theorem allArgs_extra {T : List Tok} (h : .extra ∈ T) : ¬ AllArgs T := fun g => by
  obtain ⟨a, ha⟩ := g _ h
  cases ha

theorem allArgs_bad {T : List Tok} (h : .bad ∈ T) : ¬ AllArgs T := fun g => by
  obtain ⟨a, ha⟩ := g _ h
  cases ha

/-- If the program runs then nothing was refused. -/
theorem runToks_run : ∀ (T : List Tok) {seen : List Arg} {s s' : Settings} {file f : Option Str} {extra : Bool},
    runToks T seen s file extra = .run s' f → AllArgs T ∧ extra = false
  | [], _, _, _, _, _, extra, h => by
    refine ⟨fun t ht => by simp at ht, ?_⟩
    unfold runToks at h
    cases extra with
    | false => rfl
    | true => cases h
  | .bad :: _, _, _, _, _, _, _, h => nomatch h
  | .extra :: r, _, _, _, _, _, _, h => by
    have := (runToks_run r (by simpa only [runToks] using h)).2
    cases this
  | .arg a :: r, seen, s, s', file, f, extra, h => by
    have key : ∀ {seen' : List Arg} {s₁ : Settings} {file₁ : Option Str}, runToks r seen' s₁ file₁ extra = .run s' f → AllArgs (.arg a :: r) ∧ extra = false := by
      intro seen' s₁ file₁ h'
      obtain ⟨g1, g2⟩ := runToks_run r h'
      refine ⟨fun t ht => ?_, g2⟩
      rcases List.mem_cons.1 ht with rfl | ht
      · exact ⟨a, rfl⟩
      · exact g1 t ht
    cases a with
    | file v =>
      simp only [runToks] at h
      split at h
      · cases h
      · exact key h
    | flag v =>
      simp only [runToks] at h
      split at h
      · cases h
      · exact key h
    | int o v =>
      cases v with
      | none => cases h
      | some v => exact key (by simpa only [runToks] using h)
    | debug => exact key (by simpa only [runToks] using h)
    | help => cases h

theorem findOpt_letter {c : Char} (hc : c ≠ '-') {b : Opt} (h : findOpt ['-', c] = some b) : c ∈ shortNames := by
  rcases findOpt_key h with ⟨d, hd, e⟩ | ⟨n, hn, e⟩
  · simp only [List.cons.injEq, true_and, and_true] at e
    exact e ▸ hd
  · unfold dashed at e
    simp only [List.cons.injEq, true_and] at e
    exact absurd e.1 hc

/-- What a word of letters is, if it is accepted. -/
theorem takeWord_inv (toInt : Str → Option Int) (next : Option Str) : ∀ (r : Str) {c : Char} (_ : c ∈ shortNames) {b : Opt} (_ : findOpt ['-', c] = some b)
    (acc : List Tok) {T : List Tok} {f : Bool}, takeWord toInt next b r acc = (T, f) → AllArgs T →
    ∃ cs l, Letters cs l ∧
      ((c :: r = cs ∧ T = acc ++ l.map .arg ∧ f = false) ∨
       (∃ o d v, c :: r = cs ++ (numberName o).1 :: d :: v ∧ T = acc ++ (l ++ [Arg.int o (toInt (if d = '=' then v else d :: v))]).map .arg ∧ f = false) ∨
       (∃ o v, c :: r = cs ++ [(numberName o).1] ∧ next = some v ∧ T = acc ++ (l ++ [Arg.int o (toInt v)]).map .arg ∧ f = true)) := by
  intro r
  induction r with
  | nil =>
    intro c hc b hb acc T f h hT
    rcases short_name c hc with ⟨a, ha⟩ | ⟨o, rfl⟩
    · obtain ⟨-, g2, g3⟩ := switch_letter ha
      rw [hb] at g2
      cases g2
      rw [takeWord_last toInt next g3] at h
      cases h
      exact ⟨[c], [a], ⟨ha, trivial⟩, .inl ⟨rfl, rfl, rfl⟩⟩
    · rw [(number_letter o).2] at hb
      cases hb
      cases next with
      | none =>
        have : takeWord toInt none (.int o) [] acc = ([.bad], false) := rfl
        rw [this] at h
        cases h
        exact absurd hT (allArgs_bad (by simp))
      | some v =>
        have : takeWord toInt (some v) (.int o) [] acc = (acc ++ [.arg (.int o (toInt v))], true) := rfl
        rw [this] at h
        cases h
        exact ⟨[], [], trivial, .inr (.inr ⟨o, v, rfl, rfl, rfl, rfl⟩)⟩
  | cons d q ih =>
    intro c hc b hb acc T f h hT
    rcases short_name c hc with ⟨a, ha⟩ | ⟨o, rfl⟩
    · obtain ⟨-, g2, g3⟩ := switch_letter ha
      rw [hb] at g2
      cases g2
      have bad : takeWord toInt next a.opt (d :: q) acc = ([.bad], false) → False := by
        intro e
        rw [e] at h
        cases h
        exact absurd hT (allArgs_bad (by simp))
      by_cases hd : d = '='
      · refine (bad ?_).elim
        unfold takeWord
        simp only [if_pos hd]
        rw [takeExplicit.eq_def]
        simp only [g3]
        cases q <;> simp
      · have e : takeWord toInt next a.opt (d :: q) acc = takeExplicit toInt next a.opt false false (d :: q) acc := by
          show (if d = '=' then _ else _) = _
          rw [if_neg hd]
        by_cases hm : d = '-'
        · refine (bad ?_).elim
          rw [e, takeExplicit.eq_def]
          simp [g3, hm]
        · cases hf : findOpt ['-', d] with
          | none =>
            rw [e, takeExplicit.eq_def] at h
            simp only [g3, hf, hm, Bool.false_eq_true, if_false, or_self] at h
            cases h
            exact absurd hT (allArgs_extra (by simp))
          | some b' =>
            have hs := findOpt_letter hm hf
            rw [takeWord_step toInt next g3 hs hf] at h
            obtain ⟨cs, l, hl, hh⟩ := ih hs hf _ h hT
            refine ⟨c :: cs, a :: l, ⟨ha, hl⟩, ?_⟩
            rcases hh with ⟨h1, h2, h3⟩ | ⟨o, x, v, h1, h2, h3⟩ | ⟨o, v, h1, h2, h3, h4⟩
            · exact .inl ⟨by rw [h1], by rw [h2]; simp, h3⟩
            · exact .inr (.inl ⟨o, x, v, by rw [h1]; rfl, by rw [h2]; simp, h3⟩)
            · exact .inr (.inr ⟨o, v, by rw [h1]; rfl, h2, by rw [h3]; simp, h4⟩)
    · rw [(number_letter o).2] at hb
      cases hb
      rw [takeWord_number] at h
      cases h
      exact ⟨[], [], trivial, .inr (.inl ⟨o, d, q, rfl, rfl, rfl⟩)⟩

/-- A word other than `--`. -/
theorem word_cases {digit : Char → Bool} (hd : Figures digit) {w : Str} (hw : w ≠ ['-', '-']) {c : ArgClass} (h : parseOptional digit w = some c) :
    (c = .arg ∧ IsArgument digit w) ∨ (∃ t, c = .opt t ∧ t.action = none) ∨
    (∃ t x r b, c = .opt t ∧ w = '-' :: x :: r ∧ x ∈ shortNames ∧ findOpt ['-', x] = some b ∧ t.action = some b ∧
      ∀ toInt next, consumeOptional toInt next b t = takeWord toInt next b r []) ∨
    (∃ t u rest n b, c = .opt t ∧ w = '-' :: '-' :: u ++ rest ∧ u ≠ [] ∧ n ∈ longNames ∧ findOpt (dashed n) = some b ∧ Means u n ∧ (rest = [] ∨ ∃ v, rest = '=' :: v) ∧
      t = (match rest with
      | [] => ⟨some b, dashed n, none, none⟩
      | _ :: v => ⟨some b, dashed n, some ['='], some v⟩)) := by
  have unknown : Unknown w → (c = .arg ∧ IsArgument digit w) ∨ (∃ t, c = .opt t ∧ t.action = none) := by
    intro hu
    rw [parse_unknown digit hu] at h
    have h := Option.some.inj h
    by_cases hn : negativeNumber digit w = true
    · rw [if_pos hn] at h
      exact .inl ⟨h.symm, .inr (.inr ⟨hu, .inl ((negativeNumber_iff hd w).1 hn)⟩)⟩
    · rw [if_neg hn] at h
      by_cases hb : ' ' ∈ w
      · rw [if_pos hb] at h
        exact .inl ⟨h.symm, .inr (.inr ⟨hu, .inr hb⟩)⟩
      · rw [if_neg hb] at h
        exact .inr ⟨_, h.symm, rfl⟩
  have plain : IsArgument digit w → (c = .arg ∧ IsArgument digit w) := by
    intro ha
    rw [(parse_argument hd ha).1] at h
    exact ⟨(Option.some.inj h).symm, ha⟩
  by_cases h1 : w.head? ≠ some '-'
  · exact .inl (plain (.inl h1))
  match w, h1 with
  | [], h1 => exact absurd (by simp) h1
  | [y], h1 =>
    have hy : y = '-' := by simpa using h1
    subst hy
    exact .inl (plain (.inr (.inl rfl)))
  | y :: x :: r, h1 =>
    have hy : y = '-' := by simpa using h1
    subst hy
    by_cases hx : x = '-'
    · subst hx
      have hr : r ≠ [] := by rintro rfl; exact hw rfl
      rcases long_cases r with ⟨n, hn, hm⟩ | hu | ⟨n, hn, m, hm, hne, g1, g2⟩
      · refine .inr (.inr (.inr ?_))
        obtain ⟨b, hb, -⟩ := findOpt_long n hn
        have hne : r.takeWhile (· ≠ '=') ≠ [] := by
          intro e
          rw [e] at hm
          have g1 := hm.2 "demo" (by decide) (List.nil_prefix)
          have g2 := hm.2 "text" (by decide) (List.nil_prefix)
          exact absurd (g1.trans g2.symm) (by decide)
        have hsplit : r = r.takeWhile (· ≠ '=') ++ r.dropWhile (· ≠ '=') := List.takeWhile_append_dropWhile.symm
        have hrest : r.dropWhile (· ≠ '=') = [] ∨ ∃ v, r.dropWhile (· ≠ '=') = '=' :: v := by
          cases he : r.dropWhile (· ≠ '=') with
          | nil => exact .inl rfl
          | cons z v =>
            have := List.head?_dropWhile_not (· ≠ '=') r
            rw [he] at this
            have hz : z = '=' := by simpa using this
            exact .inr ⟨v, by rw [hz]⟩
        generalize r.takeWhile (· ≠ '=') = u at *
        generalize r.dropWhile (· ≠ '=') = rest at *
        subst hsplit
        have hp := parse_long digit hne hn hb hm _ hrest
        rw [List.cons_append, List.cons_append, h] at hp
        refine ⟨_, u, rest, n, b, Option.some.inj hp, rfl, hne, hn, hb, hm, hrest, ?_⟩
        rcases hrest with rfl | ⟨v, rfl⟩ <;> rfl
      · rcases unknown ⟨hr, hu⟩ with h | h
        · exact .inl h
        · exact .inr (.inl h)
      · rw [parse_ambiguous digit hn hm hne g1 g2] at h
        cases h
    · by_cases hs : x ∈ shortNames
      · obtain ⟨b, hb, -⟩ := findOpt_short x hs
        obtain ⟨t, g1, g2, -⟩ := short_word digit (fun _ => none) hs hb r
        refine .inr (.inr (.inl ⟨t, x, r, b, ?_, rfl, hs, hb, g2, ?_⟩))
        · rw [h] at g1
          exact Option.some.inj g1
        · intro toInt next
          obtain ⟨t', g1', -, g3'⟩ := short_word digit toInt hs hb r
          rw [g1] at g1'
          cases g1'
          exact g3' next
      · have hu : Unknown ('-' :: x :: r) := by
          unfold Unknown
          split
          · rename_i e
            simp only [List.cons.injEq, true_and] at e
            exact absurd e.1 hx
          · rename_i e
            simp only [List.cons.injEq, true_and] at e
            rw [← e.1]
            exact hs
          · rename_i _ g
            exact g x r rfl
        rcases unknown hu with h | h
        · exact .inl h
        · exact .inr (.inl h)

/-- What an option is, if it is accepted. -/
theorem word_inv {digit : Char → Bool} (hd : Figures digit) (toInt : Str → Option Int) {w : Str} (hw : w ≠ ['-', '-']) {t : OptTuple}
    (h : parseOptional digit w = some (.opt t)) {b : Opt} (hb : t.action = some b) {next : Option Str} {T : List Tok} {f : Bool}
    (hc : consumeOptional toInt next b t = (T, f)) (hT : AllArgs T) :
    ∃ l : List Arg, T = l.map .arg ∧ (∀ a ∈ l, a.isFile = false) ∧
      ((f = false ∧ ∀ ws as, Spelled digit toInt ws as → Spelled digit toInt (w :: ws) (l ++ as)) ∨
       (f = true ∧ ∃ v, next = some v ∧ (IsArgument digit v → ∀ ws as, Spelled digit toInt ws as → Spelled digit toInt (w :: v :: ws) (l ++ as)))) := by
  rcases word_cases hd hw h with ⟨e, -⟩ | ⟨t', e, ha⟩ | ⟨t', x, r, b', e, rfl, hx, hf, ha, hcons⟩ | ⟨t', u, rest, n, b', e, rfl, hu, hn, hf, hm, hr, ht⟩
  · cases e
  · cases e
    rw [ha] at hb
    cases hb
  · cases e
    rw [ha] at hb
    cases hb
    rw [hcons] at hc
    obtain ⟨cs, l, hl, hh⟩ := takeWord_inv toInt next r hx hf [] hc hT
    have last : ∀ (o : IntOpt) (z : Option Int), ∀ a ∈ l ++ [.int o z], a.isFile = false := by
      intro o z a ha
      rcases List.mem_append.1 ha with ha | ha
      · exact letters_isFile hl a ha
      · rw [List.mem_singleton.1 ha]; rfl
    rcases hh with ⟨h1, h2, h3⟩ | ⟨o, d, v, h1, h2, h3⟩ | ⟨o, v, h1, h2, h3, h4⟩
    · refine ⟨l, h2, letters_isFile hl, .inl ⟨h3, fun ws as hs => ?_⟩⟩
      rw [h1]
      exact .letters cs l hl (by rw [← h1]; simp) hs
    · refine ⟨_, h2, last _ _, .inl ⟨h3, fun ws as hs => ?_⟩⟩
      rw [h1, List.append_assoc]
      exact .lettersValue cs l o d v hl hs
    · refine ⟨_, h3, last _ _, .inr ⟨h4, v, h2, fun hv ws as hs => ?_⟩⟩
      rw [h1, List.append_assoc]
      exact .lettersNext cs l o v hl hv hs
  · cases e
    have hb' : b' = b := by
      rw [ht] at hb
      rcases hr with rfl | ⟨v, rfl⟩ <;> exact Option.some.inj hb
    subst hb'
    rcases hr with rfl | ⟨v, rfl⟩
    · subst ht
      rw [List.append_nil]
      rcases long_name n hn with ⟨a, rfl⟩ | ⟨o, rfl⟩
      · obtain ⟨-, g2, g3⟩ := switch_long (a := a) (by
          intro e
          exact (names_plain _ hn).2 (by rw [e]; rfl))
        rw [hf] at g2
        cases g2
        have : consumeOptional toInt next a.opt ⟨some a.opt, dashed (switchName a).2, none, none⟩ = ([.arg a], false) := takeWord_last toInt next g3 []
        rw [this] at hc
        cases hc
        exact ⟨[a], rfl, by simpa using switch_isFile g3, .inl ⟨rfl, fun ws as hs => .long u a hm hu hs⟩⟩
      · rw [(number_long o).2] at hf
        cases hf
        cases next with
        | none =>
          have : consumeOptional toInt none (.int o) ⟨some (.int o), dashed (numberName o).2, none, none⟩ = ([.bad], false) := rfl
          rw [this] at hc
          cases hc
          exact absurd hT (allArgs_bad (by simp))
        | some v =>
          have : consumeOptional toInt (some v) (.int o) ⟨some (.int o), dashed (numberName o).2, none, none⟩ = ([.arg (.int o (toInt v))], true) := rfl
          rw [this] at hc
          cases hc
          exact ⟨[.int o (toInt v)], rfl, by simp [Arg.isFile], .inr ⟨rfl, v, rfl, fun hv ws as hs => .longNext u o v hm hu hv hs⟩⟩
    · subst ht
      rcases long_name n hn with ⟨a, rfl⟩ | ⟨o, rfl⟩
      · obtain ⟨-, g2, g3⟩ := switch_long (a := a) (by
          intro e
          exact (names_plain _ hn).2 (by rw [e]; rfl))
        rw [hf] at g2
        cases g2
        unfold consumeOptional at hc
        simp only at hc
        rw [takeExplicit.eq_def] at hc
        simp only [g3, dashed, List.drop_succ_cons, List.drop_zero, List.head?_cons, decide_true, if_true] at hc
        cases hc
        exact absurd hT (allArgs_bad (by simp))
      · rw [(number_long o).2] at hf
        cases hf
        unfold consumeOptional at hc
        simp only at hc
        rw [takeExplicit.eq_def] at hc
        simp only [Opt.switch] at hc
        cases hc
        exact ⟨[.int o (toInt v)], rfl, by simp [Arg.isFile], .inl ⟨rfl, fun ws as hs => .longValue u o v hm hu hs⟩⟩

theorem written_cons {digit : Char → Bool} {toInt : Str → Option Int} {w : Str} {l : List Arg}
    (h : ∀ ws as, Spelled digit toInt ws as → Spelled digit toInt (w :: ws) (l ++ as)) {ws : List Str} {as : List Arg} (hw : Written digit toInt ws as) :
    Written digit toInt (w :: ws) (l ++ as) := by
  rcases hw with hw | ⟨front, rfl, hw⟩
  · exact .inl (h ws as hw)
  · exact .inr ⟨w :: front, rfl, h front as hw⟩

theorem classify_inv {digit : Char → Bool} {w : Str} {ws : List Str} {l : List (Str × ArgClass)} (hw : w ≠ ['-', '-']) (h : classify digit (w :: ws) = some l) :
    ∃ c q, parseOptional digit w = some c ∧ classify digit ws = some q ∧ l = (w, c) :: q := by
  rw [classify, if_neg hw] at h
  cases hp : parseOptional digit w with
  | none => rw [hp] at h; cases h
  | some c =>
    rw [hp] at h
    simp only [Option.map_eq_some_iff] at h
    obtain ⟨q, hq, rfl⟩ := h
    exact ⟨c, q, rfl, hq, rfl⟩

/-- A word classified as `--` is one, and arguments follow. -/
theorem classify_dashes {digit : Char → Bool} (hd : Figures digit) {ws : List Str} {x : Str} {q : List (Str × ArgClass)} (h : classify digit ws = some ((x, .dashes) :: q)) :
    ∃ vs, ws = ['-', '-'] :: vs ∧ q = vs.map fun v => (v, .arg) := by
  cases ws with
  | nil => cases h
  | cons w ws =>
    by_cases hw : w = ['-', '-']
    · subst hw
      rw [classify, if_pos rfl] at h
      cases h
      exact ⟨ws, rfl, rfl⟩
    · obtain ⟨c, q', hp, -, e⟩ := classify_inv hw h
      cases e
      rcases word_cases hd hw hp with ⟨e, -⟩ | ⟨t, e, -⟩ | ⟨t, -, -, -, e, -⟩ | ⟨t, -, -, -, -, e, -⟩ <;> cases e

theorem classify_arg {digit : Char → Bool} (hd : Figures digit) {ws : List Str} {v : Str} {q : List (Str × ArgClass)} (h : classify digit ws = some ((v, .arg) :: q)) :
    ∃ ws', ws = v :: ws' ∧ IsArgument digit v ∧ classify digit ws' = some q := by
  cases ws with
  | nil => cases h
  | cons w ws =>
    by_cases hw : w = ['-', '-']
    · subst hw
      rw [classify, if_pos rfl] at h
      cases h
    · obtain ⟨c, q', hp, hq, e⟩ := classify_inv hw h
      cases e
      refine ⟨ws, rfl, ?_, hq⟩
      rcases word_cases hd hw hp with ⟨-, e⟩ | ⟨t, e, -⟩ | ⟨t, -, -, -, e, -⟩ | ⟨t, -, -, -, -, e, -⟩
      · exact e
      all_goals cases e

theorem consume_files {toInt : Str → Option Int} {vs : List Str} (h : AllArgs (consume toInt (vs.map fun v => (v, .arg)) true)) : vs = [] := by
  cases vs with
  | nil => rfl
  | cons v vs =>
    simp only [List.map_cons] at h
    rw [consume.eq_def] at h
    simp only [if_true] at h
    exact absurd h (allArgs_extra (by simp))

theorem consume_arg (toInt : Str → Option Int) (w : Str) {q : List (Str × ArgClass)} (h : ∀ x q', q ≠ (x, .dashes) :: q') :
    consume toInt ((w, .arg) :: q) false = .arg (.file w) :: consume toInt q true := by
  rw [consume.eq_def]
  simp only [Bool.false_eq_true, if_false]

theorem consume_last (toInt : Str → Option Int) (w : Str) {t : OptTuple} {b : Opt} (hb : t.action = some b) {q : List (Str × ArgClass)} (h : ¬ ∃ v q', q = (v, .arg) :: q') (taken : Bool) :
    consume toInt ((w, .opt t) :: q) taken = (consumeOptional toInt none b t).1 ++ consume toInt q taken := by
  rw [consume.eq_def]
  simp only [hb]
  split
  · rename_i v q'
    exact absurd ⟨v, q', rfl⟩ h
  · rfl

theorem consume_kept (toInt : Str → Option Int) {w v : Str} {t : OptTuple} {a : Opt} (ha : t.action = some a) {toks : List Tok}
    (h : consumeOptional toInt (some v) a t = (toks, false)) (q : List (Str × ArgClass)) (taken : Bool) :
    consume toInt ((w, .opt t) :: (v, .arg) :: q) taken = toks ++ consume toInt ((v, .arg) :: q) taken := by
  rw [consume.eq_def]
  simp [ha, h]

def fileCount (as : List Arg) : Nat := as.countP Arg.isFile

theorem fileCount_append {l as : List Arg} (hl : ∀ a ∈ l, a.isFile = false) : fileCount (l ++ as) = fileCount as := by
  unfold fileCount
  rw [List.countP_append, List.countP_eq_zero.2 (by simpa using hl), Nat.zero_add]

theorem consume_inv {digit : Char → Bool} (hd : Figures digit) (toInt : Str → Option Int) : ∀ (n : Nat) (ws : List Str), ws.length ≤ n →
    ∀ {l : List (Str × ArgClass)}, classify digit ws = some l → ∀ {taken : Bool}, AllArgs (consume toInt l taken) →
    ∃ as : List Arg, consume toInt l taken = as.map .arg ∧ fileCount as ≤ (if taken then 0 else 1) ∧ Written digit toInt ws as := by
  intro n
  induction n with
  | zero =>
    intro ws hn l hl taken h
    cases ws with
    | nil =>
      cases hl
      exact ⟨[], rfl, Nat.zero_le _, .inl .nil⟩
    | cons w ws => cases hn
  | succ n ih =>
    intro ws hn l hl taken h
    cases ws with
    | nil =>
      cases hl
      exact ⟨[], rfl, Nat.zero_le _, .inl .nil⟩
    | cons w ws =>
      have hn' : ws.length ≤ n := by simpa using hn
      by_cases hw : w = ['-', '-']
      · subst hw
        rw [classify, if_pos rfl] at hl
        cases hl
        rw [consume.eq_def] at h ⊢
        cases taken with
        | true => exact absurd h (allArgs_extra (by simp))
        | false =>
          simp only [Bool.false_eq_true, if_false] at h ⊢
          cases ws with
          | nil => exact ⟨[], rfl, Nat.zero_le _, .inr ⟨[], rfl, .nil⟩⟩
          | cons v vs =>
            simp only [List.map_cons] at h ⊢
            have hv := consume_files fun t ht => h t (List.mem_cons_of_mem _ ht)
            subst hv
            exact ⟨[.file v], rfl, Nat.le_refl _, .inl (.files v [])⟩
      · obtain ⟨c, q, hp, hq, rfl⟩ := classify_inv hw hl
        cases c with
        | dashes =>
          rcases word_cases hd hw hp with ⟨e, -⟩ | ⟨t, e, -⟩ | ⟨t, -, -, -, e, -⟩ | ⟨t, -, -, -, -, e, -⟩ <;> cases e
        | arg =>
          have ha : IsArgument digit w := by
            obtain ⟨ws', e, ha, -⟩ := classify_arg hd hl
            exact ha
          cases taken with
          | true =>
            rw [consume.eq_def] at h
            exact absurd h (allArgs_extra (by simp))
          | false =>
            by_cases hx : ∃ x q', q = (x, ArgClass.dashes) :: q'
            · obtain ⟨x, q', rfl⟩ := hx
              obtain ⟨vs, rfl, rfl⟩ := classify_dashes hd hq
              have e : consume toInt ((w, .arg) :: (x, .dashes) :: vs.map fun v => (v, .arg)) false = .arg (.file w) :: consume toInt (vs.map fun v => (v, .arg)) true := by
                rw [consume.eq_def]
                rfl
              rw [e] at h ⊢
              have hv := consume_files fun t ht => h t (List.mem_cons_of_mem _ ht)
              subst hv
              exact ⟨[.file w], rfl, Nat.le_refl _, .inr ⟨[w], rfl, .file w ha .nil⟩⟩
            · rw [consume_arg toInt w fun x q' e => hx ⟨x, q', e⟩] at h ⊢
              obtain ⟨as, e1, e2, e3⟩ := ih ws hn' hq (taken := true) fun t ht => h t (List.mem_cons_of_mem _ ht)
              refine ⟨.file w :: as, ?_, ?_, written_cons (l := [.file w]) (fun ws as hs => .file w ha hs) e3⟩
              · rw [List.map_cons, ← e1]
              · have : fileCount (.file w :: as) = fileCount as + 1 := List.countP_cons_of_pos rfl
                rw [this]
                simp only [if_true] at e2
                simp only [Bool.false_eq_true, if_false]
                omega
        | opt t =>
          cases hb : t.action with
          | none =>
            rw [consume.eq_def] at h
            simp only [hb] at h
            exact absurd h (allArgs_extra (by simp))
          | some b =>
            by_cases hnext : ∃ v q', q = (v, ArgClass.arg) :: q'
            · obtain ⟨v, q', rfl⟩ := hnext
              obtain ⟨ws', rfl, hv, hq'⟩ := classify_arg hd hq
              cases hx : consumeOptional toInt (some v) b t with
              | mk T f =>
                cases f with
                | false =>
                  rw [consume_kept toInt hb hx] at h ⊢
                  obtain ⟨l, rfl, g2, g3⟩ := word_inv hd toInt hw hp hb hx (allArgs_append.1 h).1
                  rcases g3 with ⟨-, g4⟩ | ⟨g3, -⟩
                  · obtain ⟨as, e1, e2, e3⟩ := ih _ hn' hq (allArgs_append.1 h).2
                    exact ⟨l ++ as, by rw [e1, List.map_append], by rw [fileCount_append g2]; exact e2, written_cons g4 e3⟩
                  · cases g3
                | true =>
                  rw [consume_next toInt hb hx] at h ⊢
                  obtain ⟨l, rfl, g2, g3⟩ := word_inv hd toInt hw hp hb hx (allArgs_append.1 h).1
                  rcases g3 with ⟨g3, -⟩ | ⟨-, v', g4, g5⟩
                  · cases g3
                  · cases g4
                    obtain ⟨as, e1, e2, e3⟩ := ih ws' (by simp only [List.length_cons] at hn'; omega) hq' (allArgs_append.1 h).2
                    refine ⟨l ++ as, by rw [e1, List.map_append], by rw [fileCount_append g2]; exact e2, ?_⟩
                    rcases e3 with e3 | ⟨front, rfl, e3⟩
                    · exact .inl (g5 hv _ _ e3)
                    · exact .inr ⟨w :: v :: front, rfl, g5 hv _ _ e3⟩
            · rw [consume_last toInt w hb hnext] at h ⊢
              cases hx : consumeOptional toInt none b t with
              | mk T f =>
                rw [hx] at h
                obtain ⟨l, rfl, g2, g3⟩ := word_inv hd toInt hw hp hb hx (allArgs_append.1 h).1
                rcases g3 with ⟨-, g4⟩ | ⟨-, v', g4, -⟩
                · obtain ⟨as, e1, e2, e3⟩ := ih _ hn' hq (allArgs_append.1 h).2
                  exact ⟨l ++ as, by rw [e1, List.map_append], by rw [fileCount_append g2]; exact e2, written_cons g4 e3⟩
                · cases g4

theorem runToks_args : ∀ (as : List Arg) (file : Option Str), fileCount as ≤ (if file.isSome then 0 else 1) → Same (as.map .arg) as file
  | [], _, _ => fun _ _ _ => rfl
  | a :: as, file, h => by
    by_cases ha : a.isFile = true
    · have e : fileCount (a :: as) = fileCount as + 1 := List.countP_cons_of_pos ha
      rw [e] at h
      cases file with
      | some f => simp at h
      | none =>
        cases a with
        | file v =>
          intro seen s extra
          simp only [List.map_cons, runToks, parseLoop]
          rw [runToks_args as (some v) (by simpa using h)]
        | _ => cases ha
    · have e : fileCount (a :: as) = fileCount as := List.countP_cons_of_neg ha
      exact same_cons (runToks_args as file (e ▸ h)) (by simpa using ha)

/-- **C90**: nothing else is accepted: if the program runs then every word is one of those, and it runs
with what they stand for. -/
theorem C90_accepted {digit : Char → Bool} (hd : Figures digit) {toInt : Str → Option Int} {ws : List Str} {s : Settings} {file : Option Str}
    (h : parseStrings digit toInt ws = .run s file) : ∃ as, Written digit toInt ws as ∧ parseArgs as = .run s file := by
  unfold parseStrings at h
  cases hl : classify digit ws with
  | none => rw [hl] at h; cases h
  | some l =>
    rw [hl] at h
    simp only at h
    obtain ⟨as, e1, e2, e3⟩ := consume_inv hd toInt _ ws (Nat.le_refl _) hl (runToks_run _ h).1
    refine ⟨as, e3, ?_⟩
    rw [e1, runToks_args as none (by simpa using e2)] at h
    exact h

theorem classify_mem {digit : Char → Bool} {w : Str} {c : ArgClass} (hp : parseOptional digit w = some c) : ∀ {front : List Str} (_ : ['-', '-'] ∉ front) {back : List Str}
    (_ : w ≠ ['-', '-']) {l : List (Str × ArgClass)}, classify digit (front ++ w :: back) = some l → (w, c) ∈ l
  | [], _, back, hw, l, h => by
    obtain ⟨c', q, h1, -, rfl⟩ := classify_inv hw h
    rw [hp] at h1
    cases h1
    exact List.mem_cons_self
  | x :: front, hf, back, hw, l, h => by
    obtain ⟨c', q, -, h2, rfl⟩ := classify_inv (by rintro rfl; simp at hf) h
    exact List.mem_cons_of_mem _ (classify_mem hp (fun g => hf (List.mem_cons_of_mem _ g)) hw h2)

theorem consume_unknown {toInt : Str → Option Int} {w : Str} {t : OptTuple} (ht : t.action = none) : ∀ (n : Nat) (l : List (Str × ArgClass)), l.length ≤ n →
    (w, .opt t) ∈ l → ∀ taken, .extra ∈ consume toInt l taken := by
  intro n
  induction n with
  | zero =>
    intro l hn hm
    cases l with
    | nil => cases hm
    | cons x l => cases hn
  | succ n ih =>
    intro l hn hm taken
    cases l with
    | nil => cases hm
    | cons x l =>
      have hn' : l.length ≤ n := by simpa using hn
      obtain ⟨v, c⟩ := x
      rcases List.mem_cons.1 hm with e | hml
      · cases e
        rw [consume.eq_def]
        simp only [ht]
        exact List.mem_cons_self
      · have hm' := hml
        have rest : ∀ (y : Str × ArgClass) q, l = y :: q → y.2 ≠ .opt t → ∀ taken, .extra ∈ consume toInt q taken := by
          rintro y q rfl hy taken
          rcases List.mem_cons.1 hm' with e | hm
          · rw [← e] at hy
            exact absurd rfl hy
          · exact ih q (by simp only [List.length_cons] at hn'; omega) hm taken
        rw [consume.eq_def]
        cases c with
        | opt u =>
          simp only
          split
          · exact List.mem_cons_self
          · split
            · refine List.mem_append_right _ ?_
              split
              · exact rest _ _ rfl (by simp) _
              · exact ih _ hn' hml _
            · exact List.mem_append_right _ (ih _ hn' hml _)
        | arg =>
          simp only
          split
          · exact List.mem_cons_self
          · split
            · exact List.mem_cons_of_mem _ (rest _ _ rfl (by simp) _)
            · exact List.mem_cons_of_mem _ (ih _ hn' hml _)
        | dashes =>
          simp only
          split
          · exact List.mem_cons_self
          · split
            · exact List.mem_cons_of_mem _ (rest _ _ rfl (by simp) _)
            · exact ih _ hn' hml _

/-- **C90**: no run with an unknown option. -/
theorem C90_unknown {digit : Char → Bool} (hd : Figures digit) {toInt : Str → Option Int} {front back : List Str} {w : Str} (hf : ['-', '-'] ∉ front)
    (hu : Unknown w) (hn : ¬ Negative digit w) (hb : ' ' ∉ w) (s : Settings) (file : Option Str) :
    parseStrings digit toInt (front ++ w :: back) ≠ .run s file := by
  intro h
  have hp := parse_unknown digit hu
  rw [if_neg (fun g => hn ((negativeNumber_iff hd w).1 g)), if_neg hb] at hp
  have hw : w ≠ ['-', '-'] := by
    rintro rfl
    exact hu.1 rfl
  unfold parseStrings at h
  cases hl : classify digit (front ++ w :: back) with
  | none => rw [hl] at h; cases h
  | some l =>
    rw [hl] at h
    exact allArgs_extra (consume_unknown rfl _ l (Nat.le_refl _) (classify_mem hp hf hw hl) false) (runToks_run _ h).1

theorem classify_refused {digit : Char → Bool} {w : Str} (hp : parseOptional digit w = none) (hw : w ≠ ['-', '-']) : ∀ {front : List Str} (_ : ['-', '-'] ∉ front) {back : List Str},
    classify digit (front ++ w :: back) = none
  | [], _, back => by rw [List.nil_append, classify, if_neg hw, hp]
  | x :: front, hf, back => by
    rw [List.cons_append, classify, if_neg (by rintro rfl; simp at hf), classify_refused hp hw fun g => hf (List.mem_cons_of_mem _ g)]
    cases parseOptional digit x <;> rfl

/-- **C90**: a word that begins two names is refused, whatever else is there. -/
theorem C90_ambiguous {digit : Char → Bool} {toInt : Str → Option Int} {front back : List Str} {r : Str} (hf : ['-', '-'] ∉ front) (hr : r ≠ [])
    {n m : String} (hn : n ∈ longNames) (hm : m ∈ longNames) (hne : n ≠ m)
    (h1 : r.takeWhile (· ≠ '=') <+: n.toList) (h2 : r.takeWhile (· ≠ '=') <+: m.toList) :
    parseStrings digit toInt (front ++ ('-' :: '-' :: r) :: back) = .usage := by
  unfold parseStrings
  rw [classify_refused (parse_ambiguous digit hn hm hne h1 h2) (by simpa using hr) hf]

/-- **C90**: so the whole program does what it does for the options and file names. -/
theorem C90_program {digit : Char → Bool} (hd : Figures digit) {toInt : Str → Option Int} {ws : List Str} {as : List Arg} (h : Spelled digit toInt ws as)
    (fuel : Nat) (w : World) : programOf digit toInt fuel w ws = program fuel w as := by
  unfold programOf program
  rw [C90_spelling hd h]
  rfl

/-! ### Examples -/

/-- The digits of ASCII. -/
def asciiDigit (c : Char) : Bool := decide ('0' ≤ c) && decide (c ≤ '9')

/-- Numbers with one or two digits. -/
def smallInt : Str → Option Int
  | ['-', c] => if asciiDigit c then some (-(c.toNat - 48 : Int)) else none
  | [c] => if asciiDigit c then some (c.toNat - 48) else none
  | [c, d] => if asciiDigit c && asciiDigit d then some ((c.toNat - 48) * 10 + (d.toNat - 48)) else none
  | _ => none

theorem asciiDigit_figures : Figures asciiDigit := by
  intro c _
  simp [asciiDigit]

/-- `-DDbw16 --no-l --marker -2 --max-b=3 - -- x`. -/
theorem spelled_example : Spelled asciiDigit smallInt
    ["-DDbw16".toList, "--no-l".toList, "--marker".toList, ['-', '2'], "--max-b=3".toList, "-m=1".toList, "-".toList]
    [.debug, .debug, .flag .binary, .int .columns (some 16), .flag .noLineNumbers, .int .marker (some (-2)), .int .maxBytes (some 3), .int .marker (some 1), .file "-".toList] := by
  refine .lettersValue "DDb".toList [.debug, .debug, .flag .binary] .columns '1' "6".toList ⟨rfl, rfl, rfl, trivial⟩ ?_
  refine .long "no-l".toList (.flag .noLineNumbers) ⟨by decide, by decide +kernel⟩ (by decide) ?_
  refine .longNext "marker".toList .marker ['-', '2'] ⟨by decide, by decide +kernel⟩ (by decide) (.inr (.inr ⟨show '2' ∉ shortNames by decide, .inl ⟨['2'], [], [], by decide, .inl rfl, .inl ⟨rfl, rfl, by decide⟩⟩⟩)) ?_
  refine .longValue "max-b".toList .maxBytes "3".toList ⟨by decide, by decide +kernel⟩ (by decide) ?_
  refine .lettersValue [] [] .marker '=' "1".toList trivial ?_
  exact .file "-".toList (.inr (.inl rfl)) .nil

example : parseStrings asciiDigit smallInt
    ["-DDbw16".toList, "--no-l".toList, "--marker".toList, ['-', '2'], "--max-b=3".toList, "-m=1".toList, "-".toList] =
    .run { ({} : Settings) with debug := 2, binary := true, columns := some 16, noLineNumbers := true, maxBytes := some 3, marker := 1 } (some ['-']) := by
  rw [C90_spelling asciiDigit_figures spelled_example]
  rfl

/-- A file with the name of an option. -/
example : parseStrings asciiDigit smallInt ["-b".toList, "--".toList, "-x".toList] = .run { ({} : Settings) with binary := true } (some "-x".toList) := by
  refine (C90_spelling asciiDigit_figures (as := [.flag .binary, .file "-x".toList]) (.letters ['b'] [.flag .binary] ⟨rfl, trivial⟩ (by decide) (.files "-x".toList []))).trans rfl

example (back : List Str) (s : Settings) (file : Option Str) : parseStrings asciiDigit smallInt (["-b".toList] ++ ('-' :: '-' :: "colour".toList) :: back) ≠ .run s file :=
  C90_unknown (w := '-' :: '-' :: "colour".toList) asciiDigit_figures (by decide)
    (show _ ∧ ∀ name ∈ longNames, ¬ ("colour".toList.takeWhile (· ≠ '=')) <+: name.toList from ⟨by decide, by decide +kernel⟩) (by
    rintro ⟨a, b, z, h, hz, ⟨e, -⟩ | ⟨e, -⟩⟩
    · cases a with
      | nil =>
        have e := (List.cons.inj e).2
        rcases hz with rfl | rfl <;> cases e
      | cons x a =>
        have : x = '-' := (List.cons.inj (List.cons.inj e).2).1.symm
        subst this
        exact absurd (h '-' (by simp)) (by decide)
    · cases a with
      | nil => exact absurd (List.cons.inj (List.cons.inj e).2).1 (by decide)
      | cons x a =>
        have : x = '-' := (List.cons.inj (List.cons.inj e).2).1.symm
        subst this
        exact absurd (h '-' (by simp)) (by decide)) (by decide) s file

example (back : List Str) : parseStrings asciiDigit smallInt (["-h".toList] ++ "--col=3".toList :: back) = .usage :=
  C90_ambiguous (n := "columns") (m := "color-markers") (by decide) (by decide) (by decide) (by decide) (by decide) (by decide) (by decide)

end Kolombos
