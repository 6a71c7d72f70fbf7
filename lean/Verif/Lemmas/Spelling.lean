import Verif.Model.ArgStrings
import Verif.Spec.Spelling
/-
The strings of the command line: the table of options.
-/
set_option linter.unusedSimpArgs false

namespace Kolombos
open Spec

/-- The action of an element. -/
def Arg.opt : Arg → Opt
  | .flag f => .flag f
  | .int o _ => .int o
  | .debug => .debug
  | .help => .help
  | .file _ => .help

/-! ### The table -/

/-- The long option string. -/
def dashed (n : String) : Str := '-' :: '-' :: n.toList

theorem table_forms : ∀ e ∈ optionStrings, (∃ c ∈ shortNames, e.1 = ['-', c]) ∨ (∃ n ∈ longNames, e.1 = dashed n) := by decide +kernel

theorem names_plain : ∀ n ∈ longNames, '=' ∉ n.toList ∧ n.toList ≠ [] := by decide +kernel

theorem short_plain : ∀ c ∈ shortNames, c ≠ '-' ∧ c ≠ '=' ∧ ¬ ('0' ≤ c ∧ c ≤ '9') ∧ c ≠ '.' := by decide +kernel

theorem findOpt_key {s : Str} {b : Opt} (h : findOpt s = some b) : (∃ c ∈ shortNames, s = ['-', c]) ∨ (∃ n ∈ longNames, s = dashed n) := by
  unfold findOpt at h
  cases hf : optionStrings.find? fun e => e.1 = s with
  | none => rw [hf] at h; cases h
  | some e =>
    have h1 := List.mem_of_find?_eq_some hf
    have h2 := List.find?_some hf
    simp only [decide_eq_true_eq] at h2
    rw [← h2]
    exact table_forms e h1

theorem findOpt_short : ∀ c ∈ shortNames, ∃ b, findOpt ['-', c] = some b ∧ optionStrings.filter (fun e => e.1 = ['-', c]) = [(['-', c], b)] := by
  have h : ∀ c ∈ shortNames, ((findOpt ['-', c]).any fun b => optionStrings.filter (fun e => e.1 = ['-', c]) = [(['-', c], b)]) = true := by decide +kernel
  intro c hc
  have := h c hc
  cases hb : findOpt ['-', c] with
  | none => rw [hb] at this; cases this
  | some b =>
    rw [hb] at this
    exact ⟨b, rfl, by simpa using this⟩

theorem findOpt_long : ∀ n ∈ longNames, ∃ b, findOpt (dashed n) = some b ∧ optionStrings.filter (fun e => e.1 = dashed n) = [(dashed n, b)] := by
  have h : ∀ n ∈ longNames, ((findOpt (dashed n)).any fun b => optionStrings.filter (fun e => e.1 = dashed n) = [(dashed n, b)]) = true := by decide +kernel
  intro c hc
  have := h c hc
  cases hb : findOpt (dashed c) with
  | none => rw [hb] at this; cases this
  | some b =>
    rw [hb] at this
    exact ⟨b, rfl, by simpa using this⟩

/-- The names of an option without argument. -/
theorem switch_letter {a : Arg} {c : Char} (h : (switchName a).1 = some c) : c ∈ shortNames ∧ findOpt ['-', c] = some a.opt ∧ a.opt.switch = some a := by
  cases a with
  | flag f =>
    cases f with
    | focus d => cases d <;> (cases h; decide +kernel)
    | ignore d => cases d <;> (cases h; decide +kernel)
    | _ => first | (cases h; done) | (cases h; decide +kernel)
  | int o v => cases h
  | debug => cases h; decide +kernel
  | help => cases h; decide +kernel
  | file f => cases h

theorem switch_long {a : Arg} (h : (switchName a).2 ≠ "") : (switchName a).2 ∈ longNames ∧ findOpt (dashed (switchName a).2) = some a.opt ∧ a.opt.switch = some a := by
  cases a with
  | flag f =>
    cases f with
    | focus d => cases d <;> decide +kernel
    | ignore d => cases d <;> decide +kernel
    | _ => decide +kernel
  | int o v => exact absurd rfl h
  | debug => decide +kernel
  | help => decide +kernel
  | file f => exact absurd rfl h

theorem number_letter (o : IntOpt) : (numberName o).1 ∈ shortNames ∧ findOpt ['-', (numberName o).1] = some (.int o) := by
  cases o <;> decide +kernel

theorem number_long (o : IntOpt) : (numberName o).2 ∈ longNames ∧ findOpt (dashed (numberName o).2) = some (.int o) := by
  cases o <;> decide +kernel

/-! ### Classification -/

theorem takeWhile_noEq {s : Str} (h : '=' ∉ s) (t : Str) (ht : t = [] ∨ ∃ v, t = '=' :: v) : (s ++ t).takeWhile (· ≠ '=') = s := by
  rw [List.takeWhile_append_of_pos (by
    intro c hc
    simp only [ne_eq, decide_not, Bool.not_eq_eq_eq_not, Bool.not_true, decide_eq_false_iff_not]
    rintro rfl
    exact h hc)]
  rcases ht with rfl | ⟨v, rfl⟩ <;> simp

theorem partitionEq_none {s : Str} (h : '=' ∉ s) : partitionEq s = (s, [], []) := by
  have e := takeWhile_noEq h [] (.inl rfl)
  rw [List.append_nil] at e
  unfold partitionEq
  simp only [e, List.drop_length]

theorem partitionEq_some {s v : Str} (h : '=' ∉ s) : partitionEq (s ++ '=' :: v) = (s, ['='], v) := by
  have e := takeWhile_noEq h ('=' :: v) (.inr ⟨v, rfl⟩)
  unfold partitionEq
  simp only [e, List.drop_left]

theorem partitionEq_cases (s : Str) : ('=' ∉ s ∧ partitionEq s = (s, [], [])) ∨
    ∃ a v, '=' ∉ a ∧ s = a ++ '=' :: v ∧ partitionEq s = (a, ['='], v) := by
  by_cases h : '=' ∈ s
  · obtain ⟨a, v, rfl, ha⟩ := List.eq_append_cons_of_mem h
    exact .inr ⟨a, v, ha, rfl, partitionEq_some ha⟩
  · exact .inl ⟨h, partitionEq_none h⟩

/-- One entry of the table passes. -/
theorem filterMap_single {α β : Type} (l : List α) (f : α → Option β) (p : α → Bool) (x : α) (y : β)
    (hl : l.filter p = [x]) (h1 : f x = some y) (h2 : ∀ e ∈ l, p e = false → f e = none) : l.filterMap f = [y] := by
  induction l with
  | nil => cases hl
  | cons e l ih =>
    rw [List.filter_cons] at hl
    by_cases hp : p e = true
    · rw [if_pos hp] at hl
      obtain ⟨rfl, hl'⟩ := List.cons.inj hl
      rw [List.filterMap_cons, h1]
      have : l.filterMap f = [] := by
        rw [List.filterMap_eq_nil_iff]
        intro z hz
        refine h2 z (by simp [hz]) ?_
        have := List.filter_eq_nil_iff.1 hl' z hz
        simpa using this
      rw [this]
    · rw [if_neg hp] at hl
      rw [List.filterMap_cons, h2 e (by simp) (by simpa using hp)]
      exact ih hl fun z hz => h2 z (by simp [hz])

theorem filterMap_none {α β : Type} (l : List α) (f : α → Option β) (h : ∀ e ∈ l, f e = none) : l.filterMap f = [] :=
  List.filterMap_eq_nil_iff.2 h

theorem prefix_cons_iff {a b : Char} {s t : Str} : (a :: s).isPrefixOf (b :: t) = (a == b && s.isPrefixOf t) := rfl

/-- A word with a letter for a short name: exact, with `=`, with more letters. -/
theorem parse_short (digit : Char → Bool) {c : Char} (hc : c ∈ shortNames) {b : Opt} (hb : findOpt ['-', c] = some b) (r : Str) :
    parseOptional digit ('-' :: c :: r) = some (.opt (match r with
      | [] => ⟨some b, ['-', c], none, none⟩
      | d :: q => if d = '=' then ⟨some b, ['-', c], some ['='], some q⟩ else ⟨some b, ['-', c], some [], some (d :: q)⟩)) := by
  obtain ⟨hd, he, -, -⟩ := short_plain c hc
  unfold parseOptional
  rw [if_neg (by simp), if_neg (by simp)]
  cases r with
  | nil => rw [hb]
  | cons d q =>
    have hlong : ∀ u : Str, u ≠ [] → findOpt ('-' :: c :: u) = none := by
      intro u hu
      cases hf : findOpt ('-' :: c :: u) with
      | none => rfl
      | some x =>
        rcases findOpt_key hf with ⟨y, -, hy⟩ | ⟨n, -, hn⟩
        · simp only [List.cons.injEq, true_and] at hy
          exact absurd hy.2 hu
        · unfold dashed at hn
          simp only [List.cons.injEq, true_and] at hn
          exact absurd hn.1 hd
    rw [hlong (d :: q) (by simp)]
    simp only
    rw [if_neg (by simp)]
    by_cases hq : d = '='
    · subst hq
      rw [show '-' :: c :: '=' :: q = ['-', c] ++ '=' :: q from rfl, partitionEq_some (by simp; exact fun h => he h.symm)]
      simp only
      rw [if_pos (by simp), hb]
      simp
    · have hfind : (if (partitionEq ('-' :: c :: d :: q)).2.1 ≠ [] then findOpt (partitionEq ('-' :: c :: d :: q)).1 else none) = none := by
        rcases partitionEq_cases ('-' :: c :: d :: q) with ⟨-, e⟩ | ⟨a, v, ha, e1, e2⟩
        · rw [e]; simp
        · rw [e2]
          simp only
          rw [if_pos (by simp)]
          match a, e1 with
          | [], e1 => simp at e1
          | [x], e1 => simp at e1; exact absurd e1.2.1 he
          | [x, y], e1 => simp at e1; exact absurd e1.2.2.1 hq
          | x :: y :: z :: w, e1 =>
            simp only [List.cons_append, List.cons.injEq] at e1
            obtain ⟨rfl, rfl, -⟩ := e1
            exact hlong _ (by simp)
      revert hfind
      generalize partitionEq ('-' :: c :: d :: q) = pq
      obtain ⟨p1, p2, p3⟩ := pq
      intro hfind
      simp only at hfind ⊢
      rw [hfind]
      simp only [if_neg hq]
      have ht : optionTuples ('-' :: c :: d :: q) = [⟨some b, ['-', c], some [], some (d :: q)⟩] := by
        unfold optionTuples
        split
        · rename_i h
          simp only [List.cons.injEq, true_and] at h
          exact absurd h.1 hd
        · obtain ⟨b', hb', hfil⟩ := findOpt_short c hc
          rw [hb] at hb'
          cases hb'
          refine filterMap_single _ _ _ _ _ hfil (by simp) ?_
          intro e he' hp
          simp only [decide_eq_false_iff_not] at hp
          rw [if_neg (by simpa using hp)]
          rw [if_neg]
          rcases table_forms e he' with ⟨y, -, hy⟩ | ⟨n, -, hn⟩
          · rw [hy]; simp
          · rw [hn]; unfold dashed; simp [hd]
      rw [ht]

theorem findOpt_dashed {w : Str} {b : Opt} (h : findOpt ('-' :: '-' :: w) = some b) : ∃ n ∈ longNames, w = n.toList := by
  rcases findOpt_key h with ⟨c, hc, e⟩ | ⟨n, hn, e⟩
  · simp only [List.cons.injEq, true_and] at e
    exact absurd e.1.symm (short_plain c hc).1
  · unfold dashed at e
    simp only [List.cons.injEq, true_and] at e
    exact ⟨n, hn, e⟩

theorem toList_inj {a b : String} (h : a.toList = b.toList) : a = b := String.toList_injective h

/-- The option tuples for a long name. -/
theorem tuples_long {w : Str} (hw : '=' ∉ w) {n : String} (hn : n ∈ longNames) {b : Opt} (hb : findOpt (dashed n) = some b) (hm : Means w n) (rest : Str)
    (hr : rest = [] ∨ ∃ v, rest = '=' :: v) :
    optionTuples ('-' :: '-' :: w ++ rest) = [match rest with
      | [] => ⟨some b, dashed n, none, none⟩
      | _ :: v => ⟨some b, dashed n, some ['='], some v⟩] := by
  have hw' : '=' ∉ '-' :: '-' :: w := by simp [hw]
  have hp : partitionEq ('-' :: '-' :: w ++ rest) = ('-' :: '-' :: w, (match rest with | [] => [] | _ :: _ => ['=']), (match rest with | [] => [] | _ :: v => v)) := by
    rcases hr with rfl | ⟨v, rfl⟩
    · rw [List.append_nil, partitionEq_none hw']
    · rw [partitionEq_some hw']
  obtain ⟨b', hb', hfil⟩ := findOpt_long n hn
  rw [hb] at hb'
  cases hb'
  unfold optionTuples
  rw [List.cons_append, List.cons_append] at hp ⊢
  simp only [hp]
  refine filterMap_single _ _ _ _ _ hfil ?_ ?_
  · have hpre : ('-' :: '-' :: w).isPrefixOf (dashed n) = true := by
      unfold dashed
      rw [prefix_cons_iff, prefix_cons_iff]
      simpa using hm.1
    simp only [hpre, if_true]
    rcases hr with rfl | ⟨v, rfl⟩
    · simp
    · simp
  · intro e he hne
    simp only [decide_eq_false_iff_not] at hne
    rw [if_neg]
    rcases table_forms e he with ⟨y, hy, ey⟩ | ⟨m, hm', em⟩
    · rw [ey]
      have := (short_plain y hy).1
      simp [List.isPrefixOf, Ne.symm this]
    · rw [em]
      unfold dashed
      intro hpre
      rw [prefix_cons_iff, prefix_cons_iff] at hpre
      simp only [beq_self_eq_true, Bool.true_and, List.isPrefixOf_iff_prefix] at hpre
      rw [em, hm.2 m hm' hpre] at hne
      exact hne rfl

/-- A word for a long name, perhaps with `=`. -/
theorem parse_long (digit : Char → Bool) {w : Str} (hne : w ≠ []) {n : String} (hn : n ∈ longNames) {b : Opt} (hb : findOpt (dashed n) = some b) (hm : Means w n)
    (rest : Str) (hr : rest = [] ∨ ∃ v, rest = '=' :: v) :
    parseOptional digit ('-' :: '-' :: w ++ rest) = some (.opt (match rest with
      | [] => ⟨some b, dashed n, none, none⟩
      | _ :: v => ⟨some b, dashed n, some ['='], some v⟩)) := by
  have hw : '=' ∉ w := fun h => (names_plain n hn).1 (hm.1.subset h)
  have hw' : '=' ∉ '-' :: '-' :: w := by simp [hw]
  have key : ∀ {x}, findOpt ('-' :: '-' :: w) = some x → x = b ∧ '-' :: '-' :: w = dashed n := by
    intro x hx
    obtain ⟨m, hm', e⟩ := findOpt_dashed hx
    have := hm.2 m hm' (by rw [e]; exact List.prefix_refl _)
    subst this
    rw [e, show '-' :: '-' :: m.toList = dashed m from rfl, hb] at hx
    cases hx
    exact ⟨rfl, by rw [e]; rfl⟩
  unfold parseOptional
  rw [List.cons_append, List.cons_append, if_neg (by simp), if_neg (by simp)]
  rcases hr with rfl | ⟨v, rfl⟩
  · rw [List.append_nil]
    cases hf : findOpt ('-' :: '-' :: w) with
    | some x =>
      obtain ⟨rfl, e⟩ := key hf
      simp only [e]
    | none =>
      simp only
      rw [if_neg (by simp), partitionEq_none hw']
      simp only
      rw [if_neg (by simp)]
      simp only
      have := tuples_long hw hn hb hm [] (.inl rfl)
      rw [List.append_nil] at this
      rw [this]
  · have h0 : findOpt ('-' :: '-' :: (w ++ '=' :: v)) = none := by
      cases hf : findOpt ('-' :: '-' :: (w ++ '=' :: v)) with
      | none => rfl
      | some x =>
        obtain ⟨m, hm', e⟩ := findOpt_dashed hf
        exact absurd (e ▸ (by simp : '=' ∈ w ++ '=' :: v)) (names_plain m hm').1
    rw [h0]
    simp only
    have hpart := partitionEq_some (v := v) hw'
    rw [List.cons_append, List.cons_append] at hpart
    rw [if_neg (by simp), hpart]
    simp only
    rw [if_pos (by simp)]
    cases hf : findOpt ('-' :: '-' :: w) with
    | some x =>
      obtain ⟨rfl, e⟩ := key hf
      simp only [e]
    | none =>
      simp only
      have := tuples_long hw hn hb hm ('=' :: v) (.inr ⟨v, rfl⟩)
      rw [List.cons_append, List.cons_append] at this
      rw [this]

theorem partitionEq_fst (s : Str) : (partitionEq s).1 = s.takeWhile (· ≠ '=') := by
  rcases partitionEq_cases s with ⟨e1, e2⟩ | ⟨a, v, ha, rfl, e2⟩
  · rw [e2]
    have := takeWhile_noEq e1 [] (.inl rfl)
    rw [List.append_nil] at this
    exact this.symm
  · rw [e2, takeWhile_noEq ha _ (.inr ⟨v, rfl⟩)]

theorem unknown_cases {w : Str} (h : Unknown w) :
    (∃ r, w = '-' :: '-' :: r ∧ r ≠ [] ∧ ∀ name ∈ longNames, ¬ (r.takeWhile (· ≠ '=')) <+: name.toList) ∨
    (∃ c r, w = '-' :: c :: r ∧ c ≠ '-' ∧ c ∉ shortNames) := by
  unfold Unknown at h
  split at h
  · exact .inl ⟨_, rfl, h⟩
  · rename_i c r hc
    exact .inr ⟨_, _, rfl, hc, h⟩
  · exact h.elim

theorem findOpt_other {c : Char} (hc : c ≠ '-') (hs : c ∉ shortNames) (r : Str) : findOpt ('-' :: c :: r) = none := by
  cases hf : findOpt ('-' :: c :: r) with
  | none => rfl
  | some x =>
    rcases findOpt_key hf with ⟨y, hy, e⟩ | ⟨n, -, e⟩
    · simp only [List.cons.injEq, true_and] at e
      rw [e.1] at hs
      exact absurd hy hs
    · unfold dashed at e
      simp only [List.cons.injEq, true_and] at e
      exact absurd e.1 hc

/-- A word that is no option. -/
theorem parse_unknown (digit : Char → Bool) {w : Str} (h : Unknown w) :
    parseOptional digit w = some (if negativeNumber digit w then .arg else if ' ' ∈ w then .arg else .opt ⟨none, w, none, none⟩) := by
  have hstep : ∀ (s : Str), s.head? = some '-' → 1 < s.length → findOpt s = none → findOpt (partitionEq s).1 = none → optionTuples s = [] →
      parseOptional digit s = some (if negativeNumber digit s then .arg else if ' ' ∈ s then .arg else .opt ⟨none, s, none, none⟩) := by
    intro s h1 h2 h3 h4 h5
    unfold parseOptional
    rw [if_neg (by rintro rfl; cases h1), if_neg (by simp [h1]), h3]
    simp only
    rw [if_neg (by omega)]
    rw [h4, h5]
    have : (if (partitionEq s).2.1 ≠ [] then (none : Option Opt) else none) = none := by split <;> rfl
    simp only [this]
    split
    · rfl
    · split <;> rfl
  rcases unknown_cases h with ⟨r, rfl, hr, hn⟩ | ⟨c, r, rfl, hc, hs⟩
  · have hno : ∀ u : Str, (∀ m ∈ longNames, u ≠ m.toList) → findOpt ('-' :: '-' :: u) = none := by
      intro u hu
      cases hf : findOpt ('-' :: '-' :: u) with
      | none => rfl
      | some x =>
        obtain ⟨m, hm, e⟩ := findOpt_dashed hf
        exact absurd e (hu m hm)
    have hp1 : (partitionEq ('-' :: '-' :: r)).1 = '-' :: '-' :: r.takeWhile (· ≠ '=') := by
      rw [partitionEq_fst]; rfl
    refine hstep _ rfl (by simp) (hno r ?_) ?_ ?_
    · intro m hm e
      refine hn m hm ?_
      rw [e]
      exact List.takeWhile_prefix _
    · rw [hp1]
      refine hno _ ?_
      intro m hm e
      exact hn m hm (by rw [e]; exact List.prefix_refl _)
    · unfold optionTuples
      simp only
      refine filterMap_none _ _ ?_
      intro e he
      rw [hp1]
      rw [if_neg]
      rcases table_forms e he with ⟨y, hy, ey⟩ | ⟨m, hm', em⟩
      · rw [ey]
        have := (short_plain y hy).1
        simp [List.isPrefixOf, Ne.symm this]
      · rw [em]
        unfold dashed
        intro hpre
        rw [prefix_cons_iff, prefix_cons_iff] at hpre
        simp only [beq_self_eq_true, Bool.true_and, List.isPrefixOf_iff_prefix] at hpre
        exact hn m hm' hpre
  · refine hstep _ rfl (by simp) (findOpt_other hc hs r) ?_ ?_
    · rw [partitionEq_fst]
      by_cases he : c = '='
      · subst he
        exact (by decide +kernel : findOpt ['-'] = none)
      · rw [List.takeWhile_cons_of_pos (by decide), List.takeWhile_cons_of_pos (by simp [he])]
        exact findOpt_other hc hs _
    · unfold optionTuples
      split
      · rename_i h
        simp only [List.cons.injEq, true_and] at h
        exact absurd h.1 hc
      · refine filterMap_none _ _ ?_
        intro e he
        rcases table_forms e he with ⟨y, hy, ey⟩ | ⟨m, hm', em⟩
        · have hcy : c ≠ y := by rintro rfl; exact hs hy
          rw [ey, if_neg (by simp [Ne.symm hcy]), if_neg (by simp [List.isPrefixOf, hcy])]
        · rw [em]
          unfold dashed
          rw [if_neg (by simp [Ne.symm hc]), if_neg (by simp [List.isPrefixOf, hc])]

/-- No long name begins another one. -/
theorem names_apart : ∀ m ∈ longNames, ∀ n ∈ longNames, m.toList <+: n.toList → m = n := by
  simp only [← List.isPrefixOf_iff_prefix]
  decide +kernel

/-- A word that begins two long names. -/
theorem parse_ambiguous (digit : Char → Bool) {r : Str} {n m : String} (hn : n ∈ longNames) (hm : m ∈ longNames) (hne : n ≠ m)
    (h1 : r.takeWhile (· ≠ '=') <+: n.toList) (h2 : r.takeWhile (· ≠ '=') <+: m.toList) :
    parseOptional digit ('-' :: '-' :: r) = none := by
  have key : ∀ k ∈ longNames, ¬ k.toList <+: r.takeWhile (· ≠ '=') := by
    intro k hk h
    exact hne ((names_apart k hk n hn (h.trans h1)).symm.trans (names_apart k hk m hm (h.trans h2)))
  have hp1 : (partitionEq ('-' :: '-' :: r)).1 = '-' :: '-' :: r.takeWhile (· ≠ '=') := by
    rw [partitionEq_fst]; rfl
  have hf1 : findOpt ('-' :: '-' :: r) = none := by
    cases hf : findOpt ('-' :: '-' :: r) with
    | none => rfl
    | some x =>
      obtain ⟨k, hk, rfl⟩ := findOpt_dashed hf
      refine absurd ?_ (key k hk)
      have := takeWhile_noEq (names_plain k hk).1 [] (.inl rfl)
      rw [List.append_nil] at this
      rw [this]
      exact List.prefix_refl _
  have hf2 : findOpt (partitionEq ('-' :: '-' :: r)).1 = none := by
    rw [hp1]
    cases hf : findOpt ('-' :: '-' :: r.takeWhile (· ≠ '=')) with
    | none => rfl
    | some x =>
      obtain ⟨k, hk, e⟩ := findOpt_dashed hf
      exact absurd (by rw [← e]; exact List.prefix_refl _) (key k hk)
  have htup : ∀ k ∈ longNames, r.takeWhile (· ≠ '=') <+: k.toList → ∃ t ∈ optionTuples ('-' :: '-' :: r), t.name = dashed k := by
    intro k hk hpre
    obtain ⟨b, -, hfil⟩ := findOpt_long k hk
    have hmem : (dashed k, b) ∈ optionStrings := by
      have : (dashed k, b) ∈ optionStrings.filter (fun e => e.1 = dashed k) := by rw [hfil]; exact List.mem_singleton_self _
      exact (List.mem_filter.1 this).1
    have hpass : ('-' :: '-' :: r.takeWhile (· ≠ '=')).isPrefixOf (dashed k) = true := by
      unfold dashed
      rw [prefix_cons_iff, prefix_cons_iff]
      simpa using hpre
    unfold optionTuples
    refine ⟨(if (partitionEq ('-' :: '-' :: r)).2.1 = [] then ⟨some b, dashed k, none, none⟩
      else ⟨some b, dashed k, some (partitionEq ('-' :: '-' :: r)).2.1, some (partitionEq ('-' :: '-' :: r)).2.2⟩), ?_, by split <;> rfl⟩
    simp only [List.mem_filterMap]
    refine ⟨(dashed k, b), hmem, ?_⟩
    rw [hp1]
    simp only [hpass, if_true]
  unfold parseOptional
  rw [if_neg (by simp), if_neg (by simp), hf1]
  simp only
  rw [if_neg (by simp), hf2]
  have : (if (partitionEq ('-' :: '-' :: r)).2.1 ≠ [] then (none : Option Opt) else none) = none := by split <;> rfl
  simp only [this]
  obtain ⟨t, ht, et⟩ := htup n hn h1
  obtain ⟨u, hu, eu⟩ := htup m hm h2
  split
  · rfl
  · rename_i x hx
    rw [hx] at ht hu
    rw [List.mem_singleton.1 ht, ← List.mem_singleton.1 hu, eu] at et
    unfold dashed at et
    simp only [List.cons.injEq, true_and] at et
    exact absurd (toList_inj et).symm hne
  · rename_i hx
    rw [hx] at ht
    simp at ht

/-- Every word that begins with two minus signs means a long name, or is unknown, or is not clear. -/
theorem long_cases (r : Str) :
    (∃ n ∈ longNames, Means (r.takeWhile (· ≠ '=')) n) ∨ (∀ n ∈ longNames, ¬ r.takeWhile (· ≠ '=') <+: n.toList) ∨
    (∃ n ∈ longNames, ∃ m ∈ longNames, n ≠ m ∧ r.takeWhile (· ≠ '=') <+: n.toList ∧ r.takeWhile (· ≠ '=') <+: m.toList) := by
  by_cases h : ∀ n ∈ longNames, ¬ r.takeWhile (· ≠ '=') <+: n.toList
  · exact .inr (.inl h)
  · obtain ⟨n, hn⟩ := Classical.not_forall.1 h
    obtain ⟨hn, hp⟩ := Classical.not_imp.1 hn
    have hp := Classical.not_not.1 hp
    by_cases hu : ∀ m ∈ longNames, r.takeWhile (· ≠ '=') <+: m.toList → m = n
    · exact .inl ⟨n, hn, hp, hu⟩
    · obtain ⟨m, hm⟩ := Classical.not_forall.1 hu
      obtain ⟨hm, hm'⟩ := Classical.not_imp.1 hm
      obtain ⟨hq, hne⟩ := Classical.not_imp.1 hm'
      exact .inr (.inr ⟨n, hn, m, hm, Ne.symm hne, hp, hq⟩)

/-- Every long name is the name of an option. -/
theorem long_name : ∀ n ∈ longNames, (∃ a : Arg, (switchName a).2 = n) ∨ ∃ o, (numberName o).2 = n := by
  intro n hn
  simp only [longNames, List.mem_cons, List.not_mem_nil, or_false] at hn
  rcases hn with rfl | rfl | rfl | rfl | rfl | rfl | rfl | rfl | rfl | rfl | rfl | rfl | rfl | rfl | rfl | rfl | rfl | rfl | rfl | rfl | rfl | rfl | rfl | rfl | rfl | rfl | rfl | rfl | rfl | rfl
  · exact .inl ⟨.flag .demo, rfl⟩
  · exact .inl ⟨.flag .text, rfl⟩
  · exact .inl ⟨.flag .binary, rfl⟩
  · exact .inl ⟨.flag .legend, rfl⟩
  · exact .inl ⟨.flag .version, rfl⟩
  · exact .inl ⟨.help, rfl⟩
  · exact .inl ⟨.flag (.focus .whitespace), rfl⟩
  · exact .inl ⟨.flag (.focus .controlChar), rfl⟩
  · exact .inl ⟨.flag (.focus .printableChar), rfl⟩
  · exact .inl ⟨.flag (.focus .escapeSeq), rfl⟩
  · exact .inl ⟨.flag (.focus .utf8Seq), rfl⟩
  · exact .inl ⟨.flag (.focus .binaryData), rfl⟩
  · exact .inl ⟨.flag (.ignore .whitespace), rfl⟩
  · exact .inl ⟨.flag (.ignore .controlChar), rfl⟩
  · exact .inl ⟨.flag (.ignore .printableChar), rfl⟩
  · exact .inl ⟨.flag (.ignore .escapeSeq), rfl⟩
  · exact .inl ⟨.flag (.ignore .utf8Seq), rfl⟩
  · exact .inl ⟨.flag (.ignore .binaryData), rfl⟩
  · exact .inr ⟨.buffer, rfl⟩
  · exact .inr ⟨.maxLines, rfl⟩
  · exact .inr ⟨.maxBytes, rfl⟩
  · exact .inl ⟨.debug, rfl⟩
  · exact .inl ⟨.flag .colorMarkers, rfl⟩
  · exact .inr ⟨.marker, rfl⟩
  · exact .inl ⟨.flag .noSeparators, rfl⟩
  · exact .inl ⟨.flag .noLineNumbers, rfl⟩
  · exact .inr ⟨.columns, rfl⟩
  · exact .inl ⟨.flag .decode, rfl⟩
  · exact .inl ⟨.flag .decimalOffsets, rfl⟩
  · exact .inl ⟨.flag .noOffsets, rfl⟩

/-- Every short name is the name of an option. -/
theorem short_name : ∀ c ∈ shortNames, (∃ a : Arg, (switchName a).1 = some c) ∨ ∃ o, (numberName o).1 = c := by
  intro c hc
  have e : shortNames = ['M', 't', 'b', 'l', 'v', 'h', 's', 'c', 'p', 'e', 'u', 'i', 'S', 'C', 'P', 'E', 'U', 'I', 'f', 'L', 'B', 'D', 'm', 'w', 'd'] := by decide
  rw [e] at hc
  simp only [List.mem_cons, List.not_mem_nil, or_false] at hc
  rcases hc with rfl | rfl | rfl | rfl | rfl | rfl | rfl | rfl | rfl | rfl | rfl | rfl | rfl | rfl | rfl | rfl | rfl | rfl | rfl | rfl | rfl | rfl | rfl | rfl | rfl
  · exact .inl ⟨.flag .demo, rfl⟩
  · exact .inl ⟨.flag .text, rfl⟩
  · exact .inl ⟨.flag .binary, rfl⟩
  · exact .inl ⟨.flag .legend, rfl⟩
  · exact .inl ⟨.flag .version, rfl⟩
  · exact .inl ⟨.help, rfl⟩
  · exact .inl ⟨.flag (.focus .whitespace), rfl⟩
  · exact .inl ⟨.flag (.focus .controlChar), rfl⟩
  · exact .inl ⟨.flag (.focus .printableChar), rfl⟩
  · exact .inl ⟨.flag (.focus .escapeSeq), rfl⟩
  · exact .inl ⟨.flag (.focus .utf8Seq), rfl⟩
  · exact .inl ⟨.flag (.focus .binaryData), rfl⟩
  · exact .inl ⟨.flag (.ignore .whitespace), rfl⟩
  · exact .inl ⟨.flag (.ignore .controlChar), rfl⟩
  · exact .inl ⟨.flag (.ignore .printableChar), rfl⟩
  · exact .inl ⟨.flag (.ignore .escapeSeq), rfl⟩
  · exact .inl ⟨.flag (.ignore .utf8Seq), rfl⟩
  · exact .inl ⟨.flag (.ignore .binaryData), rfl⟩
  · exact .inr ⟨.buffer, rfl⟩
  · exact .inr ⟨.maxLines, rfl⟩
  · exact .inr ⟨.maxBytes, rfl⟩
  · exact .inl ⟨.debug, rfl⟩
  · exact .inr ⟨.marker, rfl⟩
  · exact .inr ⟨.columns, rfl⟩
  · exact .inl ⟨.flag .decode, rfl⟩

/-! ### Negative numbers -/

theorem figures_lf {digit : Char → Bool} (h : Figures digit) : digit '\n' = false := by
  cases e : digit '\n' with
  | false => rfl
  | true => exact absurd ((h '\n' (by decide)).1 e) (by decide)

theorem figures_point {digit : Char → Bool} (h : Figures digit) : digit '.' = false := by
  cases e : digit '.' with
  | false => rfl
  | true => exact absurd ((h '.' (by decide)).1 e) (by decide)

/-- The regular expression on a word without the line feed at the end. -/
def bareNegative (digit : Char → Bool) : Str → Bool
  | '-' :: r =>
    (!r.isEmpty && r.all digit) ||
      (match r.dropWhile digit with
        | '.' :: q => !q.isEmpty && q.all digit
        | _ => false)
  | _ => false

theorem negativeNumber_eq (digit : Char → Bool) (s : Str) :
    negativeNumber digit s = bareNegative digit (if s.getLast? = some '\n' then s.dropLast else s) := rfl

theorem takeWhile_digits (p : Char → Bool) : ∀ (l : Str), ∀ c ∈ l.takeWhile p, p c = true
  | [], _, h => by simp at h
  | x :: l, c, h => by
    rw [List.takeWhile_cons] at h
    split at h
    · rename_i hx
      rcases List.mem_cons.1 h with rfl | h
      · exact hx
      · exact takeWhile_digits p l c h
    · simp at h

theorem dropWhile_figures {digit : Char → Bool} (hd : Figures digit) {a b : Str} (ha : ∀ c ∈ a, digit c = true) :
    (a ++ '.' :: b).dropWhile digit = '.' :: b := by
  rw [List.dropWhile_append_of_pos ha, List.dropWhile_cons_of_neg (by simp [figures_point hd])]

theorem bareNegative_iff {digit : Char → Bool} (hd : Figures digit) (s : Str) : bareNegative digit s = true ↔
    ∃ a b, (∀ c ∈ a ++ b, digit c = true) ∧ ((s = '-' :: a ∧ b = [] ∧ a ≠ []) ∨ (s = '-' :: (a ++ '.' :: b) ∧ b ≠ [])) := by
  constructor
  · intro h
    unfold bareNegative at h
    split at h
    · rename_i r
      simp only [Bool.or_eq_true, Bool.and_eq_true, Bool.not_eq_eq_eq_not, Bool.not_true, List.isEmpty_eq_false_iff, List.all_eq_true] at h
      rcases h with ⟨h1, h2⟩ | h
      · exact ⟨r, [], by simpa using h2, .inl ⟨rfl, rfl, h1⟩⟩
      · split at h
        · rename_i q hq
          simp only [Bool.and_eq_true, Bool.not_eq_eq_eq_not, Bool.not_true, List.isEmpty_eq_false_iff, List.all_eq_true] at h
          refine ⟨r.takeWhile digit, q, ?_, .inr ⟨?_, h.1⟩⟩
          · intro c hc
            rcases List.mem_append.1 hc with hc | hc
            · exact takeWhile_digits digit r c hc
            · exact h.2 c hc
          · rw [← hq, List.takeWhile_append_dropWhile]
        · cases h
    · cases h
  · rintro ⟨a, b, h1, ⟨rfl, rfl, h2⟩ | ⟨rfl, h2⟩⟩
    · simp only [List.append_nil] at h1
      unfold bareNegative
      simp only [Bool.or_eq_true, Bool.and_eq_true, Bool.not_eq_eq_eq_not, Bool.not_true, List.isEmpty_eq_false_iff, List.all_eq_true]
      exact .inl ⟨h2, h1⟩
    · unfold bareNegative
      simp only
      rw [dropWhile_figures hd fun c hc => h1 c (by simp [hc])]
      simp only [Bool.or_eq_true, Bool.and_eq_true, Bool.not_eq_eq_eq_not, Bool.not_true, List.isEmpty_eq_false_iff, List.all_eq_true]
      exact .inr ⟨h2, fun c hc => h1 c (by simp [hc])⟩

theorem negativeNumber_iff {digit : Char → Bool} (hd : Figures digit) (w : Str) : negativeNumber digit w = true ↔ Negative digit w := by
  rw [negativeNumber_eq, bareNegative_iff hd]
  constructor
  · rintro ⟨a, b, h1, h2⟩
    by_cases hl : w.getLast? = some '\n'
    · rw [if_pos hl] at h2
      have e : w = w.dropLast ++ ['\n'] := by
        obtain ⟨u, rfl⟩ := List.getLast?_eq_some_iff.1 hl
        simp
      refine ⟨a, b, ['\n'], h1, .inr rfl, ?_⟩
      rcases h2 with ⟨h2, h3⟩ | ⟨h2, h3⟩
      · exact .inl ⟨by rw [e, h2]; rfl, h3⟩
      · exact .inr ⟨by rw [e, h2]; rfl, h3⟩
    · rw [if_neg hl] at h2
      refine ⟨a, b, [], h1, .inl rfl, ?_⟩
      simpa using h2
  · rintro ⟨a, b, z, h1, h2, h3⟩
    refine ⟨a, b, h1, ?_⟩
    have lastDigit : ∀ (u v : Str), (∀ c ∈ v, digit c = true) → v ≠ [] → (u ++ v).getLast? ≠ some '\n' := by
      intro u v hv hn hl
      rw [List.getLast?_append, List.getLast?_eq_some_getLast hn, Option.some_or] at hl
      have := hv _ (List.getLast_mem hn)
      rw [Option.some.inj hl] at this
      rw [figures_lf hd] at this
      cases this
    rcases h2 with rfl | rfl
    · rw [if_neg]
      · simpa using h3
      · rcases h3 with ⟨h3, rfl, h4⟩ | ⟨h3, h4⟩
        · rw [h3, List.append_nil]
          exact lastDigit ['-'] a (fun c hc => h1 c (by simp [hc])) h4
        · rw [h3, List.append_nil]
          have := lastDigit ('-' :: (a ++ ['.'])) b (fun c hc => h1 c (by simp [hc])) h4
          simpa using this
    · have e : ∀ u : Str, ('-' :: (u ++ ['\n'])).getLast? = some '\n' ∧ ('-' :: (u ++ ['\n'])).dropLast = '-' :: u := by
        intro u
        rw [← List.cons_append]
        exact ⟨List.getLast?_concat, List.dropLast_concat⟩
      rcases h3 with ⟨h3, h4⟩ | ⟨h3, h4⟩
      · rw [h3, if_pos (e a).1, (e a).2]
        exact .inl ⟨rfl, h4⟩
      · rw [h3, if_pos (e _).1, (e _).2]
        exact .inr ⟨rfl, h4⟩

/-- An argument is classified as one. -/
theorem parse_argument {digit : Char → Bool} (hd : Figures digit) {w : Str} (h : IsArgument digit w) :
    parseOptional digit w = some .arg ∧ w ≠ ['-', '-'] := by
  rcases h with h | rfl | ⟨h, h'⟩
  · refine ⟨?_, by rintro rfl; exact h rfl⟩
    unfold parseOptional
    rw [if_pos h]
    split <;> rfl
  · refine ⟨?_, by decide⟩
    unfold parseOptional
    rw [if_neg (by decide), if_neg (by decide), (by decide +kernel : findOpt ['-'] = none)]
    simp
  · constructor
    · rw [parse_unknown digit h]
      rcases h' with h' | h'
      · rw [if_pos ((negativeNumber_iff hd w).2 h')]
      · rw [if_pos h']
        split <;> rfl
    · rintro rfl
      exact h.1 rfl

/-! ### Clusters -/

/-- What follows the first letter. -/
def takeWord (toInt : Str → Option Int) (next : Option Str) (b : Opt) (r : Str) (acc : List Tok) : List Tok × Bool :=
  match r with
  | [] => takeNext toInt next b acc
  | d :: q => if d = '=' then takeExplicit toInt next b false true q acc else takeExplicit toInt next b false false (d :: q) acc

theorem takeWord_step (toInt : Str → Option Int) (next : Option Str) {a : Arg} (ha : a.opt.switch = some a) {c : Char} (hc : c ∈ shortNames)
    {b : Opt} (hb : findOpt ['-', c] = some b) (r : Str) (acc : List Tok) :
    takeWord toInt next a.opt (c :: r) acc = takeWord toInt next b r (acc ++ [.arg a]) := by
  obtain ⟨h1, h2, -, -⟩ := short_plain c hc
  have e : takeWord toInt next a.opt (c :: r) acc = takeExplicit toInt next a.opt false false (c :: r) acc := by
    show (if c = '=' then _ else _) = _
    rw [if_neg h2]
  rw [e, takeExplicit.eq_def]
  simp only [ha, hb, h1, Bool.false_eq_true, if_false, or_self]
  cases r <;> rfl

theorem takeWord_last (toInt : Str → Option Int) (next : Option Str) {a : Arg} (ha : a.opt.switch = some a) (acc : List Tok) :
    takeWord toInt next a.opt [] acc = (acc ++ [.arg a], false) := by
  unfold takeWord takeNext
  cases hb : a.opt with
  | flag f => rw [hb] at ha; cases ha; rfl
  | debug => rw [hb] at ha; cases ha; rfl
  | help => rw [hb] at ha; cases ha; rfl
  | int o => rw [hb] at ha; cases ha

theorem takeWord_number (toInt : Str → Option Int) (next : Option Str) (o : IntOpt) (c : Char) (v : Str) (acc : List Tok) :
    takeWord toInt next (.int o) (c :: v) acc = (acc ++ [.arg (.int o (toInt (if c = '=' then v else c :: v)))], false) := by
  unfold takeWord
  simp only
  by_cases hc : c = '='
  · rw [if_pos hc, if_pos hc]
    cases v <;> rfl
  · rw [if_neg hc, if_neg hc]
    rfl

/-- Letters, then another one. -/
theorem takeWord_letters (toInt : Str → Option Int) (next : Option Str) : ∀ {cs : Str} {l : List Arg}, Letters cs l → ∀ {a : Arg}, a.opt.switch = some a →
    ∀ {c : Char}, c ∈ shortNames → ∀ {b : Opt}, findOpt ['-', c] = some b → ∀ (r : Str) (acc : List Tok),
    takeWord toInt next a.opt (cs ++ c :: r) acc = takeWord toInt next b r (acc ++ .arg a :: l.map .arg) := by
  intro cs
  induction cs with
  | nil =>
    intro l hl a ha c hc b hb r acc
    cases l with
    | nil => exact takeWord_step toInt next ha hc hb r acc
    | cons x l => exact hl.elim
  | cons d cs ih =>
    intro l hl a ha c hc b hb r acc
    cases l with
    | nil => exact hl.elim
    | cons x l =>
      obtain ⟨h1, h2, h3⟩ := switch_letter hl.1
      rw [List.cons_append, takeWord_step toInt next ha h1 h2, ih hl.2 h3 hc hb]
      simp

/-- Letters to the end. -/
theorem takeWord_all (toInt : Str → Option Int) (next : Option Str) : ∀ {cs : Str} {l : List Arg}, Letters cs l → ∀ {a : Arg}, a.opt.switch = some a →
    ∀ (acc : List Tok), takeWord toInt next a.opt cs acc = (acc ++ .arg a :: l.map .arg, false) := by
  intro cs
  induction cs with
  | nil =>
    intro l hl a ha acc
    cases l with
    | nil => exact takeWord_last toInt next ha acc
    | cons x l => exact hl.elim
  | cons d cs ih =>
    intro l hl a ha acc
    cases l with
    | nil => exact hl.elim
    | cons x l =>
      obtain ⟨h1, h2, h3⟩ := switch_letter hl.1
      rw [takeWord_step toInt next ha h1 h2, ih hl.2 h3]
      simp

/-- A word of letters is consumed letter by letter. -/
theorem short_word (digit : Char → Bool) (toInt : Str → Option Int) {c : Char} (hc : c ∈ shortNames) {b : Opt} (hb : findOpt ['-', c] = some b) (r : Str) :
    ∃ t : OptTuple, parseOptional digit ('-' :: c :: r) = some (.opt t) ∧ t.action = some b ∧ ∀ next, consumeOptional toInt next b t = takeWord toInt next b r [] := by
  have hd := (short_plain c hc).1
  refine ⟨_, parse_short digit hc hb r, ?_, ?_⟩
  · cases r with
    | nil => rfl
    | cons d q => simp only; split <;> rfl
  · intro next
    cases r with
    | nil => rfl
    | cons d q =>
      unfold takeWord consumeOptional
      simp only
      by_cases h : d = '='
      · simp [h, hd]
      · simp [h, hd]

end Kolombos
