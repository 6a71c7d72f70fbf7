import Verif.Spec.Args
import Verif.Model.Demo
import Verif.Props.Display
import Verif.Props.Chunks
/-
C55, C56: the command line, and the program from the command line to the display.
-/
set_option linter.unusedSimpArgs false

namespace Kolombos
open Spec

/-! ### C55 -/

/-- The condition under which `argparse` refuses two elements. -/
def clash (a b : Arg) : Bool := !a.sameAction b && a.group.isSome && decide (a.group = b.group)

theorem Spec.Excludes.clash {a b : Arg} (h : Excludes a b) : clash a b = true ∧ Kolombos.clash b a = true := by
  induction h with
  | symm _ ih => exact ⟨ih.2, ih.1⟩
  | output c => cases c <;> decide
  | _ => exact ⟨rfl, rfl⟩

theorem clash_excludes {a b : Arg} (h : clash a b = true) : Excludes a b := by
  unfold clash at h
  simp only [Bool.and_eq_true, Bool.not_eq_true', decide_eq_true_eq] at h
  obtain ⟨⟨h1, h2⟩, h3⟩ := h
  cases a with
  | int | debug | help => simp [Arg.group] at h2
  | file n =>
    cases b with
    | flag g => cases g <;> simp [Arg.group, Flag.group] at h3; exact .symm (.demoFile n)
    | file m => simp [Arg.sameAction] at h1
    | int | debug | help => simp [Arg.group] at h3
  | flag f =>
    cases b with
    | int | debug | help => simp [Arg.group] at h3 h2; rw [h3] at h2; simp at h2
    | file m => cases f <;> simp [Arg.group, Flag.group] at h3; exact .demoFile m
    | flag g =>
      cases f <;> cases g <;> simp [Arg.group, Flag.group, Arg.sameAction] at h1 h2 h3
      all_goals first
        | exact .textBinary | exact .symm .textBinary | exact .textLegend | exact .symm .textLegend
        | exact .binaryLegend | exact .symm .binaryLegend | exact .offsets | exact .symm .offsets
        | (subst h3; first | exact .output _ | exact .symm (.output _))
        | exact absurd h3 h1

theorem clash_same {a b c : Arg} (h : b.sameAction c = true) : clash a b = clash a c := by
  cases b <;> cases c <;> simp [Arg.sameAction] at h
  all_goals try subst h
  all_goals
    cases a <;> (first | rfl | simp [clash, Arg.sameAction, Arg.group])

theorem sameAction_refl (a : Arg) : a.sameAction a = true := by cases a <;> simp [Arg.sameAction]

theorem clash_self (a : Arg) : clash a a = false := by simp [clash, sameAction_refl]

/-- No mistakes apart from the number of files. -/
structure Fine (args : List Arg) : Prop where
  numbers : ∀ o, Arg.int o none ∉ args
  compatible : ∀ a ∈ args, ∀ b ∈ args, ¬ Excludes a b

theorem fine_snoc {pre : List Arg} {a : Arg} (h : Fine pre) :
    Fine (pre ++ [a]) ↔ (∀ o, a ≠ .int o none) ∧ ∀ b ∈ pre, clash a b = false := by
  constructor
  · intro hf
    refine ⟨fun o e => hf.numbers o (by simp [e]), fun b hb => ?_⟩
    cases hc : clash a b with
    | false => rfl
    | true => exact absurd (clash_excludes hc) (hf.compatible a (by simp) b (by simp [hb]))
  · rintro ⟨h1, h2⟩
    refine ⟨fun o => ?_, ?_⟩
    · simp only [List.mem_append, List.mem_singleton, not_or]
      exact ⟨h.numbers o, fun e => h1 o e.symm⟩
    · intro x hx y hy he
      simp only [List.mem_append, List.mem_singleton] at hx hy
      obtain ⟨c1, c2⟩ := he.clash
      rcases hx with hx | rfl
      · rcases hy with hy | rfl
        · exact h.compatible x hx y hy he
        · rw [h2 x hx] at c2; simp at c2
      · rcases hy with hy | rfl
        · rw [h2 y hy] at c1; simp at c1
        · rw [clash_self] at c1; simp at c1

theorem Fine.mono {pre post : List Arg} (h : Fine (pre ++ post)) : Fine pre :=
  ⟨fun o hm => h.numbers o (by simp [hm]), fun a ha b hb => h.compatible a (by simp [ha]) b (by simp [hb])⟩

theorem lastInt_snoc (o : IntOpt) (args : List Arg) (a : Arg) :
    lastInt o (args ++ [a]) = match a with
      | .int p (some v) => if p = o then some v else lastInt o args
      | _ => lastInt o args := by
  induction args with
  | nil =>
    cases a with
    | int p v => cases v <;> simp [lastInt]
    | _ => rfl
  | cons b args ih =>
    simp only [List.cons_append, lastInt]
    rw [ih]
    cases a with
    | int p v =>
      cases v with
      | none => rfl
      | some v =>
        by_cases hp : p = o <;> simp [hp]
    | _ => rfl

theorem fileNames_snoc (args : List Arg) (a : Arg) :
    fileNames (args ++ [a]) = fileNames args ++ (match a with | .file n => [n] | _ => []) := by
  unfold fileNames
  rw [List.filterMap_append]
  cases a <;> rfl

theorem asked_nil : Asked [] {} := by
  constructor <;> simp [lastInt]

theorem asked_flag {pre : List Arg} {s : Settings} (h : Asked pre s) (f : Flag) : Asked (pre ++ [.flag f]) (s.setFlag f) := by
  obtain ⟨h1, h2, h3, h4, h5, h6, h7, h8, h9, h10, h11, h12, h13, h14, h15, h16, h17, h18, h19, h20⟩ := h
  cases f <;> constructor <;>
    simp only [Settings.setFlag, List.mem_append, List.mem_singleton, lastInt_snoc, List.count_append] <;>
    simp_all [List.count_cons]
  all_goals
    intro c'
    exact Or.comm

theorem asked_int {pre : List Arg} {s : Settings} (h : Asked pre s) (o : IntOpt) (v : Int) :
    Asked (pre ++ [.int o (some v)]) (s.setInt v o) := by
  obtain ⟨h1, h2, h3, h4, h5, h6, h7, h8, h9, h10, h11, h12, h13, h14, h15, h16, h17, h18, h19, h20⟩ := h
  cases o <;> constructor <;>
    simp only [Settings.setInt, List.mem_append, List.mem_singleton, lastInt_snoc, List.count_append] <;>
    simp_all [List.count_cons]

theorem asked_debug {pre : List Arg} {s : Settings} (h : Asked pre s) :
    Asked (pre ++ [.debug]) { s with debug := s.debug + 1 } := by
  obtain ⟨h1, h2, h3, h4, h5, h6, h7, h8, h9, h10, h11, h12, h13, h14, h15, h16, h17, h18, h19, h20⟩ := h
  constructor <;> simp only [List.mem_append, List.mem_singleton, lastInt_snoc, List.count_append] <;>
    simp_all [List.count_cons]

theorem asked_file {pre : List Arg} {s : Settings} (h : Asked pre s) (n : Str) : Asked (pre ++ [.file n]) s := by
  obtain ⟨h1, h2, h3, h4, h5, h6, h7, h8, h9, h10, h11, h12, h13, h14, h15, h16, h17, h18, h19, h20⟩ := h
  constructor <;> (try simp only [List.mem_append, List.mem_singleton, lastInt_snoc, List.count_append]) <;>
    first | assumption | simp_all [List.count_cons]

theorem parseLoop_file (n : Str) (as seen : List Arg) (s : Settings) (file : Option Str) (extra : Bool) :
    parseLoop (.file n :: as) seen s file extra = match file with
      | some _ => parseLoop as seen s file true
      | none => if (seen.any fun b => !(Arg.file n).sameAction b && (Arg.file n).group.isSome && decide ((Arg.file n).group = b.group)) then .usage
        else parseLoop as (.file n :: seen) s (some n) extra := by cases file <;> rfl

theorem parseLoop_flag (f : Flag) (as seen : List Arg) (s : Settings) (file : Option Str) (extra : Bool) :
    parseLoop (.flag f :: as) seen s file extra =
      if (seen.any fun b => !(Arg.flag f).sameAction b && (Arg.flag f).group.isSome && decide ((Arg.flag f).group = b.group)) then .usage
        else parseLoop as (.flag f :: seen) (s.setFlag f) file extra := rfl

/-- The state of the parser after `pre`. -/
structure Seen (pre seen : List Arg) (s : Settings) (file : Option Str) (extra : Bool) : Prop where
  fine : Fine pre
  sub : ∀ a ∈ seen, a ∈ pre
  cover : ∀ a ∈ pre, ∃ b ∈ seen, a.sameAction b = true
  asked : Asked pre s
  file : file = (fileNames pre).head?
  extra : extra = decide (1 < (fileNames pre).length)

theorem Seen.conflict {pre seen : List Arg} {s : Settings} {file : Option Str} {extra : Bool} (h : Seen pre seen s file extra) (a : Arg) :
    (seen.any fun b => !a.sameAction b && a.group.isSome && decide (a.group = b.group)) = true ↔ ∃ b ∈ pre, clash a b = true := by
  rw [List.any_eq_true]
  constructor
  · rintro ⟨b, hb, hc⟩; exact ⟨b, h.sub b hb, hc⟩
  · rintro ⟨b, hb, hc⟩
    obtain ⟨c, hc1, hc2⟩ := h.cover b hb
    exact ⟨c, hc1, by rw [clash_same hc2] at hc; exact hc⟩

/-- What the rest of a command line leads to. -/
def Expect (args : List Arg) (r : Parsed) : Prop :=
  (.help ∉ args → WellFormed args → ∃ s, r = .run s (fileNames args).head? ∧ Asked args s) ∧
  (.help ∉ args → ¬ WellFormed args → r = .usage) ∧
  (∀ pre post, args = pre ++ .help :: post → .help ∉ pre → (Fine pre → r = .help) ∧ (¬ Fine pre → r = .usage))

theorem expect_bad {pre : List Arg} {a : Arg} (as : List Arg) (hh : .help ∉ pre) (ha : a ≠ .help) (hb : ¬ Fine (pre ++ [a])) :
    Expect (pre ++ a :: as) .usage := by
  have hfine : ∀ q : List Arg, pre ++ [a] <+: q → ¬ Fine q := by
    rintro q ⟨t, rfl⟩ hf; exact hb hf.mono
  refine ⟨fun _ hw => ?_, fun _ _ => rfl, ?_⟩
  · exact absurd ⟨hw.numbers, hw.compatible⟩ (hfine _ ⟨as, by simp⟩)
  · intro p post e hp
    refine ⟨fun hf => ?_, fun _ => rfl⟩
    refine absurd hf (hfine p ?_)
    rcases List.append_eq_append_iff.1 e with ⟨x, hx1, hx2⟩ | ⟨x, hx1, hx2⟩
    · cases x with
      | nil =>
        simp only [List.nil_append, List.cons.injEq] at hx2
        exact absurd hx2.1 ha
      | cons y x =>
        simp only [List.cons_append, List.cons.injEq] at hx2
        obtain ⟨rfl, rfl⟩ := hx2
        exact ⟨x, by rw [hx1]; simp⟩
    · cases x with
      | nil =>
        simp only [List.nil_append, List.cons.injEq] at hx2
        exact absurd hx2.1.symm ha
      | cons y x =>
        simp only [List.cons_append, List.cons.injEq] at hx2
        exact absurd (by rw [hx1]; simp [hx2.1]) hh

theorem parseLoop_expect (as : List Arg) : ∀ (pre seen : List Arg) (s : Settings) (file : Option Str) (extra : Bool),
    .help ∉ pre → Seen pre seen s file extra → Expect (pre ++ as) (parseLoop as seen s file extra) := by
  induction as with
  | nil =>
    intro pre seen s file extra hh h
    rw [List.append_nil, parseLoop, h.extra]
    by_cases hf : 1 < (fileNames pre).length
    · rw [decide_eq_true hf, if_pos rfl]
      refine ⟨fun _ hw => absurd hw.oneFile (by omega), fun _ _ => rfl, ?_⟩
      intro p post e
      exact absurd (by rw [e]; simp) hh
    · rw [decide_eq_false hf, if_neg (by simp)]
      refine ⟨fun _ _ => ⟨s, by rw [h.file], h.asked⟩, fun _ hw => ?_, ?_⟩
      · exact absurd ⟨h.fine.numbers, h.fine.compatible, by omega⟩ hw
      · intro p post e
        exact absurd (by rw [e]; simp) hh
  | cons a as ih =>
    intro pre seen s file extra hh h
    have hfs := fine_snoc (a := a) h.fine
    have hconf := h.conflict a
    have next : ∀ seen' s' file' extra', a ≠ .help → Seen (pre ++ [a]) seen' s' file' extra' →
        Expect (pre ++ a :: as) (parseLoop as seen' s' file' extra') := by
      intro seen' s' file' extra' ha h'
      have := ih (pre ++ [a]) seen' s' file' extra' (by simp [hh, Ne.symm ha]) h'
      rwa [List.append_assoc] at this
    have good : (seen.any fun b => !a.sameAction b && a.group.isSome && decide (a.group = b.group)) = false → (∀ o, a ≠ .int o none) →
        Fine (pre ++ [a]) := by
      intro hc hn
      refine hfs.2 ⟨hn, fun b hb => ?_⟩
      cases hx : clash a b with
      | false => rfl
      | true => rw [hconf.2 ⟨b, hb, hx⟩] at hc; simp at hc
    have bad : (seen.any fun b => !a.sameAction b && a.group.isSome && decide (a.group = b.group)) = true → ¬ Fine (pre ++ [a]) := by
      intro hc hf
      obtain ⟨b, hb, hx⟩ := hconf.1 hc
      rw [(hfs.1 hf).2 b hb] at hx; simp at hx
    have hcover : ∀ x ∈ pre ++ [a], ∃ b ∈ a :: seen, x.sameAction b = true := by
      intro x hx
      rcases List.mem_append.1 hx with hx | hx
      · obtain ⟨b, hb, e⟩ := h.cover x hx
        exact ⟨b, by simp [hb], e⟩
      · rw [List.mem_singleton.1 hx]; exact ⟨a, by simp, sameAction_refl a⟩
    have hsub : ∀ x ∈ a :: seen, x ∈ pre ++ [a] := by
      intro x hx
      rcases List.mem_cons.1 hx with rfl | hx
      · simp
      · simp [h.sub x hx]
    have nogroup : a.group = none → (seen.any fun b => !a.sameAction b && a.group.isSome && decide (a.group = b.group)) = false := by
      intro hg
      rw [hg]; simp
    cases a with
    | help =>
      rw [parseLoop]
      refine ⟨fun hx => absurd (by simp) hx, fun hx => absurd (by simp) hx, ?_⟩
      intro p post e hp
      have : p = pre := by
        rcases List.append_eq_append_iff.1 e with ⟨x, hx1, hx2⟩ | ⟨x, hx1, hx2⟩
        · cases x with
          | nil => rw [hx1, List.append_nil]
          | cons y x =>
            simp only [List.cons_append, List.cons.injEq] at hx2
            exact absurd (by rw [hx1]; simp [hx2.1]) hp
        · cases x with
          | nil => rw [hx1, List.append_nil]
          | cons y x =>
            simp only [List.cons_append, List.cons.injEq] at hx2
            exact absurd (by rw [hx1]; simp [hx2.1]) hh
      rw [this]
      exact ⟨fun _ => rfl, fun hx => absurd h.fine hx⟩
    | debug =>
      rw [parseLoop]
      refine next _ _ _ _ (by simp) ⟨good (nogroup rfl) (by simp), hsub, hcover, asked_debug h.asked, ?_, ?_⟩
      · rw [fileNames_snoc]; simpa using h.file
      · rw [fileNames_snoc]; simpa using h.extra
    | int o v =>
      cases v with
      | none => exact expect_bad as hh (by simp) fun hf => (hfs.1 hf).1 o rfl
      | some v =>
        rw [show parseLoop (.int o (some v) :: as) seen s file extra = parseLoop as (.int o (some v) :: seen) (s.setInt v o) file extra from rfl]
        refine next _ _ _ _ (by simp) ⟨good (nogroup rfl) (by simp), hsub, hcover, asked_int h.asked o v, ?_, ?_⟩
        · rw [fileNames_snoc]; simpa using h.file
        · rw [fileNames_snoc]; simpa using h.extra
    | flag f =>
      rw [parseLoop_flag]
      split
      · rename_i hc
        exact expect_bad as hh (by simp) (bad hc)
      · rename_i hc
        refine next _ _ _ _ (by simp) ⟨good (by simpa using hc) (by simp), hsub, hcover, asked_flag h.asked f, ?_, ?_⟩
        · rw [fileNames_snoc]; simpa using h.file
        · rw [fileNames_snoc]; simpa using h.extra
    | file n =>
      rw [parseLoop_file]
      cases file with
      | some m =>
        simp only
        have hne : fileNames pre ≠ [] := by
          intro e
          have := h.file
          rw [e] at this; simp at this
        have hmem : ∃ m', Arg.file m' ∈ pre := by
          obtain ⟨m', hm'⟩ := List.exists_mem_of_ne_nil _ hne
          unfold fileNames at hm'
          obtain ⟨x, hx1, hx2⟩ := List.mem_filterMap.1 hm'
          cases x <;> simp at hx2
          exact ⟨_, hx1⟩
        obtain ⟨m', hm'⟩ := hmem
        refine next _ _ _ _ (by simp) ⟨?_, fun x hx => by simp [h.sub x hx], ?_, asked_file h.asked n, ?_, ?_⟩
        · refine hfs.2 ⟨by simp, fun b hb => ?_⟩
          cases hx : clash (.file n) b with
          | false => rfl
          | true =>
            have : clash b (.file n) = true := (clash_excludes hx).clash.2
            rw [clash_same (c := .file m') rfl] at this
            exact absurd (clash_excludes this) (h.fine.compatible b hb _ hm')
        · intro x hx
          rcases List.mem_append.1 hx with hx | hx
          · exact h.cover x hx
          · rw [List.mem_singleton.1 hx]
            obtain ⟨b, hb, e⟩ := h.cover _ hm'
            refine ⟨b, hb, ?_⟩
            cases b <;> simp [Arg.sameAction] at e ⊢
        · rw [fileNames_snoc, List.head?_append, ← h.file]; rfl
        · rw [fileNames_snoc]
          have : 0 < (fileNames pre).length := List.length_pos_iff.2 hne
          symm
          simp only [List.length_append, List.length_singleton, decide_eq_true_eq]
          omega
      | none =>
        simp only
        have hnil : fileNames pre = [] := by
          have := h.file
          exact List.head?_eq_none_iff.1 this.symm
        split
        · rename_i hc
          exact expect_bad as hh (by simp) (bad hc)
        · rename_i hc
          refine next _ _ _ _ (by simp) ⟨good (by simpa using hc) (by simp), hsub, hcover, asked_file h.asked n, ?_, ?_⟩
          · rw [fileNames_snoc, hnil]; rfl
          · rw [fileNames_snoc, h.extra, hnil]; rfl

/-- C55: without `--help`, a command line whose numbers are numbers, without mutually
exclusive options and with at most one file, is accepted; it sets what it asks for and
nothing else.  Every other command line is refused with status 2. -/
theorem C55_settings (args : List Arg) (hh : .help ∉ args) :
    (WellFormed args → ∃ s, parseArgs args = .run s (fileNames args).head? ∧ Asked args s) ∧
    (¬ WellFormed args → parseArgs args = .usage) := by
  have := parseLoop_expect args [] [] {} none false (by simp)
    ⟨⟨by simp, by simp⟩, by simp, by simp, asked_nil, rfl, rfl⟩
  rw [List.nil_append] at this
  exact ⟨this.1 hh, this.2.1 hh⟩

/-- C55: `--help` wins over everything after it, and over a second file name before it;
other mistakes before it are reported. -/
theorem C55_help (pre post : List Arg) (hh : .help ∉ pre) :
    ((∀ o, Arg.int o none ∉ pre) ∧ (∀ a ∈ pre, ∀ b ∈ pre, ¬ Excludes a b) → parseArgs (pre ++ .help :: post) = .help) ∧
    (¬ ((∀ o, Arg.int o none ∉ pre) ∧ (∀ a ∈ pre, ∀ b ∈ pre, ¬ Excludes a b)) → parseArgs (pre ++ .help :: post) = .usage) := by
  have := (parseLoop_expect (pre ++ .help :: post) [] [] {} none false (by simp)
    ⟨⟨by simp, by simp⟩, by simp, by simp, asked_nil, rfl, rfl⟩).2.2 pre post rfl hh
  exact ⟨fun h => this.1 ⟨h.1, h.2⟩, fun h => this.2 fun hf => h ⟨hf.numbers, hf.compatible⟩⟩

theorem settings_ext {s t : Settings} {args : List Arg} (h : Asked args s) (h' : Asked args t) : s = t := by
  have e : ∀ (x y : Bool) (p : Prop), (x = true ↔ p) → (y = true ↔ p) → x = y := by
    intro x y p h1 h2
    cases x <;> cases y <;> simp_all
  obtain ⟨h1, h2, h3, h4, h5, h6, h7, h8, h9, h10, h11, h12, h13, h14, h15, h16, h17, h18, h19, h20⟩ := h
  obtain ⟨k1, k2, k3, k4, k5, k6, k7, k8, k9, k10, k11, k12, k13, k14, k15, k16, k17, k18, k19, k20⟩ := h'
  obtain ⟨a1, a2, a3, a4, a5, a6, a7, a8, a9, a10, a11, a12, a13, a14, a15, a16, a17, a18, a19, a20⟩ := s
  obtain ⟨b1, b2, b3, b4, b5, b6, b7, b8, b9, b10, b11, b12, b13, b14, b15, b16, b17, b18, b19, b20⟩ := t
  simp only at *
  have f1 : a7 = b7 := funext fun c => e _ _ _ (h6 c) (k6 c)
  have f2 : a8 = b8 := funext fun c => e _ _ _ (h7 c) (k7 c)
  have g1 := e _ _ _ h1 k1
  have g2 := e _ _ _ h2 k2
  have g3 := e _ _ _ h3 k3
  have g4 := e _ _ _ h4 k4
  have g5 := e _ _ _ h5 k5
  have g8 := e _ _ _ h8 k8
  have g9 := e _ _ _ h9 k9
  have g10 := e _ _ _ h10 k10
  have g12 := e _ _ _ h12 k12
  have g13 := e _ _ _ h13 k13
  simp only [Settings.mk.injEq]
  exact ⟨g3, h15.trans k15.symm, h19.trans k19.symm, g12, h14.trans k14.symm, h11.trans k11.symm, f1, f2, g4,
    h18.trans k18.symm, h17.trans k17.symm, h16.trans k16.symm, g8, g10, g9, g13, g2, g5, g1, h20.trans k20.symm⟩

theorem lastInt_cons_int (o p : IntOpt) (v : Option Int) (args : List Arg) :
    lastInt o (.int p v :: args) = match lastInt o args with
      | some w => some w
      | none => if p = o then v else none := by
  rw [lastInt]; cases lastInt o args <;> rfl

theorem lastInt_mem {o : IntOpt} {w : Int} (l : List Arg) : lastInt o l = some w → .int o (some w) ∈ l := by
  induction l with
  | nil => simp [lastInt]
  | cons b l ihl =>
    intro hb
    cases b with
    | int p u =>
      rw [lastInt_cons_int] at hb
      cases hy : lastInt o l with
      | some z =>
        rw [hy] at hb
        simp only [Option.some.injEq] at hb
        rw [hb] at hy
        simp [ihl hy]
      | none =>
        rw [hy] at hb
        simp only at hb
        split at hb
        · rename_i hp; subst hp; subst hb; simp
        · simp at hb
    | _ =>
      refine List.mem_cons_of_mem _ (ihl ?_)
      cases hy : lastInt o l <;> simp [lastInt, hy] at hb ⊢
      exact hb

theorem lastInt_iff {o : IntOpt} {args : List Arg} {v : Int} (hn : ∀ o, Arg.int o none ∉ args)
    (h1 : (args.filter (Numbers o)).length ≤ 1) : lastInt o args = some v ↔ .int o (some v) ∈ args := by
  induction args with
  | nil => simp [lastInt]
  | cons a args ih =>
    have hn' : ∀ o, Arg.int o none ∉ args := fun o h => hn o (by simp [h])
    have h1' : (args.filter (Numbers o)).length ≤ 1 := by
      rw [List.filter_cons] at h1
      split at h1
      · rw [List.length_cons] at h1; omega
      · exact h1
    have ih := ih hn' h1'
    by_cases ha : Numbers o a = true
    · rw [List.filter_cons, if_pos ha] at h1
      have he : (args.filter (Numbers o)) = [] := List.length_eq_zero_iff.1 (by simpa using h1)
      have hnm : ∀ w, .int o w ∉ args := by
        intro w hw
        have : Arg.int o w ∈ (args.filter (Numbers o)) := List.mem_filter.2 ⟨hw, by simp [Numbers]⟩
        rw [he] at this; simp at this
      have hl : lastInt o args = none := by
        cases hx : lastInt o args with
        | none => rfl
        | some w =>
          exfalso
          exact hnm _ (lastInt_mem args hx)
      cases a with
      | int p u =>
        simp [Numbers] at ha
        subst ha
        rw [lastInt, hl]
        simp only [if_true, List.mem_cons, hnm, or_false, Arg.int.injEq, true_and]
        exact ⟨fun h => h.symm, fun h => h.symm⟩
      | _ => simp [Numbers] at ha
    · have hl : lastInt o (a :: args) = lastInt o args := by
        cases a with
        | int p u =>
          simp [Numbers] at ha
          rw [lastInt_cons_int]
          cases lastInt o args <;> simp [ha]
        | _ => cases hy : lastInt o args <;> simp [lastInt, hy]
      rw [hl, ih]
      simp only [List.mem_cons]
      constructor
      · exact Or.inr
      · rintro (rfl | h)
        · simp [Numbers] at ha
        · exact h

theorem asked_perm {s : Settings} {args args' : List Arg} (hp : args.Perm args') (hn : ∀ o, Arg.int o none ∉ args) (h1 : NumbersOnce args)
    (h : Asked args s) : Asked args' s := by
  have hm : ∀ a, a ∈ args ↔ a ∈ args' := fun a => hp.mem_iff
  have hl : ∀ o, lastInt o args = lastInt o args' := by
    intro o
    have h1' : (args'.filter (Numbers o)).length ≤ 1 := by
      rw [← (hp.filter _).length_eq]; exact h1 o
    have hn' : ∀ o, Arg.int o none ∉ args' := fun o h => hn o ((hm _).2 h)
    apply Option.ext
    intro v
    rw [lastInt_iff hn (h1 o), lastInt_iff hn' h1', hm]
  obtain ⟨k1, k2, k3, k4, k5, k6, k7, k8, k9, k10, k11, k12, k13, k14, k15, k16, k17, k18, k19, k20⟩ := h
  constructor <;> first
    | (simp only [← hm, ← hl, ← hp.count_eq]; assumption)
    | assumption

/-- C55: the order does not matter (as long as no number is given twice). -/
theorem C55_order (args args' : List Arg) (hh : .help ∉ args) (hp : args.Perm args') (h1 : NumbersOnce args) :
    parseArgs args = parseArgs args' := by
  have hm : ∀ a, a ∈ args ↔ a ∈ args' := fun a => hp.mem_iff
  have hh' : .help ∉ args' := fun h => hh ((hm _).2 h)
  have hfp : (fileNames args).Perm (fileNames args') := hp.filterMap _
  have hw : WellFormed args ↔ WellFormed args' := by
    constructor
    · intro h
      exact ⟨fun o hx => h.numbers o ((hm _).2 hx), fun a ha b hb => h.compatible a ((hm a).2 ha) b ((hm b).2 hb), by
        rw [← hfp.length_eq]; exact h.oneFile⟩
    · intro h
      exact ⟨fun o hx => h.numbers o ((hm _).1 hx), fun a ha b hb => h.compatible a ((hm a).1 ha) b ((hm b).1 hb), by
        rw [hfp.length_eq]; exact h.oneFile⟩
  by_cases h : WellFormed args
  · obtain ⟨s, e1, e2⟩ := (C55_settings args hh).1 h
    obtain ⟨t, e3, e4⟩ := (C55_settings args' hh').1 (hw.1 h)
    have := settings_ext (asked_perm hp h.numbers h1 e2) e4
    have hf : fileNames args = fileNames args' := by
      have hl := h.oneFile
      cases hx : fileNames args with
      | nil => rw [hx] at hfp; exact hfp.nil_eq
      | cons y l =>
        rw [hx] at hfp hl
        have : l = [] := List.length_eq_zero_iff.1 (by simpa using hl)
        subst this
        exact List.singleton_perm.1 hfp
    rw [e1, e3, this, hf]
  · rw [(C55_settings args hh).2 h, (C55_settings args' hh').2 fun hx => h (hw.2 hx)]

/-- `-b -DD -w 16 -S file` and `-S file -w 16 -D -b -D`. -/
example : WellFormed [.flag .binary, .debug, .debug, .int .columns (some 16), .flag (.ignore .whitespace), .file ['f']] ∧
    NumbersOnce [.flag .binary, .debug, .debug, .int .columns (some 16), .flag (.ignore .whitespace), .file ['f']] ∧
    (∃ s, parseArgs [.flag (.ignore .whitespace), .file ['f'], .int .columns (some 16), .debug, .flag .binary, .debug] = .run s (some ['f']) ∧
      s.binary = true ∧ s.debug = 2 ∧ s.columns = some 16 ∧ s.ignore .whitespace = true) := by
  refine ⟨⟨by intro o; cases o <;> decide, ?_, by decide⟩, ?_, ⟨_, rfl, rfl, rfl, rfl, rfl⟩⟩
  · have hall : ∀ a ∈ [Arg.flag .binary, .debug, .debug, .int .columns (some 16), .flag (.ignore .whitespace), .file ['f']],
        ∀ b ∈ [Arg.flag .binary, .debug, .debug, .int .columns (some 16), .flag (.ignore .whitespace), .file ['f']], clash a b = false := by
      decide
    intro a ha b hb he
    have := he.clash.1
    rw [hall a ha b hb] at this
    exact absurd this (by simp)
  · intro o; cases o <;> decide

/-- `-b -t`, `-w x`, `a b`, `-b --help -t`. -/
example : parseArgs [.flag .binary, .flag .text] = .usage ∧ parseArgs [.int .columns none] = .usage ∧
    parseArgs [.file ['a'], .file ['b']] = .usage ∧ parseArgs [.flag .binary, .help, .flag .text] = .help := ⟨rfl, rfl, rfl, rfl⟩

/-! ### C56 -/

theorem fileSteps_noRaise (n : Int) (s : Bytes) : NoRaise (Reader.fileSteps n s) := by
  have haux : ∀ n k t e, IoStep.raise e ∉ Reader.fileStepsAux n k t := by
    intro n k t e
    induction k generalizing t with
    | zero => simp [Reader.fileStepsAux]
    | succ k ih => cases t <;> simp [Reader.fileStepsAux, ih]
  intro e
  unfold Reader.fileSteps
  split
  · split <;> simp
  · exact haux _ _ _ _

theorem fileSteps_content {n : Int} (hn : n ≠ 0) (s : Bytes) : contentOf (Reader.fileSteps n s) = s := by
  unfold Reader.fileSteps
  split
  · cases s <;> simp [contentOf]
  · exact contentOf_fileStepsAux _ (by omega) _ _ (Nat.le_refl _)

theorem fileSteps_one {n : Int} (s : Bytes) (h : n < 0 ∨ (s.length : Int) ≤ n) :
    Reader.fileSteps n s = if s = [] then [] else [.data s] := by
  unfold Reader.fileSteps
  split
  · rfl
  · rename_i hn
    have hl : s.length ≤ n.toNat := by omega
    cases s with
    | nil => rfl
    | cons b s =>
      rw [if_neg (by simp), List.length_cons, Reader.fileStepsAux, List.take_of_length_le hl, List.drop_of_length_le hl]
      cases s <;> rfl

/-- The reader's calls for a file. -/
def fileEvents (s : Settings) (data : Bytes) : List ReadEvent :=
  (readEvents s.maxBytes s.maxLines (Reader.fileSteps (Reader.chunkSize s.buffer s.debug) data) 0 0).1

theorem fileEvents_complete (s : Settings) (data : Bytes) : Complete (fileEvents s data) :=
  (readEvents_shape _ _ _ 0 0).last (readEvents_noRaise (fileSteps_noRaise _ _) 0 0)

theorem chunkSize_ne (buffer : Option Int) (debug : Nat) : Reader.chunkSize buffer debug ≠ 0 := by
  unfold Reader.chunkSize
  split
  · split
    · assumption
    · split <;> simp
  · split <;> simp

theorem fileEvents_delivered {s : Settings} {data : Bytes} {mb ml : Option Nat} {pB pL : Bytes} (hmb : s.maxBytes = optInt mb)
    (hml : s.maxLines = optInt ml) (hB : UnderBytes mb data pB) (hL : UnderLines ml data pL) :
    delivered (fileEvents s data) = if pB.length ≤ pL.length then pB else pL := by
  have hc := fileSteps_content (chunkSize_ne s.buffer s.debug) data
  obtain ⟨evs, h1, h2⟩ := C37_limits mb ml _ (fileSteps_noRaise (Reader.chunkSize s.buffer s.debug) data) pB pL (by rw [hc]; exact hB) (by rw [hc]; exact hL)
  rw [loop_record, readEvents_noRaise (fileSteps_noRaise _ _)] at h1
  simp only [Run.pure, List.nil_append, Run.mk.injEq, Res.ok.injEq, true_and] at h1
  rw [fileEvents, hmb, hml, h1, h2]

theorem readEvents_one (mb ml : Option Int) (s : Bytes) :
    SafeChunks ((readEvents mb ml (if s = [] then [] else [.data s]) 0 0).1.map (·.data)) := by
  have h1 : ∀ x : Bytes, SafeChunks [x] := fun x => ⟨safe_nil_right x, trivial⟩
  have h2 : ∀ x : Bytes, SafeChunks [x, []] := fun x => ⟨safe_nil_right x, h1 []⟩
  split
  · exact h1 []
  · rename_i hs
    rw [readEvents, if_neg hs]
    simp only
    split
    · exact h1 _
    · split
      · exact h2 _
      · exact h2 _

theorem fileEvents_safe {s : Settings} {data p : Bytes} (hd : delivered (fileEvents s data) = p) (hp : p <+: data)
    (h : Reader.chunkSize s.buffer s.debug < 0 ∨ (data.length : Int) ≤ Reader.chunkSize s.buffer s.debug ∨ ∀ x ∈ data, x ≠ 0x1b ∧ x.toNat < 0x80) :
    SafeChunks ((fileEvents s data).map (·.data)) := by
  by_cases h' : Reader.chunkSize s.buffer s.debug < 0 ∨ (data.length : Int) ≤ Reader.chunkSize s.buffer s.debug
  · unfold fileEvents
    rw [fileSteps_one data h']
    exact readEvents_one _ _ _
  · have : ∀ x ∈ data, x ≠ 0x1b ∧ x.toNat < 0x80 := by
      rcases h with h | h | h
      · exact absurd (.inl h) h'
      · exact absurd (.inr h) h'
      · exact h
    refine safeChunks_ascii fun x hx => this x (hp.mem ?_)
    rw [← hd]; exact hx

theorem byteIoRun_session {fuel : Nat} {t : Settings} {term : Nat → Int} {data : Bytes} {out : Str} {st : State}
    (h : session fuel t term (fileEvents t data) = ⟨out, .ok st⟩) :
    byteIoRun fuel t term none (Reader.fileSteps (Reader.chunkSize t.buffer t.debug) data) = ⟨out, .ok (some st), true⟩ := by
  obtain ⟨a, b, hset⟩ := readMode_eq t
  have hcs : (Config.create t).settings = t.readMode.2 := config_settings _
  have hmb : (Config.create t).settings.maxBytes = t.maxBytes := by rw [hcs, hset]
  have hml : (Config.create t).settings.maxLines = t.maxLines := by rw [hcs, hset]
  unfold byteIoRun Reader.read
  simp only [hmb, hml]
  rw [loop_play, playAll, readEvents_noRaise (fileSteps_noRaise _ _)]
  simp only [bind_pure]
  have h' : playEvents (processChunk fuel (Config.create t) term)
      (readEvents t.maxBytes t.maxLines (Reader.fileSteps (Reader.chunkSize t.buffer t.debug) data) 0 0).1 {} = ⟨out, .ok st⟩ := h
  rw [h']

/-- What the program does for a command line that asks to display a file: the file is
processed with the settings asked for, and a line feed follows. -/
theorem program_views {args : List Arg} {w : World} {name : Str} {data : Bytes} {s : Settings} (hv : Views args name) (hs : Asked args s)
    (hf : w.file name = .ok data) {fuel : Nat} {out : Str} {st : State} (h : session fuel s w.term (fileEvents s data) = ⟨out, .ok st⟩) :
    program fuel w args = ⟨out ++ ['\n'], some 0⟩ := by
  have no : ∀ a ∈ [Arg.help, .debug, .flag .demo, .flag .legend, .flag .version], a ∉ args := hv.only
  obtain ⟨t, e1, e2⟩ := (C55_settings args (no _ (by simp))).1 hv.wellFormed
  have := settings_ext e2 hs
  subst this
  have hdem : t.demo = false := by
    have := hs.demo; have := no (.flag .demo) (by simp)
    simp_all
  have hleg : t.legend = false := by
    have := hs.legend; have := no (.flag .legend) (by simp)
    simp_all
  have hver : t.version = false := by
    have := hs.version; have := no (.flag .version) (by simp)
    simp_all
  have hdeb : t.debug = 0 := by
    rw [hs.debug, List.count_eq_zero]; exact no _ (by simp)
  have hds : debugSettings t = t := by unfold debugSettings; rw [if_neg (by omega)]
  unfold program
  rw [e1, hv.file]
  simp only [List.head?_cons]
  have ho : w.open t (some name) = (none, Reader.fileSteps (Reader.chunkSize t.buffer t.debug) data) := by
    unfold World.open
    rw [hdem]
    simp only [Bool.false_eq_true, if_false, hv.named.1, hv.named.2, or_self, hf]
  rw [ho]
  unfold appRun Runner.create
  simp only [hds, hleg, hver, hdem, Bool.false_eq_true, if_false]
  have hb := byteIoRun_session h
  rw [hb]

theorem bufferSize_eq {args : List Arg} {s : Settings} (hs : Asked args s) (hd : .debug ∉ args) :
    Reader.chunkSize s.buffer s.debug = bufferSize args := by
  have hdeb : s.debug = 0 := by rw [hs.debug, List.count_eq_zero]; exact hd
  unfold Reader.chunkSize bufferSize
  rw [hs.buffer, hdeb]
  cases lastInt .buffer args with
  | none => rfl
  | some n => by_cases h : n = 0 <;> simp [h]

theorem limits_prefix {mb ml : Option Nat} {data pB pL : Bytes} (hB : UnderBytes mb data pB) (hL : UnderLines ml data pL) :
    (if pB.length ≤ pL.length then pB else pL) <+: data := by
  split
  · unfold UnderBytes at hB
    split at hB
    · rw [hB]; exact List.take_prefix _ _
    · rw [hB]; exact List.prefix_rfl
  · unfold UnderLines at hL
    split at hL
    · rcases hL with ⟨h, -⟩ | ⟨h, -⟩
      · rw [h]; exact List.prefix_rfl
      · exact (List.prefix_append pL _).trans h
    · rw [hL]; exact List.prefix_rfl

theorem views_readable {args : List Arg} {s : Settings} {data p : Bytes} {name : Str} (hv : Views args name) (hs : Asked args s)
    (hd : delivered (fileEvents s data) = p) (hp : p <+: data) (hbad : ¬ BadChunk p)
    (hsafe : bufferSize args < 0 ∨ (data.length : Int) ≤ bufferSize args ∨ ∀ x ∈ data, x ≠ 0x1b ∧ x.toNat < 0x80) :
    SafeChunks ((fileEvents s data).map (·.data)) ∧ Readable (fileEvents s data) := by
  rw [← bufferSize_eq hs (hv.only _ (by simp))] at hsafe
  have h1 := fileEvents_safe hd hp hsafe
  refine ⟨h1, readable_of_safe (es := [⟨p, 0, true⟩]) ⟨safe_nil_right p, trivial⟩ h1 ?_ ?_⟩
  · rw [hd]; simp [delivered]
  · intro e he
    rw [List.mem_singleton.1 he]; exact hbad

/-- C56, text mode: the command line `args` names a file with the content `data`, of which the
limits leave `p`.  If the file fits into the read buffer (or is plain 7-bit text without
escape characters), and no SGR sequence has a parameter that is not a number, then the
process ends with status 0, and the terminal shows the lines of the pieces of `p` in
their colours, and an empty line. -/
theorem C56_text (args : List Arg) (w : World) (name : Str) (data : Bytes) (s : Settings) (mb ml : Option Nat) (pB pL p : Bytes)
    (hv : Views args name) (hs : Asked args s) (hb : .flag .binary ∉ args) (hf : w.file name = .ok data)
    (hmb : lastInt .maxBytes args = optInt mb) (hml : lastInt .maxLines args = optInt ml)
    (hB : UnderBytes mb data pB) (hL : UnderLines ml data pL) (hp : p = if pB.length ≤ pL.length then pB else pL) (hbad : ¬ BadChunk p)
    (hsafe : bufferSize args < 0 ∨ (data.length : Int) ≤ bufferSize args ∨ ∀ x ∈ data, x ≠ 0x1b ∧ x.toNat < 0x80)
    (fuel : Nat) (hfuel : 4 * p.length < fuel) :
    (program fuel w args).status = some 0 ∧
      appears (program fuel w args).out = (inkLines (labelInk s) (textInk s) (lostAt s) (pieces p)).flatten ++ [('\n', ({} : Style))] := by
  have hd := fileEvents_delivered (s := s) (data := data) (by rw [hs.maxBytes, hmb]) (by rw [hs.maxLines, hml]) hB hL
  have hpre := limits_prefix hB hL
  rw [← hp] at hd hpre
  obtain ⟨h1, h2⟩ := views_readable hv hs hd hpre hbad hsafe
  have hbin : s.binary = false := by
    have := hs.binary
    simp_all
  have hm : s.readMode.1 = .text := by
    unfold Settings.readMode
    rw [hbin, hs.mode]
    cases s.text <;> rfl
  obtain ⟨out, st, e1, e2⟩ := inkComplete hm w.term (fileEvents_complete s data) h2 (fuel := fuel) (by rw [hd]; exact hfuel)
  rw [program_views hv hs hf e1]
  refine ⟨rfl, ?_⟩
  have := (e2.append (Shows.text {} (s := ['\n']) (by decide))).appears
  rw [this]
  have r := (safe_chunks h1).ink_eq s
  rw [show ((fileEvents s data).map (·.data)).flatten = p from hd] at r
  rw [r]
  rfl

theorem linesOf_nl (a : Str) : linesOf (a ++ ['\n']) = linesOf a ∨ linesOf (a ++ ['\n']) = linesOf a ++ [[]] := by
  induction a with
  | nil => exact .inr rfl
  | cons c a ih =>
    rw [List.cons_append, linesOf, linesOf]
    by_cases hc : c = '\n'
    · rw [if_pos hc, if_pos hc]
      rcases ih with h | h
      · exact .inl (by rw [h])
      · exact .inr (by rw [h]; rfl)
    · rw [if_neg hc, if_neg hc]
      rcases ih with h | h
      · rw [h]; exact .inl rfl
      · rw [h]
        cases linesOf a with
        | nil => exact .inl rfl
        | cons l ls => exact .inr rfl

/-- C56, binary mode with `c > 0` columns: the process ends with status 0; the hexadecimal
columns, read line by line, give exactly `p`; the characters next to them are those of
the pieces of `p` in their colours. -/
theorem C56_binary (args : List Arg) (w : World) (name : Str) (data : Bytes) (s : Settings) (mb ml : Option Nat) (pB pL p : Bytes)
    (hv : Views args name) (hs : Asked args s) (hb : .flag .binary ∈ args) (hf : w.file name = .ok data)
    (c : Nat) (hc : 0 < c) (hcols : lastInt .columns args = some (c : Int))
    (hmb : lastInt .maxBytes args = optInt mb) (hml : lastInt .maxLines args = optInt ml)
    (hB : UnderBytes mb data pB) (hL : UnderLines ml data pL) (hp : p = if pB.length ≤ pL.length then pB else pL) (hbad : ¬ BadChunk p)
    (hsafe : bufferSize args < 0 ∨ (data.length : Int) ≤ bufferSize args ∨ ∀ x ∈ data, x ≠ 0x1b ∧ x.toNat < 0x80)
    (fuel : Nat) (hfuel : p.length < fuel) :
    (program fuel w args).status = some 0 ∧
      ((linesOf (visible (program fuel w args).out)).flatMap fun l => readBytes (l.drop (if offsetsShown s then 9 else 0))) = p ∧
      ∃ cells : List Cell,
        cells.map Cell.byte = p ∧ cells.map Cell.shown = (pieces p).flatMap (binInk s) ∧
        appears (program fuel w args).out = rowsView s c cells ++ [('\n', ({} : Style))] := by
  have hd := fileEvents_delivered (s := s) (data := data) (by rw [hs.maxBytes, hmb]) (by rw [hs.maxLines, hml]) hB hL
  have hpre := limits_prefix hB hL
  rw [← hp] at hd hpre
  obtain ⟨h1, h2⟩ := views_readable hv hs hd hpre hbad hsafe
  have hbin : s.binary = true := hs.binary.2 hb
  have htext : s.text = false := by
    cases h : s.text with
    | false => rfl
    | true => exact absurd .textBinary (hv.wellFormed.compatible _ (hs.text.1 h) _ hb)
  have hm : s.readMode.1 = .binary := by
    unfold Settings.readMode
    rw [hbin, htext]
    rfl
  have hco : ∀ k off, BinaryFormatter.curCols s (w.term k) off = c := by
    intro k off
    unfold BinaryFormatter.curCols
    rw [hs.columns, hcols]
  obtain ⟨out, st, e1, -, e2⟩ := binComplete hm hc hco (fileEvents_complete s data) h2 (fuel := fuel) (by rw [hd]; exact hfuel)
  obtain ⟨out', st', e1', e3⟩ := C18_hex s hm w.term c hc hco _ (fileEvents_complete s data) h2 fuel (by rw [hd]; exact hfuel)
  rw [e1] at e1'
  simp only [Run.mk.injEq, Res.ok.injEq] at e1'
  obtain ⟨rfl, -⟩ := e1'
  rw [program_views hv hs hf e1]
  refine ⟨rfl, ?_, allCells s (fileEvents s data), ?_, ?_, ?_⟩
  · rw [hd] at e3
    rw [← e3]
    simp only
    have hvis : visible (out ++ ['\n']) = visible out ++ ['\n'] := by
      rw [(e2.append (Shows.text {} (s := ['\n']) (by decide))).visible, e2.visible, List.map_append]
      rfl
    rw [hvis]
    rcases linesOf_nl (visible out) with h | h
    · rw [h]
    · rw [h, List.flatMap_append]
      simp [readBytes]
  · rw [allCells_byte hm, hd]
  · rw [allCells_shown hm h2]
    have r := (safe_chunks h1).binInk_eq s
    rw [show ((fileEvents s data).map (·.data)).flatten = p from hd] at r
    exact r.symm
  · have := (e2.append (Shows.text {} (s := ['\n']) (by decide))).appears
    rw [← allCells_length hm, rowsView_eq] at this
    exact this

theorem appRun_status (fuel : Nat) (s : Settings) (term : Nat → Int) (opened : Option Err) (io : List IoStep) (legend version : Str) :
    (appRun fuel s term opened io legend version).status ≠ some 2 := by
  unfold appRun
  simp only
  split
  · simp
  · simp
  · split <;> simp
  · split <;> simp

/-- C56: the exit status is 2 exactly for a command line with a mistake (that is not preceded
by `--help`); nothing is displayed then. -/
theorem C56_usage (fuel : Nat) (w : World) (args : List Arg) :
    ((program fuel w args).status = some 2 ↔ (.help ∉ args ∧ ¬ WellFormed args) ∨
      ∃ pre post, args = pre ++ .help :: post ∧ .help ∉ pre ∧ ¬ ((∀ o, Arg.int o none ∉ pre) ∧ ∀ a ∈ pre, ∀ b ∈ pre, ¬ Excludes a b)) ∧
    ((program fuel w args).status = some 2 → (program fuel w args).out = []) := by
  have key : (program fuel w args).status = some 2 ↔ parseArgs args = .usage := by
    unfold program
    cases parseArgs args with
    | help => simp
    | usage => simp
    | run s f => simp [appRun_status]
  refine ⟨?_, ?_⟩
  · rw [key]
    by_cases hh : .help ∈ args
    · have hsplit : ∀ l : List Arg, .help ∈ l → ∃ pre post, l = pre ++ .help :: post ∧ .help ∉ pre := by
        intro l
        induction l with
        | nil => simp
        | cons a l ih =>
          intro h
          by_cases ha : a = .help
          · exact ⟨[], l, by rw [ha]; rfl, by simp⟩
          · obtain ⟨pre, post, e1, e2⟩ := ih (by
              rcases List.mem_cons.1 h with h | h
              · exact absurd h.symm ha
              · exact h)
            exact ⟨a :: pre, post, by rw [e1]; rfl, by simp [e2, Ne.symm ha]⟩
      obtain ⟨pre, post, e, hp⟩ := hsplit args hh
      obtain ⟨g1, g2⟩ := C55_help pre post hp
      constructor
      · intro h
        refine .inr ⟨pre, post, e, hp, fun hc => ?_⟩
        rw [e, g1 hc] at h
        simp at h
      · rintro (h | ⟨pre', post', e', hp', hc⟩)
        · exact absurd hh h.1
        · rw [e', (C55_help pre' post' hp').2 hc]
    · obtain ⟨g1, g2⟩ := C55_settings args hh
      constructor
      · intro h
        refine .inl ⟨hh, fun hw => ?_⟩
        obtain ⟨s, e, -⟩ := g1 hw
        rw [e] at h; simp at h
      · rintro (h | ⟨pre, post, e, -⟩)
        · exact g2 h.2
        · exact absurd (by rw [e]; simp) hh
  · rw [key]
    intro h
    unfold program
    rw [h]

/-- C56: a file that cannot be opened: status 1, and only the hint about `--debug` is printed
on standard output. -/
theorem C56_missing (fuel : Nat) (w : World) (args : List Arg) (name : Str) (e : Err) (hv : Views args name) (hf : w.file name = .error e) :
    (program fuel w args).status = some 1 ∧
      visible (program fuel w args).out = "Run the app with '--debug' argument to see the details\n\n".toList := by
  have no : ∀ a ∈ [Arg.help, .debug, .flag .demo, .flag .legend, .flag .version], a ∉ args := hv.only
  obtain ⟨t, e1, hs⟩ := (C55_settings args (no _ (by simp))).1 hv.wellFormed
  have hdem : t.demo = false := by
    have := hs.demo; have := no (.flag .demo) (by simp)
    simp_all
  have hleg : t.legend = false := by
    have := hs.legend; have := no (.flag .legend) (by simp)
    simp_all
  have hver : t.version = false := by
    have := hs.version; have := no (.flag .version) (by simp)
    simp_all
  have hdeb : t.debug = 0 := by
    rw [hs.debug, List.count_eq_zero]; exact no _ (by simp)
  have hds : debugSettings t = t := by unfold debugSettings; rw [if_neg (by omega)]
  have ho : w.open t (some name) = (some e, []) := by
    unfold World.open
    rw [hdem]
    simp only [Bool.false_eq_true, if_false, hv.named.1, hv.named.2, or_self, hf]
  have : program fuel w args = ⟨errorHint ++ ['\n'], some 1⟩ := by
    unfold program
    rw [e1, hv.file]
    simp only [List.head?_cons]
    rw [ho]
    unfold appRun Runner.create
    simp only [hds, hleg, hver, hdem, Bool.false_eq_true, if_false]
    rfl
  rw [this]
  exact ⟨rfl, by decide⟩

/-- `-b -w 2 -m 2 -M 5 f` ... -/
def exampleArgs : List Arg :=
  [.flag .binary, .int .columns (some 2), .int .marker (some 2), .int .maxBytes (some 5), .file ['f']]

theorem exampleArgs_views : Views exampleArgs ['f'] := by
  refine ⟨⟨by intro o; cases o <;> decide, ?_, by decide⟩, rfl, by decide, by decide⟩
  have hall : ∀ a ∈ exampleArgs, ∀ b ∈ exampleArgs, clash a b = false := by decide
  intro a ha b hb he
  have := he.clash.1
  rw [hall a ha b hb] at this
  exact absurd this (by simp)

/-- ... for the file `a ESC[1m bcd`: the first five bytes `a ESC[1m` are displayed. -/
example : ∃ s, parseArgs exampleArgs = .run s (some ['f']) ∧ Asked exampleArgs s ∧ ¬ BadChunk [0x61, 0x1b, 0x5b, 0x31, 0x6d] ∧
    UnderBytes (some 5) [0x61, 0x1b, 0x5b, 0x31, 0x6d, 0x62, 0x63, 0x64] [0x61, 0x1b, 0x5b, 0x31, 0x6d] ∧ bufferSize exampleArgs = 4096 := by
  obtain ⟨s, h1, h2⟩ := (C55_settings exampleArgs (exampleArgs_views.only _ (by simp))).1 exampleArgs_views.wellFormed
  refine ⟨s, h1, h2, ?_, rfl, rfl⟩
  intro h
  exact absurd ((anyBad_iff _).2 h) (by decide)

/-! ### C57 -/

theorem program_demo {args : List Arg} {w : World} {s : Settings} (hv : ViewsDemo args) (hs : Asked args s)
    {fuel : Nat} {out : Str} {st : State} (h : session fuel (inDemo s) w.term (fileEvents (inDemo s) w.demo) = ⟨out, .ok st⟩) :
    program fuel w args = ⟨out ++ demoHint ++ ['\n'], some 0⟩ := by
  have no : ∀ a ∈ [Arg.help, .debug, .flag .legend, .flag .version], a ∉ args := hv.only
  obtain ⟨t, e1, e2⟩ := (C55_settings args (no _ (by simp))).1 hv.wellFormed
  have := settings_ext e2 hs
  subst this
  have hdem : t.demo = true := hs.demo.2 hv.demo
  have hleg : t.legend = false := by
    have := hs.legend; have := no (.flag .legend) (by simp)
    simp_all
  have hver : t.version = false := by
    have := hs.version; have := no (.flag .version) (by simp)
    simp_all
  have hdeb : t.debug = 0 := by
    rw [hs.debug, List.count_eq_zero]; exact no _ (by simp)
  have hds : debugSettings t = t := by unfold debugSettings; rw [if_neg (by omega)]
  have hin : demoSettings t = inDemo t := by
    have hdec : t.decode = none ∨ t.decode = some true := by
      rw [hs.decode]; split <;> simp
    unfold demoSettings inDemo Settings.setDefaultReadMode
    rcases hdec with hd | hd <;> rw [hd] <;> cases hc : t.columns <;> simp [hc, hd]
  unfold program
  rw [e1]
  have ho : ∀ f, w.open t f = (none, Reader.fileSteps (Reader.chunkSize t.buffer t.debug) w.demo) := by
    intro f
    unfold World.open
    rw [hdem, if_pos rfl]
  simp only [ho]
  unfold appRun Runner.create
  simp only [hds, hleg, hver, hdem, Bool.false_eq_true, if_false, if_true, hin]
  have hb := byteIoRun_session h
  have hsz : Reader.chunkSize t.buffer t.debug = Reader.chunkSize (inDemo t).buffer (inDemo t).debug := rfl
  rw [hsz, hb]

/-- The hint after the demonstration. -/
def demoHintInk : List (Char × Style) :=
  inStyle {} "\nRun the app with '".toList ++ inStyle { bold := true } "--legend".toList ++
    inStyle {} "' option to learn how to read the output\n\n".toList

theorem demoHint_shows : Shows {} (demoHint ++ ['\n']) {} demoHintInk := by
  refine ⟨?_, by decide +kernel⟩
  have h1 : Clean ("\nRun the app with '".toList) := .text (by decide)
  have h2 : Clean (span [1] "--legend".toList) := ((Clean.sgr [1]).append (.text (by decide))).append (.sgr _)
  have h3 : Clean ("' option to learn how to read the output\n".toList) := .text (by decide)
  exact ((h1.append h2).append h3).append (.text (by decide))

theorem demo_readable {args : List Arg} {w : World} {s : Settings} {p : Bytes} (hv : ViewsDemo args) (hs : Asked args s)
    (hd : delivered (fileEvents (inDemo s) w.demo) = p) (hpre : p <+: w.demo) (hbad : ¬ BadChunk p)
    (hsafe : bufferSize args < 0 ∨ (w.demo.length : Int) ≤ bufferSize args) :
    SafeChunks ((fileEvents (inDemo s) w.demo).map (·.data)) ∧ Readable (fileEvents (inDemo s) w.demo) := by
  have hsz : Reader.chunkSize (inDemo s).buffer (inDemo s).debug = bufferSize args := by
    rw [← bufferSize_eq hs (hv.only _ (by simp))]; rfl
  have h1 : SafeChunks ((fileEvents (inDemo s) w.demo).map (·.data)) := by
    refine fileEvents_safe hd hpre ?_
    rw [hsz]
    rcases hsafe with h | h
    · exact .inl h
    · exact .inr (.inl h)
  have h2 : Readable (fileEvents (inDemo s) w.demo) := by
    refine readable_of_safe (es := [⟨p, 0, true⟩]) ⟨safe_nil_right p, trivial⟩ h1 (by rw [hd]; simp [delivered]) ?_
    intro e he
    rw [List.mem_singleton.1 he]
    intro hx
    exact hbad ((anyBad_iff _).1 ((anyBad_iff _).2 hx))
  exact ⟨h1, h2⟩

/-- C57, without `-t`: `--demo` displays the bundled file like `-b -w 16 --decode` does, with the
other options of the command line in effect; `-w` changes the number of columns.  The hint
about `--legend` follows; the status is 0. -/
theorem C57_demo (args : List Arg) (w : World) (s : Settings) (mb ml : Option Nat) (pB pL p : Bytes)
    (hv : ViewsDemo args) (hs : Asked args s) (ht : .flag .text ∉ args)
    (c : Nat) (hc : 0 < c) (hcols : (lastInt .columns args).getD 16 = (c : Int))
    (hmb : lastInt .maxBytes args = optInt mb) (hml : lastInt .maxLines args = optInt ml)
    (hB : UnderBytes mb w.demo pB) (hL : UnderLines ml w.demo pL) (hp : p = if pB.length ≤ pL.length then pB else pL) (hbad : ¬ BadChunk p)
    (hsafe : bufferSize args < 0 ∨ (w.demo.length : Int) ≤ bufferSize args)
    (fuel : Nat) (hfuel : p.length < fuel) :
    (program fuel w args).status = some 0 ∧
      ∃ cells : List Cell,
        cells.map Cell.byte = p ∧ cells.map Cell.shown = (pieces p).flatMap (binInk (inDemo s)) ∧
        appears (program fuel w args).out = rowsView (inDemo s) c cells ++ demoHintInk := by
  have hd := fileEvents_delivered (s := inDemo s) (data := w.demo) (by rw [← hmb, ← hs.maxBytes]; rfl) (by rw [← hml, ← hs.maxLines]; rfl) hB hL
  have hpre := limits_prefix hB hL
  rw [← hp] at hd hpre
  obtain ⟨h1, h2⟩ := demo_readable hv hs hd hpre hbad hsafe
  have htext : (inDemo s).text = false := by
    have := hs.text
    have e : (inDemo s).text = s.text := rfl
    rw [e]
    cases h : s.text with
    | false => rfl
    | true => exact absurd (this.1 h) ht
  have hm : (inDemo s).readMode.1 = .binary := by
    unfold Settings.readMode
    rw [htext]
    cases (inDemo s).binary <;> rfl
  have hco : ∀ k off, BinaryFormatter.curCols (inDemo s) (w.term k) off = c := by
    intro k off
    have : (inDemo s).columns = some (c : Int) := by
      rw [← hcols, ← hs.columns]; rfl
    unfold BinaryFormatter.curCols
    rw [this]
  obtain ⟨out, st, e1, -, e2⟩ := binComplete hm hc hco (fileEvents_complete (inDemo s) w.demo) h2 (fuel := fuel) (by rw [hd]; exact hfuel)
  rw [program_demo hv hs e1]
  refine ⟨rfl, allCells (inDemo s) (fileEvents (inDemo s) w.demo), ?_, ?_, ?_⟩
  · rw [allCells_byte hm, hd]
  · rw [allCells_shown hm h2]
    have r := (safe_chunks h1).binInk_eq (inDemo s)
    rw [show ((fileEvents (inDemo s) w.demo).map (·.data)).flatten = p from hd] at r
    exact r.symm
  · have := (e2.append demoHint_shows).appears
    rw [← allCells_length hm, rowsView_eq] at this
    rw [← this, List.append_assoc]

/-- C57, with `-t`: text mode. -/
theorem C57_text (args : List Arg) (w : World) (s : Settings) (mb ml : Option Nat) (pB pL p : Bytes)
    (hv : ViewsDemo args) (hs : Asked args s) (ht : .flag .text ∈ args)
    (hmb : lastInt .maxBytes args = optInt mb) (hml : lastInt .maxLines args = optInt ml)
    (hB : UnderBytes mb w.demo pB) (hL : UnderLines ml w.demo pL) (hp : p = if pB.length ≤ pL.length then pB else pL) (hbad : ¬ BadChunk p)
    (hsafe : bufferSize args < 0 ∨ (w.demo.length : Int) ≤ bufferSize args)
    (fuel : Nat) (hfuel : 4 * p.length < fuel) :
    (program fuel w args).status = some 0 ∧
      appears (program fuel w args).out =
        (inkLines (labelInk s) (textInk (inDemo s)) (lostAt s) (pieces p)).flatten ++ demoHintInk := by
  have hd := fileEvents_delivered (s := inDemo s) (data := w.demo) (by rw [← hmb, ← hs.maxBytes]; rfl) (by rw [← hml, ← hs.maxLines]; rfl) hB hL
  have hpre := limits_prefix hB hL
  rw [← hp] at hd hpre
  obtain ⟨h1, h2⟩ := demo_readable hv hs hd hpre hbad hsafe
  have htext : (inDemo s).text = true := hs.text.2 ht
  have hbin : (inDemo s).binary = false := by
    cases h : (inDemo s).binary with
    | false => rfl
    | true => exact absurd .textBinary (hv.wellFormed.compatible _ ht _ (hs.binary.1 h))
  have hm : (inDemo s).readMode.1 = .text := by
    unfold Settings.readMode
    rw [htext, hbin]
    rfl
  obtain ⟨out, st, e1, e2⟩ := inkComplete hm w.term (fileEvents_complete (inDemo s) w.demo) h2 (fuel := fuel) (by rw [hd]; exact hfuel)
  rw [program_demo hv hs e1]
  refine ⟨rfl, ?_⟩
  have := (e2.append demoHint_shows).appears
  simp only [List.append_assoc] at this ⊢
  rw [this]
  have r := (safe_chunks h1).ink_eq (inDemo s)
  rw [show ((fileEvents (inDemo s) w.demo).map (·.data)).flatten = p from hd] at r
  congr 1
  exact congrArg List.flatten r.symm

/-- Not vacuous: the file that is bundled with the application, with `--demo` alone. -/
example : ViewsDemo [.flag .demo] ∧ (∃ s, Asked [.flag .demo] s ∧ ¬ BadChunk demoFile) ∧ demoFile.length = 640 ∧
    bufferSize [.flag .demo] = 4096 ∧ (lastInt .columns [.flag .demo]).getD 16 = 16 ∧ UnderBytes none demoFile demoFile ∧ UnderLines none demoFile demoFile := by
  have hv : ViewsDemo [.flag .demo] := by
    refine ⟨⟨by intro o; cases o <;> decide, ?_, by decide⟩, by simp, by decide⟩
    intro a ha b hb he
    rw [List.mem_singleton.1 ha, List.mem_singleton.1 hb] at he
    exact absurd he.clash.1 (by decide)
  obtain ⟨s, -, h⟩ := (C55_settings [.flag .demo] (hv.only _ (by simp))).1 hv.wellFormed
  refine ⟨hv, ⟨s, h, fun hb => ?_⟩, by decide +kernel, rfl, rfl, rfl, rfl⟩
  exact absurd ((anyBad_iff _).2 hb) (by decide +kernel)

end Kolombos
