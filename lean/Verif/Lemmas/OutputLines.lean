import Verif.Props.Output
/-
The calls of `print` without debug messages: the lines of the display, and the separator in them.
-/
set_option linter.unusedSimpArgs false

namespace Kolombos
open Spec

theorem OneLine.ne_nil {t : Str} (h : OneLine t) : t ≠ [] := by
  rintro rfl
  obtain ⟨v, st, h, -⟩ := h
  have := h.appears
  simp [appears, Term.run] at this

theorem printsOf_lines {debug : Nat} {evs : List Ev} (h : ∀ e ∈ evs, EvFine OneLine e) : printsOf debug evs = printedTexts debug evs := by
  unfold printsOf
  induction evs with
  | nil => rfl
  | cons e evs ih =>
    have ih := ih fun e he => h e (by simp [he])
    have he := h e (by simp)
    rw [List.map_cons, List.filter_cons, ih]
    cases e with
    | out t =>
      have : t ≠ [] := OneLine.ne_nil he
      simp [Ev.printed, printedTexts, this]
    | dbg l t =>
      obtain ⟨-, u, rfl, -⟩ := he
      by_cases hl : debug < l <;> simp [Ev.printed, printedTexts, hl]

theorem printedTexts_quiet {P : Str → Prop} {evs : List Ev} (h : ∀ e ∈ evs, EvFine P e) : printedTexts 0 evs = outTexts evs := by
  induction evs with
  | nil => rfl
  | cons e evs ih =>
    have ih := ih fun e he => h e (by simp [he])
    unfold printedTexts outTexts at ih ⊢
    rw [List.filterMap_cons, List.filterMap_cons, ih]
    cases e with
    | out t => rfl
    | dbg l t =>
      have : 1 ≤ l := (h (.dbg l t) (by simp)).1.1
      simp only
      rw [if_pos (by omega)]

theorem mem_printsOf_quiet {P : Str → Prop} {evs : List Ev} (h : ∀ e ∈ evs, EvFine P e) {t : Str} (ht : t ∈ printsOf 0 evs) : P t := by
  unfold printsOf at ht
  obtain ⟨h1, h2⟩ := List.mem_filter.1 ht
  obtain ⟨e, he, rfl⟩ := List.mem_map.1 h1
  have := h e he
  cases e with
  | out u => exact this
  | dbg l u =>
    have h3 : 1 ≤ l := this.1.1
    simp only [Ev.printed] at h2
    simp [show 0 < l by omega] at h2

namespace Debug

theorem byteIoTexts_eq (fuel : Nat) (s : Settings) (src : Source) (term wide : Nat → Int) (opened : Option Err) (io : List IoStep) :
    byteIoTexts fuel s src term wide opened io = printsOf s.debug (byteIoRun fuel s src term wide opened io).evs := by
  have ha : ∀ a b, printsOf s.debug (a ++ b) = printsOf s.debug a ++ printsOf s.debug b := by intro a b; simp [printsOf]
  unfold byteIoRun byteIoTexts
  cases opened with
  | some e =>
    simp only [Debug.read, Trace.log, Trace.fail, List.append_nil]
    rfl
  | none =>
    have := Debug.read_evs (Config.create s).settings src (Reader.chunkSize (Config.create s).settings.buffer (Config.create s).settings.debug)
      (Config.create s).settings.maxBytes (Config.create s).settings.maxLines (processChunk fuel (Config.create s) term wide) io ({} : State)
    simp only [Trace.log] at this ⊢
    rw [ha, this, ha]
    rfl

/-- Without debug messages nothing is printed before the input is read. -/
theorem byteIoHead_quiet {s : Settings} (hd : s.debug = 0) (src : Source) (wide : Nat → Int) : byteIoHead s src wide = [] := by
  unfold byteIoHead reinitEvents openingEvents printsOf
  rw [hd]
  rfl

theorem settingsEvents_quiet {s : Settings} (hd : s.debug = 0) (file : Option Str) (m : Settings → Option Str → Str) (wide : Nat → Int) :
    settingsEvents s file m wide = [] := by
  unfold settingsEvents settingsTable
  rw [if_neg (by omega)]
  rfl

theorem debugSettings_quiet {s : Settings} (hd : s.debug = 0) : debugSettings s = s := by
  unfold debugSettings
  rw [if_neg (by omega)]

theorem source_plain {d : Details} {demoName : Str} {s : Settings} {name : Option Str} (hdn : ∀ c ∈ demoName, isControlChar c = false)
    (hn : ∀ f, name = some f → ∀ c ∈ f, isControlChar c = false) : (source d demoName s name).Plain := by
  unfold source
  split
  · exact hdn
  · cases name with
    | none => trivial
    | some f =>
      simp only
      split
      · trivial
      · exact hn f rfl

/-! ### Every line has the separator -/

theorem binLoop_each {P : Str → Prop} (s : Settings) (cols req : Int) (closed : Bool) (hP : ∀ o n out, P (Kolombos.BinaryFormatter.row s cols o n out)) (n : Nat) :
    ∀ b off, AllEvs (EvFine P) (BinaryFormatter.loop s cols req closed n b off) := by
  induction n with
  | zero => intro b off; exact .nil _
  | succ n ih =>
    intro b off
    rw [BinaryFormatter.loop]
    refine .log ?_ (.bind (detachBytes_fine _ _ _ _) fun r _ => ?_)
    · simp only [List.mem_cons, List.not_mem_nil, or_false, forall_eq]
      exact write_fine binfmt_ours s (by decide) (((FineIn.text _ (by decide)).append (bold_fine (intStr_plain _))).append (FineIn.text _ (by decide))) _
    · split
      · exact .pure _
      · exact .pure _
      · refine .log ?_ (ih _ _)
        intro e he
        rcases List.mem_append.1 he with he | he
        · exact rowEvents_fine _ _ _ _ _ e he
        · rw [List.mem_singleton.1 he]; exact hP _ _ _

theorem binFormat_each {P : Str → Prop} (fuel : Nat) (s : Settings) (hP : ∀ cols o n out, P (Kolombos.BinaryFormatter.row s cols o n out))
    (hT : ∀ n, P (Console.formatTotalSize s n ++ ['\n'])) (term : Int) (closed : Bool) (b : SegmentBuffer) (off : Nat) :
    AllEvs (EvFine P) (BinaryFormatter.format fuel s term closed b off) := by
  unfold BinaryFormatter.format
  refine .log ?_ (.bind (binLoop_each _ _ _ _ (hP _) _ _ _) fun r _ => ?_)
  · split
    · simp only [List.mem_cons, List.not_mem_nil, or_false, forall_eq]
      exact write_fine binfmt_ours s (by decide) ((FineIn.text _ (by decide)).append (bold_fine (intStr_plain _))) _
    · simp
  · split
    · refine .log ?_ (.pure _)
      intro e he; rw [List.mem_singleton.1 he]; exact hT _
    · exact .pure _

theorem textLoop_each {P : Str → Prop} (s : Settings) (hP : ∀ k out, P (Kolombos.TextFormatter.line s k out)) (closed : Bool) (n : Nat) :
    ∀ b off k, AllEvs (EvFine P) (TextFormatter.loop s closed n b off k) := by
  induction n with
  | zero => intro b off k; exact .nil _
  | succ n ih =>
    intro b off k
    rw [TextFormatter.loop]
    refine .log ?_ (.bind (detachLine_fine _ _ _) fun r _ => ?_)
    · simp only [List.mem_cons, List.not_mem_nil, or_false, forall_eq]
      exact write_fine txtfmt_ours s (by decide) (FineIn.text _ (by decide)) _
    · split
      · exact .pure _
      · exact .pure _
      · refine .log ?_ (ih _ _ _)
        intro e he
        rcases List.mem_append.1 he with he | he
        · exact lineEvents_fine _ _ _ e he
        · rw [List.mem_singleton.1 he]; exact hP _ _

theorem textFormat_each {P : Str → Prop} (s : Settings) (hP : ∀ k out, P (Kolombos.TextFormatter.line s k out)) (closed : Bool) (fuel : Nat) (b : SegmentBuffer) (off k : Nat) :
    AllEvs (EvFine P) (TextFormatter.format s closed fuel b off k) := by
  unfold TextFormatter.format
  refine .bind (textLoop_each s hP _ _ _ _ _) fun r _ => .log ?_ (.pure _)
  split
  · simp only [List.mem_cons, List.not_mem_nil, or_false, forall_eq]
    exact write_fine txtfmt_ours s (by decide) (FineIn.text _ (by decide)) _
  · simp

/-- What holds for every row, total and line of the configuration holds for every write of the display. -/
theorem byteIoRun_each {P : Str → Prop} (fuel : Nat) (s : Settings) {src : Source} (hs : src.Plain) (term wide : Nat → Int) (opened : Option Err) (io : List IoStep)
    (hB : s.readMode.1 = .binary → (∀ cols o n out, P (Kolombos.BinaryFormatter.row s.readMode.2 cols o n out)) ∧ ∀ n, P (Console.formatTotalSize s.readMode.2 n ++ ['\n']))
    (hT : s.readMode.1 = .text → ∀ k out, P (Kolombos.TextFormatter.line s.readMode.2 k out)) :
    AllEvs (EvFine P) (byteIoRun fuel s src term wide opened io) := by
  have hc : ∀ st raw o f, AllEvs (EvFine P) (processChunk fuel (Config.create s) term wide st raw o f) := by
    intro st raw o f
    unfold processChunk
    refine .log (appendEvents_fine _ _ _ _) (.bind (parse_fine _ _ _ _ _) fun r _ => .bind ?_ fun st' _ => .log ?_ (.pure _))
    · unfold formatStep
      rw [config_mode, config_settings]
      cases hm : s.readMode.1 with
      | binary => exact .bind (binFormat_each _ _ (hB hm).1 (hB hm).2 _ _ _ _) fun r _ => .pure _
      | text => exact .bind (textFormat_each _ (hT hm) _ _ _ _ _) fun r _ => .pure _
    · simp only [List.mem_cons, List.not_mem_nil, or_false, forall_eq]
      exact write_fine runner_ours _ (by decide) (separatorLine_fine _ _ (by split <;> decide)) _
  unfold byteIoRun
  refine .log ?_ (read_fine _ hs _ _ _ _ (I := fun _ => True) (fun st raw o f _ => hc _ _ _ _) (fun _ _ _ _ _ _ => True.intro) _ _ True.intro)
  split
  · simp
  · simp only [List.mem_cons, List.not_mem_nil, or_false, forall_eq]
    exact write_fine runner_ours _ (by decide) (separatorLine_fine _ _ (by decide)) _

theorem mem_separator (s : Settings) : '│' ∈ Console.separator s := by
  unfold Console.separator span
  simp

theorem mem_dim0x {c : Char} (t : Str) (h : c ∈ t) : c ∈ Console.dim0x t := by
  induction t using Console.dim0x.induct with
  | case1 r ih =>
    rw [Console.dim0x]
    unfold span
    simp only [List.mem_cons, List.mem_append] at h ⊢
    rcases h with h | h | h
    · simp [h]
    · simp [h]
    · simp [ih h]
  | case2 x r hx ih =>
    rw [Console.dim0x]
    · rcases List.mem_cons.1 h with h | h
      · simp [h]
      · simp [ih h]
    · exact hx
  | case3 => cases h

theorem mem_prefix (s : Settings) (n : Nat) (f : Sgr) : '│' ∈ Console.formatPrefixWithOffset s n f := by
  unfold Console.formatPrefixWithOffset Console.formatPrefix
  exact mem_dim0x _ (List.mem_append_right _ (mem_separator s))

/-- Line numbers or offsets are shown. -/
def Numbered (s : Settings) : Prop := (s.readMode.1 = .text → s.noLineNumbers = false) ∧ (s.readMode.1 = .binary → s.noOffsets = false)

theorem byteIoRun_separator (fuel : Nat) {s : Settings} (h : Numbered s) {src : Source} (hs : src.Plain) (term wide : Nat → Int) (opened : Option Err) (io : List IoStep) :
    AllEvs (EvFine ('│' ∈ ·)) (byteIoRun fuel s src term wide opened io) := by
  obtain ⟨a, b, he⟩ := readMode_eq s
  refine byteIoRun_each fuel s hs term wide opened io (fun hm => ⟨fun cols o n out => ?_, fun n => ?_⟩) (fun hm k out => ?_)
  · have hp : s.readMode.2.printOffsets = true := by
      have := h.2 hm
      rw [he]; simp [Settings.printOffsets, this]
    unfold Kolombos.BinaryFormatter.row Console.offsetPrefix
    rw [if_pos hp]
    exact List.mem_append_left _ (List.mem_append_left _ (mem_prefix _ _ _))
  · exact List.mem_append_left _ (mem_prefix _ _ _)
  · have hp : s.readMode.2.noLineNumbers = false := by
      have := h.1 hm
      rw [he]; exact this
    unfold Kolombos.TextFormatter.line Console.linePrefix
    refine List.mem_append_left _ (List.mem_append_left _ ?_)
    split
    · unfold Console.formatPrefix
      exact mem_dim0x _ (List.mem_append_right _ (mem_separator _))
    · rw [if_neg (by rw [hp]; simp)]
      exact List.mem_append_right _ (mem_separator _)

end Debug

end Kolombos
