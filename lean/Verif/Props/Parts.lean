import Verif.Spec.Parts
import Verif.Props.Stdin
import Verif.Props.Keys
import Verif.Props.Text
import Verif.Props.Binary
/-
C107: files and standard input of any size, read in parts.
-/
set_option linter.unusedSimpArgs false

namespace Kolombos
open Spec

/-! ### The parts that are read -/

theorem takeParts_prefix {c x : Bytes} (h : x <+: c) (hc : c ≠ []) (cs : List Bytes) :
    takeParts x.length (c :: cs) = [x].filter (· ≠ []) := by
  cases x with
  | nil => rfl
  | cons b x =>
    have hl := h.length_le
    have ht : c.take (b :: x).length = b :: x := (List.prefix_iff_eq_take.1 h).symm
    rw [List.length_cons] at hl ht ⊢
    rw [takeParts, ht]
    have : x.length + 1 - c.length = 0 := by omega
    rw [this]
    cases cs <;> simp [takeParts]

theorem takeParts_whole {c : Bytes} (hc : c ≠ []) (n : Nat) (cs : List Bytes) :
    takeParts (c.length + n) (c :: cs) = c :: takeParts n cs := by
  cases c with
  | nil => exact absurd rfl hc
  | cons b c =>
    rw [List.length_cons, show c.length + 1 + n = (c.length + n) + 1 by omega, takeParts,
      List.take_of_length_le (by simp only [List.length_cons]; omega)]
    rw [List.length_cons, show c.length + n + 1 - (c.length + 1) = n by omega]

theorem cropLines_prefix (n : Int) (s : Bytes) : ∀ k, (Reader.cropLines n s k).1 <+: s := by
  induction s with
  | nil => intro k; exact List.prefix_rfl
  | cons b s ih =>
    intro k
    rw [Reader.cropLines]
    split
    · split
      · exact List.nil_prefix
      · exact List.cons_prefix_cons.2 ⟨rfl, ih _⟩
    · exact List.cons_prefix_cons.2 ⟨rfl, ih _⟩

theorem limitLines_prefix (ml : Option Int) (s : Bytes) (k : Nat) : (Reader.limitLines ml s k).1 <+: s := by
  unfold Reader.limitLines
  cases ml with
  | none => exact List.prefix_rfl
  | some n =>
    simp only
    split
    · exact cropLines_prefix _ _ _
    · exact List.prefix_rfl

theorem pyTake_prefix (n : Int) (s : Bytes) : pyTake n s <+: s := by
  unfold pyTake
  split <;> exact List.take_prefix _ _

/-- The chunks that are passed on, without empty ones, are the parts of the input as far as it is delivered. -/
theorem readEvents_parts (mb ml : Option Int) (cs : List Bytes) (h : ∀ c ∈ cs, c ≠ []) (offset lines : Nat) :
    ((readEvents mb ml (cs.map .data) offset lines).1.map (·.data)).filter (· ≠ []) =
      takeParts (delivered (readEvents mb ml (cs.map .data) offset lines).1).length cs := by
  induction cs generalizing offset lines with
  | nil => rfl
  | cons c cs ih =>
    have hc := h c (by simp)
    rw [List.map_cons, readEvents, if_neg hc]
    simp only
    by_cases h1 : Reader.bytesExceeded mb offset (Reader.limitLines ml c lines).1.length = true
    · simp only [h1, if_true]
      simp only [delivered, List.map_cons, List.map_nil, List.flatten_cons, List.flatten_nil, List.append_nil]
      exact (takeParts_prefix ((pyTake_prefix _ _).trans (limitLines_prefix ml c lines)) hc cs).symm
    · simp only [h1, Bool.false_eq_true, if_false]
      by_cases h2 : Reader.limitReached mb ml (offset + (Reader.limitLines ml c lines).1.length) (Reader.limitLines ml c lines).2 = true
      · simp only [h2, if_true]
        simp only [delivered, List.map_cons, List.map_nil, List.flatten_cons, List.flatten_nil, List.append_nil]
        rw [takeParts_prefix (limitLines_prefix ml c lines) hc cs]
        by_cases h3 : (Reader.limitLines ml c lines).1 = [] <;> simp [h3]
      · simp only [h2, Bool.false_eq_true, if_false]
        rw [limitLines_all h2]
        simp only [delivered, List.map_cons, List.flatten_cons, List.length_append]
        rw [takeParts_whole hc, List.filter_cons, if_pos (by simpa using hc)]
        congr 1
        exact ih (fun x hx => h x (by simp [hx])) _ _

theorem chunkPieces_filter (cs : List Bytes) : chunkPieces (cs.filter (· ≠ [])) = chunkPieces cs := by
  induction cs with
  | nil => rfl
  | cons c cs ih =>
    rw [List.filter_cons]
    by_cases hc : c = []
    · rw [if_neg (by simp [hc]), ih]
      subst hc
      rfl
    · rw [if_pos (by simpa using hc)]
      unfold chunkPieces at ih ⊢
      rw [List.flatMap_cons, List.flatMap_cons, ih]

theorem not_bad_nil : ¬ BadChunk [] := by
  rintro ⟨q, hq, -⟩
  simp [pieces_nil] at hq

theorem readable_parts {es : List ReadEvent} {ps : List Bytes} (h : (es.map (·.data)).filter (· ≠ []) = ps) (hp : ∀ c ∈ ps, ¬ BadChunk c) : Readable es := by
  intro e he
  by_cases hd : e.data = []
  · rw [hd]; exact not_bad_nil
  · exact hp _ (by rw [← h]; exact List.mem_filter.2 ⟨List.mem_map.2 ⟨e, he, rfl⟩, by simpa using hd⟩)

/-- A file that is read in parts. -/
theorem fileStepsAux_slices {n : Nat} (hn : 0 < n) : ∀ (k : Nat) (s : Bytes), s.length ≤ k →
    Reader.fileStepsAux n k s = (slices n ((s.length + n - 1) / n) s).map .data := by
  intro k
  induction k with
  | zero =>
    intro s hs
    have : s = [] := List.eq_nil_of_length_eq_zero (by omega)
    subst this
    have : (n - 1) / n = 0 := Nat.div_eq_of_lt (by omega)
    simp only [List.length_nil, Nat.zero_add, this]
    simp [Reader.fileStepsAux, slices, this]
  | succ k ih =>
    intro s hs
    cases s with
    | nil =>
      have : (n - 1) / n = 0 := Nat.div_eq_of_lt (by omega)
      simp only [List.length_nil, Nat.zero_add, this]
      simp [Reader.fileStepsAux, slices, this]
    | cons b s =>
      rw [Reader.fileStepsAux, ih _ (by simp only [List.length_drop, List.length_cons] at *; omega)]
      have hm : ((b :: s).length + n - 1) / n = (((b :: s).drop n).length + n - 1) / n + 1 := by
        rw [List.length_drop]
        by_cases hl : (b :: s).length ≤ n
        · have e1 : (b :: s).length - n = 0 := by omega
          rw [e1, Nat.div_eq_of_lt (show 0 + n - 1 < n by omega)]
          exact Nat.div_eq_of_lt_le (by simp only [List.length_cons] at *; omega) (by omega)
        · rw [← Nat.add_div_right _ hn]
          congr 1
          omega
      rw [hm]
      unfold slices
      rw [List.range_succ_eq_map, List.map_cons, List.map_cons, List.map_map, List.map_map, List.map_map]
      congr 1
      · simp [slice]
      · apply List.map_congr_left
        intro i _
        simp only [Function.comp, slice, List.drop_drop]
        rw [show i.succ * n = n + i * n by rw [Nat.succ_mul, Nat.add_comm]]

theorem slices_ne {n : Nat} (hn : 0 < n) (s : Bytes) : ∀ c ∈ slices n ((s.length + n - 1) / n) s, c ≠ [] := by
  intro c hc
  obtain ⟨i, hi, rfl⟩ := List.mem_map.1 hc
  rw [List.mem_range, Nat.lt_div_iff_mul_lt hn] at hi
  unfold slice
  intro h
  have := congrArg List.length h
  rw [List.length_take, List.length_drop, List.length_nil] at this
  omega

/-- The beginning of a file in parts is the beginning of the file, in parts. -/
theorem takeParts_slices {n : Nat} (hn : 0 < n) : ∀ (k : Nat) (p s : Bytes), p.length ≤ k → p <+: s →
    takeParts p.length (slices n ((s.length + n - 1) / n) s) = slices n ((p.length + n - 1) / n) p := by
  have unf : ∀ t : Bytes, t ≠ [] → slices n ((t.length + n - 1) / n) t = t.take n :: slices n (((t.drop n).length + n - 1) / n) (t.drop n) := by
    intro t ht
    have h1 := fileStepsAux_slices hn (t.length) t (Nat.le_refl _)
    cases t with
    | nil => exact absurd rfl ht
    | cons b t =>
      rw [List.length_cons, Reader.fileStepsAux, fileStepsAux_slices hn _ _ (by simp only [List.length_drop, List.length_cons]; omega)] at h1
      have inj : Function.Injective (IoStep.data) := fun a b h => by injection h
      refine (List.map_injective_iff.2 inj ?_).symm
      rw [List.map_cons]
      exact h1
  intro k
  induction k with
  | zero =>
    intro p s hp _
    have : p = [] := List.eq_nil_of_length_eq_zero (by omega)
    subst this
    have : (n - 1) / n = 0 := Nat.div_eq_of_lt (by omega)
    simp only [List.length_nil, Nat.zero_add, this]
    simp [takeParts, slices, this]
  | succ k ih =>
    intro p s hp hs
    cases p with
    | nil =>
      have : (n - 1) / n = 0 := Nat.div_eq_of_lt (by omega)
      simp only [List.length_nil, Nat.zero_add, this]
      simp [takeParts, slices, this]
    | cons b p =>
      have hne : s ≠ [] := by rintro rfl; simp at hs
      obtain ⟨t, rfl⟩ := hs
      rw [unf _ hne, unf (b :: p) (by simp)]
      rw [List.length_cons, takeParts, ← List.length_cons (a := b)]
      by_cases hl : n ≤ (b :: p).length
      · congr 1
        · rw [List.take_take, List.take_append_of_le_length (by omega), Nat.min_eq_right hl]
        · have e : (b :: p).length - ((b :: p ++ t).take n).length = ((b :: p).drop n).length := by
            rw [List.length_take, List.length_drop, List.length_append]; omega
          rw [e]
          refine ih _ _ (by simp only [List.length_drop, List.length_cons] at *; omega) ?_
          rw [List.drop_append_of_le_length hl]
          exact List.prefix_append _ _
      · have e1 : (b :: p).drop n = [] := List.drop_of_length_le (by omega)
        have e2 : (b :: p).take n = b :: p := List.take_of_length_le (by omega)
        have e3 : (b :: p).length - ((b :: p ++ t).take n).length = 0 := by
          rw [List.length_take, List.length_append]; omega
        rw [e1, e2, e3, List.take_take, Nat.min_eq_left (by omega), List.take_left]
        congr 1
        have : (n - 1) / n = 0 := Nat.div_eq_of_lt (by omega)
        simp only [List.length_nil, Nat.zero_add, this]
        simp [takeParts, slices]

theorem fileEvents_parts {s : Settings} {data p : Bytes} (hd : delivered (fileEvents s data) = p) (hp : p <+: data) :
    ((fileEvents s data).map (·.data)).filter (· ≠ []) = (partsOf (Reader.chunkSize s.buffer s.debug) p).filter (· ≠ []) := by
  have hz := chunkSize_ne s.buffer s.debug
  unfold fileEvents at hd ⊢
  generalize Reader.chunkSize s.buffer s.debug = B at *
  unfold partsOf
  by_cases hB : B < 0
  · rw [if_pos hB]
    rw [fileSteps_one data (.inl hB)] at hd ⊢
    by_cases h0 : data = []
    · subst h0
      have : p = [] := List.prefix_nil.1 hp
      subst this
      rfl
    · rw [if_neg h0] at hd ⊢
      have := readEvents_parts s.maxBytes s.maxLines [data] (by simpa using h0) 0 0
      simp only [List.map_cons, List.map_nil] at this
      rw [this, hd, takeParts_prefix hp h0]
  · rw [if_neg hB]
    have hn : 0 < B.toNat := by omega
    have e : Reader.fileSteps B data = (slices B.toNat ((data.length + B.toNat - 1) / B.toNat) data).map .data := by
      unfold Reader.fileSteps
      rw [if_neg hB, fileStepsAux_slices hn _ _ (Nat.le_refl _)]
    rw [e] at hd ⊢
    rw [readEvents_parts _ _ _ (slices_ne hn data), hd, takeParts_slices hn _ _ _ (Nat.le_refl _) hp,
      List.filter_eq_self.2 fun c hc => by simpa using slices_ne hn p c hc]

theorem fileEvents_run {s : Settings} {data p : Bytes} {args : List Arg} (hs : Asked args s) (hdeb : .debug ∉ args)
    (hd : delivered (fileEvents s data) = p) (hp : p <+: data) :
    ((fileEvents s data).map (·.data)).filter (· ≠ []) = (partsOf (bufferSize args) p).filter (· ≠ []) := by
  rw [fileEvents_parts hd hp, bufferSize_eq hs hdeb]

theorem ioEvents_parts {s : Settings} {cs : List Bytes} {p : Bytes} (hne : ∀ c ∈ cs, c ≠ []) (hd : delivered (ioEvents s (cs.map .data)) = p) :
    ((ioEvents s (cs.map .data)).map (·.data)).filter (· ≠ []) = takeParts p.length cs := by
  unfold ioEvents at hd ⊢
  rw [readEvents_parts _ _ _ hne, hd]

/-! ### From the calls of the reader to the end of the process -/

/-- How the process ends after the input has been read and processed. -/
def ending (r : Run State) : Exit :=
  match r.res with
  | .ok _ => ⟨r.out ++ ['\n'], some 0⟩
  | .err .keyboardInterrupt => ⟨r.out ++ ['\n'], some 0⟩
  | .err _ => ⟨r.out ++ errorHint ++ ['\n'], some 1⟩
  | .timeout => ⟨r.out, none⟩

theorem byteIoRun_ending {fuel : Nat} {t : Settings} {term : Nat → Int} {io : List IoStep} (hio : NoRaise io) :
    (match (byteIoRun fuel t term none io).res with
      | .ok _ => (⟨(byteIoRun fuel t term none io).out ++ ['\n'], some 0⟩ : Exit)
      | .err _ => ⟨(byteIoRun fuel t term none io).out ++ errorHint ++ ['\n'], some 1⟩
      | .timeout => ⟨(byteIoRun fuel t term none io).out, none⟩) = ending (session fuel t term (ioEvents t io)) := by
  obtain ⟨a, b, hset⟩ := readMode_eq t
  have hcs : (Config.create t).settings = t.readMode.2 := config_settings _
  have hmb : (Config.create t).settings.maxBytes = t.maxBytes := by rw [hcs, hset]
  have hml : (Config.create t).settings.maxLines = t.maxLines := by rw [hcs, hset]
  unfold byteIoRun Reader.read
  simp only [hmb, hml]
  rw [loop_play, playAll, readEvents_noRaise hio]
  simp only [bind_pure]
  have h : playEvents (processChunk fuel (Config.create t) term) (readEvents t.maxBytes t.maxLines io 0 0).1 {} = session fuel t term (ioEvents t io) := rfl
  rw [h]
  generalize session fuel t term (ioEvents t io) = r
  obtain ⟨out, res⟩ := r
  cases res with
  | ok st => rfl
  | timeout => rfl
  | err e => cases e <;> rfl

/-- The settings of a command line that asks to display a file or standard input. -/
theorem parse_views {args : List Arg} {s : Settings} (hw : WellFormed args)
    (only : ∀ a ∈ [Arg.help, .debug, .flag .demo, .flag .legend, .flag .version], a ∉ args) (hs : Asked args s) :
    parseArgs args = .run s (fileNames args).head? ∧ s.demo = false ∧ s.legend = false ∧ s.version = false ∧ s.debug = 0 := by
  obtain ⟨t, e1, e2⟩ := (C55_settings args (only _ (by simp))).1 hw
  have := settings_ext e2 hs
  subst this
  refine ⟨e1, ?_, ?_, ?_, ?_⟩
  · have := hs.demo; have := only (.flag .demo) (by simp)
    simp_all
  · have := hs.legend; have := only (.flag .legend) (by simp)
    simp_all
  · have := hs.version; have := only (.flag .version) (by simp)
    simp_all
  · rw [hs.debug, List.count_eq_zero]; exact only _ (by simp)

theorem program_ending {args : List Arg} {w : World} {s : Settings} (hw : WellFormed args)
    (only : ∀ a ∈ [Arg.help, .debug, .flag .demo, .flag .legend, .flag .version], a ∉ args) (hs : Asked args s) {io : List IoStep}
    (ho : w.open s (fileNames args).head? = (none, io)) (hio : NoRaise io) (fuel : Nat) :
    program fuel w args = ending (session fuel s w.term (ioEvents s io)) := by
  obtain ⟨e1, hdem, hleg, hver, hdeb⟩ := parse_views hw only hs
  have hds : debugSettings s = s := by unfold debugSettings; rw [if_neg (by omega)]
  unfold program
  rw [e1]
  simp only
  rw [ho]
  unfold appRun Runner.create
  simp only [hds, hleg, hver, hdem, Bool.false_eq_true, if_false]
  exact byteIoRun_ending hio

theorem program_fileEnding {args : List Arg} {w : World} {name : Str} {data : Bytes} {s : Settings} (hv : Views args name) (hs : Asked args s)
    (hf : w.file name = .ok data) (fuel : Nat) : program fuel w args = ending (session fuel s w.term (fileEvents s data)) := by
  refine program_ending hv.wellFormed hv.only hs ?_ (fileSteps_noRaise _ _) fuel
  obtain ⟨-, hdem, -⟩ := parse_views hv.wellFormed hv.only hs
  unfold World.open
  rw [hdem, hv.file]
  simp only [List.head?_cons, Bool.false_eq_true, if_false, hv.named.1, hv.named.2, or_self, hf]

theorem program_stdinEnding {args : List Arg} {w : World} {s : Settings} (hv : ViewsStdin args) (hs : Asked args s) (hio : NoRaise w.stdin)
    (fuel : Nat) : program fuel w args = ending (session fuel s w.term (ioEvents s w.stdin)) := by
  refine program_ending hv.wellFormed hv.only hs ?_ hio fuel
  obtain ⟨-, hdem, -⟩ := parse_views hv.wellFormed hv.only hs
  unfold World.open
  rw [hdem]
  rcases hv.file with h | h | h <;> rw [h] <;> simp

theorem asked_text {args : List Arg} {s : Settings} (hs : Asked args s) (hb : .flag .binary ∉ args) : s.readMode.1 = .text := by
  have hbin : s.binary = false := by
    have := hs.binary
    simp_all
  unfold Settings.readMode
  rw [hbin, hs.mode]
  cases s.text <;> rfl

theorem asked_binary {args : List Arg} {s : Settings} (hw : WellFormed args) (hs : Asked args s) (hb : .flag .binary ∈ args) : s.readMode.1 = .binary := by
  have hbin : s.binary = true := hs.binary.2 hb
  have htext : s.text = false := by
    cases h : s.text with
    | false => rfl
    | true => exact absurd .textBinary (hw.compatible _ (hs.text.1 h) _ hb)
  unfold Settings.readMode
  rw [hbin, htext]
  rfl

/-- The number of columns is the same in every step. -/
theorem rows_cols {args : List Arg} {s : Settings} {w : World} (hs : Asked args s) {c : Int} (hc : RowsOf args w c) :
    ∀ k off, BinaryFormatter.curCols s (w.term k) off = c := by
  intro k off
  unfold BinaryFormatter.curCols
  rw [hs.columns]
  rcases hc with h | ⟨h, W, hW, rfl⟩
  · rw [h]
  · rw [h]
    have hd : decide (Arg.flag .decimalOffsets ∈ args) = s.decimalOffsets := by
      have := hs.decimalOffsets
      cases hx : s.decimalOffsets <;> simp_all
    simp only [BinaryFormatter.computeCols, prefix_length, terminalWidth, hW, autoColumns, hd]
    cases s.decimalOffsets <;> simp <;> omega

/-- What is displayed in text mode if every part can be. -/
theorem text_parts {s : Settings} (hm : s.readMode.1 = .text) (term : Nat → Int) {es : List ReadEvent} (hco : Complete es) {ps : List Bytes}
    (he : (es.map (·.data)).filter (· ≠ []) = ps.filter (· ≠ [])) (hg : ∀ c ∈ ps, ¬ BadChunk c) {fuel : Nat} (hf : 4 * (delivered es).length < fuel) :
    (ending (session fuel s term es)).status = some 0 ∧
      appears (ending (session fuel s term es)).out =
        (inkLines (labelInk s) (textInk s) (lostAt s) (chunkPieces ps)).flatten ++ [('\n', ({} : Style))] := by
  have hr := readable_parts he fun c hc => hg c (List.mem_filter.1 hc).1
  obtain ⟨out, st, e1, e2⟩ := inkComplete hm term hco hr hf
  rw [e1]
  refine ⟨rfl, ?_⟩
  have := (e2.append (Shows.text {} (s := ['\n']) (by decide))).appears
  have hp : runPieces es = chunkPieces ps := by
    unfold runPieces
    rw [← chunkPieces_filter, he, chunkPieces_filter]
  rw [hp] at this
  exact this

/-- The same in binary mode. -/
theorem binary_parts {s : Settings} (hm : s.readMode.1 = .binary) {term : Nat → Int} {c : Nat} (hc : 0 < c)
    (hcols : ∀ k off, BinaryFormatter.curCols s (term k) off = c) {es : List ReadEvent} (hco : Complete es) {ps : List Bytes}
    (he : (es.map (·.data)).filter (· ≠ []) = ps.filter (· ≠ [])) (hg : ∀ c ∈ ps, ¬ BadChunk c) {fuel : Nat} (hf : (delivered es).length < fuel) :
    (ending (session fuel s term es)).status = some 0 ∧
      ((linesOf (visible (ending (session fuel s term es)).out)).flatMap fun l => readBytes (l.drop (if offsetsShown s then 9 else 0))) = delivered es ∧
      ∃ cells : List Cell,
        cells.map Cell.byte = delivered es ∧ cells.map Cell.shown = (chunkPieces ps).flatMap (binInk s) ∧
        appears (ending (session fuel s term es)).out = rowsView s c cells ++ [('\n', ({} : Style))] := by
  have hr := readable_parts he fun c hc => hg c (List.mem_filter.1 hc).1
  obtain ⟨out, st, e1, -, e2⟩ := binComplete hm hc hcols hco hr hf
  obtain ⟨out', st', e1', e3⟩ := C18_hex s hm term c hc hcols _ hco hr fuel hf
  rw [e1] at e1'
  simp only [Run.mk.injEq, Res.ok.injEq] at e1'
  obtain ⟨rfl, -⟩ := e1'
  rw [e1]
  refine ⟨rfl, ?_, allCells s es, allCells_byte hm es, ?_, ?_⟩
  · rw [← e3]
    simp only [ending]
    have hvis : visible (out ++ ['\n']) = visible out ++ ['\n'] := by
      rw [(e2.append (Shows.text {} (s := ['\n']) (by decide))).visible, e2.visible, List.map_append]
      rfl
    rw [hvis]
    rcases linesOf_nl (visible out) with h | h
    · rw [h]
    · rw [h, List.flatMap_append]
      simp [readBytes]
  · rw [allCells_shown hm hr]
    have hp : runPieces es = chunkPieces ps := by
      unfold runPieces
      rw [← chunkPieces_filter, he, chunkPieces_filter]
    rw [hp]
  · have := (e2.append (Shows.text {} (s := ['\n']) (by decide))).appears
    rw [← allCells_length hm, rowsView_eq] at this
    exact this

/-- The calls before the one for the part `b`. -/
theorem events_split {es : List ReadEvent} {good rest : List Bytes} {b : Bytes} (hco : Complete es)
    (h : (es.map (·.data)).filter (· ≠ []) = good ++ b :: rest) :
    ∃ A e B, es = A ++ e :: B ∧ e.data = b ∧ (A.map (·.data)).filter (· ≠ []) = good ∧ delivered A = good.flatten ∧ Unfinished A := by
  have key : ∀ (es : List ReadEvent) (good : List Bytes), (es.map (·.data)).filter (· ≠ []) = good ++ b :: rest →
      ∃ A e B, es = A ++ e :: B ∧ e.data = b ∧ (A.map (·.data)).filter (· ≠ []) = good ∧ delivered A = good.flatten := by
    intro es
    induction es with
    | nil => intro good h; simp at h
    | cons e es ih =>
      intro good h
      rw [List.map_cons, List.filter_cons] at h
      by_cases hd : e.data = []
      · rw [if_neg (by simp [hd])] at h
        obtain ⟨A, e', B, h1, h2, h3, h4⟩ := ih _ h
        refine ⟨e :: A, e', B, by rw [h1]; rfl, h2, ?_, ?_⟩
        · rw [List.map_cons, List.filter_cons, if_neg (by simp [hd])]; exact h3
        · rw [← h4]; simp [delivered, hd]
      · rw [if_pos (by simpa using hd)] at h
        cases good with
        | nil =>
          rw [List.nil_append] at h
          injection h with h1 h2
          exact ⟨[], e, es, rfl, h1, rfl, rfl⟩
        | cons g good =>
          rw [List.cons_append] at h
          injection h with h1 h2
          obtain ⟨A, e', B, k1, k2, k3, k4⟩ := ih _ h2
          refine ⟨e :: A, e', B, by rw [k1]; rfl, k2, ?_, ?_⟩
          · rw [List.map_cons, List.filter_cons, if_pos (by simpa using hd), k3, h1]
          · have : delivered (e :: A) = e.data ++ delivered A := rfl
            rw [this, k4, h1]; rfl
  obtain ⟨A, e, B, h1, h2, h3, h4⟩ := key es good h
  refine ⟨A, e, B, h1, h2, h3, h4, ?_⟩
  obtain ⟨a, z, k1, -, k3⟩ := hco
  intro x hx
  apply k3
  have hlen := congrArg List.length k1
  have : A <+: a := by
    have p1 : A <+: a ++ [z] := by rw [← k1, h1]; exact List.prefix_append _ _
    have p2 : a <+: a ++ [z] := List.prefix_append _ _
    exact List.prefix_of_prefix_length_le p1 p2 (by rw [h1] at hlen; simp at hlen; omega)
  exact this.subset hx

/-- A part that cannot be displayed ends the process. -/
theorem session_fails {s : Settings} {fuel : Nat} {term : Nat → Int} {A B : List ReadEvent} {e : ReadEvent} (hb : BadChunk e.data) {out : Str} {st : State}
    (h : session fuel s term A = ⟨out, .ok st⟩) : ending (session fuel s term (A ++ e :: B)) = ⟨out ++ errorHint ++ ['\n'], some 1⟩ := by
  have hbad := (C09_errors s fuel term A out st h e.data e.offset e.finish)
  obtain ⟨e1, he1⟩ := hbad.1.2 hb
  obtain ⟨he2, he3⟩ := hbad.2 e1 he1
  subst he2
  have happ : ∀ (l : List ReadEvent) (st0 : State), playEvents (processChunk fuel (Config.create s) term) (l ++ e :: B) st0 =
      (playEvents (processChunk fuel (Config.create s) term) l st0).bind fun st' => playEvents (processChunk fuel (Config.create s) term) (e :: B) st' := by
    intro l
    induction l with
    | nil => intro st0; rw [List.nil_append]; rfl
    | cons x l ih =>
      intro st0
      rw [List.cons_append, playEvents.eq_2, playEvents.eq_2, bind_assoc]
      simp only [ih]
  unfold session at h ⊢
  rw [happ, h]
  simp only [playEvents, Run.bind]
  rw [he1, he3]
  simp [ending]

/-! ### C107 -/

/-- C107, files in text mode: whatever the size of the file and of the buffer, if none of the parts of `p`
has a malformed SGR sequence, the status is 0 and the terminal shows the lines of the pieces of the parts, each part
taken by itself, and an empty line. -/
theorem C107_text (args : List Arg) (w : World) (name : Str) (data : Bytes) (s : Settings) (mb ml : Option Nat) (pB pL p : Bytes)
    (hv : Views args name) (hs : Asked args s) (hb : .flag .binary ∉ args) (hf : w.file name = .ok data)
    (hmb : lastInt .maxBytes args = optInt mb) (hml : lastInt .maxLines args = optInt ml)
    (hB : UnderBytes mb data pB) (hL : UnderLines ml data pL) (hp : p = if pB.length ≤ pL.length then pB else pL)
    (hgood : ∀ c ∈ partsOf (bufferSize args) p, ¬ BadChunk c) (fuel : Nat) (hfuel : 4 * p.length < fuel) :
    (program fuel w args).status = some 0 ∧
      appears (program fuel w args).out =
        (inkLines (labelInk s) (textInk s) (lostAt s) ((partsOf (bufferSize args) p).flatMap pieces)).flatten ++ [('\n', ({} : Style))] := by
  have hd := fileEvents_delivered (s := s) (data := data) (by rw [hs.maxBytes, hmb]) (by rw [hs.maxLines, hml]) hB hL
  have hpre := limits_prefix hB hL
  rw [← hp] at hd hpre
  rw [program_fileEnding hv hs hf]
  exact text_parts (asked_text hs hb) w.term (fileEvents_complete s data) (fileEvents_run hs (hv.only _ (by simp)) hd hpre) hgood (by rw [hd]; exact hfuel)

/-- C107, files in binary mode with a positive number of columns, given or computed from the width of the terminal:
the hexadecimal columns give back exactly `p` whatever the size of the buffer; the characters beside them are those
of the pieces of the parts. -/
theorem C107_binary (args : List Arg) (w : World) (name : Str) (data : Bytes) (s : Settings) (mb ml : Option Nat) (pB pL p : Bytes)
    (hv : Views args name) (hs : Asked args s) (hb : .flag .binary ∈ args) (hf : w.file name = .ok data)
    (c : Nat) (hc : 0 < c) (hcols : RowsOf args w c)
    (hmb : lastInt .maxBytes args = optInt mb) (hml : lastInt .maxLines args = optInt ml)
    (hB : UnderBytes mb data pB) (hL : UnderLines ml data pL) (hp : p = if pB.length ≤ pL.length then pB else pL)
    (hgood : ∀ c ∈ partsOf (bufferSize args) p, ¬ BadChunk c) (fuel : Nat) (hfuel : p.length < fuel) :
    (program fuel w args).status = some 0 ∧
      ((linesOf (visible (program fuel w args).out)).flatMap fun l => readBytes (l.drop (if offsetsShown s then 9 else 0))) = p ∧
      ∃ cells : List Cell,
        cells.map Cell.byte = p ∧ cells.map Cell.shown = ((partsOf (bufferSize args) p).flatMap pieces).flatMap (binInk s) ∧
        appears (program fuel w args).out = rowsView s c cells ++ [('\n', ({} : Style))] := by
  have hd := fileEvents_delivered (s := s) (data := data) (by rw [hs.maxBytes, hmb]) (by rw [hs.maxLines, hml]) hB hL
  have hpre := limits_prefix hB hL
  rw [← hp] at hd hpre
  rw [program_fileEnding hv hs hf]
  have := binary_parts (asked_binary hv.wellFormed hs hb) hc (rows_cols hs hcols) (fileEvents_complete s data)
    (fileEvents_run hs (hv.only _ (by simp)) hd hpre) hgood (fuel := fuel) (by rw [hd]; exact hfuel)
  rw [hd] at this
  exact this

theorem contentOf_flatten {cs : List Bytes} (hne : ∀ c ∈ cs, c ≠ []) : contentOf (cs.map .data) = cs.flatten := by
  induction cs with
  | nil => rfl
  | cons c cs ih =>
    cases c with
    | nil => exact absurd rfl (hne [] (by simp))
    | cons b c => rw [List.map_cons, contentOf, ih fun x hx => hne x (by simp [hx])]; rfl

theorem ioEvents_run {args : List Arg} {cs : List Bytes} {s : Settings} {mb ml : Option Nat} {pB pL p : Bytes} (hs : Asked args s) (hne : ∀ c ∈ cs, c ≠ [])
    (hmb : lastInt .maxBytes args = optInt mb) (hml : lastInt .maxLines args = optInt ml)
    (hB : UnderBytes mb cs.flatten pB) (hL : UnderLines ml cs.flatten pL) (hp : p = if pB.length ≤ pL.length then pB else pL) :
    delivered (ioEvents s (cs.map .data)) = p ∧
      ((ioEvents s (cs.map .data)).map (·.data)).filter (· ≠ []) = (takeParts p.length cs).filter (· ≠ []) := by
  have hcont := contentOf_flatten hne
  have hd := ioEvents_delivered (s := s) (noRaise_data cs) (by rw [hs.maxBytes, hmb]) (by rw [hs.maxLines, hml])
    (by rw [hcont]; exact hB) (by rw [hcont]; exact hL)
  rw [← hp] at hd
  refine ⟨hd, ?_⟩
  have h := ioEvents_parts (s := s) hne hd
  rw [← h, List.filter_filter]
  simp

/-- C107 for standard input, text mode: the parts are those in which the bytes arrive. -/
theorem C107_stdin_text (args : List Arg) (w : World) (cs : List Bytes) (s : Settings) (mb ml : Option Nat) (pB pL p : Bytes)
    (hv : ViewsStdin args) (hs : Asked args s) (hb : .flag .binary ∉ args) (hw : w.stdin = cs.map .data) (hne : ∀ c ∈ cs, c ≠ [])
    (hmb : lastInt .maxBytes args = optInt mb) (hml : lastInt .maxLines args = optInt ml)
    (hB : UnderBytes mb cs.flatten pB) (hL : UnderLines ml cs.flatten pL) (hp : p = if pB.length ≤ pL.length then pB else pL)
    (hgood : ∀ c ∈ takeParts p.length cs, ¬ BadChunk c) (fuel : Nat) (hfuel : 4 * p.length < fuel) :
    (program fuel w args).status = some 0 ∧
      appears (program fuel w args).out =
        (inkLines (labelInk s) (textInk s) (lostAt s) ((takeParts p.length cs).flatMap pieces)).flatten ++ [('\n', ({} : Style))] := by
  obtain ⟨hd, he⟩ := ioEvents_run hs hne hmb hml hB hL hp
  rw [program_stdinEnding hv hs (by rw [hw]; exact noRaise_data cs), hw]
  exact text_parts (asked_text hs hb) w.term (ioEvents_complete s (noRaise_data cs)) he hgood (by rw [hd]; exact hfuel)

/-- C107 for standard input, binary mode. -/
theorem C107_stdin_binary (args : List Arg) (w : World) (cs : List Bytes) (s : Settings) (mb ml : Option Nat) (pB pL p : Bytes)
    (hv : ViewsStdin args) (hs : Asked args s) (hb : .flag .binary ∈ args) (hw : w.stdin = cs.map .data) (hne : ∀ c ∈ cs, c ≠ [])
    (c : Nat) (hc : 0 < c) (hcols : RowsOf args w c)
    (hmb : lastInt .maxBytes args = optInt mb) (hml : lastInt .maxLines args = optInt ml)
    (hB : UnderBytes mb cs.flatten pB) (hL : UnderLines ml cs.flatten pL) (hp : p = if pB.length ≤ pL.length then pB else pL)
    (hgood : ∀ c ∈ takeParts p.length cs, ¬ BadChunk c) (fuel : Nat) (hfuel : p.length < fuel) :
    (program fuel w args).status = some 0 ∧
      ((linesOf (visible (program fuel w args).out)).flatMap fun l => readBytes (l.drop (if offsetsShown s then 9 else 0))) = p ∧
      ∃ cells : List Cell,
        cells.map Cell.byte = p ∧ cells.map Cell.shown = ((takeParts p.length cs).flatMap pieces).flatMap (binInk s) ∧
        appears (program fuel w args).out = rowsView s c cells ++ [('\n', ({} : Style))] := by
  obtain ⟨hd, he⟩ := ioEvents_run hs hne hmb hml hB hL hp
  rw [program_stdinEnding hv hs (by rw [hw]; exact noRaise_data cs), hw]
  have := binary_parts (asked_binary hv.wellFormed hs hb) hc (rows_cols hs hcols) (ioEvents_complete s (noRaise_data cs)) he hgood
    (fuel := fuel) (by rw [hd]; exact hfuel)
  rw [hd] at this
  exact this

theorem run_flatten {ls : List Str} (h : ∀ l ∈ ls, (Term.run {} l).1 = {}) : (Term.run {} ls.flatten).1 = {} := by
  induction ls with
  | nil => rfl
  | cons l ls ih =>
    have happ : ∀ (a b : Str) (t : Term), (Term.run t (a ++ b)).1 = (Term.run (Term.run t a).1 b).1 := by
      intro a b
      induction a with
      | nil => intro t; rfl
      | cons x a iha => intro t; simp only [List.cons_append, Term.run, iha]
    rw [List.flatten_cons, happ, h l (by simp)]
    exact ih fun x hx => h x (by simp [hx])

theorem filter_mid {ps good rest : List Bytes} {b : Bytes} (h : ps = good ++ b :: rest) (hb : b ≠ []) :
    ps.filter (· ≠ []) = good.filter (· ≠ []) ++ b :: rest.filter (· ≠ []) := by
  rw [h, List.filter_append, List.filter_cons, if_pos (by simpa using hb)]

theorem flatten_filter (cs : List Bytes) : (cs.filter (· ≠ [])).flatten = cs.flatten := by
  induction cs with
  | nil => rfl
  | cons c cs ih =>
    rw [List.filter_cons]
    by_cases hc : c = []
    · rw [if_neg (by simp [hc]), ih, hc]; rfl
    · rw [if_pos (by simpa using hc), List.flatten_cons, List.flatten_cons, ih]

/-- What is displayed in text mode up to a part that cannot be. -/
theorem text_fails {s : Settings} (hm : s.readMode.1 = .text) (term : Nat → Int) {es : List ReadEvent} (hco : Complete es) {ps good rest : List Bytes} {b : Bytes}
    (he : (es.map (·.data)).filter (· ≠ []) = ps.filter (· ≠ [])) (hps : ps = good ++ b :: rest) (hg : ∀ c ∈ good, ¬ BadChunk c) (hb : BadChunk b)
    {fuel : Nat} (hf : 4 * (delivered es).length < fuel) :
    ∃ shown, ending (session fuel s term es) = ⟨shown ++ errorHint ++ ['\n'], some 1⟩ ∧ (Term.run {} shown).1 = {} ∧
      linesOf (visible shown) = (pieceLines (good.flatMap pieces)).1.mapIdx fun i l => lineLabel s (i + 1) ++ glyphsAll s l := by
  rw [filter_mid hps (fun h => not_bad_nil (h ▸ hb))] at he
  obtain ⟨A, e, B, rfl, h2, h3, h4, h5⟩ := events_split hco he
  have hr : Readable A := readable_parts h3 fun c hc => hg c (List.mem_filter.1 hc).1
  have hlen : 4 * (delivered A).length < fuel := by
    have : (delivered (A ++ e :: B)).length = (delivered A).length + (delivered (e :: B)).length := by simp [delivered]
    omega
  obtain ⟨out, st, k1, -, k2⟩ := C27_prompt s hm term A h5 hr fuel hlen
  obtain ⟨out', st', lines, k3, k4, k5⟩ := C13_text s hm term A (.inr h5) hr fuel hlen
  rw [k1] at k3
  simp only [Run.mk.injEq, Res.ok.injEq] at k3
  obtain ⟨rfl, -⟩ := k3
  refine ⟨out, session_fails (by rw [h2]; exact hb) k1, ?_, ?_⟩
  · rw [k4]
    exact run_flatten fun l hl => (k5 l hl).1
  · rw [k2, ← chunkPieces_filter, h3, chunkPieces_filter]
    rfl

/-- The same in binary mode. -/
theorem binary_fails {s : Settings} (hm : s.readMode.1 = .binary) {term : Nat → Int} {c : Nat} (hc : 0 < c)
    (hcols : ∀ k off, BinaryFormatter.curCols s (term k) off = c) {es : List ReadEvent} (hco : Complete es) {ps good rest : List Bytes} {b : Bytes}
    (he : (es.map (·.data)).filter (· ≠ []) = ps.filter (· ≠ [])) (hps : ps = good ++ b :: rest) (hg : ∀ c ∈ good, ¬ BadChunk c) (hb : BadChunk b)
    {fuel : Nat} (hf : (delivered es).length < fuel) :
    ∃ shown, ending (session fuel s term es) = ⟨shown ++ errorHint ++ ['\n'], some 1⟩ ∧ (Term.run {} shown).1 = {} ∧
      (linesOf (visible shown)).length = good.flatten.length / c ∧
      ((linesOf (visible shown)).flatMap fun l => readBytes (l.drop (if offsetsShown s then 9 else 0))) =
        good.flatten.take (good.flatten.length / c * c) := by
  rw [filter_mid hps (fun h => not_bad_nil (h ▸ hb))] at he
  obtain ⟨A, e, B, rfl, h2, h3, h4, h5⟩ := events_split hco he
  rw [flatten_filter] at h4
  have hr : Readable A := readable_parts h3 fun c hc => hg c (List.mem_filter.1 hc).1
  have hlen : (delivered A).length < fuel := by
    have : (delivered (A ++ e :: B)).length = (delivered A).length + (delivered (e :: B)).length := by simp [delivered]
    omega
  obtain ⟨out, st, k1, k2, k3, -⟩ := C21_held s hm term c hc hcols A h5 hr fuel hlen
  obtain ⟨out', st', k4, k5, -⟩ := C13_binary s hm term (fun k off => by rw [hcols]; omega) A (.inr h5) hr fuel hlen
  rw [k1] at k4
  simp only [Run.mk.injEq, Res.ok.injEq] at k4
  obtain ⟨rfl, -⟩ := k4
  rw [← h4]
  exact ⟨out, session_fails (by rw [h2]; exact hb) k1, k5, k2, k3⟩

/-- C107, text mode, a part with a malformed SGR sequence: the status is 1; shown are, besides the hint about `--debug`, the lines of
the parts before it that are complete, and the terminal is left in its default state. -/
theorem C107_text_fails (args : List Arg) (w : World) (name : Str) (data : Bytes) (s : Settings) (mb ml : Option Nat) (pB pL p : Bytes)
    (hv : Views args name) (hs : Asked args s) (hb : .flag .binary ∉ args) (hf : w.file name = .ok data)
    (hmb : lastInt .maxBytes args = optInt mb) (hml : lastInt .maxLines args = optInt ml)
    (hB : UnderBytes mb data pB) (hL : UnderLines ml data pL) (hp : p = if pB.length ≤ pL.length then pB else pL)
    (good rest : List Bytes) (b : Bytes) (hparts : partsOf (bufferSize args) p = good ++ b :: rest)
    (hgood : ∀ c ∈ good, ¬ BadChunk c) (hbad : BadChunk b) (fuel : Nat) (hfuel : 4 * p.length < fuel) :
    (program fuel w args).status = some 1 ∧
      ∃ shown, (program fuel w args).out = shown ++ errorHint ++ ['\n'] ∧ (Term.run {} shown).1 = {} ∧
        linesOf (visible shown) = (pieceLines (good.flatMap pieces)).1.mapIdx fun i l => lineLabel s (i + 1) ++ glyphsAll s l := by
  have hd := fileEvents_delivered (s := s) (data := data) (by rw [hs.maxBytes, hmb]) (by rw [hs.maxLines, hml]) hB hL
  have hpre := limits_prefix hB hL
  rw [← hp] at hd hpre
  rw [program_fileEnding hv hs hf]
  obtain ⟨shown, e1, e2, e3⟩ := text_fails (asked_text hs hb) w.term (fileEvents_complete s data) (fileEvents_run hs (hv.only _ (by simp)) hd hpre) hparts hgood hbad
    (fuel := fuel) (by rw [hd]; exact hfuel)
  rw [e1]
  exact ⟨rfl, shown, rfl, e2, e3⟩

/-- C107, binary mode, a part with a malformed SGR sequence: the status is 1; shown are the full rows of the parts before it. -/
theorem C107_binary_fails (args : List Arg) (w : World) (name : Str) (data : Bytes) (s : Settings) (mb ml : Option Nat) (pB pL p : Bytes)
    (hv : Views args name) (hs : Asked args s) (hb : .flag .binary ∈ args) (hf : w.file name = .ok data)
    (c : Nat) (hc : 0 < c) (hcols : RowsOf args w c)
    (hmb : lastInt .maxBytes args = optInt mb) (hml : lastInt .maxLines args = optInt ml)
    (hB : UnderBytes mb data pB) (hL : UnderLines ml data pL) (hp : p = if pB.length ≤ pL.length then pB else pL)
    (good rest : List Bytes) (b : Bytes) (hparts : partsOf (bufferSize args) p = good ++ b :: rest)
    (hgood : ∀ c ∈ good, ¬ BadChunk c) (hbad : BadChunk b) (fuel : Nat) (hfuel : p.length < fuel) :
    (program fuel w args).status = some 1 ∧
      ∃ shown, (program fuel w args).out = shown ++ errorHint ++ ['\n'] ∧ (Term.run {} shown).1 = {} ∧
        (linesOf (visible shown)).length = good.flatten.length / c ∧
        ((linesOf (visible shown)).flatMap fun l => readBytes (l.drop (if offsetsShown s then 9 else 0))) =
          good.flatten.take (good.flatten.length / c * c) := by
  have hd := fileEvents_delivered (s := s) (data := data) (by rw [hs.maxBytes, hmb]) (by rw [hs.maxLines, hml]) hB hL
  have hpre := limits_prefix hB hL
  rw [← hp] at hd hpre
  rw [program_fileEnding hv hs hf]
  obtain ⟨shown, e1, e2, e3, e4⟩ := binary_fails (asked_binary hv.wellFormed hs hb) hc (rows_cols hs hcols) (fileEvents_complete s data)
    (fileEvents_run hs (hv.only _ (by simp)) hd hpre) hparts hgood hbad (fuel := fuel) (by rw [hd]; exact hfuel)
  rw [e1]
  exact ⟨rfl, shown, rfl, e2, e3, e4⟩

/-- C107, the status: 1 if one of the parts has a malformed SGR sequence, otherwise 0; in text mode, and in binary mode with a
positive number of columns. -/
theorem C107_status (args : List Arg) (w : World) (name : Str) (data : Bytes) (s : Settings) (mb ml : Option Nat) (pB pL p : Bytes)
    (hv : Views args name) (hs : Asked args s) (hf : w.file name = .ok data)
    (hm : .flag .binary ∈ args → ∃ c : Nat, 0 < c ∧ RowsOf args w c)
    (hmb : lastInt .maxBytes args = optInt mb) (hml : lastInt .maxLines args = optInt ml)
    (hB : UnderBytes mb data pB) (hL : UnderLines ml data pL) (hp : p = if pB.length ≤ pL.length then pB else pL)
    (fuel : Nat) (hfuel : 4 * p.length < fuel) :
    ((program fuel w args).status = some 1 ↔ ∃ c ∈ partsOf (bufferSize args) p, BadChunk c) ∧
      ((program fuel w args).status = some 0 ↔ ∀ c ∈ partsOf (bufferSize args) p, ¬ BadChunk c) := by
  have first : ∀ ps : List Bytes, (∃ c ∈ ps, BadChunk c) → ∃ good b rest, ps = good ++ b :: rest ∧ (∀ c ∈ good, ¬ BadChunk c) ∧ BadChunk b := by
    intro ps
    induction ps with
    | nil => rintro ⟨c, hc, -⟩; simp at hc
    | cons c ps ih =>
      intro h
      by_cases hc : BadChunk c
      · exact ⟨[], c, ps, rfl, by simp, hc⟩
      · obtain ⟨x, hx, hxb⟩ := h
        rcases List.mem_cons.1 hx with rfl | hx
        · exact absurd hxb hc
        · obtain ⟨good, b, rest, h1, h2, h3⟩ := ih ⟨x, hx, hxb⟩
          refine ⟨c :: good, b, rest, by rw [h1]; rfl, ?_, h3⟩
          intro y hy
          rcases List.mem_cons.1 hy with rfl | hy
          · exact hc
          · exact h2 y hy
  by_cases hbad : ∃ c ∈ partsOf (bufferSize args) p, BadChunk c
  · have : (program fuel w args).status = some 1 := by
      obtain ⟨good, b, rest, h1, h2, h3⟩ := first _ hbad
      by_cases hb : .flag .binary ∈ args
      · obtain ⟨c, hc, hcols⟩ := hm hb
        exact (C107_binary_fails args w name data s mb ml pB pL p hv hs hb hf c hc hcols hmb hml hB hL hp good rest b h1 h2 h3 fuel (by omega)).1
      · exact (C107_text_fails args w name data s mb ml pB pL p hv hs hb hf hmb hml hB hL hp good rest b h1 h2 h3 fuel hfuel).1
    refine ⟨⟨fun _ => hbad, fun _ => this⟩, ?_⟩
    rw [this]
    obtain ⟨c, hc, hcb⟩ := hbad
    exact ⟨fun h => by simp at h, fun h => absurd hcb (h c hc)⟩
  · have hgood : ∀ c ∈ partsOf (bufferSize args) p, ¬ BadChunk c := fun c hc h => hbad ⟨c, hc, h⟩
    have : (program fuel w args).status = some 0 := by
      by_cases hb : .flag .binary ∈ args
      · obtain ⟨c, hc, hcols⟩ := hm hb
        exact (C107_binary args w name data s mb ml pB pL p hv hs hb hf c hc hcols hmb hml hB hL hp hgood fuel (by omega)).1
      · exact (C107_text args w name data s mb ml pB pL p hv hs hb hf hmb hml hB hL hp hgood fuel hfuel).1
    refine ⟨⟨fun h => by rw [this] at h; simp at h, fun h => absurd h hbad⟩, fun _ => hgood, fun _ => this⟩

/-- C107, standard input, text mode, a part with a malformed SGR sequence: the status is 1; shown are, besides the hint about `--debug`, the lines of
the parts before it that are complete, and the terminal is left in its default state. -/
theorem C107_stdin_text_fails (args : List Arg) (w : World) (cs : List Bytes) (s : Settings) (mb ml : Option Nat) (pB pL p : Bytes)
    (hv : ViewsStdin args) (hs : Asked args s) (hb : .flag .binary ∉ args) (hw : w.stdin = cs.map .data) (hne : ∀ c ∈ cs, c ≠ [])
    (hmb : lastInt .maxBytes args = optInt mb) (hml : lastInt .maxLines args = optInt ml)
    (hB : UnderBytes mb cs.flatten pB) (hL : UnderLines ml cs.flatten pL) (hp : p = if pB.length ≤ pL.length then pB else pL)
    (good rest : List Bytes) (b : Bytes) (hparts : takeParts p.length cs = good ++ b :: rest)
    (hgood : ∀ c ∈ good, ¬ BadChunk c) (hbad : BadChunk b) (fuel : Nat) (hfuel : 4 * p.length < fuel) :
    (program fuel w args).status = some 1 ∧
      ∃ shown, (program fuel w args).out = shown ++ errorHint ++ ['\n'] ∧ (Term.run {} shown).1 = {} ∧
        linesOf (visible shown) = (pieceLines (good.flatMap pieces)).1.mapIdx fun i l => lineLabel s (i + 1) ++ glyphsAll s l := by
  obtain ⟨hd, he⟩ := ioEvents_run hs hne hmb hml hB hL hp
  rw [program_stdinEnding hv hs (by rw [hw]; exact noRaise_data cs), hw]
  obtain ⟨shown, e1, e2, e3⟩ := text_fails (asked_text hs hb) w.term (ioEvents_complete s (noRaise_data cs)) he hparts hgood hbad
    (fuel := fuel) (by rw [hd]; exact hfuel)
  rw [e1]
  exact ⟨rfl, shown, rfl, e2, e3⟩

/-- C107, standard input, binary mode, a part with a malformed SGR sequence: the status is 1; shown are the full rows of the parts before it. -/
theorem C107_stdin_binary_fails (args : List Arg) (w : World) (cs : List Bytes) (s : Settings) (mb ml : Option Nat) (pB pL p : Bytes)
    (hv : ViewsStdin args) (hs : Asked args s) (hb : .flag .binary ∈ args) (hw : w.stdin = cs.map .data) (hne : ∀ c ∈ cs, c ≠ [])
    (c : Nat) (hc : 0 < c) (hcols : RowsOf args w c)
    (hmb : lastInt .maxBytes args = optInt mb) (hml : lastInt .maxLines args = optInt ml)
    (hB : UnderBytes mb cs.flatten pB) (hL : UnderLines ml cs.flatten pL) (hp : p = if pB.length ≤ pL.length then pB else pL)
    (good rest : List Bytes) (b : Bytes) (hparts : takeParts p.length cs = good ++ b :: rest)
    (hgood : ∀ c ∈ good, ¬ BadChunk c) (hbad : BadChunk b) (fuel : Nat) (hfuel : p.length < fuel) :
    (program fuel w args).status = some 1 ∧
      ∃ shown, (program fuel w args).out = shown ++ errorHint ++ ['\n'] ∧ (Term.run {} shown).1 = {} ∧
        (linesOf (visible shown)).length = good.flatten.length / c ∧
        ((linesOf (visible shown)).flatMap fun l => readBytes (l.drop (if offsetsShown s then 9 else 0))) =
          good.flatten.take (good.flatten.length / c * c) := by
  obtain ⟨hd, he⟩ := ioEvents_run hs hne hmb hml hB hL hp
  rw [program_stdinEnding hv hs (by rw [hw]; exact noRaise_data cs), hw]
  obtain ⟨shown, e1, e2, e3, e4⟩ := binary_fails (asked_binary hv.wellFormed hs hb) hc (rows_cols hs hcols) (ioEvents_complete s (noRaise_data cs))
    he hparts hgood hbad (fuel := fuel) (by rw [hd]; exact hfuel)
  rw [e1]
  exact ⟨rfl, shown, rfl, e2, e3, e4⟩

/-- C107, standard input, the status: 1 if one of the parts has a malformed SGR sequence, otherwise 0; in text mode, and in binary mode with a
positive number of columns. -/
theorem C107_stdin_status (args : List Arg) (w : World) (cs : List Bytes) (s : Settings) (mb ml : Option Nat) (pB pL p : Bytes)
    (hv : ViewsStdin args) (hs : Asked args s) (hw : w.stdin = cs.map .data) (hne : ∀ c ∈ cs, c ≠ [])
    (hm : .flag .binary ∈ args → ∃ c : Nat, 0 < c ∧ RowsOf args w c)
    (hmb : lastInt .maxBytes args = optInt mb) (hml : lastInt .maxLines args = optInt ml)
    (hB : UnderBytes mb cs.flatten pB) (hL : UnderLines ml cs.flatten pL) (hp : p = if pB.length ≤ pL.length then pB else pL)
    (fuel : Nat) (hfuel : 4 * p.length < fuel) :
    ((program fuel w args).status = some 1 ↔ ∃ c ∈ takeParts p.length cs, BadChunk c) ∧
      ((program fuel w args).status = some 0 ↔ ∀ c ∈ takeParts p.length cs, ¬ BadChunk c) := by
  have first : ∀ ps : List Bytes, (∃ c ∈ ps, BadChunk c) → ∃ good b rest, ps = good ++ b :: rest ∧ (∀ c ∈ good, ¬ BadChunk c) ∧ BadChunk b := by
    intro ps
    induction ps with
    | nil => rintro ⟨c, hc, -⟩; simp at hc
    | cons c ps ih =>
      intro h
      by_cases hc : BadChunk c
      · exact ⟨[], c, ps, rfl, by simp, hc⟩
      · obtain ⟨x, hx, hxb⟩ := h
        rcases List.mem_cons.1 hx with rfl | hx
        · exact absurd hxb hc
        · obtain ⟨good, b, rest, h1, h2, h3⟩ := ih ⟨x, hx, hxb⟩
          refine ⟨c :: good, b, rest, by rw [h1]; rfl, ?_, h3⟩
          intro y hy
          rcases List.mem_cons.1 hy with rfl | hy
          · exact hc
          · exact h2 y hy
  by_cases hbad : ∃ c ∈ takeParts p.length cs, BadChunk c
  · have : (program fuel w args).status = some 1 := by
      obtain ⟨good, b, rest, h1, h2, h3⟩ := first _ hbad
      by_cases hb : .flag .binary ∈ args
      · obtain ⟨c, hc, hcols⟩ := hm hb
        exact (C107_stdin_binary_fails args w cs s mb ml pB pL p hv hs hb hw hne c hc hcols hmb hml hB hL hp good rest b h1 h2 h3 fuel (by omega)).1
      · exact (C107_stdin_text_fails args w cs s mb ml pB pL p hv hs hb hw hne hmb hml hB hL hp good rest b h1 h2 h3 fuel hfuel).1
    refine ⟨⟨fun _ => hbad, fun _ => this⟩, ?_⟩
    rw [this]
    obtain ⟨c, hc, hcb⟩ := hbad
    exact ⟨fun h => by simp at h, fun h => absurd hcb (h c hc)⟩
  · have hgood : ∀ c ∈ takeParts p.length cs, ¬ BadChunk c := fun c hc h => hbad ⟨c, hc, h⟩
    have : (program fuel w args).status = some 0 := by
      by_cases hb : .flag .binary ∈ args
      · obtain ⟨c, hc, hcols⟩ := hm hb
        exact (C107_stdin_binary args w cs s mb ml pB pL p hv hs hb hw hne c hc hcols hmb hml hB hL hp hgood fuel (by omega)).1
      · exact (C107_stdin_text args w cs s mb ml pB pL p hv hs hb hw hne hmb hml hB hL hp hgood fuel hfuel).1
    refine ⟨⟨fun h => by rw [this] at h; simp at h, fun h => absurd h hbad⟩, fun _ => hgood, fun _ => this⟩

/-- `kolombos --buffer 2 f` ... -/
def partsArgs : List Arg := [.int .buffer (some 2), .file ['f']]

theorem partsArgs_views : Views partsArgs ['f'] := by
  refine ⟨⟨by intro o; cases o <;> decide, ?_, by decide⟩, rfl, by decide, by decide⟩
  have hall : ∀ a ∈ partsArgs, ∀ b ∈ partsArgs, clash a b = false := by decide
  intro a ha b hb he
  have := he.clash.1
  rw [hall a ha b hb] at this
  exact absurd this (by simp)

/-- ... for a file with `aé` and a line feed, of which the first three bytes are asked for: the parts are `61 C3` and `A9`, so that the letter
is not recognised; ... -/
example : (∃ s, Asked partsArgs s) ∧ partsOf (bufferSize partsArgs) [0x61, 0xc3, 0xa9] = [[0x61, 0xc3], [0xa9]] ∧
    (partsOf (bufferSize partsArgs) [0x61, 0xc3, 0xa9]).flatMap pieces ≠ pieces [0x61, 0xc3, 0xa9] ∧
    ∀ c ∈ partsOf (bufferSize partsArgs) [0x61, 0xc3, 0xa9], ¬ BadChunk c := by
  obtain ⟨s, -, h2⟩ := (C55_settings partsArgs (partsArgs_views.only _ (by simp))).1 partsArgs_views.wellFormed
  have hp : partsOf (bufferSize partsArgs) [0x61, 0xc3, 0xa9] = [[0x61, 0xc3], [0xa9]] := by decide
  refine ⟨⟨s, h2⟩, hp, by rw [hp]; decide, ?_⟩
  rw [hp]
  have : ∀ c ∈ ([[0x61, 0xc3], [0xa9]] : List Bytes), ((pieces c).any badPiece) = false := by decide
  intro c hc hb
  have := this c hc
  rw [(anyBad_iff _).2 hb] at this
  cases this

/-- ... and a malformed sequence does no harm if it is cut, but does if it is not. -/
example : BadChunk [0x1b, 0x5b, 0x3f, 0x31, 0x6d] ∧ (∀ c ∈ partsOf 2 [0x1b, 0x5b, 0x3f, 0x31, 0x6d], ¬ BadChunk c) ∧
    partsOf 5 [0x61, 0x0a, 0x62, 0x63, 0x64, 0x1b, 0x5b, 0x3f, 0x31, 0x6d, 0x65] =
      [[0x61, 0x0a, 0x62, 0x63, 0x64]] ++ [0x1b, 0x5b, 0x3f, 0x31, 0x6d] :: [[0x65]] := by
  refine ⟨(anyBad_iff _).1 (by decide), ?_, by decide⟩
  have hp : partsOf 2 [0x1b, 0x5b, 0x3f, 0x31, 0x6d] = [[0x1b, 0x5b], [0x3f, 0x31], [0x6d]] := by decide
  rw [hp]
  have : ∀ c ∈ ([[0x1b, 0x5b], [0x3f, 0x31], [0x6d]] : List Bytes), ((pieces c).any badPiece) = false := by decide
  intro c hc hb
  have := this c hc
  rw [(anyBad_iff _).2 hb] at this
  cases this

/-- The rows of `kolombos -b f` on a terminal of 100 columns have 16 bytes. -/
example (w : World) (h : ∀ k, w.term k = 100) : RowsOf [.flag .binary, .file ['f']] w 16 := .inr ⟨rfl, 100, h, by decide⟩

/-- The first five bytes of three chunks of standard input. -/
example : takeParts 5 [[1, 2], [3, 4], [5, 6]] = [[1, 2], [3, 4], [5]] := by decide

end Kolombos
