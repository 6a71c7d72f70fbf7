import Verif.Lemmas.Registry
import Verif.Model.App
/-
Two settings that agree on what a run in a given mode looks at give the same run.
-/
set_option linter.unusedSimpArgs false
namespace Kolombos

/-- The mode is `m` for both, and they agree on the settings that matter in this mode. -/
structure Agree (m : ReadMode) (s s' : Settings) : Prop where
  mode : s.readMode.1 = m
  mode' : s'.readMode.1 = m
  debug : s'.debug = s.debug
  focus : s'.focus = s.focus
  ignore : s'.ignore = s.ignore
  colorMarkers : s'.colorMarkers = s.colorMarkers
  maxBytes : s'.maxBytes = s.maxBytes
  maxLines : s'.maxLines = s.maxLines
  marker : m = .text → s'.marker = s.marker
  noSeparators : m = .text → s'.noSeparators = s.noSeparators
  noLineNumbers : m = .text → s'.noLineNumbers = s.noLineNumbers
  columns : m = .binary → s'.columns = s.columns
  decode : m = .binary → s'.decode = s.decode
  decimalOffsets : m = .binary → s'.decimalOffsets = s.decimalOffsets
  noOffsets : m = .binary → s'.noOffsets = s.noOffsets

theorem readMode_fields (s : Settings) :
    let r := s.readMode.2
    r.debug = s.debug ∧ r.focus = s.focus ∧ r.ignore = s.ignore ∧ r.colorMarkers = s.colorMarkers ∧ r.maxBytes = s.maxBytes ∧
    r.maxLines = s.maxLines ∧ r.marker = s.marker ∧ r.noSeparators = s.noSeparators ∧ r.noLineNumbers = s.noLineNumbers ∧
    r.columns = s.columns ∧ r.decode = s.decode ∧ r.decimalOffsets = s.decimalOffsets ∧ r.noOffsets = s.noOffsets := by
  unfold Settings.readMode
  split
  · exact ⟨rfl, rfl, rfl, rfl, rfl, rfl, rfl, rfl, rfl, rfl, rfl, rfl, rfl⟩
  · split <;> exact ⟨rfl, rfl, rfl, rfl, rfl, rfl, rfl, rfl, rfl, rfl, rfl, rfl, rfl⟩

theorem Agree.readMode {m : ReadMode} {s s' : Settings} (h : Agree m s s') : Agree m s.readMode.2 s'.readMode.2 := by
  obtain ⟨a1, a2, a3, a4, a5, a6, a7, a8, a9, a10, a11, a12, a13⟩ := readMode_fields s
  obtain ⟨b1, b2, b3, b4, b5, b6, b7, b8, b9, b10, b11, b12, b13⟩ := readMode_fields s'
  obtain ⟨h1, h2, h3, h4, h5, h6, h7, h8, h9, h10, h11, h12, h13, h14, h15⟩ := h
  exact ⟨by rw [readMode_idem, h1], by rw [readMode_idem, h2], by rw [a1, b1, h3], by rw [a2, b2, h4], by rw [a3, b3, h5],
    by rw [a4, b4, h6], by rw [a5, b5, h7], by rw [a6, b6, h8], fun e => by rw [a7, b7, h9 e], fun e => by rw [a8, b8, h10 e],
    fun e => by rw [a9, b9, h11 e], fun e => by rw [a10, b10, h12 e], fun e => by rw [a11, b11, h13 e],
    fun e => by rw [a12, b12, h14 e], fun e => by rw [a13, b13, h15 e]⟩

theorem readMode_binary {s : Settings} : s.readMode.2.binary = decide (s.readMode.1 = .binary) := by
  unfold Settings.readMode
  cases h1 : s.binary <;> cases h2 : s.text <;> cases h3 : s.defaultReadMode <;> simp [h1, h2, h3]

theorem Agree.markerDetails {m : ReadMode} {s s' : Settings} (h : Agree m s s') : s'.readMode.2.markerDetails = s.readMode.2.markerDetails := by
  unfold Settings.markerDetails
  rw [readMode_binary, readMode_binary, h.mode, h.mode']
  cases m with
  | binary => rfl
  | text => rw [h.readMode.marker rfl]

theorem Agree.displayMode {m : ReadMode} {s s' : Settings} (h : Agree m s s') (c : CharClass) : s'.displayMode c = s.displayMode c := by
  unfold Settings.displayMode
  rw [h.ignore, h.focus]

/-- Templates that differ at most in `decode`, and that only in text mode. -/
def TplLike (t t' : Template) : Prop := ∃ d, t' = { t with decode := d } ∧ (d = t.decode ∨ t.readMode = .text)

theorem create_like {m : ReadMode} {s s' : Settings} (h : Agree m s s') (kind : TplKind) (cc : CharClass) (o : PartialOverride Mode Sgr)
    (l : PartialOverride Mode Str) : TplLike (Template.create kind cc o l s).1 (Template.create kind cc o l s').1 := by
  refine ⟨s'.readMode.2.decode.getD false, ?_, ?_⟩
  · unfold Template.create
    simp only
    rw [h.displayMode, h.mode, h.mode', h.markerDetails]
  · cases m with
    | binary => left; show _ = s.readMode.2.decode.getD false; rw [h.readMode.decode rfl]
    | text => right; exact h.mode

theorem process_like {t : Template} {d : Bool} (h : d = t.decode ∨ t.readMode = .text) (raw : Bytes) :
    Template.process { t with decode := d } raw = t.process raw := by
  rcases h with rfl | h
  · rfl
  · have hb : Template.processBase { t with decode := d } raw = t.processBase raw := rfl
    obtain ⟨kind, cc, o, l, dm, rm, md, dec, sgr⟩ := t
    cases h
    cases kind
    case utf8 =>
      unfold Template.process
      simp only [hb, true_or, if_true]
    all_goals rfl

theorem controlLoop_like (t : Template) (d : Bool) (c : Bool) (raw : Bytes) :
    Template.controlLoop { t with decode := d } c raw = t.controlLoop c raw := by
  induction raw with
  | nil => rfl
  | cons b r ih =>
    rw [Template.controlLoop, Template.controlLoop, ih]
    rfl

/-- What a template that is like another one puts in the place of some bytes. -/
theorem substitute_like {m : ReadMode} {s s' : Settings} (h : Agree m s s') {t t' : Template} (ht : TplLike t t') (hm : t.readMode = m) (raw : Bytes) :
    t'.substitute s' raw = t.substitute s raw := by
  obtain ⟨d, rfl, hd⟩ := ht
  have hp := fun raw => process_like hd raw
  have hb : Template.substituteBase { t with decode := d } raw = t.substituteBase raw := by
    unfold Template.substituteBase
    rw [hp]
    rfl
  have he : Template.substituteEscape { t with decode := d } s' raw = t.substituteEscape s raw := by
    unfold Template.substituteEscape
    simp only [hb, hp, h.colorMarkers]
    cases m with
    | binary =>
      have e : ∀ (c d : Prop) [Decidable c] [Decidable d] (p : c ↔ d) (x y : List Segment), (if c then x else y) = if d then x else y := by
        intro c d _ _ p x y
        by_cases hc : c
        · rw [if_pos hc, if_pos (p.1 hc)]
        · rw [if_neg hc, if_neg fun g => hc (p.2 g)]
      rw [e (t.readMode ≠ .binary ∧ (!s.noSeparators) = true ∧ (t.markerDetails = .brief ∨ t.markerDetails = .full))
        (t.readMode ≠ .binary ∧ (!s'.noSeparators) = true ∧ (t.markerDetails = .brief ∨ t.markerDetails = .full))
        ⟨fun g => absurd hm g.1, fun g => absurd hm g.1⟩]
      rfl
    | text => rw [h.noSeparators rfl]; rfl
  have hc : Template.substituteControl { t with decode := d } s'.colorMarkers raw = t.substituteControl s.colorMarkers raw := by
    unfold Template.substituteControl
    rw [controlLoop_like, hp, h.colorMarkers]
    rfl
  unfold Template.substitute
  rw [hb, he, hc]

/-- The same error, or templates that are like each other. -/
def ResLike (m : ReadMode) : Except Err Template → Except Err Template → Prop
  | .error e, .error e' => e' = e
  | .ok t, .ok t' => TplLike t t' ∧ t.readMode = m
  | _, _ => False

theorem agree_createMode (kind : TplKind) (cc : CharClass) (o : PartialOverride Mode Sgr) (l : PartialOverride Mode Str) (s : Settings) :
    (Template.create kind cc o l s).1.readMode = s.readMode.1 := rfl

theorem resolve_like {m : ReadMode} {s s' : Settings} (h : Agree m s s') (x : Match Byte) (i : Nat) :
    ResLike m (resolveMatch (Registry.create s).1 x i) (resolveMatch (Registry.create s').1 x i) := by
  have h' := h.readMode
  have hc := fun kind cc o l => create_like h kind cc o l
  have hc' := fun kind cc o l => create_like h' kind cc o l
  have hm : ∀ kind cc o l, (Template.create kind cc o l s).1.readMode = m := fun _ _ _ _ => h.mode
  have hm' : ∀ kind cc o l, (Template.create kind cc o l s.readMode.2).1.readMode = m := fun _ _ _ _ => h'.mode
  have hcsi : ResLike m (resolveCsi (Registry.create s).1 x) (resolveCsi (Registry.create s').1 x) := by
    unfold resolveCsi
    simp only [Registry.create, create_snd, readMode_idem]
    split
    · split
      · exact ⟨hc' .., hm' ..⟩
      · cases setDetails ((x.group 6).getD []) with
        | error e => exact rfl
        | ok d =>
          refine ⟨?_, h'.mode⟩
          obtain ⟨dec, e, hd⟩ := hc' .escapeSgr .escapeSeq ⟨Sgr.add (Sgr.colorIndexed 210) (Sgr.colorIndexed 16 true), []⟩ ⟨['ǝ'], []⟩
          exact ⟨dec, by rw [e], hd⟩
    · exact ⟨hc' .., hm' ..⟩
  unfold resolveMatch
  split
  all_goals first
    | exact hcsi
    | (simp only [Registry.create, create_snd, readMode_idem]; first | exact ⟨hc .., hm ..⟩ | exact ⟨hc' .., hm' ..⟩)
    | exact (rfl : Err.runtimeError = Err.runtimeError)

theorem matchSegments_agree {m : ReadMode} {s s' : Settings} (h : Agree m s s') (x : Match Byte) :
    matchSegments (Registry.create s').1 s'.readMode.2 x = matchSegments (Registry.create s).1 s.readMode.2 x := by
  unfold matchSegments
  cases primaryMgroup x with
  | error e => rfl
  | ok i =>
    simp only
    have := resolve_like h x i
    cases h1 : resolveMatch (Registry.create s).1 x i <;> cases h2 : resolveMatch (Registry.create s').1 x i <;> rw [h1, h2] at this
    · simp only; rw [show _ = _ from this]
    · exact this.elim
    · exact this.elim
    · exact substitute_like h.readMode this.1 this.2 _

theorem subItems_agree {m : ReadMode} {s s' : Settings} (h : Agree m s s') (l : List (Item Byte)) : ∀ buf : SegmentBuffer,
    subItems (Registry.create s').1 s'.readMode.2 l buf = subItems (Registry.create s).1 s.readMode.2 l buf := by
  induction l with
  | nil => intro buf; rfl
  | cons i l ih =>
    intro buf
    cases i with
    | copied b => rw [subItems, subItems, ih]
    | matched x =>
      rw [subItems, subItems, matchSegments_agree h]
      cases matchSegments (Registry.create s).1 s.readMode.2 x with
      | error e => rfl
      | ok g => exact ih _

theorem parse_agree {m : ReadMode} {s s' : Settings} (h : Agree m s s') (pb : ParserBuffer) (buf : SegmentBuffer) :
    parse (Registry.create s').1 s'.readMode.2 pb buf = parse (Registry.create s).1 s.readMode.2 pb buf := by
  unfold parse
  rw [subItems_agree h]

theorem Agree.separator {m : ReadMode} {s s' : Settings} (h : Agree m s s') : Console.separator s' = Console.separator s := by
  unfold Console.separator
  rw [h.debug]

theorem Agree.formatPrefix {m : ReadMode} {s s' : Settings} (h : Agree m s s') (t : Str) (f : Sgr) :
    Console.formatPrefix s' t f = Console.formatPrefix s t f := by
  unfold Console.formatPrefix
  rw [h.separator]

theorem Agree.offsetLabel {s s' : Settings} (h : Agree .binary s s') (n : Nat) : Console.offsetLabel s' n = Console.offsetLabel s n := by
  unfold Console.offsetLabel
  rw [h.decimalOffsets rfl]

theorem Agree.printOffsets {s s' : Settings} (h : Agree .binary s s') : s'.printOffsets = s.printOffsets := by
  unfold Settings.printOffsets
  rw [h.noOffsets rfl, h.debug]

theorem Agree.withOffset {s s' : Settings} (h : Agree .binary s s') (n : Nat) (f : Sgr) :
    Console.formatPrefixWithOffset s' n f = Console.formatPrefixWithOffset s n f := by
  unfold Console.formatPrefixWithOffset
  rw [h.offsetLabel, h.formatPrefix]

theorem Agree.row {s s' : Settings} (h : Agree .binary s s') (cols : Int) (offset n : Nat) (out : List Chainable) :
    BinaryFormatter.row s' cols offset n out = BinaryFormatter.row s cols offset n out := by
  unfold BinaryFormatter.row Console.offsetPrefix
  rw [h.printOffsets, h.withOffset, h.separator]

theorem Agree.binLoop {s s' : Settings} (h : Agree .binary s s') (cols req : Int) (closed : Bool) (n : Nat) : ∀ (buf : SegmentBuffer) (offset : Nat),
    BinaryFormatter.loop s' cols req closed n buf offset = BinaryFormatter.loop s cols req closed n buf offset := by
  induction n with
  | zero => intros; rfl
  | succ n ih =>
    intro buf offset
    rw [BinaryFormatter.loop, BinaryFormatter.loop]
    simp only [h.row, ih]

theorem Agree.binFormat {s s' : Settings} (h : Agree .binary s s') (fuel : Nat) (term : Int) (closed : Bool) (buf : SegmentBuffer) (offset : Nat) :
    BinaryFormatter.format fuel s' term closed buf offset = BinaryFormatter.format fuel s term closed buf offset := by
  have hcols : BinaryFormatter.curCols s' term offset = BinaryFormatter.curCols s term offset := by
    unfold BinaryFormatter.curCols
    rw [h.columns rfl, h.withOffset]
  unfold BinaryFormatter.format Console.formatTotalSize
  simp only [hcols, h.binLoop, h.printOffsets, h.withOffset]

theorem Agree.line {s s' : Settings} (h : Agree .text s s') (n : Nat) (out : List Chainable) :
    TextFormatter.line s' n out = TextFormatter.line s n out := by
  unfold TextFormatter.line Console.linePrefix
  rw [h.debug, h.formatPrefix, h.noLineNumbers rfl, h.separator]

theorem Agree.textFormat {s s' : Settings} (h : Agree .text s s') (closed : Bool) (n : Nat) : ∀ (buf : SegmentBuffer) (offset l : Nat),
    TextFormatter.format s' closed n buf offset l = TextFormatter.format s closed n buf offset l := by
  induction n with
  | zero => intros; rfl
  | succ n ih =>
    intro buf offset l
    rw [TextFormatter.format, TextFormatter.format]
    simp only [h.line, ih]

theorem config_parts (s : Settings) : Config.create s = ⟨s.readMode.2, (Registry.create s).1, s.readMode.1⟩ := by
  unfold Config.create
  simp only [create_readMode, readMode_idem]

theorem processChunk_agree {m : ReadMode} {s s' : Settings} (h : Agree m s s') (fuel : Nat) (term : Nat → Int) :
    processChunk fuel (Config.create s') term = processChunk fuel (Config.create s) term := by
  funext st raw offset finish
  rw [config_parts, config_parts]
  unfold processChunk
  simp only [parse_agree h]
  cases parse (Registry.create s).1 s.readMode.2 (st.pb.appendRaw raw finish) st.buf with
  | error e => rfl
  | ok r =>
    simp only
    unfold formatStep
    simp only [h.mode, h.mode']
    have h' := h.readMode
    cases m with
    | binary => simp only [h'.binFormat]
    | text => simp only [h'.textFormat]

/-- The run is the same. -/
theorem byteIoRun_agree {m : ReadMode} {s s' : Settings} (h : Agree m s s') (fuel : Nat) (term : Nat → Int) (opened : Option Err) (io : List IoStep) :
    byteIoRun fuel s' term opened io = byteIoRun fuel s term opened io := by
  unfold byteIoRun
  simp only [processChunk_agree h]
  have h' := h.readMode
  rw [config_parts, config_parts]
  simp only [h'.maxBytes, h'.maxLines]

end Kolombos
