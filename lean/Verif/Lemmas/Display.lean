import Verif.Lemmas.Shown
/-
What is displayed for a piece: the segments of `substitute` in closed form.
-/
set_option linter.unusedSimpArgs false

namespace Kolombos
open Spec

/-! ### The form of pieces -/

/-- The possible pieces. -/
inductive Wf : Kind → Bytes → Prop
  | utf8 (c : Char) : 0x80 ≤ c.toNat → Wf .utf8 (enc c)
  | esc : Wf .esc [0x1b]
  | newline : Wf .newline [0x0a]
  | run {k f p} : runClass k = some f → p ≠ [] → (∀ b ∈ p, f b = true) → Wf k p
  | csi {k ps is f} : k = csiKind ps f → (∀ b ∈ ps, isParam b = true) → (∀ b ∈ is, isInter b = true) → isFinal f = true →
      Wf k (0x1b :: 0x5b :: (ps ++ is ++ [f]))
  | seq {k t} : isEscKind k = true → k ≠ .sgr → t ≠ [] → (∀ b ∈ t, between 0x20 0x7e b = true) → Wf k (0x1b :: t)

theorem between_mono {lo hi lo' hi' : Nat} {b : Byte} (h : between lo hi b = true) (h1 : lo' ≤ lo) (h2 : hi ≤ hi') :
    between lo' hi' b = true := by
  simp [between] at *; omega

theorem escPiece_wf (s : Bytes) : Wf (escPiece s).1 (escPiece s).2.1 := by
  rcases escPiece_cases s with ⟨t, ps, is, f, r, -, h, e⟩ | ⟨-, is, f, r, h, e⟩ | ⟨-, -, c, t, -, h, e⟩ | ⟨-, -, -, e⟩
  · obtain ⟨-, h1, h2, h3⟩ := csiTail_spec h
    rw [e]; exact .csi rfl h1 h2 h3
  · obtain ⟨-, h0, h1, h2⟩ := nfTail_spec h
    rw [e]
    refine .seq rfl (by simp) (by simp) ?_
    intro b hb
    simp only [List.mem_append, List.mem_singleton] at hb
    rcases hb with hb | rfl
    · exact between_mono (h1 _ hb) (by decide) (by decide)
    · exact between_mono h2 (by decide) (by decide)
  · rw [e]
    have : isEscKind (if between 0x30 0x3f c then .fp else if between 0x40 0x5f c then .fe else .fs) = true ∧
        (if between 0x30 0x3f c then Kind.fp else if between 0x40 0x5f c then .fe else .fs) ≠ .sgr := by
      split
      · exact ⟨rfl, by simp⟩
      · split <;> exact ⟨rfl, by simp⟩
    refine .seq this.1 this.2 (by simp) ?_
    intro b hb
    rw [List.mem_singleton.1 hb]
    exact between_mono h (by decide) (by decide)
  · rw [e]; exact .esc

theorem piece_wf (b : Byte) (s : Bytes) : Wf (piece b s).1 (piece b s).2.1 := by
  apply piece_cases (P := fun q => Wf q.1 q.2.1)
  · intro _ hu
    obtain ⟨c, hc, e⟩ := enc_of_utf8Len _ hu
    rw [e]; exact .utf8 c hc
  · intro _; exact escPiece_wf s
  · rintro rfl; exact .newline
  · intro k p hk hb _
    refine .run hk (by simp [run]) ?_
    intro c hc
    rcases List.mem_cons.1 hc with rfl | hc
    · exact hb
    · exact takeWhile_all s c hc

theorem pieces_wf {raw : Bytes} {q : Kind × Bytes} (h : q ∈ pieces raw) : Wf q.1 q.2 := by
  obtain ⟨b, r, rfl⟩ := pieces_mem h
  exact piece_wf b r

/-- Escape sequences: ESC, then visible ASCII or blanks. -/
theorem Wf.esc_form {k : Kind} {p : Bytes} (h : Wf k p) (hk : isEscKind k = true) :
    ∃ t, p = 0x1b :: t ∧ t ≠ [] ∧ ∀ b ∈ t, between 0x20 0x7e b = true := by
  cases h with
  | utf8 => cases hk
  | esc => cases hk
  | newline => cases hk
  | run hr => exfalso; cases k <;> first | (cases hk; done) | (cases hr; done)
  | csi _ h1 h2 h3 =>
    refine ⟨_, rfl, by simp, ?_⟩
    intro b hb
    simp only [List.mem_cons, List.mem_append, List.not_mem_nil, or_false] at hb
    rcases hb with rfl | (hb | hb) | rfl
    · decide
    · exact between_mono (h1 _ hb) (by decide) (by decide)
    · exact between_mono (h2 _ hb) (by decide) (by decide)
    · exact between_mono h3 (by decide) (by decide)
  | seq _ _ h1 h2 => exact ⟨_, rfl, h1, h2⟩

theorem csiKind_isEsc (ps : Bytes) (f : Byte) : isEscKind (csiKind ps f) = true := by
  rcases csiKind_cases ps f with h | h | h <;> rw [h] <;> rfl

theorem Wf.newline_eq {p : Bytes} (h : Wf .newline p) : p = [0x0a] := by
  generalize hk : Kind.newline = k at h
  cases h with
  | newline => rfl
  | utf8 => cases hk
  | esc => cases hk
  | run h => subst hk; cases h
  | csi e => subst hk; rename_i ps is f _ _ _; have := csiKind_isEsc ps f; rw [← e] at this; cases this
  | seq h => subst hk; cases h

theorem Wf.utf8_eq {p : Bytes} (h : Wf .utf8 p) : ∃ c, 0x80 ≤ c.toNat ∧ p = enc c := by
  generalize hk : Kind.utf8 = k at h
  cases h with
  | newline => cases hk
  | utf8 c h => exact ⟨c, h, rfl⟩
  | esc => cases hk
  | run h => subst hk; cases h
  | csi e => subst hk; rename_i ps is f _ _ _; have := csiKind_isEsc ps f; rw [← e] at this; cases this
  | seq h => subst hk; cases h

theorem Wf.run_all {k : Kind} {p : Bytes} {q : Byte → Bool} (h : Wf k p) (hr : runClass k = some q) :
    ∀ b ∈ p, q b = true := by
  cases h with
  | newline => cases hr
  | utf8 c h => cases hr
  | esc => cases hr
  | run h _ h2 => rw [h] at hr; cases hr; exact h2
  | csi e =>
    rename_i ps is f _ _ _; have := csiKind_isEsc ps f; rw [← e] at this
    exfalso; cases k <;> first | (cases this; done) | (cases hr; done)
  | seq h => exfalso; cases k <;> first | (cases h; done) | (cases hr; done)

theorem Wf.ne_nil {k : Kind} {p : Bytes} (h : Wf k p) : p ≠ [] := by
  cases h with
  | utf8 c => exact enc_ne_nil c
  | run _ h => exact h
  | _ => simp

/-! ### Closed form -/

/-- The effective marker details. -/
def detailsOf (s : Settings) : MarkerDetails := s.readMode.2.markerDetails

theorem details_binary {s : Settings} (h : s.readMode.1 = .binary) : detailsOf s = .binaryStrict := by
  unfold detailsOf Settings.markerDetails
  unfold Settings.readMode at h ⊢
  cases hb : s.binary <;> cases ht : s.text <;> cases hd : s.defaultReadMode <;> simp [hb, ht, hd] at h ⊢

theorem details_text {s : Settings} (h : s.readMode.1 = .text) :
    detailsOf s = if s.marker ≤ 0 then .noDetails else if s.marker = 1 then .brief else .full := by
  unfold detailsOf Settings.markerDetails
  unfold Settings.readMode at h ⊢
  cases hb : s.binary <;> cases ht : s.text <;> cases hd : s.defaultReadMode <;> simp [hb, ht, hd] at h ⊢

/-- The display mode of the class of a kind. -/
def displayOf (s : Settings) (k : Kind) : DisplayMode := s.displayMode (kindClass k)

/-- The text of a piece that is displayed as one segment. -/
def pieceText (s : Settings) (k : Kind) (p : Bytes) : Str :=
  if displayOf s k = .ignored then
    if k = .newline ∧ s.readMode.1 = .text then ['×', '\n'] else p.map fun _ => '×'
  else match k with
    | .printable => p.map fun b => chr b.toNat
    | .newline => if s.readMode.1 = .text then '↵' :: (Sgr.assemble [0] ++ ['\n']) else ['↵']
    | .utf8 =>
      if s.readMode.1 = .text then decodeUtf8 p
      else if s.decode.getD false then List.replicate (p.length - 1) '_' ++ decodeUtf8 p
      else p.map fun _ => '▯'
    | k => p.flatMap fun _ => kindText k (displayOf s k) s.readMode.1

/-- The details of one control character. -/
def ctrlDetails (s : Settings) (b : Byte) : List Segment :=
  if displayOf s .ctrl = .ignored then []
  else [⟨[31, 48, 5, 16, 4], ['*'], [],
    if detailsOf s = .brief then [(Template.briefLabel b.toNat).getD ' '] else hexPad 2 b.toNat⟩]

/-- The segments of one control character with details. -/
def ctrlSegments (s : Settings) (b : Byte) : List Segment :=
  ⟨kindStyle .ctrl (displayOf s .ctrl), ['C'], List.replicate b.toNat 0,
    kindText .ctrl (displayOf s .ctrl) s.readMode.1⟩ :: ctrlDetails s b

/-- The style of the label of an escape sequence. -/
def labelStyle (s : Settings) (k : Kind) (q : SgrDetails) : Sgr :=
  if k = .sgr ∧ s.colorMarkers = true then q.opening else kindStyle k (displayOf s k)

/-- The style of the details of an escape sequence. -/
def detailStyle (s : Settings) (k : Kind) (q : SgrDetails) : Sgr :=
  if k = .sgr then (if s.colorMarkers = true then [48, 5, 16, 4] ++ q.opening else [48, 5, 16, 4])
  else (kindOpening k).1 ++ [48, 5, 16, 4]

/-- Label and details of an escape sequence. -/
def escBody (s : Settings) (k : Kind) (p : Bytes) (q : SgrDetails) : List Segment :=
  ⟨labelStyle s k q, ['E'], p.take 1, (p.take 1).flatMap fun _ => kindText k (displayOf s k) s.readMode.1⟩ ::
    (if detailsOf s = .noDetails then []
     else [⟨detailStyle s k q, ['*'], p.drop 1,
       if detailsOf s = .brief then (if k = .sgr then q.brief else []) else decodeAscii (p.drop 1)⟩])

/-- A separator. -/
def sepSegment (c : Char) : Segment := ⟨[38, 5, 255], [], [], [c]⟩

/-- The segments of an escape sequence that is not ignored. -/
def escSegments (s : Settings) (k : Kind) (p : Bytes) (q : SgrDetails) : List Segment :=
  if s.readMode.1 = .text ∧ s.noSeparators = false ∧ (detailsOf s = .brief ∨ detailsOf s = .full) then
    sepSegment '⢸' :: (escBody s k p q ++ [sepSegment '⡇'])
  else escBody s k p q

/-- The segments of a piece. -/
def segmentsOf (s : Settings) (k : Kind) (p : Bytes) (q : SgrDetails) : List Segment :=
  if isEscKind k = true ∧ displayOf s k ≠ .ignored then escSegments s k p q
  else if k = .ctrl ∧ (detailsOf s = .brief ∨ detailsOf s = .full) then p.flatMap (ctrlSegments s)
  else [⟨kindStyle k (displayOf s k), (kindClass k).typeLabel, p, pieceText s k p⟩]

/-- What is kept of the parameters of a piece. -/
def sgrDetails (k : Kind) (p : Bytes) : Except Err SgrDetails :=
  if k = .sgr then setDetails (csiParams p) else .ok {}

theorem briefLabel_ctrl {b : Byte} (h : isCtrl b = true) : ∃ c, Template.briefLabel b.toNat = some c := by
  have key : ∀ n : Fin 32, (((1 ≤ n.1 ∧ n.1 ≤ 7) ∨ (14 ≤ n.1 ∧ n.1 ≤ 26)) ∨ (28 ≤ n.1 ∧ n.1 ≤ 31)) → (Template.briefLabel n.1).isSome = true := by
    decide
  simp [isCtrl, between] at h
  have := key ⟨b.toNat, by omega⟩ (by simp only; omega)
  exact Option.isSome_iff_exists.1 this

theorem readMode_colorMarkers (s : Settings) : s.readMode.2.colorMarkers = s.colorMarkers := by
  unfold Settings.readMode; split
  · rfl
  · split <;> rfl

theorem readMode_noSeparators (s : Settings) : s.readMode.2.noSeparators = s.noSeparators := by
  unfold Settings.readMode; split
  · rfl
  · split <;> rfl

section
variable {s : Settings} {k : Kind} {t : Template}

theorem tpl_opening (h : TplIs s k t) : t.openingSeq = kindStyle k (displayOf s k) := by
  unfold Template.openingSeq; rw [h.style, h.display]; rfl

theorem tpl_byte (h : TplIs s k t) : t.processByteBase = kindText k (displayOf s k) s.readMode.1 := by
  unfold Template.processByteBase; rw [h.label, h.display, h.read]; rfl

theorem flatMap_single {α β : Type} (f : α → β) (l : List α) : (l.flatMap fun a => [f a]) = l.map f := by
  induction l with
  | nil => rfl
  | cons a l ih => simp [ih]

theorem kindText_ignored (k : Kind) (r : ReadMode) : kindText k .ignored r = ['×'] := rfl

theorem tpl_process {p : Bytes} (h : TplIs s k t) (hw : Wf k p) (hk : isEscKind k = false ∨ displayOf s k = .ignored) :
    t.process p = pieceText s k p := by
  have hb := tpl_byte h
  have hd : t.displayMode = displayOf s k := h.display
  have hr := h.read
  have hdec := h.decode
  have hkind := h.kind
  unfold Template.process pieceText
  by_cases hi : displayOf s k = .ignored
  · rw [if_pos hi]
    have base : ¬(k = .newline ∧ s.readMode.1 = .text) → t.processBase p = p.map fun _ => '×' := by
      intro hn
      unfold Template.processBase
      rw [← flatMap_single]
      congr 1
      funext b
      unfold Template.processByte
      rw [hkind, hb, hi, kindText_ignored, hd, hi, hr]
      cases k <;> simp [tplKind] at hn ⊢
      intro hrt; exact absurd hrt hn
    by_cases hn : k = .newline ∧ s.readMode.1 = .text
    · rw [if_pos hn]
      obtain ⟨rfl, hrt⟩ := hn
      have hp : p = [0x0a] := hw.newline_eq
      subst hp
      simp only [hkind, tplKind, Template.processBase, List.flatMap_cons, List.flatMap_nil, Template.processByte, hr, hrt, if_true, hd, hi, hb, kindText_ignored]
      rfl
    · rw [if_neg hn, ← base hn]
      cases hk : t.kind <;> simp [hd, hi]
  · rw [if_neg hi]
    have hesc : isEscKind k = false := by rcases hk with hk | hk; exact hk; exact absurd hk hi
    have hbase : t.kind ≠ .newline → t.kind ≠ .printable → t.processBase p = p.flatMap fun _ => kindText k (displayOf s k) s.readMode.1 := by
      intro h1 h2
      unfold Template.processBase
      congr 1
      funext b
      unfold Template.processByte
      rw [hb]
      cases hk : t.kind <;> simp_all
    cases k with
    | newline =>
      have hp : p = [0x0a] := hw.newline_eq
      subst hp
      have hlab : kindText .newline (displayOf s .newline) s.readMode.1 = ['↵'] := by
        cases h1 : displayOf s .newline
        · cases h2 : s.readMode.1 <;> rfl
        · cases h2 : s.readMode.1 <;> rfl
        · exact absurd h1 hi
      simp only [hkind, tplKind, Template.processBase, List.flatMap_cons, List.flatMap_nil, Template.processByte, hr, hd, hi, if_false, hb, hlab]
      split <;> simp
    | printable =>
      simp only [hkind, tplKind, Template.processBase]
      rw [← flatMap_single]
      congr 1
      funext b
      simp only [Template.processByte, hkind, tplKind, hd, hi, if_false]
    | utf8 =>
      obtain ⟨c, -, hp⟩ := hw.utf8_eq
      have hlen : 1 ≤ p.length := by
        have := List.length_pos_iff.2 (enc_ne_nil c); rw [hp]; exact this
      have hdc : decodeUtf8 p = [c] := by rw [hp, decodeUtf8_enc]
      simp only [hkind, tplKind, hd, hi, if_false, hr, hdec]
      rw [hbase (by rw [hkind]; simp [tplKind]) (by rw [hkind]; simp [tplKind]), hdc]
      cases hrm : s.readMode.1 with
      | text => simp
      | binary =>
        have hlab : kindText .utf8 (displayOf s .utf8) .binary = ['▯'] := by
          cases h1 : displayOf s .utf8
          · rfl
          · rfl
          · exact absurd h1 hi
        simp only [reduceCtorEq, false_or, if_false, if_true, hlab]
        cases hdd : s.decode.getD false with
        | false => simp only [Bool.false_eq_true, if_false]; rw [flatMap_single]
        | true =>
          simp only [if_true, List.length_singleton, rjust]
          by_cases h1 : 1 < p.length
          · rw [if_pos h1]
          · have : p.length = 1 := by omega
            rw [if_neg h1, if_neg (by omega), this]; rfl
    | reset => cases hesc
    | sgr => cases hesc
    | csi => cases hesc
    | nF => cases hesc
    | fp => cases hesc
    | fe => cases hesc
    | fs => cases hesc
    | _ =>
      simp only [hkind, tplKind]
      exact hbase (by rw [hkind]; simp [tplKind]) (by rw [hkind]; simp [tplKind])

theorem typeLabel_of (k : Kind) : (kindClass k).typeLabel = (kindClass k).typeLabel := rfl

/-- The substitution of a template, in closed form. -/
theorem substitute_eq {p : Bytes} {q : SgrDetails} (h : TplIs s k t) (hw : Wf k p) :
    ({ t with sgr := q } : Template).substitute s.readMode.2 p = .ok (segmentsOf s k p q) := by
  generalize hu : ({ t with sgr := q } : Template) = u
  have hb : u.processByteBase = kindText k (displayOf s k) s.readMode.1 := by rw [← hu]; exact (show t.processByteBase = _ from tpl_byte h)
  have ho : u.openingSeq = kindStyle k (displayOf s k) := by rw [← hu]; exact (show t.openingSeq = _ from tpl_opening h)
  have hd : u.displayMode = displayOf s k := by rw [← hu]; exact h.display
  have hr : u.readMode = s.readMode.1 := by rw [← hu]; exact h.read
  have hm : u.markerDetails = detailsOf s := by rw [← hu]; exact h.marker
  have hkind : u.kind = tplKind k := by rw [← hu]; exact h.kind
  have hcls : u.charClass = kindClass k := by rw [← hu]; exact h.cls
  have hsgr : u.sgr = q := by rw [← hu]
  have hproc : isEscKind k = false ∨ displayOf s k = .ignored → u.process p = pieceText s k p := by
    intro hi; rw [← hu]; exact (show t.process p = _ from tpl_process h hw hi)
  have hbb : u.openingStack.get [] = (kindOpening k).1 := by rw [← hu]; exact h.base
  have hbase : isEscKind k = false ∨ displayOf s k = .ignored →
      u.substituteBase p = [⟨kindStyle k (displayOf s k), (kindClass k).typeLabel, p, pieceText s k p⟩] := by
    intro hi
    unfold Template.substituteBase Template.primarySegment
    rw [hproc hi, ho, hcls]
  have hescape : isEscKind k = true → (tplKind k = .escapeSgr ↔ k = .sgr) →
      u.substituteEscape s.readMode.2 p = segmentsOf s k p q := by
    intro hesc hks
    obtain ⟨x, rfl, -, -⟩ := hw.esc_form hesc
    unfold Template.substituteEscape
    by_cases hi : displayOf s k = .ignored
    · rw [if_pos (by rw [hd, hi])]
      rw [hbase (.inr hi)]
      unfold segmentsOf
      rw [if_neg (by simp [hi]), if_neg (by rintro ⟨rfl, -⟩; cases hesc), hi]
    · rw [if_neg (by rw [hd]; exact hi)]
      unfold segmentsOf
      rw [if_pos (show isEscKind k = true ∧ displayOf s k ≠ .ignored from ⟨hesc, hi⟩)]
      have e1 : ∀ l, u.process [l] = kindText k (displayOf s k) s.readMode.1 := by
        intro l
        unfold Template.process Template.processBase Template.processByte
        rw [hkind, hb]
        cases k <;> first | (cases hesc; done) | simp [tplKind]
      have e2 : u.labelOpeningSeq s.readMode.2.colorMarkers = labelStyle s k q := by
        unfold Template.labelOpeningSeq labelStyle
        rw [readMode_colorMarkers, ho, hsgr]
        simp only [hkind, hks, Sgr.add, List.append_nil]
      have e3 : u.detailsOpeningSeq s.readMode.2.colorMarkers = detailStyle s k q := by
        unfold Template.detailsOpeningSeq detailStyle
        rw [readMode_colorMarkers]
        cases k <;> first | (cases hesc; done) | (simp only [hkind, tplKind, hbb, hsgr]; first | rfl | (cases s.colorMarkers <;> rfl))
      have e4 : u.briefDetails = if k = .sgr then q.brief else [] := by
        unfold Template.briefDetails
        rw [hsgr]; simp only [hkind, hks]
      have hcl : kindClass k = .escapeSeq := by cases k <;> first | (cases hesc; done) | rfl
      have ebody : u.primarySegment (u.labelOpeningSeq s.readMode.2.colorMarkers) ((0x1b :: x).take 1) (u.process ((0x1b :: x).take 1)) :: u.escapeDetails s.readMode.2.colorMarkers ((0x1b :: x).drop 1) = escBody s k (0x1b :: x) q := by
        unfold escBody Template.escapeDetails Template.primarySegment Template.detailsSegment
        rw [e2, e3, e4]
        simp only [List.take_succ_cons, List.take_zero, e1, hm, hcls, hcl, CharClass.typeLabel, typeLabelDetails, List.flatMap_cons, List.flatMap_nil, List.append_nil]
      dsimp only
      rw [ebody]
      unfold escSegments Template.wrapInSeparators
      simp only [hr, hm, readMode_noSeparators]
      cases hrm : s.readMode.1 <;> cases hn : s.noSeparators <;> cases hdd : detailsOf s <;> simp [sepSegment, Sgr.colorIndexed, separatorLeft, separatorRight]
  unfold Template.substitute
  have hctrl : k = .ctrl → u.substituteControl s.readMode.2.colorMarkers p = .ok (segmentsOf s k p q) := by
    rintro rfl
    unfold Template.substituteControl
    rw [hm]
    unfold segmentsOf
    rw [if_neg (show ¬(isEscKind .ctrl = true ∧ displayOf s .ctrl ≠ .ignored) from fun h => by cases h.1)]
    by_cases hx : detailsOf s = .binaryStrict ∨ detailsOf s = .noDetails
    · rw [if_pos hx, if_neg (by rcases hx with hx | hx <;> simp [hx])]
      have := hbase (.inl rfl)
      unfold Template.substituteBase at this
      rw [this]
    · rw [if_neg hx, if_pos ⟨rfl, by cases hdd : detailsOf s <;> simp_all⟩]
      have hall : ∀ b ∈ p, isCtrl b = true := hw.run_all rfl
      clear hw hbase hescape hproc
      induction p with
      | nil => rfl
      | cons b p ih =>
        have hih := ih (fun x hx => hall x (by simp [hx]))
        obtain ⟨c, hc⟩ := briefLabel_ctrl (hall b (by simp))
        have e1 : u.processByte b = kindText .ctrl (displayOf s .ctrl) s.readMode.1 := by
          unfold Template.processByte; rw [hkind, hb]; simp [tplKind]
        have e2 : u.detailsOpeningSeq s.readMode.2.colorMarkers = [31, 48, 5, 16, 4] := by
          unfold Template.detailsOpeningSeq
          simp only [hkind, tplKind, hbb]
          rfl
        have e3 : u.controlDetails s.readMode.2.colorMarkers b = .ok (ctrlDetails s b) := by
          unfold Template.controlDetails ctrlDetails Template.detailsSegment
          rw [e2]
          simp only [hd, hm]
          by_cases hi : displayOf s .ctrl = .ignored
          · rw [if_pos hi, if_pos hi]
          · rw [if_neg hi, if_neg hi]
            cases hdd : detailsOf s <;> simp_all [typeLabelDetails]
        rw [Template.controlLoop, e3]
        simp only
        rw [hih]
        simp only [List.flatMap_cons, ctrlSegments, Template.primarySegment, e1, hcls, kindClass, CharClass.typeLabel]
        rw [ho]
  have hgen : isEscKind k = false → k ≠ .ctrl → .ok (u.substituteBase p) = (Except.ok (segmentsOf s k p q) : Except Err _) := by
    intro h1 h2
    rw [hbase (.inl h1)]
    unfold segmentsOf
    rw [if_neg (by simp [h1]), if_neg (by simp [h2])]
  rw [hkind]
  cases k <;> first
    | exact hctrl rfl
    | exact hgen rfl (by simp)
    | exact congrArg Except.ok (hescape rfl (by simp [tplKind]))

end

/-- The segments of a piece, in closed form. -/
theorem pieceSegments_eq (s : Settings) {k : Kind} {p : Bytes} (hw : Wf k p) :
    pieceSegments (registryOf s) s.readMode.2 k p = (sgrDetails k p).map (segmentsOf s k p) := by
  unfold pieceSegments sgrDetails
  cases h : resolvePiece (registryOf s) k p with
  | error e =>
    obtain ⟨rfl, -, h2⟩ := resolvePiece_err h
    simp [h2, Except.map]
  | ok t =>
    obtain ⟨d, rfl, h1, h2⟩ := resolvePiece_ok h
    simp only
    rw [substitute_eq (create_tpl s k) hw]
    by_cases hk : k = .sgr
    · rw [if_pos hk, h2 hk]; rfl
    · rw [if_neg hk, h1 hk]; rfl

end Kolombos
