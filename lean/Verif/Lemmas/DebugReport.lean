import Verif.Lemmas.DebugRows
/-
What the debug messages say.
-/
set_option linter.unusedSimpArgs false

namespace Kolombos
open Spec

/-- The text shows the characters `x` and leaves the style as it was. -/
def Says (a : Style) (t x : Str) : Prop := ∃ v, Shows a t a v ∧ v.map Prod.fst = x

namespace Says

theorem nil (a : Style) : Says a [] [] := ⟨[], .nil a, rfl⟩

theorem text (a : Style) {t : Str} (h : '\x1b' ∉ t) : Says a t t := ⟨_, .text a h, inStyle_fst a t⟩

theorem plain (a : Style) {t : Str} (h : PlainStr t) : Says a t t := text a (plain_noEsc h)

theorem append {a : Style} {t u x y : Str} (h : Says a t x) (h' : Says a u y) : Says a (t ++ u) (x ++ y) := by
  obtain ⟨v, h1, h2⟩ := h
  obtain ⟨w, h3, h4⟩ := h'
  exact ⟨v ++ w, h1.append h3, by rw [List.map_append, h2, h4]⟩

theorem span {a : Style} {o : Sgr} {t x : Str} (h : Says (applySgr o a) t x) (ho : applySgr (Sgr.closing o) (applySgr o a) = a) :
    Says a (Kolombos.span o t) x := by
  obtain ⟨v, h1, h2⟩ := h
  have h3 := Shows.sgr (applySgr o a) (Sgr.closing o)
  rw [ho] at h3
  refine ⟨v, ?_, h2⟩
  have := ((Shows.sgr a o).append h1).append h3
  simpa [Kolombos.span] using this

theorem visible {t x : Str} (h : Says {} t x) : Spec.visible t = x := by
  obtain ⟨v, h1, h2⟩ := h
  rw [h1.visible, h2]

theorem cast {a : Style} {t x y : Str} (h : Says a t x) (e : x = y) : Says a t y := e ▸ h

end Says

theorem separator_says (s : Settings) : Says {} (Console.separator s) ['│'] := by
  unfold Console.separator
  split
  · exact Says.span (Says.plain _ (by decide)) (by decide)
  · exact Says.span (Says.plain _ (by decide)) (by decide)

/-- A prefix with an offset. -/
theorem offsetPrefix_says (s : Settings) (off color : Nat) (hc : color ∈ [32, 33, 35, 36, 90]) :
    Says {} (Console.formatPrefixWithOffset s off [color, 40]) (offsetText s off) := by
  have hax : 'x' ∉ Sgr.assemble [color, 40] := by
    have : ∀ c ∈ [32, 33, 35, 36, 90], 'x' ∉ Sgr.assemble [c, 40] := by decide
    exact this color hc
  have hcx : 'x' ∉ Sgr.assemble (Sgr.closing [color, 40]) := by
    have : ∀ c ∈ [32, 33, 35, 36, 90], 'x' ∉ Sgr.assemble (Sgr.closing [c, 40]) := by decide
    exact this color hc
  have hst : applySgr (Sgr.closing [color, 40]) (applySgr [color, 40] {}) = {} := by
    have : ∀ c ∈ [32, 33, 35, 36, 90], applySgr (Sgr.closing [c, 40]) (applySgr [c, 40] {}) = {} := by decide
    exact this color hc
  have hdim : applySgr (Sgr.closing [2]) (applySgr [2] (applySgr [color, 40] {})) = applySgr [color, 40] {} := by
    have : ∀ c ∈ [32, 33, 35, 36, 90], applySgr (Sgr.closing [2]) (applySgr [2] (applySgr [c, 40] {})) = applySgr [c, 40] {} := by decide
    exact this color hc
  have hfig : offsetFigures s off = Console.offsetLabel s off := rfl
  unfold Console.formatPrefixWithOffset Console.formatPrefix offsetText
  rw [hfig]
  have hspx : ∀ k, 'x' ∉ List.replicate k ' ' := fun k hm => absurd (List.mem_replicate.1 hm).2 (by decide)
  cases hd : s.decimalOffsets with
  | true =>
    have hlab : Console.offsetLabel s off = dec off := by unfold Console.offsetLabel; rw [if_pos hd]
    rw [hlab]
    have hp : ∀ c ∈ rjust 8 ' ' ((dec off).take 8), isControlChar c = false :=
      rjust_plain (by decide) fun c hc => dec_plain off c (List.mem_of_mem_take hc)
    rw [dim0x_noX]
    · exact (Says.span (Says.plain _ hp) hst).append (separator_says s)
    · simp only [span, rjust, List.mem_append, not_or]
      exact ⟨⟨⟨hax, hspx _, fun hm => dec_noX off 'x' (.inl rfl) (List.mem_of_mem_take hm)⟩, hcx⟩, separator_noX s⟩
  | false =>
    obtain ⟨w, hlab⟩ : ∃ w, Console.offsetLabel s off = '0' :: 'x' :: hexPad w off := by
      unfold Console.offsetLabel; rw [if_neg (by simp [hd])]; exact ⟨_, rfl⟩
    rw [hlab]
    simp only [List.take_succ_cons]
    generalize hD : (hexPad w off).take 6 = D
    have hx : 'x' ∉ D := by
      rw [← hD]; intro hm
      obtain ⟨d, h, e⟩ := hexPad_digits _ _ _ (List.mem_of_mem_take hm)
      exact hexDigit_ne_x d h e.symm
    have hp : ∀ c ∈ D, isControlChar c = false := by
      rw [← hD]; intro c hm
      exact hexPad_plain _ _ c (List.mem_of_mem_take hm)
    unfold alignRight
    generalize hK : 8 - ('0' :: 'x' :: D).length = K
    have e : span [color, 40] (rjust 8 ' ' ('0' :: 'x' :: D)) ++ Console.separator s =
        (Sgr.assemble [color, 40] ++ List.replicate K ' ') ++ ('0' :: 'x' :: (D ++ (Sgr.assemble (Sgr.closing [color, 40]) ++ Console.separator s))) := by
      simp only [span, rjust, hK, List.append_assoc, List.cons_append]
    have e' : Console.dim0x (span [color, 40] (rjust 8 ' ' ('0' :: 'x' :: D)) ++ Console.separator s) =
        span [color, 40] (List.replicate K ' ' ++ span [2] ['0', 'x'] ++ D) ++ Console.separator s := by
      rw [e, dim0x_append', dim0x_0x, dim0x_noX]
      · simp [span]
      · simp only [List.mem_append, not_or]
        exact ⟨hx, hcx, separator_noX s⟩
      · simp only [List.mem_append, not_or]
        exact ⟨hax, hspx _⟩
      · simp
    rw [e']
    have := (Says.span (((Says.plain _ (replicate_plain K)).append (Says.span (Says.plain _ (t := ['0', 'x']) (by decide)) hdim)).append (Says.plain _ hp)) hst).append
      (separator_says s)
    simpa using this

/-! ### Bytes in figures -/

theorem formatPlain_bytes {f : Segment → Str} {p : Byte → Str} (h : ∀ g, f g = g.raw.flatMap p) (out : List Chainable) :
    Debug.formatPlain f out = (rawOf out).flatMap p := by
  unfold Debug.formatPlain rawOf
  rw [List.flatMap_assoc]
  congr 1
  funext c
  cases c with
  | seg g => exact h g
  | _ => rfl

theorem formatPlain_hex (out : List Chainable) : Debug.formatPlain segRawToHex out = (rawOf out).flatMap fun b => ' ' :: hexPair b := by
  refine formatPlain_bytes (fun g => ?_) out
  unfold segRawToHex
  congr 1
  funext b
  rw [hexPad2]; rfl

theorem safe_eq (b : Byte) : (if (9 ≤ b.toNat ∧ b.toNat ≤ 13) ∨ b.toNat = 32 then '·'
    else if 33 ≤ b.toNat ∧ b.toNat ≤ 126 then Char.ofNat b.toNat else '▯') = plainChar b := by
  have key : ∀ n : Fin 256, (if (9 ≤ n.1 ∧ n.1 ≤ 13) ∨ n.1 = 32 then '·'
    else if 33 ≤ n.1 ∧ n.1 ≤ 126 then Char.ofNat n.1 else '▯') = plainChar (UInt8.ofNat n.1) := by decide +kernel
  have := key ⟨b.toNat, b.toNat_lt⟩
  simpa using this

theorem formatPlain_safe (out : List Chainable) : Debug.formatPlain Debug.segRawToSafe out = (rawOf out).map plainChar := by
  rw [formatPlain_bytes (p := fun b => [plainChar b])]
  · rw [List.map_eq_flatMap]
  · intro g
    unfold Debug.segRawToSafe
    rw [← List.map_eq_flatMap]
    congr 1
    funext b
    exact safe_eq b

theorem spacedHex_join (v : Bytes) : join [' '] (v.map fun b => hexPad 2 b.toNat) = spacedHex v := by
  induction v with
  | nil => rfl
  | cons b v ih =>
    cases v with
    | nil => simp only [List.map_cons, List.map_nil, join, spacedHex, hexPad2]; rfl
    | cons c v =>
      rw [List.map_cons] at ih
      simp only [List.map_cons, join, spacedHex] at ih ⊢
      rw [ih, hexPad2]
      simp [hexPair]

theorem spacedHex_length (b : Byte) (v : Bytes) : (spacedHex (b :: v)).length = 3 * v.length + 2 := by
  induction v generalizing b with
  | nil => rfl
  | cons c v ih =>
    rw [spacedHex, List.length_append, List.length_cons, ih]
    simp [hexPair]; omega

theorem spacedHex_last (v : Bytes) (b : Byte) : ∃ t, spacedHex (v ++ [b]) = t ++ hexPair b := by
  induction v with
  | nil => exact ⟨[], rfl⟩
  | cons c v ih =>
    obtain ⟨t, e⟩ := ih
    cases v with
    | nil => exact ⟨hexPair c ++ [' '], by simp [spacedHex]⟩
    | cons d v =>
      refine ⟨hexPair c ++ ' ' :: t, ?_⟩
      have : spacedHex (c :: d :: v ++ [b]) = hexPair c ++ ' ' :: spacedHex (d :: v ++ [b]) := rfl
      rw [this, e]; simp

theorem brief_eq (v : Bytes) :
    (spacedHex v).take 8 ++ (if (spacedHex v).length > 8 then ".. ".toList ++ (spacedHex v).drop ((spacedHex v).length - 2) else []) = briefHex v := by
  unfold briefHex
  by_cases h : v.length ≤ 3
  · rw [if_pos h]
    have hl : (spacedHex v).length ≤ 8 := by
      cases v with
      | nil => decide
      | cons b v => rw [spacedHex_length]; simp at h; omega
    rw [if_neg (by omega), List.take_of_length_le hl, List.append_nil]
  · rw [if_neg h]
    match v, h with
    | a :: b :: c :: d :: v, _ =>
      have hl := spacedHex_length a (b :: c :: d :: v)
      rw [if_pos (by rw [hl]; simp; omega)]
      obtain ⟨w, z, e⟩ : ∃ w z, a :: b :: c :: d :: v = w ++ [z] := by
        refine ⟨(a :: b :: c :: d :: v).dropLast, (a :: b :: c :: d :: v).getLast (by simp), ?_⟩
        rw [List.dropLast_append_getLast]
      have e1 : (spacedHex (a :: b :: c :: d :: v)).drop ((spacedHex (a :: b :: c :: d :: v)).length - 2) = hexPair z := by
        rw [e]
        obtain ⟨t, et⟩ := spacedHex_last w z
        rw [et]
        rw [show (t ++ hexPair z).length - 2 = t.length by simp [hexPair]]
        exact List.drop_left
      have e2 : (a :: b :: c :: d :: v).drop ((a :: b :: c :: d :: v).length - 1) = [z] := by
        rw [e, List.length_append]
        exact List.drop_left
      rw [e1, e2]
      simp [spacedHex, hexPair]
    | [], h => simp at h
    | [a], h => simp at h
    | [a, b], h => simp at h
    | [a, b, c], h => simp at h

theorem bold_says {t : Str} (h : PlainStr t) : Says {} (Debug.bold t) t := Says.span (Says.plain _ h) (by decide)

theorem spacedHex_plain (v : Bytes) : PlainStr (spacedHex v) := by rw [← spacedHex_join]; exact hexList_plain v

theorem printd_says (s : Settings) (v : Bytes) :
    Says {} (Debug.printd s v) ("len ".toList ++ Nat.toDigits 10 v.length ++
      (if s.debug < 3 then [] else [' ', '['] ++ (if s.debug = 3 then briefHex v else spacedHex v) ++ [']'])) := by
  unfold Debug.printd
  have h0 : Says {} ("len ".toList ++ Debug.bold (dec v.length)) ("len ".toList ++ dec v.length) :=
    (Says.plain _ (by decide)).append (bold_says (dec_plain _))
  have h1 : ∀ t : Str, PlainStr t → Says {} ("len ".toList ++ Debug.bold (dec v.length) ++ [' '] ++ Sgr.assemble [90] ++ ['['] ++ t ++ [']'] ++ Sgr.assemble [39])
      ("len ".toList ++ dec v.length ++ ([' ', '['] ++ t ++ [']'])) := by
    intro t ht
    have hp : PlainStr (['['] ++ t ++ [']']) := (PlainStr.append (by decide) ht).append (by decide)
    have := (h0.append (Says.plain {} (t := [' ']) (by decide))).append
      (Says.span (o := [90]) (Says.plain (applySgr [90] {}) hp) (by decide))
    have e : Sgr.assemble (Sgr.closing [90]) = Sgr.assemble [39] := by decide
    simpa [span, e, List.append_assoc] using this
  simp only
  by_cases hd : s.debug < 3
  · rw [if_pos hd, if_pos hd, List.append_nil]; exact h0
  · by_cases hv : v = []
    · subst hv
      have := h1 [] (by intro c hc; cases hc)
      simp only [List.append_nil, List.append_assoc, List.cons_append, List.nil_append] at this
      simp only [hd, if_false, List.length_nil, if_true, briefHex, spacedHex, Nat.zero_le, ite_self, List.append_nil, List.append_assoc, List.cons_append,
        List.nil_append]
      exact this
    rw [if_neg hd, if_neg hd, if_neg (by simpa using hv), spacedHex_join]
    by_cases hd' : s.debug = 3
    · rw [if_pos hd', if_neg (by omega), brief_eq]
      refine h1 _ ?_
      rw [← brief_eq]
      refine PlainStr.append (fun c hc => spacedHex_plain v c (List.mem_of_mem_take hc)) ?_
      split
      · exact PlainStr.append (by decide) fun c hc => spacedHex_plain v c (List.mem_of_mem_drop hc)
      · intro c hc; cases hc
    · rw [if_neg hd', if_pos (by omega)]
      exact h1 _ (spacedHex_plain v)

/-! ### Debug rows -/

/-- The line of a total. -/
def TotalText (s : Settings) (t : Str) : Prop := ∃ n, visible t = offsetText s n ++ ['\n']

/-- The row and the debug row above it. -/
def MirrorRow (s : Settings) (t u : Str) : Prop :=
  ∃ off fill bytes chars, bytes ≠ [] ∧ chars.length = bytes.length ∧ visible t = dumpLine s off fill bytes chars ∧
    visible u = dumpLine s off fill bytes (bytes.map plainChar)

/-- Every write of the display comes with its debug row. -/
def PairedEvs (s : Settings) (evs : List Ev) : Prop :=
  ∀ a t b, evs = a ++ .out t :: b → TotalText s t ∨ ∃ a' u, a = a' ++ [.dbg 1 u] ∧ MirrorRow s t u

namespace PairedEvs

variable {s : Settings} {α β : Type}

theorem nil : PairedEvs s [] := by intro a t b h; simp at h

theorem append {x y : List Ev} (h : PairedEvs s x) (h' : PairedEvs s y) : PairedEvs s (x ++ y) := by
  intro a t b e
  rcases List.append_eq_append_iff.1 e with ⟨c, rfl, e2⟩ | ⟨c, e1, e2⟩
  · rcases h' c t b e2 with h | ⟨a', u, rfl, h⟩
    · exact .inl h
    · exact .inr ⟨x ++ a', u, by simp, h⟩
  · cases c with
    | nil =>
      rw [List.append_nil] at e1
      subst e1
      rcases h' [] t b e2.symm with h | ⟨a', u, e, h⟩
      · exact .inl h
      · simp at e
    | cons d c =>
      obtain ⟨rfl, -⟩ := List.cons.inj e2
      exact h a t c e1

theorem messages {x : List Ev} (h : ∀ e ∈ x, ∃ l u, e = .dbg l u) : PairedEvs s x := by
  intro a t b e
  obtain ⟨l, u, h⟩ := h (.out t) (by rw [e]; simp)
  cases h

theorem bind {t : Trace α} {f : α → Trace β} (ht : PairedEvs s t.evs) (hf : ∀ a, t.res = .ok a → PairedEvs s (f a).evs) : PairedEvs s (t.bind f).evs := by
  unfold Trace.bind
  split
  · rename_i a h
    exact ht.append (hf a h)
  · exact ht
  · exact ht

theorem log {es : List Ev} {t : Trace α} (h : PairedEvs s es) (ht : PairedEvs s t.evs) : PairedEvs s (Trace.log es t).evs := h.append ht

end PairedEvs

/-- Only messages. -/
def OnlyMessages {α : Type} (t : Trace α) : Prop := ∀ e ∈ t.evs, ∃ l u, e = .dbg l u

theorem PairedEvs.quiet {s : Settings} {α : Type} {t : Trace α} (h : OnlyMessages t) : PairedEvs s t.evs := .messages h

theorem onlyMessages_of_fine {α : Type} {t : Trace α} (h : AllEvs (EvFine fun _ => False) t) : OnlyMessages t := by
  intro e he
  cases e with
  | out u => exact (h _ he).elim
  | dbg l u => exact ⟨l, u, rfl⟩

namespace Debug

theorem write_message (d : Buffer) (s : Settings) (l : Nat) (t : Str) (o : Option Nat) : ∃ l' u, d.write s l t o = .dbg l' u := ⟨_, _, rfl⟩

/-- A row of the display and the debug row above it. -/
theorem row_dump {s : Settings} (hd : 1 ≤ s.debug) (c off : Nat) {out : List Chainable} {os : List Segment} (h : OutRel out os)
    (hf : ∀ g ∈ os, Fit g) (hne : os ≠ []) : ∃ x u fill bytes chars, BinaryFormatter.rowEvents s c off (total os) out = [.dbg 3 x, .dbg 1 u] ∧
      bytes.length = total os ∧ bytes ≠ [] ∧ chars.length = bytes.length ∧
      visible (Kolombos.BinaryFormatter.row s c off (total os) out) = dumpLine s off fill bytes chars ∧
      visible u = dumpLine s off fill bytes (bytes.map plainChar) := by
  have hpo : s.printOffsets = true := by rw [← printOffsets_eq]; simp [offsetsShown]; omega
  refine ⟨_, _, 3 * (c - (queueCells os).length), rawOf out, (queueCells os).map Cell.char, rfl, by rw [h.raw]; rfl, ?_, ?_, ?_, ?_⟩
  · rw [h.raw]
    obtain ⟨g, os, rfl⟩ := List.exists_cons_of_ne_nil hne
    have := (hf g (by simp)).ne
    simp [this]
  · rw [h.raw, List.length_map, queueCells_length hf]; rfl
  · rw [(shows_row s c off h hf).visible, rowLayout_text]
    unfold rowLine dumpLine
    rw [prefText_eq, if_pos hpo]
    have e : ((queueCells os).flatMap Cell.hex).map Prod.fst = (rawOf out).flatMap fun b => ' ' :: hexPair b := by
      rw [h.raw, ← queueCells_byte hf, List.map_flatMap, List.flatMap_map]
      rfl
    rw [e]
    simp only [sepChar, hpo, if_true, offsetText, List.append_assoc, List.cons_append, List.nil_append]
    rfl
  · have hlen : (rawOf out).length = total os := by rw [h.raw]; rfl
    have e : ((c : Int) - (total os : Nat)).toNat = c - (queueCells os).length := by rw [queueCells_length hf]; omega
    have hb : PlainStr (List.replicate (3 * (c - (queueCells os).length)) ' ') := replicate_plain _
    have hx : PlainStr (formatPlain segRawToHex out) := formatPlain_plain segRawToHex_plain out
    have hs : PlainStr (formatPlain segRawToSafe out) := formatPlain_plain segRawToSafe_plain out
    have h1 := (offsetPrefix_says s off 33 (by decide)).append
      ((((((Says.plain {} hx).append (Says.plain _ hb)).append (Says.plain {} (t := [' ']) (by decide))).append (separator_says s)).append (Says.plain _ hs)))
    have h2 := h1.append (Says.text {} (t := ['\n']) (by decide))
    have := h2.visible
    rw [pyRepeat_blank, e, if_pos hpo]
    show visible (Console.formatPrefixWithOffset s off [33, 40] ++ _ ++ _) = _
    rw [this, formatPlain_hex, formatPlain_safe]
    simp [dumpLine]

theorem row_mirror {s : Settings} (hd : 1 ≤ s.debug) (c off : Nat) {out : List Chainable} {os : List Segment} (h : OutRel out os)
    (hf : ∀ g ∈ os, Fit g) (hne : os ≠ []) : ∃ x u, BinaryFormatter.rowEvents s c off (total os) out = [.dbg 3 x, .dbg 1 u] ∧
      MirrorRow s (Kolombos.BinaryFormatter.row s c off (total os) out) u := by
  obtain ⟨x, u, fill, bytes, chars, h1, -, h2, h3, h4, h5⟩ := row_dump hd c off h hf hne
  exact ⟨x, u, h1, off, fill, bytes, chars, h2, h3, h4, h5⟩

theorem binLoop_paired {s : Settings} (hd : 1 ≤ s.debug) (c : Nat) (closed : Bool) (fuel : Nat) :
    ∀ (r : Nat) (b : SegmentBuffer) (o : Bool) (gs : List Segment) (off : Nat), (0 < r ∨ closed = true ∧ gs = []) → Rep b o gs → (∀ g ∈ gs, Fit g) →
      PairedEvs s (BinaryFormatter.loop s c r closed fuel b off).evs := by
  induction fuel with
  | zero => intro r b o gs off _ _ _; exact .nil
  | succ fuel ih =>
    intro r b o gs off hr h hf
    rw [BinaryFormatter.loop]
    refine .log (.messages (by simp only [List.mem_cons, List.not_mem_nil, or_false, forall_eq]; exact write_message _ _ _ _ _))
      (.bind (.quiet (onlyMessages_of_fine (detachBytes_fine _ _ _ _))) fun q hq => ?_)
    have hres := res_of (detachBytes_erases s b r closed) hq
    obtain ⟨q1, q2⟩ := q
    cases q1 with
    | wait => exact .nil
    | eof => exact .nil
    | ok out =>
      simp only
      by_cases he : gs = []
      · subst he
        exfalso
        cases closed with
        | true => rw [detachBytes_eof h] at hres; cases hres
        | false =>
          have : 0 < r := by rcases hr with hr | ⟨hr, -⟩; exact hr; cases hr
          rw [detachBytes_wait h (by rw [total_nil]; exact this)] at hres; cases hres
      · have hr' : 0 < r := by
          rcases hr with hr | ⟨-, hr⟩
          · exact hr
          · exact absurd hr he
        by_cases hw : r ≤ total gs ∨ closed = true
        · obtain ⟨out', b', os, rs, o', e1, e2, e3, e4, e5, e6, e7, e8⟩ := detachBytes_row h hf hr' he hw
          rw [e1] at hres
          cases hres
          have hos : os ≠ [] := by
            rintro rfl
            have h0 := congrArg List.length e7
            rw [List.length_take, queueCells_length hf] at h0
            have : 0 < total gs := by
              obtain ⟨g, gs', rfl⟩ := List.exists_cons_of_ne_nil he
              rw [total_cons]
              have := List.length_pos_iff.2 (hf g (by simp)).ne
              unfold Segment.dataLen; omega
            simp [queueCells] at h0
            omega
          rw [e6]
          obtain ⟨x, u, e9, e10⟩ := row_mirror hd c off e5 e4 hos
          refine .log ?_ (ih r _ o' rs _ (.inl hr') e2 e3)
          rw [e9]
          intro a t b e
          match a, e with
          | [], e => cases e
          | [_], e => cases e
          | [_, _], e => 
            simp only [List.cons_append, List.nil_append, List.cons.injEq, Ev.out.injEq] at e
            obtain ⟨rfl, rfl, rfl, -⟩ := e
            exact .inr ⟨[.dbg 3 x], u, rfl, e10⟩
          | _ :: _ :: _ :: _, e => simp at e
        · exfalso
          have : closed = false := by cases closed with | false => rfl | true => exact absurd (.inr rfl) hw
          subst this
          rw [detachBytes_wait h (by omega)] at hres; cases hres

theorem total_says (s : Settings) (n : Nat) : TotalText s (Console.formatTotalSize s n ++ ['\n']) := by
  refine ⟨n, ?_⟩
  unfold Console.formatTotalSize
  rw [((shows_prefix s 36 n (.inr rfl)).append (Shows.text {} (s := ['\n']) (by decide))).visible, List.map_append, prefixLayout_text]
  rfl

theorem binFormat_paired {s : Settings} (hd : 1 ≤ s.debug) {c : Nat} (hc : 0 < c) (closed : Bool) {gs : List Segment} {o : Bool} {b : SegmentBuffer}
    (h : Rep b o gs) (hf : ∀ g ∈ gs, Fit g) (off fuel : Nat) (term : Int)
    (hcols : Kolombos.BinaryFormatter.curCols s term off = c) : PairedEvs s (BinaryFormatter.format fuel s term closed b off).evs := by
  unfold BinaryFormatter.format
  simp only
  rw [hcols]
  refine .log ?_ (.bind ?_ fun r _ => ?_)
  · refine .messages ?_
    split
    · simp only [List.mem_cons, List.not_mem_nil, or_false, forall_eq]; exact write_message _ _ _ _ _
    · simp
  · have hlen : b.dataLen = total gs := h.dataLen
    have : ∃ r : Nat, (if closed then min (b.dataLen : Int) c else c) = r ∧ (0 < r ∨ closed = true ∧ gs = []) := by
      cases closed with
      | false => exact ⟨c, rfl, .inl hc⟩
      | true =>
        refine ⟨min b.dataLen c, by simp only [if_true]; omega, ?_⟩
        cases gs with
        | nil => exact .inr ⟨rfl, rfl⟩
        | cons g gs =>
          left
          have := List.length_pos_iff.2 (hf g (by simp)).ne
          rw [total_cons, Segment.dataLen] at hlen; omega
    obtain ⟨r, e, hr⟩ := this
    rw [e]
    exact binLoop_paired hd c closed fuel r b o gs off hr h hf
  · split
    · refine .log ?_ .nil
      intro a t b e
      cases a with
      | nil =>
        simp only [List.nil_append, List.cons.injEq, Ev.out.injEq] at e
        rw [← e.1]
        exact .inl (total_says s _)
      | cons _ a => simp at e
    · exact .nil

theorem readMode_offsetText (s : Settings) (n : Nat) : offsetText s.readMode.2 n = offsetText s n := by
  unfold Settings.readMode
  repeat' split
  all_goals rfl

theorem readMode_paired {s : Settings} {evs : List Ev} (h : PairedEvs s.readMode.2 evs) : PairedEvs s evs := by
  unfold PairedEvs TotalText MirrorRow dumpLine at *
  simp only [readMode_offsetText] at h
  exact h

theorem readMode_debug (s : Settings) : s.readMode.2.debug = s.debug := by
  unfold Settings.readMode
  repeat' split
  all_goals rfl

theorem processChunk_paired {s : Settings} (hd : 1 ≤ s.debug) (hm : s.readMode.1 = .binary) {st : State} (h : Held s st) (fuel : Nat) {term : Nat → Int}
    (hp : PosCols s term) (wide : Nat → Int) (raw : Bytes) (off : Nat) (finish : Bool) :
    PairedEvs s (processChunk fuel (Config.create s) term wide st raw off finish).evs := by
  unfold processChunk
  refine .log (.messages ?_) (.bind (.quiet (onlyMessages_of_fine (parse_fine _ _ _ _ _))) fun r hr => .bind ?_ fun st' _ => .log (.messages ?_) .nil)
  · intro e he
    have := appendEvents_fine (P := fun _ => False) _ _ _ _ e he
    cases e with
    | out u => exact this.elim
    | dbg l u => exact ⟨l, u, rfl⟩
  · have hres := res_of (parse_erases _ _ _ _ _) hr
    rw [parse_chunk] at hres
    simp only [ParserBuffer.appendRaw, h.parser, List.nil_append] at hres
    split at hres
    · cases hres
    · cases hres
      unfold formatStep
      rw [config_mode, config_settings, hm]
      obtain ⟨H, hh, hn⟩ := h.1 hm
      obtain ⟨o, gs, h1, h2, rfl⟩ := hh.held
      obtain ⟨c, hc, hcols⟩ := hp.get st.calls st.offset
      have hf : ∀ g ∈ gs ++ chunkSegs s raw, Fit g := by
        intro g hg
        rcases List.mem_append.1 hg with hg | hg
        · exact h2 g hg
        · exact chunkSegs_fit hm raw g hg
      refine .bind (readMode_paired (binFormat_paired (by rw [readMode_debug]; exact hd) hc _ (h1.attach (chunkSegs s raw)) hf _ _ _
        (by rw [readMode_curCols]; exact hcols))) fun r _ => .nil
  · simp only [List.mem_cons, List.not_mem_nil, or_false, forall_eq]; exact write_message _ _ _ _ _

theorem readLoop_paired {σ : Type} {s0 : Settings} (s : Settings) (src : Source) (mb ml : Option Int) {cb : σ → Bytes → Nat → Bool → Trace σ}
    {I : σ → Prop} (h : ∀ st raw o f, I st → PairedEvs s0 (cb st raw o f).evs)
    (hI : ∀ st raw o st', I st → (cb st raw o false).res = .ok st' → I st') (io : List IoStep) :
    ∀ off lines chunks pos st, I st → PairedEvs s0 (readLoop s src mb ml cb io off lines chunks pos st).evs := by
  have he : ∀ off, PairedEvs s0 [eofEvent s off] := fun off =>
    .messages (by simp only [List.mem_cons, List.not_mem_nil, or_false, forall_eq]; exact write_message _ _ _ _ _)
  induction io with
  | nil => intro off lines chunks pos st hi; exact .log (he _) (h _ _ _ _ hi)
  | cons i io ih =>
    intro off lines chunks pos st hi
    cases i with
    | raise e => exact .nil
    | data raw =>
      rw [readLoop]
      split
      · exact .log (he _) (h _ _ _ _ hi)
      · refine .log (.messages (by simp only [List.mem_cons, List.not_mem_nil, or_false, forall_eq]; exact write_message _ _ _ _ _)) ?_
        split
        · exact .nil
        · rename_i w hw
          refine .log (.messages ?_) ?_
          · intro e he
            have := limitEvents_fine (P := fun _ => False) _ (position_plain hw) _ _ _ _ _ e he
            cases e with
            | out u => exact this.elim
            | dbg l u => exact ⟨l, u, rfl⟩
          · split
            · exact .log (he _) (h _ _ _ _ hi)
            · refine .bind (h _ _ _ _ hi) fun st' hst => ?_
              simp only
              split
              · exact .log (he _) (h _ _ _ _ (hI _ _ _ _ hi hst))
              · exact ih _ _ _ _ _ (hI _ _ _ _ hi hst)

/-- The first two messages of the reader. -/
def openEvents (s : Settings) (src : Source) (size : Int) : List Ev :=
  [reader.write s 1 (match src with
    | .stdin => "Reading from stdin".toList
    | .file name _ => "Opened file: ".toList ++ bold name),
   reader.write s 2 ("Read buffer: size ".toList ++ bold (intStr size))]

theorem read_evs {σ : Type} (s : Settings) (src : Source) (size : Int) (mb ml : Option Int)
    (cb : σ → Bytes → Nat → Bool → Trace σ) (io : List IoStep) (st : σ) :
    (read s src size none mb ml cb io st).evs = (Trace.log (openEvents s src size) (readLoop s src mb ml cb io 0 0 0 0 st)).evs := by
  unfold read openEvents
  simp only
  split <;> rfl

/-- In binary mode every row comes with its debug row. -/
theorem byteIoRun_paired {s : Settings} (hd : 1 ≤ s.debug) (hm : s.readMode.1 = .binary) (fuel : Nat) (src : Source) {term : Nat → Int} (hp : PosCols s term)
    (wide : Nat → Int) (opened : Option Err) (io : List IoStep) : PairedEvs s (byteIoRun fuel s src term wide opened io).evs := by
  unfold byteIoRun
  refine .log (.messages ?_) ?_
  · split
    · simp
    · simp only [List.mem_cons, List.not_mem_nil, or_false, forall_eq]; exact write_message _ _ _ _ _
  · cases opened with
    | some e => exact .nil
    | none =>
      have hl : PairedEvs s (readLoop (Config.create s).settings src (Config.create s).settings.maxBytes (Config.create s).settings.maxLines
          (processChunk fuel (Config.create s) term wide) io 0 0 0 0 {}).evs := by
        refine readLoop_paired _ _ _ _ (I := Held s) (fun st raw o f h => processChunk_paired hd hm h _ hp _ _ _ _) ?_ _ _ _ _ _ _ (.start s)
        intro st raw o st' h e
        rw [(processChunk_erases _ _ _ _ _ _ _ _).res] at e
        exact processChunk_held h _ (fun _ => hp) _ _ _ e
      rw [read_evs]
      exact .log (.messages (forall_pair (write_message _ _ _ _ _) (write_message _ _ _ _ _))) hl

/-! ### Chunks -/

theorem chunkEvent_says (s : Settings) {c : Bytes} (hc : c ≠ []) (off k : Nat) : ∃ u, chunkEvent s c off k = .dbg 1 u ∧
    some (visible u) = (chunkReports s k off [c]).head? := by
  refine ⟨_, rfl, ?_⟩
  have h := ((offsetPrefix_says s off 35 (by decide)).append
    ((((Says.plain {} (t := "Read chunk #".toList) (by decide)).append (Says.plain _ (dec_plain k))).append (Says.plain {} (t := [':', ' ']) (by decide))).append
      (printd_says s c))).append (Says.text {} (t := ['\n']) (by decide))
  have := h.visible
  show some (visible (Console.formatPrefixWithOffset s off [35, 40] ++ _ ++ _)) = _
  rw [this]
  simp [chunkReports, dec]

theorem readLoop_reports {σ : Type} (s : Settings) (src : Source) {cb : σ → Bytes → Nat → Bool → Trace σ} (cs : List Bytes) (hcs : ∀ c ∈ cs, c ≠ []) :
    ∀ off lines chunks pos st st', (readLoop s src none none cb (cs.map .data) off lines chunks pos st).res = .ok st' →
      ∃ us : List Str, (us.map (.dbg 1)).Sublist (readLoop s src none none cb (cs.map .data) off lines chunks pos st).evs ∧
        us.map visible = chunkReports s chunks off cs := by
  induction cs with
  | nil => intro off lines chunks pos st st' _; exact ⟨[], List.nil_sublist _, rfl⟩
  | cons c cs ih =>
    intro off lines chunks pos st st' hr
    have hc := hcs c (by simp)
    rw [List.map_cons, readLoop, if_neg hc] at hr ⊢
    obtain ⟨u, e1, e2⟩ := chunkEvent_says s hc off chunks
    rw [e1] at hr ⊢
    cases hw : position src (pos + c.length) with
    | error e => rw [hw] at hr; cases hr
    | ok w =>
      rw [hw] at hr
      simp only [Reader.limitLines, Reader.bytesExceeded, Reader.limitReached, Bool.or_self, Bool.false_eq_true, if_false] at hr ⊢
      simp only [Trace.log] at hr ⊢
      unfold Trace.bind at hr ⊢
      cases hres : (cb st c off false).res with
      | err e => rw [hres] at hr; cases hr
      | timeout => rw [hres] at hr; cases hr
      | ok st2 =>
        rw [hres] at hr
        simp only at hr ⊢
        obtain ⟨us, i1, i2⟩ := ih (fun c hc => hcs c (by simp [hc])) _ _ _ _ _ _ hr
        refine ⟨u :: us, ?_, ?_⟩
        · simp only [List.map_cons, List.singleton_append]
          exact .cons_cons _ ((i1.trans (List.sublist_append_right _ _)).trans (List.sublist_append_right _ _))
        · rw [List.map_cons, i2]
          have e3 : chunkReports s chunks off (c :: cs) = ((chunkReports s chunks off [c]).head?.getD []) :: chunkReports s (chunks + 1) (off + c.length) cs := rfl
          rw [e3, ← e2]; rfl

end Debug

end Kolombos
