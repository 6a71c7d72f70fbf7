import Verif.Lemmas.Shown
/-
C01 - C07: how a chunk is divided into pieces and classified.
-/
set_option linter.unusedSimpArgs false

namespace Kolombos
open Spec

/-! ### C01 lossless tokenisation -/

/-- C01: the scan consists of matches only, the matches are not empty, they
concatenate to the chunk, and for each of them the primary group is the whole
match and has a template (the "no template" `RuntimeError` does not occur). -/
theorem C01_scan (reg : Registry) (raw : Bytes) :
    ∃ ms : List (Match Byte), fSeparator.scan raw = ms.map .matched ∧
      (ms.map fun m => m.text).flatten = raw ∧
      ∀ m ∈ ms, m.text ≠ [] ∧ ∃ i, primaryMgroup m = .ok i ∧ m.group (i + 1) = some m.text ∧
        resolveMatch reg m i ≠ .error .runtimeError := by
  have hs := scan_pieces raw
  have hf := pieces_flatten raw
  have hn := pieces_ne_nil raw
  generalize pieces raw = qs at hs hf hn
  generalize fSeparator.scan raw = its at hs
  suffices ∃ ms : List (Match Byte), its = ms.map .matched ∧ (ms.map fun m => m.text).flatten = (qs.map Prod.snd).flatten ∧
      ∀ m ∈ ms, m.text ≠ [] ∧ ∃ i, primaryMgroup m = .ok i ∧ m.group (i + 1) = some m.text ∧
        resolveMatch reg m i ≠ .error .runtimeError by rw [hf] at this; exact this
  clear hf
  induction hs with
  | nil => exact ⟨[], rfl, rfl, by simp⟩
  | @cons it q its qs hi _ ih =>
    obtain ⟨ms, e, e2, h⟩ := ih fun q hq => hn q (by simp [hq])
    obtain ⟨caps, rfl, hg⟩ := hi
    refine ⟨⟨q.2, caps⟩ :: ms, by simp [e], by simp [e2], ?_⟩
    intro m hm
    rcases List.mem_cons.1 hm with rfl | hm
    · refine ⟨hn q (by simp), _, hg.prim, hg.grp, ?_⟩
      rw [resolveMatch_good hg]
      intro hc
      have := (resolvePiece_err hc).2.1
      cases this
    · exact h m hm

theorem controlDetails_err {t : Template} {b : Bool} {x : Byte} {e : Err}
    (h : t.controlDetails b x = .error e) : e = .keyError := by
  unfold Template.controlDetails at h
  split at h
  · cases h
  · split at h
    · cases h
    · cases h
    · split at h
      · cases h; rfl
      · cases h
    · cases h

theorem controlLoop_err {t : Template} {b : Bool} {p : Bytes} {e : Err}
    (h : t.controlLoop b p = .error e) : e = .keyError := by
  induction p with
  | nil => cases h
  | cons x p ih =>
    unfold Template.controlLoop at h
    split at h
    · rename_i he; cases h; exact controlDetails_err he
    · split at h
      · rename_i he; cases h; exact ih he
      · cases h

theorem substitute_err {t : Template} {s : Settings} {p : Bytes} {e : Err}
    (h : t.substitute s p = .error e) : e = .keyError := by
  unfold Template.substitute at h
  split at h
  · unfold Template.substituteControl at h
    split at h
    · cases h
    · exact controlLoop_err h
  · cases h
  · cases h
  · cases h

/-- C01: parsing never ends with the "Parsing inconsistency" (or any other)
`RuntimeError`, and nothing is carried over to the next chunk. -/
theorem C01_parse (reg : Registry) (s : Settings) (pb : ParserBuffer) (buf : SegmentBuffer) :
    parse reg s pb buf ≠ .error .runtimeError ∧
    ∀ pb' buf', parse reg s pb buf = .ok (pb', buf') → pb'.raw = [] ∧ pb'.closed = pb.closed := by
  rw [parse_eq]
  generalize pieces pb.raw = qs
  have herr : ∀ qs : List (Kind × Bytes), piecesSegments reg s qs ≠ .error .runtimeError := by
    intro qs
    induction qs with
    | nil => intro h; cases h
    | cons q qs ih =>
      intro h
      unfold piecesSegments at h
      split at h
      · rename_i he
        cases h
        unfold pieceSegments at he
        split at he
        · rename_i he'; cases he; have := (resolvePiece_err he').2.1; cases this
        · have := substitute_err he; cases this
      · split at h
        · rename_i he; cases h; exact ih he
        · cases h
  constructor
  · intro h
    split at h
    · rename_i he; cases h; exact herr _ he
    · cases h
  · intro pb' buf' h
    split at h
    · cases h
    · cases h; exact ⟨rfl, rfl⟩

/-- C01: the pieces concatenate to the chunk, none is empty. -/
theorem C01_shown (reg : Registry) (raw : Bytes) :
    ((shown reg raw).map Prod.fst).flatten = raw ∧ ∀ q ∈ shown reg raw, q.1 ≠ [] ∧ q.2 ≠ .error .runtimeError := by
  rw [shown_eq]
  constructor
  · rw [List.map_map]; exact pieces_flatten raw
  · intro q hq
    obtain ⟨x, hx, rfl⟩ := List.mem_map.1 hq
    refine ⟨pieces_ne_nil raw x hx, fun h => ?_⟩
    have := (resolvePiece_err h).2.1
    cases this

/-- Non-trivial case: a chunk with an escape sequence, UTF-8, binary data, text. -/
example : (shown (registryOf {}) [0x1b, 0x5b, 0x31, 0x6d, 0xc3, 0xa9, 0xff, 0x61, 0x62]).map Prod.fst
    = [[0x1b, 0x5b, 0x31, 0x6d], [0xc3, 0xa9], [0xff], [0x61, 0x62]] := by decide +kernel

/-! ### C02 UTF-8 pieces are exactly one valid character -/

theorem substitute_utf8 {s s' : Settings} {p : Bytes} {c : Char} (hp : p = enc c) (hr : s.readMode.1 = .text)
    (hi : s.displayMode .utf8Seq ≠ .ignored) :
    ((registryOf s).tpl .utf8).substitute s' p =
      .ok [⟨((registryOf s).tpl .utf8).openingSeq, ['U'], p, [c]⟩] := by
  have h := create_tpl s .utf8
  simp only [Template.substitute, h.kind, tplKind, Template.substituteBase, Template.primarySegment, h.cls, kindClass,
    CharClass.typeLabel, Template.process, h.display, hi, if_false, h.read, hr, true_or, if_true, hp, decodeUtf8_enc]
  simp

/-- C02: a piece displayed as UTF-8 is the encoding (`String.utf8EncodeChar`) of one
character at or above U+0080; Lean's `Char` is exactly the Unicode scalar values.
In text mode, unless UTF-8 is ignored, exactly that character is displayed. -/
theorem C02_utf8_piece (s : Settings) (raw p : Bytes) (t : Template)
    (h : (p, Except.ok t) ∈ shown (registryOf s) raw) (ht : t.charClass = .utf8Seq) :
    ∃ c : Char, 0x80 ≤ c.toNat ∧ p = String.utf8EncodeChar c ∧
      (s.readMode.1 = .text → s.ignore .utf8Seq = false → ∀ s',
        t.substitute s' p = .ok [⟨t.openingSeq, ['U'], p, [c]⟩]) := by
  rw [shown_eq] at h
  obtain ⟨q, hq, e⟩ := List.mem_map.1 h
  obtain ⟨rfl, ht'⟩ := Prod.mk.inj e
  obtain ⟨b, r, hqq⟩ := pieces_mem hq
  have hk : q.1 = .utf8 := by
    have : kindClass q.1 = .utf8Seq := by
      rw [← ht]; refine (classOf_resolve (s := s) (k := q.1) (p := q.2) ?_).symm
      rw [ht']; rfl
    cases hk : q.1 <;> rw [hk] at this <;> first | rfl | cases this
  rw [hqq] at hk
  obtain ⟨-, c, hc, ec⟩ := piece_utf8 b r hk
  have e' : q.2 = enc c := by rw [hqq]; exact ec
  refine ⟨c, hc, e', ?_⟩
  intro hr hi s'
  obtain ⟨d, rfl, hd, -⟩ := resolvePiece_ok ht'
  rw [hqq] at hd ⊢
  change ((piece b r).1 ≠ _ → _) at hd
  rw [hk] at hd
  rw [hd (by simp)]
  change ({ (registryOf s).tpl (piece b r).1 with sgr := {} } : Template).substitute s' (piece b r).2.1 = _
  rw [hk, ← (create_tpl s .utf8).sgr]
  refine substitute_utf8 ec hr ?_
  unfold Settings.displayMode
  rw [hi]
  cases s.focus .utf8Seq <;> simp

/-- Non-trivial case: `é` between other bytes. -/
example : (shown (registryOf {}) [0x61, 0xc3, 0xa9, 0x0a]).map (fun q => (q.1, classOf q.2)) =
    [([0x61], some .printableChar), ([0xc3, 0xa9], some .utf8Seq), ([0x0a], some .whitespace)] := by
  decide +kernel

/-! ### C03 valid UTF-8 text contains no binary data -/

/-- C03: for the encoding of a text no piece is displayed as binary data, and the
pieces displayed as UTF-8 are its non-ASCII characters in order. -/
theorem C03_text (s : Settings) (l : List Char) :
    (∀ q ∈ shown (registryOf s) (l.flatMap String.utf8EncodeChar), classOf q.2 ≠ some .binaryData) ∧
    ((shown (registryOf s) (l.flatMap String.utf8EncodeChar)).filter
        (fun q => classOf q.2 = some .utf8Seq)).map Prod.fst =
      (l.filter (fun c => 0x80 ≤ c.toNat)).map String.utf8EncodeChar := by
  obtain ⟨h1, h2⟩ := pieces_text l
  rw [shown_eq]
  constructor
  · intro q hq hc
    obtain ⟨x, hx, rfl⟩ := List.mem_map.1 hq
    have := classOf_resolve hc
    have hb := h1 x hx
    cases hk : x.1 <;> rw [hk] at this hb <;> first | exact hb rfl | cases this
  · rw [List.filter_map, List.map_map]
    have : ∀ x ∈ pieces (l.flatMap enc),
        ((fun q : Bytes × Except Err Template => decide (classOf q.2 = some .utf8Seq)) ∘
          fun q : Kind × Bytes => (q.2, resolvePiece (registryOf s) q.1 q.2)) x =
        (fun q : Kind × Bytes => decide (q.1 = .utf8)) x := by
      intro x _
      simp only [Function.comp]
      congr 1
      refine propext ⟨fun h => ?_, fun h => ?_⟩
      · have := classOf_resolve h
        cases hk : x.1 <;> rw [hk] at this <;> first | rfl | cases this
      · rw [h, classOf_resolve' (by simp)]; rfl
    rw [List.filter_congr this, h2, List.map_map]
    rfl

/-- Non-trivial case. -/
example : ((shown (registryOf {}) (['a', 'é', '\x1b', 'ж', '😀'].flatMap String.utf8EncodeChar)).map
    fun q => (q.1.length, classOf q.2)) = [(1, some .printableChar), (2, some .utf8Seq), (1, some .controlChar),
      (2, some .utf8Seq), (4, some .utf8Seq)] := by decide +kernel

/-! ### C04 valid UTF-8 after invalid bytes -/

/-- The character `c` at position `pre.length` is displayed as UTF-8. -/
def Recognised (s : Settings) (pre : Bytes) (c : Char) (post : Bytes) : Prop :=
  ∃ A t B, shown (registryOf s) (pre ++ String.utf8EncodeChar c ++ post) =
      A ++ (String.utf8EncodeChar c, Except.ok t) :: B ∧
    t.charClass = .utf8Seq ∧ (A.map Prod.fst).flatten = pre

/-- C04 as stated is false: `ff c3 a9` is displayed as one run of binary data. -/
theorem C04_negation : ¬ ∀ s pre c post, 0x80 ≤ c.toNat → Recognised s pre c post := by
  intro h
  obtain ⟨A, t, B, e, -, -⟩ := h {} [0xff] 'é' [] (by decide)
  have e2 := congrArg (List.map Prod.fst) e
  rw [show (shown (registryOf {}) ([0xff] ++ String.utf8EncodeChar 'é' ++ [])).map Prod.fst = [[0xff, 0xc3, 0xa9]]
    by decide +kernel] at e2
  have hm : String.utf8EncodeChar 'é' ∈ [[0xff, 0xc3, 0xa9]] := by rw [e2]; simp
  exact absurd hm (by decide)

/-- C04, exactly what holds: let `h` be the bytes with the high bit set directly in
front of the character (`pre = a ++ h`, `a` empty or ending with a 7-bit byte).
The character is displayed as UTF-8 if and only if `h` itself is valid UTF-8. -/
theorem C04_partial (s : Settings) (a h : Bytes) (c : Char) (post : Bytes)
    (ha : ∀ x ∈ a.getLast?, x.toNat < 0x80) (hh : ∀ x ∈ h, 0x80 ≤ x.toNat) (hc : 0x80 ≤ c.toNat) :
    Recognised s (a ++ h) c post ↔ ∃ l : List Char, h = l.flatMap String.utf8EncodeChar := by
  have hh' : ∀ x ∈ h, isHigh x = true := fun x hx => isHigh_iff.2 (hh x hx)
  have hcut : pieces (a ++ h ++ enc c ++ post) = pieces a ++ pieces (h ++ enc c ++ post) := by
    rw [List.append_assoc, List.append_assoc, ← List.append_assoc h]
    apply pieces_mixed
    intro x hx y hy
    have hxl := ha x hx
    have hyh : isHigh y = true := by
      cases h with
      | nil =>
        obtain ⟨b, t, e⟩ := List.exists_cons_of_ne_nil (enc_ne_nil c)
        rw [List.nil_append, e] at hy
        simp at hy
        subst hy
        exact enc_high c hc b (by rw [e]; simp)
      | cons z h =>
        simp at hy
        subst hy
        exact hh' z (by simp)
    rw [hyh]
    intro hx2
    have := isHigh_iff.1 hx2
    omega
  constructor
  · rintro ⟨A, t, B, e, -, hA⟩
    refine Classical.byContradiction fun hv => ?_
    obtain ⟨l, g, rfl, hg, hl, hp⟩ := pieces_badHigh hh' hv c hc post
    rw [shown_eq, hcut, hp] at e
    have e2 := congrArg (List.map Prod.fst) e
    simp only [List.map_map, List.map_append, List.map_cons] at e2
    -- lengths of the first parts
    have key : ∀ (X Y Z W : List Bytes) (x y : Bytes), X ++ x :: Y = Z ++ y :: W →
        X.flatten.length < Z.flatten.length → X.flatten.length + x.length ≤ Z.flatten.length := by
      intro X Y Z W x y h hlt
      rcases List.append_eq_append_iff.1 h with ⟨u, h1, h2⟩ | ⟨u, h1, h2⟩
      · cases u with
        | nil => rw [h1] at hlt; simp at hlt
        | cons v u =>
          rw [List.cons_append] at h2
          obtain ⟨rfl, -⟩ := List.cons.inj h2
          rw [h1]; simp
      · rw [h1] at hlt; simp at hlt; omega
    have fl : (List.map (fun x => enc x) l).flatten = l.flatMap enc := (List.flatMap_def ..).symm
    have := key _ _ _ _ _ _ ((List.append_assoc ..).trans e2) (by
      rw [hA]
      have h1 : (List.map (fun x => x.2) (pieces a)).flatten.length = a.length :=
        congrArg List.length (pieces_flatten a)
      have h2 : (List.map (fun x => enc x) l).flatten.length = (l.flatMap enc).length := congrArg List.length fl
      have h3 := List.length_pos_iff.2 hg
      simp only [List.flatten_append, List.length_append] at *
      simp only [Function.comp_def, List.map_map] at *
      omega)
    rw [hA] at this
    have h1 : (List.map (fun x => x.2) (pieces a)).flatten.length = a.length :=
        congrArg List.length (pieces_flatten a)
    have h2 : (List.map (fun x => enc x) l).flatten.length = (l.flatMap enc).length := congrArg List.length fl
    have h3 := List.length_pos_iff.2 (enc_ne_nil c)
    simp only [List.flatten_append, List.length_append] at *
    simp only [Function.comp_def, List.map_map] at *
    omega
  · rintro ⟨l, rfl⟩
    have hl : ∀ d ∈ l, 0x80 ≤ d.toNat := by
      intro d hd
      refine Decidable.byContradiction fun hn => ?_
      have : UInt8.ofNat d.toNat ∈ l.flatMap enc := List.mem_flatMap.2 ⟨d, hd, by rw [enc1 d (by omega)]; simp⟩
      have := hh _ this
      rw [toNat_ofNat_lt (by omega)] at this
      omega
    refine ⟨(pieces a ++ l.map fun c => (Kind.utf8, enc c)).map (fun q => (q.2, resolvePiece (registryOf s) q.1 q.2)),
      (registryOf s).tpl .utf8, (pieces post).map (fun q => (q.2, resolvePiece (registryOf s) q.1 q.2)), ?_, ?_, ?_⟩
    · rw [shown_eq]
      change (pieces (a ++ l.flatMap enc ++ enc c ++ post)).map _ = _
      rw [hcut, List.append_assoc, pieces_highText l hl, pieces_enc c hc]
      simp [resolvePiece]
    · exact (create_tpl s .utf8).cls
    · rw [List.map_map, List.map_append, List.flatten_append]
      change (List.map Prod.snd (pieces a)).flatten ++ _ = _
      rw [pieces_flatten, List.map_map, List.flatMap_def]
      rfl

/-- Non-trivial cases on both sides: `é` after `a` and a valid character, and after
a stray continuation byte. -/
example : Recognised {} ([0x61] ++ [0xc3, 0xa9]) 'é' [0xff] ∧ ¬ Recognised {} ([0x61] ++ [0xa9]) 'é' [] := by
  constructor
  · refine (C04_partial {} [0x61] [0xc3, 0xa9] 'é' [0xff] (by simp) ?_ (by decide)).2 ⟨['é'], by decide⟩
    intro x hx
    simp at hx
    rcases hx with rfl | rfl <;> decide
  · intro h
    obtain ⟨l, hl⟩ := (C04_partial {} [0x61] [0xa9] 'é' [] (by simp) (by simp) (by decide)).1 h
    cases l with
    | nil => simp at hl
    | cons d l =>
      rw [List.flatMap_cons] at hl
      by_cases hd : d.toNat < 0x80
      · rw [show String.utf8EncodeChar d = enc d from rfl, enc1 d hd] at hl
        have := congrArg UInt8.toNat (List.cons.inj hl).1
        rw [toNat_ofNat_lt (by omega)] at this
        simp at this
        omega
      · obtain ⟨b, t, e, hb, -⟩ := enc_shape d (by omega)
        rw [show String.utf8EncodeChar d = enc d from rfl, e] at hl
        rw [← (List.cons.inj hl).1] at hb
        exact absurd hb (by decide)

/-! ### C05 documented byte ranges -/

/-- C05: every byte outside escape sequences is displayed with its documented class.
(A piece without template is an SGR sequence, see `C06_escape_iff`.) -/
theorem C05_byte_class (s : Settings) (raw p : Bytes) (t : Template)
    (h : (p, Except.ok t) ∈ shown (registryOf s) raw) (ht : t.charClass ≠ .escapeSeq) (b : Byte) (hb : b ∈ p) :
    match docClass b with
    | .whitespace => t.charClass = .whitespace
    | .control => t.charClass = .controlChar
    | .printable => t.charClass = .printableChar
    | .high => t.charClass = .utf8Seq ∨ t.charClass = .binaryData := by
  rw [shown_eq] at h
  obtain ⟨q, hq, e⟩ := List.mem_map.1 h
  obtain ⟨rfl, ht'⟩ := Prod.mk.inj e
  obtain ⟨c, r, rfl⟩ := pieces_mem hq
  have hcl : t.charClass = kindClass (piece c r).1 := by
    refine classOf_resolve (s := s) (p := (piece c r).2.1) ?_
    rw [ht']; rfl
  rw [hcl] at ht ⊢
  clear hcl ht' e h hq
  have hhigh : ∀ b : Byte, isHigh b = true → docClass b = .high := by
    intro b hb
    have := isHigh_iff.1 hb
    unfold docClass
    simp only
    rw [if_neg (by omega), if_neg (by omega), if_neg (by omega)]
  revert ht hb
  apply piece_cases (P := fun q => kindClass q.1 ≠ .escapeSeq → b ∈ q.2.1 → match docClass b with
    | .whitespace => kindClass q.1 = .whitespace
    | .control => kindClass q.1 = .controlChar
    | .printable => kindClass q.1 = .printableChar
    | .high => kindClass q.1 = .utf8Seq ∨ kindClass q.1 = .binaryData)
  · intro hc hu _ hb
    obtain ⟨d, hd, e⟩ := enc_of_utf8Len _ hu
    have hb : b ∈ (c :: r).take (utf8Len (c :: r)) := hb
    rw [e] at hb
    rw [hhigh b (enc_high d hd b hb)]
    exact .inl rfl
  · intro hc hk hb
    rcases escPiece_cases r with ⟨t, ps, is, f, r', -, -, e⟩ | ⟨-, is, f, r', -, e⟩ | ⟨-, -, c', t', -, -, e⟩ |
      ⟨-, -, -, e⟩
    · rw [e] at hk
      rcases csiKind_cases ps f with h | h | h <;> simp only [h] at hk <;> exact absurd rfl hk
    · rw [e] at hk; exact absurd rfl hk
    · rw [e] at hk
      exfalso
      revert hk
      simp only
      split
      · exact fun h => h rfl
      · split <;> exact fun h => h rfl
    · rw [e] at hb ⊢
      simp at hb
      subst hb
      exact rfl
  · rintro rfl _ hb
    simp at hb
    subst hb
    exact rfl
  · intro k p hk hp _ hne hb
    have hpb : p b = true := by
      rcases List.mem_cons.1 hb with rfl | hb
      · exact hp
      · exact takeWhile_all r b hb
    by_cases hkb : k = .binary
    · subst hkb
      cases hk
      rw [hhigh b hpb]
      exact .inr rfl
    · rcases docClass_run hk hkb hpb with ⟨h1, h2⟩ | ⟨h1, h2⟩ | ⟨h1, h2⟩ <;> rw [h2] <;> exact h1

/-- Non-trivial case: one piece of each class. -/
example : (shown (registryOf {}) [0x0d, 0x20, 0x1b, 0x7f, 0x41, 0x80]).map (fun q => classOf q.2) =
    [some .whitespace, some .whitespace, some .controlChar, some .controlChar, some .printableChar,
      some .binaryData] := by decide +kernel

/-! ### C06 escape sequence grammar, C07 SGR / reset / CSI -/

/-- Position of a piece in the list of pieces. -/
theorem shown_at {reg : Registry} {raw : Bytes} {A B : List (Bytes × Except Err Template)} {p : Bytes}
    {t : Except Err Template} (h : shown reg raw = A ++ (p, t) :: B) :
    ∃ b r, p ++ (B.map Prod.fst).flatten = b :: r ∧ p = (piece b r).2.1 ∧
      t = resolvePiece reg (piece b r).1 (piece b r).2.1 := by
  rw [shown_eq] at h
  obtain ⟨A', C, h1, h2, h3⟩ := List.map_eq_append_iff.1 h
  obtain ⟨q, B', rfl, h5, h6⟩ := List.map_eq_cons_iff.1 h3
  have hs := pieces_suffix h1
  obtain ⟨b, r, h7, h8, h9⟩ := pieces_head hs.symm
  obtain ⟨h10, h11⟩ := Prod.mk.inj h5
  refine ⟨b, r, ?_, ?_, ?_⟩
  · rw [← h7, List.map_cons, List.flatten_cons, ← h6, List.map_map, h10]
    rfl
  · rw [← h10, h8]
  · rw [← h11, h8]

/-- Case analysis of the escape forms at the beginning of the input `0x1b :: s`. -/
theorem escPiece_form (s : Bytes) :
    (∃ ps f, IsCsi ps f (escPiece s).2.1 ∧ (escPiece s).1 = csiKind ps f ∧ csiParams (escPiece s).2.1 = ps) ∨
    (IsNf (escPiece s).2.1 ∧ (escPiece s).1 = .nF) ∨
    (IsTwo 0x30 0x3f (escPiece s).2.1 ∧ (escPiece s).1 = .fp) ∨
    (IsTwo 0x40 0x5f (escPiece s).2.1 ∧ (escPiece s).1 = .fe) ∨
    (IsTwo 0x60 0x7e (escPiece s).2.1 ∧ (escPiece s).1 = .fs) ∨
    ((escPiece s).2.1 = [0x1b] ∧ (escPiece s).1 = .esc) := by
  rcases escPiece_cases s with ⟨t, ps, is, f, r, -, h, e⟩ | ⟨-, is, f, r, h, e⟩ | ⟨-, -, c, t, -, h, e⟩ | ⟨-, -, -, e⟩
  · left
    obtain ⟨-, h1, h2, h3⟩ := csiTail_spec h
    rw [e]
    refine ⟨ps, f, isCsi_iff.2 ⟨is, rfl, h1, h2, h3⟩, rfl, ?_⟩
    simp only [csiParams, List.drop_succ_cons, List.drop_zero]
    cases is with
    | nil =>
      rw [List.append_nil]
      exact (takeWhile_append_of_all (r := []) h1 (disjoint_of h3 (by decide))).1
    | cons i is =>
      rw [List.append_assoc]
      exact (takeWhile_append_of_all (r := is ++ [f]) h1 (disjoint_of (h2 i (by simp)) (by decide))).1
  · obtain ⟨-, h1, h2, h3⟩ := nfTail_spec h
    rw [e]
    exact .inr (.inl ⟨isNf_iff.2 ⟨is, f, rfl, h1, h2, h3⟩, rfl⟩)
  · rw [e]
    by_cases h1 : between 0x30 0x3f c = true
    · exact .inr (.inr (.inl ⟨⟨c, rfl, between_Rng.1 h1⟩, by simp only [h1, if_true]⟩))
    by_cases h2 : between 0x40 0x5f c = true
    · exact .inr (.inr (.inr (.inl ⟨⟨c, rfl, between_Rng.1 h2⟩, by simp only [h1, h2, if_true]; rfl⟩)))
    · refine .inr (.inr (.inr (.inr (.inl ⟨⟨c, rfl, ?_⟩, by simp only [h1, h2]; rfl⟩))))
      simp [between, Rng] at *
      omega
  · rw [e]; exact .inr (.inr (.inr (.inr (.inr ⟨rfl, rfl⟩))))

theorem isEscape_length {p : Bytes} (h : IsEscape p) : 2 ≤ p.length := by
  rcases h with ⟨ps, f, is, rfl, -⟩ | ⟨is, f, rfl, -⟩ | ⟨c, rfl, -⟩
  · simp
  · simp
  · simp

theorem isEscape_head {p : Bytes} (h : IsEscape p) : ∃ r, p = 0x1b :: r := by
  rcases h with ⟨ps, f, is, rfl, -⟩ | ⟨is, f, rfl, -⟩ | ⟨c, rfl, -⟩ <;> exact ⟨_, rfl⟩

theorem escClass_iff {s : Settings} {k : Kind} {p : Bytes} :
    (classOf (resolvePiece (registryOf s) k p) = some .escapeSeq ∨
      ∃ e, resolvePiece (registryOf s) k p = .error e) ↔ isEscKind k = true := by
  constructor
  · rintro (h | ⟨e, h⟩)
    · have := classOf_resolve h
      cases k <;> first | rfl | cases this
    · rw [(resolvePiece_err h).1]; rfl
  · intro h
    cases hr : resolvePiece (registryOf s) k p with
    | error e => exact .inr ⟨e, rfl⟩
    | ok t =>
      left
      obtain ⟨d, rfl, -⟩ := resolvePiece_ok hr
      simp only [classOf, tpl_with_sgr]
      cases k <;> first | rfl | cases h

theorem piece_head (b : Byte) (s : Bytes) : ∃ r, (piece b s).2.1 = b :: r := by
  have h := piece_append b s
  have hn := piece_ne_nil b s
  obtain ⟨x, r, e⟩ := List.exists_cons_of_ne_nil hn
  rw [e, List.cons_append] at h
  exact ⟨r, by rw [e, (List.cons.inj h).1]⟩

theorem piece_1b (s : Bytes) : piece 0x1b s = escPiece s := by
  unfold piece; rw [if_neg (by decide), if_pos rfl]

/-- C06: a piece is displayed as an escape sequence (or raises, see C09, instead of
being displayed as one) if and only if it has one of the documented forms. -/
theorem C06_escape_iff (s : Settings) (raw p : Bytes) (t : Except Err Template)
    (h : (p, t) ∈ shown (registryOf s) raw) :
    (classOf t = some .escapeSeq ∨ ∃ e, t = .error e) ↔ IsEscape p := by
  obtain ⟨A, B, h⟩ := List.append_of_mem h
  obtain ⟨b, r, -, rfl, rfl⟩ := shown_at h
  rw [escClass_iff]
  clear h
  by_cases hb : b = 0x1b
  · subst hb
    rw [piece_1b]
    rcases escPiece_form r with ⟨ps, f, h1, h2, -⟩ | ⟨h1, h2⟩ | ⟨h1, h2⟩ | ⟨h1, h2⟩ | ⟨h1, h2⟩ | ⟨h1, h2⟩
    · rw [h2]
      refine iff_of_true ?_ (.inl ⟨ps, f, h1⟩)
      rcases csiKind_cases ps f with h | h | h <;> rw [h] <;> rfl
    · rw [h2]; exact iff_of_true rfl (.inr (.inl h1))
    · rw [h2]
      obtain ⟨c, e, hc⟩ := h1
      exact iff_of_true rfl (.inr (.inr ⟨c, e, by simp [Rng] at *; omega⟩))
    · rw [h2]
      obtain ⟨c, e, hc⟩ := h1
      exact iff_of_true rfl (.inr (.inr ⟨c, e, by simp [Rng] at *; omega⟩))
    · rw [h2]
      obtain ⟨c, e, hc⟩ := h1
      exact iff_of_true rfl (.inr (.inr ⟨c, e, by simp [Rng] at *; omega⟩))
    · rw [h2]
      refine iff_of_false (by decide) fun h => ?_
      have := isEscape_length h
      rw [h1] at this
      simp at this
  · refine iff_of_false ?_ ?_
    · intro hk
      revert hk
      apply piece_cases (P := fun q => isEscKind q.1 = true → False)
      · intro _ _ h; cases h
      · intro h; exact absurd h hb
      · intro _ h; cases h
      · intro k p hk _ _ h
        cases k <;> first | (cases hk; done) | cases h
    · intro h
      obtain ⟨x, hx⟩ := isEscape_head h
      obtain ⟨y, hy⟩ := piece_head b r
      rw [hx] at hy
      exact hb (List.cons.inj hy).1.symm

/-- C06, precedence and completeness: let the input from some piece on be `rest`.  If
`rest` starts with a CSI sequence, that is the piece; otherwise, if it starts with
a sequence of another form, that is the piece; an ESC that starts no sequence is
displayed alone as a control character. -/
theorem C06_escape_first (s : Settings) (raw : Bytes) (A B : List (Bytes × Except Err Template)) (p : Bytes)
    (t : Except Err Template) (h : shown (registryOf s) raw = A ++ (p, t) :: B) (rest : Bytes)
    (hrest : rest = p ++ (B.map Prod.fst).flatten) :
    (∀ ps f q, IsCsi ps f q → q <+: rest → p = q) ∧
    ((∀ ps f q, IsCsi ps f q → ¬ q <+: rest) → ∀ q, IsEscape q → q <+: rest → p = q) ∧
    ((∀ q, IsEscape q → ¬ q <+: rest) → [0x1b] <+: rest → p = [0x1b] ∧ classOf t = some .controlChar) := by
  obtain ⟨b, r, hr, rfl, rfl⟩ := shown_at h
  rw [hr] at hrest
  subst hrest
  clear h hr
  have hcsi : ∀ ps f q, IsCsi ps f q → q <+: b :: r → (piece b r).2.1 = q := by
    rintro ps f q hq ⟨x, hx⟩
    obtain ⟨is, rfl, h1, h2, h3⟩ := isCsi_iff.1 hq
    rw [List.cons_append, List.cons_append, show ps ++ is ++ [f] ++ x = ps ++ is ++ f :: x by simp] at hx
    obtain ⟨rfl, rfl⟩ := List.cons.inj hx
    have hc := csiTail_complete (r := x) h1 h2 h3
    rw [piece_1b]
    simp only [escPiece, if_true, hc]
  refine ⟨hcsi, ?_, ?_⟩
  · intro hno q hq hpre
    rcases hq with ⟨ps, f, hq⟩ | hq | hq
    · exact absurd hpre (hno ps f q hq)
    · obtain ⟨x, hx⟩ := hpre
      obtain ⟨is, f, rfl, h1, h2, h3⟩ := isNf_iff.1 hq
      rw [List.cons_append] at hx
      obtain ⟨rfl, rfl⟩ := List.cons.inj hx
      have hn := nfTail_complete (r := x) h1 h2 h3
      rw [piece_1b]
      rw [show is ++ [f] ++ x = is ++ f :: x by simp]
      rcases escPiece_cases (is ++ f :: x) with ⟨t, ps, is', f', r', e1, -, -⟩ | ⟨-, is', f', r', e1, e⟩ | ⟨-, e1, -⟩ |
        ⟨-, e1, -⟩
      · obtain ⟨c, u, hc, hi⟩ := nfTail_first hn
        rw [e1] at hc
        rw [← (List.cons.inj hc).1] at hi
        exact absurd hi (by decide)
      · rw [hn] at e1
        simp only [Option.some.injEq, Prod.mk.injEq] at e1
        obtain ⟨rfl, rfl, rfl⟩ := e1
        rw [e]
      · rw [hn] at e1; cases e1
      · rw [hn] at e1; cases e1
    · obtain ⟨x, hx⟩ := hpre
      obtain ⟨c, rfl, hc⟩ := hq
      obtain ⟨rfl, rfl⟩ := List.cons.inj hx
      rw [piece_1b]
      have hcb : between 0x30 0x7e c = true := between_Rng.2 hc
      rcases escPiece_cases (c :: x) with ⟨t, ps, is', f', r', e1, e2, e⟩ | ⟨-, is', f', r', e1, e⟩ |
        ⟨-, -, c', t', e1, -, e⟩ | ⟨-, -, e1, -⟩
      · exfalso
        obtain ⟨rfl, rfl⟩ := List.cons.inj e1
        obtain ⟨e3, h1, h2, h3⟩ := csiTail_spec e2
        exact hno ps f' _ (isCsi_iff.2 ⟨is', rfl, h1, h2, h3⟩) ⟨r', by
          change _ = 0x1b :: 0x5b :: x
          rw [e3]; simp⟩
      · obtain ⟨c', u, hc', hi⟩ := nfTail_first e1
        obtain ⟨rfl, rfl⟩ := List.cons.inj hc'
        rw [show isInter c = false from disjoint_of hcb (by decide)] at hi
        cases hi
      · change (escPiece (c :: x)).2.1 = _
        rw [e]
        obtain ⟨rfl, rfl⟩ := List.cons.inj e1
        rfl
      · rw [e1 c x rfl] at hcb; cases hcb
  · rintro hno ⟨x, hx⟩
    rw [List.cons_append, List.nil_append] at hx
    obtain ⟨rfl, rfl⟩ := List.cons.inj hx
    have hne : ∀ q, IsEscape q → (piece 0x1b x).2.1 ≠ q := by
      rintro q hq rfl
      exact hno _ hq ⟨(piece 0x1b x).2.2, piece_append _ _⟩
    rw [piece_1b] at hne ⊢
    rcases escPiece_form x with ⟨ps, f, h1, h2, -⟩ | ⟨h1, h2⟩ | ⟨⟨c, h1, hc⟩, h2⟩ | ⟨⟨c, h1, hc⟩, h2⟩ |
      ⟨⟨c, h1, hc⟩, h2⟩ | ⟨h1, h2⟩
    · exact absurd rfl (hne _ (.inl ⟨ps, f, h1⟩))
    · exact absurd rfl (hne _ (.inr (.inl h1)))
    · exact absurd rfl (hne _ (.inr (.inr ⟨c, h1, by simp [Rng] at *; omega⟩)))
    · exact absurd rfl (hne _ (.inr (.inr ⟨c, h1, by simp [Rng] at *; omega⟩)))
    · exact absurd rfl (hne _ (.inr (.inr ⟨c, h1, by simp [Rng] at *; omega⟩)))
    · exact ⟨h1, by rw [h2]; exact classOf_resolve' (by simp)⟩

/-- Non-trivial cases: a CSI sequence with parameters and intermediates, one that is
cut (displayed as two-byte sequence `ESC [`), an nF sequence, a lone ESC. -/
example : (shown (registryOf {}) [0x1b, 0x5b, 0x3f, 0x31, 0x20, 0x68, 0x1b, 0x5b, 0x31, 0x1b, 0x28, 0x42, 0x1b]).map
    (fun q => (q.1, markerOf q.2)) = [([0x1b, 0x5b, 0x3f, 0x31, 0x20, 0x68], some ['Ͻ']), ([0x1b, 0x5b], some ['Ǝ']),
      ([0x31], some []), ([0x1b, 0x28, 0x42], some ['ꟻ']), ([0x1b], some ['∌'])] := by decide +kernel

theorem isCsi_unique {ps ps' : Bytes} {f f' : Byte} {p : Bytes} (h : IsCsi ps f p) (h' : IsCsi ps' f' p) :
    ps = ps' ∧ f = f' := by
  obtain ⟨is, rfl, h1, h2, h3⟩ := isCsi_iff.1 h
  obtain ⟨is', e, h1', h2', h3'⟩ := isCsi_iff.1 h'
  have e := (List.cons.inj (List.cons.inj e).2).2
  have a := csiTail_complete (r := []) h1 h2 h3
  have b := csiTail_complete (r := []) h1' h2' h3'
  rw [e, b] at a
  simp only [Option.some.injEq, Prod.mk.injEq] at a
  exact ⟨a.1.symm, a.2.2.1.symm⟩

/-- C07: a CSI sequence gets the marker `θ` (reset) if its final byte is `m` and the
parameter string is empty or `0`; `ǝ` (SGR; or an exception instead, see C09) if
the final byte is `m` otherwise; `Ͻ` if the final byte is not `m`. -/
theorem C07_csi_marker (s : Settings) (raw p : Bytes) (t : Except Err Template)
    (h : (p, t) ∈ shown (registryOf s) raw) (ps : Bytes) (f : Byte) (hp : IsCsi ps f p) :
    (f = 0x6d ∧ (ps = [] ∨ ps = [0x30]) → markerOf t = some ['θ']) ∧
    (f = 0x6d ∧ ps ≠ [] ∧ ps ≠ [0x30] → markerOf t = some ['ǝ'] ∨ t = .error .valueError) ∧
    (f ≠ 0x6d → markerOf t = some ['Ͻ']) := by
  obtain ⟨A, B, h⟩ := List.append_of_mem h
  obtain ⟨b, r, -, rfl, rfl⟩ := shown_at h
  clear h
  obtain ⟨y, hy⟩ := piece_head b r
  obtain ⟨x, hx⟩ := isEscape_head (.inl ⟨ps, f, hp⟩)
  rw [hx] at hy
  have hb : b = 0x1b := (List.cons.inj hy).1.symm
  subst hb
  rw [piece_1b] at hp hx ⊢
  have hk : (escPiece r).1 = csiKind ps f := by
    rcases escPiece_form r with ⟨ps', f', h1, h2, -⟩ | ⟨h1, h2⟩ | ⟨⟨c, h1, hc⟩, h2⟩ | ⟨⟨c, h1, hc⟩, h2⟩ |
      ⟨⟨c, h1, hc⟩, h2⟩ | ⟨h1, h2⟩
    · obtain ⟨rfl, rfl⟩ := isCsi_unique hp h1
      exact h2
    · exfalso
      obtain ⟨is, e, -⟩ := hp
      obtain ⟨is', f', e', h3, h4, -⟩ := isNf_iff.1 h1
      rw [e] at e'
      cases is' with
      | nil => exact h3 rfl
      | cons i is' =>
        have := (List.cons.inj (List.cons.inj e').2).1
        have h5 := h4 i (by simp)
        rw [← this] at h5
        exact absurd h5 (by decide)
    · obtain ⟨is, e, -⟩ := hp
      have := congrArg List.length (e.symm.trans h1)
      simp at this
    · obtain ⟨is, e, -⟩ := hp
      have := congrArg List.length (e.symm.trans h1)
      simp at this
    · obtain ⟨is, e, -⟩ := hp
      have := congrArg List.length (e.symm.trans h1)
      simp at this
    · obtain ⟨is, e, -⟩ := hp
      have := congrArg List.length (e.symm.trans h1)
      simp at this
  rw [hk]
  refine ⟨?_, ?_, ?_⟩
  · rintro ⟨rfl, h⟩
    rw [show csiKind ps 0x6d = .reset by simp [csiKind, h]]
    exact markerOf_resolve' (by simp)
  · rintro ⟨rfl, h1, h2⟩
    rw [show csiKind ps 0x6d = .sgr by simp [csiKind, h1, h2]]
    cases hr : resolvePiece (registryOf s) .sgr (escPiece r).2.1 with
    | error e => right; rw [(resolvePiece_err hr).2.1]
    | ok t =>
      left
      have := markerOf_resolve (s := s) (k := .sgr) (p := (escPiece r).2.1) (m := t.labelStack.get []) (by rw [hr]; rfl)
      simp only [markerOf, this]
      rfl
  · intro h
    rw [show csiKind ps f = .csi by simp [csiKind, h]]
    exact markerOf_resolve' (by simp)

/-- Non-trivial cases: `ESC[m`, `ESC[0m`, `ESC[00m`, `ESC[1;31m`, `ESC[2J`. -/
example : (shown (registryOf {}) [0x1b, 0x5b, 0x6d, 0x1b, 0x5b, 0x30, 0x6d, 0x1b, 0x5b, 0x30, 0x30, 0x6d,
    0x1b, 0x5b, 0x31, 0x3b, 0x33, 0x31, 0x6d, 0x1b, 0x5b, 0x32, 0x4a]).map (fun q => markerOf q.2) =
    [some ['θ'], some ['θ'], some ['ǝ'], some ['ǝ'], some ['Ͻ']] := by decide +kernel

end Kolombos
