import Verif.Lemmas.TextFacts
import Verif.Lemmas.BinFacts
import Verif.Lemmas.Params
import Verif.Spec.Legend
/-
The segments of a piece display what the legend says.
-/
set_option linter.unusedSimpArgs false

namespace Kolombos
open Spec

theorem classOfKind_eq (k : Kind) : classOfKind k = kindClass k := by cases k <;> rfl

theorem utf8Char_enc (c : Char) (h : 0x80 ≤ c.toNat) : utf8Char (enc c) = [c] := by
  have hv := char_valid c
  have m64 : c.toNat % 64 < 64 := Nat.mod_lt _ (by decide)
  have m64' : c.toNat / 64 % 64 < 64 := Nat.mod_lt _ (by decide)
  have m64'' : c.toNat / 4096 % 64 < 64 := Nat.mod_lt _ (by decide)
  have tn : ∀ n, n < 256 → (UInt8.ofNat n).toNat = n := by
    intro n hn; simp; omega
  by_cases h2 : c.toNat < 0x800
  · rw [enc2 c h h2]
    simp only [utf8Char]
    rw [tn _ (by omega), tn _ (by omega)]
    congr 1
    conv => rhs; rw [← chr_of_toNat c]
    unfold chr
    congr 1
    omega
  by_cases h3 : c.toNat < 0x10000
  · rw [enc3 c (by omega) h3]
    simp only [utf8Char]
    rw [tn _ (by omega), tn _ (by omega), tn _ (by omega)]
    congr 1
    conv => rhs; rw [← chr_of_toNat c]
    unfold chr
    congr 1
    omega
  · rw [enc4 c (by omega)]
    simp only [utf8Char]
    rw [tn _ (by omega), tn _ (by omega), tn _ (by omega), tn _ (by omega)]
    congr 1
    conv => rhs; rw [← chr_of_toNat c]
    unfold chr
    congr 1
    omega

/-! ### Parameters -/

theorem splitOn_fields (ps : Bytes) (h : ∀ b ∈ ps, b.toNat < 128) : splitOn ';' (asciiText ps) = (fields ps).map asciiText := by
  induction ps with
  | nil => rfl
  | cons b r ih =>
    have ih := ih fun b hb => h b (by simp [hb])
    have hb := h b (by simp)
    have e : (chr b.toNat = ';') ↔ b = 0x3b := chr_eq_iff hb (by decide : (0x3b : Byte).toNat < 128)
    show splitOn ';' (chr b.toNat :: asciiText r) = _
    rw [splitOn, fields, ih]
    by_cases hx : b = 0x3b
    · rw [if_pos hx, if_pos (e.2 hx)]; rfl
    · rw [if_neg hx, if_neg (fun hh => hx (e.1 hh))]
      cases fields r <;> rfl

theorem fields_lt {ps : Bytes} (h : ∀ b ∈ ps, b.toNat < 128) : ∀ q ∈ fields ps, ∀ b ∈ q, b.toNat < 128 := by
  induction ps with
  | nil => intro q hq b hb; simp [fields] at hq; subst hq; cases hb
  | cons x r ih =>
    have ih := ih fun b hb => h b (by simp [hb])
    intro q hq b hb
    rw [fields] at hq
    split at hq
    · rcases List.mem_cons.1 hq with rfl | hq
      · cases hb
      · exact ih q hq b hb
    · cases hf : fields r with
      | nil => rw [hf] at hq; simp at hq; subst hq; simp at hb; subst hb; exact h _ (by simp)
      | cons q' qs =>
        rw [hf] at hq ih
        simp only at hq
        rcases List.mem_cons.1 hq with rfl | hq
        · rcases List.mem_cons.1 hb with rfl | hb
          · exact h _ (by simp)
          · exact ih q' (by simp) b hb
        · exact ih q (by simp [hq]) b hb

theorem digitsVal_eq (q : Bytes) (h : ∀ b ∈ q, b.toNat < 128) (a : Nat) (hd : ∀ b ∈ q, between 0x30 0x39 b = true) :
    (asciiText q).foldl (fun n c => n * 10 + (c.toNat - 48)) a = q.foldl (fun a b => 10 * a + (b.toNat - 0x30)) a := by
  induction q generalizing a with
  | nil => rfl
  | cons b r ih =>
    show (asciiText r).foldl _ _ = r.foldl _ _
    have : (chr b.toNat).toNat = b.toNat := chr_toNat (.inl (by have := h b (by simp); omega))
    simp only [this, Nat.mul_comm a 10]
    exact ih (fun b hb => h b (by simp [hb])) _ fun b hb => hd b (by simp [hb])

theorem headField (q : Bytes) (h : ∀ b ∈ q, b.toNat < 128) :
    (splitOn ':' (asciiText q)).headD [] = asciiText (q.takeWhile (· ≠ 0x3a)) := by
  rw [splitOn_eq]
  simp only [List.headD_cons]
  induction q with
  | nil => rfl
  | cons b q ih =>
    have hb := h b (by simp)
    have := ih fun b hb => h b (by simp [hb])
    have hiff : chr b.toNat = ':' ↔ b = 0x3a := chr_eq_iff hb (by decide : (0x3a : Byte).toNat < 128)
    unfold asciiText at this ⊢
    rw [List.map_cons, List.takeWhile_cons, List.takeWhile_cons]
    by_cases hc : b = 0x3a
    · rw [if_neg (by simpa using hiff.2 hc), if_neg (by simpa using hc)]; rfl
    · rw [if_pos (by simpa using fun h => hc (hiff.1 h)), if_pos (by simpa using hc), List.map_cons, this]

theorem pyInt_number {q : Bytes} (h : ∀ b ∈ q, b.toNat < 128) {n : Nat}
    (hp : pyInt ((splitOn ':' (asciiText q)).headD []) = .ok n) : n = fieldNumber q := by
  rw [headField q h] at hp
  unfold pyInt at hp
  split at hp
  · rename_i hx
    have hd : ∀ b ∈ q.takeWhile (· ≠ 0x3a), between 0x30 0x39 b = true := by
      intro b hb
      have hm : b ∈ q := (List.takeWhile_prefix _).subset hb
      have := List.all_eq_true.1 hx.2 (chr b.toNat) (List.mem_map_of_mem hb)
      have := (isDigit_chr (h b hm)).1 this
      simpa [between, Rng] using this
    have e : q.takeWhile (between 0x30 0x39) = q.takeWhile (· ≠ 0x3a) := by
      clear * - hd
      induction q with
      | nil => rfl
      | cons b q ih =>
        by_cases hb : b = 0x3a
        · subst hb; rfl
        · have hpos : (decide (b ≠ 0x3a)) = true := by simpa using hb
          rw [List.takeWhile_cons_of_pos (p := fun x => decide (x ≠ 0x3a)) hpos] at hd ⊢
          rw [List.takeWhile_cons_of_pos (hd b (by simp)), ih fun b hb => hd b (List.mem_cons_of_mem _ hb)]
    simp only [Except.ok.injEq] at hp
    subst hp
    unfold fieldNumber
    rw [e]
    exact digitsVal_eq _ (fun b hb => h b ((List.takeWhile_prefix _).subset hb)) 0 hd
  · cases hp

theorem parsePcodes_numbers (qs : List Bytes) (h : ∀ q ∈ qs, ∀ b ∈ q, b.toNat < 128) {l : List Nat}
    (hp : parsePcodes (qs.map asciiText) = .ok l) : l = (qs.filter (· ≠ [])).map fieldNumber := by
  induction qs generalizing l with
  | nil => cases hp; rfl
  | cons q qs ih =>
    have ih := fun l => @ih (fun q hq => h q (by simp [hq])) l
    rw [List.map_cons, parsePcodes] at hp
    by_cases hq : q = []
    · subst hq
      rw [if_pos (show asciiText [] = [] from rfl)] at hp
      simpa using ih l hp
    · rw [if_neg (by simpa [asciiText] using hq)] at hp
      split at hp
      · cases hp
      · rename_i n hn
        have := pyInt_number (h q (by simp)) hn
        split at hp
        · cases hp
        · rename_i r hr
          cases hp
          simp [hq, this, ih r hr]

theorem hex6_eq (n : Nat) : hexPadUpper 6 n = hex6 n := by
  unfold hexPadUpper hex6 hex
  simp

theorem allowed_harmless (p : Nat) (h : ¬(p = 38 ∨ p = 48)) :
    (SgrItem.code p).harmless = if allowedSgr p then [p] else [] := by
  unfold SgrItem.harmless allowedSgr
  simp only [Bool.or_eq_true, Bool.and_eq_true, decide_eq_true_eq, beq_iff_eq]
  split <;> split <;> first | rfl | omega

theorem sgrItems_code (n : Nat) (r : List Nat) (h1 : ¬((n = 38 ∨ n = 48) ∧ ∃ x t, r = 5 :: x :: t))
    (h2 : ¬((n = 38 ∨ n = 48) ∧ ∃ x y z t, r = 2 :: x :: y :: z :: t)) : sgrItems (n :: r) = .code n :: sgrItems r := by
  rw [sgrItems.eq_def]
  split
  · rename_i e; cases e; exact absurd ⟨.inl rfl, _, _, rfl⟩ h1
  · rename_i e; cases e; exact absurd ⟨.inr rfl, _, _, rfl⟩ h1
  · rename_i e; cases e; exact absurd ⟨.inl rfl, _, _, _, _, rfl⟩ h2
  · rename_i e; cases e; exact absurd ⟨.inr rfl, _, _, _, _, rfl⟩ h2
  · rename_i e; cases e; rfl
  · rename_i e; cases e

theorem pcodesLoop_items (n : Nat) (ps : List Nat) (h : ps.length ≤ n) :
    pcodesLoop n ps = ((sgrItems ps).flatMap SgrItem.harmless, (sgrItems ps).map SgrItem.name) := by
  induction n generalizing ps with
  | zero =>
    have : ps = [] := List.eq_nil_of_length_eq_zero (by omega)
    subst this; rfl
  | succ n ih =>
    cases ps with
    | nil => rfl
    | cons p ps =>
      simp only [List.length_cons] at h
      unfold pcodesLoop
      by_cases hp : p = 38 ∨ p = 48
      · rw [if_pos hp]
        simp only
        split
        · rename_i x r
          simp only [List.length_cons] at h
          rw [ih r (by omega)]
          rcases hp with rfl | rfl <;> simp [sgrItems, SgrItem.harmless, SgrItem.name, dec]
        · rename_i x y z r
          simp only [List.length_cons] at h
          rw [ih r (by omega)]
          have e : x * 256 * 256 + y * 256 + z = 65536 * x + 256 * y + z := by omega
          rcases hp with rfl | rfl <;> simp [sgrItems, SgrItem.harmless, SgrItem.name, hex6_eq, e]
        · rename_i g1 g2
          rw [ih ps (by omega), sgrItems_code]
          · have : (SgrItem.code p).harmless = [] := by rcases hp with rfl | rfl <;> rfl
            simp [this, SgrItem.name, dec]
          · rintro ⟨-, x, t, e⟩; exact g1 x t e
          · rintro ⟨-, x, y, z, t, e⟩; exact g2 x y z t e
      · rw [if_neg hp]
        simp only
        rw [ih ps (by omega), sgrItems_code _ _ (fun h => hp h.1) (fun h => hp h.1)]
        simp only [List.flatMap_cons, List.map_cons, allowed_harmless p hp]
        split <;> simp [SgrItem.name, dec]

/-- The parameters of an SGR sequence, in terms of the documentation. -/
theorem setDetails_items {ps : Bytes} {d : SgrDetails} (h : ∀ b ∈ ps, b.toNat < 128) (hd : setDetails ps = .ok d) :
    d.opening = (sgrItems (numbers ps)).flatMap SgrItem.harmless ∧
      d.brief = join briefSeparator ((sgrItems (numbers ps)).map SgrItem.name) := by
  unfold setDetails at hd
  rw [decodeAscii_text h, splitOn_fields ps h] at hd
  split at hd
  · cases hd
  · rename_i l hl
    have := parsePcodes_numbers _ (fields_lt h) hl
    cases hd
    rw [pcodesLoop_items _ _ (Nat.le_refl _)]
    subst this
    exact ⟨rfl, rfl⟩

theorem namesLayout_dotted (st : Style) (ns : List Str) : (namesLayout st ns).map Prod.fst = dotted ns := by
  induction ns with
  | nil => rfl
  | cons x r ih =>
    cases r with
    | nil => rw [namesLayout, inStyle_fst, dotted]
    | cons y r =>
      rw [namesLayout, List.map_append, inStyle_fst, List.map_cons, ih]
      rfl

theorem strip_names (ns : List Str) (h : ∀ x ∈ ns, '\x1b' ∉ x) : stripSgr (join briefSeparator ns) = dotted ns := by
  have h0 := shows_names { underline := 1 } rfl ns h
  have := ((Shows.sgr {} [4]).append h0).strip
  rw [(Clean.sgr [4]).strip_append] at this
  have e : stripSgr (Sgr.assemble [4]) = [] := (Shows.sgr {} [4]).strip
  rw [e] at this
  simpa [namesLayout_dotted] using this

/-! ### Characters of the segments of a piece -/

/-- The characters of some segments. -/
def plainOf (gs : List Segment) : Str := gs.flatMap fun g => stripSgr g.processed

theorem plainOf_append (a b : List Segment) : plainOf (a ++ b) = plainOf a ++ plainOf b := by simp [plainOf]

theorem plainOf_cons (g : Segment) (gs : List Segment) : plainOf (g :: gs) = stripSgr g.processed ++ plainOf gs := rfl

theorem plainOf_flatMap {α : Type} (f : α → List Segment) (l : List α) : plainOf (l.flatMap f) = l.flatMap fun a => plainOf (f a) := by
  induction l with
  | nil => rfl
  | cons a l ih => rw [List.flatMap_cons, plainOf_append, ih]; rfl

theorem displayOf_ignored (s : Settings) (k : Kind) : displayOf s k = .ignored ↔ s.ignore (classOfKind k) = true := by
  rw [classOfKind_eq]
  unfold displayOf Settings.displayMode
  split
  · simp [*]
  · split <;> simp [*]

theorem displayOf_focused (s : Settings) (k : Kind) (h : s.ignore (classOfKind k) = false) :
    displayOf s k = if s.focus (classOfKind k) then .focused else .default := by
  rw [classOfKind_eq] at *
  unfold displayOf Settings.displayMode
  rw [if_neg (by simp [h])]

/-- The marker of a kind in text mode. -/
theorem kindText_symbol (k : Kind) {d : DisplayMode} (hd : d ≠ .ignored) (hk : k ≠ .printable) (hu : k ≠ .utf8) :
    kindText k d .text = (if k = .space ∧ d = .focused then ['·'] else if k = .tab then ['⇥', '\t'] else [symbol k]) := by
  cases d
  · cases k <;> first | rfl | exact absurd rfl hk | exact absurd rfl hu
  · cases k <;> first | rfl | exact absurd rfl hk | exact absurd rfl hu
  · exact absurd rfl hd

theorem symbol_noEsc (k : Kind) : '\x1b' ∉ [symbol k] := by cases k <;> decide

theorem level_details {s : Settings} (hr : s.readMode.1 = .text) :
    detailsOf s = (if level s = 0 then .noDetails else if level s = 1 then .brief else .full) := by
  rw [details_text hr]
  unfold level
  split
  · rfl
  · split <;> rfl

theorem hexPad_two (b : Byte) : hexPad 2 b.toNat = [hexDigit (b.toNat / 16), hexDigit (b.toNat % 16)] := by
  have : ∀ n : Fin 256, hexPad 2 n.1 = [hexDigit (n.1 / 16), hexDigit (n.1 % 16)] := by decide +kernel
  exact this ⟨b.toNat, b.toNat_lt⟩

theorem briefLabel_caret {b : Byte} (h : isCtrl b = true) : Template.briefLabel b.toNat = some (Char.ofNat (b.toNat + 0x40)) := by
  have key : ∀ n : Fin 32, (((1 ≤ n.1 ∧ n.1 ≤ 7) ∨ (14 ≤ n.1 ∧ n.1 ≤ 26)) ∨ (28 ≤ n.1 ∧ n.1 ≤ 31)) →
      Template.briefLabel n.1 = some (Char.ofNat (n.1 + 0x40)) := by
    decide
  simp [isCtrl, between] at h
  exact key ⟨b.toNat, by omega⟩ (by simp only; omega)

theorem isCtrl_lt {b : Byte} (h : isCtrl b = true) : b.toNat < 32 ∧ 0 < b.toNat := by
  simp [isCtrl, between] at h; omega

theorem Wf.params_lt {k : Kind} {p : Bytes} (hw : Wf k p) (hk : k = .sgr) : ∀ b ∈ csiParams p, b.toNat < 128 := by
  obtain ⟨t, rfl, -, ht⟩ := hw.esc_form (by rw [hk]; rfl)
  intro b hb
  have hm : b ∈ t := by
    unfold csiParams at hb
    have := (List.takeWhile_prefix _).subset hb
    exact List.mem_of_mem_drop (i := 1) (by simpa using this)
  have := ht b hm
  simp [between] at this
  omega

/-- The characters after the symbol of an escape sequence. -/
theorem escDetail_plain {s : Settings} (hr : s.readMode.1 = .text) {k : Kind} {p : Bytes} {q : SgrDetails} (hw : Wf k p) (hk : isEscKind k = true)
    (hq : sgrDetails k p = .ok q) (h0 : level s ≠ 0) :
    stripSgr (if detailsOf s = .brief then (if k = .sgr then q.brief else []) else decodeAscii (p.drop 1)) = escDetail (level s) k p := by
  obtain ⟨t, ep, -, ht⟩ := hw.esc_form hk
  rw [level_details hr, if_neg h0]
  unfold escDetail
  rw [if_neg h0]
  by_cases h1 : level s = 1
  · rw [if_pos h1, if_pos rfl, if_pos h1]
    by_cases hs : k = .sgr
    · rw [if_pos hs, if_pos hs]
      unfold sgrDetails at hq
      rw [if_pos hs] at hq
      obtain ⟨-, hbr⟩ := setDetails_items (hw.params_lt hs) hq
      rw [hbr, strip_names]
      · rfl
      · intro x hx
        have e : (pcodesLoop (numbers (csiParams p)).length (numbers (csiParams p))).2 = (sgrItems (numbers (csiParams p))).map SgrItem.name := by
          rw [pcodesLoop_items _ _ (Nat.le_refl _)]
        rw [← e] at hx
        exact plain_noEsc (pcodesLoop_names _ _ x hx)
    · rw [if_neg hs, if_neg hs]; rfl
  · rw [if_neg h1, if_neg (by simp), if_neg h1, ep]
    simp only [List.drop_succ_cons, List.drop_zero]
    rw [decodeAscii_eq ht]
    exact strip_plain (plain_noEsc (by
      intro c hc
      obtain ⟨b, hb, rfl⟩ := List.mem_map.1 hc
      exact ascii_plain (ht b hb)))

/-- Segments of an escape sequence that is displayed: what is kept and what is lost at the end. -/
theorem esc_plain {s : Settings} (hr : s.readMode.1 = .text) {k : Kind} {p : Bytes} {q : SgrDetails} (hw : Wf k p) (hk : isEscKind k = true)
    (hi : displayOf s k ≠ .ignored) (hq : sgrDetails k p = .ok q) :
    ∃ x g, plainOf (x ++ [g]) = (if enclosed s then ['⢸'] else []) ++ symbol k :: escDetail (level s) k p ∧ g.raw ≠ [] ∧
      escSegments s k p q = x ++ [g] ++ (if enclosed s then [sepSegment '⡇'] else []) := by
  obtain ⟨t, ep, hne, ht⟩ := hw.esc_form hk
  have hsym : kindText k (displayOf s k) .text = [symbol k] := by
    rw [kindText_symbol k hi (by rintro rfl; cases hk) (by rintro rfl; cases hk)]
    cases k <;> first | (cases hk; done) | rfl
  have hlab : ((p.take 1).flatMap fun _ => kindText k (displayOf s k) s.readMode.1) = [symbol k] := by
    rw [ep, hr, hsym]; rfl
  have hsep : ∀ c, '\x1b' ∉ [c] → plainOf [sepSegment c] = [c] := by
    intro c hc
    show stripSgr [c] ++ [] = _
    rw [strip_plain hc]; rfl
  have hlv := level_details hr
  by_cases h0 : level s = 0
  · have hen : enclosed s = false := by simp [enclosed, h0]
    rw [h0, if_pos rfl] at hlv
    refine ⟨[], ⟨labelStyle s k q, ['E'], p.take 1, [symbol k]⟩, ?_, by rw [ep]; simp, ?_⟩
    · rw [hen]
      show stripSgr [symbol k] ++ [] = _
      rw [strip_plain (symbol_noEsc k), escDetail, if_pos h0]; rfl
    · rw [hen]
      unfold escSegments escBody
      rw [if_neg (by rw [hlv]; simp), if_pos hlv, hlab]
      rfl
  · have hd : detailsOf s ≠ .noDetails := by rw [hlv, if_neg h0]; split <;> simp
    have hd2 : detailsOf s = .brief ∨ detailsOf s = .full := by rw [hlv, if_neg h0]; split <;> simp
    have hdet := escDetail_plain hr hw hk hq h0
    have hbody : escBody s k p q = [⟨labelStyle s k q, ['E'], p.take 1, [symbol k]⟩,
        ⟨detailStyle s k q, ['*'], p.drop 1, if detailsOf s = .brief then (if k = .sgr then q.brief else []) else decodeAscii (p.drop 1)⟩] := by
      unfold escBody
      rw [hlab, if_neg hd]
    have hplain : plainOf (escBody s k p q) = symbol k :: escDetail (level s) k p := by
      rw [hbody, plainOf_cons, plainOf_cons, hdet, strip_plain (symbol_noEsc k)]
      simp [plainOf]
    have hen : enclosed s = !s.noSeparators := by simp [enclosed, h0]
    have hraw : p.drop 1 ≠ [] := by rw [ep]; simpa using hne
    obtain ⟨A, B, hAB, hB⟩ : ∃ A B, escBody s k p q = [A, B] ∧ B.raw ≠ [] := ⟨_, _, hbody, hraw⟩
    rw [hAB] at hplain
    by_cases hs : s.noSeparators = true
    · have e : escSegments s k p q = [A, B] := by
        unfold escSegments; rw [hAB, if_neg (by simp [hs])]
      rw [hen, hs, e]
      refine ⟨[A], B, ?_, hB, rfl⟩
      rw [show [A] ++ [B] = [A, B] from rfl, hplain]; rfl
    · have hs : s.noSeparators = false := by simpa using hs
      have e : escSegments s k p q = sepSegment '⢸' :: ([A, B] ++ [sepSegment '⡇']) := by
        unfold escSegments; rw [hAB, if_pos ⟨hr, hs, hd2⟩]
      rw [hen, hs, e]
      refine ⟨[sepSegment '⢸', A], B, ?_, hB, rfl⟩
      rw [show [sepSegment '⢸', A] ++ [B] = sepSegment '⢸' :: [A, B] from rfl, plainOf_cons, hplain]
      have : stripSgr (sepSegment '⢸').processed = ['⢸'] := strip_plain (by decide)
      rw [this]; rfl

/-- Control characters with details. -/
theorem ctrl_plain {s : Settings} (hr : s.readMode.1 = .text) {b : Byte} (hb : isCtrl b = true) (hi : displayOf s .ctrl ≠ .ignored)
    (h0 : level s ≠ 0) :
    ∃ g d, ctrlSegments s b = [g, d] ∧ g.raw ≠ [] ∧ d.raw = [] ∧ stripSgr g.processed = [symbol .ctrl] ∧
      stripSgr d.processed = ctrlDetail (level s) b ∧ (ctrlDetail (level s) b).length = level s := by
  have hlv := level_details hr
  have hb' := isCtrl_lt hb
  refine ⟨_, _, by unfold ctrlSegments ctrlDetails; rw [if_neg hi], ?_, rfl, ?_, ?_, ?_⟩
  · intro h
    have := congrArg List.length h
    simp at this
    rw [this] at hb'
    exact absurd hb'.2 (by decide)
  · show stripSgr (kindText .ctrl (displayOf s .ctrl) s.readMode.1) = _
    rw [hr, kindText_symbol _ hi (by simp) (by simp)]
    exact strip_plain (symbol_noEsc .ctrl)
  · show stripSgr (if detailsOf s = .brief then [(Template.briefLabel b.toNat).getD ' '] else hexPad 2 b.toNat) = _
    rw [hlv, if_neg h0]
    unfold ctrlDetail
    rw [if_neg h0]
    by_cases h1 : level s = 1
    · rw [if_pos h1, if_pos rfl, if_pos h1, briefLabel_caret hb]
      refine strip_plain ?_
      have : ∀ n : Fin 32, '\x1b' ∉ [(some (Char.ofNat (n.1 + 0x40))).getD ' '] := by decide
      exact this ⟨b.toNat, hb'.1⟩
    · rw [if_neg h1, if_neg (by simp), if_neg h1, hexPad_two]
      rw [← hexPad_two]
      exact strip_plain (plain_noEsc (hexPad_plain _ _))
  · unfold ctrlDetail
    rw [if_neg h0]
    by_cases h1 : level s = 1
    · rw [if_pos h1, h1]; rfl
    · rw [if_neg h1]
      have : level s ≤ 2 := by unfold level; split; omega; split <;> omega
      show 2 = _
      omega

/-- The segments of a piece in text mode: those that are displayed in any case, and
those that are lost if the input ends here. -/
theorem segsOf_glyphs {s : Settings} (hr : s.readMode.1 = .text) {q : Kind × Bytes} (hw : Wf q.1 q.2) (hb : badPiece q = false) :
    ∃ x g bs, segsOf s q = x ++ [g] ++ bs ∧ g.raw ≠ [] ∧ (∀ d ∈ bs, d.raw = []) ∧
      plainOf (segsOf s q) = textGlyphs s q.1 q.2 ++ (if q.1 = .newline then ['\n'] else []) ∧
      (plainOf bs).length = textLost s q.1 ∧ (q.1 = .newline → bs = []) := by
  obtain ⟨k, p⟩ := q
  simp only at hw ⊢
  obtain ⟨d, hd⟩ : ∃ d, sgrDetails k p = .ok d := by
    unfold badPiece at hb
    cases h : sgrDetails k p with
    | error e => simp only [h] at hb; cases hb
    | ok d => exact ⟨d, rfl⟩
  have hseg : segsOf s (k, p) = segmentsOf s k p d := by
    unfold segsOf detailsFn; simp only; rw [hd]
  rw [hseg]
  have hne : p ≠ [] := hw.ne_nil
  have hig := displayOf_ignored s k
  unfold segmentsOf
  by_cases he : isEscKind k = true ∧ displayOf s k ≠ .ignored
  · rw [if_pos he]
    obtain ⟨x, g, h1, h2, h3⟩ := esc_plain hr hw he.1 he.2 hd
    have hni : s.ignore (classOfKind k) ≠ true := fun h => he.2 (hig.2 h)
    have hsep : stripSgr (sepSegment '⡇').processed = ['⡇'] := strip_plain (by decide)
    refine ⟨x, g, _, h3, h2, ?_, ?_, ?_, ?_⟩
    · intro d hd; split at hd
      · rw [List.mem_singleton.1 hd]; rfl
      · cases hd
    · have hnn : k ≠ .newline := by rintro rfl; cases he.1
      rw [h3, plainOf_append, h1]
      have e : textGlyphs s k p = (if enclosed s then '⢸' :: symbol k :: (escDetail (level s) k p ++ ['⡇']) else symbol k :: escDetail (level s) k p) := by
        unfold textGlyphs
        rw [if_neg hni]
        have := he.1
        cases k <;> first | (cases this; done) | rfl
      rw [e]
      split
      · simp [plainOf, hsep, hnn]
      · simp [plainOf, hnn]
    · have e : textLost s k = if enclosed s then 1 else 0 := by
        unfold textLost
        rw [if_neg hni]
        have := he.1
        cases k <;> first | (cases this; done) | rfl
      rw [e]
      split
      · simp [plainOf, hsep]
      · simp [plainOf]
    · rintro rfl; cases he.1
  rw [if_neg he]
  have hlv := level_details hr
  by_cases hc : k = .ctrl ∧ (detailsOf s = .brief ∨ detailsOf s = .full)
  · rw [if_pos hc]
    obtain ⟨rfl, hdd⟩ := hc
    have h0 : level s ≠ 0 := by
      intro h; rw [hlv, if_pos h] at hdd; simp at hdd
    have hall : ∀ b ∈ p, isCtrl b = true := hw.run_all (q := isCtrl) rfl
    by_cases hi : displayOf s .ctrl = .ignored
    · have hsegs : ∀ b, ctrlSegments s b = [⟨kindStyle .ctrl .ignored, ['C'], List.replicate b.toNat 0, ['×']⟩] := by
        intro b
        unfold ctrlSegments ctrlDetails
        rw [if_pos hi, hi]; rfl
      obtain ⟨p', b, rfl⟩ : ∃ p' b, p = p' ++ [b] := ⟨_, _, (List.dropLast_append_getLast hne).symm⟩
      refine ⟨p'.flatMap (ctrlSegments s), _, [], by rw [List.flatMap_append, List.flatMap_singleton, hsegs b, List.append_nil], ?_, by simp, ?_, ?_, by simp⟩
      · have := isCtrl_lt (hall b (by simp))
        intro h
        have := congrArg List.length h
        simp at this
        simp [this] at *
      · rw [if_neg (by simp), List.append_nil]
        unfold textGlyphs
        rw [if_pos (hig.1 hi), plainOf_flatMap]
        have : ∀ b, plainOf (ctrlSegments s b) = ['×'] := by
          intro b; rw [hsegs]
          show stripSgr ['×'] ++ [] = _
          rw [strip_plain (by decide)]; rfl
        simp only [this]
        rw [flatMap_single]
      · unfold textLost
        rw [if_pos (hig.1 hi)]; rfl
    · have hni : s.ignore (classOfKind .ctrl) ≠ true := fun h => hi (hig.2 h)
      obtain ⟨p', b, rfl⟩ : ∃ p' b, p = p' ++ [b] := ⟨_, _, (List.dropLast_append_getLast hne).symm⟩
      obtain ⟨g, d', h1, h2, h3, h4, h5, h6⟩ := ctrl_plain hr (hall b (by simp)) hi h0
      refine ⟨p'.flatMap (ctrlSegments s), g, [d'], by rw [List.flatMap_append, List.flatMap_singleton, h1]; simp, h2, ?_, ?_, ?_, by simp⟩
      · intro x hx; rw [List.mem_singleton.1 hx]; exact h3
      · rw [if_neg (by simp), List.append_nil]
        unfold textGlyphs
        rw [if_neg hni, plainOf_flatMap]
        simp only
        generalize p' ++ [b] = p at hall
        clear * - hall hr hi h0
        induction p with
        | nil => rfl
        | cons b p ih =>
          rw [List.flatMap_cons, List.flatMap_cons, ih fun b hb => hall b (by simp [hb])]
          obtain ⟨g, d', h1, -, -, h4, h5, -⟩ := ctrl_plain hr (hall b (by simp)) hi h0
          rw [h1, plainOf_cons, plainOf_cons, h4, h5]
          simp [plainOf]
      · unfold textLost
        rw [if_neg hni]
        show (stripSgr d'.processed ++ []).length = _
        rw [h5, List.append_nil, h6]
  · rw [if_neg hc]
    refine ⟨[], _, [], rfl, hne, by simp, ?_, ?_, by simp⟩
    · show stripSgr (pieceText s k p) ++ [] = _
      rw [List.append_nil]
      by_cases hn : k = .newline
      · subst hn
        have hp := hw.newline_eq
        subst hp
        rw [if_pos rfl]
        unfold pieceText textGlyphs
        by_cases hi : displayOf s .newline = .ignored
        · rw [if_pos hi, if_pos ⟨rfl, hr⟩, if_pos (hig.1 hi)]
          exact strip_plain (by decide)
        · rw [if_neg hi, if_neg fun h => hi (hig.2 h)]
          simp only [hr, if_true]
          have hs : Shows {} ('↵' :: (Sgr.assemble [0] ++ ['\n'])) {} [('↵', ({} : Style)), ('\n', ({} : Style))] :=
            (Shows.text {} (s := ['↵']) (by decide)).append ((Shows.sgr {} [0]).append (Shows.text {} (s := ['\n']) (by decide)))
          rw [hs.strip]; rfl
      · rw [strip_plain (pieceText_text hr hw hn).1, if_neg hn, List.append_nil]
        unfold pieceText textGlyphs
        by_cases hi : displayOf s k = .ignored
        · rw [if_pos hi, if_neg (fun h => hn h.1), if_pos (hig.1 hi)]
        · rw [if_neg hi, if_neg fun h => hi (hig.2 h)]
          have hni : s.ignore (classOfKind k) = false := by
            cases h : s.ignore (classOfKind k) with
            | false => rfl
            | true => exact absurd (hig.2 h) hi
          have hesc : isEscKind k = false := by
            cases h : isEscKind k with
            | false => rfl
            | true => exact absurd ⟨h, hi⟩ he
          have hk := kindText_symbol k hi
          cases k with
          | newline => exact absurd rfl hn
          | printable => rfl
          | utf8 =>
            obtain ⟨c, hc, rfl⟩ := hw.utf8_eq
            simp only [hr, if_true]
            rw [decodeUtf8_enc, utf8Char_enc c hc]
          | space =>
            have hfo := displayOf_focused s .space hni
            simp only [hr]
            rw [hk (by simp) (by simp), hfo]
            have : s.focus (classOfKind .space) = s.focus .whitespace := rfl
            rw [this]
            cases s.focus .whitespace <;> simp [flatMap_single]
          | ctrl =>
            have h0 : level s = 0 := by
              refine Classical.byContradiction fun h => hc ⟨rfl, ?_⟩
              rw [hlv, if_neg h]; split <;> simp
            simp only [hr]
            rw [hk (by simp) (by simp), h0]
            simp [ctrlDetail]
          | tab => simp only [hr]; rw [hk (by simp) (by simp)]; simp; rfl
          | reset => cases hesc
          | sgr => cases hesc
          | csi => cases hesc
          | nF => cases hesc
          | fp => cases hesc
          | fe => cases hesc
          | fs => cases hesc
          | _ => simp only [hr]; rw [hk (by simp) (by simp)]; simp [flatMap_single]
    · unfold textLost
      split
      · rfl
      · rename_i hni
        cases k with
        | ctrl =>
          show 0 = level s
          refine Classical.byContradiction fun h => hc ⟨rfl, ?_⟩
          rw [hlv, if_neg (fun h' => h h'.symm)]; split <;> simp
        | reset => exact absurd ⟨rfl, fun h => hni (hig.1 h)⟩ he
        | sgr => exact absurd ⟨rfl, fun h => hni (hig.1 h)⟩ he
        | csi => exact absurd ⟨rfl, fun h => hni (hig.1 h)⟩ he
        | nF => exact absurd ⟨rfl, fun h => hni (hig.1 h)⟩ he
        | fp => exact absurd ⟨rfl, fun h => hni (hig.1 h)⟩ he
        | fe => exact absurd ⟨rfl, fun h => hni (hig.1 h)⟩ he
        | fs => exact absurd ⟨rfl, fun h => hni (hig.1 h)⟩ he
        | _ => rfl

end Kolombos
