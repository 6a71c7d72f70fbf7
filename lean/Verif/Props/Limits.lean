import Verif.Lemmas.Limits
/-
C114: with a limit the beginning of the display is shown.
-/
set_option linter.unusedSimpArgs false

namespace Kolombos
open Spec

/-! ### One more number -/

theorem wellFormed_int {pre post : List Arg} (p : IntOpt) (v : Int) (h : WellFormed (pre ++ post)) : WellFormed (pre ++ .int p (some v) :: post) := by
  have hno : ∀ b, ¬ Excludes (.int p (some v)) b ∧ ¬ Excludes b (.int p (some v)) := by
    intro b
    refine ⟨fun g => ?_, fun g => ?_⟩
    · have := g.clash.1
      simp [clash, Arg.group] at this
    · have := g.clash.2
      simp [clash, Arg.group] at this
  have hmem : ∀ a, a ∈ pre ++ .int p (some v) :: post → a ∈ pre ++ post ∨ a = .int p (some v) := by
    intro a ha
    simp only [List.mem_append, List.mem_cons] at ha ⊢
    rcases ha with ha | rfl | ha
    · exact .inl (.inl ha)
    · exact .inr rfl
    · exact .inl (.inr ha)
  refine ⟨fun o ho => ?_, fun a ha b hb g => ?_, ?_⟩
  · rcases hmem _ ho with ho | ho
    · exact h.numbers o ho
    · simp at ho
  · rcases hmem _ ha with ha | rfl
    · rcases hmem _ hb with hb | rfl
      · exact h.compatible a ha b hb g
      · exact (hno a).2 g
    · exact (hno b).1 g
  · have := h.oneFile
    simpa [fileNames] using this

theorem fileNames_int (pre post : List Arg) (p : IntOpt) (v : Int) : fileNames (pre ++ .int p (some v) :: post) = fileNames (pre ++ post) := by
  simp [fileNames]

theorem only_int {pre post : List Arg} (p : IntOpt) (v : Int) {l : List Arg} (hl : ∀ o x, Arg.int o x ∉ l) (h : ∀ a ∈ l, a ∉ pre ++ post) :
    ∀ a ∈ l, a ∉ pre ++ .int p (some v) :: post := by
  intro a ha hm
  have := h a ha
  simp only [List.mem_append, List.mem_cons, not_or] at this hm
  rcases hm with hm | rfl | hm
  · exact this.1 hm
  · exact hl _ _ ha
  · exact this.2 hm

theorem views_int {pre post : List Arg} {name : Str} (p : IntOpt) (v : Int) (h : Views (pre ++ post) name) : Views (pre ++ .int p (some v) :: post) name :=
  ⟨wellFormed_int p v h.wellFormed, by rw [fileNames_int]; exact h.file, h.named, only_int p v (by simp) h.only⟩

theorem viewsStdin_int {pre post : List Arg} (p : IntOpt) (v : Int) (h : ViewsStdin (pre ++ post)) : ViewsStdin (pre ++ .int p (some v) :: post) :=
  ⟨wellFormed_int p v h.wellFormed, by rw [fileNames_int]; exact h.file, only_int p v (by simp) h.only⟩

theorem flag_int {pre post : List Arg} (p : IntOpt) (v : Int) (f : Flag) : .flag f ∈ pre ++ .int p (some v) :: post ↔ .flag f ∈ pre ++ post := by simp

/-- A number that is not given otherwise. -/
theorem lastInt_int {pre post : List Arg} {p : IntOpt} (v : Int) (h : lastInt p (pre ++ post) = none) (o : IntOpt) :
    lastInt o (pre ++ .int p (some v) :: post) = if o = p then some v else lastInt o (pre ++ post) := by
  have h1 : lastInt p post = none := by
    rw [lastInt_append] at h
    cases hx : lastInt p post with
    | none => rfl
    | some v => rw [hx] at h; cases h
  rw [lastInt_append, lastInt_append, lastInt_cons_int]
  by_cases hp : o = p
  · subst hp
    rw [h1]
    simp
  · simp only [hp, Ne.symm hp, if_false]
    cases lastInt o post <;> rfl

theorem bufferSize_int {pre post : List Arg} {p : IntOpt} (hp : p ≠ .buffer) (v : Int) (h : lastInt p (pre ++ post) = none) :
    bufferSize (pre ++ .int p (some v) :: post) = bufferSize (pre ++ post) := by
  unfold bufferSize
  rw [lastInt_int v h, if_neg (Ne.symm hp)]

theorem bufferSize_ne (args : List Arg) : bufferSize args ≠ 0 := by
  unfold bufferSize
  split
  · decide
  · split
    · decide
    · assumption

theorem asked_int_new {pre post : List Arg} {s : Settings} {p : IntOpt} (v : Int) (h : lastInt p (pre ++ post) = none) (hs : Asked (pre ++ post) s) :
    Asked (pre ++ .int p (some v) :: post) (s.setInt v p) := by
  have h1 : lastInt p post = none := by
    rw [lastInt_append] at h
    cases hx : lastInt p post with
    | none => rfl
    | some v => rw [hx] at h; cases h
  have := asked_insert_int hs p v
  rw [h1] at this
  exact this

theorem rowsOf_int {pre post : List Arg} {p : IntOpt} (hp : p ≠ .columns) (v : Int) (h : lastInt p (pre ++ post) = none) {w : World} {c : Int} :
    RowsOf (pre ++ .int p (some v) :: post) w c ↔ RowsOf (pre ++ post) w c := by
  unfold RowsOf
  rw [lastInt_int v h, if_neg (Ne.symm hp)]
  simp only [flag_int]

/-! ### The limit -/

theorem underLines_exists {n : Nat} (hn : 0 < n) (data : Bytes) : ∃ q, BeforeLf n data q := by
  rcases cropLines_spec n data 0 hn with ⟨h1, h2⟩ | ⟨h1, h2⟩
  · exact ⟨_, .inl ⟨h1, by rw [h1]; omega⟩⟩
  · exact ⟨_, .inr ⟨h1, by omega⟩⟩

theorem underBytes_prefix {mb : Option Nat} {data pB : Bytes} (h : UnderBytes mb data pB) : pB <+: data := by
  unfold UnderBytes at h
  split at h
  · rw [h]; exact List.take_prefix _ _
  · rw [h]; exact List.prefix_rfl

/-- Both limits. -/
theorem limits_both {n : Nat} (hn : 0 < n) {data pB p : Bytes} (hB : pB <+: data) (hp : BeforeLf n pB p) :
    ∃ pL, UnderLines (some n) data pL ∧ p = if pB.length ≤ pL.length then pB else pL := by
  have hlim : limit (some n) = some n := by
    cases n with
    | zero => omega
    | succ n => rfl
  unfold UnderLines
  rw [hlim]
  simp only
  rcases hp with ⟨rfl, hc⟩ | ⟨h1, h2⟩
  · obtain ⟨q, hq⟩ := underLines_exists hn data
    refine ⟨q, hq, ?_⟩
    rcases hq with ⟨rfl, -⟩ | ⟨h1, h2⟩
    · rw [if_pos hB.length_le]
    · by_cases hl : p.length ≤ q.length
      · rw [if_pos hl]
      · exfalso
        have : q ++ [0x0a] <+: p := List.prefix_of_prefix_length_le h1 hB (by simp; omega)
        have := this.sublist.count_le 0x0a
        simp at this
        omega
  · refine ⟨p, .inr ⟨h1.trans hB, h2⟩, ?_⟩
    have := h1.length_le
    simp at this
    rw [if_neg (by omega)]

theorem beforeLf_prefix {n : Nat} {s p : Bytes} (h : BeforeLf n s p) : p <+: s := by
  rcases h with ⟨rfl, -⟩ | ⟨h, -⟩
  · exact List.prefix_rfl
  · exact (List.prefix_append _ _).trans h

theorem flatMap_nonempty (cs : List Bytes) : (cs.filter (· ≠ [])).flatMap pieces = cs.flatMap pieces := by
  induction cs with
  | nil => rfl
  | cons c cs ih =>
    rw [List.filter_cons]
    by_cases hc : c = []
    · rw [if_neg (by simp [hc]), ih, hc]; rfl
    · rw [if_pos (by simpa using hc), List.flatMap_cons, List.flatMap_cons, ih]

theorem bytesOf_pieces (cs : List Bytes) : bytesOf (cs.flatMap pieces) = cs.flatten := by
  induction cs with
  | nil => rfl
  | cons c cs ih =>
    have h : bytesOf (pieces c) = c := by
      have := pieces_flatten c
      rw [← List.flatMap_def] at this
      exact this
    have : bytesOf ((c :: cs).flatMap pieces) = bytesOf (pieces c) ++ bytesOf (cs.flatMap pieces) := by simp [bytesOf, List.flatMap_assoc]
    rw [this, h, ih, List.flatten_cons]

theorem firstLines_core {s : Settings} (hr : s.readMode.1 = .text) {cs : List Bytes} (hne : ∀ c ∈ cs, c ≠ []) {n : Nat} {p : Bytes}
    (hp : BeforeLf n cs.flatten p) (hg : GoodPieces (cs.flatMap pieces)) :
    GoodPieces ((takeParts p.length cs).flatMap pieces) ∧
    FirstLines n s.marker cs.flatten p (inkLines (labelInk s) (textInk s) (lostAt s) (cs.flatMap pieces))
      (inkLines (labelInk s) (textInk s) (lostAt s) ((takeParts p.length cs).flatMap pieces)) := by
  rcases hp with ⟨rfl, hc⟩ | ⟨h1, h2⟩
  · rw [takeParts_all hne]
    exact ⟨hg, fun _ => rfl, fun h => absurd rfl h⟩
  · obtain ⟨B, hB⟩ := parts_before_lf hne h1
    rw [hB] at hg ⊢
    obtain ⟨gA, gB⟩ := good_append hg
    have hb : bytesOf ((takeParts p.length cs).flatMap pieces) = p := by
      rw [bytesOf_pieces, takeParts_flatten]
      exact (List.prefix_iff_eq_take.1 ((List.prefix_append _ _).trans h1)).symm
    have hk := pieceLines_count gA
    have hre := rest_empty gA
    rw [hb] at hk hre
    have hk' : (pieceLines ((takeParts p.length cs).flatMap pieces)).1.length = n - 1 := by omega
    obtain ⟨e1, e2⟩ := lines_before_lf (s := s) (A := (takeParts p.length cs).flatMap pieces) (B := B)
    rw [hk'] at e1 e2
    have hlen : n ≤ (inkLines (labelInk s) (textInk s) (lostAt s) ((takeParts p.length cs).flatMap pieces ++ (.newline, [0x0a]) :: B)).length := by
      unfold inkLines
      simp only [pieceLines_nl, List.length_mapIdx, List.length_append, List.length_map, List.length_cons, hk']
      omega
    refine ⟨gA, ?_, fun _ => ⟨hlen, fun h => e1 (hre.2 h), fun h => e2 fun h' => h (hre.1 h')⟩⟩
    intro h
    exfalso
    have := h1.length_le
    rw [← h] at this
    simp only [List.length_append, List.length_cons, List.length_nil] at this
    omega

/-- A display and its lines. -/
theorem displayed {s : Settings} (hr : s.readMode.1 = .text) {qs : List (Kind × Bytes)} (hg : GoodPieces qs) {x : List (Char × Style)}
    (hx : x = (inkLines (labelInk s) (textInk s) (lostAt s) qs).flatten ++ [('\n', ({} : Style))]) :
    DisplayedLines x (inkLines (labelInk s) (textInk s) (lostAt s) qs) := ⟨hx, inkLines_lines hr hg⟩

/-- C114, files in text mode, `--max-lines`: the first lines look as without it; the line of the last line feed that is not displayed lacks
the symbol of the line feed, and details at the end.  (Full claim: the first `n` lines are displayed as without the option.) -/
theorem C114_text_partial (pre post : List Arg) (w : World) (name : Str) (data : Bytes) (n : Nat) (hn : 0 < n) (mb : Option Nat) (pB p : Bytes)
    (hv : Views (pre ++ post) name) (hb : .flag .binary ∉ pre ++ post) (hf : w.file name = .ok data)
    (hmb : lastInt .maxBytes (pre ++ post) = optInt mb) (hml : lastInt .maxLines (pre ++ post) = none)
    (hB : UnderBytes mb data pB) (hp : BeforeLf n pB p) (hgood : ∀ c ∈ partsOf (bufferSize (pre ++ post)) pB, ¬ BadChunk c)
    (fuel : Nat) (hfuel : 4 * pB.length < fuel) :
    (program fuel w (pre ++ post)).status = some 0 ∧ (program fuel w (pre ++ .int .maxLines (some (n : Int)) :: post)).status = some 0 ∧
      ∃ full shown, DisplayedLines (appears (program fuel w (pre ++ post)).out) full ∧
        DisplayedLines (appears (program fuel w (pre ++ .int .maxLines (some (n : Int)) :: post)).out) shown ∧
        FirstLines n ((lastInt .marker (pre ++ post)).getD 0) pB p full shown := by
  obtain ⟨s, -, hs⟩ := (C55_settings _ (hv.only _ (by simp))).1 hv.wellFormed
  have hr := asked_text hs hb
  have hs1 := asked_int_new (n : Int) hml hs
  have hpre := underBytes_prefix hB
  obtain ⟨pL, hL, hpe⟩ := limits_both hn hpre hp
  obtain ⟨cs, hne, hfl, hc0, hc1⟩ := partsOf_take (bufferSize_ne (pre ++ post)) (beforeLf_prefix hp)
  have hg0 : GoodPieces (cs.flatMap pieces) := by rw [← hc0, flatMap_nonempty]; exact good_parts hgood
  rw [← hfl] at hp
  obtain ⟨hg1, hfirst⟩ := firstLines_core hr hne hp hg0
  have hgood1 : ∀ c ∈ partsOf (bufferSize (pre ++ post)) p, ¬ BadChunk c := by
    refine parts_good ?_
    rw [← flatMap_nonempty, hc1]
    exact hg1
  obtain ⟨a1, a2⟩ := C107_text (pre ++ post) w name data s mb none pB data pB hv hs hb hf hmb hml hB (by exact rfl)
    (by rw [if_pos hpre.length_le]) hgood fuel hfuel
  have hlen := (beforeLf_prefix (s := pB) (hfl ▸ hp)).length_le
  obtain ⟨b1, b2⟩ := C107_text (pre ++ .int .maxLines (some (n : Int)) :: post) w name data _ mb (some n) pB pL p (views_int _ _ hv) hs1
    (by rw [flag_int]; exact hb) hf (by rw [lastInt_int _ hml]; exact hmb) (by rw [lastInt_int _ hml]; rfl) hB hL hpe
    (by rw [bufferSize_int (by decide) _ hml]; exact hgood1) fuel (by omega)
  rw [bufferSize_int (by decide) _ hml, ← flatMap_nonempty, hc1] at b2
  rw [← flatMap_nonempty, hc0] at a2
  refine ⟨a1, b1, _, _, displayed hr hg0 a2, displayed hr hg1 b2, ?_⟩
  rw [← hs.marker, ← hfl]
  exact hfirst

/-- C114 for standard input in text mode. -/
theorem C114_stdin_text_partial (pre post : List Arg) (w : World) (cs : List Bytes) (n : Nat) (hn : 0 < n) (mb : Option Nat) (pB p : Bytes)
    (hv : ViewsStdin (pre ++ post)) (hb : .flag .binary ∉ pre ++ post) (hw : w.stdin = cs.map .data) (hne : ∀ c ∈ cs, c ≠ [])
    (hmb : lastInt .maxBytes (pre ++ post) = optInt mb) (hml : lastInt .maxLines (pre ++ post) = none)
    (hB : UnderBytes mb cs.flatten pB) (hp : BeforeLf n pB p) (hgood : ∀ c ∈ takeParts pB.length cs, ¬ BadChunk c)
    (fuel : Nat) (hfuel : 4 * pB.length < fuel) :
    (program fuel w (pre ++ post)).status = some 0 ∧ (program fuel w (pre ++ .int .maxLines (some (n : Int)) :: post)).status = some 0 ∧
      ∃ full shown, DisplayedLines (appears (program fuel w (pre ++ post)).out) full ∧
        DisplayedLines (appears (program fuel w (pre ++ .int .maxLines (some (n : Int)) :: post)).out) shown ∧
        FirstLines n ((lastInt .marker (pre ++ post)).getD 0) pB p full shown := by
  obtain ⟨s, -, hs⟩ := (C55_settings _ (hv.only _ (by simp))).1 hv.wellFormed
  have hr := asked_text hs hb
  have hs1 := asked_int_new (n : Int) hml hs
  have hpre := underBytes_prefix hB
  obtain ⟨pL, hL, hpe⟩ := limits_both hn hpre hp
  have hg0 := good_parts hgood
  have hlen := (beforeLf_prefix hp).length_le
  have hfl : (takeParts pB.length cs).flatten = pB := by
    rw [takeParts_flatten]
    exact (List.prefix_iff_eq_take.1 hpre).symm
  have hp' := hp
  rw [← hfl] at hp'
  obtain ⟨hg1, hfirst⟩ := firstLines_core hr (takeParts_ne hne _) hp' hg0
  rw [takeParts_takeParts hne hlen] at hg1 hfirst
  obtain ⟨a1, a2⟩ := C107_stdin_text (pre ++ post) w cs s mb none pB cs.flatten pB hv hs hb hw hne hmb hml hB (by exact rfl)
    (by rw [if_pos hpre.length_le]) hgood fuel hfuel
  obtain ⟨b1, b2⟩ := C107_stdin_text (pre ++ .int .maxLines (some (n : Int)) :: post) w cs _ mb (some n) pB pL p (viewsStdin_int _ _ hv) hs1
    (by rw [flag_int]; exact hb) hw hne (by rw [lastInt_int _ hml]; exact hmb) (by rw [lastInt_int _ hml]; rfl) hB hL hpe
    (parts_good hg1) fuel (by omega)
  rw [hfl] at hfirst
  refine ⟨a1, b1, _, _, displayed hr hg0 a2, displayed hr hg1 b2, ?_⟩
  rw [← hs.marker]
  exact hfirst

/-! ### Binary mode -/

theorem cells_take {cells0 cells1 : List Cell} {p0 p : Bytes} {X : List (Char × Style)} (h0 : cells0.map Cell.byte = p0) (h1 : cells1.map Cell.byte = p)
    (hp : p <+: p0) (s1 : cells1.map Cell.shown = X) (s0 : X <+: cells0.map Cell.shown) : cells1 = cells0.take p.length := by
  have hlen : cells1.length = p.length := by rw [← h1, List.length_map]
  have hlen0 : cells0.length = p0.length := by rw [← h0, List.length_map]
  have hle := hp.length_le
  apply List.ext_getElem?
  intro i
  by_cases hi : i < p.length
  · rw [List.getElem?_take_of_lt hi, List.getElem?_eq_getElem (by omega), List.getElem?_eq_getElem (by omega)]
    congr 1
    have e1 : cells1[i].byte = cells0[i].byte := by
      have a : (cells1.map Cell.byte)[i]? = (cells0.map Cell.byte)[i]? := by
        rw [h1, h0]
        obtain ⟨t, rfl⟩ := hp
        rw [List.getElem?_append_left hi]
      rw [List.getElem?_map, List.getElem?_map, List.getElem?_eq_getElem (by omega), List.getElem?_eq_getElem (by omega)] at a
      simpa using a
    have e2 : cells1[i].shown = cells0[i].shown := by
      have a : (cells1.map Cell.shown)[i]? = (cells0.map Cell.shown)[i]? := by
        obtain ⟨t, ht⟩ := s0
        rw [← ht, s1, List.getElem?_append_left (by rw [← s1, List.length_map]; omega)]
      rw [List.getElem?_map, List.getElem?_map, List.getElem?_eq_getElem (by omega), List.getElem?_eq_getElem (by omega)] at a
      simpa using a
    generalize cells1[i] = x at e1 e2
    generalize cells0[i] = y at e1 e2
    cases x; cases y
    simp only [Cell.shown, Prod.mk.injEq] at e1 e2
    rw [e1, e2.1, e2.2]
  · rw [List.getElem?_eq_none (by omega), List.getElem?_eq_none (by rw [List.length_take]; omega)]

theorem pieces_take {cs : List Bytes} (hne : ∀ c ∈ cs, c ≠ []) {n : Nat} {p : Bytes} (hp : BeforeLf n cs.flatten p) :
    (takeParts p.length cs).flatMap pieces <+: cs.flatMap pieces := by
  rcases hp with ⟨rfl, hc⟩ | ⟨h1, h2⟩
  · rw [takeParts_all hne]; exact List.prefix_rfl
  · obtain ⟨B, hB⟩ := parts_before_lf hne h1
    rw [hB]; exact List.prefix_append _ _

theorem flatMap_prefix {α β : Type} (f : α → List β) {a b : List α} (h : a <+: b) : a.flatMap f <+: b.flatMap f := by
  obtain ⟨t, rfl⟩ := h
  rw [List.flatMap_append]
  exact List.prefix_append _ _

/-- C114, files in binary mode, `--max-lines`: the bytes before the `n`-th line feed are displayed as without it. -/
theorem C114_binary (pre post : List Arg) (w : World) (name : Str) (data : Bytes) (n : Nat) (hn : 0 < n) (mb : Option Nat) (pB p : Bytes)
    (hv : Views (pre ++ post) name) (hb : .flag .binary ∈ pre ++ post) (hf : w.file name = .ok data)
    (c : Nat) (hc : 0 < c) (hcols : RowsOf (pre ++ post) w c)
    (hmb : lastInt .maxBytes (pre ++ post) = optInt mb) (hml : lastInt .maxLines (pre ++ post) = none)
    (hB : UnderBytes mb data pB) (hp : BeforeLf n pB p) (hgood : ∀ c ∈ partsOf (bufferSize (pre ++ post)) pB, ¬ BadChunk c)
    (fuel : Nat) (hfuel : pB.length < fuel) :
    (program fuel w (pre ++ post)).status = some 0 ∧ (program fuel w (pre ++ .int .maxLines (some (n : Int)) :: post)).status = some 0 ∧
      ∃ s cells, Asked (pre ++ post) s ∧ cells.map Cell.byte = pB ∧
        appears (program fuel w (pre ++ post)).out = rowsView s c cells ++ [('\n', ({} : Style))] ∧
        appears (program fuel w (pre ++ .int .maxLines (some (n : Int)) :: post)).out = rowsView s c (cells.take p.length) ++ [('\n', ({} : Style))] := by
  obtain ⟨s, -, hs⟩ := (C55_settings _ (hv.only _ (by simp))).1 hv.wellFormed
  have hs1 := asked_int_new (n : Int) hml hs
  have hpre := underBytes_prefix hB
  obtain ⟨pL, hL, hpe⟩ := limits_both hn hpre hp
  obtain ⟨cs, hne, hfl, hc0, hc1⟩ := partsOf_take (bufferSize_ne (pre ++ post)) (beforeLf_prefix hp)
  have hg0 : GoodPieces (cs.flatMap pieces) := by rw [← hc0, flatMap_nonempty]; exact good_parts hgood
  have hlen := (beforeLf_prefix hp).length_le
  have htake := pieces_take hne (by rw [hfl]; exact hp)
  have hgood1 : ∀ c ∈ partsOf (bufferSize (pre ++ post)) p, ¬ BadChunk c := by
    refine parts_good ?_
    rw [← flatMap_nonempty, hc1]
    obtain ⟨t, ht⟩ := htake
    rw [← ht] at hg0
    exact (good_append hg0).1
  obtain ⟨a1, -, cells0, a2, a3, a4⟩ := C107_binary (pre ++ post) w name data s mb none pB data pB hv hs hb hf c hc hcols hmb hml hB (by exact rfl)
    (by rw [if_pos hpre.length_le]) hgood fuel hfuel
  obtain ⟨b1, -, cells1, b2, b3, b4⟩ := C107_binary (pre ++ .int .maxLines (some (n : Int)) :: post) w name data _ mb (some n) pB pL p (views_int _ _ hv) hs1
    (by rw [flag_int]; exact hb) hf c hc ((rowsOf_int (by decide) _ hml).2 hcols) (by rw [lastInt_int _ hml]; exact hmb) (by rw [lastInt_int _ hml]; rfl) hB hL hpe
    (by rw [bufferSize_int (by decide) _ hml]; exact hgood1) fuel (by omega)
  rw [bufferSize_int (by decide) _ hml, ← flatMap_nonempty, hc1] at b3
  rw [← flatMap_nonempty, hc0] at a3
  refine ⟨a1, b1, s, cells0, hs, a2, a4, ?_⟩
  rw [← cells_take a2 b2 (beforeLf_prefix hp) b3 (by rw [a3]; exact flatMap_prefix _ htake)]
  exact b4

/-- C114 for standard input in binary mode. -/
theorem C114_stdin_binary (pre post : List Arg) (w : World) (cs : List Bytes) (n : Nat) (hn : 0 < n) (mb : Option Nat) (pB p : Bytes)
    (hv : ViewsStdin (pre ++ post)) (hb : .flag .binary ∈ pre ++ post) (hw : w.stdin = cs.map .data) (hne : ∀ c ∈ cs, c ≠ [])
    (c : Nat) (hc : 0 < c) (hcols : RowsOf (pre ++ post) w c)
    (hmb : lastInt .maxBytes (pre ++ post) = optInt mb) (hml : lastInt .maxLines (pre ++ post) = none)
    (hB : UnderBytes mb cs.flatten pB) (hp : BeforeLf n pB p) (hgood : ∀ c ∈ takeParts pB.length cs, ¬ BadChunk c)
    (fuel : Nat) (hfuel : pB.length < fuel) :
    (program fuel w (pre ++ post)).status = some 0 ∧ (program fuel w (pre ++ .int .maxLines (some (n : Int)) :: post)).status = some 0 ∧
      ∃ s cells, Asked (pre ++ post) s ∧ cells.map Cell.byte = pB ∧
        appears (program fuel w (pre ++ post)).out = rowsView s c cells ++ [('\n', ({} : Style))] ∧
        appears (program fuel w (pre ++ .int .maxLines (some (n : Int)) :: post)).out = rowsView s c (cells.take p.length) ++ [('\n', ({} : Style))] := by
  obtain ⟨s, -, hs⟩ := (C55_settings _ (hv.only _ (by simp))).1 hv.wellFormed
  have hs1 := asked_int_new (n : Int) hml hs
  have hpre := underBytes_prefix hB
  obtain ⟨pL, hL, hpe⟩ := limits_both hn hpre hp
  have hg0 := good_parts hgood
  have hlen := (beforeLf_prefix hp).length_le
  have hfl : (takeParts pB.length cs).flatten = pB := by
    rw [takeParts_flatten]
    exact (List.prefix_iff_eq_take.1 hpre).symm
  have htake := pieces_take (takeParts_ne hne pB.length) (by rw [hfl]; exact hp)
  rw [takeParts_takeParts hne hlen] at htake
  have hgood1 : ∀ c ∈ takeParts p.length cs, ¬ BadChunk c := by
    refine parts_good ?_
    obtain ⟨t, ht⟩ := htake
    rw [← ht] at hg0
    exact (good_append hg0).1
  obtain ⟨a1, -, cells0, a2, a3, a4⟩ := C107_stdin_binary (pre ++ post) w cs s mb none pB cs.flatten pB hv hs hb hw hne c hc hcols hmb hml hB (by exact rfl)
    (by rw [if_pos hpre.length_le]) hgood fuel hfuel
  obtain ⟨b1, -, cells1, b2, b3, b4⟩ := C107_stdin_binary (pre ++ .int .maxLines (some (n : Int)) :: post) w cs _ mb (some n) pB pL p (viewsStdin_int _ _ hv) hs1
    (by rw [flag_int]; exact hb) hw hne c hc ((rowsOf_int (by decide) _ hml).2 hcols) (by rw [lastInt_int _ hml]; exact hmb) (by rw [lastInt_int _ hml]; rfl) hB hL hpe
    hgood1 fuel (by omega)
  refine ⟨a1, b1, s, cells0, hs, a2, a4, ?_⟩
  rw [← cells_take a2 b2 (beforeLf_prefix hp) b3 (by rw [a3]; exact flatMap_prefix _ htake)]
  exact b4

/-! ### A limit of bytes -/

theorem firstBytes_core {s : Settings} {cs : List Bytes} (hne : ∀ c ∈ cs, c ≠ []) {p : Bytes}
    (hp : p <+: cs.flatten) (hg : GoodPieces ((takeParts p.length cs).flatMap pieces)) :
    FirstBytes p (inkLines (labelInk s) (textInk s) (lostAt s) (cs.flatMap pieces))
      (inkLines (labelInk s) (textInk s) (lostAt s) ((takeParts p.length cs).flatMap pieces)) := by
  obtain ⟨A, B, C, e1, e2, e3⟩ := parts_prefix hne hp
  have hb : bytesOf ((takeParts p.length cs).flatMap pieces) = p := by
    rw [bytesOf_pieces, takeParts_flatten]
    exact (List.prefix_iff_eq_take.1 hp).symm
  have hk := pieceLines_count hg
  rw [hb, e2, pieceLines_noNl A C e3] at hk
  obtain ⟨h1, h2, h3, h4⟩ := lines_prefix (s := s) (A := A) (B := B) e3
  rw [e1, e2]
  simp only at hk
  rw [hk] at h1 h2 h3 h4
  exact ⟨h1, h2, h3, h4⟩

/-- C114, files in text mode, `--max-bytes`: the lines that are complete within the first `n` bytes are displayed as without it, and at most one more. -/
theorem C114_bytes (pre post : List Arg) (w : World) (name : Str) (data : Bytes) (n : Nat) (hn : 0 < n)
    (hv : Views (pre ++ post) name) (hb : .flag .binary ∉ pre ++ post) (hf : w.file name = .ok data)
    (hmb : lastInt .maxBytes (pre ++ post) = none) (hml : lastInt .maxLines (pre ++ post) = none)
    (hgood : ∀ c ∈ partsOf (bufferSize (pre ++ post)) data, ¬ BadChunk c)
    (hgood1 : ∀ c ∈ partsOf (bufferSize (pre ++ post)) (data.take n), ¬ BadChunk c)
    (fuel : Nat) (hfuel : 4 * data.length < fuel) :
    (program fuel w (pre ++ post)).status = some 0 ∧ (program fuel w (pre ++ .int .maxBytes (some (n : Int)) :: post)).status = some 0 ∧
      ∃ full shown, DisplayedLines (appears (program fuel w (pre ++ post)).out) full ∧
        DisplayedLines (appears (program fuel w (pre ++ .int .maxBytes (some (n : Int)) :: post)).out) shown ∧
        FirstBytes (data.take n) full shown := by
  obtain ⟨s, -, hs⟩ := (C55_settings _ (hv.only _ (by simp))).1 hv.wellFormed
  have hr := asked_text hs hb
  have hs1 := asked_int_new (n : Int) hmb hs
  have hpre : data.take n <+: data := List.take_prefix _ _
  obtain ⟨cs, hne, hfl, hc0, hc1⟩ := partsOf_take (bufferSize_ne (pre ++ post)) hpre
  have hg0 : GoodPieces (cs.flatMap pieces) := by rw [← hc0, flatMap_nonempty]; exact good_parts hgood
  have hg1 : GoodPieces ((takeParts (data.take n).length cs).flatMap pieces) := by rw [← hc1, flatMap_nonempty]; exact good_parts hgood1
  have hlim : UnderBytes (some n) data (data.take n) := by
    unfold UnderBytes
    cases n with
    | zero => omega
    | succ n => exact rfl
  obtain ⟨a1, a2⟩ := C107_text (pre ++ post) w name data s none none data data data hv hs hb hf hmb hml (by exact rfl) (by exact rfl)
    (by simp) hgood fuel hfuel
  obtain ⟨b1, b2⟩ := C107_text (pre ++ .int .maxBytes (some (n : Int)) :: post) w name data _ (some n) none (data.take n) data (data.take n) (views_int _ _ hv) hs1
    (by rw [flag_int]; exact hb) hf (by rw [lastInt_int _ hmb]; rfl) (by rw [lastInt_int _ hmb]; exact hml) hlim (by exact rfl)
    (by rw [if_pos hpre.length_le]) (by rw [bufferSize_int (by decide) _ hmb]; exact hgood1) fuel (by have := hpre.length_le; omega)
  rw [bufferSize_int (by decide) _ hmb, ← flatMap_nonempty, hc1] at b2
  rw [← flatMap_nonempty, hc0] at a2
  exact ⟨a1, b1, _, _, displayed hr hg0 a2, displayed hr hg1 b2, firstBytes_core hne (by rw [hfl]; exact hpre) hg1⟩

/-- C114 for standard input in text mode, `--max-bytes`. -/
theorem C114_stdin_bytes (pre post : List Arg) (w : World) (cs : List Bytes) (n : Nat) (hn : 0 < n)
    (hv : ViewsStdin (pre ++ post)) (hb : .flag .binary ∉ pre ++ post) (hw : w.stdin = cs.map .data) (hne : ∀ c ∈ cs, c ≠ [])
    (hmb : lastInt .maxBytes (pre ++ post) = none) (hml : lastInt .maxLines (pre ++ post) = none)
    (hgood : ∀ c ∈ cs, ¬ BadChunk c) (hgood1 : ∀ c ∈ takeParts (cs.flatten.take n).length cs, ¬ BadChunk c)
    (fuel : Nat) (hfuel : 4 * cs.flatten.length < fuel) :
    (program fuel w (pre ++ post)).status = some 0 ∧ (program fuel w (pre ++ .int .maxBytes (some (n : Int)) :: post)).status = some 0 ∧
      ∃ full shown, DisplayedLines (appears (program fuel w (pre ++ post)).out) full ∧
        DisplayedLines (appears (program fuel w (pre ++ .int .maxBytes (some (n : Int)) :: post)).out) shown ∧
        FirstBytes (cs.flatten.take n) full shown := by
  obtain ⟨s, -, hs⟩ := (C55_settings _ (hv.only _ (by simp))).1 hv.wellFormed
  have hr := asked_text hs hb
  have hs1 := asked_int_new (n : Int) hmb hs
  have hpre : cs.flatten.take n <+: cs.flatten := List.take_prefix _ _
  have hg0 := good_parts hgood
  have hg1 := good_parts hgood1
  have hlim : UnderBytes (some n) cs.flatten (cs.flatten.take n) := by
    unfold UnderBytes
    cases n with
    | zero => omega
    | succ n => exact rfl
  obtain ⟨a1, a2⟩ := C107_stdin_text (pre ++ post) w cs s none none cs.flatten cs.flatten cs.flatten hv hs hb hw hne hmb hml (by exact rfl) (by exact rfl)
    (by simp) (by rw [takeParts_all hne]; exact hgood) fuel hfuel
  obtain ⟨b1, b2⟩ := C107_stdin_text (pre ++ .int .maxBytes (some (n : Int)) :: post) w cs _ (some n) none (cs.flatten.take n) cs.flatten (cs.flatten.take n)
    (viewsStdin_int _ _ hv) hs1 (by rw [flag_int]; exact hb) hw hne (by rw [lastInt_int _ hmb]; rfl) (by rw [lastInt_int _ hmb]; exact hml) hlim (by exact rfl)
    (by rw [if_pos hpre.length_le]) hgood1 fuel (by have := hpre.length_le; omega)
  rw [takeParts_all hne] at a2
  exact ⟨a1, b1, _, _, displayed hr hg0 a2, displayed hr hg1 b2, firstBytes_core hne hpre hg1⟩

/-! ### What does not hold -/

def limitArgs : List Arg := [.file ['f']]

theorem limitArgs_views : Views limitArgs ['f'] := by
  refine ⟨⟨by intro o; cases o <;> decide, ?_, by decide⟩, rfl, by decide, by decide⟩
  have hall : ∀ a ∈ limitArgs, ∀ b ∈ limitArgs, clash a b = false := by decide
  intro a ha b hb he
  have := he.clash.1
  rw [hall a ha b hb] at this
  exact absurd this (by simp)

/-- `a`, an empty line, `b`. -/
def limitData : Bytes := [0x61, 0x0a, 0x0a, 0x62]

theorem limitData_good : ∀ c ∈ partsOf (bufferSize limitArgs) limitData, ¬ BadChunk c := by
  have hp : partsOf (bufferSize limitArgs) limitData = [limitData] := by decide
  rw [hp]
  intro c hc hb
  rw [List.mem_singleton.1 hc] at hb
  exact absurd ((anyBad_iff _).2 hb) (by decide)

theorem limitData_before : BeforeLf 2 limitData [0x61, 0x0a] := .inr ⟨⟨[0x62], rfl⟩, rfl⟩

/-- C114 as stated is false: if the last line is empty, one line less is shown. -/
theorem C114_negation : ¬ ∀ (args : List Arg) (w : World) (name : Str) (data : Bytes) (n : Nat), 0 < n → Views args name → .flag .binary ∉ args →
    w.file name = .ok data → lastInt .maxBytes args = none → lastInt .maxLines args = none →
    (∀ c ∈ partsOf (bufferSize args) data, ¬ BadChunk c) → ∀ fuel, 4 * data.length < fuel → ∀ full shown,
      DisplayedLines (appears (program fuel w args).out) full →
      DisplayedLines (appears (program fuel w (.int .maxLines (some (n : Int)) :: args)).out) shown → shown = full.take n := by
  intro h
  let w : World := ⟨[], fun _ => .ok limitData, [], fun _ => 80, [], [], [], []⟩
  obtain ⟨-, -, full, shown, h1, h2, -, h3⟩ := C114_text_partial [] limitArgs w ['f'] limitData 2 (by decide) none limitData [0x61, 0x0a]
    limitArgs_views (by decide) rfl rfl rfl rfl limitData_before limitData_good 100 (by decide)
  obtain ⟨h3, h4, -⟩ := h3 (by decide)
  have h5 := h limitArgs w ['f'] limitData 2 (by decide) limitArgs_views (by decide) rfl rfl rfl limitData_good 100 (by decide) full shown h1 h2
  rw [h4 (.inr rfl)] at h5
  have := congrArg List.length h5
  simp only [List.length_take] at this
  omega

/-! ### Cases -/

/-- The hypotheses of the theorems about files are met, for every world with the file of C114_negation, `-L 2` and a limit of 3 bytes; ... -/
example (w : World) (h : w.file ['f'] = .ok limitData) :
    (∃ full shown, DisplayedLines (appears (program 100 w limitArgs).out) full ∧
      DisplayedLines (appears (program 100 w (.int .maxLines (some 2) :: limitArgs)).out) shown ∧ shown = full.take 1 ∧ 2 ≤ full.length) ∧
    (∃ full shown, DisplayedLines (appears (program 100 w limitArgs).out) full ∧
      DisplayedLines (appears (program 100 w (.int .maxBytes (some 3) :: limitArgs)).out) shown ∧ shown.take 2 = full.take 2) := by
  constructor
  · obtain ⟨-, -, full, shown, h1, h2, -, h3⟩ := C114_text_partial [] limitArgs w ['f'] limitData 2 (by decide) none limitData [0x61, 0x0a]
      limitArgs_views (by decide) h rfl rfl rfl limitData_before limitData_good 100 (by decide)
    obtain ⟨h3, h4, -⟩ := h3 (by decide)
    exact ⟨full, shown, h1, h2, h4 (.inr rfl), h3⟩
  · have hg : ∀ c ∈ partsOf (bufferSize limitArgs) (limitData.take 3), ¬ BadChunk c := by
      have hp : partsOf (bufferSize limitArgs) (limitData.take 3) = [[0x61, 0x0a, 0x0a]] := by decide
      rw [hp]
      intro c hc hb
      rw [List.mem_singleton.1 hc] at hb
      exact absurd ((anyBad_iff _).2 hb) (by decide)
    obtain ⟨-, -, full, shown, h1, h2, h3, -⟩ := C114_bytes [] limitArgs w ['f'] limitData 3 (by decide)
      limitArgs_views (by decide) h rfl rfl limitData_good hg 100 (by decide)
    exact ⟨full, shown, h1, h2, h3⟩

/-- ... with `-L 1` the line is incomplete; ... -/
example (w : World) (h : w.file ['f'] = .ok limitData) :
    ∃ l l0 full, DisplayedLines (appears (program 100 w limitArgs).out) full ∧
      DisplayedLines (appears (program 100 w (.int .maxLines (some 1) :: limitArgs)).out) [l] ∧ full[0]? = some l0 ∧ LastLine 0 l l0 := by
  obtain ⟨-, -, full, shown, h1, h2, -, h3⟩ := C114_text_partial [] limitArgs w ['f'] limitData 1 (by decide) none limitData [0x61]
    limitArgs_views (by decide) h rfl rfl rfl (.inr ⟨⟨[0x0a, 0x62], rfl⟩, rfl⟩) limitData_good 100 (by decide)
  obtain ⟨-, -, h4⟩ := h3 (by decide)
  obtain ⟨l, l0, e1, e2, e3⟩ := h4 (by decide)
  exact ⟨l, l0, full, h1, by rw [e1] at h2; exact h2, e2, e3⟩

/-- ... and standard input in two parts, of which the first line is asked for. -/
example (w : World) (h : w.stdin = [[0x61], [0x0a, 0x62]].map .data) :
    ∃ l l0 full, DisplayedLines (appears (program 100 w []).out) full ∧
      DisplayedLines (appears (program 100 w [.int .maxLines (some 1)]).out) [l] ∧ full[0]? = some l0 ∧ LastLine 0 l l0 := by
  have hg : ∀ c ∈ takeParts 3 [[0x61], [0x0a, 0x62]], ¬ BadChunk c := by
    intro c hc hb
    have : ∀ c ∈ takeParts 3 [[0x61], [0x0a, 0x62]], (pieces c).any badPiece = false := by decide
    exact absurd (this c hc) (by rw [(anyBad_iff c).2 hb]; simp)
  obtain ⟨-, -, full, shown, h1, h2, -, h3⟩ := C114_stdin_text_partial [] [] w [[0x61], [0x0a, 0x62]] 1 (by decide) none [0x61, 0x0a, 0x62] [0x61]
    ⟨⟨by simp, by simp, by decide⟩, .inl rfl, by simp⟩ (by simp) h (by decide) rfl rfl rfl (.inr ⟨⟨[0x62], rfl⟩, rfl⟩) hg 100 (by decide)
  obtain ⟨-, -, h4⟩ := h3 (by decide)
  obtain ⟨l, l0, e1, e2, e3⟩ := h4 (by decide)
  exact ⟨l, l0, full, h1, by rw [e1] at h2; exact h2, e2, e3⟩

/-- Binary mode with three columns. -/
example (w : World) (h : w.stdin = [[0x61], [0x0a, 0x62]].map .data) :
    ∃ s cells, cells.map Cell.byte = [0x61, 0x0a, 0x62] ∧
      appears (program 100 w [.flag .binary, .int .columns (some 3)]).out = rowsView s 3 cells ++ [('\n', ({} : Style))] ∧
      appears (program 100 w [.flag .binary, .int .maxLines (some 1), .int .columns (some 3)]).out = rowsView s 3 (cells.take 1) ++ [('\n', ({} : Style))] := by
  have hg : ∀ c ∈ takeParts 3 [[0x61], [0x0a, 0x62]], ¬ BadChunk c := by
    intro c hc hb
    have : ∀ c ∈ takeParts 3 [[0x61], [0x0a, 0x62]], (pieces c).any badPiece = false := by decide
    exact absurd (this c hc) (by rw [(anyBad_iff c).2 hb]; simp)
  have hall : ∀ a ∈ ([.flag .binary, .int .columns (some 3)] : List Arg), ∀ b ∈ ([.flag .binary, .int .columns (some 3)] : List Arg), clash a b = false := by decide
  have hw : WellFormed [.flag .binary, .int .columns (some 3)] := ⟨by intro o; cases o <;> decide, fun a ha b hb he => by
    have := he.clash.1
    rw [hall a ha b hb] at this
    exact absurd this (by simp), by decide⟩
  obtain ⟨-, -, s, cells, -, h1, h2, h3⟩ := C114_stdin_binary [.flag .binary] [.int .columns (some 3)] w [[0x61], [0x0a, 0x62]] 1 (by decide) none
    [0x61, 0x0a, 0x62] [0x61] ⟨hw, .inl rfl, by decide⟩ (by decide) h (by decide) 3 (by decide) (.inl rfl) rfl rfl rfl
    (.inr ⟨⟨[0x62], rfl⟩, rfl⟩) hg 100 (by decide)
  exact ⟨s, cells, h1, h2, h3⟩

end Kolombos
