import Verif.Spec.Limits
import Verif.Props.Distinct
import Verif.Props.Parts
import Verif.Lemmas.Insert
/-
The beginning of an input in parts, and its lines.
-/
set_option linter.unusedSimpArgs false

namespace Kolombos
open Spec

/-! ### Pieces of the beginning of an input -/

/-- A line feed is a piece, and what is before it does not depend on what follows. -/
theorem pieces_before_lf (a r : Bytes) : ∃ B, pieces (a ++ 0x0a :: r) = pieces a ++ (.newline, [0x0a]) :: B := by
  have hf := pieces_flatten (a ++ 0x0a :: r)
  obtain ⟨A, B, ⟨h1, h2⟩ | ⟨k, u, v, hu, hv, e1, e2⟩⟩ := position hf
  · have hp := pieces_prefix (u := []) h1 (by rw [h2, List.append_nil])
    rw [show pieces [] = [] from rfl, List.append_nil] at hp
    rw [hp, h1]
    rw [h1, List.map_append, List.flatten_append, h2, List.append_cancel_left_eq] at hf
    cases B with
    | nil => simp at hf
    | cons q B =>
      have hq : q ∈ pieces (a ++ 0x0a :: r) := by rw [h1]; simp
      have hne := pieces_ne_nil _ q hq
      have hw := pieces_wf hq
      obtain ⟨k, x⟩ := q
      cases x with
      | nil => exact absurd rfl hne
      | cons b x =>
        simp only [List.map_cons, List.flatten_cons, List.cons_append, List.cons.injEq] at hf
        obtain ⟨rfl, -⟩ := hf
        have hk : k = .newline := hw.lf (by simp)
        subst hk
        have hx := hw.newline_eq
        simp only at hx
        rw [hx]
        exact ⟨B, rfl⟩
  · exfalso
    have hw := pieces_wf (q := (k, u ++ v)) (raw := a ++ 0x0a :: r) (by rw [e1]; simp)
    have hv' : ∃ v', v = 0x0a :: v' := by
      rw [e1, ← e2] at hf
      simp only [List.map_append, List.map_cons, List.flatten_append, List.flatten_cons, List.append_assoc, List.append_cancel_left_eq] at hf
      cases v with
      | nil => exact absurd rfl hv
      | cons b v => simp at hf; exact ⟨v, by rw [hf.1]⟩
    obtain ⟨v', rfl⟩ := hv'
    have hk : k = .newline := hw.lf (by simp)
    subst hk
    have := congrArg List.length hw.newline_eq
    simp only [List.length_append, List.length_singleton, List.length_cons, List.length_nil] at this
    have := List.length_pos_iff.2 hu
    omega

theorem takeParts_flatten : ∀ (n : Nat) (cs : List Bytes), (takeParts n cs).flatten = cs.flatten.take n := by
  intro n cs
  induction cs generalizing n with
  | nil => cases n <;> simp [takeParts]
  | cons c cs ih =>
    cases n with
    | zero => simp [takeParts]
    | succ n => rw [takeParts, List.flatten_cons, List.flatten_cons, ih, List.take_append]

theorem takeParts_ne {cs : List Bytes} (h : ∀ c ∈ cs, c ≠ []) (n : Nat) : ∀ c ∈ takeParts n cs, c ≠ [] := by
  induction cs generalizing n with
  | nil => cases n <;> simp [takeParts]
  | cons c cs ih =>
    cases n with
    | zero => simp [takeParts]
    | succ n =>
      intro x hx
      rw [takeParts] at hx
      rcases List.mem_cons.1 hx with rfl | hx
      · have := h c (by simp)
        cases c <;> simp_all
      · exact ih (fun c hc => h c (by simp [hc])) _ x hx

theorem takeParts_takeParts {cs : List Bytes} (h : ∀ c ∈ cs, c ≠ []) {m n : Nat} (hm : m ≤ n) : takeParts m (takeParts n cs) = takeParts m cs := by
  induction cs generalizing m n with
  | nil => cases n <;> cases m <;> simp [takeParts]
  | cons c cs ih =>
    cases m with
    | zero => simp [takeParts]
    | succ m =>
      cases n with
      | zero => omega
      | succ n =>
        rw [takeParts, takeParts, takeParts, List.take_take, Nat.min_eq_left hm, List.length_take]
        congr 1
        by_cases hc : n + 1 ≤ c.length
        · rw [Nat.min_eq_left hc, show m + 1 - (n + 1) = 0 by omega, show m + 1 - c.length = 0 by omega]
          simp [takeParts]
        · rw [Nat.min_eq_right (by omega)]
          exact ih (fun c hc => h c (by simp [hc])) (by omega)

/-- The pieces of the parts before a line feed. -/
theorem parts_before_lf {cs : List Bytes} (hne : ∀ c ∈ cs, c ≠ []) {p : Bytes} (hp : p ++ [0x0a] <+: cs.flatten) :
    ∃ B, cs.flatMap pieces = (takeParts p.length cs).flatMap pieces ++ (.newline, [0x0a]) :: B := by
  induction cs generalizing p with
  | nil => simp at hp
  | cons c cs ih =>
    rw [List.flatten_cons] at hp
    by_cases hl : p.length < c.length
    · have h1 : p ++ [0x0a] <+: c := List.prefix_of_prefix_length_le hp (List.prefix_append _ _) (by simp; omega)
      obtain ⟨r, hr⟩ := h1
      have h2 : p <+: c := ⟨0x0a :: r, by rw [← hr]; simp⟩
      rw [takeParts_prefix h2 (hne c (by simp))]
      obtain ⟨B, hB⟩ := pieces_before_lf p r
      have hc : c = p ++ 0x0a :: r := by rw [← hr]; simp
      have hx : ([p].filter (· ≠ [])).flatMap pieces = pieces p := by
        cases p with
        | nil => rfl
        | cons b p => simp
      rw [hx, List.flatMap_cons, hc, hB]
      exact ⟨B ++ cs.flatMap pieces, by simp⟩
    · have h1 : c <+: p := by
        refine List.prefix_of_prefix_length_le (List.prefix_append c cs.flatten) ?_ (by omega)
        exact (List.prefix_append p [0x0a]).trans hp
      obtain ⟨p', rfl⟩ := h1
      rw [List.append_assoc, List.prefix_append_right_inj] at hp
      obtain ⟨B, hB⟩ := ih (fun c hc => hne c (by simp [hc])) hp
      rw [List.length_append, takeParts_whole (hne c (by simp))]
      exact ⟨B, by rw [List.flatMap_cons, List.flatMap_cons, hB, List.append_assoc]⟩

theorem takeParts_all {cs : List Bytes} (hne : ∀ c ∈ cs, c ≠ []) : takeParts cs.flatten.length cs = cs := by
  induction cs with
  | nil => rfl
  | cons c cs ih =>
    rw [List.flatten_cons, List.length_append, takeParts_whole (hne c (by simp)), ih fun c hc => hne c (by simp [hc])]

/-- The parts of a file without empty ones. -/
theorem partsOf_take {B : Int} (hB : B ≠ 0) {p p' : Bytes} (h : p' <+: p) :
    ∃ cs : List Bytes, (∀ c ∈ cs, c ≠ []) ∧ cs.flatten = p ∧ (partsOf B p).filter (· ≠ []) = cs ∧
      (partsOf B p').filter (· ≠ []) = takeParts p'.length cs := by
  have hf : ∀ l : List Bytes, (∀ c ∈ l, c ≠ []) → l.filter (· ≠ []) = l := fun l hl => by
    rw [List.filter_eq_self]; intro c hc; simpa using hl c hc
  unfold partsOf
  by_cases hneg : B < 0
  · simp only [hneg, if_true]
    refine ⟨[p].filter (· ≠ []), fun c hc => by simpa using (List.mem_filter.1 hc).2, ?_, rfl, ?_⟩
    · rw [flatten_filter]; simp
    · cases p with
      | nil =>
        have : p' = [] := List.prefix_nil.1 h
        subst this; rfl
      | cons b p =>
        have : [b :: p].filter (· ≠ []) = [b :: p] := by simp
        rw [this, takeParts_prefix h (by simp)]
  · simp only [hneg, if_false]
    have hn : 0 < B.toNat := by omega
    refine ⟨_, slices_ne hn p, ?_, hf _ (slices_ne hn p), ?_⟩
    · rw [slices_flatten, List.take_of_length_le]
      have h1 := Nat.div_add_mod (p.length + B.toNat - 1) B.toNat
      have h2 := Nat.mod_lt (p.length + B.toNat - 1) hn
      rw [Nat.mul_comm]
      omega
    · rw [hf _ (slices_ne hn p'), takeParts_slices hn _ _ _ (Nat.le_refl _) h]

/-- The pieces of the beginning of some parts: the same as before, except for what is left of a piece that is cut. -/
theorem parts_prefix {cs : List Bytes} (hne : ∀ c ∈ cs, c ≠ []) {p : Bytes} (hp : p <+: cs.flatten) :
    ∃ A B C, cs.flatMap pieces = A ++ B ∧ (takeParts p.length cs).flatMap pieces = A ++ C ∧ ∀ q ∈ C, q.1 ≠ .newline := by
  induction cs generalizing p with
  | nil =>
    have : p = [] := List.prefix_nil.1 hp
    subst this
    exact ⟨[], [], [], rfl, rfl, by simp⟩
  | cons c cs ih =>
    rw [List.flatten_cons] at hp
    by_cases hl : p.length < c.length
    · have h2 : p <+: c := List.prefix_of_prefix_length_le hp (List.prefix_append _ _) (by omega)
      rw [takeParts_prefix h2 (hne c (by simp))]
      have hx : ([p].filter (· ≠ [])).flatMap pieces = pieces p := by
        cases p with
        | nil => rfl
        | cons b p => simp
      obtain ⟨r, hr⟩ := h2
      rw [hx, List.flatMap_cons, ← hr]
      obtain ⟨A, B, ⟨h1, h2⟩ | ⟨k, u, v, hu, hv, e1, e2⟩⟩ := position (pieces_flatten (p ++ r))
      · have hp := pieces_prefix (u := []) h1 (by rw [h2, List.append_nil])
        exact ⟨A, B ++ cs.flatMap pieces, [], by rw [h1, List.append_assoc], hp, by simp⟩
      · have hp := pieces_prefix e1 e2
        refine ⟨A, (k, u ++ v) :: B ++ cs.flatMap pieces, pieces u, by rw [e1, List.append_assoc], hp, ?_⟩
        intro q hq hn
        have hw := pieces_wf (q := (k, u ++ v)) (raw := p ++ r) (by rw [e1]; simp)
        have hwq := pieces_wf hq
        obtain ⟨kq, x⟩ := q
        simp only at hn hwq
        subst hn
        have hx := hwq.newline_eq
        subst hx
        have hm : (0x0a : Byte) ∈ u := by
          rw [← pieces_flatten u]
          exact List.mem_flatten.2 ⟨[0x0a], List.mem_map.2 ⟨_, hq, rfl⟩, by simp⟩
        have hk : k = .newline := hw.lf (by simp [hm])
        subst hk
        have := congrArg List.length hw.newline_eq
        simp only [List.length_append, List.length_singleton] at this
        have := List.length_pos_iff.2 hu
        have := List.length_pos_iff.2 hv
        omega
    · have h1 : c <+: p := List.prefix_of_prefix_length_le (List.prefix_append c cs.flatten) hp (by omega)
      obtain ⟨p', rfl⟩ := h1
      rw [List.prefix_append_right_inj] at hp
      obtain ⟨A, B, C, e1, e2, e3⟩ := ih (fun c hc => hne c (by simp [hc])) hp
      rw [List.length_append, takeParts_whole (hne c (by simp))]
      exact ⟨pieces c ++ A, B, C, by rw [List.flatMap_cons, e1, List.append_assoc], by rw [List.flatMap_cons, e2, List.append_assoc], e3⟩

/-! ### Lines -/

theorem pieceLines_prefix (A B : List (Kind × Bytes)) : (pieceLines A).1 <+: (pieceLines (A ++ B)).1 := by
  induction A with
  | nil => exact List.nil_prefix
  | cons q A ih =>
    rw [List.cons_append, pieceLines, pieceLines]
    by_cases hq : q.1 = .newline
    · simp only [hq, if_true]
      exact List.cons_prefix_cons.2 ⟨rfl, ih⟩
    · simp only [hq, if_false]
      cases h : (pieceLines A).1 with
      | nil => exact List.nil_prefix
      | cons l ls =>
        rw [h] at ih
        obtain ⟨r, hr⟩ := ih
        rw [← hr]
        exact ⟨r, rfl⟩

theorem pieceLines_nl (A B : List (Kind × Bytes)) (x : Bytes) :
    pieceLines (A ++ (.newline, x) :: B) =
      ((pieceLines A).1 ++ ((pieceLines A).2 ++ [(.newline, x)]) :: (pieceLines B).1, (pieceLines B).2) := by
  induction A with
  | nil => simp [pieceLines]
  | cons q A ih =>
    rw [List.cons_append, pieceLines, pieceLines, ih]
    by_cases hq : q.1 = .newline
    · simp [hq]
    · simp only [hq, if_false]
      cases h : (pieceLines A).1 with
      | nil => simp
      | cons l ls => simp

theorem pieceLines_noNl (A C : List (Kind × Bytes)) (h : ∀ q ∈ C, q.1 ≠ .newline) :
    pieceLines (A ++ C) = ((pieceLines A).1, (pieceLines A).2 ++ C) := by
  induction A with
  | nil =>
    rw [List.nil_append]
    induction C with
    | nil => rfl
    | cons q C ih =>
      have := ih fun q hq => h q (by simp [hq])
      rw [pieceLines.eq_def (q :: C)]
      simp only [this, pieceLines, h q (by simp), if_false, List.nil_append]
  | cons q A ih =>
    rw [List.cons_append, pieceLines, pieceLines, ih]
    by_cases hq : q.1 = .newline
    · simp [hq]
    · simp only [hq, if_false]
      cases h : (pieceLines A).1 with
      | nil => simp
      | cons l ls => simp

theorem good_append {A B : List (Kind × Bytes)} (h : GoodPieces (A ++ B)) : GoodPieces A ∧ GoodPieces B :=
  ⟨fun q hq => h q (by simp [hq]), fun q hq => h q (by simp [hq])⟩

theorem good_parts {cs : List Bytes} (h : ∀ c ∈ cs, ¬ BadChunk c) : GoodPieces (cs.flatMap pieces) := by
  intro q hq
  obtain ⟨c, hc, hq⟩ := List.mem_flatMap.1 hq
  refine ⟨pieces_wf hq, ?_⟩
  cases hb : badPiece q with
  | false => rfl
  | true => exact absurd ((anyBad_iff c).1 (List.any_eq_true.2 ⟨q, hq, hb⟩)) (h c hc)

theorem parts_good {cs : List Bytes} (h : GoodPieces (cs.flatMap pieces)) : ∀ c ∈ cs, ¬ BadChunk c := by
  intro c hc hb
  obtain ⟨q, hq, hb⟩ := List.any_eq_true.1 ((anyBad_iff c).2 hb)
  have := (h q (List.mem_flatMap.2 ⟨c, hc, hq⟩)).2
  rw [hb] at this
  cases this

theorem labelInk_noNl (s : Settings) (n : Nat) : ∀ c ∈ labelInk s n, c.1 ≠ '\n' := by
  intro c hc e
  have h1 : (labelInk s n).map Prod.fst = lineLabel s n := by
    unfold labelInk lineLabel
    simp only
    split
    · rw [List.map_append, inStyle_fst]; rfl
    · split
      · rfl
      · rw [List.map_append, inStyle_fst]; rfl
  have h2 : c.1 ∈ lineLabel s n := by rw [← h1]; exact List.mem_map.2 ⟨c, hc, rfl⟩
  have := lineLabel_plain s n c.1 h2
  rw [e] at this
  exact absurd this (by decide)

theorem newline_ink (s : Settings) : ∃ c st st', textInk s (.newline, [0x0a]) = [(c, st), ('\n', st')] ∧ (c = '↵' ∨ c = '×') := by
  unfold textInk
  simp only
  split
  · exact ⟨_, _, _, rfl, .inr rfl⟩
  · exact ⟨_, _, _, rfl, .inl rfl⟩

/-- Displayed lines end with their only line feed. -/
theorem inkLines_lines {s : Settings} (hr : s.readMode.1 = .text) {qs : List (Kind × Bytes)} (hg : GoodPieces qs) :
    ∀ l ∈ inkLines (labelInk s) (textInk s) (lostAt s) qs, ∃ y st, l = y ++ [('\n', st)] ∧ ∀ c ∈ y, c.1 ≠ '\n' := by
  obtain ⟨g1, g2⟩ := pieceLines_good hg
  obtain ⟨-, h2, h3⟩ := pieceLines_spec qs
  intro l hl
  obtain ⟨i, hi, rfl⟩ := List.mem_mapIdx.1 hl
  have key : ∀ b ∈ inkBodies s qs, ∃ y st, b = y ++ [('\n', st)] ∧ ∀ c ∈ y, c.1 ≠ '\n' := by
    intro b hb
    rcases List.mem_append.1 hb with hb | hb
    · obtain ⟨l', hl', rfl⟩ := List.mem_map.1 hb
      obtain ⟨x, ⟨k, p⟩, rfl, h4, h5⟩ := h2 l' hl'
      simp only at h5
      subst h5
      have hp := (g1 _ hl' (.newline, p) (by simp)).1.newline_eq
      simp only at hp
      subst hp
      obtain ⟨c, st, st', e, hc⟩ := newline_ink s
      refine ⟨x.flatMap (textInk s) ++ [(c, st)], st', by simp [e], ?_⟩
      intro y hy
      rcases List.mem_append.1 hy with hy | hy
      · exact flatInk_noNl hr (fun q hq => g1 _ hl' q (by simp [hq])) h4 y hy
      · rw [List.mem_singleton.1 hy]
        rcases hc with rfl | rfl <;> simp
    · split at hb
      · cases hb
      · rw [List.mem_singleton.1 hb]
        exact ⟨_, _, rfl, fun c hc => flatInk_noNl hr g2 h3 c (List.mem_of_mem_take hc)⟩
  obtain ⟨y, st, e, hy⟩ := key _ (List.getElem_mem (l := inkBodies s qs) hi)
  refine ⟨labelInk s (i + 1) ++ y, st, ?_, ?_⟩
  · rw [List.append_assoc, ← e]; rfl
  · intro c hc
    rcases List.mem_append.1 hc with hc | hc
    · exact labelInk_noNl s _ c hc
    · exact hy c hc

theorem pieceLines_count {qs : List (Kind × Bytes)} (hg : GoodPieces qs) : (pieceLines qs).1.length = (bytesOf qs).count 0x0a := by
  obtain ⟨p1, p2, p3⟩ := pieceLines_spec qs
  obtain ⟨g1, g2⟩ := pieceLines_good hg
  have hR : bytesOf qs = bytesOf (pieceLines qs).1.flatten ++ bytesOf (pieceLines qs).2 := by
    conv => lhs; rw [p1]
    simp [bytesOf]
  rw [hR, List.count_append, count_lines fun l hl => line_bytes (fun q hq => (g1 l hl q hq).1) (p2 l hl),
    List.count_eq_zero.2 (bytesOf_noLf (fun q hq => (g2 q hq).1) p3)]
  rfl

/-- The input ends with a line feed, or is empty, if there is no incomplete line. -/
theorem rest_empty {qs : List (Kind × Bytes)} (hg : GoodPieces qs) :
    (pieceLines qs).2 = [] ↔ bytesOf qs = [] ∨ (bytesOf qs).getLast? = some 0x0a := by
  obtain ⟨p1, p2, p3⟩ := pieceLines_spec qs
  obtain ⟨g1, g2⟩ := pieceLines_good hg
  have hR : bytesOf qs = bytesOf (pieceLines qs).1.flatten ++ bytesOf (pieceLines qs).2 := by
    conv => lhs; rw [p1]
    simp [bytesOf]
  constructor
  · intro h
    rw [hR, h, show bytesOf [] = [] from rfl, List.append_nil]
    rcases List.eq_nil_or_concat (pieceLines qs).1 with h | ⟨L, l, h⟩
    · rw [h]; exact .inl rfl
    · right
      rw [List.concat_eq_append] at h
      obtain ⟨a, e, -⟩ := line_bytes (fun q hq => (g1 l (by rw [h]; simp) q hq).1) (p2 l (by rw [h]; simp))
      have : bytesOf (pieceLines qs).1.flatten = bytesOf L.flatten ++ a ++ [0x0a] := by
        rw [h, List.append_assoc, ← e]; simp [bytesOf]
      rw [this, List.getLast?_concat]
  · intro h
    refine Classical.byContradiction fun hn => ?_
    obtain ⟨q, hq⟩ := List.exists_mem_of_ne_nil _ hn
    have hq0 : bytesOf (pieceLines qs).2 ≠ [] := by
      intro h0
      have : q.2 = [] := by
        simp only [bytesOf, List.flatMap_eq_nil_iff] at h0
        exact h0 q hq
      exact (g2 q hq).1.ne_nil this
    rcases h with h | h
    · rw [hR] at h
      exact hq0 (List.append_eq_nil_iff.1 h).2
    · rw [hR, List.getLast?_append_of_ne_nil _ hq0] at h
      exact bytesOf_noLf (fun q hq => (g2 q hq).1) p3 (List.mem_of_getLast? h)

theorem lostAt_le (s : Settings) (qs : List (Kind × Bytes)) : lostAt s qs ≤ 2 ∧ (s.marker ≤ 0 → lostAt s qs = 0) := by
  unfold lostAt
  cases qs.getLast? with
  | none => simp
  | some q =>
    simp only
    unfold textLost
    have hl : level s ≤ 2 ∧ (s.marker ≤ 0 → level s = 0) := by unfold level; constructor <;> intros <;> repeat' split
                                                               all_goals omega
    split
    · simp
    · obtain ⟨k, p⟩ := q
      simp only
      cases k <;> simp only <;> first | exact hl | (split <;> simp_all [enclosed]) | simp

/-- The lines before a line feed. -/
theorem lines_before_lf {s : Settings} {A B : List (Kind × Bytes)} :
    let full := inkLines (labelInk s) (textInk s) (lostAt s) (A ++ (.newline, [0x0a]) :: B)
    let shown := inkLines (labelInk s) (textInk s) (lostAt s) A
    let k := (pieceLines A).1.length
    ((pieceLines A).2 = [] → shown = full.take k) ∧
    ((pieceLines A).2 ≠ [] → ∃ l l0, shown = full.take k ++ [l] ∧ full[k]? = some l0 ∧ LastLine s.marker l l0) := by
  intro full shown k
  obtain ⟨c, st, st', e, hc⟩ := newline_ink s
  have hfull : full = ((pieceLines A).1.map (fun l => l.flatMap (textInk s)) ++
      ((pieceLines A).2.flatMap (textInk s) ++ [(c, st), ('\n', st')]) :: (((pieceLines B).1.map (fun l => l.flatMap (textInk s))) ++
      (if (pieceLines B).2 = [] then [] else [((pieceLines B).2.flatMap (textInk s)).take (((pieceLines B).2.flatMap (textInk s)).length - lostAt s (pieceLines B).2)
        ++ [('\n', ({} : Style))]]))).mapIdx fun i l => labelInk s (i + 1) ++ l := by
    show inkLines _ _ _ _ = _
    unfold inkLines
    simp only [pieceLines_nl, List.map_append, List.map_cons, List.flatMap_append, List.flatMap_cons, List.flatMap_nil, e, List.append_nil,
      List.append_assoc, List.cons_append]
  have hk : ((pieceLines A).1.map (fun l => l.flatMap (textInk s))).length = k := List.length_map _
  have htake : full.take k = ((pieceLines A).1.map (fun l => l.flatMap (textInk s))).mapIdx fun i l => labelInk s (i + 1) ++ l := by
    rw [hfull, List.mapIdx_append, List.take_append_of_le_length (by simp [hk]), List.take_of_length_le (by simp [hk])]
  have hget : full[k]? = some (labelInk s (k + 1) ++ ((pieceLines A).2.flatMap (textInk s) ++ [(c, st), ('\n', st')])) := by
    rw [hfull, List.getElem?_mapIdx, ← hk, List.getElem?_append_right (Nat.le_refl _)]
    simp
  constructor
  · intro h
    rw [htake]
    show inkLines _ _ _ _ = _
    unfold inkLines
    simp only [h, if_true, List.append_nil]
  · intro h
    obtain ⟨l1, l2⟩ := lostAt_le s (pieceLines A).2
    generalize hx : (pieceLines A).2.flatMap (textInk s) = x at hget
    refine ⟨labelInk s (k + 1) ++ (x.take (x.length - lostAt s (pieceLines A).2) ++ [('\n', ({} : Style))]), _, ?_, hget, ?_⟩
    · rw [htake]
      show inkLines _ _ _ _ = _
      unfold inkLines
      simp only [h, if_false, hx]
      rw [List.mapIdx_append, hk]
      simp
    · refine ⟨labelInk s (k + 1) ++ x.take (x.length - lostAt s (pieceLines A).2), x.drop (x.length - lostAt s (pieceLines A).2), c, st, st', by simp, ?_, hc, ?_, ?_⟩
      · rw [List.append_assoc (labelInk s (k + 1)), List.take_append_drop, List.append_assoc]
      · rw [List.length_drop]; omega
      · intro hm
        rw [l2 hm]; simp

/-- The lines that are complete do not depend on what follows. -/
theorem lines_prefix {s : Settings} {A B C : List (Kind × Bytes)} (hC : ∀ q ∈ C, q.1 ≠ .newline) :
    let full := inkLines (labelInk s) (textInk s) (lostAt s) (A ++ B)
    let shown := inkLines (labelInk s) (textInk s) (lostAt s) (A ++ C)
    let k := (pieceLines A).1.length
    shown.take k = full.take k ∧ k ≤ full.length ∧ k ≤ shown.length ∧ shown.length ≤ k + 1 := by
  intro full shown k
  obtain ⟨r, hr⟩ := pieceLines_prefix A B
  have hk : ((pieceLines A).1.map (fun l => l.flatMap (textInk s))).length = k := List.length_map _
  have key : ∀ rest : List (List (Char × Style)), (((pieceLines A).1.map (fun l => l.flatMap (textInk s)) ++ rest).mapIdx
      fun i l => labelInk s (i + 1) ++ l).take k = ((pieceLines A).1.map (fun l => l.flatMap (textInk s))).mapIdx fun i l => labelInk s (i + 1) ++ l := by
    intro rest
    rw [List.mapIdx_append, List.take_append_of_le_length (by simp [hk]), List.take_of_length_le (by simp [hk])]
  have h1 : ∃ rest, full = ((pieceLines A).1.map (fun l => l.flatMap (textInk s)) ++ rest).mapIdx fun i l => labelInk s (i + 1) ++ l := by
    refine ⟨r.map (fun l => l.flatMap (textInk s)) ++ (if (pieceLines (A ++ B)).2 = [] then [] else
      [((pieceLines (A ++ B)).2.flatMap (textInk s)).take (((pieceLines (A ++ B)).2.flatMap (textInk s)).length - lostAt s (pieceLines (A ++ B)).2)
        ++ [('\n', ({} : Style))]]), ?_⟩
    show inkLines _ _ _ _ = _
    unfold inkLines
    simp only [← hr, List.map_append, List.append_assoc]
  have h2 : ∃ rest, rest.length ≤ 1 ∧ shown = ((pieceLines A).1.map (fun l => l.flatMap (textInk s)) ++ rest).mapIdx fun i l => labelInk s (i + 1) ++ l := by
    refine ⟨if (pieceLines A).2 ++ C = [] then [] else
      [(((pieceLines A).2 ++ C).flatMap (textInk s)).take ((((pieceLines A).2 ++ C).flatMap (textInk s)).length - lostAt s ((pieceLines A).2 ++ C))
        ++ [('\n', ({} : Style))]], by split <;> simp, ?_⟩
    show inkLines _ _ _ _ = _
    unfold inkLines
    simp only [pieceLines_noNl A C hC]
  obtain ⟨r1, h1⟩ := h1
  obtain ⟨r2, hl, h2⟩ := h2
  rw [h1, h2, key, key]
  refine ⟨rfl, ?_, ?_, ?_⟩ <;> rw [List.length_mapIdx, List.length_append, hk] <;> omega

end Kolombos
