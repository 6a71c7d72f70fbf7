import Verif.Lemmas.Display
import Verif.Props.Sgr
/-
Facts about the segments of a chunk.
-/
set_option linter.unusedSimpArgs false

namespace Kolombos
open Spec

/-! ### All pieces of a chunk -/

/-- The piece is an SGR sequence whose parameters cannot be read. -/
def badPiece (q : Kind × Bytes) : Bool :=
  match sgrDetails q.1 q.2 with
  | .error _ => true
  | .ok _ => false

/-- What is kept of the parameters of a piece that is not bad. -/
def detailsFn (q : Kind × Bytes) : SgrDetails :=
  match sgrDetails q.1 q.2 with
  | .error _ => {}
  | .ok d => d

/-- The segments of a piece that is not bad. -/
def segsOf (s : Settings) (q : Kind × Bytes) : List Segment := segmentsOf s q.1 q.2 (detailsFn q)

/-- The segments of a chunk without bad pieces. -/
def chunkSegs (s : Settings) (raw : Bytes) : List Segment := (pieces raw).flatMap (segsOf s)

theorem sgrDetails_err {k : Kind} {p : Bytes} {e : Err} (h : sgrDetails k p = .error e) :
    k = .sgr ∧ e = .valueError ∧ setDetails (csiParams p) = .error e := by
  unfold sgrDetails at h
  split at h
  · rename_i hk; exact ⟨hk, setDetails_err h, h⟩
  · cases h

theorem piecesSegments_eq (s : Settings) (qs : List (Kind × Bytes)) (hw : ∀ q ∈ qs, Wf q.1 q.2) :
    piecesSegments (registryOf s) s.readMode.2 qs =
      if qs.any badPiece then .error .valueError else .ok (qs.flatMap (segsOf s)) := by
  induction qs with
  | nil => rfl
  | cons q qs ih =>
    rw [piecesSegments, pieceSegments_eq s (hw q (by simp)), ih fun q hq => hw q (by simp [hq])]
    rw [List.any_cons, List.flatMap_cons]
    cases h : sgrDetails q.1 q.2 with
    | error e =>
      obtain ⟨-, rfl, -⟩ := sgrDetails_err h
      have hb : badPiece q = true := by unfold badPiece; rw [h]
      simp [Except.map, hb]
    | ok d =>
      have hb : badPiece q = false := by unfold badPiece; rw [h]
      have hd : segsOf s q = segmentsOf s q.1 q.2 d := by unfold segsOf detailsFn; rw [h]
      simp only [Except.map, hb, hd, Bool.false_or]
      cases qs.any badPiece <;> rfl

/-- The settings after a `read_mode` look-up, as `Config.create` has them. -/
theorem config_settings (s : Settings) : (Config.create s).settings = s.readMode.2 := by
  simp only [Config.create, create_readMode, readMode_idem]

theorem config_mode (s : Settings) : (Config.create s).mode = s.readMode.1 := by
  simp only [Config.create, create_readMode, readMode_idem]

theorem config_registry (s : Settings) : (Config.create s).registry = registryOf s := rfl

/-- `parse` for the templates of given settings. -/
theorem parse_chunk (s : Settings) (pb : ParserBuffer) (buf : SegmentBuffer) :
    parse (Config.create s).registry (Config.create s).settings pb buf =
      if (pieces pb.raw).any badPiece then .error .valueError
      else .ok ({ pb with raw := [] }, buf.attach (chunkSegs s pb.raw)) := by
  rw [config_settings, config_registry, parse_eq, piecesSegments_eq s _ fun q hq => pieces_wf hq]
  split
  · rename_i h; split at h <;> simp_all
  · rename_i h; split at h <;> simp_all [chunkSegs]

/-! ### Openings -/

/-- All codes switch something on. -/
def Stylish (o : Sgr) : Prop := ∃ gs, Styles o gs

theorem Styles.append {a b : Sgr} {gs hs : List Group} (h : Styles a gs) (h' : Styles b hs) : Styles (a ++ b) (gs ++ hs) := by
  induction h with
  | nil => exact h'
  | cons hc _ ih => rw [List.append_assoc]; exact .cons hc ih

theorem Stylish.append {a b : Sgr} (h : Stylish a) (h' : Stylish b) : Stylish (a ++ b) := by
  obtain ⟨_, h⟩ := h; obtain ⟨_, h'⟩ := h'; exact ⟨_, h.append h'⟩

theorem Stylish.nil : Stylish [] := ⟨_, .nil⟩

theorem Stylish.code {a : List Nat} {g : Group} (h : StyleCode a g) : Stylish a := by
  have := Styles.cons h .nil
  rw [List.append_nil] at this
  exact ⟨_, this⟩

theorem Stylish.consFg {n : Nat} {r : Sgr} (h : (30 ≤ n ∧ n ≤ 37) ∨ (90 ≤ n ∧ n ≤ 97)) (hr : Stylish r) : Stylish (n :: r) :=
  Stylish.append (.code (.fg n h)) hr

theorem Stylish.consBg {n : Nat} {r : Sgr} (h : (40 ≤ n ∧ n ≤ 47) ∨ (100 ≤ n ∧ n ≤ 107)) (hr : Stylish r) : Stylish (n :: r) :=
  Stylish.append (.code (.bg n h)) hr

theorem kindStyle_stylish (k : Kind) (d : DisplayMode) : Stylish (kindStyle k d) := by
  have inv : Stylish [7] := .code .inverse
  have idx : ∀ n, ∀ r, Stylish r → Stylish (38 :: 5 :: n :: r) := fun n r h => Stylish.append (.code (.fgIndexed n)) h
  have bidx : ∀ n, ∀ r, Stylish r → Stylish (48 :: 5 :: n :: r) := fun n r h => Stylish.append (.code (.bgIndexed n)) h
  cases d
  case ignored => exact .consFg (by decide) (.code (.intensity 2 (by decide)))
  all_goals
    cases k <;> simp only [kindStyle, kindOpening] <;> first
      | exact .consFg (by decide) .nil
      | exact .consFg (by decide) inv
      | exact .consBg (by decide) (.consFg (by decide) .nil)
      | exact idx _ _ (bidx _ _ .nil)
      | exact idx _ _ (bidx _ _ inv)
      | exact idx _ _ .nil

theorem detailsOpening_stylish : Stylish [48, 5, 16, 4] :=
  Stylish.append (.code (.bgIndexed 16)) (.code (.underline 4 (by decide)))

theorem pcodesLoop_stylish (n : Nat) (ps : List Nat) : Stylish (pcodesLoop n ps).1 := by
  induction n generalizing ps with
  | zero => exact .nil
  | succ n ih =>
    cases ps with
    | nil => exact .nil
    | cons p ps =>
      unfold pcodesLoop
      by_cases h : p = 38 ∨ p = 48
      · rw [if_pos h]
        simp only
        split
        · rename_i x r
          rcases h with rfl | rfl
          · exact Stylish.append (.code (.fgIndexed x)) (ih r)
          · exact Stylish.append (.code (.bgIndexed x)) (ih r)
        · rename_i x y z r
          rcases h with rfl | rfl
          · exact Stylish.append (.code (.fgRgb x y z)) (ih r)
          · exact Stylish.append (.code (.bgRgb x y z)) (ih r)
        · exact ih ps
      · rw [if_neg h]
        simp only
        split
        · rename_i ha
          have : Stylish [p] := by
            simp [allowedSgr] at ha
            by_cases h1 : p = 2
            · exact .code (.intensity p (.inr h1))
            by_cases h2 : p = 3
            · subst h2; exact .code .italic
            by_cases h3 : p = 53
            · subst h3; exact .code .overlined
            by_cases h4 : p = 9
            · subst h4; exact .code .crossed
            by_cases h5 : (30 ≤ p ∧ p ≤ 37) ∨ (90 ≤ p ∧ p ≤ 97)
            · exact .code (.fg p h5)
            · exact .code (.bg p (by omega))
          exact Stylish.append this (ih ps)
        · exact ih ps

theorem setDetails_stylish {b : Bytes} {d : SgrDetails} (h : setDetails b = .ok d) : Stylish d.opening := by
  unfold setDetails at h
  split at h
  · cases h
  · cases h; exact pcodesLoop_stylish _ _

theorem detailsFn_stylish (q : Kind × Bytes) : Stylish (detailsFn q).opening := by
  unfold detailsFn
  cases h : sgrDetails q.1 q.2 with
  | error e => exact .nil
  | ok d =>
    unfold sgrDetails at h
    split at h
    · exact setDetails_stylish h
    · cases h; exact .nil

/-- Every segment is opened by codes that switch something on. -/
theorem segmentsOf_stylish (s : Settings) (k : Kind) (p : Bytes) (q : SgrDetails) (hq : Stylish q.opening) :
    ∀ g ∈ segmentsOf s k p q, Stylish g.opening := by
  have ho := detailsOpening_stylish
  have hl : Stylish (labelStyle s k q) := by
    unfold labelStyle; split
    · exact hq
    · exact kindStyle_stylish _ _
  have hd : Stylish (detailStyle s k q) := by
    unfold detailStyle; split
    · split
      · exact ho.append hq
      · exact ho
    · exact (kindStyle_stylish k .default).append ho
  have hsep : ∀ c, Stylish (sepSegment c).opening := fun c => .code (.fgIndexed 255)
  have hbody : ∀ g ∈ escBody s k p q, Stylish g.opening := by
    intro g hg
    unfold escBody at hg
    rcases List.mem_cons.1 hg with rfl | hg
    · exact hl
    · split at hg
      · cases hg
      · rw [List.mem_singleton.1 hg]; exact hd
  intro g hg
  unfold segmentsOf at hg
  split at hg
  · unfold escSegments at hg
    split at hg
    · simp only [List.mem_cons, List.mem_append, List.not_mem_nil, or_false] at hg
      rcases hg with rfl | hg | rfl
      · exact hsep _
      · exact hbody g hg
      · exact hsep _
    · exact hbody g hg
  · split at hg
    · obtain ⟨b, -, hg⟩ := List.mem_flatMap.1 hg
      unfold ctrlSegments ctrlDetails at hg
      rcases List.mem_cons.1 hg with rfl | hg
      · exact kindStyle_stylish _ _
      · split at hg
        · cases hg
        · rw [List.mem_singleton.1 hg]; exact .consFg (by decide) ho
    · rw [List.mem_singleton.1 hg]; exact kindStyle_stylish _ _

theorem chunkSegs_stylish (s : Settings) (raw : Bytes) : ∀ g ∈ chunkSegs s raw, Stylish g.opening := by
  intro g hg
  obtain ⟨q, -, hg⟩ := List.mem_flatMap.1 hg
  exact segmentsOf_stylish s q.1 q.2 _ (detailsFn_stylish q) g hg

/-! ### Characters -/

theorem ascii_plain {b : Byte} (h : between 0x20 0x7e b = true) : isControlChar (chr b.toNat) = false := by
  simp [between] at h
  have : (chr b.toNat).toNat = b.toNat := chr_toNat (by omega)
  unfold isControlChar
  rw [this]
  simp; omega

theorem kindText_plain (k : Kind) (d : DisplayMode) (r : ReadMode) (h : k ≠ .tab ∨ r = .binary ∨ d = .ignored) :
    ∀ c ∈ kindText k d r, isControlChar c = false := by
  cases d <;> cases r <;> cases k <;> first
    | (simp at h; done)
    | (decide)

/-- What the segments of a piece depend on. -/
theorem segmentsOf_congr {s t : Settings} {k : Kind} (h1 : s.readMode.1 = t.readMode.1) (h2 : detailsOf s = detailsOf t)
    (h3 : displayOf s k = displayOf t k) (h4 : s.decode = t.decode) (h5 : s.colorMarkers = t.colorMarkers)
    (h6 : s.noSeparators = t.noSeparators) (p : Bytes) (q : SgrDetails) : segmentsOf s k p q = segmentsOf t k p q := by
  have hc : k = .ctrl → ctrlSegments s = ctrlSegments t := by
    rintro rfl
    funext b
    unfold ctrlSegments ctrlDetails
    rw [h1, h2, h3]
  have ht : pieceText s k p = pieceText t k p := by
    unfold pieceText
    rw [h1, h3, h4]
    cases k <;> simp only [h3]
  have he : escSegments s k p q = escSegments t k p q := by
    unfold escSegments escBody labelStyle detailStyle
    rw [h1, h2, h3, h5, h6]
  unfold segmentsOf
  rw [h2, h3, ht, he]
  split
  · rfl
  · split
    · rename_i hk
      rw [hc hk.1]
    · rfl

end Kolombos
