import Verif.Model.Help
/-
Lemmas about the wrapping of texts: what a line holds, and that no character is lost.
-/
set_option linter.unusedSimpArgs false
namespace Kolombos

/-- Words with single blanks in between, as chunks. -/
def inter : List Str → List Str
  | [] => []
  | [x] => [x]
  | x :: y :: r => x :: [' '] :: inter (y :: r)

theorem flatten_inter : ∀ ws : List Str, (inter ws).flatten = join [' '] ws
  | [] => rfl
  | [x] => by simp [inter, join]
  | x :: y :: r => by simp [inter, join, flatten_inter (y :: r)]

theorem inter_ne_nil {ws : List Str} (h : ws ≠ []) : inter ws ≠ [] := by
  match ws, h with
  | [x], _ => simp [inter]
  | x :: y :: r, _ => simp [inter]

theorem inter_cons (x : Str) {ws : List Str} (h : ws ≠ []) : inter (x :: ws) = x :: [' '] :: inter ws := by
  match ws, h with
  | y :: r, _ => rfl

/-- A word: it has characters and no blank among them. -/
def IsPlainWord (x : Str) : Prop := x ≠ [] ∧ ∀ c ∈ x, isPySpace c = false

theorem not_blank {x : Str} (h : IsPlainWord x) : isBlankChunk x = false := by
  obtain ⟨c, r, rfl⟩ := List.exists_cons_of_ne_nil h.1
  simp [isBlankChunk, h.2 c (by simp)]

/-- What the inner loop puts on a line. -/
theorem fillLine_inter (w : Nat) : ∀ (ws : List Str) (len : Nat),
    ∃ g ws', ws = g ++ ws' ∧ (g ≠ [] → len + (join [' '] g).length ≤ w) ∧
      ((ws' = [] ∧ fillLine w len (inter ws) = (inter g, []))
      ∨ (ws' ≠ [] ∧ g ≠ [] ∧ fillLine w len (inter ws) = (inter g, [' '] :: inter ws'))
      ∨ (ws' ≠ [] ∧ g ≠ [] ∧ fillLine w len (inter ws) = (inter g ++ [[' ']], inter ws'))
      ∨ (g = [] ∧ w < len + (ws.headD []).length ∧ fillLine w len (inter ws) = ([], inter ws)))
  | [], len => ⟨[], [], rfl, by simp, .inl ⟨rfl, by simp [inter, fillLine]⟩⟩
  | [x], len => by
    by_cases hx : len + x.length ≤ w
    · exact ⟨[x], [], rfl, fun _ => by simpa [join] using hx, .inl ⟨rfl, by simp [inter, fillLine, hx]⟩⟩
    · exact ⟨[], [x], rfl, by simp, .inr (.inr (.inr ⟨rfl, by simp; omega, by simp [inter, fillLine, hx]⟩))⟩
  | x :: y :: r, len => by
    by_cases hx : len + x.length ≤ w
    · by_cases hb : len + x.length + 1 ≤ w
      · obtain ⟨g, ws', he, hl, hc⟩ := fillLine_inter w (y :: r) (len + x.length + 1)
        have hf : fillLine w len (inter (x :: y :: r))
            = (x :: [' '] :: (fillLine w (len + x.length + 1) (inter (y :: r))).1,
              (fillLine w (len + x.length + 1) (inter (y :: r))).2) := by
          simp [inter, fillLine, hx, hb]
        by_cases hg : g = []
        · subst hg
          simp only [List.nil_append] at he
          subst he
          refine ⟨[x], y :: r, rfl, fun _ => by simpa [join] using hx, .inr (.inr (.inl ⟨by simp, by simp, ?_⟩))⟩
          rcases hc with ⟨h, _⟩ | ⟨_, h, _⟩ | ⟨_, h, _⟩ | ⟨_, _, h⟩
          · simp at h
          · simp at h
          · simp at h
          · rw [hf, h]
            simp [inter]
        · have hlen := hl hg
          refine ⟨x :: g, ws', by simp [he], fun _ => ?_, ?_⟩
          · obtain ⟨a, b, rfl⟩ := List.exists_cons_of_ne_nil hg
            simp [join] at *
            omega
          · rcases hc with ⟨h, e⟩ | ⟨h, _, e⟩ | ⟨h, _, e⟩ | ⟨h, _⟩
            · exact .inl ⟨h, by rw [hf, e, inter_cons x hg]⟩
            · exact .inr (.inl ⟨h, by simp, by rw [hf, e, inter_cons x hg]⟩)
            · exact .inr (.inr (.inl ⟨h, by simp, by rw [hf, e, inter_cons x hg]; simp⟩))
            · exact absurd h hg
      · exact ⟨[x], y :: r, rfl, fun _ => by simpa [join] using hx,
          .inr (.inl ⟨by simp, by simp, by simp [inter, fillLine, hx, hb]⟩)⟩
    · exact ⟨[], x :: y :: r, rfl, by simp, .inr (.inr (.inr ⟨rfl, by simp; omega, by simp [inter, fillLine, hx]⟩))⟩

theorem inter_getLast : ∀ (g : List Str), g ≠ [] → ∃ x ∈ g, (inter g).getLast? = some x
  | [x], _ => ⟨x, by simp, rfl⟩
  | x :: y :: r, _ => by
    obtain ⟨z, hz, h⟩ := inter_getLast (y :: r) (by simp)
    refine ⟨z, List.mem_cons_of_mem _ hz, ?_⟩
    have hne := inter_ne_nil (ws := y :: r) (by simp)
    obtain ⟨a, b, e⟩ := List.exists_cons_of_ne_nil hne
    rw [inter, e, List.getLast?_cons_cons, List.getLast?_cons_cons, ← e, h]

theorem head_inter {ws : List Str} (h : ws ≠ []) : ∃ x ∈ ws, ∃ r, inter ws = x :: r := by
  match ws, h with
  | [x], _ => exact ⟨x, by simp, [], rfl⟩
  | x :: y :: r, _ => exact ⟨x, by simp, _, rfl⟩

theorem finishLine_short {w : Nat} {line rest : List Str} (h : ∀ ch, rest.head? = some ch → ch.length ≤ w) :
    finishLine w line rest = (if line.getLast?.any isBlankChunk then line.dropLast else line, rest) := by
  unfold finishLine
  match rest with
  | [] => rfl
  | ch :: chs =>
    have := h ch rfl
    have hn : ¬ ch.length > w := by omega
    simp only [hn, if_false]

/-- A line and what remains, for words that are short enough. -/
theorem pass_inter {w : Nat} (hw : 1 ≤ w) {ws : List Str} (hne : ws ≠ [])
    (h : ∀ x ∈ ws, IsPlainWord x ∧ x.length ≤ w) :
    ∃ g ws', ws = g ++ ws' ∧ g ≠ [] ∧ (join [' '] g).length ≤ w ∧
      (finishLine w (fillLine w 0 (inter ws)).1 (fillLine w 0 (inter ws)).2).1 = inter g ∧
      ((finishLine w (fillLine w 0 (inter ws)).1 (fillLine w 0 (inter ws)).2).2 = inter ws' ∨
       (finishLine w (fillLine w 0 (inter ws)).1 (fillLine w 0 (inter ws)).2).2 = [' '] :: inter ws') := by
  obtain ⟨g, ws', he, hl, hc⟩ := fillLine_inter w ws 0
  have hgl : ∀ g : List Str, g ≠ [] → (∀ x ∈ g, x ∈ ws) → (inter g).getLast?.any isBlankChunk = false := by
    intro g hg hs
    obtain ⟨x, hx, e⟩ := inter_getLast g hg
    simp [e, not_blank (h x (hs x hx)).1]
  have hsub : ∀ x ∈ g, x ∈ ws := fun x hx => by rw [he]; simp [hx]
  have hsub' : ∀ x ∈ ws', x ∈ ws := fun x hx => by rw [he]; simp [hx]
  have hshort : ws' ≠ [] → ∀ ch, (inter ws').head? = some ch → ch.length ≤ w := by
    intro hn ch hch
    obtain ⟨x, hx, r, e⟩ := head_inter hn
    rw [e] at hch
    simp only [List.head?_cons, Option.some.injEq] at hch
    exact hch ▸ (h x (hsub' x hx)).2
  rcases hc with ⟨hn, e⟩ | ⟨hn, hg, e⟩ | ⟨hn, hg, e⟩ | ⟨hg, hlt, e⟩
  · subst hn
    have hg : g ≠ [] := by rw [List.append_nil] at he; exact he ▸ hne
    refine ⟨g, [], he, hg, by simpa using hl hg, ?_⟩
    rw [e, finishLine_short (by simp)]
    simp [hgl g hg hsub, inter]
  · refine ⟨g, ws', he, hg, by simpa using hl hg, ?_⟩
    rw [e, finishLine_short (by simp; omega)]
    simp [hgl g hg hsub]
  · refine ⟨g, ws', he, hg, by simpa using hl hg, ?_⟩
    rw [e, finishLine_short (hshort hn)]
    have : isBlankChunk [' '] = true := by decide
    simp [this]
  · exfalso
    obtain ⟨x, r, rfl⟩ := List.exists_cons_of_ne_nil hne
    have := (h x (by simp)).2
    simp at hlt
    omega

/-- How a text of short words is divided into lines. -/
theorem wrapChunks_inter {w : Nat} (hw : 1 ≤ w) : ∀ (n : Nat) (ws : List Str) (begun : Bool),
    (∀ x ∈ ws, IsPlainWord x ∧ x.length ≤ w) → ws.length < n →
    ∃ gs : List (List Str), gs.flatten = ws ∧ (∀ g ∈ gs, g ≠ [] ∧ (join [' '] g).length ≤ w) ∧
      wrapChunks w n begun (inter ws) = gs.map (join [' ']) ∧
      (begun = true → wrapChunks w n begun ([' '] :: inter ws) = gs.map (join [' '])) := by
  intro n
  induction n with
  | zero => intro ws _ _ h; omega
  | succ n ih =>
    intro ws begun h hn
    by_cases hne : ws = []
    · subst hne
      refine ⟨[], rfl, by simp, by simp [inter, wrapChunks], fun hb => ?_⟩
      subst hb
      have h1 : isBlankChunk [' '] = true := by decide
      cases n <;> simp [inter, wrapChunks, h1, fillLine, finishLine]
    · obtain ⟨g, ws', he, hg, hl, h1, h2⟩ := pass_inter hw hne h
      have hsub' : ∀ x ∈ ws', IsPlainWord x ∧ x.length ≤ w := fun x hx => h x (by rw [he]; simp [hx])
      have hlen : ws'.length < n := by
        have hgl := List.length_pos_of_ne_nil hg
        rw [he] at hn
        simp at hn
        omega
      obtain ⟨gs, e1, e2, e3, e4⟩ := ih ws' true hsub' hlen
      have hrest : wrapChunks w n true
          (finishLine w (fillLine w 0 (inter ws)).1 (fillLine w 0 (inter ws)).2).2 = gs.map (join [' ']) := by
        rcases h2 with h2 | h2
        · rw [h2, e3]
        · rw [h2, e4 rfl]
      have hig := inter_ne_nil hg
      have hblank : isBlankChunk [' '] = true := by decide
      refine ⟨g :: gs, by simp [e1, he], ?_, ?_, ?_⟩
      · intro g' hg'
        rcases List.mem_cons.1 hg' with rfl | hg'
        · exact ⟨hg, hl⟩
        · exact e2 g' hg'
      · obtain ⟨x, hx, r, e⟩ := head_inter hne
        rw [e, wrapChunks.eq_def]
        simp only [not_blank (h x hx).1, Bool.false_and, Bool.false_eq_true, if_false, ← e]
        rw [h1, if_neg hig, hrest, flatten_inter]
        rfl
      · intro hb
        subst hb
        rw [wrapChunks.eq_def]
        simp only [hblank, Bool.and_self, if_true]
        rw [h1, if_neg hig, hrest, flatten_inter]
        rfl

/-- Enough room: no line break. -/
theorem wrapChunks_one {w : Nat} (hw : 1 ≤ w) {n : Nat} {ws : List Str} (hne : ws ≠ [])
    (h : ∀ x ∈ ws, IsPlainWord x) (hl : (join [' '] ws).length ≤ w) :
    wrapChunks w (n + 2) false (inter ws) = [join [' '] ws] := by
  have hfit : ∀ (cs : List Str) (len : Nat), len + cs.flatten.length ≤ w → fillLine w len cs = (cs, []) := by
    intro cs
    induction cs with
    | nil => intro len _; rfl
    | cons c cs ih =>
      intro len hlen
      simp only [List.flatten_cons, List.length_append] at hlen
      rw [fillLine, if_pos (by omega), ih _ (by omega)]
  obtain ⟨x, hx, r, e⟩ := head_inter hne
  have hf := hfit (inter ws) 0 (by rw [flatten_inter]; omega)
  obtain ⟨z, hz, hzl⟩ := inter_getLast ws hne
  rw [e, wrapChunks.eq_def]
  simp only [not_blank (h x hx), Bool.false_and, Bool.false_eq_true, if_false, ← e]
  rw [hf, finishLine_short (by simp)]
  simp only [hzl, Option.any_some, not_blank (h z hz), Bool.false_eq_true, if_false]
  rw [if_neg (inter_ne_nil hne), flatten_inter]
  rfl

end Kolombos
