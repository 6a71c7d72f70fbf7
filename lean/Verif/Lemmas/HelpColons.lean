import Verif.Model.Help
/-
What the removal of colons does to the lines of a page.
-/
set_option linter.unusedSimpArgs false
namespace Kolombos

/-- Lines with their line feeds. -/
def unl (L : List Str) : Str := L.flatMap fun l => l ++ ['\n']

theorem unl_cons (l : Str) (L : List Str) : unl (l :: L) = l ++ '\n' :: unl L := by simp [unl]

theorem unl_append (L M : List Str) : unl (L ++ M) = unl L ++ unl M := by simp [unl]

/-- A line without a colon at its end. -/
def dropEndColon (l : Str) : Str := if l.getLast? = some ':' then l.dropLast else l

/-- Text goes on after the colon, and not with an escape character. -/
def goesOn (r : Str) : Bool :=
  match r.dropWhile isPySpace with
  | [] => false
  | x :: _ => x != '\x1b'

/-- Colons follow a character other than a blank, and if they are not at the end of the line, text
follows; `b`: a blank was before. -/
def okLine : Bool → Str → Bool
  | _, [] => true
  | b, c :: r =>
    if c = ':' then !b && (r.isEmpty || goesOn r) && okLine false r
    else okLine (isPySpace c) r

/-- A line that ends in a colon is followed by a line with text. -/
def okNext (l : Str) (L : List Str) : Bool :=
  if l.getLast? = some ':' then
    match L with
    | [] => false
    | m :: _ => goesOn m
  else true

/-- All lines. -/
def okLines : List Str → Bool
  | [] => true
  | l :: L => okLine true l && (!l.contains '\n') && okNext l L && okLines L

theorem isPySpace_colon : isPySpace ':' = false := by decide
theorem isPySpace_lf : isPySpace '\n' = true := by decide
theorem isPySpace_esc : isPySpace '\x1b' = false := by decide

/-- After a blank, the next character is no colon. -/
theorem skip_blank : ∀ (L : List Str) (l : Str), okLine true l = true → okLines L = true →
    ((l ++ '\n' :: unl L).dropWhile isPySpace).head? ≠ some ':' := by
  intro L
  induction L with
  | nil =>
    intro l
    induction l with
    | nil => intro _ _; simp [unl, isPySpace_lf]
    | cons c r ih =>
      intro h hL
      rw [okLine] at h
      by_cases hc : c = ':'
      · simp [hc] at h
      · rw [if_neg hc] at h
        by_cases hs : isPySpace c = true
        · rw [List.cons_append, List.dropWhile_cons, if_pos hs]
          rw [hs] at h
          exact ih h hL
        · rw [List.cons_append, List.dropWhile_cons, if_neg hs]
          simpa using hc
  | cons m M ihM =>
    intro l
    induction l with
    | nil =>
      intro _ hL
      rw [okLines] at hL
      simp only [Bool.and_eq_true] at hL
      rw [List.nil_append, List.dropWhile_cons, if_pos isPySpace_lf, unl_cons]
      exact ihM m hL.1.1.1 hL.2
    | cons c r ih =>
      intro h hL
      rw [okLine] at h
      by_cases hc : c = ':'
      · simp [hc] at h
      · rw [if_neg hc] at h
        by_cases hs : isPySpace c = true
        · rw [List.cons_append, List.dropWhile_cons, if_pos hs]
          rw [hs] at h
          exact ih h hL
        · rw [List.cons_append, List.dropWhile_cons, if_neg hs]
          simpa using hc

theorem colonHere_none {s : Str} (h : (s.dropWhile isPySpace).head? ≠ some ':') : colonHere s = none := by
  unfold colonHere
  split
  · rename_i r e
    rw [e] at h
    simp at h
  · rfl

theorem takeWhile_eq_of_goesOn {r : Str} (h : goesOn r = true) (t : Str) :
    (r ++ t).takeWhile isPySpace = r.takeWhile isPySpace ∧ (r ++ t).dropWhile isPySpace = r.dropWhile isPySpace ++ t ∧
      ∃ x q, r.dropWhile isPySpace = x :: q ∧ x ≠ '\x1b' := by
  induction r with
  | nil => simp [goesOn] at h
  | cons c r ih =>
    by_cases hs : isPySpace c = true
    · have h' : goesOn r = true := by
        unfold goesOn at *
        rwa [List.dropWhile_cons, if_pos hs] at h
      obtain ⟨a, b, e⟩ := ih h'
      simp [List.takeWhile_cons, List.dropWhile_cons, hs, a, b, e]
      simpa using e
    · have hx : c ≠ '\x1b' := by
        unfold goesOn at h
        rw [List.dropWhile_cons, if_neg hs] at h
        simpa using h
      simp [List.takeWhile_cons, List.dropWhile_cons, hs, hx]

theorem colonHere_eq {s r : Str} {x : Char} {q : Str} (hs : s.dropWhile isPySpace = ':' :: r)
    (hr : r.dropWhile isPySpace = x :: q) (hx : x ≠ '\x1b') :
    colonHere s = if '\n' ∈ r.takeWhile isPySpace then
        some (['\n'], ((r.takeWhile isPySpace).reverse.takeWhile (· != '\n')).reverse ++ x :: q)
      else none := by
  unfold colonHere
  rw [hs]
  simp only
  split
  · rename_i h; rw [hr] at h; cases h
  · rename_i rest h
    rw [hr] at h
    simp only [List.cons.injEq] at h
    exact absurd h.1 hx
  · rw [hr]

/-- A colon inside a line stays. -/
theorem colon_inside {r t : Str} (h : goesOn r = true) (hlf : '\n' ∉ r) : colonHere (':' :: r ++ t) = none := by
  obtain ⟨h1, h2, x, q, h3, hx⟩ := takeWhile_eq_of_goesOn h t
  rw [colonHere_eq (r := r ++ t) (x := x) (q := q ++ t) (by simp [isPySpace_colon]) (by rw [h2, h3]; rfl) hx, h1, if_neg]
  intro hm
  exact hlf (List.takeWhile_subset _ hm)

/-- A colon at the end of a line goes. -/
theorem colon_end {m t : Str} (h : goesOn m = true) (hlf : '\n' ∉ m) :
    colonHere (':' :: '\n' :: (m ++ t)) = some (['\n'], m ++ t) := by
  obtain ⟨h1, h2, x, q, h3, hx⟩ := takeWhile_eq_of_goesOn h t
  rw [colonHere_eq (r := '\n' :: (m ++ t)) (x := x) (q := q ++ t) (by simp [isPySpace_colon])
    (by rw [List.dropWhile_cons, if_pos isPySpace_lf, h2, h3]; rfl) hx, List.takeWhile_cons, if_pos isPySpace_lf, h1,
    if_pos (by simp)]
  have hn : ∀ c ∈ m.takeWhile isPySpace, (c != '\n') = true := by
    intro c hc
    have : c ≠ '\n' := fun e => hlf (e ▸ List.takeWhile_subset _ hc)
    simpa using this
  rw [List.reverse_cons, List.takeWhile_append_of_pos (by simpa using hn)]
  have h0 : (['\n'] : Str).takeWhile (· != '\n') = [] := by decide
  rw [h0, List.append_nil, List.reverse_reverse]
  have : m = m.takeWhile isPySpace ++ (x :: q) := by rw [← h3, List.takeWhile_append_dropWhile]
  conv => rhs; rw [this]
  simp

/-- A sequence found at the beginning of a line lies inside the line. -/
theorem sgrHere_line {l t : Str} {k : Nat} (h : sgrHere (l ++ '\n' :: t) = some k) :
    ∃ ps r, l = '\x1b' :: '[' :: (ps ++ 'm' :: r) ∧ k = ps.length + 3 ∧ ∀ c ∈ ps, (c.isDigit || c == ';') = true := by
  match l with
  | [] => simp [sgrHere] at h
  | [a] =>
    simp only [List.cons_append, List.nil_append] at h
    unfold sgrHere at h
    split at h
    · rename_i r e
      simp at e
    · cases h
  | a :: b :: l =>
    simp only [List.cons_append] at h
    unfold sgrHere at h
    split at h
    · rename_i r e
      simp only [List.cons.injEq] at e
      obtain ⟨rfl, rfl, rfl⟩ := e
      simp only at h
      split at h
      · rename_i hm
        injection h with h
        have hdw : ∀ (p : Char → Bool) (s : Str), s.drop (s.takeWhile p).length = s.dropWhile p := by
          intro p s
          have := List.drop_left (l₁ := s.takeWhile p) (l₂ := s.dropWhile p)
          rwa [List.takeWhile_append_dropWhile] at this
        rw [hdw] at hm
        let p : Char → Bool := fun c => c.isDigit || c == ';'
        have key : ∀ s : Str, ((s ++ '\n' :: t).dropWhile p).head? = some 'm' →
            (s ++ '\n' :: t).takeWhile p = s.takeWhile p ∧ (s.dropWhile p).head? = some 'm' := by
          intro s
          induction s with
          | nil =>
            intro hs
            rw [List.nil_append, List.dropWhile_cons, if_neg (by decide)] at hs
            simp at hs
          | cons c s ih =>
            intro hs
            by_cases hc : p c = true
            · rw [List.cons_append, List.dropWhile_cons, if_pos hc] at hs
              obtain ⟨h1, h2⟩ := ih hs
              rw [List.cons_append, List.takeWhile_cons, if_pos hc, List.takeWhile_cons, if_pos hc, h1,
                List.dropWhile_cons, if_pos hc]
              exact ⟨rfl, h2⟩
            · rw [List.cons_append, List.dropWhile_cons, if_neg hc] at hs
              rw [List.cons_append, List.takeWhile_cons, if_neg hc, List.takeWhile_cons, if_neg hc,
                List.dropWhile_cons, if_neg hc]
              exact ⟨rfl, hs⟩
        obtain ⟨h1, h2⟩ := key l hm
        have h1' : (l ++ '\n' :: t).takeWhile (fun c => c.isDigit || c == ';') = l.takeWhile p := h1
        rw [h1'] at h
        cases hd : l.dropWhile p with
        | nil => rw [hd] at h2; simp at h2
        | cons x r =>
          rw [hd] at h2
          simp only [List.head?_cons, Option.some.injEq] at h2
          subst h2
          refine ⟨l.takeWhile p, r, ?_, h.symm, fun c hc => ?_⟩
          · rw [← hd, List.takeWhile_append_dropWhile]
          · have := List.all_takeWhile (l := l) (p := p)
            exact List.all_eq_true.1 this c hc
      · cases h
    · cases h

theorem okLine_digits {b : Bool} {ps r : Str} (hps : ∀ c ∈ ps, (c.isDigit || c == ';') = true)
    (h : okLine b (ps ++ 'm' :: r) = true) : okLine false r = true := by
  induction ps generalizing b with
  | nil =>
    rw [List.nil_append, okLine, if_neg (by decide)] at h
    exact h
  | cons c ps ih =>
    rw [List.cons_append, okLine, if_neg] at h
    · exact ih (fun x hx => hps x (by simp [hx])) h
    · intro e
      have := hps c (by simp)
      rw [e] at this
      exact absurd this (by decide)

theorem dropEndColon_snoc (a : Str) : dropEndColon (a ++ [':']) = a := by
  simp [dropEndColon, List.getLast?_append]

theorem dropEndColon_cons {c d : Char} {r : Str} : dropEndColon (c :: d :: r) = c :: dropEndColon (d :: r) := by
  unfold dropEndColon
  rw [List.getLast?_cons_cons]
  split <;> simp

theorem okNext_cons {c d : Char} {r : Str} {L : List Str} : okNext (c :: d :: r) L = okNext (d :: r) L := by
  unfold okNext
  rw [List.getLast?_cons_cons]

theorem okNext_append (a : Str) {d : Char} {r : Str} {L : List Str} : okNext (a ++ d :: r) L = okNext (d :: r) L := by
  unfold okNext
  rw [List.getLast?_append_of_ne_nil _ (by simp)]

/-- The removal of colons, line by line. -/
theorem removeColons_lines : ∀ (k : Nat) (l : Str) (L : List Str) (b : Bool) (n : Nat),
    l.length + (unl L).length + 1 ≤ k → okLine b l = true → '\n' ∉ l → okNext l L = true → okLines L = true →
    l.length + (unl L).length + 1 ≤ n →
    removeColons n (l ++ '\n' :: unl L) = dropEndColon l ++ '\n' :: unl (L.map dropEndColon) := by
  intro k
  induction k with
  | zero => intro l L b n hk; omega
  | succ k ih =>
    intro l L b n hk hl hlf hnx hL hn
    obtain ⟨n, rfl⟩ : ∃ n', n = n' + 1 := ⟨n - 1, by omega⟩
    -- the lines after this one
    have hrest : ∀ n', (unl L).length ≤ n' → removeColons n' (unl L) = unl (L.map dropEndColon) := by
      intro n' hn'
      cases L with
      | nil => cases n' <;> simp [unl, removeColons]
      | cons m M =>
        rw [okLines] at hL
        simp only [Bool.and_eq_true] at hL
        rw [unl_cons] at hn' ⊢
        rw [List.map_cons, unl_cons]
        simp only [unl_cons, List.length_append, List.length_cons] at hk hn'
        exact ih m M true n' (by omega) hL.1.1.1 (by simpa using hL.1.1.2) hL.1.2 hL.2 (by omega)
    match l with
    | [] =>
      have h1 : headerColon ('\n' :: unl L) = none := by
        have hs : sgrHere ('\n' :: unl L) = none := by simp [sgrHere]
        have := skip_blank L [] rfl hL
        unfold headerColon
        rw [hs]
        exact colonHere_none this
      rw [List.nil_append, removeColons, h1]
      simp only [List.length_nil] at hn
      show '\n' :: removeColons n (unl L) = _
      rw [hrest n (by omega)]
      rfl
    | c :: r =>
      simp only [List.length_cons] at hk hn
      have hlf' : '\n' ∉ r := fun h => hlf (by simp [h])
      -- going on with the next character
      have hstep : ∀ b', okLine b' r = true → okNext r L = true →
          dropEndColon (c :: r) = c :: dropEndColon r →
          c :: removeColons n (r ++ '\n' :: unl L) = dropEndColon (c :: r) ++ '\n' :: unl (L.map dropEndColon) := by
        intro b' h1 h2 h3
        rw [ih r L b' n (by omega) h1 hlf' h2 hL (by omega), h3]
        rfl
      have hnil : c ≠ ':' → okNext r L = true ∧ dropEndColon (c :: r) = c :: dropEndColon r := by
        intro hc
        cases r with
        | nil =>
          refine ⟨by simp [okNext], ?_⟩
          have : (some c : Option Char) ≠ some ':' := by simpa using hc
          simp [dropEndColon, hc]
        | cons d r => exact ⟨by rw [okNext_cons] at hnx; exact hnx, dropEndColon_cons⟩
      by_cases hc : c = ':'
      · subst hc
        rw [okLine, if_pos rfl] at hl
        simp only [Bool.and_eq_true, Bool.or_eq_true] at hl
        obtain ⟨⟨hb, hr⟩, hl⟩ := hl
        have hs : sgrHere (':' :: r ++ '\n' :: unl L) = none := by simp [sgrHere]
        cases r with
        | nil =>
          cases L with
          | nil => simp [okNext] at hnx
          | cons m M =>
            have hgo : goesOn m = true := by simpa [okNext] using hnx
            have hm := hL
            rw [okLines] at hm
            simp only [Bool.and_eq_true] at hm
            have hh : headerColon (':' :: '\n' :: unl (m :: M)) = some (['\n'], unl (m :: M)) := by
              unfold headerColon
              rw [show sgrHere (':' :: '\n' :: unl (m :: M)) = none from hs, unl_cons]
              exact colon_end hgo (by simpa using hm.1.1.2)
            simp only [List.cons_append, List.nil_append]
            rw [removeColons, hh]
            show ['\n'] ++ removeColons n (unl (m :: M)) = _
            rw [hrest n (by simp only [List.length_nil] at hn; omega)]
            simp [dropEndColon]
        | cons d r =>
          have hgo : goesOn (d :: r) = true := by simpa using hr
          have hh : headerColon (':' :: (d :: r) ++ '\n' :: unl L) = none := by
            unfold headerColon
            rw [hs]
            exact colon_inside hgo hlf'
          rw [List.cons_append] at hh ⊢
          rw [removeColons, hh]
          exact hstep false hl (by rw [okNext_cons] at hnx; exact hnx) dropEndColon_cons
      · have hl0 := hl
        rw [okLine, if_neg hc] at hl
        obtain ⟨hnx', hde⟩ := hnil hc
        have hch : colonHere (c :: r ++ '\n' :: unl L) = none := by
          apply colonHere_none
          by_cases hs : isPySpace c = true
          · rw [List.cons_append, List.dropWhile_cons, if_pos hs]
            rw [hs] at hl
            exact skip_blank L r hl hL
          · rw [List.cons_append, List.dropWhile_cons, if_neg hs]
            simpa using hc
        cases hs : sgrHere (c :: r ++ '\n' :: unl L) with
        | none =>
          have hh : headerColon (c :: r ++ '\n' :: unl L) = none := by
            unfold headerColon
            rw [hs]
            exact hch
          rw [List.cons_append] at hh ⊢
          rw [removeColons, hh]
          exact hstep _ hl hnx' hde
        | some j =>
          obtain ⟨ps, q, hlq, hj, hps⟩ := sgrHere_line hs
          have hq : okLine false q = true := by
            rw [hlq] at hl0
            rw [okLine, if_neg (by decide), okLine, if_neg (by decide)] at hl0
            exact okLine_digits hps hl0
          have hql : '\n' ∉ q := fun h => hlf (by rw [hlq]; simp [h])
          have hsplit : c :: r ++ '\n' :: unl L = ('\x1b' :: '[' :: (ps ++ ['m'])) ++ (q ++ '\n' :: unl L) := by
            rw [hlq]; simp
          have hjl : j = ('\x1b' :: '[' :: (ps ++ ['m'])).length := by simp [hj]
          have hdrop : (c :: r ++ '\n' :: unl L).drop j = q ++ '\n' :: unl L := by
            rw [hsplit, hjl, List.drop_left]
          have htake : (c :: r ++ '\n' :: unl L).take j = '\x1b' :: '[' :: (ps ++ ['m']) := by
            rw [hsplit, hjl, List.take_left]
          by_cases hend : q = [':']
          · subst hend
            cases L with
            | nil =>
              rw [hlq] at hnx
              have : (('\x1b' :: '[' :: (ps ++ 'm' :: [':'])) : Str).getLast? = some ':' := by
                rw [show ('\x1b' :: '[' :: (ps ++ 'm' :: [':']) : Str) = ('\x1b' :: '[' :: (ps ++ ['m'])) ++ [':'] by simp,
                  List.getLast?_append]
                rfl
              simp [okNext, this] at hnx
            | cons m M =>
              have hgo : goesOn m = true := by
                rw [hlq, show ('\x1b' :: '[' :: (ps ++ 'm' :: [':']) : Str) = ('\x1b' :: '[' :: (ps ++ ['m'])) ++ ':' :: [] by simp,
                  okNext_append] at hnx
                simpa [okNext] using hnx
              have hm := hL
              rw [okLines] at hm
              simp only [Bool.and_eq_true] at hm
              have hh : headerColon (c :: r ++ '\n' :: unl (m :: M)) =
                  some ('\x1b' :: '[' :: (ps ++ ['m']) ++ ['\n'], unl (m :: M)) := by
                unfold headerColon
                rw [hs]
                simp only [hdrop, htake]
                rw [List.cons_append, List.nil_append, unl_cons, colon_end hgo (by simpa using hm.1.1.2)]
              rw [List.cons_append] at hh ⊢
              rw [removeColons, hh]
              show _ ++ removeColons n (unl (m :: M)) = _
              have hlr : (m ++ '\n' :: unl M).length ≤ n := by
                rw [← unl_cons]
                omega
              rw [hrest n (by rw [unl_cons]; exact hlr), hlq]
              rw [show ('\x1b' :: '[' :: (ps ++ 'm' :: [':']) : Str) = ('\x1b' :: '[' :: (ps ++ ['m'])) ++ [':'] by simp,
                dropEndColon_snoc]
              simp
          · have hh : headerColon (c :: r ++ '\n' :: unl L) = none := by
              unfold headerColon
              rw [hs]
              simp only [hdrop]
              have : colonHere (q ++ '\n' :: unl L) = none := by
                match q, hend, hq, hql with
                | [], _, _, _ => exact colonHere_none (skip_blank L [] rfl hL)
                | d :: q, hend, hq, hql =>
                  by_cases hd : d = ':'
                  · subst hd
                    rw [okLine, if_pos rfl] at hq
                    simp only [Bool.and_eq_true, Bool.or_eq_true] at hq
                    have hne : q ≠ [] := fun e => hend (by rw [e])
                    have hgo : goesOn q = true := by
                      rcases hq.1.2 with h | h
                      · simp at h; exact absurd h hne
                      · exact h
                    exact colon_inside hgo fun h => hql (by simp [h])
                  · apply colonHere_none
                    rw [okLine, if_neg hd] at hq
                    by_cases hsp : isPySpace d = true
                    · rw [List.cons_append, List.dropWhile_cons, if_pos hsp]
                      rw [hsp] at hq
                      exact skip_blank L q hq hL
                    · rw [List.cons_append, List.dropWhile_cons, if_neg hsp]
                      simpa using hd
              rw [this]
              exact hch
            rw [List.cons_append] at hh ⊢
            rw [removeColons, hh]
            exact hstep _ hl hnx' hde

/-- The removal of colons from a page. -/
theorem removeColons_unl {L : List Str} (h : okLines L = true) {n : Nat} (hn : (unl L).length ≤ n) :
    removeColons n (unl L) = unl (L.map dropEndColon) := by
  cases L with
  | nil => cases n <;> simp [unl, removeColons]
  | cons m M =>
    rw [okLines] at h
    simp only [Bool.and_eq_true] at h
    rw [unl_cons] at hn ⊢
    rw [List.map_cons, unl_cons]
    simp only [List.length_append, List.length_cons] at hn
    exact removeColons_lines _ m M true n (Nat.le_refl _) h.1.1.1 (by simpa using h.1.1.2) h.1.2 h.2 (by omega)

end Kolombos
