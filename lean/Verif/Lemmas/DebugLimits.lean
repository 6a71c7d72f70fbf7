import Verif.Spec.DebugLimits
import Verif.Lemmas.DebugPieces
/-
What debug messages say about input that is limited: the loop of the reader.
-/
set_option linter.unusedSimpArgs false

namespace Kolombos
open Spec

namespace Debug

/-- Cutting before the line feed with which the limit is reached. -/
theorem cropLines_before (n : Nat) : ∀ (raw : Bytes) (lines : Nat), lines < n →
    (Reader.cropLines n raw lines).1 = beforeLf (n - lines) raw ∧
    ((Reader.cropLines n raw lines).1 = raw → (Reader.cropLines n raw lines).2 = lines + raw.count 0x0a ∧ lines + raw.count 0x0a < n) ∧
    ((Reader.cropLines n raw lines).1 ≠ raw → (Reader.cropLines n raw lines).1.length < raw.length ∧ n ≤ (Reader.cropLines n raw lines).2) := by
  intro raw
  induction raw with
  | nil => intro lines h; exact ⟨rfl, fun _ => ⟨rfl, by simpa using h⟩, fun h => absurd rfl h⟩
  | cons b r ih =>
    intro lines h
    unfold Reader.cropLines beforeLf
    by_cases hb : b = 0x0a
    · rw [if_pos hb, if_pos hb]
      by_cases hl : ((lines + 1 : Nat) : Int) ≥ n
      · rw [if_pos hl, if_pos (by omega)]
        refine ⟨rfl, fun h => ?_, fun _ => ⟨by simp, ?_⟩⟩
        · simp at h
        · show n ≤ lines + 1
          omega
      · rw [if_neg hl, if_neg (by omega)]
        obtain ⟨h1, h2, h3⟩ := ih (lines + 1) (by omega)
        refine ⟨?_, ?_, ?_⟩
        · simp only [h1]
          congr 2
        · intro e
          simp only [List.cons.injEq, true_and] at e
          obtain ⟨h4, h5⟩ := h2 e
          subst hb
          simp only [List.count_cons_self]
          exact ⟨by rw [h4]; omega, by omega⟩
        · intro e
          have e' : (Reader.cropLines n r (lines + 1)).1 ≠ r := fun e' => e (by simp only [e'])
          obtain ⟨h4, h5⟩ := h3 e'
          exact ⟨by simp only [List.length_cons]; omega, h5⟩
    · rw [if_neg hb, if_neg hb]
      obtain ⟨h1, h2, h3⟩ := ih lines h
      refine ⟨by simp only [h1], ?_, ?_⟩
      · intro e
        simp only [List.cons.injEq, true_and] at e
        obtain ⟨h4, h5⟩ := h2 e
        rw [List.count_cons_of_ne hb]
        exact ⟨h4, h5⟩
      · intro e
        have e' : (Reader.cropLines n r lines).1 ≠ r := fun e' => e (by simp only [e'])
        obtain ⟨h4, h5⟩ := h3 e'
        exact ⟨by simp only [List.length_cons]; omega, h5⟩

/-- The counter of lines before a chunk. -/
def LinesSeen (lines : Option Nat) (before : Bytes) (n : Nat) : Prop :=
  ∀ m, limit lines = some m → n = before.count 0x0a ∧ n < m

theorem limit_some {o : Option Nat} {m : Nat} (h : limit o = some m) : o = some m ∧ m ≠ 0 := by
  unfold limit at h
  split at h
  · cases h; exact ⟨rfl, by omega⟩
  · cases h

theorem limit_none {o : Option Nat} (h : limit o = none) : o = none ∨ o = some 0 := by
  unfold limit at h
  split at h
  · cases h
  · rename_i hn
    cases o with
    | none => exact .inl rfl
    | some k =>
      cases k with
      | zero => exact .inr rfl
      | succ k => exact absurd rfl (hn k)

theorem limitLines_under (lines : Option Nat) (before c : Bytes) {n : Nat} (h : LinesSeen lines before n) :
    (Reader.limitLines (optInt lines) c n).1 = underLines lines before c ∧
    (underLines lines before c = c → LinesSeen lines (before ++ c) (Reader.limitLines (optInt lines) c n).2) ∧
    (underLines lines before c ≠ c → (underLines lines before c).length < c.length ∧
      ∃ m, limit lines = some m ∧ m ≤ (Reader.limitLines (optInt lines) c n).2) := by
  cases hl : limit lines with
  | none =>
    have e : Reader.limitLines (optInt lines) c n = (c, n) := by
      rcases limit_none hl with rfl | rfl <;> rfl
    have e2 : underLines lines before c = c := by unfold underLines; rw [hl]
    rw [e, e2]
    refine ⟨rfl, fun _ => ?_, fun h => absurd rfl h⟩
    intro m hm
    rw [hl] at hm
    cases hm
  | some m =>
    obtain ⟨h1, h2⟩ := h m hl
    obtain ⟨rfl, h0⟩ := limit_some hl
    have e : Reader.limitLines (optInt (some m)) c n = Reader.cropLines m c n := by
      show (if (Int.ofNat m) ≠ 0 then _ else _) = _
      rw [if_pos (by simpa using h0)]
      rfl
    have e2 : underLines (some m) before c = beforeLf (m - n) c := by
      unfold underLines
      rw [hl, h1]
    obtain ⟨c1, c2, c3⟩ := cropLines_before m c n h2
    rw [e, e2, ← c1]
    refine ⟨rfl, fun hc => ?_, fun hc => ⟨(c3 hc).1, m, rfl, (c3 hc).2⟩⟩
    obtain ⟨c4, c5⟩ := c2 hc
    intro m' hm'
    rw [hl] at hm'
    cases hm'
    rw [c4, h1, List.count_append]
    exact ⟨rfl, by omega⟩

/-- The number of bytes before a chunk. -/
def BytesSeen (bytes : Option Nat) (before : Bytes) : Prop := ∀ m, limit bytes = some m → before.length < m

theorem bytesExceeded_under (bytes : Option Nat) (before c : Bytes) (h : BytesSeen bytes before) :
    Reader.bytesExceeded (optInt bytes) before.length c.length = decide (underBytes bytes before c ≠ c) ∧
    (underBytes bytes before c ≠ c → pyTake ((optInt bytes).getD 0 - before.length) c = underBytes bytes before c) ∧
    (underBytes bytes before c = c → limit bytes ≠ some (before.length + c.length) → BytesSeen bytes (before ++ c)) := by
  cases hl : limit bytes with
  | none =>
    have e2 : underBytes bytes before c = c := by unfold underBytes; rw [hl]
    rw [e2]
    refine ⟨?_, fun h => absurd rfl h, fun _ _ m hm => by rw [hl] at hm; cases hm⟩
    rcases limit_none hl with rfl | rfl <;> simp [Reader.bytesExceeded, optInt]
  | some m =>
    have h1 := h m hl
    obtain ⟨rfl, h0⟩ := limit_some hl
    have e2 : underBytes (some m) before c = c.take (m - before.length) := by unfold underBytes; rw [hl]
    have e3 : c.take (m - before.length) = c ↔ c.length ≤ m - before.length := by
      constructor
      · intro h
        have := congrArg List.length h
        rw [List.length_take] at this
        omega
      · exact List.take_of_length_le
    rw [e2]
    refine ⟨?_, fun _ => ?_, fun hc hne m' hm' => ?_⟩
    · unfold Reader.bytesExceeded optInt
      simp only [Option.map_some, Int.ofNat_eq_natCast, ne_eq, e3]
      have : ¬ ((m : Int) = 0) := by omega
      simp only [this, not_false_eq_true, decide_true, Bool.true_and]
      congr 1
      apply propext
      omega
    · have : (optInt (some m)).getD 0 - (before.length : Int) = ((m - before.length : Nat) : Int) := by
        simp only [optInt, Option.map_some, Option.getD_some, Int.ofNat_eq_natCast]
        omega
      rw [this]
      unfold pyTake
      split
      · simp
      · omega
    · rw [hl] at hm'
      cases hm'
      have := e3.1 hc
      rw [List.length_append]
      have : m ≠ before.length + c.length := fun e => hne (by rw [e])
      omega

theorem limitReached_iff (bytes lines : Option Nat) (off n : Nat) :
    Reader.limitReached (optInt bytes) (optInt lines) off n = true ↔ (∃ m, limit bytes = some m ∧ m ≤ off) ∨ ∃ m, limit lines = some m ∧ m ≤ n := by
  have one : ∀ (o : Option Nat) (k : Nat), (match optInt o with
      | some n => decide (n ≠ 0) && decide ((k : Int) ≥ n)
      | none => false) = true ↔ ∃ m, limit o = some m ∧ m ≤ k := by
    intro o k
    cases o with
    | none => simp [optInt, limit]
    | some m =>
      cases m with
      | zero => simp [optInt, limit]
      | succ m =>
        simp only [optInt, Option.map_some, limit, Option.some.injEq, Int.ofNat_eq_natCast, Bool.and_eq_true, decide_eq_true_eq]
        constructor
        · rintro ⟨-, h⟩; exact ⟨m + 1, rfl, by omega⟩
        · rintro ⟨_, rfl, h⟩; exact ⟨by omega, by omega⟩
  unfold Reader.limitReached
  rw [Bool.or_eq_true]
  exact or_congr (one bytes off) (one lines n)

/-- What the reader says about a limit. -/
theorem limitReport_told (s : Settings) (off : Nat) (name : Str) (hname : PlainStr name) (n : Nat) (left : Bytes) :
    Told [reader.write s.readMode.2 2 ((name ++ " limit exceeded: ".toList) ++ bold (intStr n)) (some off),
      reader.write s.readMode.2 3 ("Cropping input -> ".toList ++ printd s.readMode.2 left) (some off)]
      (limitReport s off name (some n) left) := by
  refine Told.append (a := [_]) (b := [_]) (Told.one ?_) (Told.one ?_)
  · have hi : intStr n = dec n := by
      unfold intStr
      rw [if_neg (by omega)]
      rfl
    obtain ⟨u, h1, h2⟩ := offset_write_says s 2 off (((Says.plain {} hname).append (Says.plain {} (t := " limit exceeded: ".toList) (by decide))).append
      (bold_says (dec_plain n)))
    rw [hi]
    refine ⟨u, h1, reports_self ?_⟩
    rw [h2]
    simp [dec]
  · obtain ⟨u, h1, h2⟩ := offset_write_says s 3 off ((Says.plain {} (t := "Cropping input -> ".toList) (by decide)).append (printd_report s.readMode.2 left))
    refine ⟨u, h1, reports_self ?_⟩
    rw [h2]
    have hrep : bytesReport s.readMode.2 left = bytesReport s left := by unfold bytesReport; rw [readMode_debug]
    rw [hrep]
    simp

theorem eofEvent_told (s : Settings) (off : Nat) : ∃ u, eofEvent s.readMode.2 off = .dbg 1 u ∧
    Reports (visible u) (offsetText s off ++ "Encountered EOF".toList) := by
  obtain ⟨u, h1, h2⟩ := offset_write_says s 1 off (Says.plain {} (t := "Encountered EOF".toList) (by decide))
  exact ⟨u, h1, reports_self h2⟩

theorem endReports_told (s : Settings) (fuel : Nat) (term wide : Nat → Int) {st : State} (hst : st.pb.raw = []) (off k : Nat) {st' : State}
    (hr : (processChunk fuel (Config.create s) term wide st [] k true).res = .ok st') :
    Told (eofEvent s.readMode.2 off :: (processChunk fuel (Config.create s) term wide st [] k true).evs) (endReports s off) :=
  Told.append (a := [_]) (Told.one (eofEvent_told s off)) (processChunk_told fuel term wide hst [] k true hr)

theorem limitEvents_told (s : Settings) (w : Str) (bytes lines : Option Nat) (c : Bytes) (before : Bytes) {n : Nat} (hl : LinesSeen lines before n)
    (hb : BytesSeen bytes before) :
    Told (limitEvents s.readMode.2 w (optInt bytes) (optInt lines) c (underLines lines before c) before.length)
      ((if underLines lines before c ≠ c then limitReport s before.length "Line".toList lines (underLines lines before c) else [])
        ++ if underBytes bytes before (underLines lines before c) ≠ underLines lines before c then
            limitReport s before.length "Byte".toList bytes (underBytes bytes before (underLines lines before c))
          else []) := by
  obtain ⟨-, -, l3⟩ := limitLines_under lines before c hl
  obtain ⟨b1, b2, -⟩ := bytesExceeded_under bytes before (underLines lines before c) hb
  unfold limitEvents
  rw [b1, List.append_assoc]
  refine Told.mono ?_ (List.sublist_append_right _ _)
  refine Told.append ?_ ?_
  · by_cases hc : underLines lines before c = c
    · rw [if_neg (by rw [hc]; omega), if_neg (fun h => h hc)]
      exact Told.nil _
    · obtain ⟨h1, m, h2, -⟩ := l3 hc
      obtain ⟨rfl, -⟩ := limit_some h2
      rw [if_pos h1, if_pos hc]
      exact limitReport_told s before.length "Line".toList (by decide) m _
  · by_cases hc : underBytes bytes before (underLines lines before c) = underLines lines before c
    · rw [if_neg (by simpa using hc), if_neg (fun h => h hc)]
      exact Told.nil _
    · rw [if_pos (by simpa using hc), if_pos hc, b2 hc]
      cases h2 : limit bytes with
      | none => exact absurd (by unfold underBytes; rw [h2]) hc
      | some m =>
        obtain ⟨rfl, -⟩ := limit_some h2
        exact limitReport_told s before.length "Byte".toList (by decide) m _

theorem readLoop_limited (s : Settings) (src : Source) (fuel : Nat) (term wide : Nat → Int) (bytes lines : Option Nat) (cs : List Bytes) (hcs : ∀ c ∈ cs, c ≠ []) :
    ∀ before n chunks pos st st', st.pb.raw = [] → LinesSeen lines before n → BytesSeen bytes before →
      (readLoop s.readMode.2 src (optInt bytes) (optInt lines) (processChunk fuel (Config.create s) term wide) (cs.map .data) before.length n chunks pos st).res = .ok st' →
      Told (readLoop s.readMode.2 src (optInt bytes) (optInt lines) (processChunk fuel (Config.create s) term wide) (cs.map .data) before.length n chunks pos st).evs
        (limitedReports s bytes lines (fun off _ => off) chunks before cs) := by
  induction cs with
  | nil =>
    intro before n chunks pos st st' hst hl hb hr
    simp only [List.map_nil, readLoop, Trace.log, limitedReports]
    simp only [List.map_nil, readLoop, Trace.log] at hr
    exact endReports_told s fuel term wide hst before.length before.length hr
  | cons c cs ih =>
    intro before n chunks pos st st' hst hl hb hr
    have hc := hcs c (by simp)
    rw [List.map_cons, readLoop, if_neg hc] at hr ⊢
    have hev : ∃ u, chunkEvent s.readMode.2 c before.length chunks = .dbg 1 u ∧
        Reports (visible u) (offsetText s before.length ++ "Read chunk #".toList ++ Nat.toDigits 10 chunks ++ [':', ' '] ++ bytesReport s c) := by
      obtain ⟨u, h1, h2⟩ := offset_write_says s 1 before.length ((((Says.plain {} (t := "Read chunk #".toList) (by decide)).append (Says.plain _ (dec_plain chunks))).append
        (Says.plain {} (t := [':', ' ']) (by decide))).append (printd_report s.readMode.2 c))
      refine ⟨u, h1, reports_self ?_⟩
      rw [h2]
      have hrep : bytesReport s.readMode.2 c = bytesReport s c := by unfold bytesReport; rw [readMode_debug]
      rw [hrep]
      simp [dec]
    cases hw : position src (pos + c.length) with
    | error e => rw [hw] at hr; cases hr
    | ok w =>
      rw [hw] at hr
      obtain ⟨l1, l2, l3⟩ := limitLines_under lines before c hl
      obtain ⟨b1, b2, b3⟩ := bytesExceeded_under bytes before (underLines lines before c) hb
      have hle := limitEvents_told s w bytes lines c before hl hb
      simp only [l1, b1] at hr ⊢
      unfold limitedReports
      simp only [Trace.log] at hr ⊢
      by_cases hcut : underBytes bytes before (underLines lines before c) = underLines lines before c
      · rw [if_neg (by simpa using hcut)] at hr ⊢
        rw [if_neg (show ¬ (underBytes bytes before (underLines lines before c) ≠ underLines lines before c) from fun h => h hcut)] at hle ⊢
        rw [List.append_nil] at hle
        obtain ⟨st2, hres, hr, e⟩ := bind_ok_inv hr
        rw [e]
        have h2 := processChunk_told fuel term wide hst (underLines lines before c) before.length false hres
        have hemp := processChunk_emptied fuel term wide _ _ false hres
        refine Told.append (a := [_]) (Told.one hev) (Told.append hle (Told.append h2 ?_))
        by_cases hreach : Reader.limitReached (optInt bytes) (optInt lines) (before.length + (underLines lines before c).length)
            (Reader.limitLines (optInt lines) c n).2 = true
        · rw [if_pos hreach] at hr ⊢
          have : underLines lines before c ≠ c ∨ limit bytes = some (before.length + (underLines lines before c).length) := by
            rcases (limitReached_iff _ _ _ _).1 hreach with ⟨m, hm, hle⟩ | ⟨m, hm, hle⟩
            · refine .inr ?_
              rw [hm]
              congr 1
              have h3 := hb m hm
              have h4 : (underLines lines before c).take (m - before.length) = underLines lines before c := by
                unfold underBytes at hcut
                rw [hm] at hcut
                exact hcut
              have := congrArg List.length h4
              rw [List.length_take] at this
              omega
            · refine .inl fun e => ?_
              have := (l2 e m hm).2
              omega
          rw [if_pos this]
          exact endReports_told s fuel term wide hemp _ _ hr
        · rw [if_neg hreach] at hr ⊢
          have hn : ¬ (underLines lines before c ≠ c ∨ limit bytes = some (before.length + (underLines lines before c).length)) := by
            rintro (h | h)
            · obtain ⟨-, m, hm, hle⟩ := l3 h
              exact hreach ((limitReached_iff _ _ _ _).2 (.inr ⟨m, hm, hle⟩))
            · exact hreach ((limitReached_iff _ _ _ _).2 (.inl ⟨_, h, Nat.le_refl _⟩))
          rw [if_neg hn]
          have e1 : underLines lines before c = c := Classical.byContradiction fun h => hn (.inl h)
          have e2 : limit bytes ≠ some (before.length + c.length) := fun h => hn (.inr (by rw [e1]; exact h))
          rw [e1] at hr b3 hcut ⊢
          rw [← List.length_append] at hr ⊢
          exact ih (fun c hc => hcs c (by simp [hc])) (before ++ c) _ _ _ _ _ hemp (l2 e1) (b3 hcut e2) hr
      · rw [if_pos (by simpa using hcut)] at hr ⊢
        rw [if_pos (show underBytes bytes before (underLines lines before c) ≠ underLines lines before c from hcut)] at hle ⊢
        simp only [b2 hcut] at hr ⊢
        have h2 := processChunk_told fuel term wide hst _ before.length true hr
        refine Told.append (a := [_]) (Told.one hev) ?_
        have h3 := hle.append (Told.append (a := [_]) (b := _) (Told.one (eofEvent_told s before.length)) h2)
        rw [List.append_assoc] at h3
        exact h3

end Debug

end Kolombos
