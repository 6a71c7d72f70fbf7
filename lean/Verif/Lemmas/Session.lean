import Verif.Lemmas.TextFacts
import Verif.Spec.Session
import Verif.Lemmas.BinLoop
import Verif.Lemmas.Params
import Verif.Props.Tokens
/-
States of a run, and which chunks cannot be processed.
-/
set_option linter.unusedSimpArgs false

namespace Kolombos
open Spec

/-! ### Bad pieces -/

theorem piece_csi {b : Byte} {r : Bytes} {ps : Bytes} {f : Byte} (hp : IsCsi ps f (piece b r).2.1) :
    (piece b r).1 = csiKind ps f := by
  obtain ⟨y, hy⟩ := piece_head b r
  obtain ⟨x, hx⟩ := isEscape_head (.inl ⟨ps, f, hp⟩)
  rw [hx] at hy
  have hb : b = 0x1b := (List.cons.inj hy).1.symm
  subst hb
  rw [piece_1b] at hp hx ⊢
  rcases escPiece_form r with ⟨ps', f', h1, h2, -⟩ | ⟨h1, h2⟩ | ⟨⟨c, h1, hc⟩, h2⟩ | ⟨⟨c, h1, hc⟩, h2⟩ |
    ⟨⟨c, h1, hc⟩, h2⟩ | ⟨h1, h2⟩
  · obtain ⟨rfl, rfl⟩ := isCsi_unique hp h1
    exact h2
  · exfalso
    obtain ⟨is, e, -⟩ := hp
    obtain ⟨is', f', e', h3, h4, -⟩ := isNf_iff.1 h1
    rw [e] at e'
    cases is' with
    | nil => exact h3 rfl
    | cons i is' =>
      have := (List.cons.inj (List.cons.inj e').2).1
      have h5 := h4 i (by simp)
      rw [← this] at h5
      exact absurd h5 (by decide)
  all_goals
    obtain ⟨is, e, -⟩ := hp
    have := congrArg List.length (e.symm.trans h1)
    simp at this

theorem isCsi_params {ps : Bytes} {f : Byte} {p : Bytes} (h : IsCsi ps f p) : csiParams p = ps := by
  obtain ⟨is, rfl, h1, h2, h3⟩ := isCsi_iff.1 h
  exact csiParams_eq h1 h2 h3

theorem not_badParams_nil : ¬ BadParams [] := by
  rintro ⟨q, ⟨a, b, e, -⟩, hq, -⟩
  simp at e
  exact hq e.2.1

theorem not_badParams_zero : ¬ BadParams [0x30] := by
  have : ¬ ∃ e, setDetails [0x30] = .error e := by
    have : ∃ d, setDetails [0x30] = .ok d := ⟨_, rfl⟩
    obtain ⟨d, h⟩ := this
    rw [h]; rintro ⟨e, h⟩; cases h
  rwa [setDetails_err_iff (by decide)] at this

theorem isCsi_ascii {ps : Bytes} {f : Byte} {p : Bytes} (h : IsCsi ps f p) : ∀ b ∈ ps, b.toNat < 128 := by
  obtain ⟨is, -, h1, -, -⟩ := h
  intro b hb
  have := h1 b hb
  unfold Rng at this; omega

theorem badPiece_iff {raw : Bytes} {q : Kind × Bytes} (h : q ∈ pieces raw) :
    badPiece q = true ↔ ∃ ps, IsCsi ps 0x6d q.2 ∧ BadParams ps := by
  have hb : badPiece q = true ↔ ∃ e, sgrDetails q.1 q.2 = .error e := by
    unfold badPiece; cases sgrDetails q.1 q.2 <;> simp
  rw [hb]
  obtain ⟨b, r, rfl⟩ := pieces_mem h
  constructor
  · rintro ⟨e, he⟩
    obtain ⟨hk, -, hd⟩ := sgrDetails_err he
    simp only at hk hd
    have hb : b = 0x1b := by
      have := pieces_wf h
      obtain ⟨t, ht, -⟩ := this.esc_form (by rw [hk]; rfl)
      obtain ⟨y, hy⟩ := piece_head b r
      simp only at ht
      rw [ht] at hy
      exact (List.cons.inj hy).1.symm
    subst hb
    rw [piece_1b] at hk hd ⊢
    rcases escPiece_form r with ⟨ps, f, h1, h2, h3⟩ | ⟨h1, h2⟩ | ⟨h1, h2⟩ | ⟨h1, h2⟩ | ⟨h1, h2⟩ | ⟨h1, h2⟩
    · have hf : f = 0x6d := by
        rw [h2] at hk
        unfold csiKind at hk
        split at hk
        · assumption
        · cases hk
      subst hf
      rw [h3] at hd
      exact ⟨ps, h1, (setDetails_err_iff (isCsi_ascii h1)).1 ⟨e, hd⟩⟩
    all_goals rw [h2] at hk; cases hk
  · rintro ⟨ps, h1, h2⟩
    have hk := piece_csi h1
    have hne : ps ≠ [] := by rintro rfl; exact not_badParams_nil h2
    have hnz : ps ≠ [0x30] := by rintro rfl; exact not_badParams_zero h2
    rw [show csiKind ps 0x6d = .sgr by simp [csiKind, hne, hnz]] at hk
    unfold sgrDetails
    simp only
    rw [if_pos hk, isCsi_params h1]
    exact (setDetails_err_iff (isCsi_ascii h1)).2 h2

/-- The chunk contains an SGR sequence whose parameters cannot be read. -/
theorem anyBad_iff (raw : Bytes) : (pieces raw).any badPiece = true ↔ BadChunk raw := by
  rw [List.any_eq_true]
  constructor
  · rintro ⟨q, hq, hb⟩
    exact ⟨q, hq, (badPiece_iff hq).1 hb⟩
  · rintro ⟨q, hq, hb⟩
    exact ⟨q, hq, (badPiece_iff hq).2 hb⟩

/-! ### One chunk -/

theorem processChunk_eq (fuel : Nat) (s : Settings) (term : Nat → Int) (st : State) (raw : Bytes) (off : Nat) (fin : Bool)
    (h : st.pb.raw = []) :
    processChunk fuel (Config.create s) term st raw off fin =
      if (pieces raw).any badPiece then .fail .valueError
      else formatStep fuel (Config.create s) term { st with pb := ⟨[], fin⟩, buf := st.buf.attach (chunkSegs s raw) } := by
  unfold processChunk
  simp only [parse_chunk, ParserBuffer.appendRaw, h, List.nil_append]
  split
  · rename_i h'; split at h' <;> simp_all
  · rename_i h'; split at h' <;> simp_all

/-- Nothing but the read mode changes when the mode is read. -/
theorem readMode_eq (s : Settings) : ∃ a b, s.readMode.2 = { s with text := a, binary := b } := by
  unfold Settings.readMode
  repeat' split
  all_goals exact ⟨_, _, rfl⟩

theorem readMode_curCols (s : Settings) : BinaryFormatter.curCols s.readMode.2 = BinaryFormatter.curCols s := by
  obtain ⟨a, b, e⟩ := readMode_eq s; rw [e]; rfl

theorem readMode_offLayout (s : Settings) : offLayout s.readMode.2 = offLayout s := by
  obtain ⟨a, b, e⟩ := readMode_eq s; rw [e]; rfl

theorem readMode_midLayout (s : Settings) : midLayout s.readMode.2 = midLayout s := by
  obtain ⟨a, b, e⟩ := readMode_eq s; rw [e]; rfl

theorem readMode_totalLayout (s : Settings) : totalLayout s.readMode.2 = totalLayout s := by
  obtain ⟨a, b, e⟩ := readMode_eq s; rw [e]; rfl

theorem readMode_linePrefix (s : Settings) : Console.linePrefix s.readMode.2 = Console.linePrefix s := by
  obtain ⟨a, b, e⟩ := readMode_eq s; rw [e]; rfl

theorem formatStep_binary {s : Settings} (hm : s.readMode.1 = .binary) (fuel : Nat) (term : Nat → Int) (st : State) :
    formatStep fuel (Config.create s) term st =
      (BinaryFormatter.format fuel s.readMode.2 (term st.calls) st.pb.closed st.buf st.offset).bind
        fun r => .pure { st with buf := r.1, offset := r.2, calls := st.calls + 1 } := by
  unfold formatStep
  rw [config_mode, hm, config_settings]

theorem formatStep_text {s : Settings} (hm : s.readMode.1 = .text) (fuel : Nat) (term : Nat → Int) (st : State) :
    formatStep fuel (Config.create s) term st =
      (TextFormatter.format s.readMode.2 st.pb.closed fuel st.buf st.offset st.lineNum).bind
        fun r => .pure { st with buf := r.1, offset := r.2.1, lineNum := r.2.2, calls := st.calls + 1 } := by
  unfold formatStep
  rw [config_mode, hm, config_settings]

/-! ### Which results are possible -/

/-- The result is not an exception, and a final state satisfies `P`. -/
def Run.Fine {α : Type} (r : Run α) (P : α → Prop) : Prop :=
  match r.res with
  | .ok a => P a
  | .err _ => False
  | .timeout => True

theorem Run.Fine.bind {α β : Type} {r : Run α} {P : α → Prop} {f : α → Run β} {Q : β → Prop} (h : r.Fine P)
    (hf : ∀ a, P a → (f a).Fine Q) : (r.bind f).Fine Q := by
  obtain ⟨out, res⟩ := r
  cases res with
  | ok a => exact hf a h
  | err e => exact h.elim
  | timeout => trivial

theorem Run.Fine.write {α : Type} {r : Run α} {P : α → Prop} (h : r.Fine P) (t : Str) : (Run.write t r).Fine P := h

theorem Run.Fine.noErr {α : Type} {r : Run α} {P : α → Prop} (h : r.Fine P) : ¬ ∃ e, r.res = .err e := by
  rintro ⟨e, he⟩
  unfold Run.Fine at h
  rw [he] at h
  exact h

/-- States with which formatting cannot fail. -/
structure Safe (s : Settings) (st : State) : Prop where
  parser : st.pb.raw = []
  binary : s.readMode.1 = .binary → ∃ o gs, Rep st.buf o gs ∧ AllConsistent gs
  text : s.readMode.1 = .text → ∃ gs, Rep st.buf false gs ∧ NlNe gs

theorem Safe.start (s : Settings) : Safe s {} :=
  ⟨rfl, fun _ => ⟨false, [], .nil, by simp [AllConsistent]⟩, fun _ => ⟨[], .nil, by simp [NlNe]⟩⟩

/-- Whatever the number of columns, the loop does not fail. -/
theorem binLoop_fine (s : Settings) (cols req : Int) (closed : Bool) (fuel : Nat) :
    ∀ (b : SegmentBuffer) (o : Bool) (gs : List Segment) (off : Nat), Rep b o gs → AllConsistent gs →
      (BinaryFormatter.loop s cols req closed fuel b off).Fine fun r => ∃ o' rs, Rep r.1 o' rs ∧ AllConsistent rs := by
  induction fuel with
  | zero => intro b o gs off _ _; trivial
  | succ fuel ih =>
    intro b o gs off h hc
    rw [BinaryFormatter.loop]
    unfold SegmentBuffer.detachBytes
    split
    · rename_i e he
      exfalso
      split at he
      · have hd := detach_rep h req
        cases hq : qDetachO req o gs with
        | error e' =>
          obtain ⟨-, g, hg, hne⟩ := qDetachO_err hq
          exact hne (hc g hg)
        | ok x =>
          obtain ⟨os, rs, o'⟩ := x
          rw [hq] at hd
          simp only at hd
          obtain ⟨out, b', e1, -⟩ := hd
          rw [e1] at he
          simp only at he
          split at he <;> cases he
      · cases he
    all_goals
      rename_i he
      have hd := detach_rep h req
      cases hq : qDetachO req o gs with
      | error e' =>
        obtain ⟨-, g, hg, hne⟩ := qDetachO_err hq
        exact absurd (hc g hg) hne
      | ok x =>
        obtain ⟨os, rs, o'⟩ := x
        have hr := (qDetachO_raw hq).2 hc
        rw [hq] at hd
        simp only at hd
        obtain ⟨out, b', e1, e2, -⟩ := hd
        split at he
        · rw [e1] at he
          simp only at he
          split at he
          · cases he
            try exact ⟨o', rs, e2, hr.2⟩
          · cases he
            try exact (ih _ o' rs _ e2 hr.2).write _
        · cases he
          try exact ⟨o, gs, h, hc⟩

theorem binFormat_fine (s : Settings) (term : Int) (closed : Bool) (fuel : Nat) {b : SegmentBuffer} {o : Bool}
    {gs : List Segment} (off : Nat) (h : Rep b o gs) (hc : AllConsistent gs) :
    (BinaryFormatter.format fuel s term closed b off).Fine fun r => ∃ o' rs, Rep r.1 o' rs ∧ AllConsistent rs := by
  unfold BinaryFormatter.format
  refine (binLoop_fine s _ _ closed fuel b o gs off h hc).bind fun r hr => ?_
  split
  · exact hr
  · exact hr

theorem textFormat_fine (s : Settings) (closed : Bool) (fuel : Nat) {b : SegmentBuffer} {gs : List Segment} (off n : Nat)
    (h : Rep b false gs) (hn : NlNe gs) :
    (TextFormatter.format s closed fuel b off n).Fine fun r => ∃ rs, Rep r.1 false rs ∧ NlNe rs := by
  obtain ⟨ls, as, bs, hc⟩ := cut_exists gs
  obtain ⟨h1, h2⟩ := textFormat_eq s closed hn h hc fuel off n
  by_cases hf : (printed closed ls as).length < fuel
  · obtain ⟨b', e1, e2⟩ := h1 hf
    rw [e2]
    refine ⟨_, e1, ?_⟩
    have hn' : NlNe (as ++ bs) := by
      rw [hc.eq] at hn; exact hn.append_right
    split
    · exact hn'.append_right
    · exact hn'
  · unfold Run.Fine
    rw [h2 (by omega)]
    trivial

theorem formatStep_fine {s : Settings} {st : State} (h : Safe s st) (fuel : Nat) (term : Nat → Int) :
    (formatStep fuel (Config.create s) term st).Fine (Safe s) := by
  cases hm : s.readMode.1 with
  | binary =>
    obtain ⟨o, gs, h1, h2⟩ := h.binary hm
    rw [formatStep_binary hm]
    refine (binFormat_fine _ _ _ fuel st.offset h1 h2).bind fun r hr => ?_
    exact ⟨h.parser, fun _ => hr, fun h' => by rw [hm] at h'; cases h'⟩
  | text =>
    obtain ⟨gs, h1, h2⟩ := h.text hm
    rw [formatStep_text hm]
    refine (textFormat_fine _ _ fuel st.offset st.lineNum h1 h2).bind fun r hr => ?_
    exact ⟨h.parser, fun h' => (by rw [hm] at h'; cases h'), fun _ => hr⟩

theorem Safe.attach {s : Settings} {st : State} (h : Safe s st) (raw : Bytes) (fin : Bool) :
    Safe s { st with pb := ⟨[], fin⟩, buf := st.buf.attach (chunkSegs s raw) } := by
  refine ⟨rfl, fun hm => ?_, fun hm => ?_⟩
  · obtain ⟨o, gs, h1, h2⟩ := h.binary hm
    refine ⟨o, _, h1.attach _, ?_⟩
    intro g hg
    rcases List.mem_append.1 hg with hg | hg
    · exact h2 g hg
    · obtain ⟨k, hk⟩ := chunkSegs_binary hm raw g hg
      exact hk.len
  · obtain ⟨gs, h1, h2⟩ := h.text hm
    refine ⟨_, h1.attach _, ?_⟩
    have := nlNe_of_text (chunkSegs_text hm raw)
    intro g hg
    rcases List.mem_append.1 hg with hg | hg
    · exact h2 g hg
    · exact this g hg

/-- One chunk: fails exactly if there is a bad piece; otherwise the state remains safe. -/
theorem processChunk_fine {s : Settings} {st : State} (h : Safe s st) (fuel : Nat) (term : Nat → Int) (raw : Bytes)
    (off : Nat) (fin : Bool) :
    ((pieces raw).any badPiece = true → processChunk fuel (Config.create s) term st raw off fin = .fail .valueError) ∧
    ((pieces raw).any badPiece = false → (processChunk fuel (Config.create s) term st raw off fin).Fine (Safe s)) := by
  rw [processChunk_eq fuel s term st raw off fin h.parser]
  refine ⟨fun hb => by rw [if_pos hb], fun hb => ?_⟩
  rw [if_neg (by simp [hb])]
  exact formatStep_fine (h.attach raw fin) fuel term

theorem bind_ok {α β : Type} {r : Run α} {f : α → Run β} {out : Str} {b : β} (h : r.bind f = ⟨out, .ok b⟩) :
    ∃ o1 a o2, r = ⟨o1, .ok a⟩ ∧ f a = ⟨o2, .ok b⟩ ∧ out = o1 ++ o2 := by
  obtain ⟨o1, res⟩ := r
  cases res with
  | ok a =>
    simp only [Run.bind, Run.mk.injEq] at h
    refine ⟨o1, a, (f a).out, rfl, ?_, h.1.symm⟩
    rw [← h.2]
  | err e => simp [Run.bind] at h
  | timeout => simp [Run.bind] at h

/-- Every state reached by processing chunks is safe. -/
theorem safe_reached {s : Settings} {fuel : Nat} {term : Nat → Int} (es : List ReadEvent) {st st' : State} {out : Str}
    (h : Safe s st) (he : playEvents (processChunk fuel (Config.create s) term) es st = ⟨out, .ok st'⟩) : Safe s st' := by
  induction es generalizing st out with
  | nil =>
    simp [playEvents, Run.pure] at he
    rw [← he.2]; exact h
  | cons e es ih =>
    obtain ⟨o1, st1, o2, h1, h2, -⟩ := bind_ok he
    refine ih ?_ h2
    obtain ⟨f1, f2⟩ := processChunk_fine h fuel term e.data e.offset e.finish
    cases hb : (pieces e.data).any badPiece with
    | true => rw [f1 hb] at h1; simp [Run.fail] at h1
    | false =>
      have := f2 hb
      rw [h1] at this
      exact this

end Kolombos
