import Verif.Model.Debug
/-
The debug messages left out.
-/
set_option linter.unusedSimpArgs false

namespace Kolombos

/-- The writes other than debug messages. -/
def outsOf (evs : List Ev) : Str :=
  evs.flatMap fun
    | .out s => s
    | .dbg _ _ => []

/-- Without its debug messages `t` is `r`. -/
structure Erases {α : Type} (t : Trace α) (r : Run α) : Prop where
  out : outsOf t.evs = r.out
  res : t.res = r.res

theorem outsOf_append (a b : List Ev) : outsOf (a ++ b) = outsOf a ++ outsOf b := by simp [outsOf]

namespace Erases

variable {α β : Type}

theorem pure (a : α) : Erases (.pure a) (.pure a) := ⟨rfl, rfl⟩

theorem fail (e : Err) : Erases (.fail e : Trace α) (.fail e) := ⟨rfl, rfl⟩

theorem timeout : Erases (⟨[], .timeout⟩ : Trace α) ⟨[], .timeout⟩ := ⟨rfl, rfl⟩

theorem log {t : Trace α} {r : Run α} {es : List Ev} (h : Erases t r) (he : outsOf es = []) : Erases (.log es t) r := by
  refine ⟨?_, h.res⟩
  show outsOf (es ++ t.evs) = _
  rw [outsOf_append, he, h.out]; rfl

theorem write {t : Trace α} {r : Run α} {es : List Ev} {s : Str} (h : Erases t r) (he : outsOf es = s) :
    Erases (.log es t) (.write s r) := by
  refine ⟨?_, h.res⟩
  show outsOf (es ++ t.evs) = _
  rw [outsOf_append, he, h.out]; rfl

theorem bind {t : Trace α} {r : Run α} {f : α → Trace β} {g : α → Run β} (h : Erases t r) (hf : ∀ a, Erases (f a) (g a)) :
    Erases (t.bind f) (r.bind g) := by
  obtain ⟨evs, res⟩ := t
  obtain ⟨out, res'⟩ := r
  obtain ⟨h1, h2⟩ := h
  simp only at h1 h2
  subst h1 h2
  cases res with
  | ok a => exact ⟨by simp only [Trace.bind, Run.bind, outsOf_append, (hf a).out], by simp only [Trace.bind, Run.bind, (hf a).res]⟩
  | err e => exact ⟨rfl, rfl⟩
  | timeout => exact ⟨rfl, rfl⟩

end Erases

namespace Debug

theorem outsOf_write (d : Buffer) (s : Settings) (l : Nat) (t : Str) (o : Option Nat) (evs : List Ev) :
    outsOf (d.write s l t o :: evs) = outsOf evs := rfl

/-- A value, or the exception. -/
def ofExcept {α : Type} : Except Err α → Run α
  | .ok a => .pure a
  | .error e => .fail e

theorem detach_erases (s : Settings) (b : SegmentBuffer) (req : Int) : Erases (detach s b req) (ofExcept (b.detach req)) := by
  unfold detach
  refine Erases.log ?_ rfl
  cases b.detach req with
  | error e => exact .fail e
  | ok r =>
    refine Erases.log (.pure r) ?_
    split <;> rfl

theorem detachBytes_erases (s : Settings) (b : SegmentBuffer) (req : Int) (force : Bool) :
    Erases (detachBytes s b req force) (ofExcept (b.detachBytes req force)) := by
  unfold detachBytes SegmentBuffer.detachBytes
  split
  · have := (detach_erases s b req).bind (f := fun r =>
      if r.1.length = 0 then
        .log [chainbuf.write s 1 "Responsing with EOF".toList, bufferState s r.2] (.pure (Detached.eof, r.2))
      else .pure (Detached.ok r.1, r.2)) (g := fun r => if r.1.length = 0 then .pure (Detached.eof, r.2) else .pure (Detached.ok r.1, r.2)) (by
        intro r
        split
        · exact Erases.log (.pure _) rfl
        · exact .pure _)
    refine ⟨this.out.trans ?_, this.res.trans ?_⟩
    all_goals
      cases b.detach req with
      | error e => rfl
      | ok r =>
        obtain ⟨out, b'⟩ := r
        simp only [ofExcept, Run.bind, Run.pure]
        split <;> rfl
  · exact Erases.log (.pure _) rfl

theorem detachLine_erases (s : Settings) (b : SegmentBuffer) (force : Bool) :
    Erases (detachLine s b force) (ofExcept (b.detachLine force)) := by
  unfold detachLine SegmentBuffer.detachLine
  simp only
  split
  · exact Erases.log (.pure _) rfl
  · split
    · have := (detach_erases s b (SegmentBuffer.lineAvail b.chain).1).bind (f := fun q => .pure (Detached.ok q.1, q.2))
        (g := fun q => .pure (Detached.ok q.1, q.2)) fun q => .pure _
      refine ⟨this.out.trans ?_, this.res.trans ?_⟩
      all_goals cases b.detach (SegmentBuffer.lineAvail b.chain).1 <;> rfl
    · exact Erases.log (.pure _) rfl

theorem binLoop_erases (s : Settings) (cols req : Int) (closed : Bool) (fuel : Nat) :
    ∀ (b : SegmentBuffer) (off : Nat), Erases (BinaryFormatter.loop s cols req closed fuel b off) (Kolombos.BinaryFormatter.loop s cols req closed fuel b off) := by
  induction fuel with
  | zero => intro b off; exact .timeout
  | succ fuel ih =>
    intro b off
    rw [BinaryFormatter.loop, Kolombos.BinaryFormatter.loop]
    refine Erases.log ?_ rfl
    have := (detachBytes_erases s b req closed).bind (f := fun r =>
        match r.1 with
        | .wait => .pure (r.2, off)
        | .eof => .pure (r.2, off)
        | .ok out =>
          .log (BinaryFormatter.rowEvents s cols off r.2.lastLen out ++ [.out (Kolombos.BinaryFormatter.row s cols off r.2.lastLen out)])
            (BinaryFormatter.loop s cols req closed fuel r.2 (off + r.2.lastLen)))
      (g := fun r =>
        match r.1 with
        | .wait => .pure (r.2, off)
        | .eof => .pure (r.2, off)
        | .ok out => .write (Kolombos.BinaryFormatter.row s cols off r.2.lastLen out)
            (Kolombos.BinaryFormatter.loop s cols req closed fuel r.2 (off + r.2.lastLen))) (by
        rintro ⟨x, b'⟩
        cases x with
        | wait => exact .pure _
        | eof => exact .pure _
        | ok out => exact (ih b' _).write (by rw [outsOf_append]; show [] ++ (_ ++ []) = _; simp))
    refine ⟨this.out.trans ?_, this.res.trans ?_⟩
    all_goals
      cases b.detachBytes req closed with
      | error e => rfl
      | ok r =>
        obtain ⟨x, b'⟩ := r
        cases x <;> simp [ofExcept, Run.bind, Run.pure]

theorem binFormat_erases (fuel : Nat) (s : Settings) (term : Int) (closed : Bool) (b : SegmentBuffer) (off : Nat) :
    Erases (BinaryFormatter.format fuel s term closed b off) (Kolombos.BinaryFormatter.format fuel s term closed b off) := by
  unfold BinaryFormatter.format Kolombos.BinaryFormatter.format
  refine Erases.log ((binLoop_erases _ _ _ _ _ _ _).bind fun r => ?_) (by split <;> rfl)
  split
  · exact (Erases.pure r).write (by simp [outsOf])
  · exact .pure r

theorem textLoop_erases (s : Settings) (closed : Bool) (fuel : Nat) :
    ∀ (b : SegmentBuffer) (off n : Nat), Erases (TextFormatter.loop s closed fuel b off n) (Kolombos.TextFormatter.format s closed fuel b off n) := by
  induction fuel with
  | zero => intro b off n; exact .timeout
  | succ fuel ih =>
    intro b off n
    rw [TextFormatter.loop, Kolombos.TextFormatter.format]
    refine Erases.log ?_ rfl
    have := (detachLine_erases s b closed).bind (f := fun r =>
        match r.1 with
        | .wait => .pure (r.2, off, n)
        | .eof => .pure (r.2, off, n)
        | .ok out =>
          .log (TextFormatter.lineEvents s off out ++ [.out (Kolombos.TextFormatter.line s n out)])
            (TextFormatter.loop s closed fuel r.2 (off + r.2.lastLen) (n + 1)))
      (g := fun r =>
        match r.1 with
        | .wait => .pure (r.2, off, n)
        | .eof => .pure (r.2, off, n)
        | .ok out => .write (Kolombos.TextFormatter.line s n out)
            (Kolombos.TextFormatter.format s closed fuel r.2 (off + r.2.lastLen) (n + 1))) (by
        rintro ⟨x, b'⟩
        cases x with
        | wait => exact .pure _
        | eof => exact .pure _
        | ok out => exact (ih b' _ _).write (by rw [outsOf_append]; show [] ++ (_ ++ []) = _; simp))
    refine ⟨this.out.trans ?_, this.res.trans ?_⟩
    all_goals
      cases b.detachLine closed with
      | error e => rfl
      | ok r =>
        obtain ⟨x, b'⟩ := r
        cases x <;> simp [ofExcept, Run.bind, Run.pure]

theorem bind_pure_run {α : Type} (r : Run α) : r.bind .pure = r := by
  obtain ⟨out, res⟩ := r
  cases res <;> simp [Run.bind, Run.pure]

theorem textFormat_erases (s : Settings) (closed : Bool) (fuel : Nat) (b : SegmentBuffer) (off n : Nat) :
    Erases (TextFormatter.format s closed fuel b off n) (Kolombos.TextFormatter.format s closed fuel b off n) := by
  unfold TextFormatter.format
  rw [← bind_pure_run (Kolombos.TextFormatter.format s closed fuel b off n)]
  exact (textLoop_erases s closed fuel b off n).bind fun r => Erases.log (.pure r) (by split <;> rfl)

theorem subItems_erases (reg : Registry) (s : Settings) (offset : Nat) (is : List (Item Byte)) :
    ∀ (pos : Nat) (b : SegmentBuffer), Erases (subItems reg s offset is pos b) (ofExcept (Kolombos.subItems reg s is b)) := by
  induction is with
  | nil => intro pos b; exact .pure _
  | cons i is ih =>
    intro pos b
    cases i with
    | copied x =>
      rw [subItems, Kolombos.subItems]
      have := (ih (pos + 1) b).bind (f := fun r => .pure (x :: r.1, r.2)) (g := fun r => .pure (x :: r.1, r.2)) fun r => .pure _
      refine ⟨this.out.trans ?_, this.res.trans ?_⟩
      all_goals cases Kolombos.subItems reg s is b <;> rfl
    | matched m =>
      rw [subItems, Kolombos.subItems]
      cases h1 : primaryMgroup m with
      | error e =>
        have : matchSegments reg s m = .error e := by unfold matchSegments; rw [h1]
        simp only [this]
        exact .fail e
      | ok k =>
        cases h2 : matchSegments reg s m with
        | error e => exact .fail e
        | ok segs =>
          simp only
          exact Erases.log (ih _ _) rfl

theorem parse_erases (reg : Registry) (s : Settings) (offset : Nat) (pb : ParserBuffer) (b : SegmentBuffer) :
    Erases (parse reg s offset pb b) (ofExcept (Kolombos.parse reg s pb b)) := by
  unfold parse Kolombos.parse
  refine Erases.log ?_ rfl
  have := (subItems_erases reg s offset (fSeparator.scan pb.raw) 0 b).bind (f := fun r =>
      if r.1.length ≠ 0 then .fail .runtimeError
      else match pb.cropRaw r.1 with
        | .error e => .fail e
        | .ok pb' => .log [parsbuf.write s 3 (if r.1.length = 0 then "Purging".toList else "Cropping".toList), rawState s pb']
            (.pure (pb', r.2)))
    (g := fun r => if r.1.length ≠ 0 then .fail .runtimeError
      else match pb.cropRaw r.1 with
        | .error e => .fail e
        | .ok pb' => .pure (pb', r.2)) (by
      rintro ⟨u, b'⟩
      simp only
      split
      · exact .fail _
      · cases pb.cropRaw u with
        | error e => exact .fail e
        | ok pb' => exact Erases.log (.pure _) rfl)
  refine ⟨this.out.trans ?_, this.res.trans ?_⟩
  all_goals
    cases Kolombos.subItems reg s (fSeparator.scan pb.raw) b with
    | error e => rfl
    | ok r =>
      obtain ⟨u, b'⟩ := r
      simp only [ofExcept, Run.bind, Run.pure]
      split
      · rfl
      · cases pb.cropRaw u <;> rfl

theorem formatStep_erases (fuel : Nat) (c : Config) (term : Nat → Int) (st : State) :
    Erases (formatStep fuel c term st) (Kolombos.formatStep fuel c term st) := by
  unfold formatStep Kolombos.formatStep
  cases c.mode with
  | binary => exact (binFormat_erases _ _ _ _ _ _).bind fun r => .pure _
  | text => exact (textFormat_erases _ _ _ _ _ _).bind fun r => .pure _

theorem appendEvents_outs (s : Settings) (raw : Bytes) (finish : Bool) (pb : ParserBuffer) : outsOf (appendEvents s raw finish pb) = [] := by
  cases finish <;> rfl

theorem processChunk_erases (fuel : Nat) (c : Config) (term wide : Nat → Int) (st : State) (raw : Bytes) (offset : Nat) (finish : Bool) :
    Erases (processChunk fuel c term wide st raw offset finish) (Kolombos.processChunk fuel c term st raw offset finish) := by
  unfold processChunk Kolombos.processChunk
  refine Erases.log ?_ (appendEvents_outs _ _ _ _)
  have := (parse_erases c.registry c.settings offset (st.pb.appendRaw raw finish) st.buf).bind (f := fun r =>
      (formatStep fuel c term { st with pb := r.1, buf := r.2 }).bind fun st' =>
        .log [runner.write c.settings 1 (separatorLine c.settings (wide (3 + st.calls)) (if finish then '┴' else '┼'))] (.pure st'))
    (g := fun r => (Kolombos.formatStep fuel c term { st with pb := r.1, buf := r.2 }).bind .pure)
    fun r => (formatStep_erases _ _ _ _).bind fun st' => Erases.log (.pure st') rfl
  refine ⟨this.out.trans ?_, this.res.trans ?_⟩
  all_goals
    simp only
    cases Kolombos.parse c.registry c.settings (st.pb.appendRaw raw finish) st.buf with
    | error e => rfl
    | ok r =>
      simp only [ofExcept, Run.bind, Run.pure, bind_pure_run]
      generalize Kolombos.formatStep _ _ _ _ = x
      obtain ⟨o, res⟩ := x
      cases res <;> simp

theorem limitEvents_outs (s : Settings) (w : Str) (mb ml : Option Int) (raw cropped : Bytes) (offset : Nat) :
    outsOf (limitEvents s w mb ml raw cropped offset) = [] := by
  unfold limitEvents
  repeat' split
  all_goals rfl

theorem readLoop_erases {σ : Type} (s : Settings) (src : Source) (hs : ∀ name, src ≠ .file name false) (mb ml : Option Int)
    {cb : σ → Bytes → Nat → Bool → Trace σ} {cb' : σ → Bytes → Nat → Bool → Run σ} (h : ∀ st raw o f, Erases (cb st raw o f) (cb' st raw o f))
    (io : List IoStep) : ∀ (offset lines chunks pos : Nat) (st : σ),
      Erases (readLoop s src mb ml cb io offset lines chunks pos st) (Reader.loop mb ml cb' io offset lines st) := by
  induction io with
  | nil => intro offset lines chunks pos st; exact Erases.log (h _ _ _ _) rfl
  | cons i io ih =>
    intro offset lines chunks pos st
    cases i with
    | raise e => exact .fail e
    | data raw =>
      rw [readLoop, Reader.loop]
      by_cases hr : raw = []
      · rw [if_pos hr, if_pos hr]
        exact Erases.log (h _ _ _ _) rfl
      · rw [if_neg hr, if_neg hr]
        refine Erases.log ?_ rfl
        obtain ⟨w, hw⟩ : ∃ w, position src (pos + raw.length) = .ok w := by
          cases src with
          | stdin => exact ⟨_, rfl⟩
          | file name b =>
            cases b with
            | true => exact ⟨_, rfl⟩
            | false => exact absurd rfl (hs name)
        rw [hw]
        simp only
        refine Erases.log ?_ (limitEvents_outs _ _ _ _ _ _ _)
        split
        · exact Erases.log (h _ _ _ _) rfl
        · refine (h _ _ _ _).bind fun st' => ?_
          split
          · exact Erases.log (h _ _ _ _) rfl
          · exact ih _ _ _ _ _

/-- Without the debug messages a run is the one modelled before. -/
theorem byteIoRun_erases (fuel : Nat) (s : Settings) (src : Source) (hs : ∀ name, src ≠ .file name false) (term wide : Nat → Int)
    (opened : Option Err) (io : List IoStep) :
    outsOf (byteIoRun fuel s src term wide opened io).evs = (Kolombos.byteIoRun fuel s term opened io).out ∧
      (byteIoRun fuel s src term wide opened io).res = (Kolombos.byteIoRun fuel s term opened io).res := by
  unfold byteIoRun Kolombos.byteIoRun read Reader.read
  simp only
  have hl : ∀ {α : Type} (t : Trace α), outsOf (Trace.log (if s.debug ≥ 3 then [] else [runner.write s 1 (separatorLine s (wide 2) '┬')]) t).evs = outsOf t.evs := by
    intro α t
    show outsOf (_ ++ _) = _
    rw [outsOf_append]
    split <;> rfl
  rw [hl]
  cases opened with
  | some e => exact ⟨rfl, rfl⟩
  | none =>
    simp only
    have := (readLoop_erases (Config.create s).settings src hs (Config.create s).settings.maxBytes (Config.create s).settings.maxLines
      (processChunk_erases fuel (Config.create s) term wide) io 0 0 0 0 {})
    obtain ⟨h1, h2⟩ := this
    generalize readLoop (Config.create s).settings src _ _ _ io 0 0 0 0 ({} : State) = t at *
    generalize Reader.loop _ _ _ io 0 0 ({} : State) = r at *
    obtain ⟨evs, res⟩ := t
    obtain ⟨out, res'⟩ := r
    simp only at h1 h2
    subst h1 h2
    simp only [Trace.log]
    cases res with
    | ok st => exact ⟨by simp [outsOf_write], rfl⟩
    | timeout => exact ⟨by simp [outsOf_write], rfl⟩
    | err e => cases e <;> exact ⟨by simp [outsOf_write], rfl⟩

end Debug

end Kolombos
