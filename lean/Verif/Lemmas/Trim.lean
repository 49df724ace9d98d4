import Verif.Lemmas.Shift
import Verif.Lemmas.Alone

/-!
# The same samples without the beginning

A reader with one head does the same on samples whose beginning is left out, if the marks are counted from there.
-/

namespace TVP
open Spec

section
variable {fwd : Bool} {k : Interp} {H : Nat} {q : Rd} {xs ys : List Int} {fp : Fp}

/-- The reader `r`, with the marks of `q`, on samples of which the first `H` are not left out. -/
def trim (H : Nat) (q : Rd) (r : Rd) : Rd :=
  { r with header := q.header, fileSize := q.fileSize, pos1 := r.pos1 + H, playStart := q.playStart, playbackStart := q.playbackStart,
           loopStart := q.loopStart, loopFinish := q.loopFinish, fileSamples := q.fileSamples }

/-- One head, interpolation `k`, with linear interpolation at most normal speed; the marks of `q` are `H` samples behind those of `r`.  Either (`fwd`) it goes forwards, to
the end or round and round, or there is a loop and playback did not start at an end of the sound. -/
structure Trim (fwd : Bool) (H : Nat) (q : Rd) (k : Interp) (r : Rd) : Prop where
  header : r.header = 0
  deep : q.header ≤ H
  dual : r.dual = false
  chans : 1 ≤ r.nch
  way : (fwd = true ∧ 0 ≤ r.rate ∧ 0 ≤ r.rem ∧ 0 ≤ r.pos1 ∧ r.loopType ≠ .pingpong ∧ (r.loopType = .repeat → 0 ≤ r.posOf r.loopStart)) ∨
    (fwd = false ∧ r.loopType ≠ .none ∧ q.playStart ≠ .sample ∧ r.playStart ≠ .sample)
  last : r.loopType = .none → (trim H q r).posOf q.fileSamples = r.posOf r.fileSamples + H
  lf : r.loopType ≠ .none → (trim H q r).posOf q.loopFinish = r.posOf r.loopFinish + H
  lf1 : r.loopType ≠ .none → (trim H q r).posOf (q.loopFinish - r.nch) = r.posOf (r.loopFinish - r.nch) + H
  ls : r.loopType ≠ .none → (trim H q r).posOf q.loopStart = r.posOf r.loopStart + H
  calm : r.interp = k ∧ (k = .linear → |r.rate| ≤ 1)

/-- `r'` is `r` without the beginning of the sound. -/
def Trimmed (fwd : Bool) (H : Nat) (q : Rd) (k : Interp) (r r' : Rd) : Prop := r = trim H q r' ∧ Trim fwd H q k r'

variable (hxy : ∀ (j : Nat) v, ys[j]? = some v → xs[H + j]? = some v)

theorem addPoint_trim {r r' : Rd} (h : Trimmed fwd H q k r r') (ch : Nat) (y : Int) : Agree (Trimmed fwd H q k) (addPoint r ch y) (addPoint r' ch y) := by
  obtain ⟨rfl, h⟩ := h
  unfold addPoint
  simp only [trim]
  cases hi : r'.interp with
  | none => exact Agree.ok ⟨by rw [trim]; simp only [hi], h⟩
  | linear =>
    exact Agree.ite (fun _ => Agree.ok ⟨rfl, { h with calm := ⟨hi.symm.trans h.calm.1, h.calm.2⟩ }⟩) fun _ => Agree.error
  | quadratic =>
    exact Agree.ite (fun _ => Agree.ok ⟨rfl, { h with calm := ⟨hi.symm.trans h.calm.1, h.calm.2⟩ }⟩) fun _ => Agree.error

theorem Trimmed.ptsOf {r r' : Rd} (h : Trimmed fwd H q k r r') (ch : Nat) : TVP.ptsOf r ch = TVP.ptsOf r' ch := by obtain ⟨rfl, _⟩ := h; rfl

/-- With linear interpolation, up to normal speed nothing else is read. -/
theorem linearVal_trim {r r' : Rd} (h : Trimmed fwd H q k r r') (hl : r'.interp = .linear) {s t : Option (List Int)} (hq : Mems xs ys s t) (ch : Nat) (v : Int) :
    Agree (fun x y => x.1 = y.1 ∧ Trimmed fwd H q k x.2.1 y.2.1 ∧ Mems xs ys x.2.2 y.2.2) (linearVal fp arraySrc r s ch v) (linearVal fp arraySrc r' t ch v) := by
  obtain ⟨e, hr⟩ := id h
  have hrate := abs_le.1 (hr.calm.2 (hr.calm.1.symm.trans hl))
  have hn1 : ¬ r'.rate > 1 := not_lt.2 hrate.2
  have hn2 : ¬ r'.rate < -1 := not_lt.2 hrate.1
  have e1 : r.rem = r'.rem := by rw [e]; rfl
  have e2 : r.rate = r'.rate := by rw [e]; rfl
  unfold linearVal
  simp only [e1, e2, hn1, hn2, decide_false, Bool.and_false, Bool.false_and, Bool.false_eq_true, if_false]
  refine Agree.ite (fun _ => ?_) fun _ => ?_
  · refine Agree.bind (q := fun x y => Trimmed fwd H q k x.1 y.1 ∧ Mems xs ys x.2 y.2) ?_ ?_
    · refine Agree.ite (fun _ => ?_) fun _ => Agree.ite (fun _ => ?_) fun _ => Agree.ok ⟨h, hq⟩
      · refine Agree.ite (fun _ => ?_) fun _ => Agree.ok ⟨h, hq⟩
        exact Agree.skip fun _ _ => (addPoint_trim h ch v).bind fun _ _ h1 => Agree.ok ⟨h1, hq⟩
      · refine Agree.ite (fun _ => ?_) fun _ => Agree.ok ⟨h, hq⟩
        exact Agree.skip fun _ _ => (addPoint_trim h ch v).bind fun _ _ h1 => Agree.ok ⟨h1, hq⟩
    · rintro ⟨r1, s1⟩ ⟨r2, s2⟩ ⟨h1, h2⟩
      simp only at h1 h2
      simp only [h1.ptsOf ch]
      refine Agree.same fun p _ => Agree.ite (fun _ => Agree.same fun w _ => Agree.ok ⟨rfl, h1, h2⟩) fun _ => Agree.ok ⟨rfl, h1, h2⟩
  · refine (addPoint_trim h ch v).bind fun r1 r2 h1 => ?_
    rw [h1.ptsOf ch]
    exact Agree.same fun p _ => Agree.ok ⟨rfl, h1, hq⟩

include hxy in
theorem pushLoop_trim {dir : Bool} {ch : Nat} : ∀ (n : Nat) {r r' : Rd} {s t : Option (List Int)}, Trimmed fwd H q k r r' → Mems xs ys s t →
    Agree (fun x y => Trimmed fwd H q k x.1 y.1 ∧ Mems xs ys x.2 y.2) (pushLoop fp arraySrc dir ch n r s) (pushLoop fp arraySrc dir ch n r' t)
  | 0, r, r', s, t, h, hq => by unfold pushLoop; exact Agree.ok ⟨h, hq⟩
  | n + 1, r, r', s, t, h, hq => by
    obtain ⟨e, hr⟩ := id h
    unfold pushLoop
    have d1 : r.dual = false := by rw [e]; exact hr.dual
    simp only [d1, hr.dual, Bool.false_and, Bool.false_eq_true, if_false]
    refine (srcVal_further hxy (by rw [e]; rfl) (by rw [e]; rfl) hq _ ch).bind ?_
    rintro ⟨y, s1⟩ ⟨y', t1⟩ ⟨h1, h2⟩
    simp only at h1 h2
    subst h1
    simp only [pure_eq_ok, ok_bind]
    exact (addPoint_trim h ch y).bind fun r1 r2 h3 => pushLoop_trim n h3 h2

include hxy in
theorem quadVal_trim {r r' : Rd} (h : Trimmed fwd H q k r r') {s t : Option (List Int)} (hq : Mems xs ys s t) (ch : Nat) :
    Agree (fun x y => x.1 = y.1 ∧ Trimmed fwd H q k x.2.1 y.2.1 ∧ Mems xs ys x.2.2 y.2.2) (quadVal fp arraySrc r s ch) (quadVal fp arraySrc r' t ch) := by
  obtain ⟨e, hr⟩ := id h
  have e1 : r.rem = r'.rem := by rw [e]; rfl
  have e2 : r.rate = r'.rate := by rw [e]; rfl
  unfold quadVal
  simp only [e1, e2]
  refine Agree.bind (q := fun x y => Trimmed fwd H q k x.1 y.1 ∧ Mems xs ys x.2 y.2) ?_ ?_
  · refine Agree.ite (fun _ => ?_) fun _ => Agree.ite (fun _ => ?_) fun _ => Agree.ok ⟨h, hq⟩
    · exact Agree.ite (fun _ => Agree.same fun _ _ => pushLoop_trim hxy _ h hq) fun _ => Agree.ok ⟨h, hq⟩
    · exact Agree.ite (fun _ => Agree.same fun _ _ => pushLoop_trim hxy _ h hq) fun _ => Agree.ok ⟨h, hq⟩
  · rintro ⟨r1, s1⟩ ⟨r2, s2⟩ ⟨h1, h2⟩
    simp only at h1 h2
    simp only [h1.ptsOf ch]
    exact Agree.same fun p _ => Agree.ite (fun _ => Agree.same fun w _ => Agree.ok ⟨rfl, h1, h2⟩) fun _ => Agree.ok ⟨rfl, h1, h2⟩

theorem Trimmed.atEnd {r r' : Rd} (h : Trimmed fwd H q k r r') : r.atEnd = r'.atEnd := by
  obtain ⟨rfl, h⟩ := h
  have e : ∀ a b : Int, (a + H ≥ b + H ↔ a ≥ b) := fun a b => by omega
  have e' : ∀ a b : Int, (a + H < b + H ↔ a < b) := fun a b => by omega
  unfold Rd.atEnd
  change (if r'.dual then false else if r'.rate ≥ 0 then
      if r'.loopType = .none then decide (r'.pos1 + H ≥ (trim H q r').posOf q.fileSamples) else decide (r'.pos1 + H ≥ (trim H q r').posOf q.loopFinish)
    else if q.playStart = .sample then decide (r'.pos1 + H < q.header) else decide (r'.pos1 + H < (trim H q r').posOf q.loopStart)) = _
  rw [h.dual]
  simp only [Bool.false_eq_true, if_false]
  by_cases hr : r'.rate ≥ 0
  · simp only [if_pos hr]
    by_cases hl : r'.loopType = .none
    · simp only [if_pos hl, h.last hl, e]
    · simp only [if_neg hl, h.lf hl, e]
  · simp only [if_neg hr]
    rcases h.way with h1 | ⟨-, h1, h2, h3⟩
    · exact absurd h1.2.1 hr
    · simp only [if_neg h2, if_neg h3, h.ls h1, e']

include hxy in
theorem readNextValue_trim {r r' : Rd} (h : Trimmed fwd H q k r r') {s t : Option (List Int)} (hq : Mems xs ys s t) (ch : Nat) :
    Agree (fun x y => x.1 = y.1 ∧ Trimmed fwd H q k x.2.1 y.2.1 ∧ Mems xs ys x.2.2 y.2.2) (readNextValue fp arraySrc r s ch) (readNextValue fp arraySrc r' t ch) := by
  unfold readNextValue
  rw [h.atEnd]
  refine Agree.ite (fun _ => Agree.ok ⟨rfl, h, hq⟩) fun _ => ?_
  obtain ⟨e, hr⟩ := id h
  have d1 : r.dual = false := by rw [e]; exact hr.dual
  have hi : r.interp = r'.interp := by rw [e]; rfl
  unfold baseVal
  simp only [d1, hr.dual, Bool.not_false, Bool.true_or, if_true]
  refine (srcVal_further hxy (by rw [e]; rfl) (by rw [e]; rfl) hq _ ch).bind ?_
  rintro ⟨y, s1⟩ ⟨y', t1⟩ ⟨h1, h2⟩
  simp only at h1 h2
  subst h1
  simp only [hi]
  cases hk : r'.interp with
  | none => exact Agree.ok ⟨rfl, h, h2⟩
  | linear => exact (linearVal_trim h hk h2 ch y).bind fun _ _ ⟨h3, h4⟩ => Agree.ok ⟨by simp only; rw [h3], h4⟩
  | quadratic => exact (quadVal_trim hxy h h2 ch).bind fun _ _ ⟨h3, h4⟩ => Agree.ok ⟨by simp only; rw [h3], h4⟩

theorem wrapAround_repeat {r : Rd} (h : r.loopType = .repeat) :
    wrapAround r = some (Rd.at { r with cfOn := false } (if r.rate ≥ 0 then r.posOf r.loopStart else r.posOf (r.loopFinish - r.nch)) r.rate) := by
  cases r; simp only at h; subst h; rfl

theorem wrapAround_pingpong {r : Rd} (h : r.loopType = .pingpong) :
    wrapAround r = some (Rd.at { r with cfOn := false } (if r.rate ≥ 0 then r.posOf (r.loopFinish - r.nch) else if r.playStart = .sample then r.header else r.posOf r.loopStart) (-r.rate)) := by
  cases r; simp only at h; subst h; rfl

theorem wrapAround_trim {r r' : Rd} (h : Trimmed fwd H q k r r') :
    (wrapAround r = none ∧ wrapAround r' = none) ∨ ∃ p p', wrapAround r = some p ∧ wrapAround r' = some p' ∧ Trimmed fwd H q k p p' := by
  obtain ⟨rfl, h⟩ := h
  cases hlt : r'.loopType with
  | none =>
    refine Or.inl ⟨?_, ?_⟩ <;> unfold wrapAround <;> simp only [trim, hlt]
  | «repeat» =>
    have k2 := h.lf1 (by rw [hlt]; decide)
    have k3 := h.ls (by rw [hlt]; decide)
    refine Or.inr ⟨trim H q { r' with cfOn := false, pos1 := if r'.rate ≥ 0 then r'.posOf r'.loopStart else r'.posOf (r'.loopFinish - r'.nch) },
      { r' with cfOn := false, pos1 := if r'.rate ≥ 0 then r'.posOf r'.loopStart else r'.posOf (r'.loopFinish - r'.nch) }, ?_, ?_, rfl, { h with way := ?_ }⟩
    · rw [wrapAround_repeat (r := trim H q r') hlt]
      refine congrArg some ?_
      change Rd.at { trim H q r' with cfOn := false } (if r'.rate ≥ 0 then (trim H q r').posOf q.loopStart else (trim H q r').posOf (q.loopFinish - r'.nch)) r'.rate = _
      rw [k2, k3]
      unfold trim Rd.at
      simp only
      congr 1
      split <;> rfl
    · exact wrapAround_repeat hlt
    · rcases h.way with ⟨h0, h1, h2, -, h4, h5⟩ | h1
      · refine Or.inl ⟨h0, h1, h2, ?_, h4, h5⟩
        simp only [if_pos (show r'.rate ≥ 0 from h1)]
        exact h5 hlt
      · exact Or.inr h1
  | pingpong =>
    have k2 := h.lf1 (by rw [hlt]; decide)
    have k3 := h.ls (by rw [hlt]; decide)
    obtain ⟨g0, g1, g2, g3⟩ : fwd = false ∧ r'.loopType ≠ .none ∧ q.playStart ≠ .sample ∧ r'.playStart ≠ .sample := by
      rcases h.way with h1 | h1
      · exact absurd hlt h1.2.2.2.2.1
      · exact h1
    refine Or.inr ⟨trim H q { r' with cfOn := false, rate := -r'.rate, pos1 := if r'.rate ≥ 0 then r'.posOf (r'.loopFinish - r'.nch) else r'.posOf r'.loopStart },
      { r' with cfOn := false, rate := -r'.rate, pos1 := if r'.rate ≥ 0 then r'.posOf (r'.loopFinish - r'.nch) else r'.posOf r'.loopStart }, ?_, ?_, rfl,
      { h with way := Or.inr ⟨g0, g1, g2, g3⟩, calm := ⟨h.calm.1, fun hk => by simp only [abs_neg]; exact h.calm.2 hk⟩ }⟩
    · rw [wrapAround_pingpong (r := trim H q r') hlt]
      refine congrArg some ?_
      change Rd.at { trim H q r' with cfOn := false } (if r'.rate ≥ 0 then (trim H q r').posOf (q.loopFinish - r'.nch) else if q.playStart = .sample then q.header else (trim H q r').posOf q.loopStart) (-r'.rate) = _
      rw [k2, k3, if_neg g2]
      unfold trim Rd.at
      simp only
      congr 1
      split <;> rfl
    · rw [wrapAround_pingpong hlt, if_neg g3]
      rfl

theorem Trimmed.off {r r' : Rd} (h : Trimmed fwd H q k r r') : Trimmed fwd H q k { r with cfOn := false } { r' with cfOn := false } := by
  obtain ⟨rfl, h⟩ := h
  exact ⟨rfl, { h with }⟩

include hxy in
theorem readChan_trim : ∀ (fuel fuel' : Nat) {r r' : Rd} {s t : Option (List Int)}, Trimmed fwd H q k r r' → Mems xs ys s t → ∀ ch : Nat,
    Agree (fun x y => x.1 = y.1 ∧ Trimmed fwd H q k x.2.1 y.2.1 ∧ Mems xs ys x.2.2 y.2.2) (readChan fp arraySrc fuel r s ch) (readChan fp arraySrc fuel' r' t ch)
  | 0, _, r, r', s, t, _, _, ch => by unfold readChan; exact Agree.error
  | _ + 1, 0, r, r', s, t, _, _, ch => by conv => { arg 3; unfold readChan }; exact Agree.error'
  | fuel + 1, fuel' + 1, r, r', s, t, h, hq, ch => by
    unfold readChan
    refine (readNextValue_trim hxy h hq ch).bind ?_
    rintro ⟨o, r1, s1⟩ ⟨o', r1', t1⟩ ⟨h1, h2, h3⟩
    simp only at h1 h2 h3
    subst h1
    cases o with
    | some v => exact Agree.ok ⟨rfl, h2, h3⟩
    | none =>
      simp only
      rcases wrapAround_trim h2 with ⟨e1, e2⟩ | ⟨q, q', e1, e2, hq'⟩
      · rw [e1, e2]
        exact Agree.ok ⟨rfl, h2.off, h3⟩
      · rw [e1, e2]
        exact readChan_trim fuel fuel' hq' h3 ch

include hxy in
theorem readFrame_trim {fuel fuel' : Nat} : ∀ (left ch : Nat) {r r' : Rd} {s t : Option (List Int)}, Trimmed fwd H q k r r' → Mems xs ys s t →
    Agree (fun x y => x.1 = y.1 ∧ x.2.1 = y.2.1 ∧ Trimmed fwd H q k x.2.2.1 y.2.2.1 ∧ Mems xs ys x.2.2.2 y.2.2.2) (readFrame fp arraySrc fuel left ch r s)
      (readFrame fp arraySrc fuel' left ch r' t)
  | 0, ch, r, r', s, t, h, hq => by unfold readFrame; exact Agree.ok ⟨rfl, rfl, h, hq⟩
  | left + 1, ch, r, r', s, t, h, hq => by
    unfold readFrame
    refine (readChan_trim hxy fuel fuel' h hq ch).bind ?_
    rintro ⟨o, r1, s1⟩ ⟨o', r1', t1⟩ ⟨h1, h2, h3⟩
    simp only at h1 h2 h3
    subst h1
    cases o with
    | some v =>
      simp only
      refine (readFrame_trim left (ch + 1) h2 h3).bind ?_
      rintro ⟨vs, ok, r2, s2⟩ ⟨vs', ok', r2', t2⟩ ⟨k1, k2, k3⟩
      simp only at k1 k2 k3
      exact Agree.ok ⟨by simp only; rw [k1], k2, k3⟩
    | none => exact Agree.ok ⟨rfl, rfl, h2, h3⟩

theorem stepOn_trim {r r' : Rd} (h : Trimmed fwd H q k r r') : Agree (Trimmed fwd H q k) (stepOn fp r) (stepOn fp r') := by
  obtain ⟨rfl, h⟩ := h
  have key : Agree (fun r r' => r = trim H q r') (stepOn fp (trim H q r')) (stepOn fp r') := by
    unfold stepOn
    simp only [trim]
    refine Agree.same fun d _ => Agree.same fun st _ => (chk_agree (z := H) (by ring)).bind fun a b h1 => ?_
    subst h1
    exact Agree.ite (fun _ => Agree.same fun _ _ => Agree.ok rfl) fun _ => Agree.ok rfl
  intro a b e1 e2
  refine ⟨key a b e1 e2, ?_⟩
  obtain ⟨p, rfl⟩ := stepOn_inv e2
  refine { h with way := ?_ }
  rcases h.way with ⟨h0, h1, h2, h3, h4⟩ | h1
  · have hx : 0 ≤ fp.d.rnd (r'.rem + r'.rate) := fp.d.nonneg (by linarith)
    simp only
    generalize fp.d.rnd (r'.rem + r'.rate) = x at hx
    have e : trunc x = ⌊x⌋ := by unfold trunc; rw [if_pos hx]
    have e0 : 0 ≤ trunc x := e ▸ Int.floor_nonneg.2 hx
    have e3 := Int.mul_nonneg e0 (show 0 ≤ r'.nch by linarith [h.chans])
    exact Or.inl ⟨h0, h1, by rw [e]; exact fp.d.nonneg (by linarith [Int.floor_le x]), by linarith, h4⟩
  · exact Or.inr h1

include hxy in
theorem readLoop_trim {fuel fuel' : Nat} : ∀ (n : Nat) {r r' : Rd} {s t : Option (List Int)}, Trimmed fwd H q k r r' → Mems xs ys s t →
    Agree (fun x y => x.frames = y.frames ∧ Trimmed fwd H q k x.r y.r ∧ Mems xs ys x.s y.s) (readLoop fp arraySrc fuel n r s) (readLoop fp arraySrc fuel' n r' t)
  | 0, r, r', s, t, h, hq => by unfold readLoop; exact Agree.ok ⟨rfl, h, hq⟩
  | n + 1, r, r', s, t, h, hq => by
    unfold readLoop
    obtain ⟨e, hr⟩ := id h
    have d1 : r.dual = false := by rw [e]; exact hr.dual
    have hn : r.nch = r'.nch := by rw [e]; rfl
    simp only [d1, hr.dual, Bool.false_eq_true, if_false, pure_eq_ok, ok_bind, hn]
    refine (readFrame_trim hxy _ 0 h hq).bind ?_
    rintro ⟨vs, ok, r2, s2⟩ ⟨vs', ok', r2', t2⟩ ⟨k1, k2, k3, k4⟩
    simp only at k1 k2 k3 k4
    subst k1 k2
    simp only
    refine Agree.ite (fun _ => ?_) fun _ => Agree.ok ⟨rfl, k3, k4⟩
    refine (stepOn_trim k3).bind fun r3 r3' h3 => ?_
    refine (readLoop_trim n h3 k4).bind ?_
    rintro x y ⟨j1, j2, j3⟩
    exact Agree.ok ⟨by simp only; rw [j1], j2, j3⟩

include hxy in
theorem read_trim {fuel fuel' n : Nat} {r r' : Rd} {s t : Option (List Int)} (h : Trimmed fwd H q k r r') (hq : Mems xs ys s t) :
    Agree (fun x y => x.frames = y.frames ∧ Trimmed fwd H q k x.r y.r ∧ Mems xs ys x.s y.s) (r.read fp arraySrc fuel s n) (r'.read fp arraySrc fuel' t n) := by
  have hp : r.playing = r'.playing := by obtain ⟨rfl, _⟩ := h; rfl
  have hn : r.nch = r'.nch := by obtain ⟨rfl, _⟩ := h; rfl
  unfold Rd.read
  rw [hp, hn]
  exact Agree.ite (fun _ => Agree.ok ⟨rfl, h, hq⟩) fun _ => Agree.ite (fun _ => Agree.error) fun _ =>
    Agree.ite (fun _ => Agree.ite (fun _ => Agree.ok ⟨rfl, h, hq⟩) fun _ => Agree.error) fun _ => readLoop_trim hxy n h hq

/-- Two players with the sound in memory, one without the beginning of it. -/
structure TrimOn (fwd : Bool) (H : Nat) (q : Rd) (k : Interp) (xs ys : List Int) (b b' : ArrayReader) : Prop where
  rd : Trimmed fwd H q k b.rd b'.rd
  src : b.src = some xs
  src' : b'.src = some ys

include hxy in
theorem TrimOn.tick {fuel fuel' : Nat} {b b' : ArrayReader} (h : TrimOn fwd H q k xs ys b b') (alloc : Nat → Bool) :
    Agree (fun x y => x.1 = y.1 ∧ TrimOn fwd H q k xs ys x.2 y.2) (b.tick fp fuel alloc) (b'.tick fp fuel' alloc) := by
  have hp : b.rd.playing = b'.rd.playing := by rw [h.rd.1]; rfl
  have hn : b.rd.nch = b'.rd.nch := by rw [h.rd.1]; rfl
  unfold ArrayReader.tick ArrayReader.update
  rw [hp, hn]
  refine Agree.bind (update_same (Q := TrimOn fwd H q k xs ys) ?_ h alloc) ?_
  · unfold ArrayReader.read
    refine (read_trim hxy h.rd ⟨h.src, h.src'⟩).bind ?_
    rintro x y ⟨h1, h2, h3⟩
    exact Agree.ok ⟨h1, h2, h3.1, h3.2⟩
  · rintro ⟨fx, b1⟩ ⟨fx', b1'⟩ ⟨h1, h2⟩
    simp only at h1 h2
    subst h1
    simp only
    cases fx.event with
    | none => exact Agree.ok ⟨rfl, h2⟩
    | some e =>
      refine Agree.ok ⟨rfl, ?_⟩
      cases e with
      | reload => exact h2
      | close =>
        obtain ⟨⟨k, k'⟩, k2, k3⟩ := h2
        obtain ⟨r, s⟩ := b1
        simp only at k k2
        subst k
        exact ⟨⟨rfl, { k' with }⟩, k2, k3⟩

theorem Trimmed.speed {r r' : Rd} (h : Trimmed fwd H q k r r') {v : ℚ} (hv : k = .linear → |v| ≤ 1) (hin : Inside r' v) (hway : fwd = true → 0 ≤ v) :
    Trimmed fwd H q k (r.setPlaybackRate v) (r'.setPlaybackRate v) := by
  obtain ⟨rfl, h⟩ := h
  have hd := h.deep
  have h0 := h.header
  have j : Inside (trim H q r') v := by
    unfold Inside at hin ⊢
    simp only [trim]
    rw [h0] at hin
    rcases hin with h1 | ⟨h1, h2⟩
    · exact Or.inl (by omega)
    · exact Or.inr ⟨h1, by omega⟩
  rw [j.only_rate, hin.only_rate]
  refine ⟨rfl, { h with way := ?_, calm := ⟨h.calm.1, hv⟩ }⟩
  rcases h.way with ⟨h0, -, h2⟩ | h1
  · exact Or.inl ⟨h0, hway h0, h2⟩
  · exact Or.inr h1

end

end TVP
