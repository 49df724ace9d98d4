import Verif.Lemmas.Place
import Verif.Lemmas.Beside

/-!
# The same samples further on

A reader with one head does the same on samples that lie `H` places further on in memory, if its header is `H` samples longer.
-/

namespace TVP
open Spec

section
variable {k : Interp} {H : Nat} {sz : Int} {xs ys : List Int} {fp : Fp}

/-- The reader `r`, without a header, on samples that lie `H` places further on in a file of `sz` bytes. -/
def further (H : Nat) (sz : Int) (r : Rd) : Rd := { r with header := H, fileSize := sz, pos1 := r.pos1 + H }

/-- One head, places in the sound, interpolation `k`, and with linear interpolation at most normal speed. -/
structure Level (H : Nat) (k : Interp) (r : Rd) : Prop where
  header : r.header = 0
  dual : r.dual = false
  chans : 1 ≤ r.nch
  number : 0 ≤ r.fileSamples
  ls0 : 0 ≤ r.loopStart
  ls : r.loopStart ≤ r.fileSamples
  lf0 : 0 ≤ r.loopFinish
  lf : r.loopFinish ≤ r.fileSamples
  marks : ∀ x, -r.nch ≤ x → x ≤ r.fileSamples → i32 (u32 (H + x * r.nch)) = i32 (u32 (0 + x * r.nch)) + H
  calm : r.interp = k ∧ (k = .linear → |r.rate| ≤ 1)

/-- `r` is `r'` further on. -/
def Further (H : Nat) (sz : Int) (k : Interp) (r r' : Rd) : Prop := r = further H sz r' ∧ Level H k r'

theorem Level.posOf {r : Rd} (h : Level H k r) {x : Int} (h1 : -r.nch ≤ x) (h2 : x ≤ r.fileSamples) : (further H sz r).posOf x = r.posOf x + H := by
  unfold Rd.posOf Rd.s2s
  rw [h.header]
  exact h.marks x h1 h2

/-- The two memories. -/
def Mems (xs ys : List Int) (x y : Option (List Int)) : Prop := x = some xs ∧ y = some ys

variable (hxy : ∀ (j : Nat) v, ys[j]? = some v → xs[H + j]? = some v)

theorem chk_agree {x y z : Int} (h : x = y + z) : Agree (fun a b : Int => a = b + z) (chkI32 x) (chkI32 y) := by
  intro a b e1 e2
  unfold chkI32 at e1 e2
  split at e1
  · split at e2
    · cases e1; cases e2; exact h
    · cases e2
  · cases e1

include hxy in
theorem srcVal_further {r r' : Rd} (hn : r.nch = r'.nch) {pos pos' : Int} (hp : pos = pos' + H) {s t : Option (List Int)} (hq : Mems xs ys s t) (off : Int) (ch : Nat) :
    Agree (fun x y => x.1 = y.1 ∧ Mems xs ys x.2 y.2) (srcVal arraySrc r s pos off ch) (srcVal arraySrc r' t pos' off ch) := by
  unfold srcVal
  rw [hn]
  refine (chk_agree (z := H) (by rw [hp]; ring)).bind fun a b h1 => ?_
  refine (chk_agree (z := H) (by rw [h1]; ring)).bind fun c d h2 => ?_
  obtain ⟨rfl, rfl⟩ := hq
  rintro ⟨v, s'⟩ ⟨w, t'⟩ e1 e2
  unfold arraySrc at e1 e2
  simp only at e1 e2
  split at e2
  · rename_i hd
    rw [if_pos (by omega), h2, show (d + (H : Int)).toNat = H + d.toNat by omega] at e1
    cases hy : ys[d.toNat]? with
    | none => rw [hy] at e2; cases e2
    | some y =>
      rw [hy] at e2
      rw [hxy _ _ hy] at e1
      cases e1; cases e2
      exact ⟨rfl, rfl, rfl⟩
  · cases e2

theorem addPoint_further {r r' : Rd} (h : Further H sz k r r') (ch : Nat) (y : Int) : Agree (Further H sz k) (addPoint r ch y) (addPoint r' ch y) := by
  obtain ⟨rfl, h⟩ := h
  unfold addPoint
  simp only [further]
  cases hi : r'.interp with
  | none => exact Agree.ok ⟨by rw [further]; simp only [hi], h⟩
  | linear =>
    exact Agree.ite (fun _ => Agree.ok ⟨rfl, ⟨h.header, h.dual, h.chans, h.number, h.ls0, h.ls, h.lf0, h.lf, h.marks, ⟨hi.symm.trans h.calm.1, h.calm.2⟩⟩⟩) fun _ => Agree.error
  | quadratic =>
    exact Agree.ite (fun _ => Agree.ok ⟨rfl, ⟨h.header, h.dual, h.chans, h.number, h.ls0, h.ls, h.lf0, h.lf, h.marks, ⟨hi.symm.trans h.calm.1, h.calm.2⟩⟩⟩) fun _ => Agree.error

theorem Further.ptsOf {r r' : Rd} (h : Further H sz k r r') (ch : Nat) : TVP.ptsOf r ch = TVP.ptsOf r' ch := by obtain ⟨rfl, _⟩ := h; rfl

/-- With linear interpolation, up to normal speed nothing else is read. -/
theorem linearVal_further {r r' : Rd} (h : Further H sz k r r') (hl : r'.interp = .linear) {s t : Option (List Int)} (hq : Mems xs ys s t) (ch : Nat) (v : Int) :
    Agree (fun x y => x.1 = y.1 ∧ Further H sz k x.2.1 y.2.1 ∧ Mems xs ys x.2.2 y.2.2) (linearVal fp arraySrc r s ch v) (linearVal fp arraySrc r' t ch v) := by
  obtain ⟨e, hr⟩ := id h
  have hrate := abs_le.1 (hr.calm.2 (hr.calm.1.symm.trans hl))
  have hn1 : ¬ r'.rate > 1 := not_lt.2 hrate.2
  have hn2 : ¬ r'.rate < -1 := not_lt.2 hrate.1
  have e1 : r.rem = r'.rem := by rw [e]; rfl
  have e2 : r.rate = r'.rate := by rw [e]; rfl
  unfold linearVal
  simp only [e1, e2, hn1, hn2, decide_false, Bool.and_false, Bool.false_and, Bool.false_eq_true, if_false]
  refine Agree.ite (fun _ => ?_) fun _ => ?_
  · refine Agree.bind (q := fun x y => Further H sz k x.1 y.1 ∧ Mems xs ys x.2 y.2) ?_ ?_
    · refine Agree.ite (fun _ => ?_) fun _ => Agree.ite (fun _ => ?_) fun _ => Agree.ok ⟨h, hq⟩
      · refine Agree.ite (fun _ => ?_) fun _ => Agree.ok ⟨h, hq⟩
        exact Agree.skip fun _ _ => (addPoint_further h ch v).bind fun _ _ h1 => Agree.ok ⟨h1, hq⟩
      · refine Agree.ite (fun _ => ?_) fun _ => Agree.ok ⟨h, hq⟩
        exact Agree.skip fun _ _ => (addPoint_further h ch v).bind fun _ _ h1 => Agree.ok ⟨h1, hq⟩
    · rintro ⟨r1, s1⟩ ⟨r2, s2⟩ ⟨h1, h2⟩
      simp only at h1 h2
      simp only [h1.ptsOf ch]
      refine Agree.same fun p _ => Agree.ite (fun _ => Agree.same fun w _ => Agree.ok ⟨rfl, h1, h2⟩) fun _ => Agree.ok ⟨rfl, h1, h2⟩
  · refine (addPoint_further h ch v).bind fun r1 r2 h1 => ?_
    rw [h1.ptsOf ch]
    exact Agree.same fun p _ => Agree.ok ⟨rfl, h1, hq⟩

include hxy in
theorem pushLoop_further {fwd : Bool} {ch : Nat} : ∀ (n : Nat) {r r' : Rd} {s t : Option (List Int)}, Further H sz k r r' → Mems xs ys s t →
    Agree (fun x y => Further H sz k x.1 y.1 ∧ Mems xs ys x.2 y.2) (pushLoop fp arraySrc fwd ch n r s) (pushLoop fp arraySrc fwd ch n r' t)
  | 0, r, r', s, t, h, hq => by unfold pushLoop; exact Agree.ok ⟨h, hq⟩
  | n + 1, r, r', s, t, h, hq => by
    obtain ⟨e, hr⟩ := id h
    unfold pushLoop
    have d1 : r.dual = false := by rw [e]; exact hr.dual
    simp only [d1, hr.dual, Bool.false_and, Bool.false_eq_true, if_false]
    refine (srcVal_further hxy (by rw [e]; rfl) (by rw [e]; rfl) hq _ ch).bind ?_
    rintro ⟨y, s1⟩ ⟨y', t1⟩ ⟨h1, h2⟩
    simp only at h1 h2
    subst h1
    simp only [pure_eq_ok, ok_bind]
    exact (addPoint_further h ch y).bind fun r1 r2 h3 => pushLoop_further n h3 h2

include hxy in
theorem quadVal_further {r r' : Rd} (h : Further H sz k r r') {s t : Option (List Int)} (hq : Mems xs ys s t) (ch : Nat) :
    Agree (fun x y => x.1 = y.1 ∧ Further H sz k x.2.1 y.2.1 ∧ Mems xs ys x.2.2 y.2.2) (quadVal fp arraySrc r s ch) (quadVal fp arraySrc r' t ch) := by
  obtain ⟨e, hr⟩ := id h
  have e1 : r.rem = r'.rem := by rw [e]; rfl
  have e2 : r.rate = r'.rate := by rw [e]; rfl
  unfold quadVal
  simp only [e1, e2]
  refine Agree.bind (q := fun x y => Further H sz k x.1 y.1 ∧ Mems xs ys x.2 y.2) ?_ ?_
  · refine Agree.ite (fun _ => ?_) fun _ => Agree.ite (fun _ => ?_) fun _ => Agree.ok ⟨h, hq⟩
    · exact Agree.ite (fun _ => Agree.same fun _ _ => pushLoop_further hxy _ h hq) fun _ => Agree.ok ⟨h, hq⟩
    · exact Agree.ite (fun _ => Agree.same fun _ _ => pushLoop_further hxy _ h hq) fun _ => Agree.ok ⟨h, hq⟩
  · rintro ⟨r1, s1⟩ ⟨r2, s2⟩ ⟨h1, h2⟩
    simp only at h1 h2
    simp only [h1.ptsOf ch]
    exact Agree.same fun p _ => Agree.ite (fun _ => Agree.same fun w _ => Agree.ok ⟨rfl, h1, h2⟩) fun _ => Agree.ok ⟨rfl, h1, h2⟩

theorem Further.atEnd {r r' : Rd} (h : Further H sz k r r') : r.atEnd = r'.atEnd := by
  obtain ⟨rfl, h⟩ := h
  have k1 := h.posOf (sz := sz) (x := r'.fileSamples) (by have := h.chans; have := h.number; omega) le_rfl
  have k2 := h.posOf (sz := sz) (x := r'.loopFinish) (by have := h.chans; have := h.lf0; omega) h.lf
  have k3 := h.posOf (sz := sz) (x := r'.loopStart) (by have := h.chans; have := h.ls0; omega) h.ls
  unfold Rd.atEnd
  change (if r'.dual then false else if r'.rate ≥ 0 then
      if r'.loopType = .none then decide (r'.pos1 + H ≥ (further H sz r').posOf r'.fileSamples) else decide (r'.pos1 + H ≥ (further H sz r').posOf r'.loopFinish)
    else if r'.playStart = .sample then decide (r'.pos1 + H < (H : Int)) else decide (r'.pos1 + H < (further H sz r').posOf r'.loopStart)) = _
  rw [k1, k2, k3, h.header]
  have e : ∀ a b : Int, (a + H ≥ b + H ↔ a ≥ b) := fun a b => by omega
  have e' : ∀ a b : Int, (a + H < b + H ↔ a < b) := fun a b => by omega
  have e2 : ∀ a : Int, (a + H < (H : Int) ↔ a < 0) := fun a => by omega
  simp only [e, e', e2]

include hxy in
theorem readNextValue_further {r r' : Rd} (h : Further H sz k r r') {s t : Option (List Int)} (hq : Mems xs ys s t) (ch : Nat) :
    Agree (fun x y => x.1 = y.1 ∧ Further H sz k x.2.1 y.2.1 ∧ Mems xs ys x.2.2 y.2.2) (readNextValue fp arraySrc r s ch) (readNextValue fp arraySrc r' t ch) := by
  unfold readNextValue
  rw [h.atEnd]
  refine Agree.ite (fun _ => Agree.ok ⟨rfl, h, hq⟩) fun _ => ?_
  obtain ⟨e, hr⟩ := id h
  have d1 : r.dual = false := by rw [e]; exact hr.dual
  have hi : r.interp = r'.interp := by rw [e]; rfl
  unfold baseVal
  simp only [d1, hr.dual, Bool.not_false, Bool.true_or, if_true]
  refine (srcVal_further hxy (by rw [e]; rfl) (by rw [e]; rfl) hq _ ch).bind ?_
  rintro ⟨y, s1⟩ ⟨y', t1⟩ ⟨h1, h2⟩
  simp only at h1 h2
  subst h1
  simp only [hi]
  cases hk : r'.interp with
  | none => exact Agree.ok ⟨rfl, h, h2⟩
  | linear => exact (linearVal_further h hk h2 ch y).bind fun _ _ ⟨h3, h4⟩ => Agree.ok ⟨by simp only; rw [h3], h4⟩
  | quadratic => exact (quadVal_further hxy h h2 ch).bind fun _ _ ⟨h3, h4⟩ => Agree.ok ⟨by simp only; rw [h3], h4⟩

/-- Put somewhere, at some speed. -/
def Rd.at (r : Rd) (x : Int) (v : ℚ) : Rd := { r with pos1 := x, rate := v }

theorem wrapAround_further {r r' : Rd} (h : Further H sz k r r') :
    (wrapAround r = none ∧ wrapAround r' = none) ∨ ∃ q q', wrapAround r = some q ∧ wrapAround r' = some q' ∧ Further H sz k q q' := by
  obtain ⟨rfl, h⟩ := h
  have k2 := h.posOf (sz := sz) (x := r'.loopFinish - r'.nch) (by have := h.lf0; omega) (by have := h.chans; have := h.lf; omega)
  have k3 := h.posOf (sz := sz) (x := r'.loopStart) (by have := h.chans; have := h.ls0; omega) h.ls
  obtain ⟨playing, fileSize, header, rate, rem, loopType, playStart, pos1, pos2, crossfade, dual, cfDur, cfOn, playbackStart, loopStart, loopFinish, fileSamples, nch, psram, interp, pts⟩ := r'
  simp only at k2 k3
  have h0 := h.header
  simp only at h0
  subst h0
  cases loopType with
  | none => exact Or.inl ⟨rfl, rfl⟩
  | «repeat» =>
    refine Or.inr ⟨_, _, rfl, rfl, ?_, ⟨h.header, h.dual, h.chans, h.number, h.ls0, h.ls, h.lf0, h.lf, h.marks, h.calm⟩⟩
    refine Eq.trans (congrArg (fun x : Int × Int => Rd.at ⟨playing, sz, H, rate, rem, LoopType.repeat, playStart, pos1, pos2, crossfade, dual, cfDur, false, playbackStart, loopStart, loopFinish, fileSamples, nch, psram, interp, pts⟩ (if rate ≥ 0 then x.1 else x.2) rate)
      (Prod.ext k3 k2 : ((_ : Int), (_ : Int)) = (_, _))) ?_
    unfold further Rd.at
    simp only
    congr 1
    split <;> rfl
  | pingpong =>
    refine Or.inr ⟨_, _, rfl, rfl, ?_, ⟨h.header, h.dual, h.chans, h.number, h.ls0, h.ls, h.lf0, h.lf, h.marks, ⟨h.calm.1, fun hk => by
      simp only [abs_neg]; exact h.calm.2 hk⟩⟩⟩
    refine Eq.trans (congrArg (fun x : Int × Int => Rd.at ⟨playing, sz, H, rate, rem, LoopType.pingpong, playStart, pos1, pos2, crossfade, dual, cfDur, false, playbackStart, loopStart, loopFinish, fileSamples, nch, psram, interp, pts⟩ (if rate ≥ 0 then x.2 else if playStart = .sample then (H : Int) else x.1) (-rate))
      (Prod.ext k3 k2 : ((_ : Int), (_ : Int)) = (_, _))) ?_
    unfold further Rd.at
    simp only
    congr 1
    split
    · rfl
    · split
      · rw [Int.zero_add]
      · rfl

theorem Further.off {r r' : Rd} (h : Further H sz k r r') : Further H sz k { r with cfOn := false } { r' with cfOn := false } := by
  obtain ⟨rfl, h⟩ := h
  exact ⟨rfl, ⟨h.header, h.dual, h.chans, h.number, h.ls0, h.ls, h.lf0, h.lf, h.marks, h.calm⟩⟩

include hxy in
theorem readChan_further : ∀ (fuel fuel' : Nat) {r r' : Rd} {s t : Option (List Int)}, Further H sz k r r' → Mems xs ys s t → ∀ ch : Nat,
    Agree (fun x y => x.1 = y.1 ∧ Further H sz k x.2.1 y.2.1 ∧ Mems xs ys x.2.2 y.2.2) (readChan fp arraySrc fuel r s ch) (readChan fp arraySrc fuel' r' t ch)
  | 0, _, r, r', s, t, _, _, ch => by unfold readChan; exact Agree.error
  | _ + 1, 0, r, r', s, t, _, _, ch => by conv => { arg 3; unfold readChan }; exact Agree.error'
  | fuel + 1, fuel' + 1, r, r', s, t, h, hq, ch => by
    unfold readChan
    refine (readNextValue_further hxy h hq ch).bind ?_
    rintro ⟨o, r1, s1⟩ ⟨o', r1', t1⟩ ⟨h1, h2, h3⟩
    simp only at h1 h2 h3
    subst h1
    cases o with
    | some v => exact Agree.ok ⟨rfl, h2, h3⟩
    | none =>
      simp only
      rcases wrapAround_further h2 with ⟨e1, e2⟩ | ⟨q, q', e1, e2, hq'⟩
      · rw [e1, e2]
        exact Agree.ok ⟨rfl, h2.off, h3⟩
      · rw [e1, e2]
        exact readChan_further fuel fuel' hq' h3 ch

include hxy in
theorem readFrame_further {fuel fuel' : Nat} : ∀ (left ch : Nat) {r r' : Rd} {s t : Option (List Int)}, Further H sz k r r' → Mems xs ys s t →
    Agree (fun x y => x.1 = y.1 ∧ x.2.1 = y.2.1 ∧ Further H sz k x.2.2.1 y.2.2.1 ∧ Mems xs ys x.2.2.2 y.2.2.2) (readFrame fp arraySrc fuel left ch r s)
      (readFrame fp arraySrc fuel' left ch r' t)
  | 0, ch, r, r', s, t, h, hq => by unfold readFrame; exact Agree.ok ⟨rfl, rfl, h, hq⟩
  | left + 1, ch, r, r', s, t, h, hq => by
    unfold readFrame
    refine (readChan_further hxy fuel fuel' h hq ch).bind ?_
    rintro ⟨o, r1, s1⟩ ⟨o', r1', t1⟩ ⟨h1, h2, h3⟩
    simp only at h1 h2 h3
    subst h1
    cases o with
    | some v =>
      simp only
      refine (readFrame_further left (ch + 1) h2 h3).bind ?_
      rintro ⟨vs, ok, r2, s2⟩ ⟨vs', ok', r2', t2⟩ ⟨k1, k2, k3⟩
      simp only at k1 k2 k3
      exact Agree.ok ⟨by simp only; rw [k1], k2, k3⟩
    | none => exact Agree.ok ⟨rfl, rfl, h2, h3⟩

theorem stepOn_further {r r' : Rd} (h : Further H sz k r r') : Agree (Further H sz k) (stepOn fp r) (stepOn fp r') := by
  obtain ⟨rfl, h⟩ := h
  unfold stepOn
  simp only [further]
  refine Agree.same fun d _ => Agree.same fun st _ => (chk_agree (z := H) (by ring)).bind fun a b h1 => ?_
  subst h1
  exact Agree.ite (fun _ => Agree.same fun _ _ => Agree.ok ⟨rfl, ⟨h.header, h.dual, h.chans, h.number, h.ls0, h.ls, h.lf0, h.lf, h.marks, h.calm⟩⟩)
    fun _ => Agree.ok ⟨rfl, ⟨h.header, h.dual, h.chans, h.number, h.ls0, h.ls, h.lf0, h.lf, h.marks, h.calm⟩⟩

include hxy in
theorem readLoop_further {fuel fuel' : Nat} : ∀ (n : Nat) {r r' : Rd} {s t : Option (List Int)}, Further H sz k r r' → Mems xs ys s t →
    Agree (fun x y => x.frames = y.frames ∧ Further H sz k x.r y.r ∧ Mems xs ys x.s y.s) (readLoop fp arraySrc fuel n r s) (readLoop fp arraySrc fuel' n r' t)
  | 0, r, r', s, t, h, hq => by unfold readLoop; exact Agree.ok ⟨rfl, h, hq⟩
  | n + 1, r, r', s, t, h, hq => by
    unfold readLoop
    obtain ⟨e, hr⟩ := id h
    have d1 : r.dual = false := by rw [e]; exact hr.dual
    have hn : r.nch = r'.nch := by rw [e]; rfl
    simp only [d1, hr.dual, Bool.false_eq_true, if_false, pure_eq_ok, ok_bind, hn]
    refine (readFrame_further hxy _ 0 h hq).bind ?_
    rintro ⟨vs, ok, r2, s2⟩ ⟨vs', ok', r2', t2⟩ ⟨k1, k2, k3, k4⟩
    simp only at k1 k2 k3 k4
    subst k1 k2
    simp only
    refine Agree.ite (fun _ => ?_) fun _ => Agree.ok ⟨rfl, k3, k4⟩
    refine (stepOn_further k3).bind fun r3 r3' h3 => ?_
    refine (readLoop_further n h3 k4).bind ?_
    rintro x y ⟨j1, j2, j3⟩
    exact Agree.ok ⟨by simp only; rw [j1], j2, j3⟩

include hxy in
theorem read_further {fuel fuel' n : Nat} {r r' : Rd} {s t : Option (List Int)} (h : Further H sz k r r') (hq : Mems xs ys s t) :
    Agree (fun x y => x.frames = y.frames ∧ Further H sz k x.r y.r ∧ Mems xs ys x.s y.s) (r.read fp arraySrc fuel s n) (r'.read fp arraySrc fuel' t n) := by
  have hp : r.playing = r'.playing := by obtain ⟨rfl, _⟩ := h; rfl
  have hn : r.nch = r'.nch := by obtain ⟨rfl, _⟩ := h; rfl
  unfold Rd.read
  rw [hp, hn]
  exact Agree.ite (fun _ => Agree.ok ⟨rfl, h, hq⟩) fun _ => Agree.ite (fun _ => Agree.error) fun _ =>
    Agree.ite (fun _ => Agree.ite (fun _ => Agree.ok ⟨rfl, h, hq⟩) fun _ => Agree.error) fun _ => readLoop_further hxy n h hq

/-- Two players with the sound in memory, one further on. -/
structure FurtherOn (H : Nat) (sz : Int) (k : Interp) (xs ys : List Int) (b b' : ArrayReader) : Prop where
  rd : Further H sz k b.rd b'.rd
  src : b.src = some xs
  src' : b'.src = some ys

theorem update_same {ρ ρ' : Type} {Q : ρ → ρ' → Prop} {nch : Int} {playing : Bool} {rd : M (List (List Int) × ρ)} {rd' : M (List (List Int) × ρ')} {st : ρ} {st' : ρ'}
    (h : Agree (fun x y => x.1 = y.1 ∧ Q x.2 y.2) rd rd') (hq : Q st st') (alloc : Nat → Bool) :
    Agree (fun x y => x.1 = y.1 ∧ Q x.2 y.2) (update nch playing rd st alloc) (update nch playing rd' st' alloc) := by
  unfold update
  refine Agree.ite (fun _ => by exact Agree.ok ⟨rfl, hq⟩) fun _ => ?_
  by_cases hneg : nch < 0
  · simp only [if_pos hneg]; exact Agree.error
  · simp only [if_neg hneg]
    cases playing with
    | false => exact Agree.ok (q := fun (x : Fx × ρ) (y : Fx × ρ') => x.1 = y.1 ∧ Q x.2 y.2) (a := ({}, st)) (b := ({}, st')) ⟨rfl, hq⟩
    | true =>
    change Agree (fun (x : Fx × ρ) (y : Fx × ρ') => x.1 = y.1 ∧ Q x.2 y.2)
      (if ((List.range nch.toNat).filter alloc).length = _ then _ else _) (if ((List.range nch.toNat).filter alloc).length = _ then _ else _)
    refine Agree.ite (fun _ => ?_) fun _ => by exact Agree.ok ⟨rfl, hq⟩
    refine h.bind ?_
    rintro ⟨fs, s⟩ ⟨fs', s'⟩ ⟨h1, h2⟩
    simp only at h1
    subst h1
    exact Agree.ok ⟨rfl, h2⟩

include hxy in
theorem FurtherOn.tick {fuel fuel' : Nat} {b b' : ArrayReader} (h : FurtherOn H sz k xs ys b b') (alloc : Nat → Bool) :
    Agree (fun x y => x.1 = y.1 ∧ FurtherOn H sz k xs ys x.2 y.2) (b.tick fp fuel alloc) (b'.tick fp fuel' alloc) := by
  have hp : b.rd.playing = b'.rd.playing := by rw [h.rd.1]; rfl
  have hn : b.rd.nch = b'.rd.nch := by rw [h.rd.1]; rfl
  unfold ArrayReader.tick ArrayReader.update
  rw [hp, hn]
  refine Agree.bind (update_same (Q := FurtherOn H sz k xs ys) ?_ h alloc) ?_
  · unfold ArrayReader.read
    refine (read_further hxy h.rd ⟨h.src, h.src'⟩).bind ?_
    rintro x y ⟨h1, h2, h3⟩
    exact Agree.ok ⟨h1, h2, h3.1, h3.2⟩
  · rintro ⟨fx, b1⟩ ⟨fx', b1'⟩ ⟨h1, h2⟩
    simp only at h1 h2
    subst h1
    simp only
    cases fx.event with
    | none => exact Agree.ok ⟨rfl, h2⟩
    | some e =>
      refine Agree.ok ⟨rfl, ?_⟩
      cases e with
      | reload => exact h2
      | close =>
        obtain ⟨⟨k, k'⟩, k2, k3⟩ := h2
        obtain ⟨r, s⟩ := b1
        simp only at k k2
        subst k
        exact ⟨⟨rfl, ⟨k'.header, k'.dual, k'.chans, k'.number, k'.ls0, k'.ls, k'.lf0, k'.lf, k'.marks, k'.calm⟩⟩, k2, k3⟩

theorem Further.speed {r r' : Rd} (h : Further H sz k r r') {v : ℚ} (hv : k = .linear → |v| ≤ 1) : Further H sz k (r.setPlaybackRate v) (r'.setPlaybackRate v) := by
  obtain ⟨rfl, h⟩ := h
  have hc := h.chans
  have k1 := h.posOf (sz := sz) (x := r'.fileSamples - 1) (by have := h.number; omega) (by omega)
  have k2 := h.posOf (sz := sz) (x := r'.loopFinish - 1) (by have := h.lf0; omega) (by have := h.lf; omega)
  have k3 := h.posOf (sz := sz) (x := r'.loopStart) (by have := h.ls0; omega) h.ls
  have k4 := h.posOf (sz := sz) (x := 0) (by omega) h.number
  have key : (further H sz r').setPlaybackRate v = further H sz (r'.setPlaybackRate v) := by
    clear hv
    obtain ⟨playing, fileSize, header, rate, rem, loopType, playStart, pos1, pos2, crossfade, dual, cfDur, cfOn, playbackStart, loopStart, loopFinish, fileSamples, nch, psram, interp, pts⟩ := r'
    have h0 := h.header
    have h1 := h.dual
    simp only at k1 k2 k3 k4 h0 h1
    subst h0 h1
    have e : ∀ a b : Int, a = b → Rd.at ⟨playing, sz, H, rate, rem, loopType, playStart, pos1, pos2, crossfade, false, cfDur, cfOn, playbackStart, loopStart, loopFinish, fileSamples, nch, psram, interp, pts⟩ a v = Rd.at ⟨playing, sz, H, rate, rem, loopType, playStart, pos1, pos2, crossfade, false, cfDur, cfOn, playbackStart, loopStart, loopFinish, fileSamples, nch, psram, interp, pts⟩ b v := fun a b e => by rw [e]
    have e1 := e _ _ k1
    have e2 := e _ _ k2
    have e3 := e _ _ k3
    have e4 := e _ _ k4
    have j1 : pos1 + (H : Int) ≤ H ↔ pos1 ≤ 0 := by omega
    have j2 : pos1 + (H : Int) < H ↔ pos1 < 0 := by omega
    clear k1 k2 k3 k4 e h hc
    unfold Rd.setPlaybackRate
    by_cases hv : v < 0
    · by_cases hp : pos1 ≤ 0
      · have hp' := j1.2 hp
        cases playStart <;> simp only [further, Bool.not_false, if_true, if_pos hv, if_pos hp, if_pos hp', reduceCtorEq, if_false]
        · exact e1
        · exact e2
        · exact e2
      · have hp' := mt j1.1 hp
        simp only [further, Bool.not_false, if_true, if_pos hv, if_neg hp]
        exact if_neg hp'
    · by_cases hp : pos1 < 0
      · have hp' := j2.2 hp
        cases playStart <;> simp only [further, Bool.not_false, if_true, if_neg hv, if_pos hp, if_pos hp', reduceCtorEq, if_false]
        · exact e4
        · exact e3
        · exact e3
      · have hp' := mt j2.1 hp
        simp only [further, Bool.not_false, if_true, if_neg hv, if_neg hp]
        exact if_neg hp'
  refine ⟨key, ?_⟩
  unfold Rd.setPlaybackRate
  simp only
  repeat' split
  all_goals exact ⟨h.header, h.dual, h.chans, h.number, h.ls0, h.ls, h.lf0, h.lf, h.marks, ⟨h.calm.1, hv⟩⟩

end

end TVP
