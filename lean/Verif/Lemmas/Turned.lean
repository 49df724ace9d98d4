import Verif.Lemmas.Shift
import Verif.Lemmas.Drift
import Verif.Lemmas.TuneAlike

/-!
# The same sound turned round

A reader going backwards through samples in reverse order does the same as one going forwards, step by step, with any interpolation up to
normal speed and however positions are rounded, if rounding treats both signs alike.
-/

namespace TVP
open Spec

section
variable {k : Interp} {M H E n : Int} {xs ys : List Int} {fp : Fp}

/-- `r` goes forwards, `r'` backwards at the mirrored place: `M` is the sum of the two places, `H` and `E` are the ends of the sound of `r`. -/
structure Turned (M H E n : Int) (k : Interp) (r r' : Rd) : Prop where
  playing : r.playing = r'.playing
  pos : r.pos1 + r'.pos1 = M
  low : H ≤ r.pos1
  grid : ∃ i : Int, r.pos1 = H + i * n
  top : r.posOf r.fileSamples = E
  bottom : (if r'.playStart = .sample then r'.header else r'.posOf r'.loopStart) = M - E + n
  head' : r'.header = M - E + n
  head : r.header = H
  rate : r'.rate = -r.rate
  fwd : 0 < r.rate
  rem : r'.rem = -r.rem
  rem0 : 0 ≤ r.rem
  chans : r.nch = n
  chans' : r'.nch = n
  pts : k ≠ .none → r'.pts = r.pts
  kind : r.interp = k
  kind' : r'.interp = k
  dual : r.dual = false
  dual' : r'.dual = false
  loop : r.loopType = .none
  loop' : r'.loopType = .none
  calm : k ≠ .none → r.rate ≤ 1

variable (hn : 1 ≤ n) (hE : ∃ F : Int, E = H + F * n)
variable (hxy : ∀ i : Int, 0 ≤ i → H + i * n < E → ∀ ch : Nat, (ch : Int) < n → ∀ v w, xs[(H + i * n + ch).toNat]? = some v → ys[(M - (H + i * n) + ch).toNat]? = some w → v = w)

include hn hE in
theorem Turned.atEnd {r r' : Rd} (h : Turned M H E n k r r') : r.atEnd = r'.atEnd ∧ (r.atEnd = false → r.pos1 < E) := by
  obtain ⟨i, hi⟩ := h.grid
  obtain ⟨F, hF⟩ := hE
  have hb := h.bottom
  have e1 : r.atEnd = decide (r.pos1 ≥ E) := by
    unfold Rd.atEnd
    rw [h.dual, h.loop, h.top, if_neg (by decide), if_pos (le_of_lt h.fwd), if_pos rfl]
  have e2 : r'.atEnd = decide (r'.pos1 < M - E + n) := by
    unfold Rd.atEnd
    rw [h.dual', if_neg (by decide), if_neg (by rw [h.rate]; have := h.fwd; intro hc; linarith)]
    split
    · rename_i hs; rw [if_pos hs] at hb; rw [hb]
    · rename_i hs; rw [if_neg hs] at hb; rw [hb]
  rw [e1, e2]
  have hp := h.pos
  have key : r.pos1 ≥ E ↔ r'.pos1 < M - E + n := by
    have e3 : r'.pos1 = M - r.pos1 := by omega
    rw [e3, hi, hF]
    constructor
    · intro hc; linarith
    · intro hc
      have h1 : (F - 1) * n < i * n := by linarith
      have h2 : F - 1 < i := lt_of_mul_lt_mul_right h1 (by omega)
      have h3 : F * n ≤ i * n := Int.mul_le_mul_of_nonneg_right (by omega) (by omega)
      linarith
  exact ⟨by simp only [key], fun hc => not_le.1 (of_decide_eq_false hc)⟩

theorem srcVal_array {r : Rd} {pos off : Int} {ch : Nat} {s : Option (List Int)} {v : Int} {s' : Option (List Int)} (hs : s = some xs)
    (h : srcVal arraySrc r s pos off ch = .ok (v, s')) : xs[(pos + off * r.nch + ch).toNat]? = some v ∧ s' = some xs := by
  subst hs
  unfold srcVal at h
  obtain ⟨p, h1, h⟩ := bind_ok_iff.1 h
  obtain ⟨q, h2, h⟩ := bind_ok_iff.1 h
  unfold chkI32 at h1 h2
  split at h1
  · cases h1
    split at h2
    · cases h2
      unfold arraySrc at h
      simp only at h
      split at h
      · split at h
        · rename_i e; cases h; exact ⟨e, rfl⟩
        · cases h
      · cases h
    · cases h2
  · cases h1

include hn hxy in
theorem srcVal_turned {r r' : Rd} (h : Turned M H E n k r r') (hlt : r.pos1 < E) {s t : Option (List Int)} (hq : Mems xs ys s t) {ch : Nat} (hch : (ch : Int) < n) :
    Agree (fun x y => x.1 = y.1 ∧ Mems xs ys x.2 y.2) (srcVal arraySrc r s r.pos1 0 ch) (srcVal arraySrc r' t r'.pos1 0 ch) := by
  rintro ⟨v, s'⟩ ⟨w, t'⟩ e1 e2
  obtain ⟨h1, h2⟩ := srcVal_array hq.1 e1
  obtain ⟨h3, h4⟩ := srcVal_array hq.2 e2
  refine ⟨?_, h2, h4⟩
  obtain ⟨i, hi⟩ := h.grid
  have hlow := h.low
  have hp : r'.pos1 = M - r.pos1 := by have := h.pos; omega
  rw [hi] at hlow hlt
  have hi0 : 0 ≤ i := by
    by_contra hc
    have : i * n ≤ -1 * n := Int.mul_le_mul_of_nonneg_right (by omega) (by omega)
    linarith
  rw [hp, hi, Int.zero_mul, Int.add_zero] at h3
  rw [hi, Int.zero_mul, Int.add_zero] at h1
  exact hxy i hi0 hlt ch hch v w h1 h3

theorem addPoint_turned {r r' : Rd} (h : Turned M H E n k r r') (ch : Nat) (y : Int) :
    Agree (fun x y => Turned M H E n k x y ∧ x.pos1 = r.pos1) (addPoint r ch y) (addPoint r' ch y) := by
  unfold addPoint
  rw [h.kind, h.kind']
  cases hk : k with
  | none => exact Agree.ok ⟨hk ▸ h, rfl⟩
  | linear => subst hk; rw [h.pts (by decide)]; exact Agree.ite (fun _ => Agree.ok ⟨{ h with pts := fun _ => rfl, kind := rfl, kind' := rfl }, rfl⟩) fun _ => Agree.error
  | quadratic => subst hk; rw [h.pts (by decide)]; exact Agree.ite (fun _ => Agree.ok ⟨{ h with pts := fun _ => rfl, kind := rfl, kind' := rfl }, rfl⟩) fun _ => Agree.error

theorem Turned.ptsOf {r r' : Rd} (h : Turned M H E n k r r') (hk : k ≠ .none) (ch : Nat) : TVP.ptsOf r' ch = TVP.ptsOf r ch := by unfold TVP.ptsOf; rw [h.pts hk]

theorem Turned.due (hsym : Symmetric fp) {r r' : Rd} (h : Turned M H E n k r r') : fp.d.rnd (r'.rem - r'.rate) = -fp.d.rnd (r.rem - r.rate) := by
  rw [h.rem, h.rate, ← hsym]
  congr 1
  ring

theorem linearVal_turned (hsym : Symmetric fp) {r r' : Rd} (h : Turned M H E n k r r') (hk : k ≠ .none) {s t : Option (List Int)} (hq : Mems xs ys s t) (ch : Nat) (v : Int) :
    Agree (fun x y => x.1 = y.1 ∧ (Turned M H E n k x.2.1 y.2.1 ∧ x.2.1.pos1 = r.pos1) ∧ Mems xs ys x.2.2 y.2.2) (linearVal fp arraySrc r s ch v) (linearVal fp arraySrc r' t ch v) := by
  have hc := h.calm hk
  have hf := h.fwd
  have hn1 : ¬ r.rate > 1 := not_lt.2 hc
  have hn2 : ¬ r'.rate < -1 := by rw [h.rate]; intro hx; linarith
  have hn3 : ¬ r'.rate > 0 := by rw [h.rate]; intro hx; linarith
  have hn4 : r'.rate < 0 := by rw [h.rate]; linarith
  have ha : |r'.rem| = |r.rem| := by rw [h.rem, abs_neg]
  have hd : fp.d.rnd (r'.rem - r'.rate) > 0 ↔ fp.d.rnd (r.rem - r.rate) < 0 := by rw [h.due hsym]; exact neg_pos
  unfold linearVal
  simp only [ha, hd, hn1, hn2, hn3, hn4, h.fwd, h.ptsOf hk ch, decide_false, Bool.and_false, Bool.false_and, Bool.false_eq_true, if_false, gt_iff_lt, if_true]
  refine Agree.ite (fun _ => ?_) fun _ => ?_
  · refine Agree.bind (q := fun x y => (Turned M H E n k x.1 y.1 ∧ x.1.pos1 = r.pos1) ∧ Mems xs ys x.2 y.2) ?_ ?_
    · refine Agree.ite (fun _ => ?_) fun _ => Agree.ok ⟨⟨h, rfl⟩, hq⟩
      exact Agree.same fun _ _ => (addPoint_turned h ch v).bind fun _ _ h1 => Agree.ok ⟨h1, hq⟩
    · rintro ⟨r1, s1⟩ ⟨r2, s2⟩ ⟨⟨h1, h1'⟩, h2⟩
      simp only at h1 h1' h2
      simp only [h1.ptsOf hk ch]
      refine Agree.same fun p _ => Agree.ite (fun _ => Agree.same fun w _ => Agree.ok ⟨rfl, ⟨h1, h1'⟩, h2⟩) fun _ => Agree.ok ⟨rfl, ⟨h1, h1'⟩, h2⟩
  · refine (addPoint_turned h ch v).bind fun r1 r2 h1 => ?_
    rw [h1.1.ptsOf hk ch]
    exact Agree.same fun p _ => Agree.ok ⟨rfl, h1, hq⟩

include hn hxy in
theorem pushLoop_turned {ch : Nat} (hch : (ch : Int) < n) {j : Nat} (hj : j ≤ 1) {r r' : Rd} {s t : Option (List Int)} (h : Turned M H E n k r r') (hlt : r.pos1 < E) (hq : Mems xs ys s t) :
    Agree (fun x y => (Turned M H E n k x.1 y.1 ∧ x.1.pos1 = r.pos1) ∧ Mems xs ys x.2 y.2) (pushLoop fp arraySrc true ch j r s) (pushLoop fp arraySrc false ch j r' t) := by
  rcases Nat.le_one_iff_eq_zero_or_eq_one.1 hj with rfl | rfl
  · unfold pushLoop; exact Agree.ok ⟨⟨h, rfl⟩, hq⟩
  · unfold pushLoop
    simp only [h.dual, h.dual', Bool.false_and, Bool.false_eq_true, if_false, if_true, Nat.cast_zero, neg_zero]
    refine (srcVal_turned hn hxy h hlt hq hch).bind ?_
    rintro ⟨y, s1⟩ ⟨y', t1⟩ ⟨h1, h2⟩
    simp only at h1 h2
    subst h1
    simp only [pure_eq_ok, ok_bind]
    refine (addPoint_turned h ch y).bind fun r1 r2 h3 => ?_
    unfold pushLoop
    exact Agree.ok ⟨h3, h2⟩

include hn hxy in
theorem quadVal_turned (hsym : Symmetric fp) {r r' : Rd} (h : Turned M H E n k r r') (hk : k ≠ .none) (hlt : r.pos1 < E) {s t : Option (List Int)} (hq : Mems xs ys s t) {ch : Nat}
    (hch : (ch : Int) < n) :
    Agree (fun x y => x.1 = y.1 ∧ (Turned M H E n k x.2.1 y.2.1 ∧ x.2.1.pos1 = r.pos1) ∧ Mems xs ys x.2.2 y.2.2) (quadVal fp arraySrc r s ch) (quadVal fp arraySrc r' t ch) := by
  have hc := h.calm hk
  have hf := h.fwd
  have hn3 : ¬ r'.rate > 0 := by rw [h.rate]; intro hx; linarith
  have hn4 : r'.rate < 0 := by rw [h.rate]; linarith
  have ha : |r'.rem| = |r.rem| := by rw [h.rem, abs_neg]
  have e2 : fp.d.rnd (-1) = -1 := by simpa using fp.d.exact_int (m := -1) (by norm_num) (by norm_num) (by norm_num)
  have m := fp.d.mono (show (-1 : ℚ) ≤ r.rem - r.rate by linarith [h.rem0])
  rw [e2] at m
  have hfl : -1 ≤ ⌊fp.d.rnd (r.rem - r.rate)⌋ := by rw [Int.le_floor]; push_cast; exact m
  unfold quadVal
  simp only [ha, h.due hsym, hn3, hn4, h.fwd, if_false, gt_iff_lt, if_true, Int.ceil_neg, neg_pos, Int.cast_neg]
  refine Agree.bind (q := fun x y => (Turned M H E n k x.1 y.1 ∧ x.1.pos1 = r.pos1) ∧ Mems xs ys x.2 y.2) ?_ ?_
  · refine Agree.ite (fun _ => Agree.same fun j hj => ?_) fun _ => Agree.ok ⟨⟨h, rfl⟩, hq⟩
    have hj' := castI32_inv hj
    have hle : (min j 4).toNat ≤ 1 := by
      have e : ((-(⌊fp.d.rnd (r.rem - r.rate)⌋ : ℚ))) = ((-⌊fp.d.rnd (r.rem - r.rate)⌋ : Int) : ℚ) := by push_cast; rfl
      have : trunc (((-⌊fp.d.rnd (r.rem - r.rate)⌋ : Int) : ℚ)) = -⌊fp.d.rnd (r.rem - r.rate)⌋ := by
        unfold trunc
        split
        · exact Int.floor_intCast _
        · rw [← Int.cast_neg, Int.floor_intCast]; omega
      rw [e, this] at hj'
      omega
    exact pushLoop_turned hn hxy hch hle h hlt hq
  · rintro ⟨r1, s1⟩ ⟨r2, s2⟩ ⟨⟨h1, h1'⟩, h2⟩
    simp only at h1 h1' h2
    simp only [h1.ptsOf hk ch]
    exact Agree.same fun p _ => Agree.ite (fun _ => Agree.same fun w _ => Agree.ok ⟨rfl, ⟨h1, h1'⟩, h2⟩) fun _ => Agree.ok ⟨rfl, ⟨h1, h1'⟩, h2⟩

include hn hE hxy in
theorem readNextValue_turned (hsym : Symmetric fp) {r r' : Rd} (h : Turned M H E n k r r') {s t : Option (List Int)} (hq : Mems xs ys s t) {ch : Nat} (hch : (ch : Int) < n) :
    Agree (fun x y => x.1 = y.1 ∧ Turned M H E n k x.2.1 y.2.1 ∧ Mems xs ys x.2.2 y.2.2) (readNextValue fp arraySrc r s ch) (readNextValue fp arraySrc r' t ch) := by
  obtain ⟨a1, a2⟩ := h.atEnd hn hE
  unfold readNextValue
  rw [← a1]
  refine Agree.ite (fun _ => Agree.ok ⟨rfl, h, hq⟩) fun hne => ?_
  have hlt := a2 (Bool.eq_false_iff.2 hne)
  unfold baseVal
  simp only [h.dual, h.dual', Bool.not_false, Bool.true_or, if_true]
  refine (srcVal_turned hn hxy h hlt hq hch).bind ?_
  rintro ⟨y, s1⟩ ⟨y', t1⟩ ⟨h1, h2⟩
  simp only at h1 h2
  subst h1
  simp only [h.kind, h.kind']
  cases hk : k with
  | none => exact Agree.ok ⟨rfl, hk ▸ h, h2⟩
  | linear =>
    subst hk
    exact (linearVal_turned hsym h (by decide) h2 ch y).bind fun _ _ ⟨h3, h4, h5⟩ => Agree.ok ⟨by simp only; rw [h3], h4.1, h5⟩
  | quadratic =>
    subst hk
    exact (quadVal_turned hn hxy hsym h (by decide) hlt h2 hch).bind fun _ _ ⟨h3, h4, h5⟩ => Agree.ok ⟨by simp only; rw [h3], h4.1, h5⟩

include hn hE hxy in
theorem readChan_turned (hsym : Symmetric fp) (fuel fuel' : Nat) {r r' : Rd} {s t : Option (List Int)} (h : Turned M H E n k r r') (hq : Mems xs ys s t) {ch : Nat} (hch : (ch : Int) < n) :
    Agree (fun x y => x.1 = y.1 ∧ Turned M H E n k x.2.1 y.2.1 ∧ Mems xs ys x.2.2 y.2.2) (readChan fp arraySrc fuel r s ch) (readChan fp arraySrc fuel' r' t ch) := by
  cases fuel with
  | zero => unfold readChan; exact Agree.error
  | succ fuel =>
  cases fuel' with
  | zero => conv => { arg 3; unfold readChan }; exact Agree.error'
  | succ fuel' =>
    unfold readChan
    refine (readNextValue_turned hn hE hxy hsym h hq hch).bind ?_
    rintro ⟨o, r1, s1⟩ ⟨o', r1', t1⟩ ⟨h1, h2, h3⟩
    simp only at h1 h2 h3
    subst h1
    cases o with
    | some v => exact Agree.ok ⟨rfl, h2, h3⟩
    | none =>
      have w : ∀ q : Rd, q.loopType = .none → wrapAround q = none := fun q hl => by unfold wrapAround; simp only [hl]
      simp only
      rw [w r1 h2.loop, w r1' h2.loop']
      exact Agree.ok ⟨rfl, { h2 with pts := h2.pts }, h3⟩

include hn hE hxy in
theorem readFrame_turned (hsym : Symmetric fp) {fuel fuel' : Nat} : ∀ (left ch : Nat) {r r' : Rd} {s t : Option (List Int)}, Turned M H E n k r r' → Mems xs ys s t → (left + ch : Int) ≤ n →
    Agree (fun x y => x.1 = y.1 ∧ x.2.1 = y.2.1 ∧ Turned M H E n k x.2.2.1 y.2.2.1 ∧ Mems xs ys x.2.2.2 y.2.2.2) (readFrame fp arraySrc fuel left ch r s)
      (readFrame fp arraySrc fuel' left ch r' t)
  | 0, ch, r, r', s, t, h, hq, _ => by unfold readFrame; exact Agree.ok ⟨rfl, rfl, h, hq⟩
  | left + 1, ch, r, r', s, t, h, hq, hle => by
    unfold readFrame
    refine (readChan_turned hn hE hxy hsym fuel fuel' h hq (by push_cast at hle; omega)).bind ?_
    rintro ⟨o, r1, s1⟩ ⟨o', r1', t1⟩ ⟨h1, h2, h3⟩
    simp only at h1 h2 h3
    subst h1
    cases o with
    | some v =>
      simp only
      refine (readFrame_turned hsym left (ch + 1) h2 h3 (by push_cast at hle ⊢; omega)).bind ?_
      rintro ⟨vs, ok, r2, s2⟩ ⟨vs', ok', r2', t2⟩ ⟨k1, k2, k3⟩
      simp only at k1 k2 k3
      exact Agree.ok ⟨by simp only; rw [k1], k2, k3⟩
    | none => exact Agree.ok ⟨rfl, rfl, h2, h3⟩

theorem trunc_neg' (x : ℚ) : trunc (-x) = -trunc x := by
  unfold trunc
  by_cases h : 0 ≤ x
  · by_cases h0 : x = 0
    · subst h0; simp
    · have : ¬ 0 ≤ -x := by
        have : 0 < x := lt_of_le_of_ne h (Ne.symm h0)
        linarith
      rw [if_neg this, if_pos h, neg_neg]
  · have : 0 ≤ -x := by linarith [not_le.1 h]
    rw [if_pos this, if_neg h, neg_neg]

include hn in
theorem stepOn_turned (hsym : Symmetric fp) {r r' : Rd} (h : Turned M H E n k r r') : Agree (Turned M H E n k) (stepOn fp r) (stepOn fp r') := by
  intro q q' e e'
  obtain ⟨p, rfl⟩ := stepOn_inv e
  obtain ⟨p', rfl⟩ := stepOn_inv e'
  have hs : fp.d.rnd (r'.rem + r'.rate) = -fp.d.rnd (r.rem + r.rate) := by rw [h.rem, h.rate, ← hsym]; congr 1; ring
  have h0 : 0 ≤ fp.d.rnd (r.rem + r.rate) := fp.d.nonneg (by linarith [h.rem0, h.fwd])
  have ht : trunc (fp.d.rnd (r'.rem + r'.rate)) = -trunc (fp.d.rnd (r.rem + r.rate)) := by rw [hs, trunc_neg']
  have ht0 : trunc (fp.d.rnd (r.rem + r.rate)) = ⌊fp.d.rnd (r.rem + r.rate)⌋ := by unfold trunc; rw [if_pos h0]
  have ht1 : 0 ≤ trunc (fp.d.rnd (r.rem + r.rate)) := by rw [ht0]; exact Int.floor_nonneg.2 h0
  obtain ⟨i, hi⟩ := h.grid
  refine { h with pos := ?_, low := ?_, grid := ⟨i + trunc (fp.d.rnd (r.rem + r.rate)), ?_⟩, rem := ?_, rem0 := ?_ }
  · simp only
    rw [ht, h.chans, h.chans']
    have := h.pos
    linarith
  · simp only
    have := Int.mul_nonneg ht1 (show 0 ≤ r.nch by rw [h.chans]; omega)
    have := h.low
    linarith
  · simp only
    rw [hi, h.chans]; ring
  · simp only
    rw [ht, hs, ← hsym (fp.d.rnd (r.rem + r.rate) - _)]
    congr 1
    push_cast
    ring
  · simp only
    rw [ht0]
    exact fp.d.nonneg (by linarith [Int.floor_le (fp.d.rnd (r.rem + r.rate))])

include hn hE hxy in
theorem readLoop_turned (hsym : Symmetric fp) {fuel fuel' : Nat} : ∀ (c : Nat) {r r' : Rd} {s t : Option (List Int)}, Turned M H E n k r r' → Mems xs ys s t →
    Agree (fun x y => x.frames = y.frames ∧ Turned M H E n k x.r y.r ∧ Mems xs ys x.s y.s) (readLoop fp arraySrc fuel c r s) (readLoop fp arraySrc fuel' c r' t)
  | 0, r, r', s, t, h, hq => by unfold readLoop; exact Agree.ok ⟨rfl, h, hq⟩
  | c + 1, r, r', s, t, h, hq => by
    unfold readLoop
    simp only [h.dual, h.dual', Bool.false_eq_true, if_false, pure_eq_ok, ok_bind, h.chans, h.chans']
    refine (readFrame_turned hn hE hxy hsym _ 0 h hq (by push_cast; omega)).bind ?_
    rintro ⟨vs, ok, r2, s2⟩ ⟨vs', ok', r2', t2⟩ ⟨k1, k2, k3, k4⟩
    simp only at k1 k2 k3 k4
    subst k1 k2
    simp only
    refine Agree.ite (fun _ => ?_) fun _ => Agree.ok ⟨rfl, k3, k4⟩
    refine (stepOn_turned hn hsym k3).bind fun r3 r3' h3 => ?_
    refine (readLoop_turned hsym c h3 k4).bind ?_
    rintro x y ⟨j1, j2, j3⟩
    exact Agree.ok ⟨by simp only; rw [j1], j2, j3⟩

/-- Two players with the sound in memory, one turned round; once they have stopped nothing more is asked. -/
structure TurnedOn (M H E n : Int) (k : Interp) (xs ys : List Int) (b b' : ArrayReader) : Prop where
  rd : b.rd.playing = true → Turned M H E n k b.rd b'.rd
  playing : b.rd.playing = b'.rd.playing
  chans : b.rd.nch = n
  chans' : b'.rd.nch = n
  kind : b.rd.interp = k
  src : b.src = some xs
  src' : b'.src = some ys

include hn hE hxy in
theorem TurnedOn.tick (hsym : Symmetric fp) {fuel fuel' : Nat} {b b' : ArrayReader} (h : TurnedOn M H E n k xs ys b b') (alloc : Nat → Bool) :
    Agree (fun x y => x.1 = y.1 ∧ TurnedOn M H E n k xs ys x.2 y.2) (b.tick fp fuel alloc) (b'.tick fp fuel' alloc) := by
  unfold ArrayReader.tick ArrayReader.update
  rw [h.chans, h.chans', ← h.playing]
  refine Agree.bind (update_same (Q := TurnedOn M H E n k xs ys) ?_ h alloc) ?_
  · unfold ArrayReader.read Rd.read
    rw [← h.playing, h.chans, h.chans']
    by_cases hp : b.rd.playing = true
    · have hneg : ¬ n < 0 := by omega
      have hz : ¬ n = 0 := by omega
      simp only [hp, Bool.not_true, Bool.false_eq_true, if_false, hneg, hz]
      refine (readLoop_turned hn hE hxy hsym _ (h.rd hp) ⟨h.src, h.src'⟩).bind ?_
      rintro x y ⟨h1, h2, h3⟩
      exact Agree.ok ⟨h1, fun _ => h2, h2.playing, h2.chans, h2.chans', h2.kind, h3.1, h3.2⟩
    · rw [Bool.not_eq_true] at hp
      simp only [hp, Bool.not_false, if_true]
      exact Agree.ok ⟨rfl, h⟩
  · rintro ⟨fx, b1⟩ ⟨fx', b1'⟩ ⟨h1, h2⟩
    simp only at h1 h2
    subst h1
    simp only
    cases fx.event with
    | none => exact Agree.ok ⟨rfl, h2⟩
    | some e =>
      refine Agree.ok ⟨rfl, ?_⟩
      cases e with
      | reload => exact h2
      | close => exact ⟨(fun hp => nomatch hp), rfl, h2.chans, h2.chans', h2.kind, h2.src, h2.src'⟩

theorem TurnedOn.speed {b b' : ArrayReader} (h : TurnedOn M H E n k xs ys b b') {v : ℚ} (hv : 0 < v) (hv1 : k ≠ .none → v ≤ 1)
    (hin : b'.rd.playing = true → b'.rd.header < b'.rd.pos1) : TurnedOn M H E n k xs ys ⟨b.rd.setPlaybackRate v, b.src⟩ ⟨b'.rd.setPlaybackRate (-v), b'.src⟩ := by
  obtain ⟨k1, k2⟩ := setPlaybackRate_keeps b.rd v
  obtain ⟨k3, k4⟩ := setPlaybackRate_keeps b'.rd (-v)
  have k5 : (b.rd.setPlaybackRate v).interp = b.rd.interp := by
    unfold Rd.setPlaybackRate
    simp only
    repeat' split
    all_goals rfl
  refine ⟨fun hp => ?_, k1.trans (h.playing.trans k3.symm), k2.trans h.chans, k4.trans h.chans', k5.trans h.kind, h.src, h.src'⟩
  simp only at hp ⊢
  rw [k1] at hp
  have ht := h.rd hp
  have i1 : Inside b.rd v := Or.inr ⟨le_of_lt hv, by rw [ht.head]; exact ht.low⟩
  have i2 : Inside b'.rd (-v) := Or.inl (hin (h.playing ▸ hp))
  rw [i1.only_rate, i2.only_rate]
  exact { ht with rate := rfl, fwd := hv, calm := hv1 }

end

end TVP
