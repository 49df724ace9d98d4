import Verif.Lemmas.Turned
import Verif.Lemmas.TuneLoop

/-!
# A repeated loop and the loop written out

Below normal speed a reader in a repeated loop does the same, step by step, as a reader without a loop of the frames in the order in which
the loop meets them, with any interpolation and however positions are rounded.
-/

namespace TVP
open Spec

section
variable {up : Bool} {k : Interp} {Hd H n F q back : Int} {pl : Int → Int} {fin : Int → Bool} {xs ys : List Int} {fp : Fp}

/-- One way or the other. -/
def sgn (up : Bool) : Int := if up then 1 else -1

/-- `r` is in a repeated loop, upwards or downwards, `r'` goes forwards through what is written out.  `pl j` is the place in the loop that
belongs to frame `j` written out, `fin p` says whether the loop has ended at place `p`, and `back` is where it goes on then. -/
structure Written (up : Bool) (k : Interp) (Hd H n F q back : Int) (pl : Int → Int) (fin : Int → Bool) (r r' : Rd) : Prop where
  playing : r.playing = r'.playing
  place : ∃ j, q ≤ j ∧ r'.pos1 = H + j * n ∧ ((fin r.pos1 = false ∧ r.pos1 = pl j) ∨ (fin r.pos1 = true ∧ pl j = back))
  low : up = true → Hd ≤ r.pos1
  head : r.header = Hd
  head' : r'.header = H
  fin : ∀ p, ({ r with pos1 := p } : Rd).atEnd = fin p
  wrap : (if r.rate ≥ 0 then r.posOf r.loopStart else r.posOf (r.loopFinish - r.nch)) = back
  loop : r.loopType = .repeat
  top : r'.posOf r'.fileSamples = H + F * n
  rate : r.rate = sgn up * r'.rate
  fwd : 0 < r'.rate
  slow : r'.rate ≤ 1 - 1 / 2 ^ 53
  rem : r.rem = sgn up * r'.rem
  rem0 : 0 ≤ r'.rem
  rem1 : r'.rem < 1
  flt : IsFloat 53 (-1074) r'.rem
  chans : r.nch = n
  chans' : r'.nch = n
  pts : k ≠ .none → r'.pts = r.pts
  kind : r.interp = k
  kind' : r'.interp = k
  dual : r.dual = false
  dual' : r'.dual = false
  loop' : r'.loopType = .none

/-- Likewise, and the loop has not ended. -/
def WrittenIn (up : Bool) (k : Interp) (Hd H n F q back : Int) (pl : Int → Int) (fin : Int → Bool) (r r' : Rd) : Prop :=
  Written up k Hd H n F q back pl fin r r' ∧ fin r.pos1 = false

variable (hn : 1 ≤ n) (hsym : up = false → Symmetric fp) (hfp : Representable fp) (hback : fin back = false) (hlowb : up = true → Hd ≤ back)
variable (hstep : ∀ j, q ≤ j → fin (pl j) = false →
  (fin (pl j + sgn up * n) = false ∧ pl (j + 1) = pl j + sgn up * n) ∨ (fin (pl j + sgn up * n) = true ∧ pl (j + 1) = back))
variable (hxy : ∀ j, q ≤ j → j < F → fin (pl j) = false → ∀ ch : Nat, (ch : Int) < n → ∀ v w, xs[(pl j + ch).toNat]? = some v → ys[(H + j * n + ch).toNat]? = some w → v = w)

include hn in
theorem Written.atEnd' {r r' : Rd} (h : Written up k Hd H n F q back pl fin r r') {j : Int} (hj : r'.pos1 = H + j * n) : r'.atEnd = decide (F ≤ j) := by
  unfold Rd.atEnd
  rw [h.dual', h.loop', h.top, if_neg (by decide), if_pos (le_of_lt h.fwd), if_pos rfl, hj]
  have : H + j * n ≥ H + F * n ↔ F ≤ j := by
    constructor
    · intro hc
      have h1 : F * n ≤ j * n := by linarith
      exact le_of_mul_le_mul_right h1 (by omega)
    · intro hc
      have := Int.mul_le_mul_of_nonneg_right hc (show 0 ≤ n by omega)
      linarith
  simp only [this]

include hn hxy in
theorem srcVal_written {r r' : Rd} (h : WrittenIn up k Hd H n F q back pl fin r r') (hlt : r'.atEnd = false) {s t : Option (List Int)} (hq : Mems xs ys s t) {ch : Nat} (hch : (ch : Int) < n) :
    Agree (fun x y => x.1 = y.1 ∧ Mems xs ys x.2 y.2) (srcVal arraySrc r s r.pos1 0 ch) (srcVal arraySrc r' t r'.pos1 0 ch) := by
  rintro ⟨v, s'⟩ ⟨w, t'⟩ e1 e2
  obtain ⟨h1, h2⟩ := srcVal_array hq.1 e1
  obtain ⟨h3, h4⟩ := srcVal_array hq.2 e2
  refine ⟨?_, h2, h4⟩
  obtain ⟨j, hqj, hj, ⟨hf, hp⟩ | ⟨hf, -⟩⟩ := h.1.place
  · rw [h.1.atEnd' hn hj] at hlt
    rw [hj, Int.zero_mul, Int.add_zero] at h3
    rw [hp, Int.zero_mul, Int.add_zero] at h1
    rw [hp] at hf
    exact hxy j hqj (not_le.1 (of_decide_eq_false hlt)) hf ch hch v w h1 h3
  · rw [h.2] at hf; cases hf

theorem addPoint_written {r r' : Rd} (h : WrittenIn up k Hd H n F q back pl fin r r') (ch : Nat) (y : Int) :
    Agree (fun x y => WrittenIn up k Hd H n F q back pl fin x y) (addPoint r ch y) (addPoint r' ch y) := by
  obtain ⟨h, hi⟩ := h
  unfold addPoint
  rw [h.kind, h.kind']
  cases hk : k with
  | none => exact Agree.ok ⟨hk ▸ h, hi⟩
  | linear => subst hk; rw [h.pts (by decide)]; exact Agree.ite (fun _ => Agree.ok ⟨{ h with pts := fun _ => rfl, kind := rfl, kind' := rfl }, hi⟩) fun _ => Agree.error
  | quadratic => subst hk; rw [h.pts (by decide)]; exact Agree.ite (fun _ => Agree.ok ⟨{ h with pts := fun _ => rfl, kind := rfl, kind' := rfl }, hi⟩) fun _ => Agree.error

theorem Written.ptsOf {r r' : Rd} (h : Written up k Hd H n F q back pl fin r r') (hk : k ≠ .none) (ch : Nat) : TVP.ptsOf r ch = TVP.ptsOf r' ch := by unfold TVP.ptsOf; rw [h.pts hk]

theorem Written.ahead {r r' : Rd} (h : Written true k Hd H n F q back pl fin r r') : r.rate = r'.rate ∧ r.rem = r'.rem := by
  have h1 := h.rate
  have h2 := h.rem
  unfold sgn at h1 h2
  simp only [if_true, Int.cast_one, one_mul] at h1 h2
  exact ⟨h1, h2⟩

theorem Written.astern {r r' : Rd} (h : Written false k Hd H n F q back pl fin r r') : r.rate = -r'.rate ∧ r.rem = -r'.rem := by
  have h1 := h.rate
  have h2 := h.rem
  unfold sgn at h1 h2
  simp only [Bool.false_eq_true, if_false, Int.cast_neg, Int.cast_one, neg_mul, one_mul] at h1 h2
  exact ⟨h1, h2⟩

include hsym in
theorem linearVal_written {r r' : Rd} (h : WrittenIn up k Hd H n F q back pl fin r r') (hk : k ≠ .none) {s t : Option (List Int)} (hq : Mems xs ys s t) (ch : Nat) (v : Int) :
    Agree (fun x y => x.1 = y.1 ∧ WrittenIn up k Hd H n F q back pl fin x.2.1 y.2.1 ∧ Mems xs ys x.2.2 y.2.2) (linearVal fp arraySrc r s ch v) (linearVal fp arraySrc r' t ch v) := by
  have hc : r'.rate ≤ 1 := le_trans h.1.slow (by norm_num)
  have hf := h.1.fwd
  have hn1 : ¬ r'.rate > 1 := not_lt.2 hc
  have hn5 : ¬ r'.rate < -1 := by intro hx; linarith
  have rest : Agree (fun x y => x.1 = y.1 ∧ WrittenIn up k Hd H n F q back pl fin x.2.1 y.2.1 ∧ Mems xs ys x.2.2 y.2.2)
      (if 0 < |r'.rem| then (do
          let (r, s) ← (if fp.d.rnd (r'.rem - r'.rate) < 0 then (do let _ ← TVP.ptsOf r' ch; return (← addPoint r ch v, s)) else pure (r, s) : M (Rd × Option (List Int)))
          let p ← TVP.ptsOf r ch
          if p.n > 1 then
            let v ← castI16 (fp.d.rnd (fp.d.rnd (|r'.rem| * p.y1) + fp.d.rnd (fp.d.rnd (1 - |r'.rem|) * p.y0)))
            return (v, r, s)
          else return (v, r, s)) else (do
          let r ← addPoint r ch v
          let p ← TVP.ptsOf r ch
          return (p.y0, r, s)) : M (Int × Rd × Option (List Int)))
      (if 0 < |r'.rem| then (do
          let (r, s) ← (if fp.d.rnd (r'.rem - r'.rate) < 0 then (do let _ ← TVP.ptsOf r' ch; return (← addPoint r' ch v, t)) else pure (r', t) : M (Rd × Option (List Int)))
          let p ← TVP.ptsOf r ch
          if p.n > 1 then
            let v ← castI16 (fp.d.rnd (fp.d.rnd (|r'.rem| * p.y1) + fp.d.rnd (fp.d.rnd (1 - |r'.rem|) * p.y0)))
            return (v, r, s)
          else return (v, r, s)) else (do
          let r ← addPoint r' ch v
          let p ← TVP.ptsOf r ch
          return (p.y0, r, t)) : M (Int × Rd × Option (List Int))) := by
    refine Agree.ite (fun _ => ?_) fun _ => ?_
    · refine Agree.bind (q := fun x y => WrittenIn up k Hd H n F q back pl fin x.1 y.1 ∧ Mems xs ys x.2 y.2) ?_ ?_
      · refine Agree.ite (fun _ => ?_) fun _ => Agree.ok ⟨h, hq⟩
        exact Agree.same fun _ _ => (addPoint_written h ch v).bind fun _ _ h1 => Agree.ok ⟨h1, hq⟩
      · rintro ⟨r1, s1⟩ ⟨r2, s2⟩ ⟨h1, h2⟩
        simp only at h1 h2
        simp only [h1.1.ptsOf hk ch]
        exact Agree.same fun p _ => Agree.ite (fun _ => Agree.same fun w _ => Agree.ok ⟨rfl, h1, h2⟩) fun _ => Agree.ok ⟨rfl, h1, h2⟩
    · refine (addPoint_written h ch v).bind fun r1 r2 h1 => ?_
      rw [h1.1.ptsOf hk ch]
      exact Agree.same fun p _ => Agree.ok ⟨rfl, h1, hq⟩
  unfold linearVal
  cases hu : up with
  | true =>
    subst hu
    obtain ⟨h1, h2⟩ := h.1.ahead
    simp only [h1, h2, hn1, h.1.fwd, h.1.ptsOf hk ch, decide_false, Bool.and_false, Bool.false_and, Bool.false_eq_true, if_false, gt_iff_lt, if_true]
    exact rest
  | false =>
    subst hu
    obtain ⟨h1, h2⟩ := h.1.astern
    have hn2 : ¬ r.rate < -1 := by rw [h1]; intro hx; linarith
    have hn3 : ¬ r.rate > 0 := by rw [h1]; intro hx; linarith
    have hn4 : r.rate < 0 := by rw [h1]; linarith
    have ha : |r.rem| = |r'.rem| := by rw [h2, abs_neg]
    have hd : fp.d.rnd (r.rem - r.rate) > 0 ↔ fp.d.rnd (r'.rem - r'.rate) < 0 := by
      have : r.rem - r.rate = -(r'.rem - r'.rate) := by rw [h1, h2]; ring
      rw [this, hsym rfl]
      exact neg_pos
    simp only [ha, hd, hn1, hn2, hn3, hn4, h.1.fwd, h.1.ptsOf hk ch, decide_false, Bool.and_false, Bool.false_and, Bool.false_eq_true, if_false, gt_iff_lt, if_true]
    exact rest

include hn hxy in
theorem pushLoop_written (w w' : Bool) {ch : Nat} (hch : (ch : Int) < n) {j : Nat} (hj : j ≤ 1) {r r' : Rd} {s t : Option (List Int)} (h : WrittenIn up k Hd H n F q back pl fin r r')
    (hlt : r'.atEnd = false) (hq : Mems xs ys s t) :
    Agree (fun x y => WrittenIn up k Hd H n F q back pl fin x.1 y.1 ∧ Mems xs ys x.2 y.2) (pushLoop fp arraySrc w ch j r s) (pushLoop fp arraySrc w' ch j r' t) := by
  rcases Nat.le_one_iff_eq_zero_or_eq_one.1 hj with rfl | rfl
  · unfold pushLoop; exact Agree.ok ⟨h, hq⟩
  · unfold pushLoop
    have e : ∀ b : Bool, (if b = true then -((0 : Nat) : Int) else ((0 : Nat) : Int)) = 0 := fun b => by cases b <;> rfl
    simp only [h.1.dual, h.1.dual', Bool.false_and, Bool.false_eq_true, if_false, e]
    refine (srcVal_written hn hxy h hlt hq hch).bind ?_
    rintro ⟨y, s1⟩ ⟨y', t1⟩ ⟨h1, h2⟩
    simp only at h1 h2
    subst h1
    simp only [pure_eq_ok, ok_bind]
    refine (addPoint_written h ch y).bind fun r1 r2 h3 => ?_
    unfold pushLoop
    exact Agree.ok ⟨h3, h2⟩

include hn hxy hsym in
theorem quadVal_written {r r' : Rd} (h : WrittenIn up k Hd H n F q back pl fin r r') (hk : k ≠ .none) (hlt : r'.atEnd = false) {s t : Option (List Int)} (hq : Mems xs ys s t) {ch : Nat}
    (hch : (ch : Int) < n) :
    Agree (fun x y => x.1 = y.1 ∧ WrittenIn up k Hd H n F q back pl fin x.2.1 y.2.1 ∧ Mems xs ys x.2.2 y.2.2) (quadVal fp arraySrc r s ch) (quadVal fp arraySrc r' t ch) := by
  have hc : r'.rate ≤ 1 := le_trans h.1.slow (by norm_num)
  have hf := h.1.fwd
  have e2 : fp.d.rnd (-1) = -1 := by simpa using fp.d.exact_int (m := -1) (by norm_num) (by norm_num) (by norm_num)
  have m := fp.d.mono (show (-1 : ℚ) ≤ r'.rem - r'.rate by linarith [h.1.rem0])
  rw [e2] at m
  have hfl : -1 ≤ ⌊fp.d.rnd (r'.rem - r'.rate)⌋ := by rw [Int.le_floor]; push_cast; exact m
  have hle : ∀ j, castI32 (-(⌊fp.d.rnd (r'.rem - r'.rate)⌋ : ℚ)) = .ok j → (min j 4).toNat ≤ 1 := by
    intro j hj
    have hj' := castI32_inv hj
    have e : ((-(⌊fp.d.rnd (r'.rem - r'.rate)⌋ : ℚ))) = ((-⌊fp.d.rnd (r'.rem - r'.rate)⌋ : Int) : ℚ) := by push_cast; rfl
    have : trunc (((-⌊fp.d.rnd (r'.rem - r'.rate)⌋ : Int) : ℚ)) = -⌊fp.d.rnd (r'.rem - r'.rate)⌋ := by
      unfold trunc
      split
      · exact Int.floor_intCast _
      · rw [← Int.cast_neg, Int.floor_intCast]; omega
    rw [e, this] at hj'
    omega
  have rest : ∀ w : Bool, Agree (fun x y => x.1 = y.1 ∧ WrittenIn up k Hd H n F q back pl fin x.2.1 y.2.1 ∧ Mems xs ys x.2.2 y.2.2)
      (do
        let (r, s) ← (if fp.d.rnd (r'.rem - r'.rate) < 0 then (do
            let k ← castI32 (-(⌊fp.d.rnd (r'.rem - r'.rate)⌋ : ℚ))
            pushLoop fp arraySrc w ch (min k 4).toNat r s) else pure (r, s) : M (Rd × Option (List Int)))
        let p ← TVP.ptsOf r ch
        if p.n ≥ 4 then
          let v ← fastinterpolate fp p.y0 p.y1 p.y2 p.y3 (fp.f.rnd (fp.d.rnd (1 + |r'.rem|)))
          return (v, r, s)
        else return (0, r, s) : M (Int × Rd × Option (List Int)))
      (do
        let (r, s) ← (if fp.d.rnd (r'.rem - r'.rate) < 0 then (do
            let k ← castI32 (-(⌊fp.d.rnd (r'.rem - r'.rate)⌋ : ℚ))
            pushLoop fp arraySrc true ch (min k 4).toNat r' t) else pure (r', t) : M (Rd × Option (List Int)))
        let p ← TVP.ptsOf r ch
        if p.n ≥ 4 then
          let v ← fastinterpolate fp p.y0 p.y1 p.y2 p.y3 (fp.f.rnd (fp.d.rnd (1 + |r'.rem|)))
          return (v, r, s)
        else return (0, r, s) : M (Int × Rd × Option (List Int))) := by
    intro w
    refine Agree.bind (q := fun x y => WrittenIn up k Hd H n F q back pl fin x.1 y.1 ∧ Mems xs ys x.2 y.2) ?_ ?_
    · exact Agree.ite (fun _ => Agree.same fun j hj => pushLoop_written hn hxy w true hch (hle j hj) h hlt hq) fun _ => Agree.ok ⟨h, hq⟩
    · rintro ⟨r1, s1⟩ ⟨r2, s2⟩ ⟨h1, h2⟩
      simp only at h1 h2
      simp only [h1.1.ptsOf hk ch]
      exact Agree.same fun p _ => Agree.ite (fun _ => Agree.same fun w _ => Agree.ok ⟨rfl, h1, h2⟩) fun _ => Agree.ok ⟨rfl, h1, h2⟩
  unfold quadVal
  cases hu : up with
  | true =>
    subst hu
    obtain ⟨h1, h2⟩ := h.1.ahead
    simp only [h1, h2, h.1.fwd, gt_iff_lt, if_true]
    exact rest true
  | false =>
    subst hu
    obtain ⟨h1, h2⟩ := h.1.astern
    have hn3 : ¬ r.rate > 0 := by rw [h1]; intro hx; linarith
    have hn4 : r.rate < 0 := by rw [h1]; linarith
    have ha : |r.rem| = |r'.rem| := by rw [h2, abs_neg]
    have hd : fp.d.rnd (r.rem - r.rate) = -fp.d.rnd (r'.rem - r'.rate) := by
      have : r.rem - r.rate = -(r'.rem - r'.rate) := by rw [h1, h2]; ring
      rw [this, hsym rfl]
    simp only [ha, hd, hn3, hn4, h.1.fwd, if_false, gt_iff_lt, if_true, Int.ceil_neg, neg_pos, Int.cast_neg]
    exact rest false

include hn hxy hsym in
theorem readNextValue_written {r r' : Rd} (h : WrittenIn up k Hd H n F q back pl fin r r') (hlt : r'.atEnd = false) {s t : Option (List Int)} (hq : Mems xs ys s t) {ch : Nat} (hch : (ch : Int) < n) :
    Agree (fun x y => x.1 = y.1 ∧ x.1 ≠ none ∧ WrittenIn up k Hd H n F q back pl fin x.2.1 y.2.1 ∧ Mems xs ys x.2.2 y.2.2) (readNextValue fp arraySrc r s ch) (readNextValue fp arraySrc r' t ch) := by
  have hne : r.atEnd = false := (h.1.fin r.pos1).trans h.2
  unfold readNextValue
  rw [hlt, hne]
  simp only [Bool.false_eq_true, if_false]
  unfold baseVal
  simp only [h.1.dual, h.1.dual', Bool.not_false, Bool.true_or, if_true]
  refine (srcVal_written hn hxy h hlt hq hch).bind ?_
  rintro ⟨y, s1⟩ ⟨y', t1⟩ ⟨h1, h2⟩
  simp only at h1 h2
  subst h1
  simp only [h.1.kind, h.1.kind']
  cases hk : k with
  | none => exact Agree.ok ⟨rfl, by simp, hk ▸ h, h2⟩
  | linear =>
    subst hk
    exact (linearVal_written hsym h (by decide) h2 ch y).bind fun _ _ ⟨h3, h4, h5⟩ => Agree.ok ⟨by simp only; rw [h3], by simp, h4, h5⟩
  | quadratic =>
    subst hk
    exact (quadVal_written hn hsym hxy h (by decide) hlt h2 hch).bind fun _ _ ⟨h3, h4, h5⟩ => Agree.ok ⟨by simp only; rw [h3], by simp, h4, h5⟩

/-- Both deliver the same, or what is written out has ended. -/
def OrEnded {α β : Type} (ended : β → Prop) (Q : α → β → Prop) (x : α) (y : β) : Prop := ended y ∨ Q x y

include hn hxy hsym in
theorem readChan_in {r r' : Rd} (h : WrittenIn up k Hd H n F q back pl fin r r') {s t : Option (List Int)} (hq : Mems xs ys s t) {ch : Nat} (hch : (ch : Int) < n) (fuel fuel' : Nat) :
    Agree (OrEnded (fun y => y.1 = none) fun x y => x.1 = y.1 ∧ x.1 ≠ none ∧ WrittenIn up k Hd H n F q back pl fin x.2.1 y.2.1 ∧ Mems xs ys x.2.2 y.2.2) (readChan fp arraySrc fuel r s ch)
      (readChan fp arraySrc fuel' r' t ch) := by
  cases fuel with
  | zero => unfold readChan; exact Agree.error
  | succ fuel =>
  cases fuel' with
  | zero => conv => { arg 3; unfold readChan }; exact Agree.error'
  | succ fuel' =>
    unfold readChan
    cases hlt : r'.atEnd with
    | true =>
      have e : readNextValue fp arraySrc r' t ch = .ok (none, r', t) := by unfold readNextValue; rw [hlt]; rfl
      have w : wrapAround r' = none := by unfold wrapAround; simp only [h.1.loop']
      intro x y _ e2
      rw [e] at e2
      simp only [ok_bind, w, pure_eq_ok, Except.ok.injEq] at e2
      subst e2
      exact Or.inl rfl
    | false =>
      refine (readNextValue_written hn hsym hxy h hlt hq hch).bind ?_
      rintro ⟨o, r1, s1⟩ ⟨o', r1', t1⟩ ⟨h1, h2, h3⟩
      simp only at h1 h2 h3
      subst h1
      cases o with
      | some v => exact Agree.ok (Or.inr ⟨rfl, h2, h3⟩)
      | none => exact absurd rfl h2

include hn hxy hsym hback hlowb in
theorem readChan_written {r r' : Rd} (h : Written up k Hd H n F q back pl fin r r') {s t : Option (List Int)} (hq : Mems xs ys s t) {ch : Nat} (hch : (ch : Int) < n) (fuel fuel' : Nat) :
    Agree (OrEnded (fun y => y.1 = none) fun x y => x.1 = y.1 ∧ x.1 ≠ none ∧ WrittenIn up k Hd H n F q back pl fin x.2.1 y.2.1 ∧ Mems xs ys x.2.2 y.2.2) (readChan fp arraySrc fuel r s ch)
      (readChan fp arraySrc fuel' r' t ch) := by
  cases hf : fin r.pos1 with
  | false => exact readChan_in hn hsym hxy ⟨h, hf⟩ hq hch fuel fuel'
  | true =>
    cases fuel with
    | zero => unfold readChan; exact Agree.error
    | succ fuel =>
      have e : readNextValue fp arraySrc r s ch = .ok (none, r, s) := by
        unfold readNextValue
        rw [show r.atEnd = true from (h.fin r.pos1).trans hf]; rfl
      have w : wrapAround r = some { r with cfOn := false, pos1 := back } := by
        have := h.wrap
        unfold wrapAround
        simp only [h.loop]
        rw [← this]
        rfl
      have e2 : readChan fp arraySrc (fuel + 1) r s ch = readChan fp arraySrc fuel { r with cfOn := false, pos1 := back } s ch := by
        conv => { lhs; unfold readChan }
        rw [e]
        simp only [ok_bind, w]
      rw [e2]
      obtain ⟨j, hqj, hj, ⟨hf', -⟩ | ⟨-, hp⟩⟩ := h.place
      · rw [hf] at hf'; cases hf'
      · have h1 : Written up k Hd H n F q back pl fin { r with cfOn := false, pos1 := back } r' :=
          { h with place := ⟨j, hqj, hj, Or.inl ⟨hback, hp.symm⟩⟩, low := hlowb }
        exact readChan_in hn hsym hxy ⟨h1, hback⟩ hq hch fuel fuel'

include hn hxy hsym in
theorem readFrame_within {fuel fuel' : Nat} : ∀ (left ch : Nat) {r r' : Rd} {s t : Option (List Int)}, WrittenIn up k Hd H n F q back pl fin r r' → Mems xs ys s t → (left + ch : Int) ≤ n →
    Agree (OrEnded (fun y => y.2.1 = false) fun x y => x.1 = y.1 ∧ x.2.1 = y.2.1 ∧ WrittenIn up k Hd H n F q back pl fin x.2.2.1 y.2.2.1 ∧ Mems xs ys x.2.2.2 y.2.2.2)
      (readFrame fp arraySrc fuel left ch r s) (readFrame fp arraySrc fuel' left ch r' t)
  | 0, ch, r, r', s, t, h, hq, _ => by unfold readFrame; exact Agree.ok (Or.inr ⟨rfl, rfl, h, hq⟩)
  | left + 1, ch, r, r', s, t, h, hq, hle => by
    unfold readFrame
    refine (readChan_in hn hsym hxy h hq (by push_cast at hle; omega) fuel fuel').bind ?_
    rintro ⟨o, r1, s1⟩ ⟨o', r1', t1⟩ (h1 | ⟨h1, h2, h3, h4⟩)
    · simp only at h1
      subst h1
      intro x y _ e2
      cases e2
      exact Or.inl rfl
    · simp only at h1 h2 h3 h4
      subst h1
      cases o with
      | none => exact absurd rfl h2
      | some v =>
        simp only
        refine (readFrame_within left (ch + 1) h3 h4 (by push_cast at hle ⊢; omega)).bind ?_
        rintro ⟨vs, ok, r2, s2⟩ ⟨vs', ok', r2', t2⟩ (k1 | ⟨k1, k2, k3⟩)
        · exact Agree.ok (Or.inl k1)
        · simp only at k1 k2 k3
          exact Agree.ok (Or.inr ⟨by simp only; rw [k1], k2, k3⟩)

include hn hxy hsym hback hlowb in
theorem readFrame_written {fuel fuel' : Nat} (left : Nat) {r r' : Rd} {s t : Option (List Int)} (h : Written up k Hd H n F q back pl fin r r') (hq : Mems xs ys s t) (hle : ((left + 1 : Nat) : Int) ≤ n) :
    Agree (OrEnded (fun y => y.2.1 = false) fun x y => x.1 = y.1 ∧ x.2.1 = y.2.1 ∧ WrittenIn up k Hd H n F q back pl fin x.2.2.1 y.2.2.1 ∧ Mems xs ys x.2.2.2 y.2.2.2)
      (readFrame fp arraySrc fuel (left + 1) 0 r s) (readFrame fp arraySrc fuel' (left + 1) 0 r' t) := by
  unfold readFrame
  refine (readChan_written hn hsym hback hlowb hxy h hq (by push_cast at hle ⊢; omega) fuel fuel').bind ?_
  rintro ⟨o, r1, s1⟩ ⟨o', r1', t1⟩ (h1 | ⟨h1, h2, h3, h4⟩)
  · simp only at h1
    subst h1
    intro x y _ e2
    cases e2
    exact Or.inl rfl
  · simp only at h1 h2 h3 h4
    subst h1
    cases o with
    | none => exact absurd rfl h2
    | some v =>
      simp only
      refine (readFrame_within hn hsym hxy left 1 h3 h4 (by push_cast at hle ⊢; omega)).bind ?_
      rintro ⟨vs, ok, r2, s2⟩ ⟨vs', ok', r2', t2⟩ (k1 | ⟨k1, k2, k3⟩)
      · exact Agree.ok (Or.inl k1)
      · simp only at k1 k2 k3
        exact Agree.ok (Or.inr ⟨by simp only; rw [k1], k2, k3⟩)

include hn hsym hfp hstep in
theorem stepOn_written {r r' : Rd} (h : WrittenIn up k Hd H n F q back pl fin r r') : Agree (Written up k Hd H n F q back pl fin) (stepOn fp r) (stepOn fp r') := by
  intro x x' e e'
  obtain ⟨h, hi⟩ := h
  obtain ⟨p, rfl⟩ := stepOn_inv e
  obtain ⟨p', rfl⟩ := stepOn_inv e'
  have h0 : 0 ≤ fp.d.rnd (r'.rem + r'.rate) := fp.d.nonneg (by linarith [h.rem0, h.fwd])
  have h2 : fp.d.rnd (r'.rem + r'.rate) < 2 := rnd_two fp.d h.flt h.rem1 h.slow
  have ht0 : trunc (fp.d.rnd (r'.rem + r'.rate)) = ⌊fp.d.rnd (r'.rem + r'.rate)⌋ := by unfold trunc; rw [if_pos h0]
  have hs : fp.d.rnd (r.rem + r.rate) = sgn up * fp.d.rnd (r'.rem + r'.rate) := by
    cases hu : up with
    | true => subst hu; obtain ⟨k1, k2⟩ := h.ahead; rw [k1, k2]; simp [sgn]
    | false =>
      subst hu; obtain ⟨k1, k2⟩ := h.astern
      have : r.rem + r.rate = -(r'.rem + r'.rate) := by rw [k1, k2]; ring
      rw [this, hsym rfl]; simp [sgn]
  have ht : trunc (fp.d.rnd (r.rem + r.rate)) = sgn up * trunc (fp.d.rnd (r'.rem + r'.rate)) := by
    rw [hs]
    cases up with
    | true => simp [sgn]
    | false => simp [sgn, trunc_neg']
  have hrr : fp.d.rnd (fp.d.rnd (r.rem + r.rate) - (trunc (fp.d.rnd (r.rem + r.rate)) : Int)) = sgn up * fp.d.rnd (fp.d.rnd (r'.rem + r'.rate) - (trunc (fp.d.rnd (r'.rem + r'.rate)) : Int)) := by
    rw [ht, hs]
    cases hu : up with
    | true => simp [sgn]
    | false =>
      have := hsym hu (fp.d.rnd (r'.rem + r'.rate) - (trunc (fp.d.rnd (r'.rem + r'.rate)) : Int))
      simp only [sgn, Bool.false_eq_true, if_false, Int.cast_neg, Int.cast_one, neg_mul, one_mul]
      rw [← this]
      congr 1
      ring
  have hex := fp.d.exact _ (frac_isFloat (hfp (r'.rem + r'.rate)))
  have hfrac := trunc_rest (fp.d.rnd (r'.rem + r'.rate))
  obtain ⟨j, hqj, hj, ⟨-, hp⟩ | ⟨hf, -⟩⟩ := h.place
  swap
  · rw [hi] at hf; cases hf
  have hcase : ⌊fp.d.rnd (r'.rem + r'.rate)⌋ = 0 ∨ ⌊fp.d.rnd (r'.rem + r'.rate)⌋ = 1 := by
    have k1 : 0 ≤ ⌊fp.d.rnd (r'.rem + r'.rate)⌋ := Int.floor_nonneg.2 h0
    have k2 : ⌊fp.d.rnd (r'.rem + r'.rate)⌋ < 2 := Int.floor_lt.2 (by push_cast; exact h2)
    omega
  have hfin : ∀ P : Int, (P = pl j ∨ P = pl j + sgn up * n) → up = true → Hd ≤ P := by
    intro P hP hu
    have := h.low hu
    rw [hp] at this
    subst hu
    rcases hP with rfl | rfl
    · exact this
    · simp only [sgn, if_true, one_mul]; omega
  refine { h with place := ?_, low := ?_, rem := hrr, rem0 := ?_, rem1 := ?_, flt := ?_ }
  · simp only
    rw [ht, ht0, h.chans, h.chans', hj, hp]
    rw [hp] at hi
    rcases hcase with hc | hc
    · rw [hc]
      exact ⟨j, hqj, by ring, Or.inl ⟨by simpa using hi, by ring⟩⟩
    · rw [hc]
      refine ⟨j + 1, by omega, by ring, ?_⟩
      rw [mul_one]
      rcases hstep j hqj hi with ⟨k1, k2⟩ | ⟨k1, k2⟩
      · exact Or.inl ⟨k1, k2.symm⟩
      · exact Or.inr ⟨k1, k2⟩
  · simp only
    refine hfin _ ?_
    rw [ht, ht0, h.chans, hp]
    rcases hcase with hc | hc
    · rw [hc]; left; ring
    · rw [hc]; right; ring
  · simp only
    rw [ht0]
    exact fp.d.nonneg (by linarith [Int.floor_le (fp.d.rnd (r'.rem + r'.rate))])
  · simp only
    rw [hex]
    exact (abs_lt.1 hfrac).2
  · exact hfp _

include hn hxy hsym hback hlowb hfp hstep in
theorem readLoop_written {fuel fuel' : Nat} : ∀ (c : Nat) {r r' : Rd} {s t : Option (List Int)}, Written up k Hd H n F q back pl fin r r' → Mems xs ys s t →
    Agree (OrEnded (fun y => y.frames.length < c) fun x y => x.frames = y.frames ∧ Written up k Hd H n F q back pl fin x.r y.r ∧ Mems xs ys x.s y.s) (readLoop fp arraySrc fuel c r s)
      (readLoop fp arraySrc fuel' c r' t)
  | 0, r, r', s, t, h, hq => by unfold readLoop; exact Agree.ok (Or.inr ⟨rfl, h, hq⟩)
  | c + 1, r, r', s, t, h, hq => by
    obtain ⟨N, hN⟩ : ∃ N : Nat, n.toNat = N + 1 := ⟨n.toNat - 1, by omega⟩
    unfold readLoop
    simp only [h.dual, h.dual', Bool.false_eq_true, if_false, pure_eq_ok, ok_bind, h.chans, h.chans', hN]
    refine (readFrame_written hn hsym hback hlowb hxy N h hq (by omega)).bind ?_
    rintro ⟨vs, ok, r2, s2⟩ ⟨vs', ok', r2', t2⟩ (k1 | ⟨k1, k2, k3, k4⟩)
    · simp only at k1
      subst k1
      intro x y _ e2
      cases e2
      exact Or.inl (Nat.succ_pos _)
    · simp only at k1 k2 k3 k4
      subst k1 k2
      simp only
      cases ok with
      | false =>
        intro x y _ e2
        cases e2
        exact Or.inl (Nat.succ_pos _)
      | true =>
        simp only [if_true]
        refine (stepOn_written hn hsym hfp hstep k3).bind fun r3 r3' h3 => ?_
        refine (readLoop_written c h3 k4).bind ?_
        rintro x y (j1 | ⟨j1, j2, j3⟩)
        · exact Agree.ok (Or.inl (by simpa using j1))
        · exact Agree.ok (Or.inr ⟨by simp only; rw [j1], j2, j3⟩)

/-- Two players with the sound in memory, one of them with the loop written out. -/
structure WrittenOn (up : Bool) (k : Interp) (Hd H n F q back : Int) (pl : Int → Int) (fin : Int → Bool) (xs ys : List Int) (b b' : ArrayReader) : Prop where
  rd : Written up k Hd H n F q back pl fin b.rd b'.rd
  src : b.src = some xs
  src' : b'.src = some ys

include hn hxy hsym hback hlowb hfp hstep in
theorem WrittenOn.tick {fuel fuel' : Nat} {b b' : ArrayReader} (h : WrittenOn up k Hd H n F q back pl fin xs ys b b') (alloc : Nat → Bool) :
    Agree (OrEnded (fun y => y.2.rd.playing = false) fun x y => x.1 = y.1 ∧ WrittenOn up k Hd H n F q back pl fin xs ys x.2 y.2) (b.tick fp fuel alloc) (b'.tick fp fuel' alloc) := by
  have hneg : ¬ n < 0 := by omega
  have hone : ¬ n = -1 := by omega
  have hz : ¬ n = 0 := by omega
  unfold ArrayReader.tick ArrayReader.update update
  simp only [h.rd.chans, h.rd.chans', h.rd.playing, hneg, hone, if_false]
  cases hp : b'.rd.playing with
  | false => intro x y _ e2; cases e2; exact Or.inl hp
  | true =>
    simp only [Bool.not_true, Bool.false_eq_true, if_false]
    by_cases hg : ((List.range n.toNat).filter alloc).length = (List.range n.toNat).length
    · simp only [if_pos hg]
      refine Agree.bind (q := OrEnded (fun y : Fx × ArrayReader => y.1.event = some .close) fun x y => x.1 = y.1 ∧ WrittenOn up k Hd H n F q back pl fin xs ys x.2 y.2) ?_ ?_
      · refine Agree.bind (q := OrEnded (fun y => y.1.length < blockSamples) fun x y => x.1 = y.1 ∧ WrittenOn up k Hd H n F q back pl fin xs ys x.2 y.2) ?_ ?_
        · unfold ArrayReader.read Rd.read
          simp only [h.rd.playing, hp, Bool.not_true, Bool.false_eq_true, if_false, h.rd.chans, h.rd.chans', hneg, hz]
          refine (readLoop_written hn hsym hfp hback hlowb hstep hxy _ h.rd ⟨h.src, h.src'⟩).bind ?_
          rintro x y (h1 | ⟨h1, h2, h3⟩)
          · exact Agree.ok (Or.inl h1)
          · exact Agree.ok (Or.inr ⟨h1, h2, h3.1, h3.2⟩)
        · rintro ⟨f1, b1⟩ ⟨f2, b2⟩ (h1 | ⟨h1, h2⟩)
          · simp only at h1
            refine Agree.ok (Or.inl ?_)
            simp only [if_neg (Nat.ne_of_lt h1)]
          · simp only at h1 h2
            subst h1
            exact Agree.ok (Or.inr ⟨rfl, h2⟩)
      · rintro ⟨fx, b1⟩ ⟨fx', b1'⟩ (h1 | ⟨h1, h2⟩)
        · simp only at h1
          simp only [h1]
          intro x y _ e2
          cases e2
          exact Or.inl rfl
        · simp only at h1 h2
          subst h1
          simp only
          cases fx.event with
          | none => exact Agree.ok (Or.inr ⟨rfl, h2⟩)
          | some e =>
            cases e with
            | reload => exact Agree.ok (Or.inr ⟨rfl, h2⟩)
            | close => exact Agree.ok (Or.inl rfl)
    · simp only [if_neg hg, pure_eq_ok, ok_bind]
      exact Agree.ok (Or.inr ⟨rfl, h⟩)

theorem WrittenOn.speed {b b' : ArrayReader} (h : WrittenOn up k Hd H n F q back pl fin xs ys b b') (hn : 1 ≤ n) (hq : 0 ≤ q) {v : ℚ} (hv : 0 < v) (hv1 : v ≤ 1 - 1 / 2 ^ 53)
    (hin : up = false → b.rd.header < b.rd.pos1) :
    WrittenOn up k Hd H n F q back pl fin xs ys ⟨b.rd.setPlaybackRate (sgn up * v), b.src⟩ ⟨b'.rd.setPlaybackRate v, b'.src⟩ := by
  obtain ⟨h, hs, hs'⟩ := h
  have i1 : Inside b.rd (sgn up * v) := by
    cases hu : up with
    | true => exact Or.inr ⟨by simp only [sgn, if_true, Int.cast_one, one_mul]; exact le_of_lt hv, by rw [h.head]; exact h.low hu⟩
    | false => exact Or.inl (hin hu)
  have i2 : Inside b'.rd v := by
    obtain ⟨j, hqj, hj, -⟩ := h.place
    refine Or.inr ⟨le_of_lt hv, ?_⟩
    rw [h.head', hj]
    have := Int.mul_nonneg (show 0 ≤ j by omega) (show 0 ≤ n by omega)
    omega
  have hsg : b.rd.rate ≥ 0 ↔ (sgn up * v : ℚ) ≥ 0 := by
    rw [h.rate]
    have := h.fwd
    cases up with
    | true => simp only [sgn, if_true, Int.cast_one, one_mul]; exact ⟨fun _ => le_of_lt hv, fun _ => le_of_lt this⟩
    | false =>
      simp only [sgn, Bool.false_eq_true, if_false, Int.cast_neg, Int.cast_one, neg_mul, one_mul]
      exact ⟨fun hc => by linarith, fun hc => by linarith⟩
  rw [i1.only_rate, i2.only_rate]
  refine ⟨{ h with rate := rfl, fwd := hv, slow := hv1, fin := fun p => ?_, wrap := ?_ }, hs, hs'⟩
  · rw [← h.fin p]
    unfold Rd.atEnd
    simp only [hsg]
    rfl
  · rw [← h.wrap]
    simp only [hsg]
    rfl

end

end TVP
