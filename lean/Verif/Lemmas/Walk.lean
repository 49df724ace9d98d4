import Verif.Lemmas.Dual

/-!
# Single-head playback inside the material is always defined
-/

namespace TVP

variable {σ : Type} {S : Src σ} {I : σ → Prop} {P : Int → Prop} {val : Int → Int}

/-- The interpolation settings that fetch nothing outside the material. -/
def InterpOk (r : Rd) : Prop :=
  match r.interp with
  | .none => True
  | .linear => r.nch ≤ 8 ∧ -1 ≤ r.rate ∧ (r.loopType = .pingpong → r.rate ≤ 1)
  | .quadratic => r.nch ≤ 8 ∧ |r.rate| ≤ 1 ∧ r.loopType ≠ .pingpong ∧ (0 < r.rate → 0 ≤ r.rem) ∧ (r.rate < 0 → r.rem ≤ 0)

/-- `wide` sources serve three more frames on either side: then any rate will do. -/
def Reaches (wide : Bool) (r : Rd) : Prop := if wide then (r.interp ≠ .none → r.nch ≤ 8) else InterpOk r

/-- How many frames around the material the source has to serve. -/
def margin (wide : Bool) : Int := if wide then 3 else 0

/-- A single-head reader at frame `q` of a source of `T` frames (after the header).  `R` bounds the rate. -/
structure Walk (w : Bool) (r : Rd) (R T q : Int) : Prop where
  dual : r.dual = false
  cfOn : r.cfOn = false
  nch : 0 < r.nch
  rateR : |r.rate| ≤ R
  R30 : R ≤ 2 ^ 30
  flt : IsFloat 53 (-1074) r.rem
  frac : |r.rem| < 1
  pos : r.pos1 = r.header + q * r.nch
  header0 : 0 ≤ r.header
  w0 : 0 ≤ r.crossfade
  w1 : r.crossfade ≤ 1
  interp : Reaches w r
  fits : r.header + r.nch * (T + R + 5) ≤ 2147483647
  samples : r.loopType = .none → 0 ≤ r.fileSamples ∧ r.fileSamples ≤ T
  A0 : 0 ≤ r.loopStart
  AT : r.loopStart ≤ T
  /-- a loop is not empty, lies in the material, and leaves room for what the code steps back by -/
  loop : r.loopType ≠ .none → r.loopStart < r.loopFinish ∧ r.loopFinish ≤ T ∧
    ((r.loopType = .repeat ∧ 0 ≤ r.rate) ∨ r.loopStart ≤ r.loopFinish - r.nch)
  q0 : 0 ≤ r.rate → 0 ≤ q ∧ q ≤ T + R + 1
  q1 : r.rate < 0 → -R - 1 ≤ q ∧ q < T

theorem Walk.R0 {w : Bool} {r : Rd} {R T q : Int} (h : Walk w r R T q) : 0 ≤ R := by
  have : (0 : ℚ) ≤ R := le_trans (abs_nonneg _) h.rateR
  exact_mod_cast this

theorem Walk.posOf {w : Bool} {r : Rd} {R T q x : Int} (h : Walk w r R T q) (h0 : 0 ≤ x) (h1 : x ≤ T + R + 5) :
    r.posOf x = r.header + x * r.nch := by
  have f := frame_fits h.header0 (le_of_lt h.nch) h0 h1 h.fits
  exact posOf_eq ⟨by have := h.header0; omega, f.2⟩

/-- Away from the end the frame is in the material. -/
theorem Walk.inside {w : Bool} {r : Rd} {R T q : Int} (h : Walk w r R T q) (he : r.atEnd = false) : 0 ≤ q ∧ q < T := by
  have hR := h.R0
  unfold Rd.atEnd at he
  simp only [h.dual, Bool.false_eq_true, if_false, ge_iff_le] at he
  rcases le_or_gt 0 r.rate with h0 | h0
  · rw [if_pos h0] at he
    by_cases hl : r.loopType = .none
    · rw [if_pos hl] at he
      obtain ⟨s1, s2⟩ := h.samples hl
      simp only [decide_eq_false_iff_not] at he
      rw [h.posOf s1 (by omega), h.pos, mul_le_iff h.nch] at he
      have := h.q0 h0; omega
    · rw [if_neg hl] at he
      obtain ⟨s1, s2, _⟩ := h.loop hl
      have := h.A0
      simp only [decide_eq_false_iff_not] at he
      rw [h.posOf (by omega) (by omega), h.pos, mul_le_iff h.nch] at he
      have := h.q0 h0; omega
  · rw [if_neg (not_le.2 h0)] at he
    have hq := h.q1 h0
    by_cases hs : r.playStart = .sample
    · rw [if_pos hs] at he
      simp only [decide_eq_false_iff_not, not_lt] at he
      have e := mul_le_iff (a := 0) (b := q) h.nch r.header
      rw [h.pos] at he
      rw [zero_mul, add_zero] at e
      have := e.1 he; omega
    · rw [if_neg hs] at he
      simp only [decide_eq_false_iff_not, not_lt] at he
      have := h.AT
      rw [h.posOf h.A0 (by omega), h.pos, mul_le_iff h.nch] at he
      have := h.A0; omega

/-- At the end a looping reader goes on inside the material. -/
theorem Walk.wrap {w : Bool} {r : Rd} {R T q : Int} (h : Walk w r R T q) (hl : r.loopType ≠ .none) :
    ∃ r1 q1, wrapAround r = some r1 ∧ Walk w r1 R T q1 ∧ r1.atEnd = false := by
  have hR := h.R0
  have hn := h.nch
  have hA := h.A0
  obtain ⟨l1, l2, l3⟩ := h.loop hl
  have atF : ∀ {r' : Rd} {q' : Int}, Walk w r' R T q' → r'.loopType ≠ .none → 0 ≤ r'.rate → q' < r'.loopFinish → r'.atEnd = false := by
    intro r' q' k kl k0 kq
    obtain ⟨m1, m2, _⟩ := k.loop kl
    have := k.R0
    have := k.A0
    unfold Rd.atEnd
    simp only [k.dual, Bool.false_eq_true, if_false, ge_iff_le, if_pos k0, if_neg kl, decide_eq_false_iff_not]
    rw [k.posOf (by omega) (by omega), k.pos, mul_le_iff k.nch]
    omega
  have atR : ∀ {r' : Rd} {q' : Int}, Walk w r' R T q' → r'.rate < 0 → r'.loopStart ≤ q' → r'.atEnd = false := by
    intro r' q' k k0 kq
    have := k.R0
    have := k.A0
    have := k.AT
    unfold Rd.atEnd
    simp only [k.dual, Bool.false_eq_true, if_false, ge_iff_le, if_neg (not_le.2 k0)]
    split
    · simp only [decide_eq_false_iff_not, not_lt]
      have e := mul_le_iff (a := 0) (b := q') k.nch r'.header
      rw [zero_mul, add_zero] at e
      rw [k.pos]; exact e.2 (by omega)
    · simp only [decide_eq_false_iff_not, not_lt]
      rw [k.posOf k.A0 (by omega), k.pos, mul_le_iff k.nch]; omega
  cases ht : r.loopType with
  | none => exact absurd ht hl
  | «repeat» =>
    rcases le_or_gt 0 r.rate with h0 | h0
    · have hL : Walk w { r with cfOn := false, pos1 := r.posOf r.loopStart } R T r.loopStart :=
        ⟨h.dual, rfl, hn, h.rateR, h.R30, h.flt, h.frac, h.posOf hA (by omega), h.header0, h.w0, h.w1, h.interp, h.fits,
          h.samples, hA, h.AT, h.loop, fun _ => ⟨hA, by omega⟩, fun k => absurd h0 (not_le.2 k)⟩
      refine ⟨_, _, ?_, hL, atF hL hl h0 l1⟩
      unfold wrapAround
      simp only [ht, ge_iff_le, if_pos h0]; rfl
    · have hb : r.loopStart ≤ r.loopFinish - r.nch := by
        rcases l3 with ⟨_, k⟩ | k
        · exact absurd k (not_le.2 h0)
        · exact k
      have hL : Walk w { r with cfOn := false, pos1 := r.posOf (r.loopFinish - r.nch) } R T (r.loopFinish - r.nch) :=
        ⟨h.dual, rfl, hn, h.rateR, h.R30, h.flt, h.frac, h.posOf (by omega) (by omega), h.header0, h.w0, h.w1, h.interp, h.fits,
          h.samples, hA, h.AT, h.loop, fun k => absurd k (not_le.2 h0), fun _ => ⟨by omega, by omega⟩⟩
      refine ⟨_, _, ?_, hL, atR hL h0 hb⟩
      unfold wrapAround
      simp only [ht, ge_iff_le, if_neg (not_le.2 h0)]; rfl
  | pingpong =>
    have hb : r.loopStart ≤ r.loopFinish - r.nch := by
      rcases l3 with ⟨k, _⟩ | k
      · rw [ht] at k; cases k
      · exact k
    have hi : ∀ p : Int, Reaches w { r with cfOn := false, pos1 := p, rate := -r.rate } := by
      intro p
      have k := h.interp
      unfold Reaches at k ⊢
      cases w
      case true => exact k
      simp only [Bool.false_eq_true, if_false] at k ⊢
      unfold InterpOk at k ⊢
      simp only
      cases hi : r.interp with
      | none => trivial
      | linear =>
        simp only [hi] at k ⊢
        have := k.2.2 ht
        exact ⟨k.1, by linarith, fun _ => by linarith [k.2.1]⟩
      | quadratic =>
        simp only [hi] at k
        exact absurd ht k.2.2.1
    have hlp : r.loopType ≠ .none → r.loopStart < r.loopFinish ∧ r.loopFinish ≤ T ∧
        ((r.loopType = .repeat ∧ 0 ≤ -r.rate) ∨ r.loopStart ≤ r.loopFinish - r.nch) := fun _ => ⟨l1, l2, Or.inr hb⟩
    rcases le_or_gt 0 r.rate with h0 | h0
    · have hL : Walk w { r with cfOn := false, pos1 := r.posOf (r.loopFinish - r.nch), rate := -r.rate } R T (r.loopFinish - r.nch) :=
        ⟨h.dual, rfl, hn, by simp only [abs_neg]; exact h.rateR, h.R30, h.flt, h.frac, h.posOf (by omega) (by omega), h.header0,
          h.w0, h.w1, hi _, h.fits, h.samples, hA, h.AT, hlp, fun _ => ⟨by omega, by omega⟩, fun _ => ⟨by omega, by omega⟩⟩
      refine ⟨_, _, ?_, hL, ?_⟩
      · unfold wrapAround
        simp only [ht, ge_iff_le, if_pos h0]; rfl
      · rcases le_or_gt 0 (-r.rate) with h2 | h2
        · exact atF hL hl h2 (by simp only; omega)
        · exact atR hL h2 hb
    · have hx : ∃ q', 0 ≤ q' ∧ q' < r.loopFinish ∧
          (if r.playStart = .sample then r.header else r.posOf r.loopStart) = r.header + q' * r.nch := by
        split
        · exact ⟨0, le_refl _, by omega, by ring⟩
        · exact ⟨r.loopStart, hA, l1, h.posOf hA (by omega)⟩
      obtain ⟨q', x1, x2, x3⟩ := hx
      have hL : Walk w { r with cfOn := false, pos1 := (if r.playStart = .sample then r.header else r.posOf r.loopStart), rate := -r.rate } R T q' :=
        ⟨h.dual, rfl, hn, by simp only [abs_neg]; exact h.rateR, h.R30, h.flt, h.frac, x3, h.header0,
          h.w0, h.w1, hi _, h.fits, h.samples, hA, h.AT, hlp, fun _ => ⟨x1, by omega⟩, fun k => absurd k (by simp only; linarith)⟩
      refine ⟨_, _, ?_, hL, atF hL hl (by simp only; linarith) x2⟩
      unfold wrapAround
      simp only [ht, ge_iff_le, if_neg (not_le.2 h0)]; rfl

/-- At most one frame is pushed for cubic interpolation at rates up to one. -/
theorem quad_one (fp : Fp) {rem rate : ℚ} (hr : |rate| ≤ 1) (hf : |rem| < 1) (h0 : 0 < rate → 0 ≤ rem) (h1 : rate < 0 → rem ≤ 0) :
    (0 < rate → fp.d.rnd (rem - rate) < 0 → min (-⌊fp.d.rnd (rem - rate)⌋) 4 ≤ (1 : Nat)) ∧
    (rate < 0 → fp.d.rnd (rem - rate) > 0 → min ⌈fp.d.rnd (rem - rate)⌉ 4 ≤ (1 : Nat)) := by
  obtain ⟨r1, r2⟩ := abs_le.1 hr
  have e1 : fp.d.rnd 1 = 1 := by simpa using fp.d.exact_int (m := 1) (by norm_num) (by norm_num) (by norm_num)
  have e2 : fp.d.rnd (-1) = -1 := by simpa using fp.d.exact_int (m := -1) (by norm_num) (by norm_num) (by norm_num)
  constructor
  · intro k _
    have m := fp.d.mono (show (-1 : ℚ) ≤ rem - rate by linarith [h0 k])
    rw [e2] at m
    have : -1 ≤ ⌊fp.d.rnd (rem - rate)⌋ := by rw [Int.le_floor]; push_cast; exact m
    push_cast; omega
  · intro k _
    have m := fp.d.mono (show rem - rate ≤ (1 : ℚ) by linarith [h1 k])
    rw [e1] at m
    have : ⌈fp.d.rnd (rem - rate)⌉ ≤ 1 := by rw [Int.ceil_le]; push_cast; exact m
    push_cast; omega

theorem Walk.frameOk (fp : Fp) {w : Bool} {r : Rd} {R T q : Int} (h : Walk w r R T q) (he : r.atEnd = false)
    (hP : ∀ i, r.header - margin w * r.nch ≤ i → i < r.header + (T + margin w) * r.nch → P i) : FrameOk fp P r := by
  have hR := h.R0
  obtain ⟨q0, q1⟩ := h.inside he
  have hm : 0 ≤ margin w ∧ margin w ≤ 3 := by unfold margin; split <;> omega
  have hP' : ∀ i, r.header + (-margin w) * r.nch ≤ i → i < r.header + (T + margin w) * r.nch → P i := by
    intro i h1 h2; exact hP i (by rw [neg_mul] at h1; omega) h2
  have can : ∀ (off : Int) (ch : Nat), -margin w ≤ q + off → q + off < T + margin w → (ch : Int) < r.nch →
      Can P r.nch r.pos1 off ch := by
    intro off ch o1 o2 hc
    rw [h.pos]
    exact can_of h.header0 h.nch h.fits o1 o2 (by omega) (by omega) hP' hc
  have hsmall : |r.rate| ≤ 2 ^ 30 := by
    have := h.rateR
    have h30 : (R : ℚ) ≤ ((2 ^ 30 : Int) : ℚ) := by exact_mod_cast h.R30
    push_cast at h30; linarith
  have hi := h.interp
  unfold Reaches at hi
  have hone := fun (ch : Nat) hc => can 0 ch (by omega) (by omega) hc
  cases w with
  | true =>
    simp only [if_true] at hi
    have m3 : margin true = 3 := rfl
    refine ⟨he, h.frac, hsmall, h.w0, h.w1, hi, hone, fun x => (by rw [h.dual] at x; cases x),
      fun _ _ _ _ _ ch hc => can (-1) ch (by omega) (by omega) hc, fun _ _ _ ch hc => can 1 ch (by omega) (by omega) hc,
      fun _ => ⟨4, fun _ _ => by omega, fun _ _ => by omega, fun ch hc => ⟨fun _ j hj => can _ ch (by omega) (by omega) hc,
        fun _ j hj => can _ ch (by omega) (by omega) hc, fun x => (by rw [h.dual] at x; cases x)⟩⟩⟩
  | false =>
    simp only [Bool.false_eq_true, if_false] at hi
    have m0 : margin false = 0 := rfl
    unfold InterpOk at hi
    refine ⟨he, h.frac, hsmall, h.w0, h.w1, ?_, hone,
      fun x => (by rw [h.dual] at x; cases x), ?_, ?_, ?_⟩
    · intro k
      cases hx : r.interp with
      | none => exact absurd hx k
      | linear => simp only [hx] at hi; exact hi.1
      | quadratic => simp only [hx] at hi; exact hi.1
    · intro _ _ _ _ k ch hc
      refine can (-1) ch ?_ (by omega) hc
      rw [h.pos] at k
      by_contra hq
      have hq0 : q = 0 := by omega
      rw [hq0] at k
      have := h.header0
      have := h.nch
      omega
    · intro hx _ k
      simp only [hx] at hi
      linarith [hi.2.1]
    · intro hx
      simp only [hx] at hi
      obtain ⟨_, i1, _, i2, i3⟩ := hi
      obtain ⟨k1, k2⟩ := quad_one fp i1 h.frac i2 i3
      refine ⟨1, k1, k2, fun ch hc => ⟨fun _ j hj => ?_, fun _ j hj => ?_, fun x => (by rw [h.dual] at x; cases x)⟩⟩
      · exact can _ ch (by omega) (by omega) hc
      · exact can _ ch (by omega) (by omega) hc

/-- The fraction keeps the sign of the rate. -/
theorem rem_sign (fp : Fp) {rem rate : ℚ} (h0 : 0 ≤ rem) (h1 : 0 ≤ rate) :
    0 ≤ fp.d.rnd (fp.d.rnd (rem + rate) - trunc (fp.d.rnd (rem + rate))) := by
  have a := fp.d.nonneg (show 0 ≤ rem + rate by linarith)
  apply fp.d.nonneg
  rw [trunc_of_nonneg a]
  linarith [Int.floor_le (fp.d.rnd (rem + rate))]

theorem rem_sign' (fp : Fp) {rem rate : ℚ} (h0 : rem ≤ 0) (h1 : rate ≤ 0) :
    fp.d.rnd (fp.d.rnd (rem + rate) - trunc (fp.d.rnd (rem + rate))) ≤ 0 := by
  have a := fp.d.nonpos (show rem + rate ≤ 0 by linarith)
  apply fp.d.nonpos
  rw [trunc_of_nonpos a]
  linarith [Int.le_ceil (fp.d.rnd (rem + rate))]

theorem Walk.step (fp : Fp) (hfp : Representable fp) {w : Bool} {r : Rd} {R T q : Int} (h : Walk w r R T q) (he : r.atEnd = false) :
    ∃ r2 q2, stepOn fp r = .ok r2 ∧ Walk w r2 R T q2 ∧ SameConf r r2 := by
  have hR := h.R0
  have hn := h.nch
  obtain ⟨i0, i1⟩ := h.inside he
  obtain ⟨δ, f, hst, hd, h0, h1, hf, hf1⟩ := stepOn_any fp hfp h.rateR h.R30 h.flt h.frac h.cfOn
    (by
      intro δ hd _ _
      obtain ⟨d1, d2⟩ := abs_le.1 hd
      have f1 := frame_fits' h.header0 (le_of_lt hn) (show -(T + R + 5) ≤ δ by omega)
        (show δ ≤ T + R + 5 by omega) h.fits
      have f2 := frame_fits' h.header0 (le_of_lt hn) (show -(T + R + 5) ≤ q + δ by omega)
        (show q + δ ≤ T + R + 5 by omega) h.fits
      have e : r.header + (q + δ) * r.nch = r.pos1 + δ * r.nch := by rw [h.pos]; ring
      have hH := h.header0
      exact ⟨by unfold InI32; omega, by rw [← e]; unfold InI32; omega⟩)
  obtain ⟨d1, d2⟩ := abs_le.1 hd
  have hfe : f = fp.d.rnd (fp.d.rnd (r.rem + r.rate) - trunc (fp.d.rnd (r.rem + r.rate))) := by
    obtain ⟨p2, hz⟩ := stepOn_inv hst
    exact (congrArg Rd.rem hz : _)
  refine ⟨_, q + δ, hst, ?_, ⟨rfl, rfl, rfl, rfl, rfl, rfl, rfl, rfl, rfl, rfl, rfl, rfl, rfl, rfl⟩⟩
  refine ⟨h.dual, h.cfOn, hn, h.rateR, h.R30, hf, hf1, by simp only; rw [h.pos]; ring, h.header0, h.w0, h.w1, ?_, h.fits, h.samples,
    h.A0, h.AT, h.loop, fun k => by have := h0 k; omega, fun k => by have := h1 (le_of_lt k); omega⟩
  have hi := h.interp
  unfold Reaches at hi ⊢
  cases w
  case true => exact hi
  simp only [Bool.false_eq_true, if_false] at hi ⊢
  unfold InterpOk at hi ⊢
  simp only
  cases hx : r.interp with
  | none => trivial
  | linear => simp only [hx] at hi ⊢; exact hi
  | quadratic =>
    simp only [hx] at hi ⊢
    obtain ⟨j1, j2, j3, j4, j5⟩ := hi
    exact ⟨j1, j2, j3, fun k => by rw [hfe]; exact rem_sign fp (j4 k) (le_of_lt k),
      fun k => by rw [hfe]; exact rem_sign' fp (j5 k) (le_of_lt k)⟩

theorem Walk.same {w : Bool} {r r' : Rd} {R T q : Int} (h : Walk w r R T q) (hb : SameBut r r') : Walk w r' R T q := by
  obtain ⟨y1, y2, y3, y4, y5, y6, y7, y8, y9, y10, y11, y12, y13, y14, y15, y16, y17, y18, y19⟩ := h
  rw [hb]
  exact ⟨y1, y2, y3, y4, y5, y6, y7, y8, y9, y10, y11, y12, y13, y14, y15, y16, y17, y18, y19⟩

/-- Single-head playback: always defined, 16-bit samples, full if looping. -/
theorem walk_total (fp : Fp) (hfp : Representable fp) (hS : SrcOk S I P) (fuel : Nat)
    {w : Bool} {R T : Int} : ∀ (n : Nat) (r : Rd) (q : Int) (s : σ), Walk w r R T q → PtsOk r → I s →
      (∀ i, r.header - margin w * r.nch ≤ i → i < r.header + (T + margin w) * r.nch → P i) →
      ∃ (fs : List (List Int)) (r' : Rd) (q' : Int) (s' : σ), readLoop fp S (fuel + 2) n r s = .ok ⟨fs, [], r', s'⟩ ∧
        fs.length ≤ n ∧ (r.loopType ≠ .none → fs.length = n) ∧
        (∀ f ∈ fs, (f.length : Int) = r.nch ∧ ∀ v ∈ f, InI16 v) ∧ Walk w r' R T q' ∧ PtsOk r' ∧ I s' ∧ SameConf r r'
  | 0, r, q, s, h, hp, hs, _ => ⟨[], r, q, s, rfl, le_refl _, fun _ => rfl, by simp, h, hp, hs, SameConf.refl r⟩
  | n + 1, r, q, s, h, hp, hs, hP => by
    have hk : r.nch.toNat = (r.nch.toNat - 1) + 1 := by have := h.nch; omega
    by_cases hend : r.atEnd = true ∧ r.loopType = .none
    · -- the material is over
      obtain ⟨he, hl⟩ := hend
      refine ⟨[], r, q, s, ?_, by simp, fun k => absurd hl k, by simp, h, hp, hs, SameConf.refl r⟩
      have hf : readFrame fp S (fuel + 2) r.nch.toNat 0 r s = .ok ([], false, r, s) := by
        rw [hk, readFrame, readChan_atEnd he, wrapAround_none.2 hl]
        have : { r with cfOn := false } = r := by rw [← h.cfOn]
        simp only [this]; rfl
      rw [readLoop_succ]
      simp only [h.dual, Bool.false_eq_true, if_false, ok_bind, hf]
    · -- settle
      obtain ⟨r1, q1, hset, hw1, hc1, hp1⟩ : ∃ r1 q1, Settles r r1 ∧ Walk w r1 R T q1 ∧ SameConf r r1 ∧ PtsOk r1 := by
        cases he : r.atEnd
        · exact ⟨r, q, Or.inl ⟨he, rfl⟩, h, SameConf.refl r, hp⟩
        · obtain ⟨r1, q1, w1, w2, w3⟩ := h.wrap (fun k => hend ⟨he, k⟩)
          refine ⟨r1, q1, Or.inr ⟨he, w1, w3⟩, w2, wrapAround_conf w1, ?_⟩
          have : r1.pts = r.pts := by
            unfold wrapAround at w1
            simp only at w1
            split at w1 <;> cases w1 <;> rfl
          intro c; rw [this]; exact hp c
      have he1 := hset.atEnd
      obtain ⟨vs, r2, s2, b1, b2, b3, b4, b5, b6⟩ := readFrame_ok fp hS (fuel + 1) r1.nch.toNat 0 r1 s hs hp1
        (hw1.frameOk fp he1 (by rw [hc1.header, hc1.nch]; exact hP)) (by have := hw1.nch; omega)
      have hf : readFrame fp S (fuel + 2) r.nch.toNat 0 r s = .ok (vs, true, r2, s2) := by
        rw [← b1, hc1.nch, hk]
        rcases hset with ⟨_, rfl⟩ | ⟨hx, hw, _⟩
        · rfl
        · have key : readChan fp S (fuel + 2) r s 0 = readChan fp S (fuel + 2) r1 s 0 := by
            rw [readChan_atEnd hx, hw, readChan_settled he1]
            exact readChan_settled he1
          conv_lhs => rw [readFrame, key]
          conv_rhs => rw [readFrame]
      obtain ⟨r3, q3, d1, d2, d3⟩ := (hw1.same b5).step fp hfp (by rw [b5.atEnd]; exact he1)
      have c3 := (hc1.trans b5.conf).trans d3
      have hp3 : PtsOk r3 := by
        obtain ⟨pz, hz⟩ := stepOn_inv d1
        intro c; rw [hz]; exact b4 c
      obtain ⟨fs, r', q', s', e1, e2, e3, e4, e5, e6, e7, e8⟩ := walk_total fp hfp hS fuel n r3 q3 s2 d2 hp3 b6
        (by rw [c3.header, c3.nch]; exact hP)
      refine ⟨vs :: fs, r', q', s', ?_, by simp [e2], ?_, ?_, e5, e6, e7, c3.trans e8⟩
      · rw [readLoop_succ]
        simp only [h.dual, Bool.false_eq_true, if_false, ok_bind, hf, if_true, d1, e1]
      · intro k
        simp [e3 (by rw [c3.loopType]; exact k)]
      · intro f hf
        rcases List.mem_cons.1 hf with rfl | hf
        · exact ⟨by rw [b2, Int.toNat_of_nonneg (le_of_lt hw1.nch), hc1.nch], b3⟩
        · rw [← c3.nch]; exact e4 f hf

end TVP
