import Verif.Lemmas.FadeRead
import Verif.Lemmas.GlideInterp

/-!
# A cross-faded loop going forwards at any steady rate
-/

namespace TVP
open Spec

/-- Loop points, fade and rate that leave room for everything. -/
structure FadeNum (R A E D H nch : Int) : Prop where
  H0 : 0 ≤ H
  n0 : 0 < nch
  R1 : 1 ≤ R
  A0 : 0 ≤ A
  D1 : 1 ≤ D
  long : 2 * D + R + 1 ≤ E - A
  fits : H + nch * (E + 3 * R) ≤ 2147483647

/-- A cross-faded, repeated loop, going forwards at a rate that is a multiple of `2^-p` and at most `R`. -/
structure FadeFwd (p : Nat) (R A E D H nch : Int) (r : Rd) : Prop where
  dual : r.dual = true
  interp : r.interp = .none
  loop : r.loopType = .repeat
  header : r.header = H
  chans : r.nch = nch
  ls : r.loopStart = A
  lf : r.loopFinish = E
  cd : r.cfDur = D
  rate0 : 0 < r.rate
  rateR : r.rate ≤ R
  grid : GridRate p r.rate
  rgrid : OnGrid p r.rem
  frac : |r.rem| < 1

/-- Which heads are heard, and at which frames. -/
inductive Spots where
  | one (q : Int)
  | two (x y : Int)

/-- Where the heads can be. -/
def Spots.Wf (R A E D : Int) : Spots → Prop
  | .one q => 0 ≤ q ∧ q < E - D
  | .two x y => A ≤ y ∧ y < A + D ∧ y - A ≤ x - (E - D) ∧ x - (E - D) ≤ y - A + (R - 1)

/-- The heads one frame later. -/
inductive Spots.Next (R A E D : Int) : Spots → Spots → Prop
  | on {q δ : Int} : 0 ≤ δ → δ ≤ R → q + δ < E - D → Next R A E D (.one q) (.one (q + δ))
  | enter {q δ : Int} : 0 ≤ δ → δ ≤ R → E - D ≤ q + δ → Next R A E D (.one q) (.two (q + δ) A)
  | fade {x y δ : Int} : 0 ≤ δ → δ ≤ R → y + δ < A + D → Next R A E D (.two x y) (.two (x + δ) (y + δ))
  | leave {x y δ : Int} : 0 ≤ δ → δ ≤ R → A + D ≤ y + δ → Next R A E D (.two x y) (.one (y + δ))

/-- The sample indices heard. -/
def Spots.Reads (H nch : Int) (i : Int) : Spots → Prop
  | .one q => H + q * nch ≤ i ∧ i < H + q * nch + nch
  | .two x y => (H + x * nch ≤ i ∧ i < H + x * nch + nch) ∨ (H + y * nch ≤ i ∧ i < H + y * nch + nch)

/-- The first head. -/
def Spots.front : Spots → Int
  | .one q => q
  | .two x _ => x

/-- The heads of a reader, before it looks where they are. -/
def SpotsOf (R A E D H nch : Int) (r : Rd) : Spots → Prop
  | .one q => (r.cfOn = false ∧ r.pos1 = H + q * nch) ∨
      (r.cfOn = true ∧ r.pos2 = H + q * nch ∧ A + D ≤ q ∧ q ≤ A + D + R ∧ ∃ x, r.pos1 = H + x * nch ∧ q - A ≤ x - (E - D) ∧ x - (E - D) ≤ q - A + (R - 1))
  | .two x y => (r.cfOn = false ∧ r.pos1 = H + x * nch ∧ E - D ≤ x ∧ y = A) ∨ (r.cfOn = true ∧ r.pos1 = H + x * nch ∧ r.pos2 = H + y * nch)

/-- The heads of a reader as they are heard. -/
def SpotsAt (A E D R H nch : Int) (r : Rd) : Spots → Prop
  | .one q => (r.cfOn = false ∧ r.pos1 = H + q * nch) ∨
      (r.cfOn = true ∧ r.crossfade = 0 ∧ r.pos2 = H + q * nch ∧ q = A + D ∧ ∃ x, r.pos1 = H + x * nch ∧ q - A ≤ x - (E - D) ∧ x - (E - D) ≤ q - A + (R - 1))
  | .two x y => r.cfOn = true ∧ r.pos1 = H + x * nch ∧ r.pos2 = H + y * nch ∧ r.crossfade ≠ 0 ∧ 0 ≤ r.crossfade ∧ r.crossfade ≤ 1

variable {p : Nat} {R A E D H nch : Int}

theorem FadeNum.inI32 (n : FadeNum R A E D H nch) {q : Int} (h0 : 0 ≤ q) (h1 : q ≤ E + 3 * R) : InI32 (H + q * nch) := by
  have f := frame_fits n.H0 (le_of_lt n.n0) h0 h1 n.fits
  have := n.H0
  exact ⟨by omega, f.2⟩

theorem FadeFwd.posOf {r : Rd} (n : FadeNum R A E D H nch) (h : FadeFwd p R A E D H nch r) {x : Int} (h0 : 0 ≤ x) (h1 : x ≤ E + 3 * R) :
    r.posOf x = H + x * nch := by
  have := n.inI32 h0 h1
  rw [posOf_eq] <;> rw [h.header, h.chans]
  exact this

theorem FadeFwd.s2s {r : Rd} (n : FadeNum R A E D H nch) (h : FadeFwd p R A E D H nch r) {x : Int} (h0 : 0 ≤ x) (h1 : x ≤ E + 3 * R) :
    r.s2s x = H + x * nch := by
  have f := frame_fits n.H0 (le_of_lt n.n0) h0 h1 n.fits
  have := n.H0
  unfold Rd.s2s
  rw [h.header, h.chans]
  exact u32_of_in ⟨by omega, by omega⟩

theorem FadeFwd.same {r r' : Rd} (h : FadeFwd p R A E D H nch r) (hc : SameConf r r') (h1 : r'.rate = r.rate) (h2 : r'.rem = r.rem) :
    FadeFwd p R A E D H nch r' :=
  ⟨hc.dual.trans h.dual, hc.interp.trans h.interp, hc.loopType.trans h.loop, hc.header.trans h.header, hc.nch.trans h.chans, hc.loopStart.trans h.ls,
    hc.loopFinish.trans h.lf, hc.cfDur.trans h.cd, by rw [h1]; exact h.rate0, by rw [h1]; exact h.rateR, by rw [h1]; exact h.grid,
    by rw [h2]; exact h.rgrid, by rw [h2]; exact h.frac⟩

theorem FadeFwd.isUp {r : Rd} (h : FadeFwd p R A E D H nch r) : r.up = true := by
  unfold Rd.up
  rw [h.loop, decide_eq_true h.rate0]; rfl

/-- The weight does not vanish before the end of the fade. -/
theorem weightOf_pos (fp : Fp) {t : Int} (hD : 1 ≤ D) (hD2 : D ≤ 2 ^ 31) (h1 : t < D) : weightOf fp D t ≠ 0 := by
  have hDq : (0 : ℚ) < D := by exact_mod_cast (show 0 < D by omega)
  have hD2q : (D : ℚ) ≤ 2 ^ 31 := by exact_mod_cast hD2
  have e1 : fp.d.rnd (1 - 1 / 2 ^ 31 : ℚ) = 1 - 1 / 2 ^ 31 := by
    have := fp.d.exact _ (Rounding.isFloat_of (p := 53) (emin := -1074) (by norm_num) (m := 2 ^ 31 - 1) (e := -31) (by norm_num) (by norm_num))
    norm_num at this ⊢
    exact this
  have e2 : fp.d.rnd (1 / 2 ^ 31 : ℚ) = 1 / 2 ^ 31 := by
    have := fp.d.exact _ (Rounding.isFloat_of (p := 53) (emin := -1074) (by norm_num) (m := 1) (e := -31) (by norm_num) (by norm_num))
    norm_num at this ⊢
    exact this
  have x1 : (t : ℚ) / D ≤ 1 - 1 / 2 ^ 31 := by
    have a1 : (t : ℚ) ≤ D - 1 := by exact_mod_cast (show t ≤ D - 1 by omega)
    rw [div_le_iff₀ hDq]
    have : (1 - 1 / 2 ^ 31 : ℚ) * D = D - D / 2 ^ 31 := by ring
    rw [this]
    have : (D : ℚ) / 2 ^ 31 ≤ 1 := by rw [div_le_one (by norm_num)]; exact hD2q
    linarith
  have y1 := fp.d.mono x1
  rw [e1] at y1
  have z1 := fp.d.mono (show (1 / 2 ^ 31 : ℚ) ≤ 1 - fp.d.rnd ((t : ℚ) / D) by linarith)
  rw [e2] at z1
  unfold weightOf
  intro hz
  rw [hz] at z1
  norm_num at z1

theorem FadeFwd.weight (fp : Fp) {r : Rd} (n : FadeNum R A E D H nch) (h : FadeFwd p R A E D H nch r) {y : Int} (h0 : A ≤ y) (h1 : y ≤ A + D)
    (hp : r.pos2 = H + y * nch) : fadeWeight fp r (r.pos2 - r.s2s r.loopStart) = .ok (weightOf fp D (y - A)) := by
  have hA := n.A0
  have hD := n.D1
  have hL := n.long
  have hn := n.n0
  have hR := n.R1
  have f1 := frame_fits n.H0 (le_of_lt hn) (show 0 ≤ y - A by omega) (show y - A ≤ E + 3 * R by omega) n.fits
  have f2 := frame_fits n.H0 (le_of_lt hn) (show (0 : Int) ≤ 1 by omega) (show 1 ≤ E + 3 * R by omega) n.fits
  have hH := n.H0
  have hd : r.pos2 - r.s2s r.loopStart = (y - A) * nch := by
    rw [hp, h.ls, h.s2s n (by omega) (by omega)]; ring
  have hle := mul_le_mul_of_nonneg_right (show y - A ≤ D by omega) (le_of_lt hn)
  rw [hd]
  obtain ⟨w, k1, _, _, k4⟩ := fadeWeight_range fp (r := r) (d := (y - A) * nch) (by rw [h.chans]; exact hn) (by rw [h.chans]; omega) (by rw [h.cd]; exact hD)
    f1.1 (by rw [h.cd, h.chans]; exact hle) (by omega)
  rw [k1, k4, h.cd, h.chans, Int.mul_ediv_cancel _ (by omega)]
  rfl

theorem FadeFwd.fading (fp : Fp) {r : Rd} (n : FadeNum R A E D H nch) (h : FadeFwd p R A E D H nch r) {y : Int} (h0 : A ≤ y) (h1 : y ≤ A + D)
    (hp : r.pos2 = H + y * nch) (hc : r.cfOn = true) : fadeGo fp r = .ok { r with crossfade := weightOf fp D (y - A) } := by
  have hA := n.A0
  have hD := n.D1
  have hL := n.long
  have hR := n.R1
  unfold fadeGo
  rw [h.isUp, if_pos rfl, if_neg (by
    rw [h.ls, h.cd, h.posOf n (by omega) (by omega), hp, gt_iff_lt, not_lt]
    exact (mul_le_iff n.n0 _).2 h1), h.weight fp n h0 h1 hp]
  simp only [ok_bind, pure_eq_ok, hc]
  rfl

theorem FadeFwd.gone (fp : Fp) {r : Rd} (n : FadeNum R A E D H nch) (h : FadeFwd p R A E D H nch r) {y : Int} (h1 : A + D < y)
    (hp : r.pos2 = H + y * nch) : fadeGo fp r = .ok { r with pos1 := r.pos2, cfOn := false } := by
  have hA := n.A0
  have hD := n.D1
  have hL := n.long
  have hR := n.R1
  unfold fadeGo
  rw [h.isUp, if_pos rfl, if_pos (by
    rw [h.ls, h.cd, h.posOf n (by omega) (by omega), hp]
    exact (mul_lt_iff n.n0 _).2 h1)]
  simp only [ok_bind, pure_eq_ok, h.loop]
  rfl

theorem FadeFwd.notYet {r : Rd} (n : FadeNum R A E D H nch) (h : FadeFwd p R A E D H nch r) {q : Int} (h1 : q < E - D) (hp : r.pos1 = H + q * nch) :
    fadeEnter r = r := by
  have hA := n.A0
  have hD := n.D1
  have hL := n.long
  have hR := n.R1
  unfold fadeEnter
  rw [if_pos (le_of_lt h.rate0), if_neg]
  rw [h.lf, h.cd, h.posOf n (by omega) (by omega), hp]
  simp only [Bool.and_eq_true, decide_eq_true_eq, not_and]
  intro _
  exact not_le.2 ((mul_lt_iff n.n0 _).2 h1)

theorem FadeFwd.begins {r : Rd} (n : FadeNum R A E D H nch) (h : FadeFwd p R A E D H nch r) {q : Int} (h1 : E - D ≤ q) (hp : r.pos1 = H + q * nch)
    (hc : r.cfOn = false) : fadeEnter r = { r with pos2 := H + A * nch, cfOn := true } := by
  have hA := n.A0
  have hD := n.D1
  have hL := n.long
  have hR := n.R1
  have e := h.posOf n (x := A) hA (by omega)
  unfold fadeEnter
  rw [if_pos (le_of_lt h.rate0), if_pos]
  · rw [h.loop, h.ls]; simp [e]
  · rw [h.lf, h.cd, h.posOf n (by omega) (by omega), hp, hc]
    simp only [Bool.not_false, Bool.true_and, decide_eq_true_eq, ge_iff_le]
    exact (mul_le_iff n.n0 _).2 h1

theorem fadeEnter_on {r : Rd} (hc : r.cfOn = true) : fadeEnter r = r := by
  unfold fadeEnter; simp [hc]

/-- The heads, once looked at. -/
theorem SpotsOf.update (fp : Fp) {r : Rd} (n : FadeNum R A E D H nch) (hD2 : D ≤ 2 ^ 31) (h : FadeFwd p R A E D H nch r) {ph : Spots} (hw : ph.Wf R A E D)
    (ho : SpotsOf R A E D H nch r ph) :
    ∃ r1, updateCrossfade fp r = .ok r1 ∧ FadeFwd p R A E D H nch r1 ∧ SameConf r r1 ∧ r1.rate = r.rate ∧ SpotsAt A E D R H nch r1 ph := by
  have hA := n.A0
  have hD := n.D1
  have hL := n.long
  have hR := n.R1
  rw [updateCrossfade_eq]
  cases ph with
  | one q =>
    obtain ⟨w0, w1⟩ := hw
    rcases ho with ⟨hc, hp⟩ | ⟨hc, hp, h1, h2, x, hx⟩
    · refine ⟨r, ?_, h, SameConf.refl r, rfl, Or.inl ⟨hc, hp⟩⟩
      rw [h.notYet n w1 hp, hc]; rfl
    · rw [fadeEnter_on hc, hc, if_pos rfl]
      rcases lt_or_eq_of_le h1 with h1 | h1
      · refine ⟨_, h.gone fp n h1 hp, h.same ⟨rfl, rfl, rfl, rfl, rfl, rfl, rfl, rfl, rfl, rfl, rfl, rfl, rfl, rfl⟩ rfl rfl,
          ⟨rfl, rfl, rfl, rfl, rfl, rfl, rfl, rfl, rfl, rfl, rfl, rfl, rfl, rfl⟩, rfl, Or.inl ⟨rfl, hp⟩⟩
      · refine ⟨_, h.fading fp n (by omega) (by omega) hp hc, h.same ⟨rfl, rfl, rfl, rfl, rfl, rfl, rfl, rfl, rfl, rfl, rfl, rfl, rfl, rfl⟩ rfl rfl,
          ⟨rfl, rfl, rfl, rfl, rfl, rfl, rfl, rfl, rfl, rfl, rfl, rfl, rfl, rfl⟩, rfl, Or.inr ⟨hc, ?_, hp, h1.symm, x, hx⟩⟩
        have e : q - A = D := by omega
        simp only [e]
        exact weightOf_end fp hD
  | two x y =>
    obtain ⟨w0, w1, w2, w3⟩ := hw
    have hpos := weightOf_pos fp hD hD2 (show y - A < D by omega)
    have hran := weightOf_near fp hD (show 0 ≤ y - A by omega) (show y - A ≤ D by omega)
    rcases ho with ⟨hc, hp, h1, rfl⟩ | ⟨hc, hp, hp2⟩
    · rw [h.begins n h1 hp hc, if_pos rfl]
      have h' : FadeFwd p R y E D H nch { r with pos2 := H + y * nch, cfOn := true } :=
        h.same ⟨rfl, rfl, rfl, rfl, rfl, rfl, rfl, rfl, rfl, rfl, rfl, rfl, rfl, rfl⟩ rfl rfl
      exact ⟨_, h'.fading fp n (le_refl _) (by omega) rfl rfl, h.same ⟨rfl, rfl, rfl, rfl, rfl, rfl, rfl, rfl, rfl, rfl, rfl, rfl, rfl, rfl⟩ rfl rfl,
          ⟨rfl, rfl, rfl, rfl, rfl, rfl, rfl, rfl, rfl, rfl, rfl, rfl, rfl, rfl⟩, rfl, rfl, hp, rfl, hpos, hran.1, hran.2.1⟩
    · rw [fadeEnter_on hc, hc, if_pos rfl]
      exact ⟨_, h.fading fp n (by omega) (by omega) hp2 hc, h.same ⟨rfl, rfl, rfl, rfl, rfl, rfl, rfl, rfl, rfl, rfl, rfl, rfl, rfl, rfl⟩ rfl rfl,
          ⟨rfl, rfl, rfl, rfl, rfl, rfl, rfl, rfl, rfl, rfl, rfl, rfl, rfl, rfl⟩, rfl, hc, hp, hp2, hpos, hran.1, hran.2.1⟩

/-- How far a steady rate moves. -/
theorem FadeFwd.delta {r : Rd} (h : FadeFwd p R A E D H nch r) : 0 ≤ trunc (r.rem + r.rate) ∧ trunc (r.rem + r.rate) ≤ R := by
  obtain ⟨f1, f2⟩ := abs_lt.1 h.frac
  have h0 := h.rate0
  have h1 := h.rateR
  unfold trunc
  split
  · rename_i hs
    refine ⟨Int.floor_nonneg.2 hs, ?_⟩
    have : ⌊r.rem + r.rate⌋ < R + 1 := by
      rw [Int.floor_lt]; push_cast; linarith
    omega
  · rename_i hs
    have : ⌊-(r.rem + r.rate)⌋ = 0 := by
      rw [Int.floor_eq_zero_iff]; constructor <;> linarith
    rw [this]
    have : (0 : ℚ) < R := lt_of_lt_of_le h0 h1
    have : 0 < R := by exact_mod_cast this
    omega

/-- One step, with both heads. -/
theorem FadeFwd.step (fp : Fp) {r : Rd} (n : FadeNum R A E D H nch) (h : FadeFwd p R A E D H nch r)
    (h1 : InI32 (r.pos1 + trunc (r.rem + r.rate) * nch)) (h2 : r.cfOn = true → InI32 (r.pos2 + trunc (r.rem + r.rate) * nch)) :
    ∃ f, stepOn fp r = .ok { r with rem := f, pos1 := r.pos1 + trunc (r.rem + r.rate) * nch, pos2 := (if r.cfOn then r.pos2 + trunc (r.rem + r.rate) * nch else r.pos2) } ∧
      OnGrid p f ∧ |f| < 1 := by
  obtain ⟨e1, e2, e3⟩ := accum_exact h.grid h.rgrid h.frac fp.d
  have hs : |r.rem + r.rate| ≤ 2 ^ 30 + 1 := by
    have := abs_add_le r.rem r.rate; have := h.grid.small; have := h.frac; linarith
  obtain ⟨s1, s2⟩ := abs_le.1 hs
  obtain ⟨d0, d1⟩ := h.delta
  have hA := n.A0
  have hD := n.D1
  have hL := n.long
  have hR := n.R1
  have f1 := frame_fits n.H0 (le_of_lt n.n0) d0 (show trunc (r.rem + r.rate) ≤ E + 3 * R by omega) n.fits
  have hH := n.H0
  refine ⟨r.rem + r.rate - (trunc (r.rem + r.rate) : Int), ?_, e3, trunc_rest _⟩
  unfold stepOn
  simp only [e1]
  rw [castI32_ok (by linarith) (by linarith)]
  simp only [ok_bind, e2, h.chans, chkI32_ok (show InI32 (trunc (r.rem + r.rate) * nch) from ⟨by omega, by omega⟩), chkI32_ok h1]
  cases hc : r.cfOn
  · simp only [Bool.false_eq_true, if_false, pure_eq_ok]
  · rw [if_pos rfl, h.loop, if_neg (by decide), chkI32_ok (h2 hc)]
    simp only [ok_bind, if_true, pure_eq_ok, ← h.loop]

/-- From one frame to the next. -/
theorem SpotsAt.step (fp : Fp) {r : Rd} (n : FadeNum R A E D H nch) (h : FadeFwd p R A E D H nch r) {ph : Spots} (hw : ph.Wf R A E D)
    (ho : SpotsAt A E D R H nch r ph) :
    ∃ r2 ph', stepOn fp r = .ok r2 ∧ FadeFwd p R A E D H nch r2 ∧ SameConf r r2 ∧ r2.rate = r.rate ∧ ph.Next R A E D ph' ∧ ph'.Wf R A E D ∧
      SpotsOf R A E D H nch r2 ph' := by
  have hA := n.A0
  have hD := n.D1
  have hL := n.long
  have hR := n.R1
  obtain ⟨d0, d1⟩ := h.delta
  have hstep := h.step fp n
  generalize trunc (r.rem + r.rate) = δ at *
  have hadd : ∀ q : Int, H + q * nch + δ * nch = H + (q + δ) * nch := fun q => by ring
  have conf : ∀ {f : ℚ} {p1 p2 : Int}, OnGrid p f → |f| < 1 → FadeFwd p R A E D H nch { r with rem := f, pos1 := p1, pos2 := p2 } := fun {f} {p1} {p2} k1 k2 =>
    ⟨h.dual, h.interp, h.loop, h.header, h.chans, h.ls, h.lf, h.cd, h.rate0, h.rateR, h.grid, k1, k2⟩
  cases ph with
  | one q =>
    obtain ⟨w0, w1⟩ := hw
    rcases ho with ⟨hc, hp⟩ | ⟨hc, hz, hp, h1, x, hx, hx1, hx2⟩
    · obtain ⟨f, k1, k2, k3⟩ := hstep (by rw [hp, hadd]; exact n.inI32 (by omega) (by omega)) (fun e => by rw [hc] at e; cases e)
      rcases lt_or_ge (q + δ) (E - D) with hlt | hge
      · exact ⟨_, .one (q + δ), k1, conf k2 k3, ⟨rfl, rfl, rfl, rfl, rfl, rfl, rfl, rfl, rfl, rfl, rfl, rfl, rfl, rfl⟩, rfl, .on d0 d1 hlt,
          ⟨by omega, hlt⟩, Or.inl ⟨hc, by simp only [hp, hadd]⟩⟩
      · exact ⟨_, .two (q + δ) A, k1, conf k2 k3, ⟨rfl, rfl, rfl, rfl, rfl, rfl, rfl, rfl, rfl, rfl, rfl, rfl, rfl, rfl⟩, rfl, .enter d0 d1 hge,
          ⟨by omega, by omega, by omega, by omega⟩, Or.inl ⟨hc, by simp only [hp, hadd], hge, rfl⟩⟩
    · obtain ⟨f, k1, k2, k3⟩ := hstep (by rw [hx, hadd]; exact n.inI32 (by omega) (by omega)) (fun _ => by rw [hp, hadd]; exact n.inI32 (by omega) (by omega))
      rw [if_pos hc] at k1
      exact ⟨_, .one (q + δ), k1, conf k2 k3, ⟨rfl, rfl, rfl, rfl, rfl, rfl, rfl, rfl, rfl, rfl, rfl, rfl, rfl, rfl⟩, rfl, .on d0 d1 (by omega),
        ⟨by omega, by omega⟩, Or.inr ⟨hc, by simp only [hp, hadd], by omega, by omega, x + δ, by simp only [hx, hadd], by omega, by omega⟩⟩
  | two x y =>
    obtain ⟨w0, w1, w2, w3⟩ := hw
    obtain ⟨hc, hp, hp2, _⟩ := ho
    obtain ⟨f, k1, k2, k3⟩ := hstep (by rw [hp, hadd]; exact n.inI32 (by omega) (by omega)) (fun _ => by rw [hp2, hadd]; exact n.inI32 (by omega) (by omega))
    rw [if_pos hc] at k1
    rcases lt_or_ge (y + δ) (A + D) with hlt | hge
    · exact ⟨_, .two (x + δ) (y + δ), k1, conf k2 k3, ⟨rfl, rfl, rfl, rfl, rfl, rfl, rfl, rfl, rfl, rfl, rfl, rfl, rfl, rfl⟩, rfl, .fade d0 d1 hlt,
        ⟨by omega, by omega, by omega, by omega⟩, Or.inr ⟨hc, by simp only [hp, hadd], by simp only [hp2, hadd]⟩⟩
    · exact ⟨_, .one (y + δ), k1, conf k2 k3, ⟨rfl, rfl, rfl, rfl, rfl, rfl, rfl, rfl, rfl, rfl, rfl, rfl, rfl, rfl⟩, rfl, .leave d0 d1 hge,
        ⟨by omega, by omega⟩, Or.inr ⟨hc, by simp only [hp2, hadd], hge, by omega, x + δ, by simp only [hp, hadd], by omega, by omega⟩⟩

variable {P : Int → Prop} {f : Int → Int}

theorem srcVal_rec {r : Rd} {t : List Int} {pos : Int} {ch : Nat} (h1 : InI32 pos) (h2 : InI32 (pos + ch)) (h3 : P (pos + ch)) :
    srcVal (recSrc P f) r t pos 0 ch = .ok (f (pos + ch), t ++ [pos + ch]) := by
  unfold srcVal
  rw [zero_mul, add_zero, chkI32_ok h1]
  simp only [ok_bind, chkI32_ok h2]
  exact recSrc_ok h3 t

/-- Reading one frame: exactly the heads are asked for. -/
theorem SpotsAt.read (fp : Fp) {r : Rd} (n : FadeNum R A E D H nch) (h : FadeFwd p R A E D H nch r) {ph : Spots} (hw : ph.Wf R A E D)
    (ho : SpotsAt A E D R H nch r ph) (hf : ∀ i, InI16 (f i)) (hP : ∀ i, ph.Reads H nch i → P i) (fuel : Nat) (t : List Int) :
    ∃ vs ext, readFrame fp (recSrc P f) (fuel + 1) r.nch.toNat 0 r t = .ok (vs, true, r, t ++ ext) ∧ H + ph.front * nch ∈ t ++ ext := by
  have hA := n.A0
  have hD := n.D1
  have hL := n.long
  have hR := n.R1
  have hn := n.n0
  have idx : ∀ q : Int, 0 ≤ q → q + 1 ≤ E + 3 * R → ∀ c : Nat, (c : Int) < nch → InI32 (H + q * nch) ∧ InI32 (H + q * nch + c) := by
    intro q h0 h1 c hc
    have a1 := n.inI32 h0 (by omega)
    have a2 := n.inI32 (show 0 ≤ q + 1 by omega) h1
    have e : H + (q + 1) * nch = H + q * nch + nch := by ring
    rw [e] at a2
    exact ⟨a1, by unfold InI32 at *; omega⟩
  -- each channel
  have key : ∀ c : Nat, (c : Int) < nch → ∀ s : List Int, (∃ ext, s = t ++ ext) →
      ∃ v s', baseVal fp (recSrc P f) r s c = .ok (v, s') ∧ (∃ ext, s' = t ++ ext) ∧ (∀ i ∈ s, i ∈ s') ∧ H + ph.front * nch + c ∈ s' := by
    rintro c hc s ⟨ext, rfl⟩
    cases ph with
    | one q =>
      obtain ⟨w0, w1⟩ := hw
      obtain ⟨i1, i2⟩ := idx q w0 (by omega) c hc
      have hp := hP (H + q * nch + c) ⟨by omega, by omega⟩
      rcases ho with ⟨hc0, hp1⟩ | ⟨hc0, hz, hp1, _⟩
      · refine ⟨f (H + q * nch + c), (t ++ ext) ++ [H + q * nch + c], ?_, ⟨ext ++ [H + q * nch + c], by simp⟩, fun i hi => List.mem_append_left _ hi, by simp [Spots.front]⟩
        unfold baseVal
        rw [if_pos (by rw [hc0]; simp), hp1, srcVal_rec i1 i2 hp]
      · refine ⟨f (H + q * nch + c), (t ++ ext) ++ [H + q * nch + c], ?_, ⟨ext ++ [H + q * nch + c], by simp⟩, fun i hi => List.mem_append_left _ hi, by simp [Spots.front]⟩
        unfold baseVal
        rw [if_neg (by rw [h.dual, hc0]; simp), if_pos hz, hp1, srcVal_rec i1 i2 hp]
    | two x y =>
      obtain ⟨w0, w1, w2, w3⟩ := hw
      obtain ⟨i1, i2⟩ := idx x (by omega) (by omega) c hc
      obtain ⟨j1, j2⟩ := idx y (by omega) (by omega) c hc
      have px := hP (H + x * nch + c) (Or.inl ⟨by omega, by omega⟩)
      have py := hP (H + y * nch + c) (Or.inr ⟨by omega, by omega⟩)
      obtain ⟨hc0, hp1, hp2, hz, z0, z1⟩ := ho
      obtain ⟨v, c1, _⟩ := mix_ok fp.d z0 z1 (hf (H + x * nch + c)) (hf (H + y * nch + c))
      refine ⟨v, _, ?_, ⟨ext ++ [H + x * nch + c, H + y * nch + c], rfl⟩, fun i hi => ?_, by simp [Spots.front]⟩
      · unfold baseVal
        rw [if_neg (by rw [h.dual, hc0]; simp), if_neg hz, hp1, srcVal_rec i1 i2 px]
        simp only [ok_bind]
        rw [hp2, srcVal_rec j1 j2 py]
        simp only [ok_bind]
        rw [add_comm, c1]
        simp only [ok_bind, pure_eq_ok, List.append_assoc, List.cons_append, List.nil_append]
      · rw [← List.append_assoc]; exact List.mem_append_left _ hi
  have he := atEnd_dual h.dual
  have hk : r.nch.toNat = (r.nch.toNat - 1) + 1 := by rw [h.chans]; omega
  obtain ⟨v, s1, a1, a2, _, a4⟩ := key 0 (by push_cast; exact hn) t ⟨[], by simp⟩
  have b1 : readNextValue fp (recSrc P f) r t 0 = .ok (some v, r, s1) := by
    unfold readNextValue
    simp only [he, Bool.false_eq_true, if_false, a1, ok_bind, h.interp, pure_eq_ok]
  obtain ⟨vs, s2, c1, ⟨c2, c3⟩, c4, _⟩ := readFrame_by (S := recSrc P f) (I := fun s => (∃ ext, s = t ++ ext) ∧ H + ph.front * nch ∈ s) (r := r)
    (Q := fun _ _ => True) fp fuel h.dual h.interp (r.nch.toNat - 1) 1 s1 ⟨a2, by simpa using a4⟩ (fun c hc s hs => by
      obtain ⟨v, s', d1, d2, d3, _⟩ := key c (by rw [h.chans] at hc; omega) s hs.1
      exact ⟨v, s', d1, ⟨d2, d3 _ hs.2⟩, trivial⟩)
  obtain ⟨ext, rfl⟩ := c2
  refine ⟨v :: vs, ext, ?_, c3⟩
  rw [hk]
  unfold readFrame
  rw [readChan_settled he, b1]
  simp only [ok_bind, c1, pure_eq_ok]

/-- Reading `n` frames, as long as `Inv` allows what is asked for. -/
theorem SpotsOf.run (fp : Fp) (n : FadeNum R A E D H nch) (hD2 : D ≤ 2 ^ 31) (hf : ∀ i, InI16 (f i)) {T : Nat} {Inv : Nat → Spots → Prop}
    (hstep : ∀ k ph ph', k < T → ph.Wf R A E D → Inv k ph → ph.Next R A E D ph' → Inv (k + 1) ph')
    (hP : ∀ k ph i, k < T → ph.Wf R A E D → Inv k ph → ph.Reads H nch i → P i) (fuel : Nat) :
    ∀ (l k : Nat) (r : Rd) (ph : Spots) (t : List Int), k + l ≤ T → FadeFwd p R A E D H nch r → ph.Wf R A E D → SpotsOf R A E D H nch r ph → Inv k ph →
      ∃ fs r' ph' ext, readLoop fp (recSrc P f) (fuel + 1) l r t = .ok ⟨fs, [], r', t ++ ext⟩ ∧ fs.length = l ∧ FadeFwd p R A E D H nch r' ∧
        SameConf r r' ∧ r'.rate = r.rate ∧ ph'.Wf R A E D ∧ SpotsOf R A E D H nch r' ph' ∧ Inv (k + l) ph' ∧ (l ≠ 0 → H + ph.front * nch ∈ t ++ ext)
  | 0, k, r, ph, t, _, h, hw, ho, hi => ⟨[], r, ph, [], by simp [readLoop], rfl, h, SameConf.refl r, rfl, hw, ho, hi, fun e => absurd rfl e⟩
  | l + 1, k, r, ph, t, hk, h, hw, ho, hi => by
    obtain ⟨r1, a1, a2, a3, a4, a5⟩ := ho.update fp n hD2 h hw
    obtain ⟨vs, ext1, b1, b2⟩ := a5.read fp n a2 hw hf (fun i hr => hP k ph i (by omega) hw hi hr) fuel t
    obtain ⟨r2, ph2, c1, c2, c3, c4, c5, c6, c7⟩ := a5.step fp n a2 hw
    obtain ⟨fs, r', ph', ext2, d1, d2, d3, d4, d5, d6, d7, d8, _⟩ := SpotsOf.run fp n hD2 hf hstep hP fuel l (k + 1) r2 ph2 (t ++ ext1) (by omega) c2 c6 c7
      (hstep k ph ph2 (by omega) hw hi c5)
    refine ⟨vs :: fs, r', ph', ext1 ++ ext2, ?_, by simp [d2], d3, (a3.trans c3).trans d4, by rw [d5, c4, a4], d6, d7, ?_, fun _ => ?_⟩
    · rw [readLoop_succ]
      simp only [h.dual, if_true, a1, ok_bind, b1, c1, d1]
      rw [List.append_assoc]
    · rw [show k + (l + 1) = k + 1 + l by omega]; exact d8
    · rw [← List.append_assoc]; exact List.mem_append_left _ b2

end TVP
