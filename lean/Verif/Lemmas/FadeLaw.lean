import Verif.Lemmas.Dual
import Verif.Lemmas.Loops
import Verif.Spec.Fade

/-!
# Cross-faded loops at unit rate
-/

namespace TVP
open Spec

variable {σ : Type} {S : Src σ} {I : σ → Prop} {P : Int → Prop} {val : Int → Int}

/-- The rate of a head moving up or down. -/
def dirQ (up : Bool) : ℚ := if up then 1 else -1
def dirI (up : Bool) : Int := if up then 1 else -1

/-- The settings of a cross-faded loop. -/
structure FadeConf (r : Rd) (pp : Bool) (A E D : Int) : Prop where
  dual : r.dual = true
  interp : r.interp = .none
  nch : 0 < r.nch
  header0 : 0 ≤ r.header
  pp : decide (r.loopType = .pingpong) = pp
  ls : r.loopStart = A
  lf : r.loopFinish = E
  cd : r.cfDur = D
  rem0 : r.rem = 0
  A0 : 0 ≤ A
  D1 : 1 ≤ D
  long : 2 * D + 2 ≤ E - A
  fits : r.header + r.nch * (E + D + 2) ≤ 2147483647

theorem FadeConf.posOf {r : Rd} {pp : Bool} {A E D : Int} (h : FadeConf r pp A E D) {x : Int} (h0 : -(E + D + 2) ≤ x) (h1 : x ≤ E + D + 2) :
    r.posOf x = r.header + x * r.nch := by
  have f := frame_fits' h.header0 (le_of_lt h.nch) h0 h1 h.fits
  exact posOf_eq ⟨by have := h.header0; omega, f.2⟩

theorem FadeConf.s2s {r : Rd} {pp : Bool} {A E D : Int} (h : FadeConf r pp A E D) {x : Int} (h0 : 0 ≤ x) (h1 : x ≤ E + D + 2) :
    r.s2s x = r.header + x * r.nch := by
  have f := frame_fits h.header0 (le_of_lt h.nch) h0 h1 h.fits
  unfold Rd.s2s
  exact u32_of_in ⟨by have := h.header0; omega, by omega⟩

theorem FadeConf.same {r r' : Rd} {pp : Bool} {A E D : Int} (h : FadeConf r pp A E D) (hc : SameConf r r') (hr : r'.rem = 0) : FadeConf r' pp A E D :=
  ⟨hc.dual.trans h.dual, hc.interp.trans h.interp, by rw [hc.nch]; exact h.nch, by rw [hc.header]; exact h.header0, by rw [hc.loopType]; exact h.pp,
    hc.loopStart.trans h.ls, hc.loopFinish.trans h.lf, hc.cfDur.trans h.cd, hr, h.A0, h.D1, h.long, by rw [hc.header, hc.nch]; exact h.fits⟩

/-- A lap of the loop, `t` frames after it began, before the heads are looked at. -/
structure Lap (r : Rd) (pp : Bool) (A E D : Int) (up : Bool) (t : Int) : Prop where
  conf : FadeConf r pp A E D
  t0 : 0 ≤ t
  t1 : t ≤ D + 1
  rate : r.rate = dirQ (up != pp)
  pos1 : r.pos1 = r.header + outHead A E D pp up t * r.nch
  on : r.cfOn = decide (t ≠ 0)
  pos2 : t ≠ 0 → r.pos2 = r.header + inHead A E up t * r.nch

/-- One head, at frame `q`, before the fade. -/
structure Lead (r : Rd) (pp : Bool) (A E D : Int) (up : Bool) (q : Int) : Prop where
  conf : FadeConf r pp A E D
  rate : r.rate = dirQ up
  pos1 : r.pos1 = r.header + q * r.nch
  off : r.cfOn = false
  before : if up then -(E + D) ≤ q ∧ q < E - D else A + D < q ∧ q ≤ E + D

theorem inHead_range {A E D t : Int} {up : Bool} (h0 : 0 ≤ t) (h1 : t ≤ D + 1) (hA : 0 ≤ A) (hD : 1 ≤ D) (hL : 2 * D + 2 ≤ E - A) :
    0 ≤ inHead A E up t ∧ inHead A E up t ≤ E := by
  unfold inHead; split <;> omega

theorem outHead_range {A E D t : Int} {pp up : Bool} (h0 : 0 ≤ t) (h1 : t ≤ D + 1) (hA : 0 ≤ A) (hD : 1 ≤ D) (hL : 2 * D + 2 ≤ E - A) :
    -1 ≤ outHead A E D pp up t ∧ outHead A E D pp up t ≤ E + 1 := by
  unfold outHead; split <;> omega

theorem dirQ_nonneg (b : Bool) : 0 ≤ dirQ b ↔ b = true := by cases b <;> norm_num [dirQ]
theorem dirQ_pos (b : Bool) : 0 < dirQ b ↔ b = true := by cases b <;> norm_num [dirQ]

/-- Entering the fade. -/
theorem Lap.enter {r : Rd} {pp : Bool} {A E D : Int} {up : Bool} {t : Int} (h : Lap r pp A E D up t) :
    fadeEnter r = { r with pos2 := r.header + inHead A E up t * r.nch, cfOn := true } := by
  have hA := h.conf.A0
  have hD := h.conf.D1
  have hL := h.conf.long
  by_cases ht : t = 0
  · subst ht
    have hoff : r.cfOn = false := h.on
    have hp := h.conf.pp
    have p1 := h.pos1
    have q1 := h.conf.posOf (x := E - D) (by omega) (by omega)
    have q2 := h.conf.posOf (x := A + D) (by omega) (by omega)
    have q3 := h.conf.posOf (x := A) (by omega) (by omega)
    have q4 := h.conf.posOf (x := E) (by omega) (by omega)
    unfold fadeEnter
    rw [h.rate, h.conf.ls, h.conf.lf, h.conf.cd, hoff]
    cases hp0 : pp <;> cases hu : up <;> rw [hp0] at hp p1 <;> rw [hu] at p1 <;>
      simp only [decide_eq_false_iff_not, decide_eq_true_eq] at hp <;>
      simp [outHead] at p1 <;> simp [dirQ, q1, q2, q3, q4, hp, p1, inHead]
  · have hon : r.cfOn = true := by rw [h.on]; simpa using ht
    have e : fadeEnter r = r := by unfold fadeEnter; simp [hon]
    rw [e, ← h.pos2 ht]
    cases r; simp only at hon; subst hon; rfl

/-- The exact weight of the head fading out. -/
def weightOf (fp : Fp) (D t : Int) : ℚ := fp.d.rnd (1 - fp.d.rnd ((t : ℚ) / D))

/-- The state in which frame `t` of a fade is read. -/
def fadingAt (fp : Fp) (r : Rd) (A E D : Int) (up : Bool) (t : Int) : Rd :=
  { r with pos2 := r.header + inHead A E up t * r.nch, cfOn := true, crossfade := weightOf fp D t }

theorem FadeConf.up {r : Rd} {pp up : Bool} {A E D : Int} (h : FadeConf r pp A E D) (hr : r.rate = dirQ (up != pp)) : r.up = up := by
  unfold Rd.up
  rw [h.pp, hr]
  cases up <;> cases pp <;> simp [dirQ]

theorem FadeConf.weight (fp : Fp) {r : Rd} {pp : Bool} {A E D t d : Int} (h : FadeConf r pp A E D) (h0 : 0 ≤ t) (h1 : t ≤ D) (hd : d = t * r.nch) :
    fadeWeight fp r d = .ok (weightOf fp D t) := by
  have hA := h.A0
  have hD := h.D1
  have hL := h.long
  have hn := h.nch
  have hH := h.header0
  have f1 := frame_fits hH (le_of_lt hn) h0 (show t ≤ E + D + 2 by omega) h.fits
  have f2 := frame_fits hH (le_of_lt hn) (show (0 : Int) ≤ 1 by omega) (show 1 ≤ E + D + 2 by omega) h.fits
  have hle := mul_le_mul_of_nonneg_right h1 (le_of_lt hn)
  have hnn := mul_nonneg h0 (le_of_lt hn)
  obtain ⟨w, k1, _, _, k4⟩ := fadeWeight_range fp (r := r) (d := d) hn (by omega) (by rw [h.cd]; exact hD)
    (by rw [hd]; exact hnn) (by rw [h.cd, hd]; exact hle) (by rw [hd]; omega)
  rw [k1, k4, h.cd, hd, Int.mul_ediv_cancel _ (by omega)]
  rfl

theorem FadeConf.go (fp : Fp) {r : Rd} {pp up : Bool} {A E D t : Int} (h : FadeConf r pp A E D) (hr : r.rate = dirQ (up != pp)) (hon : r.cfOn = true)
    (hp : r.pos2 = r.header + inHead A E up t * r.nch) (h0 : 0 ≤ t) (h1 : t ≤ D) : fadeGo fp r = .ok { r with crossfade := weightOf fp D t } := by
  have hA := h.A0
  have hD := h.D1
  have hL := h.long
  have hn := h.nch
  unfold fadeGo
  rw [h.up hr, h.ls, h.lf, h.cd, h.posOf (x := E - D) (by omega) (by omega), h.posOf (x := A + D) (by omega) (by omega),
    h.s2s (x := A) (by omega) (by omega), h.s2s (x := E) (by omega) (by omega), hp]
  cases hu : up
  · have hi : inHead A E false t = E - t := rfl
    rw [if_neg (by simp), hi, if_neg (not_lt.2 ((mul_le_iff hn _).2 (by omega))), h.weight fp h0 h1 (by ring)]
    simp only [ok_bind, pure_eq_ok, hon]
    rfl
  · have hi : inHead A E true t = A + t := rfl
    rw [if_pos rfl, hi, if_neg (not_lt.2 ((mul_le_iff hn _).2 (by omega))), h.weight fp h0 h1 (by ring)]
    simp only [ok_bind, pure_eq_ok, hon]
    rfl

theorem FadeConf.gone (fp : Fp) {r : Rd} {pp up : Bool} {A E D t : Int} (h : FadeConf r pp A E D) (hr : r.rate = dirQ (up != pp))
    (hp : r.pos2 = r.header + inHead A E up t * r.nch) (h1 : t = D + 1) :
    fadeGo fp r = .ok { r with pos1 := r.pos2, cfOn := false, rate := dirQ up } := by
  have hA := h.A0
  have hD := h.D1
  have hL := h.long
  have hn := h.nch
  have fin : (if decide (r.loopType = .pingpong) = true then (.ok { r with pos1 := r.pos2, cfOn := false, rate := -r.rate } : M Rd)
      else .ok { r with pos1 := r.pos2, cfOn := false }) = .ok { r with pos1 := r.pos2, cfOn := false, rate := dirQ up } := by
    rw [h.pp]
    cases hpp : pp
    · rw [hpp] at hr
      rw [if_neg (by simp)]
      have : dirQ up = r.rate := by rw [hr]; cases up <;> rfl
      rw [this]
    · rw [hpp] at hr
      rw [if_pos rfl]
      have : dirQ up = -r.rate := by rw [hr]; cases up <;> norm_num [dirQ]
      rw [this]
  unfold fadeGo
  rw [h.up hr, h.ls, h.lf, h.cd, h.posOf (x := E - D) (by omega) (by omega), h.posOf (x := A + D) (by omega) (by omega)]
  cases hu : up
  · have hi : inHead A E up t = E - t := by rw [hu]; rfl
    rw [if_neg (by simp), if_pos (by rw [hp, hi]; exact (mul_lt_iff hn _).2 (by omega))]
    simp only [ok_bind, pure_eq_ok, Bool.not_false, Bool.true_and]
    rw [hu, h.ls, h.lf, h.cd] at fin
    exact fin
  · have hi : inHead A E up t = A + t := by rw [hu]; rfl
    rw [if_pos rfl, if_pos (by rw [hp, hi]; exact (mul_lt_iff hn _).2 (by omega))]
    simp only [ok_bind, pure_eq_ok, Bool.not_false, Bool.true_and]
    rw [hu, h.ls, h.lf, h.cd] at fin
    exact fin

theorem Lap.fading (fp : Fp) {r : Rd} {pp : Bool} {A E D : Int} {up : Bool} {t : Int} (h : Lap r pp A E D up t) (ht : t ≤ D) :
    updateCrossfade fp r = .ok (fadingAt fp r A E D up t) := by
  rw [updateCrossfade_eq, h.enter, if_pos rfl]
  exact FadeConf.go fp (h.conf.same ⟨rfl, rfl, rfl, rfl, rfl, rfl, rfl, rfl, rfl, rfl, rfl, rfl, rfl, rfl⟩ h.conf.rem0) h.rate rfl rfl h.t0 ht

/-- The end of the fade: the second head becomes the first. -/
theorem Lap.ended (fp : Fp) {r : Rd} {pp : Bool} {A E D : Int} {up : Bool} {t : Int} (h : Lap r pp A E D up t) (ht : t = D + 1) :
    ∃ r', updateCrossfade fp r = .ok r' ∧ Lead r' pp A E D up (inHead A E up t) ∧ SameConf r r' := by
  have hA := h.conf.A0
  have hD := h.conf.D1
  have hL := h.conf.long
  rw [updateCrossfade_eq, h.enter, if_pos rfl]
  refine ⟨_, FadeConf.gone fp (h.conf.same ⟨rfl, rfl, rfl, rfl, rfl, rfl, rfl, rfl, rfl, rfl, rfl, rfl, rfl, rfl⟩ h.conf.rem0) h.rate rfl ht,
    ⟨h.conf.same ⟨rfl, rfl, rfl, rfl, rfl, rfl, rfl, rfl, rfl, rfl, rfl, rfl, rfl, rfl⟩ h.conf.rem0, rfl, rfl, rfl, ?_⟩,
    ⟨rfl, rfl, rfl, rfl, rfl, rfl, rfl, rfl, rfl, rfl, rfl, rfl, rfl, rfl⟩⟩
  unfold inHead
  cases up <;> simp <;> omega

/-- Before the fade nothing happens. -/
theorem Lead.update (fp : Fp) {r : Rd} {pp : Bool} {A E D : Int} {up : Bool} {q : Int} (h : Lead r pp A E D up q) :
    updateCrossfade fp r = .ok r := by
  have hA := h.conf.A0
  have hD := h.conf.D1
  have hL := h.conf.long
  have q1 := h.conf.posOf (x := E - D) (by omega) (by omega)
  have q2 := h.conf.posOf (x := A + D) (by omega) (by omega)
  have hb := h.before
  have e : fadeEnter r = r := by
    unfold fadeEnter
    rw [h.rate, h.conf.ls, h.conf.lf, h.conf.cd, q1, q2, h.pos1]
    cases hu : up
    · rw [hu] at hb
      simp only [Bool.false_eq_true, if_false] at hb
      rw [if_neg (by norm_num [dirQ]), if_neg]
      simp only [Bool.and_eq_true, decide_eq_true_eq, not_and]
      intro _
      exact not_le.2 ((mul_lt_iff h.conf.nch _).2 hb.1)
    · rw [hu] at hb
      simp only [if_true] at hb
      rw [if_pos (by norm_num [dirQ]), if_neg]
      simp only [Bool.and_eq_true, decide_eq_true_eq, not_and]
      intro _
      exact not_le.2 ((mul_lt_iff h.conf.nch _).2 hb.2)
  rw [updateCrossfade_eq, e, h.off]
  rfl

/-- One unit step, with both heads. -/
theorem stepOn_heads (fp : Fp) {r : Rd} {up : Bool} (hrate : r.rate = dirQ up) (h0 : r.rem = 0) (hn : 0 ≤ r.nch) (hn2 : r.nch ≤ 2147483647)
    (hpos : InI32 (r.pos1 + dirI up * r.nch))
    (hpos2 : r.cfOn = true → InI32 (if r.loopType = .pingpong then r.pos2 - dirI up * r.nch else r.pos2 + dirI up * r.nch)) :
    stepOn fp r = .ok { r with
      pos1 := r.pos1 + dirI up * r.nch
      pos2 := if r.cfOn then (if r.loopType = .pingpong then r.pos2 - dirI up * r.nch else r.pos2 + dirI up * r.nch) else r.pos2 } := by
  have e1 : fp.d.rnd (r.rem + r.rate) = ((dirI up : Int) : ℚ) := by
    rw [h0, hrate, zero_add]
    have : dirQ up = ((dirI up : Int) : ℚ) := by cases up <;> norm_num [dirQ, dirI]
    rw [this]
    exact fp.d.exact_int (by norm_num) (by norm_num) (by cases up <;> norm_num [dirI])
  have e2 : castI32 ((dirI up : Int) : ℚ) = .ok (dirI up) := by
    unfold castI32
    rw [trunc_int, if_pos (by cases up <;> decide)]
  have e3 : fp.d.rnd (((dirI up : Int) : ℚ) - ((dirI up : Int) : ℚ)) = 0 := by rw [sub_self]; exact fp.d.exact_zero
  have e4 : chkI32 (dirI up * r.nch) = .ok (dirI up * r.nch) := by
    apply chkI32_ok; unfold InI32 dirI; split <;> omega
  unfold stepOn
  simp only [e1, e2, e3, e4, ok_bind, chkI32_ok hpos]
  cases hc : r.cfOn
  · simp only [Bool.false_eq_true, if_false, pure_eq_ok]; rw [← h0]
  · simp only [if_true, chkI32_ok (hpos2 hc), ok_bind, pure_eq_ok]; rw [← h0]


theorem FadeConf.nchBound {r : Rd} {pp : Bool} {A E D : Int} (h : FadeConf r pp A E D) : r.nch ≤ 2147483647 := by
  have f := frame_fits h.header0 (le_of_lt h.nch) (show (0 : Int) ≤ 1 by omega)
    (show 1 ≤ E + D + 2 by have := h.A0; have := h.D1; have := h.long; omega) h.fits
  have := h.header0
  omega

/-- A frame position within reach is an `int`. -/
theorem FadeConf.inI32 {r : Rd} {pp : Bool} {A E D q : Int} (h : FadeConf r pp A E D) (h0 : -(E + D + 2) ≤ q) (h1 : q ≤ E + D + 2) :
    InI32 (r.header + q * r.nch) := by
  have f := frame_fits' h.header0 (le_of_lt h.nch) h0 h1 h.fits
  have := h.header0
  exact ⟨by omega, f.2⟩

theorem inHead_succ (A E : Int) (up : Bool) (t : Int) : inHead A E up (t + 1) = inHead A E up t + dirI up := by
  cases up <;> simp [inHead, dirI] <;> omega

theorem outHead_succ (A E D : Int) (pp up : Bool) (t : Int) : outHead A E D pp up (t + 1) = outHead A E D pp up t + dirI (up != pp) := by
  unfold outHead
  cases up != pp <;> simp [dirI] <;> omega

/-- From one frame of the fade to the next. -/
theorem Lap.step (fp : Fp) {r : Rd} {pp : Bool} {A E D : Int} {up : Bool} {t : Int} (h : Lap r pp A E D up t) (ht : t ≤ D) :
    ∃ r', stepOn fp (fadingAt fp r A E D up t) = .ok r' ∧ Lap r' pp A E D up (t + 1) ∧ SameConf r r' := by
  have hA := h.conf.A0
  have hD := h.conf.D1
  have hL := h.conf.long
  have ht0 := h.t0
  have ri := inHead_range (up := up) (show 0 ≤ t + 1 by omega) (show t + 1 ≤ D + 1 by omega) hA hD hL
  have ro := outHead_range (up := up) (pp := pp) (show 0 ≤ t + 1 by omega) (show t + 1 ≤ D + 1 by omega) hA hD hL
  have e1 : r.pos1 + dirI (up != pp) * r.nch = r.header + outHead A E D pp up (t + 1) * r.nch := by
    rw [h.pos1, outHead_succ]; ring
  have e2 : (if r.loopType = .pingpong then r.header + inHead A E up t * r.nch - dirI (up != pp) * r.nch
      else r.header + inHead A E up t * r.nch + dirI (up != pp) * r.nch) = r.header + inHead A E up (t + 1) * r.nch := by
    have hp := h.conf.pp
    rw [inHead_succ]
    cases pp
    · rw [if_neg (by simpa using hp)]
      cases up <;> simp only [dirI, Bool.bne_false, Bool.false_eq_true, if_true, if_false] <;> ring
    · rw [if_pos (by simpa using hp)]
      cases up <;> simp only [dirI, Bool.false_bne, Bool.true_bne, Bool.not_true, Bool.false_eq_true, if_true, if_false] <;> ring
  refine ⟨_, stepOn_heads fp (r := fadingAt fp r A E D up t) h.rate h.conf.rem0 (le_of_lt h.conf.nch) h.conf.nchBound ?_ (fun _ => ?_), ?_, ?_⟩
  · show InI32 (r.pos1 + dirI (up != pp) * r.nch)
    rw [e1]; exact h.conf.inI32 (by omega) (by omega)
  · show InI32 (if r.loopType = .pingpong then r.header + inHead A E up t * r.nch - dirI (up != pp) * r.nch
      else r.header + inHead A E up t * r.nch + dirI (up != pp) * r.nch)
    rw [e2]; exact h.conf.inI32 (by omega) (by omega)
  · refine ⟨h.conf.same ⟨rfl, rfl, rfl, rfl, rfl, rfl, rfl, rfl, rfl, rfl, rfl, rfl, rfl, rfl⟩ h.conf.rem0, by omega, by omega, h.rate, e1, ?_, fun _ => e2⟩
    show true = _
    simp; omega
  · exact ⟨rfl, rfl, rfl, rfl, rfl, rfl, rfl, rfl, rfl, rfl, rfl, rfl, rfl, rfl⟩

/-- The head fading in of the next lap. -/
def nextUp (pp up : Bool) : Bool := if pp then !up else up

theorem nextUp_bne (pp up : Bool) : (nextUp pp up != pp) = up := by cases pp <;> cases up <;> rfl

/-- From one frame outside the fade to the next, or into the fade. -/
theorem Lead.step (fp : Fp) {r : Rd} {pp : Bool} {A E D : Int} {up : Bool} {q : Int} (h : Lead r pp A E D up q) :
    ∃ r', stepOn fp r = .ok r' ∧ SameConf r r' ∧
      (q + dirI up ≠ outHead A E D false up 0 → Lead r' pp A E D up (q + dirI up)) ∧
      (q + dirI up = outHead A E D false up 0 → Lap r' pp A E D (nextUp pp up) 0) := by
  have hA := h.conf.A0
  have hD := h.conf.D1
  have hL := h.conf.long
  have hb := h.before
  have e1 : r.pos1 + dirI up * r.nch = r.header + (q + dirI up) * r.nch := by rw [h.pos1]; ring
  have hq : -(E + D) ≤ q ∧ q ≤ E + D := by revert hb; cases up <;> simp <;> omega
  have hd : -1 ≤ dirI up ∧ dirI up ≤ 1 := by cases up <;> simp [dirI]
  refine ⟨_, stepOn_heads fp h.rate h.conf.rem0 (le_of_lt h.conf.nch) h.conf.nchBound ?_ (fun x => ?_), ?_, ?_, ?_⟩
  · rw [e1]; exact h.conf.inI32 (by omega) (by omega)
  · rw [h.off] at x; cases x
  · exact ⟨rfl, rfl, rfl, rfl, rfl, rfl, rfl, rfl, rfl, rfl, rfl, rfl, rfl, rfl⟩
  · intro hne
    refine ⟨h.conf.same ⟨rfl, rfl, rfl, rfl, rfl, rfl, rfl, rfl, rfl, rfl, rfl, rfl, rfl, rfl⟩ h.conf.rem0, h.rate, e1, h.off, ?_⟩
    revert hb hne
    cases up <;> simp [dirI, outHead] <;> omega
  · intro he
    refine ⟨h.conf.same ⟨rfl, rfl, rfl, rfl, rfl, rfl, rfl, rfl, rfl, rfl, rfl, rfl, rfl, rfl⟩ h.conf.rem0, le_refl _, by omega, ?_, ?_, ?_, fun x => absurd rfl x⟩
    · show r.rate = _
      rw [nextUp_bne]; exact h.rate
    · show r.pos1 + dirI up * r.nch = _
      rw [e1, he]
      have : outHead A E D pp (nextUp pp up) 0 = outHead A E D false up 0 := by
        unfold outHead; rw [nextUp_bne, Bool.bne_false]
      rw [this]
    · show r.cfOn = _
      rw [h.off]; rfl

/-! ## The whole loop -/

/-- Frames before the first fade. -/
def firstLap (A E D s : Int) (up : Bool) : Int := if up then E - D - s else s - (A + D)

/-- The direction of a lap. -/
def lapUp (pp up : Bool) (lap : Int) : Bool := if pp then (up == decide (lap % 2 = 1)) else up

theorem lapUp_succ (pp up : Bool) (lap : Int) : lapUp pp up (lap + 1) = nextUp pp (lapUp pp up lap) := by
  unfold lapUp nextUp
  cases pp
  · rfl
  · simp only [if_true]
    have : decide ((lap + 1) % 2 = 1) = !decide (lap % 2 = 1) := by
      rcases Int.emod_two_eq_zero_or_one lap with h | h
      · rw [h, show (lap + 1) % 2 = 1 by omega]; rfl
      · rw [h, show (lap + 1) % 2 = 0 by omega]; rfl
    rw [this]
    cases up <;> cases decide (lap % 2 = 1) <;> rfl

theorem lapUp_zero (pp up : Bool) : lapUp pp up 0 = nextUp pp up := by
  unfold lapUp nextUp; cases pp <;> cases up <;> rfl

/-- The reader before the `k`-th frame. -/
def Phase (pp : Bool) (A E D s : Int) (up : Bool) (k : Int) (r : Rd) : Prop :=
  if k < firstLap A E D s up then Lead r pp A E D up (if up then s + k else s - k)
  else
    if (k - firstLap A E D s up) % (E - A - D) ≤ D + 1 then
      Lap r pp A E D (lapUp pp up ((k - firstLap A E D s up) / (E - A - D))) ((k - firstLap A E D s up) % (E - A - D))
    else Lead r pp A E D (lapUp pp up ((k - firstLap A E D s up) / (E - A - D)))
      (inHead A E (lapUp pp up ((k - firstLap A E D s up) / (E - A - D))) ((k - firstLap A E D s up) % (E - A - D)))

/-- The reader while the `k`-th frame is read. -/
inductive Reading (fp : Fp) (pp : Bool) (A E D : Int) (r : Rd) : Heads → Prop
  | one {up : Bool} {q : Int} : Lead r pp A E D up q → Reading fp pp A E D r (.one q)
  | two {up : Bool} {t : Int} {r0 : Rd} : Lap r0 pp A E D up t → t ≤ D → r = fadingAt fp r0 A E D up t →
      Reading fp pp A E D r (.two t (outHead A E D pp up t) (inHead A E up t))

theorem headsAt_eq (pp : Bool) (A E D s : Int) (up : Bool) (k : Int) : headsAt pp A E D s up k =
    if k < firstLap A E D s up then .one (if up then s + k else s - k)
    else if (k - firstLap A E D s up) % (E - A - D) ≤ D then
      .two ((k - firstLap A E D s up) % (E - A - D))
        (outHead A E D pp (lapUp pp up ((k - firstLap A E D s up) / (E - A - D))) ((k - firstLap A E D s up) % (E - A - D)))
        (inHead A E (lapUp pp up ((k - firstLap A E D s up) / (E - A - D))) ((k - firstLap A E D s up) % (E - A - D)))
    else .one (inHead A E (lapUp pp up ((k - firstLap A E D s up) / (E - A - D))) ((k - firstLap A E D s up) % (E - A - D))) := rfl

theorem succ_divMod {m L : Int} (hL : 0 < L) :
    (m % L + 1 < L → (m + 1) / L = m / L ∧ (m + 1) % L = m % L + 1) ∧
    (m % L + 1 = L → (m + 1) / L = m / L + 1 ∧ (m + 1) % L = 0) := by
  have h := Int.mul_ediv_add_emod m L
  have h0 := Int.emod_nonneg m (show L ≠ 0 by omega)
  refine ⟨fun hl => ?_, fun hl => ?_⟩
  · have e : m + 1 = (m % L + 1) + L * (m / L) := by omega
    refine ⟨?_, ?_⟩
    · conv_lhs => rw [e]
      rw [Int.add_mul_ediv_left _ _ (by omega), Int.ediv_eq_zero_of_lt (by omega) hl, zero_add]
    · conv_lhs => rw [e]
      rw [Int.add_mul_emod_self_left, Int.emod_eq_of_lt (by omega) hl]
  · have e : m + 1 = 0 + L * (m / L + 1) := by rw [mul_add]; omega
    refine ⟨?_, ?_⟩
    · conv_lhs => rw [e]
      rw [Int.add_mul_ediv_left _ _ (by omega), Int.zero_ediv, zero_add]
    · conv_lhs => rw [e]
      rw [Int.add_mul_emod_self_left, Int.zero_emod]

theorem lead_off {A E D t : Int} {up : Bool} (h : t + 1 ≠ E - A - D) : inHead A E up t + dirI up ≠ outHead A E D false up 0 := by
  cases up <;> simp [inHead, dirI, outHead] <;> omega

theorem lead_on {A E D t : Int} {up : Bool} (h : t + 1 = E - A - D) : inHead A E up t + dirI up = outHead A E D false up 0 := by
  cases up <;> simp [inHead, dirI, outHead] <;> omega

/-- One frame: the heads are where they should be, and are again for the next one. -/
theorem Phase.next (fp : Fp) {pp : Bool} {A E D s : Int} {up : Bool} {k : Int} {r : Rd} (h : Phase pp A E D s up k r) :
    ∃ r1 r2, updateCrossfade fp r = .ok r1 ∧ Reading fp pp A E D r1 (headsAt pp A E D s up k) ∧
      stepOn fp r1 = .ok r2 ∧ Phase pp A E D s up (k + 1) r2 ∧ SameConf r r1 ∧ SameConf r r2 := by
  unfold Phase at h
  rw [headsAt_eq]
  have hconf : FadeConf r pp A E D := by
    split at h
    · exact h.conf
    · split at h
      · exact h.conf
      · exact h.conf
  have hL : D + 2 ≤ E - A - D := by have := hconf.long; omega
  have hD := hconf.D1
  by_cases hk : k < firstLap A E D s up
  · rw [if_pos hk] at h ⊢
    obtain ⟨r2, a1, a2, a3, a4⟩ := h.step fp
    refine ⟨r, r2, h.update fp, .one h, a1, ?_, SameConf.refl r, a2⟩
    unfold Phase
    have e : (if up then s + k else s - k) + dirI up = if up then s + (k + 1) else s - (k + 1) := by
      cases up <;> simp [dirI] <;> omega
    rw [e] at a3 a4
    by_cases hk1 : k + 1 < firstLap A E D s up
    · rw [if_pos hk1]
      apply a3
      revert hk1
      cases up <;> simp [firstLap, outHead] <;> omega
    · have hk2 : k + 1 - firstLap A E D s up = 0 := by omega
      rw [if_neg hk1, hk2, Int.zero_emod, Int.zero_ediv, if_pos (by omega), lapUp_zero]
      apply a4
      revert hk2
      cases up <;> simp [firstLap, outHead] <;> omega
  · rw [if_neg hk] at h ⊢
    set m := k - firstLap A E D s up with hm
    have hm1 : k + 1 - firstLap A E D s up = m + 1 := by omega
    obtain ⟨d1, d2⟩ := succ_divMod (m := m) (L := E - A - D) (by omega)
    have m0 := Int.emod_nonneg m (show E - A - D ≠ 0 by omega)
    have m1 := Int.emod_lt_of_pos m (show 0 < E - A - D by omega)
    -- the second half, shared by the end of the fade and the frames after it
    have lead : ∀ r1 : Rd, D + 1 ≤ m % (E - A - D) →
        Lead r1 pp A E D (lapUp pp up (m / (E - A - D))) (inHead A E (lapUp pp up (m / (E - A - D))) (m % (E - A - D))) →
        ∃ r2, stepOn fp r1 = .ok r2 ∧ Phase pp A E D s up (k + 1) r2 ∧ SameConf r1 r2 := by
      intro r1 hge hl
      obtain ⟨r2, a1, a2, a3, a4⟩ := hl.step fp
      refine ⟨r2, a1, ?_, a2⟩
      unfold Phase
      rw [if_neg (by omega), hm1]
      by_cases hend : m % (E - A - D) + 1 = E - A - D
      · obtain ⟨x1, x2⟩ := d2 hend
        rw [x1, x2, if_pos (by omega), lapUp_succ]
        exact a4 (lead_on hend)
      · obtain ⟨x1, x2⟩ := d1 (by omega)
        rw [x1, x2, if_neg (by omega), inHead_succ]
        exact a3 (lead_off hend)
    by_cases ht : m % (E - A - D) ≤ D
    · rw [if_pos (by omega)] at h
      rw [if_pos ht]
      obtain ⟨r2, a1, a2, a3⟩ := h.step fp ht
      refine ⟨_, r2, h.fading fp ht, .two h ht rfl, a1, ?_, ⟨rfl, rfl, rfl, rfl, rfl, rfl, rfl, rfl, rfl, rfl, rfl, rfl, rfl, rfl⟩, a3⟩
      unfold Phase
      obtain ⟨x1, x2⟩ := d1 (by omega)
      rw [if_neg (by omega), hm1, x1, x2, if_pos (by omega)]
      exact a2
    · rw [if_neg ht]
      by_cases ht1 : m % (E - A - D) ≤ D + 1
      · rw [if_pos ht1] at h
        obtain ⟨r1, b1, b2, b3⟩ := h.ended fp (by omega)
        obtain ⟨r2, a1, a2, a3⟩ := lead r1 (by omega) b2
        exact ⟨r1, r2, b1, .one b2, a1, a2, b3, b3.trans a3⟩
      · rw [if_neg ht1] at h
        obtain ⟨r2, a1, a2, a3⟩ := lead r (by omega) h
        exact ⟨r, r2, h.update fp, .one h, a1, a2, SameConf.refl r, a3⟩

end TVP
