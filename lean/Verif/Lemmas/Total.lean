import Verif.Lemmas.Mix
import Verif.Props.Interp

/-!
# When reading one frame is defined, for every interpolation and both heads
-/

namespace TVP

variable {σ : Type} {S : Src σ} {I : σ → Prop} {P : Int → Prop} {val : Int → Int}

/-- The sample `off` frames from `pos` can be fetched: no overflow, and the source has it. -/
def Can (P : Int → Prop) (nch pos off : Int) (ch : Nat) : Prop :=
  InI32 (pos + off * nch) ∧ InI32 (pos + off * nch + ch) ∧ P (pos + off * nch + ch)

theorem srcVal_ok (hS : SrcIs S I P val) {r : Rd} {s : σ} {pos off : Int} {ch : Nat} (hs : I s)
    (h : Can P r.nch pos off ch) :
    ∃ s', srcVal S r s pos off ch = .ok (val (pos + off * r.nch + ch), s') ∧ I s' := by
  obtain ⟨h1, h2, h3⟩ := h
  obtain ⟨s', e, hs'⟩ := hS s _ hs h3
  exact ⟨s', by unfold srcVal; simp only [chkI32_ok h1, chkI32_ok h2, ok_bind, e], hs'⟩

/-- The source serves every index in `P`, with some 16-bit sample. -/
def SrcOk (S : Src σ) (I : σ → Prop) (P : Int → Prop) : Prop :=
  ∀ s i, I s → P i → ∃ v s', S.get s i = .ok (v, s') ∧ I s' ∧ InI16 v

theorem SrcIs.ok (hS : SrcIs S I P val) (hv : ∀ i, P i → InI16 (val i)) : SrcOk S I P := by
  intro s i hs hi
  obtain ⟨s', e, h⟩ := hS s i hs hi
  exact ⟨_, s', e, h, hv i hi⟩

theorem srcVal_ok' (hS : SrcOk S I P) {r : Rd} {s : σ} {pos off : Int} {ch : Nat} (hs : I s)
    (h : Can P r.nch pos off ch) :
    ∃ v s', srcVal S r s pos off ch = .ok (v, s') ∧ I s' ∧ InI16 v := by
  obtain ⟨h1, h2, h3⟩ := h
  obtain ⟨v, s', e, hs', hv⟩ := hS s _ hs h3
  exact ⟨v, s', by unfold srcVal; simp only [chkI32_ok h1, chkI32_ok h2, ok_bind, e], hs', hv⟩

/-- Every interpolation point is a 16-bit sample. -/
def PtsOk (r : Rd) : Prop := ∀ c, InI16 (r.pts c).y0 ∧ InI16 (r.pts c).y1 ∧ InI16 (r.pts c).y2 ∧ InI16 (r.pts c).y3

theorem addPoint_ok {r : Rd} {ch : Nat} {y : Int} (hp : PtsOk r) (hy : InI16 y)
    (hc : r.interp ≠ .none → ch < 8) : ∃ r', addPoint r ch y = .ok r' ∧ PtsOk r' ∧ SameBut r r' := by
  unfold addPoint
  cases hi : r.interp with
  | none => exact ⟨r, rfl, hp, SameBut.refl r⟩
  | linear =>
    simp only [if_pos (hc (by rw [hi]; simp))]
    refine ⟨_, rfl, ?_, by unfold SameBut; simp only [hi]⟩
    intro c
    by_cases h : c = ch
    · subst h
      simp only [Function.update_self]
      exact ⟨(hp c).2.1, hy, (hp c).2.2⟩
    · simp only [Function.update_of_ne h]; exact hp c
  | quadratic =>
    simp only [if_pos (hc (by rw [hi]; simp))]
    refine ⟨_, rfl, ?_, by unfold SameBut; simp only [hi]⟩
    intro c
    by_cases h : c = ch
    · subst h
      simp only [Function.update_self]
      exact ⟨(hp c).2.1, (hp c).2.2.1, (hp c).2.2.2, hy⟩
    · simp only [Function.update_of_ne h]; exact hp c

/-- What mixing needs: both heads can fetch, the weight is a weight. -/
structure MixOk (P : Int → Prop) (r : Rd) (ch : Nat) : Prop where
  one : Can P r.nch r.pos1 0 ch
  two : r.dual = true → r.cfOn = true → Can P r.nch r.pos2 0 ch
  w0 : 0 ≤ r.crossfade
  w1 : r.crossfade ≤ 1

/-- The uninterpolated sample: one head's, or between the two heads'. -/
theorem baseVal_ok (fp : Fp) (hS : SrcIs S I P val) (hv : ∀ i, P i → InI16 (val i)) {r : Rd} {s : σ} {ch : Nat}
    (hs : I s) (h : MixOk P r ch) :
    ∃ v s', baseVal fp S r s ch = .ok (v, s') ∧ InI16 v ∧ I s' ∧
      ((r.dual && r.cfOn) = false → v = val (r.pos1 + ch)) ∧
      ((r.dual && r.cfOn) = true → min (val (r.pos1 + ch)) (val (r.pos2 + ch)) - 1 ≤ v ∧
        v ≤ max (val (r.pos1 + ch)) (val (r.pos2 + ch)) + 1 ∧
        |v| ≤ max |val (r.pos1 + ch)| |val (r.pos2 + ch)| ∧
        |(v : ℚ) - (r.crossfade * val (r.pos1 + ch) + (1 - r.crossfade) * val (r.pos2 + ch))| < 1 + 2 ^ (-30 : ℤ)) := by
  have e1 : r.pos1 + 0 * r.nch + ch = r.pos1 + ch := by ring
  have e2 : r.pos2 + 0 * r.nch + ch = r.pos2 + ch := by ring
  unfold baseVal
  cases hd : (r.dual && r.cfOn)
  · have hb : (!r.dual || !r.cfOn) = true := by
      revert hd; cases r.dual <;> cases r.cfOn <;> simp
    rw [if_pos hb]
    obtain ⟨s', a1, a2⟩ := srcVal_ok hS hs h.one
    have a3 := hv _ h.one.2.2
    rw [e1] at a1 a3
    exact ⟨_, s', a1, a3, a2, fun _ => rfl, fun h => by cases h⟩
  · have hb : (!r.dual || !r.cfOn) = false := by
      revert hd; cases r.dual <;> cases r.cfOn <;> simp
    rw [if_neg (by rw [hb]; simp)]
    rw [Bool.and_eq_true] at hd
    have h2 := h.two hd.1 hd.2
    have v1 := hv _ h.one.2.2
    have v2 := hv _ h2.2.2
    rw [e1] at v1
    rw [e2] at v2
    by_cases hz : r.crossfade = 0
    · rw [if_pos hz]
      obtain ⟨s', a1, a2⟩ := srcVal_ok hS hs h2
      rw [e2] at a1
      refine ⟨_, s', a1, v2, a2, fun h => (by cases h), fun _ => ⟨?_, ?_, le_max_right _ _, ?_⟩⟩
      · have := min_le_right (val (r.pos1 + ch)) (val (r.pos2 + ch)); omega
      · have := le_max_right (val (r.pos1 + ch)) (val (r.pos2 + ch)); omega
      · rw [hz]; simp only [zero_mul, sub_zero, one_mul, zero_add, sub_self, abs_zero]; positivity
    · rw [if_neg hz]
      obtain ⟨s1, a1, a2⟩ := srcVal_ok hS hs h.one
      obtain ⟨s2, b1, b2⟩ := srcVal_ok hS a2 h2
      obtain ⟨m, c1, c2, c3, c4, c5, c6⟩ := mix_ok fp.d h.w0 h.w1 v1 v2
      rw [e1] at a1
      rw [e2] at b1
      refine ⟨m, s2, ?_, c2, b2, fun h => (by cases h), fun _ => ⟨c3, c4, c5, c6⟩⟩
      simp only [a1, b1, ok_bind]
      rw [add_comm, c1]; rfl

theorem baseVal_ok' (fp : Fp) (hS : SrcOk S I P) {r : Rd} {s : σ} {ch : Nat} (hs : I s) (h : MixOk P r ch) :
    ∃ v s', baseVal fp S r s ch = .ok (v, s') ∧ InI16 v ∧ I s' := by
  unfold baseVal
  split
  · obtain ⟨v, s', a1, a2, a3⟩ := srcVal_ok' hS hs h.one
    exact ⟨v, s', a1, a3, a2⟩
  · rename_i hb
    have h2 := h.two (by revert hb; cases r.dual <;> simp) (by revert hb; cases r.cfOn <;> simp)
    split
    · obtain ⟨v, s', a1, a2, a3⟩ := srcVal_ok' hS hs h2
      exact ⟨v, s', a1, a3, a2⟩
    · obtain ⟨v1, s1, a1, a2, a3⟩ := srcVal_ok' hS hs h.one
      obtain ⟨v2, s2, b1, b2, b3⟩ := srcVal_ok' hS a2 h2
      obtain ⟨m, c1, c2, _⟩ := mix_ok fp.d h.w0 h.w1 a3 b3
      refine ⟨m, s2, ?_, c2, b2⟩
      simp only [a1, b1, ok_bind]
      rw [add_comm, c1]; rfl

theorem linearVal_ok (fp : Fp) (hS : SrcOk S I P) {r : Rd} {s : σ} {ch : Nat}
    (hs : I s) (hp : PtsOk r) (hc : ch < 8) (hf : |r.rem| < 1) {v : Int} (hvv : InI16 v)
    (hfwd : r.dual = false → r.rem ≠ 0 → 1 < r.rate → r.header * 2 < r.pos1 - r.nch → Can P r.nch r.pos1 (-1) ch)
    (hrev : r.dual = false → r.rate < -1 → Can P r.nch r.pos1 1 ch) :
    ∃ v' r' s', linearVal fp S r s ch v = .ok (v', r', s') ∧ InI16 v' ∧ PtsOk r' ∧ SameBut r r' ∧ I s' := by
  have hpts : ∀ q : Rd, ptsOf q ch = .ok (q.pts ch) := fun q => by unfold ptsOf; rw [if_pos hc]
  have hstep : ∀ y s1, I s1 → InI16 y → ∃ r' s', (addPoint { r with pts := Function.update r.pts ch { r.pts ch with y1 := y } } ch v
      >>= fun r' => (pure (r', s1) : M (Rd × σ))) = .ok (r', s') ∧ PtsOk r' ∧ SameBut r r' ∧ I s' := by
    intro y s1 hs1 hy
    obtain ⟨r', a1, a2, a3⟩ := addPoint_ok (r := { r with pts := Function.update r.pts ch { r.pts ch with y1 := y } })
      (ch := ch) (y := v)
      (by
        intro c
        by_cases h : c = ch
        · subst h
          simp only [Function.update_self]
          exact ⟨(hp c).1, hy, (hp c).2.2⟩
        · simp only [Function.update_of_ne h]; exact hp c) hvv (fun _ => hc)
    exact ⟨r', s1, by rw [a1]; rfl, a2, SameBut.trans SameBut.pts a3, hs1⟩
  have hadd : ∃ r' s', (addPoint r ch v >>= fun r' => (pure (r', s) : M (Rd × σ))) = .ok (r', s') ∧ PtsOk r' ∧ SameBut r r' ∧ I s' := by
    obtain ⟨r', a1, a2, a3⟩ := addPoint_ok hp hvv (fun _ => hc)
    exact ⟨r', s, by rw [a1]; rfl, a2, a3, hs⟩
  unfold linearVal
  simp only
  by_cases ha : |r.rem| > 0
  · rw [if_pos ha]
    obtain ⟨r', s', h1, h2, h3, h4⟩ : ∃ r' s', ((do
      if r.rate > 0 then
        if fp.d.rnd (r.rem - r.rate) < 0 then
          let p ← ptsOf r ch
          if !r.dual && p.n < 2 && r.rate > 1 && r.pos1 - r.nch > r.header * 2 then
            let (y, s) ← srcVal S r s r.pos1 (-1) ch
            let r := { r with pts := Function.update r.pts ch { p with y1 := y } }
            return (← addPoint r ch v, s)
          else return (← addPoint r ch v, s)
        else return (r, s)
      else if r.rate < 0 then
        if fp.d.rnd (r.rem - r.rate) > 0 then
          let p ← ptsOf r ch
          if !r.dual && p.n < 2 && r.rate < -1 then
            let (y, s) ← srcVal S r s r.pos1 1 ch
            let r := { r with pts := Function.update r.pts ch { p with y1 := y } }
            return (← addPoint r ch v, s)
          else return (← addPoint r ch v, s)
        else return (r, s)
      else return (r, s)) : M (Rd × σ)) = .ok (r', s') ∧ PtsOk r' ∧ SameBut r r' ∧ I s' := by
      split
      · split
        · simp only [hpts, ok_bind]
          split
          · rename_i hb
            simp only [Bool.and_eq_true, decide_eq_true_eq, Bool.not_eq_true'] at hb
            have hcan := hfwd hb.1.1.1 (abs_pos.1 ha) hb.1.2 hb.2
            obtain ⟨y1, s1, b1, b2, b3⟩ := srcVal_ok' hS hs hcan
            simp only [b1, ok_bind]
            exact hstep _ s1 b2 b3
          · exact hadd
        · exact ⟨r, s, rfl, hp, SameBut.refl r, hs⟩
      · split
        · split
          · simp only [hpts, ok_bind]
            split
            · rename_i hb
              simp only [Bool.and_eq_true, decide_eq_true_eq, Bool.not_eq_true'] at hb
              have hcan := hrev hb.1.1 hb.2
              obtain ⟨y1, s1, b1, b2, b3⟩ := srcVal_ok' hS hs hcan
              simp only [b1, ok_bind]
              exact hstep _ s1 b2 b3
            · exact hadd
          · exact ⟨r, s, rfl, hp, SameBut.refl r, hs⟩
        · exact ⟨r, s, rfl, hp, SameBut.refl r, hs⟩
    rw [h1]
    simp only [ok_bind, hpts]
    split
    · obtain ⟨m, c1, c2, _⟩ := mix_ok fp.d (abs_nonneg r.rem) (le_of_lt hf) (h2 ch).2.1 (h2 ch).1
      rw [c1]
      exact ⟨m, r', s', rfl, c2, h2, h3, h4⟩
    · exact ⟨v, r', s', rfl, hvv, h2, h3, h4⟩
  · rw [if_neg ha]
    obtain ⟨r', a1, a2, a3⟩ := addPoint_ok hp hvv (fun _ => hc)
    rw [a1]
    simp only [ok_bind, hpts]
    exact ⟨_, r', s, rfl, (a2 ch).1, a2, a3, hs⟩

theorem pushLoop_ok (fp : Fp) (hS : SrcOk S I P) {fwd : Bool} {ch : Nat} (hc : ch < 8) :
    ∀ {k : Nat} {r : Rd} {s : σ}, I s → PtsOk r → 0 ≤ r.crossfade → r.crossfade ≤ 1 →
      (∀ j : Nat, j < k → Can P r.nch r.pos1 (if fwd then -(j : Int) else j) ch) →
      (r.dual = true → r.cfOn = true → ∀ j : Int, |j| < k → Can P r.nch r.pos2 j ch) →
      ∃ r' s', pushLoop fp S fwd ch k r s = .ok (r', s') ∧ PtsOk r' ∧ SameBut r r' ∧ I s'
  | 0, r, s, hs, hp, _, _, _, _ => ⟨r, s, rfl, hp, SameBut.refl r, hs⟩
  | k + 1, r, s, hs, hp, w0, w1, h1, h2 => by
    have hc1 := h1 k (by omega)
    obtain ⟨y1, s1, a1, a2, a3⟩ := srcVal_ok' hS hs hc1
    have hmid : ∃ y s2, ((do
      if r.dual && r.cfOn then
        let (v2, s) ← srcVal S r s1 r.pos2 (if r.loopType = .pingpong then -(if fwd then -(k : Int) else k) else (if fwd then -(k : Int) else k)) ch
        let y ← castI16 (fp.d.rnd (fp.d.rnd (y1 * r.crossfade) + fp.d.rnd (v2 * fp.d.rnd (1 - r.crossfade))))
        return (y, s)
      else return (y1, s1)) : M (Int × σ)) = .ok (y, s2) ∧ InI16 y ∧ I s2 := by
      split
      · rename_i hb
        rw [Bool.and_eq_true] at hb
        have hc2 := h2 hb.1 hb.2 (if r.loopType = .pingpong then -(if fwd then -(k : Int) else k) else (if fwd then -(k : Int) else k))
          (by split <;> split <;> simp)
        obtain ⟨y2, s2, b1, b2, b3⟩ := srcVal_ok' hS a2 hc2
        obtain ⟨m, c1, c2, _⟩ := mix_ok fp.d w0 w1 a3 b3
        refine ⟨m, s2, ?_, c2, b2⟩
        simp only [b1, ok_bind]
        rw [mul_comm _ r.crossfade, mul_comm _ (fp.d.rnd (1 - r.crossfade)), c1]; rfl
      · exact ⟨_, s1, rfl, a3, a2⟩
    obtain ⟨y, s2, d1, d2, d3⟩ := hmid
    obtain ⟨r1, e1, e2, e3⟩ := addPoint_ok hp d2 (fun _ => hc)
    have hq : r1.crossfade = r.crossfade ∧ r1.nch = r.nch ∧ r1.pos1 = r.pos1 ∧ r1.pos2 = r.pos2 ∧ r1.dual = r.dual ∧ r1.cfOn = r.cfOn := by
      rw [e3]; exact ⟨rfl, rfl, rfl, rfl, rfl, rfl⟩
    obtain ⟨q1, q2, q3, q4, q5, q6⟩ := hq
    obtain ⟨r2, s3, f1, f2, f3, f4⟩ := pushLoop_ok fp hS hc (fwd := fwd) (k := k) (r := r1) (s := s2) d3 e2
      (by rw [q1]; exact w0) (by rw [q1]; exact w1)
      (by rw [q2, q3]; exact fun j hj => h1 j (by omega))
      (by rw [q2, q4, q5, q6]; exact fun x y j hj => h2 x y j (by push_cast; omega))
    refine ⟨r2, s3, ?_, f2, e3.trans f3, f4⟩
    rw [pushLoop]
    simp only [a1, ok_bind]
    simp only [] at d1
    rw [d1]
    simp only [ok_bind, e1, f1]

theorem one_add_range (fp : Fp) {a : ℚ} (h0 : 0 ≤ a) (h1 : a < 1) :
    1 ≤ fp.f.rnd (fp.d.rnd (1 + a)) ∧ fp.f.rnd (fp.d.rnd (1 + a)) ≤ 2 := by
  have d1 : fp.d.rnd 1 = 1 := by simpa using fp.d.exact_int (m := 1) (by norm_num) (by norm_num) (by norm_num)
  have d2 : fp.d.rnd 2 = 2 := by simpa using fp.d.exact_int (m := 2) (by norm_num) (by norm_num) (by norm_num)
  have f1 : fp.f.rnd 1 = 1 := by simpa using fp.f.exact_int (m := 1) (by norm_num) (by norm_num) (by norm_num)
  have f2 : fp.f.rnd 2 = 2 := by simpa using fp.f.exact_int (m := 2) (by norm_num) (by norm_num) (by norm_num)
  have m1 := fp.d.mono (show (1 : ℚ) ≤ 1 + a by linarith)
  have m2 := fp.d.mono (show 1 + a ≤ (2 : ℚ) by linarith)
  rw [d1] at m1
  rw [d2] at m2
  have m3 := fp.f.mono m1
  have m4 := fp.f.mono m2
  rw [f1] at m3
  rw [f2] at m4
  exact ⟨m3, m4⟩

/-- `K` bounds how many source frames are pushed. -/
theorem quadVal_ok (fp : Fp) (hS : SrcOk S I P) {r : Rd} {s : σ} {ch : Nat}
    (hs : I s) (hp : PtsOk r) (hc : ch < 8) (hf : |r.rem| < 1) (hrate : |r.rate| ≤ 2 ^ 30)
    (w0 : 0 ≤ r.crossfade) (w1 : r.crossfade ≤ 1) {K : Nat}
    (hKf : 0 < r.rate → fp.d.rnd (r.rem - r.rate) < 0 → min (-⌊fp.d.rnd (r.rem - r.rate)⌋) 4 ≤ K)
    (hKr : r.rate < 0 → fp.d.rnd (r.rem - r.rate) > 0 → min ⌈fp.d.rnd (r.rem - r.rate)⌉ 4 ≤ K)
    (h1f : 0 < r.rate → ∀ j : Nat, j < K → Can P r.nch r.pos1 (-(j : Int)) ch)
    (h1r : r.rate < 0 → ∀ j : Nat, j < K → Can P r.nch r.pos1 j ch)
    (h2 : r.dual = true → r.cfOn = true → ∀ j : Int, |j| < K → Can P r.nch r.pos2 j ch) :
    ∃ v' r' s', quadVal fp S r s ch = .ok (v', r', s') ∧ InI16 v' ∧ PtsOk r' ∧ SameBut r r' ∧ I s' := by
  have hpts : ∀ q : Rd, ptsOf q ch = .ok (q.pts ch) := fun q => by unfold ptsOf; rw [if_pos hc]
  have hbig : |fp.d.rnd (r.rem - r.rate)| ≤ 2 ^ (31 - 1 + 1 - 0 : ℤ) / 2 + 1 := by
    have hx : |r.rem - r.rate| ≤ ((2 ^ 30 + 1 : Int) : ℚ) := by
      have := abs_sub r.rem r.rate; push_cast; linarith
    have e1 : fp.d.rnd ((2 ^ 30 + 1 : Int) : ℚ) = ((2 ^ 30 + 1 : Int) : ℚ) :=
      fp.d.exact_int (by norm_num) (by norm_num) (by norm_num)
    have e2 : fp.d.rnd ((-(2 ^ 30 + 1) : Int) : ℚ) = ((-(2 ^ 30 + 1) : Int) : ℚ) :=
      fp.d.exact_int (by norm_num) (by norm_num) (by norm_num)
    obtain ⟨x1, x2⟩ := abs_le.1 hx
    have m1 := fp.d.mono x2
    have m2 := fp.d.mono (show ((-(2 ^ 30 + 1) : Int) : ℚ) ≤ r.rem - r.rate by rw [Int.cast_neg]; exact x1)
    rw [e1] at m1
    rw [e2] at m2
    push_cast at m1 m2
    rw [abs_le]; constructor <;> norm_num <;> linarith
  norm_num at hbig
  obtain ⟨hb1, hb2⟩ := abs_le.1 hbig
  unfold quadVal
  simp only
  obtain ⟨r', s', h1, h2, h3, h4⟩ : ∃ r' s', ((do
    if r.rate > 0 then
      if fp.d.rnd (r.rem - r.rate) < 0 then
        let k ← castI32 (-(⌊fp.d.rnd (r.rem - r.rate)⌋ : ℚ))
        pushLoop fp S true ch (min k 4).toNat r s
      else return (r, s)
    else if r.rate < 0 then
      if fp.d.rnd (r.rem - r.rate) > 0 then
        let k ← castI32 (⌈fp.d.rnd (r.rem - r.rate)⌉ : ℚ)
        pushLoop fp S false ch (min k 4).toNat r s
      else return (r, s)
    else return (r, s)) : M (Rd × σ)) = .ok (r', s') ∧ PtsOk r' ∧ SameBut r r' ∧ I s' := by
    split
    · rename_i hr
      split
      · rename_i ht
        have e : (-(⌊fp.d.rnd (r.rem - r.rate)⌋ : ℚ)) = ((-⌊fp.d.rnd (r.rem - r.rate)⌋ : Int) : ℚ) := by push_cast; rfl
        have g1 := Int.floor_le (fp.d.rnd (r.rem - r.rate))
        have g2 := Int.lt_floor_add_one (fp.d.rnd (r.rem - r.rate))
        rw [castI32_ok (by linarith) (by linarith), e, trunc_int]
        simp only [ok_bind]
        have hK := hKf hr ht
        exact pushLoop_ok fp hS hc hs hp w0 w1 (fun j hj => by simpa using h1f hr j (by omega))
          (fun x y j hj => h2 x y j (by omega))
      · exact ⟨r, s, rfl, hp, SameBut.refl r, hs⟩
    · split
      · rename_i hr
        split
        · rename_i ht
          have g1 := Int.le_ceil (fp.d.rnd (r.rem - r.rate))
          have g2 := Int.ceil_lt_add_one (fp.d.rnd (r.rem - r.rate))
          rw [castI32_ok (by linarith) (by linarith), trunc_int]
          simp only [ok_bind]
          have hK := hKr hr ht
          exact pushLoop_ok fp hS hc hs hp w0 w1 (fun j hj => by simpa using h1r hr j (by omega))
            (fun x y j hj => h2 x y j (by omega))
        · exact ⟨r, s, rfl, hp, SameBut.refl r, hs⟩
      · exact ⟨r, s, rfl, hp, SameBut.refl r, hs⟩
  rw [h1]
  simp only [ok_bind, hpts]
  split
  · obtain ⟨a1, a2⟩ := one_add_range fp (abs_nonneg r.rem) hf
    obtain ⟨v, b1, b2⟩ := C10_range fp (r'.pts ch).y0 (r'.pts ch).y1 (r'.pts ch).y2 (r'.pts ch).y3 _
      (h2 ch).1 (h2 ch).2.1 (h2 ch).2.2.1 (h2 ch).2.2.2 a1 a2
    rw [b1]
    exact ⟨v, r', s', rfl, b2, h2, h3, h4⟩
  · exact ⟨0, r', s', rfl, by decide, h2, h3, h4⟩

/-- Everything one frame needs at a settled position. -/
structure FrameOk (fp : Fp) (P : Int → Prop) (r : Rd) : Prop where
  fine : r.atEnd = false
  frac : |r.rem| < 1
  small : |r.rate| ≤ 2 ^ 30
  w0 : 0 ≤ r.crossfade
  w1 : r.crossfade ≤ 1
  chans : r.interp ≠ .none → r.nch ≤ 8
  one : ∀ ch : Nat, (ch : Int) < r.nch → Can P r.nch r.pos1 0 ch
  two : r.dual = true → r.cfOn = true → ∀ ch : Nat, (ch : Int) < r.nch → Can P r.nch r.pos2 0 ch
  linF : r.interp = .linear → r.dual = false → r.rem ≠ 0 → 1 < r.rate → r.header * 2 < r.pos1 - r.nch →
    ∀ ch : Nat, (ch : Int) < r.nch → Can P r.nch r.pos1 (-1) ch
  linR : r.interp = .linear → r.dual = false → r.rate < -1 →
    ∀ ch : Nat, (ch : Int) < r.nch → Can P r.nch r.pos1 1 ch
  quad : r.interp = .quadratic → ∃ K : Nat,
    (0 < r.rate → fp.d.rnd (r.rem - r.rate) < 0 → min (-⌊fp.d.rnd (r.rem - r.rate)⌋) 4 ≤ K) ∧
    (r.rate < 0 → fp.d.rnd (r.rem - r.rate) > 0 → min ⌈fp.d.rnd (r.rem - r.rate)⌉ 4 ≤ K) ∧
    (∀ ch : Nat, (ch : Int) < r.nch → (0 < r.rate → ∀ j : Nat, j < K → Can P r.nch r.pos1 (-(j : Int)) ch) ∧
      (r.rate < 0 → ∀ j : Nat, j < K → Can P r.nch r.pos1 j ch) ∧
      (r.dual = true → r.cfOn = true → ∀ j : Int, |j| < K → Can P r.nch r.pos2 j ch))

theorem FrameOk.same {fp : Fp} {r r' : Rd} (h : FrameOk fp P r) (hb : SameBut r r') : FrameOk fp P r' := by
  have he := hb.atEnd
  rw [hb] at he ⊢
  exact ⟨by rw [he]; exact h.fine, h.frac, h.small, h.w0, h.w1, h.chans, h.one, h.two, h.linF, h.linR, h.quad⟩

theorem readNextValue_ok (fp : Fp) (hS : SrcOk S I P) {r : Rd} {s : σ} {ch : Nat}
    (hs : I s) (hp : PtsOk r) (h : FrameOk fp P r) (hc : (ch : Int) < r.nch) :
    ∃ v r' s', readNextValue fp S r s ch = .ok (some v, r', s') ∧ InI16 v ∧ PtsOk r' ∧ SameBut r r' ∧ I s' := by
  obtain ⟨v, s1, a1, a2, a3⟩ := baseVal_ok' fp hS hs
    (r := r) (ch := ch) ⟨h.one ch hc, fun x y => h.two x y ch hc, h.w0, h.w1⟩
  unfold readNextValue
  simp only [h.fine, Bool.false_eq_true, if_false, a1, ok_bind]
  cases hi : r.interp with
  | none => exact ⟨v, r, s1, rfl, a2, hp, SameBut.refl r, a3⟩
  | linear =>
    have hc8 : ch < 8 := by have := h.chans (by rw [hi]; simp); omega
    obtain ⟨v', r', s', b1, b2, b3, b4, b5⟩ := linearVal_ok fp hS a3 hp hc8 h.frac a2
      (fun x y z w => h.linF hi x y z w ch hc) (fun x y => h.linR hi x y ch hc)
    simp only [b1, ok_bind]
    exact ⟨v', r', s', rfl, b2, b3, b4, b5⟩
  | quadratic =>
    have hc8 : ch < 8 := by have := h.chans (by rw [hi]; simp); omega
    obtain ⟨K, k1, k2, k3⟩ := h.quad hi
    obtain ⟨k4, k5, k6⟩ := k3 ch hc
    obtain ⟨v', r', s', b1, b2, b3, b4, b5⟩ := quadVal_ok fp hS a3 hp hc8 h.frac h.small h.w0 h.w1 k1 k2 k4 k5 k6
    simp only [b1, ok_bind]
    exact ⟨v', r', s', rfl, b2, b3, b4, b5⟩

theorem readFrame_ok (fp : Fp) (hS : SrcOk S I P) (fuel : Nat) :
    ∀ (left ch : Nat) (r : Rd) (s : σ), I s → PtsOk r → FrameOk fp P r → ((ch + left : Nat) : Int) ≤ r.nch →
      ∃ vs r' s', readFrame fp S (fuel + 1) left ch r s = .ok (vs, true, r', s') ∧ vs.length = left ∧
        (∀ v ∈ vs, InI16 v) ∧ PtsOk r' ∧ SameBut r r' ∧ I s'
  | 0, ch, r, s, hs, hp, _, _ => ⟨[], r, s, rfl, rfl, by simp, hp, SameBut.refl r, hs⟩
  | left + 1, ch, r, s, hs, hp, h, hc => by
    obtain ⟨v, r1, s1, a1, a2, a3, a4, a5⟩ := readNextValue_ok fp hS hs hp h (ch := ch) (by omega)
    have hn : r1.nch = r.nch := a4.conf.nch
    obtain ⟨vs, r2, s2, b1, b2, b3, b4, b5, b6⟩ := readFrame_ok fp hS fuel left (ch + 1) r1 s1 a5 a3 (h.same a4)
      (by rw [hn]; omega)
    refine ⟨v :: vs, r2, s2, ?_, by simp [b2], ?_, b4, a4.trans b5, b6⟩
    · unfold readFrame
      rw [readChan_settled h.fine, a1]
      simp only [ok_bind, b1]; rfl
    · intro x hx
      rcases List.mem_cons.1 hx with rfl | hx
      · exact a2
      · exact b3 x hx

end TVP
