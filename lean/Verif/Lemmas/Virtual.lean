import Verif.Lemmas.Smooth

/-!
# Interpolated playback along a path, as forward playback of the material in the order it is met

At speeds up to normal a reader that repeats a loop, or goes backwards, fetches one new frame at a time; what it computes is what
forward playback of the sequence of frames met would compute.  `u` is the position in that sequence.
-/

namespace TVP
open Spec

variable {σ : Type} {S : Src σ} {I : σ → Prop} {P : Int → Prop} {val : Int → Int}

/-- The fraction a reader holds at position `u` of the sequence, going either way. -/
def Heads (ρ u : ℚ) (r : Rd) : Prop := (r.rate = ρ ∧ r.rem = Int.fract u) ∨ (r.rate = -ρ ∧ r.rem = -Int.fract u)

theorem Heads.abs {ρ u : ℚ} {r : Rd} (h : Heads ρ u r) : |r.rem| = u - ⌊u⌋ := by
  have h0 := Int.fract_nonneg u
  rcases h with ⟨_, h⟩ | ⟨_, h⟩
  · rw [h, abs_of_nonneg h0]; rfl
  · rw [h, abs_neg, abs_of_nonneg h0]; rfl

theorem rnd_fract {fp : Fp} {p : Nat} {ρ u : ℚ} (hρ : 0 < ρ) (hg : GridRate p ρ) (hu : OnGrid p u) :
    fp.d.rnd (Int.fract u - ρ) = Int.fract u - ρ ∧ fp.d.rnd (-Int.fract u - -ρ) = -(Int.fract u - ρ) := by
  have hb := hg.bound
  rw [abs_of_nonneg (le_of_lt hρ)] at hb
  have hone : (1 : ℚ) ≤ 2 ^ (52 - p) := one_le_pow₀ (by norm_num)
  have htwo : (2 : ℚ) ^ (53 - p) = 2 * 2 ^ (52 - p) := by
    have := hg.hp
    rw [← pow_succ']; congr 1; omega
  have h0 := Int.fract_nonneg u
  have h1 := Int.fract_lt_one u
  have hgr : OnGrid p (Int.fract u - ρ) := (hu.sub (OnGrid.int p _)).sub hg.grid
  have hgr' : OnGrid p (-(Int.fract u - ρ)) := by
    have := (OnGrid.int p 0).sub hgr
    simpa using this
  refine ⟨hgr.exact hg.hp (by rw [abs_le]; constructor <;> linarith) fp.d, ?_⟩
  rw [show -Int.fract u - -ρ = -(Int.fract u - ρ) by ring]
  exact hgr'.exact hg.hp (by rw [abs_le]; constructor <;> linarith) fp.d

theorem floor_cross {ρ u : ℚ} (hρ : 0 < ρ) (hρ1 : ρ ≤ 1) : (⌊u - ρ⌋ + 1 = ⌊u⌋ ∧ Int.fract u - ρ < 0) ∨ (⌊u - ρ⌋ = ⌊u⌋ ∧ 0 ≤ Int.fract u - ρ) := by
  have hfl : ⌊u - ρ⌋ ≤ ⌊u⌋ := Int.floor_le_floor (by linarith)
  have hfl1 : ⌊u⌋ ≤ ⌊u - ρ⌋ + 1 := by
    have : ⌊u - 1⌋ ≤ ⌊u - ρ⌋ := Int.floor_le_floor (by linarith)
    rw [Int.floor_sub_one] at this
    omega
  unfold Int.fract
  by_cases h : u - ⌊u⌋ - ρ < 0
  · have : ⌊u - ρ⌋ < ⌊u⌋ := Int.floor_lt.2 (by linarith)
    exact Or.inl ⟨by omega, h⟩
  · have : ⌊u⌋ ≤ ⌊u - ρ⌋ := Int.le_floor.2 (by linarith)
    exact Or.inr ⟨by omega, not_lt.1 h⟩

/-- One channel of one frame at position `u` of the sequence: `o` is what it delivers, `Good` what is known of its stored points. -/
def VStep (fp : Fp) (data : List Int) (nch p : Nat) (ρ : ℚ) (k : Interp) (W : Nat → Int → Int) (o : ℚ → Nat → Int) (Good : ℚ → Nat → Pts → Prop) : Prop :=
  ∀ (r : Rd) (u : ℚ) (ch : Nat), r.atEnd = false → r.dual = false → r.interp = k → Heads ρ u r → OnGrid p u → ch < nch →
    InI32 r.pos1 → InI32 (r.pos1 + ch) → 0 ≤ r.pos1 + ch → r.pos1 + ch < data.length → data.getD (r.pos1 + ch).toNat 0 = W ch ⌊u⌋ → Good u ch (r.pts ch) →
    ∃ q, readNextValue fp arraySrc r (some data) ch = .ok (some (o u ch), { r with pts := Function.update r.pts ch q }, some data) ∧ Good (u + ρ) ch q

theorem base_virtual (fp : Fp) {data : List Int} {r : Rd} {ch : Nat} (hd : r.dual = false) (b1 : InI32 r.pos1) (b2 : InI32 (r.pos1 + ch))
    (b3 : 0 ≤ r.pos1 + ch) (b4 : r.pos1 + ch < data.length) : baseVal fp arraySrc r (some data) ch = .ok (data.getD (r.pos1 + ch).toNat 0, some data) ∧
      srcVal arraySrc r (some data) r.pos1 0 ch = .ok (data.getD (r.pos1 + ch).toNat 0, some data) := by
  obtain ⟨s1, e1, e2⟩ := arraySrcIs data (some data) (r.pos1 + ch) rfl ⟨b3, b4⟩
  subst e2
  have hs : srcVal arraySrc r (some data) r.pos1 0 ch = .ok (data.getD (r.pos1 + ch).toNat 0, some data) := by
    unfold srcVal
    simp only [zero_mul, add_zero]
    rw [chkI32_ok b1]
    simp only [ok_bind]
    rw [chkI32_ok b2]
    simp only [ok_bind, e1]
  refine ⟨?_, hs⟩
  unfold baseVal
  simp only [hd, Bool.not_false, Bool.true_or, if_true]
  exact hs

theorem linear_virtual (fp : Fp) {data : List Int} {nch p : Nat} {ρ : ℚ} {W : Nat → Int → Int} (stale : Nat → Int) {b : Int} (hρ : 0 < ρ) (hρ1 : ρ ≤ 1) (h8 : nch ≤ 8)
    (hg : GridRate p ρ) (hW : ∀ ch i, InI16 (W ch i)) :
    VStep fp data nch p ρ .linear W (fun u ch => linearOut fp (W ch) (stale ch) b u) (LinearGood W stale ρ b) := by
  intro r u ch hat hd hq hh hu hch b1 b2 b3 b4 hv hgood
  obtain ⟨g1, g2, g3, g4, g5⟩ := hgood
  have ch8 : ch < 8 := by omega
  obtain ⟨e1, -⟩ := base_virtual fp (data := data) hd b1 b2 b3 b4
  rw [hv] at e1
  have habs := hh.abs
  have hrem0 : 0 ≤ u - ⌊u⌋ := by have := Int.floor_le u; linarith
  have hrem1 : u - ⌊u⌋ < 1 := by have := Int.lt_floor_add_one u; linarith
  obtain ⟨t1, t2⟩ := rnd_fract (fp := fp) hρ hg hu
  have hcross := floor_cross (u := u) hρ hρ1
  obtain ⟨w, hw⟩ : ∃ w, w = W ch := ⟨_, rfl⟩
  have hsm : ∀ i : Int, InI16 (w i) := fun i => by rw [hw]; exact hW ch i
  simp only [← hw] at g4 g5 e1
  obtain ⟨q, hqd⟩ : ∃ q : Pts, q = { (r.pts ch) with y0 := (r.pts ch).y1, y1 := w ⌊u⌋, n := if (r.pts ch).n < 2 then (r.pts ch).n + 1 else (r.pts ch).n } := ⟨_, rfl⟩
  have hadd : addPoint r ch (w ⌊u⌋) = .ok { r with pts := Function.update r.pts ch q } := by rw [addPoint_lin hq ch8, hqd]
  have hqn : ⌊u - ρ⌋ + 1 = ⌊u⌋ → q.n = (min 2 (⌊u⌋ - b)).toNat := fun h => by rw [hqd]; simp only; rw [g2]; split <;> omega
  have hq1 : q.y1 = w ⌊u⌋ := by rw [hqd]
  have hq0 : q.y0 = (r.pts ch).y1 := by rw [hqd]
  -- what is stored afterwards
  have hgood : ∀ q' : Pts, (⌊u - ρ⌋ + 1 = ⌊u⌋ ∧ q' = q ∨ ⌊u - ρ⌋ = ⌊u⌋ ∧ q' = r.pts ch) →
      q'.n = (min 2 (⌊u⌋ - b)).toNat ∧ (q'.n = 0 → q'.y1 = stale ch) ∧ (1 ≤ q'.n → q'.y1 = w ⌊u⌋) ∧ (q'.n = 2 → q'.y0 = w (⌊u⌋ - 1)) ∧
      (q'.n = 1 → ⌊u - ρ⌋ + 1 = ⌊u⌋ → q'.y0 = stale ch) := by
    rintro q' (⟨h, rfl⟩ | ⟨h, rfl⟩)
    · refine ⟨hqn h, fun h0 => by rw [hqn h] at h0; omega, fun _ => hq1, fun h2 => ?_, fun h1 _ => ?_⟩
      · rw [hq0, g4 (by rw [hqn h] at h2; omega)]; congr 1; omega
      · rw [hq0, g3 (by rw [hqn h] at h1; omega)]
    · rw [h] at g2 g4 g5
      exact ⟨g2, g3, g4, g5, fun _ hh => by omega⟩
  have hfin : ∀ q' : Pts, (⌊u - ρ⌋ + 1 = ⌊u⌋ ∧ q' = q ∨ ⌊u - ρ⌋ = ⌊u⌋ ∧ q' = r.pts ch) → LinearGood W stale ρ b (u + ρ) ch q' := by
    intro q' hh
    obtain ⟨k1, k2, k3, k4, _⟩ := hgood q' hh
    unfold LinearGood
    rw [show u + ρ - ρ = u by ring, ← hw]
    refine ⟨?_, k1, k2, k3, k4⟩
    rcases hcross with ⟨c, _⟩ | ⟨c, _⟩ <;> omega
  dsimp only [linearOut]
  rw [← hw]
  by_cases hz : u - ⌊u⌋ = 0
  · -- on a frame
    have hc : ⌊u - ρ⌋ + 1 = ⌊u⌋ := by
      rcases hcross with ⟨c, _⟩ | ⟨_, c⟩
      · exact c
      · exfalso; unfold Int.fract at c; linarith
    refine ⟨q, readNextValue_lin hat hq e1 ?_, hfin q (Or.inl ⟨hc, rfl⟩)⟩
    obtain ⟨k1, k2, k3, k4, k5⟩ := hgood q (Or.inl ⟨hc, rfl⟩)
    unfold linearVal
    simp only [habs, hz, gt_iff_lt, lt_irrefl, if_false]
    rw [hadd]
    simp only [ok_bind, ptsOf, ch8, if_true, Function.update_self, pure_eq_ok]
    by_cases h2 : ⌊u⌋ - b < 2
    · rw [if_pos h2, if_pos (by linarith), k5 (by omega) hc]
    · rw [if_neg h2, mixOut_zero fp _ (hsm _), k4 (by omega)]
  · have hpz : 0 < u - ⌊u⌋ := lt_of_le_of_ne hrem0 (Ne.symm hz)
    obtain ⟨q', hq', hbr⟩ : ∃ q', (⌊u - ρ⌋ + 1 = ⌊u⌋ ∧ q' = q ∨ ⌊u - ρ⌋ = ⌊u⌋ ∧ q' = r.pts ch) ∧
        (if Int.fract u - ρ < 0 then (addPoint r ch (w ⌊u⌋) >>= fun r2 => .ok (r2, some data)) else .ok (r, some data)) =
          (.ok ({ r with pts := Function.update r.pts ch q' }, some data) : M (Rd × Option (List Int))) := by
      rcases hcross with ⟨c, c2⟩ | ⟨c, c2⟩
      · exact ⟨q, Or.inl ⟨c, rfl⟩, by rw [if_pos c2, hadd, ok_bind]⟩
      · exact ⟨r.pts ch, Or.inr ⟨c, rfl⟩, by rw [if_neg (not_lt.2 c2), Function.update_eq_self]⟩
    refine ⟨q', readNextValue_lin hat hq e1 ?_, hfin q' hq'⟩
    obtain ⟨k1, k2, k3, k4, k5⟩ := hgood q' hq'
    have hend : (if q'.n > 1 then castI16 (fp.d.rnd (fp.d.rnd ((u - ⌊u⌋) * q'.y1) + fp.d.rnd (fp.d.rnd (1 - (u - ⌊u⌋)) * q'.y0))) >>= fun v =>
          .ok (v, { r with pts := Function.update r.pts ch q' }, some data)
        else .ok (w ⌊u⌋, { r with pts := Function.update r.pts ch q' }, some data)) =
        (.ok (if ⌊u⌋ - b < 2 then (if u = ⌊u⌋ then stale ch else w ⌊u⌋) else mixOut fp (u - ⌊u⌋) (w ⌊u⌋) (w (⌊u⌋ - 1)),
          { r with pts := Function.update r.pts ch q' }, some data) : M (Int × Rd × Option (List Int))) := by
      by_cases h2 : ⌊u⌋ - b < 2
      · rw [if_neg (by omega), if_pos h2, if_neg (fun h => hz (by linarith))]
      · rw [if_pos (by omega), if_neg h2, k3 (by omega), k4 (by omega)]
        obtain ⟨m, hm, _⟩ := mix_ok fp.d hrem0 hrem1.le (hsm ⌊u⌋) (hsm (⌊u⌋ - 1))
        have : m = mixOut fp (u - ⌊u⌋) (w ⌊u⌋) (w (⌊u⌋ - 1)) := by
          unfold mixOut
          unfold castI16 at hm
          split at hm
          · cases hm; rfl
          · cases hm
        rw [hm, ok_bind, this]
    unfold linearVal
    simp only
    rw [if_pos (by rw [habs]; exact hpz)]
    rcases hh with ⟨h1, h2⟩ | ⟨h1, h2⟩
    · have hnr : ¬ r.rate > 1 := by rw [h1]; exact not_lt.2 hρ1
      have ht : fp.d.rnd (r.rem - r.rate) = Int.fract u - ρ := by rw [h1, h2]; exact t1
      rw [if_pos (by rw [h1]; exact hρ)]
      simp only [pure_eq_ok, ptsOf, ch8, if_true, ok_bind, decide_eq_false hnr, Bool.and_false, Bool.false_and, Bool.false_eq_true, if_false, ht, hbr,
        Function.update_self, habs]
      exact hend
    · have hnr : ¬ r.rate < -1 := by rw [h1]; intro h; linarith
      have ht : fp.d.rnd (r.rem - r.rate) = -(Int.fract u - ρ) := by rw [h1, h2]; exact t2
      rw [if_neg (by rw [h1]; intro h; linarith), if_pos (by rw [h1]; linarith)]
      simp only [pure_eq_ok, ptsOf, ch8, if_true, ok_bind, decide_eq_false hnr, Bool.and_false, Bool.false_eq_true, if_false, ht, gt_iff_lt,
        neg_pos, hbr, Function.update_self, habs]
      exact hend

theorem pushLoop_one (fp : Fp) {data : List Int} {r : Rd} {ch : Nat} (fwd : Bool) (hd : r.dual = false) {v : Int}
    (hs : srcVal arraySrc r (some data) r.pos1 0 ch = .ok (v, some data)) :
    pushLoop fp arraySrc fwd ch 1 r (some data) = addPoint r ch v >>= fun r2 => .ok (r2, some data) := by
  have e : (if fwd then -((0 : Nat) : Int) else ((0 : Nat) : Int)) = 0 := by cases fwd <;> rfl
  simp only [pushLoop, e, hs, ok_bind, hd, Bool.false_and, Bool.false_eq_true, if_false, pure_eq_ok]

theorem cubic_virtual (fp : Fp) {data : List Int} {nch p : Nat} {ρ : ℚ} {W : Nat → Int → Int} {b : Int} (hρ : 0 < ρ) (hρ1 : ρ ≤ 1) (h8 : nch ≤ 8)
    (hg : GridRate p ρ) (hW : ∀ ch i, InI16 (W ch i)) :
    VStep fp data nch p ρ .quadratic W (fun u ch => cubicOut fp (W ch) b u) (CubicGood W ρ b) := by
  intro r u ch hat hd hq hh hu hch b1 b2 b3 b4 hv hgood
  obtain ⟨g1, g2, g3⟩ := hgood
  have ch8 : ch < 8 := by omega
  obtain ⟨e1, e2⟩ := base_virtual fp (data := data) hd b1 b2 b3 b4
  rw [hv] at e1 e2
  have habs := hh.abs
  have hrem0 : 0 ≤ u - ⌊u⌋ := by have := Int.floor_le u; linarith
  have hrem1 : u - ⌊u⌋ < 1 := by have := Int.lt_floor_add_one u; linarith
  obtain ⟨t1, t2⟩ := rnd_fract (fp := fp) hρ hg hu
  have hcross := floor_cross (u := u) hρ hρ1
  have hf0 := Int.fract_nonneg u
  obtain ⟨q, p3, p4, p1⟩ : ∃ q : Pts, q.n = (min 4 (⌊u⌋ - b)).toNat ∧ Vals (W ch) q.n ⌊u⌋ q ∧
      (do
      if r.rate > 0 then
        let t := fp.d.rnd (r.rem - r.rate)
        if t < 0 then
          let k ← castI32 (-(⌊t⌋ : ℚ))
          pushLoop fp arraySrc true ch (min k 4).toNat r (some data)
        else return (r, some data)
      else if r.rate < 0 then
        let t := fp.d.rnd (r.rem - r.rate)
        if t > 0 then
          let k ← castI32 (⌈t⌉ : ℚ)
          pushLoop fp arraySrc false ch (min k 4).toNat r (some data)
        else return (r, some data)
      else return (r, some data) : M (Rd × Option (List Int))) = .ok ({ r with pts := Function.update r.pts ch q }, some data) := by
    have hc1 : castI32 (((1 : Int) : ℚ)) = .ok 1 := by
      unfold castI32
      rw [trunc_int, if_pos (by decide)]
    rcases hcross with ⟨c, c2⟩ | ⟨c, c2⟩
    · have hfl : ⌊Int.fract u - ρ⌋ = -1 := by rw [Int.floor_eq_iff]; constructor <;> push_cast <;> linarith
      obtain ⟨q, hqd⟩ : ∃ q : Pts, q = ⟨if (r.pts ch).n < 4 then (r.pts ch).n + 1 else (r.pts ch).n, (r.pts ch).y1, (r.pts ch).y2, (r.pts ch).y3, W ch ⌊u⌋⟩ := ⟨_, rfl⟩
      have hadd : addPoint r ch (W ch ⌊u⌋) = .ok { r with pts := Function.update r.pts ch q } := by rw [addPoint_quad hq ch8, hqd]
      have hqn : q.n = (min 4 (⌊u⌋ - b)).toNat := by rw [hqd]; simp only; rw [g2]; split <;> omega
      refine ⟨q, hqn, ?_, ?_⟩
      · have := Vals.push g3 (if (r.pts ch).n < 4 then (r.pts ch).n + 1 else (r.pts ch).n)
        rw [c, ← hqd] at this
        obtain ⟨v1, v2, v3, v4⟩ := this
        have hle : q.n ≤ (r.pts ch).n + 1 := by rw [hqn, g2]; omega
        exact ⟨fun h => v1 (by omega), fun h => v2 (by omega), fun h => v3 (by omega), fun h => v4 (by omega)⟩
      · rcases hh with ⟨h1, h2⟩ | ⟨h1, h2⟩
        · have ht : fp.d.rnd (r.rem - r.rate) = Int.fract u - ρ := by rw [h1, h2]; exact t1
          rw [if_pos (by rw [h1]; exact hρ)]
          simp only [ht, hfl]
          rw [if_pos c2, show (-((-1 : Int) : ℚ)) = ((1 : Int) : ℚ) by norm_num, hc1]
          simp only [ok_bind]
          rw [show (min (1 : Int) 4).toNat = 1 by decide, pushLoop_one fp true hd e2, hadd, ok_bind]
        · have ht : fp.d.rnd (r.rem - r.rate) = -(Int.fract u - ρ) := by rw [h1, h2]; exact t2
          rw [if_neg (by rw [h1]; intro h; linarith), if_pos (by rw [h1]; linarith)]
          simp only [ht, Int.ceil_neg, hfl]
          rw [if_pos (by linarith), show ((-(-1 : Int) : Int) : ℚ) = ((1 : Int) : ℚ) by norm_num, hc1]
          simp only [ok_bind]
          rw [show (min (1 : Int) 4).toNat = 1 by decide, pushLoop_one fp false hd e2, hadd, ok_bind]
    · refine ⟨r.pts ch, by rw [g2, c], by rw [← c]; exact g3, ?_⟩
      rw [Function.update_eq_self]
      rcases hh with ⟨h1, h2⟩ | ⟨h1, h2⟩
      · have ht : fp.d.rnd (r.rem - r.rate) = Int.fract u - ρ := by rw [h1, h2]; exact t1
        rw [if_pos (by rw [h1]; exact hρ)]
        simp only [ht]
        rw [if_neg (not_lt.2 c2)]; rfl
      · have ht : fp.d.rnd (r.rem - r.rate) = -(Int.fract u - ρ) := by rw [h1, h2]; exact t2
        rw [if_neg (by rw [h1]; intro h; linarith), if_pos (by rw [h1]; linarith)]
        simp only [ht]
        rw [if_neg (by intro h; linarith)]; rfl
  refine ⟨q, ?_, ?_⟩
  · refine readNextValue_quad hat hq e1 ?_
    unfold quadVal
    simp only
    rw [p1]
    simp only [ok_bind, ptsOf, ch8, if_true, Function.update_self]
    unfold cubicOut
    by_cases h4 : ⌊u⌋ - b < 4
    · rw [if_pos h4, if_neg (by omega)]; rfl
    · obtain ⟨v1, v2, v3, v4⟩ := p4
      have hqn : q.n = 4 := by omega
      rw [if_neg h4, if_pos (by omega)]
      rw [v1 (by omega), v2 (by omega), v3 (by omega), v4 (by omega), habs]
      obtain ⟨u1, u2⟩ := unit_arg fp hrem0 hrem1.le
      rw [fastinterpolate_ok fp (hW _ _) (hW _ _) (hW _ _) (hW _ _) u1 u2]
      rfl
  · unfold CubicGood
    rw [show u + ρ - ρ = u by ring]
    refine ⟨?_, p3, p4⟩
    rcases hcross with ⟨c, _⟩ | ⟨c, _⟩ <;> omega

/-! ## Frames -/

theorem readFrame_virtual {fp : Fp} {data : List Int} {nch p : Nat} {ρ : ℚ} {k : Interp} {W : Nat → Int → Int} {o : ℚ → Nat → Int} {Good : ℚ → Nat → Pts → Prop}
    (hc : VStep fp data nch p ρ k W o Good) (fuel : Nat) {u : ℚ} (hu : OnGrid p u) :
    ∀ (left ch : Nat) (r : Rd), r.atEnd = false → r.dual = false → r.interp = k → Heads ρ u r → ch + left ≤ nch → InI32 r.pos1 →
      (∀ c < nch, InI32 (r.pos1 + c) ∧ 0 ≤ r.pos1 + c ∧ r.pos1 + c < data.length ∧ data.getD (r.pos1 + c).toNat 0 = W c ⌊u⌋) →
      (∀ c, c < ch → Good (u + ρ) c (r.pts c)) → (∀ c, ch ≤ c → c < nch → Good u c (r.pts c)) →
      ∃ q, readFrame fp arraySrc (fuel + 1) left ch r (some data) = .ok ((List.range' ch left).map (o u), true, { r with pts := q }, some data) ∧
        ∀ c, c < ch + left → Good (u + ρ) c (q c)
  | 0, ch, r, _, _, _, _, _, _, _, h1, _ => ⟨r.pts, rfl, h1⟩
  | left + 1, ch, r, hat, hd, hk, hh, hl, hp, hb, h1, h2 => by
    obtain ⟨c1, c2, c3, c4⟩ := hb ch (by omega)
    obtain ⟨q, e1, e2⟩ := hc r u ch hat hd hk hh hu (by omega) hp c1 c2 c3 c4 (h2 ch le_rfl (by omega))
    obtain ⟨q2, f1, f3⟩ := readFrame_virtual hc fuel hu left (ch + 1) { r with pts := Function.update r.pts ch q } hat hd hk hh (by omega) hp hb
      (fun c hcc => by
        simp only
        by_cases h : c = ch
        · subst h; rw [Function.update_self]; exact e2
        · rw [Function.update_of_ne h]; exact h1 c (by omega))
      (fun c hcc hn => by
        simp only
        rw [Function.update_of_ne (by omega)]; exact h2 c (by omega) hn)
    refine ⟨q2, ?_, fun c hcc => f3 c (by omega)⟩
    unfold readFrame
    rw [readChan_settled hat, e1]
    simp only [ok_bind, f1, pure_eq_ok, List.range'_succ, List.map_cons]

theorem wrapAround_other (r : Rd) (i : Interp) (q : Nat → Pts) :
    wrapAround { r with interp := i, pts := q } = (wrapAround r).map fun r1 => { r1 with interp := i, pts := q } := by
  obtain ⟨playing, fileSize, header, rate, rem, loopType, playStart, pos1, pos2, crossfade, dual, cfDur, cfOn, playbackStart, loopStart, loopFinish, fileSamples, nch, psram, interp, pts⟩ := r
  unfold wrapAround
  cases loopType <;> rfl

theorem Settles.other {r r1 : Rd} (h : Settles r r1) (i : Interp) (q : Nat → Pts) : Settles { r with interp := i, pts := q } { r1 with interp := i, pts := q } := by
  rcases h with ⟨h, rfl⟩ | ⟨h1, h2, h3⟩
  · exact Or.inl ⟨h, rfl⟩
  · exact Or.inr ⟨h1, by rw [wrapAround_other, h2]; rfl, h3⟩

theorem wrapAround_keeps {r r1 : Rd} (h : wrapAround r = some r1) (hl : r.loopType ≠ .pingpong) : r1.rate = r.rate ∧ r1.rem = r.rem ∧ r1.pts = r.pts := by
  unfold wrapAround at h
  simp only at h
  split at h
  · cases h; exact ⟨rfl, rfl, rfl⟩
  · rename_i e; exact absurd e hl
  · cases h

theorem Settles.keeps {r r1 : Rd} (h : Settles r r1) (hl : r.loopType ≠ .pingpong) : r1.rate = r.rate ∧ r1.rem = r.rem ∧ r1.pts = r.pts := by
  rcases h with ⟨_, rfl⟩ | ⟨_, h2, _⟩
  · exact ⟨rfl, rfl, rfl⟩
  · exact wrapAround_keeps h2 hl

theorem readFrame_settles {fp : Fp} {S : Src σ} {r r1 : Rd} (h : Settles r r1) (fuel left : Nat) (s : σ) :
    readFrame fp S (fuel + 2) (left + 1) 0 r s = readFrame fp S (fuel + 2) (left + 1) 0 r1 s := by
  have he := h.atEnd
  rcases h with ⟨_, rfl⟩ | ⟨h, hw, _⟩
  · rfl
  · have key : readChan fp S (fuel + 2) r s 0 = readChan fp S (fuel + 2) r1 s 0 := by
      rw [readChan_atEnd h, hw, readChan_settled he]
      exact readChan_settled he
    unfold readFrame
    rw [key]

variable {fp : Fp} {data : List Int} {H nch p : Nat} {path : Nat → Option Nat} {Live : Nat → Rd → Prop} {k : Interp} {q0 : Nat → Pts} {x ρ : ℚ}
  {W : Nat → Int → Int} {o : ℚ → Nat → Int} {Good : ℚ → Nat → Pts → Prop}

/-- A reader that, without interpolation, would be in `Live t`, and whose stored points are those of position `x + t ρ`. -/
def Voiced (Live : Nat → Rd → Prop) (k : Interp) (q0 : Nat → Pts) (nch : Nat) (x ρ : ℚ) (Good : ℚ → Nat → Pts → Prop) (t : Nat) (r : Rd) : Prop :=
  Live t { r with interp := .none, pts := q0 } ∧ r.interp = k ∧ ∀ c < nch, Good (x + t * ρ) c (r.pts c)

/-- The instants at which there is a frame. -/
def awake (path : Nat → Option Nat) (t : Nat) : Option Nat := if (path t).isSome then some t else none

theorem awake_ends (h : PathEnds path) : PathEnds (awake path) := by
  intro t ht
  unfold awake at ht ⊢
  split at ht
  · cases ht
  · rename_i e
    have : path t = none := by cases hp : path t with
      | none => rfl
      | some i => rw [hp] at e; exact absurd rfl e
    rw [h t this]; rfl

theorem SameConf.other {r r' : Rd} (h : SameConf r r') (i : Interp) (q q' : Nat → Pts) : SameConf { r with interp := i, pts := q } { r' with interp := i, pts := q' } :=
  ⟨h.nch, h.header, h.loopType, h.playStart, h.loopStart, h.loopFinish, h.fileSamples, h.fileSize, h.dual, h.cfDur, rfl, h.playing, h.playbackStart, h.psram⟩

theorem Turns.virtual (hT : Turns fp data H nch path Live) (hc : VStep fp data nch p ρ k W o Good) (hn : 1 ≤ nch)
    (hx : OnGrid p x) (hρ : OnGrid p ρ) (hloop : ∀ {t r}, Live t r → r.loopType ≠ .pingpong) (hhead : ∀ {t r}, Live t r → Heads ρ (x + t * ρ) r)
    (hval : ∀ t i c, path t = some i → c < nch → H + (i + 1) * nch ≤ data.length → data.getD (H + i * nch + c) 0 = W c ⌊x + t * ρ⌋) (fuel : Nat) : ∀ (n t : Nat) (r : Rd),
    Voiced Live k q0 nch x ρ Good t r → r.nch = nch → r.header = H →
    ∃ r', readLoop fp arraySrc (fuel + 2) n r (some data) =
      .ok ⟨(pathFrames (awake path) t n).map (fun i : Nat => (List.range nch).map (o (x + i * ρ))), [], r', some data⟩ ∧
    SameConf r r' ∧ ((pathFrames (awake path) t n).length = n → Voiced Live k q0 nch x ρ Good (t + n) r')
  | 0, t, r, h, _, _ => ⟨r, rfl, SameConf.refl r, fun _ => h⟩
  | n + 1, t, r, h, hcn, hH => by
    obtain ⟨hl, hk, hgood⟩ := h
    have hd0 := hT.dual hl
    have hd : r.dual = false := hd0
    cases e : path t with
    | none =>
      have ea : awake path t = none := by unfold awake; rw [e]; rfl
      obtain ⟨h1, h2, h3⟩ := hT.stop hl e
      have he : r.atEnd = true := h2
      have hl' : r.loopType = .none := h3
      have hcfo : r.cfOn = false := h1.cfOn
      refine ⟨r, ?_, SameConf.refl r, ?_⟩
      · have hf : readFrame fp arraySrc (fuel + 2) r.nch.toNat 0 r (some data) = .ok ([], false, r, some data) := by
          rw [show r.nch.toNat = (r.nch.toNat - 1) + 1 by rw [hcn]; omega, readFrame, readChan_atEnd he, wrapAround_none.2 hl']
          have : { r with cfOn := false } = r := by rw [← hcfo]
          simp only [this]; rfl
        rw [readLoop_succ, pathFrames_none (awake_ends hT.ends) ea]
        simp only [hd, Bool.false_eq_true, if_false, ok_bind, hf, List.map_nil]
      · rw [pathFrames_none (awake_ends hT.ends) ea]; intro k; simp at k
    | some i =>
      have ea : awake path t = some t := by unfold awake; rw [e]; rfl
      obtain ⟨r1, r2, h1, h2, h3, h4, h5, h6, h7, h8, h9⟩ := hT.go hl hcn hH e
      obtain ⟨z1, z2, z3⟩ := h1.keeps (hloop hl)
      have hset : Settles r { r1 with interp := k, pts := r.pts } := by
        have := h1.other r.interp r.pts
        rw [hk] at this
        simp only at this
        convert this using 1
        rw [← hk]
      have hhd : Heads ρ (x + t * ρ) { r1 with interp := k, pts := r.pts } := by
        have := hhead hl
        unfold Heads at this ⊢
        simp only at this z1 z2 ⊢
        rw [z1, z2]; exact this
      have hgrid : OnGrid p (x + t * ρ) := by
        obtain ⟨a, ha⟩ := hx
        obtain ⟨b, hb⟩ := hρ
        refine ⟨a + t * b, ?_⟩
        rw [ha, hb]; push_cast; ring
      have hi0 : (0 : Int) ≤ (i : Int) * nch := by positivity
      have e1 : ((i : Int) + 1) * nch = i * nch + nch := by ring
      have h5' : (H : Int) + ((i : Int) + 1) * nch ≤ data.length := by exact_mod_cast h5
      obtain ⟨q, f1, f2⟩ := readFrame_virtual hc (fuel + 1) hgrid nch 0 { r1 with interp := k, pts := r.pts } h1.atEnd (h3.dual.trans hd) rfl hhd (by omega)
        (by show InI32 r1.pos1; rw [h4]; exact ⟨by omega, by omega⟩) (fun c hcc => by
          show InI32 (r1.pos1 + c) ∧ 0 ≤ r1.pos1 + c ∧ r1.pos1 + c < data.length ∧ data.getD (r1.pos1 + c).toNat 0 = W c ⌊x + t * ρ⌋
          rw [h4]
          refine ⟨⟨by omega, by omega⟩, by omega, by omega, ?_⟩
          rw [show ((H : Int) + (i : Int) * nch + c).toNat = H + i * nch + c by
            rw [show ((H : Int) + (i : Int) * nch + c) = ((H + i * nch + c : Nat) : Int) by push_cast; ring, Int.toNat_natCast]]
          exact hval t i c e hcc h5) (fun c hcc => by omega) (fun c _ hcc => hgood c hcc)
      have hst := stepOn_other fp r1 k q
      rw [h7, ok_bind] at hst
      have hr2 : ({ r2 with interp := .none, pts := q0 } : Rd) = r2 := by
        have := stepOn_other fp r1 r1.interp r1.pts
        rw [show ({ r1 with interp := r1.interp, pts := r1.pts } : Rd) = r1 from rfl, h7, ok_bind] at this
        have e2 := (Except.ok.inj this)
        have e3 : r1.interp = .none := h3.interp
        have e4 : r1.pts = q0 := z3
        rw [e3, e4] at e2
        exact e2.symm
      have hconf : SameConf r { r2 with interp := k, pts := q } := by
        have := h8.other k r.pts q
        simp only at this
        rw [← hk] at this ⊢
        exact this
      have halive : Voiced Live k q0 nch x ρ Good (t + 1) { r2 with interp := k, pts := q } := by
        refine ⟨?_, rfl, fun c hcc => ?_⟩
        · show Live (t + 1) { r2 with interp := .none, pts := q0 }
          rw [hr2]; exact h9
        · have := f2 c (by omega)
          rw [show x + ((t + 1 : Nat) : ℚ) * ρ = x + t * ρ + ρ by push_cast; ring]
          exact this
      obtain ⟨r', k1, k2, k3⟩ := hT.virtual hc hn hx hρ hloop hhead hval fuel n (t + 1) { r2 with interp := k, pts := q } halive (hconf.nch.trans hcn) (hconf.header.trans hH)
      refine ⟨r', ?_, hconf.trans k2, ?_⟩
      · rw [readLoop_succ, pathFrames_succ, ea]
        simp only [hd, Bool.false_eq_true, if_false, ok_bind]
        rw [show r.nch.toNat = (nch - 1) + 1 by rw [hcn]; omega, readFrame_settles hset, show nch - 1 + 1 = nch by omega, f1]
        simp only [ok_bind, if_true, hst, k1, List.map_cons, List.range_eq_range']
      · rw [pathFrames_succ, ea]
        simp only [List.length_cons, Nat.add_right_cancel_iff]
        intro k
        rw [show t + (n + 1) = t + 1 + n by omega]
        exact k3 k

theorem Turns.virtual_read (hT : Turns fp data H nch path Live) (hc : VStep fp data nch p ρ k W o Good) (hn : 1 ≤ nch)
    (hx : OnGrid p x) (hρ : OnGrid p ρ) (hloop : ∀ {t r}, Live t r → r.loopType ≠ .pingpong) (hhead : ∀ {t r}, Live t r → Heads ρ (x + t * ρ) r)
    (hval : ∀ t i c, path t = some i → c < nch → H + (i + 1) * nch ≤ data.length → data.getD (H + i * nch + c) 0 = W c ⌊x + t * ρ⌋) (fuel : Nat) (q0 : Nat → Pts) :
    PathRead fp fuel data H nch (fun t ch => o (x + t * ρ) ch) (awake path) (Voiced Live k q0 nch x ρ Good) :=
  ⟨awake_ends hT.ends, fun t r n h h1 h2 => hT.virtual hc hn hx hρ hloop hhead hval fuel n t r h h1 h2⟩

end TVP
