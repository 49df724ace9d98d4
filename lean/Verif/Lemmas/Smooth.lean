import Verif.Lemmas.Path
import Verif.Spec.Smooth
import Verif.Props.InterpPlay

/-!
# Forward playback with interpolation, update by update
-/

namespace TVP
open Spec

theorem instants_ends {F : Int} {x r : ℚ} (hr : 0 ≤ r) : PathEnds (instants F x r) := by
  intro t h
  unfold instants at h ⊢
  split at h
  · cases h
  · rename_i hlt
    rw [if_neg]
    have : ⌊x + (t : ℚ) * r⌋ ≤ ⌊x + ((t + 1 : Nat) : ℚ) * r⌋ := Int.floor_le_floor (by push_cast; linarith)
    omega

theorem positions_instants {F : Int} {x r : ℚ} (hr : 0 ≤ r) : ∀ (n t : Nat),
    forwardPositions (x + t * r) r F n = (pathFrames (instants F x r) t n).map (fun i : Nat => x + i * r)
  | 0, t => by simp [forwardPositions, pathFrames]
  | n + 1, t => by
    rw [forwardPositions_succ]
    by_cases h : ⌊x + (t : ℚ) * r⌋ < F
    · have e : instants F x r t = some t := by unfold instants; rw [if_pos h]
      rw [if_pos h, pathFrames_succ, e]
      simp only [List.map_cons]
      rw [← positions_instants hr n (t + 1)]
      congr 2
      push_cast; ring
    · have e : instants F x r t = none := by unfold instants; rw [if_neg h]
      rw [if_neg h, pathFrames_none (instants_ends hr) e]
      rfl

theorem SameConf.symm {r r' : Rd} (h : SameConf r r') : SameConf r' r :=
  ⟨h.nch.symm, h.header.symm, h.loopType.symm, h.playStart.symm, h.loopStart.symm, h.loopFinish.symm, h.fileSamples.symm, h.fileSize.symm, h.dual.symm,
    h.cfDur.symm, h.interp.symm, h.playing.symm, h.playbackStart.symm, h.psram.symm⟩

/-- A reader that has delivered `t` interpolated frames. -/
def Smoothing (r0 : Rd) (p : Nat) (R : Int) (x ρ : ℚ) (Good : ℚ → Nat → Pts → Prop) (t : Nat) (r : Rd) : Prop :=
  IFwd r p R (x + t * ρ) ∧ SameConf r0 r ∧ r.rate = ρ ∧ ∀ c : Nat, (c : Int) < r0.nch → Good (x + t * ρ) c (r.pts c)

theorem smooth_read {fp : Fp} {data : List Int} {H nch : Nat} {r0 : Rd} {p : Nat} {R : Int} {x ρ : ℚ} {o : ℚ → Nat → Int} {Good : ℚ → Nat → Pts → Prop}
    (hc : ChanStep fp arraySrc (· = some data) p R r0 ρ o Good) (hn : r0.nch = nch) (hρ : 0 ≤ ρ) (fuel : Nat) :
    PathRead fp fuel data H nch (fun t ch => o (x + t * ρ) ch) (instants r0.fileSamples x ρ) (Smoothing r0 p R x ρ Good) where
  ends := instants_ends hρ
  read t r n h hc' hH := by
    obtain ⟨h1, h2, h3, h4⟩ := h
    obtain ⟨r', s', k1, k2, k3, k4, k5, k6⟩ := interp_law hc fuel n r (x + t * ρ) (some data) h1 h2 h3 rfl h4
    subst k3
    have hpos := positions_instants (F := r0.fileSamples) (x := x) hρ n t
    refine ⟨r', ?_, ?_, fun hlen => ?_⟩
    · rw [k1, hpos, List.map_map, hn]
      rfl
    · exact h2.symm.trans k4
    · rw [hpos, List.length_map, hlen] at k2 k6
      have e : x + (t : ℚ) * ρ + (n : ℚ) * ρ = x + ((t + n : Nat) : ℚ) * ρ := by push_cast; ring
      rw [e] at k2 k6
      exact ⟨k2, k4, k5, k6⟩

/-! ## What is delivered -/

theorem cubicOut_silent (fp : Fp) (w : Int → Int) {b : Int} {y : ℚ} (h : y < b + 4) : cubicOut fp w b y = 0 := by
  have : ⌊y⌋ < b + 4 := Int.floor_lt.2 (by exact_mod_cast h)
  unfold cubicOut
  rw [if_pos (by omega)]

theorem cubicOut_near (fp : Fp) {w : Int → Int} {b : Int} {y : ℚ} (h : b + 4 ≤ y) (hw : ∀ i, ⌊y⌋ - 3 ≤ i → i ≤ ⌊y⌋ → InI16 (w i)) :
    |(cubicOut fp w b y : ℚ) - clampQ (smooth w (y - 2))| < 2 := by
  have hf3 : b + 4 ≤ ⌊y⌋ := Int.le_floor.2 (by exact_mod_cast h)
  have e2 : ⌊y - 2⌋ = ⌊y⌋ - 2 := by have := Int.floor_sub_intCast y 2; push_cast at this; exact this
  unfold cubicOut smooth
  rw [if_neg (by omega), e2, show ⌊y⌋ - 2 - 1 = ⌊y⌋ - 3 by ring, show ⌊y⌋ - 2 + 1 = ⌊y⌋ - 1 by ring, show ⌊y⌋ - 2 + 2 = ⌊y⌋ by ring,
    show y - 2 - ((⌊y⌋ - 2 : Int) : ℚ) = y - ⌊y⌋ by push_cast; ring]
  have i1 := hw (⌊y⌋ - 3) (by omega) (by omega)
  have i2 := hw (⌊y⌋ - 2) (by omega) (by omega)
  have i3 := hw (⌊y⌋ - 1) (by omega) (by omega)
  have i4 := hw ⌊y⌋ (by omega) (by omega)
  generalize w (⌊y⌋ - 3) = d1 at *
  generalize w (⌊y⌋ - 2) = d2 at *
  generalize w (⌊y⌋ - 1) = d3 at *
  generalize w ⌊y⌋ = d4 at *
  obtain ⟨frac, hfr⟩ : ∃ frac, frac = y - ⌊y⌋ := ⟨_, rfl⟩
  rw [← hfr]
  have f0 : 0 ≤ frac := by rw [hfr]; have := Int.floor_le y; linarith
  have f1 : frac ≤ 1 := by rw [hfr]; have := Int.lt_floor_add_one y; linarith
  obtain ⟨u1, u2⟩ := unit_arg fp f0 f1
  obtain ⟨r, hr1, hr2⟩ := C11_cubic fp _ _ _ _ _ i1 i2 i3 i4 u1 u2
  rw [fastinterpolate_ok fp i1 i2 i3 i4 u1 u2] at hr1
  cases hr1
  have e1 := fp.d.err_le (x := 1 + frac) (by norm_num) (k := 1) (by norm_num) (by rw [abs_of_nonneg (by linarith)]; norm_num; linarith)
  have hd2 : |fp.d.rnd (1 + frac)| ≤ 2 ^ (1 : Int) := by
    have k1 := fp.d.mono (show 1 + frac ≤ (2 : ℚ) by linarith)
    have k0 := fp.d.nonneg (show (0 : ℚ) ≤ 1 + frac by linarith)
    have e2 : fp.d.rnd 2 = 2 := by have := fp.d.exact_int (by norm_num) (by norm_num) (m := 2) (by norm_num); simpa using this
    rw [abs_of_nonneg k0]; rw [e2] at k1; simpa using k1
  have e2 := fp.f.err_le (x := fp.d.rnd (1 + frac)) (by norm_num) (k := 1) (by norm_num) hd2
  have e3 : |fp.f.rnd (fp.d.rnd (1 + frac)) - (1 + frac)| ≤ 2 ^ (-22 : Int) := by
    have := abs_sub_le (fp.f.rnd (fp.d.rnd (1 + frac))) (fp.d.rnd (1 + frac)) (1 + frac)
    norm_num at e1 e2 ⊢
    linarith
  have l1 := cubic_lipschitz i1 i2 i3 i4 u1 u2 (show (1 : ℚ) ≤ 1 + frac by linarith) (show 1 + frac ≤ 2 by linarith)
  have l2 := clampQ_lipschitz (cubic d1 d2 d3 d4 (fp.f.rnd (fp.d.rnd (1 + frac)))) (cubic d1 d2 d3 d4 (1 + frac))
  refine lt_of_le_of_lt (abs_sub_le _ _ _) (lt_of_lt_of_le (add_lt_add_of_lt_of_le hr2 (le_trans l2 (le_trans l1 (mul_le_mul_of_nonneg_left e3 (by norm_num))))) ?_)
  norm_num

/-- On a frame, in exact arithmetic, the cubic gives that frame back. -/
theorem cubicOut_node {w : Int → Int} {b : Int} {k : Int} (h : b + 4 ≤ k) (hw : InI16 (w (k - 2))) : cubicOut Fp.ideal w b (k : ℚ) = w (k - 2) := by
  unfold cubicOut
  rw [show ⌊(k : ℚ)⌋ = k by simp, if_neg (by omega), sub_self]
  obtain ⟨_, c1, _, _⟩ := cubic_nodes (w (k - 3)) (w (k - 2)) (w (k - 1)) (w k)
  have hf : ∀ d1 d2 d3 d4 : Int, fiValue Fp.ideal d1 d2 d3 d4 1 = cubic d1 d2 d3 d4 1 := by
    intro d1 d2 d3 d4
    simp only [fiValue, fiTerm, fiPoly, Fp.ideal, Rounding.ideal, id, cubic]
    ring
  have h1 : Fp.ideal.f.rnd (Fp.ideal.d.rnd (1 + 0)) = 1 := by simp [Fp.ideal, Rounding.ideal]
  rw [h1, hf, c1, trunc_int, clamp16_of_in hw]

theorem straight_back (w : Int → Int) (y : ℚ) : straight w (y - 1) = (y - ⌊y⌋) * w ⌊y⌋ + (1 - (y - ⌊y⌋)) * w (⌊y⌋ - 1) := by
  unfold straight
  rw [Int.floor_sub_one]
  push_cast
  rw [show ⌊y⌋ - 1 + 1 = ⌊y⌋ by ring]
  ring

theorem linearOut_near (fp : Fp) {w : Int → Int} (stale : Int) {b : Int} {y : ℚ} (h : b + 2 ≤ y) (h1 : InI16 (w ⌊y⌋)) (h0 : InI16 (w (⌊y⌋ - 1))) :
    |(linearOut fp w stale b y : ℚ) - straight w (y - 1)| < 1 + 2 ^ (-30 : Int) ∧
      |linearOut fp w stale b y| ≤ max |w (⌊y⌋ - 1)| |w ⌊y⌋| := by
  have hf1 : b + 2 ≤ ⌊y⌋ := Int.le_floor.2 (by exact_mod_cast h)
  unfold linearOut
  rw [if_neg (by omega), straight_back]
  obtain ⟨m, m1, _, m2, m3, m4, m5⟩ := mix_ok fp.d (w := y - ⌊y⌋) (by have := Int.floor_le y; linarith) (by have := Int.lt_floor_add_one y; linarith) h1 h0
  have : mixOut fp (y - ⌊y⌋) (w ⌊y⌋) (w (⌊y⌋ - 1)) = m := by
    unfold mixOut
    unfold castI16 at m1
    split at m1
    · cases m1; rfl
    · cases m1
  rw [this]
  exact ⟨m5, by rw [max_comm]; exact m4⟩

/-- On the grid of multiples of `2^-38` nothing is lost to rounding. -/
theorem linearOut_exact (fp : Fp) {w : Int → Int} (stale : Int) {b : Int} {y : ℚ} (h : b + 2 ≤ y) (h1 : InI16 (w ⌊y⌋)) (h0 : InI16 (w (⌊y⌋ - 1)))
    {p : Nat} (hp : p ≤ 38) (hy : OnGrid p y) : linearOut fp w stale b y = trunc (straight w (y - 1)) := by
  have hf1 : b + 2 ≤ ⌊y⌋ := Int.le_floor.2 (by exact_mod_cast h)
  unfold linearOut
  rw [if_neg (by omega), straight_back]
  have hyg : OnGrid p (y - ⌊y⌋) := hy.sub (OnGrid.int p _)
  have hoy : OnGrid p (1 - (y - ⌊y⌋)) := by
    have := (OnGrid.int p 1).sub hyg
    simpa using this
  have g0 := Int.floor_le y
  have g1 := Int.lt_floor_add_one y
  have mulg : ∀ {u : ℚ} (v : Int), OnGrid p u → OnGrid p (u * v) := by
    rintro u v ⟨m, rfl⟩
    exact ⟨m * v, by push_cast; ring⟩
  have q : ∀ v : Int, InI16 v → |(v : ℚ)| ≤ 32768 := by
    intro v hv
    unfold InI16 at hv
    rw [abs_le]
    constructor
    · have : (-32768 : ℚ) ≤ v := by exact_mod_cast hv.1
      linarith
    · have : (v : ℚ) ≤ 32767 := by exact_mod_cast hv.2
      linarith
  have hpow : (32768 : ℚ) ≤ 2 ^ (53 - p) := by
    calc (32768 : ℚ) = 2 ^ 15 := by norm_num
      _ ≤ 2 ^ (53 - p) := pow_le_pow_right₀ (by norm_num) (by omega)
  have a1 : |(y - ⌊y⌋) * (w ⌊y⌋ : ℚ)| ≤ (y - ⌊y⌋) * 32768 := by
    rw [abs_mul, abs_of_nonneg (show 0 ≤ y - ⌊y⌋ by linarith)]
    exact mul_le_mul_of_nonneg_left (q _ h1) (by linarith)
  have a0 : |(1 - (y - ⌊y⌋)) * (w (⌊y⌋ - 1) : ℚ)| ≤ (1 - (y - ⌊y⌋)) * 32768 := by
    rw [abs_mul, abs_of_nonneg (show 0 ≤ 1 - (y - ⌊y⌋) by linarith)]
    exact mul_le_mul_of_nonneg_left (q _ h0) (by linarith)
  have as := abs_add_le ((y - ⌊y⌋) * (w ⌊y⌋ : ℚ)) ((1 - (y - ⌊y⌋)) * (w (⌊y⌋ - 1) : ℚ))
  have hp52 : p ≤ 52 := by omega
  unfold mixOut
  rw [(mulg _ hyg).exact hp52 (by linarith) fp.d, hoy.exact hp52 (by rw [abs_of_nonneg (by linarith)]; linarith) fp.d,
    (mulg _ hoy).exact hp52 (by linarith) fp.d, ((mulg _ hyg).add (mulg _ hoy)).exact hp52 (by linarith) fp.d]

theorem linearOut_start (fp : Fp) (w : Int → Int) (stale : Int) {b : Int} {y : ℚ} (h : y < b + 2) :
    (y ≠ ⌊y⌋ → linearOut fp w stale b y = w ⌊y⌋) ∧ (y = ⌊y⌋ → linearOut fp w stale b y = stale) := by
  have : ⌊y⌋ < b + 2 := Int.floor_lt.2 (by exact_mod_cast h)
  unfold linearOut
  rw [if_pos (by omega)]
  exact ⟨fun k => if_neg k, fun k => if_pos k⟩

end TVP
