import Verif.Lemmas.ArrayPlay
import Verif.Lemmas.Mix
import Verif.Props.Interp

/-!
# Forward playback with interpolation
-/

namespace TVP
open Spec

theorem forwardPositions_succ (x r : ℚ) (F : Int) (n : Nat) :
    forwardPositions x r F (n + 1) = if ⌊x⌋ < F then x :: forwardPositions (x + r) r F n else [] := by
  unfold forwardPositions
  rw [List.range_succ_eq_map, List.map_cons, List.takeWhile_cons]
  simp only [Nat.cast_zero, zero_mul, add_zero, List.map_map, decide_eq_true_eq]
  split
  · congr 2
    apply List.map_congr_left
    intro k _
    simp only [Function.comp, Nat.succ_eq_add_one]
    push_cast; ring
  · rfl

theorem forwardPositions_none {x r : ℚ} {F : Int} (h : F ≤ ⌊x⌋) (n : Nat) : forwardPositions x r F n = [] := by
  cases n with
  | zero => rfl
  | succ n => rw [forwardPositions_succ, if_neg (by omega)]

theorem forwardPositions_add (r : ℚ) (F : Int) (m : Nat) : ∀ (n : Nat) (x : ℚ),
    forwardPositions x r F (n + m) =
      forwardPositions x r F n ++ forwardPositions (x + (forwardPositions x r F n).length * r) r F m
  | 0, x => by simp [forwardPositions]
  | n + 1, x => by
    rw [show n + 1 + m = (n + m) + 1 by omega, forwardPositions_succ, forwardPositions_succ]
    split
    · rw [forwardPositions_add r F m n (x + r), List.cons_append, List.length_cons]
      congr 3
      push_cast; ring
    · rename_i h
      simp only [List.length_nil, Nat.cast_zero, zero_mul, add_zero, List.nil_append]
      rw [forwardPositions_none (by omega)]

/-- The positions have the frames of `forwardFrames`. -/
theorem forwardPositions_floor (r : ℚ) (F : Int) : ∀ (n : Nat) (x : ℚ), (forwardPositions x r F n).map Int.floor = forwardFrames x r F n
  | 0, x => rfl
  | n + 1, x => by
    rw [forwardPositions_succ, forwardFrames_succ]
    split
    · rw [List.map_cons, forwardPositions_floor r F n]
    · rfl

theorem forwardPositions_mem {x r : ℚ} {F : Int} {n : Nat} {y : ℚ} (h : y ∈ forwardPositions x r F n) : ⌊y⌋ < F ∧ ∃ k : Nat, k < n ∧ y = x + k * r := by
  constructor
  · have := List.all_eq_true.1 List.all_takeWhile y h
    simpa using this
  · obtain ⟨k, h1, h2⟩ := List.mem_map.1 ((List.takeWhile_sublist _).subset h)
    exact ⟨k, List.mem_range.1 h1, h2.symm⟩

variable {σ : Type} {S : Src σ} {I : σ → Prop} {P : Int → Prop} {val : Int → Int}

/-- A reader going forwards without looping at exact position `x`, whatever the interpolation. -/
def IFwd (r : Rd) (p : Nat) (R : Int) (x : ℚ) : Prop := Fwd { r with interp := .none } p R x

theorem stepOn_other (fp : Fp) (r : Rd) (i : Interp) (q : Nat → Pts) :
    stepOn fp { r with interp := i, pts := q } = stepOn fp r >>= fun r2 => .ok { r2 with interp := i, pts := q } := by
  unfold stepOn
  simp only
  cases castI32 (fp.d.rnd (r.rem + r.rate)) with
  | error e => rfl
  | ok d =>
    simp only [ok_bind]
    cases chkI32 (d * r.nch) with
    | error e => rfl
    | ok st =>
      simp only [ok_bind]
      cases chkI32 (r.pos1 + st) with
      | error e => rfl
      | ok p1 =>
        simp only [ok_bind]
        by_cases hc : r.cfOn = true
        · simp only [hc, if_true]
          cases chkI32 (if r.loopType = .pingpong then r.pos2 - st else r.pos2 + st) with
          | error e => rfl
          | ok p2 => rfl
        · simp only [hc, Bool.false_eq_true, if_false]; rfl

theorem IFwd.atEnd {r : Rd} {p : Nat} {R : Int} {x : ℚ} (h : IFwd r p R x) : r.atEnd = decide (r.fileSamples ≤ ⌊x⌋) :=
  Fwd.atEnd (r := { r with interp := .none }) h

theorem IFwd.step (fp : Fp) {r : Rd} {p : Nat} {R : Int} {x : ℚ} (h : IFwd r p R x) (hx : ⌊x⌋ < r.fileSamples) :
    ∃ r2, stepOn fp r = .ok r2 ∧ IFwd r2 p R (x + r.rate) ∧ r2.rate = r.rate ∧ SameConf r r2 ∧ r2.pts = r.pts := by
  obtain ⟨r2, h1, h2, h3, h4, h5⟩ := Fwd.step fp h hx
  have e := stepOn_other fp { r with interp := .none } r.interp r.pts
  rw [h1] at e
  refine ⟨{ r2 with interp := r.interp, pts := r.pts }, e, ?_, h3, ?_, rfl⟩
  · have hi : r2.interp = .none := h2.plain.interp
    have hp : r2.pts = r.pts := h5
    unfold IFwd
    have : ({ r2 with interp := .none, pts := r.pts } : Rd) = r2 := by rw [← hi, ← hp]
    rw [this]; exact h2
  · exact ⟨h4.nch, h4.header, h4.loopType, h4.playStart, h4.loopStart, h4.loopFinish, h4.fileSamples, h4.fileSize, h4.dual, h4.cfDur, rfl, h4.playing,
      h4.playbackStart, h4.psram⟩

theorem IFwd.pts {r : Rd} {p : Nat} {R : Int} {x : ℚ} (h : IFwd r p R x) (q : Nat → Pts) : IFwd { r with pts := q } p R x := by
  obtain ⟨⟨a, b, c, d⟩, h2, h3, h4, h5, h6, h7, h8, h9, h10, h11, h12, h13⟩ := h
  exact ⟨⟨a, b, c, d⟩, h2, h3, h4, h5, h6, h7, h8, h9, h10, h11, h12, h13⟩

/-- What one channel of one frame does, for the law below: `o` is what it delivers, `Good` what is known of its stored points. -/
def ChanStep (fp : Fp) (S : Src σ) (I : σ → Prop) (p : Nat) (R : Int) (r0 : Rd) (ρ : ℚ) (o : ℚ → Nat → Int) (Good : ℚ → Nat → Pts → Prop) : Prop :=
  ∀ (r : Rd) (y : ℚ) (s : σ) (ch : Nat), IFwd r p R y → SameConf r0 r → r.rate = ρ → ⌊y⌋ < r0.fileSamples → (ch : Int) < r0.nch → Good y ch (r.pts ch) → I s →
    ∃ q s', readNextValue fp S r s ch = .ok (some (o y ch), { r with pts := Function.update r.pts ch q }, s') ∧ Good (y + ρ) ch q ∧ I s'

theorem readFrame_chans {fp : Fp} {p : Nat} {R : Int} {r0 : Rd} {ρ : ℚ} {o : ℚ → Nat → Int} {Good : ℚ → Nat → Pts → Prop}
    (hc : ChanStep fp S I p R r0 ρ o Good) (fuel : Nat) {y : ℚ} (hy : ⌊y⌋ < r0.fileSamples) :
    ∀ (left ch : Nat) (r : Rd) (s : σ), IFwd r p R y → SameConf r0 r → r.rate = ρ → ((ch + left : Nat) : Int) ≤ r0.nch → I s →
      (∀ c, c < ch → Good (y + ρ) c (r.pts c)) → (∀ c, ch ≤ c → (c : Int) < r0.nch → Good y c (r.pts c)) →
      ∃ q s', readFrame fp S (fuel + 1) left ch r s = .ok ((List.range' ch left).map (o y), true, { r with pts := q }, s') ∧ I s' ∧
        ∀ c, c < ch + left → Good (y + ρ) c (q c)
  | 0, ch, r, s, _, _, _, _, hs, h1, _ => ⟨r.pts, s, rfl, hs, h1⟩
  | left + 1, ch, r, s, hr, hcf, hρ, hl, hs, h1, h2 => by
    have hat : r.atEnd = false := by rw [hr.atEnd, hcf.fileSamples]; simpa using hy
    obtain ⟨q, s1, e1, e2, e3⟩ := hc r y s ch hr hcf hρ hy (by omega) (h2 ch le_rfl (by omega)) hs
    obtain ⟨q2, s2, f1, f2, f3⟩ := readFrame_chans hc fuel hy left (ch + 1) { r with pts := Function.update r.pts ch q } s1 (hr.pts _)
      ⟨hcf.nch, hcf.header, hcf.loopType, hcf.playStart, hcf.loopStart, hcf.loopFinish, hcf.fileSamples, hcf.fileSize, hcf.dual, hcf.cfDur, hcf.interp,
        hcf.playing, hcf.playbackStart, hcf.psram⟩ hρ (by push_cast at hl ⊢; omega) e3
      (fun c hcc => by
        simp only
        by_cases h : c = ch
        · subst h; rw [Function.update_self]; exact e2
        · rw [Function.update_of_ne h]; exact h1 c (by omega))
      (fun c hcc hn => by
        simp only
        rw [Function.update_of_ne (by omega)]; exact h2 c (by omega) hn)
    refine ⟨q2, s2, ?_, f2, fun c hcc => f3 c (by omega)⟩
    unfold readFrame
    rw [readChan_settled hat, e1]
    simp only [ok_bind, f1, pure_eq_ok, List.range'_succ, List.map_cons]

/-- **Forward law with interpolation**. -/
theorem interp_law {fp : Fp} {p : Nat} {R : Int} {r0 : Rd} {ρ : ℚ} {o : ℚ → Nat → Int} {Good : ℚ → Nat → Pts → Prop}
    (hc : ChanStep fp S I p R r0 ρ o Good) (fuel : Nat) :
    ∀ (n : Nat) (r : Rd) (x : ℚ) (s : σ), IFwd r p R x → SameConf r0 r → r.rate = ρ → I s → (∀ c : Nat, (c : Int) < r0.nch → Good x c (r.pts c)) →
      ∃ r' s', readLoop fp S (fuel + 2) n r s =
          .ok ⟨(forwardPositions x ρ r0.fileSamples n).map (fun y => (List.range r0.nch.toNat).map (o y)), [], r', s'⟩ ∧
        IFwd r' p R (x + (forwardPositions x ρ r0.fileSamples n).length * ρ) ∧ I s' ∧ SameConf r0 r' ∧ r'.rate = ρ ∧
        ∀ c : Nat, (c : Int) < r0.nch → Good (x + (forwardPositions x ρ r0.fileSamples n).length * ρ) c (r'.pts c)
  | 0, r, x, s, hr, hcf, hρ, hs, hg => ⟨r, s, rfl, by simpa [forwardPositions] using hr, hs, hcf, hρ, by simpa [forwardPositions] using hg⟩
  | n + 1, r, x, s, hr, hcf, hρ, hs, hg => by
    rw [forwardPositions_succ]
    have hn0 : 0 < r0.nch := by have := hr.plain.nch; simp only at this; rw [hcf.nch] at this; exact this
    by_cases hx : ⌊x⌋ < r0.fileSamples
    · rw [if_pos hx]
      obtain ⟨q, s1, e1, e2, e3⟩ := readFrame_chans hc (fuel + 1) hx r0.nch.toNat 0 r s hr hcf hρ (by omega) hs (fun c hcc => by omega)
        (fun c _ hcc => hg c hcc)
      obtain ⟨r2, h2, hf2, hr2, hc2, hp2⟩ := (hr.pts q).step fp (by simp only; rw [hcf.fileSamples]; exact hx)
      have hc3 : SameConf r0 r2 := hcf.trans ⟨hc2.nch, hc2.header, hc2.loopType, hc2.playStart, hc2.loopStart, hc2.loopFinish, hc2.fileSamples, hc2.fileSize,
        hc2.dual, hc2.cfDur, hc2.interp, hc2.playing, hc2.playbackStart, hc2.psram⟩
      simp only [hρ] at hr2 hf2
      obtain ⟨r', s', h3, h4, h5, h6, h7, h8⟩ := interp_law hc fuel n r2 (x + ρ) s1 hf2 hc3 hr2 e2
        (fun c hcc => by rw [hp2]; exact e3 c (by omega))
      have hlen : x + (((x :: forwardPositions (x + ρ) ρ r0.fileSamples n).length : Nat) : ℚ) * ρ =
          x + ρ + ((forwardPositions (x + ρ) ρ r0.fileSamples n).length : ℚ) * ρ := by rw [List.length_cons]; push_cast; ring
      refine ⟨r', s', ?_, by rw [hlen]; exact h4, h5, h6, h7, by rw [hlen]; exact h8⟩
      have hd : r.dual = false := hr.plain.dual
      rw [readLoop_succ]
      simp only [hd, Bool.false_eq_true, if_false, ok_bind]
      rw [hcf.nch, e1]
      simp only [ok_bind, if_true, h2, h3, List.map_cons, List.range_eq_range']
    · rw [if_neg hx]
      have he : r.atEnd = true := by rw [hr.atEnd, hcf.fileSamples]; simpa using hx
      refine ⟨r, s, ?_, by simpa using hr, hs, hcf, hρ, by simpa using hg⟩
      have hd : r.dual = false := hr.plain.dual
      have hcfo : r.cfOn = false := hr.plain.cfOn
      have hl : r.loopType = .none := hr.loop
      have hk : r.nch.toNat = (r.nch.toNat - 1) + 1 := by rw [hcf.nch]; omega
      have hf : readFrame fp S (fuel + 2) r.nch.toNat 0 r s = .ok ([], false, r, s) := by
        rw [hk, readFrame, readChan_atEnd he, wrapAround_none.2 hl]
        have : { r with cfOn := false } = r := by rw [← hcfo]
        simp only [this]; rfl
      rw [readLoop_succ]
      simp only [hd, Bool.false_eq_true, if_false, ok_bind, hf, List.map_nil]

theorem readNextValue_quad {fp : Fp} {r r' : Rd} {s s1 s2 : σ} {ch : Nat} {v o : Int} (hat : r.atEnd = false) (hi : r.interp = .quadratic)
    (e1 : baseVal fp S r s ch = .ok (v, s1)) (e2 : quadVal fp S r s1 ch = .ok (o, r', s2)) : readNextValue fp S r s ch = .ok (some o, r', s2) := by
  unfold readNextValue
  simp only [hat, Bool.false_eq_true, if_false, e1, ok_bind, hi, e2, pure_eq_ok]

theorem readNextValue_lin {fp : Fp} {r r' : Rd} {s s1 s2 : σ} {ch : Nat} {v o : Int} (hat : r.atEnd = false) (hi : r.interp = .linear)
    (e1 : baseVal fp S r s ch = .ok (v, s1)) (e2 : linearVal fp S r s1 ch v = .ok (o, r', s2)) : readNextValue fp S r s ch = .ok (some o, r', s2) := by
  unfold readNextValue
  simp only [hat, Bool.false_eq_true, if_false, e1, ok_bind, hi, e2, pure_eq_ok]

/-! ## Cubic -/

/-- The last `m` points are the values of `w` up to index `g`. -/
def Vals (w : Int → Int) (m : Nat) (g : Int) (p : Pts) : Prop :=
  (1 ≤ m → p.y3 = w g) ∧ (2 ≤ m → p.y2 = w (g - 1)) ∧ (3 ≤ m → p.y1 = w (g - 2)) ∧ (4 ≤ m → p.y0 = w (g - 3))

theorem Vals.push {w : Int → Int} {m : Nat} {g : Int} {p : Pts} (h : Vals w m g p) (n : Nat) : Vals w (m + 1) (g + 1) ⟨n, p.y1, p.y2, p.y3, w (g + 1)⟩ := by
  obtain ⟨h1, h2, h3, h4⟩ := h
  refine ⟨fun _ => rfl, fun _ => ?_, fun _ => ?_, fun _ => ?_⟩
  · simp only; rw [h1 (by omega)]; congr 1; omega
  · simp only; rw [h2 (by omega)]; congr 1; omega
  · simp only; rw [h3 (by omega)]; congr 1; omega

theorem addPoint_quad {r : Rd} (hi : r.interp = .quadratic) {ch : Nat} (hch : ch < 8) (y : Int) : addPoint r ch y =
    .ok { r with pts := Function.update r.pts ch (⟨if (r.pts ch).n < 4 then (r.pts ch).n + 1 else (r.pts ch).n, (r.pts ch).y1, (r.pts ch).y2, (r.pts ch).y3, y⟩ : Pts) } := by
  unfold addPoint
  split
  · rename_i h; rw [hi] at h; cases h
  · rename_i h; rw [hi] at h; cases h
  · rw [if_pos hch]

theorem addPoint_lin {r : Rd} (hi : r.interp = .linear) {ch : Nat} (hch : ch < 8) (y : Int) : addPoint r ch y =
    .ok { r with pts := Function.update r.pts ch ({ (r.pts ch) with y0 := (r.pts ch).y1, y1 := y, n := if (r.pts ch).n < 2 then (r.pts ch).n + 1 else (r.pts ch).n } : Pts) } := by
  unfold addPoint
  split
  · rename_i h; rw [hi] at h; cases h
  · rw [if_pos hch]
  · rename_i h; rw [hi] at h; cases h

theorem pushLoop_fwd (fp : Fp) (hS : SrcIs S I P val) {ch : Nat} (hch : ch < 8) (g : Int) (w : Int → Int) :
    ∀ (k : Nat) (r : Rd) (s : σ), r.dual = false → r.interp = .quadratic → I s → (r.pts ch).n ≤ 4 →
      (∀ i : Nat, i < k → InI32 (r.pos1 + (-(i : Int)) * r.nch) ∧ InI32 (r.pos1 + (-(i : Int)) * r.nch + ch) ∧ P (r.pos1 + (-(i : Int)) * r.nch + ch) ∧
        val (r.pos1 + (-(i : Int)) * r.nch + ch) = w (g - i)) →
      ∃ q s', pushLoop fp S true ch k r s = .ok ({ r with pts := Function.update r.pts ch q }, s') ∧ I s' ∧ q.n = min 4 ((r.pts ch).n + k) ∧
        ∀ m, Vals w m (g - k) (r.pts ch) → Vals w (m + k) g q
  | 0, r, s, _, _, hs, hn, _ => ⟨r.pts ch, s, by unfold pushLoop; rw [Function.update_eq_self], hs, by omega, fun m hm => by simpa using hm⟩
  | k + 1, r, s, hd, hi, hs, hn, hb => by
    obtain ⟨b1, b2, b3, b4⟩ := hb k (by omega)
    obtain ⟨s1, e1, hs1⟩ := hS s _ hs b3
    obtain ⟨q0, hq0⟩ : ∃ q0 : Pts, q0 = ⟨if (r.pts ch).n < 4 then (r.pts ch).n + 1 else (r.pts ch).n, (r.pts ch).y1, (r.pts ch).y2, (r.pts ch).y3, w (g - k)⟩ := ⟨_, rfl⟩
    obtain ⟨q, s2, f1, f2, f3, f4⟩ := pushLoop_fwd fp hS hch g w k { r with pts := Function.update r.pts ch q0 } s1 hd hi hs1
      (by simp only; rw [Function.update_self, hq0]; simp only; split <;> omega) (fun i hik => hb i (by omega))
    refine ⟨q, s2, ?_, f2, ?_, fun m hm => ?_⟩
    · rw [pushLoop]
      unfold srcVal
      simp only [if_true, chkI32_ok b1, ok_bind, chkI32_ok b2, e1, hd, Bool.false_and, Bool.false_eq_true, if_false, pure_eq_ok]
      rw [b4, addPoint_quad hi hch, ← hq0]
      rw [ok_bind]
      simp only [Function.update_idem, hd] at f1 ⊢
      exact f1
    · simp only [Function.update_self] at f3
      rw [f3, hq0]; simp only; split <;> omega
    · simp only [Function.update_self] at f4
      have h1 := Vals.push hm (if (r.pts ch).n < 4 then (r.pts ch).n + 1 else (r.pts ch).n)
      rw [show g - ((k + 1 : Nat) : Int) + 1 = g - k by push_cast; ring, ← hq0] at h1
      have h2 := f4 (m + 1) h1
      rw [show m + (k + 1) = m + 1 + k by omega]; exact h2

/-- The fraction test of `readNextValue` is exact on the grid. -/
theorem IFwd.test (fp : Fp) {r : Rd} {p : Nat} {R : Int} {x : ℚ} (h : IFwd r p R x) : fp.d.rnd (r.rem - r.rate) = x - r.rate - ⌊x⌋ := by
  have hg : GridRate p r.rate := h.grid
  have hrem : r.rem = x - ⌊x⌋ := h.rem
  have h0 : (0 : ℚ) ≤ r.rate := h.rate0
  have hb := hg.bound
  rw [abs_of_nonneg h0] at hb
  have hone : (1 : ℚ) ≤ 2 ^ (52 - p) := one_le_pow₀ (by norm_num)
  have htwo : (2 : ℚ) ^ (53 - p) = 2 * 2 ^ (52 - p) := by
    have := hg.hp
    rw [← pow_succ']; congr 1; omega
  have := Int.floor_le x
  have := Int.lt_floor_add_one x
  have hgr : OnGrid p (x - ⌊x⌋ - r.rate) := (h.xgrid.sub (OnGrid.int p _)).sub hg.grid
  rw [hrem, hgr.exact hg.hp (by rw [abs_le]; constructor <;> linarith) fp.d]
  ring

/-- Sample `i` of channel `ch`. -/
def smp (val : Int → Int) (H nch : Int) (ch : Nat) (i : Int) : Int := val (H + i * nch + ch)

/-- What cubic interpolation delivers at position `y`; `b` is the frame before the first one used. -/
def cubicOut (fp : Fp) (w : Int → Int) (b : Int) (y : ℚ) : Int :=
  if ⌊y⌋ - b < 4 then 0
  else clamp16 (trunc (fiValue fp (w (⌊y⌋ - 3)) (w (⌊y⌋ - 2)) (w (⌊y⌋ - 1)) (w ⌊y⌋) (fp.f.rnd (fp.d.rnd (1 + (y - ⌊y⌋))))))

/-- The points stored before the frame at position `y` is read. -/
def CubicGood (w : Nat → Int → Int) (ρ : ℚ) (b : Int) (y : ℚ) (ch : Nat) (q : Pts) : Prop :=
  b ≤ ⌊y - ρ⌋ ∧ q.n = (min 4 (⌊y - ρ⌋ - b)).toNat ∧ Vals (w ch) q.n ⌊y - ρ⌋ q

theorem unit_arg (fp : Fp) {a : ℚ} (h0 : 0 ≤ a) (h1 : a ≤ 1) : 1 ≤ fp.f.rnd (fp.d.rnd (1 + a)) ∧ fp.f.rnd (fp.d.rnd (1 + a)) ≤ 2 := by
  have e1 : fp.d.rnd 1 = 1 := by have := fp.d.exact_int (by norm_num) (by norm_num) (m := 1) (by norm_num); simpa using this
  have e2 : fp.d.rnd 2 = 2 := by have := fp.d.exact_int (by norm_num) (by norm_num) (m := 2) (by norm_num); simpa using this
  have f1 : fp.f.rnd 1 = 1 := by have := fp.f.exact_int (by norm_num) (by norm_num) (m := 1) (by norm_num); simpa using this
  have f2 : fp.f.rnd 2 = 2 := by have := fp.f.exact_int (by norm_num) (by norm_num) (m := 2) (by norm_num); simpa using this
  have d1 : 1 ≤ fp.d.rnd (1 + a) := by have := fp.d.mono (show (1 : ℚ) ≤ 1 + a by linarith); rwa [e1] at this
  have d2 : fp.d.rnd (1 + a) ≤ 2 := by have := fp.d.mono (show 1 + a ≤ (2 : ℚ) by linarith); rwa [e2] at this
  exact ⟨by have := fp.f.mono d1; rwa [f1] at this, by have := fp.f.mono d2; rwa [f2] at this⟩

theorem cubic_chanStep (fp : Fp) (hS : SrcIs S I P val) {p : Nat} {R : Int} {r0 : Rd} {ρ : ℚ} {b : Int} (hρ : 0 < ρ) (hi : r0.interp = .quadratic) (hn8 : r0.nch ≤ 8)
    (hb : -1 ≤ b) (hP : ∀ i, r0.header ≤ i → i < r0.header + r0.fileSamples * r0.nch → P i ∧ InI16 (val i)) :
    ChanStep fp S I p R r0 ρ (fun y ch => cubicOut fp (smp val r0.header r0.nch ch) b y) (CubicGood (smp val r0.header r0.nch) ρ b) := by
  intro r y s ch hr hcf hrate hy hch hgood hs
  subst hrate
  obtain ⟨g1, g2, g3⟩ := hgood
  have ch8 : ch < 8 := by omega
  have hd : r.dual = false := hr.plain.dual
  have hq : r.interp = .quadratic := by rw [hcf.interp, hi]
  have hat : r.atEnd = false := by rw [hr.atEnd, hcf.fileSamples]; simpa using hy
  have hpos : r.pos1 = r0.header + ⌊y⌋ * r0.nch := by have := hr.pos; simp only at this; rw [this, hcf.header, hcf.nch]
  have hrem : r.rem = y - ⌊y⌋ := hr.rem
  have hR := hr.R0
  have hN : 0 < r0.nch := by have := hr.plain.nch; simp only at this; rwa [hcf.nch] at this
  have hH : 0 ≤ r0.header := by have := hr.header0; simp only at this; rwa [hcf.header] at this
  have hfit : r0.header + r0.nch * (r0.fileSamples + R + 1) ≤ 2147483647 := by have := hr.fits; simp only at this; rwa [hcf.header, hcf.nch, hcf.fileSamples] at this
  have hfl : ⌊y - r.rate⌋ ≤ ⌊y⌋ := Int.floor_le_floor (by linarith)
  -- every frame from 0 to the present one can be read
  have hfr : ∀ i : Int, 0 ≤ i → i ≤ ⌊y⌋ → 0 ≤ i * r0.nch ∧ r0.header + i * r0.nch + r0.nch ≤ 2147483647 ∧ i * r0.nch + r0.nch ≤ r0.fileSamples * r0.nch := by
    intro i i0 i1
    have f1 := frame_fits hH hN.le (show 0 ≤ i + 1 by omega) (show i + 1 ≤ r0.fileSamples + R + 1 by omega) hfit
    have f2 := mul_le_mul_of_nonneg_right (show i + 1 ≤ r0.fileSamples by omega) hN.le
    have f3 := mul_nonneg i0 hN.le
    rw [add_mul, one_mul] at f1 f2
    omega
  have hsm : ∀ i : Int, 0 ≤ i → i ≤ ⌊y⌋ → InI16 (smp val r0.header r0.nch ch i) := by
    intro i i0 i1
    have := hfr i i0 i1
    exact (hP _ (by omega) (by omega)).2
  have hy0 : 0 ≤ ⌊y⌋ := Int.floor_nonneg.2 hr.x0
  -- the base value is read and dropped
  obtain ⟨s1, e1, hs1⟩ : ∃ s1, baseVal fp S r s ch = .ok (val (r.pos1 + ch), s1) ∧ I s1 := by
    have f := hfr ⌊y⌋ hy0 le_rfl
    obtain ⟨s1, e1, e2⟩ := hS s (r.pos1 + ch) hs (hP _ (by omega) (by omega)).1
    refine ⟨s1, ?_, e2⟩
    unfold baseVal srcVal
    simp only [hd, Bool.not_false, Bool.true_or, if_true, zero_mul, add_zero]
    rw [chkI32_ok (by unfold InI32; omega)]
    simp only [ok_bind]
    rw [chkI32_ok (by unfold InI32; omega)]
    simp only [ok_bind, e1]
  have htest := hr.test fp
  have htfl : ⌊y - r.rate - ⌊y⌋⌋ = ⌊y - r.rate⌋ - ⌊y⌋ := Int.floor_sub_intCast _ _
  -- the pushes
  obtain ⟨q, s2, p1, p2, p3, p4⟩ : ∃ q s2, (do
      if r.rate > 0 then
        let t := fp.d.rnd (r.rem - r.rate)
        if t < 0 then
          let k ← castI32 (-(⌊t⌋ : ℚ))
          pushLoop fp S true ch (min k 4).toNat r s1
        else return (r, s1)
      else if r.rate < 0 then
        let t := fp.d.rnd (r.rem - r.rate)
        if t > 0 then
          let k ← castI32 (⌈t⌉ : ℚ)
          pushLoop fp S false ch (min k 4).toNat r s1
        else return (r, s1)
      else return (r, s1) : M (Rd × σ)) = .ok ({ r with pts := Function.update r.pts ch q }, s2) ∧ I s2 ∧
        q.n = (min 4 (⌊y⌋ - b)).toNat ∧ Vals (smp val r0.header r0.nch ch) q.n ⌊y⌋ q := by
    rw [if_pos hρ]
    simp only [htest]
    by_cases hlt : ⌊y - r.rate⌋ < ⌊y⌋
    · have : y - r.rate - ⌊y⌋ < 0 := by
        have : y - r.rate < ⌊y⌋ := Int.floor_lt.1 hlt
        linarith
      rw [if_pos this, htfl]
      have hle : ⌊y⌋ ≤ 2147483646 := by
        have f := hfr ⌊y⌋ hy0 le_rfl
        have := mul_le_mul_of_nonneg_left (show (1 : Int) ≤ r0.nch by omega) hy0
        omega
      have hcast : castI32 (-((⌊y - r.rate⌋ - ⌊y⌋ : Int) : ℚ)) = .ok (⌊y⌋ - ⌊y - r.rate⌋) := by
        rw [← Int.cast_neg]
        unfold castI32
        rw [trunc_int, if_pos (by unfold InI32; omega)]
        congr 1; ring
      rw [hcast]
      simp only [ok_bind]
      have hbnd : ∀ i : Nat, i < (min (⌊y⌋ - ⌊y - r.rate⌋) 4).toNat → InI32 (r.pos1 + (-(i : Int)) * r.nch) ∧ InI32 (r.pos1 + (-(i : Int)) * r.nch + ch) ∧
          P (r.pos1 + (-(i : Int)) * r.nch + ch) ∧ val (r.pos1 + (-(i : Int)) * r.nch + ch) = smp val r0.header r0.nch ch (⌊y⌋ - i) := by
        intro i hik
        have e : r.pos1 + (-(i : Int)) * r.nch = r0.header + (⌊y⌋ - i) * r0.nch := by rw [hpos, hcf.nch]; ring
        rw [e]
        have f := hfr (⌊y⌋ - i) (by omega) (by omega)
        exact ⟨by unfold InI32; omega, by unfold InI32; omega, (hP _ (by omega) (by omega)).1, rfl⟩
      have hn4 : (r.pts ch).n ≤ 4 := by rw [g2]; omega
      obtain ⟨q, s2, a1, a2, a3, a4⟩ := pushLoop_fwd fp hS ch8 ⌊y⌋ (smp val r0.header r0.nch ch) (min (⌊y⌋ - ⌊y - r.rate⌋) 4).toNat r s1 hd hq hs1 hn4 hbnd
      refine ⟨q, s2, a1, a2, by rw [a3, g2]; omega, ?_⟩
      by_cases h4 : ⌊y⌋ - ⌊y - r.rate⌋ ≤ 4
      · have e : (⌊y⌋ : Int) - ((min (⌊y⌋ - ⌊y - r.rate⌋) 4).toNat : Nat) = ⌊y - r.rate⌋ := by omega
        have := a4 _ (by rw [e]; exact g3)
        obtain ⟨v1, v2, v3, v4⟩ := this
        have hle : q.n ≤ (r.pts ch).n + (min (⌊y⌋ - ⌊y - r.rate⌋) 4).toNat := by rw [a3]; omega
        exact ⟨fun h => v1 (by omega), fun h => v2 (by omega), fun h => v3 (by omega), fun h => v4 (by omega)⟩
      · obtain ⟨v1, v2, v3, v4⟩ := a4 0 ⟨fun h => by omega, fun h => by omega, fun h => by omega, fun h => by omega⟩
        exact ⟨fun h => v1 (by omega), fun h => v2 (by omega), fun h => v3 (by omega), fun h => v4 (by omega)⟩
    · have heq : ⌊y - r.rate⌋ = ⌊y⌋ := by omega
      have : ¬ y - r.rate - ⌊y⌋ < 0 := by
        have := Int.floor_le (y - r.rate)
        rw [heq] at this
        linarith
      rw [if_neg this]
      refine ⟨r.pts ch, s1, by rw [Function.update_eq_self]; rfl, hs1, by rw [g2, heq], by rw [← heq]; exact g3⟩
  refine ⟨q, s2, ?_, ?_, p2⟩
  · refine readNextValue_quad hat hq e1 ?_
    unfold quadVal
    simp only
    rw [p1]
    simp only [ok_bind, ptsOf, ch8, if_true, Function.update_self]
    unfold cubicOut
    by_cases h4 : ⌊y⌋ - b < 4
    · rw [if_pos h4, if_neg (by omega)]; rfl
    · obtain ⟨v1, v2, v3, v4⟩ := p4
      have hqn : q.n = 4 := by omega
      rw [if_neg h4, if_pos (by omega)]
      have habs : |r.rem| = y - ⌊y⌋ := by rw [hrem, abs_of_nonneg]; have := Int.floor_le y; linarith
      rw [v1 (by omega), v2 (by omega), v3 (by omega), v4 (by omega), habs]
      obtain ⟨u1, u2⟩ := unit_arg fp (a := y - ⌊y⌋) (by have := Int.floor_le y; linarith) (by have := Int.lt_floor_add_one y; linarith)
      rw [fastinterpolate_ok fp (hsm _ (by omega) (by omega)) (hsm _ (by omega) (by omega)) (hsm _ (by omega) (by omega)) (hsm _ (by omega) (by omega)) u1 u2]
      rfl
  · unfold CubicGood
    rw [show y + r.rate - r.rate = y by ring]
    exact ⟨by omega, p3, p4⟩

/-! ## Linear -/

/-- The value computed between two points. -/
def mixOut (fp : Fp) (a : ℚ) (y1 y0 : Int) : Int := trunc (fp.d.rnd (fp.d.rnd (a * y1) + fp.d.rnd (fp.d.rnd (1 - a) * y0)))

/-- What linear interpolation delivers at position `y`; `b` is the frame before the first one used, `stale` what the second point was at first. -/
def linearOut (fp : Fp) (w : Int → Int) (stale : Int) (b : Int) (y : ℚ) : Int :=
  if ⌊y⌋ - b < 2 then (if y = ⌊y⌋ then stale else w ⌊y⌋)
  else mixOut fp (y - ⌊y⌋) (w ⌊y⌋) (w (⌊y⌋ - 1))

/-- The points stored before the frame at position `y` is read. -/
def LinearGood (w : Nat → Int → Int) (stale : Nat → Int) (ρ : ℚ) (b : Int) (y : ℚ) (ch : Nat) (q : Pts) : Prop :=
  b ≤ ⌊y - ρ⌋ ∧ q.n = (min 2 (⌊y - ρ⌋ - b)).toNat ∧ (q.n = 0 → q.y1 = stale ch) ∧ (1 ≤ q.n → q.y1 = w ch ⌊y - ρ⌋) ∧ (q.n = 2 → q.y0 = w ch (⌊y - ρ⌋ - 1))

theorem mixOut_zero (fp : Fp) (y1 : Int) {y0 : Int} (h0 : InI16 y0) : mixOut fp 0 y1 y0 = y0 := by
  have e1 : fp.d.rnd 1 = 1 := by have := fp.d.exact_int (by norm_num) (by norm_num) (m := 1) (by norm_num); simpa using this
  have e2 : fp.d.rnd (y0 : ℚ) = y0 := fp.d.exact_int (by norm_num) (by norm_num) (by unfold InI16 at h0; rw [abs_le]; norm_num; omega)
  unfold mixOut
  rw [zero_mul, fp.d.exact_zero, sub_zero, e1, one_mul, e2, zero_add, e2, trunc_int]

theorem linear_chanStep (fp : Fp) (hS : SrcIs S I P val) {p : Nat} {R : Int} {r0 : Rd} {ρ : ℚ} {b : Int} (stale : Nat → Int) (hρ : 0 < ρ) (hρ1 : ρ ≤ 1)
    (hi : r0.interp = .linear) (hn8 : r0.nch ≤ 8)
    (hb : -1 ≤ b) (hP : ∀ i, r0.header ≤ i → i < r0.header + r0.fileSamples * r0.nch → P i ∧ InI16 (val i)) :
    ChanStep fp S I p R r0 ρ (fun y ch => linearOut fp (smp val r0.header r0.nch ch) (stale ch) b y) (LinearGood (smp val r0.header r0.nch) stale ρ b) := by
  intro r y s ch hr hcf hrate hy hch hgood hs
  subst hrate
  obtain ⟨g1, g2, g3, g4, g5⟩ := hgood
  have ch8 : ch < 8 := by omega
  have hd : r.dual = false := hr.plain.dual
  have hq : r.interp = .linear := by rw [hcf.interp, hi]
  have hat : r.atEnd = false := by rw [hr.atEnd, hcf.fileSamples]; simpa using hy
  have hpos : r.pos1 = r0.header + ⌊y⌋ * r0.nch := by have := hr.pos; simp only at this; rw [this, hcf.header, hcf.nch]
  have hrem : r.rem = y - ⌊y⌋ := hr.rem
  have hR := hr.R0
  have hN : 0 < r0.nch := by have := hr.plain.nch; simp only at this; rwa [hcf.nch] at this
  have hH : 0 ≤ r0.header := by have := hr.header0; simp only at this; rwa [hcf.header] at this
  have hfit : r0.header + r0.nch * (r0.fileSamples + R + 1) ≤ 2147483647 := by have := hr.fits; simp only at this; rwa [hcf.header, hcf.nch, hcf.fileSamples] at this
  have hfl : ⌊y - r.rate⌋ ≤ ⌊y⌋ := Int.floor_le_floor (by linarith)
  have hfl1 : ⌊y⌋ ≤ ⌊y - r.rate⌋ + 1 := by
    have : ⌊y - 1⌋ ≤ ⌊y - r.rate⌋ := Int.floor_le_floor (by linarith)
    rw [Int.floor_sub_one] at this
    omega
  have hfr : ∀ i : Int, 0 ≤ i → i ≤ ⌊y⌋ → 0 ≤ i * r0.nch ∧ r0.header + i * r0.nch + r0.nch ≤ 2147483647 ∧ i * r0.nch + r0.nch ≤ r0.fileSamples * r0.nch := by
    intro i i0 i1
    have f1 := frame_fits hH hN.le (show 0 ≤ i + 1 by omega) (show i + 1 ≤ r0.fileSamples + R + 1 by omega) hfit
    have f2 := mul_le_mul_of_nonneg_right (show i + 1 ≤ r0.fileSamples by omega) hN.le
    have f3 := mul_nonneg i0 hN.le
    rw [add_mul, one_mul] at f1 f2
    omega
  obtain ⟨w, hw⟩ : ∃ w, w = smp val r0.header r0.nch ch := ⟨_, rfl⟩
  have hsm : ∀ i : Int, 0 ≤ i → i ≤ ⌊y⌋ → InI16 (w i) := by
    intro i i0 i1
    have := hfr i i0 i1
    rw [hw]
    exact (hP _ (by omega) (by omega)).2
  have hy0 : 0 ≤ ⌊y⌋ := Int.floor_nonneg.2 hr.x0
  obtain ⟨s1, e1, hs1⟩ : ∃ s1, baseVal fp S r s ch = .ok (w ⌊y⌋, s1) ∧ I s1 := by
    have f := hfr ⌊y⌋ hy0 le_rfl
    obtain ⟨s1, e1, e2⟩ := hS s (r.pos1 + ch) hs (hP _ (by omega) (by omega)).1
    refine ⟨s1, ?_, e2⟩
    unfold baseVal srcVal
    simp only [hd, Bool.not_false, Bool.true_or, if_true, zero_mul, add_zero]
    rw [chkI32_ok (by unfold InI32; omega)]
    simp only [ok_bind]
    rw [chkI32_ok (by unfold InI32; omega)]
    simp only [ok_bind, e1]
    rw [hw, hpos]; rfl
  have htest := hr.test fp
  have hrem0 : 0 ≤ y - ⌊y⌋ := by have := Int.floor_le y; linarith
  have hrem1 : y - ⌊y⌋ < 1 := by have := Int.lt_floor_add_one y; linarith
  have habs : |r.rem| = y - ⌊y⌋ := by rw [hrem, abs_of_nonneg hrem0]
  simp only [← hw] at g4 g5
  -- the points when the new frame has been pushed
  obtain ⟨q, hqd⟩ : ∃ q : Pts, q = { (r.pts ch) with y0 := (r.pts ch).y1, y1 := w ⌊y⌋, n := if (r.pts ch).n < 2 then (r.pts ch).n + 1 else (r.pts ch).n } := ⟨_, rfl⟩
  have hadd : addPoint r ch (w ⌊y⌋) = .ok { r with pts := Function.update r.pts ch q } := by rw [addPoint_lin hq ch8, hqd]
  have hqn : ⌊y - r.rate⌋ + 1 = ⌊y⌋ → q.n = (min 2 (⌊y⌋ - b)).toNat := fun h => by rw [hqd]; simp only; rw [g2]; split <;> omega
  have hq1 : q.y1 = w ⌊y⌋ := by rw [hqd]
  have hq0 : q.y0 = (r.pts ch).y1 := by rw [hqd]
  have hcross : ⌊y - r.rate⌋ + 1 = ⌊y⌋ ↔ y - r.rate - ⌊y⌋ < 0 := by
    constructor
    · intro h
      have := Int.lt_floor_add_one (y - r.rate)
      have h2 : ((⌊y - r.rate⌋ + 1 : Int) : ℚ) = ⌊y⌋ := by rw [h]
      push_cast at h2
      linarith
    · intro h
      have : ⌊y - r.rate⌋ < ⌊y⌋ := Int.floor_lt.2 (by linarith)
      omega
  -- what is stored afterwards
  have hgood : ∀ q' : Pts, (⌊y - r.rate⌋ + 1 = ⌊y⌋ ∧ q' = q ∨ ⌊y - r.rate⌋ = ⌊y⌋ ∧ q' = r.pts ch) →
      q'.n = (min 2 (⌊y⌋ - b)).toNat ∧ (q'.n = 0 → q'.y1 = stale ch) ∧ (1 ≤ q'.n → q'.y1 = w ⌊y⌋) ∧ (q'.n = 2 → q'.y0 = w (⌊y⌋ - 1)) ∧
      (q'.n = 1 → ⌊y - r.rate⌋ + 1 = ⌊y⌋ → q'.y0 = stale ch) := by
    rintro q' (⟨h, rfl⟩ | ⟨h, rfl⟩)
    · refine ⟨hqn h, fun h0 => by rw [hqn h] at h0; omega, fun _ => hq1, fun h2 => ?_, fun h1 _ => ?_⟩
      · rw [hq0, g4 (by rw [hqn h] at h2; omega)]; congr 1; omega
      · rw [hq0, g3 (by rw [hqn h] at h1; omega)]
    · rw [h] at g2 g4 g5
      exact ⟨g2, g3, g4, g5, fun _ hh => by omega⟩
  have hfin : ∀ q' : Pts, (⌊y - r.rate⌋ + 1 = ⌊y⌋ ∧ q' = q ∨ ⌊y - r.rate⌋ = ⌊y⌋ ∧ q' = r.pts ch) →
      LinearGood (smp val r0.header r0.nch) stale r.rate b (y + r.rate) ch q' := by
    intro q' hh
    obtain ⟨k1, k2, k3, k4, _⟩ := hgood q' hh
    unfold LinearGood
    rw [show y + r.rate - r.rate = y by ring, ← hw]
    exact ⟨by omega, k1, k2, k3, k4⟩
  dsimp only [linearOut]
  rw [← hw]
  by_cases hz : y - ⌊y⌋ = 0
  · -- on a frame
    have hc : ⌊y - r.rate⌋ + 1 = ⌊y⌋ := hcross.2 (by linarith)
    refine ⟨q, s1, readNextValue_lin hat hq e1 ?_, hfin q (Or.inl ⟨hc, rfl⟩), hs1⟩
    obtain ⟨k1, k2, k3, k4, k5⟩ := hgood q (Or.inl ⟨hc, rfl⟩)
    unfold linearVal
    simp only [habs, hz, gt_iff_lt, lt_irrefl, if_false]
    rw [hadd]
    simp only [ok_bind, ptsOf, ch8, if_true, Function.update_self, pure_eq_ok]
    by_cases h2 : ⌊y⌋ - b < 2
    · rw [if_pos h2, if_pos (by linarith), k5 (by omega) hc]
    · rw [if_neg h2, mixOut_zero fp _ (hsm _ (by omega) (by omega)), k4 (by omega)]
  · have hpz : 0 < y - ⌊y⌋ := lt_of_le_of_ne hrem0 (Ne.symm hz)
    obtain ⟨q', hq', hbr⟩ : ∃ q', (⌊y - r.rate⌋ + 1 = ⌊y⌋ ∧ q' = q ∨ ⌊y - r.rate⌋ = ⌊y⌋ ∧ q' = r.pts ch) ∧
        (if fp.d.rnd (r.rem - r.rate) < 0 then (addPoint r ch (w ⌊y⌋) >>= fun r2 => .ok (r2, s1)) else .ok (r, s1)) =
          (.ok ({ r with pts := Function.update r.pts ch q' }, s1) : M (Rd × σ)) := by
      rw [htest]
      by_cases hc : y - r.rate - ⌊y⌋ < 0
      · exact ⟨q, Or.inl ⟨hcross.2 hc, rfl⟩, by rw [if_pos hc, hadd, ok_bind]⟩
      · refine ⟨r.pts ch, Or.inr ⟨?_, rfl⟩, by rw [if_neg hc, Function.update_eq_self]⟩
        have := mt hcross.1 hc
        omega
    refine ⟨q', s1, readNextValue_lin hat hq e1 ?_, hfin q' hq', hs1⟩
    obtain ⟨k1, k2, k3, k4, k5⟩ := hgood q' hq'
    have hnr : ¬ r.rate > 1 := not_lt.2 hρ1
    unfold linearVal
    simp only
    rw [if_pos (by rw [habs]; exact hpz), if_pos hρ]
    simp only [pure_eq_ok, ptsOf, ch8, if_true, ok_bind, decide_eq_false hnr, Bool.and_false, Bool.false_and, Bool.false_eq_true, if_false, hbr, Function.update_self, habs]
    by_cases h2 : ⌊y⌋ - b < 2
    · rw [if_neg (by omega), if_pos h2, if_neg (fun h => hz (by linarith))]
    · rw [if_pos (by omega), if_neg h2, k3 (by omega), k4 (by omega)]
      obtain ⟨m, hm, _⟩ := mix_ok fp.d hrem0 hrem1.le (hsm ⌊y⌋ hy0 le_rfl) (hsm (⌊y⌋ - 1) (by omega) (by omega))
      have : m = mixOut fp (y - ⌊y⌋) (w ⌊y⌋) (w (⌊y⌋ - 1)) := by
        unfold mixOut
        unfold castI16 at hm
        split at hm
        · cases hm; rfl
        · cases hm
      rw [hm, ok_bind, this]

end TVP
