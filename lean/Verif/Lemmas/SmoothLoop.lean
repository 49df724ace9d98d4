import Verif.Lemmas.FadeStream

/-!
# A player repeating a part of a file with interpolation
-/

namespace TVP
open Spec

variable {m : List Nat} {g : Geo} {fp : Fp} {R A Z H nch : Int} {I : Interp} {P : Int → Prop} {f : Int → Int}

/-- A reader going forwards at a rate up to `R`, with any interpolation, repeating the frames from `A` to `Z`; the next frame is `x`. -/
structure SRep (I : Interp) (R A Z H nch : Int) (r : Rd) (x : Int) : Prop where
  dual : r.dual = false
  cfOn : r.cfOn = false
  w0 : 0 ≤ r.crossfade
  w1 : r.crossfade ≤ 1
  loop : r.loopType = .repeat
  rate0 : 0 ≤ r.rate
  rateR : r.rate ≤ R
  flt : IsFloat 53 (-1074) r.rem
  frac : |r.rem| < 1
  ii : r.interp = I
  ip : InterpFwd r
  pts : PtsOk r
  header : r.header = H
  ls : r.loopStart = A
  lf : r.loopFinish = Z
  chans : r.nch = nch
  x0 : 0 ≤ x
  x1 : x ≤ Z + R
  pos : r.pos1 = H + x * nch

/-- The numbers in play. -/
structure RepNum (R A Z H nch : Int) : Prop where
  n0 : 0 < nch
  H0 : 0 ≤ H
  A0 : 0 ≤ A
  AZ : A < Z
  R0 : 0 ≤ R
  R2 : R ≤ 2 ^ 30
  fits : H + nch * (Z + R + 1) ≤ 2147483647

/-- The frame heard by a reader at frame `x`. -/
def curFrame (A Z x : Int) : Int := if Z ≤ x then A else x

/-- The first frame a reader may look at when it hears frame `q`. -/
noncomputable def lowFrame (r : Rd) (q : Int) : Int := if r.interp = .linear ∧ 1 < r.rate ∧ r.rem ≠ 0 ∧ 0 < q then q - 1 else q

theorem lowFrame_le (r : Rd) (q : Int) : lowFrame r q ≤ q := by unfold lowFrame; split <;> omega

theorem lowFrame_ge (r : Rd) (q : Int) : q - 1 ≤ lowFrame r q := by unfold lowFrame; split <;> omega

theorem lowFrame_nonneg (r : Rd) {q : Int} (h : 0 ≤ q) : 0 ≤ lowFrame r q := by unfold lowFrame; split <;> omega

theorem curFrame_lt (hAZ : A < Z) (x : Int) : curFrame A Z x < Z := by unfold curFrame; split <;> omega

theorem curFrame_nonneg (hA : 0 ≤ A) {x : Int} (hx : 0 ≤ x) : 0 ≤ curFrame A Z x := by unfold curFrame; split <;> omega

theorem SRep.same {r r' : Rd} {x : Int} (h : SRep I R A Z H nch r x) (hb : SameBut r r') (hp : PtsOk r') : SRep I R A Z H nch r' x := by
  obtain ⟨y1, y2, y3, y4, y5, y6, y7, y8, y9, y10, y11, _, y13, y14, y15, y16, y17, y18, y19⟩ := h
  have e : PtsOk { r with pts := r'.pts } := hp
  rw [hb]
  exact ⟨y1, y2, y3, y4, y5, y6, y7, y8, y9, y10, y11, e, y13, y14, y15, y16, y17, y18, y19⟩

theorem SRep.posOf (n : RepNum R A Z H nch) {r : Rd} {x : Int} (h : SRep I R A Z H nch r x) {y : Int} (h0 : 0 ≤ y) (h1 : y ≤ Z) : r.posOf y = H + y * nch := by
  have hR := n.R0
  have hH := n.H0
  have f := frame_fits n.H0 (le_of_lt n.n0) h0 (show y ≤ Z + R + 1 by omega) n.fits
  rw [posOf_eq] <;> rw [h.header, h.chans]
  exact ⟨by omega, f.2⟩

theorem SRep.atEnd (n : RepNum R A Z H nch) {r : Rd} {x : Int} (h : SRep I R A Z H nch r x) : r.atEnd = decide (Z ≤ x) := by
  have hA := n.A0
  have hAZ := n.AZ
  unfold Rd.atEnd
  simp only [h.dual, Bool.false_eq_true, if_false, h.rate0, ge_iff_le, if_true, h.loop, h.lf, h.posOf n (show 0 ≤ Z by omega) (le_refl _), h.pos]
  rw [if_neg (by decide)]
  congr 1
  apply propext
  constructor
  · intro hle
    have : Z * nch ≤ x * nch := by omega
    exact le_of_mul_le_mul_right this n.n0
  · intro hle
    have := mul_le_mul_of_nonneg_right hle (le_of_lt n.n0)
    omega

/-- Before a frame is heard the reader goes back to the start of the loop if it has passed the end. -/
theorem SRep.settle (n : RepNum R A Z H nch) {r : Rd} {x : Int} (h : SRep I R A Z H nch r x) :
    ∃ r1, Settles r r1 ∧ SRep I R A Z H nch r1 (curFrame A Z x) ∧ SameConf r r1 ∧ ∀ q, lowFrame r1 q = lowFrame r q := by
  have hA := n.A0
  have hAZ := n.AZ
  have hR := n.R0
  have hat := h.atEnd n
  unfold curFrame
  by_cases he : Z ≤ x
  · rw [decide_eq_true he] at hat
    obtain ⟨r1, hr1⟩ : ∃ r1 : Rd, r1 = { r with cfOn := false, pos1 := H + A * nch } := ⟨_, rfl⟩
    have h1 : SRep I R A Z H nch r1 A := by
      rw [hr1]
      exact ⟨h.dual, rfl, h.w0, h.w1, h.loop, h.rate0, h.rateR, h.flt, h.frac, h.ii, h.ip, h.pts, h.header, h.ls, h.lf, h.chans, hA, by omega, rfl⟩
    rw [if_pos he]
    refine ⟨r1, Or.inr ⟨hat, ?_, by rw [h1.atEnd n]; exact decide_eq_false (by omega)⟩, h1, ?_, fun q => by rw [hr1]; rfl⟩
    · unfold wrapAround
      simp only [h.loop, ge_iff_le, h.rate0, if_true]
      rw [hr1, ← h.posOf n hA (le_of_lt hAZ), ← h.ls]
      simp only [h.loop]; rfl
    · rw [hr1]; exact ⟨rfl, rfl, rfl, rfl, rfl, rfl, rfl, rfl, rfl, rfl, rfl, rfl, rfl, rfl⟩
  · rw [if_neg he]
    exact ⟨r, Or.inl ⟨by rw [hat]; exact decide_eq_false he, rfl⟩, h, SameConf.refl r, fun _ => rfl⟩

/-- Reading a frame begins with going back. -/
theorem Settles.readFrame {σ : Type} {S : Src σ} {r r1 : Rd} (h : Settles r r1) (fuel left : Nat) (t : σ) :
    readFrame fp S (fuel + 2) (left + 1) 0 r t = readFrame fp S (fuel + 2) (left + 1) 0 r1 t := by
  rcases h with ⟨_, rfl⟩ | ⟨h1, h2, h3⟩
  · rfl
  · rw [TVP.readFrame, TVP.readFrame, readChan_atEnd h1, h2]
    simp only
    rw [readChan_settled h3, readChan_settled h3]

/-- What is read when frame `q` is heard. -/
def LowIdx (H nch lo q i : Int) : Prop := H + lo * nch ≤ i ∧ i < H + q * nch + nch

theorem SRep.frameOk (n : RepNum R A Z H nch) {r : Rd} {x : Int} (h : SRep I R A Z H nch r x) (hx : x < Z) :
    FrameOk fp (LowIdx H nch (lowFrame r x) x) r := by
  have hn := n.n0
  have hH := n.H0
  have he : r.atEnd = false := by rw [h.atEnd n]; exact decide_eq_false (by omega)
  have hqn : 0 ≤ x * nch := mul_nonneg h.x0 (le_of_lt hn)
  have hlow := mul_le_mul_of_nonneg_right (lowFrame_le r x) (le_of_lt hn)
  have hE := (frame_fits n.H0 (le_of_lt hn) (show 0 ≤ x + 1 by have := h.x0; omega) (show x + 1 ≤ Z + R + 1 by have := n.R0; omega) n.fits).2
  rw [add_mul, one_mul] at hE
  have hone : ∀ ch : Nat, (ch : Int) < r.nch → Can (LowIdx H nch (lowFrame r x) x) r.nch r.pos1 0 ch := by
    intro ch hc
    unfold Can LowIdx InI32
    rw [h.chans] at hc ⊢
    rw [h.pos]
    omega
  have hsmall : |r.rate| ≤ 2 ^ 30 := by
    rw [abs_of_nonneg h.rate0]
    have := h.rateR
    have h30 : (R : ℚ) ≤ ((2 ^ 30 : Int) : ℚ) := by exact_mod_cast n.R2
    push_cast at h30; linarith
  have hi := h.ip
  unfold InterpFwd at hi
  refine ⟨he, h.frac, hsmall, h.w0, h.w1, ?_, hone, fun x => (by rw [h.dual] at x; cases x), ?_, ?_, ?_⟩
  · intro k
    cases hx : r.interp with
    | none => exact absurd hx k
    | linear => simp only [hx] at hi; exact hi.1
    | quadratic => simp only [hx] at hi; exact hi.1
  · intro hx _ hrem hrate hback ch hc
    rw [h.header, h.chans, h.pos] at hback
    have hx1 : 0 < x := by
      by_contra hcon
      have := mul_nonpos_of_nonpos_of_nonneg (show x ≤ 0 by omega) (le_of_lt hn)
      omega
    have hl : lowFrame r x = x - 1 := by unfold lowFrame; rw [if_pos ⟨hx, hrate, hrem, hx1⟩]
    have e : (x - 1) * nch = x * nch - nch := by ring
    unfold Can LowIdx InI32
    rw [hl, h.pos, e]
    rw [h.chans] at hc ⊢
    omega
  · intro _ _ k
    have := h.rate0
    linarith
  · intro hx
    simp only [hx] at hi
    obtain ⟨_, i1, i2⟩ := hi
    obtain ⟨k1, k2⟩ := quad_one fp (rem := r.rem) (rate := r.rate) (by rw [abs_of_nonneg h.rate0]; exact i2) h.frac (fun _ => i1)
      (fun k => absurd h.rate0 (not_le.2 k))
    refine ⟨1, k1, k2, fun ch hc => ⟨fun _ j hj => ?_, fun k => absurd h.rate0 (not_le.2 k), fun x => (by rw [h.dual] at x; cases x)⟩⟩
    have : j = 0 := by omega
    subst this
    exact hone ch hc

theorem SRep.step (hfp : Representable fp) (n : RepNum R A Z H nch) {r : Rd} {x : Int} (h : SRep I R A Z H nch r x) (hx : x < Z) :
    ∃ r' y, stepOn fp r = .ok r' ∧ SRep I R A Z H nch r' y ∧ SameConf r r' ∧ x ≤ y ∧ y ≤ x + (R + 1) ∧ x ≤ lowFrame r' y := by
  have hn := n.n0
  have hH := n.H0
  have hR0 := n.R0
  have hx0 := h.x0
  have hpq : ∀ δ : Int, r.pos1 + δ * r.nch = H + (x + δ) * nch := by intro δ; rw [h.pos, h.chans]; ring
  obtain ⟨δ, f, e1, e2, e3, _, e5, e6⟩ := stepOn_any fp hfp (r := r) (R := R) (by rw [abs_of_nonneg h.rate0]; exact h.rateR) n.R2
    h.flt h.frac h.cfOn (fun δ hδ h0 _ => by
      have hδ0 := h0 h.rate0
      rw [abs_of_nonneg hδ0] at hδ
      have f1 := frame_fits n.H0 (le_of_lt hn) hδ0 (show δ ≤ Z + R + 1 by have := n.A0; have := n.AZ; omega) n.fits
      have f2 := frame_fits n.H0 (le_of_lt hn) (show 0 ≤ x + δ by omega) (show x + δ ≤ Z + R + 1 by omega) n.fits
      rw [hpq, h.chans]
      exact ⟨⟨by omega, by omega⟩, ⟨by omega, by omega⟩⟩)
  have hδ0 := e3 h.rate0
  rw [abs_of_nonneg hδ0] at e2
  obtain ⟨p2, hz⟩ := stepOn_inv e1
  have hfe : f = fp.d.rnd (fp.d.rnd (r.rem + r.rate) - trunc (fp.d.rnd (r.rem + r.rate))) := (congrArg Rd.rem hz : _)
  have hsg : 0 ≤ r.rem → 0 ≤ f := fun k => by rw [hfe]; exact rem_sign fp k h.rate0
  have hpe : r.pos1 + δ * r.nch = r.pos1 + trunc (fp.d.rnd (r.rem + r.rate)) * r.nch := (congrArg Rd.pos1 hz : _)
  have hδe : δ = trunc (fp.d.rnd (r.rem + r.rate)) := by
    have : δ * r.nch = trunc (fp.d.rnd (r.rem + r.rate)) * r.nch := by omega
    exact mul_right_cancel₀ (by rw [h.chans]; omega) this
  refine ⟨_, x + δ, e1, ⟨h.dual, h.cfOn, h.w0, h.w1, h.loop, h.rate0, h.rateR, e5, e6, h.ii, ?_, h.pts, h.header, h.ls, h.lf, h.chans, by omega, by omega, hpq δ⟩,
    ⟨rfl, rfl, rfl, rfl, rfl, rfl, rfl, rfl, rfl, rfl, rfl, rfl, rfl, rfl⟩, by omega, by omega, ?_⟩
  · have hi := h.ip
    unfold InterpFwd at hi ⊢
    simp only
    cases hx : r.interp with
    | none => trivial
    | linear => simp only [hx] at hi ⊢; exact ⟨hi.1, hsg hi.2⟩
    | quadratic => simp only [hx] at hi ⊢; exact ⟨hi.1, hsg hi.2.1, hi.2.2⟩
  · unfold lowFrame
    simp only
    split
    · rename_i k
      have hrem : 0 ≤ r.rem := by
        have hi := h.ip
        unfold InterpFwd at hi
        rw [k.1] at hi
        exact hi.2
      have h1 : 1 ≤ trunc (fp.d.rnd (r.rem + r.rate)) := by
        have e1 : fp.d.rnd 1 = 1 := by simpa using fp.d.exact_int (m := 1) (by norm_num) (by norm_num) (by norm_num)
        have m1 := fp.d.mono (show (1 : ℚ) ≤ r.rem + r.rate by linarith [k.2.1])
        rw [e1] at m1
        rw [trunc_of_nonneg (by linarith), Int.le_floor]
        exact_mod_cast m1
      omega
    · omega

/-- From one frame heard to the next: what is looked at (from `lo` on) and what is heard. -/
inductive LoopNext (bk : Int → Int) (R A Z : Int) : Int → Int → Int → Int → Prop
  | on {lo q lo' y : Int} : q ≤ lo' → lo' ≤ y → y ≤ q + (R + 1) → y < Z → LoopNext bk R A Z lo q lo' y
  | back {lo q lo' y : Int} : q ≤ y → y ≤ q + (R + 1) → Z ≤ y → lo' ≤ A → 0 ≤ lo' → bk lo' = bk A → LoopNext bk R A Z lo q lo' A

/-- The frame before the loop is only looked at if it begins in the same block. -/
def BackOk (bk : Int → Int) (I : Interp) (R A : Int) : Prop := I = .linear → 1 < R → 0 < A → bk (A - 1) = bk A

theorem BackOk.low {bk : Int → Int} (h : BackOk bk I R A) {r : Rd} {x : Int} (hr : SRep I R A Z H nch r x) : bk (lowFrame r A) = bk A := by
  unfold lowFrame
  split
  · rename_i k
    refine h (hr.ii.symm.trans k.1) ?_ k.2.2.2
    have : (1 : ℚ) < R := lt_of_lt_of_le k.2.1 hr.rateR
    exact_mod_cast this
  · rfl

/-- Reading `l` frames, as long as `Inv` allows what is asked for. -/
theorem SRep.run (hfp : Representable fp) (n : RepNum R A Z H nch) (hf : ∀ i, InI16 (f i)) {bk : Int → Int} (hbk : BackOk bk I R A) {T : Nat} {Inv : Nat → Int → Int → Prop}
    (hstep : ∀ k lo q lo' q', k < T → lo ≤ q → 0 ≤ lo → q < Z → Inv k lo q → LoopNext bk R A Z lo q lo' q' → Inv (k + 1) lo' q')
    (hP : ∀ k lo q i, k < T → lo ≤ q → 0 ≤ lo → q < Z → Inv k lo q → LowIdx H nch lo q i → P i) (fuel : Nat) :
    ∀ (l k : Nat) (r : Rd) (x : Int) (t : List Int), k + l ≤ T → SRep I R A Z H nch r x → Inv k (lowFrame r (curFrame A Z x)) (curFrame A Z x) →
      ∃ fs r' x' ext, readLoop fp (recSrc P f) (fuel + 2) l r t = .ok ⟨fs, [], r', t ++ ext⟩ ∧ fs.length = l ∧ SRep I R A Z H nch r' x' ∧
        SameConf r r' ∧ Inv (k + l) (lowFrame r' (curFrame A Z x')) (curFrame A Z x') ∧ (l ≠ 0 → H + curFrame A Z x * nch ∈ t ++ ext)
  | 0, k, r, x, t, _, h, hi => ⟨[], r, x, [], by simp [readLoop], rfl, h, SameConf.refl r, hi, fun e => absurd rfl e⟩
  | l + 1, k, r, x, t, hk, h, hi => by
    have hn := n.n0
    obtain ⟨r1, a1, a2, a3, a4⟩ := h.settle n
    have hlt := curFrame_lt n.AZ x
    have hnn := curFrame_nonneg (Z := Z) n.A0 h.x0
    rw [← a4] at hi
    generalize curFrame A Z x = q at a2 hlt hnn hi ⊢
    have hlow := lowFrame_le r1 q
    have hlow0 := lowFrame_nonneg r1 hnn
    have hk' : r.nch.toNat = (r.nch.toNat - 1) + 1 := by rw [h.chans]; omega
    have hn1 : r1.nch = r.nch := a3.nch
    obtain ⟨vs, r2, t2, b1, b2, b3, b4, b5, ext1, b6⟩ := readFrame_ok fp (S := recSrc P f)
      (I := fun t' => ∃ ext, t' = t ++ ext) (P := LowIdx H nch (lowFrame r1 q) q)
      (by
        rintro s i ⟨ext, rfl⟩ hi'
        exact ⟨_, _, recSrc_ok (hP k _ q i (by omega) hlow hlow0 hlt hi hi') _, ⟨ext ++ [i], by simp⟩, hf i⟩)
      (fuel + 1) r.nch.toNat 0 r1 t ⟨[], by simp⟩ a2.pts (a2.frameOk n hlt) (by rw [a2.chans, h.chans]; omega)
    have he1 : r1.atEnd = false := a1.atEnd
    have htouch : r1.pos1 ∈ t2 := by
      have := b1
      rw [hk'] at this
      exact readFrame_touch a2.dual he1 this
    have b1' : readFrame fp (recSrc P f) (fuel + 2) r.nch.toNat 0 r t = .ok (vs, true, r2, t2) := by
      rw [hk', a1.readFrame, ← hk']; exact b1
    have h2 := a2.same b5 b4
    obtain ⟨r3, y, d1, d2, d3, d4, d5, d6⟩ := h2.step hfp n hlt
    have c3 := (a3.trans b5.conf).trans d3
    have hnext : LoopNext bk R A Z (lowFrame r1 q) q (lowFrame r3 (curFrame A Z y)) (curFrame A Z y) := by
      unfold curFrame
      by_cases hy : Z ≤ y
      · rw [if_pos hy]
        exact .back d4 d5 hy (lowFrame_le _ _) (lowFrame_nonneg _ n.A0) (hbk.low d2)
      · rw [if_neg hy]
        exact .on d6 (lowFrame_le _ _) d5 (by omega)
    obtain ⟨fs, r', x', ext, k1, k2, k3, k4, k5, _⟩ := SRep.run hfp n hf hbk hstep hP fuel l (k + 1) r3 y t2 (by omega) d2
      (hstep k _ q _ _ (by omega) hlow hlow0 hlt hi hnext)
    refine ⟨vs :: fs, r', x', ext1 ++ ext, ?_, by simp [k2], k3, c3.trans k4, ?_, fun _ => ?_⟩
    · rw [readLoop_succ]
      simp only [h.dual, Bool.false_eq_true, if_false, ok_bind, b1', if_true, d1, k1]
      rw [b6, List.append_assoc]
    · rw [show k + (l + 1) = k + 1 + l by omega]; exact k5
    · rw [← a2.pos, ← List.append_assoc, ← b6]; exact List.mem_append_left _ htouch

/-! ## Where the reader is in the window -/

/-- At most `k` steps of `st` after frame `q0`; what is looked at begins no earlier than in the `δ`-th block from block `w` on. -/
def LoopIn (s f : Int) (bk : Int → Int) (st A Z w q0 δ : Int) (k : Nat) (lo q : Int) : Prop :=
  (w + δ ≤ bk lo ∧ q ≤ q0 + k * st) ∨ (q - A + Z ≤ q0 + k * st ∧ δ ≤ f + 1 - w + (bk lo - s) ∧ s ≤ bk lo ∧ A ≤ q)

theorem LoopIn.next {bk : Int → Int} (hmono : ∀ a b, a ≤ b → bk a ≤ bk b) {s f : Int} (hs : bk A = s) (hlast : ∀ x, x < Z → bk x ≤ f)
    {w q0 δ : Int} {k : Nat} (hq0 : q0 < Z) (hfar : (k + 1) * (R + 1) ≤ Z - A) {lo q lo' q' : Int} (hlo : lo ≤ q) (hq : q < Z)
    (h : LoopIn s f bk (R + 1) A Z w q0 δ k lo q) (hn : LoopNext bk R A Z lo q lo' q') : LoopIn s f bk (R + 1) A Z w q0 δ (k + 1) lo' q' := by
  have e1 : ((k + 1 : Nat) : Int) * (R + 1) = k * (R + 1) + (R + 1) := by push_cast; ring
  have e2 : ((k : Int) + 1) * (R + 1) = k * (R + 1) + (R + 1) := by ring
  rw [e2] at hfar
  have h1 := hmono lo q hlo
  unfold LoopIn at h ⊢
  rw [e1]
  cases hn with
  | on a1 a2 a3 a4 =>
    have h2 := hmono q lo' a1
    rcases h with ⟨b1, b2⟩ | ⟨b1, b2, b3⟩
    · exact Or.inl ⟨by omega, by omega⟩
    · exact Or.inr ⟨by omega, by omega, by omega⟩
  | back a1 a2 a3 a4 a5 a6 =>
    have h2 := hlast q hq
    rcases h with ⟨b1, b2⟩ | ⟨b1, b2, b3⟩
    · exact Or.inr ⟨by omega, by omega, by omega⟩
    · exfalso; omega

/-- Sums of positions in blocks. -/
theorem sum_block {B s e q x K : Int} (hB : 0 < B) (h : e + x ≤ q + s + K * B) : e / B + x / B ≤ q / B + s / B + K + 1 := by
  have := Int.mul_ediv_add_emod e B
  have := Int.mul_ediv_add_emod x B
  have := Int.mul_ediv_add_emod q B
  have := Int.mul_ediv_add_emod s B
  have := Int.emod_nonneg e (ne_of_gt hB)
  have := Int.emod_nonneg x (ne_of_gt hB)
  have := Int.emod_lt_of_pos q hB
  have := Int.emod_lt_of_pos s hB
  by_contra hcon
  have : B * (q / B + s / B + K + 2) ≤ B * (e / B + x / B) := mul_le_mul_of_nonneg_left (by omega) (le_of_lt hB)
  rw [mul_add, mul_add, mul_add, mul_add, mul_comm B K] at this
  omega

/-- What is looked at lies in the window. -/
theorem LoopIn.reads {B s f : Int} (hB : 0 < B) (hn : 0 < nch) (hs : frameBlk B H nch A = s) (hf : frameBlk B H nch Z = f)
    {w q0 δ K st : Int} {k : Nat} (hw0 : frameBlk B H nch (q0 - 1) ≤ w) (hK : (k * st + 2) * nch ≤ K * B) {lo q : Int} (hq : q < Z)
    (h : LoopIn s f (frameBlk B H nch) st A Z w q0 δ k lo q) {i : Int} (hi : LowIdx H nch lo q i) :
    ∃ j, δ ≤ j ∧ j ≤ K + 2 ∧ i / B = blk s f w j := by
  have mul : ∀ {a b : Int}, a ≤ b → a * nch ≤ b * nch := fun h => mul_le_mul_of_nonneg_right h (le_of_lt hn)
  obtain ⟨i1, i2⟩ := hi
  have hif : i / B ≤ f := by
    rw [← hf]
    have := mul (show q + 1 ≤ Z by omega)
    rw [add_mul, one_mul] at this
    exact Int.ediv_le_ediv hB (by omega)
  have hlo := Int.ediv_le_ediv hB i1
  have eK : (k * st + 2) * nch = k * st * nch + nch + nch := by ring
  rw [eK] at hK
  have eq0 : (q0 - 1) * nch = q0 * nch - nch := by ring
  have h' : (w + δ ≤ (H + lo * nch) / B ∧ q ≤ q0 + k * st) ∨ (q - A + Z ≤ q0 + k * st ∧ δ ≤ f + 1 - w + ((H + lo * nch) / B - s) ∧ s ≤ (H + lo * nch) / B ∧ A ≤ q) := h
  clear h
  unfold frameBlk at hw0 hs hf
  rw [eq0] at hw0
  rcases h' with ⟨b1, b2⟩ | ⟨b1, b2, b3⟩
  · have c := mul b2
    rw [add_mul] at c
    have d := Int.ediv_le_ediv hB (show i ≤ H + (q0 * nch - nch) + K * B by omega)
    rw [Int.add_mul_ediv_right _ _ (ne_of_gt hB)] at d
    refine ⟨i / B - w, by omega, by omega, ?_⟩
    unfold blk; rw [if_pos (by omega)]; ring
  · have c := mul b1
    have e : (q - A + Z) * nch = q * nch - A * nch + Z * nch := by ring
    rw [e, add_mul] at c
    have d := sum_block (B := B) (e := H + Z * nch) (x := i) (q := H + (q0 * nch - nch)) (s := H + A * nch) (K := K) hB (by omega)
    rw [hs, hf] at d
    refine ⟨f + 1 - w + (i / B - s), by omega, by omega, ?_⟩
    unfold blk; rw [if_neg (by omega)]; ring

/-- A smaller base. -/
theorem LoopIn.mono {s f : Int} {bk : Int → Int} {st w w' q0 : Int} {k : Nat} {lo q : Int} (hw' : w' ≤ w)
    (h : LoopIn s f bk st A Z w q0 0 k lo q) : LoopIn s f bk st A Z w' q0 0 k lo q := by
  rcases h with ⟨b1, b2⟩ | ⟨b1, b2, b3⟩
  · exact Or.inl ⟨by omega, b2⟩
  · exact Or.inr ⟨b1, by omega, b3⟩

/-! ## Keeping up -/

/-- A loop at least as long as the buffers. -/
structure SmoothLong (m : List Nat) (g : Geo) (I : Interp) (R A Z H nch : Int) (r : Rd) (c : Cache) : Prop where
  win : ∃ x w q0, SRep I R A Z H nch r x ∧ q0 < Z ∧ frameBlk g.B H nch (q0 - 1) ≤ w ∧ LWin m g (frameBlk g.B H nch A) (frameBlk g.B H nch Z) c w ∧
    LoopIn (frameBlk g.B H nch A) (frameBlk g.B H nch Z) (frameBlk g.B H nch) (R + 1) A Z w q0 0 128 (lowFrame r (curFrame A Z x)) (curFrame A Z x)

theorem SmoothLong.keepsUp (hfp : Representable fp) (hB : g.B < 16384) (hm : m.length < 2 ^ 31) (n : RepNum R A Z H nch) (hback : BackOk (frameBlk g.B H nch) I R A)
    (hadv : (256 * (R + 1) + 2) * nch ≤ (g.N - 3) * g.B) (hfar : 256 * (R + 1) ≤ Z - A) (hE : 2 * (H + Z * nch) ≤ m.length)
    {fuel : Nat} (hf : g.N ≤ fuel + 2) : KeepsUpT fp m g (fuel + 2) (SmoothLong m g I R A Z H nch) := by
  intro r c h
  obtain ⟨x, w, q0, hr, hq0, hw0, hwin, hin⟩ := h
  have hB0 : (0 : Int) < g.B := by exact_mod_cast g.B_pos
  have hA := n.A0
  have hAZ := n.AZ
  have hR := n.R0
  have hn := n.n0
  have hH := n.H0
  have hmono : ∀ a b, a ≤ b → frameBlk g.B H nch a ≤ frameBlk g.B H nch b := fun a b h => frameBlk_mono hB0 (le_of_lt hn) h
  have hlastb : ∀ y, y < Z → frameBlk g.B H nch y ≤ frameBlk g.B H nch Z := fun y hy => hmono _ _ (le_of_lt hy)
  have hwf := hwin.conf.wf
  have hlen := hwin.conf.len
  have hst : ∀ k : Nat, k ≤ 256 → (k : Int) * (R + 1) ≤ 256 * (R + 1) := fun k hk => mul_le_mul_of_nonneg_right (by omega) (by omega)
  have hKk : ∀ k : Nat, k ≤ 256 → ((k : Int) * (R + 1) + 2) * nch ≤ (g.N - 3) * g.B := by
    intro k hk
    refine le_trans (mul_le_mul_of_nonneg_right ?_ (le_of_lt hn)) hadv
    have := hst k hk
    omega
  have hfk : ∀ k : Nat, k < 256 → ((k : Int) + 1) * (R + 1) ≤ Z - A := by
    intro k hk
    have := hst (k + 1) (by omega)
    push_cast at this
    omega
  have hqlt := curFrame_lt hAZ x
  have hqnn := curFrame_nonneg (Z := Z) hA hr.x0
  have hlow := lowFrame_le r (curFrame A Z x)
  have hlow1 := lowFrame_ge r (curFrame A Z x)
  have hlow0 := lowFrame_nonneg r hqnn
  generalize hqd : curFrame A Z x = q at *
  generalize hld : lowFrame r q = lo at *
  -- the invariant of this update
  obtain ⟨Inv, hInv⟩ : ∃ Inv : Nat → Int → Int → Prop, Inv = fun k lo' q' =>
      (∀ δ, LoopIn (frameBlk g.B H nch A) (frameBlk g.B H nch Z) (frameBlk g.B H nch) (R + 1) A Z w q0 δ 128 lo q →
        LoopIn (frameBlk g.B H nch A) (frameBlk g.B H nch Z) (frameBlk g.B H nch) (R + 1) A Z w q0 δ (128 + k) lo' q') ∧
      ((k = 0 ∧ lo' = lo ∧ q' = q) ∨ LoopIn (frameBlk g.B H nch A) (frameBlk g.B H nch Z) (frameBlk g.B H nch) (R + 1) A Z (frameBlk g.B H nch q) q 0 k lo' q') := ⟨_, rfl⟩
  have hstep : ∀ k lo1 q1 lo2 q2, k < blockSamples → lo1 ≤ q1 → 0 ≤ lo1 → q1 < Z → Inv k lo1 q1 → LoopNext (frameBlk g.B H nch) R A Z lo1 q1 lo2 q2 → Inv (k + 1) lo2 q2 := by
    intro k lo1 q1 lo2 q2 hk c1 c2 c3 i nx
    have hk' : k < 128 := hk
    rw [hInv] at i ⊢
    obtain ⟨i1, i2⟩ := i
    refine ⟨fun δ hδ => (i1 δ hδ).next hmono rfl hlastb hq0 (hfk (128 + k) (by omega)) c1 c3 nx, Or.inr ?_⟩
    have hfar1 := hfk k (by omega)
    rcases i2 with ⟨rfl, rfl, rfl⟩ | i2
    · cases nx with
      | on a1 a2 a3 a4 => exact Or.inl ⟨by have := hmono _ _ a1; omega, by push_cast; omega⟩
      | back a1 a2 a3 a4 a5 a6 => exact Or.inr ⟨by push_cast; omega, by have := hlastb _ hqlt; omega, by omega⟩
    · exact i2.next hmono rfl hlastb hqlt hfar1 c1 c3 nx
  have hzero : Inv 0 lo q := by rw [hInv]; exact ⟨fun δ hδ => hδ, Or.inl ⟨rfl, rfl, rfl⟩⟩
  obtain ⟨P, hPd⟩ : ∃ P : Int → Prop, P = fun i => InFile m i ∧ ∃ l : Int, (∀ δ, LoopIn (frameBlk g.B H nch A) (frameBlk g.B H nch Z) (frameBlk g.B H nch) (R + 1) A Z w q0 δ 128 lo q → δ ≤ l) ∧
      l < g.N ∧ i / g.B = blk (frameBlk g.B H nch A) (frameBlk g.B H nch Z) w l := ⟨_, rfl⟩
  have hP : ∀ k lo1 q1 i, k < blockSamples → lo1 ≤ q1 → 0 ≤ lo1 → q1 < Z → Inv k lo1 q1 → LowIdx H nch lo1 q1 i → P i := by
    intro k lo1 q1 i hk c1 c2 c3 iv hi
    have hk' : k < 128 := hk
    rw [hInv] at iv
    have hread : ∀ δ, LoopIn (frameBlk g.B H nch A) (frameBlk g.B H nch Z) (frameBlk g.B H nch) (R + 1) A Z w q0 δ 128 lo q →
        ∃ j, δ ≤ j ∧ j ≤ (g.N - 3 : Int) + 2 ∧ i / g.B = blk (frameBlk g.B H nch A) (frameBlk g.B H nch Z) w j := fun δ hδ =>
      (iv.1 δ hδ).reads hB0 hn rfl rfl hw0 (by have := hKk (128 + k) (by omega); push_cast at this ⊢; exact this) c3 hi
    obtain ⟨l, l1, l2, l3⟩ := hread 0 hin
    rw [hPd]
    refine ⟨⟨?_, ?_⟩, l, ?_, by omega, l3⟩
    · have := mul_nonneg c2 (le_of_lt hn)
      have := hi.1
      omega
    · have := mul_le_mul_of_nonneg_right (show q1 + 1 ≤ Z by omega) (le_of_lt hn)
      rw [add_mul, one_mul] at this
      have := hi.2
      omega
    · intro δ hδ
      by_cases hδ0 : δ ≤ 0
      · omega
      obtain ⟨j, j1, j2, j3⟩ := hread δ hδ
      have e1 := dist_blk (s := frameBlk g.B H nch A) (f := frameBlk g.B H nch Z) (w := w) (j := j) (by omega) (by omega)
      have e2 := dist_blk (s := frameBlk g.B H nch A) (f := frameBlk g.B H nch Z) (w := w) (j := l) (by omega) (by omega)
      rw [← j3] at e1
      rw [← l3] at e2
      omega
  have hmax : (frameBlk g.B H nch Z + 1) * g.B ≤ 2147483647 := by
    have h1 : frameBlk g.B H nch Z * g.B ≤ H + Z * nch := Int.ediv_mul_le _ (ne_of_gt hB0)
    rw [add_mul, one_mul]
    omega
  refine ⟨hwin.reached, P, fun i hi => ?_, fun f hfv => ?_⟩
  · rw [hPd] at hi
    obtain ⟨hif, l, l1, l2, l3⟩ := hi
    have l0 := l1 0 hin
    exact ⟨hif, ((hwin.round (is := [i]) (δ := l.toNat) hB (by omega) hmax (fun i' hi' => by
      rw [List.mem_singleton.1 hi']
      exact ⟨hif, l, by omega, l2, l3⟩) ⟨i, by simp, by rw [l3, Int.toNat_of_nonneg (by omega)]⟩).1 i (by simp))⟩
  · obtain ⟨fs, r', x', ext, e1, e2, e3, e4, e5, e6⟩ := SRep.run (P := P) (f := f) hfp n hfv hback hstep hP fuel blockSamples 0 r x [] (by omega) hr
      (by rw [hqd, hld]; exact hzero)
    rw [List.nil_append] at e1 e6
    have hext : ∀ i ∈ ext, P i := recSrc_asked e1
    have hcur := e6 (by decide)
    rw [hqd] at hcur
    obtain ⟨i0, hi0, hmin⟩ := exists_min (fun i => dist (frameBlk g.B H nch A) (frameBlk g.B H nch Z) w (i / g.B)) ext (List.ne_nil_of_mem hcur)
    have hrank : ∀ i ∈ ext, InFile m i ∧ (∀ δ, LoopIn (frameBlk g.B H nch A) (frameBlk g.B H nch Z) (frameBlk g.B H nch) (R + 1) A Z w q0 δ 128 lo q →
        δ ≤ dist (frameBlk g.B H nch A) (frameBlk g.B H nch Z) w (i / g.B)) ∧ dist (frameBlk g.B H nch A) (frameBlk g.B H nch Z) w (i / g.B) < g.N ∧
        i / g.B = blk (frameBlk g.B H nch A) (frameBlk g.B H nch Z) w (dist (frameBlk g.B H nch A) (frameBlk g.B H nch Z) w (i / g.B)) := by
      intro i hi
      have := hext i hi
      rw [hPd] at this
      obtain ⟨hif, l, l1, l2, l3⟩ := this
      have l0 := l1 0 hin
      have e := dist_blk (s := frameBlk g.B H nch A) (f := frameBlk g.B H nch Z) (w := w) (j := l) l0 (by omega)
      rw [← l3] at e
      rw [e]
      exact ⟨hif, l1, l2, l3⟩
    obtain ⟨x1, x2, x3, x4⟩ := hrank i0 hi0
    have x0 := x2 0 hin
    have hq := hmin _ hcur
    obtain ⟨_, c2⟩ := hwin.round (is := ext) (δ := (dist (frameBlk g.B H nch A) (frameBlk g.B H nch Z) w (i0 / g.B)).toNat) hB (by omega) hmax
      (fun i hi => by
        obtain ⟨z1, z2, z3, z4⟩ := hrank i hi
        have := hmin i hi
        exact ⟨z1, _, by omega, z3, z4⟩)
      ⟨i0, hi0, by rw [Int.toNat_of_nonneg x0]; exact x4⟩
    obtain ⟨c', c3, c4⟩ := c2 (fuel + 2) (fp.f.rnd r'.rate) hf (fp.f.nonneg e3.rate0)
    rw [Int.toNat_of_nonneg x0, ← x4] at c4
    -- the new first block lies between the frame heard first and the one before it
    have hbet : frameBlk g.B H nch lo ≤ i0 / g.B ∧ i0 / g.B ≤ frameBlk g.B H nch q := by
      have hqq : (H + q * nch) / g.B = frameBlk g.B H nch q := rfl
      rw [hqq] at hq
      have hlq := hmono _ _ hlow
      have hqf := hlastb _ hqlt
      rcases hin with ⟨b1, b2⟩ | ⟨b1, b2, b3⟩
      · have y := x2 (frameBlk g.B H nch lo - w) (Or.inl ⟨by omega, b2⟩)
        generalize dist (frameBlk g.B H nch A) (frameBlk g.B H nch Z) w (i0 / g.B) = d0 at *
        have e : dist (frameBlk g.B H nch A) (frameBlk g.B H nch Z) w (frameBlk g.B H nch q) = frameBlk g.B H nch q - w := by unfold dist; rw [if_pos (by omega)]
        rw [e] at hq
        rw [x4]
        unfold blk
        rw [if_pos (by omega)]
        omega
      · have y := x2 (frameBlk g.B H nch Z + 1 - w + (frameBlk g.B H nch lo - frameBlk g.B H nch A)) (Or.inr ⟨b1, by omega, b3⟩)
        generalize dist (frameBlk g.B H nch A) (frameBlk g.B H nch Z) w (i0 / g.B) = d0 at *
        have e : dist (frameBlk g.B H nch A) (frameBlk g.B H nch Z) w (frameBlk g.B H nch q) ≤ frameBlk g.B H nch q - frameBlk g.B H nch A + (frameBlk g.B H nch Z + 1 - w) := by
          unfold dist; split <;> omega
        rw [x4]
        unfold blk
        rw [if_neg (by omega)]
        omega
    rw [hInv] at e5
    refine ⟨fs, r', ext, c', e1, e2, e4, hext, c3, x', i0 / g.B, q, e3, hqlt, le_trans (hmono _ _ hlow1) hbet.1, c4, ?_⟩
    rcases e5.2 with ⟨k0, _⟩ | k
    · simp [blockSamples] at k0
    · rw [Nat.zero_add] at k
      exact k.mono hbet.2

/-- A loop that fits into the buffers. -/
structure SmoothShort (m : List Nat) (g : Geo) (I : Interp) (R A Z H nch : Int) (r : Rd) (c : Cache) : Prop where
  rd : ∃ x, SRep I R A Z H nch r x ∧ frameBlk g.B H nch A ≤ frameBlk g.B H nch (lowFrame r (curFrame A Z x))
  win : ∃ w, LWin m g (frameBlk g.B H nch A) (frameBlk g.B H nch A + g.N - 1) c w ∧ frameBlk g.B H nch A ≤ w ∧ w ≤ frameBlk g.B H nch Z

theorem SmoothShort.keepsUp (hfp : Representable fp) (hB : g.B < 16384) (hNB : g.N * g.B ≤ 2 ^ 30) (hm : m.length < 2 ^ 31) (n : RepNum R A Z H nch)
    (hback : BackOk (frameBlk g.B H nch) I R A) (hE : 2 * (H + Z * nch) ≤ m.length)
    (hshort : frameBlk g.B H nch Z ≤ frameBlk g.B H nch A + g.N - 1)
    {fuel : Nat} (hf : g.N ≤ fuel + 2) : KeepsUpT fp m g (fuel + 2) (SmoothShort m g I R A Z H nch) := by
  intro r c h
  obtain ⟨⟨x, hr, hlo⟩, w, hwin, hsw, hwZ⟩ := h
  have hB0 : (0 : Int) < g.B := by exact_mod_cast g.B_pos
  have hNB' : (g.N : Int) * g.B ≤ 2 ^ 30 := by exact_mod_cast hNB
  have hA := n.A0
  have hAZ := n.AZ
  have hn := n.n0
  have hH := n.H0
  have hwf := hwin.conf.wf
  have hmono : ∀ {a b : Int}, a ≤ b → frameBlk g.B H nch a ≤ frameBlk g.B H nch b := fun h => frameBlk_mono hB0 (le_of_lt hn) h
  have mul : ∀ {a b : Int}, a ≤ b → a * nch ≤ b * nch := fun h => mul_le_mul_of_nonneg_right h (le_of_lt hn)
  have hstep : ∀ (k : Nat) (lo1 q1 lo2 q2 : Int), k < blockSamples → lo1 ≤ q1 → 0 ≤ lo1 → q1 < Z → frameBlk g.B H nch A ≤ frameBlk g.B H nch lo1 →
      LoopNext (frameBlk g.B H nch) R A Z lo1 q1 lo2 q2 → frameBlk g.B H nch A ≤ frameBlk g.B H nch lo2 := by
    intro k lo1 q1 lo2 q2 _ c1 _ _ i nx
    cases nx with
    | on a1 a2 a3 a4 => exact le_trans i (hmono (by omega))
    | back a1 a2 a3 a4 a5 a6 => rw [a6]
  obtain ⟨P, hPd⟩ : ∃ P : Int → Prop, P = fun i => InFile m i ∧ frameBlk g.B H nch A ≤ i / g.B ∧ i / g.B ≤ frameBlk g.B H nch Z := ⟨_, rfl⟩
  have hP : ∀ (k : Nat) (lo1 q1 i : Int), k < blockSamples → lo1 ≤ q1 → 0 ≤ lo1 → q1 < Z → frameBlk g.B H nch A ≤ frameBlk g.B H nch lo1 → LowIdx H nch lo1 q1 i → P i := by
    intro k lo1 q1 i _ c1 c2 c3 iv hi
    have e1 := mul (show q1 + 1 ≤ Z by omega)
    rw [add_mul, one_mul] at e1
    have e2 := mul_nonneg c2 (le_of_lt hn)
    obtain ⟨i1, i2⟩ := hi
    rw [hPd]
    refine ⟨⟨by omega, by omega⟩, le_trans iv (Int.ediv_le_ediv hB0 i1), Int.ediv_le_ediv hB0 (show i ≤ H + Z * nch by omega)⟩
  have hd : ∀ y, frameBlk g.B H nch A ≤ y → y ≤ frameBlk g.B H nch A + g.N - 1 →
      0 ≤ dist (frameBlk g.B H nch A) (frameBlk g.B H nch A + g.N - 1) w y ∧ dist (frameBlk g.B H nch A) (frameBlk g.B H nch A + g.N - 1) w y < g.N ∧
      y = blk (frameBlk g.B H nch A) (frameBlk g.B H nch A + g.N - 1) w (dist (frameBlk g.B H nch A) (frameBlk g.B H nch A + g.N - 1) w y) := by
    intro y h1 h2
    unfold dist blk
    split <;> split <;> omega
  have hmax : (frameBlk g.B H nch A + g.N - 1 + 1) * g.B ≤ 2147483647 := by
    have h1 : frameBlk g.B H nch A * g.B ≤ H + A * nch := Int.ediv_mul_le _ (ne_of_gt hB0)
    have h2 := mul (show A ≤ Z by omega)
    rw [show frameBlk g.B H nch A + (g.N : Int) - 1 + 1 = frameBlk g.B H nch A + g.N by ring, add_mul]
    omega
  refine ⟨hwin.reached, P, fun i hi => ?_, fun f hfv => ?_⟩
  · rw [hPd] at hi
    obtain ⟨hif, l1, l2⟩ := hi
    obtain ⟨y1, y2, y3⟩ := hd _ l1 (le_trans l2 hshort)
    refine ⟨hif, ((hwin.round (is := [i]) (δ := (dist (frameBlk g.B H nch A) (frameBlk g.B H nch A + g.N - 1) w (i / g.B)).toNat) hB (by omega) hmax (fun i' hi' => by
      rw [List.mem_singleton.1 hi']
      exact ⟨hif, _, by omega, y2, y3⟩) ⟨i, by simp, by rw [Int.toNat_of_nonneg y1]; exact y3⟩).1 i (by simp))⟩
  · obtain ⟨fs, r', x', ext, e1, e2, e3, e4, e5, e6⟩ := SRep.run (P := P) (f := f) (Inv := fun _ lo1 _ => frameBlk g.B H nch A ≤ frameBlk g.B H nch lo1)
      hfp n hfv hback hstep hP fuel blockSamples 0 r x [] (by omega) hr hlo
    rw [List.nil_append] at e1 e6
    have hext : ∀ i ∈ ext, P i := recSrc_asked e1
    obtain ⟨i0, hi0, hmin⟩ := exists_min (fun i => dist (frameBlk g.B H nch A) (frameBlk g.B H nch A + g.N - 1) w (i / g.B)) ext
      (List.ne_nil_of_mem (e6 (by decide)))
    have hpi : ∀ i ∈ ext, InFile m i ∧ frameBlk g.B H nch A ≤ i / g.B ∧ i / g.B ≤ frameBlk g.B H nch Z := fun i hi => by
      have := hext i hi; rw [hPd] at this; exact this
    obtain ⟨x1, x2, x3⟩ := hpi i0 hi0
    obtain ⟨y1, y2, y3⟩ := hd _ x2 (le_trans x3 hshort)
    obtain ⟨_, c2⟩ := hwin.round (is := ext) (δ := (dist (frameBlk g.B H nch A) (frameBlk g.B H nch A + g.N - 1) w (i0 / g.B)).toNat) hB (by omega) hmax
      (fun i hi => by
        obtain ⟨z1, z2, z3⟩ := hpi i hi
        obtain ⟨u1, u2, u3⟩ := hd _ z2 (le_trans z3 hshort)
        have := hmin i hi
        exact ⟨z1, _, by omega, u2, u3⟩)
      ⟨i0, hi0, by rw [Int.toNat_of_nonneg y1]; exact y3⟩
    obtain ⟨c', c3, c4⟩ := c2 (fuel + 2) (fp.f.rnd r'.rate) hf (fp.f.nonneg e3.rate0)
    rw [Int.toNat_of_nonneg y1, ← y3] at c4
    exact ⟨fs, r', ext, c', e1, e2, e4, hext, c3, ⟨x', e3, e5⟩, _, c4, x2, x3⟩

/-! ## Starting -/

/-- What `play(filename)` leaves behind when it succeeds, for a repeated forward loop with any interpolation. -/
theorem playFinish_srep (hm : m.length < 2 ^ 31) {r : Rd} {f : Dev} (hf : f.bytes = m) (hsz : r.fileSize = m.length)
    (hH : 0 ≤ r.header) (hn : 0 < r.nch) (hd : r.dual = false) (hi : InterpFwd r) (hpts : PtsOk r)
    (hl : r.loopType = .repeat) {R : Int} (h0 : 0 ≤ r.rate) (hR : r.rate ≤ R) (hflt : IsFloat 53 (-1074) r.rem) (hfrac : |r.rem| < 1)
    (hA : 0 ≤ r.loopStart) (hAZ : r.loopStart < r.loopFinish) (hE : 2 * (r.header + r.loopFinish * r.nch) ≤ m.length)
    (hs0 : 0 ≤ firstFrame r) (hs1 : firstFrame r < r.loopFinish) :
    ∃ (a : FileReader) (c : Cache), playFinish g r f = .ok (true, a) ∧ a.rd.playing = true ∧
      SRep r.interp R r.loopStart r.loopFinish r.header r.nch a.rd (firstFrame r) ∧
      a.rd.rate = r.rate ∧ a.rd.rem = r.rem ∧ a.rd.fileSamples = r.fileSamples.tdiv r.nch ∧ a.src = some (c.preLoad g a.rd.pos1 true) ∧
      c.dev.bytes = m ∧ c.bufs = [] ∧ c.fails = 0 ∧ c.loopType = .repeat ∧ c.loopStartBlk = (r.header + r.loopStart * r.nch) / g.B ∧
      c.loopFinishBlk = (r.header + r.loopFinish * r.nch) / g.B := by
  have hB0 : (0 : Int) < g.B := by exact_mod_cast g.B_pos
  have hRq : 0 ≤ R := by
    have : (0 : ℚ) ≤ R := le_trans h0 hR
    exact_mod_cast this
  have hle : ∀ x, x ≤ r.loopFinish → x * r.nch ≤ r.loopFinish * r.nch := fun x hx => mul_le_mul_of_nonneg_right hx (le_of_lt hn)
  have hge : ∀ x, 0 ≤ x → 0 ≤ x * r.nch := fun x hx => mul_nonneg hx (le_of_lt hn)
  have hone : r.loopFinish ≤ r.loopFinish * r.nch := le_mul_of_one_le_right (by omega) (by omega)
  have hZ1 : (0 + 1) * r.nch ≤ r.loopFinish * r.nch := hle _ (by omega)
  unfold playFinish
  rw [hsz, if_neg (by unfold u32; omega), if_neg (by omega)]
  simp only [hl, reduceCtorEq, if_false]
  set rd0 : Rd := { r with fileSize := m.length, loopType := .repeat, fileSamples := r.fileSamples.tdiv r.nch, loopStart := i32 r.loopStart, loopFinish := i32 r.loopFinish } with hrd0
  have hA32 : i32 r.loopStart = r.loopStart := i32_of_in ⟨by omega, by omega⟩
  have hZ32 : i32 r.loopFinish = r.loopFinish := i32_of_in ⟨by omega, by omega⟩
  have hpos : ∀ x, 0 ≤ x → x ≤ r.loopFinish → i32 (rd0.s2s x) = r.header + x * r.nch := by
    intro x h1 h2
    have := hle x h2
    have := hge x h1
    have e : rd0.posOf x = rd0.header + x * rd0.nch := posOf_eq ⟨by show -2147483648 ≤ r.header + x * r.nch; omega, by show r.header + x * r.nch ≤ 2147483647; omega⟩
    exact e
  have hp : rd0.reset.pos1 = r.header + firstFrame r * r.nch := by
    unfold Rd.reset
    have h0' : rd0.rate ≥ 0 := h0
    simp only [h0', if_true]
    have e1 : rd0.loopStart = r.loopStart := hA32
    have key : ∀ y, y = firstFrame r → Rd.posOf { rd0 with pts := fun c => if c < 8 then { rd0.pts c with n := 0 } else rd0.pts c } y =
        r.header + firstFrame r * r.nch := by
      rintro y rfl
      exact hpos _ hs0 (le_of_lt hs1)
    have e2 : rd0.playStart = r.playStart := rfl
    unfold firstFrame at key ⊢
    rw [e2, e1]
    cases hps : r.playStart <;> simp only [hps] at key ⊢ <;> exact key _ rfl
  have hr0 : rd0.reset.rate ≥ 0 := h0
  refine ⟨⟨{ rd0.reset with playing := true }, some (Cache.preLoad g { dev := f, loopType := .repeat, loopStartBlk := i32 (rd0.s2s (i32 r.loopStart)) / g.B, loopFinishBlk := i32 (rd0.s2s (i32 r.loopFinish)) / g.B } rd0.reset.pos1 true)⟩,
    { dev := f, loopType := .repeat, loopStartBlk := i32 (rd0.s2s (i32 r.loopStart)) / g.B, loopFinishBlk := i32 (rd0.s2s (i32 r.loopFinish)) / g.B }, ?_, rfl, ?_, rfl, rfl, rfl, rfl, hf, rfl, rfl, rfl, ?_, ?_⟩
  · have e : true = (decide (rd0.reset.rate ≥ 0)) := by rw [decide_eq_true hr0]
    rw [e]; rfl
  · refine ⟨hd, rfl, le_refl _, by norm_num [Rd.reset], rfl, h0, hR, hflt, hfrac, rfl, hi, ?_, rfl, hA32, hZ32, rfl, hs0, by omega, hp⟩
    intro c
    have := hpts c
    show InI16 ((if c < 8 then { r.pts c with n := 0 } else r.pts c).y0) ∧ InI16 ((if c < 8 then { r.pts c with n := 0 } else r.pts c).y1) ∧
      InI16 ((if c < 8 then { r.pts c with n := 0 } else r.pts c).y2) ∧ InI16 ((if c < 8 then { r.pts c with n := 0 } else r.pts c).y3)
    split <;> exact this
  · simp only; rw [hA32, hpos _ hA (by omega)]
  · simp only; rw [hZ32, hpos _ (by omega) (le_refl _)]

end TVP
