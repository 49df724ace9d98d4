import Verif.Lemmas.Glide
import Verif.Lemmas.Sim
import Verif.Lemmas.Safe
import Verif.Lemmas.Fade

/-!
# A player with interpolation streaming forwards, update by update
-/

namespace TVP
open Spec

open Classical in
/-- A source that serves `f` on `P` and writes down what it is asked for. -/
noncomputable def recSrc (P : Int → Prop) (f : Int → Int) : Src (List Int) where
  get t i := if P i then .ok (f i, t ++ [i]) else .error .outOfBounds

variable {m : List Nat} {g : Geo} {mm : Int} {F0 : Nat} {fp : Fp} {P : Int → Prop} {f : Int → Int}

theorem recSrc_get {t t' : List Int} {i v : Int} (h : (recSrc P f).get t i = .ok (v, t')) : P i ∧ v = f i ∧ t' = t ++ [i] := by
  unfold recSrc at h
  simp only at h
  split at h
  · cases h; exact ⟨by assumption, rfl, rfl⟩
  · cases h

theorem recSrc_ok {i : Int} (h : P i) (t : List Int) : (recSrc P f).get t i = .ok (f i, t ++ [i]) := by
  unfold recSrc; simp only [if_pos h]

/-- The cache serves what is buffered. -/
theorem recSrc_file (hb : IsBytes m) (hm : m.length < 4294967296) {c : Cache} (hok : CacheOk m g c) (nullOk : Bool)
    (hP : ∀ i, P i → InFile m i ∧ Buffered g c i ∧ f i = fileSample m i.toNat) :
    SrcSim (recSrc P f) (fileSrc g nullOk) (fun t s => s = some (c.gets g t).2) := by
  rintro t s i v t' rfl h
  obtain ⟨h1, rfl, rfl⟩ := recSrc_get h
  obtain ⟨p1, p2, p3⟩ := hP i h1
  obtain ⟨_, hs, _⟩ := C15_read_only g t c
  have e : ((c.gets g t).2.get g i).1 = f i := by
    rw [(hs.get (g := g) i).1, p3]
    exact ((hok.serves hb hm p1).1 p2).1
  refine ⟨some ((c.gets g t).2.get g i).2, ?_, ?_⟩
  · rw [← e]; rfl
  · show some _ = some _
    rw [gets_append]; rfl

theorem recSrc_array {data : List Int} (hP : ∀ i, P i → (0 ≤ i ∧ i < data.length) ∧ f i = data.getD i.toNat 0) :
    SrcSim (recSrc P f) arraySrc (fun _ s => s = some data) := by
  rintro t s i v t' rfl h
  obtain ⟨h1, rfl, rfl⟩ := recSrc_get h
  obtain ⟨p1, p2⟩ := hP i h1
  obtain ⟨s', e, hs⟩ := arraySrcIs data (some data) i rfl p1
  exact ⟨s', by rw [p2]; exact e, hs⟩

/-- Where an interpolating reader may read back to: above rate one, linear interpolation may fetch the frame before the current one. -/
noncomputable def lowest (r : Rd) : Int :=
  if r.interp = .linear ∧ 1 < r.rate ∧ r.rem ≠ 0 then r.pos1 - r.nch else r.pos1

/-- What forward streaming needs of the interpolation settings. -/
def InterpFwd (r : Rd) : Prop :=
  match r.interp with
  | .none => True
  | .linear => r.nch ≤ 8 ∧ 0 ≤ r.rem
  | .quadratic => r.nch ≤ 8 ∧ 0 ≤ r.rem ∧ r.rate ≤ 1

/-- A reader going forwards at a rate up to `R`, with any interpolation. -/
structure SFwd (R : Int) (H F nch : Int) (r : Rd) : Prop where
  dual : r.dual = false
  cfOn : r.cfOn = false
  w0 : 0 ≤ r.crossfade
  w1 : r.crossfade ≤ 1
  n0 : 0 < nch
  loop : r.loopType = .none
  rate0 : 0 ≤ r.rate
  rateR : r.rate ≤ R
  flt : IsFloat 53 (-1074) r.rem
  frac : |r.rem| < 1
  ip : InterpFwd r
  pts : PtsOk r
  header : r.header = H
  fs : r.fileSamples = F
  chans : r.nch = nch
  pos : ∃ q, 0 ≤ q ∧ q ≤ F + R ∧ r.pos1 = H + q * nch

theorem lowest_le {r : Rd} (h : 0 ≤ r.nch) : lowest r ≤ r.pos1 := by unfold lowest; split <;> omega

theorem lowest_ge (r : Rd) (h : 0 ≤ r.nch) : r.pos1 - r.nch ≤ lowest r := by unfold lowest; split <;> omega

/-- The frame at the current position is read first. -/
theorem readFrame_touch {fuel left : Nat} {r r2 : Rd} {t t2 : List Int} {vs : List Int} {ok : Bool} (hd : r.dual = false) (he : r.atEnd = false)
    (h : readFrame fp (recSrc P f) (fuel + 1) (left + 1) 0 r t = .ok (vs, ok, r2, t2)) : r.pos1 ∈ t2 := by
  have hI : SrcInv (recSrc P f) (fun t => r.pos1 ∈ t) := by
    intro s i v s' hs hg
    obtain ⟨_, _, rfl⟩ := recSrc_get hg
    exact List.mem_append_left _ hs
  rw [readFrame, readChan_settled he] at h
  obtain ⟨⟨o, r1, t1⟩, h1, h⟩ := bind_ok_iff.1 h
  have k1 : r.pos1 ∈ t1 := by
    unfold readNextValue at h1
    rw [he] at h1
    simp only [Bool.false_eq_true, if_false] at h1
    obtain ⟨⟨v, t0⟩, h0, h1⟩ := bind_ok_iff.1 h1
    have k0 : r.pos1 ∈ t0 := by
      unfold baseVal srcVal at h0
      simp only [hd, Bool.not_false, Bool.true_or, if_true] at h0
      obtain ⟨p, hp, h0⟩ := bind_ok_iff.1 h0
      obtain ⟨q, hq, h0⟩ := bind_ok_iff.1 h0
      obtain ⟨_, _, rfl⟩ := recSrc_get h0
      have e1 := chkI32_inv hp
      have e2 := chkI32_inv hq
      have : q = r.pos1 := by rw [e2, e1]; simp
      simp [this]
    simp only at h1
    split at h1
    · cases h1; exact k0
    · obtain ⟨⟨v2, r2, s2⟩, h2, h1⟩ := bind_ok_iff.1 h1
      cases h1; exact linearVal_inv hI k0 h2
    · obtain ⟨⟨v2, r2, s2⟩, h2, h1⟩ := bind_ok_iff.1 h1
      cases h1; exact quadVal_inv hI k0 h2
  cases o with
  | none => cases h; exact k1
  | some v =>
    obtain ⟨⟨vs1, ok1, r3, s3⟩, h3, h⟩ := bind_ok_iff.1 h
    cases h
    exact readFrame_inv hI k1 h3

theorem SFwd.same {R H F nch : Int} {r r' : Rd} (h : SFwd R H F nch r) (hb : SameBut r r') (hp : PtsOk r') : SFwd R H F nch r' := by
  obtain ⟨y1, y2, y3, y4, y5, y6, y7, y8, y9, y10, y11, _, y13, y14, y15, y16⟩ := h
  have e : PtsOk { r with pts := r'.pts } := hp
  rw [hb]
  exact ⟨y1, y2, y3, y4, y5, y6, y7, y8, y9, y10, y11, e, y13, y14, y15, y16⟩

theorem SFwd.atEnd {R H F nch : Int} (hH : 0 ≤ H) (hF : 0 ≤ F) (hR0 : 0 ≤ R)
    (hfits : H + nch * (F + R + 1) ≤ 2147483647) {r : Rd} (h : SFwd R H F nch r) {q : Int} (hq : r.pos1 = H + q * nch) :
    r.atEnd = decide (F ≤ q) := by
  have hn := h.n0
  have hend : r.posOf r.fileSamples = H + F * nch := by
    have f := frame_fits hH (le_of_lt hn) hF (show F ≤ F + R + 1 by omega) hfits
    rw [posOf_eq] <;> rw [h.header, h.fs, h.chans]
    exact ⟨by omega, f.2⟩
  unfold Rd.atEnd
  simp only [h.dual, Bool.false_eq_true, if_false, h.rate0, ge_iff_le, if_true, h.loop, hend, hq]
  congr 1
  apply propext
  constructor
  · intro hle
    have : F * nch ≤ q * nch := by omega
    exact le_of_mul_le_mul_right this hn
  · intro hle
    have := mul_le_mul_of_nonneg_right hle (le_of_lt hn)
    omega

/-- What one frame reads. -/
def FrameIdx (H E : Int) (r : Rd) (i : Int) : Prop := lowest r ≤ i ∧ H ≤ i ∧ i < r.pos1 + r.nch ∧ i < E

theorem SFwd.frameOk {R H F nch : Int} (hR2 : R ≤ 2 ^ 30) (hH : 0 ≤ H) (hF : 0 ≤ F)
    (hfits : H + nch * (F + R + 1) ≤ 2147483647) {r : Rd} (h : SFwd R H F nch r) (he : r.atEnd = false) :
    FrameOk fp (FrameIdx H (H + F * nch) r) r := by
  have hn := h.n0
  have hR0 : 0 ≤ R := by
    have : (0 : ℚ) ≤ R := le_trans h.rate0 h.rateR
    exact_mod_cast this
  obtain ⟨q, hq0, hqF, hq⟩ := h.pos
  rw [h.atEnd hH hF hR0 hfits hq, decide_eq_false_iff_not] at he
  have hqn : 0 ≤ q * nch := mul_nonneg hq0 (le_of_lt hn)
  have hqe : (q + 1) * nch ≤ F * nch := mul_le_mul_of_nonneg_right (by omega) (le_of_lt hn)
  rw [add_mul, one_mul] at hqe
  have hE : H + F * nch ≤ 2147483647 := by
    have := (frame_fits hH (le_of_lt hn) hF (show F ≤ F + R + 1 by omega) hfits).2
    exact this
  have hlow := lowest_le (r := r) (by rw [h.chans]; omega)
  have hone : ∀ ch : Nat, (ch : Int) < r.nch → Can (FrameIdx H (H + F * nch) r) r.nch r.pos1 0 ch := by
    intro ch hc
    unfold Can FrameIdx InI32
    rw [h.chans] at hc ⊢
    omega
  have hsmall : |r.rate| ≤ 2 ^ 30 := by
    rw [abs_of_nonneg h.rate0]
    have := h.rateR
    have h30 : (R : ℚ) ≤ ((2 ^ 30 : Int) : ℚ) := by exact_mod_cast hR2
    push_cast at h30; linarith
  have hi := h.ip
  unfold InterpFwd at hi
  refine ⟨by rw [h.atEnd hH hF hR0 hfits hq]; exact decide_eq_false he, h.frac, hsmall, h.w0, h.w1, ?_, hone,
    fun x => (by rw [h.dual] at x; cases x), ?_, ?_, ?_⟩
  · intro k
    cases hx : r.interp with
    | none => exact absurd hx k
    | linear => simp only [hx] at hi; exact hi.1
    | quadratic => simp only [hx] at hi; exact hi.1
  · intro hx _ hrem hrate hback ch hc
    have hl : lowest r = r.pos1 - r.nch := by unfold lowest; rw [if_pos ⟨hx, hrate, hrem⟩]
    rw [h.header] at hback
    unfold Can FrameIdx InI32
    rw [hl]
    rw [h.chans] at hc hback ⊢
    omega
  · intro _ _ k
    have := h.rate0
    linarith
  · intro hx
    simp only [hx] at hi
    obtain ⟨_, i1, i2⟩ := hi
    obtain ⟨k1, k2⟩ := quad_one fp (rem := r.rem) (rate := r.rate) (by rw [abs_of_nonneg h.rate0]; exact i2) h.frac (fun _ => i1)
      (fun k => absurd h.rate0 (not_le.2 k))
    refine ⟨1, k1, k2, fun ch hc => ⟨fun _ j hj => ?_, fun k => absurd h.rate0 (not_le.2 k), fun x => (by rw [h.dual] at x; cases x)⟩⟩
    have : j = 0 := by omega
    subst this
    exact hone ch hc

theorem SFwd.step (hfp : Representable fp) {R H F nch : Int} (hR2 : R ≤ 2 ^ 30) (hH : 0 ≤ H) (hF : 0 ≤ F)
    (hfits : H + nch * (F + R + 1) ≤ 2147483647) {r : Rd} (h : SFwd R H F nch r) (he : r.atEnd = false) :
    ∃ r', stepOn fp r = .ok r' ∧ SFwd R H F nch r' ∧ SameConf r r' ∧ r.pos1 ≤ r'.pos1 ∧ r'.pos1 ≤ r.pos1 + nch * (R + 1) ∧ r.pos1 ≤ lowest r' := by
  have hn := h.n0
  have hR0 : 0 ≤ R := by
    have : (0 : ℚ) ≤ R := le_trans h.rate0 h.rateR
    exact_mod_cast this
  obtain ⟨q, hq0, hqF, hq⟩ := h.pos
  rw [h.atEnd hH hF hR0 hfits hq, decide_eq_false_iff_not] at he
  have hpq : ∀ δ : Int, r.pos1 + δ * r.nch = H + (q + δ) * nch := by intro δ; rw [hq, h.chans]; ring
  obtain ⟨δ, f, e1, e2, e3, _, e5, e6⟩ := stepOn_any fp hfp (r := r) (R := R) (by rw [abs_of_nonneg h.rate0]; exact h.rateR) hR2
    h.flt h.frac h.cfOn (fun δ hδ h0 _ => by
      have hδ0 := h0 h.rate0
      rw [abs_of_nonneg hδ0] at hδ
      have f1 := frame_fits hH (le_of_lt hn) hδ0 (show δ ≤ F + R + 1 by omega) hfits
      have f2 := frame_fits hH (le_of_lt hn) (show 0 ≤ q + δ by omega) (show q + δ ≤ F + R + 1 by omega) hfits
      rw [hpq, h.chans]
      exact ⟨⟨by omega, by omega⟩, ⟨by omega, by omega⟩⟩)
  have hδ0 := e3 h.rate0
  rw [abs_of_nonneg hδ0] at e2
  have hmul : δ * nch ≤ nch * (R + 1) := by rw [mul_comm]; exact mul_le_mul_of_nonneg_left e2 (le_of_lt hn)
  have hmul0 : 0 ≤ δ * nch := mul_nonneg hδ0 (le_of_lt hn)
  obtain ⟨p2, hz⟩ := stepOn_inv e1
  have hfe : f = fp.d.rnd (fp.d.rnd (r.rem + r.rate) - trunc (fp.d.rnd (r.rem + r.rate))) := (congrArg Rd.rem hz : _)
  have hsg : 0 ≤ r.rem → 0 ≤ f := fun k => by rw [hfe]; exact rem_sign fp k h.rate0
  have hpe : r.pos1 + δ * r.nch = r.pos1 + trunc (fp.d.rnd (r.rem + r.rate)) * r.nch := (congrArg Rd.pos1 hz : _)
  refine ⟨_, e1, ⟨h.dual, h.cfOn, h.w0, h.w1, hn, h.loop, h.rate0, h.rateR, e5, e6, ?_, h.pts, h.header, h.fs, h.chans, q + δ, by omega, by omega, hpq δ⟩,
    ⟨rfl, rfl, rfl, rfl, rfl, rfl, rfl, rfl, rfl, rfl, rfl, rfl, rfl, rfl⟩, ?_, ?_, ?_⟩
  · have hi := h.ip
    unfold InterpFwd at hi ⊢
    simp only
    cases hx : r.interp with
    | none => trivial
    | linear => simp only [hx] at hi ⊢; exact ⟨hi.1, hsg hi.2⟩
    | quadratic => simp only [hx] at hi ⊢; exact ⟨hi.1, hsg hi.2.1, hi.2.2⟩
  · simp only; rw [h.chans]; omega
  · simp only; rw [h.chans]; omega
  · unfold lowest
    simp only
    split
    · rename_i k
      have hrem : 0 ≤ r.rem := by
        have hi := h.ip
        unfold InterpFwd at hi
        rw [k.1] at hi
        exact hi.2
      have h1 : 1 ≤ trunc (fp.d.rnd (r.rem + r.rate)) := by
        have e1 : fp.d.rnd 1 = 1 := by simpa using fp.d.exact_int (m := 1) (by norm_num) (by norm_num) (by norm_num)
        have m1 := fp.d.mono (show (1 : ℚ) ≤ r.rem + r.rate by linarith [k.2.1])
        rw [e1] at m1
        rw [trunc_of_nonneg (by linarith), Int.le_floor]
        exact_mod_cast m1
      have h2 : 1 * r.nch ≤ trunc (fp.d.rnd (r.rem + r.rate)) * r.nch := mul_le_mul_of_nonneg_right h1 (by rw [h.chans]; omega)
      omega
    · rw [h.chans]; omega

/-- One call of `read` on the recording source: where the reader ends up and what was asked for. -/
theorem SFwd.run (hfp : Representable fp) (hf : ∀ i, InI16 (f i)) {R H F nch : Int} (hR2 : R ≤ 2 ^ 30) (hH : 0 ≤ H) (hF : 0 ≤ F)
    (hfits : H + nch * (F + R + 1) ≤ 2147483647) (fuel : Nat) : ∀ (n : Nat) (r : Rd) (t : List Int), SFwd R H F nch r →
    (∀ i, lowest r ≤ i → H ≤ i → i < r.pos1 + n * (nch * (R + 1)) → i < H + F * nch → P i) →
    ∃ fs r' ext, readLoop fp (recSrc P f) (fuel + 1) n r t = .ok ⟨fs, [], r', t ++ ext⟩ ∧ SFwd R H F nch r' ∧ SameConf r r' ∧
      r.pos1 ≤ r'.pos1 ∧ r'.pos1 ≤ r.pos1 + n * (nch * (R + 1)) ∧ ((n = 0 ∧ r' = r) ∨ (ext = [] ∧ fs = [] ∧ r' = r) ∨ (r.pos1 ∈ t ++ ext ∧ r.pos1 ≤ lowest r')) ∧
      (∀ i ∈ ext, lowest r ≤ i ∧ H ≤ i ∧ i < r.pos1 + n * (nch * (R + 1)) ∧ i < H + F * nch)
  | 0, r, t, h, _ => ⟨[], r, [], by simp [readLoop], h, SameConf.refl r, le_refl _, by simp, Or.inl ⟨rfl, rfl⟩, fun i hi => by cases hi⟩
  | n + 1, r, t, h, hP => by
    have hn := h.n0
    have hR0 : 0 ≤ R := by
      have : (0 : ℚ) ≤ R := le_trans h.rate0 h.rateR
      exact_mod_cast this
    have hstepn : 0 ≤ nch * (R + 1) := mul_nonneg (le_of_lt hn) (by omega)
    have hnn : 0 ≤ n * (nch * (R + 1)) := mul_nonneg (by omega) hstepn
    have hsum : ((n + 1 : Nat) : Int) * (nch * (R + 1)) = n * (nch * (R + 1)) + nch * (R + 1) := by push_cast; ring
    have hnch1 : nch ≤ nch * (R + 1) := by rw [mul_add, mul_one]; have := mul_nonneg (le_of_lt hn) hR0; omega
    have hk : r.nch.toNat = (r.nch.toNat - 1) + 1 := by rw [h.chans]; omega
    have hlow := lowest_le (r := r) (by rw [h.chans]; omega)
    rw [hsum] at hP ⊢
    cases he : r.atEnd with
    | true =>
      refine ⟨[], r, [], ?_, h, SameConf.refl r, le_refl _, by omega, Or.inr (Or.inl ⟨rfl, rfl, rfl⟩), fun i hi => by cases hi⟩
      have hfr : readFrame fp (recSrc P f) (fuel + 1) r.nch.toNat 0 r t = .ok ([], false, r, t) := by
        rw [hk, readFrame, readChan_atEnd he, wrapAround_none.2 h.loop]
        have : { r with cfOn := false } = r := by rw [← h.cfOn]
        simp only [this]; rfl
      rw [readLoop_succ]
      simp only [h.dual, Bool.false_eq_true, if_false, ok_bind, hfr, List.append_nil]
    | false =>
      obtain ⟨vs, r2, t2, b1, b2, b3, b4, b5, ext1, b6, b7⟩ := readFrame_ok fp (S := recSrc P f)
        (I := fun t' => ∃ ext, t' = t ++ ext ∧ ∀ i ∈ ext, FrameIdx H (H + F * nch) r i) (P := FrameIdx H (H + F * nch) r)
        (by
          rintro s i ⟨ext, rfl, he⟩ hi
          have hi' := hi
          obtain ⟨i1, i2, i3, i4⟩ := hi'
          rw [h.chans] at i3
          refine ⟨_, _, recSrc_ok (hP i i1 i2 (by omega) i4) _, ⟨ext ++ [i], by simp, ?_⟩, hf i⟩
          intro j hj
          rcases List.mem_append.1 hj with hj | hj
          · exact he j hj
          · rw [List.mem_singleton.1 hj]; exact hi)
        fuel r.nch.toNat 0 r t ⟨[], by simp, fun i hi => by cases hi⟩ h.pts (h.frameOk hR2 hH hF hfits he) (by rw [h.chans]; omega)
      have htouch : r.pos1 ∈ t2 := by
        have := b1
        rw [hk] at this
        exact readFrame_touch h.dual he this
      have h2 := h.same b5 b4
      have he2 : r2.atEnd = false := by rw [b5.atEnd]; exact he
      have hp2 : r2.pos1 = r.pos1 := by rw [b5]
      obtain ⟨r3, d1, d2, d3, d4, d5, d6⟩ := h2.step hfp hR2 hH hF hfits he2
      rw [hp2] at d4 d5 d6
      have c3 := b5.conf.trans d3
      obtain ⟨fs, r', ext, k1, k2, k3, k4, k5, k6, k7⟩ := SFwd.run hfp hf hR2 hH hF hfits fuel n r3 t2 d2
        (fun i i1 i2 i3 i4 => hP i (by omega) i2 (by omega) i4)
      refine ⟨vs :: fs, r', ext1 ++ ext, ?_, k2, c3.trans k3, by omega, by omega, Or.inr (Or.inr ⟨?_, ?_⟩), ?_⟩
      · rw [readLoop_succ]
        simp only [h.dual, Bool.false_eq_true, if_false, ok_bind, b1, if_true, d1, k1]
        rw [b6, List.append_assoc]
      · rw [← List.append_assoc, ← b6]; exact List.mem_append_left _ htouch
      · rcases k6 with k6 | k6 | k6
        · rw [k6.2]; exact d6
        · rw [k6.2.2]; exact d6
        · exact le_trans d4 k6.2
      · intro i hi
        rcases List.mem_append.1 hi with hi | hi
        · obtain ⟨i1, i2, i3, i4⟩ := b7 i hi
          rw [h.chans] at i3
          exact ⟨i1, i2, by omega, i4⟩
        · obtain ⟨i1, i2, i3, i4⟩ := k7 i hi
          exact ⟨by omega, i2, by omega, i4⟩

/-- Everything in a window of `2 mm + 1` blocks is buffered. -/
theorem FWin.buffered (hB : g.B < 16384) {c : Cache} {a : Int} {L : Nat} (h : FWin m g mm c a L) {i : Int} (hi : InFile m i)
    (h1 : a ≤ i / g.B) (h2 : i / g.B ≤ a + 2 * mm) : Buffered g c i := by
  have : i / g.B ∈ c.bufs.map Buf.index := by
    rw [h.ix, mem_up]
    refine ⟨h1, ?_⟩
    rcases h.enough with e | e
    · omega
    · exact e i hi
  obtain ⟨b, hb, e⟩ := List.mem_map.1 this
  exact ⟨b, hb, e, index_size hB h.reached hb hi e⟩

/-- The least block in a list of sample numbers. -/
theorem least_block {B : Int} : ∀ {is : List Int}, is ≠ [] → ∃ i ∈ is, ∀ j ∈ is, i / B ≤ j / B
  | [], h => absurd rfl h
  | [i], _ => ⟨i, by simp, by simp⟩
  | i :: j :: is, _ => by
    obtain ⟨k, h1, h2⟩ := least_block (B := B) (is := j :: is) (by simp)
    by_cases h : i / B ≤ k / B
    · refine ⟨i, by simp, fun x hx => ?_⟩
      rcases List.mem_cons.1 hx with rfl | hx
      · exact le_refl _
      · exact le_trans h (h2 x hx)
    · refine ⟨k, List.mem_cons_of_mem _ h1, fun x hx => ?_⟩
      rcases List.mem_cons.1 hx with rfl | hx
      · omega
      · exact h2 x hx

/-- A streaming, interpolating player `a` and a player `b` with the whole file in memory, in the same state. -/
structure InStepI (m : List Nat) (g : Geo) (mm : Int) (R H F nch : Int) (F0 : Nat) (a : FileReader) (b : ArrayReader) : Prop where
  rd : b.rd = a.rd
  chans : 0 < a.rd.nch
  fails : ∀ c, a.src = some c → c.fails = F0
  src : b.src = some (toSamples m)
  live : a.rd.playing = true → SFwd R H F nch a.rd ∧ ∃ c k L, a.src = some c ∧ FWin m g mm c k L ∧ k ≤ lowest a.rd / g.B ∧ a.rd.pos1 / g.B ≤ k + mm

theorem InStepI.tick (hfp : Representable fp) (hB : g.B < 16384) (hb : IsBytes m) (hm : m.length < 4294967296)
    (hfit : (m.length : Int) / 2 + g.N * g.B ≤ 2147483647) {R H F nch : Int} (hR2 : R ≤ 2 ^ 30) (hH : 0 ≤ H) (hF : 0 ≤ F)
    (hfits : H + nch * (F + R + 1) ≤ 2147483647) (hD : 128 * (nch * (R + 1)) + nch ≤ mm * g.B) (hE : 2 * (H + F * nch) ≤ m.length)
    (nullOk : Bool) {fuel : Nat} (hf : g.N ≤ fuel + 1) {a : FileReader} {b : ArrayReader}
    (h : InStepI m g mm R H F nch F0 a b) (alloc : Nat → Bool) :
    ∃ fx a' b', a.tick fp g nullOk (fuel + 1) alloc = .ok (fx, a') ∧ b.tick fp (fuel + 1) alloc = .ok (fx, b') ∧ InStepI m g mm R H F nch F0 a' b' := by
  obtain ⟨r, src⟩ := a
  obtain ⟨r2, src2⟩ := b
  obtain ⟨h1, hn, hF0, h2, h3⟩ := h
  simp only at h1 h2 h3 hn hF0
  rw [h1, h2]; clear h1 h2 r2 src2
  have hB0 : (0 : Int) < g.B := by exact_mod_cast g.B_pos
  unfold FileReader.tick ArrayReader.tick FileReader.update ArrayReader.update
  simp only
  cases hp : r.playing with
  | false =>
    rw [update_off hn, update_off hn]
    refine ⟨{}, ⟨r, src⟩, ⟨r, some (toSamples m)⟩, rfl, rfl, ⟨rfl, hn, hF0, rfl, fun h => ?_⟩⟩
    rw [hp] at h; cases h
  | true =>
    by_cases ha : ((List.range r.nch.toNat).filter alloc).length = (List.range r.nch.toNat).length
    · rw [update_on hn _ _ _ ha, update_on hn _ _ _ ha]
      obtain ⟨hst, c, k, L, hc, hw, hk1, hk2⟩ := h3 hp
      subst hc
      have hnc := hst.chans
      -- what may be asked for
      obtain ⟨P, hP⟩ : ∃ P : Int → Prop, P = fun i => lowest r ≤ i ∧ H ≤ i ∧ i < r.pos1 + (128 : Nat) * (nch * (R + 1)) ∧ i < H + F * nch := ⟨_, rfl⟩
      have hll := lowest_le (r := r) (by omega)
      have hlg := lowest_ge r (by omega)
      have hfileP : ∀ i, P i → InFile m i := fun i hi => by
        rw [hP] at hi
        exact ⟨by omega, by omega⟩
      have hupP : ∀ i, P i → lowest r / g.B ≤ i / g.B ∧ i / g.B ≤ lowest r / g.B + mm := fun i hi => by
        rw [hP] at hi
        refine ⟨Int.ediv_le_ediv hB0 hi.1, ?_⟩
        rw [← Int.add_mul_ediv_right _ _ (ne_of_gt hB0)]
        exact Int.ediv_le_ediv hB0 (by push_cast at hi; omega)
      have hl2 : lowest r / g.B ≤ k + mm := le_trans (Int.ediv_le_ediv hB0 hll) hk2
      have hbufP : ∀ i, P i → Buffered g c i := fun i hi => by
        obtain ⟨u1, u2⟩ := hupP i hi
        exact hw.buffered hB (hfileP i hi) (by omega) (by omega)
      have hlen := toSamples_length m
      obtain ⟨f, hfd⟩ : ∃ f : Int → Int, f = fun i => (toSamples m).getD i.toNat 0 := ⟨_, rfl⟩
      have hfw : ∀ i, InI16 (f i) := by
        intro i
        rw [hfd]
        simp only
        by_cases hi : i.toNat < m.length / 2
        · rw [toSamples_raw m _ (by omega)]
          unfold sampleAt
          exact i16_in _
        · rw [List.getD_eq_getElem?_getD, List.getElem?_eq_none (by omega)]
          exact ⟨by norm_num, by norm_num⟩
      obtain ⟨fs, r', ext, e1, e2, e3, e4, e5, e6, e7⟩ := hst.run (P := P) (f := f) hfp hfw hR2 hH hF hfits fuel blockSamples r [] (fun i i1 i2 i3 i4 => by
        rw [hP]; exact ⟨i1, i2, i3, i4⟩)
      rw [List.nil_append] at e1 e6
      have hPe : ∀ i ∈ ext, P i := fun i hi => by rw [hP]; exact e7 i hi
      have hread : ∀ {σ : Type} (S : Src σ) (s : σ), r.read fp S (fuel + 1) s blockSamples = readLoop fp S (fuel + 1) blockSamples r s := by
        intro σ S s
        unfold Rd.read
        rw [hp, if_neg (by decide), if_neg (by omega), if_neg (by omega)]
      obtain ⟨o1, f1, f2, f3, f4, f5⟩ := readLoop_ssim (recSrc_file (P := P) (f := f) hb hm hw.reached.ok nullOk (fun i hi => by
        refine ⟨hfileP i hi, hbufP i hi, ?_⟩
        have := hfileP i hi
        rw [hfd]
        simp only
        rw [toSamples_raw m _ (by have w1 := this.1; have w2 := this.2; omega)]
        exact rawSample_eq hb (by have w1 := this.1; have w2 := this.2; omega))) blockSamples r rfl _ e1
      obtain ⟨o2, g1, g2, g3, g4, g5⟩ := readLoop_ssim (recSrc_array (P := P) (f := f) (data := toSamples m) (fun i hi => by
        have := hfileP i hi
        exact ⟨⟨this.1, by have w1 := this.1; have w2 := this.2; omega⟩, by rw [hfd]⟩)) blockSamples r rfl _ e1
      have f1' : readLoop fp (fileSrc g nullOk) (fuel + 1) blockSamples r (some c) = .ok ⟨fs, [], r', some (c.gets g ext).2⟩ := by
        rw [show some c = some (c.gets g []).2 from rfl, f1]
        obtain ⟨w1, w2, w3, w4⟩ := o1
        simp only at f2 f3 f4 f5
        rw [← f2, ← f3, ← f4, f5]
      have g1' : readLoop fp arraySrc (fuel + 1) blockSamples r (some (toSamples m)) = .ok ⟨fs, [], r', some (toSamples m)⟩ := by
        rw [g1]
        obtain ⟨w1, w2, w3, w4⟩ := o2
        simp only at g2 g3 g4 g5
        rw [← g2, ← g3, ← g4, g5]
      unfold FileReader.read ArrayReader.read
      simp only
      rw [hread, hread, f1', g1']
      simp only [ok_bind, pure_eq_ok]
      clear f1 g1 f1' g1' f2 f3 f4 f5 g2 g3 g4 g5 hfw hfd
      by_cases hfull : fs.length = blockSamples
      · have e : (fxOf r.nch fs alloc).event = some .reload := by unfold fxOf; simp only [hfull, if_true]
        rw [e]
        simp only [FileReader.service, ArrayReader.service, FileReader.triggerReload, ArrayReader.triggerReload]
        obtain ⟨t1, t2⟩ : r.pos1 ∈ ext ∧ r.pos1 ≤ lowest r' := by
          rcases e6 with e | e | e
          · exact absurd e.1 (by decide)
          · rw [e.2.1] at hfull; exact absurd hfull (by decide)
          · exact e
        obtain ⟨i0, i1, i2⟩ := least_block (B := g.B) (is := ext) (by rintro rfl; cases t1)
        have u0 := hupP i0 (hPe i0 i1)
        have u1 := i2 _ t1
        obtain ⟨c', hrl, hw'⟩ := (hw.round hB hb hm hfit (lo := i0 / g.B) (is := ext) (by omega) (by omega)
          (fun i hi => ⟨hfileP i (hPe i hi), i2 i hi, by have := (hupP i (hPe i hi)).2; omega⟩) ⟨i0, i1, rfl⟩).2
          (fuel + 1) (fp.f.rnd r'.rate) hf (fp.f.nonneg e2.rate0)
        rw [hrl]
        refine ⟨_, _, _, rfl, rfl, ⟨rfl, by simp only; rw [e3.nch]; exact hn, ?_, rfl, fun _ => ⟨e2, c', _, L, rfl, hw', ?_, ?_⟩⟩⟩
        · intro c2 h2
          cases h2
          rw [Cache.triggerReload_fails hrl]
          exact (gets_hits hw.reached.ok hb hm _ fun i hi => ⟨hfileP i (hPe i hi), hbufP i (hPe i hi)⟩).2.trans (hF0 c rfl)
        · exact le_trans u1 (Int.ediv_le_ediv hB0 t2)
        · simp only
          refine le_trans ?_ (add_le_add_left u0.1 mm)
          rw [← Int.add_mul_ediv_right _ _ (ne_of_gt hB0)]
          refine Int.ediv_le_ediv hB0 ?_
          have : (blockSamples : Int) = 128 := rfl
          rw [this] at e5
          omega
      · have e : (fxOf r.nch fs alloc).event = some .close := by unfold fxOf; simp only [hfull, if_false]
        rw [e]
        refine ⟨_, _, _, rfl, rfl, ⟨rfl, ?_, ?_, rfl, fun h => ?_⟩⟩
        · simp only [FileReader.close, Rd.stop]; rw [e3.nch]; exact hn
        · intro c2 h2; simp only [FileReader.close] at h2; cases h2
        · simp only [FileReader.close, Rd.stop] at h; cases h
    · rw [update_short hn _ _ _ ha, update_short hn _ _ _ ha]
      refine ⟨_, ⟨r, src⟩, ⟨r, some (toSamples m)⟩, rfl, rfl, ⟨rfl, hn, hF0, rfl, h3⟩⟩

theorem InStepI.ticks (hfp : Representable fp) (hB : g.B < 16384) (hb : IsBytes m) (hm : m.length < 4294967296)
    (hfit : (m.length : Int) / 2 + g.N * g.B ≤ 2147483647) {R H F nch : Int} (hR2 : R ≤ 2 ^ 30) (hH : 0 ≤ H) (hF : 0 ≤ F)
    (hfits : H + nch * (F + R + 1) ≤ 2147483647) (hD : 128 * (nch * (R + 1)) + nch ≤ mm * g.B) (hE : 2 * (H + F * nch) ≤ m.length)
    (nullOk : Bool) {fuel : Nat} (hf : g.N ≤ fuel + 1) : ∀ (als : List (Nat → Bool)) {a : FileReader} {b : ArrayReader},
    InStepI m g mm R H F nch F0 a b →
    ∃ fxs a' b', a.ticks fp g nullOk (fuel + 1) als = .ok (fxs, a') ∧ b.ticks fp (fuel + 1) als = .ok (fxs, b') ∧ InStepI m g mm R H F nch F0 a' b'
  | [], a, b, h => ⟨[], a, b, rfl, rfl, h⟩
  | al :: als, a, b, h => by
    obtain ⟨fx, a1, b1, h1, h2, h3⟩ := h.tick hfp hB hb hm hfit hR2 hH hF hfits hD hE nullOk hf al
    obtain ⟨fxs, a2, b2, k1, k2, k3⟩ := InStepI.ticks hfp hB hb hm hfit hR2 hH hF hfits hD hE nullOk hf als h3
    refine ⟨fx :: fxs, a2, b2, ?_, ?_, k3⟩
    · unfold FileReader.ticks; simp only [h1, ok_bind, k1]; rfl
    · unfold ArrayReader.ticks; simp only [h2, ok_bind, k2]; rfl

/-- Opening a file for forward playback without looping, with any interpolation. -/
theorem playFinish_interp (hm : m.length < 2 ^ 31) (hN : 1 ≤ g.N) (hmm0 : 0 ≤ mm) (hmm : 2 * mm + 1 ≤ g.N)
    (hfit : (m.length : Int) / 2 + g.N * g.B ≤ 2147483647) {r : Rd} {f : Dev} (hf : f.bytes = m) (hsz : r.fileSize = m.length)
    (hH : 0 ≤ r.header) (hroom : 2 * r.header < m.length) (hn : 0 < r.nch) (hd : r.dual = false) (hi : InterpFwd r)
    (hl1 : r.interp = .linear → 1 < r.rate → r.rem = 0) (hpts : PtsOk r)
    (hl : r.loopType = .none) {R : Int} (h0 : 0 ≤ r.rate) (hR : r.rate ≤ R) (hflt : IsFloat 53 (-1074) r.rem) (hfrac : |r.rem| < 1)
    (hF0 : 0 ≤ r.fileSamples) (hE : 2 * (r.header + r.fileSamples.tdiv r.nch * r.nch) ≤ m.length)
    (hs0 : 0 ≤ startFrame r) (hs1 : startFrame r ≤ r.fileSamples.tdiv r.nch) :
    ∃ a, playFinish g r f = .ok (true, a) ∧
      InStepI m g mm R r.header (r.fileSamples.tdiv r.nch) r.nch 0 a ⟨a.rd, some (toSamples m)⟩ ∧ a.rd.playing = true ∧
      a.rd.nch = r.nch ∧ a.rd.header = r.header ∧ a.rd.fileSamples = r.fileSamples.tdiv r.nch ∧ a.rd.rate = r.rate ∧ a.rd.rem = r.rem ∧
      a.rd.pos1 = r.header + startFrame r * r.nch ∧ a.rd.interp = r.interp := by
  have hB0 : (0 : Int) < g.B := by exact_mod_cast g.B_pos
  have hRq : 0 ≤ R := by
    have : (0 : ℚ) ≤ R := le_trans h0 hR
    exact_mod_cast this
  set F := r.fileSamples.tdiv r.nch with hF
  have hFs : 0 ≤ F := Int.tdiv_nonneg hF0 (le_of_lt hn)
  have hsn : startFrame r * r.nch ≤ F * r.nch := mul_le_mul_of_nonneg_right hs1 (le_of_lt hn)
  have hsn0 : 0 ≤ startFrame r * r.nch := mul_nonneg hs0 (le_of_lt hn)
  unfold playFinish
  rw [hsz, if_neg (by unfold u32; omega), if_neg (by omega)]
  simp only [hl, if_true, ← hF]
  set rd0 : Rd := { r with fileSize := m.length, loopType := .none, fileSamples := F, loopStart := i32 0, loopFinish := i32 F } with hrd0
  set c0 : Cache := { dev := f, loopType := .none, loopStartBlk := i32 (rd0.s2s (i32 0)) / g.B, loopFinishBlk := i32 (rd0.s2s (i32 F)) / g.B } with hc0
  have hp : rd0.reset.pos1 = r.header + startFrame r * r.nch := by
    unfold Rd.reset
    have h0' : rd0.rate ≥ 0 := h0
    simp only [h0', if_true]
    have : ∀ y, y = startFrame r → Rd.posOf { rd0 with pts := fun c => if c < 8 then { rd0.pts c with n := 0 } else rd0.pts c } y =
        r.header + startFrame r * r.nch := by
      rintro y rfl
      exact posOf_eq (r := { rd0 with pts := fun c => if c < 8 then { rd0.pts c with n := 0 } else rd0.pts c })
        ⟨by show -2147483648 ≤ r.header + startFrame r * r.nch; omega, by show r.header + startFrame r * r.nch ≤ 2147483647; omega⟩
    have hs : startFrame r = if rd0.playStart = .arbitrary then rd0.playbackStart else 0 := rfl
    split
    · rename_i e; exact this _ (by rw [hs, e]; rfl)
    · rename_i e; exact this _ (by rw [hs, e]; show i32 0 = 0; decide)
    · rename_i e; exact this _ (by rw [hs, e]; rfl)
  have hr0 : rd0.reset.rate ≥ 0 := h0
  have hpre := FWin.preLoad (m := m) (g := g) (c := c0) (i := r.header + startFrame r * r.nch) (by omega) hN hmm (Reached.fresh' hf rfl) rfl rfl
    (by omega) (by omega)
  obtain ⟨⟨L, hw⟩, hfl⟩ := hpre
  have hlow : lowest { rd0.reset with playing := true } = rd0.reset.pos1 := by
    unfold lowest
    rw [if_neg]
    rintro ⟨e1, e2, e3⟩
    exact e3 (hl1 e1 e2)
  refine ⟨⟨{ rd0.reset with playing := true }, some (c0.preLoad g (r.header + startFrame r * r.nch) true)⟩, ?_, ⟨rfl, hn, ?_, rfl, fun _ => ⟨?_, _, _, L, rfl, hw, ?_, ?_⟩⟩,
    rfl, rfl, rfl, rfl, rfl, rfl, hp, rfl⟩
  · have e : c0.preLoad g (r.header + startFrame r * r.nch) true = c0.preLoad g rd0.reset.pos1 (decide (rd0.reset.rate ≥ 0)) := by
      rw [hp, decide_eq_true hr0]
    rw [e]; rfl
  · intro c hc; cases hc; exact hfl
  · refine ⟨hd, rfl, le_refl _, by norm_num [Rd.reset], hn, rfl, h0, hR, hflt, hfrac, hi, ?_, rfl, rfl, rfl, startFrame r, hs0, by omega, hp⟩
    intro c
    have := hpts c
    show InI16 ((if c < 8 then { r.pts c with n := 0 } else r.pts c).y0) ∧ InI16 ((if c < 8 then { r.pts c with n := 0 } else r.pts c).y1) ∧
      InI16 ((if c < 8 then { r.pts c with n := 0 } else r.pts c).y2) ∧ InI16 ((if c < 8 then { r.pts c with n := 0 } else r.pts c).y3)
    split <;> exact this
  · rw [hlow, hp]
  · simp only [hp]; omega

end TVP
