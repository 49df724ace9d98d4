import Verif.Props.Safe

/-!
# Property C34: the cross-fade
-/

namespace TVP
open Spec

/-- **C34** (the weight).  Whatever the source, interpolation, loop type and rate: over any number of successful calls of
`read` with the dual head the reported cross-fade stays between 0 and 1.  `FadeOk` asks for a fade length of at least one
frame, `0 ≤ loopStart ≤ loopFinish`, positions below `2^31`, and (in mid-fade) a second head not behind its start.  It
holds when playback starts (`C34_start`) and is kept by reading. -/
theorem C34_weight_range_partial {fp : Fp} (hfp : Representable fp) {σ} {S : Src σ} {fuel n : Nat} {r : Rd} {s : σ} {o : ReadOut σ}
    (h : r.read fp S fuel s n = .ok o) (hd : r.dual = true) (hr : FadeOk r) :
    0 ≤ o.r.crossfade ∧ o.r.crossfade ≤ 1 ∧ FadeOk o.r := by
  have key : FadeOk o.r := by
    unfold Rd.read at h
    split at h
    · cases h; exact hr
    · split at h
      · cases h
      · split at h
        · split at h
          · cases h; exact hr
          · cases h
        · exact readLoop_fade hfp h hd hr
  exact ⟨key.w0, key.w1, key⟩

/-- `play()` starts outside a fade. -/
theorem C34_start (r : Rd) (hn : 0 < r.nch) (hH : 0 ≤ r.header) (hA : 0 ≤ r.loopStart) (hAE : r.loopStart ≤ r.loopFinish)
    (hD : 1 ≤ r.cfDur) (hfit : r.header + r.nch * (r.loopFinish + r.cfDur) ≤ 2147483647)
    (hrem : IsFloat 53 (-1074) r.rem) (hrem1 : |r.rem| < 1) : FadeOk r.play :=
  ⟨hn, hH, hA, hAE, hD, hfit, hrem, hrem1, fun h => (by cases h), fun h => (by cases h), le_refl _, zero_le_one⟩

example : FadeOk exDual.rd.play :=
  have e : exDual.rd.rem = 0 := by decide
  C34_start _ (by decide) (by decide) (by decide) (by decide) (by decide) (by decide)
    ⟨0, 0, by norm_num, by norm_num, by rw [e]; norm_num⟩ (by rw [e]; norm_num)

/-- After five frames of `exDual` the fade is half way. -/
example : (exDual.read Fp.ieee 2 5).map (fun x => (x.2.rd.cfOn, x.2.rd.crossfade)) = .ok (true, 1) ∧
    (exDual.read Fp.ieee 2 6).map (fun x => (x.2.rd.cfOn, x.2.rd.crossfade)) = .ok (true, 1 / 2) := by decide +kernel

/-- **C34** (the mix).  During a fade the uninterpolated value of each channel is, up to truncation, the weighted mean of
the samples under the two heads: it lies between them (give or take one), is never larger in magnitude than both, is
within `1 + 2^-30` of the exact mean, and is a 16-bit sample.  Outside a fade it is the sample under the first head. -/
theorem C34_mix (fp : Fp) {σ} {S : Src σ} {I : σ → Prop} {P : Int → Prop} {val : Int → Int} (hS : SrcIs S I P val)
    (hv : ∀ i, P i → InI16 (val i)) {r : Rd} {s : σ} {ch : Nat} (hs : I s) (h0 : 0 ≤ r.crossfade) (h1 : r.crossfade ≤ 1)
    (hp1 : InI32 r.pos1) (hp1' : InI32 (r.pos1 + ch)) (hP1 : P (r.pos1 + ch))
    (h2 : r.dual = true → r.cfOn = true → InI32 r.pos2 ∧ InI32 (r.pos2 + ch) ∧ P (r.pos2 + ch)) :
    ∃ v s', baseVal fp S r s ch = .ok (v, s') ∧ InI16 v ∧ I s' ∧
      ((r.dual && r.cfOn) = false → v = val (r.pos1 + ch)) ∧
      ((r.dual && r.cfOn) = true → min (val (r.pos1 + ch)) (val (r.pos2 + ch)) - 1 ≤ v ∧
        v ≤ max (val (r.pos1 + ch)) (val (r.pos2 + ch)) + 1 ∧
        |v| ≤ max |val (r.pos1 + ch)| |val (r.pos2 + ch)| ∧
        |(v : ℚ) - (r.crossfade * val (r.pos1 + ch) + (1 - r.crossfade) * val (r.pos2 + ch))| < 1 + 2 ^ (-30 : ℤ)) := by
  have e : ∀ p : Int, p + 0 * r.nch = p := by intro p; ring
  exact baseVal_ok fp hS hv hs ⟨by unfold Can; rw [e]; exact ⟨hp1, hp1', hP1⟩,
    fun x y => by unfold Can; rw [e]; exact h2 x y, h0, h1⟩

/-- A state in mid-fade. -/
def exFade : Rd := { dual := true, cfOn := true, crossfade := 1 / 4, pos1 := 1, pos2 := 0, nch := 1 }

example : baseVal Fp.ieee arraySrc exFade (some [100, -33]) 0 = .ok (66, some [100, -33]) := by decide +kernel

example : ∃ v s', baseVal Fp.ieee arraySrc exFade (some [100, -33]) 0 = .ok (v, s') ∧ InI16 v ∧ s' = some [100, -33] ∧
      ((exFade.dual && exFade.cfOn) = false → v = -33) ∧
      ((exFade.dual && exFade.cfOn) = true → min (-33) 100 - 1 ≤ v ∧ v ≤ max (-33) 100 + 1 ∧ |v| ≤ max |(-33)| |100| ∧
        |(v : ℚ) - (exFade.crossfade * (-33 : Int) + (1 - exFade.crossfade) * (100 : Int))| < 1 + 2 ^ (-30 : ℤ)) :=
  C34_mix Fp.ieee (arraySrcIs [100, -33]) (by rintro i ⟨i0, i1⟩; have : i = 0 ∨ i = 1 := by simp at i1; omega
                                              rcases this with rfl | rfl <;> decide) rfl (by norm_num [exFade])
    (by norm_num [exFade]) (by decide) (by decide) (by decide) (fun _ _ => by decide)

/-- The values a source delivers lie in `[lo, hi]`. -/
def SrcIn {σ} (S : Src σ) (lo hi : Int) : Prop := ∀ s i v s', S.get s i = .ok (v, s') → lo ≤ v ∧ v ≤ hi

theorem srcVal_in {σ} {S : Src σ} {lo hi : Int} (hS : SrcIn S lo hi) {r : Rd} {s s' : σ} {pos off v : Int} {ch : Nat}
    (h : srcVal S r s pos off ch = .ok (v, s')) : lo ≤ v ∧ v ≤ hi := by
  unfold srcVal at h
  obtain ⟨p, _, h⟩ := bind_ok_iff.1 h
  obtain ⟨q, _, h⟩ := bind_ok_iff.1 h
  exact hS _ _ _ _ h

theorem baseVal_in (fp : Fp) {σ} {S : Src σ} {lo hi : Int} (hS : SrcIn S lo hi) (hlo : -32768 ≤ lo) (hhi : hi ≤ 32767)
    {r : Rd} {s s' : σ} {ch : Nat} {v : Int} (h0 : 0 ≤ r.crossfade) (h1 : r.crossfade ≤ 1)
    (h : baseVal fp S r s ch = .ok (v, s')) : lo - 1 ≤ v ∧ v ≤ hi + 1 ∧ |v| ≤ max |lo| |hi| := by
  have big : ∀ x, lo ≤ x → x ≤ hi → |x| ≤ max |lo| |hi| := fun x a b => by
    rcases abs_cases x with ⟨e, _⟩ | ⟨e, _⟩
    · rw [e]; exact le_trans b (le_trans (le_abs_self _) (le_max_right _ _))
    · rw [e]; exact le_trans (by linarith [neg_abs_le lo]) (le_max_left _ _)
  unfold baseVal at h
  split at h
  · have := srcVal_in hS h
    exact ⟨by omega, by omega, big _ this.1 this.2⟩
  · split at h
    · have := srcVal_in hS h
      exact ⟨by omega, by omega, big _ this.1 this.2⟩
    · obtain ⟨⟨v1, s1⟩, k1, h⟩ := bind_ok_iff.1 h
      obtain ⟨⟨v2, s2⟩, k2, h⟩ := bind_ok_iff.1 h
      obtain ⟨w, k3, h⟩ := bind_ok_iff.1 h
      have a := srcVal_in hS k1
      have b := srcVal_in hS k2
      obtain ⟨m, c1, c2, c3, c4, c5, _⟩ := mix_ok fp.d h0 h1 (a := v1) (b := v2) (by unfold InI16; omega) (by unfold InI16; omega)
      rw [add_comm] at c1
      rw [c1] at k3
      cases k3
      cases h
      exact ⟨by omega, by omega, le_trans c5 (max_le (big _ a.1 a.2) (big _ b.1 b.2))⟩

theorem readFrame_in (fp : Fp) {σ} {S : Src σ} {lo hi : Int} (hS : SrcIn S lo hi) (hlo : -32768 ≤ lo) (hhi : hi ≤ 32767)
    (fuel : Nat) : ∀ (left ch : Nat) (r : Rd) (s : σ) (x : List Int × Bool × Rd × σ), r.atEnd = false → r.interp = .none →
      0 ≤ r.crossfade → r.crossfade ≤ 1 → readFrame fp S fuel left ch r s = .ok x →
      ∀ v ∈ x.1, lo - 1 ≤ v ∧ v ≤ hi + 1 ∧ |v| ≤ max |lo| |hi|
  | 0, ch, r, s, x, _, _, _, _, h => by unfold readFrame at h; cases h; simp
  | left + 1, ch, r, s, x, he, hi', h0, h1, h => by
    unfold readFrame at h
    obtain ⟨⟨v, r1, s1⟩, k1, h⟩ := bind_ok_iff.1 h
    cases fuel with
    | zero => unfold readChan at k1; cases k1
    | succ fuel =>
    rw [readChan_settled he] at k1
    unfold readNextValue at k1
    simp only [he, Bool.false_eq_true, if_false, hi'] at k1
    obtain ⟨⟨w, s2⟩, k2, k1⟩ := bind_ok_iff.1 k1
    cases k1
    have hw := baseVal_in fp hS hlo hhi h0 h1 k2
    simp only at h
    obtain ⟨⟨vs, ok, r3, s3⟩, k3, h⟩ := bind_ok_iff.1 h
    cases h
    have ih := readFrame_in fp hS hlo hhi (fuel + 1) left (ch + 1) _ _ _ he hi' h0 h1 k3
    intro y hy
    rcases List.mem_cons.1 hy with rfl | hy
    · exact hw
    · exact ih y hy

theorem readLoop_in {fp : Fp} (hfp : Representable fp) {σ} {S : Src σ} {lo hi : Int} (hS : SrcIn S lo hi) (hlo : -32768 ≤ lo)
    (hhi : hi ≤ 32767) {fuel : Nat} : ∀ {n : Nat} {r : Rd} {s : σ} {o : ReadOut σ}, r.dual = true → FadeOk r → r.interp = .none →
      readLoop fp S fuel n r s = .ok o → ∀ f ∈ o.frames, ∀ v ∈ f, lo - 1 ≤ v ∧ v ≤ hi + 1 ∧ |v| ≤ max |lo| |hi|
  | 0, r, s, o, _, _, _, h => by unfold readLoop at h; cases h; simp
  | n + 1, r, s, o, hd, hr, hi', h => by
    rw [readLoop_succ] at h
    rw [if_pos hd] at h
    obtain ⟨r0, h0, h⟩ := bind_ok_iff.1 h
    have k0 := hr.update fp h0
    have c0 := updateCrossfade_conf h0
    have d0 : r0.dual = true := by rw [c0.dual]; exact hd
    obtain ⟨⟨vs, ok, r1, s1⟩, h1, h⟩ := bind_ok_iff.1 h
    obtain ⟨c, _, e⟩ := readFrame_settled (atEnd_dual d0) h1
    have hv := readFrame_in fp hS hlo hhi fuel _ _ _ _ _ (atEnd_dual d0) (by rw [c0.interp, hi']) k0.w0 k0.w1 h1
    have k1 := k0.same e
    subst c
    simp only [if_true] at h
    obtain ⟨r2, h2, h⟩ := bind_ok_iff.1 h
    obtain ⟨o2, h3, h⟩ := bind_ok_iff.1 h
    have c2 := stepOn_conf h2
    have ih := readLoop_in hfp hS hlo hhi (by rw [c2.dual, e.conf.dual]; exact d0) (k1.step hfp h2)
      (by rw [c2.interp, e.conf.interp, c0.interp]; exact hi') h3
    cases h
    intro f hf
    rcases List.mem_cons.1 hf with rfl | hf
    · exact hv
    · exact ih f hf

/-- **C34** (the output).  Dual-head playback without interpolation is never louder than the source: if every source sample
is in `[lo, hi]` (within 16 bits) then every sample `read` delivers, in a fade or not, is in `[lo - 1, hi + 1]` and no
larger in magnitude than `lo` and `hi`. -/
theorem C34_no_louder {fp : Fp} (hfp : Representable fp) {σ} {S : Src σ} {lo hi : Int} (hS : SrcIn S lo hi) (hlo : -32768 ≤ lo)
    (hhi : hi ≤ 32767) {fuel n : Nat} {r : Rd} {s : σ} {o : ReadOut σ} (h : r.read fp S fuel s n = .ok o)
    (hd : r.dual = true) (hr : FadeOk r) (hi' : r.interp = .none) :
    ∀ f ∈ o.frames, ∀ v ∈ f, lo - 1 ≤ v ∧ v ≤ hi + 1 ∧ |v| ≤ max |lo| |hi| := by
  unfold Rd.read at h
  split at h
  · cases h; simp
  · split at h
    · cases h
    · split at h
      · split at h
        · cases h; simp
        · cases h
      · exact readLoop_in hfp hS hlo hhi hd hr hi' h

/-- A source delivering -5 and 7 alternately. -/
def exSrc57 : Src Unit := ⟨fun _ i => .ok (if i % 2 = 0 then 7 else -5, ())⟩

example (o : ReadOut Unit) (h : exDual.rd.read Fp.ieee exSrc57 2 () 9 = .ok o) :
    ∀ f ∈ o.frames, ∀ v ∈ f, -5 - 1 ≤ v ∧ v ≤ 7 + 1 ∧ |v| ≤ max |(-5)| |7| :=
  have e : exDual.rd.rem = 0 := by decide
  C34_no_louder ieee_representable (by intro s i v s' h; cases h; split <;> omega) (by norm_num) (by norm_num) h rfl
    ⟨by decide, by decide, by decide, by decide, by decide, by decide, ⟨0, 0, by norm_num, by norm_num, by rw [e]; norm_num⟩,
      by rw [e]; norm_num, fun h => (by cases h), fun h => (by cases h), le_refl _, zero_le_one⟩ (by decide)

/-- **C34** is false if the direction changes in mid-fade: the second head is then on the wrong side of where the fade is
measured from, the unsigned distance wraps, and the conversion of the "mixed" sample is out of range.  Here: a loop over
the first 4 frames of 20, fade over 4, started at frame 2; after five frames (all in the fade) the rate is set to -1. -/
def exFlip : ArrayReader :=
  let a := (({ rd := { dual := true, cfDur := 4, loopType := .repeat, playStart := .arbitrary, playbackStart := 2 } } : ArrayReader).playRaw
    [0, 100, 200, 300, 400, 500, 600, 700, 800, 900, 1000, 1100, 1200, 1300, 1400, 1500, 1600, 1700, 1800, 1900] 20 1).2
  { a with rd := a.rd.setLoopFinish 4 }

theorem C34_refuted_flip : framesOf (runOps Fp.ieee 2 [.read 5] exFlip) = .ok [[200], [250], [300], [350], [400]] ∧
    framesOf (runOps Fp.ieee 2 [.read 5, .set (.rate (-1)), .read 1] exFlip) = .error .badCast := by decide +kernel

end TVP
