import Verif.Lemmas.Walk

/-!
# Calls that keep a single-head reader inside its material
-/

namespace TVP

/-- The configuration part of `Walk`: settings under which playback stays inside `T` frames of material. -/
structure Setup (w : Bool) (r : Rd) (R T : Int) : Prop where
  dual : r.dual = false
  nch : 0 < r.nch
  rateR : |r.rate| ≤ R
  R30 : R ≤ 2 ^ 30
  header0 : 0 ≤ r.header
  interp : Reaches w r
  fits : r.header + r.nch * (T + R + 5) ≤ 2147483647
  F0 : 0 ≤ r.fileSamples
  FT : r.fileSamples ≤ T
  A0 : 0 ≤ r.loopStart
  AT : r.loopStart ≤ T
  E0 : 0 ≤ r.loopFinish
  ET : r.loopFinish ≤ T
  loop : r.loopType ≠ .none → r.loopStart < r.loopFinish ∧
    ((r.loopType = .repeat ∧ 0 ≤ r.rate) ∨ r.loopStart ≤ r.loopFinish - r.nch)

/-- A reader inside its material, with sensible settings. -/
structure Going (w : Bool) (r : Rd) (R T : Int) : Prop where
  setup : Setup w r R T
  pts : PtsOk r
  walk : ∃ q, Walk w r R T q

/-- The calls that change the settings of a playing reader or restart it. -/
inductive Cmd
  | rate (f : ℚ) | loopType (t : LoopType) | loopStart (l : Int) | loopFinish (l : Int)
  | playStart (p : PlayStart) (x : Int) | interp (t : Interp) | play

/-- Their effect. -/
def Cmd.run : Cmd → Rd → Rd
  | .rate f, r => r.setPlaybackRate f
  | .loopType t, r => r.setLoopType t
  | .loopStart l, r => r.setLoopStart l
  | .loopFinish l, r => r.setLoopFinish l
  | .playStart p x, r => r.setPlayStart p x
  | .interp t, r => r.setInterp t
  | .play, r => r.play

/-- A call is allowed if the resulting settings are sensible; turning round only while the position is inside the material;
a restart only if the start position is on a frame of the material. -/
def Cmd.Allowed (w : Bool) (R T : Int) (c : Cmd) (r : Rd) : Prop :=
  Setup w (c.run r) R T ∧
    match c with
    | .rate f => f < 0 → r.pos1 < r.header + T * r.nch
    | .play => ∃ q, r.play.pos1 = r.header + q * r.nch ∧ 0 ≤ q ∧ q < T
    | _ => True

theorem Cmd.Allowed.going {w : Bool} {R T : Int} {c : Cmd} {r : Rd} (ha : c.Allowed w R T r) (h : Going w r R T) :
    Going w (c.run r) R T := by
  obtain ⟨hs, hp, q, hw⟩ := h
  obtain ⟨z, hg⟩ := ha
  have hR := hw.R0
  have hT : 0 ≤ T := le_trans z.A0 z.AT
  cases c with
  | loopType t => exact ⟨z, hp, q, z.dual, hw.cfOn, z.nch, z.rateR, z.R30, hw.flt, hw.frac, hw.pos, z.header0, hw.w0, hw.w1, z.interp,
      z.fits, fun _ => ⟨z.F0, z.FT⟩, z.A0, z.AT, fun k => ⟨(z.loop k).1, z.ET, (z.loop k).2⟩, hw.q0, hw.q1⟩
  | loopStart l => exact ⟨z, hp, q, z.dual, hw.cfOn, z.nch, z.rateR, z.R30, hw.flt, hw.frac, hw.pos, z.header0, hw.w0, hw.w1, z.interp,
      z.fits, fun _ => ⟨z.F0, z.FT⟩, z.A0, z.AT, fun k => ⟨(z.loop k).1, z.ET, (z.loop k).2⟩, hw.q0, hw.q1⟩
  | loopFinish l => exact ⟨z, hp, q, z.dual, hw.cfOn, z.nch, z.rateR, z.R30, hw.flt, hw.frac, hw.pos, z.header0, hw.w0, hw.w1, z.interp,
      z.fits, fun _ => ⟨z.F0, z.FT⟩, z.A0, z.AT, fun k => ⟨(z.loop k).1, z.ET, (z.loop k).2⟩, hw.q0, hw.q1⟩
  | playStart p x => exact ⟨z, hp, q, z.dual, hw.cfOn, z.nch, z.rateR, z.R30, hw.flt, hw.frac, hw.pos, z.header0, hw.w0, hw.w1, z.interp,
      z.fits, fun _ => ⟨z.F0, z.FT⟩, z.A0, z.AT, fun k => ⟨(z.loop k).1, z.ET, (z.loop k).2⟩, hw.q0, hw.q1⟩
  | interp t => exact ⟨z, hp, q, z.dual, hw.cfOn, z.nch, z.rateR, z.R30, hw.flt, hw.frac, hw.pos, z.header0, hw.w0, hw.w1, z.interp,
      z.fits, fun _ => ⟨z.F0, z.FT⟩, z.A0, z.AT, fun k => ⟨(z.loop k).1, z.ET, (z.loop k).2⟩, hw.q0, hw.q1⟩
  | play =>
    obtain ⟨q', g1, g2, g3⟩ := hg
    refine ⟨z, ?_, q', z.dual, rfl, z.nch, z.rateR, z.R30, hw.flt, hw.frac, g1, z.header0, le_refl _, (by norm_num [Cmd.run, Rd.play, Rd.reset]), z.interp,
      z.fits, fun _ => ⟨z.F0, z.FT⟩, z.A0, z.AT, fun k => ⟨(z.loop k).1, z.ET, (z.loop k).2⟩, fun _ => ⟨g2, by omega⟩,
      fun _ => ⟨by omega, g3⟩⟩
    intro c
    simp only [Cmd.run, Rd.play, Rd.reset, Rd.stop]
    split
    · exact hp c
    · exact hp c
  | rate f =>
    have hn := hs.nch
    have hpo : ∀ x, -(T + R + 5) ≤ x → x ≤ T + R + 5 → r.posOf x = r.header + x * r.nch := by
      intro x h1 h2
      have f := frame_fits' hs.header0 (le_of_lt hn) h1 h2 hs.fits
      exact posOf_eq ⟨by have := hs.header0; omega, f.2⟩
    have key : ∀ q' : Int, (0 ≤ f → 0 ≤ q' ∧ q' ≤ T + R + 1) → (f < 0 → -R - 1 ≤ q' ∧ q' < T) →
        r.setPlaybackRate f = { r with rate := f, pos1 := r.header + q' * r.nch } → Going w ((Cmd.rate f).run r) R T := by
      intro q' k0 k1 e
      have hz : Setup w (r.setPlaybackRate f) R T := z
      simp only [Cmd.run]
      rw [e] at hz ⊢
      exact ⟨hz, hp, q', hz.dual, hw.cfOn, hz.nch, hz.rateR, hz.R30, hw.flt, hw.frac, rfl, hz.header0, hw.w0, hw.w1, hz.interp,
        hz.fits, fun _ => ⟨hz.F0, hz.FT⟩, hz.A0, hz.AT, fun k => ⟨(hz.loop k).1, hz.ET, (hz.loop k).2⟩, k0, k1⟩
    have hpos : r.header + q * r.nch = r.pos1 := hw.pos.symm
    have hF := hs.FT
    have hF0 := hs.F0
    have hE := hs.ET
    have hE0 := hs.E0
    have hA := hs.AT
    have hA0 := hs.A0
    have h0q : r.header + 0 * r.nch = r.header := by ring
    by_cases h0 : f < 0
    · have hlt := hg h0
      rw [← hpos, mul_lt_iff hn] at hlt
      by_cases hh : r.pos1 ≤ r.header
      · by_cases hps : r.playStart = .sample
        · refine key (r.fileSamples - 1) (fun k => absurd h0 (not_lt.2 k)) (fun _ => ⟨by omega, by omega⟩) ?_
          rw [← hpo (r.fileSamples - 1) (by omega) (by omega)]
          unfold Rd.setPlaybackRate
          simp only [hs.dual, Bool.not_false, if_true, h0, hh, hps]
          rfl
        · refine key (r.loopFinish - 1) (fun k => absurd h0 (not_lt.2 k)) (fun _ => ⟨by omega, by omega⟩) ?_
          rw [← hpo (r.loopFinish - 1) (by omega) (by omega)]
          unfold Rd.setPlaybackRate
          simp only [hs.dual, Bool.not_false, if_true, h0, hh, hps, if_false]
          rfl
      · have hq : 0 < q := by
          by_contra hc
          apply hh
          have := (mul_le_iff hn r.header).2 (show q ≤ 0 by omega)
          omega
        refine key q (fun k => absurd h0 (not_lt.2 k)) (fun _ => ⟨by omega, hlt⟩) ?_
        rw [hpos]
        unfold Rd.setPlaybackRate
        simp only [hs.dual, Bool.not_false, if_true, h0, hh, if_false]
    · by_cases hh : r.pos1 < r.header
      · by_cases hps : r.playStart = .sample
        · refine key 0 (fun k => ⟨le_refl _, by omega⟩) (fun k => absurd k h0) ?_
          rw [← hpo 0 (by omega) (by omega)]
          unfold Rd.setPlaybackRate
          simp only [hs.dual, Bool.not_false, if_true, h0, hh, hps, if_false]
          rfl
        · refine key r.loopStart (fun _ => ⟨hA0, by omega⟩) (fun k => absurd k h0) ?_
          rw [← hpo r.loopStart (by omega) (by omega)]
          unfold Rd.setPlaybackRate
          simp only [hs.dual, Bool.not_false, if_true, h0, hh, hps, if_false]
          rfl
      · have hq : 0 ≤ q := by
          by_contra hc
          apply hh
          have := (mul_lt_iff hn r.header).2 (show q < 0 by omega)
          omega
        have hq2 : q ≤ T + R + 1 := by
          rcases le_or_gt 0 r.rate with k | k
          · exact (hw.q0 k).2
          · have := (hw.q1 k).2; omega
        refine key q (fun _ => ⟨hq, hq2⟩) (fun k => absurd k h0) ?_
        rw [hpos]
        unfold Rd.setPlaybackRate
        simp only [hs.dual, Bool.not_false, if_true, h0, hh, if_false]

/-- Reading keeps the settings sensible: the rate may change sign, which ping-pong settings allow. -/
theorem Setup.after {w : Bool} {r r' : Rd} {R T q' : Int} (h : Setup w r R T) (hw : Walk w r' R T q') (hc : SameConf r r') :
    Setup w r' R T :=
  ⟨hw.dual, hw.nch, hw.rateR, hw.R30, hw.header0, hw.interp, hw.fits, by rw [hc.fileSamples]; exact h.F0,
    by rw [hc.fileSamples]; exact h.FT, hw.A0, hw.AT, by rw [hc.loopFinish]; exact h.E0, by rw [hc.loopFinish]; exact h.ET,
    fun k => ⟨(hw.loop k).1, (hw.loop k).2.2⟩⟩

variable {σ : Type} {S : Src σ} {I : σ → Prop} {P : Int → Prop}

/-- One call of `read` inside the material. -/
theorem Going.read (fp : Fp) (hfp : Representable fp) (hS : SrcOk S I P) (fuel n : Nat) {w : Bool} {r : Rd} {R T : Int}
    (h : Going w r R T) (hpl : r.playing = true) {s : σ} (hs : I s)
    (hP : ∀ i, r.header - margin w * r.nch ≤ i → i < r.header + (T + margin w) * r.nch → P i) :
    ∃ o, r.read fp S (fuel + 2) s n = .ok o ∧ o.extra = [] ∧ o.frames.length ≤ n ∧
      (r.loopType ≠ .none → o.frames.length = n) ∧ (∀ f ∈ o.frames, (f.length : Int) = r.nch ∧ ∀ v ∈ f, InI16 v) ∧
      Going w o.r R T ∧ I o.s ∧ SameConf r o.r := by
  obtain ⟨hz, hp, q, hw⟩ := h
  obtain ⟨fs, r', q', s', e1, e2, e3, e4, e5, e6, e7, e8⟩ := walk_total fp hfp hS fuel n r q s hw hp hs hP
  have hn := hz.nch
  refine ⟨⟨fs, [], r', s'⟩, ?_, rfl, e2, e3, e4, ⟨hz.after e5 e8, e6, q', e5⟩, e7, e8⟩
  unfold Rd.read
  rw [if_neg (by simp [hpl]), if_neg (by omega), if_neg (by omega), e1]

theorem Cmd.run_nch (c : Cmd) (r : Rd) : (c.run r).nch = r.nch ∧ (c.run r).header = r.header ∧
    (r.playing = true → (c.run r).playing = true) := by
  cases c with
  | rate f =>
    have : ∃ p, r.setPlaybackRate f = { r with rate := f, pos1 := p } := by
      unfold Rd.setPlaybackRate
      simp only
      split
      · split
        · split
          · exact ⟨_, rfl⟩
          · exact ⟨r.pos1, rfl⟩
        · split
          · exact ⟨_, rfl⟩
          · exact ⟨r.pos1, rfl⟩
      · split
        · split
          · split
            · exact ⟨_, rfl⟩
            · exact ⟨r.pos1, rfl⟩
          · split
            · exact ⟨_, rfl⟩
            · exact ⟨r.pos1, rfl⟩
        · exact ⟨r.pos1, rfl⟩
    obtain ⟨p, e⟩ := this
    simp only [Cmd.run, e]
    exact ⟨trivial, trivial, id⟩
  | play => exact ⟨rfl, rfl, fun _ => rfl⟩
  | _ => exact ⟨rfl, rfl, id⟩

end TVP
