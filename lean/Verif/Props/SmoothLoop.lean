import Verif.Lemmas.SmoothLoop
import Verif.Props.FadeStream
import Verif.Props.StreamInterp
import Verif.Props.Speed

/-!
# Property C75: streaming a repeated loop with interpolation has no dropouts
-/

namespace TVP
open Spec

/-- Settings for forward playback of a repeated loop, with any interpolation, at a rate of at most `R`.  Above rate one: not cubic
interpolation, and linear interpolation starts on a frame. -/
structure SmoothRepeat (r : Rd) (R : Int) : Prop where
  dual : r.dual = false
  loop : r.loopType = .repeat
  rate0 : 0 ≤ r.rate
  rateR : r.rate ≤ R
  flt : IsFloat 53 (-1074) r.rem
  frac : |r.rem| < 1
  rem0 : r.interp ≠ .none → 0 ≤ r.rem
  linear : r.interp = .linear → 1 < r.rate → r.rem = 0
  cubic : r.interp = .quadratic → r.rate ≤ 1
  pts : ∀ c, InI16 (r.pts c).y0 ∧ InI16 (r.pts c).y1 ∧ InI16 (r.pts c).y2 ∧ InI16 (r.pts c).y3

theorem SmoothRepeat.interpFwd {r : Rd} {R : Int} (h : SmoothRepeat r R) (hc : r.interp ≠ .none → r.nch ≤ 8) : InterpFwd r := by
  unfold InterpFwd
  cases e : r.interp with
  | none => trivial
  | linear => exact ⟨hc (by rw [e]; decide), h.rem0 (by rw [e]; decide)⟩
  | quadratic => exact ⟨hc (by rw [e]; decide), h.rem0 (by rw [e]; decide), h.cubic e⟩

theorem setNumChannels_smoothRepeat {r : Rd} {R : Int} (h : SmoothRepeat r R) (n : Int) :
    SmoothRepeat (r.setNumChannels n) R ∧ (r.setNumChannels n).interp = r.interp := by
  unfold Rd.setNumChannels
  obtain ⟨y1, y2, y3, y4, y5, y6, y7, y8, y9, y10⟩ := h
  split <;> exact ⟨⟨y1, y2, y3, y4, y5, y6, y7, y8, y9, y10⟩, rfl⟩

/-- The loop from frame `A` to frame `Z` lies in the file and playback starts at frame `q` before its end.  With linear interpolation above
rate one the frame before the loop begins in the same block as the first one of the loop.  In blocks: either the loop has at least as
many as there are buffers, so has the way from the start to the end of the loop, and two updates take up no more than all buffers but three; or
playback starts in the first block of the loop, from where the file goes on for at least as long as there are buffers, and all
of the loop lies there. -/
structure GoodRepeat (g : Geo) (m : List Nat) (I : Interp) (R A Z H nch q : Int) : Prop where
  A0 : 0 ≤ A
  AZ : A < Z
  file : 2 * (H + Z * nch) ≤ m.length
  q0 : 0 ≤ q
  q1 : q < Z
  fast : nch * (R + 1) ≤ 2 ^ 30
  back : I = .linear → 1 < R → 0 < A → (H + (A - 1) * nch) / g.B = (H + A * nch) / g.B
  room : ((H + q * nch) / g.B + g.N - 1 ≤ (H + Z * nch) / g.B ∧ (H + A * nch) / g.B + g.N - 1 ≤ (H + Z * nch) / g.B ∧
      (256 * (R + 1) + 2) * nch ≤ (g.N - 3) * g.B) ∨
    ((H + q * nch) / g.B = (H + A * nch) / g.B ∧ 2 * (((H + A * nch) / g.B + g.N - 2) * g.B) + g.B ≤ m.length ∧
      (H + Z * nch) / g.B ≤ (H + A * nch) / g.B + g.N - 1)

theorem lowFrame_speed {R : Int} {r : Rd} {v : ℚ} (hv : SmoothSpeeds R r v) (q : Int) : lowFrame r q ≤ lowFrame { r with rate := v } q := by
  unfold lowFrame
  simp only
  split
  · split <;> omega
  · rename_i h1
    rw [if_neg]
    rintro ⟨c1, c2, c3, c4⟩
    rcases hv.2.2.2 c1 c2 with h2 | h2
    · exact h1 ⟨c1, h2, c3, c4⟩
    · exact c3 h2

theorem SRep.speed {I : Interp} {R A Z H nch x : Int} {r : Rd} {v : ℚ} (n : RepNum R A Z H nch) (h : SRep I R A Z H nch r x) (hv : SmoothSpeeds R r v) :
    Inside r v ∧ SRep I R A Z H nch { r with rate := v } x := by
  refine ⟨Or.inr ⟨hv.1, ?_⟩, ⟨h.dual, h.cfOn, h.w0, h.w1, h.loop, hv.1, hv.2.1, h.flt, h.frac, h.ii, ?_, h.pts, h.header, h.ls, h.lf, h.chans, h.x0, h.x1, h.pos⟩⟩
  · rw [h.header, h.pos]
    have := mul_nonneg h.x0 (le_of_lt n.n0)
    omega
  · have hi := h.ip
    unfold InterpFwd at hi ⊢
    simp only
    cases e : r.interp <;> simp only [e] at hi ⊢
    · exact hi
    · exact ⟨hi.1, hi.2.1, hv.2.2.1 e⟩

theorem LoopIn.low {s f : Int} {B H nch st A Z w q0 : Int} {k : Nat} {lo lo' q : Int} (hB : 0 < B) (hn : 0 ≤ nch) (hl : lo ≤ lo')
    (h : LoopIn s f (frameBlk B H nch) st A Z w q0 0 k lo q) : LoopIn s f (frameBlk B H nch) st A Z w q0 0 k lo' q := by
  have := frameBlk_mono (H := H) hB hn hl
  rcases h with ⟨b1, b2⟩ | ⟨b1, b2, b3⟩
  · exact Or.inl ⟨by omega, b2⟩
  · exact Or.inr ⟨b1, by omega, by omega⟩

/-- A player that has begun to repeat the loop from frame `A` to frame `Z` of the file `m`, at frame `x`. -/
structure Repeating (m : List Nat) (g : Geo) (I : Interp) (R A Z H nch x F : Int) (a : FileReader) : Prop where
  playing : a.rd.playing = true
  rd : SRep I R A Z H nch a.rd x
  length : a.rd.fileSamples = F
  cache : ∃ c, a.src = some c ∧ c.fails = 0 ∧
    ((SmoothLong m g I R A Z H nch a.rd c ∧ (256 * (R + 1) + 2) * nch ≤ (g.N - 3) * g.B ∧ 256 * (R + 1) ≤ Z - A) ∨
     (SmoothShort m g I R A Z H nch a.rd c ∧ (H + Z * nch) / g.B ≤ (H + A * nch) / g.B + g.N - 1))

theorem smoothRepeat_start {m : List Nat} {g : Geo} (hB : g.B < 16384) (hNB : g.N * g.B ≤ 2 ^ 30) (hN : 1 ≤ g.N)
    (hm : m.length < 2 ^ 31) {R : Int} {r : Rd} {f : Dev} (hf : f.bytes = m)
    (hsz : r.fileSize = m.length) (hset : SmoothRepeat r R) (h8 : r.interp ≠ .none → r.nch ≤ 8) (hH : 0 ≤ r.header) (hn : 0 < r.nch)
    (hloop : GoodRepeat g m r.interp R r.loopStart r.loopFinish r.header r.nch (firstFrame r)) :
    ∃ a, playFinish g r f = .ok (true, a) ∧ Repeating m g r.interp R r.loopStart r.loopFinish r.header r.nch (firstFrame r) (r.fileSamples.tdiv r.nch) a ∧
      a.rd.rate = r.rate ∧ a.rd.rem = r.rem := by
  have hB0 : (0 : Int) < g.B := by exact_mod_cast g.B_pos
  have hNB' : (g.N : Int) * g.B ≤ 2 ^ 30 := by exact_mod_cast hNB
  have hR : 0 ≤ R := by
    have : (0 : ℚ) ≤ R := le_trans hset.rate0 hset.rateR
    exact_mod_cast this
  obtain ⟨hA, hAZ, hE, hq0, hq1, hfast, hback, hroom⟩ := hloop
  obtain ⟨a, c, k1, k2, k3, k5, k6, kF, k7, k8, k9, k10, k11, k12, k13⟩ := playFinish_srep (g := g) hm hf hsz hH hn hset.dual (hset.interpFwd h8) hset.pts hset.loop
    hset.rate0 hset.rateR hset.flt hset.frac hA hAZ hE hq0 hq1
  refine ⟨a, k1, ⟨k2, k3, kF, ?_⟩, k5, k6⟩
  have k4 := k3.pos
  have hqn : 0 ≤ firstFrame r * r.nch := mul_nonneg hq0 (le_of_lt hn)
  have hqn1 : firstFrame r * r.nch < r.loopFinish * r.nch := mul_lt_mul_of_pos_right hq1 hn
  have hAn : 0 ≤ r.loopStart * r.nch := mul_nonneg hA (le_of_lt hn)
  have hs0 : 0 ≤ (r.header + r.loopStart * r.nch) / g.B := Int.ediv_nonneg (by omega) (le_of_lt hB0)
  have hp0 : 0 ≤ (r.header + firstFrame r * r.nch) / g.B := Int.ediv_nonneg (by omega) (le_of_lt hB0)
  have hpf : (r.header + firstFrame r * r.nch) / g.B ≤ (r.header + r.loopFinish * r.nch) / g.B := Int.ediv_le_ediv hB0 (by omega)
  have hfB : (r.header + r.loopFinish * r.nch) / g.B * g.B ≤ r.header + r.loopFinish * r.nch := Int.ediv_mul_le _ (ne_of_gt hB0)
  have hreach : Reached m g c := Reached.fresh' k8 k9
  have hi : a.rd.pos1 + g.N * g.B ≤ 2147483647 := by rw [k4]; omega
  have hi0 : 0 ≤ a.rd.pos1 := by rw [k4]; omega
  have hcur : curFrame r.loopStart r.loopFinish (firstFrame r) = firstFrame r := by unfold curFrame; rw [if_neg (by omega)]
  have hlow : lowFrame a.rd (firstFrame r) = firstFrame r := by
    unfold lowFrame
    rw [if_neg]
    rintro ⟨e1, e2, e3, _⟩
    rw [k5] at e2
    rw [k6] at e3
    exact e3 (hset.linear (k3.ii.symm.trans e1) e2)
  rcases hroom with ⟨hl1, hl2, hadv⟩ | ⟨hps, hfull, hshort⟩
  · -- a long loop
    have hfull : 2 * (((r.header + firstFrame r * r.nch) / g.B + g.N - 2) * g.B) + g.B ≤ m.length := by
      have := mul_le_mul_of_nonneg_right (show (r.header + firstFrame r * r.nch) / g.B + g.N - 2 + 1 ≤ (r.header + r.loopFinish * r.nch) / g.B by omega) (le_of_lt hB0)
      rw [add_mul, one_mul] at this
      omega
    obtain ⟨hw, hfl⟩ := LWin.preLoad (m := m) (g := g) (c := c) (i := a.rd.pos1) (by omega) hN hreach k9 hi0 hi (by rw [k4]; exact hfull)
      (s := (r.header + r.loopStart * r.nch) / g.B) (f := (r.header + r.loopFinish * r.nch) / g.B)
      ⟨k11, k12, Or.inl k13, hs0, by rw [k4]; exact hp0, by rw [k4]; exact hpf, by omega⟩ (by rw [k4]; exact hl1)
    have hfar : 256 * (R + 1) ≤ r.loopFinish - r.loopStart := by
      have e1 : r.header + r.loopStart * r.nch < ((r.header + r.loopStart * r.nch) / g.B + 1) * g.B := Int.lt_ediv_add_one_mul_self _ hB0
      have e2 := mul_le_mul_of_nonneg_right (show (r.header + r.loopStart * r.nch) / g.B + 1 + (g.N - 3) ≤ (r.header + r.loopFinish * r.nch) / g.B by omega) (le_of_lt hB0)
      rw [add_mul] at e2
      rw [add_mul (256 * (R + 1))] at hadv
      have e3 : 256 * (R + 1) * r.nch ≤ (r.loopFinish - r.loopStart) * r.nch := by rw [sub_mul]; omega
      exact le_of_mul_le_mul_right e3 hn
    have hlive : SmoothLong m g r.interp R r.loopStart r.loopFinish r.header r.nch a.rd (c.preLoad g a.rd.pos1 true) := by
      refine ⟨firstFrame r, _, firstFrame r, k3, hq1, ?_, hw, Or.inl ⟨?_, ?_⟩⟩
      · rw [k4]; exact frameBlk_mono hB0 (le_of_lt hn) (by omega)
      · rw [hcur, hlow, k4]; unfold frameBlk; omega
      · rw [hcur]
        have : 0 ≤ ((128 : Nat) : Int) * (R + 1) := by positivity
        omega
    exact ⟨_, k7, hfl.trans k10, Or.inl ⟨hlive, hadv, hfar⟩⟩
  · -- a short one
    obtain ⟨hw, hfl⟩ := LWin.preLoad (m := m) (g := g) (c := c) (i := a.rd.pos1) (by omega) hN hreach k9 hi0 hi (by rw [k4, hps]; exact hfull)
      (s := (r.header + r.loopStart * r.nch) / g.B) (f := (r.header + r.loopStart * r.nch) / g.B + g.N - 1)
      ⟨k11, k12, Or.inr ⟨by ring, by rw [k4, hps], by rw [k13]; exact hshort⟩, hs0, by rw [k4]; exact hp0, by rw [k4, hps]; omega, by omega⟩ (by rw [k4, hps])
    have hlive : SmoothShort m g r.interp R r.loopStart r.loopFinish r.header r.nch a.rd (c.preLoad g a.rd.pos1 true) :=
      ⟨⟨firstFrame r, k3, by rw [hcur, hlow]; exact le_of_eq hps.symm⟩, _, hw, by rw [k4]; exact le_of_eq hps.symm, by rw [k4]; exact hpf⟩
    exact ⟨_, k7, hfl.trans k10, Or.inr ⟨hlive, hshort⟩⟩

/-- What `Repeating` keeps up. -/
theorem Repeating.keeps {m : List Nat} {g : Geo} {fp : Fp} (hfp : Representable fp) (hB : g.B < 16384) (hNB : g.N * g.B ≤ 2 ^ 30) (hm : m.length < 2 ^ 31)
    {I : Interp} {R A Z H nch x q F : Int} {a : FileReader} (hR : 0 ≤ R) (hH : 0 ≤ H) (hn : 0 < nch) (hloop : GoodRepeat g m I R A Z H nch q)
    (h : Repeating m g I R A Z H nch x F a) {fuel : Nat} (hfu : g.N ≤ fuel + 2) :
    ∃ Live : Rd → Cache → Prop, KeepsUpT fp m g (fuel + 2) Live ∧
      (∀ r c v, r.playing = true → Live r c → SmoothSpeeds R r v → Inside r v ∧ Live { r with rate := v } c) ∧
      (∃ c, a.src = some c ∧ c.fails = 0 ∧ Live a.rd c) ∧
      ((Live = (fun r c => SmoothLong m g I R A Z H nch r c ∧ r.fileSamples = F) ∧ 256 * (R + 1) ≤ Z - A) ∨
       (Live = (fun r c => SmoothShort m g I R A Z H nch r c ∧ r.fileSamples = F) ∧ (H + Z * nch) / g.B ≤ (H + A * nch) / g.B + g.N - 1)) := by
  have hB0 : (0 : Int) < g.B := by exact_mod_cast g.B_pos
  have hNB' : (g.N : Int) * g.B ≤ 2 ^ 30 := by exact_mod_cast hNB
  obtain ⟨hA, hAZ, hE, hq0, hq1, hfast, hback, _⟩ := hloop
  have h2 : R + 1 ≤ nch * (R + 1) := le_mul_of_one_le_left (by omega) (by omega)
  have h3 : H + nch * (Z + R + 1) = H + Z * nch + nch * (R + 1) := by ring
  have hnum : RepNum R A Z H nch := ⟨hn, hH, hA, hAZ, hR, by omega, by rw [h3]; omega⟩
  obtain ⟨c, hc, hf, ⟨hl, hadv, hfar⟩ | ⟨hl, hshort⟩⟩ := h.cache
  · refine ⟨_, (SmoothLong.keepsUp hfp hB hm hnum hback hadv hfar hE hfu).length F, fun r' c' v _ hl hv => ?_, ⟨c, hc, hf, hl, h.length⟩, Or.inl ⟨rfl, hfar⟩⟩
    obtain ⟨⟨x, w, q0, x1, x2, x3, x4, x5⟩, hF⟩ := hl
    exact ⟨(x1.speed hnum hv).1, ⟨x, w, q0, (x1.speed hnum hv).2, x2, x3, x4, x5.low hB0 (le_of_lt hn) (lowFrame_speed hv _)⟩, hF⟩
  · refine ⟨_, (SmoothShort.keepsUp hfp hB hNB hm hnum hback hE hshort hfu).length F, fun r' c' v _ hl hv => ?_, ⟨c, hc, hf, hl, h.length⟩, Or.inr ⟨rfl, hshort⟩⟩
    obtain ⟨⟨⟨x, x1, x2⟩, hw⟩, hF⟩ := hl
    exact ⟨(x1.speed hnum hv).1, ⟨⟨x, (x1.speed hnum hv).2, le_trans x2 (frameBlk_mono hB0 (le_of_lt hn) (lowFrame_speed hv _))⟩, hw⟩, hF⟩

theorem Repeating.like {m : List Nat} {g : Geo} {fp : Fp} (hfp : Representable fp) (hB : g.B < 16384) (hNB : g.N * g.B ≤ 2 ^ 30) (hb : IsBytes m) (hm : m.length < 2 ^ 31)
    {I : Interp} {R A Z H nch x q F : Int} {a : FileReader} (hR : 0 ≤ R) (hH : 0 ≤ H) (hn : 0 < nch) (hloop : GoodRepeat g m I R A Z H nch q)
    (h : Repeating m g I R A Z H nch x F a) (nullOk : Bool) {fuel : Nat} (hfu : g.N ≤ fuel + 2) : LikeInMemoryAt fp g nullOk (fuel + 2) a m (SmoothSpeeds R) := by
  obtain ⟨Live, h1, h2, ⟨c, h3, h4, h5⟩, _⟩ := h.keeps hfp hB hNB hm hR hH hn hloop hfu
  exact likeAt_traced hb hm h1 h2 (by rw [h.rd.chans]; exact hn) h3 h4 h5

theorem smoothRepeat_raw (g : Geo) (hB : g.B < 16384) (hNB : g.N * g.B ≤ 2 ^ 30) (hN : 1 ≤ g.N) (a : FileReader) {m : List Nat}
    (hm : m.length < 2 ^ 31) (past : Bool) {nch : Nat} (hc : 1 ≤ nch) (hc' : nch ≤ 32767) {R : Int}
    (hset : SmoothRepeat a.rd R) (h8 : a.rd.interp ≠ .none → nch ≤ 8) (hhead : a.rd.header = 0)
    (hloop : GoodRepeat g m a.rd.interp R a.rd.loopStart a.rd.loopFinish 0 nch (firstFrame a.rd)) :
    ∃ a', a.playRaw g (some ⟨m, 0, past⟩) nch = .ok (true, a') ∧ a'.rd.rate = a.rd.rate ∧ a'.rd.rem = a.rd.rem ∧
      Repeating m g a.rd.interp R a.rd.loopStart a.rd.loopFinish 0 nch (firstFrame a.rd) (m.length / 2 / nch : Nat) a' := by
  obtain ⟨hset', hi'⟩ := setNumChannels_smoothRepeat (r := a.close.rd)
    ⟨hset.dual, hset.loop, hset.rate0, hset.rateR, hset.flt, hset.frac, hset.rem0, hset.linear, hset.cubic, hset.pts⟩ nch
  obtain ⟨s1, s2, s3, s4, s5, _⟩ := setNumChannels_rest a.close.rd nch
  obtain ⟨u1, u2⟩ := setNumChannels_loop a.close.rd nch
  have hn := setNumChannels_nch_small a.close.rd (n := nch) (by omega) (by omega)
  have hsz : i32 (m.length : Int) = m.length := by unfold i32; omega
  unfold FileReader.playRaw FileReader.playFile
  simp only [Bool.false_eq_true, if_false, Dev.size]
  rw [hsz]
  generalize a.close.rd.setNumChannels nch = r0 at *
  obtain ⟨r1, hr1⟩ : ∃ r1 : Rd, r1 = { r0 with fileSize := (m.length : Int), fileSamples := (m.length : Int).tdiv 2 } := ⟨_, rfl⟩
  rw [← hr1]
  have t1 : r1.header = 0 := by rw [hr1]; exact s1.trans hhead
  have t3 : r1.nch = nch := by rw [hr1]; exact hn
  have t4 : r1.fileSize = m.length := by rw [hr1]
  have t5 : SmoothRepeat r1 R := by
    rw [hr1]
    exact ⟨hset'.dual, hset'.loop, hset'.rate0, hset'.rateR, hset'.flt, hset'.frac, hset'.rem0, hset'.linear, hset'.cubic, hset'.pts⟩
  have t6 : r1.playStart = a.rd.playStart := by rw [hr1]; exact s2
  have t7 : r1.playbackStart = a.rd.playbackStart := by rw [hr1]; exact s3
  have t8 : r1.rate = a.rd.rate := by rw [hr1]; exact s4
  have t9 : r1.rem = a.rd.rem := by rw [hr1]; exact s5
  have t10 : r1.loopStart = a.rd.loopStart := by rw [hr1]; exact u1
  have t11 : r1.loopFinish = a.rd.loopFinish := by rw [hr1]; exact u2
  have t12 : r1.interp = a.rd.interp := by rw [hr1]; exact hi'
  have t2 : r1.fileSamples = (m.length / 2 : Nat) := by rw [hr1]; rw [Int.tdiv_eq_ediv_of_nonneg (by omega)]; rfl
  clear hr1 hsz
  have hst : firstFrame r1 = firstFrame a.rd := by unfold firstFrame; rw [t6, t7, t10]
  obtain ⟨a', k1, k2, k3, k4⟩ := smoothRepeat_start (r := r1) (f := ⟨m, 0, past⟩) hB hNB hN hm
    rfl t4 t5 (by rw [t12, t3]; intro e; exact_mod_cast h8 e) (le_of_eq t1.symm) (by rw [t3]; omega) (by rw [t1, t3, t10, t11, t12, hst]; exact hloop)
  rw [t1, t3, t10, t11, t12, hst, t2, Int.tdiv_eq_ediv_of_nonneg (by omega)] at k2
  exact ⟨a', k1, k3.trans t8, k4.trans t9, k2⟩

theorem smoothRepeat_wav (g : Geo) (hB : g.B < 16384) (hNB : g.N * g.B ≤ 2 ^ 30) (hN : 1 ≤ g.N) (a : FileReader) {m : List Nat}
    (hb : IsBytes m) (hm : m.length < 2 ^ 31) (past : Bool) (junk : List Nat) (hj : junk.length = 36) (hg : GoodHeader m)
    (hdep : leVal (slice m 34 2) = 16) {off : Nat} (hda : DataAt m off) {nch : Nat} (hn : leVal (slice m 22 2) = nch) (hc : 1 ≤ nch) (hc' : nch ≤ 32767)
    {R : Int} (hset : SmoothRepeat a.rd R) (h8 : a.rd.interp ≠ .none → nch ≤ 8)
    (hloop : GoodRepeat g m a.rd.interp R a.rd.loopStart a.rd.loopFinish ((off + 8) / 2 : Nat) nch (firstFrame a.rd)) :
    ∃ a', a.playWav g (some ⟨m, 0, past⟩) junk = .ok (true, a') ∧ a'.rd.rate = a.rd.rate ∧ a'.rd.rem = a.rd.rem ∧
      Repeating m g a.rd.interp R a.rd.loopStart a.rd.loopFinish ((off + 8) / 2 : Nat) nch (firstFrame a.rd) (leVal (slice m (off + 4) 4) / 2 / nch : Nat) a' := by
  have hsz : i32 (m.length : Int) = m.length := by unfold i32; omega
  obtain ⟨f', hp, hfb, _⟩ := playParseWav_good
    (r := { a.close.rd with fileSize := i32 (m.length : Int) }) (past := past) hj hb hm hg hdep hda
  have hch : u16 (parsed m).numChannels = nch := by
    simp only [parsed]; rw [u16_i16, hn]; unfold u16; omega
  rw [hch] at hp
  obtain ⟨hset', hi'⟩ := setNumChannels_smoothRepeat (r := { a.close.rd with fileSize := i32 (m.length : Int) })
    ⟨hset.dual, hset.loop, hset.rate0, hset.rateR, hset.flt, hset.frac, hset.rem0, hset.linear, hset.cubic, hset.pts⟩ nch
  obtain ⟨s1, s2, s3, s4, s5, s6⟩ := setNumChannels_rest { a.close.rd with fileSize := i32 (m.length : Int) } nch
  obtain ⟨u1, u2⟩ := setNumChannels_loop { a.close.rd with fileSize := i32 (m.length : Int) } nch
  have hn' := setNumChannels_nch_small { a.close.rd with fileSize := i32 (m.length : Int) } (n := nch) (by omega) (by omega)
  simp only at s1 s2 s3 s4 s5 s6 u1 u2 hi'
  have s6' := s6.trans hsz
  clear s6
  unfold FileReader.playWav FileReader.playFile
  simp only [if_true, Dev.size]
  rw [hp]
  simp only [ok_bind, Bool.not_true, Bool.false_eq_true, if_false]
  clear hp
  generalize Rd.setNumChannels { a.close.rd with fileSize := i32 (m.length : Int) } nch = r0 at *
  generalize hFS : ((leVal (slice m (off + 4) 4) / 2 : Nat) : Int) = FS
  obtain ⟨r1, hr1⟩ : ∃ r1 : Rd, r1 = { r0 with header := ((off + 8) / 2 : Nat), fileSamples := FS } := ⟨_, rfl⟩
  rw [← hr1]
  have t1 : r1.header = ((off + 8) / 2 : Nat) := by rw [hr1]
  have t3 : r1.nch = nch := by rw [hr1]; exact hn'
  have t4 : r1.fileSize = m.length := by rw [hr1]; exact s6'
  have t5 : SmoothRepeat r1 R := by
    rw [hr1]
    exact ⟨hset'.dual, hset'.loop, hset'.rate0, hset'.rateR, hset'.flt, hset'.frac, hset'.rem0, hset'.linear, hset'.cubic, hset'.pts⟩
  have t6 : r1.playStart = a.rd.playStart := by rw [hr1]; exact s2
  have t7 : r1.playbackStart = a.rd.playbackStart := by rw [hr1]; exact s3
  have t8 : r1.rate = a.rd.rate := by rw [hr1]; exact s4
  have t9 : r1.rem = a.rd.rem := by rw [hr1]; exact s5
  have t10 : r1.loopStart = a.rd.loopStart := by rw [hr1]; exact u1
  have t11 : r1.loopFinish = a.rd.loopFinish := by rw [hr1]; exact u2
  have t12 : r1.interp = a.rd.interp := by rw [hr1]; exact hi'
  have t2 : r1.fileSamples = FS := by rw [hr1]
  clear hr1
  have hst : firstFrame r1 = firstFrame a.rd := by unfold firstFrame; rw [t6, t7, t10]
  obtain ⟨a', k1, k2, k3, k4⟩ := smoothRepeat_start (r := r1) (f := f') hB hNB hN hm
    hfb t4 t5 (by rw [t12, t3]; intro e; exact_mod_cast h8 e) (by rw [t1]; exact Int.natCast_nonneg _) (by rw [t3]; omega) (by rw [t1, t3, t10, t11, t12, hst]; exact hloop)
  rw [t1, t3, t10, t11, t12, hst, t2, ← hFS, Int.tdiv_eq_ediv_of_nonneg (by omega)] at k2
  exact ⟨a', k1, k3.trans t8, k4.trans t9, k2⟩

/-- **C75** (raw files, what does hold).  Playing a raw file forwards with a repeated loop set beforehand, with no, linear or cubic
interpolation, is the same as playing it from memory with that interpolation, for ever, even when the program changes the speed between
updates: long loops for which two updates take up no more than all buffers but three, and short loops at any speed.  Missing are the loops and
starts excluded by `GoodRepeat`, see `C75_back_refuted` and C60, cubic interpolation above rate one (C68), and interpolation of more than eight channels. -/
theorem C75_raw_partial (fp : Fp) (hfp : Representable fp) (g : Geo) (hB : g.B < 16384) (hNB : g.N * g.B ≤ 2 ^ 30) (hN : 1 ≤ g.N) (a : FileReader) {m : List Nat}
    (hb : IsBytes m) (hm : m.length < 2 ^ 31) (past : Bool) {nch : Nat} (hc : 1 ≤ nch) (hc' : nch ≤ 32767) {R : Int}
    (hset : SmoothRepeat a.rd R) (h8 : a.rd.interp ≠ .none → nch ≤ 8) (hhead : a.rd.header = 0)
    (hloop : GoodRepeat g m a.rd.interp R a.rd.loopStart a.rd.loopFinish 0 nch (firstFrame a.rd))
    (nullOk : Bool) {fuel : Nat} (hf : g.N ≤ fuel + 2) :
    ∃ a', a.playRaw g (some ⟨m, 0, past⟩) nch = .ok (true, a') ∧ a'.rd.playing = true ∧ a'.rd.nch = nch ∧ a'.rd.header = 0 ∧ a'.rd.loopType = .repeat ∧
      a'.rd.loopStart = a.rd.loopStart ∧ a'.rd.loopFinish = a.rd.loopFinish ∧ a'.rd.dual = false ∧ a'.rd.interp = a.rd.interp ∧
      a'.rd.pos1 = firstFrame a.rd * nch ∧ a'.rd.rate = a.rd.rate ∧
      a'.rd.rem = a.rd.rem ∧ LikeInMemoryAt fp g nullOk (fuel + 2) a' m (SmoothSpeeds R) := by
  have hR : 0 ≤ R := by
    have : (0 : ℚ) ≤ R := le_trans hset.rate0 hset.rateR
    exact_mod_cast this
  obtain ⟨a', k1, k5, k6, k⟩ := smoothRepeat_raw g hB hNB hN a hm past hc hc' hset h8 hhead hloop
  refine ⟨a', k1, k.playing, k.rd.chans, k.rd.header, k.rd.loop, k.rd.ls, k.rd.lf, k.rd.dual, k.rd.ii, ?_, k5, k6, k.like hfp hB hNB hb hm hR (le_refl _) (by omega) hloop nullOk hf⟩
  rw [k.rd.pos, zero_add]

/-- **C75** (WAV files, what does hold).  Likewise. -/
theorem C75_wav_partial (fp : Fp) (hfp : Representable fp) (g : Geo) (hB : g.B < 16384) (hNB : g.N * g.B ≤ 2 ^ 30) (hN : 1 ≤ g.N) (a : FileReader) {m : List Nat}
    (hb : IsBytes m) (hm : m.length < 2 ^ 31) (past : Bool) (junk : List Nat) (hj : junk.length = 36) (hg : GoodHeader m)
    (hdep : leVal (slice m 34 2) = 16) {off : Nat} (hda : DataAt m off) {nch : Nat} (hn : leVal (slice m 22 2) = nch) (hc : 1 ≤ nch) (hc' : nch ≤ 32767)
    {R : Int} (hset : SmoothRepeat a.rd R) (h8 : a.rd.interp ≠ .none → nch ≤ 8)
    (hloop : GoodRepeat g m a.rd.interp R a.rd.loopStart a.rd.loopFinish ((off + 8) / 2 : Nat) nch (firstFrame a.rd))
    (nullOk : Bool) {fuel : Nat} (hf : g.N ≤ fuel + 2) :
    ∃ a', a.playWav g (some ⟨m, 0, past⟩) junk = .ok (true, a') ∧ a'.rd.playing = true ∧ a'.rd.nch = nch ∧ a'.rd.header = ((off + 8) / 2 : Nat) ∧
      a'.rd.loopType = .repeat ∧ a'.rd.loopStart = a.rd.loopStart ∧ a'.rd.loopFinish = a.rd.loopFinish ∧ a'.rd.dual = false ∧ a'.rd.interp = a.rd.interp ∧
      a'.rd.pos1 = ((off + 8) / 2 : Nat) + firstFrame a.rd * nch ∧ a'.rd.rate = a.rd.rate ∧ a'.rd.rem = a.rd.rem ∧
      LikeInMemoryAt fp g nullOk (fuel + 2) a' m (SmoothSpeeds R) := by
  have hR : 0 ≤ R := by
    have : (0 : ℚ) ≤ R := le_trans hset.rate0 hset.rateR
    exact_mod_cast this
  obtain ⟨a', k1, k5, k6, k⟩ := smoothRepeat_wav g hB hNB hN a hb hm past junk hj hg hdep hda hn hc hc' hset h8 hloop
  exact ⟨a', k1, k.playing, k.rd.chans, k.rd.header, k.rd.loop, k.rd.ls, k.rd.lf, k.rd.dual, k.rd.ii, k.rd.pos, k5, k6,
    k.like hfp hB hNB hb hm hR (by omega) (by omega) hloop nullOk hf⟩

/-! ## Examples -/

/-- A player set to repeat frames 500 to `z` with linear interpolation at five thirds of the speed, roughly, starting at the given frame. -/
def exSmoothRepeat (z q : Int) : FileReader :=
  { rd := { rate := 5 / 3, loopType := .repeat, loopStart := 500, loopFinish := z, interp := .linear, playStart := .arbitrary, playbackStart := q } }

theorem exSmoothRepeat_settings (z q : Int) : SmoothRepeat (exSmoothRepeat z q).rd 2 where
  dual := rfl
  loop := rfl
  rate0 := by norm_num [exSmoothRepeat]
  rateR := by norm_num [exSmoothRepeat]
  flt := exHalf_settings.flt
  frac := by norm_num [exSmoothRepeat]
  rem0 := fun _ => le_refl _
  linear := fun _ _ => rfl
  cubic := fun h => by cases h
  pts := fun _ => by simp [exSmoothRepeat, InI16]

/-- A long loop in a stereo file of 100000 bytes, from the beginning of the file. -/
example : ∃ a', (exSmoothRepeat 20000 7).playRaw sdGeo (some ⟨List.replicate 100000 5, 0, false⟩) (2 : Nat) = .ok (true, a') ∧
    LikeInMemoryAt Fp.ieee sdGeo true (5 + 2) a' (List.replicate 100000 5) (SmoothSpeeds 2) := by
  obtain ⟨a', h1, _, _, _, _, _, _, _, _, _, _, _, h⟩ := C75_raw_partial Fp.ieee ieee_representable sdGeo (by decide) (by decide) (by decide) (exSmoothRepeat 20000 7)
    (m := List.replicate 100000 5) (by intro b hb; rw [(List.mem_replicate.1 hb).2]; decide)
    (by rw [List.length_replicate]; decide) false (nch := 2) (by decide) (by decide) (exSmoothRepeat_settings 20000 7) (by decide) rfl
    ⟨by decide, by decide, by rw [List.length_replicate]; decide, by decide, by decide, by decide, by decide,
      Or.inl ⟨by decide, by decide, by decide⟩⟩ true (fuel := 5) (by decide)
  exact ⟨a', h1, h⟩

/-- A loop of 103 frames in the stereo WAV file of `C60_wav_partial`. -/
example : ∃ a', (exSmoothRepeat 603 500).playWav sdGeo (some ⟨exLongWav, 0, false⟩) (List.replicate 36 7) = .ok (true, a') ∧
    LikeInMemoryAt Fp.ieee sdGeo true (5 + 2) a' exLongWav (SmoothSpeeds 2) := by
  obtain ⟨a', h1, _, _, _, _, _, _, _, _, _, _, _, h⟩ := C75_wav_partial Fp.ieee ieee_representable sdGeo (by decide) (by decide) (by decide) (exSmoothRepeat 603 500) exLongWav_bytes
    (by rw [exLongWav_length]; decide) false (List.replicate 36 7) (by decide) (by decide +kernel) (by decide +kernel) (off := 48)
    ⟨Or.inr ⟨by decide +kernel, by decide +kernel⟩, by decide +kernel, by rw [exLongWav_length]; decide⟩ (nch := 2) (by decide +kernel) (by decide) (by decide)
    (exSmoothRepeat_settings 603 500) (by decide)
    ⟨by decide, by decide, by rw [exLongWav_length]; decide, by decide, by decide, by decide, by decide,
      Or.inr ⟨by decide, by rw [exLongWav_length]; decide, by decide⟩⟩ true (fuel := 5) (by decide)
  exact ⟨a', h1, h⟩

/-! ## Where it fails -/

/-- The number of samples missed by a player with seven blocks of 256 samples that repeats frames `A` to `E` of a mono file of 6000 bytes,
beginning one frame before the end of the loop, with linear interpolation at one and a half times the speed, in the given number of updates. -/
def exSmoothMisses (A E : Int) (n : Nat) : M (Option Nat) :=
  exSpeedMisses { loopType := .repeat, interp := .linear, rate := 3 / 2, loopStart := A, loopFinish := E, playStart := .arbitrary, playbackStart := E - 1 }
    6000 (List.replicate n .full)

/-- **C75** is violated when the second frame played is the first of the loop, and this begins a block: linear interpolation
above rate one looks at the frame before, which is not part of the loop and not loaded.  A loop that begins one frame later misses nothing. -/
theorem C75_back_refuted : exSmoothMisses 256 260 1 = .ok (some 1) ∧ exSmoothMisses 257 260 1 = .ok (some 0) := by
  decide +kernel

end TVP
