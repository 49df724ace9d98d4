import Verif.Lemmas.FadeStream
import Verif.Props.PingStream

/-!
# Property C74: streaming a cross-faded loop has no dropouts
-/

namespace TVP
open Spec

theorem likeAt_traced {fp : Fp} {g : Geo} {nullOk : Bool} {fuel : Nat} {a : FileReader} {m : List Nat} (hb : IsBytes m) (hm : m.length < 2 ^ 31)
    {ok : Rd → ℚ → Prop} {Live : Rd → Cache → Prop} (hk : KeepsUpT fp m g fuel Live)
    (hs : ∀ r c v, r.playing = true → Live r c → ok r v → Inside r v ∧ Live { r with rate := v } c) {c : Cache} (hn : 0 < a.rd.nch) (hc : a.src = some c)
    (hf : c.fails = 0) (hl : Live a.rd c) : LikeInMemoryAt fp g nullOk fuel a m ok := by
  refine likeAt_of hb (Along m (fun r c => r.playing = true → Live r c) 0) (fun a b h => ⟨h.rd, h.fails⟩) (fun a b al h => ?_) (fun a b v h hv => ?_)
    ⟨rfl, hn, fun c2 h => by rw [hc] at h; cases h; exact hf, rfl, fun _ => ⟨c, hc, fun _ => hl⟩⟩
  · have h' : Along m Live 0 a b := ⟨h.rd, h.nch, h.fails, h.src, fun hp => by
      obtain ⟨c, e1, e2⟩ := h.live hp
      exact ⟨c, e1, e2 hp⟩⟩
    obtain ⟨fx, a', b', k1, k2, k3⟩ := h'.tickT hb hm hk nullOk al
    refine ⟨fx, a', b', k1, k2, k3.rd, k3.nch, k3.fails, k3.src, fun hp => ?_⟩
    obtain ⟨c, e1, e2⟩ := k3.live hp
    exact ⟨c, e1, fun _ => e2⟩
  · refine h.speed (fun hp => ?_) (fun c hc hp => (hs a.rd c v hp (hc hp) hv).2)
    obtain ⟨c, e1, e2⟩ := h.live hp
    exact (hs a.rd c v hp (e2 hp) hv).1

/-- Settings for forward playback of a repeated loop with a cross-fade of `D` frames at a rate of at most `R`, in steps of `2^-p`. -/
structure FadeSettings (r : Rd) (p : Nat) (R : Int) : Prop where
  dual : r.dual = true
  interp : r.interp = .none
  loop : r.loopType = .repeat
  rate0 : 0 < r.rate
  rateR : r.rate ≤ R
  grid : GridRate p r.rate
  rgrid : OnGrid p r.rem
  frac : |r.rem| < 1

/-- The loop from frame `A` to frame `E`, with a fade of `D` frames, is longer than two fades; the file goes on for another `R - 1` frames,
which the first head may overrun the end by; playback starts at frame `q` before the fade.  In blocks: either the loop has at least as many
as there are buffers, so has the way from the start to the end of the loop, the frames overrun lie in its last block, and a fade and
two updates take up no more than all buffers but three; or playback starts in the first block of the loop, from where the file goes
on for at least as long as there are buffers, and all of the loop lies there. -/
structure GoodFade (g : Geo) (m : List Nat) (R A E D H nch q : Int) : Prop where
  R1 : 1 ≤ R
  A0 : 0 ≤ A
  D1 : 1 ≤ D
  long : 2 * D + R + 1 ≤ E - A
  file : 2 * (H + (E + R - 1) * nch) ≤ m.length
  q0 : 0 ≤ q
  q1 : q < E - D
  room : ((H + q * nch) / g.B + g.N - 1 ≤ (H + E * nch) / g.B ∧ (H + A * nch) / g.B + g.N - 1 ≤ (H + E * nch) / g.B ∧
      (H + (E + R - 1) * nch - 1) / g.B ≤ (H + E * nch) / g.B ∧ 2 * D + 257 * R ≤ E - A ∧ (D + 256 * R) * nch ≤ (g.N - 3) * g.B) ∨
    ((H + q * nch) / g.B = (H + A * nch) / g.B ∧ 2 * (((H + A * nch) / g.B + g.N - 2) * g.B) + g.B ≤ m.length ∧
      (H + E * nch) / g.B ≤ (H + A * nch) / g.B + g.N - 1 ∧ (H + (E + R - 1) * nch - 1) / g.B ≤ (H + A * nch) / g.B + g.N - 1)

/-- Speeds up to `R` frames per frame, forwards, in steps of `2^-p`. -/
def SpeedsOn (p : Nat) (R : Int) (_ : Rd) (v : ℚ) : Prop := 0 < v ∧ v ≤ R ∧ GridRate p v

theorem FadeFwd.speed {p : Nat} {R A E D H nch : Int} {r : Rd} {v : ℚ} (n : FadeNum R A E D H nch) (h : FadeFwd p R A E D H nch r) {ph : Spots} (hw : ph.Wf R A E D)
    (ho : SpotsOf R A E D H nch r ph) (hv : SpeedsOn p R r v) :
    Inside r v ∧ FadeFwd p R A E D H nch { r with rate := v } ∧ SpotsOf R A E D H nch { r with rate := v } ph := by
  have hn := n.n0
  have hA := n.A0
  have hL := n.long
  have hD := n.D1
  have hR := n.R1
  have key : ∀ x, r.pos1 = H + x * nch → 0 ≤ x → r.header ≤ r.pos1 := by
    intro x e h0
    rw [h.header, e]
    have := mul_nonneg h0 (le_of_lt hn)
    omega
  refine ⟨Or.inr ⟨le_of_lt hv.1, ?_⟩, ⟨h.dual, h.interp, h.loop, h.header, h.chans, h.ls, h.lf, h.cd, hv.1, hv.2.1, hv.2.2, h.rgrid, h.frac⟩, ?_⟩
  · cases ph with
    | one q =>
      rcases ho with ⟨_, e⟩ | ⟨_, _, q1, _, x, e, x1, _⟩
      · exact key q e hw.1
      · exact key x e (by omega)
    | two x y =>
      obtain ⟨w0, w1, w2, w3⟩ := hw
      rcases ho with ⟨_, e, _⟩ | ⟨_, e, _⟩ <;> exact key x e (by omega)
  · cases ph <;> exact ho

theorem fade_start {m : List Nat} {g : Geo} {p : Nat} (fp : Fp) (hB : g.B < 16384) (hNB : g.N * g.B ≤ 2 ^ 30) (hN : 1 ≤ g.N)
    (hb : IsBytes m) (hm : m.length < 2 ^ 31) {R : Int} {r : Rd} {f : Dev} (hf : f.bytes = m)
    (hsz : r.fileSize = m.length) (hset : FadeSettings r p R) (hH : 0 ≤ r.header) (hn : 0 < r.nch)
    (hloop : GoodFade g m R r.loopStart r.loopFinish r.cfDur r.header r.nch (firstFrame r))
    (nullOk : Bool) {fuel : Nat} (hfu : g.N ≤ fuel + 1) :
    ∃ a, playFinish g r f = .ok (true, a) ∧ a.rd.playing = true ∧ FadeFwd p R r.loopStart r.loopFinish r.cfDur r.header r.nch a.rd ∧ a.rd.cfOn = false ∧
      a.rd.pos1 = r.header + firstFrame r * r.nch ∧ a.rd.rate = r.rate ∧ a.rd.rem = r.rem ∧ LikeInMemoryAt fp g nullOk (fuel + 1) a m (SpeedsOn p R) := by
  have hB0 : (0 : Int) < g.B := by exact_mod_cast g.B_pos
  have hNB' : (g.N : Int) * g.B ≤ 2 ^ 30 := by exact_mod_cast hNB
  obtain ⟨hR, hA, hD, hL, hE, hq0, hq1, hroom⟩ := hloop
  have mul : ∀ {a b : Int}, a ≤ b → a * r.nch ≤ b * r.nch := fun h => mul_le_mul_of_nonneg_right h (le_of_lt hn)
  have hE1 := mul (show r.loopFinish ≤ r.loopFinish + R - 1 by omega)
  obtain ⟨a, c, k1, k2, k3, k3', k4, k5, k6, k7, k8, k9, k10, k11, k12, k13⟩ := playFinish_fade (g := g) hm hf hsz hH hn hset.dual hset.interp hset.loop
    hset.rate0 hset.rateR hset.grid hset.rgrid hset.frac hA (by omega) (by omega) hq0 (by omega)
  refine ⟨a, k1, k2, k3, k3', k4, k5, k6, ?_⟩
  have hn2 := mul (show 2 * R + 1 ≤ r.loopFinish + R - 1 by omega)
  have hnum : FadeNum R r.loopStart r.loopFinish r.cfDur r.header r.nch := by
    refine ⟨hH, hn, hR, hA, hD, hL, ?_⟩
    have e : r.header + r.nch * (r.loopFinish + 3 * R) = r.header + (r.loopFinish + R - 1) * r.nch + (2 * R + 1) * r.nch := by ring
    rw [e]; omega
  have hqn : 0 ≤ firstFrame r * r.nch := mul_nonneg hq0 (le_of_lt hn)
  have hqn1 : firstFrame r * r.nch ≤ r.loopFinish * r.nch := mul (by omega)
  have hAn : 0 ≤ r.loopStart * r.nch := mul_nonneg hA (le_of_lt hn)
  have hs0 : 0 ≤ (r.header + r.loopStart * r.nch) / g.B := Int.ediv_nonneg (by omega) (le_of_lt hB0)
  have hp0 : 0 ≤ (r.header + firstFrame r * r.nch) / g.B := Int.ediv_nonneg (by omega) (le_of_lt hB0)
  have hpf : (r.header + firstFrame r * r.nch) / g.B ≤ (r.header + r.loopFinish * r.nch) / g.B := Int.ediv_le_ediv hB0 (by omega)
  have hfB : (r.header + r.loopFinish * r.nch) / g.B * g.B ≤ r.header + r.loopFinish * r.nch := Int.ediv_mul_le _ (ne_of_gt hB0)
  have hreach : Reached m g c := Reached.fresh' k8 k9
  have hi : a.rd.pos1 + g.N * g.B ≤ 2147483647 := by rw [k4]; omega
  have hi0 : 0 ≤ a.rd.pos1 := by rw [k4]; omega
  have hone : SpotsOf R r.loopStart r.loopFinish r.cfDur r.header r.nch a.rd (.one (firstFrame r)) := Or.inl ⟨k3', k4⟩
  have hwf : Spots.Wf R r.loopStart r.loopFinish r.cfDur (.one (firstFrame r)) := ⟨hq0, hq1⟩
  rcases hroom with ⟨hl1, hl2, hl3, hl4, hl5⟩ | ⟨hps, hfull, hshort, hover⟩
  · -- a long loop
    have hfull : 2 * (((r.header + firstFrame r * r.nch) / g.B + g.N - 2) * g.B) + g.B ≤ m.length := by
      have := mul_le_mul_of_nonneg_right (show (r.header + firstFrame r * r.nch) / g.B + g.N - 2 + 1 ≤ (r.header + r.loopFinish * r.nch) / g.B by omega) (le_of_lt hB0)
      rw [add_mul, one_mul] at this
      omega
    obtain ⟨hw, hfl⟩ := LWin.preLoad (m := m) (g := g) (c := c) (i := a.rd.pos1) (by omega) hN hreach k9 hi0 hi (by rw [k4]; exact hfull)
      (s := (r.header + r.loopStart * r.nch) / g.B) (f := (r.header + r.loopFinish * r.nch) / g.B)
      ⟨k11, k12, Or.inl k13, hs0, by rw [k4]; exact hp0, by rw [k4]; exact hpf, by omega⟩ (by rw [k4]; exact hl1)
    rw [k4] at hw
    have hlive : FadeLong m g p R r.loopStart r.loopFinish r.cfDur r.header r.nch a.rd (c.preLoad g a.rd.pos1 true) := by
      refine ⟨k3, .one (firstFrame r), firstFrame r, hwf, hone, by omega, by rw [k4]; exact hw, Or.inl ⟨le_refl _, ?_, by omega⟩⟩
      have : 0 ≤ ((128 : Nat) : Int) * R := by positivity
      omega
    exact likeAt_traced hb hm (FadeLong.keepsUp fp hB hm hnum (K := g.N - 3) (by omega) hl5 hl4 hE
      (fun i hi => le_trans (Int.ediv_le_ediv hB0 (by omega)) hl3) hfu)
      (fun r' c' v _ hl hv => by
        obtain ⟨ph, q0, x1, x2, x3, x4, x5⟩ := hl.win
        obtain ⟨y1, y2, y3⟩ := hl.rd.speed hnum x1 x2 hv
        exact ⟨y1, y2, ph, q0, x1, y3, x3, x4, x5⟩) (by rw [k3.chans]; exact hn) k7 (hfl.trans k10) hlive
  · -- a short one
    obtain ⟨hw, hfl⟩ := LWin.preLoad (m := m) (g := g) (c := c) (i := a.rd.pos1) (by omega) hN hreach k9 hi0 hi (by rw [k4, hps]; exact hfull)
      (s := (r.header + r.loopStart * r.nch) / g.B) (f := (r.header + r.loopStart * r.nch) / g.B + g.N - 1)
      ⟨k11, k12, Or.inr ⟨by ring, by rw [k4, hps], by rw [k13]; exact hshort⟩, hs0, by rw [k4]; exact hp0, by rw [k4, hps]; omega, by omega⟩ (by rw [k4, hps])
    have hlive : FadeShort m g p R r.loopStart r.loopFinish r.cfDur r.header r.nch a.rd (c.preLoad g a.rd.pos1 true) :=
      ⟨k3, ⟨.one (firstFrame r), hwf, hone, le_of_eq hps.symm⟩, _, hw, by rw [k4]; exact le_of_eq hps.symm⟩
    exact likeAt_traced hb hm (FadeShort.keepsUp fp hB hNB hm hnum hE (fun i hi => le_trans (Int.ediv_le_ediv hB0 (by omega)) hover) hfu)
      (fun r' c' v _ hl hv => by
        obtain ⟨ph, x1, x2, x3⟩ := hl.spots
        obtain ⟨y1, y2, y3⟩ := hl.rd.speed hnum x1 x2 hv
        exact ⟨y1, y2, ⟨ph, x1, y3, x3⟩, hl.win⟩) (by rw [k3.chans]; exact hn) k7 (hfl.trans k10) hlive

theorem setNumChannels_fade {r : Rd} {p : Nat} {R : Int} (h : FadeSettings r p R) (n : Int) : FadeSettings (r.setNumChannels n) p R := by
  unfold Rd.setNumChannels
  split <;> exact ⟨h.dual, h.interp, h.loop, h.rate0, h.rateR, h.grid, h.rgrid, h.frac⟩

theorem setNumChannels_cfDur (r : Rd) (n : Int) : (r.setNumChannels n).cfDur = r.cfDur := by
  unfold Rd.setNumChannels
  split <;> rfl

/-- **C74** (raw files, what does hold).  Playing a raw file forwards with a repeated, cross-faded loop set beforehand, without
interpolation, is the same as playing it from memory, for ever, even when the program changes the speed between updates: long loops
whose fade leaves room in the buffers for two updates and three blocks more, and short loops with any fade.  Missing are the loops and starts excluded
by `GoodFade`, see `C74_fade_refuted` and `C74_overrun_refuted`, and rates whose steps are not exact. -/
theorem C74_raw_partial (fp : Fp) (g : Geo) (hB : g.B < 16384) (hNB : g.N * g.B ≤ 2 ^ 30) (hN : 1 ≤ g.N) (a : FileReader) {m : List Nat}
    (hb : IsBytes m) (hm : m.length < 2 ^ 31) (past : Bool) {nch : Nat} (hc : 1 ≤ nch) (hc' : nch ≤ 32767) {p : Nat} {R : Int}
    (hset : FadeSettings a.rd p R) (hhead : a.rd.header = 0) (hloop : GoodFade g m R a.rd.loopStart a.rd.loopFinish a.rd.cfDur 0 nch (firstFrame a.rd))
    (nullOk : Bool) {fuel : Nat} (hf : g.N ≤ fuel + 1) :
    ∃ a', a.playRaw g (some ⟨m, 0, past⟩) nch = .ok (true, a') ∧ a'.rd.playing = true ∧ a'.rd.nch = nch ∧ a'.rd.header = 0 ∧ a'.rd.loopType = .repeat ∧
      a'.rd.loopStart = a.rd.loopStart ∧ a'.rd.loopFinish = a.rd.loopFinish ∧ a'.rd.dual = true ∧ a'.rd.cfDur = a.rd.cfDur ∧ a'.rd.cfOn = false ∧
      a'.rd.pos1 = firstFrame a.rd * nch ∧ a'.rd.rate = a.rd.rate ∧
      a'.rd.rem = a.rd.rem ∧ LikeInMemoryAt fp g nullOk (fuel + 1) a' m (SpeedsOn p R) := by
  have hset' : FadeSettings (a.close.rd.setNumChannels nch) p R :=
    setNumChannels_fade (r := a.close.rd) ⟨hset.dual, hset.interp, hset.loop, hset.rate0, hset.rateR, hset.grid, hset.rgrid, hset.frac⟩ nch
  obtain ⟨s1, s2, s3, s4, s5, _⟩ := setNumChannels_rest a.close.rd nch
  obtain ⟨u1, u2⟩ := setNumChannels_loop a.close.rd nch
  have u3 := setNumChannels_cfDur a.close.rd nch
  have hn := setNumChannels_nch_small a.close.rd (n := nch) (by omega) (by omega)
  have hsz : i32 (m.length : Int) = m.length := by unfold i32; omega
  unfold FileReader.playRaw FileReader.playFile
  simp only [Bool.false_eq_true, if_false, Dev.size]
  rw [hsz]
  generalize a.close.rd.setNumChannels nch = r0 at *
  obtain ⟨r1, hr1⟩ : ∃ r1 : Rd, r1 = { r0 with fileSize := (m.length : Int), fileSamples := (m.length : Int).tdiv 2 } := ⟨_, rfl⟩
  rw [← hr1]
  have t1 : r1.header = 0 := by rw [hr1]; exact s1.trans hhead
  have t3 : r1.nch = nch := by rw [hr1]; exact hn
  have t4 : r1.fileSize = m.length := by rw [hr1]
  have t5 : FadeSettings r1 p R := by
    rw [hr1]; exact ⟨hset'.dual, hset'.interp, hset'.loop, hset'.rate0, hset'.rateR, hset'.grid, hset'.rgrid, hset'.frac⟩
  have t6 : r1.playStart = a.rd.playStart := by rw [hr1]; exact s2
  have t7 : r1.playbackStart = a.rd.playbackStart := by rw [hr1]; exact s3
  have t8 : r1.rate = a.rd.rate := by rw [hr1]; exact s4
  have t9 : r1.rem = a.rd.rem := by rw [hr1]; exact s5
  have t10 : r1.loopStart = a.rd.loopStart := by rw [hr1]; exact u1
  have t11 : r1.loopFinish = a.rd.loopFinish := by rw [hr1]; exact u2
  have t12 : r1.cfDur = a.rd.cfDur := by rw [hr1]; exact u3
  clear hr1 hsz
  have hst : firstFrame r1 = firstFrame a.rd := by unfold firstFrame; rw [t6, t7, t10]
  obtain ⟨a', k1, k2, k3, k3', k4, k5, k6, k7⟩ := fade_start (r := r1) (f := ⟨m, 0, past⟩) fp hB hNB hN hb hm
    rfl t4 t5 (le_of_eq t1.symm) (by rw [t3]; omega) (by rw [t1, t3, t10, t11, t12, hst]; exact hloop) nullOk hf
  refine ⟨a', k1, k2, k3.chans.trans t3, k3.header.trans t1, k3.loop, k3.ls.trans t10, k3.lf.trans t11, k3.dual, k3.cd.trans t12, k3', ?_, k5.trans t8, k6.trans t9, k7⟩
  rw [k4, hst, t1, t3, zero_add]

/-- **C74** (WAV files, what does hold).  Likewise. -/
theorem C74_wav_partial (fp : Fp) (g : Geo) (hB : g.B < 16384) (hNB : g.N * g.B ≤ 2 ^ 30) (hN : 1 ≤ g.N) (a : FileReader) {m : List Nat}
    (hb : IsBytes m) (hm : m.length < 2 ^ 31) (past : Bool) (junk : List Nat) (hj : junk.length = 36) (hg : GoodHeader m)
    (hdep : leVal (slice m 34 2) = 16) {off : Nat} (hda : DataAt m off) {nch : Nat} (hn : leVal (slice m 22 2) = nch) (hc : 1 ≤ nch) (hc' : nch ≤ 32767)
    {p : Nat} {R : Int} (hset : FadeSettings a.rd p R)
    (hloop : GoodFade g m R a.rd.loopStart a.rd.loopFinish a.rd.cfDur ((off + 8) / 2 : Nat) nch (firstFrame a.rd))
    (nullOk : Bool) {fuel : Nat} (hf : g.N ≤ fuel + 1) :
    ∃ a', a.playWav g (some ⟨m, 0, past⟩) junk = .ok (true, a') ∧ a'.rd.playing = true ∧ a'.rd.nch = nch ∧ a'.rd.header = ((off + 8) / 2 : Nat) ∧
      a'.rd.loopType = .repeat ∧ a'.rd.loopStart = a.rd.loopStart ∧ a'.rd.loopFinish = a.rd.loopFinish ∧
      a'.rd.dual = true ∧ a'.rd.cfDur = a.rd.cfDur ∧ a'.rd.cfOn = false ∧
      a'.rd.pos1 = ((off + 8) / 2 : Nat) + firstFrame a.rd * nch ∧ a'.rd.rate = a.rd.rate ∧ a'.rd.rem = a.rd.rem ∧
      LikeInMemoryAt fp g nullOk (fuel + 1) a' m (SpeedsOn p R) := by
  have hsz : i32 (m.length : Int) = m.length := by unfold i32; omega
  obtain ⟨f', hp, hfb, _⟩ := playParseWav_good
    (r := { a.close.rd with fileSize := i32 (m.length : Int) }) (past := past) hj hb hm hg hdep hda
  have hch : u16 (parsed m).numChannels = nch := by
    simp only [parsed]; rw [u16_i16, hn]; unfold u16; omega
  rw [hch] at hp
  have hset' : FadeSettings ({ a.close.rd with fileSize := i32 (m.length : Int) }.setNumChannels nch) p R :=
    setNumChannels_fade (r := { a.close.rd with fileSize := i32 (m.length : Int) })
      ⟨hset.dual, hset.interp, hset.loop, hset.rate0, hset.rateR, hset.grid, hset.rgrid, hset.frac⟩ nch
  obtain ⟨s1, s2, s3, s4, s5, s6⟩ := setNumChannels_rest { a.close.rd with fileSize := i32 (m.length : Int) } nch
  obtain ⟨u1, u2⟩ := setNumChannels_loop { a.close.rd with fileSize := i32 (m.length : Int) } nch
  have u3 := setNumChannels_cfDur { a.close.rd with fileSize := i32 (m.length : Int) } nch
  have hn' := setNumChannels_nch_small { a.close.rd with fileSize := i32 (m.length : Int) } (n := nch) (by omega) (by omega)
  simp only at s1 s2 s3 s4 s5 s6 u1 u2 u3
  have s6' := s6.trans hsz
  clear s6
  unfold FileReader.playWav FileReader.playFile
  simp only [if_true, Dev.size]
  rw [hp]
  simp only [ok_bind, Bool.not_true, Bool.false_eq_true, if_false]
  clear hp
  generalize Rd.setNumChannels { a.close.rd with fileSize := i32 (m.length : Int) } nch = r0 at *
  generalize hFS : ((leVal (slice m (off + 4) 4) / 2 : Nat) : Int) = FS
  obtain ⟨r1, hr1⟩ : ∃ r1 : Rd, r1 = { r0 with header := ((off + 8) / 2 : Nat), fileSamples := FS } := ⟨_, rfl⟩
  rw [← hr1]
  have t1 : r1.header = ((off + 8) / 2 : Nat) := by rw [hr1]
  have t3 : r1.nch = nch := by rw [hr1]; exact hn'
  have t4 : r1.fileSize = m.length := by rw [hr1]; exact s6'
  have t5 : FadeSettings r1 p R := by
    rw [hr1]; exact ⟨hset'.dual, hset'.interp, hset'.loop, hset'.rate0, hset'.rateR, hset'.grid, hset'.rgrid, hset'.frac⟩
  have t6 : r1.playStart = a.rd.playStart := by rw [hr1]; exact s2
  have t7 : r1.playbackStart = a.rd.playbackStart := by rw [hr1]; exact s3
  have t8 : r1.rate = a.rd.rate := by rw [hr1]; exact s4
  have t9 : r1.rem = a.rd.rem := by rw [hr1]; exact s5
  have t10 : r1.loopStart = a.rd.loopStart := by rw [hr1]; exact u1
  have t11 : r1.loopFinish = a.rd.loopFinish := by rw [hr1]; exact u2
  have t12 : r1.cfDur = a.rd.cfDur := by rw [hr1]; exact u3
  clear hr1
  have hst : firstFrame r1 = firstFrame a.rd := by unfold firstFrame; rw [t6, t7, t10]
  obtain ⟨a', k1, k2, k3, k3', k4, k5, k6, k7⟩ := fade_start (r := r1) (f := f') fp hB hNB hN hb hm
    hfb t4 t5 (by rw [t1]; exact Int.natCast_nonneg _) (by rw [t3]; omega) (by rw [t1, t3, t10, t11, t12, hst]; exact hloop) nullOk hf
  refine ⟨a', k1, k2, k3.chans.trans t3, k3.header.trans t1, k3.loop, k3.ls.trans t10, k3.lf.trans t11, k3.dual, k3.cd.trans t12, k3', ?_, k5.trans t8, k6.trans t9, k7⟩
  rw [k4, hst, t1, t3]

/-! ## Examples -/

/-- A player set to repeat frames 500 to `z` at one and a half times the speed with a cross-fade of `d` frames, starting at the given frame. -/
def exFadeRepeat (z d q : Int) : FileReader :=
  { rd := { rate := 3 / 2, loopType := .repeat, loopStart := 500, loopFinish := z, dual := true, cfDur := d, playStart := .arbitrary, playbackStart := q } }

theorem exFadeRepeat_settings (z d q : Int) : FadeSettings (exFadeRepeat z d q).rd 4 2 :=
  ⟨rfl, rfl, rfl, by norm_num [exFadeRepeat], by norm_num [exFadeRepeat], ⟨by norm_num, ⟨24, by norm_num [exFadeRepeat]⟩, by norm_num [exFadeRepeat], by norm_num [exFadeRepeat]⟩,
    ⟨0, by norm_num [exFadeRepeat]⟩, by norm_num [exFadeRepeat]⟩

/-- A long loop in a stereo file of 100000 bytes with a fade of 3000 frames, from the beginning of the file. -/
example : ∃ a', (exFadeRepeat 20000 3000 7).playRaw sdGeo (some ⟨List.replicate 100000 5, 0, false⟩) (2 : Nat) = .ok (true, a') ∧
    LikeInMemoryAt Fp.ieee sdGeo true (6 + 1) a' (List.replicate 100000 5) (SpeedsOn 4 2) := by
  obtain ⟨a', h1, _, _, _, _, _, _, _, _, _, _, _, _, h⟩ := C74_raw_partial Fp.ieee sdGeo (by decide) (by decide) (by decide) (exFadeRepeat 20000 3000 7)
    (m := List.replicate 100000 5) (by intro b hb; rw [(List.mem_replicate.1 hb).2]; decide)
    (by rw [List.length_replicate]; decide) false (nch := 2) (by decide) (by decide) (exFadeRepeat_settings 20000 3000 7) rfl
    ⟨by decide, by decide, by decide, by decide, by rw [List.length_replicate]; decide, by decide, by decide,
      Or.inl ⟨by decide, by decide, by decide, by decide, by decide⟩⟩ true (fuel := 6) (by decide)
  exact ⟨a', h1, h⟩

/-- A loop of a hundred frames in a file of 40000 bytes, half of which is faded. -/
example : ∃ a', (exFadeRepeat 603 50 500).playRaw sdGeo (some ⟨List.replicate 40000 5, 0, false⟩) (1 : Nat) = .ok (true, a') ∧
    LikeInMemoryAt Fp.ieee sdGeo true (6 + 1) a' (List.replicate 40000 5) (SpeedsOn 4 2) := by
  obtain ⟨a', h1, _, _, _, _, _, _, _, _, _, _, _, _, h⟩ := C74_raw_partial Fp.ieee sdGeo (by decide) (by decide) (by decide) (exFadeRepeat 603 50 500)
    (m := List.replicate 40000 5) (by intro b hb; rw [(List.mem_replicate.1 hb).2]; decide)
    (by rw [List.length_replicate]; decide) false (nch := 1) (by decide) (by decide) (exFadeRepeat_settings 603 50 500) rfl
    ⟨by decide, by decide, by decide, by decide, by rw [List.length_replicate]; decide, by decide, by decide,
      Or.inr ⟨by decide, by rw [List.length_replicate]; decide, by decide, by decide⟩⟩ true (fuel := 6) (by decide)
  exact ⟨a', h1, h⟩

/-- The stereo WAV file of `C60_wav_partial`. -/
example : ∃ a', (exFadeRepeat 900 50 500).playWav sdGeo (some ⟨exLongWav, 0, false⟩) (List.replicate 36 7) = .ok (true, a') ∧
    LikeInMemoryAt Fp.ieee sdGeo true (6 + 1) a' exLongWav (SpeedsOn 4 2) := by
  obtain ⟨a', h1, _, _, _, _, _, _, _, _, _, _, _, _, h⟩ := C74_wav_partial Fp.ieee sdGeo (by decide) (by decide) (by decide) (exFadeRepeat 900 50 500) exLongWav_bytes
    (by rw [exLongWav_length]; decide) false (List.replicate 36 7) (by decide) (by decide +kernel) (by decide +kernel) (off := 48)
    ⟨Or.inr ⟨by decide +kernel, by decide +kernel⟩, by decide +kernel, by rw [exLongWav_length]; decide⟩ (nch := 2) (by decide +kernel) (by decide) (by decide)
    (exFadeRepeat_settings 900 50 500)
    ⟨by decide, by decide, by decide, by decide, by rw [exLongWav_length]; decide, by decide, by decide,
      Or.inr ⟨by decide, by rw [exLongWav_length]; decide, by decide, by decide⟩⟩ true (fuel := 6) (by decide)
  exact ⟨a', h1, h⟩

/-! ## Where it fails -/

/-- The number of samples missed in `n` updates by a player with seven blocks of 256 samples that repeats frames 0 to `z` of a mono file of bytes 1
with a cross-fade of `d` frames, starting at frame `q`. -/
def exFadeMisses (rate : ℚ) (z d q : Int) (len n : Nat) : M (Option Nat) := do
  let (_, a) ← ({ rd := { rate := rate, loopType := .repeat, loopFinish := z, dual := true, cfDur := d, playStart := .arbitrary, playbackStart := q } } : FileReader).playRaw
    pingGeo (some ⟨List.replicate len 1, 0, false⟩) 1
  let (_, a) ← a.ticks Fp.ideal pingGeo true 8 (List.replicate n fun _ => true)
  return a.src.map (·.fails)

/-- **C74** is violated by a fade that is longer than the buffers, here of 2000 frames before the end of a loop of 6000, at the normal speed: as soon as
it begins, the beginning of the loop is missing. -/
theorem C74_fade_refuted : exFadeMisses 1 6000 2000 3900 16000 1 = .ok (some 28) ∧ exFadeMisses 1 6000 2000 3900 16000 2 = .ok (some 156) := by
  decide +kernel

/-- **C74** is violated above the normal speed when the loop ends at the end of a block: the first head overruns the end of the loop, into a block
that is not loaded. -/
theorem C74_overrun_refuted : exFadeMisses 3 2047 4 509 6000 4 = .ok (some 0) ∧ exFadeMisses 3 2047 4 509 6000 5 = .ok (some 1) := by
  decide +kernel

end TVP
