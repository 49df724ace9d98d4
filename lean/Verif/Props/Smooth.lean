import Verif.Lemmas.Smooth
import Verif.Props.StreamInterp
import Verif.Props.Path

/-!
# Property C86: from the bytes of a WAV file to the outputs, with interpolation
-/

namespace TVP
open Spec

theorem sends_read {fp : Fp} {g : Geo} {nullOk : Bool} {fuel : Nat} {a : FileReader} {m : List Nat} {H nch : Nat} {val : Nat → Nat → Int}
    {path : Nat → Option Nat} {Live : Nat → Rd → Prop} (hlike : LikeInMemory fp g nullOk (fuel + 2) a m)
    (hT : PathRead fp fuel (samplesOf m) H nch val path Live) (hn : 1 ≤ nch) (hplay : a.rd.playing = true) (hc : a.rd.nch = nch) (hH : a.rd.header = H)
    (hl : Live 0 a.rd) : Sends fp g nullOk (fuel + 2) a val nch path := by
  intro als
  have hon : OnPath (samplesOf m) H nch Live (some 0) ⟨a.rd, some (samplesOf m)⟩ :=
    ⟨hplay, hc, fun k hk => by cases hk; exact ⟨hl, rfl, hH⟩⟩
  obtain ⟨b', j1, j2⟩ := hon.ticks hT hn als
  obtain ⟨fxs, a'', b'', l1, l2, l3, l4⟩ := hlike als
  rw [j1] at l2
  simp only [Except.ok.injEq, Prod.mk.injEq] at l2
  obtain ⟨l2a, l2b⟩ := l2
  exact ⟨a'', by rw [l1, ← l2a], by rw [l3, ← l2b]; exact j2.playing, l4⟩

theorem playFinish_pts {g : Geo} {r : Rd} {f : Dev} {a : FileReader} (h : playFinish g r f = .ok (true, a)) :
    a.rd.pts = fun c => if c < 8 then { r.pts c with n := 0 } else r.pts c := by
  obtain ⟨playing, fileSize, header, rate, rem, loopType, playStart, pos1, pos2, crossfade, dual, cfDur, cfOn, playbackStart, loopStart, loopFinish, fileSamples, nch, psram, interp, pts⟩ := r
  unfold playFinish at h
  simp only at h
  split at h
  · cases h
  · split at h
    · cases h
    · injection h with h
      injection h with _ h
      subst h
      cases loopType <;> rfl

/-- Opening a file empties the stored points but keeps their values. -/
theorem playWav_pts {g : Geo} {a a' : FileReader} {file : Option Dev} {junk : List Nat} (h : a.playWav g file junk = .ok (true, a')) (c : Nat) (hc : c < 8) :
    a'.rd.pts c = { a.rd.pts c with n := 0 } := by
  unfold FileReader.playWav FileReader.playFile at h
  simp only at h
  cases file with
  | none => cases h
  | some f =>
    simp only [if_true] at h
    obtain ⟨⟨o, r1, f1⟩, e, h⟩ := bind_ok_iff.1 h
    obtain ⟨x, y, z, rfl⟩ := playParseWav_same e
    simp only at h
    split at h
    · cases h
    · have k := playFinish_pts h
      rw [k]
      simp only [hc, if_true]
      rfl

/-- Everything shared: the file has been opened and is played from `x` with some interpolation that obeys `ChanStep`. -/
theorem smooth_opened (fp : Fp) (hfp : Representable fp) (g : Geo) (hB : g.B < 16384) (hNB : g.N * g.B ≤ 2 ^ 30) (a : FileReader) {m : List Nat}
    (hb : IsBytes m) (hm : m.length < 2 ^ 31) (past : Bool) (junk : List Nat) (hj : junk.length = 36) (hg : GoodHeader m)
    (hdep : leVal (slice m 34 2) = 16) {off : Nat} (hda : DataAt m off) {nch D : Nat} (hn : leVal (slice m 22 2) = nch) (hc : 1 ≤ nch) (h8 : nch ≤ 8)
    (hD : leVal (slice m (off + 4) 4) = D) (hdata : off + 8 + D ≤ m.length) (hroom : off + 8 < m.length) {mm : Int} (hset : SmoothSettings a.rd 1)
    (hi : a.rd.interp ≠ .none) {p : Nat} (hgrid : GridRate p a.rd.rate) (hrem : OnGrid p a.rd.rem)
    (hstart : a.rd.playStart = .arbitrary → 0 ≤ a.rd.playbackStart ∧ a.rd.playbackStart ≤ (D / 2 / nch : Nat))
    (hmm0 : 0 ≤ mm) (hmm : 2 * mm + 1 ≤ g.N) (hadv : 128 * (nch * (1 + 1)) + nch ≤ mm * g.B) (nullOk : Bool) {fuel : Nat} (hf : g.N ≤ fuel + 2) :
    ∃ a', a.playWav g (some ⟨m, 0, past⟩) junk = .ok (true, a') ∧ a'.rd.playing = true ∧ a'.rd.nch = nch ∧ a'.rd.header = ((off + 8) / 2 : Nat) ∧
      a'.rd.fileSamples = (D / 2 / nch : Nat) ∧ a'.rd.rate = a.rd.rate ∧ a'.rd.interp = a.rd.interp ∧ IFwd a'.rd p 1 (startFrame a.rd + a.rd.rem) ∧
      (∀ c < 8, a'.rd.pts c = { a.rd.pts c with n := 0 }) ∧ LikeInMemory fp g nullOk (fuel + 2) a' m := by
  obtain ⟨a', k0, k1, k2, k3, k4, k5, k6, k7, k8, k9⟩ := C68_wav_partial fp hfp g hB hNB a hb hm past junk hj hg hdep hda hn hc (by omega) hD hdata hroom
    hset (fun _ => h8) hstart hmm0 hmm hadv nullOk (fuel := fuel + 1) (by omega)
  have hop := playWav_opens k0
  refine ⟨a', k0, k1, k2, k3, k4, k5, k8, ?_, playWav_pts k0, k9⟩
  clear k0 k9 hj hdep hg hn hD
  have hs0 : 0 ≤ startFrame a.rd := by
    unfold startFrame; split
    · rename_i e; exact (hstart e).1
    · exact le_refl _
  have hs1 : startFrame a.rd ≤ (D / 2 / nch : Nat) := by
    unfold startFrame; split
    · rename_i e; exact (hstart e).2
    · exact Int.natCast_nonneg _
  have hrem0 := hset.rem0 hi
  have hrem1 : a.rd.rem < 1 := lt_of_abs_lt hset.frac
  have hfl : ⌊((startFrame a.rd : Int) : ℚ) + a.rd.rem⌋ = startFrame a.rd := by
    rw [Int.floor_eq_iff]; constructor <;> linarith
  have hmul : (D / 2 / nch) * nch ≤ D / 2 := Nat.div_mul_le_self _ _
  have hmul' : ((D / 2 / nch : Nat) : Int) * nch ≤ (D / 2 : Nat) := by exact_mod_cast hmul
  have hB0 : (0 : Int) < g.B := by exact_mod_cast g.B_pos
  have hNB' : (g.N : Int) * g.B ≤ 2 ^ 30 := by exact_mod_cast hNB
  have h1 : mm * g.B ≤ g.N * g.B := mul_le_mul_of_nonneg_right (by omega) (le_of_lt hB0)
  have hx : (((off + 8) / 2 : Nat) : Int) + nch * ((D / 2 / nch : Nat) + 1 + 1) = ((off + 8) / 2 : Nat) + (D / 2 / nch : Nat) * nch + nch * (1 + 1) := by ring
  refine ⟨⟨hop.1.trans hset.dual, rfl, hop.2.2.2.2.1, by simp only; rw [k2]; omega⟩, hop.2.2.1.trans hset.loop, by simp only; rw [k5]; exact hset.rate0,
    by simp only; rw [k5]; exact hgrid, (OnGrid.int p _).add hrem, add_nonneg (by exact_mod_cast hs0) hrem0, ?_, ?_,
    by simp only; rw [k3]; exact Int.natCast_nonneg _, by simp only; rw [k4]; exact Int.natCast_nonneg _, by simp only; rw [k5]; exact_mod_cast hset.rateR, ?_, ?_⟩
  · simp only; rw [hfl, k7, k3, k2]
  · simp only; rw [hfl, k6]; ring
  · simp only; rw [k3, k2, k4, hx]; omega
  · simp only; rw [hfl, k4]; omega

theorem smp_channel {m : List Nat} {start nch ch : Nat} (heven : start % 2 = 0) (hch : ch < nch) {F : Nat} (hF : start + 2 * (F * nch) ≤ m.length)
    {i : Int} (h0 : 0 ≤ i) (h1 : i < F) : smp (fun j => (samplesOf m).getD j.toNat 0) (start / 2 : Nat) nch ch i = channelOf m start nch ch i := by
  obtain ⟨j, rfl⟩ : ∃ j : Nat, i = j := ⟨i.toNat, by omega⟩
  unfold smp channelOf
  rw [show (((start / 2 : Nat) : Int) + (j : Int) * nch + ch) = ((start / 2 + (j * nch + ch) : Nat) : Int) by push_cast; ring]
  simp only [Int.toNat_natCast]
  have : (j + 1) * nch ≤ F * nch := Nat.mul_le_mul_right _ (by omega)
  rw [Nat.add_mul, Nat.one_mul] at this
  rw [samplesOf_getD (by omega), fileSample_data m heven]

theorem samplesOf_in {m : List Nat} (hb : IsBytes m) (i : Int) : InI16 ((samplesOf m).getD i.toNat 0) := by
  refine getD_in (fun v hv => ?_) _
  obtain ⟨j, -, rfl⟩ := List.mem_map.1 hv
  unfold fileSample
  have h2 : leVal (slice m (2 * j) 2) < 65536 := by
    refine lt_of_lt_of_le (leVal_lt (IsBytes.slice hb (2 * j) 2)) ?_
    refine le_trans (Nat.pow_le_pow_right (by norm_num) (?_ : _ ≤ 2)) (by norm_num)
    unfold slice; rw [List.length_take]; exact min_le_left _ _
  generalize leVal (slice m (2 * j) 2) = v at *
  simp only
  unfold InI16
  split <;> omega

theorem straight_congr {v w : Int → Int} {y : ℚ} (h0 : v ⌊y⌋ = w ⌊y⌋) (h1 : v (⌊y⌋ + 1) = w (⌊y⌋ + 1)) : straight v y = straight w y := by
  unfold straight; rw [h0, h1]

/-- What one update after another sends, with either interpolation, in terms of what the reader computes. -/
theorem smooth_ok {m : List Nat} (hb : IsBytes m) {start D nch : Nat} (hdata : start + D ≤ m.length) {r : Rd} (h3 : r.header = (start / 2 : Nat)) (h4 : r.nch = nch)
    (h5 : r.fileSamples = (D / 2 / nch : Nat)) : ∀ i, r.header ≤ i → i < r.header + r.fileSamples * r.nch →
      (0 ≤ i ∧ i < (samplesOf m).length) ∧ InI16 ((samplesOf m).getD i.toNat 0) := by
  intro i i0 i1
  rw [h3] at i0 i1
  rw [h4, h5] at i1
  have hmul : ((D / 2 / nch : Nat) : Int) * nch ≤ (D / 2 : Nat) := by exact_mod_cast Nat.div_mul_le_self _ _
  have hsl : ((samplesOf m).length : Int) = (m.length : Int) / 2 := by unfold samplesOf; simp
  exact ⟨⟨by omega, by rw [hsl]; omega⟩, samplesOf_in hb i⟩

/-- **C86** (cubic; partial: rates up to one, at most eight channels).  A WAV file (16 bit, data chunk in the file, at an even
byte) played forwards with cubic interpolation at a rate `r ≤ 1` from position `x`, any blocks being allocated at each update and
each event serviced before the next: at instant `t`, as long as `⌊x + t r⌋` is a frame of the data chunk, the sample sent is
within 2 of the saturated cubic through the four frames of the data chunk around `x + t r - 2`; silence until four frames
have been used and after the end, where the player stops. -/
theorem C86_cubic_partial (fp : Fp) (hfp : Representable fp) (g : Geo) (hB : g.B < 16384) (hNB : g.N * g.B ≤ 2 ^ 30) (a : FileReader) {m : List Nat}
    (hb : IsBytes m) (hm : m.length < 2 ^ 31) (past : Bool) (junk : List Nat) (hj : junk.length = 36) (hg : GoodHeader m)
    (hdep : leVal (slice m 34 2) = 16) {off : Nat} (hda : DataAt m off) (heven : off % 2 = 0) {nch D : Nat} (hn : leVal (slice m 22 2) = nch)
    (hc : 1 ≤ nch) (h8 : nch ≤ 8)
    (hD : leVal (slice m (off + 4) 4) = D) (hdata : off + 8 + D ≤ m.length) (hroom : off + 8 < m.length) {mm : Int} (hset : SmoothSettings a.rd 1)
    (hi : a.rd.interp = .quadratic) (hrate : 0 < a.rd.rate) {p : Nat} (hgrid : GridRate p a.rd.rate) (hrem : OnGrid p a.rd.rem)
    (hstart : a.rd.playStart = .arbitrary → 0 ≤ a.rd.playbackStart ∧ a.rd.playbackStart ≤ (D / 2 / nch : Nat))
    (hmm0 : 0 ≤ mm) (hmm : 2 * mm + 1 ≤ g.N) (hadv : 128 * (nch * (1 + 1)) + nch ≤ mm * g.B) (nullOk : Bool) {fuel : Nat} (hf : g.N ≤ fuel + 2) :
    ∃ a' out, a.playWav g (some ⟨m, 0, past⟩) junk = .ok (true, a') ∧
      Sends fp g nullOk (fuel + 2) a' out nch (instants (D / 2 / nch : Nat) (startFrame a.rd + a.rd.rem) a.rd.rate) ∧
      CubicSound (channelOf m (off + 8) nch) nch (D / 2 / nch : Nat) (startFrame a.rd + a.rd.rem) a.rd.rate out := by
  obtain ⟨a', k0, k1, k2, k3, k4, k5, k6, k7, k8, k9⟩ := smooth_opened fp hfp g hB hNB a hb hm past junk hj hg hdep hda hn hc h8 hD hdata hroom hset
    (by rw [hi]; decide) hgrid hrem hstart hmm0 hmm hadv nullOk hf
  have hx0 : 0 ≤ (startFrame a.rd : ℚ) + a.rd.rem := k7.x0
  have hr1 : a.rd.rate ≤ 1 := by exact_mod_cast hset.rateR
  obtain ⟨x, hx⟩ : ∃ x : ℚ, x = startFrame a.rd + a.rd.rem := ⟨_, rfl⟩
  rw [← hx] at hx0 k7 ⊢
  have hb1 : -1 ≤ ⌊x - a.rd.rate⌋ := Int.le_floor.2 (by push_cast; linarith)
  have hstep := cubic_chanStep fp (arraySrcIs (samplesOf m)) (p := p) (R := 1) (r0 := a'.rd) (ρ := a.rd.rate) (b := ⌊x - a.rd.rate⌋) hrate (by rw [k6, hi])
    (by rw [k2]; omega) hb1 (smooth_ok hb hdata k3 k2 k4)
  have hread := smooth_read (x := x) (H := (off + 8) / 2) (nch := nch) hstep k2 (le_of_lt hrate) fuel
  rw [k4] at hread
  refine ⟨a', _, k0, sends_read k9 hread hc k1 k2 k3 ⟨by simpa using k7, SameConf.refl _, k5, fun c hcc => ?_⟩, ?_⟩
  · rw [k2] at hcc
    rw [k8 c (by omega), Nat.cast_zero, zero_mul, add_zero]
    refine ⟨le_refl _, by rw [sub_self]; rfl, ?_⟩
    simp only [Vals]
    refine ⟨fun h => by omega, fun h => by omega, fun h => by omega, fun h => by omega⟩
  · clear hj hdep hg hn hD k9 k0 hread hstep
    intro t ch hch hF
    have hy0 : 0 ≤ x + (t : ℚ) * a.rd.rate := by positivity
    rw [k3, k2]
    beta_reduce
    generalize x + (t : ℚ) * a.rd.rate = y at *
    refine ⟨fun h => cubicOut_silent fp _ h, fun h => ?_⟩
    have hf3 : ⌊x - a.rd.rate⌋ + 4 ≤ ⌊y⌋ := Int.le_floor.2 (by exact_mod_cast h)
    have hnear := cubicOut_near fp (w := smp (fun j => (samplesOf m).getD j.toNat 0) ((off + 8) / 2 : Nat) nch ch) h (fun i _ _ => samplesOf_in hb _)
    have hE : off + 8 + 2 * (D / 2 / nch * nch) ≤ m.length := by have := Nat.div_mul_le_self (D / 2) nch; omega
    have hw : ∀ i : Int, 0 ≤ i → i ≤ ⌊y⌋ → smp (fun j => (samplesOf m).getD j.toNat 0) ((off + 8) / 2 : Nat) nch ch i = channelOf m (off + 8) nch ch i :=
      fun i i0 i1 => smp_channel (by omega) hch hE i0 (by omega)
    have e2 : ⌊y - 2⌋ = ⌊y⌋ - 2 := by have := Int.floor_sub_intCast y 2; push_cast at this; exact this
    have hs : smooth (smp (fun j => (samplesOf m).getD j.toNat 0) ((off + 8) / 2 : Nat) nch ch) (y - 2) = smooth (channelOf m (off + 8) nch ch) (y - 2) := by
      unfold smooth
      rw [e2, hw _ (by omega) (by omega), hw _ (by omega) (by omega), hw _ (by omega) (by omega), hw _ (by omega) (by omega)]
    rw [hs] at hnear
    exact hnear

/-- **C86** (linear; partial likewise).  With linear interpolation: one frame behind, on the straight line between two frames of the
data chunk.  At rates that are multiples of `2^-38` the exact straight line, truncated.  Exactly on the first frame, whatever the
reader held from the sound before. -/
theorem C86_linear_partial (fp : Fp) (hfp : Representable fp) (g : Geo) (hB : g.B < 16384) (hNB : g.N * g.B ≤ 2 ^ 30) (a : FileReader) {m : List Nat}
    (hb : IsBytes m) (hm : m.length < 2 ^ 31) (past : Bool) (junk : List Nat) (hj : junk.length = 36) (hg : GoodHeader m)
    (hdep : leVal (slice m 34 2) = 16) {off : Nat} (hda : DataAt m off) (heven : off % 2 = 0) {nch D : Nat} (hn : leVal (slice m 22 2) = nch)
    (hc : 1 ≤ nch) (h8 : nch ≤ 8)
    (hD : leVal (slice m (off + 4) 4) = D) (hdata : off + 8 + D ≤ m.length) (hroom : off + 8 < m.length) {mm : Int} (hset : SmoothSettings a.rd 1)
    (hi : a.rd.interp = .linear) (hrate : 0 < a.rd.rate) {p : Nat} (hgrid : GridRate p a.rd.rate) (hrem : OnGrid p a.rd.rem)
    (hstart : a.rd.playStart = .arbitrary → 0 ≤ a.rd.playbackStart ∧ a.rd.playbackStart ≤ (D / 2 / nch : Nat))
    (hmm0 : 0 ≤ mm) (hmm : 2 * mm + 1 ≤ g.N) (hadv : 128 * (nch * (1 + 1)) + nch ≤ mm * g.B) (nullOk : Bool) {fuel : Nat} (hf : g.N ≤ fuel + 2) :
    ∃ a' out, a.playWav g (some ⟨m, 0, past⟩) junk = .ok (true, a') ∧
      Sends fp g nullOk (fuel + 2) a' out nch (instants (D / 2 / nch : Nat) (startFrame a.rd + a.rd.rem) a.rd.rate) ∧
      LinearSound (channelOf m (off + 8) nch) (fun c => (a.rd.pts c).y1) nch (D / 2 / nch : Nat) (startFrame a.rd + a.rd.rem) a.rd.rate out ∧
      (p ≤ 38 → ∀ t ch : Nat, ch < nch → ⌊(startFrame a.rd + a.rd.rem : ℚ) + t * a.rd.rate⌋ < (D / 2 / nch : Nat) →
        ⌊(startFrame a.rd + a.rd.rem : ℚ) - a.rd.rate⌋ + 2 ≤ (startFrame a.rd + a.rd.rem : ℚ) + t * a.rd.rate →
        out t ch = trunc (straight (channelOf m (off + 8) nch ch) (startFrame a.rd + a.rd.rem + t * a.rd.rate - 1))) := by
  obtain ⟨a', k0, k1, k2, k3, k4, k5, k6, k7, k8, k9⟩ := smooth_opened fp hfp g hB hNB a hb hm past junk hj hg hdep hda hn hc h8 hD hdata hroom hset
    (by rw [hi]; decide) hgrid hrem hstart hmm0 hmm hadv nullOk hf
  have hx0 : 0 ≤ (startFrame a.rd : ℚ) + a.rd.rem := k7.x0
  have hr1 : a.rd.rate ≤ 1 := by exact_mod_cast hset.rateR
  have hxg : OnGrid p ((startFrame a.rd : ℚ) + a.rd.rem) := k7.xgrid
  obtain ⟨x, hx⟩ : ∃ x : ℚ, x = startFrame a.rd + a.rd.rem := ⟨_, rfl⟩
  rw [← hx] at hx0 hxg k7 ⊢
  have hb1 : -1 ≤ ⌊x - a.rd.rate⌋ := Int.le_floor.2 (by push_cast; linarith)
  have hstep := linear_chanStep fp (arraySrcIs (samplesOf m)) (p := p) (R := 1) (r0 := a'.rd) (ρ := a.rd.rate) (b := ⌊x - a.rd.rate⌋)
    (fun c => (a.rd.pts c).y1) hrate hr1 (by rw [k6, hi]) (by rw [k2]; omega) hb1 (smooth_ok hb hdata k3 k2 k4)
  have hread := smooth_read (x := x) (H := (off + 8) / 2) (nch := nch) hstep k2 (le_of_lt hrate) fuel
  rw [k4] at hread
  have hE : off + 8 + 2 * (D / 2 / nch * nch) ≤ m.length := by clear hD hn hdep; have := Nat.div_mul_le_self (D / 2) nch; omega
  have hw : ∀ ch < nch, ∀ i : Int, 0 ≤ i → i < (D / 2 / nch : Nat) →
      smp (fun j => (samplesOf m).getD j.toNat 0) ((off + 8) / 2 : Nat) nch ch i = channelOf m (off + 8) nch ch i :=
    fun ch hch i i0 i1 => smp_channel (by omega) hch hE i0 i1
  have hst : ∀ ch < nch, ∀ y : ℚ, 1 ≤ ⌊y⌋ → ⌊y⌋ < (D / 2 / nch : Nat) →
      straight (smp (fun j => (samplesOf m).getD j.toNat 0) ((off + 8) / 2 : Nat) nch ch) (y - 1) = straight (channelOf m (off + 8) nch ch) (y - 1) := by
    intro ch hch y y1 yF
    have e1 : ⌊y - 1⌋ = ⌊y⌋ - 1 := Int.floor_sub_one y
    exact straight_congr (by rw [e1]; exact hw ch hch _ (by omega) (by omega)) (by rw [e1]; exact hw ch hch _ (by omega) (by omega))
  refine ⟨a', _, k0, sends_read k9 hread hc k1 k2 k3 ⟨by simpa using k7, SameConf.refl _, k5, fun c hcc => ?_⟩, ?_, ?_⟩
  · rw [k2] at hcc
    rw [k8 c (by omega), Nat.cast_zero, zero_mul, add_zero]
    refine ⟨le_refl _, by rw [sub_self]; rfl, fun _ => rfl, fun h => ?_, fun h => ?_⟩ <;> simp only at h <;> omega
  · clear hj hdep hg hn hD k9 k0 hread hstep
    intro t ch hch hF
    have hy0 : 0 ≤ x + (t : ℚ) * a.rd.rate := by positivity
    rw [k3, k2]
    beta_reduce
    generalize x + (t : ℚ) * a.rd.rate = y at *
    have hyf := Int.floor_nonneg.2 hy0
    refine ⟨fun h => ?_, fun h => ?_, fun h => (linearOut_start fp _ _ h).2⟩
    · have hf3 : ⌊x - a.rd.rate⌋ + 2 ≤ ⌊y⌋ := Int.le_floor.2 (by exact_mod_cast h)
      have hnear := linearOut_near fp (w := smp (fun j => (samplesOf m).getD j.toNat 0) ((off + 8) / 2 : Nat) nch ch) ((a.rd.pts ch).y1) h (samplesOf_in hb _)
        (samplesOf_in hb _)
      rw [hst ch hch y (by omega) hF] at hnear
      rw [← hw ch hch (⌊y⌋ - 1) (by omega) (by omega), ← hw ch hch ⌊y⌋ (by omega) hF]
      exact hnear
    · rw [← hw ch hch ⌊y⌋ hyf hF]
      exact (linearOut_start fp _ _ h).1
  · clear hj hdep hg hn hD k9 k0 hread hstep
    intro hp t ch hch hF h
    have hyg : OnGrid p (x + (t : ℚ) * a.rd.rate) := by
      obtain ⟨k, hk⟩ := hgrid.grid
      refine hxg.add ⟨t * k, ?_⟩
      rw [hk]; push_cast; ring
    rw [k3, k2]
    generalize x + (t : ℚ) * a.rd.rate = y at *
    have hf3 : ⌊x - a.rd.rate⌋ + 2 ≤ ⌊y⌋ := Int.le_floor.2 (by exact_mod_cast h)
    rw [← hst ch hch y (by omega) hF]
    exact linearOut_exact fp _ h (samplesOf_in hb _) (samplesOf_in hb _) hp hyg

/-- **C86** (normal speed, linear interpolation, started on a frame).  The sound is delayed by exactly one frame: at instant `t` frame
`s + t - 1`, where at `t = 0` the output is what the reader held from the sound before. -/
theorem C86_delay (fp : Fp) (hfp : Representable fp) (g : Geo) (hB : g.B < 16384) (hNB : g.N * g.B ≤ 2 ^ 30) (a : FileReader) {m : List Nat}
    (hb : IsBytes m) (hm : m.length < 2 ^ 31) (past : Bool) (junk : List Nat) (hj : junk.length = 36) (hg : GoodHeader m)
    (hdep : leVal (slice m 34 2) = 16) {off : Nat} (hda : DataAt m off) (heven : off % 2 = 0) {nch D : Nat} (hn : leVal (slice m 22 2) = nch)
    (hc : 1 ≤ nch) (h8 : nch ≤ 8)
    (hD : leVal (slice m (off + 4) 4) = D) (hdata : off + 8 + D ≤ m.length) (hroom : off + 8 < m.length) {mm : Int} (hset : SmoothSettings a.rd 1)
    (hi : a.rd.interp = .linear) (hrate : a.rd.rate = 1) (hrem : a.rd.rem = 0) {s : Nat} (hs : startFrame a.rd = s) (hsF : s ≤ D / 2 / nch)
    (hmm0 : 0 ≤ mm) (hmm : 2 * mm + 1 ≤ g.N) (hadv : 128 * (nch * (1 + 1)) + nch ≤ mm * g.B) (nullOk : Bool) {fuel : Nat} (hf : g.N ≤ fuel + 2) :
    ∃ a', a.playWav g (some ⟨m, 0, past⟩) junk = .ok (true, a') ∧
      Sends fp g nullOk (fuel + 2) a' (fun t ch => if t = 0 then (a.rd.pts ch).y1 else dataSample m (off + 8) ((s + t - 1) * nch + ch)) nch
        (fun t => if s + t < D / 2 / nch then some t else none) := by
  obtain ⟨a', out, k0, k1, k2, k3⟩ := C86_linear_partial fp hfp g hB hNB a hb hm past junk hj hg hdep hda heven hn hc h8 hD hdata hroom hset hi
    (by rw [hrate]; norm_num) (p := 0) (by rw [hrate]; exact ⟨by norm_num, ⟨1, by norm_num⟩, by norm_num, by norm_num⟩)
    (by rw [hrem]; simpa using OnGrid.int 0 0)
    (fun e => by unfold startFrame at hs; rw [if_pos e] at hs; rw [hs]; exact ⟨Int.natCast_nonneg _, by exact_mod_cast hsF⟩) hmm0 hmm hadv nullOk hf
  refine ⟨a', k0, ?_⟩
  clear k0 hj hdep hg hn hD
  rw [hs, hrate, hrem] at k1 k2 k3
  have hpos : ∀ t : Nat, (((s : Nat) : Int) : ℚ) + 0 + (t : ℚ) * 1 = ((s + t : Nat) : ℚ) := fun t => by push_cast; ring
  have hfl : ∀ t : Nat, ⌊(((s : Nat) : Int) : ℚ) + 0 + (t : ℚ) * 1⌋ = ((s + t : Nat) : Int) := fun t => by rw [hpos]; simp
  have hbf : ⌊(((s : Nat) : Int) : ℚ) + 0 - 1⌋ = (s : Int) - 1 := by
    rw [add_zero, Int.floor_sub_one, Int.floor_intCast]
  have hp : instants (D / 2 / nch : Nat) (((s : Nat) : Int) + 0) 1 = fun t => if s + t < D / 2 / nch then some t else none := by
    funext t
    unfold instants
    rw [hfl]
    by_cases h : s + t < D / 2 / nch
    · rw [if_pos (by exact_mod_cast h), if_pos h]
    · rw [if_neg (by exact_mod_cast h), if_neg h]
  rw [hp] at k1
  refine k1.congr hc fun t i ch hti hch => ?_
  split at hti
  · rename_i hlt
    cases hti
    have hF : ⌊(((s : Nat) : Int) : ℚ) + 0 + (t : ℚ) * 1⌋ < (D / 2 / nch : Nat) := by rw [hfl]; exact_mod_cast hlt
    by_cases ht : t = 0
    · rw [if_pos ht]
      refine (k2 t ch hch hF).2.2 ?_ ?_
      · rw [hbf, hpos, ht]; push_cast; linarith
      · rw [hfl, hpos]; simp
    · rw [if_neg ht]
      have h2 := k3 (by norm_num) t ch hch hF (by
        rw [hbf, hpos]
        have : (1 : ℚ) ≤ t := by exact_mod_cast Nat.one_le_iff_ne_zero.2 ht
        push_cast; linarith)
      have e1 : (((s : Nat) : Int) : ℚ) + 0 + (t : ℚ) * 1 - 1 = ((s + t - 1 : Nat) : ℚ) := by
        rw [hpos, Nat.cast_sub (by omega)]; push_cast; ring
      rw [h2, e1]
      unfold straight channelOf
      rw [show ⌊((s + t - 1 : Nat) : ℚ)⌋ = ((s + t - 1 : Nat) : Int) by simp, Int.toNat_natCast]
      rw [show ((s + t - 1 : Nat) : ℚ) - (((s + t - 1 : Nat) : Int) : ℚ) = 0 by simp, sub_zero, one_mul, zero_mul, add_zero, trunc_int]
  · cases hti

/-! ## Whole files (C69) -/

theorem channelOf_audio {m audio : List Nat} {start nch : Nat} (h : ∀ j, 2 * j + 2 ≤ audio.length → dataSample m start j = dataSample audio 0 j) {ch : Nat} (hch : ch < nch)
    {i : Int} (h0 : 0 ≤ i) (h1 : i < (audio.length / 2 / nch : Nat)) : channelOf m start nch ch i = channelOf audio 0 nch ch i := by
  unfold channelOf
  refine h _ ?_
  have h2 : i.toNat + 1 ≤ audio.length / 2 / nch := by omega
  have h3 : (i.toNat + 1) * nch ≤ audio.length / 2 := le_trans (Nat.mul_le_mul_right _ h2) (Nat.div_mul_le_self _ _)
  rw [Nat.add_mul, Nat.one_mul] at h3
  omega

/-- **C69, partial** (cubic interpolation).  A well-formed 16-bit file of the expected shape, played with cubic interpolation at a rate
up to one, sounds as its audio says, whatever the other chunks hold. -/
theorem C69_cubic_partial (fp : Fp) (hfp : Representable fp) (g : Geo) (hB : g.B < 16384) (hNB : g.N * g.B ≤ 2 ^ 30) (a : FileReader)
    {f : Fields} {before : List Chunk} {audio : List Nat} {after : List Chunk} (hw : WellFormed f [] before audio after)
    (hx : Expected [] before) (h8 : f.channels ≤ 8) (past : Bool) (junk : List Nat) (hj : junk.length = 36) (hroom : 0 < audio.length) {mm : Int}
    (hset : SmoothSettings a.rd 1)
    (hi : a.rd.interp = .quadratic) (hrate : 0 < a.rd.rate) {p : Nat} (hgrid : GridRate p a.rd.rate) (hrem : OnGrid p a.rd.rem)
    (hstart : a.rd.playStart = .arbitrary → 0 ≤ a.rd.playbackStart ∧ a.rd.playbackStart ≤ (audio.length / 2 / f.channels : Nat))
    (hmm0 : 0 ≤ mm) (hmm : 2 * mm + 1 ≤ g.N) (hadv : 128 * (f.channels * (1 + 1)) + f.channels ≤ mm * g.B) (nullOk : Bool) {fuel : Nat} (hf : g.N ≤ fuel + 2) :
    ∃ a' out, a.playWav g (some ⟨riffWav f [] before audio after, 0, past⟩) junk = .ok (true, a') ∧
      Sends fp g nullOk (fuel + 2) a' out f.channels (instants (audio.length / 2 / f.channels : Nat) (startFrame a.rd + a.rd.rem) a.rd.rate) ∧
      CubicSound (channelOf audio 0 f.channels) f.channels (audio.length / 2 / f.channels : Nat) (startFrame a.rd + a.rd.rem) a.rd.rate out := by
  obtain ⟨off, pre, post, hda, -⟩ := expected_split hw hx
  obtain ⟨r1, r2, r3, r4, r5, r6, r7⟩ := riff_facts hw hx hda
  obtain ⟨a', out, k1, k2, k3⟩ := C86_cubic_partial fp hfp g hB hNB a (riffWav_bytes hw) hw.small past junk hj r2 r3 hda r1 r4 hw.channels h8 r5 r6 (by omega)
    hset hi hrate hgrid hrem hstart hmm0 hmm hadv nullOk hf
  refine ⟨a', out, k1, k2, fun t ch hch hF => ⟨(k3 t ch hch hF).1, fun h => ?_⟩⟩
  have h2 := (k3 t ch hch hF).2 h
  have hs0 : 0 ≤ startFrame a.rd := by
    unfold startFrame; split
    · rename_i e; exact (hstart e).1
    · exact le_refl _
  have hb1 : -1 ≤ ⌊(startFrame a.rd : ℚ) + a.rd.rem - a.rd.rate⌋ := by
    have := hset.rem0 (by rw [hi]; decide)
    have : a.rd.rate ≤ 1 := by exact_mod_cast hset.rateR
    have : (0 : ℚ) ≤ startFrame a.rd := by exact_mod_cast hs0
    exact Int.le_floor.2 (by push_cast; linarith)
  clear k1 k2 k3 r2 r3 r4 r5
  generalize (startFrame a.rd : ℚ) + a.rd.rem + (t : ℚ) * a.rd.rate = y at *
  have hf3 : ⌊(startFrame a.rd : ℚ) + a.rd.rem - a.rd.rate⌋ + 4 ≤ ⌊y⌋ := Int.le_floor.2 (by exact_mod_cast h)
  have e2 : ⌊y - 2⌋ = ⌊y⌋ - 2 := by have := Int.floor_sub_intCast y 2; push_cast at this; exact this
  have hs : smooth (channelOf (riffWav f [] before audio after) (off + 8) f.channels ch) (y - 2) = smooth (channelOf audio 0 f.channels ch) (y - 2) := by
    unfold smooth
    rw [e2, channelOf_audio r7 hch (by omega) (by omega), channelOf_audio r7 hch (by omega) (by omega), channelOf_audio r7 hch (by omega) (by omega),
      channelOf_audio r7 hch (by omega) (by omega)]
  rw [hs] at h2
  exact h2

/-- **C69, partial** (linear interpolation).  Likewise. -/
theorem C69_linear_partial (fp : Fp) (hfp : Representable fp) (g : Geo) (hB : g.B < 16384) (hNB : g.N * g.B ≤ 2 ^ 30) (a : FileReader)
    {f : Fields} {before : List Chunk} {audio : List Nat} {after : List Chunk} (hw : WellFormed f [] before audio after)
    (hx : Expected [] before) (h8 : f.channels ≤ 8) (past : Bool) (junk : List Nat) (hj : junk.length = 36) (hroom : 0 < audio.length) {mm : Int}
    (hset : SmoothSettings a.rd 1)
    (hi : a.rd.interp = .linear) (hrate : 0 < a.rd.rate) {p : Nat} (hgrid : GridRate p a.rd.rate) (hrem : OnGrid p a.rd.rem)
    (hstart : a.rd.playStart = .arbitrary → 0 ≤ a.rd.playbackStart ∧ a.rd.playbackStart ≤ (audio.length / 2 / f.channels : Nat))
    (hmm0 : 0 ≤ mm) (hmm : 2 * mm + 1 ≤ g.N) (hadv : 128 * (f.channels * (1 + 1)) + f.channels ≤ mm * g.B) (nullOk : Bool) {fuel : Nat} (hf : g.N ≤ fuel + 2) :
    ∃ a' out, a.playWav g (some ⟨riffWav f [] before audio after, 0, past⟩) junk = .ok (true, a') ∧
      Sends fp g nullOk (fuel + 2) a' out f.channels (instants (audio.length / 2 / f.channels : Nat) (startFrame a.rd + a.rd.rem) a.rd.rate) ∧
      LinearSound (channelOf audio 0 f.channels) (fun c => (a.rd.pts c).y1) f.channels (audio.length / 2 / f.channels : Nat) (startFrame a.rd + a.rd.rem)
        a.rd.rate out := by
  obtain ⟨off, pre, post, hda, -⟩ := expected_split hw hx
  obtain ⟨r1, r2, r3, r4, r5, r6, r7⟩ := riff_facts hw hx hda
  obtain ⟨a', out, k1, k2, k3, -⟩ := C86_linear_partial fp hfp g hB hNB a (riffWav_bytes hw) hw.small past junk hj r2 r3 hda r1 r4 hw.channels h8 r5 r6 (by omega)
    hset hi hrate hgrid hrem hstart hmm0 hmm hadv nullOk hf
  refine ⟨a', out, k1, k2, fun t ch hch hF => ?_⟩
  have h2 := k3 t ch hch hF
  have hs0 : 0 ≤ startFrame a.rd := by
    unfold startFrame; split
    · rename_i e; exact (hstart e).1
    · exact le_refl _
  have hx0 : 0 ≤ (startFrame a.rd : ℚ) + a.rd.rem := by
    have := hset.rem0 (by rw [hi]; decide)
    have : (0 : ℚ) ≤ startFrame a.rd := by exact_mod_cast hs0
    linarith
  have hb1 : -1 ≤ ⌊(startFrame a.rd : ℚ) + a.rd.rem - a.rd.rate⌋ := by
    have : a.rd.rate ≤ 1 := by exact_mod_cast hset.rateR
    exact Int.le_floor.2 (by push_cast; linarith)
  have hy0 : 0 ≤ (startFrame a.rd : ℚ) + a.rd.rem + (t : ℚ) * a.rd.rate := by positivity
  clear k1 k2 k3 r2 r3 r4 r5
  generalize (startFrame a.rd : ℚ) + a.rd.rem + (t : ℚ) * a.rd.rate = y at *
  have hyf := Int.floor_nonneg.2 hy0
  have e1 : ⌊y - 1⌋ = ⌊y⌋ - 1 := Int.floor_sub_one y
  refine ⟨fun h => ?_, fun h h' => ?_, h2.2.2⟩
  · have hf3 : ⌊(startFrame a.rd : ℚ) + a.rd.rem - a.rd.rate⌋ + 2 ≤ ⌊y⌋ := Int.le_floor.2 (by exact_mod_cast h)
    have h3 := h2.1 h
    rw [straight_congr (v := channelOf (riffWav f [] before audio after) (off + 8) f.channels ch) (w := channelOf audio 0 f.channels ch)
      (by rw [e1]; exact channelOf_audio r7 hch (by omega) (by omega)) (by rw [e1]; exact channelOf_audio r7 hch (by omega) (by omega)),
      channelOf_audio r7 hch (i := ⌊y⌋ - 1) (by omega) (by omega), channelOf_audio r7 hch hyf hF] at h3
    exact h3
  · rw [h2.2.1 h h']
    exact channelOf_audio r7 hch hyf hF

/-! ## Examples -/

/-- The example file with cubic interpolation at three quarters of the speed. -/
example := C86_cubic_partial Fp.ieee ieee_representable sdGeo (by decide) (by decide) exSmooth exWav_bytes (by decide) false (List.replicate 36 7) (by decide)
    (by decide) (by decide) (off := 48) ⟨Or.inr ⟨by decide, by decide⟩, by decide, by decide⟩ (by decide) (nch := 2) (D := 8) (by decide) (by decide) (by decide)
    (by decide) (by decide) (by decide) (mm := 1) exSmooth_settings rfl (by norm_num [exSmooth]) (p := 2)
    ⟨by norm_num, ⟨3, by norm_num [exSmooth]⟩, by norm_num [exSmooth, abs_of_pos], by norm_num [exSmooth, abs_of_pos]⟩
    (by simpa [exSmooth] using OnGrid.int 2 0) (by intro h; cases h) (by decide) (by decide) (by decide) true (fuel := 5) (by decide)

/-- A player with linear interpolation at normal speed that has played something before. -/
def exLeft99 : FileReader := { rd := { rate := 1, interp := .linear, pts := fun _ => { n := 2, y0 := 3, y1 := 99 } } }

theorem exLeft99_settings : SmoothSettings exLeft99.rd 1 where
  dual := rfl
  loop := rfl
  rate0 := by norm_num [exLeft99]
  rateR := by norm_num [exLeft99]
  flt := exHalf_settings.flt
  frac := by norm_num [exLeft99]
  rem0 := fun _ => le_refl _
  linear := fun _ h => by norm_num [exLeft99] at h
  cubic := fun h => by cases h
  pts := fun _ => by simp [exLeft99, InI16]

example := C86_linear_partial Fp.ieee ieee_representable sdGeo (by decide) (by decide) exLeft99 exWav_bytes (by decide) false (List.replicate 36 7) (by decide)
    (by decide) (by decide) (off := 48) ⟨Or.inr ⟨by decide, by decide⟩, by decide, by decide⟩ (by decide) (nch := 2) (D := 8) (by decide) (by decide) (by decide)
    (by decide) (by decide) (by decide) (mm := 1) exLeft99_settings rfl (by norm_num [exLeft99]) (p := 0)
    ⟨by norm_num, ⟨1, by norm_num [exLeft99]⟩, by norm_num [exLeft99], by norm_num [exLeft99]⟩
    (by simpa [exLeft99] using OnGrid.int 0 0) (by intro h; cases h) (by decide) (by decide) (by decide) true (fuel := 5) (by decide)

/-- A file with other chunks before and after the sound. -/
example := C69_cubic_partial Fp.ieee ieee_representable sdGeo (by decide) (by decide) exSmooth exRiff_good ⟨rfl, Or.inr ⟨_, rfl, by decide⟩⟩ (by decide) false
    (List.replicate 36 7) (by decide) (by decide) (mm := 1) exSmooth_settings rfl (by norm_num [exSmooth]) (p := 2)
    ⟨by norm_num, ⟨3, by norm_num [exSmooth]⟩, by norm_num [exSmooth, abs_of_pos], by norm_num [exSmooth, abs_of_pos]⟩
    (by simpa [exSmooth] using OnGrid.int 2 0) (by intro h; cases h) (by decide) (by decide) (by decide) true (fuel := 5) (by decide)

example := C69_linear_partial Fp.ieee ieee_representable sdGeo (by decide) (by decide) exLeft99 exRiff_good ⟨rfl, Or.inr ⟨_, rfl, by decide⟩⟩ (by decide) false
    (List.replicate 36 7) (by decide) (by decide) (mm := 1) exLeft99_settings rfl (by norm_num [exLeft99]) (p := 0)
    ⟨by norm_num, ⟨1, by norm_num [exLeft99]⟩, by norm_num [exLeft99], by norm_num [exLeft99]⟩
    (by simpa [exLeft99] using OnGrid.int 0 0) (by intro h; cases h) (by decide) (by decide) (by decide) true (fuel := 5) (by decide)

theorem exLeft99_delay : ∃ a', exLeft99.playWav sdGeo (some ⟨exWav, 0, false⟩) (List.replicate 36 7) = .ok (true, a') ∧
    Sends Fp.ieee sdGeo true (5 + 2) a' (fun t ch => if t = 0 then (exLeft99.rd.pts ch).y1 else dataSample exWav (48 + 8) ((0 + t - 1) * 2 + ch)) 2
      (fun t => if 0 + t < 8 / 2 / 2 then some t else none) :=
  C86_delay Fp.ieee ieee_representable sdGeo (by decide) (by decide) exLeft99 exWav_bytes (by decide) false (List.replicate 36 7) (by decide)
    (by decide) (by decide) (off := 48) ⟨Or.inr ⟨by decide, by decide⟩, by decide, by decide⟩ (by decide) (nch := 2) (D := 8) (by decide) (by decide) (by decide)
    (by decide) (by decide) (by decide) (mm := 1) exLeft99_settings rfl rfl rfl (s := 0) rfl (by decide) (by decide) (by decide) (by decide) true (by decide)

/-- **C86, refuted** ("what is heard are the frames of the file"): with linear interpolation at normal speed the first instant is the
last value held from the sound before and the last frame is never heard.  The file's frames are (1, 2) and (3, 4). -/
theorem C86_refuted : ∃ a', exLeft99.playWav sdGeo (some ⟨exWav, 0, false⟩) (List.replicate 36 7) = .ok (true, a') ∧ ∃ a'',
    a'.ticks Fp.ieee sdGeo true 7 [fun _ => true] = .ok ([
      { allocated := [0, 1], transmitted := [([99, 1] ++ List.replicate 126 0, 0), ([99, 2] ++ List.replicate 126 0, 1)],
        released := [0, 1], event := some .close }], a'') := by
  obtain ⟨a', h1, h2⟩ := exLeft99_delay
  obtain ⟨a'', h3, -⟩ := h2 [fun _ => true]
  refine ⟨a', h1, a'', h3.trans ?_⟩
  congr 2

end TVP
