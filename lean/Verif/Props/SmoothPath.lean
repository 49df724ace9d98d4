import Verif.Lemmas.Unroll
import Verif.Props.Smooth

/-!
# Property C86: with interpolation, backwards and in loops
-/

namespace TVP
open Spec

theorem dataSample_in {m : List Nat} (hb : IsBytes m) (start j : Nat) : InI16 (dataSample m start j) := by
  unfold dataSample
  have h2 : leVal (slice m (start + 2 * j) 2) < 65536 := by
    refine lt_of_lt_of_le (leVal_lt (IsBytes.slice hb (start + 2 * j) 2)) ?_
    refine le_trans (Nat.pow_le_pow_right (by norm_num) (?_ : _ ≤ 2)) (by norm_num)
    unfold slice; rw [List.length_take]; exact min_le_left _ _
  generalize leVal (slice m (start + 2 * j) 2) = v at *
  simp only
  unfold InI16
  split <;> omega

/-- What is sent with interpolation `k` when the material met is `w`, position `x + t r` of it at instant `t`. -/
def Interpolated (k : Interp) (w : Nat → Int → Int) (held : Nat → Int) (nch p : Nat) (F : Int) (x r : ℚ) (out : Nat → Nat → Int) : Prop :=
  (k = .linear → LinearSound w held nch F x r out ∧
    (p ≤ 38 → ∀ t ch : Nat, ch < nch → ⌊x + t * r⌋ < F → ⌊x - r⌋ + 2 ≤ x + t * r → out t ch = trunc (straight (w ch) (x + t * r - 1)))) ∧
  (k = .quadratic → CubicSound w nch F x r out)

/-- What the interpolation makes of the samples `w` at position `y`, having begun behind frame `b`. -/
def interpOut (fp : Fp) (k : Interp) (w : Int → Int) (held : Int) (b : Int) (y : ℚ) : Int :=
  match k with
  | .none => w ⌊y⌋
  | .linear => linearOut fp w held b y
  | .quadratic => cubicOut fp w b y

/-- The outputs at every instant, exactly. -/
def Exactly (fp : Fp) (k : Interp) (w : Nat → Int → Int) (held : Nat → Int) (x r : ℚ) (out : Nat → Nat → Int) : Prop :=
  ∀ t ch : Nat, out t ch = interpOut fp k (w ch) (held ch) ⌊x - r⌋ (x + t * r)

theorem Exactly.interpolated {fp : Fp} {k : Interp} {w : Nat → Int → Int} {held : Nat → Int} {x r : ℚ} {out : Nat → Nat → Int} (h : Exactly fp k w held x r out)
    (hW : ∀ ch i, InI16 (w ch i)) {p : Nat} (hg : OnGrid p r) (hx : OnGrid p x) (nch : Nat) (N : Int) : Interpolated k w held nch p N x r out := by
  have hygrid : ∀ t : Nat, OnGrid p (x + t * r) := by
    intro t
    obtain ⟨a, ha⟩ := hx
    obtain ⟨b, hb⟩ := hg
    refine ⟨a + t * b, ?_⟩
    rw [ha, hb]; push_cast; ring
  refine ⟨fun hk => ⟨fun t ch hch _ => ?_, fun hp t ch hch _ h1 => ?_⟩, fun hk t ch hch _ => ?_⟩ <;> rw [h t ch, hk] <;> unfold interpOut <;> simp only
  · exact ⟨fun h => linearOut_near fp _ h (hW _ _) (hW _ _), (fun h => (linearOut_start fp _ _ h).1), (fun h => (linearOut_start fp _ _ h).2)⟩
  · exact linearOut_exact fp _ h1 (hW _ _) (hW _ _) hp (hygrid t)
  · exact ⟨fun h => cubicOut_silent fp _ h, fun h => cubicOut_near fp h (fun i _ _ => hW _ _)⟩

theorem channelOf_in {m : List Nat} (hb : IsBytes m) (start nch ch : Nat) (i : Int) : InI16 (channelOf m start nch ch i) := dataSample_in hb _ _

/-- From the frames met to the outputs. -/
theorem virtual_sends {fp : Fp} {g : Geo} {nullOk : Bool} {fuel : Nat} {a a' : FileReader} {m : List Nat} {start nch p : Nat} {path : Nat → Option Nat}
    {Live : Nat → Rd → Prop} {k : Interp} {x ρ : ℚ} (hb : IsBytes m) (hlike : LikeInMemory fp g nullOk (fuel + 2) (a'.withInterp k) m)
    (hT : Turns fp (samplesOf m) (start / 2) nch path Live) (hk : k ≠ .none) (heven : start % 2 = 0) (hn : 1 ≤ nch) (h8 : nch ≤ 8)
    (hρ : 0 < ρ) (hρ1 : ρ ≤ 1) (hg : GridRate p ρ) (hx : OnGrid p x)
    (hplay : a'.rd.playing = true) (hc : a'.rd.nch = nch) (hH : a'.rd.header = (start / 2 : Nat)) (hi : a'.rd.interp = .none)
    (hpts : ∀ c < 8, a'.rd.pts c = { a.rd.pts c with n := 0 }) (hl : Live 0 a'.rd)
    (hloop : ∀ {t r}, Live t r → r.loopType ≠ .pingpong) (hhead : ∀ {t r}, Live t r → Heads ρ (x + t * ρ) r)
    (F : Int → Int) (hF : ∀ t i, path t = some i → (F ⌊x + t * ρ⌋).toNat = i) :
    ∃ out, Sends fp g nullOk (fuel + 2) (a'.withInterp k) out nch (awake path) ∧
      Exactly fp k (fun ch i => channelOf m start nch ch (F i)) (fun c => (a.rd.pts c).y1) x ρ out := by
  have hW : ∀ ch i, InI16 (channelOf m start nch ch (F i)) := fun ch i => dataSample_in hb _ _
  have hval : ∀ t i c, path t = some i → c < nch → start / 2 + (i + 1) * nch ≤ (samplesOf m).length →
      (samplesOf m).getD (start / 2 + i * nch + c) 0 = channelOf m start nch c (F ⌊x + t * ρ⌋) := by
    intro t i c hi hcc hle
    have hsl : (samplesOf m).length = m.length / 2 := by unfold samplesOf; simp
    rw [hsl, Nat.add_mul, Nat.one_mul] at hle
    unfold channelOf
    rw [hF t i hi, samplesOf_getD (by omega), add_assoc, ← fileSample_data m heven]
  have hrest : ({ (a'.withInterp k).rd with interp := .none, pts := a'.rd.pts } : Rd) = a'.rd := by
    unfold FileReader.withInterp Rd.setInterp
    rw [← hi]
  cases k with
  | none => exact absurd rfl hk
  | linear =>
    have hstep := linear_virtual fp (data := samplesOf m) (fun c => (a.rd.pts c).y1) (b := ⌊x - ρ⌋) hρ hρ1 h8 hg hW
    refine ⟨_, sends_read hlike (hT.virtual_read hstep hn hx hg.grid hloop hhead hval fuel a'.rd.pts) hn hplay hc hH ⟨?_, rfl, fun c hcc => ?_⟩, fun t ch => rfl⟩
    · rw [hrest]; exact hl
    · show LinearGood _ _ ρ _ _ c (a'.rd.pts c)
      rw [hpts c (by omega), Nat.cast_zero, zero_mul, add_zero]
      refine ⟨le_refl _, by rw [sub_self]; rfl, fun _ => rfl, fun h => ?_, fun h => ?_⟩ <;> simp only at h <;> omega
  | quadratic =>
    have hstep := cubic_virtual fp (data := samplesOf m) (b := ⌊x - ρ⌋) hρ hρ1 h8 hg hW
    refine ⟨_, sends_read hlike (hT.virtual_read hstep hn hx hg.grid hloop hhead hval fuel a'.rd.pts) hn hplay hc hH ⟨?_, rfl, fun c hcc => ?_⟩, fun t ch => rfl⟩
    · rw [hrest]; exact hl
    · show CubicGood _ ρ _ _ c (a'.rd.pts c)
      rw [hpts c (by omega), Nat.cast_zero, zero_mul, add_zero]
      refine ⟨le_refl _, by rw [sub_self]; rfl, ?_⟩
      simp only [Vals]
      refine ⟨fun h => by omega, fun h => by omega, fun h => by omega, fun h => by omega⟩

theorem loop_smooth (fp : Fp) (hfp : Representable fp) (k : Interp) (hk : k ≠ .none) (g : Geo) (hB : g.B < 16384) (hNB : g.N * g.B ≤ 2 ^ 30) (a : FileReader) {m : List Nat}
    (hb : IsBytes m) (hm : m.length < 2 ^ 31) (past : Bool) (junk : List Nat) (hj : junk.length = 36) (hg : GoodHeader m)
    (hdep : leVal (slice m 34 2) = 16) {off : Nat} (hda : DataAt m off) (heven : off % 2 = 0) {nch : Nat} (hn : leVal (slice m 22 2) = nch)
    (hc : 1 ≤ nch) (h8 : nch ≤ 8) {mm : Int} (hset : RepeatSettings a.rd 1) (hpos : 0 < a.rd.rate) {p : Nat} (hgrid : GridRate p a.rd.rate)
    (hrem : OnGrid p a.rd.rem) (hrem0 : 0 ≤ a.rd.rem) (hpts : PtsOk a.rd)
    (hloop : GoodLoop g m ((off + 8) / 2 : Nat) nch a.rd.loopStart a.rd.loopFinish (firstFrame a.rd))
    (hmm0 : 0 ≤ mm) (hmm : 2 * mm + 5 ≤ g.N) (hadv : 128 * (nch * 2) ≤ mm * g.B) (nullOk : Bool) {fuel : Nat} (hf : g.N ≤ fuel + 2) :
    ∃ a' out, (a.withInterp k).playWav g (some ⟨m, 0, past⟩) junk = .ok (true, a') ∧ Sends fp g nullOk (fuel + 2) a' out nch (fun t => some t) ∧
      Exactly fp k (fun ch i => channelOf m (off + 8) nch ch (unroll a.rd.loopStart a.rd.loopFinish i)) (fun c => (a.rd.pts c).y1) (firstFrame a.rd + a.rd.rem) a.rd.rate out := by
  obtain ⟨a', k0, -, k1, k2, k3, k4, k5, -⟩ := loop_opened fp hfp g hB hNB a hb hm past junk hj hg hdep hda heven hn hc (by omega) hset hgrid hrem hrem0 hloop hmm0 hmm hadv
    nullOk hf
  obtain ⟨a2, e1, -, -, -, -, -, -, -, -, -, e9⟩ := C72_loop_wav_partial fp hfp g hB hNB a hb hm past junk hj hg hdep hda hn hc (by omega) hset hloop hmm0 hmm hadv nullOk hf
  obtain rfl : a' = a2 := by
    rw [k0] at e1
    exact (Prod.mk.inj (Except.ok.inj e1)).2
  obtain ⟨c1, c2⟩ := C82_open_partial hfp hb (k := k) (hset.gentle (fun _ => hrem0) hpts) e1 e9 (fun _ _ _ _ h => h) (by rw [k2]; omega) (by rw [k2]; omega)
  have hop := playWav_opens k0
  have hr1 : a.rd.rate ≤ 1 := by exact_mod_cast hset.rateR
  have hrem1 : a.rd.rem < 1 := lt_of_abs_lt hset.frac
  have hfl : ⌊((firstFrame a.rd : Int) : ℚ) + a.rd.rem⌋ = firstFrame a.rd := by
    rw [Int.floor_eq_iff]; constructor <;> linarith
  obtain ⟨-, hAZ, -, hq0, hq1, -⟩ := hloop
  have hx : ⌊((firstFrame a.rd : Int) : ℚ) + a.rd.rem⌋ < a.rd.loopFinish := by rw [hfl]; exact hq1
  obtain ⟨out, s1, s2⟩ := virtual_sends hb c2.plain k5 hk (by omega) hc h8 hpos hr1 hgrid ((OnGrid.int p _).add hrem) k1 k2 k3 (hop.2.1.trans hset.plain.interp)
    (playWav_pts k0) k4 (fun h => by obtain ⟨y, h, -⟩ := h; rw [h.looping.loop]; decide) (fun h => h.heads hAZ hx (le_of_lt hpos) hr1)
    (unroll a.rd.loopStart a.rd.loopFinish) (fun t i hi => by
      rw [← (loopAt_unroll hAZ hx (le_of_lt hpos) hr1 t).1]
      exact Option.some.inj hi)
  exact ⟨_, out, c1, s1, s2⟩

/-- **C86** (repeated loops; partial: rates up to one, at most eight channels).  With either interpolation a loop from frame `A` to
frame `E` sounds as if the frames were laid out one after another in the order they are met and played forwards: no trace of the
jump, the interpolation goes from the last frame of the loop to the first one. -/
theorem C86_loop_partial (fp : Fp) (hfp : Representable fp) (k : Interp) (hk : k ≠ .none) (g : Geo) (hB : g.B < 16384) (hNB : g.N * g.B ≤ 2 ^ 30) (a : FileReader) {m : List Nat}
    (hb : IsBytes m) (hm : m.length < 2 ^ 31) (past : Bool) (junk : List Nat) (hj : junk.length = 36) (hg : GoodHeader m)
    (hdep : leVal (slice m 34 2) = 16) {off : Nat} (hda : DataAt m off) (heven : off % 2 = 0) {nch : Nat} (hn : leVal (slice m 22 2) = nch)
    (hc : 1 ≤ nch) (h8 : nch ≤ 8) {mm : Int} (hset : RepeatSettings a.rd 1) (hpos : 0 < a.rd.rate) {p : Nat} (hgrid : GridRate p a.rd.rate)
    (hrem : OnGrid p a.rd.rem) (hrem0 : 0 ≤ a.rd.rem) (hpts : PtsOk a.rd)
    (hloop : GoodLoop g m ((off + 8) / 2 : Nat) nch a.rd.loopStart a.rd.loopFinish (firstFrame a.rd))
    (hmm0 : 0 ≤ mm) (hmm : 2 * mm + 5 ≤ g.N) (hadv : 128 * (nch * 2) ≤ mm * g.B) (nullOk : Bool) {fuel : Nat} (hf : g.N ≤ fuel + 2) :
    ∃ a' out, (a.withInterp k).playWav g (some ⟨m, 0, past⟩) junk = .ok (true, a') ∧ Sends fp g nullOk (fuel + 2) a' out nch (fun t => some t) ∧
      ∀ N, Interpolated k (fun ch i => channelOf m (off + 8) nch ch (unroll a.rd.loopStart a.rd.loopFinish i)) (fun c => (a.rd.pts c).y1) nch p N
        (firstFrame a.rd + a.rd.rem) a.rd.rate out := by
  obtain ⟨a', out, h1, h2, h3⟩ := loop_smooth fp hfp k hk g hB hNB a hb hm past junk hj hg hdep hda heven hn hc h8 hset hpos hgrid hrem hrem0 hpts hloop hmm0 hmm hadv nullOk hf
  exact ⟨a', out, h1, h2, h3.interpolated (fun _ _ => channelOf_in hb _ _ _ _) hgrid.grid ((OnGrid.int p _).add hrem) nch⟩

theorem loop_back_smooth (fp : Fp) (hfp : Representable fp) (k : Interp) (hk : k ≠ .none) (g : Geo) (hB : g.B < 16384) (hNB : g.N * g.B ≤ 2 ^ 30) (a : FileReader) {m : List Nat}
    (hb : IsBytes m) (hm : m.length < 2 ^ 31) (past : Bool) (junk : List Nat) (hj : junk.length = 36) (hg : GoodHeader m)
    (hdep : leVal (slice m 34 2) = 16) {off : Nat} (hda : DataAt m off) (heven : off % 2 = 0) {nch : Nat} (hn : leVal (slice m 22 2) = nch)
    (hc : 1 ≤ nch) (h8 : nch ≤ 8) {mm : Int} (hset : RepeatBackSettings fp a.rd 1) {p : Nat} {ρ : ℚ} (hrate : a.rd.rate = -ρ) (hgrid : GridRate p ρ)
    (hrem : OnGrid p a.rd.rem) (hrem0 : a.rd.rem ≤ 0) (hpts : PtsOk a.rd) {s : Nat}
    (hP : StartsBackAt a.rd ((m.length : Int) / 2) ((off + 8) / 2 : Nat) a.rd.loopFinish nch ((off + 8) / 2 + s * nch : Nat))
    (hloop : GoodLoopBack g m ((off + 8) / 2 : Nat) nch a.rd.loopStart a.rd.loopFinish ((off + 8) / 2 + s * nch : Nat))
    (hmm0 : 0 ≤ mm) (hmm : 2 * mm + 5 ≤ g.N) (hadv : 128 * (nch * 2) + nch * nch ≤ mm * g.B) (nullOk : Bool) {fuel : Nat} (hf : g.N ≤ fuel + 2) :
    ∃ a' out, (a.withInterp k).playWav g (some ⟨m, 0, past⟩) junk = .ok (true, a') ∧ Sends fp g nullOk (fuel + 2) a' out nch (fun t => some t) ∧
      Exactly fp k (fun ch i => channelOf m (off + 8) nch ch (unrollBack a.rd.loopStart (a.rd.loopFinish - nch) i)) (fun c => (a.rd.pts c).y1) (-(s + a.rd.rem)) ρ out := by
  obtain ⟨a', M, k0, hρ, hsA, -, k1, k2, k3, k4, k5, -⟩ := loop_back_opened fp hfp g hB hNB a hb hm past junk hj hg hdep hda heven hn hc (by omega) hset hrate hgrid hrem hrem0
    hP hloop hmm0 hmm hadv nullOk hf
  obtain ⟨a2, e1, -, -, -, -, -, -, -, -, -, e9⟩ := C72_loop_back_wav_partial fp hfp g hB hNB a hb hm past junk hj hg hdep hda hn hc (by omega) hset hP hloop hmm0 hmm hadv nullOk hf
  obtain rfl : a' = a2 := by
    rw [k0] at e1
    exact (Prod.mk.inj (Except.ok.inj e1)).2
  obtain ⟨c1, c2⟩ := C82_open_partial hfp hb (k := k) (hset.gentle (fun _ => hrem0) hpts) e1 e9 (fun _ _ _ _ h => h) (by rw [k2]; omega) (by rw [k2]; omega)
  have hop := playWav_opens k0
  have hr1 : ρ ≤ 1 := by have := hset.rateR; push_cast at this; linarith
  have hrem1 : -1 < a.rd.rem := neg_lt_of_abs_lt hset.frac
  have hcl : ⌈((s : Nat) : ℚ) + a.rd.rem⌉ = (s : Int) := by
    rw [Int.ceil_eq_iff]; constructor <;> push_cast <;> linarith
  obtain ⟨-, hAZ, -, -, -, -, -, -⟩ := hloop
  have hAT : a.rd.loopStart ≤ a.rd.loopFinish - nch := by omega
  have hx : a.rd.loopStart ≤ ⌈((s : Nat) : ℚ) + a.rd.rem⌉ := by rw [hcl]; exact hsA
  have hxg : OnGrid p (-((s : ℚ) + a.rd.rem)) := by
    have h1 : OnGrid p ((s : ℚ) + a.rd.rem) := by simpa using (OnGrid.int p (s : Int)).add hrem
    simpa using (OnGrid.int p 0).sub h1
  obtain ⟨out, s1, s2⟩ := virtual_sends hb c2.plain k5 hk (by clear hn hdep; omega) hc h8 hρ hr1 hgrid hxg k1 k2 k3 (hop.2.1.trans hset.plain.interp)
    (playWav_pts k0) k4 (fun h => by obtain ⟨y, h, -⟩ := h; rw [h.looping.loop]; decide) (fun h => h.heads hAT hx (le_of_lt hρ) hr1)
    (unrollBack a.rd.loopStart (a.rd.loopFinish - nch)) (fun t i hi => by
      rw [← (loopBackAt_unroll hAT hx (le_of_lt hρ) hr1 t).1]
      exact Option.some.inj hi)
  exact ⟨_, out, c1, s1, s2⟩

/-- **C86** (repeated loops, backwards; partial likewise).  The frames of the loop are met in the order `nch` frames before its end,
…, its first frame, and round again. -/
theorem C86_loop_back_partial (fp : Fp) (hfp : Representable fp) (k : Interp) (hk : k ≠ .none) (g : Geo) (hB : g.B < 16384) (hNB : g.N * g.B ≤ 2 ^ 30) (a : FileReader) {m : List Nat}
    (hb : IsBytes m) (hm : m.length < 2 ^ 31) (past : Bool) (junk : List Nat) (hj : junk.length = 36) (hg : GoodHeader m)
    (hdep : leVal (slice m 34 2) = 16) {off : Nat} (hda : DataAt m off) (heven : off % 2 = 0) {nch : Nat} (hn : leVal (slice m 22 2) = nch)
    (hc : 1 ≤ nch) (h8 : nch ≤ 8) {mm : Int} (hset : RepeatBackSettings fp a.rd 1) {p : Nat} {ρ : ℚ} (hrate : a.rd.rate = -ρ) (hgrid : GridRate p ρ)
    (hrem : OnGrid p a.rd.rem) (hrem0 : a.rd.rem ≤ 0) (hpts : PtsOk a.rd) {s : Nat}
    (hP : StartsBackAt a.rd ((m.length : Int) / 2) ((off + 8) / 2 : Nat) a.rd.loopFinish nch ((off + 8) / 2 + s * nch : Nat))
    (hloop : GoodLoopBack g m ((off + 8) / 2 : Nat) nch a.rd.loopStart a.rd.loopFinish ((off + 8) / 2 + s * nch : Nat))
    (hmm0 : 0 ≤ mm) (hmm : 2 * mm + 5 ≤ g.N) (hadv : 128 * (nch * 2) + nch * nch ≤ mm * g.B) (nullOk : Bool) {fuel : Nat} (hf : g.N ≤ fuel + 2) :
    ∃ a' out, (a.withInterp k).playWav g (some ⟨m, 0, past⟩) junk = .ok (true, a') ∧ Sends fp g nullOk (fuel + 2) a' out nch (fun t => some t) ∧
      ∀ N, Interpolated k (fun ch i => channelOf m (off + 8) nch ch (unrollBack a.rd.loopStart (a.rd.loopFinish - nch) i)) (fun c => (a.rd.pts c).y1) nch p N
        (-(s + a.rd.rem)) ρ out := by
  obtain ⟨a', out, h1, h2, h3⟩ := loop_back_smooth fp hfp k hk g hB hNB a hb hm past junk hj hg hdep hda heven hn hc h8 hset hrate hgrid hrem hrem0 hpts hP hloop hmm0 hmm hadv nullOk hf
  have hxg : OnGrid p (-((s : ℚ) + a.rd.rem)) := by
    have h1 : OnGrid p ((s : ℚ) + a.rd.rem) := by simpa using (OnGrid.int p (s : Int)).add hrem
    simpa using (OnGrid.int p 0).sub h1
  exact ⟨a', out, h1, h2, h3.interpolated (fun _ _ => channelOf_in hb _ _ _ _) hgrid.grid hxg nch⟩

theorem back_smooth (fp : Fp) (hfp : Representable fp) (k : Interp) (hk : k ≠ .none) (g : Geo) (hB : g.B < 16384) (hNB : g.N * g.B ≤ 2 ^ 30) (a : FileReader) {m : List Nat}
    (hb : IsBytes m) (hm : m.length < 2 ^ 31) (past : Bool) (junk : List Nat) (hj : junk.length = 36) (hg : GoodHeader m)
    (hdep : leVal (slice m 34 2) = 16) {off : Nat} (hda : DataAt m off) (heven : off % 2 = 0) {nch D : Nat} (hn : leVal (slice m 22 2) = nch)
    (hc : 1 ≤ nch) (h8 : nch ≤ 8) (hD : leVal (slice m (off + 4) 4) = D) (hdata : off + 8 + D ≤ m.length)
    {mm : Int} (hset : BackwardSettings fp a.rd 1) {p : Nat} {ρ : ℚ} (hrate : a.rd.rate = -ρ) (hgrid : GridRate p ρ) (hrem : OnGrid p a.rd.rem)
    (hrem0 : a.rd.rem ≤ 0) (hpts : PtsOk a.rd) {s : Nat} (hs : s < D / 2 / nch)
    (hP : StartsBackAt a.rd ((m.length : Int) / 2) ((off + 8) / 2 : Nat) (D / 2 / nch : Nat) nch ((off + 8) / 2 + s * nch : Nat))
    (hgood : GoodStart g m ((off + 8) / 2 : Nat) nch ((off + 8) / 2 + s * nch : Nat))
    (hmm0 : 0 ≤ mm) (hmm : 2 * mm + 1 ≤ g.N) (hadv : 128 * (nch * 2) ≤ mm * g.B) (nullOk : Bool) {fuel : Nat} (hf : g.N ≤ fuel + 2) :
    ∃ a' out, (a.withInterp k).playWav g (some ⟨m, 0, past⟩) junk = .ok (true, a') ∧ Sends fp g nullOk (fuel + 2) a' out nch (instants 1 (-(s + a.rd.rem)) ρ) ∧
      Exactly fp k (fun ch i => channelOf m (off + 8) nch ch (-i)) (fun c => (a.rd.pts c).y1) (-(s + a.rd.rem)) ρ out := by
  obtain ⟨a', k0, hρ, -, k1, k2, k3, k4, k5, -⟩ := back_opened fp hfp g hB hNB a hb hm past junk hj hg hdep hda heven hn hc (by omega) hD hdata hset hrate hgrid hrem hrem0 hs hP hgood
    hmm0 hmm hadv nullOk hf
  obtain ⟨a2, e1, -, -, -, -, -, -, -, e8⟩ := C72_back_wav_partial fp hfp g hB hNB a hb hm past junk hj hg hdep hda hn hc (by omega) hD hdata hset hP hgood hmm0 hmm hadv nullOk
    (fuel := fuel + 1) (by omega)
  obtain rfl : a' = a2 := by
    rw [k0] at e1
    exact (Prod.mk.inj (Except.ok.inj e1)).2
  obtain ⟨c1, c2⟩ := C82_open_partial hfp hb (k := k) (hset.gentle (fun _ => hrem0) hpts) e1 e8 (fun _ _ _ _ h => h) (by rw [k2]; omega) (by rw [k2]; omega)
  have hop := playWav_opens k0
  have hr1 : ρ ≤ 1 := by have := hset.rateR; push_cast at this; linarith
  have hxg : OnGrid p (-((s : ℚ) + a.rd.rem)) := by
    have h1 : OnGrid p ((s : ℚ) + a.rd.rem) := by simpa using (OnGrid.int p (s : Int)).add hrem
    simpa using (OnGrid.int p 0).sub h1
  have hcl : ∀ t : Nat, ⌊-((s : ℚ) + a.rd.rem) + t * ρ⌋ = -⌈(s : ℚ) + a.rd.rem - t * ρ⌉ := by
    intro t
    rw [show -((s : ℚ) + a.rd.rem) + t * ρ = -((s : ℚ) + a.rd.rem - t * ρ) by ring, Int.floor_neg]
  obtain ⟨out, s1, s2⟩ := virtual_sends hb c2.plain k5 hk (by clear hn hdep hD; omega) hc h8 hρ hr1 hgrid hxg k1 k2 k3 (hop.2.1.trans hset.plain.interp)
    (playWav_pts k0) k4 (fun h => by rw [h.1.loop]; decide) (fun h => h.heads) (fun i => -i) (fun t i hi => by
      rw [hcl, neg_neg]
      unfold backPath at hi
      split at hi
      · exact Option.some.inj hi
      · cases hi)
  refine ⟨_, out, c1, ?_, s2⟩
  have e : awake (backPath ((s : ℚ) + a.rd.rem) ρ 0) = instants 1 (-((s : ℚ) + a.rd.rem)) ρ := by
    funext t
    unfold awake instants backPath
    rw [hcl]
    by_cases h : 0 ≤ ⌈(s : ℚ) + a.rd.rem - t * ρ⌉
    · have h2 : -⌈(s : ℚ) + a.rd.rem - t * ρ⌉ < 1 := by linarith
      rw [if_pos h, if_pos h2]; rfl
    · have h2 : ¬ -⌈(s : ℚ) + a.rd.rem - t * ρ⌉ < 1 := by
        intro h3; exact h (by linarith [Int.lt_iff_add_one_le.1 h3])
      rw [if_neg h, if_neg h2]; rfl
  rw [← e]; exact s1

/-- **C86** (backwards; partial likewise).  Backwards from frame `s`, the material is met in reverse: at instant `t` the position is
`s - f - t ρ`, and the interpolation is that of the reversed material played forwards, one (or two) frames behind; until the first
frame has been passed. -/
theorem C86_back_partial (fp : Fp) (hfp : Representable fp) (k : Interp) (hk : k ≠ .none) (g : Geo) (hB : g.B < 16384) (hNB : g.N * g.B ≤ 2 ^ 30) (a : FileReader) {m : List Nat}
    (hb : IsBytes m) (hm : m.length < 2 ^ 31) (past : Bool) (junk : List Nat) (hj : junk.length = 36) (hg : GoodHeader m)
    (hdep : leVal (slice m 34 2) = 16) {off : Nat} (hda : DataAt m off) (heven : off % 2 = 0) {nch D : Nat} (hn : leVal (slice m 22 2) = nch)
    (hc : 1 ≤ nch) (h8 : nch ≤ 8) (hD : leVal (slice m (off + 4) 4) = D) (hdata : off + 8 + D ≤ m.length)
    {mm : Int} (hset : BackwardSettings fp a.rd 1) {p : Nat} {ρ : ℚ} (hrate : a.rd.rate = -ρ) (hgrid : GridRate p ρ) (hrem : OnGrid p a.rd.rem)
    (hrem0 : a.rd.rem ≤ 0) (hpts : PtsOk a.rd) {s : Nat} (hs : s < D / 2 / nch)
    (hP : StartsBackAt a.rd ((m.length : Int) / 2) ((off + 8) / 2 : Nat) (D / 2 / nch : Nat) nch ((off + 8) / 2 + s * nch : Nat))
    (hgood : GoodStart g m ((off + 8) / 2 : Nat) nch ((off + 8) / 2 + s * nch : Nat))
    (hmm0 : 0 ≤ mm) (hmm : 2 * mm + 1 ≤ g.N) (hadv : 128 * (nch * 2) ≤ mm * g.B) (nullOk : Bool) {fuel : Nat} (hf : g.N ≤ fuel + 2) :
    ∃ a' out, (a.withInterp k).playWav g (some ⟨m, 0, past⟩) junk = .ok (true, a') ∧ Sends fp g nullOk (fuel + 2) a' out nch (instants 1 (-(s + a.rd.rem)) ρ) ∧
      ∀ N, Interpolated k (fun ch i => channelOf m (off + 8) nch ch (-i)) (fun c => (a.rd.pts c).y1) nch p N (-(s + a.rd.rem)) ρ out := by
  obtain ⟨a', out, h1, h2, h3⟩ := back_smooth fp hfp k hk g hB hNB a hb hm past junk hj hg hdep hda heven hn hc h8 hD hdata hset hrate hgrid hrem hrem0 hpts hs hP hgood hmm0 hmm hadv nullOk hf
  have hxg : OnGrid p (-((s : ℚ) + a.rd.rem)) := by
    have h1 : OnGrid p ((s : ℚ) + a.rd.rem) := by simpa using (OnGrid.int p (s : Int)).add hrem
    simpa using (OnGrid.int p 0).sub h1
  exact ⟨a', out, h1, h2, h3.interpolated (fun _ _ => channelOf_in hb _ _ _ _) hgrid.grid hxg nch⟩

/-! ## Examples -/

/-- Frames 500 to `z` repeated at three quarters of the speed, starting at the given frame. -/
def exThreeLoop (z q : Int) : FileReader := { rd := { rate := 3 / 4, loopType := .repeat, loopStart := 500, loopFinish := z, playStart := .arbitrary, playbackStart := q } }

theorem exThreeLoop_settings (z q : Int) : RepeatSettings (exThreeLoop z q).rd 1 :=
  ⟨⟨rfl, rfl⟩, rfl, by norm_num [exThreeLoop], by norm_num [exThreeLoop], by
    show IsFloat 53 (-1074) 0
    simpa using Rounding.isFloat_of (p := 53) (emin := -1074) (by norm_num) (m := 0) (e := 0) (by norm_num) (by norm_num), by norm_num [exThreeLoop]⟩

/-- A loop of four hundred frames of the long stereo file, with linear interpolation. -/
example : ∃ a' out, ((exThreeLoop 900 500).withInterp .linear).playWav sdGeo (some ⟨exLongWav, 0, false⟩) (List.replicate 36 7) = .ok (true, a') ∧
    Sends Fp.ieee sdGeo true (5 + 2) a' out 2 (fun t => some t) ∧
    ∀ N, Interpolated .linear (fun ch i => channelOf exLongWav (48 + 8) 2 ch (unroll 500 900 i)) (fun c => ((exThreeLoop 900 500).rd.pts c).y1) 2 2 N
      ((firstFrame (exThreeLoop 900 500).rd : Int) + (exThreeLoop 900 500).rd.rem) (3 / 4) out :=
  C86_loop_partial Fp.ieee ieee_representable .linear (by decide) sdGeo (by decide) (by decide) (exThreeLoop 900 500) exLongWav_bytes (by rw [exLongWav_length]; decide) false
    (List.replicate 36 7) (by decide) (by decide +kernel) (by decide +kernel) (off := 48)
    ⟨Or.inr ⟨by decide +kernel, by decide +kernel⟩, by decide +kernel, by rw [exLongWav_length]; decide⟩ (by decide) (nch := 2) (by decide +kernel) (by decide) (by decide)
    (exThreeLoop_settings 900 500) (by norm_num [exThreeLoop]) (p := 2)
    ⟨by norm_num, ⟨3, by norm_num [exThreeLoop]⟩, by norm_num [exThreeLoop, abs_of_pos], by norm_num [exThreeLoop, abs_of_pos]⟩
    (by simpa [exThreeLoop] using OnGrid.int 2 0) (by norm_num [exThreeLoop]) pts_new
    ⟨by decide, by decide, by rw [exLongWav_length]; decide, by decide, by decide, Or.inr ⟨by decide, by rw [exLongWav_length]; decide⟩⟩ (mm := 1)
    (by decide) (by decide) (by decide) true (by decide)

/-- Frames `s` to `z` repeated backwards at three quarters of the speed from the end of the loop. -/
def exThreeBack (s z : Int) : FileReader := { rd := { rate := -3 / 4, loopType := .repeat, loopStart := s, loopFinish := z, playStart := .loop } }

theorem exThreeBack_settings (s z : Int) : RepeatBackSettings Fp.ieee (exThreeBack s z).rd 1 :=
  ⟨⟨rfl, rfl⟩, rfl, by show Fp.ieee.f.rnd (-3 / 4) < 0; decide +kernel, by norm_num [exThreeBack], by
    show IsFloat 53 (-1074) 0
    simpa using Rounding.isFloat_of (p := 53) (emin := -1074) (by norm_num) (m := 0) (e := 0) (by norm_num) (by norm_num), by norm_num [exThreeBack],
    fun h => by cases h⟩

/-- A loop of many blocks at the beginning of the file, backwards and with cubic interpolation. -/
example : ∃ a' out, ((exThreeBack 0 8000).withInterp .quadratic).playWav sdGeo (some ⟨exLongWav, 0, false⟩) (List.replicate 36 7) = .ok (true, a') ∧
    Sends Fp.ieee sdGeo true (5 + 2) a' out 2 (fun t => some t) ∧
    ∀ N, Interpolated .quadratic (fun ch i => channelOf exLongWav (48 + 8) 2 ch (unrollBack 0 (8000 - (2 : Nat)) i)) (fun c => ((exThreeBack 0 8000).rd.pts c).y1) 2 2 N
      (-((7998 : Nat) + (exThreeBack 0 8000).rd.rem)) (3 / 4) out :=
  C86_loop_back_partial Fp.ieee ieee_representable .quadratic (by decide) sdGeo (by decide) (by decide) (exThreeBack 0 8000) exLongWav_bytes
    (by rw [exLongWav_length]; decide) false
    (List.replicate 36 7) (by decide) (by decide +kernel) (by decide +kernel) (off := 48)
    ⟨Or.inr ⟨by decide +kernel, by decide +kernel⟩, by decide +kernel, by rw [exLongWav_length]; decide⟩ (by decide) (nch := 2) (by decide +kernel) (by decide) (by decide)
    (exThreeBack_settings 0 8000) (p := 2) (by norm_num [exThreeBack]) ⟨by norm_num, ⟨3, by norm_num⟩, by norm_num [abs_of_pos], by norm_num [abs_of_pos]⟩
    (by simpa [exThreeBack] using OnGrid.int 2 0) (by norm_num [exThreeBack]) pts_new (s := 7998) (by show ((_ : Nat) : Int) = _; decide)
    ⟨by decide, by decide, by rw [exLongWav_length]; decide, by decide, by rw [exLongWav_length]; decide, by decide, by rw [exLongWav_length]; decide,
      Or.inl ⟨by decide, by decide⟩⟩ (mm := 1)
    (by decide) (by decide) (by decide) true (by decide)

/-- The short example file backwards at half speed. -/
example : ∃ a' out, (exMinusHalf.withInterp .linear).playWav sdGeo (some ⟨exWav, 0, false⟩) (List.replicate 36 7) = .ok (true, a') ∧
    Sends Fp.ieee sdGeo true (5 + 2) a' out 2 (instants 1 (-((1 : Nat) + exMinusHalf.rd.rem)) (1 / 2)) ∧
    ∀ N, Interpolated .linear (fun ch i => channelOf exWav (48 + 8) 2 ch (-i)) (fun c => (exMinusHalf.rd.pts c).y1) 2 1 N (-((1 : Nat) + exMinusHalf.rd.rem)) (1 / 2) out :=
  C86_back_partial Fp.ieee ieee_representable .linear (by decide) sdGeo (by decide) (by decide) exMinusHalf exWav_bytes (by decide) false (List.replicate 36 7) (by decide)
    (by decide) (by decide) (off := 48) ⟨Or.inr ⟨by decide, by decide⟩, by decide, by decide⟩ (by decide) (nch := 2) (D := 8) (by decide) (by decide) (by decide)
    (by decide) (by decide) (mm := 1) exMinusHalf_settings (p := 1) (ρ := 1 / 2) (by norm_num [exMinusHalf])
    ⟨by norm_num, ⟨1, by norm_num⟩, by norm_num [abs_of_pos], by norm_num [abs_of_pos]⟩ (by simpa [exMinusHalf] using OnGrid.int 1 0) (by norm_num [exMinusHalf]) pts_new
    (s := 1) (by decide) (by show ((_ : Nat) : Int) = _; decide) ⟨by decide, by decide, by decide, by decide⟩ (by decide) (by decide) (by decide) true (by decide)

/-- The order in which the frames of a loop of four frames are met, forwards from frame 1 and backwards from frame 3 of a mono file. -/
example : (List.range 9).map (fun t : Nat => unroll 2 6 (1 + t)) = [1, 2, 3, 4, 5, 2, 3, 4, 5] ∧
    (List.range 9).map (fun t : Nat => unrollBack 2 (6 - 1) (-3 + t)) = [3, 2, 5, 4, 3, 2, 5, 4, 3] := by decide

end TVP
