import Verif.Props.Path
import Verif.Lemmas.Swing

/-!
# C84, to and fro at any speed
-/

namespace TVP
open Spec

theorem swing_start {r : Rd} {q : Int} {nch : Nat} (hr0 : r.rate ≠ 0) (hfr : |r.rem| < 1) (hsign : 0 ≤ r.rem * r.rate) (hin : r.loopStart ≤ q)
    (hin' : r.rate < 0 → q + nch ≤ r.loopFinish) : (⟨q + r.rem, decide (0 < r.rate)⟩ : Swing).frame r.loopStart r.loopFinish nch = q := by
  have hfrac := abs_lt.1 hfr
  unfold Swing.frame
  rcases lt_or_gt_of_ne hr0 with h | h
  · have h1 : r.rem ≤ 0 := by
      by_contra hcc
      have := mul_neg_of_pos_of_neg (not_le.1 hcc) h
      linarith
    have h2 : ⌈(q : ℚ) + r.rem⌉ = q := by rw [Int.ceil_eq_iff]; constructor <;> linarith
    simp only [decide_eq_false (not_lt.2 (le_of_lt h)), Bool.false_eq_true, if_false]
    rw [h2, min_eq_left (by have := hin' h; omega)]
  · have h1 : 0 ≤ r.rem := by
      by_contra hcc
      have := mul_neg_of_neg_of_pos (not_le.1 hcc) h
      linarith
    have h2 : ⌊(q : ℚ) + r.rem⌋ = q := by rw [Int.floor_eq_iff]; constructor <;> linarith
    simp only [decide_eq_true h, if_true]
    rw [h2, max_eq_left hin]

/-- A player just opened, to and fro. -/
theorem swing_live {fp : Fp} {g : Geo} {nullOk : Bool} {fuel : Nat} {a a' : FileReader} {m : List Nat} (hm : m.length < 2 ^ 31) {start nch : Nat} (heven : start % 2 = 0)
    (hc : 1 ≤ nch) (hc' : nch ≤ 32767) {R : Int} (hset : PingSettings fp a.rd R) {p : Nat} (hgrid : GridRate p |a.rd.rate|) (hrem : OnGrid p a.rd.rem)
    (hsign : 0 ≤ a.rd.rem * a.rd.rate) (hwhole : a.rd.playStart = .sample → a.rd.loopStart = 0) {q : Int}
    (hin : a.rd.loopStart ≤ q) (hin' : a.rd.rate < 0 → q + nch ≤ a.rd.loopFinish)
    (hloop : GoodPing g m (0 ≤ a.rd.rate) (start / 2 : Nat) nch a.rd.loopStart a.rd.loopFinish ((start / 2 : Nat) + a.rd.loopStart * nch) R
      ((start / 2 : Nat) + q * nch)) (hop : Opens2 a.rd a') (k1 : a'.rd.playing = true) (k4 : a'.rd.loopType = .pingpong) (k2 : a'.rd.nch = nch)
    (k3 : a'.rd.header = (start / 2 : Nat)) (k5 : a'.rd.loopStart = a.rd.loopStart) (k6 : a'.rd.loopFinish = a.rd.loopFinish)
    (k7 : a'.rd.pos1 = (start / 2 : Nat) + q * nch) (k8 : a'.rd.rate = a.rd.rate) (k9 : a'.rd.rem = a.rd.rem)
    (k10 : LikeInMemory fp g nullOk (fuel + 2) a' m) :
    Sends fp g nullOk (fuel + 2) a' (fun i ch => dataSample m start (i * nch + ch)) nch
      (swingPath a.rd.loopStart a.rd.loopFinish nch ⟨q + a.rd.rem, decide (0 < a.rd.rate)⟩ |a.rd.rate|) := by
  have hr0 : a.rd.rate ≠ 0 := fun e => hset.rateF (by rw [e]; exact fp.f.exact_zero)
  have hn0 : (0 : Int) < nch := by exact_mod_cast hc
  obtain ⟨hA0, hAZ, hfile, hspeed, -, -, hupw, -⟩ := hloop
  have hv0 : 0 < |a.rd.rate| := abs_pos.2 hr0
  have hvR := hset.rateR
  have hqE : q < a.rd.loopFinish := by
    rcases lt_or_gt_of_ne hr0 with h | h
    · have := hin' h; omega
    · by_contra hcc
      have h2 := (hupw (le_of_lt h)).1
      have := mul_le_mul_of_nonneg_right (not_lt.1 hcc) (le_of_lt hn0)
      omega
  clear hupw
  have hx1 : ∀ E : Int, ((start / 2 : Nat) : Int) + nch * (E + 1) = (start / 2 : Nat) + E * nch + nch := fun E => by ring
  have hx2 : ((start / 2 : Nat) : Int) + nch * (a.rd.loopFinish + R + 1) = (start / 2 : Nat) + a.rd.loopFinish * nch + nch * (R + 1) := by ring
  have hsl : ((samplesOf m).length : Int) = (m.length : Int) / 2 := by unfold samplesOf; simp
  have hfrac := abs_lt.1 hset.frac
  have hR0 : (0 : ℚ) < R := lt_of_lt_of_le hv0 hvR
  have hAq : (a.rd.loopStart : ℚ) ≤ q := by exact_mod_cast hin
  have hqE' : (q : ℚ) + 1 ≤ a.rd.loopFinish := by exact_mod_cast hqE
  have hframe := swing_start hr0 hset.frac hsign hin hin'
  have hrange : (a.rd.loopStart : ℚ) - 1 < q + a.rd.rem := by linarith
  have hlive : Swings a.rd.loopStart a.rd.loopFinish p R ⟨q + a.rd.rem, decide (0 < a.rd.rate)⟩ |a.rd.rate| nch 0 a'.rd := by
    refine ⟨⟨q + a.rd.rem, decide (0 < a.rd.rate)⟩, ⟨⟨⟨hop.plain hset.plain k2 hc, ?_, by rw [k3]; exact Int.natCast_nonneg _, by rw [k5]; exact hA0,
      by rw [k5, k6]; omega, ?_⟩, k4, k5, k6⟩, ?_, ?_, ?_, (OnGrid.int p q).add hrem, ?_, ?_⟩, ?_⟩
    · rw [k7, k3, k2, hframe]
    · rw [k3, k2, k6, hx1]; omega
    · rw [hop.2.2.2.1, k5]
      by_cases hps : a.rd.playStart = .sample
      · exact Or.inr (hwhole hps)
      · exact Or.inl hps
    · rw [k8]
      rcases lt_or_gt_of_ne hr0 with h | h
      · simp only [decide_eq_false (not_lt.2 (le_of_lt h)), Bool.false_eq_true, if_false]
        rw [abs_of_neg h, neg_neg]
      · simp only [decide_eq_true h, if_true]
        rw [abs_of_pos h]
    · rw [k9, hframe]; ring
    · intro _
      exact ⟨hrange, by simp only; linarith⟩
    · intro h
      have h' : a.rd.rate < 0 := lt_of_le_of_ne (not_lt.1 (of_decide_eq_false h)) hr0
      have : (q : ℚ) ≤ ((a.rd.loopFinish - nch : Int) : ℚ) := by exact_mod_cast (show q ≤ a.rd.loopFinish - nch by have := hin' h'; omega)
      exact ⟨by simp only; linarith, by simp only; linarith⟩
    · unfold Swing.turn
      have hfl : ⌊(q : ℚ) + a.rd.rem⌋ < a.rd.loopFinish ∨ ¬ 0 < a.rd.rate := by
        by_cases h : 0 < a.rd.rate
        · left
          rw [Int.floor_lt]
          have h1 : a.rd.rem < 1 := hfrac.2
          linarith
        · exact Or.inr h
      have hcl : a.rd.loopStart ≤ ⌈(q : ℚ) + a.rd.rem⌉ := by
        have : a.rd.loopStart - 1 < ⌈(q : ℚ) + a.rd.rem⌉ := by rw [Int.lt_ceil]; push_cast; linarith
        omega
      by_cases h : 0 < a.rd.rate
      · simp only [decide_eq_true h, if_true, swingAt]
        rw [if_neg (by rcases hfl with h' | h' <;> [omega; exact absurd h h'])]
      · simp only [decide_eq_false h, Bool.false_eq_true, if_false, swingAt]
        rw [if_neg (by omega)]
  have hT := swing_turns (fp := fp) (data := samplesOf m) (H := start / 2) (nch := nch) (p := p) (w0 := ⟨q + a.rd.rem, decide (0 < a.rd.rate)⟩) hA0 hc hAZ hv0
    hvR hgrid (by rw [hx2]; omega) (by rw [hsl]; omega)
  refine sends_of k10 hT hc (by omega) k1 k2 k3 hlive ?_
  intro t i hi
  have h1 := swingAt_lt (v := |a.rd.rate|) hc hAZ (by rw [hframe]; exact hqE) t
  unfold swingPath at hi
  have hi' := Option.some.inj hi
  have : (i : Int) + 1 ≤ a.rd.loopFinish := by omega
  have := mul_le_mul_of_nonneg_right this (le_of_lt hn0)
  have hcast : (((i + 1) * nch : Nat) : Int) = ((i : Int) + 1) * nch := by push_cast; rfl
  omega

/-- **C84** (to and fro at any speed that is a multiple of a power of two, from either direction).  The position moves by the rate at
every instant; at or behind the end of the loop it turns and goes down from `nch` frames before the end, before the start of the loop it
turns and goes up from there, both times keeping the fraction of the position and nothing else of what it went too far. -/
theorem C84_swing_partial (fp : Fp) (hfp : Representable fp) (g : Geo) (hB : g.B < 16384) (hNB : g.N * g.B ≤ 2 ^ 30) (a : FileReader) {m : List Nat}
    (hb : IsBytes m) (hm : m.length < 2 ^ 31) (past : Bool) (junk : List Nat) (hj : junk.length = 36) (hg : GoodHeader m)
    (hdep : leVal (slice m 34 2) = 16) {off : Nat} (hda : DataAt m off) (heven : off % 2 = 0) {nch : Nat} (hn : leVal (slice m 22 2) = nch)
    (hc : 1 ≤ nch) (hc' : nch ≤ 32767) {R : Int} (hset : PingSettings fp a.rd R) {p : Nat} (hgrid : GridRate p |a.rd.rate|) (hrem : OnGrid p a.rd.rem)
    (hsign : 0 ≤ a.rd.rem * a.rd.rate) (hwhole : a.rd.playStart = .sample → a.rd.loopStart = 0) {q : Int}
    (hP : StartsPingAt a.rd ((m.length : Int) / 2) ((off + 8) / 2 : Nat) nch (((off + 8) / 2 : Nat) + q * nch))
    (hin : a.rd.loopStart ≤ q) (hin' : a.rd.rate < 0 → q + nch ≤ a.rd.loopFinish)
    (hloop : GoodPing g m (0 ≤ a.rd.rate) ((off + 8) / 2 : Nat) nch a.rd.loopStart a.rd.loopFinish (((off + 8) / 2 : Nat) + a.rd.loopStart * nch) R
      (((off + 8) / 2 : Nat) + q * nch)) (nullOk : Bool) {fuel : Nat} (hf : g.N ≤ fuel + 2) :
    ∃ a', a.playWav g (some ⟨m, 0, past⟩) junk = .ok (true, a') ∧
      Sends fp g nullOk (fuel + 2) a' (fun i ch => dataSample m (off + 8) (i * nch + ch)) nch
        (swingPath a.rd.loopStart a.rd.loopFinish nch ⟨q + a.rd.rem, decide (0 < a.rd.rate)⟩ |a.rd.rate|) := by
  obtain ⟨a', k0, k1, k4, k2, k3, k5, k6, k7, k8, k9, k10⟩ := C71_wav_partial fp hfp g hB hNB a hb hm past junk hj hg hdep hda hn hc hc' hset
    (P := ((off + 8) / 2 : Nat) + q * nch) (T := ((off + 8) / 2 : Nat) + a.rd.loopStart * nch) hP (by
      unfold TurnsBelowAt
      split
      · rename_i e; rw [hwhole e]; ring
      · rfl) hloop nullOk hf
  have hop := playWav_opens k0
  exact ⟨a', k0, swing_live hm (by clear hn hP hloop; omega) hc hc' hset hgrid hrem hsign hwhole hin hin' hloop hop k1 k4 k2 k3 k5 k6 k7 k8 k9 k10⟩

/-- **C69** (loops to and fro): every well-formed file that starts, whatever chunks come with it. -/
theorem C69_swing_partial (fp : Fp) (hfp : Representable fp) (g : Geo) (hB : g.B < 16384) (hNB : g.N * g.B ≤ 2 ^ 30) (a : FileReader)
    {f : Fields} {before : List Chunk} {audio : List Nat} {after : List Chunk} (hw : WellFormed f [] before audio after)
    (hx : Expected [] before) (hc' : f.channels ≤ 32767) (past : Bool) (junk : List Nat) (hj : junk.length = 36)
    {off : Nat} (hda : DataAt (riffWav f [] before audio after) off) (hfin : a.rd.loopFinish ≤ (audio.length / 2 / f.channels : Nat))
    {R : Int} (hset : PingSettings fp a.rd R) {p : Nat} (hgrid : GridRate p |a.rd.rate|) (hrem : OnGrid p a.rd.rem)
    (hsign : 0 ≤ a.rd.rem * a.rd.rate) (hwhole : a.rd.playStart = .sample → a.rd.loopStart = 0) {q : Int}
    (hP : StartsPingAt a.rd (((riffWav f [] before audio after).length : Int) / 2) ((off + 8) / 2 : Nat) f.channels (((off + 8) / 2 : Nat) + q * f.channels))
    (hin : a.rd.loopStart ≤ q) (hin' : a.rd.rate < 0 → q + f.channels ≤ a.rd.loopFinish)
    (hloop : GoodPing g (riffWav f [] before audio after) (0 ≤ a.rd.rate) ((off + 8) / 2 : Nat) f.channels a.rd.loopStart a.rd.loopFinish
      (((off + 8) / 2 : Nat) + a.rd.loopStart * f.channels) R (((off + 8) / 2 : Nat) + q * f.channels)) (nullOk : Bool) {fuel : Nat} (hf : g.N ≤ fuel + 2) :
    ∃ a', a.playWav g (some ⟨riffWav f [] before audio after, 0, past⟩) junk = .ok (true, a') ∧
      Sends fp g nullOk (fuel + 2) a' (fun i ch => dataSample audio 0 (i * f.channels + ch)) f.channels
        (swingPath a.rd.loopStart a.rd.loopFinish f.channels ⟨q + a.rd.rem, decide (0 < a.rd.rate)⟩ |a.rd.rate|) := by
  obtain ⟨r1, r2, r3, r4, r5, r6, r7⟩ := riff_facts hw hx hda
  obtain ⟨a', k1, k2⟩ := C84_swing_partial fp hfp g hB hNB a (riffWav_bytes hw) hw.small past junk hj r2 r3 hda r1 r4 hw.channels hc' hset hgrid hrem
    hsign hwhole hP hin hin' hloop nullOk hf
  refine ⟨a', k1, k2.congr hw.channels fun t i ch hi hch => r7 _ ?_⟩
  have hr0 : a.rd.rate ≠ 0 := fun e => hset.rateF (by rw [e]; exact fp.f.exact_zero)
  have hn0 : (0 : Int) < f.channels := by exact_mod_cast hw.channels
  have hqE : q < a.rd.loopFinish := by
    rcases lt_or_gt_of_ne hr0 with h | h
    · have := hin' h; omega
    · by_contra hcc
      have h2 := (hloop.upward (le_of_lt h)).1
      have := mul_le_mul_of_nonneg_right (not_lt.1 hcc) (le_of_lt hn0)
      omega
  have h1 := swingAt_lt (v := |a.rd.rate|) hw.channels hloop.AZ
    (by rw [swing_start hr0 hset.frac hsign hin hin']; exact hqE : (⟨q + a.rd.rem, decide (0 < a.rd.rate)⟩ : Swing).frame _ _ _ < _) t
  unfold swingPath at hi
  have hi' := Option.some.inj hi
  have hA := hloop.A0
  have hAZ := hloop.AZ
  have h1 : i + 1 ≤ audio.length / 2 / f.channels := by omega
  have h2 : (i + 1) * f.channels ≤ audio.length / 2 := le_trans (Nat.mul_le_mul_right _ h1) (Nat.div_mul_le_self _ _)
  rw [Nat.add_mul, Nat.one_mul] at h2
  omega

/-- **C69** (loops repeated backwards). -/
theorem C69_loop_back_partial (fp : Fp) (hfp : Representable fp) (g : Geo) (hB : g.B < 16384) (hNB : g.N * g.B ≤ 2 ^ 30) (a : FileReader)
    {f : Fields} {before : List Chunk} {audio : List Nat} {after : List Chunk} (hw : WellFormed f [] before audio after)
    (hx : Expected [] before) (hc' : f.channels ≤ 32767) (past : Bool) (junk : List Nat) (hj : junk.length = 36)
    {off : Nat} (hda : DataAt (riffWav f [] before audio after) off) (hfin : a.rd.loopFinish ≤ (audio.length / 2 / f.channels : Nat))
    {R mm : Int} (hset : RepeatBackSettings fp a.rd R) {p : Nat} {ρ : ℚ} (hrate : a.rd.rate = -ρ) (hgrid : GridRate p ρ)
    (hrem : OnGrid p a.rd.rem) (hrem0 : a.rd.rem ≤ 0) {s : Nat} (hs : s < audio.length / 2 / f.channels)
    (hP : StartsBackAt a.rd (((riffWav f [] before audio after).length : Int) / 2) ((off + 8) / 2 : Nat) a.rd.loopFinish f.channels ((off + 8) / 2 + s * f.channels : Nat))
    (hloop : GoodLoopBack g (riffWav f [] before audio after) ((off + 8) / 2 : Nat) f.channels a.rd.loopStart a.rd.loopFinish ((off + 8) / 2 + s * f.channels : Nat))
    (hmm0 : 0 ≤ mm) (hmm : 2 * mm + 5 ≤ g.N) (hadv : 128 * (f.channels * (R + 1)) + f.channels * f.channels ≤ mm * g.B) (nullOk : Bool) {fuel : Nat}
    (hf : g.N ≤ fuel + 2) :
    ∃ a', a.playWav g (some ⟨riffWav f [] before audio after, 0, past⟩) junk = .ok (true, a') ∧
      Sends fp g nullOk (fuel + 2) a' (fun i ch => dataSample audio 0 (i * f.channels + ch)) f.channels
        (loopBackPath a.rd.loopStart a.rd.loopFinish f.channels (s + a.rd.rem) ρ) := by
  obtain ⟨r1, r2, r3, r4, r5, r6, r7⟩ := riff_facts hw hx hda
  obtain ⟨a', k1, k2⟩ := C84_loop_back_partial fp hfp g hB hNB a (riffWav_bytes hw) hw.small past junk hj r2 r3 hda r1 r4 hw.channels hc' hset hrate hgrid hrem
    hrem0 hP hloop hmm0 hmm hadv nullOk hf
  refine ⟨a', k1, k2.congr hw.channels fun t i ch hi hch => r7 _ ?_⟩
  have hn0 : (0 : Int) < f.channels := by exact_mod_cast hw.channels
  have hρ : 0 < ρ := by
    have h0 : a.rd.rate < 0 := by
      by_contra hcc
      exact absurd (fp.f.nonneg (not_lt.1 hcc)) (not_le.2 hset.rateF)
    linarith
  have hlt : ∀ t, ⌈loopBackAt a.rd.loopStart a.rd.loopFinish f.channels (s + a.rd.rem) ρ t⌉ < (audio.length / 2 / f.channels : Nat) := by
    intro t
    induction t with
    | zero =>
      have : ⌈(s : ℚ) + a.rd.rem⌉ ≤ s := by rw [Int.ceil_le]; push_cast; linarith
      show ⌈(s : ℚ) + a.rd.rem⌉ < _
      omega
    | succ t ih =>
      unfold loopBackAt
      simp only
      have hmono : ⌈loopBackAt a.rd.loopStart a.rd.loopFinish f.channels (s + a.rd.rem) ρ t - ρ⌉ ≤ ⌈loopBackAt a.rd.loopStart a.rd.loopFinish f.channels (s + a.rd.rem) ρ t⌉ :=
        Int.ceil_le_ceil (by linarith)
      generalize loopBackAt a.rd.loopStart a.rd.loopFinish f.channels (s + a.rd.rem) ρ t - ρ = y at *
      split
      · have : ⌈((a.rd.loopFinish - f.channels : Int) : ℚ) + (y - ⌈y⌉)⌉ ≤ a.rd.loopFinish - f.channels := by
          rw [Int.ceil_le]
          have := Int.le_ceil y
          linarith
        omega
      · omega
  have hlt := hlt t
  unfold loopBackPath at hi
  have hi' := Option.some.inj hi
  have h1 : i + 1 ≤ audio.length / 2 / f.channels := by omega
  have h2 : (i + 1) * f.channels ≤ audio.length / 2 := le_trans (Nat.mul_le_mul_right _ h1) (Nat.div_mul_le_self _ _)
  rw [Nat.add_mul, Nat.one_mul] at h2
  omega

/-! ## Examples -/

/-- To and fro at one and a half times the speed, up from frame 600. -/
example : ∃ a', (exPing (3 / 2) 9000 600).playWav sdGeo (some ⟨exLongWav, 0, false⟩) (List.replicate 36 7) = .ok (true, a') ∧
    Sends Fp.ieee sdGeo true (5 + 2) a' (fun i ch => dataSample exLongWav (48 + 8) (i * 2 + ch)) 2
      (swingPath 500 9000 (2 : Nat) ⟨(600 : Int) + (exPing (3 / 2) 9000 600).rd.rem, decide (0 < (exPing (3 / 2) 9000 600).rd.rate)⟩ |(exPing (3 / 2) 9000 600).rd.rate|) :=
  C84_swing_partial Fp.ieee ieee_representable sdGeo (by decide) (by decide) (exPing (3 / 2) 9000 600) exLongWav_bytes (by rw [exLongWav_length]; decide) false
    (List.replicate 36 7) (by decide) (by decide +kernel) (by decide +kernel) (off := 48)
    ⟨Or.inr ⟨by decide +kernel, by decide +kernel⟩, by decide +kernel, by rw [exLongWav_length]; decide⟩ (by decide) (nch := 2) (by decide +kernel) (by decide) (by decide)
    (R := 2) (exPing_settings (by decide +kernel) (by norm_num) _ _) (p := 1) (by
      show GridRate 1 |(3 / 2 : ℚ)|
      rw [abs_of_pos (by norm_num)]
      exact ⟨by norm_num, ⟨3, by norm_num⟩, by norm_num [abs_of_pos], by norm_num [abs_of_pos]⟩)
    (by show OnGrid 1 0; simpa using OnGrid.int 1 0) (by norm_num [exPing]) (fun h => by cases h) (q := 600)
    (by unfold StartsPingAt; rw [if_pos (by norm_num [exPing])]; rfl) (by decide) (fun h => absurd h (by norm_num [exPing]))
    ⟨by decide, by decide, by rw [exLongWav_length]; decide, by decide, by decide, ⟨by decide, by rw [exLongWav_length]; decide, by decide⟩,
      fun _ => ⟨by decide, Or.inl ⟨⟨by decide, by decide, 1, by decide, by decide⟩, by decide⟩⟩, fun h => absurd (by norm_num [exPing]) h⟩ true (by decide)

/-- Down from frame 8400. -/
example : ∃ a', (exPing (-3 / 2) 9000 8400).playWav sdGeo (some ⟨exLongWav, 0, false⟩) (List.replicate 36 7) = .ok (true, a') ∧
    Sends Fp.ieee sdGeo true (5 + 2) a' (fun i ch => dataSample exLongWav (48 + 8) (i * 2 + ch)) 2
      (swingPath 500 9000 (2 : Nat) ⟨(8400 : Int) + (exPing (-3 / 2) 9000 8400).rd.rem, decide (0 < (exPing (-3 / 2) 9000 8400).rd.rate)⟩
        |(exPing (-3 / 2) 9000 8400).rd.rate|) :=
  C84_swing_partial Fp.ieee ieee_representable sdGeo (by decide) (by decide) (exPing (-3 / 2) 9000 8400) exLongWav_bytes (by rw [exLongWav_length]; decide) false
    (List.replicate 36 7) (by decide) (by decide +kernel) (by decide +kernel) (off := 48)
    ⟨Or.inr ⟨by decide +kernel, by decide +kernel⟩, by decide +kernel, by rw [exLongWav_length]; decide⟩ (by decide) (nch := 2) (by decide +kernel) (by decide) (by decide)
    (R := 2) (exPing_settings (by decide +kernel) (by norm_num [abs_of_neg]) _ _) (p := 1) (by
      show GridRate 1 |(-3 / 2 : ℚ)|
      rw [abs_of_neg (by norm_num)]
      exact ⟨by norm_num, ⟨3, by norm_num⟩, by norm_num [abs_of_pos], by norm_num [abs_of_pos]⟩)
    (by show OnGrid 1 0; simpa using OnGrid.int 1 0) (by norm_num [exPing]) (fun h => by cases h) (q := 8400)
    (by unfold StartsPingAt; rw [if_neg (by norm_num [exPing])]; show (16828 : Int) = _; decide) (by decide) (fun _ => by decide)
    ⟨by decide, by decide, by rw [exLongWav_length]; decide, by decide, by decide, ⟨by decide, by rw [exLongWav_length]; decide, by decide⟩,
      fun h => absurd h (by norm_num [exPing]), fun _ => ⟨by decide, by decide, by rw [exLongWav_length]; decide,
        Or.inl ⟨⟨by decide, by decide, 1, by decide, by decide⟩, by decide⟩⟩⟩ true (by decide)

/-- What the path is: a loop of five frames at one and a half times the speed, mono. -/
example : (List.range 14).map (swingPath 0 5 (1 : Nat) ⟨0, true⟩ (3 / 2)) =
    [0, 1, 3, 4, 4, 3, 1, 0, 0, 1, 3, 4, 4, 3].map some := by decide +kernel

/-- A stereo file of 10000 frames between a LIST chunk and another chunk. -/
def exRiffLong : List Nat := riffWav exFields [] [exList] (List.replicate 40000 5) [exOddList]

theorem exRiffLong_good : WellFormed exFields [] [exList] (List.replicate 40000 5) [exOddList] := by
  refine ⟨exFields_valid, by decide, by decide, by decide, ?_, ?_, ?_, ?_, ?_⟩
  · intro c hc
    simp only [List.mem_singleton] at hc
    subst hc
    exact ⟨chunk_valid (by decide), by decide⟩
  · intro b hb
    rw [List.eq_of_mem_replicate hb]; decide
  · intro h
    have := congrArg List.length h
    rw [List.length_replicate] at this
    exact absurd this (by decide)
  · intro c hc
    simp only [List.mem_singleton] at hc
    subst hc
    exact chunk_valid (by decide)
  · decide +kernel

theorem exRiffLong_length : exRiffLong.length = 40070 := by decide +kernel

theorem exRiffLong_len : (riffWav exFields [] [exList] (List.replicate 40000 5) [exOddList]).length = 40070 := exRiffLong_length

theorem exRiffLong_data : DataAt exRiffLong 48 :=
  ⟨Or.inr ⟨by decide +kernel, by decide +kernel⟩, by decide +kernel, by rw [exRiffLong_length]; decide⟩

theorem exRiffLong_expected : Expected [] [exList] := ⟨rfl, Or.inr ⟨_, rfl, by decide⟩⟩

/-- The long file to and fro at one and a half times the speed, up from frame 600. -/
example : ∃ a', (exPing (3 / 2) 9000 600).playWav sdGeo (some ⟨exRiffLong, 0, false⟩) (List.replicate 36 7) = .ok (true, a') ∧
    Sends Fp.ieee sdGeo true (5 + 2) a' (fun i ch => dataSample (List.replicate 40000 5) 0 (i * 2 + ch)) 2
      (swingPath 500 9000 (2 : Nat) ⟨(600 : Int) + (exPing (3 / 2) 9000 600).rd.rem, decide (0 < (exPing (3 / 2) 9000 600).rd.rate)⟩ |(exPing (3 / 2) 9000 600).rd.rate|) :=
  C69_swing_partial Fp.ieee ieee_representable sdGeo (by decide) (by decide) (exPing (3 / 2) 9000 600) exRiffLong_good exRiffLong_expected (by decide) false
    (List.replicate 36 7) (by decide) (off := 48) exRiffLong_data (by rw [List.length_replicate]; decide)
    (R := 2) (exPing_settings (by decide +kernel) (by norm_num) _ _) (p := 1) (by
      show GridRate 1 |(3 / 2 : ℚ)|
      rw [abs_of_pos (by norm_num)]
      exact ⟨by norm_num, ⟨3, by norm_num⟩, by norm_num [abs_of_pos], by norm_num [abs_of_pos]⟩)
    (by show OnGrid 1 0; simpa using OnGrid.int 1 0) (by norm_num [exPing]) (fun h => by cases h) (q := 600)
    (by unfold StartsPingAt; rw [if_pos (by norm_num [exPing])]; rfl) (by decide) (fun h => absurd h (by norm_num [exPing]))
    ⟨by decide, by decide, by rw [exRiffLong_len]; decide, by decide, by decide,
      ⟨by decide, by rw [exRiffLong_len]; decide, by decide⟩,
      fun _ => ⟨by decide, Or.inl ⟨⟨by decide, by decide, 1, by decide, by decide⟩, by decide⟩⟩, fun h => absurd (by norm_num [exPing]) h⟩ true (by decide)

/-- Its frames from 500 to 9000 again and again, started at frame 7. -/
example : ∃ a', (exRepeat 9000 7).playWav sdGeo (some ⟨exRiffLong, 0, false⟩) (List.replicate 36 7) = .ok (true, a') ∧
    Sends Fp.ieee sdGeo true (5 + 2) a' (fun i ch => dataSample (List.replicate 40000 5) 0 (i * 2 + ch)) 2
      (loopPath 500 9000 ((firstFrame (exRepeat 9000 7).rd : Int) + (exRepeat 9000 7).rd.rem) (3 / 2)) :=
  C69_loop_partial Fp.ieee ieee_representable sdGeo (by decide) (by decide) (exRepeat 9000 7) exRiffLong_good exRiffLong_expected (by decide) false
    (List.replicate 36 7) (by decide) (off := 48) exRiffLong_data (by rw [List.length_replicate]; decide)
    (exRepeat_settings 9000 7) (p := 1) ⟨by norm_num, ⟨3, by norm_num [exRepeat]⟩, by norm_num [exRepeat, abs_of_pos], by norm_num [exRepeat, abs_of_pos]⟩
    (by simpa [exRepeat] using OnGrid.int 1 0) (by norm_num [exRepeat])
    ⟨by decide, by decide, by rw [exRiffLong_len]; decide, by decide, by decide, Or.inl ⟨by decide, by decide⟩⟩ (mm := 1) (by decide) (by decide) (by decide) true
    (by decide)

/-- The same loop backwards from frame 8400. -/
example : ∃ a', (exRepeatBack 9000 8400).playWav sdGeo (some ⟨exRiffLong, 0, false⟩) (List.replicate 36 7) = .ok (true, a') ∧
    Sends Fp.ieee sdGeo true (5 + 2) a' (fun i ch => dataSample (List.replicate 40000 5) 0 (i * 2 + ch)) 2
      (loopBackPath 500 9000 (2 : Nat) ((8400 : Nat) + (exRepeatBack 9000 8400).rd.rem) (3 / 2)) :=
  C69_loop_back_partial Fp.ieee ieee_representable sdGeo (by decide) (by decide) (exRepeatBack 9000 8400) exRiffLong_good exRiffLong_expected (by decide) false
    (List.replicate 36 7) (by decide) (off := 48) exRiffLong_data (by rw [List.length_replicate]; decide)
    (exRepeatBack_settings 9000 8400) (p := 1) (ρ := 3 / 2) (by norm_num [exRepeatBack])
    ⟨by norm_num, ⟨3, by norm_num⟩, by norm_num [abs_of_pos], by norm_num [abs_of_pos]⟩ (by simpa [exRepeatBack] using OnGrid.int 1 0) (by norm_num [exRepeatBack])
    (s := 8400) (by rw [List.length_replicate]; decide) (by rw [exRiffLong_len]; show ((_ : Nat) : Int) = _; decide)
    ⟨by decide, by decide, by rw [exRiffLong_len]; decide, by decide, by rw [exRiffLong_len]; decide, by decide, by rw [exRiffLong_len]; decide,
      Or.inl ⟨by decide, by decide⟩⟩ (mm := 1) (by decide) (by decide) (by decide) true (by decide)

end TVP
