import Verif.Lemmas.Path
import Verif.Props.EndToEnd
import Verif.Props.PingStream
import Verif.Props.Gentle
import Verif.Props.Riff

/-!
# Property C84: from the bytes of a WAV file to the outputs, backwards and in loops
-/

namespace TVP
open Spec

theorem pathBlock_congr {v w : Nat → Nat → Int} {path : Nat → Option Nat} {ch : Nat} (h : ∀ t i, path t = some i → v i ch = w i ch) (k : Nat) :
    pathBlock v path k ch = pathBlock w path k ch := by
  unfold pathBlock
  refine List.map_congr_left fun t _ => ?_
  cases e : path (128 * k + t) with
  | none => rfl
  | some i => exact h _ _ e

theorem pathStep_congr {v w : Nat → Nat → Int} {nch : Nat} {path : Nat → Option Nat} (hn : 1 ≤ nch)
    (h : ∀ t i ch, path t = some i → ch < nch → v i ch = w i ch) (st : Option Nat) (al : Nat → Bool) :
    pathStep v nch path st al = pathStep w nch path st al := by
  cases st with
  | none => rfl
  | some k =>
    unfold pathStep
    simp only
    have e : (List.range nch).map (fun ch => (pathBlock v path k ch, ch)) = (List.range nch).map (fun ch => (pathBlock w path k ch, ch)) :=
      List.map_congr_left fun ch hc => by rw [pathBlock_congr (fun t i hi => h t i ch hi (List.mem_range.1 hc)) k]
    rw [e, pathBlock_congr (ch := 0) (fun t i hi => h t i 0 hi (by omega)) k]

theorem pathPlay_congr {v w : Nat → Nat → Int} {nch : Nat} {path : Nat → Option Nat} (hn : 1 ≤ nch)
    (h : ∀ t i ch, path t = some i → ch < nch → v i ch = w i ch) : ∀ (als : List (Nat → Bool)) (st : Option Nat),
    pathPlay v nch path st als = pathPlay w nch path st als
  | [], _ => rfl
  | al :: als, st => by
    unfold pathPlay
    simp only [pathStep_congr hn h, pathPlay_congr hn h als]

/-- Whatever blocks can or cannot be allocated at each update, with each event serviced before the next update, the player sends
what the path says, plays as long as the path goes on, and its cache never misses. -/
def Sends (fp : Fp) (g : Geo) (nullOk : Bool) (fuel : Nat) (a : FileReader) (val : Nat → Nat → Int) (nch : Nat) (path : Nat → Option Nat) : Prop :=
  ∀ als : List (Nat → Bool), ∃ a', a.ticks fp g nullOk fuel als = .ok ((pathPlay val nch path (some 0) als).1, a') ∧
    a'.rd.playing = (pathPlay val nch path (some 0) als).2.isSome ∧ ∀ c, a'.src = some c → c.fails = 0

theorem sends_of {fp : Fp} {g : Geo} {nullOk : Bool} {fuel : Nat} {a : FileReader} {m : List Nat} {start nch : Nat} {path : Nat → Option Nat}
    {Live : Nat → Rd → Prop} (hlike : LikeInMemory fp g nullOk (fuel + 2) a m) (hT : Turns fp (samplesOf m) (start / 2) nch path Live) (hn : 1 ≤ nch)
    (heven : start % 2 = 0) (hplay : a.rd.playing = true) (hc : a.rd.nch = nch) (hH : a.rd.header = (start / 2 : Nat)) (hl : Live 0 a.rd)
    (hin : ∀ t i, path t = some i → start + 2 * ((i + 1) * nch) ≤ m.length) :
    Sends fp g nullOk (fuel + 2) a (fun i ch => dataSample m start (i * nch + ch)) nch path := by
  intro als
  have hon : OnPath (samplesOf m) (start / 2) nch Live (some 0) ⟨a.rd, some (samplesOf m)⟩ :=
    ⟨hplay, hc, fun k hk => by cases hk; exact ⟨hl, rfl, hH⟩⟩
  obtain ⟨b', j1, j2⟩ := hon.ticks (hT.pathRead hn fuel) hn als
  have hval : ∀ t i ch : Nat, path t = some i → ch < nch → material (samplesOf m) (start / 2) nch i ch = dataSample m start (i * nch + ch) := by
    intro t i ch hi hch
    have hle := hin t i hi
    rw [Nat.add_mul, Nat.one_mul] at hle
    unfold material
    rw [samplesOf_getD (by omega), add_assoc, ← fileSample_data m heven]
  rw [pathPlay_congr hn hval] at j1 j2
  obtain ⟨fxs, a'', b'', l1, l2, l3, l4⟩ := hlike als
  rw [j1] at l2
  simp only [Except.ok.injEq, Prod.mk.injEq] at l2
  obtain ⟨l2a, l2b⟩ := l2
  exact ⟨a'', by rw [l1, ← l2a], by rw [l3, ← l2b]; exact j2.playing, l4⟩

/-- What opening a file leaves alone, and what it sets. -/
def Opens2 (r : Rd) (a : FileReader) : Prop :=
  a.rd.dual = r.dual ∧ a.rd.interp = r.interp ∧ a.rd.loopType = r.loopType ∧ a.rd.playStart = r.playStart ∧ a.rd.cfOn = false ∧ (r.loopType = .none → a.rd.loopStart = 0)

theorem playFinish_opens2 {g : Geo} {r : Rd} {f : Dev} {a : FileReader} (h : playFinish g r f = .ok (true, a)) : Opens2 r a := by
  obtain ⟨playing, fileSize, header, rate, rem, loopType, playStart, pos1, pos2, crossfade, dual, cfDur, cfOn, playbackStart, loopStart, loopFinish, fileSamples, nch, psram, interp, pts⟩ := r
  unfold playFinish at h
  simp only at h
  split at h
  · cases h
  · split at h
    · cases h
    · injection h with h
      injection h with _ h
      subst h
      unfold Opens2
      cases loopType
      · exact ⟨rfl, rfl, rfl, rfl, rfl, fun _ => rfl⟩
      · exact ⟨rfl, rfl, rfl, rfl, rfl, fun k => nomatch k⟩
      · exact ⟨rfl, rfl, rfl, rfl, rfl, fun k => nomatch k⟩

theorem playWav_opens {g : Geo} {a a' : FileReader} {file : Option Dev} {junk : List Nat} (h : a.playWav g file junk = .ok (true, a')) : Opens2 a.rd a' := by
  unfold FileReader.playWav FileReader.playFile at h
  simp only at h
  cases file with
  | none => cases h
  | some f =>
    simp only [if_true] at h
    obtain ⟨⟨o, r1, f1⟩, e, h⟩ := bind_ok_iff.1 h
    obtain ⟨x, y, z, rfl⟩ := playParseWav_same e
    simp only at h
    split at h
    · cases h
    · have k := playFinish_opens2 h
      exact ⟨k.1, k.2.1, k.2.2.1, k.2.2.2.1, k.2.2.2.2.1, k.2.2.2.2.2⟩

theorem Opens2.plain {r : Rd} {a : FileReader} (h : Opens2 r a) (hp : PlainSettings r) {nch : Nat} (hn : a.rd.nch = nch) (h1 : 1 ≤ nch) : Plain a.rd :=
  ⟨h.1.trans hp.dual, h.2.1.trans hp.interp, h.2.2.2.2.1, by rw [hn]; omega⟩

/-- A player just opened, backwards. -/
theorem back_live {fp : Fp} {g : Geo} (hNB : g.N * g.B ≤ 2 ^ 30) {a a' : FileReader} {m : List Nat} (hm : m.length < 2 ^ 31) {start nch F : Nat}
    (hc : 1 ≤ nch) (hdata : start + 2 * (F * nch) ≤ m.length) {R mm : Int} (hset : BackwardSettings fp a.rd R) {p : Nat} {ρ : ℚ} (hrate : a.rd.rate = -ρ)
    (hgrid : GridRate p ρ) (hrem : OnGrid p a.rd.rem) (hrem0 : a.rd.rem ≤ 0) {s : Nat} (hs : s < F) (hmm : 2 * mm + 1 ≤ g.N)
    (hadv : 128 * (nch * (R + 1)) ≤ mm * g.B) (hop : Opens2 a.rd a') (k2 : a'.rd.nch = nch) (k3 : a'.rd.header = (start / 2 : Nat)) (k4 : a'.rd.fileSamples = F)
    (k5 : a'.rd.pos1 = (start / 2 + s * nch : Nat)) (k6 : a'.rd.rate = a.rd.rate) (k7 : a'.rd.rem = a.rd.rem) :
    0 < ρ ∧ Backing p R 0 F ((s : Nat) + a.rd.rem) ρ 0 a'.rd ∧
      Turns fp (samplesOf m) (start / 2) nch (backPath ((s : Nat) + a.rd.rem) ρ 0) (Backing p R 0 F ((s : Nat) + a.rd.rem) ρ) ∧
      ∀ t i, backPath ((s : Nat) + a.rd.rem) ρ 0 t = some i → start + 2 * ((i + 1) * nch) ≤ m.length := by
  have hn0 : (0 : Int) < nch := by exact_mod_cast hc
  have hρ : 0 < ρ := by
    have h0 : a.rd.rate < 0 := by
      by_contra hcc
      exact absurd (fp.f.nonneg (not_lt.1 hcc)) (not_le.2 hset.rateF)
    linarith
  have hR0 := hset.R0
  have hmul' : 2 * ((F : Int) * nch) = ((2 * (F * nch) : Nat) : Int) := by push_cast; rfl
  have hrem1 : -1 < a.rd.rem := neg_lt_of_abs_lt hset.frac
  have hcl : ⌈((s : Nat) : ℚ) + a.rd.rem⌉ = (s : Int) := by
    rw [Int.ceil_eq_iff]; constructor <;> push_cast <;> linarith
  have hB0 : (0 : Int) < g.B := by exact_mod_cast g.B_pos
  have hNB' : (g.N : Int) * g.B ≤ 2 ^ 30 := by exact_mod_cast hNB
  have h1 : mm * g.B ≤ g.N * g.B := mul_le_mul_of_nonneg_right (by omega) (le_of_lt hB0)
  have h2 : R + 1 ≤ nch * (R + 1) := le_mul_of_one_le_left (by omega) (by omega)
  have hx : ((start / 2 : Nat) : Int) + nch * (F + R + 1) = (start / 2 : Nat) + F * nch + nch * (R + 1) := by ring
  have hlen : ((start / 2 : Nat) : Int) + (F : Int) * nch ≤ (samplesOf m).length := by
    have hsl : ((samplesOf m).length : Int) = (m.length : Int) / 2 := by unfold samplesOf; simp
    rw [hsl]; omega
  have hlive : Backing p R 0 F ((s : Nat) + a.rd.rem) ρ 0 a'.rd := by
    refine ⟨?_, by rw [k6, hrate], k4⟩
    have hz : (((s : Nat) : ℚ) + a.rd.rem) - ((0 : Nat) : ℚ) * ρ = (s : ℚ) + a.rd.rem := by push_cast; ring
    rw [hz]
    refine ⟨hop.plain hset.plain k2 hc, hop.2.2.1.trans hset.loop, by rw [k6, hrate]; linarith, by rw [k6, hrate]; exact hgrid.neg,
      by simpa using (OnGrid.int p (s : Int)).add hrem, ?_, ?_, by rw [k3]; exact Int.natCast_nonneg _, ?_, le_refl _, by rw [k4]; exact Int.natCast_nonneg _,
      by rw [k6]; have := hset.rateR; linarith, ?_, ?_, ?_⟩
    · rw [hcl, k5, k3, k2]; push_cast; ring
    · rw [hcl, k7]; push_cast; ring
    · by_cases hps : a'.rd.playStart = .sample
      · exact Or.inl ⟨hps, rfl⟩
      · exact Or.inr ⟨hps, (hop.2.2.2.2.2 hset.loop).symm⟩
    · rw [k3, k2, k4, hx]; omega
    · rw [hcl, k4]; exact_mod_cast hs
    · rw [hcl]; omega
  refine ⟨hρ, hlive, back_turns hρ hlen, ?_⟩
  intro t i hi
  unfold backPath at hi
  split at hi
  · rename_i h0
    have hle : ⌈((s : Nat) : ℚ) + a.rd.rem - t * ρ⌉ ≤ s := by
      rw [← hcl]; exact Int.ceil_le_ceil (by have : 0 ≤ (t : ℚ) * ρ := by positivity
                                             linarith)
    have hi' := Option.some.inj hi
    have : i + 1 ≤ F := by omega
    have := Nat.mul_le_mul_right nch this
    omega
  · cases hi

/-- What `playWav` leaves behind, backwards. -/
theorem back_opened (fp : Fp) (hfp : Representable fp) (g : Geo) (hB : g.B < 16384) (hNB : g.N * g.B ≤ 2 ^ 30) (a : FileReader) {m : List Nat}
    (hb : IsBytes m) (hm : m.length < 2 ^ 31) (past : Bool) (junk : List Nat) (hj : junk.length = 36) (hg : GoodHeader m)
    (hdep : leVal (slice m 34 2) = 16) {off : Nat} (hda : DataAt m off) (heven : off % 2 = 0) {nch D : Nat} (hn : leVal (slice m 22 2) = nch)
    (hc : 1 ≤ nch) (hc' : nch ≤ 32767) (hD : leVal (slice m (off + 4) 4) = D) (hdata : off + 8 + D ≤ m.length)
    {R mm : Int} (hset : BackwardSettings fp a.rd R) {p : Nat} {ρ : ℚ} (hrate : a.rd.rate = -ρ) (hgrid : GridRate p ρ) (hrem : OnGrid p a.rd.rem)
    (hrem0 : a.rd.rem ≤ 0) {s : Nat} (hs : s < D / 2 / nch)
    (hP : StartsBackAt a.rd ((m.length : Int) / 2) ((off + 8) / 2 : Nat) (D / 2 / nch : Nat) nch ((off + 8) / 2 + s * nch : Nat))
    (hgood : GoodStart g m ((off + 8) / 2 : Nat) nch ((off + 8) / 2 + s * nch : Nat))
    (hmm0 : 0 ≤ mm) (hmm : 2 * mm + 1 ≤ g.N) (hadv : 128 * (nch * (R + 1)) ≤ mm * g.B) (nullOk : Bool) {fuel : Nat} (hf : g.N ≤ fuel + 2) :
    ∃ a', a.playWav g (some ⟨m, 0, past⟩) junk = .ok (true, a') ∧ 0 < ρ ∧ LikeInMemory fp g nullOk (fuel + 2) a' m ∧ a'.rd.playing = true ∧ a'.rd.nch = nch ∧
      a'.rd.header = ((off + 8) / 2 : Nat) ∧ Backing p R 0 (D / 2 / nch : Nat) ((s : Nat) + a.rd.rem) ρ 0 a'.rd ∧
      Turns fp (samplesOf m) ((off + 8) / 2) nch (backPath ((s : Nat) + a.rd.rem) ρ 0) (Backing p R 0 (D / 2 / nch : Nat) ((s : Nat) + a.rd.rem) ρ) ∧
      ∀ t i, backPath ((s : Nat) + a.rd.rem) ρ 0 t = some i → off + 8 + 2 * ((i + 1) * nch) ≤ m.length := by
  obtain ⟨a', k0, k1, k2, k3, k4, k5, k6, k7, k8⟩ := C18_wav_partial fp hfp g hB hNB a hb hm past junk hj hg hdep hda hn hc hc' hD hdata hset hP hgood hmm0 hmm hadv
    nullOk (fuel := fuel + 1) (by omega)
  have hop := playWav_opens k0
  have hmul : (D / 2 / nch) * nch ≤ D / 2 := Nat.div_mul_le_self _ _
  obtain ⟨l1, l2, l3, l4⟩ := back_live (start := off + 8) (F := D / 2 / nch) hNB hm hc (by clear hn hD; omega) hset hrate hgrid hrem hrem0 hs hmm hadv hop k2 k3 k4 k5 k6 k7
  exact ⟨a', k0, l1, k8, k1, k2, k3, l2, l3, l4⟩

/-- **C84** (backwards).  A WAV file (16 bit, data chunk in the file, at an even byte) played backwards from frame `s`, without
looping and interpolation, any blocks being allocated at each update and each event serviced before the next: at instant `t` the
frame `⌈s - f - t ρ⌉` of the data chunk is heard (`f`: what is left in the accumulator), down to the first frame, then silence,
and the player has stopped. -/
theorem C84_back_partial (fp : Fp) (hfp : Representable fp) (g : Geo) (hB : g.B < 16384) (hNB : g.N * g.B ≤ 2 ^ 30) (a : FileReader) {m : List Nat}
    (hb : IsBytes m) (hm : m.length < 2 ^ 31) (past : Bool) (junk : List Nat) (hj : junk.length = 36) (hg : GoodHeader m)
    (hdep : leVal (slice m 34 2) = 16) {off : Nat} (hda : DataAt m off) (heven : off % 2 = 0) {nch D : Nat} (hn : leVal (slice m 22 2) = nch)
    (hc : 1 ≤ nch) (hc' : nch ≤ 32767) (hD : leVal (slice m (off + 4) 4) = D) (hdata : off + 8 + D ≤ m.length)
    {R mm : Int} (hset : BackwardSettings fp a.rd R) {p : Nat} {ρ : ℚ} (hrate : a.rd.rate = -ρ) (hgrid : GridRate p ρ) (hrem : OnGrid p a.rd.rem)
    (hrem0 : a.rd.rem ≤ 0) {s : Nat} (hs : s < D / 2 / nch)
    (hP : StartsBackAt a.rd ((m.length : Int) / 2) ((off + 8) / 2 : Nat) (D / 2 / nch : Nat) nch ((off + 8) / 2 + s * nch : Nat))
    (hgood : GoodStart g m ((off + 8) / 2 : Nat) nch ((off + 8) / 2 + s * nch : Nat))
    (hmm0 : 0 ≤ mm) (hmm : 2 * mm + 1 ≤ g.N) (hadv : 128 * (nch * (R + 1)) ≤ mm * g.B) (nullOk : Bool) {fuel : Nat} (hf : g.N ≤ fuel + 2) :
    ∃ a', a.playWav g (some ⟨m, 0, past⟩) junk = .ok (true, a') ∧
      Sends fp g nullOk (fuel + 2) a' (fun i ch => dataSample m (off + 8) (i * nch + ch)) nch (backPath (s + a.rd.rem) ρ 0) := by
  obtain ⟨a', k0, -, k1, k2, k3, k4, k5, k6, k7⟩ := back_opened fp hfp g hB hNB a hb hm past junk hj hg hdep hda heven hn hc hc' hD hdata hset hrate hgrid hrem hrem0 hs hP hgood hmm0 hmm hadv
    nullOk hf
  exact ⟨a', k0, sends_of k1 k6 hc (by clear hn hD; omega) k2 k3 k4 k5 k7⟩

/-- A player just opened, round and round. -/
theorem loop_live {fp : Fp} {g : Geo} (hNB : g.N * g.B ≤ 2 ^ 30) {a a' : FileReader} {m : List Nat} (hm : m.length < 2 ^ 31) {start nch : Nat} (heven : start % 2 = 0)
    (hc : 1 ≤ nch) {R mm : Int} (hset : RepeatSettings a.rd R) {p : Nat} (hgrid : GridRate p a.rd.rate) (hrem : OnGrid p a.rd.rem) (hrem0 : 0 ≤ a.rd.rem)
    (hloop : GoodLoop g m (start / 2 : Nat) nch a.rd.loopStart a.rd.loopFinish (firstFrame a.rd))
    (hmm : 2 * mm + 5 ≤ g.N) (hadv : 128 * (nch * (R + 1)) ≤ mm * g.B) (hop : Opens2 a.rd a') (k2 : a'.rd.nch = nch)
    (k3 : a'.rd.header = (start / 2 : Nat)) (k4 : a'.rd.loopType = .repeat) (k5 : a'.rd.loopStart = a.rd.loopStart) (k6 : a'.rd.loopFinish = a.rd.loopFinish)
    (k7 : a'.rd.pos1 = (start / 2 : Nat) + firstFrame a.rd * nch) (k8 : a'.rd.rate = a.rd.rate) (k9 : a'.rd.rem = a.rd.rem) :
    Upping a.rd.loopStart a.rd.loopFinish p R ((firstFrame a.rd : ℚ) + a.rd.rem) a.rd.rate 0 a'.rd ∧
      Turns fp (samplesOf m) (start / 2) nch (loopPath a.rd.loopStart a.rd.loopFinish ((firstFrame a.rd : ℚ) + a.rd.rem) a.rd.rate)
        (Upping a.rd.loopStart a.rd.loopFinish p R ((firstFrame a.rd : ℚ) + a.rd.rem) a.rd.rate) ∧
      ∀ t i, loopPath a.rd.loopStart a.rd.loopFinish ((firstFrame a.rd : ℚ) + a.rd.rem) a.rd.rate t = some i → start + 2 * ((i + 1) * nch) ≤ m.length := by
  have hn0 : (0 : Int) < nch := by exact_mod_cast hc
  have hR0 : 0 ≤ R := by
    have : (0 : ℚ) ≤ R := le_trans hset.rate0 hset.rateR
    exact_mod_cast this
  have hrem1 : a.rd.rem < 1 := lt_of_abs_lt hset.frac
  obtain ⟨hA0, hAZ, hfile, hq0, hq1, -⟩ := hloop
  have hB0 : (0 : Int) < g.B := by exact_mod_cast g.B_pos
  have hNB' : (g.N : Int) * g.B ≤ 2 ^ 30 := by exact_mod_cast hNB
  have h1 : mm * g.B ≤ g.N * g.B := mul_le_mul_of_nonneg_right (by omega) (le_of_lt hB0)
  have h2 : R + 1 ≤ nch * (R + 1) := le_mul_of_one_le_left (by omega) (by omega)
  have hx : ∀ E : Int, ((start / 2 : Nat) : Int) + nch * (E + R + 1) = (start / 2 : Nat) + E * nch + nch * (R + 1) := fun E => by ring
  have hx1 : ∀ E : Int, ((start / 2 : Nat) : Int) + nch * (E + 1) = (start / 2 : Nat) + E * nch + nch := fun E => by ring
  have hsl : ((samplesOf m).length : Int) = (m.length : Int) / 2 := by unfold samplesOf; simp
  generalize hq : firstFrame a.rd = q at *
  generalize hA : a.rd.loopStart = A at *
  generalize hE : a.rd.loopFinish = E at *
  have hfl : ⌊(q : ℚ) + a.rd.rem⌋ = q := by
    rw [Int.floor_eq_iff]; constructor <;> linarith
  have hlive : Upping A E p R ((q : ℚ) + a.rd.rem) a.rd.rate 0 a'.rd := by
    refine ⟨(q : ℚ) + a.rd.rem, ⟨⟨⟨hop.plain hset.plain k2 hc, by rw [hfl, k7, k3, k2], by rw [k3]; exact Int.natCast_nonneg _, by rw [k5]; exact hA0,
      by rw [k5, k6]; exact hAZ, ?_⟩, k4, k5, k6⟩, k8, ?_, (OnGrid.int p q).add hrem, add_nonneg (by exact_mod_cast hq0) hrem0, by rw [hfl]; omega⟩, ?_⟩
    · rw [k3, k2, k6, hx1]
      have : (nch : Int) ≤ nch * (R + 1) := le_mul_of_one_le_right (by omega) (by omega)
      omega
    · rw [k9, Int.fract, hfl]; ring
    · rw [if_neg (by rw [hfl]; omega)]; rfl
  have hT := up_turns (fp := fp) (data := samplesOf m) (H := start / 2) (nch := nch) (p := p) (x := (q : ℚ) + a.rd.rem) hA0 hAZ hset.rate0 hset.rateR hgrid hc
    (by rw [hx]; omega) (by rw [hsl]; omega)
  refine ⟨hlive, hT, ?_⟩
  -- the frames heard lie in the loop or before it
  have hat : ∀ t : Nat, 0 ≤ loopAt A E ((q : ℚ) + a.rd.rem) a.rd.rate t ∧ ⌊loopAt A E ((q : ℚ) + a.rd.rem) a.rd.rate t⌋ < E := by
    intro t
    induction t with
    | zero => exact ⟨add_nonneg (by exact_mod_cast hq0) hrem0, by show ⌊(q : ℚ) + a.rd.rem⌋ < E; omega⟩
    | succ t ih =>
      unfold loopAt
      simp only
      split
      · exact ⟨add_nonneg (by exact_mod_cast hA0) (Int.fract_nonneg _), by rw [floor_add_fract]; exact hAZ⟩
      · exact ⟨by linarith [ih.1, hset.rate0], by omega⟩
  intro t i hi
  have hi' := Option.some.inj hi
  obtain ⟨b1, b2⟩ := hat t
  have b3 := Int.floor_nonneg.2 b1
  have : (i : Int) + 1 ≤ E := by omega
  have := mul_le_mul_of_nonneg_right this (le_of_lt hn0)
  have hcast : (((i + 1) * nch : Nat) : Int) = ((i : Int) + 1) * nch := by push_cast; rfl
  omega

/-- What `playWav` leaves behind, round and round. -/
theorem loop_opened (fp : Fp) (hfp : Representable fp) (g : Geo) (hB : g.B < 16384) (hNB : g.N * g.B ≤ 2 ^ 30) (a : FileReader) {m : List Nat}
    (hb : IsBytes m) (hm : m.length < 2 ^ 31) (past : Bool) (junk : List Nat) (hj : junk.length = 36) (hg : GoodHeader m)
    (hdep : leVal (slice m 34 2) = 16) {off : Nat} (hda : DataAt m off) (heven : off % 2 = 0) {nch : Nat} (hn : leVal (slice m 22 2) = nch)
    (hc : 1 ≤ nch) (hc' : nch ≤ 32767) {R mm : Int} (hset : RepeatSettings a.rd R) {p : Nat} (hgrid : GridRate p a.rd.rate)
    (hrem : OnGrid p a.rd.rem) (hrem0 : 0 ≤ a.rd.rem)
    (hloop : GoodLoop g m ((off + 8) / 2 : Nat) nch a.rd.loopStart a.rd.loopFinish (firstFrame a.rd))
    (hmm0 : 0 ≤ mm) (hmm : 2 * mm + 5 ≤ g.N) (hadv : 128 * (nch * (R + 1)) ≤ mm * g.B) (nullOk : Bool) {fuel : Nat} (hf : g.N ≤ fuel + 2) :
    ∃ a', a.playWav g (some ⟨m, 0, past⟩) junk = .ok (true, a') ∧
      LikeInMemory fp g nullOk (fuel + 2) a' m ∧ a'.rd.playing = true ∧ a'.rd.nch = nch ∧ a'.rd.header = ((off + 8) / 2 : Nat) ∧
      Upping a.rd.loopStart a.rd.loopFinish p R ((firstFrame a.rd : ℚ) + a.rd.rem) a.rd.rate 0 a'.rd ∧
      Turns fp (samplesOf m) ((off + 8) / 2) nch (loopPath a.rd.loopStart a.rd.loopFinish ((firstFrame a.rd : ℚ) + a.rd.rem) a.rd.rate)
        (Upping a.rd.loopStart a.rd.loopFinish p R ((firstFrame a.rd : ℚ) + a.rd.rem) a.rd.rate) ∧
      ∀ t i, loopPath a.rd.loopStart a.rd.loopFinish ((firstFrame a.rd : ℚ) + a.rd.rem) a.rd.rate t = some i → off + 8 + 2 * ((i + 1) * nch) ≤ m.length := by
  obtain ⟨a', k0, k1, k2, k3, k4, k5, k6, k7, k8, k9, k10⟩ := C60_wav_partial fp hfp g hB hNB a hb hm past junk hj hg hdep hda hn hc hc' hset hloop hmm0 hmm hadv
    nullOk hf
  have hop := playWav_opens k0
  obtain ⟨l1, l2, l3⟩ := loop_live (fp := fp) (start := off + 8) hNB hm (by clear hn hloop; omega) hc hset hgrid hrem hrem0 hloop hmm hadv hop k2 k3 k4 k5 k6 k7 k8 k9
  exact ⟨a', k0, k10, k1, k2, k3, l1, l2, l3⟩

/-- **C84** (repeated forwards).  With a loop from frame `A` to frame `E`: the frames heard are those of the positions `x`,
`x + r`, `x + 2 r` … from the start on, except that a position at or behind the end of the loop goes on at the start of the
loop, keeping its fraction; for ever. -/
theorem C84_loop_partial (fp : Fp) (hfp : Representable fp) (g : Geo) (hB : g.B < 16384) (hNB : g.N * g.B ≤ 2 ^ 30) (a : FileReader) {m : List Nat}
    (hb : IsBytes m) (hm : m.length < 2 ^ 31) (past : Bool) (junk : List Nat) (hj : junk.length = 36) (hg : GoodHeader m)
    (hdep : leVal (slice m 34 2) = 16) {off : Nat} (hda : DataAt m off) (heven : off % 2 = 0) {nch : Nat} (hn : leVal (slice m 22 2) = nch)
    (hc : 1 ≤ nch) (hc' : nch ≤ 32767) {R mm : Int} (hset : RepeatSettings a.rd R) {p : Nat} (hgrid : GridRate p a.rd.rate)
    (hrem : OnGrid p a.rd.rem) (hrem0 : 0 ≤ a.rd.rem)
    (hloop : GoodLoop g m ((off + 8) / 2 : Nat) nch a.rd.loopStart a.rd.loopFinish (firstFrame a.rd))
    (hmm0 : 0 ≤ mm) (hmm : 2 * mm + 5 ≤ g.N) (hadv : 128 * (nch * (R + 1)) ≤ mm * g.B) (nullOk : Bool) {fuel : Nat} (hf : g.N ≤ fuel + 2) :
    ∃ a', a.playWav g (some ⟨m, 0, past⟩) junk = .ok (true, a') ∧
      Sends fp g nullOk (fuel + 2) a' (fun i ch => dataSample m (off + 8) (i * nch + ch)) nch
        (loopPath a.rd.loopStart a.rd.loopFinish (firstFrame a.rd + a.rd.rem) a.rd.rate) := by
  obtain ⟨a', k0, k1, k2, k3, k4, k5, k6, k7⟩ := loop_opened fp hfp g hB hNB a hb hm past junk hj hg hdep hda heven hn hc hc' hset hgrid hrem hrem0 hloop hmm0 hmm hadv nullOk hf
  exact ⟨a', k0, sends_of k1 k6 hc (by clear hn; omega) k2 k3 k4 k5 k7⟩

/-- A player just opened, round and round backwards. -/
theorem loop_back_live {fp : Fp} {g : Geo} (hNB : g.N * g.B ≤ 2 ^ 30) {a a' : FileReader} {m : List Nat} (hm : m.length < 2 ^ 31) {start nch : Nat} (heven : start % 2 = 0)
    (hc : 1 ≤ nch) {R mm : Int} (hset : RepeatBackSettings fp a.rd R) {p : Nat} {ρ : ℚ} (hrate : a.rd.rate = -ρ) (hgrid : GridRate p ρ)
    (hrem : OnGrid p a.rd.rem) (hrem0 : a.rd.rem ≤ 0) {s : Nat}
    (hloop : GoodLoopBack g m (start / 2 : Nat) nch a.rd.loopStart a.rd.loopFinish (start / 2 + s * nch : Nat))
    (hmm : 2 * mm + 5 ≤ g.N) (hadv : 128 * (nch * (R + 1)) + nch * nch ≤ mm * g.B) (hop : Opens2 a.rd a') (k2 : a'.rd.nch = nch)
    (k3 : a'.rd.header = (start / 2 : Nat)) (k4 : a'.rd.loopType = .repeat) (k5 : a'.rd.loopStart = a.rd.loopStart) (k6 : a'.rd.loopFinish = a.rd.loopFinish)
    (k7 : a'.rd.pos1 = (start / 2 + s * nch : Nat)) (k8 : a'.rd.rate = a.rd.rate) (k9 : a'.rd.rem = a.rd.rem) :
    ∃ M, 0 < ρ ∧ a.rd.loopStart ≤ s ∧ Downing a.rd.loopStart a.rd.loopFinish M nch p R ((s : ℚ) + a.rd.rem) ρ 0 a'.rd ∧
      Turns fp (samplesOf m) (start / 2) nch (loopBackPath a.rd.loopStart a.rd.loopFinish nch ((s : ℚ) + a.rd.rem) ρ)
        (Downing a.rd.loopStart a.rd.loopFinish M nch p R ((s : ℚ) + a.rd.rem) ρ) ∧
      ∀ t i, loopBackPath a.rd.loopStart a.rd.loopFinish nch ((s : ℚ) + a.rd.rem) ρ t = some i → start + 2 * ((i + 1) * nch) ≤ m.length := by
  have hn0 : (0 : Int) < nch := by exact_mod_cast hc
  have hR0 := hset.R0
  have hρ : 0 < ρ := by
    have h0 : a.rd.rate < 0 := by
      by_contra hcc
      exact absurd (fp.f.nonneg (not_lt.1 hcc)) (not_le.2 hset.rateF)
    linarith
  have hρR : ρ ≤ R := by have := hset.rateR; linarith
  have hrem1 : -1 < a.rd.rem := neg_lt_of_abs_lt hset.frac
  have hwhole := hset.whole
  obtain ⟨hA0, hAZ, hfile, habove, hwithin, -, -, -⟩ := hloop
  have hB0 : (0 : Int) < g.B := by exact_mod_cast g.B_pos
  have hNB' : (g.N : Int) * g.B ≤ 2 ^ 30 := by exact_mod_cast hNB
  have h1 : mm * g.B ≤ g.N * g.B := mul_le_mul_of_nonneg_right (by omega) (le_of_lt hB0)
  have h2 : R + 1 ≤ nch * (R + 1) := le_mul_of_one_le_left (by omega) (by omega)
  have h3 : (nch : Int) ≤ nch * nch := le_mul_of_one_le_right (by omega) (by omega)
  have hx : ∀ E : Int, ((start / 2 : Nat) : Int) + nch * (E + R + 2) = (start / 2 : Nat) + (E + 1) * nch + nch * (R + 1) := fun E => by ring
  have hx1 : ∀ E : Int, ((start / 2 : Nat) : Int) + nch * (E + 1) = (start / 2 : Nat) + E * nch + nch := fun E => by ring
  have hsl : ((samplesOf m).length : Int) = (m.length : Int) / 2 := by unfold samplesOf; simp
  generalize hA : a.rd.loopStart = A at *
  generalize hE : a.rd.loopFinish = E at *
  have hcl : ⌈((s : Nat) : ℚ) + a.rd.rem⌉ = (s : Int) := by
    rw [Int.ceil_eq_iff]; constructor <;> push_cast <;> linarith
  -- the start lies above the start of the loop
  have hsA : A ≤ s := by
    by_contra hcc
    have : ((s : Int) + 1) * nch ≤ A * nch := mul_le_mul_of_nonneg_right (by omega) (le_of_lt hn0)
    rw [add_mul, one_mul] at this
    push_cast at habove
    omega
  -- the last frame it can be at
  obtain ⟨M, hM1, hM2, hM3⟩ : ∃ M : Int, (s : Int) ≤ M ∧ E ≤ M + 1 ∧ ((start / 2 : Nat) : Int) + (M + 1) * nch ≤ (m.length : Int) / 2 := by
    rcases le_total (s : Int) (E - 1) with h | h
    · refine ⟨E - 1, h, by omega, ?_⟩
      rw [sub_add_cancel]; omega
    · refine ⟨s, le_refl _, by omega, ?_⟩
      rw [add_mul, one_mul]
      push_cast at hwithin ⊢
      omega
  have hlive : Downing A E M nch p R ((s : ℚ) + a.rd.rem) ρ 0 a'.rd := by
    refine ⟨(s : ℚ) + a.rd.rem, ⟨⟨⟨hop.plain hset.plain k2 hc, ?_, by rw [k3]; exact Int.natCast_nonneg _, by rw [k5]; exact hA0,
      by rw [k5, k6]; omega, ?_⟩, k4, k5, k6⟩, ?_, by rw [k8, hrate], ?_, by simpa using (OnGrid.int p (s : Int)).add hrem, by rw [hcl]; exact hM1, by rw [hcl]; omega⟩, ?_⟩
    · rw [hcl, k7, k3, k2]; push_cast; ring
    · rw [k3, k2, k6, hx1]
      omega
    · rw [hop.2.2.2.1, k5]
      by_cases hps : a.rd.playStart = .sample
      · exact Or.inr (hwhole hps)
      · exact Or.inl hps
    · rw [k9, hcl]; push_cast; ring
    · rw [if_neg (by rw [hcl]; omega)]; rfl
  have hT := down_turns (fp := fp) (data := samplesOf m) (H := start / 2) (nch := nch) (p := p) (x := (s : ℚ) + a.rd.rem) hA0 hc hAZ hM2 hρ hρR hgrid
    (by rw [hx]; omega) (by rw [hsl]; exact hM3)
  refine ⟨M, hρ, hsA, hlive, hT, ?_⟩
  have hat : ∀ t : Nat, A ≤ ⌈loopBackAt A E nch ((s : ℚ) + a.rd.rem) ρ t⌉ ∧ ⌈loopBackAt A E nch ((s : ℚ) + a.rd.rem) ρ t⌉ ≤ M := by
    intro t
    induction t with
    | zero =>
      show A ≤ ⌈(s : ℚ) + a.rd.rem⌉ ∧ ⌈(s : ℚ) + a.rd.rem⌉ ≤ M
      rw [hcl]; exact ⟨hsA, hM1⟩
    | succ t ih =>
      unfold loopBackAt
      simp only
      split
      · rw [ceil_add_sub]; omega
      · refine ⟨by omega, le_trans (Int.ceil_le_ceil ?_) ih.2⟩
        linarith
  intro t i hi
  have hi' := Option.some.inj hi
  obtain ⟨b1, b2⟩ := hat t
  have : (i : Int) + 1 ≤ M + 1 := by omega
  have := mul_le_mul_of_nonneg_right this (le_of_lt hn0)
  have hcast : (((i + 1) * nch : Nat) : Int) = ((i : Int) + 1) * nch := by push_cast; rfl
  omega

/-- What `playWav` leaves behind, round and round backwards. -/
theorem loop_back_opened (fp : Fp) (hfp : Representable fp) (g : Geo) (hB : g.B < 16384) (hNB : g.N * g.B ≤ 2 ^ 30) (a : FileReader) {m : List Nat}
    (hb : IsBytes m) (hm : m.length < 2 ^ 31) (past : Bool) (junk : List Nat) (hj : junk.length = 36) (hg : GoodHeader m)
    (hdep : leVal (slice m 34 2) = 16) {off : Nat} (hda : DataAt m off) (heven : off % 2 = 0) {nch : Nat} (hn : leVal (slice m 22 2) = nch)
    (hc : 1 ≤ nch) (hc' : nch ≤ 32767) {R mm : Int} (hset : RepeatBackSettings fp a.rd R) {p : Nat} {ρ : ℚ} (hrate : a.rd.rate = -ρ) (hgrid : GridRate p ρ)
    (hrem : OnGrid p a.rd.rem) (hrem0 : a.rd.rem ≤ 0) {s : Nat}
    (hP : StartsBackAt a.rd ((m.length : Int) / 2) ((off + 8) / 2 : Nat) a.rd.loopFinish nch ((off + 8) / 2 + s * nch : Nat))
    (hloop : GoodLoopBack g m ((off + 8) / 2 : Nat) nch a.rd.loopStart a.rd.loopFinish ((off + 8) / 2 + s * nch : Nat))
    (hmm0 : 0 ≤ mm) (hmm : 2 * mm + 5 ≤ g.N) (hadv : 128 * (nch * (R + 1)) + nch * nch ≤ mm * g.B) (nullOk : Bool) {fuel : Nat} (hf : g.N ≤ fuel + 2) :
    ∃ a' M, a.playWav g (some ⟨m, 0, past⟩) junk = .ok (true, a') ∧ 0 < ρ ∧ a.rd.loopStart ≤ s ∧
      LikeInMemory fp g nullOk (fuel + 2) a' m ∧ a'.rd.playing = true ∧ a'.rd.nch = nch ∧ a'.rd.header = ((off + 8) / 2 : Nat) ∧
      Downing a.rd.loopStart a.rd.loopFinish M nch p R ((s : ℚ) + a.rd.rem) ρ 0 a'.rd ∧
      Turns fp (samplesOf m) ((off + 8) / 2) nch (loopBackPath a.rd.loopStart a.rd.loopFinish nch ((s : ℚ) + a.rd.rem) ρ)
        (Downing a.rd.loopStart a.rd.loopFinish M nch p R ((s : ℚ) + a.rd.rem) ρ) ∧
      ∀ t i, loopBackPath a.rd.loopStart a.rd.loopFinish nch ((s : ℚ) + a.rd.rem) ρ t = some i → off + 8 + 2 * ((i + 1) * nch) ≤ m.length := by
  obtain ⟨a', k0, k1, k4, k2, k3, k5, k6, k7, k8, k9, k10⟩ := C60_back_wav_partial fp hfp g hB hNB a hb hm past junk hj hg hdep hda hn hc hc' hset hP hloop hmm0 hmm
    hadv nullOk hf
  have hop := playWav_opens k0
  obtain ⟨M, l1, l2, l3, l4, l5⟩ := loop_back_live (start := off + 8) hNB hm (by clear hn hloop hP; omega) hc hset hrate hgrid hrem hrem0 hloop hmm hadv hop k2 k3 k4 k5 k6 k7 k8 k9
  exact ⟨a', M, k0, l1, l2, k10, k1, k2, k3, l3, l4, l5⟩

/-- **C84** (repeated backwards).  A position before the start of the loop goes on `nch` frames before its end. -/
theorem C84_loop_back_partial (fp : Fp) (hfp : Representable fp) (g : Geo) (hB : g.B < 16384) (hNB : g.N * g.B ≤ 2 ^ 30) (a : FileReader) {m : List Nat}
    (hb : IsBytes m) (hm : m.length < 2 ^ 31) (past : Bool) (junk : List Nat) (hj : junk.length = 36) (hg : GoodHeader m)
    (hdep : leVal (slice m 34 2) = 16) {off : Nat} (hda : DataAt m off) (heven : off % 2 = 0) {nch : Nat} (hn : leVal (slice m 22 2) = nch)
    (hc : 1 ≤ nch) (hc' : nch ≤ 32767) {R mm : Int} (hset : RepeatBackSettings fp a.rd R) {p : Nat} {ρ : ℚ} (hrate : a.rd.rate = -ρ) (hgrid : GridRate p ρ)
    (hrem : OnGrid p a.rd.rem) (hrem0 : a.rd.rem ≤ 0) {s : Nat}
    (hP : StartsBackAt a.rd ((m.length : Int) / 2) ((off + 8) / 2 : Nat) a.rd.loopFinish nch ((off + 8) / 2 + s * nch : Nat))
    (hloop : GoodLoopBack g m ((off + 8) / 2 : Nat) nch a.rd.loopStart a.rd.loopFinish ((off + 8) / 2 + s * nch : Nat))
    (hmm0 : 0 ≤ mm) (hmm : 2 * mm + 5 ≤ g.N) (hadv : 128 * (nch * (R + 1)) + nch * nch ≤ mm * g.B) (nullOk : Bool) {fuel : Nat} (hf : g.N ≤ fuel + 2) :
    ∃ a', a.playWav g (some ⟨m, 0, past⟩) junk = .ok (true, a') ∧
      Sends fp g nullOk (fuel + 2) a' (fun i ch => dataSample m (off + 8) (i * nch + ch)) nch
        (loopBackPath a.rd.loopStart a.rd.loopFinish nch (s + a.rd.rem) ρ) := by
  obtain ⟨a', M, k0, -, -, k1, k2, k3, k4, k5, k6, k7⟩ := loop_back_opened fp hfp g hB hNB a hb hm past junk hj hg hdep hda heven hn hc hc' hset hrate hgrid hrem hrem0 hP hloop hmm0 hmm hadv
    nullOk hf
  exact ⟨a', k0, sends_of k1 k6 hc (by clear hn; omega) k2 k3 k4 k5 k7⟩

/-- A player just opened, to and fro at normal speed. -/
theorem bounce_live {fp : Fp} {g : Geo} {nullOk : Bool} {fuel : Nat} {a a' : FileReader} {m : List Nat} (hm : m.length < 2 ^ 31) {start nch : Nat} (heven : start % 2 = 0)
    (hc : 1 ≤ nch) (hc' : nch ≤ 32767) (hset : PingSettings fp a.rd 1) (hrate : a.rd.rate = 1) (hrem : a.rd.rem = 0)
    (hwhole : a.rd.playStart = .sample → a.rd.loopStart = 0) (hin : a.rd.loopStart ≤ firstFrame a.rd)
    (hloop : GoodPing g m (0 ≤ a.rd.rate) (start / 2 : Nat) nch a.rd.loopStart a.rd.loopFinish ((start / 2 : Nat) + a.rd.loopStart * nch) 1
      ((start / 2 : Nat) + firstFrame a.rd * nch)) (hop : Opens2 a.rd a') (k1 : a'.rd.playing = true) (k4 : a'.rd.loopType = .pingpong) (k2 : a'.rd.nch = nch)
    (k3 : a'.rd.header = (start / 2 : Nat)) (k5 : a'.rd.loopStart = a.rd.loopStart) (k6 : a'.rd.loopFinish = a.rd.loopFinish)
    (k7 : a'.rd.pos1 = (start / 2 : Nat) + firstFrame a.rd * nch) (k8 : a'.rd.rate = a.rd.rate) (k9 : a'.rd.rem = a.rd.rem)
    (k10 : LikeInMemory fp g nullOk (fuel + 2) a' m) :
    Sends fp g nullOk (fuel + 2) a' (fun i ch => dataSample m start (i * nch + ch)) nch (bouncePath (firstFrame a.rd) a.rd.loopStart a.rd.loopFinish nch) := by
  have hup : (0 : ℚ) ≤ a.rd.rate := by rw [hrate]; norm_num
  have hn0 : (0 : Int) < nch := by exact_mod_cast hc
  obtain ⟨hA0, hAZ, hfile, -, -, -, hupw, -⟩ := hloop
  have hup2 := (hupw hup).1
  clear hupw
  have hx1 : ∀ E : Int, ((start / 2 : Nat) : Int) + nch * (E + 1) = (start / 2 : Nat) + E * nch + nch := fun E => by ring
  have hsl : ((samplesOf m).length : Int) = (m.length : Int) / 2 := by unfold samplesOf; simp
  generalize hq : firstFrame a.rd = q at *
  generalize hA : a.rd.loopStart = A at *
  generalize hE : a.rd.loopFinish = E at *
  have hqE : q < E := by
    by_contra hcc
    have := mul_le_mul_of_nonneg_right (not_lt.1 hcc) (le_of_lt hn0)
    omega
  have hlive : Bouncing A E q nch 0 a'.rd := by
    refine ⟨k4, k5, k6, ?_, by rw [k9, hrem], q - A, Or.inl ⟨by rw [k8, hrate], by omega, by rw [k5, k6]; omega, ⟨hop.plain hset.plain k2 hc, ?_,
      by rw [k3]; exact Int.natCast_nonneg _, by rw [k5]; exact hA0, by rw [k5, k6]; omega, ?_⟩⟩, ?_⟩
    · rw [hop.2.2.2.1, k5]
      by_cases hps : a.rd.playStart = .sample
      · exact Or.inr (hwhole hps)
      · exact Or.inl hps
    · rw [k7, k3, k2, k5]; ring
    · rw [k3, k2, k6, hx1]; omega
    · congr 1; push_cast; ring
  have hT := bounce_turns (fp := fp) (data := samplesOf m) (H := start / 2) (nch := nch) (s := q) hA0 hc hAZ (by rw [hx1]; omega) (by rw [hsl]; omega)
  refine sends_of k10 hT hc (by omega) k1 k2 k3 hlive ?_
  intro t i hi
  unfold bouncePath at hi
  simp only at hi
  have hi' := Option.some.inj hi
  have hp0 : 0 < 2 * (E - A) - nch + 1 := by omega
  have e0 := Int.emod_nonneg ((t : Int) + q - A) (ne_of_gt hp0)
  have e1 := Int.emod_lt_of_pos ((t : Int) + q - A) hp0
  generalize ((t : Int) + q - A) % (2 * (E - A) - nch + 1) = j at *
  have : (i : Int) + 1 ≤ E := by
    split at hi' <;> omega
  have := mul_le_mul_of_nonneg_right this (le_of_lt hn0)
  have hcast : (((i + 1) * nch : Nat) : Int) = ((i : Int) + 1) * nch := by push_cast; rfl
  omega

/-- **C84** (to and fro at normal speed).  Up through the whole loop, down from `nch` frames before its end to its first frame, and
so on for ever. -/
theorem C84_pingpong_partial (fp : Fp) (hfp : Representable fp) (g : Geo) (hB : g.B < 16384) (hNB : g.N * g.B ≤ 2 ^ 30) (a : FileReader) {m : List Nat}
    (hb : IsBytes m) (hm : m.length < 2 ^ 31) (past : Bool) (junk : List Nat) (hj : junk.length = 36) (hg : GoodHeader m)
    (hdep : leVal (slice m 34 2) = 16) {off : Nat} (hda : DataAt m off) (heven : off % 2 = 0) {nch : Nat} (hn : leVal (slice m 22 2) = nch)
    (hc : 1 ≤ nch) (hc' : nch ≤ 32767) (hset : PingSettings fp a.rd 1) (hrate : a.rd.rate = 1) (hrem : a.rd.rem = 0)
    (hwhole : a.rd.playStart = .sample → a.rd.loopStart = 0) (hin : a.rd.loopStart ≤ firstFrame a.rd)
    (hloop : GoodPing g m (0 ≤ a.rd.rate) ((off + 8) / 2 : Nat) nch a.rd.loopStart a.rd.loopFinish (((off + 8) / 2 : Nat) + a.rd.loopStart * nch) 1
      (((off + 8) / 2 : Nat) + firstFrame a.rd * nch)) (nullOk : Bool) {fuel : Nat} (hf : g.N ≤ fuel + 2) :
    ∃ a', a.playWav g (some ⟨m, 0, past⟩) junk = .ok (true, a') ∧
      Sends fp g nullOk (fuel + 2) a' (fun i ch => dataSample m (off + 8) (i * nch + ch)) nch
        (bouncePath (firstFrame a.rd) a.rd.loopStart a.rd.loopFinish nch) := by
  have hup : (0 : ℚ) ≤ a.rd.rate := by rw [hrate]; norm_num
  obtain ⟨a', k0, k1, k4, k2, k3, k5, k6, k7, k8, k9, k10⟩ := C71_wav_partial fp hfp g hB hNB a hb hm past junk hj hg hdep hda hn hc hc' hset
    (P := ((off + 8) / 2 : Nat) + firstFrame a.rd * nch) (T := ((off + 8) / 2 : Nat) + a.rd.loopStart * nch)
    (by unfold StartsPingAt; rw [if_pos hup]) (by
      unfold TurnsBelowAt
      split
      · rename_i e; rw [hwhole e]; ring
      · rfl) hloop nullOk hf
  have hop := playWav_opens k0
  exact ⟨a', k0, bounce_live hm (by clear hn hloop; omega) hc hc' hset hrate hrem hwhole hin hloop hop k1 k4 k2 k3 k5 k6 k7 k8 k9 k10⟩

/-- At normal speed a loop entered at a whole frame is heard without a seam: frame `A + (q - A + t) mod (E - A)` at instant `t`. -/
theorem loopPath_one {A E q : Int} (hq : A ≤ q) (hE : q < E) (t : Nat) :
    loopPath A E (q : ℚ) 1 t = some (A + (q - A + t) % (E - A)).toNat := by
  have key : loopAt A E (q : ℚ) 1 t = ((A + (q - A + t) % (E - A) : Int) : ℚ) := by
    induction t with
    | zero =>
      rw [Nat.cast_zero, add_zero, Int.emod_eq_of_lt (by omega) (by omega), add_sub_cancel]
      rfl
    | succ t ih =>
      unfold loopAt
      simp only
      rw [ih]
      have e0 := Int.emod_nonneg (q - A + t) (show E - A ≠ 0 by omega)
      have e1 := Int.emod_lt_of_pos (q - A + t) (show 0 < E - A by omega)
      have es : (q - A + ((t + 1 : Nat) : Int)) % (E - A) = ((q - A + t) % (E - A) + 1) % (E - A) := by
        rw [Int.emod_add_emod]; congr 1; push_cast; ring
      rw [es]
      generalize (q - A + t) % (E - A) = j at *
      have ec : ((A + j : Int) : ℚ) + 1 = ((A + j + 1 : Int) : ℚ) := by push_cast; ring
      rw [ec, Int.floor_intCast, Int.fract_intCast, add_zero]
      split
      · have : j + 1 = E - A := by omega
        rw [this, Int.emod_self, add_zero]
      · rw [Int.emod_eq_of_lt (by omega) (by omega), ← add_assoc]
  unfold loopPath
  rw [key, Int.floor_intCast]

/-! ## Whole files (C69) -/

theorem Sends.congr {fp : Fp} {g : Geo} {nullOk : Bool} {fuel : Nat} {a : FileReader} {v w : Nat → Nat → Int} {nch : Nat} {path : Nat → Option Nat}
    (h : Sends fp g nullOk fuel a v nch path) (hn : 1 ≤ nch) (hvw : ∀ t i ch, path t = some i → ch < nch → v i ch = w i ch) :
    Sends fp g nullOk fuel a w nch path := by
  intro als
  have := h als
  rwa [pathPlay_congr hn hvw] at this

/-- What `playWav` finds in a well-formed 16-bit file of the expected shape. -/
theorem riff_facts {f : Fields} {before : List Chunk} {audio : List Nat} {after : List Chunk} (hw : WellFormed f [] before audio after)
    (hx : Expected [] before) {off : Nat} (hda : DataAt (riffWav f [] before audio after) off) :
    off % 2 = 0 ∧ GoodHeader (riffWav f [] before audio after) ∧ leVal (slice (riffWav f [] before audio after) 34 2) = 16 ∧
      leVal (slice (riffWav f [] before audio after) 22 2) = f.channels ∧ leVal (slice (riffWav f [] before audio after) (off + 4) 4) = audio.length ∧
      off + 8 + audio.length ≤ (riffWav f [] before audio after).length ∧
      ∀ j, 2 * j + 2 ≤ audio.length → dataSample (riffWav f [] before audio after) (off + 8) j = dataSample audio 0 j := by
  obtain ⟨off', pre, post, hda', heven, hpre, hm⟩ := expected_split hw hx
  have hoff : off = off' := by
    rcases hda.1 with ⟨h1, h2⟩ | ⟨h1, h2⟩ <;> rcases hda'.1 with ⟨h3, h4⟩ | ⟨h3, h4⟩
    · omega
    · rw [h1] at h3; exact absurd h3 (by decide)
    · rw [h1] at h3; exact absurd h3 (by decide)
    · omega
  subst hoff
  have hsm := hw.small
  have hlen : (riffWav f [] before audio after).length = off + 8 + audio.length + post.length := by
    rw [hm]
    simp only [List.length_append, hpre, le32B_length]
    omega
  refine ⟨heven, by rw [riffWav_plain]; exact good_header f _, by rw [riffWav_plain]; exact (header_depth hw.fields _).trans hw.depth,
    by rw [riffWav_plain]; exact header_channels hw.fields _, ?_, by omega, fun j hj => ?_⟩
  · rw [hm, ← hpre]
    have := slice_append_right (a := pre) (b := le32B audio.length ++ (audio ++ post)) (n := 4) (o := 0)
    rw [Nat.add_zero] at this
    rw [this, slice_append_left (by rw [le32B_length]), show slice (le32B audio.length) 0 4 = le32B audio.length from rfl, leVal_le32B (by omega)]
  · have h3 : (pre ++ le32B audio.length).length = off + 8 := by rw [List.length_append, hpre, le32B_length]
    rw [hm, ← List.append_assoc, ← h3]
    exact dataSample_part hj

/-- **C69, partial** (backwards).  A well-formed 16-bit file of the expected shape played backwards from frame `s` sounds exactly as
its audio says, whatever the other chunks hold. -/
theorem C69_back_partial (fp : Fp) (hfp : Representable fp) (g : Geo) (hB : g.B < 16384) (hNB : g.N * g.B ≤ 2 ^ 30) (a : FileReader)
    {f : Fields} {before : List Chunk} {audio : List Nat} {after : List Chunk} (hw : WellFormed f [] before audio after)
    (hx : Expected [] before) (hc' : f.channels ≤ 32767) (past : Bool) (junk : List Nat) (hj : junk.length = 36)
    {off : Nat} (hda : DataAt (riffWav f [] before audio after) off)
    {R mm : Int} (hset : BackwardSettings fp a.rd R) {p : Nat} {ρ : ℚ} (hrate : a.rd.rate = -ρ) (hgrid : GridRate p ρ) (hrem : OnGrid p a.rd.rem)
    (hrem0 : a.rd.rem ≤ 0) {s : Nat} (hs : s < audio.length / 2 / f.channels)
    (hP : StartsBackAt a.rd (((riffWav f [] before audio after).length : Int) / 2) ((off + 8) / 2 : Nat) (audio.length / 2 / f.channels : Nat) f.channels
      ((off + 8) / 2 + s * f.channels : Nat))
    (hgood : GoodStart g (riffWav f [] before audio after) ((off + 8) / 2 : Nat) f.channels ((off + 8) / 2 + s * f.channels : Nat))
    (hmm0 : 0 ≤ mm) (hmm : 2 * mm + 1 ≤ g.N) (hadv : 128 * (f.channels * (R + 1)) ≤ mm * g.B) (nullOk : Bool) {fuel : Nat} (hf : g.N ≤ fuel + 2) :
    ∃ a', a.playWav g (some ⟨riffWav f [] before audio after, 0, past⟩) junk = .ok (true, a') ∧
      Sends fp g nullOk (fuel + 2) a' (fun i ch => dataSample audio 0 (i * f.channels + ch)) f.channels (backPath (s + a.rd.rem) ρ 0) := by
  obtain ⟨r1, r2, r3, r4, r5, r6, r7⟩ := riff_facts hw hx hda
  obtain ⟨a', k1, k2⟩ := C84_back_partial fp hfp g hB hNB a (riffWav_bytes hw) hw.small past junk hj r2 r3 hda r1 r4 hw.channels hc' r5 r6 hset hrate hgrid hrem
    hrem0 hs hP hgood hmm0 hmm hadv nullOk hf
  refine ⟨a', k1, k2.congr hw.channels fun t i ch hi hch => r7 _ ?_⟩
  unfold backPath at hi
  split at hi
  · have hρ : 0 < ρ := by
      have h0 : a.rd.rate < 0 := by
        by_contra hcc
        exact absurd (fp.f.nonneg (not_lt.1 hcc)) (not_le.2 hset.rateF)
      linarith
    have hle : ⌈((s : Nat) : ℚ) + a.rd.rem - t * ρ⌉ ≤ s := by
      rw [Int.ceil_le]
      have : 0 ≤ (t : ℚ) * ρ := by positivity
      push_cast; linarith
    have hi' := Option.some.inj hi
    have h1 : i + 1 ≤ audio.length / 2 / f.channels := by omega
    have h2 : (i + 1) * f.channels ≤ audio.length / 2 := le_trans (Nat.mul_le_mul_right _ h1) (Nat.div_mul_le_self _ _)
    rw [Nat.add_mul, Nat.one_mul] at h2
    omega
  · cases hi

/-- **C69, partial** (loops).  The same with a repeated loop within the audio. -/
theorem C69_loop_partial (fp : Fp) (hfp : Representable fp) (g : Geo) (hB : g.B < 16384) (hNB : g.N * g.B ≤ 2 ^ 30) (a : FileReader)
    {f : Fields} {before : List Chunk} {audio : List Nat} {after : List Chunk} (hw : WellFormed f [] before audio after)
    (hx : Expected [] before) (hc' : f.channels ≤ 32767) (past : Bool) (junk : List Nat) (hj : junk.length = 36)
    {off : Nat} (hda : DataAt (riffWav f [] before audio after) off) (hin : a.rd.loopFinish ≤ (audio.length / 2 / f.channels : Nat))
    {R mm : Int} (hset : RepeatSettings a.rd R) {p : Nat} (hgrid : GridRate p a.rd.rate) (hrem : OnGrid p a.rd.rem) (hrem0 : 0 ≤ a.rd.rem)
    (hloop : GoodLoop g (riffWav f [] before audio after) ((off + 8) / 2 : Nat) f.channels a.rd.loopStart a.rd.loopFinish (firstFrame a.rd))
    (hmm0 : 0 ≤ mm) (hmm : 2 * mm + 5 ≤ g.N) (hadv : 128 * (f.channels * (R + 1)) ≤ mm * g.B) (nullOk : Bool) {fuel : Nat} (hf : g.N ≤ fuel + 2) :
    ∃ a', a.playWav g (some ⟨riffWav f [] before audio after, 0, past⟩) junk = .ok (true, a') ∧
      Sends fp g nullOk (fuel + 2) a' (fun i ch => dataSample audio 0 (i * f.channels + ch)) f.channels
        (loopPath a.rd.loopStart a.rd.loopFinish (firstFrame a.rd + a.rd.rem) a.rd.rate) := by
  obtain ⟨r1, r2, r3, r4, r5, r6, r7⟩ := riff_facts hw hx hda
  obtain ⟨a', k1, k2⟩ := C84_loop_partial fp hfp g hB hNB a (riffWav_bytes hw) hw.small past junk hj r2 r3 hda r1 r4 hw.channels hc' hset hgrid hrem
    hrem0 hloop hmm0 hmm hadv nullOk hf
  refine ⟨a', k1, k2.congr hw.channels fun t i ch hi hch => r7 _ ?_⟩
  have hrem1 : a.rd.rem < 1 := lt_of_abs_lt hset.frac
  have hfl : ⌊((firstFrame a.rd : Int) : ℚ) + a.rd.rem⌋ = firstFrame a.rd := by
    rw [Int.floor_eq_iff]; constructor <;> linarith
  have hlt : ⌊loopAt a.rd.loopStart a.rd.loopFinish (firstFrame a.rd + a.rd.rem) a.rd.rate t⌋ < a.rd.loopFinish := by
    cases t with
    | zero => show ⌊((firstFrame a.rd : Int) : ℚ) + a.rd.rem⌋ < _; rw [hfl]; exact hloop.q1
    | succ t =>
      unfold loopAt
      simp only
      split
      · rw [floor_add_fract]; exact hloop.AZ
      · omega
  have hi' := Option.some.inj hi
  have hA := hloop.A0
  have hAZ := hloop.AZ
  have h1 : i + 1 ≤ audio.length / 2 / f.channels := by omega
  have h2 : (i + 1) * f.channels ≤ audio.length / 2 := le_trans (Nat.mul_le_mul_right _ h1) (Nat.div_mul_le_self _ _)
  rw [Nat.add_mul, Nat.one_mul] at h2
  omega

/-! ## Examples -/

/-- The example file backwards at half speed from its end. -/
example : ∃ a', exMinusHalf.playWav sdGeo (some ⟨exWav, 0, false⟩) (List.replicate 36 7) = .ok (true, a') ∧
    Sends Fp.ieee sdGeo true (5 + 2) a' (fun i ch => dataSample exWav (48 + 8) (i * 2 + ch)) 2 (backPath ((1 : Nat) + exMinusHalf.rd.rem) (1 / 2) 0) :=
  C84_back_partial Fp.ieee ieee_representable sdGeo (by decide) (by decide) exMinusHalf exWav_bytes (by decide) false (List.replicate 36 7) (by decide)
    (by decide) (by decide) (off := 48) ⟨Or.inr ⟨by decide, by decide⟩, by decide, by decide⟩ (by decide) (nch := 2) (D := 8) (by decide) (by decide) (by decide)
    (by decide) (by decide) (R := 1) (mm := 1) exMinusHalf_settings (p := 1) (ρ := 1 / 2) (by norm_num [exMinusHalf])
    ⟨by norm_num, ⟨1, by norm_num⟩, by norm_num [abs_of_pos], by norm_num [abs_of_pos]⟩ (by simpa [exMinusHalf] using OnGrid.int 1 0) (by norm_num [exMinusHalf])
    (s := 1) (by decide) (by show ((_ : Nat) : Int) = _; decide) ⟨by decide, by decide, by decide, by decide⟩ (by decide) (by decide) (by decide) true (by decide)

/-- What it amounts to: both frames twice, from the last one, and silence. -/
example : pathPlay (fun i ch => dataSample exWav (48 + 8) (i * 2 + ch)) 2 (backPath 1 (1 / 2) 0) (some 0) [fun c => c == 0, fun _ => true, fun _ => true] =
    ([{ allocated := [0], released := [0] },
      { allocated := [0, 1], transmitted := [([3, 3, 1, 1] ++ List.replicate 124 0, 0), ([4, 4, 2, 2] ++ List.replicate 124 0, 1)],
        released := [0, 1], event := some .close }, {}], none) := by decide +kernel

/-- The long stereo file, frames 500 to 9000 repeated forwards from frame 7 at one and a half times the speed. -/
example : ∃ a', (exRepeat 9000 7).playWav sdGeo (some ⟨exLongWav, 0, false⟩) (List.replicate 36 7) = .ok (true, a') ∧
    Sends Fp.ieee sdGeo true (5 + 2) a' (fun i ch => dataSample exLongWav (48 + 8) (i * 2 + ch)) 2
      (loopPath 500 9000 ((firstFrame (exRepeat 9000 7).rd : Int) + (exRepeat 9000 7).rd.rem) (3 / 2)) :=
  C84_loop_partial Fp.ieee ieee_representable sdGeo (by decide) (by decide) (exRepeat 9000 7) exLongWav_bytes (by rw [exLongWav_length]; decide) false
    (List.replicate 36 7) (by decide) (by decide +kernel) (by decide +kernel) (off := 48)
    ⟨Or.inr ⟨by decide +kernel, by decide +kernel⟩, by decide +kernel, by rw [exLongWav_length]; decide⟩ (by decide) (nch := 2) (by decide +kernel) (by decide) (by decide)
    (exRepeat_settings 9000 7) (p := 1) ⟨by norm_num, ⟨3, by norm_num [exRepeat]⟩, by norm_num [exRepeat, abs_of_pos], by norm_num [exRepeat, abs_of_pos]⟩
    (by simpa [exRepeat] using OnGrid.int 1 0) (by norm_num [exRepeat])
    ⟨by decide, by decide, by rw [exLongWav_length]; decide, by decide, by decide, Or.inl ⟨by decide, by decide⟩⟩ (mm := 1) (by decide) (by decide) (by decide) true
    (by decide)

/-- The same loop backwards from frame 8400. -/
example : ∃ a', (exRepeatBack 9000 8400).playWav sdGeo (some ⟨exLongWav, 0, false⟩) (List.replicate 36 7) = .ok (true, a') ∧
    Sends Fp.ieee sdGeo true (5 + 2) a' (fun i ch => dataSample exLongWav (48 + 8) (i * 2 + ch)) 2
      (loopBackPath 500 9000 (2 : Nat) ((8400 : Nat) + (exRepeatBack 9000 8400).rd.rem) (3 / 2)) :=
  C84_loop_back_partial Fp.ieee ieee_representable sdGeo (by decide) (by decide) (exRepeatBack 9000 8400) exLongWav_bytes (by rw [exLongWav_length]; decide) false
    (List.replicate 36 7) (by decide) (by decide +kernel) (by decide +kernel) (off := 48)
    ⟨Or.inr ⟨by decide +kernel, by decide +kernel⟩, by decide +kernel, by rw [exLongWav_length]; decide⟩ (by decide) (nch := 2) (by decide +kernel) (by decide) (by decide)
    (exRepeatBack_settings 9000 8400) (p := 1) (ρ := 3 / 2) (by norm_num [exRepeatBack])
    ⟨by norm_num, ⟨3, by norm_num⟩, by norm_num [abs_of_pos], by norm_num [abs_of_pos]⟩ (by simpa [exRepeatBack] using OnGrid.int 1 0) (by norm_num [exRepeatBack])
    (s := 8400) (by show ((_ : Nat) : Int) = _; decide)
    ⟨by decide, by decide, by rw [exLongWav_length]; decide, by decide, by rw [exLongWav_length]; decide, by decide, by rw [exLongWav_length]; decide,
      Or.inl ⟨by decide, by decide⟩⟩ (mm := 1) (by decide) (by decide) (by decide) true (by decide)

/-- To and fro at normal speed from frame 600. -/
example : ∃ a', (exPing 1 9000 600).playWav sdGeo (some ⟨exLongWav, 0, false⟩) (List.replicate 36 7) = .ok (true, a') ∧
    Sends Fp.ieee sdGeo true (5 + 2) a' (fun i ch => dataSample exLongWav (48 + 8) (i * 2 + ch)) 2 (bouncePath 600 500 9000 (2 : Nat)) :=
  C84_pingpong_partial Fp.ieee ieee_representable sdGeo (by decide) (by decide) (exPing 1 9000 600) exLongWav_bytes (by rw [exLongWav_length]; decide) false
    (List.replicate 36 7) (by decide) (by decide +kernel) (by decide +kernel) (off := 48)
    ⟨Or.inr ⟨by decide +kernel, by decide +kernel⟩, by decide +kernel, by rw [exLongWav_length]; decide⟩ (by decide) (nch := 2) (by decide +kernel) (by decide) (by decide)
    (exPing_settings (by decide +kernel) (by norm_num) _ _) rfl rfl (fun h => by cases h) (by decide)
    ⟨by decide, by decide, by rw [exLongWav_length]; decide, by decide, by decide, ⟨by decide, by rw [exLongWav_length]; decide, by decide⟩,
      fun _ => ⟨by decide, Or.inl ⟨⟨by decide, by decide, 1, by decide, by decide⟩, by decide⟩⟩, fun h => absurd (by norm_num [exPing]) h⟩ true (by decide)

/-- A well-formed file with a LIST chunk before and another chunk after the audio, backwards at half speed from its second frame. -/
example : ∃ a', ({ rd := { rate := -1 / 2, playStart := .arbitrary, playbackStart := 1 } } : FileReader).playWav sdGeo
      (some ⟨riffWav exFields [] [exList] [1, 0, 2, 0, 3, 0, 4, 0] [exOddList], 0, false⟩) (List.replicate 36 7) = .ok (true, a') ∧
    Sends Fp.ieee sdGeo true (5 + 2) a' (fun i ch => dataSample [1, 0, 2, 0, 3, 0, 4, 0] 0 (i * 2 + ch)) 2 (backPath ((1 : Nat) + 0) (1 / 2) 0) :=
  C69_back_partial Fp.ieee ieee_representable sdGeo (by decide) (by decide) _ exRiff_good ⟨rfl, Or.inr ⟨_, rfl, by decide⟩⟩ (by decide) false
    (List.replicate 36 7) (by decide) (off := 48) ⟨Or.inr ⟨by decide, by decide⟩, by decide, by decide⟩ (R := 1) (mm := 1)
    ⟨⟨rfl, rfl⟩, rfl, by decide +kernel, by norm_num, by
      show IsFloat 53 (-1074) 0
      simpa using Rounding.isFloat_of (p := 53) (emin := -1074) (by norm_num) (m := 0) (e := 0) (by norm_num) (by norm_num), by norm_num⟩
    (p := 1) (ρ := 1 / 2) (by norm_num)
    ⟨by norm_num, ⟨1, by norm_num⟩, by norm_num [abs_of_pos], by norm_num [abs_of_pos]⟩ (by simpa using OnGrid.int 1 0) (by norm_num)
    (s := 1) (by decide) (by show ((_ : Nat) : Int) = _; decide) ⟨by decide, by decide, by decide, by decide⟩ (by decide) (by decide) (by decide) true (by decide)

/-- **C84 refuted.**  A loop of `E - A` frames at the speed `r` does not come round after `(E - A) / r` instants: what was stepped over the end of the loop is not
taken over to its start (src/ResamplingReader.h:248-251).  Three frames repeated at twice the speed: with positions taken modulo
the length of the loop one would hear the frames 0, 2, 1, 0, 2, 1, …; frame 1 is never heard. -/
theorem C84_refuted : ∃ a : ArrayReader, a.rd.rate = 2 ∧ a.rd.loopType = .repeat ∧ a.rd.loopStart = 0 ∧ a.rd.loopFinish = 3 ∧ a.src = some [10, 20, 30] ∧
    framesOf (a.read Fp.ieee 3 6) = .ok [[10], [30], [10], [30], [10], [30]] ∧
    ((List.range 6).map fun t : Nat => [([10, 20, 30] : List Int).getD ((0 + 2 * t) % 3) 0]) = [[10], [30], [20], [10], [30], [20]] :=
  ⟨{ rd := { playing := true, nch := 1, fileSamples := 3, rate := 2, loopType := .repeat, loopFinish := 3, fileSize := 6 }, src := some [10, 20, 30] },
    rfl, rfl, rfl, rfl, rfl, by decide +kernel, by decide⟩

end TVP
