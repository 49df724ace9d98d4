import Verif.Props.SmoothPath
import Verif.Props.Metadata

/-!
# Properties C89 and C90: two files that should sound the same

C89: a file played backwards sounds like the reversed file played forwards.  C90: a repeated loop sounds like a file in which the
loop is written out.
-/

namespace TVP
open Spec

/-- A 16-bit WAV file of `nch` channels with `D` bytes of sound, whose data chunk is at byte `off`. -/
structure WavFile (m : List Nat) (off nch D : Nat) : Prop where
  bytes : IsBytes m
  small : m.length < 2 ^ 31
  good : GoodHeader m
  depth : leVal (slice m 34 2) = 16
  data : DataAt m off
  even : off % 2 = 0
  chans : leVal (slice m 22 2) = nch
  len : leVal (slice m (off + 4) 4) = D
  inFile : off + 8 + D ≤ m.length
  some : 1 ≤ nch

/-- From here on the two players do the same for any pattern of failing allocations: the same blocks allocated, transmitted and
released, the same events, and they play equally long; for `n` updates. -/
def SoundAlike (fp : Fp) (g g' : Geo) (nullOk nullOk' : Bool) (fuel fuel' : Nat) (a b : FileReader) (n : Nat → Prop) : Prop :=
  ∀ als : List (Nat → Bool), n als.length → ∃ fxs a' b', a.ticks fp g nullOk fuel als = .ok (fxs, a') ∧ b.ticks fp g' nullOk' fuel' als = .ok (fxs, b') ∧
    a'.rd.playing = b'.rd.playing

/-- Two paths that say the same for a while. -/
def SameTold (v w : Nat → Nat → Int) (nch : Nat) (p q : Nat → Option Nat) (t : Nat) : Prop :=
  (p t).isSome = (q t).isSome ∧ ∀ i j ch, p t = some i → q t = some j → ch < nch → v i ch = w j ch

theorem pathBlock_ext {v w : Nat → Nat → Int} {nch : Nat} {p q : Nat → Option Nat} {k ch : Nat} (h : ∀ t < 128, SameTold v w nch p q (128 * k + t)) (hc : ch < nch) :
    pathBlock v p k ch = pathBlock w q k ch := by
  unfold pathBlock
  refine List.map_congr_left fun t ht => ?_
  obtain ⟨h1, h2⟩ := h t (List.mem_range.1 ht)
  cases e : p (128 * k + t) with
  | none =>
    rw [e] at h1
    cases e2 : q (128 * k + t) with
    | none => rfl
    | some j => rw [e2] at h1; cases h1
  | some i =>
    rw [e] at h1
    cases e2 : q (128 * k + t) with
    | none => rw [e2] at h1; cases h1
    | some j => exact h2 i j ch e e2 hc

theorem pathStep_ext {v w : Nat → Nat → Int} {nch : Nat} {p q : Nat → Option Nat} (hn : 1 ≤ nch) {k : Nat} (h : ∀ t < 128, SameTold v w nch p q (128 * k + t))
    (al : Nat → Bool) : pathStep v nch p (some k) al = pathStep w nch q (some k) al := by
  unfold pathStep
  simp only
  have e : (List.range nch).map (fun ch => (pathBlock v p k ch, ch)) = (List.range nch).map (fun ch => (pathBlock w q k ch, ch)) :=
    List.map_congr_left fun ch hc => by rw [pathBlock_ext h (List.mem_range.1 hc)]
  rw [e, pathBlock_ext h (show 0 < nch by omega), (h 127 (by omega)).1]

theorem pathPlay_none (v : Nat → Nat → Int) (nch : Nat) (p : Nat → Option Nat) : ∀ als : List (Nat → Bool), pathPlay v nch p none als = (als.map fun _ => {}, none)
  | [] => rfl
  | al :: als => by
    unfold pathPlay
    simp only [pathStep, pathPlay_none v nch p als, List.map_cons]

theorem pathPlay_ext {v w : Nat → Nat → Int} {nch : Nat} {p q : Nat → Option Nat} (hn : 1 ≤ nch) {T : Nat} (h : ∀ t < T, SameTold v w nch p q t) :
    ∀ (als : List (Nat → Bool)) (k : Nat), 128 * (k + als.length) ≤ T → pathPlay v nch p (some k) als = pathPlay w nch q (some k) als
  | [], _, _ => rfl
  | al :: als, k, hk => by
    rw [List.length_cons] at hk
    unfold pathPlay
    rw [pathStep_ext hn (fun t ht => h _ (by omega)) al]
    simp only
    have hst : (pathStep w nch q (some k) al).2 = none ∨ (pathStep w nch q (some k) al).2 = some k ∨ (pathStep w nch q (some k) al).2 = some (k + 1) := by
      unfold pathStep
      simp only
      split
      · simp only
        split
        · exact Or.inr (Or.inr rfl)
        · exact Or.inl rfl
      · exact Or.inr (Or.inl rfl)
    rcases hst with e | e | e <;> rw [e]
    · rw [pathPlay_none, pathPlay_none]
    · rw [pathPlay_ext hn h als k (by omega)]
    · rw [pathPlay_ext hn h als (k + 1) (by omega)]

/-- Two players that send what paths say, and the paths say the same. -/
theorem Sends.alike {fp : Fp} {g g' : Geo} {nullOk nullOk' : Bool} {fuel fuel' : Nat} {a b : FileReader} {v w : Nat → Nat → Int} {nch : Nat} {p q : Nat → Option Nat}
    (ha : Sends fp g nullOk fuel a v nch p) (hb : Sends fp g' nullOk' fuel' b w nch q) (hn : 1 ≤ nch) {T : Nat → Prop} (hT : ∀ n, T n → ∀ t < 128 * n, SameTold v w nch p q t) :
    SoundAlike fp g g' nullOk nullOk' fuel fuel' a b T := by
  intro als hl
  obtain ⟨a', h1, h2, -⟩ := ha als
  obtain ⟨b', h3, h4, -⟩ := hb als
  have e := pathPlay_ext hn (hT _ hl) als 0 (by omega)
  rw [e] at h1 h2
  exact ⟨_, a', b', h1, h3, by rw [h2, h4]⟩

/-- Forwards from `x` at the speed `r` up to frame `F`. -/
def forthPath (F : Int) (x r : ℚ) (t : Nat) : Option Nat := if ⌊x + t * r⌋ < F then some ⌊x + t * r⌋.toNat else none

theorem soundStep_path (v : Nat → Nat → Int) (nch : Nat) (F : Int) (x r : ℚ) (st : Option Nat) (al : Nat → Bool) :
    soundStep v nch F x r st al = pathStep v nch (forthPath F x r) st al := by
  have hb : ∀ k ch, soundBlock v F x r k ch = pathBlock v (forthPath F x r) k ch := by
    intro k ch
    unfold soundBlock pathBlock
    refine List.map_congr_left fun t _ => ?_
    unfold forthPath
    split <;> rfl
  have hs : ∀ t, (forthPath F x r t).isSome = decide (⌊x + t * r⌋ < F) := by
    intro t; unfold forthPath; split <;> simp [*]
  cases st with
  | none => rfl
  | some k =>
    unfold soundStep pathStep
    simp only [hb, hs, decide_eq_true_eq]

theorem soundPlay_path (v : Nat → Nat → Int) (nch : Nat) (F : Int) (x r : ℚ) : ∀ (als : List (Nat → Bool)) (st : Option Nat),
    soundPlay v nch F x r st als = pathPlay v nch (forthPath F x r) st als
  | [], _ => rfl
  | al :: als, st => by
    unfold soundPlay pathPlay
    simp only [soundStep_path, soundPlay_path v nch F x r als]

/-- C59 as a path. -/
theorem forth_sends (fp : Fp) (hfp : Representable fp) (g : Geo) (hB : g.B < 16384) (hNB : g.N * g.B ≤ 2 ^ 30) (a : FileReader) {m : List Nat}
    {off nch D : Nat} (hw : WavFile m off nch D) (past : Bool) (junk : List Nat) (hj : junk.length = 36) (hc' : nch ≤ 32767) (hroom : off + 8 < m.length)
    {R mm : Int} (hset : ForwardSettings a.rd R) {p : Nat} (hgrid : GridRate p a.rd.rate) (hrem : OnGrid p a.rd.rem) (hrem0 : 0 ≤ a.rd.rem)
    (hstart : a.rd.playStart = .arbitrary → 0 ≤ a.rd.playbackStart ∧ a.rd.playbackStart ≤ (D / 2 / nch : Nat))
    (hmm0 : 0 ≤ mm) (hmm : 2 * mm + 1 ≤ g.N) (hadv : 128 * (nch * (R + 1)) ≤ mm * g.B) (nullOk : Bool) {fuel : Nat} (hf : g.N ≤ fuel + 2) :
    ∃ a', a.playWav g (some ⟨m, 0, past⟩) junk = .ok (true, a') ∧ Sends fp g nullOk (fuel + 2) a' (fun i ch => dataSample m (off + 8) (i * nch + ch)) nch
      (forthPath (D / 2 / nch : Nat) ((if a.rd.playStart = .arbitrary then a.rd.playbackStart else 0) + a.rd.rem) a.rd.rate) := by
  obtain ⟨a', k1, k2⟩ := C59_end_to_end fp hfp g hB hNB a hw.bytes hw.small past junk hj hw.good hw.depth hw.data hw.even hw.chans hw.some hc' hw.len hw.inFile hroom hset hgrid
    hrem hrem0 hstart hmm0 hmm hadv nullOk hf
  refine ⟨a', k1, fun als => ?_⟩
  obtain ⟨a'', h1, h2, h3⟩ := k2 als
  rw [soundPlay_path] at h1 h2
  exact ⟨a'', h1, h2, h3⟩

theorem mirror_floor (F s q : Int) (h : s + q = F - 1) (f : ℚ) (y : ℚ) : ⌊(q : ℚ) + -f + y⌋ = F - 1 - ⌈(s : ℚ) + f - y⌉ := by
  have e : (q : ℚ) + -f + y = ((F - 1 : Int) : ℚ) - (s + f - y) := by
    rw [← h]; push_cast; ring
  rw [e, sub_eq_add_neg, Int.floor_intCast_add, Int.floor_neg]
  ring

/-- The frame of one path and the one of the mirrored path. -/
theorem mirror_frames {F s : Nat} {q : Int} (hF : (s : Int) + q = (F : Int) - 1) {f ρ : ℚ} {t i j : Nat} (h1 : backPath ((s : Nat) + f) ρ 0 t = some i)
    (h2 : forthPath F (q + -f) ρ t = some j) (hq : 0 ≤ q) (hf : f ≤ 0) (hρ : 0 ≤ ρ) : i + j + 1 = F := by
  unfold backPath at h1
  unfold forthPath at h2
  split at h1
  · rename_i h3
    split at h2
    · have e := mirror_floor F s q hF f (t * ρ)
      have h1' := Option.some.inj h1
      have h2' := Option.some.inj h2
      have h0 : 0 ≤ ⌊(q : ℚ) + -f + t * ρ⌋ := by
        refine Int.floor_nonneg.2 ?_
        have : (0 : ℚ) ≤ q := by exact_mod_cast hq
        have : 0 ≤ (t : ℚ) * ρ := by positivity
        linarith
      push_cast at e
      omega
    · cases h2
  · cases h1

theorem mirror_some {F s : Nat} {q : Int} (hF : (s : Int) + q = (F : Int) - 1) (f ρ : ℚ) (t : Nat) :
    (backPath ((s : Nat) + f) ρ 0 t).isSome = (forthPath F (q + -f) ρ t).isSome := by
  have e := mirror_floor F s q hF f (t * ρ)
  push_cast at e
  unfold backPath forthPath
  split
  · rw [if_pos (by omega)]; rfl
  · rw [if_neg (by omega)]

/-- **C89** (partial: where backward playback streams).  Let the frames of the sound of `m'` be those of `m` in reverse.  Then `m`
played backwards from frame `s` sounds exactly like `m'` played forwards from the frame that corresponds to it, at the same speed and
with the opposite fraction left over; whatever storage the two are on, with whatever buffers. -/
theorem C89_partial (fp : Fp) (hfp : Representable fp) {g g' : Geo} (hB : g.B < 16384) (hB' : g'.B < 16384) (hNB : g.N * g.B ≤ 2 ^ 30) (hNB' : g'.N * g'.B ≤ 2 ^ 30)
    (a b : FileReader) {m m' : List Nat} {off off' nch D : Nat} (hw : WavFile m off nch D) (hw' : WavFile m' off' nch D)
    (hrev : ∀ i j ch, i + j + 1 = D / 2 / nch → ch < nch → dataSample m' (off' + 8) (i * nch + ch) = dataSample m (off + 8) (j * nch + ch))
    (past past' : Bool) (junk junk' : List Nat) (hj : junk.length = 36) (hj' : junk'.length = 36) (hc' : nch ≤ 32767) {R mm mm' : Int}
    (hset : BackwardSettings fp a.rd R) (hset' : ForwardSettings b.rd R) {p : Nat} (hrate : a.rd.rate = -b.rd.rate) (hgrid : GridRate p b.rd.rate)
    (hrem : b.rd.rem = -a.rd.rem) (hremg : OnGrid p a.rd.rem) (hrem0 : a.rd.rem ≤ 0) {s : Nat}
    (hP : StartsBackAt a.rd ((m.length : Int) / 2) ((off + 8) / 2 : Nat) (D / 2 / nch : Nat) nch ((off + 8) / 2 + s * nch : Nat))
    (hq : (s : Int) + (if b.rd.playStart = .arbitrary then b.rd.playbackStart else 0) = (D / 2 / nch : Nat) - 1)
    (hq0 : b.rd.playStart = .arbitrary → 0 ≤ b.rd.playbackStart)
    (hgood : GoodStart g m ((off + 8) / 2 : Nat) nch ((off + 8) / 2 + s * nch : Nat))
    (hmm0 : 0 ≤ mm) (hmm : 2 * mm + 1 ≤ g.N) (hadv : 128 * (nch * (R + 1)) ≤ mm * g.B)
    (hmm0' : 0 ≤ mm') (hmm' : 2 * mm' + 1 ≤ g'.N) (hadv' : 128 * (nch * (R + 1)) ≤ mm' * g'.B)
    (nullOk nullOk' : Bool) {fuel fuel' : Nat} (hf : g.N ≤ fuel + 2) (hf' : g'.N ≤ fuel' + 2) :
    ∃ a' b', a.playWav g (some ⟨m, 0, past⟩) junk = .ok (true, a') ∧ b.playWav g' (some ⟨m', 0, past'⟩) junk' = .ok (true, b') ∧
      SoundAlike fp g g' nullOk nullOk' (fuel + 2) (fuel' + 2) a' b' (fun _ => True) := by
  have hq1 : 0 ≤ (if b.rd.playStart = .arbitrary then b.rd.playbackStart else 0) := by
    split
    · rename_i h; exact hq0 h
    · exact le_refl _
  have hs : s < D / 2 / nch := by clear hP hgood; omega
  have hremb : OnGrid p b.rd.rem := by rw [hrem]; simpa using (OnGrid.int p 0).sub hremg
  obtain ⟨a', k1, k2⟩ := C84_back_partial fp hfp g hB hNB a hw.bytes hw.small past junk hj hw.good hw.depth hw.data hw.even hw.chans hw.some hc' hw.len hw.inFile hset hrate hgrid
    hremg hrem0 hs hP hgood hmm0 hmm hadv nullOk hf
  have hroom' : off' + 8 < m'.length := by
    have := hw'.inFile
    have hD : 0 < D := by
      rcases Nat.eq_zero_or_pos D with h | h
      · subst h; simp at hs
      · exact h
    omega
  obtain ⟨b', l1, l2⟩ := forth_sends fp hfp g' hB' hNB' b hw' past' junk' hj' hc' hroom' hset' hgrid hremb (by rw [hrem]; linarith)
    (fun h => ⟨hq0 h, by rw [if_pos h] at hq; clear hP hgood; omega⟩) hmm0' hmm' hadv' nullOk' hf'
  refine ⟨a', b', k1, l1, k2.alike l2 hw.some fun _ _ t _ => ⟨?_, fun i j ch hi hjj hch => ?_⟩⟩
  · rw [hrem]; exact mirror_some hq _ _ t
  · rw [hrem] at hjj
    have e := mirror_frames hq hi hjj hq1 hrem0 hset'.rate0
    exact (hrev j i ch (by omega) hch).symm

/-- The same material, numbered from different frames on. -/
theorem interpOut_shift (fp : Fp) {k : Interp} {w w' : Int → Int} {held : Int} {b d : Int} {y : ℚ} (hw : ∀ i, b + 1 ≤ i → i ≤ ⌊y⌋ → w i = w' (i + d)) (hy : b + 1 ≤ ⌊y⌋) :
    interpOut fp k w held b y = interpOut fp k w' held (b + d) (y + d) := by
  have s1 : ⌊y + d⌋ = ⌊y⌋ + d := Int.floor_add_intCast y d
  have e1 : y + d - ((⌊y⌋ + d : Int) : ℚ) = y - ⌊y⌋ := by push_cast; ring
  unfold interpOut
  cases k with
  | none => simp only [s1]; exact hw _ hy (le_refl _)
  | linear =>
    simp only
    unfold linearOut
    rw [s1, e1, show ⌊y⌋ + d - (b + d) = ⌊y⌋ - b by ring]
    split
    · have : (y + d = ((⌊y⌋ + d : Int) : ℚ)) = (y = ⌊y⌋) := by
        push_cast
        exact propext (add_left_inj _)
      simp only [this]
      split
      · rfl
      · exact hw _ hy (le_refl _)
    · rw [hw ⌊y⌋ hy (le_refl _), hw (⌊y⌋ - 1) (by omega) (by omega), show ⌊y⌋ - 1 + d = ⌊y⌋ + d - 1 by ring]
  | quadratic =>
    simp only
    unfold cubicOut
    rw [s1, e1, show ⌊y⌋ + d - (b + d) = ⌊y⌋ - b by ring]
    split
    · rfl
    · rw [hw ⌊y⌋ hy (le_refl _), hw (⌊y⌋ - 1) (by omega) (by omega), hw (⌊y⌋ - 2) (by omega) (by omega), hw (⌊y⌋ - 3) (by omega) (by omega),
        show ⌊y⌋ - 1 + d = ⌊y⌋ + d - 1 by ring, show ⌊y⌋ - 2 + d = ⌊y⌋ + d - 2 by ring, show ⌊y⌋ - 3 + d = ⌊y⌋ + d - 3 by ring]

/-- Forwards with interpolation: the outputs exactly. -/
theorem forth_smooth (fp : Fp) (hfp : Representable fp) (g : Geo) (hB : g.B < 16384) (hNB : g.N * g.B ≤ 2 ^ 30) (a : FileReader) {m : List Nat}
    {off nch D : Nat} (hw : WavFile m off nch D) (past : Bool) (junk : List Nat) (hj : junk.length = 36) (h8 : nch ≤ 8) (hroom : off + 8 < m.length)
    {mm : Int} (hset : SmoothSettings a.rd 1) (hi : a.rd.interp ≠ .none) (hrate : 0 < a.rd.rate) {p : Nat} (hgrid : GridRate p a.rd.rate) (hrem : OnGrid p a.rd.rem)
    (hstart : a.rd.playStart = .arbitrary → 0 ≤ a.rd.playbackStart ∧ a.rd.playbackStart ≤ (D / 2 / nch : Nat))
    (hmm0 : 0 ≤ mm) (hmm : 2 * mm + 1 ≤ g.N) (hadv : 128 * (nch * 2) + nch ≤ mm * g.B) (nullOk : Bool) {fuel : Nat} (hf : g.N ≤ fuel + 2) {x : ℚ}
    (hx : x = TVP.startFrame a.rd + a.rd.rem) :
    ∃ a' out, a.playWav g (some ⟨m, 0, past⟩) junk = .ok (true, a') ∧ Sends fp g nullOk (fuel + 2) a' out nch (instants (D / 2 / nch : Nat) x a.rd.rate) ∧
      ∀ t ch : Nat, ch < nch → ⌊x + t * a.rd.rate⌋ < (D / 2 / nch : Nat) →
        out t ch = interpOut fp a.rd.interp (channelOf m (off + 8) nch ch) (a.rd.pts ch).y1 ⌊x - a.rd.rate⌋ (x + t * a.rd.rate) := by
  obtain ⟨a', k0, k1, k2, k3, k4, k5, k6, k7, k8, k9⟩ := smooth_opened fp hfp g hB hNB a hw.bytes hw.small past junk hj hw.good hw.depth hw.data hw.chans hw.some h8 hw.len hw.inFile
    hroom hset hi hgrid hrem hstart hmm0 hmm hadv nullOk hf
  have hx0 : 0 ≤ (TVP.startFrame a.rd : ℚ) + a.rd.rem := k7.x0
  have hr1 : a.rd.rate ≤ 1 := by exact_mod_cast hset.rateR
  rw [← hx] at hx0 k7
  have hb1 : -1 ≤ ⌊x - a.rd.rate⌋ := Int.le_floor.2 (by push_cast; linarith)
  have hE : off + 8 + 2 * (D / 2 / nch * nch) ≤ m.length := by have := Nat.div_mul_le_self (D / 2) nch; have := hw.inFile; omega
  have hev := hw.even
  have hsm : ∀ ch < nch, ∀ i : Int, 0 ≤ i → i < (D / 2 / nch : Nat) →
      smp (fun j => (samplesOf m).getD j.toNat 0) ((off + 8) / 2 : Nat) nch ch i = channelOf m (off + 8) nch ch i :=
    fun ch hch i i0 i1 => smp_channel (by omega) hch hE i0 i1
  have hfin : ∀ t ch : Nat, ch < nch → ⌊x + t * a.rd.rate⌋ < (D / 2 / nch : Nat) →
      interpOut fp a.rd.interp (smp (fun j => (samplesOf m).getD j.toNat 0) a'.rd.header a'.rd.nch ch) (a.rd.pts ch).y1 ⌊x - a.rd.rate⌋ (x + t * a.rd.rate) =
        interpOut fp a.rd.interp (channelOf m (off + 8) nch ch) (a.rd.pts ch).y1 ⌊x - a.rd.rate⌋ (x + t * a.rd.rate) := by
    intro t ch hch hF
    rw [k3, k2]
    have hbx : ⌊x - a.rd.rate⌋ + 1 ≤ ⌊x + t * a.rd.rate⌋ ∨ ⌊x - a.rd.rate⌋ + 1 = ⌊x + t * a.rd.rate⌋ + 1 := by
      have h1 : ⌊x - a.rd.rate⌋ ≤ ⌊x + t * a.rd.rate⌋ := Int.floor_le_floor (by
        have : 0 ≤ (t : ℚ) * a.rd.rate := by positivity
        linarith)
      omega
    have hy0 : 0 ≤ ⌊x + t * a.rd.rate⌋ := Int.floor_nonneg.2 (by positivity)
    rcases hbx with hbx | hbx
    · have := interpOut_shift fp (k := a.rd.interp) (w := smp (fun j => (samplesOf m).getD j.toNat 0) ((off + 8) / 2 : Nat) nch ch) (w' := channelOf m (off + 8) nch ch)
        (held := (a.rd.pts ch).y1) (b := ⌊x - a.rd.rate⌋) (d := 0) (y := x + t * a.rd.rate) (fun i h1 h2 => by
          rw [add_zero]; exact hsm ch hch i (by omega) (by omega)) hbx
      rw [this, add_zero, Int.cast_zero, add_zero]
    · have e := hsm ch hch ⌊x + t * a.rd.rate⌋ hy0 hF
      cases hk : a.rd.interp with
      | none => exact absurd hk hi
      | linear =>
        have hlt : ⌊x + t * a.rd.rate⌋ - ⌊x - a.rd.rate⌋ < 2 := by omega
        unfold interpOut linearOut
        simp only
        rw [if_pos hlt, if_pos hlt, e]
      | quadratic =>
        have hlt : ⌊x + t * a.rd.rate⌋ - ⌊x - a.rd.rate⌋ < 4 := by omega
        unfold interpOut cubicOut
        simp only
        rw [if_pos hlt, if_pos hlt]
  cases hk : a.rd.interp with
  | none => exact absurd hk hi
  | linear =>
    have hstep := linear_chanStep fp (arraySrcIs (samplesOf m)) (p := p) (R := 1) (r0 := a'.rd) (ρ := a.rd.rate) (b := ⌊x - a.rd.rate⌋)
      (fun c => (a.rd.pts c).y1) hrate hr1 (by rw [k6, hk]) (by rw [k2]; omega) hb1 (smooth_ok hw.bytes hw.inFile k3 k2 k4)
    have hread := smooth_read (x := x) (H := (off + 8) / 2) (nch := nch) hstep k2 (le_of_lt hrate) fuel
    rw [k4] at hread
    refine ⟨a', _, k0, sends_read k9 hread hw.some k1 k2 k3 ⟨by simpa using k7, SameConf.refl _, k5, fun c hcc => ?_⟩, fun t ch hch hF => ?_⟩
    · rw [k2] at hcc
      rw [k8 c (by omega), Nat.cast_zero, zero_mul, add_zero]
      refine ⟨le_refl _, by rw [sub_self]; rfl, fun _ => rfl, fun h => ?_, fun h => ?_⟩ <;> simp only at h <;> omega
    · rw [hk] at hfin
      exact hfin t ch hch hF
  | quadratic =>
    have hstep := cubic_chanStep fp (arraySrcIs (samplesOf m)) (p := p) (R := 1) (r0 := a'.rd) (ρ := a.rd.rate) (b := ⌊x - a.rd.rate⌋) hrate (by rw [k6, hk])
      (by rw [k2]; omega) hb1 (smooth_ok hw.bytes hw.inFile k3 k2 k4)
    have hread := smooth_read (x := x) (H := (off + 8) / 2) (nch := nch) hstep k2 (le_of_lt hrate) fuel
    rw [k4] at hread
    refine ⟨a', _, k0, sends_read k9 hread hw.some k1 k2 k3 ⟨by simpa using k7, SameConf.refl _, k5, fun c hcc => ?_⟩, fun t ch hch hF => ?_⟩
    · rw [k2] at hcc
      rw [k8 c (by omega), Nat.cast_zero, zero_mul, add_zero]
      refine ⟨le_refl _, by rw [sub_self]; rfl, ?_⟩
      simp only [Vals]
      refine ⟨fun h => by omega, fun h => by omega, fun h => by omega, fun h => by omega⟩
    · rw [hk] at hfin
      exact hfin t ch hch hF

/-- The position of a player that plays what was written out. -/
theorem written_pos {q F v : Int} {f ρ : ℚ} (hρ : 0 < ρ) (hf : 0 ≤ f) {n t : Nat} (hn : q + f + 128 * n * ρ ≤ F) (ht : t < 128 * n) :
    ⌊((q : ℚ) + f) + t * ρ⌋ = ⌊((v : ℚ) + f) + t * ρ⌋ + (q - v) ∧ q ≤ ⌊((q : ℚ) + f) + t * ρ⌋ ∧ ⌊((q : ℚ) + f) + t * ρ⌋ < F := by
  refine ⟨?_, ?_, ?_⟩
  · have hte : ((q : ℚ) + f) + t * ρ = (((v : ℚ) + f) + t * ρ) + ((q - v : Int) : ℚ) := by push_cast; ring
    rw [hte, Int.floor_add_intCast]
  · refine Int.le_floor.2 ?_
    have : 0 ≤ (t : ℚ) * ρ := by positivity
    linarith
  · rw [Int.floor_lt]
    have h1 : (t : ℚ) < 128 * n := by exact_mod_cast ht
    have h2 : (t : ℚ) * ρ < 128 * n * ρ := mul_lt_mul_of_pos_right h1 hρ
    linarith

/-- A loop and the same loop written out say the same. -/
theorem told_written {U : Int → Int} {v w : Nat → Nat → Int} {nch F : Nat} {p : Nat → Option Nat} {q v0 : Int} {f ρ : ℚ} (hρ : 0 < ρ) (hf : 0 ≤ f)
    (hp : ∀ t : Nat, p t = some (U ⌊((v0 : ℚ) + f) + t * ρ⌋).toNat) (hq : 0 ≤ q)
    (hout : ∀ (j ch : Nat), q ≤ j → j < F → ch < nch → w j ch = v (U (v0 + (j - q))).toNat ch) {n t : Nat} (hn : q + f + 128 * n * ρ ≤ F) (ht : t < 128 * n) :
    SameTold v w nch p (forthPath F (q + f) ρ) t := by
  obtain ⟨h1, h2, h3⟩ := written_pos (F := (F : Int)) (v := v0) hρ hf (by exact_mod_cast hn) ht
  refine ⟨?_, fun i j ch hi hjj hch => ?_⟩
  · unfold forthPath
    rw [if_pos h3, hp]; rfl
  · unfold forthPath at hjj
    rw [if_pos h3] at hjj
    rw [hp] at hi
    have hi' := Option.some.inj hi
    have hj' := Option.some.inj hjj
    have hjq : (j : Int) = ⌊((q : ℚ) + f) + t * ρ⌋ := by omega
    rw [hout j ch (by omega) (by omega) hch, hjq, h1, show v0 + (⌊((v0 : ℚ) + f) + t * ρ⌋ + (q - v0) - q) = ⌊((v0 : ℚ) + f) + t * ρ⌋ by ring, hi']

/-- **C90** (partial: up to normal speed, where the loop streams).  Let `m'` hold, from its frame `q` on, the frames of `m` in the order
in which the loop meets them.  Then the repeated loop in `m` sounds exactly like `m'` played once, for as long as `m'` lasts. -/
theorem C90_partial (fp : Fp) (hfp : Representable fp) {g g' : Geo} (hB : g.B < 16384) (hB' : g'.B < 16384) (hNB : g.N * g.B ≤ 2 ^ 30) (hNB' : g'.N * g'.B ≤ 2 ^ 30)
    (a b : FileReader) {m m' : List Nat} {off off' nch D D' : Nat} (hw : WavFile m off nch D) (hw' : WavFile m' off' nch D') {q : Int}
    (hout : ∀ (j ch : Nat), q ≤ j → j < D' / 2 / nch → ch < nch →
      dataSample m' (off' + 8) (j * nch + ch) = dataSample m (off + 8) ((unroll a.rd.loopStart a.rd.loopFinish (firstFrame a.rd + (j - q))).toNat * nch + ch))
    (past past' : Bool) (junk junk' : List Nat) (hj : junk.length = 36) (hj' : junk'.length = 36) (hc' : nch ≤ 32767) {mm mm' : Int}
    (hset : RepeatSettings a.rd 1) (hset' : ForwardSettings b.rd 1) {p : Nat} (hpos : 0 < a.rd.rate) (hrate : b.rd.rate = a.rd.rate) (hgrid : GridRate p a.rd.rate)
    (hrem : b.rd.rem = a.rd.rem) (hremg : OnGrid p a.rd.rem) (hrem0 : 0 ≤ a.rd.rem) (hq : (if b.rd.playStart = .arbitrary then b.rd.playbackStart else 0) = q) (hq0 : 0 ≤ q)
    (hqD : q ≤ (D' / 2 / nch : Nat)) (hroom' : off' + 8 < m'.length)
    (hloop : GoodLoop g m ((off + 8) / 2 : Nat) nch a.rd.loopStart a.rd.loopFinish (firstFrame a.rd))
    (hmm0 : 0 ≤ mm) (hmm : 2 * mm + 5 ≤ g.N) (hadv : 128 * (nch * 2) ≤ mm * g.B)
    (hmm0' : 0 ≤ mm') (hmm' : 2 * mm' + 1 ≤ g'.N) (hadv' : 128 * (nch * 2) ≤ mm' * g'.B)
    (nullOk nullOk' : Bool) {fuel fuel' : Nat} (hf : g.N ≤ fuel + 2) (hf' : g'.N ≤ fuel' + 2) :
    ∃ a' b', a.playWav g (some ⟨m, 0, past⟩) junk = .ok (true, a') ∧ b.playWav g' (some ⟨m', 0, past'⟩) junk' = .ok (true, b') ∧
      SoundAlike fp g g' nullOk nullOk' (fuel + 2) (fuel' + 2) a' b' (fun n => q + a.rd.rem + 128 * n * a.rd.rate ≤ (D' / 2 / nch : Nat)) := by
  obtain ⟨a', k1, k2⟩ := C84_loop_partial fp hfp g hB hNB a hw.bytes hw.small past junk hj hw.good hw.depth hw.data hw.even hw.chans hw.some hc' hset hgrid hremg hrem0 hloop hmm0 hmm
    hadv nullOk hf
  obtain ⟨b', l1, l2⟩ := forth_sends fp hfp g' hB' hNB' b hw' past' junk' hj' hc' hroom' hset' (hrate ▸ hgrid) (hrem ▸ hremg) (by rw [hrem]; exact hrem0)
    (fun h => by rw [if_pos h] at hq; rw [hq]; exact ⟨hq0, hqD⟩) hmm0' hmm' hadv' nullOk' hf'
  have hr1 : a.rd.rate ≤ 1 := by exact_mod_cast hset.rateR
  have hrem1 : a.rd.rem < 1 := lt_of_abs_lt hset.frac
  have hfl : ⌊((firstFrame a.rd : Int) : ℚ) + a.rd.rem⌋ = firstFrame a.rd := by
    rw [Int.floor_eq_iff]; constructor <;> linarith
  have hx : ⌊((firstFrame a.rd : Int) : ℚ) + a.rd.rem⌋ < a.rd.loopFinish := by rw [hfl]; exact hloop.q1
  rw [hrem, hrate, hq] at l2
  exact ⟨a', b', k1, l1, k2.alike l2 hw.some fun n hn t ht => told_written (U := unroll a.rd.loopStart a.rd.loopFinish) hpos hrem0
    (fun t => by unfold loopPath; rw [(loopAt_unroll hloop.AZ hx (le_of_lt hpos) hr1 t).1]) hq0 hout hn ht⟩

/-- **C90** (backwards, partial likewise): the frames in the order in which the loop meets them backwards from frame `s`. -/
theorem C90_back_partial (fp : Fp) (hfp : Representable fp) {g g' : Geo} (hB : g.B < 16384) (hB' : g'.B < 16384) (hNB : g.N * g.B ≤ 2 ^ 30) (hNB' : g'.N * g'.B ≤ 2 ^ 30)
    (a b : FileReader) {m m' : List Nat} {off off' nch D D' : Nat} (hw : WavFile m off nch D) (hw' : WavFile m' off' nch D') {q : Int} {s : Nat}
    (hout : ∀ (j ch : Nat), q ≤ j → j < D' / 2 / nch → ch < nch →
      dataSample m' (off' + 8) (j * nch + ch) = dataSample m (off + 8) ((unrollBack a.rd.loopStart (a.rd.loopFinish - nch) (-s + (j - q))).toNat * nch + ch))
    (past past' : Bool) (junk junk' : List Nat) (hj : junk.length = 36) (hj' : junk'.length = 36) (hc' : nch ≤ 32767) {mm mm' : Int}
    (hset : RepeatBackSettings fp a.rd 1) (hset' : ForwardSettings b.rd 1) {p : Nat} (hrate : a.rd.rate = -b.rd.rate) (hgrid : GridRate p b.rd.rate)
    (hrem : b.rd.rem = -a.rd.rem) (hremg : OnGrid p a.rd.rem) (hrem0 : a.rd.rem ≤ 0) (hq : (if b.rd.playStart = .arbitrary then b.rd.playbackStart else 0) = q) (hq0 : 0 ≤ q)
    (hqD : q ≤ (D' / 2 / nch : Nat)) (hroom' : off' + 8 < m'.length)
    (hP : StartsBackAt a.rd ((m.length : Int) / 2) ((off + 8) / 2 : Nat) a.rd.loopFinish nch ((off + 8) / 2 + s * nch : Nat))
    (hloop : GoodLoopBack g m ((off + 8) / 2 : Nat) nch a.rd.loopStart a.rd.loopFinish ((off + 8) / 2 + s * nch : Nat))
    (hmm0 : 0 ≤ mm) (hmm : 2 * mm + 5 ≤ g.N) (hadv : 128 * (nch * 2) + nch * nch ≤ mm * g.B)
    (hmm0' : 0 ≤ mm') (hmm' : 2 * mm' + 1 ≤ g'.N) (hadv' : 128 * (nch * 2) ≤ mm' * g'.B)
    (nullOk nullOk' : Bool) {fuel fuel' : Nat} (hf : g.N ≤ fuel + 2) (hf' : g'.N ≤ fuel' + 2) :
    ∃ a' b', a.playWav g (some ⟨m, 0, past⟩) junk = .ok (true, a') ∧ b.playWav g' (some ⟨m', 0, past'⟩) junk' = .ok (true, b') ∧
      SoundAlike fp g g' nullOk nullOk' (fuel + 2) (fuel' + 2) a' b' (fun n => q + -a.rd.rem + 128 * n * b.rd.rate ≤ (D' / 2 / nch : Nat)) := by
  obtain ⟨a', k1, k2⟩ := C84_loop_back_partial fp hfp g hB hNB a hw.bytes hw.small past junk hj hw.good hw.depth hw.data hw.even hw.chans hw.some hc' hset hrate hgrid hremg hrem0
    hP hloop hmm0 hmm hadv nullOk hf
  obtain ⟨-, -, -, hρ, hsA, -⟩ := loop_back_opened fp hfp g hB hNB a hw.bytes hw.small past junk hj hw.good hw.depth hw.data hw.even hw.chans hw.some hc' hset hrate hgrid hremg hrem0
    hP hloop hmm0 hmm hadv nullOk hf
  have hremb : OnGrid p b.rd.rem := by rw [hrem]; simpa using (OnGrid.int p 0).sub hremg
  obtain ⟨b', l1, l2⟩ := forth_sends fp hfp g' hB' hNB' b hw' past' junk' hj' hc' hroom' hset' hgrid hremb (by rw [hrem]; linarith)
    (fun h => by rw [if_pos h] at hq; rw [hq]; exact ⟨hq0, hqD⟩) hmm0' hmm' hadv' nullOk' hf'
  have hr1 : b.rd.rate ≤ 1 := by exact_mod_cast hset'.rateR
  have hrem1 : -1 < a.rd.rem := neg_lt_of_abs_lt hset.frac
  have hcl : ⌈((s : Nat) : ℚ) + a.rd.rem⌉ = (s : Int) := by
    rw [Int.ceil_eq_iff]; constructor <;> push_cast <;> linarith
  have hAT : a.rd.loopStart ≤ a.rd.loopFinish - nch := by
    obtain ⟨-, hAZ, -, -, -, -, -, -⟩ := hloop
    omega
  have hx : a.rd.loopStart ≤ ⌈((s : Nat) : ℚ) + a.rd.rem⌉ := by rw [hcl]; exact hsA
  rw [hrem, hq] at l2
  refine ⟨a', b', k1, l1, k2.alike l2 hw.some fun n hn t ht => told_written (U := unrollBack a.rd.loopStart (a.rd.loopFinish - nch)) (v0 := -s) hρ (by linarith)
    (fun t => ?_) hq0 hout hn ht⟩
  unfold loopBackPath
  rw [(loopBackAt_unroll hAT hx (le_of_lt hρ) hr1 t).1, show -(((s : Nat) : ℚ) + a.rd.rem) = ((-s : Int) : ℚ) + -a.rd.rem by push_cast; ring]

/-- With interpolation. -/
theorem smooth_alike {fp : Fp} (hfp : Representable fp) {g g' : Geo} (hB' : g'.B < 16384) (hNB' : g'.N * g'.B ≤ 2 ^ 30) {a' b : FileReader} {m' : List Nat} {off' nch D' : Nat}
    (hw' : WavFile m' off' nch D') (h8 : nch ≤ 8) (past' : Bool) (junk' : List Nat) (hj' : junk'.length = 36) {mm' : Int} (hset' : SmoothSettings b.rd 1)
    (hi : b.rd.interp ≠ .none) (hpos : 0 < b.rd.rate) {p : Nat} (hgrid : GridRate p b.rd.rate) (hremb : OnGrid p b.rd.rem) {q : Int}
    (hq : (if b.rd.playStart = .arbitrary then b.rd.playbackStart else 0) = q) (hq0 : 0 ≤ q) (hqD : q ≤ (D' / 2 / nch : Nat)) (hroom' : off' + 8 < m'.length)
    (hmm0' : 0 ≤ mm') (hmm' : 2 * mm' + 1 ≤ g'.N) (hadv' : 128 * (nch * 2) + nch ≤ mm' * g'.B) (nullOk nullOk' : Bool) {fuel fuel' : Nat} (hf' : g'.N ≤ fuel' + 2)
    {out : Nat → Nat → Int} {path : Nat → Option Nat} {w : Nat → Int → Int} {held : Nat → Int} {x : ℚ} {d : Int} {N : Int} {T : Nat → Prop}
    (hsend : Sends fp g nullOk (fuel + 2) a' out nch path) (hsound : Exactly fp b.rd.interp w held x b.rd.rate out)
    (hx : (q : ℚ) + b.rd.rem = x + d) (hN : N + d = (D' / 2 / nch : Nat)) (hx0 : q ≤ ⌊x⌋ + d)
    (hh : b.rd.interp = .linear → ∀ c < nch, held c = (b.rd.pts c).y1) (hW : ∀ (i : Nat) (c : Nat), q ≤ i → i < D' / 2 / nch → c < nch → dataSample m' (off' + 8) (i * nch + c) = w c (i - d))
    (hT : ∀ n, T n → ∀ t < 128 * n, path t = instants N x b.rd.rate t) :
    ∃ b', b.playWav g' (some ⟨m', 0, past'⟩) junk' = .ok (true, b') ∧ SoundAlike fp g g' nullOk nullOk' (fuel + 2) (fuel' + 2) a' b' T := by
  have hs : TVP.startFrame b.rd = q := hq
  obtain ⟨b', out', l1, l2, l3⟩ := forth_smooth fp hfp g' hB' hNB' b hw' past' junk' hj' h8 hroom' hset' hi hpos hgrid hremb
    (fun h => by rw [if_pos h] at hq; rw [hq]; exact ⟨hq0, hqD⟩) hmm0' hmm' hadv' nullOk' hf' (x := x + d) (by rw [hs, hx])
  have hr1 : b.rd.rate ≤ 1 := by exact_mod_cast hset'.rateR
  refine ⟨b', l1, hsend.alike l2 hw'.some fun n hn t ht => ?_⟩
  have e1 : ⌊x + d + t * b.rd.rate⌋ = ⌊x + t * b.rd.rate⌋ + d := by rw [← Int.floor_add_intCast]; congr 1; ring
  have e : instants (D' / 2 / nch : Nat) (x + d) b.rd.rate t = instants N x b.rd.rate t := by
    unfold instants
    rw [e1, ← hN]
    by_cases h : ⌊x + t * b.rd.rate⌋ < N
    · rw [if_pos h, if_pos (by omega)]
    · rw [if_neg h, if_neg (by omega)]
  refine ⟨by rw [hT n hn t ht, e], fun i j ch hii hjj hch => ?_⟩
  rw [hT n hn t ht] at hii
  rw [e] at hjj
  have hin : ⌊x + t * b.rd.rate⌋ < N := by
    unfold instants at hii
    by_contra h
    rw [if_neg h] at hii; cases hii
  unfold instants at hii hjj
  rw [if_pos hin] at hii hjj
  cases hii; cases hjj
  have hheld : ∀ w y0 y, interpOut fp b.rd.interp w (b.rd.pts ch).y1 y0 y = interpOut fp b.rd.interp w (held ch) y0 y := by
    intro w y0 y
    cases hk : b.rd.interp with
    | none => rfl
    | linear => rw [hh hk ch hch]
    | quadratic => rfl
  rw [hsound t ch, l3 t ch hch (by rw [e1]; omega), hheld]
  have e2 : ⌊x + d - b.rd.rate⌋ = ⌊x - b.rd.rate⌋ + d := by rw [← Int.floor_add_intCast]; congr 1; ring
  have e3 : x + d + t * b.rd.rate = x + t * b.rd.rate + d := by ring
  have hb : ⌊x⌋ ≤ ⌊x - b.rd.rate⌋ + 1 := by
    rw [← Int.floor_add_one]; exact Int.floor_le_floor (by linarith)
  have htr : 0 ≤ (t : ℚ) * b.rd.rate := by positivity
  have hxt : ⌊x⌋ ≤ ⌊x + t * b.rd.rate⌋ := Int.floor_le_floor (by linarith)
  have hw2 : ∀ i, ⌊x⌋ ≤ i → i ≤ ⌊x + t * b.rd.rate⌋ → w ch i = channelOf m' (off' + 8) nch ch (i + d) := by
    intro i h1 h2
    have h3 := hW (i + d).toNat ch (by omega) (by omega) hch
    unfold channelOf
    rw [h3]
    congr 1
    omega
  rw [e2, e3]
  by_cases hbx : ⌊x - b.rd.rate⌋ + 1 ≤ ⌊x + t * b.rd.rate⌋
  · exact interpOut_shift fp (fun i h1 h2 => hw2 i (by omega) h2) hbx
  · have hbe : ⌊x + t * b.rd.rate⌋ ≤ ⌊x - b.rd.rate⌋ := by omega
    have s1 : ⌊x + t * b.rd.rate + d⌋ = ⌊x + t * b.rd.rate⌋ + d := Int.floor_add_intCast _ d
    cases hk : b.rd.interp with
    | none => exact absurd hk hi
    | linear =>
      have h1 : ⌊x + t * b.rd.rate⌋ - ⌊x - b.rd.rate⌋ < 2 := by omega
      have h2 : ⌊x + t * b.rd.rate⌋ + d - (⌊x - b.rd.rate⌋ + d) < 2 := by omega
      unfold interpOut linearOut
      simp only
      rw [s1, if_pos h1, if_pos h2, hw2 _ hxt (le_refl _)]
      have : (x + t * b.rd.rate + d = ((⌊x + t * b.rd.rate⌋ + d : Int) : ℚ)) = (x + t * b.rd.rate = ⌊x + t * b.rd.rate⌋) := by
        push_cast
        exact propext (add_left_inj _)
      simp only [this]
    | quadratic =>
      have h1 : ⌊x + t * b.rd.rate⌋ - ⌊x - b.rd.rate⌋ < 4 := by omega
      have h2 : ⌊x + t * b.rd.rate⌋ + d - (⌊x - b.rd.rate⌋ + d) < 4 := by omega
      unfold interpOut cubicOut
      simp only
      rw [s1, if_pos h1, if_pos h2]

/-- **C89** (with interpolation; partial likewise, and up to normal speed).  The two are the same if the values held from the
sounds before are. -/
theorem C89_smooth_partial (fp : Fp) (hfp : Representable fp) {g g' : Geo} (hB : g.B < 16384) (hB' : g'.B < 16384) (hNB : g.N * g.B ≤ 2 ^ 30) (hNB' : g'.N * g'.B ≤ 2 ^ 30)
    (a b : FileReader) {m m' : List Nat} {off off' nch D : Nat} (hw : WavFile m off nch D) (hw' : WavFile m' off' nch D)
    (hrev : ∀ i j ch, i + j + 1 = D / 2 / nch → ch < nch → dataSample m' (off' + 8) (i * nch + ch) = dataSample m (off + 8) (j * nch + ch))
    (past past' : Bool) (junk junk' : List Nat) (hj : junk.length = 36) (hj' : junk'.length = 36) (h8 : nch ≤ 8) {mm mm' : Int}
    (hset : BackwardSettings fp a.rd 1) (hset' : SmoothSettings b.rd 1) (hi : b.rd.interp ≠ .none) {p : Nat} (hrate : a.rd.rate = -b.rd.rate)
    (hgrid : GridRate p b.rd.rate) (hrem : b.rd.rem = -a.rd.rem) (hremg : OnGrid p a.rd.rem) (hrem0 : a.rd.rem ≤ 0) (hpts : PtsOk a.rd)
    (hheld : b.rd.interp = .linear → ∀ c < nch, (a.rd.pts c).y1 = (b.rd.pts c).y1) {s : Nat}
    (hP : StartsBackAt a.rd ((m.length : Int) / 2) ((off + 8) / 2 : Nat) (D / 2 / nch : Nat) nch ((off + 8) / 2 + s * nch : Nat))
    (hq : (s : Int) + (if b.rd.playStart = .arbitrary then b.rd.playbackStart else 0) = (D / 2 / nch : Nat) - 1)
    (hq0 : b.rd.playStart = .arbitrary → 0 ≤ b.rd.playbackStart)
    (hgood : GoodStart g m ((off + 8) / 2 : Nat) nch ((off + 8) / 2 + s * nch : Nat))
    (hmm0 : 0 ≤ mm) (hmm : 2 * mm + 1 ≤ g.N) (hadv : 128 * (nch * 2) ≤ mm * g.B)
    (hmm0' : 0 ≤ mm') (hmm' : 2 * mm' + 1 ≤ g'.N) (hadv' : 128 * (nch * 2) + nch ≤ mm' * g'.B)
    (nullOk nullOk' : Bool) {fuel fuel' : Nat} (hf : g.N ≤ fuel + 2) (hf' : g'.N ≤ fuel' + 2) :
    ∃ a' b', (a.withInterp b.rd.interp).playWav g (some ⟨m, 0, past⟩) junk = .ok (true, a') ∧ b.playWav g' (some ⟨m', 0, past'⟩) junk' = .ok (true, b') ∧
      SoundAlike fp g g' nullOk nullOk' (fuel + 2) (fuel' + 2) a' b' (fun _ => True) := by
  have hq1 : 0 ≤ (if b.rd.playStart = .arbitrary then b.rd.playbackStart else 0) := by
    split
    · rename_i h; exact hq0 h
    · exact le_refl _
  obtain ⟨q, hqq⟩ : ∃ q, (if b.rd.playStart = .arbitrary then b.rd.playbackStart else 0) = q := ⟨_, rfl⟩
  rw [hqq] at hq hq1
  have hs : s < D / 2 / nch := by clear hP hgood; omega
  have hremb : OnGrid p b.rd.rem := by rw [hrem]; simpa using (OnGrid.int p 0).sub hremg
  have hpos : 0 < b.rd.rate := by
    have h0 : a.rd.rate < 0 := by
      by_contra hcc
      exact absurd (fp.f.nonneg (not_lt.1 hcc)) (not_le.2 hset.rateF)
    linarith
  have hrem1 : -1 < a.rd.rem := neg_lt_of_abs_lt hset.frac
  obtain ⟨a', out, k1, k2, k3⟩ := back_smooth fp hfp b.rd.interp hi g hB hNB a hw.bytes hw.small past junk hj hw.good hw.depth hw.data hw.even hw.chans hw.some h8 hw.len hw.inFile
    hset hrate hgrid hremg hrem0 hpts hs hP hgood hmm0 hmm hadv nullOk hf
  have hroom' : off' + 8 < m'.length := by
    have := hw'.inFile
    have hD : 0 < D := by
      rcases Nat.eq_zero_or_pos D with h | h
      · subst h; simp at hs
      · exact h
    omega
  clear hP hgood
  have hfl : ⌊-(((s : Nat) : ℚ) + a.rd.rem)⌋ = -s := by
    rw [Int.floor_eq_iff]; constructor <;> push_cast <;> linarith
  obtain ⟨b', l1, l2⟩ := smooth_alike hfp hB' hNB' hw' h8 past' junk' hj' hset' hi hpos hgrid hremb hqq hq1 (by omega) hroom' hmm0' hmm' hadv' nullOk nullOk' hf'
    (T := fun _ => True) (d := q + s) (N := 1) k2 k3 (by rw [hrem]; push_cast; ring) (by omega) (by rw [hfl]; omega) hheld
    (fun i c h1 h2 hc => by
      unfold channelOf
      have e : -((i : Int) - (q + s)) = ((D / 2 / nch - 1 - i : Nat) : Int) := by omega
      rw [e, Int.toNat_natCast]
      exact hrev i _ c (by omega) hc) (fun _ _ _ _ => rfl)
  exact ⟨a', b', k1, l1, l2⟩

/-- **C90** (with interpolation; partial likewise): the interpolation from the end of the loop to its beginning is that of the
file in which the loop is written out. -/
theorem C90_smooth_partial (fp : Fp) (hfp : Representable fp) {g g' : Geo} (hB : g.B < 16384) (hB' : g'.B < 16384) (hNB : g.N * g.B ≤ 2 ^ 30) (hNB' : g'.N * g'.B ≤ 2 ^ 30)
    (a b : FileReader) {m m' : List Nat} {off off' nch D D' : Nat} (hw : WavFile m off nch D) (hw' : WavFile m' off' nch D') {q : Int}
    (hout : ∀ (j ch : Nat), q ≤ j → j < D' / 2 / nch → ch < nch →
      dataSample m' (off' + 8) (j * nch + ch) = dataSample m (off + 8) ((unroll a.rd.loopStart a.rd.loopFinish (firstFrame a.rd + (j - q))).toNat * nch + ch))
    (past past' : Bool) (junk junk' : List Nat) (hj : junk.length = 36) (hj' : junk'.length = 36) (h8 : nch ≤ 8) {mm mm' : Int}
    (hset : RepeatSettings a.rd 1) (hset' : SmoothSettings b.rd 1) (hi : b.rd.interp ≠ .none) {p : Nat} (hpos : 0 < a.rd.rate) (hrate : b.rd.rate = a.rd.rate)
    (hgrid : GridRate p a.rd.rate) (hrem : b.rd.rem = a.rd.rem) (hremg : OnGrid p a.rd.rem) (hrem0 : 0 ≤ a.rd.rem) (hpts : PtsOk a.rd)
    (hheld : b.rd.interp = .linear → ∀ c < nch, (a.rd.pts c).y1 = (b.rd.pts c).y1) (hq : (if b.rd.playStart = .arbitrary then b.rd.playbackStart else 0) = q) (hq0 : 0 ≤ q)
    (hqD : q ≤ (D' / 2 / nch : Nat)) (hroom' : off' + 8 < m'.length)
    (hloop : GoodLoop g m ((off + 8) / 2 : Nat) nch a.rd.loopStart a.rd.loopFinish (firstFrame a.rd))
    (hmm0 : 0 ≤ mm) (hmm : 2 * mm + 5 ≤ g.N) (hadv : 128 * (nch * 2) ≤ mm * g.B)
    (hmm0' : 0 ≤ mm') (hmm' : 2 * mm' + 1 ≤ g'.N) (hadv' : 128 * (nch * 2) + nch ≤ mm' * g'.B)
    (nullOk nullOk' : Bool) {fuel fuel' : Nat} (hf : g.N ≤ fuel + 2) (hf' : g'.N ≤ fuel' + 2) :
    ∃ a' b', (a.withInterp b.rd.interp).playWav g (some ⟨m, 0, past⟩) junk = .ok (true, a') ∧ b.playWav g' (some ⟨m', 0, past'⟩) junk' = .ok (true, b') ∧
      SoundAlike fp g g' nullOk nullOk' (fuel + 2) (fuel' + 2) a' b' (fun n => q + a.rd.rem + 128 * n * a.rd.rate ≤ (D' / 2 / nch : Nat)) := by
  obtain ⟨a', out, k1, k2, k3⟩ := loop_smooth fp hfp b.rd.interp hi g hB hNB a hw.bytes hw.small past junk hj hw.good hw.depth hw.data hw.even hw.chans hw.some h8
    hset hpos hgrid hremg hrem0 hpts hloop hmm0 hmm hadv nullOk hf
  have hrem1 : a.rd.rem < 1 := lt_of_abs_lt hset.frac
  have hfl : ⌊((firstFrame a.rd : Int) : ℚ) + a.rd.rem⌋ = firstFrame a.rd := by
    rw [Int.floor_eq_iff]; constructor <;> linarith
  clear hloop
  obtain ⟨b', l1, l2⟩ := smooth_alike hfp hB' hNB' hw' h8 past' junk' hj' hset' hi (by rw [hrate]; exact hpos) (by rw [hrate]; exact hgrid) (by rw [hrem]; exact hremg) hq hq0 hqD
    hroom' hmm0' hmm' hadv' nullOk nullOk' hf' (T := fun n => (q : ℚ) + a.rd.rem + 128 * n * a.rd.rate ≤ (D' / 2 / nch : Nat)) (d := q - firstFrame a.rd)
    (N := (D' / 2 / nch : Nat) - (q - firstFrame a.rd)) k2 (by rw [hrate]; exact k3) (by rw [hrem]; push_cast; ring) (by ring) (by rw [hfl]; omega) hheld
    (fun i c h1 h2 hc => by
      rw [hout i c h1 h2 hc]
      unfold channelOf
      ring_nf) (fun n hn t ht => by
      obtain ⟨h1, h2, h3⟩ := written_pos (F := (D' / 2 / nch : Nat)) (v := firstFrame a.rd) hpos hrem0 (by exact_mod_cast hn) ht
      unfold instants
      rw [hrate, if_pos (by omega)])
  exact ⟨a', b', k1, l1, l2⟩

/-- **C90** (backwards with interpolation; partial likewise). -/
theorem C90_smooth_back_partial (fp : Fp) (hfp : Representable fp) {g g' : Geo} (hB : g.B < 16384) (hB' : g'.B < 16384) (hNB : g.N * g.B ≤ 2 ^ 30) (hNB' : g'.N * g'.B ≤ 2 ^ 30)
    (a b : FileReader) {m m' : List Nat} {off off' nch D D' : Nat} (hw : WavFile m off nch D) (hw' : WavFile m' off' nch D') {q : Int} {s : Nat}
    (hout : ∀ (j ch : Nat), q ≤ j → j < D' / 2 / nch → ch < nch →
      dataSample m' (off' + 8) (j * nch + ch) = dataSample m (off + 8) ((unrollBack a.rd.loopStart (a.rd.loopFinish - nch) (-s + (j - q))).toNat * nch + ch))
    (past past' : Bool) (junk junk' : List Nat) (hj : junk.length = 36) (hj' : junk'.length = 36) (h8 : nch ≤ 8) {mm mm' : Int}
    (hset : RepeatBackSettings fp a.rd 1) (hset' : SmoothSettings b.rd 1) (hi : b.rd.interp ≠ .none) {p : Nat} (hrate : a.rd.rate = -b.rd.rate)
    (hgrid : GridRate p b.rd.rate) (hrem : b.rd.rem = -a.rd.rem) (hremg : OnGrid p a.rd.rem) (hrem0 : a.rd.rem ≤ 0) (hpts : PtsOk a.rd)
    (hheld : b.rd.interp = .linear → ∀ c < nch, (a.rd.pts c).y1 = (b.rd.pts c).y1) (hq : (if b.rd.playStart = .arbitrary then b.rd.playbackStart else 0) = q) (hq0 : 0 ≤ q)
    (hqD : q ≤ (D' / 2 / nch : Nat)) (hroom' : off' + 8 < m'.length)
    (hP : StartsBackAt a.rd ((m.length : Int) / 2) ((off + 8) / 2 : Nat) a.rd.loopFinish nch ((off + 8) / 2 + s * nch : Nat))
    (hloop : GoodLoopBack g m ((off + 8) / 2 : Nat) nch a.rd.loopStart a.rd.loopFinish ((off + 8) / 2 + s * nch : Nat))
    (hmm0 : 0 ≤ mm) (hmm : 2 * mm + 5 ≤ g.N) (hadv : 128 * (nch * 2) + nch * nch ≤ mm * g.B)
    (hmm0' : 0 ≤ mm') (hmm' : 2 * mm' + 1 ≤ g'.N) (hadv' : 128 * (nch * 2) + nch ≤ mm' * g'.B)
    (nullOk nullOk' : Bool) {fuel fuel' : Nat} (hf : g.N ≤ fuel + 2) (hf' : g'.N ≤ fuel' + 2) :
    ∃ a' b', (a.withInterp b.rd.interp).playWav g (some ⟨m, 0, past⟩) junk = .ok (true, a') ∧ b.playWav g' (some ⟨m', 0, past'⟩) junk' = .ok (true, b') ∧
      SoundAlike fp g g' nullOk nullOk' (fuel + 2) (fuel' + 2) a' b' (fun n => q + -a.rd.rem + 128 * n * b.rd.rate ≤ (D' / 2 / nch : Nat)) := by
  obtain ⟨a', out, k1, k2, k3⟩ := loop_back_smooth fp hfp b.rd.interp hi g hB hNB a hw.bytes hw.small past junk hj hw.good hw.depth hw.data hw.even hw.chans hw.some h8
    hset hrate hgrid hremg hrem0 hpts hP hloop hmm0 hmm hadv nullOk hf
  have hremb : OnGrid p b.rd.rem := by rw [hrem]; simpa using (OnGrid.int p 0).sub hremg
  have hpos : 0 < b.rd.rate := by
    have h0 : a.rd.rate < 0 := by
      by_contra hcc
      exact absurd (fp.f.nonneg (not_lt.1 hcc)) (not_le.2 hset.rateF)
    linarith
  have hrem1 : -1 < a.rd.rem := neg_lt_of_abs_lt hset.frac
  have hfl : ⌊-(((s : Nat) : ℚ) + a.rd.rem)⌋ = -s := by
    rw [Int.floor_eq_iff]; constructor <;> push_cast <;> linarith
  clear hloop hP
  obtain ⟨b', l1, l2⟩ := smooth_alike hfp hB' hNB' hw' h8 past' junk' hj' hset' hi hpos hgrid hremb hq hq0 hqD
    hroom' hmm0' hmm' hadv' nullOk nullOk' hf' (T := fun n => (q : ℚ) + -a.rd.rem + 128 * n * b.rd.rate ≤ (D' / 2 / nch : Nat)) (d := q + s)
    (N := (D' / 2 / nch : Nat) - (q + s)) k2 k3 (by rw [hrem]; push_cast; ring) (by ring) (by rw [hfl]; omega) hheld
    (fun i c h1 h2 hc => by
      rw [hout i c h1 h2 hc]
      unfold channelOf
      ring_nf) (fun n hn t ht => by
      obtain ⟨h1, h2, h3⟩ := written_pos (F := (D' / 2 / nch : Nat)) (v := -s) hpos (show 0 ≤ -a.rd.rem by linarith) (by exact_mod_cast hn) ht
      unfold instants
      have e : -(((s : Nat) : ℚ) + a.rd.rem) + t * b.rd.rate = ((-s : Int) : ℚ) + -a.rd.rem + t * b.rd.rate := by push_cast; ring
      rw [e, if_pos (by omega)])
  exact ⟨a', b', k1, l1, l2⟩

/-! ## Examples -/

/-- The example file with its two frames exchanged. -/
def exVaw : List Nat := wav exFields (some [73, 78, 70, 79]) 8 [3, 0, 4, 0, 1, 0, 2, 0]

theorem exWav_file : WavFile exWav 48 2 8 :=
  ⟨exWav_bytes, by decide, by decide, by decide, ⟨Or.inr ⟨by decide, by decide⟩, by decide, by decide⟩, by decide, by decide, by decide, by decide, by decide⟩

theorem exVaw_file : WavFile exVaw 48 2 8 :=
  ⟨by unfold IsBytes; decide, by decide, by decide, by decide, ⟨Or.inr ⟨by decide, by decide⟩, by decide, by decide⟩, by decide, by decide, by decide, by decide, by decide⟩

theorem exVaw_reversed (i j ch : Nat) (h : i + j + 1 = 8 / 2 / 2) (hc : ch < 2) : dataSample exVaw (48 + 8) (i * 2 + ch) = dataSample exWav (48 + 8) (j * 2 + ch) := by
  have h1 : i < 2 := by omega
  have h2 : j = 1 - i := by omega
  subst h2
  have := (by decide : ∀ i < 2, ∀ ch < 2, dataSample exVaw (48 + 8) (i * 2 + ch) = dataSample exWav (48 + 8) ((1 - i) * 2 + ch))
  exact this i h1 ch hc

/-- A file backwards at half speed from one kind of storage, and its reverse forwards at half speed from another. -/
example : ∃ a' b', exMinusHalf.playWav sdGeo (some ⟨exWav, 0, false⟩) (List.replicate 36 7) = .ok (true, a') ∧
    exHalf.playWav ⟨9, 5, fun _ => []⟩ (some ⟨exVaw, 0, true⟩) (List.replicate 36 0) = .ok (true, b') ∧
    SoundAlike Fp.ieee sdGeo ⟨9, 5, fun _ => []⟩ true false (5 + 2) (5 + 2) a' b' (fun _ => True) :=
  C89_partial Fp.ieee ieee_representable (by decide) (by decide) (by decide) (by decide) exMinusHalf exHalf exWav_file exVaw_file exVaw_reversed false true
    (List.replicate 36 7) (List.replicate 36 0) (by decide) (by decide) (by decide) (R := 1) (mm := 1) (mm' := 2) exMinusHalf_settings exHalf_settings (p := 1)
    (by norm_num [exMinusHalf, exHalf]) ⟨by norm_num, ⟨1, by norm_num [exHalf]⟩, by norm_num [exHalf, abs_of_pos], by norm_num [exHalf, abs_of_pos]⟩
    (by norm_num [exMinusHalf, exHalf]) (by simpa [exMinusHalf] using OnGrid.int 1 0) (by norm_num [exMinusHalf]) (s := 1) (by show ((_ : Nat) : Int) = _; decide) (by decide)
    (by intro h; cases h) ⟨by decide, by decide, by decide, by decide⟩ (by decide) (by decide) (by decide) (by decide) (by decide) (by decide) true false (by decide) (by decide)

/-- The player at half speed with cubic interpolation. -/
def exHalfSmooth : FileReader := { rd := { rate := 1 / 2, interp := .quadratic } }

theorem exHalfSmooth_settings : SmoothSettings exHalfSmooth.rd 1 where
  dual := rfl
  loop := rfl
  rate0 := by norm_num [exHalfSmooth]
  rateR := by norm_num [exHalfSmooth]
  flt := exHalf_settings.flt
  frac := by norm_num [exHalfSmooth]
  rem0 := fun _ => le_refl _
  linear := fun h => by cases h
  cubic := fun _ => by norm_num [exHalfSmooth]
  pts := pts_new

/-- The same with cubic interpolation. -/
example : ∃ a' b', (exMinusHalf.withInterp .quadratic).playWav sdGeo (some ⟨exWav, 0, false⟩) (List.replicate 36 7) = .ok (true, a') ∧
    exHalfSmooth.playWav sdGeo (some ⟨exVaw, 0, true⟩) (List.replicate 36 0) = .ok (true, b') ∧
    SoundAlike Fp.ieee sdGeo sdGeo true false (5 + 2) (5 + 2) a' b' (fun _ => True) :=
  C89_smooth_partial Fp.ieee ieee_representable (by decide) (by decide) (by decide) (by decide) exMinusHalf exHalfSmooth exWav_file exVaw_file exVaw_reversed false true
    (List.replicate 36 7) (List.replicate 36 0) (by decide) (by decide) (by decide) (mm := 1) (mm' := 2) exMinusHalf_settings exHalfSmooth_settings (by decide) (p := 1)
    (by norm_num [exMinusHalf, exHalfSmooth]) ⟨by norm_num, ⟨1, by norm_num [exHalfSmooth]⟩, by norm_num [exHalfSmooth, abs_of_pos], by norm_num [exHalfSmooth, abs_of_pos]⟩
    (by norm_num [exMinusHalf, exHalfSmooth]) (by simpa [exMinusHalf] using OnGrid.int 1 0) (by norm_num [exMinusHalf]) pts_new (by intro h; cases h) (s := 1)
    (by show ((_ : Nat) : Int) = _; decide) (by decide)
    (by intro h; cases h) ⟨by decide, by decide, by decide, by decide⟩ (by decide) (by decide) (by decide) (by decide) (by decide) (by decide) true false (by decide) (by decide)

/-- 1500 frames that tell their number. -/
def exCount : List Nat := wav exFields (some [73, 78, 70, 79]) 6000 ((List.range 1500).flatMap fun i => [i % 256, i / 256, 7, 0])

/-- The frames that are heard of it if those from 10 to 13 are repeated, from frame 12 on. -/
def exCountLoop : List Nat := wav exFields (some [73, 78, 70, 79]) 1600 ((List.range 400).flatMap fun j => [(unroll 10 14 (12 + j)).toNat, 0, 7, 0])

/-- 3350 frames. -/
def exCountMore : List Nat := wav exFields (some [73, 78, 70, 79]) 13400 ((List.range 3350).flatMap fun i => [i % 256, i / 256, 7, 0])

/-- The frames that are heard of them if those from 3100 to 3103 are repeated backwards, from frame 3101 on (the last is left out, as C84 says). -/
def exCountBack : List Nat := wav exFields (some [73, 78, 70, 79]) 1600
  ((List.range 400).flatMap fun j => [(unrollBack 3100 (3104 - 2) (-3101 + j)).toNat % 256, (unrollBack 3100 (3104 - 2) (-3101 + j)).toNat / 256, 7, 0])

theorem exCount_bytes : IsBytes exCount := by
  have h : IsBytes (header exFields ++ listChunk (some [73, 78, 70, 79]) ++ dataHead 6000) := by unfold IsBytes; decide +kernel
  intro b hb
  unfold exCount wav at hb
  rcases List.mem_append.1 hb with hb | hb
  · exact h b hb
  · obtain ⟨i, hi, hb⟩ := List.mem_flatMap.1 hb
    have hi' := List.mem_range.1 hi
    simp only [List.mem_cons, List.not_mem_nil, or_false] at hb
    omega

theorem exCount_file : WavFile exCount 48 2 6000 :=
  ⟨exCount_bytes, by decide +kernel, by decide +kernel, by decide +kernel, ⟨Or.inr ⟨by decide +kernel, by decide +kernel⟩, by decide +kernel, by decide +kernel⟩,
    by decide, by decide +kernel, by decide +kernel, by decide +kernel, by decide⟩

theorem exCountMore_bytes : IsBytes exCountMore := by
  have h : IsBytes (header exFields ++ listChunk (some [73, 78, 70, 79]) ++ dataHead 13400) := by unfold IsBytes; decide +kernel
  intro b hb
  unfold exCountMore wav at hb
  rcases List.mem_append.1 hb with hb | hb
  · exact h b hb
  · obtain ⟨i, hi, hb⟩ := List.mem_flatMap.1 hb
    have hi' := List.mem_range.1 hi
    simp only [List.mem_cons, List.not_mem_nil, or_false] at hb
    omega

theorem exCountMore_length : exCountMore.length = 13456 := by decide +kernel

theorem exCountMore_file : WavFile exCountMore 48 2 13400 :=
  ⟨exCountMore_bytes, by decide +kernel, by decide +kernel, by decide +kernel, ⟨Or.inr ⟨by decide +kernel, by decide +kernel⟩, by decide +kernel, by decide +kernel⟩,
    by decide, by decide +kernel, by decide +kernel, by decide +kernel, by decide⟩

theorem exCountLoop_file : WavFile exCountLoop 48 2 1600 :=
  ⟨by unfold IsBytes; decide +kernel, by decide +kernel, by decide +kernel, by decide +kernel, ⟨Or.inr ⟨by decide +kernel, by decide +kernel⟩, by decide +kernel, by decide +kernel⟩,
    by decide, by decide +kernel, by decide +kernel, by decide +kernel, by decide⟩

theorem exCountBack_file : WavFile exCountBack 48 2 1600 :=
  ⟨by unfold IsBytes; decide +kernel, by decide +kernel, by decide +kernel, by decide +kernel, ⟨Or.inr ⟨by decide +kernel, by decide +kernel⟩, by decide +kernel, by decide +kernel⟩,
    by decide, by decide +kernel, by decide +kernel, by decide +kernel, by decide⟩

/-- Frames 10 to 13 repeated at half speed from frame 12 on; frames 3100 to 3103 backwards from frame 3101 on. -/
def exFew : FileReader := { rd := { rate := 1 / 2, loopType := .repeat, loopStart := 10, loopFinish := 14, playStart := .arbitrary, playbackStart := 12 } }

def exFewBack : FileReader := { rd := { rate := -1 / 2, loopType := .repeat, loopStart := 3100, loopFinish := 3104, playStart := .arbitrary, playbackStart := 3101 } }

theorem exFew_settings : RepeatSettings exFew.rd 1 :=
  ⟨⟨rfl, rfl⟩, rfl, by norm_num [exFew], by norm_num [exFew], exHalf_settings.flt, by norm_num [exFew]⟩

theorem exFewBack_settings : RepeatBackSettings Fp.ieee exFewBack.rd 1 :=
  ⟨⟨rfl, rfl⟩, rfl, by show Fp.ieee.f.rnd (-1 / 2) < 0; decide +kernel, by norm_num [exFewBack], exHalf_settings.flt, by norm_num [exFewBack],
    (fun h => nomatch h)⟩

def exFineGeo : Geo := ⟨9, 7, fun _ => []⟩

def exFinerGeo : Geo := ⟨10, 7, fun _ => []⟩

theorem exCountLoop_written (j ch : Nat) (h1 : j < 400) (h2 : ch < 2) : dataSample exCountLoop (48 + 8) (j * 2 + ch) =
    dataSample exCount (48 + 8) ((unroll exFew.rd.loopStart exFew.rd.loopFinish (firstFrame exFew.rd + ((j : Int) - 0))).toNat * 2 + ch) :=
  (by decide +kernel : ∀ j < 400, ∀ ch < 2, dataSample exCountLoop (48 + 8) (j * 2 + ch) =
    dataSample exCount (48 + 8) ((unroll exFew.rd.loopStart exFew.rd.loopFinish (firstFrame exFew.rd + ((j : Int) - 0))).toNat * 2 + ch)) j h1 ch h2

/-- The loop sounds like what is written out, for six updates. -/
example : ∃ a' b', exFew.playWav exFineGeo (some ⟨exCount, 0, false⟩) (List.replicate 36 7) = .ok (true, a') ∧
    exHalf.playWav sdGeo (some ⟨exCountLoop, 0, true⟩) (List.replicate 36 0) = .ok (true, b') ∧
    SoundAlike Fp.ieee exFineGeo sdGeo true false (5 + 2) (5 + 2) a' b' (fun n => n ≤ 6) := by
  obtain ⟨a', b', h1, h2, h3⟩ := C90_partial Fp.ieee ieee_representable (g := exFineGeo) (g' := sdGeo) (by decide) (by decide) (by decide) (by decide) exFew exHalf exCount_file exCountLoop_file
    (q := 0) (fun j ch _ h1 h2 => exCountLoop_written j ch h1 h2)
    false true (List.replicate 36 7) (List.replicate 36 0) (by decide) (by decide) (by decide) (mm := 1) (mm' := 1) exFew_settings exHalf_settings (p := 1)
    (by norm_num [exFew]) (by norm_num [exFew, exHalf]) ⟨by norm_num, ⟨1, by norm_num [exFew]⟩, by norm_num [exFew, abs_of_pos], by norm_num [exFew, abs_of_pos]⟩
    rfl (by simpa [exFew] using OnGrid.int 1 0) (by norm_num [exFew]) (by decide) (by decide) (by decide) (by decide +kernel)
    ⟨by decide, by decide, by decide +kernel, by decide, by decide, Or.inr ⟨by decide, by decide +kernel⟩⟩ (by decide) (by decide) (by decide) (by decide) (by decide) (by decide)
    true false (fuel := 5) (fuel' := 5) (by decide) (by decide)
  refine ⟨a', b', h1, h2, fun als hl => h3 als ?_⟩
  have : (als.length : ℚ) ≤ 6 := by exact_mod_cast hl
  norm_num [exFew]
  linarith

theorem exCountBack_written (j ch : Nat) (h1 : j < 400) (h2 : ch < 2) : dataSample exCountBack (48 + 8) (j * 2 + ch) =
    dataSample exCountMore (48 + 8) ((unrollBack exFewBack.rd.loopStart (exFewBack.rd.loopFinish - (2 : Nat)) (-((3101 : Nat) : Int) + ((j : Int) - 0))).toNat * 2 + ch) :=
by
  have h : ∀ j < 400, ∀ ch < 2, ∃ p ∈ ([(6200, 3100), (6201, 7), (6202, 3101), (6203, 7), (6204, 3102), (6205, 7)] : List (Nat × Int)), dataSample exCountBack (48 + 8) (j * 2 + ch) = p.2 ∧
      (unrollBack exFewBack.rd.loopStart (exFewBack.rd.loopFinish - (2 : Nat)) (-((3101 : Nat) : Int) + ((j : Int) - 0))).toNat * 2 + ch = p.1 := by decide +kernel
  have h' : ∀ p ∈ ([(6200, 3100), (6201, 7), (6202, 3101), (6203, 7), (6204, 3102), (6205, 7)] : List (Nat × Int)), dataSample exCountMore (48 + 8) p.1 = p.2 := by decide +kernel
  obtain ⟨p, hp, h1, h2⟩ := h j h1 ch h2
  rw [h1, h2, h' p hp]

theorem exFewBack_start (S : Int) : StartsBackAt exFewBack.rd S ((48 + 8) / 2 : Nat) exFewBack.rd.loopFinish (2 : Nat) ((48 + 8) / 2 + 3101 * 2 : Nat) := by
  show ((_ : Nat) : Int) = _
  decide

theorem exFewBack_loop : GoodLoopBack exFinerGeo exCountMore ((48 + 8) / 2 : Nat) (2 : Nat) exFewBack.rd.loopStart exFewBack.rd.loopFinish ((48 + 8) / 2 + 3101 * 2 : Nat) := by
  exact ⟨by decide, by decide, by rw [exCountMore_length]; decide, by decide, by rw [exCountMore_length]; decide, by decide, by rw [exCountMore_length]; decide,
    Or.inr ⟨by decide, by decide⟩⟩

/-- Backwards, with cubic interpolation. -/
example : ∃ a' b', (exFewBack.withInterp .quadratic).playWav exFinerGeo (some ⟨exCountMore, 0, false⟩) (List.replicate 36 7) = .ok (true, a') ∧
    exHalfSmooth.playWav sdGeo (some ⟨exCountBack, 0, true⟩) (List.replicate 36 0) = .ok (true, b') ∧
    SoundAlike Fp.ieee exFinerGeo sdGeo true false (5 + 2) (5 + 2) a' b' (fun n => n ≤ 6) := by
  obtain ⟨a', b', h1, h2, h3⟩ := C90_smooth_back_partial Fp.ieee ieee_representable (g := exFinerGeo) (g' := sdGeo) (by decide) (by decide) (by decide) (by decide) exFewBack exHalfSmooth
    exCountMore_file exCountBack_file
    (q := 0) (s := 3101) (fun j ch _ h1 h2 => exCountBack_written j ch h1 h2)
    false true (List.replicate 36 7) (List.replicate 36 0) (by decide) (by decide) (by decide) (mm := 1) (mm' := 1) exFewBack_settings exHalfSmooth_settings (by decide) (p := 1)
    (by norm_num [exFewBack, exHalfSmooth]) ⟨by norm_num, ⟨1, by norm_num [exHalfSmooth]⟩, by norm_num [exHalfSmooth, abs_of_pos], by norm_num [exHalfSmooth, abs_of_pos]⟩
    (by norm_num [exFewBack, exHalfSmooth]) (by simpa [exFewBack] using OnGrid.int 1 0) (by norm_num [exFewBack]) pts_new (by intro h; cases h) (by decide) (by decide)
    (by decide) (by decide +kernel) (exFewBack_start _) exFewBack_loop (by decide) (by decide) (by decide)
    (by decide) (by decide) (by decide) true false (fuel := 5) (fuel' := 5) (by decide) (by decide)
  refine ⟨a', b', h1, h2, fun als hl => h3 als ?_⟩
  have : (als.length : ℚ) ≤ 6 := by exact_mod_cast hl
  norm_num [exFewBack, exHalfSmooth]
  linarith

/-- Backwards, without interpolation. -/
example : ∃ a' b', exFewBack.playWav exFinerGeo (some ⟨exCountMore, 0, false⟩) (List.replicate 36 7) = .ok (true, a') ∧
    exHalf.playWav sdGeo (some ⟨exCountBack, 0, true⟩) (List.replicate 36 0) = .ok (true, b') ∧
    SoundAlike Fp.ieee exFinerGeo sdGeo true false (5 + 2) (5 + 2) a' b' (fun n => n ≤ 6) := by
  obtain ⟨a', b', h1, h2, h3⟩ := C90_back_partial Fp.ieee ieee_representable (g := exFinerGeo) (g' := sdGeo) (by decide) (by decide) (by decide) (by decide) exFewBack exHalf
    exCountMore_file exCountBack_file
    (q := 0) (s := 3101) (fun j ch _ h1 h2 => exCountBack_written j ch h1 h2)
    false true (List.replicate 36 7) (List.replicate 36 0) (by decide) (by decide) (by decide) (mm := 1) (mm' := 1) exFewBack_settings exHalf_settings (p := 1)
    (by norm_num [exFewBack, exHalf]) ⟨by norm_num, ⟨1, by norm_num [exHalf]⟩, by norm_num [exHalf, abs_of_pos], by norm_num [exHalf, abs_of_pos]⟩
    (by norm_num [exFewBack, exHalf]) (by simpa [exFewBack] using OnGrid.int 1 0) (by norm_num [exFewBack]) (by decide) (by decide)
    (by decide) (by decide +kernel) (exFewBack_start _) exFewBack_loop (by decide) (by decide) (by decide)
    (by decide) (by decide) (by decide) true false (fuel := 5) (fuel' := 5) (by decide) (by decide)
  refine ⟨a', b', h1, h2, fun als hl => h3 als ?_⟩
  have : (als.length : ℚ) ≤ 6 := by exact_mod_cast hl
  norm_num [exFewBack, exHalf]
  linarith

/-- Forwards, with cubic interpolation. -/
example : ∃ a' b', (exFew.withInterp .quadratic).playWav exFineGeo (some ⟨exCount, 0, false⟩) (List.replicate 36 7) = .ok (true, a') ∧
    exHalfSmooth.playWav sdGeo (some ⟨exCountLoop, 0, true⟩) (List.replicate 36 0) = .ok (true, b') ∧
    SoundAlike Fp.ieee exFineGeo sdGeo true false (5 + 2) (5 + 2) a' b' (fun n => n ≤ 6) := by
  obtain ⟨a', b', h1, h2, h3⟩ := C90_smooth_partial Fp.ieee ieee_representable (g := exFineGeo) (g' := sdGeo) (by decide) (by decide) (by decide) (by decide) exFew exHalfSmooth
    exCount_file exCountLoop_file (q := 0) (fun j ch _ h1 h2 => exCountLoop_written j ch h1 h2)
    false true (List.replicate 36 7) (List.replicate 36 0) (by decide) (by decide) (by decide) (mm := 1) (mm' := 1) exFew_settings exHalfSmooth_settings (by decide) (p := 1)
    (by norm_num [exFew]) (by norm_num [exFew, exHalfSmooth]) ⟨by norm_num, ⟨1, by norm_num [exFew]⟩, by norm_num [exFew, abs_of_pos], by norm_num [exFew, abs_of_pos]⟩
    rfl (by simpa [exFew] using OnGrid.int 1 0) (by norm_num [exFew]) pts_new (by intro h; cases h) (by decide) (by decide) (by decide) (by decide +kernel)
    ⟨by decide, by decide, by decide +kernel, by decide, by decide, Or.inr ⟨by decide, by decide +kernel⟩⟩ (by decide) (by decide) (by decide) (by decide) (by decide) (by decide)
    true false (fuel := 5) (fuel' := 5) (by decide) (by decide)
  refine ⟨a', b', h1, h2, fun als hl => h3 als ?_⟩
  have : (als.length : ℚ) ≤ 6 := by exact_mod_cast hl
  norm_num [exFew]
  linarith

/-- **C89 refuted** (from the end).  Backwards a file is played from the end of the file, not from the end of the sound: of a file with
something behind the sound (here the bytes 9 9 9 9), one hears that first; its reverse forwards starts with the frame (3, 4). -/
theorem C89_refuted : WavFile (notedWav [73, 78, 70, 79] [9, 9, 9, 9]) 48 2 8 ∧ WavFile exVaw 48 2 8 ∧
    (∀ i < 2, ∀ ch < 2, dataSample exVaw (48 + 8) (i * 2 + ch) = dataSample (notedWav [73, 78, 70, 79] [9, 9, 9, 9]) (48 + 8) ((1 - i) * 2 + ch)) ∧
    firstBlock { rate := -1 } (notedWav [73, 78, 70, 79] [9, 9, 9, 9]) = .ok [[2313, 0, 0]] ∧ firstBlock { rate := 1 } exVaw = .ok [[3, 1, 0]] :=
  ⟨⟨by unfold IsBytes; decide, by decide, by decide, by decide, ⟨Or.inr ⟨by decide, by decide⟩, by decide, by decide⟩, by decide, by decide, by decide, by decide, by decide⟩,
    exVaw_file, by decide, by decide +kernel, by decide +kernel⟩

/-- **C90 refuted** (above normal speed).  At twice the speed a loop of three frames does not sound like these frames written out again
and again: what was stepped over the end is not taken over to the beginning. -/
theorem C90_refuted : ∃ a b : ArrayReader, a.rd.rate = 2 ∧ a.rd.loopType = .repeat ∧ a.rd.loopStart = 0 ∧ a.rd.loopFinish = 3 ∧ a.src = some [10, 20, 30] ∧
    b.rd.rate = 2 ∧ b.rd.loopType = .none ∧ b.src = some ((List.range 12).map fun j : Nat => ([10, 20, 30] : List Int).getD (unroll 0 3 j).toNat 0) ∧
    framesOf (a.read Fp.ieee 3 6) = .ok [[10], [30], [10], [30], [10], [30]] ∧ framesOf (b.read Fp.ieee 3 6) = .ok [[10], [30], [20], [10], [30], [20]] :=
  ⟨{ rd := { playing := true, nch := 1, fileSamples := 3, rate := 2, loopType := .repeat, loopFinish := 3, fileSize := 6 }, src := some [10, 20, 30] },
    { rd := { playing := true, nch := 1, fileSamples := 12, rate := 2, loopType := .none, loopFinish := 12, fileSize := 24 },
      src := some ((List.range 12).map fun j : Nat => ([10, 20, 30] : List Int).getD (unroll 0 3 j).toNat 0) },
    rfl, rfl, rfl, rfl, rfl, rfl, rfl, rfl, by decide +kernel, by decide +kernel⟩

end TVP
