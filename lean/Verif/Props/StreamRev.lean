import Verif.Props.Stream
import Verif.Lemmas.GlideRev

/-!
# Property C18: streaming backwards
-/

namespace TVP
open Spec

theorem playRounds_rev {m : List Nat} {g : Geo} (hB : g.B < 16384) (hb : IsBytes m) (hm : m.length < 4294967296) {mm : Int} :
    ∀ (rounds : List (List Int × Nat × ℚ)) (c : Cache) (k : Int), RWin m g mm c k → k * g.B ≤ 2147483647 → GoesBackward g.B mm k (rounds.map (·.1)) →
    (∀ x ∈ rounds, (∀ i ∈ x.1, InFile m i) ∧ g.N ≤ x.2.1 ∧ x.2.2 < 0) →
    ∃ c', playRounds g c rounds = .ok (rounds.map fun x => x.1.map fun i => fileSample m i.toNat, c') ∧ c'.fails = c.fails
  | [], c, k, _, _, _, _ => ⟨c, rfl, rfl⟩
  | (is, fuel, rate) :: rest, c, k, h, hk, hg, hx => by
    obtain ⟨k', h1, h2, h3, h4, h5⟩ := hg
    obtain ⟨x1, x2, x3⟩ := hx _ (List.mem_cons_self)
    obtain ⟨q1, q2⟩ := h.round hB hm hk (is := is) (hi := k') h1 h2 (fun i hi => ⟨x1 i hi, h4 i hi⟩) h3
    obtain ⟨c1, q3, q4⟩ := q2 fuel rate x2 x3
    obtain ⟨e1, e2⟩ := gets_hits h.reached.ok hb hm is fun i hi => ⟨x1 i hi, q1 i hi⟩
    have hB0 : (0 : Int) < g.B := by exact_mod_cast g.B_pos
    obtain ⟨c2, k1, k2⟩ := playRounds_rev hB hb hm rest c1 k' q4 (le_trans (mul_le_mul_of_nonneg_right h1 (le_of_lt hB0)) hk) h5
      (fun x hx' => hx x (List.mem_cons_of_mem _ hx'))
    refine ⟨c2, ?_, ?_⟩
    · unfold playRounds
      simp only [q3, ok_bind, k1, e1, pure_eq_ok, List.map_cons]
    · rw [k2, Cache.triggerReload_fails q3, e2]

/-- **C18** (any reading pattern).  A file is opened, the buffers are preloaded backwards from sample `start`, and then
rounds of reading, each followed by a reload, go backwards by at most `mm` blocks per round.  With at least `2 mm + 1`
buffers every sample read is the file's sample, and the miss counter stays 0, down to the beginning of the file.

Missing for the whole property: the block `start` lies in must be the file's first one, or at least half of it must lie in the
file; see `C18_refuted`. -/
theorem C18_no_dropouts_partial (g : Geo) (hB : g.B < 16384) {m : List Nat} (hb : IsBytes m) (hm : m.length < 2 ^ 31)
    (cur : Nat) (past : Bool) {mm : Int} (hmm : 2 * mm + 1 ≤ g.N) {start : Int} (h0 : 0 ≤ start) (h1 : 2 * start ≤ m.length)
    (hfull : start / g.B = 0 ∨ 2 * (start / g.B * g.B) + g.B ≤ m.length)
    (rounds : List (List Int × Nat × ℚ)) (hgo : GoesBackward g.B mm (start / g.B) (rounds.map (·.1)))
    (hin : ∀ x ∈ rounds, (∀ i ∈ x.1, InFile m i) ∧ g.N ≤ x.2.1 ∧ x.2.2 < 0) :
    ∃ c', playRounds g (({ dev := ⟨m, cur, past⟩ } : Cache).preLoad g start false) rounds =
        .ok (rounds.map fun x => x.1.map fun i => fileSample m i.toNat, c') ∧ c'.fails = 0 := by
  have hB0 : (0 : Int) < g.B := by exact_mod_cast g.B_pos
  obtain ⟨hw, hf⟩ := RWin.preLoad (m := m) (g := g) (mm := mm) (c := { dev := ⟨m, cur, past⟩ }) (i := start) (by omega) hmm
    (Reached.fresh m g cur past) rfl rfl h0 (by omega) hfull
  have hle := Int.ediv_mul_le start (ne_of_gt hB0)
  obtain ⟨c', k1, k2⟩ := playRounds_rev hB hb (by omega) rounds _ _ hw (by omega) hgo hin
  exact ⟨c', k1, by rw [k2, hf]⟩

/-- Five rounds backwards over a ten-sample file (blocks of four, three buffers), the last ones with block 0 buffered. -/
def exRoundsBack : List (List Int × Nat × ℚ) := [([9, 8, 7], 3, -1), ([7, 5, 3], 3, -1), ([3, 2], 3, -2), ([1], 3, -2), ([0], 3, -2)]

example : ∃ c', playRounds exGeo3 (({ dev := ⟨exBytes, 0, false⟩ } : Cache).preLoad exGeo3 9 false) exRoundsBack =
    .ok (exRoundsBack.map fun x => x.1.map fun i => fileSample exBytes i.toNat, c') ∧ c'.fails = 0 :=
  C18_no_dropouts_partial exGeo3 (by decide) (by unfold IsBytes; decide) (by decide) 0 false (mm := 1) (by decide) (by decide) (by decide)
    (by decide) exRoundsBack ⟨2, by decide, by decide, ⟨9, by decide, by decide⟩, by decide, 1, by decide, by decide, ⟨7, by decide, by decide⟩, by decide,
      0, by decide, by decide, ⟨3, by decide, by decide⟩, by decide, 0, by decide, by decide, ⟨1, by decide, by decide⟩, by decide,
      0, by decide, by decide, ⟨0, by decide, by decide⟩, by decide, trivial⟩
    (by unfold exRoundsBack InFile; intro x hx; fin_cases hx <;> (refine ⟨by decide, by decide, by norm_num⟩))

example : exRoundsBack.map (fun x => x.1.map fun i => fileSample exBytes i.toNat) = [[266, 9, -1], [-1, 6, 4], [4, 3], [2], [1]] := by decide +kernel

/-- **C18 refuted**.  For every buffer geometry and every file of more than one block that ends in the first half of a block:
the preload from the file's last sample stops after one buffer, because it takes a short block for the end of the file it is
heading for.  A first round that reads the first sample of the last block and the one before it (advancing by one block) gets
silence for the latter and counts a miss. -/
theorem C18_refuted (g : Geo) (hB : g.B < 16384) (hN : 1 ≤ g.N) {m : List Nat} (hb : IsBytes m) (hm : m.length < 2 ^ 31) (cur : Nat) (past : Bool)
    {k : Int} (hk : 1 ≤ k) (h1 : 2 * (k * g.B) + 2 ≤ m.length) (h2 : (m.length : Int) < 2 * (k * g.B) + g.B) (fuel : Nat) (rate : ℚ) :
    ∃ c', playRounds g (({ dev := ⟨m, cur, past⟩ } : Cache).preLoad g ((m.length : Int) / 2 - 1) false) [([k * g.B, k * g.B - 1], fuel, rate)] =
        .ok ([[fileSample m (k * g.B).toNat, 0]], c') ∧ c'.fails = 1 ∧ InFile m (k * g.B - 1) ∧
      GoesBackward g.B 1 (((m.length : Int) / 2 - 1) / g.B) [[k * g.B, k * g.B - 1]] := by
  have hB0 : (0 : Int) < g.B := by exact_mod_cast g.B_pos
  have hkB : 1 * (g.B : Int) ≤ k * g.B := mul_le_mul_of_nonneg_right hk (le_of_lt hB0)
  have hkk : k ≤ k * g.B := le_mul_of_one_le_right (by omega) (by omega)
  have hblk : ((m.length : Int) / 2 - 1) / g.B = k := by
    rw [show (m.length : Int) / 2 - 1 = ((m.length : Int) / 2 - 1 - k * g.B) + k * g.B by ring, Int.add_mul_ediv_right _ _ (ne_of_gt hB0),
      Int.ediv_eq_zero_of_lt (by omega) (by omega), zero_add]
  have hblk1 : (k * g.B) / (g.B : Int) = k := Int.mul_ediv_cancel _ (ne_of_gt hB0)
  have hblk2 : (k * g.B - 1) / (g.B : Int) = k - 1 := by
    rw [show k * (g.B : Int) - 1 = (g.B - 1) + (k - 1) * g.B by ring, Int.add_mul_ediv_right _ _ (ne_of_gt hB0),
      Int.ediv_eq_zero_of_lt (by omega) (by omega), zero_add]
  have hin1 : InFile m (k * g.B) := ⟨by omega, by omega⟩
  have hin2 : InFile m (k * g.B - 1) := ⟨by omega, by omega⟩
  set i0 : Int := (m.length : Int) / 2 - 1 with hi0
  set c0 : Cache := { dev := ⟨m, cur, past⟩ } with hc0
  obtain ⟨n, hn⟩ : ∃ n, g.N = n + 1 := ⟨g.N - 1, by omega⟩
  have hcount := loadBuffer_count (m := m) (g := g) (d := c0.dev) (b := freshBuf g 0) (i := i0) rfl (by omega) (by omega) (by rw [hblk]; omega)
  rw [hblk] at hcount
  obtain ⟨x, hx⟩ : ∃ x, x = (loadBuffer g c0.dev (freshBuf g 0) i0) := ⟨_, rfl⟩
  have hpre : c0.preLoad g i0 false = { c0 with bufs := [x.1], dev := x.2.1 } := by
    unfold Cache.preLoad
    rw [hn]
    have := preLoadLoop_append g false n c0 i0
    rw [show c0.bufs.length = 0 from rfl, ← hx] at this
    rw [show c0.bufs.length = 0 from rfl, this, if_pos (by rw [← hx] at hcount; omega)]
    rfl
  have hreach : Reached m g (c0.preLoad g i0 false) := by
    have := (Reached.fresh m g cur past).step (by omega) (.preLoad i0 false) rfl
    rw [i32_of_in ⟨by omega, by omega⟩] at this
    exact this
  have hxi : x.1.index = k := by rw [hx, loadBuffer_index, hblk, u32_of_in ⟨by omega, by omega⟩]
  have hxm : x.1 ∈ (c0.preLoad g i0 false).bufs := by rw [hpre]; exact List.mem_singleton.2 rfl
  have hxs : 0 < x.1.size := index_size hB hreach hxm hin1 (by rw [hblk1]; exact hxi)
  have hu : u32 k = k := u32_of_in ⟨by omega, by omega⟩
  have hu' : u32 (k - 1) = k - 1 := u32_of_in ⟨by omega, by omega⟩
  have hserve : ((c0.preLoad g i0 false).get g (k * g.B)).1 = fileSample m (k * g.B).toNat :=
    ((hreach.ok.serves hb (by omega) hin1).1 ⟨x.1, hxm, by rw [hblk1]; exact hxi, hxs⟩).1
  have hget1 : ((c0.preLoad g i0 false).get g (k * g.B)).2 = { c0 with bufs := [{ x.1 with status := .read }], dev := x.2.1 } := by
    rw [hpre]
    unfold Cache.get findWithIndex
    simp only [hblk1, hu, hxi, hxs, and_self, if_true]
  have hget2 : (({ c0 with bufs := [{ x.1 with status := .read }], dev := x.2.1 } : Cache).get g (k * g.B - 1)) =
      (0, { c0 with bufs := [{ x.1 with status := .read }], dev := x.2.1, fails := 1 }) := by
    unfold Cache.get findWithIndex
    simp only [hblk2, hu', hxi]
    rw [if_neg (by omega)]
    simp only [findWithIndex, if_true]
    rfl
  have hrun : ∃ c', playRounds g (c0.preLoad g i0 false) [([k * g.B, k * g.B - 1], fuel, rate)] = .ok ([[fileSample m (k * g.B).toNat, 0]], c') ∧
      c'.fails = 1 := by
    unfold playRounds
    simp only [Cache.gets, hserve, hget1, hget2]
    unfold Cache.triggerReload
    have hrl : ∀ r : ℚ, reloadLoop g r fuel { c0 with bufs := [{ x.1 with status := .read }], dev := x.2.1, fails := 1 } =
        .ok { c0 with bufs := [{ x.1 with status := .read }], dev := x.2.1, fails := 1 } := by
      intro r
      cases fuel <;> (unfold reloadLoop; rfl)
    rw [hrl]
    exact ⟨_, rfl, by split <;> rfl⟩
  obtain ⟨c', q1, q2⟩ := hrun
  refine ⟨c', q1, q2, hin2, k, by rw [hblk], by rw [hblk]; omega, ⟨_, List.mem_cons_self, hblk1⟩, ?_, trivial⟩
  intro i hi
  simp only [List.mem_cons, List.not_mem_nil, or_false] at hi
  rcases hi with rfl | rfl
  · rw [hblk1]; omega
  · rw [hblk2]; omega

/-- With the SD card reader's buffers and a file of 2049 samples. -/
example : ∃ c', playRounds sdGeo (({ dev := ⟨List.replicate 4098 1, 0, false⟩ } : Cache).preLoad sdGeo (((List.replicate 4098 1).length : Int) / 2 - 1) false)
      [([1 * sdGeo.B, 1 * sdGeo.B - 1], 7, -1)] = .ok ([[fileSample (List.replicate 4098 1) (1 * (sdGeo.B : Int)).toNat, 0]], c') ∧ c'.fails = 1 ∧
      InFile (List.replicate 4098 1) (1 * sdGeo.B - 1) ∧
      GoesBackward sdGeo.B 1 ((((List.replicate 4098 1).length : Int) / 2 - 1) / sdGeo.B) [[1 * sdGeo.B, 1 * sdGeo.B - 1]] :=
  C18_refuted sdGeo (by decide) (by decide) (by intro b hb; rw [(List.mem_replicate.1 hb).2]; decide) (by rw [List.length_replicate]; decide) 0 false
    (le_refl _) (by rw [List.length_replicate]; decide) (by rw [List.length_replicate]; decide) 7 (-1)

/-! ## Players -/

/-- Settings for plain backward playback at a rate of at most `R`, which must not vanish when converted to `float`. -/
structure BackwardSettings (fp : Fp) (r : Rd) (R : Int) : Prop where
  plain : PlainSettings r
  loop : r.loopType = .none
  rateF : fp.f.rnd r.rate < 0
  rateR : -R ≤ r.rate
  flt : IsFloat 53 (-1074) r.rem
  frac : |r.rem| < 1

/-- Backward playback starts at sample `P` of the file: `S` samples in all, `F` frames of `nch` channels from sample `H` on. -/
def StartsBackAt (r : Rd) (S H F nch P : Int) : Prop :=
  match r.playStart with
  | .sample => P = S - nch
  | .loop => P = H + (F - nch) * nch
  | .arbitrary => P = H + r.playbackStart * nch

/-- The first frame lies in the file, in one block, and that block is the first one or at least half of it is in the file. -/
structure GoodStart (g : Geo) (m : List Nat) (H nch P : Int) : Prop where
  header : H ≤ P
  file : P + nch ≤ (m.length : Int) / 2
  block : (P + nch - 1) / g.B = P / g.B
  full : P / g.B = 0 ∨ 2 * (P / g.B * g.B) + g.B ≤ m.length

theorem BackwardSettings.R0 {fp : Fp} {r : Rd} {R : Int} (h : BackwardSettings fp r R) : 0 ≤ R := by
  have h0 : r.rate < 0 := by
    by_contra hc
    exact absurd (fp.f.nonneg (not_lt.1 hc)) (not_le.2 h.rateF)
  have : (0 : ℚ) ≤ R := by linarith [h.rateR]
  exact_mod_cast this

/-- Speeds down to `-R` frames per frame, backwards, that are not rounded to zero; while the sound plays, only before its first
frame is reached. -/
def SpeedsBack (fp : Fp) (R : Int) (r : Rd) (v : ℚ) : Prop := fp.f.rnd v < 0 ∧ -R ≤ v ∧ (r.playing = true → r.header < r.pos1)

theorem RevAny.speed {fp : Fp} {R H nch E : Int} {r : Rd} {v : ℚ} (h : RevAny fp R H nch E r) (hv : SpeedsBack fp R r v) :
    RevAny fp R H nch E { r with rate := v } :=
  ⟨⟨h.plain.dual, h.plain.interp, h.plain.cfOn, h.plain.nch⟩, h.loop, hv.1, hv.2.1, h.flt, h.frac, h.header, h.chans, h.bottom, h.top, h.low⟩

theorem stream_back {m : List Nat} {g : Geo} {mm : Int} {fp : Fp} (hfp : Representable fp) (hB : g.B < 16384) (hNB : g.N * g.B ≤ 2 ^ 30)
    (hb : IsBytes m) (hm : m.length < 2 ^ 31) (hmm0 : 0 ≤ mm) (hmm : 2 * mm + 1 ≤ g.N) {R : Int} {r : Rd} {f : Dev} (hf : f.bytes = m)
    (hsz : r.fileSize = m.length) (hset : BackwardSettings fp r R) {F : Nat} (hH : 0 ≤ r.header) (hroom : 2 * r.header < m.length) (hn : 0 < r.nch)
    (hF : r.fileSamples.tdiv r.nch = F) (hF2 : F ≤ m.length) {P : Int} (hP : StartsBackAt r ((m.length : Int) / 2) r.header F r.nch P)
    (hgood : GoodStart g m r.header r.nch P) (hadv : 128 * (r.nch * (R + 1)) ≤ mm * g.B) (nullOk : Bool) {fuel : Nat} (hfu : g.N ≤ fuel + 1) :
    ∃ a', playFinish g r f = .ok (true, a') ∧ a'.rd.playing = true ∧ a'.rd.nch = r.nch ∧ a'.rd.header = r.header ∧ a'.rd.fileSamples = F ∧
      a'.rd.rate = r.rate ∧ a'.rd.rem = r.rem ∧ a'.rd.pos1 = P ∧ LikeInMemoryAt fp g nullOk (fuel + 1) a' m (SpeedsBack fp R) := by
  have hNB' : (g.N : Int) * g.B ≤ 2 ^ 30 := by exact_mod_cast hNB
  have hB0 : (0 : Int) < g.B := by exact_mod_cast g.B_pos
  have hR := hset.R0
  have h1 : mm * g.B ≤ g.N * g.B := mul_le_mul_of_nonneg_right (by omega) (le_of_lt hB0)
  have h2 : R + 1 ≤ r.nch * (R + 1) := le_mul_of_one_le_left (by omega) (by omega)
  have hP' : backStart r ((m.length : Int) / 2) (r.fileSamples.tdiv r.nch) = P := by
    rw [hF]
    unfold backStart
    unfold StartsBackAt at hP
    cases hps : r.playStart <;> simp only [hps] at hP ⊢ <;> exact hP.symm
  obtain ⟨a', k1, k2, k3, k4, k5, k6, k7, k8, k9, _, _⟩ := playFinish_rev (fp := fp) (m := m) (g := g) (mm := mm) (r := r) (f := f) (R := R) hm hmm0 hmm hf
    hsz hH hroom hn hset.plain.dual hset.plain.interp hset.loop hset.rateF hset.rateR hR hset.flt hset.frac
    (by rw [hF]; exact ⟨by omega, by omega⟩) hP' hgood.header hgood.file hgood.block hgood.full
  refine ⟨a', k1, k3, k4, k5, by rw [k6, hF], k7, k8, k9, ?_⟩
  refine likeAt_of hb (InStepBack m g mm (RevAny fp R r.header r.nch ((m.length : Int) / 2)) 0) (fun a b h => ⟨h.rd, h.fails⟩)
    (fun a b al h => ?_) (fun a b v h hv => ?_) k2
  · exact h.tick hB hb (by omega) hadv (by omega) (by omega) (RevAny.glides hfp (by omega) hH (by omega) (by omega) (by omega)) nullOk hfu al
  · exact h.speed (fun hp => Or.inl (hv.2.2 hp)) (fun hp => (h.live hp).1.speed hv)

theorem setNumChannels_back {fp : Fp} {r : Rd} {R : Int} (h : BackwardSettings fp r R) (n : Int) : BackwardSettings fp (r.setNumChannels n) R := by
  unfold Rd.setNumChannels
  split <;> exact ⟨⟨h.plain.dual, h.plain.interp⟩, h.loop, h.rateF, h.rateR, h.flt, h.frac⟩

/-- **C72** (backwards, raw files).  C18 when the program changes the speed between updates, until the first frame is reached; see `C72_back_refuted`. -/
theorem C72_back_raw_partial (fp : Fp) (hfp : Representable fp) (g : Geo) (hB : g.B < 16384) (hNB : g.N * g.B ≤ 2 ^ 30) (a : FileReader) {m : List Nat}
    (hb : IsBytes m) (hm : m.length < 2 ^ 31) (past : Bool) {nch : Nat} (hc : 1 ≤ nch) (hc' : nch ≤ 32767) {R mm : Int}
    (hset : BackwardSettings fp a.rd R) (hhead : a.rd.header = 0) {P : Int}
    (hP : StartsBackAt a.rd ((m.length : Int) / 2) 0 (m.length / 2 / nch : Nat) nch P) (hgood : GoodStart g m 0 nch P)
    (hmm0 : 0 ≤ mm) (hmm : 2 * mm + 1 ≤ g.N) (hadv : 128 * (nch * (R + 1)) ≤ mm * g.B) (nullOk : Bool) {fuel : Nat} (hf : g.N ≤ fuel + 1) :
    ∃ a', a.playRaw g (some ⟨m, 0, past⟩) nch = .ok (true, a') ∧ a'.rd.playing = true ∧ a'.rd.nch = nch ∧ a'.rd.fileSamples = (m.length / 2 / nch : Nat) ∧
      a'.rd.pos1 = P ∧ a'.rd.rate = a.rd.rate ∧ a'.rd.rem = a.rd.rem ∧ LikeInMemoryAt fp g nullOk (fuel + 1) a' m (SpeedsBack fp R) := by
  have hset' : BackwardSettings fp (a.close.rd.setNumChannels nch) R :=
    setNumChannels_back (r := a.close.rd) ⟨⟨hset.plain.dual, hset.plain.interp⟩, hset.loop, hset.rateF, hset.rateR, hset.flt, hset.frac⟩ nch
  obtain ⟨s1, s2, s3, s4, s5, _⟩ := setNumChannels_rest a.close.rd nch
  have hn := setNumChannels_nch_small a.close.rd (n := nch) (by omega) (by omega)
  have hsz : i32 (m.length : Int) = m.length := by unfold i32; omega
  have hfile := hgood.file
  have hhd := hgood.header
  unfold FileReader.playRaw FileReader.playFile
  simp only [Bool.false_eq_true, if_false, Dev.size]
  rw [hsz]
  generalize a.close.rd.setNumChannels nch = r0 at *
  obtain ⟨r1, hr1⟩ : ∃ r1 : Rd, r1 = { r0 with fileSize := (m.length : Int), fileSamples := (m.length : Int).tdiv 2 } := ⟨_, rfl⟩
  rw [← hr1]
  have t1 : r1.header = 0 := by rw [hr1]; exact s1.trans hhead
  have t2 : r1.fileSamples = (m.length : Int).tdiv 2 := by rw [hr1]
  have t3 : r1.nch = nch := by rw [hr1]; exact hn
  have t4 : r1.fileSize = m.length := by rw [hr1]
  have t5 : BackwardSettings fp r1 R := by
    rw [hr1]; exact ⟨⟨hset'.plain.dual, hset'.plain.interp⟩, hset'.loop, hset'.rateF, hset'.rateR, hset'.flt, hset'.frac⟩
  have t6 : r1.playStart = a.rd.playStart := by rw [hr1]; exact s2
  have t7 : r1.playbackStart = a.rd.playbackStart := by rw [hr1]; exact s3
  have t8 : r1.rate = a.rd.rate := by rw [hr1]; exact s4
  have t9 : r1.rem = a.rd.rem := by rw [hr1]; exact s5
  clear hr1 hsz
  obtain ⟨a', k1, k2, k3, k4, k5, k6, k7, k8, k9⟩ := stream_back (r := r1) (f := ⟨m, 0, past⟩) (F := m.length / 2 / nch) (P := P) hfp hB hNB hb hm hmm0 hmm
    rfl t4 t5 (le_of_eq t1.symm) (by rw [t1]; omega) (by rw [t3]; omega)
    (by rw [t2, t3, Int.tdiv_eq_ediv_of_nonneg (Int.natCast_nonneg _), Int.tdiv_eq_ediv_of_nonneg (by omega), Int.natCast_ediv, Int.natCast_ediv]; norm_num)
    (le_trans (Nat.div_le_self _ _) (Nat.div_le_self _ _)) (by unfold StartsBackAt at hP ⊢; rw [t1, t3, t6, t7]; exact hP) (by rw [t1, t3]; exact hgood)
    (by rw [t3]; exact hadv) nullOk hf
  exact ⟨a', k1, k2, k3.trans t3, k5, k8, k6.trans t8, k7.trans t9, k9⟩

/-- **C18** (raw files).  Playing a raw file backwards without looping and interpolation, at any rate down to `-R` for which an
update moves by at most `mm` blocks, with at least `2 mm + 1` buffers, is the same as playing it from memory, until the
beginning of the file.

Missing for the whole property: the frame playback starts at must lie in one block of the file, and that block must be the first
one or have at least half of it in the file (`GoodStart`); see `C18_refuted`, `C18_player_refuted` and `C18_frame_refuted`. -/
theorem C18_raw_partial (fp : Fp) (hfp : Representable fp) (g : Geo) (hB : g.B < 16384) (hNB : g.N * g.B ≤ 2 ^ 30) (a : FileReader) {m : List Nat}
    (hb : IsBytes m) (hm : m.length < 2 ^ 31) (past : Bool) {nch : Nat} (hc : 1 ≤ nch) (hc' : nch ≤ 32767) {R mm : Int}
    (hset : BackwardSettings fp a.rd R) (hhead : a.rd.header = 0) {P : Int}
    (hP : StartsBackAt a.rd ((m.length : Int) / 2) 0 (m.length / 2 / nch : Nat) nch P) (hgood : GoodStart g m 0 nch P)
    (hmm0 : 0 ≤ mm) (hmm : 2 * mm + 1 ≤ g.N) (hadv : 128 * (nch * (R + 1)) ≤ mm * g.B) (nullOk : Bool) {fuel : Nat} (hf : g.N ≤ fuel + 1) :
    ∃ a', a.playRaw g (some ⟨m, 0, past⟩) nch = .ok (true, a') ∧ a'.rd.playing = true ∧ a'.rd.nch = nch ∧ a'.rd.fileSamples = (m.length / 2 / nch : Nat) ∧
      a'.rd.pos1 = P ∧ a'.rd.rate = a.rd.rate ∧ a'.rd.rem = a.rd.rem ∧ LikeInMemory fp g nullOk (fuel + 1) a' m := by
  obtain ⟨a', h0, h1, h2, h3, h4, h5, h6, h⟩ := C72_back_raw_partial fp hfp g hB hNB a hb hm past hc hc' hset hhead hP hgood hmm0 hmm hadv nullOk hf
  exact ⟨a', h0, h1, h2, h3, h4, h5, h6, h.plain⟩

/-- **C72** (backwards, WAV files).  Likewise. -/
theorem C72_back_wav_partial (fp : Fp) (hfp : Representable fp) (g : Geo) (hB : g.B < 16384) (hNB : g.N * g.B ≤ 2 ^ 30) (a : FileReader) {m : List Nat}
    (hb : IsBytes m) (hm : m.length < 2 ^ 31) (past : Bool) (junk : List Nat) (hj : junk.length = 36) (hg : GoodHeader m)
    (hdep : leVal (slice m 34 2) = 16) {off : Nat} (hda : DataAt m off) {nch D : Nat} (hn : leVal (slice m 22 2) = nch) (hc : 1 ≤ nch) (hc' : nch ≤ 32767)
    (hD : leVal (slice m (off + 4) 4) = D) (hdata : off + 8 + D ≤ m.length) {R mm : Int} (hset : BackwardSettings fp a.rd R) {P : Int}
    (hP : StartsBackAt a.rd ((m.length : Int) / 2) ((off + 8) / 2 : Nat) (D / 2 / nch : Nat) nch P) (hgood : GoodStart g m ((off + 8) / 2 : Nat) nch P)
    (hmm0 : 0 ≤ mm) (hmm : 2 * mm + 1 ≤ g.N) (hadv : 128 * (nch * (R + 1)) ≤ mm * g.B) (nullOk : Bool) {fuel : Nat} (hf : g.N ≤ fuel + 1) :
    ∃ a', a.playWav g (some ⟨m, 0, past⟩) junk = .ok (true, a') ∧ a'.rd.playing = true ∧ a'.rd.nch = nch ∧ a'.rd.header = ((off + 8) / 2 : Nat) ∧
      a'.rd.fileSamples = (D / 2 / nch : Nat) ∧ a'.rd.pos1 = P ∧ a'.rd.rate = a.rd.rate ∧ a'.rd.rem = a.rd.rem ∧
      LikeInMemoryAt fp g nullOk (fuel + 1) a' m (SpeedsBack fp R) := by
  have hsz : i32 (m.length : Int) = m.length := by unfold i32; omega
  obtain ⟨f', hp, hfb, _⟩ := playParseWav_good
    (r := { a.close.rd with fileSize := i32 (m.length : Int) }) (past := past) hj hb hm hg hdep hda
  have hch : u16 (parsed m).numChannels = nch := by
    simp only [parsed]; rw [u16_i16, hn]; unfold u16; omega
  rw [hch, hD] at hp
  have hset' : BackwardSettings fp ({ a.close.rd with fileSize := i32 (m.length : Int) }.setNumChannels nch) R :=
    setNumChannels_back (r := { a.close.rd with fileSize := i32 (m.length : Int) })
      ⟨⟨hset.plain.dual, hset.plain.interp⟩, hset.loop, hset.rateF, hset.rateR, hset.flt, hset.frac⟩ nch
  obtain ⟨s1, s2, s3, s4, s5, s6⟩ := setNumChannels_rest { a.close.rd with fileSize := i32 (m.length : Int) } nch
  have hn' := setNumChannels_nch_small { a.close.rd with fileSize := i32 (m.length : Int) } (n := nch) (by omega) (by omega)
  simp only at s1 s2 s3 s4 s5 s6
  have s6' := s6.trans hsz
  clear s6
  have hfile := hgood.file
  have hhd := hgood.header
  unfold FileReader.playWav FileReader.playFile
  simp only [if_true, Dev.size]
  rw [hp]
  simp only [ok_bind, Bool.not_true, Bool.false_eq_true, if_false]
  clear hp
  generalize Rd.setNumChannels { a.close.rd with fileSize := i32 (m.length : Int) } nch = r0 at *
  obtain ⟨r1, hr1⟩ : ∃ r1 : Rd, r1 = { r0 with header := ((off + 8) / 2 : Nat), fileSamples := (D / 2 : Nat) } := ⟨_, rfl⟩
  rw [← hr1]
  have t1 : r1.header = ((off + 8) / 2 : Nat) := by rw [hr1]
  have t2 : r1.fileSamples = (D / 2 : Nat) := by rw [hr1]
  have t3 : r1.nch = nch := by rw [hr1]; exact hn'
  have t4 : r1.fileSize = m.length := by rw [hr1]; exact s6'
  have t5 : BackwardSettings fp r1 R := by
    rw [hr1]; exact ⟨⟨hset'.plain.dual, hset'.plain.interp⟩, hset'.loop, hset'.rateF, hset'.rateR, hset'.flt, hset'.frac⟩
  have t6 : r1.playStart = a.rd.playStart := by rw [hr1]; exact s2
  have t7 : r1.playbackStart = a.rd.playbackStart := by rw [hr1]; exact s3
  have t8 : r1.rate = a.rd.rate := by rw [hr1]; exact s4
  have t9 : r1.rem = a.rd.rem := by rw [hr1]; exact s5
  clear hr1 hsz hch hn hD hdep hj
  obtain ⟨a', k1, k2, k3, k4, k5, k6, k7, k8, k9⟩ := stream_back (r := r1) (f := f') (F := D / 2 / nch) (P := P) hfp hB hNB hb hm hmm0 hmm
    hfb t4 t5 (by rw [t1]; omega) (by rw [t1]; omega) (by rw [t3]; omega)
    (by rw [t2, t3, Int.tdiv_eq_ediv_of_nonneg (by omega), ← Int.natCast_ediv])
    (le_trans (Nat.div_le_self _ _) (by omega)) (by unfold StartsBackAt at hP ⊢; rw [t1, t3, t6, t7]; exact hP) (by rw [t1, t3]; exact hgood)
    (by rw [t3]; exact hadv) nullOk hf
  exact ⟨a', k1, k2, k3.trans t3, k4.trans t1, k5, k8, k6.trans t8, k7.trans t9, k9⟩

/-- **C18** (WAV files).  The same for WAV files.  Started at the end, playback begins with the last samples of the *file*
(src/ResamplingReader.h:597), which are those of the data chunk if nothing follows it. -/
theorem C18_wav_partial (fp : Fp) (hfp : Representable fp) (g : Geo) (hB : g.B < 16384) (hNB : g.N * g.B ≤ 2 ^ 30) (a : FileReader) {m : List Nat}
    (hb : IsBytes m) (hm : m.length < 2 ^ 31) (past : Bool) (junk : List Nat) (hj : junk.length = 36) (hg : GoodHeader m)
    (hdep : leVal (slice m 34 2) = 16) {off : Nat} (hda : DataAt m off) {nch D : Nat} (hn : leVal (slice m 22 2) = nch) (hc : 1 ≤ nch) (hc' : nch ≤ 32767)
    (hD : leVal (slice m (off + 4) 4) = D) (hdata : off + 8 + D ≤ m.length) {R mm : Int} (hset : BackwardSettings fp a.rd R) {P : Int}
    (hP : StartsBackAt a.rd ((m.length : Int) / 2) ((off + 8) / 2 : Nat) (D / 2 / nch : Nat) nch P) (hgood : GoodStart g m ((off + 8) / 2 : Nat) nch P)
    (hmm0 : 0 ≤ mm) (hmm : 2 * mm + 1 ≤ g.N) (hadv : 128 * (nch * (R + 1)) ≤ mm * g.B) (nullOk : Bool) {fuel : Nat} (hf : g.N ≤ fuel + 1) :
    ∃ a', a.playWav g (some ⟨m, 0, past⟩) junk = .ok (true, a') ∧ a'.rd.playing = true ∧ a'.rd.nch = nch ∧ a'.rd.header = ((off + 8) / 2 : Nat) ∧
      a'.rd.fileSamples = (D / 2 / nch : Nat) ∧ a'.rd.pos1 = P ∧ a'.rd.rate = a.rd.rate ∧ a'.rd.rem = a.rd.rem ∧
      LikeInMemory fp g nullOk (fuel + 1) a' m := by
  obtain ⟨a', h0, h1, h2, h3, h4, h5, h6, h7, h⟩ := C72_back_wav_partial fp hfp g hB hNB a hb hm past junk hj hg hdep hda hn hc hc' hD hdata hset hP hgood hmm0 hmm hadv nullOk hf
  exact ⟨a', h0, h1, h2, h3, h4, h5, h6, h7, h.plain⟩

/-- A player before its first sound, at rate minus one half. -/
def exMinusHalf : FileReader := { rd := { rate := -1 / 2 } }

theorem exMinusHalf_settings : BackwardSettings Fp.ieee exMinusHalf.rd 1 :=
  ⟨⟨rfl, rfl⟩, rfl, by decide +kernel, by norm_num [exMinusHalf], by
    show IsFloat 53 (-1074) 0
    simpa using Rounding.isFloat_of (p := 53) (emin := -1074) (by norm_num) (m := 0) (e := 0) (by norm_num) (by norm_num), by norm_num [exMinusHalf]⟩

example : ∃ a', exMinusHalf.playRaw sdGeo (some ⟨exBytes, 0, false⟩) (1 : Nat) = .ok (true, a') ∧ a'.rd.playing = true ∧ a'.rd.nch = (1 : Nat) ∧
    a'.rd.fileSamples = (exBytes.length / 2 / 1 : Nat) ∧ a'.rd.pos1 = 9 ∧ a'.rd.rate = exMinusHalf.rd.rate ∧ a'.rd.rem = exMinusHalf.rd.rem ∧
    LikeInMemory Fp.ieee sdGeo true (6 + 1) a' exBytes :=
  C18_raw_partial Fp.ieee ieee_representable sdGeo (by decide) (by decide) exMinusHalf (by unfold IsBytes; decide) (by decide) false (by decide)
    (by decide) (R := 1) (mm := 1) exMinusHalf_settings rfl (P := 9) (by show (9 : Int) = _; decide) ⟨by decide, by decide, by decide, by decide⟩ (by decide)
    (by decide) (by decide) true (by decide)

example : ∃ a', exMinusHalf.playWav sdGeo (some ⟨exWav, 0, false⟩) (List.replicate 36 7) = .ok (true, a') ∧ a'.rd.playing = true ∧ a'.rd.nch = (2 : Nat) ∧
    a'.rd.header = ((48 + 8) / 2 : Nat) ∧ a'.rd.fileSamples = (8 / 2 / 2 : Nat) ∧ a'.rd.pos1 = 30 ∧ a'.rd.rate = exMinusHalf.rd.rate ∧
    a'.rd.rem = exMinusHalf.rd.rem ∧ LikeInMemory Fp.ieee sdGeo true (6 + 1) a' exWav :=
  C18_wav_partial Fp.ieee ieee_representable sdGeo (by decide) (by decide) exMinusHalf exWav_bytes (by decide) false (List.replicate 36 7) (by decide)
    (by decide) (by decide) (off := 48) ⟨Or.inr ⟨by decide, by decide⟩, by decide, by decide⟩ (nch := 2) (D := 8) (by decide) (by decide) (by decide)
    (by decide) (by decide) (R := 1) (mm := 1) exMinusHalf_settings (P := 30) (by show (30 : Int) = _; decide) ⟨by decide, by decide, by decide, by decide⟩
    (by decide) (by decide) (by decide) true (by decide)

/-- The serial flash reader's two buffers of 128 samples (src/ResamplingSerialFlashReader.h:19-20). -/
def flashGeo : Geo := ⟨7, 2, fun _ => []⟩

/-- What the first update after `playRaw` of `channels` channels at rate -1 transmits. -/
def exFirstBack (g : Geo) (m : List Nat) (channels : Int) : M (List (List Int × Nat)) := do
  let (_, a) ← ({ rd := { rate := -1 } } : FileReader).playRaw g (some ⟨m, 0, false⟩) channels
  let (fxs, _) ← a.ticks Fp.ieee g true 7 [fun _ => true]
  return fxs.flatMap (·.transmitted)

/-- **C18** is violated: a mono file of 2148 samples, all 257, played backwards from an SD card.  The hundred samples of the second block are
transmitted (on both outputs), and then silence, because only that block was loaded in advance (src/IndexableFile.h:395-398 compares a number of
bytes with a number of samples). -/
theorem C18_player_refuted : exFirstBack sdGeo (List.replicate 4296 1) 1 =
    .ok [(List.replicate 100 257 ++ List.replicate 28 0, 0), (List.replicate 100 257 ++ List.replicate 28 0, 1)] := by
  decide +kernel

/-- **C18** is violated for a frame lying in two blocks, too: a file of 43 frames of three channels, all samples 257, played
backwards from serial flash.  The third channel of the last frame is in the second block, which is not loaded, so that this
channel starts with a zero. -/
theorem C18_frame_refuted : exFirstBack flashGeo (List.replicate 258 1) 3 =
    .ok [(List.replicate 43 257 ++ List.replicate 85 0, 0), (List.replicate 43 257 ++ List.replicate 85 0, 1),
      (0 :: List.replicate 42 257 ++ List.replicate 85 0, 2)] := by
  decide +kernel

end TVP
