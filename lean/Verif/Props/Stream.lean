import Verif.Lemmas.Acts
import Verif.Props.Play
import Verif.Props.Laws
import Verif.Props.Reload
import Mathlib.Tactic.FinCases
import Verif.FpIEEE

/-!
# Properties C17: streaming forwards has no dropouts
-/

namespace TVP
open Spec

/-- Rounds of reading samples, each followed by a reload (with some fuel and the rate at that time). -/
def playRounds (g : Geo) (c : Cache) : List (List Int × Nat × ℚ) → M (List (List Int) × Cache)
  | [] => .ok ([], c)
  | (is, fuel, rate) :: rest => do
    let x := c.gets g is
    let c ← x.2.triggerReload g fuel rate
    let (vs, c) ← playRounds g c rest
    return (x.1 :: vs, c)

theorem playRounds_fwd {m : List Nat} {g : Geo} (hB : g.B < 16384) (hb : IsBytes m) (hm : m.length < 4294967296)
    (hfit : (m.length : Int) / 2 + g.N * g.B ≤ 2147483647) {mm : Int} {L : Nat} : ∀ (rounds : List (List Int × Nat × ℚ)) (c : Cache) (a k : Int),
    FWin m g mm c a L → a = k → GoesForward g.B mm k (rounds.map (·.1)) → (∀ x ∈ rounds, (∀ i ∈ x.1, InFile m i) ∧ g.N ≤ x.2.1 ∧ 0 ≤ x.2.2) →
    ∃ c', playRounds g c rounds = .ok (rounds.map fun x => x.1.map fun i => fileSample m i.toNat, c') ∧ c'.fails = c.fails
  | [], c, a, k, _, _, _, _ => ⟨c, rfl, rfl⟩
  | (is, fuel, rate) :: rest, c, a, k, h, ha, hg, hx => by
    obtain ⟨k', h1, h2, h3, h4, h5⟩ := hg
    obtain ⟨x1, x2, x3⟩ := hx _ (List.mem_cons_self)
    obtain ⟨q1, q2⟩ := h.round hB hb hm hfit (is := is) (lo := k') (by omega) (by omega) (fun i hi => ⟨x1 i hi, h4 i hi⟩) h3
    obtain ⟨c1, q3, q4⟩ := q2 fuel rate x2 x3
    obtain ⟨e1, e2⟩ := gets_hits h.reached.ok hb hm is fun i hi => ⟨x1 i hi, q1 i hi⟩
    obtain ⟨c2, k1, k2⟩ := playRounds_fwd hB hb hm hfit rest c1 k' k' q4 rfl h5 (fun x hx' => hx x (List.mem_cons_of_mem _ hx'))
    refine ⟨c2, ?_, ?_⟩
    · unfold playRounds
      simp only [q3, ok_bind, k1, e1, pure_eq_ok, List.map_cons]
    · rw [k2, Cache.triggerReload_fails q3, e2]

/-- **C17** (any reading pattern).  A file is opened, the buffers are preloaded forwards from sample `start`, and then
rounds of reading, each followed by a reload, go forward by at most `mm` blocks per round.  With at least `2 mm + 1`
buffers every sample read is the file's sample, and the miss counter stays 0.  The order of reads within a round, repeated
reads and reading back within a round (as interpolation does) are free. -/
theorem C17_no_dropouts (g : Geo) (hB : g.B < 16384) (hNB : g.N * g.B ≤ 2 ^ 30) {m : List Nat} (hb : IsBytes m) (hm : m.length < 2 ^ 31)
    (cur : Nat) (past : Bool) {mm : Int} (hmm0 : 0 ≤ mm) (hmm : 2 * mm + 1 ≤ g.N) {start : Int} (h0 : 0 ≤ start) (h1 : 2 * start ≤ m.length)
    (rounds : List (List Int × Nat × ℚ)) (hgo : GoesForward g.B mm (start / g.B) (rounds.map (·.1)))
    (hin : ∀ x ∈ rounds, (∀ i ∈ x.1, InFile m i) ∧ g.N ≤ x.2.1 ∧ 0 ≤ x.2.2) :
    ∃ c', playRounds g (({ dev := ⟨m, cur, past⟩ } : Cache).preLoad g start true) rounds =
        .ok (rounds.map fun x => x.1.map fun i => fileSample m i.toNat, c') ∧ c'.fails = 0 := by
  have hNB' : (g.N : Int) * g.B ≤ 2 ^ 30 := by exact_mod_cast hNB
  obtain ⟨⟨L, hw⟩, hf⟩ := FWin.preLoad (m := m) (g := g) (mm := mm) (c := { dev := ⟨m, cur, past⟩ }) (i := start) (by omega) (by omega) hmm
    (Reached.fresh m g cur past) rfl rfl h0 (by omega)
  obtain ⟨c', k1, k2⟩ := playRounds_fwd hB hb (by omega) (by omega) rounds _ _ _ hw rfl hgo hin
  exact ⟨c', k1, by rw [k2, hf]⟩

/-- Three buffers of four samples. -/
def exGeo3 : Geo := ⟨2, 3, fun _ => []⟩

/-- Four rounds over a ten-sample file, reading back and forth within each. -/
def exRounds : List (List Int × Nat × ℚ) := [([1, 0, 2, 5], 3, 1), ([3, 4], 3, 1), ([7, 6, 9], 3, 2), ([9, 8], 3, 2)]

example : ∃ c', playRounds exGeo3 (({ dev := ⟨exBytes, 0, false⟩ } : Cache).preLoad exGeo3 0 true) exRounds =
    .ok (exRounds.map fun x => x.1.map fun i => fileSample exBytes i.toNat, c') ∧ c'.fails = 0 :=
  C17_no_dropouts exGeo3 (by decide) (by decide) (by unfold IsBytes; decide) (by decide) 0 false (mm := 1) (by decide) (by decide) (by decide) (by decide)
    exRounds ⟨0, by decide, by decide, ⟨1, by decide, by decide⟩, by decide, 0, by decide, by decide, ⟨3, by decide, by decide⟩, by decide,
      1, by decide, by decide, ⟨7, by decide, by decide⟩, by decide, 2, by decide, by decide, ⟨9, by decide, by decide⟩, by decide, trivial⟩
    (by unfold exRounds InFile; intro x hx; fin_cases hx <;> (refine ⟨by decide, by decide, by norm_num⟩))

example : exRounds.map (fun x => x.1.map fun i => fileSample exBytes i.toNat) = [[2, 1, 3, 6], [4, 5], [-1, 7, 266], [266, 9]] := by decide +kernel

/-- The number of buffers matters: with two of them and one block per round, a sample is lost. -/
example : ∃ c', playRounds exGeo (({ dev := ⟨exBytes, 0, false⟩ } : Cache).preLoad exGeo 0 true) [([3, 7], 3, 1), ([4, 9], 3, 1)] =
    .ok ([[4, -1], [5, 0]], c') ∧ c'.fails = 1 := by
  have h : (playRounds exGeo (({ dev := ⟨exBytes, 0, false⟩ } : Cache).preLoad exGeo 0 true) [([3, 7], 3, 1), ([4, 9], 3, 1)]).map
      (fun x => (x.1, x.2.fails)) = .ok ([[4, -1], [5, 0]], 1) := by decide +kernel
  revert h
  cases playRounds exGeo (({ dev := ⟨exBytes, 0, false⟩ } : Cache).preLoad exGeo 0 true) [([3, 7], 3, 1), ([4, 9], 3, 1)] with
  | error e => intro h; cases h
  | ok x => intro h; exact ⟨x.2, by injection h with h; injection h with h1 h2; rw [← h1], by injection h with h; injection h⟩

/-! ## Players -/

theorem toSamples_spec {m : List Nat} (hb : IsBytes m) : toSamples m = samplesOf m := by
  unfold samplesOf
  apply List.ext_getElem
  · rw [toSamples_length]; simp
  · intro i h1 h2
    rw [toSamples_length] at h1
    have := toSamples_raw m i (by omega)
    rw [List.getD_eq_getElem?_getD, List.getElem?_eq_getElem (by rw [toSamples_length]; exact h1)] at this
    simp only [Option.getD_some] at this
    rw [this, List.getElem_map, List.getElem_range]
    exact rawSample_eq hb (by omega)

/-- Settings for plain forward playback at a rate of at most `R`. -/
structure ForwardSettings (r : Rd) (R : Int) : Prop where
  plain : PlainSettings r
  loop : r.loopType = .none
  rate0 : 0 ≤ r.rate
  rateR : r.rate ≤ R
  flt : IsFloat 53 (-1074) r.rem
  frac : |r.rem| < 1

/-- The player `a` behaves like a player with the whole file in memory: whatever blocks can be allocated at each update,
with the event of each update serviced before the next, it transmits and releases the same blocks and raises the same events,
and is left in the same state; and the cache has never missed. -/
def LikeInMemory (fp : Fp) (g : Geo) (nullOk : Bool) (fuel : Nat) (a : FileReader) (m : List Nat) : Prop :=
  ∀ als : List (Nat → Bool), ∃ fxs a' b', a.ticks fp g nullOk fuel als = .ok (fxs, a') ∧
    ArrayReader.ticks fp fuel ⟨a.rd, some (samplesOf m)⟩ als = .ok (fxs, b') ∧ a'.rd = b'.rd ∧ ∀ c, a'.src = some c → c.fails = 0

/-- The same when the program also changes the speed between updates, as far as `ok` allows. -/
def LikeInMemoryAt (fp : Fp) (g : Geo) (nullOk : Bool) (fuel : Nat) (a : FileReader) (m : List Nat) (ok : Rd → ℚ → Prop) : Prop :=
  ∀ as : List Deed, Allowed fp fuel ok ⟨a.rd, some (samplesOf m)⟩ as → ∃ fxs a' b', a.acts fp g nullOk fuel as = .ok (fxs, a') ∧
    ArrayReader.acts fp fuel ⟨a.rd, some (samplesOf m)⟩ as = .ok (fxs, b') ∧ a'.rd = b'.rd ∧ ∀ c, a'.src = some c → c.fails = 0

theorem LikeInMemoryAt.plain {fp : Fp} {g : Geo} {nullOk : Bool} {fuel : Nat} {a : FileReader} {m : List Nat} {ok : Rd → ℚ → Prop}
    (h : LikeInMemoryAt fp g nullOk fuel a m ok) : LikeInMemory fp g nullOk fuel a m := by
  intro als
  obtain ⟨fxs, a', b', h1, h2, h3⟩ := h (als.map .tick) (Allowed.ticks fp fuel ok als _)
  rw [FileReader.acts_ticks] at h1
  rw [ArrayReader.acts_ticks] at h2
  exact ⟨fxs, a', b', h1, h2, h3⟩

theorem likeAt_of {fp : Fp} {g : Geo} {nullOk : Bool} {fuel : Nat} {a : FileReader} {m : List Nat} (hb : IsBytes m) {ok : Rd → ℚ → Prop}
    (Rel : FileReader → ArrayReader → Prop) (hrel : ∀ a b, Rel a b → b.rd = a.rd ∧ ∀ c, a.src = some c → c.fails = 0)
    (ht : ∀ a b alloc, Rel a b → ∃ fx a' b', a.tick fp g nullOk fuel alloc = .ok (fx, a') ∧ b.tick fp fuel alloc = .ok (fx, b') ∧ Rel a' b')
    (hs : ∀ a b v, Rel a b → ok a.rd v → Rel { a with rd := a.rd.setPlaybackRate v } { b with rd := b.rd.setPlaybackRate v })
    (h : Rel a ⟨a.rd, some (toSamples m)⟩) : LikeInMemoryAt fp g nullOk fuel a m ok := by
  intro as hok
  rw [← toSamples_spec hb] at hok
  obtain ⟨fxs, a', b', k1, k2, k3⟩ := acts_of ht (fun a b v hr hv => hs a b v hr (by rw [← (hrel a b hr).1]; exact hv)) as a _ h hok
  rw [toSamples_spec hb] at k2
  exact ⟨fxs, a', b', k1, k2, (hrel _ _ k3).1.symm, (hrel _ _ k3).2⟩

theorem likeAt_along {fp : Fp} {g : Geo} {nullOk : Bool} {fuel : Nat} {a : FileReader} {m : List Nat} (hb : IsBytes m) (hm : m.length < 2 ^ 31)
    {ok : Rd → ℚ → Prop} {Live : Rd → Cache → Prop} (hk : KeepsUp fp m g (fuel + 2) Live)
    (hs : ∀ r c v, r.playing = true → Live r c → ok r v → Inside r v ∧ Live { r with rate := v } c) {c : Cache} (hn : 0 < a.rd.nch) (hc : a.src = some c)
    (hf : c.fails = 0) (hl : Live a.rd c) : LikeInMemoryAt fp g nullOk (fuel + 2) a m ok := by
  refine likeAt_of hb (Along m (fun r c => r.playing = true → Live r c) 0) (fun a b h => ⟨h.rd, h.fails⟩) (fun a b al h => ?_) (fun a b v h hv => ?_)
    ⟨rfl, hn, fun c2 h => by rw [hc] at h; cases h; exact hf, rfl, fun _ => ⟨c, hc, fun _ => hl⟩⟩
  · have h' : Along m Live 0 a b := ⟨h.rd, h.nch, h.fails, h.src, fun hp => by
      obtain ⟨c, e1, e2⟩ := h.live hp
      exact ⟨c, e1, e2 hp⟩⟩
    obtain ⟨fx, a', b', k1, k2, k3⟩ := h'.tick hb hm hk nullOk al
    refine ⟨fx, a', b', k1, k2, k3.rd, k3.nch, k3.fails, k3.src, fun hp => ?_⟩
    obtain ⟨c, e1, e2⟩ := k3.live hp
    exact ⟨c, e1, fun _ => e2⟩
  · refine h.speed (fun hp => ?_) (fun c hc hp => (hs a.rd c v hp (hc hp) hv).2)
    obtain ⟨c, e1, e2⟩ := h.live hp
    exact (hs a.rd c v hp (e2 hp) hv).1

/-- Speeds up to `R` frames per frame, forwards. -/
def SpeedsTo (R : Int) (_ : Rd) (v : ℚ) : Prop := 0 ≤ v ∧ v ≤ R

theorem FwdAny.speed {R H F nch : Int} {r : Rd} {v : ℚ} (h : FwdAny R H F nch r) (hv : SpeedsTo R r v) :
    Inside r v ∧ FwdAny R H F nch { r with rate := v } := by
  obtain ⟨q, q1, q2, q3⟩ := h.pos
  have hn : 0 < nch := by rw [← h.chans]; exact h.plain.nch
  refine ⟨Or.inr ⟨hv.1, ?_⟩, ⟨⟨h.plain.dual, h.plain.interp, h.plain.cfOn, h.plain.nch⟩, h.loop, hv.1, hv.2, h.flt, h.frac, h.header, h.fs, h.chans, q, q1, q2, q3⟩⟩
  rw [h.header, q3]
  have := mul_nonneg q1 (le_of_lt hn)
  omega

theorem stream_from {m : List Nat} {g : Geo} {mm : Int} {fp : Fp} (hfp : Representable fp) (hB : g.B < 16384) (hNB : g.N * g.B ≤ 2 ^ 30)
    (hb : IsBytes m) (hm : m.length < 2 ^ 31) (hmm0 : 0 ≤ mm) (hmm : 2 * mm + 1 ≤ g.N) {R H F nch : Int}
    (hR : 0 ≤ R) (hH : 0 ≤ H) (hF : 0 ≤ F) (hn : 0 < nch) (hadv : 128 * (nch * (R + 1)) ≤ mm * g.B) (hE : 2 * (H + F * nch) ≤ m.length)
    {a : FileReader} (h : InStep m g mm (FwdAny R H F nch) 0 a ⟨a.rd, some (toSamples m)⟩) (nullOk : Bool) {fuel : Nat} (hf : g.N ≤ fuel + 1) :
    LikeInMemoryAt fp g nullOk (fuel + 1) a m (SpeedsTo R) := by
  have hB0 : (0 : Int) < g.B := by exact_mod_cast g.B_pos
  have hNB' : (g.N : Int) * g.B ≤ 2 ^ 30 := by exact_mod_cast hNB
  have h1 : mm * g.B ≤ g.N * g.B := mul_le_mul_of_nonneg_right (by omega) (le_of_lt hB0)
  have h2 : R + 1 ≤ nch * (R + 1) := le_mul_of_one_le_left (by omega) (by omega)
  have h3 : H + nch * (F + R + 1) = H + F * nch + nch * (R + 1) := by ring
  refine likeAt_of hb (InStep m g mm (FwdAny R H F nch) 0) (fun a b h => ⟨h.rd, h.fails⟩) (fun a b al h => ?_) (fun a b v h hv => ?_) h
  · exact h.tick hB hb (by omega) (by omega) hadv hE (FwdAny.glides hfp (by omega) hH hF (by rw [h3]; omega)) nullOk hf al
  · exact h.speed (fun hp => ((h.live hp).1.speed hv).1) (fun hp => ((h.live hp).1.speed hv).2)

theorem stream_start {m : List Nat} {g : Geo} {mm : Int} {fp : Fp} (hfp : Representable fp) (hB : g.B < 16384) (hNB : g.N * g.B ≤ 2 ^ 30)
    (hb : IsBytes m) (hm : m.length < 2 ^ 31) (hmm0 : 0 ≤ mm) (hmm : 2 * mm + 1 ≤ g.N) {R : Int} {r : Rd} {f : Dev} (hf : f.bytes = m)
    (hsz : r.fileSize = m.length) (hset : ForwardSettings r R) {F : Nat} (hH : 0 ≤ r.header) (hroom : 2 * r.header < m.length) (hn : 0 < r.nch)
    (hF0 : 0 ≤ r.fileSamples) (hF : r.fileSamples.tdiv r.nch = F) (hE : 2 * (r.header + F * r.nch) ≤ m.length)
    (hstart : r.playStart = .arbitrary → 0 ≤ r.playbackStart ∧ r.playbackStart ≤ F) (hadv : 128 * (r.nch * (R + 1)) ≤ mm * g.B)
    (nullOk : Bool) {fuel : Nat} (hfu : g.N ≤ fuel + 1) :
    ∃ a', playFinish g r f = .ok (true, a') ∧ a'.rd.playing = true ∧ a'.rd.nch = r.nch ∧ a'.rd.header = r.header ∧ a'.rd.fileSamples = F ∧
      a'.rd.rate = r.rate ∧ a'.rd.rem = r.rem ∧ a'.rd.pos1 = r.header + startFrame r * r.nch ∧ FwdAny R r.header F r.nch a'.rd ∧
      LikeInMemoryAt fp g nullOk (fuel + 1) a' m (SpeedsTo R) := by
  have hNB' : (g.N : Int) * g.B ≤ 2 ^ 30 := by exact_mod_cast hNB
  have hR : 0 ≤ R := by
    have : (0 : ℚ) ≤ R := le_trans hset.rate0 hset.rateR
    exact_mod_cast this
  obtain ⟨a', k1, k2, k3, k4, k5, k6, k7, k8, k9⟩ := playFinish_fwd (m := m) (g := g) (mm := mm) (r := r) (f := f) (R := R) hm (by omega) hmm0 hmm (by omega) hf
    hsz hH hroom hn hset.plain.dual hset.plain.interp hset.loop hset.rate0 hset.rateR hset.flt hset.frac hF0 (by rw [hF]; exact hE)
    (by unfold startFrame; split
        · rename_i e; exact (hstart e).1
        · exact le_refl _)
    (by unfold startFrame; rw [hF]; split
        · rename_i e; exact (hstart e).2
        · omega)
  rw [hF] at k2
  exact ⟨a', k1, k3, k4, k5, by rw [k6, hF], k7, k8, k9, (k2.live k3).1, stream_from hfp hB hNB hb hm hmm0 hmm hR hH (by omega) hn hadv hE k2 nullOk hfu⟩

theorem setNumChannels_settings {r : Rd} {R : Int} (h : ForwardSettings r R) (n : Int) : ForwardSettings (r.setNumChannels n) R := by
  unfold Rd.setNumChannels
  split <;> exact ⟨⟨h.plain.dual, h.plain.interp⟩, h.loop, h.rate0, h.rateR, h.flt, h.frac⟩

theorem setNumChannels_rest (r : Rd) (n : Int) : (r.setNumChannels n).header = r.header ∧ (r.setNumChannels n).playStart = r.playStart ∧
    (r.setNumChannels n).playbackStart = r.playbackStart ∧ (r.setNumChannels n).rate = r.rate ∧ (r.setNumChannels n).rem = r.rem ∧
    (r.setNumChannels n).fileSize = r.fileSize := by
  unfold Rd.setNumChannels
  split <;> exact ⟨rfl, rfl, rfl, rfl, rfl, rfl⟩

/-- **C72** (forwards, raw files).  C17 when the program changes the speed between updates as it likes, up to `R`. -/
theorem C72_forward_raw_partial (fp : Fp) (hfp : Representable fp) (g : Geo) (hB : g.B < 16384) (hNB : g.N * g.B ≤ 2 ^ 30) (a : FileReader) {m : List Nat}
    (hb : IsBytes m) (h0 : 0 < m.length) (hm : m.length < 2 ^ 31) (past : Bool) {nch : Nat} (hc : 1 ≤ nch) (hc' : nch ≤ 32767) {R mm : Int}
    (hset : ForwardSettings a.rd R) (hhead : a.rd.header = 0)
    (hstart : a.rd.playStart = .arbitrary → 0 ≤ a.rd.playbackStart ∧ a.rd.playbackStart ≤ (m.length / 2 / nch : Nat))
    (hmm0 : 0 ≤ mm) (hmm : 2 * mm + 1 ≤ g.N) (hadv : 128 * (nch * (R + 1)) ≤ mm * g.B) (nullOk : Bool) {fuel : Nat} (hf : g.N ≤ fuel + 1) :
    ∃ a', a.playRaw g (some ⟨m, 0, past⟩) nch = .ok (true, a') ∧ a'.rd.playing = true ∧ a'.rd.nch = nch ∧ a'.rd.fileSamples = (m.length / 2 / nch : Nat) ∧
      a'.rd.pos1 = startFrame a.rd * nch ∧ a'.rd.rate = a.rd.rate ∧ a'.rd.rem = a.rd.rem ∧ LikeInMemoryAt fp g nullOk (fuel + 1) a' m (SpeedsTo R) := by
  have hmul : ((m.length / 2 / nch : Nat) : Int) * nch ≤ (m.length / 2 : Nat) := by exact_mod_cast Nat.div_mul_le_self _ _
  have hE : 2 * ((0 : Int) + (m.length / 2 / nch : Nat) * nch) ≤ m.length := by omega
  have hH : 2 * (0 : Int) < m.length := by omega
  have hset' : ForwardSettings (a.close.rd.setNumChannels nch) R :=
    setNumChannels_settings (r := a.close.rd) ⟨⟨hset.plain.dual, hset.plain.interp⟩, hset.loop, hset.rate0, hset.rateR, hset.flt, hset.frac⟩ nch
  obtain ⟨s1, s2, s3, s4, s5, _⟩ := setNumChannels_rest a.close.rd nch
  have hn := setNumChannels_nch_small a.close.rd (n := nch) (by omega) (by omega)
  have hsz : i32 (m.length : Int) = m.length := by unfold i32; omega
  unfold FileReader.playRaw FileReader.playFile
  simp only [Bool.false_eq_true, if_false, Dev.size]
  rw [hsz]
  generalize a.close.rd.setNumChannels nch = r0 at *
  obtain ⟨r1, hr1⟩ : ∃ r1 : Rd, r1 = { r0 with fileSize := (m.length : Int), fileSamples := (m.length : Int).tdiv 2 } := ⟨_, rfl⟩
  rw [← hr1]
  have t1 : r1.header = 0 := by rw [hr1]; exact s1.trans hhead
  have t2 : r1.fileSamples = (m.length : Int).tdiv 2 := by rw [hr1]
  have t3 : r1.nch = nch := by rw [hr1]; exact hn
  have t4 : r1.fileSize = m.length := by rw [hr1]
  have t5 : ForwardSettings r1 R := by
    rw [hr1]; exact ⟨⟨hset'.plain.dual, hset'.plain.interp⟩, hset'.loop, hset'.rate0, hset'.rateR, hset'.flt, hset'.frac⟩
  have t6 : r1.playStart = a.rd.playStart := by rw [hr1]; exact s2
  have t7 : r1.playbackStart = a.rd.playbackStart := by rw [hr1]; exact s3
  have t8 : r1.rate = a.rd.rate := by rw [hr1]; exact s4
  have t9 : r1.rem = a.rd.rem := by rw [hr1]; exact s5
  clear hr1 hsz
  have hst : startFrame r1 = startFrame a.rd := by unfold startFrame; rw [t6, t7]
  obtain ⟨a', k1, k2, k3, k4, k5, k6, k7, k8, k10, k9⟩ := stream_start (r := r1) (f := ⟨m, 0, past⟩) (F := m.length / 2 / nch) hfp hB hNB hb hm hmm0 hmm
    rfl t4 t5 (le_of_eq t1.symm) (by rw [t1]; exact hH) (by rw [t3]; omega) (by rw [t2]; exact Int.tdiv_nonneg (by omega) (by omega))
    (by rw [t2, t3, Int.tdiv_eq_ediv_of_nonneg (Int.natCast_nonneg _), Int.tdiv_eq_ediv_of_nonneg (by omega), Int.natCast_ediv, Int.natCast_ediv]; norm_num)
    (by rw [t1, t3]; exact hE) (by rw [t6, t7]; exact hstart) (by rw [t3]; exact hadv) nullOk hf
  refine ⟨a', k1, k2, k3.trans t3, k5, ?_, k6.trans t8, k7.trans t9, k9⟩
  rw [k8, hst, t1, t3, zero_add]

/-- **C17** (raw files).  Playing a raw file forwards without looping and interpolation, from the beginning or from any
frame, at any rate up to `R` for which an update moves by at most `mm` blocks, with at least `2 mm + 1` buffers, is the same
as playing it from memory.  Any rounding of the arithmetic, any file, any buffer geometry, either kind of `seek`. -/
theorem C17_raw (fp : Fp) (hfp : Representable fp) (g : Geo) (hB : g.B < 16384) (hNB : g.N * g.B ≤ 2 ^ 30) (a : FileReader) {m : List Nat}
    (hb : IsBytes m) (h0 : 0 < m.length) (hm : m.length < 2 ^ 31) (past : Bool) {nch : Nat} (hc : 1 ≤ nch) (hc' : nch ≤ 32767) {R mm : Int}
    (hset : ForwardSettings a.rd R) (hhead : a.rd.header = 0)
    (hstart : a.rd.playStart = .arbitrary → 0 ≤ a.rd.playbackStart ∧ a.rd.playbackStart ≤ (m.length / 2 / nch : Nat))
    (hmm0 : 0 ≤ mm) (hmm : 2 * mm + 1 ≤ g.N) (hadv : 128 * (nch * (R + 1)) ≤ mm * g.B) (nullOk : Bool) {fuel : Nat} (hf : g.N ≤ fuel + 1) :
    ∃ a', a.playRaw g (some ⟨m, 0, past⟩) nch = .ok (true, a') ∧ a'.rd.playing = true ∧ a'.rd.nch = nch ∧ a'.rd.fileSamples = (m.length / 2 / nch : Nat) ∧
      a'.rd.pos1 = startFrame a.rd * nch ∧ a'.rd.rate = a.rd.rate ∧ a'.rd.rem = a.rd.rem ∧ LikeInMemory fp g nullOk (fuel + 1) a' m := by
  obtain ⟨a', h0, h1, h2, h3, h4, h5, h6, h⟩ := C72_forward_raw_partial fp hfp g hB hNB a hb h0 hm past hc hc' hset hhead hstart hmm0 hmm hadv nullOk hf
  exact ⟨a', h0, h1, h2, h3, h4, h5, h6, h.plain⟩

/-- What `playWav` leaves behind for forward playback without looping: a player in step with one that has the file in memory. -/
theorem wav_start {g : Geo} (hN : 1 ≤ g.N) (hNB : g.N * g.B ≤ 2 ^ 30) (a : FileReader) {m : List Nat}
    (hb : IsBytes m) (hm : m.length < 2 ^ 31) (past : Bool) (junk : List Nat) (hj : junk.length = 36) (hg : GoodHeader m)
    (hdep : leVal (slice m 34 2) = 16) {off : Nat} (hda : DataAt m off) {nch D : Nat} (hn : leVal (slice m 22 2) = nch) (hc : 1 ≤ nch) (hc' : nch ≤ 32767)
    (hD : leVal (slice m (off + 4) 4) = D) (hdata : off + 8 + D ≤ m.length) (hroom : off + 8 < m.length) {R mm : Int} (hset : ForwardSettings a.rd R)
    (hstart : a.rd.playStart = .arbitrary → 0 ≤ a.rd.playbackStart ∧ a.rd.playbackStart ≤ (D / 2 / nch : Nat))
    (hmm0 : 0 ≤ mm) (hmm : 2 * mm + 1 ≤ g.N) :
    ∃ a', a.playWav g (some ⟨m, 0, past⟩) junk = .ok (true, a') ∧ a'.rd.playing = true ∧ a'.rd.nch = nch ∧ a'.rd.header = ((off + 8) / 2 : Nat) ∧
      a'.rd.fileSamples = (D / 2 / nch : Nat) ∧ a'.rd.rate = a.rd.rate ∧ a'.rd.rem = a.rd.rem ∧
      a'.rd.pos1 = ((off + 8) / 2 : Nat) + startFrame a.rd * nch ∧
      InStep m g mm (FwdAny R ((off + 8) / 2 : Nat) (D / 2 / nch : Nat) nch) 0 a' ⟨a'.rd, some (toSamples m)⟩ := by
  have hsz : i32 (m.length : Int) = m.length := by unfold i32; omega
  obtain ⟨f', hp, hfb, _⟩ := playParseWav_good
    (r := { a.close.rd with fileSize := i32 (m.length : Int) }) (past := past) hj hb hm hg hdep hda
  have hch : u16 (parsed m).numChannels = nch := by
    simp only [parsed]; rw [u16_i16, hn]; unfold u16; omega
  rw [hch, hD] at hp
  have hset' : ForwardSettings ({ a.close.rd with fileSize := i32 (m.length : Int) }.setNumChannels nch) R :=
    setNumChannels_settings (r := { a.close.rd with fileSize := i32 (m.length : Int) })
      ⟨⟨hset.plain.dual, hset.plain.interp⟩, hset.loop, hset.rate0, hset.rateR, hset.flt, hset.frac⟩ nch
  obtain ⟨s1, s2, s3, s4, s5, s6⟩ := setNumChannels_rest { a.close.rd with fileSize := i32 (m.length : Int) } nch
  have hn' := setNumChannels_nch_small { a.close.rd with fileSize := i32 (m.length : Int) } (n := nch) (by omega) (by omega)
  simp only at s1 s2 s3 s4 s5 s6
  have s6' := s6.trans hsz
  clear s6
  unfold FileReader.playWav FileReader.playFile
  simp only [if_true, Dev.size]
  rw [hp]
  simp only [ok_bind, Bool.not_true, Bool.false_eq_true, if_false]
  clear hp
  generalize Rd.setNumChannels { a.close.rd with fileSize := i32 (m.length : Int) } nch = r0 at *
  have hmul : ((D / 2 / nch : Nat) : Int) * nch ≤ (D / 2 : Nat) := by exact_mod_cast Nat.div_mul_le_self _ _
  obtain ⟨r1, hr1⟩ : ∃ r1 : Rd, r1 = { r0 with header := ((off + 8) / 2 : Nat), fileSamples := (D / 2 : Nat) } := ⟨_, rfl⟩
  rw [← hr1]
  have t1 : r1.header = ((off + 8) / 2 : Nat) := by rw [hr1]
  have t2 : r1.fileSamples = (D / 2 : Nat) := by rw [hr1]
  have t3 : r1.nch = nch := by rw [hr1]; exact hn'
  have t4 : r1.fileSize = m.length := by rw [hr1]; exact s6'
  have t5 : ForwardSettings r1 R := by
    rw [hr1]; exact ⟨⟨hset'.plain.dual, hset'.plain.interp⟩, hset'.loop, hset'.rate0, hset'.rateR, hset'.flt, hset'.frac⟩
  have t6 : r1.playStart = a.rd.playStart := by rw [hr1]; exact s2
  have t7 : r1.playbackStart = a.rd.playbackStart := by rw [hr1]; exact s3
  have t8 : r1.rate = a.rd.rate := by rw [hr1]; exact s4
  have t9 : r1.rem = a.rd.rem := by rw [hr1]; exact s5
  clear hr1
  have hH : 2 * (((off + 8) / 2 : Nat) : Int) < m.length := by clear hsz hch hn hD hdep; omega
  have hE : 2 * ((((off + 8) / 2 : Nat) : Int) + (D / 2 / nch : Nat) * nch) ≤ m.length := by clear hsz hch hn hD hdep; omega
  have hst : startFrame r1 = startFrame a.rd := by unfold startFrame; rw [t6, t7]
  have hFe : r1.fileSamples.tdiv r1.nch = (D / 2 / nch : Nat) := by rw [t2, t3, Int.tdiv_eq_ediv_of_nonneg (by omega), ← Int.natCast_ediv]
  have hNB' : (g.N : Int) * g.B ≤ 2 ^ 30 := by exact_mod_cast hNB
  have hs01 : 0 ≤ startFrame a.rd ∧ startFrame a.rd ≤ (D / 2 / nch : Nat) := by
    unfold startFrame; split
    · rename_i e; exact hstart e
    · exact ⟨le_refl _, Int.natCast_nonneg _⟩
  obtain ⟨a', k1, k2, k3, k4, k5, k6, k7, k8, k9⟩ := playFinish_fwd (m := m) (g := g) (mm := mm) (r := r1) (f := f') (R := R) hm hN hmm0 hmm
    (by clear hsz hch hn hD hdep; omega) hfb t4 (by rw [t1]; omega) (by rw [t1]; exact hH) (by rw [t3]; omega) t5.plain.dual t5.plain.interp t5.loop t5.rate0
    t5.rateR t5.flt t5.frac (by rw [t2]; omega) (by rw [hFe, t1, t3]; exact hE) (by rw [hst]; exact hs01.1) (by rw [hst, hFe]; exact hs01.2)
  rw [hFe, t1, t3] at k2
  exact ⟨a', k1, k3, k4.trans t3, k5.trans t1, k6.trans hFe, k7.trans t8, k8.trans t9, by rw [k9, hst, t1, t3], k2⟩

/-- **C72** (forwards, WAV files).  Likewise. -/
theorem C72_forward_wav_partial (fp : Fp) (hfp : Representable fp) (g : Geo) (hB : g.B < 16384) (hNB : g.N * g.B ≤ 2 ^ 30) (a : FileReader) {m : List Nat}
    (hb : IsBytes m) (hm : m.length < 2 ^ 31) (past : Bool) (junk : List Nat) (hj : junk.length = 36) (hg : GoodHeader m)
    (hdep : leVal (slice m 34 2) = 16) {off : Nat} (hda : DataAt m off) {nch D : Nat} (hn : leVal (slice m 22 2) = nch) (hc : 1 ≤ nch) (hc' : nch ≤ 32767)
    (hD : leVal (slice m (off + 4) 4) = D) (hdata : off + 8 + D ≤ m.length) (hroom : off + 8 < m.length) {R mm : Int} (hset : ForwardSettings a.rd R)
    (hstart : a.rd.playStart = .arbitrary → 0 ≤ a.rd.playbackStart ∧ a.rd.playbackStart ≤ (D / 2 / nch : Nat))
    (hmm0 : 0 ≤ mm) (hmm : 2 * mm + 1 ≤ g.N) (hadv : 128 * (nch * (R + 1)) ≤ mm * g.B) (nullOk : Bool) {fuel : Nat} (hf : g.N ≤ fuel + 1) :
    ∃ a', a.playWav g (some ⟨m, 0, past⟩) junk = .ok (true, a') ∧ a'.rd.playing = true ∧ a'.rd.nch = nch ∧ a'.rd.header = ((off + 8) / 2 : Nat) ∧
      a'.rd.fileSamples = (D / 2 / nch : Nat) ∧ a'.rd.rate = a.rd.rate ∧ a'.rd.rem = a.rd.rem ∧
      a'.rd.pos1 = ((off + 8) / 2 : Nat) + startFrame a.rd * nch ∧ FwdAny R ((off + 8) / 2 : Nat) (D / 2 / nch : Nat) nch a'.rd ∧
      LikeInMemoryAt fp g nullOk (fuel + 1) a' m (SpeedsTo R) := by
  have hR : 0 ≤ R := by
    have : (0 : ℚ) ≤ R := le_trans hset.rate0 hset.rateR
    exact_mod_cast this
  have hmul : ((D / 2 / nch : Nat) : Int) * nch ≤ (D / 2 : Nat) := by exact_mod_cast Nat.div_mul_le_self _ _
  have hE : 2 * ((((off + 8) / 2 : Nat) : Int) + (D / 2 / nch : Nat) * nch) ≤ m.length := by clear hn hD hdep; omega
  obtain ⟨a', k1, k2, k3, k4, k5, k6, k7, k8, k9⟩ := wav_start (g := g) (by omega) hNB a hb hm past junk hj hg hdep hda hn hc hc' hD hdata hroom hset hstart
    hmm0 hmm
  exact ⟨a', k1, k2, k3, k4, k5, k6, k7, k8, (k9.live k2).1,
    stream_from hfp hB hNB hb hm hmm0 hmm hR (Int.natCast_nonneg _) (Int.natCast_nonneg _) (by omega) hadv hE k9 nullOk hf⟩

/-- **C17** (WAV files).  The same for WAV files whose data chunk lies in the file. -/
theorem C17_wav (fp : Fp) (hfp : Representable fp) (g : Geo) (hB : g.B < 16384) (hNB : g.N * g.B ≤ 2 ^ 30) (a : FileReader) {m : List Nat}
    (hb : IsBytes m) (hm : m.length < 2 ^ 31) (past : Bool) (junk : List Nat) (hj : junk.length = 36) (hg : GoodHeader m)
    (hdep : leVal (slice m 34 2) = 16) {off : Nat} (hda : DataAt m off) {nch D : Nat} (hn : leVal (slice m 22 2) = nch) (hc : 1 ≤ nch) (hc' : nch ≤ 32767)
    (hD : leVal (slice m (off + 4) 4) = D) (hdata : off + 8 + D ≤ m.length) (hroom : off + 8 < m.length) {R mm : Int} (hset : ForwardSettings a.rd R)
    (hstart : a.rd.playStart = .arbitrary → 0 ≤ a.rd.playbackStart ∧ a.rd.playbackStart ≤ (D / 2 / nch : Nat))
    (hmm0 : 0 ≤ mm) (hmm : 2 * mm + 1 ≤ g.N) (hadv : 128 * (nch * (R + 1)) ≤ mm * g.B) (nullOk : Bool) {fuel : Nat} (hf : g.N ≤ fuel + 1) :
    ∃ a', a.playWav g (some ⟨m, 0, past⟩) junk = .ok (true, a') ∧ a'.rd.playing = true ∧ a'.rd.nch = nch ∧ a'.rd.header = ((off + 8) / 2 : Nat) ∧
      a'.rd.fileSamples = (D / 2 / nch : Nat) ∧ a'.rd.rate = a.rd.rate ∧ a'.rd.rem = a.rd.rem ∧
      a'.rd.pos1 = ((off + 8) / 2 : Nat) + startFrame a.rd * nch ∧ FwdAny R ((off + 8) / 2 : Nat) (D / 2 / nch : Nat) nch a'.rd ∧
      LikeInMemory fp g nullOk (fuel + 1) a' m := by
  obtain ⟨a', h0, h1, h2, h3, h4, h5, h6, h7, h8, h⟩ := C72_forward_wav_partial fp hfp g hB hNB a hb hm past junk hj hg hdep hda hn hc hc' hD hdata hroom hset hstart hmm0 hmm hadv nullOk hf
  exact ⟨a', h0, h1, h2, h3, h4, h5, h6, h7, h8, h.plain⟩

/-- A player before its first sound, at rate one half. -/
def exHalf : FileReader := { rd := { rate := 1 / 2 } }

theorem exHalf_settings : ForwardSettings exHalf.rd 1 :=
  ⟨⟨rfl, rfl⟩, rfl, by norm_num [exHalf], by norm_num [exHalf], by
    show IsFloat 53 (-1074) 0
    simpa using Rounding.isFloat_of (p := 53) (emin := -1074) (by norm_num) (m := 0) (e := 0) (by norm_num) (by norm_num), by norm_num [exHalf]⟩

example : ∃ a', exHalf.playRaw sdGeo (some ⟨exBytes, 0, false⟩) (1 : Nat) = .ok (true, a') ∧ a'.rd.playing = true ∧ a'.rd.nch = (1 : Nat) ∧
    a'.rd.fileSamples = (exBytes.length / 2 / 1 : Nat) ∧ a'.rd.pos1 = startFrame exHalf.rd * (1 : Nat) ∧ a'.rd.rate = exHalf.rd.rate ∧ a'.rd.rem = exHalf.rd.rem ∧
    LikeInMemory Fp.ieee sdGeo true (6 + 1) a' exBytes :=
  C17_raw Fp.ieee ieee_representable sdGeo (by decide) (by decide) exHalf (by unfold IsBytes; decide) (by decide) (by decide) false (by decide)
    (by decide) (R := 1) (mm := 1) exHalf_settings rfl (by intro h; cases h) (by decide) (by decide) (by decide) true (by decide)

example : ∃ a', exHalf.playWav sdGeo (some ⟨exWav, 0, false⟩) (List.replicate 36 7) = .ok (true, a') ∧ a'.rd.playing = true ∧ a'.rd.nch = (2 : Nat) ∧
    a'.rd.header = ((48 + 8) / 2 : Nat) ∧ a'.rd.fileSamples = (8 / 2 / 2 : Nat) ∧ a'.rd.rate = exHalf.rd.rate ∧ a'.rd.rem = exHalf.rd.rem ∧
    a'.rd.pos1 = ((48 + 8) / 2 : Nat) + startFrame exHalf.rd * (2 : Nat) ∧ FwdAny 1 ((48 + 8) / 2 : Nat) (8 / 2 / 2 : Nat) (2 : Nat) a'.rd ∧
    LikeInMemory Fp.ieee sdGeo true (6 + 1) a' exWav :=
  C17_wav Fp.ieee ieee_representable sdGeo (by decide) (by decide) exHalf exWav_bytes (by decide) false (List.replicate 36 7) (by decide) (by decide)
    (by decide) (off := 48) ⟨Or.inr ⟨by decide, by decide⟩, by decide, by decide⟩ (nch := 2) (D := 8) (by decide) (by decide) (by decide) (by decide)
    (by decide) (by decide) (R := 1) (mm := 1) exHalf_settings (by intro h; cases h) (by decide) (by decide) (by decide) true (by decide)

end TVP
