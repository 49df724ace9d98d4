import Verif.Lemmas.ListWindow
import Verif.Lemmas.SmoothLoop

/-!
# Leaving a loop while a file streams
-/

namespace TVP
open Spec

variable {m : List Nat} {g : Geo} {fp : Fp} {mm : Int} {F0 : Nat}

theorem cyc_eq_up {s f w : Int} : ∀ {n : Nat}, w + n ≤ f + 1 → cyc s f w n = up w n := by
  intro n h
  unfold cyc up
  refine List.map_congr_left fun j hj => ?_
  have := List.mem_range.1 hj
  unfold blk
  rw [if_pos (by omega)]

theorem cyc_split {s f w : Int} (n k : Nat) (h : w + n = f + 1) : cyc s f w (n + k) = up w n ++ up s k := by
  rw [← cyc_eq_up (s := s) (f := f) (by omega)]
  unfold cyc up
  rw [List.range_add, List.map_append, List.map_map]
  congr 1
  refine List.map_congr_left fun j _ => ?_
  simp only [Function.comp]
  unfold blk
  rw [if_neg (by push_cast; omega)]
  push_cast
  omega

/-- The buffers after leaving the loop: from block `w` to the end of the loop, or as many as there are. -/
theorem LWin.leave (hm : m.length < 4294967296) {s f : Int} {c : Cache} {w : Int} (h : LWin m g s f c w) {K : Int} (hK : K ≤ g.N) (hKf : w + K ≤ f + 1) :
    HWin m g K (c.setLoopType .none) w := by
  have hre : Reached m g (c.setLoopType .none) := h.reached.step hm (.loopType .none) rfl
  have hlen := h.conf.len
  have hs0 := h.conf.s0
  have hwf := h.conf.wf
  by_cases hin : w + g.N ≤ f + 1
  · refine ⟨_, _, g.N, [], 0, ⟨hre, h.loaded, ?_, rfl, rfl, rfl⟩, List.nodup_nil, by simp, h.conf.w0, by simpa using hK⟩
    have : (c.setLoopType .none).bufs = c.bufs := rfl
    rw [this, h.ix, cyc_eq_up hin]
    unfold hole up
    simp
  · obtain ⟨n, hn⟩ : ∃ n : Nat, (n : Int) = f + 1 - w := ⟨(f + 1 - w).toNat, Int.toNat_of_nonneg (by omega)⟩
    obtain ⟨k, hk⟩ : ∃ k, g.N = n + k := ⟨g.N - n, by omega⟩
    refine ⟨_, _, n, up s k, 0, ⟨hre, h.loaded, ?_, rfl, rfl, rfl⟩, up_nodup _ _, ?_, h.conf.w0, by push_cast; omega⟩
    · have : (c.setLoopType .none).bufs = c.bufs := rfl
      rw [this, h.ix, hk, cyc_split n k (by omega)]
      unfold hole
      simp [up]
    · intro j hj
      rw [mem_up] at hj
      omega

/-- A streaming player `a` that has left a loop and a player `b` with the whole file in memory, in the same state. -/
structure InStepH (m : List Nat) (g : Geo) (mm : Int) (R H F nch : Int) (F0 : Nat) (a : FileReader) (b : ArrayReader) : Prop where
  rd : b.rd = a.rd
  chans : 0 < a.rd.nch
  fails : ∀ c, a.src = some c → c.fails = F0
  src : b.src = some (toSamples m)
  live : a.rd.playing = true → SFwd R H F nch a.rd ∧ ∃ c k, a.src = some c ∧ HWin m g (2 * mm + 1) c k ∧ k ≤ max H (lowest a.rd) / g.B ∧ a.rd.pos1 / g.B ≤ k + mm

theorem InStepH.tick (hfp : Representable fp) (hB : g.B < 16384) (hb : IsBytes m) (hm : m.length < 4294967296)
    (hfit : (m.length : Int) / 2 + g.N * g.B ≤ 2147483647) {R H F nch : Int} (hR2 : R ≤ 2 ^ 30) (hH : 0 ≤ H) (hF : 0 ≤ F)
    (hfits : H + nch * (F + R + 1) ≤ 2147483647) (hD : 128 * (nch * (R + 1)) + nch ≤ mm * g.B) (hE : 2 * (H + F * nch) ≤ m.length)
    (nullOk : Bool) {fuel : Nat} (hf : g.N ≤ fuel + 1) {a : FileReader} {b : ArrayReader}
    (h : InStepH m g mm R H F nch F0 a b) (alloc : Nat → Bool) :
    ∃ fx a' b', a.tick fp g nullOk (fuel + 1) alloc = .ok (fx, a') ∧ b.tick fp (fuel + 1) alloc = .ok (fx, b') ∧ InStepH m g mm R H F nch F0 a' b' := by
  obtain ⟨r, src⟩ := a
  obtain ⟨r2, src2⟩ := b
  obtain ⟨h1, hn, hF0, h2, h3⟩ := h
  simp only at h1 h2 h3 hn hF0
  rw [h1, h2]; clear h1 h2 r2 src2
  have hB0 : (0 : Int) < g.B := by exact_mod_cast g.B_pos
  unfold FileReader.tick ArrayReader.tick FileReader.update ArrayReader.update
  simp only
  cases hp : r.playing with
  | false =>
    rw [update_off hn, update_off hn]
    refine ⟨{}, ⟨r, src⟩, ⟨r, some (toSamples m)⟩, rfl, rfl, ⟨rfl, hn, hF0, rfl, fun h => ?_⟩⟩
    rw [hp] at h; cases h
  | true =>
    by_cases ha : ((List.range r.nch.toNat).filter alloc).length = (List.range r.nch.toNat).length
    · rw [update_on hn _ _ _ ha, update_on hn _ _ _ ha]
      obtain ⟨hst, c, k, hc, hw, hk1, hk2⟩ := h3 hp
      subst hc
      have hnc := hst.chans
      -- what may be asked for
      obtain ⟨P, hP⟩ : ∃ P : Int → Prop, P = fun i => lowest r ≤ i ∧ H ≤ i ∧ i < r.pos1 + (128 : Nat) * (nch * (R + 1)) ∧ i < H + F * nch := ⟨_, rfl⟩
      have hll := lowest_le (r := r) (by omega)
      have hlg := lowest_ge r (by omega)
      have hpH : H ≤ r.pos1 := by
        obtain ⟨q, q1, _, q2⟩ := hst.pos
        have := mul_nonneg q1 (le_of_lt hst.n0)
        omega
      obtain ⟨low, hlow⟩ : ∃ low, low = max H (lowest r) := ⟨_, rfl⟩
      have hlw1 : H ≤ low := by rw [hlow]; exact le_max_left _ _
      have hlw2 : lowest r ≤ low := by rw [hlow]; exact le_max_right _ _
      have hlw3 : low ≤ r.pos1 := by rw [hlow]; exact max_le hpH hll
      have hlw4 : ∀ i, H ≤ i → lowest r ≤ i → low ≤ i := fun i h1 h2 => by rw [hlow]; exact max_le h1 h2
      rw [← hlow] at hk1
      clear hlow
      have hfileP : ∀ i, P i → InFile m i := fun i hi => by
        rw [hP] at hi
        exact ⟨by omega, by omega⟩
      have hupP : ∀ i, P i → low / g.B ≤ i / g.B ∧ i / g.B ≤ low / g.B + mm := fun i hi => by
        rw [hP] at hi
        refine ⟨Int.ediv_le_ediv hB0 (hlw4 i hi.2.1 hi.1), ?_⟩
        rw [← Int.add_mul_ediv_right _ _ (ne_of_gt hB0)]
        exact Int.ediv_le_ediv hB0 (by push_cast at hi; omega)
      have hl2 : low / g.B ≤ k + mm := le_trans (Int.ediv_le_ediv hB0 hlw3) hk2
      have hbufP : ∀ i, P i → Buffered g c i := fun i hi => by
        obtain ⟨u1, u2⟩ := hupP i hi
        exact hw.buffered hB (hfileP i hi) (by omega) (by omega)
      have hlen := toSamples_length m
      obtain ⟨f, hfd⟩ : ∃ f : Int → Int, f = fun i => (toSamples m).getD i.toNat 0 := ⟨_, rfl⟩
      have hfw : ∀ i, InI16 (f i) := by
        intro i
        rw [hfd]
        simp only
        by_cases hi : i.toNat < m.length / 2
        · rw [toSamples_raw m _ (by omega)]
          unfold sampleAt
          exact i16_in _
        · rw [List.getD_eq_getElem?_getD, List.getElem?_eq_none (by omega)]
          exact ⟨by norm_num, by norm_num⟩
      obtain ⟨fs, r', ext, e1, e2, e3, e4, e5, e6, e7⟩ := hst.run (P := P) (f := f) hfp hfw hR2 hH hF hfits fuel blockSamples r [] (fun i i1 i2 i3 i4 => by
        rw [hP]; exact ⟨i1, i2, i3, i4⟩)
      rw [List.nil_append] at e1 e6
      have hPe : ∀ i ∈ ext, P i := fun i hi => by rw [hP]; exact e7 i hi
      have hread : ∀ {σ : Type} (S : Src σ) (s : σ), r.read fp S (fuel + 1) s blockSamples = readLoop fp S (fuel + 1) blockSamples r s := by
        intro σ S s
        unfold Rd.read
        rw [hp, if_neg (by decide), if_neg (by omega), if_neg (by omega)]
      obtain ⟨o1, f1, f2, f3, f4, f5⟩ := readLoop_ssim (recSrc_file (P := P) (f := f) hb hm hw.reached.ok nullOk (fun i hi => by
        refine ⟨hfileP i hi, hbufP i hi, ?_⟩
        have := hfileP i hi
        rw [hfd]
        simp only
        rw [toSamples_raw m _ (by have w1 := this.1; have w2 := this.2; omega)]
        exact rawSample_eq hb (by have w1 := this.1; have w2 := this.2; omega))) blockSamples r rfl _ e1
      obtain ⟨o2, g1, g2, g3, g4, g5⟩ := readLoop_ssim (recSrc_array (P := P) (f := f) (data := toSamples m) (fun i hi => by
        have := hfileP i hi
        exact ⟨⟨this.1, by have w1 := this.1; have w2 := this.2; omega⟩, by rw [hfd]⟩)) blockSamples r rfl _ e1
      have f1' : readLoop fp (fileSrc g nullOk) (fuel + 1) blockSamples r (some c) = .ok ⟨fs, [], r', some (c.gets g ext).2⟩ := by
        rw [show some c = some (c.gets g []).2 from rfl, f1]
        obtain ⟨w1, w2, w3, w4⟩ := o1
        simp only at f2 f3 f4 f5
        rw [← f2, ← f3, ← f4, f5]
      have g1' : readLoop fp arraySrc (fuel + 1) blockSamples r (some (toSamples m)) = .ok ⟨fs, [], r', some (toSamples m)⟩ := by
        rw [g1]
        obtain ⟨w1, w2, w3, w4⟩ := o2
        simp only at g2 g3 g4 g5
        rw [← g2, ← g3, ← g4, g5]
      unfold FileReader.read ArrayReader.read
      simp only
      rw [hread, hread, f1', g1']
      simp only [ok_bind, pure_eq_ok]
      clear f1 g1 f1' g1' f2 f3 f4 f5 g2 g3 g4 g5 hfw hfd
      by_cases hfull : fs.length = blockSamples
      · have e : (fxOf r.nch fs alloc).event = some .reload := by unfold fxOf; simp only [hfull, if_true]
        rw [e]
        simp only [FileReader.service, ArrayReader.service, FileReader.triggerReload, ArrayReader.triggerReload]
        obtain ⟨t1, t2⟩ : r.pos1 ∈ ext ∧ r.pos1 ≤ lowest r' := by
          rcases e6 with e | e | e
          · exact absurd e.1 (by decide)
          · rw [e.2.1] at hfull; exact absurd hfull (by decide)
          · exact e
        obtain ⟨i0, i1, i2⟩ := least_block (B := g.B) (is := ext) (by rintro rfl; cases t1)
        have u0 := hupP i0 (hPe i0 i1)
        have u1 := i2 _ t1
        obtain ⟨c', hrl, hw'⟩ := hw.round hB hm hfit (lo := i0 / g.B) (is := ext) (by omega)
          (fun i hi => ⟨hfileP i (hPe i hi), i2 i hi, by have := (hupP i (hPe i hi)).2; omega⟩) ⟨i0, i1, rfl⟩
          hf (fp.f.nonneg e2.rate0)
        rw [hrl]
        refine ⟨_, _, _, rfl, rfl, ⟨rfl, by simp only; rw [e3.nch]; exact hn, ?_, rfl, fun _ => ⟨e2, c', _, rfl, hw', ?_, ?_⟩⟩⟩
        · intro c2 h2
          cases h2
          rw [Cache.triggerReload_fails hrl]
          exact (gets_hits hw.reached.ok hb hm _ fun i hi => ⟨hfileP i (hPe i hi), hbufP i (hPe i hi)⟩).2.trans (hF0 c rfl)
        · exact le_trans u1 (Int.ediv_le_ediv hB0 (le_trans t2 (le_max_right _ _)))
        · simp only
          refine le_trans ?_ (add_le_add_left u0.1 mm)
          rw [← Int.add_mul_ediv_right _ _ (ne_of_gt hB0)]
          refine Int.ediv_le_ediv hB0 ?_
          have : (blockSamples : Int) = 128 := rfl
          rw [this] at e5
          omega
      · have e : (fxOf r.nch fs alloc).event = some .close := by unfold fxOf; simp only [hfull, if_false]
        rw [e]
        refine ⟨_, _, _, rfl, rfl, ⟨rfl, ?_, ?_, rfl, fun h => ?_⟩⟩
        · simp only [FileReader.close, Rd.stop]; rw [e3.nch]; exact hn
        · intro c2 h2; simp only [FileReader.close] at h2; cases h2
        · simp only [FileReader.close, Rd.stop] at h; cases h
    · rw [update_short hn _ _ _ ha, update_short hn _ _ _ ha]
      refine ⟨_, ⟨r, src⟩, ⟨r, some (toSamples m)⟩, rfl, rfl, ⟨rfl, hn, hF0, rfl, h3⟩⟩

end TVP
