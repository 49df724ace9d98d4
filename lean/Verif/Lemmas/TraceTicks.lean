import Verif.Lemmas.GlideInterp
import Verif.Lemmas.LoopTicks

/-!
# Updates of never-ending players of any kind
-/

namespace TVP
open Spec

variable {m : List Nat} {g : Geo} {Live : Rd → Cache → Prop} {F0 : Nat} {fp : Fp}

/-- Readers and caches satisfying `Live` only ask for what is buffered, complete the update, and stay so when the reload after
the update is done.  What is asked for is written down by `recSrc`. -/
def KeepsUpT (fp : Fp) (m : List Nat) (g : Geo) (fuel : Nat) (Live : Rd → Cache → Prop) : Prop :=
  ∀ r c, Live r c → Reached m g c ∧ ∃ P : Int → Prop, (∀ i, P i → InFile m i ∧ Buffered g c i) ∧
    ∀ f : Int → Int, (∀ i, InI16 (f i)) → ∃ fs r' t c', readLoop fp (recSrc P f) fuel blockSamples r [] = .ok ⟨fs, [], r', t⟩ ∧
      fs.length = blockSamples ∧ SameConf r r' ∧ (∀ i ∈ t, P i) ∧
      (c.gets g t).2.triggerReload g fuel (fp.f.rnd r'.rate) = .ok c' ∧ Live r' c'

/-- The length of the file stays the same. -/
theorem KeepsUpT.length {fuel : Nat} (hk : KeepsUpT fp m g fuel Live) (F : Int) : KeepsUpT fp m g fuel (fun r c => Live r c ∧ r.fileSamples = F) := by
  intro r c h
  obtain ⟨h1, P, h2, h3⟩ := hk r c h.1
  refine ⟨h1, P, h2, fun f hf => ?_⟩
  obtain ⟨fs, r', t, c', k1, k2, k3, k4, k5, k6⟩ := h3 f hf
  exact ⟨fs, r', t, c', k1, k2, k3, k4, k5, k6, k3.fileSamples.trans h.2⟩

theorem Along.tickT (hb : IsBytes m) (hm : m.length < 2 ^ 31) {fuel : Nat} (hk : KeepsUpT fp m g fuel Live) (nullOk : Bool)
    {a : FileReader} {b : ArrayReader} (h : Along m Live F0 a b) (alloc : Nat → Bool) :
    ∃ fx a' b', a.tick fp g nullOk fuel alloc = .ok (fx, a') ∧ b.tick fp fuel alloc = .ok (fx, b') ∧ Along m Live F0 a' b' := by
  obtain ⟨r, src⟩ := a
  obtain ⟨r2, src2⟩ := b
  obtain ⟨h1, hn, hF, h2, h3⟩ := h
  simp only at h1 h2 h3 hn hF
  rw [h1, h2]; clear h1 h2 r2 src2
  have hm' : m.length < 4294967296 := by omega
  unfold FileReader.tick ArrayReader.tick FileReader.update ArrayReader.update
  simp only
  cases hp : r.playing with
  | false =>
    rw [update_off hn, update_off hn]
    refine ⟨{}, ⟨r, src⟩, ⟨r, some (toSamples m)⟩, rfl, rfl, ⟨rfl, hn, hF, rfl, fun h => ?_⟩⟩
    rw [hp] at h; cases h
  | true =>
    by_cases ha : ((List.range r.nch.toNat).filter alloc).length = (List.range r.nch.toNat).length
    · rw [update_on hn _ _ _ ha, update_on hn _ _ _ ha]
      obtain ⟨c, hc, hlive⟩ := h3 hp
      subst hc
      obtain ⟨hre, P, hP, hrun⟩ := hk r c hlive
      have hlen := toSamples_length m
      obtain ⟨f, hfd⟩ : ∃ f : Int → Int, f = fun i => (toSamples m).getD i.toNat 0 := ⟨_, rfl⟩
      have hfw : ∀ i, InI16 (f i) := by
        intro i
        rw [hfd]
        simp only
        by_cases hi : i.toNat < m.length / 2
        · rw [toSamples_raw m _ (by omega)]
          unfold sampleAt
          exact i16_in _
        · rw [List.getD_eq_getElem?_getD, List.getElem?_eq_none (by omega)]
          exact ⟨by norm_num, by norm_num⟩
      obtain ⟨fs, r', t, c', e1, hfull, hnch, hPt, hrl, hlive'⟩ := hrun f hfw
      have hread : ∀ {σ : Type} (S : Src σ) (s : σ), r.read fp S fuel s blockSamples = readLoop fp S fuel blockSamples r s := by
        intro σ S s
        unfold Rd.read
        rw [hp, if_neg (by decide), if_neg (by omega), if_neg (by omega)]
      obtain ⟨o1, f1, f2, f3, f4, f5⟩ := readLoop_ssim (recSrc_file (P := P) (f := f) hb hm' hre.ok nullOk (fun i hi => by
        obtain ⟨hin, hbuf⟩ := hP i hi
        refine ⟨hin, hbuf, ?_⟩
        rw [hfd]
        simp only
        rw [toSamples_raw m _ (by have w1 := hin.1; have w2 := hin.2; omega)]
        exact rawSample_eq hb (by have w1 := hin.1; have w2 := hin.2; omega))) blockSamples r rfl _ e1
      obtain ⟨o2, g1, g2, g3, g4, g5⟩ := readLoop_ssim (recSrc_array (P := P) (f := f) (data := toSamples m) (fun i hi => by
        have := (hP i hi).1
        exact ⟨⟨this.1, by have w1 := this.1; have w2 := this.2; omega⟩, by rw [hfd]⟩)) blockSamples r rfl _ e1
      have f1' : readLoop fp (fileSrc g nullOk) fuel blockSamples r (some c) = .ok ⟨fs, [], r', some (c.gets g t).2⟩ := by
        rw [show some c = some (c.gets g []).2 from rfl, f1]
        obtain ⟨w1, w2, w3, w4⟩ := o1
        simp only at f2 f3 f4 f5
        rw [← f2, ← f3, ← f4, f5]
      have g1' : readLoop fp arraySrc fuel blockSamples r (some (toSamples m)) = .ok ⟨fs, [], r', some (toSamples m)⟩ := by
        rw [g1]
        obtain ⟨w1, w2, w3, w4⟩ := o2
        simp only at g2 g3 g4 g5
        rw [← g2, ← g3, ← g4, g5]
      unfold FileReader.read ArrayReader.read
      simp only
      rw [hread, hread, f1', g1']
      simp only [ok_bind, pure_eq_ok]
      clear f1 g1 f1' g1' f2 f3 f4 f5 g2 g3 g4 g5 hfw hfd
      have e : (fxOf r.nch fs alloc).event = some .reload := by unfold fxOf; simp only [hfull, if_true]
      rw [e]
      simp only [FileReader.service, ArrayReader.service, FileReader.triggerReload, ArrayReader.triggerReload]
      rw [hrl]
      refine ⟨_, _, _, rfl, rfl, ⟨rfl, by simp only; rw [hnch.nch]; exact hn, ?_, rfl, fun _ => ⟨c', rfl, hlive'⟩⟩⟩
      intro c2 h2
      cases h2
      rw [Cache.triggerReload_fails hrl]
      exact (gets_hits hre.ok hb hm' _ fun i hi => hP i (hPt i hi)).2.trans (hF c rfl)
    · rw [update_short hn _ _ _ ha, update_short hn _ _ _ ha]
      refine ⟨_, ⟨r, src⟩, ⟨r, some (toSamples m)⟩, rfl, rfl, ⟨rfl, hn, hF, rfl, h3⟩⟩

end TVP
