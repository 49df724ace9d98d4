import Verif.Props.EndToEnd

/-!
# Property C67: raw files with a header
-/

namespace TVP
open Spec

/-- **C67** (partial: where the sound begins; that it ends with the file is refuted below).  `setHeaderSizeInBytes(h)` with an even `h`, then
`playRaw` of a file with at least one frame after its first `h` bytes, forwards, from the beginning: the first frame delivered is the one that
starts at byte `h` (all channels, if they lie in one block or there are three buffers of at least `nch` samples). -/
theorem C67_begin_partial (fp : Fp) (hfp : Representable fp) (g : Geo) (hB : g.B < 16384) (hN : 1 ≤ g.N) (hNB : g.N * g.B ≤ 2 ^ 30) (a : FileReader)
    {m : List Nat} (hb : IsBytes m) (hm : m.length < 2 ^ 31) (past : Bool) {h nch : Nat} (heven : h % 2 = 0) (hc : 1 ≤ nch) (hc' : nch ≤ 32767)
    (hroom : h + 2 * nch ≤ m.length) {R : Int} (hR : R ≤ 2 ^ 30) (hfits : (h : Int) / 2 + (m.length / 2 : Nat) + nch * (R + 1) ≤ 2147483647)
    (hset : ForwardSettings a.rd R) (hstart : a.rd.playStart = .sample) (nullOk : Bool) (fuel : Nat) :
    ∃ a' frame a'', ({ a with rd := a.rd.setHeaderSize h } : FileReader).playRaw g (some ⟨m, 0, past⟩) nch = .ok (true, a') ∧ a'.rd.nch = nch ∧
      a'.rd.fileSamples = (m.length / 2 / nch : Nat) ∧ a'.read fp g nullOk (fuel + 1) 1 = .ok ([frame], a'') ∧ frame.length = nch ∧
      frame.getD 0 0 = dataSample m h 0 ∧
      ∀ ch < nch, ((h / 2 + ch) / g.B = h / 2 / g.B ∨ 3 ≤ g.N ∧ nch ≤ g.B) → frame.getD ch 0 = dataSample m h ch := by
  have hmul : ((m.length / 2 / nch : Nat) : Int) * nch ≤ (m.length / 2 : Nat) := by exact_mod_cast Nat.div_mul_le_self _ _
  have hF1 : 1 ≤ m.length / 2 / nch := (Nat.le_div_iff_mul_le (by omega)).2 (by omega)
  have hFe0 : ∀ x y : Int, x = (m.length : Int).tdiv 2 → y = nch → x.tdiv y = (m.length / 2 / nch : Nat) := by
    rintro x y rfl rfl
    rw [Int.tdiv_eq_ediv_of_nonneg (Int.natCast_nonneg _), Int.tdiv_eq_ediv_of_nonneg (by omega), Int.natCast_ediv, Int.natCast_ediv]; norm_num
  generalize m.length / 2 / nch = F at *
  have hNB' : (g.N : Int) * g.B ≤ 2 ^ 30 := by exact_mod_cast hNB
  have hR0 : 0 ≤ R := by
    have : (0 : ℚ) ≤ R := le_trans hset.rate0 hset.rateR
    exact_mod_cast this
  obtain ⟨a0, ha0⟩ : ∃ a0 : FileReader, a0 = { a with rd := a.rd.setHeaderSize h } := ⟨_, rfl⟩
  have hset0 : ForwardSettings a0.rd R := by
    rw [ha0]; exact ⟨⟨hset.plain.dual, hset.plain.interp⟩, hset.loop, hset.rate0, hset.rateR, hset.flt, hset.frac⟩
  have hhead : a0.rd.header = (h / 2 : Nat) := by
    rw [ha0]
    have : u32 (h : Int) = h := by unfold u32; omega
    simp only [Rd.setHeaderSize, this]
    omega
  have hst0 : a0.rd.playStart = .sample := by rw [ha0]; exact hstart
  rw [← ha0]
  clear ha0 hset hstart
  have hset' : ForwardSettings (a0.close.rd.setNumChannels nch) R :=
    setNumChannels_settings (r := a0.close.rd) ⟨⟨hset0.plain.dual, hset0.plain.interp⟩, hset0.loop, hset0.rate0, hset0.rateR, hset0.flt, hset0.frac⟩ nch
  obtain ⟨s1, s2, s3, s4, s5, _⟩ := setNumChannels_rest a0.close.rd nch
  have hn := setNumChannels_nch_small a0.close.rd (n := nch) (by omega) (by omega)
  have hsz : i32 (m.length : Int) = m.length := by unfold i32; omega
  unfold FileReader.playRaw FileReader.playFile
  simp only [Bool.false_eq_true, if_false, Dev.size]
  rw [hsz]
  generalize a0.close.rd.setNumChannels nch = r0 at *
  obtain ⟨r1, hr1⟩ : ∃ r1 : Rd, r1 = { r0 with fileSize := (m.length : Int), fileSamples := (m.length : Int).tdiv 2 } := ⟨_, rfl⟩
  rw [← hr1]
  have t1 : r1.header = (h / 2 : Nat) := by rw [hr1]; exact s1.trans hhead
  have t2 : r1.fileSamples = (m.length : Int).tdiv 2 := by rw [hr1]
  have t3 : r1.nch = nch := by rw [hr1]; exact hn
  have t4 : r1.fileSize = m.length := by rw [hr1]
  have t5 : ForwardSettings r1 R := by
    rw [hr1]; exact ⟨⟨hset'.plain.dual, hset'.plain.interp⟩, hset'.loop, hset'.rate0, hset'.rateR, hset'.flt, hset'.frac⟩
  have t6 : startFrame r1 = 0 := by
    have : r1.playStart = .sample := by rw [hr1]; exact s2.trans hst0
    unfold startFrame; rw [this]; rfl
  have hFe : r1.fileSamples.tdiv r1.nch = F := hFe0 _ _ t2 t3
  clear hr1 hsz hFe0
  set mm : Int := if 3 ≤ g.N then 1 else 0 with hmm
  obtain ⟨a', k1, k2, k3, k4, k5, k6, k7, k8, k9⟩ := playFinish_within (m := m) (g := g) (mm := mm) (r := r1) (f := ⟨m, 0, past⟩) (R := R) hm hN
    (by rw [hmm]; split <;> omega) (by rw [hmm]; split <;> omega) (by omega) rfl t4 (by rw [t1]; omega) (by rw [t1]; omega) (by rw [t3]; omega)
    t5.plain.dual t5.plain.interp t5.loop t5.rate0 t5.rateR t5.flt t5.frac (by rw [t2]; exact Int.tdiv_nonneg (by omega) (by omega))
    (by rw [t6, t1]; omega) (le_of_eq t6.symm) (by rw [t6, hFe]; omega)
  rw [hFe, t1, t3] at k2
  obtain ⟨hst, c, k, L, hcs, hw, hk1, hk2⟩ := k2.live k3
  rw [t6, t1, zero_mul, add_zero] at k9
  have hr1 : (nch : Int) * (F + R + 1) = F * nch + nch * (R + 1) := by ring
  have hr2 : R + 1 ≤ nch * (R + 1) := le_mul_of_one_le_left (by omega) (by omega)
  obtain ⟨frame, a'', f1, f2, f3⟩ := first_frame hfp hB hNB hb hm k3 hst hc hR hF1 (by rw [hr1]; omega) (by omega) k9 hcs hw hk1 hk2 hmm nullOk fuel
  have hget : ∀ ch < nch, ((h / 2 + ch) / g.B = h / 2 / g.B ∨ 3 ≤ g.N ∧ nch ≤ g.B) → frame.getD ch 0 = dataSample m h ch := by
    intro ch hch hor
    rw [f3 ch hch hor, ← fileSample_data m (start := h) heven]
  exact ⟨a', frame, a'', k1, k4.trans t3, k6.trans hFe, f1, f2, hget 0 (by omega) (Or.inl rfl), hget⟩

/-- A raw file with a header of four bytes and four samples. -/
def hdrBytes : List Nat := [9, 0, 9, 0, 1, 0, 2, 0, 3, 0, 4, 0]

example : ∃ a' frame a'', ({ exHalf with rd := exHalf.rd.setHeaderSize (4 : Nat) } : FileReader).playRaw sdGeo (some ⟨hdrBytes, 0, false⟩) (2 : Nat) = .ok (true, a') ∧
    a'.rd.nch = (2 : Nat) ∧ a'.rd.fileSamples = (hdrBytes.length / 2 / 2 : Nat) ∧ a'.read Fp.ieee sdGeo true (0 + 1) 1 = .ok ([frame], a'') ∧ frame.length = 2 ∧
    frame.getD 0 0 = dataSample hdrBytes 4 0 ∧
    ∀ ch < 2, ((4 / 2 + ch) / sdGeo.B = 4 / 2 / sdGeo.B ∨ 3 ≤ sdGeo.N ∧ 2 ≤ sdGeo.B) → frame.getD ch 0 = dataSample hdrBytes 4 ch :=
  C67_begin_partial Fp.ieee ieee_representable sdGeo (by decide) (by decide) (by decide) exHalf (by unfold IsBytes; decide) (by decide) false (by decide)
    (by decide) (by decide) (by decide) (R := 1) (by decide) (by decide) exHalf_settings rfl true 0

/-- Three buffers of four samples in memory that holds other things before. -/
def usedGeo : Geo := ⟨2, 3, fun _ => [5, 6, 5, 6, 5, 6, 5, 6]⟩

/-- **C67** refuted: the sound does not end with the file.  The number of samples played is that of the whole file, header included, so that
after the four samples of the file two more are played, from whatever was in the buffer's memory before. -/
theorem C67_refuted : (do
    let (ok, a) ← ({ rd := ({} : Rd).setHeaderSize 4 } : FileReader).playRaw usedGeo (some ⟨hdrBytes, 0, false⟩) 1
    let (fs, _) ← a.read Fp.ideal usedGeo true 2 128
    return (ok, fs) : M (Bool × List (List Int))) = .ok (true, [[1], [2], [3], [4], [1541], [1541]]) := by decide +kernel

end TVP
