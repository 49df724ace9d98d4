import Verif.Model.Time
import Verif.Lemmas.Fp
import Verif.Lemmas.Play
import Verif.FpIEEE

/-!
# Properties C57, C58, C61, C62: lengths and positions in milliseconds
-/

namespace TVP

/-! ## The constant -/

/-- On Teensy 4 the constant is the same in every rounding mode. -/
theorem b2m_teensy4 (fp : Fp) : b2m fp 44100 = 48695774 := by
  have e1 : fp.d.rnd ((97391548 : Int) : ℚ) = ((97391548 : Int) : ℚ) := fp.d.exact_int (by norm_num) (by norm_num) (by norm_num)
  have e2 : fp.d.rnd ((97391549 : Int) : ℚ) = ((97391549 : Int) : ℚ) := fp.d.exact_int (by norm_num) (by norm_num) (by norm_num)
  have m1 := fp.d.mono (show ((97391548 : Int) : ℚ) ≤ 4294967296000 / 44100 by norm_num)
  have m2 := fp.d.mono (show (4294967296000 / 44100 : ℚ) ≤ ((97391549 : Int) : ℚ) by norm_num)
  rw [e1] at m1; rw [e2] at m2
  have e3 : fp.d.rnd ((48695774 : Int) : ℚ) = ((48695774 : Int) : ℚ) := fp.d.exact_int (by norm_num) (by norm_num) (by norm_num)
  have e4 : fp.d.rnd (97391549 / 2) = 97391549 / 2 := by
    apply fp.d.exact
    exact ⟨97391549, -1, by norm_num, by norm_num, by norm_num⟩
  have m3 := fp.d.mono (show ((48695774 : Int) : ℚ) ≤ fp.d.rnd (4294967296000 / 44100) / 2 by push_cast at m1 ⊢; linarith)
  have m4 := fp.d.mono (show fp.d.rnd (4294967296000 / 44100) / 2 ≤ 97391549 / 2 by push_cast at m2; linarith)
  rw [e3] at m3; rw [e4] at m4
  push_cast at m3
  unfold b2m trunc
  rw [if_pos (by linarith), Int.floor_eq_iff]
  constructor
  · push_cast; linarith
  · push_cast; linarith

/-- The same on Teensy 3. -/
theorem b2m_teensy3 (fp : Fp) : b2m fp rateTeensy3 = 48676294 := by
  have e1 : fp.d.rnd ((97352589 : Int) : ℚ) = ((97352589 : Int) : ℚ) := fp.d.exact_int (by norm_num) (by norm_num) (by norm_num)
  have e2 : fp.d.rnd (194705179 / 2) = 194705179 / 2 := by
    apply fp.d.exact
    exact ⟨194705179, -1, by norm_num, by norm_num, by norm_num⟩
  have m1 := fp.d.mono (show ((97352589 : Int) : ℚ) ≤ 4294967296000 / rateTeensy3 by norm_num [rateTeensy3])
  have m2 := fp.d.mono (show (4294967296000 / rateTeensy3 : ℚ) ≤ 194705179 / 2 by norm_num [rateTeensy3])
  rw [e1] at m1; rw [e2] at m2
  have e3 : fp.d.rnd (97352589 / 2) = 97352589 / 2 := by
    apply fp.d.exact
    exact ⟨97352589, -1, by norm_num, by norm_num, by norm_num⟩
  have e4 : fp.d.rnd (194705179 / 4) = 194705179 / 4 := by
    apply fp.d.exact
    exact ⟨194705179, -2, by norm_num, by norm_num, by norm_num⟩
  have m3 := fp.d.mono (show (97352589 / 2 : ℚ) ≤ fp.d.rnd (4294967296000 / rateTeensy3) / 2 by push_cast at m1; linarith)
  have m4 := fp.d.mono (show fp.d.rnd (4294967296000 / rateTeensy3) / 2 ≤ 194705179 / 4 by linarith)
  rw [e3] at m3; rw [e4] at m4
  unfold b2m trunc
  rw [if_pos (by linarith), Int.floor_eq_iff]
  constructor
  · push_cast; linarith
  · push_cast; linarith

/-! ## Lengths -/

/-- The playing time in milliseconds of `bytes` bytes of 16-bit samples at `rate` samples per second. -/
def millisOf (rate : ℚ) (bytes : Int) : ℚ := (bytes : ℚ) / 2 / rate * 1000

theorem lengthMillis_eq {b s : Int} (h0 : 0 ≤ s) (h1 : s < 2 ^ 31) (hb0 : 0 ≤ b) (hb1 : b < 2 ^ 26) : lengthMillis b s = s * b / 4294967296 := by
  unfold lengthMillis
  have e1 : u64 s = s := by unfold u64; omega
  have h2 : 0 ≤ s * b := mul_nonneg h0 hb0
  have h3 : s * b ≤ 2 ^ 31 * 2 ^ 26 := mul_le_mul (le_of_lt h1) (le_of_lt hb1) hb0 (by norm_num)
  have e2 : u64 (s * b) = s * b := by unfold u64; omega
  rw [e1, e2]
  unfold u32
  omega

/-- **C57**, for every file size: the reported length is never more than the exact one, and less by at most 1.17 ms (Teensy 4). -/
theorem C57_accurate (fp : Fp) (a : FileReader) (h0 : 0 ≤ a.rd.fileSize) (h1 : a.rd.fileSize < 2 ^ 31) :
    (a.lengthMillis fp 44100 : ℚ) ≤ millisOf 44100 a.rd.fileSize ∧ millisOf 44100 a.rd.fileSize < a.lengthMillis fp 44100 + 117 / 100 := by
  unfold FileReader.lengthMillis
  rw [b2m_teensy4, lengthMillis_eq h0 h1 (by norm_num) (by norm_num)]
  generalize a.rd.fileSize = s at h0 h1 ⊢
  have k1 : 441 * (s * 48695774 / 4294967296) ≤ 5 * s := by omega
  have k2 : 500 * s < 44100 * (s * 48695774 / 4294967296) + 44100 + 7497 := by omega
  unfold millisOf
  have k1' : (441 : ℚ) * ((s * 48695774 / 4294967296 : Int) : ℚ) ≤ 5 * s := by exact_mod_cast k1
  have k2' : (500 : ℚ) * s < 44100 * ((s * 48695774 / 4294967296 : Int) : ℚ) + 44100 + 7497 := by exact_mod_cast k2
  constructor <;> linarith

/-- The same on Teensy 3: less by at most 1.26 ms. -/
theorem C57_accurate_teensy3 (fp : Fp) (a : FileReader) (h0 : 0 ≤ a.rd.fileSize) (h1 : a.rd.fileSize < 2 ^ 31) :
    (a.lengthMillis fp rateTeensy3 : ℚ) ≤ millisOf rateTeensy3 a.rd.fileSize ∧
      millisOf rateTeensy3 a.rd.fileSize < a.lengthMillis fp rateTeensy3 + 126 / 100 := by
  unfold FileReader.lengthMillis
  rw [b2m_teensy3, lengthMillis_eq h0 h1 (by norm_num) (by norm_num)]
  generalize a.rd.fileSize = s at h0 h1 ⊢
  have k1 : 5647059 * (s * 48676294 / 4294967296) ≤ 64000 * s := by omega
  have k2 : 6400000 * s < 564705900 * (s * 48676294 / 4294967296) + 711529434 := by omega
  unfold millisOf rateTeensy3
  have k1' : (5647059 : ℚ) * ((s * 48676294 / 4294967296 : Int) : ℚ) ≤ 64000 * s := by exact_mod_cast k1
  have k2' : (6400000 : ℚ) * s < 564705900 * ((s * 48676294 / 4294967296 : Int) : ℚ) + 711529434 := by exact_mod_cast k2
  constructor <;> linarith

/-- **C57** (the part that holds).  The length is within 1 ms for every file below 29 417 699 bytes (on Teensy 4).  Missing: larger
files; the bound is exact, see `C57_refuted`. -/
theorem C57_within_1ms_partial (fp : Fp) (a : FileReader) (h0 : 0 ≤ a.rd.fileSize) (h1 : a.rd.fileSize < 29417699) :
    |millisOf 44100 a.rd.fileSize - a.lengthMillis fp 44100| ≤ 1 := by
  obtain ⟨k0, _⟩ := C57_accurate fp a h0 (by omega)
  unfold FileReader.lengthMillis at *
  rw [b2m_teensy4, lengthMillis_eq h0 (by omega) (by norm_num) (by norm_num)] at *
  generalize a.rd.fileSize = s at h0 h1 k0 ⊢
  have k2 : 5 * s ≤ 441 * (s * 48695774 / 4294967296) + 441 := by
    by_cases hs : s < 29417590
    · omega
    · obtain ⟨j, hj⟩ : ∃ j : Fin 109, s = 29417590 + (j : Nat) := ⟨⟨(s - 29417590).toNat, by omega⟩, by simp only; omega⟩
      rw [hj]
      clear hj
      revert j
      decide +kernel
  have k2' : (5 : ℚ) * s ≤ 441 * ((s * 48695774 / 4294967296 : Int) : ℚ) + 441 := by exact_mod_cast k2
  rw [abs_of_nonneg (by linarith)]
  unfold millisOf at *
  linarith

example : |millisOf 44100 88244 - (⟨{ fileSize := 88244 }, none⟩ : FileReader).lengthMillis Fp.ieee 44100| ≤ 1 :=
  C57_within_1ms_partial Fp.ieee ⟨{ fileSize := 88244 }, none⟩ (by decide) (by decide)

/-- **C57 refuted**: a file of 29 417 699 bytes is reported more than 1 ms short, in every rounding mode. -/
theorem C57_refuted (fp : Fp) : 1 < millisOf 44100 29417699 - (⟨{ fileSize := 29417699 }, none⟩ : FileReader).lengthMillis fp 44100 := by
  unfold FileReader.lengthMillis
  rw [b2m_teensy4]
  have : lengthMillis 48695774 29417699 = 333533 := by decide +kernel
  simp only [this]
  norm_num [millisOf]

/-! ## Positions -/

theorem rnd_up4 (fp : Fp) {x : Int} (h0 : 0 ≤ x) (h1 : x ≤ 2 ^ 54) : fp.d.rnd x ≤ x + 3 := by
  have e : fp.d.rnd ((4 * ((x + 3) / 4) : Int) : ℚ) = ((4 * ((x + 3) / 4) : Int) : ℚ) := by
    apply fp.d.exact
    refine ⟨(x + 3) / 4, 2, ?_, by norm_num, by push_cast; ring⟩
    rw [abs_of_nonneg (by omega)]; omega
  have m := fp.d.mono (show (x : ℚ) ≤ ((4 * ((x + 3) / 4) : Int) : ℚ) by exact_mod_cast (by omega : x ≤ 4 * ((x + 3) / 4)))
  rw [e] at m
  have : ((4 * ((x + 3) / 4) : Int) : ℚ) ≤ ((x + 3 : Int) : ℚ) := by exact_mod_cast (by omega : 4 * ((x + 3) / 4) ≤ x + 3)
  push_cast at this m ⊢
  linarith

/-- The position shown for sample position `pos`. -/
theorem shown_le (fp : Fp) {pos den L : Int} (h0 : 0 ≤ pos) (h1 : pos ≤ den) (hd : 0 < den) (hd1 : den < 2 ^ 30) (hL0 : 0 ≤ L) (hL1 : L ≤ 2 ^ 24 + 2 ^ 23) :
    0 ≤ fp.d.rnd (fp.d.rnd ((pos : ℚ) * L) / den) ∧ trunc (fp.d.rnd (fp.d.rnd ((pos : ℚ) * L) / den)) ≤ L := by
  have hdq : (0 : ℚ) < den := by exact_mod_cast hd
  have p0 : (0 : ℚ) ≤ (pos : ℚ) * L := mul_nonneg (by exact_mod_cast h0) (by exact_mod_cast hL0)
  have r0 := fp.d.nonneg p0
  have s0 := fp.d.nonneg (div_nonneg r0 (le_of_lt hdq))
  refine ⟨s0, ?_⟩
  have hle : pos * L ≤ den * L := mul_le_mul_of_nonneg_right h1 hL0
  have hm := fp.d.mono (show (pos : ℚ) * L ≤ ((den * L : Int) : ℚ) by exact_mod_cast hle)
  have hdl0 : 0 ≤ den * L := mul_nonneg (le_of_lt hd) hL0
  have hq : fp.d.rnd ((pos : ℚ) * L) / den ≤ L + 3 / 4 := by
    rw [div_le_iff₀ hdq]
    by_cases hs : den * L ≤ 2 ^ 53
    · rw [fp.d.exact_int (by norm_num) (by norm_num) (by rw [abs_of_nonneg hdl0]; exact_mod_cast hs)] at hm
      push_cast at hm
      nlinarith
    · have hd4 : 4 ≤ den := by
        by_contra hc
        have : den * L ≤ 3 * (2 ^ 24 + 2 ^ 23) := mul_le_mul (by omega) hL1 hL0 (by norm_num)
        omega
      have hbig : den * L ≤ 2 ^ 54 + 2 ^ 53 := by
        calc den * L ≤ 2 ^ 30 * (2 ^ 24 + 2 ^ 23) := mul_le_mul (le_of_lt hd1) hL1 hL0 (by norm_num)
          _ = 2 ^ 54 + 2 ^ 53 := by norm_num
      have hu : fp.d.rnd ((den * L : Int) : ℚ) ≤ ((den * L : Int) : ℚ) + 3 := by
        by_cases h54 : den * L ≤ 2 ^ 54
        · exact rnd_up4 fp hdl0 h54
        · have e : fp.d.rnd ((4 * ((den * L + 3) / 4) : Int) : ℚ) = ((4 * ((den * L + 3) / 4) : Int) : ℚ) := by
            apply fp.d.exact
            refine ⟨(den * L + 3) / 4, 2, ?_, by norm_num, by push_cast; norm_num; ring⟩
            rw [abs_of_nonneg (by omega)]; omega
          have m := fp.d.mono (show ((den * L : Int) : ℚ) ≤ ((4 * ((den * L + 3) / 4) : Int) : ℚ) by
            exact_mod_cast (by omega : den * L ≤ 4 * ((den * L + 3) / 4)))
          rw [e] at m
          have : ((4 * ((den * L + 3) / 4) : Int) : ℚ) ≤ ((den * L + 3 : Int) : ℚ) := by
            exact_mod_cast (by omega : 4 * ((den * L + 3) / 4) ≤ den * L + 3)
          push_cast at this m ⊢
          linarith
      have h4 : (4 : ℚ) ≤ den := by exact_mod_cast hd4
      push_cast at hm hu
      nlinarith
  have e : fp.d.rnd ((L : ℚ) + 3 / 4) = (L : ℚ) + 3 / 4 := by
    apply fp.d.exact
    refine ⟨4 * L + 3, -2, ?_, by norm_num, by push_cast; norm_num; ring⟩
    rw [abs_of_nonneg (by omega)]; omega
  have m := fp.d.mono hq
  rw [e] at m
  unfold trunc
  rw [if_pos s0]
  have : ⌊fp.d.rnd (fp.d.rnd ((pos : ℚ) * L) / den)⌋ < L + 1 := by
    rw [Int.floor_lt]; push_cast; linarith
  omega

/-- The head whose position is reported: the first, or while a cross-fade is more than half done the second. -/
def shownHead (r : Rd) : Int := if r.dual = true ∧ 1 / 2 ≤ r.crossfade then r.pos2 else r.pos1

theorem positionMillis_eq (fp : Fp) (b : Int) (r : Rd) (h : r.fileSize ≠ 0) (hd : r.fileSize.tdiv 2 ≠ 0) :
    r.positionMillis fp b = castU32 (fp.d.rnd (fp.d.rnd (shownHead r * lengthMillis b r.fileSize) / (r.fileSize.tdiv 2 : Int))) := by
  unfold Rd.positionMillis shownHead
  rw [if_neg h]
  simp only [hd, if_false]
  cases hdu : r.dual
  · simp
  · simp only [Bool.not_true, Bool.false_eq_true, if_false, true_and]
    by_cases hc : r.crossfade < 1 / 2
    · rw [if_pos hc, if_neg (by linarith)]
    · rw [if_neg hc, if_pos (by linarith)]

/-- **C58** (the part that holds).  A file of at least two bytes, in any rounding mode, on both Teensy generations: while the head is
inside the file, the position is a number of milliseconds from 0 to `lengthMillis()`.  Missing: a one-byte file
(`C58_refuted`). -/
theorem C58_bounded_partial (fp : Fp) {rate : ℚ} (hr : rate = 44100 ∨ rate = rateTeensy3) (a : FileReader) (h1 : 2 ≤ a.rd.fileSize)
    (h2 : a.rd.fileSize < 2 ^ 31) (hp0 : 0 ≤ shownHead a.rd) (hp1 : 2 * shownHead a.rd ≤ a.rd.fileSize) :
    ∃ t, a.positionMillis fp rate = .ok t ∧ 0 ≤ t ∧ t ≤ a.lengthMillis fp rate := by
  have hb : b2m fp rate = 48695774 ∨ b2m fp rate = 48676294 := by
    rcases hr with rfl | rfl
    · exact Or.inl (b2m_teensy4 fp)
    · exact Or.inr (b2m_teensy3 fp)
  have hden : a.rd.fileSize.tdiv 2 = a.rd.fileSize / 2 := Int.tdiv_eq_ediv_of_nonneg (by omega)
  have hL : lengthMillis (b2m fp rate) a.rd.fileSize = a.rd.fileSize * b2m fp rate / 4294967296 :=
    lengthMillis_eq (by omega) h2 (by omega) (by omega)
  have hL01 : 0 ≤ lengthMillis (b2m fp rate) a.rd.fileSize ∧ lengthMillis (b2m fp rate) a.rd.fileSize ≤ 2 ^ 24 + 2 ^ 23 := by
    rw [hL]
    rcases hb with hb | hb <;> rw [hb] <;> constructor <;> omega
  unfold FileReader.positionMillis FileReader.lengthMillis
  rw [positionMillis_eq fp _ _ (by omega) (by omega)]
  obtain ⟨k1, k2⟩ := shown_le fp (pos := shownHead a.rd) (den := a.rd.fileSize.tdiv 2) hp0 (by omega) (by omega) (by omega) hL01.1 hL01.2
  have k3 : 0 ≤ trunc (fp.d.rnd (fp.d.rnd ((shownHead a.rd : ℚ) * lengthMillis (b2m fp rate) a.rd.fileSize) / (a.rd.fileSize.tdiv 2 : Int))) := by
    unfold trunc; rw [if_pos k1]; exact Int.floor_nonneg.2 k1
  refine ⟨_, ?_, k3, k2⟩
  unfold castU32
  rw [if_pos ⟨k3, by omega⟩]

/-- **C58**, monotony: of two states of the same file, the one whose head is further on does not show an earlier time. -/
theorem C58_monotone_partial (fp : Fp) {rate : ℚ} (hr : rate = 44100 ∨ rate = rateTeensy3) (a b : FileReader) (h1 : 2 ≤ a.rd.fileSize)
    (h2 : a.rd.fileSize < 2 ^ 31) (hsame : b.rd.fileSize = a.rd.fileSize) (hp0 : 0 ≤ shownHead a.rd) (hle : shownHead a.rd ≤ shownHead b.rd)
    (hp1 : 2 * shownHead b.rd ≤ a.rd.fileSize) :
    ∃ t u, a.positionMillis fp rate = .ok t ∧ b.positionMillis fp rate = .ok u ∧ t ≤ u := by
  obtain ⟨t, ht, _, _⟩ := C58_bounded_partial fp hr a h1 h2 hp0 (by omega)
  obtain ⟨u, hu, _, _⟩ := C58_bounded_partial fp hr b (by omega) (by omega) (by omega) (by omega)
  refine ⟨t, u, ht, hu, ?_⟩
  have hden : a.rd.fileSize.tdiv 2 = a.rd.fileSize / 2 := Int.tdiv_eq_ediv_of_nonneg (by omega)
  unfold FileReader.positionMillis at ht hu
  rw [positionMillis_eq fp _ _ (by omega) (by omega)] at ht
  rw [positionMillis_eq fp _ _ (by omega) (by rw [hsame]; omega), hsame] at hu
  have hb : 0 ≤ b2m fp rate ∧ b2m fp rate < 2 ^ 26 := by
    rcases hr with rfl | rfl
    · rw [b2m_teensy4]; norm_num
    · rw [b2m_teensy3]; norm_num
  have hL0 : (0 : ℚ) ≤ lengthMillis (b2m fp rate) a.rd.fileSize := by
    rw [lengthMillis_eq (by omega) h2 hb.1 hb.2]
    exact_mod_cast Int.ediv_nonneg (mul_nonneg (by omega) hb.1) (by norm_num)
  have hdq : (0 : ℚ) ≤ (a.rd.fileSize.tdiv 2 : Int) := by exact_mod_cast (by omega : 0 ≤ a.rd.fileSize.tdiv 2)
  have q0 : (0 : ℚ) ≤ shownHead a.rd * lengthMillis (b2m fp rate) a.rd.fileSize := mul_nonneg (by exact_mod_cast hp0) hL0
  have q1 : (shownHead a.rd : ℚ) * lengthMillis (b2m fp rate) a.rd.fileSize ≤ shownHead b.rd * lengthMillis (b2m fp rate) a.rd.fileSize :=
    mul_le_mul_of_nonneg_right (by exact_mod_cast hle) hL0
  have r1 := fp.d.mono (div_le_div_of_nonneg_right (fp.d.mono q1) hdq)
  have key := trunc_mono r1
  unfold castU32 at ht hu
  split at ht
  · split at hu
    · injection ht with ht; injection hu with hu; omega
    · cases hu
  · cases ht

example : ∃ t, (⟨{ fileSize := 88244, pos1 := 22 }, none⟩ : FileReader).positionMillis Fp.ieee 44100 = .ok t ∧ 0 ≤ t ∧
    t ≤ (⟨{ fileSize := 88244, pos1 := 22 }, none⟩ : FileReader).lengthMillis Fp.ieee 44100 :=
  C58_bounded_partial Fp.ieee (Or.inl rfl) _ (by decide) (by decide) (by decide) (by decide)

/-- **C58 refuted**: a raw file of one byte can be started, and then asking for the position converts 0/0 to an integer. -/
theorem C58_refuted (fp : Fp) (g : Geo) (rate : ℚ) : ∃ a, ({} : FileReader).playRaw g (some ⟨[7], 0, false⟩) 1 = .ok (true, a) ∧
    a.positionMillis fp rate = .error .badCast := ⟨_, rfl, rfl⟩

/-! ## Playing times -/

/-- **C61** (the part that holds), arrays: `lengthMillis()` is the playing time of the array, whatever the number of channels. -/
theorem C61_array_partial (fp : Fp) (a : ArrayReader) (data : List Int) {F nch : Nat} (hF : F < 2 ^ 30) :
    let shown : Int := (a.playRaw data F nch).2.lengthMillis fp 44100
    (shown : ℚ) ≤ (F : ℚ) / 44100 * 1000 ∧ (F : ℚ) / 44100 * 1000 < shown + 117 / 100 := by
  have hs : (a.playRaw data F nch).2.rd.fileSize = 2 * F := by
    unfold ArrayReader.playRaw
    simp only [Rd.reset, setNumChannels_fileSize]
    unfold i32 u32
    omega
  have h := C57_accurate fp ⟨(a.playRaw data F nch).2.rd, none⟩ (by simp only; rw [hs]; omega) (by simp only; rw [hs]; omega)
  unfold FileReader.lengthMillis millisOf at h
  unfold ArrayReader.lengthMillis
  simp only at h
  rw [hs] at h ⊢
  push_cast at h
  rw [mul_div_cancel_left₀ (F : ℚ) (by norm_num : (2 : ℚ) ≠ 0)] at h
  exact h

/-- **C61** (the part that holds), mono raw files of an even number of bytes. -/
theorem C61_mono_partial (fp : Fp) (g : Geo) (a a' : FileReader) {m : List Nat} (hm : m.length < 2 ^ 31) (hev : m.length % 2 = 0) (past : Bool)
    (h : a.playRaw g (some ⟨m, 0, past⟩) 1 = .ok (true, a')) :
    (a'.lengthMillis fp 44100 : ℚ) ≤ (a'.rd.fileSamples : ℚ) / 44100 * 1000 ∧ (a'.rd.fileSamples : ℚ) / 44100 * 1000 < a'.lengthMillis fp 44100 + 117 / 100 := by
  have hs : a'.rd.fileSize = m.length ∧ 2 * a'.rd.fileSamples = m.length := by
    unfold FileReader.playRaw FileReader.playFile at h
    simp only [Bool.false_eq_true, if_false] at h
    set r1 : Rd := { (a.close.rd.setNumChannels 1) with fileSize := i32 (Dev.size ⟨m, 0, past⟩), fileSamples := (i32 (Dev.size ⟨m, 0, past⟩)).tdiv 2 } with hr1
    have hn : r1.nch = 1 := by rw [hr1]; simp only; exact setNumChannels_nch_small _ (by omega) (by omega)
    by_cases hk : u32 (r1.header * 2) < u32 r1.fileSize
    · obtain ⟨c, hc⟩ := playFinish_ok (g := g) (f := ⟨m, 0, past⟩) hk (by rw [hn]; decide)
      rw [show playFinish g r1 ⟨m, 0, past⟩ = _ from hc] at h
      injection h with h
      injection h with _ h
      subst h
      simp only [Rd.reset, hn, Int.tdiv_one]
      rw [hr1]
      simp only [Dev.size]
      have e : i32 (m.length : Int) = m.length := by unfold i32; omega
      rw [e, Int.tdiv_eq_ediv_of_nonneg (by omega)]
      omega
    · rw [playFinish_small (by omega)] at h
      injection h with h
      injection h with h _
      cases h
  have k := C57_accurate fp a' (by rw [hs.1]; omega) (by rw [hs.1]; omega)
  unfold millisOf at k
  have e : (a'.rd.fileSize : ℚ) / 2 = a'.rd.fileSamples := by
    rw [hs.1]
    have : ((2 * a'.rd.fileSamples : Int) : ℚ) = ((m.length : Int) : ℚ) := by rw [hs.2]
    push_cast at this ⊢
    linarith
  rw [e] at k
  exact k

/-- **C61 refuted**: for a stereo raw file of one second (44100 frames) `lengthMillis()` reports two seconds. -/
theorem C61_refuted (fp : Fp) (g : Geo) : ∃ a, ({} : FileReader).playRaw g (some ⟨List.replicate 176400 0, 0, false⟩) 2 = .ok (true, a) ∧
    a.rd.fileSamples = 44100 ∧ a.lengthMillis fp 44100 = 1999 := by
  unfold FileReader.playRaw FileReader.playFile
  simp only [Bool.false_eq_true, if_false, Dev.size, List.length_replicate]
  obtain ⟨c, hc⟩ := playFinish_ok (g := g) (f := ⟨List.replicate 176400 0, 0, false⟩)
    (r := { (({} : FileReader).close.rd.setNumChannels 2) with fileSize := i32 (176400 : Nat), fileSamples := (i32 (176400 : Nat)).tdiv 2 })
    (by decide) (by decide)
  refine ⟨_, hc, rfl, ?_⟩
  unfold FileReader.lengthMillis
  rw [b2m_teensy4]
  rfl

/-- **C62**: what holds instead: `positionMillis()` of an array player is the length, at every position.  (It never exceeds the length.) -/
theorem C62_constant_partial (fp : Fp) (rate : ℚ) (a : ArrayReader) : a.positionMillis fp rate = a.lengthMillis fp rate := rfl

/-- **C62 refuted**: at the start of a second of sound the position is already one second (minus rounding). -/
theorem C62_refuted (fp : Fp) (data : List Int) : (({} : ArrayReader).playRaw data 44100 1).2.rd.pos1 = 0 ∧
    (({} : ArrayReader).playRaw data 44100 1).2.positionMillis fp 44100 = 999 := by
  refine ⟨rfl, ?_⟩
  unfold ArrayReader.positionMillis
  rw [b2m_teensy4]
  rfl

end TVP
