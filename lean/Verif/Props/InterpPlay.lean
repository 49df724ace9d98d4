import Verif.Lemmas.InterpPlay
import Verif.Props.Laws
import Verif.FpIEEE

/-!
# Properties C42 and C43: playing with interpolation
-/

namespace TVP
open Spec

/-- Sample `i` of channel `c` of an array. -/
def sampleOf (data : List Int) (nch c : Nat) (i : Int) : Int := data.getD (i.toNat * nch + c) 0

theorem smp_array (data : List Int) {nch : Nat} {c : Nat} {i : Int} (hi : 0 ≤ i) :
    smp (fun j => data.getD j.toNat 0) 0 nch c i = sampleOf data nch c i := by
  obtain ⟨j, rfl⟩ : ∃ j : Nat, i = j := ⟨i.toNat, by omega⟩
  unfold smp sampleOf
  simp only [zero_add, Int.toNat_natCast]
  rw [← Nat.cast_mul, ← Nat.cast_add, Int.toNat_natCast]

/-- Reading an array forwards, any sequence of calls, any interpolation obeying `ChanStep`. -/
theorem readAll_interp {fp : Fp} (fuel : Nat) {p : Nat} {R : Int} (data : List Int) {r0 : Rd} {ρ : ℚ} {o : ℚ → Nat → Int}
    {Good : ℚ → Nat → Pts → Prop} (hc : ChanStep fp arraySrc (· = some data) p R r0 ρ o Good) (hp0 : r0.playing = true) :
    ∀ (ns : List Nat) (a : ArrayReader) (x : ℚ), IFwd a.rd p R x → SameConf r0 a.rd → a.rd.rate = ρ → a.src = some data →
      (∀ c : Nat, (c : Int) < r0.nch → Good x c (a.rd.pts c)) →
      ∃ a', readAll fp (fuel + 2) ns a =
        .ok ((forwardPositions x ρ r0.fileSamples ns.sum).map (fun y => (List.range r0.nch.toNat).map (o y)), a')
  | [], a, x, _, _, _, _, _ => ⟨a, by simp [readAll, forwardPositions]⟩
  | n :: ns, a, x, h, hcf, hρ, hs, hg => by
    obtain ⟨r', s', h1, h2, h3, h4, h5, h6⟩ := interp_law hc fuel n a.rd x a.src h hcf hρ hs hg
    obtain ⟨a', h7⟩ := readAll_interp fuel data hc hp0 ns ⟨r', s'⟩ _ h2 h4 h5 h3 h6
    have hn : 0 < a.rd.nch := h.plain.nch
    refine ⟨a', ?_⟩
    rw [readAll, arrayRead_eq (by rw [hcf.playing, hp0]) hn h1]
    simp only [ok_bind, h7, pure_eq_ok, List.sum_cons, forwardPositions_add, List.map_append]

/-- What `playRaw` leaves for playing with interpolation. -/
theorem playRaw_ifwd (a : ArrayReader) (data : List Int) {F nch : Nat} (hc : 1 ≤ nch) (hc' : nch ≤ 32767)
    {p : Nat} {R : Int} (hdual : a.rd.dual = false) (hloop : a.rd.loopType = .none) (hstart : a.rd.playStart = .sample)
    (h0 : 0 ≤ a.rd.rate) (hg : GridRate p a.rd.rate) (hR : a.rd.rate ≤ R) (hfit : (nch : Int) * (F + R + 1) ≤ 2147483647)
    (hrem : OnGrid p a.rd.rem) (hrem0 : 0 ≤ a.rd.rem) (hrem1 : a.rd.rem < 1) :
    IFwd (a.playRaw data F nch).2.rd p R a.rd.rem := by
  have hR0 : 0 ≤ R := by
    have : (0 : ℚ) ≤ R := le_trans h0 hR
    exact_mod_cast this
  have hF31 : F < 2 ^ 31 := by
    have : (1 : Int) * (F + R + 1) ≤ nch * (F + R + 1) := mul_le_mul_of_nonneg_right (by omega) (by omega)
    omega
  obtain ⟨h1, h2, h3, h4, h5, h6, h7, h8, h9, h10, h11, h12, h13, h14, h15, h16, h17, h18⟩ :=
    playRaw_setup a data hc hc' hF31
  have hfl : ⌊a.rd.rem⌋ = 0 := by rw [Int.floor_eq_iff]; push_cast; constructor <;> linarith
  obtain ⟨b, hb⟩ : ∃ b, b = (a.playRaw data F nch).2 := ⟨_, rfl⟩
  rw [← hb] at h1 h2 h3 h4 h5 h6 h7 h8 h9 h10 h11 h12 h13 h14 h15 h16 h17 h18 ⊢
  refine ⟨⟨h13.trans hdual, rfl, h15, by simp only; rw [h4]; omega⟩, h10.trans hloop,
    by simp only; rw [h8]; exact h0, by simp only; rw [h8]; exact hg, hrem, hrem0, ?_, ?_, by simp only; rw [h3], by simp only; rw [h5]; omega,
    by simp only; rw [h8]; exact hR, by simp only; rw [h3, h4, h5, zero_add]; exact hfit, by simp only; rw [hfl, h5]; omega⟩
  · simp only
    rw [h18, if_pos h0, hstart, hfl, h3]
    simp only [zero_mul, add_zero]
    rw [posOf_eq (by rw [h3]; simp [InI32]), h3]; ring
  · simp only
    rw [h9, hfl]; simp

theorem setNumChannels_pts (r : Rd) (n : Int) : (r.setNumChannels n).pts = r.pts := by
  unfold Rd.setNumChannels; split <;> rfl

theorem playRaw_pts (a : ArrayReader) (data : List Int) (F nch : Int) (c : Nat) (h : c < 8) :
    (a.playRaw data F nch).2.rd.pts c = { a.rd.pts c with n := 0 } := by
  simp only [ArrayReader.playRaw, Rd.reset, h, if_true, setNumChannels_pts, Rd.stop]

/-! ## C43: cubic interpolation -/

/-- What all results below share: an array of 16-bit samples of up to eight channels, played from its first frame to its end at a rate in `(0, 1]`, whatever
fraction of a frame the accumulator starts with. -/
structure InterpSettings (r : Rd) (data : List Int) (F nch : Nat) (p : Nat) : Prop where
  chans : 1 ≤ nch
  eight : nch ≤ 8
  size : F * nch ≤ data.length
  vals : ∀ v ∈ data, InI16 v
  dual : r.dual = false
  loop : r.loopType = .none
  start : r.playStart = .sample
  rate0 : 0 < r.rate
  rate1 : r.rate ≤ 1
  grid : GridRate p r.rate
  fits : (nch : Int) * (F + 2) ≤ 2147483647
  remGrid : OnGrid p r.rem
  rem0 : 0 ≤ r.rem
  rem1 : r.rem < 1

/-- The frame before the first one used: -1, or 0 if the accumulator starts with at least the rate. -/
def before (r : Rd) : Int := ⌊r.rem - r.rate⌋

theorem InterpSettings.before {r : Rd} {data : List Int} {F nch p : Nat} (h : InterpSettings r data F nch p) : -1 ≤ before r ∧ before r ≤ 0 := by
  have := h.rate0; have := h.rate1; have := h.rem0; have := h.rem1
  exact ⟨Int.le_floor.2 (by push_cast; linarith), Int.lt_add_one_iff.1 (Int.floor_lt.2 (by push_cast; linarith))⟩

theorem InterpSettings.before_zero {r : Rd} {data : List Int} {F nch p : Nat} (h : InterpSettings r data F nch p) (hr : r.rem = 0) : TVP.before r = -1 := by
  have := h.rate0; have := h.rate1
  unfold TVP.before
  rw [hr, Int.floor_eq_iff]; push_cast; constructor <;> linarith

theorem getD_in {data : List Int} (h : ∀ v ∈ data, InI16 v) (i : Nat) : InI16 (data.getD i 0) := by
  rw [List.getD_eq_getElem?_getD]
  by_cases hi : i < data.length
  · rw [List.getElem?_eq_getElem hi, Option.getD_some]; exact h _ (List.getElem_mem hi)
  · rw [List.getElem?_eq_none (by omega)]; decide

/-- Both interpolations, from `playRaw` on. -/
theorem playRaw_interp {fp : Fp} (fuel : Nat) (a : ArrayReader) (data : List Int) {F nch : Nat} {p : Nat} (h : InterpSettings a.rd data F nch p)
    {o : ℚ → Nat → Int} {Good : ℚ → Nat → Pts → Prop}
    (hc : ChanStep fp arraySrc (· = some data) p 1 (a.playRaw data F nch).2.rd a.rd.rate o Good)
    (hg : ∀ c : Nat, c < nch → Good a.rd.rem c { a.rd.pts c with n := 0 }) (ns : List Nat) :
    ∃ a', readAll fp (fuel + 2) ns (a.playRaw data F nch).2 =
      .ok ((forwardPositions a.rd.rem a.rd.rate F ns.sum).map (fun y => (List.range nch).map (o y)), a') := by
  have hch := h.chans
  have h8 := h.eight
  have hfit := h.fits
  have hF31 : F < 2 ^ 31 := by
    have : (1 : Int) * (F + 2) ≤ nch * (F + 2) := mul_le_mul_of_nonneg_right (by omega) (by omega)
    omega
  obtain ⟨h1, h2, h3, h4, h5, _, _, h9, h10, _⟩ := playRaw_setup a data hch (by omega) hF31
  have hi := playRaw_ifwd a data (F := F) hch (by omega) (R := 1) h.dual h.loop h.start h.rate0.le h.grid (by exact_mod_cast h.rate1)
    (by rw [show (F : Int) + 1 + 1 = F + 2 by ring]; exact hfit) h.remGrid h.rem0 h.rem1
  obtain ⟨a', e⟩ := readAll_interp fuel data hc h2 ns _ _ hi (SameConf.refl _) h9 h1
    (fun c hcc => by rw [h4] at hcc; rw [playRaw_pts a data F nch c (by omega)]; exact hg c (by omega))
  refine ⟨a', ?_⟩
  rw [e, h5, h4]
  rfl

theorem array_ok {data : List Int} {F nch : Nat} (hv : ∀ v ∈ data, InI16 v) (hsz : F * nch ≤ data.length) {r : Rd} (h3 : r.header = 0) (h4 : r.nch = nch)
    (h5 : r.fileSamples = F) : ∀ i, r.header ≤ i → i < r.header + r.fileSamples * r.nch → (0 ≤ i ∧ i < data.length) ∧ InI16 (data.getD i.toNat 0) := by
  intro i i0 i1
  rw [h3] at i0 i1
  rw [h4, h5] at i1
  have : ((F * nch : Nat) : Int) ≤ data.length := by exact_mod_cast hsz
  push_cast at this
  exact ⟨⟨i0, by omega⟩, getD_in hv _⟩

/-- Everything delivered with cubic interpolation. -/
theorem cubic_run (fp : Fp) (fuel : Nat) (a : ArrayReader) (data : List Int) {F nch p : Nat} (h : InterpSettings a.rd data F nch p)
    (hi : a.rd.interp = .quadratic) (ns : List Nat) :
    ∃ a', readAll fp (fuel + 2) ns (a.playRaw data F nch).2 =
      .ok ((forwardPositions a.rd.rem a.rd.rate F ns.sum).map
        (fun y => (List.range nch).map fun c => cubicOut fp (smp (fun j => data.getD j.toNat 0) 0 nch c) (before a.rd) y), a') := by
  have hch := h.chans
  have h8 := h.eight
  have hfit := h.fits
  have hF31 : F < 2 ^ 31 := by
    have : (1 : Int) * (F + 2) ≤ nch * (F + 2) := mul_le_mul_of_nonneg_right (by omega) (by omega)
    omega
  obtain ⟨h1, h2, h3, h4, h5, _, _, h9, h10, _, _, _, _, h14, _⟩ := playRaw_setup a data hch (by omega) hF31
  have hstep := cubic_chanStep fp (arraySrcIs data) (p := p) (R := 1) (r0 := (a.playRaw data F nch).2.rd) (ρ := a.rd.rate) (b := before a.rd) h.rate0 (by rw [h14, hi])
    (by rw [h4]; omega) h.before.1 (array_ok h.vals h.size h3 h4 h5)
  rw [h3, h4] at hstep
  refine playRaw_interp fuel a data h hstep (fun c hcc => ?_) ns
  have hfl : ⌊a.rd.rem - a.rd.rate⌋ = before a.rd := rfl
  refine ⟨by rw [hfl], by rw [hfl, sub_self]; rfl, ?_⟩
  simp only [Vals]
  refine ⟨fun h => by omega, fun h => by omega, fun h => by omega, fun h => by omega⟩

theorem forwardPositions_unit (F n : Nat) : forwardPositions 0 1 F n = (List.range (min n F)).map (fun k : Nat => (k : ℚ)) := by
  have key : ∀ (n x : Nat), forwardPositions x 1 F n = (List.range' x (min n (F - x))).map (fun k : Nat => (k : ℚ)) := by
    intro n
    induction n with
    | zero => intro x; simp [forwardPositions]
    | succ n ih =>
      intro x
      rw [forwardPositions_succ, show ⌊(x : ℚ)⌋ = (x : Int) by simp]
      by_cases hx : x < F
      · rw [if_pos (by exact_mod_cast hx), show (x : ℚ) + 1 = ((x + 1 : Nat) : ℚ) by push_cast; ring, ih (x + 1),
          show min (n + 1) (F - x) = min n (F - (x + 1)) + 1 by omega, List.range'_succ, List.map_cons]
      · rw [if_neg (by push_cast; omega), show min (n + 1) (F - x) = 0 by omega]; rfl
  have := key n 0
  rw [Nat.cast_zero] at this
  rw [this, List.range_eq_range', Nat.sub_zero]

/-- **C43** At unit rate, in exact arithmetic, cubic interpolation is a delay by two frames behind three frames of silence: whatever the sizes of the
`read` calls, frame `k` delivered is silence for `k < 3` and source frame `k - 2` from then on, up to the length of the source.  So the last two frames of
the source are never heard, and neither is the first. -/
theorem C43_unit (fuel : Nat) (a : ArrayReader) (data : List Int) {F nch p : Nat} (h : InterpSettings a.rd data F nch p)
    (hi : a.rd.interp = .quadratic) (hr : a.rd.rate = 1) (hrem : a.rd.rem = 0) (ns : List Nat) :
    ∃ a', readAll Fp.ideal (fuel + 2) ns (a.playRaw data F nch).2 =
      .ok ((List.range (min ns.sum F)).map (fun k : Nat => if k < 3 then List.replicate nch 0 else frameOf data nch ((k : Int) - 2)), a') := by
  obtain ⟨a', e⟩ := cubic_run Fp.ideal fuel a data h hi ns
  refine ⟨a', ?_⟩
  rw [e, hr, h.before_zero hrem, hrem, forwardPositions_unit, List.map_map]
  congr 2
  apply List.map_congr_left
  intro k _
  simp only [Function.comp]
  unfold cubicOut
  rw [show ⌊(k : ℚ)⌋ = (k : Int) by simp]
  by_cases hk : k < 3
  · rw [if_pos hk]
    simp only [show (k : Int) - -1 < 4 from by omega, if_true]
    simp
  · rw [if_neg hk]
    simp only [show ¬ ((k : Int) - -1 < 4) from by omega, if_false]
    unfold frameOf
    apply List.map_congr_left
    intro c _
    have hsub : ((k : ℚ) - (((k : Nat) : Int) : ℚ)) = 0 := by simp
    rw [hsub]
    obtain ⟨_, c1, _, _⟩ := cubic_nodes (smp (fun j => data.getD j.toNat 0) 0 nch c (k - 3)) (smp (fun j => data.getD j.toNat 0) 0 nch c (k - 2))
      (smp (fun j => data.getD j.toNat 0) 0 nch c (k - 1)) (smp (fun j => data.getD j.toNat 0) 0 nch c k)
    have hf : ∀ d1 d2 d3 d4 : Int, fiValue Fp.ideal d1 d2 d3 d4 1 = cubic d1 d2 d3 d4 1 := by
      intro d1 d2 d3 d4
      simp only [fiValue, fiTerm, fiPoly, Fp.ideal, Rounding.ideal, id, cubic]
      ring
    have h1 : Fp.ideal.f.rnd (Fp.ideal.d.rnd (1 + 0)) = 1 := by simp [Fp.ideal, Rounding.ideal]
    rw [h1, hf, c1, trunc_int, clamp16_of_in]
    · rw [smp_array _ (by omega)]; rfl
    · unfold smp; exact getD_in h.vals _

/-- The Lagrange cubic of 16-bit samples cannot change quickly between its inner nodes. -/
theorem cubic_lipschitz {a b c d : Int} (ha : InI16 a) (hb : InI16 b) (hc : InI16 c) (hd : InI16 d) {x y : ℚ} (hx1 : 1 ≤ x) (hx2 : x ≤ 2) (hy1 : 1 ≤ y) (hy2 : y ≤ 2) :
    |cubic a b c d x - cubic a b c d y| ≤ 2 ^ 21 * |x - y| := by
  have q : ∀ v : Int, InI16 v → |(v : ℚ)| ≤ 32768 := by
    intro v hv
    unfold InI16 at hv
    rw [abs_le]
    constructor
    · have : (-32768 : ℚ) ≤ v := by exact_mod_cast hv.1
      linarith
    · have : (v : ℚ) ≤ 32767 := by exact_mod_cast hv.2
      linarith
  have e : cubic a b c d x - cubic a b c d y = (x - y) *
      ((-a + 3 * b - 3 * c + d) / 6 * (x ^ 2 + x * y + y ^ 2) + (2 * a - 5 * b + 4 * c - d) / 2 * (x + y) + (-11 * a + 18 * b - 9 * c + 2 * d) / 6) := by
    unfold cubic; ring
  have ha' := abs_le.1 (q a ha)
  have hb' := abs_le.1 (q b hb)
  have hc' := abs_le.1 (q c hc)
  have hd' := abs_le.1 (q d hd)
  rw [e, abs_mul, mul_comm]
  refine mul_le_mul_of_nonneg_right ?_ (abs_nonneg _)
  have k1 : |(-a + 3 * b - 3 * c + d : ℚ) / 6| ≤ 8 / 6 * 32768 := by rw [abs_le]; constructor <;> linarith [ha'.1, ha'.2, hb'.1, hb'.2, hc'.1, hc'.2, hd'.1, hd'.2]
  have k2 : |(2 * a - 5 * b + 4 * c - d : ℚ) / 2| ≤ 6 * 32768 := by rw [abs_le]; constructor <;> linarith [ha'.1, ha'.2, hb'.1, hb'.2, hc'.1, hc'.2, hd'.1, hd'.2]
  have k3 : |(-11 * a + 18 * b - 9 * c + 2 * d : ℚ) / 6| ≤ 40 / 6 * 32768 := by rw [abs_le]; constructor <;> linarith [ha'.1, ha'.2, hb'.1, hb'.2, hc'.1, hc'.2, hd'.1, hd'.2]
  have m1 : |x ^ 2 + x * y + y ^ 2| ≤ 12 := by rw [abs_le]; constructor <;> nlinarith
  have m2 : |x + y| ≤ 4 := by rw [abs_le]; constructor <;> linarith
  have n1 : |(-a + 3 * b - 3 * c + d : ℚ) / 6 * (x ^ 2 + x * y + y ^ 2)| ≤ 8 / 6 * 32768 * 12 := by
    rw [abs_mul]; exact mul_le_mul k1 m1 (abs_nonneg _) (by norm_num)
  have n2 : |(2 * a - 5 * b + 4 * c - d : ℚ) / 2 * (x + y)| ≤ 6 * 32768 * 4 := by
    rw [abs_mul]; exact mul_le_mul k2 m2 (abs_nonneg _) (by norm_num)
  refine le_trans (abs_add_le _ _) (le_trans (add_le_add (abs_add_le _ _) le_rfl) (le_trans (add_le_add (add_le_add n1 n2) k3) ?_))
  norm_num

theorem clampQ_lipschitz (x y : ℚ) : |clampQ x - clampQ y| ≤ |x - y| := by
  unfold clampQ
  rcases le_total x (-32768) with h1 | h1 <;> rcases le_total x 32767 with h2 | h2 <;> rcases le_total y (-32768) with h3 | h3 <;>
    rcases le_total y 32767 with h4 | h4 <;> simp only [min_def, max_def] <;> split_ifs <;> rw [abs_le] <;> constructor <;>
    linarith [le_abs_self (x - y), neg_abs_le (x - y)]

/-- **C43**, any rate up to one and any rounding.  While fewer than four source frames have been used (see `before`) the output is silent; from then on every sample
is within 2 of the saturated cubic through the last four source frames, evaluated at the exact playback position delayed by two frames. -/
theorem C43_cubic (fp : Fp) (fuel : Nat) (a : ArrayReader) (data : List Int) {F nch p : Nat} (h : InterpSettings a.rd data F nch p)
    (hi : a.rd.interp = .quadratic) (ns : List Nat) :
    ∃ (out : ℚ → Nat → Int) (a' : ArrayReader), readAll fp (fuel + 2) ns (a.playRaw data F nch).2 =
      .ok ((forwardPositions a.rd.rem a.rd.rate F ns.sum).map (fun y => (List.range nch).map (out y)), a') ∧
      ∀ y ∈ forwardPositions a.rd.rem a.rd.rate F ns.sum, ∀ c < nch,
        (y < before a.rd + 4 → out y c = 0) ∧
        (before a.rd + 4 ≤ y → |(out y c : ℚ) - clampQ (cubic (sampleOf data nch c (⌊y⌋ - 3)) (sampleOf data nch c (⌊y⌋ - 2)) (sampleOf data nch c (⌊y⌋ - 1))
          (sampleOf data nch c ⌊y⌋) (1 + (y - ⌊y⌋)))| < 2) := by
  obtain ⟨a', e⟩ := cubic_run fp fuel a data h hi ns
  refine ⟨_, a', e, fun y hy c hcc => ⟨fun h3 => ?_, fun h3 => ?_⟩⟩
  · have : ⌊y⌋ < before a.rd + 4 := Int.floor_lt.2 (by exact_mod_cast h3)
    unfold cubicOut
    rw [if_pos (by omega)]
  · have hf3 : before a.rd + 4 ≤ ⌊y⌋ := Int.le_floor.2 (by exact_mod_cast h3)
    have hbf := h.before
    unfold cubicOut
    rw [if_neg (by omega), smp_array _ (by omega), smp_array _ (by omega), smp_array _ (by omega), smp_array _ (by omega)]
    have i1 : InI16 (sampleOf data nch c (⌊y⌋ - 3)) := getD_in h.vals _
    have i2 : InI16 (sampleOf data nch c (⌊y⌋ - 2)) := getD_in h.vals _
    have i3 : InI16 (sampleOf data nch c (⌊y⌋ - 1)) := getD_in h.vals _
    have i4 : InI16 (sampleOf data nch c ⌊y⌋) := getD_in h.vals _
    obtain ⟨frac, hfr⟩ : ∃ frac, frac = y - ⌊y⌋ := ⟨_, rfl⟩
    rw [← hfr]
    have f0 : 0 ≤ frac := by rw [hfr]; have := Int.floor_le y; linarith
    have f1 : frac ≤ 1 := by rw [hfr]; have := Int.lt_floor_add_one y; linarith
    obtain ⟨u1, u2⟩ := unit_arg fp f0 f1
    obtain ⟨r, hr1, hr2⟩ := C11_cubic fp _ _ _ _ _ i1 i2 i3 i4 u1 u2
    rw [fastinterpolate_ok fp i1 i2 i3 i4 u1 u2] at hr1
    cases hr1
    -- the argument
    have e1 := fp.d.err_le (x := 1 + frac) (by norm_num) (k := 1) (by norm_num) (by rw [abs_of_nonneg (by linarith)]; norm_num; linarith)
    have hd2 : |fp.d.rnd (1 + frac)| ≤ 2 ^ (1 : Int) := by
      have k1 := fp.d.mono (show 1 + frac ≤ (2 : ℚ) by linarith)
      have k0 := fp.d.nonneg (show (0 : ℚ) ≤ 1 + frac by linarith)
      have e2 : fp.d.rnd 2 = 2 := by have := fp.d.exact_int (by norm_num) (by norm_num) (m := 2) (by norm_num); simpa using this
      rw [abs_of_nonneg k0]; rw [e2] at k1; simpa using k1
    have e2 := fp.f.err_le (x := fp.d.rnd (1 + frac)) (by norm_num) (k := 1) (by norm_num) hd2
    have e3 : |fp.f.rnd (fp.d.rnd (1 + frac)) - (1 + frac)| ≤ 2 ^ (-22 : Int) := by
      have := abs_sub_le (fp.f.rnd (fp.d.rnd (1 + frac))) (fp.d.rnd (1 + frac)) (1 + frac)
      norm_num at e1 e2 ⊢
      linarith
    have l1 := cubic_lipschitz i1 i2 i3 i4 u1 u2 (show (1 : ℚ) ≤ 1 + frac by linarith) (show 1 + frac ≤ 2 by linarith)
    have l2 := clampQ_lipschitz (cubic (sampleOf data nch c (⌊y⌋ - 3)) (sampleOf data nch c (⌊y⌋ - 2)) (sampleOf data nch c (⌊y⌋ - 1))
          (sampleOf data nch c ⌊y⌋) (fp.f.rnd (fp.d.rnd (1 + frac)))) (cubic (sampleOf data nch c (⌊y⌋ - 3)) (sampleOf data nch c (⌊y⌋ - 2)) (sampleOf data nch c (⌊y⌋ - 1))
          (sampleOf data nch c ⌊y⌋) (1 + frac))
    refine lt_of_le_of_lt (abs_sub_le _ _ _) (lt_of_lt_of_le (add_lt_add_of_lt_of_le hr2 (le_trans l2 (le_trans l1 (mul_le_mul_of_nonneg_left e3 (by norm_num))))) ?_)
    norm_num

/-- A reader with cubic interpolation at unit rate. -/
def exCubic : ArrayReader := { rd := { rate := 1, interp := .quadratic } }

theorem exCubic_settings : InterpSettings exCubic.rd [10, -10, 20, -20, 30, -30, 40, -40, 50, -50] 5 2 0 where
  chans := by norm_num
  eight := by norm_num
  size := by simp
  vals := by decide
  dual := rfl
  loop := rfl
  start := rfl
  rate0 := by norm_num [exCubic]
  rate1 := by norm_num [exCubic]
  grid := ⟨by norm_num, ⟨1, by norm_num [exCubic]⟩, by norm_num [exCubic], by norm_num [exCubic]⟩
  fits := by norm_num
  remGrid := by simpa [exCubic] using OnGrid.int 0 0
  rem0 := le_rfl
  rem1 := by norm_num [exCubic]

example : ∃ a', readAll Fp.ideal 2 [4, 9] (exCubic.playRaw [10, -10, 20, -20, 30, -30, 40, -40, 50, -50] (5 : Nat) (2 : Nat)).2 =
    .ok ([[0, 0], [0, 0], [0, 0], [20, -20], [30, -30]], a') :=
  C43_unit 0 exCubic _ exCubic_settings rfl rfl rfl [4, 9]

/-! ## C42: linear interpolation -/

/-- Everything delivered with linear interpolation. -/
theorem linear_run (fp : Fp) (fuel : Nat) (a : ArrayReader) (data : List Int) {F nch p : Nat} (h : InterpSettings a.rd data F nch p)
    (hi : a.rd.interp = .linear) (ns : List Nat) :
    ∃ a', readAll fp (fuel + 2) ns (a.playRaw data F nch).2 =
      .ok ((forwardPositions a.rd.rem a.rd.rate F ns.sum).map
        (fun y => (List.range nch).map fun c => linearOut fp (smp (fun j => data.getD j.toNat 0) 0 nch c) (a.rd.pts c).y1 (before a.rd) y), a') := by
  have hch := h.chans
  have h8 := h.eight
  have hfit := h.fits
  have hF31 : F < 2 ^ 31 := by
    have : (1 : Int) * (F + 2) ≤ nch * (F + 2) := mul_le_mul_of_nonneg_right (by omega) (by omega)
    omega
  obtain ⟨h1, h2, h3, h4, h5, _, _, h9, h10, _, _, _, _, h14, _⟩ := playRaw_setup a data hch (by omega) hF31
  have hstep := linear_chanStep fp (arraySrcIs data) (p := p) (R := 1) (r0 := (a.playRaw data F nch).2.rd) (ρ := a.rd.rate) (b := before a.rd) (fun c => (a.rd.pts c).y1)
    h.rate0 h.rate1 (by rw [h14, hi]) (by rw [h4]; omega) h.before.1 (array_ok h.vals h.size h3 h4 h5)
  rw [h3, h4] at hstep
  refine playRaw_interp fuel a data h hstep (fun c hcc => ?_) ns
  have hfl : ⌊a.rd.rem - a.rd.rate⌋ = before a.rd := rfl
  refine ⟨by rw [hfl], by rw [hfl, sub_self]; rfl, fun _ => rfl, fun h => ?_, fun h => ?_⟩ <;> simp only at h <;> omega

/-- The straight line through the source samples of channel `c`, at position `y`. -/
def lineAt (data : List Int) (nch c : Nat) (y : ℚ) : ℚ :=
  (1 - (y - ⌊y⌋)) * sampleOf data nch c ⌊y⌋ + (y - ⌊y⌋) * sampleOf data nch c (⌊y⌋ + 1)

/-- The straight line stays between its ends. -/
theorem lineAt_between (data : List Int) (nch c : Nat) (y : ℚ) :
    (min (sampleOf data nch c ⌊y⌋) (sampleOf data nch c (⌊y⌋ + 1)) : ℚ) ≤ lineAt data nch c y ∧
      lineAt data nch c y ≤ max (sampleOf data nch c ⌊y⌋ : ℚ) (sampleOf data nch c (⌊y⌋ + 1)) := by
  unfold lineAt
  have := Int.floor_le y
  have := Int.lt_floor_add_one y
  obtain ⟨u, hu⟩ : ∃ u : ℚ, u = sampleOf data nch c ⌊y⌋ := ⟨_, rfl⟩
  obtain ⟨v, hv⟩ : ∃ v : ℚ, v = sampleOf data nch c (⌊y⌋ + 1) := ⟨_, rfl⟩
  obtain ⟨f, hf⟩ : ∃ f : ℚ, f = y - ⌊y⌋ := ⟨_, rfl⟩
  rw [← hu, ← hv, ← hf]
  have f0 : 0 ≤ f := by rw [hf]; linarith
  have f1 : f ≤ 1 := by rw [hf]; linarith
  constructor
  · rcases le_total u v with h | h
    · rw [min_eq_left h]; nlinarith
    · rw [min_eq_right h]; nlinarith
  · rcases le_total u v with h | h
    · rw [max_eq_right h]; nlinarith
    · rw [max_eq_left h]; nlinarith

theorem line_back (data : List Int) (nch c : Nat) (y : ℚ) :
    lineAt data nch c (y - 1) = (y - ⌊y⌋) * sampleOf data nch c ⌊y⌋ + (1 - (y - ⌊y⌋)) * sampleOf data nch c (⌊y⌋ - 1) := by
  unfold lineAt
  rw [Int.floor_sub_one]
  push_cast
  rw [show ⌊y⌋ - 1 + 1 = ⌊y⌋ by ring]
  ring

/-- **C42** Playing an array with linear interpolation at a rate in `(0, 1]`, for any rounding and any sizes of the `read` calls: the sample delivered at
position `y` is within one (and a rounding error) of the straight line through the source samples at `y - 1`, one frame behind, and it leaves the
interval of the two source samples around `y - 1` by at most one.  This holds from the second source frame used on; before that (less than one source
frame's time) the samples delivered are those of the first source frame used, except that exactly on a frame it is whatever the reader's second point held
before the sound was started. -/
theorem C42_linear (fp : Fp) (fuel : Nat) (a : ArrayReader) (data : List Int) {F nch p : Nat} (h : InterpSettings a.rd data F nch p)
    (hi : a.rd.interp = .linear) (ns : List Nat) :
    ∃ (out : ℚ → Nat → Int) (a' : ArrayReader), readAll fp (fuel + 2) ns (a.playRaw data F nch).2 =
      .ok ((forwardPositions a.rd.rem a.rd.rate F ns.sum).map (fun y => (List.range nch).map (out y)), a') ∧
      ∀ y ∈ forwardPositions a.rd.rem a.rd.rate F ns.sum, ∀ c < nch,
        (before a.rd + 2 ≤ y → |(out y c : ℚ) - lineAt data nch c (y - 1)| < 1 + 2 ^ (-30 : Int) ∧
          min (sampleOf data nch c ⌊y - 1⌋) (sampleOf data nch c (⌊y - 1⌋ + 1)) - 1 ≤ out y c ∧
          out y c ≤ max (sampleOf data nch c ⌊y - 1⌋) (sampleOf data nch c (⌊y - 1⌋ + 1)) + 1 ∧
          |out y c| ≤ max |sampleOf data nch c ⌊y - 1⌋| |sampleOf data nch c (⌊y - 1⌋ + 1)|) ∧
        (y < before a.rd + 2 → y ≠ ⌊y⌋ → out y c = sampleOf data nch c ⌊y⌋) ∧
        (y < before a.rd + 2 → y = ⌊y⌋ → out y c = (a.rd.pts c).y1) := by
  obtain ⟨a', e⟩ := linear_run fp fuel a data h hi ns
  have hbf := h.before
  refine ⟨_, a', e, fun y hy c hcc => ⟨fun h1 => ?_, fun h1 h0 => ?_, fun h1 h0 => ?_⟩⟩
  · have hf1 : before a.rd + 2 ≤ ⌊y⌋ := Int.le_floor.2 (by exact_mod_cast h1)
    unfold linearOut
    rw [if_neg (by omega), smp_array _ (by omega), smp_array _ (by omega), line_back, Int.floor_sub_one, show ⌊y⌋ - 1 + 1 = ⌊y⌋ by ring]
    have i1 : InI16 (sampleOf data nch c ⌊y⌋) := getD_in h.vals _
    have i0 : InI16 (sampleOf data nch c (⌊y⌋ - 1)) := getD_in h.vals _
    obtain ⟨m, m1, _, m2, m3, m4, m5⟩ := mix_ok fp.d (w := y - ⌊y⌋) (by have := Int.floor_le y; linarith) (by have := Int.lt_floor_add_one y; linarith) i1 i0
    have : mixOut fp (y - ⌊y⌋) (sampleOf data nch c ⌊y⌋) (sampleOf data nch c (⌊y⌋ - 1)) = m := by
      unfold mixOut
      unfold castI16 at m1
      split at m1
      · cases m1; rfl
      · cases m1
    rw [this]
    exact ⟨m5, by rw [min_comm]; exact m2, by rw [max_comm]; exact m3, by rw [max_comm]; exact m4⟩
  · have : ⌊y⌋ < before a.rd + 2 := Int.floor_lt.2 (by exact_mod_cast h1)
    have y0 : 0 ≤ ⌊y⌋ := by
      obtain ⟨_, k, _, rfl⟩ := forwardPositions_mem hy
      have := h.rem0; have := h.rate0
      exact Int.floor_nonneg.2 (by positivity)
    unfold linearOut
    rw [if_pos (by omega), if_neg h0, smp_array _ y0]
  · have : ⌊y⌋ < before a.rd + 2 := Int.floor_lt.2 (by exact_mod_cast h1)
    unfold linearOut
    rw [if_pos (by omega), if_pos h0]

/-- **C42**, rates that are multiples of `2^-38` (every `float` rate from `2^-14` up): nothing is lost to rounding.  The sample delivered is the exact straight
line, truncated; so it lies between its two source samples. -/
theorem C42_exact (fp : Fp) (fuel : Nat) (a : ArrayReader) (data : List Int) {F nch p : Nat} (h : InterpSettings a.rd data F nch p)
    (hi : a.rd.interp = .linear) (hp : p ≤ 38) (ns : List Nat) :
    ∃ (out : ℚ → Nat → Int) (a' : ArrayReader), readAll fp (fuel + 2) ns (a.playRaw data F nch).2 =
      .ok ((forwardPositions a.rd.rem a.rd.rate F ns.sum).map (fun y => (List.range nch).map (out y)), a') ∧
      ∀ y ∈ forwardPositions a.rd.rem a.rd.rate F ns.sum, before a.rd + 2 ≤ y → ∀ c < nch,
        out y c = trunc (lineAt data nch c (y - 1)) ∧
        min (sampleOf data nch c ⌊y - 1⌋) (sampleOf data nch c (⌊y - 1⌋ + 1)) ≤ out y c ∧
        out y c ≤ max (sampleOf data nch c ⌊y - 1⌋) (sampleOf data nch c (⌊y - 1⌋ + 1)) := by
  obtain ⟨a', e⟩ := linear_run fp fuel a data h hi ns
  have hbf := h.before
  refine ⟨_, a', e, fun y hy h1 c hcc => ?_⟩
  have hf1 : before a.rd + 2 ≤ ⌊y⌋ := Int.le_floor.2 (by exact_mod_cast h1)
  have hlin := lineAt_between data nch c (y - 1)
  obtain ⟨t, ht⟩ : ∃ t, t = lineAt data nch c (y - 1) := ⟨_, rfl⟩
  have hv : linearOut fp (smp (fun j => data.getD j.toNat 0) 0 nch c) (a.rd.pts c).y1 (before a.rd) y = trunc t := by
    unfold linearOut
    rw [if_neg (by omega), smp_array _ (by omega), smp_array _ (by omega)]
    have i1 : InI16 (sampleOf data nch c ⌊y⌋) := getD_in h.vals _
    have i0 : InI16 (sampleOf data nch c (⌊y⌋ - 1)) := getD_in h.vals _
    obtain ⟨_, k, hk, hyk⟩ := forwardPositions_mem hy
    have hyg : OnGrid p (y - ⌊y⌋) := by
      obtain ⟨m, hm⟩ := h.grid.grid
      refine OnGrid.sub ?_ (OnGrid.int p _)
      rw [hyk]
      refine h.remGrid.add ⟨k * m, ?_⟩
      rw [hm]; push_cast; ring
    have hoy : OnGrid p (1 - (y - ⌊y⌋)) := by
      have := (OnGrid.int p 1).sub hyg
      simpa using this
    have g0 := Int.floor_le y
    have g1 := Int.lt_floor_add_one y
    have mulg : ∀ {u : ℚ} (v : Int), OnGrid p u → OnGrid p (u * v) := by
      rintro u v ⟨m, rfl⟩
      exact ⟨m * v, by push_cast; ring⟩
    have q : ∀ v : Int, InI16 v → |(v : ℚ)| ≤ 32768 := by
      intro v hv
      unfold InI16 at hv
      rw [abs_le]
      constructor
      · have : (-32768 : ℚ) ≤ v := by exact_mod_cast hv.1
        linarith
      · have : (v : ℚ) ≤ 32767 := by exact_mod_cast hv.2
        linarith
    have hpow : (32768 : ℚ) ≤ 2 ^ (53 - p) := by
      calc (32768 : ℚ) = 2 ^ 15 := by norm_num
        _ ≤ 2 ^ (53 - p) := pow_le_pow_right₀ (by norm_num) (by omega)
    have a1 : |(y - ⌊y⌋) * (sampleOf data nch c ⌊y⌋ : ℚ)| ≤ (y - ⌊y⌋) * 32768 := by
      rw [abs_mul, abs_of_nonneg (show 0 ≤ y - ⌊y⌋ by linarith)]
      exact mul_le_mul_of_nonneg_left (q _ i1) (by linarith)
    have a0 : |(1 - (y - ⌊y⌋)) * (sampleOf data nch c (⌊y⌋ - 1) : ℚ)| ≤ (1 - (y - ⌊y⌋)) * 32768 := by
      rw [abs_mul, abs_of_nonneg (show 0 ≤ 1 - (y - ⌊y⌋) by linarith)]
      exact mul_le_mul_of_nonneg_left (q _ i0) (by linarith)
    have as := abs_add_le ((y - ⌊y⌋) * (sampleOf data nch c ⌊y⌋ : ℚ)) ((1 - (y - ⌊y⌋)) * (sampleOf data nch c (⌊y⌋ - 1) : ℚ))
    have hp52 := h.grid.hp
    unfold mixOut
    rw [(mulg _ hyg).exact hp52 (by linarith) fp.d, hoy.exact hp52 (by rw [abs_of_nonneg (by linarith)]; linarith) fp.d,
      (mulg _ hoy).exact hp52 (by linarith) fp.d, ((mulg _ hyg).add (mulg _ hoy)).exact hp52 (by linarith) fp.d, ht, line_back]
  refine ⟨by rw [hv, ht], ?_, ?_⟩
  · rw [hv]
    have := trunc_mono (le_trans (le_of_eq (by push_cast; rfl)) hlin.1 : ((min (sampleOf data nch c ⌊y - 1⌋) (sampleOf data nch c (⌊y - 1⌋ + 1)) : Int) : ℚ) ≤ _)
    rwa [trunc_int, ← ht] at this
  · rw [hv]
    have := trunc_mono (le_trans hlin.2 (le_of_eq (by push_cast; rfl)) : _ ≤ ((max (sampleOf data nch c ⌊y - 1⌋) (sampleOf data nch c (⌊y - 1⌋ + 1)) : Int) : ℚ))
    rwa [trunc_int, ← ht] at this

/-- A reader with linear interpolation at half speed that has played something before. -/
def exLinear : ArrayReader := { rd := { rate := 1 / 2, interp := .linear, pts := fun _ => { n := 2, y0 := 3, y1 := 99 } } }

theorem exLinear_settings : InterpSettings exLinear.rd [10, -10, 20, -20, 30, -30] 3 2 1 where
  chans := by norm_num
  eight := by norm_num
  size := by simp
  vals := by decide
  dual := rfl
  loop := rfl
  start := rfl
  rate0 := by norm_num [exLinear]
  rate1 := by norm_num [exLinear]
  grid := ⟨by norm_num, ⟨1, by norm_num [exLinear]⟩, by norm_num [exLinear, abs_of_pos], by norm_num [exLinear, abs_of_pos]⟩
  fits := by norm_num
  remGrid := by simpa [exLinear] using OnGrid.int 1 0
  rem0 := le_rfl
  rem1 := by norm_num [exLinear]

example := C42_linear Fp.ieee 0 exLinear _ exLinear_settings rfl [4, 9]
example := C42_exact Fp.ieee 0 exLinear _ exLinear_settings rfl (by norm_num) [4, 9]
example := C43_cubic Fp.ieee 0 exCubic _ exCubic_settings rfl [4, 9]

/-- What that reader actually delivers: a trace of the past, the first frame twice, then the straight line. -/
example : (readAll Fp.ideal 2 [4, 9] (exLinear.playRaw [10, -10, 20, -20, 30, -30] 3 2).2).map (·.1) =
    .ok [[99, 99], [10, -10], [10, -10], [15, -15], [20, -20], [25, -25]] := by
  decide +kernel

/-! ## C64: no trace of the previous sound -/

/-- Play one mono array, read some frames of it, then play a second one on the same reader. -/
def playTwo (fp : Fp) (a : ArrayReader) (first : List Int) (n : Nat) (second : List Int) (m : Nat) : M (List (List Int)) := do
  let (_, a) ← readAll fp 2 [n] (a.playRaw first first.length 1).2
  let (frames, _) ← readAll fp 2 [m] (a.playRaw second second.length 1).2
  return frames

/-- **C64** fails.  (1) With linear interpolation the first sample of a sound is the last source sample of the sound before it: playing `[5, 6, 7]` after
`[100, 200]` delivers `200, 5, 6`, after `[1]` it delivers `1, 5, 6`.  (2) Without interpolation, at half speed, a sound started after a single frame of
another starts half a frame late; after two frames it does not. -/
theorem C64_refuted :
    playTwo Fp.ieee { rd := { rate := 1, interp := .linear } } [100, 200] 2 [5, 6, 7] 3 = .ok [[200], [5], [6]] ∧
    playTwo Fp.ieee { rd := { rate := 1, interp := .linear } } [1] 1 [5, 6, 7] 3 = .ok [[1], [5], [6]] ∧
    playTwo Fp.ieee { rd := { rate := 1 / 2 } } [1, 2] 1 [7, 8, 9] 4 = .ok [[7], [8], [8], [9]] ∧
    playTwo Fp.ieee { rd := { rate := 1 / 2 } } [1, 2] 2 [7, 8, 9] 4 = .ok [[7], [7], [8], [8]] := by
  refine ⟨?_, ?_, ?_, ?_⟩ <;> decide +kernel

/-- **C64**, what holds: started with an empty accumulator and without looping, a sound played without interpolation or with cubic interpolation is the same
whatever the reader did before. -/
theorem C64_partial (fp : Fp) (fuel : Nat) (a b : ArrayReader) (data : List Int) {F nch p : Nat} (h : InterpSettings a.rd data F nch p)
    (hb : InterpSettings b.rd data F nch p) (hr : a.rd.rate = b.rd.rate) (hi : a.rd.interp = b.rd.interp) (hl : a.rd.interp ≠ .linear) (hra : a.rd.rem = 0) (hrb : b.rd.rem = 0) (ns : List Nat) :
    ∃ frames a' b', readAll fp (fuel + 2) ns (a.playRaw data F nch).2 = .ok (frames, a') ∧
      readAll fp (fuel + 2) ns (b.playRaw data F nch).2 = .ok (frames, b') := by
  cases hia : a.rd.interp with
  | linear => exact absurd hia hl
  | quadratic =>
    obtain ⟨a', e⟩ := cubic_run fp fuel a data h hia ns
    obtain ⟨b', e'⟩ := cubic_run fp fuel b data hb (by rw [← hi, hia]) ns
    exact ⟨_, a', b', e, by rw [hr, hra, ← hrb, before, hra, ← hrb, hr]; exact e'⟩
  | none =>
    have hfit := h.fits
    obtain ⟨a', e⟩ := C25_forward_law fp fuel a data h.chans (by have := h.eight; omega) h.size (R := 1) ⟨h.dual, hia⟩ h.loop h.start h.rate0.le h.grid
      (by exact_mod_cast h.rate1) (by rw [show (F : Int) + 1 + 1 = F + 2 by ring]; exact hfit) hra ns
    obtain ⟨b', e'⟩ := C25_forward_law fp fuel b data h.chans (by have := h.eight; omega) h.size (R := 1) ⟨hb.dual, by rw [← hi, hia]⟩ hb.loop hb.start hb.rate0.le
      hb.grid (by exact_mod_cast hb.rate1) (by rw [show (F : Int) + 1 + 1 = F + 2 by ring]; exact hfit) hrb ns
    exact ⟨_, a', b', e, by rw [hr]; exact e'⟩

example := C64_partial Fp.ieee 0 exCubic { exCubic with rd := { exCubic.rd with pts := fun _ => { n := 4, y0 := 1, y1 := 2, y2 := 3, y3 := 4 } } } _
  exCubic_settings (by have := exCubic_settings; exact ⟨this.1, this.2, this.3, this.4, rfl, rfl, rfl, this.8, this.9, this.10, this.11, this.12, this.13, this.14⟩) rfl rfl (by decide) rfl rfl [4, 9]

end TVP
