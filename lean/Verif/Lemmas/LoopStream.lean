import Verif.Lemmas.LoopTicks
import Verif.Lemmas.LoopWindow
import Verif.Lemmas.Loops

/-!
# A player repeating a part of a file
-/

namespace TVP
open Spec

variable {m : List Nat} {g : Geo} {fp : Fp}

/-- A plain reader going forwards at any rate up to `R` and repeating the frames from `A` to `Z`. -/
structure RepFwd (R A Z H nch : Int) (r : Rd) : Prop where
  plain : Plain r
  loop : r.loopType = .repeat
  rate0 : 0 ≤ r.rate
  rateR : r.rate ≤ R
  flt : IsFloat 53 (-1074) r.rem
  frac : |r.rem| < 1
  header : r.header = H
  ls : r.loopStart = A
  lf : r.loopFinish = Z
  chans : r.nch = nch
  pos : ∃ q, 0 ≤ q ∧ q ≤ Z + R ∧ r.pos1 = H + q * nch

/-- Where a reader at `p` reads: at `s` if it has passed the end `e`. -/
def wrapAt (s e p : Int) : Int := if e ≤ p then s else p

theorem RepFwd.settle {R A Z H nch : Int} (hH : 0 ≤ H) (hA : 0 ≤ A) (hAZ : A < Z) (hfits : H + nch * (Z + R + 1) ≤ 2147483647) {r : Rd}
    (h : RepFwd R A Z H nch r) : ∃ r1, Settles r r1 ∧ RepFwd R A Z H nch r1 ∧ r1.pos1 = wrapAt (H + A * nch) (H + Z * nch) r.pos1 ∧
      r1.rate = r.rate ∧ r1.pos1 + nch ≤ H + Z * nch := by
  have hn : 0 < nch := by rw [← h.chans]; exact h.plain.nch
  have hR0 : 0 ≤ R := by
    have : (0 : ℚ) ≤ R := le_trans h.rate0 h.rateR
    exact_mod_cast this
  obtain ⟨q, hq0, hqF, hq⟩ := h.pos
  have hpos : ∀ x, 0 ≤ x → x ≤ Z → r.posOf x = H + x * nch := by
    intro x h0 h1
    have f := frame_fits hH (le_of_lt hn) h0 (show x ≤ Z + R + 1 by omega) hfits
    rw [posOf_eq] <;> rw [h.header, h.chans]
    exact ⟨by omega, f.2⟩
  have hat : r.atEnd = decide (H + Z * nch ≤ r.pos1) := by
    unfold Rd.atEnd
    simp only [h.plain.dual, Bool.false_eq_true, if_false, h.rate0, ge_iff_le, if_true, h.loop, h.lf, hpos Z (by omega) (le_refl _)]
    rw [if_neg (by decide)]
  unfold wrapAt
  by_cases he : H + Z * nch ≤ r.pos1
  · have hAZn : (A + 1) * nch ≤ Z * nch := mul_le_mul_of_nonneg_right (by omega) (le_of_lt hn)
    rw [add_mul, one_mul] at hAZn
    set r1 : Rd := { r with cfOn := false, pos1 := H + A * nch } with hr1
    have h1 : RepFwd R A Z H nch r1 :=
      ⟨⟨h.plain.dual, h.plain.interp, rfl, h.plain.nch⟩, h.loop, h.rate0, h.rateR, h.flt, h.frac, h.header, h.ls, h.lf, h.chans, A, hA, by omega, rfl⟩
    refine ⟨r1, Or.inr ⟨by rw [hat]; simpa using he, ?_, ?_⟩, h1, by rw [if_pos he], rfl, by rw [hr1]; simp only; omega⟩
    · unfold wrapAround
      simp only [h.loop, ge_iff_le, h.rate0, if_true]
      rw [hr1, ← hpos A hA (le_of_lt hAZ), ← h.ls]
      simp only [h.loop]; rfl
    · have hpz : r1.posOf r1.loopFinish = H + Z * nch := by rw [← hpos Z (by omega) (le_refl _), ← h.lf]; rfl
      unfold Rd.atEnd
      rw [hpz]
      have e1 : r1.dual = false := h.plain.dual
      have e2 : r1.loopType = .repeat := h.loop
      have e3 : r1.rate ≥ 0 := h.rate0
      simp only [e1, e2, e3, Bool.false_eq_true, if_false, if_true]
      rw [if_neg (by decide), decide_eq_false_iff_not]
      show ¬ (H + A * nch ≥ H + Z * nch)
      omega
  · refine ⟨r, Or.inl ⟨by rw [hat]; simpa using he, rfl⟩, h, by rw [if_neg he], rfl, ?_⟩
    have hqZ : q < Z := by
      by_contra hcon
      have := mul_le_mul_of_nonneg_right (show Z ≤ q by omega) (le_of_lt hn)
      omega
    have := mul_le_mul_of_nonneg_right (show q + 1 ≤ Z by omega) (le_of_lt hn)
    rw [add_mul, one_mul] at this
    omega

theorem RepFwd.step (hfp : Representable fp) {R A Z H nch : Int} (hR2 : R ≤ 2 ^ 30) (hH : 0 ≤ H)
    (hfits : H + nch * (Z + R + 1) ≤ 2147483647) {r : Rd} (h : RepFwd R A Z H nch r) (hin : r.pos1 + nch ≤ H + Z * nch) :
    ∃ r2, stepOn fp r = .ok r2 ∧ RepFwd R A Z H nch r2 ∧ r2.rate = r.rate ∧ r.pos1 ≤ r2.pos1 ∧ r2.pos1 ≤ r.pos1 + nch * (R + 1) := by
  have hn : 0 < nch := by rw [← h.chans]; exact h.plain.nch
  have hR0 : 0 ≤ R := by
    have : (0 : ℚ) ≤ R := le_trans h.rate0 h.rateR
    exact_mod_cast this
  obtain ⟨q, hq0, hqF, hq⟩ := h.pos
  have hqZ : q + 1 ≤ Z := by
    by_contra hcon
    have := mul_le_mul_of_nonneg_right (show Z ≤ q by omega) (le_of_lt hn)
    omega
  have hpq : ∀ δ : Int, r.pos1 + δ * r.nch = H + (q + δ) * nch := by intro δ; rw [hq, h.chans]; ring
  obtain ⟨δ, f, e1, e2, e3, _, e5, e6⟩ := stepOn_any fp hfp (r := r) (R := R) (by rw [abs_of_nonneg h.rate0]; exact h.rateR) hR2
    h.flt h.frac h.plain.cfOn (fun δ hδ h0 _ => by
      have hδ0 := h0 h.rate0
      rw [abs_of_nonneg hδ0] at hδ
      have f1 := frame_fits hH (le_of_lt hn) hδ0 (show δ ≤ Z + R + 1 by omega) hfits
      have f2 := frame_fits hH (le_of_lt hn) (show 0 ≤ q + δ by omega) (show q + δ ≤ Z + R + 1 by omega) hfits
      rw [hpq, h.chans]
      exact ⟨⟨by omega, by omega⟩, ⟨by omega, by omega⟩⟩)
  have hδ0 := e3 h.rate0
  rw [abs_of_nonneg hδ0] at e2
  have hmul : δ * nch ≤ nch * (R + 1) := by rw [mul_comm]; exact mul_le_mul_of_nonneg_left e2 (le_of_lt hn)
  have hmul0 : 0 ≤ δ * nch := mul_nonneg hδ0 (le_of_lt hn)
  refine ⟨_, e1, ?_, rfl, ?_, ?_⟩
  · exact ⟨⟨h.plain.dual, h.plain.interp, h.plain.cfOn, h.plain.nch⟩, h.loop, h.rate0, h.rateR, e5, e6, h.header, h.ls, h.lf, h.chans,
      q + δ, by omega, by omega, hpq δ⟩
  · simp only [h.chans]; omega
  · simp only [h.chans]; omega

/-- `x` is at most `k` steps of `st` after `q`, when `e` is followed by `s`; passing `e` at most once. -/
def Ahead (s e st q : Int) (k : Nat) (x : Int) : Prop :=
  (q ≤ x ∧ x ≤ q + k * st) ∨ ∃ k1 k2 : Nat, k1 + k2 ≤ k ∧ e ≤ q + k1 * st ∧ s ≤ x ∧ x ≤ s + k2 * st

theorem Ahead.wrap {s e st q x : Int} {k n : Nat} (hst : 0 < st) (hq : q < e) (hlong : s + n * st ≤ e) (hk : k ≤ n) (h : Ahead s e st q k x) :
    Ahead s e st q k (wrapAt s e x) := by
  unfold wrapAt
  split
  · rename_i he
    rcases h with ⟨h1, h2⟩ | ⟨k1, k2, h1, h2, h3, h4⟩
    · exact Or.inr ⟨k, 0, by omega, by omega, le_refl _, by simp⟩
    · exfalso
      have hk1 : 0 < k1 := by
        rcases Nat.eq_zero_or_pos k1 with rfl | h
        · simp only [Nat.cast_zero, zero_mul] at h2; omega
        · exact h
      have : (k2 : Int) * st < n * st := mul_lt_mul_of_pos_right (by omega) hst
      omega
  · exact h

theorem Ahead.move {s e st q x y : Int} {k : Nat} (h : Ahead s e st q k x) (h1 : x ≤ y) (h2 : y ≤ x + st) :
    Ahead s e st q (k + 1) y := by
  rcases h with ⟨a, b⟩ | ⟨k1, k2, a, b, c, d⟩
  · exact Or.inl ⟨by omega, by push_cast; rw [add_mul, one_mul]; omega⟩
  · exact Or.inr ⟨k1, k2 + 1, by omega, b, by omega, by push_cast; rw [add_mul, one_mul]; omega⟩

theorem Ahead.mono {s e st q x : Int} {k k' : Nat} (hst : 0 < st) (hk : k ≤ k') (h : Ahead s e st q k x) : Ahead s e st q k' x := by
  rcases h with ⟨a, b⟩ | ⟨k1, k2, a, b, c, d⟩
  · refine Or.inl ⟨a, ?_⟩
    have : (k : Int) * st ≤ k' * st := mul_le_mul_of_nonneg_right (by omega) (le_of_lt hst)
    omega
  · exact Or.inr ⟨k1, k2, by omega, b, c, d⟩

/-- An update that wraps around at most once. -/
theorem RepFwd.visits (hfp : Representable fp) {R A Z H nch : Int} (hR2 : R ≤ 2 ^ 30) (hH : 0 ≤ H) (hA : 0 ≤ A) (hAZ : A < Z) (hn : 0 < nch)
    (hfits : H + nch * (Z + R + 1) ≤ 2147483647) {T : Nat} {q0 : Int} (hq0 : q0 < H + Z * nch)
    (hlong : H + A * nch + T * (nch * (R + 1)) ≤ H + Z * nch) : ∀ (n k : Nat) (r : Rd), k + n = T → RepFwd R A Z H nch r →
    Ahead (H + A * nch) (H + Z * nch) (nch * (R + 1)) q0 k (wrapAt (H + A * nch) (H + Z * nch) r.pos1) →
    ∃ ps r', Visits fp n r ps r' ∧ RepFwd R A Z H nch r' ∧ r'.rate = r.rate ∧
      Ahead (H + A * nch) (H + Z * nch) (nch * (R + 1)) q0 (k + n) (wrapAt (H + A * nch) (H + Z * nch) r'.pos1) ∧
      (n ≠ 0 → wrapAt (H + A * nch) (H + Z * nch) r.pos1 ∈ ps) ∧
      (∀ p ∈ ps, 0 ≤ p ∧ p + nch ≤ H + Z * nch ∧ ∀ i, p ≤ i → i < p + nch → Ahead (H + A * nch) (H + Z * nch) (nch * (R + 1)) q0 (k + n) i)
  | 0, k, r, _, h, ha => ⟨[], r, .nil r, h, rfl, ha, fun h => absurd rfl h, fun p hp => by cases hp⟩
  | n + 1, k, r, hk, h, ha => by
    have hR0 : 0 ≤ R := by
      have : (0 : ℚ) ≤ R := le_trans h.rate0 h.rateR
      exact_mod_cast this
    have hst : 0 < nch * (R + 1) := mul_pos hn (by omega)
    have hnst : nch ≤ nch * (R + 1) := le_mul_of_one_le_right (le_of_lt hn) (by omega)
    obtain ⟨r1, s1, s2, s3, s4, s5⟩ := h.settle hH hA hAZ hfits
    obtain ⟨r2, t1, t2, t3, t4, t5⟩ := s2.step hfp hR2 hH hfits s5
    have a1 : Ahead (H + A * nch) (H + Z * nch) (nch * (R + 1)) q0 k r1.pos1 := by rw [s3]; exact ha
    obtain ⟨ps, r', k1, k2, k3, k4, _, k6⟩ := RepFwd.visits hfp hR2 hH hA hAZ hn hfits hq0 hlong n (k + 1) r2 (by omega) t2
      ((a1.move t4 t5).wrap hst hq0 hlong (by omega))
    have hkn : k + (n + 1) = k + 1 + n := by omega
    rw [hkn]
    refine ⟨r1.pos1 :: ps, r', .cons s1 t1 k1, k2, by rw [k3, t3, s4], k4, fun _ => by rw [s3]; exact List.mem_cons_self, ?_⟩
    intro p hp
    rcases List.mem_cons.1 hp with rfl | hp
    · refine ⟨?_, s5, fun i h1 h2 => (a1.move h1 (by omega)).mono hst (by omega)⟩
      obtain ⟨q, x1, _, x3⟩ := s2.pos
      rw [x3]; have := mul_nonneg x1 (le_of_lt hn); omega
    · exact k6 p hp

/-- An update that may wrap around many times: it never goes below `lo`. -/
theorem RepFwd.visits_in (hfp : Representable fp) {R A Z H nch : Int} (hR2 : R ≤ 2 ^ 30) (hH : 0 ≤ H) (hA : 0 ≤ A) (hAZ : A < Z)
    (hfits : H + nch * (Z + R + 1) ≤ 2147483647) {lo : Int} (hlo : lo ≤ H + A * nch) : ∀ (n : Nat) (r : Rd), RepFwd R A Z H nch r → lo ≤ r.pos1 →
    ∃ ps r', Visits fp n r ps r' ∧ RepFwd R A Z H nch r' ∧ r'.rate = r.rate ∧ lo ≤ r'.pos1 ∧ (∀ p ∈ ps, lo ≤ p ∧ p + nch ≤ H + Z * nch)
  | 0, r, h, ha => ⟨[], r, .nil r, h, rfl, ha, fun p hp => by cases hp⟩
  | n + 1, r, h, ha => by
    obtain ⟨r1, s1, s2, s3, s4, s5⟩ := h.settle hH hA hAZ hfits
    obtain ⟨r2, t1, t2, t3, t4, t5⟩ := s2.step hfp hR2 hH hfits s5
    have a1 : lo ≤ r1.pos1 := by rw [s3]; unfold wrapAt; split <;> assumption
    obtain ⟨ps, r', k1, k2, k3, k4, k6⟩ := RepFwd.visits_in hfp hR2 hH hA hAZ hfits hlo n r2 t2 (by omega)
    refine ⟨r1.pos1 :: ps, r', .cons s1 t1 k1, k2, by rw [k3, t3, s4], k4, ?_⟩
    intro p hp
    rcases List.mem_cons.1 hp with rfl | hp
    · exact ⟨a1, s5⟩
    · exact k6 p hp

/-- Steps ahead, counted in blocks. -/
theorem Ahead.block {B s e st q x mm : Int} {k : Nat} (hB : 0 < B) (hst : 0 < st) (hk : k * st ≤ mm * B) (h : Ahead s e st q k x) (hq : q < e) (hx : x < e) :
    ∃ d, 0 ≤ d ∧ d ≤ mm + 2 ∧ x / B = blk (s / B) (e / B) (q / B) d := by
  have hfl : ∀ y, y < e → y / B ≤ e / B := fun y hy => Int.ediv_le_ediv hB (le_of_lt hy)
  have hadd : ∀ a b : Int, a ≤ b + mm * B → a / B ≤ b / B + mm := by
    intro a b h
    rw [← Int.add_mul_ediv_right _ _ (ne_of_gt hB)]
    exact Int.ediv_le_ediv hB h
  have h1 := hfl q hq
  have h2 := hfl x hx
  have hmm : 0 ≤ mm := by
    by_contra hcon
    have := mul_neg_of_neg_of_pos (show mm < 0 by omega) hB
    have := mul_nonneg (Int.natCast_nonneg k) (le_of_lt hst)
    omega
  rcases h with ⟨a, b⟩ | ⟨k1, k2, a, b, c, d⟩
  · have h3 := Int.ediv_le_ediv hB a
    have h4 := hadd x q (by omega)
    refine ⟨x / B - q / B, by omega, by omega, ?_⟩
    unfold blk; rw [if_pos (by omega)]; ring
  · have h3 := Int.ediv_le_ediv hB c
    have e1 : (k1 : Int) * st + k2 * st ≤ k * st := by rw [← add_mul]; exact mul_le_mul_of_nonneg_right (by exact_mod_cast a) (le_of_lt hst)
    -- both parts together are at most `mm` blocks
    have h4 : e / B + x / B ≤ q / B + s / B + mm + 1 := by
      have g1 : e + x ≤ q + s + mm * B := by omega
      have := Int.mul_ediv_add_emod e B
      have := Int.mul_ediv_add_emod x B
      have := Int.mul_ediv_add_emod q B
      have := Int.mul_ediv_add_emod s B
      have := Int.emod_nonneg e (ne_of_gt hB)
      have := Int.emod_nonneg x (ne_of_gt hB)
      have := Int.emod_lt_of_pos q hB
      have := Int.emod_lt_of_pos s hB
      by_contra hcon
      have : B * (q / B + s / B + mm + 2) ≤ B * (e / B + x / B) := mul_le_mul_of_nonneg_left (by omega) (le_of_lt hB)
      rw [mul_add, mul_add, mul_add, mul_add, mul_comm B mm] at this
      omega
    refine ⟨(e / B - q / B) + 1 + (x / B - s / B), by omega, by omega, ?_⟩
    unfold blk; rw [if_neg (by omega)]; ring

/-! ## Keeping up -/

/-- A loop at least as long as the buffers: the reader's block is at most `mm + 2` after the first block of the window. -/
structure LongLive (m : List Nat) (g : Geo) (mm R A Z H nch : Int) (r : Rd) (c : Cache) : Prop where
  rd : RepFwd R A Z H nch r
  win : ∃ w δ, LWin m g ((H + A * nch) / g.B) ((H + Z * nch) / g.B) c w ∧ 0 ≤ δ ∧ δ ≤ mm + 2 ∧
    wrapAt (H + A * nch) (H + Z * nch) r.pos1 / g.B = blk ((H + A * nch) / g.B) ((H + Z * nch) / g.B) w δ

theorem LongLive.keepsUp (hfp : Representable fp) (hB : g.B < 16384) (hm : m.length < 2 ^ 31) {mm R A Z H nch : Int}
    (hmm : 2 * mm + 5 ≤ g.N) (hR2 : R ≤ 2 ^ 30) (hH : 0 ≤ H) (hA : 0 ≤ A) (hAZ : A < Z) (hn : 0 < nch) (hR0 : 0 ≤ R)
    (hfits : H + nch * (Z + R + 1) ≤ 2147483647) (hadv : 128 * (nch * (R + 1)) ≤ mm * g.B) (hE : 2 * (H + Z * nch) ≤ m.length)
    {fuel : Nat} (hf : g.N ≤ fuel) : KeepsUp fp m g fuel (LongLive m g mm R A Z H nch) := by
  intro r c h
  obtain ⟨hr, w, δ, hw, hδ0, hδ1, hpos⟩ := h
  have hB0 : (0 : Int) < g.B := by exact_mod_cast g.B_pos
  have hst : 0 < nch * (R + 1) := mul_pos hn (by omega)
  have hSE : H + A * nch < H + Z * nch := by have := mul_lt_mul_of_pos_right hAZ hn; omega
  have hS0 : 0 ≤ A * nch := mul_nonneg hA (le_of_lt hn)
  have hlen := hw.conf.len
  have hwf := hw.conf.wf
  generalize hSd : H + A * nch = S at *
  generalize hEd : H + Z * nch = E at *
  generalize hsd : S / (g.B : Int) = s at *
  generalize hfd : E / (g.B : Int) = f at *
  -- the loop is longer than an update
  have hlong : S + (blockSamples : Nat) * (nch * (R + 1)) ≤ E := by
    have h1 : f * g.B ≤ E := by rw [← hfd]; exact Int.ediv_mul_le _ (ne_of_gt hB0)
    have h2 : S < (s + 1) * g.B := by rw [← hsd]; exact Int.lt_ediv_add_one_mul_self _ hB0
    have h3 : (s + 1 + mm) * g.B ≤ f * g.B := mul_le_mul_of_nonneg_right (by omega) (le_of_lt hB0)
    rw [add_mul] at h3
    have e : ((blockSamples : Nat) : Int) = 128 := rfl
    rw [e]; omega
  have hmax : (f + 1) * g.B ≤ 2147483647 := by
    have h1 : f * g.B ≤ E := by rw [← hfd]; exact Int.ediv_mul_le _ (ne_of_gt hB0)
    rw [add_mul, one_mul]
    omega
  obtain ⟨q0, hq0d⟩ : ∃ q0, q0 = wrapAt S E r.pos1 := ⟨_, rfl⟩
  have hwr : ∀ x, wrapAt S E x < E := by intro x; unfold wrapAt; split <;> omega
  have hq0 : q0 < E := by rw [hq0d]; exact hwr _
  subst hSd hEd
  obtain ⟨ps, r', v1, v2, v3, v4, v5, v6⟩ := RepFwd.visits hfp hR2 hH hA hAZ hn hfits hq0 hlong blockSamples 0 r (by omega) hr
    (Or.inl ⟨by rw [hq0d], by rw [hq0d]; simp⟩)
  rw [zero_add] at v4 v6
  generalize hSd : H + A * nch = S at *
  generalize hEd : H + Z * nch = E at *
  rw [← hq0d] at hpos
  have hadv' : ((blockSamples : Nat) : Int) * (nch * (R + 1)) ≤ mm * g.B := hadv
  have hblk : ∀ x, Ahead S E (nch * (R + 1)) q0 blockSamples x → x < E → ∃ d, 0 ≤ d ∧ d ≤ mm + 2 ∧ x / g.B = blk s f w (δ + d) ∧
      x / g.B = blk s f (blk s f w δ) d := by
    intro x hx hxE
    obtain ⟨d, d0, d1, e⟩ := hx.block hB0 hst hadv' hq0 hxE
    rw [hsd, hfd, hpos] at e
    exact ⟨d, d0, d1, by rw [e, blk_blk (by omega) d0], e⟩
  have hrd := v5 (by decide)
  rw [← hq0d] at hrd
  have hidx : ∀ i ∈ framesIdx r.nch ps, InFile m i ∧ ∃ j : Int, ((δ.toNat : Nat) : Int) ≤ j ∧ j < g.N ∧ i / g.B = blk s f w j := by
    intro i hi
    obtain ⟨p, hp, q1, q2⟩ := mem_framesIdx.1 hi
    rw [hr.chans] at q2
    obtain ⟨e1, e2, e3⟩ := v6 p hp
    obtain ⟨d, d0, d1, e, _⟩ := hblk i (e3 i q1 (by omega)) (by omega)
    exact ⟨⟨by omega, by omega⟩, δ + d, by omega, by omega, e⟩
  obtain ⟨c1, c2⟩ := hw.round hB (by omega) hmax (is := framesIdx r.nch ps) (δ := δ.toNat) hidx
    ⟨q0, mem_framesIdx.2 ⟨q0, hrd, le_refl _, by rw [hr.chans]; omega⟩, by rw [Int.toNat_of_nonneg hδ0]; exact hpos⟩
  obtain ⟨c', c3, c4⟩ := c2 fuel (fp.f.rnd r'.rate) hf (fp.f.nonneg v2.rate0)
  refine ⟨hr.plain, hw.reached, ps, r', c', v1, fun i hi => ⟨(hidx i hi).1, c1 i hi⟩, c3, v2, ?_⟩
  rw [Int.toNat_of_nonneg hδ0] at c4
  obtain ⟨d, d0, d1, _, e⟩ := hblk _ v4 (hwr _)
  subst hSd hEd
  rw [hsd, hfd]
  exact ⟨blk s f w δ, d, c4, d0, d1, e⟩

/-- A loop no longer than the buffers, which hold all of it. -/
structure ShortLive (m : List Nat) (g : Geo) (R A Z H nch : Int) (r : Rd) (c : Cache) : Prop where
  rd : RepFwd R A Z H nch r
  lo : (H + A * nch) / g.B * g.B ≤ r.pos1
  win : ∃ w, LWin m g ((H + A * nch) / g.B) ((H + A * nch) / g.B + g.N - 1) c w ∧ (H + A * nch) / g.B ≤ w

theorem exists_min (f : Int → Int) : ∀ is : List Int, is ≠ [] → ∃ i ∈ is, ∀ j ∈ is, f i ≤ f j
  | [], h => absurd rfl h
  | [a], _ => ⟨a, by simp, by simp⟩
  | a :: b :: rest, _ => by
    obtain ⟨i, h1, h2⟩ := exists_min f (b :: rest) (by simp)
    rcases le_or_gt (f a) (f i) with h | h
    · refine ⟨a, by simp, fun j hj => ?_⟩
      rcases List.mem_cons.1 hj with rfl | hj
      · exact le_refl _
      · exact le_trans h (h2 j hj)
    · refine ⟨i, List.mem_cons_of_mem _ h1, fun j hj => ?_⟩
      rcases List.mem_cons.1 hj with rfl | hj
      · exact le_of_lt h
      · exact h2 j hj

theorem ShortLive.keepsUp (hfp : Representable fp) (hB : g.B < 16384) (hNB : g.N * g.B ≤ 2 ^ 30) (hm : m.length < 2 ^ 31) {R A Z H nch : Int}
    (hR2 : R ≤ 2 ^ 30) (hH : 0 ≤ H) (hA : 0 ≤ A) (hAZ : A < Z) (hn : 0 < nch)
    (hfits : H + nch * (Z + R + 1) ≤ 2147483647) (hE : 2 * (H + Z * nch) ≤ m.length)
    (hshort : (H + Z * nch) / g.B ≤ (H + A * nch) / g.B + g.N - 1)
    {fuel : Nat} (hf : g.N ≤ fuel) : KeepsUp fp m g fuel (ShortLive m g R A Z H nch) := by
  intro r c h
  obtain ⟨hr, hlo, w, hw, hsw⟩ := h
  have hB0 : (0 : Int) < g.B := by exact_mod_cast g.B_pos
  have hNB' : (g.N : Int) * g.B ≤ 2 ^ 30 := by exact_mod_cast hNB
  have hSE : H + A * nch < H + Z * nch := by have := mul_lt_mul_of_pos_right hAZ hn; omega
  have hS0 : 0 ≤ A * nch := mul_nonneg hA (le_of_lt hn)
  have hlen := hw.conf.len
  have hwf := hw.conf.wf
  have hs0 := hw.conf.s0
  have hle : (H + A * nch) / g.B * g.B ≤ H + A * nch := Int.ediv_mul_le _ (ne_of_gt hB0)
  obtain ⟨ps, r', v1, v2, v3, v4, v6⟩ := RepFwd.visits_in hfp hR2 hH hA hAZ hfits hle blockSamples r hr hlo
  generalize hSd : H + A * nch = S at *
  generalize hEd : H + Z * nch = E at *
  generalize hsd : S / (g.B : Int) = s at *
  have hsB : 0 ≤ s * g.B := mul_nonneg hs0 (le_of_lt hB0)
  have hmax : (s + g.N - 1 + 1) * g.B ≤ 2147483647 := by
    rw [show s + (g.N : Int) - 1 + 1 = s + g.N by ring, add_mul]
    omega
  have hidx0 : ∀ i ∈ framesIdx r.nch ps, InFile m i ∧ s ≤ i / g.B ∧ i / g.B ≤ s + g.N - 1 := by
    intro i hi
    obtain ⟨p, hp, q1, q2⟩ := mem_framesIdx.1 hi
    rw [hr.chans] at q2
    obtain ⟨e1, e2⟩ := v6 p hp
    refine ⟨⟨by omega, by omega⟩, ?_, le_trans (Int.ediv_le_ediv hB0 (show i ≤ E by omega)) hshort⟩
    rw [Int.le_ediv_iff_mul_le hB0]; omega
  have hd : ∀ x, s ≤ x → x ≤ s + g.N - 1 → 0 ≤ dist s (s + g.N - 1) w x ∧ dist s (s + g.N - 1) w x < g.N ∧
      x = blk s (s + g.N - 1) w (dist s (s + g.N - 1) w x) := by
    intro x h1 h2
    unfold dist blk
    split <;> split <;> omega
  have hne : framesIdx r.nch ps ≠ [] := by
    have := v1.length
    cases ps with
    | nil => simp [blockSamples] at this
    | cons p ps => exact List.ne_nil_of_mem (mem_framesIdx.2 ⟨p, List.mem_cons_self, le_refl p, by have := hr.plain.nch; omega⟩)
  obtain ⟨i0, hi0, hmin⟩ := exists_min (fun i => dist s (s + g.N - 1) w (i / g.B)) _ hne
  obtain ⟨x1, x2, x3⟩ := hidx0 i0 hi0
  obtain ⟨y1, y2, y3⟩ := hd _ x2 x3
  obtain ⟨c1, c2⟩ := hw.round hB (by omega) hmax (is := framesIdx r.nch ps) (δ := (dist s (s + g.N - 1) w (i0 / g.B)).toNat)
    (fun i hi => by
      obtain ⟨z1, z2, z3⟩ := hidx0 i hi
      obtain ⟨u1, u2, u3⟩ := hd _ z2 z3
      have := hmin i hi
      exact ⟨z1, _, by omega, u2, u3⟩)
    ⟨i0, hi0, by rw [Int.toNat_of_nonneg y1]; exact y3⟩
  obtain ⟨c', c3, c4⟩ := c2 fuel (fp.f.rnd r'.rate) hf (fp.f.nonneg v2.rate0)
  rw [Int.toNat_of_nonneg y1, ← y3] at c4
  refine ⟨hr.plain, hw.reached, ps, r', c', v1, fun i hi => ⟨(hidx0 i hi).1, c1 i hi⟩, c3, v2, ?_, ?_⟩
  · rw [hSd, hsd]; exact v4
  · rw [hSd, hsd]; exact ⟨_, c4, x2⟩

/-! ## Starting -/

/-- The frame forward playback starts at. -/
def firstFrame (r : Rd) : Int :=
  match r.playStart with
  | .sample => 0
  | .loop => r.loopStart
  | .arbitrary => r.playbackStart

/-- What `play(filename)` leaves behind when it succeeds, for a repeated forward loop. -/
theorem playFinish_rep (hm : m.length < 2 ^ 31) {r : Rd} {f : Dev} (hf : f.bytes = m) (hsz : r.fileSize = m.length)
    (hH : 0 ≤ r.header) (hn : 0 < r.nch) (hd : r.dual = false) (hi : r.interp = .none)
    (hl : r.loopType = .repeat) {R : Int} (h0 : 0 ≤ r.rate) (hR : r.rate ≤ R) (hflt : IsFloat 53 (-1074) r.rem) (hfrac : |r.rem| < 1)
    (hA : 0 ≤ r.loopStart) (hAZ : r.loopStart < r.loopFinish) (hE : 2 * (r.header + r.loopFinish * r.nch) ≤ m.length)
    (hs0 : 0 ≤ firstFrame r) (hs1 : firstFrame r < r.loopFinish) :
    ∃ (a : FileReader) (c : Cache), playFinish g r f = .ok (true, a) ∧ a.rd.playing = true ∧ RepFwd R r.loopStart r.loopFinish r.header r.nch a.rd ∧
      a.rd.pos1 = r.header + firstFrame r * r.nch ∧ a.rd.rate = r.rate ∧ a.rd.rem = r.rem ∧ a.src = some (c.preLoad g a.rd.pos1 true) ∧
      c.dev.bytes = m ∧ c.bufs = [] ∧ c.fails = 0 ∧ c.loopType = .repeat ∧ c.loopStartBlk = (r.header + r.loopStart * r.nch) / g.B ∧
      c.loopFinishBlk = (r.header + r.loopFinish * r.nch) / g.B := by
  have hB0 : (0 : Int) < g.B := by exact_mod_cast g.B_pos
  have hRq : 0 ≤ R := by
    have : (0 : ℚ) ≤ R := le_trans h0 hR
    exact_mod_cast this
  have hle : ∀ x, x ≤ r.loopFinish → x * r.nch ≤ r.loopFinish * r.nch := fun x hx => mul_le_mul_of_nonneg_right hx (le_of_lt hn)
  have hge : ∀ x, 0 ≤ x → 0 ≤ x * r.nch := fun x hx => mul_nonneg hx (le_of_lt hn)
  have hone : r.loopFinish ≤ r.loopFinish * r.nch := le_mul_of_one_le_right (by omega) (by omega)
  have hZ1 : (0 + 1) * r.nch ≤ r.loopFinish * r.nch := hle _ (by omega)
  unfold playFinish
  rw [hsz, if_neg (by unfold u32; omega), if_neg (by omega)]
  simp only [hl, reduceCtorEq, if_false]
  set rd0 : Rd := { r with fileSize := m.length, loopType := .repeat, fileSamples := r.fileSamples.tdiv r.nch, loopStart := i32 r.loopStart, loopFinish := i32 r.loopFinish } with hrd0
  have hA32 : i32 r.loopStart = r.loopStart := i32_of_in ⟨by omega, by omega⟩
  have hZ32 : i32 r.loopFinish = r.loopFinish := i32_of_in ⟨by omega, by omega⟩
  have hpos : ∀ x, 0 ≤ x → x ≤ r.loopFinish → i32 (rd0.s2s x) = r.header + x * r.nch := by
    intro x h1 h2
    have := hle x h2
    have := hge x h1
    have e : rd0.posOf x = rd0.header + x * rd0.nch := posOf_eq ⟨by show -2147483648 ≤ r.header + x * r.nch; omega, by show r.header + x * r.nch ≤ 2147483647; omega⟩
    exact e
  have hp : rd0.reset.pos1 = r.header + firstFrame r * r.nch := by
    unfold Rd.reset
    have h0' : rd0.rate ≥ 0 := h0
    simp only [h0', if_true]
    have e1 : rd0.loopStart = r.loopStart := hA32
    have key : ∀ y, y = firstFrame r → Rd.posOf { rd0 with pts := fun c => if c < 8 then { rd0.pts c with n := 0 } else rd0.pts c } y =
        r.header + firstFrame r * r.nch := by
      rintro y rfl
      exact hpos _ hs0 (le_of_lt hs1)
    have e2 : rd0.playStart = r.playStart := rfl
    unfold firstFrame at key ⊢
    rw [e2, e1]
    cases hps : r.playStart <;> simp only [hps] at key ⊢ <;> exact key _ rfl
  have hr0 : rd0.reset.rate ≥ 0 := h0
  refine ⟨⟨{ rd0.reset with playing := true }, some (Cache.preLoad g { dev := f, loopType := .repeat, loopStartBlk := i32 (rd0.s2s (i32 r.loopStart)) / g.B, loopFinishBlk := i32 (rd0.s2s (i32 r.loopFinish)) / g.B } rd0.reset.pos1 true)⟩,
    { dev := f, loopType := .repeat, loopStartBlk := i32 (rd0.s2s (i32 r.loopStart)) / g.B, loopFinishBlk := i32 (rd0.s2s (i32 r.loopFinish)) / g.B }, ?_, rfl, ?_, hp, rfl, rfl, rfl, hf, rfl, rfl, rfl, ?_, ?_⟩
  · have e : true = (decide (rd0.reset.rate ≥ 0)) := by rw [decide_eq_true hr0]
    rw [e]; rfl
  · exact ⟨⟨hd, hi, rfl, hn⟩, rfl, h0, hR, hflt, hfrac, rfl, hA32, hZ32, rfl, firstFrame r, hs0, by omega, hp⟩
  · simp only; rw [hA32, hpos _ hA (by omega)]
  · simp only; rw [hZ32, hpos _ (by omega) (le_refl _)]

end TVP
