import Verif.Lemmas.LoopStream
import Verif.Lemmas.LoopWindowRev
import Verif.Lemmas.GlideRev

/-!
# A player repeating a part of a file backwards
-/

namespace TVP
open Spec

variable {m : List Nat} {g : Geo} {fp : Fp}

/-- A plain reader going backwards at any rate up to `R`, repeating from sample `P` whenever it has passed below sample `S`. -/
structure RepRev (fp : Fp) (R S P E nch : Int) (r : Rd) : Prop where
  plain : Plain r
  loop : r.loopType = .repeat
  rateF : fp.f.rnd r.rate < 0
  rateR : -R ≤ r.rate
  flt : IsFloat 53 (-1074) r.rem
  frac : |r.rem| < 1
  chans : r.nch = nch
  bottom : (if r.playStart = .sample then r.header else r.posOf r.loopStart) = S
  wrap : r.posOf (r.loopFinish - r.nch) = P
  top : r.pos1 + nch ≤ E
  low : S - nch * (R + 1) ≤ r.pos1

theorem RepRev.rate0 {R S P E nch : Int} {r : Rd} (h : RepRev fp R S P E nch r) : r.rate < 0 := by
  by_contra hc
  exact absurd (fp.f.nonneg (not_lt.1 hc)) (not_le.2 h.rateF)

/-- Where a reader at `p` reads: at `t` if it has passed below `s`. -/
def wrapDown (s t p : Int) : Int := if p < s then t else p

theorem RepRev.settle {R S P E nch : Int} (hR0 : 0 ≤ R) (hSP : S ≤ P) (hPE : P + nch ≤ E) {r : Rd} (h : RepRev fp R S P E nch r) :
    ∃ r1, Settles r r1 ∧ RepRev fp R S P E nch r1 ∧ r1.pos1 = wrapDown S P r.pos1 ∧ r1.rate = r.rate ∧ S ≤ r1.pos1 := by
  have hn : 0 < nch := by rw [← h.chans]; exact h.plain.nch
  have hr0 := h.rate0
  have hnR : 0 ≤ nch * (R + 1) := mul_nonneg (le_of_lt hn) (by omega)
  have hat : r.atEnd = decide (r.pos1 < S) := by
    have hb := h.bottom
    unfold Rd.atEnd
    simp only [h.plain.dual, Bool.false_eq_true, if_false, ge_iff_le, not_le.2 hr0]
    split at hb <;> rename_i hs <;> simp only [hs, if_true, if_false, hb]
  unfold wrapDown
  by_cases he : r.pos1 < S
  · set r1 : Rd := { r with cfOn := false, pos1 := P } with hr1
    have h1 : RepRev fp R S P E nch r1 :=
      ⟨⟨h.plain.dual, h.plain.interp, rfl, h.plain.nch⟩, h.loop, h.rateF, h.rateR, h.flt, h.frac, h.chans, h.bottom, h.wrap, hPE,
        by rw [hr1]; simp only; omega⟩
    refine ⟨r1, Or.inr ⟨by rw [hat]; simpa using he, ?_, ?_⟩, h1, by rw [if_pos he], rfl, hSP⟩
    · unfold wrapAround
      simp only [h.loop, ge_iff_le, not_le.2 hr0, if_false]
      rw [hr1, ← h.wrap]
      simp only [h.loop]; rfl
    · have hb := h1.bottom
      have hn0 : ¬ (r1.rate ≥ 0) := not_le.2 hr0
      unfold Rd.atEnd
      simp only [h1.plain.dual, Bool.false_eq_true, if_false, hn0]
      have hp : r1.pos1 = P := rfl
      split at hb <;> rename_i hs <;> simp only [hs, if_true, if_false, hb, hp, decide_eq_false_iff_not] <;> omega
  · exact ⟨r, Or.inl ⟨by rw [hat]; simpa using he, rfl⟩, h, by rw [if_neg he], rfl, by omega⟩

theorem RepRev.step (hfp : Representable fp) {R S P E nch : Int} (hR2 : R ≤ 2 ^ 30) (hS : 0 ≤ S) (hE2 : E ≤ 2147483647)
    (hfits : nch * (R + 1) ≤ 2147483647) {r : Rd} (h : RepRev fp R S P E nch r) (hin : S ≤ r.pos1) :
    ∃ r2, stepOn fp r = .ok r2 ∧ RepRev fp R S P E nch r2 ∧ r2.rate = r.rate ∧ r2.pos1 ≤ r.pos1 ∧ r.pos1 - nch * (R + 1) ≤ r2.pos1 := by
  have hn : 0 < nch := by rw [← h.chans]; exact h.plain.nch
  have hr0 := h.rate0
  have htop := h.top
  have hmulδ : ∀ δ : Int, |δ| ≤ R + 1 → δ ≤ 0 → -(nch * (R + 1)) ≤ δ * nch ∧ δ * nch ≤ 0 := by
    intro δ h1 h2
    rw [abs_of_nonpos h2] at h1
    have h3 : -(R + 1) * nch ≤ δ * nch := mul_le_mul_of_nonneg_right (by omega) (le_of_lt hn)
    have h4 : -(R + 1) * nch = -(nch * (R + 1)) := by ring
    exact ⟨by omega, mul_nonpos_of_nonpos_of_nonneg h2 (le_of_lt hn)⟩
  obtain ⟨δ, f, e1, e2, _, e4, e5, e6⟩ := stepOn_any fp hfp (r := r) (R := R) (by rw [abs_of_neg hr0]; linarith [h.rateR]) hR2
    h.flt h.frac h.plain.cfOn (fun δ hδ _ h0 => by
      obtain ⟨q1, q2⟩ := hmulδ δ hδ (h0 (le_of_lt hr0))
      rw [h.chans]
      exact ⟨⟨by omega, by omega⟩, ⟨by omega, by omega⟩⟩)
  obtain ⟨q1, q2⟩ := hmulδ δ e2 (e4 (le_of_lt hr0))
  refine ⟨_, e1, ?_, rfl, ?_, ?_⟩
  · exact ⟨⟨h.plain.dual, h.plain.interp, h.plain.cfOn, h.plain.nch⟩, h.loop, h.rateF, h.rateR, e5, e6, h.chans, h.bottom, h.wrap,
      by simp only [h.chans]; omega, by simp only [h.chans]; omega⟩
  · simp only [h.chans]; omega
  · simp only [h.chans]; omega

/-- `x` is at most `k` steps of `st` before `q`, when everything below `s` is preceded by `t`; passing `s` at most once. -/
def Behind (s t st q : Int) (k : Nat) (x : Int) : Prop :=
  (x ≤ q ∧ q - k * st ≤ x) ∨ ∃ k1 k2 : Nat, k1 + k2 ≤ k ∧ q - k1 * st < s ∧ x ≤ t ∧ t - k2 * st ≤ x

theorem Behind.wrap {s t st q x : Int} {k n : Nat} (hst : 0 < st) (hq : s ≤ q) (hlong : s + n * st ≤ t) (hk : k ≤ n) (h : Behind s t st q k x) :
    Behind s t st q k (wrapDown s t x) := by
  unfold wrapDown
  split
  · rename_i he
    rcases h with ⟨h1, h2⟩ | ⟨k1, k2, h1, h2, h3, h4⟩
    · exact Or.inr ⟨k, 0, by omega, by omega, le_refl _, by simp⟩
    · exfalso
      have hk1 : 0 < k1 := by
        rcases Nat.eq_zero_or_pos k1 with rfl | h
        · simp only [Nat.cast_zero, zero_mul] at h2; omega
        · exact h
      have : (k2 : Int) * st < n * st := mul_lt_mul_of_pos_right (by omega) hst
      omega
  · exact h

theorem Behind.move {s t st q x y : Int} {k : Nat} (h : Behind s t st q k x) (h1 : y ≤ x) (h2 : x - st ≤ y) :
    Behind s t st q (k + 1) y := by
  rcases h with ⟨a, b⟩ | ⟨k1, k2, a, b, c, d⟩
  · exact Or.inl ⟨by omega, by push_cast; rw [add_mul, one_mul]; omega⟩
  · exact Or.inr ⟨k1, k2 + 1, by omega, b, by omega, by push_cast; rw [add_mul, one_mul]; omega⟩

theorem Behind.mono {s t st q x : Int} {k k' : Nat} (hst : 0 < st) (hk : k ≤ k') (h : Behind s t st q k x) : Behind s t st q k' x := by
  rcases h with ⟨a, b⟩ | ⟨k1, k2, a, b, c, d⟩
  · refine Or.inl ⟨a, ?_⟩
    have : (k : Int) * st ≤ k' * st := mul_le_mul_of_nonneg_right (by omega) (le_of_lt hst)
    omega
  · exact Or.inr ⟨k1, k2, by omega, b, c, d⟩

/-- The same for the last sample of a frame. -/
theorem Behind.shift {s t st q x o : Int} {k : Nat} (h : Behind s t st q k x) : Behind (s + o) (t + o) st (q + o) k (x + o) := by
  rcases h with ⟨a, b⟩ | ⟨k1, k2, a, b, c, d⟩
  · exact Or.inl ⟨by omega, by omega⟩
  · exact Or.inr ⟨k1, k2, a, by omega, by omega, by omega⟩

/-- An update that wraps around at most once. -/
theorem RepRev.visits (hfp : Representable fp) {R S P E nch : Int} (hR0 : 0 ≤ R) (hR2 : R ≤ 2 ^ 30) (hS : 0 ≤ S) (hE2 : E ≤ 2147483647) (hn : 0 < nch)
    (hfits : nch * (R + 1) ≤ 2147483647) (hSP : S ≤ P) (hPE : P + nch ≤ E) {T : Nat} {q0 : Int} (hq0 : S ≤ q0)
    (hlong : S + T * (nch * (R + 1)) ≤ P) : ∀ (n k : Nat) (r : Rd), k + n = T → RepRev fp R S P E nch r →
    Behind S P (nch * (R + 1)) q0 k (wrapDown S P r.pos1) →
    ∃ ps r', Visits fp n r ps r' ∧ RepRev fp R S P E nch r' ∧ r'.rate = r.rate ∧
      Behind S P (nch * (R + 1)) q0 (k + n) (wrapDown S P r'.pos1) ∧
      (n ≠ 0 → wrapDown S P r.pos1 ∈ ps) ∧
      (∀ p ∈ ps, S ≤ p ∧ p + nch ≤ E ∧ ∀ i, p ≤ i → i < p + nch → Behind (S + (nch - 1)) (P + (nch - 1)) (nch * (R + 1)) (q0 + (nch - 1)) (k + n) i)
  | 0, k, r, _, h, ha => ⟨[], r, .nil r, h, rfl, ha, fun h => absurd rfl h, fun p hp => by cases hp⟩
  | n + 1, k, r, hk, h, ha => by
    have hst : 0 < nch * (R + 1) := mul_pos hn (by omega)
    have hnst : nch ≤ nch * (R + 1) := le_mul_of_one_le_right (le_of_lt hn) (by omega)
    obtain ⟨r1, s1, s2, s3, s4, s5⟩ := h.settle hR0 hSP hPE
    obtain ⟨r2, t1, t2, t3, t4, t5⟩ := s2.step hfp hR2 hS hE2 hfits s5
    have a1 : Behind S P (nch * (R + 1)) q0 k r1.pos1 := by rw [s3]; exact ha
    obtain ⟨ps, r', k1, k2, k3, k4, _, k6⟩ := RepRev.visits hfp hR0 hR2 hS hE2 hn hfits hSP hPE hq0 hlong n (k + 1) r2 (by omega) t2
      ((a1.move t4 t5).wrap hst hq0 hlong (by omega))
    have hkn : k + (n + 1) = k + 1 + n := by omega
    rw [hkn]
    refine ⟨r1.pos1 :: ps, r', .cons s1 t1 k1, k2, by rw [k3, t3, s4], k4, fun _ => by rw [s3]; exact List.mem_cons_self, ?_⟩
    intro p hp
    rcases List.mem_cons.1 hp with rfl | hp
    · exact ⟨s5, s2.top, fun i h1 h2 => ((a1.shift (o := nch - 1)).move (by omega) (by omega)).mono hst (by omega)⟩
    · exact k6 p hp

/-- An update that may wrap around many times: it never goes above `hi`. -/
theorem RepRev.visits_in (hfp : Representable fp) {R S P E nch : Int} (hR0 : 0 ≤ R) (hR2 : R ≤ 2 ^ 30) (hS : 0 ≤ S) (hE2 : E ≤ 2147483647)
    (hfits : nch * (R + 1) ≤ 2147483647) (hSP : S ≤ P) (hPE : P + nch ≤ E) : ∀ (n : Nat) (r : Rd), RepRev fp R S P E nch r →
    ∃ ps r', Visits fp n r ps r' ∧ RepRev fp R S P E nch r' ∧ r'.rate = r.rate ∧ (∀ p ∈ ps, S ≤ p ∧ p + nch ≤ E)
  | 0, r, h => ⟨[], r, .nil r, h, rfl, fun p hp => by cases hp⟩
  | n + 1, r, h => by
    obtain ⟨r1, s1, s2, s3, s4, s5⟩ := h.settle hR0 hSP hPE
    obtain ⟨r2, t1, t2, t3, t4, t5⟩ := s2.step hfp hR2 hS hE2 hfits s5
    obtain ⟨ps, r', k1, k2, k3, k6⟩ := RepRev.visits_in hfp hR0 hR2 hS hE2 hfits hSP hPE n r2 t2
    refine ⟨r1.pos1 :: ps, r', .cons s1 t1 k1, k2, by rw [k3, t3, s4], ?_⟩
    intro p hp
    rcases List.mem_cons.1 hp with rfl | hp
    · exact ⟨s5, s2.top⟩
    · exact k6 p hp

/-- Steps back, counted in blocks: `e` is a sample in the block that follows the first one going backwards, at most `o` away from
`t`, and `b`, at most `o'` away from `s`, a sample in the last one. -/
theorem Behind.block {B s t st q x mm e b o : Int} {k : Nat} (hB : 0 < B) (hst : 0 < st) (hk : k * st + o ≤ mm * B) (ho : e - t + (s - b) ≤ o)
    (hte : t ≤ e) (hbs : b ≤ s) (h : Behind s t st q k x) (hq : b ≤ q) (hx : b ≤ x) :
    ∃ d, 0 ≤ d ∧ d ≤ mm + 2 ∧ x / B = rblk (b / B) (e / B) (q / B) d := by
  have h1 := Int.ediv_le_ediv hB hq
  have h2 := Int.ediv_le_ediv hB hx
  have hkst := mul_nonneg (Int.natCast_nonneg k) (le_of_lt hst)
  have hmm : 0 ≤ mm := by
    by_contra hcon
    have := mul_neg_of_neg_of_pos (show mm < 0 by omega) hB
    omega
  rcases h with ⟨a, c⟩ | ⟨k1, k2, a, c, d, f⟩
  · have h3 := Int.ediv_le_ediv hB a
    have h4 := ediv_sub_le hB (show k * st ≤ mm * B by omega) c
    refine ⟨q / B - x / B, by omega, by omega, ?_⟩
    unfold rblk; rw [if_pos (by omega)]; ring
  · have h3 := Int.ediv_le_ediv hB (show x ≤ e by omega)
    have e1 : (k1 : Int) * st + k2 * st ≤ k * st := by rw [← add_mul]; exact mul_le_mul_of_nonneg_right (by exact_mod_cast a) (le_of_lt hst)
    have h4 : q / B + e / B ≤ b / B + x / B + mm + 1 := by
      have g1 : q + e ≤ b + x + mm * B := by omega
      have := Int.mul_ediv_add_emod e B
      have := Int.mul_ediv_add_emod x B
      have := Int.mul_ediv_add_emod q B
      have := Int.mul_ediv_add_emod b B
      have := Int.emod_nonneg e (ne_of_gt hB)
      have := Int.emod_nonneg q (ne_of_gt hB)
      have := Int.emod_lt_of_pos x hB
      have := Int.emod_lt_of_pos b hB
      by_contra hcon
      have : B * (b / B + x / B + mm + 2) ≤ B * (q / B + e / B) := mul_le_mul_of_nonneg_left (by omega) (le_of_lt hB)
      rw [mul_add, mul_add, mul_add, mul_add, mul_comm B mm] at this
      omega
    refine ⟨(q / B - b / B) + 1 + (e / B - x / B), by omega, by omega, ?_⟩
    unfold rblk; rw [if_neg (by omega)]; ring

/-! ## Keeping up -/

/-- A loop at least as long as the buffers: the block of the reader's last channel is at most `mm + 2` before the first block of the
window.  `F` is the end of the loop. -/
structure LongBack (fp : Fp) (m : List Nat) (g : Geo) (mm R S P F E nch M : Int) (r : Rd) (c : Cache) : Prop where
  rd : RepRev fp R S P E nch r
  win : ∃ w δ, RLWin m g (S / g.B) (F / g.B) M c w ∧ 0 ≤ δ ∧ δ ≤ mm + 2 ∧
    (wrapDown S P r.pos1 + (nch - 1)) / g.B = rblk (S / g.B) (F / g.B) w δ

theorem LongBack.keepsUp (hfp : Representable fp) (hB : g.B < 16384) (hm : m.length < 2 ^ 31) {mm R S P F E nch M : Int}
    (hmm : 2 * mm + 5 ≤ g.N) (hR0 : 0 ≤ R) (hR2 : R ≤ 2 ^ 30) (hS : 0 ≤ S) (hSP : S ≤ P) (hn : 0 < nch) (hPF : P + nch ≤ F + 1) (hPE : P + nch ≤ E)
    (hfits : nch * (R + 1) ≤ 2147483647) {o : Int} (hadv : 128 * (nch * (R + 1)) + o ≤ mm * g.B) (ho : F - P ≤ o)
    (hE : 2 * E ≤ m.length) (hmax : (M + 1) * g.B ≤ 2147483647)
    {fuel : Nat} (hf : g.N ≤ fuel) : KeepsUp fp m g fuel (LongBack fp m g mm R S P F E nch M) := by
  intro r c h
  obtain ⟨hr, w, δ, hw, hδ0, hδ1, hpos⟩ := h
  have hB0 : (0 : Int) < g.B := by exact_mod_cast g.B_pos
  have hst : 0 < nch * (R + 1) := mul_pos hn (by omega)
  have hlen := hw.conf.len
  have hsw := hw.conf.sw
  have ho0 : 0 ≤ o := by omega
  generalize hsd : S / (g.B : Int) = s at *
  generalize hfd : F / (g.B : Int) = f at *
  have hadv' : ((blockSamples : Nat) : Int) * (nch * (R + 1)) + o ≤ mm * g.B := hadv
  -- the loop is longer than an update
  have hlong : S + (blockSamples : Nat) * (nch * (R + 1)) ≤ P := by
    have h1 : f * g.B ≤ F := by rw [← hfd]; exact Int.ediv_mul_le _ (ne_of_gt hB0)
    have h2 : S < (s + 1) * g.B := by rw [← hsd]; exact Int.lt_ediv_add_one_mul_self _ hB0
    have h3 : (s + 1 + mm) * g.B ≤ f * g.B := mul_le_mul_of_nonneg_right (by omega) (le_of_lt hB0)
    rw [add_mul] at h3
    omega
  obtain ⟨q0, hq0d⟩ : ∃ q0, q0 = wrapDown S P r.pos1 := ⟨_, rfl⟩
  have hwr : ∀ x, S ≤ wrapDown S P x := by intro x; unfold wrapDown; split <;> omega
  have hq0 : S ≤ q0 := by rw [hq0d]; exact hwr _
  obtain ⟨ps, r', v1, v2, v3, v4, v5, v6⟩ := RepRev.visits hfp hR0 hR2 hS (by omega) hn hfits hSP hPE hq0 hlong blockSamples 0 r (by omega) hr
    (Or.inl ⟨by rw [hq0d], by rw [hq0d]; simp⟩)
  rw [zero_add] at v4 v6
  rw [← hq0d] at hpos
  have hblk : ∀ x, Behind (S + (nch - 1)) (P + (nch - 1)) (nch * (R + 1)) (q0 + (nch - 1)) blockSamples x → S ≤ x →
      ∃ d, 0 ≤ d ∧ d ≤ mm + 2 ∧ x / g.B = rblk s f w (δ + d) ∧ x / g.B = rblk s f (rblk s f w δ) d := by
    intro x hx hxS
    obtain ⟨d, d0, d1, e⟩ := hx.block (e := F) (b := S) hB0 hst hadv' (by omega) (by omega) (by omega) (by omega) hxS
    rw [hsd, hfd, hpos] at e
    exact ⟨d, d0, d1, by rw [e, rblk_rblk (by omega) d0], e⟩
  have hrd := v5 (by decide)
  rw [← hq0d] at hrd
  have hidx : ∀ i ∈ framesIdx r.nch ps, InFile m i ∧ ∃ j : Int, ((δ.toNat : Nat) : Int) ≤ j ∧ j < g.N ∧ i / g.B = rblk s f w j := by
    intro i hi
    obtain ⟨p, hp, q1, q2⟩ := mem_framesIdx.1 hi
    rw [hr.chans] at q2
    obtain ⟨e1, e2, e3⟩ := v6 p hp
    obtain ⟨d, d0, d1, e, _⟩ := hblk i (e3 i q1 (by omega)) (by omega)
    exact ⟨⟨by omega, by omega⟩, δ + d, by omega, by omega, e⟩
  obtain ⟨c1, c2⟩ := hw.round hB (by omega) hmax (is := framesIdx r.nch ps) (δ := δ.toNat) hidx
    ⟨q0 + (nch - 1), mem_framesIdx.2 ⟨q0, hrd, by omega, by rw [hr.chans]; omega⟩, by rw [Int.toNat_of_nonneg hδ0]; exact hpos⟩
  obtain ⟨c', c3, c4⟩ := c2 fuel (fp.f.rnd r'.rate) hf v2.rateF
  refine ⟨hr.plain, hw.reached, ps, r', c', v1, fun i hi => ⟨(hidx i hi).1, c1 i hi⟩, c3, v2, ?_⟩
  rw [Int.toNat_of_nonneg hδ0] at c4
  obtain ⟨d, d0, d1, _, e⟩ := hblk _ (v4.shift (o := nch - 1)) (by have := hwr r'.pos1; omega)
  rw [hsd, hfd]
  exact ⟨rblk s f w δ, d, c4, d0, d1, e⟩

/-- A loop no longer than the buffers, which hold all of it and the block of its end. -/
structure ShortBack (fp : Fp) (m : List Nat) (g : Geo) (R S P F E nch M : Int) (r : Rd) (c : Cache) : Prop where
  rd : RepRev fp R S P E nch r
  win : ∃ w, RLWin m g (F / g.B - g.N + 1) (F / g.B) M c w ∧ w ≤ F / g.B

theorem ShortBack.keepsUp (hfp : Representable fp) (hB : g.B < 16384) (hm : m.length < 2 ^ 31) {R S P F E nch M : Int}
    (hR0 : 0 ≤ R) (hR2 : R ≤ 2 ^ 30) (hS : 0 ≤ S) (hSP : S ≤ P) (hPE : P + nch ≤ E)
    (hfits : nch * (R + 1) ≤ 2147483647) (hE : 2 * E ≤ m.length) (hEF : E ≤ (F / g.B + 1) * g.B) (hmax : (M + 1) * g.B ≤ 2147483647)
    (hshort : F / g.B - g.N + 1 ≤ S / g.B)
    {fuel : Nat} (hf : g.N ≤ fuel) : KeepsUp fp m g fuel (ShortBack fp m g R S P F E nch M) := by
  intro r c h
  obtain ⟨hr, w, hw, hwf⟩ := h
  have hB0 : (0 : Int) < g.B := by exact_mod_cast g.B_pos
  have hsw := hw.conf.sw
  have hs0 := hw.conf.s0
  obtain ⟨ps, r', v1, v2, v3, v6⟩ := RepRev.visits_in hfp hR0 hR2 hS (by omega) hfits hSP hPE blockSamples r hr
  generalize hfd : F / (g.B : Int) = f at *
  obtain ⟨s, hs⟩ : ∃ s, s = f - g.N + 1 := ⟨_, rfl⟩
  rw [← hs] at hw hsw hs0 hshort
  have hidx0 : ∀ i ∈ framesIdx r.nch ps, InFile m i ∧ s ≤ i / g.B ∧ i / g.B ≤ f := by
    intro i hi
    obtain ⟨p, hp, q1, q2⟩ := mem_framesIdx.1 hi
    rw [hr.chans] at q2
    obtain ⟨e1, e2⟩ := v6 p hp
    refine ⟨⟨by omega, by omega⟩, le_trans hshort (Int.ediv_le_ediv hB0 (by omega)), ?_⟩
    have : i / g.B < f + 1 := by rw [Int.ediv_lt_iff_lt_mul hB0]; omega
    omega
  have hd : ∀ x, s ≤ x → x ≤ f → 0 ≤ rdist s f w x ∧ rdist s f w x < g.N ∧ x = rblk s f w (rdist s f w x) := by
    intro x h1 h2
    unfold rdist rblk
    split <;> split <;> omega
  have hne : framesIdx r.nch ps ≠ [] := by
    have := v1.length
    cases ps with
    | nil => simp [blockSamples] at this
    | cons p ps => exact List.ne_nil_of_mem (mem_framesIdx.2 ⟨p, List.mem_cons_self, le_refl p, by have := hr.plain.nch; omega⟩)
  obtain ⟨i0, hi0, hmin⟩ := exists_min (fun i => rdist s f w (i / g.B)) _ hne
  obtain ⟨x1, x2, x3⟩ := hidx0 i0 hi0
  obtain ⟨y1, y2, y3⟩ := hd _ x2 x3
  obtain ⟨c1, c2⟩ := hw.round hB (by omega) hmax (is := framesIdx r.nch ps) (δ := (rdist s f w (i0 / g.B)).toNat)
    (fun i hi => by
      obtain ⟨z1, z2, z3⟩ := hidx0 i hi
      obtain ⟨u1, u2, u3⟩ := hd _ z2 z3
      have := hmin i hi
      exact ⟨z1, _, by omega, u2, u3⟩)
    ⟨i0, hi0, by rw [Int.toNat_of_nonneg y1]; exact y3⟩
  obtain ⟨c', c3, c4⟩ := c2 fuel (fp.f.rnd r'.rate) hf v2.rateF
  rw [Int.toNat_of_nonneg y1, ← y3] at c4
  refine ⟨hr.plain, hw.reached, ps, r', c', v1, fun i hi => ⟨(hidx0 i hi).1, c1 i hi⟩, c3, v2, ?_⟩
  rw [hfd, ← hs]; exact ⟨_, c4, x3⟩

/-! ## Starting -/

/-- What `play(filename)` leaves behind when it succeeds, for a loop repeated backwards. -/
theorem playFinish_back (hm : m.length < 2 ^ 31) {r : Rd} {f : Dev} (hf : f.bytes = m) (hsz : r.fileSize = m.length)
    (hH : 0 ≤ r.header) (hn : 0 < r.nch) (hd : r.dual = false) (hi : r.interp = .none)
    (hl : r.loopType = .repeat) {R : Int} (hRn : 0 ≤ R) (hR0 : fp.f.rnd r.rate < 0) (hR : -R ≤ r.rate) (hflt : IsFloat 53 (-1074) r.rem) (hfrac : |r.rem| < 1)
    (hA : 0 ≤ r.loopStart) (hAs : r.playStart = .sample → r.loopStart = 0) (hAZ : r.loopStart + r.nch ≤ r.loopFinish)
    (hE : 2 * (r.header + r.loopFinish * r.nch) ≤ m.length) {P0 E : Int} (hP : backStart r ((m.length : Int) / 2) r.loopFinish = P0)
    (hP0 : r.header + r.loopStart * r.nch ≤ P0) (hPE : P0 + r.nch ≤ E) (hE0 : 2 * E ≤ m.length) :
    ∃ (a : FileReader) (c : Cache), playFinish g r f = .ok (true, a) ∧ a.rd.playing = true ∧
      RepRev fp R (r.header + r.loopStart * r.nch) (r.header + (r.loopFinish - r.nch) * r.nch) E r.nch a.rd ∧
      a.rd.pos1 = P0 ∧ a.rd.header = r.header ∧ a.rd.loopStart = r.loopStart ∧ a.rd.loopFinish = r.loopFinish ∧
      a.rd.rate = r.rate ∧ a.rd.rem = r.rem ∧ a.src = some (c.preLoad g P0 false) ∧
      c.dev.bytes = m ∧ c.bufs = [] ∧ c.fails = 0 ∧ c.loopType = .repeat ∧ c.loopStartBlk = (r.header + r.loopStart * r.nch) / g.B ∧
      c.loopFinishBlk = (r.header + r.loopFinish * r.nch) / g.B := by
  have hB0 : (0 : Int) < g.B := by exact_mod_cast g.B_pos
  have hr0 : r.rate < 0 := by
    by_contra hc
    exact absurd (fp.f.nonneg (not_lt.1 hc)) (not_le.2 hR0)
  have hnR : 0 ≤ r.nch * (R + 1) := mul_nonneg (le_of_lt hn) (by omega)
  have hle : ∀ x, x ≤ r.loopFinish → x * r.nch ≤ r.loopFinish * r.nch := fun x hx => mul_le_mul_of_nonneg_right hx (le_of_lt hn)
  have hge : ∀ x, 0 ≤ x → 0 ≤ x * r.nch := fun x hx => mul_nonneg hx (le_of_lt hn)
  have hone : r.loopFinish ≤ r.loopFinish * r.nch := le_mul_of_one_le_right (by omega) (by omega)
  have hZ1 : (0 + 1) * r.nch ≤ r.loopFinish * r.nch := hle _ (by omega)
  have hA1 := hge _ hA
  unfold playFinish
  rw [hsz, if_neg (by unfold u32; omega), if_neg (by omega)]
  simp only [hl, reduceCtorEq, if_false]
  set rd0 : Rd := { r with fileSize := m.length, loopType := .repeat, fileSamples := r.fileSamples.tdiv r.nch, loopStart := i32 r.loopStart, loopFinish := i32 r.loopFinish } with hrd0
  have hA32 : i32 r.loopStart = r.loopStart := i32_of_in ⟨by omega, by omega⟩
  have hZ32 : i32 r.loopFinish = r.loopFinish := i32_of_in ⟨by omega, by omega⟩
  have hpos : ∀ x, 0 ≤ x → x ≤ r.loopFinish → i32 (rd0.s2s x) = r.header + x * r.nch := by
    intro x h1 h2
    have := hle x h2
    have := hge x h1
    have e : rd0.posOf x = rd0.header + x * rd0.nch := posOf_eq ⟨by show -2147483648 ≤ r.header + x * r.nch; omega, by show r.header + x * r.nch ≤ 2147483647; omega⟩
    exact e
  have hp : rd0.reset.pos1 = P0 := by
    unfold Rd.reset
    have h0' : ¬ (rd0.rate ≥ 0) := not_le.2 hr0
    simp only [h0', if_false]
    have hpos : ∀ y, r.header + y * r.nch = P0 → Rd.posOf { rd0 with pts := fun c => if c < 8 then { rd0.pts c with n := 0 } else rd0.pts c } y = P0 := by
      intro y hy
      rw [posOf_eq (r := { rd0 with pts := fun c => if c < 8 then { rd0.pts c with n := 0 } else rd0.pts c })
        ⟨by show -2147483648 ≤ r.header + y * r.nch; omega, by show r.header + y * r.nch ≤ 2147483647; omega⟩]
      exact hy
    unfold backStart at hP
    have hps : rd0.playStart = r.playStart := rfl
    rw [hps]
    cases hstart : r.playStart with
    | sample =>
      rw [hstart] at hP
      simp only at hP ⊢
      show i32 ((m.length : Int).tdiv 2 - r.nch) = P0
      rw [Int.tdiv_eq_ediv_of_nonneg (by omega), i32_of_in ⟨by omega, by omega⟩]
      exact hP
    | loop =>
      rw [hstart] at hP
      exact hpos (i32 r.loopFinish - r.nch) (by rw [hZ32]; exact hP)
    | arbitrary =>
      rw [hstart] at hP
      exact hpos _ hP
  refine ⟨⟨{ rd0.reset with playing := true }, some (Cache.preLoad g { dev := f, loopType := .repeat, loopStartBlk := i32 (rd0.s2s (i32 r.loopStart)) / g.B, loopFinishBlk := i32 (rd0.s2s (i32 r.loopFinish)) / g.B } P0 false)⟩,
    { dev := f, loopType := .repeat, loopStartBlk := i32 (rd0.s2s (i32 r.loopStart)) / g.B, loopFinishBlk := i32 (rd0.s2s (i32 r.loopFinish)) / g.B }, ?_, rfl, ?_, hp, rfl, hA32, hZ32, rfl, rfl, rfl, hf, rfl, rfl, rfl, ?_, ?_⟩
  · have e : Cache.preLoad g { dev := f, loopType := .repeat, loopStartBlk := i32 (rd0.s2s (i32 r.loopStart)) / g.B, loopFinishBlk := i32 (rd0.s2s (i32 r.loopFinish)) / g.B } P0 false =
        Cache.preLoad g { dev := f, loopType := .repeat, loopStartBlk := i32 (rd0.s2s (i32 r.loopStart)) / g.B, loopFinishBlk := i32 (rd0.s2s (i32 r.loopFinish)) / g.B } rd0.reset.pos1 (decide (rd0.reset.rate ≥ 0)) := by
      rw [hp, decide_eq_false (show ¬ (rd0.reset.rate ≥ 0) from not_le.2 hr0)]
    rw [e]; rfl
  · refine ⟨⟨hd, hi, rfl, hn⟩, rfl, hR0, hR, hflt, hfrac, rfl, ?_, ?_, by simp only [hp]; exact hPE, by simp only [hp]; omega⟩
    · show (if r.playStart = .sample then r.header else i32 (rd0.s2s (i32 r.loopStart))) = _
      split
      · rename_i hs; rw [hAs hs]; ring
      · rw [hA32, hpos _ hA (by omega)]
    · show i32 (rd0.s2s (i32 r.loopFinish - r.nch)) = _
      rw [hZ32, hpos _ (by omega) (by omega)]
  · simp only; rw [hA32, hpos _ hA (by omega)]
  · simp only; rw [hZ32, hpos _ (by omega) (le_refl _)]

end TVP
