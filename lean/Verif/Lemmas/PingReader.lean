import Verif.Lemmas.LoopStreamRev

/-!
# A reader going to and fro in a ping-pong loop
-/

namespace TVP
open Spec

variable {m : List Nat} {g : Geo} {fp : Fp}

/-- A plain reader going to and fro between the samples `S` and `E` at any rate up to `R`: at `E` it turns and goes on from `P`,
below `S` it turns and goes on from `S`.  It may have started outside, from `S0` on or below `X`. -/
structure PP (R S P E S0 X nch : Int) (r : Rd) : Prop where
  plain : Plain r
  loop : r.loopType = .pingpong
  rate0 : r.rate ≠ 0
  rateR : |r.rate| ≤ R
  flt : IsFloat 53 (-1074) r.rem
  frac : |r.rem| < 1
  chans : r.nch = nch
  bottom : (if r.playStart = .sample then r.header else r.posOf r.loopStart) = S
  wrap : r.posOf (r.loopFinish - r.nch) = P
  top : r.posOf r.loopFinish = E
  grid : nch ∣ r.pos1 - S
  fwd : 0 < r.rate → S0 ≤ r.pos1 ∧ r.pos1 ≤ E + nch * (R + 1)
  bwd : r.rate < 0 → S - nch * (R + 1) ≤ r.pos1 ∧ r.pos1 + nch ≤ X

/-- Where a reader reads next, and in which direction it goes on from there. -/
def Now (S P E : Int) (r : Rd) (up : Bool) (x : Int) : Prop :=
  (up = true ∧ 0 < r.rate ∧ r.pos1 < E ∧ x = r.pos1) ∨ (up = false ∧ 0 < r.rate ∧ E ≤ r.pos1 ∧ x = P) ∨
  (up = false ∧ r.rate < 0 ∧ S ≤ r.pos1 ∧ x = r.pos1) ∨ (up = true ∧ r.rate < 0 ∧ r.pos1 < S ∧ x = S)

/-- The numbers of a loop. -/
structure PPNum (R S P E S0 X nch : Int) : Prop where
  R0 : 0 ≤ R
  R2 : R ≤ 2 ^ 30
  n0 : 0 < nch
  S00 : 0 ≤ S0
  S0S : S0 ≤ S
  SP : S ≤ P
  PE : P + nch ≤ E
  EX : E ≤ X
  gP : nch ∣ P - S
  gE : nch ∣ E - S
  X2 : X + nch * (R + 1) ≤ 2147483647

/-- On the grid of frames, below the end of the loop means that the whole frame is. -/
theorem PPNum.fits {R S P E S0 X nch : Int} (hN : PPNum R S P E S0 X nch) {x : Int} (hg : nch ∣ x - S) (h : x < E) : x + nch ≤ E := by
  have h1 : nch ∣ E - x := by have := dvd_sub hN.gE hg; rwa [show E - S - (x - S) = E - x by ring] at this
  have := Int.le_of_dvd (by omega) h1
  omega

theorem PP.now {R S P E S0 X nch : Int} {r : Rd} (h : PP R S P E S0 X nch r) : ∃ up x, Now S P E r up x := by
  rcases lt_or_gt_of_ne h.rate0 with h0 | h0
  · by_cases h1 : r.pos1 < S
    · exact ⟨true, S, Or.inr (Or.inr (Or.inr ⟨rfl, h0, h1, rfl⟩))⟩
    · exact ⟨false, r.pos1, Or.inr (Or.inr (Or.inl ⟨rfl, h0, by omega, rfl⟩))⟩
  · by_cases h1 : r.pos1 < E
    · exact ⟨true, r.pos1, Or.inl ⟨rfl, h0, h1, rfl⟩⟩
    · exact ⟨false, P, Or.inr (Or.inl ⟨rfl, h0, by omega, rfl⟩)⟩

/-- The reader where it reads next. -/
theorem PP.settle {R S P E S0 X nch : Int} (hN : PPNum R S P E S0 X nch) {r : Rd} (h : PP R S P E S0 X nch r) {u : Bool} {x : Int}
    (hx : Now S P E r u x) :
    ∃ r1, Settles r r1 ∧ PP R S P E S0 X nch r1 ∧ r1.pos1 = x ∧ |r1.rate| = |r.rate| ∧
      ((u = true ∧ 0 < r1.rate ∧ S0 ≤ x ∧ x + nch ≤ E) ∨ (u = false ∧ r1.rate < 0 ∧ S ≤ x ∧ x + nch ≤ X)) := by
  obtain ⟨hR0, hR2, hn, hS00, hS0S, hSP, hPE, hEX, hgP, hgE, hX2⟩ := hN
  have hN : PPNum R S P E S0 X nch := ⟨hR0, hR2, hn, hS00, hS0S, hSP, hPE, hEX, hgP, hgE, hX2⟩
  have hnR : 0 ≤ nch * (R + 1) := mul_nonneg (le_of_lt hn) (by omega)
  have hup : ∀ r', PP R S P E S0 X nch r' → 0 < r'.rate → r'.atEnd = decide (r'.pos1 ≥ E) := by
    intro r' h' h0
    unfold Rd.atEnd
    simp only [h'.plain.dual, Bool.false_eq_true, if_false, ge_iff_le, le_of_lt h0, if_true, h'.loop, reduceCtorEq, h'.top]
  have hdn : ∀ r', PP R S P E S0 X nch r' → r'.rate < 0 → r'.atEnd = decide (r'.pos1 < S) := by
    intro r' h' h0
    have hb := h'.bottom
    unfold Rd.atEnd
    simp only [h'.plain.dual, Bool.false_eq_true, if_false, ge_iff_le, not_le.2 h0]
    split at hb <;> rename_i hs <;> simp only [hs, if_true, if_false, hb]
  rcases hx with ⟨rfl, h0, h1, rfl⟩ | ⟨rfl, h0, h1, rfl⟩ | ⟨rfl, h0, h1, rfl⟩ | ⟨rfl, h0, h1, rfl⟩
  · exact ⟨r, Or.inl ⟨by rw [hup r h h0]; simpa using h1, rfl⟩, h, rfl, rfl, Or.inl ⟨rfl, h0, (h.fwd h0).1, hN.fits h.grid h1⟩⟩
  · set r1 : Rd := { r with cfOn := false, pos1 := x, rate := -r.rate } with hr1
    have h0' : r1.rate < 0 := by show -r.rate < 0; linarith
    have hp1 : PP R S x E S0 X nch r1 :=
      ⟨⟨h.plain.dual, h.plain.interp, rfl, h.plain.nch⟩, h.loop, ne_of_lt h0', by rw [show r1.rate = -r.rate from rfl, abs_neg]; exact h.rateR,
        h.flt, h.frac, h.chans, h.bottom, h.wrap, h.top, hgP, fun h2 => absurd h2 (not_lt.2 (le_of_lt h0')),
        fun _ => ⟨by show S - nch * (R + 1) ≤ x; omega, by show x + nch ≤ X; omega⟩⟩
    refine ⟨r1, Or.inr ⟨by rw [hup r h h0]; simpa using h1, ?_, ?_⟩, hp1, rfl, by rw [show r1.rate = -r.rate from rfl, abs_neg],
      Or.inr ⟨rfl, h0', hSP, by omega⟩⟩
    · unfold wrapAround
      simp only [h.loop, ge_iff_le, le_of_lt h0, if_true]
      rw [hr1, ← h.wrap]
      simp only [h.loop]; rfl
    · rw [hdn r1 hp1 h0']; show decide (x < S) = false; simpa using hSP
  · exact ⟨r, Or.inl ⟨by rw [hdn r h h0]; simpa using h1, rfl⟩, h, rfl, rfl, Or.inr ⟨rfl, h0, h1, (h.bwd h0).2⟩⟩
  · set r1 : Rd := { r with cfOn := false, pos1 := x, rate := -r.rate } with hr1
    have h0' : 0 < r1.rate := by show 0 < -r.rate; linarith
    have hp1 : PP R x P E S0 X nch r1 :=
      ⟨⟨h.plain.dual, h.plain.interp, rfl, h.plain.nch⟩, h.loop, ne_of_gt h0', by rw [show r1.rate = -r.rate from rfl, abs_neg]; exact h.rateR,
        h.flt, h.frac, h.chans, h.bottom, h.wrap, h.top, by show nch ∣ x - x; simp, 
        fun _ => ⟨hS0S, by show x ≤ E + nch * (R + 1); omega⟩, fun h2 => absurd h2 (not_lt.2 (le_of_lt h0'))⟩
    refine ⟨r1, Or.inr ⟨by rw [hdn r h h0]; simpa using h1, ?_, ?_⟩, hp1, rfl, by rw [show r1.rate = -r.rate from rfl, abs_neg],
      Or.inl ⟨rfl, h0', hS0S, by omega⟩⟩
    · unfold wrapAround
      simp only [h.loop, ge_iff_le, not_le.2 h0, if_false]
      rw [hr1, ← h.bottom]
      simp only [h.loop]; rfl
    · rw [hup r1 hp1 h0']; show decide (x ≥ E) = false; simp only [ge_iff_le, decide_eq_false_iff_not]; omega

/-- One step from there. -/
theorem PP.step (hfp : Representable fp) {R S P E S0 X nch : Int} (hN : PPNum R S P E S0 X nch) {r : Rd} (h : PP R S P E S0 X nch r)
    (hin : (0 < r.rate ∧ r.pos1 + nch ≤ E) ∨ (r.rate < 0 ∧ S ≤ r.pos1)) :
    ∃ r2, stepOn fp r = .ok r2 ∧ PP R S P E S0 X nch r2 ∧ r2.rate = r.rate ∧
      (0 < r.rate → r.pos1 ≤ r2.pos1 ∧ r2.pos1 ≤ r.pos1 + nch * (R + 1)) ∧ (r.rate < 0 → r2.pos1 ≤ r.pos1 ∧ r.pos1 - nch * (R + 1) ≤ r2.pos1) := by
  obtain ⟨hR0, hR2, hn, hS00, hS0S, hSP, hPE, hEX, hgP, hgE, hX2⟩ := hN
  have hnR : 0 ≤ nch * (R + 1) := mul_nonneg (le_of_lt hn) (by omega)
  have hmul : ∀ δ : Int, |δ| ≤ R + 1 → -(nch * (R + 1)) ≤ δ * nch ∧ δ * nch ≤ nch * (R + 1) := by
    intro δ h1
    obtain ⟨h2, h3⟩ := abs_le.1 h1
    have h4 : -(R + 1) * nch ≤ δ * nch := mul_le_mul_of_nonneg_right h2 (le_of_lt hn)
    have h5 : δ * nch ≤ (R + 1) * nch := mul_le_mul_of_nonneg_right h3 (le_of_lt hn)
    have h6 : -(R + 1) * nch = -(nch * (R + 1)) := by ring
    have h7 : (R + 1) * nch = nch * (R + 1) := by ring
    exact ⟨by omega, by omega⟩
  have hlow : 0 ≤ r.pos1 ∧ r.pos1 ≤ X := by
    rcases hin with ⟨h0, h1⟩ | ⟨h0, h1⟩
    · have := (h.fwd h0).1; exact ⟨by omega, by omega⟩
    · have := (h.bwd h0).2; exact ⟨by omega, by omega⟩
  obtain ⟨δ, f, e1, e2, e3, e4, e5, e6⟩ := stepOn_any fp hfp (r := r) (R := R) h.rateR hR2
    h.flt h.frac h.plain.cfOn (fun δ hδ _ _ => by
      obtain ⟨q1, q2⟩ := hmul δ hδ
      rw [h.chans]
      exact ⟨⟨by omega, by omega⟩, ⟨by omega, by omega⟩⟩)
  obtain ⟨q1, q2⟩ := hmul δ e2
  have hp : ({ r with rem := f, pos1 := r.pos1 + δ * r.nch } : Rd).pos1 = r.pos1 + δ * nch := by rw [← h.chans]
  have hpos : 0 < r.rate → 0 ≤ δ * nch := fun h0 => mul_nonneg (e3 (le_of_lt h0)) (le_of_lt hn)
  have hneg : r.rate < 0 → δ * nch ≤ 0 := fun h0 => mul_nonpos_of_nonpos_of_nonneg (e4 (le_of_lt h0)) (le_of_lt hn)
  refine ⟨_, e1, ?_, rfl, ?_, ?_⟩
  · refine ⟨⟨h.plain.dual, h.plain.interp, h.plain.cfOn, h.plain.nch⟩, h.loop, h.rate0, h.rateR, e5, e6, h.chans, h.bottom, h.wrap, h.top, ?_, ?_, ?_⟩
    · rw [hp, show r.pos1 + δ * nch - S = (r.pos1 - S) + δ * nch by ring]
      exact dvd_add h.grid (Dvd.intro_left _ rfl)
    · intro h0
      rw [hp]
      have := hpos h0
      have := (h.fwd h0).1
      rcases hin with ⟨_, h1⟩ | ⟨h1, _⟩
      · exact ⟨by omega, by omega⟩
      · exact absurd (show 0 < r.rate from h0) (not_lt.2 (le_of_lt h1))
    · intro h0
      rw [hp]
      have := hneg h0
      have := (h.bwd h0).2
      rcases hin with ⟨h1, _⟩ | ⟨_, h1⟩
      · exact absurd (show r.rate < 0 from h0) (not_lt.2 (le_of_lt h1))
      · exact ⟨by omega, by omega⟩
  · intro h0; rw [hp]; have := hpos h0; exact ⟨by omega, by omega⟩
  · intro h0; rw [hp]; have := hneg h0; exact ⟨by omega, by omega⟩

/-! ## Where an update reads -/

/-- Where a reader going up from `x` can be after `k` steps of at most `st`, turning at most once. -/
def FoldUp (P E st x : Int) (k : Nat) (u : Bool) (y : Int) : Prop :=
  (u = true ∧ x ≤ y ∧ y ≤ x + k * st) ∨ (u = false ∧ y ≤ P ∧ ∃ k1 k2 : Nat, k1 + k2 ≤ k ∧ E ≤ x + k1 * st ∧ P - k2 * st ≤ y)

/-- Where a reader going down from `x` can be after `k` steps of at most `st`, turning at most once. -/
def FoldDown (S st x : Int) (k : Nat) (u : Bool) (y : Int) : Prop :=
  (u = false ∧ y ≤ x ∧ x - k * st ≤ y) ∨ (u = true ∧ S ≤ y ∧ ∃ k1 k2 : Nat, k1 + k2 ≤ k ∧ x - k1 * st < S ∧ y ≤ S + k2 * st)

/-- The next position after a step up, or after a step down above the start of the loop. -/
theorem FoldUp.next {S P E st x y : Int} {k T : Nat} {u : Bool} (hst : 0 < st) (hlong : S + T * st ≤ P) (hk : k < T) (hxE : x < E)
    (hf : FoldUp P E st x k u y) {r2 : Rd}
    (hu : (u = true ∧ 0 < r2.rate ∧ y ≤ r2.pos1 ∧ r2.pos1 ≤ y + st) ∨ (u = false ∧ r2.rate < 0 ∧ r2.pos1 ≤ y ∧ y - st ≤ r2.pos1)) :
    ∃ u' y', Now S P E r2 u' y' ∧ FoldUp P E st x (k + 1) u' y' ∧ (u' = false → y' = P ∨ u = false) ∧ (u' = true → u = true ∧ y ≤ y') := by
  rcases hf with ⟨rfl, a1, a2⟩ | ⟨rfl, a1, k1, k2, a2, a3, a4⟩
  · rcases hu with ⟨_, b1, b2, b3⟩ | ⟨h, _⟩
    · have hs : ((k + 1 : Nat) : Int) * st = k * st + st := by push_cast; ring
      by_cases hE : r2.pos1 < E
      · exact ⟨true, r2.pos1, Or.inl ⟨rfl, b1, hE, rfl⟩, Or.inl ⟨rfl, by omega, by omega⟩, fun h => (by cases h), fun _ => ⟨rfl, b2⟩⟩
      · exact ⟨false, P, Or.inr (Or.inl ⟨rfl, b1, by omega, rfl⟩), Or.inr ⟨rfl, le_refl _, k + 1, 0, by omega, by omega, by simp⟩,
          fun _ => Or.inl rfl, fun h => by cases h⟩
    · cases h
  · rcases hu with ⟨h, _⟩ | ⟨_, b1, b2, b3⟩
    · cases h
    · have hk1 : 0 < k1 := by
        rcases Nat.eq_zero_or_pos k1 with rfl | h
        · simp only [Nat.cast_zero, zero_mul] at a3; omega
        · exact h
      have hs : ((k2 + 1 : Nat) : Int) * st = k2 * st + st := by push_cast; ring
      have hle : ((k2 + 1 : Nat) : Int) * st ≤ T * st := mul_le_mul_of_nonneg_right (by omega) (le_of_lt hst)
      exact ⟨false, r2.pos1, Or.inr (Or.inr (Or.inl ⟨rfl, b1, by omega, rfl⟩)), Or.inr ⟨rfl, by omega, k1, k2 + 1, by omega, a3, by omega⟩,
        fun _ => Or.inr rfl, fun h => by cases h⟩

theorem FoldDown.next {S P E st x y : Int} {k T : Nat} {u : Bool} (hst : 0 < st) (hlong : S + T * st ≤ P) (hPE : P < E) (hk : k < T) (hxS : S ≤ x)
    (hf : FoldDown S st x k u y) {r2 : Rd}
    (hu : (u = true ∧ 0 < r2.rate ∧ y ≤ r2.pos1 ∧ r2.pos1 ≤ y + st) ∨ (u = false ∧ r2.rate < 0 ∧ r2.pos1 ≤ y ∧ y - st ≤ r2.pos1)) :
    ∃ u' y', Now S P E r2 u' y' ∧ FoldDown S st x (k + 1) u' y' ∧ (u' = true → y' = S ∨ u = true) ∧ (u' = false → u = false ∧ y' ≤ y) := by
  rcases hf with ⟨rfl, a1, a2⟩ | ⟨rfl, a1, k1, k2, a2, a3, a4⟩
  · rcases hu with ⟨h, _⟩ | ⟨_, b1, b2, b3⟩
    · cases h
    · have hs : ((k + 1 : Nat) : Int) * st = k * st + st := by push_cast; ring
      by_cases hE : r2.pos1 < S
      · exact ⟨true, S, Or.inr (Or.inr (Or.inr ⟨rfl, b1, hE, rfl⟩)), Or.inr ⟨rfl, le_refl _, k + 1, 0, by omega, by omega, by simp⟩,
          fun _ => Or.inl rfl, fun h => by cases h⟩
      · exact ⟨false, r2.pos1, Or.inr (Or.inr (Or.inl ⟨rfl, b1, by omega, rfl⟩)), Or.inl ⟨rfl, by omega, by omega⟩,
          fun h => (by cases h), fun _ => ⟨rfl, b2⟩⟩
  · rcases hu with ⟨_, b1, b2, b3⟩ | ⟨h, _⟩
    · have hk1 : 0 < k1 := by
        rcases Nat.eq_zero_or_pos k1 with rfl | h
        · simp only [Nat.cast_zero, zero_mul] at a3; omega
        · exact h
      have hs : ((k2 + 1 : Nat) : Int) * st = k2 * st + st := by push_cast; ring
      have hle : ((k2 + 1 : Nat) : Int) * st ≤ T * st := mul_le_mul_of_nonneg_right (by omega) (le_of_lt hst)
      exact ⟨true, r2.pos1, Or.inl ⟨rfl, b1, by omega, rfl⟩, Or.inr ⟨rfl, by omega, k1, k2 + 1, by omega, a3, by omega⟩,
        fun _ => Or.inr rfl, fun h => by cases h⟩
    · cases h

theorem FoldUp.mono {P E st x y : Int} {k k' : Nat} {u : Bool} (hst : 0 < st) (hk : k ≤ k') (h : FoldUp P E st x k u y) : FoldUp P E st x k' u y := by
  have : (k : Int) * st ≤ k' * st := mul_le_mul_of_nonneg_right (by omega) (le_of_lt hst)
  rcases h with ⟨a, b, c⟩ | ⟨a, b, k1, k2, c, d, e⟩
  · exact Or.inl ⟨a, b, by omega⟩
  · exact Or.inr ⟨a, b, k1, k2, by omega, d, e⟩

theorem FoldDown.mono {S st x y : Int} {k k' : Nat} {u : Bool} (hst : 0 < st) (hk : k ≤ k') (h : FoldDown S st x k u y) : FoldDown S st x k' u y := by
  have : (k : Int) * st ≤ k' * st := mul_le_mul_of_nonneg_right (by omega) (le_of_lt hst)
  rcases h with ⟨a, b, c⟩ | ⟨a, b, k1, k2, c, d, e⟩
  · exact Or.inl ⟨a, b, by omega⟩
  · exact Or.inr ⟨a, b, k1, k2, by omega, d, e⟩

/-- A frame read on the way: whole, and inside the file. -/
def OnWay (S E S0 X nch : Int) (u : Bool) (p : Int) : Prop := (u = true ∧ S0 ≤ p ∧ p + nch ≤ E) ∨ (u = false ∧ S ≤ p ∧ p + nch ≤ X)

/-- An update that begins going up. -/
theorem PP.visitsUp (hfp : Representable fp) {R S P E S0 X nch : Int} (hN : PPNum R S P E S0 X nch) {T : Nat} {x : Int} (hxE : x < E)
    (hlong : S + T * (nch * (R + 1)) ≤ P) : ∀ (n k : Nat) (r : Rd) (u : Bool) (y : Int), k + n = T → PP R S P E S0 X nch r →
    Now S P E r u y → FoldUp P E (nch * (R + 1)) x k u y →
    ∃ ps r' u' y', Visits fp n r ps r' ∧ PP R S P E S0 X nch r' ∧ |r'.rate| = |r.rate| ∧ Now S P E r' u' y' ∧
      FoldUp P E (nch * (R + 1)) x T u' y' ∧ (n ≠ 0 → y ∈ ps) ∧ (n = 0 → y' = y) ∧ (u = true → u' = false → y' = P ∨ P ∈ ps) ∧
      (u' = true → u = true ∧ y ≤ y' ∧ (0 < r.rate ∨ n ≠ 0 → 0 < r'.rate)) ∧
      (∀ p ∈ ps, ∃ v, OnWay S E S0 X nch v p ∧ FoldUp P E (nch * (R + 1)) x (T - 1) v p ∧ (u' = true → v = true ∧ p ≤ y'))
  | 0, k, r, u, y, hk, h, hx, hf => ⟨[], r, u, y, .nil r, h, rfl, hx, by rw [← hk]; exact hf, fun h => absurd rfl h, fun _ => rfl,
      fun h1 h2 => (by rw [h1] at h2; cases h2), fun h => ⟨h, le_refl _, fun h => h.resolve_right (fun h => h rfl)⟩, fun p hp => by cases hp⟩
  | n + 1, k, r, u, y, hk, h, hx, hf => by
    have hst : 0 < nch * (R + 1) := mul_pos hN.n0 (by have := hN.R0; omega)
    obtain ⟨r1, s1, s2, s3, s4, s5⟩ := h.settle hN hx
    obtain ⟨r2, t1, t2, t3, t4, t5⟩ := s2.step hfp hN (by
      rcases s5 with ⟨_, h1, _, h2⟩ | ⟨_, h1, h2, _⟩
      · exact Or.inl ⟨h1, by rw [s3]; exact h2⟩
      · exact Or.inr ⟨h1, by rw [s3]; exact h2⟩)
    rw [s3] at t4 t5
    obtain ⟨u1, y1, n1, n2, n3, n4⟩ := hf.next hst hlong (show k < T by omega) hxE (r2 := r2) (by
      rcases s5 with ⟨h1, h2, _⟩ | ⟨h1, h2, _⟩
      · exact Or.inl ⟨h1, by rw [t3]; exact h2, t4 h2⟩
      · exact Or.inr ⟨h1, by rw [t3]; exact h2, t5 h2⟩)
    obtain ⟨ps, r', u', y', k1, k2, k3, k4, k5, k6, k6', k7, k8, k10⟩ := PP.visitsUp hfp hN hxE hlong n (k + 1) r2 u1 y1 (by omega) t2 n1 n2
    have hle : u' = true → u = true ∧ y ≤ y' := by
      intro e
      obtain ⟨a1, a2, _⟩ := k8 e
      obtain ⟨b1, b2⟩ := n4 a1
      exact ⟨b1, le_trans b2 a2⟩
    refine ⟨r1.pos1 :: ps, r', u', y', .cons s1 t1 k1, k2, by rw [k3, t3, s4], k4, k5, fun _ => by rw [s3]; exact List.mem_cons_self,
      fun h => (by cases h), ?_, ?_, ?_⟩
    · intro hu hu'
      cases hu1 : u1 with
      | true =>
        rcases k7 hu1 hu' with h1 | h1
        · exact Or.inl h1
        · exact Or.inr (List.mem_cons_of_mem _ h1)
      | false =>
        rcases n3 hu1 with h1 | h1
        · by_cases hn0 : n = 0
          · exact Or.inl ((k6' hn0).trans h1)
          · refine Or.inr (List.mem_cons_of_mem _ ?_)
            rw [← h1]; exact k6 hn0
        · rw [hu] at h1; cases h1
    · intro e
      obtain ⟨a1, a2⟩ := hle e
      refine ⟨a1, a2, fun _ => (k8 e).2.2 (Or.inl ?_)⟩
      rw [t3]
      rcases s5 with ⟨_, b1, _⟩ | ⟨b1, _⟩
      · exact b1
      · rw [a1] at b1; cases b1
    · intro p hp
      rcases List.mem_cons.1 hp with rfl | hp
      · rw [s3]
        refine ⟨u, ?_, hf.mono hst (by omega), hle⟩
        rcases s5 with ⟨h1, _, h2, h3⟩ | ⟨h1, _, h2, h3⟩
        · exact Or.inl ⟨h1, h2, h3⟩
        · exact Or.inr ⟨h1, h2, h3⟩
      · exact k10 p hp

/-- An update that begins going down. -/
theorem PP.visitsDown (hfp : Representable fp) {R S P E S0 X nch : Int} (hN : PPNum R S P E S0 X nch) {T : Nat} {x : Int} (hxS : S ≤ x)
    (hlong : S + T * (nch * (R + 1)) ≤ P) : ∀ (n k : Nat) (r : Rd) (u : Bool) (y : Int), k + n = T → PP R S P E S0 X nch r →
    Now S P E r u y → FoldDown S (nch * (R + 1)) x k u y →
    ∃ ps r' u' y', Visits fp n r ps r' ∧ PP R S P E S0 X nch r' ∧ |r'.rate| = |r.rate| ∧ Now S P E r' u' y' ∧
      FoldDown S (nch * (R + 1)) x T u' y' ∧ (n ≠ 0 → y ∈ ps) ∧ (n = 0 → y' = y) ∧ (u = false → u' = true → y' = S ∨ S ∈ ps) ∧
      (u' = false → u = false ∧ y' ≤ y ∧ (r.rate < 0 ∨ n ≠ 0 → r'.rate < 0)) ∧
      (∀ p ∈ ps, ∃ v, OnWay S E S0 X nch v p ∧ FoldDown S (nch * (R + 1)) x (T - 1) v p ∧ (u' = false → v = false ∧ y' ≤ p))
  | 0, k, r, u, y, hk, h, hx, hf => ⟨[], r, u, y, .nil r, h, rfl, hx, by rw [← hk]; exact hf, fun h => absurd rfl h, fun _ => rfl,
      fun h1 h2 => (by rw [h1] at h2; cases h2), fun h => ⟨h, le_refl _, fun h => h.resolve_right (fun h => h rfl)⟩, fun p hp => by cases hp⟩
  | n + 1, k, r, u, y, hk, h, hx, hf => by
    have hst : 0 < nch * (R + 1) := mul_pos hN.n0 (by have := hN.R0; omega)
    obtain ⟨r1, s1, s2, s3, s4, s5⟩ := h.settle hN hx
    obtain ⟨r2, t1, t2, t3, t4, t5⟩ := s2.step hfp hN (by
      rcases s5 with ⟨_, h1, _, h2⟩ | ⟨_, h1, h2, _⟩
      · exact Or.inl ⟨h1, by rw [s3]; exact h2⟩
      · exact Or.inr ⟨h1, by rw [s3]; exact h2⟩)
    rw [s3] at t4 t5
    obtain ⟨u1, y1, n1, n2, n3, n4⟩ := hf.next hst hlong (show P < E by have := hN.PE; have := hN.n0; omega) (show k < T by omega) hxS (r2 := r2) (by
      rcases s5 with ⟨h1, h2, _⟩ | ⟨h1, h2, _⟩
      · exact Or.inl ⟨h1, by rw [t3]; exact h2, t4 h2⟩
      · exact Or.inr ⟨h1, by rw [t3]; exact h2, t5 h2⟩)
    obtain ⟨ps, r', u', y', k1, k2, k3, k4, k5, k6, k6', k7, k8, k10⟩ := PP.visitsDown hfp hN hxS hlong n (k + 1) r2 u1 y1 (by omega) t2 n1 n2
    have hle : u' = false → u = false ∧ y' ≤ y := by
      intro e
      obtain ⟨a1, a2, _⟩ := k8 e
      obtain ⟨b1, b2⟩ := n4 a1
      exact ⟨b1, le_trans a2 b2⟩
    refine ⟨r1.pos1 :: ps, r', u', y', .cons s1 t1 k1, k2, by rw [k3, t3, s4], k4, k5, fun _ => by rw [s3]; exact List.mem_cons_self,
      fun h => (by cases h), ?_, ?_, ?_⟩
    · intro hu hu'
      cases hu1 : u1 with
      | false =>
        rcases k7 hu1 hu' with h1 | h1
        · exact Or.inl h1
        · exact Or.inr (List.mem_cons_of_mem _ h1)
      | true =>
        rcases n3 hu1 with h1 | h1
        · by_cases hn0 : n = 0
          · exact Or.inl ((k6' hn0).trans h1)
          · refine Or.inr (List.mem_cons_of_mem _ ?_)
            rw [← h1]; exact k6 hn0
        · rw [hu] at h1; cases h1
    · intro e
      obtain ⟨a1, a2⟩ := hle e
      refine ⟨a1, a2, fun _ => (k8 e).2.2 (Or.inl ?_)⟩
      rw [t3]
      rcases s5 with ⟨b1, _⟩ | ⟨_, b1, _⟩
      · rw [a1] at b1; cases b1
      · exact b1
    · intro p hp
      rcases List.mem_cons.1 hp with rfl | hp
      · rw [s3]
        refine ⟨u, ?_, hf.mono hst (by omega), hle⟩
        rcases s5 with ⟨h1, _, h2, h3⟩ | ⟨h1, _, h2, h3⟩
        · exact Or.inl ⟨h1, h2, h3⟩
        · exact Or.inr ⟨h1, h2, h3⟩
      · exact k10 p hp

/-- An update that may turn many times. -/
theorem PP.visits_in (hfp : Representable fp) {R S P E S0 X nch : Int} (hN : PPNum R S P E S0 X nch) : ∀ (n : Nat) (r : Rd), PP R S P E S0 X nch r →
    ∃ ps r', Visits fp n r ps r' ∧ PP R S P E S0 X nch r' ∧ ∀ p ∈ ps, ∃ v, OnWay S E S0 X nch v p
  | 0, r, h => ⟨[], r, .nil r, h, fun p hp => by cases hp⟩
  | n + 1, r, h => by
    obtain ⟨u, y, hx⟩ := h.now
    obtain ⟨r1, s1, s2, s3, s4, s5⟩ := h.settle hN hx
    obtain ⟨r2, t1, t2, t3, t4, t5⟩ := s2.step hfp hN (by
      rcases s5 with ⟨_, h1, _, h2⟩ | ⟨_, h1, h2, _⟩
      · exact Or.inl ⟨h1, by rw [s3]; exact h2⟩
      · exact Or.inr ⟨h1, by rw [s3]; exact h2⟩)
    obtain ⟨ps, r', k1, k2, k3⟩ := PP.visits_in hfp hN n r2 t2
    refine ⟨r1.pos1 :: ps, r', .cons s1 t1 k1, k2, ?_⟩
    intro p hp
    rcases List.mem_cons.1 hp with rfl | hp
    · rw [s3]
      rcases s5 with ⟨h1, _, h2, h3⟩ | ⟨h1, _, h2, h3⟩
      · exact ⟨true, Or.inl ⟨rfl, h2, h3⟩⟩
      · exact ⟨false, Or.inr ⟨rfl, h2, h3⟩⟩
    · exact k3 p hp

end TVP
