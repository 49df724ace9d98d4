import Verif.Lemmas.TuneLoop
import Verif.Lemmas.Unroll
import Verif.FpIEEE

/-!
# Drifting positions compared

The positions of C92 (each sum rounded) in a loop and on the loop written out; forwards and backwards.
-/

namespace TVP
open Spec

variable {fp : Fp}

theorem driftLoop_bound (hfp : Representable fp) {A E : Int} (hA : 0 ≤ A) (hAE : A < E) {x r : ℚ} (h0 : 0 ≤ r)
    (hx0 : 0 ≤ ⌊x⌋) (hxE : ⌊x⌋ < E) : ∀ t : Nat, 0 ≤ ⌊driftLoopAt fp A E x r t⌋ ∧ ⌊driftLoopAt fp A E x r t⌋ < E
  | 0 => ⟨hx0, hxE⟩
  | t + 1 => by
    obtain ⟨ih1, ih2⟩ := driftLoop_bound hfp hA hAE h0 hx0 hxE t
    unfold driftLoopAt
    generalize driftLoopAt fp A E x r t = y at *
    have hf0 := Int.fract_nonneg y
    have hn : 0 ≤ fp.d.rnd (Int.fract y + r) := fp.d.nonneg (by linarith)
    simp only
    split
    · rw [floor_add_fract]; exact ⟨hA, hAE⟩
    · rename_i h
      exact ⟨Int.floor_nonneg.2 (add_nonneg (by exact_mod_cast ih1) hn), not_le.1 h⟩

theorem driftLoopBack_bound (hfp : Representable fp) {A Z : Int} (hAZ : A ≤ Z) {x ρ : ℚ} (h0 : 0 ≤ ρ)
    (hxA : A ≤ ⌈x⌉) : ∀ t : Nat, A ≤ ⌈driftLoopBackAt fp A Z x ρ t⌉ ∧ (⌈driftLoopBackAt fp A Z x ρ t⌉ ≤ Z ∨ ⌈driftLoopBackAt fp A Z x ρ t⌉ ≤ ⌈x⌉)
  | 0 => ⟨hxA, Or.inr (le_refl _)⟩
  | t + 1 => by
    obtain ⟨ih1, ih2⟩ := driftLoopBack_bound hfp hAZ h0 hxA t
    unfold driftLoopBackAt
    generalize driftLoopBackAt fp A Z x ρ t = y at *
    have hc := ceil_rest y
    have hn : fp.d.rnd (y - ⌈y⌉ - ρ) ≤ 0 := fp.d.nonpos (by linarith)
    have hle : ⌈(⌈y⌉ : ℚ) + fp.d.rnd (y - ⌈y⌉ - ρ)⌉ ≤ ⌈y⌉ := Int.ceil_le.2 (by linarith)
    simp only
    split
    · have hz := ceil_rest ((⌈y⌉ : ℚ) + fp.d.rnd (y - ⌈y⌉ - ρ))
      have e : ⌈(Z : ℚ) + ((⌈y⌉ : ℚ) + fp.d.rnd (y - ⌈y⌉ - ρ) - ⌈(⌈y⌉ : ℚ) + fp.d.rnd (y - ⌈y⌉ - ρ)⌉)⌉ = Z := by
        rw [Int.ceil_eq_iff]; constructor <;> linarith
      rw [e]
      exact ⟨hAZ, Or.inl (le_refl _)⟩
    · rename_i h
      exact ⟨not_lt.1 h, by rcases ih2 with h2 | h2 <;> omega⟩

/-- From a position that differs by whole frames. -/
theorem drift_shift (x r : ℚ) (n : Int) : ∀ t : Nat, driftAt fp (x + n) r t = driftAt fp x r t + n
  | 0 => rfl
  | t + 1 => by
    have ih := drift_shift x r n t
    unfold driftAt
    rw [ih, Int.floor_add_intCast, Int.fract_add_intCast]
    push_cast
    ring

/-- Where the loop is on a tape on which it is written out. -/
theorem driftLoop_unroll (hfp : Representable fp) {A E : Int} (hAE : A < E) {x r : ℚ} (h0 : 0 ≤ r) (hr : r ≤ 1 - 1 / 2 ^ 53)
    (hx : IsFloat 53 (-1074) (Int.fract x)) (hxE : ⌊x⌋ < E) : ∀ t : Nat,
    ⌊driftLoopAt fp A E x r t⌋ = unroll A E ⌊driftAt fp x r t⌋ ∧ Int.fract (driftLoopAt fp A E x r t) = Int.fract (driftAt fp x r t)
  | 0 => ⟨by show ⌊x⌋ = unroll A E ⌊x⌋; unfold unroll; rw [if_pos hxE], rfl⟩
  | t + 1 => by
    obtain ⟨h1, h2⟩ := driftLoop_unroll hfp hAE h0 hr hx hxE t
    have hfl := (drift_mono fp hfp h0 hx t).1
    unfold driftLoopAt driftAt
    simp only
    generalize driftAt fp x r t = u at *
    generalize driftLoopAt fp A E x r t = y at *
    rw [h2]
    have hf0 := Int.fract_nonneg u
    have hz0 : 0 ≤ fp.d.rnd (Int.fract u + r) := fp.d.nonneg (by linarith)
    have hz2 := rnd_two fp.d hfl (Int.fract_lt_one u) hr
    generalize fp.d.rnd (Int.fract u + r) = z at *
    rw [Int.floor_intCast_add, Int.floor_intCast_add, Int.fract_intCast_add, Int.fract_intCast_add]
    have hu := (unroll_in hAE ⌊u⌋).1
    have hs := unroll_succ hAE ⌊u⌋
    have hd0 : 0 ≤ ⌊z⌋ := Int.floor_nonneg.2 hz0
    have hd1 : ⌊z⌋ < 2 := Int.floor_lt.2 (by exact_mod_cast hz2)
    rcases (show ⌊z⌋ = 0 ∨ ⌊z⌋ = 1 by omega) with e | e
    · rw [if_neg (by omega), Int.floor_intCast_add, Int.fract_intCast_add, e]
      exact ⟨by rw [add_zero, add_zero]; exact h1, rfl⟩
    · rw [e, hs]
      by_cases h3 : unroll A E ⌊u⌋ + 1 = E
      · rw [if_pos (by omega), if_pos h3, floor_add_fract, Int.fract_intCast_add, Int.fract_fract]
        exact ⟨rfl, rfl⟩
      · rw [if_neg (by omega), if_neg h3, Int.floor_intCast_add, Int.fract_intCast_add, e]
        exact ⟨by omega, rfl⟩

/-- Rounding that treats both signs alike, as to nearest. -/
def Symmetric (fp : Fp) : Prop := ∀ x, fp.d.rnd (-x) = -fp.d.rnd x

theorem rne_neg (q : ℚ) : rne (-q) = -rne q := by
  have h1 := Int.floor_le q
  have h2 := Int.lt_floor_add_one q
  by_cases hq : q = ⌊q⌋
  · rw [hq, ← Int.cast_neg, rne_int, rne_int]
  · have h3 : (⌊q⌋ : ℚ) < q := lt_of_le_of_ne h1 (Ne.symm hq)
    have hf : ⌊-q⌋ = -⌊q⌋ - 1 := by
      rw [Int.floor_eq_iff]; push_cast; constructor <;> linarith
    unfold rne
    rw [hf]
    push_cast
    split_ifs <;> first | omega | (exfalso; linarith)

theorem rneTo_neg (p : Nat) (emin : Int) (x : ℚ) : rneTo p emin (-x) = -rneTo p emin x := by
  unfold rneTo ulpExp
  rw [abs_neg, neg_div, rne_neg]
  push_cast
  ring

theorem ieee_symmetric : Symmetric Fp.ieee := fun x => rneTo_neg 53 _ x

theorem driftBack_mirror (hsym : Symmetric fp) (x ρ : ℚ) : ∀ t : Nat, driftBackAt fp x ρ t = -driftAt fp (-x) ρ t
  | 0 => by show x = - -x; ring
  | t + 1 => by
    have ih := driftBack_mirror hsym x ρ t
    unfold driftBackAt driftAt
    rw [ih]
    generalize driftAt fp (-x) ρ t = y
    rw [Int.ceil_neg, show -y - ((-⌊y⌋ : Int) : ℚ) - ρ = -(Int.fract y + ρ) by unfold Int.fract; push_cast; ring, hsym]
    push_cast
    ring

theorem driftLoopBack_mirror (hsym : Symmetric fp) (A Z : Int) (x ρ : ℚ) : ∀ t : Nat, driftLoopBackAt fp A Z x ρ t = -driftLoopAt fp (-Z) (1 - A) (-x) ρ t
  | 0 => by show x = - -x; ring
  | t + 1 => by
    have ih := driftLoopBack_mirror hsym A Z x ρ t
    unfold driftLoopBackAt driftLoopAt
    rw [ih]
    generalize driftLoopAt fp (-Z) (1 - A) (-x) ρ t = y
    simp only
    rw [Int.ceil_neg, show -y - ((-⌊y⌋ : Int) : ℚ) - ρ = -(Int.fract y + ρ) by unfold Int.fract; push_cast; ring, hsym]
    generalize fp.d.rnd (Int.fract y + ρ) = z
    have e : ((-⌊y⌋ : Int) : ℚ) + -z = -(⌊y⌋ + z) := by push_cast; ring
    rw [e]
    generalize (⌊y⌋ : ℚ) + z = w
    rw [Int.ceil_neg]
    by_cases h : -⌊w⌋ < A
    · rw [if_pos h, if_pos (by omega)]
      unfold Int.fract
      push_cast; ring
    · rw [if_neg h, if_neg (by omega)]

end TVP
