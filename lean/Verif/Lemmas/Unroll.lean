import Verif.Lemmas.Virtual
import Verif.Spec.Unroll

/-!
# Repeated loops at speeds up to normal as forward playback of the unrolled material
-/

namespace TVP
open Spec

theorem emod_succ (a : Int) {n : Int} (hn : 0 < n) : (a + 1) % n = if a % n + 1 = n then 0 else a % n + 1 := by
  have h0 := Int.emod_nonneg a (ne_of_gt hn)
  have h1 := Int.emod_lt_of_pos a hn
  rw [← Int.emod_add_emod]
  split
  · rename_i h; rw [h, Int.emod_self]
  · exact Int.emod_eq_of_lt (by omega) (by omega)

theorem unroll_in {A E : Int} (hAE : A < E) (i : Int) : unroll A E i < E ∧ (A ≤ i → A ≤ unroll A E i) ∧ (i < A → unroll A E i = i) := by
  have h0 := Int.emod_nonneg (i - E) (show E - A ≠ 0 by omega)
  have h1 := Int.emod_lt_of_pos (i - E) (show 0 < E - A by omega)
  unfold unroll
  split <;> exact ⟨by omega, fun _ => by omega, fun _ => by omega⟩

theorem unroll_succ {A E : Int} (hAE : A < E) (i : Int) : unroll A E (i + 1) = if unroll A E i + 1 = E then A else unroll A E i + 1 := by
  unfold unroll
  by_cases h : i + 1 < E
  · have h2 : i < E := by omega
    rw [if_pos h, if_pos h2, if_neg (by omega)]
  · rw [if_neg h]
    by_cases h2 : i < E
    · rw [if_pos h2, if_pos (by omega), show i + 1 - E = 0 by omega, Int.zero_emod, add_zero]
    · rw [if_neg h2, show i + 1 - E = i - E + 1 by ring, emod_succ _ (show 0 < E - A by omega)]
      by_cases h3 : (i - E) % (E - A) + 1 = E - A
      · rw [if_pos h3, if_pos (by omega)]; ring
      · rw [if_neg h3, if_neg (by omega)]; ring

theorem floor_fract_step {y u ρ : ℚ} (h : Int.fract y = Int.fract u) : ⌊y + ρ⌋ - ⌊y⌋ = ⌊u + ρ⌋ - ⌊u⌋ ∧ Int.fract (y + ρ) = Int.fract (u + ρ) := by
  have e1 : y + ρ = (⌊y⌋ : ℚ) + (Int.fract u + ρ) := by rw [← h, ← Int.self_sub_floor y]; ring
  have e2 : u + ρ = (⌊u⌋ : ℚ) + (Int.fract u + ρ) := by rw [← Int.self_sub_floor u]; ring
  rw [e1, e2, Int.floor_intCast_add, Int.floor_intCast_add, Int.fract_intCast_add, Int.fract_intCast_add]
  exact ⟨by ring, rfl⟩

theorem loopAt_unroll {A E : Int} (hAE : A < E) {x ρ : ℚ} (hx : ⌊x⌋ < E) (hρ : 0 ≤ ρ) (hρ1 : ρ ≤ 1) : ∀ t : Nat,
    ⌊loopAt A E x ρ t⌋ = unroll A E ⌊x + t * ρ⌋ ∧ Int.fract (loopAt A E x ρ t) = Int.fract (x + t * ρ)
  | 0 => by
    show ⌊x⌋ = unroll A E ⌊x + ((0 : Nat) : ℚ) * ρ⌋ ∧ Int.fract x = Int.fract (x + ((0 : Nat) : ℚ) * ρ)
    rw [Nat.cast_zero, zero_mul, add_zero]
    exact ⟨by unfold unroll; rw [if_pos hx], rfl⟩
  | t + 1 => by
    obtain ⟨h1, h2⟩ := loopAt_unroll hAE hx hρ hρ1 t
    rw [show x + ((t + 1 : Nat) : ℚ) * ρ = x + t * ρ + ρ by push_cast; ring]
    unfold loopAt
    simp only
    generalize x + (t : ℚ) * ρ = u at *
    generalize loopAt A E x ρ t = y at *
    obtain ⟨f1, f2⟩ := floor_fract_step (ρ := ρ) h2
    have hu := (unroll_in hAE ⌊u⌋).1
    have hs := unroll_succ hAE ⌊u⌋
    have hd0 : ⌊u⌋ ≤ ⌊u + ρ⌋ := Int.floor_le_floor (by linarith)
    have hd1 : ⌊u + ρ⌋ ≤ ⌊u⌋ + 1 := by
      have : ⌊u + ρ⌋ ≤ ⌊u + 1⌋ := Int.floor_le_floor (by linarith)
      rwa [Int.floor_add_one] at this
    rcases (show ⌊u + ρ⌋ = ⌊u⌋ ∨ ⌊u + ρ⌋ = ⌊u⌋ + 1 by omega) with e | e
    · rw [if_neg (by omega), e]
      exact ⟨by omega, f2⟩
    · rw [e, hs]
      by_cases h3 : unroll A E ⌊u⌋ + 1 = E
      · rw [if_pos (by omega), if_pos h3, floor_add_fract, Int.fract_intCast_add, Int.fract_fract]
        exact ⟨rfl, f2⟩
      · rw [if_neg (by omega), if_neg h3]
        exact ⟨by omega, f2⟩

theorem unrollBack_eq (A T i : Int) : unrollBack A T i = -unroll (-T) (1 - A) i := by
  unfold unrollBack unroll
  by_cases h : i ≤ -A
  · rw [if_pos h, if_pos (by omega)]
  · rw [if_neg h, if_neg (by omega), show i - (1 - A) = i + A - 1 by ring, show 1 - A - -T = T - A + 1 by ring]; ring

theorem loopBackAt_mirror (A E back : Int) (x ρ : ℚ) : ∀ t : Nat, loopBackAt A E back x ρ t = -loopAt (-(E - back)) (1 - A) (-x) ρ t
  | 0 => by show x = - -x; ring
  | t + 1 => by
    have ih := loopBackAt_mirror A E back x ρ t
    unfold loopBackAt loopAt
    simp only
    generalize loopAt (-(E - back)) (1 - A) (-x) ρ t = y at *
    have e : loopBackAt A E back x ρ t - ρ = -(y + ρ) := by rw [ih]; ring
    rw [e, Int.ceil_neg]
    by_cases h : -⌊y + ρ⌋ < A
    · rw [if_pos h, if_pos (by omega)]
      unfold Int.fract
      push_cast; ring
    · rw [if_neg h, if_neg (by omega)]

theorem loopBackAt_unroll {A E back : Int} (hAE : A ≤ E - back) {x ρ : ℚ} (hx : A ≤ ⌈x⌉) (hρ : 0 ≤ ρ) (hρ1 : ρ ≤ 1) (t : Nat) :
    ⌈loopBackAt A E back x ρ t⌉ = unrollBack A (E - back) ⌊-x + t * ρ⌋ ∧ Int.fract (-loopBackAt A E back x ρ t) = Int.fract (-x + t * ρ) := by
  have hx' : ⌊-x⌋ < 1 - A := by rw [Int.floor_neg]; omega
  obtain ⟨h1, h2⟩ := loopAt_unroll (A := -(E - back)) (E := 1 - A) (by omega) hx' hρ hρ1 t
  rw [loopBackAt_mirror, unrollBack_eq, neg_neg, ← h1, Int.ceil_neg]
  exact ⟨rfl, h2⟩

/-! ## What the readers hold -/

theorem Upping.heads {A E : Int} {p : Nat} {R : Int} {x ρ : ℚ} (hAE : A < E) (hx : ⌊x⌋ < E) (hρ : 0 ≤ ρ) (hρ1 : ρ ≤ 1) {t : Nat} {r : Rd}
    (h : Upping A E p R x ρ t r) : Heads ρ (x + t * ρ) r := by
  obtain ⟨y, h1, h2⟩ := h
  refine Or.inl ⟨h1.rate, ?_⟩
  rw [h1.rem, ← (loopAt_unroll hAE hx hρ hρ1 t).2, h2]
  split
  · rw [Int.fract_intCast_add, Int.fract_fract]
  · rfl

theorem fract_neg_ceil (y : ℚ) : Int.fract (-y) = -(y - ⌈y⌉) := by
  unfold Int.fract
  rw [Int.floor_neg]; push_cast; ring

theorem Downing.heads {A E M back : Int} {p : Nat} {R : Int} {x ρ : ℚ} (hAE : A ≤ E - back) (hx : A ≤ ⌈x⌉) (hρ : 0 ≤ ρ) (hρ1 : ρ ≤ 1) {t : Nat} {r : Rd}
    (h : Downing A E M back p R x ρ t r) : Heads ρ (-x + t * ρ) r := by
  obtain ⟨y, h1, h2⟩ := h
  refine Or.inr ⟨h1.rate, ?_⟩
  rw [h1.rem, ← (loopBackAt_unroll hAE hx hρ hρ1 t).2, h2, fract_neg_ceil]
  split
  · rw [ceil_add_sub]; ring
  · ring

theorem Backing.heads {p : Nat} {R L F : Int} {x ρ : ℚ} {t : Nat} {r : Rd} (h : Backing p R L F x ρ t r) : Heads ρ (-x + t * ρ) r := by
  refine Or.inr ⟨h.2.1, ?_⟩
  rw [h.1.rem, show -x + (t : ℚ) * ρ = -(x - t * ρ) by ring, fract_neg_ceil]; ring

end TVP
