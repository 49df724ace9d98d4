import Mathlib.LinearAlgebra.Lagrange
import Verif.Lemmas.Interp
import Verif.FpIEEE

/-!
# Properties C10-C13: the interpolation functions
-/

namespace TVP
open Spec

theorem clamp16_in (v : Int) : InI16 (clamp16 v) := by unfold clamp16 InI16; split <;> [omega; split <;> omega]

theorem fastinterpolate_ok (fp : Fp) {d1 d2 d3 d4 : Int} {x : ℚ} (hd1 : InI16 d1) (hd2 : InI16 d2)
    (hd3 : InI16 d3) (hd4 : InI16 d4) (hx1 : 1 ≤ x) (hx2 : x ≤ 2) :
    fastinterpolate fp d1 d2 d3 d4 x = .ok (clamp16 (trunc (fiValue fp d1 d2 d3 d4 x))) := by
  obtain ⟨h1, h2⟩ := abs_le.1 (fiValue_err fp hd1 hd2 hd3 hd4 hx1 hx2).2
  unfold fastinterpolate
  rw [castI32_ok (by linarith) (by linarith)]
  rfl

/-- **C10** The cubic interpolation used by the reader is always defined and always within 16 bits. -/
theorem C10_range (fp : Fp) (d1 d2 d3 d4 : Int) (x : ℚ) (hd1 : InI16 d1) (hd2 : InI16 d2)
    (hd3 : InI16 d3) (hd4 : InI16 d4) (hx1 : 1 ≤ x) (hx2 : x ≤ 2) :
    ∃ r, fastinterpolate fp d1 d2 d3 d4 x = .ok r ∧ -32768 ≤ r ∧ r ≤ 32767 :=
  ⟨_, fastinterpolate_ok fp hd1 hd2 hd3 hd4 hx1 hx2, clamp16_in _⟩

example : ∃ r, fastinterpolate Fp.ieee (-32768) 32767 32767 (-32768) (3 / 2) = .ok r ∧ -32768 ≤ r ∧ r ≤ 32767 :=
  C10_range Fp.ieee _ _ _ _ _ (by decide) (by decide) (by decide) (by decide) (by norm_num) (by norm_num)

theorem clampQ_near (v : Int) (q e : ℚ) (h : |(v : ℚ) - q| < e) : |((clamp16 v : Int) : ℚ) - clampQ q| < e := by
  have h0 : 0 < e := lt_of_le_of_lt (abs_nonneg _) h
  obtain ⟨h1, h2⟩ := abs_lt.1 h
  unfold clamp16 clampQ
  split
  · rename_i hv
    have hv' : (v : ℚ) < -32768 := by exact_mod_cast hv
    push_cast
    rcases le_total q 32767 with hq | hq
    · rw [min_eq_right hq]
      rcases le_total (-32768) q with hq' | hq'
      · rw [max_eq_right hq', abs_lt]; constructor <;> linarith
      · rw [max_eq_left hq', abs_lt]; constructor <;> linarith
    · rw [min_eq_left hq, max_eq_right (by norm_num), abs_lt]; constructor <;> linarith
  · rename_i hv
    have hv' : (-32768 : ℚ) ≤ v := by exact_mod_cast not_lt.1 hv
    split
    · rename_i hw
      have hw' : (32767 : ℚ) < v := by exact_mod_cast hw
      push_cast
      rcases le_total q 32767 with hq | hq
      · rw [min_eq_right hq]
        rcases le_total (-32768) q with hq' | hq'
        · rw [max_eq_right hq', abs_lt]; constructor <;> linarith
        · rw [max_eq_left hq', abs_lt]; constructor <;> linarith
      · rw [min_eq_left hq, max_eq_right (by norm_num), abs_lt]; constructor <;> linarith
    · rename_i hw
      have hw' : (v : ℚ) ≤ 32767 := by exact_mod_cast not_lt.1 hw
      rcases le_total q 32767 with hq | hq
      · rw [min_eq_right hq]
        rcases le_total (-32768) q with hq' | hq'
        · rw [max_eq_right hq']; exact h
        · rw [max_eq_left hq', abs_lt]; constructor <;> linarith
      · rw [min_eq_left hq, max_eq_right (by norm_num), abs_lt]; constructor <;> linarith

/-- **C11** For every rounding mode the result is within 1.5 of the (saturated) Lagrange cubic: at most one
half from floating-point error, and less than one from truncation. -/
theorem C11_cubic (fp : Fp) (d1 d2 d3 d4 : Int) (x : ℚ) (hd1 : InI16 d1) (hd2 : InI16 d2)
    (hd3 : InI16 d3) (hd4 : InI16 d4) (hx1 : 1 ≤ x) (hx2 : x ≤ 2) :
    ∃ r : Int, fastinterpolate fp d1 d2 d3 d4 x = .ok r ∧ |(r : ℚ) - clampQ (cubic d1 d2 d3 d4 x)| < 3 / 2 := by
  refine ⟨_, fastinterpolate_ok fp hd1 hd2 hd3 hd4 hx1 hx2, clampQ_near _ _ _ ?_⟩
  have h1 := (fiValue_err fp hd1 hd2 hd3 hd4 hx1 hx2).1
  have h2 := trunc_near (fiValue fp d1 d2 d3 d4 x)
  have := abs_sub_le (trunc (fiValue fp d1 d2 d3 d4 x) : ℚ) (fiValue fp d1 d2 d3 d4 x) (cubic d1 d2 d3 d4 x)
  linarith

example : ∃ r : Int, fastinterpolate Fp.ieee 0 1000 2000 3000 (5 / 4) = .ok r ∧
    |(r : ℚ) - clampQ (cubic 0 1000 2000 3000 (5 / 4))| < 3 / 2 :=
  C11_cubic Fp.ieee _ _ _ _ _ (by decide) (by decide) (by decide) (by decide) (by norm_num) (by norm_num)

/-- **C11** In exact arithmetic the result is the cubic, truncated and saturated, for every argument. -/
theorem C11_ideal (d1 d2 d3 d4 : Int) (x : ℚ) :
    fastinterpolate Fp.ideal d1 d2 d3 d4 x =
      (if InI32 (trunc (cubic d1 d2 d3 d4 x)) then .ok (clamp16 (trunc (cubic d1 d2 d3 d4 x)))
       else .error .badCast) := by
  have : fiValue Fp.ideal d1 d2 d3 d4 x = cubic d1 d2 d3 d4 x := by
    simp only [fiValue, fiTerm, fiPoly, Fp.ideal, Rounding.ideal, id, cubic]
    ring
  unfold fastinterpolate castI32
  rw [this]
  split <;> rfl

theorem clamp16_of_in {v : Int} (h : InI16 v) : clamp16 v = v := by
  unfold clamp16; unfold InI16 at h; rw [if_neg (by omega), if_neg (by omega)]

/-- **C11** In exact arithmetic the two inner samples are reproduced. -/
theorem C11_ideal_nodes (d1 d2 d3 d4 : Int) (h2 : InI16 d2) (h3 : InI16 d3) :
    fastinterpolate Fp.ideal d1 d2 d3 d4 1 = .ok d2 ∧ fastinterpolate Fp.ideal d1 d2 d3 d4 2 = .ok d3 := by
  obtain ⟨_, c1, c2, _⟩ := cubic_nodes d1 d2 d3 d4
  rw [C11_ideal, C11_ideal, c1, c2, trunc_int, trunc_int, clamp16_of_in h2, clamp16_of_in h3]
  unfold InI16 at h2 h3
  constructor <;> rw [if_pos (by unfold InI32; omega)]

example : fastinterpolate Fp.ideal 7 (-3) 100 8 1 = .ok (-3) ∧ fastinterpolate Fp.ideal 7 (-3) 100 8 2 = .ok 100 :=
  C11_ideal_nodes 7 (-3) 100 8 (by decide) (by decide)

/-- In IEEE single precision the inner sample is not always reproduced exactly (why C11 needs a bound). -/
theorem C11_float_node_off :
    (match fastinterpolate Fp.ieee 32767 100 0 0 1 with | .ok v => v | .error _ => 0) = 99 := by
  decide +kernel

/-! ## C12: nodes -/

theorem foldlM_fix {α β : Type} {f : β → α → M β} {t : β} : ∀ {l : List α}, (∀ a ∈ l, f t a = .ok t) →
    l.foldlM f t = .ok t
  | [], _ => rfl
  | a :: l, h => by
    rw [List.foldlM_cons, h a (by simp)]
    exact foldlM_fix fun b hb => h b (by simp [hb])

theorem foldlM_zero {α : Type} {f : ℚ → α → M ℚ} : ∀ {l : List α} {t : ℚ},
    (∀ a ∈ l, ∀ t, ∃ t', f t a = .ok t') → (∀ a ∈ l, f 0 a = .ok 0) → (∃ a ∈ l, ∀ t, f t a = .ok 0) →
    l.foldlM f t = .ok 0
  | [], _, _, _, h => by simp at h
  | a :: l, t, h1, h2, h3 => by
    obtain ⟨t', ht⟩ := h1 a (by simp) t
    rw [List.foldlM_cons, ht]
    obtain ⟨b, hb, hz⟩ := h3
    rcases List.mem_cons.1 hb with rfl | hb
    · rw [hz] at ht
      cases ht
      exact foldlM_fix fun c hc => h2 c (by simp [hc])
    · exact foldlM_zero (fun c hc => h1 c (by simp [hc])) (fun c hc => h2 c (by simp [hc])) ⟨b, hb, hz⟩

theorem foldlM_select {α : Type} {f : ℚ → α → M ℚ} {k : α} {y : ℚ}
    (hk : ∀ t, t = 0 → f t k = .ok y) : ∀ {l : List α}, l.Nodup → k ∈ l →
    (∀ a ∈ l, a ≠ k → ∀ t, t = 0 ∨ t = y → f t a = .ok t) → l.foldlM f 0 = .ok y
  | [], _, h, _ => by simp at h
  | a :: l, hn, hm, h => by
    rw [List.nodup_cons] at hn
    rw [List.foldlM_cons]
    by_cases hak : a = k
    · subst hak
      rw [hk 0 rfl]
      exact foldlM_fix fun b hb => h b (by simp [hb]) (by rintro rfl; exact hn.1 hb) y (Or.inr rfl)
    · rw [h a (by simp) hak 0 (Or.inl rfl)]
      rcases List.mem_cons.1 hm with rfl | hm
      · exact absurd rfl hak
      · exact foldlM_select hk hn.2 hm fun b hb => h b (by simp [hb])

theorem zipIdx_nodup {α : Type} (l : List α) : l.zipIdx.Nodup := by
  apply List.Nodup.of_map Prod.snd
  rw [List.zipIdx_map_snd]
  exact List.nodup_range'

theorem fst_inj {pts : List (Int × Int)} (hd : (pts.map Prod.fst).Nodup) {i j : Nat} {p q : Int × Int}
    (hi : pts[i]? = some p) (hj : pts[j]? = some q) (h : p.1 = q.1) : i = j := by
  have hi' : (pts.map Prod.fst)[i]? = some p.1 := by rw [List.getElem?_map, hi]; rfl
  have hj' : (pts.map Prod.fst)[j]? = some p.1 := by rw [List.getElem?_map, hj, h]; rfl
  obtain ⟨h1, h2⟩ := List.getElem?_eq_some_iff.1 hi'
  obtain ⟨h3, h4⟩ := List.getElem?_eq_some_iff.1 hj'
  exact (hd.getElem_inj_iff).1 (h2.trans h4.symm)

theorem sub_exact (fp : Fp) {a b : Int} (ha : InU32 a) (hb : InU32 b) :
    fp.d.rnd ((a : ℚ) - b) = (a : ℚ) - b := by
  have := fp.d.exact_int (by norm_num) (by norm_num) (m := a - b)
    (by unfold InU32 at ha hb; rw [abs_le]; constructor <;> omega)
  push_cast at this; exact this

/-- **C12** At a node, `interpolate` returns that node's ordinate: any number of points, any rounding. -/
theorem C12_nodes (fp : Fp) (pts : List (Int × Int)) (hx : ∀ p ∈ pts, InU32 p.1) (hy : ∀ p ∈ pts, InI16 p.2)
    (hd : (pts.map Prod.fst).Nodup) (p : Int × Int) (hp : p ∈ pts) :
    interpolate fp pts p.1 = .ok p.2 := by
  obtain ⟨k, hk⟩ := List.mem_iff_getElem?.1 hp
  have hyp := hy p hp
  have hyq : fp.d.rnd (p.2 : ℚ) = p.2 := fp.d.exact_int (by norm_num) (by norm_num)
    (by unfold InI16 at hyp; rw [abs_le]; constructor <;> omega)
  -- the term of the node itself
  have tk : interpTerm fp pts p.1 k p = .ok (p.2 : ℚ) := by
    unfold interpTerm
    apply foldlM_fix
    rintro ⟨q, j⟩ hq
    have hq' := List.mem_zipIdx_iff_getElem?.1 hq
    simp only at hq' ⊢
    split
    · rename_i hjk
      have hne : p.1 ≠ q.1 := fun h => hjk (fst_inj hd hk hq' h).symm
      have hqm : q ∈ pts := List.mem_of_getElem? hq'
      have hxp := hx p hp
      have hxq := hx q hqm
      rw [sub_exact fp hxp hxq]
      have hz : (p.1 : ℚ) - q.1 ≠ 0 := by
        rw [sub_ne_zero]; exact_mod_cast hne
      rw [if_neg hz]
      have : fp.d.rnd ((p.2 : ℚ) * ((p.1 : ℚ) - q.1)) = (p.2 : ℚ) * ((p.1 : ℚ) - q.1) := by
        have := fp.d.exact_int (by norm_num) (by norm_num) (m := p.2 * (p.1 - q.1)) (by
          unfold InI16 at hyp; unfold InU32 at hxp hxq
          rw [abs_mul]
          have a1 : |p.2| ≤ 32768 := by rw [abs_le]; constructor <;> omega
          have a2 : |p.1 - q.1| ≤ 4294967296 := by rw [abs_le]; constructor <;> omega
          calc |p.2| * |p.1 - q.1| ≤ 32768 * 4294967296 := mul_le_mul a1 a2 (abs_nonneg _) (by norm_num)
            _ ≤ 2 ^ 53 := by norm_num)
        push_cast at this; exact this
      rw [this, mul_div_assoc, div_self hz, mul_one, hyq]
    · rfl
  -- the other terms vanish
  have t0 : ∀ i q, pts[i]? = some q → i ≠ k → interpTerm fp pts p.1 i q = .ok 0 := by
    intro i q hi hik
    have hqm : q ∈ pts := List.mem_of_getElem? hi
    have hden : ∀ j w, pts[j]? = some w → j ≠ i → fp.d.rnd ((q.1 : ℚ) - w.1) ≠ 0 := by
      intro j w hw hji
      rw [sub_exact fp (hx q hqm) (hx w (List.mem_of_getElem? hw)), sub_ne_zero]
      have : q.1 ≠ w.1 := fun h => hji (fst_inj hd hi hw h).symm
      exact_mod_cast this
    unfold interpTerm
    apply foldlM_zero
    · rintro ⟨w, j⟩ hw t
      have hw' := List.mem_zipIdx_iff_getElem?.1 hw
      simp only at hw' ⊢
      split
      · rename_i hji
        rw [if_neg (hden j w hw' hji)]; exact ⟨_, rfl⟩
      · exact ⟨_, rfl⟩
    · rintro ⟨w, j⟩ hw
      have hw' := List.mem_zipIdx_iff_getElem?.1 hw
      simp only at hw' ⊢
      split
      · rename_i hji
        rw [if_neg (hden j w hw' hji), zero_mul, fp.d.exact_zero, zero_div, fp.d.exact_zero]
      · rfl
    · refine ⟨(p, k), List.mem_zipIdx_iff_getElem?.2 hk, ?_⟩
      intro t
      simp only
      rw [if_pos hik.symm, if_neg (hden k p hk hik.symm), sub_self, fp.d.exact_zero, mul_zero, fp.d.exact_zero,
        zero_div, fp.d.exact_zero]
  have hsum : pts.zipIdx.foldlM (init := (0 : ℚ)) (fun acc (x : (Int × Int) × Nat) => do
      let term ← interpTerm fp pts p.1 x.2 x.1
      return fp.d.rnd (acc + term)) = Except.ok (p.2 : ℚ) := by
    apply foldlM_select (k := (p, k))
    · intro t ht
      simp only [tk, ht, zero_add]
      show Except.ok _ = _
      rw [hyq]
    · exact zipIdx_nodup _
    · exact List.mem_zipIdx_iff_getElem?.2 hk
    · rintro ⟨q, i⟩ hq hne t ht
      have hq' := List.mem_zipIdx_iff_getElem?.1 hq
      simp only at hq'
      have hik : i ≠ k := by
        rintro rfl
        rw [hk] at hq'; cases hq'; exact hne rfl
      simp only [t0 i q hq' hik]
      show Except.ok (fp.d.rnd (t + 0)) = _
      rw [add_zero]
      rcases ht with rfl | rfl
      · rw [fp.d.exact_zero]
      · rw [hyq]
  unfold interpolate
  rw [hsum]
  have hr : roundC (p.2 : ℚ) = p.2 := by
    unfold roundC
    split
    · rw [Int.floor_intCast_add]; norm_num
    · have : -((p.2 : Int) : ℚ) = ((-p.2 : Int) : ℚ) := by push_cast; rfl
      rw [this, Int.floor_intCast_add]; norm_num
  show (if InI32 (roundC (p.2 : ℚ)) then _ else _) = _
  rw [hr, if_pos (by unfold InI16 at hyp; unfold InI32; omega), clamp16_of_in hyp]
  rfl

example (fp : Fp) : interpolate fp [(0, 10), (5, -7), (100, 3)] (5 : Int) = .ok (-7) :=
  C12_nodes fp _ (by decide) (by decide) (by decide) (5, -7) (by decide)

/-! ## C13: polynomials -/

theorem foldlM_pure {α β : Type} (f : β → α → M β) (g : β → α → β) : ∀ (l : List α) (t : β),
    (∀ a ∈ l, ∀ t, f t a = .ok (g t a)) → l.foldlM f t = .ok (l.foldl g t)
  | [], _, _ => rfl
  | a :: l, t, h => by
    rw [List.foldlM_cons, h a (by simp), List.foldl_cons]
    exact foldlM_pure f g l _ fun b hb => h b (by simp [hb])

theorem foldl_prod (c : Int × Int → Nat → ℚ) : ∀ (l : List (Int × Int)) (n : Nat) (t : ℚ),
    (l.zipIdx n).foldl (fun t x => t * c x.1 x.2) t = t * ∏ j ∈ Finset.range l.length, c (l.getD j (0, 0)) (n + j)
  | [], _, t => by simp
  | a :: l, n, t => by
    rw [List.zipIdx_cons, List.foldl_cons, foldl_prod c l]
    rw [List.length_cons, Finset.prod_range_succ']
    simp only [List.getD_cons_zero, List.getD_cons_succ, Nat.add_zero]
    have : ∀ j, n + 1 + j = n + (j + 1) := fun j => by omega
    simp only [this]; ring

theorem foldl_sum (c : Int × Int → Nat → ℚ) : ∀ (l : List (Int × Int)) (n : Nat) (t : ℚ),
    (l.zipIdx n).foldl (fun t x => t + c x.1 x.2) t = t + ∑ j ∈ Finset.range l.length, c (l.getD j (0, 0)) (n + j)
  | [], _, t => by simp
  | a :: l, n, t => by
    rw [List.zipIdx_cons, List.foldl_cons, foldl_sum c l]
    rw [List.length_cons, Finset.sum_range_succ']
    simp only [List.getD_cons_zero, List.getD_cons_succ, Nat.add_zero]
    have : ∀ j, n + 1 + j = n + (j + 1) := fun j => by omega
    simp only [this]; ring

theorem isRound_roundC (q : ℚ) : IsRound q (roundC q) := by
  unfold IsRound roundC
  split
  · rename_i h
    have h1 := Int.floor_le (q + 1 / 2)
    have h2 := Int.lt_floor_add_one (q + 1 / 2)
    have h3 : (0 : Int) ≤ ⌊q + 1 / 2⌋ := Int.floor_nonneg.2 (by linarith)
    have h3' : (0 : ℚ) ≤ ⌊q + 1 / 2⌋ := by exact_mod_cast h3
    refine ⟨abs_le.2 ⟨by linarith, by linarith⟩, fun he => ?_⟩
    rw [abs_of_nonneg h, abs_of_nonneg h3']
    rcases abs_cases (q - ⌊q + 1 / 2⌋) with ⟨e, _⟩ | ⟨e, _⟩ <;> rw [e] at he <;> linarith
  · rename_i h
    have h1 := Int.floor_le (-q + 1 / 2)
    have h2 := Int.lt_floor_add_one (-q + 1 / 2)
    have h3 : (0 : Int) ≤ ⌊-q + 1 / 2⌋ := Int.floor_nonneg.2 (by linarith)
    have h3' : (0 : ℚ) ≤ ⌊-q + 1 / 2⌋ := by exact_mod_cast h3
    push_cast
    refine ⟨abs_le.2 ⟨by linarith, by linarith⟩, fun he => ?_⟩
    rw [abs_of_neg (by linarith), abs_neg, abs_of_nonneg h3']
    rcases abs_cases (q - -(⌊-q + 1 / 2⌋ : ℚ)) with ⟨e, _⟩ | ⟨e, _⟩ <;> rw [e] at he <;> linarith

/-- **C13** In exact arithmetic `interpolate` of samples of a polynomial of degree below the number of points
returns the value of the polynomial, rounded and saturated. -/
theorem C13_polynomial (pts : List (Int × Int)) (hd : (pts.map Prod.fst).Nodup)
    (P : Polynomial ℚ) (hdeg : P.degree < pts.length) (hP : ∀ p ∈ pts, P.eval (p.1 : ℚ) = p.2)
    (xi : ℚ) (n : Int) (hn : IsRound (P.eval xi) n) (hin : InI32 n) :
    interpolate Fp.ideal pts xi = .ok (max (-32768) (min 32767 n)) := by
  classical
  set L := pts.length with hL
  set v : Nat → ℚ := fun i => ((pts.getD i (0, 0)).1 : ℚ) with hv
  set y : Nat → ℚ := fun i => ((pts.getD i (0, 0)).2 : ℚ) with hyd
  have hget : ∀ i, i < L → pts[i]? = some (pts.getD i (0, 0)) := by
    intro i hi
    rw [List.getD_eq_getElem?_getD, List.getElem?_eq_getElem hi]; rfl
  have hinj : Set.InjOn v (Finset.range L) := by
    intro i hi j hj hij
    have hi' := hget i (by simpa using hi)
    have hj' := hget j (by simpa using hj)
    exact fst_inj hd hi' hj' (by simpa [hv] using hij)
  have hev : P = Lagrange.interpolate (Finset.range L) v y :=
    Lagrange.eq_interpolate_of_eval_eq y hinj (by simpa using hdeg) (by
      intro i hi
      have := hget i (by simpa using hi)
      exact hP _ (List.mem_of_getElem? this))
  -- the inner products
  have hterm : ∀ i p, pts[i]? = some p → interpTerm Fp.ideal pts xi i p =
      .ok ((p.2 : ℚ) * ∏ j ∈ Finset.range L, (if j ≠ i then (xi - v j) / ((p.1 : ℚ) - v j) else 1)) := by
    intro i p hi
    unfold interpTerm
    rw [foldlM_pure _ (fun t (x : (Int × Int) × Nat) =>
      t * (if x.2 ≠ i then (xi - x.1.1) / ((p.1 : ℚ) - x.1.1) else 1))]
    · rw [foldl_prod (fun a j => if j ≠ i then (xi - a.1) / ((p.1 : ℚ) - a.1) else 1)]
      simp only [Nat.zero_add]
      rfl
    · rintro ⟨q, j⟩ hq t
      have hq' := List.mem_zipIdx_iff_getElem?.1 hq
      simp only [Fp.ideal, Rounding.ideal, id] at hq' ⊢
      by_cases hji : j = i
      · simp [hji]
      · have hz : (p.1 : ℚ) - q.1 ≠ 0 := by
          rw [sub_ne_zero]
          intro h
          exact hji (fst_inj hd hi hq' (by exact_mod_cast h)).symm
        simp only [ne_eq, hji, not_false_eq_true, if_true]
        rw [mul_div_assoc]
        exact if_neg hz
  have hsum : pts.zipIdx.foldlM (init := (0 : ℚ)) (fun acc (x : (Int × Int) × Nat) => do
      let term ← interpTerm Fp.ideal pts xi x.2 x.1
      return Fp.ideal.d.rnd (acc + term)) = Except.ok (P.eval xi) := by
    rw [foldlM_pure _ (fun t (x : (Int × Int) × Nat) => t + (x.1.2 : ℚ) *
      ∏ j ∈ Finset.range L, (if j ≠ x.2 then (xi - v j) / ((x.1.1 : ℚ) - v j) else 1))]
    · rw [foldl_sum (fun a i => (a.2 : ℚ) *
        ∏ j ∈ Finset.range L, (if j ≠ i then (xi - v j) / ((a.1 : ℚ) - v j) else 1))]
      congr 1
      rw [hev, Lagrange.interpolate_apply, Polynomial.eval_finsetSum, zero_add, ← hL]
      apply Finset.sum_congr rfl
      intro i hi
      rw [Nat.zero_add, Polynomial.eval_mul, Polynomial.eval_C, Lagrange.basis, Polynomial.eval_prod]
      congr 1
      rw [← Finset.prod_filter, Finset.filter_ne']
      apply Finset.prod_congr rfl
      intro j hj
      simp only [Lagrange.basisDivisor, Polynomial.eval_mul, Polynomial.eval_C, Polynomial.eval_sub,
        Polynomial.eval_X]
      rw [div_eq_mul_inv, mul_comm]
    · rintro ⟨q, i⟩ hq t
      have hq' := List.mem_zipIdx_iff_getElem?.1 hq
      simp only at hq' ⊢
      rw [hterm i q hq']
      rfl
  have huniq : roundC (P.eval xi) = n := by
    obtain ⟨a1, a2⟩ := isRound_roundC (P.eval xi)
    obtain ⟨b1, b2⟩ := hn
    set q := P.eval xi
    set m := roundC q
    have hmn : |((m - n : Int) : ℚ)| ≤ 1 := by
      push_cast
      have := abs_sub_le (m : ℚ) q n
      rw [abs_sub_comm (m : ℚ) q] at this
      linarith
    have hmn' : |m - n| ≤ 1 := by exact_mod_cast hmn
    obtain ⟨c1, c2⟩ := abs_le.1 hmn'
    by_contra hne
    have h3 : m = n + 1 ∨ m = n - 1 := by omega
    obtain ⟨a3, a4⟩ := abs_le.1 a1
    obtain ⟨b3, b4⟩ := abs_le.1 b1
    have ha2 : |q| < |(m : ℚ)| := a2 (by
      rcases h3 with h3 | h3
      · rw [h3] at a3 a4 ⊢; push_cast at a3 a4 ⊢
        rw [show q - (n + 1) = -(1/2) by linarith]; norm_num
      · rw [h3] at a3 a4 ⊢; push_cast at a3 a4 ⊢
        rw [show q - (n - 1) = 1/2 by linarith]; norm_num)
    have hb2 : |q| < |(n : ℚ)| := b2 (by
      rcases h3 with h3 | h3
      · rw [h3] at a3 a4; push_cast at a3 a4
        rw [show q - n = 1/2 by linarith]; norm_num
      · rw [h3] at a3 a4; push_cast at a3 a4
        rw [show q - n = -(1/2) by linarith]; norm_num)
    rcases h3 with h3 | h3 <;> rw [h3] at ha2 a3 a4 <;> push_cast at ha2 a3 a4
    · have hq : q = n + 1 / 2 := by linarith
      rcases le_or_gt 0 n with hs | hs
      · have hs' : (0 : ℚ) ≤ n := by exact_mod_cast hs
        rw [abs_of_nonneg (by linarith), abs_of_nonneg hs'] at hb2; linarith
      · have hs' : (n : ℚ) ≤ -1 := by exact_mod_cast (show n ≤ -1 by omega)
        rw [abs_of_nonpos (by linarith), abs_of_nonpos (by linarith)] at ha2; linarith
    · have hq : q = n - 1 / 2 := by linarith
      rcases le_or_gt 1 n with hs | hs
      · have hs' : (1 : ℚ) ≤ n := by exact_mod_cast hs
        rw [abs_of_nonneg (by linarith), abs_of_nonneg (by linarith)] at ha2; linarith
      · have hs' : (n : ℚ) ≤ 0 := by exact_mod_cast (show n ≤ 0 by omega)
        rw [abs_of_nonpos (by linarith), abs_of_nonpos hs'] at hb2; linarith
  unfold interpolate
  rw [hsum]
  show (if InI32 (roundC (P.eval xi)) then _ else _) = _
  rw [huniq, if_pos hin]
  show Except.ok _ = _
  congr 1
  unfold clamp16
  split
  · omega
  · split <;> omega

/-- A square sampled at three points and evaluated elsewhere. -/
example : interpolate Fp.ideal [(0, 0), (1, 1), (3, 9)] 10 = .ok 100 := by
  have := C13_polynomial [(0, 0), (1, 1), (3, 9)] (by decide) (Polynomial.X ^ 2)
    (by rw [Polynomial.degree_X_pow]; norm_num) (by simp; norm_num) 10 100 (by unfold IsRound; norm_num) (by decide)
  simpa using this

end TVP
