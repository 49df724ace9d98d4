import Verif.Lemmas.Turned

/-!
# A channel by itself

A reader of a sound with several channels does to each of them what a reader of that channel alone does, with any interpolation up to
normal speed.
-/

namespace TVP
open Spec

/-- What is sent to an output in one update: nothing, or a block. -/
def onOutput (o : Nat) (fx : Fx) : Option (List Int) := (fx.transmitted.find? fun x => x.2 == o).map (·.1)

section
variable {up : Bool} {k : Interp} {c : Nat} {n Hd H F back : Int} {fin : Int → Bool} {xs ys : List Int} {fp : Fp}

/-! ## The other channels -/

/-- Only what is remembered of channel `ch` has changed. -/
def OnlyAt (ch : Nat) (r r' : Rd) : Prop := ∃ p : Nat → Pts, r' = { r with pts := p } ∧ ∀ d, d ≠ ch → p d = r.pts d

theorem OnlyAt.refl (ch : Nat) (r : Rd) : OnlyAt ch r r := ⟨r.pts, rfl, fun _ _ => rfl⟩

theorem OnlyAt.trans {ch : Nat} {r r1 r2 : Rd} (h : OnlyAt ch r r1) (h' : OnlyAt ch r1 r2) : OnlyAt ch r r2 := by
  obtain ⟨p, rfl, hp⟩ := h
  obtain ⟨q, rfl, hq⟩ := h'
  exact ⟨q, rfl, fun d hd => (hq d hd).trans (hp d hd)⟩

theorem OnlyAt.upd (ch : Nat) (r : Rd) (x : Pts) : OnlyAt ch r { r with pts := Function.update r.pts ch x } :=
  ⟨_, rfl, fun _ hd => Function.update_of_ne hd _ _⟩

theorem addPoint_only {r r1 : Rd} {ch : Nat} {y : Int} (h : addPoint r ch y = .ok r1) : OnlyAt ch r r1 := by
  unfold addPoint at h
  split at h
  · cases h; exact OnlyAt.refl _ _
  · split at h
    · cases h; exact OnlyAt.upd _ _ _
    · cases h
  · split at h
    · cases h; exact OnlyAt.upd _ _ _
    · cases h

theorem srcVal_keeps {r : Rd} {s : Option (List Int)} {pos off : Int} {ch : Nat} {x : Int × Option (List Int)} (hs : s = some xs)
    (h : srcVal arraySrc r s pos off ch = .ok x) : x.2 = some xs := (srcVal_array (v := x.1) (s' := x.2) hs h).2

theorem linearVal_only {r : Rd} {s : Option (List Int)} {ch : Nat} {v : Int} {x : Int × Rd × Option (List Int)} (hs : s = some xs)
    (h : linearVal fp arraySrc r s ch v = .ok x) : OnlyAt ch r x.2.1 ∧ x.2.2 = some xs := by
  unfold linearVal at h
  simp only at h
  split at h
  · obtain ⟨⟨r1, s1⟩, h1, h⟩ := bind_ok_iff.1 h
    have h2 : OnlyAt ch r r1 ∧ s1 = some xs := by
      split at h1
      · split at h1
        · obtain ⟨p, h2, h1⟩ := bind_ok_iff.1 h1
          split at h1
          · obtain ⟨y, h3, h1⟩ := bind_ok_iff.1 h1
            obtain ⟨r2, h4, h1⟩ := bind_ok_iff.1 h1
            cases h1
            exact ⟨(OnlyAt.upd ch r _).trans (addPoint_only h4), srcVal_keeps hs h3⟩
          · obtain ⟨r2, h4, h1⟩ := bind_ok_iff.1 h1
            cases h1
            exact ⟨addPoint_only h4, hs⟩
        · cases h1; exact ⟨OnlyAt.refl _ _, hs⟩
      · split at h1
        · split at h1
          · obtain ⟨p, h2, h1⟩ := bind_ok_iff.1 h1
            split at h1
            · obtain ⟨y, h3, h1⟩ := bind_ok_iff.1 h1
              obtain ⟨r2, h4, h1⟩ := bind_ok_iff.1 h1
              cases h1
              exact ⟨(OnlyAt.upd ch r _).trans (addPoint_only h4), srcVal_keeps hs h3⟩
            · obtain ⟨r2, h4, h1⟩ := bind_ok_iff.1 h1
              cases h1
              exact ⟨addPoint_only h4, hs⟩
          · cases h1; exact ⟨OnlyAt.refl _ _, hs⟩
        · cases h1; exact ⟨OnlyAt.refl _ _, hs⟩
    obtain ⟨p, h3, h⟩ := bind_ok_iff.1 h
    split at h
    · obtain ⟨w, h4, h⟩ := bind_ok_iff.1 h
      cases h; exact h2
    · cases h; exact h2
  · obtain ⟨r1, h1, h⟩ := bind_ok_iff.1 h
    obtain ⟨p, h2, h⟩ := bind_ok_iff.1 h
    cases h
    exact ⟨addPoint_only h1, hs⟩

theorem pushLoop_only {fwd : Bool} {ch : Nat} : ∀ {j : Nat} {r : Rd} {s : Option (List Int)} {x : Rd × Option (List Int)}, s = some xs → r.dual = false →
    pushLoop fp arraySrc fwd ch j r s = .ok x → OnlyAt ch r x.1 ∧ x.2 = some xs
  | 0, r, s, x, hs, _, h => by unfold pushLoop at h; cases h; exact ⟨OnlyAt.refl _ _, hs⟩
  | j + 1, r, s, x, hs, hd, h => by
    unfold pushLoop at h
    simp only [hd, Bool.false_and, Bool.false_eq_true, if_false, pure_eq_ok, ok_bind] at h
    obtain ⟨⟨y, s1⟩, h0, h⟩ := bind_ok_iff.1 h
    obtain ⟨r1, h1, h⟩ := bind_ok_iff.1 h
    have h2 := addPoint_only h1
    have hd1 : r1.dual = false := by obtain ⟨p, rfl, -⟩ := h2; exact hd
    obtain ⟨h3, h4⟩ := pushLoop_only (srcVal_keeps hs h0) hd1 h
    exact ⟨h2.trans h3, h4⟩

theorem quadVal_only {r : Rd} {s : Option (List Int)} {ch : Nat} {x : Int × Rd × Option (List Int)} (hs : s = some xs) (hd : r.dual = false)
    (h : quadVal fp arraySrc r s ch = .ok x) : OnlyAt ch r x.2.1 ∧ x.2.2 = some xs := by
  unfold quadVal at h
  simp only at h
  obtain ⟨⟨r1, s1⟩, h1, h⟩ := bind_ok_iff.1 h
  have h2 : OnlyAt ch r r1 ∧ s1 = some xs := by
    split at h1
    · split at h1
      · obtain ⟨j, -, h1⟩ := bind_ok_iff.1 h1
        exact pushLoop_only hs hd h1
      · cases h1; exact ⟨OnlyAt.refl _ _, hs⟩
    · split at h1
      · split at h1
        · obtain ⟨j, -, h1⟩ := bind_ok_iff.1 h1
          exact pushLoop_only hs hd h1
        · cases h1; exact ⟨OnlyAt.refl _ _, hs⟩
      · cases h1; exact ⟨OnlyAt.refl _ _, hs⟩
  obtain ⟨p, h3, h⟩ := bind_ok_iff.1 h
  split at h
  · obtain ⟨w, h4, h⟩ := bind_ok_iff.1 h
    cases h; exact h2
  · cases h; exact h2

theorem readNextValue_only {r : Rd} {s : Option (List Int)} {ch : Nat} {x : Option Int × Rd × Option (List Int)} (hs : s = some xs) (hd : r.dual = false)
    (hne : r.atEnd = false) (h : readNextValue fp arraySrc r s ch = .ok x) : (∃ v, x.1 = some v) ∧ OnlyAt ch r x.2.1 ∧ x.2.2 = some xs := by
  unfold readNextValue baseVal at h
  rw [hne] at h
  simp only [Bool.false_eq_true, if_false, hd, Bool.not_false, Bool.true_or, if_true] at h
  obtain ⟨⟨v, s1⟩, h1, h⟩ := bind_ok_iff.1 h
  have hs1 := srcVal_keeps hs h1
  cases hk : r.interp with
  | none => simp only [hk] at h; cases h; exact ⟨⟨_, rfl⟩, OnlyAt.refl _ _, hs1⟩
  | linear =>
    simp only [hk] at h
    obtain ⟨⟨w, r1, s2⟩, h2, h⟩ := bind_ok_iff.1 h
    cases h; exact ⟨⟨_, rfl⟩, linearVal_only hs1 h2⟩
  | quadratic =>
    simp only [hk] at h
    obtain ⟨⟨w, r1, s2⟩, h2, h⟩ := bind_ok_iff.1 h
    cases h; exact ⟨⟨_, rfl⟩, quadVal_only hs1 hd h2⟩

theorem OnlyAt.atEnd {ch : Nat} {r r1 : Rd} (h : OnlyAt ch r r1) : r1.atEnd = r.atEnd := by
  obtain ⟨p, rfl, -⟩ := h
  rfl

/-- Before the end, no channel makes a loop go round. -/
theorem readChan_live {fuel : Nat} {r : Rd} {s : Option (List Int)} {ch : Nat} (hs : s = some xs) (hd : r.dual = false) (hne : r.atEnd = false) :
    readChan fp arraySrc (fuel + 1) r s ch = readNextValue fp arraySrc r s ch := by
  unfold readChan
  cases e : readNextValue fp arraySrc r s ch with
  | error f => rfl
  | ok x =>
    obtain ⟨o, r1, s1⟩ := x
    obtain ⟨⟨v, hv⟩, -, -⟩ := readNextValue_only hs hd hne e
    simp only at hv
    subst hv
    rfl

/-! ## The channel itself -/

/-- `r` reads a sound of `n` channels from `Hd`, `r'` its channel `c` alone from `H`; they are at the same frame. Frames before which the sound has
ended are those with `fin`. -/
structure Alone (up : Bool) (k : Interp) (c : Nat) (n Hd H F back : Int) (fin : Int → Bool) (r r' : Rd) : Prop where
  playing : r.playing = r'.playing
  place : ∃ i : Int, r.pos1 = Hd + i * n ∧ r'.pos1 = H + i ∧ (up = true → 0 ≤ i) ∧ (up = false → i < F)
  ends : ∀ i : Int, ({ r with pos1 := Hd + i * n } : Rd).atEnd = fin i
  ends' : ∀ i : Int, ({ r' with pos1 := H + i } : Rd).atEnd = fin i
  loop : r.loopType = .none ∨ (r.loopType = .repeat ∧ up = true ∧ r.posOf r.loopStart = Hd + back * n ∧ r'.posOf r'.loopStart = H + back ∧ fin back = false ∧ 0 ≤ back)
  loop' : r'.loopType = r.loopType
  rate : r'.rate = r.rate
  dir : up = true → 0 ≤ r.rate
  dir' : up = false → r.rate < 0
  rem : r'.rem = r.rem
  sign : up = true → 0 ≤ r.rem
  sign' : up = false → r.rem ≤ 0
  head : r.header = Hd
  head' : r'.header = H
  chans : r.nch = n
  chans' : r'.nch = 1
  pts : k ≠ .none → r'.pts 0 = r.pts c
  kind : r.interp = k
  kind' : r'.interp = k
  dual : r.dual = false
  dual' : r'.dual = false
  calm : k ≠ .none → |r.rate| ≤ 1

variable (hn : 1 ≤ n) (hc : (c : Int) < n) (hF : 0 ≤ F)
variable (hfin : ∀ i : Int, fin i = false → (up = true → i < F) ∧ (up = false → 0 ≤ i))
variable (hxy : ∀ i : Int, 0 ≤ i → i < F → ∀ v w, xs[(Hd + i * n + c).toNat]? = some v → ys[(H + i).toNat]? = some w → v = w)

theorem Alone.only {r r1 r' : Rd} (h : Alone up k c n Hd H F back fin r r') {ch : Nat} (hch : ch ≠ c) (ho : OnlyAt ch r r1) : Alone up k c n Hd H F back fin r1 r' := by
  obtain ⟨p, rfl, hp⟩ := ho
  exact { h with pts := fun hk => (h.pts hk).trans (hp c (Ne.symm hch)).symm }

theorem Alone.atEnd {r r' : Rd} (h : Alone up k c n Hd H F back fin r r') :
    r'.atEnd = r.atEnd ∧ ∃ i : Int, r.pos1 = Hd + i * n ∧ r'.pos1 = H + i ∧ (up = true → 0 ≤ i) ∧ (up = false → i < F) ∧ r.atEnd = fin i := by
  obtain ⟨i, h1, h2, h3, h4⟩ := h.place
  have e1 := h.ends i
  have e2 := h.ends' i
  rw [← h1] at e1
  rw [← h2] at e2
  exact ⟨e2.trans e1.symm, i, h1, h2, h3, h4, e1⟩

include hfin hxy in
theorem srcVal_alone {r r' : Rd} (h : Alone up k c n Hd H F back fin r r') (hne : r.atEnd = false) {s t : Option (List Int)} (hq : Mems xs ys s t) :
    Agree (fun x y => x.1 = y.1 ∧ Mems xs ys x.2 y.2) (srcVal arraySrc r s r.pos1 0 c) (srcVal arraySrc r' t r'.pos1 0 0) := by
  rintro ⟨v, s'⟩ ⟨w, t'⟩ e1 e2
  obtain ⟨h1, h2⟩ := srcVal_array hq.1 e1
  obtain ⟨h3, h4⟩ := srcVal_array hq.2 e2
  refine ⟨?_, h2, h4⟩
  obtain ⟨-, i, i1, i2, i3, i4, i5⟩ := h.atEnd
  obtain ⟨f1, f2⟩ := hfin i (i5.symm.trans hne)
  have b : 0 ≤ i ∧ i < F := by
    cases hu : up with
    | true => exact ⟨i3 hu, f1 hu⟩
    | false => exact ⟨f2 hu, i4 hu⟩
  rw [i1, Int.zero_mul, Int.add_zero] at h1
  rw [i2, Int.zero_mul, Int.add_zero, Nat.cast_zero, Int.add_zero] at h3
  exact hxy i b.1 b.2 v w h1 h3

theorem addPoint_alone {r r' : Rd} (h : Alone up k c n Hd H F back fin r r') (y : Int) :
    Agree (fun x y => Alone up k c n Hd H F back fin x y) (addPoint r c y) (addPoint r' 0 y) := by
  unfold addPoint
  rw [h.kind, h.kind']
  by_cases h8 : c < 8
  · cases hk : k with
    | none => exact Agree.ok (hk ▸ h)
    | linear =>
      subst hk
      simp only [h8, if_true, Nat.ofNat_pos]
      exact Agree.ok { h with pts := fun hk => by simp only [Function.update_self, h.pts hk], kind := rfl, kind' := rfl }
    | quadratic =>
      subst hk
      simp only [h8, if_true, Nat.ofNat_pos]
      exact Agree.ok { h with pts := fun hk => by simp only [Function.update_self, h.pts hk], kind := rfl, kind' := rfl }
  · cases hk : k with
    | none => exact Agree.ok (hk ▸ h)
    | linear => simp only [h8, if_false]; exact Agree.error
    | quadratic => simp only [h8, if_false]; exact Agree.error

theorem Alone.ptsOf {r r' : Rd} (h : Alone up k c n Hd H F back fin r r') (hk : k ≠ .none) : Agree (fun x y => x = y) (TVP.ptsOf r c) (TVP.ptsOf r' 0) := by
  unfold TVP.ptsOf
  rw [h.pts hk]
  by_cases h8 : c < 8
  · simp only [h8, if_true, Nat.ofNat_pos]; exact Agree.ok rfl
  · simp only [h8, if_false]; exact Agree.error

theorem linearVal_alone {r r' : Rd} (h : Alone up k c n Hd H F back fin r r') (hk : k ≠ .none) {s t : Option (List Int)} (hq : Mems xs ys s t) (v : Int) :
    Agree (fun x y => x.1 = y.1 ∧ Alone up k c n Hd H F back fin x.2.1 y.2.1 ∧ Mems xs ys x.2.2 y.2.2) (linearVal fp arraySrc r s c v) (linearVal fp arraySrc r' t 0 v) := by
  obtain ⟨c1, c2⟩ := abs_le.1 (h.calm hk)
  have hn1 : ¬ r.rate > 1 := not_lt.2 c2
  have hn2 : ¬ r.rate < -1 := not_lt.2 c1
  unfold linearVal
  simp only [h.rem, h.rate, hn1, hn2, decide_false, Bool.and_false, Bool.false_and, Bool.false_eq_true, if_false]
  refine Agree.ite (fun _ => ?_) fun _ => ?_
  · refine Agree.bind (q := fun x y => Alone up k c n Hd H F back fin x.1 y.1 ∧ Mems xs ys x.2 y.2) ?_ ?_
    · refine Agree.ite (fun _ => ?_) fun _ => ?_
      · refine Agree.ite (fun _ => ?_) fun _ => Agree.ok ⟨h, hq⟩
        exact (h.ptsOf hk).bind fun _ _ _ => (addPoint_alone h v).bind fun _ _ h1 => Agree.ok ⟨h1, hq⟩
      · refine Agree.ite (fun _ => ?_) fun _ => Agree.ok ⟨h, hq⟩
        refine Agree.ite (fun _ => ?_) fun _ => Agree.ok ⟨h, hq⟩
        exact (h.ptsOf hk).bind fun _ _ _ => (addPoint_alone h v).bind fun _ _ h1 => Agree.ok ⟨h1, hq⟩
    · rintro ⟨r1, s1⟩ ⟨r2, s2⟩ ⟨h1, h2⟩
      simp only at h1 h2
      refine (h1.ptsOf hk).bind fun p q hpq => ?_
      subst hpq
      exact Agree.ite (fun _ => Agree.same fun w _ => Agree.ok ⟨rfl, h1, h2⟩) fun _ => Agree.ok ⟨rfl, h1, h2⟩
  · refine (addPoint_alone h v).bind fun r1 r2 h1 => ?_
    refine (h1.ptsOf hk).bind fun p q hpq => ?_
    subst hpq
    exact Agree.ok ⟨rfl, h1, hq⟩

include hfin hxy in
theorem pushLoop_alone {fwd : Bool} {j : Nat} (hj : j ≤ 1) {r r' : Rd} {s t : Option (List Int)} (h : Alone up k c n Hd H F back fin r r') (hne : r.atEnd = false) (hq : Mems xs ys s t) :
    Agree (fun x y => Alone up k c n Hd H F back fin x.1 y.1 ∧ Mems xs ys x.2 y.2) (pushLoop fp arraySrc fwd c j r s) (pushLoop fp arraySrc fwd 0 j r' t) := by
  rcases Nat.le_one_iff_eq_zero_or_eq_one.1 hj with rfl | rfl
  · unfold pushLoop; exact Agree.ok ⟨h, hq⟩
  · unfold pushLoop
    simp only [h.dual, h.dual', Bool.false_and, Bool.false_eq_true, if_false, Nat.cast_zero, neg_zero, ite_self]
    refine (srcVal_alone hfin hxy h hne hq).bind ?_
    rintro ⟨y, s1⟩ ⟨y', t1⟩ ⟨h1, h2⟩
    simp only at h1 h2
    subst h1
    simp only [pure_eq_ok, ok_bind]
    refine (addPoint_alone h y).bind fun r1 r2 h3 => ?_
    unfold pushLoop
    exact Agree.ok ⟨h3, h2⟩

theorem trunc_intCast' (z : Int) : trunc ((z : Int) : ℚ) = z := by
  unfold trunc
  split
  · exact Int.floor_intCast _
  · rw [← Int.cast_neg, Int.floor_intCast]; omega

include hfin hxy in
theorem quadVal_alone {r r' : Rd} (h : Alone up k c n Hd H F back fin r r') (hk : k = .quadratic) (hne : r.atEnd = false) {s t : Option (List Int)} (hq : Mems xs ys s t) :
    Agree (fun x y => x.1 = y.1 ∧ Alone up k c n Hd H F back fin x.2.1 y.2.1 ∧ Mems xs ys x.2.2 y.2.2) (quadVal fp arraySrc r s c) (quadVal fp arraySrc r' t 0) := by
  have hk' : k ≠ .none := by rw [hk]; decide
  obtain ⟨c1, c2⟩ := abs_le.1 (h.calm hk')
  have s1 : 0 < r.rate → 0 ≤ r.rem := fun hp => by
    cases hu : up with
    | true => exact h.sign hu
    | false => exact absurd (h.dir' hu) (not_lt.2 (le_of_lt hp))
  have s2 : r.rate < 0 → r.rem ≤ 0 := fun hp => by
    cases hu : up with
    | true => exact absurd (h.dir hu) (not_le.2 hp)
    | false => exact h.sign' hu
  have e1 : fp.d.rnd 1 = 1 := by simpa using fp.d.exact_int (m := 1) (by norm_num) (by norm_num) (by norm_num)
  have e2 : fp.d.rnd (-1) = -1 := by simpa using fp.d.exact_int (m := -1) (by norm_num) (by norm_num) (by norm_num)
  unfold quadVal
  simp only [h.rem, h.rate]
  refine Agree.bind (q := fun x y => Alone up k c n Hd H F back fin x.1 y.1 ∧ Mems xs ys x.2 y.2) ?_ ?_
  · refine Agree.ite (fun hpos => ?_) fun _ => ?_
    · refine Agree.ite (fun _ => Agree.same fun j hj => ?_) fun _ => Agree.ok ⟨h, hq⟩
      have m := fp.d.mono (show (-1 : ℚ) ≤ r.rem - r.rate by linarith [s1 hpos])
      rw [e2] at m
      have hfl : -1 ≤ ⌊fp.d.rnd (r.rem - r.rate)⌋ := by rw [Int.le_floor]; push_cast; exact m
      have hj' := castI32_inv hj
      have hle : (min j 4).toNat ≤ 1 := by
        rw [← Int.cast_neg, trunc_intCast'] at hj'
        omega
      exact pushLoop_alone hfin hxy hle h hne hq
    · refine Agree.ite (fun hneg => ?_) fun _ => Agree.ok ⟨h, hq⟩
      refine Agree.ite (fun _ => Agree.same fun j hj => ?_) fun _ => Agree.ok ⟨h, hq⟩
      have m := fp.d.mono (show r.rem - r.rate ≤ (1 : ℚ) by linarith [s2 hneg])
      rw [e1] at m
      have hfl : ⌈fp.d.rnd (r.rem - r.rate)⌉ ≤ 1 := by rw [Int.ceil_le]; push_cast; exact m
      have hj' := castI32_inv hj
      have hle : (min j 4).toNat ≤ 1 := by
        rw [trunc_intCast'] at hj'
        omega
      exact pushLoop_alone hfin hxy hle h hne hq
  · rintro ⟨r1, s1⟩ ⟨r2, s2⟩ ⟨h1, h2⟩
    simp only at h1 h2
    refine (h1.ptsOf hk').bind fun p q hpq => ?_
    subst hpq
    exact Agree.ite (fun _ => Agree.same fun w _ => Agree.ok ⟨rfl, h1, h2⟩) fun _ => Agree.ok ⟨rfl, h1, h2⟩

include hfin hxy in
theorem readNextValue_alone {r r' : Rd} (h : Alone up k c n Hd H F back fin r r') (hne : r.atEnd = false) {s t : Option (List Int)} (hq : Mems xs ys s t) :
    Agree (fun x y => x.1 = y.1 ∧ Alone up k c n Hd H F back fin x.2.1 y.2.1 ∧ Mems xs ys x.2.2 y.2.2) (readNextValue fp arraySrc r s c) (readNextValue fp arraySrc r' t 0) := by
  unfold readNextValue baseVal
  rw [h.atEnd.1, hne]
  simp only [h.dual, h.dual', Bool.not_false, Bool.true_or, Bool.false_eq_true, if_false, if_true]
  refine (srcVal_alone hfin hxy h hne hq).bind ?_
  rintro ⟨y, s1⟩ ⟨y', t1⟩ ⟨h1, h2⟩
  simp only at h1 h2
  subst h1
  simp only [h.kind, h.kind']
  cases hk : k with
  | none => exact Agree.ok ⟨rfl, hk ▸ h, h2⟩
  | linear =>
    subst hk
    exact (linearVal_alone h (by decide) h2 y).bind fun _ _ ⟨h3, h4, h5⟩ => Agree.ok ⟨by simp only; rw [h3], h4, h5⟩
  | quadratic =>
    subst hk
    exact (quadVal_alone hfin hxy h rfl hne h2).bind fun _ _ ⟨h3, h4, h5⟩ => Agree.ok ⟨by simp only; rw [h3], h4, h5⟩

/-! ## Whole frames -/

/-- The channels after the chosen one are read and change nothing about it. -/
theorem readFrame_rest {fuel : Nat} : ∀ (left ch : Nat) {r r' : Rd} {s : Option (List Int)} {x : List Int × Bool × Rd × Option (List Int)}, c < ch →
    Alone up k c n Hd H F back fin r r' → r.atEnd = false → s = some xs → readFrame fp arraySrc (fuel + 1) left ch r s = .ok x →
    x.2.1 = true ∧ Alone up k c n Hd H F back fin x.2.2.1 r' ∧ x.2.2.2 = some xs
  | 0, ch, r, r', s, x, _, h, _, hs, e => by unfold readFrame at e; cases e; exact ⟨rfl, h, hs⟩
  | left + 1, ch, r, r', s, x, hlt, h, hne, hs, e => by
    unfold readFrame at e
    rw [readChan_live hs h.dual hne] at e
    obtain ⟨⟨o, r1, s1⟩, e1, e⟩ := bind_ok_iff.1 e
    obtain ⟨⟨v, hv⟩, h1, h2⟩ := readNextValue_only hs h.dual hne e1
    simp only at hv h1 h2
    subst hv
    simp only at e
    obtain ⟨⟨vs, ok, r2, s2⟩, e2, e⟩ := bind_ok_iff.1 e
    cases e
    obtain ⟨j1, j2, j3⟩ := readFrame_rest left (ch + 1) (Nat.lt_succ_of_lt hlt) (h.only (by omega) h1) (h1.atEnd.trans hne) h2 e2
    exact ⟨j1, j2, j3⟩

include hfin hxy in
/-- Before the end: the chosen channel of the frame is what the other reader gets. -/
theorem readFrame_live {fuel fuel' : Nat} : ∀ (left ch : Nat) {r r' : Rd} {s t : Option (List Int)}, ch ≤ c → c < ch + left →
    Alone up k c n Hd H F back fin r r' → r.atEnd = false → Mems xs ys s t →
    Agree (fun x y => x.1.getD (c - ch) 0 = y.1.getD 0 0 ∧ x.2.1 = y.2.1 ∧ Alone up k c n Hd H F back fin x.2.2.1 y.2.2.1 ∧ Mems xs ys x.2.2.2 y.2.2.2)
      (readFrame fp arraySrc (fuel + 1) left ch r s) (readFrame fp arraySrc (fuel' + 1) 1 0 r' t)
  | 0, ch, r, r', s, t, h1, h2, _, _, _ => by omega
  | left + 1, ch, r, r', s, t, hle, hlt, h, hne, hq => by
    by_cases hch : ch = c
    · subst hch
      unfold readFrame
      rw [readChan_live hq.1 h.dual hne, readChan_live hq.2 h.dual' (h.atEnd.1.trans hne)]
      intro x y e e'
      obtain ⟨⟨o, r1, s1⟩, e1, e⟩ := bind_ok_iff.1 e
      obtain ⟨⟨o', r1', t1⟩, e1', e'⟩ := bind_ok_iff.1 e'
      obtain ⟨h1, h2, h3⟩ := readNextValue_alone hfin hxy h hne hq _ _ e1 e1'
      obtain ⟨⟨v, hv⟩, h4, h5⟩ := readNextValue_only hq.1 h.dual hne e1
      simp only at h1 h2 h3 h4 h5 hv
      subst h1 hv
      simp only at e e'
      obtain ⟨⟨vs, ok, r2, s2⟩, e2, e⟩ := bind_ok_iff.1 e
      obtain ⟨⟨vs', ok', r2', t2⟩, e2', e'⟩ := bind_ok_iff.1 e'
      unfold readFrame at e2'
      cases e2'
      cases e
      cases e'
      obtain ⟨j1, j2, j3⟩ := readFrame_rest left (ch + 1) (Nat.lt_succ_self _) h2 (h4.atEnd.trans hne) h5 e2
      refine ⟨?_, j1, j2, j3, h3.2⟩
      simp only [Nat.sub_self, List.getD_cons_zero]
    · have hch' : ch < c := lt_of_le_of_ne hle hch
      intro x y e e'
      unfold readFrame at e
      rw [readChan_live hq.1 h.dual hne] at e
      obtain ⟨⟨o, r1, s1⟩, e1, e⟩ := bind_ok_iff.1 e
      obtain ⟨⟨v, hv⟩, h1, h2⟩ := readNextValue_only hq.1 h.dual hne e1
      simp only at hv h1 h2
      subst hv
      simp only at e
      obtain ⟨⟨vs, ok, r2, s2⟩, e2, e⟩ := bind_ok_iff.1 e
      cases e
      obtain ⟨j1, j2, j3, j4⟩ := readFrame_live left (ch + 1) hch' (by omega) (h.only hch h1) (h1.atEnd.trans hne) ⟨h2, hq.2⟩ _ _ e2 e'
      refine ⟨?_, j2, j3, j4⟩
      have : c - ch = (c - (ch + 1)) + 1 := by omega
      rw [this]
      simpa using j1

/-- At the end the first channel goes round the loop, the others find nothing unusual. -/
theorem readFrame_wrap {fuel left : Nat} {r r1 : Rd} {s : Option (List Int)} (hs : s = some xs) (hat : r.atEnd = true) (hw : wrapAround r = some r1) (hd : r1.dual = false)
    (hne : r1.atEnd = false) :
    readFrame fp arraySrc (fuel + 2) (left + 1) 0 r s = readFrame fp arraySrc (fuel + 2) (left + 1) 0 r1 s := by
  have e : readChan fp arraySrc (fuel + 2) r s 0 = readChan fp arraySrc (fuel + 2) r1 s 0 := by
    rw [readChan_live hs hd hne]
    conv => { lhs; unfold readChan }
    have : readNextValue fp arraySrc r s 0 = .ok (none, r, s) := by unfold readNextValue; rw [hat]; rfl
    rw [this]
    simp only [ok_bind, hw]
    exact readChan_live hs hd hne
  unfold readFrame
  rw [e]

theorem readFrame_stop {fuel left : Nat} {r : Rd} {s : Option (List Int)} (hat : r.atEnd = true) (hw : wrapAround r = none) :
    readFrame fp arraySrc (fuel + 1) (left + 1) 0 r s = .ok ([], false, { r with cfOn := false }, s) := by
  unfold readFrame readChan
  have : readNextValue fp arraySrc r s 0 = .ok (none, r, s) := by unfold readNextValue; rw [hat]; rfl
  rw [this]
  simp only [ok_bind, hw]
  rfl

theorem readFrame_short {fuel left : Nat} {r r1 : Rd} {s : Option (List Int)} (hat : r.atEnd = true) (hw : wrapAround r = some r1) (hf : fuel ≤ 1) :
    ∃ e, readFrame fp arraySrc fuel (left + 1) 0 r s = .error e := by
  unfold readFrame
  rcases Nat.le_one_iff_eq_zero_or_eq_one.1 hf with rfl | rfl
  · exact ⟨_, rfl⟩
  · unfold readChan
    have : readNextValue fp arraySrc r s 0 = .ok (none, r, s) := by unfold readNextValue; rw [hat]; rfl
    rw [this]
    simp only [ok_bind, hw]
    unfold readChan
    exact ⟨_, rfl⟩

include hfin hxy hc in
theorem readFrame_alone {fuel fuel' : Nat} {r r' : Rd} {s t : Option (List Int)} (h : Alone up k c n Hd H F back fin r r') (hq : Mems xs ys s t) :
    Agree (fun x y => x.2.1 = y.2.1 ∧ (x.2.1 = true → x.1.getD c 0 = y.1.getD 0 0) ∧ Alone up k c n Hd H F back fin x.2.2.1 y.2.2.1 ∧ Mems xs ys x.2.2.2 y.2.2.2)
      (readFrame fp arraySrc fuel n.toNat 0 r s) (readFrame fp arraySrc fuel' 1 0 r' t) := by
  obtain ⟨left, hl⟩ : ∃ left, n.toNat = left + 1 := ⟨n.toNat - 1, by omega⟩
  have hcl : c < 0 + (left + 1) := by omega
  rw [hl]
  have main : ∀ {fuel fuel' : Nat} {r r' : Rd}, Alone up k c n Hd H F back fin r r' → r.atEnd = false →
      Agree (fun x y => x.2.1 = y.2.1 ∧ (x.2.1 = true → x.1.getD c 0 = y.1.getD 0 0) ∧ Alone up k c n Hd H F back fin x.2.2.1 y.2.2.1 ∧ Mems xs ys x.2.2.2 y.2.2.2)
        (readFrame fp arraySrc (fuel + 1) (left + 1) 0 r s) (readFrame fp arraySrc (fuel' + 1) 1 0 r' t) := fun h hne x y e e' => by
    obtain ⟨j1, j2, j3, j4⟩ := readFrame_live hfin hxy (left + 1) 0 (Nat.zero_le _) hcl h hne hq x y e e'
    exact ⟨j2, fun _ => j1, j3, j4⟩
  have z : ∀ (l : Nat) (r : Rd) (s : Option (List Int)), readFrame fp arraySrc 0 (l + 1) 0 r s = .error .hang := fun l r s => by unfold readFrame readChan; rfl
  cases hat : r.atEnd with
  | false =>
    cases fuel with
    | zero => rw [z]; exact Agree.error
    | succ fuel =>
      cases fuel' with
      | zero => rw [z 0]; exact Agree.error'
      | succ fuel' => exact main h hat
  | true =>
    have hat' := h.atEnd.1.trans hat
    rcases h.loop with hlp | ⟨hlp, hup, b1, b2, b3, b4⟩
    · have w : wrapAround r = none := by unfold wrapAround; simp only [hlp]
      have w' : wrapAround r' = none := by unfold wrapAround; simp only [h.loop', hlp]
      cases fuel with
      | zero => rw [z]; exact Agree.error
      | succ fuel =>
        cases fuel' with
        | zero => rw [z 0]; exact Agree.error'
        | succ fuel' =>
          rw [readFrame_stop hat w, readFrame_stop (left := 0) hat' w']
          exact Agree.ok ⟨rfl, (fun h => nomatch h), { h with pts := h.pts }, hq⟩
    · have hr := h.dir hup
      have w : wrapAround r = some { r with cfOn := false, pos1 := r.posOf r.loopStart } := by
        unfold wrapAround
        simp only [hlp, ge_iff_le, hr, if_true]
        rfl
      have w' : wrapAround r' = some { r' with cfOn := false, pos1 := r'.posOf r'.loopStart } := by
        unfold wrapAround
        simp only [h.loop', hlp, h.rate, ge_iff_le, hr, if_true]
        rfl
      have h1 : Alone up k c n Hd H F back fin { r with cfOn := false, pos1 := r.posOf r.loopStart } { r' with cfOn := false, pos1 := r'.posOf r'.loopStart } :=
        { h with place := ⟨back, b1, b2, fun _ => b4, fun hu => by rw [hup] at hu; cases hu⟩ }
      have hne : Rd.atEnd { r with cfOn := false, pos1 := r.posOf r.loopStart } = false := by
        have := h.ends back
        rw [← b1] at this
        exact this.trans b3
      have hne' := h1.atEnd.1.trans hne
      by_cases hf : fuel ≤ 1
      · obtain ⟨e, he⟩ := readFrame_short (fp := fp) (left := left) (s := s) hat w hf
        rw [he]; exact Agree.error
      · by_cases hf' : fuel' ≤ 1
        · obtain ⟨e, he⟩ := readFrame_short (fp := fp) (left := 0) (s := t) hat' w' hf'
          rw [he]; exact Agree.error'
        · obtain ⟨f, rfl⟩ : ∃ f, fuel = f + 2 := ⟨fuel - 2, by omega⟩
          obtain ⟨f', rfl⟩ : ∃ f, fuel' = f + 2 := ⟨fuel' - 2, by omega⟩
          rw [readFrame_wrap hq.1 hat w h1.dual hne, readFrame_wrap (left := 0) hq.2 hat' w' h1.dual' hne']
          exact main h1 hne

theorem stepOn_alone {r r' : Rd} (h : Alone up k c n Hd H F back fin r r') : Agree (Alone up k c n Hd H F back fin) (stepOn fp r) (stepOn fp r') := by
  intro q q' e e'
  obtain ⟨p, rfl⟩ := stepOn_inv e
  obtain ⟨p', rfl⟩ := stepOn_inv e'
  have hs : fp.d.rnd (r'.rem + r'.rate) = fp.d.rnd (r.rem + r.rate) := by rw [h.rem, h.rate]
  have hu : up = true → 0 ≤ fp.d.rnd (r.rem + r.rate) := fun hu => fp.d.nonneg (by linarith [h.sign hu, h.dir hu])
  have hd : up = false → fp.d.rnd (r.rem + r.rate) ≤ 0 := fun hu => fp.d.nonpos (by linarith [h.sign' hu, h.dir' hu])
  rw [hs]
  have h0 := h
  generalize fp.d.rnd (r.rem + r.rate) = x at hu hd
  have tu : up = true → trunc x = ⌊x⌋ ∧ 0 ≤ trunc x := fun hup => by
    have e : trunc x = ⌊x⌋ := by unfold trunc; rw [if_pos (hu hup)]
    exact ⟨e, e ▸ Int.floor_nonneg.2 (hu hup)⟩
  have td : up = false → trunc x = -⌊-x⌋ ∧ trunc x ≤ 0 := fun hup => by
    have e : trunc x = -⌊-x⌋ := by
      rw [← neg_neg x, trunc_neg', neg_neg]
      unfold trunc
      rw [if_pos (by linarith [hd hup])]
    refine ⟨e, ?_⟩
    rw [e]
    have := Int.floor_nonneg.2 (show 0 ≤ -x by linarith [hd hup])
    omega
  obtain ⟨i, i1, i2, i3, i4⟩ := h.place
  refine { h with place := ⟨i + trunc x, ?_, ?_, fun hup => ?_, fun hup => ?_⟩, rem := rfl, sign := fun hup => ?_, sign' := fun hup => ?_ }
  · simp only
    rw [i1, h.chans]; ring
  · simp only
    rw [i2, h.chans']; ring
  · have := i3 hup; have := (tu hup).2; omega
  · have := i4 hup; have := (td hup).2; omega
  · simp only
    rw [(tu hup).1]
    exact fp.d.nonneg (by linarith [Int.floor_le x])
  · simp only
    rw [(td hup).1]
    exact fp.d.nonpos (by push_cast; linarith [Int.floor_le (-x)])

include hc hfin hxy in
theorem readLoop_alone {fuel fuel' : Nat} : ∀ (l : Nat) {r r' : Rd} {s t : Option (List Int)}, Alone up k c n Hd H F back fin r r' → Mems xs ys s t →
    Agree (fun x y => x.frames.map (·.getD c 0) = y.frames.map (·.getD 0 0) ∧ Alone up k c n Hd H F back fin x.r y.r ∧ Mems xs ys x.s y.s)
      (readLoop fp arraySrc fuel l r s) (readLoop fp arraySrc fuel' l r' t)
  | 0, r, r', s, t, h, hq => by unfold readLoop; exact Agree.ok ⟨rfl, h, hq⟩
  | l + 1, r, r', s, t, h, hq => by
    unfold readLoop
    simp only [h.dual, h.dual', Bool.false_eq_true, if_false, pure_eq_ok, ok_bind, h.chans, h.chans', Int.toNat_one]
    refine (readFrame_alone hc hfin hxy h hq).bind ?_
    rintro ⟨vs, ok, r2, s2⟩ ⟨vs', ok', r2', t2⟩ ⟨k1, k2, k3, k4⟩
    simp only at k1 k2 k3 k4
    subst k1
    simp only
    refine Agree.ite (fun hok => ?_) fun _ => Agree.ok ⟨rfl, k3, k4⟩
    refine (stepOn_alone k3).bind fun r3 r3' h3 => ?_
    refine (readLoop_alone l h3 k4).bind ?_
    rintro x y ⟨j1, j2, j3⟩
    exact Agree.ok ⟨by simp only [List.map_cons]; rw [j1, k2 hok], j2, j3⟩

/-! ## Players -/

/-- Two players with the sounds in memory; once they have stopped nothing more is asked. -/
structure AloneOn (up : Bool) (k : Interp) (c : Nat) (n Hd H F back : Int) (fin : Int → Bool) (xs ys : List Int) (b b' : ArrayReader) : Prop where
  rd : b.rd.playing = true → Alone up k c n Hd H F back fin b.rd b'.rd
  playing : b'.rd.playing = b.rd.playing
  chans : b.rd.nch = n
  chans' : b'.rd.nch = 1
  kind : b.rd.interp = k
  kind' : b'.rd.interp = k
  rem : b'.rd.rem = b.rd.rem
  src : b.src = some xs
  src' : b'.src = some ys

/-- Memory for a block on the single channel is there when it is there for all channels of the other player. -/
def allOf (n : Nat) (alloc : Nat → Bool) : Nat → Bool := fun _ => (List.range n).all alloc

/-- The same to a player of one channel: it gets memory for a block when the other gets memory for all of its channels. -/
def Deed.alone (n : Nat) : Deed → Deed
  | .tick alloc => .tick (allOf n alloc)
  | .speed v => .speed v

theorem getD_find_range {f : Nat → List Int} (c : Nat) : ∀ (l : List Nat), c ∈ l → (l.map fun ch => (f ch, ch)).find? (fun x => x.2 == c) = some (f c, c)
  | [], h => nomatch h
  | d :: l, h => by
    rw [List.map_cons, List.find?_cons]
    by_cases hd : d = c
    · subst hd; simp
    · have : (d == c) = false := by simpa using hd
      simp only [this]
      exact getD_find_range c l ((List.mem_cons.1 h).resolve_left (Ne.symm hd))

include hn hc in
theorem update_alone {ρ ρ' : Type} {Q : ρ → ρ' → Prop} {rd : M (List (List Int) × ρ)} {rd' : M (List (List Int) × ρ')} {st : ρ} {st' : ρ'} {playing : Bool}
    (hrd : playing = true → Agree (fun x y => x.1.map (·.getD c 0) = y.1.map (·.getD 0 0) ∧ Q x.2 y.2) rd rd') (hst : Q st st') (alloc : Nat → Bool) :
    Agree (fun x y => onOutput c x.1 = onOutput 0 y.1 ∧ x.1.event = y.1.event ∧ Q x.2 y.2) (update n playing rd st alloc) (update 1 playing rd' st' (allOf n.toNat alloc)) := by
  unfold update
  have e1 : ¬ n = -1 := by omega
  have e2 : ¬ n < 0 := by omega
  have e3 : ¬ (1 : Int) = -1 := by omega
  have e4 : ¬ (1 : Int) < 0 := by omega
  simp only [e1, e2, e3, e4, if_false]
  refine Agree.ite (fun _ => Agree.ok ⟨rfl, rfl, hst⟩) fun hp => ?_
  have hp' : playing = true := by simpa using hp
  simp only [pure_eq_ok, Int.toNat_one]
  by_cases ha : (List.range n.toNat).all alloc = true
  · have g1 : (List.range n.toNat).filter alloc = List.range n.toNat := List.filter_eq_self.2 (List.all_eq_true.1 ha)
    have g2 : (List.range 1).filter (allOf n.toNat alloc) = List.range 1 := List.filter_eq_self.2 fun _ _ => ha
    rw [g1, g2, if_pos rfl, if_pos rfl]
    refine (hrd hp').bind ?_
    rintro ⟨fr, st1⟩ ⟨fr', st1'⟩ ⟨h1, h2⟩
    simp only at h1 h2
    have hlen : fr.length = fr'.length := by simpa using congrArg List.length h1
    have hb : blockOf fr c = blockOf fr' 0 := by unfold blockOf; rw [h1, hlen]
    refine Agree.ok ⟨?_, ?_, h2⟩
    · unfold onOutput
      have hm : c ∈ List.range n.toNat := List.mem_range.2 (by omega)
      simp only [if_true]
      split
      · rename_i hn1
        rw [List.find?_append, getD_find_range c _ hm]
        simp [hb]
      · rw [getD_find_range c _ hm]
        simp [hb]
    · simp only [hlen]
  · have g1 : ¬ ((List.range n.toNat).filter alloc).length = (List.range n.toNat).length := fun hc => ha (List.all_eq_true.2 (List.length_filter_eq_length_iff.1 hc))
    have g2 : ¬ ((List.range 1).filter (allOf n.toNat alloc)).length = (List.range 1).length := fun hc => ha (List.length_filter_eq_length_iff.1 hc 0 (by simp))
    rw [if_neg g1, if_neg g2]
    exact Agree.ok ⟨rfl, rfl, hst⟩

include hn hc hfin hxy in
theorem AloneOn.tick {fuel fuel' : Nat} {b b' : ArrayReader} (h : AloneOn up k c n Hd H F back fin xs ys b b') (alloc : Nat → Bool) :
    Agree (fun x y => (onOutput c x.1 = onOutput 0 y.1 ∧ x.1.event = y.1.event) ∧ AloneOn up k c n Hd H F back fin xs ys x.2 y.2) (b.tick fp fuel alloc)
      (b'.tick fp fuel' (allOf n.toNat alloc)) := by
  unfold ArrayReader.tick ArrayReader.update
  rw [h.chans, h.chans', h.playing]
  refine Agree.bind (update_alone hn hc (Q := AloneOn up k c n Hd H F back fin xs ys) (fun hp => ?_) h alloc) ?_
  · unfold ArrayReader.read Rd.read
    rw [h.playing, h.chans, h.chans']
    have hneg : ¬ n < 0 := by omega
    have hz : ¬ n = 0 := by omega
    have h1' : ¬ (1 : Int) < 0 := by omega
    have h2' : ¬ (1 : Int) = 0 := by omega
    simp only [hp, Bool.not_true, Bool.false_eq_true, if_false, hneg, hz, h1', h2']
    refine (readLoop_alone hc hfin hxy _ (h.rd hp) ⟨h.src, h.src'⟩).bind ?_
    rintro x y ⟨h1, h2, h3⟩
    exact Agree.ok ⟨h1, fun _ => h2, h2.playing.symm, h2.chans, h2.chans', h2.kind, h2.kind', h2.rem, h3.1, h3.2⟩
  · rintro ⟨fx, b1⟩ ⟨fx', b1'⟩ ⟨h0, h1, h2⟩
    simp only at h0 h1 h2
    simp only [← h1]
    cases he : fx.event with
    | none => exact Agree.ok ⟨⟨h0, h1⟩, h2⟩
    | some e =>
      refine Agree.ok ⟨⟨h0, h1⟩, ?_⟩
      cases e with
      | reload => exact h2
      | close => exact ⟨(fun hp => nomatch hp), rfl, h2.chans, h2.chans', h2.kind, h2.kind', h2.rem, h2.src, h2.src'⟩

theorem atEnd_rate {r : Rd} {v : ℚ} (h : 0 ≤ v ↔ 0 ≤ r.rate) (p : Int) : ({ r with rate := v, pos1 := p } : Rd).atEnd = ({ r with pos1 := p } : Rd).atEnd := by
  unfold Rd.atEnd
  simp only [ge_iff_le, h]
  rfl

include hn in
theorem AloneOn.speed {b b' : ArrayReader} (h : AloneOn up k c n Hd H F back fin xs ys b b') {v : ℚ} (hup : up = true → 0 ≤ v) (hdown : up = false → v < 0)
    (hv1 : k ≠ .none → |v| ≤ 1) (hin : up = false → b.rd.playing = true → b.rd.header < b.rd.pos1) :
    AloneOn up k c n Hd H F back fin xs ys ⟨b.rd.setPlaybackRate v, b.src⟩ ⟨b'.rd.setPlaybackRate v, b'.src⟩ := by
  obtain ⟨k1, k2⟩ := setPlaybackRate_keeps b.rd v
  obtain ⟨k3, k4⟩ := setPlaybackRate_keeps b'.rd v
  have k5 : ∀ r : Rd, (r.setPlaybackRate v).interp = r.interp ∧ (r.setPlaybackRate v).rem = r.rem := fun r => by
    unfold Rd.setPlaybackRate
    simp only
    repeat' split
    all_goals exact ⟨rfl, rfl⟩
  refine ⟨fun hp => ?_, k3.trans (h.playing.trans k1.symm), k2.trans h.chans, k4.trans h.chans', (k5 _).1.trans h.kind, (k5 _).1.trans h.kind',
    (k5 _).2.trans (h.rem.trans (k5 _).2.symm), h.src, h.src'⟩
  simp only at hp ⊢
  rw [k1] at hp
  have ht := h.rd hp
  obtain ⟨i, i1, i2, i3, i4⟩ := ht.place
  have hsame : 0 ≤ v ↔ 0 ≤ b.rd.rate := by
    cases hu : up with
    | true => exact ⟨fun _ => ht.dir hu, fun _ => hup hu⟩
    | false => exact ⟨fun h => absurd (hdown hu) (not_lt.2 h), fun h => absurd (ht.dir' hu) (not_lt.2 h)⟩
  have hi : (up = true ∧ 0 ≤ v ∧ 0 ≤ i) ∨ 0 < i := by
    cases hu : up with
    | true => exact Or.inl ⟨rfl, hup hu, i3 hu⟩
    | false =>
      refine Or.inr ?_
      have := hin hu hp
      rw [ht.head, i1] at this
      have h2 : 0 * n < i * n := by linarith
      exact lt_of_mul_lt_mul_right h2 (by linarith)
  have j1 : Inside b.rd v ∧ Inside b'.rd v := by
    unfold Inside
    rw [ht.head, ht.head', i1, i2]
    rcases hi with ⟨-, h0, hi⟩ | hi
    · have := Int.mul_nonneg hi (show 0 ≤ n by linarith)
      exact ⟨Or.inr ⟨h0, by linarith⟩, Or.inr ⟨h0, by linarith⟩⟩
    · have := Int.mul_pos hi (show 0 < n by linarith)
      exact ⟨Or.inl (by linarith), Or.inl (by linarith)⟩
  have hsame' : 0 ≤ v ↔ 0 ≤ b'.rd.rate := by rw [ht.rate]; exact hsame
  have he' : ∀ i : Int, ({ b'.rd with rate := v, pos1 := H + i } : Rd).atEnd = fin i := fun i => (atEnd_rate hsame' _).trans (ht.ends' i)
  rw [j1.1.only_rate, j1.2.only_rate]
  exact { ht with
    rate := rfl
    dir := hup
    dir' := hdown
    calm := hv1
    ends := fun i => (atEnd_rate hsame _).trans (ht.ends i)
    ends' := fun i => he' i }

end

end TVP
