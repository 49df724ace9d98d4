import Verif.Lemmas.Shift
import Verif.FpIEEE
import Verif.Model.Settings

/-!
# A sound turned upside down
-/

namespace TVP

/-- Rounding treats both signs alike. -/
def Fp.Even (fp : Fp) : Prop := (∀ x, fp.d.rnd (-x) = -fp.d.rnd x) ∧ ∀ x, fp.f.rnd (-x) = -fp.f.rnd x

theorem ideal_even : Fp.ideal.Even := ⟨fun _ => rfl, fun _ => rfl⟩

theorem rne_neg (q : ℚ) : rne (-q) = -rne q := by
  have h1 := Int.floor_le q
  have h2 := Int.lt_floor_add_one q
  rcases eq_or_lt_of_le h1 with h | h
  · have e1 : rne q = ⌊q⌋ := by conv_lhs => rw [← h, rne_int]
    have e2 : rne (-q) = -⌊q⌋ := by
      rw [show -q = ((-⌊q⌋ : Int) : ℚ) by rw [Int.cast_neg, h], rne_int]
    rw [e1, e2]
  · have e : ⌊-q⌋ = -⌊q⌋ - 1 := by
      rw [Int.floor_eq_iff]
      push_cast
      constructor <;> linarith
    unfold rne
    rw [e]
    push_cast
    split_ifs <;> first | omega | (exfalso; linarith)

theorem rneTo_neg (p : Nat) (emin : Int) (x : ℚ) : rneTo p emin (-x) = -rneTo p emin x := by
  have e : ulpExp p emin (-x) = ulpExp p emin x := by unfold ulpExp; rw [abs_neg]
  unfold rneTo
  rw [e, neg_div, rne_neg]
  push_cast
  ring

theorem ieee_even : Fp.ieee.Even := ⟨fun x => rneTo_neg 53 _ x, fun x => rneTo_neg 24 _ x⟩

theorem trunc_neg (q : ℚ) : trunc (-q) = -trunc q := by
  unfold trunc
  rcases lt_trichotomy q 0 with h | rfl | h
  · rw [if_pos (by linarith), if_neg (by linarith), neg_neg]
  · simp
  · rw [if_neg (by linarith), if_pos h.le, neg_neg]

/-- The samples remembered, upside down. -/
def Pts.flip (p : Pts) : Pts := ⟨p.n, -p.y0, -p.y1, -p.y2, -p.y3⟩

/-- The same reader with what it remembers upside down. -/
def Rd.flip (r : Rd) : Rd := { r with pts := fun c => (r.pts c).flip }

/-- Upside down, but for samples clipped at either end of the range (the two ends are not opposites). -/
def Upside (cub : Bool) (v w : Int) : Prop := w = -v ∨ cub = true ∧ (v = 32767 ∧ w = -32768 ∨ v = -32768 ∧ w = 32767)

variable {fp : Fp} {xs ys : List Int} {cub : Bool}

theorem castI16_neg (q : ℚ) : Agree (fun v w => w = -v) (castI16 q) (castI16 (-q)) := by
  intro v w h1 h2
  unfold castI16 at h1 h2
  rw [trunc_neg] at h2
  split at h1 <;> cases h1
  split at h2 <;> cases h2
  rfl

theorem srcVal_flip (hy : ys = xs.map (-·)) {r : Rd} {s t : Option (List Int)} (hq : Mems xs ys s t) (pos off : Int) (ch : Nat) :
    Agree (fun x y => y.1 = -x.1 ∧ Mems xs ys x.2 y.2) (srcVal arraySrc r s pos off ch) (srcVal arraySrc r.flip t pos off ch) := by
  obtain ⟨rfl, rfl⟩ := hq
  unfold srcVal
  refine Agree.same fun p _ => Agree.same fun q _ => ?_
  intro x y h1 h2
  unfold arraySrc at h1 h2
  simp only at h1 h2
  split at h1
  · rename_i h0
    rw [if_pos h0] at h2
    rw [hy, List.getElem?_map] at h2
    cases hv : xs[q.toNat]? with
    | none => rw [hv] at h1; cases h1
    | some v =>
      rw [hv] at h1 h2
      cases h1
      cases h2
      exact ⟨rfl, rfl, by rw [hy]⟩
  · cases h1

theorem mix_neg (he : fp.Even) (a b v w : ℚ) : fp.d.rnd (fp.d.rnd (a * -v) + fp.d.rnd (b * -w)) = -fp.d.rnd (fp.d.rnd (a * v) + fp.d.rnd (b * w)) := by
  rw [mul_neg, mul_neg, he.1, he.1, ← neg_add, he.1]

theorem baseVal_flip (he : fp.Even) (hy : ys = xs.map (-·)) {r : Rd} {s t : Option (List Int)} (hq : Mems xs ys s t) (ch : Nat) :
    Agree (fun x y => y.1 = -x.1 ∧ Mems xs ys x.2 y.2) (baseVal fp arraySrc r s ch) (baseVal fp arraySrc r.flip t ch) := by
  unfold baseVal
  refine Agree.ite (fun _ => srcVal_flip hy hq _ _ ch) fun _ => Agree.ite (fun _ => srcVal_flip hy hq _ _ ch) fun _ => ?_
  refine (srcVal_flip hy hq _ _ ch).bind ?_
  rintro ⟨v1, s1⟩ ⟨w1, t1⟩ ⟨h1, h2⟩
  refine (srcVal_flip hy h2 _ _ ch).bind ?_
  rintro ⟨v2, s2⟩ ⟨w2, t2⟩ ⟨h3, h4⟩
  simp only at h1 h3
  subst h1 h3
  have e := mix_neg he (fp.d.rnd (1 - r.crossfade)) r.crossfade v2 v1
  refine Agree.bind (q := fun v w => w = -v) ?_ fun v w h => Agree.ok ⟨h, h4⟩
  push_cast
  change Agree _ _ (castI16 (fp.d.rnd (fp.d.rnd (fp.d.rnd (1 - r.crossfade) * -(v2 : ℚ)) + fp.d.rnd (r.crossfade * -(v1 : ℚ)))))
  rw [e]
  exact castI16_neg _

theorem flip_update (f : Nat → Pts) (ch : Nat) (p : Pts) : (fun c => (Function.update f ch p c).flip) = Function.update (fun c => (f c).flip) ch p.flip := by
  funext c
  by_cases h : c = ch
  · subst h; simp
  · simp [Function.update_of_ne h]

theorem addPoint_flip (r : Rd) (ch : Nat) (y : Int) : Agree (fun a b => b = a.flip ∧ a.interp = r.interp) (addPoint r ch y) (addPoint r.flip ch (-y)) := by
  unfold addPoint
  have e : r.flip.interp = r.interp := rfl
  rw [e]
  cases hi : r.interp with
  | none => exact Agree.ok ⟨rfl, hi⟩
  | linear =>
    refine Agree.ite (fun _ => Agree.ok ⟨?_, rfl⟩) fun _ => Agree.error
    unfold Rd.flip
    simp only [flip_update]
    rfl
  | quadratic =>
    refine Agree.ite (fun _ => Agree.ok ⟨?_, rfl⟩) fun _ => Agree.error
    unfold Rd.flip
    simp only [flip_update]
    rfl

theorem pushLoop_flip (he : fp.Even) (hy : ys = xs.map (-·)) {fwd : Bool} {ch : Nat} : ∀ (n : Nat) {r : Rd} {s t : Option (List Int)}, Mems xs ys s t →
    Agree (fun x y => (y.1 = x.1.flip ∧ x.1.interp = r.interp) ∧ Mems xs ys x.2 y.2) (pushLoop fp arraySrc fwd ch n r s) (pushLoop fp arraySrc fwd ch n r.flip t)
  | 0, r, s, t, hq => by unfold pushLoop; exact Agree.ok ⟨⟨rfl, rfl⟩, hq⟩
  | n + 1, r, s, t, hq => by
    unfold pushLoop
    refine (srcVal_flip hy hq _ _ ch).bind ?_
    rintro ⟨v1, s1⟩ ⟨w1, t1⟩ ⟨h1, h2⟩
    simp only at h1
    subst h1
    refine Agree.bind (q := fun x y => y.1 = -x.1 ∧ Mems xs ys x.2 y.2) ?_ ?_
    · refine Agree.ite (fun _ => ?_) fun _ => Agree.ok ⟨rfl, h2⟩
      refine (srcVal_flip hy h2 _ _ ch).bind ?_
      rintro ⟨v2, s2⟩ ⟨w2, t2⟩ ⟨h3, h4⟩
      simp only at h3
      subst h3
      have e := mix_neg he r.crossfade (fp.d.rnd (1 - r.crossfade)) v1 v2
      refine Agree.bind (q := fun v w => w = -v) ?_ fun v w h => Agree.ok ⟨h, h4⟩
      push_cast
      change Agree _ _ (castI16 (fp.d.rnd (fp.d.rnd (-(v1 : ℚ) * r.crossfade) + fp.d.rnd (-(v2 : ℚ) * fp.d.rnd (1 - r.crossfade)))))
      rw [mul_comm (-(v1 : ℚ)), mul_comm (-(v2 : ℚ)), e, mul_comm (v1 : ℚ), mul_comm (v2 : ℚ)]
      exact castI16_neg _
    · rintro ⟨v3, s3⟩ ⟨w3, t3⟩ ⟨h3, h4⟩
      simp only at h3
      subst h3
      refine (addPoint_flip r ch v3).bind ?_
      rintro a b ⟨rfl, hi⟩
      intro x y hx hy'
      obtain ⟨⟨k1, k2⟩, k3⟩ := pushLoop_flip he hy n h4 x y hx hy'
      exact ⟨⟨k1, k2.trans hi⟩, k3⟩

theorem ptsOf_flip (r : Rd) (ch : Nat) : Agree (fun p q => q = p.flip) (ptsOf r ch) (ptsOf r.flip ch) := by
  unfold ptsOf
  exact Agree.ite (fun _ => Agree.ok rfl) fun _ => Agree.error

theorem linearVal_flip (he : fp.Even) (hy : ys = xs.map (-·)) {r : Rd} {s t : Option (List Int)} (hq : Mems xs ys s t) (ch : Nat) (v : Int) :
    Agree (fun x y => y.1 = -x.1 ∧ (y.2.1 = x.2.1.flip ∧ x.2.1.interp = r.interp) ∧ Mems xs ys x.2.2 y.2.2) (linearVal fp arraySrc r s ch v) (linearVal fp arraySrc r.flip t ch (-v)) := by
  unfold linearVal
  simp only
  refine Agree.ite (fun _ => ?_) fun _ => ?_
  · refine Agree.bind (q := fun x y => (y.1 = x.1.flip ∧ x.1.interp = r.interp) ∧ Mems xs ys x.2 y.2) ?_ ?_
    · have key : ∀ (c : Prop) [Decidable c] (off : Int) (n : Pts → Bool), (∀ p : Pts, n p.flip = n p) →
          Agree (fun x y => (y.1 = x.1.flip ∧ x.1.interp = r.interp) ∧ Mems xs ys x.2 y.2)
            (ptsOf r ch >>= fun p => if n p = true then srcVal arraySrc r s r.pos1 off ch >>= fun y =>
              addPoint { r with pts := Function.update r.pts ch { p with y1 := y.1 } } ch v >>= fun q => pure (q, y.2) else addPoint r ch v >>= fun q => pure (q, s))
            (ptsOf r.flip ch >>= fun p => if n p = true then srcVal arraySrc r.flip t r.flip.pos1 off ch >>= fun y =>
              addPoint { r.flip with pts := Function.update r.flip.pts ch { p with y1 := y.1 } } ch (-v) >>= fun q => pure (q, y.2) else addPoint r.flip ch (-v) >>= fun q => pure (q, t)) := by
        intro c _ off n hn
        refine (ptsOf_flip r ch).bind ?_
        rintro p _ rfl
        rw [hn]
        refine Agree.ite (fun _ => ?_) fun _ => ?_
        · refine (srcVal_flip hy hq _ _ ch).bind ?_
          rintro ⟨v1, s1⟩ ⟨w1, t1⟩ ⟨h1, h2⟩
          simp only at h1
          subst h1
          have e : ({ r.flip with pts := Function.update r.flip.pts ch { p.flip with y1 := -v1 } } : Rd) = ({ r with pts := Function.update r.pts ch { p with y1 := v1 } } : Rd).flip := by
            unfold Rd.flip
            simp only [flip_update]
            rfl
          simp only
          rw [e]
          refine (addPoint_flip _ ch v).bind ?_
          rintro a b ⟨k1, k2⟩
          exact Agree.ok ⟨⟨k1, k2⟩, h2⟩
        · refine (addPoint_flip _ ch v).bind ?_
          rintro a b ⟨k1, k2⟩
          exact Agree.ok ⟨⟨k1, k2⟩, hq⟩
      refine Agree.ite (fun _ => ?_) fun _ => Agree.ite (fun _ => ?_) fun _ => Agree.ok ⟨⟨rfl, rfl⟩, hq⟩
      · refine Agree.ite (fun _ => ?_) fun _ => Agree.ok ⟨⟨rfl, rfl⟩, hq⟩
        exact key True (-1) (fun p => !r.dual && p.n < 2 && r.rate > 1 && r.pos1 - r.nch > r.header * 2) fun p => rfl
      · refine Agree.ite (fun _ => ?_) fun _ => Agree.ok ⟨⟨rfl, rfl⟩, hq⟩
        exact key True 1 (fun p => !r.dual && p.n < 2 && r.rate < -1) fun p => rfl
    · rintro ⟨r1, s1⟩ ⟨_, t1⟩ ⟨⟨h1, h2⟩, h3⟩
      simp only at h1 h2
      subst h1
      refine (ptsOf_flip r1 ch).bind ?_
      rintro p _ rfl
      refine Agree.ite (fun _ => ?_) fun _ => Agree.ok ⟨rfl, ⟨rfl, h2⟩, h3⟩
      have e := mix_neg he |r.rem| (fp.d.rnd (1 - |r.rem|)) p.y1 p.y0
      refine Agree.bind (q := fun v w => w = -v) ?_ fun v w h => Agree.ok ⟨h, ⟨rfl, h2⟩, h3⟩
      change Agree _ _ (castI16 (fp.d.rnd (fp.d.rnd (|r.rem| * ((-p.y1 : Int) : ℚ)) + fp.d.rnd (fp.d.rnd (1 - |r.rem|) * ((-p.y0 : Int) : ℚ)))))
      push_cast
      rw [e]
      exact castI16_neg _
  · refine (addPoint_flip r ch v).bind ?_
    rintro a b ⟨rfl, hi⟩
    refine (ptsOf_flip a ch).bind ?_
    rintro p _ rfl
    exact Agree.ok ⟨rfl, ⟨rfl, hi⟩, hq⟩

theorem fiTerm_neg (he : fp.Even) (d : Int) (p c : ℚ) : fiTerm fp.f (-d) p c = -fiTerm fp.f d p c := by
  unfold fiTerm
  push_cast
  rw [neg_mul, he.2, neg_div, he.2]

theorem fiValue_neg (he : fp.Even) (a b c d : Int) (x : ℚ) : fiValue fp (-a) (-b) (-c) (-d) x = -fiValue fp a b c d x := by
  unfold fiValue
  simp only [fiTerm_neg he, ← neg_add, he.2]

theorem fastinterpolate_neg (he : fp.Even) (a b c d : Int) (x : ℚ) : Agree (Upside true) (fastinterpolate fp a b c d x) (fastinterpolate fp (-a) (-b) (-c) (-d) x) := by
  unfold fastinterpolate
  rw [fiValue_neg he]
  refine Agree.bind (q := fun v w => w = -v) ?_ ?_
  · intro v w h1 h2
    unfold castI32 at h1 h2
    rw [trunc_neg] at h2
    split at h1 <;> cases h1
    split at h2 <;> cases h2
    rfl
  · rintro v _ rfl
    refine Agree.ok ?_
    unfold Upside clamp16
    simp only [true_and]
    split_ifs <;> omega

theorem quadVal_flip (he : fp.Even) (hy : ys = xs.map (-·)) {r : Rd} {s t : Option (List Int)} (hq : Mems xs ys s t) (ch : Nat) :
    Agree (fun x y => Upside true x.1 y.1 ∧ (y.2.1 = x.2.1.flip ∧ x.2.1.interp = r.interp) ∧ Mems xs ys x.2.2 y.2.2) (quadVal fp arraySrc r s ch) (quadVal fp arraySrc r.flip t ch) := by
  unfold quadVal
  simp only
  refine Agree.bind (q := fun x y => (y.1 = x.1.flip ∧ x.1.interp = r.interp) ∧ Mems xs ys x.2 y.2) ?_ ?_
  · refine Agree.ite (fun _ => ?_) fun _ => Agree.ite (fun _ => ?_) fun _ => Agree.ok ⟨⟨rfl, rfl⟩, hq⟩
    · exact Agree.ite (fun _ => Agree.same fun _ _ => pushLoop_flip he hy _ hq) fun _ => Agree.ok ⟨⟨rfl, rfl⟩, hq⟩
    · exact Agree.ite (fun _ => Agree.same fun _ _ => pushLoop_flip he hy _ hq) fun _ => Agree.ok ⟨⟨rfl, rfl⟩, hq⟩
  · rintro ⟨r1, s1⟩ ⟨_, t1⟩ ⟨⟨h1, h2⟩, h3⟩
    simp only at h1 h2
    subst h1
    refine (ptsOf_flip r1 ch).bind ?_
    rintro p _ rfl
    refine Agree.ite (fun _ => ?_) fun _ => Agree.ok ⟨Or.inl rfl, ⟨rfl, h2⟩, h3⟩
    exact (fastinterpolate_neg he p.y0 p.y1 p.y2 p.y3 _).bind fun v w h => Agree.ok ⟨h, ⟨rfl, h2⟩, h3⟩

/-- With one of the two kinds of outcome. -/
def Ups (cub : Bool) (o p : Option Int) : Prop := (o = none ∧ p = none) ∨ ∃ v w, o = some v ∧ p = some w ∧ Upside cub v w

theorem readNextValue_flip (he : fp.Even) (hy : ys = xs.map (-·)) {r : Rd} (hc : r.interp = .quadratic → cub = true) {s t : Option (List Int)} (hq : Mems xs ys s t) (ch : Nat) :
    Agree (fun x y => Ups cub x.1 y.1 ∧ (y.2.1 = x.2.1.flip ∧ x.2.1.interp = r.interp) ∧ Mems xs ys x.2.2 y.2.2) (readNextValue fp arraySrc r s ch) (readNextValue fp arraySrc r.flip t ch) := by
  unfold readNextValue
  refine Agree.ite (fun _ => Agree.ok ⟨Or.inl ⟨rfl, rfl⟩, ⟨rfl, rfl⟩, hq⟩) fun _ => ?_
  refine (baseVal_flip he hy hq ch).bind ?_
  rintro ⟨v, s1⟩ ⟨w, t1⟩ ⟨h1, h2⟩
  simp only at h1
  subst h1
  have e : r.flip.interp = r.interp := rfl
  simp only [e]
  cases hi : r.interp with
  | none => exact Agree.ok ⟨Or.inr ⟨_, _, rfl, rfl, Or.inl rfl⟩, ⟨rfl, hi⟩, h2⟩
  | linear =>
    refine (linearVal_flip he hy h2 ch v).bind ?_
    rintro ⟨v2, r2, s2⟩ ⟨w2, r2', t2⟩ ⟨h3, h4, h5⟩
    exact Agree.ok ⟨Or.inr ⟨_, _, rfl, rfl, Or.inl h3⟩, ⟨h4.1, h4.2.trans hi⟩, h5⟩
  | quadratic =>
    refine (quadVal_flip he hy h2 ch).bind ?_
    rintro ⟨v2, r2, s2⟩ ⟨w2, r2', t2⟩ ⟨h3, h4, h5⟩
    refine Agree.ok ⟨Or.inr ⟨_, _, rfl, rfl, ?_⟩, ⟨h4.1, h4.2.trans hi⟩, h5⟩
    rw [hc hi]
    exact h3

theorem wrapAround_flip (r : Rd) : wrapAround r.flip = (wrapAround r).map Rd.flip := by
  unfold wrapAround
  have e : r.flip.loopType = r.loopType := rfl
  simp only [e]
  cases r.loopType <;> rfl

theorem wrapAround_interp {r r' : Rd} (h : wrapAround r = some r') : r'.interp = r.interp := by
  unfold wrapAround at h
  simp only at h
  split at h
  all_goals cases h
  all_goals rfl

theorem readChan_flip (he : fp.Even) (hy : ys = xs.map (-·)) : ∀ (fuel fuel' : Nat) {r : Rd} {s t : Option (List Int)}, (r.interp = .quadratic → cub = true) → Mems xs ys s t → ∀ (ch : Nat),
    Agree (fun x y => Ups cub x.1 y.1 ∧ (y.2.1 = x.2.1.flip ∧ x.2.1.interp = r.interp) ∧ Mems xs ys x.2.2 y.2.2) (readChan fp arraySrc fuel r s ch) (readChan fp arraySrc fuel' r.flip t ch)
  | 0, _, r, s, t, _, _, ch => by unfold readChan; exact Agree.error
  | _ + 1, 0, r, s, t, _, _, ch => by conv => { arg 3; unfold readChan }; exact Agree.error'
  | fuel + 1, fuel' + 1, r, s, t, hc, hq, ch => by
    unfold readChan
    refine (readNextValue_flip he hy hc hq ch).bind ?_
    rintro ⟨o, r1, s1⟩ ⟨p, _, t1⟩ ⟨h1, ⟨h2, h3⟩, h4⟩
    simp only at h1 h2 h3 h4
    subst h2
    rcases h1 with ⟨rfl, rfl⟩ | ⟨v, w, rfl, rfl, hv⟩
    · simp only [wrapAround_flip]
      cases hw : wrapAround r1 with
      | none => exact Agree.ok ⟨Or.inl ⟨rfl, rfl⟩, ⟨rfl, h3⟩, h4⟩
      | some r2 =>
        simp only [Option.map_some]
        have hi := (wrapAround_interp hw).trans h3
        intro x y hx hy'
        obtain ⟨k1, ⟨k2, k3⟩, k4⟩ := readChan_flip he hy fuel fuel' (by rw [hi]; exact hc) h4 ch x y hx hy'
        exact ⟨k1, ⟨k2, k3.trans hi⟩, k4⟩
    · exact Agree.ok ⟨Or.inr ⟨v, w, rfl, rfl, hv⟩, ⟨rfl, h3⟩, h4⟩

theorem readFrame_flip (he : fp.Even) (hy : ys = xs.map (-·)) {fuel fuel' : Nat} : ∀ (left ch : Nat) {r : Rd} {s t : Option (List Int)}, (r.interp = .quadratic → cub = true) → Mems xs ys s t →
    Agree (fun x y => List.Forall₂ (Upside cub) x.1 y.1 ∧ x.2.1 = y.2.1 ∧ (y.2.2.1 = x.2.2.1.flip ∧ x.2.2.1.interp = r.interp) ∧ Mems xs ys x.2.2.2 y.2.2.2)
      (readFrame fp arraySrc fuel left ch r s) (readFrame fp arraySrc fuel' left ch r.flip t)
  | 0, ch, r, s, t, _, hq => by unfold readFrame; exact Agree.ok ⟨.nil, rfl, ⟨rfl, rfl⟩, hq⟩
  | left + 1, ch, r, s, t, hc, hq => by
    unfold readFrame
    refine (readChan_flip he hy fuel fuel' hc hq ch).bind ?_
    rintro ⟨o, r1, s1⟩ ⟨p, _, t1⟩ ⟨h1, ⟨h2, h3⟩, h4⟩
    simp only at h1 h2 h3 h4
    subst h2
    rcases h1 with ⟨rfl, rfl⟩ | ⟨v, w, rfl, rfl, hv⟩
    · exact Agree.ok ⟨.nil, rfl, ⟨rfl, h3⟩, h4⟩
    · simp only
      refine (readFrame_flip he hy left (ch + 1) (by rw [h3]; exact hc) h4).bind ?_
      rintro ⟨vs, ok, r2, s2⟩ ⟨ws, ok', _, t2⟩ ⟨k1, k2, ⟨k3, k4⟩, k5⟩
      exact Agree.ok ⟨.cons hv k1, k2, ⟨k3, k4.trans h3⟩, k5⟩

theorem fadeEnter_flip (r : Rd) : fadeEnter r.flip = (fadeEnter r).flip := by
  unfold fadeEnter
  simp only [apply_ite Rd.flip]
  rfl

theorem updateCrossfade_flip (r : Rd) : Agree (fun x y => y = x.flip) (updateCrossfade fp r) (updateCrossfade fp r.flip) := by
  unfold updateCrossfade
  rw [fadeEnter_flip]
  generalize fadeEnter r = q
  simp only
  refine Agree.ite (fun _ => ?_) fun _ => Agree.ok rfl
  refine Agree.bind (q := fun x y => y = x.flip) ?_ ?_
  · refine Agree.ite (fun _ => ?_) fun _ => ?_
    · exact Agree.ite (fun _ => Agree.ok rfl) fun _ => Agree.same fun w _ => Agree.ok rfl
    · exact Agree.ite (fun _ => Agree.ok rfl) fun _ => Agree.same fun w _ => Agree.ok rfl
  · rintro a _ rfl
    exact Agree.ite (fun _ => Agree.ok rfl) fun _ => Agree.ok rfl

theorem stepOn_flip (r : Rd) : Agree (fun x y => y = x.flip) (stepOn fp r) (stepOn fp r.flip) := by
  unfold stepOn
  exact Agree.same fun d _ => Agree.same fun st _ => Agree.same fun p _ => Agree.ite (fun _ => Agree.same fun _ _ => Agree.ok rfl) fun _ => Agree.ok rfl

/-- All of these are upside down. -/
def Frames (cub : Bool) (fs gs : List (List Int)) : Prop := List.Forall₂ (List.Forall₂ (Upside cub)) fs gs

theorem readLoop_flip (he : fp.Even) (hy : ys = xs.map (-·)) {fuel fuel' : Nat} : ∀ (n : Nat) {r : Rd} {s t : Option (List Int)}, (r.interp = .quadratic → cub = true) → Mems xs ys s t →
    Agree (fun x y => Frames cub x.frames y.frames ∧ (y.r = x.r.flip ∧ x.r.interp = r.interp) ∧ Mems xs ys x.s y.s) (readLoop fp arraySrc fuel n r s) (readLoop fp arraySrc fuel' n r.flip t)
  | 0, r, s, t, _, hq => by unfold readLoop; exact Agree.ok ⟨.nil, ⟨rfl, rfl⟩, hq⟩
  | n + 1, r, s, t, hc, hq => by
    unfold readLoop
    have e : r.flip.dual = r.dual := rfl
    simp only [e]
    refine Agree.ite (fun _ => Agree.bind (q := fun (x y : Rd) => y = x.flip ∧ x.interp = r.interp)
      (fun x y hx hy' => ⟨updateCrossfade_flip r x y hx hy', (updateCrossfade_conf hx).interp⟩) ?_) fun _ =>
      Agree.bind (q := fun (x y : Rd) => y = x.flip ∧ x.interp = r.interp) (Agree.ok ⟨rfl, rfl⟩) ?_
    all_goals
      rintro r1 _ ⟨rfl, hi⟩
      refine (readFrame_flip (cub := cub) he hy _ 0 (by rw [hi]; exact hc) hq).bind ?_
      rintro ⟨vs, ok, r2, s2⟩ ⟨ws, ok', _, t2⟩ ⟨k1, k2, ⟨k3, k4⟩, k5⟩
      simp only at k1 k2 k3 k4 k5
      subst k2 k3
      simp only
      refine Agree.ite (fun _ => ?_) fun _ => Agree.ok ⟨.nil, ⟨rfl, k4.trans hi⟩, k5⟩
      refine Agree.bind (q := fun (x y : Rd) => y = x.flip ∧ x.interp = r.interp) ?_ ?_
      · intro x y hx hy'
        exact ⟨stepOn_flip r2 x y hx hy', ((stepOn_conf hx).interp.trans k4).trans hi⟩
      · rintro r3 _ ⟨rfl, hi3⟩
        refine (readLoop_flip he hy n (by rw [hi3]; exact hc) k5).bind ?_
        rintro x y ⟨j1, j2, j3⟩
        exact Agree.ok ⟨.cons k1 j1, ⟨j2.1, j2.2.trans hi3⟩, j3⟩

theorem read_flip (he : fp.Even) (hy : ys = xs.map (-·)) {fuel fuel' n : Nat} {r : Rd} {s t : Option (List Int)} (hc : r.interp = .quadratic → cub = true) (hq : Mems xs ys s t) :
    Agree (fun x y => Frames cub x.frames y.frames ∧ (y.r = x.r.flip ∧ x.r.interp = r.interp) ∧ Mems xs ys x.s y.s) (r.read fp arraySrc fuel s n) (r.flip.read fp arraySrc fuel' t n) := by
  unfold Rd.read
  exact Agree.ite (fun _ => Agree.ok ⟨.nil, ⟨rfl, rfl⟩, hq⟩) fun _ => Agree.ite (fun _ => Agree.error) fun _ =>
    Agree.ite (fun _ => Agree.ite (fun _ => Agree.ok ⟨.nil, ⟨rfl, rfl⟩, hq⟩) fun _ => Agree.error) fun _ => readLoop_flip he hy n hc hq

theorem rate_flip (r : Rd) (v : ℚ) : r.flip.setPlaybackRate v = (r.setPlaybackRate v).flip := by
  unfold Rd.setPlaybackRate
  simp only [apply_ite Rd.flip]
  rfl

theorem rate_interp (r : Rd) (v : ℚ) : (r.setPlaybackRate v).interp = r.interp := by
  unfold Rd.setPlaybackRate
  simp only
  split_ifs <;> rfl

theorem set_flip (r : Rd) (s : Setting) : r.flip.set s = (r.set s).flip := by
  cases s with
  | speed v => exact rate_flip r v
  | _ => rfl

theorem set_cub {r : Rd} {s : Setting} (h : r.interp = .quadratic → cub = true) (hs : s = .interpolation true → cub = true) : (r.set s).interp = .quadratic → cub = true := by
  cases s with
  | speed v => exact fun e => h ((rate_interp r v).symm.trans e)
  | interpolation c =>
    cases c with
    | true => exact fun _ => hs rfl
    | false => intro e; cases e
  | _ => exact h

theorem reset_flip (r : Rd) : r.flip.reset = r.reset.flip := by
  have e : (fun c => if c < 8 then { (r.pts c).flip with n := 0 } else (r.pts c).flip) = fun c => Pts.flip (if c < 8 then { r.pts c with n := 0 } else r.pts c) := by
    funext c
    split <;> rfl
  unfold Rd.reset
  change ({ r with pts := fun c => if c < 8 then { (r.pts c).flip with n := 0 } else (r.pts c).flip, pos1 := _, crossfade := 0, cfOn := false } : Rd) = _
  rw [e]
  rfl

end TVP
