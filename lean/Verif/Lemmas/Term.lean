import Verif.Lemmas.Fade

/-!
# When `read` returns
-/

namespace TVP

/-- The computation does not run for ever. -/
def Ends {α} (x : M α) : Prop := x ≠ .error .hang

theorem Ends.ok {α} (a : α) : Ends (.ok a : M α) := fun h => by cases h
theorem Ends.pure {α} (a : α) : Ends (Pure.pure a : M α) := fun h => by cases h

theorem Ends.bind {α β} {x : M α} {f : α → M β} (hx : Ends x) (hf : ∀ a, x = .ok a → Ends (f a)) : Ends (x >>= f) := by
  cases x with
  | error e => intro h; exact hx (by cases h; rfl)
  | ok a => exact hf a rfl

theorem Ends.ite {α} {c : Prop} [Decidable c] {x y : M α} (hx : Ends x) (hy : Ends y) : Ends (if c then x else y) := by
  split <;> assumption

theorem ends_castI16 (q : ℚ) : Ends (castI16 q) := by
  unfold castI16; split <;> intro h <;> cases h
theorem ends_castI32 (q : ℚ) : Ends (castI32 q) := by
  unfold castI32; split <;> intro h <;> cases h
theorem ends_chkI32 (x : Int) : Ends (chkI32 x) := by
  unfold chkI32; split <;> intro h <;> cases h
theorem ends_ptsOf (r : Rd) (ch : Nat) : Ends (ptsOf r ch) := by
  unfold ptsOf; split <;> intro h <;> cases h
theorem ends_addPoint (r : Rd) (ch : Nat) (y : Int) : Ends (addPoint r ch y) := by
  unfold addPoint; simp only
  split
  · exact Ends.ok _
  · split <;> intro h <;> cases h
  · split <;> intro h <;> cases h

variable {σ : Type} {S : Src σ}

/-- Every source access returns. -/
def SrcEnds (S : Src σ) : Prop := ∀ s i, Ends (S.get s i)

theorem ends_srcVal (hS : SrcEnds S) (r : Rd) (s : σ) (pos off : Int) (ch : Nat) : Ends (srcVal S r s pos off ch) := by
  unfold srcVal
  exact (ends_chkI32 _).bind fun _ _ => (ends_chkI32 _).bind fun _ _ => hS _ _

theorem ends_baseVal (hS : SrcEnds S) (fp : Fp) (r : Rd) (s : σ) (ch : Nat) : Ends (baseVal fp S r s ch) := by
  unfold baseVal
  refine Ends.ite (ends_srcVal hS _ _ _ _ _) (Ends.ite (ends_srcVal hS _ _ _ _ _) ?_)
  exact (ends_srcVal hS _ _ _ _ _).bind fun _ _ => (ends_srcVal hS _ _ _ _ _).bind fun _ _ =>
    (ends_castI16 _).bind fun _ _ => Ends.pure _

theorem ends_linearVal (hS : SrcEnds S) (fp : Fp) (r : Rd) (s : σ) (ch : Nat) (v : Int) : Ends (linearVal fp S r s ch v) := by
  unfold linearVal
  have hadd : ∀ (q : Rd) (t : σ), Ends (addPoint q ch v >>= fun x => (Pure.pure (x, t) : M (Rd × σ))) :=
    fun q t => (ends_addPoint _ _ _).bind fun _ _ => Ends.pure _
  refine Ends.ite (Ends.bind ?_ fun _ _ => (ends_ptsOf _ _).bind fun _ _ => Ends.ite ((ends_castI16 _).bind fun _ _ => Ends.pure _) (Ends.pure _))
    ((ends_addPoint _ _ _).bind fun _ _ => (ends_ptsOf _ _).bind fun _ _ => Ends.pure _)
  refine Ends.ite (Ends.ite ((ends_ptsOf _ _).bind fun _ _ => Ends.ite ((ends_srcVal hS _ _ _ _ _).bind fun _ _ => hadd _ _) (hadd _ _)) (Ends.pure _))
    (Ends.ite (Ends.ite ((ends_ptsOf _ _).bind fun _ _ => Ends.ite ((ends_srcVal hS _ _ _ _ _).bind fun _ _ => hadd _ _) (hadd _ _)) (Ends.pure _)) (Ends.pure _))

theorem ends_pushLoop (hS : SrcEnds S) (fp : Fp) (fwd : Bool) (ch : Nat) : ∀ (k : Nat) (r : Rd) (s : σ), Ends (pushLoop fp S fwd ch k r s)
  | 0, r, s => Ends.ok _
  | k + 1, r, s => by
    unfold pushLoop
    exact (ends_srcVal hS _ _ _ _ _).bind fun _ _ => Ends.bind
      (Ends.ite ((ends_srcVal hS _ _ _ _ _).bind fun _ _ => (ends_castI16 _).bind fun _ _ => Ends.pure _) (Ends.pure _))
      fun _ _ => (ends_addPoint _ _ _).bind fun _ _ => ends_pushLoop hS fp fwd ch k _ _

theorem ends_quadVal (hS : SrcEnds S) (fp : Fp) (r : Rd) (s : σ) (ch : Nat) : Ends (quadVal fp S r s ch) := by
  unfold quadVal
  refine Ends.bind ?_ fun _ _ => (ends_ptsOf _ _).bind fun _ _ => Ends.ite ?_ (Ends.pure _)
  · exact Ends.ite (Ends.ite ((ends_castI32 _).bind fun _ _ => ends_pushLoop hS fp _ _ _ _ _) (Ends.pure _))
      (Ends.ite (Ends.ite ((ends_castI32 _).bind fun _ _ => ends_pushLoop hS fp _ _ _ _ _) (Ends.pure _)) (Ends.pure _))
  · refine Ends.bind ?_ fun _ _ => Ends.pure _
    unfold fastinterpolate
    exact (ends_castI32 _).bind fun _ _ => Ends.pure _

theorem ends_readNextValue (hS : SrcEnds S) (fp : Fp) (r : Rd) (s : σ) (ch : Nat) : Ends (readNextValue fp S r s ch) := by
  unfold readNextValue
  refine Ends.ite (Ends.pure _) ((ends_baseVal hS _ _ _ _).bind fun x _ => ?_)
  obtain ⟨v, s1⟩ := x
  simp only
  split
  · exact Ends.pure _
  · exact (ends_linearVal hS _ _ _ _ _).bind fun _ _ => Ends.pure _
  · exact (ends_quadVal hS _ _ _ _).bind fun _ _ => Ends.pure _

/-- The lower end of reverse playback. -/
def Rd.lower (r : Rd) : Int := if r.playStart = .sample then r.header else r.posOf r.loopStart

/-- Wrapping round gets to a position that can be read. -/
def CanLoop (r : Rd) : Prop :=
  match r.loopType with
  | .none => True
  | .repeat => if 0 ≤ r.rate then r.posOf r.loopStart < r.posOf r.loopFinish else r.lower ≤ r.posOf (r.loopFinish - r.nch)
  | .pingpong => if r.rate = 0 then r.posOf (r.loopFinish - r.nch) < r.posOf r.loopFinish
      else r.lower < r.posOf r.loopFinish ∨ r.lower ≤ r.posOf (r.loopFinish - r.nch)

theorem atEnd_fwd {r : Rd} (hd : r.dual = false) (hl : r.loopType ≠ .none) (h : 0 ≤ r.rate) :
    r.atEnd = decide (r.posOf r.loopFinish ≤ r.pos1) := by
  unfold Rd.atEnd
  simp only [hd, Bool.false_eq_true, if_false, ge_iff_le, h, if_true, hl]

theorem atEnd_rev {r : Rd} (hd : r.dual = false) (h : r.rate < 0) : r.atEnd = decide (r.pos1 < r.lower) := by
  unfold Rd.atEnd Rd.lower
  simp only [hd, Bool.false_eq_true, if_false, ge_iff_le, not_le.2 h]
  split <;> rfl

theorem wrap_repeat {r : Rd} (hl : r.loopType = .repeat) : wrapAround r =
    some { r with cfOn := false, pos1 := if 0 ≤ r.rate then r.posOf r.loopStart else r.posOf (r.loopFinish - r.nch) } := by
  unfold wrapAround; simp only [hl]; rfl

theorem wrap_pingpong {r : Rd} (hl : r.loopType = .pingpong) : wrapAround r =
    some { r with cfOn := false, rate := -r.rate, pos1 := if 0 ≤ r.rate then r.posOf (r.loopFinish - r.nch) else r.lower } := by
  unfold wrapAround; simp only [hl]; rfl

/-- One or two wraps are enough if `CanLoop`. -/
theorem ends_readChan (hS : SrcEnds S) (fp : Fp) (fuel : Nat) {r : Rd} (s : σ) (ch : Nat) (hc : r.dual = false → CanLoop r) :
    Ends (readChan fp S (fuel + 3) r s ch) := by
  have fine : ∀ (k : Nat) (q : Rd), q.atEnd = false → Ends (readChan fp S (k + 1) q s ch) := fun k q h => by
    rw [readChan_settled h]; exact ends_readNextValue hS fp q s ch
  cases he : r.atEnd
  · exact fine _ r he
  have hd : r.dual = false := by
    cases hd : r.dual
    · rfl
    · rw [atEnd_dual hd] at he; cases he
  have hc := hc hd
  rw [readChan_atEnd he]
  cases hl : r.loopType with
  | none => rw [wrapAround_none.2 hl]; exact Ends.ok _
  | «repeat» =>
    rw [wrap_repeat hl]
    apply fine
    unfold CanLoop at hc
    simp only [hl] at hc
    by_cases h0 : 0 ≤ r.rate
    · rw [if_pos h0] at hc
      refine (atEnd_fwd (by exact hd) (by simp [hl]) (by exact h0)).trans ?_
      simp only [h0, if_true]
      exact decide_eq_false (not_le.2 hc)
    · rw [if_neg h0] at hc
      refine (atEnd_rev (by exact hd) (by exact (not_le.1 h0))).trans ?_
      simp only [h0, if_false]
      exact decide_eq_false (not_lt.2 hc)
  | pingpong =>
    rw [wrap_pingpong hl]
    unfold CanLoop at hc
    simp only [hl] at hc
    by_cases hz : r.rate = 0
    · rw [if_pos hz] at hc
      apply fine
      refine (atEnd_fwd (by exact hd) (by simp [hl]) (by simp [hz])).trans ?_
      simp only [hz, le_refl, if_true]
      exact decide_eq_false (not_le.2 hc)
    rw [if_neg hz] at hc
    rcases lt_or_gt_of_ne hz with h0 | h0
    · -- going down: next the lower end, upwards
      simp only [if_neg (not_le.2 h0)]
      have hr : 0 ≤ -r.rate := by linarith
      by_cases hk : r.lower < r.posOf r.loopFinish
      · apply fine
        refine (atEnd_fwd (by exact hd) (by simp [hl]) (by exact hr)).trans ?_
        exact decide_eq_false (not_le.2 hk)
      · have he1 : ({ r with cfOn := false, rate := -r.rate, pos1 := r.lower } : Rd).atEnd = true := by
          refine (atEnd_fwd (by exact hd) (by simp [hl]) (by exact hr)).trans ?_
          exact decide_eq_true (not_lt.1 hk)
        rw [readChan_atEnd he1, wrap_pingpong (by exact hl)]
        apply fine
        refine (atEnd_rev (by exact hd) (by simpa using h0)).trans ?_
        simp only [if_pos hr]
        rcases hc with hc | hc
        · exact absurd hc hk
        · exact decide_eq_false (not_lt.2 hc)
    · simp only [if_pos (le_of_lt h0)]
      have hr : -r.rate < 0 := by linarith
      by_cases hk : r.lower ≤ r.posOf (r.loopFinish - r.nch)
      · apply fine
        refine (atEnd_rev (by exact hd) (by exact hr)).trans ?_
        exact decide_eq_false (not_lt.2 hk)
      · have he1 : ({ r with cfOn := false, rate := -r.rate, pos1 := r.posOf (r.loopFinish - r.nch) } : Rd).atEnd = true := by
          refine (atEnd_rev (by exact hd) (by exact hr)).trans ?_
          exact decide_eq_true (not_le.1 hk)
        rw [readChan_atEnd he1, wrap_pingpong (by exact hl)]
        apply fine
        refine (atEnd_fwd (by exact hd) (by simp [hl]) (by simpa using le_of_lt h0)).trans ?_
        simp only [if_neg (not_le.2 hr)]
        rcases hc with hc | hc
        · exact decide_eq_false (not_le.2 hc)
        · exact absurd hc hk

/-- `CanLoop` depends on the settings and, unless ping-ponging, on the sign of the rate. -/
theorem CanLoop.conf {r r' : Rd} (h : CanLoop r) (hc : SameConf r r') (hr : r'.rate = r.rate ∨ (r.loopType = .pingpong ∧ r'.rate = -r.rate)) :
    CanLoop r' := by
  have e1 : ∀ x, r'.posOf x = r.posOf x := by intro x; unfold Rd.posOf Rd.s2s; rw [hc.header, hc.nch]
  have e2 : r'.lower = r.lower := by unfold Rd.lower; rw [hc.playStart, hc.header, e1, hc.loopStart]
  unfold CanLoop at h ⊢
  simp only [e1, e2, hc.loopType, hc.loopStart, hc.loopFinish, hc.nch]
  rcases hr with hr | ⟨hl, hr⟩
  · rw [hr]; exact h
  · simp only [hl] at h ⊢
    rw [hr]
    simp only [neg_eq_zero]
    exact h

/-- How wrapping changes the rate. -/
def RateKept (r r' : Rd) : Prop := r'.rate = r.rate ∨ (r.loopType = .pingpong ∧ r'.rate = -r.rate)

theorem RateKept.trans {a b c : Rd} (h1 : RateKept a b) (hc : SameConf a b) (h2 : RateKept b c) : RateKept a c := by
  unfold RateKept at *
  rw [hc.loopType] at h2
  rcases h1 with h1 | ⟨h1, k1⟩ <;> rcases h2 with h2 | ⟨h2, k2⟩
  · left; rw [h2, h1]
  · right; exact ⟨h2, by rw [k2, h1]⟩
  · right; exact ⟨h1, by rw [h2, k1]⟩
  · left; rw [k2, k1, neg_neg]

theorem SameBut.rate {r r' : Rd} (h : SameBut r r') : RateKept r r' := by left; rw [h]

theorem readChan_rate {fp : Fp} : ∀ {fuel : Nat} {r r' : Rd} {s s' : σ} {ch : Nat} {v : Int},
    readChan fp S fuel r s ch = .ok (some v, r', s') → RateKept r r'
  | 0, r, r', s, s', ch, v, h => by unfold readChan at h; cases h
  | fuel + 1, r, r', s, s', ch, v, h => by
    cases he : r.atEnd
    · rw [readChan_settled he] at h
      exact (readNextValue_some h).2.rate
    · rw [readChan_atEnd he] at h
      cases hw : wrapAround r with
      | none => rw [hw] at h; simp at h
      | some r2 =>
        rw [hw] at h
        have ih := readChan_rate h
        refine RateKept.trans ?_ (wrapAround_conf hw) ih
        cases hl : r.loopType with
        | none => rw [wrapAround_none.2 hl] at hw; cases hw
        | «repeat» => rw [wrap_repeat hl] at hw; cases hw; left; rfl
        | pingpong => rw [wrap_pingpong hl] at hw; cases hw; right; exact ⟨hl, rfl⟩

theorem ends_readFrame (hS : SrcEnds S) (fp : Fp) (fuel : Nat) : ∀ (left ch : Nat) (r : Rd) (s : σ), (r.dual = false → CanLoop r) →
    Ends (readFrame fp S (fuel + 3) left ch r s)
  | 0, ch, r, s, _ => Ends.ok _
  | left + 1, ch, r, s, hc => by
    unfold readFrame
    refine (ends_readChan hS fp fuel s ch hc).bind fun x hx => ?_
    obtain ⟨v, r1, s1⟩ := x
    cases v with
    | none => exact Ends.pure _
    | some v =>
      have c1 := (readChan_some hx).2
      exact (ends_readFrame hS fp fuel left (ch + 1) r1 s1
        (fun hd => (hc (by rw [← c1.dual]; exact hd)).conf c1 (readChan_rate hx))).bind fun _ _ => Ends.pure _

theorem readFrame_rate {fp : Fp} {fuel left : Nat} {r r' : Rd} {s s' : σ} {vs : List Int} {ok : Bool}
    (h : readFrame fp S fuel left 0 r s = .ok (vs, ok, r', s')) : RateKept r r' := by
  cases left with
  | zero => unfold readFrame at h; cases h; left; rfl
  | succ left =>
    unfold readFrame at h
    obtain ⟨⟨o, r1, s1⟩, h1, h⟩ := bind_ok_iff.1 h
    cases o with
    | none =>
      cases h
      obtain ⟨_, _, c, _⟩ := readChan_none h1
      left; rw [c]
    | some v =>
      obtain ⟨a, b⟩ := readChan_some h1
      obtain ⟨⟨vs1, ok1, r2, s2⟩, h2, h⟩ := bind_ok_iff.1 h
      obtain ⟨c, d, e⟩ := readFrame_settled a h2
      cases h
      exact (readChan_rate h1).trans b e.rate

theorem ends_fadeWeight (fp : Fp) (r : Rd) (d : Int) : Ends (fadeWeight fp r d) := by
  unfold fadeWeight
  split
  · intro h; cases h
  · split <;> intro h <;> cases h

theorem ends_updateCrossfade (fp : Fp) (r : Rd) : Ends (updateCrossfade fp r) := by
  unfold updateCrossfade
  refine Ends.ite (Ends.bind ?_ fun _ _ => Ends.ite (Ends.pure _) (Ends.pure _)) (Ends.pure _)
  exact Ends.ite (Ends.ite (Ends.pure _) ((ends_fadeWeight _ _ _).bind fun _ _ => Ends.pure _))
    (Ends.ite (Ends.pure _) ((ends_fadeWeight _ _ _).bind fun _ _ => Ends.pure _))

theorem ends_stepOn (fp : Fp) (r : Rd) : Ends (stepOn fp r) := by
  unfold stepOn
  exact (ends_castI32 _).bind fun _ _ => (ends_chkI32 _).bind fun _ _ => (ends_chkI32 _).bind fun _ _ =>
    Ends.ite ((ends_chkI32 _).bind fun _ _ => Ends.pure _) (Ends.pure _)

theorem ends_readLoop (hS : SrcEnds S) (fp : Fp) (fuel : Nat) : ∀ (n : Nat) (r : Rd) (s : σ), (r.dual = false → CanLoop r) →
    Ends (readLoop fp S (fuel + 3) n r s)
  | 0, r, s, _ => Ends.ok _
  | n + 1, r, s, hc => by
    rw [readLoop_succ]
    refine Ends.bind (Ends.ite (ends_updateCrossfade fp r) (Ends.ok r)) fun r1 h1 => ?_
    have hc1 : r1.dual = false → CanLoop r1 := by
      intro hd
      split at h1
      · rename_i hx
        rw [(updateCrossfade_conf h1).dual, hx] at hd; cases hd
      · cases h1; exact hc hd
    refine (ends_readFrame hS fp fuel _ _ _ _ hc1).bind fun x hx => ?_
    obtain ⟨vs, ok, r2, s2⟩ := x
    have c2 := (readFrame_cases hx).1
    have k2 := readFrame_rate hx
    simp only
    refine Ends.ite ?_ (Ends.ok _)
    refine (ends_stepOn fp r2).bind fun r3 h3 => ?_
    have c3 := stepOn_conf h3
    have k3 : r3.rate = r2.rate := by
      unfold stepOn at h3
      simp only at h3
      obtain ⟨a, _, h3⟩ := bind_ok_iff.1 h3
      obtain ⟨b, _, h3⟩ := bind_ok_iff.1 h3
      obtain ⟨c, _, h3⟩ := bind_ok_iff.1 h3
      split at h3
      · obtain ⟨d, _, h3⟩ := bind_ok_iff.1 h3
        cases h3; rfl
      · cases h3; rfl
    refine (ends_readLoop hS fp fuel n r3 s2 fun hd => ?_).bind fun _ _ => Ends.ok _
    have hd2 : r1.dual = false := by rw [← c2.dual, ← c3.dual]; exact hd
    exact (hc1 hd2).conf (c2.trans c3) (k2.trans c2 (Or.inl k3))

/-! ## Hanging -/

/-- Where wrapping goes on for ever. -/
theorem readChan_hangs {fp : Fp} {s : σ} {ch : Nat} {r : Rd} (hd : r.dual = false) (he : r.atEnd = true) (hc : ¬ CanLoop r) :
    ∀ fuel, readChan fp S fuel r s ch = .error .hang := by
  have key : ∀ (fuel : Nat) (q : Rd), q.dual = false → q.atEnd = true → ¬ CanLoop q → readChan fp S fuel q s ch = .error .hang := by
    intro fuel
    induction fuel with
    | zero => intro q _ _ _; rfl
    | succ fuel ih =>
      intro q hd he hc
      rw [readChan_atEnd he]
      cases hl : q.loopType with
      | none => exact absurd (by unfold CanLoop; rw [hl]; trivial) hc
      | «repeat» =>
        rw [wrap_repeat hl]
        refine ih _ hd ?_ ?_
        · unfold CanLoop at hc
          simp only [hl] at hc
          by_cases h0 : 0 ≤ q.rate
          · rw [if_pos h0] at hc
            refine (atEnd_fwd (by exact hd) (by simp [hl]) (by exact h0)).trans ?_
            simp only [h0, if_true]
            exact decide_eq_true (not_lt.1 hc)
          · rw [if_neg h0] at hc
            refine (atEnd_rev (by exact hd) (by exact (not_le.1 h0))).trans ?_
            simp only [h0, if_false]
            exact decide_eq_true (not_le.1 hc)
        · exact fun h => hc (h.conf ⟨rfl, rfl, rfl, rfl, rfl, rfl, rfl, rfl, rfl, rfl, rfl, rfl, rfl, rfl⟩ (Or.inl rfl))
      | pingpong =>
        rw [wrap_pingpong hl]
        refine ih _ hd ?_ ?_
        · unfold CanLoop at hc
          simp only [hl] at hc
          by_cases hz : q.rate = 0
          · rw [if_pos hz] at hc
            refine (atEnd_fwd (by exact hd) (by simp [hl]) (by simp [hz])).trans ?_
            simp only [hz, le_refl, if_true]
            exact decide_eq_true (not_lt.1 hc)
          · rw [if_neg hz] at hc
            rw [not_or, not_lt, not_le] at hc
            rcases lt_or_gt_of_ne hz with h0 | h0
            · refine (atEnd_fwd (by exact hd) (by simp [hl]) (by simp only; linarith)).trans ?_
              simp only [if_neg (not_le.2 h0)]
              exact decide_eq_true hc.1
            · refine (atEnd_rev (by exact hd) (by simp only; linarith)).trans ?_
              simp only [if_pos (le_of_lt h0)]
              exact decide_eq_true hc.2
        · exact fun h => hc (h.conf ⟨rfl, rfl, rfl, rfl, rfl, rfl, rfl, rfl, rfl, rfl, rfl, rfl, rfl, rfl⟩ (Or.inr ⟨hl, by simp⟩))
  exact fun fuel => key fuel r hd he hc

end TVP
