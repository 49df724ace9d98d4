import Verif.Lemmas.Loops

/-!
# The accumulator over a successful read, whatever the source and interpolation
-/

namespace TVP

variable {σ : Type} {S : Src σ}

theorem castI32_inv {q : ℚ} {x : Int} (h : castI32 q = .ok x) : x = trunc q := by
  unfold castI32 at h
  split at h
  · injection h with h; exact h.symm
  · cases h

/-- What a successful `stepOn` did. -/
theorem stepOn_inv {fp : Fp} {r r' : Rd} (h : stepOn fp r = .ok r') :
    ∃ pos2, r' = { r with
      rem := fp.d.rnd (fp.d.rnd (r.rem + r.rate) - trunc (fp.d.rnd (r.rem + r.rate)))
      pos1 := r.pos1 + trunc (fp.d.rnd (r.rem + r.rate)) * r.nch
      pos2 := pos2 } := by
  unfold stepOn at h
  obtain ⟨δ, h1, h⟩ := bind_ok_iff.1 h
  obtain ⟨st, h2, h⟩ := bind_ok_iff.1 h
  obtain ⟨p1, h3, h⟩ := bind_ok_iff.1 h
  have e1 := castI32_inv h1
  have e2 : st = δ * r.nch := by
    unfold chkI32 at h2; split at h2 <;> cases h2; rfl
  have e3 : p1 = r.pos1 + st := by
    unfold chkI32 at h3; split at h3 <;> cases h3; rfl
  subst e1 e2 e3
  split at h
  · obtain ⟨p2, h4, h⟩ := bind_ok_iff.1 h
    cases h; exact ⟨p2, rfl⟩
  · cases h; exact ⟨r.pos2, rfl⟩

/-- What reading a frame keeps of the accumulator. -/
structure SameAcc (r r' : Rd) : Prop where
  conf : SameConf r r'
  rem : r'.rem = r.rem
  mag : |r'.rate| = |r.rate|
  rate : r.loopType ≠ .pingpong → r'.rate = r.rate
  pos : r.loopType = .none → r.dual = false → r'.pos1 = r.pos1

theorem SameAcc.refl (r : Rd) : SameAcc r r := ⟨SameConf.refl r, rfl, rfl, fun _ => rfl, fun _ _ => rfl⟩
theorem SameAcc.trans {a b c : Rd} (h1 : SameAcc a b) (h2 : SameAcc b c) : SameAcc a c :=
  ⟨h1.conf.trans h2.conf, h2.rem.trans h1.rem, h2.mag.trans h1.mag,
   fun h => (h2.rate (by rw [h1.conf.loopType]; exact h)).trans (h1.rate h),
   fun h hd => (h2.pos (by rw [h1.conf.loopType]; exact h) (by rw [h1.conf.dual]; exact hd)).trans (h1.pos h hd)⟩
theorem SameBut.acc {r r' : Rd} (h : SameBut r r') : SameAcc r r' := by
  refine ⟨h.conf, ?_, ?_, fun _ => ?_, fun _ _ => ?_⟩ <;> rw [h]

theorem wrapAround_acc {r r' : Rd} (h : wrapAround r = some r') : SameAcc r r' := by
  have hc := wrapAround_conf h
  unfold wrapAround at h
  simp only at h
  split at h
  · cases h; rename_i hl
    refine ⟨hc, rfl, rfl, fun _ => rfl, fun h => by rw [hl] at h; cases h⟩
  · cases h; rename_i hl
    refine ⟨hc, rfl, abs_neg _, fun h => absurd hl h, fun h => by rw [hl] at h; cases h⟩
  · cases h

theorem readChan_acc {fp : Fp} : ∀ {fuel : Nat} {r r' : Rd} {s s' : σ} {ch : Nat} {v : Int},
    readChan fp S fuel r s ch = .ok (some v, r', s') → SameAcc r r'
  | 0, r, r', s, s', ch, v, h => by unfold readChan at h; cases h
  | fuel + 1, r, r', s, s', ch, v, h => by
    cases he : r.atEnd
    · rw [readChan_settled he] at h
      obtain ⟨_, b⟩ := readNextValue_some h
      exact b.acc
    · rw [readChan_atEnd he] at h
      cases hw : wrapAround r with
      | none => rw [hw] at h; simp at h
      | some r2 =>
        rw [hw] at h
        exact (wrapAround_acc hw).trans (readChan_acc h)

theorem readFrame_acc {fp : Fp} {fuel left : Nat} {r r' : Rd} {s s' : σ} {vs : List Int} {ok : Bool}
    (h : readFrame fp S fuel left 0 r s = .ok (vs, ok, r', s')) : SameAcc r r' := by
  cases left with
  | zero => unfold readFrame at h; cases h; exact SameAcc.refl r
  | succ left =>
    unfold readFrame at h
    obtain ⟨⟨o, r1, s1⟩, h1, h⟩ := bind_ok_iff.1 h
    cases o with
    | none =>
      cases h
      obtain ⟨a, b, c, d⟩ := readChan_none h1
      rw [c]
      exact ⟨⟨rfl, rfl, rfl, rfl, rfl, rfl, rfl, rfl, rfl, rfl, rfl, rfl, rfl, rfl⟩, rfl, rfl, fun _ => rfl, fun _ _ => rfl⟩
    | some v =>
      obtain ⟨a, _⟩ := readChan_some h1
      obtain ⟨⟨vs1, ok1, r2, s2⟩, h2, h⟩ := bind_ok_iff.1 h
      obtain ⟨c, d, e⟩ := readFrame_settled a h2
      cases h
      exact (readChan_acc h1).trans e.acc

theorem fadeEnter_acc (r : Rd) : (fadeEnter r).rem = r.rem ∧ (fadeEnter r).rate = r.rate := by
  unfold fadeEnter
  split <;> split <;> exact ⟨rfl, rfl⟩

theorem updateCrossfade_acc {fp : Fp} {r r' : Rd} (h : updateCrossfade fp r = .ok r') :
    r'.rem = r.rem ∧ |r'.rate| = |r.rate| ∧ (r.loopType ≠ .pingpong → r'.rate = r.rate) := by
  unfold updateCrossfade at h
  have h0 := fadeEnter_acc r
  have hc := fadeEnter_conf r
  generalize fadeEnter r = q at *
  simp only at h
  rw [← h0.1, ← h0.2, ← hc.loopType]
  split at h
  · obtain ⟨r1, h1, h⟩ := bind_ok_iff.1 h
    have h2 : r1.rem = q.rem ∧ r1.rate = q.rate ∧ r1.loopType = q.loopType := by
      split at h1
      · split at h1
        · cases h1; exact ⟨rfl, rfl, rfl⟩
        · obtain ⟨w, _, h1⟩ := bind_ok_iff.1 h1
          cases h1; exact ⟨rfl, rfl, rfl⟩
      · split at h1
        · cases h1; exact ⟨rfl, rfl, rfl⟩
        · obtain ⟨w, _, h1⟩ := bind_ok_iff.1 h1
          cases h1; exact ⟨rfl, rfl, rfl⟩
    split at h
    · rename_i hb
      cases h
      simp only [Bool.and_eq_true, decide_eq_true_eq] at hb
      refine ⟨h2.1, by simp only; rw [abs_neg, h2.2.1], fun hn => absurd ?_ hn⟩
      rw [← h2.2.2]; exact hb.2
    · cases h; exact ⟨h2.1, by rw [h2.2.1], fun _ => h2.2.1⟩
  · cases h; exact ⟨rfl, rfl, fun _ => rfl⟩

/-- One turn of the read loop that delivered a frame: the accumulator before and after. -/
theorem readLoop_turn {fp : Fp} {fuel n : Nat} {r : Rd} {s : σ} {o : ReadOut σ}
    (h : readLoop fp S fuel (n + 1) r s = .ok o) :
    (o.frames = [] ∧ o.r.rem = r.rem ∧ |o.r.rate| = |r.rate| ∧ (r.loopType ≠ .pingpong → o.r.rate = r.rate) ∧
      (r.loopType = .none → r.dual = false → o.r.pos1 = r.pos1)) ∨
    ∃ (r1 r2 : Rd) (s2 : σ) (o2 : ReadOut σ) (v : List Int), r1.rem = r.rem ∧ |r1.rate| = |r.rate| ∧
      (r.loopType ≠ .pingpong → r1.rate = r.rate) ∧
      (r.loopType = .none → r.dual = false → r1.pos1 = r.pos1) ∧ SameConf r r1 ∧ stepOn fp r1 = .ok r2 ∧
      readLoop fp S fuel n r2 s2 = .ok o2 ∧ o = { o2 with frames := v :: o2.frames } := by
  rw [readLoop_succ] at h
  obtain ⟨r0, h0, h⟩ := bind_ok_iff.1 h
  have a0 : r0.rem = r.rem ∧ |r0.rate| = |r.rate| ∧ (r.loopType ≠ .pingpong → r0.rate = r.rate) ∧
      (r.dual = false → r0.pos1 = r.pos1) ∧ SameConf r r0 := by
    split at h0
    · obtain ⟨b1, b2, b3⟩ := updateCrossfade_acc h0
      exact ⟨b1, b2, b3, fun hd => by simp_all, updateCrossfade_conf h0⟩
    · cases h0; exact ⟨rfl, rfl, fun _ => rfl, fun _ => rfl, SameConf.refl r⟩
  obtain ⟨⟨vs, ok, r1, s1⟩, h1, h⟩ := bind_ok_iff.1 h
  have a1 := readFrame_acc h1
  obtain ⟨b1, b2, b3, b4, b5⟩ := a0
  have k1 : r1.rem = r.rem := a1.rem.trans b1
  have k2 : r.loopType ≠ .pingpong → r1.rate = r.rate :=
    fun hl => (a1.rate (by rw [b5.loopType]; exact hl)).trans (b3 hl)
  have k3 : r.loopType = .none → r.dual = false → r1.pos1 = r.pos1 :=
    fun hl hd => (a1.pos (by rw [b5.loopType]; exact hl) (by rw [b5.dual]; exact hd)).trans (b4 hd)
  simp only at h
  split at h
  · obtain ⟨r2, h2, h⟩ := bind_ok_iff.1 h
    obtain ⟨o2, h3, h⟩ := bind_ok_iff.1 h
    cases h
    exact Or.inr ⟨r1, r2, s1, o2, vs, k1, a1.mag.trans b2, k2, k3, b5.trans a1.conf, h2, h3, rfl⟩
  · cases h
    exact Or.inl ⟨rfl, k1, a1.mag.trans b2, k2, k3⟩

/-- Exact accumulation: over `k` delivered frames the fraction is the ideal one up to the whole frames moved. -/
theorem readLoop_exact {fp : Fp} {fuel : Nat} {p : Nat} : ∀ {n : Nat} {r : Rd} {s : σ} {o : ReadOut σ},
    readLoop fp S fuel n r s = .ok o → r.loopType ≠ .pingpong → GridRate p r.rate → OnGrid p r.rem → |r.rem| < 1 →
    o.r.rate = r.rate ∧ OnGrid p o.r.rem ∧ |o.r.rem| < 1 ∧
    ∃ D : Int, D + o.r.rem = r.rem + o.frames.length * r.rate ∧
      (r.loopType = .none → r.dual = false → o.r.pos1 = r.pos1 + D * r.nch)
  | 0, r, s, o, h, _, _, hx, h1 => by
    unfold readLoop at h; cases h
    exact ⟨rfl, hx, h1, 0, by simp, fun _ _ => by simp⟩
  | n + 1, r, s, o, h, hl, hg, hx, h1 => by
    rcases readLoop_turn h with ⟨a1, a2, a3, a4, a5⟩ | ⟨r1, r2, s2, o2, v, b1, b2, b3, b4, b5, b6, b7, rfl⟩
    · exact ⟨a4 hl, by rw [a2]; exact hx, by rw [a2]; exact h1, 0, by rw [a1, a2]; simp, fun x y => by rw [a5 x y]; simp⟩
    · obtain ⟨pos2, hr2⟩ := stepOn_inv b6
      have e1 : r1.rate = r.rate := b3 hl
      have hg1 : GridRate p r1.rate := by rw [e1]; exact hg
      have hx1 : OnGrid p r1.rem := by rw [b1]; exact hx
      obtain ⟨x1, x2, x3⟩ := accum_exact hg1 hx1 (by rw [b1]; exact h1) fp.d
      rw [x1, x2, b1, e1] at hr2
      have hc2 := b5.trans (stepOn_conf b6)
      have hrem2 : r2.rem = r.rem + r.rate - (trunc (r.rem + r.rate) : Int) := by rw [hr2]
      have hrate2 : r2.rate = r.rate := by rw [hr2]
      have hx2 : OnGrid p r2.rem := by rw [hrem2]; rw [b1, e1] at x3; exact x3
      obtain ⟨c1, c2, c3, D, c4, c5⟩ := readLoop_exact b7 (by rw [hc2.loopType]; exact hl) (by rw [hrate2]; exact hg)
        hx2 (by rw [hrem2]; exact trunc_rest _)
      refine ⟨c1.trans hrate2, c2, c3, trunc (r.rem + r.rate) + D, ?_, ?_⟩
      · simp only [List.length_cons]
        push_cast
        rw [hrem2, hrate2] at c4
        linarith
      · intro hn hd
        have := c5 (by rw [hc2.loopType]; exact hn) (by rw [hc2.dual]; exact hd)
        simp only [this]
        rw [hr2]
        simp only
        rw [b4 hn hd, b5.nch]; ring

/-- Arbitrary double rates: the fraction stays a fraction and the position only moves with the rate. -/
theorem readLoop_mono {fp : Fp} (hfp : Representable fp) {fuel : Nat} : ∀ {n : Nat} {r : Rd} {s : σ} {o : ReadOut σ},
    readLoop fp S fuel n r s = .ok o → 0 ≤ r.nch → IsFloat 53 (-1074) r.rem → |r.rem| < 1 →
    IsFloat 53 (-1074) o.r.rem ∧ |o.r.rem| < 1 ∧
      (r.loopType = .none → r.dual = false → (0 ≤ r.rate → r.pos1 ≤ o.r.pos1) ∧ (r.rate ≤ 0 → o.r.pos1 ≤ r.pos1))
  | 0, r, s, o, h, _, hf, h1 => by
    unfold readLoop at h; cases h
    exact ⟨hf, h1, fun _ _ => ⟨fun _ => le_refl _, fun _ => le_refl _⟩⟩
  | n + 1, r, s, o, h, hn, hf, h1 => by
    rcases readLoop_turn h with ⟨a1, a2, a3, a4, a5⟩ | ⟨r1, r2, s2, o2, v, b1, b2, b3, b4, b5, b6, b7, rfl⟩
    · exact ⟨by rw [a2]; exact hf, by rw [a2]; exact h1, fun x y => by rw [a5 x y]; exact ⟨fun _ => le_refl _, fun _ => le_refl _⟩⟩
    · obtain ⟨pos2, hr2⟩ := stepOn_inv b6
      rw [b1] at hr2
      have hc2 := b5.trans (stepOn_conf b6)
      have hfr := frac_isFloat (hfp (r.rem + r1.rate))
      have hrem2 : r2.rem = fp.d.rnd (r.rem + r1.rate) - trunc (fp.d.rnd (r.rem + r1.rate)) := by
        rw [hr2]; exact fp.d.exact _ hfr
      obtain ⟨c1, c2, c3⟩ := readLoop_mono hfp b7 (by rw [hc2.nch]; exact hn) (by rw [hrem2]; exact hfr)
        (by rw [hrem2]; exact trunc_rest _)
      refine ⟨c1, c2, fun hl hd => ?_⟩
      have e1 : r1.rate = r.rate := b3 (by rw [hl]; simp)
      have hrate2 : r2.rate = r.rate := by rw [hr2]; exact e1
      have hpos2 : r2.pos1 = r.pos1 + trunc (fp.d.rnd (r.rem + r.rate)) * r.nch := by
        rw [hr2]; simp only; rw [b4 hl hd, b5.nch, e1]
      have hrr : fp.d.rnd r.rem = r.rem := fp.d.exact _ hf
      obtain ⟨g1, g2⟩ := abs_lt.1 h1
      obtain ⟨d1, d2⟩ := c3 (by rw [hc2.loopType]; exact hl) (by rw [hc2.dual]; exact hd)
      rw [hrate2] at d1 d2
      constructor
      · intro h0
        have h5 := fp.d.mono (show r.rem ≤ r.rem + r.rate by linarith)
        rw [hrr] at h5
        have h6 : 0 ≤ trunc (fp.d.rnd (r.rem + r.rate)) := by
          have := trunc_near (fp.d.rnd (r.rem + r.rate))
          by_contra hneg
          have h7 : trunc (fp.d.rnd (r.rem + r.rate)) ≤ -1 := by omega
          rcases le_or_gt 0 (fp.d.rnd (r.rem + r.rate)) with h8 | h8
          · rw [trunc_of_nonneg h8] at hneg
            exact hneg (Int.floor_nonneg.2 h8)
          · rw [trunc_of_nonpos (le_of_lt h8), Int.ceil_le] at h7
            push_cast at h7; linarith
        have := mul_nonneg h6 hn
        have := d1 h0
        simp only; omega
      · intro h0
        have h5 := fp.d.mono (show r.rem + r.rate ≤ r.rem by linarith)
        rw [hrr] at h5
        have h6 : trunc (fp.d.rnd (r.rem + r.rate)) ≤ 0 := by
          rcases le_or_gt 0 (fp.d.rnd (r.rem + r.rate)) with h8 | h8
          · rw [trunc_of_nonneg h8]
            have : ⌊fp.d.rnd (r.rem + r.rate)⌋ < 1 := by rw [Int.floor_lt]; push_cast; linarith
            omega
          · rw [trunc_of_nonpos (le_of_lt h8), Int.ceil_le]; push_cast; linarith
        have := mul_nonpos_of_nonpos_of_nonneg h6 hn
        have := d2 h0
        simp only; omega

end TVP
