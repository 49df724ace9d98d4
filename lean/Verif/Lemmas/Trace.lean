import Verif.Lemmas.Grid

/-!
# Reading frame by frame without interpolation and cross-fade
-/

namespace TVP

/-- As long as the indices satisfy `P` and the source state satisfies `I`, the source delivers `val`. -/
def SrcIs {σ} (S : Src σ) (I : σ → Prop) (P : Int → Prop) (val : Int → Int) : Prop :=
  ∀ s i, I s → P i → ∃ s', S.get s i = .ok (val i, s') ∧ I s'

/-- One frame of an interleaved source: channel values from sample position `p` on. -/
def frameAt (val : Int → Int) (nch : Int) (p : Int) : List Int :=
  (List.range nch.toNat).map fun c : Nat => val (p + c)

/-- No interpolation, no dual head. -/
structure Plain (r : Rd) : Prop where
  dual : r.dual = false
  interp : r.interp = .none
  cfOn : r.cfOn = false
  nch : 0 < r.nch

/-- The position at which the next frame is read: where the reader is, or where it wraps to. -/
def Settles (r r1 : Rd) : Prop :=
  (r.atEnd = false ∧ r1 = r) ∨ (r.atEnd = true ∧ wrapAround r = some r1 ∧ r1.atEnd = false)

theorem Settles.atEnd {r r1 : Rd} (h : Settles r r1) : r1.atEnd = false := by
  rcases h with ⟨h, rfl⟩ | ⟨_, _, h⟩ <;> exact h

variable {σ : Type} {S : Src σ} {I : σ → Prop} {P : Int → Prop} {val : Int → Int}

theorem readNextValue_plain (fp : Fp) (hS : SrcIs S I P val) {r : Rd} (hr : Plain r) (he : r.atEnd = false)
    {s : σ} (hs : I s) {ch : Nat} (hp : InI32 r.pos1) (hc : InI32 (r.pos1 + ch)) (hP : P (r.pos1 + ch)) :
    ∃ s', readNextValue fp S r s ch = .ok (some (val (r.pos1 + ch)), r, s') ∧ I s' := by
  obtain ⟨s', h1, h2⟩ := hS s _ hs hP
  refine ⟨s', ?_, h2⟩
  unfold readNextValue baseVal srcVal
  simp only [he, hr.dual, hr.interp, Bool.false_eq_true, if_false, Bool.not_false, Bool.true_or, if_true,
    zero_mul, add_zero, chkI32_ok hp, chkI32_ok hc, ok_bind, h1, pure_eq_ok]

theorem readFrame_plain (fp : Fp) (hS : SrcIs S I P val) {r : Rd} (hr : Plain r) (he : r.atEnd = false)
    (hp : InI32 r.pos1) (fuel : Nat) :
    ∀ (left ch : Nat) (s : σ), I s →
      (∀ c : Nat, c < ch + left → InI32 (r.pos1 + c) ∧ P (r.pos1 + c)) →
      ∃ s', readFrame fp S (fuel + 1) left ch r s =
        .ok ((List.range' ch left).map (fun c : Nat => val (r.pos1 + c)), true, r, s') ∧ I s'
  | 0, ch, s, hs, _ => ⟨s, rfl, hs⟩
  | left + 1, ch, s, hs, hb => by
    obtain ⟨b1, b2⟩ := hb ch (by omega)
    obtain ⟨s1, h1, hs1⟩ := readNextValue_plain fp hS hr he hs hp b1 b2
    obtain ⟨s2, h2, hs2⟩ := readFrame_plain fp hS hr he hp fuel left (ch + 1) s1 hs1
      (fun c hc => hb c (by omega))
    refine ⟨s2, ?_, hs2⟩
    unfold readFrame
    rw [readChan_settled he, h1]
    simp only [ok_bind, h2, pure_eq_ok, List.range'_succ, List.map_cons]

/-- One turn of the reading loop. -/
theorem readLoop_step (fp : Fp) (hS : SrcIs S I P val) {r r1 r2 : Rd} (hd : r.dual = false) (hr : Plain r1)
    (hset : Settles r r1) (hnch : r1.nch = r.nch) (hp : InI32 r1.pos1)
    (hb : ∀ c : Nat, (c : Int) < r1.nch → InI32 (r1.pos1 + c) ∧ P (r1.pos1 + c))
    (hstep : stepOn fp r1 = .ok r2) (fuel n : Nat) {s : σ} (hs : I s) :
    ∃ s', I s' ∧ readLoop fp S (fuel + 2) (n + 1) r s =
      (readLoop fp S (fuel + 2) n r2 s' >>= fun o =>
        .ok { o with frames := frameAt val r1.nch r1.pos1 :: o.frames }) := by
  have he := hset.atEnd
  obtain ⟨s', h1, hs'⟩ := readFrame_plain fp hS hr he hp (fuel + 1) r1.nch.toNat 0 s hs
    (fun c hc => hb c (by omega))
  refine ⟨s', hs', ?_⟩
  -- the first channel is read at `r1`, wherever the frame began
  have hf : readFrame fp S (fuel + 2) r.nch.toNat 0 r s =
      .ok (frameAt val r1.nch r1.pos1, true, r1, s') := by
    have hk : r.nch.toNat = (r.nch.toNat - 1) + 1 := by have := hr.nch; omega
    have hfr : frameAt val r1.nch r1.pos1 =
        (List.range' 0 r1.nch.toNat).map (fun c : Nat => val (r1.pos1 + c)) := by
      unfold frameAt; rw [List.range_eq_range']
    rw [hfr, ← h1, hnch, hk]
    rcases hset with ⟨_, rfl⟩ | ⟨h, hw, _⟩
    · rfl
    · -- settling costs one turn
      have key : readChan fp S (fuel + 2) r s 0 = readChan fp S (fuel + 2) r1 s 0 := by
        rw [readChan_atEnd h, hw, readChan_settled he]
        exact readChan_settled he
      conv_lhs => rw [readFrame, key]
      conv_rhs => rw [readFrame]
  rw [readLoop_succ]
  simp only [hd, Bool.false_eq_true, if_false, ok_bind, hf, if_true, hstep]

/-- The end of the material. -/
theorem readLoop_end (fp : Fp) {r : Rd} (hr : Plain r) (he : r.atEnd = true) (hl : r.loopType = .none)
    (fuel n : Nat) (s : σ) :
    readLoop fp S (fuel + 1) (n + 1) r s = .ok ⟨[], [], r, s⟩ := by
  have hk : r.nch.toNat = (r.nch.toNat - 1) + 1 := by have := hr.nch; omega
  have hf : readFrame fp S (fuel + 1) r.nch.toNat 0 r s = .ok ([], false, r, s) := by
    rw [hk, readFrame, readChan_atEnd he, wrapAround_none.2 hl]
    have : { r with cfOn := false } = r := by rw [← hr.cfOn]
    simp only [this]; rfl
  rw [readLoop_succ]
  simp only [hr.dual, Bool.false_eq_true, if_false, ok_bind, hf]

/-! ## Positions -/

theorem posOf_eq {r : Rd} {x : Int} (h : InI32 (r.header + x * r.nch)) : r.posOf x = r.header + x * r.nch := by
  unfold Rd.posOf Rd.s2s
  rw [i32_u32, i32_of_in h]

/-- Where a reader is: frame `q` plus the fraction `f`, on the grid. -/
structure At (r : Rd) (p : Nat) (q : Int) : Prop where
  pos : r.pos1 = r.header + q * r.nch
  grid : OnGrid p r.rem
  small : |r.rem| < 1

/-- The exact position of a reader at frame `q`. -/
def Rd.exact (r : Rd) (q : Int) : ℚ := q + r.rem

end TVP
