import Verif.Lemmas.Term
import Verif.Props.Safe

/-!
# Property C32: `read` returns
-/

namespace TVP
open Spec

/-- **C32** (returns).  For any source whose accesses return, any interpolation, rate and position: `read` returns (three
rounds of the inner loop are always enough) if there is at least one channel and either the dual head is in use or the loop
can be entered (`CanLoop`: after wrapping round the position is inside the loop). -/
theorem C32_returns (fp : Fp) {σ} {S : Src σ} (hS : SrcEnds S) (fuel n : Nat) (r : Rd) (s : σ) (hn : r.nch ≠ 0)
    (hc : r.dual = false → CanLoop r) : r.read fp S (fuel + 3) s n ≠ .error .hang := by
  unfold Rd.read
  refine Ends.ite (Ends.ok _) (Ends.ite (fun h => by cases h) ?_)
  rw [if_neg hn]
  exact ends_readLoop hS fp fuel n r s hc

/-- **C32** (never returns).  The other configurations are exactly these: at the end of the material with a loop that
cannot be entered, `read` never returns, for any source and however long one waits. -/
theorem C32_hangs (fp : Fp) {σ} (S : Src σ) (fuel n : Nat) (r : Rd) (s : σ) (hp : r.playing = true) (hn : 0 < r.nch)
    (hd : r.dual = false) (he : r.atEnd = true) (hc : ¬ CanLoop r) : r.read fp S fuel s (n + 1) = .error .hang := by
  unfold Rd.read
  rw [if_neg (by simp [hp]), if_neg (by omega), if_neg (by omega), readLoop_succ]
  simp only [hd, Bool.false_eq_true, if_false, ok_bind]
  obtain ⟨k, hk⟩ : ∃ k, r.nch.toNat = k + 1 := ⟨r.nch.toNat - 1, by omega⟩
  rw [hk, readFrame, readChan_hangs hd he hc]
  rfl

/-- The array and the file sources always return. -/
theorem arraySrc_ends : SrcEnds arraySrc := by
  intro s i
  unfold arraySrc
  cases s with
  | none => intro h; cases h
  | some xs =>
    simp only
    split
    · split <;> intro h <;> cases h
    · intro h; cases h

theorem fileSrc_ends (g : Geo) (nullOk : Bool) : SrcEnds (fileSrc g nullOk) := by
  intro s i
  unfold fileSrc
  cases s with
  | none => simp only; split <;> intro h <;> cases h
  | some c => intro h; cases h

/-- Loops in frames: `CanLoop` holds for every non-empty loop that is at least as many frames long as there are channels,
and for every non-empty forward or ping-pong loop started in motion. -/
theorem C32_loop_frames_partial (r : Rd) (hn : 0 < r.nch) (hH : 0 ≤ r.header) (hA : 0 ≤ r.loopStart) (hlt : r.loopStart < r.loopFinish)
    (hfit : r.header + r.loopFinish * r.nch ≤ 2147483647)
    (hb : r.loopStart ≤ r.loopFinish - r.nch ∨ (r.loopType = .repeat ∧ 0 ≤ r.rate) ∨ (r.loopType = .pingpong ∧ r.rate ≠ 0)) :
    CanLoop r := by
  have hpo : ∀ x, 0 ≤ x → x ≤ r.loopFinish → r.posOf x = r.header + x * r.nch := by
    intro x x0 x1
    have h1 : 0 ≤ x * r.nch := mul_nonneg x0 (le_of_lt hn)
    have h2 : x * r.nch ≤ r.loopFinish * r.nch := mul_le_mul_of_nonneg_right x1 (le_of_lt hn)
    exact posOf_eq ⟨by omega, by omega⟩
  have eA := hpo r.loopStart hA (by omega)
  have eE := hpo r.loopFinish (by omega) (le_refl _)
  have hAE : r.header + r.loopStart * r.nch < r.header + r.loopFinish * r.nch := (mul_lt_iff hn _).2 hlt
  have hHE : r.header < r.header + r.loopFinish * r.nch := by
    have := (mul_lt_iff hn r.header).2 (show 0 < r.loopFinish by omega)
    omega
  have hlow : r.lower < r.posOf r.loopFinish := by
    unfold Rd.lower; rw [eE]; split
    · exact hHE
    · rw [eA]; exact hAE
  have hback : r.loopStart ≤ r.loopFinish - r.nch →
      r.posOf (r.loopFinish - r.nch) = r.header + (r.loopFinish - r.nch) * r.nch := fun h => hpo _ (by omega) (by omega)
  have hback2 : r.loopStart ≤ r.loopFinish - r.nch → r.lower ≤ r.posOf (r.loopFinish - r.nch) := by
    intro h
    rw [hback h]
    unfold Rd.lower
    split
    · have : 0 ≤ (r.loopFinish - r.nch) * r.nch := mul_nonneg (by omega) (le_of_lt hn)
      omega
    · rw [eA]; exact (mul_le_iff hn _).2 h
  unfold CanLoop
  cases hl : r.loopType with
  | none => trivial
  | «repeat» =>
    simp only
    split
    · rw [eA, eE]; exact hAE
    · rename_i h0
      rcases hb with hb | ⟨_, hb⟩ | ⟨hb, _⟩
      · exact hback2 hb
      · exact absurd hb h0
      · rw [hl] at hb; cases hb
  | pingpong =>
    simp only
    split
    · rename_i h0
      rcases hb with hb | ⟨hb, _⟩ | ⟨_, hb⟩
      · rw [hback hb, eE]; exact (mul_lt_iff hn _).2 (by omega)
      · rw [hl] at hb; cases hb
      · exact absurd h0 hb
    · exact Or.inl hlow

/-- Repeating frames 3 and 4 backwards. -/
def exRev : Rd := { playing := true, nch := 1, rate := -1, loopType := .repeat, loopStart := 3, loopFinish := 5, fileSamples := 8 }

example (s : Option (List Int)) : exRev.read Fp.ieee arraySrc 3 s 100 ≠ .error .hang :=
  C32_returns Fp.ieee arraySrc_ends 0 100 exRev s (by decide)
    (fun _ => C32_loop_frames_partial _ (by decide) (by decide) (by decide) (by decide) (by decide) (Or.inl (by decide)))

/-- **C32** is false for non-empty loops in general: a one-frame stereo loop played backwards hangs, because the code steps
back by the number of channels, in frames, from the end of the loop. -/
def exStereoRev : ArrayReader :=
  (({ rd := { rate := -1, loopType := .repeat, playStart := .loop } } : ArrayReader).playRaw [1, 2] 1 2).2

theorem C32_refuted_stereo (fuel n : Nat) :
    exStereoRev.rd.loopStart < exStereoRev.rd.loopFinish ∧
    exStereoRev.rd.read Fp.ieee arraySrc fuel exStereoRev.src (n + 1) = .error .hang := by
  refine ⟨by decide, C32_hangs _ _ _ _ _ _ rfl (by decide) rfl (by decide) ?_⟩
  have h1 : exStereoRev.rd.loopType = .repeat := rfl
  have h2 : ¬ (0 ≤ exStereoRev.rd.rate) := by decide
  unfold CanLoop
  rw [h1]
  simp only
  rw [if_neg h2]
  decide

/-- Setting a loop before the first play of a file leaves the loop empty: repeating forwards then hangs. -/
theorem C32_empty_loop (fuel n : Nat) {σ} (S : Src σ) (s : σ) :
    ({ playing := true, nch := 1, loopType := .repeat, fileSamples := 100 } : Rd).read Fp.ieee S fuel s (n + 1) = .error .hang :=
  C32_hangs _ _ _ _ _ _ rfl (by decide) rfl (by decide) (by
    unfold CanLoop
    simp only
    rw [if_pos (by decide)]
    decide)

end TVP
