import Verif.Lemmas.Reader

/-!
# Properties C23, C24, C36: what `read` delivers, for every configuration and source
-/

namespace TVP

/-- The frames of a result, without the final state (for concrete examples). -/
def framesOf {α} (x : M (List (List Int) × α)) : M (List (List Int)) :=
  match x with
  | .ok y => .ok y.1
  | .error e => .error e

/-- A stereo array reader in the middle of four frames, repeating, used in the examples. -/
def exStereo : ArrayReader :=
  { rd := { playing := true, nch := 2, fileSamples := 4, loopFinish := 4, fileSize := 16, loopType := .none }
    src := some [10, -10, 20, -20, 30, -30, 40, -40] }

/-- **C23** `read` returns a count of at most `n`, and has written exactly that many samples to every
channel: all frames are complete and no channel got a sample beyond them.  For every source, rate,
interpolation, loop type and cross-fade setting. -/
theorem C23_count_and_alignment (fp : Fp) {σ} (S : Src σ) (fuel : Nat) (r : Rd) (s : σ) (n : Nat) (o : ReadOut σ)
    (h : r.read fp S fuel s n = .ok o) :
    o.frames.length ≤ n ∧ (∀ f ∈ o.frames, (f.length : Int) = r.nch) ∧ o.extra = [] := by
  unfold Rd.read at h
  split at h
  · cases h; simp
  · split at h
    · cases h
    · split at h
      · split at h
        · cases h; simp
        · cases h
      · obtain ⟨_, e, l, f⟩ := readLoop_conf h
        refine ⟨l, ?_, e⟩
        intro x hx
        rw [f x hx, Int.toNat_of_nonneg (by omega)]

example : framesOf (exStereo.read Fp.ideal 2 6) = .ok [[10, -10], [20, -20], [30, -30], [40, -40]] := by
  decide +kernel

/-- **C24** Reading `n` then `m` frames is the same as reading `n + m` at once (frames, final state and faults),
unless the first read was short, in which case it is the same as the first read alone. -/
theorem C24_split_read (fp : Fp) {σ} (S : Src σ) (fuel : Nat) (r : Rd) (s : σ) (n m : Nat) :
    r.read fp S fuel s (n + m) = (do
      let o1 ← r.read fp S fuel s n
      if o1.frames.length = n then
        let o2 ← o1.r.read fp S fuel o1.s m
        return { o2 with frames := o1.frames ++ o2.frames }
      else return o1) := by
  unfold Rd.read
  cases hp : r.playing
  · simp only [Bool.not_false, if_true, ok_bind, List.length_nil, hp]
    split <;> rfl
  · simp only [Bool.not_true, Bool.false_eq_true, if_false]
    by_cases hn : r.nch < 0
    · simp only [if_pos hn]; rfl
    · simp only [if_neg hn]
      by_cases h0 : r.nch = 0
      · simp only [if_pos h0]
        rcases Nat.eq_zero_or_pos n with rfl | hn0
        · simp only [Nat.zero_add, if_true, ok_bind, List.length_nil, hp, Bool.not_true, Bool.false_eq_true, if_false,
            if_neg hn, if_pos h0, List.nil_append]
          split <;> rfl
        · rw [if_neg (by omega), if_neg (by omega)]; rfl
      · simp only [if_neg h0]
        rw [readLoop_add]
        cases h1 : readLoop fp S fuel n r s with
        | error e => rfl
        | ok o1 =>
          obtain ⟨c, _⟩ := readLoop_conf h1
          simp only [ok_bind, c.playing, c.nch, hp, Bool.not_true, Bool.false_eq_true, if_false, if_neg hn, if_neg h0]

example : framesOf (exStereo.read Fp.ideal 2 (1 + 2)) = .ok [[10, -10], [20, -20], [30, -30]] ∧
    framesOf (exStereo.read Fp.ideal 2 1) = .ok [[10, -10]] := by decide +kernel

/-- **C36** A reader that is not playing delivers nothing, writes nothing and changes nothing: neither its own
state nor the source. -/
theorem C36_stopped_inert (fp : Fp) {σ} (S : Src σ) (fuel : Nat) (r : Rd) (s : σ) (n : Nat)
    (h : r.playing = false) : r.read fp S fuel s n = .ok ⟨[], [], r, s⟩ := by
  unfold Rd.read; rw [h]; rfl

/-- **C36**, after `stop()`, for both kinds of reader. -/
theorem C36_after_stop (fp : Fp) (g : Geo) (nullOk : Bool) (fuel n : Nat) (a : ArrayReader) (b : FileReader) :
    ({ a with rd := a.rd.stop } : ArrayReader).read fp fuel n = .ok ([], { a with rd := a.rd.stop }) ∧
    ({ b with rd := b.rd.stop } : FileReader).read fp g nullOk fuel n = .ok ([], { b with rd := b.rd.stop }) :=
  ⟨rfl, rfl⟩

example : framesOf (exStereo.close.read Fp.ideal 2 3) = .ok [] := by decide +kernel

end TVP
