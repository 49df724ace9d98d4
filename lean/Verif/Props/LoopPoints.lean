import Verif.Lemmas.Conflict
import Verif.Props.Term
import Verif.Lemmas.Glide

/-!
# C65: moving the loop of a playing sound
-/

namespace TVP
open Spec

/-- Updates with any source whose accesses return never hang if the loop is at least as many frames long as there are
channels. -/
theorem update_returns {σ : Type} {fp : Fp} {T : Src (Option σ)} (hT : SrcEnds T) {sh : Shared σ} (hd : sh.rd.dual = false)
    (hn : 0 < sh.rd.nch) (hH : 0 ≤ sh.rd.header) (hA : 0 ≤ sh.rd.loopStart) (hl : sh.rd.loopStart + sh.rd.nch ≤ sh.rd.loopFinish)
    (hfit : sh.rd.header + sh.rd.loopFinish * sh.rd.nch ≤ 2147483647) (fuel : Nat) (alloc : Nat → Bool) :
    sh.update fp T (fuel + 3) alloc ≠ .error .hang := by
  have hc : CanLoop sh.rd := C32_loop_frames_partial sh.rd hn hH hA (by omega) hfit (.inl (by omega))
  intro h
  rcases update_error h with h | ⟨_, h⟩
  · cases h
  · have key : ∀ s, sh.rd.read fp T (fuel + 3) s blockSamples ≠ .error .hang := fun s =>
      C32_returns fp hT fuel blockSamples sh.rd s (by omega) fun _ => hc
    unfold Shared.read at h
    cases ho : sh.obj with
    | missing =>
      rw [ho] at h
      exact bind_ne (key none) (fun _ _ => pure_ne _) h
    | live s =>
      rw [ho] at h
      exact bind_ne (key (some s)) (fun _ _ => pure_ne _) h
    | busy s => rw [ho] at h; cases h
    | freed => rw [ho] at h; cases h

/-- C65 holds if the loop points are moved in the right order.  Both loops are at least as many frames long as there are
channels.  If the new loop does not end before the old one, set its finish first, otherwise its start: then an update that
comes at any point returns, for every loop type, rate and position.  (`_partial`: for the other order see `C65_refuted`; for
shorter loops see C32.) -/
theorem C65_order_partial (fp : Fp) (g : Geo) (nullOk : Bool) (sh : Shared Cache) (hd : sh.rd.dual = false)
    (hn : 0 < sh.rd.nch) (hH : 0 ≤ sh.rd.header) (hA : 0 ≤ sh.rd.loopStart) (hl : sh.rd.loopStart + sh.rd.nch ≤ sh.rd.loopFinish)
    (hfit : sh.rd.header + sh.rd.loopFinish * sh.rd.nch ≤ 2147483647)
    (A E : Int) (hA' : 0 ≤ A) (hl' : A + sh.rd.nch ≤ E) (hfit' : sh.rd.header + E * sh.rd.nch ≤ 2147483647)
    {p : Prog Cache} {sh' : Shared Cache}
    (h : Interrupted fp (fileSrc g nullOk)
      (if sh.rd.loopFinish ≤ E then loopFinishSteps g E (loopStartSteps g A (.done true))
       else loopStartSteps g A (loopFinishSteps g E (.done true)), sh) (p, sh')) (fuel : Nat) (alloc : Nat → Bool) :
    sh'.update fp (fileSrc g nullOk) (fuel + 3) alloc ≠ .error .hang := by
  have hT := fileSrc_ends g nullOk
  have mulle : ∀ {a b : Int}, a ≤ b → a * sh.rd.nch ≤ b * sh.rd.nch := fun h => mul_le_mul_of_nonneg_right h (by omega)
  have hAr : i32 A = A := by
    have h1 : A * sh.rd.nch ≤ E * sh.rd.nch := mulle (by omega)
    have h2 : A * 1 ≤ A * sh.rd.nch := mul_le_mul_of_nonneg_left (by omega) hA'
    exact i32_of_in ⟨by omega, by omega⟩
  have hEr : i32 E = E := by
    have h2 : E * 1 ≤ E * sh.rd.nch := mul_le_mul_of_nonneg_left (by omega) (by omega)
    exact i32_of_in ⟨by omega, by omega⟩
  -- a state that agrees with `sh` but for its loop points
  have good : ∀ x y : Int, 0 ≤ x → x + sh.rd.nch ≤ y → sh.rd.header + y * sh.rd.nch ≤ 2147483647 → ∀ s : Shared Cache,
      s.rd.dual = sh.rd.dual → s.rd.nch = sh.rd.nch → s.rd.header = sh.rd.header → s.rd.loopStart = x → s.rd.loopFinish = y →
      s.update fp (fileSrc g nullOk) (fuel + 3) alloc ≠ .error .hang := by
    intro x y h1 h2 h3 s e1 e2 e3 e4 e5
    exact update_returns hT (e1.trans hd) (by omega) (by omega) (by omega) (by omega) (by rw [e3, e5, e2]; exact h3) fuel alloc
  split at h
  · rename_i hE
    rcases interrupted_act h with h | ⟨s1, u1, h⟩
    · have c := updates_conf h
      exact good _ _ hA hl hfit _ c.dual c.nch c.header c.loopStart c.loopFinish
    have c1 := updates_conf u1
    rcases interrupted_act h with h | ⟨s2, u2, h⟩
    · have c := updates_conf h
      exact good _ E hA (by omega) hfit' _ (c.dual.trans c1.dual) (c.nch.trans c1.nch) (c.header.trans c1.header)
        (c.loopStart.trans c1.loopStart) (c.loopFinish.trans hEr)
    have c2 := updates_conf u2
    rcases interrupted_act h with h | ⟨s3, u3, h⟩
    · have c := updates_conf h
      exact good _ E hA (by omega) hfit' _ (c.dual.trans (c2.dual.trans c1.dual)) (c.nch.trans (c2.nch.trans c1.nch))
        (c.header.trans (c2.header.trans c1.header)) (c.loopStart.trans (c2.loopStart.trans c1.loopStart))
        (c.loopFinish.trans (c2.loopFinish.trans hEr))
    have c3 := updates_conf u3
    have f : ∀ s : Shared Cache, SameConf (s3.rd.setLoopStart A) s.rd →
        s.update fp (fileSrc g nullOk) (fuel + 3) alloc ≠ .error .hang := fun s c =>
      good A E hA' hl' hfit' s (c.dual.trans (c3.dual.trans (c2.dual.trans c1.dual)))
        (c.nch.trans (c3.nch.trans (c2.nch.trans c1.nch))) (c.header.trans (c3.header.trans (c2.header.trans c1.header)))
        (c.loopStart.trans hAr) (c.loopFinish.trans (c3.loopFinish.trans (c2.loopFinish.trans hEr)))
    rcases interrupted_act h with h | ⟨s4, u4, h⟩
    · exact f _ (updates_conf h)
    · obtain ⟨_, u5⟩ := steps_done h true rfl
      have c5 := updates_conf u5
      exact f _ ((updates_conf u4).trans c5)
  · rename_i hE
    have hlA : A + sh.rd.nch ≤ sh.rd.loopFinish := by omega
    rcases interrupted_act h with h | ⟨s1, u1, h⟩
    · have c := updates_conf h
      exact good _ _ hA hl hfit _ c.dual c.nch c.header c.loopStart c.loopFinish
    have c1 := updates_conf u1
    rcases interrupted_act h with h | ⟨s2, u2, h⟩
    · have c := updates_conf h
      exact good A _ hA' hlA hfit _ (c.dual.trans c1.dual) (c.nch.trans c1.nch) (c.header.trans c1.header)
        (c.loopStart.trans hAr) (c.loopFinish.trans c1.loopFinish)
    have c2 := updates_conf u2
    rcases interrupted_act h with h | ⟨s3, u3, h⟩
    · have c := updates_conf h
      exact good A _ hA' hlA hfit _ (c.dual.trans (c2.dual.trans c1.dual)) (c.nch.trans (c2.nch.trans c1.nch))
        (c.header.trans (c2.header.trans c1.header)) (c.loopStart.trans (c2.loopStart.trans hAr))
        (c.loopFinish.trans (c2.loopFinish.trans c1.loopFinish))
    have c3 := updates_conf u3
    have f : ∀ s : Shared Cache, SameConf (s3.rd.setLoopFinish E) s.rd →
        s.update fp (fileSrc g nullOk) (fuel + 3) alloc ≠ .error .hang := fun s c =>
      good A E hA' hl' hfit' s (c.dual.trans (c3.dual.trans (c2.dual.trans c1.dual)))
        (c.nch.trans (c3.nch.trans (c2.nch.trans c1.nch))) (c.header.trans (c3.header.trans (c2.header.trans c1.header)))
        (c.loopStart.trans (c3.loopStart.trans (c2.loopStart.trans hAr))) (c.loopFinish.trans hEr)
    rcases interrupted_act h with h | ⟨s4, u4, h⟩
    · exact f _ (updates_conf h)
    · obtain ⟨_, u5⟩ := steps_done h true rfl
      have c5 := updates_conf u5
      exact f _ ((updates_conf u4).trans c5)

/-- The array player used below: 400 samples, frames 0 to 127 repeated, after one update. -/
def exMoveLoop : M (Fx × ArrayReader) :=
  let a := (({} : ArrayReader).playRaw (List.replicate 400 5) 400 1).2
  let a := { a with rd := ((a.rd.setLoopType .repeat).setLoopStart 0).setLoopFinish 128 }
  a.update Fp.ieee 5 fun _ => true

/-- C65 is false: with frames 0 to 127 repeating, moving the loop to frames 200 to 299 by `setLoopStart(200)` followed by
`setLoopFinish(300)` hangs for ever in an update that comes between the two calls; without that update, and in the other
order, all is well. -/
theorem C65_refuted : ∃ fx a, exMoveLoop = .ok (fx, a) ∧ a.rd.loopStart = 0 ∧ a.rd.loopFinish = 128 ∧
    (∀ fuel, ArrayReader.update Fp.ieee fuel { a with rd := a.rd.setLoopStart 200 } (fun _ => true) = .error .hang) ∧
    (ArrayReader.update Fp.ieee 3 { a with rd := (a.rd.setLoopStart 200).setLoopFinish 300 } (fun _ => true)).map (·.1.event)
      = .ok (some .reload) ∧
    (ArrayReader.update Fp.ieee 3 { a with rd := a.rd.setLoopFinish 300 } (fun _ => true)).map (·.1.event)
      = .ok (some .reload) := by
  have h : exMoveLoop.map (fun x => (x.2.rd.playing, x.2.rd.nch, x.2.rd.dual, x.2.rd.pos1)) = .ok (true, 1, false, 128) := by
    decide +kernel
  have h' : exMoveLoop.map (fun x => (decide (x.2.rd.loopType = .repeat), x.2.rd.header, decide (x.2.rd.rate = 1))) =
      .ok (true, 0, true) := by decide +kernel
  have h'' : exMoveLoop.map (fun x => (x.2.rd.loopStart, x.2.rd.loopFinish)) = .ok (0, 128) := by decide +kernel
  have h2 : (exMoveLoop >>= fun x => (ArrayReader.update Fp.ieee 3 { x.2 with rd := (x.2.rd.setLoopStart 200).setLoopFinish 300 }
      (fun _ => true)).map (·.1.event)) = .ok (some .reload) := by decide +kernel
  have h3 : (exMoveLoop >>= fun x => (ArrayReader.update Fp.ieee 3 { x.2 with rd := x.2.rd.setLoopFinish 300 }
      (fun _ => true)).map (·.1.event)) = .ok (some .reload) := by decide +kernel
  generalize exMoveLoop = m at h h' h'' h2 h3
  cases m with
  | error e => cases h
  | ok x =>
    obtain ⟨fx, a⟩ := x
    obtain ⟨k1, k2, k3, k4⟩ : a.rd.playing = true ∧ a.rd.nch = 1 ∧ a.rd.dual = false ∧ a.rd.pos1 = 128 := by
      have h := Except.ok.inj h
      simpa only [Prod.mk.injEq] using h
    obtain ⟨k5, k6, k7⟩ : a.rd.loopType = .repeat ∧ a.rd.header = 0 ∧ a.rd.rate = 1 := by
      have h := Except.ok.inj h'
      simpa only [Prod.mk.injEq, decide_eq_true_eq] using h
    obtain ⟨k8, k9⟩ : a.rd.loopStart = 0 ∧ a.rd.loopFinish = 128 := by
      have h := Except.ok.inj h''
      simpa only [Prod.mk.injEq] using h
    refine ⟨fx, a, rfl, k8, k9, ?_, h2, h3⟩
    intro fuel
    unfold ArrayReader.update
    simp only
    have hn : (a.rd.setLoopStart 200).nch = 1 := k2
    have hp : (a.rd.setLoopStart 200).playing = true := k1
    rw [hn, hp, update_on (by decide) _ _ _ (by decide)]
    unfold ArrayReader.read
    have e1 : (a.rd.setLoopStart 200).posOf (a.rd.setLoopStart 200).loopFinish = 128 := by
      show i32 (u32 (a.rd.header + a.rd.loopFinish * a.rd.nch)) = 128
      rw [k6, k9, k2]; decide
    have e2 : (a.rd.setLoopStart 200).posOf (a.rd.setLoopStart 200).loopStart = 200 := by
      show i32 (u32 (a.rd.header + i32 200 * a.rd.nch)) = 200
      rw [k6, k2]; decide
    have e3 : (a.rd.setLoopStart 200).rate = 1 := k7
    have e4 : (a.rd.setLoopStart 200).loopType = .repeat := k5
    have e5 : (a.rd.setLoopStart 200).dual = false := k3
    rw [show blockSamples = 127 + 1 from rfl, C32_hangs Fp.ieee arraySrc fuel 127 _ a.src hp (by rw [hn]; decide) e5 ?_ ?_]
    · rfl
    · rw [atEnd_fwd e5 (by rw [e4]; decide) (by rw [e3]; decide), e1]
      show decide (a.rd.pos1 ≥ 128) = true
      rw [k4]; decide
    · unfold CanLoop
      rw [e4]
      simp only
      rw [if_pos (by rw [e3]; decide), e1, e2]
      decide

/-- The premises of `C65_order_partial` for that loop. -/
example (fuel : Nat) (alloc : Nat → Bool) {p : Prog Cache} {sh' : Shared Cache}
    (h : Interrupted Fp.ieee (fileSrc ⟨11, 7, fun _ => []⟩ false) (loopFinishSteps ⟨11, 7, fun _ => []⟩ 300
      (loopStartSteps ⟨11, 7, fun _ => []⟩ 200 (.done true)),
      { rd := { nch := 1, playing := true, loopType := .repeat, loopFinish := 128 }, obj := .live { dev := { bytes := [] } } })
      (p, sh')) : sh'.update Fp.ieee (fileSrc ⟨11, 7, fun _ => []⟩ false) (fuel + 3) alloc ≠ .error .hang :=
  C65_order_partial Fp.ieee ⟨11, 7, fun _ => []⟩ false
    { rd := { nch := 1, playing := true, loopType := .repeat, loopFinish := 128 }, obj := .live { dev := { bytes := [] } } }
    rfl (by decide) (by decide) (by decide) (by decide) (by decide) 200 300 (by decide) (by decide) (by decide) h fuel alloc

end TVP
