import Verif.Lemmas.Blocks
import Verif.Lemmas.Loops
import Verif.Spec.Path

/-!
# The blocks an array player sends along a path
-/

namespace TVP
open Spec

/-- The frames of a path over the next `n` instants. -/
def pathFrames (path : Nat → Option Nat) (t n : Nat) : List Nat := (List.range n).filterMap fun j => path (t + j)

/-- Once ended, a path does not start again. -/
def PathEnds (path : Nat → Option Nat) : Prop := ∀ t, path t = none → path (t + 1) = none

theorem PathEnds.later {path : Nat → Option Nat} (h : PathEnds path) {t : Nat} (h0 : path t = none) : ∀ d, path (t + d) = none
  | 0 => h0
  | d + 1 => h _ (h.later h0 d)

theorem pathFrames_succ (path : Nat → Option Nat) (t n : Nat) :
    pathFrames path t (n + 1) = (match path t with | some i => i :: pathFrames path (t + 1) n | none => pathFrames path (t + 1) n) := by
  unfold pathFrames
  rw [List.range_succ_eq_map, List.filterMap_cons, List.filterMap_map]
  have e : (fun j => path (t + j)) ∘ Nat.succ = fun j => path (t + 1 + j) := by
    funext j; simp only [Function.comp_apply]; congr 1; omega
  rw [e, Nat.add_zero]
  cases path t <;> rfl

theorem pathFrames_none {path : Nat → Option Nat} (h : PathEnds path) {t : Nat} (h0 : path t = none) (n : Nat) : pathFrames path t n = [] := by
  unfold pathFrames
  rw [List.filterMap_eq_nil_iff]
  exact fun j _ => h.later h0 j

theorem pathFrames_pad {path : Nat → Option Nat} (h : PathEnds path) (f : Nat → Int) : ∀ (n t : Nat),
    (pathFrames path t n).map f ++ List.replicate (n - (pathFrames path t n).length) 0 =
      (List.range n).map fun j : Nat => match path (t + j) with | some i => f i | none => 0
  | 0, t => by simp [pathFrames]
  | n + 1, t => by
    cases e : path t with
    | some i =>
      rw [pathFrames_succ, e, List.range_succ_eq_map]
      simp only [List.map_cons, List.map_map, List.length_cons, Nat.add_sub_add_right, List.cons_append, Nat.add_zero, e]
      rw [pathFrames_pad h f n (t + 1)]
      congr 1
      refine List.map_congr_left fun j _ => ?_
      simp only [Function.comp_apply, show t + 1 + j = t + j.succ by omega]
    | none =>
      rw [pathFrames_none h e, List.map_nil, List.nil_append, List.length_nil, Nat.sub_zero]
      symm
      rw [List.eq_replicate_iff]
      refine ⟨by simp, fun b hb => ?_⟩
      obtain ⟨j, _, rfl⟩ := List.mem_map.1 hb
      rw [h.later e j]

theorem pathFrames_full {path : Nat → Option Nat} (h : PathEnds path) : ∀ (n t : Nat),
    (pathFrames path t (n + 1)).length = n + 1 ↔ (path (t + n)).isSome = true
  | 0, t => by
    rw [pathFrames_succ, Nat.add_zero]
    cases path t <;> simp [pathFrames]
  | n + 1, t => by
    cases e : path t with
    | some i =>
      rw [pathFrames_succ, e]
      simp only [List.length_cons, Nat.add_right_cancel_iff]
      rw [pathFrames_full h n (t + 1), show t + 1 + n = t + (n + 1) by omega]
    | none =>
      rw [pathFrames_none h e, h.later e]
      simp

theorem blockOf_path {path : Nat → Option Nat} (h : PathEnds path) (val : Nat → Nat → Int) (nch : Nat) (k : Nat) {ch : Nat} (hch : ch < nch) :
    blockOf ((pathFrames path (128 * k) blockSamples).map (fun i : Nat => (List.range nch).map (val i))) ch = pathBlock val path k ch := by
  unfold blockOf
  rw [List.map_map, List.length_map, pathFrames_pad h]
  unfold pathBlock
  refine List.map_congr_left fun t _ => ?_
  cases path (128 * k + t) with
  | none => rfl
  | some i =>
    simp only [Function.comp_apply]
    rw [List.getD_eq_getElem?_getD, List.getElem?_map, List.getElem?_range hch]
    rfl

variable {fp : Fp} {data : List Int} {H nch : Nat} {val : Nat → Nat → Int} {path : Nat → Option Nat} {Live : Nat → Rd → Prop}

/-- Readers in `Live t` deliver the frames of the path from instant `t` on; `val i ch` is what frame `i` sounds like. -/
structure PathRead (fp : Fp) (fuel : Nat) (data : List Int) (H nch : Nat) (val : Nat → Nat → Int) (path : Nat → Option Nat) (Live : Nat → Rd → Prop) : Prop where
  ends : PathEnds path
  read : ∀ t r n, Live t r → r.nch = nch → r.header = H → ∃ r', readLoop fp arraySrc (fuel + 2) n r (some data) =
      .ok ⟨(pathFrames path t n).map (fun i : Nat => (List.range nch).map (val i)), [], r', some data⟩ ∧
    SameConf r r' ∧ ((pathFrames path t n).length = n → Live (t + n) r')

/-- An array player that has sent `k` blocks (`none`: that has ended). -/
structure OnPath (data : List Int) (H nch : Nat) (Live : Nat → Rd → Prop) (st : Option Nat) (b : ArrayReader) : Prop where
  playing : b.rd.playing = st.isSome
  chans : b.rd.nch = nch
  live : ∀ k, st = some k → Live (128 * k) b.rd ∧ b.src = some data ∧ b.rd.header = H

theorem OnPath.tick {fuel : Nat} (hF : PathRead fp fuel data H nch val path Live) (hn : 1 ≤ nch) {st : Option Nat} {b : ArrayReader}
    (h : OnPath data H nch Live st b) (al : Nat → Bool) :
    ∃ b', b.tick fp (fuel + 2) al = .ok ((pathStep val nch path st al).1, b') ∧
      OnPath data H nch Live (pathStep val nch path st al).2 b' := by
  unfold ArrayReader.tick ArrayReader.update
  rw [h.playing]
  cases st with
  | none =>
    rw [Option.isSome_none, update_off (by rw [h.chans]; omega)]
    exact ⟨b, rfl, h⟩
  | some k =>
    obtain ⟨hl, hs, hH⟩ := h.live k rfl
    rw [Option.isSome_some]
    have hpos : 0 < b.rd.nch := by rw [h.chans]; omega
    have htn : b.rd.nch.toNat = nch := by rw [h.chans]; omega
    by_cases ha : ∀ c < nch, al c = true
    · have ha' := filter_range_all.2 ha
      rw [update_on hpos _ _ _ (by rw [htn]; exact ha')]
      obtain ⟨r', h1, h4, h2⟩ := hF.read (128 * k) b.rd blockSamples hl h.chans hH
      rw [← hs] at h1
      have hrd := arrayRead_eq (a := b) (by rw [h.playing]; rfl) hpos h1
      rw [hrd]
      simp only [ok_bind]
      rw [h.chans, hs]
      have hfil : (List.range nch).filter al = List.range nch := by
        rw [List.filter_eq_self]; intro c hc; exact ha c (List.mem_range.1 hc)
      have hfull0 : (pathFrames path (128 * k) blockSamples).length = blockSamples ↔ (path (128 * k + 127)).isSome = true :=
        pathFrames_full hF.ends 127 (128 * k)
      set frames := (pathFrames path (128 * k) blockSamples).map
        (fun i : Nat => (List.range nch).map (val i)) with hframes
      have hfull : frames.length = blockSamples ↔ (path (128 * k + 127)).isSome = true := by
        rw [hframes, List.length_map]; exact hfull0
      have hfx : fxOf nch frames al = (pathStep val nch path (some k) al).1 := by
        unfold pathStep fxOf
        simp only
        rw [if_pos ha]
        simp only [Int.toNat_natCast, hfil]
        congr 1
        · congr 1
          · refine List.map_congr_left fun ch hc => ?_
            rw [blockOf_path hF.ends val nch k (List.mem_range.1 hc)]
          · by_cases h1 : nch = 1
            · rw [if_pos (by omega), if_pos h1, blockOf_path hF.ends val nch k (by omega)]
            · rw [if_neg (by omega), if_neg h1]
        · congr 1
          by_cases hq : (path (128 * k + 127)).isSome = true
          · rw [if_pos (hfull.2 hq), if_pos hq]
          · rw [if_neg (fun e => hq (hfull.1 e)), if_neg hq]
      rw [hfx]
      have hst : (pathStep val nch path (some k) al) = ((pathStep val nch path (some k) al).1,
          if (path (128 * k + 127)).isSome = true then some (k + 1) else none) := by
        unfold pathStep; simp only; rw [if_pos ha]
      have hev : (pathStep val nch path (some k) al).1.event =
          some (if (path (128 * k + 127)).isSome = true then .reload else .close) := by
        unfold pathStep; simp only; rw [if_pos ha]
      rw [hst]
      simp only
      rw [hev]
      by_cases hq : (path (128 * k + 127)).isSome = true
      · simp only [if_pos hq]
        refine ⟨_, rfl, ⟨?_, ?_, fun k' hk' => ?_⟩⟩
        · simp only [ArrayReader.service, ArrayReader.triggerReload, Option.isSome_some]; rw [h4.playing, h.playing]; rfl
        · simp only [ArrayReader.service, ArrayReader.triggerReload]; rw [h4.nch, h.chans]
        · cases hk'
          simp only [ArrayReader.service, ArrayReader.triggerReload]
          refine ⟨?_, trivial, by rw [h4.header, hH]⟩
          have := h2 (hfull0.2 hq)
          rwa [show 128 * (k + 1) = 128 * k + blockSamples from by unfold blockSamples; omega]
      · simp only [if_neg hq]
        refine ⟨_, rfl, ⟨?_, ?_, fun k' hk' => by cases hk'⟩⟩
        · simp only [ArrayReader.service, ArrayReader.close, Rd.stop]; rfl
        · simp only [ArrayReader.service, ArrayReader.close, Rd.stop]; rw [h4.nch, h.chans]
    · have ha' : ¬ ((List.range nch).filter al).length = (List.range nch).length := fun e => ha (filter_range_all.1 e)
      rw [update_short hpos _ _ _ (by rw [htn]; exact ha')]
      have hst : (pathStep val nch path (some k) al) =
          ({ allocated := (List.range nch).filter al, released := (List.range nch).filter al }, some k) := by
        unfold pathStep; simp only; rw [if_neg ha]
      rw [hst, htn]
      exact ⟨b, rfl, h⟩

theorem OnPath.ticks {fuel : Nat} (hF : PathRead fp fuel data H nch val path Live) (hn : 1 ≤ nch) : ∀ (als : List (Nat → Bool))
    {st : Option Nat} {b : ArrayReader}, OnPath data H nch Live st b →
    ∃ b', b.ticks fp (fuel + 2) als = .ok ((pathPlay val nch path st als).1, b') ∧
      OnPath data H nch Live (pathPlay val nch path st als).2 b'
  | [], st, b, h => ⟨b, rfl, h⟩
  | al :: als, st, b, h => by
    obtain ⟨b1, h1, h2⟩ := h.tick hF hn al
    obtain ⟨b2, k1, k2⟩ := OnPath.ticks hF hn als h2
    refine ⟨b2, ?_, ?_⟩
    · unfold ArrayReader.ticks
      simp only [h1, ok_bind, k1]
      rfl
    · exact k2

/-! ## One frame at a time -/

/-- Readers in `Live t` deliver the frame the path says for instant `t` and are then in `Live (t + 1)`. -/
structure Turns (fp : Fp) (data : List Int) (H nch : Nat) (path : Nat → Option Nat) (Live : Nat → Rd → Prop) : Prop where
  ends : PathEnds path
  dual : ∀ {t r}, Live t r → r.dual = false
  go : ∀ {t r i}, Live t r → r.nch = nch → r.header = H → path t = some i → ∃ r1 r2, Settles r r1 ∧ Plain r1 ∧ SameConf r r1 ∧
    r1.pos1 = H + (i : Int) * nch ∧ H + (i + 1) * nch ≤ data.length ∧ (H + (i + 1) * nch : Int) ≤ 2147483647 ∧
    stepOn fp r1 = .ok r2 ∧ SameConf r r2 ∧ Live (t + 1) r2
  stop : ∀ {t r}, Live t r → path t = none → Plain r ∧ r.atEnd = true ∧ r.loopType = .none

theorem Turns.read (hT : Turns fp data H nch path Live) (hn : 1 ≤ nch) (fuel : Nat) : ∀ (n t : Nat) (r : Rd), Live t r → r.nch = nch → r.header = H →
    ∃ r', readLoop fp arraySrc (fuel + 2) n r (some data) =
      .ok ⟨(pathFrames path t n).map (fun i : Nat => frameAt (fun i => data.getD i.toNat 0) nch (H + (i : Int) * nch)), [], r', some data⟩ ∧
    SameConf r r' ∧ ((pathFrames path t n).length = n → Live (t + n) r')
  | 0, t, r, h, _, _ => ⟨r, rfl, SameConf.refl r, fun _ => h⟩
  | n + 1, t, r, h, hc, hH => by
    cases e : path t with
    | none =>
      obtain ⟨h1, h2, h3⟩ := hT.stop h e
      refine ⟨r, ?_, SameConf.refl r, ?_⟩
      · rw [readLoop_end fp h1 h2 h3, pathFrames_none hT.ends e]; rfl
      · rw [pathFrames_none hT.ends e]; intro k; simp at k
    | some i =>
      obtain ⟨r1, r2, h1, h2, h3, h4, h5, h6, h7, h8, h9⟩ := hT.go h hc hH e
      have hc1 : r1.nch = nch := h3.nch.trans hc
      have hi0 : (0 : Int) ≤ (i : Int) * nch := by positivity
      have e1 : ((i : Int) + 1) * nch = i * nch + nch := by ring
      have h5' : (H : Int) + ((i : Int) + 1) * nch ≤ data.length := by exact_mod_cast h5
      obtain ⟨s1, hs1, hl⟩ := readLoop_step fp (arraySrcIs data) (hT.dual h) h2 h1 h3.nch
        (by rw [h4]; exact ⟨by omega, by omega⟩) (fun c hcc => by
          rw [hc1] at hcc
          rw [h4]
          exact ⟨⟨by omega, by omega⟩, by omega, by omega⟩) h7 fuel n (s := some data) rfl
      subst hs1
      obtain ⟨r', k1, k2, k3⟩ := hT.read hn fuel n (t + 1) r2 h9 (h8.nch.trans hc) (h8.header.trans hH)
      refine ⟨r', ?_, h8.trans k2, ?_⟩
      · rw [hl, k1, pathFrames_succ, e, hc1, h4]
        rfl
      · rw [pathFrames_succ, e]
        simp only [List.length_cons, Nat.add_right_cancel_iff]
        intro k
        rw [show t + (n + 1) = t + 1 + n by omega]
        exact k3 k

theorem frameAt_material (data : List Int) (H nch i : Nat) :
    frameAt (fun i => data.getD i.toNat 0) nch (H + (i : Int) * nch) = (List.range nch).map (material data H nch i) := by
  unfold frameAt
  refine List.map_congr_left fun c _ => ?_
  unfold material
  congr 1

theorem Turns.pathRead (hT : Turns fp data H nch path Live) (hn : 1 ≤ nch) (fuel : Nat) : PathRead fp fuel data H nch (material data H nch) path Live :=
  ⟨hT.ends, fun t r n h h1 h2 => by
    obtain ⟨r', k1, k2, k3⟩ := hT.read hn fuel n t r h h1 h2
    refine ⟨r', ?_, k2, k3⟩
    rw [k1]
    simp only [frameAt_material]⟩

/-! ## Backwards -/

theorem backPath_ends {x ρ : ℚ} (hρ : 0 ≤ ρ) (L : Int) : PathEnds (backPath x ρ L) := by
  intro t h
  unfold backPath at h ⊢
  split at h
  · cases h
  · rename_i hlt
    rw [if_neg]
    have : ⌈x - ((t + 1 : Nat) : ℚ) * ρ⌉ ≤ ⌈x - (t : ℚ) * ρ⌉ := Int.ceil_le_ceil (by push_cast; linarith)
    omega

/-- A reader going backwards that has delivered `t` frames. -/
def Backing (p : Nat) (R L F : Int) (x ρ : ℚ) (t : Nat) (r : Rd) : Prop := Rev r p R L (x - t * ρ) ∧ r.rate = -ρ ∧ r.fileSamples = F

theorem back_turns {p : Nat} {R L F : Int} {x ρ : ℚ} (hρ : 0 < ρ) (hlen : H + F * nch ≤ data.length) :
    Turns fp data H nch (backPath x ρ L) (Backing p R L F x ρ) where
  ends := backPath_ends (le_of_lt hρ) L
  dual h := h.1.plain.dual
  stop {t r} h e := by
    refine ⟨h.1.plain, ?_, h.1.loop⟩
    rw [h.1.atEnd]
    unfold backPath at e
    split at e
    · cases e
    · rename_i hlt; simpa using hlt
  go {t r i} h hc hH e := by
    obtain ⟨hR, hrate, hF⟩ := h
    unfold backPath at e
    split at e
    · rename_i hx
      cases e
      obtain ⟨r2, k1, k2, k3, k4, -⟩ := hR.step fp hx
      have hL := hR.L0
      have hxF := hR.xF
      have hR0 := hR.R0
      have hn := hR.plain.nch
      rw [hc] at hn
      have f := frame_fits hR.header0 (le_of_lt hR.plain.nch) (show 0 ≤ ⌈x - t * ρ⌉ + 1 by omega) (show ⌈x - t * ρ⌉ + 1 ≤ r.fileSamples + R + 1 by omega) hR.fits
      have f2 : (⌈x - t * ρ⌉ + 1) * nch ≤ F * nch := mul_le_mul_of_nonneg_right (by omega) (le_of_lt hn)
      rw [hH, hc] at f
      have ei : ((⌈x - t * ρ⌉.toNat : Nat) : Int) = ⌈x - t * ρ⌉ := Int.toNat_of_nonneg (by omega)
      refine ⟨r, r2, Or.inl ⟨by rw [hR.atEnd]; simpa using hx, rfl⟩, hR.plain, SameConf.refl r, by rw [ei, hR.pos, hc, hH], ?_, by rw [ei]; exact f.2, k1, k4, ?_, ?_, ?_⟩
      · have : ((H + (⌈x - t * ρ⌉.toNat + 1) * nch : Nat) : Int) ≤ data.length := by push_cast; rw [ei]; omega
        exact_mod_cast this
      · convert k2 using 1
        rw [hrate]; push_cast; ring
      · rw [k3, hrate]
      · rw [k4.fileSamples, hF]
    · cases e

/-! ## Round and round -/

/-- The settings of a loop from frame `A` to frame `E`, and the frame the reader is at. -/
structure Looping (lt : LoopType) (A E q : Int) (r : Rd) : Prop where
  at_ : ULoop r q
  loop : r.loopType = lt
  ls : r.loopStart = A
  lf : r.loopFinish = E

/-- A reader repeating a loop forwards, at position `y`, possibly just behind the end. -/
structure LoopUp (A E : Int) (p : Nat) (R : Int) (v y : ℚ) (r : Rd) : Prop where
  looping : Looping .repeat A E ⌊y⌋ r
  rate : r.rate = v
  rem : r.rem = Int.fract y
  grid : OnGrid p y
  y0 : 0 ≤ y
  yE : ⌊y⌋ ≤ E + R

/-- A reader that has delivered `t` frames of the loop. -/
def Upping (A E : Int) (p : Nat) (R : Int) (x v : ℚ) (t : Nat) (r : Rd) : Prop :=
  ∃ y, LoopUp A E p R v y r ∧ loopAt A E x v t = if E ≤ ⌊y⌋ then A + Int.fract y else y

theorem floor_add_fract (A : Int) (y : ℚ) : ⌊(A : ℚ) + Int.fract y⌋ = A := by
  rw [Int.floor_intCast_add, Int.floor_fract, add_zero]

theorem loopPath_ends (A E : Int) (x r : ℚ) : PathEnds (loopPath A E x r) := fun _ h => nomatch h

theorem up_turns {A E : Int} {p : Nat} {R : Int} {x v : ℚ} (hA : 0 ≤ A) (hAE : A < E) (hv0 : 0 ≤ v) (hvR : v ≤ R) (hg : GridRate p v)
    (hn : 1 ≤ nch) (hfit : (H : Int) + nch * (E + R + 1) ≤ 2147483647) (hlen : H + E * nch ≤ data.length) :
    Turns fp data H nch (loopPath A E x v) (Upping A E p R x v) where
  ends := loopPath_ends A E x v
  dual h := by obtain ⟨y, h, -⟩ := h; exact h.looping.at_.plain.dual
  stop h e := nomatch e
  go {t r i} h hc hH e := by
    obtain ⟨y, h, hy⟩ := h
    have hu := h.looping.at_
    have hR0 : 0 ≤ R := by
      have : (0 : ℚ) ≤ R := le_trans hv0 hvR
      exact_mod_cast this
    have hat := hu.atEnd_fwd (by rw [h.looping.loop]; simp) (by rw [h.rate]; exact hv0)
    rw [h.looping.lf] at hat
    -- where the frame is read
    obtain ⟨r1, z, s1, s2, s3, s4, s5, s6, s7⟩ : ∃ (r1 : Rd) (z : ℚ), Settles r r1 ∧ SameConf r r1 ∧ LoopUp A E p R v z r1 ∧ loopAt A E x v t = z ∧
        ⌊z⌋ < E ∧ 0 ≤ ⌊z⌋ ∧ OnGrid p z := by
      by_cases hlt : E ≤ ⌊y⌋
      · rw [if_pos hlt] at hy
        have hgf : OnGrid p ((A : ℚ) + Int.fract y) := by
          have : (A : ℚ) + Int.fract y = (A : ℚ) + (y - (⌊y⌋ : Int)) := rfl
          rw [this]
          exact (OnGrid.int p A).add (h.grid.sub (OnGrid.int p _))
        have hps := hu.posOf (x := r.loopStart) hu.A0 (le_of_lt hu.AE)
        have hu' : ULoop { r with cfOn := false, pos1 := r.posOf r.loopStart } ⌊(A : ℚ) + Int.fract y⌋ := by
          rw [floor_add_fract]
          exact ⟨⟨hu.plain.dual, hu.plain.interp, rfl, hu.plain.nch⟩, by rw [← h.looping.ls]; exact hps, hu.header0, hu.A0, hu.AE, hu.fits⟩
        refine ⟨{ r with cfOn := false, pos1 := r.posOf r.loopStart }, (A : ℚ) + Int.fract y, Or.inr ⟨by rw [hat]; simpa using hlt, ?_, ?_⟩,
          ⟨rfl, rfl, rfl, rfl, rfl, rfl, rfl, rfl, rfl, rfl, rfl, rfl, rfl, rfl⟩, ⟨⟨hu', h.looping.loop, h.looping.ls, h.looping.lf⟩, h.rate, ?_, hgf, ?_, ?_⟩,
          hy, ?_, ?_, hgf⟩
        · unfold wrapAround
          simp only [h.looping.loop, ge_iff_le, h.rate, hv0, if_true]; rfl
        · rw [hu'.atEnd_fwd (by simp only; rw [h.looping.loop]; simp) (by simp only; rw [h.rate]; exact hv0), floor_add_fract]
          simp only [h.looping.lf]
          simpa using hAE
        · simp only [h.rem, Int.fract_intCast_add, Int.fract_fract]
        · exact add_nonneg (by exact_mod_cast hA) (Int.fract_nonneg _)
        · rw [floor_add_fract]; omega
        · rw [floor_add_fract]; exact hAE
        · rw [floor_add_fract]; exact hA
      · rw [if_neg hlt] at hy
        exact ⟨r, y, Or.inl ⟨by rw [hat]; simpa using hlt, rfl⟩, SameConf.refl r, h, hy, by omega, Int.floor_nonneg.2 h.y0, h.grid⟩
    have hu1 := s3.looping.at_
    have hi : i = ⌊z⌋.toNat := by
      unfold loopPath at e
      rw [s4] at e
      exact (Option.some.inj e).symm
    have ei : ((i : Nat) : Int) = ⌊z⌋ := by rw [hi]; exact Int.toNat_of_nonneg s6
    have hc1 : r1.nch = nch := s2.nch.trans hc
    have hH1 : r1.header = H := s2.header.trans hH
    have hf0 := Int.fract_nonneg z
    have hf1 := Int.fract_lt_one z
    have hsum : 0 ≤ r1.rem + r1.rate := by rw [s3.rem, s3.rate]; linarith
    have hzv : z + v = (⌊z⌋ : ℚ) + (Int.fract z + v) := by rw [← Int.self_sub_floor z]; ring
    have hfl : ⌊z + v⌋ = ⌊z⌋ + ⌊Int.fract z + v⌋ := by rw [hzv, Int.floor_intCast_add]
    have ht : trunc (r1.rem + r1.rate) = ⌊z + v⌋ - ⌊z⌋ := by rw [trunc_of_nonneg hsum, s3.rem, s3.rate, hfl]; ring
    have hd0 : ⌊z⌋ ≤ ⌊z + v⌋ := Int.floor_le_floor (by linarith)
    have hdR : ⌊z + v⌋ ≤ ⌊z⌋ + R + 1 := by
      have : ⌊z + v⌋ < ⌊z⌋ + R + 1 := by
        rw [Int.floor_lt]; push_cast; have := Int.lt_floor_add_one z; linarith
      omega
    have hdR' : ⌊z + v⌋ ≤ E + R := by omega
    have hn0 : (0 : Int) < nch := by exact_mod_cast hn
    have hH0 : (0 : Int) ≤ H := Int.natCast_nonneg _
    have f1 := frame_fits hH0 (le_of_lt hn0) (show 0 ≤ ⌊z + v⌋ by omega) (show ⌊z + v⌋ ≤ E + R + 1 by omega) hfit
    have f2 := frame_fits hH0 (le_of_lt hn0) (show 0 ≤ ⌊z + v⌋ - ⌊z⌋ by omega) (show ⌊z + v⌋ - ⌊z⌋ ≤ E + R + 1 by omega) hfit
    have f3 := frame_fits hH0 (le_of_lt hn0) (show 0 ≤ ⌊z⌋ + 1 by omega) (show ⌊z⌋ + 1 ≤ E + R + 1 by omega) hfit
    have f4 : (⌊z⌋ + 1) * nch ≤ E * nch := mul_le_mul_of_nonneg_right (by omega) (le_of_lt hn0)
    have hpos : r1.pos1 + trunc (r1.rem + r1.rate) * r1.nch = H + ⌊z + v⌋ * nch := by
      rw [hu1.pos, ht, hH1, hc1]; ring
    have hst := stepOn_grid fp (r := r1) (p := p) (by rw [s3.rate]; exact hg) (by rw [s3.rem]; exact s7.sub (OnGrid.int p _))
      (by rw [s3.rem, abs_of_nonneg hf0]; exact hf1) hu1.plain.cfOn (by rw [ht, hc1]; exact ⟨by omega, by omega⟩) (by rw [hpos]; exact ⟨by omega, by omega⟩)
    refine ⟨r1, _, s1, hu1.plain, s2, by rw [hu1.pos, hH1, hc1, ei], ?_, by rw [ei]; exact f3.2, hst,
      s2.trans ⟨rfl, rfl, rfl, rfl, rfl, rfl, rfl, rfl, rfl, rfl, rfl, rfl, rfl, rfl⟩, z + v, ⟨⟨⟨⟨hu1.plain.dual, hu1.plain.interp, hu1.plain.cfOn, hu1.plain.nch⟩, ?_,
        hu1.header0, hu1.A0, hu1.AE, hu1.fits⟩, s3.looping.loop, s3.looping.ls, s3.looping.lf⟩, s3.rate, ?_, s7.add hg.grid, by linarith [s3.y0], hdR'⟩, ?_⟩
    · have : ((H + (i + 1) * nch : Nat) : Int) ≤ data.length := by push_cast; rw [ei]; omega
      exact_mod_cast this
    · simp only; rw [hpos, hH1, hc1]
    · simp only
      rw [ht, s3.rem, s3.rate]
      unfold Int.fract
      push_cast; ring
    · show (let y := loopAt A E x v t + v; if E ≤ ⌊y⌋ then (A : ℚ) + Int.fract y else y) = _
      simp only [s4]

/-- A reader repeating a loop backwards, at position `y`, possibly just before the start; `M` is the last frame it can be at. -/
structure LoopDown (A E M : Int) (p : Nat) (R : Int) (ρ y : ℚ) (r : Rd) : Prop where
  looping : Looping .repeat A E ⌈y⌉ r
  low : r.playStart ≠ .sample ∨ r.loopStart = 0
  rate : r.rate = -ρ
  rem : r.rem = y - ⌈y⌉
  grid : OnGrid p y
  yM : ⌈y⌉ ≤ M
  yA : A - R - 1 ≤ ⌈y⌉

/-- A reader that has delivered `t` frames of the loop, backwards. -/
def Downing (A E M back : Int) (p : Nat) (R : Int) (x ρ : ℚ) (t : Nat) (r : Rd) : Prop :=
  ∃ y, LoopDown A E M p R ρ y r ∧ loopBackAt A E back x ρ t = if ⌈y⌉ < A then ((E - back : Int) : ℚ) + (y - ⌈y⌉) else y

theorem ceil_add_sub (A : Int) (y : ℚ) : ⌈(A : ℚ) + (y - ⌈y⌉)⌉ = A := by
  rw [Int.ceil_intCast_add, Int.ceil_sub_intCast, sub_self, add_zero]

theorem down_turns {A E M : Int} {p : Nat} {R : Int} {x ρ : ℚ} (hA : 0 ≤ A) (hn : 1 ≤ nch) (hAE : A + nch ≤ E) (hEM : E ≤ M + 1) (hρ : 0 < ρ)
    (hρR : ρ ≤ R) (hg : GridRate p ρ) (hfit : (H : Int) + nch * (M + R + 2) ≤ 2147483647) (hlen : H + (M + 1) * nch ≤ data.length) :
    Turns fp data H nch (loopBackPath A E nch x ρ) (Downing A E M nch p R x ρ) where
  ends := fun _ h => nomatch h
  dual h := by obtain ⟨y, h, -⟩ := h; exact h.looping.at_.plain.dual
  stop h e := nomatch e
  go {t r i} h hc hH e := by
    obtain ⟨y, h, hy⟩ := h
    have hu := h.looping.at_
    have hR0 : 0 < R := by
      have : (0 : ℚ) < R := lt_of_lt_of_le hρ hρR
      exact_mod_cast this
    have hn0 : (0 : Int) < nch := by exact_mod_cast hn
    have hneg : r.rate < 0 := by rw [h.rate]; linarith
    have hat := hu.atEnd_rev h.low hneg
    rw [h.looping.ls] at hat
    -- where the frame is read
    obtain ⟨r1, z, s1, s2, s3, s4, s5⟩ : ∃ (r1 : Rd) (z : ℚ), Settles r r1 ∧ SameConf r r1 ∧ LoopDown A E M p R ρ z r1 ∧ loopBackAt A E nch x ρ t = z ∧
        A ≤ ⌈z⌉ := by
      by_cases hlt : ⌈y⌉ < A
      · rw [if_pos hlt] at hy
        have hgf : OnGrid p (((E - nch : Int) : ℚ) + (y - ⌈y⌉)) := (OnGrid.int p _).add (h.grid.sub (OnGrid.int p _))
        have hps := hu.posOf (x := r.loopFinish - r.nch) (by rw [h.looping.lf, hc]; omega) (by rw [hc]; omega)
        have hu' : ULoop { r with cfOn := false, pos1 := r.posOf (r.loopFinish - r.nch) } ⌈((E - nch : Int) : ℚ) + (y - ⌈y⌉)⌉ := by
          rw [ceil_add_sub]
          refine ⟨⟨hu.plain.dual, hu.plain.interp, rfl, hu.plain.nch⟩, ?_, hu.header0, hu.A0, hu.AE, hu.fits⟩
          rw [← h.looping.lf, ← hc]; exact hps
        refine ⟨{ r with cfOn := false, pos1 := r.posOf (r.loopFinish - r.nch) }, ((E - nch : Int) : ℚ) + (y - ⌈y⌉), Or.inr ⟨by rw [hat]; simpa using hlt, ?_, ?_⟩,
          ⟨rfl, rfl, rfl, rfl, rfl, rfl, rfl, rfl, rfl, rfl, rfl, rfl, rfl, rfl⟩, ⟨⟨hu', h.looping.loop, h.looping.ls, h.looping.lf⟩, h.low, h.rate, ?_, hgf, ?_, ?_⟩,
          hy, ?_⟩
        · unfold wrapAround
          simp only [h.looping.loop, ge_iff_le, if_neg (not_le.2 hneg)]; rfl
        · rw [hu'.atEnd_rev h.low hneg, ceil_add_sub]
          simp only [h.looping.ls, decide_eq_false_iff_not]
          omega
        · simp only [h.rem, ceil_add_sub]; ring
        · rw [ceil_add_sub]; omega
        · rw [ceil_add_sub]; omega
        · rw [ceil_add_sub]; omega
      · rw [if_neg hlt] at hy
        exact ⟨r, y, Or.inl ⟨by rw [hat]; simpa using hlt, rfl⟩, SameConf.refl r, h, hy, by omega⟩
    have hu1 := s3.looping.at_
    have hi : i = ⌈z⌉.toNat := by
      unfold loopBackPath at e
      rw [s4] at e
      exact (Option.some.inj e).symm
    have ei : ((i : Nat) : Int) = ⌈z⌉ := by rw [hi]; exact Int.toNat_of_nonneg (by omega)
    have hc1 : r1.nch = nch := s2.nch.trans hc
    have hH1 : r1.header = H := s2.header.trans hH
    have hf0 := Int.le_ceil z
    have hf1 := Int.ceil_lt_add_one z
    have hsum : r1.rem + r1.rate ≤ 0 := by rw [s3.rem, s3.rate]; linarith
    have ht : trunc (r1.rem + r1.rate) = ⌈z - ρ⌉ - ⌈z⌉ := by
      rw [trunc_of_nonpos hsum, s3.rem, s3.rate, show z - ⌈z⌉ + -ρ = z - ρ - (⌈z⌉ : Int) by ring, Int.ceil_sub_intCast]
    have hd0 : ⌈z - ρ⌉ ≤ ⌈z⌉ := Int.ceil_le_ceil (by linarith)
    have hdR : ⌈z⌉ - R - 1 ≤ ⌈z - ρ⌉ := by
      have : ⌈z⌉ - R - 2 < ⌈z - ρ⌉ := by rw [Int.lt_ceil]; push_cast; linarith
      omega
    have hM := s3.yM
    have hH0 : (0 : Int) ≤ H := Int.natCast_nonneg _
    have f1 := frame_fits' hH0 (le_of_lt hn0) (show -(M + R + 2) ≤ ⌈z - ρ⌉ by omega) (show ⌈z - ρ⌉ ≤ M + R + 2 by omega) hfit
    have f2 := frame_fits' hH0 (le_of_lt hn0) (show -(M + R + 2) ≤ ⌈z - ρ⌉ - ⌈z⌉ by omega) (show ⌈z - ρ⌉ - ⌈z⌉ ≤ M + R + 2 by omega) hfit
    have f3 := frame_fits hH0 (le_of_lt hn0) (show 0 ≤ ⌈z⌉ + 1 by omega) (show ⌈z⌉ + 1 ≤ M + R + 2 by omega) hfit
    have f4 : (⌈z⌉ + 1) * nch ≤ (M + 1) * nch := mul_le_mul_of_nonneg_right (by omega) (le_of_lt hn0)
    have hpos : r1.pos1 + trunc (r1.rem + r1.rate) * r1.nch = H + ⌈z - ρ⌉ * nch := by
      rw [hu1.pos, ht, hH1, hc1]; ring
    have hst := stepOn_grid fp (r := r1) (p := p) (by rw [s3.rate]; exact hg.neg) (by rw [s3.rem]; exact s3.grid.sub (OnGrid.int p _))
      (by rw [s3.rem, abs_of_nonpos (by linarith)]; linarith) hu1.plain.cfOn (by rw [ht, hc1]; exact ⟨by omega, by omega⟩) (by rw [hpos]; exact ⟨by omega, by omega⟩)
    refine ⟨r1, _, s1, hu1.plain, s2, by rw [hu1.pos, hH1, hc1, ei], ?_, by rw [ei]; exact f3.2, hst,
      s2.trans ⟨rfl, rfl, rfl, rfl, rfl, rfl, rfl, rfl, rfl, rfl, rfl, rfl, rfl, rfl⟩, z - ρ, ⟨⟨⟨⟨hu1.plain.dual, hu1.plain.interp, hu1.plain.cfOn, hu1.plain.nch⟩, ?_,
        hu1.header0, hu1.A0, hu1.AE, hu1.fits⟩, s3.looping.loop, s3.looping.ls, s3.looping.lf⟩, s3.low, s3.rate, ?_, s3.grid.sub hg.grid, by omega, by omega⟩, ?_⟩
    · have : ((H + (i + 1) * nch : Nat) : Int) ≤ data.length := by push_cast; rw [ei]; omega
      exact_mod_cast this
    · simp only; rw [hpos, hH1, hc1]
    · simp only
      rw [ht, s3.rem, s3.rate]
      push_cast; ring
    · show (let y := loopBackAt A E nch x ρ t - ρ; if ⌈y⌉ < A then ((E - nch : Int) : ℚ) + (y - ⌈y⌉) else y) = _
      simp only [s4]

/-! ## To and fro at normal speed -/

/-- A reader that has delivered `t` frames, to and fro. -/
structure Bouncing (A E s : Int) (nch t : Nat) (r : Rd) : Prop where
  loop : r.loopType = .pingpong
  ls : r.loopStart = A
  lf : r.loopFinish = E
  low : r.playStart ≠ .sample ∨ r.loopStart = 0
  rem : r.rem = 0
  phase : ∃ j : Int, PPhase r j ∧ j % (2 * (E - A) - nch + 1) = ((t : Int) + s - A) % (2 * (E - A) - nch + 1)

theorem bounce_turns {A E s : Int} (hA : 0 ≤ A) (hn : 1 ≤ nch) (hAE : A + nch ≤ E) (hfit : (H : Int) + nch * (E + 1) ≤ 2147483647)
    (hlen : H + E * nch ≤ data.length) : Turns fp data H nch (bouncePath s A E nch) (Bouncing A E s nch) where
  ends := fun _ h => nomatch h
  dual h := by
    obtain ⟨j, h, -⟩ := h.phase
    rcases h with ⟨_, _, _, hu⟩ | ⟨_, _, _, hu⟩ <;> exact hu.plain.dual
  stop h e := nomatch e
  go {t r i} h hc hH e := by
    obtain ⟨j, hph, hj⟩ := h.phase
    obtain ⟨r1, j1, hset, hcf, hrem1, hj1, hcase⟩ := hph.settle h.loop h.low (by rw [hc, h.ls, h.lf]; omega)
    rw [h.ls, h.lf, hc, hj] at hj1
    rw [h.ls, h.lf, hc] at hcase
    have hrem : r1.rem = 0 := hrem1.trans h.rem
    have hc1 : r1.nch = nch := hcf.nch.trans hc
    have hH1 : r1.header = H := hcf.header.trans hH
    have hls1 : r1.loopStart = A := hcf.loopStart.trans h.ls
    have hlf1 : r1.loopFinish = E := hcf.loopFinish.trans h.lf
    have hn0 : (0 : Int) < nch := by exact_mod_cast hn
    have hH0 : (0 : Int) ≤ H := Int.natCast_nonneg _
    have hnext : ∀ j' : Int, j' = j1 + 1 → j' % (2 * (E - A) - nch + 1) = (((t + 1 : Nat) : Int) + s - A) % (2 * (E - A) - nch + 1) := by
      intro j' hj'
      rw [hj', hj1, Int.emod_add_emod]
      congr 1; push_cast; ring
    have hlow1 : r1.playStart ≠ .sample ∨ r1.loopStart = 0 := by rw [hcf.playStart, hcf.loopStart]; exact h.low
    have hi : i = (if j1 < E - A then A + j1 else A + (2 * (E - A) - nch - j1)).toNat := by
      unfold bouncePath at e
      simp only [← hj1] at e
      exact (Option.some.inj e).symm
    rcases hcase with ⟨hr1, a0, a1, hu⟩ | ⟨hr1, a0, a1, hu⟩
    · rw [if_pos a1] at hi
      have ei : (i : Int) = A + j1 := by rw [hi]; exact Int.toNat_of_nonneg (by omega)
      have hro := hu.room (by rw [hls1]; omega) (by rw [hlf1]; omega)
      have f3 := frame_fits hH0 (le_of_lt hn0) (show 0 ≤ A + j1 + 1 by omega) (show A + j1 + 1 ≤ E + 1 by omega) hfit
      have f4 : (A + j1 + 1) * nch ≤ E * nch := mul_le_mul_of_nonneg_right (by omega) (le_of_lt hn0)
      have hst := stepOn_unit fp (p := 0) (by norm_num) (r := r1) hr1 (by rw [hrem]; simpa using OnGrid.int 0 0)
        (by rw [hrem]) (by rw [hrem]; norm_num) hu.plain.cfOn hro.2.2.2.1 hro.2.1
      refine ⟨r1, { r1 with pos1 := r1.pos1 + r1.nch }, hset, hu.plain, hcf, by rw [hu.pos, hH1, hc1, ei], ?_, by rw [ei]; exact f3.2, hst,
        hcf.trans ⟨rfl, rfl, rfl, rfl, rfl, rfl, rfl, rfl, rfl, rfl, rfl, rfl, rfl, rfl⟩, ⟨hcf.loopType.trans h.loop, hls1, hlf1, hlow1, hrem, j1 + 1, Or.inl ⟨hr1, by omega, ?_, ?_⟩,
          hnext _ rfl⟩⟩
      · have : ((H + (i + 1) * nch : Nat) : Int) ≤ data.length := by push_cast; rw [ei]; omega
        exact_mod_cast this
      · simp only; rw [hlf1, hls1]; omega
      · refine ⟨⟨hu.plain.dual, hu.plain.interp, hu.plain.cfOn, hu.plain.nch⟩, ?_, hu.header0, hu.A0, hu.AE, hu.fits⟩
        simp only
        rw [hu.pos, hls1]; ring
    · rw [if_neg (by omega)] at hi
      have ei : (i : Int) = A + (2 * (E - A) - nch - j1) := by rw [hi]; exact Int.toNat_of_nonneg (by omega)
      have hro := hu.room (by rw [hls1]; omega) (by rw [hlf1]; omega)
      have f3 := frame_fits hH0 (le_of_lt hn0) (show 0 ≤ A + (2 * (E - A) - nch - j1) + 1 by omega) (show A + (2 * (E - A) - nch - j1) + 1 ≤ E + 1 by omega) hfit
      have f4 : (A + (2 * (E - A) - nch - j1) + 1) * nch ≤ E * nch := mul_le_mul_of_nonneg_right (by omega) (le_of_lt hn0)
      have hst := stepOn_unit_rev fp (r := r1) hr1 hrem hu.plain.cfOn hro.2.2.2.2.1 hro.2.2.1
      refine ⟨r1, { r1 with pos1 := r1.pos1 - r1.nch }, hset, hu.plain, hcf, by rw [hu.pos, hH1, hc1, ei], ?_, by rw [ei]; exact f3.2, hst,
        hcf.trans ⟨rfl, rfl, rfl, rfl, rfl, rfl, rfl, rfl, rfl, rfl, rfl, rfl, rfl, rfl⟩, ⟨hcf.loopType.trans h.loop, hls1, hlf1, hlow1, hrem, j1 + 1, Or.inr ⟨hr1, ?_, ?_, ?_⟩,
          hnext _ rfl⟩⟩
      · have : ((H + (i + 1) * nch : Nat) : Int) ≤ data.length := by push_cast; rw [ei]; omega
        exact_mod_cast this
      · simp only; rw [hlf1, hls1]; omega
      · simp only; rw [hlf1, hls1, hc1]; omega
      · refine ⟨⟨hu.plain.dual, hu.plain.interp, hu.plain.cfOn, hu.plain.nch⟩, ?_, hu.header0, hu.A0, hu.AE, hu.fits⟩
        simp only
        rw [hu.pos, hls1, hlf1, hc1]; ring

end TVP
