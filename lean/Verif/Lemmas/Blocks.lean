import Verif.Lemmas.Glide
import Verif.Lemmas.ArrayPlay
import Verif.Spec.Sound

/-!
# The blocks an array player sends, update by update
-/

namespace TVP
open Spec

/-- Frames delivered by forward playback, padded. -/
theorem forwardFrames_pad {r : ℚ} (hr : 0 ≤ r) (F : Int) (f : Int → Int) : ∀ (n : Nat) (x : ℚ),
    (forwardFrames x r F n).map f ++ List.replicate (n - (forwardFrames x r F n).length) 0 =
      (List.range n).map fun t : Nat => if ⌊x + (t : ℚ) * r⌋ < F then f ⌊x + (t : ℚ) * r⌋ else 0
  | 0, x => by simp [forwardFrames]
  | n + 1, x => by
    rw [forwardFrames_succ, List.range_succ_eq_map, List.map_cons, List.map_map]
    simp only [Nat.cast_zero, zero_mul, add_zero]
    split
    · rename_i hx
      rw [List.map_cons, List.length_cons, Nat.add_sub_add_right, List.cons_append, forwardFrames_pad hr F f n (x + r)]
      congr 1
      refine List.map_congr_left fun t _ => ?_
      have e : x + ((t.succ : Nat) : ℚ) * r = x + r + (t : ℚ) * r := by push_cast; ring
      simp only [Function.comp_apply, e]
    · rename_i hx
      rw [List.map_nil, List.nil_append, List.length_nil, Nat.sub_zero, List.replicate_succ]
      congr 1
      symm
      rw [List.eq_replicate_iff]
      refine ⟨by simp, fun b hb => ?_⟩
      obtain ⟨t, _, rfl⟩ := List.mem_map.1 hb
      simp only [Function.comp_apply]
      rw [if_neg]
      have h1 : ⌊x⌋ ≤ ⌊x + ((t.succ : Nat) : ℚ) * r⌋ := Int.floor_le_floor (by
        have : 0 ≤ ((t.succ : Nat) : ℚ) * r := mul_nonneg (by positivity) hr
        linarith)
      omega

/-- All frames asked for are delivered if the last one lies in the material. -/
theorem forwardFrames_full {r : ℚ} (hr : 0 ≤ r) (F : Int) : ∀ (n : Nat) (x : ℚ),
    (forwardFrames x r F (n + 1)).length = n + 1 ↔ ⌊x + (n : ℚ) * r⌋ < F
  | 0, x => by
    rw [forwardFrames_succ]
    simp only [Nat.cast_zero, zero_mul, add_zero]
    split
    · rename_i h; simp [h, forwardFrames]
    · rename_i h; simp [h]
  | n + 1, x => by
    rw [forwardFrames_succ]
    have e : x + ((n + 1 : Nat) : ℚ) * r = x + r + (n : ℚ) * r := by push_cast; ring
    rw [e]
    split
    · rw [List.length_cons, Nat.add_right_cancel_iff]
      exact forwardFrames_full hr F n (x + r)
    · rename_i h
      have h1 : ⌊x⌋ ≤ ⌊x + r + (n : ℚ) * r⌋ := Int.floor_le_floor (by
        have : 0 ≤ (n : ℚ) * r := mul_nonneg (by positivity) hr
        linarith)
      simp only [List.length_nil]
      constructor
      · intro h; omega
      · intro h; omega

/-- The samples of the material of a player: frame `i` starts at sample `H + i nch` of the source. -/
def material (data : List Int) (H nch : Nat) (i ch : Nat) : Int := data.getD (H + i * nch + ch) 0

theorem blockOf_fwd {r x : ℚ} (hr : 0 ≤ r) (hx : 0 ≤ x) (F : Int) (data : List Int) (H nch : Nat) (k : Nat) {ch : Nat} (hch : ch < nch) :
    blockOf ((forwardFrames (x + ((128 * k : Nat) : ℚ) * r) r F blockSamples).map
        (fun i => frameAt (fun i => data.getD i.toNat 0) nch (H + i * nch))) ch =
      soundBlock (material data H nch) F x r k ch := by
  unfold blockOf
  rw [List.map_map, List.length_map, forwardFrames_pad hr]
  unfold soundBlock
  refine List.map_congr_left fun t _ => ?_
  have e : x + ((128 * k : Nat) : ℚ) * r + (t : ℚ) * r = x + ((128 * k + t : Nat) : ℚ) * r := by push_cast; ring
  rw [e]
  split
  · have h0 : 0 ≤ ⌊x + ((128 * k + t : Nat) : ℚ) * r⌋ := Int.floor_nonneg.2 (add_nonneg hx (mul_nonneg (by positivity) hr))
    generalize ⌊x + ((128 * k + t : Nat) : ℚ) * r⌋ = i at *
    obtain ⟨i, rfl⟩ : ∃ j : Nat, i = j := ⟨i.toNat, by omega⟩
    simp only [Function.comp_apply, frameAt, material]
    rw [List.getD_eq_getElem?_getD, List.getElem?_map, List.getElem?_range (by omega)]
    simp only [Option.map_some, Option.getD_some, Int.toNat_natCast]
    congr 1
  · rfl

variable {fp : Fp} {data : List Int} {H nch : Nat} {F : Int} {p : Nat} {R : Int} {x r : ℚ}

/-- An array player that has sent `k` blocks (`none`: that has ended). -/
structure Sounding (data : List Int) (H nch : Nat) (F : Int) (p : Nat) (R : Int) (x r : ℚ) (st : Option Nat) (b : ArrayReader) : Prop where
  playing : b.rd.playing = st.isSome
  chans : b.rd.nch = nch
  live : ∀ k, st = some k → Fwd b.rd p R (x + ((128 * k : Nat) : ℚ) * r) ∧ b.src = some data ∧ b.rd.header = H ∧ b.rd.fileSamples = F ∧ b.rd.rate = r

theorem filter_range_all {n : Nat} {al : Nat → Bool} : ((List.range n).filter al).length = (List.range n).length ↔ ∀ c < n, al c = true := by
  rw [List.length_filter_eq_length_iff]
  simp only [List.mem_range]

theorem Sounding.tick (hn : 1 ≤ nch) (hr : 0 ≤ r) (hx : 0 ≤ x) (hlen : H + F * nch ≤ data.length) (fuel : Nat) {st : Option Nat} {b : ArrayReader}
    (h : Sounding data H nch F p R x r st b) (al : Nat → Bool) :
    ∃ b', b.tick fp (fuel + 2) al = .ok ((soundStep (material data H nch) nch F x r st al).1, b') ∧
      Sounding data H nch F p R x r (soundStep (material data H nch) nch F x r st al).2 b' := by
  unfold ArrayReader.tick ArrayReader.update
  rw [h.playing]
  cases st with
  | none =>
    rw [Option.isSome_none, update_off (by rw [h.chans]; omega)]
    exact ⟨b, rfl, h⟩
  | some k =>
    obtain ⟨hf, hs, hH, hF, hrate⟩ := h.live k rfl
    rw [Option.isSome_some]
    have hpos : 0 < b.rd.nch := by rw [h.chans]; omega
    have htn : b.rd.nch.toNat = nch := by rw [h.chans]; omega
    by_cases ha : ∀ c < nch, al c = true
    · have ha' := filter_range_all.2 ha
      rw [update_on hpos _ _ _ (by rw [htn]; exact ha')]
      obtain ⟨r', s', h1, h2, h3, h4, h5⟩ := fwd_law fp (arraySrcIs data) fuel blockSamples b.rd _ b.src hf hs
        (fun i i0 i1 => by rw [hH] at i0 i1; rw [hF, h.chans] at i1; omega)
      have hrd := arrayRead_eq (a := b) (by rw [h.playing]; rfl) hpos h1
      rw [hrd]
      simp only [ok_bind]
      rw [hrate, hF] at h2
      rw [hrate, hF, h.chans, hH]
      have hfil : (List.range nch).filter al = List.range nch := by
        rw [List.filter_eq_self]; intro c hc; exact ha c (List.mem_range.1 hc)
      set frames := (forwardFrames (x + ((128 * k : Nat) : ℚ) * r) r F blockSamples).map
        (fun i => frameAt (fun i => data.getD i.toNat 0) nch (H + i * nch)) with hframes
      have hfull : frames.length = blockSamples ↔ ⌊x + ((128 * k + 127 : Nat) : ℚ) * r⌋ < F := by
        rw [hframes, List.length_map]
        have := forwardFrames_full hr F 127 (x + ((128 * k : Nat) : ℚ) * r)
        rw [show x + ((128 * k : Nat) : ℚ) * r + ((127 : Nat) : ℚ) * r = x + ((128 * k + 127 : Nat) : ℚ) * r by push_cast; ring] at this
        exact this
      have hfx : fxOf nch frames al = (soundStep (material data H nch) nch F x r (some k) al).1 := by
        unfold soundStep fxOf
        simp only
        rw [if_pos ha]
        simp only [Int.toNat_natCast, hfil]
        congr 1
        · congr 1
          · refine List.map_congr_left fun ch hc => ?_
            rw [blockOf_fwd hr hx F data H nch k (List.mem_range.1 hc)]
          · by_cases h1 : nch = 1
            · rw [if_pos (by omega), if_pos h1, blockOf_fwd hr hx F data H nch k (by omega)]
            · rw [if_neg (by omega), if_neg h1]
        · congr 1
          by_cases hq : ⌊x + ((128 * k + 127 : Nat) : ℚ) * r⌋ < F
          · rw [if_pos (hfull.2 hq), if_pos hq]
          · rw [if_neg (fun e => hq (hfull.1 e)), if_neg hq]
      rw [hfx]
      have hst : (soundStep (material data H nch) nch F x r (some k) al) = ((soundStep (material data H nch) nch F x r (some k) al).1,
          if ⌊x + ((128 * k + 127 : Nat) : ℚ) * r⌋ < F then some (k + 1) else none) := by
        unfold soundStep; simp only; rw [if_pos ha]
      have hev : (soundStep (material data H nch) nch F x r (some k) al).1.event =
          some (if ⌊x + ((128 * k + 127 : Nat) : ℚ) * r⌋ < F then .reload else .close) := by
        unfold soundStep; simp only; rw [if_pos ha]
      rw [hst]
      simp only
      rw [hev]
      by_cases hq : ⌊x + ((128 * k + 127 : Nat) : ℚ) * r⌋ < F
      · simp only [if_pos hq]
        have hl : ((forwardFrames (x + ((128 * k : Nat) : ℚ) * r) r F blockSamples).length : ℚ) = 128 := by
          have := hfull.2 hq
          rw [hframes, List.length_map] at this
          rw [this]; norm_num [blockSamples]
        rw [hl] at h2
        refine ⟨_, rfl, ⟨?_, ?_, fun k' hk' => ?_⟩⟩
        · simp only [ArrayReader.service, ArrayReader.triggerReload, Option.isSome_some]; rw [h4.playing, h.playing]; rfl
        · simp only [ArrayReader.service, ArrayReader.triggerReload]; rw [h4.nch, h.chans]
        · cases hk'
          simp only [ArrayReader.service, ArrayReader.triggerReload]
          refine ⟨?_, h3, by rw [h4.header, hH], by rw [h4.fileSamples, hF], by rw [h5, hrate]⟩
          convert h2 using 1
          push_cast; ring
      · simp only [if_neg hq]
        refine ⟨_, rfl, ⟨?_, ?_, fun k' hk' => by cases hk'⟩⟩
        · simp only [ArrayReader.service, ArrayReader.close, Rd.stop]; rfl
        · simp only [ArrayReader.service, ArrayReader.close, Rd.stop]; rw [h4.nch, h.chans]
    · have ha' : ¬ ((List.range nch).filter al).length = (List.range nch).length := fun e => ha (filter_range_all.1 e)
      rw [update_short hpos _ _ _ (by rw [htn]; exact ha')]
      have hst : (soundStep (material data H nch) nch F x r (some k) al) =
          ({ allocated := (List.range nch).filter al, released := (List.range nch).filter al }, some k) := by
        unfold soundStep; simp only; rw [if_neg ha]
      rw [hst, htn]
      exact ⟨b, rfl, h⟩

theorem Sounding.ticks (hn : 1 ≤ nch) (hr : 0 ≤ r) (hx : 0 ≤ x) (hlen : H + F * nch ≤ data.length) (fuel : Nat) : ∀ (als : List (Nat → Bool))
    {st : Option Nat} {b : ArrayReader}, Sounding data H nch F p R x r st b →
    ∃ b', b.ticks fp (fuel + 2) als = .ok ((soundPlay (material data H nch) nch F x r st als).1, b') ∧
      Sounding data H nch F p R x r (soundPlay (material data H nch) nch F x r st als).2 b'
  | [], st, b, h => ⟨b, rfl, h⟩
  | al :: als, st, b, h => by
    obtain ⟨b1, h1, h2⟩ := h.tick (fp := fp) hn hr hx hlen fuel al
    obtain ⟨b2, k1, k2⟩ := Sounding.ticks hn hr hx hlen fuel als h2
    refine ⟨b2, ?_, ?_⟩
    · unfold ArrayReader.ticks
      simp only [h1, ok_bind, k1]
      rfl
    · exact k2

end TVP
