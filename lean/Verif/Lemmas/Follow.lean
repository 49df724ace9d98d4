import Verif.Spec.Follow
import Verif.Lemmas.Blocks
import Verif.Lemmas.Acts
import Verif.Lemmas.Late
import Verif.Props.Time

/-!
# Where the sound is, and the position shown
-/

namespace TVP

open Spec

theorem heardTo_ge {nch : Nat} : ∀ (ts : List Turn) (r x : ℚ), 0 ≤ r → (∀ v, Turn.speed v ∈ ts → 0 ≤ v) → x ≤ heardTo nch r x ts
  | [], _, _, _, _ => le_refl _
  | .update al :: ts, r, x, hr, hv => by
    have hv' : ∀ v, Turn.speed v ∈ ts → 0 ≤ v := fun v h => hv v (List.mem_cons_of_mem _ h)
    unfold heardTo
    split
    · have := heardTo_ge (nch := nch) ts r (x + 128 * r) hr hv'
      linarith
    · exact heardTo_ge ts r x hr hv'
  | .poll :: ts, r, x, hr, hv => by
    unfold heardTo
    exact heardTo_ge ts r x hr fun v h => hv v (List.mem_cons_of_mem _ h)
  | .speed v :: ts, r, x, hr, hv => by
    unfold heardTo
    exact heardTo_ge ts v x (hv v (List.mem_cons_self ..)) fun v h => hv v (List.mem_cons_of_mem _ h)

/-- A player in memory that is playing forwards, at exact position `x`. -/
structure Forth (data : List Int) (H nch : Nat) (F : Int) (S : Int) (p : Nat) (R : Int) (r x : ℚ) (b : MemPlayer) : Prop where
  playing : b.rdr.rd.playing = true
  src : b.rdr.src = some data
  chans : b.rdr.rd.nch = nch
  header : b.rdr.rd.header = H
  fs : b.rdr.rd.fileSamples = F
  size : b.rdr.rd.fileSize = S
  rate : b.rdr.rd.rate = r
  fwd : Fwd b.rdr.rd p R x
  pending : b.pending ≠ some .close

theorem Forth.turns {fp : Fp} {data : List Int} {H nch : Nat} {F S : Int} {p : Nat} {R : Int} (hn : 1 ≤ nch) (hlen : H + F * nch ≤ data.length) (fuel : Nat) :
    ∀ (ts : List Turn) (r x : ℚ) (b : MemPlayer), Forth data H nch F S p R r x b → 0 ≤ r → (∀ v, Turn.speed v ∈ ts → 0 ≤ v ∧ v ≤ R ∧ GridRate p v) →
      ⌊heardTo nch r x ts⌋ < F →
      ∃ fxs b' r', memTurns fp (fuel + 2) b ts = .ok (fxs, b') ∧ Forth data H nch F S p R r' (heardTo nch r x ts) b'
  | [], r, x, b, h, _, _, _ => ⟨[], b, r, rfl, h⟩
  | .poll :: ts, r, x, b, h, hr, hv, hx => by
    have hb : Forth data H nch F S p R r x b.runEvent := by
      unfold MemPlayer.runEvent
      split
      · exact h
      · exact ⟨h.playing, h.src, h.chans, h.header, h.fs, h.size, h.rate, h.fwd, by simp⟩
      · rename_i e; exact absurd e h.pending
    unfold heardTo at hx ⊢
    obtain ⟨fxs, b', r', e1, e2⟩ := Forth.turns (fp := fp) hn hlen fuel ts r x b.runEvent hb hr (fun v h => hv v (List.mem_cons_of_mem _ h)) hx
    exact ⟨fxs, b', r', by unfold memTurns; exact e1, e2⟩
  | .speed v :: ts, r, x, b, h, hr, hv, hx => by
    obtain ⟨v0, vR, vg⟩ := hv v (List.mem_cons_self ..)
    have hx0 : 0 ≤ ⌊x⌋ := Int.floor_nonneg.2 h.fwd.x0
    have hin : Inside b.rdr.rd v := Or.inr ⟨v0, by
      rw [h.fwd.pos]
      have := mul_nonneg hx0 (le_of_lt h.fwd.plain.nch)
      omega⟩
    have hb : Forth data H nch F S p R v x { b with rdr := { b.rdr with rd := b.rdr.rd.setPlaybackRate v } } := by
      rw [hin.only_rate]
      obtain ⟨hp, f2, f3, f4, f5, f6, f7, f8, f9, f10, f11, f12, f13⟩ := h.fwd
      exact ⟨h.playing, h.src, h.chans, h.header, h.fs, h.size, rfl,
        ⟨⟨hp.dual, hp.interp, hp.cfOn, hp.nch⟩, f2, v0, vg, f5, f6, f7, f8, f9, f10, vR, f12, f13⟩, h.pending⟩
    unfold heardTo at hx ⊢
    obtain ⟨fxs, b', r', e1, e2⟩ := Forth.turns (fp := fp) hn hlen fuel ts v x _ hb v0 (fun v h => hv v (List.mem_cons_of_mem _ h)) hx
    exact ⟨fxs, b', r', by unfold memTurns; exact e1, e2⟩
  | .update al :: ts, r, x, b, h, hr, hv, hx => by
    have hv' : ∀ v, Turn.speed v ∈ ts → 0 ≤ v ∧ v ≤ R ∧ GridRate p v := fun v h => hv v (List.mem_cons_of_mem _ h)
    have hpos : 0 < b.rdr.rd.nch := by rw [h.chans]; omega
    have htn : b.rdr.rd.nch.toNat = nch := by rw [h.chans]; omega
    unfold heardTo at hx ⊢
    by_cases ha : ∀ c < nch, al c = true
    · rw [if_pos ha] at hx ⊢
      have hge := heardTo_ge (nch := nch) ts r (x + 128 * r) hr fun v h => (hv' v h).1
      have hfull : (forwardFrames x r F blockSamples).length = blockSamples := by
        refine (forwardFrames_full hr F 127 x).2 (lt_of_le_of_lt (Int.floor_le_floor ?_) hx)
        push_cast
        linarith
      obtain ⟨q', s', h1, h2, h3, h4, h5⟩ := fwd_law fp (arraySrcIs data) fuel blockSamples b.rdr.rd x b.rdr.src h.fwd h.src
        (fun i i0 i1 => by rw [h.header] at i0 i1; rw [h.fs, h.chans] at i1; omega)
      rw [h.rate, h.fs] at h1 h2
      have hrd := arrayRead_eq (a := b.rdr) h.playing hpos h1
      have hup : b.rdr.update fp (fuel + 2) al = .ok (fxOf nch ((forwardFrames x r F blockSamples).map (fun i => frameAt (fun i => data.getD i.toNat 0) b.rdr.rd.nch (b.rdr.rd.header + i * b.rdr.rd.nch))) al, ⟨q', s'⟩) := by
        unfold ArrayReader.update
        rw [h.playing, update_on hpos _ _ _ (by rw [htn]; exact filter_range_all.2 ha), hrd]
        simp only [ok_bind, h.chans]
      have hev : (fxOf nch ((forwardFrames x r F blockSamples).map (fun i => frameAt (fun i => data.getD i.toNat 0) b.rdr.rd.nch (b.rdr.rd.header + i * b.rdr.rd.nch))) al).event = some .reload := by
        unfold fxOf
        simp only [List.length_map, hfull]
        rfl
      have hb : Forth data H nch F S p R r (x + 128 * r) { b with rdr := ⟨q', s'⟩, pending := some .reload } := by
        rw [hfull] at h2
        exact ⟨h4.playing.trans h.playing, h3, h4.nch.trans h.chans, h4.header.trans h.header, h4.fileSamples.trans h.fs, h4.fileSize.trans h.size, h5.trans h.rate,
          by simpa [blockSamples] using h2, by simp⟩
      generalize fxOf nch ((forwardFrames x r F blockSamples).map (fun i => frameAt (fun i => data.getD i.toNat 0) b.rdr.rd.nch (b.rdr.rd.header + i * b.rdr.rd.nch))) al = fx at hup hev
      obtain ⟨fxs, b', r', e1, e2⟩ := Forth.turns (fp := fp) hn hlen fuel ts r _ _ hb hr hv' hx
      refine ⟨fx :: fxs, b', r', ?_, e2⟩
      unfold memTurns MemPlayer.update
      simp only [hup, ok_bind, hev]
      simp only [pure_eq_ok, ok_bind, e1]
    · rw [if_neg ha] at hx ⊢
      have hup := update_short (ρ := ArrayReader) hpos (b.rdr.read fp (fuel + 2) blockSamples) b.rdr al (by
        rw [htn]; exact fun k => ha (filter_range_all.1 k))
      obtain ⟨fxs, b', r', e1, e2⟩ := Forth.turns (fp := fp) hn hlen fuel ts r _ _ h hr hv' hx
      refine ⟨{ allocated := (List.range b.rdr.rd.nch.toNat).filter al, released := (List.range b.rdr.rd.nch.toNat).filter al } :: fxs, b', r', ?_, e2⟩
      unfold memTurns MemPlayer.update ArrayReader.update
      rw [h.playing, hup]
      simp only [ok_bind, pure_eq_ok, e1]

/-! ## The number shown -/

theorem shown_near (fp : Fp) {r : Rd} (hs : 2 ≤ r.fileSize) (hs' : r.fileSize < 2 ^ 31) (hd : r.dual = false) (h0 : 0 ≤ r.pos1) (h1 : 2 * r.pos1 ≤ r.fileSize) :
    ∃ t : Int, r.positionMillis fp (b2m fp 44100) = .ok t ∧ timeOf r.pos1 - 11 / 5 < t ∧ (t : ℚ) < timeOf r.pos1 + 1 / 50 := by
  have hden : r.fileSize.tdiv 2 = r.fileSize / 2 := Int.tdiv_eq_ediv_of_nonneg (by omega)
  have hhead : shownHead r = r.pos1 := by unfold shownHead; rw [hd]; simp
  rw [positionMillis_eq fp _ _ (by omega) (by omega), hhead, b2m_teensy4, lengthMillis_eq (by omega) hs' (by norm_num) (by norm_num), hden]
  obtain ⟨s, hsd⟩ : ∃ s, s = r.fileSize := ⟨_, rfl⟩
  obtain ⟨x, hxd⟩ : ∃ x, x = r.pos1 := ⟨_, rfl⟩
  rw [← hsd] at hs hs' h1 ⊢
  rw [← hxd] at h0 h1 ⊢
  clear hden hhead hsd hxd hd
  obtain ⟨L, hL⟩ : ∃ L, L = s * 48695774 / 4294967296 := ⟨_, rfl⟩
  obtain ⟨d, hd⟩ : ∃ d, d = s / 2 := ⟨_, rfl⟩
  rw [← hL, ← hd]
  have hd1 : 1 ≤ d := by omega
  have hd30 : d < 2 ^ 30 := by omega
  have hxd : x ≤ d := by omega
  have hL0 : 0 ≤ L := by omega
  have hL1 : L ≤ 2 ^ 24 + 2 ^ 23 := by omega
  -- the length shown, against the number of samples
  have k1 : 441 * L ≤ 10 * d + 5 := by omega
  have k2 : 1000 * d < 44100 * L + 51597 := by omega
  obtain ⟨n0, -⟩ := shown_le fp h0 hxd (by omega) hd30 hL0 hL1
  have hxq : (0 : ℚ) ≤ x := by exact_mod_cast h0
  have hdq : (1 : ℚ) ≤ d := by exact_mod_cast hd1
  have hxdq : (x : ℚ) ≤ d := by exact_mod_cast hxd
  have hLq : (0 : ℚ) ≤ L := by exact_mod_cast hL0
  have k1' : (441 : ℚ) * L ≤ 10 * d + 5 := by exact_mod_cast k1
  have k2' : (1000 : ℚ) * d < 44100 * L + 51597 := by exact_mod_cast k2
  have hp0 : 0 ≤ x * L := mul_nonneg h0 hL0
  -- the product is rounded by less than a thousandth of the divisor
  have herr : |fp.d.rnd ((x : ℚ) * L) - x * L| ≤ d / 1000 := by
    by_cases hsmall : x * L ≤ 2 ^ 53
    · have := fp.d.exact_int (by norm_num) (by norm_num) (m := x * L) (by rw [abs_of_nonneg hp0]; exact_mod_cast hsmall)
      push_cast at this
      rw [this, sub_self, abs_zero]
      linarith
    · have hbig : x * L ≤ 2 ^ 55 := by
        calc x * L ≤ 2 ^ 30 * (2 ^ 24 + 2 ^ 23) := mul_le_mul (by omega) hL1 hL0 (by norm_num)
          _ ≤ 2 ^ 55 := by norm_num
      have e := fp.d.err_le (by norm_num) (k := 55) (by norm_num) (x := (x : ℚ) * L) (by
        rw [abs_of_nonneg (mul_nonneg hxq hLq)]
        have : ((x * L : Int) : ℚ) ≤ ((2 ^ 55 : Int) : ℚ) := by exact_mod_cast hbig
        push_cast at this
        norm_num at this ⊢
        exact this)
      have hx4 : 4000 ≤ x := by
        by_contra hc
        have : x * L ≤ 4000 * (2 ^ 24 + 2 ^ 23) := mul_le_mul (by omega) hL1 hL0 (by norm_num)
        omega
      have : (4000 : ℚ) ≤ d := by exact_mod_cast (by omega : (4000 : Int) ≤ d)
      norm_num at e
      linarith
  -- so is the quotient
  obtain ⟨P, hP⟩ : ∃ P, P = fp.d.rnd ((x : ℚ) * L) := ⟨_, rfl⟩
  rw [← hP] at herr n0 ⊢
  have hP0 : 0 ≤ P := by rw [hP]; exact fp.d.nonneg (mul_nonneg hxq hLq)
  obtain ⟨e1, e2⟩ := abs_le.1 herr
  have hq1 : P / d ≤ x * L / d + 1 / 1000 := by
    rw [div_le_iff₀ (by linarith), add_mul, div_mul_cancel₀ _ (by linarith)]
    linarith
  have hq2 : x * L / d - 1 / 1000 ≤ P / d := by
    rw [le_div_iff₀ (by linarith), sub_mul, div_mul_cancel₀ _ (by linarith)]
    linarith
  have hr1 : (x : ℚ) * L / d ≤ timeOf x + 1 / 80 := by
    unfold timeOf
    rw [div_le_iff₀ (by linarith)]
    nlinarith
  have hr2 : timeOf x - 117 / 100 ≤ (x : ℚ) * L / d := by
    unfold timeOf
    rw [le_div_iff₀ (by linarith)]
    nlinarith
  have hLb : (L : ℚ) ≤ 2 ^ 24 + 2 ^ 23 := by exact_mod_cast hL1
  have hq3 : (x : ℚ) * L / d ≤ L := by
    rw [div_le_iff₀ (by linarith)]
    nlinarith
  have herr2 : |fp.d.rnd (P / d) - P / d| ≤ 1 / 1000 := by
    have e := fp.d.err_le (by norm_num) (k := 30) (by norm_num) (x := P / d) (by
      rw [abs_of_nonneg (div_nonneg hP0 (by linarith))]
      norm_num at hLb ⊢
      linarith)
    refine le_trans e ?_
    norm_num
  obtain ⟨f1, f2⟩ := abs_le.1 herr2
  obtain ⟨q, hq⟩ : ∃ q, q = fp.d.rnd (P / d) := ⟨_, rfl⟩
  rw [← hq] at f1 f2 n0 ⊢
  have hfl := Int.floor_le q
  have hfl2 := Int.lt_floor_add_one q
  have hq0 : 0 ≤ ⌊q⌋ := Int.floor_nonneg.2 n0
  refine ⟨⌊q⌋, ?_, by linarith, by linarith⟩
  have h32 : (⌊q⌋ : ℚ) < ((4294967296 : Int) : ℚ) := by push_cast; norm_num at hLb; linarith
  have h32' : ⌊q⌋ < 4294967296 := Int.cast_lt.1 h32
  unfold castU32
  rw [trunc_of_nonneg n0, if_pos (show InU32 ⌊q⌋ from ⟨hq0, by omega⟩)]

end TVP
