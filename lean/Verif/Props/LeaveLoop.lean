import Verif.Lemmas.LeaveLoop
import Verif.Props.SmoothLoop

/-!
# Property C76: a loop can be left while the file streams
-/

namespace TVP
open Spec

/-- Where a traced player is after some updates and changes of speed. -/
theorem acts_traced {fp : Fp} {g : Geo} {nullOk : Bool} {fuel : Nat} {a : FileReader} {m : List Nat} (hb : IsBytes m) (hm : m.length < 2 ^ 31)
    {ok : Rd → ℚ → Prop} {Live : Rd → Cache → Prop} (hk : KeepsUpT fp m g fuel Live)
    (hs : ∀ r c v, r.playing = true → Live r c → ok r v → Inside r v ∧ Live { r with rate := v } c) {c : Cache} (hn : 0 < a.rd.nch) (hc : a.src = some c)
    (hf : c.fails = 0) (hl : Live a.rd c) {as : List Deed} (hok : Allowed fp fuel ok ⟨a.rd, some (samplesOf m)⟩ as) {fxs : List Fx} {a1 : FileReader}
    (h1 : a.acts fp g nullOk fuel as = .ok (fxs, a1)) :
    0 < a1.rd.nch ∧ (∀ c, a1.src = some c → c.fails = 0) ∧ (a1.rd.playing = true → ∃ c, a1.src = some c ∧ Live a1.rd c) := by
  rw [← toSamples_spec hb] at hok
  obtain ⟨fxs', a', b', k1, _, k3⟩ := acts_of (g := g) (nullOk := nullOk) (Rel := Along m (fun r c => r.playing = true → Live r c) 0) (ok := ok)
    (fun a b al h => by
      have h' : Along m Live 0 a b := ⟨h.rd, h.nch, h.fails, h.src, fun hp => by
        obtain ⟨c, e1, e2⟩ := h.live hp
        exact ⟨c, e1, e2 hp⟩⟩
      obtain ⟨fx, a', b', k1, k2, k3⟩ := h'.tickT hb hm hk nullOk al
      refine ⟨fx, a', b', k1, k2, k3.rd, k3.nch, k3.fails, k3.src, fun hp => ?_⟩
      obtain ⟨c, e1, e2⟩ := k3.live hp
      exact ⟨c, e1, fun _ => e2⟩)
    (fun a b v h hv => by
      rw [h.rd] at hv
      refine h.speed (fun hp => ?_) (fun c hc hp => (hs a.rd c v hp (hc hp) hv).2)
      obtain ⟨c, e1, e2⟩ := h.live hp
      exact (hs a.rd c v hp (e2 hp) hv).1) as a _
    ⟨rfl, hn, fun c2 h => by rw [hc] at h; cases h; exact hf, rfl, fun _ => ⟨c, hc, fun _ => hl⟩⟩ hok
  rw [h1] at k1
  cases k1
  refine ⟨k3.nch, k3.fails, fun hp => ?_⟩
  obtain ⟨c, e1, e2⟩ := k3.live hp
  exact ⟨c, e1, e2 hp⟩

theorem InStepH.speed {m : List Nat} {g : Geo} {mm R H F nch : Int} {F0 : Nat} {a : FileReader} {b : ArrayReader} {v : ℚ}
    (h : InStepH m g mm R H F nch F0 a b) (hv : SmoothSpeeds R a.rd v) :
    InStepH m g mm R H F nch F0 { a with rd := a.rd.setPlaybackRate v } { b with rd := b.rd.setPlaybackRate v } := by
  obtain ⟨k1, k2⟩ := setPlaybackRate_keeps a.rd v
  refine ⟨by simp only; rw [h.rd], by simp only; rw [k2]; exact h.chans, h.fails, h.src, fun hp => ?_⟩
  simp only at hp ⊢
  rw [k1] at hp
  obtain ⟨hs, c, k, q1, q2, q3, q4⟩ := h.live hp
  obtain ⟨q, e1, e2, e3⟩ := hs.pos
  have hin : Inside a.rd v := Or.inr ⟨hv.1, by rw [hs.header, e3]; have := mul_nonneg e1 (le_of_lt hs.n0); omega⟩
  rw [hin.only_rate]
  have hB0 : (0 : Int) < g.B := by exact_mod_cast g.B_pos
  refine ⟨⟨hs.dual, hs.cfOn, hs.w0, hs.w1, hs.n0, hs.loop, hv.1, hv.2.1, hs.flt, hs.frac, ?_, hs.pts, hs.header, hs.fs, hs.chans, q, e1, e2, e3⟩,
    c, k, q1, q2, le_trans q3 (Int.ediv_le_ediv hB0 (max_le_max (le_refl _) ?_)), q4⟩
  · have hi := hs.ip
    unfold InterpFwd at hi ⊢
    simp only
    cases e : a.rd.interp <;> simp only [e] at hi ⊢
    · exact hi
    · exact ⟨hi.1, hi.2.1, hv.2.2.1 e⟩
  · have hn : 0 ≤ a.rd.nch := le_of_lt h.chans
    unfold lowest
    simp only
    split
    · split
      · exact le_refl _
      · omega
    · rename_i h1
      rw [if_neg]
      rintro ⟨c1, c2, c3⟩
      rcases hv.2.2.2 c1 c2 with h2 | h2
      · exact h1 ⟨c1, h2, c3⟩
      · exact c3 h2

/-- Where the loop from frame `A` to frame `Z` may be left, `mm` being the number of blocks one update may take up: anywhere if all of it lies
in one block; otherwise, in a loop with more blocks than there are buffers, before the first time round or at least one update after the start
of the loop, and `2 mm` blocks before its end. -/
def LeaveAt (g : Geo) (R mm A Z H nch x : Int) : Prop :=
  (H + Z * nch) / g.B = (H + A * nch) / g.B ∨
    ((H + A * nch) / g.B + g.N ≤ (H + Z * nch) / g.B ∧ (x < A ∨ A + 128 * (R + 1) ≤ x) ∧ (H + x * nch) / g.B + 2 * mm ≤ (H + Z * nch) / g.B)

theorem lowFrame_lowest {r : Rd} {H nch x : Int} (hp : r.pos1 = H + x * nch) (hc : r.nch = nch) (hx : 0 ≤ x) :
    H + lowFrame r x * nch ≤ max H (lowest r) := by
  unfold lowFrame lowest
  rw [hp, hc]
  by_cases h : r.interp = .linear ∧ 1 < r.rate ∧ r.rem ≠ 0
  · rw [if_pos h]
    by_cases h0 : 0 < x
    · rw [if_pos ⟨h.1, h.2.1, h.2.2, h0⟩, sub_mul, one_mul]
      exact le_trans (by omega) (le_max_right _ _)
    · rw [if_neg (fun k => h0 k.2.2.2)]
      have : x = 0 := by omega
      rw [this, zero_mul, add_zero]
      exact le_max_left _ _
  · rw [if_neg h, if_neg (fun k => h ⟨k.1, k.2.1, k.2.2.1⟩)]
    exact le_max_right _ _

theorem SRep.left {I : Interp} {R A Z H nch x F : Int} {r : Rd} (h : SRep I R A Z H nch r x) (hn : 0 < nch) (hl : r.fileSamples = F) (hF : Z ≤ F) :
    SFwd R H F nch (r.setLoopType .none) :=
  ⟨h.dual, h.cfOn, h.w0, h.w1, hn, rfl, h.rate0, h.rateR, h.flt, h.frac, h.ip, h.pts, h.header, hl, h.chans, x, h.x0, by have := h.x1; omega, h.pos⟩

theorem Repeating.leave {m : List Nat} {g : Geo} {fp : Fp} (hfp : Representable fp) (hB : g.B < 16384) (hNB : g.N * g.B ≤ 2 ^ 30) (hb : IsBytes m) (hm : m.length < 2 ^ 31)
    {I : Interp} {R A Z H nch x0 q F mm : Int} {a : FileReader} (hR : 0 ≤ R) (hH : 0 ≤ H) (hn : 0 < nch) (hloop : GoodRepeat g m I R A Z H nch q)
    (h : Repeating m g I R A Z H nch x0 F a) (hF : Z ≤ F) (hE : 2 * (H + F * nch) ≤ m.length) (hmm : 2 * mm + 1 ≤ g.N) (hD : 128 * (nch * (R + 1)) + nch ≤ mm * g.B)
    (nullOk : Bool) {fuel : Nat} (hfu : g.N ≤ fuel + 2) {as : List Deed} (hok : Allowed fp (fuel + 2) (SmoothSpeeds R) ⟨a.rd, some (samplesOf m)⟩ as)
    {fxs : List Fx} {a1 : FileReader} (h1 : a.acts fp g nullOk (fuel + 2) as = .ok (fxs, a1)) {x : Int} (hx : a1.rd.pos1 = H + x * nch)
    (hleave : LeaveAt g R mm A Z H nch x) : LikeInMemoryAt fp g nullOk (fuel + 2) (a1.setLoopType .none) m (SmoothSpeeds R) := by
  have hB0 : (0 : Int) < g.B := by exact_mod_cast g.B_pos
  have hNB' : (g.N : Int) * g.B ≤ 2 ^ 30 := by exact_mod_cast hNB
  obtain ⟨Live, k1, k2, ⟨c0, k3, k4, k5⟩, k6⟩ := h.keeps hfp hB hNB hm hR hH hn hloop hfu
  obtain ⟨e1, e2, e3⟩ := acts_traced hb hm k1 k2 (by rw [h.rd.chans]; exact hn) k3 k4 k5 hok h1
  have h2 : R + 1 ≤ nch * (R + 1) := le_mul_of_one_le_left (by omega) (by omega)
  have hA := hloop.A0
  have hAZ := hloop.AZ
  have hfast := hloop.fast
  have h3 : H + nch * (F + R + 1) = H + F * nch + nch * (R + 1) := by ring
  have h4 : nch * (R + 1) = R * nch + nch := by ring
  have h5 : 128 * (nch * (R + 1)) = 128 * (R + 1) * nch := by ring
  have hmm0 : 1 ≤ mm := by
    by_contra hcon
    have := mul_nonpos_of_nonpos_of_nonneg (show mm ≤ 0 by omega) (le_of_lt hB0)
    have : 0 ≤ R * nch := by positivity
    omega
  refine likeAt_of hb (InStepH m g mm R H F nch 0) (fun a b h => ⟨h.rd, h.fails⟩)
    (fun a b al h => h.tick hfp hB hb (by omega) (by omega) (by omega) hH (by omega) (by rw [h3]; omega) hD hE nullOk (fuel := fuel + 1) (by omega) al)
    (fun a b v h hv => h.speed hv) ⟨rfl, e1, ?_, rfl, fun hp => ?_⟩
  · intro c hc
    simp only [FileReader.setLoopType, Option.map_eq_some_iff] at hc
    obtain ⟨c1, c2, c3⟩ := hc
    rw [← c3]
    exact e2 c1 c2
  · obtain ⟨c, hc, hlive⟩ := e3 hp
    have hmono : ∀ {a b : Int}, a ≤ b → frameBlk g.B H nch a ≤ frameBlk g.B H nch b := fun h => frameBlk_mono hB0 (le_of_lt hn) h
    have mul : ∀ {a b : Int}, a ≤ b → a * nch ≤ b * nch := fun h => mul_le_mul_of_nonneg_right h (le_of_lt hn)
    have hsame : ∀ {y}, a1.rd.pos1 = H + y * nch → y = x := fun {y} hy => by
      rw [hx] at hy
      exact (mul_right_cancel₀ (ne_of_gt hn) (by omega : x * nch = y * nch)).symm
    rcases k6 with ⟨hL, hfar⟩ | ⟨hL, hshort⟩
    · -- a long loop
      rw [hL] at hlive
      obtain ⟨⟨y, w, q0, y1, y2, y3, y4, y5⟩, hlen⟩ := hlive
      obtain rfl := hsame y1.pos
      have hlong := y4.conf.len
      have hx0 := y1.x0
      rcases hleave with hl | ⟨hl1, hl2, hl3⟩
      · exfalso
        unfold frameBlk at hlong
        omega
      have hyZ : y < Z := by
        by_contra hcon
        have := hmono (show Z ≤ y by omega)
        unfold frameBlk at this
        omega
      have hcur : curFrame A Z y = y := by unfold curFrame; rw [if_neg (by omega)]
      rw [hcur] at y5
      have hlow := lowFrame_le a1.rd y
      have hll := hmono hlow
      rcases y5 with ⟨b1, b2⟩ | ⟨b1, b2, b3, b4⟩
      · rw [add_zero] at b1
        refine ⟨y1.left hn hlen hF, c.setLoopType .none, w, ?_, y4.leave (by omega) hmm ?_, ?_, ?_⟩
        · simp only [FileReader.setLoopType, hc, Option.map_some]
        · unfold frameBlk at hll b1 ⊢
          omega
        · exact le_trans b1 (Int.ediv_le_ediv hB0 (lowFrame_lowest (r := a1.rd) y1.pos y1.chans hx0))
        · refine le_trans ?_ (add_le_add_left y3 mm)
          unfold frameBlk
          rw [← Int.add_mul_ediv_right _ _ (ne_of_gt hB0)]
          refine Int.ediv_le_ediv hB0 ?_
          show a1.rd.pos1 ≤ _
          rw [hx]
          have := mul b2
          rw [add_mul] at this
          rw [sub_mul, one_mul]
          push_cast at this
          omega
      · exfalso
        push_cast at b1
        omega
    · -- a short one
      rw [hL] at hlive
      obtain ⟨⟨⟨y, y1, y2⟩, w, y3, y4, y5⟩, hlen⟩ := hlive
      obtain rfl := hsame y1.pos
      have hx0 := y1.x0
      have hx1 := y1.x1
      rcases hleave with hl | ⟨hl1, _, _⟩
      · have hw : w = frameBlk g.B H nch A := by unfold frameBlk at y4 y5 ⊢; omega
        refine ⟨y1.left hn hlen hF, c.setLoopType .none, w, ?_, y3.leave (by omega) hmm (by omega), ?_, ?_⟩
        · simp only [FileReader.setLoopType, hc, Option.map_some]
        · rw [hw]
          by_cases hyZ : Z ≤ y
          · refine Int.ediv_le_ediv hB0 (le_trans ?_ (le_max_right _ _))
            have := lowest_ge (a1.setLoopType .none).rd (le_of_lt e1)
            refine le_trans ?_ this
            show _ ≤ a1.rd.pos1 - a1.rd.nch
            rw [hx, y1.chans]
            have := mul (show A + 1 ≤ y by omega)
            rw [add_mul, one_mul] at this
            omega
          · have hcur : curFrame A Z y = y := by unfold curFrame; rw [if_neg hyZ]
            rw [hcur] at y2
            exact le_trans y2 (Int.ediv_le_ediv hB0 (lowFrame_lowest (r := a1.rd) y1.pos y1.chans hx0))
        · rw [hw]
          show a1.rd.pos1 / g.B ≤ _
          rw [hx]
          have e : frameBlk g.B H nch A = (H + Z * nch) / g.B := hl.symm
          rw [e, ← Int.add_mul_ediv_right _ _ (ne_of_gt hB0)]
          refine Int.ediv_le_ediv hB0 ?_
          have := mul hx1
          rw [add_mul] at this
          have : 0 ≤ R * nch := by positivity
          omega
      · exfalso; omega

/-- **C76** (raw files, what does hold).  A raw file repeats a loop as in C75.  After any updates and changes of speed the program may stop the
looping with `setLoopType(looptype_none)` at a frame where `LeaveAt` allows it; from then on playback to the end of the file, again with changes of
speed, is the same as from memory.  Missing are the other places, see the refutations, and loops of more than one block that fit into the buffers. -/
theorem C76_raw_partial (fp : Fp) (hfp : Representable fp) (g : Geo) (hB : g.B < 16384) (hNB : g.N * g.B ≤ 2 ^ 30) (a : FileReader) {m : List Nat}
    (hb : IsBytes m) (hm : m.length < 2 ^ 31) (past : Bool) {nch : Nat} (hc : 1 ≤ nch) (hc' : nch ≤ 32767) {R mm : Int}
    (hset : SmoothRepeat a.rd R) (h8 : a.rd.interp ≠ .none → nch ≤ 8) (hhead : a.rd.header = 0)
    (hloop : GoodRepeat g m a.rd.interp R a.rd.loopStart a.rd.loopFinish 0 nch (firstFrame a.rd))
    (hmm : 2 * mm + 1 ≤ g.N) (hadv : 128 * (nch * (R + 1)) + nch ≤ mm * g.B) (nullOk : Bool) {fuel : Nat} (hf : g.N ≤ fuel + 2) :
    ∃ a', a.playRaw g (some ⟨m, 0, past⟩) nch = .ok (true, a') ∧ a'.rd.playing = true ∧ a'.rd.pos1 = firstFrame a.rd * nch ∧
      LikeInMemoryAt fp g nullOk (fuel + 2) a' m (SmoothSpeeds R) ∧
      ∀ as fxs a1 x, Allowed fp (fuel + 2) (SmoothSpeeds R) ⟨a'.rd, some (samplesOf m)⟩ as → a'.acts fp g nullOk (fuel + 2) as = .ok (fxs, a1) →
        a1.rd.pos1 = x * nch → LeaveAt g R mm a.rd.loopStart a.rd.loopFinish 0 nch x →
        LikeInMemoryAt fp g nullOk (fuel + 2) (a1.setLoopType .none) m (SmoothSpeeds R) := by
  have hR : 0 ≤ R := by
    have : (0 : ℚ) ≤ R := le_trans hset.rate0 hset.rateR
    exact_mod_cast this
  have hN : 1 ≤ g.N := by
    by_contra hcon
    have hB0 : (0 : Int) < g.B := by exact_mod_cast g.B_pos
    have := mul_nonpos_of_nonpos_of_nonneg (show mm ≤ 0 by omega) (le_of_lt hB0)
    have : 0 ≤ 128 * ((nch : Int) * (R + 1)) := by positivity
    omega
  obtain ⟨a', k1, k5, k6, k⟩ := smoothRepeat_raw g hB hNB hN a hm past hc hc' hset h8 hhead hloop
  refine ⟨a', k1, k.playing, by rw [k.rd.pos, zero_add], k.like hfp hB hNB hb hm hR (le_refl _) (by omega) hloop nullOk hf, fun as fxs a1 x hok h1 hx hl => ?_⟩
  refine k.leave hfp hB hNB hb hm hR (le_refl _) (by omega) hloop ?_ ?_ hmm hadv nullOk hf hok h1 (by rw [hx, zero_add]) hl
  · have h2 := hloop.file
    rw [zero_add] at h2
    push_cast
    rw [Int.le_ediv_iff_mul_le (by omega)]
    omega
  · have h2 := Nat.div_mul_le_self (m.length / 2) nch
    push_cast
    rw [zero_add]
    have h3 : ((m.length / 2 / nch : Nat) : Int) * (nch : Nat) ≤ ((m.length / 2 : Nat) : Int) := by exact_mod_cast h2
    push_cast at h3
    omega

/-- **C76** (WAV files, what does hold).  Likewise, with the data chunk in the file and the loop in the data chunk. -/
theorem C76_wav_partial (fp : Fp) (hfp : Representable fp) (g : Geo) (hB : g.B < 16384) (hNB : g.N * g.B ≤ 2 ^ 30) (a : FileReader) {m : List Nat}
    (hb : IsBytes m) (hm : m.length < 2 ^ 31) (past : Bool) (junk : List Nat) (hj : junk.length = 36) (hg : GoodHeader m)
    (hdep : leVal (slice m 34 2) = 16) {off : Nat} (hda : DataAt m off) {nch D : Nat} (hn : leVal (slice m 22 2) = nch) (hc : 1 ≤ nch) (hc' : nch ≤ 32767)
    (hD : leVal (slice m (off + 4) 4) = D) (hdata : off + 8 + D ≤ m.length)
    {R mm : Int} (hset : SmoothRepeat a.rd R) (h8 : a.rd.interp ≠ .none → nch ≤ 8)
    (hloop : GoodRepeat g m a.rd.interp R a.rd.loopStart a.rd.loopFinish ((off + 8) / 2 : Nat) nch (firstFrame a.rd)) (hin : a.rd.loopFinish ≤ (D / 2 / nch : Nat))
    (hmm : 2 * mm + 1 ≤ g.N) (hadv : 128 * (nch * (R + 1)) + nch ≤ mm * g.B) (nullOk : Bool) {fuel : Nat} (hf : g.N ≤ fuel + 2) :
    ∃ a', a.playWav g (some ⟨m, 0, past⟩) junk = .ok (true, a') ∧ a'.rd.playing = true ∧ a'.rd.pos1 = ((off + 8) / 2 : Nat) + firstFrame a.rd * nch ∧
      LikeInMemoryAt fp g nullOk (fuel + 2) a' m (SmoothSpeeds R) ∧
      ∀ as fxs a1 x, Allowed fp (fuel + 2) (SmoothSpeeds R) ⟨a'.rd, some (samplesOf m)⟩ as → a'.acts fp g nullOk (fuel + 2) as = .ok (fxs, a1) →
        a1.rd.pos1 = ((off + 8) / 2 : Nat) + x * nch → LeaveAt g R mm a.rd.loopStart a.rd.loopFinish ((off + 8) / 2 : Nat) nch x →
        LikeInMemoryAt fp g nullOk (fuel + 2) (a1.setLoopType .none) m (SmoothSpeeds R) := by
  have hR : 0 ≤ R := by
    have : (0 : ℚ) ≤ R := le_trans hset.rate0 hset.rateR
    exact_mod_cast this
  have hN : 1 ≤ g.N := by
    by_contra hcon
    have hB0 : (0 : Int) < g.B := by exact_mod_cast g.B_pos
    have := mul_nonpos_of_nonpos_of_nonneg (show mm ≤ 0 by omega) (le_of_lt hB0)
    have : 0 ≤ 128 * ((nch : Int) * (R + 1)) := by positivity
    omega
  obtain ⟨a', k1, k5, k6, k⟩ := smoothRepeat_wav g hB hNB hN a hb hm past junk hj hg hdep hda hn hc hc' hset h8 hloop
  refine ⟨a', k1, k.playing, k.rd.pos, k.like hfp hB hNB hb hm hR (by omega) (by omega) hloop nullOk hf, fun as fxs a1 x hok h1 hx hl => ?_⟩
  refine k.leave hfp hB hNB hb hm hR (by omega) (by omega) hloop (by rw [hD]; exact hin) ?_ hmm hadv nullOk hf hok h1 hx hl
  rw [hD]
  have h2 := Nat.div_mul_le_self (D / 2) nch
  have h3 : ((D / 2 / nch : Nat) : Int) * (nch : Nat) ≤ ((D / 2 : Nat) : Int) := by exact_mod_cast h2
  omega

/-! ## Examples -/

/-- The long loop of C75 may be left at frame 10000, whenever the player gets there, and right away at frame 7. -/
example : ∃ a', (exSmoothRepeat 20000 7).playRaw sdGeo (some ⟨List.replicate 100000 5, 0, false⟩) (2 : Nat) = .ok (true, a') ∧
    (∀ as fxs a1, Allowed Fp.ieee (5 + 2) (SmoothSpeeds 2) ⟨a'.rd, some (samplesOf (List.replicate 100000 5))⟩ as →
      a'.acts Fp.ieee sdGeo true (5 + 2) as = .ok (fxs, a1) → a1.rd.pos1 = 10000 * 2 →
      LikeInMemoryAt Fp.ieee sdGeo true (5 + 2) (a1.setLoopType .none) (List.replicate 100000 5) (SmoothSpeeds 2)) ∧
    LikeInMemoryAt Fp.ieee sdGeo true (5 + 2) (a'.setLoopType .none) (List.replicate 100000 5) (SmoothSpeeds 2) := by
  obtain ⟨a', h1, _, h2, _, h⟩ := C76_raw_partial Fp.ieee ieee_representable sdGeo (by decide) (by decide) (exSmoothRepeat 20000 7)
    (m := List.replicate 100000 5) (by intro b hb; rw [(List.mem_replicate.1 hb).2]; decide)
    (by rw [List.length_replicate]; decide) false (nch := 2) (by decide) (by decide) (mm := 1) (exSmoothRepeat_settings 20000 7) (by decide) rfl
    ⟨by decide, by decide, by rw [List.length_replicate]; decide, by decide, by decide, by decide, by decide,
      Or.inl ⟨by decide, by decide, by decide⟩⟩ (by decide) (by decide) true (fuel := 5) (by decide)
  refine ⟨a', h1, fun as fxs a1 k1 k2 k3 => h as fxs a1 10000 k1 k2 k3 (Or.inr ⟨by decide, by decide, by decide⟩), ?_⟩
  exact h [] [] a' 7 trivial rfl h2 (Or.inr ⟨by decide, by decide, by decide⟩)

/-- The loop of 103 frames may be left at any time. -/
example : ∃ a', (exSmoothRepeat 603 500).playWav sdGeo (some ⟨exLongWav, 0, false⟩) (List.replicate 36 7) = .ok (true, a') ∧
    ∀ (als : List (Nat → Bool)) fxs a1 x, a'.acts Fp.ieee sdGeo true (5 + 2) (als.map .tick) = .ok (fxs, a1) → a1.rd.pos1 = 28 + x * 2 →
      LikeInMemoryAt Fp.ieee sdGeo true (5 + 2) (a1.setLoopType .none) exLongWav (SmoothSpeeds 2) := by
  obtain ⟨a', h1, _, _, _, h⟩ := C76_wav_partial Fp.ieee ieee_representable sdGeo (by decide) (by decide) (exSmoothRepeat 603 500) exLongWav_bytes
    (by rw [exLongWav_length]; decide) false (List.replicate 36 7) (by decide) (by decide +kernel) (by decide +kernel) (off := 48)
    ⟨Or.inr ⟨by decide +kernel, by decide +kernel⟩, by decide +kernel, by rw [exLongWav_length]; decide⟩ (nch := 2) (D := _) (by decide +kernel) (by decide) (by decide)
    rfl (by rw [exLongWav_length]; decide +kernel) (mm := 1)
    (exSmoothRepeat_settings 603 500) (by decide)
    ⟨by decide, by decide, by rw [exLongWav_length]; decide, by decide, by decide, by decide, by decide,
      Or.inr ⟨by decide, by rw [exLongWav_length]; decide, by decide⟩⟩ (by decide +kernel) (by decide) (by decide) true (fuel := 5) (by decide)
  exact ⟨a', h1, fun als fxs a1 x k1 k2 => h _ fxs a1 x (Allowed.ticks _ _ _ als _) k1 k2 (Or.inl (by decide))⟩

/-! ## Where it fails -/

/-- The position after `n1` updates, and the number of samples missed after `n2` more, of a player with seven blocks of 256 samples that repeats
frames 0 to `z` of a mono file of `len` bytes, beginning at frame `q`, and leaves the loop after the first `n1` updates. -/
def exLeaveMisses (z q : Int) (len n1 n2 : Nat) : M (Int × Option Nat) := do
  let r : Rd := { loopType := .repeat, loopFinish := z, playStart := .arbitrary, playbackStart := q }
  let (_, a) ← ({ rd := r } : FileReader).playRaw pingGeo (some ⟨List.replicate len 1, 0, false⟩) 1
  let (_, a) ← a.acts Fp.ideal pingGeo true 8 (List.replicate n1 .full)
  let (_, b) ← (a.setLoopType .none).acts Fp.ideal pingGeo true 8 (List.replicate n2 .full)
  return (a.rd.pos1, b.src.map (·.fails))

/-- **C76** is violated by leaving just after the jump back to the start of the loop: the buffers from there on go unused, and the cache goes on
with the block after the last one it has.  All that follows the first block is silence, here 652 frames of seven updates; one update later nothing is missed. -/
theorem C76_jump_refuted : exLeaveMisses 500 0 10000 4 7 = .ok (12, some 652) ∧ exLeaveMisses 500 0 10000 5 7 = .ok (140, some 0) := by
  decide +kernel

/-- **C76** is violated by leaving in the last block of the loop: the block after it has not been loaded. -/
theorem C76_last_refuted : exLeaveMisses 2800 900 12000 14 1 = .ok (2692, some 4) ∧ exLeaveMisses 2800 900 12000 13 1 = .ok (2564, some 0) := by
  decide +kernel

end TVP
