import Verif.Props.Starve
import Verif.Lemmas.Late

/-!
# Property C78: events that are run late
-/

namespace TVP
open Spec

/-- A player with the whole file in memory, in the state of `a`. -/
def inMemory (a : FileReader) (m : List Nat) : MemPlayer := ⟨⟨a.rd, some (samplesOf m)⟩, none, 0⟩

theorem InStep.late {m : List Nat} {g : Geo} {H F nch R : Int} {a : FileReader} (h : InStep m g 0 (FwdAny R H F nch) 0 a ⟨a.rd, some (toSamples m)⟩)
    (hp : a.rd.playing = true) : Late m g (FwdAny R H F nch) ⟨a, none⟩ ⟨a.rd, a.rd.pos1 / g.B, none, none⟩ := by
  obtain ⟨hf, c, k, L, hc, hw, k1, k2⟩ := h.live hp
  have hk : k = a.rd.pos1 / g.B := by omega
  rw [hk] at hw
  refine ⟨rfl, hf.plain.nch, rfl, fun h => rfl, fun _ => ⟨hf, c, L, [], a.rd.pos1, rfl, hw, hc, le_refl _, le_refl _, fun _ => rfl, fun h => absurd rfl h, ?_, ?_⟩⟩
  · intro i hi; cases hi
  · intro h; cases h

section
variable {m : List Nat} {g : Geo} {fp : Fp} {H F nch R : Int} {a : FileReader}

/-- The law for a player that has started. -/
theorem InStep.late_law (hfp : Representable fp) (hB : g.B < 16384) (hNB : g.N * g.B ≤ 2 ^ 30) (hb : IsBytes m) (hm : m.length < 2 ^ 31)
    (h : InStep m g 0 (FwdAny R H F nch) 0 a ⟨a.rd, some (toSamples m)⟩) (hp : a.rd.playing = true) (hH : 0 ≤ H) (hF : 0 ≤ F) (hR2 : R ≤ 2 ^ 30)
    (hfit : H + nch * (F + R + 1) ≤ 2147483647) (hE : 2 * (H + F * nch) ≤ m.length) (nullOk : Bool) {fuel : Nat} (hf : g.N ≤ fuel + 1) (ts : List Turn) (hs : Speeds R ts) :
    ∃ fxs p' q', fileTurns fp g nullOk (fuel + 1) ⟨a, none⟩ ts = .ok (fxs, p') ∧
      streamedTurns fp m g.N g.B (fuel + 1) ⟨a.rd, a.rd.pos1 / g.B, none, none⟩ ts = .ok (fxs, q') ∧ Late m g (FwdAny R H F nch) p' q' := by
  have hNB' : (g.N : Int) * g.B ≤ 2 ^ 30 := by exact_mod_cast hNB
  exact Late.turns hB hb (by omega) (by omega) hE (FwdAny.glides hfp hR2 hH hF hfit) (fun r v v0 vR hr => hr.speed ⟨v0, vR⟩) nullOk hf ts _ _ hs (h.late hp)

theorem InStep.advance (h : InStep m g 0 (FwdAny R H F nch) 0 a ⟨a.rd, some (toSamples m)⟩) (hp : a.rd.playing = true) : 0 ≤ 128 * (nch * (R + 1)) := by
  have hf := (h.live hp).1
  have hn : 0 < nch := by rw [← hf.chans]; exact hf.plain.nch
  have hR : 0 ≤ R := by
    have : (0 : ℚ) ≤ R := le_trans hf.rate0 hf.rateR
    exact_mod_cast this
  have := mul_nonneg (le_of_lt hn) (show 0 ≤ R + 1 by omega)
  omega

/-- Events run at least after every `n` updates. -/
theorem InStep.timely (hfp : Representable fp) (hB : g.B < 16384) (hNB : g.N * g.B ≤ 2 ^ 30) (hb : IsBytes m) (hm : m.length < 2 ^ 31)
    (h : InStep m g 0 (FwdAny R H F nch) 0 a ⟨a.rd, some (toSamples m)⟩) (hp : a.rd.playing = true) (hH : 0 ≤ H) (hF : 0 ≤ F) (hR2 : R ≤ 2 ^ 30)
    (hfit : H + nch * (F + R + 1) ≤ 2147483647) (hE : 2 * (H + F * nch) ≤ m.length) {n : Nat} {mm : Int} (hmm0 : 0 ≤ mm) (hmm : 2 * mm + 1 ≤ g.N)
    (hn : n * (128 * (nch * (R + 1))) ≤ mm * g.B) (nullOk : Bool) {fuel : Nat} (hf : g.N ≤ fuel + 1)
    (ts : List Turn) (hs : Speeds R ts) (hpr : Prompt n 0 ts) :
    ∃ fxs p' b', fileTurns fp g nullOk (fuel + 1) ⟨a, none⟩ ts = .ok (fxs, p') ∧
      memTurns fp (fuel + 1) (inMemory a m) ts = .ok (fxs, b') ∧ b'.rdr.rd = p'.rdr.rd ∧ b'.pending = p'.pending := by
  have hf0 := (h.live hp).1
  obtain ⟨fxs, p', q', e1, e2, e3⟩ := h.late_law hfp hB hNB hb hm hp hH hF hR2 hfit hE nullOk hf ts hs
  obtain ⟨f1, f2, q2, b', s', j', k1, k2, k3, _, _, _, _, k8⟩ := Trails.turns (fuel := fuel) (g := g) (m := m) (fp := fp) (by omega) (h.advance hp) hE (FwdAny.glides hfp hR2 hH hF hfit)
    (fun r v v0 vR hr => hr.speed ⟨v0, vR⟩) hmm hmm0 hn [] ts 0 0 ⟨a.rd, a.rd.pos1 / g.B, none, none⟩ (inMemory a m) hs (by rw [List.append_nil]; exact hpr) (Nat.zero_le _)
    ⟨rfl, rfl, hf0.plain.nch, rfl, fun _ => rfl, fun _ => ⟨hf0, fun _ => rfl, le_refl _, by simp, le_refl _, by simp only [Option.getD_none]; omega⟩⟩
  rw [e2] at k1
  cases k1
  refine ⟨fxs, p', b', e1, by rw [k2, k8 rfl], by rw [k3.rd, e3.rd], by rw [k3.pend, e3.pend]⟩

/-- Events not run for a while. -/
theorem InStep.recovers (hfp : Representable fp) (hB : g.B < 16384) (hNB : g.N * g.B ≤ 2 ^ 30) (hb : IsBytes m) (hm : m.length < 2 ^ 31)
    (h : InStep m g 0 (FwdAny R H F nch) 0 a ⟨a.rd, some (toSamples m)⟩) (hp : a.rd.playing = true) (hH : 0 ≤ H) (hF : 0 ≤ F) (hR2 : R ≤ 2 ^ 30)
    (hfit : H + nch * (F + R + 1) ≤ 2147483647) (hE : 2 * (H + F * nch) ≤ m.length) {n s : Nat} {mm : Int} (hmm0 : 0 ≤ mm) (hmm : 2 * mm + 1 ≤ g.N)
    (hn : n * (128 * (nch * (R + 1))) ≤ mm * g.B) (nullOk : Bool) {fuel : Nat} (hf : g.N ≤ fuel + 1)
    (ts0 ts1 ts2 : List Turn) (hs : Speeds R (ts0 ++ .poll :: (ts1 ++ ts2))) (hstall : updates ts0 * (128 * (nch * (R + 1))) ≤ (mm + s * (g.N - mm)) * g.B)
    (hpr : Prompt n 0 (ts1 ++ ts2)) :
    ∃ f01 f2 p1 p2 g0 g1 g2 b0 b1 b2, fileTurns fp g nullOk (fuel + 1) ⟨a, none⟩ (ts0 ++ .poll :: ts1) = .ok (f01, p1) ∧ fileTurns fp g nullOk (fuel + 1) p1 ts2 = .ok (f2, p2) ∧
      memTurns fp (fuel + 1) (inMemory a m) (ts0 ++ [.poll]) = .ok (g0, b0) ∧ memTurns fp (fuel + 1) b0 ts1 = .ok (g1, b1) ∧
      memTurns fp (fuel + 1) b1 ts2 = .ok (g2, b2) ∧ b2.rdr.rd = p2.rdr.rd ∧ b2.pending = p2.pending ∧ (s ≤ b1.served - b0.served → f2 = g2) := by
  have hf0 := (h.live hp).1
  have hg := FwdAny.glides hfp hR2 hH hF hfit
  have hNB' : (g.N : Int) * g.B ≤ 2 ^ 30 := by exact_mod_cast hNB
  have hsp : ∀ (r : Rd) (v : ℚ), 0 ≤ v → v ≤ R → FwdAny R H F nch r → Inside r v ∧ FwdAny R H F nch { r with rate := v } := fun r v v0 vR hr => hr.speed ⟨v0, vR⟩
  have hs0 : Speeds R ts0 := fun v hv => hs v (List.mem_append_left _ hv)
  have hs1 : Speeds R ts1 := fun v hv => hs v (List.mem_append_right _ (List.mem_cons_of_mem _ (List.mem_append_left _ hv)))
  have hs2 : Speeds R ts2 := fun v hv => hs v (List.mem_append_right _ (List.mem_cons_of_mem _ (List.mem_append_right _ hv)))
  obtain ⟨fa, ga, qa, ba, a1, a2, a3⟩ := Stalled.turns (fuel := fuel) (g := g) (m := m) (fp := fp) (start := a.rd.pos1) (by omega) (h.advance hp) hE hg hsp ts0 0
    ⟨a.rd, a.rd.pos1 / g.B, none, none⟩ (inMemory a m) hs0
    ⟨rfl, rfl, hf0.plain.nch, rfl, fun _ => rfl, fun _ => ⟨hf0, fun _ => rfl, le_refl _, le_refl _, le_refl _, by simp⟩⟩
  have ht := Stalled.trails (mm := mm) (s := s) rfl (by rw [Nat.zero_add]; exact hstall) a3
  obtain ⟨fb, gb, qb, bb, s1, j1, b1, b2, b3, b4, b5, b6, b7, _⟩ := Trails.turns (fuel := fuel) (g := g) (m := m) (fp := fp) (by omega) (h.advance hp) hE hg hsp hmm hmm0 hn
    ts2 ts1 s 0 _ _ hs1 hpr (Nat.zero_le _) ht
  obtain ⟨fc, gc, qc, bc, s2, j2, c1, c2, c3, _, _, _, _, c8⟩ := Trails.turns (fuel := fuel) (g := g) (m := m) (fp := fp) (by omega) (h.advance hp) hE hg hsp hmm hmm0 hn
    [] ts2 s1 j1 qb bb hs2 (by rw [List.append_nil]; exact b7) b6 b3
  have hs01 : Speeds R (ts0 ++ .poll :: ts1) := by
    intro v hv
    rcases List.mem_append.1 hv with hv | hv
    · exact hs0 v hv
    · rcases List.mem_cons.1 hv with hv | hv
      · cases hv
      · exact hs1 v hv
  obtain ⟨f01, p1, q1, e1, e2, e3⟩ := h.late_law hfp hB hNB hb hm hp hH hF hR2 hfit hE nullOk hf _ hs01
  have hq : q1 = qb := by
    have := streamedTurns_append fp m g.N g.B (fuel + 1) ts0 (.poll :: ts1) ⟨a.rd, a.rd.pos1 / g.B, none, none⟩
    rw [e2, a1] at this
    simp only [ok_bind] at this
    rw [streamedTurns, b1] at this
    simp only [ok_bind, pure_eq_ok] at this
    injection this with this
    injection this with _ this
  subst hq
  obtain ⟨f2, p2, q2, d1, d2, d3⟩ := Late.turns hB hb (by omega) (by omega) hE hg hsp nullOk hf ts2 p1 q1 hs2 e3
  rw [c1] at d2
  injection d2 with d2
  injection d2 with d2 d2'
  subst d2 d2'
  refine ⟨f01, fc, p1, p2, ga, gb, gc, ba.runEvent, bb, bc, e1, d1, ?_, b2, c2, by rw [c3.rd, d3.rd], by rw [c3.pend, d3.pend], fun hle => c8 (by rw [b5]; omega)⟩
  rw [memTurns_append, a2]
  simp only [ok_bind]
  rw [memTurns, memTurns]
  simp only [ok_bind, pure_eq_ok, List.append_nil]

end

theorem speed_small {nch : Nat} {R : Int} (hc : 1 ≤ nch) (hR : nch * (R + 1) ≤ 2 ^ 30) : R ≤ 2 ^ 30 := by
  by_contra h
  have h1 : (1 : Int) * (R + 1) ≤ nch * (R + 1) := mul_le_mul_of_nonneg_right (by exact_mod_cast hc) (by omega)
  omega

/-- Some turns: updates with and without events run in between, and a change of speed. -/
def exTurns : List Turn := [.update fun _ => true, .update fun _ => true, .poll, .speed (1 / 2), .update fun _ => true, .poll, .poll, .update fun _ => true]

theorem exTurns_speeds : Speeds 1 exTurns := by
  intro v hv
  simp only [exTurns, List.mem_cons, List.not_mem_nil, or_false, Turn.speed.injEq, reduceCtorEq, false_or] at hv
  rw [hv]; norm_num

theorem exTurns_prompt : Prompt 2 0 exTurns := ⟨by decide, by decide, by decide, by decide, trivial⟩

/-! ## The law -/

/-- **C78**, what is heard of a raw file played forward whenever the program runs the events: `streamedTurns`.  Positions, speeds and events are those of a
file in memory, the samples are the file's as far as they are in the buffers, otherwise silence; the buffers move on only when events are run. -/
theorem C78_raw_law (fp : Fp) (hfp : Representable fp) {g : Geo} (hB : g.B < 16384) (hNB : g.N * g.B ≤ 2 ^ 30) (a : FileReader) {m : List Nat}
    (hb : IsBytes m) (h0 : 0 < m.length) (hm : m.length < 2 ^ 31) (past : Bool) {nch : Nat} (hc : 1 ≤ nch) (hc' : nch ≤ 32767) {R : Int}
    (hset : ForwardSettings a.rd R) (hhead : a.rd.header = 0) (hR : nch * (R + 1) ≤ 2 ^ 30)
    (hstart : a.rd.playStart = .arbitrary → 0 ≤ a.rd.playbackStart ∧ a.rd.playbackStart ≤ (m.length / 2 / nch : Nat))
    (hN : 1 ≤ g.N) (nullOk : Bool) {fuel : Nat} (hf : g.N ≤ fuel + 1) (ts : List Turn) (hs : Speeds R ts) :
    ∃ a', a.playRaw g (some ⟨m, 0, past⟩) nch = .ok (true, a') ∧
      ∃ fxs p' q', fileTurns fp g nullOk (fuel + 1) ⟨a', none⟩ ts = .ok (fxs, p') ∧
        streamedTurns fp m g.N g.B (fuel + 1) ⟨a'.rd, a'.rd.pos1 / g.B, none, none⟩ ts = .ok (fxs, q') ∧ q'.rd = p'.rdr.rd ∧ q'.pending = p'.pending := by
  have hmul : ((m.length / 2 / nch : Nat) : Int) * nch ≤ (m.length / 2 : Nat) := by exact_mod_cast Nat.div_mul_le_self _ _
  have hE : 2 * ((0 : Int) + (m.length / 2 / nch : Nat) * nch) ≤ m.length := by omega
  have hfit : (0 : Int) + (nch : Int) * ((m.length / 2 / nch : Nat) + R + 1) ≤ 2147483647 := by
    have e1 : (nch : Int) * ((m.length / 2 / nch : Nat) + R + 1) = (m.length / 2 / nch : Nat) * nch + nch * (R + 1) := by ring
    rw [e1]; omega
  obtain ⟨a', k1, k2, _, _, _, k3⟩ := raw_start (g := g) (mm := 0) (by omega) hNB a h0 hm past hc hc' hset hhead hstart (le_refl _) (by omega)
  obtain ⟨fxs, p', q', e1, e2, e3⟩ := k3.late_law hfp hB hNB hb hm k2 (le_refl _) (Int.natCast_nonneg _) (speed_small hc hR) hfit hE nullOk hf ts hs
  exact ⟨a', k1, fxs, p', q', e1, e2, e3.rd, e3.pend⟩

example : ∃ a', exNew.playRaw flashGeo (some ⟨exHeld, 0, false⟩) (1 : Nat) = .ok (true, a') ∧
    ∃ fxs p' q', fileTurns Fp.ieee flashGeo true (1 + 1) ⟨a', none⟩ exTurns = .ok (fxs, p') ∧
      streamedTurns Fp.ieee (exHeld) flashGeo.N flashGeo.B (1 + 1) ⟨a'.rd, a'.rd.pos1 / flashGeo.B, none, none⟩ exTurns = .ok (fxs, q') ∧ q'.rd = p'.rdr.rd ∧ q'.pending = p'.pending :=
  C78_raw_law Fp.ieee ieee_representable (g := flashGeo) (by decide +kernel) (by decide +kernel) exNew exHeld_bytes (by decide +kernel) (by decide +kernel) false (nch := 1) (by decide +kernel) (by decide +kernel) exNew_settings.forward rfl (by decide +kernel) (by intro h; cases h) (by decide) true (by decide) exTurns exTurns_speeds

/-- **C78**, the same for a WAV file. -/
theorem C78_wav_law (fp : Fp) (hfp : Representable fp) {g : Geo} (hB : g.B < 16384) (hNB : g.N * g.B ≤ 2 ^ 30) (a : FileReader) {m : List Nat}
    (hb : IsBytes m) (hm : m.length < 2 ^ 31) (past : Bool) (junk : List Nat) (hj : junk.length = 36) (hg : GoodHeader m)
    (hdep : leVal (slice m 34 2) = 16) {off : Nat} (hda : DataAt m off) {nch D : Nat} (hn : leVal (slice m 22 2) = nch) (hc : 1 ≤ nch) (hc' : nch ≤ 32767)
    (hD : leVal (slice m (off + 4) 4) = D) (hdata : off + 8 + D ≤ m.length) (hroom : off + 8 < m.length) {R : Int}
    (hset : ForwardSettings a.rd R) (hR : nch * (R + 1) ≤ 2 ^ 30)
    (hstart : a.rd.playStart = .arbitrary → 0 ≤ a.rd.playbackStart ∧ a.rd.playbackStart ≤ (D / 2 / nch : Nat))
    (hN : 1 ≤ g.N) (nullOk : Bool) {fuel : Nat} (hf : g.N ≤ fuel + 1) (ts : List Turn) (hs : Speeds R ts) :
    ∃ a', a.playWav g (some ⟨m, 0, past⟩) junk = .ok (true, a') ∧
      ∃ fxs p' q', fileTurns fp g nullOk (fuel + 1) ⟨a', none⟩ ts = .ok (fxs, p') ∧
        streamedTurns fp m g.N g.B (fuel + 1) ⟨a'.rd, a'.rd.pos1 / g.B, none, none⟩ ts = .ok (fxs, q') ∧ q'.rd = p'.rdr.rd ∧ q'.pending = p'.pending := by
  have hmul : ((D / 2 / nch : Nat) : Int) * nch ≤ (D / 2 : Nat) := by exact_mod_cast Nat.div_mul_le_self _ _
  have hE : 2 * ((((off + 8) / 2 : Nat) : Int) + (D / 2 / nch : Nat) * nch) ≤ m.length := by clear hn hD hdep; omega
  have hfit : (((off + 8) / 2 : Nat) : Int) + (nch : Int) * ((D / 2 / nch : Nat) + R + 1) ≤ 2147483647 := by
    have e1 : (nch : Int) * ((D / 2 / nch : Nat) + R + 1) = (D / 2 / nch : Nat) * nch + nch * (R + 1) := by ring
    rw [e1]; clear hn hD hdep; omega
  obtain ⟨a', k1, k2, _, _, _, _, _, _, k3⟩ := wav_start (g := g) (mm := 0) (by omega) hNB a hb hm past junk hj hg hdep hda hn hc hc' hD hdata hroom hset hstart
    (le_refl _) (by omega)
  obtain ⟨fxs, p', q', e1, e2, e3⟩ := k3.late_law hfp hB hNB hb hm k2 (Int.natCast_nonneg _) (Int.natCast_nonneg _) (speed_small hc hR) hfit hE nullOk hf ts hs
  exact ⟨a', k1, fxs, p', q', e1, e2, e3.rd, e3.pend⟩

example : ∃ a', exNew.playWav flashGeo (some ⟨exHeldWav 2, 0, false⟩) (List.replicate 36 7) = .ok (true, a') ∧
    ∃ fxs p' q', fileTurns Fp.ieee flashGeo true (1 + 1) ⟨a', none⟩ exTurns = .ok (fxs, p') ∧
      streamedTurns Fp.ieee (exHeldWav 2) flashGeo.N flashGeo.B (1 + 1) ⟨a'.rd, a'.rd.pos1 / flashGeo.B, none, none⟩ exTurns = .ok (fxs, q') ∧ q'.rd = p'.rdr.rd ∧ q'.pending = p'.pending :=
  C78_wav_law Fp.ieee ieee_representable (g := flashGeo) (by decide +kernel) (by decide +kernel) exNew (exHeldWav_bytes (n := 2) (by decide +kernel)) (by decide +kernel) false (List.replicate 36 7) (by decide +kernel) (by decide +kernel) (by decide +kernel) (off := 36) ⟨Or.inl ⟨rfl, by decide +kernel⟩, by decide +kernel, by decide +kernel⟩
    (nch := 2) (D := 1024) (by decide +kernel) (by decide +kernel) (by decide +kernel) (by decide +kernel) (by decide +kernel) (by decide +kernel) exNew_settings.forward (by decide +kernel) (by intro h; cases h) (by decide) true (by decide) exTurns exTurns_speeds

/-! ## In time -/

/-- **C78** as far as it holds: events need not be run after each update.  If no more than `n` updates pass without, `n` updates move by at most `mm` blocks,
and there are at least `2 mm + 1` buffers, a raw file played forward sounds as if it were in memory. -/
theorem C78_raw_partial (fp : Fp) (hfp : Representable fp) {g : Geo} (hB : g.B < 16384) (hNB : g.N * g.B ≤ 2 ^ 30) (a : FileReader) {m : List Nat}
    (hb : IsBytes m) (h0 : 0 < m.length) (hm : m.length < 2 ^ 31) (past : Bool) {nch : Nat} (hc : 1 ≤ nch) (hc' : nch ≤ 32767) {R : Int}
    (hset : ForwardSettings a.rd R) (hhead : a.rd.header = 0) (hR : nch * (R + 1) ≤ 2 ^ 30)
    (hstart : a.rd.playStart = .arbitrary → 0 ≤ a.rd.playbackStart ∧ a.rd.playbackStart ≤ (m.length / 2 / nch : Nat))
    {n : Nat} {mm : Int} (hmm0 : 0 ≤ mm) (hmm : 2 * mm + 1 ≤ g.N) (hadv : n * (128 * (nch * (R + 1))) ≤ mm * g.B)
    (nullOk : Bool) {fuel : Nat} (hf : g.N ≤ fuel + 1) (ts : List Turn) (hs : Speeds R ts) (hpr : Prompt n 0 ts) :
    ∃ a', a.playRaw g (some ⟨m, 0, past⟩) nch = .ok (true, a') ∧
      ∃ fxs p' b', fileTurns fp g nullOk (fuel + 1) ⟨a', none⟩ ts = .ok (fxs, p') ∧
        memTurns fp (fuel + 1) (inMemory a' m) ts = .ok (fxs, b') ∧ b'.rdr.rd = p'.rdr.rd ∧ b'.pending = p'.pending := by
  have hmul : ((m.length / 2 / nch : Nat) : Int) * nch ≤ (m.length / 2 : Nat) := by exact_mod_cast Nat.div_mul_le_self _ _
  have hE : 2 * ((0 : Int) + (m.length / 2 / nch : Nat) * nch) ≤ m.length := by omega
  have hfit : (0 : Int) + (nch : Int) * ((m.length / 2 / nch : Nat) + R + 1) ≤ 2147483647 := by
    have e1 : (nch : Int) * ((m.length / 2 / nch : Nat) + R + 1) = (m.length / 2 / nch : Nat) * nch + nch * (R + 1) := by ring
    rw [e1]; omega
  obtain ⟨a', k1, k2, _, _, _, k3⟩ := raw_start (g := g) (mm := 0) (by omega) hNB a h0 hm past hc hc' hset hhead hstart (le_refl _) (by omega)
  exact ⟨a', k1, k3.timely hfp hB hNB hb hm k2 (le_refl _) (Int.natCast_nonneg _) (speed_small hc hR) hfit hE hmm0 hmm hadv nullOk hf ts hs hpr⟩

example : ∃ a', exNew.playRaw sdGeo (some ⟨exHeld, 0, false⟩) (1 : Nat) = .ok (true, a') ∧
    ∃ fxs p' b', fileTurns Fp.ieee sdGeo true (6 + 1) ⟨a', none⟩ exTurns = .ok (fxs, p') ∧
      memTurns Fp.ieee (6 + 1) (inMemory a' (exHeld)) exTurns = .ok (fxs, b') ∧ b'.rdr.rd = p'.rdr.rd ∧ b'.pending = p'.pending :=
  C78_raw_partial Fp.ieee ieee_representable (g := sdGeo) (by decide +kernel) (by decide +kernel) exNew exHeld_bytes (by decide +kernel) (by decide +kernel) false (nch := 1) (by decide +kernel) (by decide +kernel) exNew_settings.forward rfl (by decide +kernel) (by intro h; cases h)
    (n := 2) (mm := 1) (by decide) (by decide) (by decide) true (by decide) exTurns exTurns_speeds exTurns_prompt

/-- The same for a WAV file. -/
theorem C78_wav_partial (fp : Fp) (hfp : Representable fp) {g : Geo} (hB : g.B < 16384) (hNB : g.N * g.B ≤ 2 ^ 30) (a : FileReader) {m : List Nat}
    (hb : IsBytes m) (hm : m.length < 2 ^ 31) (past : Bool) (junk : List Nat) (hj : junk.length = 36) (hg : GoodHeader m)
    (hdep : leVal (slice m 34 2) = 16) {off : Nat} (hda : DataAt m off) {nch D : Nat} (hn : leVal (slice m 22 2) = nch) (hc : 1 ≤ nch) (hc' : nch ≤ 32767)
    (hD : leVal (slice m (off + 4) 4) = D) (hdata : off + 8 + D ≤ m.length) (hroom : off + 8 < m.length) {R : Int}
    (hset : ForwardSettings a.rd R) (hR : nch * (R + 1) ≤ 2 ^ 30)
    (hstart : a.rd.playStart = .arbitrary → 0 ≤ a.rd.playbackStart ∧ a.rd.playbackStart ≤ (D / 2 / nch : Nat))
    {n : Nat} {mm : Int} (hmm0 : 0 ≤ mm) (hmm : 2 * mm + 1 ≤ g.N) (hadv : n * (128 * (nch * (R + 1))) ≤ mm * g.B)
    (nullOk : Bool) {fuel : Nat} (hf : g.N ≤ fuel + 1) (ts : List Turn) (hs : Speeds R ts) (hpr : Prompt n 0 ts) :
    ∃ a', a.playWav g (some ⟨m, 0, past⟩) junk = .ok (true, a') ∧
      ∃ fxs p' b', fileTurns fp g nullOk (fuel + 1) ⟨a', none⟩ ts = .ok (fxs, p') ∧
        memTurns fp (fuel + 1) (inMemory a' m) ts = .ok (fxs, b') ∧ b'.rdr.rd = p'.rdr.rd ∧ b'.pending = p'.pending := by
  have hmul : ((D / 2 / nch : Nat) : Int) * nch ≤ (D / 2 : Nat) := by exact_mod_cast Nat.div_mul_le_self _ _
  have hE : 2 * ((((off + 8) / 2 : Nat) : Int) + (D / 2 / nch : Nat) * nch) ≤ m.length := by clear hn hD hdep; omega
  have hfit : (((off + 8) / 2 : Nat) : Int) + (nch : Int) * ((D / 2 / nch : Nat) + R + 1) ≤ 2147483647 := by
    have e1 : (nch : Int) * ((D / 2 / nch : Nat) + R + 1) = (D / 2 / nch : Nat) * nch + nch * (R + 1) := by ring
    rw [e1]; clear hn hD hdep; omega
  obtain ⟨a', k1, k2, _, _, _, _, _, _, k3⟩ := wav_start (g := g) (mm := 0) (by omega) hNB a hb hm past junk hj hg hdep hda hn hc hc' hD hdata hroom hset hstart
    (le_refl _) (by omega)
  exact ⟨a', k1, k3.timely hfp hB hNB hb hm k2 (Int.natCast_nonneg _) (Int.natCast_nonneg _) (speed_small hc hR) hfit hE hmm0 hmm hadv nullOk hf ts hs hpr⟩

example : ∃ a', exNew.playWav sdGeo (some ⟨exHeldWav 2, 0, false⟩) (List.replicate 36 7) = .ok (true, a') ∧
    ∃ fxs p' b', fileTurns Fp.ieee sdGeo true (6 + 1) ⟨a', none⟩ exTurns = .ok (fxs, p') ∧
      memTurns Fp.ieee (6 + 1) (inMemory a' (exHeldWav 2)) exTurns = .ok (fxs, b') ∧ b'.rdr.rd = p'.rdr.rd ∧ b'.pending = p'.pending :=
  C78_wav_partial Fp.ieee ieee_representable (g := sdGeo) (by decide +kernel) (by decide +kernel) exNew (exHeldWav_bytes (n := 2) (by decide +kernel)) (by decide +kernel) false (List.replicate 36 7) (by decide +kernel) (by decide +kernel) (by decide +kernel) (off := 36) ⟨Or.inl ⟨rfl, by decide +kernel⟩, by decide +kernel, by decide +kernel⟩
    (nch := 2) (D := 1024) (by decide +kernel) (by decide +kernel) (by decide +kernel) (by decide +kernel) (by decide +kernel) (by decide +kernel) exNew_settings.forward (by decide +kernel) (by intro h; cases h)
    (n := 2) (mm := 1) (by decide) (by decide) (by decide) true (by decide) exTurns exTurns_speeds exTurns_prompt

/-! ## Too late -/

/-- Updates, each followed by events. -/
def exPolls : Nat → List Turn
  | 0 => []
  | n + 1 => .update (fun _ => true) :: .poll :: exPolls n

theorem exStall_speeds : Speeds 1 (List.replicate 30 (.update fun _ => true) ++ .poll :: (exPolls 2 ++ exTurns)) := by
  intro v hv
  rcases List.mem_append.1 hv with hv | hv
  · cases List.eq_of_mem_replicate hv
  · simp only [exPolls, List.mem_cons, List.mem_append, List.not_mem_nil, or_false, reduceCtorEq, false_or] at hv
    exact exTurns_speeds v hv

/-- **C78**, after a stall: the program runs events however it likes during `ts0`, then runs them in time.  After `s` further reloads have been run, where `s` depends
on the number of updates in `ts0`, everything sounds as if the file had been in memory all along. -/
theorem C78_raw_recovers (fp : Fp) (hfp : Representable fp) {g : Geo} (hB : g.B < 16384) (hNB : g.N * g.B ≤ 2 ^ 30) (a : FileReader) {m : List Nat}
    (hb : IsBytes m) (h0 : 0 < m.length) (hm : m.length < 2 ^ 31) (past : Bool) {nch : Nat} (hc : 1 ≤ nch) (hc' : nch ≤ 32767) {R : Int}
    (hset : ForwardSettings a.rd R) (hhead : a.rd.header = 0) (hR : nch * (R + 1) ≤ 2 ^ 30)
    (hstart : a.rd.playStart = .arbitrary → 0 ≤ a.rd.playbackStart ∧ a.rd.playbackStart ≤ (m.length / 2 / nch : Nat))
    {n s : Nat} {mm : Int} (hmm0 : 0 ≤ mm) (hmm : 2 * mm + 1 ≤ g.N) (hadv : n * (128 * (nch * (R + 1))) ≤ mm * g.B)
    (nullOk : Bool) {fuel : Nat} (hf : g.N ≤ fuel + 1) (ts0 ts1 ts2 : List Turn) (hs : Speeds R (ts0 ++ .poll :: (ts1 ++ ts2)))
    (hstall : updates ts0 * (128 * (nch * (R + 1))) ≤ (mm + s * (g.N - mm)) * g.B) (hpr : Prompt n 0 (ts1 ++ ts2)) :
    ∃ a', a.playRaw g (some ⟨m, 0, past⟩) nch = .ok (true, a') ∧
      ∃ f01 f2 p1 p2 g0 g1 g2 b0 b1 b2, fileTurns fp g nullOk (fuel + 1) ⟨a', none⟩ (ts0 ++ .poll :: ts1) = .ok (f01, p1) ∧ fileTurns fp g nullOk (fuel + 1) p1 ts2 = .ok (f2, p2) ∧
        memTurns fp (fuel + 1) (inMemory a' m) (ts0 ++ [.poll]) = .ok (g0, b0) ∧ memTurns fp (fuel + 1) b0 ts1 = .ok (g1, b1) ∧
        memTurns fp (fuel + 1) b1 ts2 = .ok (g2, b2) ∧ b2.rdr.rd = p2.rdr.rd ∧ b2.pending = p2.pending ∧ (s ≤ b1.served - b0.served → f2 = g2) := by
  have hmul : ((m.length / 2 / nch : Nat) : Int) * nch ≤ (m.length / 2 : Nat) := by exact_mod_cast Nat.div_mul_le_self _ _
  have hE : 2 * ((0 : Int) + (m.length / 2 / nch : Nat) * nch) ≤ m.length := by omega
  have hfit : (0 : Int) + (nch : Int) * ((m.length / 2 / nch : Nat) + R + 1) ≤ 2147483647 := by
    have e1 : (nch : Int) * ((m.length / 2 / nch : Nat) + R + 1) = (m.length / 2 / nch : Nat) * nch + nch * (R + 1) := by ring
    rw [e1]; omega
  obtain ⟨a', k1, k2, _, _, _, k3⟩ := raw_start (g := g) (mm := 0) (by omega) hNB a h0 hm past hc hc' hset hhead hstart (le_refl _) (by omega)
  exact ⟨a', k1, k3.recovers hfp hB hNB hb hm k2 (le_refl _) (Int.natCast_nonneg _) (speed_small hc hR) hfit hE hmm0 hmm hadv nullOk hf ts0 ts1 ts2 hs hstall hpr⟩

example : ∃ a', exNew.playRaw sdGeo (some ⟨exHeld, 0, false⟩) (1 : Nat) = .ok (true, a') ∧
    ∃ f01 f2 p1 p2 g0 g1 g2 b0 b1 b2, fileTurns Fp.ieee sdGeo true (6 + 1) ⟨a', none⟩ (List.replicate 30 (.update fun _ => true) ++ .poll :: exPolls 2) = .ok (f01, p1) ∧
      fileTurns Fp.ieee sdGeo true (6 + 1) p1 exTurns = .ok (f2, p2) ∧
      memTurns Fp.ieee (6 + 1) (inMemory a' (exHeld)) (List.replicate 30 (.update fun _ => true) ++ [.poll]) = .ok (g0, b0) ∧ memTurns Fp.ieee (6 + 1) b0 (exPolls 2) = .ok (g1, b1) ∧
      memTurns Fp.ieee (6 + 1) b1 exTurns = .ok (g2, b2) ∧ b2.rdr.rd = p2.rdr.rd ∧ b2.pending = p2.pending ∧ (2 ≤ b1.served - b0.served → f2 = g2) :=
  C78_raw_recovers Fp.ieee ieee_representable (g := sdGeo) (by decide +kernel) (by decide +kernel) exNew exHeld_bytes (by decide +kernel) (by decide +kernel) false (nch := 1) (by decide +kernel) (by decide +kernel) exNew_settings.forward rfl (by decide +kernel) (by intro h; cases h)
    (n := 2) (s := 2) (mm := 1) (by decide) (by decide) (by decide) true (by decide) (List.replicate 30 (.update fun _ => true)) (exPolls 2) exTurns exStall_speeds (by decide +kernel)
    ⟨by decide, by decide, exTurns_prompt⟩

/-- The same for a WAV file. -/
theorem C78_wav_recovers (fp : Fp) (hfp : Representable fp) {g : Geo} (hB : g.B < 16384) (hNB : g.N * g.B ≤ 2 ^ 30) (a : FileReader) {m : List Nat}
    (hb : IsBytes m) (hm : m.length < 2 ^ 31) (past : Bool) (junk : List Nat) (hj : junk.length = 36) (hg : GoodHeader m)
    (hdep : leVal (slice m 34 2) = 16) {off : Nat} (hda : DataAt m off) {nch D : Nat} (hn : leVal (slice m 22 2) = nch) (hc : 1 ≤ nch) (hc' : nch ≤ 32767)
    (hD : leVal (slice m (off + 4) 4) = D) (hdata : off + 8 + D ≤ m.length) (hroom : off + 8 < m.length) {R : Int}
    (hset : ForwardSettings a.rd R) (hR : nch * (R + 1) ≤ 2 ^ 30)
    (hstart : a.rd.playStart = .arbitrary → 0 ≤ a.rd.playbackStart ∧ a.rd.playbackStart ≤ (D / 2 / nch : Nat))
    {n s : Nat} {mm : Int} (hmm0 : 0 ≤ mm) (hmm : 2 * mm + 1 ≤ g.N) (hadv : n * (128 * (nch * (R + 1))) ≤ mm * g.B)
    (nullOk : Bool) {fuel : Nat} (hf : g.N ≤ fuel + 1) (ts0 ts1 ts2 : List Turn) (hs : Speeds R (ts0 ++ .poll :: (ts1 ++ ts2)))
    (hstall : updates ts0 * (128 * (nch * (R + 1))) ≤ (mm + s * (g.N - mm)) * g.B) (hpr : Prompt n 0 (ts1 ++ ts2)) :
    ∃ a', a.playWav g (some ⟨m, 0, past⟩) junk = .ok (true, a') ∧
      ∃ f01 f2 p1 p2 g0 g1 g2 b0 b1 b2, fileTurns fp g nullOk (fuel + 1) ⟨a', none⟩ (ts0 ++ .poll :: ts1) = .ok (f01, p1) ∧ fileTurns fp g nullOk (fuel + 1) p1 ts2 = .ok (f2, p2) ∧
        memTurns fp (fuel + 1) (inMemory a' m) (ts0 ++ [.poll]) = .ok (g0, b0) ∧ memTurns fp (fuel + 1) b0 ts1 = .ok (g1, b1) ∧
        memTurns fp (fuel + 1) b1 ts2 = .ok (g2, b2) ∧ b2.rdr.rd = p2.rdr.rd ∧ b2.pending = p2.pending ∧ (s ≤ b1.served - b0.served → f2 = g2) := by
  have hmul : ((D / 2 / nch : Nat) : Int) * nch ≤ (D / 2 : Nat) := by exact_mod_cast Nat.div_mul_le_self _ _
  have hE : 2 * ((((off + 8) / 2 : Nat) : Int) + (D / 2 / nch : Nat) * nch) ≤ m.length := by clear hn hD hdep; omega
  have hfit : (((off + 8) / 2 : Nat) : Int) + (nch : Int) * ((D / 2 / nch : Nat) + R + 1) ≤ 2147483647 := by
    have e1 : (nch : Int) * ((D / 2 / nch : Nat) + R + 1) = (D / 2 / nch : Nat) * nch + nch * (R + 1) := by ring
    rw [e1]; clear hn hD hdep; omega
  obtain ⟨a', k1, k2, _, _, _, _, _, _, k3⟩ := wav_start (g := g) (mm := 0) (by omega) hNB a hb hm past junk hj hg hdep hda hn hc hc' hD hdata hroom hset hstart
    (le_refl _) (by omega)
  exact ⟨a', k1, k3.recovers hfp hB hNB hb hm k2 (Int.natCast_nonneg _) (Int.natCast_nonneg _) (speed_small hc hR) hfit hE hmm0 hmm hadv nullOk hf ts0 ts1 ts2 hs hstall hpr⟩

example : ∃ a', exNew.playWav sdGeo (some ⟨exHeldWav 2, 0, false⟩) (List.replicate 36 7) = .ok (true, a') ∧
    ∃ f01 f2 p1 p2 g0 g1 g2 b0 b1 b2, fileTurns Fp.ieee sdGeo true (6 + 1) ⟨a', none⟩ (List.replicate 30 (.update fun _ => true) ++ .poll :: exPolls 2) = .ok (f01, p1) ∧
      fileTurns Fp.ieee sdGeo true (6 + 1) p1 exTurns = .ok (f2, p2) ∧
      memTurns Fp.ieee (6 + 1) (inMemory a' (exHeldWav 2)) (List.replicate 30 (.update fun _ => true) ++ [.poll]) = .ok (g0, b0) ∧ memTurns Fp.ieee (6 + 1) b0 (exPolls 2) = .ok (g1, b1) ∧
      memTurns Fp.ieee (6 + 1) b1 exTurns = .ok (g2, b2) ∧ b2.rdr.rd = p2.rdr.rd ∧ b2.pending = p2.pending ∧ (2 ≤ b1.served - b0.served → f2 = g2) :=
  C78_wav_recovers Fp.ieee ieee_representable (g := sdGeo) (by decide +kernel) (by decide +kernel) exNew (exHeldWav_bytes (n := 2) (by decide +kernel)) (by decide +kernel) false (List.replicate 36 7) (by decide +kernel) (by decide +kernel) (by decide +kernel) (off := 36) ⟨Or.inl ⟨rfl, by decide +kernel⟩, by decide +kernel, by decide +kernel⟩
    (nch := 2) (D := 1024) (by decide +kernel) (by decide +kernel) (by decide +kernel) (by decide +kernel) (by decide +kernel) (by decide +kernel) exNew_settings.forward (by decide +kernel) (by intro h; cases h)
    (n := 2) (s := 2) (mm := 1) (by decide) (by decide) (by decide) true (by decide) (List.replicate 30 (.update fun _ => true)) (exPolls 2) exTurns exStall_speeds (by decide +kernel)
    ⟨by decide, by decide, exTurns_prompt⟩

/-- One update of a player at frame `x`, with the buffers from block `w` on. -/
theorem streamed_step {m : List Nat} (fp : Fp) {N B H F : Int} {nch : Nat} {ρ : ℚ} {p : Nat} {R : Int} {x : ℚ} {r : Rd} (hm : m.length < 2 ^ 31) (hE : 2 * (H + F * nch) ≤ m.length)
    (hp : r.playing = true) (hfwd : Fwd r p R x) (h1 : r.header = H) (h2 : r.fileSamples = F) (h3 : r.nch = nch) (h4 : r.rate = ρ)
    (hlt : ∀ j : Nat, j < 128 → ⌊x + (j : ℚ) * ρ⌋ < F) (fuel : Nat) (w : Int) (first : Option Int) (pend : Option Ev) :
    ∃ fx r', Streamed.update fp m N B (fuel + 1) ⟨r, w, first, pend⟩ (fun _ => true) = .ok (fx, ⟨r', w, some (first.getD r.pos1), some .reload⟩) ∧
      r'.playing = true ∧ Fwd r' p R (x + 128 * ρ) ∧ r'.header = H ∧ r'.fileSamples = F ∧ r'.nch = nch ∧ r'.rate = ρ ∧
      fx.transmitted = outputs nch fun ch => (List.range 128).map fun j : Nat =>
        let i := H + ⌊x + (j : ℚ) * ρ⌋ * nch + ch
        if i / B < w + N then fileSample m i.toNat else 0 := by
  have hn : (0 : Int) < nch := by rw [← h3]; exact hfwd.plain.nch
  have hρ : 0 ≤ ρ := by rw [← h4]; exact hfwd.rate0
  obtain ⟨r', t1, t2, t3, t4⟩ := hfwd.trace fp blockSamples r x
  rw [h4, h2, h1, h3, forwardFrames_all (n := blockSamples) hlt] at t1
  rw [h4, h2, forwardFrames_all (n := blockSamples) hlt, List.length_map, List.length_range] at t2
  have hpos : r.pos1 = H + ⌊x⌋ * nch := by rw [hfwd.pos, h1, h3]
  have hx0 : 0 ≤ ⌊x⌋ := Int.floor_nonneg.2 hfwd.x0
  have hxn : 0 ≤ ⌊x⌋ * (nch : Int) := mul_nonneg hx0 (le_of_lt hn)
  have hH0 : 0 ≤ H := by rw [← h1]; exact hfwd.header0
  have hpsm : ∀ q ∈ (List.map (fun j : Nat => ⌊x + (j : ℚ) * ρ⌋) (List.range blockSamples)).map (fun i => H + i * (nch : Int)), r.pos1 ≤ q ∧ q + r.nch ≤ H + F * nch := by
    intro q hq
    obtain ⟨z, hz, rfl⟩ := List.mem_map.1 hq
    obtain ⟨j, hj, rfl⟩ := List.mem_map.1 hz
    have hj' : j < 128 := List.mem_range.1 hj
    have i1 : ⌊x⌋ ≤ ⌊x + (j : ℚ) * ρ⌋ := Int.floor_le_floor (by have : 0 ≤ (j : ℚ) * ρ := mul_nonneg (by positivity) hρ; linarith)
    have i2 := hlt j hj'
    have i3 := mul_le_mul_of_nonneg_right i1 (le_of_lt hn)
    have i4 : (⌊x + (j : ℚ) * ρ⌋ + 1) * (nch : Int) ≤ F * nch := mul_le_mul_of_nonneg_right (by omega) (le_of_lt hn)
    rw [add_mul, one_mul] at i4
    rw [hpos, h3]
    exact ⟨by omega, by omega⟩
  have ha : ((List.range r.nch.toNat).filter fun _ => true).length = (List.range r.nch.toNat).length := by simp
  have hu := array_update (fuel := fuel) (d := audible m N B w) (E := H + F * nch) hp hfwd.plain hfwd.loop (by omega) t1
    (by unfold audible; rw [List.length_map, List.length_range]; omega) (by omega) hpsm ha
  obtain ⟨fx, hfx⟩ : ∃ fx, fx = fxOf r.nch (List.map (frameAt (fun i => (audible m N B w).getD i.toNat 0) r.nch)
    ((List.map (fun j : Nat => ⌊x + (j : ℚ) * ρ⌋) (List.range blockSamples)).map (fun i => H + i * (nch : Int)))) (fun _ => true) := ⟨_, rfl⟩
  rw [← hfx] at hu
  have hev : fx.event = some .reload := by
    rw [hfx]; unfold fxOf
    simp only [List.length_map, List.length_range]
    rfl
  refine ⟨fx, r', ?_, t3.playing.trans hp, by exact_mod_cast t2, t3.header.trans h1, t3.fileSamples.trans h2, t3.nch.trans h3, t4.trans h4, ?_⟩
  · unfold Streamed.update
    simp only
    rw [hu]
    simp only [ok_bind, hev]
    rfl
  · rw [hfx, h3]
    unfold fxOf outputs
    simp only [Int.toNat_natCast]
    have hblk : ∀ ch : Nat, ch < nch → blockOf (((List.range blockSamples).map fun j : Nat => ⌊x + (j : ℚ) * ρ⌋).map (fun i => H + i * (nch : Int)) |>.map (frameAt (fun i => (audible m N B w).getD i.toNat 0) nch)) ch =
        (List.range 128).map fun j : Nat => if (H + ⌊x + (j : ℚ) * ρ⌋ * nch + ch) / B < w + N then fileSample m (H + ⌊x + (j : ℚ) * ρ⌋ * nch + ch).toNat else 0 := by
      intro ch hch
      rw [blockOf_frames _ (by simp [blockSamples]) (by exact_mod_cast hch), List.map_map, List.map_map]
      refine List.map_congr_left fun j hj => ?_
      simp only [Function.comp]
      obtain ⟨e1, e2⟩ := hpsm _ (List.mem_map.2 ⟨_, List.mem_map.2 ⟨j, hj, rfl⟩, rfl⟩)
      rw [h3] at e2
      exact audible_getD (by omega) (show _ < H + F * (nch : Int) by omega) hE
    congr 1
    · refine List.map_congr_left fun ch hch => ?_
      rw [hblk ch (List.mem_range.1 hch)]
    · by_cases h1' : nch = 1
      · subst h1'
        simp only [if_true, Nat.cast_one]
        have := hblk 0 (by omega)
        simp only [Nat.cast_one] at this
        rw [this]
      · rw [if_neg h1', if_neg (by exact_mod_cast h1')]

/-- Updates without events. -/
theorem streamed_stall {m : List Nat} (fp : Fp) {N B H F : Int} {nch : Nat} {ρ : ℚ} {p : Nat} {R : Int} (hm : m.length < 2 ^ 31) (hE : 2 * (H + F * nch) ≤ m.length) (fuel : Nat) (w : Int) :
    ∀ (u : Nat) (x : ℚ) (r : Rd) (first : Option Int) (pend : Option Ev), r.playing = true → Fwd r p R x → r.header = H → r.fileSamples = F → r.nch = nch → r.rate = ρ →
    (∀ j : Nat, j < 128 * (u + 1) → ⌊x + (j : ℚ) * ρ⌋ < F) →
    ∃ fxs r', streamedTurns fp m N B (fuel + 1) ⟨r, w, first, pend⟩ (List.replicate (u + 1) (.update fun _ => true)) = .ok (fxs, ⟨r', w, some (first.getD r.pos1), some .reload⟩) ∧ fxs.length = u + 1 ∧
      r'.playing = true ∧ Fwd r' p R (x + ((128 * (u + 1) : Nat) : ℚ) * ρ) ∧ r'.header = H ∧ r'.fileSamples = F ∧ r'.nch = nch ∧ r'.rate = ρ
  | 0, x, r, first, pend, hp, hfwd, h1, h2, h3, h4, hlt => by
    obtain ⟨fx, r', k1, k2, k3, k4, k5, k6, k7, _⟩ := streamed_step (N := N) (B := B) fp hm hE hp hfwd h1 h2 h3 h4 (by simpa using hlt) fuel w first pend
    refine ⟨[fx], r', ?_, rfl, k2, by simpa using k3, k4, k5, k6, k7⟩
    rw [show List.replicate (0 + 1) (Turn.update fun _ => true) = [.update fun _ => true] from rfl, streamedTurns, k1]
    rfl
  | u + 1, x, r, first, pend, hp, hfwd, h1, h2, h3, h4, hlt => by
    obtain ⟨fx, r', k1, k2, k3, k4, k5, k6, k7, _⟩ := streamed_step (N := N) (B := B) fp hm hE hp hfwd h1 h2 h3 h4 (fun j hj => hlt j (by omega)) fuel w first pend
    obtain ⟨fxs, r2, e1, e8, e2, e3, e4, e5, e6, e7⟩ := streamed_stall fp (N := N) (B := B) hm hE fuel w u (x + 128 * ρ) r' (some (first.getD r.pos1)) (some .reload) k2 k3 k4 k5 k6 k7 (fun j hj => by
      have := hlt (128 + j) (by omega)
      rw [show x + 128 * ρ + (j : ℚ) * ρ = x + ((128 + j : Nat) : ℚ) * ρ by push_cast; ring]
      exact this)
    refine ⟨fx :: fxs, r2, ?_, by rw [List.length_cons, e8], e2, ?_, e4, e5, e6, e7⟩
    · rw [List.replicate_succ, streamedTurns]
      simp only [k1, ok_bind]
      rw [e1]
      rfl
    · rw [show x + ((128 * (u + 1 + 1) : Nat) : ℚ) * ρ = x + 128 * ρ + ((128 * (u + 1) : Nat) : ℚ) * ρ by push_cast; ring]
      exact e3

/-- After a stall in which as much was played as fits into the buffers, events are run, and yet nothing is heard. -/
theorem streamed_still {m : List Nat} (fp : Fp) {N B H F : Int} {nch : Nat} {ρ : ℚ} {p : Nat} {R : Int} (hm : m.length < 2 ^ 31) (hE : 2 * (H + F * nch) ≤ m.length) (hB : 0 < B) (hN : 0 ≤ N) (fuel : Nat)
    (u : Nat) {x : ℚ} {r : Rd} (hp : r.playing = true) (hfwd : Fwd r p R x) (h1 : r.header = H) (h2 : r.fileSamples = F) (h3 : r.nch = nch) (h4 : r.rate = ρ)
    (hlt : ∀ j : Nat, j < 128 * (u + 2) → ⌊x + (j : ℚ) * ρ⌋ < F) (hfast : N * B ≤ nch * ⌊((128 * (u + 1) : Nat) : ℚ) * ρ⌋) :
    ∃ fxs fx q, streamedTurns fp m N B (fuel + 1) ⟨r, r.pos1 / B, none, none⟩ (List.replicate (u + 1) (.update fun _ => true) ++ [.poll, .update fun _ => true]) = .ok (fxs ++ [fx], q) ∧
      fxs.length = u + 1 ∧ fx.transmitted = outputs nch fun _ => List.replicate 128 0 := by
  have hρ : 0 ≤ ρ := by rw [← h4]; exact hfwd.rate0
  have hn : (0 : Int) < nch := by rw [← h3]; exact hfwd.plain.nch
  have hpos : r.pos1 = H + ⌊x⌋ * nch := by rw [hfwd.pos, h1, h3]
  obtain ⟨fxs, r1, e1, e8, e2, e3, e4, e5, e6, e7⟩ := streamed_stall fp (N := N) (B := B) hm hE fuel (r.pos1 / B) u x r none none hp hfwd h1 h2 h3 h4 (fun j hj => hlt j (by omega))
  obtain ⟨fx, r2, k1, _, _, _, _, _, _, k8⟩ := streamed_step (N := N) (B := B) fp hm hE e2 e3 e4 e5 e6 e7 (fun j hj => by
    have := hlt (128 * (u + 1) + j) (by omega)
    rw [show x + ((128 * (u + 1) : Nat) : ℚ) * ρ + (j : ℚ) * ρ = x + ((128 * (u + 1) + j : Nat) : ℚ) * ρ by push_cast; ring]
    exact this) fuel (min (r.pos1 / B) (r.pos1 / B + N)) none none
  rw [min_eq_left (by omega)] at k1 k8
  refine ⟨fxs, fx, ⟨r2, r.pos1 / B, some r1.pos1, some .reload⟩, ?_, e8, ?_⟩
  · rw [streamedTurns_append, e1]
    simp only [ok_bind]
    rw [streamedTurns]
    unfold Streamed.runEvent
    simp only [Option.getD_none, Option.getD_some]
    rw [min_eq_left (by omega), streamedTurns, k1]
    simp only [ok_bind, streamedTurns, pure_eq_ok]
    rfl
  · rw [k8]
    congr 1
    funext ch
    rw [List.eq_replicate_iff]
    refine ⟨by rw [List.length_map, List.length_range], fun y hy => ?_⟩
    obtain ⟨j, hj, rfl⟩ := List.mem_map.1 hy
    simp only
    rw [if_neg]
    rw [not_lt, ← Int.add_mul_ediv_right _ _ (ne_of_gt hB)]
    refine Int.ediv_le_ediv hB ?_
    have i1 : ⌊x⌋ + ⌊((128 * (u + 1) : Nat) : ℚ) * ρ⌋ ≤ ⌊x + ((128 * (u + 1) : Nat) : ℚ) * ρ + (j : ℚ) * ρ⌋ := by
      refine le_trans (Int.le_floor_add _ _) (Int.floor_le_floor ?_)
      have : 0 ≤ (j : ℚ) * ρ := mul_nonneg (by positivity) hρ
      linarith
    have i2 := mul_le_mul_of_nonneg_right i1 (le_of_lt hn)
    rw [add_mul, mul_comm ⌊((128 * (u + 1) : Nat) : ℚ) * ρ⌋] at i2
    omega

/-- **C78** is violated once events have been late by as much as fits into the buffers: though they have just been run, the next update is all silence, whatever the
file.  (A reload replaces only the blocks before the first one played since the reload before.) -/
theorem C78_raw_refuted (fp : Fp) (hfp : Representable fp) {g : Geo} (hN : 1 ≤ g.N) (hB : g.B < 16384) (hNB : g.N * g.B ≤ 2 ^ 30) (a : FileReader) {m : List Nat}
    (hb : IsBytes m) (h0 : 0 < m.length) (hm : m.length < 2 ^ 31) (past : Bool) {nch : Nat} (hc : 1 ≤ nch) (hc' : nch ≤ 32767) {p : Nat} {R : Int}
    (hset : GridSettings a.rd p R) (hhead : a.rd.header = 0) (hR : nch * (R + 1) ≤ 2 ^ 30)
    (hstart : a.rd.playStart = .arbitrary → 0 ≤ a.rd.playbackStart ∧ a.rd.playbackStart ≤ (m.length / 2 / nch : Nat))
    (nullOk : Bool) {fuel : Nat} (hf : g.N ≤ fuel + 1) (u : Nat) (hfast : (g.N : Int) * g.B ≤ nch * ⌊((128 * (u + 1) : Nat) : ℚ) * a.rd.rate⌋)
    (hlong : ∀ j : Nat, j < 128 * (u + 2) → ⌊startFrame a.rd + a.rd.rem + (j : ℚ) * a.rd.rate⌋ < (m.length / 2 / nch : Nat)) :
    ∃ a', a.playRaw g (some ⟨m, 0, past⟩) nch = .ok (true, a') ∧
      ∃ fxs fx p', fileTurns fp g nullOk (fuel + 1) ⟨a', none⟩ (List.replicate (u + 1) (.update fun _ => true) ++ [.poll, .update fun _ => true]) = .ok (fxs ++ [fx], p') ∧
        fxs.length = u + 1 ∧ fx.transmitted = outputs nch fun _ => List.replicate 128 0 := by
  obtain ⟨a', k1, h⟩ := raw_opened hN hNB a h0 hm past hc hc' hset hhead hR hstart
  have hs : Speeds R (List.replicate (u + 1) (.update fun _ => true) ++ [.poll, .update fun _ => true]) := by
    intro v hv
    rcases List.mem_append.1 hv with hv | hv
    · cases List.eq_of_mem_replicate hv
    · simp at hv
  obtain ⟨a'', k2, f, p', q', l1, l2, _⟩ := C78_raw_law fp hfp hB hNB a hb h0 hm past hc hc' hset.forward hhead hR hstart hN nullOk hf _ hs
  rw [k1] at k2
  cases k2
  obtain ⟨fxs, fx, q, e1, e2, e3⟩ := streamed_still fp (N := g.N) (B := g.B) hm h.within (by exact_mod_cast g.B_pos) (Int.natCast_nonneg _) fuel u h.playing h.fwd h.header h.frames h.chans h.rate
    hlong hfast
  rw [l2] at e1
  cases e1
  exact ⟨a', k1, fxs, fx, p', l1, e2, e3⟩

example : ∃ a', exNew.playRaw flashGeo (some ⟨exHeld, 0, false⟩) (1 : Nat) = .ok (true, a') ∧
    ∃ fxs fx p', fileTurns Fp.ieee flashGeo true (1 + 1) ⟨a', none⟩ (List.replicate (1 + 1) (.update fun _ => true) ++ [.poll, .update fun _ => true]) = .ok (fxs ++ [fx], p') ∧
      fxs.length = 1 + 1 ∧ fx.transmitted = outputs 1 fun _ => List.replicate 128 0 :=
  C78_raw_refuted Fp.ieee ieee_representable (g := flashGeo) (by decide) (by decide +kernel) (by decide +kernel) exNew exHeld_bytes (by decide +kernel) (by decide +kernel) false (nch := 1) (by decide +kernel) (by decide +kernel) exNew_settings rfl (by decide +kernel) (by intro h; cases h) true (by decide) 1
    (by rw [show exNew.rd.rate = 1 from rfl, mul_one, Int.floor_natCast]; decide) (by
      intro j hj
      rw [show exHeld.length = 1024 from List.length_replicate]
      rw [show (startFrame exNew.rd : ℚ) + exNew.rd.rem + (j : ℚ) * exNew.rd.rate = ((j : Int) : ℚ) by simp [startFrame, exNew], Int.floor_intCast]
      exact_mod_cast (by omega : j < 1024 / 2 / 1))

/-- The same for WAV files. -/
theorem C78_wav_refuted (fp : Fp) (hfp : Representable fp) {g : Geo} (hN : 1 ≤ g.N) (hB : g.B < 16384) (hNB : g.N * g.B ≤ 2 ^ 30) (a : FileReader) {m : List Nat}
    (hb : IsBytes m) (hm : m.length < 2 ^ 31) (past : Bool) (junk : List Nat) (hj : junk.length = 36) (hg : GoodHeader m)
    (hdep : leVal (slice m 34 2) = 16) {off : Nat} (hda : DataAt m off) {nch D : Nat} (hn : leVal (slice m 22 2) = nch) (hc : 1 ≤ nch) (hc' : nch ≤ 32767)
    (hD : leVal (slice m (off + 4) 4) = D) (hdata : off + 8 + D ≤ m.length) (hroom : off + 8 < m.length) {p : Nat} {R : Int}
    (hset : GridSettings a.rd p R) (hR : nch * (R + 1) ≤ 2 ^ 30)
    (hstart : a.rd.playStart = .arbitrary → 0 ≤ a.rd.playbackStart ∧ a.rd.playbackStart ≤ (D / 2 / nch : Nat))
    (nullOk : Bool) {fuel : Nat} (hf : g.N ≤ fuel + 1) (u : Nat) (hfast : (g.N : Int) * g.B ≤ nch * ⌊((128 * (u + 1) : Nat) : ℚ) * a.rd.rate⌋)
    (hlong : ∀ j : Nat, j < 128 * (u + 2) → ⌊startFrame a.rd + a.rd.rem + (j : ℚ) * a.rd.rate⌋ < (D / 2 / nch : Nat)) :
    ∃ a', a.playWav g (some ⟨m, 0, past⟩) junk = .ok (true, a') ∧
      ∃ fxs fx p', fileTurns fp g nullOk (fuel + 1) ⟨a', none⟩ (List.replicate (u + 1) (.update fun _ => true) ++ [.poll, .update fun _ => true]) = .ok (fxs ++ [fx], p') ∧
        fxs.length = u + 1 ∧ fx.transmitted = outputs nch fun _ => List.replicate 128 0 := by
  obtain ⟨a', k1, h⟩ := wav_opened hN hNB a hb hm past junk hj hg hdep hda hn hc hc' hD hdata hroom hset hR hstart
  have hs : Speeds R (List.replicate (u + 1) (.update fun _ => true) ++ [.poll, .update fun _ => true]) := by
    intro v hv
    rcases List.mem_append.1 hv with hv | hv
    · cases List.eq_of_mem_replicate hv
    · simp at hv
  obtain ⟨a'', k2, f, p', q', l1, l2, _⟩ := C78_wav_law fp hfp hB hNB a hb hm past junk hj hg hdep hda hn hc hc' hD hdata hroom hset.forward hR hstart hN nullOk hf _ hs
  rw [k1] at k2
  cases k2
  obtain ⟨fxs, fx, q, e1, e2, e3⟩ := streamed_still fp (N := g.N) (B := g.B) hm h.within (by exact_mod_cast g.B_pos) (Int.natCast_nonneg _) fuel u h.playing h.fwd h.header h.frames h.chans h.rate
    hlong hfast
  rw [l2] at e1
  cases e1
  exact ⟨a', k1, fxs, fx, p', l1, e2, e3⟩

example : ∃ a', exNew.playWav flashGeo (some ⟨exHeldWav 2, 0, false⟩) (List.replicate 36 7) = .ok (true, a') ∧
    ∃ fxs fx p', fileTurns Fp.ieee flashGeo true (1 + 1) ⟨a', none⟩ (List.replicate (0 + 1) (.update fun _ => true) ++ [.poll, .update fun _ => true]) = .ok (fxs ++ [fx], p') ∧
      fxs.length = 0 + 1 ∧ fx.transmitted = outputs 2 fun _ => List.replicate 128 0 :=
  C78_wav_refuted Fp.ieee ieee_representable (g := flashGeo) (by decide) (by decide +kernel) (by decide +kernel) exNew (exHeldWav_bytes (n := 2) (by decide +kernel)) (by decide +kernel) false (List.replicate 36 7) (by decide +kernel) (by decide +kernel) (by decide +kernel) (off := 36) ⟨Or.inl ⟨rfl, by decide +kernel⟩, by decide +kernel, by decide +kernel⟩
    (nch := 2) (D := 1024) (by decide +kernel) (by decide +kernel) (by decide +kernel) (by decide +kernel) (by decide +kernel) (by decide +kernel) exNew_settings (by decide +kernel) (by intro h; cases h) true (by decide) 0
    (by rw [show exNew.rd.rate = 1 from rfl, mul_one, Int.floor_natCast]; decide) (by
      intro j hj
      rw [show (startFrame exNew.rd : ℚ) + exNew.rd.rem + (j : ℚ) * exNew.rd.rate = ((j : Int) : ℚ) by simp [startFrame, exNew], Int.floor_intCast]
      exact_mod_cast (by omega : j < 128 * 2))

end TVP
