import Verif.Lemmas.Seeks
import Verif.Props.Faulty

/-!
# Property C88: how a file is read
-/

namespace TVP
open Spec

theorem toNat_ediv_nat {x : Int} (h : 0 ≤ x) (B : Nat) : (x / B).toNat = x.toNat / B := by
  obtain ⟨n, rfl⟩ := Int.eq_ofNat_of_zero_le h
  rw [← Int.natCast_ediv, Int.toNat_natCast, Int.toNat_natCast]

section
variable {m : List Nat} {g : Geo} {fp : Fp} {H F nch R : Int} {a a' : FileReader} {f : Dev} {junk : List Nat} {w : Bool} {n : Int}

theorem InStep.opened_seeks (hN : 1 ≤ g.N) (hNB : (g.N : Int) * g.B ≤ 2 ^ 30) (hm : m.length < 2 ^ 31) (ho : a.playFile g (some f) junk w n = .ok (true, a'))
    (h : InStep m g 0 (FwdAny R H F nch) 0 a' ⟨a'.rd, some (toSamples m)⟩) (hp : a'.rd.playing = true) (hpos : 0 ≤ a'.rd.pos1) (hpos2 : 2 * a'.rd.pos1 ≤ m.length) (rs : List ReadResult) :
    ∃ c S, a.playFileF g (some f) junk w n rs = .ok (true, ⟨a'.rd, some c⟩, rs.drop S.length) ∧ a.playFileSeeks g (some f) junk w n rs = .ok S ∧
      (rs = [] → a'.src = some c) ∧ 1 ≤ S.length ∧ S.length ≤ g.N ∧ S = inOrder (2 * g.B) (a'.rd.pos1 / g.B).toNat S.length ∧
      Ordered g (FwdAny R H F nch) ⟨⟨a'.rd, some c⟩, none⟩ ((a'.rd.pos1 / g.B).toNat + S.length - 1) := by
  have hB0 : (0 : Int) < g.B := by exact_mod_cast g.B_pos
  obtain ⟨hfw, c1, k, L, hc1, hw, _, _⟩ := h.live hp
  obtain ⟨c0, e1, e2, e3, e4⟩ := playFileSeeks_eq ho rs
  have hq0 := Int.ediv_nonneg hpos (le_of_lt hB0)
  have hd : decide (a'.rd.rate ≥ 0) = true := by simpa using hfw.rate0
  rw [hd] at e2 e3 e4
  have hlt : c0.loopType = .none := by
    have := (preLoadLoop_dev (g := g) c0.bufs.length true g.N 0 c0 a'.rd.pos1).2
    rw [← this]
    have h2 := hw.loop
    rw [hc1] at e2
    injection e2 with e2
    rw [e2] at h2; exact h2
  obtain ⟨new, s1, s2, s3, s4, s5⟩ := preLoadLoopF_shape (g := g) g.N c0 a'.rd.pos1 rs hpos (by omega)
  obtain ⟨S, t1, t2, t3, t4, t5, t6⟩ := preLoadLoopF_seeks (g := g) g.N c0 a'.rd.pos1 rs (a'.rd.pos1 / g.B).toNat hpos (by omega) (by rw [Int.toNat_of_nonneg hq0]) hN
    (by rw [e1]; intro b hb; cases hb)
  have hpre : c0.preLoadF g a'.rd.pos1 true rs = preLoadLoopF g 0 true g.N c0.bufs.length c0 a'.rd.pos1 rs := by unfold Cache.preLoadF; rw [e1]; rfl
  have hpre2 : preLoadSeeks g c0.bufs.length true g.N 0 c0 a'.rd.pos1 rs = S := by rw [← t1, e1]; rfl
  rw [hpre] at e3
  rw [hpre2] at e4
  rw [t5] at e3
  rw [e1, List.nil_append] at s1
  refine ⟨_, S, e3, e4, fun hrs => ?_, t2, t3, t4, (h.live hp).1.plain.nch, fun _ => rfl, fun _ => ⟨hfw, _, rfl, by rw [s3, hlt], by rw [e1, s1]; exact s2, fun _ => t6⟩⟩
  rw [e2, ← hpre, hrs, preLoadF_nil]

/-- Any reads. -/
theorem InStep.in_order (hfp : Representable fp) (hN : 1 ≤ g.N) (hNB : (g.N : Int) * g.B ≤ 2 ^ 30) (hm : m.length < 2 ^ 31) (ho : a.playFile g (some f) junk w n = .ok (true, a'))
    (h : InStep m g 0 (FwdAny R H F nch) 0 a' ⟨a'.rd, some (toSamples m)⟩) (hp : a'.rd.playing = true) (hpos : 0 ≤ a'.rd.pos1) (hpos2 : 2 * a'.rd.pos1 ≤ m.length)
    (hH : 0 ≤ H) (hF : 0 ≤ F) (hR2 : R ≤ 2 ^ 30) (hfit : H + nch * (F + R + 1) ≤ 2147483647) (hE : 2 * (H + F * nch) ≤ m.length)
    (nullOk : Bool) {fuel : Nat} (hf : g.N ≤ fuel + 1) (rs : List ReadResult) (ts : List Turn) (hs : Speeds R ts) :
    ∃ a1 S0 S1, a.playFileF g (some f) junk w n rs = .ok (true, a1, rs.drop S0.length) ∧ a.playFileSeeks g (some f) junk w n rs = .ok S0 ∧ a1.rd = a'.rd ∧
      (∃ fxs p', fileTurnsF fp g nullOk (fuel + 1) ⟨a1, none⟩ (rs.drop S0.length) ts = .ok (fxs, p', rs.drop (S0 ++ S1).length)) ∧
      turnsSeeks fp g nullOk (fuel + 1) ⟨a1, none⟩ (rs.drop S0.length) ts = S1 ∧
      (((a'.rd.pos1 / g.B).toNat + (S0 ++ S1).length) * g.B ≤ 2 ^ 31 → S0 ++ S1 = inOrder (2 * g.B) (a'.rd.pos1 / g.B).toNat (S0 ++ S1).length) := by
  have hB0 : 0 < g.B := g.B_pos
  obtain ⟨c, S, e1, e2, _, e3, e4, e5, e6⟩ := h.opened_seeks hN hNB hm ho hp hpos hpos2 rs
  obtain ⟨fxs, p', S1, k1, k2, k3⟩ := Ordered.turns (fp := fp) (by omega : H + F * nch ≤ 2147483647) (FwdAny.glides hfp hR2 hH hF hfit) (fun r v v0 vR hr => hr.speed ⟨v0, vR⟩) nullOk hf ts _ (rs.drop S.length) _ hs e6
  generalize (a'.rd.pos1 / g.B).toNat = k at *
  refine ⟨_, S, S1, e1, e2, rfl, ⟨fxs, p', ?_⟩, k2, fun hsm => ?_⟩
  · rw [k1, List.drop_drop, List.length_append]
  · rw [List.length_append] at hsm ⊢
    have hk : k + S.length - 1 + 1 = k + S.length := by omega
    rw [inOrder_append, ← e5]
    congr 1
    rw [hk] at k3
    refine k3 ?_
    have h2 : k + S.length - 1 + S1.length + 1 = k + (S.length + S1.length) := by omega
    rw [← h2, Nat.add_mul, Nat.one_mul] at hsm
    have h3 : (k + S.length - 1 + S1.length) * g.B ≤ 2147483647 := by omega
    exact_mod_cast h3

/-- Reads that succeed. -/
theorem InStep.frugal (hfp : Representable fp) (hN : 1 ≤ g.N) (hB : g.B < 16384) (hNB : (g.N : Int) * g.B ≤ 2 ^ 29) (hb : IsBytes m) (hm : m.length < 2 ^ 31)
    (ho : a.playFile g (some f) junk w n = .ok (true, a'))
    (h : InStep m g 0 (FwdAny R H F nch) 0 a' ⟨a'.rd, some (toSamples m)⟩) (hp : a'.rd.playing = true) (hpos : 0 ≤ a'.rd.pos1) (hpos2 : 2 * a'.rd.pos1 ≤ m.length)
    (hH : 0 ≤ H) (hF : 0 ≤ F) (hR2 : R ≤ 2 ^ 30) (hfit : H + nch * (F + R + 1) ≤ 2147483647) (hE : 2 * (H + F * nch) ≤ m.length)
    (nullOk : Bool) {fuel : Nat} (hf : g.N ≤ fuel + 1) (ts : List Turn) (hs : Speeds R ts) :
    ∃ S0 S1, a.playFileSeeks g (some f) junk w n [] = .ok S0 ∧ turnsSeeks fp g nullOk (fuel + 1) ⟨a', none⟩ [] ts = S1 ∧
      S0 ++ S1 = inOrder (2 * g.B) (a'.rd.pos1 / g.B).toNat (S0 ++ S1).length ∧
      (a'.rd.pos1 / g.B).toNat + (S0 ++ S1).length ≤ m.length / 2 / g.B + g.N ∧
      ∃ fxs p', fileTurns fp g nullOk (fuel + 1) ⟨a', none⟩ ts = .ok (fxs, p') ∧
        (p'.rdr.rd.playing = true → ((a'.rd.pos1 / g.B).toNat : Int) + (S0 ++ S1).length ≤ p'.rdr.rd.pos1 / g.B + g.N) := by
  have hB0 : (0 : Int) < g.B := by exact_mod_cast g.B_pos
  obtain ⟨c, S, _, e2, e0, e3, e4, e5, e6⟩ := h.opened_seeks hN (by omega) hm ho hp hpos hpos2 []
  have hq0 := Int.ediv_nonneg hpos (le_of_lt hB0)
  have hq1 : a'.rd.pos1 / g.B ≤ ((m.length / 2 : Nat) : Int) / g.B := Int.ediv_le_ediv hB0 (by omega)
  have ha : (⟨a'.rd, some c⟩ : FileReader) = a' := by
    have := e0 rfl
    cases a'; simp only at this ⊢; rw [this]
  rw [ha] at e6
  have hkk : ((a'.rd.pos1 / g.B).toNat : Int) = a'.rd.pos1 / g.B := Int.toNat_of_nonneg hq0
  obtain ⟨fxs, p', S1, k1, k2, k3, k4, k5⟩ := Ordered.frugal (fp := fp) hB hb hm hNB hE (FwdAny.glides hfp hR2 hH hF hfit) (fun r v v0 vR hr => hr.speed ⟨v0, vR⟩) nullOk hf ts ⟨a', none⟩
    ⟨a'.rd, a'.rd.pos1 / g.B, none, none⟩ _ hs (h.late hp) e6 (by omega)
  generalize (a'.rd.pos1 / g.B).toNat = k at *
  have hk : k + S.length - 1 + 1 = k + S.length := by omega
  refine ⟨S, S1, e2, k2, ?_, ?_, fxs, p', k1, fun hpl => ?_⟩
  · rw [List.length_append, inOrder_append, ← e5]
    congr 1
    rw [hk] at k3
    exact k3
  · rw [List.length_append]
    have : ((k + (S.length + S1.length) : Nat) : Int) ≤ ((m.length / 2 / g.B + g.N : Nat) : Int) := by
      push_cast at k4 ⊢
      omega
    exact_mod_cast this
  · have := k5 hpl
    rw [List.length_append]
    push_cast at this ⊢
    omega

end

/-! ## In order -/

/-- **C88** as far as it holds whatever the reads return: a raw file played forward is read in order, block by block from the one it starts in, so no block is read twice
and none is skipped -- however often and late the events are run, at whatever speeds.  (As long as the blocks begin within the first 2^31 samples.) -/
theorem C88_raw_partial (fp : Fp) (hfp : Representable fp) {g : Geo} (hNB : g.N * g.B ≤ 2 ^ 30) (a : FileReader) {m : List Nat}
    (h0 : 0 < m.length) (hm : m.length < 2 ^ 31) (past : Bool) {nch : Nat} (hc : 1 ≤ nch) (hc' : nch ≤ 32767) {R : Int}
    (hset : ForwardSettings a.rd R) (hhead : a.rd.header = 0) (hR : nch * (R + 1) ≤ 2 ^ 30)
    (hstart : a.rd.playStart = .arbitrary → 0 ≤ a.rd.playbackStart ∧ a.rd.playbackStart ≤ (m.length / 2 / nch : Nat))
    (hN : 1 ≤ g.N) (nullOk : Bool) {fuel : Nat} (hf : g.N ≤ fuel + 1) (rs : List ReadResult) (ts : List Turn) (hs : Speeds R ts) :
    ∃ a' S0 S1, a.playRawF g (some ⟨m, 0, past⟩) nch rs = .ok (true, a', rs.drop S0.length) ∧ a.playRawSeeks g (some ⟨m, 0, past⟩) nch rs = .ok S0 ∧
      (∃ fxs p', fileTurnsF fp g nullOk (fuel + 1) ⟨a', none⟩ (rs.drop S0.length) ts = .ok (fxs, p', rs.drop (S0 ++ S1).length)) ∧
      turnsSeeks fp g nullOk (fuel + 1) ⟨a', none⟩ (rs.drop S0.length) ts = S1 ∧
      (((startFrame a.rd * nch).toNat / g.B + (S0 ++ S1).length) * g.B ≤ 2 ^ 31 → S0 ++ S1 = inOrder (2 * g.B) ((startFrame a.rd * nch).toNat / g.B) (S0 ++ S1).length) := by
  have hNB' : (g.N : Int) * g.B ≤ 2 ^ 30 := by exact_mod_cast hNB
  have hmul : ((m.length / 2 / nch : Nat) : Int) * nch ≤ (m.length / 2 : Nat) := by exact_mod_cast Nat.div_mul_le_self _ _
  have hE : 2 * ((0 : Int) + (m.length / 2 / nch : Nat) * nch) ≤ m.length := by omega
  have hfit : (0 : Int) + (nch : Int) * ((m.length / 2 / nch : Nat) + R + 1) ≤ 2147483647 := by
    have e1 : (nch : Int) * ((m.length / 2 / nch : Nat) + R + 1) = (m.length / 2 / nch : Nat) * nch + nch * (R + 1) := by ring
    rw [e1]; omega
  have hs01 : 0 ≤ startFrame a.rd ∧ startFrame a.rd ≤ (m.length / 2 / nch : Nat) := by
    unfold startFrame; split
    · rename_i e; exact hstart e
    · exact ⟨le_refl _, Int.natCast_nonneg _⟩
  have hmul2 : startFrame a.rd * nch ≤ (m.length / 2 / nch : Nat) * nch := mul_le_mul_of_nonneg_right hs01.2 (Int.natCast_nonneg _)
  have hmul3 : 0 ≤ startFrame a.rd * nch := mul_nonneg hs01.1 (Int.natCast_nonneg _)
  obtain ⟨a0, k1, k2, _, _, k4, k3⟩ := raw_start (g := g) (mm := 0) hN hNB a h0 hm past hc hc' hset hhead hstart (le_refl _) (by omega)
  rw [zero_add] at k4
  have hk : (a0.rd.pos1 / g.B).toNat = (startFrame a.rd * nch).toNat / g.B := by rw [k4, toNat_ediv_nat hmul3]
  obtain ⟨a1, S0, S1, e1, e2, _, e3, e4, e5⟩ := k3.in_order hfp hN hNB' hm k1 k2 (by omega) (by omega) (le_refl _) (Int.natCast_nonneg _) (speed_small hc hR) hfit hE nullOk hf rs ts hs
  rw [hk] at e5
  exact ⟨a1, S0, S1, e1, e2, e3, e4, e5⟩

example : ∃ a' S0 S1, exNew.playRawF sdGeo (some ⟨exHeld, 0, false⟩) (1 : Nat) [.error [] 0, .short 5] = .ok (true, a', [ReadResult.error [] 0, .short 5].drop S0.length) ∧
    exNew.playRawSeeks sdGeo (some ⟨exHeld, 0, false⟩) (1 : Nat) [.error [] 0, .short 5] = .ok S0 ∧
    (∃ fxs p', fileTurnsF Fp.ieee sdGeo true (6 + 1) ⟨a', none⟩ ([ReadResult.error [] 0, .short 5].drop S0.length) exTurns = .ok (fxs, p', [ReadResult.error [] 0, .short 5].drop (S0 ++ S1).length)) ∧
    turnsSeeks Fp.ieee sdGeo true (6 + 1) ⟨a', none⟩ ([ReadResult.error [] 0, .short 5].drop S0.length) exTurns = S1 ∧
    (((startFrame exNew.rd * (1 : Nat)).toNat / sdGeo.B + (S0 ++ S1).length) * sdGeo.B ≤ 2 ^ 31 →
      S0 ++ S1 = inOrder (2 * sdGeo.B) ((startFrame exNew.rd * (1 : Nat)).toNat / sdGeo.B) (S0 ++ S1).length) :=
  C88_raw_partial Fp.ieee ieee_representable (g := sdGeo) (by decide +kernel) exNew (by decide +kernel) (by decide +kernel) false (nch := 1) (by decide +kernel) (by decide +kernel) exNew_settings.forward rfl (by decide +kernel) (by intro h; cases h)
    (by decide) true (by decide) _ exTurns exTurns_speeds

/-- The same for WAV files, after the header. -/
theorem C88_wav_partial (fp : Fp) (hfp : Representable fp) {g : Geo} (hNB : g.N * g.B ≤ 2 ^ 30) (a : FileReader) {m : List Nat}
    (hb : IsBytes m) (hm : m.length < 2 ^ 31) (past : Bool) (junk : List Nat) (hj : junk.length = 36) (hg : GoodHeader m)
    (hdep : leVal (slice m 34 2) = 16) {off : Nat} (hda : DataAt m off) {nch D : Nat} (hn : leVal (slice m 22 2) = nch) (hc : 1 ≤ nch) (hc' : nch ≤ 32767)
    (hD : leVal (slice m (off + 4) 4) = D) (hdata : off + 8 + D ≤ m.length) (hroom : off + 8 < m.length) {R : Int}
    (hset : ForwardSettings a.rd R) (hR : nch * (R + 1) ≤ 2 ^ 30)
    (hstart : a.rd.playStart = .arbitrary → 0 ≤ a.rd.playbackStart ∧ a.rd.playbackStart ≤ (D / 2 / nch : Nat))
    (hN : 1 ≤ g.N) (nullOk : Bool) {fuel : Nat} (hf : g.N ≤ fuel + 1) (rs : List ReadResult) (ts : List Turn) (hs : Speeds R ts) :
    ∃ a' S0 S1, a.playWavF g (some ⟨m, 0, past⟩) junk rs = .ok (true, a', rs.drop S0.length) ∧ a.playWavSeeks g (some ⟨m, 0, past⟩) junk rs = .ok S0 ∧
      (∃ fxs p', fileTurnsF fp g nullOk (fuel + 1) ⟨a', none⟩ (rs.drop S0.length) ts = .ok (fxs, p', rs.drop (S0 ++ S1).length)) ∧
      turnsSeeks fp g nullOk (fuel + 1) ⟨a', none⟩ (rs.drop S0.length) ts = S1 ∧
      ((((off + 8) / 2 + (startFrame a.rd * nch).toNat) / g.B + (S0 ++ S1).length) * g.B ≤ 2 ^ 31 →
        S0 ++ S1 = inOrder (2 * g.B) (((off + 8) / 2 + (startFrame a.rd * nch).toNat) / g.B) (S0 ++ S1).length) := by
  have hNB' : (g.N : Int) * g.B ≤ 2 ^ 30 := by exact_mod_cast hNB
  have hmul : ((D / 2 / nch : Nat) : Int) * nch ≤ (D / 2 : Nat) := by exact_mod_cast Nat.div_mul_le_self _ _
  have hE : 2 * ((((off + 8) / 2 : Nat) : Int) + (D / 2 / nch : Nat) * nch) ≤ m.length := by clear hn hD hdep; omega
  have hfit : (((off + 8) / 2 : Nat) : Int) + (nch : Int) * ((D / 2 / nch : Nat) + R + 1) ≤ 2147483647 := by
    have e1 : (nch : Int) * ((D / 2 / nch : Nat) + R + 1) = (D / 2 / nch : Nat) * nch + nch * (R + 1) := by ring
    rw [e1]; clear hn hD hdep; omega
  have hs01 : 0 ≤ startFrame a.rd ∧ startFrame a.rd ≤ (D / 2 / nch : Nat) := by
    unfold startFrame; split
    · rename_i e; exact hstart e
    · exact ⟨le_refl _, Int.natCast_nonneg _⟩
  have hmul2 : startFrame a.rd * nch ≤ (D / 2 / nch : Nat) * nch := mul_le_mul_of_nonneg_right hs01.2 (Int.natCast_nonneg _)
  have hmul3 : 0 ≤ startFrame a.rd * nch := mul_nonneg hs01.1 (Int.natCast_nonneg _)
  obtain ⟨a0, k1, k2, _, _, _, _, _, k4, k3⟩ := wav_start (g := g) (mm := 0) hN hNB a hb hm past junk hj hg hdep hda hn hc hc' hD hdata hroom hset hstart
    (le_refl _) (by omega)
  clear hn hD hdep hda hg
  have hk : (a0.rd.pos1 / g.B).toNat = ((off + 8) / 2 + (startFrame a.rd * nch).toNat) / g.B := by
    rw [k4, toNat_ediv_nat (by omega), Int.toNat_add (Int.natCast_nonneg _) hmul3, Int.toNat_natCast]
  obtain ⟨a1, S0, S1, e1, e2, _, e3, e4, e5⟩ := k3.in_order hfp hN hNB' hm k1 k2 (by omega) (by omega) (Int.natCast_nonneg _) (Int.natCast_nonneg _) (speed_small hc hR) hfit hE nullOk hf rs ts hs
  rw [hk] at e5
  exact ⟨a1, S0, S1, e1, e2, e3, e4, e5⟩

example : ∃ a' S0 S1, exNew.playWavF sdGeo (some ⟨exHeldWav 2, 0, false⟩) (List.replicate 36 7) [.error [] 0] = .ok (true, a', [ReadResult.error [] 0].drop S0.length) ∧
    exNew.playWavSeeks sdGeo (some ⟨exHeldWav 2, 0, false⟩) (List.replicate 36 7) [.error [] 0] = .ok S0 ∧
    (∃ fxs p', fileTurnsF Fp.ieee sdGeo true (6 + 1) ⟨a', none⟩ ([ReadResult.error [] 0].drop S0.length) exTurns = .ok (fxs, p', [ReadResult.error [] 0].drop (S0 ++ S1).length)) ∧
    turnsSeeks Fp.ieee sdGeo true (6 + 1) ⟨a', none⟩ ([ReadResult.error [] 0].drop S0.length) exTurns = S1 ∧
    ((((36 + 8) / 2 + (startFrame exNew.rd * (2 : Nat)).toNat) / sdGeo.B + (S0 ++ S1).length) * sdGeo.B ≤ 2 ^ 31 →
      S0 ++ S1 = inOrder (2 * sdGeo.B) (((36 + 8) / 2 + (startFrame exNew.rd * (2 : Nat)).toNat) / sdGeo.B) (S0 ++ S1).length) :=
  C88_wav_partial Fp.ieee ieee_representable (g := sdGeo) (by decide +kernel) exNew (exHeldWav_bytes (n := 2) (by decide +kernel)) (by decide +kernel) false (List.replicate 36 7) (by decide +kernel) (by decide +kernel) (by decide +kernel) (off := 36) ⟨Or.inl ⟨rfl, by decide +kernel⟩, by decide +kernel, by decide +kernel⟩
    (nch := 2) (D := 1024) (by decide +kernel) (by decide +kernel) (by decide +kernel) (by decide +kernel) (by decide +kernel) (by decide +kernel) exNew_settings.forward (by decide +kernel) (by intro h; cases h)
    (by decide) true (by decide) _ exTurns exTurns_speeds

/-! ## No more than needed -/

/-- **C88** if reads succeed: at any moment of playing a raw file forward no more blocks have been read than those up to the one that is played, and the `N` buffers from there on
-- the last block read is less than `N` blocks after the one of the position --, and never more than the file has and `N`. -/
theorem C88_raw_ahead_partial (fp : Fp) (hfp : Representable fp) {g : Geo} (hB : g.B < 16384) (hNB : g.N * g.B ≤ 2 ^ 29) (a : FileReader) {m : List Nat}
    (hb : IsBytes m) (h0 : 0 < m.length) (hm : m.length < 2 ^ 31) (past : Bool) {nch : Nat} (hc : 1 ≤ nch) (hc' : nch ≤ 32767) {R : Int}
    (hset : ForwardSettings a.rd R) (hhead : a.rd.header = 0) (hR : nch * (R + 1) ≤ 2 ^ 30)
    (hstart : a.rd.playStart = .arbitrary → 0 ≤ a.rd.playbackStart ∧ a.rd.playbackStart ≤ (m.length / 2 / nch : Nat))
    (hN : 1 ≤ g.N) (nullOk : Bool) {fuel : Nat} (hf : g.N ≤ fuel + 1) (ts : List Turn) (hs : Speeds R ts) :
    ∃ a' S0 S1 n, a.playRaw g (some ⟨m, 0, past⟩) nch = .ok (true, a') ∧ a.playRawSeeks g (some ⟨m, 0, past⟩) nch [] = .ok S0 ∧
      turnsSeeks fp g nullOk (fuel + 1) ⟨a', none⟩ [] ts = S1 ∧ S0 ++ S1 = inOrder (2 * g.B) ((startFrame a.rd * nch).toNat / g.B) n ∧
      (startFrame a.rd * nch).toNat / g.B + n ≤ m.length / 2 / g.B + g.N ∧
      ∃ fxs p', fileTurns fp g nullOk (fuel + 1) ⟨a', none⟩ ts = .ok (fxs, p') ∧
        (p'.rdr.rd.playing = true → (((startFrame a.rd * nch).toNat / g.B + n : Nat) : Int) ≤ p'.rdr.rd.pos1 / g.B + g.N) := by
  have hNB' : (g.N : Int) * g.B ≤ 2 ^ 29 := by exact_mod_cast hNB
  have hmul : ((m.length / 2 / nch : Nat) : Int) * nch ≤ (m.length / 2 : Nat) := by exact_mod_cast Nat.div_mul_le_self _ _
  have hE : 2 * ((0 : Int) + (m.length / 2 / nch : Nat) * nch) ≤ m.length := by omega
  have hfit : (0 : Int) + (nch : Int) * ((m.length / 2 / nch : Nat) + R + 1) ≤ 2147483647 := by
    have e1 : (nch : Int) * ((m.length / 2 / nch : Nat) + R + 1) = (m.length / 2 / nch : Nat) * nch + nch * (R + 1) := by ring
    rw [e1]; omega
  have hs01 : 0 ≤ startFrame a.rd ∧ startFrame a.rd ≤ (m.length / 2 / nch : Nat) := by
    unfold startFrame; split
    · rename_i e; exact hstart e
    · exact ⟨le_refl _, Int.natCast_nonneg _⟩
  have hmul2 : startFrame a.rd * nch ≤ (m.length / 2 / nch : Nat) * nch := mul_le_mul_of_nonneg_right hs01.2 (Int.natCast_nonneg _)
  have hmul3 : 0 ≤ startFrame a.rd * nch := mul_nonneg hs01.1 (Int.natCast_nonneg _)
  obtain ⟨a0, k1, k2, _, _, k4, k3⟩ := raw_start (g := g) (mm := 0) hN (by omega) a h0 hm past hc hc' hset hhead hstart (le_refl _) (by omega)
  rw [zero_add] at k4
  have hk : (a0.rd.pos1 / g.B).toNat = (startFrame a.rd * nch).toNat / g.B := by rw [k4, toNat_ediv_nat hmul3]
  obtain ⟨S0, S1, e1, e2, e3, e4, fxs, p', e5, e6⟩ := k3.frugal hfp hN hB hNB' hb hm k1 k2 (by omega) (by omega) (le_refl _) (Int.natCast_nonneg _) (speed_small hc hR) hfit hE nullOk hf ts hs
  rw [hk] at e3 e4 e6
  exact ⟨a0, S0, S1, _, k1, e1, e2, e3, e4, fxs, p', e5, fun h => by rw [Nat.cast_add]; exact e6 h⟩

example : ∃ a' S0 S1 n, exNew.playRaw sdGeo (some ⟨exHeld, 0, false⟩) (1 : Nat) = .ok (true, a') ∧ exNew.playRawSeeks sdGeo (some ⟨exHeld, 0, false⟩) (1 : Nat) [] = .ok S0 ∧
    turnsSeeks Fp.ieee sdGeo true (6 + 1) ⟨a', none⟩ [] exTurns = S1 ∧ S0 ++ S1 = inOrder (2 * sdGeo.B) ((startFrame exNew.rd * (1 : Nat)).toNat / sdGeo.B) n ∧
    (startFrame exNew.rd * (1 : Nat)).toNat / sdGeo.B + n ≤ exHeld.length / 2 / sdGeo.B + sdGeo.N ∧
    ∃ fxs p', fileTurns Fp.ieee sdGeo true (6 + 1) ⟨a', none⟩ exTurns = .ok (fxs, p') ∧
      (p'.rdr.rd.playing = true → (((startFrame exNew.rd * (1 : Nat)).toNat / sdGeo.B + n : Nat) : Int) ≤ p'.rdr.rd.pos1 / sdGeo.B + sdGeo.N) :=
  C88_raw_ahead_partial Fp.ieee ieee_representable (g := sdGeo) (by decide +kernel) (by decide +kernel) exNew exHeld_bytes (by decide +kernel) (by decide +kernel) false (nch := 1) (by decide +kernel) (by decide +kernel) exNew_settings.forward rfl (by decide +kernel) (by intro h; cases h)
    (by decide) true (by decide) exTurns exTurns_speeds

/-- The same for WAV files. -/
theorem C88_wav_ahead_partial (fp : Fp) (hfp : Representable fp) {g : Geo} (hB : g.B < 16384) (hNB : g.N * g.B ≤ 2 ^ 29) (a : FileReader) {m : List Nat}
    (hb : IsBytes m) (hm : m.length < 2 ^ 31) (past : Bool) (junk : List Nat) (hj : junk.length = 36) (hg : GoodHeader m)
    (hdep : leVal (slice m 34 2) = 16) {off : Nat} (hda : DataAt m off) {nch D : Nat} (hn : leVal (slice m 22 2) = nch) (hc : 1 ≤ nch) (hc' : nch ≤ 32767)
    (hD : leVal (slice m (off + 4) 4) = D) (hdata : off + 8 + D ≤ m.length) (hroom : off + 8 < m.length) {R : Int}
    (hset : ForwardSettings a.rd R) (hR : nch * (R + 1) ≤ 2 ^ 30)
    (hstart : a.rd.playStart = .arbitrary → 0 ≤ a.rd.playbackStart ∧ a.rd.playbackStart ≤ (D / 2 / nch : Nat))
    (hN : 1 ≤ g.N) (nullOk : Bool) {fuel : Nat} (hf : g.N ≤ fuel + 1) (ts : List Turn) (hs : Speeds R ts) :
    ∃ a' S0 S1 n, a.playWav g (some ⟨m, 0, past⟩) junk = .ok (true, a') ∧ a.playWavSeeks g (some ⟨m, 0, past⟩) junk [] = .ok S0 ∧
      turnsSeeks fp g nullOk (fuel + 1) ⟨a', none⟩ [] ts = S1 ∧ S0 ++ S1 = inOrder (2 * g.B) (((off + 8) / 2 + (startFrame a.rd * nch).toNat) / g.B) n ∧
      ((off + 8) / 2 + (startFrame a.rd * nch).toNat) / g.B + n ≤ m.length / 2 / g.B + g.N ∧
      ∃ fxs p', fileTurns fp g nullOk (fuel + 1) ⟨a', none⟩ ts = .ok (fxs, p') ∧
        (p'.rdr.rd.playing = true → ((((off + 8) / 2 + (startFrame a.rd * nch).toNat) / g.B + n : Nat) : Int) ≤ p'.rdr.rd.pos1 / g.B + g.N) := by
  have hNB' : (g.N : Int) * g.B ≤ 2 ^ 29 := by exact_mod_cast hNB
  have hmul : ((D / 2 / nch : Nat) : Int) * nch ≤ (D / 2 : Nat) := by exact_mod_cast Nat.div_mul_le_self _ _
  have hE : 2 * ((((off + 8) / 2 : Nat) : Int) + (D / 2 / nch : Nat) * nch) ≤ m.length := by clear hn hD hdep; omega
  have hfit : (((off + 8) / 2 : Nat) : Int) + (nch : Int) * ((D / 2 / nch : Nat) + R + 1) ≤ 2147483647 := by
    have e1 : (nch : Int) * ((D / 2 / nch : Nat) + R + 1) = (D / 2 / nch : Nat) * nch + nch * (R + 1) := by ring
    rw [e1]; clear hn hD hdep; omega
  have hs01 : 0 ≤ startFrame a.rd ∧ startFrame a.rd ≤ (D / 2 / nch : Nat) := by
    unfold startFrame; split
    · rename_i e; exact hstart e
    · exact ⟨le_refl _, Int.natCast_nonneg _⟩
  have hmul2 : startFrame a.rd * nch ≤ (D / 2 / nch : Nat) * nch := mul_le_mul_of_nonneg_right hs01.2 (Int.natCast_nonneg _)
  have hmul3 : 0 ≤ startFrame a.rd * nch := mul_nonneg hs01.1 (Int.natCast_nonneg _)
  obtain ⟨a0, k1, k2, _, _, _, _, _, k4, k3⟩ := wav_start (g := g) (mm := 0) hN (by omega) a hb hm past junk hj hg hdep hda hn hc hc' hD hdata hroom hset hstart
    (le_refl _) (by omega)
  clear hn hD hdep hda hg
  have hk : (a0.rd.pos1 / g.B).toNat = ((off + 8) / 2 + (startFrame a.rd * nch).toNat) / g.B := by
    rw [k4, toNat_ediv_nat (by omega), Int.toNat_add (Int.natCast_nonneg _) hmul3, Int.toNat_natCast]
  obtain ⟨S0, S1, e1, e2, e3, e4, fxs, p', e5, e6⟩ := k3.frugal hfp hN hB hNB' hb hm k1 k2 (by omega) (by omega) (Int.natCast_nonneg _) (Int.natCast_nonneg _) (speed_small hc hR) hfit hE nullOk hf ts hs
  rw [hk] at e3 e4 e6
  exact ⟨a0, S0, S1, _, k1, e1, e2, e3, e4, fxs, p', e5, fun h => by rw [Nat.cast_add]; exact e6 h⟩

example : ∃ a' S0 S1 n, exNew.playWav sdGeo (some ⟨exHeldWav 2, 0, false⟩) (List.replicate 36 7) = .ok (true, a') ∧ exNew.playWavSeeks sdGeo (some ⟨exHeldWav 2, 0, false⟩) (List.replicate 36 7) [] = .ok S0 ∧
    turnsSeeks Fp.ieee sdGeo true (6 + 1) ⟨a', none⟩ [] exTurns = S1 ∧ S0 ++ S1 = inOrder (2 * sdGeo.B) (((36 + 8) / 2 + (startFrame exNew.rd * (2 : Nat)).toNat) / sdGeo.B) n ∧
    ((36 + 8) / 2 + (startFrame exNew.rd * (2 : Nat)).toNat) / sdGeo.B + n ≤ (exHeldWav 2).length / 2 / sdGeo.B + sdGeo.N ∧
    ∃ fxs p', fileTurns Fp.ieee sdGeo true (6 + 1) ⟨a', none⟩ exTurns = .ok (fxs, p') ∧
      (p'.rdr.rd.playing = true → ((((36 + 8) / 2 + (startFrame exNew.rd * (2 : Nat)).toNat) / sdGeo.B + n : Nat) : Int) ≤ p'.rdr.rd.pos1 / sdGeo.B + sdGeo.N) :=
  C88_wav_ahead_partial Fp.ieee ieee_representable (g := sdGeo) (by decide +kernel) (by decide +kernel) exNew (exHeldWav_bytes (n := 2) (by decide +kernel)) (by decide +kernel) false (List.replicate 36 7) (by decide +kernel) (by decide +kernel) (by decide +kernel) (off := 36) ⟨Or.inl ⟨rfl, by decide +kernel⟩, by decide +kernel, by decide +kernel⟩
    (nch := 2) (D := 1024) (by decide +kernel) (by decide +kernel) (by decide +kernel) (by decide +kernel) (by decide +kernel) (by decide +kernel) exNew_settings.forward (by decide +kernel) (by intro h; cases h)
    (by decide) true (by decide) exTurns exTurns_speeds

/-! ## A read that fails -/

/-- Two buffers of 512 samples. -/
def exTwoGeo : Geo := ⟨9, 2, fun _ => []⟩

/-- **C88** fails if a read fails: the buffers run away from what is played, and blocks are read that nobody waits for.  Here the first read of a file of 512 samples fails;
after one update, 128 samples on, four blocks were read, in place of the two there are buffers for, three of them after the end of the file. -/
theorem C88_refuted : ¬ ∀ (g : Geo) (a : FileReader) (m : List Nat) (rs : List ReadResult) (ts : List Turn) (a' : FileReader) (rs' : List ReadResult) (S : List Nat) (fxs : List Fx)
    (p' : FilePlayer) (rs'' : List ReadResult), g.B < 16384 → 1 ≤ g.N → IsBytes m → 0 < m.length → m.length < 2 ^ 31 → ForwardSettings a.rd 1 → a.rd.header = 0 → startFrame a.rd = 0 → Speeds 1 ts →
    a.playRawF g (some ⟨m, 0, false⟩) 1 rs = .ok (true, a', rs') → a.playRawSeeks g (some ⟨m, 0, false⟩) 1 rs = .ok S →
    fileTurnsF Fp.ideal g true g.N ⟨a', none⟩ rs' ts = .ok (fxs, p', rs'') → p'.rdr.rd.playing = true →
    ((S ++ turnsSeeks Fp.ideal g true g.N ⟨a', none⟩ rs' ts).length : Int) ≤ p'.rdr.rd.pos1 / g.B + g.N := by
  intro h
  have hx : (do let x ← exNew.playRawF exTwoGeo (some ⟨exHeld, 0, false⟩) 1 [.error [] 0]
                let S ← exNew.playRawSeeks exTwoGeo (some ⟨exHeld, 0, false⟩) 1 [.error [] 0]
                let y ← fileTurnsF Fp.ideal exTwoGeo true exTwoGeo.N ⟨x.2.1, none⟩ x.2.2 [.update fun _ => true, .poll]
                pure (x.1, S ++ turnsSeeks Fp.ideal exTwoGeo true exTwoGeo.N ⟨x.2.1, none⟩ x.2.2 [.update fun _ => true, .poll], y.2.1.rdr.rd.playing, y.2.1.rdr.rd.pos1)) =
      (.ok (true, [0, 1024, 2048, 3072], true, 128) : M (Bool × List Nat × Bool × Int)) := by decide +kernel
  obtain ⟨⟨ok, a', rs'⟩, e1, hx⟩ := bind_ok_iff.1 hx
  obtain ⟨S, e2, hx⟩ := bind_ok_iff.1 hx
  obtain ⟨⟨fxs, p', rs''⟩, e3, hx⟩ := bind_ok_iff.1 hx
  simp only [pure_eq_ok, Except.ok.injEq, Prod.mk.injEq] at hx
  obtain ⟨rfl, hS, hp, hq⟩ := hx
  have := h exTwoGeo exNew exHeld [.error [] 0] [.update fun _ => true, .poll] a' rs' S fxs p' rs'' (by decide +kernel) (by decide) exHeld_bytes (by decide +kernel) (by decide +kernel)
    exNew_settings.forward rfl rfl (by intro v hv; simp at hv) e1 e2 e3 hp
  rw [hS, hq] at this
  exact absurd this (by decide +kernel)

end TVP
