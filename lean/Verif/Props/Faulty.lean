import Verif.Props.Late
import Verif.Lemmas.Faulty

/-!
# Property C79: reads that fail
-/

namespace TVP
open Spec

/-! ## The cache -/

/-- One operation on the cache of an open file, the reads to come returning `rs`. -/
def CacheOp.runF (g : Geo) (c : Cache) (rs : List ReadResult) : CacheOp → M (Cache × List ReadResult)
  | .get i => .ok ((c.get g i).2, rs)
  | .preLoad i fw => .ok (c.preLoadF g (i32 i) fw rs)
  | .reload fuel rate => c.triggerReloadF g fuel rate rs
  | .loopType t => .ok (c.setLoopType t, rs)
  | .loopStart l => .ok (c.setLoopStart g l, rs)
  | .loopFinish l => .ok (c.setLoopFinish g l, rs)

/-- A sequence of operations. -/
def runCacheOpsF (g : Geo) : Cache → List ReadResult → List CacheOp → M (Cache × List ReadResult)
  | c, rs, [] => .ok (c, rs)
  | c, rs, o :: os => do
    let x ← o.runF g c rs
    runCacheOpsF g x.1 x.2 os

theorem runCacheOpsF_ok {m : List Nat} {g : Geo} (hm : m.length < 4294967296) : ∀ (os : List CacheOp) (c : Cache) (rs : List ReadResult) (x : Cache × List ReadResult),
    CacheOk m g c → AllOrNothing rs → runCacheOpsF g c rs os = .ok x → CacheOk m g x.1
  | [], c, rs, x, h, _, e => by cases e; exact h
  | o :: os, c, rs, x, h, hrs, e => by
    unfold runCacheOpsF at e
    obtain ⟨y, hy, e⟩ := bind_ok_iff.1 e
    have key : CacheOk m g y.1 ∧ AllOrNothing y.2 := by
      cases o with
      | get i => cases hy; exact ⟨h.get i, hrs⟩
      | preLoad i fw => cases hy; exact preLoadLoopF_ok hm _ _ _ _ _ _ _ h (i32_in _) hrs
      | reload fuel rate => exact triggerReloadF_ok hm h hrs hy
      | loopType t => cases hy; exact ⟨⟨h.dev, h.bufs⟩, hrs⟩
      | loopStart t => cases hy; exact ⟨⟨h.dev, h.bufs⟩, hrs⟩
      | loopFinish t => cases hy; exact ⟨⟨h.dev, h.bufs⟩, hrs⟩
    exact runCacheOpsF_ok hm os y.1 y.2 x key.1 key.2 e

/-- **C79** for the cache, in any direction and with any loop: if each read delivers its block or nothing, a sample served is the file's own or silent. -/
theorem C79_own_samples (g : Geo) {m : List Nat} (hb : IsBytes m) (hm : m.length < 2 ^ 32) (cur : Nat) (past : Bool) (ops : List CacheOp)
    (rs : List ReadResult) (hrs : AllOrNothing rs) {x : Cache × List ReadResult} (h : runCacheOpsF g { dev := ⟨m, cur, past⟩ } rs ops = .ok x) {i : Int} (hi : InFile m i) :
    (x.1.get g i).1 = fileSample m i.toNat ∨ (x.1.get g i).1 = 0 := by
  have hok := runCacheOpsF_ok (g := g) (by omega) ops _ rs x ⟨rfl, fun _ h => (by cases h)⟩ hrs h
  have hsv := hok.serves hb (by omega) hi
  by_cases hbuf : Buffered g x.1 i
  · exact Or.inl (hsv.1 hbuf).1
  · exact Or.inr (hsv.2 hbuf).1

/-- The second of two blocks cannot be read: its samples are silent, those of the first and the third are there. -/
example : (runCacheOpsF exGeo { dev := ⟨exBytes, 0, false⟩ } [.all, .error [9, 9, 9, 9, 9, 9, 9, 9] 3] [.preLoad 0 true]).map
      (fun x => ([3, 4, 7].map fun i => (x.1.get exGeo i).1)) = .ok [4, 0, 0] ∧
    (runCacheOpsF exGeo { dev := ⟨exBytes, 0, false⟩ } [.all, .error [9, 9, 9, 9, 9, 9, 9, 9] 3] [.preLoad 0 true, .get 3, .get 4, .get 3, .reload 9 1, .get 4, .reload 9 1]).map
      (fun x => ([4, 7, 8, 9].map fun i => (x.1.get exGeo i).1)) = .ok [0, 0, 9, 266] := by decide +kernel

example : AllOrNothing [.all, .error [9, 9, 9, 9, 9, 9, 9, 9] 3] := by
  intro n h
  simp at h

/-- **C79** fails if a read delivers a part of its block: the rest is taken from the block that was in the buffer before.  Here one sample of the third block is
read, and sample 9 is heard as sample 1 was. -/
theorem C79_short_refuted : ¬ ∀ (g : Geo) (m : List Nat), IsBytes m → m.length < 2 ^ 32 → ∀ (ops : List CacheOp) (rs : List ReadResult) (x : Cache × List ReadResult),
    runCacheOpsF g { dev := ⟨m, 0, false⟩ } rs ops = .ok x → ∀ i, InFile m i → (x.1.get g i).1 = fileSample m i.toNat ∨ (x.1.get g i).1 = 0 := by
  intro h
  have hx : (runCacheOpsF exGeo { dev := ⟨exBytes, 0, false⟩ } [.all, .all, .short 2] [.preLoad 0 true, .get 5, .reload 9 1]).map (fun x => (x.1.get exGeo 9).1) = .ok 2 := by decide +kernel
  cases hr : runCacheOpsF exGeo { dev := ⟨exBytes, 0, false⟩ } [.all, .all, .short 2] [.preLoad 0 true, .get 5, .reload 9 1] with
  | error e => rw [hr] at hx; cases hx
  | ok x =>
    rw [hr] at hx
    have hx' : (x.1.get exGeo 9).1 = 2 := by injection hx
    have := h exGeo exBytes (by unfold IsBytes; decide +kernel) (by decide +kernel) _ _ x hr 9 ⟨by decide, by decide +kernel⟩
    rw [hx', show fileSample exBytes (9 : Int).toNat = 266 by decide +kernel] at this
    omega

/-! ## Players -/

section
variable {m : List Nat} {g : Geo} {fp : Fp} {H F nch R : Int} {a a' : FileReader} {f : Dev} {junk : List Nat} {w : Bool} {n : Int}

theorem room_of {B p D : Int} (h : p % B + 2 * D < B) : p + 2 * D < (p / B + 1) * B := by
  have := Int.emod_add_mul_ediv p B
  rw [add_mul, one_mul, mul_comm (p / B)]; omega

theorem lost_start {B N p L : Int} {T : Nat} (hB : 0 < B) (hL : p ≤ L) (hT : L + (T + 1) * N * B ≤ 2147483647) : (p / B + N + T * N) * B ≤ 2147483647 := by
  have h1 := Int.ediv_mul_le p (show B ≠ 0 by omega)
  have h2 : (p / B + N + T * N) * B = p / B * B + (T + 1) * N * B := by ring
  rw [h2]; omega

/-- Opening a file some of whose reads fail. -/
theorem InStep.opened_faulty (hNB : (g.N : Int) * g.B ≤ 2 ^ 30) (hm : m.length < 2 ^ 31) (ho : a.playFile g (some f) junk w n = .ok (true, a'))
    (h : InStep m g 0 (FwdAny R H F nch) 0 a' ⟨a'.rd, some (toSamples m)⟩) (hp : a'.rd.playing = true) (hpos : 0 ≤ a'.rd.pos1) (hpos2 : 2 * a'.rd.pos1 ≤ m.length) (rs : List ReadResult) :
    ∃ c rs', a.playFileF g (some f) junk w n rs = .ok (true, ⟨a'.rd, some c⟩, rs') ∧ c.loopType = .none ∧ c.bufs.length ≤ g.N ∧
      (AllOrNothing rs → CacheOk m g c ∧ AllOrNothing rs') ∧
      (∀ D X : Int, 0 ≤ D → a'.rd.pos1 / g.B + g.N ≤ X → a'.rd.pos1 + 2 * D < (a'.rd.pos1 / g.B + 1) * g.B → rs.headD .all ≠ .all → (∀ n, rs.headD .all = .short n → n = 0) → 1 ≤ g.N →
        RunsAhead g D a'.rd.pos1 X c) := by
  have hB0 : (0 : Int) < g.B := by exact_mod_cast g.B_pos
  obtain ⟨hfw, c1, k, L, hc1, hw, _, _⟩ := h.live hp
  obtain ⟨c0, e1, e2, e3⟩ := playFileF_eq ho rs
  rw [hc1] at e2
  injection e2 with e2
  have hd : decide (a'.rd.rate ≥ 0) = true := by simpa using hfw.rate0
  rw [hd] at e2 e3
  have hdev : c0.dev.bytes = m := by
    have := (preLoadLoop_dev (g := g) c0.bufs.length true g.N 0 c0 a'.rd.pos1).1
    rw [← this]
    have h2 := hw.reached.ok.dev
    rw [e2] at h2; exact h2
  have hlt : c0.loopType = .none := by
    have := (preLoadLoop_dev (g := g) c0.bufs.length true g.N 0 c0 a'.rd.pos1).2
    rw [← this]
    have h2 := hw.loop
    rw [e2] at h2; exact h2
  obtain ⟨new, s1, s2, s3, s4, s5⟩ := preLoadLoopF_shape (g := g) g.N c0 a'.rd.pos1 rs hpos (by omega)
  have hpre : c0.preLoadF g a'.rd.pos1 true rs = preLoadLoopF g 0 true g.N c0.bufs.length c0 a'.rd.pos1 rs := by unfold Cache.preLoadF; rw [e1]; rfl
  rw [hpre] at e3
  rw [e1, List.nil_append] at s1
  refine ⟨_, _, e3, by rw [s3, hlt], by rw [e1, s1]; exact s2, fun hrs => ?_, fun D X hD hX hroom hr1 hr2 hN => ?_⟩
  · exact preLoadLoopF_ok (by omega) _ _ _ _ _ _ _ ⟨hdev, by rw [e1]; intro b hb; cases hb⟩ ⟨by omega, by omega⟩ hrs
  · obtain ⟨b, rest, t1, t2, t3, t4⟩ := s5 (by omega) hr1 hr2
    have hq0 := Int.ediv_nonneg hpos (le_of_lt hB0)
    have hlt2 : a'.rd.pos1 < (a'.rd.pos1 / g.B + 1) * g.B := Int.lt_ediv_add_one_mul_self _ hB0
    rw [e1]
    refine ⟨by rw [← e1, s3, hlt], ?_, ?_, ?_, ?_, ?_⟩ <;> rw [s1]
    · intro x hx; rw [(s4 x hx).1]; decide
    · intro x hx hsz
      rw [t1] at hx
      rcases List.mem_cons.1 hx with rfl | hx
      · omega
      · right
        have := mul_le_mul_of_nonneg_right (show a'.rd.pos1 / g.B + 1 ≤ x.index by have := t4 x hx; omega) (le_of_lt hB0)
        omega
    · exact ⟨b, by rw [t1]; exact List.mem_cons_self, by rw [t2]; exact hroom⟩
    · intro x hx
      obtain ⟨_, q1, q2⟩ := s4 x hx
      omega
    · exact s2

end

/-- **C79** as far as it holds, for raw files played forward: if each read delivers its block or nothing, playback goes on in time -- the updates transmit and release the
same blocks and raise the same events as if the file were in memory, and `stop` comes at the same moment -- and each sample is the file's own or silent. -/
theorem C79_raw_partial (fp : Fp) (hfp : Representable fp) {g : Geo} (hNB : g.N * g.B ≤ 2 ^ 30) (a : FileReader) {m : List Nat}
    (hb : IsBytes m) (h0 : 0 < m.length) (hm : m.length < 2 ^ 31) (past : Bool) {nch : Nat} (hc : 1 ≤ nch) (hc' : nch ≤ 32767) {R : Int}
    (hset : ForwardSettings a.rd R) (hhead : a.rd.header = 0) (hR : nch * (R + 1) ≤ 2 ^ 30)
    (hstart : a.rd.playStart = .arbitrary → 0 ≤ a.rd.playbackStart ∧ a.rd.playbackStart ≤ (m.length / 2 / nch : Nat))
    (hN : 1 ≤ g.N) (nullOk : Bool) {fuel : Nat} (hf : g.N ≤ fuel + 1) (rs : List ReadResult) (hrs : AllOrNothing rs) (ts : List Turn) (hs : Speeds R ts) :
    ∃ a' rs', a.playRawF g (some ⟨m, 0, past⟩) nch rs = .ok (true, a', rs') ∧ (∃ a0, a.playRaw g (some ⟨m, 0, past⟩) nch = .ok (true, a0) ∧ a0.rd = a'.rd) ∧
      ∃ fxs fxs' p' rs'' b', fileTurnsF fp g nullOk (fuel + 1) ⟨a', none⟩ rs' ts = .ok (fxs, p', rs'') ∧ memTurns fp (fuel + 1) (inMemory a' m) ts = .ok (fxs', b') ∧
        List.Forall₂ WithGaps fxs fxs' ∧ b'.rdr.rd = p'.rdr.rd ∧ b'.pending = p'.pending := by
  have hNB' : (g.N : Int) * g.B ≤ 2 ^ 30 := by exact_mod_cast hNB
  have hmul : ((m.length / 2 / nch : Nat) : Int) * nch ≤ (m.length / 2 : Nat) := by exact_mod_cast Nat.div_mul_le_self _ _
  have hE : 2 * ((0 : Int) + (m.length / 2 / nch : Nat) * nch) ≤ m.length := by omega
  have hfit : (0 : Int) + (nch : Int) * ((m.length / 2 / nch : Nat) + R + 1) ≤ 2147483647 := by
    have e1 : (nch : Int) * ((m.length / 2 / nch : Nat) + R + 1) = (m.length / 2 / nch : Nat) * nch + nch * (R + 1) := by ring
    rw [e1]; omega
  have hs01 : 0 ≤ startFrame a.rd ∧ startFrame a.rd ≤ (m.length / 2 / nch : Nat) := by
    unfold startFrame; split
    · rename_i e; exact hstart e
    · exact ⟨le_refl _, Int.natCast_nonneg _⟩
  have hmul2 : startFrame a.rd * nch ≤ (m.length / 2 / nch : Nat) * nch := mul_le_mul_of_nonneg_right hs01.2 (Int.natCast_nonneg _)
  have hmul3 : 0 ≤ startFrame a.rd * nch := mul_nonneg hs01.1 (Int.natCast_nonneg _)
  obtain ⟨a0, k1, k2, _, _, k4, k3⟩ := raw_start (g := g) (mm := 0) hN hNB a h0 hm past hc hc' hset hhead hstart (le_refl _) (by omega)
  obtain ⟨c, rs', e1, e2, e3, e4, _⟩ := k3.opened_faulty hNB' hm k1 k2 (by rw [k4]; omega) (by rw [k4]; omega) rs
  obtain ⟨e5, e6⟩ := e4 hrs
  have hfw := (k3.live k2).1
  obtain ⟨fxs, fxs', p', rs'', b', t1, t2, t3, t4⟩ := Gappy.turns (g := g) hb (by omega) hE (FwdAny.glides hfp (speed_small hc hR) (le_refl _) (Int.natCast_nonneg _) hfit)
    (fun r v v0 vR hr => hr.speed ⟨v0, vR⟩) nullOk hf ts ⟨⟨a0.rd, some c⟩, none⟩ (inMemory ⟨a0.rd, some c⟩ m) rs' hs e6
    ⟨rfl, rfl, hfw.plain.nch, rfl, fun _ => rfl, fun _ => ⟨hfw, c, rfl, e5, e2, e3⟩⟩
  exact ⟨⟨a0.rd, some c⟩, rs', e1, ⟨a0, k1, rfl⟩, fxs, fxs', p', rs'', b', t1, t2, t3, t4.rd, t4.pend⟩

example : ∃ a' rs', exNew.playRawF sdGeo (some ⟨exHeld, 0, false⟩) (1 : Nat) [.error [] 0, .short 0] = .ok (true, a', rs') ∧
    (∃ a0, exNew.playRaw sdGeo (some ⟨exHeld, 0, false⟩) (1 : Nat) = .ok (true, a0) ∧ a0.rd = a'.rd) ∧
      ∃ fxs fxs' p' rs'' b', fileTurnsF Fp.ieee sdGeo true (6 + 1) ⟨a', none⟩ rs' exTurns = .ok (fxs, p', rs'') ∧ memTurns Fp.ieee (6 + 1) (inMemory a' exHeld) exTurns = .ok (fxs', b') ∧
        List.Forall₂ WithGaps fxs fxs' ∧ b'.rdr.rd = p'.rdr.rd ∧ b'.pending = p'.pending :=
  C79_raw_partial Fp.ieee ieee_representable (g := sdGeo) (by decide +kernel) exNew exHeld_bytes (by decide +kernel) (by decide +kernel) false (nch := 1) (by decide +kernel) (by decide +kernel) exNew_settings.forward rfl (by decide +kernel) (by intro h; cases h)
    (by decide) true (by decide) _ (by intro n h; simp at h; exact h) exTurns exTurns_speeds

/-- The same for WAV files. -/
theorem C79_wav_partial (fp : Fp) (hfp : Representable fp) {g : Geo} (hNB : g.N * g.B ≤ 2 ^ 30) (a : FileReader) {m : List Nat}
    (hb : IsBytes m) (hm : m.length < 2 ^ 31) (past : Bool) (junk : List Nat) (hj : junk.length = 36) (hg : GoodHeader m)
    (hdep : leVal (slice m 34 2) = 16) {off : Nat} (hda : DataAt m off) {nch D : Nat} (hn : leVal (slice m 22 2) = nch) (hc : 1 ≤ nch) (hc' : nch ≤ 32767)
    (hD : leVal (slice m (off + 4) 4) = D) (hdata : off + 8 + D ≤ m.length) (hroom : off + 8 < m.length) {R : Int}
    (hset : ForwardSettings a.rd R) (hR : nch * (R + 1) ≤ 2 ^ 30)
    (hstart : a.rd.playStart = .arbitrary → 0 ≤ a.rd.playbackStart ∧ a.rd.playbackStart ≤ (D / 2 / nch : Nat))
    (hN : 1 ≤ g.N) (nullOk : Bool) {fuel : Nat} (hf : g.N ≤ fuel + 1) (rs : List ReadResult) (hrs : AllOrNothing rs) (ts : List Turn) (hs : Speeds R ts) :
    ∃ a' rs', a.playWavF g (some ⟨m, 0, past⟩) junk rs = .ok (true, a', rs') ∧ (∃ a0, a.playWav g (some ⟨m, 0, past⟩) junk = .ok (true, a0) ∧ a0.rd = a'.rd) ∧
      ∃ fxs fxs' p' rs'' b', fileTurnsF fp g nullOk (fuel + 1) ⟨a', none⟩ rs' ts = .ok (fxs, p', rs'') ∧ memTurns fp (fuel + 1) (inMemory a' m) ts = .ok (fxs', b') ∧
        List.Forall₂ WithGaps fxs fxs' ∧ b'.rdr.rd = p'.rdr.rd ∧ b'.pending = p'.pending := by
  have hNB' : (g.N : Int) * g.B ≤ 2 ^ 30 := by exact_mod_cast hNB
  have hmul : ((D / 2 / nch : Nat) : Int) * nch ≤ (D / 2 : Nat) := by exact_mod_cast Nat.div_mul_le_self _ _
  have hE : 2 * ((((off + 8) / 2 : Nat) : Int) + (D / 2 / nch : Nat) * nch) ≤ m.length := by clear hn hD hdep; omega
  have hfit : (((off + 8) / 2 : Nat) : Int) + (nch : Int) * ((D / 2 / nch : Nat) + R + 1) ≤ 2147483647 := by
    have e1 : (nch : Int) * ((D / 2 / nch : Nat) + R + 1) = (D / 2 / nch : Nat) * nch + nch * (R + 1) := by ring
    rw [e1]; clear hn hD hdep; omega
  have hs01 : 0 ≤ startFrame a.rd ∧ startFrame a.rd ≤ (D / 2 / nch : Nat) := by
    unfold startFrame; split
    · rename_i e; exact hstart e
    · exact ⟨le_refl _, Int.natCast_nonneg _⟩
  have hmul2 : startFrame a.rd * nch ≤ (D / 2 / nch : Nat) * nch := mul_le_mul_of_nonneg_right hs01.2 (Int.natCast_nonneg _)
  have hmul3 : 0 ≤ startFrame a.rd * nch := mul_nonneg hs01.1 (Int.natCast_nonneg _)
  obtain ⟨a0, k1, k2, _, _, _, _, _, k4, k3⟩ := wav_start (g := g) (mm := 0) hN hNB a hb hm past junk hj hg hdep hda hn hc hc' hD hdata hroom hset hstart
    (le_refl _) (by omega)
  clear hn hD hdep
  obtain ⟨c, rs', e1, e2, e3, e4, _⟩ := k3.opened_faulty hNB' hm k1 k2 (by rw [k4]; omega) (by rw [k4]; omega) rs
  obtain ⟨e5, e6⟩ := e4 hrs
  have hfw := (k3.live k2).1
  obtain ⟨fxs, fxs', p', rs'', b', t1, t2, t3, t4⟩ := Gappy.turns (g := g) hb (by omega) hE (FwdAny.glides hfp (speed_small hc hR) (Int.natCast_nonneg _) (Int.natCast_nonneg _) hfit)
    (fun r v v0 vR hr => hr.speed ⟨v0, vR⟩) nullOk hf ts ⟨⟨a0.rd, some c⟩, none⟩ (inMemory ⟨a0.rd, some c⟩ m) rs' hs e6
    ⟨rfl, rfl, hfw.plain.nch, rfl, fun _ => rfl, fun _ => ⟨hfw, c, rfl, e5, e2, e3⟩⟩
  exact ⟨⟨a0.rd, some c⟩, rs', e1, ⟨a0, k1, rfl⟩, fxs, fxs', p', rs'', b', t1, t2, t3, t4.rd, t4.pend⟩

example : ∃ a' rs', exNew.playWavF sdGeo (some ⟨exHeldWav 2, 0, false⟩) (List.replicate 36 7) [.error [] 0, .short 0] = .ok (true, a', rs') ∧
    (∃ a0, exNew.playWav sdGeo (some ⟨exHeldWav 2, 0, false⟩) (List.replicate 36 7) = .ok (true, a0) ∧ a0.rd = a'.rd) ∧
      ∃ fxs fxs' p' rs'' b', fileTurnsF Fp.ieee sdGeo true (6 + 1) ⟨a', none⟩ rs' exTurns = .ok (fxs, p', rs'') ∧ memTurns Fp.ieee (6 + 1) (inMemory a' (exHeldWav 2)) exTurns = .ok (fxs', b') ∧
        List.Forall₂ WithGaps fxs fxs' ∧ b'.rdr.rd = p'.rdr.rd ∧ b'.pending = p'.pending :=
  C79_wav_partial Fp.ieee ieee_representable (g := sdGeo) (by decide +kernel) exNew (exHeldWav_bytes (n := 2) (by decide +kernel)) (by decide +kernel) false (List.replicate 36 7) (by decide +kernel) (by decide +kernel) (by decide +kernel) (off := 36) ⟨Or.inl ⟨rfl, by decide +kernel⟩, by decide +kernel, by decide +kernel⟩
    (nch := 2) (D := 1024) (by decide +kernel) (by decide +kernel) (by decide +kernel) (by decide +kernel) (by decide +kernel) (by decide +kernel) exNew_settings.forward (by decide +kernel) (by intro h; cases h)
    (by decide) true (by decide) _ (by intro n h; simp at h; exact h) exTurns exTurns_speeds

/-! ## The sound does not come back -/

/-- **C79** fails: after a read that failed the sound does not come back though the reads to come succeed.  A player is between two updates.  None of its buffers holds a sample of the
next `advance` samples, that is, of the next update; one is of a block that two updates do not pass.  Then it is silent until the file ends, the buffers running away from what is played:
each update finds nothing, and all buffers are reloaded from blocks further on.  So a block that could not be read is followed by silence, if an update lies within it. -/
theorem C79_after_gap_refuted (fp : Fp) (hfp : Representable fp) {g : Geo} {r : Rd} {c : Cache} {H F nch R : Int} (h : FwdAny R H F nch r)
    (hH : 0 ≤ H) (hF : 0 ≤ F) (hR2 : R ≤ 2 ^ 30) (hfit : H + nch * (F + R + 1) ≤ 2147483647) (hE : H + F * nch ≤ 2147483647) (hadv : 128 * (nch * (R + 1)) ≤ g.B)
    (hl : c.loopType = .none) (hs : ∀ b ∈ c.bufs, b.status ≠ .read) (hlen : c.bufs.length ≤ g.N)
    (haway : ∀ b ∈ c.bufs, 0 < b.size → b.index * g.B + g.B ≤ r.pos1 ∨ r.pos1 + 128 * (nch * (R + 1)) < b.index * g.B)
    (hlater : ∃ b ∈ c.bufs, r.pos1 + 2 * (128 * (nch * (R + 1))) < (b.index + 1) * g.B) {X : Int} (hrange : ∀ b ∈ c.bufs, 0 ≤ b.index ∧ b.index ≤ X)
    (nullOk : Bool) {fuel : Nat} (hf : g.N ≤ fuel + 1) (rs : List ReadResult) (als : List (Nat → Bool)) (hT : (X + als.length * g.N) * g.B ≤ 2147483647) :
    ∃ fxs p' rs', fileTurnsF fp g nullOk (fuel + 1) ⟨⟨r, some c⟩, none⟩ rs (ticked als) = .ok (fxs, p', rs') ∧ ∀ fx ∈ fxs, Silent fx := by
  obtain ⟨fxs, p', rs', e1, e2, _⟩ := LostSound.ticks (g := g) hE (FwdAny.glides hfp hR2 hH hF hfit) hadv nullOk hf als X ⟨⟨r, some c⟩, none⟩ rs
    ⟨h.plain.nch, rfl, fun _ => ⟨h, c, rfl, hl, hs, haway, hlater, hrange, hlen⟩⟩ hT
  exact ⟨fxs, p', rs', e1, e2⟩

/-- In the third block of a file of a million frames, which could not be read. -/
def exGap : Rd := { nch := 1, playing := true, fileSamples := 1000000, pos1 := 4096, interp := .none }

def exGapCache : Cache := { dev := ⟨[], 0, false⟩, bufs := [⟨0, 1, 4096, .loaded, []⟩, ⟨1, 2, 0, .loaded, []⟩, ⟨2, 3, 4096, .loaded, []⟩] }

example : ∃ fxs p' rs', fileTurnsF Fp.ieee sdGeo true (6 + 1) ⟨⟨exGap, some exGapCache⟩, none⟩ [.short 5, .all, .error [] 0] (ticked (List.replicate 8 fun _ => true)) = .ok (fxs, p', rs') ∧ ∀ fx ∈ fxs, Silent fx :=
  C79_after_gap_refuted Fp.ieee ieee_representable (g := sdGeo) (H := 0) (F := 1000000) (nch := 1) (R := 1)
    ⟨⟨rfl, rfl, rfl, by decide⟩, rfl, by norm_num [exGap], by norm_num [exGap], by show IsFloat 53 (-1074) 0; simpa using Rounding.isFloat_of (p := 53) (emin := -1074) (by norm_num) (m := 0) (e := 0) (by norm_num) (by norm_num), by norm_num [exGap], rfl, rfl, rfl, 4096, by decide, by decide, rfl⟩
    (by decide) (by decide) (by decide) (by decide) (by decide) (by decide +kernel) rfl (by decide +kernel) (by decide +kernel) (by decide +kernel) (by decide +kernel) (X := 3) (by decide +kernel)
    true (by decide) _ _ (by decide +kernel)

/-- **C79** fails for every raw file whose first block cannot be read when it is started: nothing of it is heard at all, whatever the later reads return. -/
theorem C79_raw_refuted (fp : Fp) (hfp : Representable fp) {g : Geo} (hNB : g.N * g.B ≤ 2 ^ 30) (a : FileReader) {m : List Nat}
    (h0 : 0 < m.length) (hm : m.length < 2 ^ 31) (past : Bool) {nch : Nat} (hc : 1 ≤ nch) (hc' : nch ≤ 32767) {R : Int}
    (hset : ForwardSettings a.rd R) (hhead : a.rd.header = 0) (hR : nch * (R + 1) ≤ 2 ^ 30)
    (hstart : a.rd.playStart = .arbitrary → 0 ≤ a.rd.playbackStart ∧ a.rd.playbackStart ≤ (m.length / 2 / nch : Nat))
    (hroom : startFrame a.rd * nch % g.B + 2 * (128 * (nch * (R + 1))) < g.B)
    (hN : 1 ≤ g.N) (nullOk : Bool) {fuel : Nat} (hf : g.N ≤ fuel + 1) (first : ReadResult) (hfirst : first = .short 0 ∨ ∃ l c, first = .error l c) (rs : List ReadResult)
    (als : List (Nat → Bool)) (hT : (m.length : Int) / 2 + (als.length + 1) * g.N * g.B ≤ 2147483647) :
    ∃ a' rs', a.playRawF g (some ⟨m, 0, past⟩) nch (first :: rs) = .ok (true, a', rs') ∧
      ∃ fxs p' rs'', fileTurnsF fp g nullOk (fuel + 1) ⟨a', none⟩ rs' (ticked als) = .ok (fxs, p', rs'') ∧ ∀ fx ∈ fxs, Silent fx := by
  have hB0 : (0 : Int) < g.B := by exact_mod_cast g.B_pos
  have hNB' : (g.N : Int) * g.B ≤ 2 ^ 30 := by exact_mod_cast hNB
  have hmul : ((m.length / 2 / nch : Nat) : Int) * nch ≤ (m.length / 2 : Nat) := by exact_mod_cast Nat.div_mul_le_self _ _
  have hfit : (0 : Int) + (nch : Int) * ((m.length / 2 / nch : Nat) + R + 1) ≤ 2147483647 := by
    have e1 : (nch : Int) * ((m.length / 2 / nch : Nat) + R + 1) = (m.length / 2 / nch : Nat) * nch + nch * (R + 1) := by ring
    rw [e1]; omega
  have hs01 : 0 ≤ startFrame a.rd ∧ startFrame a.rd ≤ (m.length / 2 / nch : Nat) := by
    unfold startFrame; split
    · rename_i e; exact hstart e
    · exact ⟨le_refl _, Int.natCast_nonneg _⟩
  have hmul2 : startFrame a.rd * nch ≤ (m.length / 2 / nch : Nat) * nch := mul_le_mul_of_nonneg_right hs01.2 (Int.natCast_nonneg _)
  have hmul3 : 0 ≤ startFrame a.rd * nch := mul_nonneg hs01.1 (Int.natCast_nonneg _)
  obtain ⟨a0, k1, k2, _, _, k4, k3⟩ := raw_start (g := g) (mm := 0) hN hNB a h0 hm past hc hc' hset hhead hstart (le_refl _) (by omega)
  rw [zero_add] at k4
  obtain ⟨c, rs', e1, e2, e3, _, e5⟩ := k3.opened_faulty hNB' hm k1 k2 (by rw [k4]; omega) (by rw [k4]; omega) (first :: rs)
  have hR0 : 0 ≤ R := by
    have : (0 : ℚ) ≤ R := le_trans hset.rate0 hset.rateR
    exact_mod_cast this
  have hDnn : (0 : Int) ≤ 128 * (nch * (R + 1)) := by positivity
  refine ⟨_, rs', e1, ?_⟩
  have key := lost_start (T := als.length) hB0 (by rw [k4]; omega : a0.rd.pos1 ≤ (m.length : Int) / 2) hT
  have hA := e5 (128 * (nch * (R + 1))) (a0.rd.pos1 / g.B + g.N) hDnn (le_refl _) (room_of (by rw [k4]; exact hroom))
    (by rcases hfirst with rfl | ⟨l, c, rfl⟩ <;> exact (fun h => nomatch h)) (by rcases hfirst with rfl | ⟨l, c, rfl⟩ <;> intro n hn <;> cases hn; rfl) hN
  have hmod := Int.emod_nonneg (startFrame a.rd * nch) (show (g.B : Int) ≠ 0 by omega)
  obtain ⟨fxs, p', rs'', t1, t2, _⟩ := LostSound.ticks (g := g) (by omega : (0 : Int) + (m.length / 2 / nch : Nat) * nch ≤ 2147483647)
    (FwdAny.glides hfp (speed_small hc hR) (le_refl _) (Int.natCast_nonneg _) hfit) (by omega) nullOk hf als _ ⟨⟨a0.rd, some c⟩, none⟩ rs'
    ⟨(k3.live k2).1.plain.nch, rfl, fun _ => ⟨(k3.live k2).1, c, rfl, hA⟩⟩ key
  exact ⟨fxs, p', rs'', t1, t2⟩

example : ∃ a' rs', exNew.playRawF sdGeo (some ⟨exHeld, 0, false⟩) (1 : Nat) [.error [] 0] = .ok (true, a', rs') ∧
    ∃ fxs p' rs'', fileTurnsF Fp.ieee sdGeo true (6 + 1) ⟨a', none⟩ rs' (ticked (List.replicate 4 fun _ => true)) = .ok (fxs, p', rs'') ∧ ∀ fx ∈ fxs, Silent fx :=
  C79_raw_refuted Fp.ieee ieee_representable (g := sdGeo) (by decide +kernel) exNew (by decide +kernel) (by decide +kernel) false (nch := 1) (by decide +kernel) (by decide +kernel) exNew_settings.forward rfl (by decide +kernel) (by intro h; cases h)
    (by decide +kernel) (by decide) true (by decide) _ (Or.inr ⟨_, _, rfl⟩) [] _ (by decide +kernel)

/-- In memory the same file is heard. -/
example : (do let x ← exNew.playRaw sdGeo (some ⟨exHeld, 0, false⟩) (1 : Nat)
              let y ← memTurns Fp.ideal (6 + 1) (inMemory x.2 exHeld) (ticked (List.replicate 4 fun _ => true))
              pure (y.1.map fun fx => fx.transmitted.map fun b => b.1.all fun s => decide (s = 257))) = (.ok (List.replicate 4 [true, true]) : M _) := by decide +kernel

/-- The same for WAV files; the header is read without trouble. -/
theorem C79_wav_refuted (fp : Fp) (hfp : Representable fp) {g : Geo} (hNB : g.N * g.B ≤ 2 ^ 30) (a : FileReader) {m : List Nat}
    (hb : IsBytes m) (hm : m.length < 2 ^ 31) (past : Bool) (junk : List Nat) (hj : junk.length = 36) (hg : GoodHeader m)
    (hdep : leVal (slice m 34 2) = 16) {off : Nat} (hda : DataAt m off) {nch D : Nat} (hn : leVal (slice m 22 2) = nch) (hc : 1 ≤ nch) (hc' : nch ≤ 32767)
    (hD : leVal (slice m (off + 4) 4) = D) (hdata : off + 8 + D ≤ m.length) (hend : off + 8 < m.length) {R : Int}
    (hset : ForwardSettings a.rd R) (hR : nch * (R + 1) ≤ 2 ^ 30)
    (hstart : a.rd.playStart = .arbitrary → 0 ≤ a.rd.playbackStart ∧ a.rd.playbackStart ≤ (D / 2 / nch : Nat))
    (hroom : (((off + 8) / 2 : Nat) + startFrame a.rd * nch) % g.B + 2 * (128 * (nch * (R + 1))) < g.B)
    (hN : 1 ≤ g.N) (nullOk : Bool) {fuel : Nat} (hf : g.N ≤ fuel + 1) (first : ReadResult) (hfirst : first = .short 0 ∨ ∃ l c, first = .error l c) (rs : List ReadResult)
    (als : List (Nat → Bool)) (hT : (m.length : Int) / 2 + (als.length + 1) * g.N * g.B ≤ 2147483647) :
    ∃ a' rs', a.playWavF g (some ⟨m, 0, past⟩) junk (first :: rs) = .ok (true, a', rs') ∧
      ∃ fxs p' rs'', fileTurnsF fp g nullOk (fuel + 1) ⟨a', none⟩ rs' (ticked als) = .ok (fxs, p', rs'') ∧ ∀ fx ∈ fxs, Silent fx := by
  have hB0 : (0 : Int) < g.B := by exact_mod_cast g.B_pos
  have hNB' : (g.N : Int) * g.B ≤ 2 ^ 30 := by exact_mod_cast hNB
  have hmul : ((D / 2 / nch : Nat) : Int) * nch ≤ (D / 2 : Nat) := by exact_mod_cast Nat.div_mul_le_self _ _
  have hE : 2 * ((((off + 8) / 2 : Nat) : Int) + (D / 2 / nch : Nat) * nch) ≤ m.length := by clear hn hD hdep; omega
  have hfit : (((off + 8) / 2 : Nat) : Int) + (nch : Int) * ((D / 2 / nch : Nat) + R + 1) ≤ 2147483647 := by
    have e1 : (nch : Int) * ((D / 2 / nch : Nat) + R + 1) = (D / 2 / nch : Nat) * nch + nch * (R + 1) := by ring
    rw [e1]; clear hn hD hdep; omega
  have hs01 : 0 ≤ startFrame a.rd ∧ startFrame a.rd ≤ (D / 2 / nch : Nat) := by
    unfold startFrame; split
    · rename_i e; exact hstart e
    · exact ⟨le_refl _, Int.natCast_nonneg _⟩
  have hmul2 : startFrame a.rd * nch ≤ (D / 2 / nch : Nat) * nch := mul_le_mul_of_nonneg_right hs01.2 (Int.natCast_nonneg _)
  have hmul3 : 0 ≤ startFrame a.rd * nch := mul_nonneg hs01.1 (Int.natCast_nonneg _)
  obtain ⟨a0, k1, k2, _, _, _, _, _, k4, k3⟩ := wav_start (g := g) (mm := 0) hN hNB a hb hm past junk hj hg hdep hda hn hc hc' hD hdata hend hset hstart
    (le_refl _) (by omega)
  clear hn hD hdep
  obtain ⟨c, rs', e1, e2, e3, _, e5⟩ := k3.opened_faulty hNB' hm k1 k2 (by rw [k4]; omega) (by rw [k4]; omega) (first :: rs)
  have hR0 : 0 ≤ R := by
    have : (0 : ℚ) ≤ R := le_trans hset.rate0 hset.rateR
    exact_mod_cast this
  have hDnn : (0 : Int) ≤ 128 * (nch * (R + 1)) := by positivity
  refine ⟨_, rs', e1, ?_⟩
  have key := lost_start (T := als.length) hB0 (by rw [k4]; omega : a0.rd.pos1 ≤ (m.length : Int) / 2) hT
  have hA := e5 (128 * (nch * (R + 1))) (a0.rd.pos1 / g.B + g.N) hDnn (le_refl _) (room_of (by rw [k4]; exact hroom))
    (by rcases hfirst with rfl | ⟨l, c, rfl⟩ <;> exact (fun h => nomatch h)) (by rcases hfirst with rfl | ⟨l, c, rfl⟩ <;> intro n hn <;> cases hn; rfl) hN
  have hmod := Int.emod_nonneg ((((off + 8) / 2 : Nat) : Int) + startFrame a.rd * nch) (show (g.B : Int) ≠ 0 by omega)
  obtain ⟨fxs, p', rs'', t1, t2, _⟩ := LostSound.ticks (g := g) (by omega : (((off + 8) / 2 : Nat) : Int) + (D / 2 / nch : Nat) * nch ≤ 2147483647)
    (FwdAny.glides hfp (speed_small hc hR) (Int.natCast_nonneg _) (Int.natCast_nonneg _) hfit) (by omega) nullOk hf als _ ⟨⟨a0.rd, some c⟩, none⟩ rs'
    ⟨(k3.live k2).1.plain.nch, rfl, fun _ => ⟨(k3.live k2).1, c, rfl, hA⟩⟩ key
  exact ⟨fxs, p', rs'', t1, t2⟩

example : ∃ a' rs', exNew.playWavF sdGeo (some ⟨exHeldWav 2, 0, false⟩) (List.replicate 36 7) [.short 0] = .ok (true, a', rs') ∧
    ∃ fxs p' rs'', fileTurnsF Fp.ieee sdGeo true (6 + 1) ⟨a', none⟩ rs' (ticked (List.replicate 4 fun _ => true)) = .ok (fxs, p', rs'') ∧ ∀ fx ∈ fxs, Silent fx :=
  C79_wav_refuted Fp.ieee ieee_representable (g := sdGeo) (by decide +kernel) exNew (exHeldWav_bytes (n := 2) (by decide +kernel)) (by decide +kernel) false (List.replicate 36 7) (by decide +kernel) (by decide +kernel) (by decide +kernel) (off := 36) ⟨Or.inl ⟨rfl, by decide +kernel⟩, by decide +kernel, by decide +kernel⟩
    (nch := 2) (D := 1024) (by decide +kernel) (by decide +kernel) (by decide +kernel) (by decide +kernel) (by decide +kernel) (by decide +kernel) exNew_settings.forward (by decide +kernel) (by intro h; cases h)
    (by decide +kernel) (by decide) true (by decide) _ (Or.inl rfl) [] _ (by decide +kernel)

end TVP
