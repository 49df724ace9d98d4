import Verif.Lemmas.Beside
import Verif.Props.StreamRev
import Verif.Props.LoopStream
import Verif.Props.LoopStreamRev
import Verif.Props.PingStream

/-!
# Property C82: up to normal speed interpolation needs nothing that plain playback does not
-/

namespace TVP
open Spec

variable {fp : Fp} {g : Geo} {nullOk : Bool} {fuel : Nat} {m : List Nat} {ok : Rd → ℚ → Prop}

/-- Speeds that `ok` allows, up to normal speed; with cubic interpolation not turning round between two frames. -/
def UpToNormal (k : Interp) (ok : Rd → ℚ → Prop) (r : Rd) (v : ℚ) : Prop := ok r v ∧ |v| ≤ 1 ∧ (k = .quadratic → (0 < v → 0 ≤ r.rem) ∧ (v < 0 → r.rem ≤ 0))

theorem LikeInMemoryAt.after_tick {a a' : FileReader} {b : ArrayReader} {al : Nat → Bool} {fx : Fx} (h : LikeInMemoryAt fp g nullOk fuel a m ok)
    (h1 : a.tick fp g nullOk fuel al = .ok (fx, a')) (h2 : ArrayReader.tick fp fuel ⟨a.rd, some (samplesOf m)⟩ al = .ok (fx, b))
    (h3 : b.rd = a'.rd) (h4 : b.src = some (samplesOf m)) : LikeInMemoryAt fp g nullOk fuel a' m ok := by
  intro as hok
  obtain ⟨r, s⟩ := b
  simp only at h3 h4
  subst h3 h4
  obtain ⟨fxs, a2, b2, k1, k2, k3⟩ := h (.tick al :: as) (fun fx' b' e => by rw [h2] at e; cases e; exact hok)
  rw [FileReader.acts] at k1
  rw [ArrayReader.acts] at k2
  simp only [h1, ok_bind] at k1
  simp only [h2, ok_bind] at k2
  obtain ⟨⟨fxs1, a3⟩, e1, k1⟩ := bind_ok_iff.1 k1
  obtain ⟨⟨fxs2, b3⟩, e2, k2⟩ := bind_ok_iff.1 k2
  cases k1
  injection k2 with k2
  injection k2 with k2 k4
  injection k2 with _ k2
  subst k2 k4
  exact ⟨_, _, _, e1, e2, k3⟩

theorem LikeInMemoryAt.after_speed {a : FileReader} {v : ℚ} (h : LikeInMemoryAt fp g nullOk fuel a m ok) (hv : ok a.rd v) :
    LikeInMemoryAt fp g nullOk fuel { a with rd := a.rd.setPlaybackRate v } m ok :=
  fun as hok => h (.speed v :: as) ⟨hv, hok⟩

theorem setPlaybackRate_smooth {k : Interp} {r q : Rd} (h : Smoothed k r q) (v : ℚ) : Smoothed k (r.setPlaybackRate v) (q.setPlaybackRate v) := by
  rw [h.eq]
  obtain ⟨P, hP⟩ : ∃ P, q.pts = P := ⟨_, rfl⟩
  have hp : ∀ r' : Rd, r'.pts = P → PtsOk r' := fun r' e => by unfold PtsOk; rw [e, ← hP]; exact h.pts
  rw [hP]
  unfold Rd.setPlaybackRate
  simp only
  repeat' split
  all_goals exact ⟨rfl, hp _ rfl⟩

theorem setPlaybackRate_calm {k : Interp} {r : Rd} (h : Calm k r) {v : ℚ} (h1 : |v| ≤ 1) (h2 : k = .quadratic → (0 < v → 0 ≤ r.rem) ∧ (v < 0 → r.rem ≤ 0)) : Calm k (r.setPlaybackRate v) := by
  unfold Rd.setPlaybackRate
  simp only
  repeat' split
  all_goals exact ⟨h.dual, h.interp, h.chans, h.loop, h1, h.frac, fun hk => (h2 hk).1, fun hk => (h2 hk).2, h.w0, h.w1⟩

/-- **C82.**  Take a player `a` that streams without interpolation, with one head, at most at normal speed in either direction, and that
behaves like one with the whole file in memory.  Turn linear interpolation on: it still does, whatever is done, as long as speeds stay up
to normal.  So it does with cubic interpolation if the player does not loop to and fro and the direction is not changed between two
frames. -/
theorem C82_enable_partial (hfp : Representable fp) (hb : IsBytes m) {k : Interp} {a : FileReader} (h : LikeInMemoryAt fp g nullOk fuel a m ok) (hok : ∀ r k P v, ok { r with interp := k, pts := P } v → ok r v)
    (hc : Calm k a.rd) (hn : 0 < a.rd.nch) (hpts : PtsOk a.rd) (hsrc : a.rd.playing = true → a.src.isSome = true) :
    LikeInMemoryAt fp g nullOk fuel { a with rd := a.rd.setInterp k } m (UpToNormal k ok) := by
  refine likeAt_of hb (fun a b => ∃ p, Beside k m p a b ∧ LikeInMemoryAt fp g nullOk fuel p m ok)
    (fun a b ⟨p, h1, _⟩ => ⟨h1.rd, fun c hc => h1.held c (by rw [← h1.src]; exact hc)⟩) ?_ ?_ ⟨a, ⟨rfl, rfl, by rw [toSamples_spec hb], ⟨rfl, hpts⟩, fun _ => hc, hn, ?_, hsrc⟩, h⟩
  · rintro a b al ⟨p, h1, h2⟩
    obtain ⟨fxs, p1, b1, e1, e2, e3, e4⟩ := h2 [.tick al] (fun _ _ _ => trivial)
    rw [FileReader.acts] at e1
    rw [ArrayReader.acts] at e2
    obtain ⟨⟨fx, p'⟩, t1, e1⟩ := bind_ok_iff.1 e1
    obtain ⟨⟨fx', b'⟩, t2, e2⟩ := bind_ok_iff.1 e2
    simp only [FileReader.acts, ArrayReader.acts, ok_bind, pure_eq_ok] at e1 e2
    obtain ⟨rfl, rfl⟩ := Prod.mk.inj (Except.ok.inj e1)
    obtain ⟨e6, rfl⟩ := Prod.mk.inj (Except.ok.inj e2)
    obtain ⟨rfl, -⟩ := List.cons.inj e6
    obtain ⟨fx2, a2, b2, k1, k2, k3, k4, k5⟩ := h1.tick hfp t1 t2 e4
    exact ⟨fx2, a2, b2, k1, k2, _, k3, h2.after_tick t1 t2 k4 k5⟩
  · rintro a b v ⟨p, h1, h2⟩ ⟨v1, v2, v3⟩
    have hrem : a.rd.rem = p.rd.rem := by rw [h1.smooth.eq]
    obtain ⟨s1, s2⟩ := setPlaybackRate_keeps p.rd v
    have hv : ok p.rd v := hok p.rd k a.rd.pts v (by rw [← h1.smooth.eq]; exact v1)
    refine ⟨{ p with rd := p.rd.setPlaybackRate v }, ⟨by simp only; rw [h1.rd], h1.src, h1.mem, setPlaybackRate_smooth h1.smooth v, fun hp => ?_, by simp only; rw [s2]; exact h1.chans, h1.held,
      fun hp => h1.live (by simp only at hp; rw [s1] at hp; exact hp)⟩, h2.after_speed hv⟩
    simp only at hp
    rw [s1] at hp
    exact setPlaybackRate_calm (h1.calm hp) v2 (by rw [← hrem]; exact v3)
  · obtain ⟨_, a', _, e1, _, _, e4⟩ := h [] trivial
    cases e1
    exact e4

/-! ## Interpolation set before the file is opened -/

theorem setNumChannels_same (r : Rd) (n : Int) : ∃ x, r.setNumChannels n = { r with nch := x } := by
  unfold Rd.setNumChannels
  split
  · exact ⟨_, rfl⟩
  · exact ⟨r.nch, rfl⟩

theorem setNumChannels_interp (r : Rd) (n : Int) (k : Interp) : (r.setInterp k).setNumChannels n = (r.setNumChannels n).setInterp k := by
  unfold Rd.setNumChannels Rd.setInterp
  simp only
  split <;> rfl

theorem playParseWav_interp (r : Rd) (f : Dev) (junk : List Nat) (k : Interp) :
    playParseWav (r.setInterp k) f junk = (playParseWav r f junk).map fun x => (x.1, x.2.1.setInterp k, x.2.2) := by
  unfold playParseWav
  simp only
  cases readWaveHeaderFromBuffer (overlay (f.read 36).1 junk) {} with
  | error e => rfl
  | ok x =>
    simp only [ok_bind]
    split
    · rfl
    · rw [setNumChannels_interp]
      cases readInfoTags (overlay ((f.read 36).2.read 8).1 (overlay (f.read 36).1 junk)) 0 with
      | error e => rfl
      | ok t =>
        simp only [ok_bind]
        cases t with
        | none => rfl
        | some tags =>
          simp only
          cases readDataHeader (overlay ((((f.read 36).2.read 8).2.seek (u32 (36 + tags)).toNat).read 8).1 (overlay ((f.read 36).2.read 8).1 (overlay (f.read 36).1 junk))) 0 with
          | error e => rfl
          | ok d =>
            simp only [ok_bind]
            split <;> rfl

/-- A reader with interpolation `k`. -/
def FileReader.withInterp (a : FileReader) (k : Interp) : FileReader := { a with rd := a.rd.setInterp k }

theorem playFinish_withInterp (r : Rd) (f : Dev) (k : Interp) :
    playFinish g (r.setInterp k) f = (playFinish g r f).map fun x => (x.1, x.2.withInterp k) := by
  obtain ⟨playing, fileSize, header, rate, rem, loopType, playStart, pos1, pos2, crossfade, dual, cfDur, cfOn, playbackStart, loopStart, loopFinish, fileSamples, nch, psram, interp, pts⟩ := r
  unfold playFinish
  simp only [Rd.setInterp]
  by_cases h1 : u32 fileSize ≤ u32 (header * 2)
  · simp only [h1, if_true]; rfl
  · by_cases h2 : nch = 0
    · simp only [h1, h2, if_true, if_false]; rfl
    · simp only [h1, h2, if_false]
      cases loopType <;> rfl

theorem playFile_withInterp (a : FileReader) (file : Option Dev) (junk : List Nat) (w : Bool) (n : Int) (k : Interp) :
    (a.withInterp k).playFile g file junk w n = (a.playFile g file junk w n).map fun x => (x.1, x.2.withInterp k) := by
  have hcl : (a.withInterp k).close = a.close.withInterp k := rfl
  unfold FileReader.playFile
  simp only [hcl]
  generalize a.close = a0
  unfold FileReader.withInterp
  simp only
  have hnum := setNumChannels_interp a0.rd n k
  cases w with
  | false =>
    simp only [Bool.false_eq_true, if_false, hnum]
    cases file with
    | none => rfl
    | some f =>
      obtain ⟨x, e⟩ := setNumChannels_same a0.rd n
      rw [e]
      simp only [Rd.setInterp]
      generalize i32 (f.size : Int) = sz
      exact playFinish_withInterp { a0.rd with nch := x, fileSize := sz, fileSamples := sz.tdiv 2 } f k
  | true =>
    simp only [if_true]
    cases file with
    | none => rfl
    | some f =>
      simp only
      have h := playParseWav_interp { a0.rd with fileSize := i32 f.size } f junk k
      rw [show ({ a0.rd.setInterp k with fileSize := i32 f.size } : Rd) = Rd.setInterp { a0.rd with fileSize := i32 f.size } k from rfl, h]
      cases playParseWav { a0.rd with fileSize := i32 f.size } f junk with
      | error e => rfl
      | ok x =>
        simp only [Except.map, ok_bind]
        split
        · rfl
        · exact playFinish_withInterp _ _ k

/-- What opening a file leaves alone. -/
def Opens (r : Rd) (a : FileReader) : Prop :=
  a.rd.dual = r.dual ∧ a.rd.interp = r.interp ∧ a.rd.loopType = r.loopType ∧ a.rd.rate = r.rate ∧ a.rd.rem = r.rem ∧ a.rd.pts = (fun c => if c < 8 then { r.pts c with n := 0 } else r.pts c) ∧ a.rd.crossfade = 0 ∧ a.src.isSome = true

theorem playFinish_opens {r : Rd} {f : Dev} {a : FileReader} (h : playFinish g r f = .ok (true, a)) : Opens r a := by
  obtain ⟨playing, fileSize, header, rate, rem, loopType, playStart, pos1, pos2, crossfade, dual, cfDur, cfOn, playbackStart, loopStart, loopFinish, fileSamples, nch, psram, interp, pts⟩ := r
  unfold playFinish at h
  simp only at h
  split at h
  · cases h
  · split at h
    · cases h
    · injection h with h
      injection h with _ h
      subst h
      unfold Opens
      cases loopType <;> exact ⟨rfl, rfl, rfl, rfl, rfl, rfl, rfl, rfl⟩

theorem playParseWav_same {r r' : Rd} {f f' : Dev} {junk : List Nat} {okk : Bool} (h : playParseWav r f junk = .ok (okk, r', f')) :
    ∃ x y z, r' = { r with nch := x, header := y, fileSamples := z } := by
  unfold playParseWav at h
  simp only at h
  obtain ⟨x, _, h⟩ := bind_ok_iff.1 h
  split at h
  · cases h; exact ⟨_, _, _, rfl⟩
  · obtain ⟨x1, e1⟩ := setNumChannels_same r (u16 x.2.numChannels)
    rw [e1] at h
    obtain ⟨t, _, h⟩ := bind_ok_iff.1 h
    cases t with
    | none => cases h; exact ⟨_, _, _, rfl⟩
    | some tags =>
      simp only at h
      obtain ⟨d, _, h⟩ := bind_ok_iff.1 h
      split at h
      · cases h; exact ⟨_, _, _, rfl⟩
      · cases h; exact ⟨_, _, _, rfl⟩

theorem playFile_opens {a a' : FileReader} {file : Option Dev} {junk : List Nat} {w : Bool} {n : Int} (h : a.playFile g file junk w n = .ok (true, a')) : Opens a.rd a' := by
  unfold FileReader.playFile at h
  simp only at h
  cases file with
  | none => cases h
  | some f =>
    cases w with
    | false =>
      simp only [Bool.false_eq_true, if_false] at h
      have := playFinish_opens h
      obtain ⟨x, e⟩ := setNumChannels_same a.close.rd n
      rw [e] at this
      exact this
    | true =>
      simp only [if_true] at h
      obtain ⟨⟨o, r1, f1⟩, e, h⟩ := bind_ok_iff.1 h
      obtain ⟨x, y, z, rfl⟩ := playParseWav_same e
      simp only at h
      split at h
      · cases h
      · generalize i32 (f.size : Int) = sz at h
        have := playFinish_opens h
        exact this

/-- Settings for plain playback up to normal speed; for cubic interpolation not looping to and fro. -/
structure GentleSettings (k : Interp) (r : Rd) : Prop where
  plain : PlainSettings r
  loop : k = .quadratic → r.loopType ≠ .pingpong
  rate : |r.rate| ≤ 1
  frac : |r.rem| < 1
  up : k = .quadratic → 0 < r.rate → 0 ≤ r.rem
  down : k = .quadratic → r.rate < 0 → r.rem ≤ 0
  pts : PtsOk r

/-- **C82** (opening a file).  If the file is opened without interpolation and then behaves as from memory, it does when opened with
interpolation already on. -/
theorem C82_open_partial (hfp : Representable fp) (hb : IsBytes m) {a a' : FileReader} {file : Option Dev} {junk : List Nat} {w : Bool} {n : Int} {k : Interp} (hset : GentleSettings k a.rd)
    (ho : a.playFile g file junk w n = .ok (true, a')) (h : LikeInMemoryAt fp g nullOk fuel a' m ok) (hok : ∀ r k P v, ok { r with interp := k, pts := P } v → ok r v)
    (hn : 0 < a'.rd.nch) (hn8 : a'.rd.nch ≤ 8) :
    (a.withInterp k).playFile g file junk w n = .ok (true, a'.withInterp k) ∧ LikeInMemoryAt fp g nullOk fuel (a'.withInterp k) m (UpToNormal k ok) := by
  obtain ⟨e1, e2, e3, e4, e5, e6, e7, e8⟩ := playFile_opens ho
  refine ⟨by rw [playFile_withInterp, ho]; rfl, C82_enable_partial hfp hb h hok ⟨e1.trans hset.plain.dual, e2.trans hset.plain.interp, hn8, by rw [e3]; exact hset.loop, by rw [e4]; exact hset.rate,
    by rw [e5]; exact hset.frac, by rw [e4, e5]; exact hset.up, by rw [e4, e5]; exact hset.down, by rw [e7], by rw [e7]; norm_num⟩ hn ?_ (fun _ => e8)⟩
  intro c
  rw [e6]
  by_cases hc : c < 8
  · simp only [if_pos hc]; exact hset.pts c
  · simp only [if_neg hc]; exact hset.pts c

/-! ## Backwards and round loops -/

theorem BackwardSettings.gentle {k : Interp} {r : Rd} (h : BackwardSettings fp r 1) (h0 : k = .quadratic → r.rem ≤ 0) (hp : PtsOk r) : GentleSettings k r := by
  have hr : r.rate < 0 := by
    by_contra hc
    exact absurd (fp.f.nonneg (not_lt.1 hc)) (not_le.2 h.rateF)
  have := h.rateR
  push_cast at this
  exact ⟨h.plain, fun _ => by rw [h.loop]; decide, abs_le.2 ⟨this, by linarith⟩, h.frac, fun _ h' => by linarith, fun hk _ => h0 hk, hp⟩

theorem RepeatSettings.gentle {k : Interp} {r : Rd} (h : RepeatSettings r 1) (h0 : k = .quadratic → 0 ≤ r.rem) (hp : PtsOk r) : GentleSettings k r := by
  have h1 := h.rate0
  have := h.rateR
  push_cast at this
  exact ⟨h.plain, fun _ => by rw [h.loop]; decide, abs_le.2 ⟨by linarith, this⟩, h.frac, fun hk _ => h0 hk, fun _ h' => by linarith, hp⟩

theorem RepeatBackSettings.gentle {k : Interp} {r : Rd} (h : RepeatBackSettings fp r 1) (h0 : k = .quadratic → r.rem ≤ 0) (hp : PtsOk r) : GentleSettings k r := by
  have hr : r.rate < 0 := by
    by_contra hc
    exact absurd (fp.f.nonneg (not_lt.1 hc)) (not_le.2 h.rateF)
  have := h.rateR
  push_cast at this
  exact ⟨h.plain, fun _ => by rw [h.loop]; decide, abs_le.2 ⟨this, by linarith⟩, h.frac, fun _ h' => by linarith, fun hk _ => h0 hk, hp⟩

/-- **C82** (a raw file, backwards).  `playRaw` with linear or cubic interpolation at a rate from -1 to 0: everything read afterwards is as
from memory, under the very conditions under which it is without interpolation (`C72_back_raw_partial`).

Missing: more than normal speed; the second head; with cubic interpolation turning between two frames and loops to and fro, for which the
four points can reach over the ends of the loop (`C82_refuted`). -/
theorem C82_back_raw_partial (hfp : Representable fp) (k : Interp) (g : Geo) (hB : g.B < 16384) (hNB : g.N * g.B ≤ 2 ^ 30) (a : FileReader) (hb : IsBytes m) (hm : m.length < 2 ^ 31)
    (past : Bool) {nch : Nat} (hc : 1 ≤ nch) (hc8 : nch ≤ 8) {mm : Int} (hset : BackwardSettings fp a.rd 1) (hrem : k = .quadratic → a.rd.rem ≤ 0) (hpts : PtsOk a.rd)
    (hhead : a.rd.header = 0) {P : Int} (hP : StartsBackAt a.rd ((m.length : Int) / 2) 0 (m.length / 2 / nch : Nat) nch P) (hgood : GoodStart g m 0 nch P)
    (hmm0 : 0 ≤ mm) (hmm : 2 * mm + 1 ≤ g.N) (hadv : 128 * (nch * 2) ≤ mm * g.B) (nullOk : Bool) {fuel : Nat} (hf : g.N ≤ fuel + 1) :
    ∃ a', (a.withInterp k).playRaw g (some ⟨m, 0, past⟩) nch = .ok (true, a') ∧ a'.rd.playing = true ∧ a'.rd.interp = k ∧ a'.rd.nch = nch ∧ a'.rd.pos1 = P ∧
      a'.rd.rate = a.rd.rate ∧ LikeInMemoryAt fp g nullOk (fuel + 1) a' m (UpToNormal k (SpeedsBack fp 1)) := by
  obtain ⟨a', e1, e2, e3, _, e5, e6, _, e8⟩ := C72_back_raw_partial fp hfp g hB hNB a hb hm past hc (by omega) hset hhead hP hgood hmm0 hmm hadv nullOk hf
  obtain ⟨h1, h2⟩ := C82_open_partial hfp hb (hset.gentle hrem hpts) e1 e8 (fun _ _ _ _ h => h) (by rw [e3]; omega) (by rw [e3]; omega)
  exact ⟨_, h1, e2, rfl, e3, e5, e6, h2⟩

/-- **C82** (a WAV file, backwards). -/
theorem C82_back_wav_partial (hfp : Representable fp) (k : Interp) (g : Geo) (hB : g.B < 16384) (hNB : g.N * g.B ≤ 2 ^ 30) (a : FileReader) (hb : IsBytes m) (hm : m.length < 2 ^ 31)
    (past : Bool) (junk : List Nat) (hj : junk.length = 36) (hg : GoodHeader m)
    (hdep : leVal (slice m 34 2) = 16) {off : Nat} (hda : DataAt m off) {nch D : Nat} (hn : leVal (slice m 22 2) = nch) (hc : 1 ≤ nch) (hc8 : nch ≤ 8)
    (hD : leVal (slice m (off + 4) 4) = D) (hdata : off + 8 + D ≤ m.length) {mm : Int} (hset : BackwardSettings fp a.rd 1) (hrem : k = .quadratic → a.rd.rem ≤ 0) (hpts : PtsOk a.rd) {P : Int}
    (hP : StartsBackAt a.rd ((m.length : Int) / 2) ((off + 8) / 2 : Nat) (D / 2 / nch : Nat) nch P) (hgood : GoodStart g m ((off + 8) / 2 : Nat) nch P)
    (hmm0 : 0 ≤ mm) (hmm : 2 * mm + 1 ≤ g.N) (hadv : 128 * (nch * 2) ≤ mm * g.B) (nullOk : Bool) {fuel : Nat} (hf : g.N ≤ fuel + 1) :
    ∃ a', (a.withInterp k).playWav g (some ⟨m, 0, past⟩) junk = .ok (true, a') ∧ a'.rd.playing = true ∧ a'.rd.interp = k ∧ a'.rd.nch = nch ∧ a'.rd.pos1 = P ∧
      a'.rd.rate = a.rd.rate ∧ LikeInMemoryAt fp g nullOk (fuel + 1) a' m (UpToNormal k (SpeedsBack fp 1)) := by
  obtain ⟨a', e1, e2, e3, _, _, e5, e6, _, e8⟩ := C72_back_wav_partial fp hfp g hB hNB a hb hm past junk hj hg hdep hda hn hc (by omega) hD hdata hset hP hgood hmm0 hmm hadv nullOk hf
  obtain ⟨h1, h2⟩ := C82_open_partial hfp hb (hset.gentle hrem hpts) e1 e8 (fun _ _ _ _ h => h) (by rw [e3]; omega) (by rw [e3]; omega)
  exact ⟨_, h1, e2, rfl, e3, e5, e6, h2⟩

/-- **C82** (part of a raw file, round and round). -/
theorem C82_loop_raw_partial (hfp : Representable fp) (k : Interp) (g : Geo) (hB : g.B < 16384) (hNB : g.N * g.B ≤ 2 ^ 30) (a : FileReader) (hb : IsBytes m) (hm : m.length < 2 ^ 31)
    (past : Bool) {nch : Nat} (hc : 1 ≤ nch) (hc8 : nch ≤ 8) {mm : Int} (hset : RepeatSettings a.rd 1) (hrem : k = .quadratic → 0 ≤ a.rd.rem) (hpts : PtsOk a.rd)
    (hhead : a.rd.header = 0) (hloop : GoodLoop g m 0 nch a.rd.loopStart a.rd.loopFinish (firstFrame a.rd))
    (hmm0 : 0 ≤ mm) (hmm : 2 * mm + 5 ≤ g.N) (hadv : 128 * (nch * 2) ≤ mm * g.B) (nullOk : Bool) {fuel : Nat} (hf : g.N ≤ fuel + 2) :
    ∃ a', (a.withInterp k).playRaw g (some ⟨m, 0, past⟩) nch = .ok (true, a') ∧ a'.rd.playing = true ∧ a'.rd.interp = k ∧ a'.rd.nch = nch ∧
      a'.rd.loopType = .repeat ∧ a'.rd.loopStart = a.rd.loopStart ∧ a'.rd.loopFinish = a.rd.loopFinish ∧ a'.rd.pos1 = firstFrame a.rd * nch ∧
      a'.rd.rate = a.rd.rate ∧ LikeInMemoryAt fp g nullOk (fuel + 2) a' m (UpToNormal k (SpeedsTo 1)) := by
  obtain ⟨a', e1, e2, e3, _, e4, e5, e6, e7, e8, _, e9⟩ := C72_loop_raw_partial fp hfp g hB hNB a hb hm past hc (by omega) hset hhead hloop hmm0 hmm hadv nullOk hf
  obtain ⟨h1, h2⟩ := C82_open_partial hfp hb (hset.gentle hrem hpts) e1 e9 (fun _ _ _ _ h => h) (by rw [e3]; omega) (by rw [e3]; omega)
  exact ⟨_, h1, e2, rfl, e3, e4, e5, e6, e7, e8, h2⟩

/-- **C82** (part of a WAV file, round and round). -/
theorem C82_loop_wav_partial (hfp : Representable fp) (k : Interp) (g : Geo) (hB : g.B < 16384) (hNB : g.N * g.B ≤ 2 ^ 30) (a : FileReader) (hb : IsBytes m) (hm : m.length < 2 ^ 31)
    (past : Bool) (junk : List Nat) (hj : junk.length = 36) (hg : GoodHeader m)
    (hdep : leVal (slice m 34 2) = 16) {off : Nat} (hda : DataAt m off) {nch : Nat} (hn : leVal (slice m 22 2) = nch) (hc : 1 ≤ nch) (hc8 : nch ≤ 8)
    {mm : Int} (hset : RepeatSettings a.rd 1) (hrem : k = .quadratic → 0 ≤ a.rd.rem) (hpts : PtsOk a.rd)
    (hloop : GoodLoop g m ((off + 8) / 2 : Nat) nch a.rd.loopStart a.rd.loopFinish (firstFrame a.rd))
    (hmm0 : 0 ≤ mm) (hmm : 2 * mm + 5 ≤ g.N) (hadv : 128 * (nch * 2) ≤ mm * g.B) (nullOk : Bool) {fuel : Nat} (hf : g.N ≤ fuel + 2) :
    ∃ a', (a.withInterp k).playWav g (some ⟨m, 0, past⟩) junk = .ok (true, a') ∧ a'.rd.playing = true ∧ a'.rd.interp = k ∧ a'.rd.nch = nch ∧
      a'.rd.loopType = .repeat ∧ a'.rd.loopStart = a.rd.loopStart ∧ a'.rd.loopFinish = a.rd.loopFinish ∧
      a'.rd.pos1 = ((off + 8) / 2 : Nat) + firstFrame a.rd * nch ∧
      a'.rd.rate = a.rd.rate ∧ LikeInMemoryAt fp g nullOk (fuel + 2) a' m (UpToNormal k (SpeedsTo 1)) := by
  obtain ⟨a', e1, e2, e3, _, e4, e5, e6, e7, e8, _, e9⟩ := C72_loop_wav_partial fp hfp g hB hNB a hb hm past junk hj hg hdep hda hn hc (by omega) hset hloop hmm0 hmm hadv nullOk hf
  obtain ⟨h1, h2⟩ := C82_open_partial hfp hb (hset.gentle hrem hpts) e1 e9 (fun _ _ _ _ h => h) (by rw [e3]; omega) (by rw [e3]; omega)
  exact ⟨_, h1, e2, rfl, e3, e4, e5, e6, e7, e8, h2⟩

/-- **C82** (part of a raw file, round and round backwards). -/
theorem C82_loop_back_raw_partial (hfp : Representable fp) (k : Interp) (g : Geo) (hB : g.B < 16384) (hNB : g.N * g.B ≤ 2 ^ 30) (a : FileReader) (hb : IsBytes m) (hm : m.length < 2 ^ 31)
    (past : Bool) {nch : Nat} (hc : 1 ≤ nch) (hc8 : nch ≤ 8) {mm : Int} (hset : RepeatBackSettings fp a.rd 1) (hrem : k = .quadratic → a.rd.rem ≤ 0) (hpts : PtsOk a.rd)
    (hhead : a.rd.header = 0) {P : Int} (hP : StartsBackAt a.rd ((m.length : Int) / 2) 0 a.rd.loopFinish nch P)
    (hloop : GoodLoopBack g m 0 nch a.rd.loopStart a.rd.loopFinish P)
    (hmm0 : 0 ≤ mm) (hmm : 2 * mm + 5 ≤ g.N) (hadv : 128 * (nch * 2) + nch * nch ≤ mm * g.B) (nullOk : Bool) {fuel : Nat} (hf : g.N ≤ fuel + 2) :
    ∃ a', (a.withInterp k).playRaw g (some ⟨m, 0, past⟩) nch = .ok (true, a') ∧ a'.rd.playing = true ∧ a'.rd.interp = k ∧ a'.rd.loopType = .repeat ∧ a'.rd.nch = nch ∧
      a'.rd.loopStart = a.rd.loopStart ∧ a'.rd.loopFinish = a.rd.loopFinish ∧ a'.rd.pos1 = P ∧
      a'.rd.rate = a.rd.rate ∧ LikeInMemoryAt fp g nullOk (fuel + 2) a' m (UpToNormal k (SpeedsBack fp 1)) := by
  obtain ⟨a', e1, e2, e3, e4, _, e5, e6, e7, e8, _, e9⟩ := C72_loop_back_raw_partial fp hfp g hB hNB a hb hm past hc (by omega) hset hhead hP hloop hmm0 hmm hadv nullOk hf
  obtain ⟨h1, h2⟩ := C82_open_partial hfp hb (hset.gentle hrem hpts) e1 e9 (fun _ _ _ _ h => h) (by rw [e4]; omega) (by rw [e4]; omega)
  exact ⟨_, h1, e2, rfl, e3, e4, e5, e6, e7, e8, h2⟩

/-- **C82** (part of a WAV file, round and round backwards). -/
theorem C82_loop_back_wav_partial (hfp : Representable fp) (k : Interp) (g : Geo) (hB : g.B < 16384) (hNB : g.N * g.B ≤ 2 ^ 30) (a : FileReader) (hb : IsBytes m) (hm : m.length < 2 ^ 31)
    (past : Bool) (junk : List Nat) (hj : junk.length = 36) (hg : GoodHeader m)
    (hdep : leVal (slice m 34 2) = 16) {off : Nat} (hda : DataAt m off) {nch : Nat} (hn : leVal (slice m 22 2) = nch) (hc : 1 ≤ nch) (hc8 : nch ≤ 8)
    {mm : Int} (hset : RepeatBackSettings fp a.rd 1) (hrem : k = .quadratic → a.rd.rem ≤ 0) (hpts : PtsOk a.rd) {P : Int}
    (hP : StartsBackAt a.rd ((m.length : Int) / 2) ((off + 8) / 2 : Nat) a.rd.loopFinish nch P)
    (hloop : GoodLoopBack g m ((off + 8) / 2 : Nat) nch a.rd.loopStart a.rd.loopFinish P)
    (hmm0 : 0 ≤ mm) (hmm : 2 * mm + 5 ≤ g.N) (hadv : 128 * (nch * 2) + nch * nch ≤ mm * g.B) (nullOk : Bool) {fuel : Nat} (hf : g.N ≤ fuel + 2) :
    ∃ a', (a.withInterp k).playWav g (some ⟨m, 0, past⟩) junk = .ok (true, a') ∧ a'.rd.playing = true ∧ a'.rd.interp = k ∧ a'.rd.loopType = .repeat ∧ a'.rd.nch = nch ∧
      a'.rd.loopStart = a.rd.loopStart ∧ a'.rd.loopFinish = a.rd.loopFinish ∧ a'.rd.pos1 = P ∧
      a'.rd.rate = a.rd.rate ∧ LikeInMemoryAt fp g nullOk (fuel + 2) a' m (UpToNormal k (SpeedsBack fp 1)) := by
  obtain ⟨a', e1, e2, e3, e4, _, e5, e6, e7, e8, _, e9⟩ := C72_loop_back_wav_partial fp hfp g hB hNB a hb hm past junk hj hg hdep hda hn hc (by omega) hset hP hloop hmm0 hmm hadv nullOk hf
  obtain ⟨h1, h2⟩ := C82_open_partial hfp hb (hset.gentle hrem hpts) e1 e9 (fun _ _ _ _ h => h) (by rw [e4]; omega) (by rw [e4]; omega)
  exact ⟨_, h1, e2, rfl, e3, e4, e5, e6, e7, e8, h2⟩

theorem PingSettings.gentle {k : Interp} {r : Rd} (h : PingSettings fp r 1) (hk : k ≠ .quadratic) (hp : PtsOk r) : GentleSettings k r := by
  have := h.rateR
  push_cast at this
  exact ⟨h.plain, fun h => absurd h hk, this, h.frac, fun h => absurd h hk, fun h => absurd h hk, hp⟩

/-- **C82** (part of a raw file, to and fro).  With linear interpolation. -/
theorem C82_ping_raw_partial (hfp : Representable fp) (g : Geo) (hB : g.B < 16384) (hNB : g.N * g.B ≤ 2 ^ 30) (a : FileReader) (hb : IsBytes m) (hm : m.length < 2 ^ 31)
    (past : Bool) {nch : Nat} (hc : 1 ≤ nch) (hc8 : nch ≤ 8) (hset : PingSettings fp a.rd 1) (hpts : PtsOk a.rd) (hhead : a.rd.header = 0) {P T : Int}
    (hP : StartsPingAt a.rd ((m.length : Int) / 2) 0 nch P) (hT : TurnsBelowAt a.rd 0 nch T)
    (hloop : GoodPing g m (0 ≤ a.rd.rate) 0 nch a.rd.loopStart a.rd.loopFinish T 1 P) (nullOk : Bool) {fuel : Nat} (hf : g.N ≤ fuel + 2) :
    ∃ a', (a.withInterp .linear).playRaw g (some ⟨m, 0, past⟩) nch = .ok (true, a') ∧ a'.rd.playing = true ∧ a'.rd.interp = .linear ∧ a'.rd.loopType = .pingpong ∧ a'.rd.nch = nch ∧
      a'.rd.loopStart = a.rd.loopStart ∧ a'.rd.loopFinish = a.rd.loopFinish ∧ a'.rd.pos1 = P ∧
      a'.rd.rate = a.rd.rate ∧ LikeInMemoryAt fp g nullOk (fuel + 2) a' m (UpToNormal .linear (SpeedsPing fp 1)) := by
  obtain ⟨a', e1, e2, e3, e4, _, e5, e6, e7, e8, _, e9⟩ := C72_ping_raw_partial fp hfp g hB hNB a hb hm past hc (by omega) hset hhead hP hT hloop nullOk hf
  obtain ⟨h1, h2⟩ := C82_open_partial hfp hb (hset.gentle (k := .linear) (by decide) hpts) e1 e9 (fun _ _ _ _ h => h) (by rw [e4]; omega) (by rw [e4]; omega)
  exact ⟨_, h1, e2, rfl, e3, e4, e5, e6, e7, e8, h2⟩

/-- **C82** (part of a WAV file, to and fro).  With linear interpolation. -/
theorem C82_ping_wav_partial (hfp : Representable fp) (g : Geo) (hB : g.B < 16384) (hNB : g.N * g.B ≤ 2 ^ 30) (a : FileReader) (hb : IsBytes m) (hm : m.length < 2 ^ 31)
    (past : Bool) (junk : List Nat) (hj : junk.length = 36) (hg : GoodHeader m)
    (hdep : leVal (slice m 34 2) = 16) {off : Nat} (hda : DataAt m off) {nch : Nat} (hn : leVal (slice m 22 2) = nch) (hc : 1 ≤ nch) (hc8 : nch ≤ 8)
    (hset : PingSettings fp a.rd 1) (hpts : PtsOk a.rd) {P T : Int}
    (hP : StartsPingAt a.rd ((m.length : Int) / 2) ((off + 8) / 2 : Nat) nch P) (hT : TurnsBelowAt a.rd ((off + 8) / 2 : Nat) nch T)
    (hloop : GoodPing g m (0 ≤ a.rd.rate) ((off + 8) / 2 : Nat) nch a.rd.loopStart a.rd.loopFinish T 1 P) (nullOk : Bool) {fuel : Nat} (hf : g.N ≤ fuel + 2) :
    ∃ a', (a.withInterp .linear).playWav g (some ⟨m, 0, past⟩) junk = .ok (true, a') ∧ a'.rd.playing = true ∧ a'.rd.interp = .linear ∧ a'.rd.loopType = .pingpong ∧ a'.rd.nch = nch ∧
      a'.rd.loopStart = a.rd.loopStart ∧ a'.rd.loopFinish = a.rd.loopFinish ∧ a'.rd.pos1 = P ∧
      a'.rd.rate = a.rd.rate ∧ LikeInMemoryAt fp g nullOk (fuel + 2) a' m (UpToNormal .linear (SpeedsPing fp 1)) := by
  obtain ⟨a', e1, e2, e3, e4, _, e5, e6, e7, e8, _, e9⟩ := C72_ping_wav_partial fp hfp g hB hNB a hb hm past junk hj hg hdep hda hn hc (by omega) hset hP hT hloop nullOk hf
  obtain ⟨h1, h2⟩ := C82_open_partial hfp hb (hset.gentle (k := .linear) (by decide) hpts) e1 e9 (fun _ _ _ _ h => h) (by rw [e4]; omega) (by rw [e4]; omega)
  exact ⟨_, h1, e2, rfl, e3, e4, e5, e6, e7, e8, h2⟩

theorem pts_new : PtsOk ({} : Rd) := fun _ => by refine ⟨?_, ?_, ?_, ?_⟩ <;> (show (-32768 : Int) ≤ 0 ∧ (0 : Int) ≤ 32767; decide)

/-! ## Where it fails -/

/-- The second half of eight samples, to and fro at three quarters of the speed. -/
def exToFro : FileReader := { rd := { rate := 3 / 4, loopType := .pingpong, loopStart := 4, loopFinish := 8, playStart := .loop } }

theorem exToFro_settings : PingSettings Fp.ieee exToFro.rd 1 :=
  ⟨⟨rfl, rfl⟩, rfl, by show Fp.ieee.f.rnd (3 / 4) ≠ 0; decide +kernel, by norm_num [exToFro], by
    show IsFloat 53 (-1074) 0
    simpa using Rounding.isFloat_of (p := 53) (emin := -1074) (by norm_num) (m := 0) (e := 0) (by norm_num) (by norm_num), by norm_num [exToFro]⟩

/-- **C82** is violated by cubic interpolation in a loop to and fro.  The second half of a file of eight samples: without interpolation
it plays as from memory for ever.  Cubic interpolation, turned on after the file was opened, reads the ninth sample after the first turn:
in memory there is none. -/
theorem C82_refuted : ∃ a', exToFro.playRaw exGeo (some ⟨List.replicate 16 1, 0, false⟩) (1 : Nat) = .ok (true, a') ∧
    LikeInMemory Fp.ieee exGeo true 2 a' (List.replicate 16 1) ∧ ¬ LikeInMemory Fp.ieee exGeo true 2 (a'.withInterp .quadratic) (List.replicate 16 1) := by
  obtain ⟨a', e1, _, _, _, _, _, _, _, _, _, h⟩ := C71_raw_partial Fp.ieee ieee_representable exGeo (by decide) (by decide) exToFro (m := List.replicate 16 1)
    (by intro b hb; rw [(List.mem_replicate.1 hb).2]; decide) (by decide) false (nch := 1) (by decide) (by decide) exToFro_settings rfl (P := 4) (T := 4)
    (by unfold StartsPingAt; rw [if_pos (by norm_num [exToFro])]; decide) (by unfold TurnsBelowAt; decide)
    ⟨by decide, by decide, by decide, by decide, by decide, ⟨by decide, by decide, by decide⟩, fun _ => ⟨by decide, Or.inr ⟨by decide, by decide, by decide⟩⟩,
      fun h => absurd (by norm_num [exToFro]) h⟩ true (fuel := 0) (by decide)
  refine ⟨a', e1, h, fun hl => ?_⟩
  have e2 : (exToFro.playRaw exGeo (some ⟨List.replicate 16 1, 0, false⟩) (1 : Nat)).bind (fun x =>
      (ArrayReader.ticks Fp.ieee 2 ⟨(x.2.withInterp .quadratic).rd, some (samplesOf (List.replicate 16 1))⟩ [fun _ => true]).map fun _ => ()) = .error .outOfBounds := by
    decide +kernel
  rw [e1] at e2
  obtain ⟨_, _, _, _, k2, _⟩ := hl [fun _ => true]
  simp only [Except.bind, k2, Except.map] at e2
  cases e2

/-! ## Examples -/

/-- To and fro with linear interpolation, from the beginning of a stereo file of 100000 bytes. -/
example : ∃ a', ((exPing (3 / 4) 20000 7).withInterp .linear).playRaw sdGeo (some ⟨List.replicate 100000 5, 0, false⟩) (2 : Nat) = .ok (true, a') ∧ a'.rd.playing = true ∧
    a'.rd.interp = .linear ∧ a'.rd.loopType = .pingpong ∧ a'.rd.nch = (2 : Nat) ∧ a'.rd.loopStart = 500 ∧ a'.rd.loopFinish = 20000 ∧ a'.rd.pos1 = 14 ∧
    a'.rd.rate = 3 / 4 ∧ LikeInMemoryAt Fp.ieee sdGeo true (6 + 2) a' (List.replicate 100000 5) (UpToNormal .linear (SpeedsPing Fp.ieee 1)) :=
  C82_ping_raw_partial ieee_representable sdGeo (by decide) (by decide) (exPing (3 / 4) 20000 7) (by intro b hb; rw [(List.mem_replicate.1 hb).2]; decide)
    (by rw [List.length_replicate]; decide) false (by decide) (by decide) (exPing_settings (by decide +kernel) (by norm_num) _ _) (pts_new) rfl
    (P := 14) (T := 1000) (by unfold StartsPingAt; rw [if_pos (by norm_num [exPing])]; decide) (by unfold TurnsBelowAt; decide)
    ⟨by decide, by decide, by rw [List.length_replicate]; decide, by decide, by decide, ⟨by decide, by rw [List.length_replicate]; decide, by decide⟩,
      fun _ => ⟨by decide, Or.inl ⟨⟨by decide, by decide, 1, by decide, by decide⟩, by decide⟩⟩, fun h => absurd (by norm_num [exPing]) h⟩ true (by decide)

/-- The stereo WAV file of 40056 bytes. -/
example : ∃ a', ((exPing (-1 / 2) 9000 8400).withInterp .linear).playWav sdGeo (some ⟨exLongWav, 0, false⟩) (List.replicate 36 7) = .ok (true, a') ∧ a'.rd.playing = true ∧
    a'.rd.interp = .linear ∧ a'.rd.loopType = .pingpong ∧ a'.rd.nch = (2 : Nat) ∧ a'.rd.loopStart = 500 ∧ a'.rd.loopFinish = 9000 ∧
    a'.rd.pos1 = 16828 ∧ a'.rd.rate = -1 / 2 ∧ LikeInMemoryAt Fp.ieee sdGeo true (6 + 2) a' exLongWav (UpToNormal .linear (SpeedsPing Fp.ieee 1)) :=
  C82_ping_wav_partial ieee_representable sdGeo (by decide) (by decide) (exPing (-1 / 2) 9000 8400) exLongWav_bytes (by rw [exLongWav_length]; decide) false
    (List.replicate 36 7) (by decide) (by decide +kernel) (by decide +kernel) (off := 48)
    ⟨Or.inr ⟨by decide +kernel, by decide +kernel⟩, by decide +kernel, by rw [exLongWav_length]; decide⟩ (nch := 2) (by decide +kernel) (by decide) (by decide)
    (exPing_settings (by decide +kernel) (by norm_num [abs_of_neg]) _ _) pts_new
    (P := 16828) (T := 1028) (by unfold StartsPingAt; rw [if_neg (by norm_num [exPing])]; show (16828 : Int) = _; decide) (by unfold TurnsBelowAt; decide)
    ⟨by decide, by decide, by rw [exLongWav_length]; decide, by decide, by decide, ⟨by decide, by rw [exLongWav_length]; decide, by decide⟩,
      fun h => absurd h (by norm_num [exPing]), fun _ => ⟨by decide, by decide, by rw [exLongWav_length]; decide,
        Or.inl ⟨⟨by decide, by decide, 1, by decide, by decide⟩, by decide⟩⟩⟩ true (by decide)


/-- Half speed backwards with cubic interpolation. -/
example : ∃ a', (exMinusHalf.withInterp .quadratic).playRaw sdGeo (some ⟨exBytes, 0, false⟩) (1 : Nat) = .ok (true, a') ∧ a'.rd.playing = true ∧
    a'.rd.interp = .quadratic ∧ a'.rd.nch = (1 : Nat) ∧ a'.rd.pos1 = 9 ∧ a'.rd.rate = -1 / 2 ∧
    LikeInMemoryAt Fp.ieee sdGeo true (6 + 1) a' exBytes (UpToNormal .quadratic (SpeedsBack Fp.ieee 1)) :=
  C82_back_raw_partial ieee_representable .quadratic sdGeo (by decide) (by decide) exMinusHalf (by unfold IsBytes; decide) (by decide) false (by decide)
    (by decide) (mm := 1) exMinusHalf_settings (fun _ => le_refl _) pts_new rfl (P := 9) (by show (9 : Int) = _; decide) ⟨by decide, by decide, by decide, by decide⟩ (by decide)
    (by decide) (by decide) true (by decide)

example : ∃ a', (exMinusHalf.withInterp .linear).playWav sdGeo (some ⟨exWav, 0, false⟩) (List.replicate 36 7) = .ok (true, a') ∧ a'.rd.playing = true ∧
    a'.rd.interp = .linear ∧ a'.rd.nch = (2 : Nat) ∧ a'.rd.pos1 = 30 ∧ a'.rd.rate = -1 / 2 ∧
    LikeInMemoryAt Fp.ieee sdGeo true (6 + 1) a' exWav (UpToNormal .linear (SpeedsBack Fp.ieee 1)) :=
  C82_back_wav_partial ieee_representable .linear sdGeo (by decide) (by decide) exMinusHalf exWav_bytes (by decide) false (List.replicate 36 7) (by decide)
    (by decide) (by decide) (off := 48) ⟨Or.inr ⟨by decide, by decide⟩, by decide, by decide⟩ (nch := 2) (D := 8) (by decide) (by decide) (by decide)
    (by decide) (by decide) (mm := 1) exMinusHalf_settings (fun _ => le_refl _) pts_new (P := 30) (by show (30 : Int) = _; decide)
    ⟨by decide, by decide, by decide, by decide⟩ (by decide) (by decide) (by decide) true (by decide)

/-- A player set to repeat frames 500 to `z` at two thirds of the speed, starting at the given frame. -/
def exSlowLoop (z q : Int) : FileReader := { rd := { rate := 2 / 3, loopType := .repeat, loopStart := 500, loopFinish := z, playStart := .arbitrary, playbackStart := q } }

theorem exSlowLoop_settings (z q : Int) : RepeatSettings (exSlowLoop z q).rd 1 :=
  ⟨⟨rfl, rfl⟩, rfl, by norm_num [exSlowLoop], by norm_num [exSlowLoop], by
    show IsFloat 53 (-1074) 0
    simpa using Rounding.isFloat_of (p := 53) (emin := -1074) (by norm_num) (m := 0) (e := 0) (by norm_num) (by norm_num), by norm_num [exSlowLoop]⟩

/-- A loop of many blocks in a stereo file. -/
example : ∃ a', ((exSlowLoop 20000 7).withInterp .quadratic).playRaw sdGeo (some ⟨List.replicate 100000 5, 0, false⟩) (2 : Nat) = .ok (true, a') ∧ a'.rd.playing = true ∧
    a'.rd.interp = .quadratic ∧ a'.rd.nch = (2 : Nat) ∧ a'.rd.loopType = .repeat ∧ a'.rd.loopStart = 500 ∧ a'.rd.loopFinish = 20000 ∧ a'.rd.pos1 = 7 * (2 : Nat) ∧
    a'.rd.rate = 2 / 3 ∧ LikeInMemoryAt Fp.ieee sdGeo true (6 + 2) a' (List.replicate 100000 5) (UpToNormal .quadratic (SpeedsTo 1)) :=
  C82_loop_raw_partial ieee_representable .quadratic sdGeo (by decide) (by decide) (exSlowLoop 20000 7) (by intro b hb; rw [(List.mem_replicate.1 hb).2]; decide)
    (by rw [List.length_replicate]; decide) false (by decide) (by decide) (exSlowLoop_settings 20000 7) (fun _ => le_refl _) pts_new rfl
    ⟨by decide, by decide, by rw [List.length_replicate]; decide, by decide, by decide, Or.inl ⟨by decide, by decide⟩⟩ (mm := 1) (by decide) (by decide)
    (by decide) true (by decide)

/-- A loop of four hundred frames in a stereo WAV file. -/
example : ∃ a', ((exSlowLoop 900 500).withInterp .linear).playWav sdGeo (some ⟨exLongWav, 0, false⟩) (List.replicate 36 7) = .ok (true, a') ∧ a'.rd.playing = true ∧
    a'.rd.interp = .linear ∧ a'.rd.nch = (2 : Nat) ∧ a'.rd.loopType = .repeat ∧ a'.rd.loopStart = 500 ∧ a'.rd.loopFinish = 900 ∧
    a'.rd.pos1 = ((48 + 8) / 2 : Nat) + 500 * (2 : Nat) ∧ a'.rd.rate = 2 / 3 ∧
    LikeInMemoryAt Fp.ieee sdGeo true (6 + 2) a' exLongWav (UpToNormal .linear (SpeedsTo 1)) :=
  C82_loop_wav_partial ieee_representable .linear sdGeo (by decide) (by decide) (exSlowLoop 900 500) exLongWav_bytes (by rw [exLongWav_length]; decide) false
    (List.replicate 36 7) (by decide) (by decide +kernel) (by decide +kernel) (off := 48)
    ⟨Or.inr ⟨by decide +kernel, by decide +kernel⟩, by decide +kernel, by rw [exLongWav_length]; decide⟩ (nch := 2) (by decide +kernel) (by decide) (by decide)
    (exSlowLoop_settings 900 500) (fun _ => le_refl _) pts_new
    ⟨by decide, by decide, by rw [exLongWav_length]; decide, by decide, by decide, Or.inr ⟨by decide, by rw [exLongWav_length]; decide⟩⟩ (mm := 1)
    (by decide) (by decide) (by decide) true (by decide)

/-- Frames `s` to `z` repeated backwards at two thirds of the speed from the end of the loop. -/
def exSlowBack (s z : Int) : FileReader := { rd := { rate := -2 / 3, loopType := .repeat, loopStart := s, loopFinish := z, playStart := .loop } }

theorem exSlowBack_settings (s z : Int) : RepeatBackSettings Fp.ieee (exSlowBack s z).rd 1 :=
  ⟨⟨rfl, rfl⟩, rfl, by show Fp.ieee.f.rnd (-2 / 3) < 0; decide +kernel, by norm_num [exSlowBack], by
    show IsFloat 53 (-1074) 0
    simpa using Rounding.isFloat_of (p := 53) (emin := -1074) (by norm_num) (m := 0) (e := 0) (by norm_num) (by norm_num), by norm_num [exSlowBack],
    fun h => by cases h⟩

/-- A loop of ten frames near the end of a file of 40000 bytes. -/
example : ∃ a', ((exSlowBack 19000 19010).withInterp .quadratic).playRaw sdGeo (some ⟨List.replicate 40000 5, 0, false⟩) (1 : Nat) = .ok (true, a') ∧ a'.rd.playing = true ∧
    a'.rd.interp = .quadratic ∧ a'.rd.loopType = .repeat ∧ a'.rd.nch = (1 : Nat) ∧ a'.rd.loopStart = 19000 ∧ a'.rd.loopFinish = 19010 ∧ a'.rd.pos1 = 19009 ∧
    a'.rd.rate = -2 / 3 ∧ LikeInMemoryAt Fp.ieee sdGeo true (6 + 2) a' (List.replicate 40000 5) (UpToNormal .quadratic (SpeedsBack Fp.ieee 1)) :=
  C82_loop_back_raw_partial ieee_representable .quadratic sdGeo (by decide) (by decide) (exSlowBack 19000 19010) (by intro b hb; rw [(List.mem_replicate.1 hb).2]; decide)
    (by rw [List.length_replicate]; decide) false (by decide) (by decide) (exSlowBack_settings 19000 19010) (fun _ => le_refl _) pts_new rfl
    (P := 19009) (by show (19009 : Int) = _; decide)
    ⟨by decide, by decide, by rw [List.length_replicate]; decide, by decide, by rw [List.length_replicate]; decide, by decide, by rw [List.length_replicate]; decide,
      Or.inr ⟨by decide, by decide⟩⟩ (mm := 1) (by decide) (by decide) (by decide) true (by decide)

/-- A loop of many blocks at the beginning of a stereo WAV file. -/
example : ∃ a', ((exSlowBack 0 8000).withInterp .linear).playWav sdGeo (some ⟨exLongWav, 0, false⟩) (List.replicate 36 7) = .ok (true, a') ∧ a'.rd.playing = true ∧
    a'.rd.interp = .linear ∧ a'.rd.loopType = .repeat ∧ a'.rd.nch = (2 : Nat) ∧ a'.rd.loopStart = 0 ∧ a'.rd.loopFinish = 8000 ∧
    a'.rd.pos1 = 16024 ∧ a'.rd.rate = -2 / 3 ∧ LikeInMemoryAt Fp.ieee sdGeo true (6 + 2) a' exLongWav (UpToNormal .linear (SpeedsBack Fp.ieee 1)) :=
  C82_loop_back_wav_partial ieee_representable .linear sdGeo (by decide) (by decide) (exSlowBack 0 8000) exLongWav_bytes (by rw [exLongWav_length]; decide) false
    (List.replicate 36 7) (by decide) (by decide +kernel) (by decide +kernel) (off := 48)
    ⟨Or.inr ⟨by decide +kernel, by decide +kernel⟩, by decide +kernel, by rw [exLongWav_length]; decide⟩ (nch := 2) (by decide +kernel) (by decide) (by decide)
    (exSlowBack_settings 0 8000) (fun _ => le_refl _) pts_new (P := 16024) (by show (16024 : Int) = _; decide)
    ⟨by decide, by decide, by rw [exLongWav_length]; decide, by decide, by rw [exLongWav_length]; decide, by decide, by rw [exLongWav_length]; decide,
      Or.inl ⟨by decide, by decide⟩⟩ (mm := 1)
    (by decide) (by decide) (by decide) true (by decide)

end TVP
