import Verif.Lemmas.Alike
import Verif.Props.Play
import Verif.Spec.Wav

/-!
# Property C70: only the data chunk is heard
-/

namespace TVP
open Spec

/-- What happens to a file player after it has been started: updates, running its pending event, settings, `stop`. -/
inductive PlayerOp
  | update (alloc : Nat → Bool)
  | run
  | set (c : Cmd)
  | stop

/-- A setting reaches the cache, too, where the library passes it on. -/
def FileReader.cmd (g : Geo) (a : FileReader) : Cmd → FileReader
  | .loopType t => a.setLoopType t
  | .loopStart l => a.setLoopStart g l
  | .loopFinish l => a.setLoopFinish g l
  | c => { a with rd := c.run a.rd }

def FilePlayer.act (fp : Fp) (g : Geo) (nullOk : Bool) (fuel : Nat) (p : FilePlayer) : PlayerOp → M (List Fx × FilePlayer)
  | .update al => do let (fx, p) ← p.update fp g nullOk fuel al; return ([fx], p)
  | .run => do return ([], ← p.runEvent fp g fuel)
  | .set c => .ok ([], { p with rdr := p.rdr.cmd g c })
  | .stop => .ok ([], p.stop)

def FilePlayer.acts (fp : Fp) (g : Geo) (nullOk : Bool) (fuel : Nat) : FilePlayer → List PlayerOp → M (List Fx × FilePlayer)
  | p, [] => .ok ([], p)
  | p, x :: xs => do
    let (fxs, p) ← p.act fp g nullOk fuel x
    let (fxs', p) ← FilePlayer.acts fp g nullOk fuel p xs
    return (fxs ++ fxs', p)

/-- Every setting is allowed (`Cmd.Allowed`) at the moment it is made, as long as the file is open. -/
def Sensible (fp : Fp) (g : Geo) (nullOk : Bool) (fuel : Nat) (R T : Int) : FilePlayer → List PlayerOp → Prop
  | _, [] => True
  | p, x :: xs =>
    (∀ c, x = .set c → p.rdr.src.isSome = true → c.Allowed false R T p.rdr.rd) ∧
      ∀ fxs p', p.act fp g nullOk fuel x = .ok (fxs, p') → Sensible fp g nullOk fuel R T p' xs

theorem FileReader.cmd_rd (g : Geo) (a : FileReader) (c : Cmd) : (a.cmd g c).rd = c.run a.rd := by cases c <;> rfl

theorem FileReader.cmd_src (g : Geo) (a : FileReader) (c : Cmd) : (a.cmd g c).src.isSome = a.src.isSome := by
  cases c <;> simp [FileReader.cmd, FileReader.setLoopType, FileReader.setLoopStart, FileReader.setLoopFinish]

theorem Twin.cmd {W : Int → Prop} {g : Geo} {a b : FileReader} (h : Twin W g a b) (c : Cmd) : Twin W g (a.cmd g c) (b.cmd g c) := by
  obtain ⟨ra, sa⟩ := a
  obtain ⟨rb, sb⟩ := b
  obtain ⟨h1, h2⟩ := h
  simp only at h1 h2
  subst h1
  refine ⟨by rw [FileReader.cmd_rd, FileReader.cmd_rd], ?_⟩
  rcases h2 with ⟨rfl, rfl⟩ | ⟨k, k', rfl, rfl, hal⟩
  · cases c <;> exact Or.inl ⟨rfl, rfl⟩
  · refine Or.inr ?_
    cases c with
    | loopType t => exact ⟨_, _, rfl, rfl, hal.bufs, hal.dev, hal.fails, hal.prevRate, rfl, hal.loopStartBlk, hal.loopFinishBlk⟩
    | loopStart l => exact ⟨_, _, rfl, rfl, hal.bufs, hal.dev, hal.fails, hal.prevRate, hal.loopType, rfl, hal.loopFinishBlk⟩
    | loopFinish l => exact ⟨_, _, rfl, rfl, hal.bufs, hal.dev, hal.fails, hal.prevRate, hal.loopType, hal.loopStartBlk, rfl⟩
    | rate f => exact ⟨_, _, rfl, rfl, hal⟩
    | playStart m x => exact ⟨_, _, rfl, rfl, hal⟩
    | interp t => exact ⟨_, _, rfl, rfl, hal⟩
    | play => exact ⟨_, _, rfl, rfl, hal⟩

theorem Going.stop {w : Bool} {r : Rd} {R T : Int} (h : Going w r R T) : Going w r.stop R T := by
  obtain ⟨z, hp, q, k⟩ := h
  exact ⟨⟨z.dual, z.nch, z.rateR, z.R30, z.header0, z.interp, z.fits, z.F0, z.FT, z.A0, z.AT, z.E0, z.ET, z.loop⟩, hp, q,
    k.dual, k.cfOn, k.nch, k.rateR, k.R30, k.flt, k.frac, k.pos, k.header0, k.w0, k.w1, k.interp, k.fits, k.samples, k.A0, k.AT, k.loop, k.q0, k.q1⟩

/-- Two players in the same state, playing alike files inside what matters. -/
structure Twins (W : Int → Prop) (g : Geo) (R T : Int) (p q : FilePlayer) : Prop where
  pending : q.pending = p.pending
  twin : Twin W g p.rdr q.rdr
  going : p.rdr.src.isSome = true → Going false p.rdr.rd R T ∧ ∀ i, p.rdr.rd.header ≤ i → i < p.rdr.rd.header + T * p.rdr.rd.nch → W i

theorem Twins.act {fp : Fp} (hfp : Representable fp) {W : Int → Prop} (hW : Fits W) {g : Geo} (nullOk : Bool) (fuel : Nat) {R T : Int}
    {p q : FilePlayer} (h : Twins W g R T p q) (x : PlayerOp)
    (hx : ∀ c, x = .set c → p.rdr.src.isSome = true → c.Allowed false R T p.rdr.rd) :
    Both (fun a b => a.1 = b.1 ∧ Twins W g R T a.2 b.2) (p.act fp g nullOk (fuel + 2) x) (q.act fp g nullOk (fuel + 2) x) := by
  have hrd := h.twin.rd
  cases x with
  | update al =>
    have key : Both (fun a b => a.1 = b.1 ∧ Twins W g R T ⟨a.2, p.pending⟩ ⟨b.2, q.pending⟩)
        (p.rdr.update fp g nullOk (fuel + 2) al) (q.rdr.update fp g nullOk (fuel + 2) al) := by
      have hself : Twins W g R T ⟨p.rdr, p.pending⟩ ⟨q.rdr, q.pending⟩ := h
      unfold FileReader.update TVP.update
      rw [hrd]
      by_cases h1 : p.rdr.rd.nch = -1
      · simp only [h1, if_true]; exact Both.ok ⟨rfl, hself⟩
      by_cases h2 : p.rdr.rd.nch < 0
      · simp only [h1, h2, if_true, if_false]; exact Or.inl ⟨_, rfl, rfl⟩
      cases h3 : p.rdr.rd.playing with
      | false => simp only [h1, h2, if_false, Bool.not_false, if_true]; exact Both.ok ⟨rfl, hself⟩
      | true =>
        simp only [h1, h2, if_false, Bool.not_true, Bool.false_eq_true]
        split
        · refine Both.bind (h.twin.read hfp hW nullOk fuel blockSamples h.going h3) ?_
          rintro ⟨f, a⟩ ⟨f', b⟩ ⟨rfl, k2, k3, k4⟩
          refine Both.ok ⟨rfl, h.pending, k2, fun hs => ?_⟩
          simp only at hs k3 k4 ⊢
          rw [k3] at hs
          obtain ⟨j1, j2, j3⟩ := k4 hs
          rw [j2, j3]
          exact ⟨j1, (h.going hs).2⟩
        · exact Both.ok ⟨rfl, hself⟩
    unfold FilePlayer.act FilePlayer.update
    simp only [bind_assoc]
    refine Both.bind key ?_
    rintro ⟨f, a⟩ ⟨f', b⟩ ⟨rfl, k⟩
    simp only
    cases f.event with
    | none => exact Both.ok ⟨rfl, k.pending, k.twin, k.going⟩
    | some e => exact Both.ok ⟨rfl, rfl, k.twin, k.going⟩
  | run =>
    unfold FilePlayer.act FilePlayer.runEvent
    rw [h.pending]
    cases hp : p.pending with
    | none => exact Both.ok ⟨rfl, h⟩
    | some e =>
      cases e with
      | reload =>
        simp only [FileReader.service]
        have := Both.bind (q' := fun a b => a.1 = b.1 ∧ Twins W g R T a.2 b.2) (h.twin.triggerReload hW fp (fuel + 2))
          (k := fun r => (pure (([] : List Fx), (⟨r, none⟩ : FilePlayer)) : M _)) (l := fun r => (pure (([] : List Fx), (⟨r, none⟩ : FilePlayer)) : M _))
          (fun a b hab => Both.ok ⟨rfl, rfl, hab.1, fun hs => by
            simp only at hs ⊢
            rw [hab.2.1]
            rw [hab.2.2] at hs
            exact h.going hs⟩)
        simpa only [bind_assoc, pure_bind] using this
      | close =>
        refine Both.ok ⟨rfl, rfl, ⟨?_, Or.inl ⟨rfl, rfl⟩⟩, fun hs => by cases hs⟩
        simp only [FileReader.close, hrd]
  | set c =>
    refine Both.ok ⟨rfl, h.pending, h.twin.cmd c, fun hs => ?_⟩
    simp only at hs ⊢
    rw [FileReader.cmd_src] at hs
    obtain ⟨g1, g2⟩ := h.going hs
    obtain ⟨e1, e2, _⟩ := c.run_nch p.rdr.rd
    rw [FileReader.cmd_rd, e1, e2]
    exact ⟨(hx c rfl hs).going g1, g2⟩
  | stop =>
    refine Both.ok ⟨rfl, rfl, ⟨?_, h.twin.src⟩, fun hs => ?_⟩
    · simp only [FilePlayer.stop, hrd]
    · obtain ⟨g1, g2⟩ := h.going hs
      exact ⟨g1.stop, g2⟩

theorem Twins.acts {fp : Fp} (hfp : Representable fp) {W : Int → Prop} (hW : Fits W) {g : Geo} (nullOk : Bool) (fuel : Nat) {R T : Int} :
    ∀ (xs : List PlayerOp) {p q : FilePlayer}, Twins W g R T p q → Sensible fp g nullOk (fuel + 2) R T p xs →
      Both (fun a b => a.1 = b.1 ∧ Twins W g R T a.2 b.2) (p.acts fp g nullOk (fuel + 2) xs) (q.acts fp g nullOk (fuel + 2) xs)
  | [], _, _, h, _ => Both.ok ⟨rfl, h⟩
  | x :: xs, p, q, h, hs => by
    unfold FilePlayer.acts
    rcases h.act hfp hW nullOk fuel x hs.1 with ⟨e, h1, h2⟩ | ⟨⟨f, p1⟩, ⟨f', q1⟩, h1, h2, h3, h4⟩
    · rw [h1, h2]; exact Or.inl ⟨e, rfl, rfl⟩
    · simp only at h3 h4
      subst h3
      rw [h1, h2]
      simp only [ok_bind]
      refine Both.bind (Twins.acts hfp hW nullOk fuel xs h4 (hs.2 _ _ h1)) ?_
      rintro ⟨k, a⟩ ⟨k', b⟩ ⟨rfl, j⟩
      exact Both.ok ⟨rfl, j⟩

/-- What one can tell about a player from outside: the effects so far, and the state of the reader (positions, settings, whether it
is playing), and the pending event. -/
def outside (x : M (List Fx × FilePlayer)) : M (List Fx × Rd × Option Ev) := x.map fun y => (y.1, y.2.rdr.rd, y.2.pending)

/-- Two files with equal data chunks. -/
structure SameData (m m' : List Nat) (off nch D : Nat) : Prop where
  bytes : IsBytes m
  bytes' : IsBytes m'
  length : m'.length = m.length
  small : m.length < 2 ^ 31
  good : GoodHeader m
  good' : GoodHeader m'
  depth : leVal (slice m 34 2) = 16
  depth' : leVal (slice m' 34 2) = 16
  chans : leVal (slice m 22 2) = nch
  chans' : leVal (slice m' 22 2) = nch
  dataAt : DataAt m off
  dataAt' : DataAt m' off
  size : leVal (slice m (off + 4) 4) = D
  size' : leVal (slice m' (off + 4) 4) = D
  inside : off + 8 + D ≤ m.length
  same : ∀ k < D, m'.getD (off + 8 + k) 0 = m.getD (off + 8 + k) 0

/-- The settings a player is started with, for `F` frames of `n` channels starting at sample `H` of a file of `size` bytes: within them
playback stays in the data chunk. -/
structure StartSettings (r : Rd) (R : Int) (F n H size : Nat) : Prop where
  dual : r.dual = false
  rateR : |r.rate| ≤ R
  R30 : R ≤ 2 ^ 30
  interp : r.interp ≠ .none → n ≤ 8 ∧ -1 ≤ r.rate ∧ (r.loopType = .pingpong → r.rate ≤ 1) ∧
    (r.interp = .quadratic → r.rate ≤ 1 ∧ r.loopType ≠ .pingpong ∧ (0 < r.rate → 0 ≤ r.rem) ∧ (r.rate < 0 → r.rem ≤ 0))
  fits : (H : Int) + n * (F + R + 5) ≤ 2147483647
  flt : IsFloat 53 (-1074) r.rem
  frac : |r.rem| < 1
  pts : PtsOk r
  loop : r.loopType ≠ .none → 0 ≤ r.loopStart ∧ r.loopStart < r.loopFinish ∧ r.loopFinish ≤ F ∧
    ((r.loopType = .repeat ∧ 0 ≤ r.rate) ∨ r.loopStart ≤ r.loopFinish - n)
  start : match r.playStart with
    | .arbitrary => 0 ≤ r.playbackStart ∧ r.playbackStart < F
    | .sample => 0 ≤ r.rate ∨ (size / 2 = H + F * n ∧ 0 < F)
    | .loop => 0 ≤ r.rate ∨ (if r.loopType = .none then (n : Int) ≤ F else n ≤ r.loopFinish)

theorem getD_same {m m' : List Nat} {o s n : Nat} (h : slice m' o n = slice m o n) (h1 : o ≤ s) (h2 : s < o + n) :
    m'.getD s 0 = m.getD s 0 := by
  have e : ∀ x : List Nat, x.getD s 0 = (slice x o n).getD (s - o) 0 := by
    intro x
    unfold slice
    simp only [List.getD_eq_getElem?_getD, List.getElem?_take, List.getElem?_drop]
    rw [if_pos (by omega), show o + (s - o) = s by omega]
  rw [e, e, h]

theorem bytes_inj {a b c d a' b' c' d' : Nat} (h1 : a < 256) (h2 : b < 256) (h3 : c < 256) (_ : d < 256) (h5 : a' < 256) (h6 : b' < 256)
    (h7 : c' < 256) (_ : d' < 256) (h : leVal [a, b, c, d] = leVal [a', b', c', d']) : a = a' ∧ b = b' ∧ c = c' ∧ d = d' := by
  simp only [leVal] at h
  have e1 : a = a' := by omega
  subst e1
  have h : b + 256 * (c + 256 * (d + 256 * 0)) = b' + 256 * (c' + 256 * (d' + 256 * 0)) := by omega
  have e2 : b = b' := by omega
  subst e2
  have h : c + 256 * (d + 256 * 0) = c' + 256 * (d' + 256 * 0) := by omega
  have e3 : c = c' := by omega
  subst e3
  exact ⟨rfl, rfl, rfl, by omega⟩

/-- Samples `H` to `H + K`. -/
def Span (H K : Nat) (i : Int) : Prop := (H : Int) ≤ i ∧ i < H + K

theorem span_fits {H K : Nat} (h : H + K ≤ 2147483647) : Fits (Span H K) := by
  rintro i ⟨h1, h2⟩
  omega

theorem four_bytes {m : List Nat} {o : Nat} (hb : IsBytes m) (h : o + 4 ≤ m.length) :
    ∃ a b c d, slice m o 4 = [a, b, c, d] ∧ a < 256 ∧ b < 256 ∧ c < 256 ∧ d < 256 := by
  have h4 : (slice m o 4).length = 4 := by simp [slice]; omega
  have hm : ∀ y ∈ slice m o 4, y < 256 := fun y hy => hb y (List.mem_of_mem_drop (List.mem_of_mem_take hy))
  match hq : slice m o 4, h4 with
  | [a, b, c, d], _ =>
    rw [hq] at hm
    exact ⟨a, b, c, d, rfl, hm a (by simp), hm b (by simp), hm c (by simp), hm d (by simp)⟩

/-- The samples played are alike.  If the data chunk starts at an odd byte, this takes in the last byte of its length. -/
theorem SameData.dev {m m' : List Nat} {off nch D H K : Nat} (hs : SameData m m' off nch D) (past : Bool) (hH : H = (off + 8) / 2)
    (hK : K ≤ D / 2) : DevAlike (Span H K) ⟨m, off + 8, past⟩ ⟨m', off + 8, past⟩ := by
  have hin := hs.inside
  have e : slice m' (off + 4) 4 = slice m (off + 4) 4 := by
    obtain ⟨a, b, c, d, e1, k1, k2, k3, k4⟩ := four_bytes (o := off + 4) hs.bytes (by omega)
    obtain ⟨a', b', c', d', e2, k5, k6, k7, k8⟩ := four_bytes (o := off + 4) hs.bytes' (by rw [hs.length]; omega)
    have s1 := hs.size
    have s2 := hs.size'
    rw [e1] at s1
    rw [e2] at s2
    rw [e1, e2]
    obtain ⟨rfl, rfl, rfl, rfl⟩ := bytes_inj k1 k2 k3 k4 k5 k6 k7 k8 (s1.trans s2.symm)
    rfl
  have hb : ∀ s, off + 7 ≤ s → s < off + 8 + D → m'.getD s 0 = m.getD s 0 := by
    intro s s1 s2
    by_cases h8 : off + 8 ≤ s
    · have := hs.same (s - (off + 8)) (by omega)
      rwa [show off + 8 + (s - (off + 8)) = s by omega] at this
    · exact getD_same e (by omega) (by omega)
  refine ⟨hs.length, rfl, rfl, fun i hi => ?_⟩
  obtain ⟨i1, i2⟩ := hi
  exact ⟨by simp only; omega, hb _ (by omega) (by omega), hb _ (by omega) (by omega)⟩

theorem SameData.fits {m m' : List Nat} {off nch D H K : Nat} (hs : SameData m m' off nch D) (hH : H = (off + 8) / 2) (hK : K ≤ D / 2) :
    Fits (Span H K) := by
  have h1 := hs.inside
  have h2 := hs.small
  exact span_fits (by omega)

theorem SameData.room {m m' : List Nat} {off nch D H : Nat} (hs : SameData m m' off nch D) (hH : H = (off + 8) / 2) (h : off + 8 < m.length) :
    u32 ((H : Int) * 2) < u32 (m.length : Int) := by
  have h2 := hs.small
  unfold u32; omega

theorem SameData.i32 {m m' : List Nat} {off nch D : Nat} (hs : SameData m m' off nch D) : i32 (m.length : Int) = m.length := by
  have h2 := hs.small
  unfold TVP.i32; omega

theorem u16_chans {n : Nat} (h : n ≤ 32767) : u16 (i16 (n : Int)) = n := by
  rw [u16_i16]; unfold u16; omega

theorem setNumChannels_eq (r : Rd) {n : Nat} (h : n ≤ 32767) : r.setNumChannels n = { r with nch := n } := by
  unfold Rd.setNumChannels
  have e1 : u16 (n : Int) = n := by unfold u16; omega
  have e2 : i16 (n : Int) = n := by unfold i16; omega
  rw [e1, e2]
  split
  · rfl
  · rename_i hn
    rw [ne_eq, not_not] at hn
    rw [hn]

/-- **C70** (partial).  Two WAV files of the same length whose data chunks are the same and in the same place, but whose other bytes
(LIST chunk, whatever follows the data, the sample rate in the header …) may differ, are indistinguishable: started from the same
player, they have the same effects at every update, the same state of the reader and the same faults if any, however updates, events,
`stop` and settings follow each other.  `StartSettings` and `Sensible` are the settings within which playback stays in the data chunk:
one playback head, interpolation at moderate rates, loops inside the material, and starting inside it; without them the claim
is false (`C70_refuted`). -/
theorem C70_only_data_partial {fp : Fp} (hfp : Representable fp) (g : Geo) (p : FilePlayer) {m m' : List Nat} {off nch D : Nat}
    (hs : SameData m m' off nch D) (past : Bool) (junk junk' : List Nat) (hj : junk.length = 36) (hj' : junk'.length = 36)
    (hc : 1 ≤ nch) (hc' : nch ≤ 32767) (hroom : off + 8 < m.length) {R : Int}
    (hset : StartSettings p.rdr.rd R (D / 2 / nch) nch ((off + 8) / 2) m.length) (nullOk : Bool) (fuel : Nat) :
    ∃ p1 q1, p.playWav g (some ⟨m, 0, past⟩) junk = .ok (true, p1) ∧ p.playWav g (some ⟨m', 0, past⟩) junk' = .ok (true, q1) ∧
      p1.rdr.rd.playing = true ∧ Going false p1.rdr.rd R (D / 2 / nch : Nat) ∧ q1.rdr.rd = p1.rdr.rd ∧
      ∀ xs, Sensible fp g nullOk (fuel + 2) R (D / 2 / nch : Nat) p1 xs →
        outside (q1.acts fp g nullOk (fuel + 2) xs) = outside (p1.acts fp g nullOk (fuel + 2) xs) := by
  obtain ⟨F, hF⟩ : ∃ F, F = D / 2 / nch := ⟨_, rfl⟩
  obtain ⟨H, hH⟩ : ∃ H, H = (off + 8) / 2 := ⟨_, rfl⟩
  rw [← hF, ← hH] at hset
  rw [← hF]
  have hmul : F * nch ≤ D / 2 := by rw [hF]; exact Nat.div_mul_le_self _ _
  have hsz : i32 (m.length : Int) = m.length := hs.i32
  have hpar : (parsed m').numChannels = (parsed m).numChannels := by simp only [parsed, hs.chans, hs.chans']
  have hnn : u16 (parsed m).numChannels = nch := by
    simp only [parsed, hs.chans]; exact u16_chans hc'
  have h44 : off + 8 ≤ m.length := le_of_lt hroom
  have hWf : Fits (Span H (F * nch)) := hs.fits hH hmul
  have hdev : DevAlike (Span H (F * nch)) ⟨m, off + 8, past⟩ ⟨m', off + 8, past⟩ :=
    hs.dev past hH hmul
  obtain ⟨r0, hr0⟩ : ∃ r0 : Rd, r0 = { p.stop.rdr.close.rd with fileSize := i32 (m.length : Int) } := ⟨_, rfl⟩
  obtain ⟨r, hr⟩ : ∃ r : Rd, r = { r0.setNumChannels (u16 (parsed m).numChannels) with header := ((off + 8) / 2 : Nat), fileSamples := (D / 2 : Nat) } := ⟨_, rfl⟩
  have e1 : p.stop.rdr.playWav g (some ⟨m, 0, past⟩) junk = playFinish g r ⟨m, off + 8, past⟩ := by
    unfold FileReader.playWav FileReader.playFile
    simp only [if_true, Dev.size, ← hr0]
    rw [playParseWav_eq hj hs.bytes hs.small hs.good hs.depth hs.dataAt, hs.size, ← hr]
    rfl
  have e2 : p.stop.rdr.playWav g (some ⟨m', 0, past⟩) junk' = playFinish g r ⟨m', off + 8, past⟩ := by
    unfold FileReader.playWav FileReader.playFile
    simp only [if_true, Dev.size, hs.length, ← hr0]
    rw [playParseWav_eq hj' hs.bytes' (by rw [hs.length]; exact hs.small) hs.good' hs.depth' hs.dataAt', hs.size', hpar, ← hr]
    rfl
  have hrest : r = { p.rdr.rd with playing := false, fileSize := (m.length : Int), nch := nch, header := (H : Int), fileSamples := (D / 2 : Nat) } := by
    rw [hr, hnn, setNumChannels_eq _ hc', hr0, hsz, hH]
    rfl
  have hnch : r.nch = nch := by rw [hrest]
  clear hr hr0
  have hn0 : 0 < r.nch := by rw [hnch]; exact_mod_cast hc
  have hFe : r.fileSamples.tdiv r.nch = F := by
    rw [hrest, hF]
    simp only
    rw [Int.tdiv_eq_ediv_of_nonneg (Int.natCast_nonneg _)]
    exact (Int.natCast_ediv _ _).symm
  have hstart : StartsInside r F := by
    have := hset.start
    unfold StartsInside
    rw [hrest]
    simp only
    cases hps : p.rdr.rd.playStart with
    | arbitrary => rw [hps] at this; exact this
    | loop => rw [hps] at this; exact this
    | sample =>
      rw [hps] at this
      refine this.imp id fun k => ⟨?_, by exact_mod_cast k.2⟩
      rw [Int.tdiv_eq_ediv_of_nonneg (Int.natCast_nonneg _)]
      exact_mod_cast k.1
  have hint : InterpOk r := by
    unfold InterpOk
    rw [hrest]
    simp only
    have := hset.interp
    cases hi : p.rdr.rd.interp with
    | none => trivial
    | linear =>
      obtain ⟨i1, i2, i3, _⟩ := this (by rw [hi]; simp)
      exact ⟨by exact_mod_cast i1, i2, i3⟩
    | quadratic =>
      obtain ⟨i1, i2, i3, i4⟩ := this (by rw [hi]; simp)
      obtain ⟨i5, i6, i7, i8⟩ := i4 hi
      exact ⟨by exact_mod_cast i1, abs_le.2 ⟨i2, i5⟩, i6, i7, i8⟩
  obtain ⟨a, f1, f2, f3, f4, f5, f6⟩ := playFinish_going (g := g) (f := ⟨m, off + 8, past⟩) (R := R) (F := F) (r := r)
    (by
      rw [hrest]; exact hs.room hH hroom) hFe (Int.natCast_nonneg F) (by rw [hrest]; exact hset.dual) hn0 (by rw [hrest]; exact hset.rateR) hset.R30 (by rw [hrest]; simp) hint
    (by rw [hnch, show r.header = H by rw [hrest]]; exact hset.fits) (by rw [hrest]; exact hset.flt) (by rw [hrest]; exact hset.frac)
    (by rw [hrest]; exact hset.pts) (by rw [hrest]; exact hset.loop) hstart
  rcases playFinish_twin (g := g) hWf r hdev with ⟨e, k1, _⟩ | ⟨x, y, k1, k2, k3, k4⟩
  · rw [f1] at k1; cases k1
  rw [f1] at k1
  cases k1
  obtain ⟨ok, b⟩ := y
  simp only at k3 k4
  subst k3
  refine ⟨⟨a, none⟩, ⟨b, none⟩, ?_, ?_, f3, f2, k4.rd, fun xs hxs => ?_⟩
  · unfold FilePlayer.playWav; rw [e1, f1]; rfl
  · unfold FilePlayer.playWav; rw [e2, k2]; rfl
  · have ht : Twins (Span H (F * nch)) g R F ⟨a, none⟩ ⟨b, none⟩ := ⟨rfl, k4, fun _ => ⟨f2, fun i i0 i1 => by
      simp only [f5, f6, hnch, show r.header = H by rw [hrest]] at i0 i1
      exact ⟨i0, by push_cast; exact i1⟩⟩⟩
    rcases ht.acts hfp hWf nullOk fuel xs hxs with ⟨e, j1, j2⟩ | ⟨u, v, j1, j2, j3, j4⟩
    · rw [j1, j2]
    · rw [j1, j2]
      unfold outside
      simp only [Except.map, j3, j4.twin.rd, j4.pending]

/-- A stereo file of two frames with a note in a LIST chunk and four bytes after the data. -/
def notedWav (note tail : List Nat) : List Nat := wav exFields (some note) 8 [1, 0, 2, 0, 3, 0, 4, 0] ++ tail

theorem noted_same : SameData (notedWav [73, 78, 70, 79] [9, 9, 9, 9]) (notedWav [1, 2, 3, 4] [7, 7, 7, 7]) 48 2 8 := by
  refine ⟨?_, ?_, ?_, ?_, ?_, ?_, ?_, ?_, ?_, ?_, ?_, ?_, ?_, ?_, ?_, ?_⟩ <;>
    first
      | (unfold IsBytes; decide)
      | decide
      | exact ⟨Or.inr ⟨by decide, by decide⟩, by decide, by decide⟩

/-- The settings of a new player are such as the theorem asks for. -/
theorem noted_settings : StartSettings ({} : FilePlayer).rdr.rd 1 2 2 28 68 :=
  ⟨rfl, by norm_num [abs_of_pos], by norm_num, fun h => absurd rfl h, by norm_num, ⟨0, 0, by norm_num, by norm_num, by norm_num⟩, by norm_num,
    fun _ => (by decide : InI16 0 ∧ InI16 0 ∧ InI16 0 ∧ InI16 0), fun h => absurd rfl h, Or.inl (by norm_num)⟩

/-- A new player plays both files, is told to start at the loop the next time, updates, runs its event and updates again. -/
example (g : Geo) (al : Nat → Bool) : ∃ p1 q1,
    ({} : FilePlayer).playWav g (some ⟨notedWav [73, 78, 70, 79] [9, 9, 9, 9], 0, false⟩) (List.replicate 36 5) = .ok (true, p1) ∧
    ({} : FilePlayer).playWav g (some ⟨notedWav [1, 2, 3, 4] [7, 7, 7, 7], 0, false⟩) (List.replicate 36 6) = .ok (true, q1) ∧
    outside (q1.acts Fp.ieee g true 9 [.set (.playStart .loop 0), .update al, .run, .update al]) =
      outside (p1.acts Fp.ieee g true 9 [.set (.playStart .loop 0), .update al, .run, .update al]) := by
  obtain ⟨p1, q1, h1, h2, _, h4, _, h6⟩ := C70_only_data_partial ieee_representable g {} noted_same false (List.replicate 36 5) (List.replicate 36 6)
    rfl rfl (by norm_num) (by norm_num) (by decide) noted_settings true 7
  refine ⟨p1, q1, h1, h2, h6 _ ⟨?_, ?_⟩⟩
  · intro c hc _
    cases hc
    have z := h4.setup
    exact ⟨⟨z.dual, z.nch, z.rateR, z.R30, z.header0, z.interp, z.fits, z.F0, z.FT, z.A0, z.AT, z.E0, z.ET, z.loop⟩, trivial⟩
  · intro _ _ _
    refine ⟨fun c hc => (by cases hc), fun _ _ _ => ⟨fun c hc => (by cases hc), fun _ _ _ => ⟨fun c hc => (by cases hc), fun _ _ _ => trivial⟩⟩⟩

/-- Three buffers of 16 samples. -/
def noteGeo : Geo := ⟨4, 3, fun _ => []⟩

/-- The beginning of the block sent to output 0 at the first update after `playWav`. -/
def firstBlock (r : Rd) (m : List Nat) : M (List (List Int)) := do
  let (_, p) ← ({ rdr := { rd := r } } : FilePlayer).playWav noteGeo (some ⟨m, 0, false⟩) (List.replicate 36 0)
  let (fxs, _) ← p.acts Fp.ideal noteGeo true 9 [.update fun _ => true]
  return fxs.map fun fx => (fx.transmitted.map fun b => b.1.take 3).getD 0 []

/-- **C70** is false when playback starts backwards: it starts at the end of the file instead of the end of the data, and sounds what
follows the data chunk (the zeros are missed blocks, see C18). -/
theorem C70_refuted : SameData (notedWav [73, 78, 70, 79] [9, 9, 9, 9]) (notedWav [1, 2, 3, 4] [7, 7, 7, 7]) 48 2 8 ∧
    firstBlock { rate := -1 } (notedWav [73, 78, 70, 79] [9, 9, 9, 9]) = .ok [[2313, 0, 0]] ∧
    firstBlock { rate := -1 } (notedWav [1, 2, 3, 4] [7, 7, 7, 7]) = .ok [[1799, 0, 0]] := ⟨noted_same, by decide +kernel, by decide +kernel⟩

end TVP
