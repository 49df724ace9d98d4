import Verif.Lemmas.Rounds
import Verif.Props.Life
import Verif.Props.Term
import Verif.Props.Follow

/-!
# C83: whatever files are played and repeated, nothing undefined happens
-/

namespace TVP
open Spec

variable {fp : Fp} {g : Geo} {l : Rounds}

theorem InRound.calls (hfp : Representable fp) (hl : l.Fair) {fuel : Nat} (hf2 : 2 ≤ fuel) (hf : g.N ≤ fuel) (nullOk : Bool) {p : FilePlayer} (h : InRound l g p.rdr.rd p.rdr.src)
    {rs : List ReadResult} (hrs : HalfReads g rs) {c : Call} (hc : (Use.call c).Round l g) :
    ∃ fxs p' rs', fileCalls fp g nullOk fuel p rs [c] = .ok (fxs, p', rs') ∧ InRound l g p'.rdr.rd p'.rdr.src ∧ HalfReads g rs' ∧ ∀ fx ∈ fxs, WholeBlocks fx := by
  obtain ⟨k, rfl⟩ : ∃ k, fuel = k + 2 := ⟨fuel - 2, by omega⟩
  cases c with
  | update al =>
    obtain ⟨fx, a', e1, e2, e3⟩ := h.update hfp nullOk k al
    unfold fileCalls FilePlayer.update
    rw [e1]
    simp only [ok_bind]
    cases hev : fx.event with
    | none => exact ⟨_, _, _, rfl, e2, hrs, fun x hx => by rw [List.mem_singleton.1 hx]; exact e3⟩
    | some e => exact ⟨_, _, _, rfl, e2, hrs, fun x hx => by rw [List.mem_singleton.1 hx]; exact e3⟩
  | poll =>
    unfold fileCalls FilePlayer.runEventF
    cases p.pending with
    | none => exact ⟨_, _, _, rfl, h, hrs, fun x hx => (nomatch hx)⟩
    | some e =>
      obtain ⟨a', rs', e1, e2, e3⟩ := h.event (fp := fp) hf hrs e
      simp only [e1, ok_bind]
      exact ⟨_, _, _, rfl, e2, e3, fun x hx => (nomatch hx)⟩
  | set s => exact ⟨_, _, _, rfl, h.set hl hc, hrs, fun x hx => (nomatch hx)⟩

theorem InRound.life (hfp : Representable fp) (hl : l.Fair) {fuel : Nat} (hf2 : 2 ≤ fuel) (hf : g.N ≤ fuel) (nullOk : Bool) : ∀ (us : List Use) (p : FilePlayer) (rs : List ReadResult),
    InRound l g p.rdr.rd p.rdr.src → HalfReads g rs → (∀ u ∈ us, u.Round l g) → ∃ fxs p' rs', life fp g nullOk fuel p rs us = .ok (fxs, p', rs') ∧ ∀ fx ∈ fxs, WholeBlocks fx
  | [], p, rs, _, _, _ => ⟨_, _, _, rfl, fun x hx => (nomatch hx)⟩
  | u :: us, p, rs, h, hrs, hu => by
    have hus : ∀ u ∈ us, u.Round l g := fun x hx => hu x (List.mem_cons_of_mem _ hx)
    have hw := hu u List.mem_cons_self
    have k := h.conf
    have hstop : RoundConf l p.stop.rdr.close.rd :=
      ⟨k.dual, k.loop, k.rate0, k.rateR, k.flt, k.frac, k.pts, k.header0, k.header1, k.nch0, k.nchK, k.interp, k.start0, k.start1, k.A0, k.A1, k.E0, k.E1⟩
    cases u with
    | raw polled file n =>
      obtain ⟨okk, a, rs1, e1, e2, e3⟩ := hstop.raw (g := g) hl hw hrs
      obtain ⟨fxs, p', rs', e4, e5⟩ := InRound.life hfp hl hf2 hf nullOk us ⟨a, if polled then p.pending else none⟩ rs1 e2 e3 hus
      refine ⟨fxs, p', rs', ?_, e5⟩
      unfold Spec.life
      rw [e1]; exact e4
    | wav polled file junk =>
      obtain ⟨okk, a, rs1, e1, e2, e3⟩ := hstop.wav (g := g) hl hw hrs
      obtain ⟨fxs, p', rs', e4, e5⟩ := InRound.life hfp hl hf2 hf nullOk us ⟨a, if polled then p.pending else none⟩ rs1 e2 e3 hus
      refine ⟨fxs, p', rs', ?_, e5⟩
      unfold Spec.life
      rw [e1]; exact e4
    | call c =>
      obtain ⟨fxs1, p1, rs1, e1, e2, e3, e6⟩ := h.calls hfp hl hf2 hf nullOk hrs hw
      obtain ⟨fxs, p', rs', e4, e5⟩ := InRound.life hfp hl hf2 hf nullOk us p1 rs1 e2 e3 hus
      refine ⟨fxs1 ++ fxs, p', rs', ?_, ?_⟩
      · unfold Spec.life
        rw [e1]
        simp only [ok_bind]
        rw [e4]; rfl
      · intro x hx
        rcases List.mem_append.1 hx with hx | hx
        · exact e6 x hx
        · exact e5 x hx

/-- **C83** (partial: forwards or standing still, files played once or repeated, one playback head).  A new file player whose loop end is set first, and any program
that plays raw and WAV files one after the other, turns repeating on and off, moves the ends of the loop, changes the speed, the start position and interpolation,
stops, and has updates and events in any order, while reads of samples may fail at any time: nothing is ever undefined and nothing hangs, and every block sent
has 128 samples of 16 bits.  All loops contain a common frame; the files are long enough for all of them and for all buffers.  Missing: what `C83_partial` misses, files
shorter than the buffers, see `C83_loops_refuted`; loops to and fro, and backwards. -/
theorem C83_loops_partial (hfp : Representable fp) (g : Geo) {l : Rounds} (hl : l.Fair) {fuel : Nat} (hf2 : 2 ≤ fuel) (hf : g.N ≤ fuel) (nullOk : Bool)
    {e : Int} (he : l.mid < e ∧ e ≤ l.fin) (us : List Use) (hus : ∀ u ∈ us, u.Round l g) {rs : List ReadResult} (hrs : HalfReads g rs) :
    ∃ fxs p rs', life fp g nullOk fuel {} rs (.call (.set (.loopFinish e)) :: us) = .ok (fxs, p, rs') ∧ ∀ fx ∈ fxs, WholeBlocks fx := by
  have h0 := hl.limits.start0
  have h1 : ((1 : Int) : ℚ) ≤ (l.speed : ℚ) := by exact_mod_cast hl.limits.speed0
  have h2 : (-1 : Int) ≤ l.channels := by have := hl.limits.channels0; omega
  have hM := hl.mid
  have hH := hl.header
  have hx : i32 e = e := by
    have h1 := hl.fits; have h2 := hl.fin; have h3 := hl.limits.channels0; have h4 := hl.limits.speed0
    have : l.fin + l.start + l.speed + 5 ≤ l.channels * (l.fin + l.start + l.speed + 5) := le_mul_of_one_le_left (by omega) h3
    unfold i32; omega
  obtain ⟨fxs, p, rs', e1, e2⟩ := InRound.life hfp hl hf2 hf nullOk us (FilePlayer.set g {} (.loopFinish e)) rs ⟨⟨rfl, (fun k => by cases k), by norm_num [FilePlayer.set, FileReader.setLoopFinish, Rd.setLoopFinish],
    by simpa [FilePlayer.set, FileReader.setLoopFinish, Rd.setLoopFinish] using h1, ⟨0, 0, by norm_num, by norm_num, by show (0 : ℚ) = _; norm_num⟩,
    by norm_num [FilePlayer.set, FileReader.setLoopFinish, Rd.setLoopFinish], fun c => pts_new c, le_refl _, by show (0 : Int) ≤ l.header; omega, le_refl _, h2, fun k => absurd rfl k, le_refl _, h0,
    le_refl _, hM, by show l.mid < i32 e; omega, by show i32 e ≤ l.fin; omega⟩, fun c k => (nomatch k), fun k => (nomatch k)⟩ hrs hus
  refine ⟨fxs, p, rs', ?_, e2⟩
  unfold Spec.life fileCalls
  simp only [fileCalls, ok_bind]
  rw [e1]
  rfl

/-- A player of a WAV file that is repeated, speeded up, moved to another loop, and of the same file as raw samples, while a read fails. -/
def exRoundUses : List Use :=
  [.wav false (some ⟨exLongWav, 0, false⟩) (List.replicate 36 7), .call (.update fun _ => true), .call (.set (.loopType .repeat)), .call .poll, .call (.set (.loopStart 90)),
   .call (.set (.loopFinish 5000)), .call (.set (.speed (3 / 2))), .call (.update fun _ => true), .call .poll, .call (.set (.interpolation true)), .call (.set .stopPolled),
   .raw true (some ⟨exLongWav, 0, false⟩) 1, .call (.update fun _ => true), .call .poll, .call (.update fun i => i = 0),
   .wav true (some ⟨exBytes ++ List.replicate 30 0, 0, true⟩) (List.replicate 36 7), .call (.update fun _ => true)]

theorem exLongWav_round : RoundWav ⟨⟨2, 10, 2, true⟩, 28, 100, 20100⟩ sdGeo exLongWav false := by
  refine ⟨⟨exLongWav_bytes, by rw [exLongWav_length]; decide, by rw [exLongWav_length]; decide, Or.inl (by decide +kernel), fun _ => by decide +kernel, fun _ => ?_, ?_⟩, fun _ => by decide +kernel, ?_⟩
  · rw [exLongWav_length]
    have : leVal (slice exLongWav 40 4) = 4 := by decide +kernel
    rw [this]; decide
  · rintro off ⟨⟨h, _⟩ | ⟨_, rfl⟩, _, _⟩
    · exact absurd h (by decide +kernel)
    · rw [exLongWav_length]; decide +kernel
  · rintro off ⟨⟨h, _⟩ | ⟨_, rfl⟩, _, _⟩
    · exact absurd h (by decide +kernel)
    · unfold Rounds.Ample; rw [exLongWav_length]; decide +kernel

example : ∃ fxs p rs', life Fp.ieee sdGeo true 7 {} [.all, .short 3000, .error [] 0] (.call (.set (.loopFinish 600)) :: exRoundUses) = .ok (fxs, p, rs') ∧ ∀ fx ∈ fxs, WholeBlocks fx := by
  refine C83_loops_partial ieee_representable sdGeo (l := ⟨⟨2, 10, 2, true⟩, 28, 100, 20100⟩)
    ⟨⟨by decide, by decide, by decide, by decide, by decide, by decide, by decide⟩, by decide, by decide, by decide, by decide⟩ (by decide) (by decide) true (by decide) exRoundUses ?_ ?_
  · intro u hu
    simp only [exRoundUses, List.mem_cons, List.not_mem_nil, or_false] at hu
    rcases hu with rfl | rfl | rfl | rfl | rfl | rfl | rfl | rfl | rfl | rfl | rfl | rfl | rfl | rfl | rfl | rfl | rfl
    · intro f hf; cases hf; exact ⟨rfl, rfl, exLongWav_round⟩
    · trivial
    · exact fun k => by cases k
    · trivial
    · exact ⟨by decide, by decide⟩
    · exact ⟨by decide, by decide⟩
    · exact ⟨by norm_num, by norm_num⟩
    · trivial
    · trivial
    · exact fun _ => rfl
    · trivial
    · refine ⟨by decide, by decide, ?_⟩
      intro f hf; cases hf
      have : Dev.size ⟨exLongWav, 0, false⟩ = 40056 := exLongWav_length
      rw [this]
      exact ⟨by decide, by decide, by decide, by unfold Rounds.Ample; decide⟩
    · trivial
    · trivial
    · trivial
    · intro f hf; cases hf
      refine ⟨rfl, rfl, ⟨by decide +kernel, by decide +kernel, by decide +kernel, by decide +kernel, fun h => ?_, fun h => ?_, ?_⟩, fun h => ?_, ?_⟩
      · revert h; decide +kernel
      · revert h; decide +kernel
      · rintro off ⟨⟨h, _⟩ | ⟨h, _⟩, _, _⟩ <;> exact absurd h (by decide +kernel)
      · revert h; decide +kernel
      · rintro off ⟨⟨h, _⟩ | ⟨h, _⟩, _, _⟩ <;> exact absurd h (by decide +kernel)
    · trivial
  · intro n hn
    simp only [List.mem_cons, List.not_mem_nil, or_false, ReadResult.short.injEq, reduceCtorEq, false_or] at hn
    subst hn; decide

/-- **C83** is false for loops without the conditions: a player set to repeat before anything else, whose loop is therefore empty, never returns from its first update, and a
repeated file shorter than the buffers makes the reload after the second update look for a buffer that does not exist. -/
theorem C83_loops_refuted (nullOk : Bool) :
    (∀ fuel, life Fp.ieee sdGeo nullOk fuel {} [] [.call (.set (.loopType .repeat)), .raw false (some ⟨[1, 2, 3, 4], 0, false⟩) 1, .call (.update fun _ => true)] = .error .hang) ∧
    (life Fp.ieee sdGeo nullOk 8 {} [] [.call (.set (.loopFinish 4096)), .call (.set (.loopType .repeat)), .call (.set (.speed 16)), .raw false (some ⟨List.replicate 8192 0, 0, false⟩) 1,
      .call (.update fun _ => true), .call .poll, .call (.update fun _ => true), .call .poll]).map (fun _ => ()) = .error .outOfBounds := by
  refine ⟨fun fuel => ?_, by cases nullOk <;> decide +kernel⟩
  have key : ∃ a rs', (FilePlayer.set sdGeo {} (.loopType .repeat)).stop.rdr.playRawF sdGeo (some ⟨[1, 2, 3, 4], 0, false⟩) 1 [] = .ok (true, a, rs') ∧ a.rd.playing = true ∧ a.rd.nch = 1 ∧
      a.rd.dual = false ∧ a.rd.atEnd = true ∧ a.rd.loopType = .repeat ∧ 0 ≤ a.rd.rate ∧ ¬ a.rd.posOf a.rd.loopStart < a.rd.posOf a.rd.loopFinish := by
    have h : (match (FilePlayer.set sdGeo {} (.loopType .repeat)).stop.rdr.playRawF sdGeo (some ⟨[1, 2, 3, 4], 0, false⟩) 1 [] with
      | .error _ => false
      | .ok x => decide (x.1 = true ∧ x.2.1.rd.playing = true ∧ x.2.1.rd.nch = 1 ∧ x.2.1.rd.dual = false ∧ x.2.1.rd.atEnd = true ∧ x.2.1.rd.loopType = .repeat ∧ 0 ≤ x.2.1.rd.rate ∧
          ¬ x.2.1.rd.posOf x.2.1.rd.loopStart < x.2.1.rd.posOf x.2.1.rd.loopFinish)) = true := by decide +kernel
    generalize FileReader.playRawF sdGeo _ _ _ _ = y at h
    cases y with
    | error e => cases h
    | ok x =>
      obtain ⟨okk, a, rs'⟩ := x
      simp only [decide_eq_true_eq] at h
      obtain ⟨rfl, h⟩ := h
      exact ⟨a, rs', rfl, h⟩
  obtain ⟨a, rs', e1, e2, e3, e4, e5, e6, e7, e8⟩ := key
  have hread := C32_hangs Fp.ieee (fileSrc sdGeo nullOk) fuel 127 a.rd a.src e2 (by rw [e3]; decide) e4 e5 (by unfold CanLoop; rw [e6]; simp only [e7, if_true]; exact e8)
  unfold life
  simp only [fileCalls, ok_bind]
  unfold life
  rw [e1]
  simp only [ok_bind]
  unfold life
  simp only [fileCalls, FilePlayer.update, FileReader.update]
  rw [e2, update_on (by rw [e3]; decide) _ _ _ (by rw [e3]; decide)]
  unfold FileReader.read
  rw [show blockSamples = 127 + 1 from rfl, hread]
  rfl

end TVP
