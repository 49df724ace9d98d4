import Verif.Lemmas.ToFro
import Verif.Props.Rounds

/-!
# C83: whatever files are played and repeated to and fro, nothing undefined happens
-/

namespace TVP
open Spec

variable {fp : Fp} {g : Geo} {l : Rounds}

theorem InFro.update' (hfp : Representable fp) {fuel : Nat} (hf2 : 2 ≤ fuel) (nullOk : Bool) {p : FilePlayer} (h : InFro l g p.rdr.rd p.rdr.src) (rs : List ReadResult) (al : Nat → Bool) :
    ∃ fxs p' rs', fileCalls fp g nullOk fuel p rs [.update al] = .ok (fxs, p', rs') ∧ InFro l g p'.rdr.rd p'.rdr.src ∧ rs' = rs ∧ ∀ fx ∈ fxs, WholeBlocks fx := by
  obtain ⟨k, rfl⟩ : ∃ k, fuel = k + 2 := ⟨fuel - 2, by omega⟩
  obtain ⟨fx, a', e1, e2, e3⟩ := h.update hfp nullOk k al
  unfold fileCalls FilePlayer.update
  rw [e1]
  simp only [ok_bind]
  cases hev : fx.event with
  | none => exact ⟨_, _, _, rfl, e2, rfl, fun x hx => by rw [List.mem_singleton.1 hx]; exact e3⟩
  | some e => exact ⟨_, _, _, rfl, e2, rfl, fun x hx => by rw [List.mem_singleton.1 hx]; exact e3⟩

theorem serviceF_rate {a a' : FileReader} {fuel : Nat} {rs rs' : List ReadResult} {e : Ev} (h : a.serviceF fp g fuel rs e = .ok (a', rs')) : a'.rd.rate = a.rd.rate := by
  obtain ⟨r, s⟩ := a
  cases e with
  | close => cases h; rfl
  | reload =>
    simp only [FileReader.serviceF] at h
    cases s with
    | none => cases h; rfl
    | some c =>
      simp only at h
      obtain ⟨x, _, h⟩ := bind_ok_iff.1 h
      cases h; rfl

theorem InFro.poll (hf : g.N ≤ fuel) (nullOk : Bool) {p : FilePlayer} (h : InFro l g p.rdr.rd p.rdr.src) {rs : List ReadResult} (hrs : HalfReads g rs) :
    ∃ p' rs', fileCalls fp g nullOk fuel p rs [.poll] = .ok ([], p', rs') ∧ InFro l g p'.rdr.rd p'.rdr.src ∧ HalfReads g rs' ∧ p'.rdr.rd.rate = p.rdr.rd.rate := by
  unfold fileCalls FilePlayer.runEventF
  cases p.pending with
  | none => exact ⟨_, _, rfl, h, hrs, rfl⟩
  | some e =>
    obtain ⟨a', rs', e1, e2, e3⟩ := h.event (fp := fp) hf hrs e
    simp only [e1, ok_bind]
    exact ⟨_, _, rfl, e2, e3, serviceF_rate e1⟩

theorem set_rate {p : FilePlayer} {s : Setting} (h : ∀ v, s ≠ .speed v) : (p.set g s).rdr.rd.rate = p.rdr.rd.rate := by
  cases s <;> first | rfl | exact absurd rfl (h _)

theorem speed_rate {p : FilePlayer} (v : ℚ) : (p.set g (.speed v)).rdr.rd.rate = v := by
  show (p.rdr.rd.setPlaybackRate v).rate = v
  unfold Rd.setPlaybackRate
  dsimp only
  repeat' split
  all_goals rfl

theorem InFro.life (hfp : Representable fp) (hl : l.Fair) (hMC : l.channels ≤ l.mid + 1) {fuel : Nat} (hf2 : 2 ≤ fuel) (hf : g.N ≤ fuel) (nullOk : Bool) :
    ∀ (us : List Use) (b : Bool) (p : FilePlayer) (rs : List ReadResult),
    InFro l g p.rdr.rd p.rdr.src → (b = true → 0 ≤ p.rdr.rd.rate) → HalfReads g rs → (∀ u ∈ us, u.ToFro l g) → SpeedFirst b us →
      ∃ fxs p' rs', life fp g nullOk fuel p rs us = .ok (fxs, p', rs') ∧ ∀ fx ∈ fxs, WholeBlocks fx
  | [], b, p, rs, _, _, _, _, _ => ⟨_, _, _, rfl, fun x hx => (nomatch hx)⟩
  | u :: us, b, p, rs, h, hb, hrs, hu, hsf => by
    have hus : ∀ u ∈ us, u.ToFro l g := fun x hx => hu x (List.mem_cons_of_mem _ hx)
    have hw := hu u List.mem_cons_self
    have k := h.conf
    have hstop : FroConf l p.stop.rdr.close.rd :=
      ⟨k.dual, k.loop, k.rateR, k.flt, k.frac, k.pts, k.header0, k.header1, k.nch0, k.nchK, k.interp, k.start0, k.start1, k.A0, k.A1, k.E0, k.E1⟩
    have next : ∀ (c : Call) (b' : Bool) (fxs1 : List Fx) (p1 : FilePlayer) (rs1 : List ReadResult), fileCalls fp g nullOk fuel p rs [c] = .ok (fxs1, p1, rs1) → InFro l g p1.rdr.rd p1.rdr.src →
        (b' = true → 0 ≤ p1.rdr.rd.rate) → HalfReads g rs1 → SpeedFirst b' us → (∀ fx ∈ fxs1, WholeBlocks fx) →
        ∃ fxs p' rs', Spec.life fp g nullOk fuel p rs (.call c :: us) = .ok (fxs, p', rs') ∧ ∀ fx ∈ fxs, WholeBlocks fx := by
      intro c b' fxs1 p1 rs1 e1 e2 e3 e4 e5 e6
      obtain ⟨fxs, p', rs', e7, e8⟩ := InFro.life hfp hl hMC hf2 hf nullOk us b' p1 rs1 e2 e3 e4 hus e5
      refine ⟨fxs1 ++ fxs, p', rs', ?_, ?_⟩
      · unfold Spec.life
        rw [e1]
        simp only [ok_bind]
        rw [e7]; rfl
      · intro x hx
        rcases List.mem_append.1 hx with hx | hx
        · exact e6 x hx
        · exact e8 x hx
    cases u with
    | raw polled file n =>
      obtain ⟨hb', hsf⟩ := hsf
      obtain ⟨okk, a, rs1, e1, e2, e3, e6⟩ := hstop.raw (g := g) hl hMC (hb hb') hw hrs
      obtain ⟨fxs, p', rs', e4, e5⟩ := InFro.life hfp hl hMC hf2 hf nullOk us true ⟨a, if polled then p.pending else none⟩ rs1 e2 (fun _ => e6) e3 hus hsf
      refine ⟨fxs, p', rs', ?_, e5⟩
      unfold Spec.life
      rw [e1]; exact e4
    | wav polled file junk =>
      obtain ⟨hb', hsf⟩ := hsf
      obtain ⟨okk, a, rs1, e1, e2, e3, e6⟩ := hstop.wav (g := g) hl hMC (hb hb') hw hrs
      obtain ⟨fxs, p', rs', e4, e5⟩ := InFro.life hfp hl hMC hf2 hf nullOk us true ⟨a, if polled then p.pending else none⟩ rs1 e2 (fun _ => e6) e3 hus hsf
      refine ⟨fxs, p', rs', ?_, e5⟩
      unfold Spec.life
      rw [e1]; exact e4
    | call c =>
      cases c with
      | update al =>
        obtain ⟨fxs1, p1, rs1, e1, e2, rfl, e6⟩ := h.update' hfp hf2 nullOk rs al
        exact next _ false _ _ _ e1 e2 (fun z => by cases z) hrs hsf e6
      | poll =>
        obtain ⟨p1, rs1, e1, e2, e3, e4⟩ := h.poll (fp := fp) hf nullOk hrs
        exact next _ b _ _ _ e1 e2 (fun z => by rw [e4]; exact hb z) e3 hsf (fun x hx => (nomatch hx))
      | set s =>
        have e2 := h.set hl hw
        by_cases hv : ∃ v, s = .speed v
        · obtain ⟨v, rfl⟩ := hv
          have hv0 : 0 ≤ v := by
            have : 0 ≤ v ∧ v ≤ l.speed := hw
            exact this.1
          exact next _ true _ _ _ rfl e2 (fun _ => by rw [speed_rate]; exact hv0) hrs hsf (fun x hx => (nomatch hx))
        · have hne : ∀ v, s ≠ .speed v := fun v hv' => hv ⟨v, hv'⟩
          refine next _ b _ _ _ rfl e2 (fun z => by rw [set_rate hne]; exact hb z) hrs ?_ (fun x hx => (nomatch hx))
          cases s <;> first | exact hsf | exact absurd rfl (hne _)

/-- **C83** (partial: loops of either kind, speeds set forwards, one playback head).  A new file player whose loop end is set first, and any program that plays raw and WAV files one
after the other, repeats them from the start or to and fro, moves the ends of the loop, changes the speed, the start position and interpolation, stops, and has updates and events
in any order, while reads of samples may fail at any time: nothing is ever undefined and nothing hangs, and every block sent has 128 samples of 16 bits.  All loops contain
a common frame and are not shorter than the number of channels; the files are long enough for all of them and for all buffers; a speed is set between the last update and the
next file.  Missing: what `C83_partial` misses, files shorter than the buffers, see `C83_loops_refuted`; speeds set backwards. -/
theorem C83_to_and_fro_partial (hfp : Representable fp) (g : Geo) {l : Rounds} (hl : l.Fair) (hMC : l.channels ≤ l.mid + 1) {fuel : Nat} (hf2 : 2 ≤ fuel) (hf : g.N ≤ fuel) (nullOk : Bool)
    {e : Int} (he : l.mid < e ∧ e ≤ l.fin) (us : List Use) (hus : ∀ u ∈ us, u.ToFro l g) (hsf : SpeedFirst true us) {rs : List ReadResult} (hrs : HalfReads g rs) :
    ∃ fxs p rs', life fp g nullOk fuel {} rs (.call (.set (.loopFinish e)) :: us) = .ok (fxs, p, rs') ∧ ∀ fx ∈ fxs, WholeBlocks fx := by
  have h0 := hl.limits.start0
  have h1 : ((1 : Int) : ℚ) ≤ (l.speed : ℚ) := by exact_mod_cast hl.limits.speed0
  have h2 : (-1 : Int) ≤ l.channels := by have := hl.limits.channels0; omega
  have hM := hl.mid
  have hH := hl.header
  have hx : i32 e = e := by
    have h1 := hl.fits; have h2 := hl.fin; have h3 := hl.limits.channels0; have h4 := hl.limits.speed0
    have : l.fin + l.start + l.speed + 5 ≤ l.channels * (l.fin + l.start + l.speed + 5) := le_mul_of_one_le_left (by omega) h3
    unfold i32; omega
  have hr : (FilePlayer.set g {} (.loopFinish e)).rdr.rd.rate = 1 := rfl
  obtain ⟨fxs, p, rs', e1, e2⟩ := InFro.life hfp hl hMC hf2 hf nullOk us true (FilePlayer.set g {} (.loopFinish e)) rs ⟨⟨rfl, fun _ => by rw [hr]; norm_num,
    by rw [hr]; simpa using h1, ⟨0, 0, by norm_num, by norm_num, by show (0 : ℚ) = _; norm_num⟩,
    by norm_num [FilePlayer.set, FileReader.setLoopFinish, Rd.setLoopFinish], fun c => pts_new c, le_refl _, by show (0 : Int) ≤ l.header; omega, le_refl _, h2, fun k => absurd rfl k, le_refl _, h0,
    le_refl _, by show (0 : Int) + _ ≤ _; omega, by show l.mid < i32 e; omega, by show i32 e ≤ l.fin; omega⟩, fun c k => (nomatch k), fun k => (nomatch k)⟩
    (fun _ => by rw [hr]; norm_num) hrs hus hsf
  refine ⟨fxs, p, rs', ?_, e2⟩
  unfold Spec.life fileCalls
  simp only [fileCalls, ok_bind]
  rw [e1]
  rfl

/-- A player of a WAV file played to and fro, turned round by the first update, speeded up, moved to another loop, and of the same file as raw samples repeated, while a read fails. -/
def exFroUses : List Use :=
  [.call (.set (.loopType .pingpong)), .wav false (some ⟨exLongWav, 0, false⟩) (List.replicate 36 7), .call (.update fun _ => true), .call .poll, .call (.set (.loopStart 90)),
   .call (.update fun _ => true), .call .poll, .call (.set (.speed (3 / 2))), .call (.set (.loopFinish 5000)), .call (.update fun _ => true), .call .poll, .call (.set (.interpolation true)),
   .call (.set (.loopType .repeat)), .call (.set .stopPolled), .call (.set (.speed 1)),
   .raw true (some ⟨exLongWav, 0, false⟩) 1, .call (.update fun _ => true), .call .poll, .call (.update fun i => i = 0)]

example : ∃ fxs p rs', life Fp.ieee sdGeo true 7 {} [.all, .short 3000, .error [] 0] (.call (.set (.loopFinish 110)) :: exFroUses) = .ok (fxs, p, rs') ∧ ∀ fx ∈ fxs, WholeBlocks fx := by
  refine C83_to_and_fro_partial ieee_representable sdGeo (l := ⟨⟨2, 10, 2, true⟩, 28, 100, 20100⟩)
    ⟨⟨by decide, by decide, by decide, by decide, by decide, by decide, by decide⟩, by decide, by decide, by decide, by decide⟩ (by decide) (by decide) (by decide) true (by decide) exFroUses ?_ ?_ ?_
  · intro u hu
    simp only [exFroUses, List.mem_cons, List.not_mem_nil, or_false] at hu
    rcases hu with rfl | rfl | rfl | rfl | rfl | rfl | rfl | rfl | rfl | rfl | rfl | rfl | rfl | rfl | rfl | rfl | rfl | rfl | rfl
    · exact fun k => by cases k
    · intro f hf; cases hf; exact ⟨rfl, rfl, exLongWav_round⟩
    · trivial
    · trivial
    · exact ⟨by decide, by decide⟩
    · trivial
    · trivial
    · exact ⟨by norm_num, by norm_num⟩
    · exact ⟨by decide, by decide⟩
    · trivial
    · trivial
    · exact fun _ => rfl
    · exact fun k => by cases k
    · trivial
    · exact ⟨by norm_num, by norm_num⟩
    · refine ⟨by decide, by decide, ?_⟩
      intro f hf; cases hf
      have : Dev.size ⟨exLongWav, 0, false⟩ = 40056 := exLongWav_length
      rw [this]
      exact ⟨by decide, by decide, by decide, by unfold Rounds.Ample; decide⟩
    · trivial
    · trivial
    · trivial
  · simp [exFroUses, SpeedFirst]
  · intro n hn
    simp only [List.mem_cons, List.not_mem_nil, or_false, ReadResult.short.injEq, reduceCtorEq, false_or] at hn
    subst hn; decide

/-- An update and the event after it. -/
def exTick : List Use := [.call (.update fun _ => true), .call .poll]

/-- **C83** is false if the speed is not set again: a file of 400 samples played to and fro from a flash chip, and played again after three updates while it goes backwards, so that it
starts from its end with a single buffer; the sixth reload then looks for a buffer that does not exist. -/
theorem C83_to_and_fro_refuted :
    (life Fp.ieee flashGeo true 8 {} [] ([.call (.set (.loopFinish 300)), .call (.set (.loopType .pingpong)), .raw false (some ⟨List.replicate 800 0, 0, false⟩) 1] ++ exTick ++ exTick ++ exTick ++
      [.raw false (some ⟨List.replicate 800 0, 0, false⟩) 1] ++ exTick ++ exTick ++ exTick ++ exTick ++ exTick ++ exTick)).map (fun _ => ()) = .error .outOfBounds := by
  decide +kernel

end TVP
