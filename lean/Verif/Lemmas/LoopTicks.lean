import Verif.Lemmas.Glide

/-!
# Updates of looping players
-/

namespace TVP
open Spec

/-- The frame positions a plain `read` of `n` frames visits when it does not end, and the reader afterwards. -/
inductive Visits (fp : Fp) : Nat → Rd → List Int → Rd → Prop
  | nil (r : Rd) : Visits fp 0 r [] r
  | cons {n : Nat} {r r1 r2 r' : Rd} {ps : List Int} : Settles r r1 → stepOn fp r1 = .ok r2 → Visits fp n r2 ps r' →
      Visits fp (n + 1) r (r1.pos1 :: ps) r'

theorem Visits.length {fp : Fp} {n : Nat} {r r' : Rd} {ps : List Int} (h : Visits fp n r ps r') : ps.length = n := by
  induction h with
  | nil => rfl
  | cons _ _ _ ih => rw [List.length_cons, ih]

theorem wrapAround_same {r r1 : Rd} (h : wrapAround r = some r1) : SameConf r r1 ∧ r1.cfOn = false := by
  unfold wrapAround at h
  cases hl : r.loopType <;> simp only [hl] at h
  · cases h
  · cases h; exact ⟨⟨rfl, rfl, hl.symm, rfl, rfl, rfl, rfl, rfl, rfl, rfl, rfl, rfl, rfl, rfl⟩, rfl⟩
  · cases h; exact ⟨⟨rfl, rfl, hl.symm, rfl, rfl, rfl, rfl, rfl, rfl, rfl, rfl, rfl, rfl, rfl⟩, rfl⟩

theorem Settles.conf {r r1 : Rd} (h : Settles r r1) : SameConf r r1 ∧ (Plain r → Plain r1) := by
  rcases h with ⟨_, rfl⟩ | ⟨_, h, _⟩
  · exact ⟨SameConf.refl _, id⟩
  · obtain ⟨hc, hcf⟩ := wrapAround_same h
    exact ⟨hc, fun hp => ⟨by rw [hc.dual]; exact hp.dual, by rw [hc.interp]; exact hp.interp, hcf, by rw [hc.nch]; exact hp.nch⟩⟩

theorem stepOn_plain {fp : Fp} {r r1 : Rd} (h : stepOn fp r = .ok r1) (hr : Plain r) : Plain r1 := by
  have hc := stepOn_conf h
  have hcf : r1.cfOn = false := by
    obtain ⟨_, e⟩ := stepOn_inv h
    rw [e]; exact hr.cfOn
  exact ⟨by rw [hc.dual]; exact hr.dual, by rw [hc.interp]; exact hr.interp, hcf, by rw [hc.nch]; exact hr.nch⟩

theorem Visits.conf {fp : Fp} {n : Nat} {r r' : Rd} {ps : List Int} (h : Visits fp n r ps r') : SameConf r r' := by
  induction h with
  | nil => exact SameConf.refl _
  | cons hs h1 _ ih => exact (hs.conf.1.trans (stepOn_conf h1)).trans ih

/-- Where the frame begins does not matter: it is read where the reader settles. -/
theorem readLoop_settles (fp : Fp) {σ} (S : Src σ) {r r1 : Rd} (hs : Settles r r1) (hr : Plain r) (fuel n : Nat) (s : σ) :
    readLoop fp S (fuel + 2) (n + 1) r s = readLoop fp S (fuel + 2) (n + 1) r1 s := by
  obtain ⟨hc, hp⟩ := hs.conf
  have he := hs.atEnd
  rcases hs with ⟨_, rfl⟩ | ⟨h, hw, _⟩
  · rfl
  · have key : readChan fp S (fuel + 2) r s 0 = readChan fp S (fuel + 2) r1 s 0 := by
      rw [readChan_atEnd h, hw, readChan_settled he]
      exact readChan_settled he
    have hf : readFrame fp S (fuel + 2) r.nch.toNat 0 r s = readFrame fp S (fuel + 2) r1.nch.toNat 0 r1 s := by
      have hk : r.nch.toNat = (r.nch.toNat - 1) + 1 := by have := hr.nch; omega
      rw [hc.nch, hk]
      conv_lhs => rw [readFrame, key]
      conv_rhs => rw [readFrame]
    rw [readLoop_succ, readLoop_succ]
    simp only [hr.dual, (hp hr).dual, Bool.false_eq_true, if_false, ok_bind, hf]

/-- `read` is: work out the positions, then read the frames there. -/
theorem readLoop_visits (fp : Fp) {σ} (S : Src σ) (fuel : Nat) {n : Nat} {r r' : Rd} {ps : List Int} (h : Visits fp n r ps r') :
    ∀ s : σ, Plain r → (∀ p ∈ ps, InI32 p ∧ ∀ c : Nat, (c : Int) < r.nch → InI32 (p + c)) →
    readLoop fp S (fuel + 2) n r s = srcFrames S r.nch s ps >>= fun x => .ok ⟨x.1, [], r', x.2⟩ := by
  induction h with
  | nil r => intro s _ _; rfl
  | @cons n r r1 r2 r' ps hs h1 _ ih =>
    intro s hr hb
    rw [readLoop_settles fp S hs hr]
    obtain ⟨hc0, hp0⟩ := hs.conf
    have hr1 := hp0 hr
    have hr2 := stepOn_plain h1 hr1
    have hc := stepOn_conf h1
    obtain ⟨b1, b2⟩ := hb r1.pos1 (by simp)
    rw [readLoop_succ]
    simp only [hr1.dual, Bool.false_eq_true, if_false, ok_bind]
    rw [readFrame_gets fp S hr1 hs.atEnd b1 (fuel + 1) r1.nch.toNat 0 s (fun c hc => b2 c (by rw [← hc0.nch]; have := hr1.nch; omega))]
    rw [srcFrames, ← hc0.nch]
    have ef : frameIdx r1.nch r1.pos1 = (List.range' 0 r1.nch.toNat).map fun c : Nat => r1.pos1 + c := by
      unfold frameIdx; rw [List.range_eq_range']
    rw [ef]
    cases srcGets S s ((List.range' 0 r1.nch.toNat).map fun c : Nat => r1.pos1 + c) with
    | error e => rfl
    | ok x =>
      simp only [ok_bind, if_true, h1]
      rw [ih x.2 hr2 (fun p hp => by rw [hc.nch, hc0.nch]; exact hb p (by simp [hp])), hc.nch]
      cases srcFrames S r1.nch x.2 ps <;> rfl

/-! ## Never-ending streams -/

/-- Readers and caches satisfying `Live` always find what an update reads in the buffers, and stay so when the reload after the
update is done. -/
def KeepsUp (fp : Fp) (m : List Nat) (g : Geo) (fuel : Nat) (Live : Rd → Cache → Prop) : Prop :=
  ∀ r c, Live r c → Plain r ∧ Reached m g c ∧ ∃ ps r' c', Visits fp blockSamples r ps r' ∧
    (∀ i ∈ framesIdx r.nch ps, InFile m i ∧ Buffered g c i) ∧
    (c.gets g (framesIdx r.nch ps)).2.triggerReload g fuel (fp.f.rnd r'.rate) = .ok c' ∧ Live r' c'

/-- A streaming player `a` and a player `b` with the whole file in memory, in the same state. -/
structure Along (m : List Nat) (Live : Rd → Cache → Prop) (F0 : Nat) (a : FileReader) (b : ArrayReader) : Prop where
  rd : b.rd = a.rd
  nch : 0 < a.rd.nch
  fails : ∀ c, a.src = some c → c.fails = F0
  src : b.src = some (toSamples m)
  live : a.rd.playing = true → ∃ c, a.src = some c ∧ Live a.rd c

variable {m : List Nat} {g : Geo} {Live : Rd → Cache → Prop} {F0 : Nat} {fp : Fp}

theorem Along.tick (hb : IsBytes m) (hm : m.length < 2 ^ 31) {fuel : Nat} (hk : KeepsUp fp m g (fuel + 2) Live) (nullOk : Bool)
    {a : FileReader} {b : ArrayReader} (h : Along m Live F0 a b) (alloc : Nat → Bool) :
    ∃ fx a' b', a.tick fp g nullOk (fuel + 2) alloc = .ok (fx, a') ∧ b.tick fp (fuel + 2) alloc = .ok (fx, b') ∧ Along m Live F0 a' b' := by
  obtain ⟨r, src⟩ := a
  obtain ⟨r2, src2⟩ := b
  obtain ⟨h1, hn, hF, h2, h3⟩ := h
  simp only at h1 h2 h3 hn hF
  rw [h1, h2]; clear h1 h2 r2 src2
  have hm' : m.length < 4294967296 := by omega
  unfold FileReader.tick ArrayReader.tick FileReader.update ArrayReader.update
  simp only
  cases hp : r.playing with
  | false =>
    rw [update_off hn, update_off hn]
    refine ⟨{}, ⟨r, src⟩, ⟨r, some (toSamples m)⟩, rfl, rfl, ⟨rfl, hn, hF, rfl, fun h => ?_⟩⟩
    rw [hp] at h; cases h
  | true =>
    by_cases ha : ((List.range r.nch.toNat).filter alloc).length = (List.range r.nch.toNat).length
    · rw [update_on hn _ _ _ ha, update_on hn _ _ _ ha]
      obtain ⟨c, hc, hlive⟩ := h3 hp
      subst hc
      obtain ⟨hpl, hre, ps, r', c', hv, hidx, hrl, hlive'⟩ := hk r c hlive
      have hin : ∀ p ∈ ps, ∀ k : Nat, (k : Int) < r.nch → InFile m (p + k) := fun p hp k hk =>
        (hidx _ (mem_framesIdx.2 ⟨p, hp, by omega, by omega⟩)).1
      have hbd : ∀ p ∈ ps, InI32 p ∧ ∀ c : Nat, (c : Int) < r.nch → InI32 (p + c) := by
        intro p hp
        have h0 := hin p hp 0 (by push_cast; exact hn)
        unfold InFile at h0
        refine ⟨⟨by push_cast at h0; omega, by push_cast at h0; omega⟩, fun c hc => ?_⟩
        have h1 := hin p hp c hc
        unfold InFile at h1
        exact ⟨by omega, by omega⟩
      have hread : ∀ {σ : Type} (S : Src σ) (s : σ), r.read fp S (fuel + 2) s blockSamples =
          srcFrames S r.nch s ps >>= fun x => .ok ⟨x.1, [], r', x.2⟩ := by
        intro σ S s
        unfold Rd.read
        rw [hp, if_neg (by decide), if_neg (by omega), if_neg (by omega)]
        exact readLoop_visits fp S fuel hv s hpl hbd
      unfold FileReader.read ArrayReader.read
      simp only
      rw [hread, hread, srcFrames_file, srcFrames_array (toSamples m) r.nch ps (fun i hi => by
        obtain ⟨⟨e1, e2⟩, _⟩ := hidx i hi
        rw [toSamples_length]; omega)]
      simp only [ok_bind, pure_eq_ok]
      have hfr : ps.map (frameAt (fun i => (c.get g i).1) r.nch) = ps.map (frameAt (fun i => (toSamples m).getD i.toNat 0) r.nch) := by
        refine List.map_congr_left fun p hp => ?_
        unfold frameAt
        refine List.map_congr_left fun k hk => ?_
        have hi : p + k ∈ framesIdx r.nch ps := mem_framesIdx.2 ⟨p, hp, by omega, by rw [List.mem_range] at hk; omega⟩
        obtain ⟨hin, hbuf⟩ := hidx _ hi
        show (c.get g (p + k)).1 = (toSamples m).getD (p + k).toNat 0
        rw [((hre.ok.serves hb hm' hin).1 hbuf).1, toSamples_raw m _ (by have := hin.1; have := hin.2; omega)]
        exact (rawSample_eq hb (by have := hin.1; have := hin.2; omega)).symm
      rw [hfr]
      set frames := ps.map (frameAt (fun i => (toSamples m).getD i.toNat 0) r.nch) with hframes
      have hfull : frames.length = blockSamples := by rw [hframes, List.length_map, hv.length]
      have e : (fxOf r.nch frames alloc).event = some .reload := by unfold fxOf; simp only [hfull, if_true]
      rw [e]
      simp only [FileReader.service, ArrayReader.service, FileReader.triggerReload, ArrayReader.triggerReload]
      rw [hrl]
      refine ⟨_, _, _, rfl, rfl, ⟨rfl, by simp only; rw [hv.conf.nch]; exact hn, ?_, rfl, fun _ => ⟨c', rfl, hlive'⟩⟩⟩
      intro c2 h2
      cases h2
      rw [Cache.triggerReload_fails hrl]
      exact (gets_hits hre.ok hb hm' _ hidx).2.trans (hF c rfl)
    · rw [update_short hn _ _ _ ha, update_short hn _ _ _ ha]
      refine ⟨_, ⟨r, src⟩, ⟨r, some (toSamples m)⟩, rfl, rfl, ⟨rfl, hn, hF, rfl, h3⟩⟩

theorem Along.ticks (hb : IsBytes m) (hm : m.length < 2 ^ 31) {fuel : Nat} (hk : KeepsUp fp m g (fuel + 2) Live) (nullOk : Bool) :
    ∀ (als : List (Nat → Bool)) {a : FileReader} {b : ArrayReader}, Along m Live F0 a b →
    ∃ fxs a' b', a.ticks fp g nullOk (fuel + 2) als = .ok (fxs, a') ∧ b.ticks fp (fuel + 2) als = .ok (fxs, b') ∧ Along m Live F0 a' b'
  | [], a, b, h => ⟨[], a, b, rfl, rfl, h⟩
  | al :: als, a, b, h => by
    obtain ⟨fx, a1, b1, h1, h2, h3⟩ := h.tick hb hm hk nullOk al
    obtain ⟨fxs, a2, b2, k1, k2, k3⟩ := Along.ticks hb hm hk nullOk als h3
    refine ⟨fx :: fxs, a2, b2, ?_, ?_, k3⟩
    · unfold FileReader.ticks; simp only [h1, ok_bind, k1]; rfl
    · unfold ArrayReader.ticks; simp only [h2, ok_bind, k2]; rfl

end TVP
