import Verif.Spec.Life
import Verif.Props.Gentle
import Verif.Props.Safe
import Verif.Props.Player

/-!
# Playing files, from the beginning
-/

namespace TVP
open Spec

variable {fp : Fp} {g : Geo} {l : Limits}

/-- A cache without loops and with no more buffers than there may be. -/
def Quiet (g : Geo) (s : Option Cache) : Prop := ∀ c, s = some c → c.loopType = .none ∧ c.bufs.length ≤ g.N

theorem fileSrcOk_quiet (g : Geo) (nullOk : Bool) : SrcOk (fileSrc g nullOk) (fun s => s.isSome = true ∧ Quiet g s) (fun _ => True) := by
  rintro s i ⟨hs, hq⟩ _
  obtain ⟨c, rfl⟩ := Option.isSome_iff_exists.1 hs
  obtain ⟨h1, h2⟩ := hq c rfl
  refine ⟨(c.get g i).1, some (c.get g i).2, rfl, ⟨rfl, ?_⟩, ?_⟩
  · intro c' h
    cases h
    have hlen : (findWithIndex (u32 (i / g.B)) c.bufs).1.length = c.bufs.length := by
      have := congrArg List.length (findWithIndex_core (u32 (i / g.B)) c.bufs); simpa using this
    unfold Cache.get
    split
    · rename_i e; rw [e] at hlen; exact ⟨h1, by rw [hlen]; exact h2⟩
    · rename_i e; rw [e] at hlen; exact ⟨h1, by rw [hlen]; exact h2⟩
  · unfold Cache.get
    split
    · unfold sampleAt i16 InI16; simp only; omega
    · unfold InI16; simp only; omega

/-- What stays true of a reader whatever is played. -/
structure InOrder (l : Limits) (g : Geo) (r : Rd) (s : Option Cache) : Prop where
  dual : r.dual = false
  loop : r.loopType = .none
  rate0 : 0 ≤ r.rate
  rateR : r.rate ≤ l.speed
  flt : IsFloat 53 (-1074) r.rem
  frac : |r.rem| < 1
  pts : PtsOk r
  header0 : 0 ≤ r.header
  header1 : r.header ≤ 2147483647
  nch0 : -1 ≤ r.nch
  nchK : r.nch ≤ l.channels
  interp : r.interp ≠ .none → l.smooth = true
  start0 : 0 ≤ r.playbackStart
  start1 : r.playbackStart ≤ l.start
  quiet : Quiet g s
  going : r.playing = true → s.isSome = true ∧ ∃ T, Going true r l.speed T

theorem fxOf_whole {nch : Int} {fs : List (List Int)} {alloc : Nat → Bool} (h1 : fs.length ≤ 128) (h2 : ∀ f ∈ fs, ∀ v ∈ f, InI16 v) : WholeBlocks (fxOf nch fs alloc) := by
  have key : ∀ ch, (blockOf fs ch).length = 128 ∧ ∀ v ∈ blockOf fs ch, -32768 ≤ v ∧ v ≤ 32767 := by
    intro ch
    unfold blockOf blockSamples
    refine ⟨by simp; omega, ?_⟩
    intro v hv
    rcases List.mem_append.1 hv with hv | hv
    · obtain ⟨f, hf, rfl⟩ := List.mem_map.1 hv
      rw [List.getD_eq_getElem?_getD]
      cases e : f[ch]? with
      | none => simp
      | some v => exact h2 f hf v (List.mem_of_getElem? e)
    · have := (List.mem_replicate.1 hv).2; omega
  intro t ht
  unfold fxOf at ht
  simp only at ht
  split at ht
  · rcases List.mem_append.1 ht with ht | ht
    · obtain ⟨ch, _, rfl⟩ := List.mem_map.1 ht; exact key ch
    · rw [List.mem_singleton.1 ht]; exact key 0
  · rw [List.append_nil] at ht; obtain ⟨ch, _, rfl⟩ := List.mem_map.1 ht; exact key ch

theorem readLoop_rate {σ : Type} {S : Src σ} {fuel : Nat} : ∀ {n : Nat} {r : Rd} {s : σ} {o : ReadOut σ},
    readLoop fp S fuel n r s = .ok o → r.loopType ≠ .pingpong → o.r.rate = r.rate
  | 0, r, s, o, h, _ => by unfold readLoop at h; cases h; rfl
  | n + 1, r, s, o, h, hl => by
    rcases readLoop_turn h with ⟨_, _, _, a4, _⟩ | ⟨r1, r2, s2, o2, v, _, _, b3, _, b5, b6, b7, rfl⟩
    · exact a4 hl
    · obtain ⟨pos2, hr2⟩ := stepOn_inv b6
      have hc2 := b5.trans (stepOn_conf b6)
      have hrate2 : r2.rate = r.rate := by rw [hr2]; exact b3 hl
      exact (readLoop_rate b7 (by rw [hc2.loopType]; exact hl)).trans hrate2

theorem read_rate {σ : Type} {S : Src σ} {fuel n : Nat} {r : Rd} {s : σ} {o : ReadOut σ} (h : r.read fp S fuel s n = .ok o) (hl : r.loopType ≠ .pingpong) :
    o.r.rate = r.rate := by
  unfold Rd.read at h
  split at h
  · cases h; rfl
  split at h
  · cases h
  split at h
  · split at h
    · cases h; rfl
    · cases h
  exact readLoop_rate h hl

theorem InOrder.update (hfp : Representable fp) (nullOk : Bool) (fuel : Nat) {a : FileReader} (h : InOrder l g a.rd a.src) (alloc : Nat → Bool) :
    ∃ fx a', a.update fp g nullOk (fuel + 2) alloc = .ok (fx, a') ∧ InOrder l g a'.rd a'.src ∧ WholeBlocks fx := by
  unfold FileReader.update
  cases hp : a.rd.playing with
  | false =>
    rw [update_idle h.nch0]
    exact ⟨_, _, rfl, h, fun t ht => by cases ht⟩
  | true =>
    obtain ⟨hs, T, hg⟩ := h.going hp
    have hn := hg.setup.nch
    by_cases ha : ((List.range a.rd.nch.toNat).filter alloc).length = (List.range a.rd.nch.toNat).length
    · rw [update_on hn _ _ _ ha]
      obtain ⟨o, e1, e2, e3, _, e4, e5, ⟨e6, e7⟩, e8⟩ := hg.read fp hfp (fileSrcOk_quiet g nullOk) fuel blockSamples hp ⟨hs, h.quiet⟩ (fun _ _ _ => trivial)
      unfold FileReader.read
      rw [e1]
      refine ⟨fxOf a.rd.nch o.frames alloc, ⟨o.r, o.s⟩, rfl, ?_, fxOf_whole e3 fun f hf => (e4 f hf).2⟩
      obtain ⟨hz, hpt, q, hw⟩ := e5
      have hl : o.r.loopType = .none := by rw [e8.loopType]; exact h.loop
      have hrate : o.r.rate = a.rd.rate := read_rate e1 (by rw [h.loop]; simp)
      exact ⟨hw.dual, hl, by rw [hrate]; exact h.rate0, by rw [hrate]; exact h.rateR, hw.flt, hw.frac, hpt, by rw [e8.header]; exact h.header0, by rw [e8.header]; exact h.header1,
        by rw [e8.nch]; exact h.nch0, by rw [e8.nch]; exact h.nchK, by rw [e8.interp]; exact h.interp, by rw [e8.playbackStart]; exact h.start0,
        by rw [e8.playbackStart]; exact h.start1, e7, fun _ => ⟨e6, T, hz, hpt, q, hw⟩⟩
    · rw [update_short hn _ _ _ ha]
      exact ⟨_, _, rfl, h, fun t ht => by cases ht⟩

theorem InOrder.event {a : FileReader} (h : InOrder l g a.rd a.src) {fuel : Nat} (hf : g.N ≤ fuel) (rs : List ReadResult) (e : Ev) :
    ∃ a' rs', a.serviceF fp g fuel rs e = .ok (a', rs') ∧ InOrder l g a'.rd a'.src := by
  cases e with
  | close =>
    refine ⟨_, _, rfl, h.dual, h.loop, h.rate0, h.rateR, h.flt, h.frac, h.pts, h.header0, h.header1, h.nch0, h.nchK, h.interp, h.start0, h.start1, fun c k => (nomatch k), fun k => by cases k⟩
  | reload =>
    obtain ⟨r, s⟩ := a
    simp only [FileReader.serviceF]
    cases s with
    | none => exact ⟨_, _, rfl, h⟩
    | some c =>
      obtain ⟨h1, h2⟩ := h.quiet c rfl
      obtain ⟨x, e1, e2, e3⟩ := triggerReloadF_ends (g := g) (c := c) (rate := fp.f.rnd r.rate) (fp.f.nonneg h.rate0) h1 (le_trans h2 hf) rs
      simp only [e1]
      refine ⟨_, _, rfl, h.dual, h.loop, h.rate0, h.rateR, h.flt, h.frac, h.pts, h.header0, h.header1, h.nch0, h.nchK, h.interp, h.start0, h.start1, ?_, fun k => ⟨rfl, (h.going k).2⟩⟩
      intro c' k
      cases k
      exact ⟨e2, by rw [e3]; exact h2⟩

theorem InOrder.set (hl : l.Fair) {p : FilePlayer} (h : InOrder l g p.rdr.rd p.rdr.src) {s : Setting} (hs : (Use.call (.set s)).Within l) :
    InOrder l g (p.set g s).rdr.rd (p.set g s).rdr.src := by
  have cmd : ∀ (c : Cmd) (r' : Rd), c.run p.rdr.rd = r' → r'.playing = p.rdr.rd.playing → (∀ T, Setup true p.rdr.rd l.speed T → c.Allowed true l.speed T p.rdr.rd) →
      r'.playing = true → p.rdr.src.isSome = true ∧ ∃ T, Going true r' l.speed T := by
    intro c r' e1 e2 e3 k
    obtain ⟨h1, T, h2⟩ := h.going (by rw [← e2]; exact k)
    refine ⟨h1, T, ?_⟩
    rw [← e1]
    exact (e3 T h2.setup).going h2
  obtain ⟨⟨r, src⟩, pend⟩ := p
  simp only at h cmd
  cases s with
  | speed v =>
    obtain ⟨k1, k2⟩ := hs
    obtain ⟨x, e⟩ : ∃ x, r.setPlaybackRate v = { r with rate := v, pos1 := x } := by
      unfold Rd.setPlaybackRate
      simp only [h.dual, Bool.not_false, if_true]
      rw [if_neg (not_lt.2 k1)]
      by_cases k : r.pos1 < r.header
      · rw [if_pos k]; exact ⟨_, rfl⟩
      · rw [if_neg k]; exact ⟨r.pos1, rfl⟩
    have c := cmd (.rate v) _ rfl (by simp only [Cmd.run]; rw [e]) (fun T hz => by
      refine ⟨?_, fun k => absurd k1 (not_le.2 k)⟩
      simp only [Cmd.run]; rw [e]
      exact ⟨hz.dual, hz.nch, by simp only [abs_of_nonneg k1]; exact k2, hz.R30, hz.header0, hz.interp, hz.fits, hz.F0, hz.FT, hz.A0, hz.AT, hz.E0, hz.ET, fun k => absurd h.loop k⟩)
    simp only [FilePlayer.set, Rd.set, Cmd.run] at c ⊢
    rw [e] at c ⊢
    exact ⟨h.dual, h.loop, k1, k2, h.flt, h.frac, h.pts, h.header0, h.header1, h.nch0, h.nchK, h.interp, h.start0, h.start1, h.quiet, c⟩
  | loopType t =>
    cases hs
    have e : r.setLoopType .none = r := by
      obtain ⟨playing, fileSize, header, rate, rem, loopType, playStart, pos1, pos2, crossfade, dual, cfDur, cfOn, playbackStart, loopStart, loopFinish, fileSamples, nch, psram, interp, pts⟩ := r
      have := h.loop; simp only at this; subst this; rfl
    have c := cmd (.loopType .none) _ rfl (by simp only [Cmd.run]; rw [e]) (fun T hz => ⟨by simp only [Cmd.run]; rw [e]; exact hz, trivial⟩)
    simp only [FilePlayer.set, FileReader.setLoopType, Cmd.run] at c ⊢
    rw [e] at c ⊢
    refine ⟨h.dual, h.loop, h.rate0, h.rateR, h.flt, h.frac, h.pts, h.header0, h.header1, h.nch0, h.nchK, h.interp, h.start0, h.start1, ?_, fun k => ⟨by simpa using (c k).1, (c k).2⟩⟩
    intro c' k
    cases src with
    | none => cases k
    | some c0 => cases k; exact ⟨rfl, (h.quiet c0 rfl).2⟩
  | loopStart _ => exact hs.elim
  | loopFinish _ => exact hs.elim
  | dual b =>
    cases hs
    have e : r.setDual false = r := by
      obtain ⟨playing, fileSize, header, rate, rem, loopType, playStart, pos1, pos2, crossfade, dual, cfDur, cfOn, playbackStart, loopStart, loopFinish, fileSamples, nch, psram, interp, pts⟩ := r
      have := h.dual; simp only at this; subst this; rfl
    simp only [FilePlayer.set, Rd.set]
    rw [e]
    exact h
  | fade n =>
    refine ⟨h.dual, h.loop, h.rate0, h.rateR, h.flt, h.frac, h.pts, h.header0, h.header1, h.nch0, h.nchK, h.interp, h.start0, h.start1, h.quiet, fun k => ?_⟩
    obtain ⟨h1, T, ⟨z, hpt, q, w⟩⟩ := h.going k
    exact ⟨h1, T, ⟨z.dual, z.nch, z.rateR, z.R30, z.header0, z.interp, z.fits, z.F0, z.FT, z.A0, z.AT, z.E0, z.ET, z.loop⟩, hpt, q,
      ⟨w.dual, w.cfOn, w.nch, w.rateR, w.R30, w.flt, w.frac, w.pos, w.header0, w.w0, w.w1, w.interp, w.fits, w.samples, w.A0, w.AT, w.loop, w.q0, w.q1⟩⟩
  | start ps x =>
    obtain ⟨k1, k2⟩ := hs
    have hx : i32 x = x := by have := hl.start1; unfold i32; omega
    have c := cmd (.playStart ps x) _ rfl rfl (fun T hz => ⟨⟨hz.dual, hz.nch, hz.rateR, hz.R30, hz.header0, hz.interp, hz.fits, hz.F0, hz.FT, hz.A0, hz.AT, hz.E0, hz.ET, hz.loop⟩, trivial⟩)
    exact ⟨h.dual, h.loop, h.rate0, h.rateR, h.flt, h.frac, h.pts, h.header0, h.header1, h.nch0, h.nchK, h.interp, by simp only [FilePlayer.set, Rd.set, Rd.setPlayStart]; rw [hx]; exact k1,
      by simp only [FilePlayer.set, Rd.set, Rd.setPlayStart]; rw [hx]; exact k2, h.quiet, c⟩
  | interpolation b =>
    have hb : (if b then Interp.quadratic else Interp.none) ≠ .none → l.smooth = true := by
      cases b with
      | false => intro k; exact absurd rfl k
      | true => intro _; exact hs rfl
    have c := cmd (.interp (if b then .quadratic else .none)) _ rfl rfl (fun T hz => ⟨⟨hz.dual, hz.nch, hz.rateR, hz.R30, hz.header0,
      fun k => le_trans h.nchK (hl.smooth (hb k)), hz.fits, hz.F0, hz.FT, hz.A0, hz.AT, hz.E0, hz.ET, hz.loop⟩, trivial⟩)
    exact ⟨h.dual, h.loop, h.rate0, h.rateR, h.flt, h.frac, h.pts, h.header0, h.header1, h.nch0, h.nchK, hb, h.start0, h.start1, h.quiet, c⟩
  | stop =>
    exact ⟨h.dual, h.loop, h.rate0, h.rateR, h.flt, h.frac, h.pts, h.header0, h.header1, h.nch0, h.nchK, h.interp, h.start0, h.start1, h.quiet, fun k => by cases k⟩
  | stopPolled =>
    exact ⟨h.dual, h.loop, h.rate0, h.rateR, h.flt, h.frac, h.pts, h.header0, h.header1, h.nch0, h.nchK, h.interp, h.start0, h.start1, h.quiet, fun k => by cases k⟩

/-! ## Opening a file -/

theorem preLoadLoopF_quiet (fw : Bool) : ∀ (left bufn : Nat) (c : Cache) (i : Int) (rs : List ReadResult), c.bufs.length ≤ bufn → c.loopType = .none →
    (preLoadLoopF g 0 fw left bufn c i rs).1.loopType = .none ∧ (preLoadLoopF g 0 fw left bufn c i rs).1.bufs.length ≤ bufn + left
  | 0, _, _, _, _, h1, h2 => ⟨h2, h1⟩
  | left + 1, bufn, c, i, rs, h1, h2 => by
    unfold preLoadLoopF
    dsimp only
    rw [if_pos (Nat.zero_le _)]
    generalize hb : c.bufs ++ [({ addr := bufn, index := 0, size := 0, status := .constructed, data := g.junk bufn } : Buf)] = bufs
    have hlen : bufs.length ≤ bufn + 1 := by rw [← hb]; simp; exact h1
    cases bufs[bufn]? with
    | none => exact ⟨h2, by simp only; omega⟩
    | some buf =>
      dsimp only
      split
      · exact ⟨h2, by simp only [List.length_set]; omega⟩
      · obtain ⟨e1, e2⟩ := preLoadLoopF_quiet fw left (bufn + 1)
          { c with bufs := bufs.set bufn (loadBufferF g c.dev buf i (rs.headD .all)).1, dev := (loadBufferF g c.dev buf i (rs.headD .all)).2.1 }
          (i32 (if fw = true then i + g.B else i - g.B)) rs.tail (by simp only [List.length_set]; exact hlen) h2
        exact ⟨e1, e2.trans (by omega)⟩

/-- A reader about to start a file. -/
structure Willing (l : Limits) (r : Rd) : Prop where
  dual : r.dual = false
  loop : r.loopType = .none
  rate0 : 0 ≤ r.rate
  rateR : r.rate ≤ l.speed
  flt : IsFloat 53 (-1074) r.rem
  frac : |r.rem| < 1
  pts : PtsOk r
  header0 : 0 ≤ r.header
  header1 : r.header ≤ 2147483647
  nch0 : -1 ≤ r.nch
  nchK : r.nch ≤ l.channels
  interp : r.interp ≠ .none → l.smooth = true
  start0 : 0 ≤ r.playbackStart
  start1 : r.playbackStart ≤ l.start
  idle : r.playing = false

theorem Willing.inOrder {r : Rd} (h : Willing l r) : InOrder l g r none :=
  ⟨h.dual, h.loop, h.rate0, h.rateR, h.flt, h.frac, h.pts, h.header0, h.header1, h.nch0, h.nchK, h.interp, h.start0, h.start1, fun c k => (nomatch k), fun k => by rw [h.idle] at k; cases k⟩

theorem InOrder.willing {a : FileReader} (h : InOrder l g a.rd a.src) : Willing l a.close.rd :=
  ⟨h.dual, h.loop, h.rate0, h.rateR, h.flt, h.frac, h.pts, h.header0, h.header1, h.nch0, h.nchK, h.interp, h.start0, h.start1, rfl⟩

theorem frames_mul {s n : Int} (hs : 0 ≤ s) (hn : 0 < n) : 0 ≤ s.tdiv n ∧ n * s.tdiv n ≤ s := by
  rw [Int.tdiv_eq_ediv_of_nonneg hs]
  exact ⟨Int.ediv_nonneg hs hn.le, Int.mul_ediv_self_le hn.ne'⟩

theorem Willing.finish (hl : l.Fair) {r : Rd} (h : Willing l r) (f : Dev) (rs : List ReadResult)
    (hfit : u32 (r.header * 2) < u32 r.fileSize → 0 < r.nch ∧ 0 ≤ r.fileSamples ∧ r.header + r.fileSamples + r.nch * (l.start + l.speed + 5) ≤ 2147483647) :
    ∃ okk a rs', playFinishF g r f rs = .ok (okk, a, rs') ∧ InOrder l g a.rd a.src := by
  unfold playFinishF
  by_cases h1 : u32 r.fileSize ≤ u32 (r.header * 2)
  · rw [if_pos h1]
    refine ⟨_, _, _, rfl, ?_⟩
    exact ⟨h.dual, h.loop, h.rate0, h.rateR, h.flt, h.frac, h.pts, h.header0, h.header1, h.nch0, h.nchK, h.interp, h.start0, h.start1, fun c k => (nomatch k), fun k => by cases k⟩
  · rw [if_neg h1]
    obtain ⟨hn, hs, hfit⟩ := hfit (not_le.1 h1)
    rw [if_neg hn.ne']
    obtain ⟨hF0, hF1⟩ := frames_mul hs hn
    obtain ⟨playing, fileSize, header, rate, rem, loopType, playStart, pos1, pos2, crossfade, dual, cfDur, cfOn, playbackStart, loopStart, loopFinish, fileSamples, nch, psram, interp, pts⟩ := r
    obtain ⟨k1, k2, k3, k4, k5, k6, k7, k8, k9, k10, k11, k12, k13, k14, k15⟩ := h
    simp only at k1 k2 k3 k4 k5 k6 k7 k8 k9 k10 k11 k12 k13 k14 k15 hn hs hfit hF0 hF1 h1
    subst k2
    simp only [if_true]
    generalize hF : fileSamples.tdiv nch = F at hF0 hF1
    have hS := hl.start0
    have hR := hl.speed0
    have hT : header + nch * ((F + l.start) + l.speed + 5) ≤ 2147483647 := by
      have e : nch * ((F + l.start) + l.speed + 5) = nch * F + nch * (l.start + l.speed + 5) := by ring
      rw [e]; omega
    have hFi : i32 F = F := by
      have : F ≤ nch * F := le_mul_of_one_le_left hF0 (by omega)
      have := mul_nonneg hn.le (show (0 : Int) ≤ l.start + l.speed + 5 by omega)
      unfold i32; omega
    have hrest : ∀ x : Int, 0 ≤ x → x ≤ F + l.start → ∀ r : Rd, r.header = header → r.nch = nch → r.posOf x = header + x * nch := by
      intro x x0 x1 r e1 e2
      have f := frame_fits k8 hn.le x0 (show x ≤ F + l.start + l.speed + 5 by omega) hT
      rw [← e1, ← e2] at f ⊢
      exact posOf_eq ⟨by rw [e1]; omega, f.2⟩
    obtain ⟨q, hq0, hq1, hpos⟩ : ∃ q : Int, 0 ≤ q ∧ q ≤ F + l.start ∧
        Rd.posOf ⟨playing, fileSize, header, rate, rem, .none, playStart, pos1, pos2, crossfade, dual, cfDur, cfOn, playbackStart, i32 0, i32 F, F, nch, psram, interp, fun c => if c < 8 then { pts c with n := 0 } else pts c⟩
          (match playStart with | .sample => 0 | .loop => i32 0 | .arbitrary => playbackStart) = header + q * nch := by
      cases playStart with
      | sample => exact ⟨0, le_refl _, by omega, hrest 0 (le_refl _) (by omega) _ rfl rfl⟩
      | loop => exact ⟨0, le_refl _, by omega, hrest 0 (le_refl _) (by omega) _ rfl rfl⟩
      | arbitrary => exact ⟨playbackStart, k13, by omega, hrest _ k13 (by omega) _ rfl rfl⟩
    refine ⟨_, _, _, rfl, ?_⟩
    have hpt : PtsOk ⟨true, fileSize, header, rate, rem, .none, playStart, header + q * nch, pos2, 0, dual, cfDur, false, playbackStart, i32 0, i32 F, F, nch, psram, interp, fun c => if c < 8 then { pts c with n := 0 } else pts c⟩ := by
      intro c
      simp only
      split
      · exact k7 c
      · exact k7 c
    have hi : Reaches true ⟨true, fileSize, header, rate, rem, .none, playStart, header + q * nch, pos2, 0, dual, cfDur, false, playbackStart, i32 0, i32 F, F, nch, psram, interp, fun c => if c < 8 then { pts c with n := 0 } else pts c⟩ :=
      fun k => le_trans k11 (hl.smooth (k12 k))
    have goal : ∀ c : Cache, Quiet g (some c) → InOrder l g
        ⟨true, fileSize, header, rate, rem, .none, playStart, header + q * nch, pos2, 0, dual, cfDur, false, playbackStart, i32 0, i32 F, F, nch, psram, interp, fun c => if c < 8 then { pts c with n := 0 } else pts c⟩ (some c) := by
      intro c hc
      refine ⟨k1, rfl, k3, k4, k5, k6, hpt, k8, k9, k10, k11, k12, k13, k14, hc, fun _ => ⟨rfl, F + l.start, ?_, hpt, q, ?_⟩⟩
      · exact ⟨k1, hn, by rw [abs_of_nonneg k3]; exact k4, hl.speed1, k8, hi, hT, hF0, by simp only; omega, le_refl _, by show (0 : Int) ≤ _; omega, by rw [hFi]; exact hF0, by simp only; rw [hFi]; omega, fun k => absurd rfl k⟩
      · exact ⟨k1, rfl, hn, by rw [abs_of_nonneg k3]; exact k4, hl.speed1, k5, k6, rfl, k8, le_refl _, by norm_num, hi, hT, fun _ => ⟨hF0, by simp only; omega⟩, le_refl _, by show (0 : Int) ≤ _; omega,
          fun k => absurd rfl k, fun _ => ⟨hq0, by omega⟩, fun k => absurd k3 (not_le.2 k)⟩
    have hr : Rd.reset ⟨playing, fileSize, header, rate, rem, .none, playStart, pos1, pos2, crossfade, dual, cfDur, cfOn, playbackStart, i32 0, i32 F, F, nch, psram, interp, pts⟩ =
        ⟨playing, fileSize, header, rate, rem, .none, playStart, header + q * nch, pos2, 0, dual, cfDur, false, playbackStart, i32 0, i32 F, F, nch, psram, interp, fun c => if c < 8 then { pts c with n := 0 } else pts c⟩ := by
      unfold Rd.reset
      simp only [ge_iff_le, k3, if_true]
      rw [← hpos]
      cases playStart <;> rfl
    simp only [FileReader.setLoopType, FileReader.setLoopStart, FileReader.setLoopFinish, Rd.setLoopType, Rd.setLoopStart, Rd.setLoopFinish, hr]
    refine goal _ ?_
    intro c hc
    cases hc
    unfold Cache.preLoadF
    have := fun (c : Cache) (h1 : c.bufs.length ≤ 0) (h2 : c.loopType = .none) => preLoadLoopF_quiet (g := g) (decide (rate ≥ 0)) g.N 0 c (header + q * nch) rs h1 h2
    refine ⟨(this _ (le_refl _) rfl).1, le_trans (this _ (le_refl _) rfl).2 (by omega)⟩

theorem Willing.channels {r : Rd} (h : Willing l r) {n sz : Int} (h0 : 0 ≤ n) (h1 : n ≤ l.channels) (hl : l.Fair) :
    Willing l { r.setNumChannels n with fileSize := sz } ∧ (r.setNumChannels n).nch = n ∧ (r.setNumChannels n).header = r.header := by
  have hc := hl.channels1
  have e := setNumChannels_nch_small r h0 (show n < 32768 by omega)
  obtain ⟨x, e2⟩ := setNumChannels_same r n
  rw [e2] at e ⊢
  simp only at e
  subst e
  exact ⟨⟨h.dual, h.loop, h.rate0, h.rateR, h.flt, h.frac, h.pts, h.header0, h.header1, by simp only; omega, h1, h.interp, h.start0, h.start1, h.idle⟩, rfl, rfl⟩

theorem Willing.raw (hl : l.Fair) {a : FileReader} (h : Willing l a.close.rd) {file : Option Dev} {n : Int} {polled : Bool} (hw : (Use.raw polled file n).Within l) (rs : List ReadResult) :
    ∃ okk a' rs', a.playRawF g file n rs = .ok (okk, a', rs') ∧ InOrder l g a'.rd a'.src := by
  obtain ⟨h0, h1, h2⟩ := hw
  have key := fun sz => h.channels (sz := sz) (show 0 ≤ n by omega) h1 hl
  unfold FileReader.playRawF FileReader.playFileF
  simp only [Bool.false_eq_true, if_false]
  generalize hr : a.close.rd.setNumChannels n = r at key
  cases file with
  | none =>
    obtain ⟨k1, k2, k3⟩ := key r.fileSize
    exact ⟨_, _, _, rfl, (Willing.inOrder k1 : InOrder l g { r with fileSize := r.fileSize } none)⟩
  | some f =>
    have hsz := h2 f rfl
    have hpos : 0 ≤ n * (l.start + l.speed + 5) := mul_nonneg (by omega) (by have := hl.start0; have := hl.speed0; omega)
    have hf : i32 (f.size : Int) = f.size := by unfold i32; omega
    obtain ⟨k1, k2, k3⟩ := key (i32 (f.size : Int))
    simp only
    rw [hf] at k1 ⊢
    have hs0 : (0 : Int) ≤ f.size := Int.natCast_nonneg _
    generalize (f.size : Int) = sz at *
    have ht : sz.tdiv 2 = sz / 2 := Int.tdiv_eq_ediv_of_nonneg hs0
    refine Willing.finish hl (r := { r with fileSize := sz, fileSamples := sz.tdiv 2 }) ⟨k1.dual, k1.loop, k1.rate0, k1.rateR, k1.flt, k1.frac, k1.pts, k1.header0, k1.header1, k1.nch0, k1.nchK, k1.interp, k1.start0, k1.start1, k1.idle⟩ f rs ?_
    intro hlt
    simp only at hlt ⊢
    have e1 : u32 sz = sz := by unfold u32; omega
    have e2 : u32 (r.header * 2) = r.header * 2 := by have := k1.header0; have := k1.header1; simp only at *; unfold u32; omega
    rw [e1, e2] at hlt
    rw [k2, ht]
    refine ⟨by omega, by omega, ?_⟩
    omega

theorem bind_ok_ex {α β : Type} {m : M α} {k : α → M β} (h : ∃ y, m = .ok y) (hk : ∀ y, ∃ x, k y = .ok x) : ∃ x, (m >>= k) = .ok x := by
  obtain ⟨y, rfl⟩ := h
  exact hk y

theorem playParseWav_answers {r : Rd} {m : List Nat} {past : Bool} {junk : List Nat} (h36 : 36 ≤ m.length) (hj : junk.length = 36)
    (ht : (slice m 0 4 = [82, 73, 70, 70] ∧ slice m 8 4 = [87, 65, 86, 69] ∧ slice m 12 4 = [102, 109, 116, 32]) ∨ (slice m 0 4 ≠ [82, 73, 70, 70] ∧ 0 ∈ m.take 36)) :
    ∃ x, playParseWav r ⟨m, 0, past⟩ junk = .ok x := by
  have htl : (m.take 36).length = 36 := by simp; omega
  have hov : overlay (m.take 36) junk = m.take 36 := overlay_full (by simp; omega)
  have hlen : ∀ (x b : List Nat), 8 ≤ b.length → 0 + 8 ≤ (overlay x b).length := by
    intro x b hb
    unfold overlay
    simp only [List.length_append, List.length_drop]; omega
  unfold playParseWav
  simp only [Dev.read, List.drop_zero, hov]
  have s0 : slice (m.take 36) 0 4 = slice m 0 4 := slice_take (by omega)
  have s8 : slice (m.take 36) 8 4 = slice m 8 4 := slice_take (by omega)
  have s12 : slice (m.take 36) 12 4 = slice m 12 4 := slice_take (by omega)
  refine bind_ok_ex ?_ fun y => ?_
  · rw [readHeader_eq (by omega), s0, s8, s12]
    rcases ht with ⟨t0, t8, t12⟩ | ⟨t0, tz⟩
    · rw [if_neg (by rw [t0]; decide), if_neg (by rw [t8, t12]; decide)]
      split <;> exact ⟨_, rfl⟩
    · rw [if_pos (by exact t0), if_pos tz]
      exact ⟨_, rfl⟩
  · split
    · exact ⟨_, rfl⟩
    · refine bind_ok_ex ?_ fun t => ?_
      · rw [readInfoTags_eq (hlen _ _ (by omega))]
        split
        · exact ⟨_, rfl⟩
        · split <;> exact ⟨_, rfl⟩
      · cases t with
        | none => exact ⟨_, rfl⟩
        | some t =>
          refine bind_ok_ex ?_ fun z => ?_
          · rw [readDataHeader_eq (hlen _ _ (by have := hlen (List.take 8 (List.drop (0 + (m.take 36).length) m)) (m.take 36) (by omega); simpa using this))]
            split <;> exact ⟨_, rfl⟩
          · split <;> exact ⟨_, rfl⟩

theorem playParseWav_kept {r r' : Rd} {f f' : Dev} {junk : List Nat} {ok : Bool} (h : playParseWav r f junk = .ok (ok, r', f'))
    (hl : 36 ≤ (overlay (f.read 36).1 junk).length) :
    (r'.nch = r.nch ∨ (slice (overlay (f.read 36).1 junk) 0 4 = tagRIFF ∧
      r'.nch = (r.setNumChannels (u16 (i16 (leVal (slice (overlay (f.read 36).1 junk) 22 2))))).nch)) ∧ (r'.header = r.header ∨ ∃ x, r'.header = u32 x / 2) := by
  unfold playParseWav at h
  obtain ⟨⟨ok1, hdr⟩, hh, h⟩ := bind_ok_iff.1 h
  simp only at h
  split at h
  · simp only [pure_eq_ok, Except.ok.injEq, Prod.mk.injEq] at h; rw [← h.2.1]; exact ⟨Or.inl rfl, Or.inl rfl⟩
  · rename_i hd
    have hp := depth16_accepted hl hh (by simpa using hd)
    have hnum : hdr.numChannels = i16 (leVal (slice (overlay (f.read 36).1 junk) 22 2)) := by rw [hp.2.1]; rfl
    rw [hnum] at h
    obtain ⟨x, e⟩ := setNumChannels_same r (u16 (i16 (leVal (slice (overlay (f.read 36).1 junk) 22 2))))
    rw [e] at h ⊢
    obtain ⟨t, _, h⟩ := bind_ok_iff.1 h
    cases t with
    | none =>
      simp only [pure_eq_ok, Except.ok.injEq, Prod.mk.injEq] at h; rw [← h.2.1]
      exact ⟨Or.inr ⟨hp.2.2.1, rfl⟩, Or.inl rfl⟩
    | some t =>
      simp only at h
      obtain ⟨⟨ok2, dh⟩, _, h⟩ := bind_ok_iff.1 h
      simp only at h
      split at h
      · simp only [pure_eq_ok, Except.ok.injEq, Prod.mk.injEq] at h; rw [← h.2.1]
        exact ⟨Or.inr ⟨hp.2.2.1, rfl⟩, Or.inl rfl⟩
      · simp only [pure_eq_ok, Except.ok.injEq, Prod.mk.injEq] at h; rw [← h.2.1]
        exact ⟨Or.inr ⟨hp.2.2.1, rfl⟩, Or.inr ⟨_, rfl⟩⟩

theorem Willing.wav (hl : l.Fair) {a : FileReader} (h : Willing l a.close.rd) {file : Option Dev} {junk : List Nat} {polled : Bool} (hw : (Use.wav polled file junk).Within l) (rs : List ReadResult) :
    ∃ okk a' rs', a.playWavF g file junk rs = .ok (okk, a', rs') ∧ InOrder l g a'.rd a'.src := by
  unfold FileReader.playWavF FileReader.playFileF
  simp only [if_true]
  generalize a.close.rd = r at h
  cases file with
  | none => exact ⟨_, _, _, rfl, h.inOrder⟩
  | some f =>
    obtain ⟨h0, hj, hm⟩ := hw f rfl
    obtain ⟨m, cur, past⟩ := f
    simp only at h0 hm ⊢
    subst h0
    have hsz : i32 ((Dev.size ⟨m, 0, past⟩ : Nat) : Int) = m.length := by have := hm.short; unfold i32 Dev.size; simp only; omega
    rw [hsz]
    generalize hr : ({ r with fileSize := (m.length : Int) } : Rd) = r0
    have hr0 : Willing l r0 := by
      rw [← hr]; exact ⟨h.dual, h.loop, h.rate0, h.rateR, h.flt, h.frac, h.pts, h.header0, h.header1, h.nch0, h.nchK, h.interp, h.start0, h.start1, h.idle⟩
    have hfs : r0.fileSize = m.length := by rw [← hr]
    obtain ⟨⟨okk, r1, f1⟩, e⟩ := playParseWav_answers (r := r0) (past := past) hm.long hj hm.tags
    rw [e]
    simp only [ok_bind]
    have hb : IsBytes m := hm.bytes
    have hlong := hm.long
    have hshort := hm.short
    have hK := hl.channels1
    have htl : overlay (Dev.read ⟨m, 0, past⟩ 36).1 junk = m.take 36 := by
      simp only [Dev.read, List.drop_zero]; exact overlay_full (by simp; omega)
    have chan : ∀ v : Nat, 1 ≤ v → (v : Int) ≤ l.channels → (r0.setNumChannels (u16 (i16 (v : Int)))).nch = v := by
      intro v h1 h2
      have e2 : u16 (i16 (v : Int)) = v := by unfold u16 i16; omega
      rw [e2, setNumChannels_nch_small _ (by omega) (by omega)]
    have hnch : r1.nch = r0.nch ∨ ((1 : Int) ≤ r1.nch ∧ r1.nch = leVal (slice m 22 2) ∧ r1.nch ≤ l.channels) := by
      obtain ⟨k | ⟨k1, k2⟩, _⟩ := playParseWav_kept e (by rw [htl]; simp; omega)
      · exact Or.inl k
      · rw [htl] at k1 k2
        rw [slice_take (by omega)] at k1 k2
        obtain ⟨c1, c2⟩ := hm.channels k1
        rw [chan _ c1 c2] at k2
        exact Or.inr ⟨by omega, k2, by omega⟩
    have hh : 0 ≤ r1.header ∧ r1.header ≤ 2147483647 := by
      obtain ⟨_, k | ⟨x, k⟩⟩ := playParseWav_kept e (by rw [htl]; simp; omega)
      · rw [k]; exact ⟨hr0.header0, hr0.header1⟩
      · rw [k]; unfold u32; omega
    obtain ⟨x, y, z, e1⟩ := playParseWav_same e
    have hr1 : Willing l r1 := by
      have n1 : -1 ≤ r1.nch ∧ r1.nch ≤ l.channels := by
        rcases hnch with k | ⟨k1, _, k3⟩
        · rw [k]; exact ⟨hr0.nch0, hr0.nchK⟩
        · exact ⟨by omega, k3⟩
      rw [e1] at hh n1 ⊢
      exact ⟨hr0.dual, hr0.loop, hr0.rate0, hr0.rateR, hr0.flt, hr0.frac, hr0.pts, hh.1, hh.2, n1.1, n1.2, hr0.interp, hr0.start0, hr0.start1, hr0.idle⟩
    cases okk with
    | false => exact ⟨_, _, _, rfl, hr1.inOrder⟩
    | true =>
      refine Willing.finish hl hr1 f1 rs ?_
      intro hlt
      have hfs1 : r1.fileSize = m.length := by rw [e1]; exact hfs
      have u1 : u32 r1.fileSize = m.length := by rw [hfs1]; unfold u32; omega
      have u2 : u32 (r1.header * 2) = r1.header * 2 := by unfold u32; omega
      rw [u1, u2] at hlt
      by_cases h44 : m.length < 44
      · have := playParseWav_short hj h44 hm.list r1 f1 e
        omega
      · obtain ⟨g1, g2, off, fs, g3, g4, g5, g6, g7, g8, g9⟩ := playParseWav_long hj hb (by omega) hshort hm.list r1 f1 e
        have hhd : r1.header = ((off + 8) / 2 : Nat) := by rw [g8]
        have hoff : off + 8 ≤ m.length := by omega
        have hd := hm.data off ⟨g3, g4, hoff⟩
        have hfs2 : r1.fileSamples = (leVal (slice m (off + 4) 4) / 2 : Nat) := by rw [g8]; exact g9 hoff
        obtain ⟨c1, c2⟩ := hm.channels g1.1
        have hn : r1.nch = leVal (slice m 22 2) := by
          have k := chan _ c1 c2
          have pn : (parsed m).numChannels = i16 (leVal (slice m 22 2)) := rfl
          rw [pn] at g8
          generalize leVal (slice m 22 2) = v at k g8
          rw [g8]
          generalize r0.setNumChannels (u16 (i16 (v : Int))) = rr at k ⊢
          exact k
        rw [hn, hfs2, hhd]
        have := hm.short
        refine ⟨by omega, by omega, ?_⟩
        have : (((off + 8) / 2 : Nat) : Int) ≤ (m.length / 2 : Nat) := by omega
        omega

end TVP
