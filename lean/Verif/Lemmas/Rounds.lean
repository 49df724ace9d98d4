import Verif.Spec.Rounds
import Verif.Lemmas.Life

/-!
# Playing files and loops of them, from the beginning
-/

namespace TVP
open Spec

variable {fp : Fp} {g : Geo} {l : Rounds}

/-! ## Reloading a full vector forwards -/

theorem halfReads_tail {rs : List ReadResult} (h : HalfReads g rs) : HalfReads g rs.tail := fun n hn => h n (List.mem_of_mem_tail hn)

theorem reloadDecide_full {c : Cache} {rate : ℚ} (hl : c.loopType ≠ .pingpong) (hr : 0 ≤ rate) (hN : c.bufs.length = g.N) {b : Buf} {rest : List Buf} (hc : c.bufs = b :: rest) :
    ∃ i, reloadDecide g c rate b = .ok (some i, .move) := by
  have hlast : ∃ z, lastSlot g c.bufs = .ok z := by
    unfold lastSlot
    have h1 : g.N - 1 < c.bufs.length := by rw [hc] at hN ⊢; simp only [List.length_cons] at hN ⊢; omega
    rw [List.getElem?_eq_getElem h1]
    exact ⟨_, rfl⟩
  obtain ⟨z, hz⟩ := hlast
  unfold reloadDecide
  rw [if_pos hr]
  cases hk : c.loopType with
  | none => exact ⟨_, rfl⟩
  | pingpong => exact absurd hk hl
  | «repeat» =>
    dsimp only
    split
    · rw [hz]
      simp only [ok_bind]
      split
      · exact ⟨_, rfl⟩
      · exact ⟨_, rfl⟩
    · exact ⟨_, rfl⟩

theorem reloadLoopF_full {rate : ℚ} (hr : 0 ≤ rate) : ∀ (fuel : Nat) (c : Cache) (rs : List ReadResult), c.loopType ≠ .pingpong → c.bufs.length = g.N → HalfReads g rs → unusedIn c.bufs ≤ fuel →
    ∃ x, reloadLoopF g rate fuel c rs = .ok x ∧ x.1.loopType = c.loopType ∧ x.1.bufs.length = c.bufs.length ∧ HalfReads g x.2 := by
  intro fuel
  induction fuel with
  | zero =>
    intro c rs hl hN hrs hu
    refine ⟨(c, rs), reloadLoopF_done 0 rs fun b rest hc hs => ?_, rfl, rfl, hrs⟩
    rw [hc] at hu
    unfold unusedIn at hu
    rw [List.filter_cons_of_pos (by simpa using hs)] at hu
    simp at hu
  | succ fuel ih =>
    intro c rs hl hN hrs hu
    rcases hc : c.bufs with _ | ⟨b, rest⟩
    · exact ⟨(c, rs), reloadLoopF_done _ rs (fun b rest h => by rw [hc] at h; cases h), rfl, by rw [hc], hrs⟩
    · by_cases hs : b.status = .unused
      · obtain ⟨i, hi⟩ := reloadDecide_full hl hr hN hc
        have e0 : reloadLoopF g rate (fuel + 1) c rs =
            reloadLoopF g rate fuel { c with bufs := rest ++ [(loadBufferF g c.dev b i (rs.headD .all)).1], dev := (loadBufferF g c.dev b i (rs.headD .all)).2.1 } rs.tail := by
          rw [reloadLoopF]
          split
          · rename_i h; rw [hc] at h; cases h
          · rename_i b' rest' h
            rw [hc] at h
            cases h
            rw [if_pos hs, hi]
            simp only [ok_bind, reloadLoadF, reloadReorder]
            rw [if_neg (by decide)]
            rfl
        rw [e0]
        obtain ⟨x, e1, e2, e3, e4⟩ := ih { c with bufs := rest ++ [(loadBufferF g c.dev b i (rs.headD .all)).1], dev := (loadBufferF g c.dev b i (rs.headD .all)).2.1 } rs.tail hl
          (by rw [← hN, hc]; simp) (halfReads_tail hrs) (by
            rw [hc] at hu
            unfold unusedIn at hu ⊢
            rw [List.filter_cons_of_pos (by simpa using hs)] at hu
            rw [List.filter_append, List.filter_cons_of_neg (by rw [loadBufferF_status]; decide)]
            simp only [List.length_cons, List.filter_nil, List.append_nil] at hu ⊢
            omega)
        exact ⟨x, e1, e2, by rw [e3]; simp, e4⟩
      · exact ⟨(c, rs), reloadLoopF_done _ rs (fun b' rest' h => by rw [hc] at h; cases h; exact hs), rfl, by rw [hc], hrs⟩

theorem triggerReloadF_full {c : Cache} {rate : ℚ} (hr : 0 ≤ rate) (hl : c.loopType ≠ .pingpong) (hN : c.bufs.length = g.N) {fuel : Nat} (hf : g.N ≤ fuel) {rs : List ReadResult} (hrs : HalfReads g rs) :
    ∃ x, c.triggerReloadF g fuel rate rs = .ok x ∧ x.1.loopType = c.loopType ∧ x.1.bufs.length = g.N ∧ HalfReads g x.2 := by
  have hrr : reloadRate c rate = rate := by unfold reloadRate; rw [if_neg (fun h => hl h.1)]
  obtain ⟨x, e1, e2, e3, e4⟩ := reloadLoopF_full (g := g) hr fuel c rs hl hN hrs (le_trans (unusedIn_le _) (by rw [hN]; exact hf))
  unfold Cache.triggerReloadF
  rw [hrr, e1]
  have k3 : x.1.resetStatus.bufs.length = g.N := by unfold Cache.resetStatus; simp only [List.length_map]; rw [e3, hN]
  by_cases h0 : x.1.resetStatus.prevRate = 0
  · refine ⟨({ x.1.resetStatus with prevRate := rate }, x.2), ?_, e2, k3, e4⟩
    simp only [ok_bind, if_pos h0]; rfl
  · refine ⟨(x.1.resetStatus, x.2), ?_, e2, k3, e4⟩
    simp only [ok_bind, if_neg h0]; rfl

/-! ## Filling the vector -/

theorem loadBufferF_half {d : Dev} {b : Buf} {i : Int} {r : ReadResult} (hr : ∀ n, r = .short n → g.B ≤ n) (h0 : 0 ≤ i) (hm : d.bytes.length < 2 ^ 31)
    (hi : 2 * (i / g.B * g.B) + g.B ≤ (d.bytes.length : Int)) : g.B ≤ (loadBufferF g d b i r).2.2 := by
  have hB : (0 : Int) < g.B := by unfold Geo.B; exact_mod_cast Nat.two_pow_pos _
  have e1 : i - i % g.B = i / g.B * g.B := by rw [Int.emod_def, mul_comm]; ring
  have hq : 0 ≤ i / g.B := Int.ediv_nonneg h0 hB.le
  have hk : 0 ≤ i / g.B * g.B := mul_nonneg hq hB.le
  have hpos : (u32 (2 * u32 (i - i % g.B))).toNat = (2 * (i / g.B * g.B)).toNat := by
    rw [e1]; congr 1; unfold u32; omega
  have hseek : ∀ k, g.B ≤ k → g.B ≤ ((d.seek (u32 (2 * u32 (i - i % g.B))).toNat).read k).1.length := by
    intro k hk'
    rw [hpos]
    unfold Dev.seek
    rw [if_pos (Or.inl (by omega))]
    unfold Dev.read
    simp only [List.length_take, List.length_drop]
    omega
  cases r with
  | all => exact hseek _ (by omega)
  | short n => exact hseek _ (by have := hr n rfl; omega)
  | error left cur => show g.B ≤ 4294967295; omega

theorem preLoadLoopF_full : ∀ (left bufn : Nat) (c : Cache) (i : Int) (rs : List ReadResult), c.bufs.length = bufn → 0 ≤ i → HalfReads g rs → c.dev.bytes.length < 2 ^ 31 →
    (0 < left → 2 * ((i / g.B + (left : Int) - 1) * g.B) + g.B ≤ (c.dev.bytes.length : Int)) →
    (preLoadLoopF g 0 true left bufn c i rs).1.loopType = c.loopType ∧ (preLoadLoopF g 0 true left bufn c i rs).1.bufs.length = bufn + left ∧ HalfReads g (preLoadLoopF g 0 true left bufn c i rs).2
  | 0, _, _, _, _, h1, _, h3, _, _ => ⟨rfl, h1, h3⟩
  | left + 1, bufn, c, i, rs, h1, h2, h3, h4, h5 => by
    have hB : (0 : Int) < g.B := by unfold Geo.B; exact_mod_cast Nat.two_pow_pos _
    have h5 := h5 (Nat.succ_pos _)
    have hq : i / g.B * g.B ≤ (i / g.B + ((left + 1 : Nat) : Int) - 1) * g.B := mul_le_mul_of_nonneg_right (by omega) hB.le
    have hhalf : ∀ b, g.B ≤ (loadBufferF g c.dev b i (rs.headD .all)).2.2 := by
      intro b
      refine loadBufferF_half ?_ h2 h4 (by linarith)
      intro n hn
      cases rs with
      | nil => cases hn
      | cons r rs => exact h3 n (by rw [← hn]; exact List.mem_cons_self)
    unfold preLoadLoopF
    dsimp only
    rw [if_pos (Nat.zero_le _)]
    have hget : (c.bufs ++ [({ addr := bufn, index := 0, size := 0, status := .constructed, data := g.junk bufn } : Buf)])[bufn]? = some { addr := bufn, index := 0, size := 0, status := .constructed, data := g.junk bufn } := by
      rw [← h1]; simp
    rw [hget]
    dsimp only
    rw [if_neg (not_lt.2 (hhalf _))]
    simp only [if_true]
    have hnext : 0 < left → i32 (i + g.B) = i + g.B := by
      intro hl
      have e : (i + g.B) / g.B = i / g.B + 1 := Int.add_ediv_of_dvd_right (dvd_refl _) |>.trans (by rw [Int.ediv_self hB.ne'])
      have : (i / g.B + 1) * g.B ≤ (i / g.B + ((left + 1 : Nat) : Int) - 1) * g.B := mul_le_mul_of_nonneg_right (by omega) hB.le
      have hlt := Int.lt_ediv_add_one_mul_self i hB
      have e2 : (i / g.B + 1) * (g.B : Int) = i / g.B * g.B + g.B := by ring
      rw [e2] at this hlt
      have : (0 : Int) ≤ i / g.B * g.B := mul_nonneg (Int.ediv_nonneg h2 hB.le) hB.le
      unfold i32; omega
    obtain ⟨e1, e2, e3⟩ := preLoadLoopF_full left (bufn + 1)
        { c with bufs := (c.bufs ++ [({ addr := bufn, index := 0, size := 0, status := .constructed, data := g.junk bufn } : Buf)]).set bufn (loadBufferF g c.dev { addr := bufn, index := 0, size := 0, status := .constructed, data := g.junk bufn } i (rs.headD .all)).1,
                 dev := (loadBufferF g c.dev { addr := bufn, index := 0, size := 0, status := .constructed, data := g.junk bufn } i (rs.headD .all)).2.1 }
        (if left = 0 then 0 else i + g.B) rs.tail (by simp [h1]) (by split <;> omega) (halfReads_tail h3) (by rw [loadBufferF_bytes]; exact h4) (fun hl => by
          rw [loadBufferF_bytes, if_neg (by omega)]
          have e : (i + g.B) / g.B = i / g.B + 1 := Int.add_ediv_of_dvd_right (dvd_refl _) |>.trans (by rw [Int.ediv_self hB.ne'])
          rw [e]
          have : i / (g.B : Int) + 1 + (left : Int) - 1 = i / g.B + ((left + 1 : Nat) : Int) - 1 := by push_cast; ring
          rw [this]; exact h5)
    cases left with
    | zero => exact ⟨rfl, by simp [preLoadLoopF, h1], halfReads_tail h3⟩
    | succ left =>
      rw [if_neg (by omega)] at e1 e2 e3
      rw [hnext (Nat.succ_pos _)]
      exact ⟨e1, e2.trans (by omega), e3⟩

/-! ## What stays true -/

/-- A cache that is full and not to and fro. -/
def Brimful (g : Geo) (s : Option Cache) : Prop := ∀ c, s = some c → c.loopType ≠ .pingpong ∧ c.bufs.length = g.N

theorem fileSrcOk_brimful (g : Geo) (nullOk : Bool) : SrcOk (fileSrc g nullOk) (fun s => s.isSome = true ∧ Brimful g s) (fun _ => True) := by
  rintro s i ⟨hs, hq⟩ _
  obtain ⟨c, rfl⟩ := Option.isSome_iff_exists.1 hs
  obtain ⟨h1, h2⟩ := hq c rfl
  refine ⟨(c.get g i).1, some (c.get g i).2, rfl, ⟨rfl, ?_⟩, ?_⟩
  · intro c' h
    cases h
    have hlen : (findWithIndex (u32 (i / g.B)) c.bufs).1.length = c.bufs.length := by
      have := congrArg List.length (findWithIndex_core (u32 (i / g.B)) c.bufs); simpa using this
    unfold Cache.get
    split
    · rename_i e; rw [e] at hlen; exact ⟨h1, by rw [hlen]; exact h2⟩
    · rename_i e; rw [e] at hlen; exact ⟨h1, by rw [hlen]; exact h2⟩
  · unfold Cache.get
    split
    · unfold sampleAt i16 InI16; simp only; omega
    · unfold InI16; simp only; omega

/-- The settings of a reader whatever is played. -/
structure RoundConf (l : Rounds) (r : Rd) : Prop where
  dual : r.dual = false
  loop : r.loopType ≠ .pingpong
  rate0 : 0 ≤ r.rate
  rateR : r.rate ≤ l.speed
  flt : IsFloat 53 (-1074) r.rem
  frac : |r.rem| < 1
  pts : PtsOk r
  header0 : 0 ≤ r.header
  header1 : r.header ≤ l.header
  nch0 : -1 ≤ r.nch
  nchK : r.nch ≤ l.channels
  interp : r.interp ≠ .none → l.smooth = true
  start0 : 0 ≤ r.playbackStart
  start1 : r.playbackStart ≤ l.start
  A0 : 0 ≤ r.loopStart
  A1 : r.loopStart ≤ l.mid
  E0 : l.mid < r.loopFinish
  E1 : r.loopFinish ≤ l.fin

/-- What stays true of a reader whatever is played. -/
structure InRound (l : Rounds) (g : Geo) (r : Rd) (s : Option Cache) : Prop where
  conf : RoundConf l r
  full : Brimful g s
  going : r.playing = true → s.isSome = true ∧ Going true r l.speed (l.fin + l.start)

theorem InRound.update (hfp : Representable fp) (nullOk : Bool) (fuel : Nat) {a : FileReader} (h : InRound l g a.rd a.src) (alloc : Nat → Bool) :
    ∃ fx a', a.update fp g nullOk (fuel + 2) alloc = .ok (fx, a') ∧ InRound l g a'.rd a'.src ∧ WholeBlocks fx := by
  have hc := h.conf
  unfold FileReader.update
  cases hp : a.rd.playing with
  | false =>
    rw [update_idle hc.nch0]
    exact ⟨_, _, rfl, h, fun t ht => by cases ht⟩
  | true =>
    obtain ⟨hs, hg⟩ := h.going hp
    have hn := hg.setup.nch
    by_cases ha : ((List.range a.rd.nch.toNat).filter alloc).length = (List.range a.rd.nch.toNat).length
    · rw [update_on hn _ _ _ ha]
      obtain ⟨o, e1, e2, e3, _, e4, e5, ⟨e6, e7⟩, e8⟩ := hg.read fp hfp (fileSrcOk_brimful g nullOk) fuel blockSamples hp ⟨hs, h.full⟩ (fun _ _ _ => trivial)
      unfold FileReader.read
      rw [e1]
      refine ⟨fxOf a.rd.nch o.frames alloc, ⟨o.r, o.s⟩, rfl, ?_, fxOf_whole e3 fun f hf => (e4 f hf).2⟩
      obtain ⟨hz, hpt, q, hw⟩ := e5
      have hrate : o.r.rate = a.rd.rate := read_rate e1 hc.loop
      refine ⟨⟨hw.dual, by rw [e8.loopType]; exact hc.loop, by rw [hrate]; exact hc.rate0, by rw [hrate]; exact hc.rateR, hw.flt, hw.frac, hpt, by rw [e8.header]; exact hc.header0, by rw [e8.header]; exact hc.header1,
        by rw [e8.nch]; exact hc.nch0, by rw [e8.nch]; exact hc.nchK, by rw [e8.interp]; exact hc.interp, by rw [e8.playbackStart]; exact hc.start0,
        by rw [e8.playbackStart]; exact hc.start1, by rw [e8.loopStart]; exact hc.A0, by rw [e8.loopStart]; exact hc.A1, by rw [e8.loopFinish]; exact hc.E0, by rw [e8.loopFinish]; exact hc.E1⟩, e7, fun _ => ⟨e6, hz, hpt, q, hw⟩⟩
    · rw [update_short hn _ _ _ ha]
      exact ⟨_, _, rfl, h, fun t ht => by cases ht⟩

theorem InRound.event {a : FileReader} (h : InRound l g a.rd a.src) {fuel : Nat} (hf : g.N ≤ fuel) {rs : List ReadResult} (hrs : HalfReads g rs) (e : Ev) :
    ∃ a' rs', a.serviceF fp g fuel rs e = .ok (a', rs') ∧ InRound l g a'.rd a'.src ∧ HalfReads g rs' := by
  have k := h.conf
  cases e with
  | close =>
    exact ⟨_, _, rfl, ⟨⟨k.dual, k.loop, k.rate0, k.rateR, k.flt, k.frac, k.pts, k.header0, k.header1, k.nch0, k.nchK, k.interp, k.start0, k.start1, k.A0, k.A1, k.E0, k.E1⟩, fun c k => (nomatch k), fun k => by cases k⟩, hrs⟩
  | reload =>
    obtain ⟨r, s⟩ := a
    simp only [FileReader.serviceF]
    cases s with
    | none => exact ⟨_, _, rfl, h, hrs⟩
    | some c =>
      obtain ⟨h1, h2⟩ := h.full c rfl
      obtain ⟨x, e1, e2, e3, e4⟩ := triggerReloadF_full (g := g) (c := c) (rate := fp.f.rnd r.rate) (fp.f.nonneg k.rate0) h1 h2 hf hrs
      simp only [e1]
      refine ⟨_, _, rfl, ⟨k, ?_, fun z => ⟨rfl, (h.going z).2⟩⟩, e4⟩
      intro c' z
      cases z
      exact ⟨by rw [e2]; exact h1, e3⟩

theorem InRound.set (hl : l.Fair) {p : FilePlayer} (h : InRound l g p.rdr.rd p.rdr.src) {s : Setting} (hs : (Use.call (.set s)).Round l g) :
    InRound l g (p.set g s).rdr.rd (p.set g s).rdr.src := by
  have cmd : ∀ (c : Cmd) (r' : Rd), c.run p.rdr.rd = r' → r'.playing = p.rdr.rd.playing → (Setup true p.rdr.rd l.speed (l.fin + l.start) → c.Allowed true l.speed (l.fin + l.start) p.rdr.rd) →
      r'.playing = true → p.rdr.src.isSome = true ∧ Going true r' l.speed (l.fin + l.start) := by
    intro c r' e1 e2 e3 k
    obtain ⟨h1, h2⟩ := h.going (by rw [← e2]; exact k)
    refine ⟨h1, ?_⟩
    rw [← e1]
    exact (e3 h2.setup).going h2
  obtain ⟨⟨r, src⟩, pend⟩ := p
  obtain ⟨k, hfull, hgo⟩ := h
  simp only at k hfull hgo cmd
  have hA := k.A1
  have hE := k.E0
  have hloop : r.loopStart < r.loopFinish := by omega
  have hrep : ∀ t : LoopType, t ≠ .pingpong → t ≠ .none → t = .repeat := by intro t h1 h2; cases t <;> simp_all
  have hS := hl.limits.start0
  cases s with
  | speed v =>
    obtain ⟨k1, k2⟩ := hs
    obtain ⟨x, e⟩ : ∃ x, r.setPlaybackRate v = { r with rate := v, pos1 := x } := by
      unfold Rd.setPlaybackRate
      simp only [k.dual, Bool.not_false, if_true]
      rw [if_neg (not_lt.2 k1)]
      by_cases k : r.pos1 < r.header
      · rw [if_pos k]; exact ⟨_, rfl⟩
      · rw [if_neg k]; exact ⟨r.pos1, rfl⟩
    have c := cmd (.rate v) _ rfl (by simp only [Cmd.run]; rw [e]) (fun hz => by
      refine ⟨?_, fun k => absurd k1 (not_le.2 k)⟩
      simp only [Cmd.run]; rw [e]
      exact ⟨hz.dual, hz.nch, by simp only [abs_of_nonneg k1]; exact k2, hz.R30, hz.header0, hz.interp, hz.fits, hz.F0, hz.FT, hz.A0, hz.AT, hz.E0, hz.ET, fun z => ⟨hloop, Or.inl ⟨hrep _ k.loop z, k1⟩⟩⟩)
    simp only [FilePlayer.set, Rd.set, Cmd.run] at c ⊢
    rw [e] at c ⊢
    exact ⟨⟨k.dual, k.loop, k1, k2, k.flt, k.frac, k.pts, k.header0, k.header1, k.nch0, k.nchK, k.interp, k.start0, k.start1, k.A0, k.A1, k.E0, k.E1⟩, hfull, c⟩
  | loopType t =>
    have c := cmd (.loopType t) _ rfl rfl (fun hz => ⟨⟨hz.dual, hz.nch, hz.rateR, hz.R30, hz.header0, hz.interp, hz.fits, hz.F0, hz.FT, hz.A0, hz.AT, hz.E0, hz.ET, fun z => ⟨hloop, Or.inl ⟨hrep _ hs z, k.rate0⟩⟩⟩, trivial⟩)
    simp only [FilePlayer.set, FileReader.setLoopType, Cmd.run] at c ⊢
    refine ⟨⟨k.dual, hs, k.rate0, k.rateR, k.flt, k.frac, k.pts, k.header0, k.header1, k.nch0, k.nchK, k.interp, k.start0, k.start1, k.A0, k.A1, k.E0, k.E1⟩, ?_, fun z => ⟨by simpa using (c z).1, (c z).2⟩⟩
    intro c' z
    cases src with
    | none => cases z
    | some c0 => cases z; exact ⟨hs, (hfull c0 rfl).2⟩
  | loopStart x =>
    obtain ⟨k1, k2⟩ := hs
    have hx : i32 x = x := by
      have h1 := hl.fits; have h2 := hl.fin; have h3 := hl.limits.channels0; have h4 := hl.limits.speed0; have h5 := hl.header
      have : l.fin + l.start + l.speed + 5 ≤ l.channels * (l.fin + l.start + l.speed + 5) := le_mul_of_one_le_left (by omega) h3
      unfold i32; omega
    have hF := hl.fin
    have c := cmd (.loopStart x) _ rfl rfl (fun hz => ⟨⟨hz.dual, hz.nch, hz.rateR, hz.R30, hz.header0, hz.interp, hz.fits, hz.F0, hz.FT, by show 0 ≤ i32 x; omega, by show i32 x ≤ _; omega, hz.E0, hz.ET,
      fun z => ⟨by show i32 x < r.loopFinish; omega, Or.inl ⟨hrep _ k.loop z, k.rate0⟩⟩⟩, trivial⟩)
    simp only [FilePlayer.set, FileReader.setLoopStart, Cmd.run] at c ⊢
    refine ⟨⟨k.dual, k.loop, k.rate0, k.rateR, k.flt, k.frac, k.pts, k.header0, k.header1, k.nch0, k.nchK, k.interp, k.start0, k.start1, by show 0 ≤ i32 x; omega, by show i32 x ≤ _; omega, k.E0, k.E1⟩, ?_, fun z => ⟨by simpa using (c z).1, (c z).2⟩⟩
    intro c' z
    cases src with
    | none => cases z
    | some c0 => cases z; exact hfull c0 rfl
  | loopFinish x =>
    obtain ⟨k1, k2⟩ := hs
    have hM := hl.mid
    have hx : i32 x = x := by
      have h1 := hl.fits; have h2 := hl.fin; have h3 := hl.limits.channels0; have h4 := hl.limits.speed0; have h5 := hl.header
      have : l.fin + l.start + l.speed + 5 ≤ l.channels * (l.fin + l.start + l.speed + 5) := le_mul_of_one_le_left (by omega) h3
      unfold i32; omega
    have c := cmd (.loopFinish x) _ rfl rfl (fun hz => ⟨⟨hz.dual, hz.nch, hz.rateR, hz.R30, hz.header0, hz.interp, hz.fits, hz.F0, hz.FT, hz.A0, hz.AT, by show 0 ≤ i32 x; omega, by show i32 x ≤ _; omega,
      fun z => ⟨by show r.loopStart < i32 x; omega, Or.inl ⟨hrep _ k.loop z, k.rate0⟩⟩⟩, trivial⟩)
    simp only [FilePlayer.set, FileReader.setLoopFinish, Cmd.run] at c ⊢
    refine ⟨⟨k.dual, k.loop, k.rate0, k.rateR, k.flt, k.frac, k.pts, k.header0, k.header1, k.nch0, k.nchK, k.interp, k.start0, k.start1, k.A0, k.A1, by show _ < i32 x; omega, by show i32 x ≤ _; omega⟩, ?_, fun z => ⟨by simpa using (c z).1, (c z).2⟩⟩
    intro c' z
    cases src with
    | none => cases z
    | some c0 => cases z; exact hfull c0 rfl
  | dual b =>
    cases hs
    have e : r.setDual false = r := by
      obtain ⟨playing, fileSize, header, rate, rem, loopType, playStart, pos1, pos2, crossfade, dual, cfDur, cfOn, playbackStart, loopStart, loopFinish, fileSamples, nch, psram, interp, pts⟩ := r
      have := k.dual; simp only at this; subst this; rfl
    simp only [FilePlayer.set, Rd.set]
    rw [e]
    exact ⟨k, hfull, hgo⟩
  | fade n =>
    refine ⟨⟨k.dual, k.loop, k.rate0, k.rateR, k.flt, k.frac, k.pts, k.header0, k.header1, k.nch0, k.nchK, k.interp, k.start0, k.start1, k.A0, k.A1, k.E0, k.E1⟩, hfull, fun z => ?_⟩
    obtain ⟨h1, ⟨z, hpt, q, w⟩⟩ := hgo z
    exact ⟨h1, ⟨z.dual, z.nch, z.rateR, z.R30, z.header0, z.interp, z.fits, z.F0, z.FT, z.A0, z.AT, z.E0, z.ET, z.loop⟩, hpt, q,
      ⟨w.dual, w.cfOn, w.nch, w.rateR, w.R30, w.flt, w.frac, w.pos, w.header0, w.w0, w.w1, w.interp, w.fits, w.samples, w.A0, w.AT, w.loop, w.q0, w.q1⟩⟩
  | start ps x =>
    obtain ⟨k1, k2⟩ := hs
    have hx : i32 x = x := by have := hl.limits.start1; unfold i32; omega
    have c := cmd (.playStart ps x) _ rfl rfl (fun hz => ⟨⟨hz.dual, hz.nch, hz.rateR, hz.R30, hz.header0, hz.interp, hz.fits, hz.F0, hz.FT, hz.A0, hz.AT, hz.E0, hz.ET, hz.loop⟩, trivial⟩)
    exact ⟨⟨k.dual, k.loop, k.rate0, k.rateR, k.flt, k.frac, k.pts, k.header0, k.header1, k.nch0, k.nchK, k.interp, by show 0 ≤ i32 x; omega, by show i32 x ≤ _; omega, k.A0, k.A1, k.E0, k.E1⟩, hfull, c⟩
  | interpolation b =>
    have hb : (if b then Interp.quadratic else Interp.none) ≠ .none → l.smooth = true := by
      cases b with
      | false => intro k; exact absurd rfl k
      | true => intro _; exact hs rfl
    have c := cmd (.interp (if b then .quadratic else .none)) _ rfl rfl (fun hz => ⟨⟨hz.dual, hz.nch, hz.rateR, hz.R30, hz.header0,
      fun z => le_trans k.nchK (hl.limits.smooth (hb z)), hz.fits, hz.F0, hz.FT, hz.A0, hz.AT, hz.E0, hz.ET, hz.loop⟩, trivial⟩)
    exact ⟨⟨k.dual, k.loop, k.rate0, k.rateR, k.flt, k.frac, k.pts, k.header0, k.header1, k.nch0, k.nchK, hb, k.start0, k.start1, k.A0, k.A1, k.E0, k.E1⟩, hfull, c⟩
  | stop =>
    exact ⟨⟨k.dual, k.loop, k.rate0, k.rateR, k.flt, k.frac, k.pts, k.header0, k.header1, k.nch0, k.nchK, k.interp, k.start0, k.start1, k.A0, k.A1, k.E0, k.E1⟩, hfull, fun z => by cases z⟩
  | stopPolled =>
    exact ⟨⟨k.dual, k.loop, k.rate0, k.rateR, k.flt, k.frac, k.pts, k.header0, k.header1, k.nch0, k.nchK, k.interp, k.start0, k.start1, k.A0, k.A1, k.E0, k.E1⟩, hfull, fun z => by cases z⟩


/-! ## Opening a file -/

theorem RoundConf.closed {r : Rd} (h : RoundConf l r) (hp : r.playing = false) : InRound l g r none := ⟨h, fun c k => (nomatch k), fun k => by rw [hp] at k; cases k⟩

theorem RoundConf.finish (hl : l.Fair) {r : Rd} (h : RoundConf l r) (f : Dev) {rs : List ReadResult} (hrs : HalfReads g rs) (hf : f.bytes.length < 2 ^ 31)
    (hfit : u32 (r.header * 2) < u32 r.fileSize → 0 < r.nch ∧ 0 ≤ r.fileSamples ∧ l.mid < r.fileSamples / r.nch ∧ r.fileSamples / r.nch ≤ l.fin ∧ l.Ample g r.nch f.bytes.length) :
    ∃ okk a rs', playFinishF g r f rs = .ok (okk, a, rs') ∧ InRound l g a.rd a.src ∧ HalfReads g rs' := by
  unfold playFinishF
  by_cases h1 : u32 r.fileSize ≤ u32 (r.header * 2)
  · rw [if_pos h1]
    refine ⟨_, _, _, rfl, ?_, hrs⟩
    exact ⟨⟨h.dual, h.loop, h.rate0, h.rateR, h.flt, h.frac, h.pts, h.header0, h.header1, h.nch0, h.nchK, h.interp, h.start0, h.start1, h.A0, h.A1, h.E0, h.E1⟩, fun c k => (nomatch k), fun k => by cases k⟩
  · rw [if_neg h1]
    obtain ⟨hn, hs, hm, hfin, hample⟩ := hfit (not_le.1 h1)
    rw [if_neg hn.ne']
    obtain ⟨playing, fileSize, header, rate, rem, loopType, playStart, pos1, pos2, crossfade, dual, cfDur, cfOn, playbackStart, loopStart, loopFinish, fileSamples, nch, psram, interp, pts⟩ := r
    obtain ⟨k1, k2, k3, k4, k5, k6, k7, k8, k9, k10, k11, k12, k13, k14, k15, k16, k17, k18⟩ := h
    simp only at k1 k2 k3 k4 k5 k6 k7 k8 k9 k10 k11 k12 k13 k14 k15 k16 k17 k18 hn hs hm hfin hample h1
    rw [← Int.tdiv_eq_ediv_of_nonneg hs] at hm hfin
    simp only
    generalize fileSamples.tdiv nch = F at hm hfin
    have hS := hl.limits.start0
    have hR := hl.limits.speed0
    have hM := hl.mid
    have hT : header + nch * ((l.fin + l.start) + l.speed + 5) ≤ 2147483647 := by
      have := hl.fits
      have : nch * (l.fin + l.start + l.speed + 5) ≤ l.channels * (l.fin + l.start + l.speed + 5) := mul_le_mul_of_nonneg_right k11 (by omega)
      omega
    have hfin31 : l.fin ≤ 2147483647 := by
      have : l.fin + l.start + l.speed + 5 ≤ nch * (l.fin + l.start + l.speed + 5) := le_mul_of_one_le_left (by omega) (by omega)
      omega
    -- the loop the player starts with
    obtain ⟨A, E, hA0, hA1, hE0, hE1, hAE⟩ : ∃ A E : Int, 0 ≤ A ∧ A ≤ l.mid ∧ l.mid < E ∧ E ≤ l.fin ∧
        (if loopType = .none then
          (⟨playing, fileSize, header, rate, rem, loopType, playStart, pos1, pos2, crossfade, dual, cfDur, cfOn, playbackStart, 0, F, F, nch, psram, interp, pts⟩ : Rd)
        else ⟨playing, fileSize, header, rate, rem, loopType, playStart, pos1, pos2, crossfade, dual, cfDur, cfOn, playbackStart, loopStart, loopFinish, F, nch, psram, interp, pts⟩) =
        ⟨playing, fileSize, header, rate, rem, loopType, playStart, pos1, pos2, crossfade, dual, cfDur, cfOn, playbackStart, A, E, F, nch, psram, interp, pts⟩ := by
      by_cases hk : loopType = .none
      · exact ⟨0, F, le_refl _, hM, hm, hfin, by rw [if_pos hk]⟩
      · exact ⟨loopStart, loopFinish, k15, k16, k17, k18, by rw [if_neg hk]⟩
    rw [hAE]
    clear hAE k15 k16 k17 k18
    have hAi : i32 A = A := by unfold i32; omega
    have hEi : i32 E = E := by unfold i32; omega
    have hrest : ∀ x : Int, 0 ≤ x → x ≤ l.fin + l.start → ∀ r : Rd, r.header = header → r.nch = nch → r.posOf x = header + x * nch := by
      intro x x0 x1 r e1 e2
      have f := frame_fits k8 hn.le x0 (show x ≤ l.fin + l.start + l.speed + 5 by omega) hT
      rw [← e1, ← e2] at f ⊢
      exact posOf_eq ⟨by rw [e1]; omega, f.2⟩
    obtain ⟨q, hq0, hq1, hq2, hpos⟩ : ∃ q : Int, 0 ≤ q ∧ q ≤ l.fin + l.start ∧ q ≤ max l.mid l.start ∧
        Rd.posOf ⟨playing, fileSize, header, rate, rem, loopType, playStart, pos1, pos2, crossfade, dual, cfDur, cfOn, playbackStart, A, E, F, nch, psram, interp, fun c => if c < 8 then { pts c with n := 0 } else pts c⟩
          (match playStart with | .sample => 0 | .loop => A | .arbitrary => playbackStart) = header + q * nch := by
      cases playStart with
      | sample => exact ⟨0, le_refl _, by omega, le_max_of_le_left hM, hrest 0 (le_refl _) (by omega) _ rfl rfl⟩
      | loop => exact ⟨A, hA0, by omega, le_max_of_le_left hA1, hrest A hA0 (by omega) _ rfl rfl⟩
      | arbitrary => exact ⟨playbackStart, k13, by omega, le_max_of_le_right k14, hrest _ k13 (by omega) _ rfl rfl⟩
    have hpt : PtsOk ⟨true, fileSize, header, rate, rem, loopType, playStart, header + q * nch, pos2, 0, dual, cfDur, false, playbackStart, A, E, F, nch, psram, interp, fun c => if c < 8 then { pts c with n := 0 } else pts c⟩ := by
      intro c
      simp only
      split
      · exact k7 c
      · exact k7 c
    have hi : Reaches true ⟨true, fileSize, header, rate, rem, loopType, playStart, header + q * nch, pos2, 0, dual, cfDur, false, playbackStart, A, E, F, nch, psram, interp, fun c => if c < 8 then { pts c with n := 0 } else pts c⟩ :=
      fun k => le_trans k11 (hl.limits.smooth (k12 k))
    have hloop : loopType ≠ .none → A < E ∧ ((loopType = .repeat ∧ 0 ≤ rate) ∨ A ≤ E - nch) := by
      intro z
      refine ⟨by omega, Or.inl ⟨?_, k3⟩⟩
      cases loopType with
      | none => exact absurd rfl z
      | «repeat» => rfl
      | pingpong => exact absurd rfl k2
    have goal : ∀ c : Cache, Brimful g (some c) → InRound l g
        ⟨true, fileSize, header, rate, rem, loopType, playStart, header + q * nch, pos2, 0, dual, cfDur, false, playbackStart, A, E, F, nch, psram, interp, fun c => if c < 8 then { pts c with n := 0 } else pts c⟩ (some c) := by
      intro c hc
      refine ⟨⟨k1, k2, k3, k4, k5, k6, hpt, k8, k9, k10, k11, k12, k13, k14, hA0, hA1, hE0, hE1⟩, hc, fun _ => ⟨rfl, ?_, hpt, q, ?_⟩⟩
      · exact ⟨k1, hn, by rw [abs_of_nonneg k3]; exact k4, hl.limits.speed1, k8, hi, hT, by simp only; omega, by simp only; omega, hA0, by simp only; omega, by simp only; omega, by simp only; omega, hloop⟩
      · exact ⟨k1, rfl, hn, by rw [abs_of_nonneg k3]; exact k4, hl.limits.speed1, k5, k6, rfl, k8, le_refl _, by norm_num, hi, hT, fun _ => ⟨by simp only; omega, by simp only; omega⟩, hA0, by simp only; omega,
          fun z => ⟨(hloop z).1, by simp only; omega, (hloop z).2⟩, fun _ => ⟨hq0, by omega⟩, fun k => absurd k3 (not_le.2 k)⟩
    have hr : Rd.reset ⟨playing, fileSize, header, rate, rem, loopType, playStart, pos1, pos2, crossfade, dual, cfDur, cfOn, playbackStart, A, E, F, nch, psram, interp, pts⟩ =
        ⟨playing, fileSize, header, rate, rem, loopType, playStart, header + q * nch, pos2, 0, dual, cfDur, false, playbackStart, A, E, F, nch, psram, interp, fun c => if c < 8 then { pts c with n := 0 } else pts c⟩ := by
      unfold Rd.reset
      simp only [ge_iff_le, k3, if_true]
      rw [← hpos]
      cases playStart <;> rfl
    simp only [FileReader.setLoopType, FileReader.setLoopStart, FileReader.setLoopFinish, Rd.setLoopType, Rd.setLoopStart, Rd.setLoopFinish, hAi, hEi, hr, Option.map_some, ge_iff_le, k3, decide_true]
    have hlen : 2 * (((header + q * nch) / g.B + (g.N : Int) - 1) * g.B) + g.B ≤ (f.bytes.length : Int) := by
      have hB : (0 : Int) < g.B := by unfold Geo.B; exact_mod_cast Nat.two_pow_pos _
      unfold Rounds.Ample at hample
      have : (header + q * nch) / (g.B : Int) ≤ (l.header + max l.mid l.start * nch) / g.B := Int.ediv_le_ediv hB (by
        have := mul_le_mul_of_nonneg_right hq2 hn.le; omega)
      have := mul_le_mul_of_nonneg_right (show (header + q * nch) / (g.B : Int) + (g.N : Int) - 1 ≤ (l.header + max l.mid l.start * nch) / g.B + (g.N : Int) - 1 by omega) hB.le
      linarith
    have hp0 : 0 ≤ header + q * nch := by have := mul_nonneg hq0 hn.le; omega
    have pre := fun (c : Cache) (z1 : c.bufs.length = 0) (z2 : c.dev.bytes = f.bytes) =>
      preLoadLoopF_full (g := g) g.N 0 c (header + q * nch) rs z1 hp0 hrs (by rw [z2]; exact hf) (fun _ => by rw [z2]; exact hlen)
    unfold Cache.preLoadF
    generalize hc0 : Cache.setLoopFinish g _ _ = c0
    have hc1 : c0.bufs = [] ∧ c0.dev = f ∧ c0.loopType = loopType := by rw [← hc0]; exact ⟨rfl, rfl, rfl⟩
    obtain ⟨p1, p2, p3⟩ := pre c0 (by rw [hc1.1]; rfl) (by rw [hc1.2.1])
    rw [hc1.1]
    refine ⟨_, _, _, rfl, goal _ ?_, p3⟩
    intro c hc
    cases hc
    simp only [List.length_nil]
    exact ⟨by rw [p1, hc1.2.2]; exact k2, by rw [p2]; omega⟩

theorem RoundConf.channels {r : Rd} (h : RoundConf l r) {n sz : Int} (h0 : 0 ≤ n) (h1 : n ≤ l.channels) (hl : l.Fair) :
    RoundConf l { r.setNumChannels n with fileSize := sz } ∧ (r.setNumChannels n).nch = n ∧ (r.setNumChannels n).header = r.header ∧ (r.setNumChannels n).playing = r.playing := by
  have hc := hl.limits.channels1
  have e := setNumChannels_nch_small r h0 (show n < 32768 by omega)
  obtain ⟨x, e2⟩ := setNumChannels_same r n
  rw [e2] at e ⊢
  simp only at e
  subst e
  exact ⟨⟨h.dual, h.loop, h.rate0, h.rateR, h.flt, h.frac, h.pts, h.header0, h.header1, by simp only; omega, h1, h.interp, h.start0, h.start1, h.A0, h.A1, h.E0, h.E1⟩, rfl, rfl, rfl⟩

theorem RoundConf.raw (hl : l.Fair) {a : FileReader} (h : RoundConf l a.close.rd) {file : Option Dev} {n : Int} {polled : Bool} (hw : (Use.raw polled file n).Round l g) {rs : List ReadResult} (hrs : HalfReads g rs) :
    ∃ okk a' rs', a.playRawF g file n rs = .ok (okk, a', rs') ∧ InRound l g a'.rd a'.src ∧ HalfReads g rs' := by
  obtain ⟨h0, h1, h2⟩ := hw
  have key := fun sz => h.channels (sz := sz) (show 0 ≤ n by omega) h1 hl
  unfold FileReader.playRawF FileReader.playFileF
  simp only [Bool.false_eq_true, if_false]
  have hpl : a.close.rd.playing = false := rfl
  rw [hpl] at key
  generalize hr : a.close.rd.setNumChannels n = r at key
  cases file with
  | none =>
    obtain ⟨k1, k2, k3, k4⟩ := key r.fileSize
    exact ⟨_, _, _, rfl, (RoundConf.closed (r := { r with fileSize := r.fileSize }) k1 k4 : InRound l g { r with fileSize := r.fileSize } none), hrs⟩
  | some f =>
    obtain ⟨hsz, hm, hfin, hample⟩ := h2 f rfl
    have hf : i32 (f.size : Int) = f.size := by unfold i32; omega
    obtain ⟨k1, k2, k3, k4⟩ := key (i32 (f.size : Int))
    simp only
    rw [hf] at k1 ⊢
    have hs0 : (0 : Int) ≤ f.size := Int.natCast_nonneg _
    have hsize : f.bytes.length = f.size := rfl
    have ht : (f.size : Int).tdiv 2 = (f.size : Int) / 2 := Int.tdiv_eq_ediv_of_nonneg hs0
    refine RoundConf.finish hl (r := { r with fileSize := (f.size : Int), fileSamples := (f.size : Int).tdiv 2 }) ⟨k1.dual, k1.loop, k1.rate0, k1.rateR, k1.flt, k1.frac, k1.pts, k1.header0, k1.header1, k1.nch0, k1.nchK, k1.interp, k1.start0, k1.start1, k1.A0, k1.A1, k1.E0, k1.E1⟩ f hrs (by rw [hsize]; omega) ?_
    intro hlt
    simp only
    rw [k2, ht]
    exact ⟨by omega, by omega, hm, hfin, hample⟩

theorem playParseWav_false {r r' : Rd} {f f' : Dev} {junk : List Nat} (h : playParseWav r f junk = .ok (false, r', f')) : r'.header = r.header := by
  unfold playParseWav at h
  obtain ⟨⟨ok1, hdr⟩, hh, h⟩ := bind_ok_iff.1 h
  simp only at h
  split at h
  · simp only [pure_eq_ok, Except.ok.injEq, Prod.mk.injEq] at h; rw [← h.2.1]
  · obtain ⟨x, e⟩ := setNumChannels_same r (u16 hdr.numChannels)
    rw [e] at h
    obtain ⟨t, _, h⟩ := bind_ok_iff.1 h
    cases t with
    | none => simp only [pure_eq_ok, Except.ok.injEq, Prod.mk.injEq] at h; rw [← h.2.1]
    | some t =>
      simp only at h
      obtain ⟨⟨ok2, dh⟩, _, h⟩ := bind_ok_iff.1 h
      simp only at h
      split at h
      · simp only [pure_eq_ok, Except.ok.injEq, Prod.mk.injEq] at h; rw [← h.2.1]
      · simp only [pure_eq_ok, Except.ok.injEq, Prod.mk.injEq] at h; exact absurd h.1 (by decide)

theorem seek_bytes (d : Dev) (p : Nat) : (d.seek p).bytes = d.bytes := by
  unfold Dev.seek
  split <;> rfl

theorem playParseWav_bytes {r r' : Rd} {f f' : Dev} {junk : List Nat} {ok : Bool} (h : playParseWav r f junk = .ok (ok, r', f')) : f'.bytes = f.bytes := by
  unfold playParseWav at h
  obtain ⟨⟨ok1, hdr⟩, hh, h⟩ := bind_ok_iff.1 h
  simp only at h
  split at h
  · simp only [pure_eq_ok, Except.ok.injEq, Prod.mk.injEq] at h; rw [← h.2.2]
  · obtain ⟨t, _, h⟩ := bind_ok_iff.1 h
    cases t with
    | none => simp only [pure_eq_ok, Except.ok.injEq, Prod.mk.injEq] at h; rw [← h.2.2]; rfl
    | some t =>
      simp only at h
      obtain ⟨⟨ok2, dh⟩, _, h⟩ := bind_ok_iff.1 h
      simp only at h
      split at h
      · simp only [pure_eq_ok, Except.ok.injEq, Prod.mk.injEq] at h; rw [← h.2.2]; simp [Dev.read, seek_bytes]
      · simp only [pure_eq_ok, Except.ok.injEq, Prod.mk.injEq] at h; rw [← h.2.2]; simp [Dev.read, seek_bytes]

theorem RoundConf.wav (hl : l.Fair) {a : FileReader} (h : RoundConf l a.close.rd) {file : Option Dev} {junk : List Nat} {polled : Bool} (hw : (Use.wav polled file junk).Round l g) {rs : List ReadResult} (hrs : HalfReads g rs) :
    ∃ okk a' rs', a.playWavF g file junk rs = .ok (okk, a', rs') ∧ InRound l g a'.rd a'.src ∧ HalfReads g rs' := by
  unfold FileReader.playWavF FileReader.playFileF
  simp only [if_true]
  have hidle : a.close.rd.playing = false := rfl
  generalize a.close.rd = r at h hidle
  cases file with
  | none => exact ⟨_, _, _, rfl, h.closed hidle, hrs⟩
  | some f =>
    obtain ⟨h0, hj, hrw⟩ := hw f rfl
    obtain ⟨m, cur, past⟩ := f
    simp only at h0 hrw ⊢
    have hm := hrw.safe
    subst h0
    have hsz : i32 ((Dev.size ⟨m, 0, past⟩ : Nat) : Int) = m.length := by have := hm.short; unfold i32 Dev.size; simp only; omega
    rw [hsz]
    generalize hr : ({ r with fileSize := (m.length : Int) } : Rd) = r0
    have hr0 : RoundConf l r0 := by
      rw [← hr]; exact ⟨h.dual, h.loop, h.rate0, h.rateR, h.flt, h.frac, h.pts, h.header0, h.header1, h.nch0, h.nchK, h.interp, h.start0, h.start1, h.A0, h.A1, h.E0, h.E1⟩
    have hidle0 : r0.playing = false := by rw [← hr]; exact hidle
    have hfs : r0.fileSize = m.length := by rw [← hr]
    obtain ⟨⟨okk, r1, f1⟩, e⟩ := playParseWav_answers (r := r0) (past := past) hm.long hj hm.tags
    rw [e]
    simp only [ok_bind]
    have hb : IsBytes m := hm.bytes
    have hlong := hm.long
    have hshort := hm.short
    have hK := hl.limits.channels1
    have hH := hl.header
    have htl : overlay (Dev.read ⟨m, 0, past⟩ 36).1 junk = m.take 36 := by
      simp only [Dev.read, List.drop_zero]; exact overlay_full (by simp; omega)
    have chan : ∀ v : Nat, 1 ≤ v → (v : Int) ≤ l.channels → (r0.setNumChannels (u16 (i16 (v : Int)))).nch = v := by
      intro v h1 h2
      have e2 : u16 (i16 (v : Int)) = v := by unfold u16 i16; omega
      rw [e2, setNumChannels_nch_small _ (by omega) (by omega)]
    have hnch : r1.nch = r0.nch ∨ ((1 : Int) ≤ r1.nch ∧ r1.nch = leVal (slice m 22 2) ∧ r1.nch ≤ l.channels) := by
      obtain ⟨k | ⟨k1, k2⟩, _⟩ := playParseWav_kept e (by rw [htl]; simp; omega)
      · exact Or.inl k
      · rw [htl] at k1 k2
        rw [slice_take (by omega)] at k1 k2
        obtain ⟨c1, c2⟩ := hm.channels k1
        rw [chan _ c1 c2] at k2
        exact Or.inr ⟨by omega, k2, by omega⟩
    have n1 : -1 ≤ r1.nch ∧ r1.nch ≤ l.channels := by
      rcases hnch with k | ⟨k1, _, k3⟩
      · rw [k]; exact ⟨hr0.nch0, hr0.nchK⟩
      · exact ⟨by omega, k3⟩
    obtain ⟨x, y, z, e1⟩ := playParseWav_same e
    have conf : 0 ≤ r1.header → r1.header ≤ l.header → RoundConf l r1 := by
      intro z1 z2
      rw [e1] at z1 z2 n1 ⊢
      exact ⟨hr0.dual, hr0.loop, hr0.rate0, hr0.rateR, hr0.flt, hr0.frac, hr0.pts, z1, z2, n1.1, n1.2, hr0.interp, hr0.start0, hr0.start1, hr0.A0, hr0.A1, hr0.E0, hr0.E1⟩
    have hidle1 : r1.playing = false := by rw [e1]; exact hidle0
    cases okk with
    | false =>
      have hh := playParseWav_false e
      exact ⟨_, _, _, rfl, (conf (by rw [hh]; exact hr0.header0) (by rw [hh]; exact hr0.header1)).closed hidle1, hrs⟩
    | true =>
      simp only [Bool.not_true, Bool.false_eq_true, if_false]
      have hbytes := playParseWav_bytes e
      simp only at hbytes
      have hfs1 : r1.fileSize = m.length := by rw [e1]; exact hfs
      by_cases h44 : m.length < 44
      · have h22 := playParseWav_short hj h44 hm.list r1 f1 e
        refine RoundConf.finish hl (conf (by omega) (by omega)) f1 hrs (by rw [hbytes]; exact hshort) ?_
        intro hlt
        rw [hfs1, h22] at hlt
        exfalso
        unfold u32 at hlt; omega
      · obtain ⟨g1, g2, off, fs, g3, g4, g5, g6, g7, g8, g9⟩ := playParseWav_long hj hb (by omega) hshort hm.list r1 f1 e
        have hhd : r1.header = ((off + 8) / 2 : Nat) := by rw [g8]
        have hoffh : (((off + 8) / 2 : Nat) : Int) ≤ l.header := by
          rcases g3 with ⟨_, rfl⟩ | ⟨k, rfl⟩
          · exact le_trans (by norm_num) hH
          · exact hrw.header k
        refine RoundConf.finish hl (conf (by omega) (by omega)) f1 hrs (by rw [g6]; exact hshort) ?_
        intro hlt
        have u1 : u32 r1.fileSize = m.length := by rw [hfs1]; unfold u32; omega
        have u2 : u32 (r1.header * 2) = r1.header * 2 := by rw [hhd]; unfold u32; omega
        rw [u1, u2, hhd] at hlt
        have hoff : off + 8 ≤ m.length := by omega
        obtain ⟨d1, d2, d3⟩ := hrw.data off ⟨g3, g4, hoff⟩
        have hfs2 : r1.fileSamples = (leVal (slice m (off + 4) 4) / 2 : Nat) := by rw [g8]; exact g9 hoff
        obtain ⟨c1, c2⟩ := hm.channels g1.1
        have hn : r1.nch = leVal (slice m 22 2) := by
          have k := chan _ c1 c2
          have pn : (parsed m).numChannels = i16 (leVal (slice m 22 2)) := rfl
          rw [pn] at g8
          generalize leVal (slice m 22 2) = v at k g8
          rw [g8]
          generalize r0.setNumChannels (u16 (i16 (v : Int))) = rr at k ⊢
          exact k
        rw [hn, hfs2, g6]
        exact ⟨by omega, by omega, d1, d2, d3⟩

end TVP
