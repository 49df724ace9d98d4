import Verif.Lemmas.PingStream

/-!
# Streaming a short ping-pong loop, and starting a ping-pong loop
-/

namespace TVP
open Spec

variable {m : List Nat} {g : Geo} {fp : Fp}

/-! ## A loop that fits into the buffers -/

/-- While the buffers hold both ends of the loop, a reload at most reverses their order. -/
theorem reloadLoop_cover {rate : ℚ} {s f M : Int} (hM : M + 1 ≤ 2147483647) {fuel : Nat} {c : Cache} (hc : PConf s f c)
    (hlen : c.bufs.length = g.N) (hs : s ∈ c.bufs.map Buf.index) (hf : f ∈ c.bufs.map Buf.index)
    (hin : ∀ k ∈ c.bufs.map Buf.index, 0 ≤ k ∧ k ≤ M) :
    ∃ c', reloadLoop g rate (fuel + 1) c = .ok c' ∧ PConf s f c' ∧ (c'.bufs = c.bufs ∨ c'.bufs = c.bufs.reverse) := by
  cases hcb : c.bufs with
  | nil => rw [hcb] at hs; cases hs
  | cons b rest =>
    have hbm : b ∈ c.bufs := by rw [hcb]; exact List.mem_cons_self
    have hN : 0 < g.N := by rw [← hlen, hcb]; simp
    by_cases hu : b.status = .unused
    · obtain ⟨x, hx⟩ : ∃ x, c.bufs[g.N - 1]? = some x := by
        rw [List.getElem?_eq_getElem (show g.N - 1 < c.bufs.length by omega)]; exact ⟨_, rfl⟩
      have hls : lastSlot g c.bufs = .ok x := by unfold lastSlot; rw [hx]
      have hdec : reloadDecide g c rate b = .ok (none, if x.status = .read then .reverse else .nop) := by
        unfold reloadDecide
        by_cases hr : rate ≥ 0
        · obtain ⟨k1, y, hy, e⟩ := maxIndex_spec hbm
          obtain ⟨z, hz, ez⟩ := List.mem_map.1 hf
          have h1 := k1 z hz
          have h2 := hin _ (List.mem_map_of_mem hy)
          have e1 : i32 (maxIndex b c.bufs + 1) = maxIndex b c.bufs + 1 := i32_of_in ⟨by omega, by omega⟩
          rw [if_pos hr, hc.loop]
          simp only [e1, hc.lf]
          rw [if_pos (by omega), hls]
          simp only [ok_bind]
          split <;> rfl
        · obtain ⟨k1, y, hy, e⟩ := minIndex_spec hbm
          obtain ⟨z, hz, ez⟩ := List.mem_map.1 hs
          have h1 := k1 z hz
          have h2 := hin _ (List.mem_map_of_mem hy)
          have e1 : i32 (minIndex b c.bufs - 1) = minIndex b c.bufs - 1 := i32_of_in ⟨by omega, by omega⟩
          rw [if_neg hr, hc.loop]
          simp only [e1, hc.ls]
          rw [if_pos (by omega), hls]
          simp only [ok_bind]
          split <;> rfl
      rw [← hcb]
      conv in reloadLoop g rate (fuel + 1) c => unfold reloadLoop
      rw [hcb]
      simp only [hu, if_true, hdec, ok_bind]
      by_cases hxr : x.status = .read
      · rw [if_pos hxr, if_neg (by decide)]
        set c1 := reloadReorder (reloadLoad g c b rest none) .reverse with hc1
        have eb : c1.bufs = c.bufs.reverse := rfl
        have hhead : c1.bufs.head? = some x := by
          rw [eb, List.head?_reverse, List.getLast?_eq_getElem?, hlen, hx]
        cases hc1b : c1.bufs with
        | nil => rw [hc1b] at hhead; cases hhead
        | cons y ys =>
          rw [hc1b] at hhead
          have hy : y = x := by simpa using hhead
          exact ⟨c1, reloadLoop_stop hc1b (by rw [hy, hxr]; decide), ⟨hc.loop, hc.lf, hc.ls⟩, Or.inr (by rw [eb, hcb])⟩
      · rw [if_neg hxr, if_pos rfl]
        exact ⟨c, rfl, hc, Or.inl hcb⟩
    · exact ⟨c, reloadLoop_stop hcb hu, hc, Or.inl hcb⟩

/-- A loop in the buffers: all blocks from that of `S0` to that of the last sample below `X` are held. -/
structure ShortPing (m : List Nat) (g : Geo) (R S P E S0 X nch M : Int) (r : Rd) (c : Cache) : Prop where
  rd : PP R S P E S0 X nch r
  win : PWin m g (S / g.B) (E / g.B) c
  len : c.bufs.length = g.N
  bound : ∀ k ∈ c.bufs.map Buf.index, 0 ≤ k ∧ k ≤ M
  bottom : S / g.B ∈ c.bufs.map Buf.index
  top : E / g.B ∈ c.bufs.map Buf.index
  holds : ∀ k, S0 / g.B ≤ k → k ≤ (X - 1) / g.B → k ∈ c.bufs.map Buf.index

theorem ShortPing.keepsUp (hfp : Representable fp) (hB : g.B < 16384) (hm : m.length < 2 ^ 31) {R S P E S0 X nch M : Int} (hN : PPNum R S P E S0 X nch)
    (hX : 2 * X ≤ m.length) (hM : M + 1 ≤ 2147483647) {fuel : Nat} (hf : 0 < fuel) : KeepsUp fp m g fuel (ShortPing m g R S P E S0 X nch M) := by
  intro r c ⟨hr, hw, hlen, hbd, hbot, htop, hall⟩
  have hB0 : (0 : Int) < g.B := by exact_mod_cast g.B_pos
  obtain ⟨ps, r', v1, v2, v3⟩ := PP.visits_in hfp hN blockSamples r hr
  have hm' : m.length < 4294967296 := by omega
  have hS00 := hN.S00
  have hS0S := hN.S0S
  have hEX := hN.EX
  have hn := hN.n0
  have hin : ∀ i ∈ framesIdx r.nch ps, InFile m i ∧ i / g.B ∈ c.bufs.map Buf.index := by
    intro i hi
    obtain ⟨p, hp, q1, q2⟩ := mem_framesIdx.1 hi
    rw [hr.chans] at q2
    obtain ⟨v, hv⟩ := v3 p hp
    have hlo : S0 ≤ p ∧ p + nch ≤ X := by
      rcases hv with ⟨_, h1, h2⟩ | ⟨_, h1, h2⟩ <;> exact ⟨by omega, by omega⟩
    exact ⟨⟨by omega, by omega⟩, hall _ (Int.ediv_le_ediv hB0 (by omega)) (Int.ediv_le_ediv hB0 (by omega))⟩
  have hbuf := hw.buffered hB hin
  obtain ⟨_, hsame, _⟩ := C15_read_only g (framesIdx r.nch ps) c
  have hreach := Reached.gets hm' (framesIdx r.nch ps) hw.reached (g := g)
  have hix0 := index_of_core hsame.2.1
  have hconf : PConf (S / g.B) (E / g.B) (c.gets g (framesIdx r.nch ps)).2 := hw.conf.congr hsame.2.2.2.1 hsame.2.2.2.2.1 hsame.2.2.2.2.2
  have hlen0 : (c.gets g (framesIdx r.nch ps)).2.bufs.length = g.N := by
    have := congrArg List.length hix0
    rw [List.length_map, List.length_map] at this
    exact this.trans hlen
  obtain ⟨fu, rfl⟩ : ∃ fu, fuel = fu + 1 := ⟨fuel - 1, by omega⟩
  obtain ⟨c1, k1, k2, k3⟩ := reloadLoop_cover (g := g) (rate := reloadRate (c.gets g (framesIdx r.nch ps)).2 (fp.f.rnd r'.rate)) hM (fuel := fu) hconf hlen0
    (by rw [hix0]; exact hbot) (by rw [hix0]; exact htop) (by rw [hix0]; exact hbd)
  obtain ⟨c', e1, e2, e3, _⟩ := triggerReload_of hm' hreach k1 k2
  have hmem : ∀ k, k ∈ c'.bufs.map Buf.index ↔ k ∈ c.bufs.map Buf.index := by
    intro k
    rw [e3, ← hix0]
    rcases k3 with h | h
    · rw [h]
    · rw [h, List.map_reverse, List.mem_reverse]
  have hlen' : c'.bufs.length = g.N := by
    have := congrArg List.length e3
    rw [List.length_map, List.length_map] at this
    rw [this]
    rcases k3 with h | h
    · rw [h]; exact hlen0
    · rw [h, List.length_reverse]; exact hlen0
  exact ⟨hr.plain, hw.reached, ps, r', c', v1, fun i hi => ⟨(hin i hi).1, hbuf i hi⟩, e1, v2, e2, hlen',
    fun k hk => hbd k ((hmem k).1 hk), (hmem _).2 hbot, (hmem _).2 htop, fun k h1 h2 => (hmem k).2 (hall k h1 h2)⟩

/-! ## Filling the buffers -/

theorem preLoadLoop_prev {g : Geo} (nv : Nat) (fw : Bool) : ∀ (left bufn : Nat) (c : Cache) (i : Int),
    (preLoadLoop g nv fw left bufn c i).prevRate = c.prevRate := by
  intro left
  induction left with
  | zero => intro _ c _; rfl
  | succ left ih =>
    intro bufn c i
    unfold preLoadLoop
    dsimp only
    split
    · rfl
    · split
      · rfl
      · exact ih _ _ _

theorem PWin.preLoadUp (hm : m.length < 4294967296) {c : Cache} (hc : Reached m g c) (hb : c.bufs = []) {s f : Int} (hconf : PConf s f c)
    {i : Int} (h0 : 0 ≤ i) (hi : i + g.N * g.B ≤ 2147483647) (hfull : 2 * ((i / g.B + g.N - 2) * g.B) + g.B ≤ m.length) :
    PWin m g s f (c.preLoad g i true) ∧ (c.preLoad g i true).bufs.map Buf.index = up (i / g.B) g.N ∧
      (c.preLoad g i true).prevRate = c.prevRate ∧ (c.preLoad g i true).fails = c.fails := by
  have hB : (0 : Int) < g.B := by exact_mod_cast g.B_pos
  have hi32 : InI32 i := ⟨by omega, by
    have : (0 : Int) ≤ g.N * g.B := mul_nonneg (by omega) (le_of_lt hB)
    omega⟩
  have hreach := hc.step hm (.preLoad i true) rfl
  rw [i32_of_in hi32] at hreach
  obtain ⟨L, k1, k2, k3, k4, k5, k6, k7⟩ := preLoadLoop_fwd (g := g) g.N c i hc.ok.dev h0 hi (by intro b hb'; rw [hb] at hb'; cases hb')
  have e : c.preLoad g i true = preLoadLoop g 0 true g.N c.bufs.length c i := by unfold Cache.preLoad; rw [hb]; rfl
  have hL : L = g.N := by
    rcases k7 with k7 | k7
    · exact k7
    · by_contra hne
      have h1 : (i / g.B + L - 1) * g.B ≤ (i / g.B + g.N - 2) * g.B := mul_le_mul_of_nonneg_right (by omega) (le_of_lt hB)
      omega
  obtain ⟨q1, q2, q3⟩ := preLoadLoop_conf (g := g) 0 true g.N c.bufs.length c i
  rw [e]
  refine ⟨⟨by rw [← e]; exact hreach, hconf.congr q1 q2 q3, k4⟩, by rw [k3, hb, hL]; rfl, preLoadLoop_prev .., k6⟩

theorem PWin.preLoadDown (hm : m.length < 4294967296) {c : Cache} (hc : Reached m g c) (hb : c.bufs = []) {s f : Int} (hconf : PConf s f c)
    {i : Int} (h0 : 0 ≤ i) (hi : i ≤ 2147483647) (hhalf : 2 * (i / g.B * g.B) + g.B ≤ m.length) (hN : (g.N : Int) ≤ i / g.B + 1) :
    PWin m g s f (c.preLoad g i false) ∧ (c.preLoad g i false).bufs.map Buf.index = down (i / g.B) g.N ∧
      (c.preLoad g i false).prevRate = c.prevRate ∧ (c.preLoad g i false).fails = c.fails := by
  have hB : (0 : Int) < g.B := by exact_mod_cast g.B_pos
  have hi32 : InI32 i := ⟨by omega, hi⟩
  have hreach := hc.step hm (.preLoad i false) rfl
  rw [i32_of_in hi32] at hreach
  obtain ⟨⟨rest, k1, k5⟩, k2, k3, k4⟩ := preLoadLoop_rev (g := g) g.N c i hc.ok.dev h0 hi (Or.inr hhalf) (by intro b hb'; rw [hb] at hb'; cases hb')
  have e : c.preLoad g i false = preLoadLoop g 0 false g.N c.bufs.length c i := by unfold Cache.preLoad; rw [hb]; rfl
  obtain ⟨q1, q2, q3⟩ := preLoadLoop_conf (g := g) 0 false g.N c.bufs.length c i
  rw [e]
  refine ⟨⟨by rw [← e]; exact hreach, hconf.congr q1 q2 q3, k2⟩, ?_, preLoadLoop_prev .., k4⟩
  rw [k1, k5 hN, hb, Nat.min_eq_left (by omega), List.append_nil]; rfl

end TVP
