import Verif.Lemmas.LoopWindow
import Verif.Lemmas.WindowRev

/-!
# The blocks kept by the cache while repeating backwards
-/

namespace TVP
open Spec

/-- The `j`-th block before `w` when `s` is preceded by `f`. -/
def rblk (s f w j : Int) : Int := if s ≤ w - j then w - j else f + 1 - (s - (w - j))

/-- `N` consecutive blocks from `w` down. -/
def rcyc (s f w : Int) (N : Nat) : List Int := (List.range N).map fun j : Nat => rblk s f w j

/-- How far `x` is before `w`, for a `w` from `s` on. -/
def rdist (s f w x : Int) : Int := if x ≤ w then w - x else w - s + (f + 1 - x)

theorem mem_rcyc {s f w x : Int} {N : Nat} : x ∈ rcyc s f w N ↔ ∃ j : Int, 0 ≤ j ∧ j < N ∧ x = rblk s f w j := by
  unfold rcyc
  rw [List.mem_map]
  constructor
  · rintro ⟨j, hj, rfl⟩; rw [List.mem_range] at hj; exact ⟨j, by omega, by omega, rfl⟩
  · rintro ⟨j, h0, h1, rfl⟩; exact ⟨j.toNat, List.mem_range.2 (by omega), by rw [Int.toNat_of_nonneg h0]⟩

theorem rdist_rblk {s f w j : Int} (h0 : 0 ≤ j) (h1 : j < f - s + 1) : rdist s f w (rblk s f w j) = j := by
  unfold rdist rblk; split <;> split <;> omega

theorem rblk_ge {s f w j : Int} (hw : s ≤ w) (h1 : j ≤ f - s + 1) : s ≤ rblk s f w j := by
  unfold rblk; split <;> omega

theorem rblk_le {s f w j M : Int} (hw : w ≤ M) (hf : f ≤ M) (h0 : 0 ≤ j) : rblk s f w j ≤ M := by
  unfold rblk; split <;> omega

theorem rblk_zero {s f w : Int} (hw : s ≤ w) : rblk s f w 0 = w := by
  unfold rblk; rw [if_pos (by omega)]; ring

theorem rblk_rblk {s f w d j : Int} (h : d + j - (w - s) ≤ f - s + 1) (hd : 0 ≤ j) : rblk s f (rblk s f w d) j = rblk s f w (d + j) := by
  unfold rblk; split <;> split <;> split <;> omega

theorem rcyc_sorted {s f w : Int} {N : Nat} (hL : (N : Int) ≤ f - s + 1) : (rcyc s f w N).Pairwise fun x y => rdist s f w x < rdist s f w y := by
  unfold rcyc
  rw [List.pairwise_map]
  refine (List.pairwise_lt_range (n := N)).imp_of_mem ?_
  intro a b ha hb hab
  rw [List.mem_range] at ha hb
  rw [rdist_rblk (by omega) (by omega), rdist_rblk (by omega) (by omega)]
  omega

theorem rcyc_length (s f w : Int) (N : Nat) : (rcyc s f w N).length = N := by unfold rcyc; simp

theorem rcyc_cons {s f w : Int} {N : Nat} (hw : s ≤ w) : rcyc s f w (N + 1) = w :: (List.range N).map fun j : Nat => rblk s f w (j + 1) := by
  unfold rcyc
  rw [List.range_succ_eq_map, List.map_cons, List.map_map, Nat.cast_zero, rblk_zero hw]
  congr 1

/-- Dropping the first block and adding the next one. -/
theorem rcyc_next {s f w : Int} {N : Nat} (hw : s ≤ w) (hL : ((N + 1 : Nat) : Int) ≤ f - s + 1) :
    ((List.range N).map fun j : Nat => rblk s f w (j + 1)) ++ [rblk s f w (N + 1 : Nat)] = rcyc s f (rblk s f w 1) (N + 1) := by
  unfold rcyc
  rw [List.range_succ, List.map_append, List.map_cons, List.map_nil]
  push_cast at hL
  congr 1
  · refine List.map_congr_left fun j hj => ?_
    rw [List.mem_range] at hj
    rw [rblk_rblk (by omega) (by omega), add_comm]
  · rw [rblk_rblk (by omega) (by omega), add_comm]; push_cast; rfl

/-- The loop points as the cache knows them fit the cycle `f` down to `s`: `s` is the block of the loop's start, or the cycle is
exactly as long as there are buffers and contains the loop. -/
structure RCycConf (g : Geo) (s f M : Int) (c : Cache) (w : Int) : Prop where
  loop : c.loopType = .repeat
  lf : c.loopFinishBlk = f
  ls : c.loopStartBlk = s ∨ ((g.N : Int) = f - s + 1 ∧ w ≤ f ∧ s ≤ c.loopStartBlk)
  s0 : 0 ≤ s
  sw : s ≤ w
  wM : w ≤ M
  fM : f ≤ M
  len : (g.N : Int) ≤ f - s + 1

theorem RCycConf.next {g : Geo} {s f M : Int} {c c' : Cache} {w d : Int} (h : RCycConf g s f M c w) (e1 : c'.loopType = c.loopType)
    (e2 : c'.loopStartBlk = c.loopStartBlk) (e3 : c'.loopFinishBlk = c.loopFinishBlk) (h0 : 0 ≤ d) (h1 : d ≤ g.N) :
    RCycConf g s f M c' (rblk s f w d) := by
  have hl := h.len
  have hw := h.sw
  refine ⟨e1.trans h.loop, e3.trans h.lf, ?_, h.s0, rblk_ge h.sw (by omega), rblk_le h.wM h.fM h0, h.fM, h.len⟩
  rw [e2]
  rcases h.ls with h2 | ⟨h2, h3, h4⟩
  · exact Or.inl h2
  · refine Or.inr ⟨h2, ?_, h4⟩
    unfold rblk; split <;> omega

theorem lastSlot_rcyc {g : Geo} {s f w : Int} {bs : List Buf} {N : Nat} (hN : g.N = N + 1) (h : bs.map Buf.index = rcyc s f w g.N) :
    ∃ b, lastSlot g bs = .ok b ∧ b.index = rblk s f w N := by
  have hlen : bs.length = N + 1 := by rw [← List.length_map (f := Buf.index), h, rcyc_length, hN]
  unfold lastSlot
  rw [hN, Nat.add_sub_cancel, List.getElem?_eq_getElem (by omega)]
  refine ⟨_, rfl, ?_⟩
  have h2 : (bs.map Buf.index)[N]'(by rw [List.length_map]; omega) = rblk s f w N := by
    simp only [h]
    unfold rcyc
    simp
  rw [← h2, List.getElem_map]

theorem minIndex_of {b : Buf} {bs : List Buf} {x : Int} (hb : b ∈ bs) (h1 : ∀ y ∈ bs.map Buf.index, x ≤ y) (h2 : x ∈ bs.map Buf.index) :
    minIndex b bs = x := by
  obtain ⟨k1, y, hy, e⟩ := minIndex_spec hb
  obtain ⟨z, hz, ez⟩ := List.mem_map.1 h2
  have a1 := k1 z hz
  have a2 := h1 _ (List.mem_map_of_mem hy)
  omega

/-- The block a backward reload loads while repeating. -/
theorem reloadDecide_rcyc {g : Geo} {rate : ℚ} (hr : rate < 0) {s f M : Int} {c : Cache} {w : Int} (hc : RCycConf g s f M c w)
    (hix : c.bufs.map Buf.index = rcyc s f w g.N) {N : Nat} (hN : g.N = N + 1) (hmax : (M + 1) * g.B ≤ 2147483647) {b : Buf} (hb : b ∈ c.bufs) :
    reloadDecide g c rate b = .ok (some (rblk s f w g.N * g.B), .move) := by
  have hB : (0 : Int) < g.B := by exact_mod_cast g.B_pos
  obtain ⟨x, hx, hxi⟩ := lastSlot_rcyc hN hix
  have hs0 := hc.s0
  have hsw := hc.sw
  have hwM := hc.wM
  have hfM := hc.fM
  have hlen := hc.len
  have hNi : (g.N : Int) = N + 1 := by rw [hN]; push_cast; rfl
  have hf1 : M + 1 ≤ (M + 1) * g.B := le_mul_of_one_le_right (by omega) (by omega)
  have hfit : ∀ y, -1 ≤ y → y ≤ M → i32 y = y := by
    intro y h0 h1
    exact i32_of_in ⟨by omega, by omega⟩
  have hfitB : ∀ y, 0 ≤ y → y ≤ M → i32 (y * g.B) = y * g.B := by
    intro y h0 h1
    have e1 : y * g.B ≤ (M + 1) * g.B := mul_le_mul_of_nonneg_right (by omega) (le_of_lt hB)
    have e2 : 0 ≤ y * g.B := mul_nonneg h0 (le_of_lt hB)
    exact i32_of_in ⟨by omega, by omega⟩
  have hge : ∀ y ∈ c.bufs.map Buf.index, s ≤ y := by
    intro y hy
    rw [hix] at hy
    obtain ⟨j, h0, h1, rfl⟩ := mem_rcyc.1 hy
    exact rblk_ge hsw (by omega)
  unfold reloadDecide
  rw [if_neg (not_le.2 hr), hc.loop]
  simp only
  have hlast0 : s ≤ rblk s f w N := rblk_ge hsw (by omega)
  have hlast1 : rblk s f w N ≤ M := rblk_le hwM hfM (by omega)
  rw [hNi]
  by_cases hin : s ∈ c.bufs.map Buf.index
  · -- the start of the loop is buffered
    have hM := minIndex_of hb hge hin
    have hlt : i32 (s - 1) < c.loopStartBlk := by
      rw [hfit (s - 1) (by omega) (by omega)]
      rcases hc.ls with h | h <;> omega
    rw [hM, if_pos hlt, hx]
    simp only [ok_bind, hxi]
    rw [hfit _ (by omega) hlast1, hfit (s - 1) (by omega) (by omega)]
    by_cases he : rblk s f w N = s
    · rw [if_pos (by omega), hc.lf]
      have e : rblk s f w (N + 1) = f := by
        unfold rblk at he ⊢
        split at he <;> split <;> omega
      rw [e, hfitB f (by omega) hfM]; rfl
    · rw [if_neg (by omega)]
      have e : rblk s f w (N + 1) = rblk s f w N - 1 := by
        unfold rblk at he ⊢
        split at he <;> split <;> omega
      rw [e, hfitB _ (by omega) (by omega)]; rfl
  · -- it is not: the blocks are consecutive
    have hnw : s < w - N := by
      by_contra hcon
      refine hin ?_
      rw [hix, mem_rcyc]
      exact ⟨w - s, by omega, by omega, by unfold rblk; rw [if_pos (by omega)]; ring⟩
    have hls : c.loopStartBlk = s := by
      rcases hc.ls with h | ⟨h1, h2, _⟩
      · exact h
      · omega
    have hM : minIndex b c.bufs = w - N := by
      refine minIndex_of hb ?_ ?_
      · intro y hy
        rw [hix] at hy
        obtain ⟨j, h0, h1, rfl⟩ := mem_rcyc.1 hy
        unfold rblk; split <;> omega
      · rw [hix, mem_rcyc]
        exact ⟨N, by omega, by omega, by unfold rblk; rw [if_pos (by omega)]⟩
    have e : rblk s f w (N + 1) = w - N - 1 := by unfold rblk; rw [if_pos (by omega)]; ring
    rw [hM, hls, hfit (w - N - 1) (by omega) (by omega), if_neg (by omega), e, hfitB (w - N - 1) (by omega) (by omega)]; rfl

/-- Reloading while repeating backwards moves the window to the first block read. -/
theorem reloadLoop_rcyc {g : Geo} {rate : ℚ} (hr : rate < 0) {s f M : Int} (hmax : (M + 1) * g.B ≤ 2147483647) :
    ∀ (d fuel : Nat) (c : Cache) (w : Int), RCycConf g s f M c w → c.bufs.map Buf.index = rcyc s f w g.N → d < g.N → d ≤ fuel →
    (∀ b ∈ c.bufs, rdist s f w b.index < d → b.status = .unused) → (∀ b ∈ c.bufs, rdist s f w b.index = d → b.status ≠ .unused) →
    ∃ c', reloadLoop g rate fuel c = .ok c' ∧ RCycConf g s f M c' (rblk s f w d) ∧ c'.bufs.map Buf.index = rcyc s f (rblk s f w d) g.N := by
  intro d
  have hB : (0 : Int) < g.B := by exact_mod_cast g.B_pos
  induction d with
  | zero =>
    intro fuel c w hc hix hd _ _ hread
    have hw := hc.sw
    refine ⟨c, ?_, by rw [Nat.cast_zero, rblk_zero hw]; exact hc, by rw [Nat.cast_zero, rblk_zero hw]; exact hix⟩
    cases hcb : c.bufs with
    | nil => cases fuel <;> (unfold reloadLoop; rw [hcb])
    | cons b rest =>
      have hb : b.index = w := by
        obtain ⟨N, hN⟩ : ∃ N, g.N = N + 1 := ⟨g.N - 1, by omega⟩
        rw [hcb, hN, rcyc_cons hw] at hix
        exact (List.cons.inj hix).1
      have hu := hread b (by rw [hcb]; exact List.mem_cons_self) (by rw [hb]; unfold rdist; simp)
      cases fuel <;> (unfold reloadLoop; rw [hcb]; simp only [hu, if_false])
  | succ d ih =>
    intro fuel c w hc hix hd hfuel hun hread
    have hw := hc.sw
    have hlen := hc.len
    have hs0 := hc.s0
    have hwM := hc.wM
    have hfM := hc.fM
    obtain ⟨fuel, rfl⟩ : ∃ f, fuel = f + 1 := ⟨fuel - 1, by omega⟩
    obtain ⟨N, hN⟩ : ∃ N, g.N = N + 1 := ⟨g.N - 1, by omega⟩
    have hNi : (g.N : Int) = N + 1 := by rw [hN]; push_cast; rfl
    cases hcb : c.bufs with
    | nil => rw [hcb, hN, rcyc_cons hw] at hix; cases hix
    | cons b rest =>
      have hbm : b ∈ c.bufs := by rw [hcb]; exact List.mem_cons_self
      have hix' := hix
      rw [hcb, hN, rcyc_cons hw] at hix'
      have hb : b.index = w := (List.cons.inj hix').1
      have hrest : rest.map Buf.index = (List.range N).map fun j : Nat => rblk s f w (j + 1) := (List.cons.inj hix').2
      have hu := hun b hbm (by rw [hb]; unfold rdist; simp only [le_refl, if_true]; push_cast; omega)
      have hdec := reloadDecide_rcyc hr hc hix hN hmax hbm
      have hn0 : s ≤ rblk s f w g.N := rblk_ge hw (by omega)
      have hn1 : rblk s f w g.N ≤ M := rblk_le hwM hfM (by omega)
      have hfb : M + 1 ≤ (M + 1) * g.B := le_mul_of_one_le_right (by omega) (by omega)
      have hidx : (loadBuffer g c.dev b (rblk s f w g.N * g.B)).1.index = rblk s f w g.N := by
        rw [loadBuffer_index, Int.mul_ediv_cancel _ (ne_of_gt hB), u32_of_in ⟨by omega, by omega⟩]
      unfold reloadLoop
      rw [hcb]
      simp only [hu, if_true, hdec, ok_bind]
      rw [if_neg (by decide)]
      set c1 := reloadReorder (reloadLoad g c b rest (some (rblk s f w g.N * g.B))) .move with hc1
      have eb : c1.bufs = rest ++ [(loadBuffer g c.dev b (rblk s f w g.N * g.B)).1] := rfl
      have hmove : ∀ x ∈ rest, ∃ j : Int, 1 ≤ j ∧ j ≤ N ∧ x.index = rblk s f w j := by
        intro x hx
        have := List.mem_map_of_mem (f := Buf.index) hx
        rw [hrest] at this
        obtain ⟨j, hj, e⟩ := List.mem_map.1 this
        rw [List.mem_range] at hj
        exact ⟨j + 1, by omega, by omega, e.symm⟩
      have hd1 : ∀ j : Int, 1 ≤ j → j ≤ N + 1 → rdist s f (rblk s f w 1) (rblk s f w j) = j - 1 := by
        intro j h1 h2
        rw [show rblk s f w j = rblk s f (rblk s f w 1) (j - 1) by rw [rblk_rblk (by omega) (by omega)]; congr 1; ring]
        exact rdist_rblk (by omega) (by omega)
      obtain ⟨c', k1, k2, k3⟩ := ih fuel c1 (rblk s f w 1) (hc.next rfl rfl rfl (by omega) (by omega))
        (by rw [eb, List.map_append, hrest, List.map_cons, List.map_nil, hidx, hN]; exact rcyc_next hw (by rw [← hN]; exact hlen))
        (by omega) (by omega)
        (by
          intro x hx hlt
          rw [eb, List.mem_append, List.mem_singleton] at hx
          rcases hx with hx | rfl
          · obtain ⟨j, j1, j2, e⟩ := hmove x hx
            refine hun x (by rw [hcb]; exact List.mem_cons_of_mem _ hx) ?_
            rw [e, hd1 j j1 (by omega)] at hlt
            rw [e, rdist_rblk (by omega) (by omega)]; push_cast; omega
          · rw [hidx, hd1 _ (by omega) (by omega)] at hlt; omega)
        (by
          intro x hx he
          rw [eb, List.mem_append, List.mem_singleton] at hx
          rcases hx with hx | rfl
          · obtain ⟨j, j1, j2, e⟩ := hmove x hx
            refine hread x (by rw [hcb]; exact List.mem_cons_of_mem _ hx) ?_
            rw [e, hd1 j j1 (by omega)] at he
            rw [e, rdist_rblk (by omega) (by omega)]; push_cast; omega
          · rw [loadBuffer_status]; decide)
      have e : rblk s f (rblk s f w 1) d = rblk s f w ((d + 1 : Nat) : Int) := by
        rw [rblk_rblk (by omega) (by omega)]; congr 1; push_cast; ring
      rw [e] at k2 k3
      exact ⟨c', k1, k2, k3⟩

/-- The cache while repeating backwards: `N` consecutive blocks of the cycle. -/
structure RLWin (m : List Nat) (g : Geo) (s f M : Int) (c : Cache) (w : Int) : Prop where
  reached : Reached m g c
  conf : RCycConf g s f M c w
  ix : c.bufs.map Buf.index = rcyc s f w g.N
  loaded : AllLoaded c

/-- One update and the reload after it; the first block read is the `δ`-th of the window. -/
theorem RLWin.round {m : List Nat} {g : Geo} (hB : g.B < 16384) (hm : m.length < 4294967296) {s f M : Int} (hmax : (M + 1) * g.B ≤ 2147483647)
    {c : Cache} {w : Int} (h : RLWin m g s f M c w) {is : List Int} {δ : Nat}
    (hin : ∀ i ∈ is, InFile m i ∧ ∃ j : Int, δ ≤ j ∧ j < g.N ∧ i / g.B = rblk s f w j) (hlo : ∃ i ∈ is, i / g.B = rblk s f w δ) :
    (∀ i ∈ is, Buffered g c i) ∧ ∀ fuel rate, g.N ≤ fuel → rate < 0 →
      ∃ c', (c.gets g is).2.triggerReload g fuel rate = .ok c' ∧ RLWin m g s f M c' (rblk s f w δ) := by
  have hlen := h.conf.len
  have hbuf : ∀ i ∈ is, ∃ b ∈ c.bufs, b.index = i / g.B ∧ 0 < b.size := by
    intro i hi
    obtain ⟨hf, j, j0, j1, e⟩ := hin i hi
    have : i / g.B ∈ c.bufs.map Buf.index := by rw [h.ix, mem_rcyc]; exact ⟨j, by omega, j1, e⟩
    obtain ⟨b, hb, e⟩ := List.mem_map.1 this
    exact ⟨b, hb, e, index_size hB h.reached hb hf e⟩
  refine ⟨hbuf, fun fuel rate hf hr => ?_⟩
  obtain ⟨i0, hi0, ei0⟩ := hlo
  obtain ⟨hf0, j0, j1, j2, ej⟩ := hin i0 hi0
  have hδ : (δ : Int) < g.N := by omega
  have hst := gets_status g (rdist s f w) (rblk s f w δ) is c h.loaded (by rw [h.ix]; exact rcyc_sorted hlen)
    (fun i hi => by
      obtain ⟨hif, j, a0, a1, e⟩ := hin i hi
      rw [(inFile_block (g := g) hm hif).1]
      refine ⟨?_, hbuf i hi⟩
      rw [e, rdist_rblk (by omega) (by omega), rdist_rblk (by omega) (by omega)]; exact a0)
    ⟨i0, hi0, by rw [(inFile_block (g := g) hm hf0).1]; exact ei0⟩
  obtain ⟨_, hsame, _⟩ := C15_read_only g is c
  set c0 := (c.gets g is).2 with hc0
  have hix : c0.bufs.map Buf.index = rcyc s f w g.N := by rw [index_of_core hsame.2.1]; exact h.ix
  have hconf : RCycConf g s f M c0 w := by
    have := h.conf.next (c' := c0) (d := 0) hsame.2.2.2.1 hsame.2.2.2.2.1 hsame.2.2.2.2.2 (by omega) (by omega)
    rwa [rblk_zero h.conf.sw] at this
  have key : ∀ b ∈ c0.bufs, ∃ j : Int, 0 ≤ j ∧ j < g.N ∧ b.index = rblk s f w j := by
    intro b hb
    have := List.mem_map_of_mem (f := Buf.index) hb
    rw [hix] at this
    exact mem_rcyc.1 this
  obtain ⟨c1, k1, k2, k3⟩ := reloadLoop_rcyc (g := g) hr hmax δ fuel c0 w hconf hix (by omega) (by omega)
    (fun b hb hlt => (hst b hb).1 (by rw [rdist_rblk (by omega) (by omega)]; exact hlt))
    (fun b hb he => by
      obtain ⟨j, b0, b1, e⟩ := key b hb
      rw [e, rdist_rblk b0 (by omega)] at he
      rw [(hst b hb).2 (by rw [e, he])]; decide)
  have hrr : reloadRate c0 rate = rate := by unfold reloadRate; rw [hconf.loop]; simp
  have hrun : ∃ c', c0.triggerReload g fuel rate = .ok c' ∧ c'.bufs = c1.resetStatus.bufs ∧ c'.loopType = c1.loopType ∧
      c'.loopStartBlk = c1.loopStartBlk ∧ c'.loopFinishBlk = c1.loopFinishBlk := by
    unfold Cache.triggerReload
    rw [hrr, k1]
    simp only [ok_bind]
    refine ⟨_, rfl, ?_, ?_, ?_, ?_⟩ <;> (split <;> rfl)
  obtain ⟨c', e1, e2, e3, e4, e5⟩ := hrun
  refine ⟨c', e1, (Reached.gets hm is h.reached).step hm (.reload fuel rate) e1, ?_, ?_, ?_⟩
  · have := k2.next (c' := c') (d := 0) e3 e4 e5 (by omega) (by omega)
    rwa [rblk_zero k2.sw] at this
  · rw [e2, index_of_core (resetStatus_core c1)]; exact k3
  · intro b hb
    rw [e2] at hb
    obtain ⟨b0, _, rfl⟩ := List.mem_map.1 hb
    rfl

/-- Preloading backwards when there are as many blocks as buffers from the start of the cycle on. -/
theorem RLWin.preLoad {m : List Nat} {g : Geo} (hm : m.length < 4294967296) {c : Cache}
    (hc : Reached m g c) (hb : c.bufs = []) {i : Int} (h0 : 0 ≤ i) (hi : i ≤ 2147483647)
    (hhalf : 2 * (i / g.B * g.B) + g.B ≤ m.length) {s f M : Int} (hconf : RCycConf g s f M c (i / g.B)) (hlast : s ≤ i / g.B - g.N + 1) :
    RLWin m g s f M (c.preLoad g i false) (i / g.B) ∧ (c.preLoad g i false).fails = c.fails := by
  have hB : (0 : Int) < g.B := by exact_mod_cast g.B_pos
  have hs0 := hconf.s0
  have hi32 : InI32 i := ⟨by omega, hi⟩
  have hreach := hc.step hm (.preLoad i false) rfl
  rw [i32_of_in hi32] at hreach
  obtain ⟨⟨rest, k1, k5⟩, k2, k3, k4⟩ := preLoadLoop_rev (g := g) g.N c i hc.ok.dev h0 hi (Or.inr hhalf) (by intro b hb'; rw [hb] at hb'; cases hb')
  have e : c.preLoad g i false = preLoadLoop g 0 false g.N c.bufs.length c i := by unfold Cache.preLoad; rw [hb]; rfl
  obtain ⟨q1, q2, q3⟩ := preLoadLoop_conf (g := g) 0 false g.N c.bufs.length c i
  rw [e]
  refine ⟨⟨by rw [← e]; exact hreach, ?_, ?_, k2⟩, k4⟩
  · have := hconf.next (c' := preLoadLoop g 0 false g.N c.bufs.length c i) (d := 0) q1 q2 q3 (by omega) (by omega)
    rwa [rblk_zero hconf.sw] at this
  · rw [k1, k5 (by omega), hb, Nat.min_eq_left (by omega), List.append_nil]
    show down (i / g.B) g.N = rcyc s f (i / g.B) g.N
    unfold down rcyc
    refine List.map_congr_left fun j hj => ?_
    rw [List.mem_range] at hj
    unfold rblk
    rw [if_pos (by omega)]

end TVP
