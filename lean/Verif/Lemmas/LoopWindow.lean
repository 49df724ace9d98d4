import Verif.Lemmas.Window

/-!
# The blocks kept by the cache while repeating
-/

namespace TVP
open Spec

/-- The `j`-th block after `w` when `f` is followed by `s`. -/
def blk (s f w j : Int) : Int := if w + j ≤ f then w + j else s + (w + j - f - 1)

/-- `N` consecutive blocks from `w` on. -/
def cyc (s f w : Int) (N : Nat) : List Int := (List.range N).map fun j : Nat => blk s f w j

/-- How far `x` is after `w`. -/
def dist (s f w x : Int) : Int := if w ≤ x then x - w else x - s + (f + 1 - w)

theorem mem_cyc {s f w x : Int} {N : Nat} : x ∈ cyc s f w N ↔ ∃ j : Int, 0 ≤ j ∧ j < N ∧ x = blk s f w j := by
  unfold cyc
  rw [List.mem_map]
  constructor
  · rintro ⟨j, hj, rfl⟩; rw [List.mem_range] at hj; exact ⟨j, by omega, by omega, rfl⟩
  · rintro ⟨j, h0, h1, rfl⟩; exact ⟨j.toNat, List.mem_range.2 (by omega), by rw [Int.toNat_of_nonneg h0]⟩

theorem dist_blk {s f w j : Int} (h0 : 0 ≤ j) (h1 : j < f - s + 1) : dist s f w (blk s f w j) = j := by
  unfold dist blk; split <;> split <;> omega

theorem blk_le {s f w j : Int} (hw : w ≤ f) (h1 : j ≤ f - s + 1) : blk s f w j ≤ f := by
  unfold blk; split <;> omega

theorem blk_ge {s f w j : Int} (hs : 0 ≤ s) (hw : 0 ≤ w) (h0 : 0 ≤ j) : 0 ≤ blk s f w j := by
  unfold blk; split <;> omega

theorem blk_zero {s f w : Int} (hw : w ≤ f) : blk s f w 0 = w := by
  unfold blk; rw [if_pos (by omega)]; ring

theorem blk_blk {s f w d j : Int} (h : w + d + j ≤ f + (f - s + 1)) (hd : 0 ≤ j) : blk s f (blk s f w d) j = blk s f w (d + j) := by
  unfold blk; split <;> split <;> split <;> omega

theorem cyc_sorted {s f w : Int} {N : Nat} (hL : (N : Int) ≤ f - s + 1) : (cyc s f w N).Pairwise fun x y => dist s f w x < dist s f w y := by
  unfold cyc
  rw [List.pairwise_map]
  refine (List.pairwise_lt_range (n := N)).imp_of_mem ?_
  intro a b ha hb hab
  rw [List.mem_range] at ha hb
  rw [dist_blk (by omega) (by omega), dist_blk (by omega) (by omega)]
  omega

theorem cyc_length (s f w : Int) (N : Nat) : (cyc s f w N).length = N := by unfold cyc; simp

theorem cyc_cons {s f w : Int} {N : Nat} (hw : w ≤ f) : cyc s f w (N + 1) = w :: (List.range N).map fun j : Nat => blk s f w (j + 1) := by
  unfold cyc
  rw [List.range_succ_eq_map, List.map_cons, List.map_map, Nat.cast_zero, blk_zero hw]
  congr 1

/-- Dropping the first block and adding the next one. -/
theorem cyc_next {s f w : Int} {N : Nat} (hw : w ≤ f) (hL : ((N + 1 : Nat) : Int) ≤ f - s + 1) :
    ((List.range N).map fun j : Nat => blk s f w (j + 1)) ++ [blk s f w (N + 1 : Nat)] = cyc s f (blk s f w 1) (N + 1) := by
  unfold cyc
  rw [List.range_succ, List.map_append, List.map_cons, List.map_nil]
  push_cast at hL
  congr 1
  · refine List.map_congr_left fun j hj => ?_
    rw [List.mem_range] at hj
    rw [blk_blk (by omega) (by omega), add_comm]
  · rw [blk_blk (by omega) (by omega), add_comm]; push_cast; rfl

/-- The loop points as the cache knows them fit the cycle `s..f`: `f` is the block of the loop's end, or the cycle is exactly as
long as there are buffers and contains the loop. -/
structure CycConf (g : Geo) (s f : Int) (c : Cache) (w : Int) : Prop where
  loop : c.loopType = .repeat
  ls : c.loopStartBlk = s
  lf : c.loopFinishBlk = f ∨ ((g.N : Int) = f - s + 1 ∧ s ≤ w ∧ c.loopFinishBlk ≤ f)
  s0 : 0 ≤ s
  w0 : 0 ≤ w
  wf : w ≤ f
  len : (g.N : Int) ≤ f - s + 1

theorem CycConf.next {g : Geo} {s f : Int} {c c' : Cache} {w d : Int} (h : CycConf g s f c w) (e1 : c'.loopType = c.loopType)
    (e2 : c'.loopStartBlk = c.loopStartBlk) (e3 : c'.loopFinishBlk = c.loopFinishBlk) (h0 : 0 ≤ d) (h1 : d ≤ g.N) :
    CycConf g s f c' (blk s f w d) := by
  have hl := h.len
  have hw := h.wf
  refine ⟨e1.trans h.loop, e2.trans h.ls, ?_, h.s0, blk_ge h.s0 h.w0 h0, blk_le h.wf (by omega), h.len⟩
  rw [e3]
  rcases h.lf with h2 | ⟨h2, h3, h4⟩
  · exact Or.inl h2
  · refine Or.inr ⟨h2, ?_, h4⟩
    unfold blk; split <;> omega

theorem lastSlot_cyc {g : Geo} {s f w : Int} {bs : List Buf} {N : Nat} (hN : g.N = N + 1) (h : bs.map Buf.index = cyc s f w g.N) :
    ∃ b, lastSlot g bs = .ok b ∧ b.index = blk s f w N := by
  have hlen : bs.length = N + 1 := by rw [← List.length_map (f := Buf.index), h, cyc_length, hN]
  unfold lastSlot
  rw [hN, Nat.add_sub_cancel, List.getElem?_eq_getElem (by omega)]
  refine ⟨_, rfl, ?_⟩
  have h2 : (bs.map Buf.index)[N]'(by rw [List.length_map]; omega) = blk s f w N := by
    simp only [h]
    unfold cyc
    simp
  rw [← h2, List.getElem_map]

theorem maxIndex_of {b : Buf} {bs : List Buf} {x : Int} (hb : b ∈ bs) (h1 : ∀ y ∈ bs.map Buf.index, y ≤ x) (h2 : x ∈ bs.map Buf.index) :
    maxIndex b bs = x := by
  obtain ⟨k1, y, hy, e⟩ := maxIndex_spec hb
  obtain ⟨z, hz, ez⟩ := List.mem_map.1 h2
  have a1 := k1 z hz
  have a2 := h1 _ (List.mem_map_of_mem hy)
  omega

/-- The block a forward reload loads while repeating. -/
theorem reloadDecide_cyc {g : Geo} {rate : ℚ} (hr : 0 ≤ rate) {s f : Int} {c : Cache} {w : Int} (hc : CycConf g s f c w)
    (hix : c.bufs.map Buf.index = cyc s f w g.N) {N : Nat} (hN : g.N = N + 1) (hmax : (f + 1) * g.B ≤ 2147483647) {b : Buf} (hb : b ∈ c.bufs) :
    reloadDecide g c rate b = .ok (some (blk s f w g.N * g.B), .move) := by
  have hB : (0 : Int) < g.B := by exact_mod_cast g.B_pos
  obtain ⟨x, hx, hxi⟩ := lastSlot_cyc hN hix
  have hs0 := hc.s0
  have hw0 := hc.w0
  have hwf := hc.wf
  have hlen := hc.len
  have hNi : (g.N : Int) = N + 1 := by rw [hN]; push_cast; rfl
  have hf1 : f + 1 ≤ (f + 1) * g.B := le_mul_of_one_le_right (by omega) (by omega)
  have hfit : ∀ y, 0 ≤ y → y ≤ f + 1 → i32 (y * g.B) = y * g.B ∧ i32 y = y := by
    intro y h0 h1
    have e1 : y * g.B ≤ (f + 1) * g.B := mul_le_mul_of_nonneg_right h1 (le_of_lt hB)
    have e2 : 0 ≤ y * g.B := mul_nonneg h0 (le_of_lt hB)
    exact ⟨i32_of_in ⟨by omega, by omega⟩, i32_of_in ⟨by omega, by omega⟩⟩
  have hle : ∀ y ∈ c.bufs.map Buf.index, y ≤ f := by
    intro y hy
    rw [hix] at hy
    obtain ⟨j, h0, h1, rfl⟩ := mem_cyc.1 hy
    exact blk_le hwf (by omega)
  unfold reloadDecide
  rw [if_pos hr, hc.loop]
  simp only
  have hlast0 := blk_ge (j := (N : Int)) hs0 hw0 (by omega) (f := f)
  have hlast1 : blk s f w N ≤ f := blk_le hwf (by omega)
  rw [hNi]
  by_cases hin : f ∈ c.bufs.map Buf.index
  · -- the end of the loop is buffered
    have hM := maxIndex_of hb hle hin
    have hgt : i32 (f + 1) > c.loopFinishBlk := by
      rw [(hfit (f + 1) (by omega) (le_refl _)).2]
      rcases hc.lf with h | h <;> omega
    rw [hM, if_pos hgt, hx]
    simp only [ok_bind, hxi]
    rw [(hfit _ hlast0 (by omega)).2, (hfit (f + 1) (by omega) (le_refl _)).2]
    by_cases he : blk s f w N = f
    · rw [if_pos (by omega), hc.ls]
      have e : blk s f w (N + 1) = s := by
        unfold blk at he ⊢
        split at he <;> split <;> omega
      rw [e, (hfit s hs0 (by omega)).1]; rfl
    · rw [if_neg (by omega)]
      have e : blk s f w (N + 1) = blk s f w N + 1 := by
        unfold blk at he ⊢
        split at he <;> split <;> omega
      rw [e, (hfit _ (by omega) (by omega)).1]; rfl
  · -- it is not: the blocks are consecutive
    have hnw : w + N < f := by
      by_contra hcon
      refine hin ?_
      rw [hix, mem_cyc]
      exact ⟨f - w, by omega, by omega, by unfold blk; rw [if_pos (by omega)]; ring⟩
    have hlf : c.loopFinishBlk = f := by
      rcases hc.lf with h | ⟨h1, h2, _⟩
      · exact h
      · omega
    have hM : maxIndex b c.bufs = w + N := by
      refine maxIndex_of hb ?_ ?_
      · intro y hy
        rw [hix] at hy
        obtain ⟨j, h0, h1, rfl⟩ := mem_cyc.1 hy
        unfold blk; split <;> omega
      · rw [hix, mem_cyc]
        exact ⟨N, by omega, by omega, by unfold blk; rw [if_pos (by omega)]⟩
    have e : blk s f w (N + 1) = w + N + 1 := by unfold blk; rw [if_pos (by omega)]; ring
    rw [hM, hlf, (hfit (w + N + 1) (by omega) (by omega)).2, if_neg (by omega), e, (hfit (w + N + 1) (by omega) (by omega)).1]; rfl

/-- Reloading while repeating moves the window to the first block read. -/
theorem reloadLoop_cyc {g : Geo} {rate : ℚ} (hr : 0 ≤ rate) {s f : Int} (hmax : (f + 1) * g.B ≤ 2147483647) :
    ∀ (d fuel : Nat) (c : Cache) (w : Int), CycConf g s f c w → c.bufs.map Buf.index = cyc s f w g.N → d < g.N → d ≤ fuel →
    (∀ b ∈ c.bufs, dist s f w b.index < d → b.status = .unused) → (∀ b ∈ c.bufs, dist s f w b.index = d → b.status ≠ .unused) →
    ∃ c', reloadLoop g rate fuel c = .ok c' ∧ CycConf g s f c' (blk s f w d) ∧ c'.bufs.map Buf.index = cyc s f (blk s f w d) g.N := by
  intro d
  have hB : (0 : Int) < g.B := by exact_mod_cast g.B_pos
  induction d with
  | zero =>
    intro fuel c w hc hix hd _ _ hread
    have hw := hc.wf
    refine ⟨c, ?_, by rw [Nat.cast_zero, blk_zero hw]; exact hc, by rw [Nat.cast_zero, blk_zero hw]; exact hix⟩
    cases hcb : c.bufs with
    | nil => cases fuel <;> (unfold reloadLoop; rw [hcb])
    | cons b rest =>
      have hb : b.index = w := by
        obtain ⟨N, hN⟩ : ∃ N, g.N = N + 1 := ⟨g.N - 1, by omega⟩
        rw [hcb, hN, cyc_cons hw] at hix
        exact (List.cons.inj hix).1
      have hu := hread b (by rw [hcb]; exact List.mem_cons_self) (by rw [hb]; unfold dist; simp)
      cases fuel <;> (unfold reloadLoop; rw [hcb]; simp only [hu, if_false])
  | succ d ih =>
    intro fuel c w hc hix hd hfuel hun hread
    have hw := hc.wf
    have hlen := hc.len
    have hw0 := hc.w0
    obtain ⟨fuel, rfl⟩ : ∃ f, fuel = f + 1 := ⟨fuel - 1, by omega⟩
    obtain ⟨N, hN⟩ : ∃ N, g.N = N + 1 := ⟨g.N - 1, by omega⟩
    have hNi : (g.N : Int) = N + 1 := by rw [hN]; push_cast; rfl
    cases hcb : c.bufs with
    | nil => rw [hcb, hN, cyc_cons hw] at hix; cases hix
    | cons b rest =>
      have hbm : b ∈ c.bufs := by rw [hcb]; exact List.mem_cons_self
      have hix' := hix
      rw [hcb, hN, cyc_cons hw] at hix'
      have hb : b.index = w := (List.cons.inj hix').1
      have hrest : rest.map Buf.index = (List.range N).map fun j : Nat => blk s f w (j + 1) := (List.cons.inj hix').2
      have hu := hun b hbm (by rw [hb]; unfold dist; simp only [le_refl, if_true]; push_cast; omega)
      have hdec := reloadDecide_cyc hr hc hix hN hmax hbm
      have hn0 := blk_ge (j := (g.N : Int)) hc.s0 hc.w0 (by omega) (f := f)
      have hn1 : blk s f w g.N ≤ f := blk_le hw (by omega)
      have hfb : f + 1 ≤ (f + 1) * g.B := le_mul_of_one_le_right (by omega) (by omega)
      have hidx : (loadBuffer g c.dev b (blk s f w g.N * g.B)).1.index = blk s f w g.N := by
        rw [loadBuffer_index, Int.mul_ediv_cancel _ (ne_of_gt hB), u32_of_in ⟨by omega, by omega⟩]
      unfold reloadLoop
      rw [hcb]
      simp only [hu, if_true, hdec, ok_bind]
      rw [if_neg (by decide)]
      set c1 := reloadReorder (reloadLoad g c b rest (some (blk s f w g.N * g.B))) .move with hc1
      have eb : c1.bufs = rest ++ [(loadBuffer g c.dev b (blk s f w g.N * g.B)).1] := rfl
      have hmove : ∀ x ∈ rest, ∃ j : Int, 1 ≤ j ∧ j ≤ N ∧ x.index = blk s f w j := by
        intro x hx
        have := List.mem_map_of_mem (f := Buf.index) hx
        rw [hrest] at this
        obtain ⟨j, hj, e⟩ := List.mem_map.1 this
        rw [List.mem_range] at hj
        exact ⟨j + 1, by omega, by omega, e.symm⟩
      have hd1 : ∀ j : Int, 1 ≤ j → j ≤ N + 1 → dist s f (blk s f w 1) (blk s f w j) = j - 1 := by
        intro j h1 h2
        rw [show blk s f w j = blk s f (blk s f w 1) (j - 1) by rw [blk_blk (by omega) (by omega)]; congr 1; ring]
        exact dist_blk (by omega) (by omega)
      obtain ⟨c', k1, k2, k3⟩ := ih fuel c1 (blk s f w 1) (hc.next rfl rfl rfl (by omega) (by omega))
        (by rw [eb, List.map_append, hrest, List.map_cons, List.map_nil, hidx, hN]; exact cyc_next hw (by rw [← hN]; exact hlen))
        (by omega) (by omega)
        (by
          intro x hx hlt
          rw [eb, List.mem_append, List.mem_singleton] at hx
          rcases hx with hx | rfl
          · obtain ⟨j, j1, j2, e⟩ := hmove x hx
            refine hun x (by rw [hcb]; exact List.mem_cons_of_mem _ hx) ?_
            rw [e, hd1 j j1 (by omega)] at hlt
            rw [e, dist_blk (by omega) (by omega)]; push_cast; omega
          · rw [hidx, hd1 _ (by omega) (by omega)] at hlt; omega)
        (by
          intro x hx he
          rw [eb, List.mem_append, List.mem_singleton] at hx
          rcases hx with hx | rfl
          · obtain ⟨j, j1, j2, e⟩ := hmove x hx
            refine hread x (by rw [hcb]; exact List.mem_cons_of_mem _ hx) ?_
            rw [e, hd1 j j1 (by omega)] at he
            rw [e, dist_blk (by omega) (by omega)]; push_cast; omega
          · rw [loadBuffer_status]; decide)
      have e : blk s f (blk s f w 1) d = blk s f w ((d + 1 : Nat) : Int) := by
        rw [blk_blk (by omega) (by omega)]; congr 1; push_cast; ring
      rw [e] at k2 k3
      exact ⟨c', k1, k2, k3⟩

/-- The cache while repeating: `N` consecutive blocks of the cycle. -/
structure LWin (m : List Nat) (g : Geo) (s f : Int) (c : Cache) (w : Int) : Prop where
  reached : Reached m g c
  conf : CycConf g s f c w
  ix : c.bufs.map Buf.index = cyc s f w g.N
  loaded : AllLoaded c

/-- One update and the reload after it; the first block read is the `δ`-th of the window. -/
theorem LWin.round {m : List Nat} {g : Geo} (hB : g.B < 16384) (hm : m.length < 4294967296) {s f : Int} (hmax : (f + 1) * g.B ≤ 2147483647)
    {c : Cache} {w : Int} (h : LWin m g s f c w) {is : List Int} {δ : Nat}
    (hin : ∀ i ∈ is, InFile m i ∧ ∃ j : Int, δ ≤ j ∧ j < g.N ∧ i / g.B = blk s f w j) (hlo : ∃ i ∈ is, i / g.B = blk s f w δ) :
    (∀ i ∈ is, Buffered g c i) ∧ ∀ fuel rate, g.N ≤ fuel → 0 ≤ rate →
      ∃ c', (c.gets g is).2.triggerReload g fuel rate = .ok c' ∧ LWin m g s f c' (blk s f w δ) := by
  have hlen := h.conf.len
  have hbuf : ∀ i ∈ is, ∃ b ∈ c.bufs, b.index = i / g.B ∧ 0 < b.size := by
    intro i hi
    obtain ⟨hf, j, j0, j1, e⟩ := hin i hi
    have : i / g.B ∈ c.bufs.map Buf.index := by rw [h.ix, mem_cyc]; exact ⟨j, by omega, j1, e⟩
    obtain ⟨b, hb, e⟩ := List.mem_map.1 this
    exact ⟨b, hb, e, index_size hB h.reached hb hf e⟩
  refine ⟨hbuf, fun fuel rate hf hr => ?_⟩
  obtain ⟨i0, hi0, ei0⟩ := hlo
  obtain ⟨hf0, j0, j1, j2, ej⟩ := hin i0 hi0
  have hδ : (δ : Int) < g.N := by omega
  have hst := gets_status g (dist s f w) (blk s f w δ) is c h.loaded (by rw [h.ix]; exact cyc_sorted hlen)
    (fun i hi => by
      obtain ⟨hif, j, a0, a1, e⟩ := hin i hi
      rw [(inFile_block (g := g) hm hif).1]
      refine ⟨?_, hbuf i hi⟩
      rw [e, dist_blk (by omega) (by omega), dist_blk (by omega) (by omega)]; exact a0)
    ⟨i0, hi0, by rw [(inFile_block (g := g) hm hf0).1]; exact ei0⟩
  obtain ⟨_, hsame, _⟩ := C15_read_only g is c
  set c0 := (c.gets g is).2 with hc0
  have hix : c0.bufs.map Buf.index = cyc s f w g.N := by rw [index_of_core hsame.2.1]; exact h.ix
  have hconf : CycConf g s f c0 w := by
    have := h.conf.next (c' := c0) (d := 0) hsame.2.2.2.1 hsame.2.2.2.2.1 hsame.2.2.2.2.2 (by omega) (by omega)
    rwa [blk_zero h.conf.wf] at this
  have key : ∀ b ∈ c0.bufs, ∃ j : Int, 0 ≤ j ∧ j < g.N ∧ b.index = blk s f w j := by
    intro b hb
    have := List.mem_map_of_mem (f := Buf.index) hb
    rw [hix] at this
    exact mem_cyc.1 this
  obtain ⟨c1, k1, k2, k3⟩ := reloadLoop_cyc (g := g) hr hmax δ fuel c0 w hconf hix (by omega) (by omega)
    (fun b hb hlt => (hst b hb).1 (by rw [dist_blk (by omega) (by omega)]; exact hlt))
    (fun b hb he => by
      obtain ⟨j, b0, b1, e⟩ := key b hb
      rw [e, dist_blk b0 (by omega)] at he
      rw [(hst b hb).2 (by rw [e, he])]; decide)
  have hrr : reloadRate c0 rate = rate := by unfold reloadRate; rw [hconf.loop]; simp
  have hrun : ∃ c', c0.triggerReload g fuel rate = .ok c' ∧ c'.bufs = c1.resetStatus.bufs ∧ c'.loopType = c1.loopType ∧
      c'.loopStartBlk = c1.loopStartBlk ∧ c'.loopFinishBlk = c1.loopFinishBlk := by
    unfold Cache.triggerReload
    rw [hrr, k1]
    simp only [ok_bind]
    refine ⟨_, rfl, ?_, ?_, ?_, ?_⟩ <;> (split <;> rfl)
  obtain ⟨c', e1, e2, e3, e4, e5⟩ := hrun
  refine ⟨c', e1, (Reached.gets hm is h.reached).step hm (.reload fuel rate) e1, ?_, ?_, ?_⟩
  · have := k2.next (c' := c') (d := 0) e3 e4 e5 (by omega) (by omega)
    rwa [blk_zero k2.wf] at this
  · rw [e2, index_of_core (resetStatus_core c1)]; exact k3
  · intro b hb
    rw [e2] at hb
    obtain ⟨b0, _, rfl⟩ := List.mem_map.1 hb
    rfl

theorem preLoadLoop_conf {g : Geo} (nv : Nat) (fw : Bool) : ∀ (left bufn : Nat) (c : Cache) (i : Int),
    (preLoadLoop g nv fw left bufn c i).loopType = c.loopType ∧ (preLoadLoop g nv fw left bufn c i).loopStartBlk = c.loopStartBlk ∧
      (preLoadLoop g nv fw left bufn c i).loopFinishBlk = c.loopFinishBlk := by
  intro left
  induction left with
  | zero => intro _ c _; exact ⟨rfl, rfl, rfl⟩
  | succ left ih =>
    intro bufn c i
    unfold preLoadLoop
    dsimp only
    split
    · exact ⟨rfl, rfl, rfl⟩
    · split
      · exact ⟨rfl, rfl, rfl⟩
      · exact ih _ _ _

/-- Preloading when the file goes on for as long as there are buffers. -/
theorem LWin.preLoad {m : List Nat} {g : Geo} (hm : m.length < 4294967296) (hN : 1 ≤ g.N) {c : Cache}
    (hc : Reached m g c) (hb : c.bufs = []) {i : Int} (h0 : 0 ≤ i) (hi : i + g.N * g.B ≤ 2147483647)
    (hfull : 2 * ((i / g.B + g.N - 2) * g.B) + g.B ≤ m.length) {s f : Int} (hconf : CycConf g s f c (i / g.B)) (hlast : i / g.B + g.N - 1 ≤ f) :
    LWin m g s f (c.preLoad g i true) (i / g.B) ∧ (c.preLoad g i true).fails = c.fails := by
  have hB : (0 : Int) < g.B := by exact_mod_cast g.B_pos
  have hi32 : InI32 i := ⟨by omega, by
    have : (0 : Int) ≤ g.N * g.B := mul_nonneg (by omega) (le_of_lt hB)
    omega⟩
  have hreach := hc.step hm (.preLoad i true) rfl
  rw [i32_of_in hi32] at hreach
  obtain ⟨L, k1, k2, k3, k4, k5, k6, k7⟩ := preLoadLoop_fwd (g := g) g.N c i hc.ok.dev h0 hi (by intro b hb'; rw [hb] at hb'; cases hb')
  have e : c.preLoad g i true = preLoadLoop g 0 true g.N c.bufs.length c i := by unfold Cache.preLoad; rw [hb]; rfl
  have hL : L = g.N := by
    rcases k7 with k7 | k7
    · exact k7
    · by_contra hne
      have h1 : (i / g.B + L - 1) * g.B ≤ (i / g.B + g.N - 2) * g.B := mul_le_mul_of_nonneg_right (by omega) (le_of_lt hB)
      omega
  obtain ⟨q1, q2, q3⟩ := preLoadLoop_conf (g := g) 0 true g.N c.bufs.length c i
  rw [e]
  refine ⟨⟨by rw [← e]; exact hreach, ?_, ?_, k4⟩, k6⟩
  · have := hconf.next (c' := preLoadLoop g 0 true g.N c.bufs.length c i) (d := 0) q1 q2 q3 (by omega) (by omega)
    rwa [blk_zero hconf.wf] at this
  · rw [k3, hb, hL]
    show up (i / g.B) g.N = cyc s f (i / g.B) g.N
    unfold up cyc
    refine List.map_congr_left fun j hj => ?_
    rw [List.mem_range] at hj
    unfold blk
    rw [if_pos (by omega)]

end TVP
