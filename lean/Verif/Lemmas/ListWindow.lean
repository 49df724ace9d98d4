import Verif.Lemmas.LoopWindow

/-!
# Reloading a vector with any blocks in it
-/

namespace TVP
open Spec

/-- The block loaded next when playing forwards and the vector holds the blocks `v`. -/
def Nxt (t : LoopType) (s f : Int) (v : List Int) (y : Int) : Prop :=
  ∃ M, (∀ x ∈ v, x ≤ M) ∧ M ∈ v ∧
    match t with
    | .none => y = M + 1
    | .repeat => ∃ l, v.getLast? = some l ∧ y = if f < M + 1 then (if l = M then s else l + 1) else M + 1
    | .pingpong => False

/-- `d` times the first block is dropped and the next one added; none is beyond `T`. -/
inductive Reloads (t : LoopType) (s f T : Int) : Nat → List Int → List Int → Prop
  | zero (v : List Int) : Reloads t s f T 0 v v
  | succ {d : Nat} {x y : Int} {xs v' : List Int} (hy : Nxt t s f (x :: xs) y) (h0 : 0 ≤ y) (h1 : y ≤ T) (h : Reloads t s f T d (xs ++ [y]) v') :
      Reloads t s f T (d + 1) (x :: xs) v'

theorem Reloads.trans {t : LoopType} {s f T : Int} {d e : Nat} {u v w : List Int} (h : Reloads t s f T d u v) (k : Reloads t s f T e v w) :
    Reloads t s f T (d + e) u w := by
  induction h with
  | zero v => rw [Nat.zero_add]; exact k
  | succ hy h0 h1 _ ih => rw [Nat.add_right_comm]; exact .succ hy h0 h1 (ih k)

theorem reloadDecide_nxt {g : Geo} {rate : ℚ} (hr : 0 ≤ rate) {c : Cache} {T y : Int} (hT : (T + 1) * g.B ≤ 2147483647) {b : Buf} (hb : b ∈ c.bufs)
    (hlen : c.loopType = .repeat → c.bufs.length = g.N) (hbd : ∀ x ∈ c.bufs.map Buf.index, 0 ≤ x ∧ x ≤ T)
    (hy : Nxt c.loopType c.loopStartBlk c.loopFinishBlk (c.bufs.map Buf.index) y) (h0 : 0 ≤ y) (h1 : y ≤ T) :
    reloadDecide g c rate b = .ok (some (y * g.B), .move) := by
  have hB : (0 : Int) < g.B := by exact_mod_cast g.B_pos
  obtain ⟨M, k1, k2, k3⟩ := hy
  have hM := maxIndex_of hb k1 k2
  obtain ⟨m0, m1⟩ := hbd M k2
  have hT1 : T + 1 ≤ (T + 1) * g.B := le_mul_of_one_le_right (by omega) (by omega)
  have hyB : y * g.B ≤ (T + 1) * g.B := mul_le_mul_of_nonneg_right (by omega) (le_of_lt hB)
  have hy0 : 0 ≤ y * g.B := mul_nonneg h0 (le_of_lt hB)
  have e1 : i32 (M + 1) = M + 1 := i32_of_in ⟨by omega, by omega⟩
  have e2 : i32 (y * g.B) = y * g.B := i32_of_in ⟨by omega, by omega⟩
  unfold reloadDecide
  rw [if_pos hr, hM, e1]
  cases ht : c.loopType with
  | none =>
    rw [ht] at k3
    simp only at k3 ⊢
    rw [← k3, e2]; rfl
  | pingpong => rw [ht] at k3; exact k3.elim
  | «repeat» =>
    rw [ht] at k3
    simp only at k3 ⊢
    obtain ⟨l, hl, hy⟩ := k3
    have hlen := hlen ht
    have hne : c.bufs ≠ [] := List.ne_nil_of_mem hb
    have hpos : 0 < c.bufs.length := List.length_pos_iff.2 hne
    have hls : ∃ z, lastSlot g c.bufs = .ok z ∧ z.index = l := by
      unfold lastSlot
      rw [← hlen, List.getElem?_eq_getElem (by omega)]
      refine ⟨_, rfl, ?_⟩
      rw [List.getLast?_eq_getElem?, List.length_map, List.getElem?_map, List.getElem?_eq_getElem (by omega)] at hl
      exact Option.some.inj hl
    obtain ⟨z, hz, ez⟩ := hls
    have hlb := hbd l (List.mem_of_getLast? hl)
    rw [hz]
    simp only [ok_bind, ez]
    rw [i32_of_in (x := l) ⟨by omega, by omega⟩]
    by_cases c1 : c.loopFinishBlk < M + 1
    · rw [if_pos c1] at hy
      rw [if_pos c1]
      by_cases c2 : l = M
      · rw [if_pos c2] at hy
        rw [if_pos (by omega), ← hy, e2]; rfl
      · rw [if_neg c2] at hy
        rw [if_neg (by omega), ← hy, e2]; rfl
    · rw [if_neg c1] at hy
      rw [if_neg c1, ← hy, e2]; rfl

theorem reloadLoop_reloads {g : Geo} {rate : ℚ} (hr : 0 ≤ rate) {t : LoopType} {s f T : Int} (hT : (T + 1) * g.B ≤ 2147483647) :
    ∀ (d fuel : Nat) (c : Cache) (v v' : List Int), Reloads t s f T d v v' → c.bufs.map Buf.index = v → (∀ x ∈ v, 0 ≤ x ∧ x ≤ T) →
    (t = .repeat → v.length = g.N) → c.loopType = t → c.loopStartBlk = s → c.loopFinishBlk = f → d < v.length → d ≤ fuel →
    (∀ b ∈ c.bufs.take d, b.status = .unused) → (∀ b, c.bufs[d]? = some b → b.status ≠ .unused) →
    ∃ c', reloadLoop g rate fuel c = .ok c' ∧ c'.bufs.map Buf.index = v' ∧ c'.loopType = t ∧ c'.loopStartBlk = s ∧ c'.loopFinishBlk = f := by
  intro d fuel c v v' hs
  have hB : (0 : Int) < g.B := by exact_mod_cast g.B_pos
  induction hs generalizing fuel c with
  | zero v =>
    intro hix _ _ h1 h2 h3 hd _ _ hread
    refine ⟨c, ?_, hix, h1, h2, h3⟩
    cases hcb : c.bufs with
    | nil => cases fuel <;> (unfold reloadLoop; rw [hcb])
    | cons b rest =>
      have hu := hread b (by rw [hcb]; rfl)
      cases fuel <;> (unfold reloadLoop; rw [hcb]; simp only [hu, if_false])
  | @succ d x y xs v' hy hy0 hy1 hs ih =>
    intro hix hbd hlen h1 h2 h3 hd hfuel hun hread
    obtain ⟨fuel, rfl⟩ : ∃ f, fuel = f + 1 := ⟨fuel - 1, by omega⟩
    cases hcb : c.bufs with
    | nil => rw [hcb] at hix; cases hix
    | cons b rest =>
      have hbm : b ∈ c.bufs := by rw [hcb]; exact List.mem_cons_self
      have hix' := hix
      rw [hcb, List.map_cons] at hix'
      have hrest : rest.map Buf.index = xs := (List.cons.inj hix').2
      have hu := hun b (by rw [hcb, List.take_succ_cons]; exact List.mem_cons_self)
      have hdec := reloadDecide_nxt (g := g) hr (c := c) (T := T) (y := y) hT hbm
        (fun e => by rw [← List.length_map (f := Buf.index), hix]; exact hlen (h1.symm.trans e)) (by rw [hix]; exact hbd) (by rw [h1, h2, h3, hix]; exact hy) hy0 hy1
      have hT0 : 0 ≤ T := le_trans hy0 hy1
      have hT1 : T + 1 ≤ (T + 1) * g.B := le_mul_of_one_le_right (by omega) (by omega)
      have hidx : (loadBuffer g c.dev b (y * g.B)).1.index = y := by
        rw [loadBuffer_index, Int.mul_ediv_cancel _ (ne_of_gt hB), u32_of_in ⟨by omega, by omega⟩]
      unfold reloadLoop
      rw [hcb]
      simp only [hu, if_true, hdec, ok_bind]
      rw [if_neg (by decide)]
      have hrl : rest.length = xs.length := by rw [← hrest, List.length_map]
      rw [List.length_cons] at hd
      set c1 := reloadReorder (reloadLoad g c b rest (some (y * g.B))) .move with hc1
      have eb : c1.bufs = rest ++ [(loadBuffer g c.dev b (y * g.B)).1] := rfl
      refine ih fuel c1 (by rw [eb, List.map_append, hrest, List.map_cons, List.map_nil, hidx]) ?_ ?_ h1 h2 h3 ?_ (by omega) ?_ ?_
      · intro z hz
        rcases List.mem_append.1 hz with hz | hz
        · exact hbd z (List.mem_cons_of_mem _ hz)
        · rw [List.mem_singleton.1 hz]; exact ⟨hy0, hy1⟩
      · intro e
        have := hlen e
        rw [List.length_cons] at this
        rw [List.length_append, List.length_cons, List.length_nil]; omega
      · rw [List.length_append, List.length_cons, List.length_nil]; omega
      · rw [eb, List.take_append_of_le_length (by omega)]
        intro z hz
        exact hun z (by rw [hcb, List.take_succ_cons]; exact List.mem_cons_of_mem _ hz)
      · rw [eb, List.getElem?_append_left (by omega)]
        intro z hz
        exact hread z (by rw [hcb, List.getElem?_cons_succ]; exact hz)

/-- A vector holding the blocks `v`, all of them loaded. -/
structure VWin (m : List Nat) (g : Geo) (t : LoopType) (s f : Int) (c : Cache) (v : List Int) : Prop where
  reached : Reached m g c
  loaded : AllLoaded c
  ix : c.bufs.map Buf.index = v
  loop : c.loopType = t
  ls : c.loopStartBlk = s
  lf : c.loopFinishBlk = f

theorem VWin.buffered {m : List Nat} {g : Geo} (hB : g.B < 16384) {t : LoopType} {s f : Int} {c : Cache} {v : List Int} (h : VWin m g t s f c v) {i : Int}
    (hi : InFile m i) (hv : i / g.B ∈ v) : Buffered g c i := by
  rw [← h.ix] at hv
  obtain ⟨b, hb, e⟩ := List.mem_map.1 hv
  exact ⟨b, hb, e, index_size hB h.reached hb hi e⟩

theorem idxOf_sorted : ∀ {v : List Int}, v.Nodup → v.Pairwise fun x y => (v.idxOf x : Int) < v.idxOf y := by
  intro v hv
  rw [List.pairwise_iff_getElem]
  intro i j hi hj hij
  rw [hv.idxOf_getElem i hi, hv.idxOf_getElem j hj]
  exact_mod_cast hij

/-- One update and the reload after it: the first block read, in the order of the vector, is the `d`-th. -/
theorem VWin.round {m : List Nat} {g : Geo} (hB : g.B < 16384) (hm : m.length < 4294967296) {t : LoopType} {s f T : Int} (hT : (T + 1) * g.B ≤ 2147483647)
    {c : Cache} {v v' : List Int} (h : VWin m g t s f c v) (hnd : v.Nodup) (hbd : ∀ x ∈ v, 0 ≤ x ∧ x ≤ T) (hlen : t = .repeat → v.length = g.N) (ht : t ≠ .pingpong)
    {d : Nat} (hs : Reloads t s f T d v v') {is : List Int} (hin : ∀ i ∈ is, InFile m i ∧ i / g.B ∈ v.drop d) (hlo : ∃ i ∈ is, v[d]? = some (i / g.B))
    {fuel : Nat} (hfu : g.N ≤ fuel) {rate : ℚ} (hr : 0 ≤ rate) :
    ∃ c', (c.gets g is).2.triggerReload g fuel rate = .ok c' ∧ VWin m g t s f c' v' := by
  have hbuf : ∀ i ∈ is, ∃ b ∈ c.bufs, b.index = i / g.B ∧ 0 < b.size := fun i hi => h.buffered hB (hin i hi).1 (List.mem_of_mem_drop (hin i hi).2)
  obtain ⟨i0, hi0, ei0⟩ := hlo
  have hd : d < v.length := by
    by_contra hcon
    rw [List.getElem?_eq_none (by omega)] at ei0
    cases ei0
  have hvd : v[d] = i0 / g.B := by rw [List.getElem?_eq_getElem hd] at ei0; exact Option.some.inj ei0
  have hst := gets_status g (fun x => (v.idxOf x : Int)) (i0 / g.B) is c h.loaded (by rw [h.ix]; exact idxOf_sorted hnd)
    (fun i hi => by
      rw [(inFile_block (g := g) hm (hin i hi).1).1]
      refine ⟨?_, hbuf i hi⟩
      obtain ⟨j, hj, e⟩ := List.mem_iff_getElem.1 (hin i hi).2
      rw [List.length_drop] at hj
      rw [List.getElem_drop] at e
      rw [← e, ← hvd, hnd.idxOf_getElem, hnd.idxOf_getElem]
      omega)
    ⟨i0, hi0, by rw [(inFile_block (g := g) hm (hin i0 hi0).1).1]⟩
  obtain ⟨_, hsame, _⟩ := C15_read_only g is c
  set c0 := (c.gets g is).2 with hc0
  have hix : c0.bufs.map Buf.index = v := by rw [index_of_core hsame.2.1]; exact h.ix
  have hl0 : c0.bufs.length = v.length := by rw [← hix, List.length_map]
  have hidx : ∀ k (hk : k < c0.bufs.length), (c0.bufs[k]).index = v[k]'(by omega) := by
    intro k hk
    simp only [← hix, List.getElem_map]
  have hvN : v.length ≤ g.N := by
    have := h.reached.len
    rwa [← List.length_map (f := Buf.index), h.ix] at this
  obtain ⟨c1, k1, k2, k3, k4, k5⟩ := reloadLoop_reloads (g := g) hr hT d fuel c0 v v' hs hix hbd hlen (hsame.2.2.2.1.trans h.loop)
    (hsame.2.2.2.2.1.trans h.ls) (hsame.2.2.2.2.2.trans h.lf) hd (by omega)
    (fun b hb => by
      obtain ⟨k, hk, e⟩ := List.mem_iff_getElem.1 hb
      rw [List.length_take] at hk
      rw [List.getElem_take] at e
      refine (hst b (List.mem_of_mem_take hb)).1 ?_
      rw [← e, hidx, ← hvd, hnd.idxOf_getElem, hnd.idxOf_getElem]
      omega)
    (fun b hb => by
      rw [List.getElem?_eq_getElem (by omega)] at hb
      have e := Option.some.inj hb
      rw [(hst b (by rw [← e]; exact List.getElem_mem _)).2 (by rw [← e, hidx, hvd])]
      decide)
  have hrr : reloadRate c0 rate = rate := by
    unfold reloadRate
    rw [if_neg]
    rintro ⟨e, _⟩
    exact ht ((hsame.2.2.2.1.trans h.loop).symm.trans e)
  have hrun : ∃ c', c0.triggerReload g fuel rate = .ok c' ∧ c'.bufs = c1.resetStatus.bufs ∧ c'.loopType = c1.loopType ∧
      c'.loopStartBlk = c1.loopStartBlk ∧ c'.loopFinishBlk = c1.loopFinishBlk := by
    unfold Cache.triggerReload
    rw [hrr, k1]
    simp only [ok_bind]
    refine ⟨_, rfl, ?_, ?_, ?_, ?_⟩ <;> (split <;> rfl)
  obtain ⟨c', e1, e2, e3, e4, e5⟩ := hrun
  refine ⟨c', e1, (Reached.gets hm is h.reached).step hm (.reload fuel rate) e1, ?_, ?_, e3.trans k3, e4.trans k4, e5.trans k5⟩
  · intro b hb
    rw [e2] at hb
    obtain ⟨b0, _, rfl⟩ := List.mem_map.1 hb
    rfl
  · rw [e2, index_of_core (resetStatus_core c1)]; exact k2

/-! ## Blocks ahead, with others in between -/

/-- The blocks from `w` on, with others after the first `p1`. -/
def hole (w : Int) (p1 : Nat) (J : List Int) (p2 : Nat) : List Int := up w p1 ++ (J ++ up (w + p1) p2)

theorem up_length (a : Int) (L : Nat) : (up a L).length = L := by unfold up; simp

theorem hole_length (w : Int) (p1 : Nat) (J : List Int) (p2 : Nat) : (hole w p1 J p2).length = p1 + (J.length + p2) := by
  unfold hole; rw [List.length_append, List.length_append, up_length, up_length]

theorem mem_hole {w x : Int} {p1 p2 : Nat} {J : List Int} : x ∈ hole w p1 J p2 ↔ (w ≤ x ∧ x < w + (p1 + p2)) ∨ x ∈ J := by
  unfold hole
  rw [List.mem_append, List.mem_append, mem_up, mem_up]
  constructor
  · rintro (h | h | h)
    · left; omega
    · right; exact h
    · left; omega
  · rintro (h | h)
    · by_cases hx : x < w + p1
      · left; omega
      · right; right; omega
    · right; left; exact h

theorem up_nodup (a : Int) (L : Nat) : (up a L).Nodup := (up_sorted a L).imp fun h => ne_of_lt h

theorem hole_nodup {w : Int} {p1 p2 : Nat} {J : List Int} (hJ : J.Nodup) (hlt : ∀ j ∈ J, j < w) : (hole w p1 J p2).Nodup := by
  unfold hole
  rw [List.nodup_append', List.nodup_append']
  refine ⟨up_nodup _ _, ⟨hJ, up_nodup _ _, ?_⟩, ?_⟩
  · intro x hx hx'
    rw [mem_up] at hx'
    have := hlt x hx
    omega
  · intro x hx hx'
    rw [mem_up] at hx
    rcases List.mem_append.1 hx' with h | h
    · have := hlt x h; omega
    · rw [mem_up] at h; omega

/-- Loading the next block, the first of the vector being one of those ahead. -/
theorem hole_step {s f T w : Int} {p1 p2 : Nat} {J v' : List Int} {d : Nat} (hlt : ∀ j ∈ J, j < w) (h0 : 0 ≤ w) (hT : w + (p1 + 1 + p2) ≤ T)
    (h : Reloads .none s f T d (hole (w + 1) p1 J (p2 + 1)) v') : Reloads .none s f T (d + 1) (hole w (p1 + 1) J p2) v' := by
  have e : hole w (p1 + 1) J p2 = w :: (up (w + 1) p1 ++ (J ++ up (w + (p1 + 1 : Nat)) p2)) := by unfold hole; rw [up_succ]; rfl
  have e2 : (up (w + 1) p1 ++ (J ++ up (w + (p1 + 1 : Nat)) p2)) ++ [w + (p1 + 1 + p2)] = hole (w + 1) p1 J (p2 + 1) := by
    unfold hole
    rw [up_snoc, List.append_assoc, List.append_assoc, show w + ((p1 + 1 : Nat) : Int) = w + 1 + p1 by push_cast; ring,
      show w + ((p1 : Int) + 1 + p2) = w + 1 + p1 + p2 by ring]
  rw [e]
  refine .succ (y := w + (p1 + 1 + p2)) ⟨w + (p1 + 1 + p2) - 1, ?_, ?_, by simp only; ring⟩ (by omega) hT (by rw [e2]; exact h)
  · intro x hx
    rw [← e, mem_hole] at hx
    rcases hx with hx | hx
    · push_cast at hx; omega
    · have := hlt x hx; omega
  · rw [← e, mem_hole]; left; push_cast; omega

/-- Loading the next block, the first of the vector being one of the others. -/
theorem hole_drop {s f T w j : Int} {p2 : Nat} {J v' : List Int} {d : Nat} (hlt : ∀ x ∈ j :: J, x < w) (h0 : 0 ≤ w) (hp : 0 < p2) (hT : w + p2 ≤ T)
    (h : Reloads .none s f T d (hole w 0 J (p2 + 1)) v') : Reloads .none s f T (d + 1) (hole w 0 (j :: J) p2) v' := by
  have e : hole w 0 (j :: J) p2 = j :: (J ++ up w p2) := by unfold hole; simp [up]
  have e2 : (J ++ up w p2) ++ [w + p2] = hole w 0 J (p2 + 1) := by
    unfold hole
    rw [up_snoc, List.append_assoc]; simp [up]
  rw [e]
  refine .succ (y := w + p2) ⟨w + p2 - 1, ?_, ?_, by simp only; ring⟩ (by omega) hT (by rw [e2]; exact h)
  · intro x hx
    rw [← e, mem_hole] at hx
    rcases hx with hx | hx
    · push_cast at hx; omega
    · have := hlt x hx; omega
  · rw [← e, mem_hole]; left; push_cast; omega

/-- Without others in between. -/
theorem hole_plain {s f T w : Int} {p2 : Nat} {v' : List Int} {d : Nat} (h0 : 0 ≤ w) (hp : 0 < p2) (hT : w + p2 ≤ T)
    (h : Reloads .none s f T d (hole (w + 1) 0 [] p2) v') : Reloads .none s f T (d + 1) (hole w 0 [] p2) v' := by
  obtain ⟨p, rfl⟩ : ∃ p, p2 = p + 1 := ⟨p2 - 1, by omega⟩
  have e : ∀ a n, hole a 0 [] n = up a n := fun a n => by unfold hole; simp [up]
  have e' : hole w 0 [] (p + 1) = hole w (p + 1) [] 0 := by unfold hole; simp [up]
  rw [e']
  refine hole_step (by simp) h0 (by push_cast at hT ⊢; omega) ?_
  have : hole (w + 1) p [] (0 + 1) = hole (w + 1) 0 [] (p + 1) := by
    unfold hole
    simp only [List.nil_append, Nat.zero_add]
    rw [show up (w + 1 + (p : Int)) 1 = [w + 1 + (p : Int)] by simp [up], ← up_snoc]
    simp [up]
  rw [this]; exact h

theorem hole_ahead {s f T : Int} {J : List Int} : ∀ (b : Nat) {w : Int} {p1 p2 : Nat}, b ≤ p1 → (∀ j ∈ J, j < w) → 0 ≤ w → w + b + (p1 + p2) ≤ T + 1 →
    Reloads .none s f T b (hole w p1 J p2) (hole (w + b) (p1 - b) J (p2 + b))
  | 0, w, p1, p2, _, _, _, _ => by simpa using Reloads.zero _
  | b + 1, w, p1, p2, hb, hlt, h0, hT => by
    obtain ⟨p, rfl⟩ : ∃ p, p1 = p + 1 := ⟨p1 - 1, by omega⟩
    push_cast at hT
    refine hole_step hlt h0 (by omega) ?_
    have := hole_ahead (s := s) (f := f) (T := T) (J := J) b (w := w + 1) (p1 := p) (p2 := p2 + 1) (by omega) (fun j hj => by have := hlt j hj; omega) (by omega) (by push_cast; omega)
    rw [show w + ((b + 1 : Nat) : Int) = w + 1 + b by push_cast; ring, show p + 1 - (b + 1) = p - b by omega, show p2 + (b + 1) = p2 + 1 + b by omega]
    exact this

theorem hole_flush {s f T w : Int} : ∀ (J : List Int) {p2 : Nat}, (∀ j ∈ J, j < w) → 0 ≤ w → 0 < p2 → w + (p2 + J.length) ≤ T + 1 →
    Reloads .none s f T J.length (hole w 0 J p2) (hole w 0 [] (p2 + J.length))
  | [], p2, _, _, _, _ => Reloads.zero _
  | j :: J, p2, hlt, h0, hp, hT => by
    rw [List.length_cons] at hT ⊢
    push_cast at hT
    refine hole_drop hlt h0 hp (by omega) ?_
    have := hole_flush (s := s) (f := f) (T := T) (w := w) J (p2 := p2 + 1) (fun x hx => hlt x (List.mem_cons_of_mem _ hx)) h0 (by omega) (by push_cast; omega)
    rw [show p2 + (J.length + 1) = p2 + 1 + J.length by omega]
    exact this

theorem hole_on {s f T : Int} {p2 : Nat} (hp : 0 < p2) : ∀ (b : Nat) {w : Int}, 0 ≤ w → w + b + p2 ≤ T + 1 → Reloads .none s f T b (hole w 0 [] p2) (hole (w + b) 0 [] p2)
  | 0, w, _, _ => by simpa using Reloads.zero _
  | b + 1, w, h0, hT => by
    push_cast at hT
    refine hole_plain h0 hp (by omega) ?_
    have := hole_on (s := s) (f := f) (T := T) hp b (w := w + 1) (by omega) (by omega)
    rw [show w + ((b + 1 : Nat) : Int) = w + 1 + b by push_cast; ring]
    exact this

/-- The cache while streaming forwards without a loop: at least `K` blocks from `w` on, possibly with earlier ones in between. -/
def HWin (m : List Nat) (g : Geo) (K : Int) (c : Cache) (w : Int) : Prop :=
  ∃ s f p1 J p2, VWin m g .none s f c (hole w p1 J p2) ∧ J.Nodup ∧ (∀ j ∈ J, 0 ≤ j ∧ j < w) ∧ 0 ≤ w ∧ K ≤ ((p1 + p2 : Nat) : Int)

theorem HWin.buffered {m : List Nat} {g : Geo} (hB : g.B < 16384) {K : Int} {c : Cache} {w : Int} (h : HWin m g K c w) {i : Int} (hi : InFile m i)
    (h1 : w ≤ i / g.B) (h2 : i / g.B < w + K) : Buffered g c i := by
  obtain ⟨s, f, p1, J, p2, hv, _, _, _, hK⟩ := h
  exact hv.buffered hB hi (mem_hole.2 (Or.inl ⟨h1, by push_cast at hK; omega⟩))

theorem HWin.reached {m : List Nat} {g : Geo} {K : Int} {c : Cache} {w : Int} (h : HWin m g K c w) : Reached m g c := by
  obtain ⟨s, f, p1, J, p2, hv, _⟩ := h
  exact hv.reached

theorem HWin.round {m : List Nat} {g : Geo} (hB : g.B < 16384) (hm : m.length < 4294967296) (hfit : (m.length : Int) / 2 + g.N * g.B ≤ 2147483647)
    {K : Int} {c : Cache} {w : Int} (h : HWin m g K c w) {is : List Int} {lo : Int} (hw : w ≤ lo)
    (hin : ∀ i ∈ is, InFile m i ∧ lo ≤ i / g.B ∧ i / g.B < w + K) (hlo : ∃ i ∈ is, i / g.B = lo) {fuel : Nat} (hfu : g.N ≤ fuel) {rate : ℚ} (hr : 0 ≤ rate) :
    ∃ c', (c.gets g is).2.triggerReload g fuel rate = .ok c' ∧ HWin m g K c' lo := by
  have hB0 : (0 : Int) < g.B := by exact_mod_cast g.B_pos
  obtain ⟨s, f, p1, J, p2, hv, hJ, hlt, h0, hK⟩ := h
  obtain ⟨i0, hi0, e0⟩ := hlo
  obtain ⟨b, hb⟩ : ∃ b : Nat, lo = w + b := ⟨(lo - w).toNat, by omega⟩
  have hin0 := hin i0 hi0
  have hN : p1 + (J.length + p2) ≤ g.N := by
    have := hv.reached.len
    rwa [← List.length_map (f := Buf.index), hv.ix, hole_length] at this
  push_cast at hK
  have hbK : b < p1 + p2 := by omega
  obtain ⟨T, hTd⟩ : ∃ T : Int, T = lo + g.N - 1 := ⟨_, rfl⟩
  have hT : (T + 1) * g.B ≤ 2147483647 := by
    have h3 := (inFile_block (g := g) hm hin0.1).2.2
    have h4 := hin0.1.2
    rw [e0] at h3
    rw [hTd, show lo + (g.N : Int) - 1 + 1 = lo + g.N by ring, add_mul]
    omega
  have hbd : ∀ x ∈ hole w p1 J p2, 0 ≤ x ∧ x ≤ T := by
    intro x hx
    rcases mem_hole.1 hx with h | h
    · omega
    · have := hlt x h; omega
  have hJl : ∀ j ∈ J, j < w := fun j hj => (hlt j hj).2
  by_cases hc : b < p1
  · -- the first block read lies before the others
    obtain ⟨c', k1, k2⟩ := hv.round hB hm hT (hole_nodup hJ hJl) hbd (by intro h; cases h) (by decide)
      (hole_ahead (s := s) (f := f) (T := T) b (le_of_lt hc) hJl h0 (by omega)) (is := is)
      (fun i hi => by
        obtain ⟨f1, f2, f3⟩ := hin i hi
        refine ⟨f1, ?_⟩
        unfold hole
        rw [List.drop_append_of_le_length (by rw [up_length]; omega)]
        by_cases hi' : i / g.B < w + p1
        · refine List.mem_append_left _ ?_
          rw [List.mem_iff_getElem]
          refine ⟨(i / g.B - lo).toNat, by rw [List.length_drop, up_length]; omega, ?_⟩
          rw [List.getElem_drop]
          simp only [up, List.getElem_map, List.getElem_range]
          push_cast
          omega
        · exact List.mem_append_right _ (List.mem_append_right _ (mem_up.2 ⟨by omega, by omega⟩)))
      ⟨i0, hi0, by
        unfold hole
        rw [List.getElem?_append_left (by rw [up_length]; exact hc)]
        simp [up, hc, e0, hb]⟩ hfu hr
    refine ⟨c', k1, s, f, p1 - b, J, p2 + b, by rw [hb]; exact k2, hJ, fun j hj => ⟨(hlt j hj).1, by have := hJl j hj; omega⟩, by omega, by push_cast; omega⟩
  · -- it lies behind them
    have hp : 0 < p2 + p1 := by omega
    have st1 := hole_ahead (s := s) (f := f) (T := T) (J := J) p1 (p2 := p2) (le_refl _) hJl h0 (by omega)
    rw [Nat.sub_self] at st1
    have st2 := hole_flush (s := s) (f := f) (T := T) (w := w + p1) J (p2 := p2 + p1) (fun j hj => by have := hJl j hj; omega) (by omega) hp (by push_cast; omega)
    have st3 := hole_on (s := s) (f := f) (T := T) (p2 := p2 + p1 + J.length) (by omega) (b - p1) (w := w + p1) (by omega) (by push_cast; omega)
    obtain ⟨c', k1, k2⟩ := hv.round hB hm hT (hole_nodup hJ hJl) hbd (by intro h; cases h) (by decide) ((st1.trans st2).trans st3) (is := is)
      (fun i hi => by
        obtain ⟨f1, f2, f3⟩ := hin i hi
        refine ⟨f1, ?_⟩
        unfold hole
        rw [← List.append_assoc, List.drop_append, List.length_append, up_length,
          show p1 + J.length + (b - p1) - (p1 + J.length) = b - p1 by omega]
        refine List.mem_append_right _ ?_
        rw [List.mem_iff_getElem]
        refine ⟨(i / g.B - lo).toNat, by rw [List.length_drop, up_length]; omega, ?_⟩
        rw [List.getElem_drop]
        simp only [up, List.getElem_map, List.getElem_range]
        push_cast
        omega)
      ⟨i0, hi0, by
        unfold hole
        rw [← List.append_assoc, List.getElem?_append_right (by rw [List.length_append, up_length]; omega), List.length_append, up_length,
          show p1 + J.length + (b - p1) - (p1 + J.length) = b - p1 by omega, List.getElem?_eq_getElem (by rw [up_length]; omega)]
        simp only [up, List.getElem_map, List.getElem_range]
        congr 1
        omega⟩ hfu hr
    refine ⟨c', k1, s, f, 0, [], p2 + p1 + J.length, ?_, List.nodup_nil, (by simp), by omega, by push_cast; omega⟩
    rw [show lo = w + p1 + ((b - p1 : Nat) : Int) by omega]
    exact k2

end TVP
