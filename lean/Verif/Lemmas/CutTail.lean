import Verif.Lemmas.Late
import Verif.Lemmas.Faulty
import Verif.Lemmas.Anything

/-!
# Blocks that begin behind the end of the file
-/

namespace TVP
open Spec

variable {m : List Nat} {g : Geo}

/-! ## The order in which blocks are loaded -/

/-- The block loaded after block `K`. -/
def nextBlk (g : Geo) (K : Int) : Int := u32 (i32 (i32 (K + 1) * g.B) / g.B)

/-- Where it is read. -/
def nextAt (g : Geo) (K : Int) : Int := u32 (2 * g.B * (K + 1))

/-- The numbers blocks get. -/
def BlkNum (g : Geo) (k : Int) : Prop := (0 ≤ k ∧ k * g.B < 2147483648) ∨ (4294967296 * g.B - 2147483648 ≤ k * g.B ∧ k < 4294967296)

/-- Block numbers in the order of loading: ascending, starting again from 0 behind the last one. -/
def InQueue (g : Geo) (l : List Int) : Prop :=
  ∃ u z, l = u ++ List.replicate z 0 ∧ u.Pairwise (· ≤ ·) ∧ (∀ k ∈ u, BlkNum g k) ∧ (z = 0 ∨ u = [] ∨ 4294967295 ∈ u)

theorem B_cofactor (hB : g.B < 16384) : ∃ C : Int, (g.B : Int) * C = 2147483648 ∧ 1 ≤ C := by
  have h14 : g.shift < 14 := by
    by_contra hc
    have : 2 ^ 14 ≤ 2 ^ g.shift := Nat.pow_le_pow_right (by norm_num) (by omega)
    have e : g.B = 2 ^ g.shift := rfl
    omega
  refine ⟨2 ^ (31 - g.shift), ?_, one_le_pow₀ (by norm_num)⟩
  have e : (g.B : Int) = 2 ^ g.shift := by unfold Geo.B; push_cast; rfl
  rw [e, ← pow_add, show g.shift + (31 - g.shift) = 31 by omega]
  norm_num

theorem BlkNum.cases {k C : Int} (hC : (g.B : Int) * C = 2147483648) (h : BlkNum g k) : (0 ≤ k ∧ k < C) ∨ (4294967296 - C ≤ k ∧ k < 4294967296) := by
  have hB0 : (0 : Int) < g.B := by exact_mod_cast g.B_pos
  rcases h with ⟨h1, h2⟩ | ⟨h1, h2⟩
  · left; refine ⟨h1, ?_⟩; by_contra hc; nlinarith
  · right; refine ⟨?_, h2⟩; by_contra hc; nlinarith

theorem BlkNum.of {k C : Int} (hC : (g.B : Int) * C = 2147483648) (h : (0 ≤ k ∧ k < C) ∨ (4294967296 - C ≤ k ∧ k < 4294967296)) : BlkNum g k := by
  have hB0 : (0 : Int) < g.B := by exact_mod_cast g.B_pos
  rcases h with ⟨h1, h2⟩ | ⟨h1, h2⟩
  · left; exact ⟨h1, by nlinarith⟩
  · right; exact ⟨by nlinarith, h2⟩

/-- What comes after block `K`. -/
theorem nextBlk_cases (hB : g.B < 16384) {K : Int} (h : BlkNum g K) :
    (K = 4294967295 ∧ nextBlk g K = 0) ∨ (K ≠ 4294967295 ∧ K + 1 ≤ nextBlk g K ∧ BlkNum g (nextBlk g K)) := by
  have hB0 : (0 : Int) < g.B := by exact_mod_cast g.B_pos
  obtain ⟨C, hC, hC1⟩ := B_cofactor hB
  have hCle : C ≤ 2147483648 := by nlinarith
  unfold nextBlk
  rcases h.cases hC with ⟨h1, h2⟩ | ⟨h1, h2⟩
  · right
    refine ⟨by omega, ?_⟩
    rcases lt_or_ge (K + 1) C with h3 | h3
    · have e1 : (K + 1) * g.B < 2147483648 := by nlinarith
      have e0 : 0 ≤ (K + 1) * g.B := mul_nonneg (by omega) (le_of_lt hB0)
      rw [i32_of_in (x := K + 1) ⟨by omega, by omega⟩, i32_of_in (x := (K + 1) * g.B) ⟨by omega, by omega⟩, Int.mul_ediv_cancel _ (by omega),
        u32_of_in ⟨by omega, by omega⟩]
      exact ⟨le_refl _, .of hC (Or.inl ⟨by omega, h3⟩)⟩
    · have hK : K + 1 = C := by omega
      rw [hK]
      have e1 : i32 (i32 C * g.B) = -2147483648 := by
        rcases eq_or_lt_of_le hCle with e | e
        · have hb1 : (g.B : Int) = 1 := by nlinarith
          rw [hb1, e]; decide
        · rw [i32_of_in (x := C) ⟨by omega, by omega⟩, mul_comm, hC]; decide
      have e2 : (-2147483648 : Int) / g.B = -C := by
        rw [show (-2147483648 : Int) = -C * g.B by nlinarith, Int.mul_ediv_cancel _ (by omega)]
      rw [e1, e2]
      have e3 : u32 (-C) = 4294967296 - C := by unfold u32; omega
      rw [e3]
      exact ⟨by omega, .of hC (Or.inr ⟨by omega, by omega⟩)⟩
  · obtain ⟨j, hj⟩ : ∃ j, j = 4294967296 - (K + 1) := ⟨_, rfl⟩
    have e1 : i32 (K + 1) = -j := by unfold i32; omega
    have e2 : 0 ≤ j * g.B := mul_nonneg (by omega) (le_of_lt hB0)
    have e3 : j * g.B ≤ 2147483648 := by nlinarith
    have e4 : -j * (g.B : Int) = -(j * g.B) := by ring
    rw [e1, i32_of_in (x := -j * (g.B : Int)) ⟨by omega, by omega⟩, Int.mul_ediv_cancel _ (by omega)]
    by_cases hj0 : j = 0
    · left; subst hj0; exact ⟨by omega, by decide⟩
    · right
      have e5 : u32 (-j) = K + 1 := by unfold u32; omega
      rw [e5]
      exact ⟨by omega, le_refl _, .of hC (Or.inr ⟨by omega, by omega⟩)⟩

/-- Where the block after `K` is read. -/
theorem nextBlk_at (hB : g.B < 16384) {K : Int} :
    u32 (2 * u32 (i32 (i32 (K + 1) * g.B) - i32 (i32 (K + 1) * g.B) % g.B)) = nextAt g K ∧ u32 (2 * g.B * nextBlk g K) = nextAt g K := by
  have hB0 : (0 : Int) < g.B := by exact_mod_cast g.B_pos
  obtain ⟨C, hC, hC1⟩ := B_cofactor hB
  unfold nextBlk nextAt
  obtain ⟨q, hq⟩ : ∃ q, i32 (K + 1) = K + 1 + 4294967296 * q := ⟨-((K + 1 + 2147483648) / 4294967296), by unfold i32; omega⟩
  obtain ⟨q2, hq2⟩ : ∃ q2, i32 (i32 (K + 1) * g.B) = i32 (K + 1) * g.B + 4294967296 * q2 := ⟨-((i32 (K + 1) * g.B + 2147483648) / 4294967296), by unfold i32; omega⟩
  have hx : i32 (i32 (K + 1) * g.B) = (K + 1 + 4294967296 * q + 2 * C * q2) * g.B := by
    rw [hq2, hq]; linear_combination (2 * q2) * (-hC)
  rw [hx, Int.mul_emod_left, sub_zero, Int.mul_ediv_cancel _ (by omega)]
  constructor
  · have e1 : ∀ x, u32 (2 * u32 x) = u32 (2 * x) := by intro x; unfold u32; omega
    rw [e1]
    have : 2 * ((K + 1 + 4294967296 * q + 2 * C * q2) * (g.B : Int)) = 2 * g.B * (K + 1) + 4294967296 * (2 * g.B * q + 2 * q2) := by
      linear_combination (4 * q2) * hC
    rw [this]; unfold u32; rw [Int.add_mul_emod_self_left]
  · obtain ⟨q3, hq3⟩ : ∃ q3, u32 (K + 1 + 4294967296 * q + 2 * C * q2) = K + 1 + 4294967296 * q + 2 * C * q2 + 4294967296 * q3 :=
      ⟨-((K + 1 + 4294967296 * q + 2 * C * q2) / 4294967296), by unfold u32; omega⟩
    rw [hq3]
    have : 2 * (g.B : Int) * (K + 1 + 4294967296 * q + 2 * C * q2 + 4294967296 * q3) = 2 * g.B * (K + 1) + 4294967296 * (2 * g.B * q + 2 * q2 + 2 * g.B * q3) := by
      linear_combination (4 * q2) * hC
    rw [this]; unfold u32; rw [Int.add_mul_emod_self_left]

/-- Loading the next block in place of the oldest. -/
theorem InQueue.step (hB : g.B < 16384) {x : Int} {t : List Int} {K : Int} (h : InQueue g (x :: t)) (hK : K ∈ x :: t) (hle : ∀ k ∈ x :: t, k ≤ K) :
    InQueue g (t ++ [nextBlk g K]) ∧ ((∀ k ∈ t ++ [nextBlk g K], k ≤ nextBlk g K) ∨ 4294967295 ∈ t ++ [nextBlk g K]) ∧
      ∀ k ∈ t ++ [nextBlk g K], k ≤ 4294967295 := by
  have hzero : BlkNum g 0 := Or.inl ⟨le_refl _, by simp⟩
  -- ascending
  have asc : ∀ l : List Int, l.Pairwise (· ≤ ·) → (∀ k ∈ l, BlkNum g k) → ∀ x t, l = x :: t → K ∈ l → (∀ k ∈ l, k ≤ K) →
      InQueue g (t ++ [nextBlk g K]) ∧ ((∀ k ∈ t ++ [nextBlk g K], k ≤ nextBlk g K) ∨ 4294967295 ∈ t ++ [nextBlk g K]) ∧
      ∀ k ∈ t ++ [nextBlk g K], k ≤ 4294967295 := by
    rintro l hs hv x t rfl hK hle
    have hlast : t = [] ∨ K ∈ t := by
      rcases List.mem_cons.1 hK with rfl | h
      · rcases t with _ | ⟨y, t⟩
        · exact Or.inl rfl
        · right
          have h1 := (List.pairwise_cons.1 hs).1 y List.mem_cons_self
          have h2 := hle y (List.mem_cons_of_mem _ List.mem_cons_self)
          have : K = y := by omega
          rw [this]; exact List.mem_cons_self
      · exact Or.inr h
    have hs' := (List.pairwise_cons.1 hs).2
    have hv' : ∀ k ∈ t, BlkNum g k := fun k hk => hv k (List.mem_cons_of_mem _ hk)
    have hle' : ∀ k ∈ t, k ≤ K := fun k hk => hle k (List.mem_cons_of_mem _ hk)
    have hmax : ∀ k, BlkNum g k → k ≤ 4294967295 := by
      obtain ⟨C, hC, hC1⟩ := B_cofactor hB
      have hB0 : (0 : Int) < g.B := by exact_mod_cast g.B_pos
      have hCle : C ≤ 2147483648 := by nlinarith
      intro k hk
      rcases hk.cases hC with ⟨h1, h2⟩ | ⟨h1, h2⟩ <;> omega
    rcases nextBlk_cases hB (hv K hK) with ⟨e1, e2⟩ | ⟨e1, e2, e3⟩
    · rw [e2]
      refine ⟨⟨t, 1, rfl, hs', hv', ?_⟩, ?_, ?_⟩
      · rcases hlast with h | h
        · exact Or.inr (Or.inl h)
        · right; right; rw [← e1]; exact h
      · rcases hlast with h | h
        · left; subst h; intro k hk; simp at hk; omega
        · right; rw [← e1]; exact List.mem_append_left _ h
      · intro k hk
        rcases List.mem_append.1 hk with h | h
        · exact hmax k (hv' k h)
        · rw [List.mem_singleton.1 h]; decide
    · refine ⟨⟨t ++ [nextBlk g K], 0, by simp, ?_, ?_, Or.inl rfl⟩, Or.inl ?_, ?_⟩
      · rw [List.pairwise_append]
        refine ⟨hs', List.pairwise_singleton _ _, fun a ha b hb => ?_⟩
        rw [List.mem_singleton.1 hb]; have := hle' a ha; omega
      · intro k hk
        rcases List.mem_append.1 hk with h | h
        · exact hv' k h
        · rw [List.mem_singleton.1 h]; exact e3
      · intro k hk
        rcases List.mem_append.1 hk with h | h
        · have := hle' k h; omega
        · rw [List.mem_singleton.1 h]
      · intro k hk
        rcases List.mem_append.1 hk with h | h
        · exact hmax k (hv' k h)
        · rw [List.mem_singleton.1 h]; exact hmax _ e3
  obtain ⟨u, z, hl, hs, hv, hz⟩ := h
  rcases Nat.eq_zero_or_pos z with rfl | hz0
  · rw [List.replicate_zero, List.append_nil] at hl
    rw [hl] at hK hle
    exact asc u hs hv x t hl.symm hK hle
  · rcases u with _ | ⟨y, u⟩
    · rw [List.nil_append] at hl
      refine asc (x :: t) ?_ ?_ x t rfl hK hle
      · rw [hl]; exact List.pairwise_replicate.2 (Or.inr (le_refl _))
      · intro k hk; rw [hl] at hk; rw [(List.mem_replicate.1 hk).2]; exact hzero
    · have hbig : 4294967295 ∈ y :: u := by
        rcases hz with h | h | h
        · omega
        · cases h
        · exact h
      obtain ⟨C, hC, hC1⟩ := B_cofactor hB
      have hB0 : (0 : Int) < g.B := by exact_mod_cast g.B_pos
      have hCle : C ≤ 2147483648 := by nlinarith
      have hmax : ∀ k, BlkNum g k → k ≤ 4294967295 := by
        intro k hk
        rcases hk.cases hC with ⟨h1, h2⟩ | ⟨h1, h2⟩ <;> omega
      rw [List.cons_append, List.cons.injEq] at hl
      obtain ⟨rfl, rfl⟩ := hl
      have h1 := hle _ (by rw [← List.cons_append]; exact List.mem_append_left _ hbig)
      have hKv : BlkNum g K := by
        rw [← List.cons_append] at hK
        rcases List.mem_append.1 hK with h | h
        · exact hv K h
        · rw [(List.mem_replicate.1 h).2]; exact hzero
      have h2 := hmax K hKv
      have hK' : K = 4294967295 := by omega
      have e2 : nextBlk g K = 0 := by
        rcases nextBlk_cases hB hKv with ⟨_, e⟩ | ⟨e, _⟩
        · exact e
        · exact absurd hK' e
      rw [e2, List.append_assoc, ← List.replicate_succ']
      have hu : u = [] ∨ 4294967295 ∈ u := by
        rcases List.mem_cons.1 hbig with h | h
        · rcases u with _ | ⟨w, u⟩
          · exact Or.inl rfl
          · right
            have h3 := (List.pairwise_cons.1 hs).1 w List.mem_cons_self
            have h4 := hmax w (hv w (List.mem_cons_of_mem _ List.mem_cons_self))
            have : w = 4294967295 := by omega
            rw [this]; exact List.mem_cons_self
        · exact Or.inr h
      refine ⟨⟨u, z + 1, rfl, (List.pairwise_cons.1 hs).2, fun k hk => hv k (List.mem_cons_of_mem _ hk), Or.inr hu⟩, ?_, ?_⟩
      · rcases hu with h | h
        · left; subst h; intro k hk; rw [List.nil_append] at hk; rw [(List.mem_replicate.1 hk).2]
        · right; exact List.mem_append_left _ h
      · intro k hk
        rcases List.mem_append.1 hk with h | h
        · exact hmax k (hv k (List.mem_cons_of_mem _ h))
        · rw [(List.mem_replicate.1 h).2]; decide

/-! ## The buffers -/

/-- A buffer for a block that begins behind the end of the file is empty. -/
def TailBuf (m : List Nat) (g : Geo) (b : Buf) : Prop := b.index * g.B < 2147483648 → (m.length : Int) ≤ 2 * (b.index * g.B) → b.size ≤ 0

/-- All of them, and the file is where the next block begins, or at its end. -/
structure Tail (m : List Nat) (g : Geo) (c : Cache) : Prop where
  bytes : c.dev.bytes = m
  bufs : ∀ b ∈ c.bufs, TailBuf m g b
  queue : InQueue g (c.bufs.map Buf.index)
  next : m.length ≤ c.dev.cur ∨ ∀ b rest, c.bufs = b :: rest → nextAt g (maxIndex b c.bufs) ≤ m.length

theorem tail_core {bs bs' : List Buf} (h : ∀ b ∈ bs, TailBuf m g b) (hc : bs'.map Buf.core = bs.map Buf.core) : ∀ b ∈ bs', TailBuf m g b := by
  intro b hb
  have : b.core ∈ bs.map Buf.core := by rw [← hc]; exact List.mem_map_of_mem hb
  obtain ⟨b0, hb0, e⟩ := List.mem_map.1 this
  unfold Buf.core at e
  simp only [Prod.mk.injEq] at e
  have := h b0 hb0
  unfold TailBuf at *
  rw [← e.2.1, ← e.2.2.1]; exact this

theorem maxIndex_map (b : Buf) : ∀ bs : List Buf, maxIndex b bs = (bs.map Buf.index).foldl (fun m x => if x > m then x else m) b.index := by
  intro bs
  unfold maxIndex
  rw [List.foldl_map]

theorem maxIndex_mem : ∀ (bs : List Buf) (b : Buf), maxIndex b bs = b.index ∨ maxIndex b bs ∈ bs.map Buf.index
  | bs, b => by
    unfold maxIndex
    generalize b.index = k
    induction bs generalizing k with
    | nil => exact Or.inl rfl
    | cons y ys ih =>
      rw [List.foldl_cons, List.map_cons]
      split
      · rcases ih y.index with h | h
        · right; rw [h]; exact List.mem_cons_self
        · right; exact List.mem_cons_of_mem _ h
      · rcases ih k with h | h
        · exact Or.inl h
        · right; exact List.mem_cons_of_mem _ h

theorem Tail.core {c c' : Cache} (h : Tail m g c) (hc : c'.bufs.map Buf.core = c.bufs.map Buf.core) (hd : c'.dev = c.dev) : Tail m g c' := by
  have hi : c'.bufs.map Buf.index = c.bufs.map Buf.index := by
    have := congrArg (List.map fun x => x.2.1) hc
    simp only [List.map_map] at this
    exact this
  refine ⟨by rw [hd]; exact h.bytes, tail_core h.bufs hc, by rw [hi]; exact h.queue, ?_⟩
  rw [hd]
  rcases h.next with e | e
  · exact Or.inl e
  · right
    intro b rest hb
    rcases hcb : c.bufs with _ | ⟨b0, rest0⟩
    · rw [hb, hcb] at hi; cases hi
    · have := e b0 rest0 hcb
      rw [maxIndex_map] at this ⊢
      rw [hi]
      have e0 : b.index = b0.index := by
        rw [hb, hcb, List.map_cons, List.map_cons] at hi
        exact (List.cons.inj hi).1
      rw [e0]; exact this

theorem Tail.get {c : Cache} (h : Tail m g c) (i : Int) : Tail m g (c.get g i).2 := by
  rw [(c.get_eq g i).2]
  exact h.core (findWithIndex_core _ _) rfl

theorem Tail.gets : ∀ (is : List Int) {c : Cache}, Tail m g c → Tail m g (c.gets g is).2
  | [], _, h => h
  | i :: is, _, h => Tail.gets is (h.get i)

/-- What loading block `k` at byte `s` does. -/
theorem loadBuffer_end {d : Dev} {b : Buf} {i : Int} {s : Int} (hd : d.bytes = m) (hs : u32 (2 * u32 (i - i % g.B)) = s)
    (h : m.length ≤ d.cur ∨ s ≤ m.length) :
    ((m.length : Int) ≤ s → (loadBuffer g d b i).1.size ≤ 0) ∧
      (m.length ≤ (loadBuffer g d b i).2.1.cur ∨ s + 2 * g.B ≤ m.length) := by
  have hs0 : 0 ≤ s := by rw [← hs]; unfold u32; omega
  unfold loadBuffer
  simp only
  rw [hs]
  unfold Dev.seek
  by_cases hc : s.toNat ≤ d.bytes.length ∨ d.past = true
  · rw [if_pos hc]
    unfold Dev.read
    simp only
    rw [hd]
    constructor
    · intro hle
      rw [List.drop_eq_nil_of_le (by omega), List.take_nil, List.length_nil]
      decide
    · rw [List.length_take, List.length_drop]
      omega
  · rw [if_neg hc]
    rw [not_or, hd] at hc
    have hcur : m.length ≤ d.cur := by
      rcases h with h | h
      · exact h
      · omega
    unfold Dev.read
    simp only
    rw [hd, List.drop_eq_nil_of_le hcur, List.take_nil, List.length_nil]
    exact ⟨fun _ => by decide, Or.inl (by omega)⟩

theorem reloadLoop_tail (hB : g.B < 16384) {rate : ℚ} (hr : 0 ≤ rate) : ∀ (fuel : Nat) (c c' : Cache), Tail m g c → c.loopType = .none →
    reloadLoop g rate fuel c = .ok c' → Tail m g c' := by
  have hB0 : (0 : Int) < g.B := by exact_mod_cast g.B_pos
  intro fuel
  induction fuel with
  | zero =>
    intro c c' h _ e
    unfold reloadLoop at e
    split at e
    · cases e; exact h
    · split at e
      · cases e
      · cases e; exact h
  | succ fuel ih =>
    intro c c' h hl e
    unfold reloadLoop at e
    split at e
    · cases e; exact h
    · rename_i b rest hc
      split at e
      · rw [reloadDecide_fwd hl hr] at e
        simp only [ok_bind, reloadLoad, reloadReorder] at e
        rw [if_neg (by decide)] at e
        obtain ⟨K, hK⟩ : ∃ K, K = maxIndex b c.bufs := ⟨_, rfl⟩
        rw [← hK] at e
        simp only [List.tail_cons, List.head?_cons, Option.toList_some] at e
        refine ih { c with bufs := rest ++ [(loadBuffer g c.dev b (i32 (i32 (K + 1) * g.B))).1], dev := (loadBuffer g c.dev b (i32 (i32 (K + 1) * g.B))).2.1 } _ ?_ hl e
        obtain ⟨hat1, hat2⟩ := nextBlk_at (g := g) hB (K := K)
        have hge := maxIndex_ge c.bufs b
        rw [← hK] at hge
        have hKmem : K ∈ c.bufs.map Buf.index := by
          rcases maxIndex_mem c.bufs b with h1 | h1
          · rw [hK, h1, hc]; exact List.mem_map_of_mem List.mem_cons_self
          · rw [hK]; exact h1
        obtain ⟨nb, hnb⟩ : ∃ nb, nb = loadBuffer g c.dev b (i32 (i32 (K + 1) * g.B)) := ⟨_, rfl⟩
        have hni : nb.1.index = nextBlk g K := by rw [hnb, loadBuffer_index]; rfl
        obtain ⟨k1, k2⟩ := loadBuffer_end (m := m) (g := g) (d := c.dev) (b := b) h.bytes hat1 (by
          rcases h.next with e | e
          · exact Or.inl e
          · right; rw [hK]; exact e b rest hc)
        rw [← hnb] at k1 k2 ⊢
        have hq := h.queue
        rw [hc, List.map_cons] at hq hKmem
        obtain ⟨q1, q2, q3⟩ := hq.step hB hKmem (fun k hk => by
          rw [← List.map_cons (f := Buf.index), ← hc] at hk
          obtain ⟨x, hx, rfl⟩ := List.mem_map.1 hk
          exact hge.2 x hx)
        have hmap : (rest ++ [nb.1]).map Buf.index = rest.map Buf.index ++ [nextBlk g K] := by rw [List.map_append, List.map_singleton, hni]
        refine ⟨by simp only; rw [hnb, loadBuffer_bytes]; exact h.bytes, fun x hx => ?_, by simp only; rw [hmap]; exact q1, ?_⟩
        · simp only at hx
          rcases List.mem_append.1 hx with hx | hx
          · exact h.bufs x (by rw [hc]; exact List.mem_cons_of_mem _ hx)
          · rw [List.mem_singleton.1 hx]
            intro h1 h2
            refine k1 ?_
            rw [hni] at h1 h2
            rw [← hat2, mul_assoc, mul_comm (g.B : Int), u32_of_in]
            · exact h2
            · have := mul_nonneg (show 0 ≤ nextBlk g K by unfold nextBlk u32; omega) (le_of_lt hB0)
              exact ⟨by omega, by omega⟩
        · simp only
          rcases k2 with k2 | k2
          · exact Or.inl k2
          · right
            intro b' rest' hb'
            obtain ⟨M, hM⟩ : ∃ M, M = maxIndex b' (rest ++ [nb.1]) := ⟨_, rfl⟩
            have hMge := maxIndex_ge (rest ++ [nb.1]) b'
            rw [← hM] at hMge ⊢
            have hMle : ∀ X, (∀ k ∈ rest.map Buf.index ++ [nextBlk g K], k ≤ X) → M ≤ X := by
              intro X hX
              rw [← hmap] at hX
              rw [hM]
              refine maxIndex_le _ _ (hX _ (List.mem_map_of_mem (by rw [hb']; exact List.mem_cons_self))) fun x hx => hX _ (List.mem_map_of_mem hx)
            rcases q2 with q2 | q2
            · have e1 := hMle _ q2
              have e2 := hMge.2 nb.1 (by simp)
              rw [hni] at e2
              have : M = nextBlk g K := by omega
              rw [this]
              have e3 : nextAt g (nextBlk g K) = u32 (u32 (2 * g.B * nextBlk g K) + 2 * g.B) := by
                unfold nextAt
                have : 2 * (g.B : Int) * (nextBlk g K + 1) = 2 * g.B * nextBlk g K + 2 * g.B := by ring
                rw [this]; unfold u32; omega
              rw [e3, hat2]
              have : u32 (nextAt g K + 2 * g.B) ≤ nextAt g K + 2 * g.B := by
                have : 0 ≤ nextAt g K := by unfold nextAt u32; omega
                unfold u32; omega
              omega
            · have e1 := hMle _ q3
              rw [← hmap] at q2
              obtain ⟨x, hx, hx2⟩ := List.mem_map.1 q2
              have e2 := hMge.2 x hx
              have : M = 4294967295 := by omega
              rw [this]
              have : nextAt g 4294967295 = 0 := by
                unfold nextAt u32
                rw [show (2 * (g.B : Int) * (4294967295 + 1)) = 0 + 4294967296 * (2 * g.B) by ring, Int.add_mul_emod_self_left]; rfl
              omega
      · cases e; exact h

theorem Tail.reload (hB : g.B < 16384) {c c' : Cache} (h : Tail m g c) (hl : c.loopType = .none) {fuel : Nat} {rate : ℚ} (hr : 0 ≤ rate)
    (e : c.triggerReload g fuel rate = .ok c') : Tail m g c' := by
  have hrr : reloadRate c rate = rate := by unfold reloadRate; rw [hl]; rw [if_neg (fun h => nomatch h.1)]
  unfold Cache.triggerReload at e
  rw [hrr] at e
  obtain ⟨c1, h1, e⟩ := bind_ok_iff'.1 e
  have h2 := reloadLoop_tail hB hr _ _ _ h hl h1
  have h3 : Tail m g c1.resetStatus := h2.core (resetStatus_core c1) rfl
  injection e with e
  rw [← e]
  split
  · exact ⟨h3.bytes, h3.bufs, h3.queue, h3.next⟩
  · exact h3

/-- Samples in such blocks are silent. -/
theorem Tail.silent {c : Cache} (h : Tail m g c) {i : Int} (h0 : 0 ≤ i) (h1 : i ≤ 2147483647) (h2 : (m.length : Int) ≤ 2 * (i / g.B * g.B)) :
    (c.get g i).1 = 0 := by
  have hB : (0 : Int) < g.B := by exact_mod_cast g.B_pos
  have hq : 0 ≤ i / g.B := Int.ediv_nonneg h0 (le_of_lt hB)
  have hq2 : i / g.B ≤ i := Int.ediv_le_self _ h0
  have hq3 : i / g.B * g.B ≤ i := Int.ediv_mul_le _ (ne_of_gt hB)
  have e : u32 (i / g.B) = i / g.B := u32_of_in ⟨by omega, by omega⟩
  rw [(c.get_eq g i).1, e]
  cases hf : c.bufs.find? (Buf.has (i / g.B)) with
  | none => rfl
  | some b =>
    exfalso
    have hm := List.mem_of_find?_eq_some hf
    have hh := List.find?_some hf
    unfold Buf.has at hh
    simp only [decide_eq_true_eq] at hh
    have := h.bufs b hm (by rw [hh.1]; omega) (by rw [hh.1]; exact h2)
    omega

/-! ## The first buffers -/

/-- Buffers with consecutive blocks, before the block of sample `i`. -/
theorem tail_up {c : Cache} {i k0 : Int} (hd : c.dev.bytes = m) (hbufs : ∀ b ∈ c.bufs, TailBuf m g b) (hk0 : 0 ≤ k0)
    (hix : c.bufs.map Buf.index = up k0 c.bufs.length) (hi : i / g.B = k0 + c.bufs.length) (hfit : i ≤ 2147483647)
    (hn : m.length ≤ c.dev.cur ∨ 2 * (i / g.B * g.B) ≤ m.length) : Tail m g c := by
  have hB0 : (0 : Int) < g.B := by exact_mod_cast g.B_pos
  have hb : i / g.B * g.B ≤ i := Int.ediv_mul_le _ (ne_of_gt hB0)
  have hik : 0 ≤ i / g.B := by omega
  have hq0 : 0 ≤ i / g.B * g.B := mul_nonneg hik (le_of_lt hB0)
  have hle : ∀ k ∈ up k0 c.bufs.length, 0 ≤ k ∧ k + 1 ≤ i / g.B := fun k hk => by rw [mem_up] at hk; omega
  refine ⟨hd, hbufs, ⟨c.bufs.map Buf.index, 0, by simp, ?_, ?_, Or.inl rfl⟩, ?_⟩
  · rw [hix]; exact (up_sorted k0 _).imp (fun h => le_of_lt h)
  · intro k hk
    rw [hix] at hk
    obtain ⟨h1, h2⟩ := hle k hk
    left
    refine ⟨h1, ?_⟩
    have := mul_le_mul_of_nonneg_right (show k ≤ i / g.B by omega) (le_of_lt hB0)
    omega
  · rcases hn with hn | hn
    · exact Or.inl hn
    · right
      intro b rest hcb
      have hK : maxIndex b c.bufs + 1 ≤ i / g.B := by
        have : maxIndex b c.bufs ≤ i / g.B - 1 := by
          have hall : ∀ x ∈ c.bufs, x.index ≤ i / g.B - 1 := fun x hx => by
            have := hle x.index (by rw [← hix]; exact List.mem_map_of_mem hx)
            omega
          exact maxIndex_le _ _ (hall b (by rw [hcb]; exact List.mem_cons_self)) hall
        omega
      have hK0 : 0 ≤ maxIndex b c.bufs := by
        have h1 := (maxIndex_ge c.bufs b).1
        have h2 := (hle b.index (by rw [← hix]; exact List.mem_map_of_mem (by rw [hcb]; exact List.mem_cons_self))).1
        omega
      unfold nextAt
      have e1 : (maxIndex b c.bufs + 1) * g.B ≤ i / g.B * g.B := mul_le_mul_of_nonneg_right hK (le_of_lt hB0)
      have e2 : 2 * (g.B : Int) * (maxIndex b c.bufs + 1) = 2 * ((maxIndex b c.bufs + 1) * g.B) := by ring
      have e3 : 0 ≤ (maxIndex b c.bufs + 1) * g.B := mul_nonneg (by omega) (le_of_lt hB0)
      rw [e2, u32_of_in ⟨by omega, by omega⟩]
      omega

theorem preLoadLoop_tail (hB : g.B < 16384) : ∀ (left : Nat) (c : Cache) (i k0 : Int), c.dev.bytes = m → (∀ b ∈ c.bufs, TailBuf m g b) → 0 ≤ k0 →
    c.bufs.map Buf.index = up k0 c.bufs.length → i / g.B = k0 + c.bufs.length → i + left * g.B ≤ 2147483647 →
    (m.length ≤ c.dev.cur ∨ 2 * (i / g.B * g.B) ≤ m.length) → Tail m g (preLoadLoop g 0 true left c.bufs.length c i) := by
  have hB0 : (0 : Int) < g.B := by exact_mod_cast g.B_pos
  intro left
  induction left with
  | zero =>
    intro c i k0 hd hbufs hk0 hix hi hfit hn
    exact tail_up hd hbufs hk0 hix hi (by push_cast at hfit; omega) hn
  | succ left ih =>
    intro c i k0 hd hbufs hk0 hix hi hfit hn
    push_cast at hfit
    have hl0 : (0 : Int) ≤ left * g.B := by positivity
    have hb : i / g.B * g.B ≤ i := Int.ediv_mul_le _ (ne_of_gt hB0)
    have hik : 0 ≤ i / g.B := by omega
    have hq0 : 0 ≤ i / g.B * g.B := mul_nonneg hik (le_of_lt hB0)
    have hq2 : i / g.B ≤ i := Int.ediv_le_self _ (by omega)
    have hfit' : i + g.B + left * g.B ≤ 2147483647 := by linarith
    have hm' : i - i % g.B = i / g.B * g.B := by have := Int.mul_ediv_add_emod i g.B; rw [mul_comm] at this; omega
    have hs : u32 (2 * u32 (i - i % g.B)) = 2 * (i / g.B * g.B) := by
      rw [hm', u32_of_in (x := i / g.B * g.B) ⟨by omega, by omega⟩, u32_of_in ⟨by omega, by omega⟩]
    have hu : u32 (i / g.B) = i / g.B := u32_of_in ⟨by omega, by omega⟩
    have hi32 : i32 (i + g.B) = i + g.B := i32_of_in ⟨by omega, by omega⟩
    have hdiv : (i + g.B) / g.B = i / g.B + 1 := by rw [Int.add_ediv_of_dvd_right (dvd_refl _), Int.ediv_self (by omega)]
    unfold preLoadLoop
    dsimp only
    rw [if_pos (Nat.zero_le _), List.getElem?_concat_length]
    dsimp only
    obtain ⟨k1, k2⟩ := loadBuffer_end (m := m) (g := g) (d := c.dev)
      (b := { addr := c.bufs.length, index := 0, size := 0, status := .constructed, data := g.junk c.bufs.length }) hd hs hn
    generalize hnb : loadBuffer g c.dev { addr := c.bufs.length, index := 0, size := 0, status := .constructed, data := g.junk c.bufs.length } i = nb at k1 k2
    have hni : nb.1.index = i / g.B := by rw [← hnb, loadBuffer_index, hu]
    have hnd : nb.2.1.bytes = m := by rw [← hnb, loadBuffer_bytes]; exact hd
    have hset : (c.bufs ++ [({ addr := c.bufs.length, index := 0, size := 0, status := .constructed, data := g.junk c.bufs.length } : Buf)]).set c.bufs.length nb.1 = c.bufs ++ [nb.1] := by
      rw [List.set_append_right _ _ (le_refl _)]; simp
    rw [hset]
    have hbufs' : ∀ b ∈ c.bufs ++ [nb.1], TailBuf m g b := by
      intro b hb'
      rcases List.mem_append.1 hb' with h | h
      · exact hbufs b h
      · rw [List.mem_singleton.1 h]
        intro h1 h2
        rw [hni] at h2
        exact k1 h2
    have hix' : (c.bufs ++ [nb.1]).map Buf.index = up k0 (c.bufs ++ [nb.1]).length := by
      rw [List.map_append, hix, List.length_append, List.map_singleton, hni, hi, List.length_singleton, up_snoc]
    have hlen' : (i + g.B) / g.B = k0 + ((c.bufs ++ [nb.1]).length : Nat) := by
      rw [hdiv, hi, List.length_append, List.length_singleton]; push_cast; ring
    have hn' : m.length ≤ nb.2.1.cur ∨ 2 * ((i + g.B) / g.B * g.B) ≤ m.length := by
      rcases k2 with k2 | k2
      · exact Or.inl k2
      · right; rw [hdiv, add_mul, one_mul]; omega
    have e : (c.bufs.length + 1) = (c.bufs ++ [nb.1]).length := by simp
    split
    · exact tail_up (c := { c with bufs := c.bufs ++ [nb.1], dev := nb.2.1 }) hnd hbufs' hk0 hix' hlen' (by omega) hn'
    · rw [if_pos rfl, hi32, e]
      exact ih { c with bufs := c.bufs ++ [nb.1], dev := nb.2.1 } (i + g.B) k0 hnd hbufs' hk0 hix' hlen' hfit' hn'

theorem preLoad_tail (hB : g.B < 16384) {c : Cache} (hd : c.dev.bytes = m) (hc : c.bufs = []) {i : Int} {fw : Bool} (h0 : 0 ≤ i) (hin : 2 * i ≤ m.length)
    (hfit : i + g.N * g.B ≤ 2147483647) (hfw : fw = true) : Tail m g (c.preLoad g i fw) := by
  have hB0 : (0 : Int) < g.B := by exact_mod_cast g.B_pos
  have hle := Int.ediv_mul_le i (ne_of_gt hB0)
  have := preLoadLoop_tail (m := m) hB g.N c i (i / g.B) hd (fun b hb => by rw [hc] at hb; cases hb) (Int.ediv_nonneg h0 (le_of_lt hB0)) (by rw [hc]; rfl)
    (by rw [hc]; simp) hfit (Or.inr (by omega))
  unfold Cache.preLoad
  rw [hc] at this ⊢
  rw [hfw]
  exact this

end TVP
