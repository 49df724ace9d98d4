import Verif.Lemmas.Window

/-!
# The window of blocks kept by the cache while streaming backwards
-/

namespace TVP
open Spec

/-! ## Statuses -/

theorem findWithIndex_keeps {k : Int} : ∀ {bs : List Buf}, (∃ b ∈ bs, b.status = .read) → ∃ b ∈ (findWithIndex k bs).1, b.status = .read
  | [], ⟨_, hb, _⟩ => by cases hb
  | x :: xs, ⟨b, hb, hs⟩ => by
    unfold findWithIndex
    split
    · exact ⟨_, List.mem_cons_self, rfl⟩
    · rcases List.mem_cons.1 hb with rfl | hb
      · exact ⟨b, by simp only [hs, if_true]; exact List.mem_cons_self, hs⟩
      · obtain ⟨b', h1, h2⟩ := findWithIndex_keeps (k := k) ⟨b, hb, hs⟩
        exact ⟨b', List.mem_cons_of_mem _ h1, h2⟩

theorem findWithIndex_hit {k : Int} : ∀ {bs : List Buf}, (∃ b ∈ bs, b.index = k ∧ 0 < b.size) → ∃ b ∈ (findWithIndex k bs).1, b.status = .read
  | [], ⟨_, hb, _⟩ => by cases hb
  | x :: xs, ⟨b, hb, h1, h2⟩ => by
    unfold findWithIndex
    split
    · exact ⟨_, List.mem_cons_self, rfl⟩
    · rename_i hx
      rcases List.mem_cons.1 hb with rfl | hb
      · exact absurd ⟨h1, h2⟩ hx
      · obtain ⟨b', k1, k2⟩ := findWithIndex_hit ⟨b, hb, h1, h2⟩
        exact ⟨b', List.mem_cons_of_mem _ k1, k2⟩

theorem gets_keeps (g : Geo) : ∀ (is : List Int) (c : Cache), (∃ b ∈ c.bufs, b.status = .read) → ∃ b ∈ (c.gets g is).2.bufs, b.status = .read
  | [], _, h => h
  | i :: is, c, h => gets_keeps g is _ (by rw [(c.get_eq g i).2]; exact findWithIndex_keeps h)

/-- After reading something that is buffered, some buffer is marked read. -/
theorem gets_hit (g : Geo) : ∀ (is : List Int) (c : Cache), (∃ i ∈ is, ∃ b ∈ c.bufs, b.index = u32 (i / g.B) ∧ 0 < b.size) →
    ∃ b ∈ (c.gets g is).2.bufs, b.status = .read
  | [], _, ⟨_, hi, _⟩ => by cases hi
  | j :: is, c, ⟨i, hi, b, hb, h1, h2⟩ => by
    have hcore : (c.get g j).2.bufs.map Buf.core = c.bufs.map Buf.core := by
      rw [(c.get_eq g j).2]; exact findWithIndex_core _ _
    rcases List.mem_cons.1 hi with rfl | hi
    · exact gets_keeps g is _ (by rw [(c.get_eq g i).2]; exact findWithIndex_hit ⟨b, hb, h1, h2⟩)
    · obtain ⟨b', hb', e1, e2⟩ := size_of_core hcore.symm hb
      exact gets_hit g is _ ⟨i, hi, b', hb', by rw [e1]; exact h1, by rw [e2]; exact h2⟩

/-! ## Reloading backwards -/

/-- With block 0 buffered a reload only turns the vector round until a buffer comes first that is not unused. -/
theorem reloadLoop_low {g : Geo} {rate : ℚ} (hr : rate < 0) : ∀ (pre : List Buf) (fuel : Nat) (c : Cache) (x : Buf) (post : List Buf),
    c.loopType = .none → c.bufs = pre ++ x :: post → x.status ≠ .unused → pre.length ≤ fuel → (∀ b ∈ c.bufs, 0 ≤ b.index) →
    (∃ b ∈ c.bufs, b.index = 0) → ∃ c', reloadLoop g rate fuel c = .ok c' ∧ c'.bufs.Perm c.bufs ∧ c'.loopType = .none
  | [], fuel, c, x, post, hl, hc, hx, _, _, _ => by
    refine ⟨c, ?_, List.Perm.refl _, hl⟩
    cases fuel <;> (unfold reloadLoop; rw [hc]; simp only [List.nil_append, hx, if_false])
  | b :: pre, fuel, c, x, post, hl, hc, hx, hf, h0, hz => by
    rw [List.cons_append] at hc
    by_cases hb : b.status = .unused
    · obtain ⟨fuel, rfl⟩ : ∃ f, fuel = f + 1 := ⟨fuel - 1, by simp only [List.length_cons] at hf; omega⟩
      have hbm : b ∈ c.bufs := by rw [hc]; exact List.mem_cons_self
      have hmin : minIndex b c.bufs = 0 := by
        obtain ⟨h1, y, hy, e⟩ := minIndex_spec hbm
        obtain ⟨z, hz1, hz2⟩ := hz
        have := h1 z hz1
        have := h0 y hy
        omega
      have hdec : reloadDecide g c rate b = .ok (none, .move) := by
        unfold reloadDecide
        rw [if_neg (not_le.2 hr), hl]
        simp only [hmin]
        rw [if_pos (by decide)]
        rfl
      have hp := reloadReorder_perm (reloadLoad g c b (pre ++ x :: post) none) .move
      obtain ⟨c', k1, k2, k3⟩ := reloadLoop_low hr pre fuel (reloadReorder (reloadLoad g c b (pre ++ x :: post) none) .move) x (post ++ [b]) hl
        (by
          unfold reloadReorder reloadLoad
          simp only [hc, List.tail_cons, List.head?_cons, Option.toList_some, List.append_assoc, List.cons_append])
        hx (by simp only [List.length_cons] at hf; omega) (fun y hy => h0 y (hp.mem_iff.1 hy))
        (by obtain ⟨z, hz1, hz2⟩ := hz; exact ⟨z, hp.mem_iff.2 hz1, hz2⟩)
      refine ⟨c', ?_, k2.trans hp, k3⟩
      unfold reloadLoop
      rw [hc]
      simp only [hb, if_true, hdec, ok_bind]
      rw [if_neg (by decide)]
      exact k1
    · refine ⟨c, ?_, List.Perm.refl _, hl⟩
      cases fuel <;> (unfold reloadLoop; rw [hc]; simp only [hb, if_false])

/-- Every block from 0 to `k` is buffered. -/
def AllDown (c : Cache) (k : Int) : Prop := ∀ j, 0 ≤ j → j ≤ k → j ∈ c.bufs.map Buf.index

/-- Reloading while playing backwards moves the window down to the first block read, or leaves everything down to block 0. -/
theorem reloadLoop_rev {g : Geo} {rate : ℚ} (hr : rate < 0) : ∀ (d fuel : Nat) (c : Cache) (a : Int) (L : Nat), c.loopType = .none →
    c.bufs.map Buf.index = down a L → d < L → d ≤ fuel → (L : Int) ≤ a + 1 → a * g.B ≤ 2147483647 →
    (∀ b ∈ c.bufs, a - d < b.index → b.status = .unused) → (∀ b ∈ c.bufs, b.index = a - d → b.status ≠ .unused) →
    ∃ c', reloadLoop g rate fuel c = .ok c' ∧ c'.loopType = .none ∧
      ((c'.bufs.map Buf.index = down (a - d) L ∧ (L : Int) ≤ a - d + 1) ∨ AllDown c' (a - d)) := by
  intro d
  induction d with
  | zero =>
    intro fuel c a L hl hw hd _ hLa _ _ hread
    refine ⟨c, ?_, hl, Or.inl ⟨by simpa using hw, by simpa using hLa⟩⟩
    cases hc : c.bufs with
    | nil => cases fuel <;> (unfold reloadLoop; rw [hc])
    | cons b rest =>
      have hb : b.index = a := by
        obtain ⟨L', rfl⟩ : ∃ L', L = L' + 1 := ⟨L - 1, by omega⟩
        rw [hc, down_succ] at hw
        exact (List.cons.inj hw).1
      have hu := hread b (by rw [hc]; exact List.mem_cons_self) (by simpa using hb)
      cases fuel <;> (unfold reloadLoop; rw [hc]; simp only [hu, if_false])
  | succ d ih =>
    intro fuel c a L hl hw hd hfuel hLa hmax hun hread
    have hB : (0 : Int) < g.B := by exact_mod_cast g.B_pos
    have hlen : c.bufs.length = L := by
      have := congrArg List.length hw
      simpa [down] using this
    by_cases hend : (L : Int) = a + 1
    · -- everything down to block 0 is there
      have hnn : ∀ b ∈ c.bufs, 0 ≤ b.index := fun b hb => by have := mem_down.1 (mem_index hw hb); omega
      have hmem : ∀ j, 0 ≤ j → j ≤ a → j ∈ c.bufs.map Buf.index := fun j h1 h2 => by rw [hw, mem_down]; omega
      obtain ⟨z, hz1, hz2⟩ := List.mem_map.1 (hmem 0 (le_refl _) (by omega))
      have hdl : d + 1 < c.bufs.length := by omega
      have hsplit : c.bufs = c.bufs.take (d + 1) ++ c.bufs[d + 1] :: c.bufs.drop (d + 2) := by
        rw [← List.drop_eq_getElem_cons hdl, List.take_append_drop]
      have hix : c.bufs[d + 1].index = a - (d + 1 : Nat) := by
        have e1 : (c.bufs.map Buf.index)[d + 1]? = some c.bufs[d + 1].index := by simp [hdl]
        rw [hw] at e1
        unfold down at e1
        rw [List.getElem?_map, List.getElem?_range (by omega)] at e1
        simp only [Option.map_some, Option.some.injEq] at e1
        exact e1.symm
      obtain ⟨c', k1, k2, k3⟩ := reloadLoop_low hr _ fuel c _ _ hl hsplit (hread _ (List.getElem_mem _) hix)
        (by rw [List.length_take]; omega) hnn ⟨z, hz1, hz2⟩
      refine ⟨c', k1, k3, Or.inr fun j h1 h2 => ?_⟩
      exact ((k2.map Buf.index).mem_iff).2 (hmem j h1 (by push_cast at h2; omega))
    · obtain ⟨fuel, rfl⟩ : ∃ f, fuel = f + 1 := ⟨fuel - 1, by omega⟩
      obtain ⟨L, rfl⟩ : ∃ L', L = L' + 1 := ⟨L - 1, by omega⟩
      cases hc : c.bufs with
      | nil => rw [hc, down_succ] at hw; cases hw
      | cons b rest =>
        have hbm : b ∈ c.bufs := by rw [hc]; exact List.mem_cons_self
        have hw' := hw
        rw [hc, down_succ] at hw'
        have hb : b.index = a := (List.cons.inj hw').1
        have hrest : rest.map Buf.index = down (a - 1) L := (List.cons.inj hw').2
        have hu := hun b hbm (by rw [hb]; push_cast; omega)
        have h0 : 0 ≤ a - (L + 1 : Nat) := by omega
        have hle : a ≤ a * g.B := le_mul_of_one_le_right (by omega) (by omega)
        have hmul : (a - (L + 1 : Nat)) * g.B ≤ a * g.B := mul_le_mul_of_nonneg_right (by omega) (le_of_lt hB)
        have hmul0 : 0 ≤ (a - (L + 1 : Nat)) * g.B := mul_nonneg h0 (le_of_lt hB)
        have e1 : i32 (minIndex b c.bufs - 1) = a - (L + 1 : Nat) := by
          rw [minIndex_down hbm hw, i32_of_in ⟨by omega, by omega⟩]; push_cast; omega
        have e2 : i32 ((a - (L + 1 : Nat)) * g.B) = (a - (L + 1 : Nat)) * g.B := i32_of_in ⟨by omega, by omega⟩
        have hdec : reloadDecide g c rate b = .ok (some ((a - (L + 1 : Nat)) * g.B), .move) := by
          unfold reloadDecide
          rw [if_neg (not_le.2 hr), hl]
          simp only [e1, e2]
          rw [if_neg (by omega)]
          rfl
        have hidx : (loadBuffer g c.dev b ((a - (L + 1 : Nat)) * g.B)).1.index = a - (L + 1 : Nat) := by
          rw [loadBuffer_index, Int.mul_ediv_cancel _ (ne_of_gt hB), u32_of_in ⟨by omega, by omega⟩]
        unfold reloadLoop
        rw [hc]
        simp only [hu, if_true, hdec, ok_bind]
        rw [if_neg (by decide)]
        set c1 := reloadReorder (reloadLoad g c b rest (some ((a - (L + 1 : Nat)) * g.B))) .move with hc1
        have eb : c1.bufs = rest ++ [(loadBuffer g c.dev b ((a - (L + 1 : Nat)) * g.B)).1] := rfl
        obtain ⟨c', k1, k2, k3⟩ := ih fuel c1 (a - 1) (L + 1) hl
          (by rw [eb, List.map_append, hrest, down_snoc, List.map_cons, List.map_nil, hidx]; congr 2; push_cast; ring)
          (by omega) (by omega) (by push_cast; omega) (le_trans (mul_le_mul_of_nonneg_right (by omega) (le_of_lt hB)) hmax)
          (by
            intro x hx hlt
            rw [eb, List.mem_append, List.mem_singleton] at hx
            rcases hx with hx | rfl
            · exact hun x (by rw [hc]; exact List.mem_cons_of_mem _ hx) (by push_cast; omega)
            · rw [hidx] at hlt; push_cast at hlt; omega)
          (by
            intro x hx he
            rw [eb, List.mem_append, List.mem_singleton] at hx
            rcases hx with hx | rfl
            · exact hread x (by rw [hc]; exact List.mem_cons_of_mem _ hx) (by push_cast; omega)
            · rw [loadBuffer_status]; decide)
        have e3 : a - 1 - (d : Int) = a - ((d + 1 : Nat) : Int) := by push_cast; ring
        rw [e3] at k3
        exact ⟨c', k1, k2, k3⟩

/-- What follows the loop of a reload. -/
theorem Cache.triggerReload_after {g : Geo} {rate : ℚ} {fuel : Nat} {c c1 : Cache} (hl : c.loopType = .none) (h : reloadLoop g rate fuel c = .ok c1) :
    ∃ c', c.triggerReload g fuel rate = .ok c' ∧ c'.bufs.map Buf.index = c1.bufs.map Buf.index ∧ c'.loopType = c1.loopType ∧ AllLoaded c' := by
  have hrr : reloadRate c rate = rate := by unfold reloadRate; rw [hl]; simp
  unfold Cache.triggerReload
  rw [hrr, h]
  simp only [ok_bind]
  have hi : c1.resetStatus.bufs.map Buf.index = c1.bufs.map Buf.index := index_of_core (resetStatus_core c1)
  have hs : AllLoaded c1.resetStatus := by
    intro b hb
    obtain ⟨b0, _, rfl⟩ := List.mem_map.1 hb
    rfl
  refine ⟨_, rfl, ?_, ?_, ?_⟩
  · split <;> exact hi
  · split <;> rfl
  · split <;> exact hs

/-! ## Preloading backwards -/

/-- A preload only appends. -/
theorem preLoadLoop_extends (g : Geo) (fw : Bool) : ∀ (left : Nat) (c : Cache) (i : Int), AllLoaded c →
    (∃ rest, (preLoadLoop g 0 fw left c.bufs.length c i).bufs.map Buf.index = c.bufs.map Buf.index ++ rest) ∧
      AllLoaded (preLoadLoop g 0 fw left c.bufs.length c i) ∧ (preLoadLoop g 0 fw left c.bufs.length c i).loopType = c.loopType ∧
      (preLoadLoop g 0 fw left c.bufs.length c i).fails = c.fails
  | 0, c, _, hl => ⟨⟨[], by simp [preLoadLoop]⟩, hl, rfl, rfl⟩
  | left + 1, c, i, hl => by
    rw [preLoadLoop_append]
    set x := loadBuffer g c.dev (freshBuf g c.bufs.length) i with hx
    set c1 : Cache := { c with bufs := c.bufs ++ [x.1], dev := x.2.1 } with hc1
    have hmap : c1.bufs.map Buf.index = c.bufs.map Buf.index ++ [x.1.index] := by rw [hc1]; simp
    have hl1 : AllLoaded c1 := by
      intro b hb
      rcases List.mem_append.1 hb with hb | hb
      · exact hl b hb
      · rw [List.mem_singleton] at hb; rw [hb]; rfl
    have hlen : c1.bufs.length = c.bufs.length + 1 := by simp [hc1]
    split
    · exact ⟨⟨_, hmap⟩, hl1, rfl, rfl⟩
    · obtain ⟨⟨rest, k1⟩, k2, k3, k4⟩ := preLoadLoop_extends g fw left c1 (i32 (if fw then i + g.B else i - g.B)) hl1
      rw [← hlen]
      exact ⟨⟨[x.1.index] ++ rest, by rw [k1, hmap, List.append_assoc]⟩, k2, k3, k4⟩

theorem ediv_sub_B {i B : Int} (hB : 0 < B) : (i - B) / B = i / B - 1 := by
  rw [Int.sub_ediv_of_dvd _ (dvd_refl B), Int.ediv_self (ne_of_gt hB)]

/-- Preloading backwards fills consecutive blocks down to the first one of the file, provided the block it starts in is the
first one or at least half of it lies in the file (more precisely: at least as many bytes as the block has samples). -/
theorem preLoadLoop_rev {m : List Nat} {g : Geo} : ∀ (left : Nat) (c : Cache) (i : Int), c.dev.bytes = m → 0 ≤ i → i ≤ 2147483647 →
    (i / g.B = 0 ∨ 2 * (i / g.B * g.B) + g.B ≤ m.length) → AllLoaded c →
    (∃ rest, (preLoadLoop g 0 false left c.bufs.length c i).bufs.map Buf.index =
        c.bufs.map Buf.index ++ (down (i / g.B) (min left (i / g.B + 1).toNat) ++ rest) ∧ ((left : Int) ≤ i / g.B + 1 → rest = [])) ∧
      AllLoaded (preLoadLoop g 0 false left c.bufs.length c i) ∧ (preLoadLoop g 0 false left c.bufs.length c i).loopType = c.loopType ∧
      (preLoadLoop g 0 false left c.bufs.length c i).fails = c.fails := by
  intro left
  have hB : (0 : Int) < g.B := by exact_mod_cast g.B_pos
  induction left with
  | zero => intro c i _ _ _ _ hl; exact ⟨⟨[], by simp [preLoadLoop, down], fun _ => rfl⟩, hl, rfl, rfl⟩
  | succ left ih =>
    intro c i hd h0 h1 hok hl
    have hq : 0 ≤ i / g.B := Int.ediv_nonneg h0 (le_of_lt hB)
    have hq2 : i / g.B ≤ i := Int.ediv_le_self _ h0
    have e4 : u32 (i / g.B) = i / g.B := u32_of_in ⟨by omega, by omega⟩
    rw [preLoadLoop_append]
    set x := loadBuffer g c.dev (freshBuf g c.bufs.length) i with hx
    set c1 : Cache := { c with bufs := c.bufs ++ [x.1], dev := x.2.1 } with hc1
    have hidx : x.1.index = i / g.B := by rw [hx, loadBuffer_index, e4]
    have hmap : c1.bufs.map Buf.index = c.bufs.map Buf.index ++ [i / g.B] := by
      rw [hc1]; simp only [List.map_append, List.map_cons, List.map_nil, hidx]
    have hl1 : AllLoaded c1 := by
      intro b hb
      rcases List.mem_append.1 hb with hb | hb
      · exact hl b hb
      · rw [List.mem_singleton] at hb; rw [hb]; rfl
    have hlen : c1.bufs.length = c.bufs.length + 1 := by simp [hc1]
    by_cases hk : i / g.B = 0
    · have emin : min (left + 1) (i / g.B + 1).toNat = 1 := by rw [hk]; simp
      rw [emin, down_succ, show down (i / g.B - 1) 0 = [] from rfl]
      split
      · exact ⟨⟨[], by rw [hmap]; simp, fun _ => rfl⟩, hl1, rfl, rfl⟩
      · simp only [Bool.false_eq_true, if_false]
        obtain ⟨⟨rest, k1⟩, k2, k3, k4⟩ := preLoadLoop_extends g false left c1 (i32 (i - g.B)) hl1
        rw [← hlen]
        refine ⟨⟨rest, by rw [k1, hmap, List.append_assoc], fun hle => ?_⟩, k2, k3, k4⟩
        have : left = 0 := by rw [hk] at hle; push_cast at hle; omega
        subst this
        have e : c1.bufs.map Buf.index = c1.bufs.map Buf.index ++ rest := k1
        simpa using e
    · have hin : 2 * (i / g.B * g.B) + g.B ≤ m.length := hok.resolve_left hk
      have hcount := loadBuffer_count (g := g) (b := freshBuf g c.bufs.length) hd h0 h1 (by omega)
      rw [← hx] at hcount
      rw [if_neg (by omega)]
      simp only [Bool.false_eq_true, if_false]
      have hBi : g.B ≤ i := by
        have h3 : (1 : Int) * g.B ≤ i / g.B * g.B := mul_le_mul_of_nonneg_right (by omega) (le_of_lt hB)
        have := Int.ediv_mul_le i (ne_of_gt hB)
        omega
      have hi' : i32 (i - g.B) = i - g.B := i32_of_in ⟨by omega, by omega⟩
      obtain ⟨⟨rest, k1, k5⟩, k2, k3, k4⟩ := ih c1 (i - g.B) (by rw [hc1, hx]; simp only [loadBuffer_bytes]; exact hd) (by omega) (by omega)
        (by
          right
          rw [ediv_sub_B hB, sub_mul, one_mul]
          omega) hl1
      rw [hi', ← hlen]
      refine ⟨⟨rest, ?_, fun hle => k5 (by rw [ediv_sub_B hB]; push_cast at hle; omega)⟩, k2, k3, k4⟩
      rw [k1, hmap, ediv_sub_B hB]
      have e5 : min (left + 1) (i / g.B + 1).toNat = min left (i / g.B - 1 + 1).toNat + 1 := by omega
      rw [e5, down_succ]
      simp

/-! ## Streaming backwards -/

/-- The cache while streaming backwards: blocks `a` down to `a - L + 1`, enough for two updates of `mm` blocks; or everything
from `a` down to the beginning of the file. -/
structure RWin (m : List Nat) (g : Geo) (mm : Int) (c : Cache) (a : Int) : Prop where
  reached : Reached m g c
  loop : c.loopType = .none
  loaded : AllLoaded c
  win : (∃ L : Nat, c.bufs.map Buf.index = down a L ∧ 2 * mm + 1 ≤ L ∧ (L : Int) ≤ a + 1) ∨ AllDown c a

/-- One update and the reload after it. -/
theorem RWin.round {m : List Nat} {g : Geo} (hB : g.B < 16384) (hm : m.length < 4294967296) {mm : Int} {c : Cache}
    {a : Int} (ha : a * g.B ≤ 2147483647) (h : RWin m g mm c a) {is : List Int} {hi : Int} (h1 : hi ≤ a) (h2 : a - mm ≤ hi)
    (hin : ∀ i ∈ is, InFile m i ∧ i / g.B ≤ hi ∧ hi - mm ≤ i / g.B) (hhi : ∃ i ∈ is, i / g.B = hi) :
    (∀ i ∈ is, Buffered g c i) ∧ ∀ fuel rate, g.N ≤ fuel → rate < 0 → ∃ c', (c.gets g is).2.triggerReload g fuel rate = .ok c' ∧ RWin m g mm c' hi := by
  have hB0 : (0 : Int) < g.B := by exact_mod_cast g.B_pos
  have hblk : ∀ i ∈ is, i / g.B ∈ c.bufs.map Buf.index := by
    intro i hi'
    obtain ⟨f, u, l⟩ := hin i hi'
    have h0 := (inFile_block (g := g) hm f).2.1
    rcases h.win with ⟨L, e1, e2, e3⟩ | e
    · rw [e1, mem_down]; omega
    · exact e _ h0 (by omega)
  have hbuf : ∀ i ∈ is, ∃ b ∈ c.bufs, b.index = i / g.B ∧ 0 < b.size := by
    intro i hi'
    obtain ⟨b, hb', e⟩ := List.mem_map.1 (hblk i hi')
    exact ⟨b, hb', e, index_size hB h.reached hb' (hin i hi').1 e⟩
  refine ⟨hbuf, fun fuel rate hf hr => ?_⟩
  obtain ⟨i0, hi0, ei0⟩ := hhi
  obtain ⟨_, hsame, _⟩ := C15_read_only g is c
  have hlen : (c.gets g is).2.bufs.length ≤ g.N := by
    have := congrArg List.length hsame.2.1
    simp only [List.length_map] at this
    rw [this]; exact h.reached.len
  have hl' : (c.gets g is).2.loopType = .none := by rw [hsame.2.2.2.1]; exact h.loop
  have hix : (c.gets g is).2.bufs.map Buf.index = c.bufs.map Buf.index := index_of_core hsame.2.1
  have hreach := Reached.gets hm is h.reached
  have finish : (∃ c1, reloadLoop g rate fuel (c.gets g is).2 = .ok c1 ∧ c1.loopType = .none ∧
      ((∃ L : Nat, c1.bufs.map Buf.index = down hi L ∧ 2 * mm + 1 ≤ L ∧ (L : Int) ≤ hi + 1) ∨ AllDown c1 hi)) →
      ∃ c', (c.gets g is).2.triggerReload g fuel rate = .ok c' ∧ RWin m g mm c' hi := by
    rintro ⟨c1, q1, q2, q3⟩
    obtain ⟨c', k1, k2, k3, k4⟩ := Cache.triggerReload_after hl' q1
    refine ⟨c', k1, hreach.step hm (.reload fuel rate) k1, by rw [k3]; exact q2, k4, ?_⟩
    unfold AllDown at *
    rw [k2]; exact q3
  apply finish
  rcases h.win with ⟨L, e1, e2, e3⟩ | e
  · have hst := gets_status g (fun x => -x) hi is c h.loaded (by
        rw [e1]; exact (down_sorted a L).imp (fun h => by omega))
      (fun i hi' => by
        rw [(inFile_block (g := g) hm (hin i hi').1).1]
        exact ⟨by have := (hin i hi').2.1; omega, hbuf i hi'⟩)
      ⟨i0, hi0, by rw [(inFile_block (g := g) hm (hin i0 hi0).1).1]; exact ei0⟩
    obtain ⟨d, hd⟩ : ∃ d : Nat, hi = a - d := ⟨(a - hi).toNat, by omega⟩
    have hLN : L ≤ g.N := by
      have := hlen
      rw [← List.length_map (f := Buf.index), hix, e1] at this
      simpa [down] using this
    obtain ⟨c1, k1, k2, k3⟩ := reloadLoop_rev hr d fuel (c.gets g is).2 a L hl' (by rw [hix]; exact e1) (by omega) (by omega) e3 ha
      (fun b hb hlt => (hst b hb).1 (by omega)) (fun b hb he => by rw [(hst b hb).2 (by rw [hd]; exact he)]; decide)
    rw [← hd] at k3
    refine ⟨c1, k1, k2, ?_⟩
    rcases k3 with ⟨k3, k4⟩ | k3
    · exact Or.inl ⟨L, k3, e2, k4⟩
    · exact Or.inr k3
  · obtain ⟨x, hx, hxs⟩ := gets_hit g is c (by
      obtain ⟨b, hb', q1, q2⟩ := hbuf i0 hi0
      exact ⟨i0, hi0, b, hb', by rw [(inFile_block (g := g) hm (hin i0 hi0).1).1]; exact q1, q2⟩)
    obtain ⟨pre, post, hsplit⟩ := List.append_of_mem hx
    have h0 := (inFile_block (g := g) hm (hin i0 hi0).1).2.1
    have hz := e 0 (le_refl _) (by omega)
    rw [← hix] at hz
    obtain ⟨z, hz1, hz2⟩ := List.mem_map.1 hz
    obtain ⟨c1, k1, k2, k3⟩ := reloadLoop_low hr pre fuel (c.gets g is).2 x post hl' hsplit (by rw [hxs]; decide)
      (by rw [hsplit] at hlen; simp only [List.length_append, List.length_cons] at hlen; omega)
      (fun b hb => (hreach.ok.bufs b hb).1) ⟨z, hz1, hz2⟩
    refine ⟨c1, k1, k3, Or.inr fun j j1 j2 => ?_⟩
    rw [(k2.map Buf.index).mem_iff, hix]
    exact e j j1 (by omega)

/-- Preloading an empty cache backwards. -/
theorem RWin.preLoad {m : List Nat} {g : Geo} (hm : m.length < 4294967296) {mm : Int} (hmm : 2 * mm + 1 ≤ g.N) {c : Cache}
    (hc : Reached m g c) (hl : c.loopType = .none) (hb : c.bufs = []) {i : Int} (h0 : 0 ≤ i) (hi : i ≤ 2147483647)
    (hok : i / g.B = 0 ∨ 2 * (i / g.B * g.B) + g.B ≤ m.length) :
    RWin m g mm (c.preLoad g i false) (i / g.B) ∧ (c.preLoad g i false).fails = c.fails := by
  have hB : (0 : Int) < g.B := by exact_mod_cast g.B_pos
  have hi32 : InI32 i := ⟨by omega, hi⟩
  have hreach := hc.step hm (.preLoad i false) rfl
  rw [i32_of_in hi32] at hreach
  have hq : 0 ≤ i / g.B := Int.ediv_nonneg h0 (le_of_lt hB)
  obtain ⟨⟨rest, k1, k5⟩, k2, k3, k4⟩ := preLoadLoop_rev (g := g) g.N c i hc.ok.dev h0 hi hok (by intro b hb'; rw [hb] at hb'; cases hb')
  have e : c.preLoad g i false = preLoadLoop g 0 false g.N c.bufs.length c i := by unfold Cache.preLoad; rw [hb]; rfl
  rw [e]
  refine ⟨⟨by rw [← e]; exact hreach, by rw [k3]; exact hl, k2, ?_⟩, k4⟩
  rw [show c.bufs.map Buf.index = [] by rw [hb]; rfl, List.nil_append] at k1
  by_cases hle : (g.N : Int) ≤ i / g.B + 1
  · left
    refine ⟨g.N, ?_, hmm, hle⟩
    rw [k1, k5 hle, List.append_nil, Nat.min_eq_left (by omega)]
  · right
    intro j j1 j2
    rw [k1, List.mem_append]
    left
    rw [mem_down]
    omega

end TVP
