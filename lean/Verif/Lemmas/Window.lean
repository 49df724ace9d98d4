import Verif.Lemmas.Reload
import Verif.Props.Cache
import Verif.Lemmas.Drift

/-!
# The window of blocks kept by the cache while streaming
-/

namespace TVP
open Spec

/-- `a, a+1, ..., a+L-1` -/
def up (a : Int) (L : Nat) : List Int := (List.range L).map fun j : Nat => a + j
/-- `a, a-1, ..., a-L+1` -/
def down (a : Int) (L : Nat) : List Int := (List.range L).map fun j : Nat => a - j

theorem up_succ (a : Int) (L : Nat) : up a (L + 1) = a :: up (a + 1) L := by
  unfold up
  rw [List.range_succ_eq_map, List.map_cons, List.map_map]
  simp only [Nat.cast_zero, add_zero, List.cons.injEq, true_and]
  exact List.map_congr_left fun j _ => by simp only [Function.comp, Nat.succ_eq_add_one]; push_cast; ring

theorem up_snoc (a : Int) (L : Nat) : up a (L + 1) = up a L ++ [a + L] := by
  unfold up; rw [List.range_succ, List.map_append]; rfl

theorem mem_up {a k : Int} {L : Nat} : k ∈ up a L ↔ a ≤ k ∧ k < a + L := by
  unfold up
  rw [List.mem_map]
  constructor
  · rintro ⟨j, hj, rfl⟩; rw [List.mem_range] at hj; omega
  · rintro ⟨h1, h2⟩; exact ⟨(k - a).toNat, List.mem_range.2 (by omega), by omega⟩

theorem down_succ (a : Int) (L : Nat) : down a (L + 1) = a :: down (a - 1) L := by
  unfold down
  rw [List.range_succ_eq_map, List.map_cons, List.map_map]
  simp only [Nat.cast_zero, sub_zero, List.cons.injEq, true_and]
  exact List.map_congr_left fun j _ => by simp only [Function.comp, Nat.succ_eq_add_one]; push_cast; ring

theorem down_snoc (a : Int) (L : Nat) : down a (L + 1) = down a L ++ [a - L] := by
  unfold down; rw [List.range_succ, List.map_append]; rfl

theorem mem_down {a k : Int} {L : Nat} : k ∈ down a L ↔ k ≤ a ∧ a - L < k := by
  unfold down
  rw [List.mem_map]
  constructor
  · rintro ⟨j, hj, rfl⟩; rw [List.mem_range] at hj; omega
  · rintro ⟨h1, h2⟩; exact ⟨(a - k).toNat, List.mem_range.2 (by omega), by omega⟩

theorem up_sorted (a : Int) (L : Nat) : (up a L).Pairwise (· < ·) := by
  induction L generalizing a with
  | zero => simp [up]
  | succ L ih => rw [up_succ, List.pairwise_cons]; exact ⟨fun k hk => by rw [mem_up] at hk; omega, ih _⟩

theorem down_sorted (a : Int) (L : Nat) : (down a L).Pairwise (· > ·) := by
  induction L generalizing a with
  | zero => simp [down]
  | succ L ih => rw [down_succ, List.pairwise_cons]; exact ⟨fun k hk => by rw [mem_down] at hk; omega, ih _⟩

theorem mem_index {bs : List Buf} {ks : List Int} (h : bs.map Buf.index = ks) {b : Buf} (hb : b ∈ bs) : b.index ∈ ks := by
  rw [← h]; exact List.mem_map_of_mem hb

theorem index_of_core {bs bs' : List Buf} (h : bs'.map Buf.core = bs.map Buf.core) : bs'.map Buf.index = bs.map Buf.index := by
  have := congrArg (List.map fun p : Nat × Int × Int × List Nat => p.2.1) h
  rw [List.map_map, List.map_map] at this
  exact this

theorem size_of_core {bs bs' : List Buf} (h : bs'.map Buf.core = bs.map Buf.core) {b' : Buf} (hb : b' ∈ bs') :
    ∃ b ∈ bs, b.index = b'.index ∧ b.size = b'.size := by
  have : b'.core ∈ bs.map Buf.core := by rw [← h]; exact List.mem_map_of_mem hb
  obtain ⟨b0, hb0, e⟩ := List.mem_map.1 this
  unfold Buf.core at e
  simp only [Prod.mk.injEq] at e
  exact ⟨b0, hb0, e.2.1, e.2.2.1⟩

/-! ## Statuses -/

/-- One access changes a status only to unused (never a read one) or, for the block accessed, to read. -/
theorem findWithIndex_status (k : Int) : ∀ (bs : List Buf) (b' : Buf), b' ∈ (findWithIndex k bs).1 →
    ∃ b ∈ bs, b'.index = b.index ∧ (b'.status = b.status ∨ (b'.status = .unused ∧ b.status ≠ .read) ∨ (b'.status = .read ∧ b.index = k)) := by
  intro bs
  induction bs with
  | nil => intro b' h; cases h
  | cons x xs ih =>
    intro b' h
    unfold findWithIndex at h
    split at h
    · rename_i hx
      rcases List.mem_cons.1 h with rfl | h
      · exact ⟨x, List.mem_cons_self, rfl, Or.inr (Or.inr ⟨rfl, hx.1⟩)⟩
      · exact ⟨b', List.mem_cons_of_mem _ h, rfl, Or.inl rfl⟩
    · simp only at h
      rcases List.mem_cons.1 h with h | h
      · split at h
        · subst h; exact ⟨b', List.mem_cons_self, rfl, Or.inl rfl⟩
        · rename_i hr; subst h; exact ⟨x, List.mem_cons_self, rfl, Or.inr (Or.inl ⟨rfl, hr⟩)⟩
      · obtain ⟨b, hb, h1⟩ := ih b' h
        exact ⟨b, List.mem_cons_of_mem _ hb, h1⟩

/-- An access to a buffered block marks the blocks before it, and the block itself as read. -/
theorem findWithIndex_marks (f : Int → Int) (k : Int) : ∀ (bs : List Buf),
    (bs.map Buf.index).Pairwise (fun x y => f x < f y) → (∃ b ∈ bs, b.index = k ∧ 0 < b.size) →
    ∀ b' ∈ (findWithIndex k bs).1, (f b'.index < f k → b'.status = .unused ∨ b'.status = .read) ∧ (b'.index = k → b'.status = .read) := by
  intro bs
  induction bs with
  | nil => intro _ ⟨b, hb, _⟩; cases hb
  | cons x xs ih =>
    intro hp ⟨b, hb, hbk, hbs⟩ b' h
    rw [List.map_cons, List.pairwise_cons] at hp
    unfold findWithIndex at h
    split at h
    · rename_i hx
      rcases List.mem_cons.1 h with rfl | h
      · exact ⟨fun h1 => by rw [hx.1] at h1; exact absurd h1 (lt_irrefl _), fun _ => rfl⟩
      · have := hp.1 b'.index (List.mem_map_of_mem h)
        rw [hx.1] at this
        exact ⟨fun h1 => absurd (this.trans h1) (lt_irrefl _), fun h1 => by rw [h1] at this; exact absurd this (lt_irrefl _)⟩
    · rename_i hx
      have hb : b ∈ xs := by
        rcases List.mem_cons.1 hb with rfl | hb
        · exact absurd ⟨hbk, hbs⟩ hx
        · exact hb
      simp only at h
      rcases List.mem_cons.1 h with h | h
      · have hlt := hp.1 b.index (List.mem_map_of_mem hb)
        rw [hbk] at hlt
        have hi : b'.index = x.index := by rw [h]; split <;> rfl
        refine ⟨fun _ => ?_, fun h1 => ?_⟩
        · rw [h]; split
          · rename_i hr; exact Or.inr hr
          · exact Or.inl rfl
        · rw [hi] at h1; rw [h1] at hlt; exact absurd hlt (lt_irrefl _)
      · exact ih hp.2 ⟨b, hb, hbk, hbs⟩ b' h

/-- All buffers are as after a preload or reload. -/
def AllLoaded (c : Cache) : Prop := ∀ b ∈ c.bufs, b.status = .loaded

/-- After accesses to blocks from `lo` on, `lo` among them: everything before `lo` is unused, `lo` is read. -/
theorem gets_status (g : Geo) (f : Int → Int) (lo : Int) (is : List Int) (c : Cache) (hl : AllLoaded c)
    (hp : (c.bufs.map Buf.index).Pairwise (fun x y => f x < f y))
    (hin : ∀ i ∈ is, f lo ≤ f (u32 (i / g.B)) ∧ ∃ b ∈ c.bufs, b.index = u32 (i / g.B) ∧ 0 < b.size)
    (hlo : ∃ i ∈ is, u32 (i / g.B) = lo) :
    ∀ b ∈ (c.gets g is).2.bufs, (f b.index < f lo → b.status = .unused) ∧ (b.index = lo → b.status = .read) := by
  -- what one access does
  have step : ∀ (c : Cache) (i : Int), (c.bufs.map Buf.index).Pairwise (fun x y => f x < f y) →
      f lo ≤ f (u32 (i / g.B)) → (∃ b ∈ c.bufs, b.index = u32 (i / g.B) ∧ 0 < b.size) → (∀ b ∈ c.bufs, f b.index < f lo → b.status ≠ .read) →
      (∀ b ∈ (c.get g i).2.bufs, f b.index < f lo → b.status = .unused) ∧
      (u32 (i / g.B) = lo → ∀ b ∈ (c.get g i).2.bufs, b.index = lo → b.status = .read) := by
    intro c i hp h1 h2 h3
    rw [(c.get_eq g i).2]
    have hm := findWithIndex_marks f (u32 (i / g.B)) c.bufs hp h2
    have hs := findWithIndex_status (u32 (i / g.B)) c.bufs
    refine ⟨fun b hb hlt => ?_, fun e b hb hbi => (hm b hb).2 (by rw [hbi, e])⟩
    rcases (hm b hb).1 (lt_of_lt_of_le hlt h1) with h | h
    · exact h
    · obtain ⟨b0, hb0, hi, hst⟩ := hs b hb
      rcases hst with hst | hst | hst
      · exact absurd (hst.symm.trans h) (h3 b0 hb0 (by rw [← hi]; exact hlt))
      · exact hst.1
      · rw [hi, hst.2] at hlt; exact absurd (lt_of_lt_of_le hlt h1) (lt_irrefl _)
  have keep : ∀ (c : Cache) (i : Int), (∀ b ∈ c.bufs, b.index = lo → b.status = .read) → ∀ b ∈ (c.get g i).2.bufs, b.index = lo → b.status = .read := by
    intro c i h b hb hbi
    rw [(c.get_eq g i).2] at hb
    obtain ⟨b0, hb0, hi, hst⟩ := findWithIndex_status _ _ _ hb
    have := h b0 hb0 (by rw [← hi]; exact hbi)
    rcases hst with hst | hst | hst
    · rw [hst]; exact this
    · exact absurd this hst.2
    · exact hst.1
  -- induction
  have key : ∀ (is : List Int) (c : Cache), (c.bufs.map Buf.index).Pairwise (fun x y => f x < f y) →
      (∀ i ∈ is, f lo ≤ f (u32 (i / g.B)) ∧ ∃ b ∈ c.bufs, b.index = u32 (i / g.B) ∧ 0 < b.size) →
      (∀ b ∈ c.bufs, f b.index < f lo → b.status ≠ .read) →
      (∀ b ∈ (c.gets g is).2.bufs, f b.index < f lo → b.status ≠ .read) ∧
      ((is ≠ [] ∨ ∀ b ∈ c.bufs, f b.index < f lo → b.status = .unused) → ∀ b ∈ (c.gets g is).2.bufs, f b.index < f lo → b.status = .unused) ∧
      (((∃ i ∈ is, u32 (i / g.B) = lo) ∨ ∀ b ∈ c.bufs, b.index = lo → b.status = .read) → ∀ b ∈ (c.gets g is).2.bufs, b.index = lo → b.status = .read) := by
    intro is
    induction is with
    | nil =>
      intro c _ _ h3
      exact ⟨h3, fun h => h.resolve_left (fun h => h rfl), fun h => h.resolve_left (fun ⟨_, hi, _⟩ => by cases hi)⟩
    | cons i is ih =>
      intro c hp hin h3
      have hcore : (c.get g i).2.bufs.map Buf.core = c.bufs.map Buf.core := by
        rw [(c.get_eq g i).2]; exact findWithIndex_core _ _
      obtain ⟨s1, s2⟩ := step c i hp (hin i List.mem_cons_self).1 (hin i List.mem_cons_self).2 h3
      obtain ⟨k1, k2, k3⟩ := ih (c.get g i).2 (by rw [index_of_core hcore]; exact hp)
        (fun j hj => by
          obtain ⟨a1, b, hb, a2, a3⟩ := hin j (List.mem_cons_of_mem _ hj)
          obtain ⟨b', hb', e1, e2⟩ := size_of_core hcore.symm hb
          exact ⟨a1, b', hb', by rw [e1]; exact a2, by rw [e2]; exact a3⟩)
        (fun b hb hlt => by rw [s1 b hb hlt]; decide)
      refine ⟨k1, fun _ => k2 (Or.inr s1), fun h => k3 ?_⟩
      rcases h with ⟨j, hj, e⟩ | h
      · rcases List.mem_cons.1 hj with rfl | hj
        · exact Or.inr (s2 e)
        · exact Or.inl ⟨j, hj, e⟩
      · exact Or.inr (keep c i h)
  obtain ⟨_, k2, k3⟩ := key is c hp hin (fun b hb _ => by rw [hl b hb]; decide)
  obtain ⟨i, hi, e⟩ := hlo
  intro b hb
  exact ⟨k2 (Or.inl (fun h => by rw [h] at hi; cases hi)) b hb, k3 (Or.inl ⟨i, hi, e⟩) b hb⟩

/-! ## Forward reload -/

theorem maxIndex_up {b : Buf} {bs : List Buf} {a : Int} {L : Nat} (hb : b ∈ bs) (h : bs.map Buf.index = up a L) :
    maxIndex b bs = a + L - 1 := by
  obtain ⟨h1, x, hx, e⟩ := maxIndex_spec hb
  have hx' := mem_up.1 (mem_index h hx)
  have hL : a + L - 1 ∈ up a L := by
    rw [mem_up]
    have := mem_up.1 (mem_index h hb)
    omega
  rw [← h] at hL
  obtain ⟨y, hy, ey⟩ := List.mem_map.1 hL
  have := h1 y hy
  omega

theorem minIndex_down {b : Buf} {bs : List Buf} {a : Int} {L : Nat} (hb : b ∈ bs) (h : bs.map Buf.index = down a L) :
    minIndex b bs = a - L + 1 := by
  obtain ⟨h1, x, hx, e⟩ := minIndex_spec hb
  have hx' := mem_down.1 (mem_index h hx)
  have hL : a - L + 1 ∈ down a L := by
    rw [mem_down]
    have := mem_down.1 (mem_index h hb)
    omega
  rw [← h] at hL
  obtain ⟨y, hy, ey⟩ := List.mem_map.1 hL
  have := h1 y hy
  omega

/-- Reloading while playing forwards moves the window up to the first block read. -/
theorem reloadLoop_fwd {g : Geo} {rate : ℚ} (hr : 0 ≤ rate) : ∀ (d fuel : Nat) (c : Cache) (a : Int) (L : Nat), c.loopType = .none →
    c.bufs.map Buf.index = up a L → d ≤ L → 0 < L → d ≤ fuel → 0 ≤ a → (a + d + L) * g.B ≤ 2147483647 →
    (∀ b ∈ c.bufs, b.index < a + d → b.status = .unused) → (∀ b ∈ c.bufs, b.index = a + d → b.status ≠ .unused) →
    ∃ c', reloadLoop g rate fuel c = .ok c' ∧ c'.bufs.map Buf.index = up (a + d) L ∧ c'.loopType = .none := by
  intro d
  induction d with
  | zero =>
    intro fuel c a L hl hw _ hd _ _ _ _ hread
    refine ⟨c, ?_, by simpa using hw, hl⟩
    cases hc : c.bufs with
    | nil => cases fuel <;> (unfold reloadLoop; rw [hc])
    | cons b rest =>
      have hb : b.index = a := by
        obtain ⟨L', rfl⟩ : ∃ L', L = L' + 1 := ⟨L - 1, by omega⟩
        rw [hc, up_succ] at hw
        exact (List.cons.inj hw).1
      have hu := hread b (by rw [hc]; exact List.mem_cons_self) (by simpa using hb)
      cases fuel <;> (unfold reloadLoop; rw [hc]; simp only [hu, if_false])
  | succ d ih =>
    intro fuel c a L hl hw hd hL0 hfuel h0 hmax hun hread
    obtain ⟨fuel, rfl⟩ : ∃ f, fuel = f + 1 := ⟨fuel - 1, by omega⟩
    obtain ⟨L, rfl⟩ : ∃ L', L = L' + 1 := ⟨L - 1, by omega⟩
    have hB : (0 : Int) < g.B := by exact_mod_cast g.B_pos
    cases hc : c.bufs with
    | nil => rw [hc, up_succ] at hw; cases hw
    | cons b rest =>
      have hbm : b ∈ c.bufs := by rw [hc]; exact List.mem_cons_self
      have hw' := hw
      rw [hc, up_succ] at hw'
      have hb : b.index = a := (List.cons.inj hw').1
      have hrest : rest.map Buf.index = up (a + 1) L := (List.cons.inj hw').2
      have hu := hun b hbm (by rw [hb]; push_cast; omega)
      have h1 : (a + (L + 1 : Nat)) * g.B ≤ 2147483647 := by
        refine le_trans (mul_le_mul_of_nonneg_right ?_ (le_of_lt hB)) hmax
        push_cast; omega
      have h2 : a + (L + 1 : Nat) ≤ (a + (L + 1 : Nat)) * g.B := le_mul_of_one_le_right (by omega) (by omega)
      have e1 : i32 (maxIndex b c.bufs + 1) = a + (L + 1 : Nat) := by
        rw [maxIndex_up hbm hw, i32_of_in ⟨by omega, by omega⟩]; push_cast; omega
      have e2 : i32 ((a + (L + 1 : Nat)) * g.B) = (a + (L + 1 : Nat)) * g.B := i32_of_in ⟨by omega, h1⟩
      have hdec : reloadDecide g c rate b = .ok (some ((a + (L + 1 : Nat)) * g.B), .move) := by
        unfold reloadDecide
        rw [if_pos hr, hl]
        simp only [e1, e2]
        rfl
      have hidx : (loadBuffer g c.dev b ((a + (L + 1 : Nat)) * g.B)).1.index = a + (L + 1 : Nat) := by
        rw [loadBuffer_index, Int.mul_ediv_cancel _ (ne_of_gt hB), u32_of_in ⟨by omega, by omega⟩]
      unfold reloadLoop
      rw [hc]
      simp only [hu, if_true, hdec, ok_bind]
      rw [if_neg (by decide)]
      set c1 := reloadReorder (reloadLoad g c b rest (some ((a + (L + 1 : Nat)) * g.B))) .move with hc1
      have eb : c1.bufs = rest ++ [(loadBuffer g c.dev b ((a + (L + 1 : Nat)) * g.B)).1] := rfl
      obtain ⟨c', k1, k2, k3⟩ := ih fuel c1 (a + 1) (L + 1) hl
        (by rw [eb, List.map_append, hrest, up_snoc, List.map_cons, List.map_nil, hidx]; congr 2; push_cast; ring)
        (by omega) (by omega) (by omega) (by omega) (by convert hmax using 2; push_cast; ring)
        (by
          intro x hx hlt
          rw [eb, List.mem_append, List.mem_singleton] at hx
          rcases hx with hx | rfl
          · exact hun x (by rw [hc]; exact List.mem_cons_of_mem _ hx) (by push_cast; omega)
          · rw [hidx] at hlt; push_cast at hlt; omega)
        (by
          intro x hx he
          rw [eb, List.mem_append, List.mem_singleton] at hx
          rcases hx with hx | rfl
          · exact hread x (by rw [hc]; exact List.mem_cons_of_mem _ hx) (by push_cast; omega)
          · rw [loadBuffer_status]; decide)
      exact ⟨c', k1, by rw [k2]; congr 1; push_cast; ring, k3⟩

/-- The same for a whole reload. -/
theorem Cache.triggerReload_fwd {g : Geo} {rate : ℚ} (hr : 0 ≤ rate) {d fuel : Nat} {c : Cache} {a : Int} {L : Nat} (hl : c.loopType = .none)
    (hw : c.bufs.map Buf.index = up a L) (hd : d ≤ L) (hL : 0 < L) (hf : d ≤ fuel) (h0 : 0 ≤ a) (hmax : (a + d + L) * g.B ≤ 2147483647)
    (hun : ∀ b ∈ c.bufs, b.index < a + d → b.status = .unused) (hread : ∀ b ∈ c.bufs, b.index = a + d → b.status ≠ .unused) :
    ∃ c', c.triggerReload g fuel rate = .ok c' ∧ c'.bufs.map Buf.index = up (a + d) L ∧ c'.loopType = .none ∧ AllLoaded c' := by
  obtain ⟨c1, h1, h2, h3⟩ := reloadLoop_fwd hr d fuel c a L hl hw hd hL hf h0 hmax hun hread
  have hrr : reloadRate c rate = rate := by unfold reloadRate; rw [hl]; simp
  unfold Cache.triggerReload
  rw [hrr, h1]
  simp only [ok_bind]
  have hi : c1.resetStatus.bufs.map Buf.index = up (a + d) L := by rw [index_of_core (resetStatus_core c1)]; exact h2
  have hs : AllLoaded c1.resetStatus := by
    intro b hb
    obtain ⟨b0, _, rfl⟩ := List.mem_map.1 hb
    rfl
  refine ⟨_, rfl, ?_, ?_, ?_⟩
  · split <;> exact hi
  · split <;> exact h3
  · split <;> exact hs


/-! ## Things a reload and a preload leave alone -/

theorem reloadLoop_fails {g : Geo} (rate : ℚ) :
    ∀ (fuel : Nat) (c c' : Cache), reloadLoop g rate fuel c = .ok c' → c'.fails = c.fails := by
  intro fuel
  induction fuel with
  | zero =>
    intro c c' e
    unfold reloadLoop at e
    split at e
    · cases e; rfl
    · split at e
      · cases e
      · cases e; rfl
  | succ fuel ih =>
    intro c c' e
    unfold reloadLoop at e
    split at e
    · cases e; rfl
    · rename_i b rest hc
      split at e
      · obtain ⟨⟨load, act⟩, hd, e⟩ := bind_ok_iff'.1 e
        simp only at e
        have h2 : (reloadReorder (reloadLoad g c b rest load) act).fails = c.fails := by
          cases act <;> cases load <;> rfl
        split at e
        · injection e with e; rw [← e]; exact h2
        · exact (ih _ _ e).trans h2
      · cases e; rfl

theorem Cache.triggerReload_fails {g : Geo} {c c' : Cache} {fuel : Nat} {rate : ℚ} (e : c.triggerReload g fuel rate = .ok c') :
    c'.fails = c.fails := by
  unfold Cache.triggerReload at e
  obtain ⟨c1, h1, e⟩ := bind_ok_iff'.1 e
  have h2 := reloadLoop_fails _ _ _ _ h1
  injection e with e
  rw [← e]
  split <;> exact h2

/-- The next buffer of a preload into an empty vector. -/
def freshBuf (g : Geo) (n : Nat) : Buf := { addr := n, index := 0, size := 0, status := .constructed, data := g.junk n }

theorem preLoadLoop_append (g : Geo) (fw : Bool) (left : Nat) (c : Cache) (i : Int) :
    preLoadLoop g 0 fw (left + 1) c.bufs.length c i =
      if (loadBuffer g c.dev (freshBuf g c.bufs.length) i).2.2 < g.B
      then { c with bufs := c.bufs ++ [(loadBuffer g c.dev (freshBuf g c.bufs.length) i).1], dev := (loadBuffer g c.dev (freshBuf g c.bufs.length) i).2.1 }
      else preLoadLoop g 0 fw left (c.bufs.length + 1)
        { c with bufs := c.bufs ++ [(loadBuffer g c.dev (freshBuf g c.bufs.length) i).1], dev := (loadBuffer g c.dev (freshBuf g c.bufs.length) i).2.1 }
        (i32 (if fw then i + g.B else i - g.B)) := by
  conv_lhs => unfold preLoadLoop
  have e1 : (c.bufs ++ [({ addr := c.bufs.length, index := 0, size := 0, status := .constructed, data := g.junk c.bufs.length } : Buf)])[c.bufs.length]? = some (freshBuf g c.bufs.length) := by
    rw [List.getElem?_append_right (le_refl _)]; simp [freshBuf]
  have e2 : ∀ x : Buf, (c.bufs ++ [({ addr := c.bufs.length, index := 0, size := 0, status := .constructed, data := g.junk c.bufs.length } : Buf)]).set c.bufs.length x = c.bufs ++ [x] := by
    intro x; rw [List.set_append_right _ _ (le_refl _)]; simp
  simp only [ge_iff_le, Nat.zero_le, if_true, e1, e2]

/-- How many bytes a load delivers inside the file. -/
theorem loadBuffer_count {m : List Nat} {g : Geo} {d : Dev} {b : Buf} {i : Int} (hd : d.bytes = m) (h0 : 0 ≤ i) (h1 : i ≤ 2147483647)
    (hin : 2 * (i / g.B * g.B) ≤ m.length) :
    ((loadBuffer g d b i).2.2 : Int) = min (2 * (g.B : Int)) ((m.length : Int) - 2 * (i / g.B * g.B)) := by
  obtain ⟨got, hgot, _, e⟩ := loadBuffer_eq (b := b) h0 h1 (by rw [hd]; exact hin)
  have hq : 0 ≤ i / g.B * g.B := mul_nonneg (Int.ediv_nonneg h0 (by exact_mod_cast Nat.zero_le _)) (by exact_mod_cast Nat.zero_le _)
  rw [e, hgot, hd]
  simp only [List.length_take, List.length_drop]
  generalize i / (g.B : Int) * (g.B : Int) = x at *
  push_cast
  omega

theorem ediv_add_B {i B : Int} (hB : 0 < B) : (i + B) / B = i / B + 1 := by
  rw [Int.add_ediv_of_dvd_right (dvd_refl B), Int.ediv_self (ne_of_gt hB)]

/-- Preloading forwards fills consecutive blocks, stopping early only at the end of the file. -/
theorem preLoadLoop_fwd {m : List Nat} {g : Geo} : ∀ (left : Nat) (c : Cache) (i : Int), c.dev.bytes = m → 0 ≤ i →
    i + left * g.B ≤ 2147483647 → AllLoaded c →
    ∃ L, L ≤ left ∧ (0 < left → 0 < L) ∧
      (preLoadLoop g 0 true left c.bufs.length c i).bufs.map Buf.index = c.bufs.map Buf.index ++ up (i / g.B) L ∧
      AllLoaded (preLoadLoop g 0 true left c.bufs.length c i) ∧ (preLoadLoop g 0 true left c.bufs.length c i).loopType = c.loopType ∧
      (preLoadLoop g 0 true left c.bufs.length c i).fails = c.fails ∧
      (L = left ∨ (m.length : Int) < 2 * ((i / g.B + L - 1) * g.B) + g.B) := by
  intro left
  have hB : (0 : Int) < g.B := by exact_mod_cast g.B_pos
  induction left with
  | zero => intro c i hd _ _ hl; exact ⟨0, le_refl _, id, by simp [preLoadLoop, up], hl, rfl, rfl, Or.inl rfl⟩
  | succ left ih =>
    intro c i hd h0 hmax hl
    have hleft : (0 : Int) ≤ left * g.B := mul_nonneg (by omega) (le_of_lt hB)
    have hmax' : i + (left * g.B + g.B) ≤ 2147483647 := by convert hmax using 2; push_cast; ring
    have hq : 0 ≤ i / g.B := Int.ediv_nonneg h0 (le_of_lt hB)
    have hq2 : i / g.B ≤ i := Int.ediv_le_self _ h0
    have e4 : u32 (i / g.B) = i / g.B := u32_of_in ⟨by omega, by omega⟩
    rw [preLoadLoop_append]
    set x := loadBuffer g c.dev (freshBuf g c.bufs.length) i with hx
    set c1 : Cache := { c with bufs := c.bufs ++ [x.1], dev := x.2.1 } with hc1
    have hidx : x.1.index = i / g.B := by rw [hx, loadBuffer_index, e4]
    have hmap : c1.bufs.map Buf.index = c.bufs.map Buf.index ++ [i / g.B] := by
      rw [hc1]; simp only [List.map_append, List.map_cons, List.map_nil, hidx]
    have hl1 : AllLoaded c1 := by
      intro b hb
      rcases List.mem_append.1 hb with hb | hb
      · exact hl b hb
      · rw [List.mem_singleton] at hb; rw [hb]; rfl
    split
    · rename_i hlt
      refine ⟨1, by omega, fun _ => by omega, ?_, hl1, rfl, rfl, Or.inr ?_⟩
      · rw [hmap, up_succ]; rfl
      · by_cases hin : 2 * (i / g.B * g.B) ≤ m.length
        · have := loadBuffer_count (g := g) (b := freshBuf g c.bufs.length) hd h0 (by omega) hin
          rw [← hx] at this
          push_cast
          rw [show i / (g.B : Int) + 1 - 1 = i / (g.B : Int) by ring]
          generalize i / (g.B : Int) * (g.B : Int) = y at *
          omega
        · push_cast
          rw [show i / (g.B : Int) + 1 - 1 = i / (g.B : Int) by ring]
          omega
    · have hi' : i32 (i + g.B) = i + g.B := i32_of_in ⟨by omega, by omega⟩
      have hlen : c1.bufs.length = c.bufs.length + 1 := by simp [hc1]
      obtain ⟨L, k1, k2, k3, k4, k5, k6, k7⟩ := ih c1 (i + g.B) (by rw [hc1, hx]; simp only [loadBuffer_bytes]; exact hd) (by omega) (by linarith) hl1
      simp only [if_true, hi', ← hlen]
      refine ⟨L + 1, by omega, fun _ => by omega, ?_, k4, k5, k6, ?_⟩
      · rw [k3, hmap, up_succ, ediv_add_B hB]; simp
      · rcases k7 with k7 | k7
        · exact Or.inl (by omega)
        · right
          rw [ediv_add_B hB] at k7
          convert k7 using 4
          push_cast; ring

/-! ## Streaming forwards -/

/-- The cache while streaming forwards: blocks `a` to `a + L - 1`, in all buffers and enough for two updates of `mm` blocks, or
up to the end of the file. -/
structure FWin (m : List Nat) (g : Geo) (mm : Int) (c : Cache) (a : Int) (L : Nat) : Prop where
  reached : Reached m g c
  loop : c.loopType = .none
  ix : c.bufs.map Buf.index = up a L
  loaded : AllLoaded c
  a0 : 0 ≤ a
  enough : (L = g.N ∧ 2 * mm + 1 ≤ L) ∨ ∀ i, InFile m i → i / g.B < a + L

theorem index_size {m : List Nat} {g : Geo} (hB : g.B < 16384) {c : Cache} (h : Reached m g c) {b : Buf} (hb : b ∈ c.bufs) {i : Int}
    (hi : InFile m i) (he : b.index = i / g.B) : 0 < b.size := by
  have hB0 : (0 : Int) < g.B := by exact_mod_cast g.B_pos
  have h1 : i / g.B * g.B ≤ i := Int.ediv_mul_le _ (ne_of_gt hB0)
  have h2 : 0 ≤ i / g.B * g.B := mul_nonneg (Int.ediv_nonneg hi.1 (le_of_lt hB0)) (le_of_lt hB0)
  have hi2 := hi.2
  have := (h.sizes b hb).2 (by rw [he]; omega)
  rw [this, he, i16_of_in ⟨by omega, by omega⟩]
  omega

theorem inFile_block {m : List Nat} (hm : m.length < 4294967296) {g : Geo} {i : Int} (hi : InFile m i) :
    u32 (i / g.B) = i / g.B ∧ 0 ≤ i / g.B ∧ i / g.B * g.B ≤ i := by
  have hB0 : (0 : Int) < g.B := by exact_mod_cast g.B_pos
  have h0 : 0 ≤ i / g.B := Int.ediv_nonneg hi.1 (le_of_lt hB0)
  have := Int.ediv_le_self (g.B : Int) hi.1
  have := hi.2
  exact ⟨u32_of_in ⟨h0, by omega⟩, h0, Int.ediv_mul_le _ (ne_of_gt hB0)⟩

/-- Reading samples that are all buffered. -/
theorem gets_hits {m : List Nat} {g : Geo} {c : Cache} (hc : CacheOk m g c) (hb : IsBytes m) (hm : m.length < 4294967296) (is : List Int)
    (h : ∀ i ∈ is, InFile m i ∧ Buffered g c i) :
    (c.gets g is).1 = is.map (fun i => fileSample m i.toNat) ∧ (c.gets g is).2.fails = c.fails := by
  obtain ⟨h1, _, h3⟩ := C15_read_only g is c
  constructor
  · rw [h1]
    exact List.map_congr_left fun i hi => ((hc.serves hb hm (h i hi).1).1 (h i hi).2).1
  · rw [h3]
    have : missing g c is = 0 := by
      unfold missing
      rw [List.length_eq_zero_iff, List.filter_eq_nil_iff]
      intro i hi
      obtain ⟨hf, b, hbm, e1, e2⟩ := h i hi
      have : (c.bufs.any fun b => decide (b.index = u32 (i / g.B) ∧ 0 < b.size)) = true := by
        rw [List.any_eq_true]
        exact ⟨b, hbm, by rw [(inFile_block (g := g) hm hf).1]; simpa using ⟨e1, e2⟩⟩
      simpa using this
    omega

theorem Reached.gets {m : List Nat} {g : Geo} (hm : m.length < 4294967296) : ∀ (is : List Int) {c : Cache}, Reached m g c → Reached m g (c.gets g is).2
  | [], _, h => h
  | i :: is, _, h => Reached.gets hm is (h.step hm (.get i) rfl)

/-- One update and the reload after it. -/
theorem FWin.round {m : List Nat} {g : Geo} (hB : g.B < 16384) (hb : IsBytes m) (hm : m.length < 4294967296)
    (hfit : (m.length : Int) / 2 + g.N * g.B ≤ 2147483647) {mm : Int} {c : Cache} {a : Int} {L : Nat} (h : FWin m g mm c a L) {is : List Int} {lo : Int}
    (h1 : a ≤ lo) (h2 : lo ≤ a + mm) (hin : ∀ i ∈ is, InFile m i ∧ lo ≤ i / g.B ∧ i / g.B ≤ lo + mm) (hlo : ∃ i ∈ is, i / g.B = lo) :
    (∀ i ∈ is, Buffered g c i) ∧ ∀ fuel rate, g.N ≤ fuel → 0 ≤ rate → ∃ c', (c.gets g is).2.triggerReload g fuel rate = .ok c' ∧ FWin m g mm c' lo L := by
  have hB0 : (0 : Int) < g.B := by exact_mod_cast g.B_pos
  have hwin : ∀ i ∈ is, i / g.B < a + L := by
    intro i hi
    obtain ⟨f, _, u⟩ := hin i hi
    rcases h.enough with e | e
    · omega
    · exact e i f
  have hbuf : ∀ i ∈ is, ∃ b ∈ c.bufs, b.index = i / g.B ∧ 0 < b.size := by
    intro i hi
    obtain ⟨f, l, u⟩ := hin i hi
    have : i / g.B ∈ c.bufs.map Buf.index := by rw [h.ix, mem_up]; exact ⟨by omega, hwin i hi⟩
    obtain ⟨b, hb, e⟩ := List.mem_map.1 this
    exact ⟨b, hb, e, index_size hB h.reached hb f e⟩
  refine ⟨hbuf, fun fuel rate hf hr => ?_⟩
  obtain ⟨i0, hi0, ei0⟩ := hlo
  have hst := gets_status g (fun x => x) lo is c h.loaded (by rw [h.ix]; exact up_sorted a L)
    (fun i hi => by
      rw [(inFile_block (g := g) hm (hin i hi).1).1]
      exact ⟨(hin i hi).2.1, hbuf i hi⟩)
    ⟨i0, hi0, by rw [(inFile_block (g := g) hm (hin i0 hi0).1).1]; exact ei0⟩
  obtain ⟨_, hsame, _⟩ := C15_read_only g is c
  have hL : L ≤ g.N := by
    have := h.reached.len
    rw [← List.length_map (f := Buf.index), h.ix] at this
    simpa [up] using this
  have hw0 := hwin i0 hi0
  have hfit2 : (lo + L) * g.B ≤ 2147483647 := by
    have h3 := (inFile_block (g := g) hm (hin i0 hi0).1).2.2
    have h4 := (hin i0 hi0).1.2
    rw [ei0] at h3
    have h5 : (L : Int) * g.B ≤ g.N * g.B := mul_le_mul_of_nonneg_right (by exact_mod_cast hL) (le_of_lt hB0)
    rw [add_mul]
    omega
  obtain ⟨d, hd⟩ : ∃ d : Nat, lo = a + d := ⟨(lo - a).toNat, by omega⟩
  obtain ⟨c', k1, k2, k3, k4⟩ := Cache.triggerReload_fwd (g := g) hr (d := d) (fuel := fuel) (c := (c.gets g is).2) (a := a) (L := L)
    (by rw [hsame.2.2.2.1]; exact h.loop) (by rw [index_of_core hsame.2.1]; exact h.ix) (by omega) (by omega) (by omega) h.a0 (by rw [← hd]; exact hfit2)
    (fun b hb hlt => (hst b hb).1 (by rw [hd]; exact hlt)) (fun b hb he => by rw [(hst b hb).2 (by rw [hd]; exact he)]; decide)
  refine ⟨c', k1, (Reached.gets hm is h.reached).step hm (.reload fuel rate) k1, k3, by rw [hd]; exact k2, k4, by have := h.a0; omega, ?_⟩
  rcases h.enough with e | e
  · exact Or.inl e
  · exact Or.inr fun i hi => by have := e i hi; omega

/-- Preloading an empty cache. -/
theorem FWin.preLoad {m : List Nat} {g : Geo} (hm : m.length < 4294967296) (hN : 1 ≤ g.N) {mm : Int} (hmm : 2 * mm + 1 ≤ g.N) {c : Cache}
    (hc : Reached m g c) (hl : c.loopType = .none) (hb : c.bufs = []) {i : Int} (h0 : 0 ≤ i) (hi : i + g.N * g.B ≤ 2147483647) :
    (∃ L, FWin m g mm (c.preLoad g i true) (i / g.B) L) ∧ (c.preLoad g i true).fails = c.fails := by
  have hB : (0 : Int) < g.B := by exact_mod_cast g.B_pos
  have hi32 : InI32 i := ⟨by omega, by
    have : (0 : Int) ≤ g.N * g.B := mul_nonneg (by omega) (le_of_lt hB)
    omega⟩
  have hreach := hc.step hm (.preLoad i true) rfl
  rw [i32_of_in hi32] at hreach
  obtain ⟨L, k1, k2, k3, k4, k5, k6, k7⟩ := preLoadLoop_fwd (g := g) g.N c i hc.ok.dev h0 hi (by intro b hb'; rw [hb] at hb'; cases hb')
  have e : c.preLoad g i true = preLoadLoop g 0 true g.N c.bufs.length c i := by unfold Cache.preLoad; rw [hb]; rfl
  rw [e]
  refine ⟨⟨L, by rw [← e]; exact hreach, by rw [k5]; exact hl, by rw [k3, hb]; rfl, k4, Int.ediv_nonneg h0 (le_of_lt hB), ?_⟩, k6⟩
  rcases k7 with k7 | k7
  · exact Or.inl ⟨k7, by rw [k7]; exact hmm⟩
  · right
    intro j hj
    have h2 := hj.2
    have h3 : j < (i / g.B + L - 1 + 1) * g.B := by rw [add_mul (_ - 1), one_mul]; omega
    have := Int.ediv_lt_of_lt_mul hB h3
    omega

end TVP
