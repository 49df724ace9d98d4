import Verif.Lemmas.LoopWindowRev

/-!
# The blocks kept by the cache in a ping-pong loop
-/

namespace TVP
open Spec

/-! ## Which buffers are marked as read -/

/-- A block that has not been accessed is not marked as read. -/
theorem gets_unread (g : Geo) (k : Int) : ∀ (is : List Int) (c : Cache), (∀ i ∈ is, u32 (i / g.B) ≠ k) →
    (∀ b ∈ c.bufs, b.index = k → b.status ≠ .read) → ∀ b ∈ (c.gets g is).2.bufs, b.index = k → b.status ≠ .read := by
  intro is
  induction is with
  | nil => intro c _ h; exact h
  | cons i is ih =>
    intro c hin h
    refine ih (c.get g i).2 (fun j hj => hin j (List.mem_cons_of_mem _ hj)) ?_
    intro b hb hbi
    rw [(c.get_eq g i).2] at hb
    obtain ⟨b0, hb0, hi, hst⟩ := findWithIndex_status _ _ _ hb
    have h0 := h b0 hb0 (by rw [← hi]; exact hbi)
    rcases hst with hst | hst | hst
    · rw [hst]; exact h0
    · rw [hst.1]; decide
    · exact absurd (by rw [← hst.2, ← hi]; exact hbi) (hin i List.mem_cons_self)

/-- A buffered block that has been accessed is marked as read. -/
theorem gets_read (g : Geo) (f : Int → Int) (k : Int) : ∀ (is : List Int) (c : Cache),
    (c.bufs.map Buf.index).Pairwise (fun x y => f x < f y) → (∃ b ∈ c.bufs, b.index = k ∧ 0 < b.size) →
    ((∃ i ∈ is, u32 (i / g.B) = k) ∨ ∀ b ∈ c.bufs, b.index = k → b.status = .read) →
    ∀ b ∈ (c.gets g is).2.bufs, b.index = k → b.status = .read := by
  intro is
  induction is with
  | nil => intro c _ _ h; exact h.resolve_left (fun ⟨_, hi, _⟩ => by cases hi)
  | cons i is ih =>
    intro c hp hk h
    have hcore : (c.get g i).2.bufs.map Buf.core = c.bufs.map Buf.core := by
      rw [(c.get_eq g i).2]; exact findWithIndex_core _ _
    refine ih (c.get g i).2 (by rw [index_of_core hcore]; exact hp) ?_ ?_
    · obtain ⟨b, hb, e1, e2⟩ := hk
      obtain ⟨b', hb', a1, a2⟩ := size_of_core hcore.symm hb
      exact ⟨b', hb', by rw [a1]; exact e1, by rw [a2]; exact e2⟩
    · rcases h with ⟨j, hj, e⟩ | h
      · rcases List.mem_cons.1 hj with rfl | hj
        · right
          intro b hb hbi
          rw [(c.get_eq g j).2] at hb
          refine (findWithIndex_marks f (u32 (j / g.B)) c.bufs hp (by rw [e]; exact hk) b hb).2 (by rw [hbi, e])
        · exact Or.inl ⟨j, hj, e⟩
      · right
        intro b hb hbi
        rw [(c.get_eq g i).2] at hb
        obtain ⟨b0, hb0, hi, hst⟩ := findWithIndex_status _ _ _ hb
        have h0 := h b0 hb0 (by rw [← hi]; exact hbi)
        rcases hst with hst | hst | hst
        · rw [hst]; exact h0
        · exact absurd h0 hst.2
        · exact hst.1

/-! ## Reversed windows -/

theorem up_length (a : Int) (L : Nat) : (up a L).length = L := by unfold up; simp
theorem down_length (a : Int) (L : Nat) : (down a L).length = L := by unfold down; simp

theorem up_reverse (a : Int) (L : Nat) : (up a L).reverse = down (a + L - 1) L := by
  induction L generalizing a with
  | zero => rfl
  | succ L ih =>
    rw [up_snoc, List.reverse_append, ih, down_succ]
    simp only [List.reverse_cons, List.reverse_nil, List.nil_append, List.cons_append, List.cons.injEq]
    refine ⟨by push_cast; ring, by congr 1; push_cast; ring⟩

theorem down_reverse (a : Int) (L : Nat) : (down a L).reverse = up (a - L + 1) L := by
  induction L generalizing a with
  | zero => rfl
  | succ L ih =>
    rw [down_snoc, List.reverse_append, ih, up_succ]
    simp only [List.reverse_cons, List.reverse_nil, List.nil_append, List.cons_append, List.cons.injEq]
    refine ⟨by push_cast; ring, by congr 1; push_cast; ring⟩

theorem lastSlot_of {g : Geo} {bs : List Buf} {ks : List Int} (h : bs.map Buf.index = ks) {x : Int} (hx : ks[g.N - 1]? = some x) :
    ∃ b ∈ bs, lastSlot g bs = .ok b ∧ b.index = x := by
  rw [← h, List.getElem?_map] at hx
  cases hb : bs[g.N - 1]? with
  | none => rw [hb] at hx; cases hx
  | some b =>
    rw [hb] at hx
    refine ⟨b, List.mem_of_getElem? hb, ?_, by simpa using hx⟩
    unfold lastSlot; rw [hb]

theorem up_last {a : Int} {L : Nat} (h : 0 < L) : (up a L)[L - 1]? = some (a + L - 1) := by
  unfold up
  rw [List.getElem?_map, List.getElem?_range (by omega)]
  simp only [Option.map_some, Option.some.injEq]
  omega

theorem down_last {a : Int} {L : Nat} (h : 0 < L) : (down a L)[L - 1]? = some (a - L + 1) := by
  unfold down
  rw [List.getElem?_map, List.getElem?_range (by omega)]
  simp only [Option.map_some, Option.some.injEq]
  omega

/-! ## Reloading -/

/-- The loop points as the cache knows them. -/
structure PConf (s f : Int) (c : Cache) : Prop where
  loop : c.loopType = .pingpong
  lf : c.loopFinishBlk = f
  ls : c.loopStartBlk = s

/-- A front buffer that is in use ends the reload. -/
theorem reloadLoop_stop {g : Geo} {rate : ℚ} {fuel : Nat} {c : Cache} {b : Buf} {rest : List Buf} (hc : c.bufs = b :: rest)
    (hb : b.status ≠ .unused) : reloadLoop g rate fuel c = .ok c := by
  cases fuel <;> (unfold reloadLoop; rw [hc]; simp only [hb, if_false])

/-- Moving the window up. -/
theorem reloadLoop_slideUp {g : Geo} {rate : ℚ} (hr : 0 ≤ rate) {s f : Int} (hmax : (f + 1) * g.B ≤ 2147483647) :
    ∀ (d fuel : Nat) (c : Cache) (w : Int), PConf s f c → c.bufs.map Buf.index = up w g.N → 0 < g.N → 0 ≤ w → w + d + g.N - 1 ≤ f →
    d ≤ g.N → (∀ b ∈ c.bufs, b.index < w + d → b.status = .unused) →
    ∃ c', reloadLoop g rate (fuel + d) c = reloadLoop g rate fuel c' ∧ PConf s f c' ∧ c'.prevRate = c.prevRate ∧
      c'.bufs.map Buf.index = up (w + d) g.N ∧ ∀ b ∈ c'.bufs, b ∈ c.bufs ∨ (b.status = .loaded ∧ w + g.N ≤ b.index) := by
  intro d
  have hB : (0 : Int) < g.B := by exact_mod_cast g.B_pos
  induction d with
  | zero =>
    intro fuel c w hc hix _ _ _ _ _
    exact ⟨c, rfl, hc, rfl, by simpa using hix, fun b hb => Or.inl hb⟩
  | succ d ih =>
    intro fuel c w hc hix hN h0 hwf hdN hun
    obtain ⟨N, hN'⟩ : ∃ N, g.N = N + 1 := ⟨g.N - 1, by omega⟩
    have hNi : (g.N : Int) = N + 1 := by rw [hN']; push_cast; rfl
    have hdi : ((d + 1 : Nat) : Int) = d + 1 := by push_cast; rfl
    have hf1 : f + 1 ≤ (f + 1) * g.B := le_mul_of_one_le_right (by omega) (by omega)
    cases hcb : c.bufs with
    | nil => rw [hcb, hN', up_succ] at hix; cases hix
    | cons b rest =>
      have hbm : b ∈ c.bufs := by rw [hcb]; exact List.mem_cons_self
      have hix' := hix
      rw [hcb, hN', up_succ] at hix'
      have hb : b.index = w := (List.cons.inj hix').1
      have hrest : rest.map Buf.index = up (w + 1) N := (List.cons.inj hix').2
      have hu := hun b hbm (by rw [hb]; omega)
      have e1 : i32 (maxIndex b c.bufs + 1) = w + g.N := by
        rw [maxIndex_up hbm hix, i32_of_in ⟨by omega, by omega⟩]; omega
      have h1 : (w + g.N) * g.B ≤ (f + 1) * g.B := mul_le_mul_of_nonneg_right (by omega) (le_of_lt hB)
      have h2 : 0 ≤ (w + g.N) * g.B := mul_nonneg (by omega) (le_of_lt hB)
      have e2 : i32 ((w + g.N) * g.B) = (w + g.N) * g.B := i32_of_in ⟨by omega, by omega⟩
      have hdec : reloadDecide g c rate b = .ok (some ((w + g.N) * g.B), .move) := by
        unfold reloadDecide
        rw [if_pos hr, hc.loop]
        simp only [e1, e2, hc.lf]
        rw [if_neg (by omega)]
        rfl
      have hidx : (loadBuffer g c.dev b ((w + g.N) * g.B)).1.index = w + g.N := by
        rw [loadBuffer_index, Int.mul_ediv_cancel _ (ne_of_gt hB), u32_of_in ⟨by omega, by omega⟩]
      rw [← add_assoc]
      conv in reloadLoop g rate (fuel + d + 1) c => unfold reloadLoop
      rw [hcb]
      simp only [hu, if_true, hdec, ok_bind]
      rw [if_neg (by decide)]
      set c1 := reloadReorder (reloadLoad g c b rest (some ((w + g.N) * g.B))) .move with hc1
      have eb : c1.bufs = rest ++ [(loadBuffer g c.dev b ((w + g.N) * g.B)).1] := rfl
      obtain ⟨c', k1, k2, k3, k4, k5⟩ := ih fuel c1 (w + 1) ⟨hc.loop, hc.lf, hc.ls⟩
        (by rw [eb, List.map_append, hrest, List.map_cons, List.map_nil, hidx, hN', up_snoc]; congr 2; push_cast; ring)
        hN (by omega) (by omega) (by omega)
        (by
          intro x hx hlt
          rw [eb, List.mem_append, List.mem_singleton] at hx
          rcases hx with hx | rfl
          · exact hun x (by rw [hcb]; exact List.mem_cons_of_mem _ hx) (by omega)
          · rw [hidx] at hlt; omega)
      refine ⟨c', k1, k2, k3, by rw [k4]; congr 1; push_cast; ring, ?_⟩
      intro x hx
      rcases k5 x hx with h | ⟨h3, h4⟩
      · rw [eb, List.mem_append, List.mem_singleton] at h
        rcases h with h | rfl
        · exact Or.inl (List.mem_cons_of_mem _ h)
        · exact Or.inr ⟨loadBuffer_status .., by rw [hidx]⟩
      · exact Or.inr ⟨h3, by omega⟩

/-- Moving the window down. -/
theorem reloadLoop_slideDown {g : Geo} {rate : ℚ} (hr : rate < 0) {s f M : Int} (hs : 0 ≤ s) (hmax : (M + 1) * g.B ≤ 2147483647) :
    ∀ (d fuel : Nat) (c : Cache) (v : Int), PConf s f c → c.bufs.map Buf.index = down v g.N → 0 < g.N → v ≤ M → s ≤ v - d - g.N + 1 →
    d ≤ g.N → (∀ b ∈ c.bufs, v - d < b.index → b.status = .unused) →
    ∃ c', reloadLoop g rate (fuel + d) c = reloadLoop g rate fuel c' ∧ PConf s f c' ∧ c'.prevRate = c.prevRate ∧
      c'.bufs.map Buf.index = down (v - d) g.N ∧ ∀ b ∈ c'.bufs, b ∈ c.bufs ∨ (b.status = .loaded ∧ b.index ≤ v - g.N) := by
  intro d
  have hB : (0 : Int) < g.B := by exact_mod_cast g.B_pos
  induction d with
  | zero =>
    intro fuel c v hc hix _ _ _ _ _
    exact ⟨c, rfl, hc, rfl, by simpa using hix, fun b hb => Or.inl hb⟩
  | succ d ih =>
    intro fuel c v hc hix hN hvM hsv hdN hun
    obtain ⟨N, hN'⟩ : ∃ N, g.N = N + 1 := ⟨g.N - 1, by omega⟩
    have hNi : (g.N : Int) = N + 1 := by rw [hN']; push_cast; rfl
    have hdi : ((d + 1 : Nat) : Int) = d + 1 := by push_cast; rfl
    have hf1 : M + 1 ≤ (M + 1) * g.B := le_mul_of_one_le_right (by omega) (by omega)
    cases hcb : c.bufs with
    | nil => rw [hcb, hN', down_succ] at hix; cases hix
    | cons b rest =>
      have hbm : b ∈ c.bufs := by rw [hcb]; exact List.mem_cons_self
      have hix' := hix
      rw [hcb, hN', down_succ] at hix'
      have hb : b.index = v := (List.cons.inj hix').1
      have hrest : rest.map Buf.index = down (v - 1) N := (List.cons.inj hix').2
      have hu := hun b hbm (by rw [hb]; omega)
      have e1 : i32 (minIndex b c.bufs - 1) = v - g.N := by
        rw [minIndex_down hbm hix, i32_of_in ⟨by omega, by omega⟩]; omega
      have h1 : (v - g.N) * g.B ≤ (M + 1) * g.B := mul_le_mul_of_nonneg_right (by omega) (le_of_lt hB)
      have h2 : 0 ≤ (v - g.N) * g.B := mul_nonneg (by omega) (le_of_lt hB)
      have e2 : i32 ((v - g.N) * g.B) = (v - g.N) * g.B := i32_of_in ⟨by omega, by omega⟩
      have hdec : reloadDecide g c rate b = .ok (some ((v - g.N) * g.B), .move) := by
        unfold reloadDecide
        rw [if_neg (not_le.2 hr), hc.loop]
        simp only [e1, e2, hc.ls]
        rw [if_neg (by omega)]
        rfl
      have hidx : (loadBuffer g c.dev b ((v - g.N) * g.B)).1.index = v - g.N := by
        rw [loadBuffer_index, Int.mul_ediv_cancel _ (ne_of_gt hB), u32_of_in ⟨by omega, by omega⟩]
      rw [← add_assoc]
      conv in reloadLoop g rate (fuel + d + 1) c => unfold reloadLoop
      rw [hcb]
      simp only [hu, if_true, hdec, ok_bind]
      rw [if_neg (by decide)]
      set c1 := reloadReorder (reloadLoad g c b rest (some ((v - g.N) * g.B))) .move with hc1
      have eb : c1.bufs = rest ++ [(loadBuffer g c.dev b ((v - g.N) * g.B)).1] := rfl
      obtain ⟨c', k1, k2, k3, k4, k5⟩ := ih fuel c1 (v - 1) ⟨hc.loop, hc.lf, hc.ls⟩
        (by rw [eb, List.map_append, hrest, List.map_cons, List.map_nil, hidx, hN', down_snoc]; congr 2; push_cast; ring)
        hN (by omega) (by omega) (by omega)
        (by
          intro x hx hlt
          rw [eb, List.mem_append, List.mem_singleton] at hx
          rcases hx with hx | rfl
          · exact hun x (by rw [hcb]; exact List.mem_cons_of_mem _ hx) (by omega)
          · rw [hidx] at hlt; omega)
      refine ⟨c', k1, k2, k3, by rw [k4]; congr 1; push_cast; ring, ?_⟩
      intro x hx
      rcases k5 x hx with h | ⟨h3, h4⟩
      · rw [eb, List.mem_append, List.mem_singleton] at h
        rcases h with h | rfl
        · exact Or.inl (List.mem_cons_of_mem _ h)
        · exact Or.inr ⟨loadBuffer_status .., by rw [hidx]⟩
      · exact Or.inr ⟨h3, by omega⟩

/-- At the top of the loop: nothing more to load. -/
theorem reloadLoop_top {g : Geo} {rate : ℚ} (hr : 0 ≤ rate) {s f : Int} (hmax : (f + 1) * g.B ≤ 2147483647) {fuel : Nat} {c : Cache}
    (hc : PConf s f c) (hN : 1 < g.N) (h0 : 0 ≤ f - g.N + 1) (hix : c.bufs.map Buf.index = up (f - g.N + 1) g.N)
    (hun : ∀ b ∈ c.bufs, b.index = f - g.N + 1 → b.status = .unused) :
    ((∀ b ∈ c.bufs, b.index = f → b.status ≠ .read) → reloadLoop g rate (fuel + 1) c = .ok c) ∧
    ((∀ b ∈ c.bufs, b.index = f → b.status = .read) →
      ∃ c', reloadLoop g rate (fuel + 1) c = .ok c' ∧ PConf s f c' ∧ c'.prevRate = -c.prevRate ∧ c'.bufs.map Buf.index = down f g.N) := by
  have hB : (0 : Int) < g.B := by exact_mod_cast g.B_pos
  obtain ⟨N, hN'⟩ : ∃ N, g.N = N + 1 := ⟨g.N - 1, by omega⟩
  have hf1 : f + 1 ≤ (f + 1) * g.B := le_mul_of_one_le_right (by omega) (by omega)
  obtain ⟨x, hxm, hx, hxi⟩ := lastSlot_of hix (up_last (by omega))
  cases hcb : c.bufs with
  | nil => rw [hcb, hN', up_succ] at hix; cases hix
  | cons b rest =>
    have hbm : b ∈ c.bufs := by rw [hcb]; exact List.mem_cons_self
    have hix' := hix
    rw [hcb, hN', up_succ] at hix'
    have hb : b.index = f - g.N + 1 := by rw [hN']; exact (List.cons.inj hix').1
    have hu := hun b hbm hb
    have e1 : i32 (maxIndex b c.bufs + 1) = f + 1 := by
      rw [maxIndex_up hbm hix, i32_of_in ⟨by omega, by omega⟩]; omega
    have hdec : reloadDecide g c rate b = .ok (none, if x.status = .read then .reverse else .nop) := by
      unfold reloadDecide
      rw [if_pos hr, hc.loop]
      simp only [e1, hc.lf]
      rw [if_pos (by omega), hx]
      simp only [ok_bind]
      split <;> rfl
    rw [← hcb]
    constructor
    · intro hf
      unfold reloadLoop
      rw [hcb]
      simp only [hu, if_true, hdec, ok_bind]
      rw [if_neg (hf x hxm (by rw [hxi]; omega)), if_pos rfl]
      rfl
    · intro hf
      have hxr := hf x hxm (by rw [hxi]; omega)
      unfold reloadLoop
      rw [hcb]
      simp only [hu, if_true, hdec, ok_bind]
      rw [if_pos hxr, if_neg (by decide)]
      set c1 := reloadReorder (reloadLoad g c b rest none) .reverse with hc1
      have eb : c1.bufs = c.bufs.reverse := rfl
      have hix1 : c1.bufs.map Buf.index = down f g.N := by
        rw [eb, List.map_reverse, hix, up_reverse]; congr 1; omega
      cases hc1b : c1.bufs with
      | nil => rw [hc1b, hN', down_succ] at hix1; cases hix1
      | cons y ys =>
        have hy : y.index = f := by
          have := hix1
          rw [hc1b, hN', down_succ] at this
          exact (List.cons.inj this).1
        have hym : y ∈ c.bufs := by rw [← List.mem_reverse, ← eb, hc1b]; exact List.mem_cons_self
        refine ⟨c1, reloadLoop_stop hc1b (by rw [hf y hym hy]; decide), ⟨hc.loop, hc.lf, hc.ls⟩, rfl, hix1⟩

/-- At the bottom of the loop: nothing more to load. -/
theorem reloadLoop_bottom {g : Geo} {rate : ℚ} (hr : rate < 0) {s f M : Int} (hmax : (M + 1) * g.B ≤ 2147483647) {fuel : Nat} {c : Cache}
    (hc : PConf s f c) (hN : 1 < g.N) (h0 : 0 ≤ s) (hM : s ≤ M) (hix : c.bufs.map Buf.index = down (s + g.N - 1) g.N)
    (hun : ∀ b ∈ c.bufs, b.index = s + g.N - 1 → b.status = .unused) :
    ((∀ b ∈ c.bufs, b.index = s → b.status ≠ .read) → reloadLoop g rate (fuel + 1) c = .ok c) ∧
    ((∀ b ∈ c.bufs, b.index = s → b.status = .read) →
      ∃ c', reloadLoop g rate (fuel + 1) c = .ok c' ∧ PConf s f c' ∧ c'.prevRate = -c.prevRate ∧ c'.bufs.map Buf.index = up s g.N) := by
  have hB : (0 : Int) < g.B := by exact_mod_cast g.B_pos
  obtain ⟨N, hN'⟩ : ∃ N, g.N = N + 1 := ⟨g.N - 1, by omega⟩
  have hf1 : M + 1 ≤ (M + 1) * g.B := le_mul_of_one_le_right (by omega) (by omega)
  obtain ⟨x, hxm, hx, hxi⟩ := lastSlot_of hix (down_last (by omega))
  cases hcb : c.bufs with
  | nil => rw [hcb, hN', down_succ] at hix; cases hix
  | cons b rest =>
    have hbm : b ∈ c.bufs := by rw [hcb]; exact List.mem_cons_self
    have hix' := hix
    rw [hcb, hN', down_succ] at hix'
    have hb : b.index = s + g.N - 1 := by rw [hN']; exact (List.cons.inj hix').1
    have hu := hun b hbm hb
    have e1 : i32 (minIndex b c.bufs - 1) = s - 1 := by
      rw [minIndex_down hbm hix, i32_of_in ⟨by omega, by omega⟩]; omega
    have hdec : reloadDecide g c rate b = .ok (none, if x.status = .read then .reverse else .nop) := by
      unfold reloadDecide
      rw [if_neg (not_le.2 hr), hc.loop]
      simp only [e1, hc.ls]
      rw [if_pos (by omega), hx]
      simp only [ok_bind]
      split <;> rfl
    rw [← hcb]
    constructor
    · intro hf
      unfold reloadLoop
      rw [hcb]
      simp only [hu, if_true, hdec, ok_bind]
      rw [if_neg (hf x hxm (by rw [hxi]; omega)), if_pos rfl]
      rfl
    · intro hf
      have hxr := hf x hxm (by rw [hxi]; omega)
      unfold reloadLoop
      rw [hcb]
      simp only [hu, if_true, hdec, ok_bind]
      rw [if_pos hxr, if_neg (by decide)]
      set c1 := reloadReorder (reloadLoad g c b rest none) .reverse with hc1
      have eb : c1.bufs = c.bufs.reverse := rfl
      have hix1 : c1.bufs.map Buf.index = up s g.N := by
        rw [eb, List.map_reverse, hix, down_reverse]; congr 1; omega
      cases hc1b : c1.bufs with
      | nil => rw [hc1b, hN', up_succ] at hix1; cases hix1
      | cons y ys =>
        have hy : y.index = s := by
          have := hix1
          rw [hc1b, hN', up_succ] at this
          exact (List.cons.inj this).1
        have hym : y ∈ c.bufs := by rw [← List.mem_reverse, ← eb, hc1b]; exact List.mem_cons_self
        refine ⟨c1, reloadLoop_stop hc1b (by rw [hf y hym hy]; decide), ⟨hc.loop, hc.lf, hc.ls⟩, rfl, hix1⟩

/-! ## One update and the reload after it -/

/-- The cache in a ping-pong loop, apart from the blocks held. -/
structure PWin (m : List Nat) (g : Geo) (s f : Int) (c : Cache) : Prop where
  reached : Reached m g c
  conf : PConf s f c
  loaded : AllLoaded c

theorem reloadRate_up {s f : Int} {c : Cache} {rate : ℚ} (h : PConf s f c) (hp : 0 ≤ c.prevRate) : 0 ≤ reloadRate c rate := by
  unfold reloadRate
  rw [h.loop]
  by_cases hr : 0 ≤ rate
  · rw [if_neg]
    · exact hr
    · rintro ⟨_, ⟨_, h⟩ | ⟨h, _⟩⟩ <;> linarith
  · rw [if_pos ⟨rfl, Or.inr ⟨not_le.1 hr, hp⟩⟩]; exact hp

theorem reloadRate_down {s f : Int} {c : Cache} {rate : ℚ} (h : PConf s f c) (hp : c.prevRate < 0) : reloadRate c rate < 0 := by
  unfold reloadRate
  rw [h.loop]
  by_cases hr : 0 ≤ rate
  · rw [if_pos ⟨rfl, Or.inl ⟨hr, hp⟩⟩]; exact hp
  · rw [if_neg]
    · exact not_le.1 hr
    · rintro ⟨_, ⟨h, _⟩ | ⟨_, h⟩⟩ <;> linarith

theorem PConf.congr {s f : Int} {c c' : Cache} (h : PConf s f c) (e1 : c'.loopType = c.loopType)
    (e2 : c'.loopStartBlk = c.loopStartBlk) (e3 : c'.loopFinishBlk = c.loopFinishBlk) : PConf s f c' :=
  ⟨e1.trans h.loop, e3.trans h.lf, e2.trans h.ls⟩

/-- What is left of a reload once its loop has ended. -/
theorem triggerReload_of {m : List Nat} {g : Geo} (hm : m.length < 4294967296) {s f : Int} {c0 c1 : Cache} {fuel : Nat} {rate : ℚ}
    (hr : Reached m g c0) (k1 : reloadLoop g (reloadRate c0 rate) fuel c0 = .ok c1) (hc : PConf s f c1) :
    ∃ c', c0.triggerReload g fuel rate = .ok c' ∧ PWin m g s f c' ∧ c'.bufs.map Buf.index = c1.bufs.map Buf.index ∧
      c'.prevRate = if c1.prevRate = 0 then rate else c1.prevRate := by
  have hrun : ∃ c', c0.triggerReload g fuel rate = .ok c' ∧ c'.bufs = c1.resetStatus.bufs ∧ c'.loopType = c1.loopType ∧
      c'.loopStartBlk = c1.loopStartBlk ∧ c'.loopFinishBlk = c1.loopFinishBlk ∧ c'.prevRate = if c1.prevRate = 0 then rate else c1.prevRate := by
    unfold Cache.triggerReload
    rw [k1]
    simp only [ok_bind]
    have hp : c1.resetStatus.prevRate = c1.prevRate := rfl
    rw [hp]
    by_cases h : c1.prevRate = 0
    · simp only [h, if_true]; exact ⟨_, rfl, rfl, rfl, rfl, rfl, rfl⟩
    · simp only [h, if_false]; exact ⟨_, rfl, rfl, rfl, rfl, rfl, hp⟩
  obtain ⟨c', e1, e2, e3, e4, e5, e6⟩ := hrun
  refine ⟨c', e1, ⟨hr.step hm (.reload fuel rate) e1, hc.congr e3 e4 e5, ?_⟩, ?_, e6⟩
  · intro b hb
    rw [e2] at hb
    obtain ⟨b0, _, rfl⟩ := List.mem_map.1 hb
    rfl
  · rw [e2]; exact index_of_core (resetStatus_core c1)

/-- The blocks of samples in the file that are in the window are buffered. -/
theorem PWin.buffered {m : List Nat} {g : Geo} (hB : g.B < 16384) {s f : Int} {c : Cache} (h : PWin m g s f c)
    {is : List Int} (hin : ∀ i ∈ is, InFile m i ∧ i / g.B ∈ c.bufs.map Buf.index) : ∀ i ∈ is, Buffered g c i := by
  intro i hi
  obtain ⟨hf, h1⟩ := hin i hi
  obtain ⟨b, hb, e⟩ := List.mem_map.1 h1
  exact ⟨b, hb, e, index_size hB h.reached hb hf e⟩

/-- When the front buffer is read, a reload changes nothing. -/
theorem PWin.roundFront {m : List Nat} {g : Geo} (hB : g.B < 16384) (hm : m.length < 4294967296) {s f : Int} {c : Cache}
    (h : PWin m g s f c) (k : Int → Int) (hp : (c.bufs.map Buf.index).Pairwise fun x y => k x < k y) {w : Int} {ws : List Int}
    (hix : c.bufs.map Buf.index = w :: ws) {is : List Int} (hin : ∀ i ∈ is, InFile m i ∧ i / g.B ∈ c.bufs.map Buf.index)
    (hlo : ∃ i ∈ is, i / g.B = w) (fuel : Nat) (rate : ℚ) :
    ∃ c', (c.gets g is).2.triggerReload g fuel rate = .ok c' ∧ PWin m g s f c' ∧ c'.bufs.map Buf.index = c.bufs.map Buf.index ∧
      c'.prevRate = if c.prevRate = 0 then rate else c.prevRate := by
  have hbuf := h.buffered hB hin
  obtain ⟨_, hsame, _⟩ := C15_read_only g is c
  obtain ⟨i0, hi0, ei0⟩ := hlo
  have hrd := gets_read g k w is c hp (by
      obtain ⟨b, hb, e1, e2⟩ := hbuf i0 hi0
      exact ⟨b, hb, by rw [e1]; exact ei0, e2⟩)
    (Or.inl ⟨i0, hi0, by rw [(inFile_block (g := g) hm (hin i0 hi0).1).1]; exact ei0⟩)
  have hpr : (c.gets g is).2.prevRate = c.prevRate := hsame.2.2.1
  set c0 := (c.gets g is).2 with hc0
  have hix0 : c0.bufs.map Buf.index = c.bufs.map Buf.index := index_of_core hsame.2.1
  cases hcb : c0.bufs with
  | nil => rw [hcb, hix] at hix0; cases hix0
  | cons b rest =>
    have hbm : b ∈ c0.bufs := by rw [hcb]; exact List.mem_cons_self
    have hb : b.index = w := by
      have := hix0
      rw [hcb, hix] at this
      exact (List.cons.inj this).1
    have hst := hrd b hbm hb
    obtain ⟨c', e1, e2, e3, e4⟩ := triggerReload_of hm (fuel := fuel) (rate := rate) (Reached.gets hm is h.reached)
      (reloadLoop_stop hcb (by rw [hst]; decide)) (h.conf.congr hsame.2.2.2.1 hsame.2.2.2.2.1 hsame.2.2.2.2.2)
    exact ⟨c', e1, e2, e3.trans hix0, by rw [e4]; show (if c0.prevRate = 0 then _ else c0.prevRate) = _; rw [hpr]⟩

/-- The cache reading upwards. -/
theorem PWin.roundUp {m : List Nat} {g : Geo} (hB : g.B < 16384) (hm : m.length < 4294967296) {s f : Int}
    (hmax : (f + 1) * g.B ≤ 2147483647) (hN : 1 < g.N) {c : Cache} (h : PWin m g s f c) {w : Int} (hix : c.bufs.map Buf.index = up w g.N)
    (h0 : 0 ≤ w) (hwf : w + g.N - 1 ≤ f) (hp : 0 ≤ c.prevRate) {is : List Int} {lo : Int} (hwlo : w ≤ lo)
    (hin : ∀ i ∈ is, InFile m i ∧ lo ≤ i / g.B ∧ i / g.B < w + g.N) (hlo : ∃ i ∈ is, i / g.B = lo) {fuel : Nat} {rate : ℚ} (hfuel : g.N ≤ fuel) :
    ((∀ i ∈ is, i / g.B ≠ f) → ∃ c', (c.gets g is).2.triggerReload g fuel rate = .ok c' ∧ PWin m g s f c' ∧
      c'.bufs.map Buf.index = up (min lo (f - g.N + 1)) g.N ∧ c'.prevRate = if c.prevRate = 0 then rate else c.prevRate) ∧
    ((∃ i ∈ is, i / g.B = f) → w < lo → 0 < c.prevRate → ∃ c', (c.gets g is).2.triggerReload g fuel rate = .ok c' ∧ PWin m g s f c' ∧
      c'.bufs.map Buf.index = down f g.N ∧ c'.prevRate = -c.prevRate) := by
  have hin' : ∀ i ∈ is, InFile m i ∧ i / g.B ∈ c.bufs.map Buf.index := fun i hi =>
    ⟨(hin i hi).1, by rw [hix, mem_up]; have := hin i hi; exact ⟨by omega, by omega⟩⟩
  have hbuf := h.buffered hB hin'
  have hu32 : ∀ i ∈ is, u32 (i / g.B) = i / g.B := fun i hi => (inFile_block (g := g) hm (hin i hi).1).1
  have hsorted : (c.bufs.map Buf.index).Pairwise fun x y => id x < id y := by rw [hix]; exact up_sorted _ _
  obtain ⟨_, hsame, _⟩ := C15_read_only g is c
  obtain ⟨i0, hi0, ei0⟩ := hlo
  have hst := gets_status g id lo is c h.loaded hsorted
    (fun i hi => ⟨by rw [hu32 i hi]; exact (hin i hi).2.1, by rw [hu32 i hi]; exact hbuf i hi⟩)
    ⟨i0, hi0, by rw [hu32 i0 hi0]; exact ei0⟩
  have hunr : (∀ i ∈ is, i / g.B ≠ f) → ∀ b ∈ (c.gets g is).2.bufs, b.index = f → b.status ≠ .read := fun hf =>
    gets_unread g f is c (fun i hi => by rw [hu32 i hi]; exact hf i hi) (fun b hb _ => by rw [h.loaded b hb]; decide)
  have hrd : (∃ i ∈ is, i / g.B = f) → ∀ b ∈ (c.gets g is).2.bufs, b.index = f → b.status = .read := by
    rintro ⟨i, hi, e⟩
    refine gets_read g id f is c hsorted ?_ (Or.inl ⟨i, hi, by rw [hu32 i hi]; exact e⟩)
    obtain ⟨b, hb, e1, e2⟩ := hbuf i hi
    exact ⟨b, hb, by rw [e1]; exact e, e2⟩
  have hlt : lo < w + g.N := by rw [← ei0]; exact (hin i0 hi0).2.2
  have hpr : (c.gets g is).2.prevRate = c.prevRate := hsame.2.2.1
  have hreach := Reached.gets hm is h.reached (g := g)
  set c0 := (c.gets g is).2 with hc0
  have hix0 : c0.bufs.map Buf.index = up w g.N := by rw [index_of_core hsame.2.1]; exact hix
  have hconf : PConf s f c0 := h.conf.congr hsame.2.2.2.1 hsame.2.2.2.2.1 hsame.2.2.2.2.2
  have hrr : 0 ≤ reloadRate c0 rate := reloadRate_up hconf (by rw [hpr]; exact hp)
  constructor
  · intro hf
    by_cases hle : lo + g.N - 1 ≤ f
    · obtain ⟨fu, rfl⟩ : ∃ fu, fuel = fu + (lo - w).toNat := ⟨fuel - (lo - w).toNat, by omega⟩
      have hd : ((lo - w).toNat : Int) = lo - w := by omega
      obtain ⟨c1, k1, k2, k3, k4, k5⟩ := reloadLoop_slideUp hrr hmax (lo - w).toNat fu c0 w hconf hix0 (by omega) h0 (by rw [hd]; omega) (by omega)
        (fun b hb hb' => (hst b hb).1 (by rw [hd] at hb'; show b.index < lo; omega))
      rw [show w + ((lo - w).toNat : Int) = lo by omega] at k4
      have hstop : reloadLoop g (reloadRate c0 rate) fu c1 = .ok c1 := by
        obtain ⟨N, hN'⟩ : ∃ N, g.N = N + 1 := ⟨g.N - 1, by omega⟩
        cases hcb : c1.bufs with
        | nil => rw [hcb, hN', up_succ] at k4; cases k4
        | cons b rest =>
          have hb : b.index = lo := by
            have := k4
            rw [hcb, hN', up_succ] at this
            exact (List.cons.inj this).1
          refine reloadLoop_stop hcb ?_
          rcases k5 b (by rw [hcb]; exact List.mem_cons_self) with hb' | ⟨hb', _⟩
          · rw [(hst b hb').2 hb]; decide
          · rw [hb']; decide
      obtain ⟨c', e1, e2, e3, e4⟩ := triggerReload_of hm hreach (k1.trans hstop) k2
      rw [k3, hpr] at e4
      exact ⟨c', e1, e2, by rw [e3, k4, min_eq_left (by omega)], e4⟩
    · obtain ⟨fu, rfl⟩ : ∃ fu, fuel = fu + 1 + (f - g.N + 1 - w).toNat := ⟨fuel - (f - g.N + 1 - w).toNat - 1, by omega⟩
      have hd : ((f - g.N + 1 - w).toNat : Int) = f - g.N + 1 - w := by omega
      obtain ⟨c1, k1, k2, k3, k4, k5⟩ := reloadLoop_slideUp hrr hmax (f - g.N + 1 - w).toNat (fu + 1) c0 w hconf hix0 (by omega) h0
        (by rw [hd]; omega) (by omega) (fun b hb hb' => (hst b hb).1 (by rw [hd] at hb'; show b.index < lo; omega))
      rw [show w + ((f - g.N + 1 - w).toNat : Int) = f - g.N + 1 by omega] at k4
      have htop := (reloadLoop_top (fuel := fu) hrr hmax k2 hN (by omega) k4
        (fun b hb hbi => by
          rcases k5 b hb with hb' | ⟨_, hb'⟩
          · exact (hst b hb').1 (by show b.index < lo; omega)
          · omega)).1
        (fun b hb hbi => by
          rcases k5 b hb with hb' | ⟨hb', _⟩
          · exact hunr hf b hb' hbi
          · rw [hb']; decide)
      obtain ⟨c', e1, e2, e3, e4⟩ := triggerReload_of hm hreach (k1.trans htop) k2
      rw [k3, hpr] at e4
      exact ⟨c', e1, e2, by rw [e3, k4, min_eq_right (by omega)], e4⟩
  · intro hf hwl hpos
    have hw : w = f - g.N + 1 := by
      obtain ⟨i, hi, e⟩ := hf
      have := (hin i hi).2.2
      omega
    obtain ⟨fu, rfl⟩ : ∃ fu, fuel = fu + 1 := ⟨fuel - 1, by omega⟩
    rw [hw] at hix0
    obtain ⟨c1, k1, k2, k3, k4⟩ := (reloadLoop_top (fuel := fu) hrr hmax hconf hN (by omega) hix0
      (fun b hb hbi => (hst b hb).1 (by show b.index < lo; omega))).2 (hrd hf)
    obtain ⟨c', e1, e2, e3, e4⟩ := triggerReload_of hm hreach k1 k2
    rw [k3, hpr, if_neg (by intro h; linarith)] at e4
    exact ⟨c', e1, e2, e3.trans k4, e4⟩

/-- The cache reading downwards. -/
theorem PWin.roundDown {m : List Nat} {g : Geo} (hB : g.B < 16384) (hm : m.length < 4294967296) {s f M : Int} (hs : 0 ≤ s)
    (hmax : (M + 1) * g.B ≤ 2147483647) (hN : 1 < g.N) {c : Cache} (h : PWin m g s f c) {v : Int} (hix : c.bufs.map Buf.index = down v g.N)
    (hvM : v ≤ M) (hsv : s ≤ v - g.N + 1) (hp : c.prevRate < 0) {is : List Int} {hi : Int} (hhv : hi ≤ v)
    (hin : ∀ i ∈ is, InFile m i ∧ i / g.B ≤ hi ∧ v - g.N < i / g.B) (hhi : ∃ i ∈ is, i / g.B = hi) {fuel : Nat} {rate : ℚ} (hfuel : g.N ≤ fuel) :
    ((∀ i ∈ is, i / g.B ≠ s) → ∃ c', (c.gets g is).2.triggerReload g fuel rate = .ok c' ∧ PWin m g s f c' ∧
      c'.bufs.map Buf.index = down (max hi (s + g.N - 1)) g.N ∧ c'.prevRate = c.prevRate) ∧
    ((∃ i ∈ is, i / g.B = s) → hi < v → ∃ c', (c.gets g is).2.triggerReload g fuel rate = .ok c' ∧ PWin m g s f c' ∧
      c'.bufs.map Buf.index = up s g.N ∧ c'.prevRate = -c.prevRate) := by
  have hin' : ∀ i ∈ is, InFile m i ∧ i / g.B ∈ c.bufs.map Buf.index := fun i hi' =>
    ⟨(hin i hi').1, by rw [hix, mem_down]; have := hin i hi'; exact ⟨by omega, by omega⟩⟩
  have hbuf := h.buffered hB hin'
  have hu32 : ∀ i ∈ is, u32 (i / g.B) = i / g.B := fun i hi' => (inFile_block (g := g) hm (hin i hi').1).1
  have hsorted : (c.bufs.map Buf.index).Pairwise fun x y => -x < -y := by
    rw [hix]; exact (down_sorted _ _).imp (fun h => by omega)
  obtain ⟨_, hsame, _⟩ := C15_read_only g is c
  obtain ⟨i0, hi0, ei0⟩ := hhi
  have hst := gets_status g (fun x => -x) hi is c h.loaded hsorted
    (fun i hi' => ⟨by rw [hu32 i hi']; have := (hin i hi').2.1; show -hi ≤ -(i / g.B); omega, by rw [hu32 i hi']; exact hbuf i hi'⟩)
    ⟨i0, hi0, by rw [hu32 i0 hi0]; exact ei0⟩
  have hunr : (∀ i ∈ is, i / g.B ≠ s) → ∀ b ∈ (c.gets g is).2.bufs, b.index = s → b.status ≠ .read := fun hf =>
    gets_unread g s is c (fun i hi' => by rw [hu32 i hi']; exact hf i hi') (fun b hb _ => by rw [h.loaded b hb]; decide)
  have hrd : (∃ i ∈ is, i / g.B = s) → ∀ b ∈ (c.gets g is).2.bufs, b.index = s → b.status = .read := by
    rintro ⟨i, hi', e⟩
    refine gets_read g (fun x => -x) s is c hsorted ?_ (Or.inl ⟨i, hi', by rw [hu32 i hi']; exact e⟩)
    obtain ⟨b, hb, e1, e2⟩ := hbuf i hi'
    exact ⟨b, hb, by rw [e1]; exact e, e2⟩
  have hlt : v - g.N < hi := by rw [← ei0]; exact (hin i0 hi0).2.2
  have hpr : (c.gets g is).2.prevRate = c.prevRate := hsame.2.2.1
  have hreach := Reached.gets hm is h.reached (g := g)
  set c0 := (c.gets g is).2 with hc0
  have hix0 : c0.bufs.map Buf.index = down v g.N := by rw [index_of_core hsame.2.1]; exact hix
  have hconf : PConf s f c0 := h.conf.congr hsame.2.2.2.1 hsame.2.2.2.2.1 hsame.2.2.2.2.2
  have hrr : reloadRate c0 rate < 0 := reloadRate_down hconf (by rw [hpr]; exact hp)
  constructor
  · intro hf
    by_cases hle : s ≤ hi - g.N + 1
    · obtain ⟨fu, rfl⟩ : ∃ fu, fuel = fu + (v - hi).toNat := ⟨fuel - (v - hi).toNat, by omega⟩
      have hd : ((v - hi).toNat : Int) = v - hi := by omega
      obtain ⟨c1, k1, k2, k3, k4, k5⟩ := reloadLoop_slideDown hrr hs hmax (v - hi).toNat fu c0 v hconf hix0 (by omega) hvM (by rw [hd]; omega) (by omega)
        (fun b hb hb' => (hst b hb).1 (by rw [hd] at hb'; show -b.index < -hi; omega))
      rw [show v - ((v - hi).toNat : Int) = hi by omega] at k4
      have hstop : reloadLoop g (reloadRate c0 rate) fu c1 = .ok c1 := by
        obtain ⟨N, hN'⟩ : ∃ N, g.N = N + 1 := ⟨g.N - 1, by omega⟩
        cases hcb : c1.bufs with
        | nil => rw [hcb, hN', down_succ] at k4; cases k4
        | cons b rest =>
          have hb : b.index = hi := by
            have := k4
            rw [hcb, hN', down_succ] at this
            exact (List.cons.inj this).1
          refine reloadLoop_stop hcb ?_
          rcases k5 b (by rw [hcb]; exact List.mem_cons_self) with hb' | ⟨hb', _⟩
          · rw [(hst b hb').2 hb]; decide
          · rw [hb']; decide
      obtain ⟨c', e1, e2, e3, e4⟩ := triggerReload_of hm hreach (k1.trans hstop) k2
      rw [k3, hpr, if_neg (by intro h; linarith)] at e4
      exact ⟨c', e1, e2, by rw [e3, k4, max_eq_left (by omega)], e4⟩
    · obtain ⟨fu, rfl⟩ : ∃ fu, fuel = fu + 1 + (v - (s + g.N - 1)).toNat := ⟨fuel - (v - (s + g.N - 1)).toNat - 1, by omega⟩
      have hd : ((v - (s + g.N - 1)).toNat : Int) = v - (s + g.N - 1) := by omega
      obtain ⟨c1, k1, k2, k3, k4, k5⟩ := reloadLoop_slideDown hrr hs hmax (v - (s + g.N - 1)).toNat (fu + 1) c0 v hconf hix0 (by omega) hvM
        (by rw [hd]; omega) (by omega) (fun b hb hb' => (hst b hb).1 (by rw [hd] at hb'; show -b.index < -hi; omega))
      rw [show v - ((v - (s + g.N - 1)).toNat : Int) = s + g.N - 1 by omega] at k4
      have htop := (reloadLoop_bottom (fuel := fu) hrr hmax k2 hN hs (by omega) k4
        (fun b hb hbi => by
          rcases k5 b hb with hb' | ⟨_, hb'⟩
          · exact (hst b hb').1 (by show -b.index < -hi; omega)
          · omega)).1
        (fun b hb hbi => by
          rcases k5 b hb with hb' | ⟨hb', _⟩
          · exact hunr hf b hb' hbi
          · rw [hb']; decide)
      obtain ⟨c', e1, e2, e3, e4⟩ := triggerReload_of hm hreach (k1.trans htop) k2
      rw [k3, hpr, if_neg (by intro h; linarith)] at e4
      exact ⟨c', e1, e2, by rw [e3, k4, max_eq_right (by omega)], e4⟩
  · intro hf hhl
    have hv : v = s + g.N - 1 := by
      obtain ⟨i, hi', e⟩ := hf
      have := (hin i hi').2.2
      omega
    obtain ⟨fu, rfl⟩ : ∃ fu, fuel = fu + 1 := ⟨fuel - 1, by omega⟩
    rw [hv] at hix0
    obtain ⟨c1, k1, k2, k3, k4⟩ := (reloadLoop_bottom (fuel := fu) hrr hmax hconf hN hs (by omega) hix0
      (fun b hb hbi => (hst b hb).1 (by show -b.index < -hi; omega))).2 (hrd hf)
    obtain ⟨c', e1, e2, e3, e4⟩ := triggerReload_of hm hreach k1 k2
    rw [k3, hpr, if_neg (by intro h; linarith)] at e4
    exact ⟨c', e1, e2, e3.trans k4, e4⟩

end TVP
