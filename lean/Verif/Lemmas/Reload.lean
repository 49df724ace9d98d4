import Verif.Lemmas.Cache

/-!
# Lemmas about servicing a reload
-/

namespace TVP

theorem foldMin_spec : ∀ (bs : List Buf) (m : Int),
    bs.foldl (fun m x => if x.index < m then x.index else m) m ≤ m ∧
    (∀ x ∈ bs, bs.foldl (fun m x => if x.index < m then x.index else m) m ≤ x.index) ∧
    (bs.foldl (fun m x => if x.index < m then x.index else m) m = m ∨
      ∃ x ∈ bs, bs.foldl (fun m x => if x.index < m then x.index else m) m = x.index) := by
  intro bs
  induction bs with
  | nil => intro m; exact ⟨le_refl _, fun _ h => (by cases h), Or.inl rfl⟩
  | cons x xs ih =>
    intro m
    obtain ⟨h1, h2, h3⟩ := ih (if x.index < m then x.index else m)
    simp only [List.foldl_cons]
    have hle : (if x.index < m then x.index else m) ≤ m ∧ (if x.index < m then x.index else m) ≤ x.index := by split <;> omega
    refine ⟨le_trans h1 hle.1, ?_, ?_⟩
    · intro y hy
      rcases List.mem_cons.1 hy with rfl | hy
      · exact le_trans h1 hle.2
      · exact h2 y hy
    · rcases h3 with h3 | ⟨y, hy, h3⟩
      · rw [h3]
        split
        · exact Or.inr ⟨x, List.mem_cons_self, rfl⟩
        · exact Or.inl rfl
      · exact Or.inr ⟨y, List.mem_cons_of_mem _ hy, h3⟩

/-- `findMinBuffer` finds the smallest block number. -/
theorem minIndex_spec {b : Buf} {bs : List Buf} (hb : b ∈ bs) :
    (∀ x ∈ bs, minIndex b bs ≤ x.index) ∧ ∃ x ∈ bs, minIndex b bs = x.index := by
  obtain ⟨_, h2, h3⟩ := foldMin_spec bs b.index
  exact ⟨h2, h3.elim (fun h => ⟨b, hb, h⟩) id⟩

theorem foldMax_spec : ∀ (bs : List Buf) (m : Int),
    m ≤ bs.foldl (fun m x => if x.index > m then x.index else m) m ∧
    (∀ x ∈ bs, x.index ≤ bs.foldl (fun m x => if x.index > m then x.index else m) m) ∧
    (bs.foldl (fun m x => if x.index > m then x.index else m) m = m ∨
      ∃ x ∈ bs, bs.foldl (fun m x => if x.index > m then x.index else m) m = x.index) := by
  intro bs
  induction bs with
  | nil => intro m; exact ⟨le_refl _, fun _ h => (by cases h), Or.inl rfl⟩
  | cons x xs ih =>
    intro m
    obtain ⟨h1, h2, h3⟩ := ih (if x.index > m then x.index else m)
    simp only [List.foldl_cons]
    have hle : m ≤ (if x.index > m then x.index else m) ∧ x.index ≤ (if x.index > m then x.index else m) := by split <;> omega
    refine ⟨le_trans hle.1 h1, ?_, ?_⟩
    · intro y hy
      rcases List.mem_cons.1 hy with rfl | hy
      · exact le_trans hle.2 h1
      · exact h2 y hy
    · rcases h3 with h3 | ⟨y, hy, h3⟩
      · rw [h3]
        split
        · exact Or.inr ⟨x, List.mem_cons_self, rfl⟩
        · exact Or.inl rfl
      · exact Or.inr ⟨y, List.mem_cons_of_mem _ hy, h3⟩

/-- `findMaxBuffer` finds the largest block number. -/
theorem maxIndex_spec {b : Buf} {bs : List Buf} (hb : b ∈ bs) :
    (∀ x ∈ bs, x.index ≤ maxIndex b bs) ∧ ∃ x ∈ bs, maxIndex b bs = x.index := by
  obtain ⟨_, h2, h3⟩ := foldMax_spec bs b.index
  exact ⟨h2, h3.elim (fun h => ⟨b, hb, h⟩) id⟩

/-- The smallest number only depends on which numbers there are. -/
theorem minIndex_perm {b b' : Buf} {bs bs' : List Buf} (h : bs'.Perm bs) (hb : b ∈ bs) (hb' : b' ∈ bs') : minIndex b' bs' = minIndex b bs := by
  obtain ⟨h1, x, hx, ex⟩ := minIndex_spec hb
  obtain ⟨k1, y, hy, ey⟩ := minIndex_spec hb'
  have a1 := k1 x (h.mem_iff.2 hx)
  have a2 := h1 y (h.mem_iff.1 hy)
  omega

/-- What one pass decides: to load and move on, to move on without loading (reverse at the start of the file), or - for
ping-pong at the end of the loop - to turn the order round or stop. -/
theorem reloadDecide_cases {g : Geo} {c : Cache} {rate : ℚ} {b : Buf} {load : Option Int} {act : BufAction}
    (h : reloadDecide g c rate b = .ok (load, act)) :
    (∃ i, load = some i ∧ act = .move) ∨
    (load = none ∧ act = .move ∧ rate < 0 ∧ c.loopType = .none ∧ i32 (minIndex b c.bufs - 1) < 0) ∨
    (load = none ∧ act = .nop) ∨
    (load = none ∧ act = .reverse ∧ ∃ l, lastSlot g c.bufs = .ok l ∧ l.status = .read) := by
  unfold reloadDecide at h
  split at h
  · split at h
    · cases h; exact Or.inl ⟨_, rfl, rfl⟩
    · dsimp only at h
      split at h
      · obtain ⟨lb, _, h⟩ := bind_ok_iff'.1 h
        split at h <;> (cases h; exact Or.inl ⟨_, rfl, rfl⟩)
      · cases h; exact Or.inl ⟨_, rfl, rfl⟩
    · dsimp only at h
      split at h
      · obtain ⟨lb, hl, h⟩ := bind_ok_iff'.1 h
        split at h
        · cases h; exact Or.inr (Or.inr (Or.inr ⟨rfl, rfl, lb, hl, by assumption⟩))
        · cases h; exact Or.inr (Or.inr (Or.inl ⟨rfl, rfl⟩))
      · cases h; exact Or.inl ⟨_, rfl, rfl⟩
  · rename_i hr
    split at h
    · rename_i hl
      dsimp only at h
      split at h
      · cases h; exact Or.inr (Or.inl ⟨rfl, rfl, not_le.1 hr, hl, by assumption⟩)
      · cases h; exact Or.inl ⟨_, rfl, rfl⟩
    · dsimp only at h
      split at h
      · obtain ⟨lb, _, h⟩ := bind_ok_iff'.1 h
        split at h <;> (cases h; exact Or.inl ⟨_, rfl, rfl⟩)
      · cases h; exact Or.inl ⟨_, rfl, rfl⟩
    · dsimp only at h
      split at h
      · obtain ⟨lb, hl, h⟩ := bind_ok_iff'.1 h
        split at h
        · cases h; exact Or.inr (Or.inr (Or.inr ⟨rfl, rfl, lb, hl, by assumption⟩))
        · cases h; exact Or.inr (Or.inr (Or.inl ⟨rfl, rfl⟩))
      · cases h; exact Or.inl ⟨_, rfl, rfl⟩

/-- Deciding never runs out of fuel. -/
theorem reloadDecide_ends (g : Geo) (c : Cache) (rate : ℚ) (b : Buf) : reloadDecide g c rate b ≠ .error .hang := by
  have hl : lastSlot g c.bufs ≠ .error .hang := by unfold lastSlot; split <;> (intro h; cases h)
  have key : ∀ (f : Buf → M (Option Int × BufAction)), (∀ x, f x ≠ .error .hang) → (lastSlot g c.bufs >>= f) ≠ .error .hang := by
    intro f hf
    cases h : lastSlot g c.bufs with
    | error e => rw [h] at hl; intro h2; apply hl; cases h2; rfl
    | ok x => exact hf x
  unfold reloadDecide
  split
  · split
    · intro h; cases h
    · dsimp only
      split
      · exact key _ (fun x => by split <;> (intro h; cases h))
      · intro h; cases h
    · dsimp only
      split
      · exact key _ (fun x => by split <;> (intro h; cases h))
      · intro h; cases h
  · split
    · intro h; cases h
    · dsimp only
      split
      · exact key _ (fun x => by split <;> (intro h; cases h))
      · intro h; cases h
    · dsimp only
      split
      · exact key _ (fun x => by split <;> (intro h; cases h))
      · intro h; cases h

/-- The number of buffers at the front that are marked unused. -/
def frontUnused (bs : List Buf) : Nat := (bs.takeWhile fun b => decide (b.status = .unused)).length

theorem frontUnused_append {bs : List Buf} {x : Buf} (h : x.status ≠ .unused ∨ ∃ b ∈ bs, b.status ≠ .unused) :
    frontUnused (bs ++ [x]) = frontUnused bs := by
  induction bs with
  | nil =>
    rcases h with h | ⟨b, hb, _⟩
    · simp [frontUnused, h]
    · cases hb
  | cons y ys ih =>
    unfold frontUnused at *
    by_cases hy : y.status = .unused
    · have ih' := ih (h.imp id (fun ⟨b, hb, hb'⟩ => by
        rcases List.mem_cons.1 hb with rfl | hb
        · exact absurd hy hb'
        · exact ⟨b, hb, hb'⟩))
      simp only [List.cons_append, List.takeWhile_cons, hy, decide_true, if_true, List.length_cons, ih']
    · simp [hy]

/-- **Termination of one reload**: enough fuel for the unused buffers at the front, unless nothing can ever change. -/
theorem reloadLoop_ends {g : Geo} (rate : ℚ) : ∀ (fuel : Nat) (c : Cache), frontUnused c.bufs ≤ fuel → c.bufs.length ≤ g.N →
    (rate < 0 → c.loopType = .none → (∃ b ∈ c.bufs, b.status ≠ .unused) ∨ ∃ b rest, c.bufs = b :: rest ∧ 0 ≤ i32 (minIndex b c.bufs - 1)) →
    reloadLoop g rate (fuel + 1) c ≠ .error .hang := by
  have stop : ∀ (fuel : Nat) (c : Cache), (∀ b rest, c.bufs = b :: rest → b.status ≠ .unused) → reloadLoop g rate fuel c ≠ .error .hang := by
    intro fuel c h
    cases fuel with
    | zero =>
      unfold reloadLoop
      split
      · intro h; cases h
      · rename_i b rest e; rw [if_neg (h b rest e)]; intro h; cases h
    | succ fuel =>
      unfold reloadLoop
      split
      · intro h; cases h
      · rename_i b rest e; rw [if_neg (h b rest e)]; intro h; cases h
  have front0 : ∀ c : Cache, frontUnused c.bufs = 0 → ∀ b rest, c.bufs = b :: rest → b.status ≠ .unused := by
    intro c h b rest e hb
    rw [e] at h
    simp [frontUnused, hb] at h
  intro fuel
  induction fuel with
  | zero => intro c hf _ _; exact stop _ _ (front0 c (by omega))
  | succ fuel ih =>
    intro c hf hN hs
    unfold reloadLoop
    split
    · intro h; cases h
    · rename_i b rest hc
      split
      · rename_i hb
        cases hd : reloadDecide g c rate b with
        | error e =>
          have := reloadDecide_ends g c rate b
          rw [hd] at this
          intro h
          apply this
          cases h; rfl
        | ok p =>
          obtain ⟨load, act⟩ := p
          show (if act = .nop then pure (reloadReorder (reloadLoad g c b rest load) act) else reloadLoop g rate (fuel + 1) (reloadReorder (reloadLoad g c b rest load) act)) ≠ _
          have hfu : frontUnused c.bufs = frontUnused rest + 1 := by rw [hc]; simp [frontUnused, hb]
          rcases reloadDecide_cases hd with ⟨i, rfl, rfl⟩ | ⟨rfl, rfl, hr, hl, hmin⟩ | ⟨rfl, rfl⟩ | ⟨rfl, rfl, l, hl, hlr⟩
          · -- loaded: the buffer goes to the back as loaded
            rw [if_neg (by decide)]
            have e : (reloadReorder (reloadLoad g c b rest (some i)) .move).bufs = rest ++ [(loadBuffer g c.dev b i).1] := rfl
            refine ih _ ?_ ?_ ?_
            · rw [e, frontUnused_append (Or.inl (by rw [loadBuffer_status]; decide))]; omega
            · rw [e]; rw [hc] at hN; simpa using hN
            · intro _ _
              left
              exact ⟨_, by rw [e]; exact List.mem_append_right _ (List.mem_singleton_self _), by rw [loadBuffer_status]; decide⟩
          · rw [if_neg (by decide)]
            have e : (reloadReorder (reloadLoad g c b rest none) .move).bufs = rest ++ [b] := by
              unfold reloadReorder reloadLoad; simp [hc]
            have hex : ∃ x ∈ rest, x.status ≠ .unused := by
              rcases hs hr hl with ⟨x, hx, hx'⟩ | ⟨b', rest', e', h'⟩
              · rw [hc] at hx
                rcases List.mem_cons.1 hx with rfl | hx
                · exact absurd hb hx'
                · exact ⟨x, hx, hx'⟩
              · rw [hc] at e'; cases e'; omega
            refine ih _ ?_ ?_ ?_
            · rw [e, frontUnused_append (Or.inr hex)]; omega
            · rw [e]; rw [hc] at hN; simpa using hN
            · intro _ _
              left
              obtain ⟨x, hx, hx'⟩ := hex
              exact ⟨x, by rw [e]; exact List.mem_append_left _ hx, hx'⟩
          · rw [if_pos rfl]; intro h; cases h
          · rw [if_neg (by decide)]
            apply stop
            intro b' rest' e'
            have e : (reloadReorder (reloadLoad g c b rest none) .reverse).bufs = c.bufs.reverse := rfl
            rw [e] at e'
            unfold lastSlot at hl
            split at hl
            · rename_i x hx
              cases hl
              have hlast : c.bufs.reverse.head? = some b' := by rw [e']; rfl
              rw [List.head?_reverse, List.getLast?_eq_getElem?] at hlast
              have hi := (List.getElem?_eq_some_iff.1 hx).1
              have : c.bufs.length - 1 = g.N - 1 := by omega
              rw [this, hx] at hlast
              cases hlast
              rw [hlr]; decide
            · cases hl
      · intro h; cases h

/-- If every buffer is unused, the rate is negative, there is no loop and the smallest block is the first, the request is
never finished. -/
theorem reloadLoop_hangs {g : Geo} {rate : ℚ} (hr : rate < 0) : ∀ (fuel : Nat) (c : Cache), c.loopType = .none → c.bufs ≠ [] →
    (∀ b ∈ c.bufs, b.status = .unused) → (∀ b ∈ c.bufs, i32 (minIndex b c.bufs - 1) < 0) → reloadLoop g rate fuel c = .error .hang := by
  intro fuel
  induction fuel with
  | zero =>
    intro c _ hne hu _
    unfold reloadLoop
    split
    · rename_i e; exact absurd e hne
    · rename_i b rest e; rw [if_pos (hu b (by rw [e]; exact List.mem_cons_self))]
  | succ fuel ih =>
    intro c hl hne hu hm
    unfold reloadLoop
    split
    · rename_i e; exact absurd e hne
    · rename_i b rest hc
      have hbm : b ∈ c.bufs := by rw [hc]; exact List.mem_cons_self
      rw [if_pos (hu b hbm)]
      have hd : reloadDecide g c rate b = .ok (none, .move) := by
        unfold reloadDecide
        rw [if_neg (not_le.2 hr), hl]
        simp only
        rw [if_pos (hm b hbm)]
        rfl
      rw [hd]
      show (if BufAction.move = .nop then pure (reloadReorder (reloadLoad g c b rest none) .move) else reloadLoop g rate fuel (reloadReorder (reloadLoad g c b rest none) .move)) = _
      rw [if_neg (by decide)]
      have hp := reloadReorder_perm (reloadLoad g c b rest none) .move
      refine ih _ hl ?_ ?_ ?_
      · intro e; rw [e] at hp; exact hne (List.Perm.nil_eq hp).symm
      · intro x hx; exact hu x (hp.mem_iff.1 hx)
      · intro x hx
        rw [minIndex_perm hp hbm hx]
        exact hm b hbm

/-- With the vector full (or without a loop) no buffer outside it is used. -/
theorem reloadLoop_inBounds {g : Geo} (rate : ℚ) : ∀ (fuel : Nat) (c : Cache), (c.loopType = .none ∨ c.bufs.length = g.N) →
    reloadLoop g rate fuel c ≠ .error .outOfBounds := by
  intro fuel
  induction fuel with
  | zero =>
    intro c _
    unfold reloadLoop
    split
    · intro h; cases h
    · split <;> (intro h; cases h)
  | succ fuel ih =>
    intro c hN
    unfold reloadLoop
    split
    · intro h; cases h
    · rename_i b rest hc
      split
      · have hdec : reloadDecide g c rate b ≠ .error .outOfBounds := by
          rcases hN with hl | hN
          · unfold reloadDecide
            rw [hl]
            split <;> (intro h; cases h)
          · have hls : ∃ l, lastSlot g c.bufs = .ok l := by
              unfold lastSlot
              have : g.N - 1 < c.bufs.length := by rw [← hN, hc]; simp
              rw [List.getElem?_eq_getElem this]
              exact ⟨_, rfl⟩
            obtain ⟨l, hls⟩ := hls
            unfold reloadDecide
            rw [hls]
            split <;> split <;> first | (intro h; cases h) | (dsimp only; split <;> first | (intro h; cases h) | (show (if _ then _ else _) ≠ _; split <;> (intro h; cases h)))
        cases hd : reloadDecide g c rate b with
        | error e => rw [hd] at hdec; intro h; apply hdec; cases h; rfl
        | ok p =>
          obtain ⟨load, act⟩ := p
          show (if act = .nop then pure (reloadReorder (reloadLoad g c b rest load) act) else reloadLoop g rate fuel (reloadReorder (reloadLoad g c b rest load) act)) ≠ _
          split
          · intro h; cases h
          · apply ih
            rcases hN with hl | hN
            · left
              cases act <;> cases load <;> exact hl
            · right
              rw [(reloadReorder_perm _ _).length_eq, ← hN]
              cases load with
              | none => rfl
              | some i => unfold reloadLoad; rw [hc]; rfl
      · intro h; cases h

end TVP
