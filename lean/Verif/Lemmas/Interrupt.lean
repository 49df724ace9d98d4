import Verif.Model.Interrupt
import Verif.Lemmas.Cache

/-!
# Lemmas about interrupted reloads
-/

namespace TVP
open Spec

/-- Loaded bytes are the file's, whatever size is recorded. -/
theorem overlay_ok {m : List Nat} {g : Geo} {d : Dev} {i : Int} (hd : d.bytes = m) (hm : m.length < 4294967296)
    (hi : InI32 i) (old : List Nat) (k : Nat) (hk : k < g.B) (hin : 2 * ((u32 (i / g.B)).toNat * g.B + k) + 2 ≤ m.length) :
    sampleAt (overlay ((d.seek (u32 (2 * u32 (i - i % g.B))).toNat).read (2 * g.B)).1 old) k =
      rawSample m ((u32 (i / g.B)).toNat * g.B + k) := by
  have h := loadBuffer_data (g := g) (d := d) (b := ⟨0, 0, 0, .loaded, old⟩) hd hm hi k hk hin
  exact h

/-- What holds of the front buffer. -/
def FrontOk (m : List Nat) (g : Geo) (ph : RPhase) (b : Buf) : Prop :=
  match ph with
  | .fill i got _ => 0 ≤ b.index ∧ ∀ old k, k < g.B → 2 * ((u32 (i / g.B)).toNat * g.B + k) + 2 ≤ m.length →
      sampleAt (overlay got old) k = rawSample m ((u32 (i / g.B)).toNat * g.B + k)
  | .index i _ _ => 0 ≤ b.index ∧ ∀ k, k < g.B → 2 * ((u32 (i / g.B)).toNat * g.B + k) + 2 ≤ m.length →
      sampleAt b.data k = rawSample m ((u32 (i / g.B)).toNat * g.B + k)
  | .size _ _ => 0 ≤ b.index ∧ ∀ k, k < g.B → 2 * (b.index.toNat * g.B + k) + 2 ≤ m.length →
      sampleAt b.data k = rawSample m (b.index.toNat * g.B + k)
  | _ => BufOk m g b

theorem FrontOk.congr {m : List Nat} {g : Geo} {ph : RPhase} {b b' : Buf} (h : FrontOk m g ph b) (e : b'.core = b.core) :
    FrontOk m g ph b' := by
  unfold Buf.core at e
  simp only [Prod.mk.injEq] at e
  unfold FrontOk BufOk at *
  cases ph <;> simp only [e.2.1, e.2.2.1, e.2.2.2] at * <;> exact h

/-- What holds at each point of a reload: all buffers hold the file's samples, except the front one while it is filled. -/
structure RInv (m : List Nat) (g : Geo) (s : RPhase × Cache) : Prop where
  dev : s.2.dev.bytes = m
  bufs : ∀ b rest, s.2.bufs = b :: rest → (∀ x ∈ rest, BufOk m g x) ∧ FrontOk m g s.1 b

theorem RInv.of_ok {m : List Nat} {g : Geo} {ph : RPhase} {c : Cache} (h : CacheOk m g c) (hp : ∀ b, FrontOk m g ph b ↔ BufOk m g b) :
    RInv m g (ph, c) :=
  ⟨h.dev, fun b rest e => ⟨fun x hx => h.bufs x (by show x ∈ c.bufs; rw [show c.bufs = b :: rest from e]; exact List.mem_cons_of_mem _ hx),
    (hp b).2 (h.bufs b (by rw [show c.bufs = b :: rest from e]; exact List.mem_cons_self))⟩⟩

theorem RInv.ok {m : List Nat} {g : Geo} {ph : RPhase} {c : Cache} (h : RInv m g (ph, c)) (hp : ∀ b, FrontOk m g ph b ↔ BufOk m g b) :
    CacheOk m g c := by
  refine ⟨h.dev, fun b hb => ?_⟩
  cases hc : c.bufs with
  | nil => rw [hc] at hb; cases hb
  | cons x xs =>
    obtain ⟨h1, h2⟩ := h.bufs x xs hc
    rw [hc] at hb
    rcases List.mem_cons.1 hb with rfl | hb
    · exact (hp _).1 h2
    · exact h1 b hb

theorem mapFront_bufs {c : Cache} {f : Buf → Buf} {b : Buf} {rest : List Buf} (h : (c.mapFront f).bufs = b :: rest) :
    ∃ b0, c.bufs = b0 :: rest ∧ b = f b0 := by
  unfold Cache.mapFront at h
  cases hc : c.bufs with
  | nil => rw [hc] at h; cases h
  | cons x xs => rw [hc] at h; cases h; exact ⟨x, rfl, rfl⟩

theorem RInv.step {m : List Nat} {g : Geo} {rate r : ℚ} (hm : m.length < 4294967296) {s t : RPhase × Cache} {ls : List Int}
    (h : RInv m g s) (hs : RStep g rate r s ls t) : RInv m g t := by
  cases hs with
  | interrupt ph c i =>
    rw [(c.get_eq g i).2]
    refine ⟨h.dev, ?_⟩
    intro b rest e
    simp only at e
    have hcore := findWithIndex_core (u32 (i / g.B)) c.bufs
    rw [e] at hcore
    cases hc : c.bufs with
    | nil => rw [hc] at hcore; cases hcore
    | cons x xs =>
      rw [hc] at hcore
      simp only [List.map_cons, List.cons.injEq] at hcore
      obtain ⟨h1, h2⟩ := h.bufs x xs hc
      exact ⟨bufsOk_core h1 hcore.2, h2.congr hcore.1⟩
  | testYes c b rest hc hu => exact ⟨h.dev, h.bufs⟩
  | testNo c hn => exact ⟨h.dev, h.bufs⟩
  | load c b rest i act hc hd =>
    have hb : ((c.dev.seek (u32 (2 * u32 (i - i % g.B))).toNat).read (2 * g.B)).2.bytes = c.dev.bytes := by
      unfold Dev.read; simp [Dev.seek_bytes]
    refine ⟨by rw [← h.dev]; exact hb, ?_⟩
    intro b' rest' e
    obtain ⟨h1, h2⟩ := h.bufs b' rest' e
    exact ⟨h1, h2.1, fun old k hk hin => overlay_ok h.dev hm (reloadDecide_in hd).1 old k hk hin⟩
  | noLoad c b rest act hc hd => exact ⟨h.dev, h.bufs⟩
  | filling c i got act junk =>
    refine ⟨h.dev, fun b rest e => ?_⟩
    obtain ⟨b0, e0, rfl⟩ := mapFront_bufs e
    obtain ⟨h1, h2⟩ := h.bufs b0 rest e0
    exact ⟨h1, h2⟩
  | filled c i got act old =>
    refine ⟨h.dev, fun b rest e => ?_⟩
    obtain ⟨b0, e0, rfl⟩ := mapFront_bufs e
    obtain ⟨h1, h2⟩ := h.bufs b0 rest e0
    exact ⟨h1, h2.1, h2.2 old⟩
  | setIndex c i n act =>
    refine ⟨h.dev, fun b rest e => ?_⟩
    obtain ⟨b0, e0, rfl⟩ := mapFront_bufs e
    obtain ⟨h1, h2⟩ := h.bufs b0 rest e0
    exact ⟨h1, (u32_in _).1, h2.2⟩
  | setSize c n act =>
    refine ⟨h.dev, fun b rest e => ?_⟩
    obtain ⟨b0, e0, rfl⟩ := mapFront_bufs e
    obtain ⟨h1, h2⟩ := h.bufs b0 rest e0
    exact ⟨h1, h2.1, fun _ => h2.2⟩
  | setStatus c act =>
    refine ⟨h.dev, fun b rest e => ?_⟩
    obtain ⟨b0, e0, rfl⟩ := mapFront_bufs e
    obtain ⟨h1, h2⟩ := h.bufs b0 rest e0
    exact ⟨h1, h2.1, h2.2⟩
  | order c act =>
    have hk : CacheOk m g c := h.ok (fun _ => Iff.rfl)
    have h2 : CacheOk m g (reloadReorder c act) :=
      ⟨by rw [reloadReorder_dev]; exact hk.dev, fun x hx => hk.bufs x ((reloadReorder_perm _ _).mem_iff.1 hx)⟩
    refine RInv.of_ok h2 ?_
    intro b
    split <;> exact Iff.rfl
  | finish c =>
    have hk : CacheOk m g c := h.ok (fun _ => Iff.rfl)
    have h3 : CacheOk m g c.resetStatus := ⟨hk.dev, bufsOk_core hk.bufs (resetStatus_core c)⟩
    refine RInv.of_ok ?_ (fun _ => Iff.rfl)
    split
    · exact ⟨h3.dev, h3.bufs⟩
    · exact h3

theorem RInv.run {m : List Nat} {g : Geo} {rate r : ℚ} (hm : m.length < 4294967296) {s t : RPhase × Cache} {ks : List Int}
    (h : RInv m g s) (hr : RRun g rate r s ks t) : RInv m g t := by
  induction hr with
  | refl => exact h
  | step _ h' ih => exact ih.step hm h'

/-- Block `k` is in the vector. -/
def HasBlock (c : Cache) (k : Int) : Prop := ∃ b ∈ c.bufs, b.index = k ∧ 0 < b.size

/-- The block the front buffer is labelled with while its contents are being replaced. -/
def Evicting (s : RPhase × Cache) (k : Int) : Prop :=
  ((∃ i got act, s.1 = .fill i got act) ∨ (∃ i n act, s.1 = .index i n act)) ∧ ∃ b rest, s.2.bufs = b :: rest ∧ b.index = k

/-- Buffers of a block that is not being evicted are right. -/
theorem RInv.right {m : List Nat} {g : Geo} {s : RPhase × Cache} (h : RInv m g s) {k : Int} (he : ¬ Evicting s k) :
    ∀ b ∈ s.2.bufs, b.index = k → BufOk m g b := by
  intro b hb hk
  cases hc : s.2.bufs with
  | nil => rw [hc] at hb; cases hb
  | cons x xs =>
    obtain ⟨h1, h2⟩ := h.bufs x xs hc
    rw [hc] at hb
    rcases List.mem_cons.1 hb with rfl | hb
    · unfold FrontOk at h2
      cases hp : s.1 <;> rw [hp] at h2
      case fill i got act => exact absurd ⟨Or.inl ⟨_, _, _, hp⟩, _, _, hc, hk⟩ he
      case index i n act => exact absurd ⟨Or.inr ⟨_, _, _, hp⟩, _, _, hc, hk⟩ he
      case size n act => exact ⟨h2.1, fun _ => h2.2⟩
      all_goals exact h2
    · exact h1 b hb

/-- Without interrupts the steps are the model's `triggerReload`. -/
theorem RRun.trans {g : Geo} {rate r : ℚ} {s t u : RPhase × Cache} {ks ls : List Int} (h : RRun g rate r s ks t) (h' : RRun g rate r t ls u) :
    RRun g rate r s (ks ++ ls) u := by
  induction h' with
  | refl => simpa using h
  | step _ hs ih => rw [← List.append_assoc]; exact ih.step hs

theorem RRun.one {g : Geo} {rate r : ℚ} {s t : RPhase × Cache} {ls : List Int} (h : RStep g rate r s ls t) : RRun g rate r s ls t := by
  have := (RRun.refl (g := g) (rate := rate) (r := r) s).step h
  simpa using this

theorem run_reloadLoop {g : Geo} {rate r : ℚ} : ∀ (fuel : Nat) (c c' : Cache), reloadLoop g r fuel c = .ok c' →
    ∃ ks, RRun g rate r (.test, c) ks (.finish, c') := by
  intro fuel
  have no : ∀ (c : Cache), (∀ b rest, c.bufs = b :: rest → b.status ≠ .unused) → ∃ ks, RRun g rate r (.test, c) ks (.finish, c) :=
    fun c h => ⟨_, RRun.one (.testNo c h)⟩
  induction fuel with
  | zero =>
    intro c c' e
    unfold reloadLoop at e
    split at e
    · rename_i hc; cases e; exact no c (fun b rest e => by rw [hc] at e; cases e)
    · rename_i b rest hc
      split at e
      · cases e
      · rename_i hu; cases e; exact no c (fun b' rest' e => by rw [hc] at e; cases e; exact hu)
  | succ fuel ih =>
    intro c c' e
    unfold reloadLoop at e
    split at e
    · rename_i hc; cases e; exact no c (fun b rest e => by rw [hc] at e; cases e)
    · rename_i b rest hc
      split at e
      · rename_i hu
        obtain ⟨⟨load, act⟩, hd, e⟩ := bind_ok_iff'.1 e
        simp only at e
        have h1 : ∃ ks, RRun g rate r (.test, c) ks (.order act, reloadLoad g c b rest load) := by
          cases load with
          | none => exact ⟨_, (RRun.one (.testYes c b rest hc hu)).step (.noLoad c b rest act hc hd)⟩
          | some i =>
            have r1 := ((((((RRun.one (rate := rate) (.testYes c b rest hc hu)).step (.load c b rest i act hc hd)).step (.filled _ i _ act b.data)).step
              (.setIndex _ i _ act)).step (.setSize _ _ act)).step (.setStatus _ act))
            · have e2 : reloadLoad g c b rest (some i) = (((({ c with dev := ((c.dev.seek (u32 (2 * u32 (i - i % g.B))).toNat).read (2 * g.B)).2 } : Cache).mapFront fun b' => { b' with data := overlay ((c.dev.seek (u32 (2 * u32 (i - i % g.B))).toNat).read (2 * g.B)).1 b.data }).mapFront fun b => { b with index := u32 (i / g.B) }).mapFront fun b => { b with size := i16 ((c.dev.seek (u32 (2 * u32 (i - i % g.B))).toNat).read (2 * g.B)).1.length }).mapFront fun b => { b with status := .loaded } := by
                unfold reloadLoad Cache.mapFront
                simp only [hc]
                rfl
              rw [e2]
              exact ⟨_, r1⟩
        obtain ⟨ks, h1⟩ := h1
        have h2 := h1.step (.order _ act)
        split at e
        · rename_i ha
          rw [if_pos ha] at h2
          injection e with e
          rw [← e]
          exact ⟨_, h2⟩
        · rename_i ha
          rw [if_neg ha] at h2
          obtain ⟨ls, h3⟩ := ih _ _ e
          exact ⟨_, h2.trans h3⟩
      · rename_i hu; cases e; exact no c (fun b' rest' e => by rw [hc] at e; cases e; exact hu)

/-- The front buffer's old and new block numbers are among those announced. -/
def Announced (g : Geo) (s : RPhase × Cache) (ks : List Int) : Prop :=
  match s.1 with
  | .fill i _ _ => u32 (i / g.B) ∈ ks ∧ ∀ b rest, s.2.bufs = b :: rest → b.index ∈ ks
  | .index i _ _ => u32 (i / g.B) ∈ ks ∧ ∀ b rest, s.2.bufs = b :: rest → b.index ∈ ks
  | .size _ _ => ∀ b rest, s.2.bufs = b :: rest → b.index ∈ ks
  | _ => True

theorem hasBlock_core {c c' : Cache} (h : c'.bufs.map Buf.core = c.bufs.map Buf.core) (k : Int) : HasBlock c' k ↔ HasBlock c k := by
  have key : ∀ {c c' : Cache}, c'.bufs.map Buf.core = c.bufs.map Buf.core → HasBlock c' k → HasBlock c k := by
    intro c c' h ⟨b, hb, e1, e2⟩
    have : b.core ∈ c.bufs.map Buf.core := by rw [← h]; exact List.mem_map_of_mem hb
    obtain ⟨b0, hb0, e⟩ := List.mem_map.1 this
    unfold Buf.core at e
    simp only [Prod.mk.injEq] at e
    exact ⟨b0, hb0, e.2.1.trans e1, by rw [e.2.2.1]; exact e2⟩
  exact ⟨key h, key h.symm⟩

theorem hasBlock_front {c : Cache} {f : Buf → Buf} {k : Int} (h : ∀ b rest, c.bufs = b :: rest → (b.index = k ∧ 0 < b.size ↔ (f b).index = k ∧ 0 < (f b).size)) :
    HasBlock (c.mapFront f) k ↔ HasBlock c k := by
  unfold HasBlock Cache.mapFront
  cases hc : c.bufs with
  | nil => simp
  | cons b rest => simp only [List.mem_cons, exists_eq_or_imp]; rw [h b rest hc]

theorem RStep.hasBlock {g : Geo} {rate r : ℚ} {s t : RPhase × Cache} {ls : List Int} (hs : RStep g rate r s ls t) {ks : List Int}
    (ha : Announced g s ks) : Announced g t (ks ++ ls) ∧ ∀ k, k ∉ ks ++ ls → (HasBlock t.2 k ↔ HasBlock s.2 k) := by
  cases hs with
  | interrupt ph c i =>
    have hcore : (c.get g i).2.bufs.map Buf.core = c.bufs.map Buf.core := by
      rw [(c.get_eq g i).2]; exact findWithIndex_core _ _
    refine ⟨?_, fun k _ => hasBlock_core hcore k⟩
    rw [List.append_nil]
    have key : (∀ b rest, c.bufs = b :: rest → b.index ∈ ks) → ∀ b rest, (c.get g i).2.bufs = b :: rest → b.index ∈ ks := by
      intro h b rest e
      rw [e] at hcore
      cases hc : c.bufs with
      | nil => rw [hc] at hcore; cases hcore
      | cons x xs =>
        rw [hc] at hcore
        simp only [List.map_cons, List.cons.injEq, Buf.core, Prod.mk.injEq] at hcore
        rw [hcore.1.2.1]
        exact h x xs hc
    unfold Announced at *
    cases ph <;> first | exact ⟨ha.1, key ha.2⟩ | exact key ha | exact ha
  | testYes c b rest hc hu => exact ⟨trivial, fun k _ => Iff.rfl⟩
  | testNo c hn => exact ⟨trivial, fun k _ => Iff.rfl⟩
  | load c b rest i act hc hd =>
    refine ⟨⟨by simp, fun b' rest' e => ?_⟩, fun k _ => Iff.rfl⟩
    have e' : c.bufs = b' :: rest' := e
    rw [hc] at e'
    cases e'
    simp
  | noLoad c b rest act hc hd => exact ⟨trivial, fun k _ => Iff.rfl⟩
  | filling c i got act junk =>
    rw [List.append_nil]
    refine ⟨⟨ha.1, fun b rest e => ?_⟩, fun k _ => hasBlock_front (fun _ _ _ => Iff.rfl)⟩
    obtain ⟨b0, e0, rfl⟩ := mapFront_bufs e
    exact ha.2 b0 rest e0
  | filled c i got act old =>
    rw [List.append_nil]
    refine ⟨⟨ha.1, fun b rest e => ?_⟩, fun k _ => hasBlock_front (fun _ _ _ => Iff.rfl)⟩
    obtain ⟨b0, e0, rfl⟩ := mapFront_bufs e
    exact ha.2 b0 rest e0
  | setIndex c i n act =>
    rw [List.append_nil]
    refine ⟨fun b rest e => ?_, fun k hk => hasBlock_front (fun b rest e => ?_)⟩
    · obtain ⟨b0, e0, rfl⟩ := mapFront_bufs e
      exact ha.1
    · have h1 := ha.1
      have h2 := ha.2 b rest e
      constructor
      · rintro ⟨rfl, _⟩; exact absurd h2 hk
      · rintro ⟨h3, _⟩; simp only at h3; rw [h3] at h1; exact absurd h1 hk
  | setSize c n act =>
    rw [List.append_nil]
    refine ⟨trivial, fun k hk => hasBlock_front (fun b rest e => ?_)⟩
    have h2 := ha b rest e
    constructor
    · rintro ⟨rfl, _⟩; exact absurd h2 hk
    · rintro ⟨rfl, _⟩; exact absurd h2 hk
  | setStatus c act => exact ⟨trivial, fun k _ => hasBlock_front (fun _ _ _ => Iff.rfl)⟩
  | order c act =>
    refine ⟨?_, fun k _ => ?_⟩
    · unfold Announced; by_cases ha : act = .nop <;> simp [ha]
    · have hp := reloadReorder_perm c act
      exact ⟨fun ⟨b, hb, h⟩ => ⟨b, hp.mem_iff.1 hb, h⟩, fun ⟨b, hb, h⟩ => ⟨b, hp.mem_iff.2 hb, h⟩⟩
  | finish c =>
    refine ⟨trivial, fun k _ => ?_⟩
    simp only
    split <;> exact hasBlock_core (resetStatus_core c) k

theorem RRun.hasBlock {g : Geo} {rate r : ℚ} {s t : RPhase × Cache} {ks : List Int} (h : RRun g rate r s ks t) (hs : s.1 = .test) :
    Announced g t ks ∧ ∀ k, k ∉ ks → (HasBlock t.2 k ↔ HasBlock s.2 k) := by
  induction h with
  | refl => exact ⟨by unfold Announced; rw [hs]; trivial, fun k _ => Iff.rfl⟩
  | step _ h' ih =>
    obtain ⟨h1, h2⟩ := h'.hasBlock ih.1
    refine ⟨h1, fun k hk => (h2 k hk).trans (ih.2 k (fun h => hk (List.mem_append_left _ h)))⟩

end TVP
