import Verif.Lemmas.Cache
import Verif.Model.Play

/-!
# Properties C14, C15, C16, C22: what the cache serves
-/

namespace TVP
open Spec

/-- What can happen to the cache of an open file. -/
inductive CacheOp
  | get (i : Int)
  | preLoad (i : Int) (forwards : Bool)
  | reload (fuel : Nat) (rate : ℚ)
  | loopType (t : LoopType)
  | loopStart (l : Int)
  | loopFinish (l : Int)

/-- One operation. -/
def CacheOp.run (g : Geo) (c : Cache) : CacheOp → M Cache
  | .get i => .ok (c.get g i).2
  | .preLoad i fw => .ok (c.preLoad g (i32 i) fw)
  | .reload fuel rate => c.triggerReload g fuel rate
  | .loopType t => .ok (c.setLoopType t)
  | .loopStart l => .ok (c.setLoopStart g l)
  | .loopFinish l => .ok (c.setLoopFinish g l)

/-- A sequence of operations. -/
def runCacheOps (g : Geo) (c : Cache) : List CacheOp → M Cache
  | [] => .ok c
  | o :: os => do runCacheOps g (← o.run g c) os

/-- Sample `i` is in one of the buffers. -/
def Buffered (g : Geo) (c : Cache) (i : Int) : Prop := ∃ b ∈ c.bufs, b.index = i / g.B ∧ 0 < b.size

structure Reached (m : List Nat) (g : Geo) (c : Cache) : Prop where
  ok : CacheOk m g c
  sizes : SizesOk m g c
  addrs : c.addrs.Perm (List.range c.bufs.length)
  len : c.bufs.length ≤ g.N

theorem Reached.step {m : List Nat} {g : Geo} {c c' : Cache} (hm : m.length < 4294967296) (h : Reached m g c) (o : CacheOp)
    (e : o.run g c = .ok c') : Reached m g c' := by
  have alen : ∀ c : Cache, c.addrs.length = c.bufs.length := fun c => by unfold Cache.addrs; simp
  cases o with
  | get i =>
    cases e
    have ha := c.get_addrs g i
    have hl : (c.get g i).2.bufs.length = c.bufs.length := by rw [← alen, ← alen, ha]
    refine ⟨h.ok.get i, ?_, by rw [ha, hl]; exact h.addrs, by rw [hl]; exact h.len⟩
    rw [(c.get_eq g i).2]
    exact sizesOk_core h.sizes (findWithIndex_core _ _)
  | preLoad i fw =>
    cases e
    obtain ⟨t, h1, h2, h3⟩ := c.preLoad_addrs g (i32 i) fw
    have hl : (c.preLoad g (i32 i) fw).bufs.length = c.bufs.length + t.length := by rw [← alen, h1, List.length_append, alen]
    refine ⟨h.ok.preLoad hm (i32_in _) fw, preLoadLoop_size hm _ _ _ _ _ _ h.ok.dev h.sizes (i32_in _) (by omega), ?_, ?_⟩
    · rw [h1, hl, List.range_add, h2]
      have e2 : List.map (fun x => c.bufs.length + x) (List.range t.length) = List.range' c.bufs.length t.length := by
        rw [List.range_eq_range', List.map_add_range']; simp
      rw [List.length_range', e2]
      exact h.addrs.append_right _
    · rw [hl]; have := h.len; omega
  | reload fuel rate =>
    have hp := Cache.triggerReload_addrs e
    have hl : c'.bufs.length = c.bufs.length := by rw [← alen, ← alen]; exact hp.length_eq
    exact ⟨h.ok.triggerReload hm e, Cache.triggerReload_size hm h.ok h.sizes e, by rw [hl]; exact hp.trans h.addrs, by rw [hl]; exact h.len⟩
  | loopType t => cases e; exact ⟨⟨h.ok.dev, h.ok.bufs⟩, h.sizes, h.addrs, h.len⟩
  | loopStart t => cases e; exact ⟨⟨h.ok.dev, h.ok.bufs⟩, h.sizes, h.addrs, h.len⟩
  | loopFinish t => cases e; exact ⟨⟨h.ok.dev, h.ok.bufs⟩, h.sizes, h.addrs, h.len⟩

theorem Reached.run {m : List Nat} {g : Geo} (hm : m.length < 4294967296) :
    ∀ (os : List CacheOp) {c c' : Cache}, Reached m g c → runCacheOps g c os = .ok c' → Reached m g c' := by
  intro os
  induction os with
  | nil => intro c c' h e; cases e; exact h
  | cons o os ih =>
    intro c c' h e
    unfold runCacheOps at e
    obtain ⟨c1, h1, e⟩ := bind_ok_iff'.1 e
    exact ih (h.step hm o h1) e

theorem Reached.fresh (m : List Nat) (g : Geo) (cur : Nat) (past : Bool) : Reached m g { dev := ⟨m, cur, past⟩ } :=
  ⟨⟨rfl, fun _ h => (by cases h)⟩, fun _ h => (by cases h), by simp [Cache.addrs], by simp⟩

/-- A buffered sample of the file is served correctly; an unbuffered one is 0 and counts as a miss. -/
theorem CacheOk.serves {m : List Nat} {g : Geo} {c : Cache} (h : CacheOk m g c) (hb : IsBytes m) (hm : m.length < 4294967296)
    {i : Int} (hi : InFile m i) :
    (Buffered g c i → (c.get g i).1 = fileSample m i.toNat ∧ (c.get g i).2.fails = c.fails) ∧
    (¬ Buffered g c i → (c.get g i).1 = 0 ∧ (c.get g i).2.fails = c.fails + 1) := by
  obtain ⟨h0, h1⟩ := hi
  have hB : (0 : Int) < g.B := by exact_mod_cast g.B_pos
  have hq : 0 ≤ i / g.B := Int.ediv_nonneg h0 (le_of_lt hB)
  have hq2 : i / g.B ≤ i := Int.ediv_le_self _ h0
  have e4 : u32 (i / g.B) = i / g.B := u32_of_in ⟨by omega, by omega⟩
  obtain ⟨e1, e2⟩ := c.get_eq g i
  rw [e4] at e1 e2
  constructor
  · rintro ⟨b, hbm, hbi, hbs⟩
    cases hf : c.bufs.find? (Buf.has (i / g.B)) with
    | none =>
      rw [List.find?_eq_none] at hf
      have := hf b hbm
      simp [Buf.has, hbi, hbs] at this
    | some b' =>
      rw [hf] at e1 e2
      have hm' := List.mem_of_find?_eq_some hf
      have hp := List.find?_some hf
      simp only [Buf.has, decide_eq_true_eq] at hp
      refine ⟨?_, by rw [e2]; simp⟩
      rw [e1]
      simp only
      obtain ⟨_, hk⟩ := h.bufs b' hm'
      have hr : 0 ≤ i % g.B := Int.emod_nonneg _ (ne_of_gt hB)
      have hr2 : i % g.B < g.B := Int.emod_lt_of_pos _ hB
      have e5 : b'.index.toNat * g.B + (i % g.B).toNat = i.toNat := by
        rw [hp.1]
        have h3 : (((i / g.B).toNat * g.B + (i % g.B).toNat : Nat) : Int) = i := by
          push_cast
          rw [Int.toNat_of_nonneg hq, Int.toNat_of_nonneg hr, mul_comm]
          exact Int.mul_ediv_add_emod i g.B
        omega
      rw [hk hp.2 _ (by omega) (by rw [e5]; omega), e5]
      exact rawSample_eq hb (by omega)
  · intro hn
    have hf : c.bufs.find? (Buf.has (i / g.B)) = none := by
      rw [List.find?_eq_none]
      intro b hbm hp
      simp only [Buf.has, decide_eq_true_eq] at hp
      exact hn ⟨b, hbm, hp.1, hp.2⟩
    rw [hf] at e1 e2
    exact ⟨e1, by rw [e2]; simp⟩

/-- **C14**.  After any sequence of preloads, reloads, reads and loop settings on an open file, reading a sample that lies
in the file gives the file's sample if it is buffered and 0 (counted as a miss) otherwise.  Any buffer geometry, any
content of uninitialised buffers, both kinds of `seek`. -/
theorem C14_cached_sample (g : Geo) {m : List Nat} (hb : IsBytes m) (hm : m.length < 2 ^ 32) (cur : Nat) (past : Bool)
    (ops : List CacheOp) {c : Cache} (h : runCacheOps g { dev := ⟨m, cur, past⟩ } ops = .ok c) {i : Int} (hi : InFile m i) :
    (Buffered g c i → (c.get g i).1 = fileSample m i.toNat ∧ (c.get g i).2.fails = c.fails) ∧
    (¬ Buffered g c i → (c.get g i).1 = 0 ∧ (c.get g i).2.fails = c.fails + 1) :=
  ((Reached.fresh m g cur past).run (by omega) ops h).ok.serves hb (by omega) hi

/-- Two buffers of four samples on a ten-sample file: after a preload, a read in the third block and a reload ... -/
def exGeo : Geo := ⟨2, 2, fun _ => [7, 7, 7, 7, 7, 7, 7, 7]⟩
def exBytes : List Nat := [1, 0, 2, 0, 3, 0, 4, 0, 5, 0, 6, 0, 7, 0, 255, 255, 9, 0, 10, 1]

/-- ... samples 4 to 9 are buffered and 0 to 3 are not. -/
example : (runCacheOps exGeo { dev := ⟨exBytes, 0, false⟩ } [.preLoad 0 true, .get 5, .reload 9 1]).map
      (fun c => ([7, 9, 3].map fun i => (c.get exGeo i).1)) = .ok [-1, 266, 0] ∧
    fileSample exBytes 7 = -1 ∧ fileSample exBytes 9 = 266 := by decide +kernel

example : ∃ c, runCacheOps exGeo { dev := ⟨exBytes, 0, false⟩ } [.preLoad 0 true, .get 5, .reload 9 1] = .ok c ∧
    (Buffered exGeo c 7 → (c.get exGeo 7).1 = fileSample exBytes 7) := by
  refine ⟨_, rfl, fun h => ((C14_cached_sample exGeo (by unfold IsBytes; decide) (by decide) 0 false
    [.preLoad 0 true, .get 5, .reload 9 1] rfl (by unfold InFile; decide)).1 h).1⟩

/-! ## C15 -/

/-- Reading samples one after the other. -/
def Cache.gets (g : Geo) (c : Cache) : List Int → List Int × Cache
  | [] => ([], c)
  | i :: is => let x := c.get g i; let r := x.2.gets g is; (x.1 :: r.1, r.2)

/-- The number of samples in `is` that no buffer holds. -/
def missing (g : Geo) (c : Cache) (is : List Int) : Nat :=
  (is.filter fun i => ! c.bufs.any fun b => decide (b.index = u32 (i / g.B) ∧ 0 < b.size)).length

/-- Equal except for buffer statuses and the miss counter. -/
def SameContents (c c' : Cache) : Prop :=
  c'.dev = c.dev ∧ c'.bufs.map Buf.core = c.bufs.map Buf.core ∧ c'.prevRate = c.prevRate ∧ c'.loopType = c.loopType ∧
    c'.loopStartBlk = c.loopStartBlk ∧ c'.loopFinishBlk = c.loopFinishBlk

theorem find_core {k : Int} : ∀ {bs bs' : List Buf}, bs'.map Buf.core = bs.map Buf.core →
    (bs'.find? (Buf.has k)).map Buf.core = (bs.find? (Buf.has k)).map Buf.core := by
  intro bs
  induction bs with
  | nil => intro bs' h; rw [List.map_nil, List.map_eq_nil_iff] at h; rw [h]
  | cons x xs ih =>
    intro bs' h
    cases bs' with
    | nil => cases h
    | cons y ys =>
      rw [List.map_cons, List.map_cons] at h
      injection h with h1 h2
      have hc : Buf.has k y = Buf.has k x := by
        unfold Buf.core at h1
        simp only [Prod.mk.injEq] at h1
        unfold Buf.has; rw [h1.2.1, h1.2.2.1]
      cases hx : Buf.has k x with
      | true => rw [List.find?_cons_of_pos hx, List.find?_cons_of_pos (hc.trans hx)]; simp [h1]
      | false =>
        rw [List.find?_cons_of_neg (by rw [hc, hx]; decide), List.find?_cons_of_neg (by rw [hx]; decide)]
        exact ih h2

theorem SameContents.get {g : Geo} {c c' : Cache} (h : SameContents c c') (i : Int) :
    (c'.get g i).1 = (c.get g i).1 ∧ SameContents c (c'.get g i).2 ∧ (c'.get g i).2.fails = c'.fails + missing g c [i] := by
  obtain ⟨e1, e2⟩ := c'.get_eq g i
  obtain ⟨f1, f2⟩ := c.get_eq g i
  have hf := find_core (k := u32 (i / g.B)) h.2.1
  refine ⟨?_, ?_, ?_⟩
  · rw [e1, f1]
    cases h1 : c'.bufs.find? (Buf.has (u32 (i / g.B))) <;> cases h2 : c.bufs.find? (Buf.has (u32 (i / g.B))) <;> rw [h1, h2] at hf
    · simp at hf
    · simp at hf
    · simp only [Option.map_some, Option.some.injEq] at hf
      unfold Buf.core at hf
      simp only [Prod.mk.injEq] at hf
      simp only [hf.2.2.2]
  · rw [e2]
    exact ⟨h.1, (findWithIndex_core _ _).trans h.2.1, h.2.2⟩
  · rw [e2]
    simp only
    congr 1
    have e : (c'.bufs.find? (Buf.has (u32 (i / g.B)))).isSome = (c.bufs.find? (Buf.has (u32 (i / g.B)))).isSome := by
      have := congrArg Option.isSome hf
      simpa using this
    have e3 : (c.bufs.find? (Buf.has (u32 (i / g.B)))).isSome = c.bufs.any fun b => decide (b.index = u32 (i / g.B) ∧ 0 < b.size) := by
      rw [Bool.eq_iff_iff, List.find?_isSome, List.any_eq_true]
      rfl
    rw [e, e3]
    unfold missing
    simp only [List.filter_cons, List.filter_nil]
    cases c.bufs.any fun b => decide (b.index = u32 (i / g.B) ∧ 0 < b.size) <;> rfl

/-- **C15**.  However many samples are read, in any order: the file position, the buffered data and everything else except
buffer statuses is unchanged, each value is what a single read of that sample gives, and the miss counter goes up by the
number of samples that are not buffered. -/
theorem C15_read_only (g : Geo) (is : List Int) (c : Cache) :
    (c.gets g is).1 = is.map (fun i => (c.get g i).1) ∧ SameContents c (c.gets g is).2 ∧
      (c.gets g is).2.fails = c.fails + missing g c is := by
  have key : ∀ (is : List Int) (c' : Cache), SameContents c c' → (c'.gets g is).1 = is.map (fun i => (c.get g i).1) ∧
      SameContents c (c'.gets g is).2 ∧ (c'.gets g is).2.fails = c'.fails + missing g c is := by
    intro is
    induction is with
    | nil => intro c' h; exact ⟨rfl, h, rfl⟩
    | cons i is ih =>
      intro c' h
      obtain ⟨h1, h2, h3⟩ := h.get (g := g) i
      obtain ⟨k1, k2, k3⟩ := ih _ h2
      refine ⟨by unfold Cache.gets; simp only [k1, h1, List.map_cons], k2, ?_⟩
      unfold Cache.gets
      simp only
      rw [k3, h3]
      unfold missing
      simp only [List.filter_cons, List.filter_nil]
      split
      · simp; omega
      · simp
  exact key is c ⟨rfl, rfl, rfl, rfl, rfl, rfl⟩

/-- Three reads, one of them not buffered. -/
example : ((({ dev := ⟨exBytes, 0, false⟩ } : Cache).preLoad exGeo 0 true).gets exGeo [1, 9, 7]).1 = [2, 0, -1] := by
  decide +kernel
example : ((({ dev := ⟨exBytes, 0, false⟩ } : Cache).preLoad exGeo 0 true).gets exGeo [1, 9, 7]).2.fails = 1 := by decide +kernel

/-! ## C16 -/

/-- **C16** (bound).  After any operations on an open file there are at most `MAX_NUM_BUFFERS` buffers, all distinct. -/
theorem C16_bounded (g : Geo) {m : List Nat} (hm : m.length < 2 ^ 32) (cur : Nat) (past : Bool) (ops : List CacheOp)
    {c : Cache} (h : runCacheOps g { dev := ⟨m, cur, past⟩ } ops = .ok c) :
    c.bufs.length ≤ g.N ∧ c.addrs.Nodup :=
  have hr := (Reached.fresh m g cur past).run (by omega) ops h
  ⟨hr.len, hr.addrs.symm.nodup (List.nodup_range)⟩

/-- **C16** (who changes the pool).  Reading leaves the buffers and their order alone, reloading permutes them, preloading
keeps the existing ones and appends new ones; in particular their number never goes down. -/
theorem C16_pool (g : Geo) (c c' : Cache) (o : CacheOp) (h : o.run g c = .ok c') :
    (∃ t, c'.addrs.Perm (c.addrs ++ t)) ∧ ((∀ i fw, o ≠ .preLoad i fw) → c'.addrs.Perm c.addrs) ∧
      ((∃ i, o = .get i) → c'.addrs = c.addrs) := by
  cases o with
  | get i => cases h; have e := c.get_addrs g i; exact ⟨⟨[], by rw [e]; simp⟩, fun _ => by rw [e], fun _ => e⟩
  | preLoad i fw =>
    cases h
    obtain ⟨t, h1, _, _⟩ := c.preLoad_addrs g (i32 i) fw
    exact ⟨⟨t, by rw [h1]⟩, fun hn => absurd rfl (hn i fw), fun ⟨j, hj⟩ => by cases hj⟩
  | reload fuel rate =>
    have hp := Cache.triggerReload_addrs h
    exact ⟨⟨[], by simpa using hp⟩, fun _ => hp, fun ⟨j, hj⟩ => by cases hj⟩
  | loopType t => cases h; exact ⟨⟨[], by simp; rfl⟩, fun _ => List.Perm.refl _, fun ⟨j, hj⟩ => by cases hj⟩
  | loopStart t => cases h; exact ⟨⟨[], by simp; rfl⟩, fun _ => List.Perm.refl _, fun ⟨j, hj⟩ => by cases hj⟩
  | loopFinish t => cases h; exact ⟨⟨[], by simp; rfl⟩, fun _ => List.Perm.refl _, fun ⟨j, hj⟩ => by cases hj⟩

/-- Two buffers, exchanged by the reload. -/
example : (runCacheOps exGeo { dev := ⟨exBytes, 0, false⟩ } [.preLoad 0 true, .get 5, .reload 9 1]).map Cache.addrs = .ok [1, 0] := by
  decide +kernel

/-! ## C22 -/

/-- **C22**.  After any operations on an open file: a buffer whose block starts inside the file records exactly the number
of bytes available (at most a full block), and if there are any, every sample of the file in that block is served
correctly. -/
theorem C22_tail (g : Geo) (hB : g.B < 16384) {m : List Nat} (hb : IsBytes m) (hm : m.length < 2 ^ 32) (cur : Nat) (past : Bool)
    (ops : List CacheOp) {c : Cache} (h : runCacheOps g { dev := ⟨m, cur, past⟩ } ops = .ok c) {b : Buf} (hbm : b ∈ c.bufs)
    (hin : 2 * (b.index * g.B) < m.length) :
    b.size = min (2 * g.B : Int) (m.length - 2 * (b.index * g.B)) ∧
      ∀ i, i / g.B = b.index → InFile m i → (c.get g i).1 = fileSample m i.toNat := by
  have hr := (Reached.fresh m g cur past).run (by omega) ops h
  have hs : b.size = min (2 * g.B : Int) (m.length - 2 * (b.index * g.B)) := by
    rw [(hr.sizes b hbm).2 (le_of_lt hin)]
    have := g.B_pos
    exact i16_of_in ⟨by omega, by omega⟩
  refine ⟨hs, fun i hi hf => ((hr.ok.serves hb (by omega) hf).1 ⟨b, hbm, hi.symm, ?_⟩).1⟩
  have := g.B_pos
  omega

/-- The last block of the example file holds two samples. -/
example : (runCacheOps exGeo { dev := ⟨exBytes, 0, false⟩ } [.preLoad 0 true, .get 5, .reload 9 1]).map
    (fun c => c.bufs.map fun b => (b.index, b.size)) = .ok [(1, 8), (2, 4)] := by decide +kernel

/-- The limit on the block size is needed: with 16384-sample blocks a full block records a negative size, so none of its
samples is ever served. -/
theorem C22_limit (g : Geo) (hB : g.B = 16384) (d : Dev) (b : Buf) (i : Int) (h0 : 0 ≤ i) (h1 : i ≤ 2147483647)
    (hin : 2 * (i / g.B * g.B) + 32768 ≤ d.bytes.length) : (loadBuffer g d b i).1.size = -32768 := by
  obtain ⟨got, hgot, e, _⟩ := loadBuffer_eq (g := g) (b := b) (d := d) h0 h1 (by omega)
  rw [e]
  have h2 : 0 ≤ i / g.B * g.B := mul_nonneg (Int.ediv_nonneg h0 (by omega)) (by omega)
  have : got.length = 32768 := by rw [hgot, List.length_take, List.length_drop, hB]; rw [hB] at hin h2; omega
  simp only [this]
  decide

end TVP
