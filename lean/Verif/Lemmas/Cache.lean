import Verif.Model.Cache
import Verif.Spec.Cache
import Mathlib.Tactic.Ring
import Mathlib.Tactic.Linarith
import Mathlib.Data.List.Nodup

/-!
# Lemmas about the block cache
-/

namespace TVP
open Spec

theorem Geo.B_pos (g : Geo) : 0 < g.B := by unfold Geo.B; exact Nat.pow_pos (by decide)

/-- The two bytes of sample `i` of a file, as the target reads them. -/
def rawSample (m : List Nat) (i : Nat) : Int := i16 (le16 (m.getD (2 * i) 0) (m.getD (2 * i + 1) 0))

theorem rawSample_eq {m : List Nat} (hm : IsBytes m) {i : Nat} (h : 2 * i + 2 ≤ m.length) : rawSample m i = fileSample m i := by
  have e : slice m (2 * i) 2 = [m.getD (2 * i) 0, m.getD (2 * i + 1) 0] := by
    unfold slice
    apply List.ext_getElem
    · simp; omega
    · intro n h1 h2
      simp only [List.length_cons, List.length_nil] at h2
      have : n = 0 ∨ n = 1 := by omega
      rcases this with rfl | rfl <;>
        simp [List.getD_eq_getElem?_getD, show 2 * i < m.length by omega, show 2 * i + 1 < m.length by omega]
  have h0 : m.getD (2 * i) 0 < 256 := by
    rw [List.getD_eq_getElem?_getD, List.getElem?_eq_getElem (by omega)]; exact hm _ (List.getElem_mem _)
  have h1 : m.getD (2 * i + 1) 0 < 256 := by
    rw [List.getD_eq_getElem?_getD, List.getElem?_eq_getElem (by omega)]; exact hm _ (List.getElem_mem _)
  have ev : ∀ a b : Nat, leVal [a, b] = a + 256 * b := by intro a b; simp [leVal]
  unfold rawSample fileSample i16 le16
  rw [e, ev]
  generalize m.getD (2 * i) 0 = a at *
  generalize m.getD (2 * i + 1) 0 = b at *
  simp only
  split <;> omega

/-- What a buffer contains apart from its status. -/
def Buf.core (b : Buf) : Nat × Int × Int × List Nat := (b.addr, b.index, b.size, b.data)

/-- Does the buffer serve block `k`? -/
def Buf.has (k : Int) (b : Buf) : Bool := decide (b.index = k ∧ b.size > 0)

theorem findWithIndex_core (k : Int) (bs : List Buf) : (findWithIndex k bs).1.map Buf.core = bs.map Buf.core := by
  induction bs with
  | nil => rfl
  | cons x xs ih =>
    unfold findWithIndex
    split
    · rfl
    · simp only [List.map_cons, ih]
      split <;> rfl

theorem findWithIndex_find (k : Int) (bs : List Buf) : (findWithIndex k bs).2 = bs.find? (Buf.has k) := by
  induction bs with
  | nil => rfl
  | cons x xs ih =>
    unfold findWithIndex
    split
    · rename_i h; rw [List.find?_cons_of_pos (by simp [Buf.has, h])]
    · rename_i h; rw [List.find?_cons_of_neg (by simp only [Buf.has, decide_eq_true_eq]; exact h)]; exact ih

/-- The value served and whether it counts as a miss. -/
theorem Cache.get_eq (g : Geo) (c : Cache) (i : Int) :
    (c.get g i).1 = (match c.bufs.find? (Buf.has (u32 (i / g.B))) with
      | some m => sampleAt m.data (i % g.B).toNat
      | none => 0) ∧
    (c.get g i).2 = { c with bufs := (findWithIndex (u32 (i / g.B)) c.bufs).1, fails := c.fails + (if (c.bufs.find? (Buf.has (u32 (i / g.B)))).isSome then 0 else 1) } := by
  unfold Cache.get
  have h := findWithIndex_find (u32 (i / g.B)) c.bufs
  rcases e : findWithIndex (u32 (i / g.B)) c.bufs with ⟨bs, m⟩
  rw [e] at h
  simp only at h
  rw [← h]
  cases m <;> exact ⟨rfl, rfl⟩

/-- The buffer holds the file's samples, as far as they exist. -/
def BufOk (m : List Nat) (g : Geo) (b : Buf) : Prop :=
  0 ≤ b.index ∧ (0 < b.size → ∀ k : Nat, k < g.B → 2 * (b.index.toNat * g.B + k) + 2 ≤ m.length →
    sampleAt b.data k = rawSample m (b.index.toNat * g.B + k))

/-- Every buffer of the cache holds the file's samples. -/
structure CacheOk (m : List Nat) (g : Geo) (c : Cache) : Prop where
  dev : c.dev.bytes = m
  bufs : ∀ b ∈ c.bufs, BufOk m g b

theorem BufOk.congr {m : List Nat} {g : Geo} {b b' : Buf} (h : BufOk m g b) (hi : b'.index = b.index) (hs : b'.size = b.size) (hd : b'.data = b.data) :
    BufOk m g b' := by unfold BufOk; rw [hi, hs, hd]; exact h

theorem bufsOk_core {m : List Nat} {g : Geo} {bs bs' : List Buf} (h : ∀ b ∈ bs, BufOk m g b) (hc : bs'.map Buf.core = bs.map Buf.core) :
    ∀ b ∈ bs', BufOk m g b := by
  intro b hb
  have : b.core ∈ bs.map Buf.core := by rw [← hc]; exact List.mem_map_of_mem hb
  obtain ⟨b0, hb0, e⟩ := List.mem_map.1 this
  unfold Buf.core at e
  simp only [Prod.mk.injEq] at e
  exact (h b0 hb0).congr e.2.1.symm e.2.2.1.symm e.2.2.2.symm

theorem CacheOk.get {m : List Nat} {g : Geo} {c : Cache} (h : CacheOk m g c) (i : Int) : CacheOk m g (c.get g i).2 := by
  rw [(c.get_eq g i).2]
  exact ⟨h.dev, bufsOk_core h.bufs (findWithIndex_core _ _)⟩

theorem getD_overlay {got buf : List Nat} {j : Nat} (h : j < got.length) : (overlay got buf).getD j 0 = got.getD j 0 := by
  unfold overlay
  simp [List.getD_eq_getElem?_getD, List.getElem?_append, h]

theorem Dev.seek_bytes (d : Dev) (p : Nat) : (d.seek p).bytes = d.bytes := by unfold Dev.seek; split <;> rfl

theorem loadBuffer_bytes (g : Geo) (d : Dev) (b : Buf) (i : Int) : (loadBuffer g d b i).2.1.bytes = d.bytes := by
  unfold loadBuffer Dev.read; simp [Dev.seek_bytes]

theorem loadBuffer_index (g : Geo) (d : Dev) (b : Buf) (i : Int) : (loadBuffer g d b i).1.index = u32 (i / g.B) := rfl
theorem loadBuffer_addr (g : Geo) (d : Dev) (b : Buf) (i : Int) : (loadBuffer g d b i).1.addr = b.addr := rfl
theorem loadBuffer_status (g : Geo) (d : Dev) (b : Buf) (i : Int) : (loadBuffer g d b i).1.status = .loaded := rfl

/-- Loading from a place inside the file. -/
theorem loadBuffer_eq {g : Geo} {d : Dev} {b : Buf} {i : Int} (h0 : 0 ≤ i) (h1 : i ≤ 2147483647)
    (hin : 2 * (i / g.B * g.B) ≤ d.bytes.length) :
    ∃ got, got = (d.bytes.drop (2 * (i / g.B * g.B)).toNat).take (2 * g.B) ∧
      (loadBuffer g d b i).1 = { b with index := i / g.B, size := i16 got.length, status := .loaded, data := overlay got b.data } ∧
      (loadBuffer g d b i).2.2 = got.length := by
  have hB : (0 : Int) < g.B := by exact_mod_cast g.B_pos
  have e1 : i - i % g.B = i / g.B * g.B := by have := Int.emod_add_mul_ediv i g.B; rw [mul_comm] at this; omega
  have hq : 0 ≤ i / g.B := Int.ediv_nonneg h0 (le_of_lt hB)
  have hq1 : i / g.B * g.B ≤ i := Int.ediv_mul_le _ (ne_of_gt hB)
  have hq2 : i / g.B ≤ i := Int.ediv_le_self _ h0
  have hq3 : 0 ≤ i / g.B * g.B := mul_nonneg hq (le_of_lt hB)
  have e2 : u32 (i - i % g.B) = i / g.B * g.B := by rw [e1]; exact u32_of_in ⟨by omega, by omega⟩
  have e3 : u32 (2 * u32 (i - i % g.B)) = 2 * (i / g.B * g.B) := by rw [e2]; exact u32_of_in ⟨by omega, by omega⟩
  have e4 : u32 (i / g.B) = i / g.B := u32_of_in ⟨by omega, by omega⟩
  refine ⟨_, rfl, ?_, ?_⟩
  · unfold loadBuffer Dev.read Dev.seek
    simp only [e3, e4]
    rw [if_pos (Or.inl (by omega))]
  · unfold loadBuffer Dev.read Dev.seek
    simp only [e3]
    rw [if_pos (Or.inl (by omega))]

theorem loadBuffer_data {m : List Nat} {g : Geo} {d : Dev} {b : Buf} {i : Int} (hd : d.bytes = m) (hm : m.length < 4294967296)
    (hi : InI32 i) (k : Nat) (hk : k < g.B) (hin : 2 * ((u32 (i / g.B)).toNat * g.B + k) + 2 ≤ m.length) :
    sampleAt (loadBuffer g d b i).1.data k = rawSample m ((u32 (i / g.B)).toNat * g.B + k) := by
  have hB : (0 : Int) < g.B := by exact_mod_cast g.B_pos
  unfold InI32 at hi
  by_cases h0 : 0 ≤ i
  · have hq : 0 ≤ i / g.B := Int.ediv_nonneg h0 (le_of_lt hB)
    have hq2 : i / g.B ≤ i := Int.ediv_le_self _ h0
    have e4 : u32 (i / g.B) = i / g.B := u32_of_in ⟨by omega, by omega⟩
    rw [e4] at hin ⊢
    have hin' : 2 * (i / g.B * g.B) ≤ d.bytes.length := by
      rw [hd]
      have : ((i / g.B).toNat * g.B : Nat) = i / g.B * (g.B : Int) := by push_cast; rw [Int.toNat_of_nonneg hq]
      omega
    obtain ⟨got, hgot, e, _⟩ := loadBuffer_eq (b := b) h0 hi.2 hin'
    rw [e]
    have e5 : (2 * (i / g.B * g.B)).toNat = 2 * ((i / g.B).toNat * g.B) := by
      have : ((i / g.B).toNat * g.B : Nat) = i / g.B * (g.B : Int) := by push_cast; rw [Int.toNat_of_nonneg hq]
      omega
    rw [hd, e5] at hgot
    generalize (i / (g.B : Int)).toNat * g.B = base at *
    have hlen : 2 * k + 2 ≤ got.length := by rw [hgot, List.length_take, List.length_drop]; omega
    have hg : ∀ j, j < 2 * g.B → base * 2 + j < m.length → got.getD j 0 = m.getD (2 * base + j) 0 := by
      intro j hj _
      rw [hgot]
      simp [List.getD_eq_getElem?_getD, hj]
    simp only
    unfold sampleAt rawSample
    rw [getD_overlay (by omega), getD_overlay (by omega), hg _ (by omega) (by omega), hg _ (by omega) (by omega)]
    ring_nf
  · exfalso
    have hq1 : i / g.B < 0 := Int.ediv_neg_of_neg_of_pos (by omega) hB
    have hq2 : i ≤ i / g.B := by
      rw [Int.le_ediv_iff_mul_le hB]
      nlinarith
    have e4 : u32 (i / g.B) = i / g.B + 4294967296 := by unfold u32; omega
    rw [e4] at hin
    have h3 : 2147483648 ≤ (i / g.B + 4294967296).toNat := by omega
    have h4 : (i / g.B + 4294967296).toNat ≤ (i / g.B + 4294967296).toNat * g.B := Nat.le_mul_of_pos_right _ g.B_pos
    omega

theorem loadBuffer_ok {m : List Nat} {g : Geo} {d : Dev} {b : Buf} {i : Int} (hd : d.bytes = m) (hm : m.length < 4294967296)
    (hi : InI32 i) : BufOk m g (loadBuffer g d b i).1 :=
  ⟨(u32_in _).1, fun _ k hk hin => loadBuffer_data hd hm hi k hk hin⟩

theorem preLoadLoop_ok {m : List Nat} {g : Geo} (hm : m.length < 4294967296) (nv : Nat) (fw : Bool) :
    ∀ (left bufn : Nat) (c : Cache) (i : Int), CacheOk m g c → InI32 i → CacheOk m g (preLoadLoop g nv fw left bufn c i) := by
  intro left
  induction left with
  | zero => intro bufn c i h _; exact h
  | succ left ih =>
    intro bufn c i h hi
    unfold preLoadLoop
    simp only
    split
    · exact h
    · rename_i buf hb
      have key : CacheOk m g { c with bufs := ((if bufn ≥ nv then c.bufs ++ [{ addr := bufn, index := 0, size := 0, status := .constructed, data := g.junk bufn }] else c.bufs)).set bufn (loadBuffer g c.dev buf i).1, dev := (loadBuffer g c.dev buf i).2.1 } := by
        refine ⟨by rw [loadBuffer_bytes]; exact h.dev, ?_⟩
        intro b hb'
        rcases List.mem_or_eq_of_mem_set hb' with h1 | h1
        · by_cases hge : bufn ≥ nv
          · simp only [hge, if_true] at h1 hb hb'
            rcases List.mem_append.1 h1 with h2 | h2
            · exact h.bufs b h2
            · rw [List.mem_singleton] at h2
              subst h2
              exact ⟨le_refl _, fun h => absurd h (lt_irrefl _)⟩
          · rw [if_neg hge] at h1; exact h.bufs b h1
        · rw [h1]; exact loadBuffer_ok h.dev hm hi
      split
      · exact key
      · exact ih _ _ _ key (i32_in _)

theorem CacheOk.preLoad {m : List Nat} {g : Geo} {c : Cache} (hm : m.length < 4294967296) (h : CacheOk m g c) {i : Int} (hi : InI32 i)
    (fw : Bool) : CacheOk m g (c.preLoad g i fw) := preLoadLoop_ok hm _ _ _ _ _ _ h hi

theorem bind_ok_iff' {α β} {x : M α} {f : α → M β} {b : β} : (x >>= f) = .ok b ↔ ∃ a, x = .ok a ∧ f a = .ok b := by
  cases x with
  | error e => constructor
               · intro h; cases h
               · rintro ⟨a, h, _⟩; cases h
  | ok a => constructor
            · intro h; exact ⟨a, rfl, h⟩
            · rintro ⟨a', h, h'⟩; cases h; exact h'

/-- Every block number to load is an `int`. -/
theorem reloadDecide_in {g : Geo} {c : Cache} {rate : ℚ} {b : Buf} {i : Int} {act : BufAction}
    (h : reloadDecide g c rate b = .ok (some i, act)) : InI32 i ∧ act = .move := by
  have key : ∀ {x : Int} {a : BufAction}, (Except.ok (some (i32 x), a) : M (Option Int × BufAction)) = .ok (some i, act) → InI32 i ∧ act = a := by
    intro x a h
    injection h with h
    injection h with h1 h2
    injection h1 with h1
    rw [← h1, ← h2]; exact ⟨i32_in _, rfl⟩
  unfold reloadDecide at h
  split at h
  · split at h
    · exact key h
    · dsimp only at h
      split at h
      · obtain ⟨lb, _, h⟩ := bind_ok_iff'.1 h
        split at h <;> exact key h
      · exact key h
    · dsimp only at h
      split at h
      · obtain ⟨lb, _, h⟩ := bind_ok_iff'.1 h
        split at h <;> (injection h with h; injection h with h1 h2; cases h1)
      · exact key h
  · split at h
    · dsimp only at h
      split at h
      · injection h with h; injection h with h1 h2; cases h1
      · exact key h
    · dsimp only at h
      split at h
      · obtain ⟨lb, _, h⟩ := bind_ok_iff'.1 h
        split at h <;> exact key h
      · exact key h
    · dsimp only at h
      split at h
      · obtain ⟨lb, _, h⟩ := bind_ok_iff'.1 h
        split at h <;> (injection h with h; injection h with h1 h2; cases h1)
      · exact key h

theorem reloadLoad_ok {m : List Nat} {g : Geo} {c : Cache} {b : Buf} {rest : List Buf} {i : Option Int} (hm : m.length < 4294967296)
    (hc : c.bufs = b :: rest) (h : CacheOk m g c) (hi : ∀ x, i = some x → InI32 x) : CacheOk m g (reloadLoad g c b rest i) := by
  unfold reloadLoad
  cases i with
  | none => exact h
  | some i =>
    refine ⟨by simp only [loadBuffer_bytes]; exact h.dev, ?_⟩
    intro x hx
    rcases List.mem_cons.1 hx with rfl | hx
    · exact loadBuffer_ok h.dev hm (hi _ rfl)
    · exact h.bufs x (by rw [hc]; exact List.mem_cons_of_mem _ hx)

/-- Reordering only permutes. -/
theorem reloadReorder_perm (c : Cache) (a : BufAction) : (reloadReorder c a).bufs.Perm c.bufs := by
  unfold reloadReorder
  cases a with
  | nop => exact List.Perm.refl _
  | move =>
    simp only
    cases c.bufs with
    | nil => exact List.Perm.refl _
    | cons x xs => simp only [List.tail_cons, List.head?_cons, Option.toList_some]; exact List.perm_append_comm
  | reverse => exact List.reverse_perm _

theorem reloadReorder_dev (c : Cache) (a : BufAction) : (reloadReorder c a).dev = c.dev := by cases a <;> rfl

theorem reloadLoop_ok {m : List Nat} {g : Geo} (hm : m.length < 4294967296) (rate : ℚ) :
    ∀ (fuel : Nat) (c c' : Cache), CacheOk m g c → reloadLoop g rate fuel c = .ok c' → CacheOk m g c' := by
  intro fuel
  induction fuel with
  | zero =>
    intro c c' h e
    unfold reloadLoop at e
    split at e
    · cases e; exact h
    · split at e
      · cases e
      · cases e; exact h
  | succ fuel ih =>
    intro c c' h e
    unfold reloadLoop at e
    split at e
    · cases e; exact h
    · rename_i b rest hc
      split at e
      · obtain ⟨⟨load, act⟩, hd, e⟩ := bind_ok_iff'.1 e
        simp only at e
        have h1 : CacheOk m g (reloadLoad g c b rest load) :=
          reloadLoad_ok hm hc h (fun x hx => by subst hx; exact (reloadDecide_in hd).1)
        have h2 : CacheOk m g (reloadReorder (reloadLoad g c b rest load) act) :=
          ⟨by rw [reloadReorder_dev]; exact h1.dev, fun x hx => h1.bufs x ((reloadReorder_perm _ _).mem_iff.1 hx)⟩
        split at e
        · injection e with e; rw [← e]; exact h2
        · exact ih _ _ h2 e
      · cases e; exact h

theorem resetStatus_core (c : Cache) : c.resetStatus.bufs.map Buf.core = c.bufs.map Buf.core := by
  unfold Cache.resetStatus
  simp only [List.map_map]
  rfl

theorem CacheOk.triggerReload {m : List Nat} {g : Geo} {c c' : Cache} (hm : m.length < 4294967296) (h : CacheOk m g c) {fuel : Nat}
    {rate : ℚ} (e : c.triggerReload g fuel rate = .ok c') : CacheOk m g c' := by
  unfold Cache.triggerReload at e
  obtain ⟨c1, h1, e⟩ := bind_ok_iff'.1 e
  have h2 := reloadLoop_ok hm _ _ _ _ h h1
  have h3 : CacheOk m g c1.resetStatus := ⟨h2.dev, bufsOk_core h2.bufs (resetStatus_core c1)⟩
  injection e with e
  rw [← e]
  split
  · exact ⟨h3.dev, h3.bufs⟩
  · exact h3

/-! ## The buffers as objects -/

/-- The buffer objects, in the order of the vector. -/
def Cache.addrs (c : Cache) : List Nat := c.bufs.map Buf.addr

theorem addrs_of_core {bs bs' : List Buf} (h : bs'.map Buf.core = bs.map Buf.core) : bs'.map Buf.addr = bs.map Buf.addr := by
  have := congrArg (List.map Prod.fst) h
  rw [List.map_map, List.map_map] at this
  exact this

theorem Cache.get_addrs (g : Geo) (c : Cache) (i : Int) : (c.get g i).2.addrs = c.addrs := by
  rw [(c.get_eq g i).2]
  exact addrs_of_core (findWithIndex_core _ _)

theorem reloadLoad_addrs {g : Geo} {c : Cache} {b : Buf} {rest : List Buf} {i : Option Int} (hc : c.bufs = b :: rest) :
    (reloadLoad g c b rest i).addrs = c.addrs := by
  unfold reloadLoad Cache.addrs
  cases i with
  | none => rfl
  | some i => rw [hc]; rfl

theorem reloadLoop_addrs {g : Geo} (rate : ℚ) :
    ∀ (fuel : Nat) (c c' : Cache), reloadLoop g rate fuel c = .ok c' → c'.addrs.Perm c.addrs := by
  intro fuel
  induction fuel with
  | zero =>
    intro c c' e
    unfold reloadLoop at e
    split at e
    · cases e; exact List.Perm.refl _
    · split at e
      · cases e
      · cases e; exact List.Perm.refl _
  | succ fuel ih =>
    intro c c' e
    unfold reloadLoop at e
    split at e
    · cases e; exact List.Perm.refl _
    · rename_i b rest hc
      split at e
      · obtain ⟨⟨load, act⟩, hd, e⟩ := bind_ok_iff'.1 e
        simp only at e
        have h2 : (reloadReorder (reloadLoad g c b rest load) act).addrs.Perm c.addrs := by
          rw [← reloadLoad_addrs hc (i := load)]; exact (reloadReorder_perm _ _).map _
        split at e
        · injection e with e; rw [← e]; exact h2
        · exact (ih _ _ e).trans h2
      · cases e; exact List.Perm.refl _

theorem Cache.triggerReload_addrs {g : Geo} {c c' : Cache} {fuel : Nat} {rate : ℚ} (e : c.triggerReload g fuel rate = .ok c') :
    c'.addrs.Perm c.addrs := by
  unfold Cache.triggerReload at e
  obtain ⟨c1, h1, e⟩ := bind_ok_iff'.1 e
  have h2 := reloadLoop_addrs _ _ _ _ h1
  have h3 : c1.resetStatus.addrs = c1.addrs := addrs_of_core (resetStatus_core c1)
  injection e with e
  rw [← e]
  split <;> (unfold Cache.addrs at *; rw [h3]; exact h2)

theorem preLoadLoop_addrs (g : Geo) (nv : Nat) (fw : Bool) :
    ∀ (left bufn : Nat) (c : Cache) (i : Int), nv ≤ c.bufs.length → c.bufs.length = max nv bufn →
      ∃ t, (preLoadLoop g nv fw left bufn c i).addrs = c.addrs ++ t ∧ t = List.range' c.bufs.length t.length ∧
        c.bufs.length + t.length ≤ max c.bufs.length (bufn + left) := by
  intro left
  induction left with
  | zero => intro bufn c i _ _; exact ⟨[], by simp [preLoadLoop], rfl, by simp⟩
  | succ left ih =>
    intro bufn c i hnv hlen
    unfold preLoadLoop
    simp only
    split
    · exact ⟨[], by simp, rfl, by simp⟩
    · rename_i buf hb
      by_cases hge : bufn ≥ nv
      · simp only [hge, if_true] at hb ⊢
        have hl : c.bufs.length = bufn := by omega
        have hbuf : buf = { addr := bufn, index := 0, size := 0, status := .constructed, data := g.junk bufn } := by
          rw [List.getElem?_append_right (by omega), hl] at hb
          simpa using hb.symm
        have e1 : ((c.bufs ++ [({ addr := bufn, index := 0, size := 0, status := .constructed, data := g.junk bufn } : Buf)]).set bufn (loadBuffer g c.dev buf i).1) = c.bufs ++ [(loadBuffer g c.dev buf i).1] := by
          rw [List.set_append_right _ _ (by omega), hl]; simp
        rw [e1]
        have e2 : Cache.addrs { c with bufs := c.bufs ++ [(loadBuffer g c.dev buf i).1], dev := (loadBuffer g c.dev buf i).2.1 } = c.addrs ++ [bufn] := by
          unfold Cache.addrs
          simp only [List.map_append, List.map_cons, List.map_nil, loadBuffer_addr]
          rw [hbuf]
        split
        · refine ⟨[bufn], e2, ?_, ?_⟩
          · simp [hl]
          · simp; omega
        · obtain ⟨t, h1, h2, h3⟩ := ih (bufn + 1) { c with bufs := c.bufs ++ [(loadBuffer g c.dev buf i).1], dev := (loadBuffer g c.dev buf i).2.1 } (i32 (if fw then i + g.B else i - g.B)) (by simp; omega) (by simp; omega)
          refine ⟨bufn :: t, ?_, ?_, ?_⟩
          · rw [h1, e2]; simp
          · simp only [List.length_append, List.length_cons, List.length_nil] at h2 ⊢
            rw [hl] at h2 ⊢
            rw [List.range'_succ]
            exact congrArg _ h2
          · simp only [List.length_append, List.length_cons, List.length_nil] at h3 ⊢; omega
      · simp only [hge, if_false] at hb ⊢
        have hb' : bufn < c.bufs.length := by omega
        have e2 : Cache.addrs { c with bufs := c.bufs.set bufn (loadBuffer g c.dev buf i).1, dev := (loadBuffer g c.dev buf i).2.1 } = c.addrs := by
          unfold Cache.addrs
          simp only [List.map_set, loadBuffer_addr]
          rw [List.getElem?_eq_getElem hb'] at hb
          injection hb with hb
          rw [← hb]
          apply List.ext_getElem
          · simp
          · intro n h1 h2; simp only [List.getElem_set, List.getElem_map]; split
            · rename_i e; subst e; rfl
            · rfl
        split
        · exact ⟨[], by rw [e2]; simp, rfl, by simp⟩
        · obtain ⟨t, h1, h2, h3⟩ := ih (bufn + 1) { c with bufs := c.bufs.set bufn (loadBuffer g c.dev buf i).1, dev := (loadBuffer g c.dev buf i).2.1 } (i32 (if fw then i + g.B else i - g.B)) (by simp; omega) (by simp; omega)
          refine ⟨t, by rw [h1, e2], by simpa using h2, ?_⟩
          simp only [List.length_set] at h3; omega

theorem Cache.preLoad_addrs (g : Geo) (c : Cache) (i : Int) (fw : Bool) :
    ∃ t, (c.preLoad g i fw).addrs = c.addrs ++ t ∧ t = List.range' c.bufs.length t.length ∧ c.bufs.length + t.length ≤ max c.bufs.length g.N := by
  have := preLoadLoop_addrs g c.bufs.length fw g.N 0 c i (le_refl _) (by omega)
  rw [Nat.zero_add] at this
  exact this

/-! ## Recorded sizes -/

/-- A buffer whose block starts inside the file records the number of bytes available there (as an `int16_t`). -/
def SizeOk (m : List Nat) (g : Geo) (b : Buf) : Prop :=
  0 ≤ b.index ∧ (2 * (b.index * g.B) ≤ m.length → b.size = i16 (min (2 * g.B) (m.length - 2 * (b.index * g.B))))

/-- Every buffer of the cache records its size. -/
def SizesOk (m : List Nat) (g : Geo) (c : Cache) : Prop := ∀ b ∈ c.bufs, SizeOk m g b

theorem sizesOk_core {m : List Nat} {g : Geo} {bs bs' : List Buf} (h : ∀ b ∈ bs, SizeOk m g b) (hc : bs'.map Buf.core = bs.map Buf.core) :
    ∀ b ∈ bs', SizeOk m g b := by
  intro b hb
  have : b.core ∈ bs.map Buf.core := by rw [← hc]; exact List.mem_map_of_mem hb
  obtain ⟨b0, hb0, e⟩ := List.mem_map.1 this
  unfold Buf.core at e
  simp only [Prod.mk.injEq] at e
  have := h b0 hb0
  unfold SizeOk at *
  rw [← e.2.1, ← e.2.2.1]; exact this

theorem loadBuffer_size {m : List Nat} {g : Geo} {d : Dev} {b : Buf} {i : Int} (hd : d.bytes = m) (hm : m.length < 4294967296)
    (hi : InI32 i) : SizeOk m g (loadBuffer g d b i).1 := by
  have hB : (0 : Int) < g.B := by exact_mod_cast g.B_pos
  refine ⟨(u32_in _).1, ?_⟩
  intro hin
  rw [loadBuffer_index] at hin ⊢
  unfold InI32 at hi
  by_cases h0 : 0 ≤ i
  · have hq : 0 ≤ i / g.B := Int.ediv_nonneg h0 (le_of_lt hB)
    have hq2 : i / g.B ≤ i := Int.ediv_le_self _ h0
    have e4 : u32 (i / g.B) = i / g.B := u32_of_in ⟨by omega, by omega⟩
    rw [e4] at hin ⊢
    obtain ⟨got, hgot, e, _⟩ := loadBuffer_eq (b := b) h0 hi.2 (by rw [hd]; exact hin)
    rw [e, hgot, hd]
    have : 0 ≤ i / g.B * g.B := mul_nonneg hq (le_of_lt hB)
    simp only [List.length_take, List.length_drop]
    congr 1
    push_cast
    generalize i / (g.B : Int) * (g.B : Int) = x at *
    omega
  · exfalso
    have hq1 : i / g.B < 0 := Int.ediv_neg_of_neg_of_pos (by omega) hB
    have hq2 : i ≤ i / g.B := by
      rw [Int.le_ediv_iff_mul_le hB]
      nlinarith
    have e4 : u32 (i / g.B) = i / g.B + 4294967296 := by unfold u32; omega
    rw [e4] at hin
    have h4 : (i / g.B + 4294967296) ≤ (i / g.B + 4294967296) * g.B := le_mul_of_one_le_right (by omega) (by omega)
    omega

theorem preLoadLoop_size {m : List Nat} {g : Geo} (hm : m.length < 4294967296) (nv : Nat) (fw : Bool) :
    ∀ (left bufn : Nat) (c : Cache) (i : Int), c.dev.bytes = m → SizesOk m g c → InI32 i → c.bufs.length = max nv bufn →
      SizesOk m g (preLoadLoop g nv fw left bufn c i) := by
  intro left
  induction left with
  | zero => intro bufn c i _ h _ _; exact h
  | succ left ih =>
    intro bufn c i hd h hi hlen
    unfold preLoadLoop
    simp only
    split
    · exact h
    · rename_i buf hb
      by_cases hge : bufn ≥ nv
      · simp only [hge, if_true] at hb ⊢
        have hl : c.bufs.length = bufn := by omega
        have e1 : ((c.bufs ++ [({ addr := bufn, index := 0, size := 0, status := .constructed, data := g.junk bufn } : Buf)]).set bufn (loadBuffer g c.dev buf i).1) = c.bufs ++ [(loadBuffer g c.dev buf i).1] := by
          rw [List.set_append_right _ _ (by omega), hl]; simp
        rw [e1]
        have key : SizesOk m g { c with bufs := c.bufs ++ [(loadBuffer g c.dev buf i).1], dev := (loadBuffer g c.dev buf i).2.1 } := by
          intro b hb'
          rcases List.mem_append.1 hb' with h1 | h1
          · exact h b h1
          · rw [List.mem_singleton.1 h1]; exact loadBuffer_size hd hm hi
        split
        · exact key
        · exact ih _ _ _ (by rw [loadBuffer_bytes]; exact hd) key (i32_in _) (by simp; omega)
      · simp only [hge, if_false] at hb ⊢
        have key : SizesOk m g { c with bufs := c.bufs.set bufn (loadBuffer g c.dev buf i).1, dev := (loadBuffer g c.dev buf i).2.1 } := by
          intro b hb'
          rcases List.mem_or_eq_of_mem_set hb' with h1 | h1
          · exact h b h1
          · rw [h1]; exact loadBuffer_size hd hm hi
        split
        · exact key
        · exact ih _ _ _ (by rw [loadBuffer_bytes]; exact hd) key (i32_in _) (by simp; omega)

theorem reloadLoad_size {m : List Nat} {g : Geo} {c : Cache} {b : Buf} {rest : List Buf} {i : Option Int} (hm : m.length < 4294967296)
    (hc : c.bufs = b :: rest) (hd : c.dev.bytes = m) (h : SizesOk m g c) (hi : ∀ x, i = some x → InI32 x) :
    SizesOk m g (reloadLoad g c b rest i) := by
  unfold reloadLoad
  cases i with
  | none => exact h
  | some i =>
    intro x hx
    rcases List.mem_cons.1 hx with rfl | hx
    · exact loadBuffer_size hd hm (hi _ rfl)
    · exact h x (by rw [hc]; exact List.mem_cons_of_mem _ hx)

theorem reloadLoop_size {m : List Nat} {g : Geo} (hm : m.length < 4294967296) (rate : ℚ) :
    ∀ (fuel : Nat) (c c' : Cache), CacheOk m g c → SizesOk m g c → reloadLoop g rate fuel c = .ok c' → SizesOk m g c' := by
  intro fuel
  induction fuel with
  | zero =>
    intro c c' _ h e
    unfold reloadLoop at e
    split at e
    · cases e; exact h
    · split at e
      · cases e
      · cases e; exact h
  | succ fuel ih =>
    intro c c' hk h e
    unfold reloadLoop at e
    split at e
    · cases e; exact h
    · rename_i b rest hc
      split at e
      · obtain ⟨⟨load, act⟩, hd, e⟩ := bind_ok_iff'.1 e
        simp only at e
        have hin : ∀ x, load = some x → InI32 x := fun x hx => by subst hx; exact (reloadDecide_in hd).1
        have k1 : CacheOk m g (reloadLoad g c b rest load) := reloadLoad_ok hm hc hk hin
        have k2 : CacheOk m g (reloadReorder (reloadLoad g c b rest load) act) :=
          ⟨by rw [reloadReorder_dev]; exact k1.dev, fun x hx => k1.bufs x ((reloadReorder_perm _ _).mem_iff.1 hx)⟩
        have h1 := reloadLoad_size hm hc hk.dev h hin
        have h2 : SizesOk m g (reloadReorder (reloadLoad g c b rest load) act) :=
          fun x hx => h1 x ((reloadReorder_perm _ _).mem_iff.1 hx)
        split at e
        · injection e with e; rw [← e]; exact h2
        · exact ih _ _ k2 h2 e
      · cases e; exact h

theorem Cache.triggerReload_size {m : List Nat} {g : Geo} {c c' : Cache} (hm : m.length < 4294967296) (hk : CacheOk m g c)
    (h : SizesOk m g c) {fuel : Nat} {rate : ℚ} (e : c.triggerReload g fuel rate = .ok c') : SizesOk m g c' := by
  unfold Cache.triggerReload at e
  obtain ⟨c1, h1, e⟩ := bind_ok_iff'.1 e
  have h3 : SizesOk m g c1.resetStatus := sizesOk_core (reloadLoop_size hm _ _ _ _ hk h h1) (resetStatus_core c1)
  injection e with e
  rw [← e]
  split <;> exact h3

end TVP
