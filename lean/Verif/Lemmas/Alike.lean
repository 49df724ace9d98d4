import Mathlib.Data.List.Forall2
import Verif.Lemmas.Sim
import Verif.Lemmas.Safe
import Verif.Lemmas.Cache
import Verif.Lemmas.Play
import Verif.Model.Player

/-!
# Two files that differ only outside a set of samples

`W` tells which samples of the file matter.  Caches of two files that agree on these samples go through the same states,
apart from the bytes that do not matter.
-/

namespace TVP

variable {W : Int → Prop} {g : Geo}

/-- Both fail in the same way, or both succeed with related results. -/
def Both {α β : Type} (q : α → β → Prop) (x : M α) (y : M β) : Prop :=
  (∃ e, x = .error e ∧ y = .error e) ∨ ∃ a b, x = .ok a ∧ y = .ok b ∧ q a b

theorem Both.ok {α β : Type} {q : α → β → Prop} {a : α} {b : β} (h : q a b) : Both q (.ok a) (.ok b) := Or.inr ⟨a, b, rfl, rfl, h⟩

theorem Both.bind {α β γ δ : Type} {q : α → β → Prop} {q' : γ → δ → Prop} {x : M α} {y : M β} {k : α → M γ} {l : β → M δ}
    (h : Both q x y) (hk : ∀ a b, q a b → Both q' (k a) (l b)) : Both q' (x >>= k) (y >>= l) := by
  rcases h with ⟨e, rfl, rfl⟩ | ⟨a, b, rfl, rfl, h⟩
  · exact Or.inl ⟨e, rfl, rfl⟩
  · exact hk a b h

theorem Both.map_fst {α β γ : Type} {q : β → γ → Prop} {x : M (α × β)} {y : M (α × γ)} (h : Both (fun a b => a.1 = b.1 ∧ q a.2 b.2) x y) :
    y.map Prod.fst = x.map Prod.fst := by
  rcases h with ⟨e, rfl, rfl⟩ | ⟨a, b, rfl, rfl, h, _⟩
  · rfl
  · simp only [Except.map, h]

/-- The samples that matter have positions that fit 32 bits. -/
def Fits (W : Int → Prop) : Prop := ∀ i, W i → 0 ≤ i ∧ i ≤ 2147483647

/-- Open files of the same length, at the same place, agreeing on the samples that matter. -/
structure DevAlike (W : Int → Prop) (d d' : Dev) : Prop where
  len : d'.bytes.length = d.bytes.length
  cur : d'.cur = d.cur
  past : d'.past = d.past
  same : ∀ i : Nat, W i → 2 * i + 2 ≤ d.bytes.length ∧ d'.bytes.getD (2 * i) 0 = d.bytes.getD (2 * i) 0 ∧
    d'.bytes.getD (2 * i + 1) 0 = d.bytes.getD (2 * i + 1) 0

/-- Buffers holding the same block, agreeing on the samples that matter. -/
structure BufAlike (W : Int → Prop) (g : Geo) (b b' : Buf) : Prop where
  addr : b'.addr = b.addr
  index : b'.index = b.index
  size : b'.size = b.size
  status : b'.status = b.status
  same : ∀ k : Nat, k < g.B → W (b.index * g.B + k) → sampleAt b'.data k = sampleAt b.data k

/-- Caches that differ only in what does not matter. -/
structure Alike (W : Int → Prop) (g : Geo) (c c' : Cache) : Prop where
  bufs : List.Forall₂ (BufAlike W g) c.bufs c'.bufs
  dev : DevAlike W c.dev c'.dev
  fails : c'.fails = c.fails
  prevRate : c'.prevRate = c.prevRate
  loopType : c'.loopType = c.loopType
  loopStartBlk : c'.loopStartBlk = c.loopStartBlk
  loopFinishBlk : c'.loopFinishBlk = c.loopFinishBlk

theorem DevAlike.refl {d : Dev} (h : ∀ i : Nat, W i → 2 * i + 2 ≤ d.bytes.length) : DevAlike W d d :=
  ⟨rfl, rfl, rfl, fun i hi => ⟨h i hi, rfl, rfl⟩⟩

theorem DevAlike.seek {d d' : Dev} (h : DevAlike W d d') (p : Nat) : DevAlike W (d.seek p) (d'.seek p) := by
  unfold Dev.seek
  rw [h.len, h.past]
  split
  · exact ⟨h.len, rfl, rfl, h.same⟩
  · exact h

theorem DevAlike.read {d d' : Dev} (h : DevAlike W d d') (n : Nat) :
    (d'.read n).1.length = (d.read n).1.length ∧ DevAlike W (d.read n).2 (d'.read n).2 := by
  have e : (d'.read n).1.length = (d.read n).1.length := by
    unfold Dev.read; simp only [List.length_take, List.length_drop, h.len, h.cur]
  refine ⟨e, ?_⟩
  unfold Dev.read at e ⊢
  simp only at e ⊢
  exact ⟨h.len, by simp only [e]; rw [h.cur], h.past, h.same⟩

theorem getD_overlay_lt {got old : List Nat} {k : Nat} (h : k < got.length) : (overlay got old).getD k 0 = got.getD k 0 := by
  unfold overlay
  simp only [List.getD_eq_getElem?_getD, List.getElem?_append_left h]

theorem getD_read {d : Dev} {n k : Nat} (h : k < n) : (d.read n).1.getD k 0 = d.bytes.getD (d.cur + k) 0 := by
  unfold Dev.read
  simp only [List.getD_eq_getElem?_getD, List.getElem?_take, h, if_true, List.getElem?_drop]

/-- Loading the same block. -/
theorem loadBuffer_alike (hW : Fits W) {d d' : Dev} (hd : DevAlike W d d') {b b' : Buf} (hb : b'.addr = b.addr) {i : Int} (hi : InI32 i) :
    BufAlike W g (loadBuffer g d b i).1 (loadBuffer g d' b' i).1 ∧ DevAlike W (loadBuffer g d b i).2.1 (loadBuffer g d' b' i).2.1 ∧
      (loadBuffer g d' b' i).2.2 = (loadBuffer g d b i).2.2 := by
  have hs := hd.seek (u32 (2 * u32 (i - i % g.B))).toNat
  obtain ⟨e1, e2⟩ := hs.read (2 * g.B)
  unfold loadBuffer
  simp only
  refine ⟨⟨hb, rfl, by simp only [e1], rfl, ?_⟩, e2, e1⟩
  intro k hk hw
  simp only at hw ⊢
  obtain ⟨w0, w1⟩ := hW _ hw
  have hB : (0 : Int) < g.B := by exact_mod_cast g.B_pos
  have hdiv := Int.mul_ediv_add_emod i g.B
  have hm0 := Int.emod_nonneg i (ne_of_gt hB)
  have hm1 := Int.emod_lt_of_pos i hB
  obtain ⟨i0, i1⟩ := hi
  have hq : 0 ≤ i / (g.B : Int) := by
    by_contra hneg
    have h1 : i / (g.B : Int) ≤ -1 := by omega
    have h2 : -2147483648 ≤ i / (g.B : Int) := by
      have : (1 : Int) * (i / g.B) ≥ g.B * (i / g.B) := by
        have := mul_le_mul_of_nonpos_right (show (1 : Int) ≤ g.B by omega) (show i / (g.B : Int) ≤ 0 by omega)
        linarith
      by_contra hlt
      have h3 : i / (g.B : Int) ≤ -2147483649 := by omega
      have h4 : (g.B : Int) * (i / g.B) ≤ g.B * (-2147483649) := mul_le_mul_of_nonneg_left h3 (le_of_lt hB)
      have h5 : (g.B : Int) * (-2147483649) + g.B ≤ -2147483648 := by
        have : (g.B : Int) * (-2147483648) ≤ 1 * (-2147483648) := mul_le_mul_of_nonpos_right (show (1 : Int) ≤ g.B by omega) (by norm_num)
        linarith
      omega
    have h6 : u32 (i / (g.B : Int)) = i / g.B + 4294967296 := by unfold u32; omega
    rw [h6] at w1
    have h7 : (1 : Int) * (i / (g.B : Int) + 4294967296) ≤ (i / g.B + 4294967296) * g.B := by
      rw [mul_comm]
      exact mul_le_mul_of_nonneg_left (show (1 : Int) ≤ g.B by omega) (by omega)
    omega
  have hle : (g.B : Int) * (i / g.B) ≤ i := by omega
  have hle' : i / (g.B : Int) ≤ 2147483647 := by
    have : (1 : Int) * (i / g.B) ≤ g.B * (i / g.B) := mul_le_mul_of_nonneg_right (by omega) hq
    omega
  have hu : u32 (i / (g.B : Int)) = i / g.B := by unfold u32; omega
  rw [hu, mul_comm] at hw
  have hsm : 0 ≤ i - i % (g.B : Int) ∧ i - i % (g.B : Int) ≤ 2147483647 := by
    constructor
    · have := mul_nonneg (le_of_lt hB) hq; omega
    · omega
  have hpos : (u32 (2 * u32 (i - i % g.B))).toNat = 2 * (i - i % g.B).toNat := by
    generalize i - i % (g.B : Int) = z at hsm
    unfold u32; omega
  obtain ⟨n, hn⟩ : ∃ n : Nat, (g.B : Int) * (i / g.B) = n := ⟨_, (Int.toNat_of_nonneg (mul_nonneg (le_of_lt hB) hq)).symm⟩
  have hstart : (i - i % (g.B : Int)).toNat = n := by omega
  rw [hn, ← Nat.cast_add] at hw
  obtain ⟨f1, f2, f3⟩ := hd.same _ hw
  rw [hpos, hstart]
  have hcur : (d.seek (2 * n)).cur = 2 * n := by unfold Dev.seek; rw [if_pos (Or.inl (by omega))]
  have hcur' : (d'.seek (2 * n)).cur = 2 * n := by unfold Dev.seek; rw [if_pos (Or.inl (by rw [hd.len]; omega))]
  have hby : (d.seek (2 * n)).bytes = d.bytes := by unfold Dev.seek; split <;> rfl
  have hby' : (d'.seek (2 * n)).bytes = d'.bytes := by unfold Dev.seek; split <;> rfl
  have hl : ∀ j, j < 2 → 2 * k + j < ((d.seek (2 * n)).read (2 * g.B)).1.length := by
    intro j hj
    unfold Dev.read
    simp only [List.length_take, List.length_drop, hcur, hby]
    omega
  have hl' : ∀ j, j < 2 → 2 * k + j < ((d'.seek (2 * n)).read (2 * g.B)).1.length := by
    intro j hj
    rw [((hd.seek (2 * n)).read (2 * g.B)).1]; exact hl j hj
  unfold sampleAt
  rw [getD_overlay_lt (hl' 1 (by omega)), getD_overlay_lt (hl 1 (by omega))]
  have h0 := hl 0 (by omega)
  have h0' := hl' 0 (by omega)
  rw [Nat.add_zero] at h0 h0'
  rw [getD_overlay_lt h0', getD_overlay_lt h0, getD_read (by omega), getD_read (by omega), getD_read (by omega), getD_read (by omega),
    hcur, hcur', hby, hby', show 2 * n + 2 * k = 2 * (n + k) by ring, show 2 * n + (2 * k + 1) = 2 * (n + k) + 1 by ring, f2, f3]

/-- Looking up a block. -/
theorem findWithIndex_alike (k : Int) : ∀ {bs bs' : List Buf}, List.Forall₂ (BufAlike W g) bs bs' →
    List.Forall₂ (BufAlike W g) (findWithIndex k bs).1 (findWithIndex k bs').1 ∧
      (((findWithIndex k bs).2 = none ∧ (findWithIndex k bs').2 = none) ∨
        ∃ b b', (findWithIndex k bs).2 = some b ∧ (findWithIndex k bs').2 = some b' ∧ BufAlike W g b b' ∧ b.index = k)
  | [], _, .nil => ⟨.nil, Or.inl ⟨rfl, rfl⟩⟩
  | x :: xs, x' :: xs', .cons hx hxs => by
    obtain ⟨r1, r2⟩ := findWithIndex_alike k hxs
    unfold findWithIndex
    rw [hx.index, hx.size, hx.status]
    by_cases h : x.index = k ∧ x.size > 0
    · simp only [h, and_self, if_true]
      refine ⟨.cons ⟨hx.addr, rfl, rfl, rfl, fun j hj hw => hx.same j hj (by rw [h.1]; exact hw)⟩ hxs, Or.inr ⟨x, x', rfl, rfl, hx, h.1⟩⟩
    · simp only [h, if_false]
      refine ⟨.cons ?_ r1, r2⟩
      split
      · exact hx
      · exact ⟨hx.addr, rfl, rfl, rfl, hx.same⟩

/-- Reading any sample keeps the caches alike; a sample that matters has the same value. -/
theorem Alike.get {c c' : Cache} (h : Alike W g c c') (i : Int) :
    Alike W g (c.get g i).2 (c'.get g i).2 ∧ (Fits W → W i → (c'.get g i).1 = (c.get g i).1) := by
  obtain ⟨r1, r2⟩ := findWithIndex_alike (u32 (i / g.B)) h.bufs
  unfold Cache.get
  rcases hf : findWithIndex (u32 (i / g.B)) c.bufs with ⟨bs, o⟩
  rcases hf' : findWithIndex (u32 (i / g.B)) c'.bufs with ⟨bs', o'⟩
  rw [hf, hf'] at r1 r2
  simp only at r1 r2
  rcases r2 with ⟨rfl, rfl⟩ | ⟨b, b', rfl, rfl, hb, hk⟩
  · exact ⟨⟨r1, h.dev, by simp only [h.fails], h.prevRate, h.loopType, h.loopStartBlk, h.loopFinishBlk⟩, fun _ _ => rfl⟩
  · refine ⟨⟨r1, h.dev, h.fails, h.prevRate, h.loopType, h.loopStartBlk, h.loopFinishBlk⟩, fun hW hw => ?_⟩
    obtain ⟨w0, w1⟩ := hW i hw
    have hB : (0 : Int) < g.B := by exact_mod_cast g.B_pos
    have hm0 := Int.emod_nonneg i (ne_of_gt hB)
    have hm1 := Int.emod_lt_of_pos i hB
    have hdiv := Int.mul_ediv_add_emod i g.B
    have hq : 0 ≤ i / (g.B : Int) := Int.ediv_nonneg w0 (le_of_lt hB)
    have hle' : i / (g.B : Int) ≤ 2147483647 := by
      have : (1 : Int) * (i / g.B) ≤ g.B * (i / g.B) := mul_le_mul_of_nonneg_right (by omega) hq
      omega
    have hu : u32 (i / (g.B : Int)) = i / g.B := by unfold u32; omega
    refine hb.same _ (by omega) ?_
    rw [hk, hu, mul_comm, show ((i % (g.B : Int)).toNat : Int) = i % g.B by omega, hdiv]
    exact hw

theorem Alike.preLoadLoop (hW : Fits W) (n : Nat) (fw : Bool) : ∀ (left bufn : Nat) {c c' : Cache} (i : Int), InI32 i → Alike W g c c' →
    Alike W g (preLoadLoop g n fw left bufn c i) (preLoadLoop g n fw left bufn c' i)
  | 0, _, _, _, _, _, h => h
  | left + 1, bufn, c, c', i, hi, h => by
    unfold TVP.preLoadLoop
    simp only
    have hbs : List.Forall₂ (BufAlike W g)
        (if bufn ≥ n then c.bufs ++ [{ addr := bufn, index := 0, size := 0, status := .constructed, data := g.junk bufn }] else c.bufs)
        (if bufn ≥ n then c'.bufs ++ [{ addr := bufn, index := 0, size := 0, status := .constructed, data := g.junk bufn }] else c'.bufs) := by
      split
      · exact List.rel_append h.bufs (.cons ⟨rfl, rfl, rfl, rfl, fun _ _ _ => rfl⟩ .nil)
      · exact h.bufs
    generalize (if bufn ≥ n then c.bufs ++ [{ addr := bufn, index := 0, size := 0, status := .constructed, data := g.junk bufn }] else c.bufs) = bs at *
    generalize (if bufn ≥ n then c'.bufs ++ [{ addr := bufn, index := 0, size := 0, status := .constructed, data := g.junk bufn }] else c'.bufs) = bs' at *
    have hlen := hbs.length_eq
    by_cases hlt : bufn < bs.length
    · have hb := (List.forall₂_iff_get.1 hbs).2 bufn hlt (by omega)
      simp only [List.get_eq_getElem] at hb
      rw [List.getElem?_eq_getElem hlt, List.getElem?_eq_getElem (show bufn < bs'.length by omega)]
      simp only
      obtain ⟨e1, e2, e3⟩ := loadBuffer_alike (g := g) hW h.dev hb.addr hi
      rcases hl : loadBuffer g c.dev bs[bufn] i with ⟨b1, d1, l1⟩
      rcases hl' : loadBuffer g c'.dev bs'[bufn] i with ⟨b2, d2, l2⟩
      rw [hl, hl'] at e1 e2 e3
      simp only at e1 e2 e3
      subst e3
      have hnew : Alike W g { c with bufs := bs.set bufn b1, dev := d1 } { c' with bufs := bs'.set bufn b2, dev := d2 } := by
        refine ⟨?_, e2, h.fails, h.prevRate, h.loopType, h.loopStartBlk, h.loopFinishBlk⟩
        refine List.forall₂_iff_get.2 ⟨by simp [hlen], fun j h1 h2 => ?_⟩
        simp only [List.get_eq_getElem, List.getElem_set]
        split
        · exact e1
        · simp only [List.length_set] at h1 h2
          exact (List.forall₂_iff_get.1 hbs).2 j h1 h2
      simp only
      split
      · exact hnew
      · exact Alike.preLoadLoop hW n fw left (bufn + 1) _ (by unfold InI32 i32; omega) hnew
    · rw [List.getElem?_eq_none (by omega), List.getElem?_eq_none (by omega)]
      exact h

theorem Alike.preLoad (hW : Fits W) {c c' : Cache} (h : Alike W g c c') {i : Int} (hi : InI32 i) (fw : Bool) :
    Alike W g (c.preLoad g i fw) (c'.preLoad g i fw) := by
  unfold Cache.preLoad
  rw [h.bufs.length_eq]
  exact Alike.preLoadLoop hW _ _ _ _ _ hi h

theorem maxIndex_alike {b b' : Buf} (hb : b'.index = b.index) : ∀ {bs bs' : List Buf}, List.Forall₂ (BufAlike W g) bs bs' →
    maxIndex b' bs' = maxIndex b bs := by
  unfold maxIndex
  rw [hb]
  generalize b.index = z
  intro bs bs' h
  induction h generalizing z with
  | nil => rfl
  | cons hx _ ih => simp only [List.foldl_cons, hx.index, ih]

theorem minIndex_alike {b b' : Buf} (hb : b'.index = b.index) : ∀ {bs bs' : List Buf}, List.Forall₂ (BufAlike W g) bs bs' →
    minIndex b' bs' = minIndex b bs := by
  unfold minIndex
  rw [hb]
  generalize b.index = z
  intro bs bs' h
  induction h generalizing z with
  | nil => rfl
  | cons hx _ ih => simp only [List.foldl_cons, hx.index, ih]

theorem lastSlot_alike {bs bs' : List Buf} (h : List.Forall₂ (BufAlike W g) bs bs') : Both (BufAlike W g) (lastSlot g bs) (lastSlot g bs') := by
  have hlen := h.length_eq
  unfold lastSlot
  by_cases hlt : g.N - 1 < bs.length
  · rw [List.getElem?_eq_getElem hlt, List.getElem?_eq_getElem (show g.N - 1 < bs'.length by omega)]
    exact Both.ok ((List.forall₂_iff_get.1 h).2 _ hlt (by omega))
  · rw [List.getElem?_eq_none (by omega), List.getElem?_eq_none (by omega)]
    exact Or.inl ⟨_, rfl, rfl⟩

theorem reloadDecide_alike {c c' : Cache} (h : Alike W g c c') (rate : ℚ) {b b' : Buf} (hb : b'.index = b.index) :
    reloadDecide g c' rate b' = reloadDecide g c rate b := by
  unfold reloadDecide
  rw [maxIndex_alike hb h.bufs, minIndex_alike hb h.bufs, h.loopType, h.loopStartBlk, h.loopFinishBlk]
  rcases lastSlot_alike h.bufs with ⟨e, h1, h2⟩ | ⟨x, y, h1, h2, h3⟩
  · rw [h1, h2]
  · rw [h1, h2]
    simp only [ok_bind, h3.index, h3.status]

theorem reloadDecide_inI32 {c : Cache} {rate : ℚ} {b : Buf} {i : Int} {a : BufAction} (h : reloadDecide g c rate b = .ok (some i, a)) : InI32 i := by
  have key : ∀ x : Int, InI32 (i32 x) := fun x => by unfold InI32 i32; omega
  unfold reloadDecide at h
  cases hl : lastSlot g c.bufs with
  | error e =>
    rw [hl] at h
    cases ht : c.loopType <;> rw [ht] at h <;> simp only [error_bind, pure_eq_ok] at h <;> split at h <;> try split at h
    all_goals first
      | (simp only [Except.ok.injEq, Prod.mk.injEq, Option.some.injEq] at h; obtain ⟨rfl, _⟩ := h; exact key _)
      | (cases h)
  | ok y =>
    rw [hl] at h
    cases ht : c.loopType <;> rw [ht] at h <;> simp only [ok_bind, pure_eq_ok] at h <;> split at h <;> try split at h
    all_goals first
      | (simp only [Except.ok.injEq, Prod.mk.injEq, Option.some.injEq] at h; obtain ⟨rfl, _⟩ := h; exact key _)
      | (simp only [Except.ok.injEq, Prod.mk.injEq] at h; obtain ⟨h, _⟩ := h; cases h)
      | (split at h <;> simp only [Except.ok.injEq, Prod.mk.injEq, Option.some.injEq, reduceCtorEq, false_and] at h <;> first
          | (exact h.elim)
          | (obtain ⟨rfl, _⟩ := h; exact key _))

theorem reloadLoop_alike (hW : Fits W) (rate : ℚ) : ∀ (fuel : Nat) {c c' : Cache}, Alike W g c c' →
    Both (Alike W g) (reloadLoop g rate fuel c) (reloadLoop g rate fuel c')
  | 0, c, c', h => by
    have hb := h.bufs
    unfold reloadLoop
    rcases hc : c.bufs with _ | ⟨b, rest⟩ <;> rcases hc' : c'.bufs with _ | ⟨b', rest'⟩ <;> rw [hc, hc'] at hb
    · exact Both.ok h
    · cases hb
    · cases hb
    · cases hb with
      | cons h1 h2 =>
        simp only [h1.status]
        split
        · exact Or.inl ⟨_, rfl, rfl⟩
        · exact Both.ok h
  | fuel + 1, c, c', h => by
    have hb := h.bufs
    unfold reloadLoop
    rcases hc : c.bufs with _ | ⟨b, rest⟩ <;> rcases hc' : c'.bufs with _ | ⟨b', rest'⟩ <;> rw [hc, hc'] at hb
    · exact Both.ok h
    · cases hb
    · cases hb
    · cases hb with
      | cons h1 h2 =>
        simp only [h1.status]
        split
        swap
        · exact Both.ok h
        rw [reloadDecide_alike h rate h1.index]
        cases hd : reloadDecide g c rate b with
        | error e => exact Or.inl ⟨e, rfl, rfl⟩
        | ok x =>
          obtain ⟨load, act⟩ := x
          simp only [ok_bind]
          have hl : Alike W g (reloadLoad g c b rest load) (reloadLoad g c' b' rest' load) := by
            cases load with
            | none => exact h
            | some i =>
              obtain ⟨e1, e2, e3⟩ := loadBuffer_alike (g := g) hW h.dev h1.addr (reloadDecide_inI32 hd)
              unfold reloadLoad
              exact ⟨.cons e1 h2, e2, h.fails, h.prevRate, h.loopType, h.loopStartBlk, h.loopFinishBlk⟩
          have hr : Alike W g (reloadReorder (reloadLoad g c b rest load) act) (reloadReorder (reloadLoad g c' b' rest' load) act) := by
            generalize reloadLoad g c b rest load = k at *
            generalize reloadLoad g c' b' rest' load = k' at *
            cases act with
            | nop => exact hl
            | reverse =>
              exact ⟨List.rel_reverse hl.bufs, hl.dev, hl.fails, by simp only [reloadReorder, hl.prevRate], hl.loopType, hl.loopStartBlk,
                hl.loopFinishBlk⟩
            | move =>
              refine ⟨?_, hl.dev, hl.fails, hl.prevRate, hl.loopType, hl.loopStartBlk, hl.loopFinishBlk⟩
              have := hl.bufs
              unfold reloadReorder
              simp only
              generalize k.bufs = l at *
              generalize k'.bufs = l' at *
              cases this with
              | nil => exact .nil
              | cons z1 z2 => exact List.rel_append z2 (.cons z1 .nil)
          split
          · exact Both.ok hr
          · exact reloadLoop_alike hW rate fuel hr

theorem Alike.triggerReload (hW : Fits W) {c c' : Cache} (h : Alike W g c c') (fuel : Nat) (rate : ℚ) :
    Both (Alike W g) (c.triggerReload g fuel rate) (c'.triggerReload g fuel rate) := by
  unfold Cache.triggerReload
  have e : reloadRate c' rate = reloadRate c rate := by unfold reloadRate; rw [h.loopType, h.prevRate]
  rw [e]
  refine Both.bind (reloadLoop_alike hW _ fuel h) fun k k' hk => ?_
  have hr : Alike W g k.resetStatus k'.resetStatus := by
    refine ⟨?_, hk.dev, hk.fails, hk.prevRate, hk.loopType, hk.loopStartBlk, hk.loopFinishBlk⟩
    unfold Cache.resetStatus
    rw [List.forall₂_map_left_iff, List.forall₂_map_right_iff]
    exact hk.bufs.imp fun _ _ q => ⟨q.addr, q.index, q.size, rfl, q.same⟩
  simp only [hr.prevRate]
  refine Both.ok ?_
  split
  · exact ⟨hr.bufs, hr.dev, hr.fails, rfl, hr.loopType, hr.loopStartBlk, hr.loopFinishBlk⟩
  · exact hr

/-! ### Reading from both -/

/-- Reading from two caches at once, but only samples that matter. -/
noncomputable def pairSrc (W : Int → Prop) (g : Geo) : Src (Cache × Cache) where
  get p i := open Classical in
    if W i then .ok ((p.1.get g i).1, ((p.1.get g i).2, (p.2.get g i).2)) else .error .outOfBounds

theorem pairSrc_ok : SrcOk (pairSrc W g) (fun p => Alike W g p.1 p.2) W := by
  intro p i hp hi
  refine ⟨(p.1.get g i).1, ((p.1.get g i).2, (p.2.get g i).2), by unfold pairSrc; simp only [if_pos hi], (hp.get i).1, ?_⟩
  unfold Cache.get
  split
  · unfold sampleAt i16 InI16; simp only; omega
  · unfold InI16; simp only; omega

theorem pairSrc_left (nullOk : Bool) : SrcSim (pairSrc W g) (fileSrc g nullOk) (fun p s => s = some p.1 ∧ Alike W g p.1 p.2) := by
  rintro p s i v p' ⟨rfl, h⟩ e
  unfold pairSrc at e
  simp only at e
  split at e
  · simp only [Except.ok.injEq, Prod.mk.injEq] at e
    obtain ⟨rfl, rfl⟩ := e
    exact ⟨some (p.1.get g i).2, rfl, rfl, (h.get i).1⟩
  · cases e

theorem pairSrc_right (hW : Fits W) (nullOk : Bool) : SrcSim (pairSrc W g) (fileSrc g nullOk) (fun p s => s = some p.2 ∧ Alike W g p.1 p.2) := by
  rintro p s i v p' ⟨rfl, h⟩ e
  unfold pairSrc at e
  simp only at e
  split at e
  · rename_i hi
    simp only [Except.ok.injEq, Prod.mk.injEq] at e
    obtain ⟨rfl, rfl⟩ := e
    refine ⟨some (p.2.get g i).2, ?_, rfl, (h.get i).1⟩
    unfold fileSrc
    simp only [(h.get i).2 hW hi]
  · cases e

/-! ### Readers -/

/-- Readers in the same state on files that are alike. -/
structure Twin (W : Int → Prop) (g : Geo) (a b : FileReader) : Prop where
  rd : b.rd = a.rd
  src : (a.src = none ∧ b.src = none) ∨ ∃ c c', a.src = some c ∧ b.src = some c' ∧ Alike W g c c'

/-- Two readers reading inside what matters deliver the same. -/
theorem Twin.read {fp : Fp} (hfp : Representable fp) (hW : Fits W) (nullOk : Bool) (fuel n : Nat) {a b : FileReader} (h : Twin W g a b) {R T : Int}
    (hg : a.src.isSome = true → Going false a.rd R T ∧ ∀ i, a.rd.header ≤ i → i < a.rd.header + T * a.rd.nch → W i) (hpl : a.rd.playing = true) :
    Both (fun x y => x.1 = y.1 ∧ Twin W g x.2 y.2 ∧ x.2.src.isSome = a.src.isSome ∧
      (a.src.isSome = true → Going false x.2.rd R T ∧ x.2.rd.header = a.rd.header ∧ x.2.rd.nch = a.rd.nch))
      (a.read fp g nullOk (fuel + 2) n) (b.read fp g nullOk (fuel + 2) n) := by
  obtain ⟨ra, sa⟩ := a
  obtain ⟨rb, sb⟩ := b
  obtain ⟨h1, h2⟩ := h
  simp only at h1 h2 hg hpl
  subst h1
  rcases h2 with ⟨rfl, rfl⟩ | ⟨c, c', rfl, rfl, hal⟩
  · have hnone : ∀ x, FileReader.read fp g nullOk (fuel + 2) ⟨rb, none⟩ n = .ok x → x.2.src = none := by
      intro x hx
      unfold FileReader.read at hx
      obtain ⟨o, ho, hx⟩ := bind_ok_iff.1 hx
      cases hx
      have hS : SrcSim (fileSrc g nullOk) (fileSrc g nullOk) (fun s t => s = none ∧ t = none) := by
        rintro s t i v s' ⟨rfl, rfl⟩ e
        unfold fileSrc at e ⊢
        cases nullOk
        · cases e
        · cases e; exact ⟨none, rfl, rfl, rfl⟩
      obtain ⟨o', _, e⟩ := read_ssim hS (fp := fp) (fuel := fuel + 2) (n := n) (r := rb) (s := none) (t := none) ⟨rfl, rfl⟩ _ ho
      exact e.2.2.2.1
    cases hr : FileReader.read fp g nullOk (fuel + 2) ⟨rb, none⟩ n with
    | error e => exact Or.inl ⟨e, rfl, rfl⟩
    | ok x =>
      have := hnone x hr
      exact Or.inr ⟨x, x, rfl, rfl, rfl, ⟨rfl, Or.inl ⟨this, this⟩⟩, by rw [this], fun h => by cases h⟩
  · obtain ⟨hgo, hin⟩ := hg rfl
    obtain ⟨o, k1, k2, k3, k4, k5, k6, k7, k8⟩ := hgo.read fp hfp pairSrc_ok fuel n hpl (s := (c, c')) hal (by
      intro i i0 i1
      simp only [margin, Bool.false_eq_true, if_false, zero_mul, add_zero, sub_zero] at i0 i1
      exact hin i i0 i1)
    obtain ⟨o1, p1, p2, p3, p4, p5, _⟩ := read_ssim (pairSrc_left nullOk) ⟨rfl, hal⟩ _ k1
    obtain ⟨o2, q1, q2, q3, q4, q5, _⟩ := read_ssim (pairSrc_right hW nullOk) ⟨rfl, hal⟩ _ k1
    refine Or.inr ⟨(o1.frames, ⟨o1.r, o1.s⟩), (o2.frames, ⟨o2.r, o2.s⟩), ?_, ?_, ?_, ⟨?_, ?_⟩, ?_, ?_⟩
    · unfold FileReader.read; simp only [p1, ok_bind]; rfl
    · unfold FileReader.read; simp only [q1, ok_bind]; rfl
    · rw [← p2, ← q2]
    · simp only; rw [← p4, ← q4]
    · exact Or.inr ⟨o.s.1, o.s.2, p5, q5, k7⟩
    · simp only [p5, Option.isSome_some]
    · intro _
      simp only
      rw [← p4]
      exact ⟨k6, k8.header, k8.nch⟩

theorem Twin.triggerReload (hW : Fits W) (fp : Fp) (fuel : Nat) {a b : FileReader} (h : Twin W g a b) :
    Both (fun x y => Twin W g x y ∧ x.rd = a.rd ∧ x.src.isSome = a.src.isSome) (a.triggerReload fp g fuel) (b.triggerReload fp g fuel) := by
  obtain ⟨ra, sa⟩ := a
  obtain ⟨rb, sb⟩ := b
  obtain ⟨h1, h2⟩ := h
  simp only at h1 h2
  subst h1
  unfold FileReader.triggerReload
  rcases h2 with ⟨rfl, rfl⟩ | ⟨c, c', rfl, rfl, hal⟩
  · exact Both.ok ⟨⟨rfl, Or.inl ⟨rfl, rfl⟩⟩, rfl, rfl⟩
  · simp only
    refine Both.bind (hal.triggerReload hW fuel (fp.f.rnd rb.rate)) fun k k' hk => ?_
    exact Both.ok ⟨⟨rfl, Or.inr ⟨k, k', rfl, rfl, hk⟩⟩, rfl, rfl⟩

/-- Starting playback from alike files. -/
theorem playFinish_twin (hW : Fits W) (r : Rd) {f f' : Dev} (hf : DevAlike W f f') :
    Both (fun x y => x.1 = y.1 ∧ Twin W g x.2 y.2) (playFinish g r f) (playFinish g r f') := by
  have hp : ∀ q : Rd, InI32 q.reset.pos1 := by
    intro q
    have e : ∀ x, InI32 (i32 x) := fun x => by unfold InI32 i32; omega
    unfold Rd.reset Rd.posOf
    simp only
    split <;> split <;> exact e _
  unfold playFinish
  split
  · exact Both.ok ⟨rfl, rfl, Or.inl ⟨rfl, rfl⟩⟩
  split
  · exact Or.inl ⟨_, rfl, rfl⟩
  · refine Both.ok ⟨rfl, rfl, Or.inr ⟨_, _, rfl, rfl, ?_⟩⟩
    refine Alike.preLoad hW ?_ (hp _) _
    exact ⟨.nil, hf, rfl, rfl, rfl, rfl, rfl⟩

/-- Where playback starts inside the material. -/
def StartsInside (r : Rd) (F : Int) : Prop :=
  match r.playStart with
  | .arbitrary => 0 ≤ r.playbackStart ∧ r.playbackStart < F
  | .sample => 0 ≤ r.rate ∨ (r.fileSize.tdiv 2 = r.header + F * r.nch ∧ 0 < F)
  | .loop => 0 ≤ r.rate ∨ (if r.loopType = .none then r.nch ≤ F else r.nch ≤ r.loopFinish)

/-- Starting playback leaves the reader inside the material. -/
theorem playFinish_going {r : Rd} {f : Dev} {R F : Int} (hroom : u32 (r.header * 2) < u32 r.fileSize) (hF : r.fileSamples.tdiv r.nch = F) (hF0 : 0 ≤ F)
    (hdual : r.dual = false) (hn : 0 < r.nch) (hR : |r.rate| ≤ R) (hR30 : R ≤ 2 ^ 30) (hH : 0 ≤ r.header) (hi : InterpOk r)
    (hfit : r.header + r.nch * (F + R + 5) ≤ 2147483647) (hflt : IsFloat 53 (-1074) r.rem) (hfrac : |r.rem| < 1) (hpts : PtsOk r)
    (hl : r.loopType ≠ .none → 0 ≤ r.loopStart ∧ r.loopStart < r.loopFinish ∧ r.loopFinish ≤ F ∧
      ((r.loopType = .repeat ∧ 0 ≤ r.rate) ∨ r.loopStart ≤ r.loopFinish - r.nch)) (hst : StartsInside r F) :
    ∃ a, playFinish g r f = .ok (true, a) ∧ Going false a.rd R F ∧ a.rd.playing = true ∧ a.src.isSome = true ∧ a.rd.header = r.header ∧
      a.rd.nch = r.nch := by
  obtain ⟨c, hc⟩ := playFinish_ok (g := g) (f := f) hroom (by omega)
  refine ⟨_, hc, ?_, rfl, rfl, rfl, rfl⟩
  have hR0 : 0 ≤ R := by
    have : (0 : ℚ) ≤ R := le_trans (abs_nonneg _) hR
    exact_mod_cast this
  have hb : (1 : Int) * (F + R + 5) ≤ r.nch * (F + R + 5) := mul_le_mul_of_nonneg_right (by omega) (by omega)
  have hls : (if r.loopType = .none then 0 else i32 r.loopStart) = if r.loopType = .none then 0 else r.loopStart := by
    split
    · rfl
    · rename_i h; have := hl h; unfold i32; omega
  have hlf : (if r.loopType = .none then i32 (r.fileSamples.tdiv r.nch) else i32 r.loopFinish) = if r.loopType = .none then F else r.loopFinish := by
    split
    · rw [hF]; unfold i32; omega
    · rename_i h; have := hl h; unfold i32; omega
  rw [hls, hlf, hF]
  clear hc
  obtain ⟨A, hA⟩ : ∃ A, A = if r.loopType = .none then 0 else r.loopStart := ⟨_, rfl⟩
  obtain ⟨E, hE⟩ : ∃ E, E = if r.loopType = .none then F else r.loopFinish := ⟨_, rfl⟩
  rw [← hA, ← hE]
  have hA0 : 0 ≤ A ∧ A ≤ F := by
    rw [hA]; split
    · exact ⟨le_refl _, hF0⟩
    · rename_i h; have := hl h; omega
  have hE0 : 0 ≤ E ∧ E ≤ F := by
    rw [hE]; split
    · exact ⟨hF0, le_refl _⟩
    · rename_i h; have := hl h; omega
  have hAE : r.loopType ≠ .none → A < E ∧ ((r.loopType = .repeat ∧ 0 ≤ r.rate) ∨ A ≤ E - r.nch) := by
    intro h
    rw [hA, hE, if_neg h, if_neg h]
    exact ⟨(hl h).2.1, (hl h).2.2.2⟩
  generalize hrd : ({ Rd.reset { r with fileSamples := F, loopStart := A, loopFinish := E } with playing := true } : Rd) = b
  have e1 : b.dual = r.dual := by rw [← hrd]; rfl
  have e2 : b.nch = r.nch := by rw [← hrd]; rfl
  have e3 : b.rate = r.rate := by rw [← hrd]; rfl
  have e4 : b.header = r.header := by rw [← hrd]; rfl
  have e5 : b.interp = r.interp := by rw [← hrd]; rfl
  have e6 : b.loopType = r.loopType := by rw [← hrd]; rfl
  have e7 : b.rem = r.rem := by rw [← hrd]; rfl
  have e8 : b.fileSamples = F := by rw [← hrd]; rfl
  have e9 : b.loopStart = A := by rw [← hrd]; rfl
  have e10 : b.loopFinish = E := by rw [← hrd]; rfl
  have e11 : b.cfOn = false := by rw [← hrd]; rfl
  have e12 : b.crossfade = 0 := by rw [← hrd]; rfl
  have e13 : PtsOk b := by
    intro c
    have : b.pts c = if c < 8 then { r.pts c with n := 0 } else r.pts c := by rw [← hrd]; rfl
    rw [this]
    split <;> exact hpts c
  have hpo : ∀ x, 0 ≤ x → x ≤ F → ({ r with fileSamples := F, loopStart := A, loopFinish := E } : Rd).posOf x = r.header + x * r.nch := by
    intro x x0 x1
    have f := frame_fits hH (le_of_lt hn) x0 (show x ≤ F + R + 5 by omega) hfit
    exact posOf_eq (r := { r with fileSamples := F, loopStart := A, loopFinish := E }) ⟨by simp only; omega, f.2⟩
  have hz : Setup false b R F := by
    refine ⟨by rw [e1, hdual], by rw [e2]; exact hn, by rw [e3]; exact hR, hR30, by rw [e4]; exact hH, ?_, by rw [e4, e2]; exact hfit,
      by rw [e8]; exact hF0, by rw [e8], by rw [e9]; exact hA0.1, by rw [e9]; exact hA0.2, by rw [e10]; exact hE0.1, by rw [e10]; exact hE0.2, ?_⟩
    · simp only [Reaches, Bool.false_eq_true, if_false]
      unfold InterpOk at hi ⊢
      rw [e5, e2, e3, e6, e7]; exact hi
    · rw [e6, e9, e10, e3, e2]; exact hAE
  have hpos : ∃ q : Int, b.pos1 = r.header + q * r.nch ∧ 0 ≤ q ∧ q ≤ F ∧ (r.rate < 0 → q < F) := by
    have hb1 : b.pos1 = (Rd.reset { r with fileSamples := F, loopStart := A, loopFinish := E }).pos1 := by rw [← hrd]
    rw [hb1]
    unfold Rd.reset
    simp only
    unfold StartsInside at hst
    by_cases h0 : r.rate ≥ 0
    · rw [if_pos h0]
      have hn0 : r.rate < 0 → ∀ q : Int, q < F := fun k => absurd k (not_lt.2 h0)
      cases hs : r.playStart with
      | sample => exact ⟨0, hpo 0 (le_refl _) hF0, le_refl _, hF0, fun k => hn0 k _⟩
      | loop => exact ⟨A, hpo A hA0.1 hA0.2, hA0.1, hA0.2, fun k => hn0 k _⟩
      | arbitrary =>
        rw [hs] at hst
        simp only at hst
        exact ⟨_, hpo _ hst.1 (le_of_lt hst.2), hst.1, le_of_lt hst.2, fun _ => hst.2⟩
    · rw [if_neg h0]
      cases hs : r.playStart with
      | sample =>
        rw [hs] at hst
        simp only at hst
        rcases hst with hst | ⟨hst, hF1⟩
        · exact absurd hst h0
        · refine ⟨F - 1, ?_, by omega, by omega, fun _ => by omega⟩
          simp only [hst]
          have f := frame_fits hH (le_of_lt hn) (show 0 ≤ F - 1 by omega) (show F - 1 ≤ F + R + 5 by omega) hfit
          have : r.header + F * r.nch - r.nch = r.header + (F - 1) * r.nch := by ring
          rw [this]
          unfold i32; omega
      | loop =>
        rw [hs] at hst
        simp only at hst
        rcases hst with hst | hst
        · exact absurd hst h0
        · have hEn : r.nch ≤ E := by rw [hE]; split <;> simp_all
          exact ⟨E - r.nch, hpo _ (by omega) (by omega), by omega, by omega, fun _ => by omega⟩
      | arbitrary =>
        rw [hs] at hst
        simp only at hst
        exact ⟨_, hpo _ hst.1 (le_of_lt hst.2), hst.1, le_of_lt hst.2, fun _ => hst.2⟩
  obtain ⟨q, q1, q2, q3, q4⟩ := hpos
  refine ⟨hz, e13, q, hz.dual, e11, hz.nch, hz.rateR, hz.R30, by rw [e7]; exact hflt, by rw [e7]; exact hfrac, by rw [q1, e4, e2], hz.header0,
    by rw [e12], by rw [e12]; norm_num, hz.interp, hz.fits, fun _ => ⟨hz.F0, hz.FT⟩, hz.A0, hz.AT, fun k => ⟨(hz.loop k).1, hz.ET, (hz.loop k).2⟩, ?_, ?_⟩
  · intro _; omega
  · intro k
    rw [e3] at k
    have := q4 k
    omega

end TVP
