import Verif.Lemmas.PingWindow
import Verif.Lemmas.PingReader

/-!
# A player streaming a ping-pong loop
-/

namespace TVP
open Spec

variable {m : List Nat} {g : Geo} {fp : Fp}

theorem Now.up_true {R S P E S0 X nch : Int} (hN : PPNum R S P E S0 X nch) {r : Rd} (h : PP R S P E S0 X nch r) {y : Int}
    (hx : Now S P E r true y) : S0 ≤ y ∧ y + nch ≤ E := by
  have := hN.S0S
  have := hN.SP
  have := hN.PE
  rcases hx with ⟨_, h0, h1, rfl⟩ | ⟨h, _⟩ | ⟨h, _⟩ | ⟨_, h0, h1, rfl⟩
  · exact ⟨(h.fwd h0).1, hN.fits h.grid h1⟩
  · cases h
  · cases h
  · exact ⟨by omega, by omega⟩

theorem Now.up_false {R S P E S0 X nch : Int} (hN : PPNum R S P E S0 X nch) {r : Rd} (h : PP R S P E S0 X nch r) {y : Int}
    (hx : Now S P E r false y) : S ≤ y ∧ y + nch ≤ X := by
  have := hN.SP
  have := hN.PE
  have := hN.EX
  rcases hx with ⟨h, _⟩ | ⟨_, h0, h1, rfl⟩ | ⟨_, h0, h1, rfl⟩ | ⟨h, _⟩
  · cases h
  · exact ⟨by omega, by omega⟩
  · exact ⟨h1, (h.bwd h0).2⟩
  · cases h

theorem ediv_add_le' {B x y d mm : Int} (hB : 0 < B) (hd : d ≤ mm * B) (h : y ≤ x + d) : y / B ≤ x / B + mm := by
  have h1 := Int.ediv_le_ediv hB (show y ≤ x + mm * B by omega)
  rwa [Int.add_mul_ediv_right _ _ (ne_of_gt hB)] at h1

/-- The numbers of a long loop: at most `mm` blocks are passed in an update. -/
structure PLong (g : Geo) (m : List Nat) (mm R S P E S0 X nch M : Int) : Prop where
  num : PPNum R S P E S0 X nch
  B : g.B < 16384
  file : 2 * X ≤ m.length
  len : m.length < 2 ^ 31
  bufs : 2 * mm + 2 ≤ g.N
  adv : 129 * (nch * (R + 1)) ≤ mm * g.B
  room : S / g.B + g.N - 1 ≤ E / g.B
  turn : P / g.B = E / g.B
  fM : E / g.B ≤ M
  max : (M + 1) * g.B ≤ 2147483647

theorem PLong.long {mm R S P E S0 X nch M : Int} (h : PLong g m mm R S P E S0 X nch M) :
    S + (blockSamples : Nat) * (nch * (R + 1)) ≤ P ∧ 0 < nch * (R + 1) ∧ nch ≤ nch * (R + 1) := by
  have hB0 : (0 : Int) < g.B := by exact_mod_cast g.B_pos
  have hn := h.num.n0
  have hR := h.num.R0
  have hst : 0 < nch * (R + 1) := mul_pos hn (by omega)
  have hnst : nch ≤ nch * (R + 1) := le_mul_of_one_le_right (le_of_lt hn) (by omega)
  refine ⟨?_, hst, hnst⟩
  have h1 : (P / g.B) * g.B ≤ P := Int.ediv_mul_le _ (ne_of_gt hB0)
  have h2 : S < (S / g.B + 1) * g.B := Int.lt_ediv_add_one_mul_self _ hB0
  have hb := h.bufs
  have hr := h.room
  have ha := h.adv
  rw [← h.turn] at hr
  have hmm : 0 ≤ mm := by
    by_contra hcon
    have := mul_neg_of_neg_of_pos (show mm < 0 by omega) hB0
    omega
  have h3 : (S / g.B + 1 + mm) * g.B ≤ (P / g.B) * g.B := mul_le_mul_of_nonneg_right (by omega) (le_of_lt hB0)
  rw [add_mul] at h3
  have h4 : ((blockSamples : Nat) : Int) * (nch * (R + 1)) = 128 * (nch * (R + 1)) := rfl
  rw [h4]
  omega

/-- What an update that begins going up reads, in blocks. -/
theorem PP.readsUp (hfp : Representable fp) {mm R S P E S0 X nch M : Int} (hL : PLong g m mm R S P E S0 X nch M) {r : Rd}
    (h : PP R S P E S0 X nch r) {x : Int} (hx : Now S P E r true x) :
    ∃ ps r' u y, Visits fp blockSamples r ps r' ∧ PP R S P E S0 X nch r' ∧ |r'.rate| = |r.rate| ∧ Now S P E r' u y ∧
      (∀ i ∈ framesIdx nch ps, InFile m i) ∧ x ∈ framesIdx nch ps ∧ x + nch - 1 ∈ framesIdx nch ps ∧
      (u = true → 0 < r'.rate ∧ x ≤ y ∧ y / g.B ≤ x / g.B + mm ∧ y + nch ≤ E ∧
        ∀ i ∈ framesIdx nch ps, x ≤ i ∧ i ≤ y + nch - 1 ∧ i / g.B ≤ x / g.B + mm) ∧
      (u = false → E / g.B ≤ x / g.B + mm ∧ E / g.B - mm ≤ y / g.B ∧ S ≤ y ∧ y ≤ P ∧ (y = P ∨ P ∈ framesIdx nch ps) ∧
        ∀ i ∈ framesIdx nch ps, E / g.B - mm ≤ i / g.B ∧ i / g.B ≤ E / g.B) := by
  have hB0 : (0 : Int) < g.B := by exact_mod_cast g.B_pos
  obtain ⟨hlong, hst, hnst⟩ := hL.long
  have hn := hL.num.n0
  have hxE := (hx.up_true hL.num h).2
  obtain ⟨ps, r', u, y, v1, v2, v3, v4, v5, v6, _, v7, v8, v9⟩ := PP.visitsUp hfp hL.num (show x < E by omega) hlong blockSamples 0 r true x (by omega) h hx
    (Or.inl ⟨rfl, le_refl _, by simp⟩)
  have hxp := v6 (by decide)
  have hmem : ∀ i ∈ framesIdx nch ps, ∃ p ∈ ps, p ≤ i ∧ i < p + nch := by
    intro i hi
    obtain ⟨p, hp, q1, q2⟩ := mem_framesIdx.1 hi
    exact ⟨p, hp, q1, by omega⟩
  have hcast : ((blockSamples : Nat) : Int) = 128 := rfl
  have hcast1 : ((blockSamples - 1 : Nat) : Int) = 127 := rfl
  have hadv := hL.adv
  have hS00 := hL.num.S00
  have hS0S := hL.num.S0S
  have hEX := hL.num.EX
  have hPE := hL.num.PE
  have hfile := hL.file
  have hturn := hL.turn
  have hlow : E / g.B ≤ (P - 128 * (nch * (R + 1))) / g.B + mm := by
    rw [← hturn]
    exact ediv_add_le' hB0 (show 128 * (nch * (R + 1)) ≤ mm * g.B by omega) (by omega)
  refine ⟨ps, r', u, y, v1, v2, v3, v4, ?_, mem_framesIdx.2 ⟨x, hxp, le_refl _, by omega⟩, mem_framesIdx.2 ⟨x, hxp, by omega, by omega⟩, ?_, ?_⟩
  · intro i hi
    obtain ⟨p, hp, q1, q2⟩ := hmem i hi
    obtain ⟨v, w1, _, _⟩ := v9 p hp
    rcases w1 with ⟨_, w1, w2⟩ | ⟨_, w1, w2⟩
    · exact ⟨by omega, by omega⟩
    · exact ⟨by omega, by omega⟩
  · intro hu
    obtain ⟨_, b1, b2⟩ := v8 hu
    rw [hu] at v4 v5
    have hy := v4.up_true hL.num v2
    rcases v5 with ⟨_, c1, c2⟩ | ⟨c, _⟩
    · rw [hcast] at c2
      refine ⟨b2 (Or.inr (by decide)), c1, ediv_add_le' hB0 (show 128 * (nch * (R + 1)) ≤ mm * g.B by omega) c2, hy.2, ?_⟩
      intro i hi
      obtain ⟨p, hp, q1, q2⟩ := hmem i hi
      obtain ⟨v, _, w2, w3⟩ := v9 p hp
      obtain ⟨hv, w4⟩ := w3 hu
      rw [hv] at w2
      rcases w2 with ⟨_, d1, d2⟩ | ⟨d, _⟩
      · rw [hcast1] at d2
        exact ⟨by omega, by omega, ediv_add_le' hB0 (show 128 * (nch * (R + 1)) ≤ mm * g.B by omega) (by omega)⟩
      · cases d
    · cases c
  · intro hu
    rw [hu] at v4 v5
    rcases v5 with ⟨c, _⟩ | ⟨_, c1, k1, k2, c2, c3, c4⟩
    · cases c
    · have hk1 : (k1 : Int) * (nch * (R + 1)) ≤ 128 * (nch * (R + 1)) := mul_le_mul_of_nonneg_right (by rw [← hcast]; omega) (le_of_lt hst)
      have hk2 : (k2 : Int) * (nch * (R + 1)) ≤ 128 * (nch * (R + 1)) := mul_le_mul_of_nonneg_right (by rw [← hcast]; omega) (le_of_lt hst)
      have hxf : E / g.B ≤ x / g.B + mm := ediv_add_le' hB0 (show 128 * (nch * (R + 1)) ≤ mm * g.B by omega) (by omega)
      have hge : ∀ z, P - 128 * (nch * (R + 1)) ≤ z → E / g.B - mm ≤ z / g.B := by
        intro z hz
        have := Int.ediv_le_ediv hB0 hz
        omega
      refine ⟨hxf, hge y (by omega), (v4.up_false hL.num v2).1, c1, ?_, ?_⟩
      · rcases v7 rfl hu with e | e
        · exact Or.inl e
        · exact Or.inr (mem_framesIdx.2 ⟨P, e, le_refl _, by omega⟩)
      · intro i hi
        obtain ⟨p, hp, q1, q2⟩ := hmem i hi
        obtain ⟨v, w1, w2, _⟩ := v9 p hp
        rcases w2 with ⟨hv, d1, d2⟩ | ⟨hv, d1, q1', q2', d2, d3, d4⟩
        · have : p + nch ≤ E := by
            rcases w1 with ⟨_, _, w⟩ | ⟨w, _⟩
            · exact w
            · rw [hv] at w; cases w
          have e1 := Int.ediv_le_ediv hB0 (show x ≤ i by omega)
          have e2 := Int.ediv_le_ediv hB0 (show i ≤ E by omega)
          exact ⟨by omega, e2⟩
        · rw [show blockSamples - 1 = 127 from rfl] at d2
          have hk2 : (q2' : Int) * (nch * (R + 1)) ≤ 128 * (nch * (R + 1)) := mul_le_mul_of_nonneg_right (by omega) (le_of_lt hst)
          have e2 := Int.ediv_le_ediv hB0 (show i ≤ E by omega)
          exact ⟨hge i (by omega), e2⟩

/-- What an update that begins going down reads, in blocks. -/
theorem PP.readsDown (hfp : Representable fp) {mm R S P E S0 X nch M : Int} (hL : PLong g m mm R S P E S0 X nch M) {r : Rd}
    (h : PP R S P E S0 X nch r) {x : Int} (hx : Now S P E r false x) :
    ∃ ps r' u y, Visits fp blockSamples r ps r' ∧ PP R S P E S0 X nch r' ∧ |r'.rate| = |r.rate| ∧ Now S P E r' u y ∧
      (∀ i ∈ framesIdx nch ps, InFile m i) ∧ x ∈ framesIdx nch ps ∧ x + nch - 1 ∈ framesIdx nch ps ∧
      (u = false → r'.rate < 0 ∧ y ≤ x ∧ S ≤ y ∧ (x + nch - 1) / g.B - mm ≤ (y + nch - 1) / g.B ∧
        ∀ i ∈ framesIdx nch ps, y ≤ i ∧ i ≤ x + nch - 1 ∧ (x + nch - 1) / g.B - mm ≤ i / g.B) ∧
      (u = true → (x + nch - 1) / g.B ≤ S / g.B + mm ∧ y / g.B ≤ S / g.B + mm ∧ S ≤ y ∧ (y = S ∨ S ∈ framesIdx nch ps) ∧
        ∀ i ∈ framesIdx nch ps, S / g.B ≤ i / g.B ∧ i / g.B ≤ S / g.B + mm) := by
  have hB0 : (0 : Int) < g.B := by exact_mod_cast g.B_pos
  obtain ⟨hlong, hst, hnst⟩ := hL.long
  have hn := hL.num.n0
  have hxE := hx.up_false hL.num h
  obtain ⟨ps, r', u, y, v1, v2, v3, v4, v5, v6, _, v7, v8, v9⟩ := PP.visitsDown hfp hL.num hxE.1 hlong blockSamples 0 r false x (by omega) h hx
    (Or.inl ⟨rfl, le_refl _, by simp⟩)
  have hxp := v6 (by decide)
  have hmem : ∀ i ∈ framesIdx nch ps, ∃ p ∈ ps, p ≤ i ∧ i < p + nch := by
    intro i hi
    obtain ⟨p, hp, q1, q2⟩ := mem_framesIdx.1 hi
    exact ⟨p, hp, q1, by omega⟩
  have hcast : ((blockSamples : Nat) : Int) = 128 := rfl
  have hcast1 : ((blockSamples - 1 : Nat) : Int) = 127 := rfl
  have hadv := hL.adv
  have hS00 := hL.num.S00
  have hS0S := hL.num.S0S
  have hEX := hL.num.EX
  have hPE := hL.num.PE
  have hfile := hL.file
  have hback : ∀ z, x + nch - 1 - 129 * (nch * (R + 1)) ≤ z → (x + nch - 1) / g.B - mm ≤ z / g.B := by
    intro z hz
    have := ediv_add_le' (x := z) (y := x + nch - 1) hB0 hadv (by omega)
    omega
  have hfwd : ∀ z, z ≤ S + 129 * (nch * (R + 1)) → z / g.B ≤ S / g.B + mm := fun z hz => ediv_add_le' hB0 hadv hz
  refine ⟨ps, r', u, y, v1, v2, v3, v4, ?_, mem_framesIdx.2 ⟨x, hxp, le_refl _, by omega⟩, mem_framesIdx.2 ⟨x, hxp, by omega, by omega⟩, ?_, ?_⟩
  · intro i hi
    obtain ⟨p, hp, q1, q2⟩ := hmem i hi
    obtain ⟨v, w1, _, _⟩ := v9 p hp
    rcases w1 with ⟨_, w1, w2⟩ | ⟨_, w1, w2⟩
    · exact ⟨by omega, by omega⟩
    · exact ⟨by omega, by omega⟩
  · intro hu
    obtain ⟨_, b1, b2⟩ := v8 hu
    rw [hu] at v4 v5
    have hy := v4.up_false hL.num v2
    rcases v5 with ⟨_, c1, c2⟩ | ⟨c, _⟩
    · rw [hcast] at c2
      refine ⟨b2 (Or.inr (by decide)), c1, hy.1, hback _ (by omega), ?_⟩
      intro i hi
      obtain ⟨p, hp, q1, q2⟩ := hmem i hi
      obtain ⟨v, _, w2, w3⟩ := v9 p hp
      obtain ⟨hv, w4⟩ := w3 hu
      rw [hv] at w2
      rcases w2 with ⟨_, d1, d2⟩ | ⟨d, _⟩
      · rw [hcast1] at d2
        exact ⟨by omega, by omega, hback _ (by omega)⟩
      · cases d
    · cases c
  · intro hu
    rw [hu] at v4 v5
    rcases v5 with ⟨c, _⟩ | ⟨_, c1, k1, k2, c2, c3, c4⟩
    · cases c
    · have hk1 : (k1 : Int) * (nch * (R + 1)) ≤ 128 * (nch * (R + 1)) := mul_le_mul_of_nonneg_right (by rw [← hcast]; omega) (le_of_lt hst)
      have hk2 : (k2 : Int) * (nch * (R + 1)) ≤ 128 * (nch * (R + 1)) := mul_le_mul_of_nonneg_right (by rw [← hcast]; omega) (le_of_lt hst)
      refine ⟨hfwd _ (by omega), hfwd _ (by omega), c1, ?_, ?_⟩
      · rcases v7 rfl hu with e | e
        · exact Or.inl e
        · exact Or.inr (mem_framesIdx.2 ⟨S, e, le_refl _, by omega⟩)
      · intro i hi
        obtain ⟨p, hp, q1, q2⟩ := hmem i hi
        obtain ⟨v, w1, w2, _⟩ := v9 p hp
        rcases w2 with ⟨hv, d1, d2⟩ | ⟨hv, d1, q1', q2', d2, d3, d4⟩
        · have : S ≤ p := by
            rcases w1 with ⟨w, _⟩ | ⟨_, w, _⟩
            · rw [hv] at w; cases w
            · exact w
          have e1 := Int.ediv_le_ediv hB0 (show S ≤ i by omega)
          exact ⟨e1, hfwd _ (by omega)⟩
        · rw [show blockSamples - 1 = 127 from rfl] at d2
          have hk2 : (q2' : Int) * (nch * (R + 1)) ≤ 128 * (nch * (R + 1)) := mul_le_mul_of_nonneg_right (by omega) (le_of_lt hst)
          have e1 := Int.ediv_le_ediv hB0 (show S ≤ i by omega)
          exact ⟨e1, hfwd _ (by omega)⟩

/-! ## Reader and cache together -/

/-- The cache moves upwards.  The reader is going up in the first blocks of the window, or anywhere in it when the window is at the
top of the loop; or it is about to turn there; or it is still going down in the first block of the loop. -/
structure UpSt (g : Geo) (mm S P E : Int) (c : Cache) (u : Bool) (x w : Int) : Prop where
  ix : c.bufs.map Buf.index = up w g.N
  w0 : 0 ≤ w
  wf : w + g.N - 1 ≤ E / g.B
  prev : 0 < c.prevRate
  pos : (u = true ∧ w ≤ x / g.B ∧ (x / g.B ≤ w + mm ∨ w = E / g.B - g.N + 1)) ∨ (u = false ∧ x = P ∧ w = E / g.B - g.N + 1) ∨
    (u = false ∧ w = S / g.B ∧ x / g.B = w)

/-- The cache moves downwards; likewise. -/
structure DownSt (g : Geo) (mm S E nch M : Int) (c : Cache) (u : Bool) (x v : Int) : Prop where
  ix : c.bufs.map Buf.index = down v g.N
  vM : v ≤ M
  sv : S / g.B ≤ v - g.N + 1
  prev : c.prevRate < 0
  pos : (u = false ∧ (x + nch - 1) / g.B ≤ v ∧ (v - mm ≤ (x + nch - 1) / g.B ∨ v = S / g.B + g.N - 1)) ∨
    (u = true ∧ x = S ∧ v = S / g.B + g.N - 1) ∨ (u = true ∧ v = E / g.B ∧ (x + nch - 1) / g.B = v)

/-- Before the first update the cache does not know the direction yet. -/
structure NewSt (fp : Fp) (g : Geo) (S E nch M : Int) (r : Rd) (c : Cache) (u : Bool) (x : Int) : Prop where
  prev : c.prevRate = 0
  pos : (u = true ∧ 0 < r.rate ∧ 0 < fp.f.rnd r.rate ∧ ∃ w, c.bufs.map Buf.index = up w g.N ∧ 0 ≤ w ∧ w + g.N - 1 ≤ E / g.B ∧ x / g.B = w) ∨
    (u = false ∧ r.rate < 0 ∧ fp.f.rnd r.rate < 0 ∧ ∃ v, c.bufs.map Buf.index = down v g.N ∧ v ≤ M ∧ S / g.B ≤ v - g.N + 1 ∧ (x + nch - 1) / g.B = v)

structure PingLive (fp : Fp) (m : List Nat) (g : Geo) (mm R S P E S0 X nch M : Int) (r : Rd) (c : Cache) : Prop where
  rd : PP R S P E S0 X nch r
  win : PWin m g (S / g.B) (E / g.B) c
  st : ∃ u x, Now S P E r u x ∧ ((∃ w, UpSt g mm S P E c u x w) ∨ (∃ v, DownSt g mm S E nch M c u x v) ∨ NewSt fp g S E nch M r c u x)

/-- The same for the cache alone: what it must do in an update that reads `is`, so that it suits a reader at `y`. -/
def Suits (fp : Fp) (m : List Nat) (g : Geo) (mm S P E nch M : Int) (fuel : Nat) (c : Cache) (is : List Int) (rate : ℚ) (u : Bool) (y : Int) : Prop :=
  (∀ i ∈ is, Buffered g c i) ∧ ∃ c', (c.gets g is).2.triggerReload g fuel (fp.f.rnd rate) = .ok c' ∧ PWin m g (S / g.B) (E / g.B) c' ∧
    ((∃ w, UpSt g mm S P E c' u y w) ∨ (∃ v, DownSt g mm S E nch M c' u y v))

theorem up_cons {w : Int} {N : Nat} (h : 0 < N) : up w N = w :: up (w + 1) (N - 1) := by
  obtain ⟨k, rfl⟩ : ∃ k, N = k + 1 := ⟨N - 1, by omega⟩
  rw [up_succ, Nat.add_sub_cancel]

theorem down_cons {w : Int} {N : Nat} (h : 0 < N) : down w N = w :: down (w - 1) (N - 1) := by
  obtain ⟨k, rfl⟩ : ∃ k, N = k + 1 := ⟨N - 1, by omega⟩
  rw [down_succ, Nat.add_sub_cancel]

theorem down_keys (v : Int) (N : Nat) : (down v N).Pairwise fun x y => -x < -y := (down_sorted v N).imp (fun h => by omega)

theorem PLong.facts {mm R S P E S0 X nch M : Int} (h : PLong g m mm R S P E S0 X nch M) :
    0 < mm ∧ 1 < g.N ∧ m.length < 4294967296 ∧ (E / g.B + 1) * g.B ≤ 2147483647 ∧ 0 ≤ S / g.B ∧ (P + nch - 1) / g.B = E / g.B := by
  have hB0 : (0 : Int) < g.B := by exact_mod_cast g.B_pos
  obtain ⟨_, hst, _⟩ := h.long
  have ha := h.adv
  have hmm : 0 < mm := by
    by_contra hcon
    have := mul_nonpos_of_nonpos_of_nonneg (show mm ≤ 0 by omega) (le_of_lt hB0)
    omega
  have hb := h.bufs
  have hf := h.fM
  have hl := h.len
  have hS : 0 ≤ S := le_trans h.num.S00 h.num.S0S
  refine ⟨hmm, by omega, by omega, le_trans (mul_le_mul_of_nonneg_right (by omega) (le_of_lt hB0)) h.max, Int.ediv_nonneg hS (le_of_lt hB0), ?_⟩
  have h1 := Int.ediv_le_ediv hB0 (show P ≤ P + nch - 1 by have := h.num.n0; omega)
  have h2 := Int.ediv_le_ediv hB0 (show P + nch - 1 ≤ E by have := h.num.PE; omega)
  have h3 := h.turn
  omega

/-- Going up while the cache moves up. -/
theorem UpSt.goUp {mm R S P E S0 X nch M : Int} (hL : PLong g m mm R S P E S0 X nch M) {fuel : Nat} (hf : g.N ≤ fuel) {c : Cache}
    (hw : PWin m g (S / g.B) (E / g.B) c) {x w : Int} (h : UpSt g mm S P E c true x w) {is : List Int} (hin : ∀ i ∈ is, InFile m i) (hx : x ∈ is)
    (rate : ℚ) {u : Bool} {y : Int}
    (h1 : u = true → x ≤ y ∧ y / g.B ≤ x / g.B + mm ∧ y + nch ≤ E ∧ ∀ i ∈ is, x ≤ i ∧ i ≤ y + nch - 1 ∧ i / g.B ≤ x / g.B + mm)
    (h2 : u = false → E / g.B ≤ x / g.B + mm ∧ E / g.B - mm ≤ y / g.B ∧ y ≤ P ∧ (y = P ∨ P ∈ is) ∧
        ∀ i ∈ is, E / g.B - mm ≤ i / g.B ∧ i / g.B ≤ E / g.B) :
    Suits fp m g mm S P E nch M fuel c is rate u y := by
  have hB0 : (0 : Int) < g.B := by exact_mod_cast g.B_pos
  obtain ⟨hmm, hN, hm, hmax, hs0, hPt⟩ := hL.facts
  have hb := hL.bufs
  have hroom := hL.room
  have hturn := hL.turn
  have hfM := hL.fM
  have hn := hL.num.n0
  have hPE := hL.num.PE
  obtain ⟨hix, hw0, hwf, hp, hpos⟩ := h
  have hpos : w ≤ x / g.B ∧ (x / g.B ≤ w + mm ∨ w = E / g.B - g.N + 1) := by
    rcases hpos with ⟨_, h⟩ | ⟨h, _⟩ | ⟨h, _⟩
    · exact h
    · cases h
    · cases h
  cases u with
  | true =>
    obtain ⟨a1, a2, a3, a4⟩ := h1 rfl
    have hE : ∀ i ∈ is, i / g.B ≤ E / g.B := fun i hi => Int.ediv_le_ediv hB0 (by have := (a4 i hi).2.1; omega)
    have hlo : ∀ i ∈ is, InFile m i ∧ x / g.B ≤ i / g.B ∧ i / g.B < w + g.N := by
      intro i hi
      have e1 := (a4 i hi).2.2
      have e2 := hE i hi
      refine ⟨hin i hi, Int.ediv_le_ediv hB0 (a4 i hi).1, ?_⟩
      rcases hpos.2 with h | h <;> omega
    have hxy := Int.ediv_le_ediv hB0 a1
    refine ⟨hw.buffered hL.B fun i hi => ⟨hin i hi, by rw [hix, mem_up]; have := hlo i hi; exact ⟨by omega, by omega⟩⟩, ?_⟩
    obtain ⟨r1, r2⟩ := hw.roundUp hL.B hm hmax hN hix hw0 hwf (le_of_lt hp) hpos.1 hlo ⟨x, hx, rfl⟩ (rate := fp.f.rnd rate) hf
    by_cases hfin : ∃ i ∈ is, i / g.B = E / g.B
    · obtain ⟨i, hi, ei⟩ := hfin
      have e1 := (a4 i hi).2.2
      have e3 := (hlo i hi).2.2
      obtain ⟨c', k1, k2, k3, k4⟩ := r2 ⟨i, hi, ei⟩ (by omega) hp
      have e4 := Int.ediv_le_ediv hB0 (a4 i hi).2.1
      have e5 := Int.ediv_le_ediv hB0 (show y + nch - 1 ≤ E by omega)
      exact ⟨c', k1, k2, Or.inr ⟨E / g.B, k3, hfM, by omega, by rw [k4]; linarith, Or.inr (Or.inr ⟨rfl, rfl, by omega⟩)⟩⟩
    · obtain ⟨c', k1, k2, k3, k4⟩ := r1 (fun i hi e => hfin ⟨i, hi, e⟩)
      rw [if_neg (ne_of_gt hp)] at k4
      refine ⟨c', k1, k2, Or.inl ⟨_, k3, ?_, ?_, by rw [k4]; exact hp, Or.inl ⟨rfl, ?_, ?_⟩⟩⟩
      · omega
      · omega
      · omega
      · omega
  | false =>
    obtain ⟨a1, a2, a3, a4, a5⟩ := h2 rfl
    have hwe : w = E / g.B - g.N + 1 := by rcases hpos.2 with h | h <;> omega
    obtain ⟨i0, hi0, hmin⟩ := exists_min (fun i => i / (g.B : Int)) is (List.ne_nil_of_mem hx)
    have hlo : ∀ i ∈ is, InFile m i ∧ i0 / g.B ≤ i / g.B ∧ i / g.B < w + g.N := fun i hi =>
      ⟨hin i hi, hmin i hi, by have := (a5 i hi).2; omega⟩
    have hl0 := (a5 i0 hi0).1
    refine ⟨hw.buffered hL.B fun i hi => ⟨hin i hi, by rw [hix, mem_up]; have := hlo i hi; exact ⟨by omega, by omega⟩⟩, ?_⟩
    obtain ⟨r1, r2⟩ := hw.roundUp hL.B hm hmax hN hix hw0 hwf (le_of_lt hp) (show w ≤ i0 / g.B by omega) hlo ⟨i0, hi0, rfl⟩ (rate := fp.f.rnd rate) hf
    by_cases hfin : ∃ i ∈ is, i / g.B = E / g.B
    · obtain ⟨c', k1, k2, k3, k4⟩ := r2 hfin (by omega) hp
      have e4 := Int.ediv_le_ediv hB0 (show y ≤ y + nch - 1 by omega)
      have e5 := Int.ediv_le_ediv hB0 (show y + nch - 1 ≤ E by omega)
      exact ⟨c', k1, k2, Or.inr ⟨E / g.B, k3, hfM, by omega, by rw [k4]; linarith, Or.inl ⟨rfl, e5, Or.inl (by omega)⟩⟩⟩
    · obtain ⟨c', k1, k2, k3, k4⟩ := r1 (fun i hi e => hfin ⟨i, hi, e⟩)
      rw [if_neg (ne_of_gt hp)] at k4
      have hyP : y = P := by
        rcases a4 with h | h
        · exact h
        · exact absurd ⟨P, h, hturn⟩ hfin
      refine ⟨c', k1, k2, Or.inl ⟨_, k3, ?_, ?_, by rw [k4]; exact hp, Or.inr (Or.inl ⟨rfl, hyP, ?_⟩)⟩⟩
      · omega
      · omega
      · omega

/-- Going down while the cache moves up: the reader has to turn at the top, or is about to turn at the bottom. -/
theorem UpSt.goDown {mm R S P E S0 X nch M : Int} (hL : PLong g m mm R S P E S0 X nch M) {fuel : Nat} (hf : g.N ≤ fuel) {c : Cache}
    (hw : PWin m g (S / g.B) (E / g.B) c) {x w : Int} (h : UpSt g mm S P E c false x w) {is : List Int} (hin : ∀ i ∈ is, InFile m i) (hx : x ∈ is)
    (rate : ℚ) {u : Bool} {y : Int}
    (h1 : u = false → y ≤ x ∧ S ≤ y ∧ (x + nch - 1) / g.B - mm ≤ (y + nch - 1) / g.B ∧
        ∀ i ∈ is, y ≤ i ∧ i ≤ x + nch - 1 ∧ (x + nch - 1) / g.B - mm ≤ i / g.B)
    (h2 : u = true → (x + nch - 1) / g.B ≤ S / g.B + mm ∧ y / g.B ≤ S / g.B + mm ∧ S ≤ y ∧
        ∀ i ∈ is, S / g.B ≤ i / g.B ∧ i / g.B ≤ S / g.B + mm) :
    Suits fp m g mm S P E nch M fuel c is rate u y := by
  have hB0 : (0 : Int) < g.B := by exact_mod_cast g.B_pos
  obtain ⟨hmm, hN, hm, hmax, hs0, hPt⟩ := hL.facts
  have hb := hL.bufs
  have hroom := hL.room
  have hturn := hL.turn
  have hfM := hL.fM
  have hn := hL.num.n0
  have hPE := hL.num.PE
  have hnmm : (x + nch - 1) / g.B ≤ x / g.B + mm := by
    have ha := hL.adv
    obtain ⟨_, _, hnst⟩ := hL.long
    exact ediv_add_le' hB0 ha (by omega)
  obtain ⟨hix, hw0, hwf, hp, hpos⟩ := h
  rcases hpos with ⟨h, _⟩ | ⟨_, rfl, hwe⟩ | ⟨_, hws, hxw⟩
  · cases h
  · -- about to go down from the top
    cases u with
    | true => obtain ⟨a1, _⟩ := h2 rfl; omega
    | false =>
      obtain ⟨a1, a2, a3, a4⟩ := h1 rfl
      obtain ⟨i0, hi0, hmin⟩ := exists_min (fun i => i / (g.B : Int)) is (List.ne_nil_of_mem hx)
      have hE : ∀ i ∈ is, i / g.B ≤ E / g.B := fun i hi => Int.ediv_le_ediv hB0 (by have := (a4 i hi).2.1; omega)
      have hlo : ∀ i ∈ is, InFile m i ∧ i0 / g.B ≤ i / g.B ∧ i / g.B < w + g.N := fun i hi =>
        ⟨hin i hi, hmin i hi, by have := hE i hi; omega⟩
      have hl0 := (a4 i0 hi0).2.2
      refine ⟨hw.buffered hL.B fun i hi => ⟨hin i hi, by rw [hix, mem_up]; have := hlo i hi; exact ⟨by omega, by omega⟩⟩, ?_⟩
      obtain ⟨c', k1, k2, k3, k4⟩ := (hw.roundUp hL.B hm hmax hN hix hw0 hwf (le_of_lt hp) (show w ≤ i0 / g.B by omega) hlo ⟨i0, hi0, rfl⟩
        (rate := fp.f.rnd rate) hf).2 ⟨x, hx, hturn⟩ (by omega) hp
      have e5 := Int.ediv_le_ediv hB0 (show y + nch - 1 ≤ E by omega)
      exact ⟨c', k1, k2, Or.inr ⟨E / g.B, k3, hfM, by omega, by rw [k4]; linarith, Or.inl ⟨rfl, e5, Or.inl (by omega)⟩⟩⟩
  · -- still going down in the first block of the loop
    have hix' : c.bufs.map Buf.index = w :: up (w + 1) (g.N - 1) := by rw [hix]; exact up_cons (by omega)
    have hin' : ∀ i ∈ is, InFile m i ∧ i / g.B ∈ c.bufs.map Buf.index := by
      intro i hi
      refine ⟨hin i hi, ?_⟩
      rw [hix, mem_up]
      cases u with
      | true => obtain ⟨_, _, _, a4⟩ := h2 rfl; have := a4 i hi; exact ⟨by omega, by omega⟩
      | false =>
        obtain ⟨_, a2, _, a4⟩ := h1 rfl
        obtain ⟨b1, b2, _⟩ := a4 i hi
        have e1 := Int.ediv_le_ediv hB0 (show S ≤ i by omega)
        have e2 := Int.ediv_le_ediv hB0 b2
        exact ⟨by omega, by omega⟩
    refine ⟨hw.buffered hL.B hin', ?_⟩
    obtain ⟨c', k1, k2, k3, k4⟩ := hw.roundFront hL.B hm id (by rw [hix]; exact up_sorted _ _) hix' hin' ⟨x, hx, hxw⟩ fuel (fp.f.rnd rate)
    rw [if_neg (ne_of_gt hp)] at k4
    rw [hix] at k3
    refine ⟨c', k1, k2, Or.inl ⟨w, k3, hw0, hwf, by rw [k4]; exact hp, ?_⟩⟩
    cases u with
    | true =>
      obtain ⟨_, a2, a3, _⟩ := h2 rfl
      have e1 := Int.ediv_le_ediv hB0 a3
      exact Or.inl ⟨rfl, by omega, Or.inl (by omega)⟩
    | false =>
      obtain ⟨a1, a2, _, _⟩ := h1 rfl
      have e1 := Int.ediv_le_ediv hB0 a1
      have e2 := Int.ediv_le_ediv hB0 a2
      exact Or.inr (Or.inr ⟨rfl, hws, by omega⟩)

/-- Going down while the cache moves down. -/
theorem DownSt.goDown {mm R S P E S0 X nch M : Int} (hL : PLong g m mm R S P E S0 X nch M) {fuel : Nat} (hf : g.N ≤ fuel) {c : Cache}
    (hw : PWin m g (S / g.B) (E / g.B) c) {x v : Int} (h : DownSt g mm S E nch M c false x v) {is : List Int} (hin : ∀ i ∈ is, InFile m i)
    (hx : x + nch - 1 ∈ is) (rate : ℚ) {u : Bool} {y : Int}
    (h1 : u = false → y ≤ x ∧ S ≤ y ∧ (x + nch - 1) / g.B - mm ≤ (y + nch - 1) / g.B ∧
        ∀ i ∈ is, y ≤ i ∧ i ≤ x + nch - 1 ∧ (x + nch - 1) / g.B - mm ≤ i / g.B)
    (h2 : u = true → (x + nch - 1) / g.B ≤ S / g.B + mm ∧ y / g.B ≤ S / g.B + mm ∧ S ≤ y ∧ (y = S ∨ S ∈ is) ∧
        ∀ i ∈ is, S / g.B ≤ i / g.B ∧ i / g.B ≤ S / g.B + mm) :
    Suits fp m g mm S P E nch M fuel c is rate u y := by
  have hB0 : (0 : Int) < g.B := by exact_mod_cast g.B_pos
  obtain ⟨hmm, hN, hm, hmax, hs0, hPt⟩ := hL.facts
  have hb := hL.bufs
  have hroom := hL.room
  have hfM := hL.fM
  have hn := hL.num.n0
  obtain ⟨hix, hvM, hsv, hp, hpos⟩ := h
  have hpos : (x + nch - 1) / g.B ≤ v ∧ (v - mm ≤ (x + nch - 1) / g.B ∨ v = S / g.B + g.N - 1) := by
    rcases hpos with ⟨_, h⟩ | ⟨h, _⟩ | ⟨h, _⟩
    · exact h
    · cases h
    · cases h
  cases u with
  | false =>
    obtain ⟨a1, a2, a3, a4⟩ := h1 rfl
    have hE : ∀ i ∈ is, S / g.B ≤ i / g.B := fun i hi => Int.ediv_le_ediv hB0 (by have := (a4 i hi).1; omega)
    have hlo : ∀ i ∈ is, InFile m i ∧ i / g.B ≤ (x + nch - 1) / g.B ∧ v - g.N < i / g.B := by
      intro i hi
      have e1 := (a4 i hi).2.2
      have e2 := hE i hi
      refine ⟨hin i hi, Int.ediv_le_ediv hB0 (a4 i hi).2.1, ?_⟩
      rcases hpos.2 with h | h <;> omega
    have hxy := Int.ediv_le_ediv hB0 (show y + nch - 1 ≤ x + nch - 1 by omega)
    refine ⟨hw.buffered hL.B fun i hi => ⟨hin i hi, by rw [hix, mem_down]; have := hlo i hi; exact ⟨by omega, by omega⟩⟩, ?_⟩
    obtain ⟨r1, r2⟩ := hw.roundDown hL.B hm hs0 hL.max hN hix hvM hsv hp hpos.1 hlo ⟨_, hx, rfl⟩ (rate := fp.f.rnd rate) hf
    by_cases hfin : ∃ i ∈ is, i / g.B = S / g.B
    · obtain ⟨i, hi, ei⟩ := hfin
      have e1 := (a4 i hi).2.2
      have e3 := (hlo i hi).2.2
      obtain ⟨c', k1, k2, k3, k4⟩ := r2 ⟨i, hi, ei⟩ (by omega)
      have e4 := Int.ediv_le_ediv hB0 (a4 i hi).1
      have e5 := Int.ediv_le_ediv hB0 a2
      exact ⟨c', k1, k2, Or.inl ⟨S / g.B, k3, hs0, hroom, by rw [k4]; linarith, Or.inr (Or.inr ⟨rfl, rfl, by omega⟩)⟩⟩
    · obtain ⟨c', k1, k2, k3, k4⟩ := r1 (fun i hi e => hfin ⟨i, hi, e⟩)
      refine ⟨c', k1, k2, Or.inr ⟨_, k3, ?_, ?_, by rw [k4]; exact hp, Or.inl ⟨rfl, ?_, ?_⟩⟩⟩
      · omega
      · omega
      · omega
      · omega
  | true =>
    obtain ⟨a1, a2, a3, a4, a5⟩ := h2 rfl
    have hve : v = S / g.B + g.N - 1 := by rcases hpos.2 with h | h <;> omega
    obtain ⟨i0, hi0, hmin⟩ := exists_min (fun i => -(i / (g.B : Int))) is (List.ne_nil_of_mem hx)
    have hlo : ∀ i ∈ is, InFile m i ∧ i / g.B ≤ i0 / g.B ∧ v - g.N < i / g.B := fun i hi =>
      ⟨hin i hi, by have := hmin i hi; omega, by have := (a5 i hi).1; omega⟩
    have hl0 := (a5 i0 hi0).2
    refine ⟨hw.buffered hL.B fun i hi => ⟨hin i hi, by rw [hix, mem_down]; have := hlo i hi; exact ⟨by omega, by omega⟩⟩, ?_⟩
    obtain ⟨r1, r2⟩ := hw.roundDown hL.B hm hs0 hL.max hN hix hvM hsv hp (show i0 / g.B ≤ v by omega) hlo ⟨i0, hi0, rfl⟩ (rate := fp.f.rnd rate) hf
    by_cases hfin : ∃ i ∈ is, i / g.B = S / g.B
    · obtain ⟨c', k1, k2, k3, k4⟩ := r2 hfin (by omega)
      have e4 := Int.ediv_le_ediv hB0 a3
      exact ⟨c', k1, k2, Or.inl ⟨S / g.B, k3, hs0, hroom, by rw [k4]; linarith, Or.inl ⟨rfl, e4, Or.inl a2⟩⟩⟩
    · obtain ⟨c', k1, k2, k3, k4⟩ := r1 (fun i hi e => hfin ⟨i, hi, e⟩)
      have hyS : y = S := by
        rcases a4 with h | h
        · exact h
        · exact absurd ⟨S, h, rfl⟩ hfin
      refine ⟨c', k1, k2, Or.inr ⟨_, k3, ?_, ?_, by rw [k4]; exact hp, Or.inr (Or.inl ⟨rfl, hyS, ?_⟩)⟩⟩
      · omega
      · omega
      · omega

/-- Going up while the cache moves down: the reader has to turn at the bottom, or is about to turn at the top. -/
theorem DownSt.goUp {mm R S P E S0 X nch M : Int} (hL : PLong g m mm R S P E S0 X nch M) {fuel : Nat} (hf : g.N ≤ fuel) {c : Cache}
    (hw : PWin m g (S / g.B) (E / g.B) c) {x v : Int} (h : DownSt g mm S E nch M c true x v) {is : List Int} (hin : ∀ i ∈ is, InFile m i)
    (hx : x ∈ is) (hx' : x + nch - 1 ∈ is) (rate : ℚ) {u : Bool} {y : Int}
    (h1 : u = true → x ≤ y ∧ y / g.B ≤ x / g.B + mm ∧ y + nch ≤ E ∧ ∀ i ∈ is, x ≤ i ∧ i ≤ y + nch - 1 ∧ i / g.B ≤ x / g.B + mm)
    (h2 : u = false → E / g.B ≤ x / g.B + mm ∧ E / g.B - mm ≤ y / g.B ∧ y ≤ P ∧
        ∀ i ∈ is, E / g.B - mm ≤ i / g.B ∧ i / g.B ≤ E / g.B) :
    Suits fp m g mm S P E nch M fuel c is rate u y := by
  have hB0 : (0 : Int) < g.B := by exact_mod_cast g.B_pos
  obtain ⟨hmm, hN, hm, hmax, hs0, hPt⟩ := hL.facts
  have hb := hL.bufs
  have hroom := hL.room
  have hfM := hL.fM
  have hn := hL.num.n0
  have hPE := hL.num.PE
  have hnmm : (x + nch - 1) / g.B ≤ x / g.B + mm := by
    have ha := hL.adv
    obtain ⟨_, _, hnst⟩ := hL.long
    exact ediv_add_le' hB0 ha (by omega)
  obtain ⟨hix, hvM, hsv, hp, hpos⟩ := h
  rcases hpos with ⟨h, _⟩ | ⟨_, rfl, hve⟩ | ⟨_, hvf, hxv⟩
  · cases h
  · -- about to go up from the bottom
    cases u with
    | false => obtain ⟨a1, _⟩ := h2 rfl; omega
    | true =>
      obtain ⟨a1, a2, a3, a4⟩ := h1 rfl
      obtain ⟨i0, hi0, hmin⟩ := exists_min (fun i => -(i / (g.B : Int))) is (List.ne_nil_of_mem hx)
      have hE : ∀ i ∈ is, x / g.B ≤ i / g.B := fun i hi => Int.ediv_le_ediv hB0 (a4 i hi).1
      have hlo : ∀ i ∈ is, InFile m i ∧ i / g.B ≤ i0 / g.B ∧ v - g.N < i / g.B := fun i hi =>
        ⟨hin i hi, by have := hmin i hi; omega, by have := hE i hi; omega⟩
      have hl0 := (a4 i0 hi0).2.2
      refine ⟨hw.buffered hL.B fun i hi => ⟨hin i hi, by rw [hix, mem_down]; have := hlo i hi; exact ⟨by omega, by omega⟩⟩, ?_⟩
      obtain ⟨c', k1, k2, k3, k4⟩ := (hw.roundDown hL.B hm hs0 hL.max hN hix hvM hsv hp (show i0 / g.B ≤ v by omega) hlo ⟨i0, hi0, rfl⟩
        (rate := fp.f.rnd rate) hf).2 ⟨x, hx, rfl⟩ (by omega)
      have e5 := Int.ediv_le_ediv hB0 a1
      exact ⟨c', k1, k2, Or.inl ⟨x / g.B, k3, hs0, hroom, by rw [k4]; linarith, Or.inl ⟨rfl, e5, Or.inl a2⟩⟩⟩
  · -- still going up in the last block of the loop
    have hix' : c.bufs.map Buf.index = v :: down (v - 1) (g.N - 1) := by rw [hix]; exact down_cons (by omega)
    have hin' : ∀ i ∈ is, InFile m i ∧ i / g.B ∈ c.bufs.map Buf.index := by
      intro i hi
      refine ⟨hin i hi, ?_⟩
      rw [hix, mem_down]
      cases u with
      | false => obtain ⟨_, _, _, a4⟩ := h2 rfl; have := a4 i hi; exact ⟨by omega, by omega⟩
      | true =>
        obtain ⟨_, a2, a3, a4⟩ := h1 rfl
        obtain ⟨b1, b2, _⟩ := a4 i hi
        have e1 := Int.ediv_le_ediv hB0 b1
        have e2 := Int.ediv_le_ediv hB0 (show i ≤ E by omega)
        exact ⟨by omega, by omega⟩
    refine ⟨hw.buffered hL.B hin', ?_⟩
    obtain ⟨c', k1, k2, k3, k4⟩ := hw.roundFront hL.B hm (fun x => -x) (by rw [hix]; exact down_keys _ _) hix' hin' ⟨_, hx', hxv⟩ fuel (fp.f.rnd rate)
    rw [if_neg (ne_of_lt hp)] at k4
    rw [hix] at k3
    refine ⟨c', k1, k2, Or.inr ⟨v, k3, hvM, hsv, by rw [k4]; exact hp, ?_⟩⟩
    cases u with
    | false =>
      obtain ⟨_, a2, a3, _⟩ := h2 rfl
      have e1 := Int.ediv_le_ediv hB0 (show y ≤ y + nch - 1 by omega)
      have e2 := Int.ediv_le_ediv hB0 (show y + nch - 1 ≤ E by omega)
      exact Or.inl ⟨rfl, by omega, Or.inl (by omega)⟩
    | true =>
      obtain ⟨a1, _, a3, _⟩ := h1 rfl
      have e1 := Int.ediv_le_ediv hB0 (show x + nch - 1 ≤ y + nch - 1 by omega)
      have e2 := Int.ediv_le_ediv hB0 (show y + nch - 1 ≤ E by omega)
      exact Or.inr (Or.inr ⟨rfl, hvf, by omega⟩)

/-- In a ping-pong loop at least as long as the buffers, the cache keeps up with the reader. -/
theorem PingLive.keepsUp (hfp : Representable fp) {mm R S P E S0 X nch M : Int} (hL : PLong g m mm R S P E S0 X nch M) {fuel : Nat}
    (hf : g.N ≤ fuel) : KeepsUp fp m g fuel (PingLive fp m g mm R S P E S0 X nch M) := by
  intro r c ⟨hr, hw, u, x, hx, hst⟩
  have hB0 : (0 : Int) < g.B := by exact_mod_cast g.B_pos
  obtain ⟨hmm, hN, hm, hmax, hs0, hPt⟩ := hL.facts
  have hroom := hL.room
  have hb := hL.bufs
  refine ⟨hr.plain, hw.reached, ?_⟩
  rw [hr.chans]
  cases u with
  | true =>
    obtain ⟨ps, r', u, y, v1, v2, v3, v4, v5, v6, v7, v8, v9⟩ := hr.readsUp hfp hL hx
    refine ⟨ps, r', ?_⟩
    have key : Suits fp m g mm S P E nch M fuel c (framesIdx nch ps) r'.rate u y := by
      rcases hst with ⟨w, h⟩ | ⟨v, h⟩ | ⟨hp, h⟩
      · exact h.goUp hL hf hw v5 v6 _ (fun hu => (v8 hu).2) (fun hu => ⟨(v9 hu).1, (v9 hu).2.1, (v9 hu).2.2.2⟩)
      · exact h.goUp hL hf hw v5 v6 v7 _ (fun hu => (v8 hu).2) (fun hu => ⟨(v9 hu).1, (v9 hu).2.1, (v9 hu).2.2.2.1, (v9 hu).2.2.2.2.2⟩)
      · rcases h with ⟨_, h0, hF, w, hix, hw0, hwf, hxw⟩ | ⟨h, _⟩
        · have hu : u = true := by
            cases u with
            | true => rfl
            | false => have := (v9 rfl).1; omega
          subst hu
          obtain ⟨a0, a1, a2, a3, a4⟩ := v8 rfl
          have hrate : r'.rate = r.rate := by rw [abs_of_pos a0, abs_of_pos h0] at v3; exact v3
          have hix' : c.bufs.map Buf.index = w :: up (w + 1) (g.N - 1) := by rw [hix]; exact up_cons (by omega)
          have hin' : ∀ i ∈ framesIdx nch ps, InFile m i ∧ i / g.B ∈ c.bufs.map Buf.index := by
            intro i hi
            have e1 := Int.ediv_le_ediv hB0 (a4 i hi).1
            have e2 := (a4 i hi).2.2
            exact ⟨v5 i hi, by rw [hix, mem_up]; exact ⟨by omega, by omega⟩⟩
          refine ⟨hw.buffered hL.B hin', ?_⟩
          obtain ⟨c', k1, k2, k3, k4⟩ := hw.roundFront hL.B hm id (by rw [hix]; exact up_sorted _ _) hix' hin' ⟨x, v6, hxw⟩ fuel (fp.f.rnd r'.rate)
          rw [if_pos hp, hrate] at k4
          rw [hix] at k3
          have e1 := Int.ediv_le_ediv hB0 a1
          exact ⟨c', k1, k2, Or.inl ⟨w, k3, hw0, hwf, by rw [k4]; exact hF, Or.inl ⟨rfl, by omega, Or.inl (by omega)⟩⟩⟩
        · cases h
    obtain ⟨b1, c', b2, b3, b4⟩ := key
    refine ⟨c', v1, fun i hi => ⟨v5 i hi, b1 i hi⟩, b2, v2, b3, u, y, v4, ?_⟩
    rcases b4 with b4 | b4
    · exact Or.inl b4
    · exact Or.inr (Or.inl b4)
  | false =>
    obtain ⟨ps, r', u, y, v1, v2, v3, v4, v5, v6, v7, v8, v9⟩ := hr.readsDown hfp hL hx
    refine ⟨ps, r', ?_⟩
    have key : Suits fp m g mm S P E nch M fuel c (framesIdx nch ps) r'.rate u y := by
      rcases hst with ⟨w, h⟩ | ⟨v, h⟩ | ⟨hp, h⟩
      · exact h.goDown hL hf hw v5 v6 _ (fun hu => (v8 hu).2) (fun hu => ⟨(v9 hu).1, (v9 hu).2.1, (v9 hu).2.2.1, (v9 hu).2.2.2.2⟩)
      · exact h.goDown hL hf hw v5 v7 _ (fun hu => (v8 hu).2) (fun hu => v9 hu)
      · rcases h with ⟨h, _⟩ | ⟨_, h0, hF, v, hix, hvM, hsv, hxv⟩
        · cases h
        · have hu : u = false := by
            cases u with
            | false => rfl
            | true => have := (v9 rfl).1; omega
          subst hu
          obtain ⟨a0, a1, a2, a3, a4⟩ := v8 rfl
          have hrate : r'.rate = r.rate := by rw [abs_of_neg a0, abs_of_neg h0] at v3; linarith
          have hix' : c.bufs.map Buf.index = v :: down (v - 1) (g.N - 1) := by rw [hix]; exact down_cons (by omega)
          have hin' : ∀ i ∈ framesIdx nch ps, InFile m i ∧ i / g.B ∈ c.bufs.map Buf.index := by
            intro i hi
            have e1 := Int.ediv_le_ediv hB0 (a4 i hi).2.1
            have e2 := (a4 i hi).2.2
            exact ⟨v5 i hi, by rw [hix, mem_down]; exact ⟨by omega, by omega⟩⟩
          refine ⟨hw.buffered hL.B hin', ?_⟩
          obtain ⟨c', k1, k2, k3, k4⟩ := hw.roundFront hL.B hm (fun x => -x) (by rw [hix]; exact down_keys _ _) hix' hin' ⟨_, v7, hxv⟩ fuel (fp.f.rnd r'.rate)
          rw [if_pos hp, hrate] at k4
          rw [hix] at k3
          have e1 := Int.ediv_le_ediv hB0 (show y + nch - 1 ≤ x + nch - 1 by omega)
          exact ⟨c', k1, k2, Or.inr ⟨v, k3, hvM, hsv, by rw [k4]; exact hF, Or.inl ⟨rfl, by omega, Or.inl (by omega)⟩⟩⟩
    obtain ⟨b1, c', b2, b3, b4⟩ := key
    refine ⟨c', v1, fun i hi => ⟨v5 i hi, b1 i hi⟩, b2, v2, b3, u, y, v4, ?_⟩
    rcases b4 with b4 | b4
    · exact Or.inl b4
    · exact Or.inr (Or.inl b4)

end TVP
