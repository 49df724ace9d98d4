import Verif.Lemmas.FadeSteps
import Verif.Lemmas.TraceTicks
import Verif.Lemmas.LoopStream

/-!
# A player streaming a cross-faded loop
-/

namespace TVP
open Spec

variable {m : List Nat} {g : Geo} {fp : Fp} {p : Nat} {R A E D H nch : Int}

/-- Past the end of the loop and on from its beginning, in blocks. -/
theorem far_block {B s e q x K : Int} (hB : 0 < B) (h : e + x ≤ q + s + K * B) (hs : s ≤ x) (_hq : q / B ≤ e / B) :
    e / B + 1 - q / B + (x / B - s / B) ≤ K + 2 ∧ e / B + 1 - q / B ≤ e / B + 1 - q / B + (x / B - s / B) ∧
      x / B = blk (s / B) (e / B) (q / B) (e / B + 1 - q / B + (x / B - s / B)) := by
  have h3 := Int.ediv_le_ediv hB hs
  have h4 : e / B + x / B ≤ q / B + s / B + K + 1 := by
    have := Int.mul_ediv_add_emod e B
    have := Int.mul_ediv_add_emod x B
    have := Int.mul_ediv_add_emod q B
    have := Int.mul_ediv_add_emod s B
    have := Int.emod_nonneg e (ne_of_gt hB)
    have := Int.emod_nonneg x (ne_of_gt hB)
    have := Int.emod_lt_of_pos q hB
    have := Int.emod_lt_of_pos s hB
    by_contra hcon
    have : B * (q / B + s / B + K + 2) ≤ B * (e / B + x / B) := mul_le_mul_of_nonneg_left (by omega) (le_of_lt hB)
    rw [mul_add, mul_add, mul_add, mul_add, mul_comm B K] at this
    omega
  refine ⟨by omega, by omega, ?_⟩
  unfold blk; rw [if_neg (by omega)]; ring

/-- Within one lap, in blocks. -/
theorem near_block {B q x K : Int} (hB : 0 < B) (h0 : q ≤ x) (h : x ≤ q + K * B) {s f : Int} (hf : x / B ≤ f) :
    0 ≤ x / B - q / B ∧ x / B - q / B ≤ K ∧ x / B = blk s f (q / B) (x / B - q / B) := by
  have h1 := Int.ediv_le_ediv hB h0
  have h2 := Int.ediv_le_ediv hB h
  rw [Int.add_mul_ediv_right _ _ (ne_of_gt hB)] at h2
  refine ⟨by omega, by omega, ?_⟩
  unfold blk; rw [if_pos (by omega)]; ring

/-- At most `k` steps after `q0`, and not before the `δ`-th block from there. -/
def Within (s f : Int) (bk : Int → Int) (R A E D q0 δ : Int) (k : Nat) : Spots → Prop
  | .one q => (q0 ≤ q ∧ q ≤ q0 + k * R ∧ δ ≤ bk q - bk q0) ∨ (A ≤ q ∧ q - A + (E - D) ≤ q0 + k * R ∧ δ ≤ f + 1 - bk q0 + (bk q - s))
  | .two x _ => q0 ≤ x ∧ x ≤ q0 + k * R ∧ δ ≤ bk x - bk q0

theorem Within.next {s f : Int} {bk : Int → Int} (hmono : ∀ a b, a ≤ b → bk a ≤ bk b) (hs : bk A = s) (hlast : ∀ x, x ≤ E + R - 2 → bk x ≤ f)
    {q0 δ : Int} {k : Nat} (hq0 : q0 ≤ E + R - 2) (hD : 1 ≤ D) (hfar : 2 * D + (k + 2) * R ≤ E - A) {ph ph' : Spots} (hw : ph.Wf R A E D)
    (h : Within s f bk R A E D q0 δ k ph) (hn : ph.Next R A E D ph') : Within s f bk R A E D q0 δ (k + 1) ph' := by
  have e1 : ((k + 1 : Nat) : Int) * R = k * R + R := by push_cast; ring
  have e2 : ((k : Int) + 2) * R = k * R + 2 * R := by ring
  rw [e2] at hfar
  cases hn with
  | @on q d d0 d1 hlt =>
    have := hmono q (q + d) (by omega)
    rcases h with ⟨a, b, c⟩ | ⟨a, b, c⟩
    · exact Or.inl ⟨by omega, by rw [e1]; omega, by omega⟩
    · exact Or.inr ⟨by omega, by rw [e1]; omega, by omega⟩
  | @enter q d d0 d1 hge =>
    have := hmono q (q + d) (by omega)
    rcases h with ⟨a, b, c⟩ | ⟨a, b, c⟩
    · exact ⟨by omega, by rw [e1]; omega, by omega⟩
    · exfalso; omega
  | @fade x y d d0 d1 hlt =>
    have := hmono x (x + d) (by omega)
    obtain ⟨a, b, c⟩ := h
    exact ⟨by omega, by rw [e1]; omega, by omega⟩
  | @leave x y d d0 d1 hge =>
    obtain ⟨w0, w1, w2, w3⟩ := hw
    obtain ⟨a, b, c⟩ := h
    have h1 := hmono A (y + d) (by omega)
    have h2 := hlast x (by omega)
    exact Or.inr ⟨by omega, by rw [e1]; omega, by omega⟩

/-- The block a frame begins in. -/
def frameBlk (B H nch q : Int) : Int := (H + q * nch) / B

theorem frameBlk_mono {B : Int} (hB : 0 < B) (hn : 0 ≤ nch) {a b : Int} (h : a ≤ b) : frameBlk B H nch a ≤ frameBlk B H nch b := by
  have := mul_le_mul_of_nonneg_right h hn
  exact Int.ediv_le_ediv hB (by omega)

/-- What is heard lies in the window. -/
theorem Within.reads {B s f : Int} (hB : 0 < B) (hn : 0 < nch) (hR : 1 ≤ R) (hD : 1 ≤ D) (hs : frameBlk B H nch A = s) (hf : frameBlk B H nch E = f)
    (hlast : ∀ i, i < H + (E + R - 1) * nch → i / B ≤ f) {q0 δ K : Int} {k : Nat} (hq0 : q0 ≤ E + R - 2) (hL : 2 * D ≤ E - A) (hK : (D + (k + 1) * R) * nch ≤ K * B) {ph : Spots}
    (hw : ph.Wf R A E D) (h : Within s f (frameBlk B H nch) R A E D q0 δ k ph) {i : Int} (hi : ph.Reads H nch i) :
    (∃ j, δ ≤ j ∧ j ≤ K + 2 ∧ i / B = blk s f (frameBlk B H nch q0) j) ∧ i < H + (E + R - 1) * nch := by
  -- samples from frames
  have mul : ∀ {a b : Int}, a ≤ b → a * nch ≤ b * nch := fun h => mul_le_mul_of_nonneg_right h (le_of_lt hn)
  have hend : ∀ x, x ≤ E + R - 2 → H + x * nch + nch ≤ H + (E + R - 1) * nch := by
    intro x hx
    have := mul (show x + 1 ≤ E + R - 1 by omega)
    rw [add_mul, one_mul] at this; omega
  have hDn : nch ≤ D * nch := by have := mul hD; rw [one_mul] at this; exact this
  have hRn : nch ≤ R * nch := by have := mul hR; rw [one_mul] at this; exact this
  have hK' : D * nch + k * R * nch + R * nch ≤ K * B := by
    have e : (D + (k + 1) * R) * nch = D * nch + k * R * nch + R * nch := by ring
    rw [← e]; exact hK
  have hq0f : frameBlk B H nch q0 ≤ f := hlast _ (by have := hend q0 hq0; omega)
  have nearCase : ∀ q, q0 ≤ q → q ≤ q0 + k * R → q ≤ E + R - 2 → H + q * nch ≤ i → i < H + q * nch + nch → δ ≤ frameBlk B H nch q - frameBlk B H nch q0 →
      (∃ j, δ ≤ j ∧ j ≤ K + 2 ∧ i / B = blk s f (frameBlk B H nch q0) j) ∧ i < H + (E + R - 1) * nch := by
    intro q a1 a2 a3 a4 a5 a6
    have b1 := mul a1
    have b2 := mul a2
    rw [add_mul] at b2
    have b3 := hend q a3
    have hif := hlast i (by omega)
    obtain ⟨c1, c2, c3⟩ := near_block (B := B) (q := H + q0 * nch) (x := i) (K := K) hB (by omega) (by omega) (s := s) hif
    have c4 := Int.ediv_le_ediv hB a4
    unfold frameBlk at a6 ⊢
    exact ⟨⟨_, by omega, by omega, c3⟩, by omega⟩
  have farCase : ∀ q, A ≤ q → q - A + (E - D) ≤ q0 + k * R → q ≤ E + R - 2 → H + q * nch ≤ i → i < H + q * nch + nch → δ ≤ f + 1 - frameBlk B H nch q0 + (frameBlk B H nch q - s) →
      (∃ j, δ ≤ j ∧ j ≤ K + 2 ∧ i / B = blk s f (frameBlk B H nch q0) j) ∧ i < H + (E + R - 1) * nch := by
    intro q a1 a2 a3 a4 a5 a6
    have b1 := mul a1
    have b2 := mul a2
    have b3 := hend q a3
    have e : (q - A + (E - D)) * nch = q * nch - A * nch + (E * nch - D * nch) := by ring
    rw [e, add_mul] at b2
    have hq0' : (H + q0 * nch) / B ≤ (H + E * nch) / B := by unfold frameBlk at hf hq0f; rw [hf]; exact hq0f
    obtain ⟨c1, c2, c3⟩ := far_block (B := B) (s := H + A * nch) (e := H + E * nch) (q := H + q0 * nch) (x := i) (K := K) hB (by omega) (by omega) hq0'
    have c4 := Int.ediv_le_ediv hB a4
    unfold frameBlk at hs hf a6 ⊢
    rw [hs, hf] at c1 c2 c3
    exact ⟨⟨_, by omega, c1, c3⟩, by omega⟩
  cases ph with
  | one q =>
    obtain ⟨w0, w1⟩ := hw
    obtain ⟨i1, i2⟩ := hi
    rcases h with ⟨a, b, c⟩ | ⟨a, b, c⟩
    · exact nearCase q a b (by omega) i1 i2 c
    · exact farCase q a b (by omega) i1 i2 c
  | two x y =>
    obtain ⟨w0, w1, w2, w3⟩ := hw
    obtain ⟨a, b, c⟩ := h
    rcases hi with ⟨i1, i2⟩ | ⟨i1, i2⟩
    · exact nearCase x a b (by omega) i1 i2 c
    · have hx : frameBlk B H nch x ≤ f := hlast _ (by have := hend x (by omega); omega)
      have hy := frameBlk_mono (H := H) (nch := nch) hB (le_of_lt hn) w0
      by_cases hya : y ≤ E + R - 2
      · exact farCase y w0 (by omega) hya i1 i2 (by omega)
      · exfalso; omega

/-- The first head is in the window. -/
theorem Within.front {B s f : Int} (hB : 0 < B) (hn : 0 < nch) (hR : 1 ≤ R) (hD : 1 ≤ D) (hs : frameBlk B H nch A = s) (hf : frameBlk B H nch E = f)
    (hlast : ∀ i, i < H + (E + R - 1) * nch → i / B ≤ f) {q0 K : Int} {k : Nat} (hq0 : q0 ≤ E + R - 2) (hK : (D + (k + 1) * R) * nch ≤ K * B) {ph : Spots}
    (hw : ph.Wf R A E D) (h : Within s f (frameBlk B H nch) R A E D q0 0 k ph) :
    ∃ j, 0 ≤ j ∧ j ≤ K + 2 ∧ frameBlk B H nch ph.front = blk s f (frameBlk B H nch q0) j ∧ Within s f (frameBlk B H nch) R A E D q0 j k ph := by
  have mul : ∀ {a b : Int}, a ≤ b → a * nch ≤ b * nch := fun h => mul_le_mul_of_nonneg_right h (le_of_lt hn)
  have hend : ∀ x, x ≤ E + R - 2 → H + x * nch + nch ≤ H + (E + R - 1) * nch := by
    intro x hx
    have := mul (show x + 1 ≤ E + R - 1 by omega)
    rw [add_mul, one_mul] at this; omega
  have hDn : nch ≤ D * nch := by have := mul hD; rw [one_mul] at this; exact this
  have hRn : nch ≤ R * nch := by have := mul hR; rw [one_mul] at this; exact this
  have hK' : D * nch + k * R * nch + R * nch ≤ K * B := by
    have e : (D + (k + 1) * R) * nch = D * nch + k * R * nch + R * nch := by ring
    rw [← e]; exact hK
  have hq0f : frameBlk B H nch q0 ≤ f := hlast _ (by have := hend q0 hq0; omega)
  have nearCase : ∀ q, q0 ≤ q → q ≤ q0 + k * R → q ≤ E + R - 2 →
      0 ≤ frameBlk B H nch q - frameBlk B H nch q0 ∧ frameBlk B H nch q - frameBlk B H nch q0 ≤ K ∧
      frameBlk B H nch q = blk s f (frameBlk B H nch q0) (frameBlk B H nch q - frameBlk B H nch q0) := by
    intro q a1 a2 a3
    have b1 := mul a1
    have b2 := mul a2
    rw [add_mul] at b2
    have b3 := hend q a3
    have hif := hlast (H + q * nch) (by omega)
    exact near_block (B := B) (q := H + q0 * nch) (x := H + q * nch) (K := K) hB (by omega) (by omega) (s := s) hif
  cases ph with
  | one q =>
    obtain ⟨w0, w1⟩ := hw
    rcases h with ⟨a, b, c⟩ | ⟨a, b, c⟩
    · obtain ⟨c1, c2, c3⟩ := nearCase q a b (by omega)
      exact ⟨_, c1, by omega, c3, Or.inl ⟨a, b, le_refl _⟩⟩
    · have b1 := mul a
      have b2 := mul b
      have e : (q - A + (E - D)) * nch = q * nch - A * nch + (E * nch - D * nch) := by ring
      rw [e, add_mul] at b2
      have hq0' : (H + q0 * nch) / B ≤ (H + E * nch) / B := by unfold frameBlk at hf hq0f; rw [hf]; exact hq0f
      obtain ⟨c1, c2, c3⟩ := far_block (B := B) (s := H + A * nch) (e := H + E * nch) (q := H + q0 * nch) (x := H + q * nch) (K := K) hB (by omega) (by omega) hq0'
      unfold frameBlk at hs hf hq0f
      rw [hs, hf] at c1 c2 c3
      exact ⟨_, by omega, c1, c3, Or.inr ⟨a, b, le_refl _⟩⟩
  | two x y =>
    obtain ⟨w0, w1, w2, w3⟩ := hw
    obtain ⟨a, b, c⟩ := h
    obtain ⟨c1, c2, c3⟩ := nearCase x a b (by omega)
    exact ⟨_, c1, by omega, c3, a, b, le_refl _⟩

theorem Spots.Wf.front_le {ph : Spots} (hR : 1 ≤ R) (hD : 1 ≤ D) (hw : ph.Wf R A E D) : ph.front ≤ E + R - 2 := by
  cases ph with
  | one q => obtain ⟨w0, w1⟩ := hw; show q ≤ _; omega
  | two x y => obtain ⟨w0, w1, w2, w3⟩ := hw; show x ≤ _; omega

theorem Spots.Wf.front_ge {ph : Spots} (hA : 0 ≤ A) (hL : 2 * D ≤ E - A) (hw : ph.Wf R A E D) : 0 ≤ ph.front := by
  cases ph with
  | one q => obtain ⟨w0, w1⟩ := hw; show 0 ≤ q; omega
  | two x y => obtain ⟨w0, w1, w2, w3⟩ := hw; show 0 ≤ x; omega

/-- What a player has asked for, it may ask for. -/
theorem recSrc_asked {P : Int → Prop} {f : Int → Int} {fuel n : Nat} {r : Rd} {o : ReadOut (List Int)} (h : readLoop fp (recSrc P f) fuel n r [] = .ok o) :
    ∀ i ∈ o.s, P i := by
  have hI : SrcInv (recSrc P f) (fun t => ∀ i ∈ t, P i) := by
    intro s i v s' h1 h2
    obtain ⟨a, _, e⟩ := recSrc_get h2
    rw [e]
    intro j hj
    rcases List.mem_append.1 hj with hj | hj
    · exact h1 j hj
    · rw [List.mem_singleton.1 hj]; exact a
  exact readLoop_inv hI (by simp) h

/-! ## Keeping up -/

/-- A cross-faded loop at least as long as the buffers: the window begins where the update before began. -/
structure FadeLong (m : List Nat) (g : Geo) (p : Nat) (R A E D H nch : Int) (r : Rd) (c : Cache) : Prop where
  rd : FadeFwd p R A E D H nch r
  win : ∃ ph q0, ph.Wf R A E D ∧ SpotsOf R A E D H nch r ph ∧ q0 ≤ E + R - 2 ∧
    LWin m g (frameBlk g.B H nch A) (frameBlk g.B H nch E) c (frameBlk g.B H nch q0) ∧
    Within (frameBlk g.B H nch A) (frameBlk g.B H nch E) (frameBlk g.B H nch) R A E D q0 0 128 ph

theorem FadeLong.keepsUp (fp : Fp) (hB : g.B < 16384) (hm : m.length < 2 ^ 31) (n : FadeNum R A E D H nch) {K : Int} (hK : K + 3 ≤ g.N)
    (hadv : (D + 256 * R) * nch ≤ K * g.B) (hfar : 2 * D + 257 * R ≤ E - A) (hE : 2 * (H + (E + R - 1) * nch) ≤ m.length)
    (hlast : ∀ i, i < H + (E + R - 1) * nch → i / g.B ≤ frameBlk g.B H nch E)
    {fuel : Nat} (hf : g.N ≤ fuel + 1) : KeepsUpT fp m g (fuel + 1) (FadeLong m g p R A E D H nch) := by
  intro r c h
  obtain ⟨hr, ph, q0, hw, ho, hq0, hwin, hin⟩ := h
  have hB0 : (0 : Int) < g.B := by exact_mod_cast g.B_pos
  have hD2 : D ≤ 2 ^ 31 := by
    have f := frame_fits n.H0 (le_of_lt n.n0) (show 0 ≤ D by have := n.D1; omega) (show D ≤ E + 3 * R by have := n.A0; have := n.R1; have := n.long; have := n.D1; omega) n.fits
    have hH := n.H0
    have : D ≤ D * nch := le_mul_of_one_le_right (by have := n.D1; omega) (by have := n.n0; omega)
    omega
  have hA := n.A0
  have hR := n.R1
  have hD := n.D1
  have hn := n.n0
  have hH := n.H0
  have hmono : ∀ a b, a ≤ b → frameBlk g.B H nch a ≤ frameBlk g.B H nch b := fun a b h => frameBlk_mono hB0 (le_of_lt hn) h
  have hlastb : ∀ x, x ≤ E + R - 2 → frameBlk g.B H nch x ≤ frameBlk g.B H nch E := by
    intro x hx
    refine hlast _ ?_
    have := mul_le_mul_of_nonneg_right (show x + 1 ≤ E + R - 1 by omega) (le_of_lt hn)
    rw [add_mul, one_mul] at this; omega
  have hKk : ∀ k : Nat, k < 256 → (D + ((k : Int) + 1) * R) * nch ≤ K * g.B := by
    intro k hk
    refine le_trans (mul_le_mul_of_nonneg_right ?_ (le_of_lt hn)) hadv
    have := mul_le_mul_of_nonneg_right (show (k : Int) + 1 ≤ 256 by omega) (show 0 ≤ R by omega)
    omega
  have hfk : ∀ k : Nat, k < 256 → 2 * D + ((k : Int) + 2) * R ≤ E - A := by
    intro k hk
    have := mul_le_mul_of_nonneg_right (show (k : Int) + 2 ≤ 257 by omega) (show 0 ≤ R by omega)
    omega
  obtain ⟨j, j0, j1, jb, jw⟩ := hin.front hB0 hn hR hD rfl rfl hlast hq0 (hKk 128 (by norm_num)) hw
  have hfr := hw.front_le hR hD
  -- the invariant of this update
  obtain ⟨Inv, hInv⟩ : ∃ Inv : Nat → Spots → Prop, Inv = fun k ph' =>
      Within (frameBlk g.B H nch A) (frameBlk g.B H nch E) (frameBlk g.B H nch) R A E D q0 j (128 + k) ph' ∧
      Within (frameBlk g.B H nch A) (frameBlk g.B H nch E) (frameBlk g.B H nch) R A E D ph.front 0 k ph' := ⟨_, rfl⟩
  have hstep : ∀ k ph1 ph2, k < blockSamples → ph1.Wf R A E D → Inv k ph1 → ph1.Next R A E D ph2 → Inv (k + 1) ph2 := by
    intro k ph1 ph2 hk w i nx
    have hk' : k < 128 := hk
    rw [hInv] at i ⊢
    exact ⟨i.1.next hmono rfl hlastb hq0 hD (by have := hfk (128 + k) (by omega); push_cast at this ⊢; exact this) w nx,
      i.2.next hmono rfl hlastb hfr hD (hfk k (by omega)) w nx⟩
  have hzero : Inv 0 ph := by
    rw [hInv]
    refine ⟨jw, ?_⟩
    cases ph with
    | one q => exact Or.inl ⟨le_refl _, by simp [Spots.front], by simp [Spots.front]⟩
    | two x y => exact ⟨le_refl _, by simp [Spots.front], by simp [Spots.front]⟩
  obtain ⟨P, hPd⟩ : ∃ P : Int → Prop, P = fun i => InFile m i ∧ ∃ l : Int, ((j.toNat : Nat) : Int) ≤ l ∧ l < g.N ∧
      i / g.B = blk (frameBlk g.B H nch A) (frameBlk g.B H nch E) (frameBlk g.B H nch q0) l := ⟨_, rfl⟩
  have hP : ∀ k ph1 i, k < blockSamples → ph1.Wf R A E D → Inv k ph1 → ph1.Reads H nch i → P i := by
    intro k ph1 i hk w iv hi
    have hk' : k < 128 := hk
    rw [hInv] at iv
    obtain ⟨⟨l, l1, l2, l3⟩, l4⟩ := iv.1.reads hB0 hn hR hD rfl rfl hlast hq0 (by omega) (by have := hKk (128 + k) (by omega); push_cast at this ⊢; exact this) w hi
    rw [hPd]
    refine ⟨⟨?_, by omega⟩, l, by omega, by omega, l3⟩
    have pos : ∀ q : Int, 0 ≤ q → H + q * nch ≤ i → 0 ≤ i := by
      intro q h1 h2
      have := mul_nonneg h1 (le_of_lt hn); omega
    cases ph1 with
    | one q => exact pos q w.1 hi.1
    | two x y =>
      obtain ⟨w0, w1, w2, w3⟩ := w
      rcases hi with hi | hi
      · exact pos x (by omega) hi.1
      · exact pos y (by omega) hi.1
  have hmax : (frameBlk g.B H nch E + 1) * g.B ≤ 2147483647 := by
    have h1 : frameBlk g.B H nch E * g.B ≤ H + E * nch := Int.ediv_mul_le _ (ne_of_gt hB0)
    have h2 : E * nch ≤ (E + R - 1) * nch := mul_le_mul_of_nonneg_right (by omega) (le_of_lt hn)
    rw [add_mul, one_mul]
    omega
  refine ⟨hwin.reached, P, fun i hi => ?_, fun f hfv => ?_⟩
  · rw [hPd] at hi
    obtain ⟨hif, l, l1, l2, l3⟩ := hi
    exact ⟨hif, ((hwin.round (is := [i]) (δ := l.toNat) hB (by omega) hmax (fun i' hi' => by
      rw [List.mem_singleton.1 hi']
      exact ⟨hif, l, by omega, l2, l3⟩) ⟨i, by simp, by rw [l3, Int.toNat_of_nonneg (by omega)]⟩).1 i (by simp))⟩
  · obtain ⟨fs, r', ph', ext, e1, e2, e3, e4, e5, e6, e7, e8, e9⟩ := SpotsOf.run (P := P) (f := f) fp n hD2 hfv hstep hP fuel blockSamples 0 r ph [] (by omega) hr hw ho hzero
    rw [List.nil_append] at e1 e9
    have hext : ∀ i ∈ ext, P i := recSrc_asked e1
    obtain ⟨_, c2⟩ := hwin.round (is := ext) (δ := j.toNat) hB (by omega) hmax (fun i hi => by have := hext i hi; rw [hPd] at this; exact this)
      ⟨_, e9 (by decide), by rw [Int.toNat_of_nonneg j0]; exact jb⟩
    obtain ⟨c', c3, c4⟩ := c2 (fuel + 1) (fp.f.rnd r'.rate) hf (fp.f.nonneg (le_of_lt e3.rate0))
    rw [Int.toNat_of_nonneg j0, ← jb] at c4
    rw [hInv] at e8
    refine ⟨fs, r', ext, c', e1, e2, e4, hext, c3, e3, ph', ph.front, e6, e7, hfr, c4, ?_⟩
    have := e8.2
    rwa [Nat.zero_add] at this

/-- A cross-faded loop that fits into the buffers. -/
structure FadeShort (m : List Nat) (g : Geo) (p : Nat) (R A E D H nch : Int) (r : Rd) (c : Cache) : Prop where
  rd : FadeFwd p R A E D H nch r
  spots : ∃ ph, ph.Wf R A E D ∧ SpotsOf R A E D H nch r ph ∧ frameBlk g.B H nch A ≤ frameBlk g.B H nch ph.front
  win : ∃ w, LWin m g (frameBlk g.B H nch A) (frameBlk g.B H nch A + g.N - 1) c w ∧ frameBlk g.B H nch A ≤ w

theorem FadeShort.keepsUp (fp : Fp) (hB : g.B < 16384) (hNB : g.N * g.B ≤ 2 ^ 30) (hm : m.length < 2 ^ 31) (n : FadeNum R A E D H nch)
    (hE : 2 * (H + (E + R - 1) * nch) ≤ m.length)
    (hlast : ∀ i, i < H + (E + R - 1) * nch → i / g.B ≤ frameBlk g.B H nch A + g.N - 1)
    {fuel : Nat} (hf : g.N ≤ fuel + 1) : KeepsUpT fp m g (fuel + 1) (FadeShort m g p R A E D H nch) := by
  intro r c h
  obtain ⟨hr, ⟨ph, hw, ho, hlo⟩, w, hwin, hsw⟩ := h
  have hB0 : (0 : Int) < g.B := by exact_mod_cast g.B_pos
  have hNB' : (g.N : Int) * g.B ≤ 2 ^ 30 := by exact_mod_cast hNB
  have hD2 : D ≤ 2 ^ 31 := by
    have f := frame_fits n.H0 (le_of_lt n.n0) (show 0 ≤ D by have := n.D1; omega) (show D ≤ E + 3 * R by have := n.A0; have := n.R1; have := n.long; have := n.D1; omega) n.fits
    have hH := n.H0
    have : D ≤ D * nch := le_mul_of_one_le_right (by have := n.D1; omega) (by have := n.n0; omega)
    omega
  have hA := n.A0
  have hR := n.R1
  have hD := n.D1
  have hn := n.n0
  have hH := n.H0
  have hL := n.long
  have hwf := hwin.conf.wf
  have hs0 := hwin.conf.s0
  have mul : ∀ {a b : Int}, a ≤ b → a * nch ≤ b * nch := fun h => mul_le_mul_of_nonneg_right h (le_of_lt hn)
  have hmono : ∀ {a b : Int}, a ≤ b → frameBlk g.B H nch a ≤ frameBlk g.B H nch b := fun h => frameBlk_mono hB0 (le_of_lt hn) h
  -- the invariant of this update
  have hstep : ∀ (k : Nat) (ph1 ph2 : Spots), k < blockSamples → ph1.Wf R A E D → frameBlk g.B H nch A ≤ frameBlk g.B H nch ph1.front → ph1.Next R A E D ph2 →
      frameBlk g.B H nch A ≤ frameBlk g.B H nch ph2.front := by
    intro k ph1 ph2 _ w i nx
    cases nx with
    | @on q d d0 d1 hlt => exact le_trans i (hmono (show q ≤ q + d by omega))
    | @enter q d d0 d1 hge => exact le_trans i (hmono (show q ≤ q + d by omega))
    | @fade x y d d0 d1 hlt => exact le_trans i (hmono (show x ≤ x + d by omega))
    | @leave x y d d0 d1 hge => exact hmono (show A ≤ y + d by have := w.1; omega)
  obtain ⟨P, hPd⟩ : ∃ P : Int → Prop, P = fun i => InFile m i ∧ frameBlk g.B H nch A ≤ i / g.B ∧ i / g.B ≤ frameBlk g.B H nch A + g.N - 1 := ⟨_, rfl⟩
  have hP : ∀ (k : Nat) (ph1 : Spots) (i : Int), k < blockSamples → ph1.Wf R A E D → frameBlk g.B H nch A ≤ frameBlk g.B H nch ph1.front → ph1.Reads H nch i → P i := by
    intro k ph1 i _ w iv hi
    have key : ∀ q : Int, 0 ≤ q → q ≤ E + R - 2 → frameBlk g.B H nch A ≤ frameBlk g.B H nch q → H + q * nch ≤ i → i < H + q * nch + nch → P i := by
      intro q q0 q1 q2 q3 q4
      have e1 := mul (show q + 1 ≤ E + R - 1 by omega)
      rw [add_mul, one_mul] at e1
      have e2 := mul_nonneg q0 (le_of_lt hn)
      rw [hPd]
      refine ⟨⟨by omega, by omega⟩, le_trans q2 (Int.ediv_le_ediv hB0 q3), hlast i (by omega)⟩
    cases ph1 with
    | one q => exact key q w.1 (by have := w.2; omega) iv hi.1 hi.2
    | two x y =>
      obtain ⟨w0, w1, w2, w3⟩ := w
      rcases hi with hi | hi
      · exact key x (by omega) (by omega) iv hi.1 hi.2
      · exact key y (by omega) (by omega) (hmono w0) hi.1 hi.2
  have hd : ∀ x, frameBlk g.B H nch A ≤ x → x ≤ frameBlk g.B H nch A + g.N - 1 →
      0 ≤ dist (frameBlk g.B H nch A) (frameBlk g.B H nch A + g.N - 1) w x ∧ dist (frameBlk g.B H nch A) (frameBlk g.B H nch A + g.N - 1) w x < g.N ∧
      x = blk (frameBlk g.B H nch A) (frameBlk g.B H nch A + g.N - 1) w (dist (frameBlk g.B H nch A) (frameBlk g.B H nch A + g.N - 1) w x) := by
    intro x h1 h2
    unfold dist blk
    split <;> split <;> omega
  have hmax : (frameBlk g.B H nch A + g.N - 1 + 1) * g.B ≤ 2147483647 := by
    have h1 : frameBlk g.B H nch A * g.B ≤ H + A * nch := Int.ediv_mul_le _ (ne_of_gt hB0)
    have h2 := mul (show A ≤ E + R - 1 by omega)
    rw [show frameBlk g.B H nch A + (g.N : Int) - 1 + 1 = frameBlk g.B H nch A + g.N by ring, add_mul]
    omega
  refine ⟨hwin.reached, P, fun i hi => ?_, fun f hfv => ?_⟩
  · rw [hPd] at hi
    obtain ⟨hif, l1, l2⟩ := hi
    obtain ⟨y1, y2, y3⟩ := hd _ l1 l2
    refine ⟨hif, ((hwin.round (is := [i]) (δ := (dist (frameBlk g.B H nch A) (frameBlk g.B H nch A + g.N - 1) w (i / g.B)).toNat) hB (by omega) hmax (fun i' hi' => by
      rw [List.mem_singleton.1 hi']
      exact ⟨hif, _, by omega, y2, y3⟩) ⟨i, by simp, by rw [Int.toNat_of_nonneg y1]; exact y3⟩).1 i (by simp))⟩
  · obtain ⟨fs, r', ph', ext, e1, e2, e3, e4, e5, e6, e7, e8, e9⟩ := SpotsOf.run (P := P) (f := f) (Inv := fun _ ph => frameBlk g.B H nch A ≤ frameBlk g.B H nch ph.front)
      fp n hD2 hfv hstep hP fuel blockSamples 0 r ph [] (by omega) hr hw ho hlo
    rw [List.nil_append] at e1 e9
    have hext : ∀ i ∈ ext, P i := recSrc_asked e1
    obtain ⟨i0, hi0, hmin⟩ := exists_min (fun i => dist (frameBlk g.B H nch A) (frameBlk g.B H nch A + g.N - 1) w (i / g.B)) ext
      (List.ne_nil_of_mem (e9 (by decide)))
    have hpi : ∀ i ∈ ext, InFile m i ∧ frameBlk g.B H nch A ≤ i / g.B ∧ i / g.B ≤ frameBlk g.B H nch A + g.N - 1 := fun i hi => by
      have := hext i hi; rw [hPd] at this; exact this
    obtain ⟨x1, x2, x3⟩ := hpi i0 hi0
    obtain ⟨y1, y2, y3⟩ := hd _ x2 x3
    obtain ⟨_, c2⟩ := hwin.round (is := ext) (δ := (dist (frameBlk g.B H nch A) (frameBlk g.B H nch A + g.N - 1) w (i0 / g.B)).toNat) hB (by omega) hmax
      (fun i hi => by
        obtain ⟨z1, z2, z3⟩ := hpi i hi
        obtain ⟨u1, u2, u3⟩ := hd _ z2 z3
        have := hmin i hi
        exact ⟨z1, _, by omega, u2, u3⟩)
      ⟨i0, hi0, by rw [Int.toNat_of_nonneg y1]; exact y3⟩
    obtain ⟨c', c3, c4⟩ := c2 (fuel + 1) (fp.f.rnd r'.rate) hf (fp.f.nonneg (le_of_lt e3.rate0))
    rw [Int.toNat_of_nonneg y1, ← y3] at c4
    exact ⟨fs, r', ext, c', e1, e2, e4, hext, c3, e3, ⟨ph', e6, e7, e8⟩, _, c4, x2⟩

/-! ## Starting -/

/-- What `play(filename)` leaves behind when it succeeds, for a cross-faded loop. -/
theorem playFinish_fade (hm : m.length < 2 ^ 31) {r : Rd} {f : Dev} (hf : f.bytes = m) (hsz : r.fileSize = m.length)
    (hH : 0 ≤ r.header) (hn : 0 < r.nch) (hd : r.dual = true) (hi : r.interp = .none)
    (hl : r.loopType = .repeat) {R : Int} (h0 : 0 < r.rate) (hR : r.rate ≤ R) (hgrid : GridRate p r.rate) (hrem : OnGrid p r.rem) (hfrac : |r.rem| < 1)
    (hA : 0 ≤ r.loopStart) (hAZ : r.loopStart < r.loopFinish) (hE : 2 * (r.header + r.loopFinish * r.nch) ≤ m.length)
    (hs0 : 0 ≤ firstFrame r) (hs1 : firstFrame r < r.loopFinish) :
    ∃ (a : FileReader) (c : Cache), playFinish g r f = .ok (true, a) ∧ a.rd.playing = true ∧ FadeFwd p R r.loopStart r.loopFinish r.cfDur r.header r.nch a.rd ∧
      a.rd.cfOn = false ∧ a.rd.pos1 = r.header + firstFrame r * r.nch ∧ a.rd.rate = r.rate ∧ a.rd.rem = r.rem ∧ a.src = some (c.preLoad g a.rd.pos1 true) ∧
      c.dev.bytes = m ∧ c.bufs = [] ∧ c.fails = 0 ∧ c.loopType = .repeat ∧ c.loopStartBlk = (r.header + r.loopStart * r.nch) / g.B ∧
      c.loopFinishBlk = (r.header + r.loopFinish * r.nch) / g.B := by
  have hB0 : (0 : Int) < g.B := by exact_mod_cast g.B_pos
  have hle : ∀ x, x ≤ r.loopFinish → x * r.nch ≤ r.loopFinish * r.nch := fun x hx => mul_le_mul_of_nonneg_right hx (le_of_lt hn)
  have hge : ∀ x, 0 ≤ x → 0 ≤ x * r.nch := fun x hx => mul_nonneg hx (le_of_lt hn)
  have hone : r.loopFinish ≤ r.loopFinish * r.nch := le_mul_of_one_le_right (by omega) (by omega)
  have hZ1 : (0 + 1) * r.nch ≤ r.loopFinish * r.nch := hle _ (by omega)
  unfold playFinish
  rw [hsz, if_neg (by unfold u32; omega), if_neg (by omega)]
  simp only [hl, reduceCtorEq, if_false]
  set rd0 : Rd := { r with fileSize := m.length, loopType := .repeat, fileSamples := r.fileSamples.tdiv r.nch, loopStart := i32 r.loopStart, loopFinish := i32 r.loopFinish } with hrd0
  have hA32 : i32 r.loopStart = r.loopStart := i32_of_in ⟨by omega, by omega⟩
  have hZ32 : i32 r.loopFinish = r.loopFinish := i32_of_in ⟨by omega, by omega⟩
  have hpos : ∀ x, 0 ≤ x → x ≤ r.loopFinish → i32 (rd0.s2s x) = r.header + x * r.nch := by
    intro x h1 h2
    have := hle x h2
    have := hge x h1
    have e : rd0.posOf x = rd0.header + x * rd0.nch := posOf_eq ⟨by show -2147483648 ≤ r.header + x * r.nch; omega, by show r.header + x * r.nch ≤ 2147483647; omega⟩
    exact e
  have hp : rd0.reset.pos1 = r.header + firstFrame r * r.nch := by
    unfold Rd.reset
    have h0' : rd0.rate ≥ 0 := le_of_lt h0
    simp only [h0', if_true]
    have e1 : rd0.loopStart = r.loopStart := hA32
    have key : ∀ y, y = firstFrame r → Rd.posOf { rd0 with pts := fun c => if c < 8 then { rd0.pts c with n := 0 } else rd0.pts c } y =
        r.header + firstFrame r * r.nch := by
      rintro y rfl
      exact hpos _ hs0 (le_of_lt hs1)
    have e2 : rd0.playStart = r.playStart := rfl
    unfold firstFrame at key ⊢
    rw [e2, e1]
    cases hps : r.playStart <;> simp only [hps] at key ⊢ <;> exact key _ rfl
  have hr0 : rd0.reset.rate ≥ 0 := le_of_lt h0
  refine ⟨⟨{ rd0.reset with playing := true }, some (Cache.preLoad g { dev := f, loopType := .repeat, loopStartBlk := i32 (rd0.s2s (i32 r.loopStart)) / g.B, loopFinishBlk := i32 (rd0.s2s (i32 r.loopFinish)) / g.B } rd0.reset.pos1 true)⟩,
    { dev := f, loopType := .repeat, loopStartBlk := i32 (rd0.s2s (i32 r.loopStart)) / g.B, loopFinishBlk := i32 (rd0.s2s (i32 r.loopFinish)) / g.B }, ?_, rfl, ?_, rfl, hp, rfl, rfl, rfl, hf, rfl, rfl, rfl, ?_, ?_⟩
  · have e : true = (decide (rd0.reset.rate ≥ 0)) := by rw [decide_eq_true hr0]
    rw [e]; rfl
  · exact ⟨hd, hi, rfl, rfl, rfl, hA32, hZ32, rfl, h0, hR, hgrid, hrem, hfrac⟩
  · simp only; rw [hA32, hpos _ hA (by omega)]
  · simp only; rw [hZ32, hpos _ (by omega) (le_refl _)]

end TVP
