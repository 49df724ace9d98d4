import Verif.Model.Seeks
import Verif.Spec.Seeks
import Verif.Lemmas.Faulty

/-!
# Where the file is read
-/

namespace TVP
open Spec

variable {m : List Nat} {g : Geo} {fp : Fp}

theorem inOrder_succ (s k n : Nat) : inOrder s k (n + 1) = s * k :: inOrder s (k + 1) n := by
  unfold inOrder
  rw [List.range_succ_eq_map, List.map_cons, List.map_map]
  congr 1
  refine List.map_congr_left fun j _ => ?_
  simp only [Function.comp, Nat.succ_eq_add_one]
  congr 1; omega

theorem inOrder_append (s k n1 n2 : Nat) : inOrder s k (n1 + n2) = inOrder s k n1 ++ inOrder s (k + n1) n2 := by
  unfold inOrder
  rw [List.range_add, List.map_append, List.map_map]
  congr 1
  refine List.map_congr_left fun j _ => ?_
  simp only [Function.comp]
  congr 1; omega

theorem inOrder_length (s k n : Nat) : (inOrder s k n).length = n := by unfold inOrder; simp

/-- The highest block number. -/
def TopIs (bs : List Buf) (T : Nat) : Prop := (∃ b ∈ bs, b.index = T) ∧ ∀ b ∈ bs, b.index ≤ T

theorem TopIs.max {b : Buf} {rest : List Buf} {T : Nat} (h : TopIs (b :: rest) T) : maxIndex b (b :: rest) = T := by
  obtain ⟨⟨x, hx, hxT⟩, hle⟩ := h
  have h1 := (maxIndex_ge (b :: rest) b).2 x hx
  have h2 := maxIndex_le (X := T) (b :: rest) b (hle b List.mem_cons_self) hle
  omega

theorem TopIs.of_index {bs bs' : List Buf} {T : Nat} (h : TopIs bs T) (e : bs'.map Buf.index = bs.map Buf.index) : TopIs bs' T := by
  have key : ∀ {l l' : List Buf}, l'.map Buf.index = l.map Buf.index → ∀ b ∈ l, ∃ b' ∈ l', b'.index = b.index := by
    intro l l' e b hb
    have : b.index ∈ l'.map Buf.index := by rw [e]; exact List.mem_map_of_mem hb
    exact List.mem_map.1 this
  obtain ⟨⟨x, hx, hxT⟩, hle⟩ := h
  refine ⟨?_, fun b hb => ?_⟩
  · obtain ⟨x', h1, h2⟩ := key e x hx
    exact ⟨x', h1, by rw [h2, hxT]⟩
  · obtain ⟨b', h1, h2⟩ := key e.symm b hb
    rw [← h2]; exact hle b' h1

/-- Where block `k` is read. -/
theorem seekAt_block {k : Nat} (hk : (k : Int) * g.B ≤ 2147483647) : seekAt g (i32 (i32 k * g.B)) = 2 * g.B * k := by
  have hB0 : (0 : Int) < g.B := by exact_mod_cast g.B_pos
  have h1 : (k : Int) ≤ k * g.B := le_mul_of_one_le_right (Int.natCast_nonneg _) hB0
  have h0 : (0 : Int) ≤ k * g.B := by positivity
  unfold seekAt
  rw [i32_of_in (x := (k : Int)) ⟨by omega, by omega⟩, i32_of_in (x := (k : Int) * g.B) ⟨by omega, by omega⟩, Int.mul_emod_left, sub_zero,
    u32_of_in (x := (k : Int) * g.B) ⟨by omega, by omega⟩, u32_of_in ⟨by omega, by omega⟩]
  have : (2 * ((k : Int) * g.B)) = ((2 * g.B * k : Nat) : Int) := by push_cast; ring
  rw [this, Int.toNat_natCast]

/-! ## Forward reloads -/

theorem reloadSeeks_succ {c : Cache} {b : Buf} {rest : List Buf} {rate : ℚ} (hl : c.loopType = .none) (hr : 0 ≤ rate) (hc : c.bufs = b :: rest) (hs : b.status = .unused)
    (fuel : Nat) (rs : List ReadResult) :
    reloadSeeks g rate (fuel + 1) c rs = seekAt g (i32 (i32 (maxIndex b c.bufs + 1) * g.B)) ::
      reloadSeeks g rate fuel { c with bufs := rest ++ [(loadBufferF g c.dev b (i32 (i32 (maxIndex b c.bufs + 1) * g.B)) (rs.headD .all)).1], dev := (loadBufferF g c.dev b (i32 (i32 (maxIndex b c.bufs + 1) * g.B)) (rs.headD .all)).2.1 } rs.tail := by
  rw [reloadSeeks]
  split
  · rename_i h; rw [hc] at h; cases h
  · rename_i b' rest' h
    rw [hc] at h
    cases h
    rw [if_pos hs, reloadDecide_fwd hl hr]
    simp only [reloadLoadF, reloadReorder]
    rw [if_neg (by decide)]
    rfl

theorem reloadSeeks_done {c : Cache} {rate : ℚ} (fuel : Nat) (rs : List ReadResult) (h : ∀ b rest, c.bufs = b :: rest → b.status ≠ .unused) :
    reloadSeeks g rate fuel c rs = [] := by
  cases fuel with
  | zero => rfl
  | succ fuel =>
    unfold reloadSeeks
    split
    · rfl
    · rename_i b rest hc; rw [if_neg (h b rest hc)]

theorem reloadLoopF_seeks {rate : ℚ} (hr : 0 ≤ rate) : ∀ (fuel : Nat) (c : Cache) (rs : List ReadResult) (T : Nat), c.loopType = .none → unusedIn c.bufs ≤ fuel →
    ((T : Int) * g.B ≤ 2147483647 → TopIs c.bufs T) →
    ∃ x S, reloadLoopF g rate fuel c rs = .ok x ∧ reloadSeeks g rate fuel c rs = S ∧ x.2 = rs.drop S.length ∧ S.length ≤ unusedIn c.bufs ∧
      ((((T + S.length : Nat) : Int)) * g.B ≤ 2147483647 → TopIs x.1.bufs (T + S.length) ∧ S = inOrder (2 * g.B) (T + 1) S.length) := by
  have hB0 : (0 : Int) < g.B := by exact_mod_cast g.B_pos
  intro fuel
  induction fuel with
  | zero =>
    intro c rs T hl hu hT
    have hd : ∀ b rest, c.bufs = b :: rest → b.status ≠ .unused := fun b rest hc hs => by
      rw [hc] at hu
      unfold unusedIn at hu
      rw [List.filter_cons_of_pos (by simpa using hs)] at hu
      simp at hu
    exact ⟨(c, rs), [], reloadLoopF_done 0 rs hd, rfl, rfl, Nat.zero_le _, fun hfit => ⟨hT hfit, rfl⟩⟩
  | succ fuel ih =>
    intro c rs T hl hu hT
    rcases hc : c.bufs with _ | ⟨b, rest⟩
    · have hd : ∀ b rest, c.bufs = b :: rest → b.status ≠ .unused := fun b rest h => by rw [hc] at h; cases h
      exact ⟨(c, rs), [], reloadLoopF_done _ rs hd, reloadSeeks_done _ rs hd, rfl, Nat.zero_le _, fun hfit => ⟨hT hfit, rfl⟩⟩
    · by_cases hs : b.status = .unused
      · rw [reloadLoopF_succ hl hr hc hs, reloadSeeks_succ hl hr hc hs]
        have hun : unusedIn c.bufs = unusedIn rest + 1 := by
          rw [hc]; unfold unusedIn; rw [List.filter_cons_of_pos (by simpa using hs)]; simp
        have hun2 : ∀ nb : Buf, nb.status = .loaded → unusedIn (rest ++ [nb]) = unusedIn rest := by
          intro nb h
          unfold unusedIn
          rw [List.filter_append, List.filter_cons_of_neg (by rw [h]; decide)]
          simp
        obtain ⟨K, hK⟩ : ∃ K, K = maxIndex b c.bufs := ⟨_, rfl⟩
        rw [← hK]
        obtain ⟨nb, hnb⟩ : ∃ nb, nb = loadBufferF g c.dev b (i32 (i32 (K + 1) * g.B)) (rs.headD .all) := ⟨_, rfl⟩
        have hns : nb.1.status = .loaded := by rw [hnb]; exact loadBufferF_status _ _ _ _ _
        have hni : nb.1.index = u32 (i32 (i32 (K + 1) * g.B) / g.B) := by rw [hnb]; exact loadBufferF_index _ _ _ _ _
        rw [← hnb]
        have hTn : (((T + 1 : Nat) : Int)) * g.B ≤ 2147483647 → K = T ∧ TopIs (rest ++ [nb.1]) (T + 1) := by
          intro hfit
          have hfit0 : (T : Int) * g.B ≤ 2147483647 := le_trans (mul_le_mul_of_nonneg_right (by push_cast; omega) (le_of_lt hB0)) hfit
          have ht := hT hfit0
          rw [hc] at ht
          have hKT : K = T := by rw [hK, hc]; exact ht.max
          have hni' : nb.1.index = ((T + 1 : Nat) : Int) := by
            rw [hni, hKT]
            have := block_number (g := g) (k := ((T + 1 : Nat) : Int)) (Int.natCast_nonneg _) hfit
            push_cast at this ⊢
            exact this
          refine ⟨hKT, ⟨nb.1, by simp, hni'⟩, fun x hx => ?_⟩
          rcases List.mem_append.1 hx with hx | hx
          · have := ht.2 x (List.mem_cons_of_mem _ hx); push_cast; omega
          · rw [List.mem_singleton.1 hx, hni']
        obtain ⟨x, S, e1, e2, e3, e4, e5⟩ := ih { c with bufs := rest ++ [nb.1], dev := nb.2.1 } rs.tail (T + 1) hl (by simp only; rw [hun2 _ hns]; omega) (fun h => (hTn h).2)
        refine ⟨x, seekAt g (i32 (i32 (K + 1) * g.B)) :: S, e1, by rw [e2], by rw [e3, List.length_cons, List.drop_tail], ?_, fun hfit => ?_⟩
        · rw [← hc, hun]
          simp only [List.length_cons] at e4 ⊢
          rw [hun2 _ hns] at e4
          omega
        · rw [List.length_cons] at hfit ⊢
          have hfit' : (((T + 1 + S.length : Nat) : Int)) * g.B ≤ 2147483647 := by
            rw [show T + 1 + S.length = T + (S.length + 1) by omega]; exact hfit
          have hfit1 : (((T + 1 : Nat) : Int)) * g.B ≤ 2147483647 := le_trans (mul_le_mul_of_nonneg_right (by push_cast; omega) (le_of_lt hB0)) hfit'
          obtain ⟨k1, k2⟩ := e5 hfit'
          obtain ⟨hKT, _⟩ := hTn hfit1
          refine ⟨by rw [show T + (S.length + 1) = T + 1 + S.length by omega]; exact k1, ?_⟩
          rw [inOrder_succ, ← k2]
          congr 1
          have := seekAt_block (g := g) (k := T + 1) hfit1
          rw [hKT]
          push_cast at this
          exact this
      · have hd : ∀ b rest, c.bufs = b :: rest → b.status ≠ .unused := fun b' rest' h => by rw [hc] at h; cases h; exact hs
        exact ⟨(c, rs), [], reloadLoopF_done _ rs hd, reloadSeeks_done _ rs hd, rfl, Nat.zero_le _, fun hfit => ⟨hT hfit, rfl⟩⟩

theorem triggerReloadF_seeks {c : Cache} {rate : ℚ} (hr : 0 ≤ rate) (hl : c.loopType = .none) {fuel : Nat} (hf : c.bufs.length ≤ fuel) (rs : List ReadResult) {T : Nat}
    (hT : (T : Int) * g.B ≤ 2147483647 → TopIs c.bufs T) :
    ∃ x S, c.triggerReloadF g fuel rate rs = .ok x ∧ reloadSeeks g (reloadRate c rate) fuel c rs = S ∧ x.2 = rs.drop S.length ∧ S.length ≤ c.bufs.length ∧
      x.1.loopType = .none ∧ x.1.bufs.length = c.bufs.length ∧
      ((((T + S.length : Nat) : Int)) * g.B ≤ 2147483647 → TopIs x.1.bufs (T + S.length) ∧ S = inOrder (2 * g.B) (T + 1) S.length) := by
  have hrr : reloadRate c rate = rate := by unfold reloadRate; rw [hl]; rw [if_neg (fun h => nomatch h.1)]
  obtain ⟨x, S, e1, e2, e3, e4, e5⟩ := reloadLoopF_seeks (g := g) hr fuel c rs T hl (le_trans (unusedIn_le _) hf) hT
  obtain ⟨y, k1, k2, k3⟩ := triggerReloadF_ends (g := g) hr hl hf rs
  have hyx : y.2 = x.2 ∧ y.1.bufs = x.1.resetStatus.bufs := by
    unfold Cache.triggerReloadF at k1
    rw [hrr, e1] at k1
    simp only [ok_bind, pure_eq_ok] at k1
    injection k1 with k1
    rw [← k1]
    refine ⟨rfl, ?_⟩
    simp only
    split <;> rfl
  rw [hrr]
  refine ⟨y, S, k1, e2, by rw [hyx.1, e3], le_trans e4 (unusedIn_le _), k2, k3, fun hfit => ?_⟩
  obtain ⟨q1, q2⟩ := e5 hfit
  refine ⟨?_, q2⟩
  rw [hyx.2]
  refine q1.of_index ?_
  unfold Cache.resetStatus
  rw [List.map_map]; rfl

/-! ## Loading the first buffers -/

theorem preLoadLoopF_seeks : ∀ (left : Nat) (c : Cache) (i : Int) (rs : List ReadResult) (k : Nat), 0 ≤ i → i + left * g.B ≤ 2147483647 → i / g.B = k → 1 ≤ left →
    (∀ b ∈ c.bufs, b.index ≤ k) →
    ∃ S, preLoadSeeks g 0 true left c.bufs.length c i rs = S ∧ 1 ≤ S.length ∧ S.length ≤ left ∧ S = inOrder (2 * g.B) k S.length ∧
      (preLoadLoopF g 0 true left c.bufs.length c i rs).2 = rs.drop S.length ∧ TopIs (preLoadLoopF g 0 true left c.bufs.length c i rs).1.bufs (k + S.length - 1)
  | 0, _, _, _, _, _, _, _, hl, _ => by omega
  | left + 1, c, i, rs, k, h0, hfit, hk, _, hle => by
    have hB0 : (0 : Int) < g.B := by exact_mod_cast g.B_pos
    push_cast at hfit
    have hq2 : i / g.B ≤ i := Int.ediv_le_self _ h0
    have hl0 : (0 : Int) ≤ left * g.B := by positivity
    have hfit' : i + g.B + left * g.B ≤ 2147483647 := by linarith
    have hu : u32 (i / g.B) = k := by rw [hk]; exact u32_of_in ⟨by omega, by omega⟩
    have hi : i32 (i + g.B) = i + g.B := i32_of_in ⟨by omega, by omega⟩
    have hdiv : (i + g.B) / g.B = ((k + 1 : Nat) : Int) := by rw [Int.add_ediv_of_dvd_right (dvd_refl _), Int.ediv_self (by omega), hk]; push_cast; ring
    have hseek : seekAt g i = 2 * g.B * k := by
      unfold seekAt
      have e1 := Int.emod_add_mul_ediv i g.B
      have e5 := Int.emod_nonneg i (show (g.B : Int) ≠ 0 by omega)
      rw [hk] at e1
      have e2 : i - i % g.B = g.B * (k : Int) := by omega
      have e3 : (0 : Int) ≤ g.B * (k : Int) := by positivity
      rw [e2, u32_of_in (x := (g.B : Int) * k) ⟨by omega, by omega⟩, u32_of_in ⟨by omega, by omega⟩]
      have : (2 * ((g.B : Int) * k)) = ((2 * g.B * k : Nat) : Int) := by push_cast; ring
      rw [this, Int.toNat_natCast]
    unfold preLoadLoopF preLoadSeeks
    dsimp only
    rw [if_pos (Nat.zero_le _), List.getElem?_concat_length]
    dsimp only
    generalize hnb : loadBufferF g c.dev { addr := c.bufs.length, index := 0, size := 0, status := .constructed, data := g.junk c.bufs.length } i (rs.headD .all) = nb
    have hni : nb.1.index = k := by rw [← hnb, loadBufferF_index, hu]
    have hset : (c.bufs ++ [({ addr := c.bufs.length, index := 0, size := 0, status := .constructed, data := g.junk c.bufs.length } : Buf)]).set c.bufs.length nb.1 = c.bufs ++ [nb.1] := by
      rw [List.set_append_right _ _ (le_refl _)]; simp
    have hle' : ∀ b ∈ c.bufs ++ [nb.1], b.index ≤ (k : Int) := by
      intro b hb
      rcases List.mem_append.1 hb with hb | hb
      · exact hle b hb
      · rw [List.mem_singleton.1 hb, hni]
    have hone : TopIs (c.bufs ++ [nb.1]) k := ⟨⟨nb.1, by simp, hni⟩, hle'⟩
    rw [hset]
    by_cases hlt : nb.2.2 < g.B
    · rw [if_pos hlt, if_pos hlt]
      refine ⟨_, rfl, by simp, by simp, ?_, ?_, ?_⟩
      · rw [List.length_singleton, hseek]; rfl
      · rw [List.length_singleton, List.drop_one]
      · rw [List.length_singleton, Nat.add_sub_cancel]; exact hone
    · rw [if_neg hlt, if_neg hlt, if_pos rfl, hi]
      rcases Nat.eq_zero_or_pos left with rfl | hpos
      · refine ⟨_, rfl, by simp [preLoadSeeks], by simp [preLoadSeeks], ?_, ?_, ?_⟩
        · simp only [preLoadSeeks, List.length_singleton]; rw [hseek]; rfl
        · simp only [preLoadSeeks, preLoadLoopF, List.length_singleton]; rw [List.drop_one]
        · simp only [preLoadSeeks, preLoadLoopF, List.length_singleton]; rw [Nat.add_sub_cancel]; exact hone
      · obtain ⟨S, e1, e2, e3, e4, e5, e6⟩ := preLoadLoopF_seeks left { c with bufs := c.bufs ++ [nb.1], dev := nb.2.1 } (i + g.B) rs.tail (k + 1) (by omega) hfit' hdiv hpos
          (fun b hb => by have := hle' b hb; push_cast; omega)
        simp only [List.length_append, List.length_cons, List.length_nil, Nat.zero_add] at e1 e5 e6
        refine ⟨_, rfl, by simp, by rw [List.length_cons, e1]; omega, ?_, ?_, ?_⟩
        · rw [List.length_cons, inOrder_succ, hseek, e1, ← e4]
        · rw [e5, List.length_cons, e1, List.drop_tail]
        · rw [List.length_cons, e1, show k + (S.length + 1) - 1 = k + 1 + S.length - 1 by omega]; exact e6

theorem playFinishSeeks_eq {r : Rd} {f : Dev} {a : FileReader} (h : playFinish g r f = .ok (true, a)) (rs : List ReadResult) :
    ∃ c0 : Cache, c0.bufs = [] ∧ a.src = some (c0.preLoad g a.rd.pos1 (decide (a.rd.rate ≥ 0))) ∧
      playFinishF g r f rs = .ok (true, ⟨a.rd, some (c0.preLoadF g a.rd.pos1 (decide (a.rd.rate ≥ 0)) rs).1⟩, (c0.preLoadF g a.rd.pos1 (decide (a.rd.rate ≥ 0)) rs).2) ∧
      playFinishSeeks g r f rs = .ok (preLoadSeeks g c0.bufs.length (decide (a.rd.rate ≥ 0)) g.N 0 c0 a.rd.pos1 rs) := by
  unfold playFinish at h
  unfold playFinishF playFinishSeeks
  by_cases h1 : u32 r.fileSize ≤ u32 (r.header * 2)
  · rw [if_pos h1] at h; cases h
  · rw [if_neg h1] at h ⊢
    by_cases h2 : r.nch = 0
    · rw [if_pos h2] at h; cases h
    · rw [if_neg h2] at h ⊢
      rw [if_neg h1, if_neg h2]
      cases h
      exact ⟨_, rfl, rfl, rfl, rfl⟩

theorem playFileSeeks_eq {a a' : FileReader} {f : Dev} {junk : List Nat} {w : Bool} {n : Int} (h : a.playFile g (some f) junk w n = .ok (true, a')) (rs : List ReadResult) :
    ∃ c0 : Cache, c0.bufs = [] ∧ a'.src = some (c0.preLoad g a'.rd.pos1 (decide (a'.rd.rate ≥ 0))) ∧
      a.playFileF g (some f) junk w n rs = .ok (true, ⟨a'.rd, some (c0.preLoadF g a'.rd.pos1 (decide (a'.rd.rate ≥ 0)) rs).1⟩, (c0.preLoadF g a'.rd.pos1 (decide (a'.rd.rate ≥ 0)) rs).2) ∧
      a.playFileSeeks g (some f) junk w n rs = .ok (preLoadSeeks g c0.bufs.length (decide (a'.rd.rate ≥ 0)) g.N 0 c0 a'.rd.pos1 rs) := by
  unfold FileReader.playFile at h
  unfold FileReader.playFileF FileReader.playFileSeeks
  simp only at h ⊢
  cases w with
  | false => exact playFinishSeeks_eq h rs
  | true =>
    simp only [if_true] at h ⊢
    obtain ⟨⟨ok, r, f'⟩, h1, h⟩ := bind_ok_iff.1 h
    rw [h1]
    simp only [ok_bind] at h ⊢
    cases ok with
    | false => cases h
    | true => exact playFinishSeeks_eq h rs

/-! ## Players -/

/-- A file player that has read up to block `T`. -/
structure Ordered (g : Geo) (St : Rd → Prop) (p : FilePlayer) (T : Nat) : Prop where
  nch : 0 < p.rdr.rd.nch
  idle : p.rdr.rd.playing = false → p.pending = none
  live : p.rdr.rd.playing = true → St p.rdr.rd ∧ ∃ c, p.rdr.src = some c ∧ c.loopType = .none ∧ c.bufs.length ≤ g.N ∧ ((T : Int) * g.B ≤ 2147483647 → TopIs c.bufs T)

variable {St : Rd → Prop}

theorem Ordered.update {D E : Int} (hE : E ≤ 2147483647) (hSt : Glides fp St D E) (nullOk : Bool) {fuel : Nat} {p : FilePlayer} {T : Nat} (h : Ordered g St p T) (alloc : Nat → Bool) :
    ∃ fx p', p.update fp g nullOk (fuel + 1) alloc = .ok (fx, p') ∧ Ordered g St p' T := by
  obtain ⟨⟨r2, src⟩, pend2⟩ := p
  obtain ⟨hn, hidle, hlive⟩ := h
  simp only at hn hidle hlive
  unfold FilePlayer.update
  simp only
  cases hp : r2.playing with
  | false =>
    have e1 : FileReader.update fp g nullOk (fuel + 1) ⟨r2, src⟩ alloc = .ok ({}, ⟨r2, src⟩) := by
      unfold FileReader.update; simp only; rw [hp, update_off hn]
    rw [e1]
    simp only [ok_bind]
    exact ⟨{}, ⟨⟨r2, src⟩, pend2⟩, rfl, hn, hidle, hlive⟩
  | true =>
    by_cases ha : ((List.range r2.nch.toNat).filter alloc).length = (List.range r2.nch.toNat).length
    · obtain ⟨hst, c, hc, hlt, hlen, htop⟩ := hlive hp
      subst hc
      obtain ⟨hpl, hl, hrate, hpos, ps, r', hps, hst', hconf, hle, hleD, hps0, hpsm⟩ := hSt r2 hst
      have hpsm' : ∀ p ∈ ps, r2.pos1 ≤ p ∧ p + r2.nch ≤ E := fun p hp => ⟨(hpsm p hp).1, (hpsm p hp).2.2⟩
      rw [FileReader.read_trace hp hpl hl hps (E := E) (by omega) hpos hpsm' nullOk ha]
      generalize hfx : fxOf r2.nch (ps.map (frameAt (fun i => (c.get g i).1) r2.nch)) alloc = fx
      obtain ⟨e, he⟩ : ∃ e, fx.event = some e := ⟨_, by rw [← hfx]; rfl⟩
      simp only [ok_bind, he]
      obtain ⟨_, hsame, _⟩ := C15_read_only g (framesIdx r2.nch ps) c
      obtain ⟨s1, s2, _, s4, _⟩ := hsame
      refine ⟨fx, _, rfl, by simp only; rw [hconf.nch]; exact hn, fun h => ?_, fun _ => ⟨hst', _, rfl, by rw [s4]; exact hlt, ?_, fun hfit => (htop hfit).of_index ?_⟩⟩
      · simp only at h; rw [hconf.playing, hp] at h; cases h
      · have := congrArg List.length s2
        simp only [List.length_map] at this
        rw [this]; exact hlen
      · have := congrArg (List.map fun x => x.2.1) s2
        simp only [List.map_map] at this
        exact this
    · have e1 : FileReader.update fp g nullOk (fuel + 1) ⟨r2, src⟩ alloc = .ok ({ allocated := (List.range r2.nch.toNat).filter alloc, released := (List.range r2.nch.toNat).filter alloc }, ⟨r2, src⟩) := by
        unfold FileReader.update; simp only; rw [hp, update_short hn _ _ _ ha]
      rw [e1]
      simp only [ok_bind]
      exact ⟨_, ⟨⟨r2, src⟩, pend2⟩, rfl, hn, hidle, hlive⟩

theorem Ordered.poll {D E : Int} (hSt : Glides fp St D E) {fuel : Nat} (hf : g.N ≤ fuel) {p : FilePlayer} {T : Nat} (h : Ordered g St p T) (rs : List ReadResult) :
    ∃ p' S, p.runEventF fp g fuel rs = .ok (p', rs.drop S.length) ∧ p.eventSeeks fp g fuel rs = S ∧ S.length ≤ g.N ∧ Ordered g St p' (T + S.length) ∧
      (((T + S.length : Nat) : Int) * g.B ≤ 2147483647 → S = inOrder (2 * g.B) (T + 1) S.length) := by
  obtain ⟨⟨r2, src⟩, pend2⟩ := p
  obtain ⟨hn, hidle, hlive⟩ := h
  simp only at hn hidle hlive
  unfold FilePlayer.runEventF FilePlayer.eventSeeks
  match pend2 with
  | none => exact ⟨_, [], rfl, rfl, Nat.zero_le _, ⟨hn, hidle, hlive⟩, fun _ => rfl⟩
  | some .close =>
    simp only
    refine ⟨_, [], rfl, rfl, Nat.zero_le _, ⟨hn, fun _ => rfl, fun h => ?_⟩, fun _ => rfl⟩
    simp only [FileReader.close, Rd.stop] at h; cases h
  | some .reload =>
    have hp : r2.playing = true := by
      cases hp : r2.playing with
      | true => rfl
      | false => have := hidle hp; cases this
    obtain ⟨hst, c, hc, hlt, hlen, htop⟩ := hlive hp
    subst hc
    simp only [FileReader.serviceF]
    obtain ⟨x, S, e1, e2, e3, e4, e5, e6, e7⟩ := triggerReloadF_seeks (g := g) (c := c) (rate := fp.f.rnd r2.rate) (fp.f.nonneg (hSt r2 hst).2.2.1) hlt (le_trans hlen hf) rs htop
    rw [e1, e2]
    refine ⟨⟨⟨r2, some x.1⟩, none⟩, S, by rw [← e3]; rfl, rfl, le_trans e4 hlen, ⟨hn, fun h => rfl, fun _ => ⟨hst, x.1, rfl, e5, by rw [e6]; exact hlen, fun hfit => (e7 hfit).1⟩⟩,
      fun hfit => (e7 hfit).2⟩

theorem Ordered.speed {p : FilePlayer} {T : Nat} (h : Ordered g St p T) {v : ℚ} (hs : ∀ r, St r → Inside r v ∧ St { r with rate := v }) :
    Ordered g St { p with rdr := { p.rdr with rd := p.rdr.rd.setPlaybackRate v } } T := by
  obtain ⟨k1, k2⟩ := setPlaybackRate_keeps p.rdr.rd v
  refine ⟨by simp only; rw [k2]; exact h.nch, fun hp => h.idle (by simp only at hp; rw [← k1]; exact hp), fun hp => ?_⟩
  simp only at hp ⊢
  rw [k1] at hp
  obtain ⟨hst, rest⟩ := h.live hp
  obtain ⟨i1, i2⟩ := hs _ hst
  rw [i1.only_rate]
  exact ⟨i2, rest⟩

theorem Ordered.turns {D E R : Int} (hE : E ≤ 2147483647) (hSt : Glides fp St D E)
    (hs : ∀ (r : Rd) (v : ℚ), 0 ≤ v → v ≤ R → St r → Inside r v ∧ St { r with rate := v }) (nullOk : Bool) {fuel : Nat} (hf : g.N ≤ fuel + 1) :
    ∀ (ts : List Turn) (p : FilePlayer) (rs : List ReadResult) (T : Nat), Speeds R ts → Ordered g St p T →
    ∃ fxs p' S, fileTurnsF fp g nullOk (fuel + 1) p rs ts = .ok (fxs, p', rs.drop S.length) ∧ turnsSeeks fp g nullOk (fuel + 1) p rs ts = S ∧
      (((T + S.length : Nat) : Int) * g.B ≤ 2147483647 → S = inOrder (2 * g.B) (T + 1) S.length)
  | [], p, rs, T, _, h => ⟨[], p, [], rfl, rfl, fun _ => rfl⟩
  | .update al :: ts, p, rs, T, hv, h => by
    obtain ⟨fx, p1, e1, e2⟩ := h.update hE hSt nullOk (fuel := fuel) al
    obtain ⟨fxs, p2, S, k1, k2, k3⟩ := Ordered.turns hE hSt hs nullOk hf ts p1 rs T (fun v h => hv v (List.mem_cons_of_mem _ h)) e2
    refine ⟨fx :: fxs, p2, S, ?_, ?_, k3⟩
    · rw [fileTurnsF]; simp only [e1, ok_bind, k1]; rfl
    · rw [turnsSeeks, e1]; exact k2
  | .poll :: ts, p, rs, T, hv, h => by
    have hB0 : (0 : Int) < g.B := by exact_mod_cast g.B_pos
    obtain ⟨p1, S1, e1, e2, _, e3, e4⟩ := h.poll hSt hf rs
    obtain ⟨fxs, p2, S2, k1, k2, k3⟩ := Ordered.turns hE hSt hs nullOk hf ts p1 (rs.drop S1.length) _ (fun v h => hv v (List.mem_cons_of_mem _ h)) e3
    refine ⟨fxs, p2, S1 ++ S2, ?_, ?_, fun hfit => ?_⟩
    · rw [fileTurnsF]; simp only [e1, ok_bind, k1]; rw [List.drop_drop, List.length_append]
    · rw [turnsSeeks, e1, e2]; simp only; rw [k2]
    · rw [List.length_append] at hfit ⊢
      rw [← Nat.add_assoc] at hfit
      rw [inOrder_append, show T + 1 + S1.length = T + S1.length + 1 by omega, ← k3 hfit,
        ← e4 (le_trans (mul_le_mul_of_nonneg_right (by push_cast; omega) (le_of_lt hB0)) hfit)]
  | .speed v :: ts, p, rs, T, hv, h => by
    obtain ⟨v0, vR⟩ := hv v List.mem_cons_self
    obtain ⟨fxs, p2, S, k1, k2, k3⟩ := Ordered.turns hE hSt hs nullOk hf ts _ rs T (fun v h => hv v (List.mem_cons_of_mem _ h)) (h.speed fun r hr => hs r v v0 vR hr)
    refine ⟨fxs, p2, S, ?_, ?_, k3⟩
    · rw [fileTurnsF]; exact k1
    · rw [turnsSeeks]; exact k2

/-! ## Reads that succeed: no more blocks than needed -/

/-- The last block read is within the buffers. -/
theorem Late.top {p : FilePlayer} {q : Streamed} {T : Nat} (h : Late m g St p q) (ho : Ordered g St p T) (hp : p.rdr.rd.playing = true) (hfit : (T : Int) * g.B ≤ 2147483647) :
    (T : Int) + 1 ≤ q.window + g.N ∧ q.window ≤ p.rdr.rd.pos1 / g.B := by
  have hB0 : (0 : Int) < g.B := by exact_mod_cast g.B_pos
  obtain ⟨_, c, L, is, i0, _, hw, hsrc, k1, k2, _⟩ := h.live hp
  obtain ⟨_, c', hsrc', _, _, htop⟩ := ho.live hp
  rw [hsrc] at hsrc'
  injection hsrc' with hsrc'
  obtain ⟨_, hsame, _⟩ := C15_read_only g is c
  obtain ⟨_, s2, _⟩ := hsame
  have hidx : (c.gets g is).2.bufs.map Buf.index = c.bufs.map Buf.index := by
    have := congrArg (List.map fun x => x.2.1) s2
    simp only [List.map_map] at this
    exact this
  obtain ⟨b, hb, hbT⟩ := ((htop hfit).of_index (bs' := c.bufs) (by rw [← hsrc', hidx])).1
  have hmem : b.index ∈ c.bufs.map Buf.index := List.mem_map_of_mem hb
  rw [hw.ix, mem_up, hbT] at hmem
  have := hw.len
  refine ⟨by omega, le_trans k1 (Int.ediv_le_ediv hB0 k2)⟩

theorem Ordered.frugal (hB : g.B < 16384) (hb : IsBytes m) (hm : m.length < 2 ^ 31) (hNB : (g.N : Int) * g.B ≤ 2 ^ 29)
    {D E R : Int} (hE : 2 * E ≤ m.length) (hSt : Glides fp St D E) (hs : ∀ (r : Rd) (v : ℚ), 0 ≤ v → v ≤ R → St r → Inside r v ∧ St { r with rate := v })
    (nullOk : Bool) {fuel : Nat} (hf : g.N ≤ fuel + 1) : ∀ (ts : List Turn) (p : FilePlayer) (q : Streamed) (T : Nat), Speeds R ts → Late m g St p q → Ordered g St p T →
      (T : Int) + 1 ≤ ((m.length / 2 : Nat) : Int) / g.B + g.N →
    ∃ fxs p' S, fileTurns fp g nullOk (fuel + 1) p ts = .ok (fxs, p') ∧ turnsSeeks fp g nullOk (fuel + 1) p [] ts = S ∧ S = inOrder (2 * g.B) (T + 1) S.length ∧
      ((T + S.length : Nat) : Int) + 1 ≤ ((m.length / 2 : Nat) : Int) / g.B + g.N ∧ (p'.rdr.rd.playing = true → ((T + S.length : Nat) : Int) + 1 ≤ p'.rdr.rd.pos1 / g.B + g.N)
  | [], p, q, T, _, h, ho, hT => by
    have hB0 : (0 : Int) < g.B := by exact_mod_cast g.B_pos
    refine ⟨[], p, [], rfl, rfl, rfl, hT, fun hp => ?_⟩
    have e1 := Int.ediv_mul_le ((m.length / 2 : Nat) : Int) (ne_of_gt hB0)
    have e2 := mul_le_mul_of_nonneg_right (show (T : Int) ≤ ((m.length / 2 : Nat) : Int) / g.B + g.N by omega) (le_of_lt hB0)
    rw [add_mul] at e2
    have := h.top ho hp (by omega)
    simp only [List.length_nil, Nat.add_zero]
    omega
  | .update al :: ts, p, q, T, hv, h, ho, hT => by
    obtain ⟨fx, p1, q1, e1, _, e3⟩ := h.update hB hb (by omega) hE hSt nullOk (fuel := fuel) al
    obtain ⟨_, p1', e1', e4⟩ := ho.update (by omega) hSt nullOk (fuel := fuel) al
    rw [e1] at e1'
    injection e1' with e1'
    injection e1' with _ e1'
    subst e1'
    obtain ⟨fxs, p2, S, k1, k2, k3⟩ := Ordered.frugal hB hb hm hNB hE hSt hs nullOk hf ts p1 q1 T (fun v h => hv v (List.mem_cons_of_mem _ h)) e3 e4 hT
    refine ⟨fx :: fxs, p2, S, ?_, ?_, k3⟩
    · rw [fileTurns]; simp only [e1, ok_bind, k1]; rfl
    · rw [turnsSeeks, e1]; exact k2
  | .poll :: ts, p, q, T, hv, h, ho, hT => by
    have hB0 : (0 : Int) < g.B := by exact_mod_cast g.B_pos
    have hgB : ((m.length / 2 : Nat) : Int) / g.B * g.B ≤ ((m.length / 2 : Nat) : Int) := Int.ediv_mul_le _ (ne_of_gt hB0)
    obtain ⟨p1, e1, e3⟩ := h.poll hB (by omega) (by omega) hSt hf
    obtain ⟨p1', S1, e1', e2, e5, e4, e6⟩ := ho.poll hSt hf []
    rw [runEventF_nil, e1] at e1'
    injection e1' with e1'
    injection e1' with e1' _
    subst e1'
    have hfit : ((T + S1.length : Nat) : Int) * g.B ≤ 2147483647 := by
      have := mul_le_mul_of_nonneg_right (show ((T + S1.length : Nat) : Int) ≤ ((m.length / 2 : Nat) : Int) / g.B + (g.N + g.N) by push_cast at *; omega) (le_of_lt hB0)
      rw [add_mul, add_mul] at this
      omega
    have hT1 : ((T + S1.length : Nat) : Int) + 1 ≤ ((m.length / 2 : Nat) : Int) / g.B + g.N := by
      by_cases hne : S1 = []
      · rw [hne]; simpa using hT
      · have hpend : p.pending = some .reload := by
          unfold FilePlayer.eventSeeks at e2
          cases hpe : p.pending with
          | none => rw [hpe] at e2; exact absurd e2.symm hne
          | some e =>
            cases e with
            | reload => rfl
            | close => rw [hpe] at e2; exact absurd e2.symm hne
        have hp : p.rdr.rd.playing = true := by
          cases hp : p.rdr.rd.playing with
          | true => rfl
          | false => have := h.idle hp; rw [hpend] at this; cases this
        obtain ⟨_, c, L, is, i0, hi0, _, _, _, _, _, k4, k5, k6⟩ := h.live hp
        have hin := (k5 i0 (k4 (k6 hpend))).1
        have hp1 : p1.rdr.rd.playing = true := by
          rw [← e3.rd]
          unfold Streamed.runEvent
          rw [h.pend, hpend]
          simp only
          rw [h.rd]; exact hp
        have hwin : (q.runEvent g.N g.B).window ≤ i0 / g.B := by
          unfold Streamed.runEvent
          rw [h.pend, hpend]
          simp only
          rw [h.rd, ← hi0]
          exact min_le_left _ _
        have h1 := (e3.top e4 hp1 hfit).1
        have h2 : i0 / g.B ≤ ((m.length / 2 : Nat) : Int) / g.B := Int.ediv_le_ediv hB0 (by have := hin.2; omega)
        omega
    obtain ⟨fxs, p2, S2, k1, k2, k3, k4, k5⟩ := Ordered.frugal hB hb hm hNB hE hSt hs nullOk hf ts p1 _ _ (fun v h => hv v (List.mem_cons_of_mem _ h)) e3 e4 hT1
    refine ⟨fxs, p2, S1 ++ S2, ?_, ?_, ?_, ?_, ?_⟩
    · rw [fileTurns]; simp only [e1, ok_bind, k1]
    · rw [turnsSeeks, runEventF_nil, e1, e2]
      simp only [Except.map]
      rw [k2]
    · rw [List.length_append, inOrder_append, show T + 1 + S1.length = T + S1.length + 1 by omega, ← k3, ← e6 hfit]
    · rw [List.length_append, ← Nat.add_assoc]; exact k4
    · rw [List.length_append, ← Nat.add_assoc]; exact k5
  | .speed v :: ts, p, q, T, hv, h, ho, hT => by
    obtain ⟨v0, vR⟩ := hv v List.mem_cons_self
    obtain ⟨fxs, p2, S, k1, k2, k3⟩ := Ordered.frugal hB hb hm hNB hE hSt hs nullOk hf ts _ _ T (fun v h => hv v (List.mem_cons_of_mem _ h)) (h.speed fun r hr => hs r v v0 vR hr)
      (ho.speed fun r hr => hs r v v0 vR hr) hT
    refine ⟨fxs, p2, S, ?_, ?_, k3⟩
    · rw [fileTurns]; exact k1
    · rw [turnsSeeks]; exact k2

end TVP
