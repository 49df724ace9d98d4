import Verif.Spec.Cut
import Verif.Lemmas.CutTail
import Verif.Lemmas.Path
import Verif.Lemmas.Faulty
import Verif.Lemmas.Anything

/-!
# Players of a file that is shorter than its header says
-/

namespace TVP
open Spec

variable {m : List Nat} {g : Geo} {fp : Fp}

/-! ## One update -/

/-- Reading samples from block `i0 / B` on, of which some may lie outside the file, and the reload after it. -/
theorem FWin.cut (hB : g.B < 16384) (hm : m.length < 4294967296) (hfit : (m.length : Int) / 2 + g.N * g.B ≤ 2147483647) {mm : Int} {c : Cache}
    {a : Int} {L : Nat} (h : FWin m g mm c a L) (hmm : 0 ≤ mm) {is : List Int} {i0 : Int} (hi0 : i0 ∈ is) (hin0 : InFile m i0) (h1 : a ≤ i0 / g.B) (h2 : i0 / g.B ≤ a + mm)
    (hin : ∀ i ∈ is, i0 ≤ i ∧ i ≤ 2147483647) {fuel : Nat} {rate : ℚ} (hf : g.N ≤ fuel) (hr : 0 ≤ rate) :
    ∃ c', (c.gets g is).2.triggerReload g fuel rate = .ok c' ∧ FWin m g mm c' (i0 / g.B) L := by
  have hB0 : (0 : Int) < g.B := by exact_mod_cast g.B_pos
  have hL := h.len
  obtain ⟨_, hsame, _⟩ := C15_read_only g is c
  obtain ⟨lo, hlo⟩ : ∃ lo, lo = i0 / g.B := ⟨_, rfl⟩
  rw [← hlo] at h1 h2 ⊢
  have hlt : lo < a + L := by
    rcases h.enough with e | e
    · omega
    · rw [hlo]; exact e i0 hin0
  have hblk : ∀ i ∈ is, u32 (i / g.B) = i / g.B ∧ lo ≤ i / g.B := by
    intro i hi
    obtain ⟨f, l⟩ := hin i hi
    have h0 : 0 ≤ i := le_trans hin0.1 f
    have hq : 0 ≤ i / g.B := Int.ediv_nonneg h0 (le_of_lt hB0)
    have hq2 : i / g.B ≤ i := Int.ediv_le_self _ h0
    exact ⟨u32_of_in ⟨by omega, by omega⟩, by rw [hlo]; exact Int.ediv_le_ediv hB0 f⟩
  have hst := gets_status_any g lo is c h.loaded (by rw [h.ix]; exact up_sorted a L) (fun i hi => by
    obtain ⟨e1, e2⟩ := hblk i hi
    rw [e1]
    by_cases hh : Buffered g c i
    · exact Or.inr ⟨e2, hh⟩
    · left
      intro b hb hcon
      exact hh ⟨b, hb, hcon⟩)
  have hfit2 : (lo + L) * g.B ≤ 2147483647 := by
    have h3 := (inFile_block (g := g) hm hin0).2.2
    have h4 := hin0.2
    have h5 : (L : Int) * g.B ≤ g.N * g.B := mul_le_mul_of_nonneg_right (by exact_mod_cast hL) (le_of_lt hB0)
    rw [add_mul, hlo]
    omega
  obtain ⟨d, hd⟩ : ∃ d : Nat, lo = a + d := ⟨(lo - a).toNat, by omega⟩
  obtain ⟨c', k1, k2, k3, k4⟩ := Cache.triggerReload_fwd (g := g) hr (d := d) (fuel := fuel) (c := (c.gets g is).2) (a := a) (L := L)
    (by rw [hsame.2.2.2.1]; exact h.loop) (by rw [index_of_core hsame.2.1]; exact h.ix) (by omega) (by omega) (by omega) h.a0 (by rw [← hd]; exact hfit2)
    (fun b hb hlt => hst.1 (List.ne_nil_of_mem hi0) b hb (by rw [hd]; exact hlt))
    (fun b hb he => by
      have hbuf : Buffered g c i0 := by
        have hmem : i0 / g.B ∈ c.bufs.map Buf.index := by rw [h.ix, mem_up, ← hlo]; exact ⟨h1, hlt⟩
        obtain ⟨b, hb, e⟩ := List.mem_map.1 hmem
        exact ⟨b, hb, e, index_size hB h.reached hb hin0 e⟩
      rw [hst.2 ⟨i0, hi0, by rw [(inFile_block (g := g) hm hin0).1, hlo], by rw [hlo]; exact hbuf⟩ b hb (by omega)]
      decide)
  refine ⟨c', k1, (Reached.gets hm is h.reached).step hm (.reload fuel rate) k1, k3, by rw [hd]; exact k2, k4, by have := h.a0; omega, ?_⟩
  rcases h.enough with e | e
  · exact Or.inl e
  · exact Or.inr fun i hi => by have := e i hi; omega

/-- A reload going forwards without looping always succeeds. -/
theorem reload_ends {c : Cache} {rate : ℚ} (hr : 0 ≤ rate) (hl : c.loopType = .none) {fuel : Nat} (hf : c.bufs.length ≤ fuel) :
    ∃ c', c.triggerReload g fuel rate = .ok c' ∧ c'.loopType = .none := by
  obtain ⟨x, h1, h2, _⟩ := triggerReloadF_ends (g := g) hr hl hf []
  rw [triggerReloadF_nil] at h1
  cases e : c.triggerReload g fuel rate with
  | error f => rw [e] at h1; cases h1
  | ok c' =>
    rw [e] at h1
    injection h1 with h1
    subst h1
    exact ⟨c', rfl, h2⟩

/-- What is known of the buffers of a player at sample `pos` of the source. -/
structure CutSrc (m : List Nat) (g : Geo) (mm : Int) (pos : Int) (c : Cache) : Prop where
  reached : Reached m g c
  loop : c.loopType = .none
  tail : Tail m g c
  win : InFile m pos → ∃ w L, FWin m g mm c w L ∧ w ≤ pos / g.B ∧ pos / g.B ≤ w + mm

/-- The samples served. -/
theorem CutSrc.serves (hB : g.B < 16384) (hb : IsBytes m) (hm : m.length < 4294967296) {mm : Int} {pos : Int} {c : Cache}
    (h : CutSrc m g mm pos c) (hpos : 0 ≤ pos) {i : Int} (hi : pos ≤ i) (hadv : i ≤ pos + mm * g.B) (hmm : 2 * mm + 1 ≤ g.N) :
    (InFile m i → (c.get g i).1 = fileSample m i.toNat) ∧
      (i ≤ 2147483647 → (m.length : Int) ≤ 2 * (i / g.B * g.B) → (c.get g i).1 = 0) := by
  have hB0 : (0 : Int) < g.B := by exact_mod_cast g.B_pos
  refine ⟨fun hin => ?_, fun h1 h2 => h.tail.silent (by omega) h1 h2⟩
  obtain ⟨w, L, hw, w1, w2⟩ := h.win ⟨hpos, by have := hin.2; omega⟩
  have e1 : pos / g.B ≤ i / g.B := Int.ediv_le_ediv hB0 hi
  have e2 : i / g.B ≤ pos / g.B + mm := by
    rw [← Int.add_mul_ediv_right _ _ (ne_of_gt hB0)]
    exact Int.ediv_le_ediv hB0 hadv
  have := (hw.has hB hin (by omega)).2 (by omega)
  exact ((hw.reached.ok.serves hb hm hin).1 this).1

/-- After the reload. -/
theorem CutSrc.reload (hB : g.B < 16384) (hm : m.length < 4294967296) (hfit : (m.length : Int) / 2 + g.N * g.B ≤ 2147483647) {mm : Int} (hmm : 0 ≤ mm)
    {pos : Int} {c : Cache} (h : CutSrc m g mm pos c) {is : List Int} (h0 : pos ∈ is) (hin : ∀ i ∈ is, pos ≤ i ∧ i ≤ 2147483647)
    (hpos : 0 ≤ pos) {pos' : Int} (hp' : pos ≤ pos') (hadv : pos' ≤ pos + mm * g.B) {fuel : Nat} {rate : ℚ} (hf : g.N ≤ fuel) (hr : 0 ≤ rate) :
    ∃ c', (c.gets g is).2.triggerReload g fuel rate = .ok c' ∧ CutSrc m g mm pos' c' := by
  have hB0 : (0 : Int) < g.B := by exact_mod_cast g.B_pos
  obtain ⟨_, hsame, _⟩ := C15_read_only g is c
  have hre := Reached.gets hm is h.reached
  by_cases hin0 : InFile m pos
  · obtain ⟨w, L, hw, w1, w2⟩ := h.win hin0
    obtain ⟨c', k1, k2⟩ := hw.cut hB hm hfit hmm h0 hin0 w1 w2 hin hf hr
    refine ⟨c', k1, k2.reached, k2.loop, (h.tail.gets is).reload hB (by rw [hsame.2.2.2.1]; exact h.loop) hr k1, fun _ => ⟨_, L, k2, Int.ediv_le_ediv hB0 hp', ?_⟩⟩
    rw [← Int.add_mul_ediv_right _ _ (ne_of_gt hB0)]
    exact Int.ediv_le_ediv hB0 hadv
  · obtain ⟨c', k1, k2⟩ := reload_ends (g := g) (c := (c.gets g is).2) hr (by rw [hsame.2.2.2.1]; exact h.loop) (le_trans hre.len hf)
    refine ⟨c', k1, hre.step hm (.reload fuel rate) k1, k2, (h.tail.gets is).reload hB (by rw [hsame.2.2.2.1]; exact h.loop) hr k1, fun hcon => ?_⟩
    exact absurd ⟨hpos, by have := hcon.2; omega⟩ hin0

/-- A file player that has sent `k` blocks (`none`: that has ended). -/
structure Cut (m : List Nat) (g : Geo) (mm : Int) (H nch : Nat) (F : Int) (p : Nat) (R : Int) (x r : ℚ) (st : Option Nat) (a : FileReader) : Prop where
  playing : a.rd.playing = st.isSome
  chans : a.rd.nch = nch
  live : ∀ k, st = some k → Fwd a.rd p R (x + ((128 * k : Nat) : ℚ) * r) ∧ FwdAny R H F nch a.rd ∧ a.rd.rate = r ∧
    ∃ c, a.src = some c ∧ CutSrc m g mm a.rd.pos1 c

/-- What is told about the samples heard: `heard t ch` at instant `t`. -/
def Truthful (m : List Nat) (g : Geo) (H nch : Nat) (F : Int) (x r : ℚ) (heard : Nat → Nat → Int) (t : Nat) : Prop :=
  ∀ i : Nat, ⌊x + t * r⌋ = i → (i : Int) < F → ∀ ch < nch,
    (2 * (H + i * nch + ch) + 2 ≤ m.length → heard t ch = fileSample m (H + i * nch + ch)) ∧
    (m.length ≤ 2 * ((H + i * nch + ch) / g.B * g.B) → heard t ch = 0)

variable {mm : Int} {H nch : Nat} {F : Int} {p : Nat} {R : Int} {x r : ℚ}

theorem blockOf_cut (hr : 0 ≤ r) (v : Int → Int) (k : Nat) {ch : Nat} (hch : ch < nch) :
    blockOf ((forwardFrames (x + ((128 * k : Nat) : ℚ) * r) r F blockSamples).map (fun i => frameAt v nch (H + i * nch))) ch =
      pathBlock (fun t ch => v (H + ⌊x + (t : ℚ) * r⌋ * nch + ch)) (instants F x r) k ch := by
  unfold blockOf
  rw [List.map_map, List.length_map, forwardFrames_pad hr]
  unfold pathBlock
  refine List.map_congr_left fun t _ => ?_
  have e : x + ((128 * k : Nat) : ℚ) * r + (t : ℚ) * r = x + ((128 * k + t : Nat) : ℚ) * r := by push_cast; ring
  rw [e]
  unfold instants
  split
  · simp only [Function.comp_apply, frameAt]
    rw [List.getD_eq_getElem?_getD, List.getElem?_map, List.getElem?_range (by omega)]
    simp only [Option.map_some, Option.getD_some]
  · rfl

theorem forwardFrames_mem (hr : 0 ≤ r) : ∀ (n : Nat) (x : ℚ) (j : Nat), j < n → ⌊x + (j : ℚ) * r⌋ < F → ⌊x + (j : ℚ) * r⌋ ∈ forwardFrames x r F n
  | 0, _, _, h, _ => by omega
  | n + 1, x, j, h, hF => by
    rw [forwardFrames_succ]
    have hle : ⌊x⌋ ≤ ⌊x + (j : ℚ) * r⌋ := Int.floor_le_floor (by
      have : 0 ≤ (j : ℚ) * r := mul_nonneg (by positivity) hr
      linarith)
    rw [if_pos (by omega)]
    cases j with
    | zero => rw [Nat.cast_zero, zero_mul, add_zero]; exact List.mem_cons_self
    | succ j =>
      have e : x + ((j + 1 : Nat) : ℚ) * r = x + r + (j : ℚ) * r := by push_cast; ring
      rw [e] at hF ⊢
      exact List.mem_cons_of_mem _ (forwardFrames_mem hr n (x + r) j (by omega) hF)

theorem fxOf_cut (hr : 0 ≤ r) (v : Int → Int) (k : Nat) {al : Nat → Bool} (ha : ∀ c < nch, al c = true) :
    fxOf nch ((forwardFrames (x + ((128 * k : Nat) : ℚ) * r) r F blockSamples).map (fun i => frameAt v nch (H + i * nch))) al =
      (pathStep (fun t ch => v (H + ⌊x + (t : ℚ) * r⌋ * nch + ch)) nch (instants F x r) (some k) al).1 ∧
    ((forwardFrames (x + ((128 * k : Nat) : ℚ) * r) r F blockSamples).length = blockSamples ↔ (instants F x r (128 * k + 127)).isSome = true) := by
  have hfull : (forwardFrames (x + ((128 * k : Nat) : ℚ) * r) r F blockSamples).length = blockSamples ↔ (instants F x r (128 * k + 127)).isSome = true := by
    have := forwardFrames_full hr F 127 (x + ((128 * k : Nat) : ℚ) * r)
    rw [show x + ((128 * k : Nat) : ℚ) * r + ((127 : Nat) : ℚ) * r = x + ((128 * k + 127 : Nat) : ℚ) * r by push_cast; ring] at this
    refine this.trans ?_
    unfold instants
    by_cases q : ⌊x + ((128 * k + 127 : Nat) : ℚ) * r⌋ < F
    · rw [if_pos q]; simpa using q
    · rw [if_neg q]; simpa using q
  refine ⟨?_, hfull⟩
  have hfil : (List.range nch).filter al = List.range nch := by
    rw [List.filter_eq_self]; intro c hc; exact ha c (List.mem_range.1 hc)
  unfold pathStep fxOf
  simp only
  rw [if_pos ha]
  simp only [Int.toNat_natCast, hfil]
  congr 1
  · congr 1
    · refine List.map_congr_left fun ch hc => ?_
      rw [blockOf_cut hr v k (List.mem_range.1 hc)]
    · by_cases h1 : nch = 1
      · rw [if_pos (by omega), if_pos h1, blockOf_cut hr v k (by omega)]
      · rw [if_neg (by omega), if_neg h1]
  · congr 1
    rw [List.length_map]
    by_cases hq : (instants F x r (128 * k + 127)).isSome = true
    · rw [if_pos (hfull.2 hq), if_pos hq]
    · rw [if_neg (fun e => hq (hfull.1 e)), if_neg hq]

theorem Cut.tick (hfp : Representable fp) (hB : g.B < 16384) (hb : IsBytes m) (hm : m.length < 4294967296) (hfit : (m.length : Int) / 2 + g.N * g.B ≤ 2147483647)
    (hn : 1 ≤ nch) (hr : 0 ≤ r) (hmm0 : 0 ≤ mm) (hmm : 2 * mm + 1 ≤ g.N) (hadv : 128 * (nch * (R + 1)) ≤ mm * g.B) (hF : 0 ≤ F) (hR2 : R ≤ 2 ^ 30)
    (hfits : (H : Int) + nch * (F + R + 1) ≤ 2147483647) (nullOk : Bool) {fuel : Nat} (hf : g.N ≤ fuel + 1) {k : Nat} {a : FileReader}
    (h : Cut m g mm H nch F p R x r (some k) a) {al : Nat → Bool} (ha : ∀ c < nch, al c = true) :
    ∃ (heard : Nat → Nat → Int) (a' : FileReader), (∀ t, 128 * k ≤ t → t < 128 * (k + 1) → Truthful m g H nch F x r heard t) ∧
      a.tick fp g nullOk (fuel + 1) al = .ok ((pathStep heard nch (instants F x r) (some k) al).1, a') ∧
      Cut m g mm H nch F p R x r (pathStep heard nch (instants F x r) (some k) al).2 a' := by
  have hB0 : (0 : Int) < g.B := by exact_mod_cast g.B_pos
  obtain ⟨rd, src⟩ := a
  obtain ⟨hfw, hany, hrate, c, hc, hcs⟩ := h.live k rfl
  have hpl := h.playing
  have hch := h.chans
  simp only at hfw hany hrate hc hcs hpl hch
  subst hc
  rw [Option.isSome_some] at hpl
  have hpos : 0 < rd.nch := by rw [hch]; omega
  have htn : rd.nch.toNat = nch := by rw [hch]; omega
  have hx2 : (nch : Int) * (F + R + 1) = F * nch + nch * (R + 1) := by ring
  have hR0 : 0 ≤ R := by
    have : (0 : ℚ) ≤ R := le_trans hany.rate0 hany.rateR
    exact_mod_cast this
  have hx3 : 0 ≤ (nch : Int) * (R + 1) := mul_nonneg (by omega) (by omega)
  obtain ⟨ps, r', e1, e2, e3, e4, e5, e6, e7⟩ := FwdAny.trace hfp (R := R) hR2 (Int.natCast_nonneg H) hF hfits blockSamples rd hany
  obtain ⟨r'', f1, f2, f3, f4⟩ := Fwd.trace fp blockSamples rd _ hfw
  rw [e1] at f1
  simp only [Except.ok.injEq, Prod.mk.injEq] at f1
  obtain ⟨f1, rfl⟩ := f1
  rw [hrate, hany.fs, hany.header, hch] at f1
  rw [hrate, hany.fs] at f2
  have hpos0 : 0 ≤ rd.pos1 := by
    obtain ⟨q, q0, _, q1⟩ := hany.pos
    have := mul_nonneg q0 (Int.natCast_nonneg nch)
    rw [q1]; omega
  have h128 : ((blockSamples : Nat) : Int) = 128 := rfl
  rw [h128] at e5 e7
  have hbd : ∀ p ∈ ps, InI32 p ∧ ∀ c : Nat, (c : Int) < rd.nch → InI32 (p + c) := by
    intro p hp
    obtain ⟨j1, j2, j3⟩ := e7 p hp
    rw [hch]
    exact ⟨⟨by omega, by omega⟩, fun c hc => ⟨by omega, by omega⟩⟩
  have hread : ∀ {σ : Type} (S : Src σ) (s : σ), rd.read fp S (fuel + 1) s blockSamples =
      srcFrames S rd.nch s ps >>= fun x => .ok ⟨x.1, [], r', x.2⟩ := by
    intro σ S s
    unfold Rd.read
    rw [hpl, if_neg (by decide), if_neg (by omega), if_neg (by omega)]
    exact readLoop_posTrace fp S fuel _ rd r' ps s hany.plain hany.loop e1 hbd
  obtain ⟨v, hv⟩ : ∃ v : Int → Int, v = fun i => (c.get g i).1 := ⟨_, rfl⟩
  have hfr : ps.map (frameAt (fun i => (c.get g i).1) rd.nch) =
      (forwardFrames (x + ((128 * k : Nat) : ℚ) * r) r F blockSamples).map (fun i => frameAt v nch (H + i * nch)) := by
    rw [f1, List.map_map, hv, hch]; rfl
  obtain ⟨g1, g2⟩ := fxOf_cut (H := H) (F := F) (x := x) hr v k ha
  refine ⟨fun t ch => v (H + ⌊x + (t : ℚ) * r⌋ * nch + ch), ?_⟩
  have htr : ∀ t, 128 * k ≤ t → t < 128 * (k + 1) → Truthful m g H nch F x r (fun t ch => v (H + ⌊x + (t : ℚ) * r⌋ * nch + ch)) t := by
    intro t t1 t2 i hi hiF ch hcn
    simp only
    rw [hi, hv]
    have hmem : (i : Int) ∈ forwardFrames (x + ((128 * k : Nat) : ℚ) * r) r F blockSamples := by
      obtain ⟨j, rfl⟩ : ∃ j, t = 128 * k + j := ⟨t - 128 * k, by omega⟩
      have e : x + ((128 * k + j : Nat) : ℚ) * r = x + ((128 * k : Nat) : ℚ) * r + (j : ℚ) * r := by push_cast; ring
      rw [← hi, e]
      exact forwardFrames_mem hr _ _ j (by show j < 128; omega) (by rw [← e, hi]; exact hiF)
    have hp : (H : Int) + i * nch ∈ ps := by rw [f1]; exact List.mem_map.2 ⟨_, hmem, rfl⟩
    obtain ⟨j1, j2, j3⟩ := e7 _ hp
    have hs := hcs.serves hB hb hm hpos0 (i := H + i * nch + ch) (by omega) (by omega) hmm
    have ec : ((H + i * nch + ch : Nat) : Int) = H + i * nch + ch := by push_cast; ring
    refine ⟨fun hin => ?_, fun hin => hs.2 (by omega) ?_⟩
    · have := hs.1 ⟨by omega, by omega⟩
      rw [← ec] at this ⊢
      rw [Int.toNat_natCast] at this
      exact this
    · rw [← ec, ← Int.natCast_ediv]
      exact_mod_cast hin
  unfold FileReader.tick FileReader.update
  simp only
  rw [hpl, update_on hpos _ _ _ (by rw [htn]; exact filter_range_all.2 ha)]
  unfold FileReader.read
  simp only
  rw [hread, srcFrames_file]
  simp only [ok_bind, pure_eq_ok]
  rw [hfr, hch, g1]
  have hst : (pathStep (fun t ch => v (H + ⌊x + (t : ℚ) * r⌋ * nch + ch)) nch (instants F x r) (some k) al) =
      ((pathStep (fun t ch => v (H + ⌊x + (t : ℚ) * r⌋ * nch + ch)) nch (instants F x r) (some k) al).1,
        if (instants F x r (128 * k + 127)).isSome then some (k + 1) else none) := by
    unfold pathStep; simp only; rw [if_pos ha]
  have hev : (pathStep (fun t ch => v (H + ⌊x + (t : ℚ) * r⌋ * nch + ch)) nch (instants F x r) (some k) al).1.event =
      some (if (instants F x r (128 * k + 127)).isSome then .reload else .close) := by
    unfold pathStep; simp only; rw [if_pos ha]
  rw [hst]
  simp only
  rw [hev]
  by_cases hq : (instants F x r (128 * k + 127)).isSome = true
  · simp only [if_pos hq, FileReader.service, FileReader.triggerReload]
    have hlen := g2.2 hq
    have hps : rd.pos1 ∈ ps := by
      rcases e6 with q | q | q
      · cases q
      · rw [q] at f1
        have := congrArg List.length f1
        rw [List.length_map, hlen] at this
        cases this
      · exact q
    obtain ⟨c', k1, k2⟩ := hcs.reload hB hm hfit hmm0 (is := framesIdx nch ps) (mem_framesIdx.2 ⟨_, hps, le_refl _, by omega⟩) (by
      intro i hi
      obtain ⟨q, hq, q1, q2⟩ := mem_framesIdx.1 hi
      obtain ⟨j1, j2, j3⟩ := e7 q hq
      exact ⟨by omega, by omega⟩) hpos0 (pos' := r'.pos1) e4 (by omega) hf (fp.f.nonneg e2.rate0)
    rw [k1]
    refine ⟨_, htr, rfl, ⟨?_, ?_, fun k' hk' => ?_⟩⟩
    · show r'.playing = true
      rw [e3.playing, hpl]
    · show r'.nch = nch
      rw [e3.nch, hch]
    · cases hk'
      refine ⟨?_, e2, by show r'.rate = r; rw [f4, hrate], c', rfl, k2⟩
      rw [hlen] at f2
      convert f2 using 1
      push_cast [blockSamples]; ring
  · simp only [if_neg hq, FileReader.service]
    refine ⟨_, htr, rfl, ⟨?_, ?_, fun k' hk' => by cases hk'⟩⟩
    · simp only [FileReader.close, Rd.stop]; rfl
    · simp only [FileReader.close, Rd.stop]; rw [e3.nch, hch]

theorem pathPlay_from {v w : Nat → Nat → Int} (hn : 1 ≤ nch) : ∀ (als : List (Nat → Bool)) (k : Nat),
    (∀ t ch, 128 * k ≤ t → ch < nch → v t ch = w t ch) →
    pathPlay v nch (instants F x r) (some k) als = pathPlay w nch (instants F x r) (some k) als
  | [], _, _ => rfl
  | al :: als, k, h => by
    have hblk : ∀ ch < nch, pathBlock v (instants F x r) k ch = pathBlock w (instants F x r) k ch := by
      intro ch hch
      unfold pathBlock
      refine List.map_congr_left fun t _ => ?_
      cases e : instants F x r (128 * k + t) with
      | none => rfl
      | some i =>
        unfold instants at e
        split at e
        · cases e; exact h _ _ (by omega) hch
        · cases e
    have hstep : pathStep v nch (instants F x r) (some k) al = pathStep w nch (instants F x r) (some k) al := by
      unfold pathStep
      simp only
      have e : (List.range nch).map (fun ch => (pathBlock v (instants F x r) k ch, ch)) = (List.range nch).map (fun ch => (pathBlock w (instants F x r) k ch, ch)) :=
        List.map_congr_left fun ch hc => by rw [hblk ch (List.mem_range.1 hc)]
      rw [e, hblk 0 (by omega)]
    have hnone : ∀ als, pathPlay v nch (instants F x r) none als = pathPlay w nch (instants F x r) none als := by
      intro als
      induction als with
      | nil => rfl
      | cons al als ih => unfold pathPlay; simp only [pathStep, ih]
    unfold pathPlay
    simp only [hstep]
    have hst : (pathStep w nch (instants F x r) (some k) al).2 = none ∨ (pathStep w nch (instants F x r) (some k) al).2 = some k ∨
        (pathStep w nch (instants F x r) (some k) al).2 = some (k + 1) := by
      unfold pathStep
      simp only
      split
      · simp only; split
        · exact Or.inr (Or.inr rfl)
        · exact Or.inl rfl
      · exact Or.inr (Or.inl rfl)
    rcases hst with e | e | e <;> rw [e]
    · rw [hnone]
    · rw [pathPlay_from hn als k h]
    · rw [pathPlay_from hn als (k + 1) (fun t ch h1 h2 => h t ch (by omega) h2)]

/-- Samples told truthfully. -/
theorem truthful_ideal (m : List Nat) (g : Geo) (H nch : Nat) (F : Int) (x r : ℚ) :
    ∃ heard : Nat → Nat → Int, ∀ t, Truthful m g H nch F x r heard t := by
  refine ⟨fun t ch => if 2 * (H + ⌊x + (t : ℚ) * r⌋.toNat * nch + ch) + 2 ≤ m.length then fileSample m (H + ⌊x + (t : ℚ) * r⌋.toNat * nch + ch) else 0, ?_⟩
  intro t i hi _ ch _
  simp only
  rw [hi, Int.toNat_natCast]
  refine ⟨fun h => if_pos h, fun h => if_neg fun h2 => ?_⟩
  have := Nat.div_mul_le_self (H + i * nch + ch) g.B
  omega

theorem Truthful.congr {v w : Nat → Nat → Int} {t : Nat} (h : Truthful m g H nch F x r v t) (e : ∀ ch < nch, w t ch = v t ch) :
    Truthful m g H nch F x r w t := by
  intro i hi hF ch hch
  rw [e ch hch]
  exact h i hi hF ch hch

theorem Cut.ticks (hfp : Representable fp) (hB : g.B < 16384) (hb : IsBytes m) (hm : m.length < 4294967296) (hfit : (m.length : Int) / 2 + g.N * g.B ≤ 2147483647)
    (hn : 1 ≤ nch) (hr : 0 ≤ r) (hmm0 : 0 ≤ mm) (hmm : 2 * mm + 1 ≤ g.N) (hadv : 128 * (nch * (R + 1)) ≤ mm * g.B) (hF : 0 ≤ F) (hR2 : R ≤ 2 ^ 30)
    (hfits : (H : Int) + nch * (F + R + 1) ≤ 2147483647) (nullOk : Bool) {fuel : Nat} (hf : g.N ≤ fuel + 1) : ∀ (als : List (Nat → Bool)) {st : Option Nat}
    {a : FileReader}, Cut m g mm H nch F p R x r st a →
    ∃ (heard : Nat → Nat → Int) (a' : FileReader), (∀ t, Truthful m g H nch F x r heard t) ∧
      a.ticks fp g nullOk (fuel + 1) als = .ok ((pathPlay heard nch (instants F x r) st als).1, a') ∧
      Cut m g mm H nch F p R x r (pathPlay heard nch (instants F x r) st als).2 a'
  | [], st, a, h => by
    obtain ⟨heard, hh⟩ := truthful_ideal m g H nch F x r
    exact ⟨heard, a, hh, rfl, h⟩
  | al :: als, st, a, h => by
    have idle : ∀ st, (∀ k, st = some k → ¬ ∀ c < nch, al c = true) → Cut m g mm H nch F p R x r st a →
        ∃ fx, a.tick fp g nullOk (fuel + 1) al = .ok (fx, a) ∧ ∀ heard, pathStep heard nch (instants F x r) st al = (fx, st) := by
      intro st hno h
      have hpos : 0 < a.rd.nch := by rw [h.chans]; omega
      have htn : a.rd.nch.toNat = nch := by rw [h.chans]; omega
      unfold FileReader.tick FileReader.update
      rw [h.playing]
      cases st with
      | none =>
        rw [Option.isSome_none, update_off hpos]
        exact ⟨_, rfl, fun _ => rfl⟩
      | some k =>
        have ha' : ¬ ((List.range nch).filter al).length = (List.range nch).length := fun e => hno k rfl (filter_range_all.1 e)
        rw [Option.isSome_some, update_short hpos _ _ _ (by rw [htn]; exact ha')]
        refine ⟨_, rfl, fun heard => ?_⟩
        unfold pathStep; simp only; rw [if_neg (hno k rfl), htn]
    have quiet : (∀ k, st = some k → ¬ ∀ c < nch, al c = true) → ∃ (heard : Nat → Nat → Int) (a' : FileReader), (∀ t, Truthful m g H nch F x r heard t) ∧
      a.ticks fp g nullOk (fuel + 1) (al :: als) = .ok ((pathPlay heard nch (instants F x r) st (al :: als)).1, a') ∧
      Cut m g mm H nch F p R x r (pathPlay heard nch (instants F x r) st (al :: als)).2 a' := by
      intro hno
      obtain ⟨fx, h1, h2⟩ := idle st hno h
      obtain ⟨heard, a', k1, k2, k3⟩ := Cut.ticks hfp hB hb hm hfit hn hr hmm0 hmm hadv hF hR2 hfits nullOk hf als h
      refine ⟨heard, a', k1, ?_, ?_⟩
      · unfold FileReader.ticks pathPlay
        simp only [h1, ok_bind, h2, k2]
        rfl
      · unfold pathPlay
        simp only [h2]
        exact k3
    cases st with
    | none => exact quiet (fun k hk => by cases hk)
    | some k =>
      by_cases ha : ∀ c < nch, al c = true
      · obtain ⟨v, a1, j1, j2, j3⟩ := h.tick hfp hB hb hm hfit hn hr hmm0 hmm hadv hF hR2 hfits nullOk hf ha
        obtain ⟨w, a2, k1, k2, k3⟩ := Cut.ticks hfp hB hb hm hfit hn hr hmm0 hmm hadv hF hR2 hfits nullOk hf als j3
        obtain ⟨u, hu⟩ := truthful_ideal m g H nch F x r
        obtain ⟨y, hy⟩ : ∃ y : Nat → Nat → Int, y = fun t ch => if 128 * k ≤ t then (if t < 128 * (k + 1) then v t ch else w t ch) else u t ch := ⟨_, rfl⟩
        have hstep : pathStep y nch (instants F x r) (some k) al = pathStep v nch (instants F x r) (some k) al := by
          have hblk : ∀ ch, pathBlock y (instants F x r) k ch = pathBlock v (instants F x r) k ch := by
            intro ch
            unfold pathBlock
            refine List.map_congr_left fun t ht => ?_
            have ht := List.mem_range.1 ht
            cases e : instants F x r (128 * k + t) with
            | none => rfl
            | some i =>
              unfold instants at e
              split at e
              · cases e; rw [hy]; simp only; rw [if_pos (by omega), if_pos (by omega)]
              · cases e
          unfold pathStep
          simp only [hblk]
        have hrest : ∀ st', (pathStep v nch (instants F x r) (some k) al).2 = st' → pathPlay y nch (instants F x r) st' als = pathPlay w nch (instants F x r) st' als := by
          intro st' e
          have hst : st' = none ∨ st' = some (k + 1) := by
            rw [← e]
            unfold pathStep
            simp only
            rw [if_pos ha]
            simp only
            split
            · exact Or.inr rfl
            · exact Or.inl rfl
          rcases hst with rfl | rfl
          · clear k2 k3 e
            have : ∀ (v w : Nat → Nat → Int) (als : List (Nat → Bool)), pathPlay v nch (instants F x r) none als = pathPlay w nch (instants F x r) none als := by
              intro v w als
              induction als with
              | nil => rfl
              | cons al als ih => unfold pathPlay; simp only [pathStep, ih]
            exact this _ _ _
          · refine pathPlay_from hn als (k + 1) fun t ch h1 _ => ?_
            rw [hy]; simp only; rw [if_pos (by omega), if_neg (by omega)]
        refine ⟨y, a2, fun t => ?_, ?_, ?_⟩
        · by_cases q1 : 128 * k ≤ t
          · by_cases q2 : t < 128 * (k + 1)
            · exact (j1 t q1 q2).congr fun ch _ => by rw [hy]; simp only; rw [if_pos q1, if_pos q2]
            · exact (k1 t).congr fun ch _ => by rw [hy]; simp only; rw [if_pos q1, if_neg q2]
          · exact (hu t).congr fun ch _ => by rw [hy]; simp only; rw [if_neg q1]
        · unfold FileReader.ticks pathPlay
          simp only [j2, ok_bind, hstep, k2, hrest _ rfl]
          rfl
        · unfold pathPlay
          simp only [hstep, hrest _ rfl]
          exact k3
      · exact quiet (fun k' hk => by cases hk; exact ha)

/-! ## Opening -/

/-- The buffers of a file that has just been opened. -/
theorem playFinish_tail (hB : g.B < 16384) {r : Rd} {f : Dev} {a : FileReader} (hf : f.bytes = m) (h : playFinish g r f = .ok (true, a)) (hr : 0 ≤ a.rd.rate)
    (h0 : 0 ≤ a.rd.pos1) (hin : 2 * a.rd.pos1 ≤ m.length) (hfit : a.rd.pos1 + g.N * g.B ≤ 2147483647) : ∀ c, a.src = some c → Tail m g c := by
  unfold playFinish at h
  simp only at h
  split at h
  · cases h
  · split at h
    · cases h
    · injection h with h
      injection h with _ h
      subst h
      intro c hc
      simp only [FileReader.setLoopType, FileReader.setLoopStart, FileReader.setLoopFinish, Option.map_some, Option.some.injEq] at hc h0 hin hfit hr
      subst hc
      exact preLoad_tail hB hf rfl h0 hin hfit (decide_eq_true hr)

end TVP
