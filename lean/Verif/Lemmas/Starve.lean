import Verif.Lemmas.Glide

/-!
# What is heard when the buffers do not keep up
-/

namespace TVP
open Spec

/-! ## Statuses when some accesses miss -/

theorem findWithIndex_miss (k : Int) : ∀ (bs : List Buf), (∀ b ∈ bs, ¬ (b.index = k ∧ 0 < b.size)) →
    ∀ b' ∈ (findWithIndex k bs).1, b'.status = .unused ∨ b'.status = .read := by
  intro bs
  induction bs with
  | nil => intro _ b' h; cases h
  | cons x xs ih =>
    intro hmiss b' h
    unfold findWithIndex at h
    rw [if_neg (hmiss x List.mem_cons_self)] at h
    simp only at h
    rcases List.mem_cons.1 h with h | h
    · rw [h]; split
      · rename_i hr; exact Or.inr hr
      · exact Or.inl rfl
    · exact ih (fun b hb => hmiss b (List.mem_cons_of_mem _ hb)) b' h

/-- After accesses that miss or go to blocks from `lo` on: everything before `lo` is unused; and `lo` is read, if it was accessed. -/
theorem gets_status_any (g : Geo) (lo : Int) (is : List Int) (c : Cache) (hl : AllLoaded c)
    (hp : (c.bufs.map Buf.index).Pairwise (fun x y => x < y))
    (hin : ∀ i ∈ is, (∀ b ∈ c.bufs, ¬ (b.index = u32 (i / g.B) ∧ 0 < b.size)) ∨
      lo ≤ u32 (i / g.B) ∧ ∃ b ∈ c.bufs, b.index = u32 (i / g.B) ∧ 0 < b.size) :
    (is ≠ [] → ∀ b ∈ (c.gets g is).2.bufs, b.index < lo → b.status = .unused) ∧
      ((∃ i ∈ is, u32 (i / g.B) = lo ∧ ∃ b ∈ c.bufs, b.index = lo ∧ 0 < b.size) →
        ∀ b ∈ (c.gets g is).2.bufs, b.index = lo → b.status = .read) := by
  have step : ∀ (c : Cache) (i : Int), (c.bufs.map Buf.index).Pairwise (fun x y => x < y) →
      ((∀ b ∈ c.bufs, ¬ (b.index = u32 (i / g.B) ∧ 0 < b.size)) ∨ lo ≤ u32 (i / g.B) ∧ ∃ b ∈ c.bufs, b.index = u32 (i / g.B) ∧ 0 < b.size) →
      (∀ b ∈ c.bufs, b.index < lo → b.status ≠ .read) →
      (∀ b ∈ (c.get g i).2.bufs, b.index < lo → b.status = .unused) ∧
      (u32 (i / g.B) = lo → (∃ b ∈ c.bufs, b.index = lo ∧ 0 < b.size) → ∀ b ∈ (c.get g i).2.bufs, b.index = lo → b.status = .read) := by
    intro c i hp h2 h3
    rw [(c.get_eq g i).2]
    have hs := findWithIndex_status (u32 (i / g.B)) c.bufs
    refine ⟨fun b hb hlt => ?_, fun e hex b hb hbi => ?_⟩
    · have hor : b.status = .unused ∨ b.status = .read := by
        rcases h2 with h2 | ⟨h1, h2⟩
        · exact findWithIndex_miss _ _ h2 b hb
        · exact (findWithIndex_marks (fun x => x) (u32 (i / g.B)) c.bufs hp h2 b hb).1 (lt_of_lt_of_le hlt h1)
      rcases hor with h | h
      · exact h
      · obtain ⟨b0, hb0, hi, hst⟩ := hs b hb
        rcases hst with hst | hst | hst
        · exact absurd (hst.symm.trans h) (h3 b0 hb0 (by rw [← hi]; exact hlt))
        · exact hst.1
        · rcases h2 with h2 | ⟨h1, h2⟩
          · have hcore : (findWithIndex (u32 (i / g.B)) c.bufs).1.map Buf.core = c.bufs.map Buf.core := findWithIndex_core _ _
            rw [hi, hst.2] at hlt
            exfalso
            -- a miss marks nothing as read
            have : ∀ (bs : List Buf), (∀ b ∈ bs, ¬ (b.index = u32 (i / g.B) ∧ 0 < b.size)) → (∀ b ∈ bs, b.index < lo → b.status ≠ .read) →
                ∀ b' ∈ (findWithIndex (u32 (i / g.B)) bs).1, b'.index < lo → b'.status ≠ .read := by
              intro bs
              induction bs with
              | nil => intro _ _ b' h; cases h
              | cons x xs ih =>
                intro hm hr b' h hb'
                unfold findWithIndex at h
                rw [if_neg (hm x List.mem_cons_self)] at h
                simp only at h
                rcases List.mem_cons.1 h with h | h
                · rw [h] at hb' ⊢
                  split
                  · rename_i hx
                    rw [if_pos hx] at hb'
                    exact hr x List.mem_cons_self hb'
                  · show BStatus.unused ≠ .read
                    decide
                · exact ih (fun b hb => hm b (List.mem_cons_of_mem _ hb)) (fun b hb => hr b (List.mem_cons_of_mem _ hb)) b' h hb'
            exact this c.bufs h2 h3 b hb (by rw [hi, hst.2]; exact hlt) h
          · rw [hi, hst.2] at hlt; exact absurd (lt_of_lt_of_le hlt h1) (lt_irrefl _)
    · obtain ⟨b1, hb1, e1, e2⟩ := hex
      exact (findWithIndex_marks (fun x => x) (u32 (i / g.B)) c.bufs hp ⟨b1, hb1, by rw [e]; exact e1, e2⟩ b hb).2 (by rw [hbi, e])
  have keep : ∀ (c : Cache) (i : Int), (∀ b ∈ c.bufs, b.index = lo → b.status = .read) → ∀ b ∈ (c.get g i).2.bufs, b.index = lo → b.status = .read := by
    intro c i h b hb hbi
    rw [(c.get_eq g i).2] at hb
    obtain ⟨b0, hb0, hi, hst⟩ := findWithIndex_status _ _ _ hb
    have := h b0 hb0 (by rw [← hi]; exact hbi)
    rcases hst with hst | hst | hst
    · rw [hst]; exact this
    · exact absurd this hst.2
    · exact hst.1
  have key : ∀ (is : List Int) (c : Cache), (c.bufs.map Buf.index).Pairwise (fun x y => x < y) →
      (∀ i ∈ is, (∀ b ∈ c.bufs, ¬ (b.index = u32 (i / g.B) ∧ 0 < b.size)) ∨ lo ≤ u32 (i / g.B) ∧ ∃ b ∈ c.bufs, b.index = u32 (i / g.B) ∧ 0 < b.size) →
      (∀ b ∈ c.bufs, b.index < lo → b.status ≠ .read) →
      ((is ≠ [] ∨ ∀ b ∈ c.bufs, b.index < lo → b.status = .unused) → ∀ b ∈ (c.gets g is).2.bufs, b.index < lo → b.status = .unused) ∧
      (((∃ i ∈ is, u32 (i / g.B) = lo ∧ ∃ b ∈ c.bufs, b.index = lo ∧ 0 < b.size) ∨ ∀ b ∈ c.bufs, b.index = lo → b.status = .read) →
        ∀ b ∈ (c.gets g is).2.bufs, b.index = lo → b.status = .read) := by
    intro is
    induction is with
    | nil =>
      intro c _ _ h3
      exact ⟨fun h => h.resolve_left (fun h => h rfl), fun h => h.resolve_left (fun ⟨_, hi, _⟩ => by cases hi)⟩
    | cons i is ih =>
      intro c hp hin h3
      have hcore : (c.get g i).2.bufs.map Buf.core = c.bufs.map Buf.core := by
        rw [(c.get_eq g i).2]; exact findWithIndex_core _ _
      obtain ⟨s1, s2⟩ := step c i hp (hin i List.mem_cons_self) h3
      obtain ⟨k2, k3⟩ := ih (c.get g i).2 (by rw [index_of_core hcore]; exact hp)
        (fun j hj => by
          rcases hin j (List.mem_cons_of_mem _ hj) with hm | ⟨a1, b, hb, a2, a3⟩
          · left
            intro b hb
            obtain ⟨b', hb', e1, e2⟩ := size_of_core hcore hb
            rw [← e1, ← e2]
            exact hm b' hb'
          · obtain ⟨b', hb', e1, e2⟩ := size_of_core hcore.symm hb
            exact Or.inr ⟨a1, b', hb', by rw [e1]; exact a2, by rw [e2]; exact a3⟩)
        (fun b hb hlt => by rw [s1 b hb hlt]; decide)
      refine ⟨fun _ => k2 (Or.inr s1), fun h => k3 ?_⟩
      rcases h with ⟨j, hj, e, b1, hb1, e1, e2⟩ | h
      · rcases List.mem_cons.1 hj with rfl | hj
        · exact Or.inr (s2 e ⟨b1, hb1, e1, e2⟩)
        · obtain ⟨b', hb', e3, e4⟩ := size_of_core hcore.symm hb1
          exact Or.inl ⟨j, hj, e, b', hb', by rw [e3]; exact e1, by rw [e4]; exact e2⟩
      · exact Or.inr (keep c i h)
  obtain ⟨k2, k3⟩ := key is c hp hin (fun b hb _ => by rw [hl b hb]; decide)
  exact ⟨fun h => k2 (Or.inl h), fun h => k3 (Or.inl h)⟩

/-! ## One update -/

variable {m : List Nat} {g : Geo} {fp : Fp}

/-- What is heard of sample `i` when the buffers hold the blocks from `a` on. -/
def heard (m : List Nat) (g : Geo) (a i : Int) : Int := if i / g.B < a + g.N then fileSample m i.toNat else 0

theorem FWin.len {mm : Int} {c : Cache} {a : Int} {L : Nat} (h : FWin m g mm c a L) : L ≤ g.N := by
  have := h.reached.len
  rw [← List.length_map (f := Buf.index), h.ix] at this
  simpa [up] using this

/-- What is buffered. -/
theorem FWin.has (hB : g.B < 16384) {mm : Int} {c : Cache} {a : Int} {L : Nat} (h : FWin m g mm c a L) {i : Int}
    (hi : InFile m i) (h1 : a ≤ i / g.B) : Buffered g c i ↔ i / g.B < a + g.N := by
  have hL := h.len
  constructor
  · rintro ⟨b, hb, e, _⟩
    have := mem_up.1 (mem_index h.ix hb)
    omega
  · intro h2
    have : i / g.B ∈ c.bufs.map Buf.index := by
      rw [h.ix, mem_up]
      refine ⟨h1, ?_⟩
      rcases h.enough with e | e
      · omega
      · exact e i hi
    obtain ⟨b, hb, e⟩ := List.mem_map.1 this
    exact ⟨b, hb, e, index_size hB h.reached hb hi e⟩

/-- Reading samples from block `lo` on, and the reload after it. -/
theorem FWin.starve (hB : g.B < 16384) (hm : m.length < 4294967296) (hfit : (m.length : Int) / 2 + g.N * g.B ≤ 2147483647) {mm : Int} (hmm : 0 ≤ mm) {c : Cache}
    {a : Int} {L : Nat} (h : FWin m g mm c a L) {is : List Int} {i0 : Int} (hi0 : i0 ∈ is) (h1 : a ≤ i0 / g.B)
    (hin : ∀ i ∈ is, InFile m i ∧ i0 / g.B ≤ i / g.B) {fuel : Nat} {rate : ℚ} (hf : g.N ≤ fuel) (hr : 0 ≤ rate) :
    ∃ c', (c.gets g is).2.triggerReload g fuel rate = .ok c' ∧ FWin m g mm c' (min (i0 / g.B) (a + g.N)) L := by
  have hB0 : (0 : Int) < g.B := by exact_mod_cast g.B_pos
  have hL := h.len
  obtain ⟨_, hsame, _⟩ := C15_read_only g is c
  have hin0 := (hin i0 hi0).1
  have hmin : min (i0 / g.B) (a + g.N) = min (i0 / g.B) (a + L) := by
    rcases h.enough with e | e
    · rw [e.1]
    · have := e i0 hin0
      rw [min_eq_left (by omega), min_eq_left (by omega)]
  have hL0 : 0 < L := by
    rcases h.enough with e | e
    · omega
    · have := e i0 hin0; omega
  rw [hmin]
  obtain ⟨lo, hlo⟩ : ∃ lo, lo = min (i0 / g.B) (a + L) := ⟨_, rfl⟩
  rw [← hlo]
  have hlo1 : a ≤ lo := by rw [hlo]; exact le_min h1 (by omega)
  have hlo2 : lo ≤ i0 / g.B := by rw [hlo]; exact min_le_left _ _
  have hlo3 : lo ≤ a + L := by rw [hlo]; exact min_le_right _ _
  have hst := gets_status_any g lo is c h.loaded (by rw [h.ix]; exact up_sorted a L) (fun i hi => by
    obtain ⟨f, l⟩ := hin i hi
    rw [(inFile_block (g := g) hm f).1]
    by_cases hh : Buffered g c i
    · exact Or.inr ⟨by omega, hh⟩
    · left
      intro b hb hcon
      exact hh ⟨b, hb, hcon⟩)
  have hfit2 : (lo + L) * g.B ≤ 2147483647 := by
    have h3 := (inFile_block (g := g) hm hin0).2.2
    have h4 := hin0.2
    have h5 : (L : Int) * g.B ≤ g.N * g.B := mul_le_mul_of_nonneg_right (by exact_mod_cast hL) (le_of_lt hB0)
    have h6 : lo * g.B ≤ i0 / g.B * g.B := mul_le_mul_of_nonneg_right hlo2 (le_of_lt hB0)
    rw [add_mul]
    omega
  obtain ⟨d, hd⟩ : ∃ d : Nat, lo = a + d := ⟨(lo - a).toNat, by omega⟩
  obtain ⟨c', k1, k2, k3, k4⟩ := Cache.triggerReload_fwd (g := g) hr (d := d) (fuel := fuel) (c := (c.gets g is).2) (a := a) (L := L)
    (by rw [hsame.2.2.2.1]; exact h.loop) (by rw [index_of_core hsame.2.1]; exact h.ix) (by omega) hL0 (by omega) h.a0 (by rw [← hd]; exact hfit2)
    (fun b hb hlt => hst.1 (List.ne_nil_of_mem hi0) b hb (by rw [hd]; exact hlt))
    (fun b hb he => by
      have hbi : b.index ∈ up a L := by rw [← h.ix, ← index_of_core hsame.2.1]; exact List.mem_map_of_mem hb
      have hb2 := mem_up.1 hbi
      have hlt : lo < a + L := by omega
      have e0 : lo = i0 / g.B := by
        rw [hlo] at hlt ⊢
        exact min_eq_left (le_of_lt (by rcases min_lt_iff.1 hlt with q | q; exact q; omega))
      have hbuf : Buffered g c i0 := (h.has hB hin0 h1).2 (by omega)
      rw [hst.2 ⟨i0, hi0, by rw [(inFile_block (g := g) hm hin0).1, e0], by rw [e0]; exact hbuf⟩ b hb (by omega)]
      decide)
  refine ⟨c', k1, (Reached.gets hm is h.reached).step hm (.reload fuel rate) k1, k3, by rw [hd]; exact k2, k4, by have := h.a0; omega, ?_⟩
  rcases h.enough with e | e
  · exact Or.inl e
  · exact Or.inr fun i hi => by have := e i hi; omega

/-- One update that reads the frames at `ps`, and servicing its event. -/
theorem starve_tick (hB : g.B < 16384) (hb : IsBytes m) (hm : m.length < 4294967296) (hfit : (m.length : Int) / 2 + g.N * g.B ≤ 2147483647)
    {r : Rd} {c : Cache} {a : Int} {L : Nat} (hw : FWin m g 0 c a L) (hp : r.playing = true) (hpl : Plain r) (hl : r.loopType = .none) (hpos : 0 ≤ r.pos1)
    (ha : a ≤ r.pos1 / g.B) {ps : List Int} {r' : Rd} (hps : posTrace fp blockSamples r = .ok (ps, r')) (hrate : 0 ≤ r'.rate)
    (hps0 : ps = [] ∨ r.pos1 ∈ ps) {E : Int} (hE : 2 * E ≤ m.length) (hpsm : ∀ p ∈ ps, r.pos1 ≤ p ∧ p + r.nch ≤ E)
    (nullOk : Bool) {fuel : Nat} (hf : g.N ≤ fuel + 1) {alloc : Nat → Bool}
    (hal : ((List.range r.nch.toNat).filter alloc).length = (List.range r.nch.toNat).length) :
    ∃ a', FileReader.tick fp g nullOk (fuel + 1) ⟨r, some c⟩ alloc = .ok (fxOf r.nch (ps.map (frameAt (heard m g a) r.nch)) alloc, a') ∧
      (ps.length ≠ blockSamples → ∃ s, a' = FileReader.close ⟨r', s⟩) ∧
      (ps.length = blockSamples → ∃ c', a' = ⟨r', some c'⟩ ∧ FWin m g 0 c' (min (r.pos1 / g.B) (a + g.N)) L ∧
        ((∀ i ∈ framesIdx r.nch ps, i / g.B < a + g.N) → c'.fails = c.fails)) := by
  have hB0 : (0 : Int) < g.B := by exact_mod_cast g.B_pos
  have hn := hpl.nch
  have hidx : ∀ i ∈ framesIdx r.nch ps, InFile m i ∧ r.pos1 / g.B ≤ i / g.B := by
    intro i hi
    obtain ⟨p, hp, q1, q2⟩ := mem_framesIdx.1 hi
    obtain ⟨e1, e3⟩ := hpsm p hp
    exact ⟨⟨by omega, by omega⟩, Int.ediv_le_ediv hB0 (by omega)⟩
  have hbd : ∀ p ∈ ps, InI32 p ∧ ∀ c : Nat, (c : Int) < r.nch → InI32 (p + c) := by
    intro p hp
    obtain ⟨e1, e3⟩ := hpsm p hp
    exact ⟨⟨by omega, by omega⟩, fun c hc => ⟨by omega, by omega⟩⟩
  have hread : ∀ {σ : Type} (S : Src σ) (s : σ), r.read fp S (fuel + 1) s blockSamples =
      srcFrames S r.nch s ps >>= fun x => .ok ⟨x.1, [], r', x.2⟩ := by
    intro σ S s
    unfold Rd.read
    rw [hp, if_neg (by decide), if_neg (by omega), if_neg (by omega)]
    exact readLoop_posTrace fp S fuel _ r r' ps s hpl hl hps hbd
  unfold FileReader.tick FileReader.update
  simp only
  rw [hp, update_on hn _ _ _ hal]
  unfold FileReader.read
  simp only
  rw [hread, srcFrames_file]
  simp only [ok_bind, pure_eq_ok]
  have hfr : ps.map (frameAt (fun i => (c.get g i).1) r.nch) = ps.map (frameAt (heard m g a) r.nch) := by
    refine List.map_congr_left fun p hp => ?_
    unfold frameAt
    refine List.map_congr_left fun k hk => ?_
    have hi : p + k ∈ framesIdx r.nch ps := mem_framesIdx.2 ⟨p, hp, by omega, by rw [List.mem_range] at hk; omega⟩
    obtain ⟨hin, hge⟩ := hidx _ hi
    show (c.get g (p + k)).1 = heard m g a (p + k)
    have hhas := hw.has hB hin (le_trans ha hge)
    have hsv := hw.reached.ok.serves hb hm hin
    unfold heard
    by_cases hlt : (p + (k : Int)) / g.B < a + g.N
    · rw [if_pos hlt, (hsv.1 (hhas.2 hlt)).1]
    · rw [if_neg hlt, (hsv.2 (fun hh => hlt (hhas.1 hh))).1]
  rw [hfr]
  set frames := ps.map (frameAt (heard m g a) r.nch) with hframes
  have hlen : frames.length = ps.length := by rw [hframes, List.length_map]
  by_cases hfull : frames.length = blockSamples
  · have e : (fxOf r.nch frames alloc).event = some .reload := by unfold fxOf; simp only [hfull, if_true]
    rw [e]
    simp only [FileReader.service, FileReader.triggerReload]
    have hne : r.pos1 ∈ ps := by
      rcases hps0 with e | e
      · rw [e] at hlen; rw [hlen] at hfull; exact absurd hfull (by decide)
      · exact e
    obtain ⟨c', hrl, hw'⟩ := hw.starve hB hm hfit (le_refl _) (mem_framesIdx.2 ⟨_, hne, le_refl _, by omega⟩) ha hidx hf (fp.f.nonneg hrate)
    rw [hrl]
    refine ⟨_, rfl, fun h => absurd (hlen.symm.trans hfull) h, fun _ => ⟨c', rfl, hw', fun hall => ?_⟩⟩
    rw [Cache.triggerReload_fails hrl]
    exact (gets_hits hw.reached.ok hb hm _ fun i hi => ⟨(hidx i hi).1, (hw.has hB (hidx i hi).1 (le_trans ha (hidx i hi).2)).2 (hall i hi)⟩).2
  · have e : (fxOf r.nch frames alloc).event = some .close := by unfold fxOf; simp only [hfull, if_false]
    rw [e]
    exact ⟨_, rfl, fun _ => ⟨_, rfl⟩, fun h => absurd (hlen.trans h) hfull⟩

/-- The same from memory. -/
theorem array_tick (hm : m.length < 4294967296) {r : Rd} (hp : r.playing = true) (hpl : Plain r) (hl : r.loopType = .none) (hpos : 0 ≤ r.pos1)
    {ps : List Int} {r' : Rd} (hps : posTrace fp blockSamples r = .ok (ps, r')) {E : Int} (hE : 2 * E ≤ m.length) (hpsm : ∀ p ∈ ps, r.pos1 ≤ p ∧ p + r.nch ≤ E)
    {fuel : Nat} {alloc : Nat → Bool} (hal : ((List.range r.nch.toNat).filter alloc).length = (List.range r.nch.toNat).length) :
    ArrayReader.tick fp (fuel + 1) ⟨r, some (toSamples m)⟩ alloc =
      .ok (fxOf r.nch (ps.map (frameAt (fun i => (toSamples m).getD i.toNat 0) r.nch)) alloc,
        if ps.length = blockSamples then ⟨r', some (toSamples m)⟩ else ⟨r'.stop, some (toSamples m)⟩) := by
  have hn := hpl.nch
  have hbd : ∀ p ∈ ps, InI32 p ∧ ∀ c : Nat, (c : Int) < r.nch → InI32 (p + c) := by
    intro p hp
    obtain ⟨e1, e3⟩ := hpsm p hp
    exact ⟨⟨by omega, by omega⟩, fun c hc => ⟨by omega, by omega⟩⟩
  have hread : ∀ {σ : Type} (S : Src σ) (s : σ), r.read fp S (fuel + 1) s blockSamples =
      srcFrames S r.nch s ps >>= fun x => .ok ⟨x.1, [], r', x.2⟩ := by
    intro σ S s
    unfold Rd.read
    rw [hp, if_neg (by decide), if_neg (by omega), if_neg (by omega)]
    exact readLoop_posTrace fp S fuel _ r r' ps s hpl hl hps hbd
  unfold ArrayReader.tick ArrayReader.update
  simp only
  rw [hp, update_on hn _ _ _ hal]
  unfold ArrayReader.read
  simp only
  rw [hread, srcFrames_array (toSamples m) r.nch ps (fun i hi => by
    obtain ⟨p, hp, q1, q2⟩ := mem_framesIdx.1 hi
    obtain ⟨e1, e3⟩ := hpsm p hp
    rw [toSamples_length]; omega)]
  simp only [ok_bind, pure_eq_ok]
  set frames := ps.map (frameAt (fun i => (toSamples m).getD i.toNat 0) r.nch) with hframes
  have hlen : frames.length = ps.length := by rw [hframes, List.length_map]
  by_cases hfull : frames.length = blockSamples
  · have e : (fxOf r.nch frames alloc).event = some .reload := by unfold fxOf; simp only [hfull, if_true]
    rw [e, if_pos (hlen.symm.trans hfull)]
    rfl
  · have e : (fxOf r.nch frames alloc).event = some .close := by unfold fxOf; simp only [hfull, if_false]
    rw [e, if_neg (fun h => hfull (hlen.trans h))]
    rfl

/-! ## The exact path -/

/-- The frames visited by a forward reader on the grid. -/
theorem Fwd.trace (fp : Fp) {p : Nat} {R : Int} : ∀ (n : Nat) (r : Rd) (x : ℚ), Fwd r p R x →
    ∃ r', posTrace fp n r = .ok ((forwardFrames x r.rate r.fileSamples n).map (fun i => r.header + i * r.nch), r') ∧
      Fwd r' p R (x + (forwardFrames x r.rate r.fileSamples n).length * r.rate) ∧ SameConf r r' ∧ r'.rate = r.rate
  | 0, r, x, h => ⟨r, rfl, by simpa [forwardFrames] using h, SameConf.refl r, rfl⟩
  | n + 1, r, x, h => by
    rw [forwardFrames_succ]
    unfold posTrace
    rw [h.atEnd]
    by_cases hx : ⌊x⌋ < r.fileSamples
    · obtain ⟨r2, h2, hf2, hr2, hc2, _⟩ := h.step fp hx
      obtain ⟨r', k1, k2, k3, k4⟩ := Fwd.trace fp n r2 (x + r.rate) hf2
      rw [if_neg (by simpa using hx), if_pos hx, h2]
      rw [hr2, hc2.fileSamples, hc2.header, hc2.nch] at k1
      simp only [ok_bind, k1]
      refine ⟨r', by rw [List.map_cons, h.pos], ?_, hc2.trans k3, k4.trans hr2⟩
      rw [hr2, hc2.fileSamples] at k2
      convert k2 using 1
      rw [List.length_cons]; push_cast; ring
    · rw [if_pos (by simpa using hx), if_neg hx]
      exact ⟨r, rfl, by simpa using h, SameConf.refl r, rfl⟩

end TVP
