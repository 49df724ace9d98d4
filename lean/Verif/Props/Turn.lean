import Verif.Lemmas.Turned
import Verif.Props.RawShift
import Verif.Props.TuneAlike

/-!
# C89 with interpolation at any speed up to normal, and while the speed changes

Backwards through a sound and forwards through the same sound turned round, whatever the speeds, however positions are rounded.
-/

namespace TVP
open Spec

variable {fp : Fp}

/-- The same done to a player that goes the other way. -/
def Deed.turned : Deed → Deed
  | .tick al => .tick al
  | .speed v => .speed (-v)

/-- Whatever is done from here on to the first player and turned round to the second, of what `ok` allows: the two do the same, update
for update, with the same blocks allocated, transmitted and released, and play equally long. -/
def SoundTurned (fp : Fp) (g g' : Geo) (nullOk nullOk' : Bool) (fuel fuel' : Nat) (a b : FileReader) (m : List Nat) (ok : Rd → ℚ → Prop) : Prop :=
  ∀ as : List Deed, Allowed fp fuel ok ⟨a.rd, some (samplesOf m)⟩ as →
    ∃ fxs a' b', a.acts fp g nullOk fuel as = .ok (fxs, a') ∧ b.acts fp g' nullOk' fuel' (as.map Deed.turned) = .ok (fxs, b') ∧ a'.rd.playing = b'.rd.playing

theorem alike_turned {k : Interp} {M H E n : Int} (hn : 1 ≤ n) (hE : ∃ F : Int, E = H + F * n) (hsym : Symmetric fp)
    {g g' : Geo} {nullOk nullOk' : Bool} {fuel fuel' : Nat} {m m' : List Nat} {ok ok' : Rd → ℚ → Prop}
    (hxy : ∀ i : Int, 0 ≤ i → H + i * n < E → ∀ ch : Nat, (ch : Int) < n → ∀ v w, (samplesOf m')[(H + i * n + ch).toNat]? = some v →
      (samplesOf m)[(M - (H + i * n) + ch).toNat]? = some w → v = w)
    (hok : ∀ r r' v, r'.interp = k → ok r v → ok' r' (-v) ∧ v < 0 ∧ (k ≠ .none → -1 ≤ v) ∧ (r.playing = true → r.header < r.pos1)) :
    ∀ (as : List Deed) {a b : FileReader}, LikeInMemoryAt fp g nullOk fuel a m ok → LikeInMemoryAt fp g' nullOk' fuel' b m' ok' →
      TurnedOn M H E n k (samplesOf m') (samplesOf m) ⟨b.rd, some (samplesOf m')⟩ ⟨a.rd, some (samplesOf m)⟩ → Allowed fp fuel ok ⟨a.rd, some (samplesOf m)⟩ as →
      ∃ fxs a' b', a.acts fp g nullOk fuel as = .ok (fxs, a') ∧ b.acts fp g' nullOk' fuel' (as.map Deed.turned) = .ok (fxs, b') ∧ a'.rd.playing = b'.rd.playing
  | [], a, b, _, _, h, _ => ⟨[], a, b, rfl, rfl, h.playing.symm⟩
  | .tick al :: as, a, b, ha, hb, h, hall => by
    obtain ⟨fx, a1, c1, t1, t2, t3⟩ := ha.tick al
    obtain ⟨fx', b1, d1, t1', t2', t3'⟩ := hb.tick al
    obtain ⟨k1, k2⟩ := (TurnedOn.tick hn hE hxy hsym h al) _ _ t2' t2
    simp only at k1 k2
    subst k1
    have ha1 := ha.after_tick t1 t2 t3 k2.src'
    have hb1 := hb.after_tick t1' t2' t3' k2.src
    have hall1 := hall _ _ t2
    obtain ⟨rc, sc⟩ := c1
    obtain ⟨rd, sd⟩ := d1
    have k3 := k2.src'
    have k4 := k2.src
    simp only at t3 t3' k3 k4
    subst t3 t3' k3 k4
    obtain ⟨fxs, a2, b2, e1, e2, e3⟩ := alike_turned hn hE hsym hxy hok as ha1 hb1 k2 hall1
    refine ⟨fx' :: fxs, a2, b2, ?_, ?_, e3⟩
    · rw [FileReader.acts, t1]; simp only [ok_bind, e1]; rfl
    · rw [List.map_cons, Deed.turned, FileReader.acts, t1']; simp only [ok_bind, e2]; rfl
  | .speed v :: as, a, b, ha, hb, h, hall => by
    obtain ⟨hv, hall1⟩ := hall
    obtain ⟨w1, w2, w3, w4⟩ := hok a.rd b.rd v h.kind hv
    have h1 := h.speed (v := -v) (by linarith) (fun hk => by linarith [w3 hk]) w4
    rw [neg_neg] at h1
    exact alike_turned hn hE hsym hxy hok as (ha.after_speed hv) (hb.after_speed w1) h1 hall1

theorem samplesOf_some {m : List Nat} {j : Nat} {v : Int} (h : (samplesOf m)[j]? = some v) : v = fileSample m j := by
  unfold samplesOf at h
  rw [List.getElem?_map] at h
  obtain ⟨i, h1, h2⟩ := Option.map_eq_some_iff.1 h
  rw [List.getElem?_eq_some_iff] at h1
  obtain ⟨h3, h4⟩ := h1
  rw [List.getElem_range] at h4
  rw [← h2, h4]

theorem turned_memory {m m' : List Nat} {off off' nch F : Nat} (he : off % 2 = 0) (he' : off' % 2 = 0)
    (hrev : ∀ i j ch, i + j + 1 = F → ch < nch → dataSample m' (off' + 8) (i * nch + ch) = dataSample m (off + 8) (j * nch + ch)) {M : Int}
    (hM : M = ((off' + 8) / 2 : Nat) + ((off + 8) / 2 : Nat) + ((F : Int) - 1) * nch) (i : Int) (hi : 0 ≤ i)
    (hlt : (((off' + 8) / 2 : Nat) : Int) + i * nch < ((off' + 8) / 2 : Nat) + (F : Int) * nch) (ch : Nat) (hch : (ch : Int) < nch) (v w : Int)
    (hv : (samplesOf m')[(((off' + 8) / 2 : Nat) + i * nch + ch : Int).toNat]? = some v) (hw : (samplesOf m)[(M - (((off' + 8) / 2 : Nat) + i * nch) + ch : Int).toNat]? = some w) : v = w := by
  obtain ⟨i, rfl⟩ := Int.eq_ofNat_of_zero_le hi
  have hiF : i < F := by
    have : (i : Int) * nch < (F : Int) * nch := by linarith
    exact_mod_cast lt_of_mul_lt_mul_right this (Int.natCast_nonneg _)
  obtain ⟨j, hj⟩ : ∃ j, i + j + 1 = F := ⟨F - 1 - i, by omega⟩
  have e1 : ((((off' + 8) / 2 : Nat) : Int) + (i : Int) * nch + ch).toNat = (off' + 8) / 2 + (i * nch + ch) := by
    have : ((((off' + 8) / 2 : Nat) : Int) + (i : Int) * nch + ch) = (((off' + 8) / 2 + (i * nch + ch) : Nat) : Int) := by push_cast; ring
    rw [this, Int.toNat_natCast]
  have e2 : (M - ((((off' + 8) / 2 : Nat) : Int) + (i : Int) * nch) + ch).toNat = (off + 8) / 2 + (j * nch + ch) := by
    have : (M - ((((off' + 8) / 2 : Nat) : Int) + (i : Int) * nch) + ch) = (((off + 8) / 2 + (j * nch + ch) : Nat) : Int) := by
      rw [hM, ← hj]; push_cast; ring
    rw [this, Int.toNat_natCast]
  rw [e1] at hv
  rw [e2] at hw
  rw [samplesOf_some hv, samplesOf_some hw, fileSample_data m' (by omega), fileSample_data m (by omega)]
  exact hrev i j ch hj (by exact_mod_cast hch)

/-- What is asked of the two players before they open the files. -/
structure TurnedSettings (a b : Rd) : Prop where
  dual : a.dual = false
  dual' : b.dual = false
  loop : a.loopType = .none
  loop' : b.loopType = .none
  fwd : 0 < b.rate
  rate : a.rate = -b.rate
  rem : b.rem = -a.rem
  rem0 : a.rem ≤ 0
  kind : a.interp = b.interp
  held : b.interp ≠ .none → a.pts = b.pts
  calm : b.interp ≠ .none → b.rate ≤ 1

theorem turned_open {a b : Rd} (h : TurnedSettings a b) {H H' nch F S S' Q : Nat} (hc : 1 ≤ nch) (hQ : Q / nch = F) (hF : H' + F * nch < 2 ^ 30) (hF' : H + F * nch < 2 ^ 30)
    {s : Nat}
    (hP : StartsBackAt a ((S : Int) / 2) H F nch (H + s * nch : Nat)) (hq : (s : Int) + (if b.playStart = .arbitrary then b.playbackStart else 0) = (F : Int) - 1)
    (hq0 : b.playStart = .arbitrary → 0 ≤ b.playbackStart) :
    Turned ((H' : Int) + H + ((F : Int) - 1) * nch) H' (H' + (F : Int) * nch) nch b.interp (openedRd (beforeRd b S' H' Q nch)) (openedRd (beforeRd a S H Q nch)) := by
  have t1 : ((Q : Int)).tdiv (nch : Int) = F := by
    rw [Int.tdiv_eq_ediv_of_nonneg (by omega), ← hQ]; rfl
  have hn0 : (1 : Int) ≤ nch := by exact_mod_cast hc
  have hFz : ((H' : Int) + (F : Int) * nch) < 2 ^ 30 := by exact_mod_cast hF
  have hFz' : ((H : Int) + (F : Int) * nch) < 2 ^ 30 := by exact_mod_cast hF'
  have hFn : (F : Int) ≤ (F : Int) * nch := by
    have := Int.mul_le_mul_of_nonneg_left hn0 (Int.natCast_nonneg F)
    linarith
  have hH0 : (0 : Int) ≤ H := Int.natCast_nonneg _
  have hH0' : (0 : Int) ≤ H' := Int.natCast_nonneg _
  have hF0 : (0 : Int) ≤ F := Int.natCast_nonneg _
  have q1 : i32 (if b.loopType = .none then 0 else b.loopStart) = 0 := by rw [if_pos h.loop']; rfl
  have q2 : i32 (if b.loopType = .none then (F : Int) else b.loopFinish) = F := by rw [if_pos h.loop']; exact i32_small' (by linarith) (by linarith)
  have q1' : i32 (if a.loopType = .none then 0 else a.loopStart) = 0 := by rw [if_pos h.loop]; rfl
  have q2' : i32 (if a.loopType = .none then (F : Int) else a.loopFinish) = F := by rw [if_pos h.loop]; exact i32_small' (by linarith) (by linarith)
  rw [openedRd_at (r := beforeRd b S' H' Q nch) t1 q1 q2, openedRd_at (r := beforeRd a S H Q nch) t1 q1' q2']
  have hpos : ∀ (G : Int) (x : Int), 0 ≤ G → 0 ≤ x → x ≤ F → G + (F : Int) * nch < 2 ^ 30 → i32 (u32 (G + x * nch)) = G + x * nch := by
    intro G x h1 h2 h3 h4
    have k1 : x * nch ≤ F * nch := Int.mul_le_mul_of_nonneg_right h3 (by linarith)
    have k2 : 0 ≤ x * nch := Int.mul_nonneg h2 (by linarith)
    exact i32_u32_small (by linarith) (by linarith)
  obtain ⟨x, hx⟩ : ∃ x, (if b.playStart = .arbitrary then b.playbackStart else 0) = x := ⟨_, rfl⟩
  rw [hx] at hq
  have hx0 : 0 ≤ x := by
    rw [← hx]; split
    · rename_i hh; exact hq0 hh
    · exact le_rfl
  have hs0 : (0 : Int) ≤ s := Int.natCast_nonneg _
  have hsz : ((S : Int)).tdiv 2 = (S : Int) / 2 := Int.tdiv_eq_ediv_of_nonneg (Int.natCast_nonneg _)
  have hP' : ((H + s * nch : Nat) : Int) = (H : Int) + (s : Int) * nch := by push_cast; ring
  rw [hP'] at hP
  have hsn : (s : Int) * nch ≤ (F : Int) * nch := Int.mul_le_mul_of_nonneg_right (by linarith) (by linarith)
  have hsn0 : 0 ≤ (s : Int) * nch := Int.mul_nonneg hs0 (by linarith)
  have pb : (openedAt (beforeRd b S' H' Q nch) 0 F F).pos1 = H' + x * nch := by
    have hr : b.rate ≥ 0 := le_of_lt h.fwd
    unfold openedAt Rd.reset beforeRd
    simp only [Rd.posOf, Rd.s2s, if_pos hr]
    cases hps : b.playStart with
    | sample =>
      rw [hps, if_neg (by decide)] at hx
      rw [← hx]; exact hpos H' 0 hH0' le_rfl hF0 hFz
    | loop =>
      rw [hps, if_neg (by decide)] at hx
      rw [← hx]; exact hpos H' 0 hH0' le_rfl hF0 hFz
    | arbitrary =>
      rw [hps, if_pos rfl] at hx
      rw [← hx]; exact hpos H' _ hH0' (hx ▸ hx0) (by rw [hx]; linarith) hFz
  have pa : (openedAt (beforeRd a S H Q nch) 0 F F).pos1 = H + (s : Int) * nch := by
    have hr : ¬ a.rate ≥ 0 := by rw [h.rate]; have := h.fwd; intro hcc; linarith
    unfold openedAt Rd.reset beforeRd
    unfold StartsBackAt at hP
    simp only [Rd.posOf, Rd.s2s, if_neg hr]
    cases hps : a.playStart with
    | sample =>
      rw [hps] at hP; simp only at hP ⊢
      rw [hsz, ← hP]; exact i32_small' (by linarith) (by linarith)
    | loop =>
      rw [hps] at hP; simp only at hP ⊢
      rw [← hP]; exact i32_u32_small (by linarith) (by linarith)
    | arbitrary =>
      rw [hps] at hP; simp only at hP ⊢
      rw [← hP]; exact i32_u32_small (by linarith) (by linarith)
  have hbot : (openedAt (beforeRd a S H Q nch) 0 F F).posOf 0 = H := by
    have := hpos H 0 hH0 le_rfl hF0 hFz'
    rw [Int.zero_mul, Int.add_zero] at this
    unfold openedAt Rd.reset beforeRd
    simp only [Rd.posOf, Rd.s2s, Int.zero_mul, Int.add_zero]
    exact this
  have hHH : (H : Int) = (H' : Int) + H + ((F : Int) - 1) * nch - (H' + (F : Int) * nch) + nch := by ring
  refine ⟨rfl, ?_, ?_, ⟨x, ?_⟩, ?_, ?_, ?_, rfl, h.rate, h.fwd, ?_, ?_, rfl, rfl, ?_, rfl, h.kind, h.dual', h.dual, h.loop', h.loop, h.calm⟩
  · rw [pa, pb]
    have : (s : Int) + x = F - 1 := hq
    rw [← this]; ring
  · rw [pb]; have := Int.mul_nonneg hx0 (show (0 : Int) ≤ nch by linarith); linarith
  · exact pb
  · exact hpos H' F hH0' hF0 le_rfl hFz
  · rw [← hHH]
    split
    · rfl
    · exact hbot
  · exact hHH
  · show a.rem = -b.rem
    rw [h.rem, neg_neg]
  · show 0 ≤ b.rem
    rw [h.rem]; linarith [h.rem0]
  · intro hk
    have hp := h.held hk
    show (fun c => if c < 8 then { a.pts c with n := 0 } else a.pts c) = fun c => if c < 8 then { b.pts c with n := 0 } else b.pts c
    rw [hp]

/-- **C89** (whenever both are read as from memory).  Let the frames of the sound of `m'` be those of `m` in reverse.  A player opens `m`
backwards from frame `s`, another one `m'` forwards from the frame that corresponds to it, with the same interpolation (up to normal
speed, with the same values held from before).  If both then play like players with their files in memory, they do the same, update for
update, whatever changes of speed `ok` allows; however positions are rounded, if rounding treats both signs alike.

Missing: the second head, loops, interpolation above normal speed. -/
theorem C89_streams_partial (hsym : Symmetric fp) {g g' : Geo} {nullOk nullOk' : Bool} {fuel fuel' : Nat} {a a' b b' : FileReader} {m m' : List Nat} {off off' nch D : Nat}
    (hw : WavFile m off nch D) (hw' : WavFile m' off' nch D)
    (hrev : ∀ i j ch, i + j + 1 = D / 2 / nch → ch < nch → dataSample m' (off' + 8) (i * nch + ch) = dataSample m (off + 8) (j * nch + ch))
    {past past' : Bool} {junk junk' : List Nat} (hj : junk.length = 36) (hj' : junk'.length = 36) (hc' : nch ≤ 32767) (hset : TurnedSettings a.rd b.rd) {s : Nat}
    (hP : StartsBackAt a.rd ((m.length : Int) / 2) ((off + 8) / 2 : Nat) (D / 2 / nch : Nat) nch ((off + 8) / 2 + s * nch : Nat))
    (hq : (s : Int) + (if b.rd.playStart = .arbitrary then b.rd.playbackStart else 0) = (D / 2 / nch : Nat) - 1)
    (hq0 : b.rd.playStart = .arbitrary → 0 ≤ b.rd.playbackStart) {ok ok' : Rd → ℚ → Prop}
    (hok : ∀ r r' v, r'.interp = b.rd.interp → ok r v → ok' r' (-v) ∧ v < 0 ∧ (b.rd.interp ≠ .none → -1 ≤ v) ∧ (r.playing = true → r.header < r.pos1))
    (hback : a.playWav g (some ⟨m, 0, past⟩) junk = .ok (true, a')) (hfwd : b.playWav g' (some ⟨m', 0, past'⟩) junk' = .ok (true, b'))
    (h : LikeInMemoryAt fp g nullOk fuel a' m ok) (h' : LikeInMemoryAt fp g' nullOk' fuel' b' m' ok') :
    SoundTurned fp g g' nullOk nullOk' fuel fuel' a' b' m ok := by
  have hc := hw.some
  have e1 := playWav_rd hw hj hc' hback
  have e2 := playWav_rd hw' hj' hc' hfwd
  have b1 : (off + 8) / 2 + D / 2 / nch * nch < 2 ^ 30 := by
    have h1 := hw.inFile; have h2 := hw.small; have h3 := Nat.div_mul_le_self (D / 2) nch
    clear hP hq hok h h' hrev hw hw' hback hfwd e1 e2
    generalize D / 2 / nch * nch = x at *
    generalize m.length = y at *
    omega
  have b2 : (off' + 8) / 2 + D / 2 / nch * nch < 2 ^ 30 := by
    have h1 := hw'.inFile; have h2 := hw'.small; have h3 := Nat.div_mul_le_self (D / 2) nch
    clear hP hq hok h h' hrev hw hw' hback hfwd e1 e2
    generalize D / 2 / nch * nch = x at *
    generalize m'.length = y at *
    omega
  have ht := turned_open hset (H := (off + 8) / 2) (H' := (off' + 8) / 2) (S := m.length) (S' := m'.length) hc (rfl : D / 2 / nch = _) b2 b1 hP hq hq0
  rw [← e1, ← e2] at ht
  intro as hall
  exact alike_turned (by exact_mod_cast hc) ⟨_, rfl⟩ hsym (fun i hi hlt ch hch v w => turned_memory hw.even hw'.even hrev rfl i hi hlt ch hch v w) hok as h h'
    ⟨fun _ => ht, ht.playing, ht.chans, ht.chans', ht.kind, rfl, rfl⟩ hall

/-- **C89** (any speed, changed while playing).  Without interpolation `m` played backwards sounds exactly like `m'` played forwards,
update for update, while the speed of both is changed again and again, always by the same amount, up to `R`. -/
theorem C89_speeds_partial (fp : Fp) (hfp : Representable fp) (hsym : Symmetric fp) {g g' : Geo} (hB : g.B < 16384) (hB' : g'.B < 16384) (hNB : g.N * g.B ≤ 2 ^ 30) (hNB' : g'.N * g'.B ≤ 2 ^ 30)
    (a b : FileReader) {m m' : List Nat} {off off' nch D : Nat} (hw : WavFile m off nch D) (hw' : WavFile m' off' nch D)
    (hrev : ∀ i j ch, i + j + 1 = D / 2 / nch → ch < nch → dataSample m' (off' + 8) (i * nch + ch) = dataSample m (off + 8) (j * nch + ch))
    (past past' : Bool) (junk junk' : List Nat) (hj : junk.length = 36) (hj' : junk'.length = 36) (hc' : nch ≤ 32767) {R mm mm' : Int}
    (hset : BackwardSettings fp a.rd R) (hset' : SmoothSettings b.rd R) (hi : b.rd.interp = .none) (hrate : a.rd.rate = -b.rd.rate)
    (hrem : b.rd.rem = -a.rd.rem) (hrem0 : a.rd.rem ≤ 0) {s : Nat}
    (hP : StartsBackAt a.rd ((m.length : Int) / 2) ((off + 8) / 2 : Nat) (D / 2 / nch : Nat) nch ((off + 8) / 2 + s * nch : Nat))
    (hq : (s : Int) + (if b.rd.playStart = .arbitrary then b.rd.playbackStart else 0) = (D / 2 / nch : Nat) - 1)
    (hq0 : b.rd.playStart = .arbitrary → 0 ≤ b.rd.playbackStart)
    (hgood : GoodStart g m ((off + 8) / 2 : Nat) nch ((off + 8) / 2 + s * nch : Nat))
    (hmm0 : 0 ≤ mm) (hmm : 2 * mm + 1 ≤ g.N) (hadv : 128 * (nch * (R + 1)) ≤ mm * g.B)
    (hmm0' : 0 ≤ mm') (hmm' : 2 * mm' + 1 ≤ g'.N) (hadv' : 128 * (nch * (R + 1)) + nch ≤ mm' * g'.B)
    (nullOk nullOk' : Bool) {fuel fuel' : Nat} (hf : g.N ≤ fuel + 1) (hf' : g'.N ≤ fuel' + 1) :
    ∃ a' b', a.playWav g (some ⟨m, 0, past⟩) junk = .ok (true, a') ∧ b.playWav g' (some ⟨m', 0, past'⟩) junk' = .ok (true, b') ∧
      SoundTurned fp g g' nullOk nullOk' (fuel + 1) (fuel' + 1) a' b' m (SpeedsBack fp R) := by
  have hneg : ∀ v : ℚ, fp.f.rnd v < 0 → v < 0 := fun v h => by
    by_contra hcc
    exact absurd (fp.f.nonneg (not_lt.1 hcc)) (not_le.2 h)
  have hroom' : off' + 8 < m'.length := by
    have h1 := hw'.inFile
    have hD : 0 < D := by
      rcases Nat.eq_zero_or_pos D with h | h
      · subst h
        have hq' : 0 ≤ (if b.rd.playStart = .arbitrary then b.rd.playbackStart else 0) := by
          split
          · rename_i h; exact hq0 h
          · exact le_refl _
        simp only [Nat.zero_div, Nat.cast_zero] at hq
        omega
      · exact h
    omega
  have hst : b.rd.playStart = .arbitrary → 0 ≤ b.rd.playbackStart ∧ b.rd.playbackStart ≤ (D / 2 / nch : Nat) := fun h => by
    rw [if_pos h] at hq
    exact ⟨hq0 h, by linarith [Int.natCast_nonneg s]⟩
  obtain ⟨a', k1, -, -, -, -, -, -, -, k2⟩ := C72_back_wav_partial fp hfp g hB hNB a hw.bytes hw.small past junk hj hw.good hw.depth hw.data hw.chans hw.some hc' hw.len hw.inFile
    hset hP hgood hmm0 hmm hadv nullOk hf
  obtain ⟨b', l1, -, -, -, -, -, -, -, -, l2⟩ := C72_smooth_wav_partial fp hfp g' hB' hNB' b hw'.bytes hw'.small past' junk' hj' hw'.good hw'.depth hw'.data hw'.chans hw'.some hc' hw'.len
    hw'.inFile hroom' hset' (fun h => absurd hi h) hst hmm0' hmm' hadv' nullOk' hf'
  have hr := hneg _ hset.rateF
  refine ⟨a', b', k1, l1, C89_streams_partial hsym hw hw' hrev hj hj' hc' ⟨hset.plain.dual, hset'.dual, hset.loop, hset'.loop, by linarith, hrate, hrem, hrem0,
    hset.plain.interp.trans hi.symm, fun h => absurd hi h, fun h => absurd hi h⟩ hP hq hq0 (fun r r' v hk hv => ?_) k1 l1 k2 l2⟩
  refine ⟨⟨by linarith [hneg _ hv.1], by linarith [hv.2.1], fun h => ?_, fun h => ?_⟩, hneg _ hv.1, fun h => absurd hi h, hv.2.2⟩
  · rw [hk, hi] at h; cases h
  · rw [hk, hi] at h; cases h

/-- **C89** (with interpolation up to normal speed, at any such speed, changed while playing).  Likewise with linear or cubic
interpolation, if the values held from the sounds before are the same. -/
theorem C89_smooth_speeds_partial (fp : Fp) (hfp : Representable fp) (hsym : Symmetric fp) {g g' : Geo} (hB : g.B < 16384) (hB' : g'.B < 16384) (hNB : g.N * g.B ≤ 2 ^ 30) (hNB' : g'.N * g'.B ≤ 2 ^ 30)
    (a b : FileReader) {m m' : List Nat} {off off' nch D : Nat} (hw : WavFile m off nch D) (hw' : WavFile m' off' nch D)
    (hrev : ∀ i j ch, i + j + 1 = D / 2 / nch → ch < nch → dataSample m' (off' + 8) (i * nch + ch) = dataSample m (off + 8) (j * nch + ch))
    (past past' : Bool) (junk junk' : List Nat) (hj : junk.length = 36) (hj' : junk'.length = 36) (h8 : nch ≤ 8) {mm mm' : Int}
    (hset : BackwardSettings fp a.rd 1) (hset' : SmoothSettings b.rd 1) (hrate : a.rd.rate = -b.rd.rate)
    (hrem : b.rd.rem = -a.rd.rem) (hrem0 : a.rd.rem ≤ 0) (hheld : a.rd.pts = b.rd.pts) {s : Nat}
    (hP : StartsBackAt a.rd ((m.length : Int) / 2) ((off + 8) / 2 : Nat) (D / 2 / nch : Nat) nch ((off + 8) / 2 + s * nch : Nat))
    (hq : (s : Int) + (if b.rd.playStart = .arbitrary then b.rd.playbackStart else 0) = (D / 2 / nch : Nat) - 1)
    (hq0 : b.rd.playStart = .arbitrary → 0 ≤ b.rd.playbackStart)
    (hgood : GoodStart g m ((off + 8) / 2 : Nat) nch ((off + 8) / 2 + s * nch : Nat))
    (hmm0 : 0 ≤ mm) (hmm : 2 * mm + 1 ≤ g.N) (hadv : 128 * (nch * 2) ≤ mm * g.B)
    (hmm0' : 0 ≤ mm') (hmm' : 2 * mm' + 1 ≤ g'.N) (hadv' : 128 * (nch * 2) + nch ≤ mm' * g'.B)
    (nullOk nullOk' : Bool) {fuel fuel' : Nat} (hf : g.N ≤ fuel + 1) (hf' : g'.N ≤ fuel' + 1) :
    ∃ a' b', (a.withInterp b.rd.interp).playWav g (some ⟨m, 0, past⟩) junk = .ok (true, a') ∧ b.playWav g' (some ⟨m', 0, past'⟩) junk' = .ok (true, b') ∧
      SoundTurned fp g g' nullOk nullOk' (fuel + 1) (fuel' + 1) a' b' m (UpToNormal b.rd.interp (SpeedsBack fp 1)) := by
  have hneg : ∀ v : ℚ, fp.f.rnd v < 0 → v < 0 := fun v h => by
    by_contra hcc
    exact absurd (fp.f.nonneg (not_lt.1 hcc)) (not_le.2 h)
  have hroom' : off' + 8 < m'.length := by
    have h1 := hw'.inFile
    have hD : 0 < D := by
      rcases Nat.eq_zero_or_pos D with h | h
      · subst h
        have hq' : 0 ≤ (if b.rd.playStart = .arbitrary then b.rd.playbackStart else 0) := by
          split
          · rename_i h; exact hq0 h
          · exact le_refl _
        simp only [Nat.zero_div, Nat.cast_zero] at hq
        omega
      · exact h
    omega
  have hst : b.rd.playStart = .arbitrary → 0 ≤ b.rd.playbackStart ∧ b.rd.playbackStart ≤ (D / 2 / nch : Nat) := fun h => by
    rw [if_pos h] at hq
    exact ⟨hq0 h, by linarith [Int.natCast_nonneg s]⟩
  have hpts : PtsOk a.rd := by
    intro c
    rw [hheld]
    exact hset'.pts c
  have hc' : nch ≤ 32767 := by clear hP hgood hq; omega
  obtain ⟨a', k1, -, -, -, -, -, k2⟩ := C82_back_wav_partial hfp b.rd.interp g hB hNB a hw.bytes hw.small past junk hj hw.good hw.depth hw.data hw.chans hw.some h8 hw.len hw.inFile
    hset (fun _ => hrem0) hpts hP hgood hmm0 hmm hadv nullOk hf
  obtain ⟨b', l1, -, -, -, -, -, -, -, -, l2⟩ := C72_smooth_wav_partial fp hfp g' hB' hNB' b hw'.bytes hw'.small past' junk' hj' hw'.good hw'.depth hw'.data hw'.chans hw'.some hc' hw'.len
    hw'.inFile hroom' hset' (fun _ => h8) hst hmm0' hmm' hadv' nullOk' hf'
  have hr := hneg _ hset.rateF
  refine ⟨a', b', k1, l1, C89_streams_partial (a := a.withInterp b.rd.interp) hsym hw hw' hrev hj hj' hc' ⟨hset.plain.dual, hset'.dual, hset.loop, hset'.loop, by linarith, hrate, hrem, hrem0,
    rfl, fun _ => hheld, fun _ => by have := hset'.rateR; push_cast at this; exact this⟩ hP hq hq0 (fun r r' v hk hv => ?_) k1 l1 k2 l2⟩
  have hv1 := (abs_le.1 hv.2.1).1
  exact ⟨⟨by linarith [hneg _ hv.1.1], by push_cast; linarith, fun _ => by linarith, fun _ h => absurd h (not_lt.2 (by linarith))⟩, hneg _ hv.1.1, fun _ => hv1, hv.1.2.2⟩

theorem exTenth_smooth : SmoothSettings exTenth.rd 1 where
  dual := rfl
  loop := rfl
  rate0 := exTenth_settings.rate0
  rateR := exTenth_settings.rateR
  flt := exTenth_settings.flt
  frac := exTenth_settings.frac
  rem0 := fun _ => le_refl _
  linear := fun h => nomatch h
  cubic := fun h => nomatch h
  pts := pts_new

/-- A new player at a tenth of the speed, with linear interpolation. -/
def exTenthSmooth : FileReader := { rd := { rate := tenth, interp := .linear } }

theorem exTenthSmooth_settings : SmoothSettings exTenthSmooth.rd 1 where
  dual := rfl
  loop := rfl
  rate0 := exTenth_settings.rate0
  rateR := exTenth_settings.rateR
  flt := exTenth_settings.flt
  frac := exTenth_settings.frac
  rem0 := fun _ => le_refl _
  linear := fun _ h => absurd h (by norm_num [exTenthSmooth, tenth])
  cubic := fun h => nomatch h
  pts := pts_new

/-- A file backwards from a tenth of the speed on, its reverse forwards; the speed of both may change. -/
example : ∃ a' b', exMinusTenth.playWav sdGeo (some ⟨exWav, 0, false⟩) (List.replicate 36 7) = .ok (true, a') ∧
    exTenth.playWav ⟨9, 5, fun _ => []⟩ (some ⟨exVaw, 0, true⟩) (List.replicate 36 0) = .ok (true, b') ∧
    SoundTurned Fp.ieee sdGeo ⟨9, 5, fun _ => []⟩ true false (6 + 1) (6 + 1) a' b' exWav (SpeedsBack Fp.ieee 1) :=
  C89_speeds_partial Fp.ieee ieee_representable ieee_symmetric (by decide) (by decide) (by decide) (by decide) exMinusTenth exTenth exWav_file exVaw_file exVaw_reversed false true
    (List.replicate 36 7) (List.replicate 36 0) (by decide) (by decide) (by decide) (R := 1) (mm := 1) (mm' := 2) exMinusTenth_settings exTenth_smooth rfl
    rfl (by norm_num [exMinusTenth, exTenth]) (by norm_num [exMinusTenth]) (s := 1) (by show ((_ : Nat) : Int) = _; decide) (by decide)
    (by intro h; cases h) ⟨by decide, by decide, by decide, by decide⟩ (by decide) (by decide) (by decide) (by decide) (by decide) (by decide) true false (by decide) (by decide)

/-- The same with linear interpolation. -/
example : ∃ a' b', (exMinusTenth.withInterp .linear).playWav sdGeo (some ⟨exWav, 0, false⟩) (List.replicate 36 7) = .ok (true, a') ∧
    exTenthSmooth.playWav ⟨9, 5, fun _ => []⟩ (some ⟨exVaw, 0, true⟩) (List.replicate 36 0) = .ok (true, b') ∧
    SoundTurned Fp.ieee sdGeo ⟨9, 5, fun _ => []⟩ true false (6 + 1) (6 + 1) a' b' exWav (UpToNormal .linear (SpeedsBack Fp.ieee 1)) :=
  C89_smooth_speeds_partial Fp.ieee ieee_representable ieee_symmetric (by decide) (by decide) (by decide) (by decide) exMinusTenth exTenthSmooth exWav_file exVaw_file exVaw_reversed false true
    (List.replicate 36 7) (List.replicate 36 0) (by decide) (by decide) (by decide) (mm := 1) (mm' := 2) exMinusTenth_settings exTenthSmooth_settings
    rfl (by norm_num [exMinusTenth, exTenthSmooth]) (by norm_num [exMinusTenth]) rfl (s := 1) (by show ((_ : Nat) : Int) = _; decide) (by decide)
    (by intro h; cases h) ⟨by decide, by decide, by decide, by decide⟩ (by decide) (by decide) (by decide) (by decide) (by decide) (by decide) true false (by decide) (by decide)

/-- The conditions of `C89_streams_partial` hold for the two. -/
example : TurnedSettings (exMinusTenth.withInterp .linear).rd exTenthSmooth.rd :=
  ⟨rfl, rfl, rfl, rfl, by norm_num [exTenthSmooth, tenth], rfl, by norm_num [exTenthSmooth, exMinusTenth, FileReader.withInterp, Rd.setInterp],
    by norm_num [exMinusTenth, FileReader.withInterp, Rd.setInterp], rfl, fun _ => rfl, fun _ => by norm_num [exTenthSmooth, tenth]⟩

/-- What may be done: play on, slow down to a half and play on. -/
example (a : FileReader) (h : ∀ fx b', ArrayReader.tick Fp.ieee 7 ⟨a.rd, some (samplesOf exWav)⟩ (fun _ => true) = .ok (fx, b') → b'.rd.playing = true → b'.rd.header < b'.rd.pos1) :
    Allowed Fp.ieee 7 (SpeedsBack Fp.ieee 1) ⟨a.rd, some (samplesOf exWav)⟩ [.tick fun _ => true, .speed (-1 / 2), .tick fun _ => true] :=
  fun fx b' e => ⟨⟨by decide +kernel, by norm_num, h fx b' e⟩, fun _ _ _ => trivial⟩

end TVP
