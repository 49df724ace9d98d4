import Verif.Lemmas.Alone
import Verif.Props.WrittenOut

/-!
# C93: a channel sounds the same alone

A channel of a sound with several channels sounds like a sound that has only that channel.
-/

namespace TVP
open Spec

variable {fp : Fp}

/-- Whatever is done to both players from here on, of what `ok` allows, with memory for the block of the single channel whenever there is memory for
the blocks of all `n` channels of the first: what the first sends to output `c`, the second sends to output 0, update for update, and they
play equally long. -/
def SoundsAlone (fp : Fp) (g g' : Geo) (nullOk nullOk' : Bool) (fuel fuel' : Nat) (a b : FileReader) (m : List Nat) (c n : Nat) (ok : Rd → ℚ → Prop) : Prop :=
  ∀ as : List Deed, Allowed fp fuel ok ⟨a.rd, some (samplesOf m)⟩ as →
    ∃ fxs fxs' a' b', a.acts fp g nullOk fuel as = .ok (fxs, a') ∧ b.acts fp g' nullOk' fuel' (as.map (Deed.alone n)) = .ok (fxs', b') ∧
      fxs.map (onOutput c) = fxs'.map (onOutput 0) ∧ a'.rd.playing = b'.rd.playing

theorem alike_alone {up : Bool} {k : Interp} {c N : Nat} {Hd H F back : Int} {fin : Int → Bool} (hn : 1 ≤ (N : Int)) (hc : (c : Int) < N)
    (hfin : ∀ i : Int, fin i = false → (up = true → i < F) ∧ (up = false → 0 ≤ i))
    {g g' : Geo} {nullOk nullOk' : Bool} {fuel fuel' : Nat} {m m' : List Nat} {ok ok' : Rd → ℚ → Prop}
    (hxy : ∀ i : Int, 0 ≤ i → i < F → ∀ v w, (samplesOf m)[(Hd + i * N + c).toNat]? = some v → (samplesOf m')[(H + i).toNat]? = some w → v = w)
    (hok : ∀ r r' v, r'.interp = k → r'.rem = r.rem → (r'.playing = true → r.header < r.pos1 → r'.header < r'.pos1) → r'.playing = r.playing → ok r v →
      ok' r' v ∧ (up = true → 0 ≤ v) ∧ (up = false → v < 0) ∧ (k ≠ .none → |v| ≤ 1) ∧ (up = false → r.playing = true → r.header < r.pos1)) :
    ∀ (as : List Deed) {a b : FileReader}, LikeInMemoryAt fp g nullOk fuel a m ok → LikeInMemoryAt fp g' nullOk' fuel' b m' ok' →
      AloneOn up k c N Hd H F back fin (samplesOf m) (samplesOf m') ⟨a.rd, some (samplesOf m)⟩ ⟨b.rd, some (samplesOf m')⟩ → Allowed fp fuel ok ⟨a.rd, some (samplesOf m)⟩ as →
      ∃ fxs fxs' a' b', a.acts fp g nullOk fuel as = .ok (fxs, a') ∧ b.acts fp g' nullOk' fuel' (as.map (Deed.alone N)) = .ok (fxs', b') ∧
        fxs.map (onOutput c) = fxs'.map (onOutput 0) ∧ a'.rd.playing = b'.rd.playing
  | [], a, b, _, _, h, _ => ⟨[], [], a, b, rfl, rfl, rfl, h.playing.symm⟩
  | .tick al :: as, a, b, ha, hb, h, hall => by
    obtain ⟨fx, a1, c1, t1, t2, t3⟩ := ha.tick al
    obtain ⟨fx', b1, d1, t1', t2', t3'⟩ := hb.tick (allOf N al)
    obtain ⟨⟨k1, -⟩, k2⟩ := (AloneOn.tick hn hc hfin hxy h al) _ _ t2 (by rw [Int.toNat_natCast]; exact t2')
    simp only at k1 k2
    have ha1 := ha.after_tick t1 t2 t3 k2.src
    have hb1 := hb.after_tick t1' t2' t3' k2.src'
    have hall1 := hall _ _ t2
    obtain ⟨rc, sc⟩ := c1
    obtain ⟨rd, sd⟩ := d1
    have k3 := k2.src
    have k4 := k2.src'
    simp only at t3 t3' k3 k4
    subst t3 t3' k3 k4
    obtain ⟨fxs, fxs', a2, b2, e1, e2, e3, e4⟩ := alike_alone hn hc hfin hxy hok as ha1 hb1 k2 hall1
    refine ⟨fx :: fxs, fx' :: fxs', a2, b2, ?_, ?_, ?_, e4⟩
    · rw [FileReader.acts, t1]; simp only [ok_bind, e1]; rfl
    · rw [List.map_cons, Deed.alone, FileReader.acts, t1']; simp only [ok_bind, e2]; rfl
    · rw [List.map_cons, List.map_cons, k1, e3]
  | .speed v :: as, a, b, ha, hb, h, hall => by
    obtain ⟨hv, hall1⟩ := hall
    have hpos : b.rd.playing = true → a.rd.header < a.rd.pos1 → b.rd.header < b.rd.pos1 := fun hp hlt => by
      have ht := h.rd (h.playing.symm.trans hp)
      obtain ⟨i, i1, i2, -, -⟩ := ht.place
      have e1 := ht.head
      have e2 := ht.head'
      simp only at i1 i2 e1 e2
      rw [e1, i1] at hlt
      rw [e2, i2]
      have : 0 * (N : Int) < i * N := by linarith
      linarith [lt_of_mul_lt_mul_right this (by linarith)]
    obtain ⟨w1, w2, w3, w4, w5⟩ := hok a.rd b.rd v h.kind' h.rem hpos h.playing hv
    exact alike_alone hn hc hfin hxy hok as (ha.after_speed hv) (hb.after_speed w1) (h.speed hn w2 w3 w4 w5) hall1

/-- What is asked of the two players before they open the files: the same settings. -/
structure AloneSettings (up : Bool) (c : Nat) (a b : Rd) : Prop where
  dual : a.dual = false
  dual' : b.dual = false
  loop : b.loopType = a.loopType
  rate : b.rate = a.rate
  dir : up = true → 0 ≤ a.rate
  dir' : up = false → a.rate < 0
  rem : b.rem = a.rem
  sign : up = true → 0 ≤ a.rem
  sign' : up = false → a.rem ≤ 0
  kind : b.interp = a.interp
  held : a.interp ≠ .none → c < 8 ∧ b.pts 0 = a.pts c
  calm : a.interp ≠ .none → |a.rate| ≤ 1

theorem alone_open {up : Bool} {c : Nat} {a b : Rd} (h : AloneSettings up c a b) {Hd H nch S S' Q Q' : Nat} {F back i : Int} {fin : Int → Bool}
    (hp : (openedRd (beforeRd a S Hd Q nch)).pos1 = Hd + i * nch) (hp' : (openedRd (beforeRd b S' H Q' 1)).pos1 = H + i) (hi : up = true → 0 ≤ i) (hi' : up = false → i < F)
    (he : ∀ i : Int, ({ openedRd (beforeRd a S Hd Q nch) with pos1 := Hd + i * nch } : Rd).atEnd = fin i)
    (he' : ∀ i : Int, ({ openedRd (beforeRd b S' H Q' 1) with pos1 := H + i } : Rd).atEnd = fin i)
    (hl : a.loopType = .none ∨ (a.loopType = .repeat ∧ up = true ∧ (openedRd (beforeRd a S Hd Q nch)).posOf (openedRd (beforeRd a S Hd Q nch)).loopStart = Hd + back * nch ∧
      (openedRd (beforeRd b S' H Q' 1)).posOf (openedRd (beforeRd b S' H Q' 1)).loopStart = H + back ∧ fin back = false ∧ 0 ≤ back)) :
    Alone up a.interp c nch Hd H F back fin (openedRd (beforeRd a S Hd Q nch)) (openedRd (beforeRd b S' H Q' 1)) where
  playing := rfl
  place := ⟨i, hp, hp', hi, hi'⟩
  ends := he
  ends' := he'
  loop := hl
  loop' := h.loop
  rate := h.rate
  dir := h.dir
  dir' := h.dir'
  rem := h.rem
  sign := h.sign
  sign' := h.sign'
  head := rfl
  head' := rfl
  chans := rfl
  chans' := rfl
  pts := fun hk => by
    obtain ⟨h1, h2⟩ := h.held hk
    show (if 0 < 8 then { b.pts 0 with n := 0 } else b.pts 0) = if c < 8 then { a.pts c with n := 0 } else a.pts c
    rw [if_pos h1, if_pos (by decide), h2]
  kind := rfl
  kind' := h.kind
  dual := h.dual
  dual' := h.dual'
  calm := h.calm

/-- A sound opened forwards from frame `x`, without a loop. -/
theorem opened_plain {a : Rd} {Hd nch S Q F : Nat} (hl : a.loopType = .none) (hd : a.dual = false) (hr : 0 ≤ a.rate) (hc : 1 ≤ nch) (hQ : Q / nch = F)
    (hF : Hd + F * nch < 2 ^ 30) (hst : a.playStart = .arbitrary → 0 ≤ a.playbackStart ∧ a.playbackStart ≤ F) :
    (openedRd (beforeRd a S Hd Q nch)).pos1 = Hd + (if a.playStart = .arbitrary then a.playbackStart else 0) * nch ∧
      (∀ p, ({ openedRd (beforeRd a S Hd Q nch) with pos1 := p } : Rd).atEnd = decide (p ≥ Hd + (F : Int) * nch)) := by
  have t1 : ((Q : Int)).tdiv (nch : Int) = F := by rw [Int.tdiv_eq_ediv_of_nonneg (by omega), ← hQ]; rfl
  have hn0 : (1 : Int) ≤ nch := by exact_mod_cast hc
  have hFz : ((Hd : Int) + (F : Int) * nch) < 2 ^ 30 := by exact_mod_cast hF
  have hFn : (F : Int) ≤ (F : Int) * nch := by
    have := Int.mul_le_mul_of_nonneg_left hn0 (Int.natCast_nonneg F)
    linarith
  have hH0 : (0 : Int) ≤ Hd := Int.natCast_nonneg _
  have hF0 : (0 : Int) ≤ F := Int.natCast_nonneg _
  have q1 : i32 (if a.loopType = .none then 0 else a.loopStart) = 0 := by rw [if_pos hl]; rfl
  have q2 : i32 (if a.loopType = .none then (F : Int) else a.loopFinish) = F := by rw [if_pos hl]; exact i32_small' (by linarith) (by linarith)
  have ea := openedRd_at (r := beforeRd a S Hd Q nch) t1 q1 q2
  have hp : ∀ x : Int, 0 ≤ x → x ≤ F → i32 (u32 ((Hd : Int) + x * nch)) = Hd + x * nch := by
    intro x h2 h3
    have k1 : x * nch ≤ F * nch := Int.mul_le_mul_of_nonneg_right h3 (by linarith)
    have k2 : 0 ≤ x * nch := Int.mul_nonneg h2 (by linarith)
    exact i32_u32_small (by linarith) (by linarith)
  have hr' : a.rate ≥ 0 := hr
  rw [ea]
  refine ⟨?_, fun p => ?_⟩
  · unfold openedAt Rd.reset beforeRd
    simp only [Rd.posOf, Rd.s2s, if_pos hr']
    cases hps : a.playStart with
    | sample => exact hp 0 le_rfl hF0
    | loop => exact hp 0 le_rfl hF0
    | arbitrary =>
      rw [if_pos rfl]
      exact hp _ (hst hps).1 (hst hps).2
  · have e := hp F hF0 le_rfl
    unfold openedAt Rd.reset beforeRd Rd.atEnd
    simp only [hd, Bool.false_eq_true, if_false, if_pos hr', if_pos hl, Rd.posOf, Rd.s2s, e]

/-- A sound opened backwards from frame `s`, without a loop. -/
theorem opened_behind {a : Rd} {Hd nch S Q F : Nat} (hl : a.loopType = .none) (hd : a.dual = false) (hr : a.rate < 0) (hc : 1 ≤ nch) (hQ : Q / nch = F)
    (hF : Hd + F * nch < 2 ^ 30) {s : Nat} (hs : s ≤ F) (hP : StartsBackAt a ((S : Int) / 2) Hd F nch (Hd + s * nch : Nat)) :
    (openedRd (beforeRd a S Hd Q nch)).pos1 = Hd + (s : Int) * nch ∧ (∀ p, ({ openedRd (beforeRd a S Hd Q nch) with pos1 := p } : Rd).atEnd = decide (p < Hd)) := by
  have t1 : ((Q : Int)).tdiv (nch : Int) = F := by rw [Int.tdiv_eq_ediv_of_nonneg (by omega), ← hQ]; rfl
  have hn0 : (1 : Int) ≤ nch := by exact_mod_cast hc
  have hFz : ((Hd : Int) + (F : Int) * nch) < 2 ^ 30 := by exact_mod_cast hF
  have hFn : (F : Int) ≤ (F : Int) * nch := by
    have := Int.mul_le_mul_of_nonneg_left hn0 (Int.natCast_nonneg F)
    linarith
  have hH0 : (0 : Int) ≤ Hd := Int.natCast_nonneg _
  have hF0 : (0 : Int) ≤ F := Int.natCast_nonneg _
  have q1 : i32 (if a.loopType = .none then 0 else a.loopStart) = 0 := by rw [if_pos hl]; rfl
  have q2 : i32 (if a.loopType = .none then (F : Int) else a.loopFinish) = F := by rw [if_pos hl]; exact i32_small' (by linarith) (by linarith)
  have ea := openedRd_at (r := beforeRd a S Hd Q nch) t1 q1 q2
  have hr' : ¬ a.rate ≥ 0 := not_le.2 hr
  have hsz : ((S : Int)).tdiv 2 = (S : Int) / 2 := Int.tdiv_eq_ediv_of_nonneg (Int.natCast_nonneg _)
  have hP' : ((Hd + s * nch : Nat) : Int) = (Hd : Int) + (s : Int) * nch := by push_cast; ring
  rw [hP'] at hP
  have hsn : (s : Int) * nch ≤ (F : Int) * nch := Int.mul_le_mul_of_nonneg_right (by exact_mod_cast hs) (by linarith)
  have hsn0 : 0 ≤ (s : Int) * nch := Int.mul_nonneg (Int.natCast_nonneg _) (by linarith)
  rw [ea]
  refine ⟨?_, fun p => ?_⟩
  · unfold openedAt Rd.reset beforeRd
    unfold StartsBackAt at hP
    simp only [Rd.posOf, Rd.s2s, if_neg hr']
    cases hps : a.playStart with
    | sample =>
      rw [hps] at hP; simp only at hP ⊢
      rw [hsz, ← hP]; exact i32_small' (by linarith) (by linarith)
    | loop =>
      rw [hps] at hP; simp only at hP ⊢
      rw [← hP]; exact i32_u32_small (by linarith) (by linarith)
    | arbitrary =>
      rw [hps] at hP; simp only at hP ⊢
      rw [← hP]; exact i32_u32_small (by linarith) (by linarith)
  · have e : i32 (u32 (Hd : Int)) = Hd := i32_u32_small (by linarith) (by linarith)
    unfold openedAt Rd.reset beforeRd Rd.atEnd
    simp only [hd, Bool.false_eq_true, if_false, if_neg hr', Rd.posOf, Rd.s2s, Int.zero_mul, Int.add_zero, e, ite_self]

theorem alone_memory {m m' : List Nat} {off off' nch c : Nat} (he : off % 2 = 0) (he' : off' % 2 = 0) {i : Int} (hi : 0 ≤ i)
    (h : dataSample m' (off' + 8) i.toNat = dataSample m (off + 8) (i.toNat * nch + c)) {v w : Int}
    (hv : (samplesOf m)[(((off + 8) / 2 : Nat) + i * nch + c : Int).toNat]? = some v) (hw : (samplesOf m')[(((off' + 8) / 2 : Nat) + i : Int).toNat]? = some w) : v = w := by
  obtain ⟨i, rfl⟩ := Int.eq_ofNat_of_zero_le hi
  have e1 : ((((off + 8) / 2 : Nat) : Int) + (i : Int) * nch + c).toNat = (off + 8) / 2 + (i * nch + c) := by
    have : ((((off + 8) / 2 : Nat) : Int) + (i : Int) * nch + c) = (((off + 8) / 2 + (i * nch + c) : Nat) : Int) := by push_cast; ring
    rw [this, Int.toNat_natCast]
  have e2 : ((((off' + 8) / 2 : Nat) : Int) + (i : Int)).toNat = (off' + 8) / 2 + i := by
    have : ((((off' + 8) / 2 : Nat) : Int) + (i : Int)) = (((off' + 8) / 2 + i : Nat) : Int) := by push_cast; ring
    rw [this, Int.toNat_natCast]
  rw [e1] at hv
  rw [e2] at hw
  rw [samplesOf_some hv, samplesOf_some hw, fileSample_data m (by omega), fileSample_data m' (by omega)]
  exact h.symm

/-- **C93** (forwards, whenever both are read as from memory).  The sound of `m'` has one channel, and it is channel `c` of the sound of `m`.  Two players with
the same settings (the same values held from before, if they interpolate; then up to normal speed) open them forwards, without a loop.  If both then
play like players with their files in memory, the second sends to its output what the first sends to output `c`.

Missing: the second head, loops back and forth, interpolation above normal speed. -/
theorem C93_streams_partial {g g' : Geo} {nullOk nullOk' : Bool} {fuel fuel' : Nat} {a a' b b' : FileReader} {m m' : List Nat} {off off' nch D D' : Nat}
    (hw : WavFile m off nch D) (hw' : WavFile m' off' 1 D') (hlen : D' / 2 = D / 2 / nch) {c : Nat} (hc : c < nch)
    (hchan : ∀ i, i < D / 2 / nch → dataSample m' (off' + 8) i = dataSample m (off + 8) (i * nch + c))
    {past past' : Bool} {junk junk' : List Nat} (hj : junk.length = 36) (hj' : junk'.length = 36) (hc' : nch ≤ 32767) (hset : AloneSettings true c a.rd b.rd)
    (hl : a.rd.loopType = .none) (hps : b.rd.playStart = a.rd.playStart) (hpb : b.rd.playbackStart = a.rd.playbackStart)
    (hst : a.rd.playStart = .arbitrary → 0 ≤ a.rd.playbackStart ∧ a.rd.playbackStart ≤ (D / 2 / nch : Nat)) {ok ok' : Rd → ℚ → Prop}
    (hok : ∀ r r' v, r'.interp = a.rd.interp → r'.rem = r.rem → ok r v → ok' r' v ∧ 0 ≤ v ∧ (a.rd.interp ≠ .none → v ≤ 1))
    (hmany : a.playWav g (some ⟨m, 0, past⟩) junk = .ok (true, a')) (hone : b.playWav g' (some ⟨m', 0, past'⟩) junk' = .ok (true, b'))
    (h : LikeInMemoryAt fp g nullOk fuel a' m ok) (h' : LikeInMemoryAt fp g' nullOk' fuel' b' m' ok') :
    SoundsAlone fp g g' nullOk nullOk' fuel fuel' a' b' m c nch ok := by
  have e1 := playWav_rd hw hj hc' hmany
  have e2 := playWav_rd hw' hj' (by decide) hone
  have hn0 : (1 : Int) ≤ nch := by exact_mod_cast hw.some
  have hQ : D' / 2 / 1 = D / 2 / nch := by rw [Nat.div_one]; exact hlen
  obtain ⟨o1, o2⟩ := opened_plain (S := m.length) hl hset.dual (hset.dir rfl) hw.some rfl (file_room hw) hst
  obtain ⟨p1, p2⟩ := opened_plain (S := m'.length) (hset.loop.trans hl) hset.dual' (by rw [hset.rate]; exact hset.dir rfl) (le_refl 1) hQ
    (by have := file_room hw'; rwa [hQ] at this) (by rw [hps, hpb]; exact hst)
  rw [hps, hpb, Nat.cast_one, Int.mul_one] at p1
  simp only [Nat.cast_one, Int.mul_one] at p2
  have hx : 0 ≤ (if a.rd.playStart = .arbitrary then a.rd.playbackStart else 0) := by
    split
    · rename_i hh; exact (hst hh).1
    · exact le_rfl
  have hn1 : (0 : Int) < nch := by linarith
  have hgrid : ∀ (G i : Int) (n : Int), 0 < n → decide (G + i * n ≥ G + ((D / 2 / nch : Nat) : Int) * n) = decide (i ≥ ((D / 2 / nch : Nat) : Int)) := fun G i n hn => by
    refine decide_eq_decide.2 ⟨fun hh => ?_, fun hh => ?_⟩
    · exact le_of_mul_le_mul_right (show ((D / 2 / nch : Nat) : Int) * n ≤ i * n by linarith) hn
    · have := Int.mul_le_mul_of_nonneg_right hh (le_of_lt hn)
      linarith
  have ht := alone_open (F := (D / 2 / nch : Nat)) (back := 0) (fin := fun i => decide (i ≥ ((D / 2 / nch : Nat) : Int))) hset o1 p1 (fun _ => hx) (fun h => nomatch h)
    (fun i => (o2 _).trans (hgrid _ _ _ hn1)) (fun i => (p2 _).trans (by have := hgrid (((off' + 8) / 2 : Nat) : Int) i 1 one_pos; rwa [Int.mul_one, Int.mul_one] at this)) (Or.inl hl)
  rw [← e1] at ht
  have e2' : b'.rd = openedRd (beforeRd b.rd m'.length ((off' + 8) / 2 : Nat) (D' / 2 : Nat) 1) := by rw [e2]; rfl
  rw [← e2'] at ht
  intro as hall
  refine alike_alone (up := true) hn0 (by exact_mod_cast hc) (fun i hi => ⟨fun _ => not_le.1 (of_decide_eq_false hi), (fun h => nomatch h)⟩)
    (fun i hi hlt v w hv hw1 => ?_) (fun r r' v hk hr _ _ hv => ?_) as h h' ⟨fun _ => ht, rfl.trans ht.playing.symm, ht.chans, ht.chans', ht.kind, ht.kind', ht.rem, rfl, rfl⟩ hall
  · refine alone_memory hw.even hw'.even hi (hchan _ ?_) hv hw1
    have ej : ((i.toNat : Nat) : Int) = i := Int.toNat_of_nonneg hi
    have : ((i.toNat : Nat) : Int) < (D / 2 / nch : Nat) := by rw [ej]; exact hlt
    exact_mod_cast this
  · obtain ⟨w1, w2, w3⟩ := hok r r' v hk hr hv
    exact ⟨w1, fun _ => w2, (fun h => nomatch h), fun hk => abs_le.2 ⟨by linarith, w3 hk⟩, (fun h => nomatch h)⟩

/-- **C93** (forwards in a repeated loop, whenever both are read as from memory): likewise. -/
theorem C93_loop_streams_partial {g g' : Geo} {nullOk nullOk' : Bool} {fuel fuel' : Nat} {a a' b b' : FileReader} {m m' : List Nat} {off off' nch D D' : Nat}
    (hw : WavFile m off nch D) (hw' : WavFile m' off' 1 D') {c : Nat} (hc : c < nch)
    (hchan : ∀ i : Nat, i < a.rd.loopFinish → dataSample m' (off' + 8) i = dataSample m (off + 8) (i * nch + c))
    {past past' : Bool} {junk junk' : List Nat} (hj : junk.length = 36) (hj' : junk'.length = 36) (hc' : nch ≤ 32767) (hset : AloneSettings true c a.rd b.rd)
    (hl : a.rd.loopType = .repeat) (hps : b.rd.playStart = a.rd.playStart) (hpb : b.rd.playbackStart = a.rd.playbackStart)
    (hA : b.rd.loopStart = a.rd.loopStart) (hZ : b.rd.loopFinish = a.rd.loopFinish) (A0 : 0 ≤ a.rd.loopStart) (AZ : a.rd.loopStart < a.rd.loopFinish)
    (hZm : 2 * (((off + 8) / 2 : Nat) + a.rd.loopFinish * nch) ≤ m.length) (hZm' : 2 * (((off' + 8) / 2 : Nat) + a.rd.loopFinish) ≤ m'.length)
    (hx : 0 ≤ firstFrame a.rd) (hxZ : firstFrame a.rd < a.rd.loopFinish) {ok ok' : Rd → ℚ → Prop}
    (hok : ∀ r r' v, r'.interp = a.rd.interp → r'.rem = r.rem → ok r v → ok' r' v ∧ 0 ≤ v ∧ (a.rd.interp ≠ .none → v ≤ 1))
    (hmany : a.playWav g (some ⟨m, 0, past⟩) junk = .ok (true, a')) (hone : b.playWav g' (some ⟨m', 0, past'⟩) junk' = .ok (true, b'))
    (h : LikeInMemoryAt fp g nullOk fuel a' m ok) (h' : LikeInMemoryAt fp g' nullOk' fuel' b' m' ok') :
    SoundsAlone fp g g' nullOk nullOk' fuel fuel' a' b' m c nch ok := by
  have e1 := playWav_rd hw hj hc' hmany
  have e2 := playWav_rd hw' hj' (by decide) hone
  have hn0 : (1 : Int) ≤ nch := by exact_mod_cast hw.some
  have hlen : (m.length : Int) < 2 ^ 31 := by exact_mod_cast hw.small
  have hlen' : (m'.length : Int) < 2 ^ 31 := by exact_mod_cast hw'.small
  have hff : firstFrame b.rd = firstFrame a.rd := by unfold firstFrame; rw [hps, hpb, hA]
  have hr := hset.dir rfl
  have hr' : 0 ≤ b.rd.rate := by rw [hset.rate]; exact hr
  obtain ⟨o1, o2, o3⟩ := opened_up (Hd := (off + 8) / 2) (S := m.length) (Q := D / 2) hl hset.dual hr hw.some A0 AZ (by linarith) hx hxZ
  obtain ⟨p1, p2, p3⟩ := opened_up (Hd := (off' + 8) / 2) (S := m'.length) (Q := D' / 2) (hset.loop.trans hl) hset.dual' hr' (le_refl 1) (by rw [hA]; exact A0) (by rw [hA, hZ]; exact AZ)
    (by rw [hZ, Nat.cast_one, Int.mul_one]; linarith) (by rw [hff]; exact hx) (by rw [hff, hZ]; exact hxZ)
  rw [if_pos hr] at o3
  rw [if_pos hr', hA, Nat.cast_one, Int.mul_one] at p3
  rw [hff, Nat.cast_one, Int.mul_one] at p1
  simp only [hZ, Nat.cast_one, Int.mul_one] at p2
  have hn1 : (0 : Int) < nch := by linarith
  have hgrid : ∀ (G i : Int) (n : Int), 0 < n → decide (G + i * n ≥ G + a.rd.loopFinish * n) = decide (i ≥ a.rd.loopFinish) := fun G i n hn => by
    refine decide_eq_decide.2 ⟨fun hh => ?_, fun hh => ?_⟩
    · exact le_of_mul_le_mul_right (show a.rd.loopFinish * n ≤ i * n by linarith) hn
    · have := Int.mul_le_mul_of_nonneg_right hh (le_of_lt hn)
      linarith
  have ht := alone_open (F := a.rd.loopFinish) (back := a.rd.loopStart) (fin := fun i => decide (i ≥ a.rd.loopFinish)) hset o1 p1 (fun _ => hx) (fun h => nomatch h)
    (fun i => (o2 _).trans (hgrid _ _ _ hn1)) (fun i => (p2 _).trans (by have := hgrid (((off' + 8) / 2 : Nat) : Int) i 1 one_pos; rwa [Int.mul_one, Int.mul_one] at this))
    (Or.inr ⟨hl, rfl, o3, p3, decide_eq_false (not_le.2 AZ), A0⟩)
  rw [← e1] at ht
  have e2' : b'.rd = openedRd (beforeRd b.rd m'.length ((off' + 8) / 2 : Nat) (D' / 2 : Nat) 1) := by rw [e2]; rfl
  rw [← e2'] at ht
  intro as hall
  refine alike_alone (up := true) hn0 (by exact_mod_cast hc) (fun i hi => ⟨fun _ => not_le.1 (of_decide_eq_false hi), (fun h => nomatch h)⟩)
    (fun i hi hlt v w hv hw1 => ?_) (fun r r' v hk hr _ _ hv => ?_) as h h' ⟨fun _ => ht, rfl.trans ht.playing.symm, ht.chans, ht.chans', ht.kind, ht.kind', ht.rem, rfl, rfl⟩ hall
  · refine alone_memory hw.even hw'.even hi (hchan _ ?_) hv hw1
    rw [Int.toNat_of_nonneg hi]; exact hlt
  · obtain ⟨w1, w2, w3⟩ := hok r r' v hk hr hv
    exact ⟨w1, fun _ => w2, (fun h => nomatch h), fun hk => abs_le.2 ⟨by linarith, w3 hk⟩, (fun h => nomatch h)⟩

/-- **C93** (backwards, whenever both are read as from memory): likewise, from frame `s`. -/
theorem C93_back_streams_partial {g g' : Geo} {nullOk nullOk' : Bool} {fuel fuel' : Nat} {a a' b b' : FileReader} {m m' : List Nat} {off off' nch D D' : Nat}
    (hw : WavFile m off nch D) (hw' : WavFile m' off' 1 D') (hlen : D' / 2 = D / 2 / nch) {c : Nat} (hc : c < nch)
    (hchan : ∀ i, i < D / 2 / nch → dataSample m' (off' + 8) i = dataSample m (off + 8) (i * nch + c))
    {past past' : Bool} {junk junk' : List Nat} (hj : junk.length = 36) (hj' : junk'.length = 36) (hc' : nch ≤ 32767) (hset : AloneSettings false c a.rd b.rd)
    (hl : a.rd.loopType = .none) {s : Nat} (hs : s < D / 2 / nch)
    (hP : StartsBackAt a.rd ((m.length : Int) / 2) ((off + 8) / 2 : Nat) (D / 2 / nch : Nat) nch ((off + 8) / 2 + s * nch : Nat))
    (hP' : StartsBackAt b.rd ((m'.length : Int) / 2) ((off' + 8) / 2 : Nat) (D / 2 / nch : Nat) 1 ((off' + 8) / 2 + s : Nat)) {ok ok' : Rd → ℚ → Prop}
    (hok : ∀ r r' v, r'.interp = a.rd.interp → r'.rem = r.rem → (r'.playing = true → r.header < r.pos1 → r'.header < r'.pos1) → r'.playing = r.playing → ok r v →
      ok' r' v ∧ v < 0 ∧ (a.rd.interp ≠ .none → -1 ≤ v) ∧ (r.playing = true → r.header < r.pos1))
    (hmany : a.playWav g (some ⟨m, 0, past⟩) junk = .ok (true, a')) (hone : b.playWav g' (some ⟨m', 0, past'⟩) junk' = .ok (true, b'))
    (h : LikeInMemoryAt fp g nullOk fuel a' m ok) (h' : LikeInMemoryAt fp g' nullOk' fuel' b' m' ok') :
    SoundsAlone fp g g' nullOk nullOk' fuel fuel' a' b' m c nch ok := by
  have e1 := playWav_rd hw hj hc' hmany
  have e2 := playWav_rd hw' hj' (by decide) hone
  have hn0 : (1 : Int) ≤ nch := by exact_mod_cast hw.some
  have hQ : D' / 2 / 1 = D / 2 / nch := by rw [Nat.div_one]; exact hlen
  obtain ⟨o1, o2⟩ := opened_behind (S := m.length) hl hset.dual (hset.dir' rfl) hw.some rfl (file_room hw) (le_of_lt hs) hP
  obtain ⟨p1, p2⟩ := opened_behind (S := m'.length) (s := s) (hset.loop.trans hl) hset.dual' (by rw [hset.rate]; exact hset.dir' rfl) (le_refl 1) hQ
    (by have := file_room hw'; rwa [hQ] at this) (le_of_lt hs) (by rw [Nat.mul_one]; exact hP')
  rw [Nat.cast_one, Int.mul_one] at p1
  simp only [Nat.cast_one] at p2
  have hn1 : (0 : Int) < nch := by linarith
  have hgrid : ∀ (G i : Int) (n : Int), 0 < n → decide (G + i * n < G) = decide (i < 0) := fun G i n hn => by
    refine decide_eq_decide.2 ⟨fun hh => ?_, fun hh => ?_⟩
    · exact lt_of_mul_lt_mul_right (show i * n < 0 * n by linarith) (le_of_lt hn)
    · have := Int.mul_neg_of_neg_of_pos hh hn
      linarith
  have ht := alone_open (F := (D / 2 / nch : Nat)) (back := 0) (fin := fun i => decide (i < (0 : Int))) hset o1 p1 (fun h => nomatch h) (fun _ => by exact_mod_cast hs)
    (fun i => (o2 _).trans (hgrid _ _ _ hn1)) (fun i => (p2 _).trans (by have := hgrid (((off' + 8) / 2 : Nat) : Int) i 1 one_pos; rwa [Int.mul_one] at this)) (Or.inl hl)
  rw [← e1] at ht
  have e2' : b'.rd = openedRd (beforeRd b.rd m'.length ((off' + 8) / 2 : Nat) (D' / 2 : Nat) 1) := by rw [e2]; rfl
  rw [← e2'] at ht
  intro as hall
  refine alike_alone (up := false) hn0 (by exact_mod_cast hc) (fun i hi => ⟨(fun h => nomatch h), fun _ => not_lt.1 (of_decide_eq_false hi)⟩)
    (fun i hi hlt v w hv hw1 => ?_) (fun r r' v hk hr hq1 hq2 hv => ?_) as h h' ⟨fun _ => ht, rfl.trans ht.playing.symm, ht.chans, ht.chans', ht.kind, ht.kind', ht.rem, rfl, rfl⟩ hall
  · refine alone_memory hw.even hw'.even hi (hchan _ ?_) hv hw1
    have ej : ((i.toNat : Nat) : Int) = i := Int.toNat_of_nonneg hi
    have : ((i.toNat : Nat) : Int) < (D / 2 / nch : Nat) := by rw [ej]; exact hlt
    exact_mod_cast this
  · obtain ⟨w1, w2, w3, w4⟩ := hok r r' v hk hr hq1 hq2 hv
    exact ⟨w1, fun h => (nomatch h), fun _ => w2, fun hk => abs_le.2 ⟨w3 hk, by linarith⟩, fun _ => w4⟩

/-- **C93** (forwards, changed speeds, any interpolation).  A channel of a WAV file sounds exactly like the WAV file with that channel alone, update for update, while the
speed of both is changed again and again up to `R`; up to normal speed if values are interpolated. -/
theorem C93_wav_partial (fp : Fp) (hfp : Representable fp) {g g' : Geo} (hB : g.B < 16384) (hB' : g'.B < 16384) (hNB : g.N * g.B ≤ 2 ^ 30) (hNB' : g'.N * g'.B ≤ 2 ^ 30)
    (a b : FileReader) {m m' : List Nat} {off off' nch D D' : Nat} (hw : WavFile m off nch D) (hw' : WavFile m' off' 1 D') (hlen : D' / 2 = D / 2 / nch) {c : Nat} (hc : c < nch)
    (hchan : ∀ i, i < D / 2 / nch → dataSample m' (off' + 8) i = dataSample m (off + 8) (i * nch + c))
    (past past' : Bool) (junk junk' : List Nat) (hj : junk.length = 36) (hj' : junk'.length = 36) (hc' : nch ≤ 32767) (h8 : a.rd.interp ≠ .none → nch ≤ 8) {R mm mm' : Int}
    (hR : a.rd.interp ≠ .none → R = 1) (hset : SmoothSettings a.rd R) (hset' : SmoothSettings b.rd R) (hsame : AloneSettings true c a.rd b.rd)
    (hps : b.rd.playStart = a.rd.playStart) (hpb : b.rd.playbackStart = a.rd.playbackStart)
    (hst : a.rd.playStart = .arbitrary → 0 ≤ a.rd.playbackStart ∧ a.rd.playbackStart ≤ (D / 2 / nch : Nat)) (hroom : off + 8 < m.length) (hroom' : off' + 8 < m'.length)
    (hmm0 : 0 ≤ mm) (hmm : 2 * mm + 1 ≤ g.N) (hadv : 128 * (nch * (R + 1)) + nch ≤ mm * g.B)
    (hmm0' : 0 ≤ mm') (hmm' : 2 * mm' + 1 ≤ g'.N) (hadv' : 128 * (R + 1) + 1 ≤ mm' * g'.B)
    (nullOk nullOk' : Bool) {fuel fuel' : Nat} (hf : g.N ≤ fuel + 1) (hf' : g'.N ≤ fuel' + 1) :
    ∃ a' b', a.playWav g (some ⟨m, 0, past⟩) junk = .ok (true, a') ∧ b.playWav g' (some ⟨m', 0, past'⟩) junk' = .ok (true, b') ∧
      SoundsAlone fp g g' nullOk nullOk' (fuel + 1) (fuel' + 1) a' b' m c nch (SmoothSpeeds R) := by
  obtain ⟨a', k1, -, -, -, -, -, -, -, -, k2⟩ := C72_smooth_wav_partial fp hfp g hB hNB a hw.bytes hw.small past junk hj hw.good hw.depth hw.data hw.chans hw.some hc' hw.len
    hw.inFile hroom hset h8 hst hmm0 hmm hadv nullOk hf
  obtain ⟨b', l1, -, -, -, -, -, -, -, -, l2⟩ := C72_smooth_wav_partial fp hfp g' hB' hNB' b hw'.bytes hw'.small past' junk' hj' hw'.good hw'.depth hw'.data hw'.chans hw'.some (by decide) hw'.len
    hw'.inFile hroom' hset' (fun _ => by decide) (by rw [hps, hpb, Nat.div_one, hlen]; exact hst) hmm0' hmm' (by rw [Nat.cast_one, Int.one_mul]; exact hadv') nullOk' hf'
  refine ⟨a', b', k1, l1, C93_streams_partial hw hw' hlen hc hchan hj hj' hc' hsame hset.loop hps hpb hst (fun r r' v hk hr hv => ?_) k1 l1 k2 l2⟩
  have hv1 : a.rd.interp ≠ .none → v ≤ 1 := fun hi => by
    have := hv.2.1
    rw [hR hi] at this
    push_cast at this
    exact this
  refine ⟨⟨hv.1, hv.2.1, fun hq => hv1 ?_, fun hq h => absurd h (not_lt.2 (hv1 ?_))⟩, hv.1, hv1⟩
  · rw [← hk, hq]; decide
  · rw [← hk, hq]; decide

/-- **C93** (forwards in a repeated loop, any speed, changed while playing): without interpolation. -/
theorem C93_loop_partial (fp : Fp) (hfp : Representable fp) {g g' : Geo} (hB : g.B < 16384) (hB' : g'.B < 16384) (hNB : g.N * g.B ≤ 2 ^ 30) (hNB' : g'.N * g'.B ≤ 2 ^ 30)
    (a b : FileReader) {m m' : List Nat} {off off' nch D D' : Nat} (hw : WavFile m off nch D) (hw' : WavFile m' off' 1 D') {c : Nat} (hc : c < nch)
    (hchan : ∀ i : Nat, i < a.rd.loopFinish → dataSample m' (off' + 8) i = dataSample m (off + 8) (i * nch + c))
    (past past' : Bool) (junk junk' : List Nat) (hj : junk.length = 36) (hj' : junk'.length = 36) (hc' : nch ≤ 32767) {R mm mm' : Int}
    (hset : RepeatSettings a.rd R) (hset' : RepeatSettings b.rd R) (hsame : AloneSettings true c a.rd b.rd)
    (hps : b.rd.playStart = a.rd.playStart) (hpb : b.rd.playbackStart = a.rd.playbackStart) (hA : b.rd.loopStart = a.rd.loopStart) (hZ : b.rd.loopFinish = a.rd.loopFinish)
    (hloop : GoodLoop g m ((off + 8) / 2 : Nat) nch a.rd.loopStart a.rd.loopFinish (firstFrame a.rd))
    (hloop' : GoodLoop g' m' ((off' + 8) / 2 : Nat) 1 b.rd.loopStart b.rd.loopFinish (firstFrame b.rd))
    (hmm0 : 0 ≤ mm) (hmm : 2 * mm + 5 ≤ g.N) (hadv : 128 * (nch * (R + 1)) ≤ mm * g.B)
    (hmm0' : 0 ≤ mm') (hmm' : 2 * mm' + 5 ≤ g'.N) (hadv' : 128 * (R + 1) ≤ mm' * g'.B)
    (nullOk nullOk' : Bool) {fuel fuel' : Nat} (hf : g.N ≤ fuel + 2) (hf' : g'.N ≤ fuel' + 2) :
    ∃ a' b', a.playWav g (some ⟨m, 0, past⟩) junk = .ok (true, a') ∧ b.playWav g' (some ⟨m', 0, past'⟩) junk' = .ok (true, b') ∧
      SoundsAlone fp g g' nullOk nullOk' (fuel + 2) (fuel' + 2) a' b' m c nch (SpeedsTo R) := by
  obtain ⟨a', k1, -, -, -, -, -, -, -, -, -, k2⟩ := C72_loop_wav_partial fp hfp g hB hNB a hw.bytes hw.small past junk hj hw.good hw.depth hw.data hw.chans hw.some hc'
    hset hloop hmm0 hmm hadv nullOk hf
  obtain ⟨b', l1, -, -, -, -, -, -, -, -, -, l2⟩ := C72_loop_wav_partial fp hfp g' hB' hNB' b hw'.bytes hw'.small past' junk' hj' hw'.good hw'.depth hw'.data hw'.chans hw'.some (by decide)
    hset' hloop' hmm0' hmm' (by rw [Nat.cast_one, Int.one_mul]; exact hadv') nullOk' hf'
  have hfile' := hloop'.file
  rw [hZ, Int.mul_one] at hfile'
  exact ⟨a', b', k1, l1, C93_loop_streams_partial hw hw' hc hchan hj hj' hc' hsame hset.loop hps hpb hA hZ hloop.A0 hloop.AZ hloop.file hfile' hloop.q0 hloop.q1
    (fun r r' v hk hr hv => ⟨hv, hv.1, fun hi => absurd hset.plain.interp hi⟩) k1 l1 k2 l2⟩

/-- **C93** (forwards in a repeated loop, any interpolation up to normal speed, changed while playing). -/
theorem C93_smooth_loop_partial (fp : Fp) (hfp : Representable fp) (k : Interp) {g g' : Geo} (hB : g.B < 16384) (hB' : g'.B < 16384) (hNB : g.N * g.B ≤ 2 ^ 30) (hNB' : g'.N * g'.B ≤ 2 ^ 30)
    (a b : FileReader) {m m' : List Nat} {off off' nch D D' : Nat} (hw : WavFile m off nch D) (hw' : WavFile m' off' 1 D') {c : Nat} (hc : c < nch)
    (hchan : ∀ i : Nat, i < a.rd.loopFinish → dataSample m' (off' + 8) i = dataSample m (off + 8) (i * nch + c))
    (past past' : Bool) (junk junk' : List Nat) (hj : junk.length = 36) (hj' : junk'.length = 36) (h8 : nch ≤ 8) {mm mm' : Int}
    (hset : RepeatSettings a.rd 1) (hset' : RepeatSettings b.rd 1) (hpts : PtsOk a.rd) (hpts' : PtsOk b.rd)
    (hsame : AloneSettings true c (a.withInterp k).rd (b.withInterp k).rd)
    (hps : b.rd.playStart = a.rd.playStart) (hpb : b.rd.playbackStart = a.rd.playbackStart) (hA : b.rd.loopStart = a.rd.loopStart) (hZ : b.rd.loopFinish = a.rd.loopFinish)
    (hloop : GoodLoop g m ((off + 8) / 2 : Nat) nch a.rd.loopStart a.rd.loopFinish (firstFrame a.rd))
    (hloop' : GoodLoop g' m' ((off' + 8) / 2 : Nat) 1 b.rd.loopStart b.rd.loopFinish (firstFrame b.rd))
    (hmm0 : 0 ≤ mm) (hmm : 2 * mm + 5 ≤ g.N) (hadv : 128 * (nch * 2) ≤ mm * g.B)
    (hmm0' : 0 ≤ mm') (hmm' : 2 * mm' + 5 ≤ g'.N) (hadv' : 128 * 2 ≤ mm' * g'.B)
    (nullOk nullOk' : Bool) {fuel fuel' : Nat} (hf : g.N ≤ fuel + 2) (hf' : g'.N ≤ fuel' + 2) :
    ∃ a' b', (a.withInterp k).playWav g (some ⟨m, 0, past⟩) junk = .ok (true, a') ∧ (b.withInterp k).playWav g' (some ⟨m', 0, past'⟩) junk' = .ok (true, b') ∧
      SoundsAlone fp g g' nullOk nullOk' (fuel + 2) (fuel' + 2) a' b' m c nch (UpToNormal k (SpeedsTo 1)) := by
  have hc' : nch ≤ 32767 := le_trans h8 (by decide)
  obtain ⟨a', k1, -, -, -, -, -, -, -, -, k2⟩ := C82_loop_wav_partial hfp k g hB hNB a hw.bytes hw.small past junk hj hw.good hw.depth hw.data hw.chans hw.some h8
    hset (fun _ => hsame.sign rfl) hpts hloop hmm0 hmm hadv nullOk hf
  obtain ⟨b', l1, -, -, -, -, -, -, -, -, l2⟩ := C82_loop_wav_partial hfp k g' hB' hNB' b hw'.bytes hw'.small past' junk' hj' hw'.good hw'.depth hw'.data hw'.chans hw'.some (by decide)
    hset' (fun _ => by have := hsame.sign rfl; rw [← hsame.rem] at this; exact this) hpts' hloop' hmm0' hmm' (by rw [Nat.cast_one, Int.one_mul]; exact hadv') nullOk' hf'
  have hfile' := hloop'.file
  rw [hZ, Int.mul_one] at hfile'
  refine ⟨a', b', k1, l1, C93_loop_streams_partial (a := a.withInterp k) (b := b.withInterp k) hw hw' hc hchan hj hj' hc' hsame hset.loop hps hpb hA hZ hloop.A0 hloop.AZ hloop.file hfile' hloop.q0 hloop.q1
    (fun r r' v hk hr hv => ⟨⟨hv.1, hv.2.1, fun hq => by rw [hr]; exact hv.2.2 hq⟩, hv.1.1, fun _ => (abs_le.1 hv.2.1).2⟩) k1 l1 k2 l2⟩

/-- **C93** (backwards, any speed, changed while playing): without interpolation. -/
theorem C93_back_partial (fp : Fp) (hfp : Representable fp) {g g' : Geo} (hB : g.B < 16384) (hB' : g'.B < 16384) (hNB : g.N * g.B ≤ 2 ^ 30) (hNB' : g'.N * g'.B ≤ 2 ^ 30)
    (a b : FileReader) {m m' : List Nat} {off off' nch D D' : Nat} (hw : WavFile m off nch D) (hw' : WavFile m' off' 1 D') (hlen : D' / 2 = D / 2 / nch) {c : Nat} (hc : c < nch)
    (hchan : ∀ i, i < D / 2 / nch → dataSample m' (off' + 8) i = dataSample m (off + 8) (i * nch + c))
    (past past' : Bool) (junk junk' : List Nat) (hj : junk.length = 36) (hj' : junk'.length = 36) (hc' : nch ≤ 32767) {R mm mm' : Int}
    (hset : BackwardSettings fp a.rd R) (hset' : BackwardSettings fp b.rd R) (hsame : AloneSettings false c a.rd b.rd) {s : Nat} (hs : s < D / 2 / nch)
    (hP : StartsBackAt a.rd ((m.length : Int) / 2) ((off + 8) / 2 : Nat) (D / 2 / nch : Nat) nch ((off + 8) / 2 + s * nch : Nat))
    (hP' : StartsBackAt b.rd ((m'.length : Int) / 2) ((off' + 8) / 2 : Nat) (D / 2 / nch : Nat) 1 ((off' + 8) / 2 + s : Nat))
    (hgood : GoodStart g m ((off + 8) / 2 : Nat) nch ((off + 8) / 2 + s * nch : Nat)) (hgood' : GoodStart g' m' ((off' + 8) / 2 : Nat) 1 ((off' + 8) / 2 + s : Nat))
    (hmm0 : 0 ≤ mm) (hmm : 2 * mm + 1 ≤ g.N) (hadv : 128 * (nch * (R + 1)) ≤ mm * g.B)
    (hmm0' : 0 ≤ mm') (hmm' : 2 * mm' + 1 ≤ g'.N) (hadv' : 128 * (R + 1) ≤ mm' * g'.B)
    (nullOk nullOk' : Bool) {fuel fuel' : Nat} (hf : g.N ≤ fuel + 1) (hf' : g'.N ≤ fuel' + 1) :
    ∃ a' b', a.playWav g (some ⟨m, 0, past⟩) junk = .ok (true, a') ∧ b.playWav g' (some ⟨m', 0, past'⟩) junk' = .ok (true, b') ∧
      SoundsAlone fp g g' nullOk nullOk' (fuel + 1) (fuel' + 1) a' b' m c nch (SpeedsBack fp R) := by
  have hneg : ∀ v : ℚ, fp.f.rnd v < 0 → v < 0 := fun v h => by
    by_contra hcc
    exact absurd (fp.f.nonneg (not_lt.1 hcc)) (not_le.2 h)
  obtain ⟨a', k1, -, -, -, -, -, -, -, k2⟩ := C72_back_wav_partial fp hfp g hB hNB a hw.bytes hw.small past junk hj hw.good hw.depth hw.data hw.chans hw.some hc' hw.len hw.inFile
    hset hP hgood hmm0 hmm hadv nullOk hf
  obtain ⟨b', l1, -, -, -, -, -, -, -, l2⟩ := C72_back_wav_partial fp hfp g' hB' hNB' b hw'.bytes hw'.small past' junk' hj' hw'.good hw'.depth hw'.data hw'.chans hw'.some (by decide) hw'.len hw'.inFile
    hset' (by rw [Nat.div_one, hlen]; exact hP') hgood' hmm0' hmm' (by rw [Nat.cast_one, Int.one_mul]; exact hadv') nullOk' hf'
  exact ⟨a', b', k1, l1, C93_back_streams_partial hw hw' hlen hc hchan hj hj' hc' hsame hset.loop hs hP hP'
    (fun r r' v hk hr hq1 hq2 hv => ⟨⟨hv.1, hv.2.1, fun hp => hq1 hp (hv.2.2 (hq2 ▸ hp))⟩, hneg _ hv.1, fun hi => absurd hset.plain.interp hi, hv.2.2⟩) k1 l1 k2 l2⟩

/-- **C93** (backwards, any interpolation up to normal speed, changed while playing). -/
theorem C93_smooth_back_partial (fp : Fp) (hfp : Representable fp) (k : Interp) {g g' : Geo} (hB : g.B < 16384) (hB' : g'.B < 16384) (hNB : g.N * g.B ≤ 2 ^ 30) (hNB' : g'.N * g'.B ≤ 2 ^ 30)
    (a b : FileReader) {m m' : List Nat} {off off' nch D D' : Nat} (hw : WavFile m off nch D) (hw' : WavFile m' off' 1 D') (hlen : D' / 2 = D / 2 / nch) {c : Nat} (hc : c < nch)
    (hchan : ∀ i, i < D / 2 / nch → dataSample m' (off' + 8) i = dataSample m (off + 8) (i * nch + c))
    (past past' : Bool) (junk junk' : List Nat) (hj : junk.length = 36) (hj' : junk'.length = 36) (h8 : nch ≤ 8) {mm mm' : Int}
    (hset : BackwardSettings fp a.rd 1) (hset' : BackwardSettings fp b.rd 1) (hpts : PtsOk a.rd) (hpts' : PtsOk b.rd)
    (hsame : AloneSettings false c (a.withInterp k).rd (b.withInterp k).rd) {s : Nat} (hs : s < D / 2 / nch)
    (hP : StartsBackAt a.rd ((m.length : Int) / 2) ((off + 8) / 2 : Nat) (D / 2 / nch : Nat) nch ((off + 8) / 2 + s * nch : Nat))
    (hP' : StartsBackAt b.rd ((m'.length : Int) / 2) ((off' + 8) / 2 : Nat) (D / 2 / nch : Nat) 1 ((off' + 8) / 2 + s : Nat))
    (hgood : GoodStart g m ((off + 8) / 2 : Nat) nch ((off + 8) / 2 + s * nch : Nat)) (hgood' : GoodStart g' m' ((off' + 8) / 2 : Nat) 1 ((off' + 8) / 2 + s : Nat))
    (hmm0 : 0 ≤ mm) (hmm : 2 * mm + 1 ≤ g.N) (hadv : 128 * (nch * 2) ≤ mm * g.B)
    (hmm0' : 0 ≤ mm') (hmm' : 2 * mm' + 1 ≤ g'.N) (hadv' : 128 * 2 ≤ mm' * g'.B)
    (nullOk nullOk' : Bool) {fuel fuel' : Nat} (hf : g.N ≤ fuel + 1) (hf' : g'.N ≤ fuel' + 1) :
    ∃ a' b', (a.withInterp k).playWav g (some ⟨m, 0, past⟩) junk = .ok (true, a') ∧ (b.withInterp k).playWav g' (some ⟨m', 0, past'⟩) junk' = .ok (true, b') ∧
      SoundsAlone fp g g' nullOk nullOk' (fuel + 1) (fuel' + 1) a' b' m c nch (UpToNormal k (SpeedsBack fp 1)) := by
  have hneg : ∀ v : ℚ, fp.f.rnd v < 0 → v < 0 := fun v h => by
    by_contra hcc
    exact absurd (fp.f.nonneg (not_lt.1 hcc)) (not_le.2 h)
  have hc' : nch ≤ 32767 := le_trans h8 (by decide)
  obtain ⟨a', k1, -, -, -, -, -, k2⟩ := C82_back_wav_partial hfp k g hB hNB a hw.bytes hw.small past junk hj hw.good hw.depth hw.data hw.chans hw.some h8 hw.len hw.inFile
    hset (fun _ => hsame.sign' rfl) hpts hP hgood hmm0 hmm hadv nullOk hf
  obtain ⟨b', l1, -, -, -, -, -, l2⟩ := C82_back_wav_partial hfp k g' hB' hNB' b hw'.bytes hw'.small past' junk' hj' hw'.good hw'.depth hw'.data hw'.chans hw'.some (by decide) hw'.len hw'.inFile
    hset' (fun _ => by have := hsame.sign' rfl; rw [← hsame.rem] at this; exact this) hpts' (by rw [Nat.div_one, hlen]; exact hP') hgood' hmm0' hmm' (by rw [Nat.cast_one, Int.one_mul]; exact hadv') nullOk' hf'
  exact ⟨a', b', k1, l1, C93_back_streams_partial (a := a.withInterp k) (b := b.withInterp k) hw hw' hlen hc hchan hj hj' hc' hsame hset.loop hs hP hP'
    (fun r r' v hk hr hq1 hq2 hv => ⟨⟨⟨hv.1.1, hv.1.2.1, fun hp => hq1 hp (hv.1.2.2 (hq2 ▸ hp))⟩, hv.2.1, fun hq => by rw [hr]; exact hv.2.2 hq⟩, hneg _ hv.1.1, fun _ => (abs_le.1 hv.2.1).1, hv.1.2.2⟩)
    k1 l1 k2 l2⟩

/-- **C93 refuted** backwards in a loop.  Four frames repeated backwards at normal speed from frame 1: alone, a channel goes 1, 0, 3, 2, 1, 0; as one of two
channels it goes 1, 0, 2, 1, 0, 2, because as many frames are left out at the end of the loop as there are other channels
(src/ResamplingReader.h:257-261). -/
theorem C93_refuted : ∃ a b : ArrayReader, a.rd.rate = -1 ∧ a.rd.loopType = .repeat ∧ a.rd.loopStart = 0 ∧ a.rd.loopFinish = 4 ∧ a.rd.nch = 2 ∧ a.rd.pos1 = 2 ∧
    b.rd = { a.rd with nch := 1, fileSize := 8, pos1 := 1 } ∧ a.src = some [10, 50, 11, 51, 12, 52, 13, 53] ∧ b.src = some [10, 11, 12, 13] ∧
    (framesOf (a.read Fp.ieee 3 6)).map (·.map (·.getD 0 0)) = .ok [11, 10, 12, 11, 10, 12] ∧
    (framesOf (b.read Fp.ieee 3 6)).map (·.map (·.getD 0 0)) = .ok [11, 10, 13, 12, 11, 10] :=
  ⟨{ rd := { playing := true, nch := 2, fileSamples := 4, rate := -1, loopType := .repeat, loopFinish := 4, fileSize := 16, pos1 := 2 }, src := some [10, 50, 11, 51, 12, 52, 13, 53] },
    { rd := { playing := true, nch := 1, fileSamples := 4, rate := -1, loopType := .repeat, loopFinish := 4, fileSize := 8, pos1 := 1 }, src := some [10, 11, 12, 13] },
    rfl, rfl, rfl, rfl, rfl, rfl, rfl, rfl, rfl, by decide +kernel, by decide +kernel⟩

/-! ## Examples -/

/-- The right channel of `exWav` alone, without the tags. -/
def exRight : List Nat := wav ⟨2084, 1, 1, 44100, 88200, 2, 16⟩ none 4 [2, 0, 4, 0]

theorem exRight_file : WavFile exRight 36 1 4 :=
  ⟨by unfold IsBytes; decide, by decide, by decide, by decide, ⟨Or.inl ⟨by decide, by decide⟩, by decide, by decide⟩, by decide, by decide, by decide, by decide, by decide⟩

theorem exRight_alone (i : Nat) (h : i < 8 / 2 / 2) : dataSample exRight (36 + 8) i = dataSample exWav (48 + 8) (i * 2 + 1) :=
  (by decide : ∀ i < 2, dataSample exRight (36 + 8) i = dataSample exWav (48 + 8) (i * 2 + 1)) i h

/-- The left channel of `exCount` alone. -/
def exCountLeft : List Nat := wav ⟨2084, 1, 1, 44100, 88200, 2, 16⟩ none 3000 ((List.range 1500).flatMap fun i => [i % 256, i / 256])

theorem exCountLeft_file : WavFile exCountLeft 36 1 3000 :=
  ⟨by
    have h : IsBytes (header ⟨2084, 1, 1, 44100, 88200, 2, 16⟩ ++ listChunk none ++ dataHead 3000) := by unfold IsBytes; decide +kernel
    intro b hb
    unfold exCountLeft wav at hb
    rcases List.mem_append.1 hb with hb | hb
    · exact h b hb
    · obtain ⟨i, hi, hb⟩ := List.mem_flatMap.1 hb
      have hi' := List.mem_range.1 hi
      simp only [List.mem_cons, List.not_mem_nil, or_false] at hb
      omega, by decide +kernel, by decide +kernel, by decide +kernel, ⟨Or.inl ⟨by decide +kernel, by decide +kernel⟩, by decide +kernel, by decide +kernel⟩,
    by decide, by decide +kernel, by decide +kernel, by decide +kernel, by decide⟩

theorem exCountLeft_alone (i : Nat) (h : (i : Int) < 14) : dataSample exCountLeft (36 + 8) i = dataSample exCount (48 + 8) (i * 2 + 0) :=
  (by decide +kernel : ∀ i < 14, dataSample exCountLeft (36 + 8) i = dataSample exCount (48 + 8) (i * 2 + 0)) i (by exact_mod_cast h)

theorem alone_same {up : Bool} {a : Rd} (c : Nat) (hd : a.dual = false) (hu : up = true → 0 ≤ a.rate) (hv : up = false → a.rate < 0) (h0 : a.rem = 0) (h8 : a.interp ≠ .none → c < 8 ∧ a.pts 0 = a.pts c)
    (h1 : |a.rate| ≤ 1) : AloneSettings up c a a :=
  ⟨hd, hd, rfl, rfl, hu, hv, rfl, fun _ => le_of_eq h0.symm, fun _ => le_of_eq h0, rfl, h8, fun _ => h1⟩

theorem tenth_abs : |tenth| ≤ 1 ∧ |-tenth| ≤ 1 ∧ 0 ≤ tenth ∧ -tenth < 0 := by
  have h0 : 0 < tenth := by norm_num [tenth]
  have h1 : tenth ≤ 1 := by norm_num [tenth]
  exact ⟨by rw [abs_of_pos h0]; exact h1, by rw [abs_neg, abs_of_pos h0]; exact h1, le_of_lt h0, by linarith⟩

/-- The right channel from a tenth of the speed on, with linear interpolation. -/
example : ∃ a' b', exTenthSmooth.playWav sdGeo (some ⟨exWav, 0, false⟩) (List.replicate 36 7) = .ok (true, a') ∧
    exTenthSmooth.playWav ⟨9, 5, fun _ => []⟩ (some ⟨exRight, 0, true⟩) (List.replicate 36 0) = .ok (true, b') ∧
    SoundsAlone Fp.ieee sdGeo ⟨9, 5, fun _ => []⟩ true false (6 + 1) (6 + 1) a' b' exWav 1 2 (SmoothSpeeds 1) :=
  C93_wav_partial Fp.ieee ieee_representable (by decide) (by decide) (by decide) (by decide) exTenthSmooth exTenthSmooth exWav_file exRight_file (by decide) (c := 1) (by decide)
    exRight_alone false true (List.replicate 36 7) (List.replicate 36 0) (by decide) (by decide) (by decide) (fun _ => by decide) (R := 1) (mm := 1) (mm' := 2) (fun _ => rfl)
    exTenthSmooth_settings exTenthSmooth_settings (alone_same 1 rfl (fun _ => tenth_abs.2.2.1) (fun h => nomatch h) rfl (fun _ => ⟨by decide, rfl⟩) tenth_abs.1)
    rfl rfl (by intro h; cases h) (by decide) (by decide) (by decide) (by decide) (by decide) (by decide) (by decide) (by decide) true false (by decide) (by decide)

/-- The left channel of a loop. -/
example : ∃ a' b', exFewTenth.playWav exFineGeo (some ⟨exCount, 0, false⟩) (List.replicate 36 7) = .ok (true, a') ∧
    exFewTenth.playWav ⟨7, 9, fun _ => []⟩ (some ⟨exCountLeft, 0, true⟩) (List.replicate 36 0) = .ok (true, b') ∧
    SoundsAlone Fp.ieee exFineGeo ⟨7, 9, fun _ => []⟩ true false (5 + 2) (7 + 2) a' b' exCount 0 2 (SpeedsTo 1) :=
  C93_loop_partial Fp.ieee ieee_representable (by decide) (by decide) (by decide) (by decide) exFewTenth exFewTenth exCount_file exCountLeft_file (c := 0) (by decide)
    exCountLeft_alone false true (List.replicate 36 7) (List.replicate 36 0) (by decide) (by decide) (by decide) (R := 1) (mm := 1) (mm' := 2)
    exFewTenth_settings exFewTenth_settings (alone_same 0 rfl (fun _ => tenth_abs.2.2.1) (fun h => nomatch h) rfl (fun _ => ⟨by decide, rfl⟩) tenth_abs.1) rfl rfl rfl rfl
    ⟨by decide, by decide, by decide +kernel, by decide, by decide, Or.inr ⟨by decide, by decide +kernel⟩⟩
    ⟨by decide, by decide, by decide +kernel, by decide, by decide, Or.inr ⟨by decide, by decide +kernel⟩⟩
    (by decide) (by decide) (by decide) (by decide) (by decide) (by decide) true false (fuel := 5) (fuel' := 7) (by decide) (by decide)

/-- The same with cubic interpolation. -/
example : ∃ a' b', (exFewTenth.withInterp .quadratic).playWav exFineGeo (some ⟨exCount, 0, false⟩) (List.replicate 36 7) = .ok (true, a') ∧
    (exFewTenth.withInterp .quadratic).playWav ⟨7, 9, fun _ => []⟩ (some ⟨exCountLeft, 0, true⟩) (List.replicate 36 0) = .ok (true, b') ∧
    SoundsAlone Fp.ieee exFineGeo ⟨7, 9, fun _ => []⟩ true false (5 + 2) (7 + 2) a' b' exCount 0 2 (UpToNormal .quadratic (SpeedsTo 1)) :=
  C93_smooth_loop_partial Fp.ieee ieee_representable .quadratic (by decide) (by decide) (by decide) (by decide) exFewTenth exFewTenth exCount_file exCountLeft_file (c := 0) (by decide)
    exCountLeft_alone false true (List.replicate 36 7) (List.replicate 36 0) (by decide) (by decide) (by decide) (mm := 1) (mm' := 2)
    exFewTenth_settings exFewTenth_settings pts_new pts_new
    (alone_same 0 rfl (fun _ => tenth_abs.2.2.1) (fun h => nomatch h) rfl (fun _ => ⟨by decide, rfl⟩) tenth_abs.1) rfl rfl rfl rfl
    ⟨by decide, by decide, by decide +kernel, by decide, by decide, Or.inr ⟨by decide, by decide +kernel⟩⟩
    ⟨by decide, by decide, by decide +kernel, by decide, by decide, Or.inr ⟨by decide, by decide +kernel⟩⟩
    (by decide) (by decide) (by decide) (by decide) (by decide) (by decide) true false (fuel := 5) (fuel' := 7) (by decide) (by decide)

/-- The right channel backwards from the last frame. -/
example : ∃ a' b', exMinusTenth.playWav sdGeo (some ⟨exWav, 0, false⟩) (List.replicate 36 7) = .ok (true, a') ∧
    exMinusTenth.playWav ⟨9, 5, fun _ => []⟩ (some ⟨exRight, 0, true⟩) (List.replicate 36 0) = .ok (true, b') ∧
    SoundsAlone Fp.ieee sdGeo ⟨9, 5, fun _ => []⟩ true false (6 + 1) (6 + 1) a' b' exWav 1 2 (SpeedsBack Fp.ieee 1) :=
  C93_back_partial Fp.ieee ieee_representable (by decide) (by decide) (by decide) (by decide) exMinusTenth exMinusTenth exWav_file exRight_file (by decide) (c := 1) (by decide)
    exRight_alone false true (List.replicate 36 7) (List.replicate 36 0) (by decide) (by decide) (by decide) (R := 1) (mm := 1) (mm' := 2)
    exMinusTenth_settings exMinusTenth_settings (alone_same 1 rfl (fun h => nomatch h) (fun _ => tenth_abs.2.2.2) rfl (fun _ => ⟨by decide, rfl⟩) tenth_abs.2.1)
    (s := 1) (by decide) (by show ((_ : Nat) : Int) = _; decide) (by show ((_ : Nat) : Int) = _; decide)
    ⟨by decide, by decide, by decide, by decide⟩ ⟨by decide, by decide, by decide, by decide⟩
    (by decide) (by decide) (by decide) (by decide) (by decide) (by decide) true false (by decide) (by decide)

/-- The same with linear interpolation. -/
example : ∃ a' b', (exMinusTenth.withInterp .linear).playWav sdGeo (some ⟨exWav, 0, false⟩) (List.replicate 36 7) = .ok (true, a') ∧
    (exMinusTenth.withInterp .linear).playWav ⟨9, 5, fun _ => []⟩ (some ⟨exRight, 0, true⟩) (List.replicate 36 0) = .ok (true, b') ∧
    SoundsAlone Fp.ieee sdGeo ⟨9, 5, fun _ => []⟩ true false (6 + 1) (6 + 1) a' b' exWav 1 2 (UpToNormal .linear (SpeedsBack Fp.ieee 1)) :=
  C93_smooth_back_partial Fp.ieee ieee_representable .linear (by decide) (by decide) (by decide) (by decide) exMinusTenth exMinusTenth exWav_file exRight_file (by decide) (c := 1) (by decide)
    exRight_alone false true (List.replicate 36 7) (List.replicate 36 0) (by decide) (by decide) (by decide) (mm := 1) (mm' := 2)
    exMinusTenth_settings exMinusTenth_settings pts_new pts_new
    (alone_same 1 rfl (fun h => nomatch h) (fun _ => tenth_abs.2.2.2) rfl (fun _ => ⟨by decide, rfl⟩) tenth_abs.2.1)
    (s := 1) (by decide) (by show ((_ : Nat) : Int) = _; decide) (by show ((_ : Nat) : Int) = _; decide)
    ⟨by decide, by decide, by decide, by decide⟩ ⟨by decide, by decide, by decide, by decide⟩
    (by decide) (by decide) (by decide) (by decide) (by decide) (by decide) true false (by decide) (by decide)

/-- The conditions of `C93_streams_partial`, `C93_loop_streams_partial` and `C93_back_streams_partial` hold for these. -/
example : AloneSettings true 1 exTenthSmooth.rd exTenthSmooth.rd ∧ AloneSettings true 0 exFewTenth.rd exFewTenth.rd ∧ AloneSettings false 1 exMinusTenth.rd exMinusTenth.rd :=
  ⟨alone_same 1 rfl (fun _ => tenth_abs.2.2.1) (fun h => nomatch h) rfl (fun _ => ⟨by decide, rfl⟩) tenth_abs.1,
    alone_same 0 rfl (fun _ => tenth_abs.2.2.1) (fun h => nomatch h) rfl (fun _ => ⟨by decide, rfl⟩) tenth_abs.1,
    alone_same 1 rfl (fun h => nomatch h) (fun _ => tenth_abs.2.2.2) rfl (fun _ => ⟨by decide, rfl⟩) tenth_abs.2.1⟩

/-- What may be done: play on, speed up to three quarters and play on. -/
example (b : ArrayReader) : Allowed Fp.ieee 7 (SpeedsTo 1) b [.tick fun _ => true, .speed (3 / 4), .tick fun _ => true] :=
  fun _ _ _ => ⟨⟨by norm_num, by norm_num⟩, fun _ _ _ => trivial⟩

end TVP
