import Verif.Lemmas.Written
import Verif.Lemmas.Unroll
import Verif.Props.Turn

/-!
# C90 with interpolation at any speed below normal, and while the speed changes

A repeated loop and the file in which the loop is written out, whatever the speeds, however positions are rounded.
-/

namespace TVP
open Spec

variable {fp : Fp}

/-- Whatever is done from here on to the first player, of what `ok` allows, and (turned round by `f`) to the second: neither fails, and for
as long as the second plays the two do the same, update for update, with the same blocks allocated, transmitted and released. -/
def LastsAlike (fp : Fp) (g g' : Geo) (nullOk nullOk' : Bool) (fuel fuel' : Nat) (a b : FileReader) (m : List Nat) (f : Deed → Deed) (ok : Rd → ℚ → Prop) : Prop :=
  ∀ as : List Deed, Allowed fp fuel ok ⟨a.rd, some (samplesOf m)⟩ as →
    ∃ fxs a' fxs' b', a.acts fp g nullOk fuel as = .ok (fxs, a') ∧ b.acts fp g' nullOk' fuel' (as.map f) = .ok (fxs', b') ∧
      (b'.rd.playing = true → fxs = fxs' ∧ a'.rd.playing = true)

/-- What may be done in a run that does not fail was allowed somewhere. -/
theorem Allowed.speeds {fuel : Nat} {ok : Rd → ℚ → Prop} : ∀ {as : List Deed} {b : ArrayReader} {x : List Fx × ArrayReader}, Allowed fp fuel ok b as → b.acts fp fuel as = .ok x →
    ∀ v, Deed.speed v ∈ as → ∃ r, ok r v
  | [], _, _, _, _, _, h => nomatch h
  | .tick al :: as, b, x, hall, e, v, hv => by
    rw [ArrayReader.acts] at e
    obtain ⟨⟨fx, b1⟩, e1, e2⟩ := bind_ok_iff.1 e
    obtain ⟨y, e3, -⟩ := bind_ok_iff.1 e2
    rcases List.mem_cons.1 hv with h | h
    · cases h
    · exact Allowed.speeds (hall _ _ e1) e3 v h
  | .speed w :: as, b, x, hall, e, v, hv => by
    rw [ArrayReader.acts] at e
    rcases List.mem_cons.1 hv with h | h
    · cases h; exact ⟨_, hall.1⟩
    · exact Allowed.speeds hall.2 e v h

theorem Allowed.of_speeds {fuel : Nat} {ok : Rd → ℚ → Prop} : ∀ (as : List Deed) (b : ArrayReader), (∀ v, Deed.speed v ∈ as → ∀ r, ok r v) → Allowed fp fuel ok b as
  | [], _, _ => trivial
  | .tick _ :: as, _, h => fun _ b' _ => Allowed.of_speeds as b' fun v hv => h v (List.mem_cons_of_mem _ hv)
  | .speed w :: as, _, h => ⟨h w List.mem_cons_self _, Allowed.of_speeds as _ fun v hv => h v (List.mem_cons_of_mem _ hv)⟩

/-- A player that has stopped remains stopped. -/
theorem stopped_acts {g : Geo} {nullOk : Bool} {fuel : Nat} : ∀ {as : List Deed} {b b' : FileReader} {fxs : List Fx}, b.rd.playing = false → b.acts fp g nullOk fuel as = .ok (fxs, b') →
    b'.rd.playing = false
  | [], _, _, _, h, e => by cases e; exact h
  | .tick al :: as, b, b', fxs, h, e => by
    rw [FileReader.acts] at e
    obtain ⟨⟨fx, b1⟩, e1, e2⟩ := bind_ok_iff.1 e
    obtain ⟨⟨y, b2⟩, e3, e4⟩ := bind_ok_iff.1 e2
    cases e4
    refine stopped_acts (b := b1) ?_ e3
    unfold FileReader.tick FileReader.update update at e1
    simp only [h, Bool.not_false, if_true] at e1
    by_cases h1 : b.rd.nch = -1
    · simp only [if_pos h1, pure_eq_ok, ok_bind] at e1
      cases e1; exact h
    · by_cases h2 : b.rd.nch < 0
      · simp only [if_neg h1, if_pos h2] at e1
        cases e1
      · simp only [if_neg h1, if_neg h2, pure_eq_ok, ok_bind] at e1
        cases e1; exact h
  | .speed v :: as, b, b', fxs, h, e => stopped_acts (b := { b with rd := b.rd.setPlaybackRate v }) (by simp only; rw [(setPlaybackRate_keeps _ _).1]; exact h) e

section
variable {up : Bool} {k : Interp} {Hd H n F q back : Int} {pl : Int → Int} {fin : Int → Bool} {g g' : Geo} {nullOk nullOk' : Bool} {fuel fuel' : Nat} {m m' : List Nat}
  {ok ok' : Rd → ℚ → Prop} {f : Deed → Deed}

theorem allowed_other (hft : ∀ al, f (.tick al) = .tick al) (hfs : ∀ v, f (.speed v) = .speed (sgn up * v))
    (hok : ∀ r v, ok r v → (∀ r', ok' r' (sgn up * v)) ∧ 0 < sgn up * v ∧ sgn up * v ≤ 1 - 1 / 2 ^ 53 ∧ (up = false → r.playing = true → r.header < r.pos1))
    {as : List Deed} {a : FileReader} (ha : LikeInMemoryAt fp g nullOk fuel a m ok) (hall : Allowed fp fuel ok ⟨a.rd, some (samplesOf m)⟩ as) (b : ArrayReader) :
    Allowed fp fuel' ok' b (as.map f) := by
  obtain ⟨fxs, a', b', -, h2, -⟩ := ha as hall
  have h3 := hall.speeds h2
  refine Allowed.of_speeds _ _ fun v hv => ?_
  obtain ⟨d, hd, e⟩ := List.mem_map.1 hv
  cases d with
  | tick al => rw [hft] at e; cases e
  | speed w =>
    rw [hfs] at e
    cases e
    obtain ⟨r, hr⟩ := h3 w hd
    exact (hok r w hr).1

theorem alike_written (hn : 1 ≤ n) (hq : 0 ≤ q) (hsym : up = false → Symmetric fp) (hfp : Representable fp) (hback : fin back = false) (hlowb : up = true → Hd ≤ back)
    (hstep : ∀ j, q ≤ j → fin (pl j) = false →
      (fin (pl j + sgn up * n) = false ∧ pl (j + 1) = pl j + sgn up * n) ∨ (fin (pl j + sgn up * n) = true ∧ pl (j + 1) = back))
    (hxy : ∀ j, q ≤ j → j < F → fin (pl j) = false → ∀ ch : Nat, (ch : Int) < n → ∀ v w, (samplesOf m)[(pl j + ch).toNat]? = some v →
      (samplesOf m')[(H + j * n + ch).toNat]? = some w → v = w)
    (hft : ∀ al, f (.tick al) = .tick al) (hfs : ∀ v, f (.speed v) = .speed (sgn up * v))
    (hok : ∀ r v, ok r v → (∀ r', ok' r' (sgn up * v)) ∧ 0 < sgn up * v ∧ sgn up * v ≤ 1 - 1 / 2 ^ 53 ∧ (up = false → r.playing = true → r.header < r.pos1)) :
    ∀ (as : List Deed) {a b : FileReader}, LikeInMemoryAt fp g nullOk fuel a m ok → LikeInMemoryAt fp g' nullOk' fuel' b m' ok' →
      (b.rd.playing = true → WrittenOn up k Hd H n F q back pl fin (samplesOf m) (samplesOf m') ⟨a.rd, some (samplesOf m)⟩ ⟨b.rd, some (samplesOf m')⟩) →
      Allowed fp fuel ok ⟨a.rd, some (samplesOf m)⟩ as →
      ∃ fxs a' fxs' b', a.acts fp g nullOk fuel as = .ok (fxs, a') ∧ b.acts fp g' nullOk' fuel' (as.map f) = .ok (fxs', b') ∧
        (b'.rd.playing = true → fxs = fxs' ∧ a'.rd.playing = true) := by
  have over : ∀ (as : List Deed) (a b : FileReader), LikeInMemoryAt fp g nullOk fuel a m ok → LikeInMemoryAt fp g' nullOk' fuel' b m' ok' →
      Allowed fp fuel ok ⟨a.rd, some (samplesOf m)⟩ as → (∀ fxs b', b.acts fp g' nullOk' fuel' (as.map f) = .ok (fxs, b') → b'.rd.playing = false) →
      ∃ fxs a' fxs' b', a.acts fp g nullOk fuel as = .ok (fxs, a') ∧ b.acts fp g' nullOk' fuel' (as.map f) = .ok (fxs', b') ∧
        (b'.rd.playing = true → fxs = fxs' ∧ a'.rd.playing = true) := by
    intro as a b ha hb hall hst
    obtain ⟨fxs, a', c', e1, -, -⟩ := ha as hall
    obtain ⟨fxs', b', d', e2, -, -⟩ := hb (as.map f) (allowed_other hft hfs hok ha hall _)
    refine ⟨fxs, a', fxs', b', e1, e2, fun h => ?_⟩
    rw [hst _ _ e2] at h
    cases h
  intro as
  induction as with
  | nil =>
    intro a b ha hb h hall
    refine ⟨[], a, [], b, rfl, rfl, fun hp => ⟨rfl, ?_⟩⟩
    exact (h hp).rd.playing.trans hp
  | cons d as ih =>
    intro a b ha hb h hall
    cases hp : b.rd.playing with
    | false => exact over _ a b ha hb hall fun _ _ e => stopped_acts hp e
    | true =>
      have h := h hp
      cases d with
      | tick al =>
        obtain ⟨fx, a1, c1, t1, t2, t3⟩ := ha.tick al
        obtain ⟨fx', b1, d1, t1', t2', t3'⟩ := hb.tick al
        rcases (WrittenOn.tick hn hsym hfp hback hlowb hstep hxy h al) _ _ t2 t2' with hend | ⟨k1, k2⟩
        · refine over _ a b ha hb hall fun fxs b' e => ?_
          rw [List.map_cons, hft, FileReader.acts, t1'] at e
          simp only [ok_bind] at e
          obtain ⟨⟨y, b2⟩, e3, e4⟩ := bind_ok_iff.1 e
          cases e4
          refine stopped_acts ?_ e3
          rw [← t3']; exact hend
        · simp only at k1 k2
          subst k1
          have ha1 := ha.after_tick t1 t2 t3 k2.src
          have hb1 := hb.after_tick t1' t2' t3' k2.src'
          have hall1 := hall _ _ t2
          obtain ⟨rc, sc⟩ := c1
          obtain ⟨rd, sd⟩ := d1
          have k3 := k2.src
          have k4 := k2.src'
          simp only at t3 t3' k3 k4
          subst t3 t3' k3 k4
          obtain ⟨fxs, a2, fxs', b2, e1, e2, e3⟩ := ih ha1 hb1 (fun _ => k2) hall1
          refine ⟨fx :: fxs, a2, fx :: fxs', b2, ?_, ?_, fun hh => ⟨by rw [(e3 hh).1], (e3 hh).2⟩⟩
          · rw [FileReader.acts, t1]; simp only [ok_bind, e1]; rfl
          · rw [List.map_cons, hft, FileReader.acts, t1']; simp only [ok_bind, e2]; rfl
      | speed v =>
        obtain ⟨hv, hall1⟩ := hall
        obtain ⟨w1, w2, w3, w4⟩ := hok a.rd v hv
        have h1 := h.speed hn hq w2 w3 (fun hu => w4 hu (h.rd.playing.trans hp))
        have e : (sgn up : ℚ) * (sgn up * v) = v := by
          cases up <;> simp [sgn]
        rw [e] at h1
        rw [List.map_cons, hfs]
        exact ih (ha.after_speed hv) (hb.after_speed (w1 _)) (fun _ => h1) hall1

/-- What is asked of the two players before they open the files; `up` if the loop goes forwards. -/
structure WrittenSettings (up : Bool) (a b : Rd) : Prop where
  dual : a.dual = false
  dual' : b.dual = false
  loop : a.loopType = .repeat
  loop' : b.loopType = .none
  fwd : 0 < b.rate
  slow : b.rate ≤ 1 - 1 / 2 ^ 53
  rate : a.rate = sgn up * b.rate
  rem : a.rem = sgn up * b.rem
  rem0 : 0 ≤ b.rem
  rem1 : b.rem < 1
  flt : IsFloat 53 (-1074) b.rem
  kind : a.interp = b.interp
  held : b.interp ≠ .none → a.pts = b.pts

theorem written_open {a b : Rd} (h : WrittenSettings up a b) {H Hd nch F S S' Q Q' : Nat} (hc : 1 ≤ nch) (hQ : Q' / nch = F) (hF : H + F * nch < 2 ^ 30)
    {q : Int} (hq : (if b.playStart = .arbitrary then b.playbackStart else 0) = q) (hq0 : 0 ≤ q) (hqF : q ≤ F)
    (hpos : (openedRd (beforeRd a S Hd Q nch)).pos1 = pl q) (hin : fin (pl q) = false) (hlow : up = true → (Hd : Int) ≤ pl q)
    (hfin : ∀ p, ({ openedRd (beforeRd a S Hd Q nch) with pos1 := p } : Rd).atEnd = fin p)
    (hwrap : (if a.rate ≥ 0 then (openedRd (beforeRd a S Hd Q nch)).posOf (openedRd (beforeRd a S Hd Q nch)).loopStart
      else (openedRd (beforeRd a S Hd Q nch)).posOf ((openedRd (beforeRd a S Hd Q nch)).loopFinish - nch)) = back) :
    Written up b.interp Hd H nch F q back pl fin (openedRd (beforeRd a S Hd Q nch)) (openedRd (beforeRd b S' H Q' nch)) := by
  have t1 : ((Q' : Int)).tdiv (nch : Int) = F := by
    rw [Int.tdiv_eq_ediv_of_nonneg (by omega), ← hQ]; rfl
  have hn0 : (1 : Int) ≤ nch := by exact_mod_cast hc
  have hFz : ((H : Int) + (F : Int) * nch) < 2 ^ 30 := by exact_mod_cast hF
  have hFn : (F : Int) ≤ (F : Int) * nch := by
    have := Int.mul_le_mul_of_nonneg_left hn0 (Int.natCast_nonneg F)
    linarith
  have hH0 : (0 : Int) ≤ H := Int.natCast_nonneg _
  have hF0 : (0 : Int) ≤ F := Int.natCast_nonneg _
  have q1 : i32 (if b.loopType = .none then 0 else b.loopStart) = 0 := by rw [if_pos h.loop']; rfl
  have q2 : i32 (if b.loopType = .none then (F : Int) else b.loopFinish) = F := by rw [if_pos h.loop']; exact i32_small' (by linarith) (by linarith)
  have eb := openedRd_at (r := beforeRd b S' H Q' nch) t1 q1 q2
  have hp : ∀ x : Int, 0 ≤ x → x ≤ F → i32 (u32 ((H : Int) + x * nch)) = H + x * nch := by
    intro x h2 h3
    have k1 : x * nch ≤ F * nch := Int.mul_le_mul_of_nonneg_right h3 (by linarith)
    have k2 : 0 ≤ x * nch := Int.mul_nonneg h2 (by linarith)
    exact i32_u32_small (by linarith) (by linarith)
  have pb : (openedRd (beforeRd b S' H Q' nch)).pos1 = H + q * nch := by
    rw [eb]
    have hr : b.rate ≥ 0 := le_of_lt h.fwd
    unfold openedAt Rd.reset beforeRd
    simp only [Rd.posOf, Rd.s2s, if_pos hr]
    cases hps : b.playStart with
    | sample =>
      rw [hps, if_neg (by decide)] at hq
      rw [← hq]; exact hp 0 le_rfl hF0
    | loop =>
      rw [hps, if_neg (by decide)] at hq
      rw [← hq]; exact hp 0 le_rfl hF0
    | arbitrary =>
      rw [hps, if_pos rfl] at hq
      rw [← hq]; exact hp _ (hq ▸ hq0) (by rw [hq]; exact hqF)
  have tb : (openedRd (beforeRd b S' H Q' nch)).posOf (openedRd (beforeRd b S' H Q' nch)).fileSamples = H + (F : Int) * nch := by
    rw [eb]
    exact hp F hF0 le_rfl
  refine
    { playing := rfl
      place := ⟨q, le_rfl, pb, Or.inl ⟨by rw [hpos]; exact hin, hpos⟩⟩
      low := fun hu => by rw [hpos]; exact hlow hu
      head := rfl, head' := rfl, fin := hfin, wrap := hwrap, loop := h.loop, top := tb, rate := h.rate, fwd := h.fwd, slow := h.slow
      rem := h.rem, rem0 := h.rem0, rem1 := h.rem1, flt := h.flt, chans := rfl, chans' := rfl
      pts := fun hk => ?_
      kind := h.kind, kind' := rfl, dual := h.dual, dual' := h.dual', loop' := h.loop' }
  show (fun c => if c < 8 then { b.pts c with n := 0 } else b.pts c) = fun c => if c < 8 then { a.pts c with n := 0 } else a.pts c
  rw [h.held hk]

/-- Where a player starts that opens a file with a repeated loop forwards. -/
theorem opened_up {a : Rd} {Hd nch S Q : Nat} (hl : a.loopType = .repeat) (hd : a.dual = false) (hr : 0 ≤ a.rate) (hc : 1 ≤ nch) (A0 : 0 ≤ a.loopStart) (AZ : a.loopStart < a.loopFinish)
    (hZ : (Hd : Int) + a.loopFinish * nch < 2 ^ 30) (hx : 0 ≤ firstFrame a) (hxZ : firstFrame a < a.loopFinish) :
    (openedRd (beforeRd a S Hd Q nch)).pos1 = Hd + firstFrame a * nch ∧
      (∀ p, ({ openedRd (beforeRd a S Hd Q nch) with pos1 := p } : Rd).atEnd = decide (p ≥ Hd + a.loopFinish * nch)) ∧
      (if a.rate ≥ 0 then (openedRd (beforeRd a S Hd Q nch)).posOf (openedRd (beforeRd a S Hd Q nch)).loopStart
        else (openedRd (beforeRd a S Hd Q nch)).posOf ((openedRd (beforeRd a S Hd Q nch)).loopFinish - nch)) = Hd + a.loopStart * nch := by
  have hn0 : (1 : Int) ≤ nch := by exact_mod_cast hc
  have hH0 : (0 : Int) ≤ Hd := Int.natCast_nonneg _
  have hZn : a.loopFinish ≤ a.loopFinish * nch := by
    have := Int.mul_le_mul_of_nonneg_left hn0 (show 0 ≤ a.loopFinish by linarith)
    linarith
  have hlt : ¬ a.loopType = .none := by rw [hl]; decide
  have q1 : i32 (if a.loopType = .none then 0 else a.loopStart) = a.loopStart := by rw [if_neg hlt]; exact i32_small' (by linarith) (by linarith)
  have q2 : i32 (if a.loopType = .none then ((Q : Int)).tdiv nch else a.loopFinish) = a.loopFinish := by rw [if_neg hlt]; exact i32_small' (by linarith) (by linarith)
  have ea := openedRd_at (r := beforeRd a S Hd Q nch) rfl q1 q2
  have hp : ∀ x : Int, 0 ≤ x → x ≤ a.loopFinish → i32 (u32 ((Hd : Int) + x * nch)) = Hd + x * nch := by
    intro x h2 h3
    have k1 : x * nch ≤ a.loopFinish * nch := Int.mul_le_mul_of_nonneg_right h3 (by linarith)
    have k2 : 0 ≤ x * nch := Int.mul_nonneg h2 (by linarith)
    exact i32_u32_small (by linarith) (by linarith)
  have hr' : a.rate ≥ 0 := hr
  rw [ea]
  refine ⟨?_, fun p => ?_, ?_⟩
  · unfold openedAt Rd.reset beforeRd firstFrame
    unfold firstFrame at hx hxZ
    simp only [Rd.posOf, Rd.s2s, if_pos hr']
    cases hps : a.playStart with
    | sample => exact hp 0 le_rfl (by linarith)
    | loop => exact hp _ A0 (le_of_lt AZ)
    | arbitrary =>
      rw [hps] at hx hxZ
      exact hp _ hx (le_of_lt hxZ)
  · have e := hp a.loopFinish (by linarith) le_rfl
    unfold openedAt Rd.reset beforeRd Rd.atEnd
    simp only [hd, Bool.false_eq_true, if_false, if_pos hr', if_neg hlt, Rd.posOf, Rd.s2s, e]
  · rw [if_pos hr']
    exact hp _ A0 (le_of_lt AZ)

/-- Where a player starts that opens a file with a repeated loop backwards. -/
theorem opened_down {a : Rd} {Hd nch S Q : Nat} (hl : a.loopType = .repeat) (hd : a.dual = false) (hr : a.rate < 0) (hc : 1 ≤ nch) (A0 : 0 ≤ a.loopStart) (AZ : a.loopStart + nch ≤ a.loopFinish)
    (hZ : (Hd : Int) + a.loopFinish * nch < 2 ^ 30) (hwhole : a.playStart = .sample → a.loopStart = 0) {s : Nat} (hs : (Hd : Int) + s * nch < 2 ^ 30)
    (hP : StartsBackAt a ((S : Int) / 2) Hd a.loopFinish nch (Hd + s * nch : Nat)) :
    (openedRd (beforeRd a S Hd Q nch)).pos1 = Hd + (s : Int) * nch ∧
      (∀ p, ({ openedRd (beforeRd a S Hd Q nch) with pos1 := p } : Rd).atEnd = decide (p < Hd + a.loopStart * nch)) ∧
      (if a.rate ≥ 0 then (openedRd (beforeRd a S Hd Q nch)).posOf (openedRd (beforeRd a S Hd Q nch)).loopStart
        else (openedRd (beforeRd a S Hd Q nch)).posOf ((openedRd (beforeRd a S Hd Q nch)).loopFinish - nch)) = Hd + (a.loopFinish - nch) * nch := by
  have hn0 : (1 : Int) ≤ nch := by exact_mod_cast hc
  have hH0 : (0 : Int) ≤ Hd := Int.natCast_nonneg _
  have hZn : a.loopFinish ≤ a.loopFinish * nch := by
    have := Int.mul_le_mul_of_nonneg_left hn0 (show 0 ≤ a.loopFinish by linarith)
    linarith
  have hlt : ¬ a.loopType = .none := by rw [hl]; decide
  have q1 : i32 (if a.loopType = .none then 0 else a.loopStart) = a.loopStart := by rw [if_neg hlt]; exact i32_small' (by linarith) (by linarith)
  have q2 : i32 (if a.loopType = .none then ((Q : Int)).tdiv nch else a.loopFinish) = a.loopFinish := by rw [if_neg hlt]; exact i32_small' (by linarith) (by linarith)
  have ea := openedRd_at (r := beforeRd a S Hd Q nch) rfl q1 q2
  have hp : ∀ x : Int, 0 ≤ x → x ≤ a.loopFinish → i32 (u32 ((Hd : Int) + x * nch)) = Hd + x * nch := by
    intro x h2 h3
    have k1 : x * nch ≤ a.loopFinish * nch := Int.mul_le_mul_of_nonneg_right h3 (by linarith)
    have k2 : 0 ≤ x * nch := Int.mul_nonneg h2 (by linarith)
    exact i32_u32_small (by linarith) (by linarith)
  have hr' : ¬ a.rate ≥ 0 := not_le.2 hr
  have hsz : ((S : Int)).tdiv 2 = (S : Int) / 2 := Int.tdiv_eq_ediv_of_nonneg (Int.natCast_nonneg _)
  have hP' : ((Hd + s * nch : Nat) : Int) = (Hd : Int) + (s : Int) * nch := by push_cast; ring
  rw [hP'] at hP
  have hsn0 : 0 ≤ (s : Int) * nch := Int.mul_nonneg (Int.natCast_nonneg _) (by linarith)
  rw [ea]
  refine ⟨?_, fun p => ?_, ?_⟩
  · unfold openedAt Rd.reset beforeRd
    unfold StartsBackAt at hP
    simp only [Rd.posOf, Rd.s2s, if_neg hr']
    cases hps : a.playStart with
    | sample =>
      rw [hps] at hP; simp only at hP ⊢
      rw [hsz, ← hP]; exact i32_small' (by linarith) (by linarith)
    | loop =>
      rw [hps] at hP; simp only at hP ⊢
      rw [← hP]; exact i32_u32_small (by linarith) (by linarith)
    | arbitrary =>
      rw [hps] at hP; simp only at hP ⊢
      rw [← hP]; exact i32_u32_small (by linarith) (by linarith)
  · have e := hp a.loopStart A0 (by linarith)
    unfold openedAt Rd.reset beforeRd Rd.atEnd
    simp only [hd, Bool.false_eq_true, if_false, if_neg hr', Rd.posOf, Rd.s2s, e]
    split
    · rename_i hh
      rw [hwhole hh, Int.zero_mul, Int.add_zero]
    · rfl
  · rw [if_neg hr']
    exact hp (a.loopFinish - nch) (by linarith) (by linarith)

end

theorem written_memory {m m' : List Nat} {off off' nch : Nat} (he : off % 2 = 0) (he' : off' % 2 = 0) {u j : Int} (hu : 0 ≤ u) (hj : 0 ≤ j) {ch : Nat}
    (h : dataSample m' (off' + 8) (j.toNat * nch + ch) = dataSample m (off + 8) (u.toNat * nch + ch)) {v w : Int}
    (hv : (samplesOf m)[(((off + 8) / 2 : Nat) + u * nch + ch : Int).toNat]? = some v) (hw : (samplesOf m')[(((off' + 8) / 2 : Nat) + j * nch + ch : Int).toNat]? = some w) : v = w := by
  obtain ⟨i, rfl⟩ := Int.eq_ofNat_of_zero_le hu
  obtain ⟨j, rfl⟩ := Int.eq_ofNat_of_zero_le hj
  have e1 : ((((off + 8) / 2 : Nat) : Int) + (i : Int) * nch + ch).toNat = (off + 8) / 2 + (i * nch + ch) := by
    have : ((((off + 8) / 2 : Nat) : Int) + (i : Int) * nch + ch) = (((off + 8) / 2 + (i * nch + ch) : Nat) : Int) := by push_cast; ring
    rw [this, Int.toNat_natCast]
  have e2 : ((((off' + 8) / 2 : Nat) : Int) + (j : Int) * nch + ch).toNat = (off' + 8) / 2 + (j * nch + ch) := by
    have : ((((off' + 8) / 2 : Nat) : Int) + (j : Int) * nch + ch) = (((off' + 8) / 2 + (j * nch + ch) : Nat) : Int) := by push_cast; ring
    rw [this, Int.toNat_natCast]
  rw [e1] at hv
  rw [e2] at hw
  rw [samplesOf_some hv, samplesOf_some hw, fileSample_data m (by omega), fileSample_data m' (by omega)]
  exact h.symm

/-- Speeds below normal, forwards. -/
def BelowNormal (_ : Rd) (v : ℚ) : Prop := 0 < v ∧ v ≤ 1 - 1 / 2 ^ 53

/-- Speeds below normal, backwards; not while the first frame of the sound is played. -/
def BelowNormalBack (fp : Fp) (r : Rd) (v : ℚ) : Prop := fp.f.rnd v < 0 ∧ -(1 - 1 / 2 ^ 53) ≤ v ∧ (r.playing = true → r.header < r.pos1)

theorem file_room {m : List Nat} {off nch D : Nat} (hw : WavFile m off nch D) : (off + 8) / 2 + D / 2 / nch * nch < 2 ^ 30 := by
  have h1 := hw.inFile; have h2 := hw.small; have h3 := Nat.div_mul_le_self (D / 2) nch
  clear hw
  generalize D / 2 / nch * nch = x at *
  generalize m.length = y at *
  omega

/-- **C90** (whenever both are read as from memory).  Let the frames of `m'` be the frames of `m` in the order in which a repeated loop meets them.  A
player opens `m` with that loop, another one `m'`, with the same interpolation and the same values held from before, both below normal
speed.  If both then play like players with their files in memory, they do the same, update for update, for as long as `m'` lasts,
whatever changes of speed `ok` allows; however positions are rounded.

Missing: the second head, normal speed and above. -/
theorem C90_streams_partial (hfp : Representable fp) {g g' : Geo} {nullOk nullOk' : Bool} {fuel fuel' : Nat} {a a' b b' : FileReader} {m m' : List Nat} {off off' nch D D' : Nat}
    (hw : WavFile m off nch D) (hw' : WavFile m' off' nch D') {q : Int}
    (hout : ∀ (j ch : Nat), q ≤ j → j < D' / 2 / nch → ch < nch →
      dataSample m' (off' + 8) (j * nch + ch) = dataSample m (off + 8) ((unroll a.rd.loopStart a.rd.loopFinish (firstFrame a.rd + (j - q))).toNat * nch + ch))
    {past past' : Bool} {junk junk' : List Nat} (hj : junk.length = 36) (hj' : junk'.length = 36) (hc' : nch ≤ 32767) (hset : WrittenSettings true a.rd b.rd)
    (A0 : 0 ≤ a.rd.loopStart) (AZ : a.rd.loopStart < a.rd.loopFinish) (hZ : 2 * (((off + 8) / 2 : Nat) + a.rd.loopFinish * nch) ≤ m.length)
    (hx : 0 ≤ firstFrame a.rd) (hxZ : firstFrame a.rd < a.rd.loopFinish)
    (hq : (if b.rd.playStart = .arbitrary then b.rd.playbackStart else 0) = q) (hq0 : 0 ≤ q) (hqD : q ≤ (D' / 2 / nch : Nat)) {ok ok' : Rd → ℚ → Prop}
    (hok : ∀ r v, ok r v → (∀ r', ok' r' v) ∧ 0 < v ∧ v ≤ 1 - 1 / 2 ^ 53)
    (hloop : a.playWav g (some ⟨m, 0, past⟩) junk = .ok (true, a')) (hwritten : b.playWav g' (some ⟨m', 0, past'⟩) junk' = .ok (true, b'))
    (h : LikeInMemoryAt fp g nullOk fuel a' m ok) (h' : LikeInMemoryAt fp g' nullOk' fuel' b' m' ok') :
    LastsAlike fp g g' nullOk nullOk' fuel fuel' a' b' m id ok := by
  have hc := hw.some
  have e1 := playWav_rd hw hj hc' hloop
  have e2 := playWav_rd hw' hj' hc' hwritten
  have hn0 : (1 : Int) ≤ nch := by exact_mod_cast hc
  have b1 : (((off + 8) / 2 : Nat) : Int) + a.rd.loopFinish * nch < 2 ^ 30 := by
    have : (m.length : Int) < 2 ^ 31 := by exact_mod_cast hw.small
    linarith
  obtain ⟨o1, o2, o3⟩ := opened_up (S := m.length) (Q := D / 2) hset.loop hset.dual (by rw [hset.rate]; simp only [sgn, if_true, Int.cast_one, one_mul]; exact le_of_lt hset.fwd) hc A0 AZ b1 hx hxZ
  have hu : ∀ i, unroll a.rd.loopStart a.rd.loopFinish i < a.rd.loopFinish := fun i => (unroll_in AZ i).1
  have hu0 : ∀ j, q ≤ j → 0 ≤ unroll a.rd.loopStart a.rd.loopFinish (firstFrame a.rd + (j - q)) := fun j hj => by
    obtain ⟨-, k1, k2⟩ := unroll_in AZ (firstFrame a.rd + (j - q))
    by_cases hA : a.rd.loopStart ≤ firstFrame a.rd + (j - q)
    · linarith [k1 hA]
    · rw [k2 (not_le.1 hA)]; linarith
  have hfinI : ∀ x : Int, x < a.rd.loopFinish ↔ ¬ (((off + 8) / 2 : Nat) : Int) + x * nch ≥ ((off + 8) / 2 : Nat) + a.rd.loopFinish * nch := fun x => by
    constructor
    · intro hlt hge
      have : a.rd.loopFinish * nch ≤ x * nch := by linarith
      exact absurd (le_of_mul_le_mul_right this (by linarith)) (not_le.2 hlt)
    · intro hge
      by_contra hcc
      exact hge (by have := Int.mul_le_mul_of_nonneg_right (not_lt.1 hcc) (show (0 : Int) ≤ nch by linarith); linarith)
  have hst : unroll a.rd.loopStart a.rd.loopFinish (firstFrame a.rd + (q - q)) = firstFrame a.rd := by
    rw [sub_self, add_zero]; unfold unroll; rw [if_pos hxZ]
  have hH0 : (0 : Int) ≤ ((off + 8) / 2 : Nat) := Int.natCast_nonneg _
  have ht := written_open (up := true) (pl := fun j => ((off + 8) / 2 : Nat) + unroll a.rd.loopStart a.rd.loopFinish (firstFrame a.rd + (j - q)) * nch)
    (fin := fun p => decide (p ≥ ((off + 8) / 2 : Nat) + a.rd.loopFinish * nch)) hset (H := (off' + 8) / 2) (Hd := (off + 8) / 2) (S := m.length) (S' := m'.length) hc
    (rfl : D' / 2 / nch = _) (file_room hw') hq hq0 hqD (by simp only [hst]; exact o1) (by simp only [hst]; exact decide_eq_false ((hfinI _).1 hxZ))
    (fun _ => by simp only [hst]; linarith [Int.mul_nonneg hx (show (0 : Int) ≤ nch by linarith)]) o2 o3
  rw [← e1, ← e2] at ht
  intro as hall
  refine alike_written (up := true) (k := b.rd.interp) (f := id) hn0 hq0 (fun h => nomatch h) hfp (decide_eq_false ((hfinI _).1 AZ))
    (fun _ => by linarith [Int.mul_nonneg A0 (show (0 : Int) ≤ nch by linarith)]) (fun j hj _ => ?_) (fun j hj hjF _ ch hch v w hv hw1 => ?_)
    (fun _ => rfl) (fun v => by simp [sgn]) (fun r v hv => ?_) as h h' (fun _ => ⟨ht, rfl, rfl⟩) hall
  · simp only [sgn, if_true, one_mul]
    have e := unroll_succ AZ (firstFrame a.rd + (j - q))
    rw [show firstFrame a.rd + (j - q) + 1 = firstFrame a.rd + (j + 1 - q) by ring] at e
    have hlt := hu (firstFrame a.rd + (j - q))
    rw [e]
    generalize unroll a.rd.loopStart a.rd.loopFinish (firstFrame a.rd + (j - q)) = u at hlt
    have e3 : (((off + 8) / 2 : Nat) : Int) + u * nch + nch = ((off + 8) / 2 : Nat) + (u + 1) * nch := by ring
    rw [e3]
    by_cases hE : u + 1 = a.rd.loopFinish
    · rw [if_pos hE, hE]
      exact Or.inr ⟨decide_eq_true (le_refl _), rfl⟩
    · rw [if_neg hE]
      exact Or.inl ⟨decide_eq_false ((hfinI _).1 (lt_of_le_of_ne hlt hE)), rfl⟩
  · refine written_memory hw.even hw'.even (hu0 j hj) (by linarith) ?_ hv hw1
    have ej : ((j.toNat : Nat) : Int) = j := Int.toNat_of_nonneg (by linarith)
    have := hout j.toNat ch (by rw [ej]; exact hj) (by have : ((j.toNat : Nat) : Int) < (D' / 2 / nch : Nat) := by rw [ej]; exact hjF
                                                       exact_mod_cast this) (by exact_mod_cast hch)
    rw [ej] at this
    exact this
  · obtain ⟨w1, w2, w3⟩ := hok r v hv
    simp only [sgn, if_true, Int.cast_one, one_mul]
    exact ⟨w1, w2, w3, fun h => nomatch h⟩

/-- **C90** (backwards, whenever both are read as from memory): likewise with the frames in the order in which the loop meets them backwards from frame
`s`; rounding must treat both signs alike. -/
theorem C90_streams_back_partial (hfp : Representable fp) (hsym : Symmetric fp) {g g' : Geo} {nullOk nullOk' : Bool} {fuel fuel' : Nat} {a a' b b' : FileReader} {m m' : List Nat}
    {off off' nch D D' : Nat} (hw : WavFile m off nch D) (hw' : WavFile m' off' nch D') {q : Int} {s : Nat}
    (hout : ∀ (j ch : Nat), q ≤ j → j < D' / 2 / nch → ch < nch →
      dataSample m' (off' + 8) (j * nch + ch) = dataSample m (off + 8) ((unrollBack a.rd.loopStart (a.rd.loopFinish - nch) (-s + (j - q))).toNat * nch + ch))
    {past past' : Bool} {junk junk' : List Nat} (hj : junk.length = 36) (hj' : junk'.length = 36) (hc' : nch ≤ 32767) (hset : WrittenSettings false a.rd b.rd)
    (A0 : 0 ≤ a.rd.loopStart) (AZ : a.rd.loopStart + nch ≤ a.rd.loopFinish) (hZ : 2 * (((off + 8) / 2 : Nat) + a.rd.loopFinish * nch) ≤ m.length)
    (hwhole : a.rd.playStart = .sample → a.rd.loopStart = 0) (hsA : a.rd.loopStart ≤ s) (hsm : (((off + 8) / 2 : Nat) : Int) + s * nch ≤ (m.length : Int) / 2)
    (hP : StartsBackAt a.rd ((m.length : Int) / 2) ((off + 8) / 2 : Nat) a.rd.loopFinish nch ((off + 8) / 2 + s * nch : Nat))
    (hq : (if b.rd.playStart = .arbitrary then b.rd.playbackStart else 0) = q) (hq0 : 0 ≤ q) (hqD : q ≤ (D' / 2 / nch : Nat)) {ok ok' : Rd → ℚ → Prop}
    (hok : ∀ r v, ok r v → (∀ r', ok' r' (-v)) ∧ v < 0 ∧ -(1 - 1 / 2 ^ 53) ≤ v ∧ (r.playing = true → r.header < r.pos1))
    (hloop : a.playWav g (some ⟨m, 0, past⟩) junk = .ok (true, a')) (hwritten : b.playWav g' (some ⟨m', 0, past'⟩) junk' = .ok (true, b'))
    (h : LikeInMemoryAt fp g nullOk fuel a' m ok) (h' : LikeInMemoryAt fp g' nullOk' fuel' b' m' ok') :
    LastsAlike fp g g' nullOk nullOk' fuel fuel' a' b' m Deed.turned ok := by
  have hc := hw.some
  have e1 := playWav_rd hw hj hc' hloop
  have e2 := playWav_rd hw' hj' hc' hwritten
  have hn0 : (1 : Int) ≤ nch := by exact_mod_cast hc
  have hlen : (m.length : Int) < 2 ^ 31 := by exact_mod_cast hw.small
  have b1 : (((off + 8) / 2 : Nat) : Int) + a.rd.loopFinish * nch < 2 ^ 30 := by linarith
  have b2 : (((off + 8) / 2 : Nat) : Int) + (s : Int) * nch < 2 ^ 30 := by
    have : (m.length : Int) / 2 < 2 ^ 30 := by clear hw hw' hP hZ hsm; omega
    linarith
  obtain ⟨o1, o2, o3⟩ := opened_down (S := m.length) (Q := D / 2) hset.loop hset.dual
    (by rw [hset.rate]; simp only [sgn, Bool.false_eq_true, if_false, Int.cast_neg, Int.cast_one, neg_mul, one_mul]; linarith [hset.fwd]) hc A0 AZ b1 hwhole b2 hP
  have hTA : -(a.rd.loopFinish - (nch : Int)) < 1 - a.rd.loopStart := by linarith
  have hu : ∀ i, a.rd.loopStart ≤ unrollBack a.rd.loopStart (a.rd.loopFinish - nch) i := fun i => by
    rw [unrollBack_eq]
    linarith [Int.le_sub_one_of_lt (unroll_in hTA i).1]
  have hfinI : ∀ x : Int, a.rd.loopStart ≤ x ↔ ¬ (((off + 8) / 2 : Nat) : Int) + x * nch < ((off + 8) / 2 : Nat) + a.rd.loopStart * nch := fun x => by
    rw [not_lt]
    constructor
    · intro hle
      have := Int.mul_le_mul_of_nonneg_right hle (show (0 : Int) ≤ nch by linarith)
      linarith
    · intro hge
      have : a.rd.loopStart * nch ≤ x * nch := by linarith
      exact le_of_mul_le_mul_right this (by linarith)
  have hst : unrollBack a.rd.loopStart (a.rd.loopFinish - nch) (-s + (q - q)) = s := by
    rw [sub_self, add_zero]; unfold unrollBack; rw [if_pos (by linarith), neg_neg]
  have ht := written_open (up := false) (pl := fun j => ((off + 8) / 2 : Nat) + unrollBack a.rd.loopStart (a.rd.loopFinish - nch) (-s + (j - q)) * nch)
    (fin := fun p => decide (p < ((off + 8) / 2 : Nat) + a.rd.loopStart * nch)) hset (H := (off' + 8) / 2) (Hd := (off + 8) / 2) (S := m.length) (S' := m'.length) hc
    (rfl : D' / 2 / nch = _) (file_room hw') hq hq0 hqD (by simp only [hst]; exact o1) (by simp only [hst]; exact decide_eq_false ((hfinI _).1 hsA))
    (fun h => nomatch h) o2 o3
  rw [← e1, ← e2] at ht
  intro as hall
  refine alike_written (up := false) (k := b.rd.interp) (f := Deed.turned) hn0 hq0 (fun _ => hsym) hfp (decide_eq_false ((hfinI _).1 (by linarith)))
    (fun h => nomatch h) (fun j hj _ => ?_) (fun j hj hjF _ ch hch v w hv hw1 => ?_)
    (fun _ => rfl) (fun v => by simp [sgn, Deed.turned]) (fun r v hv => ?_) as h h' (fun _ => ⟨ht, rfl, rfl⟩) hall
  · simp only [sgn, Bool.false_eq_true, if_false, neg_mul, one_mul]
    have e := unroll_succ hTA (-s + (j - q))
    rw [show -(s : Int) + (j - q) + 1 = -s + (j + 1 - q) by ring] at e
    have hlt := hu (-s + (j - q))
    rw [unrollBack_eq] at hlt
    rw [unrollBack_eq, unrollBack_eq, e]
    generalize unroll (-(a.rd.loopFinish - (nch : Int))) (1 - a.rd.loopStart) (-s + (j - q)) = u at hlt
    have e3 : (((off + 8) / 2 : Nat) : Int) + -u * nch + -nch = ((off + 8) / 2 : Nat) + (-u - 1) * nch := by ring
    rw [e3]
    by_cases hE : u + 1 = 1 - a.rd.loopStart
    · rw [if_pos hE, neg_neg]
      refine Or.inr ⟨decide_eq_true ?_, rfl⟩
      by_contra hcc
      have := (hfinI _).2 hcc
      linarith
    · rw [if_neg hE]
      have hne : a.rd.loopStart ≠ -u := fun hcc => hE (by rw [hcc]; ring)
      exact Or.inl ⟨decide_eq_false ((hfinI _).1 (by linarith [Int.add_one_le_iff.2 (lt_of_le_of_ne hlt hne)])), by ring⟩
  · refine written_memory hw.even hw'.even (le_trans A0 (hu _)) (by linarith) ?_ hv hw1
    have ej : ((j.toNat : Nat) : Int) = j := Int.toNat_of_nonneg (by linarith)
    have := hout j.toNat ch (by rw [ej]; exact hj) (by have : ((j.toNat : Nat) : Int) < (D' / 2 / nch : Nat) := by rw [ej]; exact hjF
                                                       exact_mod_cast this) (by exact_mod_cast hch)
    rw [ej] at this
    exact this
  · obtain ⟨w1, w2, w3, w4⟩ := hok r v hv
    simp only [sgn, Bool.false_eq_true, if_false, Int.cast_neg, Int.cast_one, neg_mul, one_mul]
    exact ⟨w1, by linarith, by linarith, fun _ => w4⟩

/-- **C90** (any speed below normal, with any interpolation, changed while playing): a repeated loop forwards in a WAV file sounds
exactly like the file in which the loop is written out, update for update, for as long as that file lasts, while the speed of both is
changed again and again. -/
theorem C90_smooth_speeds_partial (fp : Fp) (hfp : Representable fp) {g g' : Geo} (hB : g.B < 16384) (hB' : g'.B < 16384) (hNB : g.N * g.B ≤ 2 ^ 30) (hNB' : g'.N * g'.B ≤ 2 ^ 30)
    (a b : FileReader) {m m' : List Nat} {off off' nch D D' : Nat} (hw : WavFile m off nch D) (hw' : WavFile m' off' nch D') {q : Int}
    (hout : ∀ (j ch : Nat), q ≤ j → j < D' / 2 / nch → ch < nch →
      dataSample m' (off' + 8) (j * nch + ch) = dataSample m (off + 8) ((unroll a.rd.loopStart a.rd.loopFinish (firstFrame a.rd + (j - q))).toNat * nch + ch))
    (past past' : Bool) (junk junk' : List Nat) (hj : junk.length = 36) (hj' : junk'.length = 36) (h8 : nch ≤ 8) {mm mm' : Int}
    (hset : RepeatSettings a.rd 1) (hset' : SmoothSettings b.rd 1) (hpos : 0 < b.rd.rate) (hslow : b.rd.rate ≤ 1 - 1 / 2 ^ 53) (hrate : a.rd.rate = b.rd.rate)
    (hrem : a.rd.rem = b.rd.rem) (hrem0 : 0 ≤ b.rd.rem) (hheld : a.rd.pts = b.rd.pts) (hq : (if b.rd.playStart = .arbitrary then b.rd.playbackStart else 0) = q) (hq0 : 0 ≤ q)
    (hqD : q ≤ (D' / 2 / nch : Nat)) (hroom' : off' + 8 < m'.length)
    (hloop : GoodLoop g m ((off + 8) / 2 : Nat) nch a.rd.loopStart a.rd.loopFinish (firstFrame a.rd))
    (hmm0 : 0 ≤ mm) (hmm : 2 * mm + 5 ≤ g.N) (hadv : 128 * (nch * 2) ≤ mm * g.B)
    (hmm0' : 0 ≤ mm') (hmm' : 2 * mm' + 1 ≤ g'.N) (hadv' : 128 * (nch * 2) + nch ≤ mm' * g'.B)
    (nullOk nullOk' : Bool) {fuel fuel' : Nat} (hf : g.N ≤ fuel + 2) (hf' : g'.N ≤ fuel' + 1) :
    ∃ a' b', (a.withInterp b.rd.interp).playWav g (some ⟨m, 0, past⟩) junk = .ok (true, a') ∧ b.playWav g' (some ⟨m', 0, past'⟩) junk' = .ok (true, b') ∧
      LastsAlike fp g g' nullOk nullOk' (fuel + 2) (fuel' + 1) a' b' m id (UpToNormal b.rd.interp BelowNormal) := by
  have hpts : PtsOk a.rd := by
    intro c
    rw [hheld]
    exact hset'.pts c
  have hc' : nch ≤ 32767 := by clear hloop hq; omega
  obtain ⟨a', k1, -, -, -, -, -, -, -, -, k2⟩ := C82_loop_wav_partial hfp b.rd.interp g hB hNB a hw.bytes hw.small past junk hj hw.good hw.depth hw.data hw.chans hw.some h8
    hset (fun _ => by rw [hrem]; exact hrem0) hpts hloop hmm0 hmm hadv nullOk hf
  obtain ⟨b', l1, -, -, -, -, -, -, -, -, l2⟩ := C72_smooth_wav_partial fp hfp g' hB' hNB' b hw'.bytes hw'.small past' junk' hj' hw'.good hw'.depth hw'.data hw'.chans hw'.some hc' hw'.len
    hw'.inFile hroom' hset' (fun _ => h8) (fun h => by rw [if_pos h] at hq; rw [hq]; exact ⟨hq0, hqD⟩) hmm0' hmm' hadv' nullOk' hf'
  have hset2 : WrittenSettings true (a.withInterp b.rd.interp).rd b.rd :=
    ⟨hset.plain.dual, hset'.dual, hset.loop, hset'.loop, hpos, hslow, by simpa [sgn, FileReader.withInterp, Rd.setInterp] using hrate, by simpa [sgn, FileReader.withInterp, Rd.setInterp] using hrem, hrem0, lt_of_abs_lt hset'.frac, hset'.flt, rfl, fun _ => hheld⟩
  refine ⟨a', b', k1, l1, C90_streams_partial (a := a.withInterp b.rd.interp) hfp hw hw' hout hj hj' hc' hset2 hloop.A0 hloop.AZ hloop.file hloop.q0 hloop.q1 hq hq0 hqD
    (fun r v hv => ?_) k1 l1 (k2.mono fun r v hv => ?_) l2⟩
  · obtain ⟨⟨v0, v1⟩, -, -⟩ := hv
    have : v ≤ 1 := le_trans v1 (by norm_num)
    exact ⟨fun r' => ⟨le_of_lt v0, by push_cast; exact this, fun _ => this, fun _ h => absurd h (not_lt.2 this)⟩, v0, v1⟩
  · obtain ⟨⟨v0, v1⟩, v2, v3⟩ := hv
    exact ⟨⟨le_of_lt v0, by push_cast; exact le_trans v1 (by norm_num)⟩, v2, v3⟩

/-- **C90** (backwards at any speed below normal, with any interpolation, changed while playing). -/
theorem C90_smooth_speeds_back_partial (fp : Fp) (hfp : Representable fp) (hsym : Symmetric fp) {g g' : Geo} (hB : g.B < 16384) (hB' : g'.B < 16384) (hNB : g.N * g.B ≤ 2 ^ 30) (hNB' : g'.N * g'.B ≤ 2 ^ 30)
    (a b : FileReader) {m m' : List Nat} {off off' nch D D' : Nat} (hw : WavFile m off nch D) (hw' : WavFile m' off' nch D') {q : Int} {s : Nat}
    (hout : ∀ (j ch : Nat), q ≤ j → j < D' / 2 / nch → ch < nch →
      dataSample m' (off' + 8) (j * nch + ch) = dataSample m (off + 8) ((unrollBack a.rd.loopStart (a.rd.loopFinish - nch) (-s + (j - q))).toNat * nch + ch))
    (past past' : Bool) (junk junk' : List Nat) (hj : junk.length = 36) (hj' : junk'.length = 36) (h8 : nch ≤ 8) {mm mm' : Int}
    (hset : RepeatBackSettings fp a.rd 1) (hset' : SmoothSettings b.rd 1) (hslow : b.rd.rate ≤ 1 - 1 / 2 ^ 53) (hrate : a.rd.rate = -b.rd.rate)
    (hrem : a.rd.rem = -b.rd.rem) (hrem0 : 0 ≤ b.rd.rem) (hheld : a.rd.pts = b.rd.pts) (hq : (if b.rd.playStart = .arbitrary then b.rd.playbackStart else 0) = q) (hq0 : 0 ≤ q)
    (hqD : q ≤ (D' / 2 / nch : Nat)) (hroom' : off' + 8 < m'.length)
    (hP : StartsBackAt a.rd ((m.length : Int) / 2) ((off + 8) / 2 : Nat) a.rd.loopFinish nch ((off + 8) / 2 + s * nch : Nat))
    (hloop : GoodLoopBack g m ((off + 8) / 2 : Nat) nch a.rd.loopStart a.rd.loopFinish ((off + 8) / 2 + s * nch : Nat))
    (hmm0 : 0 ≤ mm) (hmm : 2 * mm + 5 ≤ g.N) (hadv : 128 * (nch * 2) + nch * nch ≤ mm * g.B)
    (hmm0' : 0 ≤ mm') (hmm' : 2 * mm' + 1 ≤ g'.N) (hadv' : 128 * (nch * 2) + nch ≤ mm' * g'.B)
    (nullOk nullOk' : Bool) {fuel fuel' : Nat} (hf : g.N ≤ fuel + 2) (hf' : g'.N ≤ fuel' + 1) :
    ∃ a' b', (a.withInterp b.rd.interp).playWav g (some ⟨m, 0, past⟩) junk = .ok (true, a') ∧ b.playWav g' (some ⟨m', 0, past'⟩) junk' = .ok (true, b') ∧
      LastsAlike fp g g' nullOk nullOk' (fuel + 2) (fuel' + 1) a' b' m Deed.turned (UpToNormal b.rd.interp (BelowNormalBack fp)) := by
  have hneg : ∀ v : ℚ, fp.f.rnd v < 0 → v < 0 := fun v h => by
    by_contra hcc
    exact absurd (fp.f.nonneg (not_lt.1 hcc)) (not_le.2 h)
  have hpts : PtsOk a.rd := by
    intro c
    rw [hheld]
    exact hset'.pts c
  have hc' : nch ≤ 32767 := by clear hloop hq hP; omega
  obtain ⟨a', k1, -, -, -, -, -, -, -, -, k2⟩ := C82_loop_back_wav_partial hfp b.rd.interp g hB hNB a hw.bytes hw.small past junk hj hw.good hw.depth hw.data hw.chans hw.some h8
    hset (fun _ => by rw [hrem]; linarith) hpts hP hloop hmm0 hmm hadv nullOk hf
  obtain ⟨b', l1, -, -, -, -, -, -, -, -, l2⟩ := C72_smooth_wav_partial fp hfp g' hB' hNB' b hw'.bytes hw'.small past' junk' hj' hw'.good hw'.depth hw'.data hw'.chans hw'.some hc' hw'.len
    hw'.inFile hroom' hset' (fun _ => h8) (fun h => by rw [if_pos h] at hq; rw [hq]; exact ⟨hq0, hqD⟩) hmm0' hmm' hadv' nullOk' hf'
  have hr := hneg _ hset.rateF
  have hset2 : WrittenSettings false (a.withInterp b.rd.interp).rd b.rd :=
    ⟨hset.plain.dual, hset'.dual, hset.loop, hset'.loop, by linarith, hslow, by simpa [sgn, FileReader.withInterp, Rd.setInterp] using hrate, by simpa [sgn, FileReader.withInterp, Rd.setInterp] using hrem, hrem0, lt_of_abs_lt hset'.frac, hset'.flt, rfl, fun _ => hheld⟩
  have hn0 : (0 : Int) < nch := by exact_mod_cast hw.some
  have habove : a.rd.loopStart ≤ s := by
    have := hloop.above
    push_cast at this
    have h2 : a.rd.loopStart * nch ≤ (s : Int) * nch := by linarith
    exact le_of_mul_le_mul_right h2 hn0
  have hwithin : (((off + 8) / 2 : Nat) : Int) + s * nch ≤ (m.length : Int) / 2 := by
    have := hloop.within
    push_cast at this ⊢
    linarith
  refine ⟨a', b', k1, l1, C90_streams_back_partial (a := a.withInterp b.rd.interp) hfp hsym hw hw' hout hj hj' hc' hset2 hloop.A0 hloop.AZ hloop.file hset.whole habove hwithin hP hq hq0 hqD
    (fun r v hv => ?_) k1 l1 (k2.mono fun r v hv => ?_) l2⟩
  · obtain ⟨⟨v0, v1, v2⟩, -, -⟩ := hv
    have v0 := hneg _ v0
    have : -v ≤ 1 := by
      have : (1 : ℚ) - 1 / 2 ^ 53 ≤ 1 := by norm_num
      linarith
    exact ⟨fun r' => ⟨by linarith, by push_cast; exact this, fun _ => this, fun _ h => absurd h (not_lt.2 this)⟩, v0, v1, v2⟩
  · obtain ⟨⟨v0, v1, v2⟩, v3, v4⟩ := hv
    exact ⟨⟨v0, by push_cast; exact (abs_le.1 v3).1, v2⟩, v3, v4⟩

/-- The loop from a tenth of the speed on, with linear interpolation, and the file in which it is written out; the speed of both may change. -/
example : ∃ a' b', (exFewTenth.withInterp .linear).playWav exFineGeo (some ⟨exCount, 0, false⟩) (List.replicate 36 7) = .ok (true, a') ∧
    exTenthSmooth.playWav sdGeo (some ⟨exCountLoop, 0, true⟩) (List.replicate 36 0) = .ok (true, b') ∧
    LastsAlike Fp.ieee exFineGeo sdGeo true false (5 + 2) (6 + 1) a' b' exCount id (UpToNormal .linear BelowNormal) :=
  C90_smooth_speeds_partial Fp.ieee ieee_representable (g := exFineGeo) (g' := sdGeo) (by decide) (by decide) (by decide) (by decide) exFewTenth exTenthSmooth
    exCount_file exCountLoop_file (q := 0) (fun j ch _ h1 h2 => exCountLoop_written j ch h1 h2)
    false true (List.replicate 36 7) (List.replicate 36 0) (by decide) (by decide) (by decide) (mm := 1) (mm' := 2) exFewTenth_settings exTenthSmooth_settings
    (by norm_num [exTenthSmooth, tenth]) (by norm_num [exTenthSmooth, tenth]) rfl rfl (by norm_num [exTenthSmooth]) rfl (by decide) (by decide) (by decide) (by decide +kernel)
    ⟨by decide, by decide, by decide +kernel, by decide, by decide, Or.inr ⟨by decide, by decide +kernel⟩⟩ (by decide) (by decide) (by decide) (by decide) (by decide) (by decide)
    true false (fuel := 5) (fuel' := 6) (by decide) (by decide)

/-- Backwards. -/
example : ∃ a' b', (exFewBackTenth.withInterp .linear).playWav exFinerGeo (some ⟨exCountMore, 0, false⟩) (List.replicate 36 7) = .ok (true, a') ∧
    exTenthSmooth.playWav sdGeo (some ⟨exCountBack, 0, true⟩) (List.replicate 36 0) = .ok (true, b') ∧
    LastsAlike Fp.ieee exFinerGeo sdGeo true false (5 + 2) (6 + 1) a' b' exCountMore Deed.turned (UpToNormal .linear (BelowNormalBack Fp.ieee)) :=
  C90_smooth_speeds_back_partial Fp.ieee ieee_representable ieee_symmetric (g := exFinerGeo) (g' := sdGeo) (by decide) (by decide) (by decide) (by decide)
    exFewBackTenth exTenthSmooth exCountMore_file exCountBack_file
    (q := 0) (s := 3101) (fun j ch _ h1 h2 => exCountBack_written j ch h1 h2)
    false true (List.replicate 36 7) (List.replicate 36 0) (by decide) (by decide) (by decide) (mm := 1) (mm' := 2) exFewBackTenth_settings exTenthSmooth_settings
    (by norm_num [exTenthSmooth, tenth]) rfl (by norm_num [exFewBackTenth, exTenthSmooth]) (by norm_num [exTenthSmooth]) rfl (by decide) (by decide) (by decide) (by decide +kernel)
    (exFewBack_start ((exCountMore.length : Int) / 2)) exFewBack_loop (by decide) (by decide) (by decide)
    (by decide) (by decide) (by decide) true false (fuel := 5) (fuel' := 6) (by decide) (by decide)

/-- The conditions of `C90_streams_partial` and `C90_streams_back_partial` hold for these. -/
example : WrittenSettings true (exFewTenth.withInterp .linear).rd exTenthSmooth.rd ∧ WrittenSettings false (exFewBackTenth.withInterp .linear).rd exTenthSmooth.rd :=
  ⟨⟨rfl, rfl, rfl, rfl, by norm_num [exTenthSmooth, tenth], by norm_num [exTenthSmooth, tenth], by simp [sgn, exTenthSmooth, exFewTenth, FileReader.withInterp, Rd.setInterp],
    by simp [sgn, exTenthSmooth, exFewTenth, FileReader.withInterp, Rd.setInterp], by norm_num [exTenthSmooth], by norm_num [exTenthSmooth], exTenth_settings.flt, rfl, fun _ => rfl⟩,
   ⟨rfl, rfl, rfl, rfl, by norm_num [exTenthSmooth, tenth], by norm_num [exTenthSmooth, tenth], by simp [sgn, exTenthSmooth, exFewBackTenth, FileReader.withInterp, Rd.setInterp],
    by simp [sgn, exTenthSmooth, exFewBackTenth, FileReader.withInterp, Rd.setInterp], by norm_num [exTenthSmooth], by norm_num [exTenthSmooth], exTenth_settings.flt, rfl, fun _ => rfl⟩⟩

/-- What may be done: play on, speed up to three quarters and play on. -/
example (b : ArrayReader) : Allowed Fp.ieee 7 (UpToNormal .linear BelowNormal) b [.tick fun _ => true, .speed (3 / 4), .tick fun _ => true] :=
  fun _ _ _ => ⟨⟨⟨by norm_num, by norm_num⟩, by norm_num [abs_of_pos], fun h => nomatch h⟩, fun _ _ _ => trivial⟩

end TVP
