import Verif.Lemmas.Polarity
import Verif.Spec.Polarity
import Verif.Props.RawShift
import Verif.Props.Anything
import Verif.Props.StreamInterp
import Verif.Props.FadeStream
import Verif.Props.Loud

/-!
# Property C96: the inverse of a sound plays as the inverse
-/

namespace TVP
open Spec

variable {fp : Fp} {xs ys : List Int} {cub : Bool}

theorem Spec.Inverse.map {xs ys : List Int} (h : Inverse xs ys) : ys = xs.map (-·) := by
  induction h with
  | nil => rfl
  | cons h _ ih => rw [List.map_cons, ← ih, ← neg_eq_of_add_eq_zero_right h]

theorem Spec.Opposite.flip {r r' : Rd} (h : Opposite r r') : r' = r.flip := by
  have e : r'.pts = fun c => (r.pts c).flip := by
    funext c
    obtain ⟨h1, h2, h3, h4, h5⟩ := h.2 c
    unfold Pts.flip
    rw [← h1, ← h2, ← h3, ← h4, ← h5]
  rw [h.1, e]
  rfl

theorem opposite_flip (r : Rd) : Opposite r r.flip := ⟨rfl, fun _ => ⟨rfl, rfl, rfl, rfl, rfl⟩⟩

theorem Upside.zero : Upside cub 0 0 := Or.inl rfl

theorem blockOf_flip {fs gs : List (List Int)} (h : Frames cub fs gs) (ch : Nat) : List.Forall₂ (Upside cub) (blockOf fs ch) (blockOf gs ch) := by
  unfold blockOf
  rw [h.length_eq]
  refine List.rel_append ?_ ?_
  · rw [List.forall₂_map_left_iff, List.forall₂_map_right_iff]
    refine h.imp fun f g hf => ?_
    have hz := Upside.zero (cub := cub)
    clear h
    induction hf generalizing ch with
    | nil => simpa using hz
    | cons h1 _ ih =>
      cases ch with
      | zero => exact h1
      | succ n => simpa using ih n
  · generalize blockSamples - gs.length = n
    induction n with
    | zero => exact .nil
    | succ n ih => exact .cons Upside.zero ih

/-- One update, upside down. -/
theorem update_flip {ρ ρ' : Type} {Q : ρ → ρ' → Prop} {nch : Int} {playing : Bool} {rd : M (List (List Int) × ρ)} {rd' : M (List (List Int) × ρ')} {st : ρ} {st' : ρ'}
    (h : Agree (fun x y => Frames cub x.1 y.1 ∧ Q x.2 y.2) rd rd') (hq : Q st st') (alloc : Nat → Bool) :
    Agree (fun x y => Mirrored (Upside cub) x.1 y.1 ∧ Q x.2 y.2) (update nch playing rd st alloc) (update nch playing rd' st' alloc) := by
  have hno : Mirrored (Upside cub) {} {} := ⟨rfl, rfl, rfl, .nil⟩
  unfold update
  refine Agree.ite (fun _ => by exact Agree.ok ⟨hno, hq⟩) fun _ => ?_
  by_cases hneg : nch < 0
  · simp only [if_pos hneg]; exact Agree.error
  · simp only [if_neg hneg]
    cases playing with
    | false => exact Agree.ok (q := fun (x : Fx × ρ) (y : Fx × ρ') => Mirrored (Upside cub) x.1 y.1 ∧ Q x.2 y.2) (a := ({}, st)) (b := ({}, st')) ⟨hno, hq⟩
    | true =>
    change Agree (fun (x : Fx × ρ) (y : Fx × ρ') => Mirrored (Upside cub) x.1 y.1 ∧ Q x.2 y.2)
      (if ((List.range nch.toNat).filter alloc).length = _ then _ else _) (if ((List.range nch.toNat).filter alloc).length = _ then _ else _)
    refine Agree.ite (fun _ => ?_) fun _ => by exact Agree.ok ⟨⟨rfl, rfl, rfl, .nil⟩, hq⟩
    refine h.bind ?_
    rintro ⟨fs, s⟩ ⟨fs', s'⟩ ⟨h1, h2⟩
    simp only at h1
    have hl : fs.length = fs'.length := h1.length_eq
    have hall : List.Forall₂ (fun t t' : List Int × Nat => t.2 = t'.2 ∧ List.Forall₂ (Upside cub) t.1 t'.1)
        ((List.range nch.toNat).map fun ch => (blockOf fs ch, ch)) ((List.range nch.toNat).map fun ch => (blockOf fs' ch, ch)) := by
      rw [List.forall₂_map_left_iff, List.forall₂_map_right_iff]
      exact List.forall₂_same.2 fun ch _ => ⟨rfl, blockOf_flip h1 ch⟩
    refine Agree.ok ⟨⟨rfl, rfl, by simp only [hl], ?_⟩, h2⟩
    simp only
    split
    · exact List.rel_append hall (.cons ⟨rfl, blockOf_flip h1 0⟩ .nil)
    · exact hall

/-- Two players of opposite sounds, in step. -/
structure FlipOn (cub : Bool) (xs ys : List Int) (b b' : ArrayReader) : Prop where
  rd : b'.rd = b.rd.flip
  src : b.src = some xs
  src' : b'.src = some ys
  kind : b.rd.interp = .quadratic → cub = true

theorem FlipOn.update (he : fp.Even) (hy : ys = xs.map (-·)) {fuel fuel' : Nat} {b b' : ArrayReader} (h : FlipOn cub xs ys b b') (al : Nat → Bool) :
    Agree (fun x y => Mirrored (Upside cub) x.1 y.1 ∧ FlipOn cub xs ys x.2 y.2) (b.update fp fuel al) (b'.update fp fuel' al) := by
  have hp : b'.rd.playing = b.rd.playing := by rw [h.rd]; rfl
  have hn : b'.rd.nch = b.rd.nch := by rw [h.rd]; rfl
  unfold ArrayReader.update
  rw [hp, hn]
  refine update_flip (Q := FlipOn cub xs ys) ?_ h al
  unfold ArrayReader.read
  rw [h.rd]
  refine (read_flip he hy h.kind ⟨h.src, h.src'⟩).bind ?_
  rintro x y ⟨h1, h2, h3⟩
  exact Agree.ok ⟨h1, h2.1, h3.1, h3.2, by change x.r.interp = _ → _; rw [h2.2]; exact h.kind⟩

theorem FlipOn.close {b b' : ArrayReader} (h : FlipOn cub xs ys b b') : FlipOn cub xs ys b.close b'.close := by
  obtain ⟨h1, h2, h3, h4⟩ := h
  obtain ⟨r, s⟩ := b
  obtain ⟨r', s'⟩ := b'
  simp only at h1
  subst h1
  exact ⟨rfl, h2, h3, h4⟩

theorem FlipOn.tick (he : fp.Even) (hy : ys = xs.map (-·)) {fuel fuel' : Nat} {b b' : ArrayReader} (h : FlipOn cub xs ys b b') (al : Nat → Bool) :
    Agree (fun x y => Mirrored (Upside cub) x.1 y.1 ∧ FlipOn cub xs ys x.2 y.2) (b.tick fp fuel al) (b'.tick fp fuel' al) := by
  unfold ArrayReader.tick
  refine (h.update he hy al).bind ?_
  rintro ⟨fx, b1⟩ ⟨fx', b1'⟩ ⟨h1, h2⟩
  simp only at h1 h2
  simp only [← h1.2.2.1]
  cases fx.event with
  | none => exact Agree.ok ⟨h1, h2⟩
  | some e =>
    refine Agree.ok ⟨h1, ?_⟩
    cases e with
    | reload => exact h2
    | close => exact h2.close

theorem FlipOn.speed {b b' : ArrayReader} (h : FlipOn cub xs ys b b') (v : ℚ) :
    FlipOn cub xs ys { b with rd := b.rd.setPlaybackRate v } { b' with rd := b'.rd.setPlaybackRate v } :=
  ⟨by change b'.rd.setPlaybackRate v = _; rw [h.rd, rate_flip], h.src, h.src', fun e => h.kind ((rate_interp b.rd v).symm.trans e)⟩

theorem acts_flip (he : fp.Even) (hy : ys = xs.map (-·)) {fuel fuel' : Nat} : ∀ (as : List Deed) {b b' : ArrayReader}, FlipOn cub xs ys b b' →
    Agree (fun x y => List.Forall₂ (Mirrored (Upside cub)) x.1 y.1 ∧ FlipOn cub xs ys x.2 y.2) (b.acts fp fuel as) (b'.acts fp fuel' as)
  | [], b, b', h => by unfold ArrayReader.acts; exact Agree.ok ⟨.nil, h⟩
  | .tick al :: as, b, b', h => by
    unfold ArrayReader.acts
    refine (h.tick he hy al).bind ?_
    rintro ⟨fx, b1⟩ ⟨fx', b1'⟩ ⟨h1, h2⟩
    refine (acts_flip he hy as h2).bind ?_
    rintro ⟨fxs, b2⟩ ⟨fxs', b2'⟩ ⟨h3, h4⟩
    exact Agree.ok ⟨.cons h1 h3, h4⟩
  | .speed v :: as, b, b', h => by
    unfold ArrayReader.acts
    exact acts_flip he hy as (h.speed v)

theorem allowed_flip (he : fp.Even) (hy : ys = xs.map (-·)) {fuel fuel' : Nat} {ok ok' : Rd → ℚ → Prop} (hok : ∀ r v, ok r v → ok' r.flip v) :
    ∀ (as : List Deed) {b b' : ArrayReader}, FlipOn cub xs ys b b' → ∀ {x}, b.acts fp fuel as = .ok x → Allowed fp fuel ok b as → Allowed fp fuel' ok' b' as
  | [], b, b', _, _, _, _ => trivial
  | .tick al :: as, b, b', h, x, hx, hall => by
    intro fx' b1' h'
    unfold ArrayReader.acts at hx
    obtain ⟨⟨fx, b1⟩, h1, hx⟩ := bind_ok_iff.1 hx
    obtain ⟨y, h2, _⟩ := bind_ok_iff.1 hx
    exact allowed_flip he hy hok as (h.tick he hy al _ _ h1 h').2 h2 (hall _ _ h1)
  | .speed v :: as, b, b', h, x, hx, hall => by
    unfold ArrayReader.acts at hx
    refine ⟨?_, allowed_flip he hy hok as (h.speed v) hx hall.2⟩
    rw [h.rd]
    exact hok _ _ hall.1

theorem memCalls_flip (he : fp.Even) (hy : ys = xs.map (-·)) {fuel fuel' : Nat} : ∀ (ts : List Call) {b b' : MemPlayer}, FlipOn cub xs ys b.rdr b'.rdr → b.pending = b'.pending →
    (Call.set (.interpolation true) ∈ ts → cub = true) →
    Agree (fun x y => List.Forall₂ (Mirrored (Upside cub)) x.1 y.1) (memCalls fp fuel b ts) (memCalls fp fuel' b' ts)
  | [], b, b', _, _, _ => by unfold memCalls; exact Agree.ok .nil
  | .update al :: ts, b, b', h, hp, hc => by
    unfold memCalls
    refine Agree.bind (q := fun x y => Mirrored (Upside cub) x.1 y.1 ∧ FlipOn cub xs ys x.2.rdr y.2.rdr ∧ x.2.pending = y.2.pending) ?_ ?_
    · unfold MemPlayer.update
      refine (h.update he hy al).bind ?_
      rintro ⟨fx, b1⟩ ⟨fx', b1'⟩ ⟨h1, h2⟩
      simp only at h1 h2
      simp only [← h1.2.2.1]
      cases fx.event with
      | none => exact Agree.ok ⟨h1, h2, hp⟩
      | some e => exact Agree.ok ⟨h1, h2, rfl⟩
    · rintro ⟨fx, b1⟩ ⟨fx', b1'⟩ ⟨h1, h2, h3⟩
      refine (memCalls_flip he hy ts h2 h3 fun e => hc (List.mem_cons_of_mem _ e)).bind ?_
      rintro ⟨fxs, b2⟩ ⟨fxs', b2'⟩ h4
      exact Agree.ok (.cons h1 h4)
  | .poll :: ts, b, b', h, hp, hc => by
    unfold memCalls
    have hc' : Call.set (.interpolation true) ∈ ts → cub = true := fun e => hc (List.mem_cons_of_mem _ e)
    have key : FlipOn cub xs ys b.runEvent.rdr b'.runEvent.rdr ∧ b.runEvent.pending = b'.runEvent.pending := by
      unfold MemPlayer.runEvent
      rw [← hp]
      cases hb : b.pending with
      | none => exact ⟨h, by simp only; rw [← hp, hb]⟩
      | some e =>
        cases e with
        | reload => exact ⟨h, rfl⟩
        | close => exact ⟨h.close, rfl⟩
    exact memCalls_flip he hy ts key.1 key.2 hc'
  | .set s :: ts, b, b', h, hp, hc => by
    unfold memCalls
    refine memCalls_flip he hy ts (b := b.set s) (b' := b'.set s) ⟨?_, h.src, h.src', set_cub h.kind fun e => hc (by rw [e]; exact List.mem_cons_self)⟩ ?_ fun e => hc (List.mem_cons_of_mem _ e)
    · change b'.rdr.rd.set s = _
      rw [h.rd, set_flip]
      rfl
    · unfold MemPlayer.set
      simp only
      rw [hp]

theorem Spec.Mirrored.weaken {q q' : Int → Int → Prop} (hq : ∀ v w, q v w → q' v w) {fx fx' : Fx} (h : Mirrored q fx fx') : Mirrored q' fx fx' :=
  ⟨h.1, h.2.1, h.2.2.1, h.2.2.2.imp fun _ _ k => ⟨k.1, k.2.imp hq⟩⟩

theorem upside_cancel {v w : Int} (h : Upside false v w) : Cancel v w := by
  rcases h with h | ⟨h, _⟩
  · unfold Cancel; omega
  · cases h

theorem upside_clip {v w : Int} (h : Upside true v w) : CancelOrClip v w := by
  rcases h with h | ⟨_, h⟩
  · exact Or.inl (by omega)
  · exact Or.inr h

/-! ## The property -/

/-- **C96** (partial).  Two players in the same state, one with a sound and one with its inverse.  Whatever then happens to both (the library asks for sound, events are run or not,
any setting is changed: speed, loops, second head and fade, stop), except that cubic interpolation is turned on, the blocks they send add up to nothing, sample for sample.

Missing: that the second program is well-defined whenever the first one is, for which see `C96_defined_partial` and `C96_heads_defined_partial`, and cubic interpolation, for which see `C96_cubic_partial` and `C96_cubic_refuted`. -/
theorem C96_inverse_partial (he : RoundsEvenly fp) {fuel fuel' : Nat} {b b' c c' : MemPlayer} (hd : Inverse xs ys) (hsrc : b.rdr.src = some xs) (hsrc' : c.rdr.src = some ys)
    (hrd : Opposite b.rdr.rd c.rdr.rd) (hp : b.pending = c.pending) (hi : b.rdr.rd.interp ≠ .quadratic) {ts : List Call} (hts : Call.set (.interpolation true) ∉ ts)
    {fxs fxs' : List Fx} (h : memCalls fp fuel b ts = .ok (fxs, b')) (h' : memCalls fp fuel' c ts = .ok (fxs', c')) : List.Forall₂ (Mirrored Cancel) fxs fxs' :=
  (memCalls_flip (cub := false) he hd.map ts ⟨hrd.flip, hsrc, hsrc', fun e => absurd e hi⟩ hp (fun e => absurd e hts) _ _ h h').imp
    fun _ _ k => k.weaken fun _ _ => upside_cancel

/-- **C96** (partial), with any interpolation: the blocks add up to nothing but where both are clipped, one at each end of the 16-bit range.

Missing: that the second program is well-defined whenever the first one is. -/
theorem C96_cubic_partial (he : RoundsEvenly fp) {fuel fuel' : Nat} {b b' c c' : MemPlayer} (hd : Inverse xs ys) (hsrc : b.rdr.src = some xs) (hsrc' : c.rdr.src = some ys)
    (hrd : Opposite b.rdr.rd c.rdr.rd) (hp : b.pending = c.pending) {ts : List Call}
    {fxs fxs' : List Fx} (h : memCalls fp fuel b ts = .ok (fxs, b')) (h' : memCalls fp fuel' c ts = .ok (fxs', c')) : List.Forall₂ (Mirrored CancelOrClip) fxs fxs' :=
  (memCalls_flip (cub := true) he hd.map ts ⟨hrd.flip, hsrc, hsrc', fun _ => rfl⟩ hp (fun _ => rfl) _ _ h h').imp
    fun _ _ k => k.weaken fun _ _ => upside_clip

theorem openedRd_flip (r : Rd) : openedRd r.flip = (openedRd r).flip := by
  exact congrArg (fun q : Rd => ({ q with playing := true } : Rd)) (reset_flip ({ r with fileSamples := r.fileSamples.tdiv r.nch, loopStart := i32 (if r.loopType = .none then 0 else r.loopStart), loopFinish := i32 (if r.loopType = .none then r.fileSamples.tdiv r.nch else r.loopFinish) } : Rd))

/-- What is asked of the two players and the two raw files. -/
structure InversePlay (a b : FileReader) (m m' : List Nat) : Prop where
  rd : Opposite a.rd b.rd
  sound : Inverse (samplesOf m) (samplesOf m')
  size : m'.length = m.length
  small : m.length < 2 ^ 31

theorem streams_flip (he : fp.Even) {g g' : Geo} {nullOk nullOk' : Bool} {fuel fuel' : Nat} {a b a' b' : FileReader} {m m' : List Nat} (hs : InversePlay a b m m') {nch : Nat} (hc' : nch ≤ 32767)
    {past past' : Bool} (hcub : a.rd.interp = .quadratic → cub = true) {ok ok' : Rd → ℚ → Prop} (hok : ∀ r v, ok r v → ok' r.flip v)
    (h1 : a.playRaw g (some ⟨m, 0, past⟩) nch = .ok (true, a')) (h2 : b.playRaw g' (some ⟨m', 0, past'⟩) nch = .ok (true, b'))
    (h : LikeInMemoryAt fp g nullOk fuel a' m ok) (h' : LikeInMemoryAt fp g' nullOk' fuel' b' m' ok') {as : List Deed} (hall : Allowed fp fuel ok ⟨a'.rd, some (samplesOf m)⟩ as) :
    ∃ fxs fxs' a'' b'', a'.acts fp g nullOk fuel as = .ok (fxs, a'') ∧ b'.acts fp g' nullOk' fuel' as = .ok (fxs', b'') ∧ List.Forall₂ (Mirrored (Upside cub)) fxs fxs' := by
  have e1 := playRaw_rd hs.small hc' h1
  have e2 := playRaw_rd (by rw [hs.size]; exact hs.small) hc' h2
  have hrd : b'.rd = a'.rd.flip := by
    rw [e2, e1, hs.size, ← openedRd_flip, hs.rd.flip]
    rfl
  have hf : FlipOn cub (samplesOf m) (samplesOf m') ⟨a'.rd, some (samplesOf m)⟩ ⟨b'.rd, some (samplesOf m')⟩ := ⟨hrd, rfl, rfl, by rw [e1]; exact hcub⟩
  obtain ⟨fxs, a'', c, k1, k2, _⟩ := h as hall
  obtain ⟨fxs', b'', c', k1', k2', _⟩ := h' as (allowed_flip he hs.sound.map hok as hf k2 hall)
  exact ⟨fxs, fxs', a'', b'', k1, k1', (acts_flip he hs.sound.map as hf _ _ k2 k2').1⟩

/-- **C96** (partial), raw files played once from beginning to end, at any speed up to `R`, also while the speed is changed, without or with linear interpolation: both players
play well-defined, and what they send adds up to nothing.

Missing: what `C72_smooth_raw_partial` leaves out. -/
theorem C96_raw_partial (he : RoundsEvenly fp) (hfp : Representable fp) (g : Geo) (hB : g.B < 16384) (hNB : g.N * g.B ≤ 2 ^ 30) (a b : FileReader) {m m' : List Nat} (hs : InversePlay a b m m')
    (hb : IsBytes m) (hb' : IsBytes m') (h0 : 0 < m.length) (past past' : Bool) {nch : Nat} (hc : 1 ≤ nch) (hc' : nch ≤ 32767) {R mm : Int}
    (hset : SmoothSettings a.rd R) (hpts : PtsOk b.rd) (hi : a.rd.interp ≠ .quadratic) (h8 : a.rd.interp ≠ .none → nch ≤ 8) (hhead : a.rd.header = 0)
    (hstart : a.rd.playStart = .arbitrary → 0 ≤ a.rd.playbackStart ∧ a.rd.playbackStart ≤ (m.length / 2 / nch : Nat))
    (hmm0 : 0 ≤ mm) (hmm : 2 * mm + 1 ≤ g.N) (hadv : 128 * (nch * (R + 1)) + nch ≤ mm * g.B) (nullOk : Bool) {fuel : Nat} (hf : g.N ≤ fuel + 1) :
    ∃ a' b', a.playRaw g (some ⟨m, 0, past⟩) nch = .ok (true, a') ∧ b.playRaw g (some ⟨m', 0, past'⟩) nch = .ok (true, b') ∧
      ∀ as : List Deed, Allowed fp (fuel + 1) (SmoothSpeeds R) ⟨a'.rd, some (samplesOf m)⟩ as → ∃ fxs fxs' a'' b'', a'.acts fp g nullOk (fuel + 1) as = .ok (fxs, a'') ∧
        b'.acts fp g nullOk (fuel + 1) as = .ok (fxs', b'') ∧ List.Forall₂ (Mirrored Cancel) fxs fxs' := by
  have hrd := hs.rd.flip
  have hset' : SmoothSettings b.rd R := by
    rw [hrd] at hpts ⊢
    exact ⟨hset.dual, hset.loop, hset.rate0, hset.rateR, hset.flt, hset.frac, hset.rem0, hset.linear, hset.cubic, hpts⟩
  obtain ⟨a', k1, -, -, -, -, -, -, -, k2⟩ := C72_smooth_raw_partial fp hfp g hB hNB a hb h0 hs.small past hc hc' hset h8 hhead hstart hmm0 hmm hadv nullOk hf
  obtain ⟨b', j1, -, -, -, -, -, -, -, j2⟩ := C72_smooth_raw_partial fp hfp g hB hNB b hb' (by rw [hs.size]; exact h0) (by rw [hs.size]; exact hs.small) past' hc hc' hset'
    (by rw [hrd]; exact h8) (by rw [hrd]; exact hhead) (by rw [hrd, hs.size]; exact hstart) hmm0 hmm hadv nullOk hf
  refine ⟨a', b', k1, j1, fun as hall => ?_⟩
  obtain ⟨fxs, fxs', a'', b'', e1, e2, e3⟩ := streams_flip (cub := false) he hs hc' (fun e => absurd e hi) (ok' := SmoothSpeeds R) (fun r v h => h) k1 j1 k2 j2 hall
  exact ⟨fxs, fxs', a'', b'', e1, e2, e3.imp fun _ _ k => k.weaken fun _ _ => upside_cancel⟩

/-- **C96** (partial), two heads: a loop of a raw file fading from its end into its beginning, wherever `C74_raw_partial` says the file is played as from memory. -/
theorem C96_heads_raw_partial (he : RoundsEvenly fp) (g : Geo) (hB : g.B < 16384) (hNB : g.N * g.B ≤ 2 ^ 30) (hN : 1 ≤ g.N) (a b : FileReader) {m m' : List Nat} (hs : InversePlay a b m m')
    (hb : IsBytes m) (hb' : IsBytes m') (past past' : Bool) {nch : Nat} (hc : 1 ≤ nch) (hc' : nch ≤ 32767) {p : Nat} {R : Int}
    (hset : FadeSettings a.rd p R) (hhead : a.rd.header = 0) (hloop : GoodFade g m R a.rd.loopStart a.rd.loopFinish a.rd.cfDur 0 nch (firstFrame a.rd))
    (nullOk : Bool) {fuel : Nat} (hf : g.N ≤ fuel + 1) :
    ∃ a' b', a.playRaw g (some ⟨m, 0, past⟩) nch = .ok (true, a') ∧ b.playRaw g (some ⟨m', 0, past'⟩) nch = .ok (true, b') ∧
      ∀ as : List Deed, Allowed fp (fuel + 1) (SpeedsOn p R) ⟨a'.rd, some (samplesOf m)⟩ as → ∃ fxs fxs' a'' b'', a'.acts fp g nullOk (fuel + 1) as = .ok (fxs, a'') ∧
        b'.acts fp g nullOk (fuel + 1) as = .ok (fxs', b'') ∧ List.Forall₂ (Mirrored Cancel) fxs fxs' := by
  have hrd := hs.rd.flip
  have hloop' : GoodFade g m' R a.rd.loopStart a.rd.loopFinish a.rd.cfDur 0 nch (firstFrame a.rd) :=
    ⟨hloop.R1, hloop.A0, hloop.D1, hloop.long, by rw [hs.size]; exact hloop.file, hloop.q0, hloop.q1, by rw [hs.size]; exact hloop.room⟩
  obtain ⟨a', k1, -, -, -, -, -, -, -, -, -, -, -, -, k2⟩ := C74_raw_partial fp g hB hNB hN a hb hs.small past hc hc' hset hhead hloop nullOk hf
  obtain ⟨b', j1, -, -, -, -, -, -, -, -, -, -, -, -, j2⟩ := C74_raw_partial fp g hB hNB hN b hb' (by rw [hs.size]; exact hs.small) past' hc hc' (p := p) (R := R)
    (by rw [hrd]; exact { hset with }) (by rw [hrd]; exact hhead) (by rw [hrd]; exact hloop') nullOk hf
  refine ⟨a', b', k1, j1, fun as hall => ?_⟩
  obtain ⟨fxs, fxs', a'', b'', e1, e2, e3⟩ := streams_flip (cub := false) he hs hc' (fun e => by rw [hset.interp] at e; cases e) (ok' := SpeedsOn p R) (fun r v h => h) k1 j1 k2 j2 hall
  exact ⟨fxs, fxs', a'', b'', e1, e2, e3.imp fun _ _ k => k.weaken fun _ _ => upside_cancel⟩

/-! ## Examples -/

theorem opposite_new {r : Rd} (hp : r.pts = fun _ => {}) : Opposite r r := by
  refine ⟨rfl, fun c => ?_⟩
  rw [hp]
  exact ⟨rfl, rfl, rfl, rfl, rfl⟩

theorem ieee_evenly : RoundsEvenly Fp.ieee := ieee_even

/-- Two heads with the given interpolation in a loop of six samples with a fade of two. -/
def exInverse (k : Interp) (xs : List Int) : MemPlayer :=
  ⟨(({ rd := { dual := true, cfDur := 2, loopType := .repeat, interp := k, rate := 1 / 2 } } : ArrayReader).playRaw xs 6 1).2, none, 0⟩

def exInverseCalls : List Call := [.update fun _ => true, .set (.speed (3 / 4)), .update fun _ => true, .poll, .set (.fade 1), .update fun _ => true, .set (.dual false), .set (.speed (-1)), .update fun _ => true]

theorem exInverse_opposite (k : Interp) (xs ys : List Int) : Opposite (exInverse k xs).rdr.rd (exInverse k ys).rdr.rd := by
  refine opposite_new (r := (exInverse k xs).rdr.rd) ?_
  unfold exInverse ArrayReader.playRaw Rd.reset Rd.setNumChannels
  funext c
  simp only
  split <;> split <;> rfl

example : ∃ fxs fxs' b b', memCalls Fp.ieee 3 (exInverse .linear [10, -20, 30, -40, 50, -60]) exInverseCalls = .ok (fxs, b) ∧
    memCalls Fp.ieee 3 (exInverse .linear [-10, 20, -30, 40, -50, 60]) exInverseCalls = .ok (fxs', b') ∧ List.Forall₂ (Mirrored Cancel) fxs fxs' := by
  have h : (memCalls Fp.ieee 3 (exInverse .linear [10, -20, 30, -40, 50, -60]) exInverseCalls).toOption.isSome = true := by decide +kernel
  have h' : (memCalls Fp.ieee 3 (exInverse .linear [-10, 20, -30, 40, -50, 60]) exInverseCalls).toOption.isSome = true := by decide +kernel
  cases e : memCalls Fp.ieee 3 (exInverse .linear [10, -20, 30, -40, 50, -60]) exInverseCalls with
  | error f => rw [e] at h; cases h
  | ok x =>
    cases e' : memCalls Fp.ieee 3 (exInverse .linear [-10, 20, -30, 40, -50, 60]) exInverseCalls with
    | error f => rw [e'] at h'; cases h'
    | ok x' =>
      exact ⟨x.1, x'.1, x.2, x'.2, rfl, rfl, C96_inverse_partial (b := exInverse .linear [10, -20, 30, -40, 50, -60]) (c := exInverse .linear [-10, 20, -30, 40, -50, 60]) (xs := [10, -20, 30, -40, 50, -60]) (ys := [-10, 20, -30, 40, -50, 60]) ieee_evenly
        (by unfold Inverse Cancel; decide) rfl rfl (exInverse_opposite _ _ _) rfl (by decide) (by simp [exInverseCalls]) e e'⟩

/-- Cubic interpolation at half speed. -/
def exCubicInverse (xs : List Int) : MemPlayer := ⟨(({ rd := { interp := .quadratic, rate := 1 / 2 } } : ArrayReader).playRaw xs 6 1).2, none, 0⟩

def exCubicCalls : List Call := [.set (.speed (3 / 4)), .update fun _ => true, .poll, .update fun _ => true]

theorem exCubicInverse_opposite (xs ys : List Int) : Opposite (exCubicInverse xs).rdr.rd (exCubicInverse ys).rdr.rd := by
  refine opposite_new (r := (exCubicInverse xs).rdr.rd) ?_
  unfold exCubicInverse ArrayReader.playRaw Rd.reset Rd.setNumChannels
  funext c
  simp only
  split <;> split <;> rfl

example : ∃ fxs fxs' b b', memCalls Fp.ieee 3 (exCubicInverse [10, -20, 30, -40, 50, -60]) exCubicCalls = .ok (fxs, b) ∧
    memCalls Fp.ieee 3 (exCubicInverse [-10, 20, -30, 40, -50, 60]) exCubicCalls = .ok (fxs', b') ∧ List.Forall₂ (Mirrored CancelOrClip) fxs fxs' := by
  have h : (memCalls Fp.ieee 3 (exCubicInverse [10, -20, 30, -40, 50, -60]) exCubicCalls).toOption.isSome = true := by decide +kernel
  have h' : (memCalls Fp.ieee 3 (exCubicInverse [-10, 20, -30, 40, -50, 60]) exCubicCalls).toOption.isSome = true := by decide +kernel
  cases e : memCalls Fp.ieee 3 (exCubicInverse [10, -20, 30, -40, 50, -60]) exCubicCalls with
  | error f => rw [e] at h; cases h
  | ok x =>
    cases e' : memCalls Fp.ieee 3 (exCubicInverse [-10, 20, -30, 40, -50, 60]) exCubicCalls with
    | error f => rw [e'] at h'; cases h'
    | ok x' =>
      exact ⟨x.1, x'.1, x.2, x'.2, rfl, rfl, C96_cubic_partial (b := exCubicInverse [10, -20, 30, -40, 50, -60]) (c := exCubicInverse [-10, 20, -30, 40, -50, 60]) (xs := [10, -20, 30, -40, 50, -60]) (ys := [-10, 20, -30, 40, -50, 60]) ieee_evenly
        (by unfold Inverse Cancel; decide) rfl rfl (exCubicInverse_opposite _ _) rfl e e'⟩

/-- A file of `n` equal samples. -/
def exTape (x y n : Nat) : List Nat := (List.replicate n [x, y]).flatten

theorem exTape_length (x y n : Nat) : (exTape x y n).length = 2 * n := by
  induction n with
  | zero => rfl
  | succ n ih =>
    unfold exTape at ih ⊢
    rw [List.replicate_succ, List.flatten_cons, List.length_append, ih]
    simp only [List.length_cons, List.length_nil]
    omega

theorem exTape_bytes {x y : Nat} (hx : x < 256) (hy : y < 256) (n : Nat) : IsBytes (exTape x y n) := by
  intro v hv
  unfold exTape at hv
  obtain ⟨l, hl, hv⟩ := List.mem_flatten.1 hv
  rw [(List.mem_replicate.1 hl).2] at hv
  simp only [List.mem_cons, List.not_mem_nil, or_false] at hv
  rcases hv with rfl | rfl <;> assumption

theorem exTape_slice (x y : Nat) : ∀ (j n : Nat), j < n → slice (exTape x y n) (2 * j) 2 = [x, y]
  | _, 0, h => absurd h (by omega)
  | 0, n + 1, _ => rfl
  | j + 1, n + 1, h => by
    have := exTape_slice x y j n (by omega)
    unfold exTape slice at *
    rw [List.replicate_succ, List.flatten_cons]
    exact this

theorem exTape_inverse {x y x' y' : Nat} (h : fileSample [x, y] 0 + fileSample [x', y'] 0 = 0) (n : Nat) : Inverse (samplesOf (exTape x y n)) (samplesOf (exTape x' y' n)) := by
  unfold Inverse samplesOf
  rw [exTape_length, exTape_length, List.forall₂_map_left_iff, List.forall₂_map_right_iff]
  refine List.forall₂_same.2 fun j hj => ?_
  rw [List.mem_range] at hj
  unfold fileSample at h
  unfold Cancel fileSample
  rw [exTape_slice x y j n (by omega), exTape_slice x' y' j n (by omega)]
  exact h

example : ∃ a' b', exFaster.playRaw sdGeo (some ⟨exTape 5 5 1000, 0, false⟩) (1 : Nat) = .ok (true, a') ∧ exFaster.playRaw sdGeo (some ⟨exTape 251 250 1000, 0, true⟩) (1 : Nat) = .ok (true, b') ∧
    ∀ as : List Deed, Allowed Fp.ieee (6 + 1) (SmoothSpeeds 2) ⟨a'.rd, some (samplesOf (exTape 5 5 1000))⟩ as → ∃ fxs fxs' a'' b'', a'.acts Fp.ieee sdGeo true (6 + 1) as = .ok (fxs, a'') ∧
      b'.acts Fp.ieee sdGeo true (6 + 1) as = .ok (fxs', b'') ∧ List.Forall₂ (Mirrored Cancel) fxs fxs' :=
  C96_raw_partial ieee_evenly ieee_representable sdGeo (by decide) (by decide) exFaster exFaster
    ⟨opposite_new rfl, exTape_inverse (by decide) 1000, by rw [exTape_length, exTape_length], by rw [exTape_length]; decide⟩ (exTape_bytes (by decide) (by decide) 1000)
    (exTape_bytes (by decide) (by decide) 1000) (by rw [exTape_length]; decide) false true (by decide) (by decide) (R := 2) (mm := 1) exFaster_settings exFaster_settings.pts (by decide) (by decide) rfl
    (by intro h; cases h) (by decide) (by decide) (by decide) true (by decide)

example : ∃ a' b', (exFadeRepeat 603 50 500).playRaw sdGeo (some ⟨exTape 5 5 20000, 0, false⟩) (1 : Nat) = .ok (true, a') ∧
    (exFadeRepeat 603 50 500).playRaw sdGeo (some ⟨exTape 251 250 20000, 0, true⟩) (1 : Nat) = .ok (true, b') ∧
    ∀ as : List Deed, Allowed Fp.ieee (6 + 1) (SpeedsOn 4 2) ⟨a'.rd, some (samplesOf (exTape 5 5 20000))⟩ as → ∃ fxs fxs' a'' b'', a'.acts Fp.ieee sdGeo true (6 + 1) as = .ok (fxs, a'') ∧
      b'.acts Fp.ieee sdGeo true (6 + 1) as = .ok (fxs', b'') ∧ List.Forall₂ (Mirrored Cancel) fxs fxs' :=
  C96_heads_raw_partial ieee_evenly sdGeo (by decide) (by decide) (by decide) (exFadeRepeat 603 50 500) (exFadeRepeat 603 50 500)
    ⟨opposite_new rfl, exTape_inverse (by decide) 20000, by rw [exTape_length, exTape_length], by rw [exTape_length]; decide⟩ (exTape_bytes (by decide) (by decide) 20000)
    (exTape_bytes (by decide) (by decide) 20000) false true (by decide) (by decide) (exFadeRepeat_settings 603 50 500) rfl
    ⟨by decide, by decide, by decide, by decide, by rw [exTape_length]; decide, by decide, by decide, Or.inr ⟨by decide, by rw [exTape_length]; decide, by decide, by decide⟩⟩ true (fuel := 6) (by decide)

/-! ## Where it is violated -/

/-- **C96 refuted** (cubic interpolation of loud sounds).  The curve swings over the samples and is clipped to 32767 above but to -32768 below (src/interpolation.cpp:49-53): the tenth samples of
a loud sound and of its inverse do not cancel. -/
theorem C96_cubic_refuted : ((({ rd := { rate := 1 / 2, interp := .quadratic } } : ArrayReader).playRaw [0, 0, 32767, 32767, 0, 0, 0, 0] 8 1).2.read Fp.ieee 2 10).map (·.1.getLast?) = .ok (some [32767]) ∧
    ((({ rd := { rate := 1 / 2, interp := .quadratic } } : ArrayReader).playRaw [0, 0, -32767, -32767, 0, 0, 0, 0] 8 1).2.read Fp.ieee 2 10).map (·.1.getLast?) = .ok (some [-32768]) := by
  constructor <;> decide +kernel

end TVP
