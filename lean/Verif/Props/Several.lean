import Verif.Lemmas.Several

/-!
# Property C80: several players at once
-/

namespace TVP
open Spec

/-- The event of responder `e` that waits to be run. -/
def pendingOf (s : Evs) (e : Nat) : Option Ev := if (s.node e).triggered then some (s.node e).status else none

theorem pendingOf_rep {s : Evs} {l : Line} (h : Rep s l) (hl : Alive l) (e : Nat) : pendingOf s e = l.pend e := by
  unfold pendingOf Line.pend
  rw [h.status e]
  have := h.trig e
  simp only [hl e, and_true] at this
  by_cases hm : e ∈ l.q
  · rw [if_pos hm, if_pos (this.2 hm)]
  · rw [if_neg hm, if_neg (fun ht => hm (this.1 ht))]

/-- **C80**, players do not disturb each other: whatever the others do, a player does what it would do alone, given when its event is run. -/
theorem C80_alone (fp : Fp) (g : Nat → Geo) (nullOk : Bool) (fuel : Nat) (rdr : Nat → FileReader) (ms : List Move) (log : List Did) (d' : Desk FileReader)
    (h : Desk.steps (fun e => fileKind fp (g e) nullOk fuel) { rdr := rdr } ms = .ok (log, d')) (e : Nat) :
    fileTurns fp (g e) nullOk fuel ⟨rdr e, none⟩ (seenBy e ms log) = .ok (effectsOf e log, ⟨d'.rdr e, pendingOf d'.evs e⟩) := by
  obtain ⟨l', h1, h2, h3⟩ := alone e ms _ _ {} log Rep.init (fun _ => rfl) h
  have := fileTurns_kind fp (g e) nullOk fuel (seenBy e ms log) ⟨rdr e, none⟩
  have hp : ({} : Line).pend e = none := by unfold Line.pend; rw [if_neg]; exact fun h => nomatch h
  rw [hp] at h3
  rw [h3] at this
  rw [pendingOf_rep h1 h2]
  cases hx : fileTurns fp (g e) nullOk fuel ⟨rdr e, none⟩ (seenBy e ms log) with
  | error er => rw [hx] at this; cases this
  | ok x =>
    rw [hx] at this
    injection this with this
    obtain ⟨fxs, p⟩ := x
    simp only [Prod.mk.injEq] at this
    obtain ⟨h1, h2, h3⟩ := this
    rw [h1, h2, h3]

/-- A player that has been started and plays forward at up to speed `R`, with buffers for `n` updates without a reload. -/
inductive Started (g : Geo) (n : Nat) (R : Int) (a' : FileReader) (m : List Nat) : Prop
  | raw (a : FileReader) (past : Bool) (nch : Nat) (mm : Int) (hb : IsBytes m) (h0 : 0 < m.length) (hm : m.length < 2 ^ 31) (hc : 1 ≤ nch) (hc' : nch ≤ 32767)
      (hset : ForwardSettings a.rd R) (hhead : a.rd.header = 0) (hR : nch * (R + 1) ≤ 2 ^ 30)
      (hstart : a.rd.playStart = .arbitrary → 0 ≤ a.rd.playbackStart ∧ a.rd.playbackStart ≤ (m.length / 2 / nch : Nat))
      (hmm0 : 0 ≤ mm) (hmm : 2 * mm + 1 ≤ g.N) (hadv : n * (128 * (nch * (R + 1))) ≤ mm * g.B)
      (hplay : a.playRaw g (some ⟨m, 0, past⟩) nch = .ok (true, a'))
  | wav (a : FileReader) (past : Bool) (junk : List Nat) (off nch D : Nat) (mm : Int) (hb : IsBytes m) (hm : m.length < 2 ^ 31) (hj : junk.length = 36) (hg : GoodHeader m)
      (hdep : leVal (slice m 34 2) = 16) (hda : DataAt m off) (hn : leVal (slice m 22 2) = nch) (hc : 1 ≤ nch) (hc' : nch ≤ 32767)
      (hD : leVal (slice m (off + 4) 4) = D) (hdata : off + 8 + D ≤ m.length) (hroom : off + 8 < m.length)
      (hset : ForwardSettings a.rd R) (hR : nch * (R + 1) ≤ 2 ^ 30)
      (hstart : a.rd.playStart = .arbitrary → 0 ≤ a.rd.playbackStart ∧ a.rd.playbackStart ≤ (D / 2 / nch : Nat))
      (hmm0 : 0 ≤ mm) (hmm : 2 * mm + 1 ≤ g.N) (hadv : n * (128 * (nch * (R + 1))) ≤ mm * g.B)
      (hplay : a.playWav g (some ⟨m, 0, past⟩) junk = .ok (true, a'))

theorem Started.same {g : Geo} {n : Nat} {R : Int} {a' : FileReader} {m : List Nat} (h : Started g n R a' m) (fp : Fp) (hfp : Representable fp) (hB : g.B < 16384) (hNB : g.N * g.B ≤ 2 ^ 30)
    (nullOk : Bool) {fuel : Nat} (hf : g.N ≤ fuel + 1) : Same (fileKind fp g nullOk (fuel + 1)) (memKind fp (fuel + 1)) R n 0 a' ⟨a'.rd, some (samplesOf m)⟩ none := by
  intro ts hs hp
  have key : ∃ fxs p' b', fileTurns fp g nullOk (fuel + 1) ⟨a', none⟩ ts = .ok (fxs, p') ∧
      memTurns fp (fuel + 1) (inMemory a' m) ts = .ok (fxs, b') ∧ b'.rdr.rd = p'.rdr.rd ∧ b'.pending = p'.pending := by
    cases h with
    | raw a past nch mm hb h0 hm hc hc' hset hhead hR hstart hmm0 hmm hadv hplay =>
      obtain ⟨a1, e1, e2⟩ := C78_raw_partial fp hfp hB hNB a hb h0 hm past hc hc' hset hhead hR hstart hmm0 hmm hadv nullOk hf ts hs hp
      rw [hplay] at e1
      injection e1 with e1; injection e1 with _ e1
      subst e1
      exact e2
    | wav a past junk off nch D mm hb hm hj hg hdep hda hn hc hc' hD hdata hroom hset hR hstart hmm0 hmm hadv hplay =>
      obtain ⟨a1, e1, e2⟩ := C78_wav_partial fp hfp hB hNB a hb hm past junk hj hg hdep hda hn hc hc' hD hdata hroom hset hR hstart hmm0 hmm hadv nullOk hf ts hs hp
      rw [hplay] at e1
      injection e1 with e1; injection e1 with _ e1
      subst e1
      exact e2
  obtain ⟨fxs, p', b', e1, e2, _, e4⟩ := key
  have f1 := fileTurns_kind fp g nullOk (fuel + 1) ts ⟨a', none⟩
  have f2 := memTurns_kind fp (fuel + 1) ts (inMemory a' m)
  rw [e1] at f1
  rw [e2] at f2
  refine ⟨fxs, p'.rdr, b'.rdr, p'.pending, f1, ?_⟩
  rw [← e4]
  exact f2

/-- **C80**: any number of players play files at the same time, raw or WAV, each with its own buffers and speeds.  If wherever `runPolled` is called less than `k` times -- as often as
there are players -- no player has more updates than its buffers last, everything is as if all the files were in memory: what is transmitted, released and raised, in which order events
are run, what `runPolled` returns. -/
theorem C80_in_memory (fp : Fp) (hfp : Representable fp) (g : Nat → Geo) (k : Nat) (n : Nat → Nat) (R : Nat → Int) (rdr : Nat → FileReader) (m : Nat → List Nat)
    (hB : ∀ e, e < k → (g e).B < 16384) (hNB : ∀ e, e < k → (g e).N * (g e).B ≤ 2 ^ 30) (hst : ∀ e, e < k → Started (g e) (n e) (R e) (rdr e) (m e))
    (nullOk : Bool) {fuel : Nat} (hf : ∀ e, e < k → (g e).N ≤ fuel + 1) (ms : List Move) (ha : Among k R ms) (ho : ∀ e, e < k → Often k (n e) e ms) :
    ∃ log d1 d2, Desk.steps (fun e => fileKind fp (g e) nullOk (fuel + 1)) { rdr := rdr } ms = .ok (log, d1) ∧
      Desk.steps (fun _ => memKind fp (fuel + 1)) { rdr := fun e => ⟨(rdr e).rd, some (samplesOf (m e))⟩ } ms = .ok (log, d2) := by
  obtain ⟨log, d1, d2, h1, h2, _⟩ := desks (J1 := fun e => fileKind fp (g e) nullOk (fuel + 1)) (J2 := fun _ => memKind fp (fuel + 1)) (R := R) (k := k) (N := n) ms []
    { rdr := rdr } { rdr := fun e => ⟨(rdr e).rd, some (samplesOf (m e))⟩ } {} ha ho rfl Rep.init (fun _ => rfl) (fun i hi => nomatch hi) (fun e he => by
      refine ⟨[], List.nil_suffix, ?_, fun _ => rfl, fun h => nomatch h⟩
      have hp : ({} : Line).pend e = none := by unfold Line.pend; rw [if_neg]; exact fun h => nomatch h
      rw [hp]
      exact (hst e he).same fp hfp (hB e he) (hNB e he) nullOk (hf e he))
  exact ⟨log, d1, d2, h1, h2⟩

/-- Three files of different kinds at once: two raw ones on the SD card, mono and stereo, and a stereo WAV file; at every update one event is run. -/
def exMoves : List Move :=
  [.update 0 fun _ => true, .update 1 fun _ => true, .update 2 fun _ => true, .run, .speed 1 (1 / 2), .update 2 fun _ => true, .update 0 fun _ => true, .update 1 fun _ => false, .run, .run]

theorem exStarted {n : Nat} {mm : Int} (hmm0 : 0 ≤ mm) (hmm : 2 * mm + 1 ≤ 7) (nch : Nat) (hc : 1 ≤ nch) (hc' : nch ≤ 8) (hadv : n * (128 * (nch * (1 + 1))) ≤ mm * 2048) :
    ∃ a', Started sdGeo n 1 a' exHeld := by
  obtain ⟨a', h, _⟩ := C78_raw_partial Fp.ieee ieee_representable (g := sdGeo) (by decide +kernel) (by decide +kernel) exNew exHeld_bytes (by decide +kernel) (by decide +kernel) false
    hc (by omega) exNew_settings.forward rfl (R := 1) (by omega) (by intro h; cases h) (n := n) hmm0 (by exact_mod_cast hmm) (by exact_mod_cast hadv) true (fuel := 6) (by decide) [] (fun v hv => nomatch hv) trivial
  exact ⟨a', .raw exNew false nch mm exHeld_bytes (by decide +kernel) (by decide +kernel) hc (by omega) exNew_settings.forward rfl (by omega) (by intro h; cases h) hmm0 (by exact_mod_cast hmm) (by exact_mod_cast hadv) h⟩

theorem exStartedWav : ∃ a', Started sdGeo 2 1 a' (exHeldWav 2) := by
  obtain ⟨a', h, _⟩ := C78_wav_partial Fp.ieee ieee_representable (g := sdGeo) (by decide +kernel) (by decide +kernel) exNew (exHeldWav_bytes (n := 2) (by decide +kernel)) (by decide +kernel) false (List.replicate 36 7) (by decide +kernel) (by decide +kernel) (by decide +kernel) (off := 36) ⟨Or.inl ⟨rfl, by decide +kernel⟩, by decide +kernel, by decide +kernel⟩
    (nch := 2) (D := 1024) (by decide +kernel) (by decide +kernel) (by decide +kernel) (by decide +kernel) (by decide +kernel) (by decide +kernel) exNew_settings.forward (by decide +kernel) (by intro h; cases h)
    (n := 2) (mm := 1) (by decide) (by decide) (by decide) true (fuel := 6) (by decide) [] (fun v hv => nomatch hv) trivial
  exact ⟨a', .wav exNew false (List.replicate 36 7) 36 2 1024 1 (exHeldWav_bytes (n := 2) (by decide +kernel)) (by decide +kernel) (by decide +kernel) (by decide +kernel) (by decide +kernel) ⟨Or.inl ⟨rfl, by decide +kernel⟩, by decide +kernel, by decide +kernel⟩
    (by decide +kernel) (by decide +kernel) (by decide +kernel) (by decide +kernel) (by decide +kernel) (by decide +kernel) exNew_settings.forward (by decide +kernel) (by intro h; cases h) (by decide) (by decide) (by decide) h⟩

theorem exMoves_among : Among 3 (fun _ => 1) exMoves := by
  constructor
  · intro e al h
    simp only [exMoves, List.mem_cons, List.not_mem_nil, or_false, Move.update.injEq, reduceCtorEq, false_or] at h
    omega
  · intro e v h
    simp only [exMoves, List.mem_cons, List.not_mem_nil, or_false, Move.speed.injEq, reduceCtorEq, false_or] at h
    rw [h.1, h.2]; norm_num

theorem exMoves_often (e : Nat) : Often 3 2 e exMoves := by
  rintro s ⟨p, q, hs⟩ _
  have h : updatesOf e exMoves ≤ 2 := by
    simp only [exMoves, updatesOf]
    split_ifs <;> omega
  rw [← hs, updatesOf_append, updatesOf_append] at h
  omega

/-- Their files. -/
def exFiles (e : Nat) : List Nat := if e = 2 then exHeldWav 2 else exHeld

theorem exDesk : ∃ rdr : Nat → FileReader, (∀ e, Started sdGeo 2 1 (rdr e) (exFiles e)) ∧
    ∃ log d1 d2, Desk.steps (fun _ => fileKind Fp.ieee sdGeo true (6 + 1)) { rdr := rdr } exMoves = .ok (log, d1) ∧
      Desk.steps (fun _ => memKind Fp.ieee (6 + 1)) { rdr := fun e => ⟨(rdr e).rd, some (samplesOf (exFiles e))⟩ } exMoves = .ok (log, d2) := by
  obtain ⟨a0, h0⟩ := exStarted (n := 2) (mm := 1) (by decide) (by decide) 1 (by decide) (by decide) (by decide)
  obtain ⟨a1, h1⟩ := exStarted (n := 2) (mm := 1) (by decide) (by decide) 2 (by decide) (by decide) (by decide)
  obtain ⟨a2, h2⟩ := exStartedWav
  have hst : ∀ e : Nat, Started sdGeo 2 1 (if e = 2 then a2 else if e = 1 then a1 else a0) (exFiles e) := by
    intro e
    unfold exFiles
    split
    · exact h2
    · split <;> assumption
  exact ⟨_, hst, C80_in_memory Fp.ieee ieee_representable (fun _ => sdGeo) 3 (fun _ => 2) (fun _ => 1) _ exFiles (fun _ _ => by decide +kernel) (fun _ _ => by decide +kernel)
    (fun e _ => hst e) true (fun _ _ => by decide) exMoves exMoves_among (fun e _ => exMoves_often e)⟩

example : ∃ (rdr : Nat → FileReader) (log : List Did) (d' : Desk FileReader), (∀ e, Started sdGeo 2 1 (rdr e) (exFiles e)) ∧
    ∀ e, fileTurns Fp.ieee sdGeo true (6 + 1) ⟨rdr e, none⟩ (seenBy e exMoves log) = .ok (effectsOf e log, ⟨d'.rdr e, pendingOf d'.evs e⟩) := by
  obtain ⟨rdr, h, log, d', _, h1, _⟩ := exDesk
  exact ⟨rdr, log, d', h, C80_alone Fp.ieee (fun _ => sdGeo) true (6 + 1) rdr exMoves log d' h1⟩

/-! ## One call for each round of updates -/

/-- Round by round: what happens in it, then one call of `runPolled`. -/
def rounds (us : List (List Move)) : List Move := us.flatMap fun u => u ++ [.run]

/-- No player is updated twice in a round, and `runPolled` is not called before its end. -/
def OneEach (us : List (List Move)) : Prop := ∀ u ∈ us, calls u = 0 ∧ ∀ e, updatesOf e u ≤ 1

/-- `e` is not updated twice without a call in between; `b`: it has been since the last. -/
def Spaced (e : Nat) : Bool → List Move → Prop
  | _, [] => True
  | b, .update i _ :: ms => if i = e then b = false ∧ Spaced e true ms else Spaced e b ms
  | _, .run :: ms => Spaced e false ms
  | b, .speed _ _ :: ms => Spaced e b ms

theorem Spaced.count {e : Nat} : ∀ {s t : List Move} {b : Bool}, Spaced e b (s ++ t) → updatesOf e s + (if b then 1 else 0) ≤ calls s + 1
  | [], _, b, _ => by simp only [updatesOf, Spec.calls]; split <;> omega
  | .run :: s, t, b, h => by
    have := Spaced.count (s := s) (t := t) (b := false) h
    simp only [updatesOf, Spec.calls]
    simp only [Bool.false_eq_true, if_false] at this
    split <;> omega
  | .speed _ _ :: s, t, b, h => by
    have := Spaced.count (s := s) (t := t) (b := b) h
    simpa only [updatesOf, Spec.calls] using this
  | .update i al :: s, t, b, h => by
    simp only [List.cons_append, Spaced] at h
    simp only [updatesOf, Spec.calls]
    by_cases hi : i = e
    · rw [if_pos hi] at h ⊢
      have := Spaced.count (s := s) (t := t) (b := true) h.2
      rw [h.1]
      simpa using this
    · rw [if_neg hi] at h ⊢
      exact Spaced.count (s := s) (t := t) h

theorem Spaced.drop {e : Nat} : ∀ {s t : List Move} {b : Bool}, Spaced e b (s ++ t) → ∃ b', Spaced e b' t
  | [], _, b, h => ⟨b, h⟩
  | .run :: s, t, b, h => Spaced.drop (s := s) (b := false) h
  | .speed _ _ :: s, t, b, h => Spaced.drop (s := s) (b := b) h
  | .update i al :: s, t, b, h => by
    simp only [List.cons_append, Spaced] at h
    by_cases hi : i = e
    · rw [if_pos hi] at h; exact Spaced.drop (s := s) h.2
    · rw [if_neg hi] at h; exact Spaced.drop (s := s) h

theorem Spaced.round {e : Nat} {rest : List Move} (hr : Spaced e false rest) : ∀ {u : List Move} {b : Bool}, calls u = 0 → updatesOf e u + (if b then 1 else 0) ≤ 1 → Spaced e b (u ++ .run :: rest)
  | [], b, _, _ => hr
  | .run :: u, b, h, _ => by simp [Spec.calls] at h
  | .speed _ _ :: u, b, h, h2 => Spaced.round hr (u := u) (b := b) h h2
  | .update i al :: u, b, h, h2 => by
    simp only [List.cons_append, Spaced]
    simp only [updatesOf] at h2
    by_cases hi : i = e
    · rw [if_pos hi] at h2 ⊢
      cases b with
      | true => simp at h2
      | false => exact ⟨rfl, Spaced.round hr (u := u) (b := true) h (by simpa using h2)⟩
    · rw [if_neg hi] at h2 ⊢
      exact Spaced.round hr (u := u) h (by simpa using h2)

theorem rounds_spaced (e : Nat) : ∀ {us : List (List Move)}, OneEach us → Spaced e false (rounds us)
  | [], _ => trivial
  | u :: us, h => by
    have ih := rounds_spaced e (us := us) (fun u' hu => h u' (List.mem_cons_of_mem _ hu))
    obtain ⟨h1, h2⟩ := h u List.mem_cons_self
    unfold rounds
    rw [List.flatMap_cons, List.append_assoc]
    exact Spaced.round ih h1 (by simpa using h2 e)

theorem rounds_often {us : List (List Move)} (h : OneEach us) {k n : Nat} (hk : k ≤ n) (e : Nat) : Often k n e (rounds us) := by
  rintro s ⟨p, q, hs⟩ hc
  have := rounds_spaced e h
  rw [← hs, List.append_assoc] at this
  obtain ⟨b, hb⟩ := this.drop
  have := hb.count
  omega

/-- **C80**, a rule for programs: one call of `runPolled` for each round of updates is enough for as many players as the buffers last updates. -/
theorem C80_one_call (fp : Fp) (hfp : Representable fp) (g : Nat → Geo) (k : Nat) (R : Nat → Int) (rdr : Nat → FileReader) (m : Nat → List Nat)
    (hB : ∀ e, e < k → (g e).B < 16384) (hNB : ∀ e, e < k → (g e).N * (g e).B ≤ 2 ^ 30) (hst : ∀ e, e < k → Started (g e) k (R e) (rdr e) (m e))
    (nullOk : Bool) {fuel : Nat} (hf : ∀ e, e < k → (g e).N ≤ fuel + 1) (us : List (List Move)) (hu : OneEach us) (ha : Among k R (rounds us)) :
    ∃ log d1 d2, Desk.steps (fun e => fileKind fp (g e) nullOk (fuel + 1)) { rdr := rdr } (rounds us) = .ok (log, d1) ∧
      Desk.steps (fun _ => memKind fp (fuel + 1)) { rdr := fun e => ⟨(rdr e).rd, some (samplesOf (m e))⟩ } (rounds us) = .ok (log, d2) :=
  C80_in_memory fp hfp g k (fun _ => k) R rdr m hB hNB hst nullOk hf (rounds us) ha (fun e _ => rounds_often hu (le_refl _) e)

/-- A round in which `k` players are updated. -/
def exRound (k : Nat) : List Move := (List.range k).map fun e => .update e fun _ => true

theorem exRound_calls (e : Nat) : ∀ k : Nat, calls (exRound k) = 0 ∧ updatesOf e (exRound k) = if e < k then 1 else 0
  | 0 => ⟨rfl, rfl⟩
  | k + 1 => by
    obtain ⟨h1, h2⟩ := exRound_calls e k
    unfold exRound at *
    rw [List.range_succ, List.map_append, calls_append, updatesOf_append, h1, h2]
    refine ⟨rfl, ?_⟩
    simp only [List.map_cons, List.map_nil, updatesOf, Nat.zero_add]
    split <;> split <;> split <;> omega

/-- Twenty-four mono players on the SD card with the default buffers, normal speed, and one call for each round. -/
example (t : Nat) : ∃ rdr : Nat → FileReader, (∀ e, Started sdGeo 24 1 (rdr e) exHeld) ∧
    ∃ log d1 d2, Desk.steps (fun _ => fileKind Fp.ieee sdGeo true (6 + 1)) { rdr := rdr } (rounds (List.replicate t (exRound 24))) = .ok (log, d1) ∧
      Desk.steps (fun _ => memKind Fp.ieee (6 + 1)) { rdr := fun e => ⟨(rdr e).rd, some (samplesOf exHeld)⟩ } (rounds (List.replicate t (exRound 24))) = .ok (log, d2) := by
  obtain ⟨a', h⟩ := exStarted (n := 24) (mm := 3) (by decide) (by decide) 1 (by decide) (by decide) (by decide)
  refine ⟨fun _ => a', fun _ => h, ?_⟩
  refine C80_one_call Fp.ieee ieee_representable (fun _ => sdGeo) 24 (fun _ => 1) (fun _ => a') (fun _ => exHeld) (fun _ _ => by decide +kernel) (fun _ _ => by decide +kernel) (fun _ _ => h)
    true (fun _ _ => by decide) _ ?_ ?_
  · intro u hu
    rw [List.eq_of_mem_replicate hu]
    exact ⟨(exRound_calls 0 24).1, fun e => by rw [(exRound_calls e 24).2]; split <;> omega⟩
  · constructor
    · intro e al h
      simp only [rounds, List.mem_flatMap, List.mem_append, List.mem_singleton, reduceCtorEq, or_false] at h
      obtain ⟨u, hu, h⟩ := h
      rw [List.eq_of_mem_replicate hu] at h
      simp only [exRound, List.mem_map, List.mem_range, Move.update.injEq] at h
      obtain ⟨i, hi, rfl, _⟩ := h
      exact hi
    · intro e v h
      simp only [rounds, List.mem_flatMap, List.mem_append, List.mem_singleton, reduceCtorEq, or_false] at h
      obtain ⟨u, hu, h⟩ := h
      rw [List.eq_of_mem_replicate hu] at h
      simp [exRound] at h

end TVP
