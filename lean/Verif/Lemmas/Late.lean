import Verif.Spec.Late
import Verif.Lemmas.Starve
import Verif.Lemmas.Acts

/-!
# Players whose events are run late
-/

namespace TVP
open Spec

variable {m : List Nat} {g : Geo} {fp : Fp}

theorem FWin.weaken {mm : Int} (h0 : 0 ≤ mm) {c : Cache} {a : Int} {L : Nat} (h : FWin m g mm c a L) : FWin m g 0 c a L :=
  ⟨h.reached, h.loop, h.ix, h.loaded, h.a0, h.enough.imp (fun e => ⟨e.1, by omega⟩) id⟩

theorem posTrace_nil {n : Nat} {r r' : Rd} (h : posTrace fp (n + 1) r = .ok ([], r')) : r' = r := by
  unfold posTrace at h
  split at h
  · cases h; rfl
  · obtain ⟨r1, _, h⟩ := bind_ok_iff.1 h
    obtain ⟨x, _, h⟩ := bind_ok_iff.1 h
    cases h

/-- An update reading the frames at `ps`, whatever samples it is played from. -/
theorem array_update {d : List Int} {r : Rd} (hp : r.playing = true) (hpl : Plain r) (hl : r.loopType = .none) (hpos : 0 ≤ r.pos1)
    {ps : List Int} {r' : Rd} (hps : posTrace fp blockSamples r = .ok (ps, r')) {E : Int} (hE : E ≤ d.length) (hE2 : E ≤ 2147483647)
    (hpsm : ∀ p ∈ ps, r.pos1 ≤ p ∧ p + r.nch ≤ E)
    {fuel : Nat} {alloc : Nat → Bool} (hal : ((List.range r.nch.toNat).filter alloc).length = (List.range r.nch.toNat).length) :
    ArrayReader.update fp (fuel + 1) ⟨r, some d⟩ alloc = .ok (fxOf r.nch (ps.map (frameAt (fun i => d.getD i.toNat 0) r.nch)) alloc, ⟨r', some d⟩) := by
  have hn := hpl.nch
  have hbd : ∀ p ∈ ps, InI32 p ∧ ∀ c : Nat, (c : Int) < r.nch → InI32 (p + c) := by
    intro p hp
    obtain ⟨e1, e3⟩ := hpsm p hp
    exact ⟨⟨by omega, by omega⟩, fun c hc => ⟨by omega, by omega⟩⟩
  have hread : ∀ {σ : Type} (S : Src σ) (s : σ), r.read fp S (fuel + 1) s blockSamples =
      srcFrames S r.nch s ps >>= fun x => .ok ⟨x.1, [], r', x.2⟩ := by
    intro σ S s
    unfold Rd.read
    rw [hp, if_neg (by decide), if_neg (by omega), if_neg (by omega)]
    exact readLoop_posTrace fp S fuel _ r r' ps s hpl hl hps hbd
  unfold ArrayReader.update
  simp only
  rw [hp, update_on hn _ _ _ hal]
  unfold ArrayReader.read
  simp only
  rw [hread, srcFrames_array d r.nch ps (fun i hi => by
    obtain ⟨p, hp, q1, q2⟩ := mem_framesIdx.1 hi
    obtain ⟨e1, e3⟩ := hpsm p hp
    omega)]
  simp only [ok_bind, pure_eq_ok]

/-- The same from a file, some reads after the buffers were filled from block `a` on. -/
theorem file_update (hB : g.B < 16384) (hb : IsBytes m) (hm : m.length < 4294967296)
    {r : Rd} {c : Cache} {a : Int} {L : Nat} {is : List Int} (hw : FWin m g 0 c a L) (hp : r.playing = true) (hpl : Plain r) (hl : r.loopType = .none) (hpos : 0 ≤ r.pos1)
    (ha : a ≤ r.pos1 / g.B) {ps : List Int} {r' : Rd} (hps : posTrace fp blockSamples r = .ok (ps, r'))
    {E : Int} (hE : 2 * E ≤ m.length) (hpsm : ∀ p ∈ ps, r.pos1 ≤ p ∧ p + r.nch ≤ E)
    (nullOk : Bool) {fuel : Nat} {alloc : Nat → Bool}
    (hal : ((List.range r.nch.toNat).filter alloc).length = (List.range r.nch.toNat).length) :
    FileReader.update fp g nullOk (fuel + 1) ⟨r, some (c.gets g is).2⟩ alloc =
      .ok (fxOf r.nch (ps.map (frameAt (heard m g a) r.nch)) alloc, ⟨r', some (c.gets g (is ++ framesIdx r.nch ps)).2⟩) := by
  have hB0 : (0 : Int) < g.B := by exact_mod_cast g.B_pos
  have hn := hpl.nch
  have hidx : ∀ i ∈ framesIdx r.nch ps, InFile m i ∧ r.pos1 / g.B ≤ i / g.B := by
    intro i hi
    obtain ⟨p, hp, q1, q2⟩ := mem_framesIdx.1 hi
    obtain ⟨e1, e3⟩ := hpsm p hp
    exact ⟨⟨by omega, by omega⟩, Int.ediv_le_ediv hB0 (by omega)⟩
  have hbd : ∀ p ∈ ps, InI32 p ∧ ∀ c : Nat, (c : Int) < r.nch → InI32 (p + c) := by
    intro p hp
    obtain ⟨e1, e3⟩ := hpsm p hp
    exact ⟨⟨by omega, by omega⟩, fun c hc => ⟨by omega, by omega⟩⟩
  have hread : ∀ {σ : Type} (S : Src σ) (s : σ), r.read fp S (fuel + 1) s blockSamples =
      srcFrames S r.nch s ps >>= fun x => .ok ⟨x.1, [], r', x.2⟩ := by
    intro σ S s
    unfold Rd.read
    rw [hp, if_neg (by decide), if_neg (by omega), if_neg (by omega)]
    exact readLoop_posTrace fp S fuel _ r r' ps s hpl hl hps hbd
  unfold FileReader.update
  simp only
  rw [hp, update_on hn _ _ _ hal]
  unfold FileReader.read
  simp only
  rw [hread, srcFrames_file]
  simp only [ok_bind, pure_eq_ok]
  have hfr : ps.map (frameAt (fun i => ((c.gets g is).2.get g i).1) r.nch) = ps.map (frameAt (heard m g a) r.nch) := by
    refine List.map_congr_left fun p hp => ?_
    unfold frameAt
    refine List.map_congr_left fun k hk => ?_
    have hi : p + k ∈ framesIdx r.nch ps := mem_framesIdx.2 ⟨p, hp, by omega, by rw [List.mem_range] at hk; omega⟩
    obtain ⟨hin, hge⟩ := hidx _ hi
    show ((c.gets g is).2.get g (p + k)).1 = heard m g a (p + k)
    rw [((C15_read_only g is c).2.1.get (p + k)).1]
    have hhas := hw.has hB hin (le_trans ha hge)
    have hsv := hw.reached.ok.serves hb hm hin
    unfold heard
    by_cases hlt : (p + (k : Int)) / g.B < a + g.N
    · rw [if_pos hlt, (hsv.1 (hhas.2 hlt)).1]
    · rw [if_neg hlt, (hsv.2 (fun hh => hlt (hhas.1 hh))).1]
  rw [hfr, gets_append]

/-! ## The exact law -/

/-- A file player and what is to be known of it. -/
structure Late (m : List Nat) (g : Geo) (St : Rd → Prop) (p : FilePlayer) (q : Streamed) : Prop where
  rd : q.rd = p.rdr.rd
  nch : 0 < p.rdr.rd.nch
  pend : q.pending = p.pending
  idle : p.rdr.rd.playing = false → p.pending = none
  live : p.rdr.rd.playing = true → St p.rdr.rd ∧ ∃ c L is i0, i0 = q.first.getD p.rdr.rd.pos1 ∧ FWin m g 0 c q.window L ∧ p.rdr.src = some (c.gets g is).2 ∧
    q.window ≤ i0 / g.B ∧ i0 ≤ p.rdr.rd.pos1 ∧ (is = [] → i0 = p.rdr.rd.pos1) ∧ (is ≠ [] → i0 ∈ is) ∧
    (∀ i ∈ is, InFile m i ∧ i0 / g.B ≤ i / g.B) ∧ (p.pending = some .reload → is ≠ []) 

theorem audible_getD {N B w i E : Int} (h0 : 0 ≤ i) (hi : i < E) (hE : 2 * E ≤ m.length) :
    (audible m N B w).getD i.toNat 0 = if i / B < w + N then fileSample m i.toNat else 0 := by
  unfold audible
  rw [List.getD_eq_getElem?_getD, List.getElem?_map, List.getElem?_range (by omega)]
  simp only [Option.map_some, Option.getD_some]
  rw [Int.toNat_of_nonneg h0]

variable {St : Rd → Prop}

theorem Late.update (hB : g.B < 16384) (hb : IsBytes m) (hm : m.length < 4294967296) {D E : Int} (hE : 2 * E ≤ m.length) (hSt : Glides fp St D E)
    (nullOk : Bool) {fuel : Nat} {p : FilePlayer} {q : Streamed} (h : Late m g St p q) (alloc : Nat → Bool) :
    ∃ fx p' q', p.update fp g nullOk (fuel + 1) alloc = .ok (fx, p') ∧ q.update fp m g.N g.B (fuel + 1) alloc = .ok (fx, q') ∧ Late m g St p' q' := by
  obtain ⟨⟨r, src⟩, pend⟩ := p
  obtain ⟨r2, w, first, pend2⟩ := q
  obtain ⟨h1, hn, h2, hidle, hlive⟩ := h
  simp only at h1 h2 hn hidle hlive
  subst h1 h2
  have hB0 : (0 : Int) < g.B := by exact_mod_cast g.B_pos
  unfold FilePlayer.update Streamed.update
  simp only
  cases hp : r2.playing with
  | false =>
    have e1 : FileReader.update fp g nullOk (fuel + 1) ⟨r2, src⟩ alloc = .ok ({}, ⟨r2, src⟩) := by
      unfold FileReader.update; simp only; rw [hp, update_off hn]
    have e2 : ArrayReader.update fp (fuel + 1) ⟨r2, some (audible m g.N g.B w)⟩ alloc = .ok ({}, ⟨r2, some (audible m g.N g.B w)⟩) := by
      unfold ArrayReader.update; simp only; rw [hp, update_off hn]
    rw [e1, e2]
    simp only [ok_bind]
    exact ⟨{}, ⟨⟨r2, src⟩, pend2⟩, ⟨r2, w, first, pend2⟩, rfl, rfl, rfl, hn, rfl, fun _ => hidle hp, fun h => by rw [hp] at h; cases h⟩
  | true =>
    by_cases ha : ((List.range r2.nch.toNat).filter alloc).length = (List.range r2.nch.toNat).length
    · obtain ⟨hst, c, L, is, i0, hi0, hw, hc, k1, k2, k3, k4, k5, k6⟩ := hlive hp
      subst hc
      obtain ⟨hpl, hl, hrate, hpos, ps, r', hps, hst', hconf, hle, hleD, hps0, hpsm⟩ := hSt r2 hst
      have hpsm' : ∀ p ∈ ps, r2.pos1 ≤ p ∧ p + r2.nch ≤ E := fun p hp => ⟨(hpsm p hp).1, (hpsm p hp).2.2⟩
      have hEd : 2 * min E (m.length / 2) ≤ m.length := by omega
      rw [file_update hB hb hm hw hp hpl hl hpos (le_trans k1 (Int.ediv_le_ediv hB0 k2)) hps hE hpsm' nullOk ha,
        array_update hp hpl hl hpos hps (d := audible m g.N g.B w) (E := E) (by unfold audible; rw [List.length_map, List.length_range]; omega) (by omega) hpsm' ha]
      have hfr : ps.map (frameAt (fun i => (audible m g.N g.B w).getD i.toNat 0) r2.nch) = ps.map (frameAt (heard m g w) r2.nch) := by
        refine List.map_congr_left fun p hp => ?_
        unfold frameAt
        refine List.map_congr_left fun k hk => ?_
        rw [List.mem_range] at hk
        obtain ⟨e1, e2⟩ := hpsm' p hp
        simp only
        rw [audible_getD (by omega) (show p + (k : Int) < E by omega) hE]
        rfl
      rw [hfr]
      obtain ⟨fx, hfx⟩ : ∃ fx, fx = fxOf r2.nch (ps.map (frameAt (heard m g w) r2.nch)) alloc := ⟨_, rfl⟩
      obtain ⟨e, he⟩ : ∃ e, fx.event = some e := ⟨_, by rw [hfx]; rfl⟩
      have hev : e = .reload → ps ≠ [] := by
        intro h1 h2
        rw [hfx, h2, h1] at he
        unfold fxOf at he
        simp only [List.map_nil, List.length_nil] at he
        rw [if_neg (by decide)] at he
        cases he
      rw [← hfx]
      simp only [ok_bind, he]
      refine ⟨fx, _, _, rfl, rfl, rfl, by simp only; rw [hconf.nch]; exact hn, rfl, fun h => ?_, fun _ => ⟨hst', c, L, is ++ framesIdx r2.nch ps, i0, ?_, hw, rfl, k1, ?_, ?_, ?_, ?_, ?_⟩⟩
      · simp only at h; rw [hconf.playing, hp] at h; cases h
      · simp only [Option.getD_some]; exact hi0
      · exact le_trans k2 hle
      · intro hnil
        obtain ⟨n1, n2⟩ := List.append_eq_nil_iff.1 hnil
        have hps1 : ps = [] := by
          rcases hps0 with e | e
          · exact e
          · have : r2.pos1 ∈ framesIdx r2.nch ps := mem_framesIdx.2 ⟨_, e, le_refl _, by omega⟩
            rw [n2] at this; cases this
        rw [hps1] at hps
        rw [posTrace_nil (n := 127) hps]
        exact k3 n1
      · intro hne
        by_cases hnil : is = []
        · rw [hnil, List.nil_append, k3 hnil]
          rcases hps0 with e | e
          · rw [hnil, e] at hne; exact absurd rfl hne
          · exact mem_framesIdx.2 ⟨_, e, le_refl _, by omega⟩
        · exact List.mem_append_left _ (k4 hnil)
      · intro i hi
        rcases List.mem_append.1 hi with hi | hi
        · exact k5 i hi
        · obtain ⟨p, hp, q1, q2⟩ := mem_framesIdx.1 hi
          obtain ⟨e1, e3⟩ := hpsm' p hp
          exact ⟨⟨by omega, by omega⟩, Int.ediv_le_ediv hB0 (by omega)⟩
      · intro hr hnil
        cases hr
        obtain ⟨n1, n2⟩ := List.append_eq_nil_iff.1 hnil
        rcases hps0 with e | e
        · exact hev rfl e
        · have : r2.pos1 ∈ framesIdx r2.nch ps := mem_framesIdx.2 ⟨_, e, le_refl _, by omega⟩
          rw [n2] at this; cases this
    · have e1 : FileReader.update fp g nullOk (fuel + 1) ⟨r2, src⟩ alloc = .ok ({ allocated := (List.range r2.nch.toNat).filter alloc, released := (List.range r2.nch.toNat).filter alloc }, ⟨r2, src⟩) := by
        unfold FileReader.update; simp only; rw [hp, update_short hn _ _ _ ha]
      have e2 : ArrayReader.update fp (fuel + 1) ⟨r2, some (audible m g.N g.B w)⟩ alloc =
          .ok ({ allocated := (List.range r2.nch.toNat).filter alloc, released := (List.range r2.nch.toNat).filter alloc }, ⟨r2, some (audible m g.N g.B w)⟩) := by
        unfold ArrayReader.update; simp only; rw [hp, update_short hn _ _ _ ha]
      rw [e1, e2]
      simp only [ok_bind]
      exact ⟨_, ⟨⟨r2, src⟩, pend2⟩, ⟨r2, w, first, pend2⟩, rfl, rfl, rfl, hn, rfl, hidle, hlive⟩

theorem Late.poll (hB : g.B < 16384) (hm : m.length < 4294967296) (hfit : (m.length : Int) / 2 + g.N * g.B ≤ 2147483647) {D E : Int} (hSt : Glides fp St D E)
    {fuel : Nat} (hf : g.N ≤ fuel + 1) {p : FilePlayer} {q : Streamed} (h : Late m g St p q) :
    ∃ p', p.runEvent fp g (fuel + 1) = .ok p' ∧ Late m g St p' (q.runEvent g.N g.B) := by
  obtain ⟨⟨r, src⟩, pend⟩ := p
  obtain ⟨r2, w, first, pend2⟩ := q
  obtain ⟨h1, hn, h2, hidle, hlive⟩ := h
  simp only at h1 h2 hn hidle hlive
  subst h1 h2
  have hB0 : (0 : Int) < g.B := by exact_mod_cast g.B_pos
  unfold FilePlayer.runEvent Streamed.runEvent
  match pend2 with
  | none => exact ⟨_, rfl, rfl, hn, rfl, hidle, hlive⟩
  | some .close =>
    simp only
    refine ⟨_, rfl, rfl, hn, rfl, fun _ => rfl, fun h => ?_⟩
    simp only [FileReader.close, Rd.stop] at h; cases h
  | some .reload =>
    have hp : r2.playing = true := by
      cases hp : r2.playing with
      | true => rfl
      | false => have := hidle hp; cases this
    obtain ⟨hst, c, L, is, i0, hi0, hw, hc, k1, k2, k3, k4, k5, k6⟩ := hlive hp
    subst hc
    simp only [FileReader.service, FileReader.triggerReload]
    obtain ⟨c', hrl, hw'⟩ := hw.starve hB hm hfit (le_refl _) (k4 (k6 rfl)) k1 k5 hf (fp.f.nonneg (hSt r2 hst).2.2.1)
    rw [hrl]
    refine ⟨_, rfl, rfl, hn, rfl, fun h => rfl, fun _ => ⟨hst, c', L, [], r2.pos1, rfl, ?_, rfl, ?_, le_refl _, fun _ => rfl, fun h => absurd rfl h, fun i hi => absurd hi List.not_mem_nil,
      fun h => nomatch h⟩⟩
    · simp only; rw [← hi0]; exact hw'
    · simp only; rw [← hi0]; exact le_trans (min_le_left _ _) (Int.ediv_le_ediv hB0 k2)

theorem Late.speed {p : FilePlayer} {q : Streamed} (h : Late m g St p q) {v : ℚ} (hs : ∀ r, St r → Inside r v ∧ St { r with rate := v }) :
    Late m g St { p with rdr := { p.rdr with rd := p.rdr.rd.setPlaybackRate v } } { q with rd := q.rd.setPlaybackRate v } := by
  obtain ⟨k1, k2⟩ := setPlaybackRate_keeps p.rdr.rd v
  refine ⟨by simp only; rw [h.rd], by simp only; rw [k2]; exact h.nch, h.pend, fun hp => h.idle (by simp only at hp; rw [← k1]; exact hp), fun hp => ?_⟩
  simp only at hp ⊢
  rw [k1] at hp
  obtain ⟨hst, rest⟩ := h.live hp
  obtain ⟨i1, i2⟩ := hs _ hst
  rw [i1.only_rate]
  exact ⟨i2, rest⟩

theorem Late.turns (hB : g.B < 16384) (hb : IsBytes m) (hm : m.length < 4294967296) (hfit : (m.length : Int) / 2 + g.N * g.B ≤ 2147483647)
    {D E R : Int} (hE : 2 * E ≤ m.length) (hSt : Glides fp St D E) (hs : ∀ (r : Rd) (v : ℚ), 0 ≤ v → v ≤ R → St r → Inside r v ∧ St { r with rate := v })
    (nullOk : Bool) {fuel : Nat} (hf : g.N ≤ fuel + 1) : ∀ (ts : List Turn) (p : FilePlayer) (q : Streamed), Speeds R ts → Late m g St p q →
    ∃ fxs p' q', fileTurns fp g nullOk (fuel + 1) p ts = .ok (fxs, p') ∧ streamedTurns fp m g.N g.B (fuel + 1) q ts = .ok (fxs, q') ∧ Late m g St p' q'
  | [], p, q, _, h => ⟨[], p, q, rfl, rfl, h⟩
  | .update al :: ts, p, q, hv, h => by
    obtain ⟨fx, p1, q1, e1, e2, e3⟩ := h.update hB hb hm hE hSt nullOk (fuel := fuel) al
    obtain ⟨fxs, p2, q2, k1, k2, k3⟩ := Late.turns hB hb hm hfit hE hSt hs nullOk hf ts p1 q1 (fun v h => hv v (List.mem_cons_of_mem _ h)) e3
    refine ⟨fx :: fxs, p2, q2, ?_, ?_, k3⟩
    · rw [fileTurns]; simp only [e1, ok_bind, k1]; rfl
    · rw [streamedTurns]; simp only [e2, ok_bind, k2]; rfl
  | .poll :: ts, p, q, hv, h => by
    obtain ⟨p1, e1, e3⟩ := h.poll hB hm hfit hSt hf
    obtain ⟨fxs, p2, q2, k1, k2, k3⟩ := Late.turns hB hb hm hfit hE hSt hs nullOk hf ts p1 _ (fun v h => hv v (List.mem_cons_of_mem _ h)) e3
    refine ⟨fxs, p2, q2, ?_, ?_, k3⟩
    · rw [fileTurns]; simp only [e1, ok_bind, k1]
    · rw [streamedTurns]; exact k2
  | .speed v :: ts, p, q, hv, h => by
    obtain ⟨v0, vR⟩ := hv v List.mem_cons_self
    obtain ⟨fxs, p2, q2, k1, k2, k3⟩ := Late.turns hB hb hm hfit hE hSt hs nullOk hf ts _ _ (fun v h => hv v (List.mem_cons_of_mem _ h)) (h.speed fun r hr => hs r v v0 vR hr)
    refine ⟨fxs, p2, q2, ?_, ?_, k3⟩
    · rw [fileTurns]; exact k1
    · rw [streamedTurns]; exact k2

theorem streamedTurns_append (fp : Fp) (m : List Nat) (N B : Int) (fuel : Nat) : ∀ (ts us : List Turn) (q : Streamed),
    streamedTurns fp m N B fuel q (ts ++ us) = (do
      let (f, q) ← streamedTurns fp m N B fuel q ts
      let (f', q) ← streamedTurns fp m N B fuel q us
      return (f ++ f', q))
  | [], us, q => by
    rw [List.nil_append, streamedTurns, ok_bind]
    simp only
    cases streamedTurns fp m N B fuel q us <;> rfl
  | .update al :: ts, us, q => by
    rw [List.cons_append, streamedTurns, streamedTurns]
    cases q.update fp m N B fuel al with
    | error e => rfl
    | ok x =>
      simp only [ok_bind]
      rw [streamedTurns_append fp m N B fuel ts us x.2]
      cases streamedTurns fp m N B fuel x.2 ts with
      | error e => rfl
      | ok y =>
        simp only [ok_bind]
        cases hy : streamedTurns fp m N B fuel y.2 us <;> simp only [ok_bind, error_bind, pure_eq_ok, List.cons_append, hy]
  | .poll :: ts, us, q => by
    rw [List.cons_append, streamedTurns, streamedTurns, streamedTurns_append fp m N B fuel ts us]
  | .speed v :: ts, us, q => by
    rw [List.cons_append, streamedTurns, streamedTurns, streamedTurns_append fp m N B fuel ts us]

theorem memTurns_append (fp : Fp) (fuel : Nat) : ∀ (ts us : List Turn) (b : MemPlayer),
    memTurns fp fuel b (ts ++ us) = (do
      let (f, b) ← memTurns fp fuel b ts
      let (f', b) ← memTurns fp fuel b us
      return (f ++ f', b))
  | [], us, b => by
    rw [List.nil_append, memTurns, ok_bind]
    simp only
    cases memTurns fp fuel b us <;> rfl
  | .update al :: ts, us, b => by
    rw [List.cons_append, memTurns, memTurns]
    cases b.update fp fuel al with
    | error e => rfl
    | ok x =>
      simp only [ok_bind]
      rw [memTurns_append fp fuel ts us x.2]
      cases memTurns fp fuel x.2 ts with
      | error e => rfl
      | ok y =>
        simp only [ok_bind]
        cases hy : memTurns fp fuel y.2 us <;> simp only [ok_bind, error_bind, pure_eq_ok, List.cons_append, hy]
  | .poll :: ts, us, b => by
    rw [List.cons_append, memTurns, memTurns, memTurns_append fp fuel ts us]
  | .speed v :: ts, us, b => by
    rw [List.cons_append, memTurns, memTurns, memTurns_append fp fuel ts us]

/-! ## In memory -/

/-- A streaming player and a player with the file in memory, in the same state, of which `P` is known while it plays. -/
structure Abreast (m : List Nat) (P : Streamed → Prop) (q : Streamed) (b : MemPlayer) : Prop where
  rd : b.rdr.rd = q.rd
  src : b.rdr.src = some (samplesOf m)
  nch : 0 < q.rd.nch
  pend : b.pending = q.pending
  idle : q.rd.playing = false → q.pending = none
  live : q.rd.playing = true → P q

theorem samplesOf_at {i E : Int} (h0 : 0 ≤ i) (hi : i < E) (hE : 2 * E ≤ m.length) : (samplesOf m).getD i.toNat 0 = fileSample m i.toNat := by
  unfold samplesOf
  rw [List.getD_eq_getElem?_getD, List.getElem?_map, List.getElem?_range (by omega)]
  rfl

theorem Abreast.update (hm : m.length < 4294967296) {D E : Int} (hE : 2 * E ≤ m.length) (hSt : Glides fp St D E)
    {fuel : Nat} {P P' : Streamed → Prop} (hP : ∀ q, P q → St q.rd) (hP1 : ∀ q, P q → P' q)
    (hP2 : ∀ (q : Streamed) (r' : Rd) (e : Ev), P q → St r' → q.rd.pos1 ≤ r'.pos1 → r'.pos1 ≤ q.rd.pos1 + D → P' ⟨r', q.window, some (q.first.getD q.rd.pos1), some e⟩)
    {q : Streamed} {b : MemPlayer} (h : Abreast m P q b) (alloc : Nat → Bool) :
    ∃ fx fx' q' b', q.update fp m g.N g.B (fuel + 1) alloc = .ok (fx, q') ∧ b.update fp (fuel + 1) alloc = .ok (fx', b') ∧ b'.served = b.served ∧ Abreast m P' q' b' ∧
      ((∀ q, P q → (q.rd.pos1 + D) / g.B < q.window + g.N) → fx = fx') := by
  obtain ⟨r2, w, first, pend2⟩ := q
  obtain ⟨⟨r, src⟩, pend, served⟩ := b
  obtain ⟨h1, h2, hn, h3, hidle, hlive⟩ := h
  simp only at h1 h2 h3 hn hidle hlive
  subst h1 h2 h3
  have hB0 : (0 : Int) < g.B := by exact_mod_cast g.B_pos
  unfold Streamed.update MemPlayer.update
  simp only
  cases hp : r.playing with
  | false =>
    have e2 : ∀ d, ArrayReader.update fp (fuel + 1) ⟨r, some d⟩ alloc = .ok ({}, ⟨r, some d⟩) := by
      intro d; unfold ArrayReader.update; simp only; rw [hp, update_off hn]
    rw [e2, e2]
    simp only [ok_bind]
    exact ⟨{}, {}, ⟨r, w, first, pend⟩, ⟨⟨r, some (samplesOf m)⟩, pend, served⟩, rfl, rfl, rfl, ⟨rfl, rfl, hn, rfl, hidle, fun h => by rw [hp] at h; cases h⟩, fun _ => rfl⟩
  | true =>
    have hPq := hlive hp
    by_cases ha : ((List.range r.nch.toNat).filter alloc).length = (List.range r.nch.toNat).length
    · obtain ⟨hpl, hl, hrate, hpos, ps, r', hps, hst', hconf, hle, hleD, hps0, hpsm⟩ := hSt r (hP _ hPq)
      have hpsm' : ∀ p ∈ ps, r.pos1 ≤ p ∧ p + r.nch ≤ E := fun p hp => ⟨(hpsm p hp).1, (hpsm p hp).2.2⟩
      rw [array_update hp hpl hl hpos hps (d := audible m g.N g.B w) (E := E) (by unfold audible; rw [List.length_map, List.length_range]; omega) (by omega) hpsm' ha,
        array_update hp hpl hl hpos hps (d := samplesOf m) (E := E) (by unfold samplesOf; rw [List.length_map, List.length_range]; omega) (by omega) hpsm' ha]
      obtain ⟨fx, hfx⟩ : ∃ fx, fx = fxOf r.nch (ps.map (frameAt (fun i => (audible m g.N g.B w).getD i.toNat 0) r.nch)) alloc := ⟨_, rfl⟩
      obtain ⟨fx', hfx'⟩ : ∃ fx, fx = fxOf r.nch (ps.map (frameAt (fun i => (samplesOf m).getD i.toNat 0) r.nch)) alloc := ⟨_, rfl⟩
      obtain ⟨e, he⟩ : ∃ e, fx.event = some e := ⟨_, by rw [hfx]; rfl⟩
      have he' : fx'.event = some e := by rw [← he, hfx, hfx']; unfold fxOf; simp only [List.length_map]
      rw [← hfx, ← hfx']
      simp only [ok_bind, he, he']
      refine ⟨fx, fx', _, _, rfl, rfl, rfl, ⟨rfl, rfl, by simp only; rw [hconf.nch]; exact hn, rfl, fun h => ?_, fun _ => hP2 _ r' e hPq hst' hle hleD⟩, fun hall => ?_⟩
      · simp only at h; rw [hconf.playing, hp] at h; cases h
      · rw [hfx, hfx']
        congr 1
        refine List.map_congr_left fun p hp => ?_
        unfold frameAt
        refine List.map_congr_left fun k hk => ?_
        rw [List.mem_range] at hk
        obtain ⟨e1, e2, e3⟩ := hpsm p hp
        simp only
        rw [audible_getD (by omega) (show p + (k : Int) < E by omega) hE, samplesOf_at (by omega) (show p + (k : Int) < E by omega) hE, if_pos]
        exact lt_of_le_of_lt (Int.ediv_le_ediv hB0 (show p + (k : Int) ≤ r.pos1 + D by omega)) (hall _ hPq)
    · have e2 : ∀ d, ArrayReader.update fp (fuel + 1) ⟨r, some d⟩ alloc =
          .ok ({ allocated := (List.range r.nch.toNat).filter alloc, released := (List.range r.nch.toNat).filter alloc }, ⟨r, some d⟩) := by
        intro d; unfold ArrayReader.update; simp only; rw [hp, update_short hn _ _ _ ha]
      rw [e2, e2]
      simp only [ok_bind]
      exact ⟨_, _, ⟨r, w, first, pend⟩, ⟨⟨r, some (samplesOf m)⟩, pend, served⟩, rfl, rfl, rfl, ⟨rfl, rfl, hn, rfl, hidle, fun _ => hP1 _ hPq⟩, fun _ => rfl⟩

theorem Abreast.poll {N B : Int} {P P' : Streamed → Prop} {q : Streamed} {b : MemPlayer} (h : Abreast m P q b) (h1 : q.pending = none → P q → P' q)
    (h2 : q.pending = some .reload → P q → P' ⟨q.rd, min (q.first.getD q.rd.pos1 / B) (q.window + N), none, none⟩) : Abreast m P' (q.runEvent N B) b.runEvent := by
  obtain ⟨r2, w, first, pend2⟩ := q
  obtain ⟨⟨r, src⟩, pend, served⟩ := b
  obtain ⟨e1, e2, hn, e3, hidle, hlive⟩ := h
  simp only at e1 e2 e3 hn hidle hlive h1 h2
  subst e1 e2 e3
  unfold Streamed.runEvent MemPlayer.runEvent
  match pend with
  | none => exact ⟨rfl, rfl, hn, rfl, hidle, fun hp => h1 rfl (hlive hp)⟩
  | some .close =>
    simp only
    refine ⟨rfl, rfl, hn, rfl, fun _ => rfl, fun h => ?_⟩
    simp only [Rd.stop] at h; cases h
  | some .reload =>
    simp only
    exact ⟨rfl, rfl, hn, rfl, fun _ => rfl, fun hp => h2 rfl (hlive hp)⟩

theorem Abreast.speed {P : Streamed → Prop} {q : Streamed} {b : MemPlayer} (h : Abreast m P q b) {v : ℚ}
    (hs : P q → Inside q.rd v ∧ P { q with rd := { q.rd with rate := v } }) :
    Abreast m P { q with rd := q.rd.setPlaybackRate v } { b with rdr := { b.rdr with rd := b.rdr.rd.setPlaybackRate v } } := by
  obtain ⟨k1, k2⟩ := setPlaybackRate_keeps q.rd v
  refine ⟨by simp only; rw [h.rd], h.src, by simp only; rw [k2]; exact h.nch, h.pend, fun hp => h.idle (by simp only at hp; rw [← k1]; exact hp), fun hp => ?_⟩
  simp only at hp ⊢
  rw [k1] at hp
  obtain ⟨i1, i2⟩ := hs (h.live hp)
  rw [i1.only_rate]
  exact i2

/-! ## Stalling -/

/-- Any number of updates without a reload: the buffers are where they were, the position is ahead. -/
structure Stalled (g : Geo) (St : Rd → Prop) (D start : Int) (u : Nat) (q : Streamed) : Prop where
  st : St q.rd
  fresh : q.pending = none → q.first = none
  window : q.window ≤ q.first.getD q.rd.pos1 / g.B
  first : q.first.getD q.rd.pos1 ≤ q.rd.pos1
  from0 : start / g.B ≤ q.window
  pos : q.rd.pos1 ≤ start + u * D

/-- The buffers are behind by no more than what `s` reloads make up for. -/
structure Trails (g : Geo) (St : Rd → Prop) (D mm : Int) (s j : Nat) (q : Streamed) : Prop where
  st : St q.rd
  fresh : q.pending = none → q.first = none
  first : q.first.getD q.rd.pos1 ≤ q.rd.pos1
  pos : q.rd.pos1 ≤ q.first.getD q.rd.pos1 + j * D
  window : q.window ≤ q.first.getD q.rd.pos1 / g.B
  gap : q.first.getD q.rd.pos1 / g.B ≤ q.window + mm + s * (g.N - mm)

theorem Stalled.turns (hm : m.length < 4294967296) {D E R start : Int} (hD0 : 0 ≤ D) (hE : 2 * E ≤ m.length) (hSt : Glides fp St D E)
    (hs : ∀ (r : Rd) (v : ℚ), 0 ≤ v → v ≤ R → St r → Inside r v ∧ St { r with rate := v }) {fuel : Nat} :
    ∀ (ts : List Turn) (u : Nat) (q : Streamed) (b : MemPlayer), Speeds R ts → Abreast m (Stalled g St D start u) q b →
    ∃ fxs fxs' q' b', streamedTurns fp m g.N g.B (fuel + 1) q ts = .ok (fxs, q') ∧ memTurns fp (fuel + 1) b ts = .ok (fxs', b') ∧
      Abreast m (Stalled g St D start (u + updates ts)) q' b'
  | [], u, q, b, _, h => ⟨[], [], q, b, rfl, rfl, h⟩
  | .update al :: ts, u, q, b, hv, h => by
    obtain ⟨fx, fx', q1, b1, e1, e2, _, e3, _⟩ := h.update (g := g) (fuel := fuel) hm hE hSt (P' := Stalled g St D start (u + 1)) (fun q k => k.st)
      (fun q k => ⟨k.st, k.fresh, k.window, k.first, k.from0, by have := k.pos; push_cast; rw [add_mul, one_mul]; omega⟩)
      (fun q r' e k k1 k2 k3 => ⟨k1, fun h => (nomatch h), k.window, le_trans k.first k2, k.from0, by have := k.pos; simp only; push_cast; rw [add_mul, one_mul]; omega⟩) al
    obtain ⟨fxs, fxs', q2, b2, k1, k2, k3⟩ := Stalled.turns (fuel := fuel) hm hD0 hE hSt hs ts (u + 1) q1 b1 (fun v h => hv v (List.mem_cons_of_mem _ h)) e3
    refine ⟨fx :: fxs, fx' :: fxs', q2, b2, ?_, ?_, ?_⟩
    · rw [streamedTurns]; simp only [e1, ok_bind, k1]; rfl
    · rw [memTurns]; simp only [e2, ok_bind, k2]; rfl
    · rw [updates, show u + (updates ts + 1) = u + 1 + updates ts by omega]; exact k3
  | .poll :: ts, u, q, b, hv, h => by
    have hB0 : (0 : Int) < g.B := by exact_mod_cast g.B_pos
    have e3 := h.poll (N := g.N) (B := g.B) (P' := Stalled g St D start u) (fun _ k => k) (fun _ k => ⟨k.st, fun _ => rfl,
      le_trans (min_le_left _ _) (Int.ediv_le_ediv hB0 k.first), le_refl _, le_min (le_trans k.from0 k.window) (le_trans k.from0 (by simp)), k.pos⟩)
    obtain ⟨fxs, fxs', q2, b2, k1, k2, k3⟩ := Stalled.turns (fuel := fuel) hm hD0 hE hSt hs ts u _ _ (fun v h => hv v (List.mem_cons_of_mem _ h)) e3
    refine ⟨fxs, fxs', q2, b2, ?_, ?_, ?_⟩
    · rw [streamedTurns]; exact k1
    · rw [memTurns]; exact k2
    · exact k3
  | .speed v :: ts, u, q, b, hv, h => by
    obtain ⟨v0, vR⟩ := hv v List.mem_cons_self
    have e3 := h.speed (v := v) (fun k => by
      obtain ⟨i1, i2⟩ := hs _ v v0 vR k.st
      exact ⟨i1, i2, k.fresh, k.window, k.first, k.from0, k.pos⟩)
    obtain ⟨fxs, fxs', q2, b2, k1, k2, k3⟩ := Stalled.turns (fuel := fuel) hm hD0 hE hSt hs ts u _ _ (fun v h => hv v (List.mem_cons_of_mem _ h)) e3
    refine ⟨fxs, fxs', q2, b2, ?_, ?_, ?_⟩
    · rw [streamedTurns]; exact k1
    · rw [memTurns]; exact k2
    · exact k3

theorem ediv_le_of_gap {p i0 B k : Int} (hB : 0 < B) (h : p ≤ i0 + k * B) : p / B ≤ i0 / B + k := by
  rw [← Int.add_mul_ediv_right _ _ (ne_of_gt hB)]
  exact Int.ediv_le_ediv hB h

theorem Stalled.trails {D mm start : Int} {s u : Nat} {N : Int} (hN : N = g.N) (hu : u * D ≤ (mm + s * (g.N - mm)) * g.B) {q : Streamed} {b : MemPlayer}
    (h : Abreast m (Stalled g St D start u) q b) : Abreast m (Trails g St D mm s 0) (q.runEvent N g.B) b.runEvent := by
  have hB0 : (0 : Int) < g.B := by exact_mod_cast g.B_pos
  subst hN
  refine h.poll (fun hp k => ?_) (fun _ k => ?_)
  · have hf := k.fresh hp
    have h1 := k.pos
    have h2 := k.from0
    have h3 := k.window
    rw [hf, Option.getD_none] at h3
    have h4 := ediv_le_of_gap hB0 (show q.rd.pos1 ≤ start + (mm + s * (g.N - mm)) * g.B by omega)
    refine ⟨k.st, k.fresh, k.first, ?_, k.window, ?_⟩ <;> rw [hf, Option.getD_none]
    · simp
    · omega
  · have h1 := k.pos
    have h2 := k.from0
    have h3 := k.window
    have h5 := k.first
    have h4 := ediv_le_of_gap hB0 (show q.rd.pos1 ≤ start + (mm + s * (g.N - mm)) * g.B by omega)
    have h6 : start / g.B ≤ min (q.first.getD q.rd.pos1 / g.B) (q.window + g.N) := le_min (le_trans h2 h3) (by omega)
    refine ⟨k.st, fun _ => rfl, le_refl _, by simp, le_trans (min_le_left _ _) (Int.ediv_le_ediv hB0 k.first), ?_⟩
    simp only [Option.getD_none]
    omega

theorem trail_step {w i0 p N mm B : Int} {s : Nat} (hN : mm ≤ N) (h1 : i0 ≤ w + mm + s * (N - mm)) (h2 : p ≤ i0 + mm) :
    p ≤ min i0 (w + N) + mm + ((s - 1 : Nat) : Int) * (N - mm) := by
  rcases s with _ | s
  · simp only [Nat.cast_zero, zero_mul, add_zero, Nat.zero_sub] at h1 ⊢
    rw [min_eq_left (by omega)]; omega
  · have h3 : ((s + 1 : Nat) : Int) * (N - mm) = s * (N - mm) + (N - mm) := by push_cast; ring
    have h4 : 0 ≤ (s : Int) * (N - mm) := mul_nonneg (by omega) (by omega)
    rw [h3] at h1
    simp only [Nat.add_sub_cancel]
    rcases min_choice i0 (w + N) with e | e <;> rw [e] <;> omega

/-- With events run promptly, every reload gets nearer, until nothing is missing any more. -/
theorem Trails.turns (hm : m.length < 4294967296) {D E R mm : Int} (hD0 : 0 ≤ D) (hE : 2 * E ≤ m.length) (hSt : Glides fp St D E)
    (hs : ∀ (r : Rd) (v : ℚ), 0 ≤ v → v ≤ R → St r → Inside r v ∧ St { r with rate := v }) {n : Nat} (hmm : 2 * mm + 1 ≤ g.N) (hmm0 : 0 ≤ mm) (hn : n * D ≤ mm * g.B) {fuel : Nat}
    (us : List Turn) : ∀ (ts : List Turn) (s j : Nat) (q : Streamed) (b : MemPlayer), Speeds R ts → Prompt n j (ts ++ us) → j ≤ n → Abreast m (Trails g St D mm s j) q b →
    ∃ fxs fxs' q' b' s' j', streamedTurns fp m g.N g.B (fuel + 1) q ts = .ok (fxs, q') ∧ memTurns fp (fuel + 1) b ts = .ok (fxs', b') ∧
      Abreast m (Trails g St D mm s' j') q' b' ∧ b.served ≤ b'.served ∧ s' = s - (b'.served - b.served) ∧ j' ≤ n ∧ Prompt n j' us ∧ (s = 0 → fxs = fxs')
  | [], s, j, q, b, _, hp, hj, h => ⟨[], [], q, b, s, j, rfl, rfl, h, le_refl _, by simp, hj, hp, fun _ => rfl⟩
  | .update al :: ts, s, j, q, b, hv, hp, hj, h => by
    have hB0 : (0 : Int) < g.B := by exact_mod_cast g.B_pos
    obtain ⟨hp1, hp2⟩ : j < n ∧ Prompt n (j + 1) (ts ++ us) := hp
    obtain ⟨fx, fx', q1, b1, e1, e2, e4, e3, e5⟩ := h.update (g := g) (fuel := fuel) hm hE hSt (P' := Trails g St D mm s (j + 1)) (fun q k => k.st)
      (fun q k => ⟨k.st, k.fresh, k.first, by have := k.pos; push_cast; rw [add_mul, one_mul]; omega, k.window, k.gap⟩)
      (fun q r' e k k1 k2 k3 => ⟨k1, fun h => (nomatch h), le_trans k.first k2, by have := k.pos; simp only [Option.getD_some]; push_cast; rw [add_mul, one_mul]; omega, k.window, k.gap⟩) al
    obtain ⟨fxs, fxs', q2, b2, s', j', k1, k2, k3, k4, k5, k6, k7, k8⟩ := Trails.turns (fuel := fuel) hm hD0 hE hSt hs hmm hmm0 hn us ts s (j + 1) q1 b1
      (fun v h => hv v (List.mem_cons_of_mem _ h)) hp2 hp1 e3
    refine ⟨fx :: fxs, fx' :: fxs', q2, b2, s', j', ?_, ?_, k3, by omega, by rw [k5, e4], k6, k7, fun hs0 => ?_⟩
    · rw [streamedTurns]; simp only [e1, ok_bind, k1]; rfl
    · rw [memTurns]; simp only [e2, ok_bind, k2]; rfl
    · rw [k8 hs0, e5 fun q k => ?_]
      have h1 := k.gap
      rw [hs0] at h1
      simp only [Nat.cast_zero, zero_mul, add_zero] at h1
      have h2 := k.pos
      have h3 : ((j + 1 : Nat) : Int) * D ≤ n * D := mul_le_mul_of_nonneg_right (by exact_mod_cast hp1) hD0
      push_cast at h3
      rw [add_mul, one_mul] at h3
      have h4 := ediv_le_of_gap hB0 (show q.rd.pos1 + D ≤ q.first.getD q.rd.pos1 + mm * g.B by omega)
      omega
  | .poll :: ts, s, j, q, b, hv, hp, hj, h => by
    have hB0 : (0 : Int) < g.B := by exact_mod_cast g.B_pos
    by_cases hpend : q.pending = some .reload
    · have e3 := h.poll (N := g.N) (B := g.B) (P' := Trails g St D mm (s - 1) 0) (fun h' _ => by rw [hpend] at h'; cases h')
        (fun _ k => ⟨k.st, fun _ => rfl, le_refl _, by simp, le_trans (min_le_left _ _) (Int.ediv_le_ediv hB0 k.first), by
          simp only [Option.getD_none]
          have h3 : (j : Int) * D ≤ n * D := mul_le_mul_of_nonneg_right (by exact_mod_cast hj) hD0
          exact trail_step (B := g.B) (by omega) k.gap (ediv_le_of_gap hB0 (by have := k.pos; omega))⟩)
      obtain ⟨fxs, fxs', q2, b2, s', j', k1, k2, k3, k4, k5, k6, k7, k8⟩ := Trails.turns (fuel := fuel) hm hD0 hE hSt hs hmm hmm0 hn us ts (s - 1) 0 _ _
        (fun v h => hv v (List.mem_cons_of_mem _ h)) hp (Nat.zero_le _) e3
      have hserved : b.runEvent.served = b.served + 1 := by
        unfold MemPlayer.runEvent; rw [h.pend, hpend]
      rw [hserved] at k4 k5
      refine ⟨fxs, fxs', q2, b2, s', j', ?_, ?_, k3, by omega, by omega, k6, k7, fun hs0 => k8 (by omega)⟩
      · rw [streamedTurns]; exact k1
      · rw [memTurns]; exact k2
    · have e3 := h.poll (N := g.N) (B := g.B) (P' := Trails g St D mm s 0) (fun h' k => ⟨k.st, k.fresh, k.first, by rw [k.fresh h', Option.getD_none]; simp, k.window, k.gap⟩)
        (fun h' _ => absurd h' hpend)
      obtain ⟨fxs, fxs', q2, b2, s', j', k1, k2, k3, k4, k5, k6, k7, k8⟩ := Trails.turns (fuel := fuel) hm hD0 hE hSt hs hmm hmm0 hn us ts s 0 _ _
        (fun v h => hv v (List.mem_cons_of_mem _ h)) hp (Nat.zero_le _) e3
      have hserved : b.runEvent.served = b.served := by
        unfold MemPlayer.runEvent; rw [h.pend]
        match hq : q.pending with
        | none => rfl
        | some .close => rfl
        | some .reload => exact absurd hq hpend
      rw [hserved] at k4 k5
      refine ⟨fxs, fxs', q2, b2, s', j', ?_, ?_, k3, k4, k5, k6, k7, k8⟩
      · rw [streamedTurns]; exact k1
      · rw [memTurns]; exact k2
  | .speed v :: ts, s, j, q, b, hv, hp, hj, h => by
    obtain ⟨v0, vR⟩ := hv v List.mem_cons_self
    have e3 := h.speed (v := v) (fun k => by
      obtain ⟨i1, i2⟩ := hs _ v v0 vR k.st
      exact ⟨i1, i2, k.fresh, k.first, k.pos, k.window, k.gap⟩)
    obtain ⟨fxs, fxs', q2, b2, s', j', k1, k2, k3, k4, k5, k6, k7, k8⟩ := Trails.turns (fuel := fuel) hm hD0 hE hSt hs hmm hmm0 hn us ts s j _ _
      (fun v h => hv v (List.mem_cons_of_mem _ h)) hp hj e3
    refine ⟨fxs, fxs', q2, b2, s', j', ?_, ?_, k3, k4, k5, k6, k7, k8⟩
    · rw [streamedTurns]; exact k1
    · rw [memTurns]; exact k2

end TVP
