import Verif.Lemmas.Anything
import Verif.Lemmas.GlideInterp

/-!
# Interpolation beside plain playback: up to normal speed it reads nothing else
-/

namespace TVP
open Spec

section smooth

variable {σ : Type} {S : Src σ} {Q : σ → σ → Prop} {fp : Fp} {k : Interp}

/-- States related by `Q` serve the same 16-bit samples, and reading again what was just read gives the same and leaves the state
related to the same one. -/
def Steady (S : Src σ) (Q : σ → σ → Prop) : Prop := ∀ s t i v s', Q s t → S.get s i = .ok (v, s') →
  InI16 v ∧ (∃ t', S.get t i = .ok (v, t') ∧ Q s' t') ∧ ∀ u, Q s' u → ∃ u', S.get u i = .ok (v, u') ∧ Q s' u'

/-- A plain reader up to normal speed; for cubic interpolation its fraction is on the side of its direction and it does not loop to and
fro. -/
structure Calm (k : Interp) (r : Rd) : Prop where
  dual : r.dual = false
  interp : r.interp = .none
  chans : r.nch ≤ 8
  loop : k = .quadratic → r.loopType ≠ .pingpong
  rate : |r.rate| ≤ 1
  frac : |r.rem| < 1
  up : k = .quadratic → 0 < r.rate → 0 ≤ r.rem
  down : k = .quadratic → r.rate < 0 → r.rem ≤ 0
  w0 : 0 ≤ r.crossfade
  w1 : r.crossfade ≤ 1

/-- `q` is the reader `r` with interpolation `k`. -/
structure Smoothed (k : Interp) (r q : Rd) : Prop where
  eq : q = { r with interp := k, pts := q.pts }
  pts : PtsOk q

theorem Smoothed.atEnd {r q : Rd} (h : Smoothed k r q) : q.atEnd = r.atEnd := by rw [h.eq]; rfl

theorem Smoothed.but {r q q' : Rd} (h : Smoothed k r q) (hq : SameBut q q') (hp : PtsOk q') : Smoothed k r q' := by
  refine ⟨?_, hp⟩
  unfold SameBut at hq
  rw [hq, h.eq]

theorem chkI32_in {x y : Int} (h : chkI32 x = .ok y) : InI32 x := by
  unfold chkI32 at h
  split at h
  · assumption
  · cases h

theorem Smoothed.next (hS : Steady S Q) {r q : Rd} (hr : Calm k r) (h : Smoothed k r q) {s t : σ} (hQ : Q s t) {ch : Nat} (hch : (ch : Int) < r.nch) {o : Option Int} {r' : Rd} {s' : σ}
    (e : readNextValue fp S r s ch = .ok (o, r', s')) : r' = r ∧ ((o = none ∧ s' = s ∧ readNextValue fp S q t ch = .ok (none, q, t)) ∨
      ∃ v w q' t', o = some v ∧ readNextValue fp S q t ch = .ok (some w, q', t') ∧ Smoothed k r q' ∧ Q s' t') := by
  unfold readNextValue at e ⊢
  rw [h.atEnd]
  by_cases he : r.atEnd = true
  · rw [if_pos he] at e ⊢
    cases e
    exact ⟨rfl, Or.inl ⟨rfl, rfl, rfl⟩⟩
  · rw [if_neg he] at e ⊢
    obtain ⟨⟨v, s1⟩, e1, e⟩ := bind_ok_iff.1 e
    rw [hr.interp] at e
    cases e
    refine ⟨rfl, Or.inr ?_⟩
    have hd : q.dual = false := by rw [h.eq]; exact hr.dual
    have hn : q.nch = r.nch := by rw [h.eq]
    have hp1 : q.pos1 = r.pos1 := by rw [h.eq]
    have hget : InI16 v ∧ Can (fun i => i = r.pos1 + 0 * r.nch + ch) r.nch r.pos1 0 ch ∧ (∃ t', baseVal fp S q t ch = .ok (v, t') ∧ Q s' t') ∧
        ∀ u, Q s' u → ∃ u', S.get u (r.pos1 + 0 * r.nch + ch) = .ok (v, u') ∧ Q s' u' := by
      unfold baseVal at e1 ⊢
      rw [if_pos (by rw [hr.dual]; rfl)] at e1
      rw [if_pos (by rw [hd]; rfl)]
      unfold srcVal at e1 ⊢
      rw [hn, hp1]
      obtain ⟨p, hp, e1⟩ := bind_ok_iff.1 e1
      obtain ⟨p', hp', e1⟩ := bind_ok_iff.1 e1
      rw [hp]
      simp only [ok_bind, hp']
      have i1 := chkI32_inv hp
      have i2 := chkI32_inv hp'
      have j1 := chkI32_in hp
      have j2 := chkI32_in hp'
      subst i1
      subst i2
      obtain ⟨k1, k2, k3⟩ := hS _ _ _ _ _ hQ e1
      exact ⟨k1, ⟨j1, j2, rfl⟩, k2, k3⟩
    obtain ⟨hv, hcan, ⟨t', hbase, hQ'⟩, hagain⟩ := hget
    have hsrc : SrcOk S (Q s') (fun i => i = r.pos1 + 0 * r.nch + ch) := by
      rintro u _ hu rfl
      obtain ⟨u', g1, g2⟩ := hagain u hu
      exact ⟨v, u', g1, g2, hv⟩
    have hrate : q.rate = r.rate := by rw [h.eq]
    have hrem : q.rem = r.rem := by rw [h.eq]
    have hi : q.interp = k := by rw [h.eq]
    have hw : q.crossfade = r.crossfade := by rw [h.eq]
    have hc8 : ch < 8 := by have := hr.chans; omega
    obtain ⟨ra, rb⟩ := abs_le.1 hr.rate
    rw [hbase]
    simp only [ok_bind, hi]
    cases k with
    | none => exact ⟨v, v, q, t', rfl, rfl, h, hQ'⟩
    | linear =>
      obtain ⟨v', q', s'', b1, b2, b3, b4, b5⟩ := linearVal_ok fp hsrc (r := q) hQ' h.pts hc8 (by rw [hrem]; exact hr.frac) hv
        (fun _ _ hx => absurd rb (not_le.2 (by rw [← hrate]; exact hx))) (fun _ hx => absurd ra (not_le.2 (by rw [← hrate]; exact hx)))
      rw [b1]
      exact ⟨v, v', q', s'', rfl, rfl, h.but b4 b3, b5⟩
    | quadratic =>
      obtain ⟨k1, k2⟩ := quad_one fp hr.rate hr.frac (hr.up rfl) (hr.down rfl)
      rw [← hrate, ← hrem] at k1 k2
      have hj : ∀ j : Nat, j < 1 → Can (fun i => i = r.pos1 + 0 * r.nch + ch) q.nch q.pos1 (j : Int) ch ∧ Can (fun i => i = r.pos1 + 0 * r.nch + ch) q.nch q.pos1 (-(j : Int)) ch := by
        intro j hj
        have : j = 0 := by omega
        subst this
        rw [hn, hp1]
        exact ⟨hcan, hcan⟩
      obtain ⟨v', q', s'', b1, b2, b3, b4, b5⟩ := quadVal_ok fp hsrc (r := q) hQ' h.pts hc8 (by rw [hrem]; exact hr.frac)
        (by rw [hrate]; exact le_trans hr.rate (by norm_num)) (by rw [hw]; exact hr.w0) (by rw [hw]; exact hr.w1) (K := 1) k1 k2
        (fun _ j hj' => (hj j hj').2) (fun _ j hj' => (hj j hj').1) (fun x => by rw [hd] at x; cases x)
      rw [b1]
      exact ⟨v, v', q', s'', rfl, rfl, h.but b4 b3, b5⟩

theorem Smoothed.wrap {r q r' : Rd} (h : Smoothed k r q) (e : wrapAround r = some r') : ∃ q', wrapAround q = some q' ∧ Smoothed k r' q' := by
  rw [h.eq]
  obtain ⟨P, hP⟩ : ∃ P, q.pts = P := ⟨_, rfl⟩
  have hp : ∀ r' : Rd, r'.pts = P → PtsOk r' := fun r' e => by unfold PtsOk; rw [e, ← hP]; exact h.pts
  rw [hP]
  unfold wrapAround at e ⊢
  simp only at e ⊢
  cases hl : r.loopType with
  | none => rw [hl] at e; cases e
  | «repeat» => rw [hl] at e; cases e; exact ⟨_, rfl, rfl, hp _ rfl⟩
  | pingpong => rw [hl] at e; cases e; exact ⟨_, rfl, rfl, hp _ rfl⟩

theorem Smoothed.wrap_none {r q : Rd} (h : Smoothed k r q) (e : wrapAround r = none) : wrapAround q = none := by
  rw [wrapAround_none] at e ⊢
  rw [h.eq]
  exact e

theorem Calm.wrap {r r' : Rd} (h : Calm k r) (e : wrapAround r = some r') : Calm k r' := by
  unfold wrapAround at e
  simp only at e
  cases hl : r.loopType with
  | none => rw [hl] at e; cases e
  | «repeat» => rw [hl] at e; cases e; exact ⟨h.dual, h.interp, h.chans, fun _ => (nomatch ·), h.rate, h.frac, h.up, h.down, h.w0, h.w1⟩
  | pingpong =>
    rw [hl] at e; cases e
    exact ⟨h.dual, h.interp, h.chans, fun hk => absurd hl (h.loop hk), by simp only [abs_neg]; exact h.rate, h.frac, fun hk => absurd hl (h.loop hk), fun hk => absurd hl (h.loop hk), h.w0, h.w1⟩

theorem wrap_nch {r r' : Rd} (e : wrapAround r = some r') : r'.nch = r.nch := by
  unfold wrapAround at e
  simp only at e
  split at e
  · cases e; rfl
  · cases e; rfl
  · cases e

theorem Smoothed.chan (hS : Steady S Q) : ∀ (fuel : Nat) {r q : Rd}, Calm k r → Smoothed k r q → ∀ {s t : σ}, Q s t → ∀ {ch : Nat}, (ch : Int) < r.nch → ∀ {o : Option Int} {r' : Rd} {s' : σ},
    readChan fp S fuel r s ch = .ok (o, r', s') → Calm k r' ∧ r'.nch = r.nch ∧ ∃ o' q' t', readChan fp S fuel q t ch = .ok (o', q', t') ∧ Smoothed k r' q' ∧ o'.isSome = o.isSome ∧ Q s' t'
  | 0, r, q, _, _, s, t, _, ch, _, o, r', s', e => by unfold readChan at e; cases e
  | fuel + 1, r, q, hr, h, s, t, hQ, ch, hch, o, r', s', e => by
    unfold readChan at e ⊢
    replace e := bind_ok_iff.1 e
    obtain ⟨⟨o1, r1, s1⟩, e1, e⟩ := e
    obtain ⟨k0, k1⟩ := h.next hS hr hQ hch e1
    subst k0
    rcases k1 with ⟨rfl, rfl, k2⟩ | ⟨v, w, q', t', rfl, k2, k3, k4⟩
    · rw [k2]
      simp only [ok_bind] at e ⊢
      cases hw : wrapAround r1 with
      | none =>
        rw [hw] at e
        cases e
        rw [h.wrap_none hw]
        refine ⟨⟨hr.dual, hr.interp, hr.chans, hr.loop, hr.rate, hr.frac, hr.up, hr.down, hr.w0, hr.w1⟩, rfl, none, _, _, rfl, ⟨?_, h.pts⟩, rfl, hQ⟩
        conv_lhs => rw [h.eq]
      | some r2 =>
        rw [hw] at e
        obtain ⟨q2, w1, w2⟩ := h.wrap hw
        rw [w1]
        obtain ⟨g1, g2, g3⟩ := Smoothed.chan hS fuel (hr.wrap hw) w2 hQ (by rw [wrap_nch hw]; exact hch) e
        exact ⟨g1, by rw [g2, wrap_nch hw], g3⟩
    · rw [k2]
      cases e
      exact ⟨hr, rfl, some w, q', t', rfl, k3, rfl, k4⟩

theorem Smoothed.frame (hS : Steady S Q) {fuel : Nat} : ∀ (left ch : Nat) {r q : Rd}, Calm k r → Smoothed k r q → ∀ {s t : σ}, Q s t → ((ch + left : Nat) : Int) ≤ r.nch → ∀ {vs : List Int} {ok : Bool} {r' : Rd} {s' : σ},
    readFrame fp S fuel left ch r s = .ok (vs, ok, r', s') → Calm k r' ∧ ∃ ws q' t', readFrame fp S fuel left ch q t = .ok (ws, ok, q', t') ∧ Smoothed k r' q' ∧ Q s' t'
  | 0, ch, r, q, hr, h, s, t, hQ, _, vs, ok, r', s', e => by
    unfold readFrame at e ⊢
    cases e
    exact ⟨hr, [], q, t, rfl, h, hQ⟩
  | left + 1, ch, r, q, hr, h, s, t, hQ, hch, vs, ok, r', s', e => by
    unfold readFrame at e ⊢
    obtain ⟨⟨o, r1, s1⟩, e1, e⟩ := bind_ok_iff.1 e
    obtain ⟨g1, g2, o', q1, t1, g3, g4, g5, g6⟩ := h.chan hS fuel hr hQ (by omega) e1
    rw [g3]
    cases o with
    | none =>
      cases o' with
      | some w => cases g5
      | none => cases e; exact ⟨g1, [], q1, t1, rfl, g4, g6⟩
    | some v =>
      cases o' with
      | none => cases g5
      | some w =>
        simp only [ok_bind] at e ⊢
        obtain ⟨⟨vs1, ok1, r2, s2⟩, e2, e⟩ := bind_ok_iff.1 e
        cases e
        obtain ⟨f1, ws, q2, t2, f2, f3, f4⟩ := Smoothed.frame hS left (ch + 1) g1 g4 g6 (by rw [g2]; omega) e2
        rw [f2]
        exact ⟨f1, w :: ws, q2, t2, rfl, f3, f4⟩

theorem Calm.step (hfp : Representable fp) {r r' : Rd} (h : Calm k r) (e : stepOn fp r = .ok r') : Calm k r' ∧ r'.nch = r.nch := by
  obtain ⟨p2, rfl⟩ := stepOn_inv e
  have hex := fp.d.exact _ (frac_isFloat (hfp (r.rem + r.rate)))
  refine ⟨⟨h.dual, h.interp, h.chans, h.loop, h.rate, ?_, fun hk hp => rem_sign fp (h.up hk hp) (le_of_lt hp), fun hk hp => rem_sign' fp (h.down hk hp) (le_of_lt hp), h.w0, h.w1⟩, rfl⟩
  simp only
  rw [hex]
  exact trunc_rest _

theorem Smoothed.step {r q r' : Rd} (h : Smoothed k r q) (e : stepOn fp r = .ok r') : ∃ q', stepOn fp q = .ok q' ∧ Smoothed k r' q' := by
  rw [h.eq]
  obtain ⟨P, hP⟩ : ∃ P, q.pts = P := ⟨_, rfl⟩
  have hp : ∀ r' : Rd, r'.pts = P → PtsOk r' := fun r' e => by unfold PtsOk; rw [e, ← hP]; exact h.pts
  rw [hP]
  unfold stepOn at e ⊢
  simp only at e ⊢
  obtain ⟨d, e1, e⟩ := bind_ok_iff.1 e
  obtain ⟨st, e2, e⟩ := bind_ok_iff.1 e
  obtain ⟨p1, e3, e⟩ := bind_ok_iff.1 e
  rw [e1]
  simp only [ok_bind, e2, e3]
  split at e
  · rename_i hc
    obtain ⟨p2, e4, e⟩ := bind_ok_iff.1 e
    cases e
    rw [if_pos hc, e4]
    exact ⟨_, rfl, rfl, hp _ rfl⟩
  · rename_i hc
    cases e
    rw [if_neg hc]
    exact ⟨_, rfl, rfl, hp _ rfl⟩

theorem Smoothed.loop (hfp : Representable fp) (hS : Steady S Q) {fuel : Nat} : ∀ (n : Nat) {r q : Rd}, Calm k r → 0 ≤ r.nch → Smoothed k r q → ∀ {s t : σ}, Q s t → ∀ {o : ReadOut σ}, readLoop fp S fuel n r s = .ok o →
    Calm k o.r ∧ ∃ o', readLoop fp S fuel n q t = .ok o' ∧ Smoothed k o.r o'.r ∧ Q o.s o'.s ∧ o'.frames.length = o.frames.length
  | 0, r, q, hr, _, h, s, t, hQ, o, e => by
    unfold readLoop at e ⊢
    cases e
    exact ⟨hr, _, rfl, h, hQ, rfl⟩
  | n + 1, r, q, hr, hn, h, s, t, hQ, o, e => by
    rw [readLoop_succ] at e ⊢
    have hd : q.dual = false := by rw [h.eq]; exact hr.dual
    have hnq : q.nch = r.nch := by rw [h.eq]
    simp only [hr.dual, hd, Bool.false_eq_true, if_false, ok_bind] at e ⊢
    obtain ⟨⟨vs, ok, r1, s1⟩, e1, e⟩ := bind_ok_iff.1 e
    rw [hnq]
    obtain ⟨f1, ws, q1, t1, f2, f3, f4⟩ := h.frame hS r.nch.toNat 0 hr hQ (by omega) e1
    rw [f2]
    simp only [ok_bind] at e ⊢
    cases ok with
    | false =>
      simp only [Bool.false_eq_true, if_false] at e ⊢
      cases e
      exact ⟨f1, _, rfl, f3, f4, rfl⟩
    | true =>
      simp only [if_true] at e ⊢
      obtain ⟨r2, e2, e⟩ := bind_ok_iff.1 e
      obtain ⟨o1, e3, e⟩ := bind_ok_iff.1 e
      cases e
      obtain ⟨c1, c2⟩ := f1.step hfp e2
      obtain ⟨q2, d1, d2⟩ := f3.step e2
      rw [d1]
      have hn1 : r1.nch = r.nch := (readFrame_cases e1).1.nch
      obtain ⟨g1, o', g2, g3, g4, g5⟩ := Smoothed.loop hfp hS n c1 (by rw [c2, hn1]; exact hn) d2 f4 e3
      simp only [ok_bind, g2]
      exact ⟨g1, _, rfl, g3, g4, by simp [g5]⟩

theorem Smoothed.read (hfp : Representable fp) (hS : Steady S Q) {fuel n : Nat} {r q : Rd} (hr : Calm k r) (h : Smoothed k r q) {s t : σ} (hQ : Q s t) {o : ReadOut σ} (e : r.read fp S fuel s n = .ok o) :
    Calm k o.r ∧ ∃ o', q.read fp S fuel t n = .ok o' ∧ Smoothed k o.r o'.r ∧ Q o.s o'.s ∧ o'.frames.length = o.frames.length := by
  have hp : q.playing = r.playing := by rw [h.eq]
  have hnq : q.nch = r.nch := by rw [h.eq]
  unfold Rd.read at e ⊢
  rw [hp, hnq]
  split at e
  · rename_i hc; rw [if_pos hc]; cases e; exact ⟨hr, _, rfl, h, hQ, rfl⟩
  · rename_i hc
    rw [if_neg hc]
    split at e
    · cases e
    · rename_i hneg
      rw [if_neg hneg]
      split at e
      · rename_i hz
        rw [if_pos hz]
        split at e
        · rename_i hn; rw [if_pos hn]; cases e; exact ⟨hr, _, rfl, h, hQ, rfl⟩
        · cases e
      · rename_i hz
        rw [if_neg hz]
        exact h.loop hfp hS n hr (by omega) hQ e

end smooth

/-! ## Reading again from a cache -/

theorem findWithIndex_again (k : Int) : ∀ bs : List Buf, (findWithIndex k (findWithIndex k bs).1).1 = (findWithIndex k bs).1 ∧
    (findWithIndex k (findWithIndex k bs).1).2.map Buf.data = (findWithIndex k bs).2.map Buf.data
  | [] => ⟨rfl, rfl⟩
  | x :: xs => by
    obtain ⟨h1, h2⟩ := findWithIndex_again k xs
    by_cases hx : x.index = k ∧ x.size > 0
    · have e : findWithIndex k (x :: xs) = ({ x with status := .read } :: xs, some x) := by rw [findWithIndex, if_pos hx]
      rw [e]
      simp only
      rw [findWithIndex, if_pos (by exact hx)]
      exact ⟨rfl, rfl⟩
    · have e : findWithIndex k (x :: xs) = ((if x.status = .read then x else { x with status := .unused }) :: (findWithIndex k xs).1, (findWithIndex k xs).2) := by
        rw [findWithIndex, if_neg hx]
      rw [e]
      simp only
      rw [findWithIndex]
      by_cases hs : x.status = .read
      · simp only [if_pos hs]
        rw [if_neg hx]
        exact ⟨by rw [h1], h2⟩
      · simp only [if_neg hs]
        rw [if_neg (by exact hx), if_neg (by simp)]
        exact ⟨by rw [h1], h2⟩

variable {m : List Nat} {g : Geo} {fp : Fp}

theorem Cache.get_but (g : Geo) (c : Cache) (n : Nat) (i : Int) :
    ({ c with fails := n } : Cache).get g i = ((c.get g i).1, { (c.get g i).2 with fails := n + ((c.get g i).2.fails - c.fails) }) := by
  unfold Cache.get
  simp only
  rcases findWithIndex (u32 (i / g.B)) c.bufs with ⟨bs, _ | b⟩
  · simp only; congr 2; omega
  · simp only; congr 2; omega

theorem Cache.get_twice (g : Geo) (c : Cache) (i : Int) : ((c.get g i).2).get g i = ((c.get g i).1, { (c.get g i).2 with fails := (c.get g i).2.fails + ((c.get g i).2.fails - c.fails) }) := by
  obtain ⟨h1, h2⟩ := findWithIndex_again (u32 (i / g.B)) c.bufs
  unfold Cache.get
  rcases e : findWithIndex (u32 (i / g.B)) c.bufs with ⟨bs, _ | b⟩
  · rw [e] at h1 h2
    simp only at h1 h2 ⊢
    rcases e' : findWithIndex (u32 (i / g.B)) bs with ⟨bs', _ | b'⟩
    · rw [e'] at h1
      simp only at h1 ⊢
      rw [h1]; congr 2; omega
    · rw [e'] at h2; cases h2
  · rw [e] at h1 h2
    simp only at h1 h2 ⊢
    rcases e' : findWithIndex (u32 (i / g.B)) bs with ⟨bs', _ | b'⟩
    · rw [e'] at h2; cases h2
    · rw [e'] at h1 h2
      simp only [Option.map_some, Option.some.injEq] at h1 h2 ⊢
      rw [h1, h2]; congr 2; omega

/-- The same cache, except that more misses may have been counted if there was one at all. -/
def UpToMisses (s t : Option Cache) : Prop := ∃ c n, s = some c ∧ t = some { c with fails := n } ∧ (c.fails = 0 → n = 0)

theorem UpToMisses.eq {s t : Option Cache} (h : UpToMisses s t) (hf : ∀ c, s = some c → c.fails = 0) : t = s := by
  obtain ⟨c, n, rfl, rfl, h⟩ := h
  have := hf c rfl
  rw [h this, ← this]

theorem UpToMisses.refl (c : Cache) : UpToMisses (some c) (some c) := ⟨c, c.fails, rfl, rfl, id⟩

open Classical in
/-- A cache as a source that only serves what is in the file and is right. -/
noncomputable def sureSrc (m : List Nat) (g : Geo) : Src (Option Cache) where
  get s i :=
    match s with
    | none => .error .nullDeref
    | some c => if InFile m i ∧ (c.get g i).1 = fileSample m i.toNat then .ok ((c.get g i).1, some (c.get g i).2) else .error .outOfBounds

theorem sureSrc_inv {s s' : Option Cache} {i v : Int} (h : (sureSrc m g).get s i = .ok (v, s')) :
    ∃ c, s = some c ∧ InFile m i ∧ (c.get g i).1 = fileSample m i.toNat ∧ v = (c.get g i).1 ∧ s' = some (c.get g i).2 := by
  cases s with
  | none => cases h
  | some c =>
    simp only [sureSrc] at h
    split at h
    · rename_i hc; cases h; exact ⟨c, rfl, hc.1, hc.2, rfl, rfl⟩
    · cases h

theorem sureSrc_ok {c : Cache} {i : Int} (h1 : InFile m i) (h2 : (c.get g i).1 = fileSample m i.toNat) :
    (sureSrc m g).get (some c) i = .ok ((c.get g i).1, some (c.get g i).2) := by
  simp only [sureSrc]
  rw [if_pos ⟨h1, h2⟩]

theorem Cache.get_fails (g : Geo) (c : Cache) (i : Int) : c.fails ≤ (c.get g i).2.fails := by
  unfold Cache.get
  split
  · exact le_refl _
  · exact Nat.le_succ _

theorem Cache.get_i16 (g : Geo) (c : Cache) (i : Int) : InI16 (c.get g i).1 := by
  unfold Cache.get
  split
  · simp only; unfold sampleAt i16 InI16; omega
  · simp only; unfold InI16; omega

theorem sureSrc_steady : Steady (sureSrc m g) UpToMisses := by
  rintro s t i v s' ⟨c, n, rfl, rfl, h⟩ e
  obtain ⟨_, e0, h1, h2, rfl, rfl⟩ := sureSrc_inv e
  cases e0
  have hle := c.get_fails g i
  refine ⟨c.get_i16 g i, ?_, ?_⟩
  · have k := Cache.get_but g c n i
    refine ⟨_, ?_, (c.get g i).2, n + ((c.get g i).2.fails - c.fails), rfl, rfl, fun hz => ?_⟩
    · rw [sureSrc_ok h1 (by rw [k]; exact h2), k]
    · have := h (by omega); omega
  · rintro u ⟨_, n', e1, rfl, h'⟩
    cases e1
    have k := Cache.get_but g (c.get g i).2 n' i
    have k2 := Cache.get_twice g c i
    refine ⟨_, ?_, (c.get g i).2, n' + ((c.get g i).2.fails - c.fails), rfl, rfl, fun hz => ?_⟩
    · have k3 : ({ (c.get g i).2 with fails := n' } : Cache).get g i = ((c.get g i).1, { (c.get g i).2 with fails := n' + ((c.get g i).2.fails - c.fails) }) := by
        rw [k, k2]
        simp only
        congr 2; omega
      rw [sureSrc_ok h1 (by rw [k3]; exact h2), k3]
    · have := h' hz; omega

theorem sureSrc_file (nullOk : Bool) : SrcSim (sureSrc m g) (fileSrc g nullOk) (fun s t => s = t) := by
  rintro s _ i v s' rfl e
  obtain ⟨c, rfl, _, _, rfl, rfl⟩ := sureSrc_inv e
  exact ⟨_, rfl, rfl⟩

theorem arraySrc_in {i : Int} (h : InFile m i) : arraySrc.get (some (samplesOf m)) i = .ok (fileSample m i.toNat, some (samplesOf m)) := by
  have hs : (samplesOf m)[i.toNat]? = some (fileSample m i.toNat) := by
    unfold samplesOf
    rw [List.getElem?_map, List.getElem?_range (by have := h.1; have := h.2; omega)]; rfl
  simp only [arraySrc]
  rw [if_pos h.1, hs]

theorem arraySrc_out {s' : Option (List Int)} {i v : Int} (h : arraySrc.get (some (samplesOf m)) i = .ok (v, s')) : InFile m i ∧ v = fileSample m i.toNat := by
  simp only [arraySrc] at h
  by_cases h0 : 0 ≤ i
  · rw [if_pos h0] at h
    cases hv : (samplesOf m)[i.toNat]? with
    | none => rw [hv] at h; cases h
    | some x =>
      rw [hv] at h
      cases h
      obtain ⟨hlt, hx⟩ := List.getElem?_eq_some_iff.1 hv
      have hlen : (samplesOf m).length = m.length / 2 := by unfold samplesOf; simp
      refine ⟨⟨h0, by omega⟩, ?_⟩
      have hs : (samplesOf m)[i.toNat]? = some (fileSample m i.toNat) := by
        unfold samplesOf; rw [List.getElem?_map, List.getElem?_range (by omega)]; rfl
      rw [hs] at hv; injection hv with hv; exact hv.symm
  · rw [if_neg h0] at h; cases h

theorem sureSrc_array : SrcSim (sureSrc m g) arraySrc (fun _ t => t = some (samplesOf m)) := by
  rintro s _ i v s' rfl e
  obtain ⟨c, rfl, h1, h2, rfl, rfl⟩ := sureSrc_inv e
  rw [h2]
  exact ⟨_, arraySrc_in h1, rfl⟩

/-! ## Plain readers that read the same from the file and from memory read what is right -/

theorem next_sure (nullOk : Bool) {r r1 r2 : Rd} (hr : Bare r) {s s1 : Option (List Int)} {c c' : Option Cache} {ch : Nat} {o : Option Int} (hs : s = some (samplesOf m)) (hc : c.isSome = true)
    (e1 : readNextValue fp arraySrc r s ch = .ok (o, r1, s1)) (e2 : readNextValue fp (fileSrc g nullOk) r c ch = .ok (o, r2, c')) :
    readNextValue fp (sureSrc m g) r c ch = .ok (o, r2, c') ∧ r1 = r ∧ r2 = r ∧ s1 = s ∧ c'.isSome = true := by
  subst hs
  unfold readNextValue at e1 e2 ⊢
  split at e1
  · rename_i he
    rw [if_pos he] at e2 ⊢
    cases e1; cases e2
    exact ⟨rfl, rfl, rfl, rfl, hc⟩
  · rename_i he
    rw [if_neg he] at e2 ⊢
    obtain ⟨⟨v, s2⟩, b1, e1⟩ := bind_ok_iff.1 e1
    obtain ⟨⟨w, c2⟩, b2, e2⟩ := bind_ok_iff.1 e2
    rw [hr.2] at e1 e2 ⊢
    cases e1; cases e2
    unfold baseVal at b1 b2 ⊢
    rw [if_pos (by rw [hr.1]; rfl)] at b1 b2 ⊢
    unfold srcVal at b1 b2 ⊢
    obtain ⟨p, hp, b1⟩ := bind_ok_iff.1 b1
    obtain ⟨q, hq, b1⟩ := bind_ok_iff.1 b1
    rw [hp] at b2 ⊢
    simp only [ok_bind, hq] at b2 ⊢
    obtain ⟨d, rfl⟩ := Option.isSome_iff_exists.1 hc
    obtain ⟨i1, i2⟩ := arraySrc_out b1
    cases b2
    rw [sureSrc_ok i1 i2]
    exact ⟨rfl, trivial, trivial, arraySrc_const _ _ _ _ _ rfl b1, rfl⟩

theorem chan_sure (nullOk : Bool) : ∀ (fuel : Nat) {r r1 r2 : Rd}, Bare r → ∀ {s s1 : Option (List Int)} {c c' : Option Cache} {ch : Nat} {o : Option Int}, s = some (samplesOf m) → c.isSome = true →
    readChan fp arraySrc fuel r s ch = .ok (o, r1, s1) → readChan fp (fileSrc g nullOk) fuel r c ch = .ok (o, r2, c') →
    readChan fp (sureSrc m g) fuel r c ch = .ok (o, r2, c') ∧ r1 = r2 ∧ Bare r2 ∧ s1 = s ∧ c'.isSome = true
  | 0, r, r1, r2, _, s, s1, c, c', ch, o, _, _, e, _ => by unfold readChan at e; cases e
  | fuel + 1, r, r1, r2, hr, s, s1, c, c', ch, o, hs, hc, e1, e2 => by
    unfold readChan at e1 e2 ⊢
    replace e1 := bind_ok_iff.1 e1
    replace e2 := bind_ok_iff.1 e2
    obtain ⟨⟨o1, q1, s2⟩, a1, e1⟩ := e1
    obtain ⟨⟨o2, q2, c2⟩, a2, e2⟩ := e2
    have ho : o1 = o2 := by
      cases o1 with
      | none =>
        have j := (readNextValue_none a1).1
        rw [readNextValue_atEnd fp _ j] at a2
        cases a2; rfl
      | some v =>
        cases o2 with
        | none =>
          have j := (readNextValue_none a2).1
          rw [readNextValue_atEnd fp _ j] at a1
          cases a1
        | some w => cases e1; cases e2; rfl
    subst ho
    obtain ⟨k1, k2, k3, k4, k5⟩ := next_sure nullOk hr hs hc a1 a2
    subst k2 k3 k4
    rw [k1]
    simp only [ok_bind]
    cases o1 with
    | some v => cases e1; cases e2; exact ⟨rfl, rfl, hr, rfl, k5⟩
    | none =>
      simp only at e1 e2 ⊢
      cases hw : wrapAround q2 with
      | none => rw [hw] at e1 e2; cases e1; cases e2; exact ⟨rfl, rfl, hr, rfl, k5⟩
      | some q3 =>
        rw [hw] at e1 e2
        exact chan_sure nullOk fuel (wrapAround_bare hr hw) hs k5 e1 e2

theorem frame_sure (nullOk : Bool) {fuel : Nat} : ∀ (left ch : Nat) {r r1 r2 : Rd}, Bare r → ∀ {s s1 : Option (List Int)} {c c' : Option Cache} {vs : List Int} {ok ok' : Bool}, s = some (samplesOf m) → c.isSome = true →
    readFrame fp arraySrc fuel left ch r s = .ok (vs, ok, r1, s1) → readFrame fp (fileSrc g nullOk) fuel left ch r c = .ok (vs, ok', r2, c') →
    readFrame fp (sureSrc m g) fuel left ch r c = .ok (vs, ok', r2, c') ∧ ok = ok' ∧ r1 = r2 ∧ Bare r2 ∧ s1 = s ∧ c'.isSome = true
  | 0, ch, r, r1, r2, hr, s, s1, c, c', vs, ok, ok', hs, hc, e1, e2 => by
    unfold readFrame at e1 e2 ⊢
    cases e1; cases e2
    exact ⟨rfl, rfl, rfl, hr, rfl, hc⟩
  | left + 1, ch, r, r1, r2, hr, s, s1, c, c', vs, ok, ok', hs, hc, e1, e2 => by
    unfold readFrame at e1 e2 ⊢
    replace e1 := bind_ok_iff.1 e1
    replace e2 := bind_ok_iff.1 e2
    obtain ⟨⟨o1, q1, s2⟩, a1, e1⟩ := e1
    obtain ⟨⟨o2, q2, c2⟩, a2, e2⟩ := e2
    have ho : o1 = o2 := by
      cases o1 with
      | none =>
        cases o2 with
        | none => rfl
        | some w =>
          simp only at e1 e2
          obtain ⟨⟨ws, _, _, _⟩, _, e2⟩ := bind_ok_iff.1 e2
          cases e1; cases e2
      | some v =>
        simp only at e1
        obtain ⟨⟨ws, _, _, _⟩, _, e1⟩ := bind_ok_iff.1 e1
        cases o2 with
        | none => cases e1; cases e2
        | some w =>
          simp only at e2
          obtain ⟨⟨ws', _, _, _⟩, _, e2⟩ := bind_ok_iff.1 e2
          cases e1
          cases e2
          rfl
    subst ho
    obtain ⟨k1, k2, k3, k4, k5⟩ := chan_sure nullOk fuel hr hs hc a1 a2
    subst k2 k4
    rw [k1]
    simp only [ok_bind]
    cases o1 with
    | none => cases e1; cases e2; exact ⟨rfl, rfl, rfl, k3, rfl, k5⟩
    | some v =>
      simp only at e1 e2 ⊢
      replace e1 := bind_ok_iff.1 e1
      replace e2 := bind_ok_iff.1 e2
      obtain ⟨⟨ws, b1, q3, s3⟩, a3, e1⟩ := e1
      obtain ⟨⟨ws', b2, q4, c3⟩, a4, e2⟩ := e2
      cases e1
      cases e2
      obtain ⟨f1, f2, f3, f4, f5, f6⟩ := frame_sure nullOk left (ch + 1) k3 hs k5 a3 a4
      rw [f1]
      exact ⟨rfl, f2, f3, f4, f5, f6⟩

theorem loop_sure (nullOk : Bool) {fuel : Nat} : ∀ (n : Nat) {r : Rd}, Bare r → ∀ {s : Option (List Int)} {c : Option Cache} {o1 : ReadOut (Option (List Int))} {o2 : ReadOut (Option Cache)}, s = some (samplesOf m) → c.isSome = true →
    readLoop fp arraySrc fuel n r s = .ok o1 → readLoop fp (fileSrc g nullOk) fuel n r c = .ok o2 → o1.frames = o2.frames →
    readLoop fp (sureSrc m g) fuel n r c = .ok o2
  | 0, r, hr, s, c, o1, o2, hs, hc, e1, e2, _ => by
    unfold readLoop at e1 e2 ⊢
    exact e2
  | n + 1, r, hr, s, c, o1, o2, hs, hc, e1, e2, he => by
    have x1 := (readLoop_conf e1).2.1
    have x2 := (readLoop_conf e2).2.1
    rw [readLoop_succ] at e1 e2 ⊢
    simp only [hr.1, Bool.false_eq_true, if_false, ok_bind] at e1 e2 ⊢
    replace e1 := bind_ok_iff.1 e1
    replace e2 := bind_ok_iff.1 e2
    obtain ⟨⟨vs, b1, q1, s2⟩, a1, e1⟩ := e1
    obtain ⟨⟨ws, b2, q2, c2⟩, a2, e2⟩ := e2
    have hv : vs = ws := by
      cases b1 with
      | false =>
        cases b2 with
        | false =>
          simp only [Bool.false_eq_true, if_false] at e1 e2
          cases e1; cases e2
          rw [show vs = [] from x1, show ws = [] from x2]
        | true =>
          simp only [Bool.false_eq_true, if_false, if_true] at e1 e2
          obtain ⟨_, _, e2⟩ := bind_ok_iff.1 e2
          obtain ⟨_, _, e2⟩ := bind_ok_iff.1 e2
          cases e1; cases e2; cases he
      | true =>
        simp only [if_true] at e1
        obtain ⟨_, _, e1⟩ := bind_ok_iff.1 e1
        obtain ⟨_, _, e1⟩ := bind_ok_iff.1 e1
        cases b2 with
        | false =>
          simp only [Bool.false_eq_true, if_false] at e2
          cases e1; cases e2; cases he
        | true =>
          simp only [if_true] at e2
          obtain ⟨_, _, e2⟩ := bind_ok_iff.1 e2
          obtain ⟨_, _, e2⟩ := bind_ok_iff.1 e2
          cases e1; cases e2
          simp only [List.cons.injEq] at he
          exact he.1
    subst hv
    obtain ⟨k1, k2, k3, k4, k5, k6⟩ := frame_sure nullOk _ 0 hr hs hc a1 a2
    subst k2 k3 k5
    rw [k1]
    simp only [ok_bind]
    cases b1 with
    | false => exact e2
    | true =>
      simp only [if_true] at e1 e2 ⊢
      replace e1 := bind_ok_iff.1 e1
      replace e2 := bind_ok_iff.1 e2
      obtain ⟨q3, a3, e1⟩ := e1
      obtain ⟨q3', a3', e2⟩ := e2
      rw [a3] at a3' ⊢
      cases a3'
      replace e1 := bind_ok_iff.1 e1
      replace e2 := bind_ok_iff.1 e2
      obtain ⟨o3, a4, e1⟩ := e1
      obtain ⟨o4, a5, e2⟩ := e2
      cases e1
      cases e2
      simp only [List.cons.injEq] at he
      rw [ok_bind, loop_sure nullOk n (stepOn_bare k4 a3) hs k6 a4 a5 he.2]
      rfl

theorem read_sure (nullOk : Bool) {fuel n : Nat} {r : Rd} (hr : Bare r) {c : Option Cache} {o1 : ReadOut (Option (List Int))} {o2 : ReadOut (Option Cache)} (hc : c.isSome = true)
    (e1 : r.read fp arraySrc fuel (some (samplesOf m)) n = .ok o1) (e2 : r.read fp (fileSrc g nullOk) fuel c n = .ok o2) (he : o1.frames = o2.frames) :
    r.read fp (sureSrc m g) fuel c n = .ok o2 := by
  unfold Rd.read at e1 e2 ⊢
  by_cases h1 : (!r.playing) = true
  · rw [if_pos h1] at e2 ⊢; exact e2
  · rw [if_neg h1] at e1 e2 ⊢
    by_cases h2 : r.nch < 0
    · rw [if_pos h2] at e2; cases e2
    · rw [if_neg h2] at e1 e2 ⊢
      by_cases h3 : r.nch = 0
      · rw [if_pos h3] at e2 ⊢; exact e2
      · rw [if_neg h3] at e1 e2 ⊢
        exact loop_sure nullOk n hr rfl hc e1 e2 he

/-! ## Frames and blocks -/

theorem map_getD_inj : ∀ {fs fs' : List (List Int)} {n : Nat}, fs.length = fs'.length → (∀ f ∈ fs, f.length = n) → (∀ f ∈ fs', f.length = n) →
    (∀ ch, ch < n → fs.map (·.getD ch 0) = fs'.map (·.getD ch 0)) → fs = fs'
  | [], [], _, _, _, _, _ => rfl
  | [], _ :: _, _, h, _, _, _ => by cases h
  | _ :: _, [], _, h, _, _, _ => by cases h
  | f :: fs, f' :: fs', n, h, h1, h2, h3 => by
    have e1 := h1 f List.mem_cons_self
    have e2 := h2 f' List.mem_cons_self
    congr 1
    · refine List.ext_getElem (by rw [e1, e2]) fun i hi hi' => ?_
      have := h3 i (by omega)
      simp only [List.map_cons, List.cons.injEq] at this
      have := this.1
      rw [List.getD_eq_getElem?_getD, List.getD_eq_getElem?_getD, List.getElem?_eq_getElem hi, List.getElem?_eq_getElem hi'] at this
      exact this
    · refine map_getD_inj (by simpa using h) (fun f hf => h1 f (List.mem_cons_of_mem _ hf)) (fun f hf => h2 f (List.mem_cons_of_mem _ hf)) fun ch hch => ?_
      have := h3 ch hch
      simp only [List.map_cons, List.cons.injEq] at this
      exact this.2

theorem fxOf_inj {nch : Int} {fs fs' : List (List Int)} {alloc : Nat → Bool} (hl : fs.length = fs'.length) (h1 : ∀ f ∈ fs, f.length = nch.toNat) (h2 : ∀ f ∈ fs', f.length = nch.toNat)
    (h : fxOf nch fs alloc = fxOf nch fs' alloc) : fs = fs' := by
  refine map_getD_inj hl h1 h2 fun ch hch => ?_
  have ht := congrArg Fx.transmitted h
  unfold fxOf at ht
  simp only at ht
  have hm := (List.append_inj ht (by simp)).1
  have := List.map_inj_left.1 hm ch (List.mem_range.2 hch)
  have hb : blockOf fs ch = blockOf fs' ch := (Prod.mk.inj this).1
  unfold blockOf at hb
  exact (List.append_inj hb (by simp [hl])).1

theorem read_frames {σ : Type} {S : Src σ} {fuel n : Nat} {r : Rd} {s : σ} {o : ReadOut σ} (h : r.read fp S fuel s n = .ok o) : ∀ f ∈ o.frames, f.length = r.nch.toNat := by
  unfold Rd.read at h
  split at h
  · cases h; intro f hf; cases hf
  · split at h
    · cases h
    · split at h
      · split at h
        · cases h; intro f hf; cases hf
        · cases h
      · exact (readLoop_conf h).2.2.2

theorem arrayFile_rel (nullOk : Bool) : SrcRel arraySrc (fileSrc g nullOk) (fun s t => s = some (samplesOf m) ∧ t.isSome = true) (fun _ _ => True) := by
  rintro s t i v s' ⟨rfl, ht⟩ e
  obtain ⟨c, rfl⟩ := Option.isSome_iff_exists.1 ht
  exact ⟨_, _, rfl, trivial, arraySrc_const _ _ _ _ _ rfl e, rfl⟩

/-! ## The three players -/

/-- A plain streaming player `p`; `a`, the same with interpolation; and `b`, like `a` with the file in memory. -/
structure Beside (k : Interp) (m : List Nat) (p a : FileReader) (b : ArrayReader) : Prop where
  rd : b.rd = a.rd
  src : a.src = p.src
  mem : b.src = some (samplesOf m)
  smooth : Smoothed k p.rd a.rd
  calm : p.rd.playing = true → Calm k p.rd
  chans : 0 < p.rd.nch
  held : ∀ c, p.src = some c → c.fails = 0
  live : p.rd.playing = true → p.src.isSome = true

variable {k : Interp}

theorem Beside.tick (hfp : Representable fp) {nullOk : Bool} {fuel : Nat} {p p' a : FileReader} {b b0 : ArrayReader} {fx : Fx} {alloc : Nat → Bool} (h : Beside k m p a b)
    (e1 : p.tick fp g nullOk fuel alloc = .ok (fx, p')) (e2 : ArrayReader.tick fp fuel ⟨p.rd, some (samplesOf m)⟩ alloc = .ok (fx, b0)) (hf : ∀ c, p'.src = some c → c.fails = 0) :
    ∃ fx' a' b', a.tick fp g nullOk fuel alloc = .ok (fx', a') ∧ b.tick fp fuel alloc = .ok (fx', b') ∧ Beside k m p' a' b' ∧ b0.rd = p'.rd ∧ b0.src = some (samplesOf m) := by
  obtain ⟨r, src⟩ := p
  obtain ⟨q, src1⟩ := a
  obtain ⟨q1, src2⟩ := b
  obtain ⟨h1, h2, h3, h4, h5, h6, h7, h8⟩ := id h
  simp only at h1 h2 h3 h4 h5 h6 h7 h8
  subst h1 h2 h3
  have hqp : q1.playing = r.playing := by rw [h4.eq]
  have hqn : q1.nch = r.nch := by rw [h4.eq]
  unfold FileReader.tick ArrayReader.tick FileReader.update ArrayReader.update at *
  simp only [hqp, hqn] at *
  cases hp : r.playing with
  | false =>
    rw [hp] at e1 e2
    rw [update_off h6] at e1 e2
    rw [update_off h6, update_off h6]
    cases e1
    cases e2
    exact ⟨_, _, _, rfl, rfl, h, rfl, rfl⟩
  | true =>
    rw [hp] at e1 e2
    by_cases ha : ((List.range r.nch.toNat).filter alloc).length = (List.range r.nch.toNat).length
    · rw [update_on h6 _ _ _ ha] at e1 e2
      rw [update_on h6 _ _ _ ha, update_on h6 _ _ _ ha]
      simp only [FileReader.read, ArrayReader.read] at e1 e2 ⊢
      have hc := h5 hp
      have hbare : Bare r := ⟨hc.dual, hc.interp⟩
      have hsome := h8 hp
      cases er1 : r.read fp (fileSrc g nullOk) fuel src1 blockSamples with
      | error e => rw [er1] at e1; cases e1
      | ok o2 =>
      cases er2 : r.read fp arraySrc fuel (some (samplesOf m)) blockSamples with
      | error e => rw [er2] at e2; cases e2
      | ok o1 =>
      rw [er1] at e1
      rw [er2] at e2
      simp only [ok_bind, pure_eq_ok] at e1 e2
      obtain ⟨o2', g1, g2, g3, g4, g5, g6⟩ := read_rel (arrayFile_rel (m := m) (g := g) nullOk) (fp := fp) (fuel := fuel) (n := blockSamples) hbare (t := src1) ⟨rfl, hsome⟩ o1 er2
      rw [er1] at g1
      cases g1
      have hlen : o1.frames.length = o2.frames.length := g2.length_eq
      have hfx : fxOf r.nch o2.frames alloc = fx ∧ fxOf r.nch o1.frames alloc = fx := by
        constructor
        · revert e1
          cases (fxOf r.nch o2.frames alloc).event with
          | none => intro e1; cases e1; rfl
          | some ev =>
            intro e1
            simp only at e1
            obtain ⟨_, _, e1⟩ := bind_ok_iff.1 e1
            cases e1; rfl
        · revert e2
          cases (fxOf r.nch o1.frames alloc).event with
          | none => intro e2; cases e2; rfl
          | some ev => intro e2; cases e2; rfl
      have hfr : o1.frames = o2.frames := fxOf_inj hlen (read_frames er2) (read_frames er1) (hfx.2.trans hfx.1.symm)
      have hsure := read_sure nullOk hbare hsome er2 er1 hfr
      obtain ⟨c0, rfl⟩ := Option.isSome_iff_exists.1 hsome
      obtain ⟨s1, o3, s2, s3, s4, s5⟩ := h4.read hfp (sureSrc_steady (m := m) (g := g)) hc (UpToMisses.refl c0) hsure
      obtain ⟨o4, u1, u2, u3, u4, u5⟩ := read_ssim (sureSrc_file (m := m) (g := g) nullOk) (fp := fp) (fuel := fuel) (n := blockSamples) (r := q1) (t := some c0) rfl o3 s2
      obtain ⟨o5, v1, v2, v3, v4, v5⟩ := read_ssim (sureSrc_array (m := m) (g := g)) (fp := fp) (fuel := fuel) (n := blockSamples) (r := q1) (t := some (samplesOf m)) rfl o3 s2
      rw [u1, v1]
      simp only [ok_bind, pure_eq_ok, ← u2, ← v2]
      have hev : (fxOf r.nch o3.frames alloc).event = some (if o2.frames.length = blockSamples then .reload else .close) := by
        unfold fxOf; simp only [s5]
      have hev1 : (fxOf r.nch o1.frames alloc).event = some (if o2.frames.length = blockSamples then .reload else .close) := by
        unfold fxOf; simp only [hlen]
      have hev2 : (fxOf r.nch o2.frames alloc).event = some (if o2.frames.length = blockSamples then .reload else .close) := rfl
      rw [hev]
      rw [hev1] at e2
      rw [hev2] at e1
      have hn2 : o2.r.nch = r.nch := (read_conf er1).nch
      by_cases hfull : o2.frames.length = blockSamples
      · simp only [if_pos hfull, FileReader.service, ArrayReader.service, FileReader.triggerReload, ArrayReader.triggerReload] at e1 e2 ⊢
        obtain ⟨-, rfl⟩ := Prod.mk.inj (Except.ok.inj e2)
        obtain ⟨c1, n, w1, w2, w3⟩ := s4
        rw [w1] at e1
        simp only at e1
        obtain ⟨p1, e3, e1⟩ := bind_ok_iff.1 e1
        obtain ⟨-, rfl⟩ := Prod.mk.inj (Except.ok.inj e1)
        obtain ⟨c2, e4, e3⟩ := bind_ok_iff.1 e3
        cases e3
        have hz : c1.fails = 0 := by rw [← Cache.triggerReload_fails e4]; exact hf c2 rfl
        have hu : o4.s = some c1 := by
          rw [← u5, w2, w3 hz, ← hz]
        have hrate : o4.r.rate = o2.r.rate := by rw [← u4, s3.eq]
        rw [hu]
        simp only [hrate, e4, ok_bind, pure_eq_ok]
        refine ⟨_, _, _, rfl, rfl, ⟨by simp only; rw [← u4, ← v4], rfl, v5, by simp only; rw [← u4]; exact s3, fun _ => s1, by simp only; rw [hn2]; exact h6, hf, fun _ => rfl⟩, g3, g5⟩
      · simp only [if_neg hfull, FileReader.service, ArrayReader.service, FileReader.close, ArrayReader.close, pure_eq_ok, ok_bind] at e1 e2 ⊢
        obtain ⟨-, rfl⟩ := Prod.mk.inj (Except.ok.inj e1)
        obtain ⟨-, rfl⟩ := Prod.mk.inj (Except.ok.inj e2)
        refine ⟨_, _, _, rfl, rfl, ⟨by simp only; rw [← u4, ← v4], rfl, v5, ?_, fun h => (by simp only [Rd.stop] at h; cases h), by simp only [Rd.stop]; rw [hn2]; exact h6, fun _ h => (by cases h), fun h => (by simp only [Rd.stop] at h; cases h)⟩, by simp only; rw [g3], g5⟩
        simp only
        rw [← u4]
        refine ⟨?_, s3.pts⟩
        conv_lhs => rw [s3.eq]
        rfl
    · rw [update_short h6 _ _ _ ha] at e1 e2
      rw [update_short h6 _ _ _ ha, update_short h6 _ _ _ ha]
      cases e1
      cases e2
      exact ⟨_, _, _, rfl, rfl, h, rfl, rfl⟩

end TVP
