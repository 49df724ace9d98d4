import Verif.Lemmas.ArrayPlay
import Verif.Lemmas.Drift

/-!
# Two readers that differ only in stale interpolation points deliver the same
-/

namespace TVP

/-- Two outcomes agree: related values or the same fault. -/
inductive MRel {α β : Type} (R : α → β → Prop) : M α → M β → Prop
  | ok {a b} : R a b → MRel R (.ok a) (.ok b)
  | error (e : Fault) : MRel R (.error e) (.error e)

theorem MRel.bind {α β α' β' : Type} {R : α → β → Prop} {Q : α' → β' → Prop} {x : M α} {y : M β}
    {f : α → M α'} {g : β → M β'} (h : MRel R x y) (hf : ∀ a b, R a b → MRel Q (f a) (g b)) :
    MRel Q (x >>= f) (y >>= g) := by
  cases h with
  | ok h => exact hf _ _ h
  | error e => exact .error e

theorem MRel.same {α : Type} {R : α → α → Prop} (x : M α) (h : ∀ a, R a a) : MRel R x x := by
  cases x with
  | ok a => exact .ok (h a)
  | error e => exact .error e

/-- The same number of points, and the same ordinates in the ones counted. -/
structure PtsSim (p q : Pts) : Prop where
  n : q.n = p.n
  y3 : 1 ≤ p.n → q.y3 = p.y3
  y2 : 2 ≤ p.n → q.y2 = p.y2
  y1 : 3 ≤ p.n → q.y1 = p.y1
  y0 : 4 ≤ p.n → q.y0 = p.y0

/-- Readers that agree in everything but interpolation points and a second head that do not matter. -/
structure PSim (r q : Rd) : Prop where
  same : q = { r with pts := q.pts, pos2 := q.pos2 }
  head : r.cfOn = true → q.pos2 = r.pos2
  pts : r.interp = .none ∨ (r.interp = .quadratic ∧ ∀ c, c < 8 → PtsSim (r.pts c) (q.pts c))

theorem PSim.refl (r : Rd) (h : r.interp ≠ .linear) : PSim r r := by
  refine ⟨rfl, fun _ => rfl, ?_⟩
  cases hi : r.interp with
  | none => exact Or.inl rfl
  | linear => exact absurd hi h
  | quadratic => exact Or.inr ⟨rfl, fun c _ => ⟨rfl, fun _ => rfl, fun _ => rfl, fun _ => rfl, fun _ => rfl⟩⟩

theorem PSim.eq {r q : Rd} (h : PSim r q) : ∃ p x, q = { r with pts := p, pos2 := x } ∧ (r.cfOn = true → x = r.pos2) :=
  ⟨q.pts, q.pos2, h.same, h.head⟩

theorem srcVal_sim {σ} (S : Src σ) {r q : Rd} (h : PSim r q) (s : σ) (pos off : Int) (ch : Nat) :
    srcVal S q s pos off ch = srcVal S r s pos off ch := by
  obtain ⟨p, x, rfl, _⟩ := h.eq; rfl

theorem addPoint_sim {r q : Rd} (h : PSim r q) (ch : Nat) (y : Int) :
    MRel PSim (addPoint r ch y) (addPoint q ch y) := by
  obtain ⟨hs, hh, hp⟩ := h
  have hi : q.interp = r.interp := by rw [hs]
  unfold addPoint
  rw [hi]
  rcases hp with hn | ⟨hq, hp⟩
  · rw [hn]; exact .ok ⟨hs, hh, Or.inl hn⟩
  · rw [hq]
    simp only
    split
    · rename_i hc
      obtain ⟨p1, p2, p3, p4, p5⟩ := hp ch hc
      refine .ok ⟨?_, hh, Or.inr ⟨rfl, ?_⟩⟩
      · rw [hs]
      · intro c hc'
        by_cases he : c = ch
        · subst he
          simp only [Function.update_self]
          refine ⟨by simp only; rw [p1], fun _ => rfl, ?_, ?_, ?_⟩ <;> simp only <;> intro hn
          · apply p2; split at hn <;> omega
          · apply p3; split at hn <;> omega
          · apply p4; split at hn <;> omega
        · simp only [Function.update_of_ne he]; exact hp c hc'
    · exact .error _

theorem pushLoop_sim (fp : Fp) {σ} (S : Src σ) (fwd : Bool) (ch : Nat) : ∀ (k : Nat) {r q : Rd} (s : σ), PSim r q →
    MRel (fun a b => PSim a.1 b.1 ∧ a.2 = b.2) (pushLoop fp S fwd ch k r s) (pushLoop fp S fwd ch k q s)
  | 0, r, q, s, h => .ok ⟨h, rfl⟩
  | k + 1, r, q, s, h => by
    unfold pushLoop
    simp only
    obtain ⟨p, x, hp, hx⟩ := h.eq
    have e1 : q.pos1 = r.pos1 := by rw [hp]
    have e2 : q.pos2 = x := by rw [hp]
    have e3 : q.dual = r.dual := by rw [hp]
    have e4 : q.cfOn = r.cfOn := by rw [hp]
    have e5 : q.loopType = r.loopType := by rw [hp]
    have e6 : q.crossfade = r.crossfade := by rw [hp]
    simp only [srcVal_sim S h, e1, e2, e3, e4, e5, e6]
    refine MRel.bind (MRel.same _ (R := (· = ·)) fun _ => rfl) ?_
    rintro ⟨y, s1⟩ _ rfl
    refine MRel.bind (R := (· = ·)) ?_ ?_
    · by_cases hc : r.cfOn = true
      · rw [hx hc]; exact MRel.same _ fun _ => rfl
      · simp only [hc, Bool.and_false, Bool.false_eq_true, if_false]; exact MRel.same _ fun _ => rfl
    rintro ⟨y, s2⟩ _ rfl
    refine MRel.bind (addPoint_sim h ch y) ?_
    intro a b hab
    exact pushLoop_sim fp S fwd ch k s2 hab

theorem quadVal_sim (fp : Fp) {σ} (S : Src σ) {r q : Rd} (h : PSim r q) (hq : r.interp = .quadratic) (s : σ) (ch : Nat) :
    MRel (fun a b => a.1 = b.1 ∧ PSim a.2.1 b.2.1 ∧ a.2.2 = b.2.2) (quadVal fp S r s ch) (quadVal fp S q s ch) := by
  unfold quadVal
  simp only
  obtain ⟨p, x, hp, hx⟩ := h.eq
  have e1 : q.rem = r.rem := by rw [hp]
  have e2 : q.rate = r.rate := by rw [hp]
  rw [e1, e2]
  refine MRel.bind (R := fun a b => PSim a.1 b.1 ∧ a.1.interp = .quadratic ∧ a.2 = b.2) ?_ ?_
  · have key : ∀ (b : Bool) (k : Nat), MRel (fun a b => PSim a.1 b.1 ∧ a.1.interp = .quadratic ∧ a.2 = b.2)
        (pushLoop fp S b ch k r s) (pushLoop fp S b ch k q s) := by
      intro b k
      have h1 := pushLoop_sim fp S b ch k s h
      have hi : ∀ a, pushLoop fp S b ch k r s = .ok a → a.1.interp = .quadratic := by
        intro a hx
        have := pushLoop_same (r' := a.1) (s' := a.2) hx
        rw [this]; exact hq
      generalize pushLoop fp S b ch k r s = x at h1 hi
      generalize pushLoop fp S b ch k q s = y at h1
      cases h1 with
      | error e => exact .error _
      | ok hab => exact .ok ⟨hab.1, hi _ rfl, hab.2⟩
    have base : MRel (fun a b : Rd × σ => PSim a.1 b.1 ∧ a.1.interp = .quadratic ∧ a.2 = b.2) (pure (r, s)) (pure (q, s)) :=
      .ok ⟨h, hq, rfl⟩
    split
    · split
      · refine MRel.bind (MRel.same _ (R := (· = ·)) fun _ => rfl) ?_
        rintro k _ rfl
        exact key true _
      · exact base
    · split
      · split
        · refine MRel.bind (MRel.same _ (R := (· = ·)) fun _ => rfl) ?_
          rintro k _ rfl
          exact key false _
        · exact base
      · exact base
  · rintro ⟨a, s1⟩ ⟨b, s2⟩ ⟨hab, hqa, rfl⟩
    simp only at *
    unfold ptsOf
    split
    · rename_i hc
      simp only [ok_bind]
      rcases hab.pts with hn | ⟨_, hps⟩
      · rw [hqa] at hn; cases hn
      · obtain ⟨p1, p2, p3, p4, p5⟩ := hps ch hc
        rw [p1]
        split
        · rename_i h4
          rw [p2 (by omega), p3 (by omega), p4 (by omega), p5 (by omega)]
          refine MRel.bind (MRel.same _ (R := (· = ·)) fun _ => rfl) ?_
          rintro v _ rfl
          exact .ok ⟨rfl, hab, rfl⟩
        · exact .ok ⟨rfl, hab, rfl⟩
    · exact .error _

theorem readNextValue_sim (fp : Fp) {σ} (S : Src σ) {r q : Rd} (h : PSim r q) (s : σ) (ch : Nat) :
    MRel (fun a b => a.1 = b.1 ∧ PSim a.2.1 b.2.1 ∧ a.2.2 = b.2.2) (readNextValue fp S r s ch) (readNextValue fp S q s ch) := by
  have hend : q.atEnd = r.atEnd := by rw [h.same]; rfl
  have hi : q.interp = r.interp := by rw [h.same]
  have hb : baseVal fp S q s ch = baseVal fp S r s ch := by
    obtain ⟨p, x, rfl, hx⟩ := h.eq
    by_cases hc : r.cfOn = true
    · rw [hx hc]; rfl
    · unfold baseVal
      rw [if_pos (by simp [hc]), if_pos (by simp [hc])]
      rfl
  unfold readNextValue
  rw [hend, hi, hb]
  split
  · exact .ok ⟨rfl, h, rfl⟩
  · refine MRel.bind (MRel.same _ (R := (· = ·)) fun _ => rfl) ?_
    rintro ⟨v, s1⟩ _ rfl
    simp only
    rcases h.pts with hn | ⟨hq, _⟩
    · rw [hn]; exact .ok ⟨rfl, h, rfl⟩
    · rw [hq]
      simp only
      refine MRel.bind (quadVal_sim fp S h hq s1 ch) ?_
      rintro ⟨v1, r1, t1⟩ ⟨v2, r2, t2⟩ ⟨rfl, b, rfl⟩
      exact .ok ⟨rfl, b, rfl⟩

theorem wrapAround_sim {r q : Rd} (h : PSim r q) :
    (wrapAround r = none ∧ wrapAround q = none) ∨ ∃ r' q', wrapAround r = some r' ∧ wrapAround q = some q' ∧ PSim r' q' := by
  obtain ⟨hs, hh, hp⟩ := h
  obtain ⟨p, x, rfl⟩ : ∃ p x, q = { r with pts := p, pos2 := x } := ⟨_, _, hs⟩
  unfold wrapAround
  simp only
  cases r.loopType with
  | none => exact Or.inl ⟨rfl, rfl⟩
  | «repeat» => exact Or.inr ⟨_, _, rfl, rfl, rfl, by simp, hp⟩
  | pingpong => exact Or.inr ⟨_, _, rfl, rfl, rfl, by simp, hp⟩

theorem readChan_sim (fp : Fp) {σ} (S : Src σ) : ∀ (fuel : Nat) {r q : Rd} (s : σ) (ch : Nat), PSim r q →
    MRel (fun a b => a.1 = b.1 ∧ PSim a.2.1 b.2.1 ∧ a.2.2 = b.2.2) (readChan fp S fuel r s ch) (readChan fp S fuel q s ch)
  | 0, r, q, s, ch, h => .error _
  | fuel + 1, r, q, s, ch, h => by
    unfold readChan
    refine MRel.bind (readNextValue_sim fp S h s ch) ?_
    rintro ⟨v1, r1, t1⟩ ⟨v2, r2, t2⟩ ⟨h1, h2, h3⟩
    simp only at h1 h2 h3
    subst h1 h3
    cases v1 with
    | some v => exact .ok ⟨rfl, h2, rfl⟩
    | none =>
      simp only
      rcases wrapAround_sim h2 with ⟨w1, w2⟩ | ⟨r', q', w1, w2, hw⟩
      · rw [w1, w2]
        refine .ok ⟨rfl, ⟨?_, by simp, h2.pts⟩, rfl⟩
        obtain ⟨p, x, rfl, _⟩ := h2.eq; rfl
      · rw [w1, w2]; exact readChan_sim fp S fuel t1 ch hw

theorem readFrame_sim (fp : Fp) {σ} (S : Src σ) (fuel : Nat) : ∀ (left ch : Nat) {r q : Rd} (s : σ), PSim r q →
    MRel (fun a b => a.1 = b.1 ∧ a.2.1 = b.2.1 ∧ PSim a.2.2.1 b.2.2.1 ∧ a.2.2.2 = b.2.2.2)
      (readFrame fp S fuel left ch r s) (readFrame fp S fuel left ch q s)
  | 0, ch, r, q, s, h => .ok ⟨rfl, rfl, h, rfl⟩
  | left + 1, ch, r, q, s, h => by
    unfold readFrame
    refine MRel.bind (readChan_sim fp S fuel s ch h) ?_
    rintro ⟨v1, r1, t1⟩ ⟨v2, r2, t2⟩ ⟨h1, h2, h3⟩
    simp only at h1 h2 h3
    subst h1 h3
    cases v1 with
    | none => exact .ok ⟨rfl, rfl, h2, rfl⟩
    | some v =>
      simp only
      refine MRel.bind (readFrame_sim fp S fuel left (ch + 1) t1 h2) ?_
      rintro ⟨w1, o1, q1, u1⟩ ⟨w2, o2, q2, u2⟩ ⟨k1, k2, k3, k4⟩
      simp only at k1 k2 k3 k4
      subst k1 k2 k4
      exact .ok ⟨rfl, rfl, k3, rfl⟩

theorem stepOn_sim (fp : Fp) {r q : Rd} (h : PSim r q) : MRel PSim (stepOn fp r) (stepOn fp q) := by
  obtain ⟨hs, hh, hp⟩ := h
  obtain ⟨p, x, rfl⟩ : ∃ p x, q = { r with pts := p, pos2 := x } := ⟨_, _, hs⟩
  simp only at hh
  unfold stepOn
  simp only
  refine MRel.bind (MRel.same _ (R := (· = ·)) fun _ => rfl) ?_
  rintro a _ rfl
  refine MRel.bind (MRel.same _ (R := (· = ·)) fun _ => rfl) ?_
  rintro b _ rfl
  refine MRel.bind (MRel.same _ (R := (· = ·)) fun _ => rfl) ?_
  rintro c _ rfl
  split
  · rename_i hc
    rw [hh hc]
    refine MRel.bind (MRel.same _ (R := (· = ·)) fun _ => rfl) ?_
    rintro d _ rfl
    exact .ok ⟨rfl, fun _ => rfl, hp⟩
  · rename_i hc
    exact .ok ⟨rfl, fun h => absurd h hc, hp⟩

theorem updateCrossfade_sim (fp : Fp) {r q : Rd} (h : PSim r q) : MRel PSim (updateCrossfade fp r) (updateCrossfade fp q) := by
  have hf : PSim (fadeEnter r) (fadeEnter q) := by
    obtain ⟨hs, hh, hp⟩ := h
    obtain ⟨p, x, rfl⟩ : ∃ p x, q = { r with pts := p, pos2 := x } := ⟨_, _, hs⟩
    have hpo : ∀ y, ({ r with pts := p, pos2 := x } : Rd).posOf y = r.posOf y := fun _ => rfl
    unfold fadeEnter
    simp only [hpo]
    split <;> split
    · exact ⟨rfl, fun _ => rfl, hp⟩
    · exact ⟨rfl, hh, hp⟩
    · exact ⟨rfl, fun _ => rfl, hp⟩
    · exact ⟨rfl, hh, hp⟩
  unfold updateCrossfade
  generalize fadeEnter r = r at hf
  generalize fadeEnter q = q at hf
  obtain ⟨hs, hh, hp⟩ := hf
  obtain ⟨p, x, rfl⟩ : ∃ p x, q = { r with pts := p, pos2 := x } := ⟨_, _, hs⟩
  simp only at hh
  have hpo : ∀ y, ({ r with pts := p, pos2 := x } : Rd).posOf y = r.posOf y := fun _ => rfl
  simp only [hpo]
  split
  · rename_i hc
    obtain rfl := hh hc
    refine MRel.bind (R := PSim) ?_ ?_
    · split
      · split
        · exact .ok ⟨rfl, fun _ => rfl, hp⟩
        · refine MRel.bind (R := (· = ·)) (MRel.same (fadeWeight fp r _) fun _ => rfl) ?_
          rintro w _ rfl
          exact .ok ⟨rfl, fun _ => rfl, hp⟩
      · split
        · exact .ok ⟨rfl, fun _ => rfl, hp⟩
        · refine MRel.bind (R := (· = ·)) (MRel.same (fadeWeight fp r _) fun _ => rfl) ?_
          rintro w _ rfl
          exact .ok ⟨rfl, fun _ => rfl, hp⟩
    · intro a b hab
      obtain ⟨hs', hh', hp'⟩ := hab
      obtain ⟨p', x', rfl⟩ : ∃ p' x', b = { a with pts := p', pos2 := x' } := ⟨_, _, hs'⟩
      simp only
      split
      · exact .ok ⟨rfl, hh', hp'⟩
      · exact .ok ⟨rfl, hh', hp'⟩
  · exact .ok ⟨rfl, hh, hp⟩

theorem readLoop_sim (fp : Fp) {σ} (S : Src σ) (fuel : Nat) : ∀ (n : Nat) {r q : Rd} (s : σ), PSim r q →
    MRel (fun a b => a.frames = b.frames ∧ a.extra = b.extra ∧ PSim a.r b.r ∧ a.s = b.s)
      (readLoop fp S fuel n r s) (readLoop fp S fuel n q s)
  | 0, r, q, s, h => .ok ⟨rfl, rfl, h, rfl⟩
  | n + 1, r, q, s, h => by
    rw [readLoop_succ, readLoop_succ]
    have hd : q.dual = r.dual := by rw [h.same]
    rw [hd]
    refine MRel.bind (R := PSim) ?_ ?_
    · split
      · exact updateCrossfade_sim fp h
      · exact .ok h
    · intro a b hab
      have hn : b.nch = a.nch := by rw [hab.same]
      rw [hn]
      refine MRel.bind (readFrame_sim fp S fuel _ 0 s hab) ?_
      rintro ⟨w1, o1, q1, u1⟩ ⟨w2, o2, q2, u2⟩ ⟨k1, k2, k3, k4⟩
      simp only at k1 k2 k3 k4
      subst k1 k2 k4
      simp only
      split
      · refine MRel.bind (stepOn_sim fp k3) ?_
        intro a' b' hab'
        refine MRel.bind (readLoop_sim fp S fuel n u1 hab') ?_
        rintro ⟨f1, e1, r1, s1⟩ ⟨f2, e2, r2, s2⟩ ⟨m1, m2, m3, m4⟩
        simp only at m1 m2 m3 m4
        subst m1 m2 m4
        exact .ok ⟨rfl, rfl, m3, rfl⟩
      · exact .ok ⟨rfl, rfl, k3, rfl⟩

theorem read_sim (fp : Fp) {σ} (S : Src σ) (fuel n : Nat) {r q : Rd} (s : σ) (h : PSim r q) :
    MRel (fun a b => a.frames = b.frames ∧ a.extra = b.extra ∧ PSim a.r b.r ∧ a.s = b.s)
      (r.read fp S fuel s n) (q.read fp S fuel s n) := by
  have e1 : q.playing = r.playing := by rw [h.same]
  have e2 : q.nch = r.nch := by rw [h.same]
  unfold Rd.read
  rw [e1, e2]
  split
  · exact .ok ⟨rfl, rfl, h, rfl⟩
  · split
    · exact .error _
    · split
      · split
        · exact .ok ⟨rfl, rfl, h, rfl⟩
        · exact .error _
      · exact readLoop_sim fp S fuel n s h

theorem readAll_sim (fp : Fp) (fuel : Nat) : ∀ (ns : List Nat) {a b : ArrayReader}, PSim a.rd b.rd → a.src = b.src →
    MRel (fun x y => x.1 = y.1 ∧ PSim x.2.rd y.2.rd ∧ x.2.src = y.2.src) (readAll fp fuel ns a) (readAll fp fuel ns b)
  | [], a, b, h, hs => .ok ⟨rfl, h, hs⟩
  | n :: ns, a, b, h, hs => by
    unfold readAll ArrayReader.read
    rw [← hs]
    refine MRel.bind (R := fun x y => x.1 = y.1 ∧ PSim x.2.rd y.2.rd ∧ x.2.src = y.2.src) ?_ ?_
    · refine MRel.bind (read_sim fp arraySrc fuel n a.src h) ?_
      rintro ⟨f1, e1, r1, s1⟩ ⟨f2, e2, r2, s2⟩ ⟨m1, m2, m3, m4⟩
      exact .ok ⟨m1, m3, m4⟩
    · rintro ⟨f1, a1⟩ ⟨f2, a2⟩ ⟨m1, m2, m3⟩
      simp only at m1 m2 m3
      subst m1
      refine MRel.bind (readAll_sim fp fuel ns m2 m3) ?_
      rintro ⟨f3, a3⟩ ⟨f4, a4⟩ ⟨k1, k2, k3⟩
      simp only at k1 k2 k3
      subst k1
      exact .ok ⟨rfl, k2, k3⟩

end TVP
