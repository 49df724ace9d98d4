import Verif.Lemmas.SrcInv

/-!
# Reading the same from two sources
-/

namespace TVP

variable {σ τ : Type} {S : Src σ} {T : Src τ} {Q : σ → τ → Prop}

/-- Whenever `x` succeeds, `y` does, with a related result. -/
def Sim {α β : Type} (q : α → β → Prop) (x : M α) (y : M β) : Prop := ∀ a, x = .ok a → ∃ b, y = .ok b ∧ q a b

theorem Sim.ok {α β : Type} {q : α → β → Prop} {a : α} {b : β} (h : q a b) : Sim q (.ok a) (.ok b) := by
  intro a' e; cases e; exact ⟨b, rfl, h⟩

theorem Sim.bind {α β γ δ : Type} {q : α → β → Prop} {q' : γ → δ → Prop} {x : M α} {y : M β} {k : α → M γ} {l : β → M δ}
    (h : Sim q x y) (hk : ∀ a b, q a b → Sim q' (k a) (l b)) : Sim q' (x >>= k) (y >>= l) := by
  intro c hc
  obtain ⟨a, ha, hc⟩ := bind_ok_iff.1 hc
  obtain ⟨b, hb, hq⟩ := h a ha
  obtain ⟨d, hd, hq'⟩ := hk a b hq c hc
  exact ⟨d, by rw [hb]; exact hd, hq'⟩

theorem Sim.same {α γ δ : Type} {q' : γ → δ → Prop} {x : M α} {k : α → M γ} {l : α → M δ}
    (hk : ∀ a, Sim q' (k a) (l a)) : Sim q' (x >>= k) (x >>= l) := by
  intro c hc
  obtain ⟨a, ha, hc⟩ := bind_ok_iff.1 hc
  obtain ⟨d, hd, hq'⟩ := hk a c hc
  exact ⟨d, by rw [ha]; exact hd, hq'⟩

theorem Sim.ite {α β : Type} {q : α → β → Prop} {p : Prop} [Decidable p] {x x' : M α} {y y' : M β}
    (h : p → Sim q x y) (h' : ¬ p → Sim q x' y') : Sim q (if p then x else x') (if p then y else y') := by
  by_cases hp : p
  · rw [if_pos hp, if_pos hp]; exact h hp
  · rw [if_neg hp, if_neg hp]; exact h' hp

/-- Whatever `S` serves in a state related to one of `T`, `T` serves as well, and the states stay related. -/
def SrcSim (S : Src σ) (T : Src τ) (Q : σ → τ → Prop) : Prop :=
  ∀ s t i v s', Q s t → S.get s i = .ok (v, s') → ∃ t', T.get t i = .ok (v, t') ∧ Q s' t'

/-- Results equal, states related. -/
def Same1 {α : Type} (Q : σ → τ → Prop) (p : α × σ) (q : α × τ) : Prop := p.1 = q.1 ∧ Q p.2 q.2
def Same2 {α β : Type} (Q : σ → τ → Prop) (p : α × β × σ) (q : α × β × τ) : Prop := p.1 = q.1 ∧ p.2.1 = q.2.1 ∧ Q p.2.2 q.2.2
def Same3 {α β γ : Type} (Q : σ → τ → Prop) (p : α × β × γ × σ) (q : α × β × γ × τ) : Prop :=
  p.1 = q.1 ∧ p.2.1 = q.2.1 ∧ p.2.2.1 = q.2.2.1 ∧ Q p.2.2.2 q.2.2.2
def SameOut (Q : σ → τ → Prop) (o : ReadOut σ) (o' : ReadOut τ) : Prop :=
  o.frames = o'.frames ∧ o.extra = o'.extra ∧ o.r = o'.r ∧ Q o.s o'.s

theorem srcVal_ssim (hS : SrcSim S T Q) {r : Rd} {s : σ} {t : τ} (h : Q s t) (pos off : Int) (ch : Nat) :
    Sim (Same1 Q) (srcVal S r s pos off ch) (srcVal T r t pos off ch) := by
  unfold srcVal
  refine Sim.same fun p => Sim.same fun p' => ?_
  rintro ⟨v, s'⟩ e
  obtain ⟨t', h1, h2⟩ := hS _ _ _ _ _ h e
  exact ⟨(v, t'), h1, rfl, h2⟩

theorem baseVal_ssim (hS : SrcSim S T Q) {fp : Fp} {r : Rd} {s : σ} {t : τ} (h : Q s t) (ch : Nat) :
    Sim (Same1 Q) (baseVal fp S r s ch) (baseVal fp T r t ch) := by
  unfold baseVal
  refine Sim.ite (fun _ => srcVal_ssim hS h _ _ _) fun _ => Sim.ite (fun _ => srcVal_ssim hS h _ _ _) fun _ => ?_
  refine Sim.bind (srcVal_ssim hS h _ _ _) ?_
  rintro ⟨v, s1⟩ ⟨v', t1⟩ ⟨rfl, h1⟩
  refine Sim.bind (srcVal_ssim hS h1 _ _ _) ?_
  rintro ⟨w, s2⟩ ⟨w', t2⟩ ⟨rfl, h2⟩
  exact Sim.same fun x => Sim.ok ⟨rfl, h2⟩

theorem linearVal_ssim (hS : SrcSim S T Q) {fp : Fp} {r : Rd} {s : σ} {t : τ} (h : Q s t) (ch : Nat) (v : Int) :
    Sim (Same2 Q) (linearVal fp S r s ch v) (linearVal fp T r t ch v) := by
  unfold linearVal
  have hadd : ∀ {s : σ} {t : τ}, Q s t → ∀ q : Rd, Sim (Same1 Q) (addPoint q ch v >>= fun q => (pure (q, s) : M (Rd × σ)))
      (addPoint q ch v >>= fun q => (pure (q, t) : M (Rd × τ))) := fun h q => Sim.same fun x => Sim.ok ⟨rfl, h⟩
  refine Sim.ite (fun _ => ?_) fun _ => Sim.same fun r1 => Sim.same fun p => Sim.ok ⟨rfl, rfl, h⟩
  refine Sim.bind (q := Same1 Q) ?_ ?_
  · refine Sim.ite (fun _ => Sim.ite (fun _ => ?_) fun _ => Sim.ok ⟨rfl, h⟩) fun _ => Sim.ite (fun _ => Sim.ite (fun _ => ?_) fun _ => Sim.ok ⟨rfl, h⟩) fun _ => Sim.ok ⟨rfl, h⟩
    · refine Sim.same fun p => Sim.ite (fun _ => ?_) fun _ => hadd h r
      refine Sim.bind (srcVal_ssim hS h _ _ _) ?_
      rintro ⟨y, s1⟩ ⟨y', t1⟩ ⟨rfl, h1⟩
      exact hadd h1 _
    · refine Sim.same fun p => Sim.ite (fun _ => ?_) fun _ => hadd h r
      refine Sim.bind (srcVal_ssim hS h _ _ _) ?_
      rintro ⟨y, s1⟩ ⟨y', t1⟩ ⟨rfl, h1⟩
      exact hadd h1 _
  · rintro ⟨r1, s1⟩ ⟨r1', t1⟩ ⟨rfl, h1⟩
    refine Sim.same fun p => Sim.ite (fun _ => Sim.same fun w => Sim.ok ⟨rfl, rfl, h1⟩) fun _ => Sim.ok ⟨rfl, rfl, h1⟩

theorem pushLoop_ssim (hS : SrcSim S T Q) {fp : Fp} {fwd : Bool} {ch : Nat} : ∀ (k : Nat) (r : Rd) {s : σ} {t : τ}, Q s t →
    Sim (Same1 Q) (pushLoop fp S fwd ch k r s) (pushLoop fp T fwd ch k r t)
  | 0, r, s, t, h => Sim.ok ⟨rfl, h⟩
  | k + 1, r, s, t, h => by
    unfold pushLoop
    refine Sim.bind (srcVal_ssim hS h _ _ _) ?_
    rintro ⟨y, s1⟩ ⟨y', t1⟩ ⟨rfl, h1⟩
    refine Sim.bind (q := Same1 Q) ?_ ?_
    · refine Sim.ite (fun _ => ?_) fun _ => Sim.ok ⟨rfl, h1⟩
      refine Sim.bind (srcVal_ssim hS h1 _ _ _) ?_
      rintro ⟨w, s2⟩ ⟨w', t2⟩ ⟨rfl, h2⟩
      exact Sim.same fun x => Sim.ok ⟨rfl, h2⟩
    · rintro ⟨y, s2⟩ ⟨y', t2⟩ ⟨rfl, h2⟩
      exact Sim.same fun q => pushLoop_ssim hS k q h2

theorem quadVal_ssim (hS : SrcSim S T Q) {fp : Fp} {r : Rd} {s : σ} {t : τ} (h : Q s t) (ch : Nat) :
    Sim (Same2 Q) (quadVal fp S r s ch) (quadVal fp T r t ch) := by
  unfold quadVal
  refine Sim.bind (q := Same1 Q) ?_ ?_
  · refine Sim.ite (fun _ => Sim.ite (fun _ => ?_) fun _ => Sim.ok ⟨rfl, h⟩) fun _ => Sim.ite (fun _ => Sim.ite (fun _ => ?_) fun _ => Sim.ok ⟨rfl, h⟩) fun _ => Sim.ok ⟨rfl, h⟩
    · exact Sim.same fun k => pushLoop_ssim hS _ _ h
    · exact Sim.same fun k => pushLoop_ssim hS _ _ h
  · rintro ⟨r1, s1⟩ ⟨r1', t1⟩ ⟨rfl, h1⟩
    refine Sim.same fun p => Sim.ite (fun _ => Sim.same fun w => Sim.ok ⟨rfl, rfl, h1⟩) fun _ => Sim.ok ⟨rfl, rfl, h1⟩

theorem readNextValue_ssim (hS : SrcSim S T Q) {fp : Fp} {r : Rd} {s : σ} {t : τ} (h : Q s t) (ch : Nat) :
    Sim (Same2 Q) (readNextValue fp S r s ch) (readNextValue fp T r t ch) := by
  unfold readNextValue
  refine Sim.ite (fun _ => Sim.ok ⟨rfl, rfl, h⟩) fun _ => ?_
  refine Sim.bind (baseVal_ssim hS h ch) ?_
  rintro ⟨v, s1⟩ ⟨v', t1⟩ ⟨rfl, h1⟩
  cases r.interp with
  | none => exact Sim.ok ⟨rfl, rfl, h1⟩
  | linear =>
    refine Sim.bind (linearVal_ssim hS h1 ch v) ?_
    rintro ⟨w, r1, s2⟩ ⟨w', r1', t2⟩ ⟨rfl, rfl, h2⟩
    exact Sim.ok ⟨rfl, rfl, h2⟩
  | quadratic =>
    refine Sim.bind (quadVal_ssim hS h1 ch) ?_
    rintro ⟨w, r1, s2⟩ ⟨w', r1', t2⟩ ⟨rfl, rfl, h2⟩
    exact Sim.ok ⟨rfl, rfl, h2⟩

theorem readChan_ssim (hS : SrcSim S T Q) {fp : Fp} : ∀ (fuel : Nat) (r : Rd) {s : σ} {t : τ}, Q s t → ∀ ch : Nat,
    Sim (Same2 Q) (readChan fp S fuel r s ch) (readChan fp T fuel r t ch)
  | 0, r, s, t, h, ch => by intro a e; cases e
  | fuel + 1, r, s, t, h, ch => by
    unfold readChan
    refine Sim.bind (readNextValue_ssim hS h ch) ?_
    rintro ⟨o, r1, s1⟩ ⟨o', r1', t1⟩ ⟨rfl, rfl, h1⟩
    cases o with
    | some v => exact Sim.ok ⟨rfl, rfl, h1⟩
    | none =>
      simp only
      cases wrapAround r1 with
      | none => exact Sim.ok ⟨rfl, rfl, h1⟩
      | some r2 => exact readChan_ssim hS fuel r2 h1 ch

theorem readFrame_ssim (hS : SrcSim S T Q) {fp : Fp} {fuel : Nat} : ∀ (left ch : Nat) (r : Rd) {s : σ} {t : τ}, Q s t →
    Sim (Same3 Q) (readFrame fp S fuel left ch r s) (readFrame fp T fuel left ch r t)
  | 0, ch, r, s, t, h => Sim.ok ⟨rfl, rfl, rfl, h⟩
  | left + 1, ch, r, s, t, h => by
    unfold readFrame
    refine Sim.bind (readChan_ssim hS fuel r h ch) ?_
    rintro ⟨o, r1, s1⟩ ⟨o', r1', t1⟩ ⟨rfl, rfl, h1⟩
    cases o with
    | none => exact Sim.ok ⟨rfl, rfl, rfl, h1⟩
    | some v =>
      refine Sim.bind (readFrame_ssim hS left (ch + 1) r1 h1) ?_
      rintro ⟨vs, ok, r2, s2⟩ ⟨vs', ok', r2', t2⟩ ⟨rfl, rfl, rfl, h2⟩
      exact Sim.ok ⟨rfl, rfl, rfl, h2⟩

theorem readLoop_ssim (hS : SrcSim S T Q) {fp : Fp} {fuel : Nat} : ∀ (n : Nat) (r : Rd) {s : σ} {t : τ}, Q s t →
    Sim (SameOut Q) (readLoop fp S fuel n r s) (readLoop fp T fuel n r t)
  | 0, r, s, t, h => Sim.ok ⟨rfl, rfl, rfl, h⟩
  | n + 1, r, s, t, h => by
    rw [readLoop_succ, readLoop_succ]
    refine Sim.same fun r1 => ?_
    refine Sim.bind (readFrame_ssim hS _ _ r1 h) ?_
    rintro ⟨vs, ok, r2, s2⟩ ⟨vs', ok', r2', t2⟩ ⟨rfl, rfl, rfl, h2⟩
    refine Sim.ite (fun _ => ?_) fun _ => Sim.ok ⟨rfl, rfl, rfl, h2⟩
    refine Sim.same fun r3 => Sim.bind (readLoop_ssim hS n r3 h2) ?_
    rintro ⟨f, e, r4, s4⟩ ⟨f', e', r4', t4⟩ ⟨rfl, rfl, rfl, h4⟩
    exact Sim.ok ⟨rfl, rfl, rfl, h4⟩

theorem read_ssim (hS : SrcSim S T Q) {fp : Fp} {fuel n : Nat} {r : Rd} {s : σ} {t : τ} (h : Q s t) :
    Sim (SameOut Q) (r.read fp S fuel s n) (r.read fp T fuel t n) := by
  unfold Rd.read
  refine Sim.ite (fun _ => Sim.ok ⟨rfl, rfl, rfl, h⟩) fun _ => Sim.ite (fun _ => by intro a e; cases e) fun _ =>
    Sim.ite (fun _ => Sim.ite (fun _ => Sim.ok ⟨rfl, rfl, rfl, h⟩) fun _ => by intro a e; cases e) fun _ => readLoop_ssim hS n r h

end TVP
