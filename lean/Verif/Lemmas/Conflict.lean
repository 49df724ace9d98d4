import Verif.Model.Conflict
import Verif.Lemmas.SrcInv

/-!
# Lemmas about interrupted calls
-/

namespace TVP

/-! ## Faults that only a source can raise -/

/-- A fault about the source object. -/
def Fault.ofSource (e : Fault) : Prop := e = .nullDeref ∨ e = .useAfterFree

theorem bind_ne {α β : Type} {e : Fault} {x : M α} {f : α → M β} (hx : x ≠ .error e)
    (hf : ∀ a, x = .ok a → f a ≠ .error e) : (x >>= f) ≠ .error e := by
  cases x with
  | error e' => intro h; rw [error_bind] at h; cases h; exact hx rfl
  | ok a => exact hf a rfl

theorem ok_ne {α : Type} {e : Fault} (a : α) : (Except.ok a : M α) ≠ .error e := by intro h; cases h

theorem pure_ne {α : Type} {e : Fault} (a : α) : (pure a : M α) ≠ .error e := by intro h; cases h

theorem chkI32_ne {e : Fault} (he : e.ofSource) (x : Int) : chkI32 x ≠ .error e := by
  unfold chkI32
  split
  · exact ok_ne _
  · rcases he with rfl | rfl <;> simp

theorem castI16_ne {e : Fault} (he : e.ofSource) (x : ℚ) : castI16 x ≠ .error e := by
  unfold castI16
  split
  · exact ok_ne _
  · rcases he with rfl | rfl <;> simp

theorem castI32_ne {e : Fault} (he : e.ofSource) (x : ℚ) : castI32 x ≠ .error e := by
  unfold castI32
  split
  · exact ok_ne _
  · rcases he with rfl | rfl <;> simp

theorem addPoint_ne {e : Fault} (he : e.ofSource) (r : Rd) (ch : Nat) (y : Int) : addPoint r ch y ≠ .error e := by
  unfold addPoint
  split
  · exact ok_ne _
  · split
    · exact ok_ne _
    · rcases he with rfl | rfl <;> simp
  · split
    · exact ok_ne _
    · rcases he with rfl | rfl <;> simp

theorem ptsOf_ne {e : Fault} (he : e.ofSource) (r : Rd) (ch : Nat) : ptsOf r ch ≠ .error e := by
  unfold ptsOf
  split
  · exact ok_ne _
  · rcases he with rfl | rfl <;> simp

theorem fadeWeight_ne {e : Fault} (he : e.ofSource) (fp : Fp) (r : Rd) (d : Int) : fadeWeight fp r d ≠ .error e := by
  unfold fadeWeight
  split
  · rcases he with rfl | rfl <;> simp
  · split
    · rcases he with rfl | rfl <;> simp
    · exact ok_ne _

theorem fastinterpolate_ne {e : Fault} (he : e.ofSource) (fp : Fp) (a b c d : Int) (x : ℚ) :
    fastinterpolate fp a b c d x ≠ .error e := by
  unfold fastinterpolate
  exact bind_ne (castI32_ne he _) fun _ _ => pure_ne _

variable {σ : Type} {S : Src σ} {I : σ → Prop} {e : Fault}

/-- From states satisfying `I` the source never raises `e`. -/
def SrcNe (S : Src σ) (I : σ → Prop) (e : Fault) : Prop := ∀ s i, I s → S.get s i ≠ .error e

theorem srcVal_ne (he : e.ofSource) (hE : SrcNe S I e) {r : Rd} {s : σ} (pos off : Int) (ch : Nat) (hs : I s) :
    srcVal S r s pos off ch ≠ .error e := by
  unfold srcVal
  exact bind_ne (chkI32_ne he _) fun _ _ => bind_ne (chkI32_ne he _) fun _ _ => hE _ _ hs

theorem baseVal_ne (he : e.ofSource) (hI : SrcInv S I) (hE : SrcNe S I e) {fp : Fp} {r : Rd} {s : σ} (ch : Nat) (hs : I s) :
    baseVal fp S r s ch ≠ .error e := by
  unfold baseVal
  split
  · exact srcVal_ne he hE _ _ _ hs
  · split
    · exact srcVal_ne he hE _ _ _ hs
    · refine bind_ne (srcVal_ne he hE _ _ _ hs) ?_
      rintro ⟨v1, s1⟩ h1
      refine bind_ne (srcVal_ne he hE _ _ _ (srcVal_inv hI hs h1)) ?_
      rintro ⟨v2, s2⟩ _
      exact bind_ne (castI16_ne he _) fun _ _ => pure_ne _

theorem pushLoop_ne (he : e.ofSource) (hI : SrcInv S I) (hE : SrcNe S I e) {fp : Fp} {fwd : Bool} {ch : Nat} :
    ∀ (k : Nat) (r : Rd) {s : σ}, I s → pushLoop fp S fwd ch k r s ≠ .error e
  | 0, r, s, hs => by unfold pushLoop; exact ok_ne _
  | k + 1, r, s, hs => by
    unfold pushLoop
    simp only
    refine bind_ne (srcVal_ne he hE _ _ _ hs) ?_
    rintro ⟨y, s1⟩ h1
    have k1 := srcVal_inv hI hs h1
    refine bind_ne ?_ ?_
    · split
      · refine bind_ne (srcVal_ne he hE _ _ _ k1) ?_
        rintro ⟨v2, s2⟩ _
        exact bind_ne (castI16_ne he _) fun _ _ => pure_ne _
      · exact pure_ne _
    · rintro ⟨y2, s2⟩ h2
      have k2 : I s2 := by
        split at h2
        · obtain ⟨⟨v2, s3⟩, h3, h2⟩ := bind_ok_iff.1 h2
          obtain ⟨w, _, h2⟩ := bind_ok_iff.1 h2
          cases h2
          exact srcVal_inv hI k1 h3
        · cases h2; exact k1
      exact bind_ne (addPoint_ne he _ _ _) fun r1 _ => pushLoop_ne he hI hE k r1 k2

theorem linearVal_ne (he : e.ofSource) (hE : SrcNe S I e) {fp : Fp} {r : Rd} {s : σ} (ch : Nat) (v : Int) (hs : I s) :
    linearVal fp S r s ch v ≠ .error e := by
  unfold linearVal
  simp only
  split
  · refine bind_ne ?_ ?_
    · split
      · split
        · refine bind_ne (ptsOf_ne he _ _) fun p _ => ?_
          split
          · refine bind_ne (srcVal_ne he hE _ _ _ hs) ?_
            rintro ⟨y, s2⟩ _
            exact bind_ne (addPoint_ne he _ _ _) fun _ _ => pure_ne _
          · exact bind_ne (addPoint_ne he _ _ _) fun _ _ => pure_ne _
        · exact pure_ne _
      · split
        · split
          · refine bind_ne (ptsOf_ne he _ _) fun p _ => ?_
            split
            · refine bind_ne (srcVal_ne he hE _ _ _ hs) ?_
              rintro ⟨y, s2⟩ _
              exact bind_ne (addPoint_ne he _ _ _) fun _ _ => pure_ne _
            · exact bind_ne (addPoint_ne he _ _ _) fun _ _ => pure_ne _
          · exact pure_ne _
        · exact pure_ne _
    · rintro ⟨r1, s1⟩ _
      refine bind_ne (ptsOf_ne he _ _) fun p _ => ?_
      split
      · exact bind_ne (castI16_ne he _) fun _ _ => pure_ne _
      · exact pure_ne _
  · exact bind_ne (addPoint_ne he _ _ _) fun _ _ => bind_ne (ptsOf_ne he _ _) fun _ _ => pure_ne _

theorem quadVal_ne (he : e.ofSource) (hI : SrcInv S I) (hE : SrcNe S I e) {fp : Fp} {r : Rd} {s : σ} (ch : Nat) (hs : I s) :
    quadVal fp S r s ch ≠ .error e := by
  unfold quadVal
  simp only
  refine bind_ne ?_ ?_
  · split
    · split
      · exact bind_ne (castI32_ne he _) fun _ _ => pushLoop_ne he hI hE _ _ hs
      · exact pure_ne _
    · split
      · split
        · exact bind_ne (castI32_ne he _) fun _ _ => pushLoop_ne he hI hE _ _ hs
        · exact pure_ne _
      · exact pure_ne _
  · rintro ⟨r1, s1⟩ _
    refine bind_ne (ptsOf_ne he _ _) fun p _ => ?_
    split
    · exact bind_ne (fastinterpolate_ne he _ _ _ _ _ _) fun _ _ => pure_ne _
    · exact pure_ne _

theorem readNextValue_ne (he : e.ofSource) (hI : SrcInv S I) (hE : SrcNe S I e) {fp : Fp} {r : Rd} {s : σ} (ch : Nat)
    (hs : I s) : readNextValue fp S r s ch ≠ .error e := by
  unfold readNextValue
  split
  · exact pure_ne _
  · refine bind_ne (baseVal_ne he hI hE _ hs) ?_
    rintro ⟨v, s1⟩ h1
    have k1 := baseVal_inv hI hs h1
    simp only
    split
    · exact pure_ne _
    · exact bind_ne (linearVal_ne he hE _ _ k1) fun _ _ => pure_ne _
    · exact bind_ne (quadVal_ne he hI hE _ k1) fun _ _ => pure_ne _

theorem readChan_ne (he : e.ofSource) (hI : SrcInv S I) (hE : SrcNe S I e) {fp : Fp} :
    ∀ (fuel : Nat) (r : Rd) {s : σ} (ch : Nat), I s → readChan fp S fuel r s ch ≠ .error e
  | 0, r, s, ch, hs => by unfold readChan; rcases he with rfl | rfl <;> simp
  | fuel + 1, r, s, ch, hs => by
    unfold readChan
    refine bind_ne (readNextValue_ne he hI hE _ hs) ?_
    rintro ⟨o, r1, s1⟩ h1
    have k1 := readNextValue_inv hI hs h1
    cases o with
    | some v => exact pure_ne _
    | none =>
      simp only
      cases hw : wrapAround r1 with
      | none => exact pure_ne _
      | some r2 => exact readChan_ne he hI hE fuel r2 ch k1

theorem readFrame_ne (he : e.ofSource) (hI : SrcInv S I) (hE : SrcNe S I e) {fp : Fp} {fuel : Nat} :
    ∀ (left ch : Nat) (r : Rd) {s : σ}, I s → readFrame fp S fuel left ch r s ≠ .error e
  | 0, ch, r, s, hs => by unfold readFrame; exact ok_ne _
  | left + 1, ch, r, s, hs => by
    unfold readFrame
    refine bind_ne (readChan_ne he hI hE _ _ _ hs) ?_
    rintro ⟨o, r1, s1⟩ h1
    have k1 := readChan_inv hI hs h1
    cases o with
    | none => exact pure_ne _
    | some v => exact bind_ne (readFrame_ne he hI hE left (ch + 1) r1 k1) fun _ _ => pure_ne _

theorem stepOn_ne (he : e.ofSource) (fp : Fp) (r : Rd) : stepOn fp r ≠ .error e := by
  unfold stepOn
  simp only
  refine bind_ne (castI32_ne he _) fun _ _ => bind_ne (chkI32_ne he _) fun _ _ => bind_ne (chkI32_ne he _) fun _ _ => ?_
  split
  · exact bind_ne (chkI32_ne he _) fun _ _ => pure_ne _
  · exact pure_ne _

theorem updateCrossfade_ne (he : e.ofSource) (fp : Fp) (r : Rd) : updateCrossfade fp r ≠ .error e := by
  unfold updateCrossfade
  simp only
  split
  · refine bind_ne ?_ fun r1 _ => ?_
    · split
      · split
        · exact pure_ne _
        · exact bind_ne (fadeWeight_ne he _ _ _) fun _ _ => pure_ne _
      · split
        · exact pure_ne _
        · exact bind_ne (fadeWeight_ne he _ _ _) fun _ _ => pure_ne _
    · split
      · exact pure_ne _
      · exact pure_ne _
  · exact pure_ne _

theorem readLoop_ne (he : e.ofSource) (hI : SrcInv S I) (hE : SrcNe S I e) {fp : Fp} {fuel : Nat} :
    ∀ (n : Nat) (r : Rd) {s : σ}, I s → readLoop fp S fuel n r s ≠ .error e
  | 0, r, s, hs => by unfold readLoop; exact ok_ne _
  | n + 1, r, s, hs => by
    rw [readLoop_succ]
    refine bind_ne ?_ fun r1 _ => ?_
    · split
      · exact updateCrossfade_ne he _ _
      · exact pure_ne _
    · refine bind_ne (readFrame_ne he hI hE _ _ _ hs) ?_
      rintro ⟨vs, ok, r2, s2⟩ h2
      have k2 := readFrame_inv hI hs h2
      simp only
      split
      · exact bind_ne (stepOn_ne he _ _) fun r3 _ =>
          bind_ne (readLoop_ne he hI hE n r3 k2) fun _ _ => pure_ne _
      · exact pure_ne _

theorem read_ne (he : e.ofSource) (hI : SrcInv S I) (hE : SrcNe S I e) {fp : Fp} {fuel n : Nat} {r : Rd} {s : σ}
    (hs : I s) : r.read fp S fuel s n ≠ .error e := by
  unfold Rd.read
  split
  · exact ok_ne _
  · split
    · rcases he with rfl | rfl <;> simp
    · split
      · split
        · exact ok_ne _
        · rcases he with rfl | rfl <;> simp
      · exact readLoop_ne he hI hE _ _ hs

/-! ## Sources that stay -/

/-- The source pointer is not null. -/
def Present {σ : Type} (s : Option σ) : Prop := ∃ c, s = some c

/-- A source object that is there stays there and can be read without a fault of its own. -/
structure Sound {σ : Type} (S : Src (Option σ)) : Prop where
  inv : SrcInv S Present
  ne : ∀ e : Fault, e.ofSource → SrcNe S Present e

theorem fileSrc_sound (g : Geo) (nullOk : Bool) : Sound (fileSrc g nullOk) where
  inv := by
    rintro s i v s' ⟨c, rfl⟩ h
    unfold fileSrc at h
    simp only at h
    cases h
    exact ⟨_, rfl⟩
  ne := by
    rintro e _ s i ⟨c, rfl⟩
    exact ok_ne _

theorem arraySrc_sound : Sound arraySrc where
  inv := by
    rintro s i v s' ⟨c, rfl⟩ h
    exact ⟨c, arraySrc_const (some c) _ _ _ _ rfl h⟩
  ne := by
    rintro e he s i ⟨c, rfl⟩
    unfold arraySrc
    simp only
    split
    · split
      · exact ok_ne _
      · rcases he with rfl | rfl <;> simp
    · rcases he with rfl | rfl <;> simp

/-! ## Updates -/

variable {τ : Type} {fp : Fp} {T : Src (Option τ)} {g : Geo} {nullOk : Bool}

/-- A reader that plays has a usable source. -/
def Shared.Guarded (sh : Shared τ) : Prop := sh.rd.playing = true → ∃ s, sh.obj = .live s

theorem update_outcome {ρ : Type} {nch : Int} {playing : Bool} {rd : M (List (List Int) × ρ)} {st st' : ρ} {alloc : Nat → Bool}
    {fx : Fx} (h : update nch playing rd st alloc = .ok (fx, st')) :
    st' = st ∨ (playing = true ∧ ∃ fr, rd = .ok (fr, st')) := by
  unfold update at h
  by_cases h1 : nch = -1
  · rw [if_pos h1] at h; cases h; exact .inl rfl
  rw [if_neg h1] at h
  by_cases h2 : nch < 0
  · rw [if_pos h2] at h; cases h
  rw [if_neg h2] at h
  cases hp : playing with
  | false => rw [hp] at h; cases h; exact .inl rfl
  | true =>
    rw [hp] at h
    simp only [Bool.not_true, Bool.false_eq_true, if_false] at h
    by_cases h3 : ((List.range nch.toNat).filter alloc).length = (List.range nch.toNat).length
    · rw [if_pos h3] at h
      obtain ⟨⟨fr, s2⟩, h4, h⟩ := bind_ok_iff.1 h
      cases h
      exact .inr ⟨rfl, fr, h4⟩
    · rw [if_neg h3] at h; cases h; exact .inl rfl

theorem update_quiet {sh sh' : Shared τ} {fuel : Nat} {alloc : Nat → Bool} {fx : Fx} (hp : sh.rd.playing = false)
    (h : sh.update fp T fuel alloc = .ok (fx, sh')) : sh' = sh := by
  rcases update_outcome h with h | ⟨h, _⟩
  · exact h
  · rw [hp] at h; cases h

theorem update_error {ρ : Type} {nch : Int} {playing : Bool} {rd : M (List (List Int) × ρ)} {st : ρ} {alloc : Nat → Bool}
    {e : Fault} (h : update nch playing rd st alloc = .error e) : e = .badVLA ∨ (playing = true ∧ rd = .error e) := by
  unfold update at h
  by_cases h1 : nch = -1
  · rw [if_pos h1] at h; cases h
  rw [if_neg h1] at h
  by_cases h2 : nch < 0
  · rw [if_pos h2] at h; cases h; exact .inl rfl
  rw [if_neg h2] at h
  cases hp : playing with
  | false => rw [hp] at h; cases h
  | true =>
    rw [hp] at h
    simp only [Bool.not_true, Bool.false_eq_true, if_false] at h
    by_cases h3 : ((List.range nch.toNat).filter alloc).length = (List.range nch.toNat).length
    · rw [if_pos h3] at h
      cases hr : rd with
      | error e' => rw [hr] at h; rw [error_bind] at h; cases h; exact .inr ⟨rfl, rfl⟩
      | ok x => rw [hr] at h; cases h
    · rw [if_neg h3] at h; cases h

theorem update_safe (hT : Sound T) {sh : Shared τ} (hg : sh.Guarded) (fuel : Nat) (alloc : Nat → Bool) {e : Fault}
    (he : e.ofSource) : sh.update fp T fuel alloc ≠ .error e := by
  intro h
  rcases update_error h with h | ⟨hp, h⟩
  · subst h; rcases he with he | he <;> cases he
  · obtain ⟨s, hs⟩ := hg hp
    unfold Shared.read at h
    rw [hs] at h
    exact bind_ne (read_ne he hT.inv (hT.ne e he) ⟨s, rfl⟩) (fun _ _ => pure_ne _) h

theorem update_keeps (hT : Sound T) {sh sh' : Shared τ} {fuel : Nat} {alloc : Nat → Bool} {fx : Fx} (hg : sh.Guarded)
    (h : sh.update fp T fuel alloc = .ok (fx, sh')) : sh'.rd.playing = sh.rd.playing ∧ sh'.Guarded := by
  rcases update_outcome h with h | ⟨hp, fr, h⟩
  · subst h; exact ⟨rfl, hg⟩
  · obtain ⟨s, hs⟩ := hg hp
    unfold Shared.read at h
    rw [hs] at h
    obtain ⟨o, h2, h1⟩ := bind_ok_iff.1 h
    cases h1
    obtain ⟨c, hc⟩ := read_inv hT.inv ⟨s, rfl⟩ h2
    exact ⟨(read_conf h2).playing, fun _ => ⟨c, by simp only [hc]; rfl⟩⟩

/-- What the main program finds between two calls: a usable source, or no source and nothing playing. -/
def Shared.Settled (sh : Shared τ) : Prop := (∃ s, sh.obj = .live s) ∨ (sh.obj = .missing ∧ sh.rd.playing = false)

theorem Shared.Settled.guarded {sh : Shared τ} (h : sh.Settled) : sh.Guarded := by
  intro hp
  rcases h with h | ⟨_, h⟩
  · exact h
  · rw [hp] at h; cases h

theorem update_settled (hT : Sound T) {sh sh' : Shared τ} {fuel : Nat} {alloc : Nat → Bool} {fx : Fx} (hg : sh.Settled)
    (h : sh.update fp T fuel alloc = .ok (fx, sh')) : sh'.Settled := by
  cases hp : sh.rd.playing with
  | true =>
    obtain ⟨k1, k2⟩ := update_keeps hT hg.guarded h
    exact .inl (k2 (k1.trans hp))
  | false => rw [update_quiet hp h]; exact hg

/-! ## Calls -/

/-- From `sh` on the call never has the reader playing, except possibly when it is done; then the state is settled. -/
def Prog.Quiet : Prog τ → Shared τ → Prop
  | .done _, sh => sh.Settled
  | .fail _, sh => sh.rd.playing = false
  | .act f k, sh => sh.rd.playing = false ∧ k.Quiet (f sh)
  | .test c a b, sh => sh.rd.playing = false ∧ if c sh then a.Quiet sh else b.Quiet sh

theorem Prog.Quiet.guarded {p : Prog τ} {sh : Shared τ} (h : p.Quiet sh) : sh.Guarded := by
  cases p with
  | done b => exact Shared.Settled.guarded h
  | fail e => intro hp; rw [show sh.rd.playing = false from h] at hp; cases hp
  | act f k => intro hp; rw [h.1] at hp; cases hp
  | test c a b => intro hp; rw [h.1] at hp; cases hp

theorem Prog.Quiet.intr (hT : Sound T) {p : Prog τ} {sh sh' : Shared τ} {fuel : Nat} {alloc : Nat → Bool} {fx : Fx}
    (h : p.Quiet sh) (hu : sh.update fp T fuel alloc = .ok (fx, sh')) : p.Quiet sh' := by
  cases p with
  | done b => exact update_settled hT h hu
  | fail e => rw [update_quiet h hu]; exact h
  | act f k => rw [update_quiet h.1 hu]; exact h
  | test c a b => rw [update_quiet h.1 hu]; exact h

theorem Prog.Quiet.steps (hT : Sound T) {x y : Prog τ × Shared τ} (hs : Interrupted fp T x y) :
    x.1.Quiet x.2 → y.1.Quiet y.2 := by
  induction hs with
  | refl x => exact id
  | act _ ih => exact fun h => ih h.2
  | @test c a b sh y _ ih =>
    intro h
    apply ih
    obtain ⟨_, h⟩ := h
    simp only
    split at h
    · rename_i hc; simpa [hc] using h
    · rename_i hc; simpa [hc] using h
  | intr hu _ ih => exact fun h => ih (h.intr hT hu)

/-- Interrupting a quiet call does not change what it does; updates take effect after it. -/
theorem Prog.Quiet.exec (hT : Sound T) {x y : Prog τ × Shared τ} (hs : Interrupted fp T x y) :
    x.1.Quiet x.2 → ∀ b, y.1 = .done b → ∃ sh1, x.1.exec x.2 = .ok (b, sh1) ∧ Interrupted fp T (.done b, sh1) y := by
  induction hs with
  | refl x =>
    intro _ b hb
    refine ⟨x.2, ?_, ?_⟩
    · rw [hb]; rfl
    · rw [← hb]; exact .refl _
  | act _ ih => exact fun h b hb => ih h.2 b hb
  | @test c a b sh y _ ih =>
    intro h d hd
    obtain ⟨_, h⟩ := h
    obtain ⟨sh1, h1, h2⟩ := ih (by simp only; split at h <;> rename_i hc <;> simpa [hc] using h) d hd
    refine ⟨sh1, ?_, h2⟩
    simp only at h1
    unfold Prog.exec
    split at h1 <;> rename_i hc
    · rw [if_pos hc]; exact h1
    · rw [if_neg hc]; exact h1
  | @intr p sh fuel alloc fx sh' y hu hs ih =>
    intro h b hb
    obtain ⟨sh1, h1, h2⟩ := ih (h.intr hT hu) b hb
    cases p with
    | done d =>
      have hd : d = b ∧ sh' = sh1 := by
        simp only [Prog.exec, Except.ok.injEq, Prod.mk.injEq] at h1
        exact h1
      obtain ⟨rfl, rfl⟩ := hd
      exact ⟨sh, rfl, .intr hu hs⟩
    | fail e => rw [update_quiet h hu] at h1; exact ⟨sh1, h1, h2⟩
    | act f k => rw [update_quiet h.1 hu] at h1; exact ⟨sh1, h1, h2⟩
    | test c a b => rw [update_quiet h.1 hu] at h1; exact ⟨sh1, h1, h2⟩

/-- The call stops the reader first and is quiet from then on. -/
def Prog.StopsFirst (p : Prog τ) : Prop :=
  ∃ k, p = stopSteps k ∧ ∀ sh : Shared τ, sh.Settled → sh.rd.playing = false → k.Quiet sh

/-- The stage a call that stops first is in. -/
def Prog.Stage (p k : Prog τ) (sh : Shared τ) : Prop :=
  (p = stopSteps k ∧ sh.Settled) ∨
  (p = .rd (fun r => { r with playing := false }) k ∧ sh.Settled ∧ sh.rd.playing = true) ∨
  p.Quiet sh

theorem Prog.Stage.guarded {k p : Prog τ} {sh : Shared τ} (h : p.Stage k sh) : sh.Guarded := by
  rcases h with ⟨_, h⟩ | ⟨_, h, _⟩ | h
  · exact h.guarded
  · exact h.guarded
  · exact h.guarded

theorem Prog.Stage.steps (hT : Sound T) {k : Prog τ}
    (hk : ∀ sh : Shared τ, sh.Settled → sh.rd.playing = false → k.Quiet sh) {x y : Prog τ × Shared τ}
    (hs : Interrupted fp T x y) : x.1.Stage k x.2 → y.1.Stage k y.2 := by
  have hstop : ∀ sh : Shared τ, sh.Settled → k.Quiet { sh with rd := { sh.rd with playing := false } } := by
    intro sh h
    refine hk _ ?_ rfl
    rcases h with h | ⟨h, _⟩
    · exact .inl h
    · exact .inr ⟨h, rfl⟩
  induction hs with
  | refl x => exact id
  | @act f k' sh y _ ih =>
    rintro (⟨h, _⟩ | ⟨h, h1, h2⟩ | h)
    · cases h
    · cases h; exact ih (.inr (.inr (hstop _ h1)))
    · exact ih (.inr (.inr h.2))
  | @test c a b sh y _ ih =>
    rintro (⟨h, h1⟩ | ⟨h, h1, h2⟩ | h)
    · cases h
      apply ih
      by_cases hp : sh.rd.playing = true
      · simp only [hp, if_true]; exact .inr (.inl ⟨rfl, h1, hp⟩)
      · simp only [hp]; exact .inr (.inr (hk _ h1 (by simpa using hp)))
    · cases h
    · apply ih
      obtain ⟨_, h⟩ := h
      refine .inr (.inr ?_)
      simp only
      split at h <;> rename_i hc <;> simpa [hc] using h
  | @intr p sh fuel alloc fx sh' y hu hs ih =>
    rintro (⟨h, h1⟩ | ⟨h, h1, h2⟩ | h)
    · exact ih (.inl ⟨h, update_settled hT h1 hu⟩)
    · exact ih (.inr (.inl ⟨h, update_settled hT h1 hu, (update_keeps hT h1.guarded hu).1.trans h2⟩))
    · exact ih (.inr (.inr (h.intr hT hu)))

/-- Updates only. -/
inductive Updates (fp : Fp) (T : Src (Option τ)) : Shared τ → Shared τ → Prop
  | refl (sh) : Updates fp T sh sh
  | step {sh fuel alloc fx sh1 sh2} : Shared.update fp T fuel sh alloc = .ok (fx, sh1) → Updates fp T sh1 sh2 → Updates fp T sh sh2

theorem steps_done {x y : Prog τ × Shared τ} (hs : Interrupted fp T x y) :
    ∀ b, x.1 = .done b → y.1 = .done b ∧ Updates fp T x.2 y.2 := by
  induction hs with
  | refl x => exact fun b h => ⟨h, .refl _⟩
  | act _ ih => intro b h; cases h
  | test _ ih => intro b h; cases h
  | intr hu _ ih => exact fun b h => ⟨(ih b h).1, .step hu (ih b h).2⟩

/-- Interrupting a call that stops the reader first is the same as interrupting the machine before and after it. -/
theorem Prog.Stage.exec (hT : Sound T) {k : Prog τ}
    (hk : ∀ sh : Shared τ, sh.Settled → sh.rd.playing = false → k.Quiet sh) {x y : Prog τ × Shared τ}
    (hs : Interrupted fp T x y) : x.1.Stage k x.2 → ∀ b, y.1 = .done b →
      ∃ sh0 sh1, Updates fp T x.2 sh0 ∧ x.1.exec sh0 = .ok (b, sh1) ∧ Updates fp T sh1 y.2 := by
  have hstop : ∀ sh : Shared τ, sh.Settled → k.Quiet { sh with rd := { sh.rd with playing := false } } := by
    intro sh h
    refine hk _ ?_ rfl
    rcases h with h | ⟨h, _⟩
    · exact .inl h
    · exact .inr ⟨h, rfl⟩
  have quiet : ∀ {x y : Prog τ × Shared τ}, Interrupted fp T x y → x.1.Quiet x.2 → ∀ b, y.1 = .done b →
      ∃ sh1, x.1.exec x.2 = .ok (b, sh1) ∧ Updates fp T sh1 y.2 := by
    intro x y hs h b hb
    obtain ⟨sh1, h1, h2⟩ := h.exec hT hs b hb
    exact ⟨sh1, h1, (steps_done h2 b rfl).2⟩
  induction hs with
  | refl x =>
    rintro (⟨h, _⟩ | ⟨h, h1, h2⟩ | h) b hb
    · rw [h] at hb; cases hb
    · rw [h] at hb; cases hb
    · obtain ⟨sh1, h1, h2⟩ := quiet (.refl x) h b hb
      exact ⟨x.2, sh1, .refl _, h1, h2⟩
  | @act f k' sh y hs ih =>
    rintro (⟨h, _⟩ | ⟨h, h1, h2⟩ | h) b hb
    · cases h
    · cases h
      obtain ⟨sh1, h3, h4⟩ := quiet hs (hstop _ h1) b hb
      exact ⟨sh, sh1, .refl _, h3, h4⟩
    · obtain ⟨sh1, h3, h4⟩ := quiet hs h.2 b hb
      exact ⟨sh, sh1, .refl _, h3, h4⟩
  | @test c a b sh y hs ih =>
    rintro (⟨h, h1⟩ | ⟨h, h1, h2⟩ | h) d hd
    · cases h
      cases hp : sh.rd.playing with
      | true =>
        simp only [hp, if_true] at hs ih
        obtain ⟨sh0, sh1, h3, h4, h5⟩ := ih (.inr (.inl ⟨rfl, h1, hp⟩)) d hd
        refine ⟨sh0, sh1, h3, ?_, h5⟩
        have hp0 : sh0.rd.playing = true := by
          clear h4 h5 ih hs hd
          induction h3 with
          | refl sh => exact hp
          | step hu _ ih => exact ih (update_settled hT h1 hu) ((update_keeps hT h1.guarded hu).1.trans hp)
        unfold Prog.exec
        simp only [hp0, if_true]
        exact h4
      | false =>
        simp only [hp] at hs
        obtain ⟨sh1, h3, h4⟩ := quiet hs (hk _ h1 hp) d hd
        refine ⟨sh, sh1, .refl _, ?_, h4⟩
        unfold Prog.exec
        simp only [hp]
        exact h3
    · cases h
    · obtain ⟨sh1, h3, h4⟩ := quiet (.test hs) h d hd
      exact ⟨sh, sh1, .refl _, h3, h4⟩
  | @intr p sh fuel alloc fx sh' y hu hs ih =>
    rintro (⟨h, h1⟩ | ⟨h, h1, h2⟩ | h) b hb
    · obtain ⟨sh0, sh1, h3, h4, h5⟩ := ih (.inl ⟨h, update_settled hT h1 hu⟩) b hb
      exact ⟨sh0, sh1, .step hu h3, h4, h5⟩
    · obtain ⟨sh0, sh1, h3, h4, h5⟩ :=
        ih (.inr (.inl ⟨h, update_settled hT h1 hu, (update_keeps hT h1.guarded hu).1.trans h2⟩)) b hb
      exact ⟨sh0, sh1, .step hu h3, h4, h5⟩
    · obtain ⟨sh1, h3, h4⟩ := quiet (.intr hu hs) h b hb
      exact ⟨sh, sh1, .refl _, h3, h4⟩

/-! ## The calls are of this kind -/

/-- The call is quiet from every state that is not playing and whose source object satisfies `P`. -/
def Prog.QuietFrom (P : Obj τ → Prop) (p : Prog τ) : Prop :=
  ∀ sh : Shared τ, P sh.obj → sh.rd.playing = false → p.Quiet sh

theorem quietFrom_rd {P : Obj τ → Prop} {f : Rd → Rd} {k : Prog τ} (hf : ∀ r, (f r).playing = r.playing)
    (hk : k.QuietFrom P) : (Prog.rd f k).QuietFrom P :=
  fun sh ho hp => ⟨hp, hk _ ho ((hf sh.rd).trans hp)⟩

theorem quietFrom_rd' {P : Obj τ → Prop} {f : Rd → Rd} {k : Prog τ} (hk : k.QuietFrom P) (hf : ∀ r, (f r).playing = false := by intro r; rfl) :
    (Prog.rd f k).QuietFrom P :=
  fun _ ho hp => ⟨hp, hk _ ho (hf _)⟩

theorem quietFrom_obj {P Q : Obj τ → Prop} {f : Obj τ → Obj τ} {k : Prog τ} (hf : ∀ o, P o → Q (f o))
    (hk : k.QuietFrom Q) : (Prog.obj f k).QuietFrom P :=
  fun _ ho hp => ⟨hp, hk _ (hf _ ho) hp⟩

theorem quietFrom_act {P Q : Obj τ → Prop} {f : Shared τ → Obj τ} {k : Prog τ} (hf : ∀ sh : Shared τ, P sh.obj → Q (f sh))
    (hk : k.QuietFrom Q) : (Prog.act (fun sh => { sh with obj := f sh }) k).QuietFrom P :=
  fun sh ho hp => ⟨hp, hk _ (hf sh ho) hp⟩

theorem quietFrom_test {P : Obj τ → Prop} {c : Shared τ → Bool} {a b : Prog τ} (ha : a.QuietFrom P) (hb : b.QuietFrom P) :
    (Prog.test c a b).QuietFrom P := by
  intro sh ho hp
  refine ⟨hp, ?_⟩
  split
  · exact ha sh ho hp
  · exact hb sh ho hp

theorem quietFrom_stop {P : Obj τ → Prop} {k : Prog τ} (hk : k.QuietFrom P) : (stopSteps k).QuietFrom P := by
  intro sh ho hp
  refine ⟨hp, ?_⟩
  simp only [hp]
  exact hk sh ho hp

theorem quietFrom_reset {P : Obj τ → Prop} {k : Prog τ} (hk : k.QuietFrom P) : (resetSteps k).QuietFrom P :=
  quietFrom_rd (fun _ => rfl) <| quietFrom_rd (fun _ => rfl) <| quietFrom_rd (fun _ => rfl) <| quietFrom_rd (fun _ => rfl) hk

theorem quietFrom_nch {P : Obj τ → Prop} {n : Int} {k : Prog τ} (hk : k.QuietFrom P) : (nchSteps n k).QuietFrom P :=
  quietFrom_rd (fun r => setNumChannels_playing r n) hk

theorem quietFrom_done {P : Obj τ → Prop} {b : Bool} (hP : ∀ o, P o → o = .missing ∨ ∃ s, o = .live s) :
    (Prog.done b : Prog τ).QuietFrom P := by
  intro sh ho hp
  rcases hP _ ho with h | h
  · exact .inr ⟨h, hp⟩
  · exact .inl h

theorem quietFrom_fail {P : Obj τ → Prop} {e : Fault} : (Prog.fail e : Prog τ).QuietFrom P := fun _ _ hp => hp

/-- Starting to play as the last step. -/
theorem quietFrom_go {P : Obj τ → Prop} {b : Bool} (hP : ∀ o, P o → ∃ s, o = .live s) :
    (Prog.rd (fun r => { r with playing := true }) (.done b) : Prog τ).QuietFrom P :=
  fun _ ho hp => ⟨hp, .inl (hP _ ho)⟩

theorem quietFrom_close {P : Obj τ → Prop} {k : Prog τ} (hk : k.QuietFrom (· = .missing)) : (closeSteps k).QuietFrom P := by
  refine quietFrom_stop ?_
  intro sh _ hp
  refine ⟨hp, ?_⟩
  split
  · exact ⟨hp, hp, hp, hk _ rfl hp⟩
  · rename_i h
    refine hk _ ?_ hp
    cases ho : sh.obj with
    | missing => rfl
    | live s => simp only [ho] at h; exact absurd trivial h
    | busy s => simp only [ho] at h; exact absurd trivial h
    | freed => simp only [ho] at h; exact absurd trivial h

theorem quietFrom_finish (g : Geo) (f : Dev) : (finishSteps g f).QuietFrom (· = .missing) := by
  have live : ∀ (f : Shared Cache → Cache → Cache) {k : Prog Cache}, k.QuietFrom (fun o => ∃ s, o = .live s) →
      (Prog.act (fun sh => { sh with obj := sh.obj.onLive fun c => .live (f sh c) }) k).QuietFrom (fun o => ∃ s, o = .live s) := by
    intro f k hk
    refine quietFrom_act ?_ hk
    rintro sh ⟨s, hs⟩
    rw [hs]
    exact ⟨_, rfl⟩
  refine quietFrom_test (quietFrom_rd' ?_) <| quietFrom_test quietFrom_fail <| quietFrom_rd (fun _ => rfl) <|
    quietFrom_rd (fun r => by split <;> rfl) <| quietFrom_rd (fun r => by split <;> rfl) <|
    quietFrom_obj (Q := fun o => ∃ s, o = .live s) (fun _ _ => ⟨_, rfl⟩) <|
    live (fun sh c => c.setLoopType sh.rd.loopType) <| quietFrom_rd (fun _ => rfl) <|
    live (fun sh c => c.setLoopStart g (sh.rd.s2s sh.rd.loopStart)) <| quietFrom_rd (fun _ => rfl) <|
    live (fun sh c => c.setLoopFinish g (sh.rd.s2s sh.rd.loopFinish)) <| quietFrom_reset <|
    quietFrom_obj (Q := fun o => ∃ s, o = .busy s) ?_ <| quietFrom_act (Q := fun o => ∃ s, o = .live s) ?_ <|
    quietFrom_go (fun _ h => h)
  · exact quietFrom_done fun o h => .inl h
  · rintro o ⟨s, rfl⟩; exact ⟨s, rfl⟩
  · rintro sh ⟨s, hs⟩; rw [hs]; exact ⟨_, rfl⟩

theorem quietFrom_wav (g : Geo) (f : Dev) (junk : List Nat) : (wavSteps g f junk).QuietFrom (· = .missing) := by
  have dn : ∀ b, (Prog.done b : Prog Cache).QuietFrom (· = .missing) := fun b => quietFrom_done fun o h => .inl h
  unfold wavSteps
  simp only
  split
  · exact quietFrom_fail
  · split
    · exact dn _
    · refine quietFrom_nch ?_
      split
      · exact quietFrom_fail
      · exact dn _
      · split
        · exact quietFrom_fail
        · exact dn _
        · exact quietFrom_rd (fun _ => rfl) <| quietFrom_rd (fun _ => rfl) <| quietFrom_finish g _

theorem quietFrom_play (P : Obj Cache → Prop) (g : Geo) (file : Option Dev) (junk : List Nat) (isWave : Bool) (n : Int) :
    (playSteps g file junk isWave n).QuietFrom P := by
  have dn : ∀ b, (Prog.done b : Prog Cache).QuietFrom (· = .missing) := fun b => quietFrom_done fun o h => .inl h
  refine quietFrom_close ?_
  have key : (openSteps g file junk isWave).QuietFrom (· = .missing) := by
    unfold openSteps
    cases file with
    | none => exact dn _
    | some f =>
      refine quietFrom_rd (fun _ => rfl) ?_
      split
      · exact quietFrom_wav g f junk
      · exact quietFrom_rd (fun _ => rfl) (quietFrom_finish g f)
  split
  · exact key
  · exact quietFrom_nch key

theorem quietFrom_arrayRaw (P : Obj (List Int) → Prop) (data : List Int) (len n : Int) :
    (arrayRawSteps data len n).QuietFrom P :=
  quietFrom_obj (Q := fun o => ∃ s, o = .live s) (fun _ _ => ⟨_, rfl⟩) <| quietFrom_stop <|
    quietFrom_rd (fun _ => rfl) <| quietFrom_rd (fun _ => rfl) <| quietFrom_rd (fun _ => rfl) <| quietFrom_rd (fun _ => rfl) <|
    quietFrom_rd (fun _ => rfl) <| quietFrom_nch <| quietFrom_reset <| quietFrom_go fun _ h => h

/-- The source pointer is null or points to a usable object. -/
def Obj.Whole (o : Obj τ) : Prop := o = .missing ∨ ∃ s, o = .live s

theorem quietFrom_arrayWav (image : List Nat) : (arrayWavSteps image).QuietFrom Obj.Whole := by
  have dn : ∀ b, (Prog.done b : Prog (List Int)).QuietFrom Obj.Whole := fun b => quietFrom_done fun o h => h
  unfold arrayWavSteps
  split
  · exact quietFrom_fail
  · exact dn _
  · split
    · exact quietFrom_fail
    · exact dn _
    · split
      · exact quietFrom_fail
      · exact dn _
      · split
        · exact quietFrom_fail
        · exact quietFrom_arrayRaw _ _ _ _

theorem Shared.Settled.whole {sh : Shared τ} (h : sh.Settled) : sh.obj.Whole := by
  rcases h with h | ⟨h, _⟩
  · exact .inr h
  · exact .inl h

theorem stopsFirst {k : Prog τ} (hk : k.QuietFrom Obj.Whole) : (stopSteps k).StopsFirst :=
  ⟨k, rfl, fun sh hs hp => hk sh hs.whole hp⟩

/-! ## Without interruption the steps do what the calls do -/

/-- A file reader between two calls as a shared state. -/
def FileReader.shared (a : FileReader) : Shared Cache := ⟨a.rd, Obj.ofOption a.src⟩

/-- An array reader between two calls as a shared state. -/
def ArrayReader.shared (a : ArrayReader) : Shared (List Int) := ⟨a.rd, Obj.ofOption a.src⟩

theorem exec_rd {f : Rd → Rd} {k : Prog τ} {r : Rd} {o : Obj τ} : (Prog.rd f k).exec ⟨r, o⟩ = k.exec ⟨f r, o⟩ := rfl
theorem exec_test {c : Shared τ → Bool} {a b : Prog τ} {sh : Shared τ} :
    (Prog.test c a b).exec sh = if c sh = true then a.exec sh else b.exec sh := rfl
theorem exec_obj {f : Obj τ → Obj τ} {k : Prog τ} {r : Rd} {o : Obj τ} : (Prog.obj f k).exec ⟨r, o⟩ = k.exec ⟨r, f o⟩ := rfl

theorem exec_stop {k : Prog τ} {r : Rd} {o : Obj τ} : (stopSteps k).exec ⟨r, o⟩ = k.exec ⟨r.stop, o⟩ := by
  unfold stopSteps Rd.stop
  rw [exec_test]
  by_cases h : r.playing = true
  · rw [if_pos h]; rfl
  · rw [if_neg h]
    simp only [Bool.not_eq_true] at h
    congr 2
    rw [← h]

theorem exec_close {k : Prog τ} {r : Rd} {o : Option τ} :
    (closeSteps k).exec ⟨r, Obj.ofOption o⟩ = k.exec ⟨r.stop, .missing⟩ := by
  unfold closeSteps
  rw [exec_stop]
  cases o <;> rfl

theorem exec_reset {k : Prog τ} {r : Rd} {o : Obj τ} : (resetSteps k).exec ⟨r, o⟩ = k.exec ⟨r.reset, o⟩ := rfl

/-- The result of a file reader's call in the shared state. -/
def sharedResult (x : M (Bool × FileReader)) : M (Bool × Shared Cache) := x >>= fun y => .ok (y.1, y.2.shared)

theorem exec_finish (g : Geo) (f : Dev) (r : Rd) :
    (finishSteps g f).exec ⟨r, .missing⟩ = sharedResult (playFinish g r f) := by
  unfold finishSteps playFinish sharedResult
  rw [exec_test]
  simp only [decide_eq_true_eq]
  by_cases h1 : u32 r.fileSize ≤ u32 (r.header * 2)
  · rw [if_pos h1, if_pos h1]; rfl
  rw [if_neg h1, if_neg h1]
  rw [exec_test]
  simp only [decide_eq_true_eq]
  by_cases h2 : r.nch = 0
  · rw [if_pos h2, if_pos h2]; rfl
  rw [if_neg h2, if_neg h2]
  simp only [exec_rd, pure_eq_ok]
  by_cases h3 : r.loopType = .none
  · simp only [h3, if_true]
    rfl
  · simp only [h3, if_false]
    rfl

theorem exec_wav (g : Geo) (f : Dev) (junk : List Nat) (r : Rd) :
    (wavSteps g f junk).exec ⟨r, .missing⟩ =
      sharedResult (playParseWav r f junk >>= fun x =>
        if !x.1 then .ok (false, { rd := x.2.1, src := none }) else playFinish g x.2.1 x.2.2) := by
  unfold wavSteps playParseWav
  simp only
  cases h1 : readWaveHeaderFromBuffer (overlay (f.read 36).1 junk) {} with
  | error e => rfl
  | ok x =>
    simp only [ok_bind]
    by_cases h2 : x.2.bitDepth = 16
    · rw [if_neg (not_not.2 h2), if_neg (not_not.2 h2)]
      unfold nchSteps
      rw [exec_rd]
      cases h3 : readInfoTags (overlay ((f.read 36).2.read 8).1 (overlay (f.read 36).1 junk)) 0 with
      | error e => rfl
      | ok y =>
        cases y with
        | none => rfl
        | some tags =>
          simp only [ok_bind]
          cases h4 : readDataHeader (overlay ((((f.read 36).2.read 8).2.seek (u32 (36 + tags)).toNat).read 8).1
              (overlay ((f.read 36).2.read 8).1 (overlay (f.read 36).1 junk))) 0 with
          | error e => rfl
          | ok z =>
            obtain ⟨ok, dh⟩ := z
            cases ok with
            | false => rfl
            | true =>
              simp only [exec_rd]
              rw [exec_finish]
              rfl
    · rw [if_pos h2, if_pos h2]; rfl

/-- The steps of starting a file are those of `FileReader.playFile` on a stopped reader. -/
theorem exec_playFile (g : Geo) (a : FileReader) (file : Option Dev) (junk : List Nat) (isWave : Bool) (n : Int) :
    (playFileSteps g file junk isWave n).exec a.shared =
      sharedResult (FileReader.playFile g { a with rd := a.rd.stop } file junk isWave n) := by
  unfold playFileSteps playSteps openSteps FileReader.shared FileReader.playFile FileReader.close
  rw [exec_stop, exec_close]
  cases isWave with
  | true =>
    simp only [if_true]
    cases file with
    | none => rfl
    | some f =>
      simp only
      rw [exec_rd, exec_wav]
      congr 2
  | false =>
    simp only [Bool.false_eq_true, if_false]
    unfold nchSteps
    rw [exec_rd]
    cases file with
    | none => rfl
    | some f =>
      simp only
      rw [exec_rd, exec_rd, exec_finish]

theorem exec_arrayRaw (a : ArrayReader) (data : List Int) (len n : Int) :
    (arrayRawSteps data len n).exec a.shared = .ok ((a.playRaw data len n).1, (a.playRaw data len n).2.shared) := by
  unfold arrayRawSteps ArrayReader.shared nchSteps
  rw [exec_obj, exec_stop]
  rfl

theorem exec_playArray (a : ArrayReader) (data : List Int) (len n : Int) :
    (playArraySteps data len n).exec a.shared =
      .ok ((ArrayReader.playRaw { a with rd := a.rd.stop } data len n).1,
           (ArrayReader.playRaw { a with rd := a.rd.stop } data len n).2.shared) := by
  unfold playArraySteps
  rw [← exec_arrayRaw]
  exact exec_stop

theorem exec_playArrayWav (a : ArrayReader) (image : List Nat) :
    (playArrayWavSteps image).exec a.shared =
      (ArrayReader.playWav { a with rd := a.rd.stop } image >>= fun x => .ok (x.1, x.2.shared)) := by
  unfold playArrayWavSteps arrayWavSteps ArrayReader.playWav
  unfold ArrayReader.shared
  rw [exec_stop]
  cases h1 : readWaveHeaderFromBuffer image {} with
  | error e => rfl
  | ok x =>
    obtain ⟨ok, hdr⟩ := x
    cases ok with
    | false => rfl
    | true =>
      simp only [ok_bind]
      cases h2 : readInfoTags image 36 with
      | error e => rfl
      | ok y =>
        cases y with
        | none => rfl
        | some tags =>
          simp only [ok_bind]
          cases h3 : readDataHeader image (u32 (36 + tags)).toNat with
          | error e => rfl
          | ok z =>
            obtain ⟨ok, dh⟩ := z
            cases ok with
            | false => rfl
            | true =>
              simp only [ok_bind]
              by_cases h4 : hdr.numChannels = 0
              · rw [if_pos h4]; simp only [h4]; rfl
              · rw [if_neg h4]
                simp only [h4]
                exact exec_arrayRaw { a with rd := a.rd.stop } _ _ _

/-! ## Sequences of calls -/

/-- From a settled state, every state the call can be interrupted in is guarded, and it leaves a settled state. -/
def Prog.Safe (fp : Fp) (T : Src (Option τ)) (p : Prog τ) : Prop :=
  ∀ sh : Shared τ, sh.Settled → ∀ p' sh', Interrupted fp T (p, sh) (p', sh') →
    sh'.Guarded ∧ ∀ b, p' = .done b → sh'.Settled

theorem updates_settled (hT : Sound T) {sh sh' : Shared τ} (h : Updates fp T sh sh') : sh.Settled → sh'.Settled := by
  induction h with
  | refl sh => exact id
  | step hu _ ih => exact fun h => ih (update_settled hT h hu)

theorem safe_done (hT : Sound T) (b : Bool) : (Prog.done b).Safe fp T := by
  intro sh hs p' sh' h
  obtain ⟨_, h2⟩ := steps_done h b rfl
  have := updates_settled hT h2 hs
  exact ⟨this.guarded, fun _ _ => this⟩

theorem safe_stopsFirst (hT : Sound T) {p : Prog τ} (hp : p.StopsFirst) : p.Safe fp T := by
  obtain ⟨k, rfl, hk⟩ := hp
  intro sh hs p' sh' h
  have h1 : p'.Stage k sh' := Prog.Stage.steps hT hk h (.inl ⟨rfl, hs⟩)
  refine ⟨h1.guarded, ?_⟩
  rintro b rfl
  rcases h1 with ⟨h, _⟩ | ⟨h, _⟩ | h
  · cases h
  · cases h
  · exact h

theorem safe_act (hT : Sound T) {f : Shared τ → Shared τ} {k : Prog τ} (hf : ∀ sh : Shared τ, sh.Settled → (f sh).Settled)
    (hk : k.Safe fp T) : (Prog.act f k).Safe fp T := by
  intro sh hs p' sh' h
  generalize hx : (Prog.act f k, sh) = x at h
  generalize hy : (p', sh') = y at h
  induction h generalizing sh with
  | refl x =>
    subst hx
    cases hy
    exact ⟨hs.guarded, fun b hb => by cases hb⟩
  | act h _ =>
    cases hx
    subst hy
    exact hk _ (hf _ hs) _ _ h
  | test _ _ => cases hx
  | intr hu _ ih =>
    cases hx
    exact ih _ (update_settled hT hs hu) rfl hy

theorem steps_then {q : Prog τ} {x y : Prog τ × Shared τ} (h : Interrupted fp T x y) :
    ∀ p sh, x = (p.then q, sh) → (∃ p' sh', Interrupted fp T (p, sh) (p', sh') ∧ y = (p'.then q, sh')) ∨
      ∃ b sh1, Interrupted fp T (p, sh) (.done b, sh1) ∧ Interrupted fp T (q, sh1) y := by
  induction h with
  | refl x =>
    rintro p sh rfl
    exact .inl ⟨p, sh, .refl _, rfl⟩
  | @act f k sh0 y h ih =>
    intro p sh hx
    cases p with
    | done b =>
      refine .inr ⟨b, sh, .refl _, ?_⟩
      rw [show (q, sh) = (Prog.act f k, sh0) from hx.symm]
      exact .act h
    | fail e => cases hx
    | act f' k' =>
      cases hx
      rcases ih k' _ rfl with ⟨p', sh', h1, h2⟩ | ⟨b, sh1, h1, h2⟩
      · exact .inl ⟨p', sh', .act h1, h2⟩
      · exact .inr ⟨b, sh1, .act h1, h2⟩
    | test c a b => cases hx
  | @test c a b sh0 y h ih =>
    intro p sh hx
    cases p with
    | done d =>
      refine .inr ⟨d, sh, .refl _, ?_⟩
      rw [show (q, sh) = (Prog.test c a b, sh0) from hx.symm]
      exact .test h
    | fail e => cases hx
    | act f' k' => cases hx
    | test c' a' b' =>
      cases hx
      have e : (if c sh0 then a'.then q else b'.then q) = (if c sh0 then a' else b').then q := by split <;> rfl
      rcases ih (if c sh0 then a' else b') sh0 (by rw [e]) with ⟨p', sh', h1, h2⟩ | ⟨b, sh1, h1, h2⟩
      · exact .inl ⟨p', sh', .test h1, h2⟩
      · exact .inr ⟨b, sh1, .test h1, h2⟩
  | intr hu _ ih =>
    intro p sh hx
    cases hx
    rcases ih p _ rfl with ⟨p', sh', h1, h2⟩ | ⟨b, sh1, h1, h2⟩
    · exact .inl ⟨p', sh', .intr hu h1, h2⟩
    · exact .inr ⟨b, sh1, .intr hu h1, h2⟩

theorem safe_then {p q : Prog τ} (hp : p.Safe fp T) (hq : q.Safe fp T) : (p.then q).Safe fp T := by
  intro sh hs p' sh' h
  rcases steps_then h p sh rfl with ⟨p1, sh1, h1, h2⟩ | ⟨b, sh1, h1, h2⟩
  · cases h2
    obtain ⟨k1, k2⟩ := hp sh hs _ _ h1
    refine ⟨k1, ?_⟩
    intro b hb
    cases p1 with
    | done d => exact k2 d rfl
    | fail e => cases hb
    | act f k => cases hb
    | test c x y => cases hb
  · exact hq sh1 ((hp sh hs _ _ h1).2 b rfl) _ _ h2

theorem safe_session (hT : Sound T) : ∀ {calls : List (Prog τ)}, (∀ p ∈ calls, p.Safe fp T) → (session calls).Safe fp T
  | [], _ => safe_done hT true
  | p :: ps, h => safe_then (h p (by simp)) (safe_session hT fun q hq => h q (by simp [hq]))

theorem stopsFirst_fileStop : (stopSteps (.done true) : Prog τ).StopsFirst :=
  stopsFirst (quietFrom_done fun _ h => h)

theorem stopsFirst_close : (closeSteps (.done true) : Prog τ).StopsFirst := by
  refine stopsFirst ?_
  intro sh ho hp
  have h := quietFrom_close (P := Obj.Whole) (k := (.done true : Prog τ)) (quietFrom_done fun o h => .inl h) sh ho hp
  obtain ⟨_, h⟩ := h
  simp only [hp] at h
  exact h

theorem stopsFirst_playFile (g : Geo) (file : Option Dev) (junk : List Nat) (isWave : Bool) (n : Int) :
    (playFileSteps g file junk isWave n).StopsFirst := stopsFirst (quietFrom_play _ g file junk isWave n)

theorem stopsFirst_playArray (data : List Int) (len n : Int) : (playArraySteps data len n).StopsFirst :=
  stopsFirst (quietFrom_arrayRaw _ data len n)

theorem stopsFirst_playArrayWav (image : List Nat) : (playArrayWavSteps image).StopsFirst :=
  stopsFirst (quietFrom_arrayWav image)

theorem safe_rd (hT : Sound T) {f : Rd → Rd} (hf : ∀ r, (f r).playing = r.playing) :
    (Prog.rd f (.done true) : Prog τ).Safe fp T := by
  refine safe_act hT ?_ (safe_done hT true)
  rintro sh (h | ⟨h1, h2⟩)
  · exact .inl h
  · exact .inr ⟨h1, (hf sh.rd).trans h2⟩

theorem fileCall_safe (hT : Sound (fileSrc g nullOk)) (c : FileCall) : (c.steps g).Safe fp (fileSrc g nullOk) := by
  cases c with
  | stop => exact safe_stopsFirst hT stopsFirst_fileStop
  | close => exact safe_stopsFirst hT stopsFirst_close
  | playRaw file n => exact safe_stopsFirst hT (stopsFirst_playFile _ _ _ _ _)
  | playWav file junk => exact safe_stopsFirst hT (stopsFirst_playFile _ _ _ _ _)
  | set f hf => exact safe_rd hT hf
  | setSource f =>
    refine safe_act hT ?_ (safe_done hT true)
    rintro sh (⟨s, h⟩ | ⟨h1, h2⟩)
    · refine .inl ⟨f s, ?_⟩
      simp only [h]
      rfl
    · refine .inr ⟨?_, h2⟩
      simp only [h1]
      rfl

theorem arrayCall_safe (hT : Sound arraySrc) (c : ArrayCall) : c.steps.Safe fp arraySrc := by
  cases c with
  | stop => exact safe_stopsFirst hT stopsFirst_fileStop
  | playRaw data len n => exact safe_stopsFirst hT (stopsFirst_playArray _ _ _)
  | playWav image => exact safe_stopsFirst hT (stopsFirst_playArrayWav _)
  | set f hf => exact safe_rd hT hf

/-! ## Settled states are readers -/

theorem FileReader.shared_of_settled {sh : Shared Cache} (h : sh.Settled) : ∃ a : FileReader, sh = a.shared := by
  rcases h with ⟨s, h⟩ | ⟨h, _⟩
  · exact ⟨⟨sh.rd, some s⟩, by simp only [FileReader.shared, Obj.ofOption, ← h]⟩
  · exact ⟨⟨sh.rd, none⟩, by simp only [FileReader.shared, Obj.ofOption, ← h]⟩

theorem ArrayReader.shared_of_settled {sh : Shared (List Int)} (h : sh.Settled) : ∃ a : ArrayReader, sh = a.shared := by
  rcases h with ⟨s, h⟩ | ⟨h, _⟩
  · exact ⟨⟨sh.rd, some s⟩, by simp only [ArrayReader.shared, Obj.ofOption, ← h]⟩
  · exact ⟨⟨sh.rd, none⟩, by simp only [ArrayReader.shared, Obj.ofOption, ← h]⟩

theorem update_map {ρ ρ' : Type} (φ : ρ → ρ') {nch : Int} {playing : Bool} {rd : M (List (List Int) × ρ)} {st : ρ} {alloc : Nat → Bool} :
    update nch playing (rd >>= fun x => .ok (x.1, φ x.2)) (φ st) alloc =
      (update nch playing rd st alloc >>= fun x => .ok (x.1, φ x.2)) := by
  unfold update
  by_cases h1 : nch = -1
  · rw [if_pos h1, if_pos h1]; rfl
  rw [if_neg h1, if_neg h1]
  by_cases h2 : nch < 0
  · rw [if_pos h2, if_pos h2]; rfl
  rw [if_neg h2, if_neg h2]
  cases playing with
  | false => rfl
  | true =>
    simp only [Bool.not_true, Bool.false_eq_true, if_false]
    by_cases h3 : ((List.range nch.toNat).filter alloc).length = (List.range nch.toNat).length
    · rw [if_pos h3, if_pos h3]
      cases rd with
      | error e => rfl
      | ok x => rfl
    · rw [if_neg h3, if_neg h3]; rfl

/-- An update between two calls is the update of the player on its reader. -/
theorem FileReader.update_shared (g : Geo) (nullOk : Bool) (a : FileReader) (fuel : Nat) (alloc : Nat → Bool) :
    a.shared.update fp (fileSrc g nullOk) fuel alloc =
      (a.update fp g nullOk fuel alloc >>= fun x => .ok (x.1, x.2.shared)) := by
  unfold Shared.update FileReader.update
  rw [← update_map]
  congr 1
  unfold FileReader.read Shared.read FileReader.shared
  cases a.src <;> simp only [Obj.ofOption] <;> cases a.rd.read fp (fileSrc g nullOk) fuel _ blockSamples <;> rfl

theorem ArrayReader.update_shared (a : ArrayReader) (fuel : Nat) (alloc : Nat → Bool) :
    a.shared.update fp arraySrc fuel alloc = (a.update fp fuel alloc >>= fun x => .ok (x.1, x.2.shared)) := by
  unfold Shared.update ArrayReader.update
  rw [← update_map]
  congr 1
  unfold ArrayReader.read Shared.read ArrayReader.shared
  cases a.src <;> simp only [Obj.ofOption] <;> cases a.rd.read fp arraySrc fuel _ blockSamples <;> rfl

/-- Running a call without interruption is one way of running it. -/
theorem steps_exec : ∀ {p : Prog τ} {sh : Shared τ} {b : Bool} {sh' : Shared τ}, p.exec sh = .ok (b, sh') →
    Interrupted fp T (p, sh) (.done b, sh')
  | .done b, sh, b', sh', h => by cases h; exact .refl _
  | .fail e, sh, b, sh', h => by cases h
  | .act f k, sh, b, sh', h => .act (steps_exec (p := k) h)
  | .test c a d, sh, b, sh', h => by
    refine .test ?_
    rw [exec_test] at h
    split at h <;> rename_i hc
    · rw [if_pos hc]; exact steps_exec h
    · rw [if_neg hc]; exact steps_exec h

/-! ## What updates leave alone -/

theorem updates_conf {sh sh' : Shared τ} (h : Updates fp T sh sh') : SameConf sh.rd sh'.rd := by
  induction h with
  | refl sh => exact SameConf.refl _
  | @step sh fuel alloc fx sh1 sh2 hu _ ih =>
    refine SameConf.trans ?_ ih
    rcases update_outcome hu with h | ⟨_, fr, h⟩
    · subst h; exact SameConf.refl _
    · unfold Shared.read at h
      cases ho : sh.obj with
      | missing =>
        rw [ho] at h
        obtain ⟨o, h1, h⟩ := bind_ok_iff.1 h
        cases h
        exact read_conf h1
      | live s =>
        rw [ho] at h
        obtain ⟨o, h1, h⟩ := bind_ok_iff.1 h
        cases h
        exact read_conf h1
      | busy s => rw [ho] at h; cases h
      | freed => rw [ho] at h; cases h

theorem interrupted_act {f : Shared τ → Shared τ} {k : Prog τ} {sh : Shared τ} {y : Prog τ × Shared τ}
    (h : Interrupted fp T (.act f k, sh) y) :
    Updates fp T sh y.2 ∨ ∃ sh1, Updates fp T sh sh1 ∧ Interrupted fp T (k, f sh1) y := by
  generalize hx : (Prog.act f k, sh) = x at h
  induction h generalizing sh with
  | refl x => subst hx; exact .inl (.refl _)
  | act h _ => cases hx; exact .inr ⟨_, .refl _, h⟩
  | test _ _ => cases hx
  | intr hu _ ih =>
    cases hx
    rcases ih rfl with h | ⟨sh1, h1, h2⟩
    · exact .inl (.step hu h)
    · exact .inr ⟨sh1, .step hu h1, h2⟩

end TVP
