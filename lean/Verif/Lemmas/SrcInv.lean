import Verif.Lemmas.ArrayPlay

/-!
# What every source access preserves, `read` preserves
-/

namespace TVP

variable {σ : Type} {S : Src σ} {I : σ → Prop}

/-- `I` holds after every access if it held before. -/
def SrcInv (S : Src σ) (I : σ → Prop) : Prop := ∀ s i v s', I s → S.get s i = .ok (v, s') → I s'

theorem srcVal_inv (hI : SrcInv S I) {r : Rd} {s s' : σ} {pos off v : Int} {ch : Nat} (hs : I s)
    (h : srcVal S r s pos off ch = .ok (v, s')) : I s' := by
  unfold srcVal at h
  obtain ⟨p, _, h⟩ := bind_ok_iff.1 h
  obtain ⟨q, _, h⟩ := bind_ok_iff.1 h
  exact hI _ _ _ _ hs h

theorem baseVal_inv (hI : SrcInv S I) {fp : Fp} {r : Rd} {s s' : σ} {v : Int} {ch : Nat} (hs : I s)
    (h : baseVal fp S r s ch = .ok (v, s')) : I s' := by
  unfold baseVal at h
  split at h
  · exact srcVal_inv hI hs h
  · split at h
    · exact srcVal_inv hI hs h
    · obtain ⟨⟨v1, s1⟩, h1, h⟩ := bind_ok_iff.1 h
      obtain ⟨⟨v2, s2⟩, h2, h⟩ := bind_ok_iff.1 h
      obtain ⟨w, _, h⟩ := bind_ok_iff.1 h
      cases h
      exact srcVal_inv hI (srcVal_inv hI hs h1) h2

theorem pushLoop_inv (hI : SrcInv S I) {fp : Fp} {fwd : Bool} {ch : Nat} : ∀ {k : Nat} {r r' : Rd} {s s' : σ}, I s →
    pushLoop fp S fwd ch k r s = .ok (r', s') → I s'
  | 0, r, r', s, s', hs, h => by unfold pushLoop at h; cases h; exact hs
  | k + 1, r, r', s, s', hs, h => by
    unfold pushLoop at h
    simp only at h
    obtain ⟨⟨y, s1⟩, h1, h⟩ := bind_ok_iff.1 h
    have k1 := srcVal_inv hI hs h1
    obtain ⟨⟨y2, s2⟩, h2, h⟩ := bind_ok_iff.1 h
    have k2 : I s2 := by
      clear h
      split at h2
      · obtain ⟨⟨v2, s3⟩, h3, h2⟩ := bind_ok_iff.1 h2
        obtain ⟨w, _, h2⟩ := bind_ok_iff.1 h2
        cases h2
        exact srcVal_inv hI k1 h3
      · cases h2; exact k1
    obtain ⟨r1, _, h⟩ := bind_ok_iff.1 h
    exact pushLoop_inv hI k2 h

theorem linearVal_inv (hI : SrcInv S I) {fp : Fp} {r r' : Rd} {s s' : σ} {ch : Nat} {v v' : Int} (hs : I s)
    (h : linearVal fp S r s ch v = .ok (v', r', s')) : I s' := by
  unfold linearVal at h
  simp only at h
  split at h
  · obtain ⟨⟨r1, s1⟩, h1, h⟩ := bind_ok_iff.1 h
    have k1 : I s1 := by
      clear h
      split at h1
      · split at h1
        · obtain ⟨p, _, h1⟩ := bind_ok_iff.1 h1
          split at h1
          · obtain ⟨⟨y, s2⟩, h2, h1⟩ := bind_ok_iff.1 h1
            obtain ⟨q, _, h1⟩ := bind_ok_iff.1 h1
            cases h1; exact srcVal_inv hI hs h2
          · obtain ⟨q, _, h1⟩ := bind_ok_iff.1 h1
            cases h1; exact hs
        · cases h1; exact hs
      · split at h1
        · split at h1
          · obtain ⟨p, _, h1⟩ := bind_ok_iff.1 h1
            split at h1
            · obtain ⟨⟨y, s2⟩, h2, h1⟩ := bind_ok_iff.1 h1
              obtain ⟨q, _, h1⟩ := bind_ok_iff.1 h1
              cases h1; exact srcVal_inv hI hs h2
            · obtain ⟨q, _, h1⟩ := bind_ok_iff.1 h1
              cases h1; exact hs
          · cases h1; exact hs
        · cases h1; exact hs
    obtain ⟨p, _, h⟩ := bind_ok_iff.1 h
    split at h
    · obtain ⟨w, _, h⟩ := bind_ok_iff.1 h
      cases h; exact k1
    · cases h; exact k1
  · obtain ⟨r1, _, h⟩ := bind_ok_iff.1 h
    obtain ⟨p, _, h⟩ := bind_ok_iff.1 h
    cases h; exact hs

theorem quadVal_inv (hI : SrcInv S I) {fp : Fp} {r r' : Rd} {s s' : σ} {ch : Nat} {v' : Int} (hs : I s)
    (h : quadVal fp S r s ch = .ok (v', r', s')) : I s' := by
  unfold quadVal at h
  simp only at h
  obtain ⟨⟨r1, s1⟩, h1, h⟩ := bind_ok_iff.1 h
  have k1 : I s1 := by
    clear h
    split at h1
    · split at h1
      · obtain ⟨k, _, h1⟩ := bind_ok_iff.1 h1
        exact pushLoop_inv hI hs h1
      · cases h1; exact hs
    · split at h1
      · split at h1
        · obtain ⟨k, _, h1⟩ := bind_ok_iff.1 h1
          exact pushLoop_inv hI hs h1
        · cases h1; exact hs
      · cases h1; exact hs
  obtain ⟨p, _, h⟩ := bind_ok_iff.1 h
  split at h
  · obtain ⟨w, _, h⟩ := bind_ok_iff.1 h
    cases h; exact k1
  · cases h; exact k1

theorem readNextValue_inv (hI : SrcInv S I) {fp : Fp} {r r' : Rd} {s s' : σ} {ch : Nat} {o : Option Int} (hs : I s)
    (h : readNextValue fp S r s ch = .ok (o, r', s')) : I s' := by
  unfold readNextValue at h
  split at h
  · cases h; exact hs
  · obtain ⟨⟨v, s1⟩, h1, h⟩ := bind_ok_iff.1 h
    have k1 := baseVal_inv hI hs h1
    simp only at h
    split at h
    · cases h; exact k1
    · obtain ⟨⟨v2, r2, s2⟩, h2, h⟩ := bind_ok_iff.1 h
      cases h; exact linearVal_inv hI k1 h2
    · obtain ⟨⟨v2, r2, s2⟩, h2, h⟩ := bind_ok_iff.1 h
      cases h; exact quadVal_inv hI k1 h2

theorem readChan_inv (hI : SrcInv S I) {fp : Fp} : ∀ {fuel : Nat} {r r' : Rd} {s s' : σ} {ch : Nat} {o : Option Int}, I s →
    readChan fp S fuel r s ch = .ok (o, r', s') → I s'
  | 0, r, r', s, s', ch, o, hs, h => by unfold readChan at h; cases h
  | fuel + 1, r, r', s, s', ch, o, hs, h => by
    unfold readChan at h
    obtain ⟨⟨o1, r1, s1⟩, h1, h⟩ := bind_ok_iff.1 h
    have k1 := readNextValue_inv hI hs h1
    cases o1 with
    | some v => cases h; exact k1
    | none =>
      simp only at h
      cases hw : wrapAround r1 with
      | none => rw [hw] at h; cases h; exact k1
      | some r2 => rw [hw] at h; exact readChan_inv hI k1 h

theorem readFrame_inv (hI : SrcInv S I) {fp : Fp} {fuel : Nat} : ∀ {left ch : Nat} {r r' : Rd} {s s' : σ}
    {vs : List Int} {ok : Bool}, I s → readFrame fp S fuel left ch r s = .ok (vs, ok, r', s') → I s'
  | 0, ch, r, r', s, s', vs, ok, hs, h => by unfold readFrame at h; cases h; exact hs
  | left + 1, ch, r, r', s, s', vs, ok, hs, h => by
    unfold readFrame at h
    obtain ⟨⟨o, r1, s1⟩, h1, h⟩ := bind_ok_iff.1 h
    have k1 := readChan_inv hI hs h1
    cases o with
    | none => cases h; exact k1
    | some v =>
      obtain ⟨⟨vs1, ok1, r2, s2⟩, h2, h⟩ := bind_ok_iff.1 h
      cases h
      exact readFrame_inv hI k1 h2

theorem readLoop_inv (hI : SrcInv S I) {fp : Fp} {fuel : Nat} : ∀ {n : Nat} {r : Rd} {s : σ} {o : ReadOut σ}, I s →
    readLoop fp S fuel n r s = .ok o → I o.s
  | 0, r, s, o, hs, h => by unfold readLoop at h; cases h; exact hs
  | n + 1, r, s, o, hs, h => by
    rw [readLoop_succ] at h
    obtain ⟨r1, _, h⟩ := bind_ok_iff.1 h
    obtain ⟨⟨vs, ok, r2, s2⟩, h2, h⟩ := bind_ok_iff.1 h
    have k2 := readFrame_inv hI hs h2
    simp only at h
    split at h
    · obtain ⟨r3, _, h⟩ := bind_ok_iff.1 h
      obtain ⟨o2, h3, h⟩ := bind_ok_iff.1 h
      cases h
      exact (readLoop_inv hI k2 h3 : I o2.s)
    · cases h; exact k2

theorem read_inv (hI : SrcInv S I) {fp : Fp} {fuel n : Nat} {r : Rd} {s : σ} {o : ReadOut σ} (hs : I s)
    (h : r.read fp S fuel s n = .ok o) : I o.s := by
  unfold Rd.read at h
  split at h
  · cases h; exact hs
  · split at h
    · cases h
    · split at h
      · split at h
        · cases h; exact hs
        · cases h
      · exact readLoop_inv hI hs h

/-- Reading leaves the array alone. -/
theorem arraySrc_const (x : Option (List Int)) : SrcInv arraySrc (· = x) := by
  rintro s i v s' rfl h
  unfold arraySrc at h
  simp only at h
  split at h
  · cases h
  · split at h
    · split at h
      · cases h; rfl
      · cases h
    · cases h

theorem read_conf {fp : Fp} {fuel n : Nat} {r : Rd} {s : σ} {o : ReadOut σ} (h : r.read fp S fuel s n = .ok o) :
    SameConf r o.r := by
  unfold Rd.read at h
  split at h
  · cases h; exact SameConf.refl r
  · split at h
    · cases h
    · split at h
      · split at h
        · cases h; exact SameConf.refl r
        · cases h
      · exact (readLoop_conf h).1

theorem readAll_conf {fp : Fp} {fuel : Nat} : ∀ {ns : List Nat} {a a' : ArrayReader} {fs : List (List Int)},
    readAll fp fuel ns a = .ok (fs, a') → SameConf a.rd a'.rd ∧ a'.src = a.src
  | [], a, a', fs, h => by unfold readAll at h; cases h; exact ⟨SameConf.refl _, rfl⟩
  | n :: ns, a, a', fs, h => by
    unfold readAll at h
    obtain ⟨⟨f, b⟩, h1, h⟩ := bind_ok_iff.1 h
    obtain ⟨⟨fs2, c⟩, h2, h⟩ := bind_ok_iff.1 h
    cases h
    unfold ArrayReader.read at h1
    obtain ⟨o, h3, h1⟩ := bind_ok_iff.1 h1
    cases h1
    obtain ⟨k1, k2⟩ := readAll_conf h2
    exact ⟨(read_conf h3).trans k1, k2.trans (read_inv (arraySrc_const a.src) rfl h3)⟩

end TVP
