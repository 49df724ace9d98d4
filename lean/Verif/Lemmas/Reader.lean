import Verif.Lemmas.Play
import Verif.Lemmas.Fp

/-!
# Helper lemmas on `read`
-/

namespace TVP

/-- `r'` is `r` up to the stored interpolation points. -/
def SameBut (r r' : Rd) : Prop := r' = { r with pts := r'.pts }

theorem SameBut.refl (r : Rd) : SameBut r r := rfl
theorem SameBut.trans {a b c : Rd} (h1 : SameBut a b) (h2 : SameBut b c) : SameBut a c := by
  unfold SameBut at *; rw [h2, h1]
theorem SameBut.pts {r : Rd} {p : Nat → Pts} : SameBut r { r with pts := p } := rfl
theorem SameBut.atEnd {r r' : Rd} (h : SameBut r r') : r'.atEnd = r.atEnd := by
  rw [h]; rfl

theorem addPoint_same {r r' : Rd} {ch : Nat} {y : Int} (h : addPoint r ch y = .ok r') : SameBut r r' := by
  unfold addPoint at h
  split at h
  · cases h; exact SameBut.refl r
  · split at h
    · cases h; exact SameBut.pts
    · cases h
  · split at h
    · cases h; exact SameBut.pts
    · cases h

theorem pushLoop_same {fp : Fp} {σ} {S : Src σ} {fwd : Bool} {ch : Nat} : ∀ {k : Nat} {r r' : Rd} {s s' : σ},
    pushLoop fp S fwd ch k r s = .ok (r', s') → SameBut r r'
  | 0, r, r', s, s', h => by unfold pushLoop at h; cases h; exact SameBut.refl r
  | k + 1, r, r', s, s', h => by
    unfold pushLoop at h
    obtain ⟨⟨y, s1⟩, _, h⟩ := bind_ok_iff.1 h
    obtain ⟨⟨y2, s2⟩, _, h⟩ := bind_ok_iff.1 h
    obtain ⟨r2, h2, h⟩ := bind_ok_iff.1 h
    exact (addPoint_same h2).trans (pushLoop_same h)

theorem linearVal_same {fp : Fp} {σ} {S : Src σ} {r r' : Rd} {s s' : σ} {ch : Nat} {v v' : Int}
    (h : linearVal fp S r s ch v = .ok (v', r', s')) : SameBut r r' := by
  unfold linearVal at h
  simp only at h
  split at h
  · obtain ⟨⟨r1, s1⟩, h1, h⟩ := bind_ok_iff.1 h
    have hs : SameBut r r1 := by
      clear h
      split at h1
      · split at h1
        · obtain ⟨p, _, h1⟩ := bind_ok_iff.1 h1
          split at h1
          · obtain ⟨⟨y, s2⟩, _, h1⟩ := bind_ok_iff.1 h1
            obtain ⟨r2, h2, h1⟩ := bind_ok_iff.1 h1
            cases h1
            exact SameBut.trans SameBut.pts (addPoint_same h2)
          · obtain ⟨r2, h2, h1⟩ := bind_ok_iff.1 h1
            cases h1; exact addPoint_same h2
        · cases h1; exact SameBut.refl r
      · split at h1
        · split at h1
          · obtain ⟨p, _, h1⟩ := bind_ok_iff.1 h1
            split at h1
            · obtain ⟨⟨y, s2⟩, _, h1⟩ := bind_ok_iff.1 h1
              obtain ⟨r2, h2, h1⟩ := bind_ok_iff.1 h1
              cases h1
              exact SameBut.trans SameBut.pts (addPoint_same h2)
            · obtain ⟨r2, h2, h1⟩ := bind_ok_iff.1 h1
              cases h1; exact addPoint_same h2
          · cases h1; exact SameBut.refl r
        · cases h1; exact SameBut.refl r
    obtain ⟨p, _, h⟩ := bind_ok_iff.1 h
    split at h
    · obtain ⟨w, _, h⟩ := bind_ok_iff.1 h
      cases h; exact hs
    · cases h; exact hs
  · obtain ⟨r1, h1, h⟩ := bind_ok_iff.1 h
    obtain ⟨p, _, h⟩ := bind_ok_iff.1 h
    cases h; exact addPoint_same h1

theorem quadVal_same {fp : Fp} {σ} {S : Src σ} {r r' : Rd} {s s' : σ} {ch : Nat} {v' : Int}
    (h : quadVal fp S r s ch = .ok (v', r', s')) : SameBut r r' := by
  unfold quadVal at h
  simp only at h
  obtain ⟨⟨r1, s1⟩, h1, h⟩ := bind_ok_iff.1 h
  have hs : SameBut r r1 := by
    clear h
    split at h1
    · split at h1
      · obtain ⟨k, _, h1⟩ := bind_ok_iff.1 h1
        exact pushLoop_same h1
      · cases h1; exact SameBut.refl r
    · split at h1
      · split at h1
        · obtain ⟨k, _, h1⟩ := bind_ok_iff.1 h1
          exact pushLoop_same h1
        · cases h1; exact SameBut.refl r
      · cases h1; exact SameBut.refl r
  obtain ⟨p, _, h⟩ := bind_ok_iff.1 h
  split at h
  · obtain ⟨w, _, h⟩ := bind_ok_iff.1 h
    cases h; exact hs
  · cases h; exact hs

/-- A successful `readNextValue` was not at the end and only touched the interpolation points. -/
theorem readNextValue_some {fp : Fp} {σ} {S : Src σ} {r r' : Rd} {s s' : σ} {ch : Nat} {v : Int}
    (h : readNextValue fp S r s ch = .ok (some v, r', s')) : r.atEnd = false ∧ SameBut r r' := by
  unfold readNextValue at h
  split at h
  · simp at h
  · rename_i he
    refine ⟨by simpa using he, ?_⟩
    obtain ⟨⟨v1, s1⟩, _, h⟩ := bind_ok_iff.1 h
    simp only at h
    split at h
    · cases h; exact SameBut.refl r
    · obtain ⟨⟨v2, r2, s2⟩, h2, h⟩ := bind_ok_iff.1 h
      cases h; exact linearVal_same h2
    · obtain ⟨⟨v2, r2, s2⟩, h2, h⟩ := bind_ok_iff.1 h
      cases h; exact quadVal_same h2

theorem readNextValue_atEnd (fp : Fp) {σ} (S : Src σ) {r : Rd} {s : σ} {ch : Nat} (h : r.atEnd = true) :
    readNextValue fp S r s ch = .ok (none, r, s) := by
  unfold readNextValue; rw [if_pos h]; rfl

/-- An unsuccessful `readNextValue` was at the end and changed nothing. -/
theorem readNextValue_none {fp : Fp} {σ} {S : Src σ} {r r' : Rd} {s s' : σ} {ch : Nat}
    (h : readNextValue fp S r s ch = .ok (none, r', s')) : r.atEnd = true ∧ r' = r ∧ s' = s := by
  cases he : r.atEnd
  · exfalso
    unfold readNextValue at h
    rw [he] at h
    simp only [Bool.false_eq_true, if_false] at h
    obtain ⟨⟨v1, s1⟩, _, h⟩ := bind_ok_iff.1 h
    simp only at h
    split at h
    · simp at h
    · obtain ⟨⟨v2, r2, s2⟩, h2, h⟩ := bind_ok_iff.1 h
      simp at h
    · obtain ⟨⟨v2, r2, s2⟩, h2, h⟩ := bind_ok_iff.1 h
      simp at h
  · rw [readNextValue_atEnd fp S he] at h
    cases h; exact ⟨rfl, rfl, rfl⟩

/-- Away from the end one attempt is enough. -/
theorem readChan_settled {fp : Fp} {σ} {S : Src σ} {fuel : Nat} {r : Rd} {s : σ} {ch : Nat} (he : r.atEnd = false) :
    readChan fp S (fuel + 1) r s ch = readNextValue fp S r s ch := by
  unfold readChan
  cases h : readNextValue fp S r s ch with
  | error e => rfl
  | ok x =>
    obtain ⟨v, r', s'⟩ := x
    cases v with
    | some v => rfl
    | none => rw [(readNextValue_none h).1] at he; cases he

/-- Repeated wrapping only changes the position, the fade flag and the direction. -/
structure SameConf (r r' : Rd) : Prop where
  nch : r'.nch = r.nch
  header : r'.header = r.header
  loopType : r'.loopType = r.loopType
  playStart : r'.playStart = r.playStart
  loopStart : r'.loopStart = r.loopStart
  loopFinish : r'.loopFinish = r.loopFinish
  fileSamples : r'.fileSamples = r.fileSamples
  fileSize : r'.fileSize = r.fileSize
  dual : r'.dual = r.dual
  cfDur : r'.cfDur = r.cfDur
  interp : r'.interp = r.interp
  playing : r'.playing = r.playing
  playbackStart : r'.playbackStart = r.playbackStart
  psram : r'.psram = r.psram

/-- Closes `SameConf r r'` when every configuration field agrees by definition. -/
local macro "conf_rfl" : tactic => `(tactic| exact ⟨rfl, rfl, rfl, rfl, rfl, rfl, rfl, rfl, rfl, rfl, rfl, rfl, rfl, rfl⟩)

theorem SameConf.refl (r : Rd) : SameConf r r := ⟨rfl, rfl, rfl, rfl, rfl, rfl, rfl, rfl, rfl, rfl, rfl, rfl, rfl, rfl⟩
theorem SameConf.trans {a b c : Rd} (h1 : SameConf a b) (h2 : SameConf b c) : SameConf a c :=
  ⟨h2.1.trans h1.1, h2.2.trans h1.2, h2.3.trans h1.3, h2.4.trans h1.4, h2.5.trans h1.5, h2.6.trans h1.6,
   h2.7.trans h1.7, h2.8.trans h1.8, h2.9.trans h1.9, h2.10.trans h1.10, h2.11.trans h1.11, h2.12.trans h1.12,
   h2.13.trans h1.13, h2.14.trans h1.14⟩
theorem SameBut.conf {r r' : Rd} (h : SameBut r r') : SameConf r r' := by
  rw [h]; conf_rfl

theorem wrapAround_conf {r r' : Rd} (h : wrapAround r = some r') : SameConf r r' := by
  unfold wrapAround at h
  simp only at h
  split at h
  · cases h; conf_rfl
  · cases h; conf_rfl
  · cases h

theorem wrapAround_none {r : Rd} : wrapAround r = none ↔ r.loopType = .none := by
  unfold wrapAround
  simp only
  cases r.loopType <;> simp

/-- At the end the loop wraps and tries again, or gives up. -/
theorem readChan_atEnd {fp : Fp} {σ} {S : Src σ} {fuel : Nat} {r : Rd} {s : σ} {ch : Nat} (he : r.atEnd = true) :
    readChan fp S (fuel + 1) r s ch = match wrapAround r with
      | some r => readChan fp S fuel r s ch
      | none => .ok (none, { r with cfOn := false }, s) := by
  rw [readChan, readNextValue_atEnd fp S he]
  rfl

theorem readChan_some {fp : Fp} {σ} {S : Src σ} : ∀ {fuel : Nat} {r r' : Rd} {s s' : σ} {ch : Nat} {v : Int},
    readChan fp S fuel r s ch = .ok (some v, r', s') → r'.atEnd = false ∧ SameConf r r'
  | 0, r, r', s, s', ch, v, h => by unfold readChan at h; cases h
  | fuel + 1, r, r', s, s', ch, v, h => by
    cases he : r.atEnd
    · rw [readChan_settled he] at h
      obtain ⟨_, b⟩ := readNextValue_some h
      exact ⟨by rw [b.atEnd]; exact he, b.conf⟩
    · rw [readChan_atEnd he] at h
      cases hw : wrapAround r with
      | none => rw [hw] at h; simp at h
      | some r2 =>
        rw [hw] at h
        obtain ⟨a, b⟩ := readChan_some h
        exact ⟨a, (wrapAround_conf hw).trans b⟩

/-- With a loop type set, the end of the material is never reported. -/
theorem readChan_loops {fp : Fp} {σ} {S : Src σ} : ∀ {fuel : Nat} {r r' : Rd} {s s' : σ} {ch : Nat},
    r.loopType ≠ .none → readChan fp S fuel r s ch ≠ .ok (none, r', s')
  | 0, r, r', s, s', ch, _, h => by unfold readChan at h; cases h
  | fuel + 1, r, r', s, s', ch, hl, h => by
    cases he : r.atEnd
    · rw [readChan_settled he] at h
      rw [(readNextValue_none h).1] at he; cases he
    · rw [readChan_atEnd he] at h
      cases hw : wrapAround r with
      | none => exact hl (wrapAround_none.1 hw)
      | some r2 =>
        rw [hw] at h
        exact readChan_loops (by rw [(wrapAround_conf hw).loopType]; exact hl) h

theorem readChan_none {fp : Fp} {σ} {S : Src σ} {fuel : Nat} {r r' : Rd} {s s' : σ} {ch : Nat}
    (h : readChan fp S fuel r s ch = .ok (none, r', s')) :
    r.atEnd = true ∧ r.loopType = .none ∧ r' = { r with cfOn := false } ∧ s' = s := by
  have hl : r.loopType = .none := by
    by_contra hl; exact readChan_loops hl h
  cases fuel with
  | zero => unfold readChan at h; cases h
  | succ fuel =>
    cases he : r.atEnd
    · rw [readChan_settled he] at h
      rw [(readNextValue_none h).1] at he; cases he
    · rw [readChan_atEnd he, wrapAround_none.2 hl] at h
      cases h
      exact ⟨rfl, hl, rfl, rfl⟩

/-- Once the first channel has been read, the whole frame is. -/
theorem readFrame_settled {fp : Fp} {σ} {S : Src σ} {fuel : Nat} : ∀ {left ch : Nat} {r r' : Rd} {s s' : σ}
    {vs : List Int} {ok : Bool}, r.atEnd = false → readFrame fp S fuel left ch r s = .ok (vs, ok, r', s') →
    ok = true ∧ vs.length = left ∧ SameBut r r'
  | 0, ch, r, r', s, s', vs, ok, _, h => by
    unfold readFrame at h; cases h; exact ⟨rfl, rfl, SameBut.refl r⟩
  | left + 1, ch, r, r', s, s', vs, ok, he, h => by
    unfold readFrame at h
    obtain ⟨⟨o, r1, s1⟩, h1, h⟩ := bind_ok_iff.1 h
    cases o with
    | none => rw [(readChan_none h1).1] at he; cases he
    | some v =>
      have h1' : readNextValue fp S r s ch = .ok (some v, r1, s1) := by
        cases fuel with
        | zero => unfold readChan at h1; cases h1
        | succ fuel => rw [readChan_settled he] at h1; exact h1
      obtain ⟨a, b⟩ := readNextValue_some h1'
      obtain ⟨⟨vs1, ok1, r2, s2⟩, h2, h⟩ := bind_ok_iff.1 h
      obtain ⟨c, d, e⟩ := readFrame_settled (by rw [b.atEnd]; exact a) h2
      cases h
      exact ⟨c, by simp [d], b.trans e⟩

/-- A frame is either complete or nothing of it was written, and then playback is over. -/
theorem readFrame_cases {fp : Fp} {σ} {S : Src σ} {fuel left : Nat} {r r' : Rd} {s s' : σ}
    {vs : List Int} {ok : Bool} (h : readFrame fp S fuel left 0 r s = .ok (vs, ok, r', s')) :
    SameConf r r' ∧
    ((ok = true ∧ vs.length = left) ∨
     (ok = false ∧ vs = [] ∧ r.atEnd = true ∧ r.loopType = .none ∧ r' = { r with cfOn := false } ∧ s' = s)) := by
  cases left with
  | zero => unfold readFrame at h; cases h; exact ⟨SameConf.refl r, Or.inl ⟨rfl, rfl⟩⟩
  | succ left =>
    unfold readFrame at h
    obtain ⟨⟨o, r1, s1⟩, h1, h⟩ := bind_ok_iff.1 h
    cases o with
    | none =>
      cases h
      obtain ⟨a, b, c, d⟩ := readChan_none h1
      refine ⟨?_, Or.inr ⟨rfl, rfl, a, b, c, d⟩⟩
      rw [c]; conf_rfl
    | some v =>
      obtain ⟨a, b⟩ := readChan_some h1
      obtain ⟨⟨vs1, ok1, r2, s2⟩, h2, h⟩ := bind_ok_iff.1 h
      obtain ⟨c, d, e⟩ := readFrame_settled a h2
      cases h
      exact ⟨b.trans e.conf, Or.inl ⟨c, by simp [d]⟩⟩

theorem stepOn_conf {fp : Fp} {r r' : Rd} (h : stepOn fp r = .ok r') : SameConf r r' := by
  unfold stepOn at h
  simp only at h
  obtain ⟨a, _, h⟩ := bind_ok_iff.1 h
  obtain ⟨b, _, h⟩ := bind_ok_iff.1 h
  obtain ⟨c, _, h⟩ := bind_ok_iff.1 h
  split at h
  · obtain ⟨d, _, h⟩ := bind_ok_iff.1 h
    cases h; conf_rfl
  · cases h; conf_rfl

theorem fadeEnter_conf (r : Rd) : SameConf r (fadeEnter r) := by
  unfold fadeEnter
  split <;> split <;> conf_rfl

theorem updateCrossfade_conf {fp : Fp} {r r' : Rd} (h : updateCrossfade fp r = .ok r') : SameConf r r' := by
  unfold updateCrossfade at h
  have h0 := fadeEnter_conf r
  generalize fadeEnter r = q at *
  simp only at h
  split at h
  · obtain ⟨r1, h1, h⟩ := bind_ok_iff.1 h
    have h2 : SameConf q r1 := by
      split at h1
      · split at h1
        · cases h1; conf_rfl
        · obtain ⟨w, _, h1⟩ := bind_ok_iff.1 h1
          cases h1; conf_rfl
      · split at h1
        · cases h1; conf_rfl
        · obtain ⟨w, _, h1⟩ := bind_ok_iff.1 h1
          cases h1; conf_rfl
    split at h
    · cases h; exact h0.trans (h2.trans (by conf_rfl))
    · cases h; exact h0.trans h2
  · cases h; exact h0

/-- One turn of the loop, with the cross-fade update as an ordinary first step. -/
theorem readLoop_succ (fp : Fp) {σ} (S : Src σ) (fuel n : Nat) (r : Rd) (s : σ) :
    readLoop fp S fuel (n + 1) r s =
      (if r.dual then updateCrossfade fp r else .ok r) >>= fun r1 =>
        readFrame fp S fuel r1.nch.toNat 0 r1 s >>= fun x =>
          if x.2.1 then stepOn fp x.2.2.1 >>= fun r3 => readLoop fp S fuel n r3 x.2.2.2 >>= fun o =>
            .ok { o with frames := x.1 :: o.frames }
          else .ok ⟨[], x.1, x.2.2.1, x.2.2.2⟩ := by
  rw [readLoop]
  cases r.dual <;> rfl

/-- What every successful read preserves and the shape of its output. -/
theorem readLoop_conf {fp : Fp} {σ} {S : Src σ} {fuel : Nat} : ∀ {n : Nat} {r : Rd} {s : σ} {o : ReadOut σ},
    readLoop fp S fuel n r s = .ok o →
    SameConf r o.r ∧ o.extra = [] ∧ o.frames.length ≤ n ∧ (∀ f ∈ o.frames, f.length = r.nch.toNat)
  | 0, r, s, o, h => by unfold readLoop at h; cases h; exact ⟨SameConf.refl r, rfl, by simp, by simp⟩
  | n + 1, r, s, o, h => by
    rw [readLoop_succ] at h
    obtain ⟨r1, h1, h⟩ := bind_ok_iff.1 h
    have c1 : SameConf r r1 := by
      split at h1
      · exact updateCrossfade_conf h1
      · cases h1; conf_rfl
    obtain ⟨⟨vs, ok, r2, s2⟩, h2, h⟩ := bind_ok_iff.1 h
    obtain ⟨c2, hcase⟩ := readFrame_cases h2
    simp only at h
    rcases hcase with ⟨rfl, hl⟩ | ⟨rfl, rfl, _⟩
    · simp only [if_true] at h
      obtain ⟨r3, h3, h⟩ := bind_ok_iff.1 h
      obtain ⟨o', h4, h⟩ := bind_ok_iff.1 h
      obtain ⟨c4, e4, l4, f4⟩ := readLoop_conf h4
      have c3 := stepOn_conf h3
      have hn : r1.nch = r.nch := c1.nch
      have hn3 : r3.nch = r.nch := (c1.trans (c2.trans c3)).nch
      cases h
      refine ⟨c1.trans (c2.trans (c3.trans c4)), e4, by simp only [List.length_cons]; omega, ?_⟩
      intro f hf
      rcases List.mem_cons.1 hf with rfl | hf
      · rw [hl, hn]
      · rw [f4 f hf, hn3]
    · simp only [Bool.false_eq_true, if_false] at h
      cases h
      exact ⟨c1.trans c2, rfl, by simp, by simp⟩

/-- Splitting a read. -/
theorem readLoop_add (fp : Fp) {σ} (S : Src σ) (fuel m : Nat) : ∀ (n : Nat) (r : Rd) (s : σ),
    readLoop fp S fuel (n + m) r s = (do
      let o1 ← readLoop fp S fuel n r s
      if o1.frames.length = n then
        let o2 ← readLoop fp S fuel m o1.r o1.s
        return { o2 with frames := o1.frames ++ o2.frames }
      else return o1)
  | 0, r, s => by
    rw [Nat.zero_add]
    conv_rhs => rw [readLoop]
    simp only [ok_bind, List.length_nil, if_true, List.nil_append]
    cases readLoop fp S fuel m r s <;> rfl
  | n + 1, r, s => by
    rw [show n + 1 + m = (n + m) + 1 by omega]
    rw [readLoop_succ, readLoop_succ]
    cases h1 : (if r.dual then updateCrossfade fp r else .ok r) with
    | error e => rfl
    | ok r1 =>
      simp only [ok_bind]
      cases h2 : readFrame fp S fuel r1.nch.toNat 0 r1 s with
      | error e => rfl
      | ok x =>
        obtain ⟨vs, ok, r2, s2⟩ := x
        simp only [ok_bind]
        cases ok with
        | false =>
          simp only [Bool.false_eq_true, if_false, pure_eq_ok, ok_bind, List.length_nil]
          rw [if_neg (by omega)]
        | true =>
          simp only [if_true]
          cases h3 : stepOn fp r2 with
          | error e => rfl
          | ok r3 =>
            simp only [ok_bind]
            rw [readLoop_add fp S fuel m n r3 s2]
            cases h4 : readLoop fp S fuel n r3 s2 with
            | error e => rfl
            | ok o1 =>
              simp only [ok_bind, pure_eq_ok, List.length_cons]
              by_cases hl : o1.frames.length = n
              · rw [if_pos hl, if_pos (by omega)]
                cases h5 : readLoop fp S fuel m o1.r o1.s with
                | error e => rfl
                | ok o2 => rfl
              · rw [if_neg hl, if_neg (by omega)]
                rfl

/-- At the end of unlooped material `read` returns nothing. -/
theorem read_atEnd (fp : Fp) {σ} (S : Src σ) (fuel : Nat) (r : Rd) (s : σ) (n : Nat)
    (hn : 0 < r.nch) (hd : r.dual = false) (hl : r.loopType = .none) (he : r.atEnd = true) :
    ∃ r', r.read fp S (fuel + 1) s n = .ok ⟨[], [], r', s⟩ := by
  unfold Rd.read
  cases hp : r.playing
  · exact ⟨r, rfl⟩
  · simp only [Bool.not_true, Bool.false_eq_true, if_false]
    rw [if_neg (by omega), if_neg (by omega)]
    cases n with
    | zero => exact ⟨r, rfl⟩
    | succ n =>
      obtain ⟨k, hk⟩ : ∃ k, r.nch.toNat = k + 1 := ⟨r.nch.toNat - 1, by omega⟩
      unfold readLoop
      simp only [hd, Bool.false_eq_true, if_false, pure_eq_ok, ok_bind, hk]
      unfold readFrame readChan readNextValue
      simp only [he, if_true, pure_eq_ok, ok_bind, wrapAround, hl, Bool.false_eq_true, if_false]
      exact ⟨_, rfl⟩

end TVP
