import Verif.Lemmas.Window
import Verif.Lemmas.Laws
import Verif.Model.Player

/-!
# Reading as a sequence of frame positions

Without interpolation and cross-fade, the positions read do not depend on the source.
-/

namespace TVP
open Spec

/-- The frame positions a plain, unlooped `read` of `n` frames visits, and the reader afterwards. -/
def posTrace (fp : Fp) : Nat → Rd → M (List Int × Rd)
  | 0, r => .ok ([], r)
  | n + 1, r =>
    if r.atEnd then .ok ([], r)
    else stepOn fp r >>= fun r' => posTrace fp n r' >>= fun x => .ok (r.pos1 :: x.1, x.2)

/-- The samples of the frame at `p`. -/
def frameIdx (nch p : Int) : List Int := (List.range nch.toNat).map fun c : Nat => p + c

/-- Reading samples from a source one after the other. -/
def srcGets {σ} (S : Src σ) : σ → List Int → M (List Int × σ)
  | s, [] => .ok ([], s)
  | s, i :: is => S.get s i >>= fun x => srcGets S x.2 is >>= fun y => .ok (x.1 :: y.1, y.2)

/-- Reading frames from a source one after the other. -/
def srcFrames {σ} (S : Src σ) (nch : Int) : σ → List Int → M (List (List Int) × σ)
  | s, [] => .ok ([], s)
  | s, p :: ps => srcGets S s (frameIdx nch p) >>= fun x => srcFrames S nch x.2 ps >>= fun y => .ok (x.1 :: y.1, y.2)

theorem readFrame_gets (fp : Fp) {σ} (S : Src σ) {r : Rd} (hr : Plain r) (he : r.atEnd = false) (hp : InI32 r.pos1) (fuel : Nat) :
    ∀ (left ch : Nat) (s : σ), (∀ c : Nat, c < ch + left → InI32 (r.pos1 + c)) →
      readFrame fp S (fuel + 1) left ch r s =
        srcGets S s ((List.range' ch left).map fun c : Nat => r.pos1 + c) >>= fun x => .ok (x.1, true, r, x.2)
  | 0, ch, s, _ => rfl
  | left + 1, ch, s, hb => by
    have b1 := hb ch (by omega)
    unfold readFrame
    rw [readChan_settled he]
    have e : readNextValue fp S r s ch = S.get s (r.pos1 + ch) >>= fun x => .ok (some x.1, r, x.2) := by
      unfold readNextValue baseVal srcVal
      simp only [he, hr.dual, hr.interp, Bool.false_eq_true, if_false, Bool.not_false, Bool.true_or, if_true,
        zero_mul, add_zero, chkI32_ok hp, chkI32_ok b1, ok_bind, pure_eq_ok]
    rw [e, List.range'_succ, List.map_cons]
    unfold srcGets
    cases hg : S.get s (r.pos1 + ch) with
    | error e => rfl
    | ok x =>
      simp only [ok_bind]
      rw [readFrame_gets fp S hr he hp fuel left (ch + 1) x.2 (fun c hc => hb c (by omega))]
      cases srcGets S x.2 ((List.range' (ch + 1) left).map fun c : Nat => r.pos1 + c) <;> rfl

/-- `read` is: work out the positions, then read the frames there. -/
theorem readLoop_posTrace (fp : Fp) {σ} (S : Src σ) (fuel : Nat) : ∀ (n : Nat) (r r' : Rd) (ps : List Int) (s : σ), Plain r → r.loopType = .none →
    posTrace fp n r = .ok (ps, r') → (∀ p ∈ ps, InI32 p ∧ ∀ c : Nat, (c : Int) < r.nch → InI32 (p + c)) →
    readLoop fp S (fuel + 1) n r s = srcFrames S r.nch s ps >>= fun x => .ok ⟨x.1, [], r', x.2⟩
  | 0, r, r', ps, s, hr, hl, h, _ => by cases h; rfl
  | n + 1, r, r', ps, s, hr, hl, h, hb => by
    unfold posTrace at h
    cases he : r.atEnd with
    | true =>
      rw [he, if_pos rfl] at h
      cases h
      rw [readLoop_end fp hr he hl]; rfl
    | false =>
      rw [he] at h
      simp only [Bool.false_eq_true, if_false] at h
      obtain ⟨r1, h1, h⟩ := bind_ok_iff.1 h
      obtain ⟨⟨ps1, r2⟩, h2, h⟩ := bind_ok_iff.1 h
      cases h
      obtain ⟨b1, b2⟩ := hb r.pos1 (by simp)
      have hc := stepOn_conf h1
      have hcf : r1.cfOn = false := by
        obtain ⟨_, e⟩ := stepOn_inv h1
        rw [e]; exact hr.cfOn
      have hr1 : Plain r1 := ⟨by rw [hc.dual]; exact hr.dual, by rw [hc.interp]; exact hr.interp, hcf, by rw [hc.nch]; exact hr.nch⟩
      rw [readLoop_succ]
      simp only [hr.dual, Bool.false_eq_true, if_false, ok_bind]
      rw [readFrame_gets fp S hr he b1 fuel r.nch.toNat 0 s (fun c hc => b2 c (by have := hr.nch; omega))]
      rw [srcFrames]
      have ef : frameIdx r.nch r.pos1 = (List.range' 0 r.nch.toNat).map fun c : Nat => r.pos1 + c := by
        unfold frameIdx; rw [List.range_eq_range']
      rw [ef]
      cases srcGets S s ((List.range' 0 r.nch.toNat).map fun c : Nat => r.pos1 + c) with
      | error e => rfl
      | ok x =>
        simp only [ok_bind, if_true, h1]
        rw [readLoop_posTrace fp S fuel n r1 r2 ps1 x.2 hr1 (by rw [hc.loopType]; exact hl) h2
          (fun p hp => by rw [hc.nch]; exact hb p (by simp [hp])), hc.nch]
        cases srcFrames S r.nch x.2 ps1 <;> rfl

/-! ## Sources -/

theorem gets_append (g : Geo) : ∀ (is js : List Int) (c : Cache), (c.gets g (is ++ js)).2 = ((c.gets g is).2.gets g js).2
  | [], _, _ => rfl
  | i :: is, js, c => by simp only [List.cons_append, Cache.gets]; exact gets_append g is js _

theorem srcGets_file (g : Geo) (nullOk : Bool) : ∀ (is : List Int) (c : Cache),
    srcGets (fileSrc g nullOk) (some c) is = .ok ((c.gets g is).1, some (c.gets g is).2)
  | [], _ => rfl
  | i :: is, c => by
    unfold srcGets
    show (Except.ok ((c.get g i).1, some (c.get g i).2) >>= _) = _
    simp only [ok_bind, srcGets_file g nullOk is]
    rfl

/-- All samples of the frames at `ps`. -/
def framesIdx (nch : Int) (ps : List Int) : List Int := ps.flatMap (frameIdx nch)

theorem srcFrames_file (g : Geo) (nullOk : Bool) (nch : Int) : ∀ (ps : List Int) (c : Cache),
    srcFrames (fileSrc g nullOk) nch (some c) ps =
      .ok (ps.map (frameAt (fun i => (c.get g i).1) nch), some (c.gets g (framesIdx nch ps)).2)
  | [], _ => rfl
  | p :: ps, c => by
    unfold srcFrames
    rw [srcGets_file]
    simp only [ok_bind]
    rw [srcFrames_file g nullOk nch ps]
    simp only [ok_bind, List.map_cons]
    have hs := C15_read_only g (frameIdx nch p) c
    have e1 : (c.gets g (frameIdx nch p)).1 = frameAt (fun i => (c.get g i).1) nch p := by
      rw [hs.1]; unfold frameIdx frameAt; rw [List.map_map]; rfl
    have e2 : (fun i => ((c.gets g (frameIdx nch p)).2.get g i).1) = fun i => (c.get g i).1 := by
      funext i; exact (hs.2.1.get (g := g) i).1
    rw [e1, e2]
    unfold framesIdx
    rw [List.flatMap_cons, gets_append]

theorem mem_framesIdx {nch : Int} {ps : List Int} {i : Int} : i ∈ framesIdx nch ps ↔ ∃ p ∈ ps, p ≤ i ∧ i < p + nch := by
  unfold framesIdx frameIdx
  simp only [List.mem_flatMap, List.mem_map, List.mem_range]
  constructor
  · rintro ⟨p, hp, c, hc, rfl⟩; exact ⟨p, hp, by omega, by omega⟩
  · rintro ⟨p, hp, h1, h2⟩; exact ⟨p, hp, (i - p).toNat, by omega, by omega⟩

theorem srcGets_array (data : List Int) : ∀ (is : List Int), (∀ i ∈ is, 0 ≤ i ∧ i < data.length) →
    srcGets arraySrc (some data) is = .ok (is.map fun i => data.getD i.toNat 0, some data)
  | [], _ => rfl
  | i :: is, h => by
    obtain ⟨h0, h1⟩ := h i (by simp)
    unfold srcGets
    have e : arraySrc.get (some data) i = .ok (data.getD i.toNat 0, some data) := by
      unfold arraySrc
      simp only [if_pos h0]
      rw [List.getElem?_eq_getElem (by omega), List.getD_eq_getElem?_getD, List.getElem?_eq_getElem (by omega)]
      rfl
    rw [e]
    simp only [ok_bind, srcGets_array data is fun j hj => h j (by simp [hj]), List.map_cons]

theorem srcFrames_array (data : List Int) (nch : Int) : ∀ (ps : List Int), (∀ i ∈ framesIdx nch ps, 0 ≤ i ∧ i < data.length) →
    srcFrames arraySrc nch (some data) ps = .ok (ps.map (frameAt (fun i => data.getD i.toNat 0) nch), some data)
  | [], _ => rfl
  | p :: ps, h => by
    unfold srcFrames
    rw [srcGets_array data _ (fun i hi => h i (by unfold framesIdx; rw [List.flatMap_cons, List.mem_append]; exact Or.inl hi))]
    simp only [ok_bind]
    rw [srcFrames_array data nch ps (fun i hi => h i (by unfold framesIdx; rw [List.flatMap_cons, List.mem_append]; exact Or.inr hi))]
    simp only [ok_bind, List.map_cons]
    have e1 : (frameIdx nch p).map (fun i => data.getD i.toNat 0) = frameAt (fun i => data.getD i.toNat 0) nch p := by
      unfold frameIdx frameAt
      rw [List.map_map]; rfl
    rw [e1]

end TVP
