import Verif.Lemmas.FadeLaw

/-!
# What is heard of a cross-faded loop at unit rate
-/

namespace TVP
open Spec

variable {σ : Type} {S : Src σ} {I : σ → Prop} {P : Int → Prop} {val : Int → Int}

theorem weightOf_zero (fp : Fp) (D : Int) : weightOf fp D 0 = 1 := by
  unfold weightOf
  have : fp.d.rnd 1 = 1 := by simpa using fp.d.exact_int (m := 1) (by norm_num) (by norm_num) (by norm_num)
  rw [Int.cast_zero, zero_div, fp.d.exact_zero, sub_zero, this]

theorem weightOf_end (fp : Fp) {D : Int} (hD : 1 ≤ D) : weightOf fp D D = 0 := by
  unfold weightOf
  have : fp.d.rnd 1 = 1 := by simpa using fp.d.exact_int (m := 1) (by norm_num) (by norm_num) (by norm_num)
  have hq : (D : ℚ) ≠ 0 := by exact_mod_cast (show D ≠ 0 by omega)
  rw [div_self hq, this, sub_self, fp.d.exact_zero]

theorem weightOf_near (fp : Fp) {D t : Int} (hD : 1 ≤ D) (h0 : 0 ≤ t) (h1 : t ≤ D) :
    0 ≤ weightOf fp D t ∧ weightOf fp D t ≤ 1 ∧ |weightOf fp D t - (1 - (t : ℚ) / D)| ≤ 2 ^ (-52 : ℤ) := by
  have one : fp.d.rnd 1 = 1 := by simpa using fp.d.exact_int (m := 1) (by norm_num) (by norm_num) (by norm_num)
  have hDq : (0 : ℚ) < D := by exact_mod_cast (show 0 < D by omega)
  have x0 : (0 : ℚ) ≤ (t : ℚ) / D := div_nonneg (by exact_mod_cast h0) (le_of_lt hDq)
  have x1 : (t : ℚ) / D ≤ 1 := by rw [div_le_one hDq]; exact_mod_cast h1
  unfold weightOf
  set x : ℚ := (t : ℚ) / D with hx
  have y0 := fp.d.nonneg x0
  have y1 := fp.d.mono x1
  rw [one] at y1
  have z0 := fp.d.nonneg (show 0 ≤ 1 - fp.d.rnd x by linarith)
  have z1 := fp.d.mono (show 1 - fp.d.rnd x ≤ 1 by linarith)
  rw [one] at z1
  have e1 := fp.d.err_le (x := x) (by norm_num) (k := 0) (by norm_num) (by rw [abs_le]; constructor <;> norm_num <;> linarith)
  have e2 := fp.d.err_le (x := 1 - fp.d.rnd x) (by norm_num) (k := 0) (by norm_num) (by rw [abs_le]; constructor <;> norm_num <;> linarith)
  refine ⟨z0, z1, ?_⟩
  rw [abs_le] at e1 e2 ⊢
  norm_num at e1 e2 ⊢
  constructor <;> linarith [e1.1, e1.2, e2.1, e2.2]

/-- The mean with the exact weight is close to the mean with the computed one. -/
theorem mean_near {w x a b : ℚ} (h : |w - x| ≤ 2 ^ (-52 : ℤ)) (ha : |a| ≤ 32768) (hb : |b| ≤ 32768) :
    |(w * a + (1 - w) * b) - (x * a + (1 - x) * b)| ≤ 2 ^ (-36 : ℤ) := by
  have e : (w * a + (1 - w) * b) - (x * a + (1 - x) * b) = (w - x) * (a - b) := by ring
  have h2 : |a - b| ≤ 65536 := by
    rw [abs_le] at ha hb ⊢; constructor <;> linarith [ha.1, ha.2, hb.1, hb.2]
  rw [e, abs_mul]
  have := mul_le_mul h h2 (abs_nonneg _) (by positivity)
  norm_num at this ⊢
  linarith

theorem abs_sample {a : Int} (h : InI16 a) : |(a : ℚ)| ≤ 32768 := by
  unfold InI16 at h
  rw [abs_le]; exact ⟨by exact_mod_cast h.1, by exact_mod_cast (show a ≤ 32768 by omega)⟩

/-- A sample during the fade. -/
theorem baseVal_fading (fp : Fp) (hS : SrcIs S I P val) (hv : ∀ i, InI16 (val i)) {r : Rd} {s : σ} {ch : Nat} {t D : Int}
    (hs : I s) (hd : r.dual = true) (hon : r.cfOn = true) (hw : r.crossfade = weightOf fp D t) (hD : 1 ≤ D) (h0 : 0 ≤ t) (h1 : t ≤ D)
    (one : t ≠ D → Can P r.nch r.pos1 0 ch) (two : Can P r.nch r.pos2 0 ch) :
    ∃ v s', baseVal fp S r s ch = .ok (v, s') ∧ I s' ∧ (t = 0 → v = val (r.pos1 + ch)) ∧ (t = D → v = val (r.pos2 + ch)) ∧
      |(v : ℚ) - ((1 - (t : ℚ) / D) * val (r.pos1 + ch) + (t : ℚ) / D * val (r.pos2 + ch))| < 1 + 2 ^ (-29 : ℤ) := by
  have e1 : r.pos1 + 0 * r.nch + ch = r.pos1 + ch := by ring
  have e2 : r.pos2 + 0 * r.nch + ch = r.pos2 + ch := by ring
  have hDq : (D : ℚ) ≠ 0 := by exact_mod_cast (show D ≠ 0 by omega)
  unfold baseVal
  rw [if_neg (by rw [hd, hon]; simp)]
  by_cases ht : t = D
  · subst ht
    rw [hw, weightOf_end fp hD, if_pos rfl]
    obtain ⟨s', a1, a2⟩ := srcVal_ok hS hs two
    rw [e2] at a1
    refine ⟨_, s', a1, a2, fun h => by omega, fun _ => rfl, ?_⟩
    rw [div_self hDq, sub_self, zero_mul, one_mul, zero_add, sub_self, abs_zero]; positivity
  · obtain ⟨w0, w1, wn⟩ := weightOf_near fp hD h0 h1
    have v1 := hv (r.pos1 + ch)
    have v2 := hv (r.pos2 + ch)
    obtain ⟨s1, a1, a2⟩ := srcVal_ok hS hs (one ht)
    obtain ⟨s2, b1, b2⟩ := srcVal_ok hS a2 two
    rw [e1] at a1
    rw [e2] at b1
    by_cases hz : r.crossfade = 0
    · -- the weight is never rounded to nothing before its time, but the sum would be right if it were
      rw [if_pos hz]
      obtain ⟨s3, c1, c2⟩ := srcVal_ok hS hs two
      rw [e2] at c1
      refine ⟨_, s3, c1, c2, fun h => ?_, fun h => absurd h ht, ?_⟩
      · rw [hw, h, weightOf_zero] at hz; norm_num at hz
      · rw [hw] at hz
        have := mean_near wn (abs_sample v1) (abs_sample v2)
        rw [hz, zero_mul, zero_add, sub_zero, one_mul] at this
        have e : (1 - (1 - (t : ℚ) / D)) = (t : ℚ) / D := by ring
        rw [e] at this
        refine lt_of_le_of_lt this ?_
        norm_num
    · rw [if_neg hz]
      simp only [a1, b1, ok_bind]
      rw [add_comm, hw]
      obtain ⟨m, c1, _, _, _, _, c6⟩ := mix_ok fp.d w0 w1 v1 v2
      refine ⟨m, s2, by rw [c1]; rfl, b2, fun h => ?_, fun h => absurd h ht, ?_⟩
      · subst h
        rw [weightOf_zero, one_mul, sub_self, fp.d.exact_zero, zero_mul, fp.d.exact_zero, add_zero] at c1
        have ex : fp.d.rnd (fp.d.rnd (val (r.pos1 + ch) : ℚ)) = val (r.pos1 + ch) := by
          have : fp.d.rnd (val (r.pos1 + ch) : ℚ) = val (r.pos1 + ch) :=
            fp.d.exact_int (by norm_num) (by norm_num) (by unfold InI16 at v1; rw [abs_le]; omega)
          rw [this, this]
        rw [ex] at c1
        unfold castI16 at c1
        rw [trunc_int, if_pos v1] at c1
        cases c1; rfl
      · have := mean_near wn (abs_sample v1) (abs_sample v2)
        have e : (1 - (1 - (t : ℚ) / D)) = (t : ℚ) / D := by ring
        rw [e] at this
        rw [abs_le] at this
        rw [abs_lt] at c6 ⊢
        norm_num at this c6 ⊢
        constructor <;> linarith [this.1, this.2, c6.1, c6.2]

/-- The channels of a frame, read one after the other without interpolation. -/
theorem readFrame_by (fp : Fp) (fuel : Nat) {r : Rd} (hd : r.dual = true) (hi : r.interp = .none) {Q : Nat → Int → Prop} :
    ∀ (left ch : Nat) (s : σ), I s →
      (∀ c : Nat, c < ch + left → ∀ s, I s → ∃ v s', baseVal fp S r s c = .ok (v, s') ∧ I s' ∧ Q c v) →
      ∃ vs s', readFrame fp S (fuel + 1) left ch r s = .ok (vs, true, r, s') ∧ I s' ∧ vs.length = left ∧
        ∀ c : Nat, c < left → ∃ v, vs[c]? = some v ∧ Q (ch + c) v
  | 0, ch, s, hs, _ => ⟨[], s, rfl, hs, rfl, fun c h => by omega⟩
  | left + 1, ch, s, hs, hb => by
    have he := atEnd_dual hd
    obtain ⟨v, s1, h1, hs1, hq⟩ := hb ch (by omega) s hs
    have h1' : readNextValue fp S r s ch = .ok (some v, r, s1) := by
      unfold readNextValue
      simp only [he, Bool.false_eq_true, if_false, h1, ok_bind, hi, pure_eq_ok]
    obtain ⟨vs, s2, h2, hs2, hl, hq2⟩ := readFrame_by fp fuel hd hi left (ch + 1) s1 hs1
      (fun c hc => hb c (by omega))
    refine ⟨v :: vs, s2, ?_, hs2, by simp [hl], ?_⟩
    · unfold readFrame
      rw [readChan_settled he, h1']
      simp only [ok_bind, h2, pure_eq_ok]
    · intro c hc
      cases c with
      | zero => exact ⟨v, rfl, hq⟩
      | succ c =>
        obtain ⟨v', x1, x2⟩ := hq2 c (by omega)
        exact ⟨v', by simpa using x1, by rw [show ch + (c + 1) = ch + 1 + c by omega]; exact x2⟩

/-- The frames that a moment needs. -/
def Needs (D : Int) : Heads → Int → Prop
  | .one i, q => q = i
  | .two t i j, q => (t ≠ D ∧ q = i) ∨ q = j

/-- The frame read at a moment. -/
theorem Reading.frame (fp : Fp) (hS : SrcIs S I P val) (hv : ∀ i, InI16 (val i)) (fuel : Nat) {pp : Bool} {A E D : Int} {r : Rd} {h : Heads}
    (hr : Reading fp pp A E D r h) {s : σ} (hs : I s)
    (hP : ∀ q, Needs D h q → ∀ c : Nat, (c : Int) < r.nch → Can P r.nch (r.header + q * r.nch) 0 c) :
    ∃ vs s', readFrame fp S (fuel + 1) r.nch.toNat 0 r s = .ok (vs, true, r, s') ∧ I s' ∧ vs.length = r.nch.toNat ∧
      ∀ c : Nat, (c : Int) < r.nch → ∃ v, vs[c]? = some v ∧ Sounds D (fun i => val (r.header + i * r.nch + c)) h v := by
  have fin : ∀ (hd : r.dual = true) (hi : r.interp = .none),
      (∀ c : Nat, (c : Int) < r.nch → ∀ s, I s → ∃ v s', baseVal fp S r s c = .ok (v, s') ∧ I s' ∧
        Sounds D (fun i => val (r.header + i * r.nch + c)) h v) →
      ∃ vs s', readFrame fp S (fuel + 1) r.nch.toNat 0 r s = .ok (vs, true, r, s') ∧ I s' ∧ vs.length = r.nch.toNat ∧
      ∀ c : Nat, (c : Int) < r.nch → ∃ v, vs[c]? = some v ∧ Sounds D (fun i => val (r.header + i * r.nch + c)) h v := by
    intro hd hi hb
    obtain ⟨vs, s', a1, a2, a3, a4⟩ := readFrame_by (S := S) fp fuel hd hi
      (Q := fun c v => Sounds D (fun i => val (r.header + i * r.nch + c)) h v) r.nch.toNat 0 s hs
      (fun c hc => hb c (by omega))
    refine ⟨vs, s', a1, a2, a3, fun c hc => ?_⟩
    obtain ⟨v, x1, x2⟩ := a4 c (by omega)
    exact ⟨v, x1, by rw [Nat.zero_add] at x2; exact x2⟩
  cases hr with
  | @one up q hl =>
    refine fin hl.conf.dual hl.conf.interp fun c hc s hs => ?_
    have hcan := hP q rfl c hc
    rw [← hl.pos1] at hcan
    obtain ⟨s', a1, a2⟩ := srcVal_ok hS hs hcan
    refine ⟨_, s', ?_, a2, rfl⟩
    unfold baseVal
    rw [if_pos (by rw [hl.off]; simp), a1, hl.pos1]
    congr 3
    ring
  | @two up t r0 hl ht he =>
    have hd : r.dual = true := by rw [he]; exact hl.conf.dual
    have hn : r.nch = r0.nch := by rw [he]; rfl
    have hh : r.header = r0.header := by rw [he]; rfl
    have hp1 : r.pos1 = r.header + outHead A E D pp up t * r.nch := by rw [hn, hh, ← hl.pos1, he]; rfl
    have hp2 : r.pos2 = r.header + inHead A E up t * r.nch := by rw [hn, hh, he]; rfl
    refine fin hd (by rw [he]; exact hl.conf.interp) fun c hc s hs => ?_
    obtain ⟨v, s', a1, a2, a3, a4, a5⟩ := baseVal_fading fp hS hv (r := r) (ch := c) (t := t) (D := D) hs hd (by rw [he]; rfl) (by rw [he]; rfl)
      hl.conf.D1 hl.t0 ht (fun h => by rw [hp1]; exact hP _ (Or.inl ⟨h, rfl⟩) c hc) (by rw [hp2]; exact hP _ (Or.inr rfl) c hc)
    rw [hp1] at a3
    rw [hp2] at a4
    rw [hp1, hp2] at a5
    exact ⟨v, s', a1, a2, a3, a4, a5⟩

/-- A frame, channel by channel. -/
def FrameSounds (D nch : Int) (val : Int → Int) (H : Int) (h : Heads) (f : List Int) : Prop :=
  f.length = nch.toNat ∧ ∀ c : Nat, (c : Int) < nch → ∃ v, f[c]? = some v ∧ Sounds D (fun i => val (H + i * nch + c)) h v

/-- Any number of frames. -/
theorem fade_law (fp : Fp) (hS : SrcIs S I P val) (hv : ∀ i, InI16 (val i)) (fuel : Nat) {pp : Bool} {A E D s : Int} {up : Bool} :
    ∀ (n : Nat) (k : Int) (r : Rd) (x : σ), 0 ≤ k → Phase pp A E D s up k r → I x →
      (∀ j q, 0 ≤ j → Needs D (headsAt pp A E D s up j) q → ∀ c : Nat, (c : Int) < r.nch → Can P r.nch (r.header + q * r.nch) 0 c) →
      ∃ fs r' x', readLoop fp S (fuel + 1) n r x = .ok ⟨fs, [], r', x'⟩ ∧ fs.length = n ∧ I x' ∧
        Phase pp A E D s up (k + n) r' ∧ SameConf r r' ∧
        ∀ i : Nat, i < n → ∃ f, fs[i]? = some f ∧ FrameSounds D r.nch val r.header (headsAt pp A E D s up (k + i)) f
  | 0, k, r, x, _, hph, hx, _ => ⟨[], r, x, rfl, rfl, hx, by simpa using hph, SameConf.refl r, fun i h => by omega⟩
  | n + 1, k, r, x, hk, hph, hx, hP => by
    obtain ⟨r1, r2, a1, a2, a3, a4, a5, a6⟩ := hph.next fp
    obtain ⟨vs, x1, b1, b2, b3, b4⟩ := a2.frame fp hS hv fuel hx
      (by rw [a5.nch, a5.header]; exact fun q hq => hP k q hk hq)
    have hd : r.dual = true := by
      unfold Phase at hph
      split at hph
      · exact hph.conf.dual
      · split at hph
        · exact hph.conf.dual
        · exact hph.conf.dual
    obtain ⟨fs, r', x', c1, c2, c3, c4, c5, c6⟩ := fade_law fp hS hv fuel n (k + 1) r2 x1 (by omega) a4 b2
      (by rw [a6.nch, a6.header]; exact hP)
    refine ⟨vs :: fs, r', x', ?_, by simp [c2], c3, by rw [show k + ((n + 1 : Nat) : Int) = k + 1 + n by push_cast; ring]; exact c4, a6.trans c5, ?_⟩
    · rw [readLoop_succ, if_pos hd, a1]
      simp only [ok_bind, b1, if_true, a3, c1]
    · intro i hi
      cases i with
      | zero =>
        refine ⟨vs, rfl, ?_⟩
        rw [show k + ((0 : Nat) : Int) = k by simp]
        rw [a5.nch, a5.header] at b4
        rw [a5.nch] at b3
        exact ⟨b3, b4⟩
      | succ i =>
        obtain ⟨f, y1, y2⟩ := c6 i (by omega)
        refine ⟨f, by simpa using y1, ?_⟩
        rw [a6.nch, a6.header] at y2
        rw [show k + ((i + 1 : Nat) : Int) = k + 1 + i by push_cast; ring]
        exact y2

/-- The frames needed are those of the loop, those before it is reached, and, moving down into it or to and fro, the one after its end. -/
theorem needs_range {pp : Bool} {A E D s : Int} {up : Bool} {k q : Int} (hD : 1 ≤ D) (hL : 2 * D + 2 ≤ E - A) (hk : 0 ≤ k)
    (h : Needs D (headsAt pp A E D s up k) q) :
    min A s ≤ q ∧ (up = true → pp = false → q < E ∨ q < s) ∧ (q ≤ E ∨ (up = false ∧ q ≤ s)) := by
  rw [headsAt_eq] at h
  split at h
  · rename_i hlt
    simp only [Needs] at h
    revert hlt h
    cases up <;> simp [firstLap] <;> omega
  · have m0 := Int.emod_nonneg (k - firstLap A E D s up) (show E - A - D ≠ 0 by omega)
    have m1 := Int.emod_lt_of_pos (k - firstLap A E D s up) (show 0 < E - A - D by omega)
    have hdir : up = true → pp = false → lapUp pp up ((k - firstLap A E D s up) / (E - A - D)) = true := by
      rintro rfl rfl; rfl
    revert h hdir
    generalize lapUp pp up ((k - firstLap A E D s up) / (E - A - D)) = dir
    generalize (k - firstLap A E D s up) % (E - A - D) = t at m0 m1 ⊢
    intro h hdir
    split at h
    · simp only [Needs] at h
      refine ⟨?_, fun h1 h2 => ?_, ?_⟩
      · unfold outHead inHead at h
        revert h; split <;> split <;> omega
      · rw [hdir h1 h2, h2] at h
        simp [outHead, inHead] at h
        omega
      · unfold outHead inHead at h
        revert h; split <;> split <;> omega
    · simp only [Needs] at h
      refine ⟨?_, fun h1 h2 => ?_, ?_⟩
      · unfold inHead at h
        revert h; split <;> omega
      · rw [hdir h1 h2] at h
        simp [inHead] at h
        omega
      · unfold inHead at h
        revert h; split <;> omega

end TVP
