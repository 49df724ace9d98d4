import Verif.Lemmas.Trim
import Verif.Props.RawShift

/-!
# Property C94: marks are counted from the beginning of the sound

A sound started at frame `n` or later sounds like the sound without its first `n` frames, started as many frames earlier; and so with a loop, and then what comes
after the loop can be cut off too.
-/

namespace TVP
open Spec

variable {fp : Fp}

/-- The raw file `m'` has `L` frames of the WAV file `m`, from frame `n` on. -/
structure PieceOf (m : List Nat) (off nch D n L : Nat) (m' : List Nat) : Prop where
  bytes : IsBytes m'
  small : m'.length < 2 ^ 31
  fewer : n + L ≤ D / 2 / nch
  number : m'.length / 2 = L * nch
  same : ∀ i ch : Nat, i < L → ch < nch → dataSample m (off + 8) ((n + i) * nch + ch) = dataSample m' 0 (i * nch + ch)

/-- The settings `r'` are those of `r`, with the marks `n` frames earlier. -/
structure Earlier (n : Nat) (r r' : Rd) : Prop where
  rest : r' = { r with playStart := r'.playStart, playbackStart := r'.playbackStart, loopStart := r'.loopStart, loopFinish := r'.loopFinish }
  start : (r.playStart = .arbitrary ∧ r'.playStart = .arbitrary ∧ r.playbackStart = r'.playbackStart + n) ∨
    (0 ≤ r.rate ∧ r.playStart = .arbitrary ∧ r'.playStart = .sample ∧ r.playbackStart = n) ∨ (r.loopType ≠ .none ∧ r.playStart = .loop ∧ r'.playStart = .loop)
  ls : r.loopType ≠ .none → r.loopStart = r'.loopStart + n
  lf : r.loopType ≠ .none → r.loopFinish = r'.loopFinish + n

theorem PieceOf.memory {m m' : List Nat} {off nch D n L : Nat} (hw : WavFile m off nch D) (h : PieceOf m off nch D n L m') (j : Nat) (v : Int)
    (hj : (samplesOf m')[j]? = some v) : (samplesOf m)[(off + 8) / 2 + n * nch + j]? = some v := by
  have hc := hw.some
  have heven := hw.even
  have hin := hw.inFile
  have hlt : j < m'.length / 2 := by
    obtain ⟨h1, -⟩ := List.getElem?_eq_some_iff.1 hj
    unfold samplesOf at h1
    rwa [List.length_map, List.length_range] at h1
  have hv : fileSample m' j = v := by
    unfold samplesOf at hj
    rw [List.getElem?_map, List.getElem?_range hlt] at hj
    exact Option.some.inj hj
  have hfr := h.number
  have hle := Nat.div_mul_le_self (D / 2) nch
  have hi : j / nch < L := by rw [Nat.div_lt_iff_lt_mul (by omega), ← hfr]; exact hlt
  have hd : j / nch * nch + j % nch = j := Nat.div_add_mod' j nch
  have hsame := h.same (j / nch) (j % nch) hi (Nat.mod_lt _ (by omega))
  have hall : n * nch + L * nch ≤ D / 2 / nch * nch := by rw [← Nat.add_mul]; exact Nat.mul_le_mul_right _ h.fewer
  rw [hd, show (n + j / nch) * nch + j % nch = n * nch + j by rw [Nat.add_mul, Nat.add_assoc, hd]] at hsame
  unfold samplesOf
  rw [List.getElem?_map, List.getElem?_range (by
    rw [hfr] at hlt
    generalize n * nch = x at *
    generalize L * nch = y at *
    generalize D / 2 / nch * nch = z at *
    clear hsame hd hi hv hj h hw
    omega)]
  refine congrArg some ?_
  rw [Nat.add_assoc, fileSample_data m (show (off + 8) % 2 = 0 by omega) (n * nch + j), hsame, ← hv, ← fileSample_data m' (start := 0) (by decide) j, Nat.zero_div, Nat.zero_add]

theorem marks_trim {H n nch S K : Nat} (hc' : nch ≤ 32767) (hroom : H + K * nch ≤ S / 2) (hS : S < 2 ^ 31) (hn : n ≤ K) (x y : Int) (h1 : -(nch : Int) ≤ x) (h2 : x + n ≤ K) (hy : y = x + n) :
    i32 (u32 (H + y * nch)) = i32 (u32 (0 + x * nch)) + (H + n * nch : Nat) := by
  subst hy
  have e1 := marks_further hc' hroom hS (x + n) (by omega) h2
  have e2 := marks_further (H := n * nch) (K := K - n) hc' (by
    rw [← Nat.add_mul, Nat.add_sub_cancel' hn]
    exact le_trans (Nat.le_add_left _ _) hroom) hS x h1 (by omega)
  rw [e1, show (0 : Int) + (x + n) * nch = ((n * nch : Nat) : Int) + x * nch by push_cast; ring, e2]
  push_cast
  ring

theorem openedAt_trim {fwd : Bool} {r : Rd} {ps : PlayStart} {pb xs xf ls lf ls0 lf0 : Int} {H n L nch S S' K Q Q' : Nat} (hc : 1 ≤ nch) (hn : n + L ≤ K)
    (hmarks : ∀ x y : Int, -(nch : Int) ≤ x → x + n ≤ K → y = x + n → i32 (u32 (H + y * nch)) = i32 (u32 (0 + x * nch)) + (H + n * nch : Nat))
    (hpos : ∀ x : Int, 0 ≤ x → x + n ≤ K → 0 ≤ i32 (u32 (0 + x * nch)))
    (hhead : r.header = 0) (hdual : r.dual = false)
    (b1 : (r.playStart = .arbitrary ∧ ps = .arbitrary ∧ r.playbackStart = pb + n) ∨
      (0 ≤ r.rate ∧ r.playStart = .arbitrary ∧ ps = .sample ∧ r.playbackStart = n) ∨ (r.loopType ≠ .none ∧ r.playStart = .loop ∧ ps = .loop))
    (i1 : ps = .arbitrary → 0 ≤ pb ∧ pb ≤ L) (b2 : r.loopType ≠ .none → ls = ls0 + n ∧ 0 ≤ ls0 ∧ ls0 ≤ L)
    (b3 : r.loopType ≠ .none → lf = lf0 + n ∧ 0 ≤ lf0 ∧ lf0 ≤ L)
    (hway : (fwd = true ∧ 0 ≤ r.rate ∧ 0 ≤ r.rem ∧ r.loopType ≠ .pingpong) ∨ (fwd = false ∧ r.loopType ≠ .none ∧ ps ≠ .sample))
    (hlin : r.interp = .linear → |r.rate| ≤ 1) (hall : r.loopType = .none → n + L = K) :
    Trimmed fwd (H + n * nch) (openedAt (beforeRd r S H Q nch) ls lf K) r.interp (openedAt (beforeRd r S H Q nch) ls lf K)
      (openedAt (beforeRd { r with playStart := ps, playbackStart := pb, loopStart := xs, loopFinish := xf } S' r.header Q' nch) ls0 lf0 L) := by
  have hn0 : (1 : Int) ≤ nch := by exact_mod_cast hc
  have hKs : (L : Int) + n ≤ K := by omega
  have hK0 : (0 : Int) ≤ L := Int.natCast_nonneg _
  obtain ⟨playing, fileSize, header, rate, rem, loopType, playStart, pos1, pos2, crossfade, dual, cfDur, cfOn, playbackStart, loopStart, loopFinish, fileSamples, nch0, psram, interp, pts⟩ := r
  simp only at hhead hdual b1 b2 b3 hway hlin hall
  subst hhead hdual
  -- where the two begin
  have key : ((if rate ≥ 0 then (match (generalizing := false) playStart with
        | .sample => i32 (u32 (H + 0 * nch)) | .loop => i32 (u32 (H + ls * nch)) | .arbitrary => i32 (u32 (H + playbackStart * nch)))
      else (match (generalizing := false) playStart with
        | .sample => i32 ((S : Int).tdiv 2 - nch) | .loop => i32 (u32 (H + (lf - nch) * nch)) | .arbitrary => i32 (u32 (H + playbackStart * nch)))) : Int) =
      ((if rate ≥ 0 then (match (generalizing := false) ps with
        | .sample => i32 (u32 (0 + 0 * nch)) | .loop => i32 (u32 (0 + ls0 * nch)) | .arbitrary => i32 (u32 (0 + pb * nch)))
      else (match (generalizing := false) ps with
        | .sample => i32 ((S' : Int).tdiv 2 - nch) | .loop => i32 (u32 (0 + (lf0 - nch) * nch)) | .arbitrary => i32 (u32 (0 + pb * nch)))) : Int) + (H + n * nch : Nat) := by
    rcases b1 with ⟨g1, g2, g3⟩ | ⟨g0, g1, g2, g3⟩ | ⟨g0, g1, g2⟩
    · subst g1 g2
      simp only [ite_self]
      exact hmarks _ _ (by linarith [(i1 rfl).1]) (by linarith [(i1 rfl).2]) g3
    · subst g1 g2
      simp only [ge_iff_le, if_pos g0]
      exact hmarks 0 _ (by linarith) (by omega) (by omega)
    · subst g1 g2
      obtain ⟨u1, u2, u3⟩ := b2 g0
      obtain ⟨v1, v2, v3⟩ := b3 g0
      simp only
      split
      · exact hmarks _ _ (by linarith) (by linarith) u1
      · exact hmarks _ _ (by linarith) (by linarith) (by linarith)
  have start0 : fwd = true → (0 : Int) ≤ ((if rate ≥ 0 then (match (generalizing := false) ps with
        | .sample => i32 (u32 (0 + 0 * nch)) | .loop => i32 (u32 (0 + ls0 * nch)) | .arbitrary => i32 (u32 (0 + pb * nch)))
      else (match (generalizing := false) ps with
        | .sample => i32 ((S' : Int).tdiv 2 - nch) | .loop => i32 (u32 (0 + (lf0 - nch) * nch)) | .arbitrary => i32 (u32 (0 + pb * nch)))) : Int) := by
    intro hf
    rcases hway with ⟨-, w1, -⟩ | ⟨w0, -⟩
    · simp only [ge_iff_le, if_pos w1]
      rcases b1 with ⟨g1, g2, g3⟩ | ⟨g0, g1, g2, g3⟩ | ⟨g0, g1, g2⟩
      · subst g2
        exact hpos _ (i1 rfl).1 (by linarith [(i1 rfl).2])
      · subst g2
        exact hpos 0 le_rfl (by omega)
      · subst g2
        exact hpos _ (b2 g0).2.1 (by linarith [(b2 g0).2.2])
    · rw [hf] at w0; cases w0
  refine ⟨?_, ⟨rfl, ?_, rfl, hn0, ?_, fun hl => ?_, fun hl => ?_, fun hl => ?_, fun hl => ?_, ⟨rfl, hlin⟩⟩⟩
  · exact congrArg (fun x : Int => (⟨true, S, H, rate, rem, loopType, playStart, x, pos2, 0, false, cfDur, false, playbackStart, ls, lf, K, nch, psram, interp,
      fun c => if c < 8 then { pts c with n := 0 } else pts c⟩ : Rd)) key
  · show (H : Int) ≤ (H + n * nch : Nat)
    exact Int.ofNat_le.2 (Nat.le_add_right _ _)
  · rcases hway with ⟨w0, w1, w2, w3⟩ | ⟨w0, w1, w2⟩
    · refine Or.inl ⟨w0, w1, w2, by exact start0 w0, w3, fun hl => ?_⟩
      have hl' : loopType ≠ .none := by rw [show loopType = LoopType.repeat from hl]; decide
      exact hpos ls0 (b2 hl').2.1 (by linarith [(b2 hl').2.2])
    · refine Or.inr ⟨w0, w1, ?_, w2⟩
      rcases b1 with ⟨g1, g2, g3⟩ | ⟨g0, g1, g2, g3⟩ | ⟨g0, g1, g2⟩
      · show playStart ≠ _
        rw [g1]; decide
      · exact absurd g2 w2
      · show playStart ≠ _
        rw [g1]; decide
  · have h1 := hall hl
    exact hmarks L K (by linarith) (by linarith) (by omega)
  · exact hmarks lf0 lf (by linarith [(b3 hl).2.1]) (by linarith [(b3 hl).2.2]) (b3 hl).1
  · exact hmarks (lf0 - nch) (lf - nch) (by linarith [(b3 hl).2.1]) (by linarith [(b3 hl).2.2]) (by linarith [(b3 hl).1])
  · exact hmarks ls0 ls (by linarith [(b2 hl).2.1]) (by linarith [(b2 hl).2.2]) (b2 hl).1

theorem opened_trim {fwd : Bool} {r r' : Rd} {H n L nch S S' K : Nat} (hc : 1 ≤ nch) (hc' : nch ≤ 32767) (hn : n + L ≤ K) (hF : S' / 2 = L * nch)
    (hroom : H + K * nch ≤ S / 2) (hS : S < 2 ^ 31) {Q : Nat} (hQ : Q / nch = K)
    (hhead : r.header = 0) (hdual : r.dual = false) (hE : Earlier n r r') (hin : SetWithin r' L)
    (hway : (fwd = true ∧ 0 ≤ r.rate ∧ 0 ≤ r.rem ∧ r.loopType ≠ .pingpong) ∨ (fwd = false ∧ r.loopType ≠ .none ∧ r'.playStart ≠ .sample))
    (hlin : r.interp = .linear → |r.rate| ≤ 1) (hall : r.loopType = .none → n + L = K) :
    Trimmed fwd (H + n * nch) (openedRd (beforeRd r S H Q nch)) r.interp (openedRd (beforeRd r S H Q nch)) (openedRd (beforeRd r' S' r'.header (S' / 2 : Nat) nch)) := by
  have hKn : ((K * nch : Nat) : Int) = (K : Int) * nch := by push_cast; rfl
  have hK31 : K ≤ K * nch := Nat.le_mul_of_pos_right _ hc
  have t1 : ((Q : Int)).tdiv (nch : Int) = K := by
    rw [Int.tdiv_eq_ediv_of_nonneg (by omega), ← hQ]; rfl
  have t2 : (((S' / 2 : Nat) : Int)).tdiv (nch : Int) = L := by
    rw [Int.tdiv_eq_ediv_of_nonneg (by omega), hF, Nat.cast_mul]
    exact Int.mul_ediv_cancel _ (by omega)
  have hmarks := fun x y => marks_trim hc' hroom hS (show n ≤ K by omega) x y
  have hK : (K : Int) < 2 ^ 30 := by
    have h1 : K ≤ S / 2 := le_trans hK31 (le_trans (Nat.le_add_left _ _) hroom)
    clear hmarks t1 t2 hKn hF hroom hQ
    omega
  have hK0 : (0 : Int) ≤ L := Int.natCast_nonneg _
  have hKs : (L : Int) + n ≤ K := by omega
  have hn0 : (1 : Int) ≤ nch := by exact_mod_cast hc
  have hn1 : (nch : Int) ≤ 32767 := by exact_mod_cast hc'
  have e1 : ∀ x : Int, 0 ≤ x → x ≤ K → i32 x = x := fun x h1 h2 => i32_small' (by linarith) (by linarith)
  obtain ⟨i1, i2, i3⟩ := hin
  obtain ⟨e, b1, b2, b3⟩ := hE
  have hnn : (0 : Int) ≤ n := Int.natCast_nonneg _
  have hpos : ∀ x : Int, 0 ≤ x → x + n ≤ K → 0 ≤ i32 (u32 (0 + x * nch)) := fun x h1 h2 => by
    have h3 : x * nch ≤ K * nch := Int.mul_le_mul_of_nonneg_right (by linarith) (Int.natCast_nonneg _)
    have h4 : (H : Int) + (K : Int) * nch ≤ (S / 2 : Nat) := by exact_mod_cast hroom
    have h5 : ((S / 2 : Nat) : Int) < 2 ^ 30 := by clear h3 h4 hroom h1 h2 hc' hmarks t1 t2 hF hQ hKn; omega
    have h6 : (0 : Int) ≤ x * nch := Int.mul_nonneg h1 (Int.natCast_nonneg _)
    have h7 : (0 : Int) ≤ H := Int.natCast_nonneg _
    rw [i32_u32_small (by linarith) (by linarith)]
    linarith
  rw [e]
  generalize r'.playStart = ps at *
  generalize r'.playbackStart = pb at *
  generalize r'.loopStart = ls' at *
  generalize r'.loopFinish = lf' at *
  have elt : r'.loopType = r.loopType := by rw [e]
  rw [elt] at i2 i3
  clear e elt
  by_cases hl : r.loopType = .none
  · have q1 : i32 (if r.loopType = .none then 0 else r.loopStart) = 0 := by rw [if_pos hl]; rfl
    have q2 : i32 (if r.loopType = .none then (K : Int) else r.loopFinish) = K := by rw [if_pos hl]; exact e1 _ (by omega) le_rfl
    have q3 : i32 (if r.loopType = .none then 0 else ls') = 0 := by rw [if_pos hl]; rfl
    have q4 : i32 (if r.loopType = .none then (L : Int) else lf') = L := by rw [if_pos hl]; exact e1 _ hK0 (by omega)
    rw [openedRd_at (r := beforeRd r S H Q nch) t1 q1 q2,
      openedRd_at (r := beforeRd { r with playStart := ps, playbackStart := pb, loopStart := ls', loopFinish := lf' } S' r.header (S' / 2 : Nat) nch) t2 q3 q4]
    exact openedAt_trim hc hn hmarks hpos hhead hdual b1 i1 (fun h => absurd hl h) (fun h => absurd hl h) hway hlin hall
  · have j2 := i2 hl
    have j3 := i3 hl
    have k2 := b2 hl
    have k3 := b3 hl
    have q1 : i32 (if r.loopType = .none then 0 else r.loopStart) = r.loopStart := by rw [if_neg hl]; exact e1 _ (by omega) (by omega)
    have q2 : i32 (if r.loopType = .none then (K : Int) else r.loopFinish) = r.loopFinish := by rw [if_neg hl]; exact e1 _ (by omega) (by omega)
    have q3 : i32 (if r.loopType = .none then 0 else ls') = ls' := by rw [if_neg hl]; exact e1 _ (by omega) (by omega)
    have q4 : i32 (if r.loopType = .none then (L : Int) else lf') = lf' := by rw [if_neg hl]; exact e1 _ (by omega) (by omega)
    rw [openedRd_at (r := beforeRd r S H Q nch) t1 q1 q2,
      openedRd_at (r := beforeRd { r with playStart := ps, playbackStart := pb, loopStart := ls', loopFinish := lf' } S' r.header (S' / 2 : Nat) nch) t2 q3 q4]
    exact openedAt_trim hc hn hmarks hpos hhead hdual b1 i1 (fun _ => ⟨k2, j2⟩) (fun _ => ⟨k3, j3⟩) hway hlin hall

/-! ## The two together -/

/-- Two players like players with their files in memory, the one without the beginning of the other's sound, do the same. -/
theorem alike_trim {g g' : Geo} {nullOk nullOk' : Bool} {fuel fuel' : Nat} {m m' : List Nat} {ok ok' : Rd → ℚ → Prop} {fwd : Bool} {H : Nat} {q : Rd}
    (hxy : ∀ (j : Nat) v, (samplesOf m')[j]? = some v → (samplesOf m)[H + j]? = some v)
    {k : Interp} (hok : ∀ r r' v, Trimmed fwd H q k r r' → ok r v → ok' r' v ∧ (k = .linear → |v| ≤ 1) ∧ Inside r' v ∧ (fwd = true → 0 ≤ v)) :
    ∀ (as : List Deed) {a b : FileReader}, LikeInMemoryAt fp g nullOk fuel a m ok →
      LikeInMemoryAt fp g' nullOk' fuel' b m' ok' → Trimmed fwd H q k a.rd b.rd → Allowed fp fuel ok ⟨a.rd, some (samplesOf m)⟩ as →
      ∃ fxs a' b', a.acts fp g nullOk fuel as = .ok (fxs, a') ∧ b.acts fp g' nullOk' fuel' as = .ok (fxs, b') ∧ a'.rd.playing = b'.rd.playing
  | [], a, b, _, _, h, _ => ⟨[], a, b, rfl, rfl, by rw [h.1]; rfl⟩
  | .tick al :: as, a, b, ha, hb, h, hall => by
    obtain ⟨fx, a1, c1, t1, t2, t3⟩ := ha.tick al
    obtain ⟨fx', b1, d1, t1', t2', t3'⟩ := hb.tick al
    obtain ⟨k1, k2⟩ := (TrimOn.tick hxy (b := ⟨a.rd, some (samplesOf m)⟩) (b' := ⟨b.rd, some (samplesOf m')⟩) ⟨h, rfl, rfl⟩ al) _ _ t2 t2'
    simp only at k1 k2
    subst k1
    have ha1 := ha.after_tick t1 t2 t3 k2.src
    have hb1 := hb.after_tick t1' t2' t3' k2.src'
    have h1 : Trimmed fwd H q k a1.rd b1.rd := by rw [← t3, ← t3']; exact k2.rd
    have hall1 := hall _ _ t2
    obtain ⟨rc, sc⟩ := c1
    have k3 := k2.src
    simp only at t3 k3
    subst t3 k3
    obtain ⟨fxs, a2, b2, e1, e2, e3⟩ := alike_trim hxy hok as ha1 hb1 h1 hall1
    refine ⟨fx :: fxs, a2, b2, ?_, ?_, e3⟩
    · rw [FileReader.acts, t1]; simp only [ok_bind, e1]; rfl
    · rw [FileReader.acts, t1']; simp only [ok_bind, e2]; rfl
  | .speed v :: as, a, b, ha, hb, h, hall => by
    obtain ⟨hv, hall1⟩ := hall
    have hv' : ok a.rd v := hv
    obtain ⟨w1, w2, w3, w4⟩ := hok _ _ _ h hv'
    exact alike_trim hxy hok as (ha.after_speed hv') (hb.after_speed w1) (h.speed w2 w3 w4) hall1

/-- What is asked of the two players and the two files: `b` is set like `a` with the marks `n` frames earlier, and `m'` holds the `L`
frames of `m` from frame `n` on: all of them if there is no loop. -/
structure TrimPlay (a b : FileReader) (m m' : List Nat) (off nch D n L : Nat) : Prop where
  wav : WavFile m off nch D
  raw : PieceOf m off nch D n L m'
  head : a.rd.header = 0
  earlier : Earlier n a.rd b.rd
  within : SetWithin b.rd L
  rest : a.rd.loopType = .none → n + L = D / 2 / nch

theorem Earlier.interp {n : Nat} {a b : FileReader} (h : Earlier n a.rd b.rd) (k : Interp) : Earlier n (a.withInterp k).rd (b.withInterp k).rd := by
  refine ⟨?_, h.start, h.ls, h.lf⟩
  have := h.rest
  unfold FileReader.withInterp
  simp only
  rw [this]
  rfl

theorem TrimPlay.withInterp {a b : FileReader} {m m' : List Nat} {off nch D n L : Nat} (h : TrimPlay a b m m' off nch D n L) (k : Interp) :
    TrimPlay (a.withInterp k) (b.withInterp k) m m' off nch D n L :=
  ⟨h.wav, h.raw, h.head, h.earlier.interp k, ⟨h.within.start, h.within.ls, h.within.lf⟩, h.rest⟩

/-- **C94.**  The player `a` opens a WAV file and the player `b` opens a raw file that has its frames from frame `n` on, with a loop not necessarily
all of them; `b` is set like `a` with the marks `n` frames
earlier.  Either they go forwards, to the end or round and round, or there is a loop and they do not start at an end of the sound.  If both then play like players
with their files in memory, they do the same, update for update, whatever changes of speed `ok` allows, with any interpolation.

Missing: the second head, backwards without a loop, where it is wrong (`C94_refuted`), and linear interpolation above normal speed. -/
theorem C94_streams_partial {g g' : Geo} {nullOk nullOk' : Bool} {fuel fuel' : Nat} {a b a' b' : FileReader} {m m' : List Nat} {off nch D n L : Nat}
    (hs : TrimPlay a b m m' off nch D n L) {past past' : Bool} {junk : List Nat} (hj : junk.length = 36) (hc' : nch ≤ 32767)
    (hdual : a.rd.dual = false) {fwd : Bool}
    (hway : (fwd = true ∧ 0 ≤ a.rd.rate ∧ 0 ≤ a.rd.rem ∧ a.rd.loopType ≠ .pingpong) ∨ (fwd = false ∧ a.rd.loopType ≠ .none ∧ b.rd.playStart ≠ .sample))
    (hlin : a.rd.interp = .linear → |a.rd.rate| ≤ 1) {ok ok' : Rd → ℚ → Prop}
    (hok : ∀ q r r' v, Trimmed fwd ((off + 8) / 2 + n * nch) q a.rd.interp r r' → ok r v → ok' r' v ∧ (a.rd.interp = .linear → |v| ≤ 1) ∧ Inside r' v ∧ (fwd = true → 0 ≤ v))
    (hwav : a.playWav g (some ⟨m, 0, past⟩) junk = .ok (true, a')) (hraw : b.playRaw g' (some ⟨m', 0, past'⟩) nch = .ok (true, b'))
    (h : LikeInMemoryAt fp g nullOk fuel a' m ok) (h' : LikeInMemoryAt fp g' nullOk' fuel' b' m' ok') :
    SoundAlikeAt fp g g' nullOk nullOk' fuel fuel' a' b' m ok := by
  have hle := Nat.div_mul_le_self (D / 2) nch
  have hrd : Trimmed fwd ((off + 8) / 2 + n * nch) (openedRd (beforeRd a.rd m.length ((off + 8) / 2 : Nat) (D / 2 : Nat) nch)) a.rd.interp a'.rd b'.rd := by
    rw [playWav_rd hs.wav hj hc' hwav, playRaw_rd hs.raw.small hc' hraw]
    exact opened_trim hs.wav.some hc' hs.raw.fewer hs.raw.number (by have := hs.wav.inFile; have := hs.wav.even; omega) hs.wav.small rfl hs.head hdual hs.earlier
      hs.within hway hlin hs.rest
  intro as hall
  exact alike_trim (hs.raw.memory hs.wav) (hok _) as h h' hrd hall

/-! ## The settings of the second player -/

theorem SmoothSettings.earlier {n : Nat} {r r' : Rd} {R : Int} (h : SmoothSettings r R) (hE : Earlier n r r') : SmoothSettings r' R := by
  rw [hE.rest]
  exact ⟨h.dual, h.loop, h.rate0, h.rateR, h.flt, h.frac, h.rem0, h.linear, h.cubic, h.pts⟩

theorem RepeatSettings.earlier {n : Nat} {r r' : Rd} {R : Int} (h : RepeatSettings r R) (hE : Earlier n r r') : RepeatSettings r' R := by
  rw [hE.rest]
  exact ⟨⟨h.plain.dual, h.plain.interp⟩, h.loop, h.rate0, h.rateR, h.flt, h.frac⟩

theorem RepeatBackSettings.earlier {n : Nat} {r r' : Rd} {R : Int} (h : RepeatBackSettings fp r R) (hE : Earlier n r r') (hp : r'.playStart ≠ .sample) :
    RepeatBackSettings fp r' R := by
  rw [hE.rest]
  exact ⟨⟨h.plain.dual, h.plain.interp⟩, h.loop, h.rateF, h.rateR, h.flt, h.frac, fun e => absurd e hp⟩

theorem PingSettings.earlier {n : Nat} {r r' : Rd} {R : Int} (h : PingSettings fp r R) (hE : Earlier n r r') : PingSettings fp r' R := by
  rw [hE.rest]
  exact ⟨⟨h.plain.dual, h.plain.interp⟩, h.loop, h.rateF, h.rateR, h.flt, h.frac⟩

theorem Trimmed.ahead {H : Nat} {q : Rd} {k : Interp} {r r' : Rd} (h : Trimmed true H q k r r') {v : ℚ} (hv : 0 ≤ v) : Inside r' v := by
  rcases h.2.way with ⟨-, -, -, h1, -⟩ | ⟨h1, -⟩
  · exact Or.inr ⟨hv, by rw [h.2.header]; exact h1⟩
  · cases h1

/-- Changes of speed as in `ok` while the position is behind sample `H`. -/
def Past (H : Nat) (ok : Rd → ℚ → Prop) (r : Rd) (v : ℚ) : Prop := ok r v ∧ (H : Int) < r.pos1

theorem Trimmed.past {fwd : Bool} {H : Nat} {q : Rd} {k : Interp} {r r' : Rd} (h : Trimmed fwd H q k r r') (hp : (H : Int) < r.pos1) : r'.header < r'.pos1 := by
  have h1 : r.pos1 = r'.pos1 + H := by rw [h.1]; rfl
  rw [h.2.header]
  omega

theorem Trimmed.rem {fwd : Bool} {H : Nat} {q : Rd} {k : Interp} {r r' : Rd} (h : Trimmed fwd H q k r r') : r'.rem = r.rem ∧ r'.rate = r.rate ∧ r'.interp = r.interp := by
  rw [h.1]
  exact ⟨rfl, rfl, rfl⟩

/-- **C94** (forwards to the end).  A sound started at frame `n` or later sounds like the sound without its first `n` frames, started as many frames earlier: at any
speed up to `R` and with any interpolation, also while the speed is changed; with linear interpolation up to normal speed.

Missing: as in `C94_streams_partial`, what `C72_smooth_wav_partial` leaves out, and a fraction left over from playing backwards before. -/
theorem C94_wav_partial (hfp : Representable fp) {g g' : Geo} (hB : g.B < 16384) (hB' : g'.B < 16384) (hNB : g.N * g.B ≤ 2 ^ 30) (hNB' : g'.N * g'.B ≤ 2 ^ 30)
    (a b : FileReader) {m m' : List Nat} {off nch D n L : Nat} (hs : TrimPlay a b m m' off nch D n L)
    (past past' : Bool) (junk : List Nat) (hj : junk.length = 36) (hc' : nch ≤ 32767) (hroom : off + 8 < m.length) (h0 : 0 < m'.length)
    {R mm mm' : Int} (hset : SmoothSettings a.rd R) (hrem : 0 ≤ a.rd.rem) (hlin : a.rd.interp = .linear → a.rd.rate ≤ 1) (h8 : a.rd.interp ≠ .none → nch ≤ 8)
    (hstart : a.rd.playStart = .arbitrary → 0 ≤ a.rd.playbackStart ∧ a.rd.playbackStart ≤ (D / 2 / nch : Nat))
    (hmm0 : 0 ≤ mm) (hmm : 2 * mm + 1 ≤ g.N) (hadv : 128 * (nch * (R + 1)) + nch ≤ mm * g.B)
    (hmm0' : 0 ≤ mm') (hmm' : 2 * mm' + 1 ≤ g'.N) (hadv' : 128 * (nch * (R + 1)) + nch ≤ mm' * g'.B)
    (nullOk nullOk' : Bool) {fuel fuel' : Nat} (hf : g.N ≤ fuel + 1) (hf' : g'.N ≤ fuel' + 1) :
    ∃ a' b', a.playWav g (some ⟨m, 0, past⟩) junk = .ok (true, a') ∧ b.playRaw g' (some ⟨m', 0, past'⟩) nch = .ok (true, b') ∧
      SoundAlikeAt fp g g' nullOk nullOk' (fuel + 1) (fuel' + 1) a' b' m (SmoothUpTo R) := by
  have hi : b.rd.interp = a.rd.interp := by rw [hs.earlier.rest]
  have hnum : m'.length / 2 / nch = L := by rw [hs.raw.number]; exact Nat.mul_div_cancel _ hs.wav.some
  obtain ⟨a', k1, -, -, -, -, -, -, -, -, k2⟩ := C72_smooth_wav_partial fp hfp g hB hNB a hs.wav.bytes hs.wav.small past junk hj hs.wav.good hs.wav.depth hs.wav.data hs.wav.chans hs.wav.some hc' hs.wav.len hs.wav.inFile hroom
    hset h8 hstart hmm0 hmm hadv nullOk hf
  obtain ⟨b', l1, -, -, -, -, -, -, -, l2⟩ := C72_smooth_raw_partial fp hfp g' hB' hNB' b hs.raw.bytes h0 hs.raw.small past' hs.wav.some hc' (hset.earlier hs.earlier) (by rw [hi]; exact h8)
    (by rw [hs.earlier.rest]; exact hs.head) (by rw [hnum]; exact hs.within.start) hmm0' hmm' hadv' nullOk' hf'
  refine ⟨a', b', k1, l1, C94_streams_partial hs hj hc' hset.dual (Or.inl ⟨rfl, hset.rate0, hrem, by rw [hset.loop]; decide⟩)
    (fun h => abs_le.2 ⟨by have := hset.rate0; linarith, hlin h⟩) (ok' := SmoothSpeeds R) (fun q r r' v ht h => ?_) k1 l1 (k2.mono fun _ _ h => h.1) l2⟩
  obtain ⟨e1, e2, e3⟩ := ht.rem
  refine ⟨?_, fun hk => abs_le.2 ⟨by have := h.1.1; linarith, h.2 (e3 ▸ ht.2.calm.1.trans hk)⟩, ht.ahead h.1.1, fun _ => h.1.1⟩
  unfold SmoothSpeeds
  rw [e1, e2, e3]
  exact h.1

/-- **C94** (round and round, without interpolation at any speed up to `R`, whether positions are rounded or not), while the speed is changed as well. -/
theorem C94_loop_partial (hfp : Representable fp) {g g' : Geo} (hB : g.B < 16384) (hB' : g'.B < 16384) (hNB : g.N * g.B ≤ 2 ^ 30) (hNB' : g'.N * g'.B ≤ 2 ^ 30)
    (a b : FileReader) {m m' : List Nat} {off nch D n L : Nat} (hs : TrimPlay a b m m' off nch D n L)
    (past past' : Bool) (junk : List Nat) (hj : junk.length = 36) {fuel fuel' : Nat} (hfu : g.N ≤ fuel + 2) (hfu' : g'.N ≤ fuel' + 2)
    (hc' : nch ≤ 32767) {R : Int} {mm mm' : Int} (hset : RepeatSettings a.rd R) (hrem : 0 ≤ a.rd.rem)
    (hloop : GoodLoop g m ((off + 8) / 2 : Nat) nch a.rd.loopStart a.rd.loopFinish (firstFrame a.rd)) (hloop' : GoodLoop g' m' 0 nch b.rd.loopStart b.rd.loopFinish (firstFrame b.rd))
    (hmm0 : 0 ≤ mm) (hmm : 2 * mm + 5 ≤ g.N) (hadv : 128 * (nch * (R + 1)) ≤ mm * g.B)
    (hmm0' : 0 ≤ mm') (hmm' : 2 * mm' + 5 ≤ g'.N) (hadv' : 128 * (nch * (R + 1)) ≤ mm' * g'.B)
    (nullOk nullOk' : Bool) :
    ∃ a' b', a.playWav g (some ⟨m, 0, past⟩) junk = .ok (true, a') ∧ b.playRaw g' (some ⟨m', 0, past'⟩) nch = .ok (true, b') ∧
      SoundAlikeAt fp g g' nullOk nullOk' (fuel + 2) (fuel' + 2) a' b' m (SpeedsTo R) := by
  have hhead : b.rd.header = 0 := by rw [hs.earlier.rest]; exact hs.head
  obtain ⟨a', k1, -, -, -, -, -, -, -, -, -, k2⟩ := C72_loop_wav_partial fp hfp g hB hNB a hs.wav.bytes hs.wav.small past junk hj hs.wav.good hs.wav.depth hs.wav.data hs.wav.chans hs.wav.some hc'
    hset hloop hmm0 hmm hadv nullOk hfu
  obtain ⟨b', l1, -, -, -, -, -, -, -, -, -, l2⟩ := C72_loop_raw_partial fp hfp g' hB' hNB' b hs.raw.bytes hs.raw.small past' hs.wav.some hc' (hset.earlier hs.earlier) hhead hloop' hmm0' hmm' hadv' nullOk' hfu'
  refine ⟨a', b', k1, l1, C94_streams_partial hs hj hc' hset.plain.dual (Or.inl ⟨rfl, hset.rate0, hrem, by rw [hset.loop]; decide⟩)
    (fun h => by rw [hset.plain.interp] at h; cases h) (ok' := SpeedsTo R) (fun q r r' v ht h => ?_) k1 l1 k2 l2⟩
  exact ⟨h, (fun hk => by rw [hset.plain.interp] at hk; cases hk), ht.ahead h.1, fun _ => h.1⟩

/-- **C94** (round and round, with any interpolation at up to normal speed), while the speed is changed as well. -/
theorem C94_smooth_loop_partial (hfp : Representable fp) {g g' : Geo} (hB : g.B < 16384) (hB' : g'.B < 16384) (hNB : g.N * g.B ≤ 2 ^ 30) (hNB' : g'.N * g'.B ≤ 2 ^ 30)
    (a b : FileReader) {m m' : List Nat} {off nch D n L : Nat} (hs : TrimPlay a b m m' off nch D n L)
    (past past' : Bool) (junk : List Nat) (hj : junk.length = 36) {fuel fuel' : Nat} (hfu : g.N ≤ fuel + 2) (hfu' : g'.N ≤ fuel' + 2)
    (k : Interp) (hrem : 0 ≤ a.rd.rem) (hpts : PtsOk a.rd) (hc8 : nch ≤ 8) {mm mm' : Int} (hset : RepeatSettings a.rd 1)
    (hloop : GoodLoop g m ((off + 8) / 2 : Nat) nch a.rd.loopStart a.rd.loopFinish (firstFrame a.rd)) (hloop' : GoodLoop g' m' 0 nch b.rd.loopStart b.rd.loopFinish (firstFrame b.rd))
    (hmm0 : 0 ≤ mm) (hmm : 2 * mm + 5 ≤ g.N) (hadv : 128 * (nch * 2) ≤ mm * g.B)
    (hmm0' : 0 ≤ mm') (hmm' : 2 * mm' + 5 ≤ g'.N) (hadv' : 128 * (nch * 2) ≤ mm' * g'.B)
    (nullOk nullOk' : Bool) :
    ∃ a' b', (a.withInterp k).playWav g (some ⟨m, 0, past⟩) junk = .ok (true, a') ∧ (b.withInterp k).playRaw g' (some ⟨m', 0, past'⟩) nch = .ok (true, b') ∧
      SoundAlikeAt fp g g' nullOk nullOk' (fuel + 2) (fuel' + 2) a' b' m (UpToNormal k (SpeedsTo 1)) := by
  have hhead : b.rd.header = 0 := by rw [hs.earlier.rest]; exact hs.head
  obtain ⟨a', k1, -, -, -, -, -, -, -, -, k2⟩ := C82_loop_wav_partial hfp k g hB hNB a hs.wav.bytes hs.wav.small past junk hj hs.wav.good hs.wav.depth hs.wav.data hs.wav.chans hs.wav.some hc8
    hset (fun _ => hrem) hpts hloop hmm0 hmm hadv nullOk hfu
  obtain ⟨b', l1, -, -, -, -, -, -, -, -, l2⟩ := C82_loop_raw_partial hfp k g' hB' hNB' b hs.raw.bytes hs.raw.small past' hs.wav.some hc8 (hset.earlier hs.earlier) (fun _ => by rw [hs.earlier.rest]; exact hrem)
    (by rw [hs.earlier.rest]; exact hpts) hhead hloop' hmm0' hmm' hadv' nullOk' hfu'
  refine ⟨a', b', k1, l1, C94_streams_partial (hs.withInterp k) hj (by omega) hset.plain.dual (Or.inl ⟨rfl, hset.rate0, hrem, by show a.rd.loopType ≠ _; rw [hset.loop]; decide⟩)
    (fun _ => abs_le.2 ⟨by show -1 ≤ a.rd.rate; have := hset.rate0; linarith, by have := hset.rateR; push_cast at this; exact this⟩) (ok' := UpToNormal k (SpeedsTo 1)) (fun q r r' v ht h => ?_) k1 l1 k2 l2⟩
  obtain ⟨e1, -, -⟩ := ht.rem
  refine ⟨?_, fun _ => h.2.1, ht.ahead h.1.1, fun _ => h.1.1⟩
  unfold UpToNormal
  rw [e1]
  exact h

/-- **C94** (round and round backwards, without interpolation at any speed up to `R`, whether positions are rounded or not), while the speed is changed as well, as long as
the position is behind the first of the remaining frames. -/
theorem C94_loop_back_partial (hfp : Representable fp) {g g' : Geo} (hB : g.B < 16384) (hB' : g'.B < 16384) (hNB : g.N * g.B ≤ 2 ^ 30) (hNB' : g'.N * g'.B ≤ 2 ^ 30)
    (a b : FileReader) {m m' : List Nat} {off nch D n L : Nat} (hs : TrimPlay a b m m' off nch D n L)
    (past past' : Bool) (junk : List Nat) (hj : junk.length = 36) {fuel fuel' : Nat} (hfu : g.N ≤ fuel + 2) (hfu' : g'.N ≤ fuel' + 2)
    (hc' : nch ≤ 32767) {R : Int} {mm mm' : Int} (hset : RepeatBackSettings fp a.rd R) (hp : b.rd.playStart ≠ .sample)
    {P P' : Int} (hP : StartsBackAt a.rd ((m.length : Int) / 2) ((off + 8) / 2 : Nat) a.rd.loopFinish nch P) (hP' : StartsBackAt b.rd ((m'.length : Int) / 2) 0 b.rd.loopFinish nch P')
    (hloop : GoodLoopBack g m ((off + 8) / 2 : Nat) nch a.rd.loopStart a.rd.loopFinish P) (hloop' : GoodLoopBack g' m' 0 nch b.rd.loopStart b.rd.loopFinish P')
    (hmm0 : 0 ≤ mm) (hmm : 2 * mm + 5 ≤ g.N) (hadv : 128 * (nch * (R + 1)) + nch * nch ≤ mm * g.B)
    (hmm0' : 0 ≤ mm') (hmm' : 2 * mm' + 5 ≤ g'.N) (hadv' : 128 * (nch * (R + 1)) + nch * nch ≤ mm' * g'.B)
    (nullOk nullOk' : Bool) :
    ∃ a' b', a.playWav g (some ⟨m, 0, past⟩) junk = .ok (true, a') ∧ b.playRaw g' (some ⟨m', 0, past'⟩) nch = .ok (true, b') ∧
      SoundAlikeAt fp g g' nullOk nullOk' (fuel + 2) (fuel' + 2) a' b' m (Past ((off + 8) / 2 + n * nch) (SpeedsBack fp R)) := by
  have hhead : b.rd.header = 0 := by rw [hs.earlier.rest]; exact hs.head
  obtain ⟨a', k1, -, -, -, -, -, -, -, -, -, k2⟩ := C72_loop_back_wav_partial fp hfp g hB hNB a hs.wav.bytes hs.wav.small past junk hj hs.wav.good hs.wav.depth hs.wav.data hs.wav.chans hs.wav.some hc'
    hset hP hloop hmm0 hmm hadv nullOk hfu
  obtain ⟨b', l1, -, -, -, -, -, -, -, -, -, l2⟩ := C72_loop_back_raw_partial fp hfp g' hB' hNB' b hs.raw.bytes hs.raw.small past' hs.wav.some hc' (hset.earlier hs.earlier hp) hhead hP' hloop' hmm0' hmm' hadv' nullOk' hfu'
  refine ⟨a', b', k1, l1, C94_streams_partial hs hj hc' hset.plain.dual (Or.inr ⟨rfl, by rw [hset.loop]; decide, hp⟩)
    (fun h => by rw [hset.plain.interp] at h; cases h) (ok' := SpeedsBack fp R) (fun q r r' v ht h => ?_) k1 l1 (k2.mono fun _ _ h => h.1) l2⟩
  exact ⟨⟨h.1.1, h.1.2.1, fun _ => ht.past h.2⟩, (fun hk => by rw [hset.plain.interp] at hk; cases hk), Or.inl (ht.past h.2), fun h => nomatch h⟩

/-- **C94** (round and round backwards, with any interpolation at up to normal speed), while the speed is changed as well, as long as the position is behind the first of
the remaining frames. -/
theorem C94_smooth_loop_back_partial (hfp : Representable fp) {g g' : Geo} (hB : g.B < 16384) (hB' : g'.B < 16384) (hNB : g.N * g.B ≤ 2 ^ 30) (hNB' : g'.N * g'.B ≤ 2 ^ 30)
    (a b : FileReader) {m m' : List Nat} {off nch D n L : Nat} (hs : TrimPlay a b m m' off nch D n L)
    (past past' : Bool) (junk : List Nat) (hj : junk.length = 36) {fuel fuel' : Nat} (hfu : g.N ≤ fuel + 2) (hfu' : g'.N ≤ fuel' + 2)
    (k : Interp) (hk : k = .quadratic → a.rd.rem ≤ 0) (hpts : PtsOk a.rd) (hc8 : nch ≤ 8) {mm mm' : Int} (hset : RepeatBackSettings fp a.rd 1) (hp : b.rd.playStart ≠ .sample)
    {P P' : Int} (hP : StartsBackAt a.rd ((m.length : Int) / 2) ((off + 8) / 2 : Nat) a.rd.loopFinish nch P) (hP' : StartsBackAt b.rd ((m'.length : Int) / 2) 0 b.rd.loopFinish nch P')
    (hloop : GoodLoopBack g m ((off + 8) / 2 : Nat) nch a.rd.loopStart a.rd.loopFinish P) (hloop' : GoodLoopBack g' m' 0 nch b.rd.loopStart b.rd.loopFinish P')
    (hmm0 : 0 ≤ mm) (hmm : 2 * mm + 5 ≤ g.N) (hadv : 128 * (nch * 2) + nch * nch ≤ mm * g.B)
    (hmm0' : 0 ≤ mm') (hmm' : 2 * mm' + 5 ≤ g'.N) (hadv' : 128 * (nch * 2) + nch * nch ≤ mm' * g'.B)
    (nullOk nullOk' : Bool) :
    ∃ a' b', (a.withInterp k).playWav g (some ⟨m, 0, past⟩) junk = .ok (true, a') ∧ (b.withInterp k).playRaw g' (some ⟨m', 0, past'⟩) nch = .ok (true, b') ∧
      SoundAlikeAt fp g g' nullOk nullOk' (fuel + 2) (fuel' + 2) a' b' m (Past ((off + 8) / 2 + n * nch) (UpToNormal k (SpeedsBack fp 1))) := by
  have hhead : b.rd.header = 0 := by rw [hs.earlier.rest]; exact hs.head
  obtain ⟨a', k1, -, -, -, -, -, -, -, -, k2⟩ := C82_loop_back_wav_partial hfp k g hB hNB a hs.wav.bytes hs.wav.small past junk hj hs.wav.good hs.wav.depth hs.wav.data hs.wav.chans hs.wav.some hc8
    hset hk hpts hP hloop hmm0 hmm hadv nullOk hfu
  obtain ⟨b', l1, -, -, -, -, -, -, -, -, l2⟩ := C82_loop_back_raw_partial hfp k g' hB' hNB' b hs.raw.bytes hs.raw.small past' hs.wav.some hc8 (hset.earlier hs.earlier hp) (fun h => by rw [hs.earlier.rest]; exact hk h)
    (by rw [hs.earlier.rest]; exact hpts) hhead hP' hloop' hmm0' hmm' hadv' nullOk' hfu'
  refine ⟨a', b', k1, l1, C94_streams_partial (hs.withInterp k) hj (by omega) hset.plain.dual (Or.inr ⟨rfl, by show a.rd.loopType ≠ _; rw [hset.loop]; decide, hp⟩)
    (fun _ => abs_le.2 ⟨by show -1 ≤ a.rd.rate; have := hset.rateR; push_cast at this; linarith, by show a.rd.rate ≤ 1; have := neg_of_rnd hset.rateF; linarith⟩)
    (ok' := UpToNormal k (SpeedsBack fp 1)) (fun q r r' v ht h => ?_) k1 l1 (k2.mono fun _ _ h => h.1) l2⟩
  obtain ⟨e1, -, -⟩ := ht.rem
  exact ⟨⟨⟨h.1.1.1, h.1.1.2.1, fun _ => ht.past h.2⟩, h.1.2.1, by rw [e1]; exact h.1.2.2⟩, fun _ => h.1.2.1, Or.inl (ht.past h.2), fun h => nomatch h⟩

/-- **C94** (to and fro, without interpolation at any speed up to `R`, whether positions are rounded or not), while the speed is changed as well, as long as the position is
behind the first of the remaining frames. -/
theorem C94_ping_partial (hfp : Representable fp) {g g' : Geo} (hB : g.B < 16384) (hB' : g'.B < 16384) (hNB : g.N * g.B ≤ 2 ^ 30) (hNB' : g'.N * g'.B ≤ 2 ^ 30)
    (a b : FileReader) {m m' : List Nat} {off nch D n L : Nat} (hs : TrimPlay a b m m' off nch D n L)
    (past past' : Bool) (junk : List Nat) (hj : junk.length = 36) {fuel fuel' : Nat} (hfu : g.N ≤ fuel + 2) (hfu' : g'.N ≤ fuel' + 2)
    (hc' : nch ≤ 32767) {R : Int} (hset : PingSettings fp a.rd R) (hp : b.rd.playStart ≠ .sample)
    {P T P' T' : Int} (hP : StartsPingAt a.rd ((m.length : Int) / 2) ((off + 8) / 2 : Nat) nch P) (hT : TurnsBelowAt a.rd ((off + 8) / 2 : Nat) nch T)
    (hP' : StartsPingAt b.rd ((m'.length : Int) / 2) 0 nch P') (hT' : TurnsBelowAt b.rd 0 nch T')
    (hloop : GoodPing g m (0 ≤ a.rd.rate) ((off + 8) / 2 : Nat) nch a.rd.loopStart a.rd.loopFinish T R P) (hloop' : GoodPing g' m' (0 ≤ b.rd.rate) 0 nch b.rd.loopStart b.rd.loopFinish T' R P')
    (nullOk nullOk' : Bool) :
    ∃ a' b', a.playWav g (some ⟨m, 0, past⟩) junk = .ok (true, a') ∧ b.playRaw g' (some ⟨m', 0, past'⟩) nch = .ok (true, b') ∧
      SoundAlikeAt fp g g' nullOk nullOk' (fuel + 2) (fuel' + 2) a' b' m (Past ((off + 8) / 2 + n * nch) (SpeedsPing fp R)) := by
  have hhead : b.rd.header = 0 := by rw [hs.earlier.rest]; exact hs.head
  obtain ⟨a', k1, -, -, -, -, -, -, -, -, -, k2⟩ := C72_ping_wav_partial fp hfp g hB hNB a hs.wav.bytes hs.wav.small past junk hj hs.wav.good hs.wav.depth hs.wav.data hs.wav.chans hs.wav.some hc'
    hset hP hT hloop nullOk hfu
  obtain ⟨b', l1, -, -, -, -, -, -, -, -, -, l2⟩ := C72_ping_raw_partial fp hfp g' hB' hNB' b hs.raw.bytes hs.raw.small past' hs.wav.some hc' (hset.earlier hs.earlier) hhead hP' hT' hloop' nullOk' hfu'
  refine ⟨a', b', k1, l1, C94_streams_partial hs hj hc' hset.plain.dual (Or.inr ⟨rfl, by rw [hset.loop]; decide, hp⟩)
    (fun h => by rw [hset.plain.interp] at h; cases h) (ok' := SpeedsPing fp R) (fun q r r' v ht h => ?_) k1 l1 (k2.mono fun _ _ h => h.1) l2⟩
  obtain ⟨-, e2, -⟩ := ht.rem
  exact ⟨⟨h.1.1, h.1.2.1, by rw [e2]; exact h.1.2.2.1, fun _ => Or.inl (ht.past h.2)⟩, (fun hk => by rw [hset.plain.interp] at hk; cases hk), Or.inl (ht.past h.2), fun h => nomatch h⟩

/-- **C94** (to and fro, with linear interpolation at up to normal speed), while the speed is changed as well, as long as the position is behind the first of the remaining
frames. -/
theorem C94_smooth_ping_partial (hfp : Representable fp) {g g' : Geo} (hB : g.B < 16384) (hB' : g'.B < 16384) (hNB : g.N * g.B ≤ 2 ^ 30) (hNB' : g'.N * g'.B ≤ 2 ^ 30)
    (a b : FileReader) {m m' : List Nat} {off nch D n L : Nat} (hs : TrimPlay a b m m' off nch D n L)
    (past past' : Bool) (junk : List Nat) (hj : junk.length = 36) {fuel fuel' : Nat} (hfu : g.N ≤ fuel + 2) (hfu' : g'.N ≤ fuel' + 2)
    (hpts : PtsOk a.rd) (hc8 : nch ≤ 8) (hset : PingSettings fp a.rd 1) (hp : b.rd.playStart ≠ .sample)
    {P T P' T' : Int} (hP : StartsPingAt a.rd ((m.length : Int) / 2) ((off + 8) / 2 : Nat) nch P) (hT : TurnsBelowAt a.rd ((off + 8) / 2 : Nat) nch T)
    (hP' : StartsPingAt b.rd ((m'.length : Int) / 2) 0 nch P') (hT' : TurnsBelowAt b.rd 0 nch T')
    (hloop : GoodPing g m (0 ≤ a.rd.rate) ((off + 8) / 2 : Nat) nch a.rd.loopStart a.rd.loopFinish T 1 P) (hloop' : GoodPing g' m' (0 ≤ b.rd.rate) 0 nch b.rd.loopStart b.rd.loopFinish T' 1 P')
    (nullOk nullOk' : Bool) :
    ∃ a' b', (a.withInterp .linear).playWav g (some ⟨m, 0, past⟩) junk = .ok (true, a') ∧ (b.withInterp .linear).playRaw g' (some ⟨m', 0, past'⟩) nch = .ok (true, b') ∧
      SoundAlikeAt fp g g' nullOk nullOk' (fuel + 2) (fuel' + 2) a' b' m (Past ((off + 8) / 2 + n * nch) (UpToNormal .linear (SpeedsPing fp 1))) := by
  have hhead : b.rd.header = 0 := by rw [hs.earlier.rest]; exact hs.head
  obtain ⟨a', k1, -, -, -, -, -, -, -, -, k2⟩ := C82_ping_wav_partial hfp g hB hNB a hs.wav.bytes hs.wav.small past junk hj hs.wav.good hs.wav.depth hs.wav.data hs.wav.chans hs.wav.some hc8
    hset hpts hP hT hloop nullOk hfu
  obtain ⟨b', l1, -, -, -, -, -, -, -, -, l2⟩ := C82_ping_raw_partial hfp g' hB' hNB' b hs.raw.bytes hs.raw.small past' hs.wav.some hc8 (hset.earlier hs.earlier) (by rw [hs.earlier.rest]; exact hpts) hhead hP' hT' hloop' nullOk' hfu'
  refine ⟨a', b', k1, l1, C94_streams_partial (hs.withInterp .linear) hj (by omega) hset.plain.dual (Or.inr ⟨rfl, by show a.rd.loopType ≠ _; rw [hset.loop]; decide, hp⟩)
    (fun _ => by have := hset.rateR; push_cast at this; exact this) (ok' := UpToNormal .linear (SpeedsPing fp 1)) (fun q r r' v ht h => ?_) k1 l1 (k2.mono fun _ _ h => h.1) l2⟩
  obtain ⟨-, e2, -⟩ := ht.rem
  exact ⟨⟨⟨h.1.1.1, h.1.1.2.1, by rw [e2]; exact h.1.1.2.2.1, fun _ => Or.inl (ht.past h.2)⟩, h.1.2.1, fun hk => nomatch hk⟩, fun _ => h.1.2.1, Or.inl (ht.past h.2), fun h => nomatch h⟩

/-! ## Examples -/

/-- Such a raw file: the piece of one that has all the frames of the WAV file. -/
theorem SameFrames.piece {m m' : List Nat} {off nch D : Nat} (h : SameFrames m off nch D m') (hwhole : m'.length / 2 % nch = 0) {n L : Nat} (hn : n + L ≤ D / 2 / nch) :
    PieceOf m off nch D n L ((m'.drop (2 * (n * nch))).take (2 * (L * nch))) := by
  refine ⟨fun x hx => h.bytes x (List.mem_of_mem_drop (List.mem_of_mem_take hx)), ?_, hn, ?_, fun i ch hi hch => ?_⟩
  · rw [List.length_take, List.length_drop]
    exact lt_of_le_of_lt (le_trans (Nat.min_le_right _ _) (Nat.sub_le _ _)) h.small
  · have h1 : m'.length / 2 = D / 2 / nch * nch := by rw [← h.number]; exact (Nat.div_mul_cancel (Nat.dvd_of_mod_eq_zero hwhole)).symm
    have h2 : n * nch + L * nch ≤ D / 2 / nch * nch := by rw [← Nat.add_mul]; exact Nat.mul_le_mul_right _ hn
    rw [List.length_take, List.length_drop]
    rw [← h1] at h2
    generalize n * nch = x at *
    generalize L * nch = y at *
    omega
  · rw [h.same (n + i) ch (by omega) hch]
    have h3 : i * nch + ch + 1 ≤ L * nch := by
      have : (i + 1) * nch ≤ L * nch := Nat.mul_le_mul_right _ hi
      rw [Nat.add_mul] at this
      omega
    unfold dataSample
    have e : slice ((m'.drop (2 * (n * nch))).take (2 * (L * nch))) (0 + 2 * (i * nch + ch)) 2 = slice m' (0 + 2 * ((n + i) * nch + ch)) 2 := by
      unfold slice
      rw [List.drop_take, List.take_take, List.drop_drop, Nat.min_eq_left (by omega)]
      congr 2
      ring
    rw [e]

/-- Half speed with quadratic interpolation from frame 1 on. -/
def exHalfLate : FileReader := { rd := { rate := 1 / 2, interp := .quadratic, playStart := .arbitrary, playbackStart := 1 } }

theorem exHalfLate_settings : SmoothSettings exHalfLate.rd 1 :=
  ⟨rfl, rfl, exHalfSmooth_settings.rate0, exHalfSmooth_settings.rateR, exHalfSmooth_settings.flt, exHalfSmooth_settings.frac, fun _ => le_refl _, (fun h => nomatch h),
    fun _ => exHalfSmooth_settings.cubic rfl, exHalfSmooth_settings.pts⟩

theorem exHalfLate_trim : TrimPlay exHalfLate exHalfSmooth exWav ((exRaw.drop (2 * (1 * 2))).take (2 * (1 * 2))) 48 2 8 1 1 :=
  ⟨exWav_file, exRaw_same.piece (by decide) (by decide), rfl, ⟨rfl, Or.inr (Or.inl ⟨by norm_num [exHalfLate], rfl, rfl, rfl⟩), fun h => absurd rfl h, fun h => absurd rfl h⟩,
    ⟨(fun h => nomatch h), fun h => absurd rfl h, fun h => absurd rfl h⟩, fun _ => by decide⟩

/-- The sound from its second frame on. -/
example : ∃ a' b', exHalfLate.playWav sdGeo (some ⟨exWav, 0, false⟩) (List.replicate 36 7) = .ok (true, a') ∧
    exHalfSmooth.playRaw ⟨9, 5, fun _ => []⟩ (some ⟨(exRaw.drop (2 * (1 * 2))).take (2 * (1 * 2)), 0, true⟩) 2 = .ok (true, b') ∧
    SoundAlikeAt Fp.ieee sdGeo ⟨9, 5, fun _ => []⟩ true false (6 + 1) (6 + 1) a' b' exWav (SmoothUpTo 1) :=
  C94_wav_partial ieee_representable (by decide) (by decide) (by decide) (by decide) exHalfLate exHalfSmooth exHalfLate_trim false true
    (List.replicate 36 7) (by decide) (by decide) (by decide) (by decide) (R := 1) (mm := 2) (mm' := 2) exHalfLate_settings (le_refl _) (fun h => nomatch h) (fun _ => by decide) (fun _ => by decide)
    (by decide) (by decide) (by decide) (by decide) (by decide) (by decide) true false (by decide) (by decide)

/-- What is asked by `C94_streams_partial` of the settings and the files is met by these players. -/
example {g g' : Geo} {fuel fuel' : Nat} {a' b' : FileReader}
    (hwav : exHalfLate.playWav g (some ⟨exWav, 0, false⟩) (List.replicate 36 7) = .ok (true, a')) (hraw : exHalfSmooth.playRaw g' (some ⟨(exRaw.drop (2 * (1 * 2))).take (2 * (1 * 2)), 0, false⟩) (2 : Nat) = .ok (true, b'))
    (h : LikeInMemoryAt Fp.ieee g true fuel a' exWav (SpeedsTo 1)) (h' : LikeInMemoryAt Fp.ieee g' true fuel' b' ((exRaw.drop (2 * (1 * 2))).take (2 * (1 * 2))) (SpeedsTo 1)) :
    SoundAlikeAt Fp.ieee g g' true true fuel fuel' a' b' exWav (SpeedsTo 1) :=
  C94_streams_partial exHalfLate_trim (by decide) (by decide) rfl (Or.inl ⟨rfl, by norm_num [exHalfLate], le_refl _, (fun h => nomatch h)⟩) (fun h => nomatch h)
    (fun q r r' v ht h => ⟨h, (fun h => nomatch h), ht.ahead h.1, fun _ => h.1⟩) hwav hraw h h'

/-- Frames 2 to 5 again and again from frame 4 on. -/
def exFewSooner : FileReader := { rd := { rate := 1 / 2, loopType := .repeat, loopStart := 2, loopFinish := 6, playStart := .arbitrary, playbackStart := 4 } }

theorem exFewSooner_trim : TrimPlay exFew exFewSooner exCount ((exCountRaw.drop (2 * (8 * 2))).take (2 * (1420 * 2))) 48 2 6000 8 1420 :=
  ⟨exCount_file, exCountRaw_same.piece (by rw [exCountRaw_length]) (by decide), rfl, ⟨rfl, Or.inl ⟨rfl, rfl, rfl⟩, fun _ => rfl, fun _ => rfl⟩,
    ⟨fun _ => by decide, fun _ => by decide, fun _ => by decide⟩, (fun h => nomatch h)⟩

theorem exCountRaw_rest_length : ((exCountRaw.drop (2 * (8 * 2))).take (2 * (1420 * 2))).length = 5680 := by
  rw [List.length_take, List.length_drop, exCountRaw_length]; rfl

theorem exFew_loop : GoodLoop exFineGeo exCount ((48 + 8) / 2 : Nat) (2 : Nat) exFew.rd.loopStart exFew.rd.loopFinish (firstFrame exFew.rd) :=
  ⟨by decide, by decide, by decide +kernel, by decide, by decide, Or.inr ⟨by decide, by decide +kernel⟩⟩

theorem exFewSooner_loop : GoodLoop exFineGeo ((exCountRaw.drop (2 * (8 * 2))).take (2 * (1420 * 2))) 0 (2 : Nat) exFewSooner.rd.loopStart exFewSooner.rd.loopFinish (firstFrame exFewSooner.rd) :=
  ⟨by decide, by decide, by rw [exCountRaw_rest_length]; decide, by decide, by decide, Or.inr ⟨by decide, by rw [exCountRaw_rest_length]; decide⟩⟩

example : ∃ a' b', exFew.playWav exFineGeo (some ⟨exCount, 0, false⟩) (List.replicate 36 7) = .ok (true, a') ∧
    exFewSooner.playRaw exFineGeo (some ⟨(exCountRaw.drop (2 * (8 * 2))).take (2 * (1420 * 2)), 0, true⟩) 2 = .ok (true, b') ∧
    SoundAlikeAt Fp.ieee exFineGeo exFineGeo true false (5 + 2) (5 + 2) a' b' exCount (SpeedsTo 1) :=
  C94_loop_partial ieee_representable (by decide) (by decide) (by decide) (by decide) exFew exFewSooner exFewSooner_trim
    false true (List.replicate 36 7) (by decide) (by decide) (by decide) (by decide) (mm := 1) (mm' := 1) exFew_settings (le_refl _) exFew_loop exFewSooner_loop
    (by decide) (by decide) (by decide) (by decide) (by decide) (by decide) true false

example : ∃ a' b', (exFew.withInterp .quadratic).playWav exFineGeo (some ⟨exCount, 0, false⟩) (List.replicate 36 7) = .ok (true, a') ∧
    (exFewSooner.withInterp .quadratic).playRaw exFineGeo (some ⟨(exCountRaw.drop (2 * (8 * 2))).take (2 * (1420 * 2)), 0, true⟩) 2 = .ok (true, b') ∧
    SoundAlikeAt Fp.ieee exFineGeo exFineGeo true false (5 + 2) (5 + 2) a' b' exCount (UpToNormal .quadratic (SpeedsTo 1)) :=
  C94_smooth_loop_partial ieee_representable (by decide) (by decide) (by decide) (by decide) exFew exFewSooner exFewSooner_trim
    false true (List.replicate 36 7) (by decide) (by decide) (by decide) .quadratic (le_refl _) pts_new (by decide) (mm := 1) (mm' := 1) exFew_settings exFew_loop exFewSooner_loop
    (by decide) (by decide) (by decide) (by decide) (by decide) (by decide) true false

/-- Frames 3080 to 3083 again and again, backwards. -/
def exFewBackSooner : FileReader := { rd := { rate := -1 / 2, loopType := .repeat, loopStart := 3080, loopFinish := 3084, playStart := .arbitrary, playbackStart := 3081 } }

theorem exFewBackSooner_trim : TrimPlay exFewBack exFewBackSooner exCountMore ((exCountMoreRaw.drop (2 * (20 * 2))).take (2 * (3329 * 2))) 48 2 13400 20 3329 :=
  ⟨exCountMore_file, exCountMoreRaw_same.piece (by rw [exCountMoreRaw_length]) (by decide), rfl, ⟨rfl, Or.inl ⟨rfl, rfl, rfl⟩, fun _ => rfl, fun _ => rfl⟩,
    ⟨fun _ => by decide, fun _ => by decide, fun _ => by decide⟩, (fun h => nomatch h)⟩

theorem exCountMoreRaw_rest_length : ((exCountMoreRaw.drop (2 * (20 * 2))).take (2 * (3329 * 2))).length = 13316 := by
  rw [List.length_take, List.length_drop, exCountMoreRaw_length]; rfl

theorem exFewBackSooner_start (S : Int) : StartsBackAt exFewBackSooner.rd S 0 exFewBackSooner.rd.loopFinish (2 : Nat) (3081 * 2 : Nat) := by
  show ((_ : Nat) : Int) = _
  decide

theorem exFewBackSooner_loop : GoodLoopBack exFinerGeo ((exCountMoreRaw.drop (2 * (20 * 2))).take (2 * (3329 * 2))) 0 (2 : Nat) exFewBackSooner.rd.loopStart exFewBackSooner.rd.loopFinish (3081 * 2 : Nat) := by
  exact ⟨by decide, by decide, by rw [exCountMoreRaw_rest_length]; decide, by decide, by rw [exCountMoreRaw_rest_length]; decide, by decide,
    by rw [exCountMoreRaw_rest_length]; decide, Or.inr ⟨by decide, by decide⟩⟩

example : ∃ a' b', exFewBack.playWav exFinerGeo (some ⟨exCountMore, 0, false⟩) (List.replicate 36 7) = .ok (true, a') ∧
    exFewBackSooner.playRaw exFinerGeo (some ⟨(exCountMoreRaw.drop (2 * (20 * 2))).take (2 * (3329 * 2)), 0, true⟩) 2 = .ok (true, b') ∧
    SoundAlikeAt Fp.ieee exFinerGeo exFinerGeo true false (5 + 2) (5 + 2) a' b' exCountMore (Past ((48 + 8) / 2 + 20 * 2) (SpeedsBack Fp.ieee 1)) :=
  C94_loop_back_partial ieee_representable (by decide) (by decide) (by decide) (by decide) exFewBack exFewBackSooner exFewBackSooner_trim
    false true (List.replicate 36 7) (by decide) (by decide) (by decide) (by decide) (mm := 1) (mm' := 1) exFewBack_settings (fun h => nomatch h)
    (exFewBack_start ((exCountMore.length : Int) / 2)) (exFewBackSooner_start _) exFewBack_loop exFewBackSooner_loop
    (by decide) (by decide) (by decide) (by decide) (by decide) (by decide) true false

example : ∃ a' b', (exFewBack.withInterp .linear).playWav exFinerGeo (some ⟨exCountMore, 0, false⟩) (List.replicate 36 7) = .ok (true, a') ∧
    (exFewBackSooner.withInterp .linear).playRaw exFinerGeo (some ⟨(exCountMoreRaw.drop (2 * (20 * 2))).take (2 * (3329 * 2)), 0, true⟩) 2 = .ok (true, b') ∧
    SoundAlikeAt Fp.ieee exFinerGeo exFinerGeo true false (5 + 2) (5 + 2) a' b' exCountMore (Past ((48 + 8) / 2 + 20 * 2) (UpToNormal .linear (SpeedsBack Fp.ieee 1))) :=
  C94_smooth_loop_back_partial ieee_representable (by decide) (by decide) (by decide) (by decide) exFewBack exFewBackSooner exFewBackSooner_trim
    false true (List.replicate 36 7) (by decide) (by decide) (by decide) .linear (fun h => nomatch h) pts_new (by decide) (mm := 1) (mm' := 1) exFewBack_settings (fun h => nomatch h)
    (exFewBack_start ((exCountMore.length : Int) / 2)) (exFewBackSooner_start _) exFewBack_loop exFewBackSooner_loop
    (by decide) (by decide) (by decide) (by decide) (by decide) (by decide) true false

/-- Frames 2 to 7 to and fro. -/
def exFewPingSooner : FileReader := { rd := { rate := 1, loopType := .pingpong, loopStart := 2, loopFinish := 8, playStart := .arbitrary, playbackStart := 4 } }

theorem exFewPingSooner_trim : TrimPlay exFewPing exFewPingSooner exCount ((exCountRaw.drop (2 * (8 * 2))).take (2 * (1420 * 2))) 48 2 6000 8 1420 :=
  ⟨exCount_file, exCountRaw_same.piece (by rw [exCountRaw_length]) (by decide), rfl, ⟨rfl, Or.inl ⟨rfl, rfl, rfl⟩, fun _ => rfl, fun _ => rfl⟩,
    ⟨fun _ => by decide, fun _ => by decide, fun _ => by decide⟩, (fun h => nomatch h)⟩

theorem exFewPingSooner_good : GoodPing exFineGeo ((exCountRaw.drop (2 * (8 * 2))).take (2 * (1420 * 2))) (0 ≤ exFewPingSooner.rd.rate) 0 (2 : Nat) exFewPingSooner.rd.loopStart exFewPingSooner.rd.loopFinish 4 1 8 :=
  ⟨by decide, by decide, by rw [exCountRaw_rest_length]; decide, by decide, by decide, ⟨by decide, by rw [exCountRaw_rest_length]; decide, by decide⟩,
    fun _ => ⟨by decide, Or.inr ⟨by decide, by decide, by rw [exCountRaw_rest_length]; decide⟩⟩, fun h => absurd (by norm_num [exFewPingSooner]) h⟩

example : ∃ a' b', exFewPing.playWav exFineGeo (some ⟨exCount, 0, false⟩) (List.replicate 36 7) = .ok (true, a') ∧
    exFewPingSooner.playRaw exFineGeo (some ⟨(exCountRaw.drop (2 * (8 * 2))).take (2 * (1420 * 2)), 0, true⟩) 2 = .ok (true, b') ∧
    SoundAlikeAt Fp.ieee exFineGeo exFineGeo true false (5 + 2) (5 + 2) a' b' exCount (Past ((48 + 8) / 2 + 8 * 2) (SpeedsPing Fp.ieee 1)) :=
  C94_ping_partial ieee_representable (by decide) (by decide) (by decide) (by decide) exFewPing exFewPingSooner exFewPingSooner_trim
    false true (List.replicate 36 7) (by decide) (by decide) (by decide) (by decide) exFewPing_settings (fun h => nomatch h)
    (P := 52) (P' := 8) (by unfold StartsPingAt; rw [if_pos (by norm_num [exFewPing])]; decide) (by unfold TurnsBelowAt; decide)
    (by unfold StartsPingAt; rw [if_pos (by norm_num [exFewPingSooner])]; decide) (by unfold TurnsBelowAt; decide) exFewPing_good exFewPingSooner_good true false

example : ∃ a' b', (exFewPing.withInterp .linear).playWav exFineGeo (some ⟨exCount, 0, false⟩) (List.replicate 36 7) = .ok (true, a') ∧
    (exFewPingSooner.withInterp .linear).playRaw exFineGeo (some ⟨(exCountRaw.drop (2 * (8 * 2))).take (2 * (1420 * 2)), 0, true⟩) 2 = .ok (true, b') ∧
    SoundAlikeAt Fp.ieee exFineGeo exFineGeo true false (5 + 2) (5 + 2) a' b' exCount (Past ((48 + 8) / 2 + 8 * 2) (UpToNormal .linear (SpeedsPing Fp.ieee 1))) :=
  C94_smooth_ping_partial ieee_representable (by decide) (by decide) (by decide) (by decide) exFewPing exFewPingSooner exFewPingSooner_trim
    false true (List.replicate 36 7) (by decide) (by decide) (by decide) pts_new (by decide) exFewPing_settings (fun h => nomatch h)
    (P := 52) (P' := 8) (by unfold StartsPingAt; rw [if_pos (by norm_num [exFewPing])]; decide) (by unfold TurnsBelowAt; decide)
    (by unfold StartsPingAt; rw [if_pos (by norm_num [exFewPingSooner])]; decide) (by unfold TurnsBelowAt; decide) exFewPing_good exFewPingSooner_good true false

/-- **C94 refuted** (backwards without a loop).  Backwards from frame 4 the sound goes on past frame 3 to the beginning of the file; without its first three
frames it ends with frame 3. -/
theorem C94_refuted : PieceOf exTensWav 48 2 64 3 13 ((exTens.drop (2 * (3 * 2))).take (2 * (13 * 2))) ∧
    Earlier 3 { rate := -1, playStart := .arbitrary, playbackStart := 4 } { rate := -1, playStart := .arbitrary, playbackStart := 1 } ∧
    firstBlock { rate := -1, playStart := .arbitrary, playbackStart := 4 } exTensWav = .ok [[40, 30, 20]] ∧
    firstRawBlock { rate := -1, playStart := .arbitrary, playbackStart := 1 } ((exTens.drop (2 * (3 * 2))).take (2 * (13 * 2))) 2 = .ok [[40, 30, 0]] :=
  ⟨exTens_same.piece (by decide +kernel) (by decide), ⟨rfl, Or.inl ⟨rfl, rfl, rfl⟩, fun h => absurd rfl h, fun h => absurd rfl h⟩, by decide +kernel, by decide +kernel⟩

end TVP
