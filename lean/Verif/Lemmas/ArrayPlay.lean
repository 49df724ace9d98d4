import Verif.Lemmas.Loops

/-!
# Playing arrays
-/

namespace TVP
open Spec

/-- The array source delivers the array. -/
theorem arraySrcIs (data : List Int) :
    SrcIs arraySrc (· = some data) (fun i => 0 ≤ i ∧ i < data.length) (fun i => data.getD i.toNat 0) := by
  rintro s i rfl ⟨h0, h1⟩
  refine ⟨some data, ?_, rfl⟩
  have hi : i.toNat < data.length := by omega
  unfold arraySrc
  simp only [if_pos h0, List.getElem?_eq_getElem hi, List.getD_eq_getElem?_getD, Option.getD_some]

/-- Frames of an array without header. -/
theorem frameAt_array (data : List Int) {nch : Int} (hn : 0 < nch) {i : Int} (hi : 0 ≤ i) :
    frameAt (fun i => data.getD i.toNat 0) nch (0 + i * nch) = frameOf data nch.toNat i := by
  unfold frameAt frameOf
  apply List.map_congr_left
  intro c _
  congr 1
  obtain ⟨N, rfl⟩ : ∃ N : Nat, nch = N := ⟨nch.toNat, by omega⟩
  obtain ⟨j, rfl⟩ : ∃ j : Nat, i = j := ⟨i.toNat, by omega⟩
  simp only [zero_add, Int.toNat_natCast]
  rw [← Nat.cast_mul, ← Nat.cast_add, Int.toNat_natCast]

theorem setNumChannels_of {r : Rd} {n : Nat} (h1 : 1 ≤ n) (h2 : n ≤ 32767) : (r.setNumChannels n).nch = n := by
  unfold Rd.setNumChannels
  split
  · simp only; unfold i16; omega
  · rename_i h
    have : u16 (n : Int) = n := by unfold u16; omega
    rw [this] at h; omega

/-- Everything `playRaw(array, length, channels)` sets up. -/
theorem playRaw_setup (a : ArrayReader) (data : List Int) {F nch : Nat} (h1 : 1 ≤ nch) (h2 : nch ≤ 32767)
    (hF : F < 2 ^ 31) :
    let b := (a.playRaw data F nch).2
    b.src = some data ∧ b.rd.playing = true ∧ b.rd.header = 0 ∧ b.rd.nch = nch ∧ b.rd.fileSamples = F ∧
    b.rd.loopStart = 0 ∧ b.rd.loopFinish = F ∧ b.rd.rate = a.rd.rate ∧ b.rd.rem = a.rd.rem ∧
    b.rd.loopType = a.rd.loopType ∧ b.rd.playStart = a.rd.playStart ∧ b.rd.playbackStart = a.rd.playbackStart ∧
    b.rd.dual = a.rd.dual ∧ b.rd.interp = a.rd.interp ∧ b.rd.cfOn = false ∧ b.rd.cfDur = a.rd.cfDur ∧
    b.rd.fileSize = i32 (2 * F) ∧
    b.rd.pos1 = (if a.rd.rate ≥ 0 then
        match a.rd.playStart with
        | .sample => b.rd.posOf 0
        | .loop => b.rd.posOf 0
        | .arbitrary => b.rd.posOf a.rd.playbackStart
      else
        match a.rd.playStart with
        | .sample => i32 (b.rd.fileSize.tdiv 2 - nch)
        | .loop => b.rd.posOf (F - nch)
        | .arbitrary => b.rd.posOf a.rd.playbackStart) := by
  have e : i32 (F : Int) = F := by unfold i32; omega
  have e2 : u32 (F : Int) = F := by unfold u32; omega
  have hs : ∀ r : Rd, (r.setNumChannels nch) = { r with nch := nch } := by
    intro r
    have := setNumChannels_of (r := r) h1 h2
    unfold Rd.setNumChannels at this ⊢
    split
    · rename_i h; rw [if_pos h] at this; simp only at this; rw [this]
    · rename_i h; rw [if_neg h] at this; rw [← this]
  simp only [ArrayReader.playRaw, hs, e, e2, Rd.stop, Rd.reset]
  refine ⟨trivial, trivial, trivial, trivial, trivial, trivial, trivial, trivial, trivial, trivial, trivial, trivial,
    trivial, trivial, trivial, trivial, ?_, ?_⟩
  · rw [mul_comm]
  · simp only [Rd.posOf, Rd.s2s]
    split
    · cases a.rd.playStart <;> simp only
    · cases a.rd.playStart <;> simp only

/-- `read` of a playing array reader. -/
theorem arrayRead_eq {fp : Fp} {fuel n : Nat} {a : ArrayReader} (hp : a.rd.playing = true) (hn : 0 < a.rd.nch)
    {o : ReadOut _} (h : readLoop fp arraySrc fuel n a.rd a.src = .ok o) :
    a.read fp fuel n = .ok (o.frames, ⟨o.r, o.s⟩) := by
  unfold ArrayReader.read Rd.read
  rw [if_neg (by simp [hp]), if_neg (by omega), if_neg (by omega), h]
  rfl

/-- Several calls of `read` one after the other: all frames delivered and the final reader. -/
def readAll (fp : Fp) (fuel : Nat) : List Nat → ArrayReader → M (List (List Int) × ArrayReader)
  | [], a => .ok ([], a)
  | n :: ns, a => do
    let (f, a) ← a.read fp fuel n
    let (fs, a) ← readAll fp fuel ns a
    return (f ++ fs, a)

theorem forwardFrames_none {x r : ℚ} {F : Int} (h : F ≤ ⌊x⌋) (n : Nat) : forwardFrames x r F n = [] := by
  cases n with
  | zero => rfl
  | succ n => rw [forwardFrames_succ, if_neg (by omega)]

/-- Continuing where the last read stopped, full or short. -/
theorem forwardFrames_add (r : ℚ) (F : Int) (m : Nat) : ∀ (n : Nat) (x : ℚ),
    forwardFrames x r F (n + m) =
      forwardFrames x r F n ++ forwardFrames (x + (forwardFrames x r F n).length * r) r F m
  | 0, x => by simp [forwardFrames]
  | n + 1, x => by
    rw [show n + 1 + m = (n + m) + 1 by omega, forwardFrames_succ, forwardFrames_succ]
    split
    · rw [forwardFrames_add r F m n (x + r), List.cons_append, List.length_cons]
      congr 3
      push_cast; ring
    · rename_i h
      simp only [List.length_nil, Nat.cast_zero, zero_mul, add_zero, List.nil_append]
      rw [forwardFrames_none (by omega)]

theorem reverseFrames_none {x r : ℚ} {L : Int} (h : ⌈x⌉ < L) (n : Nat) : reverseFrames x r L n = [] := by
  cases n with
  | zero => rfl
  | succ n => rw [reverseFrames_succ, if_neg (by omega)]

theorem reverseFrames_add (r : ℚ) (L : Int) (m : Nat) : ∀ (n : Nat) (x : ℚ),
    reverseFrames x r L (n + m) =
      reverseFrames x r L n ++ reverseFrames (x - (reverseFrames x r L n).length * r) r L m
  | 0, x => by simp [reverseFrames]
  | n + 1, x => by
    rw [show n + 1 + m = (n + m) + 1 by omega, reverseFrames_succ, reverseFrames_succ]
    split
    · rw [reverseFrames_add r L m n (x - r), List.cons_append, List.length_cons]
      congr 3
      push_cast; ring
    · rename_i h
      simp only [List.length_nil, Nat.cast_zero, zero_mul, sub_zero, List.nil_append]
      rw [reverseFrames_none (by omega)]

theorem forwardFrames_nonneg {x r : ℚ} (hx : 0 ≤ x) (hr : 0 ≤ r) {F : Int} {n : Nat} :
    ∀ i ∈ forwardFrames x r F n, 0 ≤ i := by
  intro i hi
  obtain ⟨k, _, rfl⟩ := List.mem_map.1 ((List.takeWhile_sublist _).subset hi)
  exact Int.floor_nonneg.2 (by positivity)

theorem reverseFrames_ge {x r : ℚ} {L : Int} {n : Nat} : ∀ i ∈ reverseFrames x r L n, L ≤ i := by
  intro i hi
  unfold reverseFrames at hi
  have := List.all_eq_true.1 List.all_takeWhile i hi
  simpa using this

/-- Frames delivered going forwards: up to `F`, in total `⌈(F - x)/r⌉`. -/
theorem forwardFrames_length {r : ℚ} (hr : 0 < r) (F : Int) : ∀ (n : Nat) (x : ℚ),
    (forwardFrames x r F n).length = min n ⌈((F : ℚ) - x) / r⌉.toNat
  | 0, x => by simp [forwardFrames]
  | n + 1, x => by
    rw [forwardFrames_succ]
    have hlt : ⌊x⌋ < F ↔ 0 < ⌈((F : ℚ) - x) / r⌉ := by
      rw [Int.floor_lt, Int.ceil_pos, div_pos_iff_of_pos_right hr, sub_pos]
    split
    · rename_i h
      have h' := hlt.1 h
      rw [List.length_cons, forwardFrames_length hr F n (x + r)]
      have : ⌈((F : ℚ) - (x + r)) / r⌉ = ⌈((F : ℚ) - x) / r⌉ - 1 := by
        rw [show ((F : ℚ) - (x + r)) / r = ((F : ℚ) - x) / r - (1 : Int) by field_simp; push_cast; ring,
          Int.ceil_sub_intCast]
      rw [this]; omega
    · rename_i h
      have h' := mt hlt.2 h
      simp only [List.length_nil]; omega

/-- Frames delivered going backwards from `x` down to `L`. -/
theorem reverseFrames_length {r : ℚ} (hr : 0 < r) (L : Int) : ∀ (n : Nat) (x : ℚ),
    (reverseFrames x r L n).length = min n (⌈(x + 1 - L) / r⌉.toNat)
  | 0, x => by simp [reverseFrames]
  | n + 1, x => by
    rw [reverseFrames_succ]
    have hlt : L ≤ ⌈x⌉ ↔ 0 < ⌈(x + 1 - L) / r⌉ := by
      rw [Int.ceil_pos, div_pos_iff_of_pos_right hr, Int.le_ceil_iff]
      constructor <;> intro h <;> linarith
    split
    · rename_i h
      have h' := hlt.1 h
      rw [List.length_cons, reverseFrames_length hr L n (x - r)]
      have : ⌈(x - r + 1 - L) / r⌉ = ⌈(x + 1 - L) / r⌉ - 1 := by
        rw [show (x - r + 1 - L) / r = (x + 1 - L) / r - (1 : Int) by field_simp; push_cast; ring,
          Int.ceil_sub_intCast]
      rw [this]; omega
    · rename_i h
      have h' := mt hlt.2 h
      simp only [List.length_nil]; omega

/-- Forward reading of an array, any sequence of calls. -/
theorem readAll_fwd (fp : Fp) (fuel : Nat) {p : Nat} {R : Int} (data : List Int) :
    ∀ (ns : List Nat) (a : ArrayReader) (x : ℚ), Fwd a.rd p R x → a.rd.playing = true → a.rd.header = 0 →
      a.src = some data → a.rd.fileSamples * a.rd.nch ≤ data.length →
      ∃ a', readAll fp (fuel + 2) ns a =
        .ok ((forwardFrames x a.rd.rate a.rd.fileSamples ns.sum).map (frameOf data a.rd.nch.toNat), a') ∧
        Fwd a'.rd p R (x + (forwardFrames x a.rd.rate a.rd.fileSamples ns.sum).length * a.rd.rate) ∧
        a'.src = some data ∧ SameConf a.rd a'.rd ∧ a'.rd.rate = a.rd.rate
  | [], a, x, h, _, _, hs, _ => ⟨a, by simp [readAll, forwardFrames], by simpa [forwardFrames] using h, hs, SameConf.refl _, rfl⟩
  | n :: ns, a, x, h, hp, hH, hs, hlen => by
    obtain ⟨r', s', h1, h2, h3, h4, h5⟩ := fwd_law fp (arraySrcIs data) fuel n a.rd x a.src h hs
      (fun i i0 i1 => by rw [hH] at i0 i1; omega)
    obtain ⟨a', h6, h7, h8, h9, h10⟩ := readAll_fwd fp fuel data ns ⟨r', s'⟩ _ h2 (by simp only; rw [h4.playing, hp])
      (by simp only; rw [h4.header, hH]) h3 (by simp only; rw [h4.fileSamples, h4.nch]; exact hlen)
    simp only [h5, h4.fileSamples, h4.nch] at h6 h7
    have hfr : (forwardFrames x a.rd.rate a.rd.fileSamples n).map
        (fun i => frameAt (fun i => data.getD i.toNat 0) a.rd.nch (a.rd.header + i * a.rd.nch)) =
        (forwardFrames x a.rd.rate a.rd.fileSamples n).map (frameOf data a.rd.nch.toNat) := by
      apply List.map_congr_left
      intro i hi
      rw [hH]
      exact frameAt_array data h.plain.nch (forwardFrames_nonneg h.x0 h.rate0 i hi)
    rw [hfr] at h1
    refine ⟨a', ?_, ?_, h8, h4.trans h9, h10.trans h5⟩
    · rw [readAll, arrayRead_eq hp h.plain.nch h1]
      simp only [ok_bind, h6, pure_eq_ok, List.sum_cons, forwardFrames_add, List.map_append]
    · rw [List.sum_cons, forwardFrames_add, List.length_append]
      convert h7 using 1
      push_cast; ring

/-- Reverse reading of an array, any sequence of calls. -/
theorem readAll_rev (fp : Fp) (fuel : Nat) {p : Nat} {R L : Int} (data : List Int) :
    ∀ (ns : List Nat) (a : ArrayReader) (x : ℚ), Rev a.rd p R L x → a.rd.playing = true → a.rd.header = 0 →
      a.src = some data → a.rd.fileSamples * a.rd.nch ≤ data.length →
      ∃ a', readAll fp (fuel + 2) ns a =
        .ok ((reverseFrames x (-a.rd.rate) L ns.sum).map (frameOf data a.rd.nch.toNat), a') ∧
        Rev a'.rd p R L (x + (reverseFrames x (-a.rd.rate) L ns.sum).length * a.rd.rate) ∧
        a'.src = some data ∧ SameConf a.rd a'.rd ∧ a'.rd.rate = a.rd.rate
  | [], a, x, h, _, _, hs, _ => ⟨a, by simp [readAll, reverseFrames], by simpa [reverseFrames] using h, hs, SameConf.refl _, rfl⟩
  | n :: ns, a, x, h, hp, hH, hs, hlen => by
    obtain ⟨r', s', h1, h2, h3, h4, h5⟩ := rev_law fp (arraySrcIs data) fuel n a.rd x a.src h hs
      (fun i i0 i1 => by rw [hH] at i0 i1; omega)
    obtain ⟨a', h6, h7, h8, h9, h10⟩ := readAll_rev fp fuel data ns ⟨r', s'⟩ _ h2 (by simp only; rw [h4.playing, hp])
      (by simp only; rw [h4.header, hH]) h3 (by simp only; rw [h4.fileSamples, h4.nch]; exact hlen)
    simp only [h5, h4.nch] at h6 h7
    have hfr : (reverseFrames x (-a.rd.rate) L n).map
        (fun i => frameAt (fun i => data.getD i.toNat 0) a.rd.nch (a.rd.header + i * a.rd.nch)) =
        (reverseFrames x (-a.rd.rate) L n).map (frameOf data a.rd.nch.toNat) := by
      apply List.map_congr_left
      intro i hi
      rw [hH]
      exact frameAt_array data h.plain.nch (le_trans h.L0 (reverseFrames_ge i hi))
    rw [hfr] at h1
    have hx : x + (reverseFrames x (-a.rd.rate) L n).length * a.rd.rate =
        x - (reverseFrames x (-a.rd.rate) L n).length * (-a.rd.rate) := by ring
    refine ⟨a', ?_, ?_, h8, h4.trans h9, h10.trans h5⟩
    · rw [readAll, arrayRead_eq hp h.plain.nch h1]
      rw [hx] at h6
      simp only [ok_bind, h6, pure_eq_ok, List.sum_cons, reverseFrames_add, List.map_append]
    · rw [hx] at h7
      rw [List.sum_cons, reverseFrames_add, List.length_append]
      convert h7 using 1
      push_cast; ring

end TVP
