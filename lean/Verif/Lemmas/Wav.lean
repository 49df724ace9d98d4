import Mathlib.Tactic.Ring
import Mathlib.Tactic.IntervalCases
import Mathlib.Data.List.Basic
import Verif.Spec.Wav

namespace TVP
open Spec

theorem byteAt_ok {m : List Nat} {i : Nat} (h : i < m.length) : byteAt m i = .ok (m.getD i 0) := by
  simp [byteAt, List.getElem?_eq_getElem h, List.getD]

theorem byteAt_append_left {a b : List Nat} {i : Nat} (h : i < a.length) :
    byteAt (a ++ b) i = byteAt a i := by
  simp [byteAt, List.getElem?_append_left h]

theorem byteAt_append_right {a b : List Nat} {i : Nat} :
    byteAt (a ++ b) (a.length + i) = byteAt b i := by
  unfold byteAt
  rw [List.getElem?_append_right (by omega), Nat.add_sub_cancel_left]

theorem slice_cons_get {m : List Nat} {o n : Nat} (h : o < m.length) :
    slice m o (n + 1) = m.getD o 0 :: slice m (o + 1) n := by
  unfold slice
  have h2 : m.getD o 0 = m[o] := by simp [List.getD, List.getElem?_eq_getElem h]
  rw [List.drop_eq_getElem_cons h, List.take_succ_cons, h2]

theorem slice_zero (m : List Nat) (o : Nat) : slice m o 0 = [] := by simp [slice]

theorem slice4 {m : List Nat} {o : Nat} (h : o + 4 ≤ m.length) :
    slice m o 4 = [m.getD o 0, m.getD (o+1) 0, m.getD (o+2) 0, m.getD (o+3) 0] := by
  rw [slice_cons_get (by omega), slice_cons_get (by omega), slice_cons_get (by omega),
    slice_cons_get (by omega), slice_zero]

theorem bytes4_ok {m : List Nat} {o : Nat} (h : o + 4 ≤ m.length) : bytes4 m o = .ok (slice m o 4) := by
  rw [slice4 h]
  unfold bytes4
  rw [byteAt_ok (by omega), byteAt_ok (by omega), byteAt_ok (by omega), byteAt_ok (by omega)]
  rfl

theorem tagIs_ok {m : List Nat} : ∀ {o : Nat} {ts : List Nat}, o + ts.length ≤ m.length →
    tagIs m o ts = .ok (decide (slice m o ts.length = ts)) := by
  intro o ts
  induction ts generalizing o with
  | nil => intro _; simp [tagIs, slice]
  | cons t ts ih =>
    intro h
    simp only [List.length_cons] at h
    unfold tagIs
    rw [byteAt_ok (by omega)]
    simp only [List.length_cons, slice_cons_get (show o < m.length by omega)]
    simp only [bind, Except.bind, List.cons.injEq]
    split
    · rename_i he
      rw [ih (by omega)]; simp only [he, true_and]
    · rename_i he; simp only [he, pure, Except.pure, false_and, decide_false]

theorem word32_ok {m : List Nat} {o : Nat} (h : o + 4 ≤ m.length) :
    word32 m o = .ok (leVal (slice m o 4)) := by
  rw [slice4 h]
  unfold word32
  rw [byteAt_ok (by omega), byteAt_ok (by omega), byteAt_ok (by omega), byteAt_ok (by omega)]
  simp only [bind, Except.bind, pure, Except.pure, leVal, le32]
  congr 1; ring

theorem word16_ok {m : List Nat} {o : Nat} (h : o + 2 ≤ m.length) :
    word16 m o = .ok (leVal (slice m o 2)) := by
  rw [slice_cons_get (by omega), slice_cons_get (by omega), slice_zero]
  unfold word16
  rw [byteAt_ok (by omega), byteAt_ok (by omega)]
  simp only [bind, Except.bind, pure, Except.pure, leVal, le16]
  congr 1

theorem leVal_le32B {n : Nat} (h : n < 2 ^ 32) : leVal (le32B n) = n := by
  simp only [le32B, leVal]; omega
theorem leVal_le16B {n : Nat} (h : n < 2 ^ 16) : leVal (le16B n) = n := by
  simp only [le16B, leVal]; omega

theorem IsBytes.slice {m : List Nat} (h : IsBytes m) (o n : Nat) : IsBytes (Spec.slice m o n) := by
  intro b hb
  exact h b (List.mem_of_mem_drop (List.mem_of_mem_take hb))

theorem leVal_lt : ∀ {l : List Nat}, IsBytes l → leVal l < 256 ^ l.length := by
  intro l
  induction l with
  | nil => intro _; simp [leVal]
  | cons b bs ih =>
    intro h
    have h1 : b < 256 := h b (by simp)
    have h2 := ih (fun x hx => h x (by simp [hx]))
    simp only [leVal, List.length_cons, pow_succ]
    omega

theorem leVal_eq_16 {m : List Nat} {o : Nat} (h : o + 4 ≤ m.length) (hb : IsBytes m) :
    leVal (slice m o 4) = 16 ↔ slice m o 4 = [16, 0, 0, 0] := by
  have hs := IsBytes.slice hb o 4
  rw [slice4 h] at *
  have h0 := hs (m.getD o 0) (by simp)
  have h1 := hs (m.getD (o+1) 0) (by simp)
  have h2 := hs (m.getD (o+2) 0) (by simp)
  have h3 := hs (m.getD (o+3) 0) (by simp)
  simp only [leVal, List.cons.injEq, and_true]
  omega

/-- The header the parser builds from a good header. -/
def parsed (m : List Nat) : WavHeader where
  riff := slice m 0 4
  headerChunkSize := i32 (leVal (slice m 4 4))
  wave := slice m 8 4
  fmt := slice m 12 4
  fmtChunkSize := i32 (leVal (slice m 16 4))
  audioFormat := i16 (leVal (slice m 20 2))
  numChannels := i16 (leVal (slice m 22 2))
  sampleRate := i32 (leVal (slice m 24 4))
  byteRate := i32 (leVal (slice m 28 4))
  sampleAlignment := i16 (leVal (slice m 32 2))
  bitDepth := i16 (leVal (slice m 34 2))

/-- Complete description of the parser on a buffer of at least 36 bytes. -/
theorem readHeader_eq {m : List Nat} (hl : 36 ≤ m.length) :
    readWaveHeaderFromBuffer m {} =
      if slice m 0 4 ≠ tagRIFF then (if 0 ∈ m then .ok (false, {}) else .error .badFormat)
      else if slice m 8 4 ≠ tagWAVE ∨ slice m 12 4 ≠ tagFmt then .error .badFormat
      else if leVal (slice m 16 4) ≠ 16 then
        .ok (false, { riff := slice m 0 4, headerChunkSize := i32 (leVal (slice m 4 4)),
                      wave := slice m 8 4, fmt := slice m 12 4,
                      fmtChunkSize := i32 (leVal (slice m 16 4)) })
      else .ok (true, parsed m) := by
  unfold readWaveHeaderFromBuffer parsed
  rw [tagIs_ok (by simp [tagRIFF]; omega), bytes4_ok (by omega), bytes4_ok (by omega), bytes4_ok (by omega),
    word32_ok (by omega), word32_ok (by omega), word32_ok (by omega), word32_ok (by omega),
    word16_ok (by omega), word16_ok (by omega), word16_ok (by omega), word16_ok (by omega)]
  have h4 : tagRIFF.length = 4 := rfl
  rw [h4]
  by_cases h1 : slice m 0 4 = tagRIFF
  · by_cases h2 : slice m 8 4 = tagWAVE
    · by_cases h3 : slice m 12 4 = tagFmt
      · by_cases h5 : leVal (slice m 16 4) = 16
        · simp [h1, h2, h3, h5, bind, Except.bind, pure, Except.pure]
        · simp [h1, h2, h3, h5, bind, Except.bind, pure, Except.pure]
      · simp [h1, h2, h3, bind, Except.bind, throw, throwThe, MonadExceptOf.throw]
    · simp [h1, h2, bind, Except.bind, throw, throwThe, MonadExceptOf.throw]
  · by_cases h0 : 0 ∈ m
    · simp [h1, h0, bind, Except.bind, pure, Except.pure]
    · simp [h1, h0, bind, Except.bind, throw, throwThe, MonadExceptOf.throw]

theorem header_length (f : Fields) : (header f).length = 36 := by simp [header, le16B, le32B]

theorem slice_append_left {a b : List Nat} {o n : Nat} (h : o + n ≤ a.length) :
    slice (a ++ b) o n = slice a o n := by
  unfold slice
  rw [List.drop_append_of_le_length (by omega), List.take_append_of_le_length (by simp; omega)]

theorem slice_append_right {a b : List Nat} {n : Nat} {o : Nat} :
    slice (a ++ b) (a.length + o) n = slice b o n := by
  unfold slice
  rw [List.drop_append, List.drop_of_length_le (by omega)]
  simp

theorem u16_i16 (x : Int) : u16 (i16 x) = u16 x := by unfold u16 i16; omega
theorem u16_nat {n : Nat} (h : n < 2 ^ 16) : u16 n = n := by unfold u16; omega
theorem u32_nat {n : Nat} (h : n < 2 ^ 32) : u32 n = n := by unfold u32; omega

theorem parsed_carries {f : Fields} (hf : f.Valid) (rest : List Nat) :
    Carries (parsed (header f ++ rest)) f := by
  have e : ∀ o n, o + n ≤ 36 → slice (header f ++ rest) o n = slice (header f) o n :=
    fun o n h => slice_append_left (by rw [header_length]; omega)
  constructor
  · simp only [parsed]; rw [e _ _ (by omega)]; rfl
  · simp only [parsed]; rw [e _ _ (by omega)]; rfl
  · simp only [parsed]; rw [e _ _ (by omega)]; rfl
  · simp only [parsed]; rw [e _ _ (by omega)]
    have : slice (header f) 16 4 = [16, 0, 0, 0] := rfl
    simp [this, leVal, i32]
  · simp only [parsed]; rw [e _ _ (by omega), u32_i32]
    have : slice (header f) 4 4 = le32B f.riffSize := rfl
    rw [this, leVal_le32B hf.riffSize, u32_nat hf.riffSize]
  · simp only [parsed]; rw [e _ _ (by omega), u16_i16]
    have : slice (header f) 20 2 = le16B f.format := rfl
    rw [this, leVal_le16B hf.format, u16_nat hf.format]
  · simp only [parsed]; rw [e _ _ (by omega), u16_i16]
    have : slice (header f) 22 2 = le16B f.channels := rfl
    rw [this, leVal_le16B hf.channels, u16_nat hf.channels]
  · simp only [parsed]; rw [e _ _ (by omega), u32_i32]
    have : slice (header f) 24 4 = le32B f.rate := rfl
    rw [this, leVal_le32B hf.rate, u32_nat hf.rate]
  · simp only [parsed]; rw [e _ _ (by omega), u32_i32]
    have : slice (header f) 28 4 = le32B f.byteRate := rfl
    rw [this, leVal_le32B hf.byteRate, u32_nat hf.byteRate]
  · simp only [parsed]; rw [e _ _ (by omega), u16_i16]
    have : slice (header f) 32 2 = le16B f.align := rfl
    rw [this, leVal_le16B hf.align, u16_nat hf.align]
  · simp only [parsed]; rw [e _ _ (by omega), u16_i16]
    have : slice (header f) 34 2 = le16B f.depth := rfl
    rw [this, leVal_le16B hf.depth, u16_nat hf.depth]

theorem read_header_ok {f : Fields} (rest : List Nat) :
    readWaveHeaderFromBuffer (header f ++ rest) {} = .ok (true, parsed (header f ++ rest)) := by
  have e : ∀ o n, o + n ≤ 36 → slice (header f ++ rest) o n = slice (header f) o n :=
    fun o n h => slice_append_left (by rw [header_length]; omega)
  rw [readHeader_eq (by rw [List.length_append, header_length]; omega)]
  rw [e 0 4 (by omega), e 8 4 (by omega), e 12 4 (by omega), e 16 4 (by omega)]
  have h0 : slice (header f) 0 4 = tagRIFF := rfl
  have h1 : slice (header f) 8 4 = tagWAVE := rfl
  have h2 : slice (header f) 12 4 = tagFmt := rfl
  have h3 : slice (header f) 16 4 = [16, 0, 0, 0] := rfl
  simp [h0, h1, h2, h3, leVal]

/-- Complete description of `readInfoTags` where eight bytes are readable. -/
theorem readInfoTags_eq {m : List Nat} {o : Nat} (h : o + 8 ≤ m.length) :
    readInfoTags m o =
      if slice m o 4 = tagLIST then .ok (some (u32 (leVal (slice m (o + 4) 4) + 8)))
      else if slice m o 4 = tagData then .ok (some 0) else .ok none := by
  unfold readInfoTags
  rw [tagIs_ok (by simp [tagLIST]; omega), tagIs_ok (by simp [tagData]; omega), word32_ok (by omega)]
  have h4 : tagLIST.length = 4 := rfl
  have h5 : tagData.length = 4 := rfl
  rw [h4, h5]
  by_cases h1 : slice m o 4 = tagLIST
  · simp [h1, bind, Except.bind, pure, Except.pure]
  · by_cases h2 : slice m o 4 = tagData
    · simp [h2, bind, Except.bind, pure, Except.pure]
    · simp [h1, h2, bind, Except.bind, pure, Except.pure]

theorem readDataHeader_eq {m : List Nat} {o : Nat} (h : o + 8 ≤ m.length) :
    readDataHeader m o =
      if slice m o 4 = tagData then .ok (true, ⟨slice m o 4, leVal (slice m (o + 4) 4)⟩)
      else .ok (false, ⟨slice m o 4, 0⟩) := by
  unfold readDataHeader
  rw [bytes4_ok (by omega), word32_ok (by omega)]
  by_cases h1 : slice m o 4 = tagData
  · simp [h1, bind, Except.bind, pure, Except.pure]
  · simp [h1, bind, Except.bind, pure, Except.pure]

end TVP
