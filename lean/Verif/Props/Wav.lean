import Verif.Lemmas.Wav

/-!
# Properties C01-C04: WAV header parsing
-/

namespace TVP
open Spec

/-- A concrete header used to show that hypotheses are satisfiable: stereo, 44100 Hz, 16 bit. -/
def exFields : Fields := ⟨2084, 1, 2, 44100, 176400, 4, 16⟩
theorem exFields_valid : exFields.Valid := by constructor <;> decide

/-- **C01** Parsing a canonical header, whatever follows it, succeeds and yields exactly the fields. -/
theorem C01_header_roundtrip (f : Fields) (hf : f.Valid) (rest : List Nat) :
    ∃ h, readWaveHeaderFromBuffer (header f ++ rest) {} = .ok (true, h) ∧ Carries h f :=
  ⟨_, read_header_ok rest, parsed_carries hf rest⟩

example : ∃ h, readWaveHeaderFromBuffer (header exFields ++ [1, 2, 3]) {} = .ok (true, h)
    ∧ u16 h.numChannels = 2 :=
  let ⟨h, h1, h2⟩ := C01_header_roundtrip exFields exFields_valid [1, 2, 3]
  ⟨h, h1, h2.channels⟩

/-- Two different headers never parse to the same fields (the reported fields determine the input). -/
theorem C01_header_injective (f f' : Fields) (hf : f.Valid) (hf' : f'.Valid) (r r' : List Nat)
    (he : readWaveHeaderFromBuffer (header f ++ r) {} = readWaveHeaderFromBuffer (header f' ++ r') {}) :
    f = f' := by
  obtain ⟨h, h1, c⟩ := C01_header_roundtrip f hf r
  obtain ⟨h', h1', c'⟩ := C01_header_roundtrip f' hf' r'
  rw [h1, h1'] at he
  obtain rfl : h = h' := by simpa using he
  have e1 := c.riffSize; have e2 := c.format; have e3 := c.channels; have e4 := c.rate
  have e5 := c.byteRate; have e6 := c.align; have e7 := c.depth
  rw [c'.riffSize] at e1; rw [c'.format] at e2; rw [c'.channels] at e3; rw [c'.rate] at e4
  rw [c'.byteRate] at e5; rw [c'.align] at e6; rw [c'.depth] at e7
  cases f; cases f'
  simp_all

/-- **C02** A buffer is accepted exactly when its tags and format size are right. -/
theorem C02_accept_iff (m : List Nat) (hl : 36 ≤ m.length) (hb : IsBytes m) :
    (∃ h, readWaveHeaderFromBuffer m {} = .ok (true, h)) ↔ GoodHeader m := by
  rw [readHeader_eq hl]
  unfold GoodHeader
  rw [← leVal_eq_16 (o := 16) (by omega) hb]
  change _ ↔ slice m 0 4 = tagRIFF ∧ slice m 8 4 = tagWAVE ∧ slice m 12 4 = tagFmt ∧ _
  by_cases h1 : slice m 0 4 = tagRIFF
  · by_cases h2 : slice m 8 4 = tagWAVE
    · by_cases h3 : slice m 12 4 = tagFmt
      · by_cases h5 : leVal (slice m 16 4) = 16
        · simp [h1, h2, h3, h5]
        · simp [h1, h2, h3, h5]
      · simp [h1, h2, h3]
    · simp [h1, h2]
  · by_cases h0 : 0 ∈ m <;> simp [h1, h0]

/-- **C02** Nothing after byte 35 influences an answer. -/
theorem C02_prefix_only (m m' : List Nat) (hl : 36 ≤ m.length) (hl' : 36 ≤ m'.length)
    (hp : m.take 36 = m'.take 36) (a a' : Bool × WavHeader)
    (h : readWaveHeaderFromBuffer m {} = .ok a) (h' : readWaveHeaderFromBuffer m' {} = .ok a') :
    a = a' := by
  have e : ∀ o n, o + n ≤ 36 → slice m o n = slice m' o n := by
    intro o n hon
    have t : ∀ l : List Nat, slice l o n = slice (l.take 36) o n := by
      intro l
      unfold slice
      rw [List.drop_take, List.take_take]
      congr 1; omega
    rw [t m, t m', hp]
  rw [readHeader_eq hl] at h
  rw [readHeader_eq hl'] at h'
  unfold parsed at h h'
  rw [e 0 4 (by omega), e 8 4 (by omega), e 12 4 (by omega), e 16 4 (by omega), e 4 4 (by omega),
    e 20 2 (by omega), e 22 2 (by omega), e 24 4 (by omega), e 28 4 (by omega), e 32 2 (by omega),
    e 34 2 (by omega)] at h
  by_cases h1 : slice m' 0 4 = tagRIFF
  · simp only [h1, ne_eq, not_true_eq_false, if_false] at h h'
    rw [h'] at h; simpa using h.symm
  · rw [if_pos h1] at h h'
    split at h <;> split at h' <;> simp_all

example : GoodHeader (header exFields) := by decide
example : ¬ GoodHeader (List.replicate 36 0) := by decide

/-- **C03** (the part that holds) Rejection is a clean `false` when the RIFF tag is missing and a zero
byte is in reach of the log message, or when only the format chunk size is wrong.
Missing: the other rejections, which are undefined (`C03_refuted`, `C03_exact`). -/
theorem C03_clean_rejection_partial (m : List Nat) (hl : 36 ≤ m.length) (hb : IsBytes m)
    (hbad : ¬ GoodHeader m)
    (hdom : (slice m 0 4 ≠ [82, 73, 70, 70] ∧ 0 ∈ m) ∨
      (slice m 0 4 = [82, 73, 70, 70] ∧ slice m 8 4 = [87, 65, 86, 69] ∧ slice m 12 4 = [102, 109, 116, 32])) :
    ∃ h, readWaveHeaderFromBuffer m {} = .ok (false, h) := by
  rw [readHeader_eq hl]
  unfold GoodHeader at hbad
  rw [← leVal_eq_16 (o := 16) (by omega) hb] at hbad
  change ¬ (slice m 0 4 = tagRIFF ∧ slice m 8 4 = tagWAVE ∧ slice m 12 4 = tagFmt ∧ _) at hbad
  change (slice m 0 4 ≠ tagRIFF ∧ _) ∨ (slice m 0 4 = tagRIFF ∧ slice m 8 4 = tagWAVE ∧ slice m 12 4 = tagFmt)
    at hdom
  rcases hdom with ⟨h1, h0⟩ | ⟨h1, h2, h3⟩
  · simp [h1, h0]
  · simp_all

/-- **C03** Exactly which buffers make rejection undefined. -/
theorem C03_exact (m : List Nat) (hl : 36 ≤ m.length) :
    (∃ e, readWaveHeaderFromBuffer m {} = .error e) ↔
      (slice m 0 4 ≠ [82, 73, 70, 70] ∧ 0 ∉ m) ∨
      (slice m 0 4 = [82, 73, 70, 70] ∧
        (slice m 8 4 ≠ [87, 65, 86, 69] ∨ slice m 12 4 ≠ [102, 109, 116, 32])) := by
  rw [readHeader_eq hl]
  change _ ↔ (slice m 0 4 ≠ tagRIFF ∧ _) ∨ (slice m 0 4 = tagRIFF ∧ (slice m 8 4 ≠ tagWAVE ∨ slice m 12 4 ≠ tagFmt))
  by_cases h1 : slice m 0 4 = tagRIFF
  · by_cases h2 : slice m 8 4 ≠ tagWAVE ∨ slice m 12 4 ≠ tagFmt
    · simp [h1, h2]
    · by_cases h5 : leVal (slice m 16 4) = 16 <;> simp [h1, h2, h5]
  · by_cases h0 : 0 ∈ m <;> simp [h1, h0]

/-- **C03 refuted**: a RIFF file of another kind (here an AVI) makes the parser pass a `char` to `%s`. -/
theorem C03_refuted : ∃ m : List Nat, 36 ≤ m.length ∧ IsBytes m ∧
    readWaveHeaderFromBuffer m {} = .error .badFormat := by
  refine ⟨[82, 73, 70, 70, 0, 0, 0, 0, 65, 86, 73, 32] ++ List.replicate 24 0, by decide, ?_, by decide⟩
  unfold IsBytes; decide

/-- **C04** The chunk walk of `readWaveHeader(filename, ...)` on a well-formed image: header, optional
LIST chunk of any length, data chunk. -/
theorem C04_chunk_walk (f : Fields) (hf : f.Valid) (list : Option (List Nat)) (n : Nat)
    (audio : List Nat) (past : Bool) (hn : n < 2 ^ 32)
    (hlist : ∀ body, list = some body → body.length + 44 < 2 ^ 32) :
    ∃ h, readWaveHeader (some ⟨wav f list n audio, 0, past⟩)
        = .ok (true, h, ⟨[100, 97, 116, 97], n⟩) ∧ Carries h f := by
  have hlen : (header f).length = 36 := header_length f
  have h36 : (wav f list n audio).take 36 = header f := by
    unfold wav
    rw [List.append_assoc, List.append_assoc, List.take_append_of_le_length (by omega), ← hlen,
      List.take_length]
  have hd36 : ∀ k, (wav f list n audio).drop (36 + k) = (listChunk list ++ dataHead n ++ audio).drop k := by
    intro k
    unfold wav
    rw [List.append_assoc, List.append_assoc, ← hlen, List.drop_append]
    simp
  have hwl : 44 ≤ (wav f list n audio).length := by
    unfold wav; simp [hlen, dataHead, le32B]; omega
  refine ⟨parsed (header f ++ []), ?_, parsed_carries hf []⟩
  have hr := read_header_ok (f := f) []
  rw [List.append_nil] at hr ⊢
  unfold readWaveHeader
  simp only [Dev.read, List.drop_zero, h36, hlen, ne_eq, not_true_eq_false, if_false, hr, bind, Except.bind,
    Bool.not_true, Bool.false_eq_true, Dev.seek]
  rw [if_pos (Or.inl (by omega))]
  simp only
  have hd := hd36 0
  rw [Nat.add_zero, List.drop_zero] at hd
  rw [hd]
  cases list with
  | none =>
    have e : (listChunk none ++ dataHead n ++ audio).take 8 = dataHead n := by
      simp [listChunk, dataHead, le32B]
    have el : (dataHead n).length = 8 := rfl
    rw [e, el]
    simp only [not_true_eq_false, if_false]
    rw [readInfoTags_eq (by rw [el])]
    have s1 : slice (dataHead n) 0 4 = tagData := rfl
    have s2 : slice (dataHead n) 4 4 = le32B n := rfl
    simp only [s1, show tagData ≠ tagLIST by decide, if_false, if_true]
    have : (u32 (36 + 0)).toNat = 36 := by decide
    rw [this, if_pos (Or.inl (by omega)), hd, e, el]
    simp only [not_true_eq_false, if_false]
    rw [readDataHeader_eq (by rw [el])]
    simp [s1, s2, leVal_le32B hn, pure, Except.pure, tagData]
  | some body =>
    have hb := hlist body rfl
    have e : (listChunk (some body) ++ dataHead n ++ audio).take 8 = tagLIST ++ le32B body.length := by
      simp [listChunk, le32B, tagLIST]
    have el : (tagLIST ++ le32B body.length).length = 8 := rfl
    rw [e, el]
    simp only [not_true_eq_false, if_false]
    rw [readInfoTags_eq (by rw [el])]
    have s1 : slice (tagLIST ++ le32B body.length) 0 4 = tagLIST := rfl
    have s2 : slice (tagLIST ++ le32B body.length) 4 4 = le32B body.length := rfl
    simp only [s1, s2, if_true, Nat.zero_add]
    rw [leVal_le32B (by omega)]
    have e3 : (u32 (36 + u32 ((body.length : Int) + 8))).toNat = 36 + (8 + body.length) := by
      unfold u32; omega
    rw [e3]
    have hwl2 : 36 + (8 + body.length) ≤ (wav f (some body) n audio).length := by
      unfold wav; simp [hlen, dataHead, listChunk, le32B]
      omega
    rw [if_pos (Or.inl hwl2)]
    simp only
    rw [hd36]
    have e4 : (listChunk (some body) ++ dataHead n ++ audio).drop (8 + body.length) = dataHead n ++ audio := by
      rw [List.append_assoc]
      have : (listChunk (some body)).length = 8 + body.length := by
        simp [listChunk, le32B]; omega
      rw [← this, List.drop_left]
    rw [e4]
    have e5 : (dataHead n ++ audio).take 8 = dataHead n := by simp [dataHead, le32B]
    have el : (dataHead n).length = 8 := rfl
    rw [e5, el]
    simp only [not_true_eq_false, if_false]
    rw [readDataHeader_eq (by rw [el])]
    have s1 : slice (dataHead n) 0 4 = tagData := rfl
    have s2 : slice (dataHead n) 4 4 = le32B n := rfl
    simp [s1, s2, leVal_le32B hn, pure, Except.pure, tagData]

example : ∃ h, readWaveHeader (some ⟨wav exFields (some [73, 78, 70]) 2048 [1, 2, 3], 0, false⟩)
    = .ok (true, h, ⟨[100, 97, 116, 97], 2048⟩) ∧ Carries h exFields :=
  C04_chunk_walk _ exFields_valid _ _ _ _ (by decide) (by intro b h; cases h; decide)

/-- **C04** Conversely, an accepted file has a good header, then `data` or `LIST`, and a data chunk right
after it, whose declared size is what is reported; anything else is not accepted. The LIST chunk must
end inside the file (`C04_overlong_list` shows why). -/
theorem C04_accepted_only_if (m : List Nat) (hb : IsBytes m) (past : Bool) (hm : m.length < 2 ^ 32)
    (hin : slice m 36 4 = [76, 73, 83, 84] → 44 + leVal (slice m 40 4) ≤ m.length)
    (h : WavHeader) (dh : WavDataHeader)
    (hr : readWaveHeader (some ⟨m, 0, past⟩) = .ok (true, h, dh)) :
    GoodHeader m ∧ ∃ off, ((slice m 36 4 = [100, 97, 116, 97] ∧ off = 36) ∨
        (slice m 36 4 = [76, 73, 83, 84] ∧ off = 44 + leVal (slice m 40 4))) ∧
      slice m off 4 = [100, 97, 116, 97] ∧ dh.dataBytes = leVal (slice m (off + 4) 4) := by
  unfold readWaveHeader at hr
  simp only [Dev.read, List.drop_zero, bind, Except.bind, Dev.seek] at hr
  by_cases h36 : (m.take 36).length = 36
  swap
  · rw [if_pos h36] at hr; simp [pure, Except.pure] at hr
  rw [if_neg (by simpa using h36)] at hr
  have hl36 : 36 ≤ m.length := by simp at h36; exact h36
  cases hh : readWaveHeaderFromBuffer (m.take 36) {} with
  | error e => rw [hh] at hr; simp at hr
  | ok p =>
    obtain ⟨ok, hd⟩ := p
    rw [hh] at hr
    simp only at hr
    cases ok with
    | false => simp [pure, Except.pure] at hr
    | true =>
      simp only [Bool.not_true, Bool.false_eq_true, if_false] at hr
      have hgood : GoodHeader m := by
        have h1 := (C02_accept_iff (m.take 36) (by omega)
          (fun b hbm => hb b (List.mem_of_mem_take hbm))).1 ⟨hd, hh⟩
        unfold GoodHeader at h1 ⊢
        have e : ∀ o, o + 4 ≤ 36 → slice (m.take 36) o 4 = slice m o 4 := by
          intro o ho
          unfold slice
          rw [List.drop_take, List.take_take]
          congr 1; omega
        rwa [e 0 (by omega), e 8 (by omega), e 12 (by omega), e 16 (by omega)] at h1
      refine ⟨hgood, ?_⟩
      rw [if_pos (Or.inl (by omega))] at hr
      simp only at hr
      by_cases h8 : ((m.drop 36).take 8).length = 8
      swap
      · rw [if_pos h8] at hr; simp [pure, Except.pure] at hr
      rw [if_neg (by simpa using h8)] at hr
      have h44 : 44 ≤ m.length := by simp at h8; omega
      rw [readInfoTags_eq (by omega)] at hr
      have s1 : slice ((m.drop 36).take 8) 0 4 = slice m 36 4 := by
        unfold slice; simp [List.take_take]
      have s2 : slice ((m.drop 36).take 8) (0 + 4) 4 = slice m 40 4 := by
        unfold slice; rw [List.drop_take, List.drop_drop, List.take_take]
        congr 1
      rw [s1, s2] at hr
      by_cases hL : slice m 36 4 = tagLIST
      · have hin' := hin hL
        rw [if_pos hL] at hr
        simp only at hr
        have e3 : (u32 (36 + u32 ((leVal (slice m 40 4) : Int) + 8))).toNat = 44 + leVal (slice m 40 4) := by
          unfold u32; omega
        rw [e3, if_pos (Or.inl hin')] at hr
        simp only at hr
        split at hr
        · simp [pure, Except.pure] at hr
        · rename_i hd8
          rw [readDataHeader_eq (by simpa using le_of_eq (not_not.1 hd8).symm)] at hr
          have s3 : slice ((m.drop (44 + leVal (slice m 40 4))).take 8) 0 4
              = slice m (44 + leVal (slice m 40 4)) 4 := by
            simp [slice, List.take_take]
          have s4 : slice ((m.drop (44 + leVal (slice m 40 4))).take 8) (0 + 4) 4
              = slice m (44 + leVal (slice m 40 4) + 4) 4 := by
            unfold slice; rw [List.drop_take, List.drop_drop, List.take_take]
            congr 1
          rw [s3, s4] at hr
          by_cases hD : slice m (44 + leVal (slice m 40 4)) 4 = tagData
          · rw [if_pos hD] at hr
            simp [pure, Except.pure] at hr
            exact ⟨_, Or.inr ⟨hL, rfl⟩, hD, by rw [← hr.2]⟩
          · rw [if_neg hD] at hr; simp [pure, Except.pure] at hr
      · rw [if_neg hL] at hr
        by_cases hD : slice m 36 4 = tagData
        · rw [if_pos hD] at hr
          simp only at hr
          have : (u32 (36 + 0)).toNat = 36 := by decide
          rw [this, if_pos (Or.inl (by omega))] at hr
          simp only at hr
          rw [if_neg (by simpa using h8), readDataHeader_eq (by omega), s1, s2, if_pos hD] at hr
          simp [pure, Except.pure] at hr
          exact ⟨36, Or.inl ⟨hD, rfl⟩, hD, by rw [← hr.2]⟩
        · rw [if_neg hD] at hr; simp [pure, Except.pure] at hr

/-- Why `C04_accepted_only_if` needs the LIST chunk to end inside the file: with a file system whose
`seek` past the end leaves the cursor where it is, a LIST chunk claiming 1000 bytes in a 60-byte file is
"skipped" by not moving, and a data chunk inside it is accepted. -/
theorem C04_overlong_list : ∃ m : List Nat, IsBytes m ∧ m.length < 1000 ∧
    slice m 36 4 = [76, 73, 83, 84] ∧ leVal (slice m 40 4) = 1000 ∧
    ∃ h dh, readWaveHeader (some ⟨m, 0, false⟩) = .ok (true, h, dh) := by
  refine ⟨header exFields ++ [76, 73, 83, 84] ++ le32B 1000 ++ dataHead 8 ++ [0,0,0,0,0,0,0,0], ?_,
    by decide, by decide, by decide, _, _, rfl⟩
  unfold IsBytes; decide

end TVP
