import Verif.Lemmas.Wav
import Verif.Spec.Play
import Verif.Model.Play

namespace TVP
open Spec

@[simp] theorem ok_bind {α β : Type} (a : α) (f : α → M β) : (Except.ok a >>= f : M β) = f a := rfl
@[simp] theorem error_bind {α β : Type} (e : Fault) (f : α → M β) :
    ((Except.error e : M α) >>= f : M β) = Except.error e := rfl
@[simp] theorem pure_eq_ok {α : Type} (a : α) : (pure a : M α) = Except.ok a := rfl
@[simp] theorem throw_eq_error {α : Type} (e : Fault) : (throw e : M α) = Except.error e := rfl

theorem bind_ok_iff {α β : Type} {x : M α} {f : α → M β} {b : β} :
    (x >>= f) = Except.ok b ↔ ∃ a, x = Except.ok a ∧ f a = Except.ok b := by
  cases x with
  | error e => simp
  | ok a => simp

theorem setNumChannels_playing (r : Rd) (n : Int) : (r.setNumChannels n).playing = r.playing := by
  unfold Rd.setNumChannels; split <;> rfl
theorem setNumChannels_fileSize (r : Rd) (n : Int) : (r.setNumChannels n).fileSize = r.fileSize := by
  unfold Rd.setNumChannels; split <;> rfl
theorem setNumChannels_nch (r : Rd) (n : Int) : (r.setNumChannels n).nch = if u16 n = r.nch then r.nch else i16 n := by
  unfold Rd.setNumChannels; split <;> simp_all

/-- For a channel count that fits `int16_t` the stored count is the argument. -/
theorem setNumChannels_nch_small (r : Rd) {n : Int} (h0 : 0 ≤ n) (h1 : n < 32768) :
    (r.setNumChannels n).nch = n := by
  rw [setNumChannels_nch]
  have : u16 n = n := by unfold u16; omega
  have h2 : i16 n = n := by unfold i16; omega
  rw [this, h2]; split <;> simp_all

theorem playParseWav_playing {r r' : Rd} {f f' : Dev} {junk : List Nat} {ok : Bool}
    (h : playParseWav r f junk = .ok (ok, r', f')) : r'.playing = r.playing ∧ r'.fileSize = r.fileSize := by
  unfold playParseWav at h
  obtain ⟨⟨ok1, hdr⟩, _, h⟩ := bind_ok_iff.1 h
  simp only at h
  split at h
  · simp only [pure_eq_ok, Except.ok.injEq, Prod.mk.injEq] at h; rw [← h.2.1]; simp
  · obtain ⟨t, _, h⟩ := bind_ok_iff.1 h
    cases t with
    | none =>
      simp only [pure_eq_ok, Except.ok.injEq, Prod.mk.injEq] at h; rw [← h.2.1]
      exact ⟨setNumChannels_playing _ _, setNumChannels_fileSize _ _⟩
    | some t =>
      simp only at h
      obtain ⟨⟨ok2, dh⟩, _, h⟩ := bind_ok_iff.1 h
      simp only at h
      split at h
      · simp only [pure_eq_ok, Except.ok.injEq, Prod.mk.injEq] at h; rw [← h.2.1]
        exact ⟨setNumChannels_playing _ _, setNumChannels_fileSize _ _⟩
      · simp only [pure_eq_ok, Except.ok.injEq, Prod.mk.injEq] at h; rw [← h.2.1]
        exact ⟨setNumChannels_playing _ _, setNumChannels_fileSize _ _⟩

theorem reset_playing (r : Rd) : r.reset.playing = r.playing := rfl

theorem playFinish_false {g : Geo} {r : Rd} {f : Dev} {a : FileReader}
    (h : playFinish g r f = .ok (false, a)) : a.rd.playing = false ∧ a.src = none := by
  unfold playFinish at h
  split at h
  · simp at h; rw [← h]; simp
  · split at h
    · simp at h
    · simp at h

theorem playFinish_true {g : Geo} {r : Rd} {f : Dev} {a : FileReader}
    (h : playFinish g r f = .ok (true, a)) : a.rd.playing = true ∧ a.src.isSome := by
  unfold playFinish at h
  split at h
  · simp at h
  · split at h
    · simp at h
    · simp at h; rw [← h]; simp [FileReader.setLoopType, FileReader.setLoopStart, FileReader.setLoopFinish]

theorem playFinish_small {g : Geo} {r : Rd} {f : Dev} (h : u32 r.fileSize ≤ u32 (r.header * 2)) :
    playFinish g r f = .ok (false, { rd := { r with playing := false }, src := none }) := by
  unfold playFinish; rw [if_pos h]; rfl

/-- Whatever the input, a `false` result leaves the reader stopped and without a source. -/
theorem playFile_false {g : Geo} {a a' : FileReader} {file : Option Dev} {junk : List Nat} {w : Bool} {n : Int}
    (h : a.playFile g file junk w n = .ok (false, a')) : a'.rd.playing = false ∧ a'.src = none := by
  unfold FileReader.playFile at h
  cases file with
  | none =>
    simp at h; rw [← h]
    cases w <;> simp [FileReader.close, Rd.stop, setNumChannels_playing]
  | some f =>
    simp only at h
    cases w with
    | true =>
      simp only [if_true] at h
      obtain ⟨⟨ok, r, f'⟩, hp, h⟩ := bind_ok_iff.1 h
      simp only at h
      cases ok with
      | false =>
        simp at h; rw [← h]
        have := (playParseWav_playing hp).1
        simp [this, FileReader.close, Rd.stop]
      | true => exact playFinish_false (by simpa using h)
    | false => exact playFinish_false (by simpa using h)

theorem playFile_true {g : Geo} {a a' : FileReader} {file : Option Dev} {junk : List Nat} {w : Bool} {n : Int}
    (h : a.playFile g file junk w n = .ok (true, a')) : a'.rd.playing = true ∧ a'.src.isSome := by
  unfold FileReader.playFile at h
  cases file with
  | none => simp at h
  | some f =>
    simp only at h
    cases w with
    | true =>
      simp only [if_true] at h
      obtain ⟨⟨ok, r, f'⟩, hp, h⟩ := bind_ok_iff.1 h
      simp only at h
      cases ok with
      | false => simp at h
      | true => exact playFinish_true (by simpa using h)
    | false => exact playFinish_true (by simpa using h)

theorem overlay_nil (b : List Nat) : overlay [] b = b := by simp [overlay]
theorem overlay_full {a b : List Nat} (h : b.length ≤ a.length) : overlay a b = a := by
  unfold overlay; rw [List.drop_of_length_le h]; simp
theorem overlay_length {a b : List Nat} (h : a.length ≤ b.length) : (overlay a b).length = b.length := by
  simp [overlay]; omega

/-- A header with bit depth 16 was accepted. -/
theorem depth16_accepted {m : List Nat} {ok : Bool} {h : WavHeader} (hl : 36 ≤ m.length)
    (hr : readWaveHeaderFromBuffer m {} = .ok (ok, h)) (hd : h.bitDepth = 16) :
    ok = true ∧ h = parsed m ∧ slice m 0 4 = tagRIFF ∧ slice m 8 4 = tagWAVE ∧ slice m 12 4 = tagFmt ∧
      leVal (slice m 16 4) = 16 := by
  rw [readHeader_eq hl] at hr
  by_cases h1 : slice m 0 4 = tagRIFF
  · by_cases h2 : slice m 8 4 ≠ tagWAVE ∨ slice m 12 4 ≠ tagFmt
    · simp [h1, h2] at hr
    · by_cases h5 : leVal (slice m 16 4) = 16
      · simp [h1, h2, h5] at hr
        push Not at h2
        exact ⟨hr.1, hr.2.symm, h1, h2.1, h2.2, h5⟩
      · simp [h1, h2, h5] at hr
        rw [← hr.2] at hd; simp at hd
  · by_cases h0 : 0 ∈ m
    · simp [h1, h0] at hr; rw [← hr.2] at hd; simp at hd
    · simp [h1, h0] at hr

theorem slice_take {m : List Nat} {o n k : Nat} (h : o + n ≤ k) : slice (m.take k) o n = slice m o n := by
  unfold slice
  rw [List.drop_take, List.take_take]
  congr 1; omega

theorem parsed_take {m : List Nat} : parsed (m.take 36) = parsed m := by
  unfold parsed
  rw [slice_take (by omega), slice_take (by omega), slice_take (by omega), slice_take (by omega),
    slice_take (by omega), slice_take (by omega), slice_take (by omega), slice_take (by omega),
    slice_take (by omega), slice_take (by omega), slice_take (by omega)]

theorem i16_eq_16 {n : Nat} (h : n < 65536) : i16 n = 16 ↔ n = 16 := by unfold i16; omega

theorem slice_drop8 {m : List Nat} {o k n : Nat} (h : k + n ≤ 8) :
    slice ((m.drop o).take 8) k n = slice m (o + k) n := by
  rw [slice_take h]; unfold slice; rw [List.drop_drop]

theorem slice_overlay_short {got x : List Nat} (h : got.length ≤ 3) (hx : 4 ≤ x.length)
    (h3 : slice x 0 4 = tagLIST) : slice (overlay got x) 0 4 ≠ tagData := by
  intro hc
  have hl : (overlay got x).length = x.length := overlay_length (by omega)
  rw [slice4 (by omega)] at hc h3
  have e : (overlay got x).getD 3 0 = x.getD 3 0 := by
    simp only [overlay, List.getD]
    rw [List.getElem?_append_right (by omega), List.getElem?_drop]
    congr 2; omega
  simp only [tagData, tagLIST, Nat.zero_add, List.cons.injEq] at hc h3
  rw [e] at hc
  omega

theorem header_tail (L : Nat) (h : 44 + L < 2 ^ 32) :
    u32 (44 + u32 ((L : Int) + 8)) / 2 = ((44 + L + 8) / 2 : Nat) ∨ 2 ^ 32 ≤ 44 + L + 8 := by
  unfold u32; omega

/-- Outcome of the WAV part of `play` on a file of at least 44 bytes: what acceptance means. -/
theorem playParseWav_long {r : Rd} {m : List Nat} {past : Bool} {junk : List Nat}
    (hj : junk.length = 36) (hb : IsBytes m) (hm : 44 ≤ m.length) (hm2 : m.length < 2 ^ 31)
    (hin : ListInside m past) (r' : Rd) (f' : Dev)
    (h : playParseWav r ⟨m, 0, past⟩ junk = .ok (true, r', f')) :
      GoodHeader m ∧ leVal (slice m 34 2) = 16 ∧ ∃ off, ∃ fs : Int,
        ((slice m 36 4 = [100, 97, 116, 97] ∧ off = 36) ∨
          (slice m 36 4 = [76, 73, 83, 84] ∧ off = 44 + leVal (slice m 40 4))) ∧
        slice m off 4 = tagData ∧ off ≤ m.length ∧
        f'.bytes = m ∧ f'.past = past ∧
        r' = { r.setNumChannels (u16 (parsed m).numChannels) with
                header := ((off + 8) / 2 : Nat), fileSamples := fs } ∧
        (off + 8 ≤ m.length → fs = (leVal (slice m (off + 4) 4) / 2 : Nat)) := by
  unfold playParseWav at h
  obtain ⟨⟨ok1, hdr⟩, hh, h⟩ := bind_ok_iff.1 h
  simp only [Dev.read, List.drop_zero] at hh h
  have hov : overlay (m.take 36) junk = m.take 36 := overlay_full (by simp; omega)
  have htl : (m.take 36).length = 36 := by simp; omega
  rw [hov] at hh h
  split at h
  · simp at h
  rename_i hd
  push Not at hd
  obtain ⟨rfl, hp, t1, t2, t3, t4⟩ := depth16_accepted (by omega) hh hd
  rw [parsed_take] at hp
  rw [slice_take (by omega)] at t1 t2 t3 t4
  have hdep : leVal (slice m 34 2) = 16 := by
    rw [hp] at hd
    have : leVal (slice m 34 2) < 65536 := by
      have h1 := leVal_lt (IsBytes.slice hb 34 2)
      have h2 : (slice m 34 2).length = 2 := by simp [slice]; omega
      rw [h2] at h1; simpa using h1
    exact (i16_eq_16 this).1 hd
  have hgood : GoodHeader m := ⟨t1, t2, t3, (leVal_eq_16 (by omega) hb).1 t4⟩
  refine ⟨hgood, hdep, ?_⟩
  have h8l : ((m.drop 36).take 8).length = 8 := by simp; omega
  rw [htl] at h
  simp only [Nat.zero_add] at h
  have hov2 : ∀ x : List Nat, overlay ((m.drop 36).take 8) x = (m.drop 36).take 8 ++ x.drop 8 := by
    intro x; unfold overlay; rw [h8l]
  rw [hov2, readInfoTags_eq (by simp; omega), slice_append_left (by omega), slice_append_left (by omega),
    slice_drop8 (by omega), slice_drop8 (by omega)] at h
  simp only [Nat.add_zero, Nat.zero_add, Nat.reduceAdd] at h
  by_cases hL : slice m 36 4 = tagLIST
  · rw [if_pos hL] at h
    simp only [ok_bind] at h
    obtain ⟨_, hin2⟩ := hin hL
    have e3 : (u32 (36 + u32 ((leVal (slice m 40 4) : Int) + 8))).toNat = 44 + leVal (slice m 40 4) := by
      unfold u32; omega
    rw [e3] at h
    have hcond : 44 + leVal (slice m 40 4) ≤ m.length ∨ past = true := hin2.imp id (·.1)
    have hhead := header_tail (leVal (slice m 40 4)) (by omega)
    generalize hoff : 44 + leVal (slice m 40 4) = off at *
    simp only [Dev.seek] at h
    rw [if_pos hcond] at h
    simp only at h
    obtain ⟨⟨ok2, dh⟩, hdh, h⟩ := bind_ok_iff.1 h
    simp only at h
    cases ok2 with
    | false => simp at h
    | true =>
      simp only [Bool.not_true, Bool.false_eq_true, if_false, pure_eq_ok, Except.ok.injEq, Prod.mk.injEq,
        true_and] at h
      have hbl : ((m.drop 36).take 8 ++ (m.take 36).drop 8).length = 36 := by simp; omega
      have hsb : slice ((m.drop 36).take 8 ++ (m.take 36).drop 8) 0 4 = tagLIST := by
        rw [slice_append_left (by omega), slice_drop8 (by omega)]; exact hL
      rw [readDataHeader_eq (by rw [overlay_length (by rw [hbl]; simp), hbl]; omega)] at hdh
      have hgl : ((m.drop off).take 8).length = min 8 (m.length - off) := by simp
      by_cases hk : ((m.drop off).take 8).length ≤ 3
      · rw [if_neg (slice_overlay_short hk (by omega) hsb)] at hdh
        simp at hdh
      · have hoffl : off + 4 ≤ m.length := by omega
        have st : slice (overlay ((m.drop off).take 8) ((m.drop 36).take 8 ++ (m.take 36).drop 8)) 0 4
            = slice m off 4 := by
          unfold overlay
          rw [slice_append_left (by omega), slice_drop8 (by omega), Nat.add_zero]
        rw [st] at hdh
        by_cases hD : slice m off 4 = tagData
        · rw [if_pos hD] at hdh
          simp only [Except.ok.injEq, Prod.mk.injEq, true_and] at hdh
          have hh2 := hhead.resolve_right (by omega)
          refine ⟨off, dh.dataBytes / 2, Or.inr ⟨hL, rfl⟩, hD, by omega, ?_, ?_, ?_, ?_⟩
          · rw [← h.2]
          · rw [← h.2]
          · rw [← h.1, hp, hh2]
          · intro h8
            rw [← hdh]
            have s4 : slice (overlay ((m.drop off).take 8) ((m.drop 36).take 8 ++ (m.take 36).drop 8))
                (0 + 4) 4 = slice m (off + 4) 4 := by
              unfold overlay
              rw [slice_append_left (by simp; omega), slice_drop8 (by omega), Nat.zero_add]
            rw [s4]; simp
        · rw [if_neg hD] at hdh; simp at hdh
  · rw [if_neg hL] at h
    by_cases hD : slice m 36 4 = tagData
    · rw [if_pos hD] at h
      simp only [ok_bind] at h
      have : (u32 (36 + 0)).toNat = 36 := by decide
      simp only [this, Dev.seek] at h
      rw [if_pos (Or.inl (by omega))] at h
      simp only at h
      rw [hov2, readDataHeader_eq (by simp; omega), slice_append_left (by omega), slice_append_left (by omega),
        slice_drop8 (by omega), slice_drop8 (by omega)] at h
      simp only [Nat.add_zero, Nat.zero_add, Nat.reduceAdd, hD, if_true, ok_bind, Bool.not_true,
        Bool.false_eq_true, if_false, pure_eq_ok, Except.ok.injEq, Prod.mk.injEq, true_and] at h
      refine ⟨36, (leVal (slice m 40 4) : Int) / 2, Or.inl ⟨hD, rfl⟩, hD, by omega, ?_, ?_, ?_, ?_⟩
      · rw [← h.2]
      · rw [← h.2]
      · rw [← h.1, hp]; rfl
      · intro _; simp
    · rw [if_neg hD] at h; simp at h

/-- The WAV part of `play` on a file that has everything it should: it is accepted. -/
theorem playParseWav_eq {r : Rd} {m : List Nat} {past : Bool} {junk : List Nat} {off : Nat}
    (hj : junk.length = 36) (hb : IsBytes m) (hm2 : m.length < 2 ^ 31)
    (hg : GoodHeader m) (hdep : leVal (slice m 34 2) = 16) (hda : DataAt m off) :
    playParseWav r ⟨m, 0, past⟩ junk =
        .ok (true, { r.setNumChannels (u16 (parsed m).numChannels) with
                header := ((off + 8) / 2 : Nat),
                fileSamples := (leVal (slice m (off + 4) 4) / 2 : Nat) }, ⟨m, off + 8, past⟩) := by
  obtain ⟨hcase, hD, hoff⟩ := hda
  have hm : 44 ≤ m.length := by
    rcases hcase with ⟨_, rfl⟩ | ⟨_, rfl⟩ <;> omega
  have htl : (m.take 36).length = 36 := by simp; omega
  have hov : overlay (m.take 36) junk = m.take 36 := overlay_full (by simp; omega)
  have h8l : ((m.drop 36).take 8).length = 8 := by simp; omega
  have hov2 : ∀ x : List Nat, overlay ((m.drop 36).take 8) x = (m.drop 36).take 8 ++ x.drop 8 := by
    intro x; unfold overlay; rw [h8l]
  unfold playParseWav
  simp only [Dev.read, List.drop_zero, hov, htl, Nat.zero_add]
  obtain ⟨t1, t2, t3, t4⟩ := hg
  rw [readHeader_eq (by omega), parsed_take, slice_take (by omega), slice_take (by omega),
    slice_take (by omega), slice_take (by omega)]
  have t4' := (leVal_eq_16 (by omega) hb).2 t4
  have t1' : slice m 0 4 = tagRIFF := t1
  have t2' : slice m 8 4 = tagWAVE := t2
  have t3' : slice m 12 4 = tagFmt := t3
  have hbd : (parsed m).bitDepth = 16 := by unfold parsed; simp only [hdep]; rfl
  simp only [t1', t2', t3', t4', ne_eq, not_true_eq_false, or_self, if_false, ok_bind, hbd]
  rw [hov2, readInfoTags_eq (by simp; omega), slice_append_left (by omega), slice_append_left (by omega),
    slice_drop8 (by omega), slice_drop8 (by omega)]
  simp only [Nat.add_zero, Nat.zero_add, Nat.reduceAdd]
  rcases hcase with ⟨hd, rfl⟩ | ⟨hL, hoffe⟩
  · have hd' : slice m 36 4 = tagData := hd
    rw [if_neg (by rw [hd']; decide), if_pos hd']
    simp only [ok_bind]
    have : (u32 (36 + 0)).toNat = 36 := by decide
    simp only [this, Dev.seek]
    rw [if_pos (Or.inl (by omega))]
    simp only
    rw [hov2, readDataHeader_eq (by simp; omega), slice_append_left (by omega), slice_append_left (by omega),
      slice_drop8 (by omega), slice_drop8 (by omega)]
    simp only [Nat.add_zero, Nat.zero_add, Nat.reduceAdd, hd', if_true, ok_bind, Bool.not_true,
        Bool.false_eq_true, if_false, pure_eq_ok]
    rw [h8l]
    rfl
  · have hL' : slice m 36 4 = tagLIST := hL
    rw [if_pos hL']
    simp only [ok_bind]
    have e3 : (u32 (36 + u32 ((leVal (slice m 40 4) : Int) + 8))).toNat = 44 + leVal (slice m 40 4) := by
      unfold u32; omega
    have hhead := (header_tail (leVal (slice m 40 4)) (by omega)).resolve_right (by omega)
    rw [e3, hhead, ← hoffe]
    simp only [Dev.seek]
    rw [if_pos (Or.inl (by omega))]
    simp only
    have hgl : ((m.drop off).take 8).length = 8 := by simp; omega
    have hov3 : ∀ x : List Nat, overlay ((m.drop off).take 8) x = (m.drop off).take 8 ++ x.drop 8 := by
      intro x; unfold overlay; rw [hgl]
    rw [hov3, readDataHeader_eq (by simp; omega), slice_append_left (by omega), slice_append_left (by omega),
      slice_drop8 (by omega), slice_drop8 (by omega)]
    have hD' : slice m off 4 = tagData := hD
    simp only [Nat.add_zero, Nat.zero_add, hD', if_true, ok_bind, Bool.not_true,
        Bool.false_eq_true, if_false, pure_eq_ok]
    rw [hgl]
    rfl

theorem playParseWav_good {r : Rd} {m : List Nat} {past : Bool} {junk : List Nat} {off : Nat}
    (hj : junk.length = 36) (hb : IsBytes m) (hm2 : m.length < 2 ^ 31)
    (hg : GoodHeader m) (hdep : leVal (slice m 34 2) = 16) (hda : DataAt m off) :
    ∃ f', playParseWav r ⟨m, 0, past⟩ junk =
        .ok (true, { r.setNumChannels (u16 (parsed m).numChannels) with
                header := ((off + 8) / 2 : Nat),
                fileSamples := (leVal (slice m (off + 4) 4) / 2 : Nat) }, f') ∧
      f'.bytes = m ∧ f'.past = past :=
  ⟨_, playParseWav_eq hj hb hm2 hg hdep hda, rfl, rfl⟩

/-- A file of fewer than 44 bytes is never accepted by the WAV part with a header that leaves room for
samples, whatever the stack buffer contained. -/
theorem playParseWav_short {r : Rd} {m : List Nat} {past : Bool} {junk : List Nat}
    (hj : junk.length = 36) (hm : m.length < 44) (hin : ListInside m past) (r' : Rd) (f' : Dev)
    (h : playParseWav r ⟨m, 0, past⟩ junk = .ok (true, r', f')) : r'.header = 22 := by
  unfold playParseWav at h
  obtain ⟨⟨ok1, hdr⟩, hh, h⟩ := bind_ok_iff.1 h
  simp only [Dev.read, List.drop_zero] at hh h
  have hbl : (overlay (m.take 36) junk).length = 36 := by
    rw [overlay_length (by simp; omega), hj]
  split at h
  · simp at h
  rename_i hd
  push Not at hd
  obtain ⟨rfl, hp, t1, _⟩ := depth16_accepted (by omega) hh hd
  generalize hbuf : overlay (m.take 36) junk = buf at *
  have ht : 0 + (m.take 36).length = min 36 m.length := by simp
  rw [ht] at h
  -- the eight bytes after the header
  generalize hgot : (m.drop (min 36 m.length)).take 8 = got at *
  have hgl : got.length ≤ 7 := by rw [← hgot]; simp; omega
  have hb2 : (overlay got buf).length = 36 := by rw [overlay_length (by omega), hbl]
  rw [readInfoTags_eq (by omega)] at h
  by_cases hk : got.length ≤ 3
  · -- byte 3 is still the `F` of `RIFF`
    have e : (overlay got buf).getD 3 0 = 70 := by
      have : (overlay got buf).getD 3 0 = buf.getD 3 0 := by
        simp only [overlay, List.getD]
        rw [List.getElem?_append_right (by omega), List.getElem?_drop]
        congr 2; omega
      rw [this]
      rw [slice4 (by omega)] at t1
      simp only [tagRIFF, Nat.zero_add, List.cons.injEq] at t1
      exact t1.2.2.2.1
    have hs : slice (overlay got buf) 0 4 = [(overlay got buf).getD 0 0, (overlay got buf).getD 1 0,
        (overlay got buf).getD 2 0, 70] := by
      rw [slice4 (by omega)]; simp only [Nat.zero_add, e]
    rw [if_neg (by rw [hs]; simp [tagLIST]), if_neg (by rw [hs]; simp [tagData])] at h
    simp at h
  · have hml : 40 ≤ m.length := by
      have : got.length = min 8 (m.length - min 36 m.length) := by rw [← hgot]; simp
      omega
    have hs : slice (overlay got buf) 0 4 = slice m 36 4 := by
      unfold overlay
      rw [slice_append_left (by omega), ← hgot, show min 36 m.length = 36 by omega, slice_drop8 (by omega)]
    rw [hs] at h
    by_cases hL : slice m 36 4 = tagLIST
    · exact absurd (hin hL).1 (by omega)
    · rw [if_neg hL] at h
      by_cases hD : slice m 36 4 = tagData
      · rw [if_pos hD] at h
        simp only [ok_bind] at h
        obtain ⟨⟨ok2, dh⟩, _, h⟩ := bind_ok_iff.1 h
        simp only at h
        cases ok2 with
        | false => simp at h
        | true =>
          simp at h
          rw [← h.1]; rfl
      · rw [if_neg hD] at h; simp at h

/-- The successful end of `play`, spelled out. -/
theorem playFinish_ok {g : Geo} {r : Rd} {f : Dev} (h : u32 (r.header * 2) < u32 r.fileSize)
    (hn : r.nch ≠ 0) :
    ∃ c, playFinish g r f = .ok (true, ⟨{ Rd.reset { r with
        fileSamples := r.fileSamples.tdiv r.nch
        loopStart := if r.loopType = .none then 0 else i32 r.loopStart
        loopFinish := if r.loopType = .none then i32 (r.fileSamples.tdiv r.nch) else i32 r.loopFinish }
        with playing := true }, some c⟩) := by
  unfold playFinish
  rw [if_neg (by omega), if_neg hn]
  by_cases hl : r.loopType = .none
  · simp only [hl, if_true]
    exact ⟨_, rfl⟩
  · simp only [hl, if_false]
    exact ⟨_, rfl⟩

end TVP
