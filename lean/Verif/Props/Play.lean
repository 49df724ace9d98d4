import Verif.Lemmas.Reader
import Verif.Props.Wav

/-!
# Properties C05, C07-C09, C50, C51: starting playback
-/

namespace TVP
open Spec

theorem u16_idem (x : Int) : u16 (u16 x) = u16 x := by unfold u16; omega
theorem i16_u16 (x : Int) : i16 (u16 x) = i16 x := by unfold u16 i16; omega

theorem nch_after {r : Rd} {n : Nat} (h : n < 65536) :
    (r.setNumChannels (u16 (i16 n))).nch = 0 ↔ n = 0 := by
  rw [setNumChannels_nch, u16_idem, u16_i16, i16_u16]
  split
  · rename_i h'; rw [← h']; unfold u16; omega
  · unfold i16; omega

theorem channels_lt {m : List Nat} (hb : IsBytes m) (hl : 36 ≤ m.length) : leVal (slice m 22 2) < 65536 := by
  have h1 := leVal_lt (IsBytes.slice hb 22 2)
  have h2 : (slice m 22 2).length = 2 := by simp [slice]; omega
  rw [h2] at h1; simpa using h1

/-- **C05** `playWav` of a file starts playing exactly when the file is playable, whatever the reader did
before and whatever the uninitialised stack buffer contained. -/
theorem C05_playable_iff (g : Geo) (a : FileReader) (m : List Nat) (past : Bool) (junk : List Nat)
    (hb : IsBytes m) (hm : m.length < 2 ^ 31) (hj : junk.length = 36) (hin : ListInside m past)
    (hch : leVal (slice m 22 2) ≠ 0) :
    (∃ a', a.playWav g (some ⟨m, 0, past⟩) junk = .ok (true, a')) ↔ Playable m := by
  have hsz : i32 (m.length : Int) = m.length := by unfold i32; omega
  constructor
  · rintro ⟨a', h⟩
    unfold FileReader.playWav FileReader.playFile at h
    simp only [if_true] at h
    obtain ⟨⟨ok, r, f'⟩, hp, h⟩ := bind_ok_iff.1 h
    simp only at h
    cases ok with
    | false => simp at h
    | true =>
      simp only [Bool.not_true, Bool.false_eq_true, if_false] at h
      have hfs := (playParseWav_playing hp).2
      simp only [Dev.size, hsz] at hfs
      by_cases h44 : m.length < 44
      · have hh := playParseWav_short hj h44 hin r f' hp
        rw [playFinish_small (by rw [hfs, hh]; unfold u32; omega)] at h
        simp at h
      · obtain ⟨hg, hdep, off, fs, hcase, hD, hoff, _, _, hr, _⟩ :=
          playParseWav_long hj hb (by omega) hm hin r f' hp
        have hroom : 2 * ((off + 8) / 2) < m.length := by
          by_contra hc
          rw [playFinish_small ?_] at h
          · simp at h
          · rw [hfs]
            have : r.header = ((off + 8) / 2 : Nat) := by rw [hr]
            rw [this]; unfold u32; omega
        refine ⟨by omega, hg, hdep, off, ⟨hcase, hD, by omega⟩, hroom⟩
  · rintro ⟨hl, hg, hdep, off, hda, hroom⟩
    obtain ⟨f', hp, _, _⟩ := playParseWav_good
      (r := { a.close.rd with fileSize := i32 (m.length : Int) }) (past := past) hj hb hm hg hdep hda
    unfold FileReader.playWav FileReader.playFile
    simp only [if_true, Dev.size]
    rw [hp]
    simp only [ok_bind, Bool.not_true, Bool.false_eq_true, if_false]
    have hfs := (playParseWav_playing hp).2
    obtain ⟨c, hc⟩ := playFinish_ok (g := g) (f := f')
      (r := { Rd.setNumChannels { a.close.rd with fileSize := i32 (m.length : Int) }
                (u16 (parsed m).numChannels) with
                header := ((off + 8) / 2 : Nat), fileSamples := (leVal (slice m (off + 4) 4) / 2 : Nat) })
      (by simp only at hfs ⊢; rw [hfs, hsz]; have := hda.2.2; unfold u32; omega)
      (by
        simp only [parsed]
        intro h0
        exact hch ((nch_after (channels_lt hb (by omega))).1 h0))
    exact ⟨_, hc⟩

/-- **C05, C50** Whenever `playWav` or `playRaw` of a file returns false, the reader is not playing (and has
no source); whenever it returns true, it is playing. -/
theorem C05_result_is_playing (g : Geo) (a a' : FileReader) (file : Option Dev) (junk : List Nat) (w : Bool)
    (n : Int) (b : Bool) (h : a.playFile g file junk w n = .ok (b, a')) :
    a'.rd.playing = b ∧ (a'.src.isSome = b) := by
  cases b with
  | false => have := playFile_false h; simp [this]
  | true => have := playFile_true h; simp [this]

/-- Example: a stereo file of four samples with a LIST chunk of four bytes. -/
def exWav : List Nat := wav exFields (some [73, 78, 70, 79]) 8 [1, 0, 2, 0, 3, 0, 4, 0]
theorem exWav_bytes : IsBytes exWav := by unfold IsBytes exWav; decide
theorem exWav_inside : ListInside exWav false := by unfold ListInside exWav; decide
theorem exWav_playable : Playable exWav :=
  ⟨by decide, by decide, by decide, 48, ⟨Or.inr ⟨by decide, by decide⟩, by decide, by decide⟩, by decide⟩

example (g : Geo) (a : FileReader) : ∃ a', a.playWav g (some ⟨exWav, 0, false⟩) (List.replicate 36 7)
    = .ok (true, a') :=
  (C05_playable_iff g a exWav false _ exWav_bytes (by decide) (by decide) exWav_inside (by decide)).2
    exWav_playable

/-- A truncated file is refused whatever was on the stack. -/
example (g : Geo) (a : FileReader) (junk : List Nat) (hj : junk.length = 36) :
    ¬ ∃ a', a.playWav g (some ⟨header exFields, 0, false⟩) junk = .ok (true, a') := by
  rw [C05_playable_iff g a _ false junk (by unfold IsBytes; decide) (by decide) hj
    (by unfold ListInside; decide) (by decide)]
  rintro ⟨_, _, _, off, ⟨h1, _, h3⟩, _⟩
  rcases h1 with ⟨h1, _⟩ | ⟨h1, _⟩ <;> revert h1 <;> decide

/-- What `playWav` of a file sets up (used for C06, C07). -/
theorem playWav_setup (g : Geo) (a : FileReader) (m : List Nat) (past : Bool) (junk : List Nat)
    (hb : IsBytes m) (hm : m.length < 2 ^ 31) (hj : junk.length = 36) (hg : GoodHeader m)
    (hdep : leVal (slice m 34 2) = 16) (off : Nat) (hda : DataAt m off)
    (hroom : 2 * ((off + 8) / 2) < m.length) (hch0 : 0 < leVal (slice m 22 2))
    (hch1 : leVal (slice m 22 2) < 32768) :
    ∃ a', a.playWav g (some ⟨m, 0, past⟩) junk = .ok (true, a') ∧
      a'.rd.nch = leVal (slice m 22 2) ∧ a'.rd.header = ((off + 8) / 2 : Nat) ∧
      a'.rd.fileSamples = (leVal (slice m (off + 4) 4) / (2 * leVal (slice m 22 2)) : Nat) := by
  have hsz : i32 (m.length : Int) = m.length := by unfold i32; omega
  obtain ⟨f', hp, _, _⟩ := playParseWav_good
    (r := { a.close.rd with fileSize := i32 (m.length : Int) }) (past := past) hj hb hm hg hdep hda
  unfold FileReader.playWav FileReader.playFile
  simp only [if_true, Dev.size]
  rw [hp]
  simp only [ok_bind, Bool.not_true, Bool.false_eq_true, if_false]
  have hfs := (playParseWav_playing hp).2
  have hnch : ∀ r : Rd, (r.setNumChannels (u16 (parsed m).numChannels)).nch = leVal (slice m 22 2) := by
    intro r
    have : u16 (parsed m).numChannels = leVal (slice m 22 2) := by
      simp only [parsed]; rw [u16_i16]; unfold u16; omega
    rw [this]; exact setNumChannels_nch_small r (by omega) (by omega)
  obtain ⟨c, hc⟩ := playFinish_ok (g := g) (f := f')
    (r := { Rd.setNumChannels { a.close.rd with fileSize := i32 (m.length : Int) }
              (u16 (parsed m).numChannels) with
              header := ((off + 8) / 2 : Nat), fileSamples := (leVal (slice m (off + 4) 4) / 2 : Nat) })
    (by simp only at hfs ⊢; rw [hfs, hsz]; have := hda.2.2; unfold u32; omega)
    (by simp only; rw [hnch]; omega)
  refine ⟨_, hc, ?_, rfl, ?_⟩
  · simp only [Rd.reset]; exact hnch _
  · simp only [Rd.reset]
    rw [hnch, ← Nat.div_div_eq_div_mul]
    exact Int.tdiv_eq_ediv_of_nonneg (by omega)

/-- What `playWav` of an in-memory image sets up. -/
theorem arrayPlayWav_setup (a : ArrayReader) (m : List Nat)
    (hb : IsBytes m) (hm : m.length < 2 ^ 31) (hg : GoodHeader m)
    (off : Nat) (hda : DataAt m off) (hch0 : 0 < leVal (slice m 22 2))
    (hch1 : leVal (slice m 22 2) < 32768) :
    a.playWav m = .ok (a.playRaw (toSamples (m.drop (off + 8)))
      (leVal (slice m (off + 4) 4) / leVal (slice m 22 2) / 2 : Nat) (leVal (slice m 22 2) : Nat)) := by
  obtain ⟨hcase, hD, hoff⟩ := hda
  have hm44 : 44 ≤ m.length := by rcases hcase with ⟨_, rfl⟩ | ⟨_, rfl⟩ <;> omega
  unfold ArrayReader.playWav
  obtain ⟨t1, t2, t3, t4⟩ := hg
  rw [readHeader_eq (by omega)]
  have t4' := (leVal_eq_16 (by omega) hb).2 t4
  have t1' : slice m 0 4 = tagRIFF := t1
  have t2' : slice m 8 4 = tagWAVE := t2
  have t3' : slice m 12 4 = tagFmt := t3
  simp only [t1', t2', t3', t4', ne_eq, not_true_eq_false, or_self, if_false, ok_bind, Bool.not_true,
    Bool.false_eq_true]
  rw [readInfoTags_eq (by omega)]
  have hn : (parsed m).numChannels = leVal (slice m 22 2) := by
    simp only [parsed]; unfold i16; omega
  have hu : u32 (leVal (slice m 22 2) : Int) = leVal (slice m 22 2) := by unfold u32; omega
  rcases hcase with ⟨hd, rfl⟩ | ⟨hL, hoffe⟩
  · have hd' : slice m 36 4 = tagData := hd
    rw [if_neg (by rw [hd']; decide), if_pos hd']
    simp only [ok_bind]
    rw [show (u32 (36 + 0)).toNat = 36 by decide, show (u32 (36 + 0 + 8)).toNat = 44 by decide,
      readDataHeader_eq (by omega), if_pos hd', hn]
    have hz : ¬ ((leVal (slice m 22 2) : Int) = 0) := by omega
    simp only [ok_bind, Bool.not_true, Bool.false_eq_true, if_false, pure_eq_ok, hu, hz]
    rw [Int.natCast_ediv, Int.natCast_ediv]; rfl
  · have hL' : slice m 36 4 = tagLIST := hL
    have e3 : (u32 (36 + u32 ((leVal (slice m 40 4) : Int) + 8))).toNat = off := by
      unfold u32; omega
    have e4 : (u32 (36 + u32 ((leVal (slice m 40 4) : Int) + 8) + 8)).toNat = off + 8 := by
      unfold u32; omega
    have hD' : slice m off 4 = tagData := hD
    have hz : ¬ ((leVal (slice m 22 2) : Int) = 0) := by omega
    rw [if_pos hL']
    simp only [ok_bind]
    rw [e3, e4, readDataHeader_eq (by omega), if_pos hD', hn]
    simp only [ok_bind, Bool.not_true, Bool.false_eq_true, if_false, pure_eq_ok, hu, hz]
    rw [Int.natCast_ediv, Int.natCast_ediv]; rfl

/-- **C07** The same image played from a file and from memory has the same channel count and the same
number of frames. -/
theorem C07_file_array_agree (g : Geo) (a : FileReader) (b : ArrayReader) (m : List Nat) (past : Bool)
    (junk : List Nat) (hb : IsBytes m) (hm : m.length < 2 ^ 31) (hj : junk.length = 36)
    (hp : Playable m) (hch0 : 0 < leVal (slice m 22 2)) (hch1 : leVal (slice m 22 2) < 32768) :
    ∃ a' b', a.playWav g (some ⟨m, 0, past⟩) junk = .ok (true, a') ∧ b.playWav m = .ok (true, b') ∧
      a'.rd.nch = b'.rd.nch ∧ a'.rd.fileSamples = b'.rd.fileSamples := by
  obtain ⟨hl, hg, hdep, off, hda, hroom⟩ := hp
  obtain ⟨a', h1, h2, h3, h4⟩ := playWav_setup g a m past junk hb hm hj hg hdep off hda hroom hch0 hch1
  have h5 := arrayPlayWav_setup b m hb hm hg off hda hch0 hch1
  refine ⟨a', _, h1, h5, ?_, ?_⟩
  · rw [h2]
    simp only [Rd.reset]
    exact (setNumChannels_nch_small _ (by omega) (by omega)).symm
  · rw [h4]
    simp only [Rd.reset]
    have hk : ∀ (r : Rd) (n : Int), (r.setNumChannels n).fileSamples = r.fileSamples := by
      intro r n; unfold Rd.setNumChannels; split <;> rfl
    rw [hk]
    have hD : leVal (slice m (off + 4) 4) < 2 ^ 32 := by
      have h1 := leVal_lt (IsBytes.slice hb (off + 4) 4)
      have h2 : (slice m (off + 4) 4).length = 4 := by
        have := hda.2.2; simp [slice]; omega
      rw [h2] at h1; simpa using h1
    rw [Nat.div_div_eq_div_mul, Nat.mul_comm (leVal (slice m 22 2)) 2]
    have : leVal (slice m (off + 4) 4) / (2 * leVal (slice m 22 2)) ≤ leVal (slice m (off + 4) 4) / 2 :=
      Nat.div_le_div_left (by omega) (by omega)
    simp only
    generalize leVal (slice m (off + 4) 4) / (2 * leVal (slice m 22 2)) = q at *
    rw [i32_of_in (by unfold InI32; omega)]

example (g : Geo) (a : FileReader) (b : ArrayReader) : ∃ a' b',
    a.playWav g (some ⟨exWav, 0, false⟩) (List.replicate 36 0) = .ok (true, a') ∧
    b.playWav exWav = .ok (true, b') ∧ a'.rd.nch = b'.rd.nch ∧ a'.rd.fileSamples = b'.rd.fileSamples :=
  C07_file_array_agree g a b exWav false _ exWav_bytes (by decide) (by decide) exWav_playable
    (by decide) (by decide)

/-- **C08 refuted**: an image whose LIST chunk claims more bytes than the image has makes the parser read
outside it. -/
theorem C08_refuted (a : ArrayReader) : ∃ m : List Nat, IsBytes m ∧ GoodHeader m ∧
    a.playWav m = .error .outOfBounds := by
  refine ⟨header exFields ++ [76, 73, 83, 84] ++ le32B 1000 ++ List.replicate 8 0, ?_, by decide, ?_⟩
  · unfold IsBytes; decide
  · rfl

/-- **C08** (the part that holds) With at least 44 bytes, and the LIST chunk together with the following
chunk header inside the image, no read leaves the image. Missing: images whose chunk lengths lie. -/
theorem C08_in_bounds_partial (a : ArrayReader) (m : List Nat) (h44 : 44 ≤ m.length) (hm : m.length < 2 ^ 31)
    (hin : slice m 36 4 = [76, 73, 83, 84] → 44 + leVal (slice m 40 4) + 8 ≤ m.length) :
    a.playWav m ≠ .error .outOfBounds := by
  intro h
  unfold ArrayReader.playWav at h
  rw [readHeader_eq (by omega)] at h
  by_cases h1 : slice m 0 4 = tagRIFF
  · by_cases h2 : slice m 8 4 ≠ tagWAVE ∨ slice m 12 4 ≠ tagFmt
    · simp [h1, h2] at h
    · by_cases h5 : leVal (slice m 16 4) = 16
      · simp only [h1, h2, h5, ne_eq, not_true_eq_false, if_false, ok_bind, Bool.not_true,
          Bool.false_eq_true] at h
        rw [readInfoTags_eq (by omega)] at h
        by_cases hL : slice m 36 4 = tagLIST
        · have hin' := hin hL
          rw [if_pos hL] at h
          simp only [ok_bind] at h
          have e3 : (u32 (36 + u32 ((leVal (slice m 40 4) : Int) + 8))).toNat = 44 + leVal (slice m 40 4) := by
            unfold u32; omega
          rw [e3, readDataHeader_eq (by omega)] at h
          by_cases hD : slice m (44 + leVal (slice m 40 4)) 4 = tagData
          · rw [if_pos hD] at h
            simp only [ok_bind, Bool.not_true, Bool.false_eq_true, if_false] at h
            split at h <;> simp at h
          · rw [if_neg hD] at h; simp at h
        · rw [if_neg hL] at h
          by_cases hD : slice m 36 4 = tagData
          · rw [if_pos hD] at h
            simp only [ok_bind] at h
            rw [show (u32 (36 + 0)).toNat = 36 by decide, readDataHeader_eq (by omega), if_pos hD] at h
            simp only [ok_bind, Bool.not_true, Bool.false_eq_true, if_false] at h
            split at h <;> simp at h
          · rw [if_neg hD] at h; simp at h
      · simp [h1, h2, h5] at h
  · by_cases h0 : 0 ∈ m <;> simp [h1, h0] at h

example (a : ArrayReader) : a.playWav exWav ≠ .error .outOfBounds :=
  C08_in_bounds_partial a exWav (by decide) (by decide) (by intro _; decide)

/-- **C09 refuted** (raw file): the channel count defaults to 0 in `play(filename, isWave)`; starting a
non-empty raw file with it divides by zero. -/
theorem C09_refuted_raw (g : Geo) (a : FileReader) (m : List Nat) (h0 : m.length > 0)
    (hm : m.length < 2 ^ 31) (hh : a.rd.header = 0) (past : Bool) :
    a.playRaw g (some ⟨m, 0, past⟩) 0 = .error .divByZero := by
  unfold FileReader.playRaw FileReader.playFile
  simp only [Bool.false_eq_true, if_false]
  unfold playFinish
  simp only [FileReader.close, Dev.size]
  have e1 : ∀ r : Rd, (r.setNumChannels 0).header = r.header := by
    intro r; unfold Rd.setNumChannels; split <;> rfl
  have e2 : ∀ r : Rd, (r.setNumChannels 0).nch = 0 := fun r => setNumChannels_nch_small r (by omega) (by omega)
  simp only [e2, e1, if_true]
  rw [if_neg (by simp only [Rd.stop, hh]; unfold u32 i32; omega)]
  rfl

/-- **C09 refuted** (array): `playRaw(array, n, 0)` reports success and the next `read` never returns. -/
theorem C09_refuted_array (fp : Fp) (a : ArrayReader) (data : List Int) (n : Nat) :
    ∃ a', a.playRaw data n 0 = (true, a') ∧ ∀ fuel k, 0 < k → a'.read fp fuel k = .error .hang := by
  refine ⟨_, rfl, ?_⟩
  intro fuel k hk
  unfold ArrayReader.read Rd.read
  have e2 : ∀ r : Rd, (r.setNumChannels 0).nch = 0 := fun r => setNumChannels_nch_small r (by omega) (by omega)
  simp only [Rd.reset, e2, Bool.not_true, Bool.false_eq_true, if_false, lt_irrefl, if_true]
  rw [if_neg (by omega)]
  rfl

/-- **C09** (the part that holds) With a positive channel count a raw file always starts or is refused:
no fault. -/
theorem C09_positive_channels_partial (g : Geo) (a : FileReader) (file : Option Dev) (n : Int)
    (h0 : 0 < n) (h1 : n < 32768) : ∃ b a', a.playRaw g file n = .ok (b, a') := by
  unfold FileReader.playRaw FileReader.playFile
  cases file with
  | none => exact ⟨_, _, rfl⟩
  | some f =>
    simp only [Bool.false_eq_true, if_false]
    by_cases hs : u32 (i32 f.size) ≤ u32 ((a.close.rd.setNumChannels n).header * 2)
    · rw [playFinish_small (r := { a.close.rd.setNumChannels n with
        fileSize := i32 f.size, fileSamples := (i32 f.size).tdiv 2 }) hs]
      exact ⟨_, _, rfl⟩
    · obtain ⟨c, hc⟩ := playFinish_ok (g := g) (f := f)
        (r := { a.close.rd.setNumChannels n with fileSize := i32 f.size, fileSamples := (i32 f.size).tdiv 2 })
        (by simp only; omega)
        (by simp only; rw [setNumChannels_nch_small _ (by omega) h1]; omega)
      exact ⟨_, _, hc⟩

example (g : Geo) (a : FileReader) : ∃ b a', a.playRaw g (some ⟨[1, 2, 3, 4], 0, false⟩) 2 = .ok (b, a') :=
  C09_positive_channels_partial g a _ 2 (by decide) (by decide)

/-- **C51 refuted**: `playWav(data, size)` never plays a single sample of the image: it starts "playback" of
zero frames of one channel, and every read of it is empty. -/
theorem C51_refuted (fp : Fp) (a : ArrayReader) (image : List Nat) (size : Int)
    (hr : 0 ≤ a.rd.rate) (hl : a.rd.loopType = .none) (hd : a.rd.dual = false) (hs : a.rd.playStart = .sample) :
    ∃ a', a.playWavLen image size = (true, a') ∧ a'.rd.playing = true ∧
      ∀ fuel k, ∃ a'', a'.read fp (fuel + 1) k = .ok ([], a'') := by
  refine ⟨_, rfl, rfl, ?_⟩
  intro fuel k
  unfold ArrayReader.read
  have hx : ∀ r : Rd, r.setNumChannels 1 = { r with nch := 1 } := by
    intro r; unfold Rd.setNumChannels; split
    · rfl
    · rename_i h; have h' : r.nch = 1 := by rw [not_not] at h; rw [← h]; rfl
      cases r; simp_all
  simp only [Rd.stop, hx]
  generalize hR : ({ Rd.reset _ with playing := true } : Rd) = R
  obtain ⟨r', h⟩ := read_atEnd fp arraySrc fuel R (some (toSamples image)) k
    (by subst hR; simp [Rd.reset]) (by subst hR; exact hd) (by subst hR; exact hl)
    (by
      subst hR
      unfold Rd.atEnd
      simp only [Rd.reset, hd, hl, hr, ge_iff_le, if_true, Rd.posOf, Rd.s2s, hs]
      decide)
  rw [h]
  exact ⟨_, rfl⟩

end TVP
