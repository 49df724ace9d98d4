import Verif.Spec.Riff
import Verif.Props.EndToEnd

/-!
# Property C69 (and part of C04): well-formed WAV files are played
-/

namespace TVP
open Spec

theorem le32B_bytes (n : Nat) : IsBytes (le32B n) := by
  intro b hb
  simp only [le32B, List.mem_cons, List.not_mem_nil, or_false] at hb
  omega

theorem le16B_bytes (n : Nat) : IsBytes (le16B n) := by
  intro b hb
  simp only [le16B, List.mem_cons, List.not_mem_nil, or_false] at hb
  omega

theorem isBytes_append {a b : List Nat} (h1 : IsBytes a) (h2 : IsBytes b) : IsBytes (a ++ b) := by
  intro x hx
  rcases List.mem_append.1 hx with h | h
  · exact h1 x h
  · exact h2 x h

theorem isBytes_flatMap {cs : List Chunk} (h : ∀ c ∈ cs, IsBytes c.bytes) : IsBytes (cs.flatMap Chunk.bytes) := by
  intro x hx
  obtain ⟨c, hc, hx⟩ := List.mem_flatMap.1 hx
  exact h c hc x hx

theorem chunk_bytes_bytes {c : Chunk} (h1 : IsBytes c.tag) (h2 : IsBytes c.body) : IsBytes c.bytes := by
  unfold Chunk.bytes
  refine isBytes_append (isBytes_append (isBytes_append h1 (le32B_bytes _)) h2) ?_
  split
  · intro x hx; simp only [List.mem_singleton] at hx; omega
  · intro x hx; cases hx

theorem riffWav_bytes {f : Fields} {ext audio : List Nat} {before after : List Chunk} (h : WellFormed f ext before audio after) :
    IsBytes (riffWav f ext before audio after) := by
  unfold riffWav
  refine isBytes_append (isBytes_append (isBytes_append (isBytes_append (isBytes_append (isBytes_append ?_ (le32B_bytes _)) ?_)
    (chunk_bytes_bytes ?_ ?_)) ?_) (chunk_bytes_bytes ?_ h.audioBytes)) ?_
  · unfold IsBytes; decide
  · unfold IsBytes; decide
  · show IsBytes [102, 109, 116, 32]; unfold IsBytes; decide
  · refine isBytes_append ?_ h.extBytes
    unfold fmtBody
    exact isBytes_append (isBytes_append (isBytes_append (isBytes_append (isBytes_append (le16B_bytes _) (le16B_bytes _)) (le32B_bytes _))
      (le32B_bytes _)) (le16B_bytes _)) (le16B_bytes _)
  · exact isBytes_flatMap fun c hc => chunk_bytes_bytes (h.beforeValid c hc).1.tagBytes (h.beforeValid c hc).1.bodyBytes
  · show IsBytes [100, 97, 116, 97]; unfold IsBytes; decide
  · exact isBytes_flatMap fun c hc => chunk_bytes_bytes (h.afterValid c hc).tagBytes (h.afterValid c hc).bodyBytes

/-- What follows the format chunk. -/
def restOf (before : List Chunk) (audio : List Nat) (after : List Chunk) : List Nat :=
  before.flatMap Chunk.bytes ++ Chunk.bytes ⟨[100, 97, 116, 97], audio⟩ ++ after.flatMap Chunk.bytes

theorem riffWav_plain (f : Fields) (before : List Chunk) (audio : List Nat) (after : List Chunk) :
    riffWav f [] before audio after = header f ++ restOf before audio after := by
  have h16 : (fmtBody f).length = 16 := rfl
  unfold riffWav restOf Chunk.bytes header
  simp only [List.append_nil, h16]
  simp only [show ¬ 16 % 2 = 1 by decide, if_false, List.append_nil, List.append_assoc, fmtBody]

theorem slice36 (f : Fields) (rest : List Nat) (o n : Nat) : slice (header f ++ rest) (36 + o) n = slice rest o n := by
  have := slice_append_right (a := header f) (b := rest) (n := n) (o := o)
  rwa [header_length f] at this

theorem good_header (f : Fields) (rest : List Nat) : GoodHeader (header f ++ rest) := by
  have hl := header_length f
  refine ⟨?_, ?_, ?_, ?_⟩ <;> rw [slice_append_left (by omega)] <;> rfl

theorem slice_tag {t l b r : List Nat} (h : t.length = 4) : slice (t ++ l ++ b ++ r) 0 4 = t := by
  unfold slice
  rw [List.drop_zero, List.append_assoc, List.append_assoc, List.take_append_of_le_length (by omega), ← h, List.take_length]

theorem slice_len {t b r : List Nat} {n : Nat} (h : t.length = 4) : slice (t ++ le32B n ++ b ++ r) 4 4 = le32B n := by
  have : slice (t ++ (le32B n ++ (b ++ r))) (t.length + 0) 4 = slice (le32B n ++ (b ++ r)) 0 4 := slice_append_right
  rw [h] at this
  rw [List.append_assoc, List.append_assoc, this]
  rfl

theorem chunk_bytes_length {c : Chunk} (h : c.tag.length = 4) : c.bytes.length = 8 + c.body.length + c.body.length % 2 := by
  unfold Chunk.bytes
  simp only [List.length_append, h, le32B, List.length_cons, List.length_nil]
  split
  · simp; omega
  · simp; omega

/-- Nothing but the expected chunks leads to the data chunk. -/
theorem dataAt_iff {f : Fields} {before : List Chunk} {audio : List Nat} {after : List Chunk}
    (hb : ∀ c ∈ before, c.Valid ∧ c.tag ≠ [100, 97, 116, 97]) (hsm : (header f ++ restOf before audio after).length < 2 ^ 31) (off : Nat) :
    DataAt (header f ++ restOf before audio after) off ↔
      (before = [] ∧ off = 36) ∨ ∃ body, before = [⟨[76, 73, 83, 84], body⟩] ∧ body.length % 2 = 0 ∧ off = 44 + body.length := by
  have hl := header_length f
  have hdl : 8 ≤ (Chunk.bytes ⟨[100, 97, 116, 97], audio⟩).length := by rw [chunk_bytes_length rfl]; omega
  unfold DataAt
  have e36 : ∀ n, slice (header f ++ restOf before audio after) 36 n = slice (restOf before audio after) 0 n := fun n => slice36 f _ 0 n
  have e40 : slice (header f ++ restOf before audio after) 40 4 = slice (restOf before audio after) 4 4 := slice36 f _ 4 4
  rw [e36, e40]
  cases before with
  | nil =>
    have t1 : slice (restOf [] audio after) 0 4 = [100, 97, 116, 97] := by
      unfold restOf Chunk.bytes
      simp only [List.flatMap_nil, List.nil_append]
      rw [List.append_assoc]
      exact slice_tag rfl
    rw [t1]
    constructor
    · rintro ⟨⟨_, rfl⟩ | ⟨h, _⟩, _⟩
      · exact Or.inl ⟨rfl, rfl⟩
      · exact absurd h (by decide)
    · rintro (⟨_, rfl⟩ | ⟨_, h, _⟩)
      · rw [e36, t1]
        refine ⟨Or.inl ⟨by trivial, by trivial⟩, by trivial, ?_⟩
        unfold restOf
        simp only [List.length_append, hl, List.flatMap_nil, List.length_nil]
        omega
      · cases h
  | cons c cs =>
    obtain ⟨hv, hnd⟩ := hb c (by simp)
    have hr : restOf (c :: cs) audio after = c.tag ++ le32B c.body.length ++ c.body ++
        ((if c.body.length % 2 = 1 then [0] else []) ++ restOf cs audio after) := by
      unfold restOf
      rw [List.flatMap_cons]
      conv_lhs => enter [1, 1, 1]; unfold Chunk.bytes
      simp only [List.append_assoc]
    have t1 : slice (restOf (c :: cs) audio after) 0 4 = c.tag := by rw [hr]; exact slice_tag hv.tag
    have hlen : c.body.length < 2 ^ 31 := by
      rw [hr] at hsm
      simp only [List.length_append] at hsm
      omega
    have t2 : leVal (slice (restOf (c :: cs) audio after) 4 4) = c.body.length := by
      rw [hr, slice_len hv.tag, leVal_le32B (by omega)]
    rw [t1, t2]
    have t3 : slice (header f ++ restOf (c :: cs) audio after) (44 + c.body.length) 4 =
        slice ((if c.body.length % 2 = 1 then [0] else []) ++ restOf cs audio after) 0 4 := by
      rw [show 44 + c.body.length = 36 + (8 + c.body.length) by omega, slice36, hr]
      have h8 : (c.tag ++ le32B c.body.length ++ c.body).length = 8 + c.body.length := by
        simp only [List.length_append, hv.tag, le32B, List.length_cons, List.length_nil]
      rw [← h8]
      exact slice_append_right (o := 0)
    constructor
    · rintro ⟨⟨h, _⟩ | ⟨h, rfl⟩, h2, _⟩
      · exact absurd h hnd
      · rw [t3] at h2
        by_cases hp : c.body.length % 2 = 1
        · rw [if_pos hp] at h2
          simp [slice] at h2
        · rw [if_neg hp, List.nil_append] at h2
          refine Or.inr ⟨c.body, ?_, by omega, rfl⟩
          cases cs with
          | nil => rw [← h]
          | cons d ds =>
            obtain ⟨dv, dn⟩ := hb d (by simp)
            exfalso
            apply dn
            rw [← h2]
            unfold restOf
            rw [List.flatMap_cons]
            conv_rhs => enter [1, 1, 1, 1]; unfold Chunk.bytes
            simp only [List.append_assoc]
            rw [← List.append_assoc, ← List.append_assoc]
            exact (slice_tag dv.tag).symm
    · rintro (⟨h, _⟩ | ⟨body, h, he, rfl⟩)
      · cases h
      · simp only [List.cons.injEq] at h
        obtain ⟨rfl, rfl⟩ := h
        have q1 := t3
        simp only at q1
        rw [q1]
        refine ⟨Or.inr (And.intro ?_ ?_), ?_, ?_⟩
        · simp only
        · simp only
        · clear q1
          rw [if_neg (by omega), List.nil_append]
          unfold restOf Chunk.bytes
          simp only [List.flatMap_nil, List.nil_append]
          rw [List.append_assoc]
          exact slice_tag rfl
        · rw [hr]
          simp only [List.length_append, hl, le32B, List.length_cons, List.length_nil]
          rw [if_neg (by omega)]
          unfold restOf
          simp only [List.length_append, List.flatMap_nil, List.length_nil]
          omega

/-- A file that plays has a good header. -/
theorem playParseWav_header {r : Rd} {m : List Nat} {past : Bool} {junk : List Nat} (hb : IsBytes m) (hm : 36 ≤ m.length) (hj : junk.length = 36)
    {r' : Rd} {f' : Dev} (h : playParseWav r ⟨m, 0, past⟩ junk = .ok (true, r', f')) : GoodHeader m := by
  unfold playParseWav at h
  obtain ⟨⟨ok1, hdr⟩, hh, h⟩ := bind_ok_iff.1 h
  simp only [Dev.read, List.drop_zero] at hh h
  have hov : overlay (m.take 36) junk = m.take 36 := overlay_full (by simp; omega)
  have htl : (m.take 36).length = 36 := by simp; omega
  rw [hov] at hh h
  split at h
  · simp at h
  rename_i hd
  push Not at hd
  obtain ⟨rfl, hp, t1, t2, t3, t4⟩ := depth16_accepted (by omega) hh hd
  rw [slice_take (by omega)] at t1 t2 t3 t4
  exact ⟨t1, t2, t3, (leVal_eq_16 (by omega) hb).1 t4⟩

theorem playWav_header {g : Geo} {a a' : FileReader} {m : List Nat} {past : Bool} {junk : List Nat} (hb : IsBytes m) (hm : 36 ≤ m.length)
    (hj : junk.length = 36) (h : a.playWav g (some ⟨m, 0, past⟩) junk = .ok (true, a')) : GoodHeader m := by
  unfold FileReader.playWav FileReader.playFile at h
  simp only [if_true] at h
  obtain ⟨⟨ok, r, f'⟩, hp, h⟩ := bind_ok_iff.1 h
  cases ok with
  | false => simp at h
  | true => exact playParseWav_header hb hm hj hp

theorem le32B_length (n : Nat) : (le32B n).length = 4 := rfl

/-- A format chunk with an extension is not a good header. -/
theorem ext_bad {f : Fields} {ext : List Nat} {before : List Chunk} {audio : List Nat} {after : List Chunk}
    (hsm : (riffWav f ext before audio after).length < 2 ^ 31) (hg : GoodHeader (riffWav f ext before audio after)) : ext = [] := by
  have h4 := hg.2.2.2
  have hl : (fmtBody f ++ ext).length = 16 + ext.length := by rw [List.length_append]; rfl
  have e : slice (riffWav f ext before audio after) 16 4 = le32B (16 + ext.length) := by
    unfold riffWav Chunk.bytes
    simp only [List.append_assoc, hl]
    rfl
  have hlt : 16 + ext.length < 2 ^ 32 := by
    unfold riffWav at hsm
    simp only [List.length_append, chunk_bytes_length (c := ⟨[102, 109, 116, 32], fmtBody f ++ ext⟩) rfl, hl] at hsm
    omega
  rw [e] at h4
  have := leVal_le32B hlt
  rw [h4] at this
  have h16 : leVal [16, 0, 0, 0] = 16 := by decide
  exact List.length_eq_zero_iff.1 (by omega)

theorem riffWav_long (f : Fields) (ext : List Nat) (before : List Chunk) (audio : List Nat) (after : List Chunk) :
    44 + audio.length ≤ (riffWav f ext before audio after).length := by
  have hl : (fmtBody f ++ ext).length = 16 + ext.length := by rw [List.length_append]; rfl
  unfold riffWav
  simp only [List.length_append, chunk_bytes_length (c := ⟨[102, 109, 116, 32], fmtBody f ++ ext⟩) rfl,
    chunk_bytes_length (c := ⟨[100, 97, 116, 97], audio⟩) rfl, hl, le32B_length, List.length_cons, List.length_nil]
  omega

theorem header_depth {f : Fields} (hv : f.Valid) (rest : List Nat) : leVal (slice (header f ++ rest) 34 2) = f.depth := by
  have hl := header_length f
  rw [slice_append_left (by omega)]
  exact leVal_le16B hv.depth

theorem header_channels {f : Fields} (hv : f.Valid) (rest : List Nat) : leVal (slice (header f ++ rest) 22 2) = f.channels := by
  have hl := header_length f
  rw [slice_append_left (by omega)]
  exact leVal_le16B hv.channels

theorem rest_list_inside {f : Fields} {before : List Chunk} {audio : List Nat} {after : List Chunk} (past : Bool)
    (hb : ∀ c ∈ before, c.Valid) (hsm : (header f ++ restOf before audio after).length < 2 ^ 31) :
    ListInside (header f ++ restOf before audio after) past := by
  have hl := header_length f
  intro h
  have e36 : slice (header f ++ restOf before audio after) 36 4 = slice (restOf before audio after) 0 4 := slice36 f _ 0 4
  have e40 : slice (header f ++ restOf before audio after) 40 4 = slice (restOf before audio after) 4 4 := slice36 f _ 4 4
  rw [e36] at h
  rw [e40]
  cases before with
  | nil =>
    exfalso
    unfold restOf Chunk.bytes at h
    simp only [List.flatMap_nil, List.nil_append] at h
    rw [List.append_assoc, slice_tag rfl] at h
    exact absurd h (by decide)
  | cons c cs =>
    have hv := hb c (by simp)
    have hr : restOf (c :: cs) audio after = c.tag ++ le32B c.body.length ++ c.body ++
        ((if c.body.length % 2 = 1 then [0] else []) ++ restOf cs audio after) := by
      unfold restOf
      rw [List.flatMap_cons]
      conv_lhs => enter [1, 1, 1]; unfold Chunk.bytes
      simp only [List.append_assoc]
    rw [hr] at hsm ⊢
    simp only [List.length_append, hl, le32B_length, hv.tag] at hsm
    rw [slice_len hv.tag, leVal_le32B (by omega)]
    simp only [List.length_append, hl, le32B_length, hv.tag]
    generalize (if c.body.length % 2 = 1 then [0] else [] : List Nat).length = u at *
    generalize (restOf cs audio after).length = v at *
    refine ⟨?_, Or.inl ?_⟩ <;> omega

/-- **C69** Exactly which well-formed 16-bit WAV files `playWav` starts: those with a plain 16-byte format chunk followed by the data
chunk, or by one LIST chunk of even length and the data chunk; whatever comes after the data chunk. -/
theorem C69_accepts_iff (g : Geo) (a : FileReader) {f : Fields} {ext : List Nat} {before : List Chunk} {audio : List Nat} {after : List Chunk}
    (hw : WellFormed f ext before audio after) (past : Bool) (junk : List Nat) (hj : junk.length = 36) :
    (∃ a', a.playWav g (some ⟨riffWav f ext before audio after, 0, past⟩) junk = .ok (true, a')) ↔ Expected ext before := by
  have hbytes := riffWav_bytes hw
  have hlong := riffWav_long f ext before audio after
  have hpos : 0 < audio.length := List.length_pos_iff.2 hw.sound
  have hsm := hw.small
  by_cases he : ext = []
  · subst he
    rw [riffWav_plain] at hbytes hsm hlong ⊢
    rw [C05_playable_iff g a _ past junk hbytes hsm hj (rest_list_inside past (fun c hc => (hw.beforeValid c hc).1) hsm)
      (by rw [header_channels hw.fields]; have := hw.channels; omega)]
    unfold Playable Expected
    constructor
    · rintro ⟨_, _, _, off, hda, _⟩
      rcases (dataAt_iff hw.beforeValid hsm off).1 hda with ⟨h, _⟩ | ⟨body, h, he, _⟩
      · exact ⟨rfl, Or.inl h⟩
      · exact ⟨rfl, Or.inr ⟨body, h, he⟩⟩
    · rintro ⟨_, h⟩
      have hl := header_length f
      refine ⟨by omega, good_header f _, (header_depth hw.fields _).trans hw.depth, ?_⟩
      rcases h with h | ⟨body, h, he⟩
      · exact ⟨36, (dataAt_iff hw.beforeValid hsm 36).2 (Or.inl ⟨h, rfl⟩), by omega⟩
      · refine ⟨44 + body.length, (dataAt_iff hw.beforeValid hsm _).2 (Or.inr ⟨body, h, he, rfl⟩), ?_⟩
        subst h
        unfold restOf
        simp only [List.length_append, hl, List.flatMap_cons, List.flatMap_nil, List.length_nil,
          chunk_bytes_length (c := ⟨[76, 73, 83, 84], body⟩) rfl, chunk_bytes_length (c := ⟨[100, 97, 116, 97], audio⟩) rfl]
        omega
  · constructor
    · rintro ⟨a', h⟩
      exact absurd (ext_bad hsm (playWav_header hbytes (by omega) hj h)) he
    · exact fun h => absurd h.1 he

/-- Once the RIFF, WAVE and "fmt " tags are there, looking at the header cannot fault. -/
theorem playParseWav_total {r : Rd} {m : List Nat} {past : Bool} {junk : List Nat} (hm : 36 ≤ m.length) (hj : junk.length = 36)
    (t1 : slice m 0 4 = [82, 73, 70, 70]) (t2 : slice m 8 4 = [87, 65, 86, 69]) (t3 : slice m 12 4 = [102, 109, 116, 32]) :
    ∃ res, playParseWav r ⟨m, 0, past⟩ junk = .ok res := by
  have hov : overlay (m.take 36) junk = m.take 36 := overlay_full (by simp; omega)
  have htl : (m.take 36).length = 36 := by simp; omega
  obtain ⟨⟨ok1, hdr⟩, hh⟩ : ∃ x, readWaveHeaderFromBuffer (m.take 36) {} = .ok x := by
    cases h : readWaveHeaderFromBuffer (m.take 36) {} with
    | ok x => exact ⟨x, rfl⟩
    | error e =>
      rcases (C03_exact (m.take 36) (by omega)).1 ⟨e, h⟩ with ⟨h1, _⟩ | ⟨_, h1 | h1⟩
      · rw [slice_take (by omega)] at h1; exact absurd t1 h1
      · rw [slice_take (by omega)] at h1; exact absurd t2 h1
      · rw [slice_take (by omega)] at h1; exact absurd t3 h1
  have hlen : ∀ (d : Dev) (b : List Nat), b.length = 36 → (overlay (d.read 8).1 b).length = 36 := by
    intro d b hb
    rw [overlay_length ?_, hb]
    simp only [Dev.read, List.length_take]; omega
  unfold playParseWav
  simp only [show (Dev.read ⟨m, 0, past⟩ 36).1 = m.take 36 by simp [Dev.read], hov, hh, ok_bind]
  split
  · exact ⟨_, rfl⟩
  · rw [readInfoTags_eq (by rw [hlen _ _ htl]; omega)]
    split
    · simp only [ok_bind]
      rw [readDataHeader_eq (by rw [hlen _ _ (hlen _ _ htl)]; omega)]
      split <;> simp [pure, Except.pure]
    · split
      · simp only [ok_bind]
        rw [readDataHeader_eq (by rw [hlen _ _ (hlen _ _ htl)]; omega)]
        split <;> simp [pure, Except.pure]
      · simp [pure, Except.pure]

/-- The tags at the front of every RIFF WAV file. -/
theorem riffWav_tags (f : Fields) (ext : List Nat) (before : List Chunk) (audio : List Nat) (after : List Chunk) :
    slice (riffWav f ext before audio after) 0 4 = [82, 73, 70, 70] ∧ slice (riffWav f ext before audio after) 8 4 = [87, 65, 86, 69] ∧
      slice (riffWav f ext before audio after) 12 4 = [102, 109, 116, 32] := by
  unfold riffWav Chunk.bytes
  simp only [List.append_assoc]
  exact ⟨rfl, rfl, rfl⟩

/-- Starting such a file cannot fault if its LIST chunk lies inside it. -/
theorem playWav_total (g : Geo) (a : FileReader) {m : List Nat} (past : Bool) {junk : List Nat} (hb : IsBytes m) (hsm : m.length < 2 ^ 31)
    (hm : 44 ≤ m.length) (hj : junk.length = 36) (t1 : slice m 0 4 = [82, 73, 70, 70]) (t2 : slice m 8 4 = [87, 65, 86, 69])
    (t3 : slice m 12 4 = [102, 109, 116, 32]) (hin : GoodHeader m → ListInside m past) (hch : GoodHeader m → leVal (slice m 22 2) ≠ 0) :
    ∃ x, a.playWav g (some ⟨m, 0, past⟩) junk = .ok x := by
  obtain ⟨⟨ok, r', f'⟩, hp⟩ := playParseWav_total (r := { a.close.rd with fileSize := i32 (m.length : Int) }) (past := past) (by omega) hj t1 t2 t3
  unfold FileReader.playWav FileReader.playFile
  simp only [if_true, Dev.size]
  rw [hp]
  simp only [ok_bind]
  cases ok with
  | false => exact ⟨_, rfl⟩
  | true =>
    simp only [Bool.not_true, Bool.false_eq_true, if_false]
    have hg := playParseWav_header hb (by omega) hj hp
    obtain ⟨_, _, off, fs, _, _, _, _, _, hr, _⟩ := playParseWav_long hj hb (by omega) hsm (hin hg) r' f' hp
    by_cases hs : u32 r'.fileSize ≤ u32 (r'.header * 2)
    · exact ⟨_, playFinish_small hs⟩
    · obtain ⟨c, hc⟩ := playFinish_ok (g := g) (f := f') (r := r') (by omega) (by
        rw [hr]
        simp only [parsed]
        intro h0
        exact hch hg ((nch_after (channels_lt hb (by omega))).1 h0))
      exact ⟨_, hc⟩

/-- **C69** A well-formed file that is not of the expected shape is refused without undefined behaviour, and the reader is left
stopped. -/
theorem C69_refused (g : Geo) (a : FileReader) {f : Fields} {ext : List Nat} {before : List Chunk} {audio : List Nat} {after : List Chunk}
    (hw : WellFormed f ext before audio after) (hx : ¬ Expected ext before) (past : Bool) (junk : List Nat) (hj : junk.length = 36) :
    ∃ a', a.playWav g (some ⟨riffWav f ext before audio after, 0, past⟩) junk = .ok (false, a') ∧ a'.rd.playing = false ∧ a'.src = none := by
  have hno := mt (C69_accepts_iff g a hw past junk hj).1 hx
  have hbytes := riffWav_bytes hw
  have hlong := riffWav_long f ext before audio after
  obtain ⟨t1, t2, t3⟩ := riffWav_tags f ext before audio after
  have hsm := hw.small
  obtain ⟨⟨b, a'⟩, hres⟩ := playWav_total g a past hbytes hsm (by omega) hj t1 t2 t3
    (fun hg => by
      obtain rfl := ext_bad hsm hg
      rw [riffWav_plain] at hsm ⊢
      exact rest_list_inside past (fun c hc => (hw.beforeValid c hc).1) hsm)
    (fun hg => by
      obtain rfl := ext_bad hsm hg
      rw [riffWav_plain, header_channels hw.fields]
      have := hw.channels
      omega)
  cases b with
  | true => exact absurd ⟨a', hres⟩ hno
  | false => exact ⟨a', hres, playFile_false hres⟩

/-- Where the audio is in a file of the expected shape. -/
theorem expected_split {f : Fields} {before : List Chunk} {audio : List Nat} {after : List Chunk} (hw : WellFormed f [] before audio after)
    (hx : Expected [] before) : ∃ off pre post, DataAt (riffWav f [] before audio after) off ∧ off % 2 = 0 ∧ pre.length = off + 4 ∧
      riffWav f [] before audio after = pre ++ (le32B audio.length ++ (audio ++ post)) := by
  have hl := header_length f
  have hsm := hw.small
  rw [riffWav_plain] at hsm ⊢
  rcases hx.2 with h | ⟨body, h, he⟩
  · refine ⟨36, header f ++ [100, 97, 116, 97], (if audio.length % 2 = 1 then [0] else []) ++ after.flatMap Chunk.bytes,
      (dataAt_iff hw.beforeValid hsm 36).2 (Or.inl ⟨h, rfl⟩), by omega, by rw [List.length_append, hl]; rfl, ?_⟩
    subst h
    unfold restOf
    simp only [List.flatMap_nil, List.nil_append]
    conv_lhs => enter [2, 1]; unfold Chunk.bytes
    simp only [List.append_assoc]
  · refine ⟨44 + body.length, header f ++ Chunk.bytes ⟨[76, 73, 83, 84], body⟩ ++ [100, 97, 116, 97],
      (if audio.length % 2 = 1 then [0] else []) ++ after.flatMap Chunk.bytes,
      (dataAt_iff hw.beforeValid hsm _).2 (Or.inr ⟨body, h, he, rfl⟩), by omega, ?_, ?_⟩
    · simp only [List.length_append, hl, chunk_bytes_length (c := ⟨[76, 73, 83, 84], body⟩) rfl, List.length_cons, List.length_nil]
      omega
    · subst h
      unfold restOf
      simp only [List.flatMap_cons, List.flatMap_nil, List.append_nil]
      conv_lhs => enter [2, 1, 2]; unfold Chunk.bytes
      simp only [List.append_assoc]

theorem dataSample_part {pre audio post : List Nat} {j : Nat} (h : 2 * j + 2 ≤ audio.length) :
    dataSample (pre ++ (audio ++ post)) pre.length j = dataSample audio 0 j := by
  unfold dataSample
  rw [slice_append_right, slice_append_left (by omega), Nat.zero_add]

/-- **C69, partial** A well-formed 16-bit file of the expected shape sounds exactly as its audio says, whatever the chunk before and the
chunks after the audio hold.  What is missing from the property: well-formed files of other shapes, which are refused
(`C69_accepts_iff`, `C69_refuted`); backward, looped and interpolated playback. -/
theorem C69_plays_partial (fp : Fp) (hfp : Representable fp) (g : Geo) (hB : g.B < 16384) (hNB : g.N * g.B ≤ 2 ^ 30) (a : FileReader)
    {f : Fields} {ext : List Nat} {before : List Chunk} {audio : List Nat} {after : List Chunk} (hw : WellFormed f ext before audio after)
    (hx : Expected ext before) (hc' : f.channels ≤ 32767) (past : Bool) (junk : List Nat) (hj : junk.length = 36)
    {R mm : Int} (hset : ForwardSettings a.rd R) {p : Nat} (hgrid : GridRate p a.rd.rate) (hrem : OnGrid p a.rd.rem) (hrem0 : 0 ≤ a.rd.rem)
    (hstart : a.rd.playStart = .arbitrary → 0 ≤ a.rd.playbackStart ∧ a.rd.playbackStart ≤ (audio.length / 2 / f.channels : Nat))
    (hmm0 : 0 ≤ mm) (hmm : 2 * mm + 1 ≤ g.N) (hadv : 128 * (f.channels * (R + 1)) ≤ mm * g.B) (nullOk : Bool) {fuel : Nat} (hf : g.N ≤ fuel + 2) :
    ∃ a', a.playWav g (some ⟨riffWav f ext before audio after, 0, past⟩) junk = .ok (true, a') ∧ ∀ als : List (Nat → Bool),
      let told := soundPlay (fun i ch => dataSample audio 0 (i * f.channels + ch)) f.channels (audio.length / 2 / f.channels : Nat)
        ((if a.rd.playStart = .arbitrary then a.rd.playbackStart else 0) + a.rd.rem) a.rd.rate (some 0) als
      ∃ a'', a'.ticks fp g nullOk (fuel + 2) als = .ok (told.1, a'') ∧ a''.rd.playing = told.2.isSome ∧ ∀ c, a''.src = some c → c.fails = 0 := by
  obtain rfl := hx.1
  obtain ⟨off, pre, post, hda, heven, hpre, hm⟩ := expected_split hw hx
  have hsm := hw.small
  have hpos : 0 < audio.length := List.length_pos_iff.2 hw.sound
  have hlen : (riffWav f [] before audio after).length = off + 8 + audio.length + post.length := by
    rw [hm]
    simp only [List.length_append, hpre, le32B_length]
    omega
  have hD : leVal (slice (riffWav f [] before audio after) (off + 4) 4) = audio.length := by
    rw [hm, ← hpre]
    have := slice_append_right (a := pre) (b := le32B audio.length ++ (audio ++ post)) (n := 4) (o := 0)
    rw [Nat.add_zero] at this
    rw [this, slice_append_left (by rw [le32B_length]), show slice (le32B audio.length) 0 4 = le32B audio.length from rfl, leVal_le32B (by omega)]
  have hch : leVal (slice (riffWav f [] before audio after) 22 2) = f.channels := by rw [riffWav_plain]; exact header_channels hw.fields _
  obtain ⟨a', k1, k2⟩ := C59_end_to_end fp hfp g hB hNB a (riffWav_bytes hw) hsm past junk hj (by rw [riffWav_plain]; exact good_header f _)
    (by rw [riffWav_plain]; exact (header_depth hw.fields _).trans hw.depth) hda heven hch hw.channels hc' hD (by omega) (by omega) hset hgrid hrem hrem0
    hstart hmm0 hmm hadv nullOk hf
  refine ⟨a', k1, fun als => ?_⟩
  have hx0 : (0 : ℚ) ≤ ((if a.rd.playStart = .arbitrary then a.rd.playbackStart else 0 : Int) : ℚ) + a.rd.rem := by
    refine add_nonneg ?_ hrem0
    split
    · rename_i e; exact_mod_cast (hstart e).1
    · simp
  have e := soundPlay_congr (v := fun i ch => dataSample (riffWav f [] before audio after) (off + 8) (i * f.channels + ch))
    (w := fun i ch => dataSample audio 0 (i * f.channels + ch)) (F := ((audio.length / 2 / f.channels : Nat) : Int)) hx0 hset.rate0 hw.channels
    (fun i ch hi hch => by
      have h1 : i + 1 ≤ audio.length / 2 / f.channels := by omega
      have h2 : (i + 1) * f.channels ≤ audio.length / 2 := le_trans (Nat.mul_le_mul_right _ h1) (Nat.div_mul_le_self _ _)
      rw [Nat.add_mul, Nat.one_mul] at h2
      have h3 : (pre ++ le32B audio.length).length = off + 8 := by rw [List.length_append, hpre, le32B_length]
      rw [hm, ← List.append_assoc, ← h3]
      exact dataSample_part (by omega)) als (some 0)
  have k := k2 als
  simp only at k ⊢
  rw [e] at k
  exact k

/-- A LIST chunk and the four-byte `fact` chunk. -/
def exList : Chunk := ⟨[76, 73, 83, 84], [73, 78, 70, 79]⟩
def exOddList : Chunk := ⟨[76, 73, 83, 84], [73, 78, 70, 79, 33]⟩
def exFact : Chunk := ⟨[102, 97, 99, 116], [2, 0, 0, 0]⟩

instance (l : List Nat) : Decidable (IsBytes l) := by unfold IsBytes; infer_instance

theorem chunk_valid {c : Chunk} (h : c.tag.length = 4 ∧ IsBytes c.tag ∧ IsBytes c.body) : c.Valid := ⟨h.1, h.2.1, h.2.2⟩

theorem exRiff_good : WellFormed exFields [] [exList] [1, 0, 2, 0, 3, 0, 4, 0] [exOddList] := by
  refine ⟨exFields_valid, by decide, by decide, by decide, ?_, by decide, by decide, ?_, by decide⟩
  · intro c hc
    simp only [List.mem_singleton] at hc
    subst hc
    exact ⟨chunk_valid (by decide), by decide⟩
  · intro c hc
    simp only [List.mem_singleton] at hc
    subst hc
    exact chunk_valid (by decide)

/-- Meeting the hypotheses: a file with a LIST chunk before and another chunk after the audio. -/
example (g : Geo) (a : FileReader) (junk : List Nat) (hj : junk.length = 36) :
    ∃ a', a.playWav g (some ⟨riffWav exFields [] [exList] [1, 0, 2, 0, 3, 0, 4, 0] [exOddList], 0, false⟩) junk = .ok (true, a') :=
  (C69_accepts_iff g a exRiff_good false junk hj).2 ⟨rfl, Or.inr ⟨_, rfl, by decide⟩⟩

example : ∃ a', exHalf.playWav sdGeo (some ⟨riffWav exFields [] [exList] [1, 0, 2, 0, 3, 0, 4, 0] [exOddList], 0, false⟩) (List.replicate 36 7) =
      .ok (true, a') ∧ ∀ als : List (Nat → Bool),
    let told := soundPlay (fun i ch => dataSample [1, 0, 2, 0, 3, 0, 4, 0] 0 (i * 2 + ch)) 2 (8 / 2 / 2 : Nat)
      ((if exHalf.rd.playStart = .arbitrary then exHalf.rd.playbackStart else 0) + exHalf.rd.rem) exHalf.rd.rate (some 0) als
    ∃ a'', a'.ticks Fp.ieee sdGeo true (5 + 2) als = .ok (told.1, a'') ∧ a''.rd.playing = told.2.isSome ∧ ∀ c, a''.src = some c → c.fails = 0 :=
  C69_plays_partial Fp.ieee ieee_representable sdGeo (by decide) (by decide) exHalf exRiff_good ⟨rfl, Or.inr ⟨_, rfl, by decide⟩⟩ (by decide) false
    (List.replicate 36 7) (by decide) (R := 1) (mm := 1) exHalf_settings (p := 1)
    ⟨by norm_num, ⟨1, by norm_num [exHalf]⟩, by norm_num [exHalf, abs_of_pos], by norm_num [exHalf, abs_of_pos]⟩
    (by simpa [exHalf] using OnGrid.int 1 0) (by norm_num [exHalf]) (by intro h; cases h) (by decide) (by decide) (by decide) true (by decide)

/-- **C69, refuted** Four well-formed 16-bit files with the same audio that no reader starts: a LIST chunk of odd length (with its byte of
padding), a `fact` chunk before the audio, two LIST chunks, and a format chunk of 18 bytes. -/
theorem C69_refuted : ∀ x ∈ [(([] : List Nat), [exOddList]), ([], [exFact]), ([], [exList, exList]), ([0, 0], [])],
    WellFormed exFields x.1 x.2 [1, 0, 2, 0, 3, 0, 4, 0] [] ∧ ∀ (g : Geo) (a : FileReader) (past : Bool) (junk : List Nat), junk.length = 36 →
      ∃ a', a.playWav g (some ⟨riffWav exFields x.1 x.2 [1, 0, 2, 0, 3, 0, 4, 0] [], 0, past⟩) junk = .ok (false, a') ∧ a'.rd.playing = false := by
  have key : ∀ x : List Nat × List Chunk, WellFormed exFields x.1 x.2 [1, 0, 2, 0, 3, 0, 4, 0] [] → ¬ Expected x.1 x.2 →
      WellFormed exFields x.1 x.2 [1, 0, 2, 0, 3, 0, 4, 0] [] ∧ ∀ (g : Geo) (a : FileReader) (past : Bool) (junk : List Nat), junk.length = 36 →
      ∃ a', a.playWav g (some ⟨riffWav exFields x.1 x.2 [1, 0, 2, 0, 3, 0, 4, 0] [], 0, past⟩) junk = .ok (false, a') ∧ a'.rd.playing = false := by
    intro x hw hx
    refine ⟨hw, fun g a past junk hj => ?_⟩
    obtain ⟨a', h1, h2, _⟩ := C69_refused g a hw hx past junk hj
    exact ⟨a', h1, h2⟩
  have wf : ∀ x : List Nat × List Chunk, IsBytes x.1 → (∀ c ∈ x.2, c = exOddList ∨ c = exFact ∨ c = exList) →
      (riffWav exFields x.1 x.2 [1, 0, 2, 0, 3, 0, 4, 0] []).length < 2 ^ 31 → WellFormed exFields x.1 x.2 [1, 0, 2, 0, 3, 0, 4, 0] [] := by
    intro x h1 h2 h3
    refine ⟨exFields_valid, h1, by decide, by decide, fun c hc => ?_, by decide, by decide, fun c hc => (by cases hc), h3⟩
    rcases h2 c hc with rfl | rfl | rfl <;> exact ⟨chunk_valid (by decide), by decide⟩
  intro x hx
  simp only [List.mem_cons, List.not_mem_nil, or_false] at hx
  rcases hx with rfl | rfl | rfl | rfl
  · refine key _ (wf _ (by decide) (by intro c hc; simp only [List.mem_singleton] at hc; exact Or.inl hc) (by decide)) ?_
    rintro ⟨_, h | ⟨body, h, he⟩⟩
    · cases h
    · simp only [exOddList, List.cons.injEq, Chunk.mk.injEq, true_and, and_true] at h
      subst h; revert he; decide
  · refine key _ (wf _ (by decide) (by intro c hc; simp only [List.mem_singleton] at hc; exact Or.inr (Or.inl hc)) (by decide)) ?_
    rintro ⟨_, h | ⟨body, h, he⟩⟩
    · cases h
    · simp [exFact] at h
  · refine key _ (wf _ (by decide) (by intro c hc; simp at hc; exact Or.inr (Or.inr hc)) (by decide)) ?_
    rintro ⟨_, h | ⟨body, h, he⟩⟩
    · cases h
    · simp at h
  · refine key _ (wf _ (by decide) (by intro c hc; cases hc) (by decide)) ?_
    rintro ⟨h, _⟩
    cases h

/-- **C04** Behind a good header, whatever follows (any chunk, a truncated file, a LIST chunk of any claimed length), looking for the data
chunk ends in an answer: there is no undefined behaviour. -/
theorem C04_total (m : List Nat) (past : Bool) (hg : GoodHeader m) : ∃ res, readWaveHeader (some ⟨m, 0, past⟩) = .ok res := by
  unfold readWaveHeader
  simp only [show (Dev.read ⟨m, 0, past⟩ 36).1 = m.take 36 by simp [Dev.read]]
  split
  · exact ⟨_, rfl⟩
  rename_i h36
  push Not at h36
  obtain ⟨⟨ok1, hdr⟩, hh⟩ : ∃ x, readWaveHeaderFromBuffer (m.take 36) {} = .ok x := by
    cases h : readWaveHeaderFromBuffer (m.take 36) {} with
    | ok x => exact ⟨x, rfl⟩
    | error e =>
      obtain ⟨t1, t2, t3, _⟩ := hg
      rcases (C03_exact (m.take 36) (by omega)).1 ⟨e, h⟩ with ⟨h1, _⟩ | ⟨_, h1 | h1⟩
      · rw [slice_take (by omega)] at h1; exact absurd t1 h1
      · rw [slice_take (by omega)] at h1; exact absurd t2 h1
      · rw [slice_take (by omega)] at h1; exact absurd t3 h1
  simp only [hh, ok_bind]
  split
  · exact ⟨_, rfl⟩
  split
  · exact ⟨_, rfl⟩
  rename_i h8
  push Not at h8
  rw [readInfoTags_eq (by omega)]
  split
  · simp only [ok_bind]
    split
    · simp [pure, Except.pure]
    · rename_i hd
      push Not at hd
      rw [readDataHeader_eq (by omega)]
      split <;> simp [pure, Except.pure]
  · split
    · simp only [ok_bind]
      split
      · simp [pure, Except.pure]
      · rename_i hd
        push Not at hd
        rw [readDataHeader_eq (by omega)]
        split <;> simp [pure, Except.pure]
    · simp [pure, Except.pure]

/-- For instance when the file ends in the middle of the chunk behind the header. -/
example : ∃ res, readWaveHeader (some ⟨header exFields ++ [102, 97, 99], 0, false⟩) = .ok res := C04_total _ _ (by decide)

end TVP
