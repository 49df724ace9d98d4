import Verif.Lemmas.Loud
import Verif.Spec.Loud
import Verif.Props.RawShift
import Verif.Props.Anything
import Verif.Props.Safe

/-!
# Property C95: playback is never louder than the sound, and silence stays silent
-/

namespace TVP
open Spec

variable {fp : Fp} {M : Int}

theorem Spec.Remembers.hushed {r : Rd} (h0 : 0 ≤ M) (h : Remembers M r) (hk : M = 0 ∨ r.dual = false ∧ r.interp ≠ .quadratic) : Hushed M r := by
  refine ⟨h0, fun c => ?_, h.1, hk.imp_right fun k => ⟨Or.inl k.1, k.2⟩⟩
  have := h.2 c
  exact ⟨this _ (by simp), this _ (by simp), this _ (by simp), this _ (by simp)⟩

theorem Spec.Remembers.tame {r : Rd} (h0 : 0 ≤ M) (h : Remembers M r) (hk : M = 0 ∨ r.dual = false ∧ r.interp ≠ .quadratic) : Tame fp M r :=
  ⟨h.hushed h0 hk, hk.imp_right fun k => Or.inl k.1⟩

theorem blockOf_hushed (h0 : 0 ≤ M) {fs : List (List Int)} (h : ∀ f ∈ fs, ∀ v ∈ f, Soft M v) (ch : Nat) : ∀ v ∈ blockOf fs ch, |v| ≤ M := by
  intro v hv
  unfold blockOf at hv
  rcases List.mem_append.1 hv with hv | hv
  · obtain ⟨f, hf, rfl⟩ := List.mem_map.1 hv
    rw [List.getD_eq_getElem?_getD]
    cases hx : f[ch]? with
    | none => simpa using h0
    | some x => exact (h f hf x (List.mem_of_getElem? hx)).2
  · rw [(List.mem_replicate.1 hv).2]; simpa using h0

theorem read_array_hushed {fuel n : Nat} {a a' : ArrayReader} {data : List Int} (hd : AtMost M data) (hs : a.src = some data) (hr : Tame fp M a.rd) {fs : List (List Int)}
    (h : a.read fp fuel n = .ok (fs, a')) : (∀ f ∈ fs, ∀ v ∈ f, Soft M v) ∧ a'.src = some data ∧ Tame fp M a'.rd ∧ Holds a.rd a'.rd := by
  unfold ArrayReader.read at h
  obtain ⟨o, h1, h⟩ := bind_ok_iff.1 h
  cases h
  obtain ⟨k1, k4, k2, k3⟩ := read_hushed (arraySrc_soft (M := M) hd) hr.hush hr.poised hs h1
  exact ⟨k3, k2, ⟨k1, k4⟩, (read_conf h1).dual, fun hd ho => read_onward hd ho h1⟩

theorem update_hushed {fuel : Nat} {a a' : ArrayReader} {data : List Int} (hd : AtMost M data) (hs : a.src = some data) (hr : Tame fp M a.rd) {al : Nat → Bool} {fx : Fx}
    (h : a.update fp fuel al = .ok (fx, a')) : NoLouder M fx ∧ a'.src = some data ∧ Tame fp M a'.rd ∧ Holds a.rd a'.rd := by
  have hno : NoLouder M ({} : Fx) := fun t ht => (nomatch ht)
  unfold ArrayReader.update update at h
  by_cases h1 : a.rd.nch = -1
  · rw [if_pos h1] at h; cases h; exact ⟨hno, hs, hr, Holds.refl _⟩
  · rw [if_neg h1] at h
    by_cases hneg : a.rd.nch < 0
    · simp only [if_pos hneg] at h; cases h
    · simp only [if_neg hneg] at h
      cases hp : a.rd.playing with
      | false => rw [hp] at h; cases h; exact ⟨hno, hs, hr, Holds.refl _⟩
      | true =>
        rw [hp] at h
        change (if ((List.range a.rd.nch.toNat).filter al).length = _ then _ else _) = _ at h
        split at h
        · obtain ⟨⟨fs, b⟩, h1, h⟩ := bind_ok_iff.1 h
          obtain ⟨k1, k2, k3, k4⟩ := read_array_hushed hd hs hr h1
          cases h
          refine ⟨fun t ht v hv => ?_, k2, k3, k4⟩
          simp only at ht
          have hall : ∀ t ∈ (List.range a.rd.nch.toNat).map fun ch => (blockOf fs ch, ch), ∀ v ∈ t.1, |v| ≤ M := by
            intro t ht
            obtain ⟨ch, _, rfl⟩ := List.mem_map.1 ht
            exact blockOf_hushed hr.hush.M0 k1 ch
          split at ht
          · rcases List.mem_append.1 ht with ht | ht
            · exact hall t ht v hv
            · rw [List.mem_singleton.1 ht] at hv
              exact blockOf_hushed hr.hush.M0 k1 0 v hv
          · exact hall t ht v hv
        · cases h; exact ⟨fun t ht => (nomatch ht), hs, hr, Holds.refl _⟩

theorem tick_hushed {fuel : Nat} {a a' : ArrayReader} {data : List Int} (hd : AtMost M data) (hs : a.src = some data) (hr : Tame fp M a.rd) {al : Nat → Bool} {fx : Fx}
    (h : a.tick fp fuel al = .ok (fx, a')) : NoLouder M fx ∧ a'.src = some data ∧ Tame fp M a'.rd ∧ Holds a.rd a'.rd := by
  unfold ArrayReader.tick at h
  obtain ⟨⟨fx1, b⟩, h1, h⟩ := bind_ok_iff.1 h
  obtain ⟨k1, k2, k3, k4⟩ := update_hushed hd hs hr h1
  simp only at h
  split at h
  · cases h; exact ⟨k1, k2, k3, k4⟩
  · rename_i e _
    cases h
    cases e with
    | reload => exact ⟨k1, k2, k3, k4⟩
    | close => exact ⟨k1, k2, k3.stop, k4⟩

theorem acts_hushed {fuel : Nat} {data : List Int} (hd : AtMost M data) : ∀ (as : List Deed) {a a' : ArrayReader} {fxs : List Fx}, a.src = some data → Tame fp M a.rd →
    Gentle M a.rd (fun v => Deed.speed v ∈ as) → a.acts fp fuel as = .ok (fxs, a') → ∀ fx ∈ fxs, NoLouder M fx
  | [], a, a', fxs, _, _, _, h => by unfold ArrayReader.acts at h; cases h; simp
  | .tick al :: as, a, a', fxs, hs, hr, hg, h => by
    unfold ArrayReader.acts at h
    obtain ⟨⟨fx, b⟩, h1, h⟩ := bind_ok_iff.1 h
    obtain ⟨⟨fxs1, b1⟩, h2, h⟩ := bind_ok_iff.1 h
    cases h
    obtain ⟨k1, k2, k3, k4⟩ := tick_hushed hd hs hr h1
    intro f hf
    rcases List.mem_cons.1 hf with rfl | hf
    · exact k1
    · exact acts_hushed hd as k2 k3 (hg.mono k4 fun v hv => List.mem_cons_of_mem _ hv) h2 f hf
  | .speed v :: as, a, a', fxs, hs, hr, hg, h => by
    unfold ArrayReader.acts at h
    obtain ⟨g1, g2⟩ := hg.speed (t := fun v => Deed.speed v ∈ as) (v := v) List.mem_cons_self fun v hv => List.mem_cons_of_mem _ hv
    exact acts_hushed hd as (a := { a with rd := a.rd.setPlaybackRate v }) hs ⟨hr.hush.rate v, hr.poised.rate g2⟩ g1 h

/-- Nothing that brings in the second head or cubic interpolation. -/
def OneHead (M : Int) (r : Rd) (ts : List Call) : Prop := M = 0 ∨ r.dual = false ∧ PlainCalls ts

theorem OneHead.rest {r r' : Rd} {t : Call} {ts : List Call} (h : OneHead M r (t :: ts)) (hr : r.dual = false → r'.dual = false) : OneHead M r' ts :=
  h.imp_right fun k => ⟨hr k.1, fun e => k.2.1 (List.mem_cons_of_mem _ e), fun e => k.2.2 (List.mem_cons_of_mem _ e)⟩

theorem OneHead.tame {r : Rd} {ts : List Call} (h : OneHead M r ts) (hr : Hushed M r) : Tame fp M r := ⟨hr, h.imp_right fun k => Or.inl k.1⟩

theorem rate_dual (r : Rd) (v : ℚ) : (r.setPlaybackRate v).dual = r.dual := by
  obtain ⟨p, e⟩ := setPlaybackRate_moves r v
  rw [e]

theorem set_oneHead {r : Rd} {s : Setting} (h : r.dual = false) (hs : s ≠ .dual true) : (r.set s).dual = false := by
  cases s with
  | speed v => exact (rate_dual r v).trans h
  | dual c =>
    cases c with
    | true => exact absurd rfl hs
    | false => rfl
  | _ => exact h

theorem memUpdate_hushed {fuel : Nat} {data : List Int} (hd : AtMost M data) {b b1 : MemPlayer} {al : Nat → Bool} {fx : Fx} (hs : b.rdr.src = some data) (hr : Tame fp M b.rdr.rd)
    (h1 : b.update fp fuel al = .ok (fx, b1)) : NoLouder M fx ∧ b1.rdr.src = some data ∧ Tame fp M b1.rdr.rd ∧ Holds b.rdr.rd b1.rdr.rd := by
  unfold MemPlayer.update at h1
  obtain ⟨⟨fx', r⟩, h3, h1⟩ := bind_ok_iff.1 h1
  have key : fx' = fx ∧ b1.rdr = r := by
    simp only at h1
    split at h1
    · cases h1; exact ⟨rfl, rfl⟩
    · cases h1; exact ⟨rfl, rfl⟩
  obtain ⟨rfl, rfl⟩ := key
  exact update_hushed hd hs hr h3

theorem runEvent_hushed {data : List Int} {b : MemPlayer} (hs : b.rdr.src = some data) (hr : Tame fp M b.rdr.rd) :
    b.runEvent.rdr.src = some data ∧ Tame fp M b.runEvent.rdr.rd ∧ Holds b.rdr.rd b.runEvent.rdr.rd := by
  unfold MemPlayer.runEvent
  split
  · exact ⟨hs, hr, Holds.refl _⟩
  · exact ⟨hs, hr, Holds.refl _⟩
  · exact ⟨hs, hr.stop, Holds.refl _⟩

theorem memCalls_hushed {fuel : Nat} {data : List Int} (hd : AtMost M data) : ∀ (ts : List Call) {b b' : MemPlayer} {fxs : List Fx}, OneHead M b.rdr.rd ts → b.rdr.src = some data →
    Hushed M b.rdr.rd → memCalls fp fuel b ts = .ok (fxs, b') → ∀ fx ∈ fxs, NoLouder M fx
  | [], b, b', fxs, _, _, _, h => by unfold memCalls at h; cases h; simp
  | .update al :: ts, b, b', fxs, ht, hs, hr, h => by
    unfold memCalls at h
    obtain ⟨⟨fx, b1⟩, h1, h⟩ := bind_ok_iff.1 h
    obtain ⟨⟨fxs1, b2⟩, h2, h⟩ := bind_ok_iff.1 h
    cases h
    obtain ⟨k1, k2, k3, k4⟩ := memUpdate_hushed hd hs (ht.tame hr) h1
    intro f hf
    rcases List.mem_cons.1 hf with rfl | hf
    · exact k1
    · exact memCalls_hushed hd ts (ht.rest fun e => k4.1.trans e) k2 k3.hush h2 f hf
  | .poll :: ts, b, b', fxs, ht, hs, hr, h => by
    unfold memCalls at h
    obtain ⟨k1, k2, k3⟩ := runEvent_hushed (fp := fp) hs (ht.tame hr)
    exact memCalls_hushed hd ts (ht.rest fun e => k3.1.trans e) k1 k2.hush h
  | .set s :: ts, b, b', fxs, ht, hs, hr, h => by
    unfold memCalls at h
    have hne : M = 0 ∨ s ≠ .dual true ∧ s ≠ .interpolation true :=
      ht.imp_right fun k => ⟨fun e => k.2.1 (by rw [e]; exact List.mem_cons_self), fun e => k.2.2 (by rw [e]; exact List.mem_cons_self)⟩
    refine memCalls_hushed hd ts (b := b.set s) ?_ hs (hr.set hne) h
    rcases ht with h0 | ⟨h1, h2⟩
    · exact Or.inl h0
    · rcases hne with h0 | ⟨h3, _⟩
      · exact Or.inl h0
      · refine Or.inr ⟨?_, fun e => h2.1 (List.mem_cons_of_mem _ e), fun e => h2.2 (List.mem_cons_of_mem _ e)⟩
        exact set_oneHead h1 h3

theorem memCalls_heads {fuel : Nat} {data : List Int} (hd : AtMost M data) : ∀ (ts : List Call) {b b' : MemPlayer} {fxs : List Fx}, KeepsOn ts → b.rdr.src = some data →
    Tame fp M b.rdr.rd → Gentle M b.rdr.rd (fun v => Call.set (.speed v) ∈ ts) → memCalls fp fuel b ts = .ok (fxs, b') → ∀ fx ∈ fxs, NoLouder M fx
  | [], b, b', fxs, _, _, _, _, h => by unfold memCalls at h; cases h; simp
  | .update al :: ts, b, b', fxs, ht, hs, hr, hg, h => by
    unfold memCalls at h
    obtain ⟨⟨fx, b1⟩, h1, h⟩ := bind_ok_iff.1 h
    obtain ⟨⟨fxs1, b2⟩, h2, h⟩ := bind_ok_iff.1 h
    cases h
    obtain ⟨k1, k2, k3, k4⟩ := memUpdate_hushed hd hs hr h1
    intro f hf
    rcases List.mem_cons.1 hf with rfl | hf
    · exact k1
    · exact memCalls_heads hd ts (fun s hs => ht s (List.mem_cons_of_mem _ hs)) k2 k3 (hg.mono k4 fun v hv => List.mem_cons_of_mem _ hv) h2 f hf
  | .poll :: ts, b, b', fxs, ht, hs, hr, hg, h => by
    unfold memCalls at h
    obtain ⟨k1, k2, k3⟩ := runEvent_hushed (fp := fp) hs hr
    exact memCalls_heads hd ts (fun s hs => ht s (List.mem_cons_of_mem _ hs)) k1 k2 (hg.mono k3 fun v hv => List.mem_cons_of_mem _ hv) h
  | .set s :: ts, b, b', fxs, ht, hs, hr, hg, h => by
    unfold memCalls at h
    have ht' : KeepsOn ts := fun s hs => ht s (List.mem_cons_of_mem _ hs)
    rcases ht s List.mem_cons_self with rfl | rfl | ⟨v, rfl⟩
    · exact memCalls_heads hd ts ht' (b := b.set .stop) hs hr.stop (hg.mono (Holds.refl b.rdr.rd) fun v hv => List.mem_cons_of_mem _ hv) h
    · exact memCalls_heads hd ts ht' (b := b.set .stopPolled) hs hr.stop (hg.mono (Holds.refl b.rdr.rd) fun v hv => List.mem_cons_of_mem _ hv) h
    · obtain ⟨g1, g2⟩ := hg.speed (t := fun v => Call.set (.speed v) ∈ ts) (v := v) List.mem_cons_self fun v hv => List.mem_cons_of_mem _ hv
      exact memCalls_heads hd ts ht' (b := b.set (.speed v)) hs ⟨hr.hush.rate v, hr.poised.rate g2⟩ g1 h

theorem AtMost.nonneg {data : List Int} (h : AtMost M data) (hne : data ≠ []) : 0 ≤ M := by
  obtain ⟨v, hv⟩ := List.exists_mem_of_ne_nil _ hne
  exact (abs_nonneg v).trans (h v hv).2

/-! ## The property -/

/-- **C95**, silence.  A player that has only played silence so far (a new one, say) plays an array of zeros.  Whatever then happens (the library asks
for sound, events are run or not, any setting is changed: speed, loops, second head and fade, interpolation, stop), every sample sent is zero. -/
theorem C95_silence {fuel : Nat} {b b' : MemPlayer} {n : Nat} (hsrc : b.rdr.src = some (List.replicate n 0)) (hrem : Remembers 0 b.rdr.rd) {ts : List Call} {fxs : List Fx}
    (h : memCalls fp fuel b ts = .ok (fxs, b')) : ∀ fx ∈ fxs, ∀ t ∈ fx.transmitted, ∀ v ∈ t.1, v = 0 := by
  have hd : AtMost 0 (List.replicate n 0) := fun v hv => by rw [(List.mem_replicate.1 hv).2]; exact ⟨by unfold InI16; omega, by simp⟩
  intro fx hfx t ht v hv
  exact abs_eq_zero.1 (le_antisymm (memCalls_hushed hd ts (Or.inl rfl) hsrc (hrem.hushed le_rfl (Or.inl rfl)) h fx hfx t ht v hv) (abs_nonneg v))

/-- **C95** (partial).  A player plays an array of samples of at most `M`; what it remembers is no louder; one head, no interpolation or linear
interpolation.  Whatever then happens, except that the second head or cubic interpolation is turned on, no sample sent exceeds `M`.

Missing: the second head, for which see `C95_heads_partial`, and cubic interpolation, with which it is wrong (`C95_cubic_refuted`). -/
theorem C95_no_louder_partial {fuel : Nat} {b b' : MemPlayer} {data : List Int} (h0 : 0 ≤ M) (hd : AtMost M data) (hsrc : b.rdr.src = some data) (hrem : Remembers M b.rdr.rd)
    (hdual : b.rdr.rd.dual = false) (hi : b.rdr.rd.interp ≠ .quadratic) {ts : List Call} (hts : PlainCalls ts) {fxs : List Fx} (h : memCalls fp fuel b ts = .ok (fxs, b')) :
    ∀ fx ∈ fxs, NoLouder M fx :=
  memCalls_hushed hd ts (Or.inr ⟨hdual, hts⟩) hsrc (hrem.hushed h0 (Or.inr ⟨hdual, hi⟩)) h

/-- **C95** (partial), from the beginning: a new player, whatever settings it is given, is set to play an array; nothing it sends is louder than the loudest sample of the array
(for silence with any settings and calls, else without second head and cubic interpolation). -/
theorem C95_new_partial {fuel : Nat} {b' : MemPlayer} {data : List Int} (h0 : 0 ≤ M) (hd : AtMost M data) (ss : List Setting) (hss : M = 0 ∨ Setting.dual true ∉ ss ∧ Setting.interpolation true ∉ ss)
    (len nch : Int) {ts : List Call} (hts : M = 0 ∨ PlainCalls ts) {fxs : List Fx}
    (h : memCalls fp fuel ⟨((⟨ss.foldl Rd.set {}, none⟩ : ArrayReader).playRaw data len nch).2, none, 0⟩ ts = .ok (fxs, b')) : ∀ fx ∈ fxs, NoLouder M fx := by
  have h1 : ∀ (ss : List Setting) (r : Rd), (M = 0 ∨ Setting.dual true ∉ ss ∧ Setting.interpolation true ∉ ss) → Hushed M r ∧ (M = 0 ∨ r.dual = false) →
      Hushed M (ss.foldl Rd.set r) ∧ (M = 0 ∨ (ss.foldl Rd.set r).dual = false) := by
    intro ss
    induction ss with
    | nil => intro r _ hr; exact hr
    | cons s ss ih =>
      intro r hss hr
      have hne : M = 0 ∨ s ≠ .dual true ∧ s ≠ .interpolation true :=
        hss.imp_right fun k => ⟨fun e => k.1 (by rw [e]; exact List.mem_cons_self), fun e => k.2 (by rw [e]; exact List.mem_cons_self)⟩
      refine ih _ (hss.imp_right fun k => ⟨fun e => k.1 (List.mem_cons_of_mem _ e), fun e => k.2 (List.mem_cons_of_mem _ e)⟩) ⟨hr.1.set hne, ?_⟩
      rcases hne with h | h
      · exact Or.inl h
      · exact hr.2.imp_right fun k => set_oneHead k h.1
  obtain ⟨hr, hdual⟩ := h1 ss {} hss ⟨⟨h0, fun c => ⟨soft_zero h0, soft_zero h0, soft_zero h0, soft_zero h0⟩, by norm_num, Or.inr ⟨Or.inl rfl, by decide⟩⟩, Or.inr rfl⟩
  generalize ss.foldl Rd.set {} = r at *
  refine memCalls_hushed hd ts (hts.elim Or.inl fun ht => hdual.imp_right fun k => ⟨?_, ht⟩) rfl ?_ h
  · change (({ r.stop with header := 0, fileSize := i32 (u32 len * 2), loopStart := 0, loopFinish := i32 len, fileSamples := i32 len } : Rd).setNumChannels nch).dual = false
    unfold Rd.setNumChannels
    split <;> exact k
  have hq : Hushed M ({ r.stop with header := 0, fileSize := i32 (u32 len * 2), loopStart := 0, loopFinish := i32 len, fileSamples := i32 len } : Rd) := ⟨hr.M0, hr.pts, hr.frac, hr.kind⟩
  have hq' := (hq.channels nch).reset
  exact ⟨hq'.M0, hq'.pts, hq'.frac, hq'.kind⟩

/-- **C95** (partial), for the reader itself: any sequence of reads, settings and restarts. -/
theorem C95_reads_partial {fuel : Nat} {data : List Int} (h0 : 0 ≤ M) (hd : AtMost M data) : ∀ (os : List ArrayOp) {a a' : ArrayReader} {fs : List (List Int)}, a.src = some data → Remembers M a.rd →
    (M = 0 ∨ a.rd.dual = false ∧ a.rd.interp ≠ .quadratic ∧ ArrayOp.set (.interp .quadratic) ∉ os) → runOps fp fuel os a = .ok (fs, a') → ∀ f ∈ fs, ∀ v ∈ f, |v| ≤ M := by
  have key : ∀ (os : List ArrayOp) (a a' : ArrayReader) (fs : List (List Int)), a.src = some data → Hushed M a.rd → (M = 0 ∨ a.rd.dual = false) → (M = 0 ∨ ArrayOp.set (.interp .quadratic) ∉ os) →
      runOps fp fuel os a = .ok (fs, a') → ∀ f ∈ fs, ∀ v ∈ f, |v| ≤ M := by
    intro os
    induction os with
    | nil => intro a a' fs _ _ _ _ h; unfold runOps at h; cases h; simp
    | cons o os ih =>
      intro a a' fs hs hr hx0 ho h
      have ho' : M = 0 ∨ ArrayOp.set (.interp .quadratic) ∉ os := ho.imp_right fun k e => k (List.mem_cons_of_mem _ e)
      cases o with
      | read n =>
        unfold runOps at h
        obtain ⟨⟨f, b⟩, h1, h⟩ := bind_ok_iff.1 h
        obtain ⟨⟨fs1, b1⟩, h2, h⟩ := bind_ok_iff.1 h
        cases h
        obtain ⟨k1, k2, k3, k4⟩ := read_array_hushed hd hs (fp := fp) ⟨hr, hx0.imp_right Or.inl⟩ h1
        intro x hx v hv
        rcases List.mem_append.1 hx with hx | hx
        · exact (k1 x hx v hv).2
        · exact ih b _ fs1 k2 k3.hush (hx0.imp_right fun e => k4.1.trans e) ho' h2 x hx v hv
      | set c =>
        unfold runOps at h
        refine ih { a with rd := c.run a.rd } a' fs hs (hr.cmd (ho.imp_right fun k e => k (by rw [e]; exact List.mem_cons_self))) (hx0.imp_right fun k => ?_) ho' h
        cases c with
        | rate v => exact (rate_dual a.rd v).trans k
        | _ => exact k
  intro os a a' fs hs hrem hk h
  exact key os a a' fs hs (hrem.hushed h0 (hk.imp_right fun k => ⟨k.1, k.2.1⟩)) (hk.imp_right fun k => k.1) (hk.imp_right fun k => k.2.2) h

/-- **C95** (partial), raw files, whenever they are played as from memory (C72, C82, and the like say when): no block sent is louder than the loudest sample of the file. -/
theorem C95_streams_partial {g : Geo} {nullOk : Bool} {fuel : Nat} {a : FileReader} {m : List Nat} {ok : Rd → ℚ → Prop} (h0 : 0 ≤ M) (hd : AtMost M (samplesOf m)) (hrem : Remembers M a.rd)
    (hk : M = 0 ∨ a.rd.dual = false ∧ a.rd.interp ≠ .quadratic) (h : LikeInMemoryAt fp g nullOk fuel a m ok) {as : List Deed} (hall : Allowed fp fuel ok ⟨a.rd, some (samplesOf m)⟩ as) :
    ∃ fxs a', a.acts fp g nullOk fuel as = .ok (fxs, a') ∧ ∀ fx ∈ fxs, NoLouder M fx := by
  obtain ⟨fxs, a', b', h1, h2, _⟩ := h as hall
  exact ⟨fxs, a', h1, acts_hushed hd as (a := ⟨a.rd, some (samplesOf m)⟩) rfl (hrem.tame h0 hk) (hk.imp_right fun k => Or.inl k.1) h2⟩

/-- **C95** (partial), any file, with reads that may fail, late events, and any settings but the second head and interpolation: as long as the program with the whole file in memory
is well-defined, no sample sent is louder than the loudest 16-bit word of the file, until the program is stopped while events are run (`EventFails`). -/
theorem C95_anything_partial {g : Geo} {m : List Nat} (hb : IsBytes m) (hm : m.length < 2 ^ 32) {a a' : FileReader} (hdual : a.rd.dual = false) (hi : a.rd.interp = .none)
    {rs rs' : List ReadResult} (hrs : AllOrNothing rs) (ho : OpenedWith g a m rs a' rs') (nullOk : Bool) {fuel : Nat} {ts : List Call} (hts : PlainCalls ts)
    {fxs' : List Fx} {b' : MemPlayer} (hmem : memCalls fp fuel (inMemory a' m) ts = .ok (fxs', b')) (h0 : 0 ≤ M) (hd : AtMost M (samplesOf m)) (hrem : Remembers M a'.rd) :
    (∃ fxs p' rs'', fileCalls fp g nullOk fuel ⟨a', none⟩ rs' ts = .ok (fxs, p', rs'') ∧ ∀ fx ∈ fxs, NoLouder M fx) ∨ EventFails fp g nullOk fuel ⟨a', none⟩ rs' ts fxs' := by
  obtain ⟨-, -, hd', hi'⟩ := opened_keeps (by omega) hrs ho
  have hq := memCalls_hushed hd ts (Or.inr ⟨hd'.trans hdual, hts⟩) (b := inMemory a' m) rfl (hrem.hushed h0 (Or.inr ⟨hd'.trans hdual, (show a'.rd.interp ≠ _ by rw [hi', hi]; decide)⟩)) hmem
  rcases C81_right_or_silent fp hb hm hdual hi hrs ho nullOk hts hmem with ⟨fxs, p', rs'', k1, k2, _⟩ | k
  · refine Or.inl ⟨fxs, p', rs'', k1, ?_⟩
    clear k1 hmem
    have hgap : ∀ {l l' : List Int}, List.Forall₂ (fun s s' : Int => s = s' ∨ s = 0) l l' → (∀ v ∈ l', |v| ≤ M) → ∀ v ∈ l, |v| ≤ M := by
      intro l l' h
      induction h with
      | nil => simp
      | cons h1 _ ih =>
        intro hall v hv
        rcases List.mem_cons.1 hv with rfl | hv
        · rcases h1 with rfl | rfl
          · exact hall _ List.mem_cons_self
          · simpa using h0
        · exact ih (fun w hw => hall w (List.mem_cons_of_mem _ hw)) v hv
    have hblk : ∀ {l l' : List (List Int × Nat)}, List.Forall₂ (fun t t' : List Int × Nat => t.2 = t'.2 ∧ List.Forall₂ (fun s s' : Int => s = s' ∨ s = 0) t.1 t'.1) l l' →
        (∀ t ∈ l', ∀ v ∈ t.1, |v| ≤ M) → ∀ t ∈ l, ∀ v ∈ t.1, |v| ≤ M := by
      intro l l' h
      induction h with
      | nil => simp
      | cons h1 _ ih =>
        intro hall t ht
        rcases List.mem_cons.1 ht with rfl | ht
        · exact hgap h1.2 (hall _ List.mem_cons_self)
        · exact ih (fun w hw => hall w (List.mem_cons_of_mem _ hw)) t ht
    induction k2 with
    | nil => simp
    | cons h1 _ ih =>
      intro fx hfx
      rcases List.mem_cons.1 hfx with rfl | hfx
      · exact hblk h1.2.2.2 (hq _ List.mem_cons_self)
      · exact ih (fun w hw => hq w (List.mem_cons_of_mem _ hw)) fx hfx
  · exact Or.inr k

/-! ## WAV files -/

theorem loud_further {g g' : Geo} {nullOk nullOk' : Bool} {fuel fuel' : Nat} {m m' : List Nat} {ok ok' : Rd → ℚ → Prop} {H : Nat} {sz : Int} (hd : AtMost M (samplesOf m'))
    (hxy : ∀ (j : Nat) v, (samplesOf m')[j]? = some v → (samplesOf m)[H + j]? = some v)
    {k : Interp} (hok : ∀ r v, r.header = 0 ∧ r.interp = k → ok (further H sz r) v → ok' r v ∧ (k = .linear → |v| ≤ 1)) : ∀ (as : List Deed) {a b : FileReader}, LikeInMemoryAt fp g nullOk fuel a m ok →
      LikeInMemoryAt fp g' nullOk' fuel' b m' ok' → Further H sz k a.rd b.rd → Hushed M b.rd → (M = 0 ∨ b.rd.dual = false) → Allowed fp fuel ok ⟨a.rd, some (samplesOf m)⟩ as →
      ∃ fxs a', a.acts fp g nullOk fuel as = .ok (fxs, a') ∧ ∀ fx ∈ fxs, NoLouder M fx
  | [], a, b, _, _, h, _, _, _ => ⟨[], a, rfl, by simp⟩
  | .tick al :: as, a, b, ha, hb, h, hr, hx, hall => by
    obtain ⟨fx, a1, c1, t1, t2, t3⟩ := ha.tick al
    obtain ⟨fx', b1, d1, t1', t2', t3'⟩ := hb.tick al
    obtain ⟨k1, k2⟩ := (FurtherOn.tick (sz := sz) hxy (b := ⟨a.rd, some (samplesOf m)⟩) (b' := ⟨b.rd, some (samplesOf m')⟩) ⟨h, rfl, rfl⟩ al) _ _ t2 t2'
    simp only at k1 k2
    subst k1
    obtain ⟨q1, _, q2, q3⟩ := tick_hushed hd rfl (fp := fp) ⟨hr, hx.imp_right Or.inl⟩ t2'
    have ha1 := ha.after_tick t1 t2 t3 k2.src
    have hb1 := hb.after_tick t1' t2' t3' k2.src'
    have h1 : Further H sz k a1.rd b1.rd := by rw [← t3, ← t3']; exact k2.rd
    have hall1 := hall _ _ t2
    obtain ⟨rc, sc⟩ := c1
    have k3 := k2.src
    simp only at t3 k3
    subst t3 k3
    obtain ⟨fxs, a2, e1, e2⟩ := loud_further hd hxy hok as ha1 hb1 h1 (t3' ▸ q2.hush) (hx.imp_right fun k => t3' ▸ q3.1.trans k) hall1
    refine ⟨fx :: fxs, a2, ?_, fun f hf => ?_⟩
    · rw [FileReader.acts, t1]; simp only [ok_bind, e1]; rfl
    · rcases List.mem_cons.1 hf with rfl | hf
      · exact q1
      · exact e2 f hf
  | .speed v :: as, a, b, ha, hb, h, hr, hx, hall => by
    obtain ⟨hv, hall1⟩ := hall
    have hv' : ok a.rd v := hv
    rw [h.1] at hv
    obtain ⟨w1, w2⟩ := hok _ _ ⟨h.2.header, h.2.calm.1⟩ hv
    exact loud_further hd hxy hok as (ha.after_speed hv') (hb.after_speed w1) (h.speed w2) (hr.rate v) (hx.imp_right fun k => (rate_dual _ v).trans k) hall1

/-- The frames of a WAV file, as a raw file. -/
def rawOf (m : List Nat) (off nch D : Nat) : List Nat := slice m (off + 8) (2 * (D / 2 / nch * nch))

theorem rawOf_length {m : List Nat} {off nch D : Nat} (hin : off + 8 + D ≤ m.length) : (rawOf m off nch D).length = 2 * (D / 2 / nch * nch) := by
  have := Nat.div_mul_le_self (D / 2) nch
  unfold rawOf slice
  rw [List.length_take, List.length_drop]
  omega

theorem rawOf_sample {m : List Nat} {off nch D j : Nat} (hj : j < D / 2 / nch * nch) : dataSample (rawOf m off nch D) 0 j = dataSample m (off + 8) j := by
  have h : slice (rawOf m off nch D) (0 + 2 * j) 2 = slice m (off + 8 + 2 * j) 2 := by
    unfold rawOf
    simp only [slice, List.drop_take, List.take_take, List.drop_drop]
    congr 1
    · omega
    · congr 1; omega
  unfold dataSample
  rw [h]

theorem rawOf_same {m : List Nat} {off nch D : Nat} (hw : WavFile m off nch D) : SameFrames m off nch D (rawOf m off nch D) := by
  have hl := rawOf_length (nch := nch) hw.inFile
  have hle := Nat.div_mul_le_self (D / 2) nch
  have h1 := hw.small
  have h2 := hw.inFile
  have h3 := hw.some
  refine ⟨TVP.IsBytes.slice hw.bytes _ _, by omega, ?_, fun i ch hi hc => (rawOf_sample ?_).symm⟩
  · rw [hl, Nat.mul_div_cancel_left _ (by decide), Nat.mul_div_cancel _ (by omega)]
  · calc i * nch + ch < i * nch + nch := by omega
      _ = (i + 1) * nch := by ring
      _ ≤ D / 2 / nch * nch := Nat.mul_le_mul_right _ hi

theorem rawOf_atMost {m : List Nat} {off nch D : Nat} (hw : WavFile m off nch D) (h : ∀ j < D / 2, |dataSample m (off + 8) j| ≤ M) : AtMost M (samplesOf (rawOf m off nch D)) := by
  have hle := Nat.div_mul_le_self (D / 2) nch
  intro v hv
  unfold samplesOf at hv
  obtain ⟨j, hj, rfl⟩ := List.mem_map.1 hv
  rw [List.mem_range, rawOf_length hw.inFile] at hj
  have e : fileSample (rawOf m off nch D) j = dataSample (rawOf m off nch D) 0 j := by
    have := fileSample_data (rawOf m off nch D) (start := 0) (by decide) j
    rwa [Nat.zero_div, Nat.zero_add] at this
  have hb : IsBytes (rawOf m off nch D) := TVP.IsBytes.slice hw.bytes _ _
  refine ⟨by rw [e]; exact dataSample_in hb 0 j, ?_⟩
  rw [e, rawOf_sample (by omega)]
  exact h j (by omega)

/-- **C95** (partial), WAV files played forwards with changing speed and any interpolation but cubic, or any for silence: nothing sent is louder than the loudest sample of the
data chunk; the header, whose bytes are far from silent, is not heard.

Missing: linear interpolation above normal speed, and what `C72_smooth_wav_partial` leaves out. -/
theorem C95_wav_partial (hfp : Representable fp) {g : Geo} (hB : g.B < 16384) (hNB : g.N * g.B ≤ 2 ^ 30)
    (a : FileReader) {m : List Nat} {off nch D : Nat} (hw : WavFile m off nch D) (hsome : 1 ≤ D / 2 / nch)
    (past : Bool) (junk : List Nat) (hj : junk.length = 36) (hc' : nch ≤ 32767) (hhead : a.rd.header = 0)
    {R mm : Int} (hset : SmoothSettings a.rd R) (hlin : a.rd.interp = .linear → a.rd.rate ≤ 1) (h8 : a.rd.interp ≠ .none → nch ≤ 8)
    (hstart : a.rd.playStart = .arbitrary → 0 ≤ a.rd.playbackStart ∧ a.rd.playbackStart ≤ (D / 2 / nch : Nat))
    (hmm0 : 0 ≤ mm) (hmm : 2 * mm + 1 ≤ g.N) (hadv : 128 * (nch * (R + 1)) + nch ≤ mm * g.B) (nullOk : Bool) {fuel : Nat} (hf : g.N ≤ fuel + 1)
    (h0 : 0 ≤ M) (hd : ∀ j < D / 2, |dataSample m (off + 8) j| ≤ M) (hrem : Remembers M a.rd) (hk : M = 0 ∨ a.rd.interp ≠ .quadratic) :
    ∃ a', a.playWav g (some ⟨m, 0, past⟩) junk = .ok (true, a') ∧ ∀ as : List Deed, Allowed fp (fuel + 1) (SmoothUpTo R) ⟨a'.rd, some (samplesOf m)⟩ as →
      ∃ fxs a'', a'.acts fp g nullOk (fuel + 1) as = .ok (fxs, a'') ∧ ∀ fx ∈ fxs, NoLouder M fx := by
  have hw' := rawOf_same hw
  have hl := rawOf_length (nch := nch) hw.inFile
  have h3 := hw.some
  have hle := Nat.div_mul_le_self (D / 2) nch
  have hin := hw.inFile
  have hpos : 0 < D / 2 / nch * nch := Nat.mul_pos hsome h3
  have hwhole : (rawOf m off nch D).length / 2 % nch = 0 := by rw [hl, Nat.mul_div_cancel_left _ (by decide), Nat.mul_mod_left]
  obtain ⟨a', k1, -, -, -, -, -, -, -, -, k2⟩ := C72_smooth_wav_partial fp hfp g hB hNB a hw.bytes hw.small past junk hj hw.good hw.depth hw.data hw.chans hw.some hc' hw.len hw.inFile (by omega)
    hset h8 hstart hmm0 hmm hadv nullOk hf
  obtain ⟨b', l1, -, -, -, -, -, -, -, l2⟩ := C72_smooth_raw_partial fp hfp g hB hNB a hw'.bytes (by omega) hw'.small past hw.some hc' hset h8 hhead (by rw [hw'.number]; exact hstart) hmm0 hmm hadv
    nullOk hf
  refine ⟨a', k1, fun as hall => ?_⟩
  have hfr : (rawOf m off nch D).length / 2 = D / 2 / nch * nch := by rw [hl, Nat.mul_div_cancel_left _ (by decide)]
  have hrd : Further ((off + 8) / 2) m.length a.rd.interp a'.rd b'.rd := by
    rw [playWav_rd hw hj hc' k1, playRaw_rd hw'.small hc' l1]
    exact opened_further hw'.small hw.some hc' hfr (by have := hw.even; omega) hw.small rfl hhead hset.dual ⟨hstart, fun h => absurd hset.loop h, fun h => absurd hset.loop h⟩
      (fun h => absurd hset.rate0 (not_le.2 h)) (fun h => abs_le.2 ⟨by have := hset.rate0; linarith, hlin h⟩)
  have hr : Hushed M b'.rd := by
    rw [playRaw_rd hw'.small hc' l1]
    have hq := hrem.hushed h0 (hk.imp_right fun k => ⟨hset.dual, k⟩)
    have hz : ∀ sz H F n : Int, Hushed M (beforeRd a.rd sz H F n) := fun _ _ _ _ => ⟨hq.M0, hq.pts, hq.frac, hq.kind⟩
    have ho : ∀ {r : Rd}, Hushed M r → Hushed M (openedRd r) := by
      intro r hr
      have h1 : Hushed M ({ r with fileSamples := r.fileSamples.tdiv r.nch, loopStart := i32 (if r.loopType = .none then 0 else r.loopStart), loopFinish := i32 (if r.loopType = .none then r.fileSamples.tdiv r.nch else r.loopFinish) } : Rd) := ⟨hr.M0, hr.pts, hr.frac, hr.kind⟩
      have h2 := h1.reset
      exact ⟨h2.M0, h2.pts, h2.frac, h2.kind⟩
    exact ho (hz _ _ _ _)
  exact loud_further (rawOf_atMost hw hd) (hw'.memory hw hwhole) (ok' := SmoothSpeeds R)
    (fun r v hi h => ⟨h.1, fun hk => abs_le.2 ⟨by have := h.1.1; linarith, h.2 (hi.2.trans hk)⟩⟩) as (k2.mono fun _ _ h => h.1) l2 hrd hr (Or.inr (by rw [playRaw_rd hw'.small hc' l1]; exact hset.dual)) hall

/-! ## Examples -/

theorem new_remembers (h0 : 0 ≤ M) {r : Rd} (hp : r.pts = fun _ => {}) (hr : r.rem = 0) : Remembers M r := by
  refine ⟨by rw [hr]; norm_num, fun c v hv => ?_⟩
  rw [hp] at hv
  simp only [List.mem_cons, List.not_mem_nil, or_false] at hv
  have : v = 0 := by rcases hv with h | h | h | h <;> exact h
  rw [this]
  exact soft_zero h0

/-- Cubic interpolation at half speed, then to and fro with fades, then at double speed with two heads, then stopped. -/
def exHushCalls : List Call :=
  [.set (.interpolation true), .set (.speed (1 / 2)), .update fun _ => true, .set (.loopType .pingpong), .set (.loopStart 20), .set (.loopFinish 250), .set (.dual true), .set (.fade 16),
   .update fun _ => true, .poll, .set (.speed 2), .set (.interpolation false), .update fun _ => true, .set .stopPolled, .update fun _ => true]

/-- 300 silent frames of two channels. -/
def exHush : MemPlayer := ⟨(({} : ArrayReader).playRaw (List.replicate 600 0) 300 2).2, none, 0⟩

theorem exHush_ok : (memCalls Fp.ideal 3 exHush exHushCalls).toOption.isSome = true := by decide +kernel

/-- Three of the four updates send two blocks each, all silent. -/
example : ∃ fxs b', memCalls Fp.ideal 3 exHush exHushCalls = .ok (fxs, b') ∧ fxs.length = 4 ∧ ∀ fx ∈ fxs, ∀ t ∈ fx.transmitted, ∀ v ∈ t.1, v = 0 := by
  have hl : (memCalls Fp.ideal 3 exHush exHushCalls).map (fun x => x.1.length) = .ok 4 := by decide +kernel
  cases e : memCalls Fp.ideal 3 exHush exHushCalls with
  | error f => have := exHush_ok; rw [e] at this; cases this
  | ok x =>
    rw [e] at hl
    refine ⟨x.1, x.2, rfl, by injection hl, C95_silence (n := 600) rfl ⟨by decide +kernel, fun c v hv => ?_⟩ e⟩
    have hp : (exHush.rdr.rd.pts c).y0 = 0 ∧ (exHush.rdr.rd.pts c).y1 = 0 ∧ (exHush.rdr.rd.pts c).y2 = 0 ∧ (exHush.rdr.rd.pts c).y3 = 0 := by
      unfold exHush ArrayReader.playRaw Rd.reset Rd.setNumChannels
      simp only
      split <;> split <;> exact ⟨rfl, rfl, rfl, rfl⟩
    rw [hp.1, hp.2.1, hp.2.2.1, hp.2.2.2] at hv
    simp only [List.mem_cons, List.not_mem_nil, or_false] at hv
    have : v = 0 := by rcases hv with h | h | h | h <;> exact h
    rw [this]
    exact soft_zero le_rfl

/-- A small sound, at half speed in a loop, then back at a quarter. -/
def exSoftCalls : List Call := [.set (.loopType .repeat), .update fun _ => true, .set (.speed (-1 / 4)), .poll, .update fun _ => true]

/-- A new player set to half speed. -/
example : ∃ fxs b', memCalls Fp.ideal 3 ⟨((⟨[Setting.speed (1 / 2)].foldl Rd.set {}, none⟩ : ArrayReader).playRaw [100, -200, 300, 50, -300] 5 1).2, none, 0⟩ exSoftCalls = .ok (fxs, b') ∧
    ∀ fx ∈ fxs, NoLouder 300 fx := by
  have h : (memCalls Fp.ideal 3 ⟨((⟨[Setting.speed (1 / 2)].foldl Rd.set {}, none⟩ : ArrayReader).playRaw [100, -200, 300, 50, -300] 5 1).2, none, 0⟩ exSoftCalls).toOption.isSome = true := by decide +kernel
  cases e : memCalls Fp.ideal 3 ⟨((⟨[Setting.speed (1 / 2)].foldl Rd.set {}, none⟩ : ArrayReader).playRaw [100, -200, 300, 50, -300] 5 1).2, none, 0⟩ exSoftCalls with
  | error f => rw [e] at h; cases h
  | ok x => exact ⟨x.1, x.2, rfl, C95_new_partial (by norm_num) (by unfold AtMost InI16; decide) _ (Or.inr ⟨by simp, by simp⟩) 5 1 (Or.inr ⟨by simp [exSoftCalls], by simp [exSoftCalls]⟩) e⟩

/-- The same sound, with linear interpolation. -/
def exSoft : MemPlayer := ⟨⟨{ playing := true, rate := 1 / 2, interp := .linear, nch := 1, fileSize := 10, fileSamples := 5, loopFinish := 5 }, some [100, -200, 300, 50, -300]⟩, none, 0⟩

example : (memCalls Fp.ideal 3 exSoft exSoftCalls).map (fun x => x.1.map fun fx => fx.transmitted.map fun t => t.1.take 12) = .ok
      [[[0, 100, 100, -50, -200, 50, 300, 175, 50, -125, -300, -100], [0, 100, 100, -50, -200, 50, 300, 175, 50, -125, -300, -100]],
       [[50, -37, -125, -212, -300, -212, -125, -37, 50, 112, 175, 237], [50, -37, -125, -212, -300, -212, -125, -37, 50, 112, 175, 237]]] := by decide +kernel

example : ∃ fxs b', memCalls Fp.ideal 3 exSoft exSoftCalls = .ok (fxs, b') ∧ ∀ fx ∈ fxs, NoLouder 300 fx := by
  have h : (memCalls Fp.ideal 3 exSoft exSoftCalls).toOption.isSome = true := by decide +kernel
  cases e : memCalls Fp.ideal 3 exSoft exSoftCalls with
  | error f => rw [e] at h; cases h
  | ok x => exact ⟨x.1, x.2, rfl, C95_no_louder_partial (by norm_num) (by unfold AtMost InI16; decide) rfl (new_remembers (by norm_num) rfl rfl) rfl (by decide) ⟨by simp [exSoftCalls], by simp [exSoftCalls]⟩ e⟩

/-- The reader itself, with linear interpolation turned on after a while. -/
def exSoftOps : List ArrayOp := [.read 5, .set (.interp .linear), .set (.rate (1 / 3)), .read 7, .set .play, .read 3]

example : ∃ fs a', runOps Fp.ideal 3 exSoftOps { exSoft.rdr with rd := { exSoft.rdr.rd with interp := .none } } = .ok (fs, a') ∧ ∀ f ∈ fs, ∀ v ∈ f, |v| ≤ 300 := by
  have h : (runOps Fp.ideal 3 exSoftOps { exSoft.rdr with rd := { exSoft.rdr.rd with interp := .none } }).toOption.isSome = true := by decide +kernel
  cases e : runOps Fp.ideal 3 exSoftOps { exSoft.rdr with rd := { exSoft.rdr.rd with interp := .none } } with
  | error f => rw [e] at h; cases h
  | ok x => exact ⟨x.1, x.2, rfl, C95_reads_partial (by norm_num) (by unfold AtMost InI16; decide) exSoftOps (data := [100, -200, 300, 50, -300]) rfl (new_remembers (by norm_num) rfl rfl) (Or.inr ⟨rfl, by decide, by simp [exSoftOps]⟩) e⟩

/-- A raw file at three quarters of its speed with linear interpolation. -/
def exSlowLinear : FileReader := { rd := { rate := 3 / 4, interp := .linear } }

theorem exSlowLinear_settings : SmoothSettings exSlowLinear.rd 1 where
  dual := rfl
  loop := rfl
  rate0 := by norm_num [exSlowLinear]
  rateR := by norm_num [exSlowLinear]
  flt := exSmooth_settings.flt
  frac := by norm_num [exSlowLinear]
  rem0 := fun _ => le_refl _
  linear := fun _ h => absurd h (by norm_num [exSlowLinear])
  cubic := fun h => nomatch h
  pts := exSmooth_settings.pts

example : ∃ a' fxs a'', exSlowLinear.playRaw sdGeo (some ⟨exBytes, 0, false⟩) (1 : Nat) = .ok (true, a') ∧
    a'.acts Fp.ieee sdGeo true (6 + 1) [.tick fun _ => true, .tick fun _ => true] = .ok (fxs, a'') ∧ ∀ fx ∈ fxs, NoLouder 266 fx := by
  obtain ⟨a', h1, _, _, _, _, _, _, _, h⟩ := C72_smooth_raw_partial Fp.ieee ieee_representable sdGeo (by decide) (by decide) exSlowLinear
    (m := exBytes) (by unfold IsBytes; decide) (by decide) (by decide) false (nch := 1) (by decide) (by decide) (R := 1) (mm := 1) exSlowLinear_settings
    (by decide) rfl (by intro h; cases h) (by decide) (by decide) (by decide) true (fuel := 6) (by decide)
  have hrd := playRaw_rd (by decide) (by decide) h1
  have hp : ∀ c, a'.rd.pts c = {} := by
    intro c
    rw [hrd]
    unfold openedRd Rd.reset
    simp only
    split <;> rfl
  have hr : a'.rd.rem = 0 := by rw [hrd]; rfl
  obtain ⟨fxs, a'', k1, k2⟩ := C95_streams_partial (M := 266) (by norm_num) (by unfold AtMost InI16; decide +kernel) (new_remembers (by norm_num) (funext hp) hr)
    (Or.inr ⟨by rw [hrd]; rfl, by rw [hrd]; decide⟩) h (as := [.tick fun _ => true, .tick fun _ => true]) (fun _ _ _ _ _ _ => trivial)
  exact ⟨a', fxs, a'', h1, k1, k2⟩

/-- A WAV file of four samples, the loudest of which is 4. -/
example : ∃ a', exSlowLinear.playWav sdGeo (some ⟨exWav, 0, false⟩) (List.replicate 36 7) = .ok (true, a') ∧
    ∀ as : List Deed, Allowed Fp.ieee (6 + 1) (SmoothUpTo 1) ⟨a'.rd, some (samplesOf exWav)⟩ as →
      ∃ fxs a'', a'.acts Fp.ieee sdGeo true (6 + 1) as = .ok (fxs, a'') ∧ ∀ fx ∈ fxs, NoLouder 4 fx :=
  C95_wav_partial ieee_representable (by decide) (by decide) exSlowLinear exWav_file (by decide) false (List.replicate 36 7) (by decide) (by decide) rfl (R := 1) (mm := 2)
    exSlowLinear_settings (fun _ => by norm_num [exSlowLinear]) (fun _ => by decide) (fun h => nomatch h) (by decide) (by decide) (by decide) true (by decide)
    (by norm_num) (by decide +kernel) (new_remembers (by norm_num) rfl rfl) (Or.inr (by decide))

/-- The program of C81: a raw file, loops, late events, turns, and a failing read. -/
example : ∃ fxs' b', memCalls Fp.ideal 3 (inMemory exWhim.2.1 exBytes) exWhims = .ok (fxs', b') ∧
    ((∃ fxs p' rs'', fileCalls Fp.ideal exGeo true 3 ⟨exWhim.2.1, none⟩ exWhim.2.2 exWhims = .ok (fxs, p', rs'') ∧ ∀ fx ∈ fxs, NoLouder 266 fx) ∨
      EventFails Fp.ideal exGeo true 3 ⟨exWhim.2.1, none⟩ exWhim.2.2 exWhims fxs') := by
  obtain ⟨⟨fxs', b'⟩, h⟩ := exWhim_mem
  have hp : ∀ c, exWhim.2.1.rd.pts c = if c < 8 then { ({} : Pts) with n := 0 } else {} := fun c => rfl
  have hp' : exWhim.2.1.rd.pts = fun _ => {} := funext fun c => by rw [hp c]; split <;> rfl
  exact ⟨fxs', b', h, C95_anything_partial (by unfold IsBytes; decide +kernel) (by decide +kernel) rfl rfl (by intro n h; simp at h; exact h) exWhim_opened true exWhims_plain h
    (by norm_num) (by unfold AtMost InI16; decide +kernel) (new_remembers (by norm_num) hp' (by decide +kernel))⟩

/-! ## Where it is violated -/

/-- **C95 refuted** (cubic interpolation).  The curve through four samples swings over them: at half speed a sound of at most 1000 gets a sample of 1125. -/
theorem C95_cubic_refuted : (do
    let (ok, a) := ({ rd := { rate := 1 / 2, interp := .quadratic } } : ArrayReader).playRaw [0, 0, 1000, 1000, 0, 0, 0, 0] 8 1
    let (fs, _) ← a.read Fp.ideal 2 16
    return (ok, fs) : TVP.M (Bool × List (List Int))) =
      .ok (true, [[0], [0], [0], [0], [0], [0], [0], [500], [1000], [1125], [1000], [500], [0], [-62], [0], [0]]) := by decide +kernel

/-- **C95 refuted** (a silent sound after another one).  With linear interpolation the first sample of a new sound is the last one remembered of the sound before: starting to play
does not forget it (src/ResamplingReader.h:580-622). -/
theorem C95_silence_refuted : (do
    let (_, a) := ({ rd := { interp := .linear } } : ArrayReader).playRaw (List.replicate 6 1000) 6 1
    let (_, a) ← a.read Fp.ideal 2 4
    let (ok, a) := a.playRaw (List.replicate 6 0) 6 1
    let (fs, _) ← a.read Fp.ideal 2 4
    return (ok, fs) : TVP.M (Bool × List (List Int))) = .ok (true, [[1000], [0], [0], [0]]) := by decide +kernel

end TVP
