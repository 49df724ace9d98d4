import Verif.Props.Loud
import Verif.Props.FadeStream

/-!
# Property C95 with two heads
-/

namespace TVP
open Spec

variable {fp : Fp} {M : Int}

/-- A loop with a fade of at least one frame whose positions fit into 32 bits, before a fade. -/
structure Spec.BeforeFade (r : Rd) : Prop where
  dual : r.dual = true
  nch : 0 < r.nch
  header0 : 0 ≤ r.header
  start0 : 0 ≤ r.loopStart
  order : r.loopStart ≤ r.loopFinish
  fade1 : 1 ≤ r.cfDur
  fits : r.header + r.nch * (r.loopFinish + r.cfDur) ≤ 2147483647
  flt : IsFloat 53 (-1074) r.rem
  frac : |r.rem| < 1
  off : r.cfOn = false
  weight : 0 ≤ r.crossfade ∧ r.crossfade ≤ 1

theorem Spec.BeforeFade.tame {r : Rd} (hfp : Representable fp) (h0 : 0 ≤ M) (hrem : Remembers M r) (h : BeforeFade r) (hi : r.interp ≠ .quadratic) : Tame fp M r := by
  refine ⟨⟨h0, fun c => ?_, hrem.1, Or.inr ⟨Or.inr h.weight, hi⟩⟩, Or.inr (Or.inr ⟨h.dual, ⟨h.nch, h.header0, h.start0, h.order, h.fade1, h.fits, h.flt, h.frac, fun hc => ?_, fun hc => ?_, h.weight.1, h.weight.2⟩, hfp⟩)⟩
  · have := hrem.2 c
    exact ⟨this _ (by simp), this _ (by simp), this _ (by simp), this _ (by simp)⟩
  · rw [h.off] at hc; cases hc
  · rw [h.off] at hc; cases hc

/-- **C95** (partial), two heads.  A player fades from the end of a loop into its beginning, or to and fro, through an array of samples of at most `M`, with no or linear
interpolation.  Whenever the library asks for sound, events are run and playback is stopped, and, if it goes forwards and not to and fro, whatever positive speeds are set in the
meantime, in a fade or not, no sample sent exceeds `M`.

Missing: a change of direction, which is wrong in a fade (`C34_refuted_flip`), changes of the loop or the length of the fade, and cubic interpolation (`C95_cubic_refuted`). -/
theorem C95_heads_partial (hfp : Representable fp) {fuel : Nat} {b b' : MemPlayer} {data : List Int} (h0 : 0 ≤ M) (hd : AtMost M data) (hsrc : b.rdr.src = some data)
    (hrem : Remembers M b.rdr.rd) (hfade : BeforeFade b.rdr.rd) (hi : b.rdr.rd.interp ≠ .quadratic) {ts : List Call} (hts : KeepsOn ts)
    (hdir : (0 < b.rdr.rd.rate ∧ b.rdr.rd.loopType ≠ .pingpong) ∧ (∀ v, Call.set (.speed v) ∈ ts → 0 < v) ∨ ∀ v, Call.set (.speed v) ∉ ts)
    {fxs : List Fx} (h : memCalls fp fuel b ts = .ok (fxs, b')) : ∀ fx ∈ fxs, NoLouder M fx :=
  memCalls_heads hd ts hts hsrc (hfade.tame hfp h0 hrem hi) (Or.inr (Or.inr hdir)) h

theorem allowed_speeds {fuel : Nat} {ok : Rd → ℚ → Prop} : ∀ (as : List Deed) {a a' : ArrayReader} {fxs : List Fx}, Allowed fp fuel ok a as → a.acts fp fuel as = .ok (fxs, a') →
    ∀ v, Deed.speed v ∈ as → ∃ r, ok r v
  | [], a, a', fxs, _, _, v, hv => (nomatch hv)
  | .tick al :: as, a, a', fxs, hall, h, v, hv => by
    unfold ArrayReader.acts at h
    obtain ⟨⟨fx, b⟩, h1, h⟩ := bind_ok_iff.1 h
    obtain ⟨⟨fxs1, b1⟩, h2, h⟩ := bind_ok_iff.1 h
    refine allowed_speeds as (hall _ _ h1) h2 v ?_
    rcases List.mem_cons.1 hv with hv | hv
    · cases hv
    · exact hv
  | .speed w :: as, a, a', fxs, hall, h, v, hv => by
    unfold ArrayReader.acts at h
    rcases List.mem_cons.1 hv with hv | hv
    · cases hv; exact ⟨_, hall.1⟩
    · exact allowed_speeds as hall.2 h v hv

theorem grid_isFloat {p : Nat} (hp : p ≤ 52) {x : ℚ} (hx : OnGrid p x) (h1 : |x| < 1) : IsFloat 53 (-1074) x := by
  obtain ⟨k, rfl⟩ := hx
  have h2 : (0 : ℚ) < 2 ^ p := by positivity
  refine ⟨k, -(p : Int), ?_, by omega, ?_⟩
  · rw [abs_div, abs_of_pos h2, div_lt_one h2] at h1
    have h3 : |k| < 2 ^ p := by exact_mod_cast h1
    exact (lt_of_lt_of_le h3 (pow_le_pow_right₀ (by norm_num) (by omega)))
  · rw [zpow_neg, zpow_natCast]; rfl

/-- **C95** (partial), two heads and a raw file, wherever `C74_raw_partial` says the file is played as from memory. -/
theorem C95_heads_raw_partial (hfp : Representable fp) (g : Geo) (hB : g.B < 16384) (hNB : g.N * g.B ≤ 2 ^ 30) (hN : 1 ≤ g.N) (a : FileReader) {m : List Nat}
    (hb : IsBytes m) (hm : m.length < 2 ^ 31) (past : Bool) {nch : Nat} (hc : 1 ≤ nch) (hc' : nch ≤ 32767) {p : Nat} {R : Int}
    (hset : FadeSettings a.rd p R) (hhead : a.rd.header = 0) (hloop : GoodFade g m R a.rd.loopStart a.rd.loopFinish a.rd.cfDur 0 nch (firstFrame a.rd))
    (nullOk : Bool) {fuel : Nat} (hf : g.N ≤ fuel + 1) (h0 : 0 ≤ M) (hd : AtMost M (samplesOf m)) (hrem : Remembers M a.rd) :
    ∃ a', a.playRaw g (some ⟨m, 0, past⟩) nch = .ok (true, a') ∧ ∀ as : List Deed, Allowed fp (fuel + 1) (SpeedsOn p R) ⟨a'.rd, some (samplesOf m)⟩ as →
      ∃ fxs a'', a'.acts fp g nullOk (fuel + 1) as = .ok (fxs, a'') ∧ ∀ fx ∈ fxs, NoLouder M fx := by
  obtain ⟨a', k1, -, k2, k3, k4, k5, k6, k7, k8, k9, -, k10, k11, k12⟩ := C74_raw_partial fp g hB hNB hN a hb hm past hc hc' hset hhead hloop nullOk hf
  refine ⟨a', k1, fun as hall => ?_⟩
  have hrd := playRaw_rd hm hc' k1
  have hp : ∀ c, AtMost M [(a'.rd.pts c).y0, (a'.rd.pts c).y1, (a'.rd.pts c).y2, (a'.rd.pts c).y3] := by
    intro c
    have := hrem.2 c
    rw [hrd]
    unfold openedRd Rd.reset beforeRd
    simp only
    split <;> exact this
  have hw : a'.rd.crossfade = 0 := by rw [hrd]; rfl
  have hi : a'.rd.interp ≠ .quadratic := by rw [hrd]; change a.rd.interp ≠ _; rw [hset.interp]; decide
  have hfit : (nch : Int) * (a.rd.loopFinish + a.rd.cfDur) ≤ 2147483647 := by
    have e1 := hloop.file
    have e2 := hloop.long
    have e3 := hloop.A0
    have e4 := hloop.R1
    have e5 := hloop.D1
    have e6 : (nch : Int) * (a.rd.loopFinish + a.rd.cfDur) ≤ nch * (2 * (a.rd.loopFinish + R - 1)) := mul_le_mul_of_nonneg_left (by linarith) (by omega)
    have e7 : (nch : Int) * (2 * (a.rd.loopFinish + R - 1)) = 2 * (0 + (a.rd.loopFinish + R - 1) * nch) := by ring
    rw [e7] at e6
    have e8 : (m.length : Int) < 2 ^ 31 := by exact_mod_cast hm
    norm_num at e8
    linarith
  have hfade : BeforeFade a'.rd := by
    refine ⟨k7, by rw [k2]; omega, k3.ge, by rw [k5]; exact hloop.A0, by rw [k5, k6]; have := hloop.long; have := hloop.D1; have := hloop.R1; linarith,
      by rw [k8]; exact hloop.D1, by rw [k3, k2, k6, k8, zero_add]; exact hfit, ?_, by rw [k11]; exact hset.frac, k9, by rw [hw]; exact ⟨le_rfl, zero_le_one⟩⟩
    rw [k11]
    exact grid_isFloat hset.grid.hp hset.rgrid hset.frac
  obtain ⟨fxs, a'', b'', h1, h2, _⟩ := k12 as hall
  refine ⟨fxs, a'', h1, acts_hushed hd as (a := ⟨a'.rd, some (samplesOf m)⟩) rfl (hfade.tame hfp h0 ⟨by rw [k11]; exact hrem.1, hp⟩ hi) ?_ h2⟩
  refine Or.inr (Or.inr (Or.inl ⟨⟨by change 0 < a'.rd.rate; rw [k10]; exact hset.rate0, by change a'.rd.loopType ≠ _; rw [k4]; decide⟩, fun v hv => ?_⟩))
  obtain ⟨r, hr⟩ := allowed_speeds as hall h2 v hv
  exact hr.1

/-! ## Examples -/

/-- Two heads with linear interpolation in a loop of six samples with a fade of two, at varying speed. -/
def exTwo : MemPlayer := ⟨(({ rd := { dual := true, cfDur := 2, loopType := .repeat, interp := .linear, rate := 1 / 2 } } : ArrayReader).playRaw [10, -20, 30, -40, 50, -60] 6 1).2, none, 0⟩

def exTwoCalls : List Call := [.update fun _ => true, .set (.speed (3 / 4)), .update fun _ => true, .poll, .set (.speed 1), .update fun _ => true]

theorem exTwo_before : BeforeFade exTwo.rdr.rd :=
  have e : exTwo.rdr.rd.rem = 0 := by decide
  ⟨rfl, by decide, by decide, by decide, by decide, by decide, by decide, ⟨0, 0, by norm_num, by norm_num, by rw [e]; norm_num⟩, by rw [e]; norm_num, rfl, le_refl _, zero_le_one⟩

theorem exTwo_ok : (memCalls Fp.ieee 3 exTwo exTwoCalls).toOption.isSome = true := by decide +kernel

example : ∃ fxs b', memCalls Fp.ieee 3 exTwo exTwoCalls = .ok (fxs, b') ∧ ∀ fx ∈ fxs, NoLouder 60 fx := by
  have h := exTwo_ok
  cases e : memCalls Fp.ieee 3 exTwo exTwoCalls with
  | error f => rw [e] at h; cases h
  | ok x =>
    have hp : exTwo.rdr.rd.pts = fun _ => {} := by
      unfold exTwo ArrayReader.playRaw Rd.reset Rd.setNumChannels
      funext c
      simp only
      split <;> split <;> rfl
    refine ⟨x.1, x.2, rfl, C95_heads_partial ieee_representable (by norm_num) (by unfold AtMost InI16; decide) rfl (new_remembers (by norm_num) hp (by decide)) exTwo_before (by decide)
      ?_ (Or.inl ⟨⟨by decide +kernel, by decide⟩, fun v hv => ?_⟩) e⟩
    · intro s hs
      simp only [exTwoCalls, List.mem_cons, Call.set.injEq, List.not_mem_nil, or_false, reduceCtorEq, false_or] at hs
      rcases hs with rfl | rfl
      · exact Or.inr (Or.inr ⟨_, rfl⟩)
      · exact Or.inr (Or.inr ⟨_, rfl⟩)
    · simp only [exTwoCalls, List.mem_cons, Call.set.injEq, Setting.speed.injEq, List.not_mem_nil, or_false, reduceCtorEq, false_or] at hv
      rcases hv with rfl | rfl <;> norm_num

/-- A loop of a hundred frames in a file of 40000 bytes, half of which is faded. -/
example : ∃ a', (exFadeRepeat 603 50 500).playRaw sdGeo (some ⟨List.replicate 40000 5, 0, false⟩) (1 : Nat) = .ok (true, a') ∧
    ∀ as : List Deed, Allowed Fp.ieee (6 + 1) (SpeedsOn 4 2) ⟨a'.rd, some (samplesOf (List.replicate 40000 5))⟩ as →
      ∃ fxs a'', a'.acts Fp.ieee sdGeo true (6 + 1) as = .ok (fxs, a'') ∧ ∀ fx ∈ fxs, NoLouder 1285 fx := by
  refine C95_heads_raw_partial ieee_representable sdGeo (by decide) (by decide) (by decide) (exFadeRepeat 603 50 500)
    (m := List.replicate 40000 5) (by intro b hb; rw [(List.mem_replicate.1 hb).2]; decide)
    (by rw [List.length_replicate]; decide) false (nch := 1) (by decide) (by decide) (exFadeRepeat_settings 603 50 500) rfl
    ⟨by decide, by decide, by decide, by decide, by rw [List.length_replicate]; decide, by decide, by decide,
      Or.inr ⟨by decide, by rw [List.length_replicate]; decide, by decide, by decide⟩⟩ true (fuel := 6) (by decide) (by norm_num) ?_ (new_remembers (by norm_num) rfl rfl)
  intro v hv
  unfold samplesOf at hv
  obtain ⟨j, hj, rfl⟩ := List.mem_map.1 hv
  rw [List.mem_range, List.length_replicate] at hj
  have e : slice (List.replicate 40000 5) (2 * j) 2 = [5, 5] := by
    unfold slice
    rw [List.drop_replicate, List.take_replicate, Nat.min_eq_left (by omega)]
    rfl
  have : fileSample (List.replicate 40000 5) j = 1285 := by
    unfold fileSample
    rw [e]
    decide
  rw [this]
  exact ⟨by unfold InI16; omega, by norm_num⟩

end TVP
