import Verif.Spec.Faulty
import Verif.Lemmas.Late

/-!
# Reads that fail
-/

namespace TVP
open Spec

variable {m : List Nat} {g : Geo} {fp : Fp}

/-! ## Nothing fails: the functions of the other files -/

theorem preLoadLoopF_nil (g : Geo) (nv : Nat) (fw : Bool) : ∀ (left bufn : Nat) (c : Cache) (i : Int),
    preLoadLoopF g nv fw left bufn c i [] = (preLoadLoop g nv fw left bufn c i, [])
  | 0, _, _, _ => rfl
  | left + 1, bufn, c, i => by
    unfold preLoadLoopF preLoadLoop
    dsimp only
    generalize (if bufn ≥ nv then c.bufs ++ [{ addr := bufn, index := 0, size := 0, status := .constructed, data := g.junk bufn }] else c.bufs) = bufs
    cases bufs[bufn]? with
    | none => rfl
    | some buf =>
      dsimp only
      rw [show loadBufferF g c.dev buf i (([] : List ReadResult).headD .all) = loadBuffer g c.dev buf i from rfl]
      by_cases hlt : (loadBuffer g c.dev buf i).2.2 < g.B
      · rw [if_pos hlt, if_pos hlt]; rfl
      · rw [if_neg hlt, if_neg hlt]; exact preLoadLoopF_nil g nv fw left _ _ _

theorem preLoadF_nil (g : Geo) (c : Cache) (i : Int) (fw : Bool) : c.preLoadF g i fw [] = (c.preLoad g i fw, []) := preLoadLoopF_nil _ _ _ _ _ _ _

theorem reloadLoadF_nil (g : Geo) (c : Cache) (b : Buf) (rest : List Buf) (i : Option Int) : reloadLoadF g c b rest i [] = (reloadLoad g c b rest i, []) := by
  cases i <;> rfl

theorem reloadLoopF_nil (g : Geo) (rate : ℚ) : ∀ (fuel : Nat) (c : Cache), reloadLoopF g rate fuel c [] = (reloadLoop g rate fuel c).map (·, [])
  | 0, c => by
    unfold reloadLoopF reloadLoop
    cases c.bufs with
    | nil => rfl
    | cons b rest => simp only; split <;> rfl
  | fuel + 1, c => by
    unfold reloadLoopF reloadLoop
    cases c.bufs with
    | nil => rfl
    | cons b rest =>
      simp only
      split
      · cases reloadDecide g c rate b with
        | error e => rfl
        | ok x =>
          simp only [ok_bind, reloadLoadF_nil]
          split
          · rfl
          · exact reloadLoopF_nil g rate fuel _
      · rfl

theorem triggerReloadF_nil (g : Geo) (fuel : Nat) (c : Cache) (rate : ℚ) : c.triggerReloadF g fuel rate [] = (c.triggerReload g fuel rate).map (·, []) := by
  unfold Cache.triggerReloadF Cache.triggerReload
  rw [reloadLoopF_nil]
  cases reloadLoop g (reloadRate c rate) fuel c <;> rfl

theorem runEventF_nil (fp : Fp) (g : Geo) (fuel : Nat) (p : FilePlayer) : p.runEventF fp g fuel [] = (p.runEvent fp g fuel).map (·, []) := by
  unfold FilePlayer.runEventF FilePlayer.runEvent
  match p.pending with
  | none => rfl
  | some .close => rfl
  | some .reload =>
    simp only [FileReader.serviceF, FileReader.service, FileReader.triggerReload]
    match p.rdr.src with
    | none => rfl
    | some c =>
      simp only
      rw [triggerReloadF_nil]
      cases c.triggerReload g fuel (fp.f.rnd p.rdr.rd.rate) <;> rfl

theorem fileTurnsF_nil (fp : Fp) (g : Geo) (nullOk : Bool) (fuel : Nat) : ∀ (ts : List Turn) (p : FilePlayer),
    fileTurnsF fp g nullOk fuel p [] ts = (fileTurns fp g nullOk fuel p ts).map fun x => (x.1, x.2, [])
  | [], _ => rfl
  | .update al :: ts, p => by
    rw [fileTurnsF, fileTurns]
    cases p.update fp g nullOk fuel al with
    | error e => rfl
    | ok x =>
      simp only [ok_bind]
      rw [fileTurnsF_nil fp g nullOk fuel ts]
      cases fileTurns fp g nullOk fuel x.2 ts <;> rfl
  | .poll :: ts, p => by
    rw [fileTurnsF, fileTurns, runEventF_nil]
    cases p.runEvent fp g fuel with
    | error e => rfl
    | ok x => exact fileTurnsF_nil fp g nullOk fuel ts x
  | .speed v :: ts, p => by
    rw [fileTurnsF, fileTurns]
    exact fileTurnsF_nil fp g nullOk fuel ts _

/-! ## What the buffers hold -/

theorem allOrNothing_tail {rs : List ReadResult} (h : AllOrNothing rs) : AllOrNothing rs.tail := fun n hn => h n (List.mem_of_mem_tail hn)

theorem allOrNothing_head {rs : List ReadResult} (h : AllOrNothing rs) {n : Nat} (hn : rs.headD .all = .short n) : n = 0 := by
  cases rs with
  | nil => cases hn
  | cons r rs => exact h n (by rw [← hn]; exact List.mem_cons_self)

theorem loadBufferF_bytes (g : Geo) (d : Dev) (b : Buf) (i : Int) (r : ReadResult) : (loadBufferF g d b i r).2.1.bytes = d.bytes := by
  cases r with
  | all => exact loadBuffer_bytes g d b i
  | short n => unfold loadBufferF Dev.read; simp [Dev.seek_bytes]
  | error l c => rfl

theorem loadBufferF_index (g : Geo) (d : Dev) (b : Buf) (i : Int) (r : ReadResult) : (loadBufferF g d b i r).1.index = u32 (i / g.B) := by cases r <;> rfl
theorem loadBufferF_status (g : Geo) (d : Dev) (b : Buf) (i : Int) (r : ReadResult) : (loadBufferF g d b i r).1.status = .loaded := by cases r <;> rfl

theorem loadBufferF_ok {d : Dev} {b : Buf} {i : Int} {r : ReadResult} (hr : ∀ n, r = .short n → n = 0) (hd : d.bytes = m) (hm : m.length < 4294967296)
    (hi : InI32 i) : BufOk m g (loadBufferF g d b i r).1 := by
  cases r with
  | all => exact loadBuffer_ok hd hm hi
  | short n =>
    obtain rfl := hr n rfl
    refine ⟨(u32_in _).1, fun h => ?_⟩
    simp [loadBufferF, Dev.read, i16] at h
  | error l c => exact ⟨(u32_in _).1, fun h => by simp only [loadBufferF] at h; omega⟩

theorem preLoadLoopF_ok (hm : m.length < 4294967296) (nv : Nat) (fw : Bool) :
    ∀ (left bufn : Nat) (c : Cache) (i : Int) (rs : List ReadResult), CacheOk m g c → InI32 i → AllOrNothing rs →
      CacheOk m g (preLoadLoopF g nv fw left bufn c i rs).1 ∧ AllOrNothing (preLoadLoopF g nv fw left bufn c i rs).2 := by
  intro left
  induction left with
  | zero => intro bufn c i rs h _ hrs; exact ⟨h, hrs⟩
  | succ left ih =>
    intro bufn c i rs h hi hrs
    unfold preLoadLoopF
    simp only
    split
    · exact ⟨h, hrs⟩
    · rename_i buf hb
      have key : CacheOk m g { c with bufs := ((if bufn ≥ nv then c.bufs ++ [{ addr := bufn, index := 0, size := 0, status := .constructed, data := g.junk bufn }] else c.bufs)).set bufn (loadBufferF g c.dev buf i (rs.headD .all)).1, dev := (loadBufferF g c.dev buf i (rs.headD .all)).2.1 } := by
        refine ⟨by rw [loadBufferF_bytes]; exact h.dev, ?_⟩
        intro b hb'
        rcases List.mem_or_eq_of_mem_set hb' with h1 | h1
        · by_cases hge : bufn ≥ nv
          · simp only [hge, if_true] at h1 hb hb'
            rcases List.mem_append.1 h1 with h2 | h2
            · exact h.bufs b h2
            · rw [List.mem_singleton] at h2
              subst h2
              exact ⟨le_refl _, fun h => absurd h (lt_irrefl _)⟩
          · rw [if_neg hge] at h1; exact h.bufs b h1
        · rw [h1]; exact loadBufferF_ok (fun n hn => allOrNothing_head hrs hn) h.dev hm hi
      split
      · exact ⟨key, (allOrNothing_tail hrs)⟩
      · exact ih _ _ _ _ key (i32_in _) (allOrNothing_tail hrs)

theorem reloadLoadF_ok {c : Cache} {b : Buf} {rest : List Buf} {i : Option Int} {rs : List ReadResult} (hm : m.length < 4294967296)
    (hc : c.bufs = b :: rest) (h : CacheOk m g c) (hi : ∀ x, i = some x → InI32 x) (hrs : AllOrNothing rs) :
    CacheOk m g (reloadLoadF g c b rest i rs).1 ∧ AllOrNothing (reloadLoadF g c b rest i rs).2 := by
  unfold reloadLoadF
  cases i with
  | none => exact ⟨h, hrs⟩
  | some i =>
    refine ⟨⟨by simp only [loadBufferF_bytes]; exact h.dev, ?_⟩, (allOrNothing_tail hrs)⟩
    intro x hx
    rcases List.mem_cons.1 hx with rfl | hx
    · exact loadBufferF_ok (fun n hn => allOrNothing_head hrs hn) h.dev hm (hi _ rfl)
    · exact h.bufs x (by rw [hc]; exact List.mem_cons_of_mem _ hx)

theorem reloadLoopF_ok (hm : m.length < 4294967296) (rate : ℚ) :
    ∀ (fuel : Nat) (c : Cache) (rs : List ReadResult) (x : Cache × List ReadResult), CacheOk m g c → AllOrNothing rs → reloadLoopF g rate fuel c rs = .ok x →
      CacheOk m g x.1 ∧ AllOrNothing x.2 := by
  intro fuel
  induction fuel with
  | zero =>
    intro c rs x h hrs e
    unfold reloadLoopF at e
    split at e
    · cases e; exact ⟨h, hrs⟩
    · split at e
      · cases e
      · cases e; exact ⟨h, hrs⟩
  | succ fuel ih =>
    intro c rs x h hrs e
    unfold reloadLoopF at e
    split at e
    · cases e; exact ⟨h, hrs⟩
    · rename_i b rest hc
      split at e
      · obtain ⟨⟨load, act⟩, hd, e⟩ := bind_ok_iff'.1 e
        simp only at e
        obtain ⟨h1, hrs1⟩ := reloadLoadF_ok (g := g) (i := load) hm hc h (fun x hx => by subst hx; exact (reloadDecide_in hd).1) hrs
        have h2 : CacheOk m g (reloadReorder (reloadLoadF g c b rest load rs).1 act) :=
          ⟨by rw [reloadReorder_dev]; exact h1.dev, fun x hx => h1.bufs x ((reloadReorder_perm _ _).mem_iff.1 hx)⟩
        split at e
        · injection e with e; rw [← e]; exact ⟨h2, hrs1⟩
        · exact ih _ _ _ h2 hrs1 e
      · cases e; exact ⟨h, hrs⟩

theorem triggerReloadF_ok {c : Cache} {rs : List ReadResult} {x : Cache × List ReadResult} (hm : m.length < 4294967296) (h : CacheOk m g c) (hrs : AllOrNothing rs)
    {fuel : Nat} {rate : ℚ} (e : c.triggerReloadF g fuel rate rs = .ok x) : CacheOk m g x.1 ∧ AllOrNothing x.2 := by
  unfold Cache.triggerReloadF at e
  obtain ⟨y, hy, e⟩ := bind_ok_iff'.1 e
  obtain ⟨k1, k2⟩ := reloadLoopF_ok hm _ _ _ _ _ h hrs hy
  have k3 : CacheOk m g y.1.resetStatus := ⟨k1.dev, bufsOk_core k1.bufs (resetStatus_core _)⟩
  injection e with e
  rw [← e]
  refine ⟨?_, k2⟩
  simp only
  split
  · exact ⟨k3.dev, k3.bufs⟩
  · exact k3

/-! ## Forward reloads come to an end -/

/-- The number of buffers to load. -/
def unusedIn (bs : List Buf) : Nat := (bs.filter fun b => b.status = .unused).length

theorem unusedIn_le (bs : List Buf) : unusedIn bs ≤ bs.length := List.length_filter_le _ _

theorem reloadDecide_fwd {c : Cache} {rate : ℚ} (hl : c.loopType = .none) (hr : 0 ≤ rate) (b : Buf) :
    reloadDecide g c rate b = .ok (some (i32 (i32 (maxIndex b c.bufs + 1) * g.B)), .move) := by
  unfold reloadDecide
  rw [if_pos hr, hl]
  rfl

/-- One iteration. -/
theorem reloadLoopF_succ {c : Cache} {b : Buf} {rest : List Buf} {rate : ℚ} (hl : c.loopType = .none) (hr : 0 ≤ rate) (hc : c.bufs = b :: rest) (hs : b.status = .unused)
    (fuel : Nat) (rs : List ReadResult) :
    reloadLoopF g rate (fuel + 1) c rs =
      reloadLoopF g rate fuel { c with bufs := rest ++ [(loadBufferF g c.dev b (i32 (i32 (maxIndex b c.bufs + 1) * g.B)) (rs.headD .all)).1], dev := (loadBufferF g c.dev b (i32 (i32 (maxIndex b c.bufs + 1) * g.B)) (rs.headD .all)).2.1 } rs.tail := by
  rw [reloadLoopF]
  split
  · rename_i h; rw [hc] at h; cases h
  · rename_i b' rest' h
    rw [hc] at h
    cases h
    rw [if_pos hs, reloadDecide_fwd hl hr]
    simp only [ok_bind, reloadLoadF, reloadReorder]
    rw [if_neg (by decide)]
    rfl

theorem reloadLoopF_done {c : Cache} {rate : ℚ} (fuel : Nat) (rs : List ReadResult) (h : ∀ b rest, c.bufs = b :: rest → b.status ≠ .unused) :
    reloadLoopF g rate fuel c rs = .ok (c, rs) := by
  cases fuel with
  | zero =>
    unfold reloadLoopF
    split
    · rfl
    · rename_i b rest hc; rw [if_neg (h b rest hc)]
  | succ fuel =>
    unfold reloadLoopF
    split
    · rfl
    · rename_i b rest hc; rw [if_neg (h b rest hc)]

theorem reloadLoopF_ends {rate : ℚ} (hr : 0 ≤ rate) : ∀ (fuel : Nat) (c : Cache) (rs : List ReadResult), c.loopType = .none → unusedIn c.bufs ≤ fuel →
    ∃ x, reloadLoopF g rate fuel c rs = .ok x ∧ x.1.loopType = .none ∧ x.1.bufs.length = c.bufs.length := by
  intro fuel
  induction fuel with
  | zero =>
    intro c rs hl hu
    refine ⟨(c, rs), reloadLoopF_done 0 rs fun b rest hc hs => ?_, hl, rfl⟩
    rw [hc] at hu
    unfold unusedIn at hu
    rw [List.filter_cons_of_pos (by simpa using hs)] at hu
    simp at hu
  | succ fuel ih =>
    intro c rs hl hu
    rcases hc : c.bufs with _ | ⟨b, rest⟩
    · exact ⟨(c, rs), reloadLoopF_done _ rs (fun b rest h => by rw [hc] at h; cases h), hl, by rw [hc]⟩
    · by_cases hs : b.status = .unused
      · rw [reloadLoopF_succ hl hr hc hs]
        obtain ⟨x, e1, e2, e3⟩ := ih { c with bufs := rest ++ [(loadBufferF g c.dev b (i32 (i32 (maxIndex b c.bufs + 1) * g.B)) (rs.headD .all)).1], dev := (loadBufferF g c.dev b (i32 (i32 (maxIndex b c.bufs + 1) * g.B)) (rs.headD .all)).2.1 } rs.tail hl (by
            rw [hc] at hu
            unfold unusedIn at hu ⊢
            rw [List.filter_cons_of_pos (by simpa using hs)] at hu
            rw [List.filter_append, List.filter_cons_of_neg (by rw [loadBufferF_status]; decide)]
            simp only [List.length_cons, List.filter_nil, List.append_nil] at hu ⊢
            omega)
        exact ⟨x, e1, e2, by rw [e3]; simp⟩
      · exact ⟨(c, rs), reloadLoopF_done _ rs (fun b' rest' h => by rw [hc] at h; cases h; exact hs), hl, by rw [hc]⟩

theorem triggerReloadF_ends {c : Cache} {rate : ℚ} (hr : 0 ≤ rate) (hl : c.loopType = .none) {fuel : Nat} (hf : c.bufs.length ≤ fuel) (rs : List ReadResult) :
    ∃ x, c.triggerReloadF g fuel rate rs = .ok x ∧ x.1.loopType = .none ∧ x.1.bufs.length = c.bufs.length := by
  have hrr : reloadRate c rate = rate := by unfold reloadRate; rw [hl]; rw [if_neg (fun h => nomatch h.1)]
  obtain ⟨x, e1, e2, e3⟩ := reloadLoopF_ends (g := g) hr fuel c rs hl (le_trans (unusedIn_le _) hf)
  unfold Cache.triggerReloadF
  rw [hrr, e1]
  have k3 : x.1.resetStatus.bufs.length = c.bufs.length := by unfold Cache.resetStatus; simp only [List.length_map]; exact e3
  by_cases h0 : x.1.resetStatus.prevRate = 0
  · refine ⟨({ x.1.resetStatus with prevRate := rate }, x.2), ?_, e2, k3⟩
    simp only [ok_bind, if_pos h0]; rfl
  · refine ⟨(x.1.resetStatus, x.2), ?_, e2, k3⟩
    simp only [ok_bind, if_neg h0]; rfl

/-! ## Gaps -/

theorem FileReader.read_trace {r : Rd} {c : Cache} (hp : r.playing = true) (hpl : Plain r) (hl : r.loopType = .none)
    {ps : List Int} {r' : Rd} (hps : posTrace fp blockSamples r = .ok (ps, r')) {E : Int} (hE : E ≤ 2147483647) (hpos : 0 ≤ r.pos1)
    (hpsm : ∀ p ∈ ps, r.pos1 ≤ p ∧ p + r.nch ≤ E) (nullOk : Bool) {fuel : Nat} {alloc : Nat → Bool}
    (hal : ((List.range r.nch.toNat).filter alloc).length = (List.range r.nch.toNat).length) :
    FileReader.update fp g nullOk (fuel + 1) ⟨r, some c⟩ alloc =
      .ok (fxOf r.nch (ps.map (frameAt (fun i => (c.get g i).1) r.nch)) alloc, ⟨r', some (c.gets g (framesIdx r.nch ps)).2⟩) := by
  have hn := hpl.nch
  have hbd : ∀ p ∈ ps, InI32 p ∧ ∀ c : Nat, (c : Int) < r.nch → InI32 (p + c) := by
    intro p hp
    obtain ⟨e1, e3⟩ := hpsm p hp
    exact ⟨⟨by omega, by omega⟩, fun c hc => ⟨by omega, by omega⟩⟩
  have hread : ∀ {σ : Type} (S : Src σ) (s : σ), r.read fp S (fuel + 1) s blockSamples =
      srcFrames S r.nch s ps >>= fun x => .ok ⟨x.1, [], r', x.2⟩ := by
    intro σ S s
    unfold Rd.read
    rw [hp, if_neg (by decide), if_neg (by omega), if_neg (by omega)]
    exact readLoop_posTrace fp S fuel _ r r' ps s hpl hl hps hbd
  unfold FileReader.update
  simp only
  rw [hp, update_on hn _ _ _ hal]
  unfold FileReader.read
  simp only
  rw [hread, srcFrames_file]
  simp only [ok_bind, pure_eq_ok]

theorem forall₂_map_of {α β : Type} {R : β → β → Prop} {f f' : α → β} : ∀ {l : List α}, (∀ x ∈ l, R (f x) (f' x)) → List.Forall₂ R (l.map f) (l.map f')
  | [], _ => .nil
  | _ :: _, h => .cons (h _ List.mem_cons_self) (forall₂_map_of fun x hx => h x (List.mem_cons_of_mem _ hx))

theorem forall₂_self {α : Type} {R : α → α → Prop} (hR : ∀ x, R x x) : ∀ l : List α, List.Forall₂ R l l
  | [] => .nil
  | _ :: l => .cons (hR _) (forall₂_self hR l)

theorem blockOf_gaps {ps : List Int} {nch : Int} {v v' : Int → Int} (h : ∀ p ∈ ps, ∀ k : Nat, (k : Int) < nch → v (p + k) = v' (p + k) ∨ v (p + k) = 0) (ch : Nat) :
    List.Forall₂ (fun s s' : Int => s = s' ∨ s = 0) (blockOf (ps.map (frameAt v nch)) ch) (blockOf (ps.map (frameAt v' nch)) ch) := by
  unfold blockOf
  simp only [List.map_map, List.length_map]
  refine List.rel_append (forall₂_map_of fun p hp => ?_) (forall₂_self (R := fun s s' : Int => s = s' ∨ s = 0) (fun _ => Or.inl rfl) _)
  simp only [Function.comp]
  unfold frameAt
  by_cases hch : ch < nch.toNat
  · simp only [List.getD_eq_getElem?_getD, List.getElem?_map, List.getElem?_range hch, Option.map_some, Option.getD_some]
    exact h p hp ch (by omega)
  · simp only [List.getD_eq_getElem?_getD, List.getElem?_map]
    rw [List.getElem?_eq_none (by simp; omega)]
    exact Or.inl rfl

theorem fxOf_gaps {ps : List Int} {nch : Int} {v v' : Int → Int} (h : ∀ p ∈ ps, ∀ k : Nat, (k : Int) < nch → v (p + k) = v' (p + k) ∨ v (p + k) = 0) (alloc : Nat → Bool) :
    WithGaps (fxOf nch (ps.map (frameAt v nch)) alloc) (fxOf nch (ps.map (frameAt v' nch)) alloc) := by
  refine ⟨rfl, rfl, by unfold fxOf; simp only [List.length_map], ?_⟩
  unfold fxOf
  simp only
  refine List.rel_append (forall₂_map_of fun ch _ => ⟨rfl, blockOf_gaps h ch⟩) ?_
  split
  · exact .cons ⟨rfl, blockOf_gaps h 0⟩ .nil
  · exact .nil

theorem WithGaps.refl (fx : Fx) : WithGaps fx fx := ⟨rfl, rfl, rfl, forall₂_self (fun _ => ⟨rfl, forall₂_self (R := fun s s' : Int => s = s' ∨ s = 0) (fun _ => Or.inl rfl) _⟩) _⟩

/-- A file player, some of whose reads failed, and one with the file in memory, in the same state. -/
structure Gappy (m : List Nat) (g : Geo) (St : Rd → Prop) (p : FilePlayer) (b : MemPlayer) : Prop where
  rd : b.rdr.rd = p.rdr.rd
  src : b.rdr.src = some (samplesOf m)
  nch : 0 < p.rdr.rd.nch
  pend : b.pending = p.pending
  idle : p.rdr.rd.playing = false → p.pending = none
  live : p.rdr.rd.playing = true → St p.rdr.rd ∧ ∃ c, p.rdr.src = some c ∧ CacheOk m g c ∧ c.loopType = .none ∧ c.bufs.length ≤ g.N

variable {St : Rd → Prop}

theorem Gappy.update (hb : IsBytes m) (hm : m.length < 4294967296) {D E : Int} (hE : 2 * E ≤ m.length) (hSt : Glides fp St D E)
    (nullOk : Bool) {fuel : Nat} {p : FilePlayer} {b : MemPlayer} (h : Gappy m g St p b) (alloc : Nat → Bool) :
    ∃ fx fx' p' b', p.update fp g nullOk (fuel + 1) alloc = .ok (fx, p') ∧ b.update fp (fuel + 1) alloc = .ok (fx', b') ∧ WithGaps fx fx' ∧ Gappy m g St p' b' := by
  obtain ⟨⟨r, src⟩, pend⟩ := p
  obtain ⟨⟨r2, src2⟩, pend2, served⟩ := b
  obtain ⟨h1, h2, hn, h3, hidle, hlive⟩ := h
  simp only at h1 h2 h3 hn hidle hlive
  subst h1 h2 h3
  unfold FilePlayer.update MemPlayer.update
  simp only
  cases hp : r2.playing with
  | false =>
    have e1 : FileReader.update fp g nullOk (fuel + 1) ⟨r2, src⟩ alloc = .ok ({}, ⟨r2, src⟩) := by
      unfold FileReader.update; simp only; rw [hp, update_off hn]
    have e2 : ∀ d, ArrayReader.update fp (fuel + 1) ⟨r2, some d⟩ alloc = .ok ({}, ⟨r2, some d⟩) := by
      intro d; unfold ArrayReader.update; simp only; rw [hp, update_off hn]
    rw [e1, e2]
    simp only [ok_bind]
    exact ⟨{}, {}, ⟨⟨r2, src⟩, pend2⟩, ⟨⟨r2, some (samplesOf m)⟩, pend2, served⟩, rfl, rfl, WithGaps.refl _, rfl, rfl, hn, rfl, hidle, hlive⟩
  | true =>
    by_cases ha : ((List.range r2.nch.toNat).filter alloc).length = (List.range r2.nch.toNat).length
    · obtain ⟨hst, c, hc, hok, hlt, hlen⟩ := hlive hp
      subst hc
      obtain ⟨hpl, hl, hrate, hpos, ps, r', hps, hst', hconf, hle, hleD, hps0, hpsm⟩ := hSt r2 hst
      have hpsm' : ∀ p ∈ ps, r2.pos1 ≤ p ∧ p + r2.nch ≤ E := fun p hp => ⟨(hpsm p hp).1, (hpsm p hp).2.2⟩
      rw [FileReader.read_trace hp hpl hl hps (E := E) (by omega) hpos hpsm' nullOk ha,
        array_update hp hpl hl hpos hps (d := samplesOf m) (E := E) (by unfold samplesOf; rw [List.length_map, List.length_range]; omega) (by omega) hpsm' ha]
      obtain ⟨fx, hfx⟩ : ∃ fx, fx = fxOf r2.nch (ps.map (frameAt (fun i => (c.get g i).1) r2.nch)) alloc := ⟨_, rfl⟩
      obtain ⟨fx', hfx'⟩ : ∃ fx, fx = fxOf r2.nch (ps.map (frameAt (fun i => (samplesOf m).getD i.toNat 0) r2.nch)) alloc := ⟨_, rfl⟩
      have hgap : WithGaps fx fx' := by
        rw [hfx, hfx']
        refine fxOf_gaps (fun p hp k hk => ?_) alloc
        obtain ⟨e1, e2⟩ := hpsm' p hp
        rw [samplesOf_at (by omega) (show p + (k : Int) < E by omega) hE]
        have hsv := hok.serves hb hm (i := p + k) ⟨by omega, by omega⟩
        by_cases hbuf : Buffered g c (p + k)
        · exact Or.inl (hsv.1 hbuf).1
        · exact Or.inr (hsv.2 hbuf).1
      obtain ⟨e, he⟩ : ∃ e, fx.event = some e := ⟨_, by rw [hfx]; rfl⟩
      have he' : fx'.event = some e := by rw [← hgap.2.2.1, he]
      rw [← hfx, ← hfx']
      simp only [ok_bind, he, he']
      obtain ⟨_, hsame, _⟩ := C15_read_only g (framesIdx r2.nch ps) c
      obtain ⟨s1, s2, _, s4, _⟩ := hsame
      refine ⟨fx, fx', _, _, rfl, rfl, hgap, rfl, rfl, by simp only; rw [hconf.nch]; exact hn, rfl, fun h => ?_, fun _ => ⟨hst', _, rfl, ⟨by rw [s1]; exact hok.dev, bufsOk_core hok.bufs s2⟩, by rw [s4]; exact hlt, ?_⟩⟩
      · simp only at h; rw [hconf.playing, hp] at h; cases h
      · have := congrArg List.length s2
        simp only [List.length_map] at this
        rw [this]; exact hlen
    · have e1 : FileReader.update fp g nullOk (fuel + 1) ⟨r2, src⟩ alloc = .ok ({ allocated := (List.range r2.nch.toNat).filter alloc, released := (List.range r2.nch.toNat).filter alloc }, ⟨r2, src⟩) := by
        unfold FileReader.update; simp only; rw [hp, update_short hn _ _ _ ha]
      have e2 : ∀ d, ArrayReader.update fp (fuel + 1) ⟨r2, some d⟩ alloc =
          .ok ({ allocated := (List.range r2.nch.toNat).filter alloc, released := (List.range r2.nch.toNat).filter alloc }, ⟨r2, some d⟩) := by
        intro d; unfold ArrayReader.update; simp only; rw [hp, update_short hn _ _ _ ha]
      rw [e1, e2]
      simp only [ok_bind]
      exact ⟨_, _, ⟨⟨r2, src⟩, pend2⟩, ⟨⟨r2, some (samplesOf m)⟩, pend2, served⟩, rfl, rfl, WithGaps.refl _, rfl, rfl, hn, rfl, hidle, hlive⟩

theorem Gappy.poll (hm : m.length < 4294967296) {D E : Int} (hSt : Glides fp St D E) {fuel : Nat} (hf : g.N ≤ fuel) {p : FilePlayer} {b : MemPlayer} (h : Gappy m g St p b)
    {rs : List ReadResult} (hrs : AllOrNothing rs) : ∃ p' rs', p.runEventF fp g fuel rs = .ok (p', rs') ∧ AllOrNothing rs' ∧ Gappy m g St p' b.runEvent := by
  obtain ⟨⟨r, src⟩, pend⟩ := p
  obtain ⟨⟨r2, src2⟩, pend2, served⟩ := b
  obtain ⟨h1, h2, hn, h3, hidle, hlive⟩ := h
  simp only at h1 h2 h3 hn hidle hlive
  subst h1 h2 h3
  unfold FilePlayer.runEventF MemPlayer.runEvent
  match pend2 with
  | none => exact ⟨_, _, rfl, hrs, rfl, rfl, hn, rfl, hidle, hlive⟩
  | some .close =>
    simp only
    refine ⟨_, _, rfl, hrs, rfl, rfl, hn, rfl, fun _ => rfl, fun h => ?_⟩
    simp only [FileReader.close, Rd.stop] at h; cases h
  | some .reload =>
    have hp : r2.playing = true := by
      cases hp : r2.playing with
      | true => rfl
      | false => have := hidle hp; cases this
    obtain ⟨hst, c, hc, hok, hlt, hlen⟩ := hlive hp
    subst hc
    simp only [FileReader.serviceF]
    obtain ⟨x, e1, e2, e3⟩ := triggerReloadF_ends (g := g) (c := c) (rate := fp.f.rnd r2.rate) (fp.f.nonneg (hSt r2 hst).2.2.1) hlt (le_trans hlen hf) rs
    obtain ⟨k1, k2⟩ := triggerReloadF_ok hm hok hrs e1
    rw [e1]
    exact ⟨_, _, rfl, k2, rfl, rfl, hn, rfl, fun h => rfl, fun _ => ⟨hst, x.1, rfl, k1, e2, by rw [e3]; exact hlen⟩⟩

theorem Gappy.speed {p : FilePlayer} {b : MemPlayer} (h : Gappy m g St p b) {v : ℚ} (hs : ∀ r, St r → Inside r v ∧ St { r with rate := v }) :
    Gappy m g St { p with rdr := { p.rdr with rd := p.rdr.rd.setPlaybackRate v } } { b with rdr := { b.rdr with rd := b.rdr.rd.setPlaybackRate v } } := by
  obtain ⟨k1, k2⟩ := setPlaybackRate_keeps p.rdr.rd v
  refine ⟨by simp only; rw [h.rd], h.src, by simp only; rw [k2]; exact h.nch, h.pend, fun hp => h.idle (by simp only at hp; rw [← k1]; exact hp), fun hp => ?_⟩
  simp only at hp ⊢
  rw [k1] at hp
  obtain ⟨hst, rest⟩ := h.live hp
  obtain ⟨i1, i2⟩ := hs _ hst
  rw [i1.only_rate]
  exact ⟨i2, rest⟩

theorem Gappy.turns (hb : IsBytes m) (hm : m.length < 4294967296) {D E R : Int} (hE : 2 * E ≤ m.length) (hSt : Glides fp St D E)
    (hs : ∀ (r : Rd) (v : ℚ), 0 ≤ v → v ≤ R → St r → Inside r v ∧ St { r with rate := v }) (nullOk : Bool) {fuel : Nat} (hf : g.N ≤ fuel + 1) :
    ∀ (ts : List Turn) (p : FilePlayer) (b : MemPlayer) (rs : List ReadResult), Speeds R ts → AllOrNothing rs → Gappy m g St p b →
    ∃ fxs fxs' p' rs' b', fileTurnsF fp g nullOk (fuel + 1) p rs ts = .ok (fxs, p', rs') ∧ memTurns fp (fuel + 1) b ts = .ok (fxs', b') ∧
      List.Forall₂ WithGaps fxs fxs' ∧ Gappy m g St p' b'
  | [], p, b, rs, _, _, h => ⟨[], [], p, rs, b, rfl, rfl, .nil, h⟩
  | .update al :: ts, p, b, rs, hv, hrs, h => by
    obtain ⟨fx, fx', p1, b1, e1, e2, e3, e4⟩ := h.update hb hm hE hSt nullOk (fuel := fuel) al
    obtain ⟨fxs, fxs', p2, rs2, b2, k1, k2, k3, k4⟩ := Gappy.turns hb hm hE hSt hs nullOk hf ts p1 b1 rs (fun v h => hv v (List.mem_cons_of_mem _ h)) hrs e4
    refine ⟨fx :: fxs, fx' :: fxs', p2, rs2, b2, ?_, ?_, .cons e3 k3, k4⟩
    · rw [fileTurnsF]; simp only [e1, ok_bind, k1]; rfl
    · rw [memTurns]; simp only [e2, ok_bind, k2]; rfl
  | .poll :: ts, p, b, rs, hv, hrs, h => by
    obtain ⟨p1, rs1, e1, e2, e3⟩ := h.poll hm hSt hf hrs
    obtain ⟨fxs, fxs', p2, rs2, b2, k1, k2, k3, k4⟩ := Gappy.turns hb hm hE hSt hs nullOk hf ts p1 _ rs1 (fun v h => hv v (List.mem_cons_of_mem _ h)) e2 e3
    refine ⟨fxs, fxs', p2, rs2, b2, ?_, ?_, k3, k4⟩
    · rw [fileTurnsF]; simp only [e1, ok_bind, k1]
    · rw [memTurns]; exact k2
  | .speed v :: ts, p, b, rs, hv, hrs, h => by
    obtain ⟨v0, vR⟩ := hv v List.mem_cons_self
    obtain ⟨fxs, fxs', p2, rs2, b2, k1, k2, k3, k4⟩ := Gappy.turns hb hm hE hSt hs nullOk hf ts _ _ rs (fun v h => hv v (List.mem_cons_of_mem _ h)) hrs (h.speed fun r hr => hs r v v0 vR hr)
    refine ⟨fxs, fxs', p2, rs2, b2, ?_, ?_, k3, k4⟩
    · rw [fileTurnsF]; exact k1
    · rw [memTurns]; exact k2

/-! ## Buffers that got ahead -/

/-- No buffer holds a sample of the next update (`D` samples from `pos` on at most), one of them is of a block that is not passed within two updates. -/
structure RunsAhead (g : Geo) (D pos X : Int) (c : Cache) : Prop where
  loop : c.loopType = .none
  fresh : ∀ b ∈ c.bufs, b.status ≠ .read
  away : ∀ b ∈ c.bufs, 0 < b.size → b.index * g.B + g.B ≤ pos ∨ pos + D < b.index * g.B
  later : ∃ b ∈ c.bufs, pos + 2 * D < (b.index + 1) * g.B
  range : ∀ b ∈ c.bufs, 0 ≤ b.index ∧ b.index ≤ X
  len : c.bufs.length ≤ g.N

theorem findWithIndex_none {k : Int} : ∀ {bs : List Buf}, (∀ b ∈ bs, ¬ (b.index = k ∧ b.size > 0)) → (∀ b ∈ bs, b.status ≠ .read) →
    findWithIndex k bs = (bs.map fun b => { b with status := .unused }, none)
  | [], _, _ => rfl
  | b :: bs, h, hs => by
    rw [findWithIndex, if_neg (h b List.mem_cons_self),
      findWithIndex_none (bs := bs) (fun b hb => h b (List.mem_cons_of_mem _ hb)) (fun b hb => hs b (List.mem_cons_of_mem _ hb))]
    simp only [List.map_cons]
    rw [if_neg (hs b List.mem_cons_self)]

theorem get_miss {c : Cache} {i : Int} (h : ∀ b ∈ c.bufs, ¬ (b.index = u32 (i / g.B) ∧ b.size > 0)) (hs : ∀ b ∈ c.bufs, b.status ≠ .read) :
    c.get g i = (0, { c with bufs := c.bufs.map fun b => { b with status := .unused }, fails := c.fails + 1 }) := by
  unfold Cache.get
  rw [findWithIndex_none h hs]

/-- Reading only samples that are not there. -/
theorem gets_miss : ∀ {is : List Int} {c : Cache}, (∀ i ∈ is, ∀ b ∈ c.bufs, ¬ (b.index = u32 (i / g.B) ∧ b.size > 0)) → (∀ b ∈ c.bufs, b.status ≠ .read) → is ≠ [] →
    (c.gets g is).2 = { c with bufs := c.bufs.map fun b => { b with status := .unused }, fails := c.fails + is.length }
  | [], _, _, _, hne => absurd rfl hne
  | [i], c, h, hs, _ => by
    simp only [Cache.gets]
    rw [get_miss (h i List.mem_cons_self) hs]
    rfl
  | i :: j :: is, c, h, hs, _ => by
    rw [Cache.gets]
    simp only
    rw [get_miss (h i List.mem_cons_self) hs]
    rw [gets_miss (is := j :: is) (c := { c with bufs := c.bufs.map fun b => { b with status := .unused }, fails := c.fails + 1 }) (by
      intro k hk b hb
      simp only [List.mem_map] at hb
      obtain ⟨b0, hb0, rfl⟩ := hb
      exact h k (List.mem_cons_of_mem _ hk) b0 hb0) (by
      intro b hb
      simp only [List.mem_map] at hb
      obtain ⟨b0, hb0, rfl⟩ := hb
      exact BStatus.noConfusion) (by simp)]
    simp only [List.map_map, List.length_cons]
    congr 1
    omega

theorem maxIndex_ge : ∀ (bs : List Buf) (b : Buf), b.index ≤ maxIndex b bs ∧ (∀ x ∈ bs, x.index ≤ maxIndex b bs)
  | bs, b => by
    unfold maxIndex
    generalize b.index = k
    induction bs generalizing k with
    | nil => exact ⟨le_refl _, fun x hx => by cases hx⟩
    | cons y ys ih =>
      rw [List.foldl_cons]
      obtain ⟨i1, i2⟩ := ih (if y.index > k then y.index else k)
      have e : k ≤ (if y.index > k then y.index else k) ∧ y.index ≤ (if y.index > k then y.index else k) := by split <;> omega
      refine ⟨le_trans e.1 i1, fun x hx => ?_⟩
      rcases List.mem_cons.1 hx with rfl | hx
      · exact le_trans e.2 i1
      · exact i2 x hx

theorem maxIndex_le {X : Int} : ∀ (bs : List Buf) (b : Buf), b.index ≤ X → (∀ x ∈ bs, x.index ≤ X) → maxIndex b bs ≤ X
  | bs, b => by
    unfold maxIndex
    generalize b.index = k
    induction bs generalizing k with
    | nil => exact fun h _ => h
    | cons y ys ih =>
      intro h1 h2
      rw [List.foldl_cons]
      refine ih _ ?_ fun x hx => h2 x (List.mem_cons_of_mem _ hx)
      have := h2 y List.mem_cons_self
      split <;> omega

/-- Loading block `k`. -/
theorem block_number {k : Int} (hk0 : 0 ≤ k) (hk : k * g.B ≤ 2147483647) : u32 (i32 (i32 k * g.B) / g.B) = k := by
  have hB0 : (0 : Int) < g.B := by exact_mod_cast g.B_pos
  have h1 : k ≤ k * g.B := le_mul_of_one_le_right hk0 hB0
  rw [i32_of_in (x := k) ⟨by omega, by omega⟩, i32_of_in (x := k * g.B) ⟨by omega, by omega⟩, Int.mul_ediv_cancel _ (by omega)]
  exact u32_of_in ⟨by omega, by omega⟩

/-- Reloading all buffers: all of them are of blocks after any block there was. -/
theorem reloadLoopF_all {rate : ℚ} (hr : 0 ≤ rate) {M : Int} (hM : 0 ≤ M) : ∀ (us ls : List Buf) (c : Cache) (rs : List ReadResult) (fuel : Nat) (X : Int),
    c.loopType = .none → c.bufs = us ++ ls → us.length ≤ fuel → (∀ b ∈ us, b.status = .unused) → (∀ b ∈ ls, b.status = .loaded) → (∀ b ∈ us ++ ls, 0 ≤ b.index ∧ b.index ≤ X) →
    (∀ b ∈ ls, M < b.index) → (ls ≠ [] ∨ ∃ b ∈ us, M ≤ b.index) → (X + us.length) * g.B ≤ 2147483647 →
    ∃ x, reloadLoopF g rate fuel c rs = .ok x ∧ x.1.loopType = .none ∧ x.1.bufs.length = us.length + ls.length ∧ (∀ b ∈ x.1.bufs, M < b.index ∧ b.index ≤ X + us.length)
  | [], ls, c, rs, fuel, X, hl, hc, _, _, hls, hrg, hlM, _, _ => by
    rw [List.nil_append] at hc hrg
    refine ⟨(c, rs), reloadLoopF_done _ rs (fun b rest h hb => ?_), hl, by simp only [hc, List.length_nil, Nat.zero_add], fun b hb => ?_⟩
    · have := hls b (by rw [← hc, h]; exact List.mem_cons_self)
      rw [this] at hb; cases hb
    · simp only [hc] at hb
      exact ⟨hlM b hb, by simpa using (hrg b hb).2⟩
  | u :: us, ls, c, rs, 0, X, _, _, hf, _, _, _, _, _, _ => by simp at hf
  | u :: us, ls, c, rs, fuel + 1, X, hl, hc, hf, hus, hls, hrg, hlM, hex, hfit => by
    have hB0 : (0 : Int) < g.B := by exact_mod_cast g.B_pos
    rw [List.cons_append] at hc
    rw [reloadLoopF_succ hl hr hc (hus u List.mem_cons_self)]
    have hmem : ∀ b ∈ u :: us ++ ls, b.index ≤ maxIndex u c.bufs := by
      intro b hb
      rw [hc]; exact (maxIndex_ge _ _).2 b hb
    have hup : maxIndex u c.bufs ≤ X := by
      rw [hc]
      exact maxIndex_le _ _ (hrg u List.mem_cons_self).2 fun b hb => (hrg b hb).2
    have hMm : M ≤ maxIndex u c.bufs := by
      rcases hex with hex | ⟨b, hb, hMb⟩
      · obtain ⟨b, hb⟩ := List.exists_mem_of_ne_nil _ hex
        exact le_trans (le_of_lt (hlM b hb)) (hmem b (List.mem_append_right _ hb))
      · exact le_trans hMb (hmem b (List.mem_append_left _ hb))
    simp only [List.length_cons] at hfit hf ⊢
    push_cast at hfit
    have hkB : (maxIndex u c.bufs + 1) * g.B ≤ 2147483647 := le_trans (mul_le_mul_of_nonneg_right (by omega) (le_of_lt hB0)) hfit
    generalize maxIndex u c.bufs = K at *
    have hidx : ∀ r, (loadBufferF g c.dev u (i32 (i32 (K + 1) * g.B)) r).1.index = K + 1 := fun r => by
      rw [loadBufferF_index]; exact block_number (by omega) hkB
    generalize hnb : (loadBufferF g c.dev u (i32 (i32 (K + 1) * g.B)) (rs.headD .all)) = nb
    have hni : nb.1.index = K + 1 := by rw [← hnb]; exact hidx _
    have hns : nb.1.status = .loaded := by rw [← hnb]; exact loadBufferF_status _ _ _ _ _
    obtain ⟨x, e1, e2, e3, e4⟩ := reloadLoopF_all hr hM us (ls ++ [nb.1]) { c with bufs := us ++ ls ++ [nb.1], dev := nb.2.1 } rs.tail fuel (X + 1) hl
      (List.append_assoc _ _ _) (by omega) (fun b hb => hus b (List.mem_cons_of_mem _ hb))
      (fun b hb => by
        rcases List.mem_append.1 hb with hb | hb
        · exact hls b hb
        · rw [List.mem_singleton.1 hb]; exact hns)
      (fun b hb => by
        rw [← List.append_assoc] at hb
        rcases List.mem_append.1 hb with hb | hb
        · have := hrg b (List.mem_cons_of_mem _ hb); omega
        · rw [List.mem_singleton.1 hb, hni]; omega)
      (fun b hb => by
        rcases List.mem_append.1 hb with hb | hb
        · exact hlM b hb
        · rw [List.mem_singleton.1 hb, hni]; omega)
      (Or.inl (by simp)) (by rw [show X + 1 + (us.length : Int) = X + (us.length + 1) by ring]; exact hfit)
    refine ⟨x, e1, e2, ?_, fun b hb => ?_⟩
    · rw [e3]; simp only [List.length_append, List.length_cons, List.length_nil]; omega
    · have := e4 b hb; push_cast; omega

/-- An update that finds nothing, and the reload after it. -/
theorem RunsAhead.round {D pos pos' X : Int} {c : Cache} (h : RunsAhead g D pos X c) (hDB : D ≤ g.B) (hpos : 0 ≤ pos) (hp' : pos' ≤ pos + D)
    (hfit : (X + g.N) * g.B ≤ 2147483647) {is : List Int} (hne : is ≠ []) (his : ∀ i ∈ is, pos ≤ i ∧ i ≤ pos + D) (hi32 : ∀ i ∈ is, i ≤ 2147483647) {rate : ℚ} (hr : 0 ≤ rate)
    {fuel : Nat} (hf : g.N ≤ fuel) (rs : List ReadResult) :
    (∀ i ∈ is, (c.get g i).1 = 0) ∧ ∃ c' rs', (c.gets g is).2.triggerReloadF g fuel rate rs = .ok (c', rs') ∧ RunsAhead g D pos' (X + g.N) c' := by
  have hB0 : (0 : Int) < g.B := by exact_mod_cast g.B_pos
  have hmiss : ∀ i ∈ is, ∀ b ∈ c.bufs, ¬ (b.index = u32 (i / g.B) ∧ b.size > 0) := by
    intro i hi b hb hh
    obtain ⟨e1, e2⟩ := his i hi
    have e3 := hi32 i hi
    have hq := Int.ediv_nonneg (show 0 ≤ i by omega) (le_of_lt hB0)
    have hq2 : i / g.B ≤ i := Int.ediv_le_self _ (by omega)
    rw [u32_of_in ⟨hq, by omega⟩] at hh
    have e4 := Int.emod_add_mul_ediv i g.B
    have e5 := Int.emod_nonneg i (show (g.B : Int) ≠ 0 by omega)
    have e6 := Int.emod_lt_of_pos i hB0
    rw [← hh.1, mul_comm] at e4
    rcases h.away b hb hh.2 with k | k <;> omega
  refine ⟨fun i hi => by rw [get_miss (hmiss i hi) h.fresh], ?_⟩
  rw [gets_miss hmiss h.fresh hne]
  obtain ⟨b0, hb0, hlater⟩ := h.later
  obtain ⟨cu, hcu⟩ : ∃ cu : Cache, cu = { c with bufs := c.bufs.map fun b => { b with status := .unused }, fails := c.fails + is.length } := ⟨_, rfl⟩
  rw [← hcu]
  have hlen : ((cu.bufs.length : Nat) : Int) ≤ g.N := by rw [hcu]; simp only [List.length_map]; exact_mod_cast h.len
  have hX : 0 ≤ X := le_trans (h.range b0 hb0).1 (h.range b0 hb0).2
  obtain ⟨x, e1, e2, e3, e4⟩ := reloadLoopF_all (g := g) hr (M := b0.index) (h.range b0 hb0).1 cu.bufs [] cu rs fuel X (by rw [hcu]; exact h.loop) (by simp)
    (by have : cu.bufs.length ≤ g.N := by exact_mod_cast hlen
        omega)
    (fun b hb => by
      rw [hcu] at hb
      simp only [List.mem_map] at hb
      obtain ⟨b1, _, rfl⟩ := hb
      rfl) (fun b hb => by cases hb)
    (fun b hb => by
      rw [List.append_nil, hcu] at hb
      simp only [List.mem_map] at hb
      obtain ⟨b1, hb1, rfl⟩ := hb
      exact h.range b1 hb1) (fun b hb => by cases hb)
    (Or.inr ⟨{ b0 with status := .unused }, by rw [hcu]; exact List.mem_map_of_mem hb0, le_refl _⟩)
    (le_trans (mul_le_mul_of_nonneg_right (by omega) (le_of_lt hB0)) hfit)
  have hrr : reloadRate cu rate = rate := by unfold reloadRate; rw [hcu, h.loop]; rw [if_neg (fun h => nomatch h.1)]
  have hnew : ∀ b ∈ x.1.bufs, pos + 2 * D < b.index * g.B := by
    intro b hb
    exact lt_of_lt_of_le hlater (mul_le_mul_of_nonneg_right (by have := (e4 b hb).1; omega) (le_of_lt hB0))
  have key : ∀ q : ℚ, RunsAhead g D pos' (X + g.N) { x.1.resetStatus with prevRate := q } := by
    intro q
    have hmem : ∀ b ∈ x.1.resetStatus.bufs, ∃ b1 ∈ x.1.bufs, b = { b1 with status := .loaded } := by
      intro b hb
      unfold Cache.resetStatus at hb
      simp only [List.mem_map] at hb
      obtain ⟨b1, hb1, rfl⟩ := hb
      exact ⟨b1, hb1, rfl⟩
    refine ⟨e2, ?_, ?_, ?_, ?_, ?_⟩
    · intro b hb
      obtain ⟨b1, _, rfl⟩ := hmem b hb
      exact BStatus.noConfusion
    · intro b hb _
      obtain ⟨b1, hb1, rfl⟩ := hmem b hb
      have := hnew b1 hb1
      right; simp only; omega
    · have hpos : 0 < x.1.bufs.length := by
        rw [e3, hcu]; simp only [List.length_map, List.length_nil, Nat.add_zero]; exact List.length_pos_of_mem hb0
      obtain ⟨b1, hb1⟩ := List.exists_mem_of_length_pos hpos
      refine ⟨{ b1 with status := .loaded }, by unfold Cache.resetStatus; exact List.mem_map_of_mem hb1, ?_⟩
      have := hnew b1 hb1
      simp only
      rw [add_mul, one_mul]
      omega
    · intro b hb
      obtain ⟨b1, hb1, rfl⟩ := hmem b hb
      have := e4 b1 hb1
      have := (h.range b0 hb0).1
      exact ⟨by simp only; omega, by simp only; omega⟩
    · unfold Cache.resetStatus
      simp only [List.length_map]
      rw [e3]
      simp only [List.length_nil, Nat.add_zero]
      exact_mod_cast hlen
  unfold Cache.triggerReloadF
  rw [hrr, e1]
  by_cases h0 : x.1.resetStatus.prevRate = 0
  · refine ⟨{ x.1.resetStatus with prevRate := rate }, x.2, ?_, key rate⟩
    simp only [ok_bind, if_pos h0]; rfl
  · refine ⟨x.1.resetStatus, x.2, ?_, key x.1.resetStatus.prevRate⟩
    simp only [ok_bind, if_neg h0]; rfl

theorem RunsAhead.mono {D pos X X' : Int} {c : Cache} (h : RunsAhead g D pos X c) (hX : X ≤ X') : RunsAhead g D pos X' c :=
  ⟨h.loop, h.fresh, h.away, h.later, fun b hb => ⟨(h.range b hb).1, le_trans (h.range b hb).2 hX⟩, h.len⟩

/-- A player whose buffers got ahead, before an update. -/
structure LostSound (g : Geo) (St : Rd → Prop) (D X : Int) (p : FilePlayer) : Prop where
  nch : 0 < p.rdr.rd.nch
  pend : p.pending = none
  live : p.rdr.rd.playing = true → St p.rdr.rd ∧ ∃ c, p.rdr.src = some c ∧ RunsAhead g D p.rdr.rd.pos1 X c

theorem silent_fxOf {nch : Int} {ps : List Int} {v : Int → Int} (h : ∀ p ∈ ps, ∀ k : Nat, (k : Int) < nch → v (p + k) = 0) (alloc : Nat → Bool) :
    Silent (fxOf nch (ps.map (frameAt v nch)) alloc) := by
  have key : ∀ ch : Nat, ∀ s ∈ blockOf (ps.map (frameAt v nch)) ch, s = 0 := by
    intro ch s hs
    unfold blockOf at hs
    rcases List.mem_append.1 hs with hs | hs
    · simp only [List.map_map, List.mem_map, Function.comp] at hs
      obtain ⟨p, hp, rfl⟩ := hs
      unfold frameAt
      by_cases hch : ch < nch.toNat
      · simp only [List.getD_eq_getElem?_getD, List.getElem?_map, List.getElem?_range hch, Option.map_some, Option.getD_some]
        exact h p hp ch (by omega)
      · simp only [List.getD_eq_getElem?_getD, List.getElem?_map]
        rw [List.getElem?_eq_none (by simp; omega)]
        rfl
    · exact List.eq_of_mem_replicate hs
  intro b hb s hs
  unfold fxOf at hb
  simp only at hb
  rcases List.mem_append.1 hb with hb | hb
  · obtain ⟨ch, _, rfl⟩ := List.mem_map.1 hb
    exact key _ s hs
  · split at hb
    · rw [List.mem_singleton.1 hb] at hs
      exact key _ s hs
    · cases hb

theorem LostSound.tick {D E X : Int} (hE : E ≤ 2147483647) (hSt : Glides fp St D E) (hDB : D ≤ g.B) (hfit : (X + g.N) * g.B ≤ 2147483647)
    (nullOk : Bool) {fuel : Nat} (hf : g.N ≤ fuel + 1) {p : FilePlayer} (h : LostSound g St D X p) (alloc : Nat → Bool) (rs : List ReadResult) :
    ∃ fx p1 p' rs', p.update fp g nullOk (fuel + 1) alloc = .ok (fx, p1) ∧ p1.runEventF fp g (fuel + 1) rs = .ok (p', rs') ∧ Silent fx ∧ LostSound g St D (X + g.N) p' := by
  have hnil : Silent {} := fun b hb => by cases hb
  obtain ⟨⟨r, src⟩, pend⟩ := p
  obtain ⟨hn, h2, hlive⟩ := h
  simp only at hn h2 hlive
  subst h2
  unfold FilePlayer.update
  simp only
  cases hp : r.playing with
  | false =>
    have e1 : FileReader.update fp g nullOk (fuel + 1) ⟨r, src⟩ alloc = .ok ({}, ⟨r, src⟩) := by
      unfold FileReader.update; simp only; rw [hp, update_off hn]
    rw [e1]
    simp only [ok_bind]
    exact ⟨{}, ⟨⟨r, src⟩, none⟩, ⟨⟨r, src⟩, none⟩, rs, rfl, rfl, hnil, hn, rfl, fun h => by rw [hp] at h; cases h⟩
  | true =>
    obtain ⟨hst, c, hc, hA⟩ := hlive hp
    subst hc
    by_cases ha : ((List.range r.nch.toNat).filter alloc).length = (List.range r.nch.toNat).length
    · obtain ⟨hpl, hl, hrate, hpos, ps, r', hps, hst', hconf, hle, hleD, hps0, hpsm⟩ := hSt r hst
      have hpsm' : ∀ p ∈ ps, r.pos1 ≤ p ∧ p + r.nch ≤ E := fun p hp => ⟨(hpsm p hp).1, (hpsm p hp).2.2⟩
      rw [FileReader.read_trace hp hpl hl hps (E := E) hE hpos hpsm' nullOk ha]
      have hidx : ∀ i ∈ framesIdx r.nch ps, r.pos1 ≤ i ∧ i ≤ r.pos1 + D := by
        intro i hi
        obtain ⟨p, hp, q1, q2⟩ := mem_framesIdx.1 hi
        obtain ⟨e1, e2, e3⟩ := hpsm p hp
        omega
      have hidx2 : ∀ i ∈ framesIdx r.nch ps, i ≤ 2147483647 := by
        intro i hi
        obtain ⟨p, hp, q1, q2⟩ := mem_framesIdx.1 hi
        obtain ⟨e1, e2, e3⟩ := hpsm p hp
        omega
      obtain ⟨fx, hfx⟩ : ∃ fx, fx = fxOf r.nch (ps.map (frameAt (fun i => (c.get g i).1) r.nch)) alloc := ⟨_, rfl⟩
      rw [← hfx]
      by_cases hnil2 : ps = []
      · have he : fx.event = some .close := by rw [hfx, hnil2]; rfl
        simp only [ok_bind, he]
        refine ⟨fx, _, _, _, rfl, rfl, ?_, by simp only [FileReader.close, Rd.stop]; rw [hconf.nch]; exact hn, rfl, fun h => ?_⟩
        · rw [hfx]; exact silent_fxOf (by rw [hnil2]; intro p hp; cases hp) alloc
        · simp only [FileReader.close, Rd.stop] at h; cases h
      · have hne : framesIdx r.nch ps ≠ [] := by
          intro h0
          obtain ⟨p, hp⟩ := List.exists_mem_of_ne_nil _ hnil2
          have : p ∈ framesIdx r.nch ps := mem_framesIdx.2 ⟨p, hp, le_refl _, by omega⟩
          rw [h0] at this; cases this
        obtain ⟨k1, c', rs', k2, k3⟩ := hA.round hDB hpos hleD hfit hne hidx hidx2 (fp.f.nonneg (show 0 ≤ r'.rate from (hSt r' hst').2.2.1)) hf rs
        have hsil : Silent fx := by
          rw [hfx]
          refine silent_fxOf (fun p hp k hk => ?_) alloc
          exact k1 _ (mem_framesIdx.2 ⟨p, hp, by omega, by omega⟩)
        rcases hev : fx.event with _ | e
        · rw [hfx] at hev; unfold fxOf at hev; cases hev
        · simp only [ok_bind, hev]
          cases e with
          | close =>
            refine ⟨fx, _, _, _, rfl, rfl, hsil, by simp only [FileReader.close, Rd.stop]; rw [hconf.nch]; exact hn, rfl, fun h => ?_⟩
            simp only [FileReader.close, Rd.stop] at h; cases h
          | reload =>
            refine ⟨fx, _, ⟨⟨r', some c'⟩, none⟩, rs', rfl, ?_, hsil, by simp only; rw [hconf.nch]; exact hn, rfl, fun _ => ⟨hst', c', rfl, k3⟩⟩
            unfold FilePlayer.runEventF
            simp only [FileReader.serviceF, k2, ok_bind]
            rfl
    · have e1 : FileReader.update fp g nullOk (fuel + 1) ⟨r, some c⟩ alloc = .ok ({ allocated := (List.range r.nch.toNat).filter alloc, released := (List.range r.nch.toNat).filter alloc }, ⟨r, some c⟩) := by
        unfold FileReader.update; simp only; rw [hp, update_short hn _ _ _ ha]
      rw [e1]
      simp only [ok_bind]
      exact ⟨_, ⟨⟨r, some c⟩, none⟩, ⟨⟨r, some c⟩, none⟩, rs, rfl, rfl, (fun b hb => by cases hb), hn, rfl, fun _ => ⟨hst, c, rfl, hA.mono (by omega)⟩⟩

theorem LostSound.ticks {D E : Int} (hE : E ≤ 2147483647) (hSt : Glides fp St D E) (hDB : D ≤ g.B)
    (nullOk : Bool) {fuel : Nat} (hf : g.N ≤ fuel + 1) : ∀ (als : List (Nat → Bool)) (X : Int) (p : FilePlayer) (rs : List ReadResult), LostSound g St D X p →
    (X + als.length * g.N) * g.B ≤ 2147483647 →
    ∃ fxs p' rs', fileTurnsF fp g nullOk (fuel + 1) p rs (ticked als) = .ok (fxs, p', rs') ∧ (∀ fx ∈ fxs, Silent fx) ∧ LostSound g St D (X + als.length * g.N) p'
  | [], X, p, rs, h, _ => ⟨[], p, rs, rfl, (fun fx hfx => nomatch hfx), by simpa using h⟩
  | al :: als, X, p, rs, h, hfit => by
    have hB0 : (0 : Int) < g.B := by exact_mod_cast g.B_pos
    have hsum : X + ((al :: als).length : Int) * g.N = X + g.N + als.length * g.N := by simp only [List.length_cons]; push_cast; ring
    rw [hsum] at hfit ⊢
    have hN0 : (0 : Int) ≤ als.length * g.N := by positivity
    obtain ⟨fx, p1, p2, rs2, e1, e2, e3, e4⟩ := h.tick hE hSt hDB (le_trans (mul_le_mul_of_nonneg_right (by omega) (le_of_lt hB0)) hfit) nullOk hf al rs
    obtain ⟨fxs, p3, rs3, k1, k2, k3⟩ := LostSound.ticks hE hSt hDB nullOk hf als _ p2 rs2 e4 hfit
    refine ⟨fx :: fxs, p3, rs3, ?_, ?_, k3⟩
    · show fileTurnsF fp g nullOk (fuel + 1) p rs (.update al :: .poll :: ticked als) = _
      rw [fileTurnsF]
      simp only [e1, ok_bind]
      rw [fileTurnsF]
      simp only [e2, ok_bind, k1]
      rfl
    · intro y hy
      rcases List.mem_cons.1 hy with rfl | hy
      · exact e3
      · exact k2 y hy

/-! ## Starting to play -/

/-- Loading buffers at the start, whatever the reads return. -/
theorem preLoadLoopF_shape : ∀ (left : Nat) (c : Cache) (i : Int) (rs : List ReadResult), 0 ≤ i → i + left * g.B ≤ 2147483647 →
    ∃ new, (preLoadLoopF g 0 true left c.bufs.length c i rs).1.bufs = c.bufs ++ new ∧ new.length ≤ left ∧ (preLoadLoopF g 0 true left c.bufs.length c i rs).1.loopType = c.loopType ∧
      (∀ b ∈ new, b.status = .loaded ∧ i / g.B ≤ b.index ∧ b.index ≤ i / g.B + left) ∧
      (0 < left → (rs.headD .all ≠ .all → (∀ n, rs.headD .all = .short n → n = 0) → ∃ b rest, new = b :: rest ∧ b.index = i / g.B ∧ b.size ≤ 0 ∧ (∀ b ∈ rest, i / g.B < b.index)))
  | 0, c, i, rs, _, _ => ⟨[], by simp [preLoadLoopF], le_refl _, rfl, (fun b hb => nomatch hb), fun h => absurd h (lt_irrefl _)⟩
  | left + 1, c, i, rs, h0, hfit => by
    have hB0 : (0 : Int) < g.B := by exact_mod_cast g.B_pos
    push_cast at hfit
    have hq0 := Int.ediv_nonneg h0 (le_of_lt hB0)
    have hq2 : i / g.B ≤ i := Int.ediv_le_self _ h0
    have hl0 : (0 : Int) ≤ left * g.B := by positivity
    have hfit' : i + g.B + left * g.B ≤ 2147483647 := by linarith
    have hu : u32 (i / g.B) = i / g.B := u32_of_in ⟨hq0, by omega⟩
    have hi : i32 (i + g.B) = i + g.B := i32_of_in ⟨by omega, by omega⟩
    have hdiv : (i + g.B) / g.B = i / g.B + 1 := by rw [Int.add_ediv_of_dvd_right (dvd_refl _), Int.ediv_self (by omega)]
    unfold preLoadLoopF
    dsimp only
    rw [if_pos (Nat.zero_le _)]
    rw [List.getElem?_concat_length]
    dsimp only
    generalize hnb : loadBufferF g c.dev { addr := c.bufs.length, index := 0, size := 0, status := .constructed, data := g.junk c.bufs.length } i (rs.headD .all) = nb
    have hni : nb.1.index = i / g.B := by rw [← hnb, loadBufferF_index, hu]
    have hns : nb.1.status = .loaded := by rw [← hnb]; exact loadBufferF_status _ _ _ _ _
    have hsz : rs.headD .all ≠ .all → (∀ n, rs.headD .all = .short n → n = 0) → nb.1.size ≤ 0 := by
      intro k1 k2
      rw [← hnb]
      revert k1 k2
      generalize rs.headD ReadResult.all = r
      intro k1 k2
      cases r with
      | all => exact absurd rfl k1
      | short n => obtain rfl := k2 n rfl; simp [loadBufferF, Dev.read, i16]
      | error l cur => simp [loadBufferF]
    have hset : (c.bufs ++ [({ addr := c.bufs.length, index := 0, size := 0, status := .constructed, data := g.junk c.bufs.length } : Buf)]).set c.bufs.length nb.1 = c.bufs ++ [nb.1] := by
      rw [List.set_append_right _ _ (le_refl _)]; simp
    rw [hset]
    by_cases hlt : nb.2.2 < g.B
    · rw [if_pos hlt]
      refine ⟨[nb.1], rfl, by simp, rfl, fun b hb => ?_, fun _ k1 k2 => ⟨nb.1, [], rfl, hni, hsz k1 k2, (fun b hb => nomatch hb)⟩⟩
      rw [List.mem_singleton.1 hb, hni]
      exact ⟨hns, le_refl _, by push_cast; omega⟩
    · rw [if_neg hlt, if_pos rfl, hi]
      obtain ⟨new, e1, e2, e3, e4, _⟩ := preLoadLoopF_shape left { c with bufs := c.bufs ++ [nb.1], dev := nb.2.1 } (i + g.B) rs.tail (by omega) hfit'
      simp only [List.length_append, List.length_cons, List.length_nil, Nat.zero_add] at e1 e3
      refine ⟨nb.1 :: new, by rw [e1]; simp, by simp only [List.length_cons]; omega, e3, fun b hb => ?_, fun _ k1 k2 => ⟨nb.1, new, rfl, hni, hsz k1 k2, fun b hb => ?_⟩⟩
      · rcases List.mem_cons.1 hb with rfl | hb
        · rw [hni]; exact ⟨hns, le_refl _, by push_cast; omega⟩
        · obtain ⟨q1, q2, q3⟩ := e4 b hb
          rw [hdiv] at q2 q3
          exact ⟨q1, by omega, by push_cast; omega⟩
      · obtain ⟨q1, q2, q3⟩ := e4 b hb
        rw [hdiv] at q2; omega

theorem preLoadLoop_dev (nv : Nat) (fw : Bool) : ∀ (left bufn : Nat) (c : Cache) (i : Int), (preLoadLoop g nv fw left bufn c i).dev.bytes = c.dev.bytes ∧
    (preLoadLoop g nv fw left bufn c i).loopType = c.loopType
  | 0, _, _, _ => ⟨rfl, rfl⟩
  | left + 1, bufn, c, i => by
    unfold preLoadLoop
    dsimp only
    generalize (if bufn ≥ nv then c.bufs ++ [{ addr := bufn, index := 0, size := 0, status := .constructed, data := g.junk bufn }] else c.bufs) = bufs
    cases bufs[bufn]? with
    | none => exact ⟨rfl, rfl⟩
    | some buf =>
      dsimp only
      by_cases hlt : (loadBuffer g c.dev buf i).2.2 < g.B
      · rw [if_pos hlt]; exact ⟨loadBuffer_bytes _ _ buf _, rfl⟩
      · rw [if_neg hlt]
        obtain ⟨e1, e2⟩ := preLoadLoop_dev nv fw left (bufn + 1) { c with bufs := bufs.set bufn (loadBuffer g c.dev buf i).1, dev := (loadBuffer g c.dev buf i).2.1 }
          (i32 (if fw = true then i + g.B else i - g.B))
        exact ⟨e1.trans (loadBuffer_bytes _ _ buf _), e2⟩

theorem playFinishF_eq {r : Rd} {f : Dev} {a : FileReader} (h : playFinish g r f = .ok (true, a)) (rs : List ReadResult) :
    ∃ c0 : Cache, c0.bufs = [] ∧ a.src = some (c0.preLoad g a.rd.pos1 (decide (a.rd.rate ≥ 0))) ∧
      playFinishF g r f rs = .ok (true, ⟨a.rd, some (c0.preLoadF g a.rd.pos1 (decide (a.rd.rate ≥ 0)) rs).1⟩, (c0.preLoadF g a.rd.pos1 (decide (a.rd.rate ≥ 0)) rs).2) := by
  unfold playFinish at h
  unfold playFinishF
  by_cases h1 : u32 r.fileSize ≤ u32 (r.header * 2)
  · rw [if_pos h1] at h; cases h
  · rw [if_neg h1] at h ⊢
    by_cases h2 : r.nch = 0
    · rw [if_pos h2] at h; cases h
    · rw [if_neg h2] at h ⊢
      injection h with h
      injection h with _ h
      rw [← h]
      exact ⟨_, rfl, rfl, rfl⟩

theorem playFileF_eq {a a' : FileReader} {f : Dev} {junk : List Nat} {w : Bool} {n : Int} (h : a.playFile g (some f) junk w n = .ok (true, a')) (rs : List ReadResult) :
    ∃ c0 : Cache, c0.bufs = [] ∧ a'.src = some (c0.preLoad g a'.rd.pos1 (decide (a'.rd.rate ≥ 0))) ∧
      a.playFileF g (some f) junk w n rs = .ok (true, ⟨a'.rd, some (c0.preLoadF g a'.rd.pos1 (decide (a'.rd.rate ≥ 0)) rs).1⟩, (c0.preLoadF g a'.rd.pos1 (decide (a'.rd.rate ≥ 0)) rs).2) := by
  unfold FileReader.playFile at h
  unfold FileReader.playFileF
  simp only at h ⊢
  cases w with
  | false => exact playFinishF_eq h rs
  | true =>
    simp only [if_true] at h ⊢
    obtain ⟨⟨ok, r, f'⟩, h1, h⟩ := bind_ok_iff.1 h
    rw [h1]
    simp only [ok_bind] at h ⊢
    cases ok with
    | false => cases h
    | true => exact playFinishF_eq h rs

end TVP
