import Verif.Lemmas.Heap

/-!
# Property C66: the memory of file players
-/

namespace TVP

/-- In this program a player is destroyed only when it reaches no memory but its reader object: it never played, its last
sound ended and the event was serviced, or its last `playRaw` or `playWav` did not find the file. -/
def DestroysClosed (fp : Fp) (g : Geo) (nullOk : Bool) : List SysOp → List Owner × Heap → Prop
  | [], _ => True
  | s :: ss, x =>
    (∀ k o, s = .destroy k → x.1[k]? = some o → o.name = none ∧ o.a.src = none) ∧
    ∀ x', s.runMem fp g nullOk x.1 x.2 = .ok x' → DestroysClosed fp g nullOk ss x'

/-- The state of a system: the players fit together, and the heap holds what they reach and `lost`. -/
structure Sys (g : Geo) (x : List Owner × Heap) (lost : List (Nat × Piece)) : Prop where
  fine : ∀ o ∈ x.1, o.Fine g
  has : x.2.Has (x.1.flatMap Owner.held ++ lost)

theorem flatMap_at {α β : Type} (f : α → List β) {l : List α} {k : Nat} {a : α} (h : l[k]? = some a) :
    (l.flatMap f).Perm (f a ++ (l.eraseIdx k).flatMap f) := by
  have hl : k < l.length := by
    by_contra hk
    rw [List.getElem?_eq_none (by omega)] at h
    cases h
  have e : l[k] = a := by rw [List.getElem?_eq_getElem hl] at h; exact Option.some.inj h
  have hp : (a :: l.eraseIdx k).Perm l := by
    rw [← e]; exact List.getElem_cons_eraseIdx_perm hl
  exact (hp.flatMap_right f).symm

theorem flatMap_set {α β : Type} (f : α → List β) {l : List α} {k : Nat} {a b : α} (h : l[k]? = some a) :
    ((l.set k b).flatMap f).Perm (f b ++ (l.eraseIdx k).flatMap f) := by
  have hl : k < l.length := by
    by_contra hk
    rw [List.getElem?_eq_none (by omega)] at h
    cases h
  have h2 : (l.set k b)[k]? = some b := by rw [List.getElem?_set_self hl]
  have := flatMap_at f h2
  rwa [List.eraseIdx_set_eq] at this

theorem Sys.use {fp : Fp} {g : Geo} {nullOk : Bool} {x : List Owner × Heap} {lost : List (Nat × Piece)} (z : Sys g x lost) (k : Nat) (u : Use) :
    ((SysOp.use k u).runMem fp g nullOk x.1 x.2).map (fun y => y.1.map Owner.a) = (SysOp.use k u).run fp g nullOk (x.1.map Owner.a) ∧
    ∀ x', (SysOp.use k u).runMem fp g nullOk x.1 x.2 = .ok x' → Sys g x' lost := by
  simp only [SysOp.runMem, SysOp.run, List.getElem?_map]
  cases hk : x.1[k]? with
  | none =>
    refine ⟨rfl, ?_⟩
    intro x' e; cases e; exact z
  | some o =>
    have ho : o ∈ x.1 := List.mem_of_getElem? hk
    obtain ⟨p1, p2⟩ := u.runMem_has (fp := fp) (nullOk := nullOk) (h := x.2) (z.fine o ho)
      (xs := (x.1.eraseIdx k).flatMap Owner.held ++ lost)
      (z.has.of_perm (by rw [← List.append_assoc]; exact List.Perm.append_right _ (flatMap_at Owner.held hk)))
    simp only [Option.map_some]
    rw [← p1]
    cases e : u.runMem fp g nullOk o x.2 with
    | error e => exact ⟨rfl, by intro x' e2; cases e2⟩
    | ok y =>
      obtain ⟨o', h'⟩ := y
      obtain ⟨q1, q2⟩ := p2 o' h' e
      refine ⟨?_, ?_⟩
      · simp only [ok_bind, pure_eq_ok, Except.map, List.map_set]
      · intro x' e2
        cases e2
        refine ⟨?_, ?_⟩
        · intro b hb
          rcases List.mem_or_eq_of_mem_set hb with hb | rfl
          · exact z.fine b hb
          · exact q1
        · refine q2.of_perm ?_
          rw [← List.append_assoc]
          exact List.Perm.append_right _ (flatMap_set Owner.held hk).symm

theorem Sys.step {fp : Fp} {g : Geo} {nullOk : Bool} {x : List Owner × Heap} {lost : List (Nat × Piece)} (z : Sys g x lost) (s : SysOp) :
    (s.runMem fp g nullOk x.1 x.2).map (fun y => y.1.map Owner.a) = s.run fp g nullOk (x.1.map Owner.a) ∧
    ∀ x', s.runMem fp g nullOk x.1 x.2 = .ok x' →
      ∃ more, Sys g x' (more ++ lost) ∧ ((∀ k o, s = .destroy k → x.1[k]? = some o → o.name = none ∧ o.a.src = none) → more = []) := by
  cases s with
  | use k u =>
    obtain ⟨h1, h2⟩ := z.use (fp := fp) (nullOk := nullOk) k u
    exact ⟨h1, fun x' e => ⟨[], h2 x' e, fun _ => rfl⟩⟩
  | construct =>
    refine ⟨by simp [SysOp.runMem, SysOp.run, Owner.construct, Except.map], ?_⟩
    intro x' e
    cases e
    refine ⟨[], ⟨?_, ?_⟩, fun _ => rfl⟩
    · intro o ho
      rcases List.mem_append.1 ho with ho | ho
      · exact z.fine o ho
      · rw [List.mem_singleton] at ho; subst ho; exact Owner.Fine.empty
    · refine (z.has.alloc .reader).of_perm ?_
      simp only [List.flatMap_append, List.flatMap_cons, List.flatMap_nil, List.append_nil, List.nil_append, Owner.held, nameHeld, srcHeld,
        List.append_assoc, List.cons_append]
      exact List.perm_middle.symm
  | destroy k =>
    simp only [SysOp.runMem, SysOp.run]
    cases hk : x.1[k]? with
    | none =>
      refine ⟨?_, ?_⟩
      · have : x.1.length ≤ k := by rw [List.getElem?_eq_none_iff] at hk; exact hk
        simp only [Except.map]
        rw [List.eraseIdx_of_length_le (by simpa using this)]
      · intro x' e; cases e; exact ⟨[], z, fun _ => rfl⟩
    | some o =>
      have hp := z.has.of_perm (List.Perm.append_right lost (flatMap_at Owner.held hk))
      obtain ⟨h', e1, k1⟩ := Heap.Has.free (h := x.2) (p := .reader) (id := o.reader)
        (xs := (nameHeld o.name ++ srcHeld o.src o.a.src) ++ ((x.1.eraseIdx k).flatMap Owner.held ++ lost))
        (by simpa only [Owner.held, List.cons_append, List.append_assoc] using hp)
      simp only [Owner.destroy, e1, ok_bind]
      refine ⟨by simp [Except.map, List.eraseIdx_map], ?_⟩
      intro x' e
      cases e
      refine ⟨nameHeld o.name ++ srcHeld o.src o.a.src, ⟨?_, ?_⟩, ?_⟩
      · intro b hb; exact z.fine b (List.mem_of_mem_eraseIdx hb)
      · refine k1.of_perm ?_
        rw [← List.append_assoc, ← List.append_assoc]
        exact List.Perm.append_right _ List.perm_append_comm
      · intro hd
        obtain ⟨d1, d2⟩ := hd k o rfl hk
        rw [d1, d2]
        cases o.src <;> rfl

theorem Sys.run {fp : Fp} {g : Geo} {nullOk : Bool} : ∀ (ss : List SysOp) {x : List Owner × Heap} {lost : List (Nat × Piece)}, Sys g x lost →
    (runSystem fp g nullOk ss x).map (fun y => y.1.map Owner.a) = runReaders fp g nullOk ss (x.1.map Owner.a) ∧
    ∀ x', runSystem fp g nullOk ss x = .ok x' →
      ∃ more, Sys g x' (more ++ lost) ∧ (DestroysClosed fp g nullOk ss x → more = [])
  | [], x, lost, z => ⟨rfl, fun x' e => by cases e; exact ⟨[], z, fun _ => rfl⟩⟩
  | s :: ss, x, lost, z => by
    obtain ⟨h1, h2⟩ := z.step (fp := fp) (nullOk := nullOk) s
    rw [runSystem, runReaders, ← h1]
    cases e : s.runMem fp g nullOk x.1 x.2 with
    | error e => exact ⟨rfl, by intro x' e2; cases e2⟩
    | ok y =>
      obtain ⟨m1, z1, d1⟩ := h2 y e
      obtain ⟨h3, h4⟩ := Sys.run ss z1
      refine ⟨h3, ?_⟩
      intro x' e2
      obtain ⟨m2, z2, d2⟩ := h4 x' e2
      refine ⟨m2 ++ m1, by rw [List.append_assoc]; exact z2, ?_⟩
      intro hd
      obtain ⟨p, q⟩ := hd
      rw [d1 p, d2 (q y e)]
      rfl

theorem Sys.start (g : Geo) : Sys g ([], {}) [] := ⟨by simp, ⟨List.Perm.refl _, List.nodup_nil, by simp⟩⟩

/-- **C66**, releases: in every program that makes, uses and destroys file players in any order, no piece of memory is
released twice, released by the wrong function, or released without being allocated: the program runs exactly as its readers
would without memory being managed, failing only where and how they fail.  (Releasing anything else is the fault
`useAfterFree` of `Heap.free`, with which `runSystem` would stop.) -/
theorem C66_released_once (fp : Fp) (g : Geo) (nullOk : Bool) (ss : List SysOp) :
    (runSystem fp g nullOk ss ([], {})).map (fun y => y.1.map Owner.a) = runReaders fp g nullOk ss [] :=
  (Sys.run ss (Sys.start g)).1

/-- **C66** (partial: players are destroyed only when closed; the refutation shows this is needed).  At every moment the
allocated pieces are exactly those the existing players reach through their pointers, each under its own identity; nothing
is lost. -/
theorem C66_no_leak_partial (fp : Fp) (g : Geo) (nullOk : Bool) (ss : List SysOp) {ps : List Owner} {h : Heap}
    (hd : DestroysClosed fp g nullOk ss ([], {})) (e : runSystem fp g nullOk ss ([], {}) = .ok (ps, h)) :
    h.live.Perm (ps.flatMap Owner.held) ∧ (h.live.map Prod.fst).Nodup := by
  obtain ⟨more, z, d⟩ := (Sys.run ss (Sys.start g)).2 _ e
  rw [d hd] at z
  have := z.has.perm
  simp only [List.append_nil] at this
  exact ⟨this, z.has.nodup⟩

/-- The number of pieces a player reaches. -/
theorem Owner.held_length {g : Geo} {o : Owner} (f : o.Fine g) : o.held.length ≤ 4 + 2 * g.N := by
  have hname : ∀ n, (nameHeld n).length ≤ 1 := by intro n; cases n <;> simp [nameHeld]
  have hb : ∀ (l : List BufMem), (l.flatMap BufMem.held).length = 2 * l.length := by
    intro l
    induction l with
    | nil => rfl
    | cons b l ih => rw [List.flatMap_cons, List.length_append, ih, List.length_cons]; simp only [BufMem.held, List.length_cons, List.length_nil]; omega
  have h1 := hname o.name
  unfold Owner.held
  rw [List.length_cons, List.length_append]
  have h2 : (srcHeld o.src o.a.src).length ≤ 2 + 2 * g.N := by
    cases hs : o.src with
    | none => simp [srcHeld]
    | some s =>
      cases hc : o.a.src with
      | none => simp [srcHeld]
      | some c =>
        have h3 := hname s.name
        have h4 := f.few s hs
        have h5 := (f.addrs s c hs hc).length_eq
        have h6 := List.length_filterMap_le (s.bufs[·]?) (c.bufs.map Buf.addr)
        rw [List.length_range] at h5
        simp only [srcHeld, bufsHeld, List.length_append, hb, List.length_singleton]
        omega
  omega

/-- **C66** (partial: as `C66_no_leak_partial`), amount: a player never occupies more than four pieces (its reader object, two file
names, the source buffer object) and two for each of its `N` block buffers, however many sounds it has played. -/
theorem C66_bounded_partial (fp : Fp) (g : Geo) (nullOk : Bool) (ss : List SysOp) {ps : List Owner} {h : Heap}
    (hd : DestroysClosed fp g nullOk ss ([], {})) (e : runSystem fp g nullOk ss ([], {}) = .ok (ps, h)) :
    h.live.length ≤ ps.length * (4 + 2 * g.N) := by
  obtain ⟨more, z, d⟩ := (Sys.run ss (Sys.start g)).2 _ e
  rw [(C66_no_leak_partial fp g nullOk ss hd e).1.length_eq]
  have hf : ∀ o ∈ ps, o.Fine g := z.fine
  clear e z hd d
  induction ps with
  | nil => simp
  | cons o ps ih =>
    have h1 := Owner.held_length (hf o (by simp))
    have h2 := ih fun o ho => hf o (by simp [ho])
    rw [List.flatMap_cons, List.length_append, List.length_cons, Nat.succ_mul]
    omega

/-- The first player's sound is closed, by a call of the reader's `close` or by servicing the event `update()` raises at the end of
a sound, and the player is destroyed; and so on for all players. -/
def tidyUp : List Use → List SysOp
  | [] => []
  | u :: us => .use 0 u :: .destroy 0 :: tidyUp us

theorem Sys.tidy {fp : Fp} {g : Geo} {nullOk : Bool} : ∀ (us : List Use) {ps : List Owner} {h : Heap},
    (∀ u ∈ us, u = .close ∨ ∃ fuel, u = .service fuel .close) → us.length = ps.length → Sys g (ps, h) [] →
    ∃ h', runSystem fp g nullOk (tidyUp us) (ps, h) = .ok ([], h') ∧ h'.live = []
  | [], ps, h, _, hl, z => by
    cases ps with
    | nil => exact ⟨h, rfl, List.perm_nil.1 z.has.perm⟩
    | cons => cases hl
  | u :: us, [], h, _, hl, z => by cases hl
  | u :: us, o :: ps, h, hu, hl, z => by
    obtain ⟨h1, e1, k1⟩ := Owner.close_has (z.fine o (by simp)) (h := h) (xs := ps.flatMap Owner.held)
      (by simpa only [List.flatMap_cons, List.append_nil] using z.has)
    obtain ⟨h2, e2, k2⟩ := k1.free
    have e3 : u.runMem fp g nullOk o h = .ok ({ a := o.a.close, reader := o.reader }, h1) := by
      rcases hu u (by simp) with rfl | ⟨fuel, rfl⟩ <;> exact e1
    obtain ⟨h', e4, k4⟩ := Sys.tidy (fp := fp) (nullOk := nullOk) us (ps := ps) (h := h2) (fun u hm => hu u (by simp [hm])) (by simpa using hl)
      ⟨fun o ho => z.fine o (by simp [ho]), by simpa only [List.append_nil] using k2⟩
    refine ⟨h', ?_, k4⟩
    simp only [tidyUp, runSystem, SysOp.runMem, List.getElem?_cons_zero, e3, ok_bind, pure_eq_ok, List.set_cons_zero, Owner.destroy, e2,
      List.eraseIdx_cons_zero]
    exact e4

theorem runSystem_append {fp : Fp} {g : Geo} {nullOk : Bool} : ∀ (ss ts : List SysOp) (x : List Owner × Heap),
    runSystem fp g nullOk (ss ++ ts) x = (runSystem fp g nullOk ss x >>= fun y => runSystem fp g nullOk ts y)
  | [], ts, x => rfl
  | s :: ss, ts, x => by
    simp only [List.cons_append, runSystem]
    cases s.runMem fp g nullOk x.1 x.2 with
    | error e => rfl
    | ok y => exact runSystem_append ss ts y

/-- **C66** (partial: as `C66_no_leak_partial`), end: whatever the players did before, when each of them is closed and then destroyed,
every piece of memory has been released. -/
theorem C66_all_released_partial (fp : Fp) (g : Geo) (nullOk : Bool) (ss : List SysOp) {ps : List Owner} {h : Heap} (us : List Use)
    (hd : DestroysClosed fp g nullOk ss ([], {})) (e : runSystem fp g nullOk ss ([], {}) = .ok (ps, h))
    (hu : ∀ u ∈ us, u = .close ∨ ∃ fuel, u = .service fuel .close) (hl : us.length = ps.length) :
    ∃ h', runSystem fp g nullOk (ss ++ tidyUp us) ([], {}) = .ok ([], h') ∧ h'.live = [] := by
  obtain ⟨more, z, d⟩ := (Sys.run ss (Sys.start g)).2 _ e
  rw [d hd] at z
  obtain ⟨h', e', k'⟩ := Sys.tidy (fp := fp) (nullOk := nullOk) us hu hl z
  exact ⟨h', by rw [runSystem_append, e]; exact e', k'⟩

/-- A small geometry: blocks of four samples, two buffers. -/
def heapGeo : Geo := ⟨2, 2, fun _ => []⟩

/-- A file of twelve samples. -/
def heapFile : Dev := { bytes := List.replicate 24 1 }

/-- Two players; the second plays a file with buffers in the external memory, then one that does not exist; the first plays a file,
twice. -/
def heapDemo : List SysOp :=
  [.construct, .construct, .use 1 (.set fun r => r.setPSRAM true), .use 1 (.playRaw (some heapFile) 1), .use 0 (.playRaw (some heapFile) 1),
   .use 1 (.update 2 fun _ => true), .use 1 (.set fun r => r.setPSRAM false), .use 1 (.service 9 .reload), .use 0 (.playRaw (some heapFile) 2),
   .use 1 (.playRaw none 1), .destroy 1]

theorem heapDemo_run : (runSystem Fp.ideal heapGeo true heapDemo ([], {})).map (fun x => (x.1.length, x.2.live.map Prod.snd)) =
    .ok (1, [.reader, .chars, .source, .chars, .buffer, .samples, .buffer, .samples]) := by decide +kernel

/-- Before the second player gave up its file both kinds of sample memory were in use. -/
theorem heapDemo_before : (runSystem Fp.ideal heapGeo true (heapDemo.take 6) ([], {})).map (fun x => (x.1.length, x.2.live.map Prod.snd)) =
    .ok (2, [.reader, .reader, .chars, .source, .chars, .buffer, .extSamples, .buffer, .extSamples, .chars, .source, .chars, .buffer, .samples,
      .buffer, .samples]) := by decide +kernel

/-- A test for `DestroysClosed`. -/
def destroysClosed (fp : Fp) (g : Geo) (nullOk : Bool) : List SysOp → List Owner × Heap → Bool
  | [], _ => true
  | s :: ss, x =>
    (match s with
      | .destroy k => (x.1[k]?.map fun o => o.name.isNone && o.a.src.isNone).getD true
      | _ => true) &&
    match s.runMem fp g nullOk x.1 x.2 with
    | .ok x' => destroysClosed fp g nullOk ss x'
    | .error _ => true

theorem destroysClosed_sound {fp : Fp} {g : Geo} {nullOk : Bool} : ∀ (ss : List SysOp) (x : List Owner × Heap),
    destroysClosed fp g nullOk ss x = true → DestroysClosed fp g nullOk ss x
  | [], _, _ => trivial
  | s :: ss, x, h => by
    have h1 : (match s with
      | .destroy k => (x.1[k]?.map fun o => o.name.isNone && o.a.src.isNone).getD true
      | _ => true) = true := by cases s <;> exact (Bool.and_eq_true _ _ ▸ h).1
    have h2 : (match s.runMem fp g nullOk x.1 x.2 with
      | .ok x' => destroysClosed fp g nullOk ss x'
      | .error _ => true) = true := by cases s <;> exact (Bool.and_eq_true _ _ ▸ h).2
    refine ⟨?_, ?_⟩
    · rintro k o rfl ho
      simpa only [ho, Option.map_some, Option.getD_some, Bool.and_eq_true, Option.isNone_iff_eq_none] using h1
    · intro x' e
      rw [e] at h2
      exact destroysClosed_sound ss x' h2

/-- The theorems apply to the program above: closing and destroying its one remaining player leaves nothing. -/
example : ∃ h', runSystem Fp.ideal heapGeo true (heapDemo ++ tidyUp [.service 0 .close]) ([], {}) = .ok ([], h') ∧ h'.live = [] := by
  have hd : DestroysClosed Fp.ideal heapGeo true heapDemo ([], {}) := destroysClosed_sound _ _ (by decide +kernel)
  obtain ⟨ps, h, e, hl⟩ : ∃ ps h, runSystem Fp.ideal heapGeo true heapDemo ([], {}) = .ok (ps, h) ∧ ps.length = 1 := by
    have := heapDemo_run
    cases e : runSystem Fp.ideal heapGeo true heapDemo ([], {}) with
    | error e => rw [e] at this; cases this
    | ok x => rw [e] at this; injection this with this; exact ⟨x.1, x.2, rfl, (Prod.mk.inj this).1⟩
  exact C66_all_released_partial Fp.ideal heapGeo true heapDemo [.service 0 .close] hd e (by simp) (by simp [hl])

example : ∀ ps h, runSystem Fp.ideal heapGeo true heapDemo ([], {}) = .ok (ps, h) →
    h.live.Perm (ps.flatMap Owner.held) ∧ h.live.length ≤ ps.length * 8 := by
  intro ps h e
  have hd : DestroysClosed Fp.ideal heapGeo true heapDemo ([], {}) := destroysClosed_sound _ _ (by decide +kernel)
  exact ⟨(C66_no_leak_partial Fp.ideal heapGeo true heapDemo hd e).1, C66_bounded_partial Fp.ideal heapGeo true heapDemo hd e⟩

/-- **C66** refuted: destroying a player does not release what it holds.  A player that plays a file, is stopped and destroyed leaves
its file names, source buffer and block buffers allocated, though no player exists any more.  (The readers' destructors do not call
`close`, and the player has no function that does.) -/
theorem C66_refuted : (runSystem Fp.ideal heapGeo true [.construct, .use 0 (.playRaw (some heapFile) 1), .use 0 .stop, .destroy 0] ([], {})).map
    (fun x => (x.1.length, x.2.live.map Prod.snd)) = .ok (0, [.chars, .source, .chars, .buffer, .samples, .buffer, .samples]) := by decide +kernel

end TVP
