import Verif.Model.Heap
import Verif.Lemmas.Cache
import Verif.Lemmas.Play
import Verif.Lemmas.SrcInv
import Verif.Lemmas.Conflict
import Mathlib.Data.List.Perm.Basic
import Mathlib.Tactic.Linarith

/-! # Lemmas about the memory of file players -/

namespace TVP

/-- The heap contains exactly the pieces `xs`, all of different identity. -/
structure Heap.Has (h : Heap) (xs : List (Nat × Piece)) : Prop where
  perm : h.live.Perm xs
  nodup : (h.live.map Prod.fst).Nodup
  fresh : ∀ x ∈ h.live, x.1 < h.next

theorem Heap.Has.of_perm {h : Heap} {xs ys : List (Nat × Piece)} (k : h.Has xs) (p : xs.Perm ys) : h.Has ys :=
  ⟨k.perm.trans p, k.nodup, k.fresh⟩

theorem Heap.Has.free {h : Heap} {xs : List (Nat × Piece)} {p : Piece} {id : Nat} (k : h.Has ((id, p) :: xs)) :
    ∃ h', h.free p id = .ok h' ∧ h'.Has xs := by
  have hm : (id, p) ∈ h.live := k.perm.mem_iff.2 (by simp)
  refine ⟨{ h with live := h.live.erase (id, p) }, by unfold Heap.free; rw [if_pos hm], ?_, ?_, ?_⟩
  · have := k.perm.erase (id, p)
    rwa [List.erase_cons_head] at this
  · exact k.nodup.sublist (List.erase_sublist.map _)
  · intro x hx; exact k.fresh x (List.mem_of_mem_erase hx)

theorem Heap.Has.alloc {h : Heap} {xs : List (Nat × Piece)} (k : h.Has xs) (p : Piece) :
    (h.alloc p).2.Has (((h.alloc p).1, p) :: xs) := by
  refine ⟨?_, ?_, ?_⟩
  · exact (List.perm_append_singleton _ _).trans (k.perm.cons _)
  · simp only [Heap.alloc, List.map_append, List.map_cons, List.map_nil]
    rw [List.nodup_append]
    refine ⟨k.nodup, by simp, ?_⟩
    intro a ha b hb e
    obtain ⟨x, hx, rfl⟩ := List.mem_map.1 ha
    simp only [List.mem_singleton] at hb
    have := k.fresh x hx
    omega
  · intro x hx
    simp only [Heap.alloc, List.mem_append, List.mem_singleton] at hx ⊢
    rcases hx with hx | rfl
    · have := k.fresh x hx; omega
    · simp

/-- The pieces of a file name. -/
def nameHeld : Option Nat → List (Nat × Piece)
  | none => []
  | some n => [(n, .chars)]

/-- The pieces of a block buffer. -/
def BufMem.held (b : BufMem) : List (Nat × Piece) := [(b.mem, if b.ext then .extSamples else .samples), (b.obj, .buffer)]

/-- The pieces of the block buffers at the addresses `as`. -/
def bufsHeld (bufs : List BufMem) (as : List Nat) : List (Nat × Piece) := (as.filterMap (bufs[·]?)).flatMap BufMem.held

/-- The pieces a source buffer has pointers to: its block buffers as far as they are in the vector, its name, and itself. -/
def srcHeld : Option SrcMem → Option Cache → List (Nat × Piece)
  | some s, some c => bufsHeld s.bufs (c.bufs.map Buf.addr) ++ nameHeld s.name ++ [(s.obj, .source)]
  | _, _ => []

/-- The pieces a player can reach. -/
def Owner.held (o : Owner) : List (Nat × Piece) := (o.reader, .reader) :: (nameHeld o.name ++ srcHeld o.src o.a.src)

theorem freeName_has {h : Heap} {n : Option Nat} {xs : List (Nat × Piece)} (k : h.Has (nameHeld n ++ xs)) :
    ∃ h', freeName h n = .ok h' ∧ h'.Has xs := by
  cases n with
  | none => exact ⟨h, rfl, k⟩
  | some n => exact k.free

theorem BufMem.delete_has {h : Heap} {b : BufMem} {xs : List (Nat × Piece)} (k : h.Has (b.held ++ xs)) :
    ∃ h', b.delete h = .ok h' ∧ h'.Has xs := by
  obtain ⟨h1, e1, k1⟩ := Heap.Has.free (p := sampleKind b.ext) (id := b.mem) (xs := (b.obj, .buffer) :: xs) k
  obtain ⟨h2, e2, k2⟩ := k1.free
  exact ⟨h2, by unfold BufMem.delete; rw [e1]; exact e2, k2⟩

theorem deleteBufs_has {bufs : List BufMem} {xs : List (Nat × Piece)} : ∀ {as : List Nat} {h : Heap},
    (∀ a ∈ as, a < bufs.length) → h.Has (bufsHeld bufs as ++ xs) → ∃ h', deleteBufs bufs as h = .ok h' ∧ h'.Has xs
  | [], h, _, k => ⟨h, rfl, k⟩
  | a :: as, h, ha, k => by
    have hl := ha a (by simp)
    have e : bufs[a]? = some bufs[a] := List.getElem?_eq_getElem hl
    have k' : h.Has (bufs[a].held ++ (bufsHeld bufs as ++ xs)) := by
      unfold bufsHeld at k ⊢
      rw [List.filterMap_cons_some e, List.flatMap_cons, List.append_assoc] at k
      exact k
    obtain ⟨h1, e1, k1⟩ := BufMem.delete_has k'
    obtain ⟨h2, e2, k2⟩ := deleteBufs_has (fun x hx => ha x (by simp [hx])) k1
    refine ⟨h2, ?_, k2⟩
    rw [deleteBufs, e]
    simp only [e1, ok_bind, e2]

theorem SrcMem.close_has {s : SrcMem} {c : Cache} {h : Heap} {xs : List (Nat × Piece)}
    (ha : ∀ b ∈ c.bufs, b.addr < s.bufs.length) (k : h.Has (bufsHeld s.bufs (c.bufs.map Buf.addr) ++ (nameHeld s.name ++ xs))) :
    ∃ h', s.close c h = .ok ({ s with name := none }, { c with bufs := [] }, h') ∧ h'.Has xs := by
  obtain ⟨h1, e1, k1⟩ := deleteBufs_has (by simpa using ha) k
  obtain ⟨h2, e2, k2⟩ := freeName_has k1
  exact ⟨h2, by unfold SrcMem.close; simp only [e1, ok_bind, e2]; rfl, k2⟩

theorem SrcMem.delete_has {s : SrcMem} {c : Cache} {h : Heap} {xs : List (Nat × Piece)} (hs : s.name = none) (hc : c.bufs = [])
    (k : h.Has ((s.obj, .source) :: xs)) : ∃ h', s.delete c h = .ok h' ∧ h'.Has xs := by
  obtain ⟨h1, e1, k1⟩ := SrcMem.close_has (s := s) (c := c) (h := h) (xs := (s.obj, .source) :: xs) (by simp [hc])
    (by rw [hs, hc]; exact k)
  obtain ⟨h2, e2, k2⟩ := SrcMem.close_has (s := { s with name := none }) (c := { c with bufs := [] }) (h := h1)
    (xs := (s.obj, .source) :: xs) (by simp) k1
  obtain ⟨h3, e3, k3⟩ := k2.free
  refine ⟨h3, ?_, k3⟩
  unfold SrcMem.delete
  simp only [e1, ok_bind, e2, e3]

/-- The pointers of a player fit together: there is a source buffer object when the reader has a cache, and the vector of the
cache holds every block buffer made for it exactly once. -/
structure Owner.Fine (g : Geo) (o : Owner) : Prop where
  both : o.src.isSome = o.a.src.isSome
  addrs : ∀ s c, o.src = some s → o.a.src = some c → (c.bufs.map Buf.addr).Perm (List.range s.bufs.length)
  few : ∀ s, o.src = some s → s.bufs.length ≤ g.N

theorem Owner.Fine.empty {g : Geo} {r : Rd} {n : Nat} {m : Option Nat} : (Owner.mk ⟨r, none⟩ n m none).Fine g :=
  ⟨rfl, by simp, by simp⟩

theorem Owner.close_has {g : Geo} {o : Owner} {h : Heap} {xs : List (Nat × Piece)} (f : o.Fine g) (k : h.Has (o.held ++ xs)) :
    ∃ h', o.close h = .ok ({ a := o.a.close, reader := o.reader }, h') ∧ h'.Has ((o.reader, .reader) :: xs) := by
  have key : ∀ {h1 : Heap}, h1.Has (nameHeld o.name ++ ((o.reader, .reader) :: xs)) →
      ∃ h', (do let h ← freeName h1 o.name; return (({ a := o.a.close, reader := o.reader } : Owner), h) : M (Owner × Heap)) =
        .ok ({ a := o.a.close, reader := o.reader }, h') ∧ h'.Has ((o.reader, .reader) :: xs) := by
    intro h1 k1
    obtain ⟨h2, e2, k2⟩ := freeName_has k1
    exact ⟨h2, by rw [e2]; rfl, k2⟩
  unfold Owner.close
  unfold Owner.held at k
  cases hs : o.src with
  | none =>
    rw [hs] at k
    refine key (k.of_perm ?_)
    simp only [srcHeld, List.append_nil, List.cons_append]
    exact List.perm_middle.symm
  | some s =>
    cases hc : o.a.src with
    | none => have := f.both; rw [hs, hc] at this; cases this
    | some c =>
      rw [hs, hc] at k
      have hp := f.addrs s c hs hc
      have k1 : h.Has (bufsHeld s.bufs (c.bufs.map Buf.addr) ++ (nameHeld s.name ++ ((s.obj, .source) ::
          (nameHeld o.name ++ ((o.reader, .reader) :: xs))))) := by
        refine k.of_perm ?_
        simp only [srcHeld]
        generalize bufsHeld s.bufs (c.bufs.map Buf.addr) = A
        generalize nameHeld s.name = B
        generalize nameHeld o.name = C
        rw [List.perm_iff_count]
        intro x
        simp only [List.cons_append, List.count_cons, List.count_append, List.append_assoc, List.count_nil]
        omega
      obtain ⟨h1, e1, k2⟩ := SrcMem.close_has (by
        intro b hb
        exact List.mem_range.1 (hp.mem_iff.1 (List.mem_map_of_mem hb))) k1
      obtain ⟨h2, e2, k3⟩ := SrcMem.delete_has (s := { s with name := none }) (c := { c with bufs := [] }) rfl rfl k2
      obtain ⟨h3, e3, k4⟩ := key k3
      refine ⟨h3, ?_, k4⟩
      dsimp only
      simp only [e1, ok_bind, e2]
      exact e3

theorem newBufs_has {ext : Bool} : ∀ {n : Nat} {h : Heap} {xs : List (Nat × Piece)}, h.Has xs →
    (newBufs ext n h).1.length = n ∧ (newBufs ext n h).2.Has ((newBufs ext n h).1.flatMap BufMem.held ++ xs)
  | 0, h, xs, k => ⟨rfl, k⟩
  | n + 1, h, xs, k => by
    have k1 := (k.alloc .buffer).alloc (sampleKind ext)
    obtain ⟨l, k2⟩ := newBufs_has (ext := ext) (n := n) k1
    refine ⟨by simp only [newBufs, BufMem.new, List.length_cons, l], ?_⟩
    simp only [newBufs, BufMem.new, List.flatMap_cons]
    refine k2.of_perm ?_
    rw [List.perm_iff_count]
    intro x
    simp only [BufMem.held, List.cons_append, List.count_cons, List.count_append, List.nil_append, sampleKind]
    omega

theorem filterMap_range {α : Type} (l : List α) : (List.range l.length).filterMap (l[·]?) = l := by
  induction l using List.reverseRecOn with
  | nil => rfl
  | append_singleton l a ih =>
    rw [List.length_append, List.length_singleton, List.range_succ, List.filterMap_append]
    have e : (List.range l.length).filterMap ((l ++ [a])[·]?) = (List.range l.length).filterMap (l[·]?) := by
      apply List.filterMap_congr
      intro x hx
      exact List.getElem?_append_left (List.mem_range.1 hx)
    rw [e, ih]
    simp

/-- `playFinish` gives a new source buffer whose vector holds buffers `0, 1, ...`, or none. -/
theorem playFinish_addrs {g : Geo} {r : Rd} {f : Dev} {ok : Bool} {a : FileReader} (e : playFinish g r f = .ok (ok, a)) :
    (ok = false ∧ a.src = none) ∨ (ok = true ∧ ∃ c, a.src = some c ∧ c.bufs.map Buf.addr = List.range c.bufs.length ∧ c.bufs.length ≤ g.N) := by
  unfold playFinish at e
  split at e
  · cases e; exact Or.inl ⟨rfl, rfl⟩
  · split at e
    · cases e
    · simp only [pure_eq_ok] at e
      injection e with e
      obtain ⟨rfl, rfl⟩ := Prod.mk.injEq .. ▸ e
      refine Or.inr ⟨rfl, _, rfl, ?_⟩
      have key : ∀ (c : Cache) (i : Int) (fw : Bool), c.bufs = [] → (c.preLoad g i fw).bufs.map Buf.addr = List.range (c.preLoad g i fw).bufs.length ∧
          (c.preLoad g i fw).bufs.length ≤ g.N := by
        intro c i fw hc
        obtain ⟨t, h1, h2, h3⟩ := c.preLoad_addrs g i fw
        unfold Cache.addrs at h1
        rw [hc] at h1 h2 h3
        simp only [List.map_nil, List.nil_append, List.length_nil, Nat.zero_add, Nat.zero_max] at h1 h2 h3
        have hl := congrArg List.length h1
        rw [List.length_map] at hl
        rw [h1, hl, List.range_eq_range']
        exact ⟨h2, h3⟩
      exact key _ _ _ rfl

theorem finish_has {g : Geo} {rid n : Nat} {r : Rd} {f : Dev} {h : Heap} {xs : List (Nat × Piece)}
    (k : h.Has ((n, .chars) :: (rid, .reader) :: xs)) :
    (Owner.finish g rid n r f h).map (fun x => (x.1, x.2.1.a)) = playFinish g r f ∧
    ∀ b o h', Owner.finish g rid n r f h = .ok (b, o, h') → o.Fine g ∧ h'.Has (o.held ++ xs) := by
  unfold Owner.finish
  cases e : playFinish g r f with
  | error e => exact ⟨rfl, by intro b o h' e2; cases e2⟩
  | ok x =>
    obtain ⟨ok, a⟩ := x
    simp only [ok_bind]
    rcases playFinish_addrs e with ⟨rfl, hn⟩ | ⟨rfl, c, hc, h1, h2⟩
    · obtain ⟨h1, e1, k1⟩ := k.free
      simp only [Bool.not_false, if_true, e1, ok_bind, pure_eq_ok]
      refine ⟨rfl, ?_⟩
      intro b o h' e2
      injection e2 with e2
      simp only [Prod.mk.injEq] at e2
      obtain ⟨rfl, rfl, rfl⟩ := e2
      obtain ⟨rd, src⟩ := a
      cases hn
      exact ⟨Owner.Fine.empty, k1⟩
    · simp only [Bool.not_true, Bool.false_eq_true, if_false, pure_eq_ok]
      refine ⟨rfl, ?_⟩
      intro b o h' e2
      injection e2 with e2
      simp only [Prod.mk.injEq] at e2
      obtain ⟨rfl, rfl, rfl⟩ := e2
      have k1 := (k.alloc .source).alloc .chars
      obtain ⟨l, k2⟩ := newBufs_has (ext := a.rd.psram) (n := (a.src.map fun c => c.bufs.length).getD 0) k1
      have hl : (a.src.map fun c => c.bufs.length).getD 0 = c.bufs.length := by rw [hc]; rfl
      refine ⟨⟨by rw [hc]; rfl, ?_, ?_⟩, ?_⟩
      · intro s c' es ec
        cases es
        rw [hc] at ec; cases ec
        rw [l, hl, h1]
      · intro s es
        cases es
        rw [l, hl]
        exact h2
      · refine k2.of_perm ?_
        simp only [Owner.held, hc, srcHeld, bufsHeld, h1]
        rw [← hl]
        simp only [hc, Option.map_some, Option.getD_some] at l ⊢
        generalize newBufs a.rd.psram c.bufs.length _ = nb at *
        have e3 := filterMap_range nb.1
        rw [l] at e3
        rw [e3, List.perm_iff_count]
        intro x
        simp only [nameHeld, List.cons_append, List.count_cons, List.count_append, List.count_nil, List.nil_append]
        omega

theorem playFile_has {g : Geo} {o : Owner} {file : Option Dev} {junk : List Nat} {isWave : Bool} {nchRaw : Int} {h : Heap}
    {xs : List (Nat × Piece)} (f : o.Fine g) (k : h.Has (o.held ++ xs)) :
    (o.playFile g file junk isWave nchRaw h).map (fun x => (x.1, x.2.1.a)) = o.a.playFile g file junk isWave nchRaw ∧
    ∀ b o' h', o.playFile g file junk isWave nchRaw h = .ok (b, o', h') → o'.Fine g ∧ h'.Has (o'.held ++ xs) := by
  obtain ⟨h1, e1, k1⟩ := Owner.close_has f k
  have k2 := k1.alloc .chars
  unfold Owner.playFile FileReader.playFile
  simp only [e1, ok_bind]
  generalize hn : (h1.alloc .chars).1 = n at *
  generalize hh : (h1.alloc .chars).2 = h2 at *
  cases file with
  | none =>
    obtain ⟨h3, e3, k3⟩ := k2.free
    simp only [e3, ok_bind, pure_eq_ok]
    refine ⟨rfl, ?_⟩
    intro b o h' e2
    injection e2 with e2
    simp only [Prod.mk.injEq] at e2
    obtain ⟨rfl, rfl, rfl⟩ := e2
    exact ⟨Owner.Fine.empty, k3⟩
  | some d =>
    cases isWave with
    | false =>
      simp only [Bool.false_eq_true, if_false]
      exact finish_has k2
    | true =>
      simp only [if_true]
      cases e : playParseWav { o.a.close.rd with fileSize := i32 d.size } d junk with
      | error e => exact ⟨rfl, by intro b o h' e2; cases e2⟩
      | ok x =>
        obtain ⟨ok, r, d'⟩ := x
        simp only [ok_bind]
        cases ok with
        | true =>
          simp only [Bool.not_true, Bool.false_eq_true, if_false]
          exact finish_has k2
        | false =>
          simp only [Bool.not_false, if_true, pure_eq_ok]
          refine ⟨rfl, ?_⟩
          intro b o h' e2
          injection e2 with e2
          simp only [Prod.mk.injEq] at e2
          obtain ⟨rfl, rfl, rfl⟩ := e2
          refine ⟨Owner.Fine.empty, k2.of_perm ?_⟩
          exact List.Perm.swap _ _ _

/-- A reader with the same source buffer, whose vector may be in a different order. -/
def SamePtrs (x y : Option Cache) : Prop :=
  match x, y with
  | none, none => True
  | some c, some c' => (c'.bufs.map Buf.addr).Perm (c.bufs.map Buf.addr)
  | _, _ => False

theorem SamePtrs.refl (x : Option Cache) : SamePtrs x x := by
  cases x
  · exact trivial
  · exact List.Perm.refl _

theorem SamePtrs.map (x : Option Cache) {f : Cache → Cache} (hf : ∀ c, (f c).bufs = c.bufs) : SamePtrs x (x.map f) := by
  cases x with
  | none => exact trivial
  | some c => exact (by rw [hf] : ((f c).bufs.map Buf.addr).Perm _)

theorem samePtrs_read {fp : Fp} {g : Geo} {nullOk : Bool} {fuel n : Nat} {a a' : FileReader} {fs : List (List Int)}
    (e : a.read fp g nullOk fuel n = .ok (fs, a')) : SamePtrs a.src a'.src := by
  unfold FileReader.read at e
  obtain ⟨o, h1, e⟩ := bind_ok_iff.1 e
  cases e
  refine read_inv (S := fileSrc g nullOk) (I := fun s => SamePtrs a.src s) ?_ (SamePtrs.refl _) h1
  intro s i v s' hs h
  unfold fileSrc at h
  simp only at h
  cases s with
  | none =>
    simp only at h
    split at h
    · cases h; exact hs
    · cases h
  | some c =>
    cases h
    have := c.get_addrs g i
    unfold Cache.addrs at this
    cases ha : a.src with
    | none => rw [ha] at hs; exact hs.elim
    | some c0 =>
      rw [ha] at hs
      simp only [SamePtrs] at hs ⊢
      rw [this]
      exact hs

theorem samePtrs_update {fp : Fp} {g : Geo} {nullOk : Bool} {fuel : Nat} {alloc : Nat → Bool} {a a' : FileReader} {fx : Fx}
    (e : a.update fp g nullOk fuel alloc = .ok (fx, a')) : SamePtrs a.src a'.src := by
  rcases update_outcome e with rfl | ⟨_, fs, e⟩
  · exact SamePtrs.refl _
  · exact samePtrs_read e

theorem Owner.Fine.same {g : Geo} {o : Owner} {a : FileReader} (f : o.Fine g) (hs : SamePtrs o.a.src a.src) : ({ o with a := a } : Owner).Fine g := by
  refine ⟨?_, ?_, f.few⟩
  · have := f.both
    cases h1 : o.a.src <;> cases h2 : a.src <;> rw [h1] at this hs <;> rw [h2] at hs <;> first | exact hs.elim | simpa [h2] using this
  · intro s c es ec
    cases h1 : o.a.src with
    | none => rw [h1, show a.src = some c from ec] at hs; exact hs.elim
    | some c0 =>
      rw [h1, show a.src = some c from ec] at hs
      exact hs.trans (f.addrs s c0 es h1)

theorem Owner.held_same {o : Owner} {a : FileReader} (hs : SamePtrs o.a.src a.src) : o.held.Perm ({ o with a := a } : Owner).held := by
  unfold Owner.held
  refine List.Perm.cons _ (List.Perm.append_left _ ?_)
  dsimp only
  cases h1 : o.a.src <;> cases h2 : a.src <;> rw [h1, h2] at hs
  · exact hs.elim
  · exact hs.elim
  · cases o.src with
    | none => exact List.Perm.refl _
    | some s =>
      refine List.Perm.append_right _ (List.Perm.append_right _ ?_)
      exact (hs.symm.filterMap _).flatMap_right _

theorem Use.samePtrs {fp : Fp} {g : Geo} {nullOk : Bool} {a a' : FileReader} {u : Use}
    (hu : match u with | .close | .service _ .close | .playRaw .. | .playWav .. => False | _ => True)
    (e : u.run fp g nullOk a = .ok a') : SamePtrs a.src a'.src := by
  cases u with
  | stop => cases e; exact SamePtrs.refl _
  | close => exact hu.elim
  | restart => cases e; exact SamePtrs.refl _
  | loop n =>
    obtain ⟨r, _, e⟩ := bind_ok_iff.1 e
    cases e; exact SamePtrs.refl _
  | setLoopType t => cases e; exact SamePtrs.map _ fun _ => rfl
  | setLoopStart l => cases e; exact SamePtrs.map _ fun _ => rfl
  | setLoopFinish l => cases e; exact SamePtrs.map _ fun _ => rfl
  | set f => cases e; exact SamePtrs.refl _
  | playRaw file n => exact hu.elim
  | playWav file junk => exact hu.elim
  | update fuel alloc =>
    obtain ⟨⟨fx, a1⟩, h1, e⟩ := bind_ok_iff.1 e
    cases e; exact samePtrs_update h1
  | service fuel ev =>
    cases ev with
    | close => exact hu.elim
    | reload =>
      simp only [Use.run, FileReader.service, FileReader.triggerReload] at e
      cases hs : a.src with
      | none => rw [hs] at e; cases e; rw [hs]; exact trivial
      | some c =>
        rw [hs] at e
        obtain ⟨c1, h1, e⟩ := bind_ok_iff.1 e
        cases e
        exact Cache.triggerReload_addrs h1

/-- A use of one player: the same effect on its reader as without memory, and afterwards the heap holds what the player
reaches and everything else that was there. -/
theorem Use.runMem_has {fp : Fp} {g : Geo} {nullOk : Bool} {o : Owner} {h : Heap} {xs : List (Nat × Piece)} (u : Use) (f : o.Fine g)
    (k : h.Has (o.held ++ xs)) :
    (u.runMem fp g nullOk o h).map (fun x => x.1.a) = u.run fp g nullOk o.a ∧
    ∀ o' h', u.runMem fp g nullOk o h = .ok (o', h') → o'.Fine g ∧ h'.Has (o'.held ++ xs) := by
  have other : ∀ {u : Use}, (match u with | .close | .service _ .close | .playRaw .. | .playWav .. => False | _ => True) →
      u.runMem fp g nullOk o h = (do return ({ o with a := ← u.run fp g nullOk o.a }, h)) →
      (u.runMem fp g nullOk o h).map (fun x => x.1.a) = u.run fp g nullOk o.a ∧
      ∀ o' h', u.runMem fp g nullOk o h = .ok (o', h') → o'.Fine g ∧ h'.Has (o'.held ++ xs) := by
    intro u hu e
    rw [e]
    cases e1 : u.run fp g nullOk o.a with
    | error e => exact ⟨rfl, by intro o' h' e2; cases e2⟩
    | ok a' =>
      refine ⟨rfl, ?_⟩
      intro o' h' e2
      cases e2
      have hs := Use.samePtrs hu e1
      exact ⟨f.same hs, k.of_perm (List.Perm.append_right _ (Owner.held_same hs))⟩
  have closing : (o.close h).map (fun x => x.1.a) = .ok o.a.close ∧
      ∀ o' h', o.close h = .ok (o', h') → o'.Fine g ∧ h'.Has (o'.held ++ xs) := by
    obtain ⟨h1, e1, k1⟩ := Owner.close_has f k
    rw [e1]
    refine ⟨rfl, ?_⟩
    intro o' h' e2
    cases e2
    exact ⟨Owner.Fine.empty, k1⟩
  have playing : ∀ (file : Option Dev) (junk : List Nat) (w : Bool) (n : Int),
      ((do return (← o.playFile g file junk w n h).2 : M (Owner × Heap))).map (fun x => x.1.a) =
        (do return (← o.a.playFile g file junk w n).2 : M FileReader) ∧
      ∀ o' h', (do return (← o.playFile g file junk w n h).2 : M (Owner × Heap)) = .ok (o', h') → o'.Fine g ∧ h'.Has (o'.held ++ xs) := by
    intro file junk w n
    obtain ⟨p1, p2⟩ := playFile_has (g := g) (file := file) (junk := junk) (isWave := w) (nchRaw := n) f k
    rw [← p1]
    cases e : o.playFile g file junk w n h with
    | error e => exact ⟨rfl, by intro o' h' e2; cases e2⟩
    | ok x =>
      refine ⟨rfl, ?_⟩
      intro o' h' e2
      obtain ⟨b, o1, h1⟩ := x
      cases e2
      exact p2 _ _ _ e
  cases u with
  | close => exact closing
  | service fuel ev =>
    cases ev with
    | close => exact closing
    | reload => exact other trivial rfl
  | playRaw file n => exact playing file [] false n
  | playWav file junk => exact playing file junk true 0
  | _ => exact other trivial rfl

end TVP
